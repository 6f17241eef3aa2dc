import Verif.Props.TemplateGrid
import Verif.Props.Strings
import Verif.Props.Binned
import Verif.Lemmas.Dict
import Verif.Lemmas.Details

/-!
C80 (attributes of a template), C81 (which template files are used), C82 (one template per type), C83 (`eval_model`), C84 (catalogue rows find their template).
-/
namespace Redrock
set_option linter.unusedSectionVars false

/-! ## C80 -/

private theorem toUpper_space (c : Char) (h : pyIsSpace c = false) : pyIsSpace c.toUpper = false := by
  unfold Char.toUpper
  split
  · next hc =>
    obtain ⟨h1, h2⟩ := hc
    have g1 : 97 ≤ c.toNat := UInt32.le_iff_toNat_le.1 h1
    have g2 : c.toNat ≤ 122 := UInt32.le_iff_toNat_le.1 h2
    have e : ∀ hv, Char.toNat ⟨c.val + ('A'.val - 'a'.val), hv⟩ = c.toNat - 32 := by
      intro hv
      change (c.val + ('A'.val - 'a'.val)).toNat = _
      rw [UInt32.toNat_add]
      have e1 : ('A'.val - 'a'.val).toNat = 4294967264 := by decide
      rw [e1]
      change (c.toNat + 4294967264) % 2 ^ 32 = _
      omega
    unfold pyIsSpace
    rw [e]
    simp
    omega
  · exact h

theorem trimmed_pyUpper (s : PyStr) (h : Trimmed s) : Trimmed (pyUpper s) := by
  unfold pyUpper
  constructor
  · intro c hc
    rw [List.head?_map] at hc
    obtain ⟨d, hd, rfl⟩ := Option.map_eq_some_iff.1 hc
    exact toUpper_space d (h.1 d hd)
  · intro c hc
    rw [List.getLast?_map] at hc
    obtain ⟨d, hd, rfl⟩ := Option.map_eq_some_iff.1 hc
    exact toUpper_space d (h.2 d hd)

/-- **C80** names: type and subtype are those of the header without surrounding blanks and in upper case, no blank remains at their ends, and the method is PCA (also when the header does not
say) or NMF. -/
theorem C80_names (float : PyStr → Py ℝ) (opts : ZscanOptions) (f : TemplateFile) (t : Template) (h : Template.load float opts f = .ok t) :
    (∃ ty, f.rrtype = some ty ∧ t.rrtype = (pyStrip ty).map Char.toUpper) ∧ t.subtype = (pyStrip (f.rrsubtyp.getD [])).map Char.toUpper ∧ Trimmed t.rrtype ∧ Trimmed t.subtype ∧
    (f.rrmethod = none → t.method = "PCA".toList) ∧ (∀ m, f.rrmethod = some m → t.method = m.map Char.toUpper) ∧ (t.method = "PCA".toList ∨ t.method = "NMF".toList) ∧
    t.flux = f.flux ∧ t.version = f.version.getD "unknown".toList := by
  obtain ⟨ty, hty, h1, _, _, _, _, hm, hv, _, hf, hmm, hs, _⟩ := load_ok float opts f t h
  have hsub : t.subtype = (pyStrip (f.rrsubtyp.getD [])).map Char.toUpper := by
    rw [hs]
    unfold templateSubtype
    cases f.rrsubtyp with
    | none => rfl
    | some s => rfl
  refine ⟨⟨ty, hty, h1⟩, hsub, ?_, ?_, ?_, ?_, hmm ▸ hm, hf, hv⟩
  · rw [h1]; exact trimmed_pyUpper _ (trimmed_pyStrip ty)
  · rw [hsub]; exact trimmed_pyUpper _ (trimmed_pyStrip _)
  · intro hn; rw [hmm]; unfold templateMethod; rw [hn]; rfl
  · intro m hn; rw [hmm]; unfold templateMethod; rw [hn]; rfl

/-- **C80** wavelengths: pixel `i` is at `CRVAL1 + i CDELT1`, or ten to that power if the header says LOGLAM; they increase if `CDELT1 > 0`. -/
theorem C80_wave (float : PyStr → Py ℝ) (opts : ZscanOptions) (f : TemplateFile) (t : Template) (h : Template.load float opts f = .ok t) :
    t.wave.length = f.naxis1 ∧ 0 < f.naxis1 ∧
    (∀ i, i < f.naxis1 → t.wave[i]? = some (if (∃ l, f.loglam = some l ∧ l ≠ 0) then (10 : ℝ) ^ (f.crval1 + (i : ℝ) * f.cdelt1) else f.crval1 + (i : ℝ) * f.cdelt1)) ∧
    (0 < f.cdelt1 → t.wave.Pairwise (· < ·)) := by
  obtain ⟨ty, _, _, _, _, _, hne, _, _, hw, _⟩ := load_ok float opts f t h
  have e : t.wave = (List.range f.naxis1).map (fun (i : Nat) => if (∃ l, f.loglam = some l ∧ l ≠ 0) then (10 : ℝ) ^ (f.crval1 + (i : ℝ) * f.cdelt1) else f.crval1 + (i : ℝ) * f.cdelt1) := by
    rw [hw]
    unfold templateWave
    cases hl : f.loglam with
    | none =>
      apply List.map_congr_left
      intro i _
      rw [if_neg (by simp)]
      ring
    | some l =>
      simp only
      by_cases h0 : l = 0
      · rw [if_pos h0]
        apply List.map_congr_left
        intro i _
        rw [if_neg (by simp [h0])]
        ring
      · rw [if_neg h0, List.map_map]
        apply List.map_congr_left
        intro i _
        rw [if_pos ⟨l, rfl, h0⟩]
        simp only [Function.comp]
        congr 1
        ring
  rw [e]
  refine ⟨by simp, ?_, ?_, ?_⟩
  · rw [← hw, e] at hne
    by_contra h0
    apply hne
    rw [show f.naxis1 = 0 by omega]
    rfl
  · intro i hi
    rw [List.getElem?_map, List.getElem?_range hi]
    rfl
  · intro hc
    rw [List.pairwise_map]
    refine List.pairwise_lt_range.imp ?_
    intro i j hij
    have hlt : f.crval1 + (i : ℝ) * f.cdelt1 < f.crval1 + (j : ℝ) * f.cdelt1 := by
      have : (i : ℝ) < j := by exact_mod_cast hij
      nlinarith
    split
    · exact Real.rpow_lt_rpow_of_exponent_lt (by norm_num) hlt
    · exact hlt

/-- **C80** IGM model: the keyword RRIGM, or the model known for old template versions; a file with neither is refused. -/
theorem C80_igm (float : PyStr → Py ℝ) (opts : ZscanOptions) (f : TemplateFile) (t : Template) (h : Template.load float opts f = .ok t) :
    (∀ m, f.rrigm = some m → t.igm = m) ∧
    (f.rrigm = none → (t.rrtype = "STAR".toList ∧ t.igm = "None".toList) ∨ (t.rrtype = "GALAXY".toList ∧ t.version = "2.6".toList ∧ t.igm = "Calura12".toList) ∨
      (t.rrtype = "QSO".toList ∧ (t.version = "0.1".toList ∨ t.version = "1.0".toList) ∧ t.igm = "Calura12".toList) ∨
      (t.rrtype = "QSO".toList ∧ t.version = "1.1".toList ∧ t.igm = "Kamble20".toList)) := by
  obtain ⟨ty, _, _, _, _, hi, _, _, hv, _⟩ := load_ok float opts f t h
  unfold templateIgm at hi
  constructor
  · intro m hm
    rw [hm] at hi
    injection hi with hi
    exact hi.symm
  · intro hm
    rw [hm] at hi
    simp only at hi
    rw [hv]
    split at hi
    · next e => injection hi with hi; exact Or.inl ⟨e, hi.symm⟩
    · split at hi
      · next e => injection hi with hi; exact Or.inr (Or.inl ⟨e.1, e.2, hi.symm⟩)
      · split at hi
        · next e => injection hi with hi; exact Or.inr (Or.inr (Or.inl ⟨e.1, e.2, hi.symm⟩))
        · split at hi
          · next e => injection hi with hi; exact Or.inr (Or.inr (Or.inr ⟨e.1, e.2, hi.symm⟩))
          · cases hi

private theorem zip_filter_eq (P : ℝ → Bool) (wave row : List ℝ) (h : row.length = wave.length) :
    ((wave.zip row).filter (fun wf => P wf.1)).map (·.2) = ((List.range wave.length).filter (fun i => P (wave.getD i 0))).map (fun i => row.getD i 0) := by
  induction wave generalizing row with
  | nil => simp
  | cons w wave ih =>
    cases row with
    | nil => simp at h
    | cons r row =>
      have ih := ih row (by simpa using h)
      rw [List.zip_cons_cons, List.length_cons, List.range_succ_eq_map, List.filter_cons, List.filter_cons, List.filter_map]
      have e : (fun i => P ((w :: wave).getD i 0)) ∘ Nat.succ = fun i => P (wave.getD i 0) := by
        funext i; simp
      rw [e]
      simp only [List.getD_cons_zero]
      by_cases hP : P w
      · rw [if_pos hP, if_pos hP, List.map_cons, List.map_cons, ih, List.map_map]
        congr 1
      · rw [if_neg hP, if_neg hP, ih, List.map_map]
        congr 1

/-- **C80** [OII] window: galaxy templates fitted with PCA, and no others, carry the part of every basis vector at wavelengths from 3724 to 3733. -/
theorem C80_oii (float : PyStr → Py ℝ) (opts : ZscanOptions) (f : TemplateFile) (t : Template) (h : Template.load float opts f = .ok t) (hflux : ∀ row ∈ f.flux, row.length = f.naxis1) :
    (t.oii ≠ none ↔ t.rrtype = "GALAXY".toList ∧ t.method = "PCA".toList) ∧
    (∀ o, t.oii = some o → o = t.flux.map (fun row => ((List.range t.wave.length).filter (fun i => decide (3724 ≤ t.wave.getD i 0 ∧ t.wave.getD i 0 ≤ 3733))).map (fun i => row.getD i 0))) := by
  have hl := (C80_wave float opts f t h).1
  obtain ⟨ty, _, _, _, _, _, _, _, _, hw, hf, hm, _, ho⟩ := load_ok float opts f t h
  rw [← hm] at ho
  constructor
  · rw [ho]
    split <;> simp_all
  · intro o hoo
    rw [ho] at hoo
    split at hoo
    · injection hoo with hoo
      rw [← hoo, hf, ← hw]
      unfold oiiColumns
      apply List.map_congr_left
      intro row hrow
      have := zip_filter_eq (fun w => decide (3724 ≤ w) && decide (w ≤ 3733)) t.wave row (by rw [hflux row hrow, hl])
      rw [this]
      congr 2
      funext i
      simp [Bool.decide_and]
    · cases hoo

/-! ## C81 -/

/-- Specification of the list of templates: what a line names. Blank lines, comment lines and lines with a single character name nothing; otherwise the first word is a path, taken relative to
`dir` unless it starts with `/`. -/
inductive LineNames (dir : PyStr) : PyStr → Option PyStr → Prop where
  | blank (l : PyStr) (h : ∀ c ∈ l, pyIsSpace c = true) : LineNames dir l none
  | comment (pre rest : PyStr) (h : ∀ c ∈ pre, pyIsSpace c = true) : LineNames dir (pre ++ ['#'] ++ rest) none
  | single (pre post : PyStr) (c : Char) (h : ∀ c ∈ pre, pyIsSpace c = true) (h' : ∀ c ∈ post, pyIsSpace c = true) (hc : pyIsSpace c = false) : LineNames dir (pre ++ [c] ++ post) none
  | rel (pre w rest : PyStr) (h : ∀ c ∈ pre, pyIsSpace c = true) (hw : ∀ c ∈ w, pyIsSpace c = false) (hrest : ∀ c, rest.head? = some c → pyIsSpace c = true)
      (hlong : 2 ≤ w.length ∨ (w.length = 1 ∧ ∃ c ∈ rest, pyIsSpace c = false)) (h1 : w.head? ≠ some '#') (h2 : w.head? ≠ some '/') :
      LineNames dir (pre ++ w ++ rest) (some (dir ++ ['/'] ++ w))
  | abs (pre w rest : PyStr) (h : ∀ c ∈ pre, pyIsSpace c = true) (hw : ∀ c ∈ w, pyIsSpace c = false) (hrest : ∀ c, rest.head? = some c → pyIsSpace c = true)
      (hlong : 2 ≤ w.length ∨ (w.length = 1 ∧ ∃ c ∈ rest, pyIsSpace c = false)) (h2 : w.head? = some '/') :
      LineNames dir (pre ++ w ++ rest) (some w)

private theorem dropWhile_append_all (pre s : PyStr) (h : ∀ c ∈ pre, pyIsSpace c = true) : (pre ++ s).dropWhile pyIsSpace = s.dropWhile pyIsSpace := by
  induction pre with
  | nil => rfl
  | cons c pre ih => rw [List.cons_append, List.dropWhile_cons_of_pos (h c (by simp)), ih (fun d hd => h d (by simp [hd]))]

/-- blanks in front do not matter; after a first character that is not blank, stripping only shortens the end -/
private theorem pyStrip_pre (pre s : PyStr) (h : ∀ c ∈ pre, pyIsSpace c = true) : pyStrip (pre ++ s) = pyStrip s := by
  unfold pyStrip
  rw [dropWhile_append_all pre s h]

/-- stripping a text that starts with a non-blank word keeps the word and shortens the rest -/
private theorem pyStrip_word (w rest : PyStr) (hne : w ≠ []) (hw : ∀ c ∈ w, pyIsSpace c = false) :
    pyStrip (w ++ rest) = w ++ (rest.reverse.dropWhile pyIsSpace).reverse := by
  unfold pyStrip
  rw [dropWhile_eq_self_of_head (w ++ rest)]
  · rw [List.reverse_append]
    by_cases hr : ∀ c ∈ rest, pyIsSpace c = true
    · rw [dropWhile_append_all _ _ (fun c hc => hr c (List.mem_reverse.1 hc)), dropWhile_eq_self_of_head w.reverse]
      · have : rest.reverse.dropWhile pyIsSpace = [] := by
          rw [List.dropWhile_eq_nil_iff]
          intro c hc
          exact hr c (List.mem_reverse.1 hc)
        rw [this]
        simp
      · intro c hc
        exact hw c (List.mem_reverse.1 (List.mem_of_mem_head? hc))
    · push Not at hr
      obtain ⟨c, hc, hs⟩ := hr
      rw [List.dropWhile_append, if_neg]
      · simp
      · intro he
        rw [List.isEmpty_iff, List.dropWhile_eq_nil_iff] at he
        exact hs (he c (List.mem_reverse.2 hc))
  · intro c hc
    obtain ⟨x, xs, rfl⟩ := List.exists_cons_of_ne_nil hne
    simp at hc
    subst hc
    exact hw x (by simp)

private theorem head_prefix (rest : PyStr) (hrest : ∀ c, rest.head? = some c → pyIsSpace c = true) : ∀ c, (rest.reverse.dropWhile pyIsSpace).reverse.head? = some c → pyIsSpace c = true := by
  intro c hc
  apply hrest
  have hsuf : rest.reverse.dropWhile pyIsSpace <:+ rest.reverse := List.dropWhile_suffix _
  obtain ⟨t, ht⟩ := hsuf
  have : rest = (rest.reverse.dropWhile pyIsSpace).reverse ++ t.reverse := by
    rw [← List.reverse_append, ht, List.reverse_reverse]
  rw [this, List.head?_append, hc]
  rfl

private theorem firstWord_eq (w rest : PyStr) (hw : ∀ c ∈ w, pyIsSpace c = false) (hrest : ∀ c, rest.head? = some c → pyIsSpace c = true) : firstWord (w ++ rest) = w := by
  unfold firstWord
  rw [List.takeWhile_append_of_pos (by intro c hc; simp [hw c hc])]
  cases rest with
  | nil => simp
  | cons c rest => rw [List.takeWhile_cons_of_neg (by simp [hrest c rfl])]; simp

private theorem word_len (w rest : PyStr) (hlong : 2 ≤ w.length ∨ (w.length = 1 ∧ ∃ c ∈ rest, pyIsSpace c = false)) : 2 ≤ (w ++ (rest.reverse.dropWhile pyIsSpace).reverse).length := by
  rw [List.length_append]
  rcases hlong with h | ⟨h, c, hc, hs⟩
  · omega
  · have : (rest.reverse.dropWhile pyIsSpace).reverse ≠ [] := by
      intro he
      rw [List.reverse_eq_nil_iff, List.dropWhile_eq_nil_iff] at he
      rw [he c (List.mem_reverse.2 hc)] at hs
      cases hs
    have := List.length_pos_of_ne_nil this
    omega

/-- **C81** lines: a line that names nothing is skipped, a line that names a file gives that file, and `ValueError` if it does not exist. -/
theorem C81_line (ft : FileTree) (dir line : PyStr) (r : Option PyStr) (h : LineNames dir line r) :
    templateLine ft dir line = (match (generalizing := false) r with
      | none => .ok none
      | some fn => if ft.pathExists fn then .ok (some fn) else .error .valueError) := by
  cases h with
  | blank l h =>
    unfold templateLine
    have : pyStrip line = [] := by
      have := pyStrip_pre line [] h
      rw [List.append_nil] at this
      rw [this]; rfl
    rw [this]
    rfl
  | comment pre rest h =>
    unfold templateLine
    rw [List.append_assoc, pyStrip_pre pre _ h, pyStrip_word ['#'] rest (by simp) (by decide)]
    exact if_pos (Or.inr rfl)
  | single pre post c h h' hc =>
    unfold templateLine
    rw [List.append_assoc, pyStrip_pre pre _ h, pyStrip_word [c] post (by simp) (by simpa using hc)]
    have : (post.reverse.dropWhile pyIsSpace) = [] := by
      rw [List.dropWhile_eq_nil_iff]; intro c hc; exact h' c (List.mem_reverse.1 hc)
    rw [this]
    simp
  | rel pre w rest h hw hrest hlong h1 h2 =>
    have hne : w ≠ [] := by rintro rfl; simp at hlong
    unfold templateLine
    rw [List.append_assoc, pyStrip_pre pre _ h, pyStrip_word w rest hne hw]
    have hl := word_len w rest hlong
    have hh : (w ++ (rest.reverse.dropWhile pyIsSpace).reverse).head? = w.head? := by
      obtain ⟨x, xs, rfl⟩ := List.exists_cons_of_ne_nil hne; rfl
    simp only
    rw [if_neg (by rw [hh]; push Not; exact ⟨hl, h1⟩), hh, if_neg h2, firstWord_eq w _ hw (head_prefix rest hrest)]
  | abs pre w rest h hw hrest hlong h2 =>
    have hne : w ≠ [] := by rintro rfl; simp at hlong
    unfold templateLine
    rw [List.append_assoc, pyStrip_pre pre _ h, pyStrip_word w rest hne hw]
    have hl := word_len w rest hlong
    have hh : (w ++ (rest.reverse.dropWhile pyIsSpace).reverse).head? = w.head? := by
      obtain ⟨x, xs, rfl⟩ := List.exists_cons_of_ne_nil hne; rfl
    simp only
    rw [if_neg (by rw [hh, h2]; push Not; exact ⟨hl, by decide⟩), hh, if_pos h2, firstWord_eq w _ hw (head_prefix rest hrest)]

/-- every line is of one of the kinds of `LineNames` -/
theorem lineNames_total (dir line : PyStr) : ∃ r, LineNames dir line r := by
  -- the blanks in front
  have hpre : ∀ c ∈ line.takeWhile pyIsSpace, pyIsSpace c = true := fun c hc => List.mem_takeWhile_imp hc
  have hsplit : line = line.takeWhile pyIsSpace ++ line.dropWhile pyIsSpace := (List.takeWhile_append_dropWhile).symm
  cases hd : line.dropWhile pyIsSpace with
  | nil =>
    refine ⟨none, .blank line ?_⟩
    rw [List.dropWhile_eq_nil_iff] at hd
    exact hd
  | cons c s =>
    have hc : pyIsSpace c = false := head_dropWhile line c (by rw [hd]; rfl)
    rw [hd] at hsplit
    by_cases h1 : c = '#'
    · refine ⟨none, ?_⟩
      rw [hsplit, show line.takeWhile pyIsSpace ++ c :: s = line.takeWhile pyIsSpace ++ ['#'] ++ s by simp [h1]]
      exact .comment _ _ hpre
    · by_cases h2 : ∀ d ∈ s, pyIsSpace d = true
      · refine ⟨none, ?_⟩
        rw [hsplit, show line.takeWhile pyIsSpace ++ c :: s = line.takeWhile pyIsSpace ++ [c] ++ s by simp]
        exact .single _ _ _ hpre h2 hc
      · push Not at h2
        obtain ⟨d, hdm, hds⟩ := h2
        have hds : pyIsSpace d = false := by simpa using hds
        let w := c :: s.takeWhile (fun c => !pyIsSpace c)
        let rest := s.dropWhile (fun c => !pyIsSpace c)
        have hs : c :: s = w ++ rest := by
          change c :: s = (c :: s.takeWhile _) ++ s.dropWhile _
          rw [List.cons_append, List.takeWhile_append_dropWhile]
        have hw : ∀ x ∈ w, pyIsSpace x = false := by
          intro x hx
          rcases List.mem_cons.1 hx with rfl | hx
          · exact hc
          · simpa using List.mem_takeWhile_imp hx
        have hrest : ∀ x, rest.head? = some x → pyIsSpace x = true := by
          intro x hx
          have := List.head?_dropWhile_not (fun c => !pyIsSpace c) s
          change (s.dropWhile _).head? = some x at hx
          rw [hx] at this
          simpa using this
        have hlong : 2 ≤ w.length ∨ (w.length = 1 ∧ ∃ c ∈ rest, pyIsSpace c = false) := by
          cases hq : s.takeWhile (fun c => !pyIsSpace c) with
          | cons y ys => left; change 2 ≤ (c :: s.takeWhile _).length; rw [hq]; simp
          | nil =>
            right
            refine ⟨by change (c :: s.takeWhile _).length = 1; rw [hq]; rfl, d, ?_, hds⟩
            have : s = rest := by
              have := List.takeWhile_append_dropWhile (p := fun c => !pyIsSpace c) (l := s)
              rw [hq] at this
              exact this.symm
            rw [← this]; exact hdm
        have hline : line = line.takeWhile pyIsSpace ++ w ++ rest := by rw [List.append_assoc, ← hs]; exact hsplit
        by_cases h3 : c = '/'
        · refine ⟨some w, ?_⟩
          rw [hline]
          exact .abs _ _ _ hpre hw hrest hlong (by change some c = _; rw [h3])
        · refine ⟨some (dir ++ ['/'] ++ w), ?_⟩
          rw [hline]
          exact .rel _ _ _ hpre hw hrest hlong (by change some c ≠ _; simp [h1]) (by change some c ≠ _; simp [h3])

/-- **C81** a list of templates: the result holds exactly the files that the lines name, in order, and all of them exist; if one of them does not exist, `ValueError`. -/
theorem C81_list_file (le : PyStr → PyStr → Bool) (ft : FileTree) (listFile dir : PyStr) (hl : ft.pathExists listFile = true) (named : List (Option PyStr))
    (hn : List.Forall₂ (LineNames dir) (ft.lines listFile) named) :
    ((∀ fn, some fn ∈ named → ft.pathExists fn = true) → templatesIn le ft listFile dir = .ok (named.filterMap id)) ∧
    (∀ fn, some fn ∈ named → ft.pathExists fn = false → templatesIn le ft listFile dir = .error .valueError) := by
  unfold templatesIn
  rw [if_pos hl]
  constructor
  · intro hex
    have : (ft.lines listFile).mapM (templateLine ft dir) = .ok named := by
      apply mapM_of_forall₂
      generalize ft.lines listFile = ls at hn
      induction hn with
      | nil => exact .nil
      | cons h _ ih =>
        refine .cons ?_ (ih (fun fn hf => hex fn (List.mem_cons_of_mem _ hf)))
        rw [C81_line ft dir _ _ h]
        rename_i r _ _ _
        cases r with
        | none => rfl
        | some fn => exact if_pos (hex fn (by simp))
    rw [this]
    rfl
  · intro fn hf hex
    have : (ft.lines listFile).mapM (templateLine ft dir) = .error .valueError := by
      generalize ft.lines listFile = ls at hn
      induction hn with
      | nil => simp at hf
      | cons h hn ih =>
        next l r ls' rs' =>
        rw [List.mapM_cons, C81_line ft dir _ _ h]
        cases r with
        | none =>
          simp only
          rw [okBind, ih (by simpa using hf)]
          rfl
        | some fn' =>
          simp only
          by_cases he : ft.pathExists fn' = true
          · rw [if_pos he, okBind, ih (by
              rcases List.mem_cons.1 hf with h' | h'
              · injection h' with h'; subst h'; rw [he] at hex; cases hex
              · exact h')]
            rfl
          · rw [if_neg he]; rfl
    rw [this]
    rfl

/-- **C81** which list applies. A directory uses its `templates-default.txt` if there is one, else its `rrtemplate-*.fits` files in sorted order; a `.txt` file is itself the list; a FITS file is
the only template; nothing given means `$RR_TEMPLATE_DIR`, or the installed directory; a path that does not exist is refused, and so is a path of another kind. -/
theorem C81_sources (le : PyStr → PyStr → Bool) (ft : FileTree) (env : Option PyStr) (installed p : PyStr) :
    (ft.pathExists p = false → findTemplates le ft env installed (.str p) = .error .valueError) ∧
    (ft.pathExists p = true → ft.isDir p = true → findTemplates le ft env installed (.str p) = templatesIn le ft (p ++ "/templates-default.txt".toList) p) ∧
    (ft.pathExists (p ++ "/templates-default.txt".toList) = false → templatesIn le ft (p ++ "/templates-default.txt".toList) p = .ok (pySort le (ft.globTemplates p))) ∧
    (ft.pathExists p = true → ft.isDir p = false → ".txt".toList <:+ p → findTemplates le ft env installed (.str p) = templatesIn le ft p (ft.absDir p)) ∧
    (ft.pathExists p = true → ft.isDir p = false → (".fits".toList <:+ p ∨ ".fits.gz".toList <:+ p ∨ ".fits.fz".toList <:+ p) → findTemplates le ft env installed (.str p) = .ok [p]) ∧
    (ft.pathExists p = true → ft.isDir p = false → ¬ ".txt".toList <:+ p → ¬ ".fits".toList <:+ p → ¬ ".fits.gz".toList <:+ p → ¬ ".fits.fz".toList <:+ p →
      findTemplates le ft env installed (.str p) = .error .valueError) ∧
    (findTemplates le ft (some p) installed .none = findTemplates le ft env installed (.str p)) ∧
    (findTemplates le ft none installed .none = findTemplates le ft env installed (.str installed)) := by
  have hnt : (".fits".toList <:+ p ∨ ".fits.gz".toList <:+ p ∨ ".fits.fz".toList <:+ p) → ¬ ".txt".toList <:+ p := by
    intro h ht
    have key : ∀ x : PyStr, x ≠ [] → x <:+ p → p.getLast? = x.getLast? := by
      rintro x hx ⟨t, rfl⟩
      rw [List.getLast?_append]
      cases hq : x.getLast? with
      | none => exact absurd (List.getLast?_eq_none_iff.1 hq) hx
      | some c => rfl
    have e := key _ (by decide) ht
    rcases h with h | h | h <;> have e2 := key _ (by decide) h <;> rw [e] at e2 <;> revert e2 <;> decide
  have hf : isFitsName p = true ↔ (".fits".toList <:+ p ∨ ".fits.gz".toList <:+ p ∨ ".fits.fz".toList <:+ p) := by
    unfold isFitsName
    rw [Bool.or_eq_true, Bool.or_eq_true, List.isSuffixOf_iff_suffix, List.isSuffixOf_iff_suffix, List.isSuffixOf_iff_suffix, or_assoc]
  unfold findTemplates getTemplateDir
  refine ⟨?_, ?_, ?_, ?_, ?_, ?_, rfl, rfl⟩
  · intro h; simp only; rw [if_pos h]
  · intro h1 h2; simp only; rw [if_neg (by simp [h1]), if_pos h2]
  · intro h; unfold templatesIn; rw [if_neg (by rw [h]; exact Bool.false_ne_true)]
  · intro h1 h2 h3; simp only; rw [if_neg (by simp [h1]), if_neg (by simp [h2]), if_pos (by rw [List.isSuffixOf_iff_suffix]; exact h3)]
  · intro h1 h2 h3
    simp only
    rw [if_neg (by simp [h1]), if_neg (by simp [h2]), if_neg (by rw [List.isSuffixOf_iff_suffix]; exact hnt h3), if_pos (hf.2 h3)]
  · intro h1 h2 h3 h4 h5 h6
    simp only
    rw [if_neg (by simp [h1]), if_neg (by simp [h2]), if_neg (by rw [List.isSuffixOf_iff_suffix]; exact h3), if_neg (by rw [hf]; rintro (h | h | h); exacts [h4 h, h5 h, h6 h])]

/-- **C81** a `pathlib` path is not a path for `load_templates` (`TypeError`), and `find_templates` accepts it only for a directory (`AttributeError` for a list or a FITS file). -/
theorem C81_path_object (le : PyStr → PyStr → Bool) (ft : FileTree) (env : Option PyStr) (installed p : PyStr) (float : PyStr → Py ℝ) (opts : ZscanOptions) (read : PyStr → TemplateFile) :
    loadTemplates le ft env installed float opts read (.posix p) = .error .typeError ∧
    (ft.pathExists p = true → ft.isDir p = false → findTemplates le ft env installed (.posix p) = .error .attributeError) ∧
    (ft.isDir p = true → findTemplates le ft env installed (.posix p) = findTemplates le ft env installed (.str p)) := by
  refine ⟨rfl, ?_, ?_⟩
  · intro h1 h2
    unfold findTemplates getTemplateDir
    simp only
    rw [if_neg (by simp [h1]), if_neg (by simp [h2])]
  · intro h
    unfold findTemplates getTemplateDir
    simp only
    rw [if_pos h, if_pos h]

/-- the file list of the documentation example: a comment, a relative name with a trailing comment, a blank line and an absolute name -/
example : List.Forall₂ (LineNames "/t".toList) ["# templates".toList, "rr-a.fits  galaxies".toList, " ".toList, "/x/rr-b.fits\n".toList] [none, some "/t/rr-a.fits".toList, none, some "/x/rr-b.fits".toList] := by
  refine .cons ?_ (.cons ?_ (.cons ?_ (.cons ?_ .nil)))
  · exact .comment [] " templates".toList (by simp)
  · exact .rel [] "rr-a.fits".toList "  galaxies".toList (by simp) (by decide) (by decide) (by decide) (by decide) (by decide)
  · exact .blank _ (by decide)
  · exact .abs [] "/x/rr-b.fits".toList "\n".toList (by simp) (by decide) (by decide) (by decide) (by decide)

/-! ## C82 -/

/-- `(template_type, sub_type)` -/
def Template.key (t : Template) : PyStr × PyStr := (t.rrtype, t.subtype)

private theorem dict_snoc (ts : List Template) (t : Template) : templateDict (ts ++ [t]) = (templateDict ts).set t.key t := by
  unfold templateDict; rw [List.foldl_append]; rfl

private theorem mem_set {κ ν : Type} [DecidableEq κ] (d : PyDict κ ν) (k : κ) (v : ν) (e : κ × ν) (h : e ∈ d.set k v) : e = (k, v) ∨ e ∈ d := by
  unfold PyDict.set at h
  split at h
  · obtain ⟨x, hx, rfl⟩ := List.mem_map.1 h
    split
    · exact Or.inl rfl
    · exact Or.inr hx
  · simp at h
    tauto

private theorem dict_inv (ts : List Template) : (∀ e ∈ templateDict ts, e.1 = e.2.key ∧ e.2 ∈ ts) ∧ (templateDict ts).keys.Nodup ∧ (∀ t ∈ ts, t.key ∈ (templateDict ts).keys) ∧
    (templateDict ts).keys.Pairwise (fun a b => (ts.map Template.key).idxOf a < (ts.map Template.key).idxOf b) := by
  induction ts using List.reverseRecOn with
  | nil => exact ⟨(by intro e he; cases he), List.nodup_nil, by simp, List.Pairwise.nil⟩
  | append_singleton ts t ih =>
    obtain ⟨h1, h2, h3, h4⟩ := ih
    have hsub : ∀ k ∈ (templateDict ts).keys, k ∈ ts.map Template.key := by
      intro k hk
      obtain ⟨e, he, rfl⟩ := List.mem_map.1 hk
      rw [(h1 e he).1]
      exact List.mem_map.2 ⟨e.2, (h1 e he).2, rfl⟩
    rw [dict_snoc]
    refine ⟨?_, PyDict.keys_nodup_set _ h2 _ _, ?_, ?_⟩
    · intro e he
      rcases mem_set _ _ _ _ he with rfl | he
      · exact ⟨rfl, by simp⟩
      · exact ⟨(h1 e he).1, by simp [(h1 e he).2]⟩
    · intro s hs
      rw [PyDict.keys_set]
      rcases List.mem_append.1 hs with hs | hs
      · split
        · exact h3 s hs
        · exact List.mem_append_left _ (h3 s hs)
      · simp at hs
        subst hs
        split
        · next h => exact h
        · simp
    · rw [PyDict.keys_set, List.map_append]
      have hidx : ∀ k ∈ (templateDict ts).keys, (ts.map Template.key ++ [t].map Template.key).idxOf k = (ts.map Template.key).idxOf k :=
        fun k hk => List.idxOf_append_of_mem (hsub k hk)
      have hp : (templateDict ts).keys.Pairwise (fun a b => (ts.map Template.key ++ [t].map Template.key).idxOf a < (ts.map Template.key ++ [t].map Template.key).idxOf b) := by
        refine List.Pairwise.imp_of_mem ?_ h4
        intro a b ha hb hab
        rw [hidx a ha, hidx b hb]
        exact hab
      split
      · exact hp
      · next hn =>
        rw [List.pairwise_append]
        refine ⟨hp, by simp, ?_⟩
        intro a ha b hb
        simp only [List.mem_singleton] at hb
        subst hb
        have hnot : t.key ∉ ts.map Template.key := by
          intro hm
          obtain ⟨s, hs, e⟩ := List.mem_map.1 hm
          exact hn (e ▸ h3 s hs)
        rw [hidx a ha, List.idxOf_append_of_notMem hnot]
        have := List.idxOf_lt_length_of_mem (hsub a ha)
        simp only [List.map_cons, List.map_nil, List.idxOf_cons_self]
        omega

private theorem dist_keys (ts : List Template) : (distributedTemplates ts).map Template.key = (templateDict ts).keys := by
  unfold distributedTemplates PyDict.keys
  rw [List.map_map]
  apply List.map_congr_left
  intro e he
  exact ((dict_inv ts).1 e he).1.symm

/-- **C82** The templates that are fitted are among those loaded, one for every `(type, subtype)` that occurs, ordered by where that pair first occurs in the list of files; of several files with
the same pair the last one is fitted. -/
theorem C82_one_per_type (ts : List Template) :
    (∀ t ∈ distributedTemplates ts, ∃ pre post, ts = pre ++ [t] ++ post ∧ ∀ s ∈ post, s.key ≠ t.key) ∧ ((distributedTemplates ts).map Template.key).Nodup ∧
    (∀ t ∈ ts, t.key ∈ (distributedTemplates ts).map Template.key) ∧
    ((distributedTemplates ts).map Template.key).Pairwise (fun a b => (ts.map Template.key).idxOf a < (ts.map Template.key).idxOf b) := by
  obtain ⟨h1, h2, h3, h4⟩ := dict_inv ts
  rw [dist_keys]
  refine ⟨?_, h2, h3, h4⟩
  intro t ht
  obtain ⟨e, he, rfl⟩ := List.mem_map.1 ht
  have hg : PyDict.get? (templateDict ts) e.1 = some e.2 := PyDict.get?_of_mem _ h2 e.1 e.2 he
  unfold templateDict at hg
  rw [PyDict.get?_foldl_set (fun t : Template => (t.rrtype, t.subtype)) (fun t => t), PyDict.get?_nil, Option.or_none, Option.map_id'] at hg
  obtain ⟨_, as, bs, hab, hnot⟩ := List.find?_eq_some_iff_append.1 hg
  refine ⟨bs.reverse, as.reverse, ?_, ?_⟩
  · rw [← List.reverse_reverse ts, hab]
    simp
  · intro s hs hk
    have := hnot s (List.mem_reverse.1 hs)
    rw [(h1 e he).1] at this
    simp [Template.key] at this hk
    tauto

/-- **C82** hence every loaded template is fitted exactly when no two of them have the same type and subtype. -/
theorem C82_all_used_iff (ts : List Template) : distributedTemplates ts = ts ↔ (ts.map Template.key).Nodup := by
  constructor
  · intro h
    have := (C82_one_per_type ts).2.1
    rwa [h] at this
  · intro h
    induction ts using List.reverseRecOn with
    | nil => rfl
    | append_singleton ts t ih =>
      rw [List.map_append, List.nodup_append] at h
      have ih := ih h.1
      have hk : t.key ∉ (templateDict ts).keys := by
        intro hm
        obtain ⟨e, he, h'⟩ := List.mem_map.1 hm
        have hinv := (dict_inv ts).1 e he
        exact h.2.2 e.2.key (List.mem_map.2 ⟨e.2, hinv.2, rfl⟩) t.key (by simp) (by rw [← hinv.1]; exact h')
      have hset : (templateDict ts).set t.key t = templateDict ts ++ [(t.key, t)] := by
        unfold PyDict.set
        rw [if_neg]
        intro ha
        rw [PyDict.any_iff_get?, ← PyDict.mem_keys_iff] at ha
        exact hk ha
      unfold distributedTemplates
      rw [dict_snoc, hset, List.map_append]
      change distributedTemplates ts ++ [t] = _
      rw [ih]

/-- **C82** of two files with the same type and subtype the first is silently not used. -/
theorem C82_dropped (t s : Template) (h : t.key = s.key) : distributedTemplates [t, s] = [s] := by
  unfold distributedTemplates templateDict
  have h' : (t.rrtype, t.subtype) = (s.rrtype, s.subtype) := h
  simp [PyDict.set, h']

/-- **C82** the templates are loaded one per file, in the order of the files; a name that does not exist is looked for in the template directory. -/
theorem C82_load_order (le : PyStr → PyStr → Bool) (ft : FileTree) (env : Option PyStr) (installed : PyStr) (float : PyStr → Py ℝ) (opts : ZscanOptions) (read : PyStr → TemplateFile)
    (files : List PyStr) (ts : List Template) (h : loadTemplates le ft env installed float opts read (.files files) = .ok ts) :
    List.Forall₂ (fun fn t => ∃ p, (if ft.pathExists fn then p = fn else p = pathJoin (env.getD installed) fn) ∧ ft.pathExists p = true ∧ Template.load float opts (read p) = .ok t) files ts := by
  have := mapM_inv _ _ _ h
  refine this.imp ?_
  intro fn t ht
  unfold resolveFile at ht
  by_cases h1 : ft.pathExists fn = true
  · rw [if_pos h1] at ht
    exact ⟨fn, by rw [if_pos h1], h1, ht⟩
  · rw [if_neg h1] at ht
    simp only at ht
    by_cases h2 : ft.pathExists (pathJoin (env.getD installed) fn) = true
    · rw [if_pos h2] at ht
      exact ⟨_, by rw [if_neg h1], h2, ht⟩
    · rw [if_neg h2] at ht
      cases ht

/-! ## C84 -/

private theorem dict_get? (ts : List Template) (t : Template) (h : t ∈ distributedTemplates ts) : PyDict.get? (templateDict ts) t.key = some t := by
  obtain ⟨e, he, rfl⟩ := List.mem_map.1 h
  have h' := (dict_inv ts).1 e he
  exact PyDict.get?_of_mem _ (dict_inv ts).2.1 _ _ (by rw [← h'.1]; exact he)

/-- what the catalogue says of a loaded template whose names do not contain `:::` -/
private theorem names_of (t : Template) (ht1 : Trimmed t.rrtype) (ht2 : Trimmed t.subtype) (h1 : ¬ ":::".toList <:+: t.rrtype) (h2 : ¬ ":::".toList <:+: t.subtype)
    (h3 : t.subtype ≠ [] → t.rrtype.getLast? ≠ some ':') : catalogueNames t = .ok (t.rrtype.take 6, t.subtype) := by
  have e1 := pyStrip_of_trimmed _ ht1
  have e2 := pyStrip_of_trimmed _ ht2
  unfold catalogueNames Template.fullType
  rw [C28_round_trip t.rrtype (some t.subtype) (by rw [e1]; exact h1) (by intro s hs; injection hs with hs; subst hs; rw [e2]; exact h2)
    (by intro s hs; injection hs with hs; subst hs; rw [e1, e2]; exact h3), okBind, e1]
  simp only [Option.getD_some, e2]
  rfl

/-- **C84** partial (missing: types longer than six characters, for which it is false): the names that the catalogue gives to a candidate of a fitted template find that template again in the dictionary of
templates, if its type has at most six characters and its names do not contain `:::`. -/
theorem C84_row_finds_template_partial (float : PyStr → Py ℝ) (opts : ZscanOptions) (ts : List Template) (t : Template) (ht : t ∈ distributedTemplates ts)
    (hl : ∃ f, Template.load float opts f = .ok t) (h6 : t.rrtype.length ≤ 6) (h1 : ¬ ":::".toList <:+: t.rrtype) (h2 : ¬ ":::".toList <:+: t.subtype)
    (h3 : t.subtype ≠ [] → t.rrtype.getLast? ≠ some ':') :
    ∃ names, catalogueNames t = .ok names ∧ (templateDict ts).get names = .ok t := by
  obtain ⟨f, hf⟩ := hl
  obtain ⟨_, _, ht1, ht2, _⟩ := C80_names float opts f t hf
  refine ⟨_, names_of t ht1 ht2 h1 h2 h3, ?_⟩
  rw [List.take_of_length_le h6]
  unfold PyDict.get
  have := dict_get? ts t ht
  rw [show (t.rrtype, t.subtype) = t.key from rfl, this]

/-- **C84** The truncation to six characters is real: if no template has as its type the first six characters of this one's type, the catalogue's names are not a key of the dictionary, so the
evaluation of the model raises `KeyError`. -/
theorem C84_long_type (float : PyStr → Py ℝ) (opts : ZscanOptions) (ts : List Template) (t : Template) (hl : ∃ f, Template.load float opts f = .ok t)
    (h1 : ¬ ":::".toList <:+: t.rrtype) (h2 : ¬ ":::".toList <:+: t.subtype) (h3 : t.subtype ≠ [] → t.rrtype.getLast? ≠ some ':')
    (hno : ∀ s ∈ ts, s.rrtype ≠ t.rrtype.take 6) :
    ∃ names, catalogueNames t = .ok names ∧ (templateDict ts).get names = .error .keyError := by
  obtain ⟨f, hf⟩ := hl
  obtain ⟨_, _, ht1, ht2, _⟩ := C80_names float opts f t hf
  refine ⟨_, names_of t ht1 ht2 h1 h2 h3, ?_⟩
  unfold PyDict.get
  cases hg : PyDict.get? (templateDict ts) (t.rrtype.take 6, t.subtype) with
  | none => rfl
  | some s =>
    have hm := PyDict.mem_of_get? _ _ _ hg
    obtain ⟨e1, e2⟩ := (dict_inv ts).1 _ hm
    exact absurd (congrArg Prod.fst e1).symm (hno s e2)

/-- a template file with its own redshifts may have any type: "GALAXYX" -/
noncomputable def exLongFile : TemplateFile :=
  { version := none, crval1 := 3000, cdelt1 := 1, naxis1 := 3, loglam := none, flux := [[1, 2, 3]], rrmethod := some "nmf".toList, redshifts := some [0, 0.5], rrtype := some "galaxyx".toList,
    rrsubtyp := none, rrigm := some "Inoue14".toList }

/-- the template that this file gives -/
noncomputable def exLong : Template :=
  { version := "unknown".toList, wave := templateWave exLongFile, flux := [[1, 2, 3]], method := "NMF".toList, rrtype := "GALAXYX".toList, subtype := [], redshifts := [0, 0.5],
    igm := "Inoue14".toList, oii := none }

private theorem exLong_load (float : PyStr → Py ℝ) (opts : ZscanOptions) : Template.load float opts exLongFile = .ok exLong := by
  have hw : templateWave exLongFile ≠ [] := by unfold templateWave exLongFile; simp
  unfold Template.load
  rw [show exLongFile.rrtype = some "galaxyx".toList from rfl, show exLongFile.redshifts = some [0, 0.5] from rfl]
  simp only
  rw [okBind, okBind, if_neg (by simp)]
  rw [show templateIgm exLongFile (pyUpper (pyStrip "galaxyx".toList)) (templateVersion exLongFile) = .ok "Inoue14".toList from rfl]
  rw [okBind, if_neg hw]
  rfl

/-- **C84** so the claim fails for a template that loads without complaint. -/
theorem C84_long_type_refuted : ∃ (float : PyStr → Py ℝ) (opts : ZscanOptions) (ts : List Template) (t : Template), t ∈ distributedTemplates ts ∧ (∃ f, Template.load float opts f = .ok t) ∧
    ∃ names, catalogueNames t = .ok names ∧ (templateDict ts).get names = .error .keyError := by
  refine ⟨exFloat, ⟨none, none, none⟩, [exLong], exLong, ?_, ⟨exLongFile, exLong_load _ _⟩, ?_⟩
  · rw [(C82_all_used_iff [exLong]).2 (by simp)]; simp
  · exact C84_long_type exFloat ⟨none, none, none⟩ [exLong] exLong ⟨exLongFile, exLong_load _ _⟩ (by decide) (by decide) (by intro h; exact absurd rfl h) (by
      intro s hs
      simp at hs
      subst hs
      decide)

/-! ## C83 -/

/-- **C83** partial (missing: calls without a resolution matrix, which raise): with one resolution matrix per row, every row of `eval_model` is the evaluation, at the redshift and with the
coefficients of that row of the table, of the template of its type; the number of rows is that of the table. -/
theorem C83_rows_partial (templates : PyDict (PyStr × PyStr) Template) (data : List ModelRow) (wave : List ℝ) (R : List (List (List ℝ))) (models : List (List ℝ))
    (h : tableModels templates data wave (some R) = .ok models) :
    models.length = data.length ∧ ∀ (i : Nat) (row : ModelRow), data[i]? = some row → ∃ tx Ri m, PyDict.get? templates (row.spectype, row.subtype) = some tx ∧ R[i]? = some Ri ∧
      templateEval tx.wave tx.flux row.coeff wave row.z (some Ri) = .ok m ∧ models[i]? = some m := by
  have hf := mapM_inv _ _ _ h
  have hlen := hf.length_eq
  rw [List.length_zipIdx] at hlen
  refine ⟨hlen.symm, ?_⟩
  intro i row hrow
  have hi : i < data.length := (List.getElem?_eq_some_iff.1 hrow).1
  have hz : data.zipIdx[i]? = some (row, i) := by
    rw [List.getElem?_zipIdx, hrow]; simp
  have hm : models[i]? = some models[i] := List.getElem?_eq_getElem (by omega)
  have hrel := (List.forall₂_iff_get.1 hf).2 i (by rw [List.length_zipIdx]; exact hi) (by omega)
  simp only [List.get_eq_getElem] at hrel
  rw [(List.getElem?_eq_some_iff.1 hz).2] at hrel
  unfold tableModelRow PyDict.get at hrel
  cases hg : PyDict.get? templates (row.spectype, row.subtype) with
  | none => simp only [hg] at hrel; cases hrel
  | some tx =>
    simp only [hg] at hrel
    rw [okBind] at hrel
    cases hR : npGet R i with
    | error e => simp only [hR] at hrel; cases hrel
    | ok Ri =>
      simp only [hR] at hrel
      rw [okBind] at hrel
      refine ⟨tx, Ri, models[i], rfl, ?_, ?_, hm⟩
      · rwa [npGet_ok] at hR
      · rw [← hrel]
        unfold templateEval
        simp only [List.take_take, Nat.min_self]

/-- **C83** the documented default `R=None` does not work: on a non-empty table whose types are known it raises `TypeError`, for a wavelength array and for a dictionary of them. -/
theorem C83_no_resolution (templates : PyDict (PyStr × PyStr) Template) (row : ModelRow) (rest : List ModelRow) (tx : Template)
    (htx : PyDict.get? templates (row.spectype, row.subtype) = some tx) (wave : List ℝ) (cam : PyStr) (cams : PyDict PyStr (List ℝ)) :
    tableModels templates (row :: rest) wave none = .error .typeError ∧ tableModelsDict templates (row :: rest) ((cam, wave) :: cams) none = .error .typeError := by
  have h : tableModels templates (row :: rest) wave none = .error .typeError := by
    unfold tableModels
    rw [List.zipIdx_cons, List.mapM_cons]
    have : tableModelRow templates wave none (row, 0) = .error .typeError := by
      unfold tableModelRow PyDict.get
      rw [htx]
      rfl
    rw [this]
    rfl
  refine ⟨h, ?_⟩
  unfold tableModelsDict
  simp only
  rw [List.mapM_cons, h]
  rfl

/-- **C83** a dictionary of wavelengths is evaluated camera by camera, with the resolutions of the same camera, and refused if the cameras of the two dictionaries differ. -/
theorem C83_cameras (templates : PyDict (PyStr × PyStr) Template) (data : List ModelRow) (wave : PyDict PyStr (List ℝ)) (R : PyDict PyStr (List (List (List ℝ)))) :
    ((∃ k, ¬ (k ∈ R.keys ↔ k ∈ wave.keys)) → tableModelsDict templates data wave (some R) = .error .valueError) ∧
    (∀ out, tableModelsDict templates data wave (some R) = .ok out → List.Forall₂ (fun kw ko => ko.1 = kw.1 ∧ ∃ r, PyDict.get? R kw.1 = some r ∧ tableModels templates data kw.2 (some r) = .ok ko.2) wave out) := by
  constructor
  · rintro ⟨k, hk⟩
    unfold tableModelsDict
    simp only
    rw [if_pos]
    rw [Bool.and_eq_false_iff]
    by_cases h1 : k ∈ R.keys
    · left
      rw [List.all_eq_false]
      exact ⟨k, h1, by simp; tauto⟩
    · right
      rw [List.all_eq_false]
      exact ⟨k, by tauto, by simpa using h1⟩
  · intro out h
    unfold tableModelsDict at h
    simp only at h
    split at h
    · cases h
    · refine (mapM_inv _ _ _ h).imp ?_
      intro kw ko hk
      unfold PyDict.get at hk
      cases hg : PyDict.get? R kw.1 with
      | none => rw [hg] at hk; cases hk
      | some r =>
        rw [hg] at hk
        simp only at hk
        rw [okBind] at hk
        cases hm : tableModels templates data kw.2 (some r) with
        | error e => rw [hm] at hk; cases hk
        | ok m =>
          rw [hm] at hk
          injection hk with hk
          subst hk
          exact ⟨rfl, r, rfl, hm⟩

/-- the hypotheses of `C83_no_resolution` are met by a one-row table -/
example : PyDict.get? (templateDict [exLong]) (("GALAXYX".toList, []) : PyStr × PyStr) = some exLong := by
  have := dict_get? [exLong] exLong (by rw [(C82_all_used_iff [exLong]).2 (by simp)]; simp)
  exact this

end Redrock
