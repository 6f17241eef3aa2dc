import Verif.Model.Wrap
import Verif.Lemmas.Strings
import Mathlib.Data.List.Basic
import Mathlib.Tactic.Linarith

/-!
C95: the output files of `wrap-redrock`. C96: which spectra files it finds.
-/
namespace Redrock
namespace Wrap
set_option linter.unusedSectionVars false

/-! ### spec -/

/-- A path `dir/name` as `os.walk` produces it: `dir` is not empty and does not end in a slash, `name` has no slash. -/
structure IsPath (p dir name : PyStr) : Prop where
  eq : p = dir ++ ['/'] ++ name
  dir_ne : dir ≠ []
  dir_last : dir.getLast? ≠ some '/'
  name_slash : '/' ∉ name

/-! ### lemmas -/

theorem basename_append (dir name : PyStr) (h : '/' ∉ name) : basename (dir ++ ['/'] ++ name) = name := by
  unfold basename
  rw [List.reverse_append, List.reverse_append]
  simp only [List.reverse_singleton, List.singleton_append]
  rw [List.takeWhile_append_of_pos]
  · simp
  · intro c hc
    simp only [ne_eq, decide_not, Bool.not_eq_true', decide_eq_false_iff_not]
    rintro rfl
    exact h (List.mem_reverse.1 hc)

theorem pathSplit_of (p dir name : PyStr) (h : IsPath p dir name) : pathSplit p = (dir, name) := by
  obtain ⟨rfl, h1, h2, h3⟩ := h
  unfold pathSplit
  simp only [basename_append dir name h3]
  have e : (dir ++ ['/'] ++ name).take ((dir ++ ['/'] ++ name).length - name.length) = dir ++ ['/'] := by
    rw [List.take_append_of_le_length (by simp; omega)]
    apply List.take_of_length_le
    simp; omega
  rw [e]
  have hall : (dir ++ ['/']).all (· == '/') = false := by
    rw [List.all_eq_false]
    refine ⟨dir.getLast h1, by simp, ?_⟩
    intro h
    rw [List.getLast?_eq_some_getLast h1] at h2
    simp only [beq_iff_eq] at h
    exact h2 (by rw [h])
  rw [hall]
  simp only [Bool.false_eq_true, if_false, List.reverse_append, List.reverse_singleton, List.singleton_append]
  congr 1
  rw [List.dropWhile_cons_of_pos (by simp)]
  have : dir.reverse.dropWhile (· == '/') = dir.reverse := by
    cases hd : dir.reverse with
    | nil => rfl
    | cons c cs =>
      rw [List.dropWhile_cons_of_neg]
      have : dir.getLast? = some c := by rw [← List.head?_reverse, hd]; rfl
      intro hc
      rw [beq_iff_eq] at hc
      rw [hc] at this
      exact h2 this
  rw [this, List.reverse_reverse]

theorem pyReplace_prefix (old new rest : PyStr) (h0 : old ≠ []) (h : ¬ old <:+: rest) : pyReplace old new (old ++ rest) = new ++ rest := by
  unfold pyReplace
  rw [if_neg h0]
  have := pySplitAux_first old h0 rest [] [] (by simp)
  simp only [List.nil_append] at this
  unfold pySplit
  rw [this]
  have e : pySplit old rest = [rest] := pySplitAux_none old rest [] h
  rw [e]
  simp [List.intercalate]

theorem pyReplace_none (old new s : PyStr) (h0 : old ≠ []) (h : ¬ old <:+: s) : pyReplace old new s = s := by
  unfold pyReplace
  rw [if_neg h0]
  have e : pySplit old s = [s] := pySplitAux_none old s [] h
  rw [e]
  simp [List.intercalate]

/-- a separator whose first character occurs only once in it cannot overlap its own beginning -/
theorem no_early (c : Char) (sep a b : PyStr) (hc : c ∉ sep) (h : ¬ (c :: sep) <:+: a) : ∀ i, i < a.length → ¬ (c :: sep) <+: (a ++ (c :: sep) ++ b).drop i := by
  intro i hi hp
  rw [List.append_assoc, List.drop_append, show i - a.length = 0 by omega, List.drop_zero] at hp
  have hpre : a.drop i <+: a.drop i ++ (c :: sep ++ b) := ⟨_, rfl⟩
  rcases le_total (c :: sep).length (a.drop i).length with hl | hl
  · have := List.prefix_of_prefix_length_le hp hpre hl
    exact h (this.isInfix.trans (List.drop_suffix i a).isInfix)
  · have hp2 := List.prefix_of_prefix_length_le hpre hp hl
    obtain ⟨r, hr⟩ := hp2
    have hlen : (a.drop i).length < (c :: sep).length ∨ (a.drop i).length = (c :: sep).length := by omega
    rcases hlen with hlen | hlen
    · -- the character at position (a.drop i).length of `c :: sep` is `c`
      obtain ⟨t, ht⟩ := hp
      have h1 : (c :: sep)[(a.drop i).length]? = some c := by
        have e1 : (c :: sep ++ t)[(a.drop i).length]? = (c :: sep)[(a.drop i).length]? := by
          rw [List.getElem?_append_left hlen]
        rw [← e1, ht, List.getElem?_append_right le_rfl]
        simp
      have hpos : 0 < (a.drop i).length := by simp; omega
      obtain ⟨k, hk⟩ : ∃ k, (a.drop i).length = k + 1 := ⟨(a.drop i).length - 1, by omega⟩
      rw [hk, List.getElem?_cons_succ] at h1
      exact hc (List.mem_of_getElem? h1)
    · have hr0 : r = [] := by
        have := congrArg List.length hr
        simp only [List.length_append] at this
        exact List.length_eq_zero_iff.1 (by omega)
      rw [hr0, List.append_nil] at hr
      exact h (hr ▸ (List.drop_suffix i a).isInfix)

theorem pyReplace_mid (c : Char) (sep new a b : PyStr) (hc : c ∉ sep) (ha : ¬ (c :: sep) <:+: a) (hb : ¬ (c :: sep) <:+: b) :
    pyReplace (c :: sep) new (a ++ (c :: sep) ++ b) = a ++ new ++ b := by
  unfold pyReplace
  rw [if_neg (by simp)]
  have := pySplitAux_first (c :: sep) (by simp) b a [] (no_early c sep a b hc ha)
  unfold pySplit
  rw [this]
  have e : pySplit (c :: sep) b = [b] := pySplitAux_none _ b [] hb
  rw [e]
  simp [List.intercalate]

theorem pathJoin_of (dir name : PyStr) (h1 : dir ≠ []) (h2 : dir.getLast? ≠ some '/') (h3 : name.head? ≠ some '/') : pathJoin dir name = dir ++ ['/'] ++ name := by
  unfold pathJoin
  rw [if_neg h3, if_neg h1, if_neg h2]

/-! ### C95 -/

/-- what `wrap-redrock` uses as output files of a spectra file -/
abbrev rrfile (pre : PyStr) (outdir : Option PyStr) (p : PyStr) : PyStr := outfile pre "redrock".toList none outdir p
/-- the details file -/
abbrev detailsfile (pre : PyStr) (outdir : Option PyStr) (p : PyStr) : PyStr := outfile pre "rrdetails".toList (some "h5".toList) outdir p

/-- The spectra files to which the file name rules apply: `dir/PREFIXmid.fits` with the prefix only at the beginning and `.fits` only at the end. -/
structure IsSpec (pre p dir mid : PyStr) : Prop where
  path : IsPath p dir (pre ++ mid ++ ".fits".toList)
  pre_ne : pre ≠ []
  once : ¬ pre <:+: mid ++ ".fits".toList
  ext_once : ¬ ".fits".toList <:+: "rrdetails".toList ++ mid

/-- **C95** the redrock file of `dir/PREFIXmid.fits` is `dir/redrockmid.fits`, or the file of that name in the output directory. -/
theorem C95_redrock_file (pre p dir mid : PyStr) (h : IsSpec pre p dir mid) :
    rrfile pre none p = dir ++ ['/'] ++ "redrock".toList ++ mid ++ ".fits".toList ∧
    ∀ d : PyStr, d ≠ [] → d.getLast? ≠ some '/' → rrfile pre (some d) p = d ++ ['/'] ++ "redrock".toList ++ mid ++ ".fits".toList := by
  have e : pyReplace pre "redrock".toList (pre ++ mid ++ ".fits".toList) = "redrock".toList ++ (mid ++ ".fits".toList) := by
    rw [List.append_assoc]; exact pyReplace_prefix _ _ _ h.pre_ne h.once
  constructor
  · unfold rrfile outfile
    simp only [pathSplit_of _ _ _ h.path, e]
    rw [pathJoin_of _ _ h.path.dir_ne h.path.dir_last (by simp)]
    simp
  · intro d h1 h2
    unfold rrfile outfile
    simp only [pathSplit_of _ _ _ h.path, e]
    rw [pathJoin_of _ _ h1 h2 (by simp)]
    simp

/-- **C95** and the details file is `dir/rrdetailsmid.h5`. -/
theorem C95_details_file (pre p dir mid : PyStr) (h : IsSpec pre p dir mid) :
    detailsfile pre none p = dir ++ ['/'] ++ "rrdetails".toList ++ mid ++ ".h5".toList ∧
    ∀ d : PyStr, d ≠ [] → d.getLast? ≠ some '/' → detailsfile pre (some d) p = d ++ ['/'] ++ "rrdetails".toList ++ mid ++ ".h5".toList := by
  have e : pyReplace pre "rrdetails".toList (pre ++ mid ++ ".fits".toList) = ("rrdetails".toList ++ mid) ++ ".fits".toList ++ [] := by
    rw [List.append_assoc, pyReplace_prefix _ _ _ h.pre_ne h.once]; simp
  have e2 : pyReplace ".fits".toList (['.'] ++ "h5".toList) (("rrdetails".toList ++ mid) ++ ".fits".toList ++ []) = ("rrdetails".toList ++ mid) ++ (['.'] ++ "h5".toList) ++ [] :=
    pyReplace_mid '.' "fits".toList _ _ [] (by decide) h.ext_once (by decide)
  constructor
  · unfold detailsfile outfile
    simp only [pathSplit_of _ _ _ h.path, e, e2]
    rw [pathJoin_of _ _ h.path.dir_ne h.path.dir_last (by simp)]
    simp
  · intro d h1 h2
    unfold detailsfile outfile
    simp only [pathSplit_of _ _ _ h.path, e, e2]
    rw [pathJoin_of _ _ h1 h2 (by simp)]
    simp

theorem dir_name_inj {d1 d2 n1 n2 : PyStr} (h1 : '/' ∉ n1) (h2 : '/' ∉ n2) (h : d1 ++ ['/'] ++ n1 = d2 ++ ['/'] ++ n2) : d1 = d2 ∧ n1 = n2 := by
  have hn : n1 = n2 := by rw [← basename_append d1 n1 h1, ← basename_append d2 n2 h2, h]
  subst hn
  have := List.append_cancel_right h
  exact ⟨List.append_cancel_right this, rfl⟩

/-- **C95** without an output directory, different spectra files never share an output file: not their redrock files, not their details files, and no redrock file is another one's details file. -/
theorem C95_distinct_partial (pre p q d1 d2 m1 m2 : PyStr) (hp : IsSpec pre p d1 m1) (hq : IsSpec pre q d2 m2) (hne : p ≠ q) :
    rrfile pre none p ≠ rrfile pre none q ∧ detailsfile pre none p ≠ detailsfile pre none q ∧ rrfile pre none p ≠ detailsfile pre none q := by
  have s1 : '/' ∉ m1 := fun h => hp.path.name_slash (by simp [h])
  have s2 : '/' ∉ m2 := fun h => hq.path.name_slash (by simp [h])
  have hnot : ¬ (d1 = d2 ∧ m1 = m2) := by
    rintro ⟨rfl, rfl⟩
    exact hne (hp.path.eq.trans hq.path.eq.symm)
  rw [(C95_redrock_file pre p d1 m1 hp).1, (C95_redrock_file pre q d2 m2 hq).1, (C95_details_file pre p d1 m1 hp).1, (C95_details_file pre q d2 m2 hq).1]
  refine ⟨fun h => ?_, fun h => ?_, fun h => ?_⟩
  · simp only [List.append_assoc] at h
    have := dir_name_inj (d1 := d1) (d2 := d2) (n1 := "redrock".toList ++ (m1 ++ ".fits".toList)) (n2 := "redrock".toList ++ (m2 ++ ".fits".toList)) (by simp [s1]) (by simp [s2])
      (by simp only [List.append_assoc]; exact h)
    exact hnot ⟨this.1, List.append_cancel_right (List.append_cancel_left this.2)⟩
  · simp only [List.append_assoc] at h
    have := dir_name_inj (d1 := d1) (d2 := d2) (n1 := "rrdetails".toList ++ (m1 ++ ".h5".toList)) (n2 := "rrdetails".toList ++ (m2 ++ ".h5".toList)) (by simp [s1]) (by simp [s2])
      (by simp only [List.append_assoc]; exact h)
    exact hnot ⟨this.1, List.append_cancel_right (List.append_cancel_left this.2)⟩
  · simp only [List.append_assoc] at h
    have := dir_name_inj (d1 := d1) (d2 := d2) (n1 := "redrock".toList ++ (m1 ++ ".fits".toList)) (n2 := "rrdetails".toList ++ (m2 ++ ".h5".toList)) (by simp [s1]) (by simp [s2])
      (by simp only [List.append_assoc]; exact h)
    have h2 := this.2
    simp at h2

/-- **C95** with an output directory, files of the same name in different directories share their output files (the later one overwrites the earlier one). -/
theorem C95_outdir_collision (pre p q d1 d2 mid : PyStr) (hp : IsSpec pre p d1 mid) (hq : IsSpec pre q d2 mid) (d : PyStr) (h1 : d ≠ []) (h2 : d.getLast? ≠ some '/') :
    rrfile pre (some d) p = rrfile pre (some d) q ∧ detailsfile pre (some d) p = detailsfile pre (some d) q := by
  constructor
  · rw [(C95_redrock_file pre p d1 mid hp).2 d h1 h2, (C95_redrock_file pre q d2 mid hq).2 d h1 h2]
  · rw [(C95_details_file pre p d1 mid hp).2 d h1 h2, (C95_details_file pre q d2 mid hq).2 d h1 h2]

/-- **C95** the claim without the conditions is false even in one directory: the prefix is replaced wherever it occurs in the name, so that two files of one directory have the same redrock file. -/
theorem C95_refuted : ¬ ∀ (pre p q : PyStr), isSpecName pre (basename p) = true → isSpecName pre (basename q) = true → p ≠ q → rrfile pre none p ≠ rrfile pre none q := by
  intro h
  exact h "spectra".toList "/d/spectra-spectra.fits".toList "/d/spectra-redrock.fits".toList (by decide) (by decide) (by decide) (by decide)

/-- **C95** with the prefix `redrock` the redrock file is the spectra file itself. -/
theorem C95_prefix_redrock (p dir mid : PyStr) (h : IsSpec "redrock".toList p dir mid) : rrfile "redrock".toList none p = p := by
  rw [(C95_redrock_file _ p dir mid h).1, h.path.eq]
  simp

/-- **C95** with a prefix that does not start with `r` (`spectra`, `spPlate`) no output file is ever taken for a spectra file by a later run. -/
theorem C95_outputs_not_spectra (pre p dir mid : PyStr) (h : IsSpec pre p dir mid) (c : Char) (hc : pre.head? = some c) (hr : c ≠ 'r') (outdir : Option PyStr)
    (hd : ∀ d, outdir = some d → d ≠ [] ∧ d.getLast? ≠ some '/') :
    isSpecName pre (basename (rrfile pre outdir p)) = false ∧ isSpecName pre (basename (detailsfile pre outdir p)) = false := by
  have sl : '/' ∉ mid := fun hh => h.path.name_slash (by simp [hh])
  have hfalse : ∀ rest : PyStr, isSpecName pre ('r' :: rest) = false := by
    intro rest
    cases pre with
    | nil => simp at hc
    | cons a as =>
      simp only [List.head?_cons, Option.some.injEq] at hc
      subst hc
      simp [isSpecName, List.isPrefixOf, hr]
  have k1 : ∀ d : PyStr, basename (d ++ ['/'] ++ "redrock".toList ++ mid ++ ".fits".toList) = 'r' :: ("edrock".toList ++ mid ++ ".fits".toList) := by
    intro d
    have := basename_append d ("redrock".toList ++ mid ++ ".fits".toList) (by simp [sl])
    simp only [List.append_assoc] at this ⊢
    rw [this]; rfl
  have k2 : ∀ d : PyStr, basename (d ++ ['/'] ++ "rrdetails".toList ++ mid ++ ".h5".toList) = 'r' :: ("rdetails".toList ++ mid ++ ".h5".toList) := by
    intro d
    have := basename_append d ("rrdetails".toList ++ mid ++ ".h5".toList) (by simp [sl])
    simp only [List.append_assoc] at this ⊢
    rw [this]; rfl
  cases outdir with
  | none =>
    rw [(C95_redrock_file pre p dir mid h).1, (C95_details_file pre p dir mid h).1, k1, k2]
    exact ⟨hfalse _, hfalse _⟩
  | some d =>
    obtain ⟨hd1, hd2⟩ := hd d rfl
    rw [(C95_redrock_file pre p dir mid h).2 d hd1 hd2, (C95_details_file pre p dir mid h).2 d hd1 hd2, k1, k2]
    exact ⟨hfalse _, hfalse _⟩

/-- the conditions are met by DESI's file names -/
theorem spec_example : IsSpec "spectra".toList "/redux/64/123/spectra-64-123.fits".toList "/redux/64/123".toList "-64-123".toList :=
  ⟨⟨by decide, by decide, by decide, by decide⟩, by decide, by rw [← pyContains_iff]; decide, by rw [← pyContains_iff]; decide⟩

example : rrfile "spectra".toList none "/redux/64/123/spectra-64-123.fits".toList = "/redux/64/123/redrock-64-123.fits".toList ∧
    detailsfile "spectra".toList (some "/out".toList) "/redux/64/123/spectra-64-123.fits".toList = "/out/rrdetails-64-123.h5".toList := by decide

/-! ### C96 -/

/-- In the directory `tree` there is a file `name` in the subdirectory `ds` (a list of directory names, outermost first). -/
inductive FileAt : Tree → List PyStr → PyStr → Prop
  | here (files : List PyStr) (subs : List (PyStr × Tree)) (name : PyStr) (h : name ∈ files) : FileAt (.node files subs) [] name
  | sub (files : List PyStr) (subs : List (PyStr × Tree)) (d : PyStr) (t : Tree) (ds : List PyStr) (name : PyStr) (h : (d, t) ∈ subs) (h' : FileAt t ds name) :
      FileAt (.node files subs) (d :: ds) name

/-- the path of a subdirectory -/
def dirPath (root : PyStr) (ds : List PyStr) : PyStr := ds.foldl pathJoin root

mutual
theorem mem_walk (norm : PyStr → PyStr) (avoid : Option PyStr) (keep : PyStr → Bool) : ∀ (t : Tree) (path f : PyStr),
    f ∈ walk norm avoid keep path t ↔ ∃ ds name, FileAt t ds name ∧ keep name = true ∧ f = pathJoin (dirPath path ds) name ∧ ∀ k, k < ds.length → some (norm (dirPath path (ds.take k))) ≠ avoid
  | .node files subs, path, f => by
    rw [walk, List.mem_append]
    constructor
    · rintro (h | h)
      · obtain ⟨name, hn, rfl⟩ := List.mem_map.1 h
        rw [List.mem_filter] at hn
        exact ⟨[], name, .here _ _ _ hn.1, hn.2, rfl, by simp⟩
      · split at h
        · simp at h
        · rename_i hav
          obtain ⟨d, t, hdt, ds, name, h1, h2, h3, h4⟩ := (mem_walkSubs norm avoid keep subs path f).1 h
          refine ⟨d :: ds, name, .sub _ _ _ _ _ _ hdt h1, h2, h3, ?_⟩
          intro k hk
          cases k with
          | zero => exact hav
          | succ k => exact h4 k (by simpa using hk)
    · rintro ⟨ds, name, h1, h2, h3, h4⟩
      cases h1 with
      | here _ _ _ h => left; exact List.mem_map.2 ⟨name, List.mem_filter.2 ⟨h, h2⟩, h3.symm⟩
      | sub _ _ d t ds _ h h' =>
        right
        have h0 : some (norm path) ≠ avoid := h4 0 (by simp)
        rw [if_neg h0]
        exact (mem_walkSubs norm avoid keep subs path f).2 ⟨d, t, h, ds, name, h', h2, h3, fun k hk => h4 (k + 1) (by simpa using hk)⟩
theorem mem_walkSubs (norm : PyStr → PyStr) (avoid : Option PyStr) (keep : PyStr → Bool) : ∀ (subs : List (PyStr × Tree)) (path f : PyStr),
    f ∈ walkSubs norm avoid keep path subs ↔ ∃ d t, (d, t) ∈ subs ∧ ∃ ds name, FileAt t ds name ∧ keep name = true ∧ f = pathJoin (dirPath (pathJoin path d) ds) name ∧
      ∀ k, k < ds.length → some (norm (dirPath (pathJoin path d) (ds.take k))) ≠ avoid
  | [], path, f => by simp [walkSubs]
  | (n, t) :: rest, path, f => by
    rw [walkSubs, List.mem_append, mem_walk norm avoid keep t (pathJoin path n) f, mem_walkSubs norm avoid keep rest path f]
    constructor
    · rintro (h | ⟨d, t', h, h'⟩)
      · exact ⟨n, t, by simp, h⟩
      · exact ⟨d, t', by simp [h], h'⟩
    · rintro ⟨d, t', h, h'⟩
      rcases List.mem_cons.1 h with e | h
      · obtain ⟨rfl, rfl⟩ := Prod.mk.inj e
        exact .inl h'
      · exact .inr ⟨d, t', h, h'⟩
end

/-- **C96** `find_specfiles` returns exactly the files `PREFIX*.fits` below `reduxdir` of which at least one of the two output files does not exist - except those in subdirectories of the directory to avoid
(files directly in that directory are returned). -/
theorem C96_found_partial (norm : PyStr → PyStr) (ex : PyStr → Bool) (reduxdir : PyStr) (tree : Tree) (outdir : Option PyStr) (pre : PyStr) (avoiddir : Option PyStr) (found : List PyStr)
    (h : findSpecfiles norm ex reduxdir tree outdir pre avoiddir = .ok found) (f : PyStr) :
    f ∈ found ↔ (∃ ds name, FileAt tree ds name ∧ f = pathJoin (dirPath reduxdir ds) name ∧ pre <+: name ∧ ".fits".toList <:+ name ∧
        ∀ above, above <+: ds → above ≠ ds → ∀ a, avoiddir = some a → norm (dirPath reduxdir above) ≠ norm a) ∧
      (ex (rrfile pre outdir f) = false ∨ ex (detailsfile pre outdir f) = false) := by
  have h' : needed ex outdir pre (walk norm (avoiddir.map norm) (isSpecName pre) reduxdir tree) = found := by
    unfold findSpecfiles at h
    simp only at h
    split at h
    · simp at h
    · exact Except.ok.inj h
  rw [← h', needed, List.mem_filter, mem_walk]
  apply and_congr
  · apply exists_congr; intro ds
    apply exists_congr; intro name
    constructor
    · rintro ⟨h1, h2, h3, h4⟩
      simp only [isSpecName, Bool.and_eq_true, List.isPrefixOf_iff_prefix, List.isSuffixOf_iff_suffix] at h2
      refine ⟨h1, h3, h2.1, h2.2, ?_⟩
      rintro above hab hne a rfl e
      have hl : above.length < ds.length := by
        rcases lt_or_eq_of_le hab.length_le with h | h
        · exact h
        · exact absurd (List.IsPrefix.eq_of_length hab h) hne
      have := h4 above.length hl
      rw [← List.prefix_iff_eq_take.1 hab, e] at this
      exact this rfl
    · rintro ⟨h1, h2, h3, h4, h5⟩
      refine ⟨h1, by simp only [isSpecName, Bool.and_eq_true, List.isPrefixOf_iff_prefix, List.isSuffixOf_iff_suffix]; exact ⟨h3, h4⟩, h2, ?_⟩
      intro k hk e
      cases hav : avoiddir with
      | none => rw [hav] at e; simp at e
      | some a =>
        rw [hav] at e
        simp only [Option.map_some, Option.some.injEq] at e
        refine h5 (ds.take k) (List.take_prefix _ _) ?_ a hav e
        intro e'
        have := congrArg List.length e'
        simp at this; omega
  · cases h1 : ex (outfile pre "redrock".toList none outdir f) <;> cases h2 : ex (outfile pre "rrdetails".toList (some "h5".toList) outdir f) <;> simp [rrfile, detailsfile, h1, h2]

/-- **C96** `IOError` if and only if there is no such file at all (done or not). -/
theorem C96_none (norm : PyStr → PyStr) (ex : PyStr → Bool) (reduxdir : PyStr) (tree : Tree) (outdir : Option PyStr) (pre : PyStr) :
    (findSpecfiles norm ex reduxdir tree outdir pre none = .error .osError) ↔ ¬ ∃ ds name, FileAt tree ds name ∧ pre <+: name ∧ ".fits".toList <:+ name := by
  unfold findSpecfiles
  simp only [Option.map_none]
  constructor
  · intro h
    split at h
    · rename_i he
      rintro ⟨ds, name, h1, h2, h3⟩
      have : pathJoin (dirPath reduxdir ds) name ∈ walk norm none (isSpecName pre) reduxdir tree :=
        (mem_walk norm none (isSpecName pre) tree reduxdir _).2 ⟨ds, name, h1, by simp only [isSpecName, Bool.and_eq_true, List.isPrefixOf_iff_prefix, List.isSuffixOf_iff_suffix]; exact ⟨h2, h3⟩, rfl, by simp⟩
      rw [he] at this
      simp at this
    · simp at h
  · intro h
    rw [if_pos]
    rw [List.eq_nil_iff_forall_not_mem]
    intro f hf
    obtain ⟨ds, name, h1, h2, _⟩ := (mem_walk norm none (isSpecName pre) tree reduxdir f).1 hf
    simp only [isSpecName, Bool.and_eq_true, List.isPrefixOf_iff_prefix, List.isSuffixOf_iff_suffix] at h2
    exact h ⟨ds, name, h1, h2.1, h2.2⟩

theorem dirPath_relative (root : PyStr) (hr : root ≠ []) (hr' : root.head? ≠ some '/') : ∀ (ds : List PyStr), (∀ d ∈ ds, d.head? ≠ some '/') → dirPath root ds ≠ [] ∧ (dirPath root ds).head? ≠ some '/' := by
  intro ds
  induction ds generalizing root with
  | nil => intro _; exact ⟨hr, hr'⟩
  | cons d ds ih =>
    intro hd
    have hd0 := hd d (by simp)
    have e : pathJoin root d ≠ [] ∧ (pathJoin root d).head? ≠ some '/' := by
      unfold pathJoin
      rw [if_neg hd0, if_neg hr]
      cases root with
      | nil => exact absurd rfl hr
      | cons c cs =>
        simp only [List.head?_cons] at hr'
        split <;> simp [hr']
    exact ih _ e.1 e.2 (fun d' h' => hd d' (by simp [h']))

/-- **C96** the directory to avoid is given as an absolute path (`os.path.abspath`), the directories of `os.walk` are compared as they are: with a relative `--reduxdir` nothing is avoided. `norm` (`normpath`)
keeps relative paths relative; directory names have no slash. -/
theorem C96_relative_never_avoided (norm : PyStr → PyStr) (hnorm : ∀ p : PyStr, p.head? ≠ some '/' → (norm p).head? ≠ some '/') (hnorm' : ∀ p : PyStr, p.head? = some '/' → (norm p).head? = some '/')
    (ex : PyStr → Bool) (reduxdir : PyStr) (hr : reduxdir ≠ []) (hrel : reduxdir.head? ≠ some '/') (tree : Tree) (hnames : ∀ ds name, FileAt tree ds name → ∀ d ∈ ds, d.head? ≠ some '/')
    (outdir : Option PyStr) (pre avoiddir : PyStr) (habs : avoiddir.head? = some '/') (found found' : List PyStr)
    (h : findSpecfiles norm ex reduxdir tree outdir pre (some avoiddir) = .ok found) (h' : findSpecfiles norm ex reduxdir tree outdir pre none = .ok found') (f : PyStr) : f ∈ found ↔ f ∈ found' := by
  rw [C96_found_partial _ _ _ _ _ _ _ _ h f, C96_found_partial _ _ _ _ _ _ _ _ h' f]
  apply and_congr_left'
  apply exists_congr; intro ds
  apply exists_congr; intro name
  constructor
  · rintro ⟨h1, h2, h3, h4, _⟩; exact ⟨h1, h2, h3, h4, by simp⟩
  · rintro ⟨h1, h2, h3, h4, _⟩
    refine ⟨h1, h2, h3, h4, ?_⟩
    rintro above hab _ a rfl' e
    obtain rfl := Option.some.inj rfl'
    have := dirPath_relative reduxdir hr hrel above (fun d hd => hnames ds name h1 d (hab.subset hd))
    exact hnorm _ this.2 (e ▸ hnorm' _ habs)

/-- a tree like BOSS's: plate files in `4000`, other files in `spectra/4000` -/
def bossTree : Tree := .node [] [("4000".toList, .node ["spPlate-4000.fits".toList, "spFrame.fits".toList] []), ("spectra".toList, .node ["spPlate-0.fits".toList] [("4000".toList, .node ["spPlate-1.fits".toList] [])])]

/-- the conditions are met: what is found in `/redux` when `/redux/spectra` is avoided -/
example : findSpecfiles id (fun _ => false) "/redux".toList bossTree none "spPlate".toList (some "/redux/spectra".toList) = .ok ["/redux/4000/spPlate-4000.fits".toList, "/redux/spectra/spPlate-0.fits".toList] := by decide +kernel
/-- and with a relative path -/
example : findSpecfiles id (fun _ => false) "redux".toList bossTree none "spPlate".toList (some "/here/redux/spectra".toList) =
    .ok ["redux/4000/spPlate-4000.fits".toList, "redux/spectra/spPlate-0.fits".toList, "redux/spectra/4000/spPlate-1.fits".toList] := by decide +kernel
/-- what is done is not found again -/
example : findSpecfiles id (fun f => f == "/redux/4000/redrock-4000.fits".toList || f == "/redux/4000/rrdetails-4000.h5".toList) "/redux".toList bossTree none "spPlate".toList (some "/redux/spectra".toList) =
    .ok ["/redux/spectra/spPlate-0.fits".toList] := by decide +kernel

end Wrap
end Redrock
