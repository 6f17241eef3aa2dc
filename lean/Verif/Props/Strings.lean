import Verif.Lemmas.Strings
import Verif.Lemmas.Zfind
import Verif.Lemmas.Rebin
import Mathlib.Data.List.Induction
import Mathlib.Data.List.TakeWhile

/-! Properties C28 (template names), C29 (BOSS target IDs), C30 (template files in the header). -/
namespace Redrock

/-- **C28** `parse_fulltype(make_fulltype(spectype, subtype))` gives back the stripped pair (an absent subtype is the empty string), if neither contains `:::` and - for a non-empty
subtype - the spectype does not end with a colon. -/
theorem C28_round_trip (spectype : PyStr) (subtype : Option PyStr) (h1 : ¬ ":::".toList <:+: pyStrip spectype) (h2 : ∀ s, subtype = some s → ¬ ":::".toList <:+: pyStrip s)
    (h3 : ∀ s, subtype = some s → pyStrip s ≠ [] → (pyStrip spectype).getLast? ≠ some ':') :
    parseFulltype (makeFulltype spectype subtype) = .ok (pyStrip spectype, pyStrip (subtype.getD [])) := by
  have hs3 : ":::".toList = sep3 := by decide
  rw [hs3] at h1 h2
  have hplain : parseFulltype (pyStrip spectype) = .ok (pyStrip spectype, []) := by
    unfold parseFulltype
    rw [pyStrip_idem]
    simp only
    rw [if_neg (by rw [pyContains_iff]; exact h1)]
  cases subtype with
  | none =>
    rw [show makeFulltype spectype none = pyStrip spectype from rfl, hplain]
    rfl
  | some s =>
    have h2 := h2 s rfl
    have h3 := h3 s rfl
    by_cases he : pyStrip s = []
    · have : makeFulltype spectype (some s) = pyStrip spectype := by simp [makeFulltype, he]
      rw [this, hplain, Option.getD_some, he]
    · have hmk : makeFulltype spectype (some s) = pyStrip spectype ++ sep3 ++ pyStrip s := by
        obtain ⟨c, cs, hc⟩ := List.exists_cons_of_ne_nil he
        simp [makeFulltype, hc]
      have htrim : Trimmed (pyStrip spectype ++ sep3 ++ pyStrip s) := by
        obtain ⟨a1, _⟩ := trimmed_pyStrip spectype
        obtain ⟨_, b2⟩ := trimmed_pyStrip s
        constructor
        · intro c hc
          cases hq : pyStrip spectype with
          | nil => rw [hq] at hc; simp [sep3] at hc; subst hc; decide
          | cons x xs => rw [hq] at hc a1; simp at hc; subst hc; exact a1 x rfl
        · intro c hc
          apply b2
          rw [List.getLast?_append] at hc
          cases hq : (pyStrip s).getLast? with
          | none => exact absurd (List.getLast?_eq_none_iff.1 hq) he
          | some y => rw [hq] at hc; exact hc
      rw [hmk]
      unfold parseFulltype
      rw [pyStrip_of_trimmed _ htrim]
      simp only
      rw [if_pos (by rw [pyContains_iff]; exact ⟨_, _, rfl⟩)]
      have hsplit : pySplit sep3 (pyStrip spectype ++ sep3 ++ pyStrip s) = [pyStrip spectype, pyStrip s] := by
        unfold pySplit
        rw [pySplitAux_first sep3 (by decide) (pyStrip s) (pyStrip spectype) [] (no_early_sep _ _ h1 (h3 he)), List.nil_append]
        unfold pySplit
        rw [pySplitAux_none sep3 _ _ h2, List.nil_append]
      rw [hsplit, Option.getD_some]

/-- **C28** on such names `make_fulltype` loses nothing: equal full types come from equal (stripped) pairs. -/
theorem C28_injective (a b : PyStr) (s t : Option PyStr)
    (ha : ¬ ":::".toList <:+: pyStrip a) (hs : ∀ x, s = some x → ¬ ":::".toList <:+: pyStrip x) (ha' : ∀ x, s = some x → pyStrip x ≠ [] → (pyStrip a).getLast? ≠ some ':')
    (hb : ¬ ":::".toList <:+: pyStrip b) (ht : ∀ x, t = some x → ¬ ":::".toList <:+: pyStrip x) (hb' : ∀ x, t = some x → pyStrip x ≠ [] → (pyStrip b).getLast? ≠ some ':')
    (h : makeFulltype a s = makeFulltype b t) : pyStrip a = pyStrip b ∧ pyStrip (s.getD []) = pyStrip (t.getD []) := by
  have e1 := C28_round_trip a s ha hs ha'
  have e2 := C28_round_trip b t hb ht hb'
  rw [h, e2] at e1
  have := Except.ok.inj e1
  exact ⟨(congrArg Prod.fst this).symm, (congrArg Prod.snd this).symm⟩

/-- the colon condition is needed: a spectype ending with a colon is cut one character too early -/
theorem C28_colon_needed : parseFulltype (makeFulltype "A:".toList (some "B".toList)) = .ok ("A".toList, ":B".toList) := by decide +kernel

private theorem pySplitAux_ne_nil (sep : PyStr) : ∀ (s : PyStr) (n : Nat) (acc : PyStr), 1 ≤ (pySplitAux sep n acc s).length := by
  intro s
  induction s with
  | nil => intro n acc; cases n <;> simp [pySplitAux]
  | cons c cs ih =>
    intro n acc
    cases n with
    | succ n => rw [pySplitAux]; exact ih n acc
    | zero =>
      rw [pySplitAux]
      split_ifs
      · simp
      · exact ih 0 _

/-- an occurrence in the string forces a further piece -/
theorem two_le_of_infix (sep : PyStr) (hsep : sep ≠ []) : ∀ (s acc : PyStr), sep <:+: s → 2 ≤ (pySplitAux sep 0 acc s).length := by
  intro s
  induction s with
  | nil => intro acc h; rw [List.infix_nil] at h; exact absurd h hsep
  | cons c cs ih =>
    intro acc h
    rw [pySplitAux]
    split_ifs with hp
    · have := pySplitAux_ne_nil sep cs (sep.length - 1) []
      simp only [List.length_cons]; omega
    · apply ih
      rw [List.infix_cons_iff] at h
      rcases h with h | h
      · rw [List.isPrefixOf_iff_prefix] at hp; exact absurd h hp
      · exact h

private theorem three_le (sep : PyStr) (hsep : sep ≠ []) (t : PyStr) (ht : sep <:+: t) : ∀ (s acc : PyStr), sep ++ t <:+ s ∨ (∃ a, s = a ++ sep ++ t) → 3 ≤ (pySplitAux sep 0 acc s).length := by
  intro s
  induction s with
  | nil =>
    intro acc h
    rcases h with h | ⟨a, h⟩
    · rw [List.suffix_nil] at h; exact absurd (List.append_eq_nil_iff.1 h).1 hsep
    · have := congrArg List.length h
      obtain ⟨x, xs, hx⟩ := List.exists_cons_of_ne_nil hsep
      rw [hx] at this; simp at this
  | cons c cs ih =>
    intro acc h
    have hs : ∃ a, c :: cs = a ++ sep ++ t := by
      rcases h with ⟨a, h⟩ | h
      · exact ⟨a, by rw [← h]; simp⟩
      · exact h
    obtain ⟨a, ha⟩ := hs
    have hpos : 1 ≤ sep.length := by
      obtain ⟨x, xs, hx⟩ := List.exists_cons_of_ne_nil hsep
      rw [hx]; simp
    rw [pySplitAux]
    split_ifs with hp
    · rw [List.length_cons]
      have hl : sep.length - 1 ≤ cs.length := by
        have := congrArg List.length ha
        simp at this; omega
      rw [pySplitAux_skip _ _ _ _ hl]
      have : sep <:+: cs.drop (sep.length - 1) := by
        have e : cs.drop (sep.length - 1) = (c :: cs).drop sep.length := by
          obtain ⟨m, hm⟩ : ∃ m, sep.length = m + 1 := ⟨sep.length - 1, by omega⟩
          rw [hm]; simp
        rw [e, ha, List.append_assoc, List.drop_append]
        have hsuf : t <:+ (sep ++ t).drop (sep.length - a.length) := by
          rw [List.drop_append, show sep.length - a.length - sep.length = 0 by omega, List.drop_zero]
          exact List.suffix_append _ _
        exact ht.trans (hsuf.isInfix.trans (List.suffix_append _ _).isInfix)
      have := two_le_of_infix sep hsep _ [] this
      omega
    · apply ih
      right
      cases a with
      | nil =>
        exfalso
        apply hp
        rw [List.isPrefixOf_iff_prefix, ha]
        exact ⟨t, by simp⟩
      | cons x xs =>
        rw [List.cons_append, List.cons_append, List.cons.injEq] at ha
        exact ⟨xs, ha.2⟩

/-- **C28** a name with two separators is refused with `ValueError`. -/
theorem C28_two_separators (f a b c : PyStr) (h : pyStrip f = a ++ ":::".toList ++ b ++ ":::".toList ++ c) : parseFulltype f = .error .valueError := by
  have hs3 : ":::".toList = sep3 := by decide
  rw [hs3] at h
  unfold parseFulltype
  simp only
  rw [if_pos (by rw [pyContains_iff, h]; exact ⟨a, b ++ sep3 ++ c, by simp⟩)]
  have h3 := three_le sep3 (by decide) (b ++ sep3 ++ c) ⟨b, c, rfl⟩ (pyStrip f) [] (Or.inr ⟨a, by rw [h]; simp⟩)
  change 3 ≤ (pySplit sep3 (pyStrip f)).length at h3
  match hq : pySplit sep3 (pyStrip f), h3 with
  | [], h3 => simp at h3
  | [_], h3 => simp at h3
  | [_, _], h3 => simp at h3
  | _ :: _ :: _ :: _, _ => rfl

/-- names as they occur in redrock meet the hypotheses -/
example : ¬ ":::".toList <:+: pyStrip " STAR ".toList ∧ ¬ ":::".toList <:+: pyStrip "M".toList ∧ (pyStrip " STAR ".toList).getLast? ≠ some ':' ∧
    makeFulltype " STAR ".toList (some "M".toList) = "STAR:::M".toList ∧ parseFulltype "GALAXY".toList = .ok ("GALAXY".toList, []) := by decide +kernel
example : parseFulltype "A:::B:::C".toList = .error .valueError := C28_two_separators _ "A".toList "B".toList "C".toList (by decide +kernel)

/-! ### C29 -/

/-- **C29** `targetid2platemjdfiber` inverts `platemjdfiber2targetid` whenever mjd has at most 5 and fiber at most 4 digits (any plate number, of either sign). -/
theorem C29_inverse (plate mjd fiber : Int) (hm : 0 ≤ mjd ∧ mjd < 100000) (hf : 0 ≤ fiber ∧ fiber < 10000) :
    targetid2platemjdfiber (platemjdfiber2targetid plate mjd fiber) = (plate, mjd, fiber) := by
  have h1 : ∀ a b : Int, 0 ≤ b → a.fdiv b = a / b := fun a b hb => Int.fdiv_eq_ediv_of_nonneg a hb
  have h2 : ∀ a b : Int, 0 ≤ b → a.fmod b = a % b := fun a b hb => Int.fmod_eq_emod_of_nonneg a hb
  unfold targetid2platemjdfiber platemjdfiber2targetid
  rw [h1 _ _ (by omega), h1 _ _ (by omega), h2 _ _ (by omega), h2 _ _ (by omega)]
  refine Prod.ext ?_ (Prod.ext ?_ ?_)
  · show (plate * 1000000000 + mjd * 10000 + fiber) / (10000 * 100000) = plate
    omega
  · show (plate * 1000000000 + mjd * 10000 + fiber) / 10000 % 100000 = mjd
    omega
  · show (plate * 1000000000 + mjd * 10000 + fiber) % 10000 = fiber
    omega

/-- **C29** distinct observations get distinct IDs. -/
theorem C29_injective (p m f p' m' f' : Int) (hm : 0 ≤ m ∧ m < 100000) (hf : 0 ≤ f ∧ f < 10000) (hm' : 0 ≤ m' ∧ m' < 100000) (hf' : 0 ≤ f' ∧ f' < 10000)
    (h : platemjdfiber2targetid p m f = platemjdfiber2targetid p' m' f') : p = p' ∧ m = m' ∧ f = f' := by
  have e1 := C29_inverse p m f hm hf
  rw [h, C29_inverse p' m' f' hm' hf'] at e1
  simp only [Prod.mk.injEq] at e1
  exact ⟨e1.1.symm, e1.2.1.symm, e1.2.2.symm⟩

/-- **C29** and every ID is the ID of the triple it is decomposed into. -/
theorem C29_inverse' (t : Int) : let (p, m, f) := targetid2platemjdfiber t; platemjdfiber2targetid p m f = t := by
  have h1 : ∀ a b : Int, 0 ≤ b → a.fdiv b = a / b := fun a b hb => Int.fdiv_eq_ediv_of_nonneg a hb
  have h2 : ∀ a b : Int, 0 ≤ b → a.fmod b = a % b := fun a b hb => Int.fmod_eq_emod_of_nonneg a hb
  show platemjdfiber2targetid (t.fdiv (10000 * 100000)) ((t.fdiv 10000).fmod 100000) (t.fmod 10000) = t
  unfold platemjdfiber2targetid
  rw [h1 _ _ (by omega), h1 _ _ (by omega), h2 _ _ (by omega), h2 _ _ (by omega)]
  omega

example : targetid2platemjdfiber (platemjdfiber2targetid 7339 56768 33) = (7339, 56768, 33) := C29_inverse _ _ _ (by omega) (by omega)
/-- the range is needed: a fiber number of 10000 is taken for the next day -/
example : platemjdfiber2targetid 1 55000 10000 = platemjdfiber2targetid 1 55001 0 := by decide

/-! ### C30 -/

/-- the three keyword families of the templates -/
def templateKey (k : PyStr) : Prop := ∃ i, k = hkey "TEMFIL" i ∨ k = hkey "TEMNAM" i ∨ k = hkey "TEMVER" i

private theorem writeTemplateKeys_append (hdr : Header) (ts : List TemplateId) (t : TemplateId) : writeTemplateKeys hdr (ts ++ [t]) =
    ((((writeTemplateKeys hdr ts).set (hkey "TEMNAM" ts.length) t.fullType).set (hkey "TEMVER" ts.length) t.version).set (hkey "TEMFIL" ts.length) (basename t.filename)) := by
  unfold writeTemplateKeys
  rw [List.zipIdx_append, List.foldl_append]
  simp

private theorem get?_temfil (hdr : Header) (hnew : ∀ k, templateKey k → hdr.get? k = none) (ts : List TemplateId) (i : Nat) :
    (writeTemplateKeys hdr ts).get? (hkey "TEMFIL" i) = ts[i]?.map (fun t => basename t.filename) := by
  induction ts using List.reverseRecOn with
  | nil => simpa [writeTemplateKeys] using hnew _ ⟨i, Or.inl rfl⟩
  | append_singleton ts t ih =>
    rw [writeTemplateKeys_append, PyDict.get?_set, PyDict.get?_set, PyDict.get?_set]
    have n1 : hkey "TEMFIL" i ≠ hkey "TEMVER" ts.length := hkey_ne _ _ (by decide) (by decide) _ _
    have n2 : hkey "TEMFIL" i ≠ hkey "TEMNAM" ts.length := hkey_ne _ _ (by decide) (by decide) _ _
    by_cases h : i = ts.length
    · subst h
      simp
    · have n0 : hkey "TEMFIL" i ≠ hkey "TEMFIL" ts.length := fun e => h (hkey_inj _ _ _ e)
      rw [if_neg n0.symm, if_neg n1.symm, if_neg n2.symm, ih]
      rcases Nat.lt_or_ge i ts.length with hl | hl
      · rw [List.getElem?_append_left hl]
      · rw [List.getElem?_eq_none (l := ts ++ [t]) (by simp; omega), List.getElem?_eq_none hl]

private theorem get?_temnam (hdr : Header) (hnew : ∀ k, templateKey k → hdr.get? k = none) (ts : List TemplateId) (i : Nat) :
    (writeTemplateKeys hdr ts).get? (hkey "TEMNAM" i) = ts[i]?.map (fun t => t.fullType) := by
  induction ts using List.reverseRecOn with
  | nil => simpa [writeTemplateKeys] using hnew _ ⟨i, Or.inr (Or.inl rfl)⟩
  | append_singleton ts t ih =>
    rw [writeTemplateKeys_append, PyDict.get?_set, PyDict.get?_set, PyDict.get?_set]
    have n1 : hkey "TEMNAM" i ≠ hkey "TEMVER" ts.length := hkey_ne _ _ (by decide) (by decide) _ _
    have n2 : hkey "TEMNAM" i ≠ hkey "TEMFIL" ts.length := hkey_ne _ _ (by decide) (by decide) _ _
    by_cases h : i = ts.length
    · subst h
      rw [if_neg n2.symm, if_neg n1.symm]
      simp
    · have n0 : hkey "TEMNAM" i ≠ hkey "TEMNAM" ts.length := fun e => h (hkey_inj _ _ _ e)
      rw [if_neg n2.symm, if_neg n1.symm, if_neg n0.symm, ih]
      rcases Nat.lt_or_ge i ts.length with hl | hl
      · rw [List.getElem?_append_left hl]
      · rw [List.getElem?_eq_none (l := ts ++ [t]) (by simp; omega), List.getElem?_eq_none hl]

private theorem filterMap_range_getElem? {α β : Type} (l : List α) (f : α → β) (n : Nat) : (List.range n).filterMap (fun i => l[i]?.map f) = (l.take n).map f := by
  induction n with
  | zero => simp
  | succ n ih =>
    rw [List.range_succ, List.filterMap_append, ih, List.take_add_one, List.map_append]
    cases h : l[n]? <;> simp [h]

/-- all entries known: the list of files -/
private theorem files_of_entries {α : Type} (hf : Header) (dir : PyStr) (l : List α) (f : α → PyStr) (h : ∀ i ∈ List.range 100, headerEntry hf i = .ok (l[i]?.map f)) :
    header2templatefiles hf dir = .ok ((l.take 100).map (fun t => pathJoin dir (f t))) := by
  unfold header2templatefiles
  rw [mapM_Except_ok _ (fun i => l[i]?.map f) _ h, okBind]
  have := filterMap_range_getElem? l f 100
  generalize List.range 100 = r at *
  generalize List.take 100 l = r2 at *
  show Except.ok _ = _
  rw [List.filterMap_map]
  congr 1
  change List.map (pathJoin dir) (List.filterMap (fun i => l[i]?.map f) r) = _
  rw [this, List.map_map]
  rfl

/-- **C30** `header2templatefiles` applied to the header written by rrdesi returns, in order, the base names of the template files joined with the template directory - for the first 100
templates; further ones are ignored. `hdr` is the header before the template keywords are written, `hf` the final header, to which other keywords may have been added. -/
theorem C30_files_from_header (hdr hf : Header) (ts : List TemplateId) (dir : PyStr) (hnew : ∀ k, templateKey k → hdr.get? k = none)
    (hf' : ∀ k, templateKey k → hf.get? k = (writeTemplateKeys hdr ts).get? k) :
    header2templatefiles hf dir = .ok ((ts.take 100).map (fun t => pathJoin dir (basename t.filename))) := by
  have hentry : ∀ i ∈ List.range 100, headerEntry hf i = .ok (ts[i]?.map (fun t => basename t.filename)) := by
    intro i _
    unfold headerEntry
    rw [hf' _ ⟨i, Or.inl rfl⟩, hf' _ ⟨i, Or.inr (Or.inl rfl)⟩, get?_temfil hdr hnew, get?_temnam hdr hnew]
    cases ts[i]? with
    | none => rfl
    | some t => rfl
  exact files_of_entries hf dir ts _ hentry

private theorem basename_append (d b : PyStr) (hb : '/' ∉ b) : basename (d ++ ['/'] ++ b) = b := by
  unfold basename
  rw [List.reverse_append, List.reverse_append, List.takeWhile_append_of_pos]
  · simp
  · intro c hc
    have : c ≠ '/' := fun e => hb (e ▸ List.mem_reverse.1 hc)
    simp [this]

private theorem not_mem_basename (f : PyStr) : '/' ∉ basename f := by
  unfold basename
  rw [List.mem_reverse]
  intro h
  have := List.mem_takeWhile_imp h
  simp at this

/-- **C30** the file found again is the file that was used exactly if that file lies in the template directory. -/
theorem C30_same_file_iff (dir f : PyStr) (hd : dir ≠ []) (hs : dir.getLast? ≠ some '/') : pathJoin dir (basename f) = f ↔ ∃ b, '/' ∉ b ∧ f = dir ++ ['/'] ++ b := by
  have hh : (basename f).head? ≠ some '/' := fun h => not_mem_basename f (List.mem_of_mem_head? h)
  have hj : pathJoin dir (basename f) = dir ++ ['/'] ++ basename f := by
    unfold pathJoin
    rw [if_neg hh, if_neg hd, if_neg hs]
  rw [hj]
  constructor
  · intro h; exact ⟨basename f, not_mem_basename f, h.symm⟩
  · rintro ⟨b, hb, rfl⟩
    rw [basename_append dir b hb]

/-- the file name that `header2templatefiles` builds from a type and a version -/
def conventionalName (spectype subtype version : PyStr) : PyStr :=
  "rrtemplate-".toList ++ spectype ++ "-".toList ++ (if subtype = [] then "None".toList else subtype) ++ "-v".toList ++ version ++ ".fits".toList

private theorem boss_append (hdr : Header) (vs : List (PyStr × PyStr)) (v : PyStr × PyStr) : writeTemplateKeysBoss hdr (vs ++ [v]) =
    (((writeTemplateKeysBoss hdr vs).set (hkey "TEMNAM" vs.length) v.1).set (hkey "TEMVER" vs.length) v.2) := by
  unfold writeTemplateKeysBoss
  rw [List.zipIdx_append, List.foldl_append]
  simp

private theorem boss_get? (hdr : Header) (hnew : ∀ k, templateKey k → hdr.get? k = none) (vs : List (PyStr × PyStr)) (i : Nat) :
    (writeTemplateKeysBoss hdr vs).get? (hkey "TEMFIL" i) = none ∧ (writeTemplateKeysBoss hdr vs).get? (hkey "TEMNAM" i) = vs[i]?.map (·.1) ∧
    (writeTemplateKeysBoss hdr vs).get? (hkey "TEMVER" i) = vs[i]?.map (·.2) := by
  induction vs using List.reverseRecOn with
  | nil => exact ⟨by simpa [writeTemplateKeysBoss] using hnew _ ⟨i, Or.inl rfl⟩, by simpa [writeTemplateKeysBoss] using hnew _ ⟨i, Or.inr (Or.inl rfl)⟩,
      by simpa [writeTemplateKeysBoss] using hnew _ ⟨i, Or.inr (Or.inr rfl)⟩⟩
  | append_singleton vs v ih =>
    obtain ⟨i1, i2, i3⟩ := ih
    have e : ∀ a b : Nat, hkey "TEMVER" a ≠ hkey "TEMFIL" b := fun a b => hkey_ne _ _ (by decide) (by decide) _ _
    have e' : ∀ a b : Nat, hkey "TEMNAM" a ≠ hkey "TEMFIL" b := fun a b => hkey_ne _ _ (by decide) (by decide) _ _
    have e'' : ∀ a b : Nat, hkey "TEMVER" a ≠ hkey "TEMNAM" b := fun a b => hkey_ne _ _ (by decide) (by decide) _ _
    have hidx : i ≠ vs.length → (vs ++ [v])[i]? = vs[i]? := by
      intro h
      rcases Nat.lt_or_ge i vs.length with hl | hl
      · rw [List.getElem?_append_left hl]
      · rw [List.getElem?_eq_none (l := vs ++ [v]) (by simp; omega), List.getElem?_eq_none hl]
    rw [boss_append]
    simp only [PyDict.get?_set]
    refine ⟨?_, ?_, ?_⟩
    · rw [if_neg (e _ _), if_neg (e' _ _), i1]
    · rw [if_neg (e'' _ _)]
      by_cases h : i = vs.length
      · subst h; simp
      · rw [if_neg (fun q => h (hkey_inj _ _ _ q).symm), i2, hidx h]
    · by_cases h : i = vs.length
      · subst h; simp
      · rw [if_neg (fun q => h (hkey_inj _ _ _ q).symm), if_neg (fun q => e'' _ _ q.symm), i3, hidx h]

/-- **C30** the header written by rrboss has no file names: from it the files `rrtemplate-TYPE-SUBTYPE-vVERSION.fits` are derived (subtype `None` if empty), in order, for the first 100
templates with a known version. Each entry of `vs` is (spectype, subtype, version). -/
theorem C30_boss_header (hdr : Header) (vs : List (PyStr × PyStr × PyStr)) (dir : PyStr) (hnew : ∀ k, templateKey k → hdr.get? k = none)
    (h1 : ∀ v ∈ vs, ¬ ":::".toList <:+: pyStrip v.1 ∧ ¬ ":::".toList <:+: pyStrip v.2.1 ∧ (pyStrip v.1).getLast? ≠ some ':') (h2 : ∀ v ∈ vs, pyStrip v.2.2 ≠ "unknown".toList) :
    header2templatefiles (writeTemplateKeysBoss hdr (vs.map (fun v => (makeFulltype v.1 (some v.2.1), v.2.2)))) dir =
      .ok ((vs.take 100).map (fun v => pathJoin dir (conventionalName (pyStrip v.1) (pyStrip v.2.1) (pyStrip v.2.2)))) := by
  have hentry : ∀ i ∈ List.range 100, headerEntry (writeTemplateKeysBoss hdr (vs.map (fun v => (makeFulltype v.1 (some v.2.1), v.2.2)))) i =
      .ok (vs[i]?.map (fun v => conventionalName (pyStrip v.1) (pyStrip v.2.1) (pyStrip v.2.2))) := by
    intro i _
    obtain ⟨b1, b2, b3⟩ := boss_get? hdr hnew (vs.map (fun v => (makeFulltype v.1 (some v.2.1), v.2.2))) i
    unfold headerEntry
    rw [b1, b2, b3, List.getElem?_map]
    cases hv : vs[i]? with
    | none => rfl
    | some v =>
      have hm := List.mem_of_getElem? hv
      obtain ⟨p1, p2, p3⟩ := h1 v hm
      have hp := C28_round_trip v.1 (some v.2.1) p1 (fun s hs => by cases hs; exact p2) (fun s hs _ => p3)
      simp only [Option.map_some]
      rw [hp, okBind]
      simp only [Option.getD_some, if_neg (h2 v hm)]
      rfl
  exact files_of_entries _ dir vs _ hentry

/-- non-trivial instance: two templates, one found again, the other (in another directory) not -/
def exTemplates : List TemplateId := [⟨"GALAXY".toList, "2.6".toList, "/t/rrtemplate-GALAXY-None-v2.6.fits".toList⟩, ⟨"STAR:::M".toList, "1.0".toList, "/mine/my.fits".toList⟩]

example : header2templatefiles (writeTemplateKeys [("RRVER".toList, "0.20".toList)] exTemplates) "/t".toList =
    .ok ["/t/rrtemplate-GALAXY-None-v2.6.fits".toList, "/t/my.fits".toList] := by decide +kernel

end Redrock
