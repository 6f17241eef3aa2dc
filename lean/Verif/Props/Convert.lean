import Verif.Model.Convert
import Verif.Props.Templates
import Verif.Props.TemplateGrid
import Verif.Props.ArchetypeModel
import Verif.Lemmas.Dict

/-!
C127: `rrconvertSDSStemplates` turns every template of an SDSS file into a redrock template.
-/
set_option linter.unusedSectionVars false
namespace Redrock
namespace Convert
open Wrap

/-! ### what is meant -/

/-- the redrock type of an SDSS `OBJECT`: no blanks, upper case -/
def sdssType (object : PyStr) : PyStr := (object.filter (· ≠ ' ')).map Char.toUpper
/-- the redrock subtype of an SDSS name: without `-` and `/` -/
def sdssSub (name : PyStr) : PyStr := name.filter (fun c => c ≠ '-' ∧ c ≠ '/')
/-- the file of an SDSS name: `rrtemplate-<type>-<subtype>.fits`, in the subtype no blanks, an opening parenthesis replaced by `_` and no closing one -/
def sdssPath (folder object name : PyStr) : PyStr :=
  folder ++ "/rrtemplate-".toList ++ (sdssType object).map Char.toLower ++ ['-'] ++
    ((sdssSub name).filter (fun c => c ≠ ' ' ∧ c ≠ ')')).map (fun c => if c = '(' then '_' else c) ++ ".fits".toList

/-- An SDSS file with the templates `names`, numbered from 0, one row of data for each. -/
structure IsSdss (f : SdssFile) (object : PyStr) (c0 c1 : ℝ) (names : List PyStr) : Prop where
  keys : (PyDict.keys f.header).Nodup
  object : PyDict.get? f.header "OBJECT".toList = some (.str object)
  coeff0 : PyDict.get? f.header "COEFF0".toList = some (.num c0)
  coeff1 : PyDict.get? f.header "COEFF1".toList = some (.num c1)
  name : ∀ (s : Nat) name, names[s]? = some name → PyDict.get? f.header ("NAME".toList ++ natStr s) = some (.str name)
  rows : names.length ≤ f.data.length
  ne : names ≠ []

/-- no other keyword of the header begins with `NAME` (except `NAME` itself) -/
def OnlyNames (f : SdssFile) (n : Nat) : Prop := ∀ k ∈ PyDict.keys f.header, "NAME".toList <+: k → k ≠ "NAME".toList → ∃ s < n, k = "NAME".toList ++ natStr s

/-- the content of the file of one named template -/
structure IsConverted (o : Options) (object : PyStr) (c0 c1 : ℝ) (name : PyStr) (row : List ℝ) (c : Converted) : Prop where
  crval1 : c.file.crval1 = c0
  cdelt1 : c.file.cdelt1 = c1
  naxis1 : c.file.naxis1 = row.length
  loglam : c.file.loglam = some 1
  flux : c.file.flux = [row]
  rrtype : c.file.rrtype = some (sdssType object)
  rrsubtyp : c.file.rrsubtyp = some (sdssSub name)
  version : c.file.version = o.version
  others : c.file.rrmethod = none ∧ c.file.redshifts = none ∧ c.file.rrigm = none
  sdssname : c.sdssname = some name

/-! ### strings -/

private theorem split_replace (c : Char) (new : PyStr) : ∀ (s acc : PyStr), List.intercalate new (pySplitAux [c] 0 acc s) = acc ++ s.flatMap (fun x => if x = c then new else [x]) := by
  intro s
  induction s with
  | nil => intro acc; simp [pySplitAux, List.intercalate]
  | cons x xs ih =>
    intro acc
    unfold pySplitAux
    by_cases h : x = c
    · subst h
      rw [if_pos (by simp)]
      have hne : pySplitAux [x] 0 [] xs ≠ [] := by
        intro h0
        cases xs with
        | nil => simp [pySplitAux] at h0
        | cons y ys =>
          have : ∀ (s acc : PyStr), pySplitAux [x] 0 acc s ≠ [] := by
            intro s
            induction s with
            | nil => intro acc; simp [pySplitAux]
            | cons z zs ihz =>
              intro acc
              unfold pySplitAux
              split
              · simp
              · exact ihz _
          exact this _ _ h0
      have : [x].length - 1 = 0 := rfl
      rw [this]
      obtain ⟨p, ps, hps⟩ := List.exists_cons_of_ne_nil hne
      have ih' := ih []
      rw [hps] at ih' ⊢
      have e : List.intercalate new (acc :: p :: ps) = acc ++ (new ++ List.intercalate new (p :: ps)) := by
        simp [List.intercalate, List.intersperse]
      rw [e, ih']
      simp
    · rw [if_neg (by simp [h, Ne.symm h]), ih]
      simp [h]

private theorem replace_one (c : Char) (new s : PyStr) : pyReplace [c] new s = s.flatMap (fun x => if x = c then new else [x]) := by
  unfold pyReplace pySplit
  rw [if_neg (by simp), split_replace]
  rfl

private theorem replace_del (c : Char) (s : PyStr) : pyReplace [c] [] s = s.filter (· ≠ c) := by
  rw [replace_one]
  induction s with
  | nil => rfl
  | cons x xs ih =>
    rw [List.flatMap_cons, ih]
    by_cases h : x = c <;> simp [h]

private theorem replace_char (c d : Char) (s : PyStr) : pyReplace [c] [d] s = s.map (fun x => if x = c then d else x) := by
  rw [replace_one]
  induction s with
  | nil => rfl
  | cons x xs ih =>
    rw [List.flatMap_cons, ih]
    by_cases h : x = c <;> simp [h]

theorem subTypeOf_eq (name : PyStr) : subTypeOf name = sdssSub name := by
  unfold subTypeOf sdssSub
  rw [replace_del, replace_del, List.filter_filter]
  apply List.filter_congr
  intro c _
  rw [Bool.eq_iff_iff]
  simp only [Bool.and_eq_true, decide_eq_true_eq]
  exact and_comm

theorem fileSubType_eq (s : PyStr) : fileSubType s = (s.filter (fun c => c ≠ ' ' ∧ c ≠ ')')).map (fun c => if c = '(' then '_' else c) := by
  unfold fileSubType
  rw [replace_del, replace_char, replace_del]
  induction s with
  | nil => rfl
  | cons c cs ih =>
    by_cases h1 : c = ' '
    · subst h1; simpa using ih
    · by_cases h2 : c = ')'
      · subst h2
        simp only [ne_eq, List.filter_cons] at ih ⊢
        simpa using ih
      · by_cases h3 : c = '('
        · subst h3; simpa using ih
        · simpa [h1, h2, h3] using ih

theorem outName_eq (folder object name : PyStr) : outName folder (sdssType object) (some (sdssSub name)) = sdssPath folder object name := by
  unfold outName sdssPath
  simp only [fileSubType_eq]
  rfl

/-! ### one template -/

private theorem specType_eq {h : PyDict PyStr HVal} {object : PyStr} (ho : PyDict.get? h "OBJECT".toList = some (.str object)) : specType h = .ok (sdssType object) := by
  unfold specType PyDict.get
  rw [ho]
  change Except.ok (pyUpper (pyReplace [' '] [] object)) = _
  rw [replace_del]
  rfl

private theorem one_ok (o : Options) {f : SdssFile} {object : PyStr} {c0 c1 : ℝ} (ho : PyDict.get? f.header "OBJECT".toList = some (.str object))
    (h0 : PyDict.get? f.header "COEFF0".toList = some (.num c0)) (h1 : PyDict.get? f.header "COEFF1".toList = some (.num c1)) {s : Nat} {name : PyStr} {row : List ℝ}
    (hn : PyDict.get? f.header ("NAME".toList ++ natStr s) = some (.str name)) (hr : f.data[s]? = some row) :
    ∃ c, convertOne o f true s = .ok (sdssPath o.outfolder object name, c) ∧ IsConverted o object c0 c1 name row c ∧ c.indousid = indoUsId (sdssSub name) := by
  unfold convertOne
  rw [specType_eq ho]
  simp only [PyDict.get, hn, h0, h1, hr, if_true, asStr, asNum, subTypeOf_eq]
  refine ⟨_, by rw [← outName_eq]; rfl, ⟨rfl, rfl, rfl, rfl, rfl, rfl, rfl, rfl, ⟨rfl, rfl, rfl⟩, rfl⟩, rfl⟩

private theorem one_missing (o : Options) {f : SdssFile} {object : PyStr} (ho : PyDict.get? f.header "OBJECT".toList = some (.str object)) {s : Nat}
    (hn : PyDict.get? f.header ("NAME".toList ++ natStr s) = none) : convertOne o f true s = .error .keyError := by
  unfold convertOne
  rw [specType_eq ho]
  simp only [PyDict.get, hn, if_true]
  rfl

/-! ### the loop -/

private theorem loop_append (o : Options) (f : SdssFile) (b : Bool) (l2 : List Nat) : ∀ (l1 : List Nat) (pcs : List (PyStr × Converted)) (disk : PyDict PyStr Converted),
    List.Forall₂ (fun s pc => convertOne o f b s = .ok pc) l1 pcs →
    convertLoop o f b (l1 ++ l2) disk = convertLoop o f b l2 (pcs.foldl (fun (d : PyDict PyStr Converted) pc => PyDict.set d pc.1 pc.2) disk) := by
  intro l1 pcs disk h
  induction h generalizing disk with
  | nil => rfl
  | @cons a b' as bs h _ ih =>
    rw [List.cons_append, convertLoop]
    simp only [h]
    exact ih _

private theorem count_names {f : SdssFile} {object : PyStr} {c0 c1 : ℝ} {names : List PyStr} (h : IsSdss f object c0 c1 names) (ho : OnlyNames f names.length) :
    countTemplates f.header = (true, names.length) := by
  have hpos : 0 < names.length := List.length_pos_iff.2 h.ne
  have h0 : PyDict.get? f.header "NAME0".toList = some (.str names[0]) := h.name 0 names[0] (List.getElem?_eq_getElem hpos)
  unfold countTemplates
  rw [h0]
  simp only [Option.isSome_some, if_true]
  congr 1
  have hp : ((PyDict.keys f.header).filter (fun k => decide (4 < k.length) && (k.take 4 == "NAME".toList))).Perm ((List.range names.length).map (fun s => "NAME".toList ++ natStr s)) := by
    rw [List.perm_ext_iff_of_nodup (h.keys.filter _)]
    · intro k
      simp only [List.mem_filter, Bool.and_eq_true, decide_eq_true_eq, beq_iff_eq, List.mem_map, List.mem_range]
      constructor
      · rintro ⟨hk, hl, ht⟩
        obtain ⟨s, hs, rfl⟩ := ho k hk (by rw [← ht]; exact List.take_prefix _ _) (by rintro rfl; simp at hl)
        exact ⟨s, hs, rfl⟩
      · rintro ⟨s, hs, rfl⟩
        refine ⟨?_, ?_, ?_⟩
        · rw [PyDict.mem_keys_iff, h.name s names[s] (List.getElem?_eq_getElem hs)]; rfl
        · have := List.length_pos_iff.2 (natStr_ne_nil s)
          rw [List.length_append]
          have : "NAME".toList.length = 4 := rfl
          omega
        · exact List.take_left' rfl
    · refine (List.nodup_range).map ?_
      intro i j hij
      exact natStr_inj i j (List.append_cancel_left hij)
  rw [hp.length_eq]
  simp

private theorem ones_ok (o : Options) {f : SdssFile} {object : PyStr} {c0 c1 : ℝ} {names : List PyStr} (h : IsSdss f object c0 c1 names) :
    ∃ pcs : List (PyStr × Converted), List.Forall₂ (fun s pc => convertOne o f true s = .ok pc) (List.range names.length) pcs ∧
      ∀ (s : Nat) name row, names[s]? = some name → f.data[s]? = some row → ∃ c, pcs[s]? = some (sdssPath o.outfolder object name, c) ∧ IsConverted o object c0 c1 name row c ∧
        c.indousid = indoUsId (sdssSub name) := by
  have hall : ∀ s ∈ List.range names.length, ∃ pc, convertOne o f true s = .ok pc := by
    intro s hs
    have hs := List.mem_range.1 hs
    obtain ⟨c, hc, _⟩ := one_ok o h.object h.coeff0 h.coeff1 (h.name s names[s] (List.getElem?_eq_getElem hs)) (List.getElem?_eq_getElem (lt_of_lt_of_le hs h.rows))
    exact ⟨_, hc⟩
  obtain ⟨pcs, hp⟩ : ∃ pcs, List.Forall₂ (fun s pc => convertOne o f true s = .ok pc) (List.range names.length) pcs := by
    revert hall
    generalize List.range names.length = l
    intro hall
    induction l with
    | nil => exact ⟨[], .nil⟩
    | cons a l ih =>
      obtain ⟨pc, hpc⟩ := hall a (by simp)
      obtain ⟨pcs, hpcs⟩ := ih (fun s hs => hall s (by simp [hs]))
      exact ⟨pc :: pcs, .cons hpc hpcs⟩
  refine ⟨pcs, hp, ?_⟩
  intro s name row hn hr
  obtain ⟨c, hc, hcc, hi⟩ := one_ok o h.object h.coeff0 h.coeff1 (h.name s name hn) hr
  have hs : s < names.length := (List.getElem?_eq_some_iff.1 hn).1
  have hlen := hp.length_eq
  rw [List.length_range] at hlen
  refine ⟨c, ?_, hcc, hi⟩
  have hg := hp.get (i := s) (by simpa using hs) (by omega)
  simp only [List.get_eq_getElem, List.getElem_range] at hg
  rw [hc] at hg
  rw [List.getElem?_eq_getElem (by omega), ← Except.ok.inj hg]

private theorem disk_get (pcs : List (PyStr × Converted)) (disk : PyDict PyStr Converted) (p : PyStr) :
    (∀ (s : Nat) c, pcs[s]? = some (p, c) → (∀ (s' : Nat) pc, s < s' → pcs[s']? = some pc → pc.1 ≠ p) →
      PyDict.get? (pcs.foldl (fun (d : PyDict PyStr Converted) pc => PyDict.set d pc.1 pc.2) disk) p = some c) ∧
    ((∀ pc ∈ pcs, pc.1 ≠ p) → PyDict.get? (pcs.foldl (fun (d : PyDict PyStr Converted) pc => PyDict.set d pc.1 pc.2) disk) p = PyDict.get? disk p) := by
  induction pcs generalizing disk with
  | nil => exact ⟨by simp, fun _ => rfl⟩
  | cons q qs ih =>
    simp only [List.foldl_cons]
    obtain ⟨ih1, ih2⟩ := ih (PyDict.set disk q.1 q.2)
    constructor
    · intro s c hs hl
      cases s with
      | zero =>
        simp only [List.getElem?_cons_zero, Option.some.injEq] at hs
        subst hs
        rw [ih2, PyDict.get?_set, if_pos rfl]
        intro pc hpc
        obtain ⟨i, hi⟩ := List.mem_iff_getElem?.1 hpc
        exact hl (i + 1) pc (by omega) (by simpa using hi)
      | succ s =>
        refine ih1 s c (by simpa using hs) ?_
        intro s' pc hss hpc
        exact hl (s' + 1) pc (by omega) (by simpa using hpc)
    · intro hl
      rw [ih2 (fun pc hpc => hl pc (by simp [hpc])), PyDict.get?_set, if_neg (hl q (by simp))]

/-- **C127** (partial: last wins) the converter ends without an exception; the file of a template's name holds that template - its type, subtype, log-wavelength grid and its own row of the data -
unless a *later* template has the same file name, and every file whose name is not that of a template is as before. Missing: every template has its file, see `C127_refuted`. -/
theorem C127_files_partial (o : Options) (f : SdssFile) (object : PyStr) (c0 c1 : ℝ) (names : List PyStr) (disk : PyDict PyStr Converted) (h : IsSdss f object c0 c1 names)
    (hk : OnlyNames f names.length) :
    (convert o f disk).2 = none ∧
    (∀ (s : Nat) name row, names[s]? = some name → f.data[s]? = some row →
      (∀ (s' : Nat) name', s < s' → names[s']? = some name' → sdssPath o.outfolder object name' ≠ sdssPath o.outfolder object name) →
      ∃ c, PyDict.get? (convert o f disk).1 (sdssPath o.outfolder object name) = some c ∧ IsConverted o object c0 c1 name row c ∧ c.indousid = indoUsId (sdssSub name)) ∧
    (∀ p, (∀ name ∈ names, sdssPath o.outfolder object name ≠ p) → PyDict.get? (convert o f disk).1 p = PyDict.get? disk p) := by
  obtain ⟨pcs, hp, hpc⟩ := ones_ok o h
  have he : convert o f disk = (pcs.foldl (fun (d : PyDict PyStr Converted) pc => PyDict.set d pc.1 pc.2) disk, none) := by
    unfold convert
    rw [h.object, h.coeff0, count_names h hk]
    have := loop_append o f true [] _ pcs disk hp
    rw [List.append_nil] at this
    simpa [convertLoop] using this
  have hpath : ∀ (s : Nat) pc, pcs[s]? = some pc → ∃ name, names[s]? = some name ∧ pc.1 = sdssPath o.outfolder object name := by
    intro s pc hs
    have hlt : s < names.length := by
      have := (List.getElem?_eq_some_iff.1 hs).1
      have hl := hp.length_eq
      rw [List.length_range] at hl
      omega
    have hr := h.rows
    obtain ⟨c, hc, _⟩ := hpc s names[s] f.data[s] (List.getElem?_eq_getElem hlt) (List.getElem?_eq_getElem (lt_of_lt_of_le hlt h.rows))
    rw [hc] at hs
    exact ⟨_, List.getElem?_eq_getElem hlt, by rw [← Option.some.inj hs]⟩
  rw [he]
  refine ⟨rfl, ?_, ?_⟩
  · intro s name row hn hr hl
    obtain ⟨c, hc, hcc⟩ := hpc s name row hn hr
    refine ⟨c, (disk_get pcs disk _).1 s c hc ?_, hcc⟩
    intro s' pc hss hs'
    obtain ⟨name', hn', e⟩ := hpath s' pc hs'
    rw [e]
    exact hl s' name' hss hn'
  · intro p hl
    refine (disk_get pcs disk p).2 ?_
    intro pc hpcs
    obtain ⟨i, hi⟩ := List.mem_iff_getElem?.1 hpcs
    obtain ⟨name, hn, e⟩ := hpath i pc hi
    rw [e]
    exact hl name (List.mem_of_getElem? hn)

/-- **C127** a missing number: if `NAME0` … `NAME(k-1)` are there, `NAMEk` is not, and more than `k` keywords begin with `NAME`, the converter raises `KeyError` after having written the files of the
first `k` templates. -/
theorem C127_gap (o : Options) (f : SdssFile) (object : PyStr) (c0 c1 : ℝ) (names : List PyStr) (disk : PyDict PyStr Converted) (h : IsSdss f object c0 c1 names)
    (hgap : PyDict.get? f.header ("NAME".toList ++ natStr names.length) = none)
    (hmore : names.length < ((PyDict.keys f.header).filter (fun k => decide ("NAME".toList <+: k ∧ k ≠ "NAME".toList))).length) :
    (convert o f disk).2 = some .keyError ∧
    (∀ (s : Nat) name row, names[s]? = some name → f.data[s]? = some row →
      (∀ (s' : Nat) name', s < s' → names[s']? = some name' → sdssPath o.outfolder object name' ≠ sdssPath o.outfolder object name) →
      ∃ c, PyDict.get? (convert o f disk).1 (sdssPath o.outfolder object name) = some c ∧ IsConverted o object c0 c1 name row c) := by
  obtain ⟨pcs, hp, hpc⟩ := ones_ok o h
  have hpos : 0 < names.length := List.length_pos_iff.2 h.ne
  have h0 : PyDict.get? f.header "NAME0".toList = some (.str names[0]) := h.name 0 names[0] (List.getElem?_eq_getElem hpos)
  have hcount : ∃ m, countTemplates f.header = (true, names.length + 1 + m) := by
    unfold countTemplates
    rw [h0]
    simp only [Option.isSome_some, if_true]
    have : (PyDict.keys f.header).filter (fun k => decide ("NAME".toList <+: k ∧ k ≠ "NAME".toList)) =
        (PyDict.keys f.header).filter (fun k => decide (4 < k.length) && (k.take 4 == "NAME".toList)) := by
      apply List.filter_congr
      intro k _
      rw [Bool.eq_iff_iff]
      simp only [decide_eq_true_eq, Bool.and_eq_true, beq_iff_eq]
      constructor
      · rintro ⟨⟨t, rfl⟩, hne⟩
        refine ⟨?_, List.take_left' rfl⟩
        cases t with
        | nil => simp at hne
        | cons a t => simp
      · rintro ⟨hl, ht⟩
        refine ⟨by rw [← ht]; exact List.take_prefix _ _, ?_⟩
        rintro rfl
        simp at hl
    rw [this] at hmore
    obtain ⟨m, hm⟩ := Nat.exists_eq_add_of_lt hmore
    exact ⟨m, by rw [hm]; congr 1; omega⟩
  obtain ⟨m, hm⟩ := hcount
  have he : convert o f disk = (pcs.foldl (fun (d : PyDict PyStr Converted) pc => PyDict.set d pc.1 pc.2) disk, some .keyError) := by
    unfold convert
    rw [h.object, h.coeff0, hm]
    have hr : List.range (names.length + 1 + m) = List.range names.length ++ (names.length :: (List.range m).map (names.length + 1 + ·)) := by
      rw [List.range_add, List.range_succ]
      simp
    have := loop_append o f true (names.length :: (List.range m).map (names.length + 1 + ·)) _ pcs disk hp
    rw [← hr] at this
    simp only [Option.isNone_some, Bool.or_self, Bool.false_eq_true, if_false]
    rw [this]
    unfold convertLoop
    rw [one_missing o h.object hgap]
  rw [he]
  refine ⟨rfl, ?_⟩
  intro s name row hn hr hl
  obtain ⟨c, hc, hcc, _⟩ := hpc s name row hn hr
  refine ⟨c, (disk_get pcs disk _).1 s c hc ?_, hcc⟩
  intro s' pc hss hs'
  have hlt : s' < names.length := by
    have := (List.getElem?_eq_some_iff.1 hs').1
    have hl := hp.length_eq
    rw [List.length_range] at hl
    omega
  have hr := h.rows
  obtain ⟨c', hc', _⟩ := hpc s' names[s'] f.data[s'] (List.getElem?_eq_getElem hlt) (List.getElem?_eq_getElem (lt_of_lt_of_le hlt h.rows))
  rw [hc'] at hs'
  rw [← Option.some.inj hs']
  exact hl s' names[s'] hss (List.getElem?_eq_getElem hlt)

/-- **C127** a file without `NAME0` becomes one file with all rows as basis vectors, without subtype. -/
theorem C127_single (o : Options) (f : SdssFile) (object : PyStr) (c0 c1 : ℝ) (disk : PyDict PyStr Converted) (ho : PyDict.get? f.header "OBJECT".toList = some (.str object))
    (h0 : PyDict.get? f.header "COEFF0".toList = some (.num c0)) (h1 : PyDict.get? f.header "COEFF1".toList = some (.num c1)) (hn : PyDict.get? f.header "NAME0".toList = none) :
    (convert o f disk).2 = none ∧
    (∃ c, PyDict.get? (convert o f disk).1 (o.outfolder ++ "/rrtemplate-".toList ++ (sdssType object).map Char.toLower ++ ".fits".toList) = some c ∧
      c.file.crval1 = c0 ∧ c.file.cdelt1 = c1 ∧ c.file.loglam = some 1 ∧ c.file.flux = f.data ∧ c.file.rrtype = some (sdssType object) ∧ c.file.rrsubtyp = some [] ∧ c.file.version = o.version ∧
      (∀ row ∈ f.data.head?, c.file.naxis1 = row.length)) ∧
    (∀ p, p ≠ o.outfolder ++ "/rrtemplate-".toList ++ (sdssType object).map Char.toLower ++ ".fits".toList → PyDict.get? (convert o f disk).1 p = PyDict.get? disk p) := by
  have hone : ∃ c, convertOne o f false 0 = .ok (o.outfolder ++ "/rrtemplate-".toList ++ (sdssType object).map Char.toLower ++ ".fits".toList, c) ∧
      c.file.crval1 = c0 ∧ c.file.cdelt1 = c1 ∧ c.file.loglam = some 1 ∧ c.file.flux = f.data ∧ c.file.rrtype = some (sdssType object) ∧ c.file.rrsubtyp = some [] ∧ c.file.version = o.version ∧
      (∀ row ∈ f.data.head?, c.file.naxis1 = row.length) := by
    unfold convertOne
    rw [specType_eq ho]
    simp only [PyDict.get, h0, h1, asNum]
    refine ⟨_, rfl, rfl, rfl, rfl, rfl, rfl, rfl, rfl, ?_⟩
    intro row hr
    rw [Option.mem_def] at hr
    simp only [hr]
    rfl
  obtain ⟨c, hc, hrest⟩ := hone
  have he : convert o f disk = (PyDict.set disk (o.outfolder ++ "/rrtemplate-".toList ++ (sdssType object).map Char.toLower ++ ".fits".toList) c, none) := by
    unfold convert countTemplates
    rw [ho, h0, hn]
    simp only [Option.isNone_some, Bool.or_self, Bool.false_eq_true, if_false, Option.isSome_none]
    change convertLoop o f false [0] disk = _
    unfold convertLoop
    rw [hc]
    rfl
  rw [he]
  refine ⟨rfl, ⟨c, by rw [PyDict.get?_set, if_pos rfl], hrest⟩, ?_⟩
  intro p hp
  rw [PyDict.get?_set, if_neg (Ne.symm hp)]

/-- **C127** the Indo-US number: written exactly if the subtype ends with digits in parentheses, and it is the number they denote. -/
theorem C127_indousid (s : PyStr) (n : Nat) :
    indoUsId s = some n ↔ ∃ pre ds : PyStr, s = pre ++ ['('] ++ ds ++ [')'] ∧ ds ≠ [] ∧ (∀ c ∈ ds, c.isDigit = true) ∧ n = Nat.ofDigits 10 (ds.reverse.map (fun c => c.toNat - 48)) := by
  constructor
  · intro h
    unfold indoUsId at h
    split at h
    · rename_i r hr
      simp only at h
      split at h
      · cases h
      · rename_i hne
        split at h
        · rename_i r' hr'
          have h := Option.some.inj h
          refine ⟨r'.reverse, (r.takeWhile Char.isDigit).reverse, ?_, ?_, ?_, ?_⟩
          · have e : r = r.takeWhile Char.isDigit ++ '(' :: r' := by rw [← hr', List.takeWhile_append_dropWhile]
            rw [← List.reverse_reverse s, hr]
            conv_lhs => rw [e]
            simp
          · simpa using hne
          · intro c hc
            exact List.mem_takeWhile_imp (List.mem_reverse.1 hc)
          · rw [List.reverse_reverse]; exact h.symm
        · cases h
    · cases h
  · rintro ⟨pre, ds, rfl, hne, hd, rfl⟩
    unfold indoUsId
    have hr : (pre ++ ['('] ++ ds ++ [')']).reverse = ')' :: (ds.reverse ++ '(' :: pre.reverse) := by simp
    rw [hr]
    have hall : ∀ c ∈ ds.reverse, Char.isDigit c = true := fun c hc => hd c (List.mem_reverse.1 hc)
    have ht : (ds.reverse ++ '(' :: pre.reverse).takeWhile Char.isDigit = ds.reverse := by
      rw [List.takeWhile_append_of_pos hall, List.takeWhile_cons_of_neg (by decide), List.append_nil]
    have hw : (ds.reverse ++ '(' :: pre.reverse).dropWhile Char.isDigit = '(' :: pre.reverse := by
      rw [List.dropWhile_append_of_pos hall, List.dropWhile_cons_of_neg (by decide)]
    simp only [ht, hw]
    rw [if_neg (by simpa using hne)]

end Convert
end Redrock
