import Verif.Props.Convert
import Verif.Props.TemplateSet

/-!
C127, second part: the converted files as redrock reads them, the whole way from the SDSS file to the fitted templates, and the failures.
-/
set_option linter.unusedSectionVars false
namespace Redrock
namespace Convert
open Wrap TemplateSet

/-- the template that stands for one spectrum of an SDSS file of stars: wavelengths 10^(COEFF0 + COEFF1 i), the spectrum itself, the redshifts of stars -/
noncomputable def starTemplate (o : Options) (c0 c1 : ℝ) (name : PyStr) (row : List ℝ) : Template :=
  { version := o.version.getD "unknown".toList
    wave := (List.range row.length).map (fun (i : Nat) => (10 : ℝ) ^ (c0 + c1 * (i : ℝ)))
    flux := [row]
    method := "PCA".toList
    rrtype := "STAR".toList
    subtype := (pyStrip (sdssSub name)).map Char.toUpper
    redshifts := (List.range 101).map (fun (i : Nat) => ((i : ℝ) - 50) * 0.00004)
    igm := "None".toList
    oii := none }

/-- **C127** redrock reads the file of a star template as that template. -/
theorem C127_load_star (float : PyStr → Py ℝ) (opts : ZscanOptions) (hz : opts.star = none) (o : Options) (object : PyStr) (c0 c1 : ℝ) (name : PyStr) (row : List ℝ) (c : Converted)
    (hc : IsConverted o object c0 c1 name row c) (hty : sdssType object = "STAR".toList) (hrow : row ≠ []) : Template.load float opts c.file = .ok (starTemplate o c0 c1 name row) := by
  obtain ⟨h1, h2, h3, h4, h5, h6, h7, h8, ⟨h9, h10, h11⟩, _⟩ := hc
  unfold Template.load
  rw [h6, hty, h10]
  have e : pyUpper (pyStrip "STAR".toList) = "STAR".toList := by decide
  have hgrid := C79_star_default float opts hz
  have hw : templateWave c.file = (List.range row.length).map (fun (i : Nat) => (10 : ℝ) ^ (c0 + c1 * (i : ℝ))) := by
    unfold templateWave
    rw [h4, h1, h2, h3]
    simp
  have hw0 : templateWave c.file ≠ [] := by
    rw [hw]
    intro h
    have := congrArg List.length h
    simp at this
    exact hrow this
  have hm : templateMethod c.file = "PCA".toList := by unfold templateMethod; rw [h9]; rfl
  have hi : templateIgm c.file "STAR".toList (templateVersion c.file) = .ok "None".toList := by
    unfold templateIgm
    rw [h11]
    simp
  have hs : templateSubtype c.file = (pyStrip (sdssSub name)).map Char.toUpper := by unfold templateSubtype; rw [h7]; rfl
  have hv : templateVersion c.file = o.version.getD "unknown".toList := by unfold templateVersion; rw [h8]
  simp only [okBind, e, hgrid, hi, hm]
  have hne : ¬ ((List.range 101).map (fun (i : Nat) => ((i : ℝ) - 50) * 0.00004) = []) := by
    intro h
    have := congrArg List.length h
    simp at this
  rw [if_neg hne, if_neg hw0, if_neg (by simp)]
  rw [if_neg (by simp), hw, hs, hv, h5]
  rfl

/-- **C127** (refuted for other types) the converter writes no `RRIGM`, so a converted file cannot be read unless it is one of stars, or the option `--version` happens to name one of the old
versions whose IGM model redrock knows. -/
theorem C127_load_refuted (float : PyStr → Py ℝ) (opts : ZscanOptions) (o : Options) (object : PyStr) (c0 c1 : ℝ) (name : PyStr) (row : List ℝ) (c : Converted)
    (hc : IsConverted o object c0 c1 name row c) (hs : pyStrip (sdssType object) = sdssType object) (hu : (sdssType object).map Char.toUpper = sdssType object) (h1 : sdssType object ≠ "STAR".toList)
    (h2 : ¬ (sdssType object = "GALAXY".toList ∧ o.version = some "2.6".toList))
    (h3 : ¬ (sdssType object = "QSO".toList ∧ (o.version = some "0.1".toList ∨ o.version = some "1.0".toList ∨ o.version = some "1.1".toList))) (t : Template) :
    Template.load float opts c.file ≠ .ok t := by
  intro h
  obtain ⟨ty, hty, hr, _, _, hi, _⟩ := load_ok float opts c.file t h
  rw [hc.rrtype] at hty
  cases hty
  have hr' : t.rrtype = sdssType object := by rw [hr, hs]; exact hu
  rw [hr'] at hi
  unfold templateIgm at hi
  rw [hc.others.2.2] at hi
  have hv : ∀ v : PyStr, v ≠ "unknown".toList → templateVersion c.file = v → o.version = some v := by
    intro v hv e
    unfold templateVersion at e
    rw [hc.version] at e
    cases hov : o.version with
    | none => rw [hov] at e; exact absurd e.symm hv
    | some w => rw [hov] at e; exact congrArg some e
  simp only [h1, if_false] at hi
  split at hi
  · rename_i hg
    exact h2 ⟨hg.1, hv _ (by decide) hg.2⟩
  · split at hi
    · rename_i hg
      rcases hg.2 with e | e
      · exact h3 ⟨hg.1, .inl (hv _ (by decide) e)⟩
      · exact h3 ⟨hg.1, .inr (.inl (hv _ (by decide) e))⟩
    · split at hi
      · rename_i hg
        exact h3 ⟨hg.1, .inr (.inr (hv _ (by decide) hg.2))⟩
      · cases hi

/-! ### the whole way -/

private theorem mapM_ok_map {α β : Type} (g : α → Py β) (k : α → β) (l : List α) (h : ∀ a ∈ l, g a = .ok (k a)) : l.mapM g = .ok (l.map k) := by
  induction l with
  | nil => rfl
  | cons a l ih =>
    rw [List.mapM_cons, h a (by simp), ih (fun b hb => h b (by simp [hb]))]
    rfl

/-- **C127** (partial: distinct names) convert a file of stars into an empty folder and give that folder to redrock: the fitted templates are, in some order, the spectra of the SDSS file, one template
for each, on the wavelengths of the SDSS file and named after it - if the names give different files and different subtypes. Missing: names that do not, see `C127_refuted`, and galaxies and
quasars, see `C127_load_refuted`. -/
theorem C127_run_partial (le : PyStr → PyStr → Bool) (ft : FileTree) (env : Option PyStr) (installed : PyStr) (float : PyStr → Py ℝ) (opts : ZscanOptions) (read : PyStr → TemplateFile)
    (o : Options) (f : SdssFile) (object : PyStr) (c0 c1 : ℝ) (names : List PyStr) (h : IsSdss f object c0 c1 names) (hk : OnlyNames f names.length) (hty : sdssType object = "STAR".toList)
    (hrows : ∀ row ∈ f.data, row ≠ []) (hz : opts.star = none)
    (hfiles : (names.map (sdssPath o.outfolder object)).Nodup) (hsubs : (names.map (fun name => (pyStrip (sdssSub name)).map Char.toUpper)).Nodup)
    (hdir : ft.pathExists o.outfolder = true ∧ ft.isDir o.outfolder = true) (hlist : ft.pathExists (o.outfolder ++ "/templates-default.txt".toList) = false)
    (hglob : (ft.globTemplates o.outfolder).Perm (PyDict.keys (convert o f []).1)) (hex : ∀ p ∈ PyDict.keys (convert o f []).1, ft.pathExists p = true)
    (hread : ∀ p c, PyDict.get? (convert o f []).1 p = some c → read p = c.file) :
    (convert o f []).2 = none ∧
    ∃ ts, loadTemplates le ft env installed float opts read (.str o.outfolder) = .ok ts ∧
      (distributedTemplates ts).Perm (List.zipWith (starTemplate o c0 c1) names f.data) := by
  obtain ⟨hok, hget, hother⟩ := C127_files_partial o f object c0 c1 names [] h hk
  refine ⟨hok, ?_⟩
  have hget' : ∀ (s : Nat) name row, names[s]? = some name → f.data[s]? = some row →
      ∃ c, PyDict.get? (convert o f []).1 (sdssPath o.outfolder object name) = some c ∧ IsConverted o object c0 c1 name row c := by
    intro s name row hn hr
    obtain ⟨c, h1, h2, _⟩ := hget s name row hn hr (by
      intro s' name' hss hn' he
      have a1 : (names.map (sdssPath o.outfolder object))[s]? = some (sdssPath o.outfolder object name) := by rw [List.getElem?_map, hn]; rfl
      have a2 : (names.map (sdssPath o.outfolder object))[s']? = some (sdssPath o.outfolder object name) := by rw [List.getElem?_map, hn']; exact congrArg some he
      have hl : s < (names.map (sdssPath o.outfolder object)).length := (List.getElem?_eq_some_iff.1 a1).1
      have e := (List.getElem?_inj hl hfiles).1 (a1.trans a2.symm)
      omega)
    exact ⟨c, h1, h2⟩
  have hnd : (PyDict.keys (convert o f []).1).Nodup := by
    unfold convert
    split
    · simp [PyDict.keys]
    · generalize countTemplates f.header = bn
      obtain ⟨b, n⟩ := bn
      dsimp only
      have : ∀ (l : List Nat) (d : PyDict PyStr Converted), (PyDict.keys d).Nodup → (PyDict.keys (convertLoop o f b l d).1).Nodup := by
        intro l
        induction l with
        | nil => intro d hd; exact hd
        | cons a l ih =>
          intro d hd
          rw [convertLoop]
          cases convertOne o f b a with
          | error e => exact hd
          | ok pc =>
            apply ih
            rw [PyDict.keys_set]
            split
            · exact hd
            · rename_i hn
              rw [List.nodup_append]
              exact ⟨hd, by simp, by intro a ha b hb hab; simp at hb; exact hn (by rw [← hb, ← hab]; exact ha)⟩
      exact this _ _ (by simp [PyDict.keys])
  have hkeys : (PyDict.keys (convert o f []).1).Perm (names.map (sdssPath o.outfolder object)) := by
    rw [List.perm_ext_iff_of_nodup hnd hfiles]
    intro p
    constructor
    · intro hp
      by_contra hno
      have := hother p (by
        intro name hn he
        exact hno (List.mem_map.2 ⟨name, hn, he⟩))
      rw [PyDict.mem_keys_iff, this] at hp
      simp [PyDict.get?_nil] at hp
    · intro hp
      obtain ⟨name, hn, rfl⟩ := List.mem_map.1 hp
      obtain ⟨s, hs⟩ := List.mem_iff_getElem?.1 hn
      have hlt : s < f.data.length := lt_of_lt_of_le (List.getElem?_eq_some_iff.1 hs).1 h.rows
      obtain ⟨c, hc, _⟩ := hget' s name f.data[s] hs (List.getElem?_eq_getElem hlt)
      rw [PyDict.mem_keys_iff, hc]
      rfl
  have hfind : findTemplates le ft env installed (.str o.outfolder) = .ok (pySort le (ft.globTemplates o.outfolder)) := by
    unfold findTemplates getTemplateDir templatesIn
    simp only [hdir.1, hdir.2, hlist]
    simp
  have hsort : (pySort le (ft.globTemplates o.outfolder)).Perm (names.map (sdssPath o.outfolder object)) := ((pySort_perm _ _).trans hglob).trans hkeys
  -- the template of a path
  let g : PyStr → Py Template := fun fn => do
    let p ← resolveFile ft env installed fn
    Template.load float opts (read p)
  have hg : ∀ (s : Nat) name row, names[s]? = some name → f.data[s]? = some row → g (sdssPath o.outfolder object name) = .ok (starTemplate o c0 c1 name row) := by
    intro s name row hn hr
    obtain ⟨c, hc, hcc⟩ := hget' s name row hn hr
    have hp : ft.pathExists (sdssPath o.outfolder object name) = true := hex _ (by rw [PyDict.mem_keys_iff, hc]; rfl)
    change (resolveFile ft env installed (sdssPath o.outfolder object name) >>= _) = _
    unfold resolveFile
    rw [if_pos hp]
    change Template.load float opts (read _) = _
    rw [hread _ c hc]
    exact C127_load_star float opts hz o object c0 c1 name row c hcc hty (hrows row (List.mem_of_getElem? hr))
  have hmap : (names.map (sdssPath o.outfolder object)).mapM g = .ok (List.zipWith (starTemplate o c0 c1) names f.data) := by
    have hlen := h.rows
    revert hg hlen
    generalize f.data = rows
    clear * -
    intro hg hlen
    induction names generalizing rows with
    | nil => simp; rfl
    | cons n ns ih =>
      cases rows with
      | nil => simp at hlen
      | cons r rs =>
        rw [List.map_cons, List.mapM_cons, hg 0 n r rfl rfl, ih rs (fun s name row hn hr => hg (s + 1) name row (by simpa using hn) (by simpa using hr)) (by simpa using hlen)]
        rfl
  obtain ⟨ts, hts, hperm⟩ : ∃ ts, (pySort le (ft.globTemplates o.outfolder)).mapM g = .ok ts ∧ ts.Perm (List.zipWith (starTemplate o c0 c1) names f.data) := by
    obtain ⟨ts, h1, h2⟩ := mapM_perm g hsort.symm _ hmap
    exact ⟨ts, h1, h2.symm⟩
  refine ⟨ts, ?_, ?_⟩
  · unfold loadTemplates
    simp only [hfind]
    exact hts
  · have hzk : (List.zipWith (starTemplate o c0 c1) names f.data).map Template.key = (names.map (fun name => (pyStrip (sdssSub name)).map Char.toUpper)).map (fun s => ("STAR".toList, s)) := by
      have hlen := h.rows
      revert hlen
      generalize f.data = rows
      clear * -
      intro hlen
      induction names generalizing rows with
      | nil => rfl
      | cons n ns ih =>
        cases rows with
        | nil => simp at hlen
        | cons r rs =>
          simp only [List.zipWith_cons_cons, List.map_cons]
          rw [ih rs (by simpa using hlen)]
          rfl
    have : (ts.map Template.key).Nodup := by
      rw [(hperm.map _).nodup_iff, hzk]
      exact hsubs.map (fun a b hab => (Prod.mk.inj hab).2)
    rw [(C82_all_used_iff ts).2 this]
    exact hperm

/-! ### examples and the refutation -/

namespace Ex

/-- an SDSS file with the two templates `names`, two pixels each -/
def sdss (object n0 n1 : String) : SdssFile :=
  { header := [("OBJECT".toList, .str object.toList), ("COEFF0".toList, .num 3), ("COEFF1".toList, .num 1), ("NAME0".toList, .str n0.toList), ("NAME1".toList, .str n1.toList)]
    data := [[1, 2], [3, 4]] }

def opts : Options := { infile := "in.fits".toList, outfolder := "t".toList, version := none }

theorem sdss_ok (object n0 n1 : String) : IsSdss (sdss object n0 n1) object.toList 3 1 [n0.toList, n1.toList] where
  keys := by simp only [sdss, PyDict.keys, List.map_cons, List.map_nil]; decide
  object := rfl
  coeff0 := rfl
  coeff1 := rfl
  name := by
    intro s name h
    rcases s with _ | _ | s
    · simp only [List.getElem?_cons_zero, Option.some.injEq] at h; subst h; rfl
    · simp only [List.getElem?_cons_succ, List.getElem?_cons_zero, Option.some.injEq] at h; subst h
      have : natStr (0 + 1) = ['1'] := by simp [natStr]
      rw [this]
      rfl
    · simp at h
  rows := by simp [sdss]
  ne := by simp

theorem sdss_only (object n0 n1 : String) : OnlyNames (sdss object n0 n1) 2 := by
  intro k hk hp _
  simp only [sdss, PyDict.keys, List.map_cons, List.map_nil, List.mem_cons, List.not_mem_nil, or_false] at hk
  rcases hk with rfl | rfl | rfl | rfl | rfl
  · exact absurd hp (by decide)
  · exact absurd hp (by decide)
  · exact absurd hp (by decide)
  · exact ⟨0, by omega, by simp [natStr]⟩
  · exact ⟨1, by omega, by simp [natStr]⟩

/-- the names of the output files of two stars -/
example : sdssPath "t".toList "star ".toList "K1-III (42)".toList = "t/rrtemplate-star-K1III_42.fits".toList ∧ indoUsId (sdssSub "K1-III (42)".toList) = some 42 := by
  constructor <;> decide +kernel

/-- the hypotheses of `C127_run_partial` are met -/
example : ∃ (le : PyStr → PyStr → Bool) (ft : FileTree) (float : PyStr → Py ℝ) (zo : ZscanOptions) (read : PyStr → TemplateFile),
    ∃ ts, loadTemplates le ft none [] float zo read (.str "t".toList) = .ok ts ∧
      (distributedTemplates ts).Perm [starTemplate opts 3 1 "K1-III".toList [1, 2], starTemplate opts 3 1 "O8/O9".toList [3, 4]] := by
  classical
  refine ⟨fun _ _ => true,
    { pathExists := fun p => decide (p ≠ "t/templates-default.txt".toList), isDir := fun p => decide (p = "t".toList), lines := fun _ => [],
      globTemplates := fun _ => PyDict.keys (convert opts (sdss "STAR" "K1-III" "O8/O9") []).1, absDir := id },
    fun _ => .error .valueError, ⟨none, none, none⟩,
    fun p => match PyDict.get? (convert opts (sdss "STAR" "K1-III" "O8/O9") []).1 p with
      | some c => c.file
      | none => ⟨none, 0, 0, 0, none, [], none, none, none, none, none⟩, ?_⟩
  have hh := sdss_ok "STAR" "K1-III" "O8/O9"
  refine (C127_run_partial _ _ none [] _ _ _ opts (sdss "STAR" "K1-III" "O8/O9") "STAR".toList 3 1 _ hh (sdss_only _ _ _) (by decide) ?_ rfl (by decide +kernel) (by decide +kernel) ?_ ?_ (List.Perm.refl _) ?_ ?_).2
  · intro row hrow
    simp only [sdss, List.mem_cons, List.not_mem_nil, or_false] at hrow
    rcases hrow with rfl | rfl <;> simp
  · constructor <;> decide
  · decide
  · intro p hp
    have hother := (C127_files_partial opts _ _ 3 1 _ [] hh (sdss_only _ _ _)).2.2 p
    simp only [decide_eq_true_eq]
    rintro rfl
    rw [PyDict.mem_keys_iff, hother (by decide +kernel)] at hp
    simp [PyDict.get?_nil] at hp
  · intro p c hp
    simp only [hp]

/-- a header with a gap: `NAME0` and `NAME2` -/
def gap : SdssFile :=
  { header := [("OBJECT".toList, .str "STAR".toList), ("COEFF0".toList, .num 3), ("COEFF1".toList, .num 1), ("NAME0".toList, .str "A0".toList), ("NAME2".toList, .str "B0".toList)]
    data := [[1], [2], [3]] }

example : (convert opts gap []).2 = some .keyError := by
  refine (C127_gap opts gap "STAR".toList 3 1 ["A0".toList] [] ⟨?_, rfl, rfl, rfl, ?_, ?_, ?_⟩ ?_ ?_).1
  · simp only [gap, PyDict.keys, List.map_cons, List.map_nil]; decide
  · intro s name h
    rcases s with _ | s
    · simp only [List.getElem?_cons_zero, Option.some.injEq] at h; subst h; rfl
    · simp at h
  · simp [gap]
  · simp
  · have : natStr ["A0".toList].length = ['1'] := by simp [natStr]
    rw [this]
    rfl
  · simp only [gap, PyDict.keys, List.map_cons, List.map_nil]
    decide

/-- a galaxy file can be converted but not read -/
example (float : PyStr → Py ℝ) (zo : ZscanOptions) : ∃ c, PyDict.get? (convert opts (sdss "GALAXY" "a" "b") []).1 "t/rrtemplate-galaxy-a.fits".toList = some c ∧
    ∀ t, Template.load float zo c.file ≠ .ok t := by
  obtain ⟨_, hget, _⟩ := C127_files_partial opts (sdss "GALAXY" "a" "b") "GALAXY".toList 3 1 _ [] (sdss_ok _ _ _) (sdss_only _ _ _)
  obtain ⟨c, hc, hcc, _⟩ := hget 0 "a".toList [1, 2] rfl rfl (by
    intro s' name' hs hn
    rcases s' with _ | _ | s'
    · omega
    · simp only [List.getElem?_cons_succ, List.getElem?_cons_zero, Option.some.injEq] at hn; subst hn; decide +kernel
    · simp at hn)
  refine ⟨c, hc, ?_⟩
  intro t
  exact C127_load_refuted float zo opts "GALAXY".toList 3 1 _ _ c hcc (by decide) (by decide) (by decide) (by simp [opts]) (by simp [opts]) t

end Ex

/-- **C127** (refuted) the two templates `K1 III` and `K1-III` have one file between them: the converter ends without an exception, but the only file it has written holds the second spectrum. -/
theorem C127_refuted : ∃ (o : Options) (f : SdssFile) (names : List PyStr), IsSdss f "STAR".toList 3 1 names ∧ OnlyNames f names.length ∧ names.Nodup ∧ names.length = 2 ∧ (convert o f []).2 = none ∧
    (∃ p c, (∀ p', (PyDict.get? (convert o f []).1 p').isSome → p' = p) ∧ PyDict.get? (convert o f []).1 p = some c ∧ c.file.flux = [[3, 4]]) := by
  have hh := Ex.sdss_ok "STAR" "K1 III" "K1-III"
  obtain ⟨h1, h2, h3⟩ := C127_files_partial Ex.opts _ _ 3 1 _ [] hh (Ex.sdss_only _ _ _)
  refine ⟨Ex.opts, Ex.sdss "STAR" "K1 III" "K1-III", _, hh, Ex.sdss_only _ _ _, by decide, rfl, h1, ?_⟩
  obtain ⟨c, hc, hcc, _⟩ := h2 1 "K1-III".toList [3, 4] rfl rfl (by
    intro s' name' hs hn
    rcases s' with _ | _ | s'
    · omega
    · omega
    · simp at hn)
  refine ⟨_, c, ?_, hc, hcc.flux⟩
  intro p' hp'
  by_contra hne
  rw [h3 p' (by
    intro name hn he
    simp only [List.mem_cons, List.not_mem_nil, or_false] at hn
    rcases hn with rfl | rfl
    · exact hne (he ▸ by decide +kernel)
    · exact hne he.symm)] at hp'
  simp [PyDict.get?_nil] at hp'

end Convert
end Redrock
