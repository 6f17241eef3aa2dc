import Verif.Lemmas.Archetype
import Verif.Props.Fitz

/-! Lemmas about `get_best_archetype`: the dictionaries it builds and their shapes. -/
set_option linter.unusedSectionVars false
namespace Redrock
section
variable {K ω : Type} [Field K] [LinearOrder K] [IsStrictOrderedRing K] [DecidableEq ω]

theorem foldl_set_new {α κ ν : Type} [DecidableEq κ] (key : α → κ) (val : α → ν) (l : List α) (d : PyDict κ ν) (hnd : (PyDict.keys d ++ l.map key).Nodup) :
    l.foldl (fun d a => PyDict.set d (key a) (val a)) d = d ++ l.map (fun a => (key a, val a)) := by
  induction l generalizing d with
  | nil => simp
  | cons a l ih =>
    have hnew : key a ∉ PyDict.keys d := by
      intro h
      rw [List.map_cons, List.nodup_append] at hnd
      exact hnd.2.2 _ h _ (by simp) rfl
    have hset : PyDict.set d (key a) (val a) = d ++ [(key a, val a)] := by
      unfold PyDict.set
      rw [if_neg]
      intro h
      rw [List.any_eq_true] at h
      obtain ⟨e, he, h⟩ := h
      apply hnew
      rw [← of_decide_eq_true h]
      exact List.mem_map.2 ⟨e, he, rfl⟩
    rw [List.foldl_cons, hset, ih]
    · simp
    · simpa [PyDict.keys] using hnd

theorem dwave_eq (t : ArchTarget ω K) (ht : (t.spectra.map (·.wavehash)).Nodup) : t.dwave = t.spectra.map (fun s => (s.wavehash, t.wave s.wavehash)) := by
  unfold ArchTarget.dwave
  rw [foldl_set_new (fun s : FitSpectrum ω K => s.wavehash) (fun s => t.wave s.wavehash)]
  · simp
  · simpa [PyDict.keys] using ht

theorem midpoints_length (c : List K) : (midpoints c).length = c.length - 1 := by
  induction c with
  | nil => rfl
  | cons a c ih =>
    cases c with
    | nil => rfl
    | cons b rest => simp only [midpoints, List.length_cons] at ih ⊢; omega

theorem centers2edges_length (c e : List K) (h : centers2edges c = .ok e) : e.length = c.length + 1 := by
  unfold centers2edges at h
  obtain ⟨c0, -, h⟩ := Except.bind_ok _ _ _ h
  obtain ⟨c1, h1, h⟩ := Except.bind_ok _ _ _ h
  obtain ⟨m0, -, h⟩ := Except.bind_ok _ _ _ h
  obtain ⟨cl, -, h⟩ := Except.bind_ok _ _ _ h
  obtain ⟨ml, -, h⟩ := Except.bind_ok _ _ _ h
  cases h
  have := (List.getElem?_eq_some_iff.1 ((npGet_ok _ _ _).1 h1)).1
  simp [midpoints_length]
  omega

theorem rebinLoop_length (x y e : List K) (j : Nat) (r : List K) (h : rebinLoop x y e j = .ok r) : r.length = e.length - 1 := by
  induction e generalizing j r with
  | nil => unfold rebinLoop at h; cases h; rfl
  | cons lo e ih =>
    cases e with
    | nil => unfold rebinLoop at h; cases h; rfl
    | cons hi rest =>
      unfold rebinLoop at h
      obtain ⟨⟨area, j'⟩, -, h⟩ := Except.bind_ok _ _ _ h
      obtain ⟨r', h2, h⟩ := Except.bind_ok _ _ _ h
      cases h
      have := ih _ _ h2
      simp only [List.length_cons] at this ⊢
      omega

theorem trapzRebin_single (x : List K) (ys : List (List K)) (edges : List K) (z : K) (r : List (List (List K))) (h : trapzRebin x ys edges [z] = .ok r) :
    ∃ rows, r = [rows] ∧ trapzRebinZ x ys edges z = .ok rows := by
  unfold trapzRebin at h
  obtain ⟨_, -, h⟩ := Except.bind_ok _ _ _ h
  obtain ⟨_, -, h⟩ := Except.bind_ok _ _ _ h
  rw [if_neg (by simp)] at h
  obtain ⟨_, -, h⟩ := Except.bind_ok _ _ _ h
  obtain ⟨_, -, h⟩ := Except.bind_ok _ _ _ h
  obtain ⟨_, -, h⟩ := Except.bind_ok _ _ _ h
  obtain ⟨_, -, h⟩ := Except.bind_ok _ _ _ h
  split at h
  · cases h
  · unfold trapzRebinBatch at h
    rw [List.mapM_cons] at h
    obtain ⟨rows, h1, h⟩ := Except.bind_ok _ _ _ h
    rw [List.mapM_nil] at h
    cases h
    exact ⟨rows, rfl, h1⟩

theorem rebinAll_shape (A : Archetype K) (z : K) (wave : List K) (B : List (List K)) (h : A.rebinAll z wave = .ok B) :
    B.length = A.flux.length ∧ ∀ row ∈ B, row.length = wave.length := by
  unfold Archetype.rebinAll at h
  obtain ⟨edges, h1, h⟩ := Except.bind_ok _ _ _ h
  obtain ⟨r, h2, h⟩ := Except.bind_ok _ _ _ h
  obtain ⟨rows, rfl, h3⟩ := trapzRebin_single _ _ _ _ _ h2
  cases h
  have h4 := mapM_inv _ _ _ h3
  refine ⟨h4.length_eq.symm, ?_⟩
  intro row hrow
  obtain ⟨y, -, hy⟩ := mapM_ok_mem _ _ _ h3 row hrow
  have := rebinLoop_length _ _ _ _ _ hy
  rw [centers2edges_length _ _ h1] at this
  simpa using this

theorem reducedWavelength_length (wave x : List K) (h : reducedWavelength wave = .ok x) : x.length = wave.length := by
  unfold reducedWavelength at h
  split at h
  · cases h
    simp
  · cases h

theorem legendreOn_eq (leg : Nat → K → K) (nleg : Nat) (wave x : List K) (h : reducedWavelength wave = .ok x) :
    legendreOn leg nleg wave = .ok ((List.range nleg).map (fun l => x.map (leg l))) := by
  unfold legendreOn
  apply mapM_Except_ok
  intro l _
  rw [h, okBind]
  rfl

theorem absorbed_length (tr : Option (List K)) (row : List K) (h : ∀ T, tr = some T → T.length = row.length) : (absorbed tr row).length = row.length := by
  cases tr with
  | none => rfl
  | some T => simp [absorbed, h T rfl]

theorem applyTrans_eq (tr : Option (List K)) (rows : List (List K)) : applyTrans tr rows = rows.map (absorbed tr) := by
  cases tr with
  | none => exact (List.map_id _).symm
  | some T => rfl

theorem archColumns_get (leg : Nat → K → K) (nleg m : Nat) (x : List K) (hx : x.length = m) (B : List (List K)) (tr : Option (List K)) (htr : ∀ T, tr = some T → T.length = m)
    (hB : ∀ row ∈ B, row.length = m) (j : Nat) (hj : j < B.length) :
    (archColumns (applyTrans tr B) ((List.range nleg).map (fun l => x.map (leg l))))[j]? = some (archTemplate leg nleg m x [absorbed tr (B.getD j [])]) := by
  unfold archColumns
  rw [applyTrans_eq, List.map_map, List.getElem?_map, List.getElem?_eq_getElem hj, Option.map_some]
  congr 1
  have e : B.getD j [] = B[j] := by simp [List.getD_eq_getElem?_getD, List.getElem?_eq_getElem hj]
  rw [e]
  have hl : (absorbed tr B[j]).length = m := by
    have h0 := hB _ (List.getElem_mem hj)
    rw [absorbed_length tr _ (fun T hT => by rw [htr T hT, h0]), h0]
  apply List.ext_getElem
  · simp [archTemplate, hl]
  · intro p h1 h2
    have hp : p < m := by simpa [archTemplate] using h2
    simp only [Function.comp, archTemplate, List.getElem_map, List.getElem_zipIdx, List.getElem_range, List.map_cons, List.map_nil, List.singleton_append, List.map_map]
    congr 1
    · simp [List.getD_eq_getElem?_getD, List.getElem?_eq_getElem (show p < (absorbed tr B[j]).length by omega)]
    · apply List.map_congr_left
      intro l _
      simp [List.getD_eq_getElem?_getD, List.getElem?_eq_getElem (show p < x.length by omega)]

/-- Everything `get_best_archetype` reads exists: the archetypes can be rebinned to the redshift on every grid (`B`), the grids have reduced wavelengths (`X`) and transmissions (`tr`). -/
structure ArchInput (A : Archetype K) (t : ArchTarget ω K) (z : K) (trans : PyDict ω (Option (List K))) (B : ω → List (List K)) (X : ω → List K) (tr : ω → Option (List K)) : Prop where
  rebinned : ∀ s ∈ t.spectra, A.rebinAll z (t.wave s.wavehash) = .ok (B s.wavehash)
  reduced : ∀ s ∈ t.spectra, reducedWavelength (t.wave s.wavehash) = .ok (X s.wavehash)
  trans : ∀ s ∈ t.spectra, trans.get? s.wavehash = some (tr s.wavehash)
  transLen : ∀ s ∈ t.spectra, ∀ T, tr s.wavehash = some T → T.length = (t.wave s.wavehash).length

/-- The template on grid `h` of the archetypes number `js`, absorbed, and the first `nleg` polynomials. -/
def archTmpl (leg : Nat → K → K) (nleg : Nat) (t : ArchTarget ω K) (B : ω → List (List K)) (X : ω → List K) (tr : ω → Option (List K)) (js : List Nat) (h : ω) : List (List K) :=
  archTemplate leg nleg (t.wave h).length (X h) (js.map (fun j => absorbed (tr h) ((B h).getD j [])))

theorem archTmpl_shape (leg : Nat → K → K) (nleg : Nat) (t : ArchTarget ω K) (B : ω → List (List K)) (X : ω → List K) (tr : ω → Option (List K)) (js : List Nat) (h : ω) :
    (archTmpl leg nleg t B X tr js h).length = (t.wave h).length ∧ ∀ row ∈ archTmpl leg nleg t B X tr js h, row.length = js.length + nleg := by
  refine ⟨by simp [archTmpl, archTemplate], ?_⟩
  intro row hrow
  simp only [archTmpl, archTemplate, List.mem_map] at hrow
  obtain ⟨p, -, rfl⟩ := hrow
  simp

theorem shaped_archTmpl (leg : Nat → K → K) (nleg : Nat) (t : ArchTarget ω K) (ht : GoodTarget t) (B : ω → List (List K)) (X : ω → List K) (tr : ω → Option (List K)) (js : List Nat) :
    Shaped t.spectra (archTmpl leg nleg t B X tr js) (js.length + nleg) := by
  intro s hs
  obtain ⟨h1, h2, h3⟩ := ht.shape s hs
  have h4 := archTmpl_shape leg nleg t B X tr js s.wavehash
  exact ⟨h1, h2, fun row hrow => by rw [h3 row hrow, h4.1], h4.2⟩

variable {A : Archetype K} {t : ArchTarget ω K} {z : K} {trans : PyDict ω (Option (List K))} {B : ω → List (List K)} {X : ω → List K} {tr : ω → Option (List K)}

theorem dict_get_of_get? {κ ν : Type} [DecidableEq κ] (d : PyDict κ ν) (k : κ) (v : ν) (h : d.get? k = some v) : d.get k = .ok v := by
  unfold PyDict.get
  rw [h]

theorem archBinned_eq (ht : GoodTarget t) (hI : ArchInput A t z trans B X tr) :
    archBinned A z t.dwave trans = .ok (t.spectra.map (fun s => (s.wavehash, applyTrans (tr s.wavehash) (B s.wavehash)))) := by
  unfold archBinned
  rw [dwave_eq t ht.grids, mapM_map']
  apply mapM_Except_ok
  intro s hs
  simp only []
  rw [hI.rebinned s hs, okBind, dict_get_of_get? _ _ _ (hI.trans s hs), okBind]
  rfl

theorem get?_spectra_map {ν : Type} (ht : GoodTarget t) (f : ω → ν) (s : FitSpectrum ω K) (hs : s ∈ t.spectra) :
    PyDict.get? (t.spectra.map (fun s => (s.wavehash, f s.wavehash))) s.wavehash = some (f s.wavehash) := by
  apply PyDict.get?_of_mem
  · have : PyDict.keys (t.spectra.map (fun s => (s.wavehash, f s.wavehash))) = t.spectra.map (·.wavehash) := by simp [PyDict.keys]
    rw [this]; exact ht.grids
  · exact List.mem_map.2 ⟨s, hs, rfl⟩

theorem archTdata_eq (leg : Nat → K → K) (nleg : Nat) (ht : GoodTarget t) (hI : ArchInput A t z trans B X tr) :
    archTdata leg nleg t.dwave (t.spectra.map (fun s => (s.wavehash, applyTrans (tr s.wavehash) (B s.wavehash)))) =
      .ok (t.spectra.map (fun s => (s.wavehash, (fun h => archColumns (applyTrans (tr h) (B h)) ((List.range nleg).map (fun l => (X h).map (leg l)))) s.wavehash))) := by
  unfold archTdata
  rw [dwave_eq t ht.grids, mapM_map']
  apply mapM_Except_ok
  intro s hs
  simp only []
  rw [dict_get_of_get? _ _ _ (get?_spectra_map ht (fun h => applyTrans (tr h) (B h)) s hs), okBind, legendreOn_eq leg nleg _ _ (hI.reduced s hs), okBind]
  rfl

theorem archTdata_template (leg : Nat → K → K) (nleg : Nat) (hI : ArchInput A t z trans B X tr) (j : Nat) (hj : j < A.flux.length) (s : FitSpectrum ω K) (hs : s ∈ t.spectra) :
    ((fun h => archColumns (applyTrans (tr h) (B h)) ((List.range nleg).map (fun l => (X h).map (leg l)))) s.wavehash)[j]? = some (archTmpl leg nleg t B X tr [j] s.wavehash) := by
  have h := rebinAll_shape A z _ _ (hI.rebinned s hs)
  exact archColumns_get leg nleg _ _ (reducedWavelength_length _ _ (hI.reduced s hs)) _ _ (hI.transLen s hs) h.2 j (by omega)

end
end Redrock
