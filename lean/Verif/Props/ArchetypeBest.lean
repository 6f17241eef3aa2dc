import Verif.Lemmas.ArchetypeBest
import Verif.Props.Archetype

/-! Property C75: `get_best_archetype`. -/
set_option linter.unusedSectionVars false
namespace Redrock
section
variable {K ω : Type} [Field K] [LinearOrder K] [IsStrictOrderedRing K] [DecidableEq ω]

/-- `np.argmin` of a non-empty array: the first position of the smallest value. -/
theorem npArgmin_first (x : List K) (hne : x ≠ []) : ∃ i, ∃ hi : i < x.length, npArgmin x = .ok i ∧ (∀ y ∈ x, x[i] ≤ y) ∧ ∀ j (hj : j < i), x[i] < x[j] := by
  obtain ⟨m, hm⟩ := npMin_ne x hne
  obtain ⟨h1, h2⟩ := npMin_spec x m hm
  unfold npArgmin pyIndex
  rw [hm, okBind]
  cases hf : x.findIdx? (fun y => decide (y = m)) with
  | none =>
    rw [List.findIdx?_eq_none_iff] at hf
    simpa using hf m h1
  | some i =>
    rw [List.findIdx?_eq_some_iff_getElem] at hf
    obtain ⟨hi, h3, h4⟩ := hf
    have h3 : x[i] = m := by simpa using h3
    refine ⟨i, hi, rfl, ?_, ?_⟩
    · rw [h3]; exact h2
    · intro j hj
      have := h4 j hj
      rw [h3]
      exact lt_of_le_of_ne (h2 _ (List.getElem_mem _)) (by intro h; apply this; simpa using h.symm)

/-- What the fit of the template `T` (with `n` archetypes) reports. -/
def archFit (S : Solvers K) (t : ArchTarget ω K) (n nleg : Nat) (perCamera : Bool) (P : Option (List (List K))) (T : ω → List (List K)) : K × List K :=
  if perCamera then fitOf (solveMatrices S .bvls (some (archBounds n (n + nleg * t.spectra.length)))) t.spectra (cameraDesign t.spectra T n nleg) (n + nleg * t.spectra.length) P
  else fitOf (solveMatrices S .bvls (some (archBounds n (n + nleg)))) t.spectra T (n + nleg) none

variable {A : Archetype K} {t : ArchTarget ω K} {z : K} {trans : PyDict ω (Option (List K))} {B : ω → List (List K)} {X : ω → List K} {tr : ω → Option (List K)}

theorem fitArchetypes_eq (S : Solvers K) (hS : ∀ b, SolverOk (solveMatrices S .bvls (some b))) (le : PyStr → PyStr → Bool) (leg : Nat → K → K) (nleg : Nat) (ht : GoodTarget t)
    (hI : ArchInput A t z trans B X tr) (perCamera : Bool) (hb : perCamera = true → GoodBands t) (P : Option (List (List K)))
    (hP : perCamera = true → priorFits P (1 + nleg * t.spectra.length) = true) :
    fitArchetypes S le t (spectralData t.spectra).1 (spectralData t.spectra).2.1 (spectralData t.spectra).2.2 A.flux.length nleg
      (t.spectra.map (fun s => (s.wavehash, (fun h => archColumns (applyTrans (tr h) (B h)) ((List.range nleg).map (fun l => (X h).map (leg l)))) s.wavehash))) perCamera P =
      .ok ((List.range A.flux.length).map (fun j => (archFit S t 1 nleg perCamera P (archTmpl leg nleg t B X tr [j])).1),
        (List.range A.flux.length).map (fun j => (archFit S t 1 nleg perCamera P (archTmpl leg nleg t B X tr [j])).2)) := by
  unfold fitArchetypes
  cases perCamera with
  | true =>
    have hb := hb rfl
    rw [if_pos rfl, hb.count]
    exact perCameraFit_eq le _ (hS _) t.spectra ht.grids t.bands hb.count hb.distinct hb.noAlpha ht.ne
      (fun h => archColumns (applyTrans (tr h) (B h)) ((List.range nleg).map (fun l => (X h).map (leg l)))) (fun j => archTmpl leg nleg t B X tr [j]) nleg 1 _ (Or.inl rfl)
      (fun j hj s hs => archTdata_template leg nleg hI j hj s hs) (fun j _ => shaped_archTmpl leg nleg t ht B X tr [j]) P (hP rfl)
  | false =>
    rw [if_neg (by simp), batch_fitOf _ (hS _) t.spectra _ _ _ (fun j => archTmpl leg nleg t B X tr [j]), okBind]
    · simp only [List.map_map]
      rfl
    · intro j hj s hs
      exact ⟨_, get?_spectra_map ht (fun h => archColumns (applyTrans (tr h) (B h)) ((List.range nleg).map (fun l => (X h).map (leg l)))) s hs, archTdata_template leg nleg hI j hj s hs⟩
    · intro j _
      exact shaped_archTmpl leg nleg t ht B X tr [j]

/-- **C75** `get_best_archetype` without nearest neighbours: every archetype is fitted on its own (redshifted, absorbed, plus `nleg` polynomials, per camera or common to all), with a
non-negative archetype coefficient; the result is the chi2, the coefficients and the full type of the *first* archetype of smallest chi2. Without `per_camera` the prior is not used. -/
theorem C75_best_archetype (S : Solvers K) (hS : ∀ b, SolverOk (solveMatrices S .bvls (some b))) (le : PyStr → PyStr → Bool) (argsort : List K → List Nat) (leg : Nat → K → K) (nleg : Nat)
    (ht : GoodTarget t) (hI : ArchInput A t z trans B X tr) (hne : A.flux ≠ []) (hlab : A.subtype.length = A.flux.length) (perCamera : Bool) (hb : perCamera = true → GoodBands t)
    (P : Option (List (List K))) (hP : perCamera = true → priorFits P (1 + nleg * t.spectra.length) = true) :
    ∃ i label, i < A.flux.length ∧ A.subtype[i]? = some label ∧
      getBestArchetype S le argsort leg A t (spectralData t.spectra).1 (spectralData t.spectra).2.1 (spectralData t.spectra).2.2 z perCamera none nleg trans P =
        .ok ((archFit S t 1 nleg perCamera P (archTmpl leg nleg t B X tr [i])).1, (archFit S t 1 nleg perCamera P (archTmpl leg nleg t B X tr [i])).2, makeFulltype A.rrtype (some label)) ∧
      ∀ j, j < A.flux.length →
        (archFit S t 1 nleg perCamera P (archTmpl leg nleg t B X tr [i])).1 ≤ (archFit S t 1 nleg perCamera P (archTmpl leg nleg t B X tr [j])).1 ∧
        (j < i → (archFit S t 1 nleg perCamera P (archTmpl leg nleg t B X tr [i])).1 < (archFit S t 1 nleg perCamera P (archTmpl leg nleg t B X tr [j])).1) := by
  obtain ⟨i, hi, h1, h2, h3⟩ := npArgmin_first ((List.range A.flux.length).map (fun j => (archFit S t 1 nleg perCamera P (archTmpl leg nleg t B X tr [j])).1)) (by simpa using hne)
  have hi' : i < A.flux.length := by simpa using hi
  have hget : ∀ {V : Type} (f : Nat → V), npGet ((List.range A.flux.length).map f) i = .ok (f i) := by
    intro V f
    rw [npGet_ok, List.getElem?_map, List.getElem?_range hi', Option.map_some]
  refine ⟨i, A.subtype[i]'(by omega), hi', List.getElem?_eq_getElem _, ?_, ?_⟩
  · unfold getBestArchetype
    rw [archBinned_eq ht hI, okBind]
    simp only [okBind]
    rw [archTdata_eq leg nleg ht hI, okBind, fitArchetypes_eq S hS le leg nleg ht hI perCamera hb P hP, okBind]
    simp only []
    rw [h1, okBind, hget, okBind, hget, okBind]
    have hft : npGet A.fullType i = .ok (makeFulltype A.rrtype (some (A.subtype[i]'(by omega)))) := by
      rw [npGet_ok, Archetype.fullType, List.getElem?_map, List.getElem?_eq_getElem (by omega), Option.map_some]
    rw [hft, okBind]
    rfl
  · intro j hj
    have h2 := h2 (archFit S t 1 nleg perCamera P (archTmpl leg nleg t B X tr [j])).1 (List.mem_map.2 ⟨j, List.mem_range.2 hj, rfl⟩)
    simp only [List.getElem_map, List.getElem_range] at h2 h3
    exact ⟨h2, fun h => by simpa using h3 j h⟩


theorem dropPrior_fits (n m : Nat) (hn : 1 ≤ n) (P : List (List K)) (h : priorFits (some P) (n + m) = true) : priorFits (some (dropPrior n P)) (1 + m) = true := by
  simp only [priorFits, Bool.and_eq_true, decide_eq_true_eq, List.all_eq_true] at h ⊢
  obtain ⟨h1, h2⟩ := h
  refine ⟨by simp [dropPrior, h1]; omega, ?_⟩
  intro row hrow
  simp only [dropPrior, List.mem_map] at hrow
  obtain ⟨r, hr, rfl⟩ := hrow
  rw [List.length_drop, h2 r (List.mem_of_mem_drop hr)]
  omega

theorem nearest_columns (leg : Nat → K → K) (nleg : Nat) (hI : ArchInput A t z trans B X tr) (js : List Nat) (hjs : ∀ j ∈ js, j < A.flux.length) (s : FitSpectrum ω K) (hs : s ∈ t.spectra) :
    npTake (applyTrans (tr s.wavehash) (B s.wavehash)) js = .ok (js.map (fun j => absorbed (tr s.wavehash) ((B s.wavehash).getD j []))) ∧
    (List.range (t.wave s.wavehash).length).map (fun p => (js.map (fun j => absorbed (tr s.wavehash) ((B s.wavehash).getD j []))).map (fun row => row.getD p 0) ++
      ((List.range nleg).map (fun l => (X s.wavehash).map (leg l))).map (fun y => y.getD p 0)) = archTmpl leg nleg t B X tr js s.wavehash := by
  have hB := rebinAll_shape A z _ _ (hI.rebinned s hs)
  have hX := reducedWavelength_length _ _ (hI.reduced s hs)
  constructor
  · rw [applyTrans_eq, npTake_map _ js [] (fun j hj => by rw [List.length_map, hB.1]; exact hjs j hj)]
    congr 1
    apply List.map_congr_left
    intro j hj
    have := hjs j hj
    rw [List.getD_eq_getElem?_getD, List.getD_eq_getElem?_getD, List.getElem?_map, List.getElem?_eq_getElem (by omega)]
    rfl
  · unfold archTmpl archTemplate
    apply List.map_congr_left
    intro p hp
    have hp := List.mem_range.1 hp
    congr 1
    rw [List.map_map]
    apply List.map_congr_left
    intro l _
    simp [List.getD_eq_getElem?_getD, List.getElem?_eq_getElem (show p < (X s.wavehash).length by omega)]

/-- **C75** `get_best_archetype` with `n` nearest neighbours (per camera): there are `n` different archetypes `js`, each with a single-archetype chi2 not larger than that of any archetype left out and
in increasing order of chi2, such that the result is the fit of these `n` archetypes *together* (common non-negative coefficients, polynomials per camera, the prior given), and the subtype lists their
labels, separated by `;`, in the order of their coefficients. -/
theorem C75_nearest_neighbours (S : Solvers K) (hS : ∀ b, SolverOk (solveMatrices S .bvls (some b))) (le : PyStr → PyStr → Bool) (argsort : List K → List Nat)
    (hargsort : IsArgsort (fun a b : K => decide (a ≤ b)) argsort) (leg : Nat → K → K) (nleg : Nat) (ht : GoodTarget t) (hb : GoodBands t) (hI : ArchInput A t z trans B X tr) (n : Nat) (hn : 1 ≤ n)
    (hnA : n ≤ A.flux.length) (hlab : A.subtype.length = A.flux.length) (P : List (List K)) (hP : priorFits (some P) (n + nleg * t.spectra.length) = true) :
    ∃ js labels, js.length = n ∧ js.Nodup ∧ (∀ j ∈ js, j < A.flux.length) ∧ List.Forall₂ (fun j label => A.subtype[j]? = some label) js labels ∧
      js.Pairwise (fun i j => (archFit S t 1 nleg true (some (dropPrior n P)) (archTmpl leg nleg t B X tr [i])).1 ≤ (archFit S t 1 nleg true (some (dropPrior n P)) (archTmpl leg nleg t B X tr [j])).1) ∧
      (∀ i ∈ js, ∀ j, j < A.flux.length → j ∉ js →
        (archFit S t 1 nleg true (some (dropPrior n P)) (archTmpl leg nleg t B X tr [i])).1 ≤ (archFit S t 1 nleg true (some (dropPrior n P)) (archTmpl leg nleg t B X tr [j])).1) ∧
      getBestArchetype S le argsort leg A t (spectralData t.spectra).1 (spectralData t.spectra).2.1 (spectralData t.spectra).2.2 z true (some n) nleg trans (some P) =
        .ok ((archFit S t n nleg true (some P) (archTmpl leg nleg t B X tr js)).1, (archFit S t n nleg true (some P) (archTmpl leg nleg t B X tr js)).2,
          makeFulltype A.rrtype (some (List.intercalate [';'] labels))) := by
  obtain ⟨chi2s, hchi2s⟩ : ∃ c, c = (List.range A.flux.length).map (fun j => (archFit S t 1 nleg true (some (dropPrior n P)) (archTmpl leg nleg t B X tr [j])).1) := ⟨_, rfl⟩
  have hcl : chi2s.length = A.flux.length := by rw [hchi2s]; simp
  have hcg : ∀ j, j < A.flux.length → chi2s[j]? = some (archFit S t 1 nleg true (some (dropPrior n P)) (archTmpl leg nleg t B X tr [j])).1 := by
    intro j hj
    rw [hchi2s, List.getElem?_map, List.getElem?_range hj, Option.map_some]
  obtain ⟨hperm, hsort⟩ := hargsort chi2s
  have hmem : ∀ j ∈ argsort chi2s, j < A.flux.length := by
    intro j hj
    have := hperm.mem_iff.1 hj
    rw [List.mem_range] at this
    omega
  have hlen : (argsort chi2s).length = A.flux.length := by rw [hperm.length_eq]; simp [hcl]
  have hjs : ∀ j ∈ (argsort chi2s).take n, j < A.flux.length := fun j hj => hmem j (List.mem_of_mem_take hj)
  have hjl : ((argsort chi2s).take n).length = n := by rw [List.length_take]; omega
  have hle : ∀ {i j : Nat}, i < A.flux.length → j < A.flux.length → (∀ a b : K, chi2s[i]? = some a → chi2s[j]? = some b → decide (a ≤ b) = true) →
      (archFit S t 1 nleg true (some (dropPrior n P)) (archTmpl leg nleg t B X tr [i])).1 ≤ (archFit S t 1 nleg true (some (dropPrior n P)) (archTmpl leg nleg t B X tr [j])).1 :=
    fun hi hj h => of_decide_eq_true (h _ _ (hcg _ hi) (hcg _ hj))
  refine ⟨(argsort chi2s).take n, ((argsort chi2s).take n).map (fun j => A.subtype.getD j []), hjl, (hperm.nodup_iff.2 List.nodup_range).sublist (List.take_sublist _ _), hjs, ?_, ?_, ?_, ?_⟩
  · rw [List.forall₂_map_right_iff, List.forall₂_same]
    intro j hj
    have := hjs j hj
    rw [List.getD_eq_getElem?_getD, List.getElem?_eq_getElem (by omega)]
    rfl
  · refine List.Pairwise.imp_of_mem ?_ (hsort.sublist (List.take_sublist n _))
    intro i j hi hj h
    exact hle (hjs i hi) (hjs j hj) h
  · intro i hi j hj hnot
    have hj2 : j ∈ (argsort chi2s).drop n := by
      have : j ∈ argsort chi2s := hperm.mem_iff.2 (by rw [List.mem_range]; omega)
      rw [← List.take_append_drop n (argsort chi2s), List.mem_append] at this
      rcases this with h | h
      · exact absurd h hnot
      · exact h
    have hs2 := hsort
    rw [← List.take_append_drop n (argsort chi2s), List.pairwise_append] at hs2
    exact hle (hjs i hi) hj (hs2.2.2 i hi j hj2)
  · unfold getBestArchetype
    rw [archBinned_eq ht hI, okBind]
    simp only [okBind]
    rw [archTdata_eq leg nleg ht hI, okBind, fitArchetypes_eq S hS le leg nleg ht hI true (fun _ => hb) (some (dropPrior n P)) (fun _ => dropPrior_fits n _ hn P hP), okBind]
    simp only []
    rw [← hchi2s]
    unfold nearestNeighbour
    dsimp only
    rw [dwave_eq t ht.grids, mapM_map', mapM_Except_ok _ (fun s => (s.wavehash, (fun h => [archTmpl leg nleg t B X tr ((argsort chi2s).take n) h]) s.wavehash)), okBind]
    · rw [if_pos rfl, hb.count, perCameraFit_eq le _ (hS _) t.spectra ht.grids t.bands hb.count hb.distinct hb.noAlpha ht.ne (fun h => [archTmpl leg nleg t B X tr ((argsort chi2s).take n) h])
        (fun _ => archTmpl leg nleg t B X tr ((argsort chi2s).take n)) nleg n 1 (by omega) (fun j hj s hs => by
          have : j = 0 := by omega
          subst this; rfl) (fun j _ => by have := shaped_archTmpl leg nleg t ht B X tr ((argsort chi2s).take n); rwa [hjl] at this) (some P) hP, okBind]
      simp only [List.range_one, List.map_cons, List.map_nil]
      have g0 : ∀ {V : Type} (v : V), npGet [v] 0 = .ok v := fun v => rfl
      rw [g0, okBind, g0, okBind, npTake_map A.subtype _ [] (fun j hj => by have := hjs j hj; omega), okBind]
      rfl
    · intro s hs
      obtain ⟨n1, n2⟩ := nearest_columns leg nleg hI ((argsort chi2s).take n) hjs s hs
      simp only []
      rw [dict_get_of_get? _ _ _ (get?_spectra_map ht (fun h => applyTrans (tr h) (B h)) s hs), okBind, n1, okBind, legendreOn_eq leg nleg _ _ (hI.reduced s hs), okBind]
      rw [n2]
      rfl


theorem foldlM_read_ok {α β V : Type} (f : α → Py V) (g : β → α → V → Py β) (l : List α) (b r : β) (h : l.foldlM (fun acc k => do
    let v ← f k
    g acc k v) b = .ok r) : ∀ a ∈ l, ∃ v, f a = .ok v := by
  induction l generalizing b with
  | nil => intro a ha; cases ha
  | cons x l ih =>
    rw [List.foldlM_cons] at h
    obtain ⟨b', h1, h⟩ := Except.bind_ok _ _ _ h
    obtain ⟨v, h2, h1⟩ := Except.bind_ok _ _ _ h1
    intro a ha
    rcases List.mem_cons.1 ha with rfl | ha
    · exact ⟨v, h2⟩
    · exact ih b' h a ha

theorem expandRow_short (n nleg nbasis i : Nat) (row r : List K) (hrow : row.length < n + nleg) : expandRow n nleg nbasis i row ≠ .ok r := by
  intro h
  unfold expandRow at h
  obtain ⟨r1, h1, h2⟩ := Except.bind_ok _ _ _ h
  have hr : ∀ k v, npGet row k = .ok v → k < row.length := fun k v hv => (List.getElem?_eq_some_iff.1 ((npGet_ok _ _ _).1 hv)).1
  by_cases hl : nleg = 0
  · obtain ⟨v, hv⟩ := foldlM_read_ok (fun k => npGet row k) (fun acc k v => npSet acc k v) _ _ _ h1 (n - 1) (by rw [List.mem_range]; omega)
    have := hr _ _ hv
    omega
  · obtain ⟨v, hv⟩ := foldlM_read_ok (fun k => npGet row k) (fun acc k v => npSet acc (k + nleg * i) v) _ _ _ h2 (n + nleg - 1) (by rw [List.mem_range'_1]; omega)
    have := hr _ _ hv
    omega

/-- **C75** asking for more nearest neighbours than there are archetypes does not work (per camera): the call raises instead of using all of them. -/
theorem C75_too_many_neighbours (S : Solvers K) (hS : ∀ b, SolverOk (solveMatrices S .bvls (some b))) (le : PyStr → PyStr → Bool) (argsort : List K → List Nat)
    (hargsort : IsArgsort (fun a b : K => decide (a ≤ b)) argsort) (leg : Nat → K → K) (nleg : Nat) (ht : GoodTarget t) (hb : GoodBands t) (hI : ArchInput A t z trans B X tr) (n : Nat)
    (hnA : A.flux.length < n) (P : List (List K)) (hP : priorFits (some P) (n + nleg * t.spectra.length) = true) (r : K × List K × PyStr) :
    getBestArchetype S le argsort leg A t (spectralData t.spectra).1 (spectralData t.spectra).2.1 (spectralData t.spectra).2.2 z true (some n) nleg trans (some P) ≠ .ok r := by
  intro h
  unfold getBestArchetype at h
  rw [archBinned_eq ht hI, okBind] at h
  simp only [okBind] at h
  rw [archTdata_eq leg nleg ht hI, okBind, fitArchetypes_eq S hS le leg nleg ht hI true (fun _ => hb) (some (dropPrior n P)) (fun _ => dropPrior_fits n _ (by omega) P hP), okBind] at h
  simp only [] at h
  generalize hc : (List.range A.flux.length).map (fun j => (archFit S t 1 nleg true (some (dropPrior n P)) (archTmpl leg nleg t B X tr [j])).1) = chi2s at h
  have hcl : chi2s.length = A.flux.length := by rw [← hc]; simp
  obtain ⟨hperm, -⟩ := hargsort chi2s
  have hjs : ∀ j ∈ (argsort chi2s).take n, j < A.flux.length := by
    intro j hj
    have := hperm.mem_iff.1 (List.mem_of_mem_take hj)
    rw [List.mem_range] at this
    omega
  have hjl : ((argsort chi2s).take n).length < n := by
    rw [List.length_take, hperm.length_eq, List.length_range]; omega
  unfold nearestNeighbour at h
  dsimp only at h
  rw [dwave_eq t ht.grids, mapM_map', mapM_Except_ok _ (fun s => (s.wavehash, [archTmpl leg nleg t B X tr ((argsort chi2s).take n) s.wavehash])), okBind, if_pos rfl] at h
  · obtain ⟨⟨c, k⟩, h1, -⟩ := Except.bind_ok _ _ _ h
    unfold perCameraFit at h1
    dsimp only at h1
    obtain ⟨fits, h2, -⟩ := Except.bind_ok _ _ _ h1
    rw [List.range_one, List.mapM_cons] at h2
    obtain ⟨f0, h3, -⟩ := Except.bind_ok _ _ _ h2
    unfold perCameraOne at h3
    obtain ⟨td, h4, -⟩ := Except.bind_ok _ _ _ h3
    obtain ⟨s, rest, hs⟩ := List.exists_cons_of_ne_nil ht.ne
    rw [hs, List.map_cons, List.zipIdx_cons, List.mapM_cons] at h4
    obtain ⟨e0, h5, -⟩ := Except.bind_ok _ _ _ h4
    obtain ⟨rows, h6, h7⟩ := Except.bind_ok _ _ _ h5
    cases h6
    obtain ⟨rows2, h8, -⟩ := Except.bind_ok _ _ _ h7
    obtain ⟨hs1, hs2⟩ := archTmpl_shape leg nleg t B X tr ((argsort chi2s).take n) s.wavehash
    have hwave : (t.wave s.wavehash) ≠ [] := by
      intro hw
      have := hI.reduced s (by rw [hs]; simp)
      rw [hw] at this
      cases this
    obtain ⟨row, rest2, hr⟩ := List.exists_cons_of_ne_nil (show archTmpl leg nleg t B X tr ((argsort chi2s).take n) s.wavehash ≠ [] by
      intro hw; rw [hw] at hs1; exact hwave (List.eq_nil_of_length_eq_zero hs1.symm))
    rw [hr, List.mapM_cons] at h8
    obtain ⟨r0, h9, -⟩ := Except.bind_ok _ _ _ h8
    exact expandRow_short _ _ _ _ row r0 (by rw [hs2 row (by rw [hr]; simp)]; omega) h9
  · intro s hs
    obtain ⟨n1, n2⟩ := nearest_columns leg nleg hI ((argsort chi2s).take n) hjs s hs
    simp only []
    rw [dict_get_of_get? _ _ _ (get?_spectra_map ht (fun h => applyTrans (tr h) (B h)) s hs), okBind, n1, okBind, legendreOn_eq leg nleg _ _ (hI.reduced s hs), okBind]
    rw [n2]
    rfl

/-- **C75** nearest neighbours without `per_camera` never work for a target with data: the second fit is called without an algorithm and raises `AttributeError`. -/
theorem C75_neighbours_need_per_camera (S : Solvers K) (hS : ∀ b, SolverOk (solveMatrices S .bvls (some b))) (le : PyStr → PyStr → Bool) (argsort : List K → List Nat)
    (hargsort : IsArgsort (fun a b : K => decide (a ≤ b)) argsort) (leg : Nat → K → K) (nleg : Nat) (ht : GoodTarget t) (hI : ArchInput A t z trans B X tr) (n : Nat)
    (P : List (List K)) (hdata : (t.spectra.flatMap (·.ivar)).sum ≠ 0) :
    getBestArchetype S le argsort leg A t (spectralData t.spectra).1 (spectralData t.spectra).2.1 (spectralData t.spectra).2.2 z false (some n) nleg trans (some P) = .error .attributeError := by
  unfold getBestArchetype
  rw [archBinned_eq ht hI, okBind]
  simp only [okBind]
  rw [archTdata_eq leg nleg ht hI, okBind, fitArchetypes_eq S hS le leg nleg ht hI false (by simp) (some (dropPrior n P)) (by simp), okBind]
  simp only []
  generalize hc : (List.range A.flux.length).map (fun j => (archFit S t 1 nleg false (some (dropPrior n P)) (archTmpl leg nleg t B X tr [j])).1) = chi2s
  have hcl : chi2s.length = A.flux.length := by rw [← hc]; simp
  obtain ⟨hperm, -⟩ := hargsort chi2s
  have hjs : ∀ j ∈ (argsort chi2s).take n, j < A.flux.length := by
    intro j hj
    have := hperm.mem_iff.1 (List.mem_of_mem_take hj)
    rw [List.mem_range] at this
    omega
  unfold nearestNeighbour
  dsimp only
  rw [dwave_eq t ht.grids, mapM_map', mapM_Except_ok _ (fun s => (s.wavehash, [archTmpl leg nleg t B X tr ((argsort chi2s).take n) s.wavehash])), okBind, if_neg (by simp), if_neg]
  · rfl
  · exact hdata
  · intro s hs
    obtain ⟨n1, n2⟩ := nearest_columns leg nleg hI ((argsort chi2s).take n) hjs s hs
    simp only []
    rw [dict_get_of_get? _ _ _ (get?_spectra_map ht (fun h => applyTrans (tr h) (B h)) s hs), okBind, n1, okBind, legendreOn_eq leg nleg _ _ (hI.reduced s hs), okBind]
    rw [n2]
    rfl


section Example
/-- two cameras, two archetypes -/
def exArch : Archetype ℚ := { wave := [0, 2, 4, 6, 8], flux := [[0, 0, 0, 0, 0], [1, 2, 3, 4, 5]], rrtype := "GALAXY".toList, subtype := ["A_0".toList, "B_1".toList] }
def exTarget : ArchTarget Nat ℚ :=
  { spectra := [{ wavehash := 0, flux := [1, 1, 1], ivar := [1, 1, 0], R := [[1, 0, 0], [0, 1, 0], [0, 0, 1]] }, { wavehash := 1, flux := [2, 1], ivar := [1, 3], R := [[1, 0], [0, 1]] }],
    wave := fun h => if h = 0 then [1, 2, 3] else [4, 6], bands := ["r".toList, "b".toList] }
def exTrans : PyDict Nat (Option (List ℚ)) := [(0, some [1/2, 1, 1]), (1, none)]
def exLeg (l : Nat) (x : ℚ) : ℚ := x ^ l
/-- a solver that always answers 1/2 -/
def exSolvers : Solvers ℚ := { linalgSolve := fun _ y => .ok (y.map (fun _ => 1/2)), nnls := fun _ y => .ok (y.map (fun _ => 1/2)), lsqLinear := fun _ _ _ y => .ok (y.map (fun _ => 1/2)) }

theorem exSolvers_ok (b : List (Option ℚ) × List (Option ℚ)) : SolverOk (solveMatrices exSolvers .bvls (some b)) := by
  intro M y
  simp [solveMatrices, exSolvers]

theorem exTarget_good : GoodTarget exTarget := ⟨by decide, by decide, by decide +kernel⟩
theorem exTarget_bands : GoodBands exTarget := ⟨by decide, by decide, by decide⟩

/-- the hypotheses of `C75_best_archetype` and `C75_nearest_neighbours` hold here -/
theorem exInput : ArchInput exArch exTarget (1/2) exTrans (fun h => if h = 0 then [[0, 0, 0], [4/3, 5/3, 2]] else [[0, 0], [7/3, 3]]) (fun h => if h = 0 then [-1, 0, 1] else [-1, 1])
    (fun h => if h = 0 then some [1/2, 1, 1] else none) :=
  ⟨by decide +kernel, by decide +kernel, by decide +kernel, by
    intro s hs T hT
    have : s.wavehash = 0 ∨ s.wavehash = 1 := by clear hT; revert s; decide +kernel
    rcases this with h | h
    · rw [h] at hT ⊢; cases hT; rfl
    · rw [h] at hT; cases hT⟩

/-- the smaller chi2 wins, here the second archetype -/
example : getBestArchetype exSolvers (fun _ _ => true) (fun v => List.range v.length) exLeg exArch exTarget (spectralData exTarget.spectra).1 (spectralData exTarget.spectra).2.1
    (spectralData exTarget.spectra).2.2 (1/2) true none 1 exTrans (some (priorOnCoeffs 1 1 (1/10) 2)) = .ok (13/4, [1/2, 1/2, 1/2], "GALAXY:::B_1".toList) := by
  decide +kernel

end Example

end
end Redrock
