import Verif.Spec.Archetype
import Verif.Props.Chi2
import Verif.Props.Desi

/-! Lemmas about the archetype fit. -/
set_option linter.unusedSectionVars false
namespace Redrock
section
variable {K ω : Type} [Field K] [LinearOrder K]

theorem npSet_ok {V : Type} (a : List V) (i : Nat) (v : V) (h : i < a.length) : npSet a i v = .ok (a.set i v) := by simp [npSet, h]

/-- copying `m` entries of `row` from position `s` to position `s+off`, one after the other -/
theorem copyLoop (row acc : List K) (s off m : Nat) (hrow : s + m ≤ row.length) (hacc : s + off + m ≤ acc.length) :
    (List.range' s m).foldlM (fun acc k => do
      let v ← npGet row k
      npSet acc (k + off) v) acc = .ok (acc.take (s + off) ++ (row.drop s).take m ++ acc.drop (s + off + m)) := by
  induction m generalizing s acc with
  | zero => simp; rfl
  | succ m ih =>
    rw [List.range'_succ, List.foldlM_cons]
    have hs : s < row.length := by omega
    rw [(npGet_ok row s _).2 (List.getElem?_eq_getElem hs), okBind, npSet_ok _ _ _ (by omega), okBind, ih (acc.set (s + off) row[s]) (s + 1) (by omega) (by simp; omega)]
    congr 1
    have e1 : (acc.set (s + off) row[s]).take (s + 1 + off) = acc.take (s + off) ++ [row[s]] := by
      apply List.ext_getElem?
      intro q
      simp only [List.getElem?_take, List.getElem?_set, List.getElem?_append, List.length_take, show min (s+off) acc.length = s + off by omega]
      by_cases h1 : q < s + off
      · simp [h1, show q < s + 1 + off by omega, show s + off ≠ q by omega]
      · by_cases h2 : q = s + off
        · subst h2; simp [show s + off < acc.length by omega]
        · simp [h1, show ¬ q < s + 1 + off by omega, show q - (s + off) ≠ 0 by omega]
    have e2 : (acc.set (s + off) row[s]).drop (s + 1 + off + m) = acc.drop (s + off + (m + 1)) := by
      rw [List.drop_set, if_pos (by omega)]
      congr 1; omega
    have e3 : (row.drop s).take (m + 1) = row[s] :: (row.drop (s + 1)).take m := by
      rw [List.drop_eq_getElem_cons hs, List.take_succ_cons]
    rw [e1, e2, e3]
    simp

theorem expandRow_eq (n nleg ncam i : Nat) (hi : i < ncam) (row : List K) (hrow : row.length = n + nleg) :
    expandRow n nleg (n + nleg * ncam) i row = .ok (designRow n nleg ncam i row) := by
  unfold expandRow
  have hnc : nleg * (i + 1) ≤ nleg * ncam := Nat.mul_le_mul_left _ hi
  have hnc' : nleg * (i + 1) = nleg * i + nleg := by ring
  have h1 := copyLoop row (List.replicate (n + nleg * ncam) (0 : K)) 0 0 n (by omega) (by simp)
  rw [← List.range_eq_range'] at h1
  simp only [Nat.add_zero] at h1
  rw [h1, okBind, copyLoop _ _ _ _ _ (by omega) (by simp; omega)]
  congr 1
  have hz : nleg * (ncam - 1 - i) = nleg * ncam - (nleg * i + nleg) := by
    rw [← hnc', ← Nat.mul_sub]; congr 1; omega
  have hl : (row.take n).length = n := by simp; omega
  have hd : (row.drop n).take nleg = row.drop n := List.take_of_length_le (by simp; omega)
  have hl2 : (row.drop n).length = nleg := by simp; omega
  simp only [designRow, hz, hd, List.take_zero, List.nil_append, Nat.zero_add, List.drop_zero, List.drop_replicate]
  apply List.ext_getElem?
  intro q
  simp only [List.getElem?_append, List.getElem?_take, List.getElem?_drop, List.length_append, List.length_take, List.length_drop, List.length_replicate, List.getElem?_replicate, hrow]
  split_ifs <;> first | rfl | omega | (congr 1; omega) | skip

theorem designRow_length (n nleg ncam i : Nat) (hi : i < ncam) (row : List K) (hrow : row.length = n + nleg) : (designRow n nleg ncam i row).length = n + nleg * ncam := by
  have hnc : nleg * (i + 1) ≤ nleg * ncam := Nat.mul_le_mul_left _ hi
  have hnc' : nleg * (i + 1) = nleg * i + nleg := by ring
  have hz : nleg * (ncam - 1 - i) = nleg * ncam - (nleg * i + nleg) := by
    rw [← hnc', ← Nat.mul_sub]; congr 1; omega
  simp only [designRow, List.length_append, List.length_take, List.length_drop, List.length_replicate, hrow, hz]
  omega

theorem designRow_getD (n nleg ncam i : Nat) (hi : i < ncam) (row : List K) (hrow : row.length = n + nleg) (b : Nat) :
    (designRow n nleg ncam i row).getD b 0 = if b < n then row.getD b 0 else if n + nleg * i ≤ b ∧ b < n + nleg * i + nleg then row.getD (b - nleg * i) 0 else 0 := by
  have hl : (row.take n).length = n := by simp; omega
  simp only [designRow, List.getD_eq_getElem?_getD, List.getElem?_append, List.getElem?_take, List.getElem?_drop, List.length_append, List.length_take, List.length_drop, List.length_replicate,
    List.getElem?_replicate, hrow]
  split_ifs <;> first | rfl | omega | (congr 2; omega) | skip

/-- a row of the common linear model gives the camera's own model: archetypes plus the camera's block -/
theorem design_dot (n nleg ncam i : Nat) (hi : i < ncam) (row : List K) (hrow : row.length = n + nleg) (c : List K) :
    ∑ b ∈ Finset.range (n + nleg * ncam), (designRow n nleg ncam i row).getD b 0 * c.getD b 0 =
      ∑ k ∈ Finset.range n, row.getD k 0 * (c.take n).getD k 0 + ∑ l ∈ Finset.range nleg, row.getD (n + l) 0 * (((c.drop n).drop (i * nleg)).take nleg).getD l 0 := by
  have hnc : nleg * (i + 1) ≤ nleg * ncam := Nat.mul_le_mul_left _ hi
  have hnc' : nleg * (i + 1) = nleg * i + nleg := by ring
  obtain ⟨r, hr⟩ : ∃ r, nleg * ncam = nleg * i + (nleg + r) := ⟨nleg * ncam - (nleg * i + nleg), by omega⟩
  rw [hr, Finset.sum_range_add, Finset.sum_range_add, Finset.sum_range_add]
  congr 1
  · apply Finset.sum_congr rfl
    intro b hb
    rw [Finset.mem_range] at hb
    rw [designRow_getD _ _ _ _ hi _ hrow, if_pos hb]
    congr 1
    simp [List.getElem?_take, hb]
  · have h0 : ∑ x ∈ Finset.range (nleg * i), (designRow n nleg ncam i row).getD (n + x) 0 * c.getD (n + x) 0 = 0 := by
      apply Finset.sum_eq_zero
      intro x hx
      rw [Finset.mem_range] at hx
      rw [designRow_getD _ _ _ _ hi _ hrow, if_neg (by omega), if_neg (by omega), zero_mul]
    have h2 : ∑ x ∈ Finset.range r, (designRow n nleg ncam i row).getD (n + (nleg * i + (nleg + x))) 0 * c.getD (n + (nleg * i + (nleg + x))) 0 = 0 := by
      apply Finset.sum_eq_zero
      intro x hx
      rw [designRow_getD _ _ _ _ hi _ hrow, if_neg (by omega), if_neg (by omega), zero_mul]
    rw [h0, h2, zero_add, add_zero]
    apply Finset.sum_congr rfl
    intro l hl
    rw [Finset.mem_range] at hl
    rw [designRow_getD _ _ _ _ hi _ hrow, if_neg (by omega), if_pos (by omega), show n + (nleg * i + l) - nleg * i = n + l by omega]
    congr 1
    simp only [List.getD_eq_getElem?_getD, List.getElem?_take, List.getElem?_drop, if_pos hl]
    congr 2
    rw [Nat.mul_comm i nleg]

theorem sum_map_zipIdx_congr {α : Type} (f : α → K) (g : α → Nat → K) (l : List α) (k : Nat) (h : ∀ (i : Nat) (a : α), l[i]? = some a → f a = g a (k + i)) :
    (l.map f).sum = ((l.zipIdx k).map (fun ai => g ai.1 ai.2)).sum := by
  induction l generalizing k with
  | nil => rfl
  | cons a l ih =>
    simp only [List.map_cons, List.zipIdx_cons, List.sum_cons]
    rw [h 0 a rfl, Nat.add_zero, ih (k + 1)]
    intro i b hb
    rw [h (i + 1) b (by simpa using hb)]
    congr 1
    omega

/-- chi2 of the common linear model is the chi2 of the camera models -/
theorem chi2_design (spectra : List (FitSpectrum ω K)) (T D : ω → List (List K)) (n nleg : Nat) (c : List K)
    (hT : ∀ s ∈ spectra, ∀ row ∈ T s.wavehash, row.length = n + nleg)
    (hD : ∀ (i : Nat) (s : FitSpectrum ω K), spectra[i]? = some s → D s.wavehash = (T s.wavehash).map (designRow n nleg spectra.length i)) :
    chi2Of spectra D (n + nleg * spectra.length) c = cameraChi2 spectra T n nleg (c.take n) ((List.range spectra.length).map (fun i => ((c.drop n).drop (i * nleg)).take nleg)) := by
  unfold chi2Of cameraChi2
  rw [sum_map_zipIdx_congr _ (fun s i => ∑ p ∈ Finset.range s.flux.length,
    s.ivar.getD p 0 * (s.flux.getD p 0 - cameraModelAt s.R (T s.wavehash) n nleg (c.take n) (((List.range spectra.length).map (fun i => ((c.drop n).drop (i * nleg)).take nleg)).getD i []) p) ^ 2) spectra 0]
  intro i s hs
  have hi : i < spectra.length := (List.getElem?_eq_some_iff.1 hs).1
  apply Finset.sum_congr rfl
  intro p _
  congr 3
  unfold modelAt cameraModelAt
  rw [hD i s hs, List.length_map]
  apply Finset.sum_congr rfl
  intro w hw
  rw [Finset.mem_range] at hw
  congr 1
  have e : ((T s.wavehash).map (designRow n nleg spectra.length i)).getD w [] = designRow n nleg spectra.length i ((T s.wavehash).getD w []) := by
    simp [hw]
  have hrow : ((T s.wavehash).getD w []).length = n + nleg := by
    simp only [List.getD_eq_getElem?_getD, List.getElem?_eq_getElem hw, Option.getD_some]
    exact hT s (List.mem_of_getElem? hs) _ (List.getElem_mem _)
  rw [e, design_dot n nleg spectra.length i hi _ hrow]
  simp [hi]

end

section
variable {K ω : Type} [Field K] [LinearOrder K] [IsStrictOrderedRing K] [DecidableEq ω]

/-- What is assumed of a numerical solver: it returns a vector of the right length or raises one of the two exceptions the code catches. -/
def SolverOk (solve : List (List K) → List K → Py (List K)) : Prop :=
  ∀ M y, match solve M y with
    | .ok c => c.length = y.length
    | .error e => Caught e

theorem batch_fitOf (solve : List (List K) → List K → Py (List K)) (hso : SolverOk solve) (spectra : List (FitSpectrum ω K)) (tdata : PyDict ω (List (List (List K)))) (nz nbasis : Nat)
    (T : Nat → ω → List (List K)) (hT : ∀ i, i < nz → HasTemplate spectra tdata i (T i)) (hS : ∀ i, i < nz → Shaped spectra (T i) nbasis) (P : Option (List (List K))) :
    calcZchi2Batch solve spectra tdata (spectralData spectra).1 (spectralData spectra).2.1 (spectralData spectra).2.2 nz nbasis P =
      .ok ((List.range nz).map (fun i => fitOf solve spectra (T i) nbasis P)) := by
  by_cases hsum : (spectra.flatMap (·.ivar)).sum = 0
  · unfold calcZchi2Batch
    rw [if_pos (show (spectralData spectra).1.sum = 0 from hsum)]
    congr 1
    apply List.ext_getElem
    · simp
    · intro i _ _
      simp [fitOf, hsum, hugeChi2]
  · obtain ⟨r, h1, h2, h3⟩ := C39_batch_entries solve spectra tdata nz nbasis T hT hS P hsum (by
      intro i hi
      have := hso (addPrior (normalMatrixOf spectra (T i) nbasis) P) (normalVectorOf spectra (T i) nbasis)
      revert this
      cases solve (addPrior (normalMatrixOf spectra (T i) nbasis) P) (normalVectorOf spectra (T i) nbasis) with
      | ok c => intro h; simpa [normalVectorOf] using h
      | error e => exact id)
    rw [h1]
    congr 1
    apply List.ext_getElem?
    intro i
    by_cases hi : i < nz
    · rw [List.getElem?_map, List.getElem?_range hi, Option.map_some, fitOf, if_neg hsum]
      cases hs : solve (addPrior (normalMatrixOf spectra (T i) nbasis) P) (normalVectorOf spectra (T i) nbasis) with
      | ok c => exact (h3 i hi).1 c hs
      | error e => exact (h3 i hi).2 (fun c hc => by rw [hs] at hc; cases hc)
    · rw [List.getElem?_eq_none (by omega), List.getElem?_eq_none (by simp; omega)]

theorem idxOf_wavehash (spectra : List (FitSpectrum ω K)) (hnd : (spectra.map (·.wavehash)).Nodup) (i : Nat) (s : FitSpectrum ω K) (hs : spectra[i]? = some s) :
    (spectra.map (·.wavehash)).idxOf s.wavehash = i := by
  obtain ⟨hi, rfl⟩ := List.getElem?_eq_some_iff.1 hs
  have := hnd.idxOf_getElem i (by simpa using hi)
  simpa using this

theorem mapM_zipIdx_ok {α β : Type} (f : α × Nat → Py β) (g : α → Nat → β) (l : List α) (k : Nat) (h : ∀ (i : Nat) (a : α), l[i]? = some a → f (a, k + i) = .ok (g a (k + i))) :
    (l.zipIdx k).mapM f = .ok ((l.zipIdx k).map (fun ai => g ai.1 ai.2)) := by
  apply mapM_Except_ok
  rintro ⟨a, i⟩ hai
  rw [List.mk_mem_zipIdx_iff_le_and_getElem?_sub] at hai
  have := h (i - k) a hai.2
  rwa [show k + (i - k) = i by omega] at this

/-- the design of the cameras is well shaped if the templates are -/
theorem shaped_design (spectra : List (FitSpectrum ω K)) (hnd : (spectra.map (·.wavehash)).Nodup) (T : ω → List (List K)) (n nleg : Nat) (hS : Shaped spectra T (n + nleg)) :
    Shaped spectra (cameraDesign spectra T n nleg) (n + nleg * spectra.length) := by
  intro s hs
  obtain ⟨h1, h2, h3, h4⟩ := hS s hs
  obtain ⟨i, hi, hsi⟩ := List.getElem_of_mem hs
  have hidx := idxOf_wavehash spectra hnd i s (by rw [List.getElem?_eq_getElem hi, hsi])
  refine ⟨h1, h2, ?_, ?_⟩
  · intro row hrow
    rw [h3 row hrow]
    simp [cameraDesign]
  · intro row hrow
    simp only [cameraDesign, List.mem_map] at hrow
    obtain ⟨r0, hr0, rfl⟩ := hrow
    rw [hidx]
    exact designRow_length _ _ _ _ hi _ (h4 r0 hr0)

theorem perCameraOne_eq (solve : List (List K) → List K → Py (List K)) (hso : SolverOk solve) (spectra : List (FitSpectrum ω K)) (hnd : (spectra.map (·.wavehash)).Nodup)
    (F : ω → List (List (List K))) (T : ω → List (List K)) (nleg n j : Nat) (hT : ∀ s ∈ spectra, (F s.wavehash)[j]? = some (T s.wavehash)) (hS : Shaped spectra T (n + nleg))
    (P : Option (List (List K))) (hP : priorFits P (n + nleg * spectra.length) = true) :
    perCameraOne solve spectra (spectra.map (fun s => (s.wavehash, F s.wavehash))) (spectralData spectra).1 (spectralData spectra).2.1 (spectralData spectra).2.2 nleg n
      (n + nleg * spectra.length) P j = .ok (fitOf solve spectra (cameraDesign spectra T n nleg) (n + nleg * spectra.length) P) := by
  unfold perCameraOne
  have h1 : (spectra.map (fun s => (s.wavehash, F s.wavehash))).zipIdx.mapM (fun ei => (do
      let rows ← npGet ei.1.2 j
      let rows ← rows.mapM (expandRow n nleg (n + nleg * spectra.length) ei.2)
      return (ei.1.1, [rows]) : Py (ω × List (List (List K))))) =
      .ok (spectra.map (fun s => (s.wavehash, [cameraDesign spectra T n nleg s.wavehash]))) := by
    have hz := mapM_zipIdx_ok (fun ei : (ω × List (List (List K))) × Nat => (do
      let rows ← npGet ei.1.2 j
      let rows ← rows.mapM (expandRow n nleg (n + nleg * spectra.length) ei.2)
      return (ei.1.1, [rows]) : Py (ω × List (List (List K))))) (fun e _ => (e.1, [cameraDesign spectra T n nleg e.1])) (spectra.map (fun s => (s.wavehash, F s.wavehash))) 0 (by
      intro i e he
      rw [List.getElem?_map, Option.map_eq_some_iff] at he
      obtain ⟨s, hs, rfl⟩ := he
      have hi : i < spectra.length := (List.getElem?_eq_some_iff.1 hs).1
      have hm := List.mem_of_getElem? hs
      dsimp only
      rw [(npGet_ok _ _ _).2 (hT s hm), okBind, mapM_Except_ok _ (designRow n nleg spectra.length i), okBind]
      · rw [cameraDesign, idxOf_wavehash spectra hnd i s hs]
        rfl
      · intro row hrow
        rw [Nat.zero_add]
        exact expandRow_eq n nleg spectra.length i hi row ((hS s hm).2.2.2 row hrow))
    rw [hz]
    congr 1
    rw [show (fun ai : (ω × List (List (List K))) × Nat => (ai.1.1, [cameraDesign spectra T n nleg ai.1.1])) = (fun e => (e.1, [cameraDesign spectra T n nleg e.1])) ∘ Prod.fst from rfl,
      ← List.map_map, List.zipIdx_map_fst, List.map_map]
    rfl
  rw [h1, okBind]
  rw [if_neg (by rw [hP]; rintro ⟨_, h⟩; cases h)]
  have hb := batch_fitOf solve hso spectra (spectra.map (fun s => (s.wavehash, [cameraDesign spectra T n nleg s.wavehash]))) 1 (n + nleg * spectra.length)
    (fun _ => cameraDesign spectra T n nleg) (by
      intro i hi s hs
      refine ⟨[cameraDesign spectra T n nleg s.wavehash], ?_, ?_⟩
      · apply PyDict.get?_of_mem
        · simpa [PyDict.keys, List.map_map, Function.comp_def] using hnd
        · exact List.mem_map.2 ⟨s, hs, rfl⟩
      · rw [show i = 0 by omega]; rfl) (fun _ _ => shaped_design spectra hnd T n nleg hS) P
  show (calcZchi2Batch _ _ _ _ _ _ _ _ _ >>= _) = _
  rw [hb]
  rfl

/-! ### the order of the coefficients -/

theorem flatMap_chunks (nleg m : Nat) (l : List K) (h : l.length = nleg * m) : (List.range m).flatMap (fun i => (l.drop (i * nleg)).take nleg) = l := by
  induction m generalizing l with
  | zero =>
    rw [Nat.mul_zero] at h
    rw [List.eq_nil_of_length_eq_zero h]
    rfl
  | succ m ih =>
    rw [List.range_succ_eq_map, List.flatMap_cons, List.flatMap_map]
    have := ih (l.drop nleg) (by rw [List.length_drop, h, Nat.mul_succ]; omega)
    simp only [Nat.zero_mul, List.drop_zero]
    conv_rhs => rw [← List.take_append_drop nleg l, ← this]
    congr 2
    funext i
    rw [List.drop_drop]
    congr 2
    rw [Nat.succ_mul]; omega

theorem values_of_get? {κ ν : Type} [DecidableEq κ] (d : PyDict κ ν) (ks : List κ) (hk : PyDict.keys d = ks) (hnd : ks.Nodup) (f : κ → ν) (hf : ∀ k ∈ ks, PyDict.get? d k = some (f k)) :
    d.map (·.2) = ks.map f := by
  subst hk
  unfold PyDict.keys
  rw [List.map_map]
  apply List.map_congr_left
  rintro ⟨k, v⟩ hkv
  have h1 := PyDict.get?_of_mem d hnd k v hkv
  rw [hf k (List.mem_map.2 ⟨_, hkv, rfl⟩)] at h1
  exact (Option.some.inj h1).symm

theorem keys_foldl_set_mem {α κ ν : Type} [DecidableEq κ] (key : α → κ) (val : α → ν) (l : List α) (d : PyDict κ ν) (h : ∀ a ∈ l, key a ∈ PyDict.keys d) :
    PyDict.keys (l.foldl (fun d a => PyDict.set d (key a) (val a)) d) = PyDict.keys d := by
  induction l generalizing d with
  | nil => rfl
  | cons a l ih =>
    rw [List.foldl_cons]
    have e : PyDict.keys (PyDict.set d (key a) (val a)) = PyDict.keys d := by
      rw [PyDict.keys_set, if_pos (h a (by simp))]
    rw [ih _ (by intro b hb; rw [e]; exact h b (by simp [hb])), e]

theorem keys_foldl_set_new {α κ ν : Type} [DecidableEq κ] (key : α → κ) (val : α → ν) (l : List α) (d : PyDict κ ν) (hnd : (PyDict.keys d ++ l.map key).Nodup) :
    PyDict.keys (l.foldl (fun d a => PyDict.set d (key a) (val a)) d) = PyDict.keys d ++ l.map key := by
  induction l generalizing d with
  | nil => simp
  | cons a l ih =>
    have hna : key a ∉ PyDict.keys d := by
      intro hm
      rw [List.nodup_append] at hnd
      exact hnd.2.2 _ hm _ (by simp) rfl
    have e : PyDict.keys (PyDict.set d (key a) (val a)) = PyDict.keys d ++ [key a] := by
      rw [PyDict.keys_set, if_neg hna]
    rw [List.foldl_cons, ih _ (by rw [e]; simpa using hnd), e]
    simp

theorem foldlM_set_ok {α κ ν : Type} [DecidableEq κ] (key : α → κ) (g : α → Py ν) (val : α → ν) (l : List α) (d : PyDict κ ν) (h : ∀ a ∈ l, g a = .ok (val a)) :
    l.foldlM (fun (d : PyDict κ ν) a => do
      let v ← g a
      return PyDict.set d (key a) v) d = .ok (l.foldl (fun d a => PyDict.set d (key a) (val a)) d) := by
  induction l generalizing d with
  | nil => rfl
  | cons a l ih =>
    rw [List.foldlM_cons, h a (by simp), okBind]
    exact ih _ (fun b hb => h b (by simp [hb]))

theorem concatColumns_ok (arrays : List (List (List K))) (m : Nat) (hne : arrays ≠ []) (h : ∀ a ∈ arrays, a.length = m) :
    concatColumns arrays = .ok ((List.range m).map (fun j => arrays.flatMap (fun b => b.getD j []))) := by
  cases arrays with
  | nil => exact absurd rfl hne
  | cons a rest =>
    unfold concatColumns
    dsimp only
    rw [if_neg]
    · rw [h a (by simp)]
    · rw [Bool.not_eq_true, List.any_eq_false]
      intro b hb
      simp [h b (by simp [hb]), h a (by simp)]

/-- position of a value in a list without repetition, through `find?` on the reversed zip -/
theorem get?_zip_fold {κ ν : Type} [DecidableEq κ] (ks : List κ) (vs : List ν) (hl : ks.length = vs.length) (hnd : ks.Nodup) (i : Nat) (k : κ) (v : ν) (hk : ks[i]? = some k) (hv : vs[i]? = some v) :
    PyDict.get? ((ks.zip vs).foldl (fun (d : PyDict κ ν) bs => PyDict.set d bs.1 bs.2) []) k = some v := by
  rw [PyDict.get?_foldl_set (fun bs : κ × ν => bs.1) (fun bs => bs.2)]
  have hmem : (k, v) ∈ (ks.zip vs).reverse := by
    rw [List.mem_reverse]
    apply List.mem_of_getElem? (i := i)
    rw [List.getElem?_zip_eq_some]
    exact ⟨hk, hv⟩
  have hkeys : ((ks.zip vs).map (·.1)) = ks := List.map_fst_zip (by omega)
  cases hf : (ks.zip vs).reverse.find? (fun x => decide (x.1 = k)) with
  | none =>
    have := List.find?_eq_none.1 hf _ hmem
    simp at this
  | some x =>
    obtain ⟨k', v'⟩ := x
    have hk' : k' = k := by simpa using List.find?_some hf
    subst hk'
    have hm2 := List.mem_of_find?_eq_some hf
    rw [List.mem_reverse] at hm2 hmem
    have hnd' : ((ks.zip vs).map (·.1)).Nodup := by rw [hkeys]; exact hnd
    have := List.inj_on_of_nodup_map hnd' hm2 hmem rfl
    simp only [Option.map_some, Option.some_or]
    rw [(Prod.mk.inj this).2]

theorem perCameraCoeff_eq (le : PyStr → PyStr → Bool) (bands : List PyStr) (nleg n : Nat) (rows : List (List K)) (hnd : bands.Nodup) (halpha : "alpha".toList ∉ bands) (hb : bands ≠ [])
    (hn : n = 1 ∨ (1 < n ∧ rows.length = 1)) (hrows : ∀ c ∈ rows, c.length = n + nleg * bands.length) : perCameraCoeff le bands nleg n rows = .ok rows := by
  have halphaV : ((if 1 < n then (do
      let first ← npGet rows 0
      return [first.take n])
    else if n = 1 then .ok (rows.map (fun c => c.take 1)) else .error .indexError : Py (List (List K)))) = .ok (rows.map (fun c => c.take n)) := by
    rcases hn with rfl | ⟨h1, h2⟩
    · simp
    · rw [if_pos h1]
      obtain ⟨c, rfl⟩ := List.length_eq_one_iff.1 h2
      rfl
  unfold perCameraCoeff
  dsimp only
  rw [halphaV, okBind]
  by_cases hl : nleg = 0
  · subst hl
    simp only [Nat.lt_irrefl, if_false, show ¬ (1 ≤ 0) by omega]
    rw [okBind]
    have e : (PyDict.set ([("alpha".toList, [])] : PyDict PyStr (List (List K))) "alpha".toList (rows.map (fun c => c.take n))).map (·.2) = [rows.map (fun c => c.take n)] := by
      simp [PyDict.set]
    rw [e, concatColumns_ok _ rows.length (by simp) (by simp)]
    congr 1
    apply List.ext_getElem
    · simp
    · intro i h1 h2
      simp only [List.getElem_map, List.getElem_range, List.flatMap_cons, List.flatMap_nil, List.append_nil]
      simp only [List.getD_eq_getElem?_getD, List.getElem?_map, List.getElem?_eq_getElem h2, Option.map_some, Option.getD_some]
      exact List.take_of_length_le (by rw [hrows _ (List.getElem_mem _)]; omega)
  · have hl1 : 1 ≤ nleg := by omega
    simp only [show 0 < nleg from hl1, hl1, if_true, hb, if_false]
    set split := (List.range bands.length).map (fun i => rows.map (fun c => ((c.drop n).drop (i * nleg)).take nleg)) with hsplit
    set d0 : PyDict PyStr (List (List K)) := PyDict.set (bands.foldl (fun d b => PyDict.set d b []) [("alpha".toList, [])]) "alpha".toList (rows.map (fun c => c.take n)) with hd0
    have hk0 : PyDict.keys d0 = "alpha".toList :: bands := by
      rw [hd0, PyDict.keys_set]
      have := keys_foldl_set_new (fun b : PyStr => b) (fun _ => ([] : List (List K))) bands [("alpha".toList, [])] (by
        simp only [PyDict.keys, List.map_cons, List.map_nil, List.map_id']
        rw [List.singleton_append, List.nodup_cons]
        exact ⟨halpha, hnd⟩)
      rw [this]
      simp [PyDict.keys]
    have hold : ∀ (i : Nat) (b : PyStr), bands[i]? = some b → PyDict.get? ((bands.zip split).foldl (fun (d : PyDict PyStr (List (List K))) bs => PyDict.set d bs.1 bs.2) []) b =
        some (rows.map (fun c => ((c.drop n).drop (i * nleg)).take nleg)) := by
      intro i b hib
      have hi := (List.getElem?_eq_some_iff.1 hib).1
      apply get?_zip_fold bands split (by simp [hsplit]) hnd i b _ hib
      simp [hsplit, hi]
    set old := (bands.zip split).foldl (fun (d : PyDict PyStr (List (List K))) bs => PyDict.set d bs.1 bs.2) [] with hold'
    let val : PyStr → List (List K) := fun b => rows.map (fun c => ((c.drop n).drop (bands.idxOf b * nleg)).take nleg)
    have hget : ∀ b ∈ bands, PyDict.get old b = .ok (val b) := by
      intro b hbm
      obtain ⟨i, hi, hbi⟩ := List.getElem_of_mem hbm
      have hb? : bands[i]? = some b := by rw [List.getElem?_eq_getElem hi, hbi]
      have hidx : bands.idxOf b = i := by rw [← hbi]; exact hnd.idxOf_getElem i hi
      unfold PyDict.get
      rw [hold i b hb?]
      simp only [val, hidx]
    have hperm : ∀ b, b ∈ pySort le bands ↔ b ∈ bands := by
      intro b
      unfold pySort
      exact (List.perm_insertionSort _ bands).mem_iff
    rw [foldlM_set_ok (fun b => b) (fun b => PyDict.get old b) val (pySort le bands) d0 (fun b hbm => hget b ((hperm b).1 hbm)), okBind]
    set d1 := (pySort le bands).foldl (fun (d : PyDict PyStr (List (List K))) b => PyDict.set d b (val b)) d0 with hd1
    have hk1 : PyDict.keys d1 = "alpha".toList :: bands := by
      rw [hd1, keys_foldl_set_mem (fun b : PyStr => b) val (pySort le bands) d0 (by
        intro b hbm
        rw [hk0]
        exact List.mem_cons_of_mem _ ((hperm b).1 hbm)), hk0]
    have hget1 : ∀ k ∈ ("alpha".toList :: bands), PyDict.get? d1 k = some (if k = "alpha".toList then rows.map (fun c => c.take n) else val k) := by
      intro k hk
      rw [hd1, PyDict.get?_foldl_set (fun b : PyStr => b) val]
      by_cases hka : k = "alpha".toList
      · subst hka
        have : (pySort le bands).reverse.find? (fun x => decide (x = "alpha".toList)) = none := by
          rw [List.find?_eq_none]
          intro x hx
          rw [List.mem_reverse, hperm] at hx
          simp only [decide_eq_true_eq]
          rintro rfl
          exact halpha hx
        rw [this]
        simp [hd0, PyDict.get?_set]
      · have hkb : k ∈ bands := by
          rcases List.mem_cons.1 hk with h | h
          · exact absurd h hka
          · exact h
        cases hf : (pySort le bands).reverse.find? (fun x => decide (x = k)) with
        | none =>
          have := List.find?_eq_none.1 hf k (by rw [List.mem_reverse, hperm]; exact hkb)
          simp at this
        | some x =>
          have hx : x = k := by simpa using List.find?_some hf
          subst hx
          rw [if_neg hka]
          rfl
    have hvals := values_of_get? d1 ("alpha".toList :: bands) hk1 (List.nodup_cons.2 ⟨halpha, hnd⟩) (fun k => if k = "alpha".toList then rows.map (fun c => c.take n) else val k) hget1
    rw [hvals]
    have hmapb : ("alpha".toList :: bands).map (fun k => if k = "alpha".toList then rows.map (fun c => c.take n) else val k) = rows.map (fun c => c.take n) ::
        (List.range bands.length).map (fun i => rows.map (fun c => ((c.drop n).drop (i * nleg)).take nleg)) := by
      rw [List.map_cons, if_pos rfl]
      congr 1
      apply List.ext_getElem
      · simp
      · intro i h1 h2
        have hi : i < bands.length := by simpa using h1
        simp only [List.getElem_map, List.getElem_range]
        rw [if_neg (fun h => halpha (by rw [← h]; exact List.getElem_mem _))]
        simp only [val, hnd.idxOf_getElem i hi]
    rw [hmapb, concatColumns_ok _ rows.length (by simp) (by
      intro a ha
      rcases List.mem_cons.1 ha with rfl | ha
      · simp
      · obtain ⟨i, -, rfl⟩ := List.mem_map.1 ha
        simp)]
    congr 1
    apply List.ext_getElem
    · simp
    · intro j h1 h2
      simp only [List.getElem_map, List.getElem_range, List.flatMap_cons, List.flatMap_map]
      have eg : ∀ g : List K → List K, (rows.map g).getD j [] = g rows[j] := by
        intro g
        simp [h2]
      simp only [eg]
      rw [flatMap_chunks nleg bands.length (rows[j].drop n) (by rw [List.length_drop, hrows _ (List.getElem_mem _)]; omega), List.take_append_drop]

/-- the whole per-camera fit: one entry per archetype, in order -/
theorem perCameraFit_eq (le : PyStr → PyStr → Bool) (solve : List (List K) → List K → Py (List K)) (hso : SolverOk solve) (spectra : List (FitSpectrum ω K))
    (hnd : (spectra.map (·.wavehash)).Nodup) (bands : List PyStr) (hbl : bands.length = spectra.length) (hbn : bands.Nodup) (halpha : "alpha".toList ∉ bands) (hne : spectra ≠ [])
    (F : ω → List (List (List K))) (T : Nat → ω → List (List K)) (nleg n narch : Nat) (hn : n = 1 ∨ (1 < n ∧ narch = 1))
    (hT : ∀ j, j < narch → ∀ s ∈ spectra, (F s.wavehash)[j]? = some (T j s.wavehash)) (hS : ∀ j, j < narch → Shaped spectra (T j) (n + nleg))
    (P : Option (List (List K))) (hP : priorFits P (n + nleg * spectra.length) = true) :
    perCameraFit le solve spectra bands (spectra.map (fun s => (s.wavehash, F s.wavehash))) (spectralData spectra).1 (spectralData spectra).2.1 (spectralData spectra).2.2 nleg narch n P =
      .ok ((List.range narch).map (fun j => (fitOf solve spectra (cameraDesign spectra (T j) n nleg) (n + nleg * spectra.length) P).1),
        (List.range narch).map (fun j => (fitOf solve spectra (cameraDesign spectra (T j) n nleg) (n + nleg * spectra.length) P).2)) := by
  unfold perCameraFit
  dsimp only
  rw [hbl, mapM_Except_ok _ (fun j => fitOf solve spectra (cameraDesign spectra (T j) n nleg) (n + nleg * spectra.length) P), okBind]
  · simp only [List.map_map]
    rw [show (Prod.snd ∘ fun j => fitOf solve spectra (cameraDesign spectra (T j) n nleg) (n + nleg * spectra.length) P) =
      (fun j => (fitOf solve spectra (cameraDesign spectra (T j) n nleg) (n + nleg * spectra.length) P).2) from rfl,
      perCameraCoeff_eq le bands nleg n _ hbn halpha (by intro h; rw [h] at hbl; exact hne (List.eq_nil_of_length_eq_zero hbl.symm)) (by
        rcases hn with h | h
        · exact Or.inl h
        · exact Or.inr ⟨h.1, by simp [h.2]⟩) (by
        intro c hc
        obtain ⟨j, -, rfl⟩ := List.mem_map.1 hc
        rw [hbl]
        unfold fitOf
        split
        · simp
        · have := hso (addPrior (normalMatrixOf spectra (cameraDesign spectra (T j) n nleg) (n + nleg * spectra.length)) P)
            (normalVectorOf spectra (cameraDesign spectra (T j) n nleg) (n + nleg * spectra.length))
          revert this
          cases solve _ _ with
          | ok c => intro h; simpa [normalVectorOf] using h
          | error e => intro _; simp)]
    rfl
  · intro j hj
    rw [List.mem_range] at hj
    exact perCameraOne_eq solve hso spectra hnd F (T j) nleg n j (hT j hj) (hS j hj) P hP

end
end Redrock
