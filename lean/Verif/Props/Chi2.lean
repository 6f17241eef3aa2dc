import Verif.Lemmas.Chi2
import Verif.Lemmas.Zfind
import Verif.Props.Rebin
import Mathlib.Tactic.IntervalCases

/-! Properties C37, C38, C39, C40, C62. -/
set_option linter.unusedSectionVars false
namespace Redrock
section
variable {K ω : Type} [Field K] [LinearOrder K] [IsStrictOrderedRing K] [DecidableEq ω]

/-- Specification: at redshift number `i` the template dictionary holds the binned template `T h` for the wavelength grid of every spectrum. -/
def HasTemplate (spectra : List (FitSpectrum ω K)) (tdata : PyDict ω (List (List (List K)))) (i : Nat) (T : ω → List (List K)) : Prop :=
  ∀ s ∈ spectra, ∃ t, tdata.get? s.wavehash = some t ∧ t[i]? = some (T s.wavehash)

theorem dotProductSparseOne_eq {spectra : List (FitSpectrum ω K)} {tdata : PyDict ω (List (List (List K)))} {nbasis i : Nat} {T : ω → List (List K)}
    (h : HasTemplate spectra tdata i T) : dotProductSparseOne spectra tdata nbasis i = .ok (spectra.flatMap (fun s => matMul s.R (T s.wavehash) nbasis)) := by
  unfold dotProductSparseOne
  rw [mapM_Except_ok _ (fun s => matMul s.R (T s.wavehash) nbasis)]
  · rfl
  · intro s hs
    obtain ⟨t, h1, h2⟩ := h s hs
    simp only [h1, (npGet_ok t i _).2 h2]
    rfl

private theorem getD_map_range (n : Nat) (g : Nat → K) (j : Nat) (hj : j < n) : ((List.range n).map g).getD j 0 = g j := by simp [hj]

private theorem normalM_getD (Tb : List (List K)) (w : List K) (n j k : Nat) (hj : j < n) (hk : k < n) :
    ((normalM Tb w n).getD j []).getD k 0 = dotv (col Tb j) (List.zipWith (· * ·) w (col Tb k)) := by
  simp [normalM, hj, hk]

/-- prior entries -/
def priorAt (P : Option (List (List K))) (j k : Nat) : K := match P with
  | none => 0
  | some P => (P.getD j []).getD k 0

private theorem addPrior_getD (M : List (List K)) (P : Option (List (List K))) (n j k : Nat) (hM : M.length = n) (hM' : ∀ r ∈ M, r.length = n)
    (hP : ∀ Q, P = some Q → Q.length = n ∧ ∀ r ∈ Q, r.length = n) (hj : j < n) (hk : k < n) :
    ((addPrior M P).getD j []).getD k 0 = (M.getD j []).getD k 0 + priorAt P j k := by
  cases P with
  | none => simp [addPrior, priorAt]
  | some Q =>
    obtain ⟨h1, h2⟩ := hP Q rfl
    have hjM : j < M.length := by omega
    have hjQ : j < Q.length := by omega
    have a1 : k < (M[j]).length := by rw [hM' _ (List.getElem_mem _)]; exact hk
    have a2 : k < (Q[j]).length := by rw [h2 _ (List.getElem_mem _)]; exact hk
    simp only [addPrior, priorAt, List.getD_eq_getElem?_getD, List.getElem?_zipWith, List.getElem?_eq_getElem hjM, List.getElem?_eq_getElem hjQ, Option.getD_some,
      List.getElem?_eq_getElem a1, List.getElem?_eq_getElem a2]

/-- `vᵀ P v` for the optional prior -/
def priorForm (P : Option (List (List K))) (n : Nat) (v : List K) : K := match P with
  | none => 0
  | some P => quadForm P n v

/-- Specification of an admissible prior matrix: right shape, symmetric, positive semidefinite. (The code's own prior is diagonal with entries `0` and `1/sigma²`.) -/
def PriorOk (n : Nat) (P : List (List K)) : Prop :=
  (P.length = n ∧ ∀ r ∈ P, r.length = n) ∧ (∀ j k, j < n → k < n → (P.getD j []).getD k 0 = (P.getD k []).getD j 0) ∧ ∀ v : List K, v.length = n → 0 ≤ quadForm P n v

private theorem priorForm_expand (P : Option (List (List K))) (n : Nat) (hP : ∀ Q, P = some Q → PriorOk n Q) (c c' : List K) (hc : c.length = n) (hc' : c'.length = n) :
    priorForm P n c + 2 * ∑ j ∈ Finset.range n, (c'.getD j 0 - c.getD j 0) * ∑ k ∈ Finset.range n, priorAt P j k * c.getD k 0 ≤ priorForm P n c' := by
  cases P with
  | none => simp [priorForm, priorAt]
  | some Q =>
    obtain ⟨h1, h2, h3⟩ := hP Q rfl
    have hd := h3 (List.zipWith (· - ·) c' c) (by simp [hc, hc'])
    have hdd : ∀ j, j < n → (List.zipWith (· - ·) c' c).getD j 0 = c'.getD j 0 - c.getD j 0 := by
      intro j hj
      simp [List.getElem?_zipWith, show j < c.length by omega, show j < c'.length by omega]
    have hsym : ∑ j ∈ Finset.range n, c.getD j 0 * ∑ k ∈ Finset.range n, (Q.getD j []).getD k 0 * (c'.getD k 0 - c.getD k 0) =
        ∑ j ∈ Finset.range n, (c'.getD j 0 - c.getD j 0) * ∑ k ∈ Finset.range n, (Q.getD j []).getD k 0 * c.getD k 0 := by
      simp only [Finset.mul_sum]
      rw [Finset.sum_comm]
      apply Finset.sum_congr rfl
      intro j hj
      apply Finset.sum_congr rfl
      intro k hk
      rw [Finset.mem_range] at hj hk
      rw [h2 k j hk hj]
      ring
    have hq : quadForm Q n c' = quadForm Q n c + quadForm Q n (List.zipWith (· - ·) c' c) +
        2 * ∑ j ∈ Finset.range n, (c'.getD j 0 - c.getD j 0) * ∑ k ∈ Finset.range n, (Q.getD j []).getD k 0 * c.getD k 0 := by
      have e1 : quadForm Q n (List.zipWith (· - ·) c' c) =
          ∑ j ∈ Finset.range n, (c'.getD j 0 - c.getD j 0) * ∑ k ∈ Finset.range n, (Q.getD j []).getD k 0 * (c'.getD k 0 - c.getD k 0) := by
        unfold quadForm
        apply Finset.sum_congr rfl
        intro j hj
        rw [hdd j (Finset.mem_range.1 hj)]
        congr 1
        apply Finset.sum_congr rfl
        intro k hk
        rw [hdd k (Finset.mem_range.1 hk)]
      rw [e1, two_mul]
      nth_rewrite 1 [← hsym]
      unfold quadForm
      rw [← Finset.sum_add_distrib, ← Finset.sum_add_distrib, ← Finset.sum_add_distrib]
      apply Finset.sum_congr rfl
      intro j _
      have e2 : ∑ k ∈ Finset.range n, (Q.getD j []).getD k 0 * (c'.getD k 0 - c.getD k 0) =
          ∑ k ∈ Finset.range n, (Q.getD j []).getD k 0 * c'.getD k 0 - ∑ k ∈ Finset.range n, (Q.getD j []).getD k 0 * c.getD k 0 := by
        rw [← Finset.sum_sub_distrib]
        apply Finset.sum_congr rfl
        intro k _
        ring
      rw [e2]
      ring
    show quadForm Q n c + 2 * ∑ j ∈ Finset.range n, (c'.getD j 0 - c.getD j 0) * ∑ k ∈ Finset.range n, (Q.getD j []).getD k 0 * c.getD k 0 ≤ quadForm Q n c'
    rw [hq]
    linarith

/-- one redshift: the chi2 is the specified one; if the solver solved its equations, chi2 plus prior is minimal -/
theorem fitOne_spec (solve : List (List K) → List K → Py (List K)) (spectra : List (FitSpectrum ω K)) (T : ω → List (List K)) (nbasis : Nat) (h : Shaped spectra T nbasis)
    (hw : ∀ s ∈ spectra, ∀ v ∈ s.ivar, 0 ≤ v) (P : Option (List (List K))) (hP : ∀ Q, P = some Q → PriorOk nbasis Q) (c : List K)
    (hs : solve (addPrior (normalM (spectra.flatMap (fun s => matMul s.R (T s.wavehash) nbasis)) (spectra.flatMap (·.ivar)) nbasis) P)
        (normalY (spectra.flatMap (fun s => matMul s.R (T s.wavehash) nbasis)) (spectralData spectra).2.2 nbasis) = .ok c) (hcl : c.length = nbasis) :
    (fitOne solve (spectra.flatMap (fun s => matMul s.R (T s.wavehash) nbasis)) (spectra.flatMap (·.ivar)) (spectra.flatMap (·.flux)) (spectralData spectra).2.2 nbasis P =
      .ok (chi2Of spectra T nbasis c, c)) ∧ 0 ≤ chi2Of spectra T nbasis c ∧
    (Solves nbasis (addPrior (normalM (spectra.flatMap (fun s => matMul s.R (T s.wavehash) nbasis)) (spectra.flatMap (·.ivar)) nbasis) P)
        (normalY (spectra.flatMap (fun s => matMul s.R (T s.wavehash) nbasis)) (spectralData spectra).2.2 nbasis) c →
      ∀ c' : List K, c'.length = nbasis → chi2Of spectra T nbasis c + priorForm P nbasis c ≤ chi2Of spectra T nbasis c' + priorForm P nbasis c') := by
  obtain ⟨m1, m2, m3⟩ := pixOf_flatMap T nbasis spectra h
  have hpix := chi2_pix_eq_spec spectra T nbasis h
  have hlen : ∀ p ∈ spectra.flatMap (pixOf T nbasis), p.2.2.length = nbasis := by
    intro p hp
    have : p.2.2 ∈ (spectra.flatMap (pixOf T nbasis)).map (·.2.2) := List.mem_map_of_mem hp
    rw [m3, List.mem_flatMap] at this
    obtain ⟨s, _, hs⟩ := this
    simp only [matMul, List.mem_map] at hs
    obtain ⟨r, _, hr⟩ := hs
    rw [← hr]; simp
  have hwp : ∀ p ∈ spectra.flatMap (pixOf T nbasis), 0 ≤ p.1 := by
    intro p hp
    have : p.1 ∈ (spectra.flatMap (pixOf T nbasis)).map (·.1) := List.mem_map_of_mem hp
    rw [m1, List.mem_flatMap] at this
    obtain ⟨s, h1, h2⟩ := this
    exact hw s h1 _ h2
  have hwf : (spectralData spectra).2.2 = List.zipWith (· * ·) (spectra.flatMap (·.ivar)) (spectra.flatMap (·.flux)) := rfl
  rw [hwf] at hs ⊢
  rw [← m1, ← m2, ← m3] at hs ⊢
  generalize spectra.flatMap (pixOf T nbasis) = Px at *
  refine ⟨?_, ?_, ?_⟩
  · unfold fitOne
    rw [hs]
    dsimp only
    rw [chi2_pixels, hpix c hcl]
  · rw [← hpix c hcl]
    apply List.sum_nonneg
    intro v hv
    rw [List.mem_map] at hv
    obtain ⟨p, hp, rfl⟩ := hv
    exact mul_nonneg (hwp p hp) (sq_nonneg _)
  · rintro ⟨-, hsol⟩ c' hc'
    rw [← hpix c hcl, ← hpix c' hc', chi2_expand Px nbasis hlen c c' hcl hc']
    have hquad : 0 ≤ (Px.map (fun p => p.1 * (dotv p.2.2 c' - dotv p.2.2 c) ^ 2)).sum := by
      apply List.sum_nonneg
      intro v hv
      rw [List.mem_map] at hv
      obtain ⟨p, hp, rfl⟩ := hv
      exact mul_nonneg (hwp p hp) (sq_nonneg _)
    have hpr := priorForm_expand P nbasis hP c c' hcl hc'
    have hgrad : ∀ j ∈ Finset.range nbasis, (∑ k ∈ Finset.range nbasis, (Px.map (fun p => p.1 * p.2.2.getD j 0 * p.2.2.getD k 0)).sum * c.getD k 0 -
        (Px.map (fun p => p.1 * p.2.2.getD j 0 * p.2.1)).sum) = - ∑ k ∈ Finset.range nbasis, priorAt P j k * c.getD k 0 := by
      intro j hj
      have hj' := Finset.mem_range.1 hj
      have e := hsol j hj'
      have ey : (normalY (Px.map (·.2.2)) (List.zipWith (· * ·) (Px.map (·.1)) (Px.map (·.2.1))) nbasis).getD j 0 = (Px.map (fun p => p.1 * p.2.2.getD j 0 * p.2.1)).sum := by
        rw [← normalY_pixels]
        exact getD_map_range nbasis _ j hj'
      rw [ey] at e
      rw [← e, ← Finset.sum_sub_distrib, ← Finset.sum_neg_distrib]
      apply Finset.sum_congr rfl
      intro k hk
      have hk' := Finset.mem_range.1 hk
      rw [addPrior_getD _ P nbasis j k (by simp [normalM]) (by simp [normalM]) (fun Q hQ => (hP Q hQ).1) hj' hk', normalM_getD _ _ _ _ _ hj' hk', normalM_pixels]
      ring
    rw [Finset.sum_congr rfl (fun j hj => by rw [hgrad j hj])]
    simp only [mul_neg, Finset.sum_neg_distrib]
    linarith

/-- the solver raised one of the two exceptions the code catches -/
def Caught (e : PyErr) : Prop := e = .linAlgError ∨ e = .notImplemented

/-- **C39** (and the shape of the result) for data with non-zero total weight, `calc_zchi2_batch` gives one entry per redshift. The entry of redshift `i` depends only on that redshift: if the solver
returns coefficients `c` for its normal equations, it is the weighted squared residual of `c`, and `c`; if the solver raises `LinAlgError` or `NotImplementedError`, it is
exactly 9999999 with all coefficients 0. -/
theorem C39_batch_entries (solve : List (List K) → List K → Py (List K)) (spectra : List (FitSpectrum ω K)) (tdata : PyDict ω (List (List (List K)))) (nz nbasis : Nat)
    (T : Nat → ω → List (List K)) (hT : ∀ i, i < nz → HasTemplate spectra tdata i (T i)) (hS : ∀ i, i < nz → Shaped spectra (T i) nbasis)
    (P : Option (List (List K))) (hsum : (spectra.flatMap (·.ivar)).sum ≠ 0)
    (hsol : ∀ i, i < nz → match solve (addPrior (normalMatrixOf spectra (T i) nbasis) P) (normalVectorOf spectra (T i) nbasis) with
      | .ok c => c.length = nbasis
      | .error e => Caught e) :
    ∃ r, calcZchi2Batch solve spectra tdata (spectralData spectra).1 (spectralData spectra).2.1 (spectralData spectra).2.2 nz nbasis P = .ok r ∧ r.length = nz ∧
      ∀ i, i < nz →
        (∀ c, solve (addPrior (normalMatrixOf spectra (T i) nbasis) P) (normalVectorOf spectra (T i) nbasis) = .ok c → r[i]? = some (chi2Of spectra (T i) nbasis c, c)) ∧
        ((∀ c, solve (addPrior (normalMatrixOf spectra (T i) nbasis) P) (normalVectorOf spectra (T i) nbasis) ≠ .ok c) → r[i]? = some (9999999, List.replicate nbasis 0)) := by
  have hone : ∀ i ∈ List.range nz, ∃ b, (do
      let Tb ← dotProductSparseOne spectra tdata nbasis i
      fitOne solve Tb (spectralData spectra).1 (spectralData spectra).2.1 (spectralData spectra).2.2 nbasis P : Py (K × List K)) = .ok b ∧
      ((∀ c, solve (addPrior (normalMatrixOf spectra (T i) nbasis) P) (normalVectorOf spectra (T i) nbasis) = .ok c → b = (chi2Of spectra (T i) nbasis c, c)) ∧
        ((∀ c, solve (addPrior (normalMatrixOf spectra (T i) nbasis) P) (normalVectorOf spectra (T i) nbasis) ≠ .ok c) → b = (9999999, List.replicate nbasis 0))) := by
    intro i hi
    rw [List.mem_range] at hi
    rw [dotProductSparseOne_eq (hT i hi), okBind]
    obtain ⟨n1, n2⟩ := normal_eq_spec spectra (T i) nbasis (hS i hi)
    have hd := hsol i hi
    cases hs : solve (addPrior (normalMatrixOf spectra (T i) nbasis) P) (normalVectorOf spectra (T i) nbasis) with
    | ok c =>
      rw [hs] at hd
      refine ⟨(chi2Of spectra (T i) nbasis c, c), ?_, ?_, ?_⟩
      · obtain ⟨m1, m2, m3⟩ := pixOf_flatMap (T i) nbasis spectra (hS i hi)
        have hpix := chi2_pix_eq_spec spectra (T i) nbasis (hS i hi) c hd
        unfold fitOne
        show (match solve (addPrior (normalM _ (spectra.flatMap (·.ivar)) nbasis) P) _ with
          | .ok c => _
          | .error .linAlgError => _
          | .error .notImplemented => _
          | .error e => _ : Py (K × List K)) = _
        rw [n1, n2, hs]
        dsimp only
        show (Except.ok (dotv ((List.zipWith (· - ·) (spectra.flatMap (·.flux)) (matVec _ c)).map (fun r => r ^ 2)) (spectra.flatMap (·.ivar)), c) : Py _) = _
        rw [← m1, ← m2, ← m3, chi2_pixels, hpix]
      · intro c' hc'; cases hc'; rfl
      · intro h; exact absurd rfl (h c)
    | error e =>
      rw [hs] at hd
      refine ⟨(9999999, List.replicate nbasis 0), ?_, ?_, ?_⟩
      · unfold fitOne
        show (match solve (addPrior (normalM _ (spectra.flatMap (·.ivar)) nbasis) P) _ with
          | .ok c => _
          | .error .linAlgError => _
          | .error .notImplemented => _
          | .error e => _ : Py (K × List K)) = _
        rw [n1, n2, hs]
        rcases hd with rfl | rfl <;> rfl
      · intro c' hc'; cases hc'
      · intro _; rfl
  obtain ⟨r, h1, h2⟩ := mapM_forall₂ _ _ _ hone
  obtain ⟨hl, hall⟩ := List.forall₂_iff_get.1 h2
  rw [List.length_range] at hl
  refine ⟨r, ?_, hl.symm, ?_⟩
  · unfold calcZchi2Batch
    rw [if_neg (show ¬ (spectralData spectra).1.sum = 0 from hsum)]
    exact h1
  · intro i hi
    obtain ⟨q1, q2⟩ := hall i (by rw [List.length_range]; exact hi) (by omega)
    simp only [List.get_eq_getElem, List.getElem_range] at q1 q2
    rw [List.getElem?_eq_getElem (by omega)]
    exact ⟨fun c hc => by rw [q1 c hc], fun h => by rw [q2 h]⟩

/-- **C39** data without any weight (all inverse variances 0) are not fitted: 9999999 and zero coefficients at every redshift, whatever the template and the solver. -/
theorem C39_no_weight (solve : List (List K) → List K → Py (List K)) (spectra : List (FitSpectrum ω K)) (tdata : PyDict ω (List (List (List K)))) (nz nbasis : Nat)
    (P : Option (List (List K))) (hw : ∀ s ∈ spectra, ∀ v ∈ s.ivar, v = 0) :
    calcZchi2Batch solve spectra tdata (spectralData spectra).1 (spectralData spectra).2.1 (spectralData spectra).2.2 nz nbasis P =
      .ok (List.replicate nz (9999999, List.replicate nbasis 0)) := by
  unfold calcZchi2Batch
  rw [if_pos]
  · rfl
  · apply List.sum_eq_zero
    intro v hv
    obtain ⟨s, h1, h2⟩ := List.mem_flatMap.1 hv
    exact hw s h1 v h2

/-- With non-negative weights the sum vanishes only if all do, so the two theorems above cover all data. -/
theorem C39_weight_sum (spectra : List (FitSpectrum ω K)) (hw : ∀ s ∈ spectra, ∀ v ∈ s.ivar, 0 ≤ v) :
    (spectra.flatMap (·.ivar)).sum = 0 ↔ ∀ s ∈ spectra, ∀ v ∈ s.ivar, v = 0 := by
  have key : ∀ l : List K, (∀ v ∈ l, 0 ≤ v) → (l.sum = 0 ↔ ∀ v ∈ l, v = 0) := by
    intro l hl
    induction l with
    | nil => simp
    | cons a l ih =>
      have h1 := ih (fun v hv => hl v (List.mem_cons_of_mem _ hv))
      have h2 := hl a (by simp)
      have h3 := List.sum_nonneg (fun v hv => hl v (List.mem_cons_of_mem a hv))
      rw [List.sum_cons]
      constructor
      · intro h v hv
        have ha : a = 0 := by linarith
        rcases List.mem_cons.1 hv with rfl | hv
        · exact ha
        · exact h1.1 (by linarith) v hv
      · intro h
        rw [h a (by simp), h1.2 (fun v hv => h v (List.mem_cons_of_mem _ hv)), add_zero]
  rw [key]
  · constructor
    · intro h s hs v hv; exact h v (List.mem_flatMap.2 ⟨s, hs, hv⟩)
    · intro h v hv
      obtain ⟨s, h1, h2⟩ := List.mem_flatMap.1 hv
      exact h s h1 v h2
  · intro v hv
    obtain ⟨s, h1, h2⟩ := List.mem_flatMap.1 hv
    exact hw s h1 v h2

/-- **C37** with non-negative inverse variances: whenever the solver returns a solution of the normal equations it was given, the chi2 of that redshift is non-negative and is the
minimum, over all coefficient vectors, of the weighted squared residuals — plus, if a prior is given, the prior's quadratic form, which is part of the minimised function but not of the
reported chi2. -/
theorem C37_least_squares (solve : List (List K) → List K → Py (List K)) (spectra : List (FitSpectrum ω K)) (tdata : PyDict ω (List (List (List K)))) (nz nbasis : Nat)
    (T : Nat → ω → List (List K)) (hT : ∀ i, i < nz → HasTemplate spectra tdata i (T i)) (hS : ∀ i, i < nz → Shaped spectra (T i) nbasis)
    (hw : ∀ s ∈ spectra, ∀ v ∈ s.ivar, 0 ≤ v)
    (P : Option (List (List K))) (hP : ∀ Q, P = some Q → PriorOk nbasis Q) (hsum : (spectra.flatMap (·.ivar)).sum ≠ 0)
    (hsol : ∀ i, i < nz → ∃ c, solve (addPrior (normalMatrixOf spectra (T i) nbasis) P) (normalVectorOf spectra (T i) nbasis) = .ok c ∧
      Solves nbasis (addPrior (normalMatrixOf spectra (T i) nbasis) P) (normalVectorOf spectra (T i) nbasis) c) :
    ∃ r, calcZchi2Batch solve spectra tdata (spectralData spectra).1 (spectralData spectra).2.1 (spectralData spectra).2.2 nz nbasis P = .ok r ∧ r.length = nz ∧
      ∀ i, i < nz → ∃ chi2 c, r[i]? = some (chi2, c) ∧ c.length = nbasis ∧ chi2 = chi2Of spectra (T i) nbasis c ∧ 0 ≤ chi2 ∧
        ∀ c' : List K, c'.length = nbasis → chi2 + priorForm P nbasis c ≤ chi2Of spectra (T i) nbasis c' + priorForm P nbasis c' := by
  obtain ⟨r, h1, h2, h3⟩ := C39_batch_entries solve spectra tdata nz nbasis T hT hS P hsum (by
    intro i hi
    obtain ⟨c, hc, hc2⟩ := hsol i hi
    rw [hc]
    exact hc2.1)
  refine ⟨r, h1, h2, ?_⟩
  intro i hi
  obtain ⟨c, hc, hc2⟩ := hsol i hi
  obtain ⟨n1, n2⟩ := normal_eq_spec spectra (T i) nbasis (hS i hi)
  obtain ⟨_, f2, f3⟩ := fitOne_spec solve spectra (T i) nbasis (hS i hi) hw P hP c (by rw [n1, n2]; exact hc) hc2.1
  exact ⟨_, c, (h3 i hi).1 c hc, hc2.1, rfl, f2, f3 (by rw [n1, n2]; exact hc2)⟩

/-! ### masked pixels -/

/-- Specification: the same spectrum except for flux values in pixels with zero inverse variance. -/
def SameUnmasked (s s' : FitSpectrum ω K) : Prop :=
  s.wavehash = s'.wavehash ∧ s.ivar = s'.ivar ∧ s.R = s'.R ∧ s.ivar.length = s.flux.length ∧ s.flux.length = s'.flux.length ∧
    ∀ (p : Nat) (w : K), s.ivar[p]? = some w → w ≠ 0 → s.flux[p]? = s'.flux[p]?

/-- pixelwise agreement where the weight is non-zero -/
private inductive Agree : List K → List K → List K → Prop
  | nil : Agree [] [] []
  | cons (w f f' : K) {ws fs fs' : List K} (h : w ≠ 0 → f = f') (t : Agree ws fs fs') : Agree (w :: ws) (f :: fs) (f' :: fs')

private theorem agree_of (w f f' : List K) (h1 : w.length = f.length) (h2 : f.length = f'.length) (h : ∀ (p : Nat) (v : K), w[p]? = some v → v ≠ 0 → f[p]? = f'[p]?) : Agree w f f' := by
  induction w generalizing f f' with
  | nil =>
    have : f = [] := List.length_eq_zero_iff.1 h1.symm
    subst this
    have : f' = [] := List.length_eq_zero_iff.1 h2.symm
    subst this
    exact .nil
  | cons a w ih =>
    cases f with
    | nil => simp at h1
    | cons b f =>
      cases f' with
      | nil => simp at h2
      | cons b' f' =>
        refine .cons a b b' (fun hne => ?_) (ih f f' (by simpa using h1) (by simpa using h2) (fun p v hv hne => ?_))
        · simpa using h 0 a rfl hne
        · simpa using h (p + 1) v (by simpa using hv) hne

private theorem Agree.append {w f f' w2 f2 f2' : List K} (h : Agree w f f') (h2 : Agree w2 f2 f2') : Agree (w ++ w2) (f ++ f2) (f' ++ f2') := by
  induction h with
  | nil => exact h2
  | cons w f f' h t ih => exact .cons w f f' h ih

private theorem Agree.wflux {w f f' : List K} (h : Agree w f f') : List.zipWith (· * ·) w f = List.zipWith (· * ·) w f' := by
  induction h with
  | nil => rfl
  | cons w f f' h t ih =>
    rw [List.zipWith_cons_cons, List.zipWith_cons_cons, ih]
    by_cases hw : w = 0
    · rw [hw, zero_mul, zero_mul]
    · rw [h hw]

private theorem Agree.chi2 {w f f' : List K} (h : Agree w f f') : ∀ m : List K, dotv ((List.zipWith (· - ·) f m).map (fun r => r ^ 2)) w = dotv ((List.zipWith (· - ·) f' m).map (fun r => r ^ 2)) w := by
  induction h with
  | nil => intro m; rfl
  | cons w f f' h t ih =>
    intro m
    cases m with
    | nil => rfl
    | cons a m =>
      rw [List.zipWith_cons_cons, List.zipWith_cons_cons, List.map_cons, List.map_cons, dotv_cons, dotv_cons, ih m]
      by_cases hw : w = 0
      · rw [hw, mul_zero, mul_zero]
      · rw [h hw]

/-- **C38** flux values in pixels with zero inverse variance have no influence: chi2, coefficients and penalty of the scan are the same at every redshift, whatever the solver does with
its input, and errors are the same too. -/
theorem C38_masked_pixels (solve : List (List K) → List K → Py (List K)) (spectra spectra' : List (FitSpectrum ω K)) (tdata : PyDict ω (List (List (List K)))) (nz nbasis : Nat)
    (oii : Option (List (List K) × Nat)) (h : List.Forall₂ SameUnmasked spectra spectra') :
    calcZchi2Target solve spectra tdata nz nbasis oii = calcZchi2Target solve spectra' tdata nz nbasis oii := by
  have hw : spectra.flatMap (·.ivar) = spectra'.flatMap (·.ivar) := by
    induction h with
    | nil => rfl
    | cons a _ ih => rw [List.flatMap_cons, List.flatMap_cons, ih, a.2.1]
  have hag : Agree (spectra.flatMap (·.ivar)) (spectra.flatMap (·.flux)) (spectra'.flatMap (·.flux)) := by
    clear hw
    induction h with
    | nil => exact .nil
    | cons a _ ih =>
      rw [List.flatMap_cons, List.flatMap_cons, List.flatMap_cons]
      exact (agree_of _ _ _ a.2.2.2.1 a.2.2.2.2.1 a.2.2.2.2.2).append ih
  have hT : ∀ i, dotProductSparseOne spectra tdata nbasis i = dotProductSparseOne spectra' tdata nbasis i := by
    intro i
    clear hw hag
    unfold dotProductSparseOne
    have : spectra.mapM (fun s => match tdata.get? s.wavehash with
        | none => Except.error PyErr.keyError
        | some t => do
          let ti ← npGet t i
          return matMul s.R ti nbasis) = spectra'.mapM (fun s => match tdata.get? s.wavehash with
        | none => Except.error PyErr.keyError
        | some t => do
          let ti ← npGet t i
          return matMul s.R ti nbasis) := by
      induction h with
      | nil => rfl
      | cons a _ ih => rw [List.mapM_cons, List.mapM_cons, ih, a.1, a.2.2.1]
    exact congrArg (fun (m : Py (List (List (List K)))) => m >>= fun Tb => (.ok Tb.flatten : Py _)) this
  have hfit : ∀ Tb, fitOne solve Tb (spectra.flatMap (·.ivar)) (spectra.flatMap (·.flux)) (List.zipWith (· * ·) (spectra.flatMap (·.ivar)) (spectra.flatMap (·.flux))) nbasis none =
      fitOne solve Tb (spectra.flatMap (·.ivar)) (spectra'.flatMap (·.flux)) (List.zipWith (· * ·) (spectra.flatMap (·.ivar)) (spectra'.flatMap (·.flux))) nbasis none := by
    intro Tb
    unfold fitOne
    rw [hag.wflux]
    split <;> simp only [hag.chi2]
  have hb : calcZchi2Batch solve spectra tdata (spectra.flatMap (·.ivar)) (spectra.flatMap (·.flux)) (List.zipWith (· * ·) (spectra.flatMap (·.ivar)) (spectra.flatMap (·.flux))) nz nbasis none =
      calcZchi2Batch solve spectra' tdata (spectra'.flatMap (·.ivar)) (spectra'.flatMap (·.flux)) (List.zipWith (· * ·) (spectra'.flatMap (·.ivar)) (spectra'.flatMap (·.flux))) nz nbasis none := by
    rw [← hw]
    unfold calcZchi2Batch
    simp only [hT, hfit]
  unfold calcZchi2Target
  rw [show spectralData spectra = (spectra.flatMap (·.ivar), spectra.flatMap (·.flux), List.zipWith (· * ·) (spectra.flatMap (·.ivar)) (spectra.flatMap (·.flux))) from rfl,
    show spectralData spectra' = (spectra'.flatMap (·.ivar), spectra'.flatMap (·.flux), List.zipWith (· * ·) (spectra'.flatMap (·.ivar)) (spectra'.flatMap (·.flux))) from rfl]
  dsimp only
  by_cases hz : (spectra.flatMap (·.ivar)).sum = 0
  · rw [if_pos hz, if_pos (by rw [← hw]; exact hz)]
  · rw [if_neg hz, if_neg (by rw [← hw]; exact hz), hb]

/-! ### [OII] penalty -/

/-- Specification: the [OII] flux of the model with coefficients `c`: `Σ_w Σ_b c[b] oii[b][w]`. -/
def oiiFluxOf (oii : List (List K)) (nwave nbasis : Nat) (c : List K) : K :=
  ∑ w ∈ Finset.range nwave, ∑ b ∈ Finset.range nbasis, c.getD b 0 * (oii.getD b []).getD w 0

/-- **C40** one penalty per redshift; it is 0 where the model's [OII] flux is non-negative and minus that flux where it is negative; so it is never negative and positive exactly for negative flux. -/
theorem C40_penalty (oii : List (List K)) (nwave nbasis : Nat) (hb : oii.length = nbasis) (coeffs : List (List K)) (hc : ∀ c ∈ coeffs, c.length = nbasis) :
    List.Forall₂ (fun c pen => (0 ≤ oiiFluxOf oii nwave nbasis c → pen = 0) ∧ (oiiFluxOf oii nwave nbasis c < 0 → pen = -oiiFluxOf oii nwave nbasis c) ∧ 0 ≤ pen ∧
      (0 < pen ↔ oiiFluxOf oii nwave nbasis c < 0)) coeffs (negOIIPenalty oii nwave coeffs) := by
  unfold negOIIPenalty
  rw [List.forall₂_map_right_iff]
  apply List.forall₂_same.2
  intro c hcm
  have e : oiiFlux oii nwave c = oiiFluxOf oii nwave nbasis c := by
    unfold oiiFlux oiiFluxOf
    rw [Finset.sum_range, ← List.sum_ofFn, List.ofFn_eq_map]
    rw [← List.map_coe_finRange_eq_range, List.map_map]
    apply congrArg List.sum
    apply List.map_congr_left
    intro w _
    simp only [Function.comp]
    rw [dotv_eq_sum c _ nbasis (hc c hcm) (by simp [col, hb])]
    apply Finset.sum_congr rfl
    intro b hb'
    rw [Finset.mem_range] at hb'
    have : (col oii ↑w).getD b 0 = (oii.getD b []).getD (↑w) 0 := by simp [col, show b < oii.length by omega]
    rw [this]
  rw [e]
  by_cases h : oiiFluxOf oii nwave nbasis c < 0
  · rw [if_pos h, mul_one]
    exact ⟨fun h' => by linarith, fun _ => rfl, by linarith, ⟨fun _ => h, fun _ => by linarith⟩⟩
  · rw [if_neg h, mul_zero]
    exact ⟨fun _ => rfl, fun h' => absurd h' h, le_refl _, ⟨fun h' => absurd h' (lt_irrefl _), fun h' => absurd h' h⟩⟩

/-- Specification of the penalty of a model with coefficients `c`: minus its [OII] flux if that is negative, otherwise (and for templates without [OII] part) 0. -/
def penaltyOf (oii : Option (List (List K) × Nat)) (nbasis : Nat) (c : List K) : K :=
  match oii with
  | none => 0
  | some (t, nw) => if oiiFluxOf t nw nbasis c < 0 then -oiiFluxOf t nw nbasis c else 0

/-- the penalties the code reports -/
private def pensOf (oii : Option (List (List K) × Nat)) (nz : Nat) (coeffs : List (List K)) : List K :=
  match oii with
  | none => List.replicate nz 0
  | some (t, nw) => negOIIPenalty t nw coeffs

/-- **C40, C39** the scan of one target (`calc_zchi2`): one chi2, coefficient vector and penalty per redshift. Chi2 and coefficients are those of the fit (9999999 and zeros where the solver failed);
the penalty is the one above for the reported coefficients if the template has an [OII] part (so 0 where the solver failed), and 0 everywhere if not. -/
theorem C40_scan_of_target (solve : List (List K) → List K → Py (List K)) (spectra : List (FitSpectrum ω K)) (tdata : PyDict ω (List (List (List K)))) (nz nbasis : Nat)
    (oii : Option (List (List K) × Nat)) (hoii : ∀ t nw, oii = some (t, nw) → t.length = nbasis)
    (T : Nat → ω → List (List K)) (hT : ∀ i, i < nz → HasTemplate spectra tdata i (T i)) (hS : ∀ i, i < nz → Shaped spectra (T i) nbasis)
    (hsum : (spectra.flatMap (·.ivar)).sum ≠ 0)
    (hsol : ∀ i, i < nz → match solve (normalMatrixOf spectra (T i) nbasis) (normalVectorOf spectra (T i) nbasis) with
      | .ok c => c.length = nbasis
      | .error e => Caught e) :
    ∃ chi2s coeffs pens, calcZchi2Target solve spectra tdata nz nbasis oii = .ok (chi2s, coeffs, pens) ∧ chi2s.length = nz ∧ coeffs.length = nz ∧ pens.length = nz ∧
      ∀ i, i < nz →
        (∀ c, solve (normalMatrixOf spectra (T i) nbasis) (normalVectorOf spectra (T i) nbasis) = .ok c →
          chi2s[i]? = some (chi2Of spectra (T i) nbasis c) ∧ coeffs[i]? = some c ∧
          pens[i]? = some (penaltyOf oii nbasis c)) ∧
        ((∀ c, solve (normalMatrixOf spectra (T i) nbasis) (normalVectorOf spectra (T i) nbasis) ≠ .ok c) →
          chi2s[i]? = some 9999999 ∧ coeffs[i]? = some (List.replicate nbasis 0) ∧ pens[i]? = some 0) := by
  obtain ⟨r, h1, h2, h3⟩ := C39_batch_entries solve spectra tdata nz nbasis T hT hS none hsum hsol
  have hlen : ∀ c ∈ r.map (·.2), c.length = nbasis := by
    intro c hc
    obtain ⟨q, hq, rfl⟩ := List.mem_map.1 hc
    obtain ⟨i, hi, rfl⟩ := List.getElem_of_mem hq
    rw [h2] at hi
    obtain ⟨a, b⟩ := h3 i hi
    have hd := hsol i hi
    by_cases hex : ∃ c, solve (normalMatrixOf spectra (T i) nbasis) (normalVectorOf spectra (T i) nbasis) = .ok c
    · obtain ⟨c, hc⟩ := hex
      have := a c hc
      rw [List.getElem?_eq_getElem (by omega), Option.some.injEq] at this
      rw [this]
      rw [hc] at hd
      exact hd
    · have := b (fun c hc => hex ⟨c, hc⟩)
      rw [List.getElem?_eq_getElem (by omega), Option.some.injEq] at this
      rw [this]; simp
  have hz0 : ∀ (t : List (List K)) (nw : Nat), oiiFluxOf t nw nbasis (List.replicate nbasis 0) = 0 := by
    intro t nw
    unfold oiiFluxOf
    apply Finset.sum_eq_zero
    intro w _
    apply Finset.sum_eq_zero
    intro b hb
    rw [Finset.mem_range] at hb
    simp [hb]
  have hrun : calcZchi2Target solve spectra tdata nz nbasis oii = .ok (r.map (·.1), r.map (·.2), pensOf oii nz (r.map (·.2))) := by
    unfold calcZchi2Target
    show (if (spectra.flatMap (·.ivar)).sum = 0 then _ else _) = _
    rw [if_neg hsum]
    have h1' : calcZchi2Batch solve spectra tdata (spectra.flatMap (·.ivar)) (spectra.flatMap (·.flux))
      (List.zipWith (· * ·) (spectra.flatMap (·.ivar)) (spectra.flatMap (·.flux))) nz nbasis none = .ok r := h1
    rw [h1', okBind]
    rcases oii with _ | ⟨t, nw⟩ <;> rfl
  refine ⟨_, _, _, hrun, by simp [h2], by simp [h2], ?_, ?_⟩
  · rcases oii with _ | ⟨t, nw⟩
    · simp [pensOf]
    · simp [pensOf, negOIIPenalty, h2]
  intro i hi
  have hpen : ∀ v : K × List K, r[i]? = some v → (pensOf oii nz (r.map (·.2)))[i]? = some (penaltyOf oii nbasis v.2) := by
    intro v hv
    rcases oii with _ | ⟨t, nw⟩
    · simp [pensOf, penaltyOf, hi]
    · have hp := C40_penalty t nw nbasis (hoii t nw rfl) _ hlen
      obtain ⟨e1, e2⟩ := List.forall₂_iff_get.1 hp
      rw [List.length_map, h2] at e1
      obtain ⟨q1, q2, -⟩ := e2 i (by rw [List.length_map]; omega) (by omega)
      rw [List.getElem?_eq_getElem (by omega), Option.some.injEq] at hv
      simp only [List.get_eq_getElem, List.getElem_map, hv] at q1 q2
      show (negOIIPenalty t nw (r.map (·.2)))[i]? = some (if oiiFluxOf t nw nbasis v.2 < 0 then -oiiFluxOf t nw nbasis v.2 else 0)
      rw [List.getElem?_eq_getElem (by omega)]
      by_cases h : oiiFluxOf t nw nbasis v.2 < 0
      · rw [if_pos h, q2 h]
      · rw [if_neg h, q1 (not_lt.1 h)]
  obtain ⟨a, b⟩ := h3 i hi
  constructor
  · intro c hc
    have := a c hc
    refine ⟨by rw [List.getElem?_map, this]; rfl, by rw [List.getElem?_map, this]; rfl, ?_⟩
    rw [hpen _ this]
  · intro hc
    have := b hc
    refine ⟨by rw [List.getElem?_map, this]; rfl, by rw [List.getElem?_map, this]; rfl, ?_⟩
    rw [hpen _ this]
    rcases oii with _ | ⟨t, nw⟩
    · rfl
    · simp [penaltyOf, hz0]

/-- **C39** the scan of a target without any weight: chi2 9999999, coefficients 0, penalty 0 at every redshift, whatever the template. -/
theorem C39_scan_no_weight (solve : List (List K) → List K → Py (List K)) (spectra : List (FitSpectrum ω K)) (tdata : PyDict ω (List (List (List K)))) (nz nbasis : Nat)
    (oii : Option (List (List K) × Nat)) (hw : ∀ s ∈ spectra, ∀ v ∈ s.ivar, v = 0) :
    calcZchi2Target solve spectra tdata nz nbasis oii = .ok (List.replicate nz 9999999, List.replicate nz (List.replicate nbasis 0), List.replicate nz 0) := by
  unfold calcZchi2Target
  show (if (spectra.flatMap (·.ivar)).sum = 0 then _ else _) = _
  rw [if_pos]
  · rfl
  · apply List.sum_eq_zero
    intro v hv
    obtain ⟨s, h1, h2⟩ := List.mem_flatMap.1 hv
    exact hw s h1 v h2

/-! ### non-negative fits -/

/-- Specification of `scipy.optimize.nnls(M, y)`: a non-negative vector with the smallest `‖M c − y‖²` among the non-negative vectors. -/
def IsNnls (n : Nat) (M : List (List K)) (y c : List K) : Prop :=
  c.length = n ∧ (∀ v ∈ c, 0 ≤ v) ∧ ∀ c' : List K, c'.length = n → (∀ v ∈ c', 0 ≤ v) →
    ∑ j ∈ Finset.range n, (∑ k ∈ Finset.range n, (M.getD j []).getD k 0 * c.getD k 0 - y.getD j 0) ^ 2 ≤
    ∑ j ∈ Finset.range n, (∑ k ∈ Finset.range n, (M.getD j []).getD k 0 * c'.getD k 0 - y.getD j 0) ^ 2

/-- a non-negative least-squares solution solves the equations if some non-negative vector does -/
theorem IsNnls.solves {n : Nat} {M : List (List K)} {y c : List K} (h : IsNnls n M y c) (c' : List K) (hc' : Solves n M y c') (hpos : ∀ v ∈ c', 0 ≤ v) : Solves n M y c := by
  refine ⟨h.1, ?_⟩
  have hz : ∑ j ∈ Finset.range n, (∑ k ∈ Finset.range n, (M.getD j []).getD k 0 * c'.getD k 0 - y.getD j 0) ^ 2 = 0 := by
    apply Finset.sum_eq_zero
    intro j hj
    rw [hc'.2 j (Finset.mem_range.1 hj)]
    ring
  have hle := h.2.2 c' hc'.1 hpos
  rw [hz] at hle
  have hall := (Finset.sum_eq_zero_iff_of_nonneg (fun j _ => sq_nonneg _)).1 (le_antisymm hle (Finset.sum_nonneg (fun j _ => sq_nonneg _)))
  intro j hj
  have := hall j (Finset.mem_range.2 hj)
  rw [sq_eq_zero_iff] at this
  linarith

/-- **C62** (partial: only when the constraint is not active) a template with the NMF algorithm: if the normal equations have a non-negative solution, the reported chi2 is the smallest
among all coefficient vectors, in particular among the non-negative ones. Missing: the case in which no solution of the normal equations is non-negative; there the claim fails, see
`C62_nmf_not_minimal`. -/
theorem C62_nmf_minimal_partial (S : Solvers K) (spectra : List (FitSpectrum ω K)) (tdata : PyDict ω (List (List (List K)))) (nz nbasis : Nat)
    (T : Nat → ω → List (List K)) (hT : ∀ i, i < nz → HasTemplate spectra tdata i (T i)) (hS : ∀ i, i < nz → Shaped spectra (T i) nbasis)
    (hw : ∀ s ∈ spectra, ∀ v ∈ s.ivar, 0 ≤ v) (hsum : (spectra.flatMap (·.ivar)).sum ≠ 0)
    (hnn : ∀ i, i < nz → ∃ c, S.nnls (normalMatrixOf spectra (T i) nbasis) (normalVectorOf spectra (T i) nbasis) = .ok c ∧
      IsNnls nbasis (normalMatrixOf spectra (T i) nbasis) (normalVectorOf spectra (T i) nbasis) c)
    (hint : ∀ i, i < nz → ∃ c, Solves nbasis (normalMatrixOf spectra (T i) nbasis) (normalVectorOf spectra (T i) nbasis) c ∧ ∀ v ∈ c, 0 ≤ v) :
    ∃ r, calcZchi2Batch (solveMatrices S .nmf none) spectra tdata (spectralData spectra).1 (spectralData spectra).2.1 (spectralData spectra).2.2 nz nbasis none = .ok r ∧ r.length = nz ∧
      ∀ i, i < nz → ∃ chi2 c, r[i]? = some (chi2, c) ∧ (∀ v ∈ c, 0 ≤ v) ∧ chi2 = chi2Of spectra (T i) nbasis c ∧
        ∀ c' : List K, c'.length = nbasis → chi2 ≤ chi2Of spectra (T i) nbasis c' := by
  have hsolve : ∀ M y c, S.nnls M y = .ok c → solveMatrices S .nmf none M y = .ok c := by
    intro M y c h
    simp only [solveMatrices, h]
  obtain ⟨r, h1, h2, h3⟩ := C37_least_squares (solveMatrices S .nmf none) spectra tdata nz nbasis T hT hS hw none (fun _ h => by cases h) hsum (by
    intro i hi
    obtain ⟨c, hc1, hc2⟩ := hnn i hi
    obtain ⟨c', hc'1, hc'2⟩ := hint i hi
    exact ⟨c, hsolve _ _ _ hc1, hc2.solves c' hc'1 hc'2⟩)
  refine ⟨r, h1, h2, ?_⟩
  intro i hi
  obtain ⟨chi2, c, g1, g2, g3, _, g5⟩ := h3 i hi
  refine ⟨chi2, c, g1, ?_, g3, ?_⟩
  · obtain ⟨c0, hc1, hc2⟩ := hnn i hi
    obtain ⟨r', k1, k2, k3⟩ := C39_batch_entries (solveMatrices S .nmf none) spectra tdata nz nbasis T hT hS none hsum (by
      intro i hi
      obtain ⟨c, hc1, hc2⟩ := hnn i hi
      rw [show addPrior (normalMatrixOf spectra (T i) nbasis) none = normalMatrixOf spectra (T i) nbasis from rfl, hsolve _ _ _ hc1]
      exact hc2.1)
    rw [h1, Except.ok.injEq] at k1
    subst k1
    have := (k3 i hi).1 c0 (hsolve _ _ _ hc1)
    rw [g1, Option.some.injEq, Prod.mk.injEq] at this
    rw [this.2]
    exact hc2.2.1
  · intro c' hc'
    have := g5 c' hc'
    simpa [priorForm] using this

theorem mapM_ok_mem {α β : Type} (f : α → Py β) (l : List α) (r : List β) (h : l.mapM f = .ok r) : ∀ b ∈ r, ∃ a ∈ l, f a = .ok b := by
  induction l generalizing r with
  | nil => cases h; intro b hb; cases hb
  | cons a l ih =>
    rw [List.mapM_cons] at h
    cases ha : f a with
    | error e => rw [ha] at h; cases h
    | ok b0 =>
      cases hl : l.mapM f with
      | error e => rw [ha, hl] at h; cases h
      | ok r0 =>
        rw [ha, hl] at h
        cases h
        intro b hb
        rcases List.mem_cons.1 hb with rfl | hb
        · exact ⟨a, List.mem_cons_self, ha⟩
        · obtain ⟨a', h1, h2⟩ := ih r0 hl b hb
          exact ⟨a', List.mem_cons_of_mem _ h1, h2⟩

/-- the entries of a batch come from the solver or are the failure entry -/
theorem batch_entry_cases (solve : List (List K) → List K → Py (List K)) (spectra : List (FitSpectrum ω K)) (tdata : PyDict ω (List (List (List K)))) (weights flux wflux : List K) (nz nbasis : Nat)
    (P : Option (List (List K))) (r : List (K × List K)) (h : calcZchi2Batch solve spectra tdata weights flux wflux nz nbasis P = .ok r) :
    ∀ q ∈ r, q = (9999999, List.replicate nbasis 0) ∨ ∃ M y, solve M y = .ok q.2 := by
  unfold calcZchi2Batch at h
  split at h
  · rw [Except.ok.injEq] at h
    subst h
    intro q hq
    exact Or.inl (List.eq_of_mem_replicate hq)
  · intro q hq
    obtain ⟨i, -, hi⟩ := mapM_ok_mem _ _ _ h q hq
    cases hT : dotProductSparseOne spectra tdata nbasis i with
    | error e => rw [hT] at hi; cases hi
    | ok Tb =>
      rw [hT] at hi
      change fitOne solve Tb weights flux wflux nbasis P = .ok q at hi
      unfold fitOne at hi
      split at hi
      · rename_i c hc
        rw [Except.ok.injEq] at hi
        subst hi
        exact Or.inr ⟨_, _, hc⟩
      · rw [Except.ok.injEq] at hi; exact Or.inl hi.symm
      · rw [Except.ok.injEq] at hi; exact Or.inl hi.symm
      · cases hi

/-- Specification: `c` respects the bounds, a missing bound being infinite. -/
def WithinBounds (lo hi : List (Option K)) (c : List K) : Prop :=
  ∀ (k : Nat) (v : K), c[k]? = some v → (∀ b, lo[k]? = some (some b) → b ≤ v) ∧ (∀ b, hi[k]? = some (some b) → v ≤ b)

/-- **C68** whatever the data, templates and prior: with the NMF (or NNLS) algorithm no reported coefficient is negative; with BVLS every reported coefficient vector respects the bounds given, unless the fit
failed and 9999999 with zeros is reported; an unknown algorithm reports failure at every redshift. Only assumed: what scipy's solvers promise. -/
theorem C68_constraints (S : Solvers K) (spectra : List (FitSpectrum ω K)) (tdata : PyDict ω (List (List (List K)))) (weights flux wflux : List K) (nz nbasis : Nat)
    (P : Option (List (List K))) (hnn : ∀ M y c, S.nnls M y = .ok c → ∀ v ∈ c, 0 ≤ v) (hbv : ∀ lo hi M y c, S.lsqLinear lo hi M y = .ok c → WithinBounds lo hi c)
    (alg : SolveAlgorithm) (bounds : Option (List (Option K) × List (Option K))) (r : List (K × List K))
    (h : calcZchi2Batch (solveMatrices S alg bounds) spectra tdata weights flux wflux nz nbasis P = .ok r) :
    (alg = .nmf ∨ alg = .nnls → ∀ q ∈ r, ∀ v ∈ q.2, 0 ≤ v) ∧
    (alg = .bvls → ∀ lo hi, bounds = some (lo, hi) → ∀ q ∈ r, q = (9999999, List.replicate nbasis 0) ∨ WithinBounds lo hi q.2) ∧
    (alg = .other → ∀ q ∈ r, q = (9999999, List.replicate nbasis 0)) := by
  have hc := batch_entry_cases _ spectra tdata weights flux wflux nz nbasis P r h
  refine ⟨?_, ?_, ?_⟩
  · intro ha q hq v hv
    rcases hc q hq with rfl | ⟨M, y, he⟩
    · rw [List.eq_of_mem_replicate hv]
    · have : S.nnls M y = .ok q.2 := by
        rcases ha with rfl | rfl <;>
        · simp only [solveMatrices] at he
          cases hn : S.nnls M y with
          | ok c => rw [hn] at he; exact he
          | error e => rw [hn] at he; cases he
      exact hnn _ _ _ this v hv
  · rintro rfl lo hi rfl q hq
    rcases hc q hq with hq | ⟨M, y, he⟩
    · exact Or.inl hq
    · exact Or.inr (hbv _ _ _ _ _ he)
  · rintro rfl q hq
    rcases hc q hq with hq | ⟨M, y, he⟩
    · exact hq
    · cases he

end

/-- **C62** (refuted in general) two pixels of weight 1 with fluxes 2 and 0, template basis `(1,1)` and `(0,1)`, resolution = identity, and any correct NNLS solver: `calc_zchi2_batch` with the NMF
algorithm reports chi2 = 52/25 with coefficients (4/5, 0), but the non-negative coefficients (1, 0) have chi2 = 2. The code minimises the residual of the *normal equations* under the
constraint instead of the residual of the data. -/
theorem C62_nmf_not_minimal (S : Solvers ℚ) (hnn : ∃ c, S.nnls [[2, 1], [1, 1]] [2, 0] = .ok c ∧ IsNnls 2 [[2, 1], [1, 1]] [2, 0] c) :
    let s : FitSpectrum Nat ℚ := { wavehash := 0, flux := [2, 0], ivar := [1, 1], R := [[1, 0], [0, 1]] }
    let T : Nat → List (List ℚ) := fun _ => [[1, 0], [1, 1]]
    calcZchi2Batch (solveMatrices S .nmf none) [s] [(0, [[[1, 0], [1, 1]]])] (spectralData [s]).1 (spectralData [s]).2.1 (spectralData [s]).2.2 1 2 none = .ok [(52 / 25, [4 / 5, 0])] ∧
    chi2Of [s] T 2 [4 / 5, 0] = 52 / 25 ∧ chi2Of [s] T 2 [1, 0] = 2 := by
  intro s T
  have hnm : normalMatrixOf [s] T 2 = [[2, 1], [1, 1]] := by decide +kernel
  have hny : normalVectorOf [s] T 2 = [2, 0] := by decide +kernel
  have hchi : chi2Of [s] T 2 [4 / 5, 0] = 52 / 25 := by decide +kernel
  refine ⟨?_, hchi, by decide +kernel⟩
  obtain ⟨c, hc1, hc2, hc3, hc4⟩ := hnn
  -- the constrained minimum of the normal equations is unique
  have hc : c = [4 / 5, 0] := by
    match c, hc2 with
    | [a, b], _ =>
      have ha : 0 ≤ a := hc3 a (by simp)
      have hb : 0 ≤ b := hc3 b (by simp)
      have h := hc4 [4 / 5, 0] rfl (by intro v hv; simp at hv; rcases hv with rfl | rfl <;> norm_num)
      simp [Finset.sum_range_succ] at h
      have hb0 : b = 0 := by
        by_contra hne
        have : 0 < b := lt_of_le_of_ne hb (Ne.symm hne)
        nlinarith [sq_nonneg (5 * a - 4 + 3 * b), sq_nonneg b]
      subst hb0
      have ha0 : a = 4 / 5 := by nlinarith [sq_nonneg (5 * a - 4)]
      rw [ha0]
  subst hc
  obtain ⟨r, h1, h2, h3⟩ := C39_batch_entries (solveMatrices S .nmf none) [s] [(0, [[[1, 0], [1, 1]]])] 1 2 (fun _ => T)
    (by
      intro i hi s' hs'
      have : i = 0 := by omega
      subst this
      simp at hs'
      subst hs'
      exact ⟨_, rfl, rfl⟩)
    (by
      intro i _ s' hs'
      simp at hs'
      subst hs'
      simp [s, T]) none (by decide +kernel)
    (by
      intro i _
      rw [hnm, hny]
      simp only [solveMatrices, addPrior, hc1]
      rfl)
  rw [h1]
  congr 1
  have h4 := (h3 0 (by omega)).1 [4 / 5, 0] (by
    rw [hnm, hny]
    simp only [solveMatrices, addPrior, hc1])
  rw [hchi] at h4
  match r, h2, h4 with
  | [v], _, h4 => simpa using h4

/-- such a solution exists: (4/5, 0) -/
example : IsNnls 2 ([[2, 1], [1, 1]] : List (List ℚ)) [2, 0] [4 / 5, 0] := by
  refine ⟨rfl, by intro v hv; simp at hv; rcases hv with rfl | rfl <;> norm_num, ?_⟩
  intro c' hc' hpos
  match c', hc' with
  | [a, b], _ =>
    have ha : 0 ≤ a := hpos a (by simp)
    have hb : 0 ≤ b := hpos b (by simp)
    simp [Finset.sum_range_succ]
    nlinarith [sq_nonneg (5 * a - 4 + 3 * b), sq_nonneg b]

/-! ### a concrete case: two spectra on different grids, one with a non-trivial resolution, one masked pixel, a diagonal prior; the solver is Cramer's rule for 2x2 -/

/-- Cramer's rule for two unknowns, `LinAlgError` if singular. -/
def cramer2 : List (List ℚ) → List ℚ → Py (List ℚ)
  | [[a, b], [c, d]], [u, v] => if a * d - b * c = 0 then .error .linAlgError else .ok [(u * d - b * v) / (a * d - b * c), (a * v - u * c) / (a * d - b * c)]
  | _, _ => .error .linAlgError

def exSpectra : List (FitSpectrum Nat ℚ) :=
  [{ wavehash := 0, flux := [1, 3], ivar := [1, 2], R := [[1, 0], [1/2, 1/2]] }, { wavehash := 1, flux := [7, 2, 1], ivar := [0, 1, 1], R := [[1, 0, 0], [0, 1, 0], [0, 0, 1]] }]

def exTdata : PyDict Nat (List (List (List ℚ))) := [(0, [[[1, 0], [1, 1]], [[1, 1], [1, 1]]]), (1, [[[1, 2], [1, 3], [0, 1]], [[1, 1], [1, 1], [0, 0]]])]

/-- the second redshift is degenerate: its entry is HUGE with zero coefficients, the first one is fitted -/
example : (calcZchi2Batch cramer2 exSpectra exTdata (spectralData exSpectra).1 (spectralData exSpectra).2.1 (spectralData exSpectra).2.2 2 2 none).toOption =
    some [(187 / 52, [109 / 52, 2 / 13]), (9999999, [0, 0])] := by decide +kernel

/-- the hypotheses of C37 hold here at the first redshift -/
example : let T : Nat → Nat → List (List ℚ) := fun i h => ((exTdata.get? h).getD []).getD i []
    (∀ i, i < 2 → HasTemplate exSpectra exTdata i (T i)) ∧ (∀ i, i < 2 → Shaped exSpectra (T i) 2) ∧ (exSpectra.flatMap (·.ivar)).sum ≠ 0 ∧
    (∃ c, cramer2 (normalMatrixOf exSpectra (T 0) 2) (normalVectorOf exSpectra (T 0) 2) = .ok c ∧
      Solves 2 (normalMatrixOf exSpectra (T 0) 2) (normalVectorOf exSpectra (T 0) 2) c) := by
  refine ⟨?_, ?_, by decide +kernel, ⟨[109 / 52, 2 / 13], by decide +kernel, rfl, by decide +kernel⟩⟩
  · intro i hi s hs
    simp only [exSpectra, List.mem_cons, List.not_mem_nil, or_false] at hs
    interval_cases i <;> rcases hs with rfl | rfl <;> exact ⟨_, rfl, rfl⟩
  · intro i hi s hs
    simp only [exSpectra, List.mem_cons, List.not_mem_nil, or_false] at hs
    interval_cases i <;> rcases hs with rfl | rfl <;> decide +kernel

/-- an admissible prior -/
example : PriorOk 2 ([[0, 0], [0, 1 / 4]] : List (List ℚ)) := by
  refine ⟨by decide, ?_, ?_⟩
  · intro j k hj hk
    interval_cases j <;> interval_cases k <;> rfl
  intro v _
  simp [quadForm, Finset.sum_range_succ]
  nlinarith [sq_nonneg (v[1]?.getD 0)]

/-- the hypotheses of the scan theorem hold for these data with an [OII] part (they are those of the example above): a penalty at the first redshift, none at the failed one -/
example : (calcZchi2Target cramer2 exSpectra exTdata 2 2 (some ([[-1, 2], [0, -100]], 2))).toOption =
    some ([187 / 52, 9999999], [[109 / 52, 2 / 13], [0, 0]], [691 / 52, 0]) := by decide +kernel

/-- solvers with the promised constraints that clip Cramer's solution: a non-trivial fit with bounds -/
def clipSolvers : Solvers ℚ where
  linalgSolve := cramer2
  nnls := fun M y => (cramer2 M y).map (fun c => c.map (fun v => max v 0))
  lsqLinear := fun lo hi M y => (cramer2 M y).map (fun c => c.mapIdx (fun k v =>
    let w := match lo[k]? with | some (some b) => max b v | _ => v
    match hi[k]? with | some (some b) => min b w | _ => w))

example : (∀ M y c, clipSolvers.nnls M y = .ok c → ∀ v ∈ c, 0 ≤ v) ∧
    (calcZchi2Batch (solveMatrices clipSolvers .bvls (some ([some 0, none], [some 1, none]))) exSpectra exTdata (spectralData exSpectra).1 (spectralData exSpectra).2.1
      (spectralData exSpectra).2.2 2 2 none).toOption.map (fun r => r.map (·.2)) = some [[1, 2 / 13], [0, 0]] := by
  refine ⟨?_, by decide +kernel⟩
  intro M y c h v hv
  simp only [clipSolvers] at h
  cases hc : cramer2 M y with
  | error e => rw [hc] at h; cases h
  | ok c0 =>
    rw [hc] at h
    change Except.ok _ = Except.ok c at h
    rw [Except.ok.injEq] at h
    subst h
    obtain ⟨u, -, rfl⟩ := List.mem_map.1 hv
    exact le_max_right _ _

example : negOIIPenalty (K := ℚ) [[1, 2], [0, 1]] 2 [[1, -5], [1, 1]] = [2, 0] := by decide +kernel

end Redrock
