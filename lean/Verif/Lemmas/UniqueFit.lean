import Verif.Props.Chi2

/-!
The PCA fit in exact arithmetic: the linear solver returns coefficients exactly if the chi2 has a unique minimum, and returns that minimum.
-/
namespace Redrock
set_option linter.unusedSectionVars false

section
variable {K ω : Type} [Field K] [LinearOrder K] [IsStrictOrderedRing K] [DecidableEq ω]

/-- The matrix has a trivial kernel. -/
def Nonsingular (n : Nat) (M : List (List K)) : Prop :=
  ∀ c : List K, c.length = n → (∀ j, j < n → ∑ k ∈ Finset.range n, (M.getD j []).getD k 0 * c.getD k 0 = 0) → c = List.replicate n 0

/-- Specification of `np.linalg.solve` in exact arithmetic on `n × n` matrices: it returns the solution if the matrix is not singular, and raises `LinAlgError` if it is. -/
structure ExactSolver (n : Nat) (solve : List (List K) → List K → Py (List K)) : Prop where
  sound : ∀ M y c, M.length = n → (∀ r ∈ M, r.length = n) → y.length = n → solve M y = .ok c → Solves n M y c
  complete : ∀ M y, M.length = n → (∀ r ∈ M, r.length = n) → y.length = n → Nonsingular n M → ∃ c, solve M y = .ok c
  singular : ∀ M y, M.length = n → (∀ r ∈ M, r.length = n) → y.length = n → ¬ Nonsingular n M → solve M y = .error .linAlgError

/-- `c` is the only coefficient vector of length `n` at which `Φ` has its smallest value. -/
def UniqueMin (n : Nat) (Φ : List K → K) (c : List K) : Prop := c.length = n ∧ ∀ c' : List K, c'.length = n → c' ≠ c → Φ c < Φ c'

theorem UniqueMin.unique {n : Nat} {Φ : List K → K} {c c' : List K} (h : UniqueMin n Φ c) (h' : UniqueMin n Φ c') : c = c' := by
  by_contra hne
  exact absurd (h.2 c' h'.1 (fun e => hne e.symm)) (not_lt.2 (h'.2 c h.1 hne).le)

theorem list_eq_of_getD {n : Nat} {a b : List K} (ha : a.length = n) (hb : b.length = n) (h : ∀ j, j < n → a.getD j 0 = b.getD j 0) : a = b := by
  apply List.ext_getElem (by omega)
  intro j h1 h2
  have := h j (by omega)
  simpa [List.getD_eq_getElem?_getD, h1, h2] using this

theorem getD_rangeMap (n : Nat) (g : Nat → K) (j : Nat) (hj : j < n) : ((List.range n).map g).getD j 0 = g j := by simp [hj]

/-- the quadratic form of the normal matrix -/
theorem quad_pixels (P : List (Pix K)) (n : Nat) (hn : ∀ p ∈ P, p.2.2.length = n) (d : List K) (hd : d.length = n) :
    ∑ j ∈ Finset.range n, d.getD j 0 * ∑ k ∈ Finset.range n, (P.map (fun p => p.1 * p.2.2.getD j 0 * p.2.2.getD k 0)).sum * d.getD k 0 = (P.map (fun p => p.1 * (dotv p.2.2 d) ^ 2)).sum := by
  induction P with
  | nil => simp
  | cons p P ih =>
    have h1 := ih (fun q hq => hn q (List.mem_cons_of_mem _ hq))
    simp only [List.map_cons, List.sum_cons]
    rw [← h1, dotv_eq_sum _ d n (hn p (by simp)) hd]
    have e1 : ∀ j, ∑ k ∈ Finset.range n, (p.1 * p.2.2.getD j 0 * p.2.2.getD k 0 + (P.map (fun p => p.1 * p.2.2.getD j 0 * p.2.2.getD k 0)).sum) * d.getD k 0 =
        p.1 * p.2.2.getD j 0 * (∑ k ∈ Finset.range n, p.2.2.getD k 0 * d.getD k 0) + ∑ k ∈ Finset.range n, (P.map (fun p => p.1 * p.2.2.getD j 0 * p.2.2.getD k 0)).sum * d.getD k 0 := by
      intro j
      rw [Finset.mul_sum, ← Finset.sum_add_distrib]
      apply Finset.sum_congr rfl
      intro k _; ring
    simp only [e1]
    have e2 : ∀ j, d.getD j 0 * (p.1 * p.2.2.getD j 0 * (∑ k ∈ Finset.range n, p.2.2.getD k 0 * d.getD k 0) + ∑ k ∈ Finset.range n, (P.map (fun p => p.1 * p.2.2.getD j 0 * p.2.2.getD k 0)).sum * d.getD k 0) =
        (p.1 * (∑ k ∈ Finset.range n, p.2.2.getD k 0 * d.getD k 0)) * (p.2.2.getD j 0 * d.getD j 0) + d.getD j 0 * ∑ k ∈ Finset.range n, (P.map (fun p => p.1 * p.2.2.getD j 0 * p.2.2.getD k 0)).sum * d.getD k 0 := by
      intro j; ring
    simp only [e2]
    rw [Finset.sum_add_distrib, ← Finset.mul_sum]
    ring

/-- pixelwise zero gives zero image of the normal matrix -/
theorem normal_zero_of_quad_zero (P : List (Pix K)) (hw : ∀ p ∈ P, 0 ≤ p.1) (n : Nat) (hn : ∀ p ∈ P, p.2.2.length = n) (d : List K) (hd : d.length = n)
    (hq : (P.map (fun p => p.1 * (dotv p.2.2 d) ^ 2)).sum = 0) (j : Nat) : ∑ k ∈ Finset.range n, (P.map (fun p => p.1 * p.2.2.getD j 0 * p.2.2.getD k 0)).sum * d.getD k 0 = 0 := by
  induction P with
  | nil => simp
  | cons p P ih =>
    simp only [List.map_cons, List.sum_cons] at hq ⊢
    have h1 : 0 ≤ p.1 * (dotv p.2.2 d) ^ 2 := mul_nonneg (hw p (by simp)) (sq_nonneg _)
    have h2 : 0 ≤ (P.map (fun p => p.1 * (dotv p.2.2 d) ^ 2)).sum := by
      apply List.sum_nonneg
      intro x hx
      obtain ⟨q, hq, rfl⟩ := List.mem_map.1 hx
      exact mul_nonneg (hw q (List.mem_cons_of_mem _ hq)) (sq_nonneg _)
    have h3 := ih (fun q hq => hw q (List.mem_cons_of_mem _ hq)) (fun q hq => hn q (List.mem_cons_of_mem _ hq)) (by linarith)
    have h4 : p.1 * dotv p.2.2 d = 0 := by
      have : p.1 * (dotv p.2.2 d) ^ 2 = 0 := by linarith
      rcases mul_eq_zero.1 this with h | h
      · rw [h, zero_mul]
      · rw [pow_eq_zero_iff (by decide)] at h; rw [h, mul_zero]
    have e1 : ∑ k ∈ Finset.range n, (p.1 * p.2.2.getD j 0 * p.2.2.getD k 0 + (P.map (fun p => p.1 * p.2.2.getD j 0 * p.2.2.getD k 0)).sum) * d.getD k 0 =
        p.2.2.getD j 0 * (p.1 * ∑ k ∈ Finset.range n, p.2.2.getD k 0 * d.getD k 0) + ∑ k ∈ Finset.range n, (P.map (fun p => p.1 * p.2.2.getD j 0 * p.2.2.getD k 0)).sum * d.getD k 0 := by
      rw [Finset.mul_sum, Finset.mul_sum, ← Finset.sum_add_distrib]
      apply Finset.sum_congr rfl
      intro k _; ring
    rw [e1, h3, ← dotv_eq_sum _ d n (hn p (by simp)) hd, h4]
    ring

/-- for pixels with non-negative weights: solving non-singular normal equations is the same as being the unique minimum of the chi2 -/
theorem unique_min_pixels (P : List (Pix K)) (hw : ∀ p ∈ P, 0 ≤ p.1) (n : Nat) (hn : ∀ p ∈ P, p.2.2.length = n) (M : List (List K)) (y : List K)
    (hM : ∀ j k, j < n → k < n → (M.getD j []).getD k 0 = (P.map (fun p => p.1 * p.2.2.getD j 0 * p.2.2.getD k 0)).sum)
    (hy : ∀ j, j < n → y.getD j 0 = (P.map (fun p => p.1 * p.2.2.getD j 0 * p.2.1)).sum) (c : List K) :
    (Solves n M y c ∧ Nonsingular n M) ↔ UniqueMin n (fun c => (P.map (fun p => p.1 * (p.2.1 - dotv p.2.2 c) ^ 2)).sum) c := by
  have hMs : ∀ (v : List K) j, j < n → ∑ k ∈ Finset.range n, (M.getD j []).getD k 0 * v.getD k 0 = ∑ k ∈ Finset.range n, (P.map (fun p => p.1 * p.2.2.getD j 0 * p.2.2.getD k 0)).sum * v.getD k 0 := by
    intro v j hj
    apply Finset.sum_congr rfl
    intro k hk
    rw [hM j k hj (Finset.mem_range.1 hk)]
  have hQ : ∀ d : List K, 0 ≤ (P.map (fun p => p.1 * (dotv p.2.2 d) ^ 2)).sum := by
    intro d
    apply List.sum_nonneg
    intro x hx
    obtain ⟨q, hq, rfl⟩ := List.mem_map.1 hx
    exact mul_nonneg (hw q hq) (sq_nonneg _)
  -- differences
  have hdiff : ∀ (c c' d : List K), c.length = n → c'.length = n → d.length = n → (∀ j, j < n → c'.getD j 0 - c.getD j 0 = d.getD j 0) →
      (P.map (fun p => p.1 * (p.2.1 - dotv p.2.2 c') ^ 2)).sum = (P.map (fun p => p.1 * (p.2.1 - dotv p.2.2 c) ^ 2)).sum + (P.map (fun p => p.1 * (dotv p.2.2 d) ^ 2)).sum +
        2 * ∑ j ∈ Finset.range n, d.getD j 0 * (∑ k ∈ Finset.range n, (M.getD j []).getD k 0 * c.getD k 0 - y.getD j 0) := by
    intro c c' d hc hc' hd h
    rw [chi2_expand P n hn c c' hc hc']
    congr 1
    · congr 1
      apply congrArg List.sum
      apply List.map_congr_left
      intro p hp
      have : dotv p.2.2 c' - dotv p.2.2 c = dotv p.2.2 d := by
        rw [dotv_eq_sum _ c' n (hn p hp) hc', dotv_eq_sum _ c n (hn p hp) hc, dotv_eq_sum _ d n (hn p hp) hd, ← Finset.sum_sub_distrib]
        apply Finset.sum_congr rfl
        intro k hk
        rw [← h k (Finset.mem_range.1 hk)]; ring
      rw [this]
    · congr 1
      apply Finset.sum_congr rfl
      intro j hj
      rw [Finset.mem_range] at hj
      rw [h j hj, hMs c j hj, hy j hj]
  constructor
  · rintro ⟨⟨hc, hs⟩, hns⟩
    refine ⟨hc, ?_⟩
    intro c' hc' hne
    set d : List K := (List.range n).map (fun j => c'.getD j 0 - c.getD j 0) with hd
    have hdl : d.length = n := by simp [hd]
    have hdj : ∀ j, j < n → c'.getD j 0 - c.getD j 0 = d.getD j 0 := by
      intro j hj; rw [hd, getD_rangeMap n (fun j => c'.getD j 0 - c.getD j 0) j hj]
    show (P.map (fun p => p.1 * (p.2.1 - dotv p.2.2 c) ^ 2)).sum < (P.map (fun p => p.1 * (p.2.1 - dotv p.2.2 c') ^ 2)).sum
    rw [hdiff c c' d hc hc' hdl hdj]
    have hz : ∑ j ∈ Finset.range n, d.getD j 0 * (∑ k ∈ Finset.range n, (M.getD j []).getD k 0 * c.getD k 0 - y.getD j 0) = 0 := by
      apply Finset.sum_eq_zero
      intro j hj
      rw [hs j (Finset.mem_range.1 hj), sub_self, mul_zero]
    rw [hz]
    have hpos : 0 < (P.map (fun p => p.1 * (dotv p.2.2 d) ^ 2)).sum := by
      rcases lt_or_eq_of_le (hQ d) with h | h
      · exact h
      · exfalso
        have hd0 := hns d hdl (by
          intro j hj
          rw [hMs d j hj]
          exact normal_zero_of_quad_zero P hw n hn d hdl h.symm j)
        apply hne
        apply list_eq_of_getD hc' hc
        intro j hj
        have := hdj j hj
        rw [hd0] at this
        simp [hj] at this
        simpa [List.getD_eq_getElem?_getD] using sub_eq_zero.1 this
    linarith
  · rintro ⟨hc, hmin⟩
    have hmin' : ∀ c' : List K, c'.length = n → (P.map (fun p => p.1 * (p.2.1 - dotv p.2.2 c) ^ 2)).sum ≤ (P.map (fun p => p.1 * (p.2.1 - dotv p.2.2 c') ^ 2)).sum := by
      intro c' hc'
      by_cases h : c' = c
      · rw [h]
      · exact (hmin c' hc' h).le
    -- the gradient vanishes
    set r : Nat → K := fun j => ∑ k ∈ Finset.range n, (M.getD j []).getD k 0 * c.getD k 0 - y.getD j 0 with hr
    have hS : ∑ j ∈ Finset.range n, r j ^ 2 = 0 := by
      set q := (P.map (fun p => p.1 * (dotv p.2.2 ((List.range n).map r)) ^ 2)).sum with hqdef
      have hstep : ∀ ε : K, 0 ≤ ε ^ 2 * q - 2 * ε * ∑ j ∈ Finset.range n, r j ^ 2 := by
        intro ε
        have h0 := hmin' ((List.range n).map (fun j => c.getD j 0 - ε * r j)) (by simp)
        rw [hdiff c ((List.range n).map (fun j => c.getD j 0 - ε * r j)) ((List.range n).map (fun j => -ε * r j)) hc (by simp) (by simp) (by
          intro j hj
          rw [getD_rangeMap n _ j hj, getD_rangeMap n _ j hj]; ring)] at h0
        have e1 : (P.map (fun p => p.1 * (dotv p.2.2 ((List.range n).map (fun j => -ε * r j))) ^ 2)).sum = ε ^ 2 * q := by
          rw [hqdef, ← List.sum_map_mul_left]
          apply congrArg List.sum
          apply List.map_congr_left
          intro p hp
          have : dotv p.2.2 ((List.range n).map (fun j => -ε * r j)) = -ε * dotv p.2.2 ((List.range n).map r) := by
            rw [dotv_eq_sum _ _ n (hn p hp) (by simp), dotv_eq_sum _ _ n (hn p hp) (by simp), Finset.mul_sum]
            apply Finset.sum_congr rfl
            intro k hk
            rw [Finset.mem_range] at hk
            rw [getD_rangeMap n _ k hk, getD_rangeMap n _ k hk]; ring
          rw [this]; ring
        have e2 : ∑ j ∈ Finset.range n, ((List.range n).map (fun j => -ε * r j)).getD j 0 * (∑ k ∈ Finset.range n, (M.getD j []).getD k 0 * c.getD k 0 - y.getD j 0) =
            -ε * ∑ j ∈ Finset.range n, r j ^ 2 := by
          rw [Finset.mul_sum]
          apply Finset.sum_congr rfl
          intro j hj
          rw [getD_rangeMap n _ j (Finset.mem_range.1 hj)]
          show -ε * r j * r j = _
          ring
        rw [e1, e2] at h0
        linarith
      have hS0 : 0 ≤ ∑ j ∈ Finset.range n, r j ^ 2 := Finset.sum_nonneg (fun j _ => sq_nonneg _)
      have hq0 : 0 ≤ q := hQ _
      rcases eq_or_lt_of_le hq0 with h | h
      · have := hstep 1
        rw [← h] at this
        linarith
      · have := hstep ((∑ j ∈ Finset.range n, r j ^ 2) / q)
        have e : ((∑ j ∈ Finset.range n, r j ^ 2) / q) ^ 2 * q - 2 * ((∑ j ∈ Finset.range n, r j ^ 2) / q) * ∑ j ∈ Finset.range n, r j ^ 2 = -((∑ j ∈ Finset.range n, r j ^ 2) ^ 2 / q) := by
          field_simp; ring
        rw [e] at this
        have h2 : (∑ j ∈ Finset.range n, r j ^ 2) ^ 2 / q ≤ 0 := by linarith
        have h3 : (∑ j ∈ Finset.range n, r j ^ 2) ^ 2 ≤ 0 := by
          rw [div_le_iff₀ h] at h2; linarith
        exact pow_eq_zero_iff (by decide) |>.1 (le_antisymm h3 (sq_nonneg _))
    have hr0 : ∀ j, j < n → r j = 0 := by
      intro j hj
      have := (Finset.sum_eq_zero_iff_of_nonneg (fun j _ => sq_nonneg (r j))).1 hS j (Finset.mem_range.2 hj)
      exact pow_eq_zero_iff (by decide) |>.1 this
    refine ⟨⟨hc, fun j hj => sub_eq_zero.1 (hr0 j hj)⟩, ?_⟩
    intro d hd hker
    by_contra hne
    have hq : (P.map (fun p => p.1 * (dotv p.2.2 d) ^ 2)).sum = 0 := by
      rw [← quad_pixels P n hn d hd]
      apply Finset.sum_eq_zero
      intro j hj
      rw [← hMs d j (Finset.mem_range.1 hj), hker j (Finset.mem_range.1 hj), mul_zero]
    have hlt := hmin ((List.range n).map (fun j => c.getD j 0 + d.getD j 0)) (by simp) (by
      intro he
      apply hne
      apply list_eq_of_getD hd (by simp)
      intro j hj
      have : ((List.range n).map (fun j => c.getD j 0 + d.getD j 0)).getD j 0 = c.getD j 0 := by rw [he]
      rw [getD_rangeMap n _ j hj] at this
      have h0 : d.getD j 0 = 0 := by linarith
      rw [h0]; simp [hj])
    have := hdiff c ((List.range n).map (fun j => c.getD j 0 + d.getD j 0)) d hc (by simp) hd (by
      intro j hj
      rw [getD_rangeMap n _ j hj]; ring)
    have hz : ∑ j ∈ Finset.range n, d.getD j 0 * (∑ k ∈ Finset.range n, (M.getD j []).getD k 0 * c.getD k 0 - y.getD j 0) = 0 := by
      apply Finset.sum_eq_zero
      intro j hj
      have h0 := hr0 j (Finset.mem_range.1 hj)
      simp only [hr] at h0
      rw [h0, mul_zero]
    rw [hq, hz] at this
    simp only at hlt
    linarith

theorem UniqueMin.congr {n : Nat} {Φ Ψ : List K → K} (h : ∀ c : List K, c.length = n → Φ c = Ψ c) (c : List K) : UniqueMin n Φ c ↔ UniqueMin n Ψ c := by
  constructor
  · rintro ⟨hc, hm⟩
    exact ⟨hc, fun c' hc' hne => by rw [← h c hc, ← h c' hc']; exact hm c' hc' hne⟩
  · rintro ⟨hc, hm⟩
    exact ⟨hc, fun c' hc' hne => by rw [h c hc, h c' hc']; exact hm c' hc' hne⟩

/-- the solver applied to the normal equations returns `c` exactly if `c` is the unique minimum of the chi2, and otherwise raises `LinAlgError` -/
theorem exact_fit_iff (n : Nat) (solve : List (List K) → List K → Py (List K)) (hE : ExactSolver n solve) (spectra : List (FitSpectrum ω K)) (T : ω → List (List K)) (h : Shaped spectra T n)
    (hw : ∀ s ∈ spectra, ∀ v ∈ s.ivar, 0 ≤ v) :
    (∀ c, solve (normalMatrixOf spectra T n) (normalVectorOf spectra T n) = .ok c ↔ UniqueMin n (chi2Of spectra T n) c) ∧
    ((∀ c, ¬ UniqueMin n (chi2Of spectra T n) c) → solve (normalMatrixOf spectra T n) (normalVectorOf spectra T n) = .error .linAlgError) := by
  obtain ⟨m1, m2, m3⟩ := pixOf_flatMap T n spectra h
  set P := spectra.flatMap (pixOf T n) with hP
  have hwP : ∀ p ∈ P, 0 ≤ p.1 := by
    intro p hp
    have : p.1 ∈ spectra.flatMap (·.ivar) := by rw [← m1]; exact List.mem_map.2 ⟨p, hp, rfl⟩
    obtain ⟨s, h1, h2⟩ := List.mem_flatMap.1 this
    exact hw s h1 _ h2
  have hnP : ∀ p ∈ P, p.2.2.length = n := by
    intro p hp
    have : p.2.2 ∈ spectra.flatMap (fun s => matMul s.R (T s.wavehash) n) := by rw [← m3]; exact List.mem_map.2 ⟨p, hp, rfl⟩
    obtain ⟨s, h1, h2⟩ := List.mem_flatMap.1 this
    unfold matMul at h2
    obtain ⟨row, _, he⟩ := List.mem_map.1 h2
    rw [← he]; simp
  obtain ⟨n1, n2⟩ := normal_eq_spec spectra T n h
  have hM : ∀ j k, j < n → k < n → ((normalMatrixOf spectra T n).getD j []).getD k 0 = (P.map (fun p => p.1 * p.2.2.getD j 0 * p.2.2.getD k 0)).sum := by
    intro j k hj hk
    rw [← n1, ← m1, ← m3, ← normalM_pixels]
    simp [normalM, hj, hk]
  have hy : ∀ j, j < n → (normalVectorOf spectra T n).getD j 0 = (P.map (fun p => p.1 * p.2.2.getD j 0 * p.2.1)).sum := by
    intro j hj
    rw [← n2, ← normalY_pixels, m1, m2, m3]
    simp only [normalY, spectralData]
    rw [getD_rangeMap n _ j hj]
  have hl1 : (normalMatrixOf spectra T n).length = n := by simp [normalMatrixOf]
  have hl2 : ∀ r ∈ normalMatrixOf spectra T n, r.length = n := by
    intro r hr
    unfold normalMatrixOf at hr
    obtain ⟨j, _, rfl⟩ := List.mem_map.1 hr
    simp
  have hl3 : (normalVectorOf spectra T n).length = n := by simp [normalVectorOf]
  have key : ∀ c, (Solves n (normalMatrixOf spectra T n) (normalVectorOf spectra T n) c ∧ Nonsingular n (normalMatrixOf spectra T n)) ↔ UniqueMin n (chi2Of spectra T n) c := by
    intro c
    rw [unique_min_pixels P hwP n hnP _ _ hM hy c]
    exact UniqueMin.congr (fun c hc => chi2_pix_eq_spec spectra T n h c hc) c
  have hiff : ∀ c, solve (normalMatrixOf spectra T n) (normalVectorOf spectra T n) = .ok c ↔ UniqueMin n (chi2Of spectra T n) c := by
    intro c
    rw [← key c]
    constructor
    · intro hs
      refine ⟨hE.sound _ _ c hl1 hl2 hl3 hs, ?_⟩
      by_contra hns
      rw [hE.singular _ _ hl1 hl2 hl3 hns] at hs; simp at hs
    · rintro ⟨h1, h2⟩
      obtain ⟨c', hc'⟩ := hE.complete _ (normalVectorOf spectra T n) hl1 hl2 hl3 h2
      have := ((key c').1 ⟨hE.sound _ _ c' hl1 hl2 hl3 hc', h2⟩).unique ((key c).1 ⟨h1, h2⟩)
      rw [hc', this]
  refine ⟨hiff, ?_⟩
  intro hno
  by_cases hns : Nonsingular n (normalMatrixOf spectra T n)
  · obtain ⟨c', hc'⟩ := hE.complete _ (normalVectorOf spectra T n) hl1 hl2 hl3 hns
    exact absurd ((hiff c').1 hc') (hno c')
  · exact hE.singular _ _ hl1 hl2 hl3 hns

/-- two fits whose chi2 functions agree up to a bijection `g` of the coefficient vectors: the batches agree up to `g` -/
theorem batch_transfer (n nz : Nat) (solve : List (List K) → List K → Py (List K)) (hE : ExactSolver n solve) (spectra spectra' : List (FitSpectrum ω K))
    (tdata tdata' : PyDict ω (List (List (List K)))) (T T' : Nat → ω → List (List K)) (hT : ∀ i, i < nz → HasTemplate spectra tdata i (T i)) (hT' : ∀ i, i < nz → HasTemplate spectra' tdata' i (T' i))
    (hS : ∀ i, i < nz → Shaped spectra (T i) n) (hS' : ∀ i, i < nz → Shaped spectra' (T' i) n) (hw : ∀ s ∈ spectra, ∀ v ∈ s.ivar, 0 ≤ v) (hw' : ∀ s ∈ spectra', ∀ v ∈ s.ivar, 0 ≤ v)
    (hz : (spectra.flatMap (·.ivar)).sum = 0 ↔ (spectra'.flatMap (·.ivar)).sum = 0) (g ginv : List K → List K) (hg : ∀ c, c.length = n → (g c).length = n ∧ ginv (g c) = c)
    (hgi : ∀ c, c.length = n → (ginv c).length = n ∧ g (ginv c) = c) (hg0 : g (List.replicate n 0) = List.replicate n 0)
    (hchi : ∀ i, i < nz → ∀ c, c.length = n → chi2Of spectra' (T' i) n (g c) = chi2Of spectra (T i) n c) :
    ∃ r, calcZchi2Batch solve spectra tdata (spectralData spectra).1 (spectralData spectra).2.1 (spectralData spectra).2.2 nz n none = .ok r ∧
      calcZchi2Batch solve spectra' tdata' (spectralData spectra').1 (spectralData spectra').2.1 (spectralData spectra').2.2 nz n none = .ok (r.map (fun q => (q.1, g q.2))) := by
  by_cases h0 : (spectra.flatMap (·.ivar)).sum = 0
  · refine ⟨List.replicate nz (9999999, List.replicate n 0), ?_, ?_⟩
    · unfold calcZchi2Batch
      rw [if_pos (show (spectralData spectra).1.sum = 0 from h0)]; rfl
    · unfold calcZchi2Batch
      rw [if_pos (show (spectralData spectra').1.sum = 0 from hz.1 h0)]
      rw [List.map_replicate, hg0]; rfl
  · have h0' : (spectra'.flatMap (·.ivar)).sum ≠ 0 := fun h => h0 (hz.2 h)
    have hsol : ∀ (sp : List (FitSpectrum ω K)) (U : Nat → ω → List (List K)), (∀ i, i < nz → Shaped sp (U i) n) → (∀ s ∈ sp, ∀ v ∈ s.ivar, 0 ≤ v) →
        ∀ i, i < nz → match solve (addPrior (normalMatrixOf sp (U i) n) none) (normalVectorOf sp (U i) n) with
          | .ok c => c.length = n
          | .error e => Caught e := by
      intro sp U hsh hws i hi
      obtain ⟨a, b⟩ := exact_fit_iff n solve hE sp (U i) (hsh i hi) hws
      show match solve (normalMatrixOf sp (U i) n) (normalVectorOf sp (U i) n) with
          | .ok c => c.length = n
          | .error e => Caught e
      by_cases hex : ∃ c, UniqueMin n (chi2Of sp (U i) n) c
      · obtain ⟨c, hc⟩ := hex
        rw [(a c).2 hc]; exact hc.1
      · rw [b (fun c hc => hex ⟨c, hc⟩)]; exact Or.inl rfl
    obtain ⟨r, r1, r2, r3⟩ := C39_batch_entries solve spectra tdata nz n T hT hS none h0 (hsol spectra T hS hw)
    obtain ⟨r', r1', r2', r3'⟩ := C39_batch_entries solve spectra' tdata' nz n T' hT' hS' none h0' (hsol spectra' T' hS' hw')
    refine ⟨r, r1, ?_⟩
    rw [r1']
    congr 1
    apply List.ext_getElem?
    intro i
    by_cases hi : i < nz
    · obtain ⟨a, b⟩ := exact_fit_iff n solve hE spectra (T i) (hS i hi) hw
      obtain ⟨a', b'⟩ := exact_fit_iff n solve hE spectra' (T' i) (hS' i hi) hw'
      obtain ⟨p, q⟩ := r3 i hi
      obtain ⟨p', q'⟩ := r3' i hi
      simp only [show ∀ M : List (List K), addPrior M none = M from fun _ => rfl] at p q p' q'
      have hcarry : ∀ c, UniqueMin n (chi2Of spectra (T i) n) c → UniqueMin n (chi2Of spectra' (T' i) n) (g c) := by
        rintro c ⟨hc, hm⟩
        refine ⟨(hg c hc).1, ?_⟩
        intro c' hc' hne
        have hc'' := hgi c' hc'
        rw [hchi i hi c hc, ← hc''.2, hchi i hi (ginv c') hc''.1]
        apply hm _ hc''.1
        intro he
        apply hne
        rw [← he]; exact hc''.2.symm
      have hback : ∀ c, UniqueMin n (chi2Of spectra' (T' i) n) c → UniqueMin n (chi2Of spectra (T i) n) (ginv c) := by
        rintro c ⟨hc, hm⟩
        have hcc := hgi c hc
        refine ⟨hcc.1, ?_⟩
        intro c' hc' hne
        have hgc := hg c' hc'
        rw [← hchi i hi _ hcc.1, ← hchi i hi c' hc', hcc.2]
        apply hm _ hgc.1
        intro he
        apply hne
        rw [← he]; exact hgc.2.symm
      rw [List.getElem?_map]
      by_cases hex : ∃ c, UniqueMin n (chi2Of spectra (T i) n) c
      · obtain ⟨c, hc⟩ := hex
        rw [p c ((a c).2 hc), p' (g c) ((a' (g c)).2 (hcarry c hc)), hchi i hi c hc.1]
        rfl
      · have hno' : ∀ c, solve (normalMatrixOf spectra' (T' i) n) (normalVectorOf spectra' (T' i) n) ≠ .ok c := by
          intro c hc
          exact hex ⟨_, hback c ((a' c).1 hc)⟩
        have hno : ∀ c, solve (normalMatrixOf spectra (T i) n) (normalVectorOf spectra (T i) n) ≠ .ok c := by
          intro c hc
          exact hex ⟨_, (a c).1 hc⟩
        rw [q hno, q' hno']
        simp [hg0]
    · rw [List.getElem?_eq_none (by omega), List.getElem?_eq_none (by simp; omega)]

end
end Redrock
