import Verif.Lemmas.Scale
import Mathlib.LinearAlgebra.Matrix.NonsingularInverse

/-!
C111: flux units. Multiplying the fluxes of a target by `a` and its inverse variances by `1/a²` is only a change of units.
-/
namespace Redrock
set_option linter.unusedSectionVars false

section
variable {ω K σ : Type} [DecidableEq ω] [Field K] [LinearOrder K] [IsStrictOrderedRing K]

/-- an exact linear solver follows a change of units -/
theorem ExactSolver.scale {n : Nat} {solve : List (List K) → List K → Py (List K)} (h : ExactSolver n solve) (a : K) (ha : a ≠ 0) : ScaleEquivariant n a solve := by
  intro M y hM hr hy
  have hentry : ∀ j k, ((M.map (fun r => r.map (fun v => v / a ^ 2))).getD j []).getD k 0 = (M.getD j []).getD k 0 / a ^ 2 := by
    intro j k
    simp only [List.getD_eq_getElem?_getD, List.getElem?_map]
    cases M[j]? with
    | none => simp
    | some r =>
      simp only [Option.map_some, Option.getD_some, List.getElem?_map]
      cases r[k]? <;> simp
  have hye : ∀ j, (y.map (fun v => v / a)).getD j 0 = y.getD j 0 / a := by
    intro j
    simp only [List.getD_eq_getElem?_getD, List.getElem?_map]
    cases y[j]? <;> simp
  have hM' : (M.map (fun r => r.map (fun v => v / a ^ 2))).length = n := by simpa using hM
  have hr' : ∀ r ∈ M.map (fun r => r.map (fun v => v / a ^ 2)), r.length = n := by
    intro r hh
    obtain ⟨q, hq, rfl⟩ := List.mem_map.1 hh
    simpa using hr q hq
  have hy' : (y.map (fun v => v / a)).length = n := by simpa using hy
  have ha2 : a ^ 2 ≠ 0 := pow_ne_zero 2 ha
  have hsum : ∀ (c : List K) j, ∑ k ∈ Finset.range n, ((M.map (fun r => r.map (fun v => v / a ^ 2))).getD j []).getD k 0 * c.getD k 0 = (∑ k ∈ Finset.range n, (M.getD j []).getD k 0 * c.getD k 0) / a ^ 2 := by
    intro c j
    rw [Finset.sum_div]
    apply Finset.sum_congr rfl
    intro k _
    rw [hentry]; ring
  by_cases hns : Nonsingular n M
  · have hns' : Nonsingular n (M.map (fun r => r.map (fun v => v / a ^ 2))) := by
      intro c hc hk
      apply hns c hc
      intro j hj
      have := hk j hj
      rw [hsum] at this
      rcases div_eq_zero_iff.1 this with h | h
      · exact h
      · exact absurd h ha2
    obtain ⟨c, hc⟩ := h.complete M y hM hr hy hns
    obtain ⟨c', hc'⟩ := h.complete _ _ hM' hr' hy' hns'
    obtain ⟨l1, s1⟩ := h.sound _ _ _ hM hr hy hc
    obtain ⟨l2, s2⟩ := h.sound _ _ _ hM' hr' hy' hc'
    rw [hc, hc']
    show Except.ok _ = Except.ok _
    congr 1
    have hd := hns ((List.range n).map (fun k => c'.getD k 0 - a * c.getD k 0)) (by simp) (by
      intro j hj
      have e : ∀ k ∈ Finset.range n, (M.getD j []).getD k 0 * ((List.range n).map (fun k => c'.getD k 0 - a * c.getD k 0)).getD k 0 =
          (M.getD j []).getD k 0 * c'.getD k 0 - a * ((M.getD j []).getD k 0 * c.getD k 0) := by
        intro k hk
        rw [getD_rangeMap n _ k (Finset.mem_range.1 hk)]; ring
      rw [Finset.sum_congr rfl e, Finset.sum_sub_distrib, ← Finset.mul_sum, s1 j hj]
      have := s2 j hj
      rw [hsum, hye] at this
      rw [div_eq_div_iff ha2 ha] at this
      have h2 : (∑ k ∈ Finset.range n, (M.getD j []).getD k 0 * c'.getD k 0) = a * y.getD j 0 := by
        apply mul_right_cancel₀ ha
        rw [this]; ring
      rw [h2, sub_self])
    apply list_eq_of_getD l2 (by simpa using l1)
    intro j hj
    have h0 : ((List.range n).map (fun k => c'.getD k 0 - a * c.getD k 0)).getD j 0 = 0 := by rw [hd]; simp [hj]
    rw [getD_rangeMap n _ j hj] at h0
    have h1 : (c.map (fun v => a * v)).getD j 0 = a * c.getD j 0 := by
      simp only [List.getD_eq_getElem?_getD, List.getElem?_map]
      cases c[j]? <;> simp
    rw [h1]
    exact sub_eq_zero.1 h0
  · have hns' : ¬ Nonsingular n (M.map (fun r => r.map (fun v => v / a ^ 2))) := by
      intro hh
      apply hns
      intro c hc hk
      apply hh c hc
      intro j hj
      rw [hsum, hk j hj, zero_div]
    rw [h.singular _ _ hM hr hy hns, h.singular _ _ hM' hr' hy' hns']
    rfl

/-- such solvers exist for every size -/
theorem exactSolver_exists (n : Nat) : ∃ solve : List (List K) → List K → Py (List K), ExactSolver n solve := by
  classical
  have hex : ∀ (M : List (List K)) (y : List K), Nonsingular n M → ∃ c, Solves n M y c := by
    intro M y hns
    let A : Matrix (Fin n) (Fin n) K := fun j k => (M.getD j []).getD k 0
    have hinj : Function.Injective A.mulVec := by
      have : ∀ v, A.mulVec v = 0 → v = 0 := by
        intro v hv
        have := hns (List.ofFn v) (by simp) (by
          intro j hj
          have := congrFun hv ⟨j, hj⟩
          simp only [Matrix.mulVec, dotProduct, Pi.zero_apply] at this
          rw [Finset.sum_range]
          refine Eq.trans ?_ this
          apply Finset.sum_congr rfl
          intro k _
          show _ = (M.getD j []).getD (↑k) 0 * v k
          simp)
        funext k
        have hk : (List.ofFn v).getD k 0 = (List.replicate n (0 : K)).getD k 0 := by rw [this]
        simpa using hk
      intro u v huv
      have := this (u - v) (by rw [Matrix.mulVec_sub]; exact sub_eq_zero.2 huv)
      exact sub_eq_zero.1 this
    have hsurj : Function.Surjective A.mulVec := Matrix.mulVec_surjective_iff_isUnit.2 (Matrix.mulVec_injective_iff_isUnit.1 hinj)
    obtain ⟨v, hv⟩ := hsurj (fun j => y.getD j 0)
    refine ⟨List.ofFn v, by simp, ?_⟩
    intro j hj
    have := congrFun hv ⟨j, hj⟩
    simp only [Matrix.mulVec, dotProduct] at this
    rw [Finset.sum_range, ← this]
    apply Finset.sum_congr rfl
    intro k _
    simp [A]
  refine ⟨fun M y => if h : Nonsingular n M then .ok (Classical.choose (hex M y h)) else .error .linAlgError, ?_, ?_, ?_⟩
  · intro M y c _ _ _ h
    by_cases hns : Nonsingular n M
    · simp only [hns, dif_pos] at h
      rw [← Except.ok.inj h]
      exact Classical.choose_spec (hex M y hns)
    · simp [hns] at h
  · intro M y _ _ _ hns
    exact ⟨Classical.choose (hex M y hns), dif_pos hns⟩
  · intro M y _ _ _ hns
    simp [hns]

variable [LinearOrder σ]

/-- **C111** (part) in other flux units (fluxes times `a`, inverse variances divided by `a²`), a target measured with templates without [OII] penalty gets the same table — the same redshifts, errors, chi2, warnings, types,
order — with the coefficients multiplied by `a`, and it raises in the same cases. This needs a solver that follows the units; the exact linear solver of PCA templates does (`C111_pca_partial`). -/
theorem C111_flux_units_partial (a : K) (ha : a ≠ 0) (c : MeasureCfg K) (templates : List (Tmpl ω K σ)) (spectra : List (FitSpectrum ω K))
    (h : ∀ tm ∈ templates, tm.oii = none ∧ ScaleEquivariant tm.nbasis a (solveMatrices c.S tm.algorithm none)) :
    measureTarget c templates (spectra.map (scaleSpec a)) = (measureTarget c templates spectra).map (List.map (fun r => { r with coeff := r.coeff.map (fun v => a * v) })) := by
  apply rel_rows_eq (fun c => c.map (fun v => a * v))
  refine measure_rel _ ⟨?_, ?_⟩ c templates templates spectra (spectra.map (scaleSpec a)) ?_ (npixelsOf_scale a ha spectra)
  · rintro c c' rfl; simp
  · rintro c c' k rfl; simp
  · exact List.forall₂_same.2 (fun tm ht => sameFits_scale a ha c.S tm (h tm ht).2 (h tm ht).1 spectra)

/-- **C111** for PCA templates without [OII] penalty and an exact linear solver. -/
theorem C111_pca_partial (a : K) (ha : a ≠ 0) (c : MeasureCfg K) (templates : List (Tmpl ω K σ)) (spectra : List (FitSpectrum ω K))
    (h : ∀ tm ∈ templates, tm.oii = none ∧ tm.algorithm = .pca ∧ ExactSolver tm.nbasis c.S.linalgSolve) :
    measureTarget c templates (spectra.map (scaleSpec a)) = (measureTarget c templates spectra).map (List.map (fun r => { r with coeff := r.coeff.map (fun v => a * v) })) := by
  apply C111_flux_units_partial a ha
  intro tm ht
  obtain ⟨h1, h2, h3⟩ := h tm ht
  refine ⟨h1, ?_⟩
  rw [h2]
  exact h3.scale a ha

end

/-! ### with the [OII] penalty the units matter -/
namespace Units

/-- an exact solver for one coefficient -/
def solve1 (M : List (List ℚ)) (y : List ℚ) : Py (List ℚ) := if (M.getD 0 []).getD 0 0 = 0 then .error .linAlgError else .ok [y.getD 0 0 / (M.getD 0 []).getD 0 0]

theorem solve1_exact : ExactSolver 1 solve1 where
  sound := by
    intro M y c _ _ _ h
    unfold solve1 at h
    by_cases h0 : (M.getD 0 []).getD 0 0 = 0
    · rw [if_pos h0] at h; simp at h
    · rw [if_neg h0] at h
      rw [← Except.ok.inj h]
      refine ⟨rfl, ?_⟩
      intro j hj
      obtain rfl : j = 0 := by omega
      simp only [Finset.range_one, Finset.sum_singleton]
      show _ * (y.getD 0 0 / _) = _
      field_simp
  complete := by
    intro M y _ _ _ hns
    unfold solve1
    by_cases h0 : (M.getD 0 []).getD 0 0 = 0
    · exfalso
      have := hns [1] rfl (by
        intro j hj
        obtain rfl : j = 0 := by omega
        simp only [Finset.range_one, Finset.sum_singleton, h0, zero_mul])
      simp at this
    · exact ⟨_, if_neg h0⟩
  singular := by
    intro M y _ _ _ hns
    unfold solve1
    by_cases h0 : (M.getD 0 []).getD 0 0 = 0
    · rw [if_pos h0]
    · exfalso
      apply hns
      intro c hc hk
      have := hk 0 (by decide)
      simp only [Finset.range_one, Finset.sum_singleton] at this
      rcases mul_eq_zero.1 this with h | h
      · exact absurd h h0
      · match c, hc with
        | [x], _ =>
          have : x = 0 := h
          rw [this]; rfl

def cfg : MeasureCfg ℚ where
  argsort := stableArgsort Ext.le
  minfit := fun x y => .ok (x.getD 1 0, 1 / 1000, y.getD 1 0, 0)
  nz := 3
  nminima := 2
  prior := fun _ x => x.map .fin
  S := ⟨solve1, solve1, fun _ _ => solve1⟩

/-- one basis spectrum: at redshift 1 a line in the first pixel, at redshift 3 a line in the second pixel, else nothing; all of it counts as [OII] if `oii` -/
def tmpl (oii : Bool) : Tmpl Unit ℚ Nat where
  spectype := 0
  subtype := 0
  isStar := false
  redshifts := [0, 1, 2, 3, 4]
  nbasis := 1
  algorithm := .pca
  oii := if oii then some ([[1]], 1) else none
  bin := fun _ zs => .ok (zs.map (fun z => if z = 1 then [[1], [0]] else if z = 3 then [[0], [1]] else [[0], [0]]))

def data : List (FitSpectrum Unit ℚ) := [⟨(), [-1, 1 / 2], [1, 1], [[1, 0], [0, 1]]⟩]

/-- without penalty: the absorption line at redshift 1 is the best fit, also in units ten times as large -/
example : (measureTarget cfg [tmpl false] data).map (List.map (fun r => (r.z, r.chi2, r.coeff))) = .ok [(1, 1 / 4, [-1]), (3, 1, [1 / 2])] := by decide +kernel

example : (measureTarget cfg [tmpl false] (data.map (scaleSpec (1 / 10)))).map (List.map (fun r => (r.z, r.chi2, r.coeff))) = .ok [(1, 1 / 4, [-1 / 10]), (3, 1, [1 / 20])] := by decide +kernel

/-- the hypotheses of `C111_pca_partial` hold here -/
example : ∀ tm ∈ [tmpl false], tm.oii = none ∧ tm.algorithm = .pca ∧ ExactSolver tm.nbasis cfg.S.linalgSolve := by
  intro tm ht
  rw [List.mem_singleton] at ht
  subst ht
  exact ⟨rfl, rfl, solve1_exact⟩

/-- **C111** as stated is false: for a template with [OII] penalty the best redshift of the same data is 3 in one flux unit and 1 in another, because the penalty is a flux, added to the chi2. -/
theorem C111_oii_penalty_has_units : (measureTarget cfg [tmpl true] data).map (List.map (fun r => (r.z, r.chi2))) = .ok [(3, 1), (1, 5 / 4)] ∧
    (measureTarget cfg [tmpl true] (data.map (scaleSpec (1 / 10)))).map (List.map (fun r => (r.z, r.chi2))) = .ok [(1, 7 / 20), (3, 1)] := by decide +kernel

end Units
end Redrock
