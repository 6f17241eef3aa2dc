import Verif.Props.GpuFit
import Mathlib.Algebra.Order.Round
import Mathlib.Algebra.Order.Archimedean.Basic
import Mathlib.Tactic.FieldSimp
import Mathlib.Tactic.NormNum

/-! Properties C100 (failures, layouts) and C101 (reproducibility). -/
set_option linter.unusedSectionVars false
namespace Redrock.Gpu
open Redrock

section
variable {K ω : Type} [Field K] [LinearOrder K] [IsStrictOrderedRing K] [DecidableEq ω]

/-- **C100** if the CPU solver succeeds at every redshift the two results are equal. -/
theorem C100_no_failure (D : Device K) (S : Solvers K) (cpSolve : List (List K) → List K → List K) (hS : SolversOk S cpSolve) (alg : SolveAlgorithm)
    (bounds : Option (List (Option K) × List (Option K))) (hok : ∀ M y, ∃ c, solveMatrices S alg bounds M y = .ok c) (spectra : List (Spec ω K)) (tdata : PyDict ω (Array3 K))
    (weights flux wflux : List K) (nz nbasis : Nat) (fp : Bool) (prior : Option (List (List K))) (hin : OnGpu spectra tdata nz nbasis) (hD : D.Ok spectra nz nbasis)
    (hw : weights.length = nrowsOf spectra) (hf : flux.length = nrowsOf spectra) (hwf : wflux.length = nrowsOf spectra) :
    calcZchi2BatchGpu D S cpSolve alg bounds spectra tdata weights flux wflux nz nbasis fp prior =
      calcZchi2Batch (solveMatrices S alg bounds) (spectra.map Spec.toFit) (toCpu tdata) weights flux wflux nz nbasis prior := by
  by_cases hsum : weights.sum = 0
  · unfold calcZchi2BatchGpu calcZchi2Batch
    rw [if_pos hsum, if_pos hsum]
  have halg : alg ≠ .other := by
    rintro rfl
    obtain ⟨c, hc⟩ := hok [] []
    cases hc
  choose sol hsol using hok
  have hz : solveMatricesGpu S cpSolve alg bounds ((List.range nz).map (fun i => addPrior (normalM (tbOf spectra tdata nbasis i) weights nbasis) prior))
      ((List.range nz).map (fun i => normalY (tbOf spectra tdata nbasis i) wflux nbasis)) = .ok ((List.range nz).map (fun i =>
        sol (addPrior (normalM (tbOf spectra tdata nbasis i) weights nbasis) prior) (normalY (tbOf spectra tdata nbasis i) wflux nbasis))) := by
    rw [solveGpu_mapM S cpSolve alg halg, zip_map_range, List.mapM_map]
    exact mapM_Except_ok _ _ _ (fun i _ => gpuOne_agree S cpSolve hS alg bounds _ _ _ (hsol _ _))
  rw [gpuBatch_eq D S cpSolve alg bounds spectra tdata weights flux wflux nz nbasis fp prior hsum hin hD hw hf hwf (by
    intro z h
    rw [hz, Except.ok.injEq] at h
    subst h
    refine ⟨by simp, ?_⟩
    intro c hc
    obtain ⟨i, _, rfl⟩ := List.mem_map.1 hc
    rw [gpuOne_len S cpSolve hS alg bounds _ _ _ (gpuOne_agree S cpSolve hS alg bounds _ _ _ (hsol _ _)), normalY_length]), hz, cpu_batch _ _ _ _ _ _ _ _ _ hsum hin]
  symm
  apply mapM_Except_ok
  intro i hi
  rw [List.mem_range] at hi
  unfold fitOne
  rw [hsol]
  simp [hi]

/-- every entry of the GPU result in terms of the specification -/
theorem gpu_entries (D : Device K) (S : Solvers K) (cpSolve : List (List K) → List K → List K) (hS : SolversOk S cpSolve) (alg : SolveAlgorithm) (halg : alg ≠ .other)
    (bounds : Option (List (Option K) × List (Option K))) (spectra : List (Spec ω K)) (tdata : PyDict ω (Array3 K))
    (nz nbasis : Nat) (fp : Bool) (prior : Option (List (List K))) (hin : OnGpu spectra tdata nz nbasis) (hD : D.Ok spectra nz nbasis)
    (hshape : ∀ s ∈ spectra, s.flux.length = s.Rcsr.shape0 ∧ s.ivar.length = s.Rcsr.shape0) (hsum : (spectra.flatMap (·.ivar)).sum ≠ 0)
    (co : Nat → List K) (hco : ∀ i, i < nz → gpuOne S cpSolve alg bounds (addPrior (normalMatrixOf (spectra.map Spec.toFit) (templateAt tdata i) nbasis) prior)
      (normalVectorOf (spectra.map Spec.toFit) (templateAt tdata i) nbasis) = .ok (co i)) :
    calcZchi2BatchGpu D S cpSolve alg bounds spectra tdata (spectralData (spectra.map Spec.toFit)).1 (spectralData (spectra.map Spec.toFit)).2.1 (spectralData (spectra.map Spec.toFit)).2.2
        nz nbasis fp prior = .ok ((List.range nz).map (fun i => (chi2Of (spectra.map Spec.toFit) (templateAt tdata i) nbasis (co i), co i))) := by
  have hS' : ∀ i, i < nz → Shaped (spectra.map Spec.toFit) (templateAt tdata i) nbasis := by
    intro i hi s hs
    obtain ⟨s0, hs0, rfl⟩ := List.mem_map.1 hs
    obtain ⟨_, A, h1, h2, h3, h4, h5, h6⟩ := hin s0 hs0
    obtain ⟨f1, f2⟩ := hshape s0 hs0
    have hT : templateAt tdata i (Spec.toFit s0).wavehash = A.nested.getD i [] := by
      show templateAt tdata i s0.wavehash = _
      simp only [templateAt, h1]
    have hlt : i < A.nested.length := by rw [(nested_shape A).1]; omega
    have hmem : A.nested.getD i [] ∈ A.nested := by simp [hlt]
    rw [hT]
    refine ⟨by show s0.ivar.length = s0.flux.length; omega, by show s0.Rcsr.dense.length = s0.flux.length; simp [Csr.dense, f1], ?_, ?_⟩
    · intro row hrow
      have hrow' : row ∈ s0.Rcsr.dense := hrow
      simp only [Csr.dense, List.mem_map] at hrow'
      obtain ⟨_, _, rfl⟩ := hrow'
      rw [(nested_shape A).2.1 _ hmem]
      simp [h6]
    · intro row hrow
      rw [(nested_shape A).2.2 _ hmem row hrow, h4]
  have hlen : ∀ (f : Spec ω K → List K), (∀ s ∈ spectra, (f s).length = s.Rcsr.shape0) → (spectra.flatMap f).length = nrowsOf spectra := by
    intro f hf
    unfold nrowsOf
    rw [List.length_flatMap]
    congr 1
    exact List.map_congr_left hf
  have hw : (spectralData (spectra.map Spec.toFit)).1 = spectra.flatMap (·.ivar) := by simp only [spectralData, List.flatMap_map]; rfl
  have hf : (spectralData (spectra.map Spec.toFit)).2.1 = spectra.flatMap (·.flux) := by simp only [spectralData, List.flatMap_map]; rfl
  have hwl : (spectralData (spectra.map Spec.toFit)).1.length = nrowsOf spectra := by rw [hw]; exact hlen _ (fun s hs => (hshape s hs).2)
  have hfl : (spectralData (spectra.map Spec.toFit)).2.1.length = nrowsOf spectra := by rw [hf]; exact hlen _ (fun s hs => (hshape s hs).1)
  have hwfl : (spectralData (spectra.map Spec.toFit)).2.2.length = nrowsOf spectra := by
    have : (spectralData (spectra.map Spec.toFit)).2.2 = List.zipWith (· * ·) (spectralData (spectra.map Spec.toFit)).1 (spectralData (spectra.map Spec.toFit)).2.1 := rfl
    rw [this, List.length_zipWith, hwl, hfl, Nat.min_self]
  set w := (spectralData (spectra.map Spec.toFit)).1 with hwdef
  set f := (spectralData (spectra.map Spec.toFit)).2.1 with hfdef
  set wf := (spectralData (spectra.map Spec.toFit)).2.2 with hwfdef
  have htb : ∀ i, tbOf spectra tdata nbasis i = (spectra.map Spec.toFit).flatMap (fun s => matMul s.R (templateAt tdata i s.wavehash) nbasis) := by
    intro i
    rw [List.flatMap_map]; rfl
  have hM : ∀ i, i < nz → normalM (tbOf spectra tdata nbasis i) w nbasis = normalMatrixOf (spectra.map Spec.toFit) (templateAt tdata i) nbasis := by
    intro i hi
    rw [htb]; exact (normal_eq_spec _ _ _ (hS' i hi)).1
  have hY : ∀ i, i < nz → normalY (tbOf spectra tdata nbasis i) wf nbasis = normalVectorOf (spectra.map Spec.toFit) (templateAt tdata i) nbasis := by
    intro i hi
    rw [htb]; exact (normal_eq_spec _ _ _ (hS' i hi)).2
  have hz : solveMatricesGpu S cpSolve alg bounds ((List.range nz).map (fun i => addPrior (normalM (tbOf spectra tdata nbasis i) w nbasis) prior))
      ((List.range nz).map (fun i => normalY (tbOf spectra tdata nbasis i) wf nbasis)) = .ok ((List.range nz).map co) := by
    rw [solveGpu_mapM S cpSolve alg halg, zip_map_range, List.mapM_map]
    refine mapM_Except_ok _ _ _ (fun i hi => ?_)
    rw [List.mem_range] at hi
    simp only [Function.comp, hM i hi, hY i hi]
    exact hco i hi
  have hcl : ∀ i, i < nz → (co i).length = nbasis := by
    intro i hi
    rw [gpuOne_len S cpSolve hS alg bounds _ _ _ (hco i hi)]
    simp [normalVectorOf]
  have hg := gpuBatch_eq D S cpSolve alg bounds spectra tdata w f wf nz nbasis fp prior (by rw [hw]; exact hsum) hin hD hwl hfl hwfl (by
    intro z' h
    rw [hz, Except.ok.injEq] at h
    subst h
    refine ⟨by simp, ?_⟩
    intro c hc
    obtain ⟨i, hi, rfl⟩ := List.mem_map.1 hc
    exact hcl i (List.mem_range.1 hi))
  rw [hz] at hg
  rw [hg]
  show Except.ok _ = Except.ok _
  congr 1
  apply List.map_congr_left
  intro i hi
  rw [List.mem_range] at hi
  have hs := hS' i hi
  have e : ((List.range nz).map co).getD i [] = co i := by simp [hi]
  rw [e]
  congr 1
  rw [← chi2_pix_eq_spec _ _ _ hs _ (hcl i hi), ← chi2_pixels]
  obtain ⟨m1, m2, m3⟩ := pixOf_flatMap (templateAt tdata i) nbasis _ hs
  rw [m1, m2, m3, htb]
  rfl

/-- **C100** a failed fit on the GPU: where `nnls` raises, the GPU entry is not the mark of a failed fit; all coefficients are 9999999 and chi2 is the chi2 of that model. -/
theorem C100_failed_nnls (D : Device K) (S : Solvers K) (cpSolve : List (List K) → List K → List K) (hS : SolversOk S cpSolve)
    (spectra : List (Spec ω K)) (tdata : PyDict ω (Array3 K))
    (nz nbasis : Nat) (fp : Bool) (prior : Option (List (List K))) (hin : OnGpu spectra tdata nz nbasis) (hD : D.Ok spectra nz nbasis)
    (hshape : ∀ s ∈ spectra, s.flux.length = s.Rcsr.shape0 ∧ s.ivar.length = s.Rcsr.shape0) (hsum : (spectra.flatMap (·.ivar)).sum ≠ 0) :
    ∃ g, calcZchi2BatchGpu D S cpSolve .nmf none spectra tdata (spectralData (spectra.map Spec.toFit)).1 (spectralData (spectra.map Spec.toFit)).2.1 (spectralData (spectra.map Spec.toFit)).2.2
        nz nbasis fp prior = .ok g ∧ g.length = nz ∧
      ∀ i, i < nz → ∀ e, S.nnls (addPrior (normalMatrixOf (spectra.map Spec.toFit) (templateAt tdata i) nbasis) prior) (normalVectorOf (spectra.map Spec.toFit) (templateAt tdata i) nbasis) = .error e →
        g[i]? = some (chi2Of (spectra.map Spec.toFit) (templateAt tdata i) nbasis (List.replicate nbasis 9999999), List.replicate nbasis 9999999) := by
  refine ⟨_, gpu_entries D S cpSolve hS .nmf (by simp) none spectra tdata nz nbasis fp prior hin hD hshape hsum _ (fun i _ => rfl), by simp, ?_⟩
  intro i hi e he
  rw [List.getElem?_map, List.getElem?_range hi, Option.map_some, he]
  have : (normalVectorOf (spectra.map Spec.toFit) (templateAt tdata i) nbasis).map (fun _ => (hugeChi2 : K)) = List.replicate nbasis 9999999 := by
    apply List.ext_getElem
    · simp [normalVectorOf]
    · intro j h1 h2; simp [hugeChi2]
  simp only [this]

/-- **C100** the PCA fit on the GPU never fails: whatever `cupy.linalg.solve` returns for the normal equations, singular or not, is taken as the coefficients, and chi2 is the chi2 of that model
(on the CPU a singular matrix gives 9999999 with zero coefficients, C39). -/
theorem C100_pca_never_marked (D : Device K) (S : Solvers K) (cpSolve : List (List K) → List K → List K) (hS : SolversOk S cpSolve)
    (spectra : List (Spec ω K)) (tdata : PyDict ω (Array3 K))
    (nz nbasis : Nat) (fp : Bool) (prior : Option (List (List K))) (hin : OnGpu spectra tdata nz nbasis) (hD : D.Ok spectra nz nbasis)
    (hshape : ∀ s ∈ spectra, s.flux.length = s.Rcsr.shape0 ∧ s.ivar.length = s.Rcsr.shape0) (hsum : (spectra.flatMap (·.ivar)).sum ≠ 0) :
    calcZchi2BatchGpu D S cpSolve .pca none spectra tdata (spectralData (spectra.map Spec.toFit)).1 (spectralData (spectra.map Spec.toFit)).2.1 (spectralData (spectra.map Spec.toFit)).2.2
        nz nbasis fp prior = .ok ((List.range nz).map (fun i =>
      let c := cpSolve (addPrior (normalMatrixOf (spectra.map Spec.toFit) (templateAt tdata i) nbasis) prior) (normalVectorOf (spectra.map Spec.toFit) (templateAt tdata i) nbasis)
      (chi2Of (spectra.map Spec.toFit) (templateAt tdata i) nbasis c, c))) :=
  gpu_entries D S cpSolve hS .pca (by simp) none spectra tdata nz nbasis fp prior hin hD hshape hsum _ (fun i _ => rfl)

/-- **C101** in exact arithmetic the GPU fit is reproducible: any two orders of the threads of its launches, and any two old contents of its memory, give the same result. -/
theorem C101_exact_arithmetic_partial (D D' : Device K) (S : Solvers K) (cpSolve : List (List K) → List K → List K) (hS : SolversOk S cpSolve) (alg : SolveAlgorithm)
    (bounds : Option (List (Option K) × List (Option K))) (spectra : List (Spec ω K)) (tdata : PyDict ω (Array3 K)) (weights flux wflux : List K) (nz nbasis : Nat) (fp : Bool)
    (prior : Option (List (List K))) (hin : OnGpu spectra tdata nz nbasis) (hD : D.Ok spectra nz nbasis) (hD' : D'.Ok spectra nz nbasis)
    (hw : weights.length = nrowsOf spectra) (hf : flux.length = nrowsOf spectra) (hwf : wflux.length = nrowsOf spectra) :
    calcZchi2BatchGpu D S cpSolve alg bounds spectra tdata weights flux wflux nz nbasis fp prior =
      calcZchi2BatchGpu D' S cpSolve alg bounds spectra tdata weights flux wflux nz nbasis fp prior := by
  by_cases hsum : weights.sum = 0
  · unfold calcZchi2BatchGpu
    rw [if_pos hsum, if_pos hsum]
  have hsol : ∀ z, solveMatricesGpu S cpSolve alg bounds ((List.range nz).map (fun i => addPrior (normalM (tbOf spectra tdata nbasis i) weights nbasis) prior))
      ((List.range nz).map (fun i => normalY (tbOf spectra tdata nbasis i) wflux nbasis)) = .ok z → z.length = nz ∧ ∀ c ∈ z, c.length = nbasis := by
    intro z h
    by_cases halg : alg = .other
    · subst halg; cases h
    rw [solveGpu_mapM S cpSolve alg halg, zip_map_range, List.mapM_map] at h
    have hF := mapM_inv _ _ _ h
    refine ⟨by rw [← hF.length_eq]; simp, ?_⟩
    intro c hc
    obtain ⟨i, _, hi⟩ := mapM_ok_mem _ _ _ h c hc
    rw [gpuOne_len S cpSolve hS alg bounds _ _ c hi, normalY_length]
  rw [gpuBatch_eq D S cpSolve alg bounds spectra tdata weights flux wflux nz nbasis fp prior hsum hin hD hw hf hwf hsol,
    gpuBatch_eq D' S cpSolve alg bounds spectra tdata weights flux wflux nz nbasis fp prior hsum hin hD' hw hf hwf hsol]

end
end Redrock.Gpu
