import Verif.Props.GpuRun
import Verif.Props.RebinDict

/-!
C124: redrock's own rebinning on the GPU meets the condition `SameBinning`.
-/
namespace Redrock.Gpu
open Redrock Run Catalogue FullRun

theorem npMax_ne {l : List ℝ} (h : l ≠ []) : ∃ m, npMax l = .ok m := by
  cases l with
  | nil => exact absurd rfl h
  | cons a t => exact ⟨_, rfl⟩

/-- the flat array of the GPU, read through its strides -/
theorem nested_of_same (n0 n1 n2 : Nat) (r : List ℝ) (g : Nat → Nat → Nat → ℝ) (h : ∀ i j k, i < n0 → j < n1 → k < n2 → r[(i * n1 + j) * n2 + k]? = some (g i j k)) :
    (Array3.ofFlat r n0 n1 n2).nested = (List.range n0).map (fun i => (List.range n1).map (fun j => (List.range n2).map (g i j))) := by
  unfold Array3.nested Array3.ofFlat
  apply List.map_congr_left
  intro i hi
  apply List.map_congr_left
  intro j hj
  apply List.map_congr_left
  intro k hk
  rw [List.mem_range] at hi hj hk
  have := h i j k hi hj hk
  show r.getD (i * (n1 * n2) + j * n2 + k * 1) 0 = _
  rw [show i * (n1 * n2) + j * n2 + k * 1 = (i * n1 + j) * n2 + k by ring, List.getD_eq_getElem?_getD, this]
  rfl

/-- **C124** redrock's own rebinning on the GPU meets the condition of `C124_gpu_run_partial`: for a template with increasing wavelengths, on every increasing wavelength grid and at all redshifts above -1 such that
no bin edge coincides with the last redshifted template wavelength, the GPU gives the array that the CPU gives, or both raise because the template does not cover the grid. -/
theorem C124_physical {ω σ : Type} [DecidableEq ω] (tm : Tmpl ω ℝ σ) (waveOf : ω → List ℝ) (twave : List ℝ) (flux : List (List ℝ)) (igm : IgmModel) (h : ω)
    (ht : GoodTemplate twave flux) (hw : GoodGrid (waveOf h)) (hi : igm ≠ .unknown) (zs : List ℝ) (hne : zs ≠ []) (hz : ∀ z ∈ zs, -1 < z)
    (hco : ∀ z ∈ zs, ∀ e ∈ edgesOf (waveOf h), (redshifted twave z)[twave.length - 1]? ≠ some e) :
    SameBinning (physTmpl tm waveOf twave flux igm) (fun h zs => physBinGpu twave flux igm (waveOf h) zs) (waveOf h).length h zs := by
  obtain ⟨e1, e2, e3⟩ := edgesOf_spec (waveOf h) hw
  generalize hwave : waveOf h = wave at *
  obtain ⟨ded, hded⟩ : ∃ ded, gpuEdges wave = .ok ded := by
    unfold gpuEdges
    rw [e1]
    simp only [okBind]
    rw [(npGet_ok _ _ _).2 (List.getElem?_eq_getElem (show 0 < (edgesOf wave).length by omega)), (npGetNeg_ok _ _ _).2 ⟨by omega, List.getElem?_eq_getElem (show (edgesOf wave).length - 1 < (edgesOf wave).length by omega)⟩]
    exact ⟨_, rfl⟩
  have hmap : ([((), wave)] : PyDict Unit (List ℝ)).mapM (fun kw => do
      let e ← gpuEdges kw.2
      return (kw.1, e)) = .ok [((), ded)] := by
    rw [List.mapM_cons]
    simp only [hded, okBind]
    rfl
  have key := C103_gpu_equals_cpu_partial twave zs flux ([((), wave)] : PyDict Unit (List ℝ)) [((), ded)] ht.1 ht.2.1 ht.2.2.1 ht.2.2.2 hne hz
    (by intro kw hk; simp only [List.mem_singleton] at hk; subst hk; exact ⟨hw.1, hw.2.1⟩)
    (by
      intro kw hk edges hed z hzm e he
      simp only [List.mem_singleton] at hk
      subst hk
      rw [e1] at hed
      rw [← Except.ok.inj hed] at he
      exact hco z hzm e he) hmap
  unfold SameBinning
  simp only [physTmpl, hwave]
  rcases key with ⟨⟨kw, hk, z, hzm, hnc⟩, hcpu, hgpu⟩ | ⟨hcov, R, r, hcpu, hgpu, hR, hr, hall⟩
  · simp only [List.mem_singleton] at hk
    subst hk
    have hnr : ¬ InRange (redshifted twave z) (edgesOf wave) := by
      intro hin
      apply hnc
      intro edges hed
      rw [e1] at hed
      rw [← Except.ok.inj hed]
      exact hin
    have hc : rebinTemplate twave flux wave zs = .error .valueError := rebinTemplate_error ht hw hz ⟨z, hzm, hnr⟩
    rw [hc]
    show physBinGpu twave flux igm wave zs = .error .valueError
    unfold physBinGpu
    rw [hded]
    simp only [okBind]
    rw [hgpu]
    rfl
  · have hin : ∀ z ∈ zs, InRange (redshifted twave z) (edgesOf wave) := fun z hzm => hcov ((), wave) (by simp) z hzm _ e1
    rw [show (do
      let binned ← rebinTemplate twave flux wave zs
      let t ← transmissionLyman (.array zs) (.array wave) igm false
      let T ← matOf t
      pure (applyTransmission T binned) : Py _) = .ok (zs.map (gridTemplate twave flux wave igm)) from fitGrid_eq ht hw hi hne hz hin]
    obtain ⟨A, a, edges, g1, g2, g3, g4, g5⟩ := hall 0 () wave rfl
    rw [e1] at g3
    obtain rfl := Except.ok.inj g3
    obtain ⟨glen, gel⟩ := g4
    have hrone : r = [((), a)] := by
      match r, hr, g2 with
      | [x], _, g2 =>
        simp only [List.getElem?_cons_zero, Option.some.injEq] at g2
        rw [g2]
    have hval : ∀ i j k, i < zs.length → j < wave.length → k < flux.length → a[(i * wave.length + j) * flux.length + k]? = some (binAverage twave (flux.getD k []) (edgesOf wave) (zs.getD i 0) j) := by
      intro i j k hi' hj hk
      obtain ⟨Rz, Rb, v, h1, h2, h3, h4⟩ := gel i j k hi' hj hk
      rw [h4]
      obtain ⟨gl, gall⟩ := List.forall₂_iff_get.1 g5
      have hRz := gall i hi' (by omega)
      obtain ⟨hRzl, hRball⟩ := List.forall₂_iff_get.1 hRz
      simp only [List.get_eq_getElem] at hRzl hRball
      rw [List.getElem?_eq_getElem (by omega), Option.some.injEq] at h1
      subst h1
      have hRb := hRball k hk (by omega)
      rw [List.getElem?_eq_getElem (by omega), Option.some.injEq] at h2
      subst h2
      have hzm : zs[i] ∈ zs := List.getElem_mem _
      have hym : flux[k] ∈ flux := List.getElem_mem _
      have hx' := redshifted_sorted ht.2.1 (hz _ hzm)
      obtain ⟨r', q1, q2⟩ := trapzRebin1d_isRebinned (y := flux[k]) (by unfold redshifted; simpa using ht.1 : redshifted twave zs[i] ≠ [])
        (by unfold redshifted; simpa using (ht.2.2.2 _ hym).ge) hx' e3 (hin _ hzm)
      rw [rebin_eq_average ht.1 ht.2.1 (ht.2.2.2 _ hym).ge e3 (hz _ hzm) (hin _ hzm), Except.ok.injEq] at q1
      rw [← q1] at q2
      have := IsRebinned.unique hx' e3 hRb q2
      rw [this, List.getElem?_map, List.getElem?_range (by omega), Option.map_some, Option.some.injEq] at h3
      rw [← h3]
      simp [hi', hk]
    have hg : physBinGpu twave flux igm wave zs = (do
        let t ← transmissionLyman (.array zs) (.array wave) igm false
        let T ← matOf t
        match T with
        | none => return Array3.ofFlat a zs.length wave.length flux.length
        | some T => return mulTransmission T (Array3.ofFlat a zs.length wave.length flux.length)) := by
      unfold physBinGpu
      rw [hded]
      simp only [okBind]
      rw [hgpu, hrone]
      rfl
    have hlist : zs.map (gridTemplate twave flux wave igm) = (List.range zs.length).map (fun i => (List.range wave.length).map (fun j => (List.range flux.length).map (fun k =>
        binAverage twave (flux.getD k []) (edgesOf wave) (zs.getD i 0) j * pixelT igm (zs.getD i 0) (wave.getD j 0)))) := by
      apply List.ext_getElem
      · simp
      intro i h1 h2
      have hi' : i < zs.length := by simpa using h1
      simp only [List.getElem_map, List.getElem_range, gridTemplate]
      apply List.map_congr_left
      intro j _
      apply List.ext_getElem
      · simp
      intro k h3 h4
      have hk : k < flux.length := by simpa using h3
      simp [hi', hk]
    have hwne : wave ≠ [] := by
      intro h0
      rw [h0] at hw
      exact absurd hw.1 (by simp)
    rw [hg]
    rcases C69_pixelwise (.array zs) (.array wave) igm false hi hne hwne hz hw.2.2 with h' | ⟨h', -, h1⟩
    · rw [h', okBind]
      refine ⟨mulTransmission (zs.map (fun z => wave.map (fun l => pixelT igm z l))) (Array3.ofFlat a zs.length wave.length flux.length), rfl, ⟨rfl, rfl, rfl, ?_⟩, ?_, rfl, rfl, rfl⟩
      · simp [mulTransmission, Array3.ofFlat, glen]
      · rw [hlist]
        refine nested_of_same zs.length wave.length flux.length _ _ ?_
        intro i j k hi' hj hk
        have hb : 0 < flux.length := by omega
        have hn : 0 < wave.length := by omega
        have q1 : ((i * wave.length + j) * flux.length + k) / flux.length = i * wave.length + j := by rw [Nat.mul_comm, Nat.mul_add_div hb, Nat.div_eq_of_lt hk, Nat.add_zero]
        have q2 : ((i * wave.length + j) * flux.length + k) / flux.length % wave.length = j := by rw [q1, Nat.mul_add_mod_self_right, Nat.mod_eq_of_lt hj]
        have q3 : ((i * wave.length + j) * flux.length + k) / (wave.length * flux.length) = i := by
          rw [Nat.mul_comm wave.length flux.length, ← Nat.div_div_eq_div_mul, q1, Nat.mul_comm, Nat.mul_add_div hn, Nat.div_eq_of_lt hj, Nat.add_zero]
        show (List.map _ (List.zipIdx a))[_]? = _
        rw [List.getElem?_map, List.getElem?_zipIdx, hval i j k hi' hj hk]
        simp only [Option.map_some, Nat.zero_add]
        show some (_ * (List.getD _ (_ / (wave.length * flux.length)) []).getD (_ / flux.length % wave.length) 0) = _
        rw [q2, q3]
        simp [hi', hj]
    · rw [h', okBind]
      refine ⟨Array3.ofFlat a zs.length wave.length flux.length, rfl, ⟨rfl, rfl, rfl, glen⟩, ?_, rfl, rfl, rfl⟩
      rw [nested_of_same zs.length wave.length flux.length a _ hval, hlist]
      apply List.map_congr_left
      intro i hi'
      apply List.map_congr_left
      intro j hj
      apply List.map_congr_left
      intro k _
      rw [List.mem_range] at hi' hj
      rw [h1 (zs.getD i 0) (by simp [NpArg.toList, hi']) (wave.getD j 0) (by simp [NpArg.toList, hj]), mul_one]

/-- the hypotheses of `C124_physical` are met at three redshifts (at 0 the template does not cover the grid) -/
example (tm : Tmpl Unit ℝ Nat) : SameBinning (physTmpl tm (fun _ => [3600, 3700]) [0, 2000] [[1, 1], [0, 1]] .calura12) (fun _ zs => physBinGpu [0, 2000] [[1, 1], [0, 1]] .calura12 [3600, 3700] zs) 2 () [0, 1, 3] := by
  refine C124_physical tm (fun _ => [3600, 3700]) [0, 2000] [[1, 1], [0, 1]] .calura12 () ex_good.1 ex_good.2 (by simp) [0, 1, 3] (by simp) ?_ ?_
  · intro z h; simp at h; rcases h with rfl | rfl | rfl <;> norm_num
  · intro z h e he
    rw [ex_edges] at he
    simp at h he
    rcases h with rfl | rfl | rfl <;> rcases he with rfl | rfl | rfl <;> norm_num [redshifted]

end Redrock.Gpu
