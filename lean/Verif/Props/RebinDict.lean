import Verif.Model.RebinDict
import Verif.Props.RebinGpu

/-!
Properties C103 and C104: rebinning to a dictionary of wavelength grids, with precomputed edges and on the GPU.
-/
set_option linter.unusedSectionVars false
namespace Redrock

section
variable {K : Type} [Field K] [LinearOrder K] {ω R : Type}

/-- the first and last edge of a non-empty array -/
theorem centers2edges_ne {wave edges : List K} (h : centers2edges wave = .ok edges) : ∃ e0 mid el, edges = e0 :: (mid ++ [el]) := by
  unfold centers2edges at h
  simp only at h
  cases h0 : npGet wave 0 with
  | error => rw [h0] at h; cases h
  | ok c0 =>
  cases h1 : npGet wave 1 with
  | error => rw [h0, h1] at h; cases h
  | ok c1 =>
  cases h2 : npGet (midpoints wave) 0 with
  | error => rw [h0, h1, h2] at h; cases h
  | ok m0 =>
  cases h3 : npGetNeg wave 1 with
  | error => rw [h0, h1, h2, h3] at h; cases h
  | ok cl =>
  cases h4 : npGetNeg (midpoints wave) 1 with
  | error => rw [h0, h1, h2, h3, h4] at h; cases h
  | ok ml =>
  rw [h0, h1, h2, h3, h4] at h
  cases h
  exact ⟨_, _, _, rfl⟩

theorem ends_of {wave edges : List K} (h : centers2edges wave = .ok edges) : ∃ lo hi, npGet edges 0 = .ok lo ∧ npGetNeg edges 1 = .ok hi ∧ gpuEdges wave = .ok (.tuple edges lo hi) := by
  obtain ⟨e0, mid, el, rfl⟩ := centers2edges_ne h
  have h1 : npGet (e0 :: (mid ++ [el])) 0 = .ok e0 := rfl
  have h2 : npGetNeg (e0 :: (mid ++ [el])) 1 = .ok el := by
    unfold npGetNeg
    rw [if_pos (by simp)]
    unfold npGet
    have : (e0 :: (mid ++ [el]))[(e0 :: (mid ++ [el])).length - 1]? = some el := by
      rw [← List.getLast?_eq_getElem?]
      rw [← List.cons_append, List.getLast?_concat]
    rw [this]
  refine ⟨e0, el, h1, h2, ?_⟩
  unfold gpuEdges
  rw [h, okBind, h1, okBind, h2, okBind]
  rfl

/-- giving the first and last edge is the same as leaving them out -/
theorem withRange_edges {x edges zs : List K} {xmin xmax : Option K} {lo hi : K} (h1 : npGet edges 0 = .ok lo) (h2 : npGetNeg edges 1 = .ok hi) (empty : R) (compute : Py R) :
    withRange x edges zs { xmin := xmin, xmax := xmax, edgeMin := some lo, edgeMax := some hi } empty compute =
      withRange x edges zs { xmin := xmin, xmax := xmax } empty compute := by
  unfold withRange
  simp only [orDefault, h1, h2]

/-- all entries are tuples made by `gpuEdges`: the loop is a loop over the grids -/
theorem edgeLoop_tuples (f : List K → Option K → Option K → Py R) (g : List K → Py R)
    (hfg : ∀ edges lo hi, npGet edges 0 = .ok lo → npGetNeg edges 1 = .ok hi → f edges (some lo) (some hi) = g edges) (mn mx : Option K) (dwave : PyDict ω (List K)) (ded : PyDict ω (EdgeSpec K))
    (h : dwave.mapM (fun kw => do
      let e ← gpuEdges kw.2
      return (kw.1, e)) = .ok ded) :
    edgeLoop f mn mx ded = dwave.mapM (fun kw => do
      let edges ← centers2edges kw.2
      let r ← g edges
      return (kw.1, r)) := by
  induction dwave generalizing ded mn mx with
  | nil => cases h; rfl
  | cons kw rest ih =>
    obtain ⟨k, w⟩ := kw
    rw [List.mapM_cons] at h
    cases hc : centers2edges w with
    | error e =>
      unfold gpuEdges at h
      rw [hc] at h
      cases h
    | ok edges =>
      obtain ⟨lo, hi, h1, h2, h3⟩ := ends_of hc
      simp only [h3, okBind] at h
      cases hr : List.mapM (fun (kw : ω × List K) => do
          let e ← gpuEdges kw.2
          return (kw.1, e)) rest with
      | error e => rw [hr] at h; cases h
      | ok ds =>
        rw [hr] at h
        cases h
        rw [List.mapM_cons]
        simp only [hc, okBind]
        show edgeLoop f mn mx ((k, .tuple edges lo hi) :: ds) = _
        simp only [edgeLoop]
        rw [hfg edges lo hi h1 h2, ih (some lo) (some hi) ds hr]
        cases g edges <;> rfl

/-- all entries are arrays: the loop is a loop over the grids -/
theorem edgeLoop_plain (f : List K → Option K → Option K → Py R) (dwave : PyDict ω (List K)) (ded : PyDict ω (EdgeSpec K))
    (h : dwave.mapM (fun kw => do
      let e ← centers2edges kw.2
      return (kw.1, EdgeSpec.plain e)) = .ok ded) :
    edgeLoop f none none ded = dwave.mapM (fun kw => do
      let edges ← centers2edges kw.2
      let r ← f edges none none
      return (kw.1, r)) := by
  induction dwave generalizing ded with
  | nil => cases h; rfl
  | cons kw rest ih =>
    obtain ⟨k, w⟩ := kw
    rw [List.mapM_cons] at h
    cases hc : centers2edges w with
    | error e => rw [hc] at h; cases h
    | ok edges =>
      simp only [hc, okBind] at h
      cases hr : List.mapM (fun (kw : ω × List K) => do
          let e ← centers2edges kw.2
          return (kw.1, EdgeSpec.plain e)) rest with
      | error e => rw [hr] at h; cases h
      | ok ds =>
        rw [hr] at h
        cases h
        rw [List.mapM_cons]
        simp only [hc, okBind]
        show edgeLoop f none none ((k, .plain edges) :: ds) = _
        simp only [edgeLoop]
        rw [ih ds hr]
        cases f edges none none <;> rfl

/-- **C103** precomputed edges with their first and last value: on the CPU and on the GPU `rebin_template` gives for `dedges` exactly what it gives for the wavelengths (the same arrays or the same error). -/
theorem C103_precomputed_edges (twave zs : List K) (flux : List (List K)) (xmin xmax : Option K) (dwave : PyDict ω (List K)) (ded : PyDict ω (EdgeSpec K))
    (h : dwave.mapM (fun kw => do
      let e ← gpuEdges kw.2
      return (kw.1, e)) = .ok ded) :
    rebinTemplateEdges (fun e a => trapzRebinOpt twave flux e zs a) twave zs xmin xmax ded = rebinTemplateWaves (fun e a => trapzRebinOpt twave flux e zs a) twave zs xmin xmax dwave ∧
    rebinTemplateEdges (fun e a => trapzRebinGpuOpt twave flux e zs a) twave zs xmin xmax ded = rebinTemplateWaves (fun e a => trapzRebinGpuOpt twave flux e zs a) twave zs xmin xmax dwave := by
  unfold rebinTemplateEdges rebinTemplateWaves
  cases templateRange twave zs xmin xmax with
  | error e => exact ⟨rfl, rfl⟩
  | ok p =>
    obtain ⟨lo, hi⟩ := p
    simp only [okBind]
    constructor
    · exact edgeLoop_tuples _ (fun e => trapzRebinOpt twave flux e zs { xmin := some lo, xmax := some hi }) (fun edges a b h1 h2 => withRange_edges h1 h2 _ _) none none dwave ded h
    · exact edgeLoop_tuples _ (fun e => trapzRebinGpuOpt twave flux e zs { xmin := some lo, xmax := some hi }) (fun edges a b h1 h2 => withRange_edges h1 h2 _ _) none none dwave ded h

/-- **C103** the same for precomputed edges given as arrays. -/
theorem C103_precomputed_arrays (trapz : List K → RangeArgs K → Py R) (twave zs : List K) (xmin xmax : Option K) (dwave : PyDict ω (List K)) (ded : PyDict ω (EdgeSpec K))
    (h : dwave.mapM (fun kw => do
      let e ← centers2edges kw.2
      return (kw.1, EdgeSpec.plain e)) = .ok ded) :
    rebinTemplateEdges trapz twave zs xmin xmax ded = rebinTemplateWaves trapz twave zs xmin xmax dwave := by
  unfold rebinTemplateEdges rebinTemplateWaves
  cases templateRange twave zs xmin xmax with
  | error e => rfl
  | ok p => exact edgeLoop_plain _ dwave ded h

end

/-- **C103** refuted for a mixture of both: an array after a tuple is checked against the range of the tuple. Here the second grid (centers 2 and 4, edges 1, 3, 5) is beyond the template (1 to 3): given by
wavelengths `ValueError` is raised, given by edges the arrays are read beyond their end (the same on the GPU). -/
theorem C103_mixture_refuted :
    centers2edges (K := ℚ) [3 / 2, 5 / 2] = .ok [1, 2, 3] ∧ centers2edges (K := ℚ) [2, 4] = .ok [1, 3, 5] ∧
    (rebinTemplateWaves (K := ℚ) (fun e a => trapzRebinOpt [1, 2, 3] [[1, 1, 1]] e [0] a) [1, 2, 3] [0] none none [((0 : Nat), [3 / 2, 5 / 2]), (1, [2, 4])] :
      Py (List (Nat × List (List (List ℚ))))) = .error .valueError ∧
    (rebinTemplateEdges (K := ℚ) (fun e a => trapzRebinOpt [1, 2, 3] [[1, 1, 1]] e [0] a) [1, 2, 3] [0] none none [((0 : Nat), .tuple [1, 2, 3] 1 3), (1, .plain [1, 3, 5])] :
      Py (List (Nat × List (List (List ℚ))))) = .error .indexError ∧
    (rebinTemplateEdges (K := ℚ) (fun e a => trapzRebinGpuOpt [1, 2, 4] [[1, 1, 1]] e [0] a) [1, 2, 4] [0] none none [((0 : Nat), .tuple [1, 2, 3] 1 3), (1, .plain [1, 3, 5])] :
      Py (List (Nat × List ℚ))) = .error .indexError := by
  decide +kernel

/-- the hypotheses of the theorems above are met by two grids -/
example : (rebinTemplateEdges (K := ℚ) (fun e a => trapzRebinOpt [1, 2, 3] [[1, 3, 1]] e [0] a) [1, 2, 3] [0] none none [((0 : Nat), .tuple [1, 2, 3] 1 3), (1, .tuple [3 / 2, 2, 5 / 2] (3 / 2) (5 / 2))] :
      Py (List (Nat × List (List (List ℚ))))) = .ok [(0, [[[2, 2]]]), (1, [[[5 / 2, 5 / 2]]])] := by decide +kernel

/-! ### GPU and CPU -/

/-- Specification: the flat array `r` is the array `R[iz][ibasis][ibin]` in the order `(iz, ibin, ibasis)`. -/
def SameArray (nz nbin nbasis : Nat) (R : List (List (List ℝ))) (r : List ℝ) : Prop :=
  r.length = nz * nbin * nbasis ∧ ∀ iz ibin ibasis, iz < nz → ibin < nbin → ibasis < nbasis →
    ∃ Rz Rb v, R[iz]? = some Rz ∧ Rz[ibasis]? = some Rb ∧ Rb[ibin]? = some v ∧ r[(iz * nbin + ibin) * nbasis + ibasis]? = some v

/-- two loops over the same list that agree step by step agree -/
theorem mapM_agree {α β γ : Type} (f : α → Py β) (g : α → Py γ) (e : PyErr) (P : α → β → γ → Prop) (l : List α)
    (h : ∀ a ∈ l, (f a = .error e ∧ g a = .error e) ∨ ∃ b c, f a = .ok b ∧ g a = .ok c ∧ P a b c) :
    ((∃ a ∈ l, f a = .error e) ∧ l.mapM f = .error e ∧ l.mapM g = .error e) ∨
    ∃ bs cs, l.mapM f = .ok bs ∧ l.mapM g = .ok cs ∧ List.Forall₂ (fun (a : α) (bc : β × γ) => f a = .ok bc.1 ∧ P a bc.1 bc.2) l (bs.zip cs) ∧ bs.length = cs.length := by
  induction l with
  | nil => exact .inr ⟨[], [], rfl, rfl, .nil, rfl⟩
  | cons a l ih =>
    rw [List.mapM_cons, List.mapM_cons]
    rcases h a (by simp) with ⟨h1, h2⟩ | ⟨b, c, h1, h2, h3⟩
    · rw [h1, h2]; exact .inl ⟨⟨a, by simp, h1⟩, rfl, rfl⟩
    · rw [h1, h2, okBind, okBind]
      rcases ih (fun x hx => h x (by simp [hx])) with ⟨⟨x, hx, k0⟩, k1, k2⟩ | ⟨bs, cs, k1, k2, k3, k4⟩
      · rw [k1, k2]; exact .inl ⟨⟨x, by simp [hx], k0⟩, rfl, rfl⟩
      · rw [k1, k2]
        exact .inr ⟨b :: bs, c :: cs, rfl, rfl, .cons ⟨h1, h3⟩ k3, by simp [k4]⟩

section
variable {ω : Type}

/-- the range check with the default range -/
theorem withRange_default {R : Type} {x edges zs : List ℝ} {xmin xmax : ℝ} (hz : zs ≠ []) (h : templateRange x zs none none = .ok (xmin, xmax)) (empty : R) (compute : Py R) :
    withRange x edges zs { xmin := some xmin, xmax := some xmax } empty compute = withRange x edges zs {} empty compute := by
  unfold templateRange at h
  simp only [orDefault] at h
  unfold withRange
  simp only [orDefault, if_neg hz]
  cases h1 : npMax zs with
  | error e => rw [h1] at h; cases h
  | ok zmax =>
  cases h2 : npGet x 0 with
  | error e => rw [h1, h2] at h; cases h
  | ok x0 =>
  cases h3 : npMin zs with
  | error e => rw [h1, h2, h3] at h; cases h
  | ok zmin =>
  cases h4 : npGetNeg x 1 with
  | error e => rw [h1, h2, h3, h4] at h; cases h
  | ok xl =>
  rw [h1, h2, h3, h4] at h
  cases h
  rfl

theorem trapzRebin_eq_withRange {x : List ℝ} {ys : List (List ℝ)} {edges zs : List ℝ} : trapzRebin x ys edges zs = withRange x edges zs {} [] (trapzRebinBatch x ys edges zs) := by
  unfold trapzRebin withRange
  simp only [orDefault]
  cases npGet edges 0 with
  | error e => rfl
  | ok a =>
  cases npGetNeg edges 1 with
  | error e => rfl
  | ok b =>
  simp only [okBind]
  by_cases hz : zs = []
  · rw [if_pos hz, if_pos hz]
  rw [if_neg hz, if_neg hz]
  obtain ⟨zmin, hmin⟩ := npMin_ne zs hz
  obtain ⟨zmax, hmax⟩ : ∃ m, npMax zs = .ok m := by
    cases zs with
    | nil => exact absurd rfl hz
    | cons a t => exact ⟨_, rfl⟩
  rw [hmin, hmax]
  simp only [okBind]
  cases npGet x 0 with
  | error e => rfl
  | ok x0 =>
  cases npGetNeg x 1 <;> rfl

/-- one wavelength grid -/
theorem grid_agree (x : List ℝ) (ys : List (List ℝ)) (edges zs : List ℝ) (hne : x ≠ []) (hene : edges ≠ []) (hx : x.Pairwise (· < ·)) (hx0 : ∀ v ∈ x, 0 ≤ v)
    (hys : ∀ y ∈ ys, y.length = x.length) (he : edges.Pairwise (· < ·)) (hzn : zs ≠ []) (hz : ∀ z ∈ zs, -1 < z)
    (hco : ∀ z ∈ zs, ∀ e ∈ edges, (redshifted x z)[x.length - 1]? ≠ some e) :
    ((∃ z ∈ zs, ¬ InRange (redshifted x z) edges) ∧ withRange x edges zs {} [] (trapzRebinBatch x ys edges zs) = .error .valueError ∧
      withRange x edges zs {} [] (trapzRebinGpu x ys edges zs) = .error .valueError) ∨
    ((∀ z ∈ zs, InRange (redshifted x z) edges) ∧ ∃ R r, withRange x edges zs {} [] (trapzRebinBatch x ys edges zs) = .ok R ∧
      withRange x edges zs {} [] (trapzRebinGpu x ys edges zs) = .ok r ∧ SameArray zs.length (edges.length - 1) ys.length R r ∧
      List.Forall₂ (fun z rz => List.Forall₂ (fun y rb => IsRebinned (redshifted x z) y edges rb) ys rz) zs R) := by
  have hxl : 0 < x.length := List.length_pos_of_ne_nil hne
  have hel : 0 < edges.length := List.length_pos_of_ne_nil hene
  obtain ⟨zmin, hmin⟩ := npMin_ne zs hzn
  obtain ⟨zmax, hmax⟩ : ∃ m, npMax zs = .ok m := by
    cases zs with
    | nil => exact absurd rfl hzn
    | cons a t => exact ⟨_, rfl⟩
  have g1 : npGet edges 0 = .ok edges[0] := (npGet_ok _ _ _).2 (List.getElem?_eq_getElem hel)
  have g2 : npGetNeg edges 1 = .ok edges[edges.length - 1] := (npGetNeg_ok _ _ _).2 ⟨hel, List.getElem?_eq_getElem (by omega)⟩
  have g3 : npGet x 0 = .ok x[0] := (npGet_ok _ _ _).2 (List.getElem?_eq_getElem hxl)
  have g4 : npGetNeg x 1 = .ok x[x.length - 1] := (npGetNeg_ok _ _ _).2 ⟨hxl, List.getElem?_eq_getElem (by omega)⟩
  have hW : ∀ {R : Type} (empty : R) (compute : Py R), withRange x edges zs {} empty compute =
      if edges[0] < x[0] * ((1:ℝ) + zmax) ∨ x[x.length - 1] * ((1:ℝ) + zmin) < edges[edges.length - 1] then .error .valueError else compute := by
    intro R empty compute
    unfold withRange
    simp only [orDefault, g1, g2, g3, g4, hmin, hmax, okBind, if_neg hzn]
    show (if _ then _ else _) = _
    split <;> rfl
  by_cases hall : ∀ z ∈ zs, InRange (redshifted x z) edges
  · refine .inr ⟨hall, ?_⟩
    obtain ⟨R0, hR0, hF⟩ := (C36_trapz_rebin x ys edges zs hne hene hx hx0 (fun y hy => (hys y hy).ge) he hz).2 hall
    obtain ⟨R, r, h1, h2, h3, h4⟩ := C35_gpu_eq_cpu x ys edges zs hne hene hx hx0 hys he hz hall (by
      intro z hzm e hem xl hxl'
      refine lt_of_le_of_ne ((hall z hzm e hem (x[0] * (1 + z)) xl (by simp [redshifted, hxl]) (by simpa [redshifted] using hxl')).2) ?_
      rintro rfl
      exact hco z hzm e hem hxl')
    have : R0 = R := by rw [h1] at hR0; exact (Except.ok.inj hR0).symm
    subst this
    have hC : ¬ (edges[0] < x[0] * ((1:ℝ) + zmax) ∨ x[x.length - 1] * ((1:ℝ) + zmin) < edges[edges.length - 1]) := by
      intro hC
      rw [trapzRebin_eq_withRange, hW, if_pos hC] at h1
      cases h1
    refine ⟨R0, r, by rw [← trapzRebin_eq_withRange]; exact h1, by rw [hW, if_neg hC]; exact h2, ⟨h3, h4⟩, hF⟩
  · push Not at hall
    refine .inl ⟨hall, ?_⟩
    have h0 := (C36_trapz_rebin x [] edges zs hne hene hx hx0 (by simp) he hz).1 hall
    rw [trapzRebin_eq_withRange, hW] at h0
    have hC : edges[0] < x[0] * ((1:ℝ) + zmax) ∨ x[x.length - 1] * ((1:ℝ) + zmin) < edges[edges.length - 1] := by
      by_contra hC
      rw [if_neg hC] at h0
      obtain ⟨b, hb, -⟩ := mapM_forall₂ (trapzRebinZ x [] edges) (fun _ _ => True) zs (fun z _ => ⟨[], rfl, trivial⟩)
      unfold trapzRebinBatch at h0
      rw [hb] at h0
      cases h0
    rw [hW, hW, if_pos hC, if_pos hC]
    exact ⟨rfl, rfl⟩

/-- Specification: the redshifted template covers the bins of the wavelength grid `w`. -/
def CoversGrid (twave : List ℝ) (z : ℝ) (w : List ℝ) : Prop := ∀ edges, centers2edges w = .ok edges → InRange (redshifted twave z) edges

/-- **C103** `rebin_template` on the GPU with precomputed edges and on the CPU with wavelengths, for all templates, redshifts and increasing wavelength grids such that no bin edge coincides with the last
redshifted sample (see C35 for that): if some grid is not covered at some redshift, both raise `ValueError`. Otherwise both succeed, with the same keys in the same order, the numbers in each pair of arrays
are the same, and they are the exactly rebinned spectra. -/
theorem C103_gpu_equals_cpu_partial (twave zs : List ℝ) (flux : List (List ℝ)) (dwave : PyDict ω (List ℝ)) (ded : PyDict ω (EdgeSpec ℝ)) (hne : twave ≠ []) (hx : twave.Pairwise (· < ·))
    (hx0 : ∀ v ∈ twave, 0 ≤ v) (hys : ∀ y ∈ flux, y.length = twave.length) (hzn : zs ≠ []) (hz : ∀ z ∈ zs, -1 < z)
    (hw : ∀ kw ∈ dwave, 2 ≤ kw.2.length ∧ kw.2.Pairwise (· < ·))
    (hco : ∀ kw ∈ dwave, ∀ edges, centers2edges kw.2 = .ok edges → ∀ z ∈ zs, ∀ e ∈ edges, (redshifted twave z)[twave.length - 1]? ≠ some e)
    (hded : dwave.mapM (fun kw => do
      let e ← gpuEdges kw.2
      return (kw.1, e)) = .ok ded) :
    let cpu := rebinTemplateWaves (fun e a => trapzRebinOpt twave flux e zs a) twave zs none none dwave
    let gpu := rebinTemplateEdges (fun e a => trapzRebinGpuOpt twave flux e zs a) twave zs none none ded
    ((∃ kw ∈ dwave, ∃ z ∈ zs, ¬ CoversGrid twave z kw.2) ∧ cpu = .error .valueError ∧ gpu = .error .valueError) ∨
    ((∀ kw ∈ dwave, ∀ z ∈ zs, CoversGrid twave z kw.2) ∧ ∃ R r, cpu = .ok R ∧ gpu = .ok r ∧ R.length = dwave.length ∧ r.length = dwave.length ∧
      ∀ (i : Nat) k w, dwave[i]? = some (k, w) → ∃ A a edges, R[i]? = some (k, A) ∧ r[i]? = some (k, a) ∧ centers2edges w = .ok edges ∧ SameArray zs.length w.length flux.length A a ∧
        List.Forall₂ (fun z rz => List.Forall₂ (fun y rb => IsRebinned (redshifted twave z) y edges rb) flux rz) zs A) := by
  intro cpu gpu
  have hgpu : gpu = _ := (C103_precomputed_edges twave zs flux none none dwave ded hded).2
  have hxl : 0 < twave.length := List.length_pos_of_ne_nil hne
  obtain ⟨zmin, hmin⟩ := npMin_ne zs hzn
  obtain ⟨zmax, hmax⟩ : ∃ m, npMax zs = .ok m := by
    cases zs with
    | nil => exact absurd rfl hzn
    | cons a t => exact ⟨_, rfl⟩
  have g3 : npGet twave 0 = .ok twave[0] := (npGet_ok _ _ _).2 (List.getElem?_eq_getElem hxl)
  have g4 : npGetNeg twave 1 = .ok twave[twave.length - 1] := (npGetNeg_ok _ _ _).2 ⟨hxl, List.getElem?_eq_getElem (by omega)⟩
  obtain ⟨lo, hi, hrange⟩ : ∃ lo hi, templateRange twave zs none none = .ok (lo, hi) := by
    unfold templateRange
    simp only [orDefault, g3, g4, hmin, hmax, okBind]
    exact ⟨_, _, rfl⟩
  rw [hgpu]
  simp only [cpu]
  unfold rebinTemplateWaves
  rw [hrange]
  simp only [okBind]
  have step := mapM_agree (fun kw : ω × List ℝ => do
      let edges ← centers2edges kw.2
      let r ← trapzRebinOpt twave flux edges zs { xmin := some lo, xmax := some hi }
      return (kw.1, r)) (fun kw : ω × List ℝ => do
      let edges ← centers2edges kw.2
      let r ← trapzRebinGpuOpt twave flux edges zs { xmin := some lo, xmax := some hi }
      return (kw.1, r)) .valueError
      (fun kw b c => (∀ z ∈ zs, CoversGrid twave z kw.2) ∧ b.1 = kw.1 ∧ c.1 = kw.1 ∧ ∃ edges, centers2edges kw.2 = .ok edges ∧ SameArray zs.length kw.2.length flux.length b.2 c.2 ∧
        List.Forall₂ (fun z rz => List.Forall₂ (fun y rb => IsRebinned (redshifted twave z) y edges rb) flux rz) zs b.2) dwave
  have grid : ∀ kw ∈ dwave, ∃ edges, centers2edges kw.2 = .ok edges ∧ edges.length - 1 = kw.2.length ∧
    (((∃ z ∈ zs, ¬ InRange (redshifted twave z) edges) ∧ trapzRebinOpt twave flux edges zs { xmin := some lo, xmax := some hi } = .error .valueError ∧
      trapzRebinGpuOpt twave flux edges zs { xmin := some lo, xmax := some hi } = .error .valueError) ∨
    ((∀ z ∈ zs, InRange (redshifted twave z) edges) ∧ ∃ R r, trapzRebinOpt twave flux edges zs { xmin := some lo, xmax := some hi } = .ok R ∧
      trapzRebinGpuOpt twave flux edges zs { xmin := some lo, xmax := some hi } = .ok r ∧ SameArray zs.length (edges.length - 1) flux.length R r ∧
      List.Forall₂ (fun z rz => List.Forall₂ (fun y rb => IsRebinned (redshifted twave z) y edges rb) flux rz) zs R)) := by
    intro kw hkw
    obtain ⟨edges, h1, h2, h3, -⟩ := C32_centers2edges kw.2 (hw kw hkw).1 (hw kw hkw).2
    refine ⟨edges, h1, by omega, ?_⟩
    unfold trapzRebinOpt trapzRebinGpuOpt
    rw [withRange_default hzn hrange, withRange_default hzn hrange]
    exact grid_agree twave flux edges zs hne (by rintro rfl; simp at h2) hx hx0 hys h3 hzn hz (hco kw hkw edges h1)
  have step := step (by
    intro kw hkw
    obtain ⟨edges, h1, h2, h | ⟨h0, R, r, h3, h4, h5, h6⟩⟩ := grid kw hkw
    · left
      simp only [h1, okBind, h.2.1, h.2.2]
      exact ⟨rfl, rfl⟩
    · right
      refine ⟨(kw.1, R), (kw.1, r), ?_, ?_, ?_, rfl, rfl, edges, h1, ?_, h6⟩
      · simp only [h1, okBind, h3]; rfl
      · simp only [h1, okBind, h4]; rfl
      · intro z hzm edges' h'
        rw [h1] at h'; cases h'
        exact h0 z hzm
      · rw [← h2]; exact h5)
  rcases step with ⟨⟨kw, hkw, hk⟩, s1, s2⟩ | ⟨bs, cs, s1, s2, s3, s4⟩
  · left
    refine ⟨⟨kw, hkw, ?_⟩, s1, s2⟩
    obtain ⟨edges, h1, h2, h | ⟨h0, R, r, h3, h4, h5, h6⟩⟩ := grid kw hkw
    · obtain ⟨z, hzm, hb⟩ := h.1
      exact ⟨z, hzm, fun hcov => hb (hcov edges h1)⟩
    · simp only [h1, okBind, h3] at hk
      cases hk
  · right
    obtain ⟨s5, s6⟩ := List.forall₂_iff_get.1 s3
    rw [List.length_zip] at s5
    refine ⟨?_, bs, cs, s1, s2, by omega, by omega, ?_⟩
    · intro kw hkw
      obtain ⟨i, hi, rfl⟩ := List.mem_iff_getElem.1 hkw
      have := (s6 i hi (by rw [List.length_zip]; omega)).2.1
      simpa using this
    · intro i k w hkw
      obtain ⟨hi, hkw⟩ := List.getElem?_eq_some_iff.1 hkw
      have := (s6 i hi (by rw [List.length_zip]; omega)).2
      simp only [List.get_eq_getElem, hkw, List.getElem_zip] at this
      obtain ⟨t0, t1, t2, edges, t3, t4, t5⟩ := this
      refine ⟨bs[i].2, cs[i].2, edges, ?_, ?_, t3, t4, t5⟩
      · rw [List.getElem?_eq_getElem (by omega), ← t1]
      · rw [List.getElem?_eq_getElem (by omega), ← t2]

/-- the range that `fitz` passes is the default range -/
theorem C103_fitz_range {R : Type} (trapz : List ℝ → RangeArgs ℝ → Py R) (twave zs : List ℝ) (ded : PyDict ω (EdgeSpec ℝ)) (zmax zmin x0 xl : ℝ) (h1 : npMax zs = .ok zmax) (h2 : npMin zs = .ok zmin)
    (h3 : npGet twave 0 = .ok x0) (h4 : npGetNeg twave 1 = .ok xl) :
    rebinTemplateEdges trapz twave zs (some (x0 * (1 + zmax))) (some (xl * (1 + zmin))) ded = rebinTemplateEdges trapz twave zs none none ded := by
  unfold rebinTemplateEdges templateRange
  simp only [orDefault, h1, h2, h3, h4, okBind]
  rfl

/-! ### archetypes -/

/-- Specification: the archetype at rest covers the bins of the grid. -/
def CoversAtRest (twave : List ℝ) (w : List ℝ) : Prop := ∀ edges, centers2edges w = .ok edges → InRange twave edges

/-- Specification: the flat array `r` is the array `R[iarch][ibin]` in the order `(ibin, iarch)`. -/
def SameArchArray (nbin narch : Nat) (R : List (List ℝ)) (r : List ℝ) : Prop :=
  r.length = nbin * narch ∧ ∀ ibin iarch, ibin < nbin → iarch < narch → ∃ Rb v, R[iarch]? = some Rb ∧ Rb[ibin]? = some v ∧ r[ibin * narch + iarch]? = some v

/-- redshifting the wavelengths first or in `trapz_rebin` -/
theorem trapzRebin_redshifted (x : List ℝ) (ys : List (List ℝ)) (edges : List ℝ) (z : ℝ) : trapzRebin (x.map (fun v => (1 + z) * v)) ys edges [0] = trapzRebin x ys edges [z] := by
  have e1 : x.map (fun v => (1 + z) * v) = x.map (fun v => v * (1 + z)) := List.map_congr_left (fun v _ => mul_comm _ _)
  rw [e1]
  unfold trapzRebin
  have hm1 : ∀ a : ℝ, npMax [a] = .ok a := fun a => rfl
  have hm2 : ∀ a : ℝ, npMin [a] = .ok a := fun a => rfl
  simp only [hm1, hm2, okBind]
  have hb : trapzRebinBatch (x.map (fun v => v * (1 + z))) ys edges [0] = trapzRebinBatch x ys edges [z] := by
    simp only [trapzRebinBatch, List.mapM_cons, List.mapM_nil]
    have : trapzRebinZ (x.map (fun v => v * (1 + z))) ys edges 0 = trapzRebinZ x ys edges z := by
      unfold trapzRebinZ
      simp only [List.map_map]
      congr 1
      funext y
      congr 1
      apply List.map_congr_left
      intro v _
      simp
    rw [this]
  rw [hb]
  have hg : npGet (x.map (fun v => v * (1 + z))) 0 = (npGet x 0).map (fun v => v * (1 + z)) := by
    unfold npGet
    rw [List.getElem?_map]
    cases x[0]? <;> rfl
  have hl : npGetNeg (x.map (fun v => v * (1 + z))) 1 = (npGetNeg x 1).map (fun v => v * (1 + z)) := by
    unfold npGetNeg npGet
    simp only [List.length_map, List.getElem?_map]
    split_ifs
    · cases x[x.length - 1]? <;> rfl
    · rfl
  rw [hg, hl]
  cases npGet edges 0 with
  | error e => rfl
  | ok a =>
  cases npGetNeg edges 1 with
  | error e => rfl
  | ok b =>
  simp only [okBind]
  cases npGet x 0 with
  | error e => rfl
  | ok x0 =>
  cases npGetNeg x 1 with
  | error e => rfl
  | ok xl =>
  simp only [Except.map, okBind]
  simp

/-- what the GPU code does for one grid -/
theorem arch_gpu_grid (A : Archetype ℝ) (z : ℝ) (edges : List ℝ) (x0 xl e0 el : ℝ) (h3 : npGet edges 0 = .ok e0) (h4 : npGetNeg edges 1 = .ok el) :
    trapzRebinGpuOpt A.wave A.flux edges [z] { xmin := some x0, xmax := some xl } = if e0 < x0 ∨ xl < el then .error .valueError else trapzRebinGpu A.wave A.flux edges [z] := by
  unfold trapzRebinGpuOpt withRange
  simp only [orDefault, h3, h4, okBind]
  rw [if_neg (by simp)]
  show (if _ then _ else _) = _
  split <;> rfl

/-- the grids of a target: the GPU loop is a loop over the grids -/
theorem arch_gpu_loop (A : Archetype ℝ) (z : ℝ) (dwave : PyDict ω (List ℝ)) (ded : PyDict ω (EdgeSpec ℝ)) (x0 xl : ℝ) (h1 : npGet A.wave 0 = .ok x0) (h2 : npGetNeg A.wave 1 = .ok xl)
    (hded : dwave.mapM (fun kw => do
      let e ← gpuEdges kw.2
      return (kw.1, e)) = .ok ded) :
    A.rebinBatchGpu z ded = dwave.mapM (fun kw => do
      let edges ← centers2edges kw.2
      let r ← trapzRebinGpuOpt A.wave A.flux edges [z] { xmin := some x0, xmax := some xl }
      return (kw.1, r)) := by
  unfold Archetype.rebinBatchGpu
  rw [h1, h2]
  simp only [okBind]
  exact edgeLoop_tuples _ (fun e => trapzRebinGpuOpt A.wave A.flux e [z] { xmin := some x0, xmax := some xl }) (fun edges a b h1 h2 => withRange_edges h1 h2 _ _) none none dwave ded hded

/-- a well-formed archetype file -/
structure Archetype.Ok (A : Archetype ℝ) : Prop where
  ne : A.wave ≠ []
  sorted : A.wave.Pairwise (· < ·)
  nonneg : ∀ v ∈ A.wave, 0 ≤ v
  len : ∀ y ∈ A.flux, y.length = A.wave.length

/-- InRange by the first and last edge -/
theorem inRange_ends {x edges : List ℝ} (hne : x ≠ []) (he : edges.Pairwise (· < ·)) {x0 xl e0 el : ℝ} (h1 : npGet x 0 = .ok x0) (h2 : npGetNeg x 1 = .ok xl) (h3 : npGet edges 0 = .ok e0)
    (h4 : npGetNeg edges 1 = .ok el) : InRange x edges ↔ ¬ (e0 < x0 ∨ xl < el) := by
  rw [npGet_ok] at h1 h3
  rw [npGetNeg_ok] at h2 h4
  obtain ⟨hl0, h3'⟩ := List.getElem?_eq_some_iff.1 h3
  obtain ⟨hl1, h4'⟩ := List.getElem?_eq_some_iff.1 h4.2
  rw [not_or, not_lt, not_lt]
  constructor
  · intro h
    exact ⟨(h e0 (h3' ▸ List.getElem_mem _) x0 xl h1 h2.2).1, (h el (h4' ▸ List.getElem_mem _) x0 xl h1 h2.2).2⟩
  · rintro ⟨k1, k2⟩ e hem a b ha hb
    rw [h1] at ha; cases ha
    rw [h2.2] at hb; cases hb
    obtain ⟨k, hk, rfl⟩ := List.mem_iff_getElem.1 hem
    constructor
    · refine k1.trans ?_
      rw [← h3']
      rcases Nat.eq_zero_or_pos k with h | h
      · subst h; exact le_refl _
      · exact (List.pairwise_iff_getElem.1 he 0 k hl0 hk h).le
    · refine le_trans ?_ k2
      rw [← h4']
      rcases Nat.lt_or_ge k (edges.length - 1) with h | h
      · exact (List.pairwise_iff_getElem.1 he k (edges.length - 1) hk hl1 h).le
      · have : k = edges.length - 1 := by omega
        subst this; exact le_refl _

/-- one grid that the redshifted archetype covers -/
theorem arch_grid (A : Archetype ℝ) (hA : A.Ok) (z : ℝ) (hz : -1 < z) (w : List ℝ) (hw2 : 2 ≤ w.length) (hw : w.Pairwise (· < ·))
    (hco : ∀ edges, centers2edges w = .ok edges → ∀ e ∈ edges, (redshifted A.wave z)[A.wave.length - 1]? ≠ some e) (hcov : CoversGrid A.wave z w)
    {x0 xl : ℝ} (h1 : npGet A.wave 0 = .ok x0) (h2 : npGetNeg A.wave 1 = .ok xl) :
    ∃ edges R r, centers2edges w = .ok edges ∧ A.rebinAll z w = .ok R ∧ SameArchArray w.length A.flux.length R r ∧
      (CoversAtRest A.wave w → trapzRebinGpuOpt A.wave A.flux edges [z] { xmin := some x0, xmax := some xl } = .ok r) ∧
      (¬ CoversAtRest A.wave w → trapzRebinGpuOpt A.wave A.flux edges [z] { xmin := some x0, xmax := some xl } = .error .valueError) := by
  obtain ⟨edges, e1, e2, e3, -⟩ := C32_centers2edges w hw2 hw
  obtain ⟨lo, hi, e4, e5, -⟩ := ends_of e1
  have hxl : 0 < A.wave.length := List.length_pos_of_ne_nil hA.ne
  have hin := hcov edges e1
  obtain ⟨R, r, c1, c2, c3, c4⟩ := C35_gpu_eq_cpu A.wave A.flux edges [z] hA.ne (by rintro rfl; simp at e2) hA.sorted hA.nonneg hA.len e3 (by simpa using hz) (by simpa using hin) (by
    intro z' hz' e hem v hv
    rw [List.mem_singleton] at hz'; subst hz'
    refine lt_of_le_of_ne ((hin e hem (A.wave[0] * (1 + z')) v (by simp [redshifted, hxl]) (by simpa [redshifted] using hv)).2) ?_
    rintro rfl
    exact hco edges e1 e hem hv)
  have hnb : edges.length - 1 = w.length := by omega
  rw [hnb] at c3 c4
  have hR0 : ∃ R0, R[0]? = some R0 := by
    have hl : R.length = 1 := by
      rw [trapzRebin_eq_withRange] at c1
      obtain ⟨R', hR', hF⟩ := (C36_trapz_rebin A.wave A.flux edges [z] hA.ne (by rintro rfl; simp at e2) hA.sorted hA.nonneg (fun y hy => (hA.len y hy).ge) e3 (by simpa using hz)).2 (by simpa using hin)
      rw [trapzRebin_eq_withRange, c1] at hR'
      cases hR'
      simpa using hF.length_eq.symm
    exact ⟨R[0], List.getElem?_eq_getElem (by omega)⟩
  obtain ⟨R0, hR0⟩ := hR0
  refine ⟨edges, R0, r, e1, ?_, ⟨by simpa using c3, ?_⟩, ?_, ?_⟩
  · unfold Archetype.rebinAll
    rw [e1, okBind, trapzRebin_redshifted, c1, okBind]
    exact (npGet_ok _ _ _).2 hR0
  · intro ibin iarch k1 k2
    obtain ⟨Rz, Rb, v, d1, d2, d3, d4⟩ := c4 0 ibin iarch (by simp) k1 k2
    rw [hR0] at d1; cases d1
    exact ⟨Rb, v, d2, d3, by simpa using d4⟩
  · intro hrest
    rw [arch_gpu_grid A z edges x0 xl lo hi e4 e5, if_neg ((inRange_ends hA.ne e3 h1 h2 e4 e5).1 (hrest edges e1))]
    exact c2
  · intro hrest
    rw [arch_gpu_grid A z edges x0 xl lo hi e4 e5, if_pos]
    by_contra hC
    apply hrest
    intro edges' h'
    rw [e1] at h'; cases h'
    exact (inRange_ends hA.ne e3 h1 h2 e4 e5).2 hC

/-- a loop in which some step raises `ValueError` and no step anything else -/
theorem mapM_some_error {α β : Type} (f : α → Py β) (e : PyErr) (l : List α) (h : ∀ a ∈ l, f a = .error e ∨ ∃ b, f a = .ok b) (hb : ∃ a ∈ l, f a = .error e) : l.mapM f = .error e := by
  induction l with
  | nil => obtain ⟨a, ha, _⟩ := hb; cases ha
  | cons a l ih =>
    rw [List.mapM_cons]
    rcases h a (by simp) with h1 | ⟨b, h1⟩
    · rw [h1]; rfl
    · rw [h1, okBind]
      obtain ⟨a', ha', hb'⟩ := hb
      rcases List.mem_cons.1 ha' with rfl | ha'
      · rw [h1] at hb'; cases hb'
      · rw [ih (fun x hx => h x (by simp [hx])) ⟨a', ha', hb'⟩]; rfl

/-- **C104** the archetypes rebinned on the GPU and on the CPU are the same, if the archetype covers every grid at redshift `z` and also at rest (no bin edge being the last redshifted sample, see C35). -/
theorem C104_same_partial (A : Archetype ℝ) (hA : A.Ok) (z : ℝ) (hz : -1 < z) (dwave : PyDict ω (List ℝ)) (ded : PyDict ω (EdgeSpec ℝ)) (hw : ∀ kw ∈ dwave, 2 ≤ kw.2.length ∧ kw.2.Pairwise (· < ·))
    (hco : ∀ kw ∈ dwave, ∀ edges, centers2edges kw.2 = .ok edges → ∀ e ∈ edges, (redshifted A.wave z)[A.wave.length - 1]? ≠ some e)
    (hded : dwave.mapM (fun kw => do
      let e ← gpuEdges kw.2
      return (kw.1, e)) = .ok ded)
    (hcov : ∀ kw ∈ dwave, CoversGrid A.wave z kw.2) (hrest : ∀ kw ∈ dwave, CoversAtRest A.wave kw.2) :
    ∃ R r, A.rebinBatch z dwave = .ok R ∧ A.rebinBatchGpu z ded = .ok r ∧ R.length = dwave.length ∧ r.length = dwave.length ∧
      ∀ (i : Nat) k w, dwave[i]? = some (k, w) → ∃ B b, R[i]? = some (k, B) ∧ r[i]? = some (k, b) ∧ SameArchArray w.length A.flux.length B b := by
  have hxl : 0 < A.wave.length := List.length_pos_of_ne_nil hA.ne
  have h1 : npGet A.wave 0 = .ok A.wave[0] := (npGet_ok _ _ _).2 (List.getElem?_eq_getElem hxl)
  have h2 : npGetNeg A.wave 1 = .ok A.wave[A.wave.length - 1] := (npGetNeg_ok _ _ _).2 ⟨hxl, List.getElem?_eq_getElem (by omega)⟩
  rw [arch_gpu_loop A z dwave ded _ _ h1 h2 hded]
  unfold Archetype.rebinBatch
  have step := mapM_agree (fun kw : ω × List ℝ => do
      let r ← A.rebinAll z kw.2
      return (kw.1, r)) (fun kw : ω × List ℝ => do
      let edges ← centers2edges kw.2
      let r ← trapzRebinGpuOpt A.wave A.flux edges [z] { xmin := some A.wave[0], xmax := some A.wave[A.wave.length - 1] }
      return (kw.1, r)) .valueError (fun kw b c => b.1 = kw.1 ∧ c.1 = kw.1 ∧ SameArchArray kw.2.length A.flux.length b.2 c.2) dwave
  have good : ∀ kw ∈ dwave, _ := fun kw hkw => arch_grid A hA z hz kw.2 (hw kw hkw).1 (hw kw hkw).2 (hco kw hkw) (hcov kw hkw) h1 h2
  rcases step (by
    intro kw hkw
    obtain ⟨edges, R, r, e1, e2, e3, e4, -⟩ := good kw hkw
    right
    refine ⟨(kw.1, R), (kw.1, r), ?_, ?_, rfl, rfl, e3⟩
    · simp only [e2, okBind]; rfl
    · simp only [e1, okBind, e4 (hrest kw hkw)]; rfl) with ⟨⟨kw, hkw, hk⟩, -⟩ | ⟨bs, cs, s1, s2, s3, s4⟩
  · obtain ⟨edges, R, r, e1, e2, -⟩ := good kw hkw
    simp only [e2, okBind] at hk
    cases hk
  · obtain ⟨s5, s6⟩ := List.forall₂_iff_get.1 s3
    rw [List.length_zip] at s5
    refine ⟨bs, cs, s1, s2, by omega, by omega, ?_⟩
    intro i k w hkw
    obtain ⟨hi, hkw⟩ := List.getElem?_eq_some_iff.1 hkw
    have := (s6 i hi (by rw [List.length_zip]; omega)).2
    simp only [List.get_eq_getElem, hkw, List.getElem_zip] at this
    obtain ⟨t1, t2, t4⟩ := this
    refine ⟨bs[i].2, cs[i].2, ?_, ?_, t4⟩
    · rw [List.getElem?_eq_getElem (by omega), ← t1]
    · rw [List.getElem?_eq_getElem (by omega), ← t2]

/-- **C104** refuted: the GPU code compares the observed wavelengths with the rest-frame range of the archetypes. Whenever the redshifted archetypes cover all grids but the rest-frame range does not contain one of
them, the CPU code succeeds and the GPU code raises `ValueError`. -/
theorem C104_spurious_error_refuted (A : Archetype ℝ) (hA : A.Ok) (z : ℝ) (hz : -1 < z) (dwave : PyDict ω (List ℝ)) (ded : PyDict ω (EdgeSpec ℝ))
    (hw : ∀ kw ∈ dwave, 2 ≤ kw.2.length ∧ kw.2.Pairwise (· < ·))
    (hco : ∀ kw ∈ dwave, ∀ edges, centers2edges kw.2 = .ok edges → ∀ e ∈ edges, (redshifted A.wave z)[A.wave.length - 1]? ≠ some e)
    (hded : dwave.mapM (fun kw => do
      let e ← gpuEdges kw.2
      return (kw.1, e)) = .ok ded)
    (hcov : ∀ kw ∈ dwave, CoversGrid A.wave z kw.2) (hrest : ∃ kw ∈ dwave, ¬ CoversAtRest A.wave kw.2) :
    (∃ R, A.rebinBatch z dwave = .ok R) ∧ A.rebinBatchGpu z ded = .error .valueError := by
  have hxl : 0 < A.wave.length := List.length_pos_of_ne_nil hA.ne
  have h1 : npGet A.wave 0 = .ok A.wave[0] := (npGet_ok _ _ _).2 (List.getElem?_eq_getElem hxl)
  have h2 : npGetNeg A.wave 1 = .ok A.wave[A.wave.length - 1] := (npGetNeg_ok _ _ _).2 ⟨hxl, List.getElem?_eq_getElem (by omega)⟩
  rw [arch_gpu_loop A z dwave ded _ _ h1 h2 hded]
  have good : ∀ kw ∈ dwave, _ := fun kw hkw => arch_grid A hA z hz kw.2 (hw kw hkw).1 (hw kw hkw).2 (hco kw hkw) (hcov kw hkw) h1 h2
  constructor
  · unfold Archetype.rebinBatch
    obtain ⟨R, hR, -⟩ := mapM_forall₂ (fun kw : ω × List ℝ => (do
      let r ← A.rebinAll z kw.2
      return (kw.1, r) : Py (ω × List (List ℝ)))) (fun _ _ => True) dwave (by
        intro kw hkw
        obtain ⟨edges, R, r, e1, e2, -⟩ := good kw hkw
        exact ⟨(kw.1, R), by simp only [e2, okBind]; rfl, trivial⟩)
    exact ⟨R, hR⟩
  · refine mapM_some_error _ _ _ ?_ ?_
    · intro kw hkw
      obtain ⟨edges, R, r, e1, e2, e3, e4, e5⟩ := good kw hkw
      by_cases hr : CoversAtRest A.wave kw.2
      · right; exact ⟨(kw.1, r), by simp only [e1, okBind, e4 hr]; rfl⟩
      · left; simp only [e1, okBind, e5 hr]; rfl
    · obtain ⟨kw, hkw, hr⟩ := hrest
      obtain ⟨edges, R, r, e1, e2, e3, e4, e5⟩ := good kw hkw
      exact ⟨kw, hkw, by simp only [e1, okBind, e5 hr]; rfl⟩

/-- **C104** refuted the other way: if the first grid is within the rest-frame range but starts below the redshifted archetypes, the CPU code raises `ValueError`, while the GPU code passes its check and reads
before the start of the arrays. -/
theorem C104_out_of_bounds_refuted (A : Archetype ℝ) (hA : A.Ok) (hf : A.flux ≠ []) (z : ℝ) (hz : -1 < z) (k : ω) (w : List ℝ) (rest : PyDict ω (List ℝ)) (ded : PyDict ω (EdgeSpec ℝ))
    (hw2 : 2 ≤ w.length) (hw : w.Pairwise (· < ·))
    (hded : List.mapM (fun kw : ω × List ℝ => do
      let e ← gpuEdges kw.2
      return (kw.1, e)) ((k, w) :: rest) = .ok ded)
    (hrest : CoversAtRest A.wave w) (hbelow : ∀ edges, centers2edges w = .ok edges → ∀ e0 x0, edges[0]? = some e0 → A.wave[0]? = some x0 → e0 < x0 * (1 + z)) :
    A.rebinBatch z ((k, w) :: rest) = .error .valueError ∧ A.rebinBatchGpu z ded = .error .indexError := by
  have hxl : 0 < A.wave.length := List.length_pos_of_ne_nil hA.ne
  have h1 : npGet A.wave 0 = .ok A.wave[0] := (npGet_ok _ _ _).2 (List.getElem?_eq_getElem hxl)
  have h2 : npGetNeg A.wave 1 = .ok A.wave[A.wave.length - 1] := (npGetNeg_ok _ _ _).2 ⟨hxl, List.getElem?_eq_getElem (by omega)⟩
  obtain ⟨edges, e1, e2, e3, -⟩ := C32_centers2edges w hw2 hw
  obtain ⟨lo, hi, e4, e5, -⟩ := ends_of e1
  have hlo : edges[0]? = some lo := (npGet_ok _ _ _).1 e4
  have hlt := hbelow edges e1 lo A.wave[0] hlo (List.getElem?_eq_getElem hxl)
  have hz1 : 0 < 1 + z := by linarith
  have hbad : ¬ InRange (redshifted A.wave z) edges := by
    intro h
    have := (h lo (List.mem_of_getElem? hlo) (A.wave[0] * (1 + z)) (A.wave[A.wave.length - 1] * (1 + z)) (by simp [redshifted, hxl]) (by simp [redshifted, hxl])).1
    linarith
  have hcpu := (C36_trapz_rebin A.wave A.flux edges [z] hA.ne (by rintro rfl; simp at e2) hA.sorted hA.nonneg (fun y hy => (hA.len y hy).ge) e3 (by simpa using hz)).1 ⟨z, by simp, hbad⟩
  constructor
  · unfold Archetype.rebinBatch
    rw [List.mapM_cons]
    simp only [Archetype.rebinAll, e1, okBind, trapzRebin_redshifted, hcpu]
    rfl
  · rw [arch_gpu_loop A z _ ded _ _ h1 h2 hded, List.mapM_cons]
    simp only [e1, okBind]
    rw [arch_gpu_grid A z edges _ _ lo hi e4 e5, if_neg ((inRange_ends hA.ne e3 h1 h2 e4 e5).1 (hrest edges e1))]
    have hs : searchsortedRight A.wave (lo / (1 + z)) = 0 := by
      unfold searchsortedRight
      obtain ⟨a, t, ha⟩ := List.exists_cons_of_ne_nil hA.ne
      simp only [ha, List.getElem_cons_zero] at hlt ⊢
      rw [List.takeWhile_cons_of_neg, List.length_nil]
      simp only [decide_eq_true_eq, not_le]
      rwa [div_lt_iff₀ hz1]
    have hth : trapzRebinGpu A.wave A.flux edges [z] = .error .indexError := by
      unfold trapzRebinGpu
      simp only
      obtain ⟨y, ys, hy⟩ := List.exists_cons_of_ne_nil hf
      have hn : [z].length * (edges.length - 1) * A.flux.length = (w.length * A.flux.length - 1) + 1 := by
        have : 0 < w.length * A.flux.length := Nat.mul_pos (by omega) (by rw [hy]; simp)
        simp only [List.length_singleton, Nat.one_mul]
        rw [show edges.length - 1 = w.length by omega]
        omega
      rw [hn, List.range_succ_eq_map, List.mapM_cons]
      have : gpuThread A.wave A.flux.flatten edges [z] ([z].flatMap (fun z => edges.map (fun e => searchsortedRight A.wave (e / (1 + z))))) (edges.length - 1) A.flux.length A.wave.length 0 = .error .indexError := by
        unfold gpuThread
        simp only [Nat.zero_mod, Nat.zero_div, Nat.zero_add, Nat.add_zero]
        rw [show npGet [z] 0 = .ok z from rfl]
        have i0 : npGet ([z].flatMap (fun z => edges.map (fun e => searchsortedRight A.wave (e / (1 + z))))) 0 = .ok 0 := by
          rw [npGet_ok]
          simp only [List.flatMap_cons, List.flatMap_nil, List.append_nil, List.getElem?_map, hlo, Option.map_some, hs]
        have i1 : ∃ v, npGet ([z].flatMap (fun z => edges.map (fun e => searchsortedRight A.wave (e / (1 + z))))) 1 = .ok v := by
          refine ⟨searchsortedRight A.wave (edges[1] / (1 + z)), ?_⟩
          rw [npGet_ok]
          simp only [List.flatMap_cons, List.flatMap_nil, List.append_nil, List.getElem?_map, List.getElem?_eq_getElem (show 1 < edges.length by omega), Option.map_some]
        obtain ⟨v, i1⟩ := i1
        rw [i0, i1]
        simp only [okBind, h1]
        rfl
      rw [this]
      rfl
    rw [hth]
    rfl

/-- both refutations on numbers: archetypes from 1 to 4; at redshift 1 a grid from 5/2 to 9/2 (CPU fine, GPU `ValueError`) and a grid from 1 to 3 (CPU `ValueError`, GPU out of bounds) -/
example :
    let A : Archetype ℚ := { wave := [1, 2, 4], flux := [[1, 3, 1]], rrtype := [], subtype := [] }
    (A.rebinBatch 1 [((0 : Nat), [3, 4])] : Py (List (Nat × List (List ℚ)))) = .ok [(0, [[2, 45 / 16]])] ∧
    (A.rebinBatchGpu 1 [((0 : Nat), .tuple [5 / 2, 7 / 2, 9 / 2] (5 / 2) (9 / 2))] : Py (List (Nat × List ℚ))) = .error .valueError ∧
    (A.rebinBatch 1 [((0 : Nat), [3 / 2, 5 / 2])] : Py (List (Nat × List (List ℚ)))) = .error .valueError ∧
    (A.rebinBatchGpu 1 [((0 : Nat), .tuple [1, 2, 3] 1 3)] : Py (List (Nat × List ℚ))) = .error .indexError := by decide +kernel

/-- the hypotheses of the three theorems are met -/
example : ∃ (A : Archetype ℝ) (w1 w2 w3 : List ℝ), A.Ok ∧ CoversGrid A.wave 1 w1 ∧ CoversAtRest A.wave w1 ∧ CoversGrid A.wave 1 w2 ∧ ¬ CoversAtRest A.wave w2 ∧ CoversAtRest A.wave w3 ∧
    ¬ CoversGrid A.wave 1 w3 := by
  have c1 : centers2edges [(5 / 2 : ℝ), 7 / 2] = .ok [2, 3, 4] := by simp [centers2edges, midpoints, npGet, npGetNeg, okBind]; norm_num [pure, Except.pure]
  have c2 : centers2edges [(3 : ℝ), 4] = .ok [5 / 2, 7 / 2, 9 / 2] := by simp [centers2edges, midpoints, npGet, npGetNeg, okBind]; norm_num [pure, Except.pure]
  have c3 : centers2edges [(3 / 2 : ℝ), 5 / 2] = .ok [1, 2, 3] := by simp [centers2edges, midpoints, npGet, npGetNeg, okBind]; norm_num [pure, Except.pure]
  refine ⟨{ wave := [1, 2, 4], flux := [[1, 3, 1]], rrtype := [], subtype := [] }, [5 / 2, 7 / 2], [3, 4], [3 / 2, 5 / 2], ⟨by simp, by norm_num, by norm_num, by simp⟩, ?_, ?_, ?_, ?_, ?_, ?_⟩
  · intro e he; rw [c1] at he; cases he; intro e he x0 xl h0 hl; simp [redshifted] at h0 hl he; subst h0 hl; rcases he with rfl | rfl | rfl <;> norm_num
  · intro e he; rw [c1] at he; cases he; intro e he x0 xl h0 hl; simp at h0 hl he; subst h0 hl; rcases he with rfl | rfl | rfl <;> norm_num
  · intro e he; rw [c2] at he; cases he; intro e he x0 xl h0 hl; simp [redshifted] at h0 hl he; subst h0 hl; rcases he with rfl | rfl | rfl <;> norm_num
  · intro h; have := (h _ c2 (9 / 2) (by simp) 1 4 (by simp) (by simp)).2; norm_num at this
  · intro e he; rw [c3] at he; cases he; intro e he x0 xl h0 hl; simp at h0 hl he; subst h0 hl; rcases he with rfl | rfl | rfl <;> norm_num
  · intro h; have := (h _ c3 1 (by simp) 2 8 (by norm_num [redshifted]) (by norm_num [redshifted])).1; norm_num at this

end
end Redrock
