import Verif.Model.Binned
import Verif.Props.Igm
import Verif.Props.Chi2
import Verif.Lemmas.Details

/-!
C69: binned templates and chi2 of a redshift do not depend on the other redshifts of the batch. C46: `Template.eval` is linear and ignores padding. C63: evaluated model versus fitted model.
-/
set_option linter.unusedSectionVars false
namespace Redrock
open MeasureTheory

/-! ### Specification -/

/-- A usable template: increasing non-negative wavelengths and one flux per wavelength for every basis vector. -/
def GoodTemplate (twave : List ℝ) (flux : List (List ℝ)) : Prop :=
  twave ≠ [] ∧ twave.Pairwise (· < ·) ∧ (∀ v ∈ twave, 0 ≤ v) ∧ ∀ y ∈ flux, y.length = twave.length

/-- A usable wavelength grid: at least two increasing positive wavelengths. -/
def GoodGrid (wave : List ℝ) : Prop := 2 ≤ wave.length ∧ wave.Pairwise (· < ·) ∧ ∀ l ∈ wave, 0 < l

/-- The bin edges of a grid (see `C32_centers2edges` for what they are). -/
noncomputable def edgesOf (wave : List ℝ) : List ℝ := (centers2edges wave).toOption.getD []

/-- Average over bin `p` of the interpolated, redshifted template. -/
noncomputable def binAverage (twave y edges : List ℝ) (z : ℝ) (p : Nat) : ℝ :=
  (∫ t in (edges.getD p 0)..(edges.getD (p + 1) 0), lerp (redshifted twave z) y t) / (edges.getD (p + 1) 0 - edges.getD p 0)

/-- The template on a grid at one redshift: bin averages times the transmission of the pixel. -/
noncomputable def gridTemplate (twave : List ℝ) (flux : List (List ℝ)) (wave : List ℝ) (igm : IgmModel) (z : ℝ) : List (List ℝ) :=
  (List.range wave.length).map (fun p => flux.map (fun y => binAverage twave y (edgesOf wave) z p * pixelT igm z (wave.getD p 0)))

/-! ### rebinning -/

theorem edgesOf_spec (wave : List ℝ) (h : GoodGrid wave) :
    centers2edges wave = .ok (edgesOf wave) ∧ (edgesOf wave).length = wave.length + 1 ∧ (edgesOf wave).Pairwise (· < ·) := by
  obtain ⟨e, h1, h2, h3, _⟩ := C32_centers2edges wave h.1 h.2.1
  have : edgesOf wave = e := by unfold edgesOf; rw [h1]; rfl
  rw [this]
  exact ⟨h1, h2, h3⟩

theorem rebin_eq_average {twave y edges : List ℝ} {z : ℝ} (hne : twave ≠ []) (hx : twave.Pairwise (· < ·)) (hlen : twave.length ≤ y.length) (he : edges.Pairwise (· < ·)) (hz : -1 < z)
    (hr : InRange (redshifted twave z) edges) :
    trapzRebin1d (redshifted twave z) y edges = .ok ((List.range (edges.length - 1)).map (binAverage twave y edges z)) := by
  have hne' : redshifted twave z ≠ [] := by unfold redshifted; simpa using hne
  have hx' := redshifted_sorted hx hz
  obtain ⟨r, h1, h2, h3⟩ := C33_trapz_rebin_exact (y := y) hne' (by unfold redshifted; simpa using hlen) hx' he hr _ (lerp_isInterpolant _ y hx')
  rw [h1]
  congr 1
  apply List.ext_getElem?
  intro p
  by_cases hp : p < edges.length - 1
  · have ha := List.getElem?_eq_getElem (show p < edges.length by omega)
    have hb := List.getElem?_eq_getElem (show p + 1 < edges.length by omega)
    obtain ⟨-, v, hv, hv2⟩ := h3 p _ _ ha hb
    have hlt := edge_lt he ha hb
    rw [hv, List.getElem?_map, List.getElem?_range hp, Option.map_some]
    congr 1
    unfold binAverage
    rw [List.getD_eq_getElem?_getD, List.getD_eq_getElem?_getD, ha, hb, Option.getD_some, Option.getD_some, ← hv2, mul_div_assoc, div_self (by linarith), mul_one]
  · rw [List.getElem?_eq_none (by omega), List.getElem?_eq_none (by simp; omega)]

/-- `trapz_rebin` as an explicit function of every redshift alone -/
theorem trapzRebin_eq {twave : List ℝ} {flux : List (List ℝ)} {edges zs : List ℝ} (hne : twave ≠ []) (hx : twave.Pairwise (· < ·)) (hx0 : ∀ v ∈ twave, 0 ≤ v)
    (hf : ∀ y ∈ flux, twave.length ≤ y.length) (hene : edges ≠ []) (he : edges.Pairwise (· < ·)) (hz : ∀ z ∈ zs, -1 < z) (hr : ∀ z ∈ zs, InRange (redshifted twave z) edges) :
    trapzRebin twave flux edges zs = .ok (zs.map (fun z => flux.map (fun y => (List.range (edges.length - 1)).map (binAverage twave y edges z)))) := by
  obtain ⟨r, h1, h2⟩ := (C36_trapz_rebin twave flux edges zs hne hene hx hx0 hf he hz).2 hr
  rw [h1]
  congr 1
  have inner : ∀ z ∈ zs, ∀ (fl : List (List ℝ)) (rz : List (List ℝ)), (∀ y ∈ fl, twave.length ≤ y.length) → List.Forall₂ (fun y rb => IsRebinned (redshifted twave z) y edges rb) fl rz →
      rz = fl.map (fun y => (List.range (edges.length - 1)).map (binAverage twave y edges z)) := by
    intro z hzm fl rz hfl h
    induction h with
    | nil => rfl
    | cons h _ ih =>
      rename_i y rb l1 l2 _
      rw [List.map_cons, ih (fun y hy => hfl y (List.mem_cons_of_mem _ hy))]
      congr 1
      have hx' := redshifted_sorted hx (hz z hzm)
      obtain ⟨r', g1, g2⟩ := trapzRebin1d_isRebinned (y := y) (by unfold redshifted; simpa using hne : redshifted twave z ≠ [])
        (by unfold redshifted; simpa using hfl y List.mem_cons_self) hx' he (hr z hzm)
      rw [rebin_eq_average hne hx (hfl y List.mem_cons_self) he (hz z hzm) (hr z hzm), Except.ok.injEq] at g1
      rw [← g1] at g2
      exact IsRebinned.unique hx' he h g2
  have aux : ∀ (l : List ℝ) (r : List (List (List ℝ))), List.Forall₂ (fun z rz => List.Forall₂ (fun y rb => IsRebinned (redshifted twave z) y edges rb) flux rz) l r → (∀ z ∈ l, z ∈ zs) →
      r = l.map (fun z => flux.map (fun y => (List.range (edges.length - 1)).map (binAverage twave y edges z))) := by
    intro l r h
    induction h with
    | nil => intro _; rfl
    | cons h _ ih =>
      intro hm
      rw [List.map_cons, inner _ (hm _ List.mem_cons_self) flux _ hf h, ih (fun z hz => hm z (List.mem_cons_of_mem _ hz))]
  exact aux zs r h2 (fun _ h => h)

theorem transposeBins_eq (flux : List (List ℝ)) (n : Nat) (g : List ℝ → Nat → ℝ) :
    transposeBins n (flux.map (fun y => (List.range n).map (g y))) = (List.range n).map (fun p => flux.map (fun y => g y p)) := by
  unfold transposeBins
  apply List.map_congr_left
  intro p hp
  rw [List.mem_range] at hp
  rw [List.map_map]
  apply List.map_congr_left
  intro y _
  simp [hp]

theorem rebinTemplate_eq {twave : List ℝ} {flux : List (List ℝ)} {wave zs : List ℝ} (ht : GoodTemplate twave flux) (hw : GoodGrid wave) (hzs : zs ≠ []) (hz : ∀ z ∈ zs, -1 < z)
    (hr : ∀ z ∈ zs, InRange (redshifted twave z) (edgesOf wave)) :
    rebinTemplate twave flux wave zs = .ok (zs.map (fun z => (List.range wave.length).map (fun p => flux.map (fun y => binAverage twave y (edgesOf wave) z p)))) := by
  obtain ⟨e1, e2, e3⟩ := edgesOf_spec wave hw
  unfold rebinTemplate
  rw [if_neg hzs, e1]
  have hene : edgesOf wave ≠ [] := by
    intro h
    rw [h] at e2
    simp at e2
  show (do
    let r ← trapzRebin twave flux (edgesOf wave) zs
    pure (r.map (transposeBins ((edgesOf wave).length - 1))) : Py _) = _
  rw [trapzRebin_eq ht.1 ht.2.1 ht.2.2.1 (fun y hy => (ht.2.2.2 y hy).ge) hene e3 hz hr, okBind, e2, Nat.add_sub_cancel, List.map_map]
  show (Except.ok _ : Py _) = _
  congr 1
  apply List.map_congr_left
  intro z _
  exact transposeBins_eq flux wave.length (fun y => binAverage twave y (edgesOf wave) z)

theorem rebinTemplate_error {twave : List ℝ} {flux : List (List ℝ)} {wave zs : List ℝ} (ht : GoodTemplate twave flux) (hw : GoodGrid wave) (hz : ∀ z ∈ zs, -1 < z)
    (hr : ∃ z ∈ zs, ¬ InRange (redshifted twave z) (edgesOf wave)) : rebinTemplate twave flux wave zs = .error .valueError := by
  obtain ⟨e1, e2, e3⟩ := edgesOf_spec wave hw
  have hene : edgesOf wave ≠ [] := by
    intro h
    rw [h] at e2
    simp at e2
  unfold rebinTemplate
  split
  · rfl
  · rw [e1]
    show (do
      let r ← trapzRebin twave flux (edgesOf wave) zs
      pure (r.map (transposeBins ((edgesOf wave).length - 1))) : Py _) = _
    rw [(C36_trapz_rebin twave flux (edgesOf wave) zs ht.1 hene ht.2.1 ht.2.2.1 (fun y hy => (ht.2.2.2 y hy).ge) e3 hz).1 hr]
    rfl

/-! ### the templates of the fit -/

variable {ω : Type} [DecidableEq ω]

theorem map_eq_range_map {α : Type} (l : List ℝ) (g : ℝ → α) : l.map g = (List.range l.length).map (fun p => g (l.getD p 0)) := by
  apply List.ext_getElem?
  intro p
  by_cases hp : p < l.length
  · simp [hp]
  · rw [List.getElem?_eq_none (by simp; omega), List.getElem?_eq_none (by simp; omega)]

theorem zipWith_map_map {α β γ δ : Type} (f : β → γ → δ) (g : α → β) (h : α → γ) (l : List α) : List.zipWith f (l.map g) (l.map h) = l.map (fun a => f (g a) (h a)) := by
  induction l with
  | nil => rfl
  | cons a l ih => simp [ih]

/-- one grid -/
theorem fitGrid_eq {twave : List ℝ} {flux : List (List ℝ)} {wave zs : List ℝ} {igm : IgmModel} (ht : GoodTemplate twave flux) (hw : GoodGrid wave) (hi : igm ≠ .unknown) (hzs : zs ≠ [])
    (hz : ∀ z ∈ zs, -1 < z) (hr : ∀ z ∈ zs, InRange (redshifted twave z) (edgesOf wave)) :
    (do
      let binned ← rebinTemplate twave flux wave zs
      let t ← transmissionLyman (.array zs) (.array wave) igm false
      let T ← matOf t
      return applyTransmission T binned : Py _) = .ok (zs.map (gridTemplate twave flux wave igm)) := by
  rw [rebinTemplate_eq ht hw hzs hz hr, okBind]
  have hwne : wave ≠ [] := by
    intro h
    rw [h] at hw
    exact absurd hw.1 (by simp)
  rcases C69_pixelwise (.array zs) (.array wave) igm false hi hzs hwne hz hw.2.2 with h | ⟨h, -, h1⟩
  · rw [h, okBind]
    show (Except.ok (applyTransmission (some (zs.map (fun z => wave.map (fun l => pixelT igm z l)))) _) : Py _) = _
    congr 1
    unfold applyTransmission
    dsimp only
    rw [zipWith_map_map]
    apply List.map_congr_left
    intro z _
    rw [map_eq_range_map wave, zipWith_map_map]
    unfold gridTemplate
    apply List.map_congr_left
    intro p _
    rw [List.map_map]
    rfl
  · rw [h, okBind]
    show (Except.ok _ : Py _) = _
    congr 1
    unfold applyTransmission
    dsimp only
    apply List.map_congr_left
    intro z hz
    unfold gridTemplate
    apply List.map_congr_left
    intro p hp
    rw [List.mem_range] at hp
    apply List.map_congr_left
    intro y _
    rw [h1 z hz (wave.getD p 0) (by simp [NpArg.toList, hp]), mul_one]

/-- **C69** the templates prepared for the scan and for the fit: for usable templates and grids, if every redshifted template covers every grid, the template on grid `k` at redshift `z` is `gridTemplate`
of that grid and redshift alone: bin average times transmission; otherwise `ValueError` is raised. -/
theorem C69_fit_templates (twave : List ℝ) (flux : List (List ℝ)) (dwave : PyDict ω (List ℝ)) (zs : List ℝ) (igm : IgmModel) (ht : GoodTemplate twave flux)
    (hw : ∀ kw ∈ dwave, GoodGrid kw.2) (hi : igm ≠ .unknown) (hzs : zs ≠ []) (hz : ∀ z ∈ zs, -1 < z) :
    ((∀ kw ∈ dwave, ∀ z ∈ zs, InRange (redshifted twave z) (edgesOf kw.2)) →
      fitTemplates twave flux dwave zs igm = .ok (dwave.map (fun kw => (kw.1, zs.map (gridTemplate twave flux kw.2 igm))))) ∧
    ((∃ kw ∈ dwave, ∃ z ∈ zs, ¬ InRange (redshifted twave z) (edgesOf kw.2)) → fitTemplates twave flux dwave zs igm = .error .valueError) := by
  have hone : ∀ kw ∈ dwave, (∀ z ∈ zs, InRange (redshifted twave z) (edgesOf kw.2)) → (do
      let binned ← rebinTemplate twave flux kw.2 zs
      let t ← transmissionLyman (.array zs) (.array kw.2) igm false
      let T ← matOf t
      return (kw.1, applyTransmission T binned) : Py _) = .ok (kw.1, zs.map (gridTemplate twave flux kw.2 igm)) := by
    intro kw hk hr
    have := fitGrid_eq ht (hw kw hk) hi hzs hz hr
    have e : (do
      let binned ← rebinTemplate twave flux kw.2 zs
      let t ← transmissionLyman (.array zs) (.array kw.2) igm false
      let T ← matOf t
      return (kw.1, applyTransmission T binned) : Py (ω × List (List (List ℝ)))) = (do
        let a ← (do
          let binned ← rebinTemplate twave flux kw.2 zs
          let t ← transmissionLyman (.array zs) (.array kw.2) igm false
          let T ← matOf t
          return applyTransmission T binned : Py _)
        return (kw.1, a)) := by
      simp only [bind_assoc, pure_bind]
    rw [e, this]
    rfl
  constructor
  · intro h
    exact mapM_Except_ok _ _ _ (fun kw hk => hone kw hk (h kw hk))
  · intro h
    unfold fitTemplates
    induction dwave with
    | nil => obtain ⟨kw, hk, _⟩ := h; cases hk
    | cons kw l ih =>
      rw [List.mapM_cons]
      by_cases hr : ∀ z ∈ zs, InRange (redshifted twave z) (edgesOf kw.2)
      · rw [hone kw List.mem_cons_self hr, okBind, ih (fun kw hk => hw kw (List.mem_cons_of_mem _ hk)) (fun kw hk => hone kw (List.mem_cons_of_mem _ hk))]
        · rfl
        · obtain ⟨kw', hk', h'⟩ := h
          rcases List.mem_cons.1 hk' with rfl | hk'
          · obtain ⟨z, h1, h2⟩ := h'
            exact absurd (hr z h1) h2
          · exact ⟨kw', hk', h'⟩
      · push Not at hr
        rw [rebinTemplate_error ht (hw kw List.mem_cons_self) hz hr]
        rfl

theorem get?_map_value {ν μ : Type} (d : PyDict ω ν) (F : ν → μ) (k : ω) : PyDict.get? (d.map (fun kw => (kw.1, F kw.2))) k = (d.get? k).map F := by
  unfold PyDict.get?
  rw [List.find?_map]
  simp only [Option.map_map]
  rfl

/-- what success of the preparation means -/
theorem fitTemplates_ok {twave : List ℝ} {flux : List (List ℝ)} {dwave : PyDict ω (List ℝ)} {zs : List ℝ} {igm : IgmModel} (ht : GoodTemplate twave flux)
    (hw : ∀ kw ∈ dwave, GoodGrid kw.2) (hi : igm ≠ .unknown) (hzs : zs ≠ []) (hz : ∀ z ∈ zs, -1 < z) {D : PyDict ω (List (List (List ℝ)))} (h : fitTemplates twave flux dwave zs igm = .ok D) :
    (∀ kw ∈ dwave, ∀ z ∈ zs, InRange (redshifted twave z) (edgesOf kw.2)) ∧ D = dwave.map (fun kw => (kw.1, zs.map (gridTemplate twave flux kw.2 igm))) := by
  obtain ⟨h1, h2⟩ := C69_fit_templates twave flux dwave zs igm ht hw hi hzs hz
  have hr : ∀ kw ∈ dwave, ∀ z ∈ zs, InRange (redshifted twave z) (edgesOf kw.2) := by
    by_contra hcon
    push Not at hcon
    rw [h2 hcon] at h
    cases h
  rw [h1 hr, Except.ok.injEq] at h
  exact ⟨hr, h.symm⟩

/-- **C69** chi2 and coefficients of a redshift do not depend on the batch: if the templates are prepared for the redshifts `zs` and for `zs'` (for instance two slices of the grid on different ranks, or the coarse
scan and the fine scan), and both batches are fitted to the same spectra, a redshift that occurs in both gets the same chi2 and coefficients. -/
theorem C69_same_chi2 (solve : List (List ℝ) → List ℝ → Py (List ℝ)) (spectra : List (FitSpectrum ω ℝ)) (twave : List ℝ) (flux : List (List ℝ)) (dwave : PyDict ω (List ℝ)) (igm : IgmModel)
    (ht : GoodTemplate twave flux) (hw : ∀ kw ∈ dwave, GoodGrid kw.2) (hi : igm ≠ .unknown) (zs zs' : List ℝ) (hz : ∀ z ∈ zs, -1 < z) (hz' : ∀ z ∈ zs', -1 < z)
    (P : Option (List (List ℝ))) (weights fl wflux : List ℝ) (D D' : PyDict ω (List (List (List ℝ)))) (r r' : List (ℝ × List ℝ))
    (hD : fitTemplates twave flux dwave zs igm = .ok D) (hD' : fitTemplates twave flux dwave zs' igm = .ok D')
    (hr : calcZchi2Batch solve spectra D weights fl wflux zs.length flux.length P = .ok r) (hr' : calcZchi2Batch solve spectra D' weights fl wflux zs'.length flux.length P = .ok r')
    (i i' : Nat) (z : ℝ) (h1 : zs[i]? = some z) (h2 : zs'[i']? = some z) : r[i]? = r'[i']? := by
  obtain ⟨b1, c1⟩ := List.getElem?_eq_some_iff.1 h1
  obtain ⟨b2, c2⟩ := List.getElem?_eq_some_iff.1 h2
  obtain ⟨-, rfl⟩ := fitTemplates_ok ht hw hi (by intro h; rw [h] at b1; simp at b1) hz hD
  obtain ⟨-, rfl⟩ := fitTemplates_ok ht hw hi (by intro h; rw [h] at b2; simp at b2) hz' hD'
  unfold calcZchi2Batch at hr hr'
  split at hr
  · rename_i hs
    rw [if_pos hs, Except.ok.injEq] at hr'
    rw [Except.ok.injEq] at hr
    rw [← hr, ← hr', List.getElem?_replicate, List.getElem?_replicate, if_pos b1, if_pos b2]
  · rename_i hs
    rw [if_neg hs] at hr'
    have e : dotProductSparseOne spectra (dwave.map (fun kw => (kw.1, zs.map (gridTemplate twave flux kw.2 igm)))) flux.length i =
        dotProductSparseOne spectra (dwave.map (fun kw => (kw.1, zs'.map (gridTemplate twave flux kw.2 igm)))) flux.length i' := by
      unfold dotProductSparseOne
      congr 1
      apply mapM_congr'
      intro s _
      rw [get?_map_value dwave (fun w => zs.map (gridTemplate twave flux w igm)), get?_map_value dwave (fun w => zs'.map (gridTemplate twave flux w igm))]
      cases dwave.get? s.wavehash with
      | none => rfl
      | some w =>
        show (do
          let ti ← npGet (zs.map (gridTemplate twave flux w igm)) i
          pure (matMul s.R ti flux.length) : Py _) = (do
          let ti ← npGet (zs'.map (gridTemplate twave flux w igm)) i'
          pure (matMul s.R ti flux.length) : Py _)
        rw [(npGet_ok _ i (gridTemplate twave flux w igm z)).2 (by rw [List.getElem?_map, h1]; rfl), (npGet_ok _ i' (gridTemplate twave flux w igm z)).2 (by rw [List.getElem?_map, h2]; rfl)]
    have g1 := mapM_inv _ _ _ hr
    have g2 := mapM_inv _ _ _ hr'
    obtain ⟨l1, a1⟩ := List.forall₂_iff_get.1 g1
    obtain ⟨l2, a2⟩ := List.forall₂_iff_get.1 g2
    rw [List.length_range] at l1 l2
    have q1 := a1 i (by rw [List.length_range]; exact b1) (by omega)
    have q2 := a2 i' (by rw [List.length_range]; exact b2) (by omega)
    simp only [List.get_eq_getElem, List.getElem_range] at q1 q2
    rw [e, q2, Except.ok.injEq] at q1
    rw [List.getElem?_eq_getElem (by omega), List.getElem?_eq_getElem (by omega), q1]

/-! ### evaluation of a template -/

/-- Specification: the template combination without absorption, averaged over bin `p`. -/
noncomputable def comboAt (twave : List ℝ) (flux : List (List ℝ)) (edges : List ℝ) (z : ℝ) (c : List ℝ) (p : Nat) : ℝ :=
  ∑ b ∈ Finset.range flux.length, binAverage twave (flux.getD b []) edges z p * c.getD b 0

theorem redshifted_zero (x : List ℝ) : redshifted x 0 = x := by
  unfold redshifted
  simp

/-- rebinning of a combination of basis vectors -/
theorem combo_rebin {twave edges : List ℝ} {z : ℝ} (hne : twave ≠ []) (hx : twave.Pairwise (· < ·)) (he : edges.Pairwise (· < ·)) (hz : -1 < z) (hr : InRange (redshifted twave z) edges) :
    ∀ (flux : List (List ℝ)) (c : List ℝ), (∀ y ∈ flux, y.length = twave.length) → c.length = flux.length →
      trapzRebin1d (redshifted twave z) ((List.range twave.length).map (fun w => dotv (col flux w) c)) edges = .ok ((List.range (edges.length - 1)).map (comboAt twave flux edges z c)) := by
  have hne' : redshifted twave z ≠ [] := by unfold redshifted; simpa using hne
  have hlen' : (redshifted twave z).length = twave.length := by unfold redshifted; simp
  have hx' := redshifted_sorted hx hz
  intro flux
  induction flux with
  | nil =>
    intro c _ hc
    have h := C34_constant hne' hx' he hr 0
    rw [hlen'] at h
    have e1 : (List.range twave.length).map (fun w => dotv (col ([] : List (List ℝ)) w) c) = List.replicate twave.length 0 := by
      rw [List.eq_replicate_iff]
      refine ⟨by simp, ?_⟩
      intro v hv
      obtain ⟨w, -, rfl⟩ := List.mem_map.1 hv
      simp [col, dotv]
    rw [e1, h]
    congr 1
    symm
    rw [List.eq_replicate_iff]
    refine ⟨by simp, ?_⟩
    intro v hv
    obtain ⟨w, -, rfl⟩ := List.mem_map.1 hv
    simp [comboAt]
  | cons y flux ih =>
    intro c hy hc
    cases c with
    | nil => simp at hc
    | cons c0 c =>
      have ih' := ih c (fun y hy' => hy y (List.mem_cons_of_mem _ hy')) (by simpa using hc)
      have hyl := hy y List.mem_cons_self
      obtain ⟨r, r', g1, g2, g3⟩ := C34_linear (y := y) hne' hx' he hr ((List.range twave.length).map (fun w => dotv (col flux w) c)) (by rw [hlen']; exact hyl) (by simp [hlen']) c0 1
      rw [ih', Except.ok.injEq] at g2
      rw [rebin_eq_average hne hx hyl.ge he hz hr, Except.ok.injEq] at g1
      have e1 : (List.range twave.length).map (fun w => dotv (col (y :: flux) w) (c0 :: c)) =
          List.zipWith (fun u v => c0 * u + 1 * v) y ((List.range twave.length).map (fun w => dotv (col flux w) c)) := by
        have : y = (List.range twave.length).map (fun w => y.getD w 0) := by
          rw [← hyl]
          have := map_eq_range_map y id
          simpa using this
        conv_rhs => rw [this]
        rw [zipWith_map_map]
        apply List.map_congr_left
        intro w _
        simp only [col, dotv, List.map_cons, List.zipWith_cons_cons, List.sum_cons]
        ring
      rw [e1, g3, ← g1, ← g2, zipWith_map_map]
      congr 1
      apply List.map_congr_left
      intro p _
      unfold comboAt
      rw [List.length_cons, Finset.sum_range_succ']
      simp only [List.getD_cons_succ, List.getD_cons_zero]
      ring

/-- **C46** `Template.eval` explicitly: for a usable template that covers the grid at redshift `z`, and at least `nbasis` coefficients, pixel `p` of the model is the sum over the basis of coefficient times bin
average (then convolved with the resolution if one is given); further coefficients have no effect. -/
theorem C46_eval (twave : List ℝ) (flux : List (List ℝ)) (coeff wave : List ℝ) (z : ℝ) (R : Option (List (List ℝ))) (ht : GoodTemplate twave flux) (hw : GoodGrid wave) (hz : -1 < z)
    (hr : InRange (redshifted twave z) (edgesOf wave)) (hc : flux.length ≤ coeff.length) :
    templateEval twave flux coeff wave z R = .ok (match R with
      | none => (List.range wave.length).map (comboAt twave flux (edgesOf wave) z coeff)
      | some R => R.map (fun row => dotv row ((List.range wave.length).map (comboAt twave flux (edgesOf wave) z coeff)))) := by
  obtain ⟨e1, e2, e3⟩ := edgesOf_spec wave hw
  have hene : edgesOf wave ≠ [] := by
    intro h
    rw [h] at e2
    simp at e2
  have hne' : redshifted twave z ≠ [] := by unfold redshifted; simpa using ht.1
  have hx' := redshifted_sorted ht.2.1 hz
  have htake : (coeff.take flux.length).length = flux.length := by simp [hc]
  have hcombo := combo_rebin ht.1 ht.2.1 e3 hz hr flux (coeff.take flux.length) ht.2.2.2 htake
  have hcc : comboAt twave flux (edgesOf wave) z (coeff.take flux.length) = comboAt twave flux (edgesOf wave) z coeff := by
    funext p
    unfold comboAt
    apply Finset.sum_congr rfl
    intro b hb
    rw [Finset.mem_range] at hb
    have : (coeff.take flux.length).getD b 0 = coeff.getD b 0 := by
      rw [List.getD_eq_getElem?_getD, List.getD_eq_getElem?_getD, List.getElem?_take_of_lt hb]
    rw [this]
  rw [hcc, e2, Nat.add_sub_cancel] at hcombo
  unfold templateEval
  dsimp only
  rw [if_neg (not_not.2 htake), e1]
  have hreb : trapzRebin (twave.map (fun v => v * (1 + z))) [(List.range twave.length).map (fun w => dotv (col flux w) (coeff.take flux.length))] (edgesOf wave) [0] =
      .ok [[(List.range wave.length).map (comboAt twave flux (edgesOf wave) z coeff)]] := by
    have h := trapzRebin_eq (twave := redshifted twave z) (flux := [(List.range twave.length).map (fun w => dotv (col flux w) (coeff.take flux.length))]) (edges := edgesOf wave) (zs := [0]) hne' hx'
      (by
        intro v hv
        obtain ⟨u, hu, rfl⟩ := List.mem_map.1 hv
        exact mul_nonneg (ht.2.2.1 u hu) (by linarith))
      (by intro y hy; rw [List.mem_singleton] at hy; subst hy; simp [redshifted]) hene e3 (by simp) (by intro z' hz'; rw [List.mem_singleton] at hz'; subst hz'; rw [redshifted_zero]; exact hr)
    have h2 := rebin_eq_average (twave := redshifted twave z) (y := (List.range twave.length).map (fun w => dotv (col flux w) (coeff.take flux.length))) (edges := edgesOf wave) (z := 0) hne' hx'
      (by simp [redshifted]) e3 (by norm_num) (by rw [redshifted_zero]; exact hr)
    rw [redshifted_zero, hcombo, Except.ok.injEq, e2, Nat.add_sub_cancel] at h2
    unfold redshifted at h h2
    rw [h, e2, Nat.add_sub_cancel, h2]
    rfl
  rw [okBind, hreb]
  cases R <;> rfl

/-- **C46** padding: with exactly `nbasis` coefficients, anything appended (the zero padding of the output table) does not change the result, for any template, grid, redshift and resolution. -/
theorem C46_padding (twave : List ℝ) (flux : List (List ℝ)) (coeff pad wave : List ℝ) (z : ℝ) (R : Option (List (List ℝ))) (hc : coeff.length = flux.length) :
    templateEval twave flux (coeff ++ pad) wave z R = templateEval twave flux coeff wave z R := by
  unfold templateEval
  rw [← hc, List.take_left' rfl, List.take_length]

/-- **C46** too few coefficients are refused -/
theorem C46_too_few (twave : List ℝ) (flux : List (List ℝ)) (coeff wave : List ℝ) (z : ℝ) (R : Option (List (List ℝ))) (hc : coeff.length < flux.length) :
    templateEval twave flux coeff wave z R = .error .valueError := by
  unfold templateEval
  dsimp only
  rw [if_pos (by rw [List.length_take]; omega)]
  rfl

/-- **C46** linearity: the model of `a c + b c'` is `a` times the model of `c` plus `b` times the model of `c'`, pixel by pixel, with or without resolution. -/
theorem C46_linear (twave : List ℝ) (flux : List (List ℝ)) (wave : List ℝ) (z : ℝ) (R : Option (List (List ℝ))) (ht : GoodTemplate twave flux) (hw : GoodGrid wave) (hz : -1 < z)
    (hr : InRange (redshifted twave z) (edgesOf wave)) (c c' : List ℝ) (hc : c.length = flux.length) (hc' : c'.length = flux.length) (a b : ℝ) :
    ∃ m m', templateEval twave flux c wave z R = .ok m ∧ templateEval twave flux c' wave z R = .ok m' ∧
      templateEval twave flux (List.zipWith (fun u v => a * u + b * v) c c') wave z R = .ok (List.zipWith (fun u v => a * u + b * v) m m') := by
  have hcomb : ∀ p, comboAt twave flux (edgesOf wave) z (List.zipWith (fun u v => a * u + b * v) c c') p =
      a * comboAt twave flux (edgesOf wave) z c p + b * comboAt twave flux (edgesOf wave) z c' p := by
    intro p
    unfold comboAt
    rw [Finset.mul_sum, Finset.mul_sum, ← Finset.sum_add_distrib]
    apply Finset.sum_congr rfl
    intro k hk
    rw [Finset.mem_range] at hk
    have : (List.zipWith (fun u v => a * u + b * v) c c').getD k 0 = a * c.getD k 0 + b * c'.getD k 0 := by
      simp [List.getElem?_zipWith, show k < c.length by omega, show k < c'.length by omega]
    rw [this]
    ring
  refine ⟨_, _, C46_eval twave flux c wave z R ht hw hz hr hc.ge, C46_eval twave flux c' wave z R ht hw hz hr hc'.ge, ?_⟩
  rw [C46_eval twave flux _ wave z R ht hw hz hr (by simp [hc, hc'])]
  cases R with
  | none =>
    dsimp only
    rw [zipWith_map_map]
    congr 1
    apply List.map_congr_left
    intro p _
    exact hcomb p
  | some R =>
    dsimp only
    rw [zipWith_map_map]
    congr 1
    apply List.map_congr_left
    intro row _
    generalize wave.length = n
    have hd : ∀ (l : List Nat) (row : List ℝ), dotv row (l.map (comboAt twave flux (edgesOf wave) z (List.zipWith (fun u v => a * u + b * v) c c'))) =
        a * dotv row (l.map (comboAt twave flux (edgesOf wave) z c)) + b * dotv row (l.map (comboAt twave flux (edgesOf wave) z c')) := by
      intro l
      induction l with
      | nil => intro row; simp [dotv]
      | cons p l ih =>
        intro row
        cases row with
        | nil => simp [dotv]
        | cons v row =>
          have := ih row
          simp only [dotv, List.map_cons, List.zipWith_cons_cons, List.sum_cons] at this ⊢
          rw [this, hcomb]
          ring
    exact hd _ row

/-! ### evaluated versus fitted model -/

/-- **C63** the model the fit compares with the data (`modelAt`, see `chi2Of`): at pixel `p`, resolution times transmission times template combination. -/
theorem C63_fitted_model (twave : List ℝ) (flux : List (List ℝ)) (wave : List ℝ) (igm : IgmModel) (z : ℝ) (R : List (List ℝ)) (c : List ℝ) (p : Nat) :
    modelAt R (gridTemplate twave flux wave igm z) flux.length c p =
      ∑ w ∈ Finset.range wave.length, (R.getD p []).getD w 0 * (pixelT igm z (wave.getD w 0) * comboAt twave flux (edgesOf wave) z c w) := by
  unfold modelAt
  have hl : (gridTemplate twave flux wave igm z).length = wave.length := by simp [gridTemplate]
  rw [hl]
  apply Finset.sum_congr rfl
  intro w hw
  rw [Finset.mem_range] at hw
  congr 1
  unfold comboAt
  rw [Finset.mul_sum]
  apply Finset.sum_congr rfl
  intro b hb
  rw [Finset.mem_range] at hb
  have : ((gridTemplate twave flux wave igm z).getD w []).getD b 0 = binAverage twave (flux.getD b []) (edgesOf wave) z w * pixelT igm z (wave.getD w 0) := by
    simp [gridTemplate, hw, hb]
  rw [this]
  ring

/-- **C63** (partial: only without absorption) where the transmission is 1 on the whole grid - for instance without IGM model, or with all rest wavelengths at or above Lyman alpha - the evaluated model is the fitted
model. Missing: redshifts with absorption; there it fails, see `C63_absorbed`. -/
theorem C63_same_model_partial (twave : List ℝ) (flux : List (List ℝ)) (coeff wave : List ℝ) (igm : IgmModel) (z : ℝ) (R : List (List ℝ)) (ht : GoodTemplate twave flux) (hw : GoodGrid wave) (hz : -1 < z)
    (hr : InRange (redshifted twave z) (edgesOf wave)) (hc : flux.length ≤ coeff.length) (hR : ∀ row ∈ R, row.length = wave.length)
    (h1 : igm = .noModel ∨ ∀ l ∈ wave, 1215.67 ≤ l / (1 + z)) :
    templateEval twave flux coeff wave z (some R) = .ok ((List.range R.length).map (modelAt R (gridTemplate twave flux wave igm z) flux.length coeff)) := by
  rw [C46_eval twave flux coeff wave z (some R) ht hw hz hr hc]
  congr 1
  apply List.ext_getElem?
  intro p
  by_cases hp : p < R.length
  · rw [List.getElem?_map, List.getElem?_map, List.getElem?_range hp, List.getElem?_eq_getElem hp, Option.map_some, Option.map_some]
    congr 1
    rw [C63_fitted_model, dotv_eq_sum _ _ wave.length (hR _ (List.getElem_mem hp)) (by simp)]
    apply Finset.sum_congr rfl
    intro w hw'
    rw [Finset.mem_range] at hw'
    have hone : pixelT igm z (wave.getD w 0) = 1 := by
      rcases h1 with rfl | h1
      · rfl
      · apply pixelT_one
        unfold lyA
        apply h1
        simp [hw']
    rw [hone, one_mul]
    simp [hw', hp]
  · rw [List.getElem?_eq_none (by simp; omega), List.getElem?_eq_none (by simp; omega)]

/-- **C63** (refuted) where there is absorption, the evaluated model is not the fitted model: with the identity as resolution, in a pixel with transmission `T` the fitted model is `T` times the evaluated one. So they
differ wherever `T ≠ 1` and the evaluated model is not 0. -/
theorem C63_absorbed (twave : List ℝ) (flux : List (List ℝ)) (coeff wave : List ℝ) (igm : IgmModel) (z : ℝ) (ht : GoodTemplate twave flux) (hw : GoodGrid wave) (hz : -1 < z)
    (hr : InRange (redshifted twave z) (edgesOf wave)) (hc : flux.length ≤ coeff.length) :
    ∃ m, templateEval twave flux coeff wave z none = .ok m ∧ m.length = wave.length ∧ ∀ R : List (List ℝ), (∀ p w, p < wave.length → w < wave.length → (R.getD p []).getD w 0 = if p = w then 1 else 0) →
      ∀ p l, wave[p]? = some l → modelAt R (gridTemplate twave flux wave igm z) flux.length coeff p = pixelT igm z l * m.getD p 0 := by
  refine ⟨_, C46_eval twave flux coeff wave z none ht hw hz hr hc, by simp, ?_⟩
  intro R hR p l hl
  obtain ⟨hp, hp2⟩ := List.getElem?_eq_some_iff.1 hl
  rw [C63_fitted_model, Finset.sum_eq_single p]
  · rw [hR p p hp hp, if_pos rfl, one_mul]
    simp [hp, hp2]
  · intro w hw' hwp
    rw [hR p w hp (Finset.mem_range.1 hw'), if_neg (Ne.symm hwp), zero_mul]
  · intro h
    exact absurd (Finset.mem_range.2 hp) h

/-! ### a concrete case -/

/-- flat template from 0 to 2000, grid of two pixels -/
theorem ex_good : GoodTemplate [0, 2000] [[1, 1], [0, 1]] ∧ GoodGrid [3600, 3700] := by
  refine ⟨⟨by simp, by norm_num, ?_, ?_⟩, by simp, by norm_num, ?_⟩ <;> intro v hv <;> simp at hv <;> rcases hv with rfl | rfl <;> norm_num

theorem ex_edges : edgesOf [3600, 3700] = [3550, 3650, 3750] := by
  have : centers2edges (K := ℝ) [3600, 3700] = .ok [3600 - (3700 - (3600 + 3700) / 2), (3600 + 3700) / 2, 3700 + (3700 - (3600 + 3700) / 2)] := by
    simp [centers2edges, midpoints, npGet, npGetNeg, bind, Except.bind, pure, Except.pure]
  unfold edgesOf
  rw [this]
  norm_num [Except.toOption]

theorem ex_range (z : ℝ) (hz : 1 ≤ z) : InRange (redshifted [0, 2000] z) (edgesOf [3600, 3700]) := by
  rw [ex_edges]
  intro e he x0 xl a b
  simp [redshifted] at a b
  subst a b
  simp at he
  rcases he with rfl | rfl | rfl <;> constructor <;> linarith

/-- the hypotheses of `C69_fit_templates` hold for two redshifts -/
example : fitTemplates [0, 2000] [[1, 1], [0, 1]] [("b", [3600, 3700])] [1, 3] .calura12 =
    .ok [("b", [gridTemplate [0, 2000] [[1, 1], [0, 1]] [3600, 3700] .calura12 1, gridTemplate [0, 2000] [[1, 1], [0, 1]] [3600, 3700] .calura12 3])] := by
  apply (C69_fit_templates [0, 2000] [[1, 1], [0, 1]] [("b", [3600, 3700])] [1, 3] .calura12 ex_good.1 (by intro kw h; simp at h; subst h; exact ex_good.2) (by simp) (by simp)
    (by intro z h; simp at h; rcases h with rfl | rfl <;> norm_num)).1
  intro kw h z hz
  simp at h hz
  subst h
  exact ex_range z (by rcases hz with rfl | rfl <;> norm_num)

/-- and those of the failing branch at redshift 0 -/
example : fitTemplates [0, 2000] [[1, 1], [0, 1]] [("b", [3600, 3700])] [0, 3] .calura12 = .error .valueError := by
  apply (C69_fit_templates [0, 2000] [[1, 1], [0, 1]] [("b", [3600, 3700])] [0, 3] .calura12 ex_good.1 (by intro kw h; simp at h; subst h; exact ex_good.2) (by simp) (by simp)
    (by intro z h; simp at h; rcases h with rfl | rfl <;> norm_num)).2
  refine ⟨("b", [3600, 3700]), by simp, 0, by simp, ?_⟩
  intro h
  have := (h 3550 (by rw [ex_edges]; simp) 0 2000 (by simp [redshifted]) (by simp [redshifted])).2
  norm_num at this

/-- binned flat template -/
theorem ex_average (z : ℝ) (hz : 1 ≤ z) (p : Nat) (hp : p < 2) : binAverage [0, 2000] [1, 1] (edgesOf [3600, 3700]) z p = 1 := by
  unfold binAverage
  rw [ex_edges]
  have e : redshifted [0, 2000] z = [0, 2000 * (1 + z)] := by simp [redshifted]
  rw [e]
  have hint : ∀ a b : ℝ, a < b → b ≤ 3750 → (∫ t in a..b, lerp [0, 2000 * (1 + z)] [1, 1] t) / (b - a) = 1 := by
    intro a b hab hb
    have : (∫ t in a..b, lerp [0, 2000 * (1 + z)] [1, 1] t) = ∫ _ in a..b, (1 : ℝ) := by
      apply intervalIntegral.integral_congr
      intro t ht
      rw [Set.uIcc_of_le hab.le] at ht
      show lerp [0, 2000 * (1 + z)] [1, 1] t = 1
      rw [lerp, if_pos (by linarith [ht.2])]
      simp
    rw [this, intervalIntegral.integral_const, smul_eq_mul, mul_one, div_self (by linarith)]
  have : p = 0 ∨ p = 1 := by omega
  rcases this with rfl | rfl
  · exact hint 3550 3650 (by norm_num) (by norm_num)
  · exact hint 3650 3750 (by norm_num) (by norm_num)

/-- the evaluated flat template is flat -/
theorem ex_eval (z : ℝ) (hz : 1 ≤ z) : templateEval [0, 2000] [[1, 1], [0, 1]] [1, 0, 7] [3600, 3700] z none = .ok [1, 1] := by
  rw [C46_eval _ _ _ _ z none ex_good.1 ex_good.2 (by linarith) (ex_range z hz) (by simp)]
  simp [comboAt, Finset.sum_range_succ, List.range_succ, ex_average z hz 0 (by norm_num), ex_average z hz 1 (by norm_num)]

/-- **C63** (refuted) a concrete case: at redshift 3, the flat template evaluates to 1 in both pixels, while the model that the fit compares with the data (with the identity as resolution) is below 1 in both. -/
theorem C63_refuted : templateEval (K := ℝ) [0, 2000] [[1, 1], [0, 1]] [1, 0] [3600, 3700] 3 none = .ok [1, 1] ∧
    ∀ p, p < 2 → modelAt [[1, 0], [0, 1]] (gridTemplate [0, 2000] [[1, 1], [0, 1]] [3600, 3700] .calura12 3) 2 [1, 0] p < 1 := by
  have he : templateEval (K := ℝ) [0, 2000] [[1, 1], [0, 1]] [1, 0] [3600, 3700] 3 none = .ok [1, 1] := by
    rw [← C46_padding [0, 2000] [[1, 1], [0, 1]] [1, 0] [7] [3600, 3700] 3 none rfl]
    exact ex_eval 3 (by norm_num)
  refine ⟨he, ?_⟩
  obtain ⟨m, h1, h2, h3⟩ := C63_absorbed [0, 2000] [[1, 1], [0, 1]] [1, 0] [3600, 3700] .calura12 3 ex_good.1 ex_good.2 (by norm_num) (ex_range 3 (by norm_num)) (by simp)
  rw [he, Except.ok.injEq] at h1
  subst h1
  have hI : ∀ p w : Nat, p < 2 → w < 2 → (([[1, 0], [0, 1]] : List (List ℝ)).getD p []).getD w 0 = if p = w then 1 else 0 := by
    intro p w hp hw
    have hp : p = 0 ∨ p = 1 := by omega
    have hw : w = 0 ∨ w = 1 := by omega
    rcases hp with rfl | rfl <;> rcases hw with rfl | rfl <;> simp
  intro p hp
  have hp : p = 0 ∨ p = 1 := by omega
  rcases hp with rfl | rfl
  · have := h3 _ hI 0 3600 (by simp)
    have hlt := (C45_absorbs 3 3600 (by norm_num) (by norm_num)).1
    calc _ = _ := this
      _ < 1 := by simpa using hlt
  · have := h3 _ hI 1 3700 (by simp)
    have hlt := (C45_absorbs 3 3700 (by norm_num) (by norm_num)).1
    calc _ = _ := this
      _ < 1 := by simpa using hlt

end Redrock
