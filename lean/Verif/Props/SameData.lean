import Verif.Lemmas.SameData
import Verif.Props.Units

/-!
C112: the order of the spectra of a target does not matter, nor do spectra without information.
-/
namespace Redrock
set_option linter.unusedSectionVars false

section
variable {ω K σ : Type} [DecidableEq ω] [Field K] [LinearOrder K] [IsStrictOrderedRing K] [LinearOrder σ]

theorem rel_rows_refl {x y : Py (List (Row K σ))} (h : RelPy (List.Forall₂ (RowRel (fun c c' : List K => c = c'))) x y) : x = y := by
  have : RelPy (List.Forall₂ (RowRel (fun c c' : List K => c' = id c))) x y := by
    cases x <;> cases y
    · exact h
    · exact h
    · exact h
    · refine List.Forall₂.imp (fun a b hab => ⟨hab.1, hab.2.symm⟩) h
  have e := rel_rows_eq (fun c => c) this
  rw [e]
  cases x with
  | error e => rfl
  | ok a => show Except.ok a = Except.ok (a.map _); simp

/-- **C112** two observations of a target with the same informative pixels (grid, inverse variance, flux, resolution row of every pixel with non-zero inverse variance, in any order) get the same table, for every kind of
template, solver and penalty, provided the templates can be rebinned onto the grids of both or onto the grids of neither. -/
theorem C112_same_pixels (c : MeasureCfg K) (templates : List (Tmpl ω K σ)) (spectra spectra' : List (FitSpectrum ω K)) (hf : ∀ tm ∈ templates, Fits tm spectra) (hf' : ∀ tm ∈ templates, Fits tm spectra')
    (hp : (informative spectra).Perm (informative spectra'))
    (hg : ∀ tm ∈ templates, ∀ zs, (∃ s ∈ spectra, ∃ e, tm.bin s.wavehash zs = .error e) ↔ (∃ s ∈ spectra', ∃ e, tm.bin s.wavehash zs = .error e)) :
    measureTarget c templates spectra' = measureTarget c templates spectra := by
  cases templates with
  | nil => rfl
  | cons t0 rest =>
    have hs : ∀ s ∈ spectra, s.ivar.length = s.flux.length ∧ s.R.length = s.flux.length := fun s hs => ⟨(hf t0 (by simp) s hs).1, (hf t0 (by simp) s hs).2.1⟩
    have hs' : ∀ s ∈ spectra', s.ivar.length = s.flux.length ∧ s.R.length = s.flux.length := fun s hs => ⟨(hf' t0 (by simp) s hs).1, (hf' t0 (by simp) s hs).2.1⟩
    symm
    apply rel_rows_refl
    refine measure_rel Eq ⟨?_, ?_⟩ c _ _ spectra spectra' ?_ ?_
    · rintro c c' rfl; rfl
    · rintro c c' k rfl; rfl
    · exact List.forall₂_same.2 (fun tm ht => sameFits_data c.S tm (hf tm ht) (hf' tm ht) hp (hg tm ht))
    · rw [npixels_informative spectra hs, npixels_informative spectra' hs']
      exact (hp.symm.filter _).length_eq

theorem informative_perm {spectra spectra' : List (FitSpectrum ω K)} (h : spectra.Perm spectra') : (informative spectra).Perm (informative spectra') := by
  unfold informative
  exact (h.flatMap_right _).filter _

theorem informative_append (a b : List (FitSpectrum ω K)) : informative (a ++ b) = informative a ++ informative b := by
  unfold informative
  rw [List.flatMap_append, List.filter_append]

theorem informative_masked (a : List (FitSpectrum ω K)) (h : ∀ s ∈ a, ∀ v ∈ s.ivar, v = 0) : informative a = [] := by
  unfold informative
  rw [List.filter_eq_nil_iff]
  intro q hq
  obtain ⟨s, hs, hq⟩ := List.mem_flatMap.1 hq
  obtain ⟨p, hp, rfl⟩ := List.mem_map.1 hq
  have := h s hs p.1 (List.of_mem_zip (show (p.1, p.2) ∈ _ from hp)).1
  simp [this]

/-- **C112** the order in which the spectra of a target are given does not matter. -/
theorem C112_order (c : MeasureCfg K) (templates : List (Tmpl ω K σ)) (spectra spectra' : List (FitSpectrum ω K)) (hf : ∀ tm ∈ templates, Fits tm spectra) (h : spectra.Perm spectra') :
    measureTarget c templates spectra' = measureTarget c templates spectra := by
  refine C112_same_pixels c templates spectra spectra' hf (fun tm ht s hs => hf tm ht s (h.mem_iff.2 hs)) (informative_perm h) ?_
  intro tm _ zs
  constructor
  · rintro ⟨s, hs, e⟩; exact ⟨s, h.mem_iff.1 hs, e⟩
  · rintro ⟨s, hs, e⟩; exact ⟨s, h.mem_iff.2 hs, e⟩

/-- **C112** fully masked spectra (all inverse variances 0) may be added or left out without any effect, whatever their flux and resolution, if their grids are grids of other spectra of the target or the templates can be
rebinned onto them. -/
theorem C112_masked_spectra (c : MeasureCfg K) (templates : List (Tmpl ω K σ)) (spectra masked : List (FitSpectrum ω K)) (hf : ∀ tm ∈ templates, Fits tm (spectra ++ masked))
    (hm : ∀ s ∈ masked, ∀ v ∈ s.ivar, v = 0) (hgrid : ∀ s ∈ masked, (∃ s' ∈ spectra, s'.wavehash = s.wavehash) ∨ ∀ tm ∈ templates, ∀ zs, ∃ t, tm.bin s.wavehash zs = .ok t) :
    measureTarget c templates (spectra ++ masked) = measureTarget c templates spectra := by
  refine C112_same_pixels c templates spectra (spectra ++ masked) (fun tm ht s hs => hf tm ht s (List.mem_append_left _ hs)) hf ?_ ?_
  · rw [informative_append, informative_masked masked hm, List.append_nil]
  · intro tm ht zs
    constructor
    · rintro ⟨s, hs, e⟩; exact ⟨s, List.mem_append_left _ hs, e⟩
    · rintro ⟨s, hs, e, he⟩
      rcases List.mem_append.1 hs with h | h
      · exact ⟨s, h, e, he⟩
      · rcases hgrid s h with ⟨s', hs', hw⟩ | hok
        · exact ⟨s', hs', e, by rw [hw]; exact he⟩
        · obtain ⟨t, ht'⟩ := hok tm ht zs
          rw [ht'] at he; simp at he

end

namespace SameData
open Units

/-- a template that can be rebinned onto grid 0 only -/
def tmpl2 : Tmpl Nat ℚ Nat where
  spectype := 0
  subtype := 0
  isStar := false
  redshifts := [0, 1, 2, 3, 4]
  nbasis := 1
  algorithm := .pca
  oii := none
  bin := fun h zs => if h = 0 then .ok (zs.map (fun z => if z = 1 then [[1], [0]] else if z = 3 then [[0], [1]] else [[0], [0]])) else .error .valueError

def exp1 : FitSpectrum Nat ℚ := ⟨0, [-1, 1 / 2], [1, 1], [[1, 0], [0, 1]]⟩
def exp2 : FitSpectrum Nat ℚ := ⟨0, [-2, 1 / 3], [1 / 2, 1], [[1, 0], [0, 1]]⟩
def maskedExp (grid : Nat) : FitSpectrum Nat ℚ := ⟨grid, [77, 77], [0, 0], [[1, 0], [0, 1]]⟩

/-- the hypotheses of `C112_order` and `C112_masked_spectra` hold -/
theorem fits2 (l : List (FitSpectrum Nat ℚ)) (h : ∀ s ∈ l, s = exp1 ∨ s = exp2 ∨ s = maskedExp 0 ∨ s = maskedExp 1) : ∀ tm ∈ [tmpl2], Fits tm l := by
  intro tm ht s hs
  rw [List.mem_singleton] at ht
  subst ht
  have hb : ∀ zs, (∀ t, tmpl2.bin s.wavehash zs = .ok t → t.length = zs.length) ∧ ∀ e, tmpl2.bin s.wavehash zs = .error e → e = .valueError := by
    intro zs
    simp only [tmpl2]
    split
    · refine ⟨?_, by simp⟩
      intro t h
      rw [← Except.ok.inj h]; simp
    · refine ⟨by simp, ?_⟩
      intro e h
      exact (Except.error.inj h).symm
  rcases h s hs with rfl | rfl | rfl | rfl <;> exact ⟨rfl, rfl, hb⟩

example : (measureTarget cfg [tmpl2] [exp1, exp2]).map (List.map (fun r => (r.z, r.chi2, r.npixels, r.coeff))) = .ok [(1, 25 / 36, 4, [-4 / 3]), (3, 217 / 72, 4, [5 / 12])] := by decide +kernel

example : measureTarget cfg [tmpl2] [exp2, exp1] = measureTarget cfg [tmpl2] [exp1, exp2] :=
  C112_order cfg [tmpl2] [exp1, exp2] [exp2, exp1] (fits2 _ (by simp)) (List.Perm.swap _ _ _)

example : measureTarget cfg [tmpl2] ([exp1, exp2] ++ [maskedExp 0]) = measureTarget cfg [tmpl2] [exp1, exp2] :=
  C112_masked_spectra cfg [tmpl2] [exp1, exp2] [maskedExp 0] (fits2 _ (by simp)) (by simp [maskedExp]) (by
    intro s hs
    rw [List.mem_singleton] at hs
    exact Or.inl ⟨exp1, by simp, by rw [hs]; rfl⟩)

/-- the condition on the grids is needed: a fully masked spectrum on a grid that the template cannot be rebinned onto makes the measurement fail -/
theorem C112_masked_grid_can_abort : (∃ rows, measureTarget cfg [tmpl2] [exp1] = .ok rows) ∧ (measureTarget cfg [tmpl2] [exp1, maskedExp 1]).map (fun _ => ()) = .error .valueError := by
  constructor
  · have : (measureTarget cfg [tmpl2] [exp1]).map (fun _ => ()) = .ok () := by decide +kernel
    cases h : measureTarget cfg [tmpl2] [exp1] with
    | ok r => exact ⟨r, rfl⟩
    | error e => rw [h] at this; simp [Except.map] at this
  · decide +kernel

end SameData
end Redrock
