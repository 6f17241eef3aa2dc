import Verif.Model.DesiOpts
import Verif.Props.Chi2
import Verif.Props.Fitz
import Verif.Lemmas.Run

/-!
**C108** sky-line mask of `rrdesi`; **C109** its archetype options.
-/
set_option linter.unusedSectionVars false
namespace Redrock
namespace DesiOpts

section
variable {ω K : Type} [DecidableEq ω] [Field K] [LinearOrder K] [IsStrictOrderedRing K]

/-! ## C108 -/

/-- Specification: the wavelengths of the masked sky lines (Angstrom), with both ends. -/
def SkyLine (w : K) : Prop := (5572 ≤ w ∧ w ≤ 5582) ∨ (9792 ≤ w ∧ w ≤ 9795)

private theorem isSkyLine_iff (w : K) : isSkyLine w = true ↔ SkyLine w := by
  unfold isSkyLine SkyLine; simp

/-- Specification: `s'` is `s` with the inverse variance set to zero in the pixels of sky lines, and nothing else changed. -/
def Masked (wave : ω → List K) (s s' : FitSpectrum ω K) : Prop :=
  s'.wavehash = s.wavehash ∧ s'.flux = s.flux ∧ s'.R = s.R ∧ s'.ivar.length = s.ivar.length ∧
    ∀ (p : Nat) (w v : K), (wave s.wavehash)[p]? = some w → s.ivar[p]? = some v → (SkyLine w → s'.ivar[p]? = some 0) ∧ (¬ SkyLine w → s'.ivar[p]? = some v)

private theorem skyMaskSpec_masked (wave : ω → List K) (s : FitSpectrum ω K) (h : (wave s.wavehash).length = s.ivar.length) :
    ∃ s', skyMaskSpec wave s = .ok s' ∧ Masked wave s s' := by
  unfold skyMaskSpec
  rw [if_neg (by simpa using h)]
  refine ⟨_, rfl, rfl, rfl, rfl, by simp [h], ?_⟩
  intro p w v hw hv
  constructor
  · intro hs
    simp [List.getElem?_zipWith, hw, hv, (isSkyLine_iff w).2 hs]
  · intro hs
    have : isSkyLine w = false := by
      rw [← Bool.not_eq_true]; exact fun h => hs ((isSkyLine_iff w).1 h)
    simp [List.getElem?_zipWith, hw, hv, this]

/-- **C108** for spectra whose inverse variances fit their wavelengths: without `--no-skymask` every spectrum keeps everything but the inverse variances in the sky lines, which are 0 (a pixel at a limit
included); with it nothing changes. -/
theorem C108_mask (wave : ω → List K) (spectra : List (FitSpectrum ω K)) (h : ∀ s ∈ spectra, (wave s.wavehash).length = s.ivar.length) :
    skyMask wave true spectra = .ok spectra ∧ ∃ out, skyMask wave false spectra = .ok out ∧ List.Forall₂ (Masked wave) spectra out := by
  refine ⟨rfl, ?_⟩
  show ∃ out, spectra.mapM (skyMaskSpec wave) = .ok out ∧ _
  induction spectra with
  | nil => exact ⟨[], rfl, .nil⟩
  | cons s l ih =>
    obtain ⟨s', h1, h2⟩ := skyMaskSpec_masked wave s (h s (by simp))
    obtain ⟨out, h3, h4⟩ := ih (fun s hs => h s (by simp [hs]))
    exact ⟨s' :: out, by rw [List.mapM_cons, h1, okBind, h3, okBind]; rfl, .cons h2 h4⟩

/-- Specification: the same spectra except for flux and inverse variance within sky lines. -/
def SameOffSky (wave : ω → List K) (s s' : FitSpectrum ω K) : Prop :=
  s.wavehash = s'.wavehash ∧ s.R = s'.R ∧ s.ivar.length = s.flux.length ∧ s'.ivar.length = s'.flux.length ∧ (wave s.wavehash).length = s.ivar.length ∧ s.ivar.length = s'.ivar.length ∧
    ∀ (p : Nat) (w : K), (wave s.wavehash)[p]? = some w → ¬ SkyLine w → s.flux[p]? = s'.flux[p]? ∧ s.ivar[p]? = s'.ivar[p]?

private theorem sameOffSky_masked (wave : ω → List K) (s s' m m' : FitSpectrum ω K) (h : SameOffSky wave s s') (hm : Masked wave s m) (hm' : Masked wave s' m') : SameUnmasked m m' := by
  obtain ⟨h1, h2, h3, h4, h5, h6, h7⟩ := h
  obtain ⟨a1, a2, a3, a4, a5⟩ := hm
  obtain ⟨b1, b2, b3, b4, b5⟩ := hm'
  have hiv : m.ivar = m'.ivar := by
    apply List.ext_getElem?
    intro p
    by_cases hp : p < s.ivar.length
    · obtain ⟨w, hw⟩ : ∃ w, (wave s.wavehash)[p]? = some w := ⟨_, List.getElem?_eq_getElem (by omega)⟩
      obtain ⟨v, hv⟩ : ∃ v, s.ivar[p]? = some v := ⟨_, List.getElem?_eq_getElem hp⟩
      obtain ⟨v', hv'⟩ : ∃ v, s'.ivar[p]? = some v := ⟨_, List.getElem?_eq_getElem (by omega)⟩
      have hw' : (wave s'.wavehash)[p]? = some w := by rw [← h1]; exact hw
      by_cases hs : SkyLine w
      · rw [(a5 p w v hw hv).1 hs, (b5 p w v' hw' hv').1 hs]
      · rw [(a5 p w v hw hv).2 hs, (b5 p w v' hw' hv').2 hs, ← hv, ← hv', (h7 p w hw hs).2]
    · rw [List.getElem?_eq_none (by omega), List.getElem?_eq_none (by omega)]
  refine ⟨by rw [a1, b1, h1], hiv, by rw [a3, b3, h2], by rw [a4, a2, h3], by rw [a2, b2, ← h3, h6, h4], ?_⟩
  intro p v hv hne
  have hp : p < s.ivar.length := by
    have := (List.getElem?_eq_some_iff.1 hv).1; omega
  obtain ⟨w, hw⟩ : ∃ w, (wave s.wavehash)[p]? = some w := ⟨_, List.getElem?_eq_getElem (by omega)⟩
  obtain ⟨u, hu⟩ : ∃ v, s.ivar[p]? = some v := ⟨_, List.getElem?_eq_getElem hp⟩
  have hs : ¬ SkyLine w := by
    intro hs
    rw [(a5 p w u hw hu).1 hs, Option.some.injEq] at hv
    exact hne hv.symm
  rw [a2, b2]
  exact (h7 p w hw hs).1

private theorem mem_left {α β : Type} {R : α → β → Prop} {l : List α} {l' : List β} (h : List.Forall₂ R l l') : ∀ a ∈ l, ∃ b, R a b := by
  induction h with
  | nil => intro a ha; cases ha
  | cons hr _ ih =>
    intro a ha
    rcases List.mem_cons.1 ha with rfl | ha
    · exact ⟨_, hr⟩
    · exact ih a ha

/-- **C108** what a spectrum contains in the sky lines has no influence: two targets that agree elsewhere have, after the mask, the same chi2, coefficients and penalties at every redshift (or the same
exception), whatever the solver does. -/
theorem C108_no_influence (wave : ω → List K) (solve : List (List K) → List K → Py (List K)) (spectra spectra' : List (FitSpectrum ω K)) (tdata : PyDict ω (List (List (List K)))) (nz nbasis : Nat)
    (oii : Option (List (List K) × Nat)) (h : List.Forall₂ (SameOffSky wave) spectra spectra') :
    (do let s ← skyMask wave false spectra; calcZchi2Target solve s tdata nz nbasis oii) = (do let s ← skyMask wave false spectra'; calcZchi2Target solve s tdata nz nbasis oii) := by
  obtain ⟨-, out, h1, h2⟩ := C108_mask wave spectra (by
    intro s hs
    obtain ⟨s', hss⟩ := mem_left h s hs
    exact hss.2.2.2.2.1)
  obtain ⟨-, out', h1', h2'⟩ := C108_mask wave spectra' (by
    intro s' hs
    obtain ⟨s, hss⟩ := mem_left h.flip s' hs
    rw [← hss.1, hss.2.2.2.2.1, hss.2.2.2.2.2.1])
  rw [h1, h1', okBind, okBind]
  apply C38_masked_pixels
  clear h1 h1'
  induction h generalizing out out' with
  | nil => cases h2; cases h2'; exact .nil
  | cons a _ ih =>
    cases h2 with
    | cons b t =>
      cases h2' with
      | cons b' t' => exact .cons (sameOffSky_masked wave _ _ _ _ a b b') (ih _ t _ t')

/-! ## C109 -/

/-- **C109** (settings) what `zfind` gets, by case: without `--archetypes` or with `--archetypes-no-legendre` neither Legendre terms nor prior nor per-camera fits; else the given degree, the prior iff it is
positive, and per-camera fits exactly if there are several wavelength grids and `--archetype-legendre-percamera` is not `False`. The number of minima is the given one, or 9 with and 3 without archetypes. -/
theorem C109_settings (o : ArchOpts K) (ncamera : Nat) :
    (o.archetypes = false ∨ o.noLegendre = true → (archArgs o ncamera).priorSigma = none ∧ (archArgs o ncamera).degree = 0 ∧ (archArgs o ncamera).perCamera = false) ∧
    (o.archetypes = true → o.noLegendre = false → (archArgs o ncamera).degree = o.degree ∧ (0 < o.prior → (archArgs o ncamera).priorSigma = some o.prior) ∧
      (o.prior ≤ 0 → (archArgs o ncamera).priorSigma = none) ∧ ((archArgs o ncamera).perCamera = true ↔ 1 < ncamera ∧ o.percamera ≠ some false)) ∧
    (archArgs o ncamera).nNearest = o.nNearest ∧ (∀ n, o.nminima = some n → (archArgs o ncamera).nminima = n) ∧
    (o.nminima = none → (archArgs o ncamera).nminima = if o.archetypes then 9 else 3) := by
  refine ⟨?_, ?_, ?_, ?_, ?_⟩
  · intro h
    have : (o.noLegendre || !o.archetypes) = true := by rcases h with h | h <;> simp [h]
    simp [archArgs, this]
  · intro h1 h2
    have : (o.noLegendre || !o.archetypes) = false := by simp [h1, h2]
    refine ⟨by simp [archArgs, this], ?_, ?_, ?_⟩
    · intro hp; simp [archArgs, this, hp]
    · intro hp; simp [archArgs, this, hp]
    · simp only [archArgs, this]
      cases hc : o.percamera with
      | none => simp
      | some b => cases b <;> simp
  · unfold archArgs; simp only; split <;> rfl
  · intro n hn; unfold archArgs; simp only [hn]; split <;> rfl
  · intro hn; unfold archArgs; simp only [hn]; split <;> rfl

/-- **C109** (refuted) "the options `--archetypes-no-legendre` and `--archetype-legendre-prior 0` (or negative) work as documented": with either of them the fit of a target with a template whose type has
archetypes never gives a candidate; it raises, or there is no minimum at all. -/
theorem C109_no_prior_refuted (argsort : List (Ext K) → List Nat) (harg : IsArgsort Ext.sortLe argsort) (o : ArchOpts K) (ncamera : Nat)
    (ho : o.noLegendre = true ∨ o.prior ≤ 0) (getBest : Option K → K → Option K → Py (K × List K × List Char)) (E : FitEnv K) (hE : E.arch = some (archEnvOf (archArgs o ncamera) ncamera getBest))
    (zchi2 : List (Ext K)) (redshifts : List K) (r : List (Cand K)) (h : fitz argsort E (archArgs o ncamera).nminima zchi2 redshifts = .ok r) : r = [] := by
  refine C52_without_prior_no_candidate argsort harg E _ hE ?_ _ zchi2 redshifts r h
  show (archArgs o ncamera).priorSigma = none
  rcases ho with h | h
  · exact ((C109_settings o ncamera).1 (.inr h)).1
  · by_cases h' : o.archetypes = false ∨ o.noLegendre = true
    · exact ((C109_settings o ncamera).1 h').1
    · push Not at h'
      exact ((C109_settings o ncamera).2.1 (by simpa using h'.1) (by simpa using h'.2)).2.2.1 h

/-- **C109** partial (missing: the options above, with which it is false): with archetypes, Legendre terms and a positive prior, a target with finite or infinite chi2 at two redshifts or more gets at least
one candidate with every such template, provided the archetype fits themselves do not raise (C75) and at least one minimum is wanted. -/
theorem C109_works_partial (argsort : List (Ext K) → List Nat) (harg : IsArgsort Ext.sortLe argsort) (o : ArchOpts K) (ncamera : Nat) (ha : o.archetypes = true) (hl : o.noLegendre = false)
    (hp : 0 < o.prior) (hn : o.nminima ≠ some 0) (getBest : Option K → K → Option K → Py (K × List K × List Char)) (hget : ∀ tr z p, ∃ v, getBest tr z p = .ok v) (E : FitEnv K)
    (hE : E.arch = some (archEnvOf (archArgs o ncamera) ncamera getBest))
    (hnz : 1 ≤ E.nz) (hscan : ∀ zz, ∃ v, E.scan zz = .ok v ∧ v.length = zz.length) (hmin : ∀ x y, ∃ v, E.minfit x y = .ok v) (redshifts : List K) (hred : 2 ≤ redshifts.length)
    (hfit : ∀ z, (∃ v, E.fitAt z = .ok v) ∨ (E.fitAt z = .error .valueError ∧
      ((∃ z0, redshifts.head? = some z0 ∧ z < z0) ∨ (∃ zn, redshifts.getLast? = some zn ∧ zn < z))))
    (zchi2 : List (Ext K)) (hlen : zchi2.length = redshifts.length) (hnan : Ext.nan ∉ zchi2) :
    ∃ r, fitz argsort E (archArgs o ncamera).nminima zchi2 redshifts = .ok r ∧ r ≠ [] := by
  have hs := C109_settings o ncamera
  refine C52_with_prior_partial argsort harg E _ hE ?_ hget hnz hscan hmin redshifts hred hfit _ ?_ zchi2 hlen hnan
  · show (archArgs o ncamera).priorSigma ≠ none
    rw [(hs.2.1 ha hl).2.1 hp]; simp
  · cases hm : o.nminima with
    | none => rw [hs.2.2.2.2 hm, ha]; decide
    | some n =>
      rw [hs.2.2.2.1 n hm]
      rcases Nat.eq_zero_or_pos n with h0 | h0
      · subst h0; exact absurd hm hn
      · exact h0

end

/-! ## Concrete cases -/

/-- pixels at the limits of a line are masked, their neighbours not -/
example : (skyMask (K := ℚ) (fun _ : Unit => [5571, 5572, 5582, 5583, 9791, 9792, 9795, 9796]) false [⟨(), [1, 1, 1, 1, 1, 1, 1, 1], [2, 2, 2, 2, 2, 2, 2, 2], []⟩]).map (fun l => l.map (·.ivar)) =
    .ok [[2, 0, 0, 2, 2, 0, 0, 2]] := by decide +kernel

/-- two spectra as in `C108_no_influence` that differ in a sky line -/
example : SameOffSky (K := ℚ) (fun _ : Unit => [5571, 5577]) ⟨(), [1, 7], [2, 2], []⟩ ⟨(), [1, -9], [2, 5], []⟩ := by
  refine ⟨rfl, rfl, rfl, rfl, rfl, rfl, ?_⟩
  intro p w hw hs
  match p, hw with
  | 0, _ => exact ⟨rfl, rfl⟩
  | 1, hw =>
    simp at hw
    subst hw
    exact absurd (show SkyLine (5577 : ℚ) by left; norm_num) hs

/-- the default settings of a run with archetypes and three cameras -/
example : archArgs (⟨true, false, 2, none, 1 / 10, none, none⟩ : ArchOpts ℚ) 3 = ⟨some (1 / 10), 2, true, none, 9⟩ := by decide +kernel

end DesiOpts
end Redrock
