import Verif.Model.ArchFitz
import Verif.Props.FitzTrace
import Verif.Props.ArchetypeModel
import Verif.Props.Catalogue
import Verif.Props.Igm

/-!
Property C128: the archetype fit that `fitz` reports, at the redshift that it reports.
-/
set_option linter.unusedSectionVars false
namespace Redrock
section
variable {K ω : Type} [Field K] [LinearOrder K] [IsStrictOrderedRing K] [DecidableEq ω]

/-- the archetype fit returned, so the archetypes could be rebinned on every grid -/
private theorem rebinned_of_ok {S : Solvers K} {le : PyStr → PyStr → Bool} {argsort : List K → List Nat} {leg : Nat → K → K} {A : Archetype K} {t : ArchTarget ω K} (ht : GoodTarget t)
    {w f wf : List K} {z : K} {perCamera : Bool} {nNearest : Option Nat} {nleg : Nat} {trans : PyDict ω (Option (List K))} {prior : Option (List (List K))} {v : K × List K × PyStr}
    (h : getBestArchetype S le argsort leg A t w f wf z perCamera nNearest nleg trans prior = .ok v) : ∀ s ∈ t.spectra, ∃ B, A.rebinAll z (t.wave s.wavehash) = .ok B := by
  unfold getBestArchetype at h
  obtain ⟨binned, hb, -⟩ := Except.bind_ok _ _ _ h
  unfold archBinned at hb
  rw [dwave_eq t ht.grids, mapM_map'] at hb
  intro s hs
  obtain ⟨v, -, hv⟩ := Catalogue.forall₂_left_mem ((Run.mapM_ok_iff _ _ _).1 hb) s hs
  obtain ⟨B, hB, -⟩ := Except.bind_ok _ _ _ hv
  exact ⟨B, hB⟩

private theorem trans_get {c : ArchFitCfg ω K} (ht : GoodTarget c.t) (tr : Option K) (s : FitSpectrum ω K) (hs : s ∈ c.t.spectra) :
    (c.trans tr).get? s.wavehash = some (tr.bind (fun z => c.lyman z (c.t.wave s.wavehash))) := by
  unfold ArchFitCfg.trans
  rw [dwave_eq c.t ht.grids, List.map_map]
  exact get?_spectra_map ht (fun h => tr.bind (fun z => c.lyman z (c.t.wave h))) s hs

/-- an unflagged candidate of an archetype run is the archetype fit at its own redshift with the transmission of that redshift -/
private theorem unflagged (argsort : List (Ext K) → List Nat) (harg : IsArgsort Ext.sortLe argsort) (cfg : ArchFitCfg ω K) (E : FitEnv K) (hE : E.arch = some cfg.env) (hnz : 2 ≤ E.nz)
    (nminima : Nat) (zchi2 : List (Ext K)) (redshifts : List K) (hz : redshifts.Pairwise (· ≤ ·)) (r : List (Cand K)) (h : fitz argsort E nminima zchi2 redshifts = .ok r)
    (c : Cand K) (hc : c ∈ r) (hgood : c.zwarn &&& ZW.BAD_MINFIT = 0) :
    ∃ sigma all st, cfg.sigma = some sigma ∧ cfg.getBest (some c.z) c.z (some sigma) = .ok (c.chi2, all, st) ∧ (c.coeff, c.legcoeff) = splitArchetypeCoeff st all cfg.ncamera cfg.nleg := by
  have hsig : cfg.sigma ≠ none := by
    intro hn
    have := C52_without_prior_no_candidate argsort harg E _ hE hn nminima zchi2 redshifts r h
    rw [this] at hc
    cases hc
  obtain ⟨sigma, hsg⟩ := Option.ne_none_iff_exists'.1 hsig
  obtain ⟨imin, -, zlo, zhi, zz, zzchi2, am, zmin, chi2min, coeff, zwarn, tr, -, -, -, -, -, -, hfit, hz, -, ha⟩ := C58_origin argsort harg E hnz nminima zchi2 redshifts hz r h c hc
  obtain ⟨all, st, hg, hsp⟩ := ha _ hE
  have htr : tr = some c.z := by
    rcases hfit with ⟨-, rfl⟩ | ⟨-, -, -, hb, -⟩
    · rcases hz with ⟨e, -⟩ | ⟨hb, -⟩
      · rw [e]
      · exact absurd hgood hb
    · exact absurd hgood hb
  subst htr
  refine ⟨sigma, all, st, hsg, ?_, hsp⟩
  have he : (cfg.env).priorSigma = some sigma := hsg
  unfold ArchEnv.getBestArchetype at hg
  rw [he] at hg
  simpa [ArchFitCfg.env] using hg

private theorem input_of_ok {cfg : ArchFitCfg ω K} (ht : GoodTarget cfg.t) {z : K} (hB : ∀ s ∈ cfg.t.spectra, ∃ B, cfg.A.rebinAll z (cfg.t.wave s.wavehash) = .ok B)
    (hX : ∀ s ∈ cfg.t.spectra, ∃ X, reducedWavelength (cfg.t.wave s.wavehash) = .ok X)
    (hlen : ∀ s ∈ cfg.t.spectra, ∀ T, cfg.lyman z (cfg.t.wave s.wavehash) = some T → T.length = (cfg.t.wave s.wavehash).length) :
    ∃ B X, ArchInput cfg.A cfg.t z (cfg.trans (some z)) B X (fun h => cfg.lyman z (cfg.t.wave h)) := by
  let B : ω → List (List K) := fun h => match cfg.A.rebinAll z (cfg.t.wave h) with | .ok b => b | .error _ => []
  let X : ω → List K := fun h => match reducedWavelength (cfg.t.wave h) with | .ok b => b | .error _ => []
  refine ⟨B, X, ?_, ?_, ?_, ?_⟩
  · intro s hs
    obtain ⟨b, hb⟩ := hB s hs
    simp only [B, hb]
  · intro s hs
    obtain ⟨x, hx⟩ := hX s hs
    simp only [X, hx]
  · intro s hs
    rw [trans_get ht _ s hs]
    rfl
  · exact hlen

/-- **C128** (best of all, without nearest neighbours) an archetype candidate without `BAD_MINFIT`: its chi2 is that of the fit, at its redshift and with the transmission of its redshift, of an archetype whose fit is
not worse than that of any other archetype of the file, and better than those before it; its coefficients are those of this fit. `archTmpl … [j]` is archetype number `j` redshifted to `c.z` on a grid, absorbed. -/
theorem C128_best_partial (argsort : List (Ext K) → List Nat) (harg : IsArgsort Ext.sortLe argsort) (cfg : ArchFitCfg ω K) (E : FitEnv K) (hE : E.arch = some cfg.env) (hnz : 2 ≤ E.nz)
    (hS : ∀ b, SolverOk (solveMatrices cfg.S .bvls (some b))) (ht : GoodTarget cfg.t) (hb : cfg.perCamera = true → GoodBands cfg.t)
    (hX : ∀ s ∈ cfg.t.spectra, ∃ X, reducedWavelength (cfg.t.wave s.wavehash) = .ok X) (hne : cfg.A.flux ≠ []) (hlab : cfg.A.subtype.length = cfg.A.flux.length) (hnn : cfg.nNearest = none)
    (nminima : Nat) (zchi2 : List (Ext K)) (redshifts : List K) (hz : redshifts.Pairwise (· ≤ ·)) (r : List (Cand K)) (h : fitz argsort E nminima zchi2 redshifts = .ok r)
    (c : Cand K) (hc : c ∈ r) (hgood : c.zwarn &&& ZW.BAD_MINFIT = 0)
    (hlen : ∀ s ∈ cfg.t.spectra, ∀ T, cfg.lyman c.z (cfg.t.wave s.wavehash) = some T → T.length = (cfg.t.wave s.wavehash).length) :
    ∃ sigma B X i subtype, cfg.sigma = some sigma ∧ i < cfg.A.flux.length ∧
      (∀ s ∈ cfg.t.spectra, cfg.A.rebinAll c.z (cfg.t.wave s.wavehash) = .ok (B s.wavehash) ∧ reducedWavelength (cfg.t.wave s.wavehash) = .ok (X s.wavehash)) ∧
      let fit := fun j => archFit cfg.S cfg.t 1 cfg.nleg cfg.perCamera (some (priorOnCoeffs 1 cfg.nleg sigma (if cfg.perCamera then cfg.t.spectra.length else 1)))
        (archTmpl cfg.leg cfg.nleg cfg.t B X (fun h => cfg.lyman c.z (cfg.t.wave h)) [j])
      c.chi2 = (fit i).1 ∧ (c.coeff, c.legcoeff) = splitArchetypeCoeff subtype (fit i).2 (if cfg.perCamera then cfg.t.spectra.length else 1) cfg.nleg ∧
      ∀ j < cfg.A.flux.length, (fit i).1 ≤ (fit j).1 ∧ (j < i → (fit i).1 < (fit j).1) := by
  obtain ⟨sigma, all, st, hsg, hbest, hsp⟩ := unflagged argsort harg cfg E hE hnz nminima zchi2 redshifts hz r h c hc hgood
  have hnc : cfg.ncamera = if cfg.perCamera then cfg.t.spectra.length else 1 := by
    unfold ArchFitCfg.ncamera
    rw [dwave_eq cfg.t ht.grids, List.length_map]
  unfold ArchFitCfg.getBest at hbest
  rw [hnn, hnc] at hbest
  simp only [Option.map_some, Option.getD_none] at hbest
  obtain ⟨⟨chi2, coeff, fulltype⟩, hg, hbest⟩ := Except.bind_ok _ _ _ hbest
  obtain ⟨p, hp, hbest⟩ := Except.bind_ok _ _ _ hbest
  obtain ⟨rfl, rfl, rfl⟩ : chi2 = c.chi2 ∧ coeff = all ∧ p.2 = st := by
    have := Except.ok.inj hbest
    simpa using this
  obtain ⟨B, X, hI⟩ := input_of_ok ht (rebinned_of_ok ht hg) hX hlen
  obtain ⟨i, label, hi, -, e1, e2⟩ := C75_best_archetype cfg.S hS cfg.le cfg.argsort cfg.leg cfg.nleg ht hI hne hlab cfg.perCamera hb
    (some (priorOnCoeffs 1 cfg.nleg sigma (if cfg.perCamera then cfg.t.spectra.length else 1))) (by
      intro hp
      rw [hp]
      exact (C77_prior_ok 1 cfg.nleg _ sigma).2)
  rw [hg] at e1
  have e3 := Except.ok.inj e1
  refine ⟨sigma, B, X, i, p.2, hsg, hi, fun s hs => ⟨hI.rebinned s hs, hI.reduced s hs⟩, ?_, ?_, e2⟩
  · exact congrArg Prod.fst e3
  · have e4 : coeff = _ := congrArg (fun v => v.2.1) e3
    rw [hsp, hnc, e4]

/-- **C128** partial (missing: candidates flagged `BAD_MINFIT`, and templates with another IGM model than the archetypes; both refuted below; and the two exceptions of C76) an archetype candidate without `BAD_MINFIT` is
a fit at the redshift it reports: the model that `eval_model` draws at that redshift from its subtype, coefficients and polynomial coefficients has the chi2 of the candidate, provided the transmission `lyman` of the
template at that redshift is the transmission `igm` of `eval_model`. -/
theorem C128_model_partial (argsort : List (Ext K) → List Nat) (harg : IsArgsort Ext.sortLe argsort) (cfg : ArchFitCfg ω K) (E : FitEnv K) (hE : E.arch = some cfg.env) (hnz : 2 ≤ E.nz)
    (hS : ∀ b, SolverOk (solveMatrices cfg.S .bvls (some b))) (hargsort : IsArgsort (fun a b : K => decide (a ≤ b)) cfg.argsort) (ht : GoodTarget cfg.t) (hb : cfg.perCamera = true → GoodBands cfg.t)
    (hX : ∀ s ∈ cfg.t.spectra, ∃ X, reducedWavelength (cfg.t.wave s.wavehash) = .ok X)
    (wave : List K) (flux : List (List K)) (rrtype : PyStr) (names : List PyStr) (hA : cfg.A = Archetype.load wave flux rrtype names) (hnames : names.length = flux.length) (hne : flux ≠ [])
    (hr : ':' ∉ pyStrip rrtype) (hcolon : ∀ n ∈ names, ':' ∉ n) (hsemi : ∀ n ∈ names, ';' ∉ n)
    (hn : ∀ n, cfg.nNearest = some n → 1 ≤ n ∧ n ≤ flux.length ∧ cfg.perCamera = true)
    (archetypes : PyDict PyStr (Archetype K)) (hAd : archetypes.get? (pyStrip rrtype) = some cfg.A) (igm : K → List K → Py (List K))
    (nminima : Nat) (zchi2 : List (Ext K)) (redshifts : List K) (hz : redshifts.Pairwise (· ≤ ·)) (r : List (Cand K)) (h : fitz argsort E nminima zchi2 redshifts = .ok r)
    (c : Cand K) (hc : c ∈ r) (hgood : c.zwarn &&& ZW.BAD_MINFIT = 0)
    (hsame : ∀ s ∈ cfg.t.spectra, ∃ T, igm c.z (cfg.t.wave s.wavehash) = .ok T ∧
      (cfg.lyman c.z (cfg.t.wave s.wavehash) = some T ∨ (cfg.lyman c.z (cfg.t.wave s.wavehash) = none ∧ T = List.replicate (cfg.t.wave s.wavehash).length 1)))
    (hlen : ∀ s ∈ cfg.t.spectra, ∀ T, cfg.lyman c.z (cfg.t.wave s.wavehash) = some T → T.length = (cfg.t.wave s.wavehash).length) (hnz : ∃ a ∈ c.coeff, a ≠ 0) :
    ∃ subtype model, evalModelArch igm cfg.leg archetypes cfg.t (pyStrip rrtype) subtype c.coeff (if cfg.perCamera then .each c.legcoeff else .one (c.legcoeff.getD 0 [])) c.z = .ok model ∧
      PyDict.keys model = cfg.t.spectra.map (·.wavehash) ∧ modelChi2 cfg.t.spectra model = c.chi2 := by
  obtain ⟨sigma, all, st, hsg, hbest, hsp⟩ := unflagged argsort harg cfg E hE (by assumption) nminima zchi2 redshifts hz r h c hc hgood
  unfold ArchFitCfg.getBest at hbest
  simp only [Option.map_some] at hbest
  obtain ⟨⟨chi2, coeff, fulltype⟩, hg, hbest⟩ := Except.bind_ok _ _ _ hbest
  obtain ⟨p, hp, hbest⟩ := Except.bind_ok _ _ _ hbest
  obtain ⟨rfl, rfl, rfl⟩ : chi2 = c.chi2 ∧ coeff = all ∧ p.2 = st := by
    have := Except.ok.inj hbest
    simpa using this
  have hnc : cfg.ncamera = if cfg.perCamera then cfg.t.spectra.length else 1 := by
    unfold ArchFitCfg.ncamera
    rw [dwave_eq cfg.t ht.grids, List.length_map]
  obtain ⟨B, X, hI⟩ := input_of_ok ht (rebinned_of_ok ht hg) hX hlen
  obtain ⟨chi2', coeff', fulltype', subtype, e1, e2, e3⟩ := C76_end_to_end cfg.S hS cfg.le cfg.argsort hargsort igm cfg.leg cfg.nleg ht wave flux rrtype names hA hnames hne hr hcolon hsemi hI hsame archetypes hAd
    cfg.perCamera hb cfg.nNearest hn sigma
  rw [hnc] at hg
  rw [hg] at e1
  obtain ⟨e5, e6, e7⟩ : c.chi2 = chi2' ∧ coeff = coeff' ∧ fulltype = fulltype' := by
    have := Except.ok.inj e1
    simpa using this
  subst e5 e6 e7
  rw [hp] at e2
  have e4 : p.2 = subtype := congrArg Prod.snd (Except.ok.inj e2)
  subst e4
  obtain ⟨model, h1, h2, h3⟩ := e3 c.coeff c.legcoeff (by rw [← hnc]; exact hsp.symm) hnz
  exact ⟨_, model, h1, h2, h3⟩

end

/-! ## The transmission over the reals -/

/-- fitz.py:293  `transmission_Lyman(np.array([z]), wave, always_return_array=False, model=model)`, row 0. -/
noncomputable def templateLyman (model : IgmModel) (z : ℝ) (w : List ℝ) : Option (List ℝ) :=
  match transmissionLyman (.array [z]) (.array w) model false with
  | .ok (some (.mat rows)) => rows.head?
  | _ => none

/-- archetypes.py:71, 208  `transmission_Lyman(z, wave, model='Inoue14')`: the archetypes always have this model. -/
noncomputable def archetypeLyman (z : ℝ) (w : List ℝ) : Py (List ℝ) :=
  match transmissionLyman (.scalar z) (.array w) .inoue14 true with
  | .ok (some (.vec v)) => .ok v
  | .ok _ => .error .typeError
  | .error e => .error e

private theorem archetypeLyman_eq (z : ℝ) (w : List ℝ) (hz : -1 < z) (hw : w ≠ []) (h0 : ∀ l ∈ w, 0 < l) : archetypeLyman z w = .ok (w.map (pixelT .inoue14 z)) := by
  rcases C69_pixelwise (.scalar z) (.array w) .inoue14 true (by decide) (by simp [NpArg.toList]) (by simpa [NpArg.toList] using hw) (by simpa [NpArg.toList] using hz) (by simpa [NpArg.toList] using h0) with h | ⟨_, h, _⟩
  · unfold archetypeLyman
    rw [h]
    rfl
  · cases h

private theorem templateLyman_eq (model : IgmModel) (hm : model ≠ .unknown) (z : ℝ) (w : List ℝ) (hz : -1 < z) (hw : w ≠ []) (h0 : ∀ l ∈ w, 0 < l) :
    templateLyman model z w = some (w.map (pixelT model z)) ∨ (templateLyman model z w = none ∧ ∀ l ∈ w, pixelT model z l = 1) := by
  rcases C69_pixelwise (.array [z]) (.array w) model false hm (by simp [NpArg.toList]) (by simpa [NpArg.toList] using hw) (by simpa [NpArg.toList] using hz) (by simpa [NpArg.toList] using h0) with h | ⟨h, _, h1⟩
  · left
    unfold templateLyman
    rw [h]
    rfl
  · right
    refine ⟨by unfold templateLyman; rw [h], ?_⟩
    simpa [NpArg.toList] using h1

/-- **C128** when the condition on the transmission holds: the template has the model `Inoue14`, or every pixel is at or above Lyman alpha at the reported redshift. -/
theorem C128_same_igm (model : IgmModel) (hm : model ≠ .unknown) (z : ℝ) (w : List ℝ) (hz : -1 < z) (hw : w ≠ []) (h0 : ∀ l ∈ w, 0 < l)
    (h : model = .inoue14 ∨ ∀ l ∈ w, 1215.67 ≤ l / (1 + z)) :
    (∃ T, archetypeLyman z w = .ok T ∧ (templateLyman model z w = some T ∨ (templateLyman model z w = none ∧ T = List.replicate w.length 1))) ∧
    ∀ T, templateLyman model z w = some T → T.length = w.length := by
  have e1 := archetypeLyman_eq z w hz hw h0
  have e2 := templateLyman_eq model hm z w hz hw h0
  have e3 : w.map (pixelT model z) = w.map (pixelT .inoue14 z) := by
    rcases h with rfl | h
    · rfl
    · apply List.map_congr_left
      intro l hl
      rw [pixelT_one _ _ _ (h l hl), pixelT_one _ _ _ (h l hl)]
  refine ⟨⟨_, e1, ?_⟩, ?_⟩
  · rcases e2 with e | ⟨e, e4⟩
    · left; rw [e, e3]
    · right
      refine ⟨e, ?_⟩
      rw [← e3, List.eq_replicate_iff]
      refine ⟨by simp, ?_⟩
      intro b hb
      obtain ⟨l, hl, rfl⟩ := List.mem_map.1 hb
      exact e4 l hl
  · intro T hT
    rcases e2 with e | ⟨e, _⟩
    · rw [e] at hT; cases hT; simp
    · rw [e] at hT; cases hT

/-- **C128** when it does not hold: a template without IGM model and a pixel between the Lyman limit and Lyman alpha. The fit sees no absorption, the model that `eval_model` draws is absorbed. -/
theorem C128_other_igm (z : ℝ) (w : List ℝ) (hz : -1 < z) (hw : ∀ l ∈ w, 0 < l) (l : ℝ) (hl : l ∈ w) (h1 : 911.8 ≤ l / (1 + z)) (h2 : l / (1 + z) < 1215.67) :
    templateLyman .noModel z w = none ∧ ∃ T, archetypeLyman z w = .ok T ∧ ∃ t ∈ T, t < 1 := by
  refine ⟨rfl, _, archetypeLyman_eq z w hz (by rintro rfl; cases hl) hw, _, List.mem_map.2 ⟨l, hl, rfl⟩, C45_inoue z l hz h1 h2⟩

/-- the pixel of `C128_other_igm` exists: 3000 Angstrom at redshift 2 -/
example : (-1 : ℝ) < 2 ∧ (911.8 : ℝ) ≤ 3000 / (1 + 2) ∧ (3000 : ℝ) / (1 + 2) < 1215.67 := by norm_num

/-! ## The claim is false without the conditions -/
namespace ArchFitz.Ex

/-- absorption in the first pixel of the grid `[1, 2, 3]`, at redshift 1 only -/
def lyman (z : ℚ) (w : List ℚ) : Option (List ℚ) := if z = 1 ∧ w = [1, 2, 3] then some [1/2, 1, 1] else none
/-- the same transmission as an array -/
def igm (z : ℚ) (w : List ℚ) : Py (List ℚ) := .ok ((lyman z w).getD (w.map (fun _ => 1)))

/-- the archetypes and the target of the examples of C75 and C76 -/
def cfg (lyman : ℚ → List ℚ → Option (List ℚ)) : ArchFitCfg Nat ℚ where
  S := exSolvers
  le := fun _ _ => true
  argsort := fun v => List.range v.length
  leg := exLeg
  A := exArch
  t := exTarget
  lyman := lyman
  perCamera := true
  nNearest := none
  nleg := 1
  sigma := some (1/10)

/-- the candidate reported when the scan minimum is at the lower end of the redshifts 1, 2, 3: the vertex 1/2 of the parabola is outside -/
def flagged : Cand ℚ := ⟨1, 1, ZW.BAD_MINFIT ||| ZW.Z_FITLIMIT, 129/64, [1/2], [[1/2], [1/2]]⟩

/-- chi2(z) = 4 + (z-1)² -/
def env (lyman : ℚ → List ℚ → Option (List ℚ)) : FitEnv ℚ := { demoEnv (some (cfg lyman).env) with scan := fun zz => .ok (zz.map (fun z => 4 + (z - 1) ^ 2)) }
/-- candidates at the vertex 1, inside the range -/
def inside (chi2 : ℚ) : Cand ℚ := ⟨1, 1, 0, chi2, [1/2], [[1/2], [1/2]]⟩

end ArchFitz.Ex
open ArchFitz.Ex

/-- **C128** refuted, a flagged candidate: the archetypes are redshifted to 1 but absorbed as at redshift 1/2, so the chi2 129/64 of the candidate is not that of its model, 521/256 -/
theorem C128_flagged_refuted :
    fitz (stableArgsort Ext.sortLe) (demoEnv (some (cfg lyman).env)) 3 ([4, 17/4, 25/4].map .fin) [1, 2, 3] = .ok [flagged] ∧
    (cfg lyman).getBest (some (1/2)) 1 (some (1/10)) = .ok (129/64, [1/2, 1/2, 1/2], "B_1".toList) ∧
    (cfg lyman).getBest (some 1) 1 (some (1/10)) = .ok (521/256, [1/2, 1/2, 1/2], "B_1".toList) ∧
    (evalModelArch igm exLeg [("GALAXY".toList, exArch)] exTarget "GALAXY".toList "B_1".toList flagged.coeff (.each flagged.legcoeff) flagged.z).map (modelChi2 exTarget.spectra) = .ok (521/256) := by
  refine ⟨?_, ?_, ?_, ?_⟩ <;> decide +kernel

/-- **C128** refuted, a template with another IGM model than the archetypes (here: none): also the chi2 of an unflagged candidate is not that of its model -/
theorem C128_igm_refuted :
    fitz (stableArgsort Ext.sortLe) (env (fun _ _ => none)) 3 ([5, 4, 8].map .fin) [0, 1, 3] = .ok [inside (129/64)] ∧
    (evalModelArch igm exLeg [("GALAXY".toList, exArch)] exTarget "GALAXY".toList "B_1".toList [1/2] (.each [[1/2], [1/2]]) 1).map (modelChi2 exTarget.spectra) = .ok (521/256) := by
  constructor <;> decide +kernel

/-- the hypotheses of `C128_model_partial` are met by this run -/
example : fitz (stableArgsort Ext.sortLe) (env lyman) 3 ([5, 4, 8].map .fin) [0, 1, 3] = .ok [inside (521/256)] ∧ (env lyman).arch = some (cfg lyman).env ∧ 2 ≤ (env lyman).nz ∧
    (∀ s ∈ exTarget.spectra, ∃ T, igm 1 (exTarget.wave s.wavehash) = .ok T ∧
      (lyman 1 (exTarget.wave s.wavehash) = some T ∨ (lyman 1 (exTarget.wave s.wavehash) = none ∧ T = List.replicate (exTarget.wave s.wavehash).length 1))) ∧
    (∀ s ∈ exTarget.spectra, ∃ X, reducedWavelength (exTarget.wave s.wavehash) = .ok X) ∧
    (∀ s ∈ exTarget.spectra, ∀ T, lyman 1 (exTarget.wave s.wavehash) = some T → T.length = (exTarget.wave s.wavehash).length) := by
  have hs : ∀ s ∈ exTarget.spectra, s.wavehash = 0 ∨ s.wavehash = 1 := by decide +kernel
  refine ⟨by decide +kernel, rfl, by decide, ?_, ?_, ?_⟩
  · intro s h
    rcases hs s h with e | e
    · rw [e]; exact ⟨[1/2, 1, 1], by decide +kernel, Or.inl (by decide +kernel)⟩
    · rw [e]; exact ⟨[1, 1], by decide +kernel, Or.inr ⟨by decide +kernel, by decide +kernel⟩⟩
  · intro s h
    rcases hs s h with e | e
    · rw [e]; exact ⟨[-1, 0, 1], by decide +kernel⟩
    · rw [e]; exact ⟨[-1, 1], by decide +kernel⟩
  · intro s h T hT
    rcases hs s h with e | e
    · rw [e] at hT ⊢
      have : lyman 1 (exTarget.wave 0) = some [1/2, 1, 1] := by decide +kernel
      rw [this] at hT; cases hT; rfl
    · rw [e] at hT
      have : lyman 1 (exTarget.wave 1) = none := by decide +kernel
      rw [this] at hT; cases hT

end Redrock
