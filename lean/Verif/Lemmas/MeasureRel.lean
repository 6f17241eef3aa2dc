import Verif.Lemmas.Measure
import Verif.Lemmas.UniqueFit

/-!
Two targets (or two template sets) whose chi2 functions agree up to the coefficients give the same rows up to the coefficients.
-/
namespace Redrock
set_option linter.unusedSectionVars false

section
variable {ω K σ : Type} [DecidableEq ω] [Field K] [LinearOrder K] [IsStrictOrderedRing K]

theorem RelPy.eq_iff {α : Type} (x y : Py α) : RelPy (· = ·) x y ↔ x = y := by
  cases x <;> cases y <;> simp [RelPy]

/-- chi2 and coefficients at the redshifts `zs` -/
def batchAt (S : Solvers K) (tm : Tmpl ω K σ) (spectra : List (FitSpectrum ω K)) (zs : List K) : Py (List (K × List K)) := do
  let b ← binAll tm (hashesOf spectra) zs
  let d := spectralData spectra
  calcZchi2Batch (solveMatrices S tm.algorithm none) spectra b d.1 d.2.1 d.2.2 zs.length tm.nbasis none

/-- The same chi2, with coefficients related by `ρ`. -/
def EntryRel (ρ : List K → List K → Prop) (q q' : K × List K) : Prop := q'.1 = q.1 ∧ ρ q.2 q'.2

/-- What two fits of a target with a template must share for all results to be the same up to `ρ`. -/
structure SameFits (ρ : List K → List K → Prop) (S : Solvers K) (tm tm' : Tmpl ω K σ) (spectra spectra' : List (FitSpectrum ω K)) : Prop where
  spectype : tm'.spectype = tm.spectype
  subtype : tm'.subtype = tm.subtype
  isStar : tm'.isStar = tm.isStar
  redshifts : tm'.redshifts = tm.redshifts
  nbasis : tm'.nbasis = tm.nbasis
  oii : tm'.oii = tm.oii
  pen : ∀ t nw, tm.oii = some (t, nw) → ∀ c c', ρ c c' → oiiFlux t nw c' = oiiFlux t nw c
  zero : ρ (List.replicate tm.nbasis 0) (List.replicate tm.nbasis 0)
  weight : (spectra.flatMap (·.ivar)).sum = 0 ↔ (spectra'.flatMap (·.ivar)).sum = 0
  batch : ∀ zs, RelPy (List.Forall₂ (EntryRel ρ)) (batchAt S tm spectra zs) (batchAt S tm' spectra' zs)

theorem negOIIPenalty_rel (ρ : List K → List K → Prop) (t : List (List K)) (nw : Nat) (hpen : ∀ c c', ρ c c' → oiiFlux t nw c' = oiiFlux t nw c) {r r' : List (K × List K)} (h : List.Forall₂ (EntryRel ρ) r r') :
    negOIIPenalty t nw (r'.map (·.2)) = negOIIPenalty t nw (r.map (·.2)) ∧ r'.map (·.1) = r.map (·.1) := by
  unfold negOIIPenalty
  induction h with
  | nil => exact ⟨rfl, rfl⟩
  | cons hab _ ih =>
    obtain ⟨i1, i2⟩ := ih
    simp only [List.map_cons] at i1 i2 ⊢
    rw [i1, i2, hpen _ _ hab.2, hab.1]
    exact ⟨rfl, rfl⟩

variable {ρ : List K → List K → Prop} {S : Solvers K} {tm tm' : Tmpl ω K σ} {spectra spectra' : List (FitSpectrum ω K)}

theorem SameFits.fine (h : SameFits ρ S tm tm' spectra spectra') : fineScan S tm' spectra' = fineScan S tm spectra := by
  funext zz
  symm
  rw [← RelPy.eq_iff]
  have e : ∀ (tm : Tmpl ω K σ) sp, fineScan S tm sp zz = (batchAt S tm sp zz >>= fun r => match tm.oii with
      | none => .ok (r.map (·.1))
      | some (t, nw) => .ok (List.zipWith (· + ·) (r.map (·.1)) (negOIIPenalty t nw (r.map (·.2))))) := by
    intro tm sp
    unfold fineScan batchAt
    cases binAll tm (hashesOf sp) zz <;> rfl
  rw [e, e]
  refine (h.batch zz).bind (fun r r' hr => ?_)
  rw [h.oii]
  cases ho : tm.oii with
  | none =>
    show r.map (·.1) = r'.map (·.1)
    exact (negOIIPenalty_rel ρ [] 0 (fun _ _ _ => rfl) hr).2.symm
  | some tn =>
    obtain ⟨t, nw⟩ := tn
    obtain ⟨e1, e2⟩ := negOIIPenalty_rel ρ t nw (h.pen t nw ho) hr
    show List.zipWith (· + ·) (r.map (·.1)) (negOIIPenalty t nw (r.map (·.2))) = List.zipWith (· + ·) (r'.map (·.1)) (negOIIPenalty t nw (r'.map (·.2)))
    rw [e1, e2]

theorem SameFits.fitAt (h : SameFits ρ S tm tm' spectra spectra') (z : K) : RelPy ρ (fitAtZ S tm spectra z) (fitAtZ S tm' spectra' z) := by
  have hb := h.batch [z]
  have e : ∀ (tm : Tmpl ω K σ) sp, fitAtZ S tm sp z = (batchAt S tm sp [z] >>= fun r => npGet r 0 >>= fun q => .ok q.2) := by
    intro tm sp
    unfold fitAtZ batchAt
    cases binAll tm (hashesOf sp) [z] <;> rfl
  rw [e, e]
  exact hb.bind (fun r r' hr => (npGet_rel hr 0).bind (fun q q' hq => hq.2))

theorem SameFits.scan (h : SameFits ρ S tm tm' spectra spectra') : scanTarget S tm' spectra' = scanTarget S tm spectra := by
  symm
  rw [← RelPy.eq_iff]
  have e : ∀ (tm : Tmpl ω K σ) sp, scanTarget S tm sp = (batchAt S tm sp tm.redshifts >>= fun r =>
      if (sp.flatMap (·.ivar)).sum = 0 then .ok (List.zipWith (· + ·) (List.replicate tm.redshifts.length hugeChi2) (List.replicate tm.redshifts.length 0)) else match tm.oii with
      | none => .ok (List.zipWith (· + ·) (r.map (·.1)) (List.replicate tm.redshifts.length 0))
      | some (t, nw) => .ok (List.zipWith (· + ·) (r.map (·.1)) (negOIIPenalty t nw (r.map (·.2))))) := by
    intro tm sp
    unfold scanTarget batchAt
    cases binAll tm (hashesOf sp) tm.redshifts with
    | error e => rfl
    | ok b =>
      show (calcZchi2Target _ _ _ _ _ _ >>= _) = (calcZchi2Batch _ _ _ _ _ _ _ _ _ >>= _)
      unfold calcZchi2Target
      simp only [show (spectralData sp).1 = sp.flatMap (·.ivar) from rfl]
      by_cases h0 : (sp.flatMap (·.ivar)).sum = 0
      · rw [if_pos h0]
        unfold calcZchi2Batch
        rw [if_pos h0]
        simp [bind, Except.bind, pure, Except.pure, h0]
      · simp only [if_neg h0]
        cases calcZchi2Batch (solveMatrices S tm.algorithm none) sp b (sp.flatMap (·.ivar)) (spectralData sp).2.1 (spectralData sp).2.2 tm.redshifts.length tm.nbasis none with
        | error e => rfl
        | ok r =>
          cases ho : tm.oii with
          | none => rfl
          | some tn => rfl
  rw [e, e, h.redshifts]
  refine (h.batch tm.redshifts).bind (fun r r' hr => ?_)
  by_cases h0 : (spectra.flatMap (·.ivar)).sum = 0
  · rw [if_pos h0, if_pos (h.weight.1 h0)]; rfl
  · rw [if_neg h0, if_neg (fun hh => h0 (h.weight.2 hh)), h.oii]
    cases ho : tm.oii with
    | none =>
      show List.zipWith (· + ·) (r.map (·.1)) _ = List.zipWith (· + ·) (r'.map (·.1)) _
      rw [(negOIIPenalty_rel ρ [] 0 (fun _ _ _ => rfl) hr).2]
    | some tn =>
      obtain ⟨t, nw⟩ := tn
      obtain ⟨e1, e2⟩ := negOIIPenalty_rel ρ t nw (h.pen t nw ho) hr
      show List.zipWith (· + ·) (r.map (·.1)) (negOIIPenalty t nw (r.map (·.2))) = List.zipWith (· + ·) (r'.map (·.1)) (negOIIPenalty t nw (r'.map (·.2)))
      rw [e1, e2]

/-- one template -/
theorem SameFits.fitTarget (h : SameFits ρ S tm tm' spectra spectra') (hpix : npixelsOf spectra' = npixelsOf spectra) (c : MeasureCfg K) (hc : c.S = S) :
    RelPy (FitRel ρ) (fitTarget c spectra tm) (fitTarget c spectra' tm') := by
  unfold Redrock.fitTarget
  subst hc
  rw [h.scan, h.redshifts]
  refine RelPy.bind_left _ (fun x => ?_)
  refine (fitz_rel ρ c.argsort (fitEnvOf c.minfit c.nz c.S tm spectra) (fitEnvOf c.minfit c.nz c.S tm' spectra') ?_ rfl (fun z => h.fitAt z) h.zero c.nminima _ tm.redshifts).bind (fun cs cs' hcs => ?_)
  · unfold fitEnvOf
    rw [h.fine, h.nbasis, h.isStar]
  · exact ⟨h.spectype, h.subtype, h.isStar, hpix, hcs⟩

/-- the whole measurement of a target -/
theorem measure_rel [LinearOrder σ] (ρ : List K → List K → Prop) (hρ : PadClosed ρ) (c : MeasureCfg K) (templates templates' : List (Tmpl ω K σ)) (spectra spectra' : List (FitSpectrum ω K))
    (h : List.Forall₂ (fun tm tm' => SameFits ρ c.S tm tm' spectra spectra') templates templates') (hpix : npixelsOf spectra' = npixelsOf spectra) :
    RelPy (List.Forall₂ (RowRel ρ)) (measureTarget c templates spectra) (measureTarget c templates' spectra') := by
  unfold measureTarget
  exact (RelPy.mapM h (fun tm tm' hh => hh.fitTarget hpix c rfl)).bind (fun fits fits' hf => targetTable_rel ρ hρ c.nminima hf)

end
end Redrock
