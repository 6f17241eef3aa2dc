import Verif.Model.Measure
import Verif.Lemmas.Zfind
import Verif.Props.Coeff

/-!
Relational lemmas: two fits that agree except for the coefficients give tables that agree except for the coefficients.
-/
namespace Redrock
set_option linter.unusedSectionVars false

/-- Both raise the same exception, or both return related values. -/
def RelPy {α β : Type} (R : α → β → Prop) : Py α → Py β → Prop
  | .ok a, .ok b => R a b
  | .error e, .error e' => e = e'
  | _, _ => False

theorem RelPy.bind {α β γ δ : Type} {R : α → β → Prop} {Q : γ → δ → Prop} {x : Py α} {y : Py β} {f : α → Py γ} {g : β → Py δ} (h : RelPy R x y) (hf : ∀ a b, R a b → RelPy Q (f a) (g b)) :
    RelPy Q (x >>= f) (y >>= g) := by
  cases x <;> cases y
  · exact h
  · exact h.elim
  · exact h.elim
  · exact hf _ _ h

theorem RelPy.bind_left {α γ δ : Type} {Q : γ → δ → Prop} (x : Py α) {f : α → Py γ} {g : α → Py δ} (hf : ∀ a, RelPy Q (f a) (g a)) : RelPy Q (x >>= f) (x >>= g) := by
  cases x
  · rfl
  · exact hf _

theorem RelPy.pure {α β : Type} {R : α → β → Prop} {a : α} {b : β} (h : R a b) : RelPy R (.ok a) (.ok b) := h

theorem RelPy.refl {α : Type} {R : α → α → Prop} (hR : ∀ a, R a a) (x : Py α) : RelPy R x x := by
  cases x
  · rfl
  · exact hR _

theorem RelPy.mapM {α α' β β' : Type} {P : α → α' → Prop} {R : β → β' → Prop} {f : α → Py β} {g : α' → Py β'} {l : List α} {l' : List α'} (h : List.Forall₂ P l l')
    (hf : ∀ a a', P a a' → RelPy R (f a) (g a')) : RelPy (List.Forall₂ R) (l.mapM f) (l'.mapM g) := by
  induction h with
  | nil => exact List.Forall₂.nil
  | cons hab _ ih =>
    rw [List.mapM_cons, List.mapM_cons]
    refine (hf _ _ hab).bind (fun b b' hb => ih.bind (fun bs bs' hbs => ?_))
    exact List.Forall₂.cons hb hbs

section
variable {K : Type} [Field K] [LinearOrder K]

/-- The same candidate, with coefficients related by `ρ`. -/
def CandRel (ρ : List K → List K → Prop) (c c' : Cand K) : Prop := c' = { c with coeff := c'.coeff } ∧ ρ c.coeff c'.coeff

theorem cand_any (ρ : List K → List K → Prop) (P : K → Bool) {rs rs' : List (Cand K)} (h : List.Forall₂ (CandRel ρ) rs rs') : rs.any (fun p => P p.z) = rs'.any (fun p => P p.z) := by
  induction h with
  | nil => rfl
  | cons hab _ ih =>
    rw [List.any_cons, List.any_cons, ih, hab.1]

theorem forall₂_getElem? {α β : Type} {R : α → β → Prop} {l : List α} {r : List β} (h : List.Forall₂ R l r) (i : Nat) :
    (l[i]? = none ∧ r[i]? = none) ∨ ∃ a b, l[i]? = some a ∧ r[i]? = some b ∧ R a b := by
  induction h generalizing i with
  | nil => left; simp
  | cons hab _ ih =>
    cases i with
    | zero => right; exact ⟨_, _, by simp, by simp, hab⟩
    | succ i => simpa using ih i

theorem npGet_rel {α β : Type} {R : α → β → Prop} {l : List α} {r : List β} (h : List.Forall₂ R l r) (i : Nat) : RelPy R (npGet l i) (npGet r i) := by
  unfold npGet
  rcases forall₂_getElem? h i with ⟨h1, h2⟩ | ⟨a, b, h1, h2, h3⟩
  · rw [h1, h2]; rfl
  · rw [h1, h2]; exact h3

theorem npTake_rel {α β : Type} {R : α → β → Prop} {l : List α} {r : List β} (h : List.Forall₂ R l r) (ii : List Nat) : RelPy (List.Forall₂ R) (npTake l ii) (npTake r ii) := by
  unfold npTake
  apply RelPy.mapM (P := Eq) (List.forall₂_same.2 (fun _ _ => rfl))
  rintro i _ rfl
  rcases forall₂_getElem? h i with ⟨h1, h2⟩ | ⟨a, b, h1, h2, h3⟩
  · rw [h1, h2]; rfl
  · rw [h1, h2]; exact h3

/-- `fitz` for two environments that differ only in the coefficients at a redshift -/
theorem fitz_rel (ρ : List K → List K → Prop) (argsort : List (Ext K) → List Nat) (E E' : FitEnv K) (hE : E' = { E with fitAt := E'.fitAt }) (harch : E.arch = none)
    (hfit : ∀ z, RelPy ρ (E.fitAt z) (E'.fitAt z)) (hzero : ρ (List.replicate E.nbasis 0) (List.replicate E.nbasis 0)) (nminima : Nat) (zchi2 : List (Ext K)) (redshifts : List K) :
    RelPy (List.Forall₂ (CandRel ρ)) (fitz argsort E nminima zchi2 redshifts) (fitz argsort E' nminima zchi2 redshifts) := by
  have hstar : E'.isStar = E.isStar := by rw [hE]
  have hnz : E'.nz = E.nz := by rw [hE]
  have hmf : E'.minfit = E.minfit := by rw [hE]
  have hsc : E'.scan = E.scan := by rw [hE]
  have hnb : E'.nbasis = E.nbasis := by rw [hE]
  have harch' : E'.arch = none := by rw [hE]; exact harch
  have hfin : ∀ zz zzchi2 rs rs' zmin sigma chi2min zwarn coeff coeff' tr, List.Forall₂ (CandRel ρ) rs rs' → ρ coeff coeff' →
      RelPy (List.Forall₂ (CandRel ρ)) (fitzFinish E redshifts zz zzchi2 rs zmin sigma chi2min zwarn coeff tr) (fitzFinish E' redshifts zz zzchi2 rs' zmin sigma chi2min zwarn coeff' tr) := by
    intro zz zzchi2 rs rs' zmin sigma chi2min zwarn coeff coeff' tr hrs hc
    unfold fitzFinish
    refine RelPy.bind_left _ (fun a => RelPy.bind_left _ (fun b => RelPy.bind_left _ (fun x => ?_)))
    obtain ⟨zbest, cm, zw⟩ := x
    refine RelPy.bind_left _ (fun z1 => RelPy.bind_left _ (fun zm2 => ?_))
    simp only [harch, harch', hstar]
    rw [← cand_any ρ (fun z => decide (|getDv zbest z| < maxVeloDiff E.isStar)) hrs]
    split
    · exact hrs
    · refine List.rel_append hrs (List.Forall₂.cons ⟨rfl, hc⟩ List.Forall₂.nil)
  have hbody : ∀ n imin rs rs', List.Forall₂ (CandRel ρ) rs rs' → RelPy (List.Forall₂ (CandRel ρ)) (fitzBody E n redshifts rs imin) (fitzBody E' n redshifts rs' imin) := by
    intro n imin rs rs' hrs
    unfold fitzBody
    refine RelPy.bind_left _ (fun zi => ?_)
    simp only [hstar, hnz, hmf, hsc, hnb]
    rw [← cand_any ρ (fun z => decide (|getDv zi z| < maxVeloDiff E.isStar)) hrs]
    split
    · exact hrs
    · refine RelPy.bind_left _ (fun zlo => RelPy.bind_left _ (fun zhi => RelPy.bind_left _ (fun zzc => RelPy.bind_left _ (fun am => RelPy.bind_left _ (fun x => ?_)))))
      obtain ⟨zmin, sigma, cm, zw⟩ := x
      have hf := hfit zmin
      simp only
      cases h1 : E.fitAt zmin with
      | ok coeff =>
        cases h2 : E'.fitAt zmin with
        | ok coeff' =>
          rw [h1, h2] at hf
          exact hfin _ _ _ _ _ _ _ _ _ _ _ hrs hf
        | error e => rw [h1, h2] at hf; exact hf.elim
      | error e =>
        cases h2 : E'.fitAt zmin with
        | ok coeff' => rw [h1, h2] at hf; exact hf.elim
        | error e' =>
          rw [h1, h2] at hf
          have he : e = e' := hf
          subst he
          cases e <;> first
            | rfl
            | (refine RelPy.bind_left _ (fun z0 => RelPy.bind_left _ (fun zl => ?_))
               split
               · exact hfin _ _ _ _ _ _ _ _ _ _ _ hrs hzero
               · rfl)
  have hloop : ∀ n minima rs rs', List.Forall₂ (CandRel ρ) rs rs' → RelPy (List.Forall₂ (CandRel ρ)) (fitzLoop E nminima n redshifts minima rs) (fitzLoop E' nminima n redshifts minima rs') := by
    intro n minima
    induction minima with
    | nil => intro rs rs' hrs; exact hrs
    | cons m ms ih =>
      intro rs rs' hrs
      unfold fitzLoop
      rw [← hrs.length_eq]
      split
      · exact hrs
      · exact (hbody n m rs rs' hrs).bind (fun a b hab => ih a b hab)
  unfold fitz
  by_cases hlen : zchi2.length = redshifts.length
  swap
  · simp only [ne_eq, hlen, not_false_eq_true, if_true]
    rfl
  simp only [ne_eq, hlen, not_true_eq_false, if_false]
  refine RelPy.bind_left _ (fun minima => (hloop _ minima _ _ List.Forall₂.nil).bind (fun rs rs' hrs => ?_))
  have hc : rs'.map (fun c => (Ext.fin c.chi2 : Ext K)) = rs.map (fun c => .fin c.chi2) := by
    induction hrs with
    | nil => rfl
    | cons hab _ ih => rw [List.map_cons, List.map_cons, ih, hab.1]
  simp only [hc]
  exact npTake_rel hrs _

variable {σ : Type}

/-- The same row, with coefficients related by `ρ`. -/
def RowRel (ρ : List K → List K → Prop) (r r' : Row K σ) : Prop := r' = { r with coeff := r'.coeff } ∧ ρ r.coeff r'.coeff

/-- The same fit of a template, with coefficients related by `ρ`. -/
def FitRel (ρ : List K → List K → Prop) (t t' : TemplateFit K σ) : Prop :=
  t'.spectype = t.spectype ∧ t'.subtype = t.subtype ∧ t'.isStar = t.isStar ∧ t'.npixels = t.npixels ∧ List.Forall₂ (CandRel ρ) t.cands t'.cands

/-- Relations of coefficient vectors that the table can carry: same length, and kept by padding with zeros. -/
structure PadClosed (ρ : List K → List K → Prop) : Prop where
  len : ∀ c c', ρ c c' → c'.length = c.length
  pad : ∀ c c' k, ρ c c' → ρ (c ++ List.replicate k 0) (c' ++ List.replicate k 0)

theorem targetRows_rel (ρ : List K → List K → Prop) (hρ : PadClosed ρ) {fits fits' : List (TemplateFit K σ)} (h : List.Forall₂ (FitRel ρ) fits fits') :
    RelPy (List.Forall₂ (RowRel ρ)) (targetRows fits) (targetRows fits') := by
  have hfil : List.Forall₂ (FitRel ρ) (fits.filter (fun t => decide (t.cands ≠ []))) (fits'.filter (fun t => decide (t.cands ≠ []))) := by
    induction h with
    | nil => exact .nil
    | @cons a b la lb hab _ ih =>
      have : (decide (a.cands ≠ [])) = (decide (b.cands ≠ [])) := by
        have h5 := hab.2.2.2.2
        cases hca : a.cands <;> cases hcb : b.cands <;> rw [hca, hcb] at h5 <;> first | rfl | (cases h5)
      rw [List.filter_cons, List.filter_cons, this]
      split
      · exact .cons hab ih
      · exact ih
  have hnc : ∀ a b : TemplateFit K σ, FitRel ρ a b → b.ncoeff = a.ncoeff := by
    intro a b hab
    unfold TemplateFit.ncoeff
    have h5 := hab.2.2.2.2
    generalize a.cands = la at h5
    generalize b.cands = lb at h5
    cases h5 with
    | nil => rfl
    | cons h1 _ => simp [hρ.len _ _ h1.2]
  unfold targetRows
  generalize fits.filter (fun t => decide (t.cands ≠ [])) = A at hfil
  generalize fits'.filter (fun t => decide (t.cands ≠ [])) = B at hfil
  have hm : B.map (·.ncoeff) = A.map (·.ncoeff) := by
    induction hfil with
    | nil => rfl
    | cons hab _ ih => rw [List.map_cons, List.map_cons, ih, hnc _ _ hab]
  simp only [hm]
  refine RelPy.bind_left _ (fun m => ?_)
  show List.Forall₂ (RowRel ρ) _ _
  clear hm
  induction hfil with
  | nil => exact .nil
  | @cons a b la lb hab _ ih =>
    rw [List.flatMap_cons, List.flatMap_cons]
    refine List.rel_append ?_ ih
    rw [List.forall₂_map_left_iff, List.forall₂_map_right_iff]
    refine hab.2.2.2.2.imp ?_
    intro c c' hc
    obtain ⟨e1, e2⟩ := hc
    refine ⟨?_, ?_⟩
    · rw [e1, hab.1, hab.2.1, hab.2.2.1, hab.2.2.2.1, hnc _ _ hab]
    · rw [hρ.len _ _ e2]
      exact hρ.pad _ _ _ e2

/-- pairs of related rows -/
abbrev RowPair (K σ : Type) [Field K] [LinearOrder K] (ρ : List K → List K → Prop) := { p : Row K σ × Row K σ // RowRel ρ p.1 p.2 }

theorem rowPairs (ρ : List K → List K → Prop) {rows rows' : List (Row K σ)} (h : List.Forall₂ (RowRel ρ) rows rows') :
    ∃ L : List (RowPair K σ ρ), rows = L.map (·.1.1) ∧ rows' = L.map (·.1.2) := by
  induction h with
  | nil => exact ⟨[], rfl, rfl⟩
  | @cons a b _ _ hab _ ih =>
    obtain ⟨L, rfl, rfl⟩ := ih
    exact ⟨⟨(a, b), hab⟩ :: L, rfl, rfl⟩

theorem rowPairs_rel (ρ : List K → List K → Prop) (L : List (RowPair K σ ρ)) : List.Forall₂ (RowRel ρ) (L.map (·.1.1)) (L.map (·.1.2)) := by
  rw [List.forall₂_map_left_iff, List.forall₂_map_right_iff, List.forall₂_same]
  intro x _
  exact x.2

theorem sortZfit_rel (ρ : List K → List K → Prop) {rows rows' : List (Row K σ)} (h : List.Forall₂ (RowRel ρ) rows rows') : List.Forall₂ (RowRel ρ) (sortZfit rows) (sortZfit rows') := by
  obtain ⟨L, rfl, rfl⟩ := rowPairs ρ h
  unfold sortZfit
  rw [pySort_map, pySort_map, pySort_map, pySort_map]
  have h1 : (fun a b : RowPair K σ ρ => decide (a.1.1.chi2 ≤ b.1.1.chi2)) = (fun a b => decide (a.1.2.chi2 ≤ b.1.2.chi2)) := by
    funext a b
    rw [a.2.1, b.2.1]
  have h2 : (fun a b : RowPair K σ ρ => decide (a.1.1.bad = true → b.1.1.bad = true)) = (fun a b => decide (a.1.2.bad = true → b.1.2.bad = true)) := by
    funext a b
    rw [a.2.1, b.2.1]; rfl
  rw [h1, h2]
  exact rowPairs_rel ρ _

theorem trimRows_rel [LinearOrder σ] (ρ : List K → List K → Prop) (nminima : Nat) {rows rows' : List (Row K σ)} (h : List.Forall₂ (RowRel ρ) rows rows') :
    List.Forall₂ (RowRel ρ) (trimRows nminima rows) (trimRows nminima rows') := by
  have hsp : rows'.map (·.spectype) = rows.map (·.spectype) := by
    induction h with
    | nil => rfl
    | cons hab _ ih => rw [List.map_cons, List.map_cons, ih, hab.1]
  have hkeep : ∀ U : List σ, List.Forall₂ (RowRel ρ) (U.flatMap (fun s => (rows.filter (fun r => decide (r.spectype = s))).take nminima))
      (U.flatMap (fun s => (rows'.filter (fun r => decide (r.spectype = s))).take nminima)) := by
    intro U
    induction U with
    | nil => exact .nil
    | cons u U ih =>
      rw [List.flatMap_cons, List.flatMap_cons]
      refine List.rel_append ?_ ih
      refine List.forall₂_take _ ?_
      clear ih hsp
      induction h with
      | nil => exact .nil
      | @cons a b la lb hab _ ih2 =>
        have : b.spectype = a.spectype := by rw [hab.1]
        rw [List.filter_cons, List.filter_cons, this]
        split
        · exact .cons hab ih2
        · exact ih2
  unfold trimRows
  simp only [hsp]
  rw [← (hkeep _).length_eq, ← h.length_eq]
  split
  · exact sortZfit_rel ρ (hkeep _)
  · exact h

theorem finishRows_rel (ρ : List K → List K → Prop) {rows rows' : List (Row K σ)} (h : List.Forall₂ (RowRel ρ) rows rows') : List.Forall₂ (RowRel ρ) (finishRows rows) (finishRows rows') := by
  have hps : rows'.map (fun r => (⟨r.chi2, r.z, r.zwarn, r.maxVelo⟩ : DRow K)) = rows.map (fun r => ⟨r.chi2, r.z, r.zwarn, r.maxVelo⟩) := by
    induction h with
    | nil => rfl
    | cons hab _ ih => rw [List.map_cons, List.map_cons, ih, hab.1]
  unfold finishRows
  simp only [hps]
  generalize deltachi2s (rows.map (fun r => (⟨r.chi2, r.z, r.zwarn, r.maxVelo⟩ : DRow K))) = ds
  generalize setzwarns (rows.map (fun r => (⟨r.chi2, r.z, r.zwarn, r.maxVelo⟩ : DRow K))) = ss
  clear hps
  have hz : ∀ k, List.Forall₂ (RowRel ρ) ((((rows.zipIdx k).zip ds).zip ss).map (fun x => { x.1.1.1 with znum := x.1.1.2, deltachi2 := x.1.2, zwarn := if x.2 then x.1.1.1.zwarn ||| ZW.SMALL_DELTA_CHI2 else x.1.1.1.zwarn }))
      ((((rows'.zipIdx k).zip ds).zip ss).map (fun x => { x.1.1.1 with znum := x.1.1.2, deltachi2 := x.1.2, zwarn := if x.2 then x.1.1.1.zwarn ||| ZW.SMALL_DELTA_CHI2 else x.1.1.1.zwarn })) := by
    induction h generalizing ds ss with
    | nil => intro k; exact .nil
    | @cons a b la lb hab _ ih =>
      intro k
      cases ds with
      | nil => exact .nil
      | cons d ds =>
        cases ss with
        | nil => exact .nil
        | cons s ss =>
          simp only [List.zipIdx_cons, List.zip_cons_cons, List.map_cons]
          refine .cons ⟨?_, hab.2⟩ (ih ds ss (k + 1))
          have h1 := hab.1
          rw [h1]
  exact hz 0

/-- the table of one target, for fits that agree except for the coefficients -/
theorem targetTable_rel [LinearOrder σ] (ρ : List K → List K → Prop) (hρ : PadClosed ρ) (nminima : Nat) {fits fits' : List (TemplateFit K σ)} (h : List.Forall₂ (FitRel ρ) fits fits') :
    RelPy (List.Forall₂ (RowRel ρ)) (targetTable nminima (fun _ => false) fits) (targetTable nminima (fun _ => false) fits') := by
  unfold targetTable
  refine (targetRows_rel ρ hρ h).bind (fun rows rows' hr => ?_)
  apply finishRows_rel
  apply trimRows_rel
  apply sortZfit_rel
  rw [List.forall₂_map_left_iff, List.forall₂_map_right_iff]
  refine hr.imp ?_
  intro r r' hrr
  have h1 := hrr.1
  refine ⟨?_, ?_⟩
  · unfold flagRow
    rw [h1]
  · exact hrr.2

end
end Redrock
