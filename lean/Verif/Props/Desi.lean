import Verif.Lemmas.Desi
import Verif.Props.Work
import Mathlib.Analysis.Real.Sqrt

/-!
C47, C48: rows of DESI files reach the right target and spectrum.
-/
set_option linter.unusedSectionVars false
namespace Redrock

section
variable {ι β K : Type} [LinearOrder ι] [DecidableEq β] [Field K] [LinearOrder K]

/-! ### Specification -/

/-- Row `i` of an HDU. -/
def RowAt {X : Type} (d : Option (List X)) (i : Nat) (x : X) : Prop := ∃ l, d = some l ∧ l[i]? = some x

/-- The IDs selected from a file: the requested IDs, or all IDs of the file, cut to the requested range. -/
def Selection (o : DOpts ι K) (f : DFile ι β K) : List ι :=
  let ids := o.targetids.getD f.coaddIds
  (ids.drop (o.firstTarget.getD 0)).take (o.nTarget.getD ids.length)

/-- The TARGETIDs of the rows of the flux tables: those of FIBERMAP in a coadd file, those of the exposures otherwise. -/
def spectrumIds (f : DFile ι β K) : List ι := if f.coadded = true then f.coaddIds else f.expIds

private theorem spectrumIds_eq (f : DFile ι β K) : spectrumIds f = f.rowIds := rfl

/-- The (file, band, row) triples that belong to target `t`: every row with that TARGETID in every band of every file that `t` is selected from, in the order file, band, row. -/
def slotsOf (o : DOpts ι K) (t : ι) (files : List (DFile ι β K)) : List (DFile ι β K × β × Nat) :=
  files.flatMap (fun f => if t ∈ Selection o f then
    (distinctKeys (f.waveHdus.map (·.1))).flatMap (fun b => (rowsOf t (spectrumIds f)).map (fun i => (f, b, i))) else [])

/-- The inverse variance of a pixel without looking at the mask: 0 if flux or ivar is not finite or the flux is negative by more than `nsig` standard deviations, else the value in the file. -/
def pixelIvar (nsig : K) (flux ivar : Option K) : K :=
  match flux, ivar with
  | some a, some v => if a < 0 ∧ nsig ^ 2 < a ^ 2 * v then 0 else v
  | _, _ => 0

/-- The MASK HDU flags pixel `p` of row `i`. -/
def MaskedAt (d : Option (List (List Nat))) (i p : Nat) : Prop := ∃ m k, RowAt d i m ∧ m[p]? = some k ∧ k ≠ 0

/-- The spectrum has the band, a wavelength grid of that band, the flux (0 where not finite) and the resolution data of the row. -/
structure HoldsRow (q : DFile ι β K × β × Nat) (s : DSpec β K) : Prop where
  band : s.band = q.2.1
  wave : (q.2.1, s.wave) ∈ q.1.waveHdus
  flux : ∃ r, RowAt (q.1.flux q.2.1) q.2.2 r ∧ s.flux = some (r.map (·.getD 0))
  res : ∃ r, RowAt (q.1.res q.2.1) q.2.2 r ∧ s.R = some r

/-- The inverse variance of the row with exactly the flagged pixels of the same row set to 0. -/
def IvarExact (nsig : K) (q : DFile ι β K × β × Nat) (s : DSpec β K) : Prop :=
  ∃ fr ir iv, RowAt (q.1.flux q.2.1) q.2.2 fr ∧ RowAt (q.1.ivar q.2.1) q.2.2 ir ∧ s.ivar = some iv ∧ ir.length = fr.length ∧ iv.length = fr.length ∧
    ∀ (p : Nat) a v, fr[p]? = some a → ir[p]? = some v → (MaskedAt (q.1.mask q.2.1) q.2.2 p → iv[p]? = some 0) ∧ (¬ MaskedAt (q.1.mask q.2.1) q.2.2 p → iv[p]? = some (pixelIvar nsig a v))

/-- The inverse variance of the row, possibly with pixels set to 0. -/
def IvarBelow (nsig : K) (q : DFile ι β K × β × Nat) (s : DSpec β K) : Prop :=
  ∃ fr ir iv, RowAt (q.1.flux q.2.1) q.2.2 fr ∧ RowAt (q.1.ivar q.2.1) q.2.2 ir ∧ s.ivar = some iv ∧ ir.length = fr.length ∧ iv.length = fr.length ∧
    ∀ (p : Nat) a v, fr[p]? = some a → ir[p]? = some v → iv[p]? = some 0 ∨ iv[p]? = some (pixelIvar nsig a v)

/-- A square root of non-negative numbers. -/
def IsSqrtAll (sqrt : K → K) : Prop := ∀ a, 0 ≤ a → 0 ≤ sqrt a ∧ sqrt a * sqrt a = a

/-- `sqrt` is right on the inverse variances of the file. -/
def SqrtOn (sqrt : K → K) (f : DFile ι β K) : Prop := ∀ b i ir v, RowAt (f.ivar b) i ir → some v ∈ ir → 0 ≤ v → 0 ≤ sqrt v ∧ sqrt v * sqrt v = v

theorem IsSqrtAll.sqrtOn {sqrt : K → K} (h : IsSqrtAll sqrt) (f : DFile ι β K) : SqrtOn sqrt f := fun _ _ _ v _ _ hv => h v hv

/-- MASK HDUs are present for all bands of all files, or for none. -/
def UniformMask (has : Bool) (files : List (DFile ι β K)) : Prop := ∀ f ∈ files, ∀ b ∈ f.waveHdus.map (·.1), (f.mask b).isSome = has

/-! ### one target through one band -/

def stepT (sqrt : K → K) (nsig : K) (f : DFile ι β K) (keep : List ι) (fl iv : List (List K)) (m : Option (List (List Nat))) (r : List (List (List K))) (t : DTarget ι β K) : Py (DTarget ι β K) := do
  let t1 ← loopFlux (targetSpecs f keep t.id) fl t
  let t2 ← loopIvar sqrt nsig (targetSpecs f keep t1.id) iv t1
  let t3 ← loopMask (targetSpecs f keep t2.id) m t2
  loopRes (targetSpecs f keep t3.id) r t3

private theorem fillBand_inv (sqrt : K → K) (o : DOpts ι K) (mpi : Bool) (f : DFile ι β K) (keep : List ι) (ts out : List (DTarget ι β K)) (b : β)
    (h : fillBand sqrt o mpi f keep ts b = .ok out) :
    ∃ fl iv0 iv m r, hduRows (f.flux b) (specKeep f keep) = .ok fl ∧ hduRows (f.ivar b) (specKeep f keep) = .ok iv0 ∧ cleanIvar fl iv0 = .ok iv ∧ maskRows (f.mask b) (specKeep f keep) = .ok m ∧
      hduRows (f.res b) (specKeep f keep) = .ok r ∧ List.Forall₂ (fun t o' => stepT sqrt o.negfluxNsig f keep (fl.map (·.map (·.getD 0))) iv m r t = .ok o') ts out := by
  unfold fillBand at h
  obtain ⟨fl, h1, h⟩ := Except.bind_ok _ _ _ h
  obtain ⟨ts1, h2, h⟩ := Except.bind_ok _ _ _ h
  obtain ⟨iv0, h3, h⟩ := Except.bind_ok _ _ _ h
  obtain ⟨iv, h4, h⟩ := Except.bind_ok _ _ _ h
  obtain ⟨ts2, h5, h⟩ := Except.bind_ok _ _ _ h
  obtain ⟨m, h6, h⟩ := Except.bind_ok _ _ _ h
  obtain ⟨ts3, h7, h⟩ := Except.bind_ok _ _ _ h
  obtain ⟨r, h8, h⟩ := Except.bind_ok _ _ _ h
  rw [bcastBatches_eq 10000 (by decide), ite_self] at h
  refine ⟨fl, iv0, iv, m, r, h1, h3, h4, h6, h8, ?_⟩
  refine forall₂_imp (forall₂_comp (mapM_inv _ _ _ h2) (forall₂_comp (mapM_inv _ _ _ h5) (forall₂_comp (mapM_inv _ _ _ h7) (mapM_inv _ _ _ h)))) ?_
  rintro a d ⟨t1, e1, t2, e2, t3, e3, e4⟩
  unfold stepT
  rw [e1, okBind, e2, okBind, e3, okBind, e4]

private theorem fillBand_of (sqrt : K → K) (o : DOpts ι K) (mpi : Bool) (f : DFile ι β K) (keep : List ι) (ts out : List (DTarget ι β K)) (b : β) (fl iv0 iv m r)
    (h1 : hduRows (f.flux b) (specKeep f keep) = .ok fl) (h2 : hduRows (f.ivar b) (specKeep f keep) = .ok iv0) (h3 : cleanIvar fl iv0 = .ok iv) (h4 : maskRows (f.mask b) (specKeep f keep) = .ok m)
    (h5 : hduRows (f.res b) (specKeep f keep) = .ok r) (h : List.Forall₂ (fun t o' => stepT sqrt o.negfluxNsig f keep (fl.map (·.map (·.getD 0))) iv m r t = .ok o') ts out) :
    fillBand sqrt o mpi f keep ts b = .ok out := by
  have : ∃ ts1 ts2 ts3, List.Forall₂ (fun t o => loopFlux (targetSpecs f keep t.id) (fl.map (·.map (·.getD 0))) t = .ok o) ts ts1 ∧
      List.Forall₂ (fun t o' => loopIvar sqrt o.negfluxNsig (targetSpecs f keep t.id) iv t = .ok o') ts1 ts2 ∧
      List.Forall₂ (fun t o => loopMask (targetSpecs f keep t.id) m t = .ok o) ts2 ts3 ∧
      List.Forall₂ (fun t o => loopRes (targetSpecs f keep t.id) r t = .ok o) ts3 out := by
    induction h with
    | nil => exact ⟨[], [], [], .nil, .nil, .nil, .nil⟩
    | cons h _ ih =>
      obtain ⟨a, b, c, i1, i2, i3, i4⟩ := ih
      unfold stepT at h
      obtain ⟨t1, e1, h⟩ := Except.bind_ok _ _ _ h
      obtain ⟨t2, e2, h⟩ := Except.bind_ok _ _ _ h
      obtain ⟨t3, e3, h⟩ := Except.bind_ok _ _ _ h
      exact ⟨t1 :: a, t2 :: b, t3 :: c, .cons e1 i1, .cons e2 i2, .cons e3 i3, .cons h i4⟩
  obtain ⟨ts1, ts2, ts3, i1, i2, i3, i4⟩ := this
  unfold fillBand
  dsimp only
  rw [h1, okBind, mapM_of_forall₂ _ _ _ i1, okBind, h2, okBind, h3, okBind, mapM_of_forall₂ _ _ _ i2, okBind, h4, okBind, mapM_of_forall₂ _ _ _ i3, okBind, h5, okBind,
    bcastBatches_eq 10000 (by decide), ite_self]
  exact mapM_of_forall₂ _ _ _ i4

/-! ### stages of one spectrum -/

structure BlankS (q : DFile ι β K × β × Nat) (s : DSpec β K) : Prop where
  band : s.band = q.2.1
  wave : (q.2.1, s.wave) ∈ q.1.waveHdus
  flux : s.flux = none
  ivar : s.ivar = none

structure FluxS (q : DFile ι β K × β × Nat) (s : DSpec β K) : Prop where
  band : s.band = q.2.1
  wave : (q.2.1, s.wave) ∈ q.1.waveHdus
  flux : ∃ r, RowAt (q.1.flux q.2.1) q.2.2 r ∧ s.flux = some (r.map (·.getD 0))

structure IvarS (nsig : K) (q : DFile ι β K × β × Nat) (s : DSpec β K) : Prop where
  fluxS : FluxS q s
  ivar : ∃ fr ir, RowAt (q.1.flux q.2.1) q.2.2 fr ∧ RowAt (q.1.ivar q.2.1) q.2.2 ir ∧ ir.length = fr.length ∧ s.ivar = some (List.zipWith (pixelIvar nsig) fr ir)

private theorem rowAt_unique {X : Type} {d : Option (List X)} {i : Nat} {x y : X} (h1 : RowAt d i x) (h2 : RowAt d i y) : x = y := by
  obtain ⟨l, e1, e2⟩ := h1
  obtain ⟨l', e3, e4⟩ := h2
  rw [e1] at e3; cases e3
  rw [e2] at e4; cases e4; rfl

private theorem hduRows_get {X : Type} (d : Option (List X)) (rows : List Nat) (x : List X) (h : hduRows d rows = .ok x) (tr i : Nat) (hi : rows[tr]? = some i) :
    ∃ v, x[tr]? = some v ∧ RowAt d i v := by
  unfold hduRows at h
  cases d with
  | none => cases h
  | some l =>
    obtain ⟨v, h1, h2⟩ := npTake_get l rows x h tr i hi
    exact ⟨v, h2, l, rfl, h1⟩

private theorem cleanIvar_get (fl iv0 : List (List (Option K))) (iv : List (List K)) (h : cleanIvar fl iv0 = .ok iv) (tr : Nat) (fr ir : List (Option K)) (hf : fl[tr]? = some fr) (hi : iv0[tr]? = some ir) :
    ir.length = fr.length ∧ iv[tr]? = some (List.zipWith (fun f i => if f.isNone then (0 : K) else i.getD 0) fr ir) := by
  unfold cleanIvar at h
  split at h
  · rename_i hl
    cases h
    constructor
    · have := congrArg (fun l => l[tr]?) hl
      simp only [List.getElem?_map, hf, hi, Option.map_some, Option.some.injEq] at this
      exact this.symm
    · rw [List.getElem?_zipWith, hf, hi]
  · cases h

private theorem bigNegFlux_iff [IsStrictOrderedRing K] (sqrt : K → K) (nsig a v : K) (hsq : 0 ≤ v → 0 ≤ sqrt v ∧ sqrt v * sqrt v = v) : bigNegFlux sqrt nsig a v = true ↔ a < 0 ∧ nsig ^ 2 < a ^ 2 * v := by
  unfold bigNegFlux
  split
  · rename_i hv
    simp only [Bool.false_eq_true, false_iff, not_and, not_lt]
    intro _
    exact le_trans (mul_nonpos_of_nonneg_of_nonpos (sq_nonneg a) hv.le) (sq_nonneg nsig)
  · rename_i hv
    obtain ⟨h0, h1⟩ := hsq (not_lt.1 hv)
    rw [decide_eq_true_eq]
    have hkey : a ^ 2 * v = (-(a * sqrt v)) ^ 2 := by
      rw [neg_sq, mul_pow, pow_two (sqrt v), h1]
    rw [hkey, ← sq_abs nsig]
    constructor
    · intro h
      have hneg : 0 ≤ |nsig| := abs_nonneg _
      have hlt : |nsig| < -(a * sqrt v) := by linarith
      refine ⟨?_, by
        have := mul_lt_mul'' hlt hlt hneg hneg
        rw [pow_two, pow_two]; exact this⟩
      by_contra ha
      have := mul_nonneg (not_lt.1 ha) h0
      linarith
    · rintro ⟨ha, h⟩
      have h2 : 0 ≤ -(a * sqrt v) := by
        have := mul_nonneg (neg_nonneg.2 ha.le) h0
        rw [neg_mul] at this; exact this
      have := lt_of_pow_lt_pow_left₀ 2 h2 h
      linarith

private theorem ivar_zip [IsStrictOrderedRing K] (sqrt : K → K) (nsig : K) : ∀ (fr ir : List (Option K)), ir.length = fr.length → (∀ v, some v ∈ ir → 0 ≤ v → 0 ≤ sqrt v ∧ sqrt v * sqrt v = v) →
    List.zipWith (fun a v => if bigNegFlux sqrt nsig a v then (0 : K) else v) (fr.map (·.getD 0)) (List.zipWith (fun f i => if f.isNone then (0 : K) else i.getD 0) fr ir) = List.zipWith (pixelIvar nsig) fr ir := by
  intro fr
  induction fr with
  | nil => intro ir _ _; rfl
  | cons a fr ih =>
    intro ir h hsq
    cases ir with
    | nil => simp at h
    | cons v ir =>
      simp only [List.map_cons, List.zipWith_cons_cons]
      rw [ih ir (by simpa using h) (fun v hv => hsq v (List.mem_cons_of_mem _ hv))]
      congr 1
      cases a with
      | none => simp [pixelIvar]
      | some a =>
        cases v with
        | none => simp [pixelIvar]
        | some v =>
          simp only [Option.getD_some, Option.isNone_some, Bool.false_eq_true, if_false, pixelIvar]
          by_cases hb : bigNegFlux sqrt nsig a v = true
          · rw [if_pos hb, if_pos ((bigNegFlux_iff sqrt nsig a v (hsq v (by simp))).1 hb)]
          · rw [if_neg hb, if_neg (fun hc => hb ((bigNegFlux_iff sqrt nsig a v (hsq v (by simp))).2 hc))]

/-- The slots of one file and band, and their positions among the kept rows. -/
private def AtRows (f : DFile ι β K) (keep : List ι) (b : β) (tr : Nat) (q : DFile ι β K × β × Nat) : Prop := q.1 = f ∧ q.2.1 = b ∧ (specKeep f keep)[tr]? = some q.2.2

private theorem stage_flux (f : DFile ι β K) (keep : List ι) (b : β) (fl : List (List (Option K))) (h1 : hduRows (f.flux b) (specKeep f keep) = .ok fl)
    (M : List (DFile ι β K × β × Nat)) (trows : List Nat) (hM : List.Forall₂ (AtRows f keep b) trows M) (S S' : List (DSpec β K)) (hS : List.Forall₂ BlankS M S)
    (h : (trows.zip S).mapM (fun p => do
      let x ← npGet (fl.map (fun (l : List (Option K)) => l.map (fun (v : Option K) => v.getD 0))) p.1
      updFlux x p.2) = .ok S') : List.Forall₂ FluxS M S' := by
  refine zip_mapM_inv updFlux _ BlankS FluxS M trows S S' hS (forall₂_imp hM ?_) h
  rintro tr ⟨f', b', i⟩ ⟨rfl, rfl, hi⟩ x s s' hx hb hu
  obtain ⟨v, hv, hr⟩ := hduRows_get _ _ _ h1 tr i hi
  rw [List.getElem?_map, hv] at hx
  cases hx
  cases hu
  exact ⟨hb.band, hb.wave, v, hr, rfl⟩

private theorem stage_ivar [IsStrictOrderedRing K] (sqrt : K → K) (nsig : K) (f : DFile ι β K) (hsq : SqrtOn sqrt f) (keep : List ι) (b : β) (fl iv0 : List (List (Option K))) (iv : List (List K))
    (h1 : hduRows (f.flux b) (specKeep f keep) = .ok fl) (h2 : hduRows (f.ivar b) (specKeep f keep) = .ok iv0) (h3 : cleanIvar fl iv0 = .ok iv)
    (M : List (DFile ι β K × β × Nat)) (trows : List Nat) (hM : List.Forall₂ (AtRows f keep b) trows M) (S S' : List (DSpec β K)) (hS : List.Forall₂ FluxS M S)
    (h : (trows.zip S).mapM (fun p => do
      let x ← npGet iv p.1
      updIvar sqrt nsig x p.2) = .ok S') : List.Forall₂ (IvarS nsig) M S' := by
  refine zip_mapM_inv (updIvar sqrt nsig) _ FluxS (IvarS nsig) M trows S S' hS (forall₂_imp hM ?_) h
  rintro tr ⟨f', b', i⟩ ⟨rfl, rfl, hi⟩ x s s' hx hb hu
  obtain ⟨fr, hfr, hr⟩ := hduRows_get _ _ _ h1 tr i hi
  obtain ⟨ir, hir, hri⟩ := hduRows_get _ _ _ h2 tr i hi
  obtain ⟨hl, hc⟩ := cleanIvar_get _ _ _ h3 tr fr ir hfr hir
  rw [hc] at hx
  cases hx
  obtain ⟨r, hr', hsf⟩ := hb.flux
  have := rowAt_unique hr hr'
  subst this
  unfold updIvar at hu
  rw [hsf] at hu
  dsimp only at hu
  split at hu
  · cases hu
  · cases hu
    refine ⟨⟨hb.band, hb.wave, fr, hr, rfl⟩, fr, ir, hr, hri, hl, ?_⟩
    show some _ = some _
    rw [ivar_zip sqrt nsig fr ir hl (fun v hv => hsq _ _ _ v hri hv)]

private theorem maskRows_get (d : Option (List (List Nat))) (rows : List Nat) (x : List (List Nat)) (h : maskRows d rows = .ok (some x)) (tr i : Nat) (hi : rows[tr]? = some i) :
    ∃ v, x[tr]? = some v ∧ RowAt d i v := by
  unfold maskRows at h
  cases d with
  | none => cases h
  | some l =>
    obtain ⟨y, h1, h2⟩ := Except.bind_ok _ _ _ h
    cases h2
    obtain ⟨v, h3, h4⟩ := npTake_get l rows x h1 tr i hi
    exact ⟨v, h4, l, rfl, h3⟩

private theorem stage_mask (nsig : K) (f : DFile ι β K) (keep : List ι) (b : β) (m : List (List Nat)) (h1 : maskRows (f.mask b) (specKeep f keep) = .ok (some m))
    (M : List (DFile ι β K × β × Nat)) (trows : List Nat) (hM : List.Forall₂ (AtRows f keep b) trows M) (S S' : List (DSpec β K)) (hS : List.Forall₂ (IvarS nsig) M S)
    (h : (trows.zip S).mapM (fun p => do
      let x ← npGet m p.1
      updMask x p.2) = .ok S') : List.Forall₂ (fun q s => FluxS q s ∧ IvarExact nsig q s) M S' := by
  refine zip_mapM_inv updMask _ (IvarS nsig) _ M trows S S' hS (forall₂_imp hM ?_) h
  rintro tr ⟨f', b', i⟩ ⟨rfl, rfl, hi⟩ x s s' hx hb hu
  obtain ⟨mr, hmr, hr⟩ := maskRows_get _ _ _ h1 tr i hi
  rw [hmr, Option.some.injEq] at hx
  subst hx
  obtain ⟨fr, ir, hf, hir, hl, hsi⟩ := hb.ivar
  unfold updMask at hu
  rw [hsi] at hu
  dsimp only at hu
  split at hu
  · cases hu
  · rename_i hlen
    cases hu
    refine ⟨⟨hb.fluxS.band, hb.fluxS.wave, hb.fluxS.flux⟩, fr, ir, _, hf, hir, rfl, hl, ?_, ?_⟩
    · simp only [not_not] at hlen
      simp only [List.length_zipWith] at *
      omega
    · intro p a v ha hv
      have hml : mr.length = fr.length := by
        simp only [not_not, List.length_zipWith] at hlen; omega
      have hp : p < mr.length := by rw [hml]; exact (List.getElem?_eq_some_iff.1 ha).1
      have hval : (List.zipWith (fun (v : K) k => v * (if k = 0 then 1 else 0)) (List.zipWith (pixelIvar nsig) fr ir) mr)[p]? = some (pixelIvar nsig a v * (if mr[p] = 0 then 1 else 0)) := by
        rw [List.getElem?_zipWith, List.getElem?_zipWith, ha, hv, List.getElem?_eq_getElem hp]
      constructor
      · rintro ⟨m', k, h3, h4, h5⟩
        have := rowAt_unique h3 hr
        subst this
        rw [List.getElem?_eq_getElem hp] at h4
        cases h4
        rw [hval, if_neg h5, mul_zero]
      · intro hno
        have : mr[p] = 0 := by
          by_contra hne
          exact hno ⟨mr, _, hr, List.getElem?_eq_getElem hp, hne⟩
        rw [hval, if_pos this, mul_one]

private theorem ivarS_exact (nsig : K) (q : DFile ι β K × β × Nat) (s : DSpec β K) (h : IvarS nsig q s) (hm : q.1.mask q.2.1 = none) : FluxS q s ∧ IvarExact nsig q s := by
  refine ⟨h.fluxS, ?_⟩
  obtain ⟨fr, ir, hf, hir, hl, hsi⟩ := h.ivar
  refine ⟨fr, ir, _, hf, hir, hsi, hl, by simp [hl], ?_⟩
  intro p a v ha hv
  constructor
  · rintro ⟨m, k, ⟨l, h1, _⟩, _⟩
    rw [hm] at h1; cases h1
  · intro _
    rw [List.getElem?_zipWith, ha, hv]

private theorem ivarS_below (nsig : K) (q : DFile ι β K × β × Nat) (s : DSpec β K) (h : IvarS nsig q s) : FluxS q s ∧ IvarBelow nsig q s := by
  refine ⟨h.fluxS, ?_⟩
  obtain ⟨fr, ir, hf, hir, hl, hsi⟩ := h.ivar
  refine ⟨fr, ir, _, hf, hir, hsi, hl, by simp [hl], ?_⟩
  intro p a v ha hv
  right
  rw [List.getElem?_zipWith, ha, hv]

private theorem updMask_below (nsig : K) (q : DFile ι β K × β × Nat) (s s' : DSpec β K) (m : List Nat) (h : FluxS q s ∧ IvarBelow nsig q s) (hu : updMask m s = .ok s') : FluxS q s' ∧ IvarBelow nsig q s' := by
  obtain ⟨hf, fr, ir, iv, h1, h2, h3, h4, h5, h6⟩ := h
  unfold updMask at hu
  rw [h3] at hu
  dsimp only at hu
  split at hu
  · cases hu
  · rename_i hlen
    simp only [not_not] at hlen
    cases hu
    refine ⟨⟨hf.band, hf.wave, hf.flux⟩, fr, ir, _, h1, h2, rfl, h4, by rw [List.length_zipWith]; omega, ?_⟩
    intro p a v ha hv
    have hp : p < m.length := by rw [← hlen, h5]; exact (List.getElem?_eq_some_iff.1 ha).1
    have hp' : p < iv.length := by omega
    have hval : (List.zipWith (fun (v : K) k => v * (if k = 0 then 1 else 0)) iv m)[p]? = some (iv[p] * (if m[p] = 0 then 1 else 0)) := by
      rw [List.getElem?_zipWith, List.getElem?_eq_getElem hp, List.getElem?_eq_getElem hp']
    rw [hval]
    by_cases hz : m[p] = 0
    · rw [if_pos hz, mul_one, ← List.getElem?_eq_getElem hp']
      exact h6 p a v ha hv
    · left
      rw [if_neg hz, mul_zero]

private theorem stage_res (P : DFile ι β K × β × Nat → DSpec β K → Prop) (hP : ∀ q s r, P q s → P q { s with R := r }) (hPF : ∀ q s, P q s → FluxS q s)
    (f : DFile ι β K) (keep : List ι) (b : β) (r : List (List (List K))) (h1 : hduRows (f.res b) (specKeep f keep) = .ok r)
    (M : List (DFile ι β K × β × Nat)) (trows : List Nat) (hM : List.Forall₂ (AtRows f keep b) trows M) (S S' : List (DSpec β K)) (hS : List.Forall₂ P M S)
    (h : (trows.zip S).mapM (fun p => do
      let x ← npGet r p.1
      updRes x p.2) = .ok S') : List.Forall₂ (fun q s => HoldsRow q s ∧ P q s) M S' := by
  refine zip_mapM_inv updRes _ P _ M trows S S' hS (forall₂_imp hM ?_) h
  rintro tr ⟨f', b', i⟩ ⟨rfl, rfl, hi⟩ x s s' hx hb hu
  obtain ⟨v, hv, hr⟩ := hduRows_get _ _ _ h1 tr i hi
  rw [hv, Option.some.injEq] at hx
  subst hx
  cases hu
  have hF := hPF _ _ (hP _ _ (some v) hb)
  exact ⟨⟨hF.band, hF.wave, hF.flux, v, hr, rfl⟩, hP _ _ _ hb⟩

/-! ### the loops for one target -/

private theorem fillRows_inv {X : Type} (upd : X → DSpec β K → Py (DSpec β K)) (h : List X) (trows : List Nat) (A S C : List (DSpec β K)) (hl : S.length = trows.length) (out : List (DSpec β K) × Nat)
    (hok : fillRows upd h trows (A ++ S ++ C) A.length = .ok out) :
    ∃ S', (trows.zip S).mapM (fun p => do
      let x ← npGet h p.1
      upd x p.2) = .ok S' ∧ out = (A ++ S' ++ C, A.length + trows.length) := by
  rw [fillRows_eq upd h trows A S C hl] at hok
  obtain ⟨S', h1, h2⟩ := Except.bind_ok _ _ _ hok
  cases h2
  exact ⟨S', h1, rfl⟩

/-- Invariant of the copying loops: the slots `L1` are done, the slots `L2` are still blank, the counters point at the boundary. -/
structure FillInv (P : DFile ι β K × β × Nat → DSpec β K → Prop) (L1 L2 : List (DFile ι β K × β × Nat)) (t : DTarget ι β K) : Prop where
  split : ∃ A C, t.spectra = A ++ C ∧ List.Forall₂ (fun q s => HoldsRow q s ∧ P q s) L1 A ∧ List.Forall₂ BlankS L2 C
  nflux : t.nflux = L1.length
  nivar : t.nivar = L1.length
  nres : t.nres = L1.length

private theorem step_ids (sqrt : K → K) (nsig : K) (f : DFile ι β K) (keep : List ι) (fl iv m r) (t t' : DTarget ι β K) (h : stepT sqrt nsig f keep fl iv m r t = .ok t') :
    ∃ t1 t2 t3, t1.id = t.id ∧ t2.id = t.id ∧ t3.id = t.id ∧ t'.id = t.id ∧ loopFlux (targetSpecs f keep t.id) fl t = .ok t1 ∧ loopIvar sqrt nsig (targetSpecs f keep t.id) iv t1 = .ok t2 ∧
      loopMask (targetSpecs f keep t.id) m t2 = .ok t3 ∧ loopRes (targetSpecs f keep t.id) r t3 = .ok t' := by
  unfold stepT at h
  obtain ⟨t1, e1, h⟩ := Except.bind_ok _ _ _ h
  obtain ⟨t2, e2, h⟩ := Except.bind_ok _ _ _ h
  obtain ⟨t3, e3, h⟩ := Except.bind_ok _ _ _ h
  have i1 : t1.id = t.id := by
    unfold loopFlux at e1
    split at e1
    · cases e1; rfl
    · obtain ⟨q, _, e⟩ := Except.bind_ok _ _ _ e1; cases e; rfl
  have i2 : t2.id = t.id := by
    unfold loopIvar at e2
    split at e2
    · cases e2; exact i1
    · obtain ⟨q, _, e⟩ := Except.bind_ok _ _ _ e2; cases e; exact i1
  have i3 : t3.id = t.id := by
    unfold loopMask at e3
    split at e3
    · obtain ⟨q, _, e⟩ := Except.bind_ok _ _ _ e3; cases e; exact i2
    · cases e3; exact i2
  have i4 : t'.id = t.id := by
    unfold loopRes at h
    split at h
    · cases h; exact i3
    · obtain ⟨q, _, e⟩ := Except.bind_ok _ _ _ h; cases e; exact i3
  rw [i1] at e2
  rw [i2] at e3
  rw [i3] at h
  exact ⟨t1, t2, t3, i1, i2, i3, i4, e1, e2, e3, h⟩

/-- A target that is not selected from the file is left alone. -/
private theorem step_skip (sqrt : K → K) (nsig : K) (f : DFile ι β K) (keep : List ι) (fl iv m r) (t : DTarget ι β K) (ht : t.id ∉ keep) : stepT sqrt nsig f keep fl iv m r t = .ok t := by
  unfold stepT loopFlux
  rw [targetSpecs_none f keep t.id ht]
  show (do
    let t2 ← loopIvar sqrt nsig (targetSpecs f keep t.id) iv t
    let t3 ← loopMask (targetSpecs f keep t2.id) m t2
    loopRes (targetSpecs f keep t3.id) r t3) = _
  unfold loopIvar
  rw [targetSpecs_none f keep t.id ht]
  show (do
    let t3 ← loopMask (targetSpecs f keep t.id) m t
    loopRes (targetSpecs f keep t3.id) r t3) = _
  unfold loopMask
  rw [targetSpecs_none f keep t.id ht]
  cases m <;>
  · show loopRes (targetSpecs f keep t.id) r t = _
    unfold loopRes
    rw [targetSpecs_none f keep t.id ht]

def slotsIn (f : DFile ι β K) (b : β) (t : ι) : List (DFile ι β K × β × Nat) := (rowsOf t f.rowIds).map (fun i => (f, b, i))

private theorem slots_rows (f : DFile ι β K) (keep : List ι) (b : β) (t : ι) (trows : List Nat) (h : List.Forall₂ (fun tr i => (specKeep f keep)[tr]? = some i) trows (rowsOf t f.rowIds)) :
    List.Forall₂ (AtRows f keep b) trows (slotsIn f b t) := by
  unfold slotsIn
  rw [List.forall₂_map_right_iff]
  exact forall₂_imp h (fun a c hc => ⟨rfl, rfl, hc⟩)

section Read
variable [IsStrictOrderedRing K] (sqrt : K → K) (nsig : K) (f : DFile ι β K) (hsq : SqrtOn sqrt f) (keep : List ι) (b : β)
  (fl iv0 : List (List (Option K))) (iv : List (List K)) (m : Option (List (List Nat))) (r : List (List (List K)))
  (h1 : hduRows (f.flux b) (specKeep f keep) = .ok fl) (h2 : hduRows (f.ivar b) (specKeep f keep) = .ok iv0) (h3 : cleanIvar fl iv0 = .ok iv)
  (h4 : maskRows (f.mask b) (specKeep f keep) = .ok m) (h5 : hduRows (f.res b) (specKeep f keep) = .ok r)

include h1 h2 h3 hsq in
/-- After the flux and ivar loops. -/
private theorem step_front (P : DFile ι β K × β × Nat → DSpec β K → Prop) (L1 L2 : List (DFile ι β K × β × Nat)) (t t1 t2 : DTarget ι β K) (ht : t.id ∈ keep)
    (hinv : FillInv P L1 (slotsIn f b t.id ++ L2) t) (e1 : loopFlux (targetSpecs f keep t.id) (fl.map (fun (l : List (Option K)) => l.map (fun (v : Option K) => v.getD 0))) t = .ok t1)
    (e2 : loopIvar sqrt nsig (targetSpecs f keep t.id) iv t1 = .ok t2) :
    ∃ trows A S C, targetSpecs f keep t.id = some trows ∧ List.Forall₂ (AtRows f keep b) trows (slotsIn f b t.id) ∧ t2.spectra = A ++ S ++ C ∧ List.Forall₂ (fun q s => HoldsRow q s ∧ P q s) L1 A ∧
      List.Forall₂ (IvarS nsig) (slotsIn f b t.id) S ∧ List.Forall₂ BlankS L2 C ∧ t2.nflux = (L1 ++ slotsIn f b t.id).length ∧ t2.nivar = (L1 ++ slotsIn f b t.id).length ∧ t2.nres = L1.length ∧ t2.nmask = t.nmask := by
  obtain ⟨trows, htr, hrows⟩ := targetSpecs_spec f keep t.id ht
  have hM := slots_rows f keep b t.id trows hrows
  obtain ⟨A, C0, hsp, hA, hC0⟩ := hinv.split
  obtain ⟨S, C, rfl, hS, hC⟩ := forall₂_split hC0
  have hlen : S.length = trows.length := by rw [← hS.length_eq, hM.length_eq]
  have hAl : L1.length = A.length := hA.length_eq
  have hnf := hinv.nflux
  have hni := hinv.nivar
  have hnr := hinv.nres
  rw [htr] at e1 e2
  unfold loopFlux at e1
  dsimp only at e1
  obtain ⟨o1, e1a, e1b⟩ := Except.bind_ok _ _ _ e1
  rw [hsp, hnf, hAl, ← List.append_assoc] at e1a
  obtain ⟨S1, g1, rfl⟩ := fillRows_inv _ _ _ _ _ _ hlen _ e1a
  cases e1b
  have hS1 := stage_flux f keep b fl h1 _ _ hM _ _ hS g1
  have hlen1 : S1.length = trows.length := by rw [← hS1.length_eq, hM.length_eq]
  unfold loopIvar at e2
  dsimp only at e2
  obtain ⟨o2, e2a, e2b⟩ := Except.bind_ok _ _ _ e2
  rw [hni, hAl] at e2a
  obtain ⟨S2, g2, rfl⟩ := fillRows_inv _ _ _ _ _ _ hlen1 _ e2a
  cases e2b
  have hS2 := stage_ivar sqrt nsig f hsq keep b fl iv0 iv h1 h2 h3 _ _ hM _ _ hS1 g2
  refine ⟨trows, A, S2, C, htr, hM, rfl, hA, hS2, hC, ?_, ?_, hnr, rfl⟩
  · show A.length + trows.length = _
    rw [List.length_append, hAl, hM.length_eq]
  · show A.length + trows.length = _
    rw [List.length_append, hAl, hM.length_eq]

include h1 h2 h3 h4 h5 hsq in
/-- One band, all masks present or all absent. -/
private theorem step_exact (has : Bool) (hm : (f.mask b).isSome = has) (L1 L2 : List (DFile ι β K × β × Nat)) (t t' : DTarget ι β K) (ht : t.id ∈ keep)
    (hinv : FillInv (IvarExact nsig) L1 (slotsIn f b t.id ++ L2) t) (hmask : t.nmask = if has then L1.length else 0)
    (h : stepT sqrt nsig f keep (fl.map (fun (l : List (Option K)) => l.map (fun (v : Option K) => v.getD 0))) iv m r t = .ok t') :
    t'.id = t.id ∧ FillInv (IvarExact nsig) (L1 ++ slotsIn f b t.id) L2 t' ∧ t'.nmask = if has then (L1 ++ slotsIn f b t.id).length else 0 := by
  obtain ⟨t1, t2, t3, i1, i2, i3, i4, e1, e2, e3, e4⟩ := step_ids sqrt nsig f keep _ _ _ _ t t' h
  obtain ⟨trows, A, S, C, htr, hM, hsp, hA, hS, hC, n1, n2, n3, n4⟩ := step_front sqrt nsig f hsq keep b fl iv0 iv h1 h2 h3 _ L1 L2 t t1 t2 ht hinv e1 e2
  refine ⟨i4, ?_⟩
  have hAl : L1.length = A.length := hA.length_eq
  have hSl : S.length = trows.length := by rw [← hS.length_eq, hM.length_eq]
  have hmid : ∃ S3, t3.spectra = A ++ S3 ++ C ∧ List.Forall₂ (fun q s => FluxS q s ∧ IvarExact nsig q s) (slotsIn f b t.id) S3 ∧ t3.nflux = t2.nflux ∧ t3.nivar = t2.nivar ∧ t3.nres = t2.nres ∧
      t3.nmask = if has then (L1 ++ slotsIn f b t.id).length else 0 := by
    rw [htr] at e3
    cases hmm : f.mask b with
    | none =>
      rw [hmm] at hm h4
      cases hm
      cases h4
      cases e3
      refine ⟨S, hsp, ?_, rfl, rfl, rfl, by rw [n4, hmask]; simp⟩
      have h6 : ∀ q ∈ slotsIn f b t.id, q.1.mask q.2.1 = none := by
        intro q hq
        unfold slotsIn at hq
        obtain ⟨i, _, rfl⟩ := List.mem_map.1 hq
        exact hmm
      clear hM n1 n2 hsp hmask e4 htr hinv
      revert h6 hS
      generalize slotsIn f b t.id = M
      intro hS h6
      clear hSl
      induction hS with
      | nil => exact .nil
      | cons h _ ih => exact .cons (ivarS_exact nsig _ _ h (h6 _ (by simp))) (ih (fun q hq => h6 q (by simp [hq])))
    | some l =>
      have hms : ∃ mm, m = some mm := by
        rw [hmm] at h4
        unfold maskRows at h4
        obtain ⟨y, _, h7⟩ := Except.bind_ok _ _ _ h4
        cases h7
        exact ⟨_, rfl⟩
      obtain ⟨mm, rfl⟩ := hms
      rw [hmm] at hm
      subst hm
      unfold loopMask at e3
      dsimp only at e3
      obtain ⟨o3, e3a, e3b⟩ := Except.bind_ok _ _ _ e3
      simp only [Option.isSome_some, if_true] at hmask
      rw [hsp, n4, hmask, hAl] at e3a
      obtain ⟨S3, g3, rfl⟩ := fillRows_inv _ _ _ _ _ _ hSl _ e3a
      cases e3b
      refine ⟨S3, rfl, stage_mask nsig f keep b mm h4 _ _ hM _ _ hS g3, rfl, rfl, rfl, ?_⟩
      show A.length + trows.length = _
      simp only [Option.isSome_some, if_true]
      rw [List.length_append, hAl, hM.length_eq]
  obtain ⟨S3, hsp3, hS3, m1, m2, m3, m4⟩ := hmid
  have hS3l : S3.length = trows.length := by rw [← hS3.length_eq, hM.length_eq]
  rw [htr] at e4
  unfold loopRes at e4
  dsimp only at e4
  obtain ⟨o4, e4a, e4b⟩ := Except.bind_ok _ _ _ e4
  rw [hsp3, m3, n3, hAl] at e4a
  obtain ⟨S4, g4, rfl⟩ := fillRows_inv _ _ _ _ _ _ hS3l _ e4a
  cases e4b
  have hS4 := stage_res (fun q s => FluxS q s ∧ IvarExact nsig q s) (fun q s r hp => ⟨⟨hp.1.band, hp.1.wave, hp.1.flux⟩, hp.2⟩) (fun q s hp => hp.1) f keep b r h5 _ _ hM _ _ hS3 g4
  refine ⟨⟨⟨A ++ S4, C, by simp, forall₂_append hA (forall₂_imp hS4 (fun q s hq => ⟨hq.1, hq.2.2⟩)), hC⟩, ?_, ?_, ?_⟩, m4⟩
  · show t3.nflux = _
    rw [m1, n1]
  · show t3.nivar = _
    rw [m2, n2]
  · show A.length + trows.length = _
    rw [List.length_append, hAl, hM.length_eq]

include h1 h2 h3 h5 hsq in
/-- One band, any MASK HDUs. -/
private theorem step_below (L1 L2 : List (DFile ι β K × β × Nat)) (t t' : DTarget ι β K) (ht : t.id ∈ keep)
    (hinv : FillInv (IvarBelow nsig) L1 (slotsIn f b t.id ++ L2) t)
    (h : stepT sqrt nsig f keep (fl.map (fun (l : List (Option K)) => l.map (fun (v : Option K) => v.getD 0))) iv m r t = .ok t') :
    t'.id = t.id ∧ FillInv (IvarBelow nsig) (L1 ++ slotsIn f b t.id) L2 t' := by
  obtain ⟨t1, t2, t3, i1, i2, i3, i4, e1, e2, e3, e4⟩ := step_ids sqrt nsig f keep _ _ _ _ t t' h
  obtain ⟨trows, A, S, C, htr, hM, hsp, hA, hS, hC, n1, n2, n3, n4⟩ := step_front sqrt nsig f hsq keep b fl iv0 iv h1 h2 h3 _ L1 L2 t t1 t2 ht hinv e1 e2
  refine ⟨i4, ?_⟩
  have hSl : S.length = trows.length := by rw [← hS.length_eq, hM.length_eq]
  -- tag the slots: 0 finished in earlier bands, 1 in this band, 2 blank
  let Q : Nat × (DFile ι β K × β × Nat) → DSpec β K → Prop := fun q s =>
    if q.1 = 0 then HoldsRow q.2 s ∧ IvarBelow nsig q.2 s else if q.1 = 1 then FluxS q.2 s ∧ IvarBelow nsig q.2 s else BlankS q.2 s
  have hmid : ∃ A3 S3 C3, t3.spectra = A3 ++ S3 ++ C3 ∧ List.Forall₂ (fun q s => HoldsRow q s ∧ IvarBelow nsig q s) L1 A3 ∧ List.Forall₂ (fun q s => FluxS q s ∧ IvarBelow nsig q s) (slotsIn f b t.id) S3 ∧
      List.Forall₂ BlankS L2 C3 ∧ t3.nflux = t2.nflux ∧ t3.nivar = t2.nivar ∧ t3.nres = t2.nres := by
    unfold loopMask at e3
    split at e3
    · obtain ⟨o3, e3a, e3b⟩ := Except.bind_ok _ _ _ e3
      cases e3b
      have hQ0 : List.Forall₂ Q (L1.map (fun q => (0, q)) ++ (slotsIn f b t.id).map (fun q => (1, q)) ++ L2.map (fun q => (2, q))) t2.spectra := by
        rw [hsp]
        refine forall₂_append (forall₂_append ?_ ?_) ?_
        · rw [List.forall₂_map_left_iff]; exact hA
        · rw [List.forall₂_map_left_iff]; exact forall₂_imp hS (fun q s hq => ivarS_below nsig q s hq)
        · rw [List.forall₂_map_left_iff]; exact hC
      have hQ1 := fillRows_preserve updMask _ Q (by
        rintro ⟨k, q⟩ s x s' hq hu
        by_cases hk0 : k = 0
        · subst hk0
          have hF : FluxS q s ∧ IvarBelow nsig q s := ⟨⟨hq.1.band, hq.1.wave, hq.1.flux⟩, hq.2⟩
          have h7 := updMask_below nsig q s s' x hF hu
          refine ⟨⟨h7.1.band, h7.1.wave, h7.1.flux, ?_⟩, h7.2⟩
          have hR : s'.R = s.R := by
            unfold updMask at hu
            split at hu
            · cases hu
            · split at hu
              · cases hu
              · cases hu; rfl
          rw [hR]
          exact hq.1.res
        · by_cases hk1 : k = 1
          · subst hk1
            exact updMask_below nsig q s s' x hq hu
          · have hq' : BlankS q s := by
              simp only [Q, hk0, hk1, if_false] at hq
              exact hq
            unfold updMask at hu
            rw [hq'.ivar] at hu
            cases hu) _ _ _ _ o3.1 o3.2 hQ0 e3a
      obtain ⟨X, C3, hX, hX1, hC3⟩ := forall₂_split hQ1
      obtain ⟨A3, S3, rfl, hA3, hS3⟩ := forall₂_split hX1
      rw [List.forall₂_map_left_iff] at hA3 hS3 hC3
      exact ⟨A3, S3, C3, hX, hA3, hS3, hC3, rfl, rfl, rfl⟩
    · cases e3
      exact ⟨A, S, C, hsp, hA, forall₂_imp hS (fun q s hq => ivarS_below nsig q s hq), hC, rfl, rfl, rfl⟩
  obtain ⟨A3, S3, C3, hsp3, hA3, hS3, hC3, m1, m2, m3⟩ := hmid
  have hAl : L1.length = A3.length := hA3.length_eq
  have hS3l : S3.length = trows.length := by rw [← hS3.length_eq, hM.length_eq]
  rw [htr] at e4
  unfold loopRes at e4
  dsimp only at e4
  obtain ⟨o4, e4a, e4b⟩ := Except.bind_ok _ _ _ e4
  rw [hsp3, m3, n3, hAl] at e4a
  obtain ⟨S4, g4, rfl⟩ := fillRows_inv _ _ _ _ _ _ hS3l _ e4a
  cases e4b
  have hS4 := stage_res (fun q s => FluxS q s ∧ IvarBelow nsig q s) (fun q s r hp => ⟨⟨hp.1.band, hp.1.wave, hp.1.flux⟩, hp.2⟩) (fun q s hp => hp.1) f keep b r h5 _ _ hM _ _ hS3 g4
  refine ⟨⟨A3 ++ S4, C3, by simp, forall₂_append hA3 (forall₂_imp hS4 (fun q s hq => ⟨hq.1, hq.2.2⟩)), hC3⟩, ?_, ?_, ?_⟩
  · show t3.nflux = _
    rw [m1, n1]
  · show t3.nivar = _
    rw [m2, n2]
  · show A3.length + trows.length = _
    rw [List.length_append, hAl, hM.length_eq]

end Read

/-! ### all bands and files -/

def bandSlots (f : DFile ι β K) (keep : List ι) (b : β) (t : ι) : List (DFile ι β K × β × Nat) := if t ∈ keep then slotsIn f b t else []

section Fold
variable (sqrt : K → K) (o : DOpts ι K) (mpi : Bool) (I : List (DFile ι β K × β × Nat) → List (DFile ι β K × β × Nat) → DTarget ι β K → Prop)

/-- `I` is preserved by one band for each target. -/
private def StepOK (f : DFile ι β K) (keep : List ι) (b : β) : Prop :=
  ∀ fl iv0 iv m r, hduRows (f.flux b) (specKeep f keep) = .ok fl → hduRows (f.ivar b) (specKeep f keep) = .ok iv0 → cleanIvar fl iv0 = .ok iv → maskRows (f.mask b) (specKeep f keep) = .ok m →
    hduRows (f.res b) (specKeep f keep) = .ok r → ∀ L1 L2 t t', I L1 (bandSlots f keep b t.id ++ L2) t →
      stepT sqrt o.negfluxNsig f keep (fl.map (·.map (·.getD 0))) iv m r t = .ok t' → t'.id = t.id ∧ I (L1 ++ bandSlots f keep b t.id) L2 t'

private theorem band_list (f : DFile ι β K) (keep : List ι) (b : β) (hstep : StepOK sqrt o I f keep b) (L1 L2 : ι → List (DFile ι β K × β × Nat)) (mine : List ι) (ts out : List (DTarget ι β K))
    (hI : List.Forall₂ (fun x t => t.id = x ∧ I (L1 x) (bandSlots f keep b x ++ L2 x) t) mine ts) (h : fillBand sqrt o mpi f keep ts b = .ok out) :
    List.Forall₂ (fun x t => t.id = x ∧ I (L1 x ++ bandSlots f keep b x) (L2 x) t) mine out := by
  obtain ⟨fl, iv0, iv, m, r, h1, h2, h3, h4, h5, h6⟩ := fillBand_inv sqrt o mpi f keep ts out b h
  refine forall₂_imp (forall₂_comp hI h6) ?_
  rintro x t' ⟨t, ⟨hid, hIt⟩, hs⟩
  subst hid
  exact hstep fl iv0 iv m r h1 h2 h3 h4 h5 _ _ t t' hIt hs

private theorem bands_list (f : DFile ι β K) (keep : List ι) : ∀ (bands : List β) (_ : ∀ b ∈ bands, StepOK sqrt o I f keep b) (L1 L2 : ι → List (DFile ι β K × β × Nat)) (mine : List ι) (ts out : List (DTarget ι β K)),
    List.Forall₂ (fun x t => t.id = x ∧ I (L1 x) (bands.flatMap (fun b => bandSlots f keep b x) ++ L2 x) t) mine ts → bands.foldlM (fillBand sqrt o mpi f keep) ts = .ok out →
    List.Forall₂ (fun x t => t.id = x ∧ I (L1 x ++ bands.flatMap (fun b => bandSlots f keep b x)) (L2 x) t) mine out := by
  intro bands
  induction bands with
  | nil =>
    intro _ L1 L2 mine ts out hI h
    cases h
    simpa using hI
  | cons b bands ih =>
    intro hst L1 L2 mine ts out hI h
    rw [List.foldlM_cons] at h
    obtain ⟨mid, h1, h2⟩ := Except.bind_ok _ _ _ h
    have := ih (fun c hc => hst c (by simp [hc])) (fun x => L1 x ++ bandSlots f keep b x) L2 mine mid out
      (band_list sqrt o mpi I f keep b (hst b (by simp)) L1 (fun x => bands.flatMap (fun b => bandSlots f keep b x) ++ L2 x) mine ts mid (by simpa [List.flatMap_cons, List.append_assoc] using hI) h1) h2
    simpa [List.flatMap_cons, List.append_assoc] using this

def fileSlots (fk : DFile ι β K × List ι) (t : ι) : List (DFile ι β K × β × Nat) := fk.1.bands.flatMap (fun b => bandSlots fk.1 fk.2 b t)

private theorem fileSlots_skip (fk : DFile ι β K × List ι) (t : ι) (h : (specKeep fk.1 fk.2).length = 0) : fileSlots fk t = [] := by
  unfold fileSlots
  rw [List.flatMap_eq_nil_iff]
  intro b _
  unfold bandSlots
  split
  · rename_i ht
    unfold slotsIn
    rw [rowsOf_of_skip fk.1 fk.2 t ht h]; rfl
  · rfl

private theorem files_list : ∀ (fks : List (DFile ι β K × List ι)) (_ : ∀ fk ∈ fks, ∀ b ∈ fk.1.bands, StepOK sqrt o I fk.1 fk.2 b) (L1 L2 : ι → List (DFile ι β K × β × Nat)) (mine : List ι) (ts out : List (DTarget ι β K)),
    List.Forall₂ (fun x t => t.id = x ∧ I (L1 x) (fks.flatMap (fun fk => fileSlots fk x) ++ L2 x) t) mine ts → fks.foldlM (fillFile sqrt o mpi) ts = .ok out →
    List.Forall₂ (fun x t => t.id = x ∧ I (L1 x ++ fks.flatMap (fun fk => fileSlots fk x)) (L2 x) t) mine out := by
  intro fks
  induction fks with
  | nil =>
    intro _ L1 L2 mine ts out hI h
    cases h
    simpa using hI
  | cons fk fks ih =>
    intro hst L1 L2 mine ts out hI h
    rw [List.foldlM_cons] at h
    obtain ⟨mid, h1, h2⟩ := Except.bind_ok _ _ _ h
    have hmid : List.Forall₂ (fun x t => t.id = x ∧ I (L1 x ++ fileSlots fk x) (fks.flatMap (fun fk => fileSlots fk x) ++ L2 x) t) mine mid := by
      unfold fillFile at h1
      split at h1
      · rename_i hz
        cases h1
        refine forall₂_imp hI ?_
        intro x t ht
        simpa [List.flatMap_cons, fileSlots_skip fk x hz] using ht
      · exact bands_list sqrt o mpi I fk.1 fk.2 fk.1.bands (hst fk (by simp)) L1 (fun x => fks.flatMap (fun fk => fileSlots fk x) ++ L2 x) mine ts mid
          (by simpa [List.flatMap_cons, List.append_assoc, fileSlots] using hI) h1
    have := ih (fun c hc => hst c (by simp [hc])) (fun x => L1 x ++ fileSlots fk x) L2 mine mid out hmid h2
    simpa [List.flatMap_cons, List.append_assoc] using this

end Fold

/-! ### the constructor -/

theorem keepIds_ok (o : DOpts ι K) (f : DFile ι β K) (keep : List ι) (h : keepIds o f = .ok keep) : keep = Selection o f := by
  unfold keepIds at h
  dsimp only at h
  split at h
  · cases h
  · split at h
    · cases h
    · cases h; rfl

theorem kept_ok (o : DOpts ι K) (files : List (DFile ι β K)) (kept : List (List ι)) (h : files.mapM (keepIds o) = .ok kept) : kept = files.map (Selection o) := by
  have := mapM_inv _ _ _ h
  clear h
  induction this with
  | nil => rfl
  | cons h _ ih => rw [List.map_cons, ← ih, keepIds_ok o _ _ h]

theorem zip_selection (o : DOpts ι K) (files : List (DFile ι β K)) : files.zip (files.map (Selection o)) = files.map (fun f => (f, Selection o f)) := by
  induction files with
  | nil => rfl
  | cons f fs ih => rw [List.map_cons, List.zip_cons_cons, ih, List.map_cons]

theorem waves_get (f : DFile ι β K) (b : β) (w : List K) (h : f.waves.get b = .ok w) : (b, w) ∈ f.waveHdus := by
  unfold PyDict.get DFile.waves at h
  rw [PyDict.get?_foldl_set (fun bw : β × List K => bw.1) (fun bw => bw.2)] at h
  cases hf : f.waveHdus.reverse.find? (fun x => decide (x.1 = b)) with
  | none => rw [hf] at h; cases h
  | some p =>
    rw [hf] at h
    cases h
    have h1 := List.find?_some hf
    have h2 := List.mem_of_find?_eq_some hf
    simp only [decide_eq_true_eq] at h1
    rw [← h1]
    exact List.mem_reverse.1 h2

private theorem blank_inv (fks : List (DFile ι β K × List ι)) (t : ι) (tg : DTarget ι β K) (h : blankTarget fks t = .ok tg) :
    tg.id = t ∧ List.Forall₂ BlankS (fks.flatMap (fun fk => fileSlots fk t)) tg.spectra ∧ tg.nflux = 0 ∧ tg.nivar = 0 ∧ tg.nmask = 0 ∧ tg.nres = 0 := by
  unfold blankTarget at h
  obtain ⟨specs, h1, h2⟩ := Except.bind_ok _ _ _ h
  cases h2
  refine ⟨rfl, ?_, rfl, rfl, rfl, rfl⟩
  have h3 := mapM_inv _ _ _ h1
  clear h1 h
  show List.Forall₂ BlankS _ specs.flatten.flatten
  induction h3 with
  | nil => exact .nil
  | @cons fk sp fks specs h _ ih =>
    rw [List.flatMap_cons, List.flatten_cons, List.flatten_append]
    refine forall₂_append ?_ ih
    clear ih
    unfold fileSlots
    have h4 := mapM_inv _ _ _ h
    clear h
    revert h4
    generalize fk.1.bands = bands
    intro h4
    induction h4 with
    | nil => exact .nil
    | @cons b sb bs sp h _ ih2 =>
      rw [List.flatMap_cons, List.flatten_cons]
      refine forall₂_append ?_ ih2
      clear ih2
      unfold bandSlots
      by_cases ht : t ∈ fk.2
      · obtain ⟨trows, htr, hrows⟩ := targetSpecs_spec fk.1 fk.2 t ht
        unfold blankBand at h
        rw [htr] at h
        rw [if_pos ht]
        dsimp only at h
        have h5 := mapM_inv _ _ _ h
        refine forall₂_imp (forall₂_comp (forall₂_flip' (slots_rows fk.1 fk.2 b t trows hrows)) h5) ?_
        rintro ⟨f', b', i⟩ s ⟨tr, ⟨hq1, hq2, _⟩, hs⟩
        dsimp only at hq1 hq2
        obtain ⟨w, hw, hs2⟩ := Except.bind_ok _ _ _ hs
        cases hs2
        subst hq1 hq2
        exact ⟨rfl, waves_get _ _ _ hw, rfl, rfl⟩
      · unfold blankBand at h
        rw [targetSpecs_none fk.1 fk.2 t ht] at h
        rw [if_neg ht]
        cases h
        exact .nil

private theorem slots_eq (o : DOpts ι K) (t : ι) (files : List (DFile ι β K)) : (files.map (fun f => (f, Selection o f))).flatMap (fun fk => fileSlots fk t) = slotsOf o t files := by
  unfold slotsOf
  rw [List.flatMap_map]
  congr 1
  funext f
  unfold fileSlots bandSlots DFile.bands
  rw [firstSeen_eq]
  dsimp only
  split
  · rfl
  · rw [List.flatMap_eq_nil_iff]; intro _ _; rfl

theorem constructor_inv (argsort : List Nat → List Nat) (sqrt : K → K) (o : DOpts ι K) (files : List (DFile ι β K)) (commSize : Option Nat) (rank : Nat) (out : DesiTargets ι β K)
    (h : distTargetsDESI argsort sqrt o files commSize rank = .ok out) :
    files.length ≠ 0 ∧ allTargetIds argsort (files.map (Selection o)) = .ok out.allIds ∧
      (∃ proc, distributeWorkDefault K (commSize.getD 1) out.allIds (if o.coadd then none else some (targetWeight (files.map (fun f => (f, Selection o f))))) o.capacities = .ok proc ∧ proc[rank]? = some out.myIds) ∧
      (∃ blank, List.Forall₂ (fun t tg => blankTarget (files.map (fun f => (f, Selection o f))) t = .ok tg) out.myIds blank ∧
        (files.map (fun f => (f, Selection o f))).foldlM (fillFile sqrt o commSize.isSome) blank = .ok out.data) ∧
      out.fibermapIds = files.flatMap (fun f => f.coaddIds.filter (fun y => decide (y ∈ Selection o f))) ∧
      out.expFibermapIds = files.flatMap (fun f => f.expIds.filter (fun y => decide (y ∈ Selection o f))) := by
  unfold distTargetsDESI at h
  split at h
  · cases h
  · rename_i hne
    unfold desiBody at h
    obtain ⟨kept, h1, h⟩ := Except.bind_ok _ _ _ h
    dsimp only at h
    rw [kept_ok o files kept h1, zip_selection] at h
    obtain ⟨allIds, h2, h⟩ := Except.bind_ok _ _ _ h
    obtain ⟨proc, h3, h⟩ := Except.bind_ok _ _ _ h
    obtain ⟨mine, h4, h⟩ := Except.bind_ok _ _ _ h
    obtain ⟨blank, h5, h⟩ := Except.bind_ok _ _ _ h
    obtain ⟨data, h6, h⟩ := Except.bind_ok _ _ _ h
    cases h
    refine ⟨hne, h2, ⟨proc, h3, (npGet_ok _ _ _).1 h4⟩, ⟨blank, mapM_inv _ _ _ h5, h6⟩, ?_, ?_⟩
    · simp only [List.flatMap_map]
    · simp only [List.flatMap_map]

/-- **C47**, **C48** (masks present for all bands or for none) Every local target gets exactly the rows with its TARGETID, in every band of every file it is selected from, in file order: band, wavelengths, flux (0 where not finite) and
resolution of that row, and the inverse variance of that row with exactly the non-finite, significantly negative and flagged pixels of the same row set to 0. For any number of ranks. -/
theorem C47_rows_reach_target_partial [IsStrictOrderedRing K] (argsort : List Nat → List Nat) (sqrt : K → K) (o : DOpts ι K) (files : List (DFile ι β K)) (hsq : ∀ f ∈ files, SqrtOn sqrt f) (has : Bool) (hmask : UniformMask has files)
    (commSize : Option Nat) (rank : Nat) (out : DesiTargets ι β K) (h : distTargetsDESI argsort sqrt o files commSize rank = .ok out) :
    List.Forall₂ (fun t tg => tg.id = t ∧ List.Forall₂ (fun q s => HoldsRow q s ∧ IvarExact o.negfluxNsig q s) (slotsOf o t files) tg.spectra) out.myIds out.data := by
  obtain ⟨_, _, _, ⟨blank, hb, hf⟩, _⟩ := constructor_inv argsort sqrt o files commSize rank out h
  have := files_list sqrt o commSize.isSome (fun L1 L2 t => FillInv (IvarExact o.negfluxNsig) L1 L2 t ∧ t.nmask = if has then L1.length else 0) _ (by
    intro fk hfk b hbb fl iv0 iv m r h1 h2 h3 h4 h5 L1 L2 t t' hI hs
    obtain ⟨f, hf, rfl⟩ := List.mem_map.1 hfk
    unfold bandSlots at hI ⊢
    by_cases ht : t.id ∈ Selection o f
    · rw [if_pos ht] at hI ⊢
      refine step_exact sqrt o.negfluxNsig f (hsq f hf) _ b fl iv0 iv m r h1 h2 h3 h4 h5 has (hmask f hf b ?_) L1 L2 t t' ht hI.1 hI.2 hs
      have : b ∈ f.bands := hbb
      unfold DFile.bands at this
      rw [firstSeen_eq, mem_distinctKeys] at this
      exact this
    · rw [if_neg ht] at hI ⊢
      rw [step_skip _ _ _ _ _ _ _ _ _ ht] at hs
      cases hs
      rw [List.append_nil]
      exact ⟨rfl, hI⟩) (fun _ => []) (fun _ => []) out.myIds blank out.data (forall₂_imp hb (by
        intro t tg ht
        obtain ⟨i1, i2, i3, i4, i5, i6⟩ := blank_inv _ t tg ht
        refine ⟨i1, ⟨⟨[], tg.spectra, rfl, .nil, by rw [List.append_nil]; exact i2⟩, i3, i4, i6⟩, by simp [i5]⟩)) hf
  refine forall₂_imp this ?_
  rintro t tg ⟨hid, hI, _⟩
  refine ⟨hid, ?_⟩
  obtain ⟨A, C, hs, hA, hC⟩ := hI.split
  cases hC
  rw [hs, List.append_nil]
  rw [List.nil_append, slots_eq] at hA
  exact hA

/-- **C47** With any mixture of MASK HDUs: band, wavelengths, flux and resolution are still those of the row; every pixel has the inverse variance of the row or 0. -/
theorem C47_any_masks [IsStrictOrderedRing K] (argsort : List Nat → List Nat) (sqrt : K → K) (o : DOpts ι K) (files : List (DFile ι β K)) (hsq : ∀ f ∈ files, SqrtOn sqrt f)
    (commSize : Option Nat) (rank : Nat) (out : DesiTargets ι β K) (h : distTargetsDESI argsort sqrt o files commSize rank = .ok out) :
    List.Forall₂ (fun t tg => tg.id = t ∧ List.Forall₂ (fun q s => HoldsRow q s ∧ IvarBelow o.negfluxNsig q s) (slotsOf o t files) tg.spectra) out.myIds out.data := by
  obtain ⟨_, _, _, ⟨blank, hb, hf⟩, _⟩ := constructor_inv argsort sqrt o files commSize rank out h
  have := files_list sqrt o commSize.isSome (fun L1 L2 t => FillInv (IvarBelow o.negfluxNsig) L1 L2 t) _ (by
    intro fk hfk b hbb fl iv0 iv m r h1 h2 h3 h4 h5 L1 L2 t t' hI hs
    obtain ⟨f, hf, rfl⟩ := List.mem_map.1 hfk
    unfold bandSlots at hI ⊢
    by_cases ht : t.id ∈ Selection o f
    · rw [if_pos ht] at hI ⊢
      exact step_below sqrt o.negfluxNsig f (hsq f hf) _ b fl iv0 iv m r h1 h2 h3 h5 L1 L2 t t' ht hI hs
    · rw [if_neg ht] at hI ⊢
      rw [step_skip _ _ _ _ _ _ _ _ _ ht] at hs
      cases hs
      rw [List.append_nil]
      exact ⟨rfl, hI⟩) (fun _ => []) (fun _ => []) out.myIds blank out.data (forall₂_imp hb (by
        intro t tg ht
        obtain ⟨i1, i2, i3, i4, i5, i6⟩ := blank_inv _ t tg ht
        exact ⟨i1, ⟨⟨[], tg.spectra, rfl, .nil, by rw [List.append_nil]; exact i2⟩, i3, i4, i6⟩⟩)) hf
  refine forall₂_imp this ?_
  rintro t tg ⟨hid, hI⟩
  refine ⟨hid, ?_⟩
  obtain ⟨A, C, hs, hA, hC⟩ := hI.split
  cases hC
  rw [hs, List.append_nil]
  rw [List.nil_append, slots_eq] at hA
  exact hA

/-! ### C54: the target list -/

private theorem distinct_idx (l : List ι) : (distinctKeys l).Pairwise (fun a b => l.idxOf a < l.idxOf b) := by
  induction l with
  | nil => exact .nil
  | cons k ks ih =>
    rw [distinctKeys, List.pairwise_cons]
    constructor
    · intro x hx
      rw [List.mem_filter] at hx
      have hne : x ≠ k := by simpa using hx.2
      rw [List.idxOf_cons_self, List.idxOf_cons_ne _ (Ne.symm hne)]
      omega
    · refine ((ih.filter _).imp_of_mem ?_)
      intro a b ha hb hab
      have hna : a ≠ k := by simpa using (List.mem_filter.1 ha).2
      have hnb : b ≠ k := by simpa using (List.mem_filter.1 hb).2
      rw [List.idxOf_cons_ne _ (Ne.symm hna), List.idxOf_cons_ne _ (Ne.symm hnb)]
      omega

private theorem mem_npUnique (l : List ι) (v : ι) : v ∈ npUnique l ↔ v ∈ l := by
  unfold npUnique
  rw [List.mem_dedup, (pySort_perm _ _).mem_iff]

private theorem nodup_npUnique (l : List ι) : (npUnique l).Nodup := List.nodup_dedup _

theorem allTargetIds_eq (argsort : List Nat → List Nat) (harg : IsArgsort (fun a b => decide (a ≤ b)) argsort) (kept : List (List ι)) : allTargetIds argsort kept = .ok (distinctKeys kept.flatten) := by
  unfold allTargetIds
  dsimp only
  generalize kept.flatten = all
  obtain ⟨hp, hsorted⟩ := harg (npUniqueIndex all)
  rw [npTake_eq_map (npUniqueIndex all) _ (fun i hi => List.mem_range.1 (hp.mem_iff.1 hi)), okBind]
  generalize hsel : (argsort (npUniqueIndex all)).map (fun i => (npUniqueIndex all)[i]!) = sel
  have hselp : sel.Perm (npUniqueIndex all) := by
    rw [← hsel]
    refine (hp.map _).trans ?_
    have : (List.range (npUniqueIndex all).length).map (fun i => (npUniqueIndex all)[i]!) = npUniqueIndex all := by
      refine List.ext_getElem (by simp) ?_
      intro i h1 h2
      simp [h2]
    rw [this]
  have hsels : sel.Pairwise (· ≤ ·) := by
    rw [← hsel, List.pairwise_map]
    refine hsorted.imp_of_mem ?_
    intro i j hi hj h
    have hi' := List.mem_range.1 (hp.mem_iff.1 hi)
    have hj' := List.mem_range.1 (hp.mem_iff.1 hj)
    have := h _ _ (List.getElem?_eq_getElem hi') (List.getElem?_eq_getElem hj')
    rw [getElem!_pos _ i hi', getElem!_pos _ j hj']
    simpa using this
  have hin : ∀ i ∈ sel, i < all.length := by
    intro i hi
    have h1 := hselp.mem_iff.1 hi
    unfold npUniqueIndex at h1
    obtain ⟨v, hv, rfl⟩ := List.mem_map.1 h1
    exact List.idxOf_lt_length_of_mem ((mem_npUnique _ _).1 hv)
  cases hall : all with
  | nil =>
    rw [hall] at hin
    cases sel with
    | nil => rfl
    | cons i _ => exact absurd (hin i (by simp)) (by simp)
  | cons a0 all0 =>
    rw [← hall]
    haveI : Inhabited ι := ⟨a0⟩
    rw [npTake_eq_map all sel hin]
    congr 1
    have hval : ∀ v ∈ all, all[all.idxOf v]! = v := by
      intro v hv
      rw [getElem!_pos all (all.idxOf v) (List.idxOf_lt_length_of_mem hv), List.getElem_idxOf]
    have hr : (sel.map (fun i => all[i]!)).Perm (npUnique all) := by
      refine (hselp.map _).trans ?_
      unfold npUniqueIndex
      rw [List.map_map]
      have : (npUnique all).map ((fun i => all[i]!) ∘ fun v => all.idxOf v) = npUnique all := by
        conv_rhs => rw [← List.map_id (npUnique all)]
        refine List.map_congr_left ?_
        intro v hv
        exact hval v ((mem_npUnique _ _).1 hv)
      rw [this]
    have hperm : (sel.map (fun i => all[i]!)).Perm (distinctKeys all) := by
      refine hr.trans ?_
      rw [List.perm_ext_iff_of_nodup (nodup_npUnique _) (nodup_distinctKeys _)]
      intro v
      rw [mem_npUnique, mem_distinctKeys]
    have hnd : (sel.map (fun i => all[i]!)).Nodup := hr.nodup_iff.2 (nodup_npUnique _)
    have hsi : ∀ i ∈ sel, all.idxOf all[i]! = i := by
      intro i hi
      have h1 := hselp.mem_iff.1 hi
      unfold npUniqueIndex at h1
      obtain ⟨v, hv, rfl⟩ := List.mem_map.1 h1
      rw [hval v ((mem_npUnique _ _).1 hv)]
    have hpw : (sel.map (fun i => all[i]!)).Pairwise (fun a b => all.idxOf a < all.idxOf b) := by
      rw [List.Nodup, List.pairwise_map] at hnd
      rw [List.pairwise_map]
      refine (hsels.and hnd).imp_of_mem ?_
      intro i j hi hj hij
      rw [hsi i hi, hsi j hj]
      refine lt_of_le_of_ne hij.1 ?_
      rintro rfl
      exact hij.2 rfl
    exact hperm.eq_of_pairwise (fun a b _ _ h1 h2 => absurd h1 (by omega)) hpw (distinct_idx all)

/-- **C54** The list of all targets is the list of selected TARGETIDs of all files in order of first appearance, without repeats; it does not depend on the rank or the number of ranks. -/
theorem C54_target_order (argsort : List Nat → List Nat) (harg : IsArgsort (fun a b => decide (a ≤ b)) argsort) (sqrt : K → K) (o : DOpts ι K) (files : List (DFile ι β K)) (commSize : Option Nat) (rank : Nat)
    (out : DesiTargets ι β K) (h : distTargetsDESI argsort sqrt o files commSize rank = .ok out) :
    out.allIds = distinctKeys (files.flatMap (Selection o)) ∧ out.allIds.Nodup ∧ ∀ t, t ∈ out.allIds ↔ ∃ f ∈ files, t ∈ Selection o f := by
  obtain ⟨_, h2, _⟩ := constructor_inv argsort sqrt o files commSize rank out h
  rw [allTargetIds_eq argsort harg, Except.ok.injEq, ← List.flatMap_def] at h2
  rw [← h2]
  refine ⟨rfl, nodup_distinctKeys _, ?_⟩
  intro t
  rw [mem_distinctKeys, List.mem_flatMap]

/-- **C47** The local target lists of the ranks together are the list of all targets, each target on exactly one rank. -/
theorem C47_ranks_partition [IsStrictOrderedRing K] (argsort : List Nat → List Nat) (harg : IsArgsort (fun a b => decide (a ≤ b)) argsort) (sqrt : K → K) (o : DOpts ι K) (files : List (DFile ι β K))
    (commSize : Option Nat) (hn : 0 < commSize.getD 1) (hcap : ∀ c, o.capacities = some c → c.length = commSize.getD 1 ∧ ∀ x ∈ c, 0 < x) :
    ∃ lists : List (List ι), lists.length = commSize.getD 1 ∧ lists.flatten.Perm (distinctKeys (files.flatMap (Selection o))) ∧ lists.flatten.Nodup ∧
      ∀ rank out, distTargetsDESI argsort sqrt o files commSize rank = .ok out → lists[rank]? = some out.myIds := by
  obtain ⟨lists, h1, h2, h3⟩ := C01_distribute_work_partition (commSize.getD 1) (distinctKeys (files.flatMap (Selection o)))
    ((if o.coadd then none else some (targetWeight (files.map (fun f => (f, Selection o f))))).getD (fun _ => (1 : K))) (o.capacities.getD (List.replicate (commSize.getD 1) 1)) hn (by
      cases hc : o.capacities with
      | none => simp
      | some c => exact (hcap c hc).1) (by
      intro x hx
      cases hc : o.capacities with
      | none =>
        rw [hc, Option.getD_none, List.mem_replicate] at hx
        rw [hx.2]; exact one_pos
      | some c =>
        rw [hc] at hx
        exact (hcap c hc).2 x hx)
  refine ⟨lists, h2, h3, h3.nodup_iff.2 (nodup_distinctKeys _), ?_⟩
  intro rank out hok
  obtain ⟨_, g2, ⟨proc, g3, g4⟩, _⟩ := constructor_inv argsort sqrt o files commSize rank out hok
  rw [allTargetIds_eq argsort harg, Except.ok.injEq, ← List.flatMap_def] at g2
  rw [← g2] at g3
  unfold distributeWorkDefault at g3
  rw [h1, Except.ok.injEq] at g3
  rw [g3]
  exact g4

/-! ### the constructor succeeds on well-formed files -/

/-- A well-formed file: in every band flux, ivar and resolution have one row per fibermap row, and ivar and mask rows have the length of the flux row. -/
structure WellFormed (f : DFile ι β K) : Prop where
  flux : ∀ b ∈ f.waveHdus.map (·.1), ∃ l, f.flux b = some l ∧ l.length = (spectrumIds f).length
  ivar : ∀ b ∈ f.waveHdus.map (·.1), ∃ l, f.ivar b = some l ∧ l.length = (spectrumIds f).length
  res : ∀ b ∈ f.waveHdus.map (·.1), ∃ l, f.res b = some l ∧ l.length = (spectrumIds f).length
  ivarRow : ∀ b i fr ir, RowAt (f.flux b) i fr → RowAt (f.ivar b) i ir → ir.length = fr.length
  mask : ∀ b m, f.mask b = some m → m.length = (spectrumIds f).length
  maskRow : ∀ b i fr mr, RowAt (f.flux b) i fr → RowAt (f.mask b) i mr → mr.length = fr.length

private theorem specKeep_lt (f : DFile ι β K) (keep : List ι) (i : Nat) (h : i ∈ specKeep f keep) : i < f.rowIds.length := by
  obtain ⟨y, h1, _⟩ := (specKeep_mem f keep i).1 h
  exact (List.getElem?_eq_some_iff.1 h1).1

private theorem hduRows_ok {X : Type} (d : Option (List X)) (f : DFile ι β K) (keep : List ι) (h : ∃ l, d = some l ∧ l.length = f.rowIds.length) : ∃ x, hduRows d (specKeep f keep) = .ok x := by
  obtain ⟨l, rfl, hl⟩ := h
  obtain ⟨r, hr, _⟩ := npTake_ok l (specKeep f keep) (fun i hi => by rw [hl]; exact specKeep_lt f keep i hi)
  exact ⟨r, hr⟩

private theorem hduRows_length {X : Type} (d : Option (List X)) (rows : List Nat) (x : List X) (h : hduRows d rows = .ok x) : x.length = rows.length := by
  unfold hduRows at h
  cases d with
  | none => cases h
  | some l => exact npTake_length _ _ _ h

private theorem reads_ok (f : DFile ι β K) (hw : WellFormed f) (keep : List ι) (b : β) (hb : b ∈ f.waveHdus.map (·.1)) :
    ∃ fl iv0 iv m r, hduRows (f.flux b) (specKeep f keep) = .ok fl ∧ hduRows (f.ivar b) (specKeep f keep) = .ok iv0 ∧ cleanIvar fl iv0 = .ok iv ∧ maskRows (f.mask b) (specKeep f keep) = .ok m ∧
      hduRows (f.res b) (specKeep f keep) = .ok r := by
  obtain ⟨fl, h1⟩ := hduRows_ok (f.flux b) f keep (hw.flux b hb)
  obtain ⟨iv0, h2⟩ := hduRows_ok (f.ivar b) f keep (hw.ivar b hb)
  obtain ⟨r, h3⟩ := hduRows_ok (f.res b) f keep (hw.res b hb)
  have hm : ∃ m, maskRows (f.mask b) (specKeep f keep) = .ok m := by
    unfold maskRows
    cases hmm : f.mask b with
    | none => exact ⟨none, rfl⟩
    | some l =>
      obtain ⟨y, hy, _⟩ := npTake_ok l (specKeep f keep) (fun i hi => by rw [hw.mask b l hmm]; exact specKeep_lt f keep i hi)
      exact ⟨some y, by show (npTake l (specKeep f keep) >>= _) = _; rw [hy]; rfl⟩
  obtain ⟨m, hm⟩ := hm
  have hc : ∃ iv, cleanIvar fl iv0 = .ok iv := by
    unfold cleanIvar
    rw [if_pos]
    · exact ⟨_, rfl⟩
    · refine List.ext_getElem ?_ ?_
      · simp [hduRows_length _ _ _ h1, hduRows_length _ _ _ h2]
      · intro i hi1 hi2
        simp only [List.length_map] at hi1 hi2
        have hk : i < (specKeep f keep).length := by rw [← hduRows_length _ _ _ h1]; exact hi1
        obtain ⟨v, hv, hr⟩ := hduRows_get _ _ _ h1 i _ (List.getElem?_eq_getElem hk)
        obtain ⟨v', hv', hr'⟩ := hduRows_get _ _ _ h2 i _ (List.getElem?_eq_getElem hk)
        rw [List.getElem?_eq_getElem hi1] at hv
        rw [List.getElem?_eq_getElem hi2] at hv'
        cases hv; cases hv'
        simp only [List.getElem_map]
        exact (hw.ivarRow b _ _ _ hr hr').symm
  obtain ⟨iv, hc⟩ := hc
  exact ⟨fl, iv0, iv, m, r, h1, h2, hc, hm, h3⟩

section Progress
variable [IsStrictOrderedRing K] (sqrt : K → K) (nsig : K) (f : DFile ι β K) (hsq : SqrtOn sqrt f) (hw : WellFormed f) (keep : List ι) (b : β)
  (fl iv0 : List (List (Option K))) (iv : List (List K)) (m : Option (List (List Nat))) (r : List (List (List K)))
  (h1 : hduRows (f.flux b) (specKeep f keep) = .ok fl) (h2 : hduRows (f.ivar b) (specKeep f keep) = .ok iv0) (h3 : cleanIvar fl iv0 = .ok iv)
  (h4 : maskRows (f.mask b) (specKeep f keep) = .ok m) (h5 : hduRows (f.res b) (specKeep f keep) = .ok r)

include hw h1 h2 h3 h4 h5 hsq in
private theorem step_progress (has : Bool) (hm : (f.mask b).isSome = has) (L1 L2 : List (DFile ι β K × β × Nat)) (t : DTarget ι β K)
    (hinv : FillInv (IvarExact nsig) L1 (bandSlots f keep b t.id ++ L2) t) (hmask : t.nmask = if has then L1.length else 0) :
    ∃ t', stepT sqrt nsig f keep (fl.map (fun (l : List (Option K)) => l.map (fun (v : Option K) => v.getD 0))) iv m r t = .ok t' := by
  by_cases ht : t.id ∈ keep
  swap
  · exact ⟨t, step_skip _ _ _ _ _ _ _ _ _ ht⟩
  unfold bandSlots at hinv
  rw [if_pos ht] at hinv
  obtain ⟨trows, htr, hrows⟩ := targetSpecs_spec f keep t.id ht
  have hM := slots_rows f keep b t.id trows hrows
  obtain ⟨A, C0, hsp, hA, hC0⟩ := hinv.split
  obtain ⟨S, C, rfl, hS, hC⟩ := forall₂_split hC0
  have hlen : S.length = trows.length := by rw [← hS.length_eq, hM.length_eq]
  have hAl : L1.length = A.length := hA.length_eq
  obtain ⟨S1, g1⟩ := zip_mapM_ok updFlux (fl.map (fun (l : List (Option K)) => l.map (fun (v : Option K) => v.getD 0))) BlankS (slotsIn f b t.id) trows S hS (forall₂_imp hM (by
    rintro tr ⟨f', b', i⟩ ⟨rfl, rfl, hi⟩ s _
    obtain ⟨v, hv, _⟩ := hduRows_get _ _ _ h1 tr i hi
    exact ⟨_, _, by rw [List.getElem?_map, hv]; rfl, rfl⟩))
  have hS1 := stage_flux f keep b fl h1 _ _ hM _ _ hS g1
  have hlen1 : S1.length = trows.length := by rw [← hS1.length_eq, hM.length_eq]
  obtain ⟨S2, g2⟩ := zip_mapM_ok (updIvar sqrt nsig) iv FluxS (slotsIn f b t.id) trows S1 hS1 (forall₂_imp hM (by
    rintro tr ⟨f', b', i⟩ ⟨rfl, rfl, hi⟩ s hs
    obtain ⟨fr, hfr, hr⟩ := hduRows_get _ _ _ h1 tr i hi
    obtain ⟨ir, hir, hri⟩ := hduRows_get _ _ _ h2 tr i hi
    obtain ⟨hl, hc⟩ := cleanIvar_get _ _ _ h3 tr fr ir hfr hir
    obtain ⟨r', hr', hsf⟩ := hs.flux
    have := rowAt_unique hr hr'
    subst this
    refine ⟨_, { s with ivar := some (List.zipWith (fun a v => if bigNegFlux sqrt nsig a v then 0 else v) (fr.map (fun x => x.getD 0)) (List.zipWith (fun f i => if f.isNone then (0 : K) else i.getD 0) fr ir)) }, hc, ?_⟩
    unfold updIvar
    rw [hsf]
    dsimp only
    rw [if_neg (by simp [hl])]))
  have hS2 := stage_ivar sqrt nsig f hsq keep b fl iv0 iv h1 h2 h3 _ _ hM _ _ hS1 g2
  have hlen2 : S2.length = trows.length := by rw [← hS2.length_eq, hM.length_eq]
  have e1 : loopFlux (targetSpecs f keep t.id) (fl.map (fun (l : List (Option K)) => l.map (fun (v : Option K) => v.getD 0))) t = .ok { t with spectra := A ++ S1 ++ C, nflux := A.length + trows.length } := by
    rw [htr]
    unfold loopFlux
    dsimp only
    rw [hsp, hinv.nflux, hAl, ← List.append_assoc, fillRows_eq _ _ _ _ _ _ hlen, g1]
    rfl
  generalize ht1 : ({ t with spectra := A ++ S1 ++ C, nflux := A.length + trows.length } : DTarget ι β K) = t1 at e1
  have hid1 : t1.id = t.id := by rw [← ht1]
  have e2 : loopIvar sqrt nsig (targetSpecs f keep t1.id) iv t1 = .ok { t1 with spectra := A ++ S2 ++ C, nivar := A.length + trows.length } := by
    rw [hid1, htr]
    unfold loopIvar
    dsimp only
    rw [show t1.spectra = A ++ S1 ++ C by rw [← ht1], show t1.nivar = A.length by rw [← ht1]; exact hinv.nivar.trans hAl, fillRows_eq _ _ _ _ _ _ hlen1, g2]
    simp [bind, Except.bind, pure, Except.pure, hid1]
  generalize ht2 : ({ t1 with spectra := A ++ S2 ++ C, nivar := A.length + trows.length } : DTarget ι β K) = t2 at e2
  have hid2 : t2.id = t.id := by rw [← ht2]; exact hid1
  have hsp2 : t2.spectra = A ++ S2 ++ C := by rw [← ht2]
  have hnm2 : t2.nmask = t.nmask := by rw [← ht2, ← ht1]
  have hnr2 : t2.nres = A.length := by rw [← ht2, ← ht1]; exact hinv.nres.trans hAl
  have e3 : ∃ t3 S3, loopMask (targetSpecs f keep t2.id) m t2 = .ok t3 ∧ t3.id = t.id ∧ t3.spectra = A ++ S3 ++ C ∧ S3.length = trows.length ∧ t3.nres = A.length := by
    rw [hid2, htr]
    unfold loopMask
    cases hmm : f.mask b with
    | none =>
      rw [hmm] at h4
      cases h4
      exact ⟨t2, S2, rfl, hid2, hsp2, hlen2, hnr2⟩
    | some l =>
      have hms : ∃ mm, m = some mm := by
        rw [hmm] at h4
        unfold maskRows at h4
        obtain ⟨y, _, h7⟩ := Except.bind_ok _ _ _ h4
        cases h7
        exact ⟨_, rfl⟩
      obtain ⟨mm, rfl⟩ := hms
      rw [hmm] at hm
      subst hm
      simp only [Option.isSome_some, if_true] at hmask
      obtain ⟨S3, g3⟩ := zip_mapM_ok updMask mm (IvarS nsig) (slotsIn f b t.id) trows S2 hS2 (forall₂_imp hM (by
        rintro tr ⟨f', b', i⟩ ⟨rfl, rfl, hi⟩ s hs
        obtain ⟨mr, hmr, hr⟩ := maskRows_get _ _ _ h4 tr i hi
        obtain ⟨fr, ir, hf, hir, hl, hsi⟩ := hs.ivar
        have hml := hw.maskRow _ _ _ _ hf hr
        refine ⟨mr, { s with ivar := some (List.zipWith (fun v k => v * (if k = 0 then 1 else 0)) (List.zipWith (pixelIvar nsig) fr ir) mr) }, hmr, ?_⟩
        unfold updMask
        rw [hsi]
        dsimp only
        rw [if_neg (by simp [hl, hml])]))
      have hS3 := stage_mask nsig f keep b mm h4 _ _ hM _ _ hS2 g3
      refine ⟨{ t2 with spectra := A ++ S3 ++ C, nmask := A.length + trows.length }, S3, ?_, hid2, rfl, by rw [← hS3.length_eq, hM.length_eq], hnr2⟩
      dsimp only
      rw [hsp2, hnm2, hmask, hAl, fillRows_eq _ _ _ _ _ _ hlen2, g3]
      rfl
  obtain ⟨t3, S3, e3, hid3, hsp3, hlen3, hnr3⟩ := e3
  obtain ⟨S4, g4⟩ := zip_mapM_ok updRes r (fun _ _ => True) (slotsIn f b t.id) trows S3 (by
    have hl : (slotsIn f b t.id).length = S3.length := by rw [hlen3, hM.length_eq]
    rw [List.forall₂_iff_get]
    exact ⟨hl, fun _ _ _ => trivial⟩) (forall₂_imp hM (by
    rintro tr ⟨f', b', i⟩ ⟨rfl, rfl, hi⟩ s _
    obtain ⟨v, hv, _⟩ := hduRows_get _ _ _ h5 tr i hi
    exact ⟨_, _, hv, rfl⟩))
  refine ⟨{ t3 with spectra := A ++ S4 ++ C, nres := A.length + trows.length }, ?_⟩
  unfold stepT
  rw [e1, okBind, e2, okBind, e3, okBind, hid3, htr]
  unfold loopRes
  dsimp only
  rw [hsp3, hnr3, fillRows_eq _ _ _ _ _ _ hlen3, g4]
  simp [bind, Except.bind, pure, Except.pure, hid3]

end Progress

private def ExactI (o : DOpts ι K) (has : Bool) (L1 L2 : List (DFile ι β K × β × Nat)) (t : DTarget ι β K) : Prop :=
  FillInv (IvarExact o.negfluxNsig) L1 L2 t ∧ t.nmask = if has then L1.length else 0

private theorem exact_step [IsStrictOrderedRing K] (sqrt : K → K) (o : DOpts ι K) (f : DFile ι β K) (hsq : SqrtOn sqrt f) (has : Bool) (b : β) (hmask : (f.mask b).isSome = has) : StepOK sqrt o (ExactI o has) f (Selection o f) b := by
  intro fl iv0 iv m r h1 h2 h3 h4 h5 L1 L2 t t' hI hs
  unfold bandSlots at hI ⊢
  by_cases ht : t.id ∈ Selection o f
  · rw [if_pos ht] at hI ⊢
    exact step_exact sqrt o.negfluxNsig f hsq _ b fl iv0 iv m r h1 h2 h3 h4 h5 has hmask L1 L2 t t' ht hI.1 hI.2 hs
  · rw [if_neg ht] at hI ⊢
    rw [step_skip _ _ _ _ _ _ _ _ _ ht] at hs
    cases hs
    rw [List.append_nil]
    exact ⟨rfl, hI⟩

private theorem forall₂_exists {α γ : Type} {R : α → γ → Prop} (l : List α) (h : ∀ a ∈ l, ∃ c, R a c) : ∃ r, List.Forall₂ R l r := by
  induction l with
  | nil => exact ⟨[], .nil⟩
  | cons a l ih =>
    obtain ⟨c, hc⟩ := h a (by simp)
    obtain ⟨r, hr⟩ := ih (fun x hx => h x (by simp [hx]))
    exact ⟨c :: r, .cons hc hr⟩

theorem forall₂_mem_right {α γ : Type} {R : α → γ → Prop} {l : List α} {r : List γ} (h : List.Forall₂ R l r) (c : γ) (hc : c ∈ r) : ∃ a ∈ l, R a c := by
  induction h with
  | nil => simp at hc
  | cons h _ ih =>
    rcases List.mem_cons.1 hc with rfl | hc
    · exact ⟨_, by simp, h⟩
    · obtain ⟨a, ha, hr⟩ := ih hc
      exact ⟨a, by simp [ha], hr⟩

private theorem bands_progress [IsStrictOrderedRing K] (sqrt : K → K) (o : DOpts ι K) (mpi : Bool) (f : DFile ι β K) (hsq : SqrtOn sqrt f) (hw : WellFormed f) (has : Bool) :
    ∀ (bands : List β) (_ : ∀ b ∈ bands, b ∈ f.waveHdus.map (·.1) ∧ (f.mask b).isSome = has) (L1 L2 : ι → List (DFile ι β K × β × Nat)) (mine : List ι) (ts : List (DTarget ι β K)),
    List.Forall₂ (fun x t => t.id = x ∧ ExactI o has (L1 x) (bands.flatMap (fun b => bandSlots f (Selection o f) b x) ++ L2 x) t) mine ts →
    ∃ out, bands.foldlM (fillBand sqrt o mpi f (Selection o f)) ts = .ok out := by
  intro bands
  induction bands with
  | nil => intro _ L1 L2 mine ts _; exact ⟨ts, rfl⟩
  | cons b bands ih =>
    intro hb L1 L2 mine ts hI
    obtain ⟨hbm, hbk⟩ := hb b (by simp)
    obtain ⟨fl, iv0, iv, m, r, h1, h2, h3, h4, h5⟩ := reads_ok f hw (Selection o f) b hbm
    obtain ⟨mid, hmid⟩ := forall₂_exists (R := fun t o' => stepT sqrt o.negfluxNsig f (Selection o f) (fl.map (·.map (·.getD 0))) iv m r t = .ok o') ts (by
      intro t ht
      obtain ⟨x, _, hx, hIx⟩ := forall₂_mem_right hI t ht
      subst hx
      rw [List.flatMap_cons, List.append_assoc] at hIx
      exact step_progress sqrt o.negfluxNsig f hsq hw (Selection o f) b fl iv0 iv m r h1 h2 h3 h4 h5 has hbk _ _ t hIx.1 hIx.2)
    have hfb := fillBand_of sqrt o mpi f (Selection o f) ts mid b fl iv0 iv m r h1 h2 h3 h4 h5 hmid
    obtain ⟨out, hout⟩ := ih (fun c hc => hb c (by simp [hc])) (fun x => L1 x ++ bandSlots f (Selection o f) b x) L2 mine mid
      (band_list sqrt o mpi (ExactI o has) f (Selection o f) b (exact_step sqrt o f hsq has b hbk) L1 (fun x => bands.flatMap (fun b => bandSlots f (Selection o f) b x) ++ L2 x) mine ts mid
        (by simpa [List.flatMap_cons, List.append_assoc] using hI) hfb)
    exact ⟨out, by rw [List.foldlM_cons, hfb, okBind]; exact hout⟩

private theorem bands_mem (f : DFile ι β K) (b : β) (h : b ∈ f.bands) : b ∈ f.waveHdus.map (·.1) := by
  unfold DFile.bands at h
  rw [firstSeen_eq, mem_distinctKeys] at h
  exact h

private theorem files_progress [IsStrictOrderedRing K] (sqrt : K → K) (o : DOpts ι K) (mpi : Bool) (has : Bool) :
    ∀ (files : List (DFile ι β K)) (_ : ∀ f ∈ files, SqrtOn sqrt f) (_ : ∀ f ∈ files, WellFormed f) (_ : UniformMask has files) (L1 L2 : ι → List (DFile ι β K × β × Nat)) (mine : List ι) (ts : List (DTarget ι β K)),
    List.Forall₂ (fun x t => t.id = x ∧ ExactI o has (L1 x) ((files.map (fun f => (f, Selection o f))).flatMap (fun fk => fileSlots fk x) ++ L2 x) t) mine ts →
    ∃ out, (files.map (fun f => (f, Selection o f))).foldlM (fillFile sqrt o mpi) ts = .ok out := by
  intro files
  induction files with
  | nil => intro _ _ _ L1 L2 mine ts _; exact ⟨ts, rfl⟩
  | cons f files ih =>
    intro hsq hw hu L1 L2 mine ts hI
    have hmid : ∃ mid, fillFile sqrt o mpi ts (f, Selection o f) = .ok mid := by
      unfold fillFile
      split
      · exact ⟨ts, rfl⟩
      · exact bands_progress sqrt o mpi f (hsq f (by simp)) (hw f (by simp)) has f.bands (fun b hb => ⟨bands_mem f b hb, hu f (by simp) b (bands_mem f b hb)⟩) L1
          (fun x => (files.map (fun f => (f, Selection o f))).flatMap (fun fk => fileSlots fk x) ++ L2 x) mine ts (by simpa [List.flatMap_cons, List.append_assoc, fileSlots] using hI)
    obtain ⟨mid, hm⟩ := hmid
    have h2 := files_list sqrt o mpi (ExactI o has) [(f, Selection o f)] (by
      intro fk hfk b hb
      rw [List.mem_singleton] at hfk
      subst hfk
      exact exact_step sqrt o f (hsq f (by simp)) has b (hu f (by simp) b (bands_mem f b hb))) L1 (fun x => (files.map (fun f => (f, Selection o f))).flatMap (fun fk => fileSlots fk x) ++ L2 x) mine ts mid
        (by simpa [List.flatMap_cons, List.append_assoc] using hI) (by rw [List.foldlM_cons, hm, okBind]; rfl)
    obtain ⟨out, hout⟩ := ih (fun g hg => hsq g (by simp [hg])) (fun g hg => hw g (by simp [hg])) (fun g hg => hu g (by simp [hg])) (fun x => L1 x ++ fileSlots (f, Selection o f) x) L2 mine mid (by simpa using h2)
    exact ⟨out, by rw [List.map_cons, List.foldlM_cons, hm, okBind]; exact hout⟩

private theorem blankBand_ok (f : DFile ι β K) (keep : List ι) (t : ι) (b : β) (hb : b ∈ f.bands) : ∃ r, blankBand f keep t b = .ok r := by
  unfold blankBand
  split
  · exact ⟨[], rfl⟩
  · rename_i rows _
    have hw : ∃ w, f.waves.get b = .ok w := by
      obtain ⟨bw, h1, h2⟩ := List.mem_map.1 (bands_mem f b hb)
      unfold PyDict.get DFile.waves
      rw [PyDict.get?_foldl_set (fun bw : β × List K => bw.1) (fun bw => bw.2)]
      cases hf : f.waveHdus.reverse.find? (fun x => decide (x.1 = b)) with
      | none => exact absurd h2 (by simpa using List.find?_eq_none.1 hf bw (List.mem_reverse.2 h1))
      | some p => exact ⟨p.2, rfl⟩
    obtain ⟨w, hw⟩ := hw
    obtain ⟨sr, h, _⟩ := mapM_forall₂ (fun _ : Nat => do
      let w ← f.waves.get b
      return ({ wave := w, band := b, flux := none, ivar := none, R := none } : DSpec β K)) (fun _ _ => True) rows (by
        intro _ _
        exact ⟨_, by rw [hw]; rfl, trivial⟩)
    exact ⟨sr, h⟩

private theorem blank_ok (fks : List (DFile ι β K × List ι)) (t : ι) : ∃ tg, blankTarget fks t = .ok tg := by
  unfold blankTarget
  obtain ⟨specs, h, _⟩ := mapM_forall₂ (fun fk : DFile ι β K × List ι => fk.1.bands.mapM (blankBand fk.1 fk.2 t)) (fun _ _ => True) fks (by
      intro fk _
      obtain ⟨sp, h, _⟩ := mapM_forall₂ (blankBand fk.1 fk.2 t) (fun _ _ => True) fk.1.bands (by
          intro b hb
          obtain ⟨r, hr⟩ := blankBand_ok fk.1 fk.2 t b hb
          exact ⟨r, hr, trivial⟩)
      exact ⟨sp, h, trivial⟩)
  rw [h]
  exact ⟨_, rfl⟩

/-- **C47** On well-formed files, a selection inside every file, MASK HDUs for all bands or none, the constructor succeeds on every rank. -/
theorem C47_constructor_succeeds [IsStrictOrderedRing K] (argsort : List Nat → List Nat) (harg : IsArgsort (fun a b => decide (a ≤ b)) argsort) (sqrt : K → K) (o : DOpts ι K) (files : List (DFile ι β K)) (hsq : ∀ f ∈ files, SqrtOn sqrt f)
    (hne : files ≠ []) (hw : ∀ f ∈ files, WellFormed f) (has : Bool) (hmask : UniformMask has files)
    (hsel : ∀ f ∈ files, o.firstTarget.getD 0 + o.nTarget.getD (o.targetids.getD f.coaddIds).length ≤ (o.targetids.getD f.coaddIds).length)
    (commSize : Option Nat) (rank : Nat) (hn : rank < commSize.getD 1) (hcap : ∀ c, o.capacities = some c → c.length = commSize.getD 1 ∧ ∀ x ∈ c, 0 < x) :
    ∃ out, distTargetsDESI argsort sqrt o files commSize rank = .ok out := by
  have hk : files.mapM (keepIds o) = .ok (files.map (Selection o)) := by
    refine mapM_of_forall₂ _ _ _ ?_
    rw [List.forall₂_map_right_iff, List.forall₂_same]
    intro f hf
    have := hsel f hf
    unfold keepIds Selection
    dsimp only
    rw [if_neg (by omega), if_neg (by omega)]
    rfl
  obtain ⟨proc, g1, g2, g3⟩ := C01_distribute_work_partition (commSize.getD 1) (distinctKeys (files.flatMap (Selection o)))
    ((if o.coadd then none else some (targetWeight (files.map (fun f => (f, Selection o f))))).getD (fun _ => (1 : K))) (o.capacities.getD (List.replicate (commSize.getD 1) 1)) (by omega) (by
      cases hc : o.capacities with
      | none => simp
      | some c => exact (hcap c hc).1) (by
      intro x hx
      cases hc : o.capacities with
      | none =>
        rw [hc, Option.getD_none, List.mem_replicate] at hx
        rw [hx.2]; exact one_pos
      | some c =>
        rw [hc] at hx
        exact (hcap c hc).2 x hx)
  have hr : rank < proc.length := by omega
  obtain ⟨blank, hb, hb2⟩ := mapM_forall₂ (blankTarget (files.map (fun f => (f, Selection o f)))) (fun t tg => blankTarget (files.map (fun f => (f, Selection o f))) t = .ok tg) proc[rank] (by
    intro t _
    obtain ⟨tg, h⟩ := blank_ok (files.map (fun f => (f, Selection o f))) t
    exact ⟨tg, h, h⟩)
  obtain ⟨data, hd⟩ := files_progress sqrt o commSize.isSome has files hsq hw hmask (fun _ => []) (fun _ => []) proc[rank] blank (forall₂_imp hb2 (by
    intro t tg ht
    obtain ⟨i1, i2, i3, i4, i5, i6⟩ := blank_inv _ t tg ht
    exact ⟨i1, ⟨⟨[], tg.spectra, rfl, .nil, by rw [List.append_nil]; exact i2⟩, i3, i4, i6⟩, by simp [i5]⟩))
  unfold distTargetsDESI
  rw [if_neg (by rw [List.length_eq_zero_iff]; exact hne)]
  unfold desiBody
  rw [hk, okBind]
  dsimp only
  rw [allTargetIds_eq argsort harg, okBind, zip_selection, ← List.flatMap_def]
  unfold distributeWorkDefault
  rw [g1, okBind, (npGet_ok _ _ _).2 (List.getElem?_eq_getElem hr), okBind, hb, okBind, hd, okBind]
  exact ⟨_, rfl⟩

end
end Redrock
