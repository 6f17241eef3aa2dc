import Verif.Props.RrDesi
import Verif.Props.SameData
import Verif.Props.WaveDesi

/-!
Property C125: what the input files contain in the sky lines has no influence on the catalogue of `rrdesi`.
-/
set_option linter.unusedSectionVars false
namespace Redrock
namespace RrDesiRun
open Run FullRun Catalogue Zbest

section
variable {β K : Type} [DecidableEq β] [Field K] [LinearOrder K] [IsStrictOrderedRing K]

/-! ### specification -/

/-- The two slots (file, band, row) hold the same except, perhaps, in the sky lines: band, wavelengths and resolution of the row are the same, and so are flux, inverse variance and flags of all pixels outside the sky lines. -/
structure SameOutsideSky (q q' : DFile Int β K × β × Nat) : Prop where
  band : q.2.1 = q'.2.1
  wave : ∀ w, (q.2.1, w) ∈ q.1.waveHdus ↔ (q'.2.1, w) ∈ q'.1.waveHdus
  res : ∀ r, RowAt (q.1.res q.2.1) q.2.2 r ↔ RowAt (q'.1.res q'.2.1) q'.2.2 r
  flux : ∀ w r r', (q.2.1, w) ∈ q.1.waveHdus → RowAt (q.1.flux q.2.1) q.2.2 r → RowAt (q'.1.flux q'.2.1) q'.2.2 r' → r.length = r'.length ∧ ∀ (i : Nat) x, w[i]? = some x → ¬ SkyLine x → r[i]? = r'[i]?
  ivar : ∀ w r r', (q.2.1, w) ∈ q.1.waveHdus → RowAt (q.1.ivar q.2.1) q.2.2 r → RowAt (q'.1.ivar q'.2.1) q'.2.2 r' → ∀ (i : Nat) x, w[i]? = some x → ¬ SkyLine x → r[i]? = r'[i]?
  mask : ∀ w (i : Nat) x, (q.2.1, w) ∈ q.1.waveHdus → w[i]? = some x → ¬ SkyLine x → (MaskedAt (q.1.mask q.2.1) q.2.2 i ↔ MaskedAt (q'.1.mask q'.2.1) q'.2.2 i)

/-- The inverse variances of the two rows, after all flags, are the same (also in the sky lines). -/
def SameWeights (nsig : K) (q q' : DFile Int β K × β × Nat) : Prop := ∀ s s', IvarExact nsig q s → IvarExact nsig q' s' → s.ivar = s'.ivar

/-- Rebinning the template onto the grid of a band gives one matrix per redshift, or raises `ValueError`. -/
def BinsOn (tm : Tmpl β K String) (b : β) : Prop := ∀ zs, (∀ t, tm.bin b zs = .ok t → t.length = zs.length) ∧ ∀ e, tm.bin b zs = .error e → e = .valueError

/-! ### spectra -/

/-- the same spectrum outside the sky lines -/
structure AlikeOutside {ω : Type} (s s' : Spectrum ω β K) : Prop where
  wave : s'.wave = s.wave
  R : s'.R = s.R
  wavehash : s'.wavehash = s.wavehash
  band : s'.band = s.band
  fluxLength : s'.flux.length = s.flux.length
  ivarLength : s'.ivar.length = s.ivar.length
  flux : ∀ (i : Nat) x, s.wave[i]? = some x → ¬ SkyLine x → s'.flux[i]? = s.flux[i]?
  ivar : ∀ (i : Nat) x, s.wave[i]? = some x → ¬ SkyLine x → s'.ivar[i]? = s.ivar[i]?

/-- the same for the fit -/
structure AlikeUsed {ω : Type} (s s' : FitSpectrum ω K) : Prop where
  wavehash : s'.wavehash = s.wavehash
  R : s'.R = s.R
  ivar : s'.ivar = s.ivar
  fluxLength : s'.flux.length = s.flux.length
  flux : ∀ (i : Nat) v, s.ivar[i]? = some v → v ≠ 0 → s'.flux[i]? = s.flux[i]?

theorem masked_alike {ω : Type} (s s' u u' : Spectrum ω β K) (h : AlikeOutside s s') (hu : SkyMasked s u) (hu' : SkyMasked s' u') : AlikeUsed u.fitPart u'.fitPart := by
  have hiv : u'.ivar = u.ivar := by
    apply List.ext_getElem?
    intro i
    by_cases hi : i < s.wave.length
    · have h1 : i < s.ivar.length := by rw [hu.length]; exact hi
      have h2 : i < s'.ivar.length := by rw [h.ivarLength]; exact h1
      have g := hu.pixel i _ _ (List.getElem?_eq_getElem hi) (List.getElem?_eq_getElem h1)
      have g' := hu'.pixel i s.wave[i] _ (by rw [h.wave]; exact List.getElem?_eq_getElem hi) (List.getElem?_eq_getElem h2)
      by_cases hs : SkyLine s.wave[i]
      · rw [g.1 hs, g'.1 hs]
      · rw [g.2 hs, g'.2 hs]
        have := h.ivar i _ (List.getElem?_eq_getElem hi) hs
        rw [List.getElem?_eq_getElem h1, List.getElem?_eq_getElem h2] at this
        exact this
    · rw [List.getElem?_eq_none (by rw [hu'.length', h.wave]; omega), List.getElem?_eq_none (by rw [hu.length']; omega)]
  refine ⟨?_, ?_, hiv, ?_, ?_⟩
  · show u'.wavehash = u.wavehash
    rw [hu.wavehash, hu'.wavehash, h.wavehash]
  · show (List.range u'.flux.length).map _ = (List.range u.flux.length).map _
    rw [hu.flux, hu'.flux, h.fluxLength, hu.R, hu'.R, h.R]
  · show u'.flux.length = u.flux.length
    rw [hu.flux, hu'.flux, h.fluxLength]
  · intro i v hv hne
    have hv : u.ivar[i]? = some v := hv
    show u'.flux[i]? = u.flux[i]?
    rw [hu.flux, hu'.flux]
    have hi : i < s.wave.length := by
      have := (List.getElem?_eq_some_iff.1 hv).1
      rw [hu.length'] at this
      exact this
    have h1 : i < s.ivar.length := by rw [hu.length]; exact hi
    apply h.flux i _ (List.getElem?_eq_getElem hi)
    intro hs
    rw [(hu.pixel i _ _ (List.getElem?_eq_getElem hi) (List.getElem?_eq_getElem h1)).1 hs] at hv
    exact hne (Option.some.inj hv).symm

theorem alike_pixels {ω : Type} (h : ω) : ∀ (iv fl fl' : List K) (R : List (List K)), fl'.length = fl.length → (∀ (i : Nat) v, iv[i]? = some v → v ≠ 0 → fl'[i]? = fl[i]?) →
    ((iv.zip (fl'.zip R)).map (fun p => (h, p))).filter (fun p => decide (p.2.1 ≠ 0)) = ((iv.zip (fl.zip R)).map (fun p => (h, p))).filter (fun p => decide (p.2.1 ≠ 0)) := by
  intro iv
  induction iv with
  | nil => intros; rfl
  | cons v iv ih =>
    intro fl fl' R hl hf
    cases fl with
    | nil =>
      have : fl' = [] := by simpa using hl
      subst this; rfl
    | cons a fl =>
      cases fl' with
      | nil => simp at hl
      | cons a' fl' =>
        cases R with
        | nil => rfl
        | cons r R =>
          have := ih fl fl' R (by simpa using hl) (fun i v hv hne => by simpa using hf (i + 1) v (by simpa using hv) hne)
          simp only [List.zip_cons_cons, List.map_cons, List.filter_cons]
          rw [this]
          by_cases hv : v = 0
          · simp [hv]
          · have := hf 0 v rfl hv
            simp only [List.getElem?_cons_zero, Option.some.injEq] at this
            rw [this]

theorem alike_informative {ω : Type} [DecidableEq ω] {sp sp' : List (FitSpectrum ω K)} (h : List.Forall₂ AlikeUsed sp sp') : informative sp' = informative sp := by
  induction h with
  | nil => rfl
  | @cons a b as bs hab _ ih =>
    rw [show a :: as = [a] ++ as from rfl, show b :: bs = [b] ++ bs from rfl, informative_append, informative_append, ih]
    congr 1
    unfold informative
    simp only [List.flatMap_cons, List.flatMap_nil, List.append_nil]
    rw [hab.wavehash, hab.R, hab.ivar]
    exact alike_pixels _ _ _ _ _ hab.fluxLength hab.flux

theorem alike_mapM {ω : Type} {full full' used used' : List (Spectrum ω β K)} (h : List.Forall₂ AlikeOutside full full') (hu : List.Forall₂ SkyMasked full used) (hu' : List.Forall₂ SkyMasked full' used') :
    List.Forall₂ AlikeUsed (used.map Spectrum.fitPart) (used'.map Spectrum.fitPart) := by
  induction h generalizing used used' with
  | nil => cases hu; cases hu'; exact .nil
  | cons hab _ ih =>
    cases hu with
    | cons a1 a2 =>
      cases hu' with
      | cons b1 b2 => exact .cons (masked_alike _ _ _ _ hab a1 b1) (ih a2 b2)

/-! ### from the rows of the files to the spectra -/

theorem spec_alike (nsig : K) (resol : List (List K) → Dia K) {q q' : DFile Int β K × β × Nat} (hn : (q.1.waveHdus.map (·.1)).Nodup) (hs : SameOutsideSky q q') {s s' : DSpec β K}
    (h : HoldsRow q s ∧ IvarExact nsig q s) (h' : HoldsRow q' s' ∧ IvarExact nsig q' s') {t t' : Spectrum β β K} (ht : toSpectrum resol s = .ok t) (ht' : toSpectrum resol s' = .ok t') : AlikeOutside t t' := by
  obtain ⟨⟨hb, hw, ⟨fr, hf, hfe⟩, ⟨rr, hr, hre⟩⟩, ⟨fr1, ir, iv, i1, i2, i3, i4, i5, i6⟩⟩ := h
  obtain ⟨⟨hb', hw', ⟨fr', hf', hfe'⟩, ⟨rr', hr', hre'⟩⟩, ⟨fr1', ir', iv', i1', i2', i3', i4', i5', i6'⟩⟩ := h'
  have e1 : fr1 = fr := rowAt_unique i1 hf
  have e2 : fr1' = fr' := rowAt_unique i1' hf'
  have e3 : rr = rr' := rowAt_unique hr ((hs.res _).2 hr')
  subst e1 e2 e3
  have e5 : s.wave = s'.wave := wave_unique hn hw ((hs.wave _).2 hw')
  obtain ⟨hl, hfo⟩ := hs.flux _ _ _ hw i1 i1'
  have hio := hs.ivar _ _ _ hw i2 i2'
  unfold toSpectrum at ht ht'
  rw [hfe, i3, hre] at ht
  rw [hfe', i3', hre'] at ht'
  rw [← Except.ok.inj ht, ← Except.ok.inj ht']
  refine ⟨e5.symm, rfl, ?_, ?_, ?_, ?_, ?_, ?_⟩
  · show s'.band = s.band
    rw [hb, hb', hs.band]
  · show s'.band = s.band
    rw [hb, hb', hs.band]
  · show (fr1'.map _).length = (fr1.map _).length
    rw [List.length_map, List.length_map, hl]
  · show iv'.length = iv.length
    rw [i5, i5', hl]
  · intro i x hx hsky
    show (fr1'.map _)[i]? = (fr1.map _)[i]?
    rw [List.getElem?_map, List.getElem?_map, hfo i x hx hsky]
  · intro i x hx hsky
    show iv'[i]? = iv[i]?
    by_cases hi : i < fr1.length
    · have a1 : i < ir.length := by omega
      have a2 : i < fr1'.length := by omega
      have a3 : i < ir'.length := by omega
      have g := i6 i _ _ (List.getElem?_eq_getElem hi) (List.getElem?_eq_getElem a1)
      have g' := i6' i _ _ (List.getElem?_eq_getElem a2) (List.getElem?_eq_getElem a3)
      have f1 := hfo i x hx hsky
      have f2 := hio i x hx hsky
      rw [List.getElem?_eq_getElem hi, List.getElem?_eq_getElem a2] at f1
      rw [List.getElem?_eq_getElem a1, List.getElem?_eq_getElem a3] at f2
      have hm := hs.mask _ i x hw hx hsky
      by_cases hmk : MaskedAt (q.1.mask q.2.1) q.2.2 i
      · rw [g.1 hmk, g'.1 (hm.1 hmk)]
      · rw [g.2 hmk, g'.2 (fun hh => hmk (hm.2 hh)), Option.some.inj f1, Option.some.inj f2]
    · rw [List.getElem?_eq_none (by omega), List.getElem?_eq_none (by omega)]

/-- alike outside the sky lines, and with the same inverse variances everywhere -/
def AlikeFlux {ω : Type} (s s' : Spectrum ω β K) : Prop := AlikeOutside s s' ∧ s'.ivar = s.ivar

theorem specs_alike (nsig : K) (resol : List (List K) → Dia K) (E : Prop) {L L' : List (DFile Int β K × β × Nat)} (hn : ∀ q ∈ L, (q.1.waveHdus.map (·.1)).Nodup)
    (hs : List.Forall₂ (fun q q' => SameOutsideSky q q' ∧ (E → SameWeights nsig q q')) L L') : ∀ {specs specs' : List (DSpec β K)} {sps sps' : List (Spectrum β β K)},
    List.Forall₂ (fun q s => HoldsRow q s ∧ IvarExact nsig q s) L specs → List.Forall₂ (fun q s => HoldsRow q s ∧ IvarExact nsig q s) L' specs' →
    List.Forall₂ (fun d t => toSpectrum resol d = .ok t) specs sps → List.Forall₂ (fun d t => toSpectrum resol d = .ok t) specs' sps' →
    List.Forall₂ (fun s s' => AlikeOutside s s' ∧ (E → s'.ivar = s.ivar)) sps sps' := by
  induction hs with
  | nil => intro specs specs' sps sps' h h' g g'; cases h; cases h'; cases g; cases g'; exact .nil
  | cons hab _ ih =>
    intro specs specs' sps sps' h h' g g'
    cases h with
    | cons h1 h2 =>
      cases h' with
      | cons h1' h2' =>
        cases g with
        | cons g1 g2 =>
          cases g' with
          | cons g1' g2' =>
            refine .cons ⟨spec_alike nsig resol (hn _ (by simp)) hab.1 h1 h1' g1 g1', ?_⟩ (ih (fun q hq => hn q (by simp [hq])) h2 h2' g2 g2')
            intro hE
            have := hab.2 hE _ _ h1.2 h1'.2
            unfold toSpectrum at g1 g1'
            split at g1
            · rename_i a b c d1 d2 d3
              split at g1'
              · rename_i a' b' c' e1 e2 e3
                rw [← Except.ok.inj g1, ← Except.ok.inj g1']
                rw [d2, e2] at this
                exact (Option.some.inj this).symm
              · cases g1'
            · cases g1

/-! ### coadds -/

theorem alike_filter {ω : Type} [DecidableEq ω] {sps sps' : List (Spectrum ω β K)} (h : List.Forall₂ AlikeFlux sps sps') (key : ω) :
    List.Forall₂ AlikeFlux (sps.filter (fun s => decide (s.wavehash = key))) (sps'.filter (fun s => decide (s.wavehash = key))) := by
  induction h with
  | nil => exact .nil
  | @cons a b as bs hab _ ih =>
    rw [List.filter_cons, List.filter_cons, hab.1.wavehash]
    split
    · exact .cons hab ih
    · exact ih

theorem alike_getLastD {ω : Type} {a b : Spectrum ω β K} {as bs : List (Spectrum ω β K)} (hab : AlikeFlux a b) (h : List.Forall₂ AlikeFlux as bs) : AlikeFlux (as.getLastD a) (bs.getLastD b) := by
  induction h generalizing a b with
  | nil => exact hab
  | cons h1 _ ih =>
    rw [List.getLastD_cons, List.getLastD_cons]
    exact ih h1

theorem alike_ivars {ω : Type} {as bs : List (Spectrum ω β K)} (h : List.Forall₂ AlikeFlux as bs) : bs.map (·.ivar) = as.map (·.ivar) := by
  induction h with
  | nil => rfl
  | cons h1 _ ih => rw [List.map_cons, List.map_cons, h1.2, ih]

theorem getD_of_getElem? {l l' : List K} {j : Nat} (h : l'[j]? = l[j]?) : l'.getD j 0 = l.getD j 0 := by
  rw [List.getD_eq_getElem?_getD, List.getD_eq_getElem?_getD, h]

theorem colSum_alike {ω : Type} {es es' : List (Spectrum ω β K)} {i : Nat} (hp : List.Forall₂ (fun e e' => e'.flux.length = e.flux.length ∧ e'.flux.getD i 0 = e.flux.getD i 0) es es') :
    colSum (es'.map (·.flux)) i = colSum (es.map (·.flux)) i ∧
    ∀ iv, colSum (List.zipWith (fun iv e => List.zipWith (· * ·) iv e.flux) iv es') i = colSum (List.zipWith (fun iv e => List.zipWith (· * ·) iv e.flux) iv es) i := by
  unfold colSum
  constructor
  · congr 1
    induction hp with
    | nil => rfl
    | cons hab _ ih => rw [List.map_cons, List.map_cons, List.map_cons, List.map_cons, ih, hab.2]
  · intro iv
    congr 1
    induction hp generalizing iv with
    | nil => simp
    | @cons a b as bs hab _ ih =>
      cases iv with
      | nil => rfl
      | cons v iv =>
        rw [List.zipWith_cons_cons, List.zipWith_cons_cons, List.map_cons, List.map_cons, ih]
        congr 1
        have : ∀ (fl : List K), (List.zipWith (· * ·) v fl).getD i 0 = if i < v.length ∧ i < fl.length then v.getD i 0 * fl.getD i 0 else 0 := by
          intro fl
          split
          · rename_i hlt
            simp [List.getD_eq_getElem?_getD, List.getElem?_zipWith, List.getElem?_eq_getElem hlt.1, List.getElem?_eq_getElem hlt.2]
          · rename_i hlt
            rw [List.getD_eq_getElem?_getD, List.getElem?_eq_none (by simp; omega)]
            rfl
        rw [this, this, hab.1, hab.2]

theorem coaddFrom_alike {ω : Type} (e0 e0' last last' : Spectrum ω β K) (es es' : List (Spectrum ω β K)) (iv : List (List K)) (key : ω) (h0 : AlikeFlux e0 e0') (hlast : AlikeFlux last last') (h : List.Forall₂ AlikeFlux es es')
    (hw : ∀ e ∈ es, e.wave = e0.wave) : AlikeOutside (coaddFrom e0 last es iv key) (coaddFrom e0' last' es' iv key) := by
  have hpix : ∀ (i : Nat) x, e0.wave[i]? = some x → ¬ SkyLine x → List.Forall₂ (fun e e' => e'.flux.length = e.flux.length ∧ e'.flux.getD i 0 = e.flux.getD i 0) es es' := by
    intro i x hx hsky
    induction h with
    | nil => exact .nil
    | @cons a b as bs hab _ ih =>
      refine .cons ⟨hab.1.fluxLength, ?_⟩ (ih (fun e he => hw e (List.mem_cons_of_mem _ he)))
      apply getD_of_getElem?
      exact hab.1.flux i x (by rw [hw a (by simp)]; exact hx) hsky
  have hR : ∀ (k j : Nat), (es'.map (fun e => (e.R.data.getD k []).getD j 0 * e.ivar.getD j 0)) = es.map (fun e => (e.R.data.getD k []).getD j 0 * e.ivar.getD j 0) := by
    intro k j
    clear hw hpix
    induction h with
    | nil => rfl
    | cons hab _ ih => rw [List.map_cons, List.map_cons, ih, hab.1.R, hab.2]
  unfold coaddFrom mkSpectrum
  simp only [h0.1.wave, h0.1.R, hR]
  refine ⟨rfl, rfl, rfl, hlast.1.band, ?_, rfl, ?_, fun i x _ _ => rfl⟩
  · simp
  · intro i x hx hsky
    have hi : i < e0.wave.length := (List.getElem?_eq_some_iff.1 hx).1
    obtain ⟨c1, c2⟩ := colSum_alike (hpix i x hx hsky)
    simp only [List.getElem?_map, List.getElem?_range hi, Option.map_some, c1, c2, h.length_eq]

theorem coaddGroup_alike {ω : Type} (nsig : K) (hnsig : nsig ≤ 0) (es es' : List (Spectrum ω β K)) (key : ω) (h : List.Forall₂ AlikeFlux es es') (hw : ∀ e ∈ es, ∀ e' ∈ es, e.wave = e'.wave) (c c' : Spectrum ω β K)
    (hc : coaddGroup nsig es key = .ok c) (hc' : coaddGroup nsig es' key = .ok c') : AlikeOutside c c' := by
  have hgrads : ∀ l : List (Spectrum ω β K), cosmicGrads nsig l = .ok [] := by
    intro l
    unfold cosmicGrads
    rw [if_neg (not_lt.2 hnsig)]
  have inv : ∀ (e0 : Spectrum ω β K) (rest : List (Spectrum ω β K)) (c : Spectrum ω β K), coaddGroup nsig (e0 :: rest) key = .ok c → c = coaddFrom e0 (rest.getLastD e0) (e0 :: rest) ((e0 :: rest).map (·.ivar)) key := by
    intro e0 rest c hc
    unfold coaddGroup at hc
    simp only at hc
    split at hc
    · cases hc
    · simp only [bind, Except.bind, pure, Except.pure, hgrads] at hc
      split at hc
      · cases hc
      · rw [← Except.ok.inj hc, if_neg (by simp)]
  cases h with
  | nil => cases hc
  | @cons a b as bs hab hrest =>
    rw [inv _ _ _ hc, inv _ _ _ hc', alike_ivars (.cons hab hrest)]
    exact coaddFrom_alike _ _ _ _ _ _ _ _ hab (alike_getLastD hab hrest) (.cons hab hrest) (fun e he => hw e he a (by simp))

theorem computeCoadd_alike {ω : Type} [DecidableEq ω] (nsig : K) (hnsig : nsig ≤ 0) (es es' : List (Spectrum ω β K)) (h : List.Forall₂ AlikeFlux es es') (hw : ∀ e ∈ es, ∀ e' ∈ es, e.wavehash = e'.wavehash → e.wave = e'.wave)
    (c c' : List (Spectrum ω β K)) (hc : computeCoadd nsig es = .ok c) (hc' : computeCoadd nsig es' = .ok c') : List.Forall₂ AlikeOutside c c' := by
  have hk : es'.map (·.wavehash) = es.map (·.wavehash) := by
    clear hw hc hc'
    induction h with
    | nil => rfl
    | cons hab _ ih => rw [List.map_cons, List.map_cons, ih, hab.1.wavehash]
  unfold computeCoadd at hc hc'
  rw [hk] at hc'
  have h1 := mapM_inv _ _ _ hc
  have h2 := mapM_inv _ _ _ hc'
  clear hc hc'
  generalize firstSeen (es.map (·.wavehash)) = keys at h1 h2
  induction h1 generalizing c' with
  | nil => cases h2; exact .nil
  | @cons key b ks bs hab _ ih =>
    cases h2 with
    | cons g1 g2 =>
      refine .cons (coaddGroup_alike nsig hnsig _ _ key (alike_filter h key) ?_ _ _ hab g1) (ih _ g2)
      intro e he e' he'
      obtain ⟨m1, m2⟩ := List.mem_filter.1 he
      obtain ⟨m1', m2'⟩ := List.mem_filter.1 he'
      simp only [decide_eq_true_eq] at m2 m2'
      exact hw e m1 e' m1' (by rw [m2, m2'])

/-! ### the catalogue -/

theorem toSpectrum_shape (nsig : K) (resol : List (List K) → Dia K) {q : DFile Int β K × β × Nat} {s : DSpec β K} (h : HoldsRow q s ∧ IvarExact nsig q s) {t : Spectrum β β K} (ht : toSpectrum resol s = .ok t) :
    t.ivar.length = t.flux.length ∧ t.wavehash = q.2.1 ∧ (q.2.1, t.wave) ∈ q.1.waveHdus := by
  obtain ⟨⟨hb, hw, ⟨fr, hf, hfe⟩, ⟨rr, hr, hre⟩⟩, ⟨fr1, ir, iv, i1, i2, i3, i4, i5, i6⟩⟩ := h
  have e1 : fr1 = fr := rowAt_unique i1 hf
  subst e1
  unfold toSpectrum at ht
  rw [hfe, i3, hre] at ht
  rw [← Except.ok.inj ht]
  refine ⟨?_, hb, hw⟩
  show iv.length = (fr1.map _).length
  rw [List.length_map, i5]

theorem coadd_shape {ω : Type} [DecidableEq ω] (nsig : K) (es : List (Spectrum ω β K)) (c : List (Spectrum ω β K)) (hc : computeCoadd nsig es = .ok c) : ∀ s ∈ c, s.flux.length = s.wave.length := by
  intro s hs
  unfold computeCoadd at hc
  obtain ⟨key, _, hk⟩ := forall₂_right_mem (mapM_inv _ _ _ hc) s hs
  cases hf : es.filter (fun s => decide (s.wavehash = key)) with
  | nil => rw [hf] at hk; cases hk
  | cons e0 rest =>
    rw [hf] at hk
    unfold coaddGroup at hk
    simp only at hk
    split at hk
    · cases hk
    · simp only [bind, Except.bind, pure, Except.pure] at hk
      split at hk
      · cases hk
      · split at hk
        · cases hk
        · rw [← Except.ok.inj hk]
          unfold coaddFrom mkSpectrum
          simp

theorem masked_shape {ω : Type} (full used : List (Spectrum ω β K)) (h : List.Forall₂ SkyMasked full used) (hl : ∀ s ∈ full, s.ivar.length = s.flux.length ∨ s.flux.length = s.wave.length) :
    ∀ q ∈ used.map Spectrum.fitPart, q.ivar.length = q.flux.length ∧ q.R.length = q.flux.length := by
  intro q hq
  obtain ⟨u, hu, rfl⟩ := List.mem_map.1 hq
  obtain ⟨s, hs, hm⟩ := forall₂_right_mem h u hu
  refine ⟨?_, by simp [Spectrum.fitPart]⟩
  show u.ivar.length = u.flux.length
  rw [hm.length', hm.flux]
  rcases hl s hs with h1 | h1
  · rw [← hm.length, h1]
  · rw [h1]

theorem own_alike (p : RrDesi β K) (hsky : p.noSkymask = false) (files files' : List (DFile Int β K)) (hone : OneGrid files) (hco : p.opts.coadd = true → p.opts.cosmicsNsig ≤ 0 ∧ Wave.SameWaves files) (tid : Int)
    (hs : List.Forall₂ (fun q q' => SameOutsideSky q q' ∧ (p.opts.coadd = true → SameWeights p.opts.negfluxNsig q q')) (slotsOf p.opts tid files) (slotsOf p.opts tid files')) (sp sp' : List (FitSpectrum β K))
    (h : OwnSpectra p files tid sp) (h' : OwnSpectra p files' tid sp') :
    List.Forall₂ AlikeUsed sp sp' ∧ (∀ s ∈ sp, s.ivar.length = s.flux.length ∧ s.R.length = s.flux.length) ∧ (∀ s ∈ sp', s.ivar.length = s.flux.length ∧ s.R.length = s.flux.length) := by
  obtain ⟨specs, full, used, h1, h2, hu, h3⟩ := h
  obtain ⟨specs', full', used', h1', h2', hu', h3'⟩ := h'
  obtain rfl := (fitted_iff _ _).1 h3
  obtain rfl := (fitted_iff _ _).1 h3'
  unfold SkyLinesMasked at hu hu'
  rw [hsky] at hu hu'
  simp only [Bool.false_eq_true, if_false] at hu hu'
  unfold combined at h2 h2'
  obtain ⟨sps, g1, g2⟩ := Except.bind_ok _ _ _ h2
  obtain ⟨sps', g1', g2'⟩ := Except.bind_ok _ _ _ h2'
  have G := mapM_inv _ _ _ g1
  have G' := mapM_inv _ _ _ g1'
  have hal := specs_alike p.opts.negfluxNsig p.resol (p.opts.coadd = true) (fun q hq => hone _ (slot_file hq)) hs h1 h1' G G'
  have hshape : ∀ s ∈ sps, s.ivar.length = s.flux.length ∧ ∃ q ∈ slotsOf p.opts tid files, s.wavehash = q.2.1 ∧ (q.2.1, s.wave) ∈ q.1.waveHdus := by
    intro s hs
    obtain ⟨d, hd, hds⟩ := forall₂_right_mem G s hs
    obtain ⟨q, hq, hqd⟩ := forall₂_right_mem h1 d hd
    obtain ⟨a, b, c⟩ := toSpectrum_shape _ _ hqd hds
    exact ⟨a, q, hq, b, c⟩
  have hshape' : ∀ s ∈ sps', s.ivar.length = s.flux.length := by
    intro s hs
    obtain ⟨d, hd, hds⟩ := forall₂_right_mem G' s hs
    obtain ⟨q, hq, hqd⟩ := forall₂_right_mem h1' d hd
    exact (toSpectrum_shape _ _ hqd hds).1
  have key : List.Forall₂ AlikeOutside full full' ∧ (∀ s ∈ full, s.ivar.length = s.flux.length ∨ s.flux.length = s.wave.length) ∧ (∀ s ∈ full', s.ivar.length = s.flux.length ∨ s.flux.length = s.wave.length) := by
    by_cases hc : p.opts.coadd = true
    · rw [if_pos hc] at g2 g2'
      obtain ⟨hns, hw⟩ := hco hc
      refine ⟨computeCoadd_alike _ hns sps sps' (hal.imp (fun a b hab => ⟨hab.1, hab.2 hc⟩)) ?_ _ _ g2 g2', fun s hs => Or.inr (coadd_shape _ _ _ g2 s hs), fun s hs => Or.inr (coadd_shape _ _ _ g2' s hs)⟩
      intro e he e' he' hh
      obtain ⟨_, q, hq, a1, a2⟩ := hshape e he
      obtain ⟨_, q', hq', b1, b2⟩ := hshape e' he'
      rw [a1, b1] at hh
      rw [← hh] at b2
      exact hw _ (slot_file hq) _ (slot_file hq') _ _ _ a2 b2
    · rw [if_neg hc] at g2 g2'
      rw [← Except.ok.inj g2, ← Except.ok.inj g2']
      exact ⟨hal.imp (fun a b hab => hab.1), fun s hs => Or.inl (hshape s hs).1, fun s hs => Or.inl (hshape' s hs)⟩
  exact ⟨alike_mapM key.1 hu hu', masked_shape _ _ hu key.2.1, masked_shape _ _ hu' key.2.2⟩

/-- **C125** (partial) With the sky mask (the default), a target is published alike from two sets of files whose rows for it differ in the sky lines only: without coaddition whatever flux, inverse variance and flags are
there; with coaddition (and no cosmic-ray rejection, as by default) whatever flux is there, if the weights are the same. Missing: other weights or flags in the sky lines with coaddition, where the claim is false
(`C125_refuted`), and cosmic-ray rejection. -/
theorem C125_sky_lines_partial (p : RrDesi β K) (hsky : p.noSkymask = false) (files files' : List (DFile Int β K)) (hone : OneGrid files) (hco : p.opts.coadd = true → p.opts.cosmicsNsig ≤ 0 ∧ Wave.SameWaves files)
    (hbin : ∀ t ∈ p.fit.templates, ∀ b ∈ allBands files, BinsOn t.2 b) (way way' : RrDesiWay K) (hg : GoodStart p files (ways way)) (hg' : GoodStart p files' (ways way')) (hr : PossibleRing p way) (hr' : PossibleRing p way')
    (B B' : Tab K) (h : rrdesiCatalogue p files way = .ok B) (h' : rrdesiCatalogue p files' way' = .ok B') (tid : Int) (hin : tid ∈ selected p files) (hin' : tid ∈ selected p files')
    (hs : List.Forall₂ (fun q q' => SameOutsideSky q q' ∧ (p.opts.coadd = true → SameWeights p.opts.negfluxNsig q q')) (slotsOf p.opts tid files) (slotsOf p.opts tid files'))
    (hfib : ∀ x, x.targetid = tid → (x ∈ fibers p files ↔ x ∈ fibers p files')) :
    ∃ best best', B = publishedTable p.round32 [] best ∧ B' = publishedTable p.round32 [] best' ∧ best.map (·.base.targetid) = selected p files ∧ best'.map (·.base.targetid) = selected p files' ∧
      ∃ r ∈ best, ∃ r' ∈ best', r.base.targetid = tid ∧ SamePublished r r' := by
  obtain ⟨best, h1, h2⟩ := C119_rows p files way hg hr B h
  obtain ⟨best', h1', h2'⟩ := C119_rows p files' way' hg' hr' B' h'
  have hid : ∀ (files : List (DFile Int β K)) tid (r : CatRow K), IsRow p files tid r → r.base.targetid = tid := by
    rintro files tid r ⟨sp, _, T, b, row, _, _, _, h⟩
    rw [h]
    unfold desiFlagRow
    dsimp only
    split <;> rfl
  have hids : ∀ (files : List (DFile Int β K)) (l : List Int) (best : List (CatRow K)), List.Forall₂ (IsRow p files) l best → best.map (·.base.targetid) = l := by
    intro files l best h
    induction h with
    | nil => rfl
    | cons hab _ ih => rw [List.map_cons, ih, hid _ _ _ hab]
  obtain ⟨r, hrm, hrr⟩ := forall₂_left_mem h1 tid hin
  obtain ⟨r', hrm', hrr'⟩ := forall₂_left_mem h1' tid hin'
  refine ⟨best, best', h2, h2', hids _ _ _ h1, hids _ _ _ h1', r, hrm, r', hrm', hid _ _ _ hrr, ?_⟩
  obtain ⟨sp, hsp, T, b, row, k1, k2, k3, k4⟩ := hrr
  obtain ⟨sp', hsp', T', b', row', k1', k2', k3', k4'⟩ := hrr'
  obtain ⟨ha, hl, hl'⟩ := own_alike p hsky files files' hone hco tid hs sp sp' hsp hsp'
  have hbs : ∀ s ∈ sp, s.wavehash ∈ allBands files := own_hashes p files tid sp hsp
  have hbs' : ∀ s ∈ sp', s.wavehash ∈ allBands files := by
    intro s hs
    obtain ⟨s0, hs0, hal⟩ := forall₂_right_mem ha s hs
    rw [hal.wavehash]
    exact hbs s0 hs0
  have hm := C112_same_pixels (measureCfg p.fit tid) (p.fit.templates.map (·.2)) sp sp'
    (List.forall_mem_map.2 (by intro t ht s hs; exact ⟨(hl s hs).1, (hl s hs).2, hbin t ht _ (hbs s hs)⟩))
    (List.forall_mem_map.2 (by intro t ht s hs; exact ⟨(hl' s hs).1, (hl' s hs).2, hbin t ht _ (hbs' s hs)⟩))
    (by rw [alike_informative ha]) (by
      intro tm _ zs
      constructor
      · rintro ⟨s, hs, e⟩
        obtain ⟨s', hs', hal⟩ := forall₂_left_mem ha s hs
        exact ⟨s', hs', by rw [hal.wavehash]; exact e⟩
      · rintro ⟨s', hs', e⟩
        obtain ⟨s, hs, hal⟩ := forall₂_right_mem ha s' hs'
        exact ⟨s, hs, by rw [← hal.wavehash]; exact e⟩)
  rw [hm, k1] at k1'
  cases k1'
  rw [k2] at k2'
  cases k2'
  have hsm : SameMeasurement row row' := by
    have := sameMeasurement_of (List.Forall₂.cons k3 .nil) (List.Forall₂.cons k3' .nil)
    cases this
    assumption
  have ht : row.spectype = row'.spectype ∧ row.subtype = row'.subtype := by
    rw [hsm.1]
    exact ⟨rfl, rfl⟩
  have := flag_same p.mask (fibers p files) (fibers p files') tid hfib row row' hsm (p.method row.spectype row.subtype)
  unfold SamePublished
  rw [k4, k4', ← ht.1, ← ht.2]
  exact this

end
/-! ### examples -/

namespace SkyEx

/-- one basis spectrum of four pixels -/
def tmpl : Tmpl Unit ℚ String := { Zbest.Ex.named (Units.tmpl false) "STAR" "K" with bin := fun _ zs => .ok (zs.map (fun z => [[1], [z], [1], [(z - 1) / 10 + 1]])) }

/-- one exposure of target 7, with a pixel in the sky line at 5577: its flux is `f`, its inverse variance `v`, its flag `m`. The pixel at 5571 gets half of its light from the sky line. -/
def file (f : Option ℚ) (v : ℚ) (m : Nat) : DFile Int Unit ℚ where
  coadded := false
  coaddIds := [7]
  expIds := [7]
  waveHdus := [((), [5570, 5571, 5577, 5583])]
  flux := fun _ => some [[some 1, some 2, f, some 1]]
  ivar := fun _ => some [[some 1, some 100, some v, some 1]]
  mask := fun _ => some [[0, 0, m, 0]]
  res := fun _ => some [[[1, 1 / 2, 1, 1], [0, 0, 1 / 2, 0]]]

/-- the default options, with or without coaddition -/
def run (coadd : Bool) : RrDesi Unit ℚ where
  argsort := exSort
  sqrt := fun x => if x = 100 then 10 else x
  resol := fun r => ⟨[0, 1], r⟩
  opts := { RrDesiRun.Ex.opts with coadd := coadd }
  fit := { Zbest.Ex.run with templates := [("STAR:::K".toList, tmpl)], order := ["STAR:::K".toList] }
  mask := ⟨1, 2, 4, 8, []⟩
  fibermap := fun f => f.coaddIds.map (fun t => ⟨t, 0, "TGT"⟩)
  method := fun _ _ => "PCA"
  noSkymask := false
  round32 := fun x => x

def brief (B : Tab ℚ) : Py (List (List (TabCell ℚ))) := ["TARGETID", "Z", "CHI2", "COEFF", "NPIXELS"].mapM (fun n => B.col n.toList)

theorem bins (b : Unit) : BinsOn tmpl b := by
  intro zs
  constructor
  · intro t ht
    rw [← Except.ok.inj ht, List.length_map]
  · intro e he
    cases he

theorem start (coadd : Bool) (f : Option ℚ) (v : ℚ) (hv : v = 0 ∨ v = 1) (m : Nat) : GoodStart (run coadd) [file f v m] 1 where
  argsort := stableArgsort_isArgsort _ (fun a b c => by simpa using le_trans) (fun a b => by simpa using le_total a b)
  sqrt := by
    intro g hg b i ir x hir hx _
    rw [List.mem_singleton] at hg
    subst hg
    obtain ⟨l, hl, h⟩ := hir
    cases hl
    have := List.mem_of_getElem? h
    rw [List.mem_singleton] at this
    subst this
    simp only [List.mem_cons, Option.some.injEq, List.not_mem_nil, or_false] at hx
    show 0 ≤ (if x = 100 then (10 : ℚ) else x) ∧ (if x = 100 then (10 : ℚ) else x) * (if x = 100 then (10 : ℚ) else x) = x
    rcases hv with rfl | rfl <;> rcases hx with rfl | rfl | rfl | rfl <;> norm_num
  masks := ⟨true, by
    intro g hg b _
    rw [List.mem_singleton] at hg
    subst hg
    rfl⟩
  fit := {
    names := by cases coadd <;> decide
    order := by cases coadd <;> decide
    scan := by
      intro t ht
      have ht : t ∈ [("STAR:::K".toList, tmpl)] := ht
      rw [List.mem_singleton] at ht
      subst ht
      refine ⟨fun _ z => [[1], [z], [1], [(z - 1) / 10 + 1]], fun _ _ _ _ _ => rfl, by decide, ?_⟩
      intro A y e h
      have h : Units.solve1 A y = .error e := h
      unfold Units.solve1 at h
      split at h
      · exact Or.inl (Except.error.inj h).symm
      · cases h }
  nminima := by cases coadd <;> decide
  capacities := by
    intro c hc
    cases hc

theorem row_one {X : Type} {x y : X} {i : Nat} (h : RowAt (some [x]) i y) : i = 0 ∧ y = x := by
  obtain ⟨l, hl, h⟩ := h
  cases hl
  cases i with
  | zero => exact ⟨rfl, (Option.some.inj h).symm⟩
  | succ n => cases h

/-- two such files differ in the sky line only -/
theorem same (f f' : Option ℚ) (v v' : ℚ) (m m' : Nat) : SameOutsideSky (file f v m, (), 0) (file f' v' m', (), 0) where
  band := rfl
  wave := fun _ => Iff.rfl
  res := fun _ => Iff.rfl
  flux := by
    intro w r r' hw hr hr'
    obtain ⟨_, rfl⟩ := row_one hr
    obtain ⟨_, rfl⟩ := row_one hr'
    have hw : ((), w) ∈ [((), [(5570 : ℚ), 5571, 5577, 5583])] := hw
    rw [List.mem_singleton] at hw
    cases hw
    refine ⟨rfl, ?_⟩
    intro i x hx hsky
    match i with
    | 0 | 1 | 3 => rfl
    | 2 => cases hx; exact absurd (Or.inl (by norm_num)) hsky
    | n + 4 => rfl
  ivar := by
    intro w r r' hw hr hr'
    obtain ⟨_, rfl⟩ := row_one hr
    obtain ⟨_, rfl⟩ := row_one hr'
    have hw : ((), w) ∈ [((), [(5570 : ℚ), 5571, 5577, 5583])] := hw
    rw [List.mem_singleton] at hw
    cases hw
    intro i x hx hsky
    match i with
    | 0 | 1 | 3 => rfl
    | 2 => cases hx; exact absurd (Or.inl (by norm_num)) hsky
    | n + 4 => rfl
  mask := by
    intro w i x hw hx hsky
    have hw : ((), w) ∈ [((), [(5570 : ℚ), 5571, 5577, 5583])] := hw
    rw [List.mem_singleton] at hw
    cases hw
    have key : ∀ (m : Nat), i ≠ 2 → ¬ MaskedAt (some [[0, 0, m, 0]]) 0 i := by
      rintro m hi ⟨r, k, hr, hk, hne⟩
      obtain ⟨_, rfl⟩ := row_one hr
      match i with
      | 0 | 1 | 3 => cases hk; exact hne rfl
      | 2 => exact hi rfl
      | n + 4 => cases hk
    have hi : i ≠ 2 := by
      rintro rfl
      cases hx
      exact absurd (Or.inl (by norm_num)) hsky
    exact iff_of_false (key m hi) (key m' hi)

/-- other flux in the sky line, also as coadds; without coaddition also a flagged pixel, without flux or inverse variance: the conditions of `C125_sky_lines_partial` are met -/
example : (List.Forall₂ (fun q q' => SameOutsideSky q q' ∧ ((run true).opts.coadd = true → SameWeights (run true).opts.negfluxNsig q q')) (slotsOf (run true).opts 7 [file (some 5) 1 0]) (slotsOf (run true).opts 7 [file (some 50) 1 0])) ∧
    (List.Forall₂ (fun q q' => SameOutsideSky q q' ∧ ((run false).opts.coadd = true → SameWeights (run false).opts.negfluxNsig q q')) (slotsOf (run false).opts 7 [file (some 5) 1 0]) (slotsOf (run false).opts 7 [file none 0 3])) ∧
    OneGrid [file (some 5) 1 0] ∧ Wave.SameWaves [file (some 5) 1 0] ∧ (run true).opts.cosmicsNsig ≤ 0 ∧ 7 ∈ selected (run true) [file (some 5) 1 0] ∧ 7 ∈ selected (run true) [file (some 50) 1 0] ∧
    7 ∈ selected (run false) [file none 0 3] := by
  refine ⟨.cons ⟨same _ _ _ _ _ _, fun _ => ?_⟩ .nil, .cons ⟨same _ _ _ _ _ _, fun h => by cases h⟩ .nil, ?_, ?_, le_refl _, by decide, by decide, by decide⟩
  · rintro s s' ⟨fr, ir, iv, i1, i2, i3, i4, i5, i6⟩ ⟨fr', ir', iv', i1', i2', i3', i4', i5', i6'⟩
    obtain ⟨_, rfl⟩ := row_one i1
    obtain ⟨_, rfl⟩ := row_one i2
    obtain ⟨_, rfl⟩ := row_one i1'
    obtain ⟨_, rfl⟩ := row_one i2'
    rw [i3, i3']
    have hm : ∀ i, ¬ MaskedAt (some [[0, 0, 0, 0]]) 0 i := by
      rintro i ⟨r, k, hr, hk, hne⟩
      obtain ⟨_, rfl⟩ := row_one hr
      match i with
      | 0 | 1 | 2 | 3 => cases hk; exact hne rfl
      | n + 4 => cases hk
    congr 1
    apply List.ext_getElem?
    intro i
    match i with
    | 0 => rw [(i6 0 _ _ rfl rfl).2 (hm 0), (i6' 0 _ _ rfl rfl).2 (hm 0)]
    | 1 => rw [(i6 1 _ _ rfl rfl).2 (hm 1), (i6' 1 _ _ rfl rfl).2 (hm 1)]
    | 2 =>
      rw [(i6 2 _ _ rfl rfl).2 (hm 2), (i6' 2 _ _ rfl rfl).2 (hm 2)]
      norm_num [pixelIvar]
    | 3 => rw [(i6 3 _ _ rfl rfl).2 (hm 3), (i6' 3 _ _ rfl rfl).2 (hm 3)]
    | n + 4 =>
      have e1 : iv.length = 4 := i5
      have e2 : iv'.length = 4 := i5'
      rw [List.getElem?_eq_none (by omega), List.getElem?_eq_none (by omega)]
  · intro g hg
    rw [List.mem_singleton] at hg
    subst hg
    decide
  · intro g hg g' hg' b w w' hw hw'
    rw [List.mem_singleton] at hg hg'
    subst hg hg'
    have hw : ((), w) ∈ [((), [(5570 : ℚ), 5571, 5577, 5583])] := hw
    have hw' : ((), w') ∈ [((), [(5570 : ℚ), 5571, 5577, 5583])] := hw'
    rw [List.mem_singleton] at hw hw'
    cases hw
    cases hw'
    rfl

example : ((rrdesiCatalogue (run true) [file (some 50) 1 0] .serial).bind brief) = .ok [[.int 7], [.flt 2], [.flt (7401 / 22721)], [.arr [30210 / 22721]], [.int 3]] := by decide +kernel

example : ((rrdesiCatalogue (run false) [file none 0 3] .serial).bind brief) = .ok [[.int 7], [.flt 2], [.flt (7401 / 22721)], [.arr [30210 / 22721]], [.int 3]] := by decide +kernel

/-- **C125** as stated is false: with the default options (coaddition, sky mask) two files which differ only in the flag of a pixel in the sky line at 5577 get different redshifts, 2 and 1. The coadd drops the flagged
pixel from the resolution matrix, so that the pixel at 5571 is masked as well; the sky mask comes after that. -/
theorem C125_refuted : ∃ (p : RrDesi Unit ℚ) (file file' : DFile Int Unit ℚ), p.noSkymask = false ∧ p.opts.coadd = true ∧ GoodStart p [file] 1 ∧ GoodStart p [file'] 1 ∧ p.fibermap file = p.fibermap file' ∧
    List.Forall₂ SameOutsideSky (slotsOf p.opts 7 [file]) (slotsOf p.opts 7 [file']) ∧
    ((rrdesiCatalogue p [file] .serial).bind brief) = .ok [[.int 7], [.flt 2], [.flt (7401 / 22721)], [.arr [30210 / 22721]], [.int 3]] ∧
    ((rrdesiCatalogue p [file'] .serial).bind brief) = .ok [[.int 7], [.flt 1], [.flt 0], [.arr [1]], [.int 2]] := by
  refine ⟨run true, file (some 5) 1 0, file (some 5) 1 3, rfl, rfl, start _ _ _ (Or.inr rfl) _, start _ _ _ (Or.inr rfl) _, rfl, .cons (same _ _ _ _ _ _) .nil, ?_, ?_⟩
  · decide +kernel
  · decide +kernel

end SkyEx

end RrDesiRun
end Redrock
