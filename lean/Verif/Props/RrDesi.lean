import Verif.Model.RrDesi
import Verif.Props.DesiMore
import Verif.Props.Zbest

/-! Property C119: `rrdesi` from the spectra files to the published catalogue. -/
set_option linter.unusedSectionVars false
namespace Redrock
namespace RrDesiRun

variable {β K : Type} [DecidableEq β] [Field K] [LinearOrder K] [IsStrictOrderedRing K]
open FullRun Catalogue Zbest Run

/-! ### the specification -/

/-- all bands of all files -/
def allBands (files : List (DFile Int β K)) : List β := files.flatMap (fun f => f.waveHdus.map (·.1))

/-- the selected targets in the order of their first appearance -/
def selected (p : RrDesi β K) (files : List (DFile Int β K)) : List Int := distinctKeys (files.flatMap (Selection p.opts))

/-- what is fitted, from the spectra of a target: these, or their coadds -/
def combined (p : RrDesi β K) (specs : List (DSpec β K)) : Py (List (Spectrum β β K)) := do
  let sp ← specs.mapM (toSpectrum p.resol)
  if p.opts.coadd then computeCoadd p.opts.cosmicsNsig sp else return sp

/-- the wavelengths of the sky lines that `rrdesi` masks: 5572..5582 and 9792..9795 -/
def SkyLine (w : K) : Prop := (5572 ≤ w ∧ w ≤ 5582) ∨ (9792 ≤ w ∧ w ≤ 9795)

/-- `s'` is `s` with the inverse variance 0 in the sky lines, and nothing else changed -/
structure SkyMasked {ω : Type} (s s' : Spectrum ω β K) : Prop where
  wave : s'.wave = s.wave
  flux : s'.flux = s.flux
  R : s'.R = s.R
  wavehash : s'.wavehash = s.wavehash
  band : s'.band = s.band
  length : s.ivar.length = s.wave.length
  length' : s'.ivar.length = s.wave.length
  pixel : ∀ (i : Nat) (w v : K), s.wave[i]? = some w → s.ivar[i]? = some v → (SkyLine w → s'.ivar[i]? = some 0) ∧ (¬ SkyLine w → s'.ivar[i]? = some v)

/-- what is fitted of the spectra of a target, or of their coadds: these with the sky lines masked, or as they are with `--no-skymask` -/
def SkyLinesMasked {ω : Type} (noSkymask : Bool) (full used : List (Spectrum ω β K)) : Prop := if noSkymask then used = full else List.Forall₂ SkyMasked full used

/-- what the fit uses of a spectrum: wavelength grid, flux, inverse variance, and the resolution matrix with its rows as rows -/
structure IsFitted (s : Spectrum β β K) (q : FitSpectrum β K) : Prop where
  grid : q.wavehash = s.wavehash
  flux : q.flux = s.flux
  ivar : q.ivar = s.ivar
  size : q.R.length = s.flux.length
  rows : ∀ i (h : i < q.R.length), q.R[i].length = s.flux.length
  entry : ∀ i j (h : i < q.R.length) (h' : j < q.R[i].length), q.R[i][j] = s.R.entry i j

/-- `sp` is made of the rows of target `tid` in the files, and of nothing else: band, wavelengths, flux, resolution of the row, inverse variance of the row with exactly the flagged and rejected pixels
set to 0, and the sky lines unless `--no-skymask` -/
def OwnSpectra (p : RrDesi β K) (files : List (DFile Int β K)) (tid : Int) (sp : List (FitSpectrum β K)) : Prop :=
  ∃ specs full used, List.Forall₂ (fun q s => HoldsRow q s ∧ IvarExact p.opts.negfluxNsig q s) (slotsOf p.opts tid files) specs ∧ combined p specs = .ok full ∧ SkyLinesMasked p.noSkymask full used ∧
    List.Forall₂ IsFitted used sp

/-- the fibermap rows of the selected targets -/
def fibers (p : RrDesi β K) (files : List (DFile Int β K)) : List (FiberRow Int) := files.flatMap (fun f => (p.fibermap f).filter (fun x => decide (x.targetid ∈ Selection p.opts f)))

/-- the published row `r` of target `tid`: the first row of the measurement of the target's own spectra, with the flags and resets of its fiber status -/
def IsRow (p : RrDesi β K) (files : List (DFile Int β K)) (tid : Int) (r : CatRow K) : Prop :=
  ∃ sp, OwnSpectra p files tid sp ∧ ∃ T best row, measureTarget (measureCfg p.fit tid) (p.fit.templates.map (·.2)) sp = .ok T ∧ T.head? = some best ∧ Catalogue.SameRow best row ∧
    r.base = desiFlagRow p.mask (fibers p files) ⟨tid, row, p.method row.spectype row.subtype⟩

/-- A run that can be started: a true `argsort`, a square root that is right on the inverse variances in the files, MASK HDUs for all bands or none, templates that cover the bands of the files, positive capacities. -/
structure GoodStart (p : RrDesi β K) (files : List (DFile Int β K)) (size : Nat) : Prop where
  argsort : IsArgsort (fun a b => decide (a ≤ b)) p.argsort
  sqrt : ∀ f ∈ files, SqrtOn p.sqrt f
  masks : ∃ has, UniformMask has files
  fit : GoodRun p.fit (allBands files)
  nminima : 1 ≤ p.fit.nminima
  capacities : ∀ c, p.opts.capacities = some c → c.length = size ∧ ∀ x ∈ c, 0 < x

/-- number of processes -/
def ways : RrDesiWay K → Nat
  | .serial => 1
  | .mpi size _ => size

/-- the ranks' redshift slices come from a complete run of the ring -/
def PossibleRing (p : RrDesi β K) : RrDesiWay K → Prop
  | .serial => True
  | .mpi size log => 0 < size ∧ ∀ t ∈ p.fit.templates, RingRun t.2.redshifts size (log ⟨t.1, t.2.redshifts⟩)

/-! ### the local targets -/

theorem isSkyLine_iff (w : K) : DesiOpts.isSkyLine w = true ↔ SkyLine w := by
  unfold DesiOpts.isSkyLine SkyLine; simp

theorem skyMaskSpectrum_iff {ω : Type} (s s' : Spectrum ω β K) : skyMaskSpectrum s = .ok s' ↔ SkyMasked s s' := by
  unfold skyMaskSpectrum
  split
  · rename_i hne
    constructor
    · intro h; cases h
    · intro h; exact absurd h.length.symm hne
  · rename_i hne
    push Not at hne
    have hpix : ∀ (i : Nat) (w v : K), s.wave[i]? = some w → s.ivar[i]? = some v →
        (SkyLine w → (List.zipWith (fun w v => if DesiOpts.isSkyLine w then 0 else v) s.wave s.ivar)[i]? = some 0) ∧
        (¬ SkyLine w → (List.zipWith (fun w v => if DesiOpts.isSkyLine w then 0 else v) s.wave s.ivar)[i]? = some v) := by
      intro i w v hw hv
      rw [List.getElem?_zipWith, hw, hv]
      constructor
      · intro hs; simp [(isSkyLine_iff w).2 hs]
      · intro hs
        have : DesiOpts.isSkyLine w = false := by
          rw [← Bool.not_eq_true]; exact fun h => hs ((isSkyLine_iff w).1 h)
        simp [this]
    constructor
    · intro h
      rw [← Except.ok.inj h]
      exact ⟨rfl, rfl, rfl, rfl, rfl, hne.symm, by simp [hne], hpix⟩
    · intro h
      obtain ⟨a1, a2, a3, a4, a5, a6, a7, a8⟩ := h
      obtain ⟨w', f', i', r', h', b'⟩ := s'
      simp only at *
      subst a1 a2 a3 a4 a5
      congr 2
      apply List.ext_getElem?
      intro i
      by_cases hi : i < s.wave.length
      · have hi' : i < s.ivar.length := by omega
        obtain ⟨b1, b2⟩ := a8 i _ _ (List.getElem?_eq_getElem hi) (List.getElem?_eq_getElem hi')
        obtain ⟨c1, c2⟩ := hpix i _ _ (List.getElem?_eq_getElem hi) (List.getElem?_eq_getElem hi')
        by_cases hs : SkyLine s.wave[i]
        · rw [b1 hs, c1 hs]
        · rw [b2 hs, c2 hs]
      · rw [List.getElem?_eq_none (by simp; omega), List.getElem?_eq_none (by omega)]

theorem mask_iff {ω : Type} (no : Bool) (full used : List (Spectrum ω β K)) : (if no then return full else full.mapM skyMaskSpectrum : Py (List (Spectrum ω β K))) = .ok used ↔ SkyLinesMasked no full used := by
  unfold SkyLinesMasked
  cases no with
  | true =>
    simp only [if_true]
    exact ⟨fun h => (Except.ok.inj h).symm, fun h => by rw [h]; rfl⟩
  | false =>
    simp only [Bool.false_eq_true, if_false]
    constructor
    · intro h
      exact (mapM_inv _ _ _ h).imp (fun a b hab => (skyMaskSpectrum_iff a b).1 hab)
    · intro h
      exact mapM_of_forall₂ _ _ _ (h.imp (fun a b hab => (skyMaskSpectrum_iff a b).2 hab))

theorem mask_unique {ω : Type} (no : Bool) (full used used' : List (Spectrum ω β K)) (h : SkyLinesMasked no full used) (h' : SkyLinesMasked no full used') : used = used' := by
  have a := (mask_iff no full used).2 h
  rw [(mask_iff no full used').2 h'] at a
  exact (Except.ok.inj a).symm

theorem mask_grid {ω : Type} (no : Bool) (full used : List (Spectrum ω β K)) (h : SkyLinesMasked no full used) : ∀ s' ∈ used, ∃ s ∈ full, s'.wavehash = s.wavehash ∧ s'.wave = s.wave := by
  intro s' hs'
  unfold SkyLinesMasked at h
  split at h
  · subst h; exact ⟨s', hs', rfl, rfl⟩
  · obtain ⟨s, hs, hm⟩ := forall₂_right_mem h s' hs'
    exact ⟨s, hs, hm.wavehash, hm.wave⟩

theorem mask_length {ω : Type} (no : Bool) (full used : List (Spectrum ω β K)) (h : SkyLinesMasked no full used) : used.length = full.length := by
  unfold SkyLinesMasked at h
  split at h
  · rw [h]
  · exact h.length_eq.symm

theorem isFitted_fitPart (s : Spectrum β β K) : IsFitted s s.fitPart where
  grid := rfl
  flux := rfl
  ivar := rfl
  size := by simp [Spectrum.fitPart]
  rows := by intro i h; simp [Spectrum.fitPart]
  entry := by intro i j h h'; simp [Spectrum.fitPart]

theorem isFitted_unique (s : Spectrum β β K) (q : FitSpectrum β K) (h : IsFitted s q) : q = s.fitPart := by
  have h' := isFitted_fitPart s
  have hR : q.R = s.fitPart.R := by
    apply List.ext_getElem
    · rw [h.size, h'.size]
    · intro i h1 h2
      apply List.ext_getElem
      · rw [h.rows i h1, h'.rows i h2]
      · intro j h3 h4
        rw [h.entry i j h1 h3, h'.entry i j h2 h4]
  obtain ⟨a, b, c, d⟩ := q
  simp only at hR
  have e1 := h.grid
  have e2 := h.flux
  have e3 := h.ivar
  simp only at e1 e2 e3
  rw [hR, e1, e2, e3]
  rfl

theorem fitted_iff (full : List (Spectrum β β K)) (sp : List (FitSpectrum β K)) : List.Forall₂ IsFitted full sp ↔ sp = full.map Spectrum.fitPart := by
  constructor
  · intro h
    induction h with
    | nil => rfl
    | cons hab _ ih => rw [List.map_cons, ← ih, isFitted_unique _ _ hab]
  · rintro rfl
    rw [List.forall₂_map_right_iff, List.forall₂_same]
    exact fun s _ => isFitted_fitPart s

theorem local_spec (p : RrDesi β K) (files : List (DFile Int β K)) (hsq : ∀ f ∈ files, SqrtOn p.sqrt f) (harg : IsArgsort (fun a b => decide (a ≤ b)) p.argsort) (has : Bool) (hmask : UniformMask has files)
    (commSize : Option Nat) (rank : Nat) (t : List Int × List (Int × (List (FitSpectrum β K) × Unit))) (h : rrdesiLocal p files commSize rank = .ok t) :
    ∃ out, distTargetsDESI p.argsort p.sqrt p.opts files commSize rank = .ok out ∧ t.1 = selected p files ∧ t.2.map (·.1) = out.myIds ∧ ∀ e ∈ t.2, OwnSpectra p files e.1 e.2.1 := by
  unfold rrdesiLocal at h
  cases hd : distTargetsDESI p.argsort p.sqrt p.opts files commSize rank with
  | error e => rw [hd] at h; cases h
  | ok out =>
    rw [hd] at h
    simp only [bind, Except.bind] at h
    cases hm : out.data.mapM (fun d => (do
        let sp ← fittedSpectra p.resol p.opts p.noSkymask d
        return (d.id, (sp.map Spectrum.fitPart, ())) : Py (Int × (List (FitSpectrum β K) × Unit)))) with
    | error e => simp only [bind, Except.bind] at hm; rw [hm] at h; cases h
    | ok data =>
      have hm' := hm
      simp only [bind, Except.bind] at hm'
      rw [hm'] at h
      have ht := Except.ok.inj h
      subst ht
      refine ⟨out, rfl, (C54_target_order p.argsort harg p.sqrt p.opts files commSize rank out hd).1, ?_, ?_⟩
      · have hids : out.data.map (·.id) = out.myIds := by
          have := C47_any_masks p.argsort p.sqrt p.opts files hsq commSize rank out hd
          clear hm hm' h
          generalize out.myIds = a at *
          generalize out.data = b at *
          induction this with
          | nil => rfl
          | cons hab _ ih => rw [List.map_cons, hab.1, ih]
        rw [← hids]
        have hF := mapM_inv _ _ _ hm
        clear hm hm' h hids
        generalize out.data = b at *
        show data.map (·.1) = _
        induction hF with
        | nil => rfl
        | cons hab _ ih =>
          rw [List.map_cons, List.map_cons, ih]
          congr 1
          obtain ⟨sp, _, h2⟩ := Except.bind_ok _ _ _ hab
          rw [← Except.ok.inj h2]
      · intro e he
        have hF := mapM_inv _ _ _ hm
        obtain ⟨d, hd', hde⟩ := forall₂_right_mem hF e he
        obtain ⟨sp, h1, h2⟩ := Except.bind_ok _ _ _ hde
        have := C47_rows_reach_target_partial p.argsort p.sqrt p.opts files hsq has hmask commSize rank out hd
        obtain ⟨tid, _, hid, hslots⟩ := forall₂_right_mem this d hd'
        have h2' := Except.ok.inj h2
        subst h2'
        obtain ⟨full, k1, k2⟩ := Except.bind_ok _ _ _ h1
        exact ⟨d.spectra, full, sp, hid ▸ hslots, k1, (mask_iff _ _ _).1 k2, (fitted_iff _ _).2 rfl⟩

/-- the targets of a run: every selected target once, with its own spectra -/
structure TargetsOk (p : RrDesi β K) (files : List (DFile Int β K)) (targets : List (Int × (List (FitSpectrum β K) × Unit))) : Prop where
  nodup : (targets.map (·.1)).Nodup
  ids : (selected p files).Perm (targets.map (·.1))
  own : ∀ e ∈ targets, OwnSpectra p files e.1 e.2.1

/-- the targets that are fitted and how, after every rank has loaded its own -/
def Loaded (p : RrDesi β K) (files : List (DFile Int β K)) : RrDesiWay K → List (Int × (List (FitSpectrum β K) × Unit)) → RunWay Int (List (FitSpectrum β K) × Unit) K → Prop
  | .serial, targets, rw => ∃ t, rrdesiLocal p files none 0 = .ok t ∧ targets = t.2 ∧ rw = .serial
  | .mpi size log, targets, rw => ∃ ts, (List.range size).mapM (rrdesiLocal p files (some size)) = .ok ts ∧ targets = ts.flatMap (·.2) ∧ rw = .mpi (ts.map (·.2)) log

theorem loaded_ok (p : RrDesi β K) (files : List (DFile Int β K)) (way : RrDesiWay K) (hp : GoodStart p files (ways way)) (hr : PossibleRing p way) (targets : List (Int × (List (FitSpectrum β K) × Unit)))
    (rw' : RunWay Int (List (FitSpectrum β K) × Unit) K) (h : Loaded p files way targets rw') : TargetsOk p files targets ∧ PossibleWay p.fit targets rw' := by
  obtain ⟨has, hmask⟩ := hp.masks
  cases way with
  | serial =>
    obtain ⟨t, h1, rfl, rfl⟩ := h
    obtain ⟨out, g1, g2, g3, g4⟩ := local_spec p files hp.sqrt hp.argsort has hmask none 0 t h1
    obtain ⟨lists, k1, k2, k3, k4⟩ := C47_ranks_partition p.argsort hp.argsort p.sqrt p.opts files none (by decide) hp.capacities
    have hl : lists = [out.myIds] := by
      have := k4 0 out g1
      match lists, k1, this with
      | [x], _, h => simpa using h
    subst hl
    have hfl : [out.myIds].flatten = out.myIds := by simp
    rw [hfl] at k2 k3
    refine ⟨⟨g3 ▸ k3, ?_, g4⟩, trivial⟩
    rw [g3]
    exact k2.symm
  | mpi size log =>
    obtain ⟨ts, h1, rfl, rfl⟩ := h
    have hF := mapM_inv _ _ _ h1
    have hlen : ts.length = size := by rw [← hF.length_eq, List.length_range]
    obtain ⟨lists, k1, k2, k3, k4⟩ := C47_ranks_partition p.argsort hp.argsort p.sqrt p.opts files (some size) hr.1 hp.capacities
    have hget : ∀ r (hr : r < size), rrdesiLocal p files (some size) r = .ok (ts[r]'(by omega)) := by
      intro r hr
      have := (List.forall₂_iff_get.1 hF).2 r (by rw [List.length_range]; exact hr) (by omega)
      simpa using this
    have hl : lists = ts.map (fun t => t.2.map (·.1)) := by
      apply List.ext_getElem
      · rw [List.length_map, hlen]; exact k1
      · intro r hr1 hr2
        have hrs : r < size := by rw [List.length_map] at hr2; omega
        obtain ⟨out, g1, g2, g3, g4⟩ := local_spec p files hp.sqrt hp.argsort has hmask (some size) r _ (hget r hrs)
        have := k4 r out g1
        rw [List.getElem?_eq_getElem hr1] at this
        rw [List.getElem_map, g3]
        exact Option.some.inj this
    have hflat : (ts.flatMap (·.2)).map (·.1) = lists.flatten := by
      rw [hl, List.map_flatMap, List.flatMap_def]
    have hperm : (selected p files).Perm ((ts.flatMap (·.2)).map (·.1)) := by rw [hflat]; exact k2.symm
    have hnd : ((ts.flatMap (·.2)).map (·.1)).Nodup := by rw [hflat]; exact k3
    have hown : ∀ e ∈ ts.flatMap (·.2), OwnSpectra p files e.1 e.2.1 := by
      intro e he
      obtain ⟨t, ht, het⟩ := List.mem_flatMap.1 he
      obtain ⟨r, hrl, rfl⟩ := List.mem_iff_getElem.1 ht
      obtain ⟨out, g1, g2, g3, g4⟩ := local_spec p files hp.sqrt hp.argsort has hmask (some size) r _ (hget r (by omega))
      exact g4 e het
    refine ⟨⟨hnd, hperm, hown⟩, ?_⟩
    unfold PossibleWay
    constructor
    · rw [← List.flatMap_def]
    · rw [List.length_map, hlen]
      exact hr.2

theorem table_form (p : RrDesi β K) (files : List (DFile Int β K)) (way : RrDesiWay K) (hp : GoodStart p files (ways way)) (hr : PossibleRing p way) (rows : List (Int × Row K String)) :
    rrdesiTable p files way = .ok rows ↔ ∃ targets rw', Loaded p files way targets rw' ∧ fullCatalogue p.fit targets (selected p files) rw' = .ok rows := by
  obtain ⟨has, hmask⟩ := hp.masks
  cases way with
  | serial =>
    unfold rrdesiTable Loaded
    constructor
    · intro h
      obtain ⟨t, h1, h2⟩ := Except.bind_ok _ _ _ h
      obtain ⟨out, g1, g2, g3, g4⟩ := local_spec p files hp.sqrt hp.argsort has hmask none 0 t h1
      rw [g2] at h2
      exact ⟨_, _, ⟨t, h1, rfl, rfl⟩, h2⟩
    · rintro ⟨_, _, ⟨t, h1, rfl, rfl⟩, h2⟩
      obtain ⟨out, g1, g2, g3, g4⟩ := local_spec p files hp.sqrt hp.argsort has hmask none 0 t h1
      rw [h1, okBind, g2]
      exact h2
  | mpi size log =>
    have hmem : ∀ ts, (List.range size).mapM (rrdesiLocal p files (some size)) = .ok ts → ∃ t0, npGet ts 0 = .ok t0 ∧ t0.1 = selected p files := by
      intro ts hts
      have hF := mapM_inv _ _ _ hts
      have hpos := hr.1
      have hlen : ts.length = size := by rw [← hF.length_eq, List.length_range]
      have h0 : 0 < ts.length := by omega
      refine ⟨ts[0], (npGet_ok _ _ _).2 (List.getElem?_eq_getElem h0), ?_⟩
      obtain ⟨r, _, hrt⟩ := forall₂_right_mem hF ts[0] (List.getElem_mem h0)
      obtain ⟨out, g1, g2, g3, g4⟩ := local_spec p files hp.sqrt hp.argsort has hmask (some size) r _ hrt
      exact g2
    unfold rrdesiTable Loaded
    constructor
    · intro h
      obtain ⟨ts, h1, h2⟩ := Except.bind_ok _ _ _ h
      obtain ⟨t0, h3, h4⟩ := Except.bind_ok _ _ _ h2
      obtain ⟨t0', h5, h6⟩ := hmem ts h1
      rw [h3] at h5
      cases h5
      rw [h6] at h4
      exact ⟨_, _, ⟨ts, h1, rfl, rfl⟩, h4⟩
    · rintro ⟨_, _, ⟨ts, h1, rfl, rfl⟩, h2⟩
      obtain ⟨t0, h5, h6⟩ := hmem ts h1
      dsimp only
      rw [h1, okBind, h5, okBind, h6]
      exact h2

theorem run_targets (p : RrDesi β K) (files : List (DFile Int β K)) (way : RrDesiWay K) (hp : GoodStart p files (ways way)) (hr : PossibleRing p way) (rows : List (Int × Row K String))
    (h : rrdesiTable p files way = .ok rows) :
    ∃ targets rw', TargetsOk p files targets ∧ PossibleWay p.fit targets rw' ∧ fullCatalogue p.fit targets (selected p files) rw' = .ok rows := by
  obtain ⟨targets, rw', h1, h2⟩ := (table_form p files way hp hr rows).1 h
  obtain ⟨h3, h4⟩ := loaded_ok p files way hp hr targets rw' h1
  exact ⟨targets, rw', h3, h4, h2⟩

theorem combined_hashes (p : RrDesi β K) (specs : List (DSpec β K)) (full : List (Spectrum β β K)) (h : combined p specs = .ok full) : ∀ s ∈ full, s.wavehash ∈ specs.map (·.band) := by
  unfold combined at h
  obtain ⟨sp, h1, h2⟩ := Except.bind_ok _ _ _ h
  have hsp : ∀ s ∈ sp, s.wavehash ∈ specs.map (·.band) := by
    intro s hs
    obtain ⟨d, hd, hds⟩ := forall₂_right_mem (mapM_inv _ _ _ h1) s hs
    refine List.mem_map.2 ⟨d, hd, ?_⟩
    unfold toSpectrum at hds
    split at hds
    · rw [← Except.ok.inj hds]
    · cases hds
  split at h2
  · intro s hs
    unfold computeCoadd at h2
    obtain ⟨key, hk, hks⟩ := forall₂_right_mem (mapM_inv _ _ _ h2) s hs
    rw [firstSeen_eq, mem_distinctKeys] at hk
    obtain ⟨e, he, hek⟩ := List.mem_map.1 hk
    have : s.wavehash = key := by
      unfold coaddGroup at hks
      split at hks
      · cases hks
      · simp only at hks
        split at hks
        · cases hks
        · simp only [bind, Except.bind, pure, Except.pure] at hks
          split at hks
          · cases hks
          · split at hks
            · cases hks
            · rw [← Except.ok.inj hks]; rfl
    rw [this, ← hek]
    exact hsp e he
  · rw [← Except.ok.inj h2]
    exact hsp

theorem own_hashes (p : RrDesi β K) (files : List (DFile Int β K)) (tid : Int) (sp : List (FitSpectrum β K)) (h : OwnSpectra p files tid sp) : ∀ s ∈ sp, s.wavehash ∈ allBands files := by
  obtain ⟨specs, full, used, h1, h2, hu, h3⟩ := h
  obtain rfl := (fitted_iff _ _).1 h3
  intro s hs
  obtain ⟨q', hq', rfl⟩ := List.mem_map.1 hs
  obtain ⟨q, hq, hqq, _⟩ := mask_grid _ _ _ hu q' hq'
  obtain ⟨d, hd, hdb⟩ := List.mem_map.1 (combined_hashes p specs full h2 q hq)
  obtain ⟨slot, hslot, hh, _⟩ := forall₂_right_mem h1 d hd
  have hb : slot.2.1 = q.wavehash := by rw [← hh.band, hdb]
  unfold slotsOf at hslot
  obtain ⟨f, hf, hslot⟩ := List.mem_flatMap.1 hslot
  split at hslot
  · obtain ⟨b, hbm, hslot⟩ := List.mem_flatMap.1 hslot
    obtain ⟨i, _, rfl⟩ := List.mem_map.1 hslot
    rw [mem_distinctKeys] at hbm
    show q'.wavehash ∈ _
    rw [hqq, ← hb]
    exact List.mem_flatMap.2 ⟨f, hf, hbm⟩
  · simp at hslot

theorem goodRun_mono {ι ω σ M : Type} (c : FullCfg ι ω K σ) (grids grids' : List ω) (hsub : ∀ g ∈ grids', g ∈ grids) (h : GoodRun c grids) : GoodRun c grids' where
  names := h.names
  order := h.order
  scan := by
    intro t ht
    obtain ⟨g, hg⟩ := h.scan t ht
    exact ⟨g, fun b hb => hg.bin b (hsub b hb), hg.redshifts, hg.solver⟩

theorem targets_good (p : RrDesi β K) (files : List (DFile Int β K)) (hfit : GoodRun p.fit (allBands files)) (targets : List (Int × (List (FitSpectrum β K) × Unit))) (ht : TargetsOk p files targets) :
    GoodRun p.fit (gridsOf targets) := by
  refine goodRun_mono (M := Unit) p.fit (allBands files) _ ?_ hfit
  intro g hg
  unfold gridsOf at hg
  rw [firstSeen_eq, mem_distinctKeys, List.mem_flatMap] at hg
  obtain ⟨e, he, hg⟩ := hg
  obtain ⟨s, hs, rfl⟩ := List.mem_map.1 hg
  exact own_hashes p files e.1 e.2.1 (ht.own e he) s hs

theorem fibermap_eq (p : RrDesi β K) (files : List (DFile Int β K)) (fm : List (FiberRow Int)) (h : rrdesiFibermap p files = .ok fm) : fm = fibers p files := by
  unfold rrdesiFibermap at h
  obtain ⟨kept, h1, h2⟩ := Except.bind_ok _ _ _ h
  have h2' := Except.ok.inj h2
  subst h2'
  have hF := mapM_inv _ _ _ h1
  unfold fibers
  clear h h1 h2
  induction hF with
  | nil => rfl
  | cons hab _ ih =>
    rename_i f k fs ks _
    rw [List.zip_cons_cons, List.flatMap_cons, List.flatMap_cons, ih]
    congr 1
    have : k = Selection p.opts f := by
      unfold keepIds at hab
      dsimp only at hab
      split at hab
      · cases hab
      · simp only [bind, Except.bind, pure, Except.pure] at hab
        split at hab
        · cases hab
        · exact (Except.ok.inj hab).symm
    rw [this]

theorem goodNil : GoodNames [] where
  nodup := by decide
  notDropped := by decide

/-- **C119** Whatever `rrdesi` publishes, serial or on any number of ranks: one row per selected target, in the order of first appearance in the files; the row of a target is the first row of the measurement of
its own spectra, which are made of the rows with its TARGETID in the files and of nothing else, with the flags of its own fiber. -/
theorem C119_rows (p : RrDesi β K) (files : List (DFile Int β K)) (way : RrDesiWay K) (hp : GoodStart p files (ways way)) (hr : PossibleRing p way) (B : Tab K) (h : rrdesiCatalogue p files way = .ok B) :
    ∃ best, List.Forall₂ (IsRow p files) (selected p files) best ∧ B = publishedTable p.round32 [] best := by
  unfold rrdesiCatalogue at h
  obtain ⟨rows, h1, h2⟩ := Except.bind_ok _ _ _ h
  obtain ⟨fm, h3, h4⟩ := Except.bind_ok _ _ _ h2
  clear h h2
  rw [fibermap_eq p files fm h3] at h4
  obtain ⟨targets, rw', ht, hw, hrun⟩ := run_targets p files way hp hr rows h1
  have hg := targets_good p files hp.fit targets ht
  have hone := C118_one_per_target p.fit hp.nminima targets hg ht.nodup (selected p files) ht.ids rw' hw rows hrun
  obtain ⟨cat, hcatdef⟩ : ∃ cat, cat = (desiFlags p.mask (fibers p files) (rows.map (fun x => (⟨x.1, x.2, p.method x.2.spectype x.2.subtype⟩ : DesiRow K Int)))).map (fun r => (⟨r, [], [], []⟩ : CatRow K)) :=
    ⟨_, rfl⟩
  have h4' : desiZbest p.round32 (zfitTable [] cat) = .ok B := by rw [hcatdef]; exact h4
  clear h4
  have hcat : List.Forall₂ (fun x (r : CatRow K) => r.base = desiFlagRow p.mask (fibers p files) ⟨x.1, x.2, p.method x.2.spectype x.2.subtype⟩) rows cat := by
    rw [hcatdef]
    unfold desiFlags
    rw [List.map_map, List.map_map, List.forall₂_map_right_iff, List.forall₂_same]
    intro x _
    rfl
  have h5 : List.Forall₂ (fun x (r : CatRow K) => r.base = desiFlagRow p.mask (fibers p files) ⟨x.1, x.2, p.method x.2.spectype x.2.subtype⟩) (rows.filter (fun x => decide (x.2.znum = 0))) (bestOf cat) := by
    clear hone hrun h4' h1 hcatdef
    unfold bestOf
    induction hcat with
    | nil => exact List.Forall₂.nil
    | cons hab _ ih =>
      rename_i a b l r _
      have hz : b.base.row.znum = a.2.znum := by
        rw [hab]
        unfold desiFlagRow
        dsimp only
        split <;> rfl
      rw [List.filter_cons, List.filter_cons, hz]
      split
      · exact List.Forall₂.cons hab ih
      · exact ih
  have h6 : List.Forall₂ (IsRow p files) (selected p files) (bestOf cat) := by
    refine forall₂_compose ?_ hone h5
    rintro tid x r ⟨hx1, e, he, het, T, best, hT, hhd, hsame⟩ hb
    subst het
    exact ⟨e.2.1, ht.own e he, T, best, x.2, hT, hhd, hsame, by rw [hb, hx1]⟩
  refine ⟨bestOf cat, h6, ?_⟩
  have h7 := C118_rows p.round32 [] goodNil cat ?_
  · rw [h4'] at h7
    exact Except.ok.inj h7
  · intro hnil
    rw [hnil] at h6
    have hsel : selected p files = [] := List.forall₂_nil_right_iff.1 h6
    have htn : targets ≠ [] := ((C117_success p.fit targets hg ht.nodup (selected p files) ht.ids rw' hw).1 ⟨rows, hrun⟩).1
    have := ht.ids.length_eq
    rw [hsel] at this
    simp only [List.length_nil, List.length_map] at this
    exact htn (List.length_eq_zero_iff.1 this.symm)


/-! ### what a target's spectra are -/

/-- The two slots (file, band, row) hold the same: band, wavelengths, flux, inverse variance and resolution of the row, flagged pixels. -/
structure SameSlot (q q' : DFile Int β K × β × Nat) : Prop where
  band : q.2.1 = q'.2.1
  wave : ∀ w, (q.2.1, w) ∈ q.1.waveHdus ↔ (q'.2.1, w) ∈ q'.1.waveHdus
  flux : ∀ r, RowAt (q.1.flux q.2.1) q.2.2 r ↔ RowAt (q'.1.flux q'.2.1) q'.2.2 r
  ivar : ∀ r, RowAt (q.1.ivar q.2.1) q.2.2 r ↔ RowAt (q'.1.ivar q'.2.1) q'.2.2 r
  res : ∀ r, RowAt (q.1.res q.2.1) q.2.2 r ↔ RowAt (q'.1.res q'.2.1) q'.2.2 r
  mask : ∀ i, MaskedAt (q.1.mask q.2.1) q.2.2 i ↔ MaskedAt (q'.1.mask q'.2.1) q'.2.2 i

/-- no file has two wavelength HDUs of the same band -/
def OneGrid (files : List (DFile Int β K)) : Prop := ∀ f ∈ files, (f.waveHdus.map (·.1)).Nodup

theorem rowAt_unique {X : Type} {d : Option (List X)} {i : Nat} {x y : X} (h : RowAt d i x) (h' : RowAt d i y) : x = y := by
  obtain ⟨l, h1, h2⟩ := h
  obtain ⟨l', h1', h2'⟩ := h'
  rw [h1] at h1'
  cases h1'
  rw [h2] at h2'
  exact Option.some.inj h2'

theorem wave_unique {l : List (β × List K)} (hn : (l.map (·.1)).Nodup) {b : β} {w w' : List K} (h : (b, w) ∈ l) (h' : (b, w') ∈ l) : w = w' := by
  have := List.inj_on_of_nodup_map hn h h' rfl
  exact congrArg Prod.snd this

theorem spec_unique (nsig : K) {q q' : DFile Int β K × β × Nat} (hn : (q.1.waveHdus.map (·.1)).Nodup) (hs : SameSlot q q') {s s' : DSpec β K} (h : HoldsRow q s ∧ IvarExact nsig q s)
    (h' : HoldsRow q' s' ∧ IvarExact nsig q' s') : s = s' := by
  obtain ⟨⟨hb, hw, ⟨fr, hf, hfe⟩, ⟨rr, hr, hre⟩⟩, ⟨fr1, ir, iv, i1, i2, i3, i4, i5, i6⟩⟩ := h
  obtain ⟨⟨hb', hw', ⟨fr', hf', hfe'⟩, ⟨rr', hr', hre'⟩⟩, ⟨fr1', ir', iv', i1', i2', i3', i4', i5', i6'⟩⟩ := h'
  have e1 : fr = fr' := rowAt_unique hf ((hs.flux _).2 hf')
  have e2 : rr = rr' := rowAt_unique hr ((hs.res _).2 hr')
  have e3 : fr1 = fr1' := rowAt_unique i1 ((hs.flux _).2 i1')
  have e4 : ir = ir' := rowAt_unique i2 ((hs.ivar _).2 i2')
  subst e1 e2 e3 e4
  have e5 : s.wave = s'.wave := wave_unique hn hw ((hs.wave _).2 hw')
  have e6 : iv = iv' := by
    apply List.ext_getElem
    · rw [i5, i5']
    · intro k h1 h2
      have ha : k < fr1.length := by omega
      have hv : k < ir.length := by omega
      have h3 := i6 k _ _ (List.getElem?_eq_getElem ha) (List.getElem?_eq_getElem hv)
      have h4 := i6' k _ _ (List.getElem?_eq_getElem ha) (List.getElem?_eq_getElem hv)
      rw [List.getElem?_eq_getElem h1] at h3
      rw [List.getElem?_eq_getElem h2] at h4
      by_cases hm : MaskedAt (q.1.mask q.2.1) q.2.2 k
      · exact Option.some.inj ((h3.1 hm).trans (h4.1 ((hs.mask k).1 hm)).symm)
      · exact Option.some.inj ((h3.2 hm).trans (h4.2 (fun h => hm ((hs.mask k).2 h))).symm)
  subst e6
  obtain ⟨w, b, f, i, r⟩ := s
  obtain ⟨w', b', f', i', r'⟩ := s'
  simp only at *
  rw [hfe, hfe', i3, i3', hre, hre', e5, hb, hb', hs.band]

theorem slot_file {o : DOpts Int K} {tid : Int} {files : List (DFile Int β K)} {q : DFile Int β K × β × Nat} (h : q ∈ slotsOf o tid files) : q.1 ∈ files := by
  unfold slotsOf at h
  obtain ⟨f, hf, h⟩ := List.mem_flatMap.1 h
  split at h
  · obtain ⟨b, _, h⟩ := List.mem_flatMap.1 h
    obtain ⟨i, _, rfl⟩ := List.mem_map.1 h
    exact hf
  · simp at h

theorem specs_unique (nsig : K) {L L' : List (DFile Int β K × β × Nat)} (hn : ∀ q ∈ L, (q.1.waveHdus.map (·.1)).Nodup) (hs : List.Forall₂ SameSlot L L') : ∀ {specs specs' : List (DSpec β K)},
    List.Forall₂ (fun q s => HoldsRow q s ∧ IvarExact nsig q s) L specs → List.Forall₂ (fun q s => HoldsRow q s ∧ IvarExact nsig q s) L' specs' → specs = specs' := by
  induction hs with
  | nil => intro specs specs' h h'; cases h; cases h'; rfl
  | cons hab _ ih =>
    intro specs specs' h h'
    cases h with
    | cons h1 h2 =>
      cases h' with
      | cons h1' h2' =>
        rw [spec_unique nsig (hn _ (by simp)) hab h1 h1', ih (fun q hq => hn q (by simp [hq])) h2 h2']

theorem sameSlot_refl (q : DFile Int β K × β × Nat) : SameSlot q q := ⟨rfl, fun _ => Iff.rfl, fun _ => Iff.rfl, fun _ => Iff.rfl, fun _ => Iff.rfl, fun _ => Iff.rfl⟩

theorem own_unique (p p' : RrDesi β K) (hres : p'.resol = p.resol) (hsky : p'.noSkymask = p.noSkymask) (hco : p'.opts.coadd = p.opts.coadd) (hneg : p'.opts.negfluxNsig = p.opts.negfluxNsig) (hcos : p'.opts.cosmicsNsig = p.opts.cosmicsNsig)
    (files files' : List (DFile Int β K)) (hone : OneGrid files) (tid : Int) (hs : List.Forall₂ SameSlot (slotsOf p.opts tid files) (slotsOf p'.opts tid files')) (sp sp' : List (FitSpectrum β K))
    (h : OwnSpectra p files tid sp) (h' : OwnSpectra p' files' tid sp') : sp = sp' := by
  obtain ⟨specs, full, used, h1, h2, hu, h3⟩ := h
  obtain ⟨specs', full', used', h1', h2', hu', h3'⟩ := h'
  obtain rfl := (fitted_iff _ _).1 h3
  obtain rfl := (fitted_iff _ _).1 h3'
  rw [hneg] at h1'
  have := specs_unique p.opts.negfluxNsig (fun q hq => hone _ (slot_file hq)) hs h1 h1'
  subst this
  have hc : combined p' specs = combined p specs := by unfold combined; rw [hres, hco, hcos]
  rw [hc, h2] at h2'
  rw [hsky, ← Except.ok.inj h2'] at hu'
  rw [mask_unique _ _ _ _ hu hu']

theorem own_unique_same (p : RrDesi β K) (files : List (DFile Int β K)) (hone : OneGrid files) (tid : Int) (sp sp' : List (FitSpectrum β K)) (h : OwnSpectra p files tid sp) (h' : OwnSpectra p files tid sp') :
    sp = sp' := own_unique p p rfl rfl rfl rfl rfl files files hone tid (List.forall₂_same.2 (fun q _ => sameSlot_refl q)) sp sp' h h'

/-! ### the number of ranks -/

/-- Files that can be read: at least one, well formed, the selection inside every file, one wavelength HDU per band. -/
structure Readable (p : RrDesi β K) (files : List (DFile Int β K)) : Prop where
  nonempty : files ≠ []
  wellFormed : ∀ f ∈ files, WellFormed f
  oneGrid : OneGrid files
  selection : ∀ f ∈ files, p.opts.firstTarget.getD 0 + p.opts.nTarget.getD (p.opts.targetids.getD f.coaddIds).length ≤ (p.opts.targetids.getD f.coaddIds).length

theorem targets_perm (p : RrDesi β K) (files : List (DFile Int β K)) (hone : OneGrid files) (A B : List (Int × (List (FitSpectrum β K) × Unit))) (hA : TargetsOk p files A) (hB : TargetsOk p files B) :
    ∀ e, e ∈ A → e ∈ B := by
  intro e he
  have h1 : e.1 ∈ B.map (·.1) := hB.ids.mem_iff.1 (hA.ids.mem_iff.2 (List.mem_map_of_mem he))
  obtain ⟨e', he', hid⟩ := List.mem_map.1 h1
  have h2 := own_unique_same p files hone e.1 e.2.1 e'.2.1 (hA.own e he) (hid ▸ hB.own e' he')
  have : e = e' := by
    obtain ⟨a, b, c⟩ := e
    obtain ⟨a', b', c'⟩ := e'
    simp only at *
    rw [hid, h2]
  rw [this]
  exact he'

theorem catalogue_same (p : RrDesi β K) (files : List (DFile Int β K)) (hone : OneGrid files) (hfit : GoodRun p.fit (allBands files)) (A B : List (Int × (List (FitSpectrum β K) × Unit)))
    (hA : TargetsOk p files A) (hB : TargetsOk p files B) (wA wB : RunWay Int (List (FitSpectrum β K) × Unit) K) (hwA : PossibleWay p.fit A wA) (hwB : PossibleWay p.fit B wB) (rows : List (Int × Row K String)) :
    fullCatalogue p.fit A (selected p files) wA = .ok rows ↔ fullCatalogue p.fit B (selected p files) wB = .ok rows := by
  have hgA := targets_good p files hfit A hA
  have hgB := targets_good p files hfit B hB
  have hmem : ∀ e, e ∈ A ↔ e ∈ B := fun e => ⟨targets_perm p files hone A B hA hB e, targets_perm p files hone B A hB hA e⟩
  have h : ∀ cat, fullFits p.fit A (selected p files) wA = .ok cat ↔ fullFits p.fit B (selected p files) wB = .ok cat := by
    intro cat
    rw [fullFits_iff p.fit A hgA hA.nodup _ hA.ids wA hwA, fullFits_iff p.fit B hgB hB.nodup _ hB.ids wB hwB]
    have : IsMeasured p.fit A = IsMeasured p.fit B := by
      funext tid row
      unfold IsMeasured
      simp only [hmem]
    rw [this]
  unfold fullCatalogue
  cases h1 : fullFits p.fit A (selected p files) wA with
  | ok cat => rw [(h cat).1 h1]
  | error e =>
    cases h2 : fullFits p.fit B (selected p files) wB with
    | ok cat => rw [(h cat).2 h2] at h1; cases h1
    | error e' => simp [bind, Except.bind]

/-- if every selected target has its spectra, every rank can load its targets -/
theorem local_loads (p : RrDesi β K) (files : List (DFile Int β K)) (hf : Readable p files) (hsq : ∀ f ∈ files, SqrtOn p.sqrt f) (harg : IsArgsort (fun a b => decide (a ≤ b)) p.argsort) (has : Bool) (hmask : UniformMask has files)
    (commSize : Option Nat) (rank : Nat) (hn : rank < commSize.getD 1) (hcap : ∀ c, p.opts.capacities = some c → c.length = commSize.getD 1 ∧ ∀ x ∈ c, 0 < x)
    (hall : ∀ tid ∈ selected p files, ∃ sp, OwnSpectra p files tid sp) : ∃ t, rrdesiLocal p files commSize rank = .ok t := by
  obtain ⟨out, hout⟩ := C47_constructor_succeeds p.argsort harg p.sqrt p.opts files hsq hf.nonempty hf.wellFormed has hmask hf.selection commSize rank hn hcap
  have hslots := C47_rows_reach_target_partial p.argsort p.sqrt p.opts files hsq has hmask commSize rank out hout
  obtain ⟨lists, k1, k2, k3, k4⟩ := C47_ranks_partition p.argsort harg p.sqrt p.opts files commSize (by omega) hcap
  have hmine : ∀ t ∈ out.myIds, t ∈ selected p files := by
    intro t ht
    refine k2.mem_iff.1 (List.mem_flatten.2 ⟨out.myIds, List.mem_of_getElem? (k4 rank out hout), ht⟩)
  obtain ⟨data, hd, _⟩ := mapM_forall₂ (fun d : DTarget Int β K => (do
        let sp ← fittedSpectra p.resol p.opts p.noSkymask d
        return (d.id, (sp.map Spectrum.fitPart, ())) : Py (Int × (List (FitSpectrum β K) × Unit)))) (fun _ _ => True) out.data (by
    intro d hd
    obtain ⟨tid, htid, hid, hsl⟩ := forall₂_right_mem hslots d hd
    obtain ⟨sp, specs, full, used, h1, h2, hu, _⟩ := hall tid (hmine tid htid)
    have he : specs = d.spectra := specs_unique p.opts.negfluxNsig (fun q hq => hf.oneGrid _ (slot_file hq)) (List.forall₂_same.2 (fun q _ => sameSlot_refl q)) h1 hsl
    subst he
    have : fittedSpectra p.resol p.opts p.noSkymask d = .ok used := by
      unfold fittedSpectra
      rw [show finishTarget p.resol p.opts d = .ok full from h2, okBind]
      exact (mask_iff _ _ _).2 hu
    exact ⟨_, by rw [this]; rfl, trivial⟩)
  unfold rrdesiLocal
  rw [hout, okBind, hd]
  exact ⟨_, rfl⟩

theorem loaded_exists (p : RrDesi β K) (files : List (DFile Int β K)) (hf : Readable p files) (way : RrDesiWay K) (hp : GoodStart p files (ways way))
    (hall : ∀ tid ∈ selected p files, ∃ sp, OwnSpectra p files tid sp) : ∃ targets rw', Loaded p files way targets rw' := by
  obtain ⟨has, hmask⟩ := hp.masks
  cases way with
  | serial =>
    obtain ⟨t, ht⟩ := local_loads p files hf hp.sqrt hp.argsort has hmask none 0 (by decide) hp.capacities hall
    exact ⟨_, _, t, ht, rfl, rfl⟩
  | mpi size log =>
    obtain ⟨ts, hts, _⟩ := mapM_forall₂ (rrdesiLocal p files (some size)) (fun _ _ => True) (List.range size) (by
      intro r hr
      obtain ⟨t, ht⟩ := local_loads p files hf hp.sqrt hp.argsort has hmask (some size) r (List.mem_range.1 hr) hp.capacities hall
      exact ⟨t, ht, trivial⟩)
    exact ⟨_, _, ts, hts, rfl, rfl⟩

theorem table_ranks (p : RrDesi β K) (files : List (DFile Int β K)) (hf : Readable p files) (way way' : RrDesiWay K) (hp : GoodStart p files (ways way)) (hp' : GoodStart p files (ways way'))
    (hr : PossibleRing p way) (hr' : PossibleRing p way') (rows : List (Int × Row K String)) (h : rrdesiTable p files way = .ok rows) : rrdesiTable p files way' = .ok rows := by
  obtain ⟨A, wA, hA, hwA, h1⟩ := run_targets p files way hp hr rows h
  obtain ⟨B, wB, hB⟩ := loaded_exists p files hf way' hp' (by
    intro tid htid
    obtain ⟨e, he, rfl⟩ := List.mem_map.1 (hA.ids.mem_iff.1 htid)
    exact ⟨_, hA.own e he⟩)
  obtain ⟨g1, g2⟩ := loaded_ok p files way' hp' hr' B wB hB
  exact (table_form p files way' hp' hr' rows).2 ⟨B, wB, hB, (catalogue_same p files hf.oneGrid hp.fit A B hA g1 wA wB hwA g2 rows).1 h1⟩

/-- **C119** On readable files the published catalogue does not depend on whether `rrdesi` runs in one process or on how many MPI ranks, nor on the schedule of the ring: it is the same table, or all fail. -/
theorem C119_ranks (p : RrDesi β K) (files : List (DFile Int β K)) (hf : Readable p files) (way way' : RrDesiWay K) (hp : GoodStart p files (ways way)) (hp' : GoodStart p files (ways way'))
    (hr : PossibleRing p way) (hr' : PossibleRing p way') (B : Tab K) : rrdesiCatalogue p files way = .ok B ↔ rrdesiCatalogue p files way' = .ok B := by
  have key : ∀ way way', GoodStart p files (ways way) → GoodStart p files (ways way') → PossibleRing p way → PossibleRing p way' → rrdesiCatalogue p files way = .ok B → rrdesiCatalogue p files way' = .ok B := by
    intro way way' hp hp' hr hr' h
    unfold rrdesiCatalogue at h ⊢
    obtain ⟨rows, h1, h2⟩ := Except.bind_ok _ _ _ h
    rw [table_ranks p files hf way way' hp hp' hr hr' rows h1, okBind]
    exact h2
  exact ⟨key way way' hp hp' hr hr', key way' way hp' hp hr' hr⟩

/-! ### one target does not depend on the others -/

/-- The two published rows say the same about the same target: all columns are the same, of `coeff` the first `ncoeff` entries (the rest is padding). -/
def SamePublished (r r' : CatRow K) : Prop := r.base.targetid = r'.base.targetid ∧ r.base.fitmethod = r'.base.fitmethod ∧ SameMeasurement r.base.row r'.base.row

theorem isinSel_same (fm fm' : List (FiberRow Int)) (tid : Int) (h : ∀ x, x.targetid = tid → (x ∈ fm ↔ x ∈ fm')) (sel : FiberRow Int → Bool) : isinSel fm sel tid = isinSel fm' sel tid := by
  unfold isinSel
  rw [Bool.eq_iff_iff]
  simp only [List.any_eq_true, decide_eq_true_eq, List.mem_map, List.mem_filter]
  constructor
  · rintro ⟨u, ⟨x, ⟨hx, hs⟩, rfl⟩, hu⟩
    exact ⟨_, ⟨x, ⟨(h x hu).1 hx, hs⟩, rfl⟩, hu⟩
  · rintro ⟨u, ⟨x, ⟨hx, hs⟩, rfl⟩, hu⟩
    exact ⟨_, ⟨x, ⟨(h x hu).2 hx, hs⟩, rfl⟩, hu⟩

theorem flag_same (m : FiberMask) (fm fm' : List (FiberRow Int)) (tid : Int) (h : ∀ x, x.targetid = tid → (x ∈ fm ↔ x ∈ fm')) (a b : Row K String) (hab : SameMeasurement a b) (method : String) :
    (desiFlagRow m fm ⟨tid, a, method⟩).targetid = (desiFlagRow m fm' ⟨tid, b, method⟩).targetid ∧ (desiFlagRow m fm ⟨tid, a, method⟩).fitmethod = (desiFlagRow m fm' ⟨tid, b, method⟩).fitmethod ∧
      SameMeasurement (desiFlagRow m fm ⟨tid, a, method⟩).row (desiFlagRow m fm' ⟨tid, b, method⟩).row := by
  unfold desiFlagRow
  dsimp only
  simp only [isinSel_same fm fm' tid h]
  obtain ⟨h1, h2⟩ := hab
  have hz : a.zwarn = b.zwarn := by rw [h1]
  rw [hz]
  split
  · refine ⟨rfl, rfl, ?_, ?_⟩
    · dsimp only
      rw [h1]
    · dsimp only
      rw [← List.map_take, ← List.map_take, h2]
  · refine ⟨rfl, rfl, ?_, ?_⟩
    · dsimp only
      rw [h1]
    · exact h2

theorem isRow_same (p p' : RrDesi β K) (hfit : p'.fit = p.fit) (hmask : p'.mask = p.mask) (hmeth : p'.method = p.method) (hres : p'.resol = p.resol) (hsky : p'.noSkymask = p.noSkymask) (hco : p'.opts.coadd = p.opts.coadd)
    (hneg : p'.opts.negfluxNsig = p.opts.negfluxNsig) (hcos : p'.opts.cosmicsNsig = p.opts.cosmicsNsig)
    (files files' : List (DFile Int β K)) (hone : OneGrid files) (tid : Int) (hs : List.Forall₂ SameSlot (slotsOf p.opts tid files) (slotsOf p'.opts tid files'))
    (hfib : ∀ x, x.targetid = tid → (x ∈ fibers p files ↔ x ∈ fibers p' files')) (r r' : CatRow K) (h : IsRow p files tid r) (h' : IsRow p' files' tid r') : SamePublished r r' := by
  obtain ⟨sp, hsp, T, best, row, h1, h2, h3, h4⟩ := h
  obtain ⟨sp', hsp', T', best', row', h1', h2', h3', h4'⟩ := h'
  have := own_unique p p' hres hsky hco hneg hcos files files' hone tid hs sp sp' hsp hsp'
  subst this
  rw [hfit, h1] at h1'
  cases h1'
  rw [h2] at h2'
  cases h2'
  have hsm : SameMeasurement row row' := by
    have := sameMeasurement_of (List.Forall₂.cons h3 .nil) (List.Forall₂.cons h3' .nil)
    cases this
    assumption
  have ht : row.spectype = row'.spectype ∧ row.subtype = row'.subtype := by
    rw [hsm.1]
    exact ⟨rfl, rfl⟩
  have := flag_same p.mask (fibers p files) (fibers p' files') tid hfib row row' hsm (p.method row.spectype row.subtype)
  unfold SamePublished
  rw [h4, h4', hmask, hmeth, ← ht.1, ← ht.2]
  exact this

/-- **C119** What is published about a target depends on nothing but that target's own rows: two runs, on different files, with different selections of targets and different numbers of ranks, in which the rows of the
target and of its fiber are the same, publish the same about it. -/
theorem C119_isolated (p : RrDesi β K) (o' : DOpts Int K) (fm' : DFile Int β K → List (FiberRow Int)) (p' : RrDesi β K) (hp' : p' = { p with opts := o', fibermap := fm' }) (hco : o'.coadd = p.opts.coadd)
    (hneg : o'.negfluxNsig = p.opts.negfluxNsig) (hcos : o'.cosmicsNsig = p.opts.cosmicsNsig) (files files' : List (DFile Int β K)) (hone : OneGrid files) (way way' : RrDesiWay K)
    (hg : GoodStart p files (ways way)) (hg' : GoodStart p' files' (ways way')) (hr : PossibleRing p way) (hr' : PossibleRing p' way') (B B' : Tab K) (h : rrdesiCatalogue p files way = .ok B)
    (h' : rrdesiCatalogue p' files' way' = .ok B') (tid : Int) (hin : tid ∈ selected p files) (hin' : tid ∈ selected p' files')
    (hs : List.Forall₂ SameSlot (slotsOf p.opts tid files) (slotsOf o' tid files')) (hfib : ∀ x, x.targetid = tid → (x ∈ fibers p files ↔ x ∈ fibers p' files')) :
    ∃ best best', B = publishedTable p.round32 [] best ∧ B' = publishedTable p.round32 [] best' ∧ best.map (·.base.targetid) = selected p files ∧ best'.map (·.base.targetid) = selected p' files' ∧
      ∃ r ∈ best, ∃ r' ∈ best', r.base.targetid = tid ∧ SamePublished r r' := by
  subst hp'
  obtain ⟨best, h1, h2⟩ := C119_rows p files way hg hr B h
  obtain ⟨best', h1', h2'⟩ := C119_rows _ files' way' hg' hr' B' h'
  have hid : ∀ (p : RrDesi β K) (files : List (DFile Int β K)) tid (r : CatRow K), IsRow p files tid r → r.base.targetid = tid := by
    rintro p files tid r ⟨sp, _, T, b, row, _, _, _, h⟩
    rw [h]
    unfold desiFlagRow
    dsimp only
    split <;> rfl
  have hids : ∀ (p : RrDesi β K) (files : List (DFile Int β K)) (l : List Int) (best : List (CatRow K)), List.Forall₂ (IsRow p files) l best → best.map (·.base.targetid) = l := by
    intro p files l best h
    induction h with
    | nil => rfl
    | cons hab _ ih => rw [List.map_cons, ih, hid _ _ _ _ hab]
  obtain ⟨r, hrm, hrr⟩ := forall₂_left_mem h1 tid hin
  obtain ⟨r', hrm', hrr'⟩ := forall₂_left_mem h1' tid hin'
  exact ⟨best, best', h2, h2', hids _ _ _ _ h1, hids _ _ _ _ h1', r, hrm, r', hrm', hid _ _ _ _ hrr,
    isRow_same p { p with opts := o', fibermap := fm' } rfl rfl rfl rfl rfl hco hneg hcos files files' hone tid hs hfib r r' hrr hrr'⟩

/-! ### examples -/

namespace Ex

/-- exposures: target 7 twice, target 5 once; one pixel of the second exposure of 7 is not finite -/
def file1 : DFile Int Unit ℚ where
  coadded := false
  coaddIds := [7, 5]
  expIds := [7, 5, 7]
  waveHdus := [((), [1, 2])]
  flux := fun _ => some [[some 3, some 1], [some (-1), some (1 / 2)], [some 3, none]]
  ivar := fun _ => some [[some 1, some 1], [some 1, some 1], [some 1, some 1]]
  mask := fun _ => some [[0, 0], [0, 0], [0, 0]]
  res := fun _ => some [[[1, 1]], [[1, 1]], [[1, 1]]]

/-- a coadd of target 7 with a flagged pixel -/
def file2 : DFile Int Unit ℚ where
  coadded := true
  coaddIds := [7]
  expIds := [7, 7]
  waveHdus := [((), [1, 2])]
  flux := fun _ => some [[some 100, some 1]]
  ivar := fun _ => some [[some 1, some 1]]
  mask := fun _ => some [[3, 0]]
  res := fun _ => some [[[1, 1]]]

/-- target 5 alone, with the row it has in `file1` -/
def file3 : DFile Int Unit ℚ where
  coadded := true
  coaddIds := [5]
  expIds := [5]
  waveHdus := [((), [1, 2])]
  flux := fun _ => some [[some (-1), some (1 / 2)]]
  ivar := fun _ => some [[some 1, some 1]]
  mask := fun _ => some [[0, 0]]
  res := fun _ => some [[[1, 1]]]

def opts : DOpts Int ℚ := { targetids := none, firstTarget := none, nTarget := none, coadd := true, negfluxNsig := 5, cosmicsNsig := 0, capacities := none }

/-- the run of `Zbest.Ex`; the fiber of target 7 is at a poor position -/
def run : RrDesi Unit ℚ where
  argsort := exSort
  sqrt := fun x => x
  resol := fun r => ⟨[0], r⟩
  opts := opts
  fit := Zbest.Ex.run
  mask := ⟨1, 2, 4, 8, []⟩
  fibermap := fun f => f.coaddIds.map (fun t => ⟨t, if t = 7 then 1 else 0, "TGT"⟩)
  method := fun _ _ => "PCA"
  noSkymask := false
  round32 := fun x => x

/-- a file of rows of two pixels and inverse variances 1 -/
theorem sqrt_ok : ∀ f ∈ [file1, file2, file3], SqrtOn (fun x : ℚ => x) f := by
  intro f hf b i ir v hir hv _
  have : ∀ x ∈ ir, x = some 1 := by
    simp only [List.mem_cons, List.not_mem_nil, or_false] at hf
    rcases hf with rfl | rfl | rfl <;>
    · obtain ⟨l, hl, h⟩ := hir
      cases hl
      have := List.mem_of_getElem? h
      simp only [List.mem_cons, List.not_mem_nil, or_false, or_self] at this
      subst this
      intro x hx
      simpa using hx
  have := Option.some.inj (this _ hv)
  subst this
  norm_num

theorem fit_good (files : List (DFile Int Unit ℚ)) : GoodRun Zbest.Ex.run (allBands files) := by
  refine goodRun_mono (M := Unit) _ (gridsOf Zbest.Ex.targets) _ ?_ Zbest.Ex.good
  rintro ⟨⟩ _
  decide

theorem start_good (files : List (DFile Int Unit ℚ)) (hsub : ∀ f ∈ files, f ∈ [file1, file2, file3]) (size : Nat) : GoodStart run files size where
  argsort := stableArgsort_isArgsort _ (fun a b c => by simpa using le_trans) (fun a b => by simpa using le_total a b)
  sqrt := fun f hf => sqrt_ok f (hsub f hf)
  masks := by
    refine ⟨true, ?_⟩
    intro f hf b _
    have := hsub f hf
    simp only [List.mem_cons, List.not_mem_nil, or_false] at this
    rcases this with rfl | rfl | rfl <;> rfl
  fit := fit_good files
  nminima := by decide
  capacities := by
    intro c hc
    cases hc

theorem rows_two {X : Type} {l : List (List X)} (h : ∀ r ∈ l, r.length = 2) {i : Nat} {r : List X} (hr : RowAt (some l) i r) : r.length = 2 := by
  obtain ⟨l', hl, h1⟩ := hr
  cases hl
  exact h r (List.mem_of_getElem? h1)

theorem readable (files : List (DFile Int Unit ℚ)) (hne : files ≠ []) (hsub : ∀ f ∈ files, f ∈ [file1, file2, file3]) : Readable run files where
  nonempty := hne
  wellFormed := by
    intro f hf
    have := hsub f hf
    simp only [List.mem_cons, List.not_mem_nil, or_false] at this
    rcases this with rfl | rfl | rfl <;>
    exact {
      flux := fun b _ => ⟨_, rfl, rfl⟩
      ivar := fun b _ => ⟨_, rfl, rfl⟩
      res := fun b _ => ⟨_, rfl, rfl⟩
      ivarRow := fun b i fr ir h1 h2 => (rows_two (by simp) h2).trans (rows_two (by simp) h1).symm
      mask := fun b m hm => by cases hm; rfl
      maskRow := fun b i fr mr h1 h2 => (rows_two (by simp) h2).trans (rows_two (by simp) h1).symm }
  oneGrid := by
    intro f hf
    have := hsub f hf
    simp only [List.mem_cons, List.not_mem_nil, or_false] at this
    rcases this with rfl | rfl | rfl <;> decide
  selection := by
    intro f hf
    show 0 + (f.coaddIds).length ≤ (f.coaddIds).length
    omega

/-- columns of the published catalogue -/
def brief (B : Tab ℚ) : Py (List (List (TabCell ℚ))) := ["TARGETID", "Z", "ZWARN", "SPECTYPE", "COEFF"].mapM (fun n => B.col n.toList)

theorem serial12 : ((rrdesiCatalogue run [file1, file2] .serial).bind brief) =
    .ok [[.int 7, .int 5], [.flt 2, .flt 1], [.int 2054, .int 6], [.str "QSO".toList, .str "STAR".toList], [.arr [1], .arr [-1]]] := by
  decide +kernel

theorem serial3 : ((rrdesiCatalogue run [file3] .serial).bind brief) =
    .ok [[.int 5], [.flt 1], [.int 6], [.str "STAR".toList], [.arr [-1]]] := by
  decide +kernel

/-- two ranks: a ring schedule exists, and the catalogue is the one of the serial run -/
example : ∃ log, PossibleRing run (.mpi 2 log) ∧ ∃ B, rrdesiCatalogue run [file1, file2] (.mpi 2 log) = .ok B ∧ rrdesiCatalogue run [file1, file2] .serial = .ok B := by
  obtain ⟨l, hl⟩ := ringRun_exists ([0, 1, 2, 3, 4] : List ℚ) 2 (by decide) (fun r => ⟨r, if r = 0 then [0, 1, 2] else [3, 4]⟩) (by
    intro r hr
    have : r = 0 ∨ r = 1 := by omega
    rcases this with rfl | rfl <;> rfl)
  have hring : PossibleRing run (.mpi 2 (fun _ => l)) := by
    refine ⟨by decide, ?_⟩
    intro t ht
    have ht' : t ∈ Zbest.Ex.run.templates := ht
    simp only [Zbest.Ex.run, List.mem_cons, List.not_mem_nil, or_false] at ht'
    rcases ht' with rfl | rfl
    · exact hl
    · exact hl
  refine ⟨_, hring, ?_⟩
  have hsub : ∀ f ∈ [file1, file2], f ∈ [file1, file2, file3] := by
    intro f hf
    simp only [List.mem_cons, List.not_mem_nil, or_false] at hf ⊢
    rcases hf with rfl | rfl <;> simp
  cases hB : rrdesiCatalogue run [file1, file2] .serial with
  | error e =>
    have := serial12
    rw [hB] at this
    cases this
  | ok B => exact ⟨B, (C119_ranks run [file1, file2] (readable _ (by simp) hsub) .serial (.mpi 2 (fun _ => l)) (start_good _ hsub _) (start_good _ hsub _) trivial hring B).1 hB, rfl⟩

/-- target 5 has the same row in the other file: the conditions of `C119_isolated` are met -/
example : List.Forall₂ SameSlot (slotsOf run.opts 5 [file1, file2]) (slotsOf opts 5 [file3]) ∧ (∀ x, x.targetid = 5 → (x ∈ fibers run [file1, file2] ↔ x ∈ fibers run [file3])) ∧
    5 ∈ selected run [file1, file2] ∧ 5 ∈ selected run [file3] := by
  refine ⟨?_, ?_, by decide, by decide⟩
  · have h1 : slotsOf run.opts 5 [file1, file2] = [(file1, (), 1)] := rfl
    have h2 : slotsOf opts 5 [file3] = [(file3, (), 0)] := rfl
    rw [h1, h2]
    refine .cons ?_ .nil
    refine ⟨rfl, fun _ => Iff.rfl, ?_, ?_, ?_, ?_⟩
    · exact fun r => ⟨fun ⟨l, h, h'⟩ => by cases h; exact ⟨_, rfl, h'⟩, fun ⟨l, h, h'⟩ => by cases h; exact ⟨_, rfl, h'⟩⟩
    · exact fun r => ⟨fun ⟨l, h, h'⟩ => by cases h; exact ⟨_, rfl, h'⟩, fun ⟨l, h, h'⟩ => by cases h; exact ⟨_, rfl, h'⟩⟩
    · exact fun r => ⟨fun ⟨l, h, h'⟩ => by cases h; exact ⟨_, rfl, h'⟩, fun ⟨l, h, h'⟩ => by cases h; exact ⟨_, rfl, h'⟩⟩
    · exact fun i => ⟨fun ⟨m, k, ⟨l, h, h'⟩, g⟩ => by cases h; exact ⟨m, k, ⟨_, rfl, h'⟩, g⟩, fun ⟨m, k, ⟨l, h, h'⟩, g⟩ => by cases h; exact ⟨m, k, ⟨_, rfl, h'⟩, g⟩⟩
  · intro x hx
    have h1 : fibers run [file1, file2] = [⟨7, 1, "TGT"⟩, ⟨5, 0, "TGT"⟩, ⟨7, 1, "TGT"⟩] := rfl
    have h2 : fibers run [file3] = [⟨5, 0, "TGT"⟩] := rfl
    rw [h1, h2]
    simp only [List.mem_cons, List.not_mem_nil, or_false]
    constructor
    · rintro (rfl | rfl | rfl)
      · simp at hx
      · rfl
      · simp at hx
    · rintro rfl
      simp

end Ex

end RrDesiRun
end Redrock
