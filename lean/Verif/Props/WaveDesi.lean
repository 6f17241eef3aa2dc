import Verif.Props.Wave

/-! Property C120 for `rrdesi`: from the files to the catalogue, with the wavelengths of the files. -/
set_option linter.unusedSectionVars false
namespace Redrock
namespace Wave
open FullRun Catalogue Run RrDesiRun

section
variable {ι κ K σ M : Type} [DecidableEq ι] [DecidableEq κ] [Field K] [LinearOrder K] [IsStrictOrderedRing K]

/-- the template on the grid that belongs to a hash -/
def onWave (waveOf : κ → List K) (tm : Tmpl (List K) K σ) : Tmpl κ K σ where
  spectype := tm.spectype
  subtype := tm.subtype
  isStar := tm.isStar
  redshifts := tm.redshifts
  nbasis := tm.nbasis
  algorithm := tm.algorithm
  oii := tm.oii
  bin := fun h zs => tm.bin (waveOf h) zs

/-- the settings with the templates on the grids that belong to the hashes -/
def banded (waveOf : κ → List K) (c : FullCfg ι (List K) K σ) : FullCfg ι κ K σ where
  templates := c.templates.map (fun t => (t.1, onWave waveOf t.2))
  order := c.order
  argsort := c.argsort
  minfit := c.minfit
  nz := c.nz
  nminima := c.nminima
  S := c.S
  prior := c.prior
  le := c.le

def forget (t : ι × (List (WSpectrum κ K) × M)) : ι × (List (FitSpectrum κ K) × M) := (t.1, t.2.1.map (·.toFitSpectrum), t.2.2)

def forgetWay : RunWay ι (List (WSpectrum κ K) × M) K → RunWay ι (List (FitSpectrum κ K) × M) K
  | .serial => .serial
  | .mpi locs log => .mpi (locs.map (List.map forget)) log

theorem get?_mapVal {κ ν ν' : Type} [DecidableEq κ] (f : ν → ν') (d : PyDict κ ν) (k : κ) : PyDict.get? (d.map (fun t => (t.1, f t.2)) : PyDict κ ν') k = (d.get? k).map f := by
  induction d with
  | nil => rfl
  | cons a d ih =>
    rw [List.map_cons, PyDict.get?_cons, PyDict.get?_cons, ih]
    by_cases h : a.1 = k <;> simp [h]

theorem banded_get (waveOf : κ → List K) (c : FullCfg ι (List K) K σ) (k : PyStr) : (banded waveOf c).templates.get k = (c.templates.get k).map (onWave waveOf) := by
  unfold PyDict.get banded
  simp only
  rw [get?_mapVal]
  cases c.templates.get? k <;> rfl

theorem banded_runTemplates (waveOf : κ → List K) (c : FullCfg ι (List K) K σ) : (banded waveOf c).runTemplates = c.runTemplates := by
  unfold FullCfg.runTemplates banded
  simp only [List.map_map]
  rfl

theorem banded_runSorted (waveOf : κ → List K) (c : FullCfg ι (List K) K σ) : (banded waveOf c).runSorted = c.runSorted := by
  unfold FullCfg.runSorted banded
  simp only
  congr 1
  funext ft
  rw [get?_mapVal]
  cases c.templates.get? ft <;> rfl

theorem bin_onGrids (waveOf : κ → List K) (d : PyDict κ (List K)) (tm : Tmpl (List K) K σ) (h : κ) (hd : d.get? h = some (waveOf h)) (zs : List K) : (onGrids d tm).bin h zs = (onWave waveOf tm).bin h zs := by
  unfold onGrids onWave PyDict.get
  simp only [hd]
  rfl

theorem binAll_onWave (waveOf : κ → List K) (d : PyDict κ (List K)) (tm : Tmpl (List K) K σ) (sp : List (FitSpectrum κ K)) (hd : ∀ s ∈ sp, d.get? s.wavehash = some (waveOf s.wavehash)) (zs : List K) :
    binAll (onGrids d tm) (hashesOf sp) zs = binAll (onWave waveOf tm) (hashesOf sp) zs := by
  unfold binAll
  apply mapM_congr'
  intro h hh
  obtain ⟨s, hs, rfl⟩ := (mem_hashesOf sp h).1 hh
  rw [bin_onGrids waveOf d tm _ (hd s hs)]

theorem fitEnv_onWave (waveOf : κ → List K) (minfit : List K → List K → Py (K × K × K × Nat)) (nz : Nat) (S : Solvers K) (d : PyDict κ (List K)) (tm : Tmpl (List K) K σ) (sp : List (FitSpectrum κ K))
    (hd : ∀ s ∈ sp, d.get? s.wavehash = some (waveOf s.wavehash)) : fitEnvOf minfit nz S (onGrids d tm) sp = fitEnvOf minfit nz S (onWave waveOf tm) sp := by
  unfold fitEnvOf
  have h1 : fineScan S (onGrids d tm) sp = fineScan S (onWave waveOf tm) sp := by
    funext zz
    unfold fineScan
    rw [binAll_onWave waveOf d tm sp hd]
    rfl
  have h2 : fitAtZ S (onGrids d tm) sp = fitAtZ S (onWave waveOf tm) sp := by
    funext z
    unfold fitAtZ
    rw [binAll_onWave waveOf d tm sp hd]
    rfl
  rw [h1, h2]
  rfl

/-- the wavelengths are those that belong to the hashes -/
def Follows (waveOf : κ → List K) (targets : List (ι × (List (WSpectrum κ K) × M))) : Prop := ∀ t ∈ targets, ∀ s ∈ t.2.1, s.wave = waveOf s.wavehash

theorem Follows.same {waveOf : κ → List K} {targets : List (ι × (List (WSpectrum κ K) × M))} (h : Follows waveOf targets) : SameGrids targets := by
  intro t ht t' ht' s hs s' hs' e
  rw [h t ht s hs, h t' ht' s' hs', e]

theorem scanSlice_banded (waveOf : κ → List K) (S : Solvers K) (tm : Tmpl (List K) K σ) (targets : List (ι × (List (WSpectrum κ K) × M))) (hf : Follows waveOf targets) (d : PyDict κ (List K))
    (hd : GridsOf d (wavePairs targets)) (g : κ → K → List (List K)) (hg : Scannable S (onWave waveOf tm) (gridsOf (targets.map forget)) g) (t : ι × (List (WSpectrum κ K) × M)) (ht : t ∈ targets) (zs : List K)
    (hne : zs ≠ []) (hz : ∀ z ∈ zs, z ∈ tm.redshifts) :
    scanSlice S (onGrids d tm) d.keys (t.2.1.map (·.toFitSpectrum)) zs = scanSlice S (onWave waveOf tm) (gridsOf (targets.map forget)) (t.2.1.map (·.toFitSpectrum)) zs := by
  have hmem : ∀ t ∈ targets, ∀ s ∈ t.2.1, s.wavehash ∈ gridsOf (targets.map forget) := by
    intro t ht s hs
    exact mem_gridsOf (targets.map forget) (forget t) (List.mem_map.2 ⟨t, ht, rfl⟩) s.toFitSpectrum (List.mem_map.2 ⟨s, hs, rfl⟩)
  have hsc : Scannable S (onGrids d tm) d.keys g := by
    refine ⟨?_, hg.redshifts, hg.solver⟩
    intro h hh zs hne hz
    obtain ⟨w, hw⟩ := Option.isSome_iff_exists.1 ((mem_keys d h).1 hh)
    obtain ⟨t', ht', s', hs', e1, e2⟩ := (mem_wavePairs _ _ _).1 (hd.vals _ _ hw)
    rw [bin_onGrids waveOf d tm h (by rw [hw, ← e2, hf t' ht' s' hs', e1])]
    exact hg.bin h (by rw [← e1]; exact hmem t' ht' s' hs') zs hne hz
  rw [scanSlice_eq S (onGrids d tm) d.keys g hsc _ (by
      intro s hs
      obtain ⟨s', hs', rfl⟩ := List.mem_map.1 hs
      rw [mem_keys, get_own targets hf.same d hd t ht s' hs']; rfl) zs hne hz,
    scanSlice_eq S (onWave waveOf tm) _ g hg _ (by
      intro s hs
      obtain ⟨s', hs', rfl⟩ := List.mem_map.1 hs
      exact hmem t ht s' hs') zs hne hz]
  rfl

theorem waveRank_banded (waveOf : κ → List K) (c : FullCfg ι (List K) K σ) (targets : List (ι × (List (WSpectrum κ K) × M))) (hf : Follows waveOf targets) (d : PyDict κ (List K)) (hd : GridsOf d (wavePairs targets))
    (hc : GoodRun (banded waveOf c) (gridsOf (targets.map forget))) (loc : List (ι × (List (WSpectrum κ K) × M))) (hl : ∀ t ∈ loc, t ∈ targets) (pieces : RunTemplate K → List (Piece K))
    (hp : ∀ t ∈ c.templates, GoodPieces t.2 (pieces ⟨t.1, t.2.redshifts⟩)) :
    waveRank c d loc pieces = fullRank (banded waveOf c) (gridsOf (targets.map forget)) (loc.map forget) pieces := by
  unfold waveRank fullRank
  have e1 : (loc.map forget).map (·.1) = loc.map (·.1) := by rw [List.map_map]; rfl
  have e2 : (loc.map forget).map (·.2) = (loc.map (·.2)).map (fun t : List (WSpectrum κ K) × M => (t.1.map (·.toFitSpectrum), t.2)) := by rw [List.map_map, List.map_map]; rfl
  rw [e1, e2, banded_runTemplates, banded_runSorted]
  have hnames : (c.templates.map (·.1)).Nodup := by
    have := hc.names
    unfold banded at this
    simp only [List.map_map] at this
    exact this
  have hscan : ∀ t ∈ c.runTemplates, (do
      let tm ← c.templates.get t.fulltype
      scanSlices (fun tg zs => scanSlice c.S (onGrids d tm) d.keys (tg.1.map (·.toFitSpectrum)) zs) (loc.map (·.1)) (loc.map (·.2)) (pieces t) : Py (PyDict ι (List (ScanRow K)))) = (do
      let tm ← (banded waveOf c).templates.get t.fulltype
      scanSlices (fun tg zs => scanSlice (banded waveOf c).S tm (gridsOf (targets.map forget)) tg.1 zs) (loc.map (·.1)) ((loc.map (·.2)).map (fun t : List (WSpectrum κ K) × M => (t.1.map (·.toFitSpectrum), t.2)))
        (pieces t)) := by
    intro t ht
    obtain ⟨t, ht', rfl⟩ := List.mem_map.1 ht
    replace ht := ht'
    have h1 : c.templates.get t.1 = .ok t.2 := by unfold PyDict.get; rw [get?_of_mem c.templates hnames t ht]
    obtain ⟨g, hg⟩ := hc.scan (t.1, onWave waveOf t.2) (List.mem_map.2 ⟨t, ht, rfl⟩)
    rw [banded_get, h1]
    simp only [okBind, Except.map]
    unfold scanSlices
    congr 1
    apply foldlM_congr
    intro b p hpm
    obtain ⟨a1, a2⟩ := hp t ht p hpm
    rw [calcZchi2Slice_map (fun t : List (WSpectrum κ K) × M => (t.1.map (·.toFitSpectrum), t.2)), calcZchi2Slice_congr]
    intro tg htg
    obtain ⟨e, he, rfl⟩ := List.mem_map.1 htg
    exact scanSlice_banded waveOf c.S t.2 targets hf d hd g hg e (hl e he) p.redshifts a1 a2
  have hz : calcZchi2Targets (F := TemplateFit K σ) (M := M) c.le (fun t => (do
      let tm ← c.templates.get t.fulltype
      scanSlices (fun tg zs => scanSlice c.S (onGrids d tm) d.keys (tg.1.map (·.toFitSpectrum)) zs) (loc.map (·.1)) (loc.map (·.2)) (pieces t) : Py (PyDict ι (List (ScanRow K))))) c.runTemplates (loc.map (·.1)) =
    calcZchi2Targets (banded waveOf c).le (fun t => (do
      let tm ← (banded waveOf c).templates.get t.fulltype
      scanSlices (fun tg zs => scanSlice (banded waveOf c).S tm (gridsOf (targets.map forget)) tg.1 zs) (loc.map (·.1)) ((loc.map (·.2)).map (fun t : List (WSpectrum κ K) × M => (t.1.map (·.toFitSpectrum), t.2)))
        (pieces t))) c.runTemplates (loc.map (·.1)) := by
    unfold calcZchi2Targets
    apply foldlM_congr
    intro b t ht
    dsimp only
    rw [hscan t ht]
    rfl
  rw [hz]
  congr 1
  funext res
  refine rankFinish_map (ι := ι) (M := M) (fun t : List (WSpectrum κ K) × M => (t.1.map (·.toFitSpectrum), t.2)) _ _ _ (fun t => t.2) (fun t => t.2) _ loc res ?_ (fun _ _ => rfl)
  intro t ht s _ rows
  rw [banded_get]
  cases c.templates.get s.fulltype with
  | error e => rfl
  | ok tm =>
    simp only [okBind, Except.map]
    unfold fitRows
    rw [fitEnv_onWave waveOf]
    · rfl
    · intro s hs
      obtain ⟨s', hs', rfl⟩ := List.mem_map.1 hs
      rw [get_fitz t.2.1 (fun a ha b hb => hf.same t (hl t ht) t (hl t ht) a ha b hb) s' hs', hf t (hl t ht) s' hs']

theorem waveFits_banded (waveOf : κ → List K) (c : FullCfg ι (List K) K σ) (targets : List (ι × (List (WSpectrum κ K) × M))) (hf : Follows waveOf targets) (hc : GoodRun (banded waveOf c) (gridsOf (targets.map forget)))
    (allIds : List ι) (way : RunWay ι (List (WSpectrum κ K) × M) K) (hway : CanRun c targets way) : waveFits c targets allIds way = fullFits (banded waveOf c) (targets.map forget) allIds (forgetWay way) := by
  cases way with
  | serial =>
    unfold waveFits fullFits forgetWay
    simp only
    rw [waveRank_banded waveOf c targets hf _ (gridsOf_serial targets) hc targets (fun t ht => ht)]
    intro t ht p hp
    simp only [List.mem_singleton] at hp
    subst hp
    obtain ⟨g, hg⟩ := hc.scan (t.1, onWave waveOf t.2) (List.mem_map.2 ⟨t, ht, rfl⟩)
    exact ⟨hg.redshifts, fun z hz => hz⟩
  | mpi locs log =>
    have hd : GridsOf (wavegridsMpi (locs.map wavePairs)) (wavePairs targets) := by
      have h := gridsOf_mpi locs
      refine ⟨fun k => ?_, fun k w hw => (wavePairs_perm _ _ hway.1 _).1 (h.vals k w hw)⟩
      rw [h.keys]
      simp only [wavePairs_perm _ _ hway.1]
    unfold waveFits fullFits forgetWay
    simp only
    rw [show (locs.map (List.map forget)).zipIdx = locs.zipIdx.map (fun lr : List (ι × (List (WSpectrum κ K) × M)) × Nat => (lr.1.map forget, lr.2)) by
      rw [List.zipIdx_map]; rfl, mapM_map']
    congr 1
    apply mapM_congr'
    rintro ⟨loc, r⟩ hlr
    have hlr' := List.mem_zipIdx hlr
    simp only at hlr' ⊢
    rw [waveRank_banded waveOf c targets hf _ hd hc loc]
    · intro e he
      exact hway.1.mem_iff.1 (List.mem_flatten.2 ⟨loc, (List.mem_zipIdx' hlr).2 ▸ List.getElem_mem _, he⟩)
    · intro t ht p hp
      exact ringRun_pieces _ _ _ (hway.2 t ht) r (by omega) p hp

theorem waveCatalogue_banded [LinearOrder σ] (waveOf : κ → List K) (c : FullCfg ι (List K) K σ) (targets : List (ι × (List (WSpectrum κ K) × M))) (hf : Follows waveOf targets)
    (hc : GoodRun (banded waveOf c) (gridsOf (targets.map forget))) (allIds : List ι) (way : RunWay ι (List (WSpectrum κ K) × M) K) (hway : CanRun c targets way) :
    waveCatalogue c targets allIds way = fullCatalogue (banded waveOf c) (targets.map forget) allIds (forgetWay way) := by
  unfold waveCatalogue fullCatalogue
  rw [waveFits_banded waveOf c targets hf hc allIds way hway]
  have : (banded waveOf c).maxcoeff = c.maxcoeff := by
    unfold FullCfg.maxcoeff banded
    simp only [List.map_map]
    rfl
  rw [this]
  rfl

theorem calcTarget_own (solve : List (List K) → List K → Py (List K)) (spectra : List (WSpectrum κ K)) (b : PyDict κ (List (List (List K)))) (b' : PyDict (List K) (List (List (List K))))
    (hb : ∀ s ∈ spectra, b.get? s.wavehash = b'.get? s.wave) (nz n : Nat) (oii : Option (List (List K) × Nat)) :
    calcZchi2Target solve (spectra.map (·.toFitSpectrum)) b nz n oii = calcZchi2Target solve (spectra.map own) b' nz n oii := by
  unfold calcZchi2Target
  rw [spectralData_own]
  simp only [batch_own solve spectra b b' hb]

/-- a target measured with templates on the grids of the hashes is measured on its own wavelengths -/
theorem measure_own [LinearOrder σ] (waveOf : κ → List K) (c : MeasureCfg K) (templates : List (Tmpl (List K) K σ)) (spectra : List (WSpectrum κ K)) (hf : ∀ s ∈ spectra, s.wave = waveOf s.wavehash) :
    measureTarget c (templates.map (onWave waveOf)) (spectra.map (·.toFitSpectrum)) = measureTarget c templates (spectra.map own) := by
  have hd : ∀ s ∈ spectra, (fitzGrids spectra).get? s.wavehash = some s.wave := get_fitz spectra (fun s hs s' hs' e => by rw [hf s hs, hf s' hs', e])
  have hd' : ∀ s ∈ spectra.map (·.toFitSpectrum), (fitzGrids spectra).get? s.wavehash = some (waveOf s.wavehash) := by
    intro s hs
    obtain ⟨s', hs', rfl⟩ := List.mem_map.1 hs
    rw [hd s' hs', hf s' hs']
  unfold measureTarget
  rw [mapM_map']
  congr 1
  apply mapM_congr'
  intro tm _
  unfold fitTarget
  rw [← fitEnv_onWave waveOf c.minfit c.nz c.S (fitzGrids spectra) tm _ hd', fitEnv_own c.minfit c.nz c.S _ tm spectra hd, npixels_own]
  have : scanTarget c.S (onWave waveOf tm) (spectra.map (·.toFitSpectrum)) = scanTarget c.S tm (spectra.map own) := by
    unfold scanTarget
    rw [← binAll_onWave waveOf (fitzGrids spectra) tm _ hd']
    rcases binAll_cases (fitzGrids spectra) tm spectra hd tm.redshifts with ⟨e, h1, h2⟩ | ⟨b, b', h1, h2, h3⟩
    · show (binAll _ _ tm.redshifts >>= _) = _
      rw [h1, h2]; rfl
    · show (binAll _ _ tm.redshifts >>= _) = _
      rw [h1, h2]
      simp only [okBind]
      rw [calcTarget_own _ spectra b b' h3]
      rfl
  rw [this]
  rfl
end

/-! ### `rrdesi`: the specification -/

section
variable {β K : Type} [DecidableEq β] [Field K] [LinearOrder K] [IsStrictOrderedRing K]

/-- no two wavelength HDUs of the files disagree about a band -/
def SameWaves (files : List (DFile Int β K)) : Prop := ∀ f ∈ files, ∀ f' ∈ files, ∀ b w w', (b, w) ∈ f.waveHdus → (b, w') ∈ f'.waveHdus → w = w'

/-- all wavelength grids of all files -/
def allWaves (files : List (DFile Int β K)) : List (List K) := files.flatMap (fun f => f.waveHdus.map (·.2))

/-- the selected targets in the order of their first appearance -/
def selectedW (p : RrDesiW β K) (files : List (DFile Int β K)) : List Int := distinctKeys (files.flatMap (Selection p.opts))

/-- what is fitted, from the spectra of a target: these, or their coadds -/
def combinedW (p : RrDesiW β K) (specs : List (DSpec β K)) : Py (List (Spectrum β β K)) := do
  let sp ← specs.mapM (toSpectrum p.resol)
  if p.opts.coadd then computeCoadd p.opts.cosmicsNsig sp else return sp

/-- what the fit uses of a spectrum: its own wavelengths, flux, inverse variance, and the resolution matrix with its rows as rows -/
structure IsFittedOn (s : Spectrum β β K) (q : FitSpectrum (List K) K) : Prop where
  grid : q.wavehash = s.wave
  flux : q.flux = s.flux
  ivar : q.ivar = s.ivar
  size : q.R.length = s.flux.length
  rows : ∀ i (h : i < q.R.length), q.R[i].length = s.flux.length
  entry : ∀ i j (h : i < q.R.length) (h' : j < q.R[i].length), q.R[i][j] = s.R.entry i j

/-- `sp` is made of the rows of target `tid` in the files, and of nothing else, each on the wavelengths of its own file -/
def OwnWaves (p : RrDesiW β K) (files : List (DFile Int β K)) (tid : Int) (sp : List (FitSpectrum (List K) K)) : Prop :=
  ∃ specs full used, List.Forall₂ (fun q s => HoldsRow q s ∧ IvarExact p.opts.negfluxNsig q s) (slotsOf p.opts tid files) specs ∧ combinedW p specs = .ok full ∧ SkyLinesMasked p.noSkymask full used ∧
    List.Forall₂ IsFittedOn used sp

/-- the fibermap rows of the selected targets -/
def fibersW (p : RrDesiW β K) (files : List (DFile Int β K)) : List (FiberRow Int) := files.flatMap (fun f => (p.fibermap f).filter (fun x => decide (x.targetid ∈ Selection p.opts f)))

/-- the published row `r` of target `tid`: the first row of the measurement of the target's own spectra with the templates binned on their own wavelengths, with the flags and resets of its fiber status -/
def IsRowW (p : RrDesiW β K) (files : List (DFile Int β K)) (tid : Int) (r : CatRow K) : Prop :=
  ∃ sp, OwnWaves p files tid sp ∧ ∃ T best row, measureTarget (measureCfg p.fit tid) (p.fit.templates.map (·.2)) sp = .ok T ∧ T.head? = some best ∧ Catalogue.SameRow best row ∧
    r.base = desiFlagRow p.mask (fibersW p files) ⟨tid, row, p.method row.spectype row.subtype⟩

/-- A run that can be started (as `GoodStart`): the templates cover the wavelengths of the files. -/
structure GoodStartW (p : RrDesiW β K) (files : List (DFile Int β K)) (size : Nat) : Prop where
  argsort : IsArgsort (fun a b => decide (a ≤ b)) p.argsort
  sqrt : ∀ f ∈ files, SqrtOn p.sqrt f
  masks : ∃ has, UniformMask has files
  fit : GoodRun p.fit (allWaves files)
  nminima : 1 ≤ p.fit.nminima
  capacities : ∀ c, p.opts.capacities = some c → c.length = size ∧ ∀ x ∈ c, 0 < x

/-- the ranks' redshift slices come from a complete run of the ring -/
def PossibleRingW (p : RrDesiW β K) : RrDesiWay K → Prop
  | .serial => True
  | .mpi size log => 0 < size ∧ ∀ t ∈ p.fit.templates, RingRun t.2.redshifts size (log ⟨t.1, t.2.redshifts⟩)

/-- Files that can be read (as `Readable`). -/
structure ReadableW (p : RrDesiW β K) (files : List (DFile Int β K)) : Prop where
  nonempty : files ≠ []
  wellFormed : ∀ f ∈ files, WellFormed f
  oneGrid : OneGrid files
  selection : ∀ f ∈ files, p.opts.firstTarget.getD 0 + p.opts.nTarget.getD (p.opts.targetids.getD f.coaddIds).length ≤ (p.opts.targetids.getD f.coaddIds).length

/-! ### the program with the grids of the bands -/

/-- the program of `Verif/Model/RrDesi.lean`, with the templates on the grids of the bands -/
def atBands (waveOf : β → List K) (p : RrDesiW β K) : RrDesi β K where
  argsort := p.argsort
  sqrt := p.sqrt
  resol := p.resol
  opts := p.opts
  fit := banded waveOf p.fit
  mask := p.mask
  fibermap := p.fibermap
  method := p.method
  noSkymask := p.noSkymask
  round32 := p.round32

/-- the files' grids are those of the bands -/
def FilesFollow (waveOf : β → List K) (files : List (DFile Int β K)) : Prop := ∀ f ∈ files, ∀ b w, (b, w) ∈ f.waveHdus → w = waveOf b

theorem SameWaves.follow {files : List (DFile Int β K)} (h : SameWaves files) : ∃ waveOf, FilesFollow waveOf files := by
  classical
  refine ⟨fun b => if hb : ∃ w, ∃ f ∈ files, (b, w) ∈ f.waveHdus then Classical.choose hb else [], ?_⟩
  intro f hf b w hw
  have hb : ∃ w, ∃ f ∈ files, (b, w) ∈ f.waveHdus := ⟨w, f, hf, hw⟩
  simp only [dif_pos hb]
  obtain ⟨f', hf', hw'⟩ := Classical.choose_spec hb
  exact h f hf f' hf' b w _ hw hw'

theorem mapM_result {α γ δ : Type} (F : α → Py γ) (h : γ → δ) (l : List α) : (l.mapM F).map (List.map h) = l.mapM (fun a => (F a).map h) := by
  induction l with
  | nil => rfl
  | cons a l ih =>
    rw [List.mapM_cons, List.mapM_cons, ← ih]
    cases F a with
    | error e => rfl
    | ok x => cases l.mapM F <;> rfl

theorem local_forget (waveOf : β → List K) (p : RrDesiW β K) (files : List (DFile Int β K)) (commSize : Option Nat) (rank : Nat) :
    rrdesiLocal (atBands waveOf p) files commSize rank = (rrdesiLocalW p files commSize rank).map (fun t => (t.1, t.2.map forget)) := by
  unfold rrdesiLocal rrdesiLocalW
  show (distTargetsDESI p.argsort p.sqrt p.opts files commSize rank >>= _) = _
  cases distTargetsDESI p.argsort p.sqrt p.opts files commSize rank with
  | error e => rfl
  | ok out =>
    simp only [okBind]
    have : out.data.mapM (fun d => (do
        let sp ← fittedSpectra (atBands waveOf p).resol (atBands waveOf p).opts (atBands waveOf p).noSkymask d
        return (d.id, (sp.map Spectrum.fitPart, ())) : Py (Int × (List (FitSpectrum β K) × Unit)))) =
      (out.data.mapM (fun d => (do
        let sp ← fittedSpectra p.resol p.opts p.noSkymask d
        return (d.id, (sp.map Spectrum.wavePart, ())) : Py (Int × (List (WSpectrum β K) × Unit))))).map (List.map forget) := by
      rw [mapM_result]
      apply mapM_congr'
      intro d _
      show (fittedSpectra p.resol p.opts p.noSkymask d >>= _) = _
      cases fittedSpectra p.resol p.opts p.noSkymask d with
      | error e => rfl
      | ok sp =>
        simp only [okBind]
        show Except.ok _ = Except.ok _
        unfold forget
        simp only [List.map_map]
        rfl
    rw [this]
    generalize out.data.mapM (fun d => (do
        let sp ← fittedSpectra p.resol p.opts p.noSkymask d
        return (d.id, (sp.map Spectrum.wavePart, ())) : Py (Int × (List (WSpectrum β K) × Unit)))) = A
    cases A <;> rfl

theorem combined_wave (waveOf : β → List K) (p : RrDesiW β K) (specs : List (DSpec β K)) (hs : ∀ s ∈ specs, s.wave = waveOf s.band) (full : List (Spectrum β β K)) (h : combinedW p specs = .ok full) :
    ∀ s ∈ full, s.wave = waveOf s.wavehash := by
  unfold combinedW at h
  obtain ⟨sp, h1, h2⟩ := Except.bind_ok _ _ _ h
  have hsp : ∀ s ∈ sp, s.wave = waveOf s.wavehash := by
    intro s hs'
    obtain ⟨d, hd, hds⟩ := forall₂_right_mem (mapM_inv _ _ _ h1) s hs'
    unfold toSpectrum at hds
    split at hds
    · rw [← Except.ok.inj hds]
      exact hs d hd
    · cases hds
  split at h2
  · intro s hs'
    unfold computeCoadd at h2
    obtain ⟨key, hk, hks⟩ := forall₂_right_mem (mapM_inv _ _ _ h2) s hs'
    unfold coaddGroup at hks
    split at hks
    · cases hks
    · rename_i e0 rest heq
      have he0 : e0 ∈ sp.filter (fun s => decide (s.wavehash = key)) := by rw [heq]; simp
      obtain ⟨m1, m2⟩ := List.mem_filter.1 he0
      have m3 : e0.wavehash = key := by simpa using m2
      simp only at hks
      split at hks
      · cases hks
      · simp only [bind, Except.bind, pure, Except.pure] at hks
        split at hks
        · cases hks
        · split at hks
          · cases hks
          · rw [← Except.ok.inj hks]
            show e0.wave = waveOf key
            rw [hsp e0 m1, m3]
  · rw [← Except.ok.inj h2]
    exact hsp

theorem slot_wave (waveOf : β → List K) (files : List (DFile Int β K)) (hf : FilesFollow waveOf files) (o : DOpts Int K) (tid : Int) (specs : List (DSpec β K)) (nsig : K)
    (h : List.Forall₂ (fun q s => HoldsRow q s ∧ IvarExact nsig q s) (slotsOf o tid files) specs) : ∀ s ∈ specs, s.wave = waveOf s.band := by
  intro s hs
  obtain ⟨q, hq, hh, _⟩ := forall₂_right_mem h s hs
  rw [hh.band]
  exact hf q.1 (slot_file hq) _ _ hh.wave

/-- the loaded spectra are on the grids of their bands -/
theorem local_follows (waveOf : β → List K) (p : RrDesiW β K) (files : List (DFile Int β K)) (hf : FilesFollow waveOf files) (hsq : ∀ f ∈ files, SqrtOn p.sqrt f) (hm : ∃ has, UniformMask has files)
    (commSize : Option Nat) (rank : Nat) (t : List Int × List (Int × (List (WSpectrum β K) × Unit))) (h : rrdesiLocalW p files commSize rank = .ok t) : Follows waveOf t.2 := by
  obtain ⟨has, hmask⟩ := hm
  unfold rrdesiLocalW at h
  obtain ⟨out, hd, h2⟩ := Except.bind_ok _ _ _ h
  obtain ⟨data, h3, h4⟩ := Except.bind_ok _ _ _ h2
  have h4' := Except.ok.inj h4
  subst h4'
  intro e he s hs
  obtain ⟨d, hd', hde⟩ := forall₂_right_mem (mapM_inv _ _ _ h3) e he
  obtain ⟨sp, g1, g2⟩ := Except.bind_ok _ _ _ hde
  have g2' := Except.ok.inj g2
  subst g2'
  obtain ⟨tid, _, hid, hslots⟩ := forall₂_right_mem (C47_rows_reach_target_partial p.argsort p.sqrt p.opts files hsq has hmask commSize rank out hd) d hd'
  obtain ⟨q, hq, rfl⟩ := List.mem_map.1 hs
  obtain ⟨full, k1, k2⟩ := Except.bind_ok _ _ _ g1
  obtain ⟨q', hq', hh, hw⟩ := mask_grid _ _ _ ((mask_iff _ _ _).1 k2) q hq
  show q.wave = waveOf q.wavehash
  rw [hh, hw]
  exact combined_wave waveOf p d.spectra (slot_wave waveOf files hf p.opts tid d.spectra _ hslots) full k1 q' hq'

theorem good_atBands (waveOf : β → List K) (p : RrDesiW β K) (files : List (DFile Int β K)) (hf : FilesFollow waveOf files) (size : Nat) (h : GoodStartW p files size) : GoodStart (atBands waveOf p) files size where
  argsort := h.argsort
  sqrt := h.sqrt
  masks := h.masks
  nminima := h.nminima
  capacities := h.capacities
  fit := by
    refine ⟨?_, ?_, ?_⟩
    · have := h.fit.names
      show ((p.fit.templates.map (fun t => (t.1, onWave waveOf t.2))).map (·.1)).Nodup
      rw [List.map_map]
      exact this
    · have := h.fit.order
      show p.fit.order.Perm ((p.fit.templates.map (fun t => (t.1, onWave waveOf t.2))).map (·.1))
      rw [List.map_map]
      exact this
    · intro t ht
      obtain ⟨t, ht', rfl⟩ := List.mem_map.1 ht
      obtain ⟨g, hg⟩ := h.fit.scan t ht'
      refine ⟨fun b => g (waveOf b), ?_, hg.redshifts, hg.solver⟩
      intro b hb zs hne hz
      refine hg.bin (waveOf b) ?_ zs hne hz
      obtain ⟨f, hff, hb⟩ := List.mem_flatMap.1 hb
      obtain ⟨⟨b', w⟩, hbw, rfl⟩ := List.mem_map.1 hb
      have := hf f hff _ _ hbw
      exact List.mem_flatMap.2 ⟨f, hff, List.mem_map.2 ⟨_, hbw, this⟩⟩

theorem ring_atBands (waveOf : β → List K) (p : RrDesiW β K) (way : RrDesiWay K) (h : PossibleRingW p way) : PossibleRing (atBands waveOf p) way := by
  cases way with
  | serial => trivial
  | mpi size log =>
    refine ⟨h.1, ?_⟩
    intro t ht
    obtain ⟨t, ht', rfl⟩ := List.mem_map.1 ht
    exact h.2 t ht'

theorem table_atBands (waveOf : β → List K) (p : RrDesiW β K) (files : List (DFile Int β K)) (hf : FilesFollow waveOf files) (way : RrDesiWay K) (hp : GoodStartW p files (ways way)) (hr : PossibleRingW p way) :
    rrdesiTableW p files way = rrdesiTable (atBands waveOf p) files way := by
  have hg := good_atBands waveOf p files hf _ hp
  have hr' := ring_atBands waveOf p way hr
  cases way with
  | serial =>
    unfold rrdesiTableW rrdesiTable
    simp only
    rw [local_forget]
    cases ht : rrdesiLocalW p files none 0 with
    | error e => rfl
    | ok t =>
      simp only [okBind, Except.map]
      have hl := loaded_ok (atBands waveOf p) files .serial hg hr' (t.2.map forget) .serial ⟨(t.1, t.2.map forget), by rw [local_forget, ht]; rfl, rfl, rfl⟩
      exact waveCatalogue_banded waveOf p.fit t.2 (local_follows waveOf p files hf hp.sqrt hp.masks none 0 t ht) (targets_good (atBands waveOf p) files hg.fit _ hl.1) t.1 .serial trivial
  | mpi size log =>
    unfold rrdesiTableW rrdesiTable
    simp only
    have hmap : (List.range size).mapM (rrdesiLocal (atBands waveOf p) files (some size)) =
        ((List.range size).mapM (rrdesiLocalW p files (some size))).map (List.map (fun t => (t.1, t.2.map forget))) := by
      rw [mapM_result]
      exact mapM_congr' _ _ _ (fun r _ => local_forget waveOf p files (some size) r)
    rw [hmap]
    cases hts : (List.range size).mapM (rrdesiLocalW p files (some size)) with
    | error e => rfl
    | ok ts =>
      simp only [okBind, Except.map]
      have hlen : ts.length = size := by rw [← (mapM_inv _ _ _ hts).length_eq, List.length_range]
      have hfl : (ts.map (fun t => (t.1, t.2.map forget))).flatMap (·.2) = (ts.flatMap (·.2)).map forget := by
        rw [List.flatMap_map, List.map_flatMap]
      have hl := loaded_ok (atBands waveOf p) files (.mpi size log) hg hr' ((ts.flatMap (·.2)).map forget) (.mpi ((ts.map (fun t => (t.1, t.2.map forget))).map (·.2)) log)
        ⟨ts.map (fun t => (t.1, t.2.map forget)), by rw [hmap, hts]; rfl, hfl.symm, rfl⟩
      have h0 : npGet (ts.map (fun t : List Int × List (Int × (List (WSpectrum β K) × Unit)) => (t.1, t.2.map forget))) 0 = (npGet ts 0).map (fun t => (t.1, t.2.map forget)) := by
        unfold npGet
        rw [List.getElem?_map]
        cases ts[0]? <;> rfl
      rw [h0]
      cases npGet ts 0 with
      | error e => rfl
      | ok t0 =>
        simp only [okBind, Except.map]
        rw [hfl]
        have := waveCatalogue_banded waveOf p.fit (ts.flatMap (·.2)) (by
            intro e he
            obtain ⟨t, ht, het⟩ := List.mem_flatMap.1 he
            obtain ⟨r, _, hrt⟩ := forall₂_right_mem (mapM_inv _ _ _ hts) t ht
            exact local_follows waveOf p files hf hp.sqrt hp.masks (some size) r t hrt e het)
          (targets_good (atBands waveOf p) files hg.fit _ hl.1) t0.1 (.mpi (ts.map (·.2)) log) ⟨by rw [← List.flatMap_def], by rw [List.length_map, hlen]; exact hr.2⟩
        rw [this]
        unfold forgetWay
        simp only [List.map_map]
        rfl

theorem catalogue_atBands (waveOf : β → List K) (p : RrDesiW β K) (files : List (DFile Int β K)) (hf : FilesFollow waveOf files) (way : RrDesiWay K) (hp : GoodStartW p files (ways way)) (hr : PossibleRingW p way) :
    rrdesiCatalogueW p files way = rrdesiCatalogue (atBands waveOf p) files way := by
  unfold rrdesiCatalogueW rrdesiCatalogue
  rw [table_atBands waveOf p files hf way hp hr]
  rfl

theorem isFittedOn_own (s : Spectrum β β K) : IsFittedOn s (own s.wavePart) := by
  have h := isFitted_fitPart s
  exact ⟨rfl, h.flux, h.ivar, h.size, h.rows, h.entry⟩

theorem isRow_own (waveOf : β → List K) (p : RrDesiW β K) (files : List (DFile Int β K)) (hf : FilesFollow waveOf files) (tid : Int) (r : CatRow K) (h : IsRow (atBands waveOf p) files tid r) : IsRowW p files tid r := by
  obtain ⟨sp, ⟨specs, full, used, h1, h2, hu, h3⟩, T, best, row, g1, g2, g3, g4⟩ := h
  have h3' := (fitted_iff _ _).1 h3
  have hw : ∀ s ∈ used, s.wave = waveOf s.wavehash := by
    intro s hs
    obtain ⟨q, hq, e1, e2⟩ := mask_grid _ _ _ hu s hs
    rw [e1, e2]
    exact combined_wave waveOf p specs (slot_wave waveOf files hf p.opts tid specs _ h1) full h2 q hq
  refine ⟨(used.map Spectrum.wavePart).map own, ⟨specs, full, used, h1, h2, hu, ?_⟩, T, best, row, ?_, g2, g3, g4⟩
  · rw [List.map_map, List.forall₂_map_right_iff, List.forall₂_same]
    exact fun s _ => isFittedOn_own s
  · have e : (used.map Spectrum.wavePart).map (·.toFitSpectrum) = sp := by rw [h3', List.map_map]; rfl
    rw [← measure_own waveOf (measureCfg p.fit tid) (p.fit.templates.map (·.2)) (used.map Spectrum.wavePart) (by
      intro s hs
      obtain ⟨q, hq, rfl⟩ := List.mem_map.1 hs
      exact hw q hq), e, ← g1]
    show _ = measureTarget (measureCfg p.fit tid) ((p.fit.templates.map (fun t => (t.1, onWave waveOf t.2))).map (·.2)) sp
    rw [List.map_map, List.map_map]
    rfl

/-- **C120** (part) If the files agree about the wavelengths of every band, what `rrdesi` publishes about a target, serial or on any number of ranks, is the measurement of the target's own rows with every template binned
on the wavelengths of the file the row is in. Missing: without that condition it is false (`C120_rrdesi_refuted`). -/
theorem C120_rrdesi_rows_partial (p : RrDesiW β K) (files : List (DFile Int β K)) (hw : SameWaves files) (way : RrDesiWay K) (hp : GoodStartW p files (ways way)) (hr : PossibleRingW p way) (B : Tab K)
    (h : rrdesiCatalogueW p files way = .ok B) : ∃ best, List.Forall₂ (IsRowW p files) (selectedW p files) best ∧ B = Zbest.publishedTable p.round32 [] best := by
  obtain ⟨waveOf, hf⟩ := hw.follow
  rw [catalogue_atBands waveOf p files hf way hp hr] at h
  obtain ⟨best, h1, h2⟩ := C119_rows (atBands waveOf p) files way (good_atBands waveOf p files hf _ hp) (ring_atBands waveOf p way hr) B h
  exact ⟨best, h1.imp (fun tid r => isRow_own waveOf p files hf tid r), h2⟩

/-- **C120** (part, with C119) The catalogue does not depend on the number of ranks or their schedule, if the files agree about the wavelengths of every band. -/
theorem C120_rrdesi_ranks_partial (p : RrDesiW β K) (files : List (DFile Int β K)) (hread : ReadableW p files) (hw : SameWaves files) (way way' : RrDesiWay K) (hp : GoodStartW p files (ways way))
    (hp' : GoodStartW p files (ways way')) (hr : PossibleRingW p way) (hr' : PossibleRingW p way') (B : Tab K) : rrdesiCatalogueW p files way = .ok B ↔ rrdesiCatalogueW p files way' = .ok B := by
  obtain ⟨waveOf, hf⟩ := hw.follow
  rw [catalogue_atBands waveOf p files hf way hp hr, catalogue_atBands waveOf p files hf way' hp' hr']
  exact C119_ranks (atBands waveOf p) files ⟨hread.nonempty, hread.wellFormed, hread.oneGrid, hread.selection⟩ way way' (good_atBands waveOf p files hf _ hp) (good_atBands waveOf p files hf _ hp')
    (ring_atBands waveOf p way hr) (ring_atBands waveOf p way' hr') B

/-- **C120** (part, with C119) What is published about a target depends on nothing but its own rows, if the files of the two runs agree about the wavelengths of every band. -/
theorem C120_rrdesi_isolated_partial (p : RrDesiW β K) (o' : DOpts Int K) (fm' : DFile Int β K → List (FiberRow Int)) (p' : RrDesiW β K) (hp' : p' = { p with opts := o', fibermap := fm' })
    (hco : o'.coadd = p.opts.coadd) (hneg : o'.negfluxNsig = p.opts.negfluxNsig) (hcos : o'.cosmicsNsig = p.opts.cosmicsNsig) (files files' : List (DFile Int β K)) (hone : OneGrid files)
    (hw : SameWaves (files ++ files')) (way way' : RrDesiWay K) (hg : GoodStartW p files (ways way)) (hg' : GoodStartW p' files' (ways way')) (hr : PossibleRingW p way) (hr' : PossibleRingW p' way') (B B' : Tab K)
    (h : rrdesiCatalogueW p files way = .ok B) (h' : rrdesiCatalogueW p' files' way' = .ok B') (tid : Int) (hin : tid ∈ selectedW p files) (hin' : tid ∈ selectedW p' files')
    (hs : List.Forall₂ SameSlot (slotsOf p.opts tid files) (slotsOf o' tid files')) (hfib : ∀ x, x.targetid = tid → (x ∈ fibersW p files ↔ x ∈ fibersW p' files')) :
    ∃ best best', B = Zbest.publishedTable p.round32 [] best ∧ B' = Zbest.publishedTable p.round32 [] best' ∧ best.map (·.base.targetid) = selectedW p files ∧
      best'.map (·.base.targetid) = selectedW p' files' ∧ ∃ r ∈ best, ∃ r' ∈ best', r.base.targetid = tid ∧ SamePublished r r' := by
  obtain ⟨waveOf, hf⟩ := hw.follow
  have hf1 : FilesFollow waveOf files := fun f hff => hf f (List.mem_append_left _ hff)
  have hf2 : FilesFollow waveOf files' := fun f hff => hf f (List.mem_append_right _ hff)
  rw [catalogue_atBands waveOf p files hf1 way hg hr] at h
  rw [catalogue_atBands waveOf p' files' hf2 way' hg' hr'] at h'
  exact C119_isolated (atBands waveOf p) o' fm' (atBands waveOf p') (by rw [hp']; rfl) hco hneg hcos files files' hone way way' (good_atBands waveOf p files hf1 _ hg) (good_atBands waveOf p' files' hf2 _ hg')
    (ring_atBands waveOf p way hr) (ring_atBands waveOf p' way' hr') B B' h h' tid hin hin' hs hfib

end
end Wave
end Redrock
