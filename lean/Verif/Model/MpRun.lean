import Verif.Model.RrDesi

/-!
A whole run with multiprocessing: `/repo/py/redrock/zscan.py:1037-1094` and `/repo/py/redrock/zfind.py:280-400` with the computations of `Verif/Model/FullRun.lean`, and `rrdesi --mp N`
(`/repo/py/redrock/external/desi.py:920-1190`). A worker process that raises puts nothing on its queue and the parent waits for ever: this is an error here.
-/
namespace Redrock

section
variable {ι T Z R : Type} [DecidableEq ι]

/-- zscan.py:892-901, 1053-1060  worker `i` of the scan: the IDs in the order of `mpdist[i]`, the data in the order of `targets.local()` (as `mpWorker`, with a scan that may raise). -/
def mpScanWorker (fs : T → List Z → Py (List R)) (loc : List (LTarget ι T)) (mpdist : List (List ι)) (zs : List Z) (i : Nat) : Py (Nat × List (List R)) := do
  let targetIds := (mpdist[i]?).getD []
  let targetData := (loc.filter (fun x => decide (x.id ∈ targetIds))).map (·.data)
  let rows ← calcZchi2Slice fs targetIds targetData zs
  return (i, rows)

/-- zscan.py:1037-1094  the scan with one template; `arrival` is the order in which the messages come out of the queue. -/
def scanMpSlices (fs : T → List Z → Py (List R)) (loc : List (LTarget ι T)) (mpdist : List (List ι)) (zs : List Z) (arrival : List Nat) : Py (PyDict ι (List R)) := do
  let msgs ← arrival.mapM (mpScanWorker fs loc mpdist zs)
  return msgs.foldl (mpStore mpdist) []
end

/-- How the worker processes go: their number, and for every template the order in which the started workers deliver, in the scan and in the fits. -/
structure Workers (Z : Type) where
  procs : Nat
  scanOrder : RunTemplate Z → List Nat → List Nat
  fitOrder : RunTemplate Z → List Nat → List Nat

section
variable {ι ω K σ M : Type} [DecidableEq ι] [DecidableEq ω] [Field K] [LinearOrder K]

/-- targets.py:511-518  the local targets with their numbers of spectra. -/
def localOf (targets : List (ι × (List (FitSpectrum ω K) × M))) : List (LTarget ι (List (FitSpectrum ω K) × M)) := targets.map (fun t => ⟨t.1, t.2.1.length, t.2⟩)

/-- zfind.py:280-475  the fits of every target with `mp_procs > 1` and no MPI. -/
def fullFitsMp (c : FullCfg ι ω K σ) (targets : List (ι × (List (FitSpectrum ω K) × M))) (allIds : List ι) (w : Workers K) : Py (List (ι × List (PyStr × TemplateFit K σ) × Option M)) := do
  let mpdist ← distributeTargets ℚ w.procs ((localOf targets).map (fun t => (t.id, t.nspec))) none
  let res ← calcZchi2Targets c.le (fun t => do
    let tm ← c.templates.get t.fulltype
    scanMpSlices (fun tg zs => scanSlice c.S tm (gridsOf targets) tg.1 zs) (localOf targets) mpdist t.redshifts (w.scanOrder t (mpStarted mpdist w.procs))) c.runTemplates (targets.map (·.1))
  let res ← c.runSorted.foldlM (mpFitTemplate (fun tg t rows => do
    let tm ← c.templates.get t.fulltype
    fitRows c tg.1 tm rows) targets mpdist (fun t => w.fitOrder t (mpStarted mpdist w.procs))) (applyPriors (fun id zs rows => addPriorRows (c.prior id zs) rows) res)
  let res ← targets.foldlM (metaStepRun (·.2)) res
  let all ← gatherRun [res]
  collectFits allIds all

/-- zfind.py:219-720  `zfind` without MPI: the rows of the table. With one process there are no workers (zscan.py:975, zfind.py:356). -/
def fullCatalogueMp [LinearOrder σ] (c : FullCfg ι ω K σ) (targets : List (ι × (List (FitSpectrum ω K) × M))) (allIds : List ι) (w : Workers K) : Py (List (ι × Row K σ)) := do
  let cat ← if w.procs = 1 then fullFits c targets allIds .serial else fullFitsMp c targets allIds w
  let m ← c.maxcoeff
  finalTable c.nminima (fun _ => false) m (cat.map (fun r => (r.1, r.2.1.map (·.2))))
end

section
variable {β K : Type} [DecidableEq β] [Field K] [LinearOrder K]

/-- desi.py:925, 1024-1085  the table `zfit` of `rrdesi --mp N`. -/
def rrdesiTableMp (p : RrDesi β K) (files : List (DFile Int β K)) (w : Workers K) : Py (List (Int × Row K String)) := do
  let t ← rrdesiLocal p files none 0
  fullCatalogueMp p.fit t.2 t.1 w

/-- desi.py:1020-1188  the published catalogue of `rrdesi --mp N` (as `rrdesiCatalogue`). -/
def rrdesiCatalogueMp (p : RrDesi β K) (files : List (DFile Int β K)) (w : Workers K) : Py (Tab K) := do
  let zfit ← rrdesiTableMp p files w
  let fm ← rrdesiFibermap p files
  let zfit := desiFlags p.mask fm (zfit.map (fun x => ⟨x.1, x.2, p.method x.2.spectype x.2.subtype⟩))
  desiZbest p.round32 (zfitTable [] (zfit.map (fun r => ⟨r, [], [], []⟩)))
end
end Redrock
