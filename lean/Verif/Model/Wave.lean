import Verif.Model.DistTargets
import Verif.Model.RrDesi

/-!
Which wavelengths the templates are binned on: `Spectrum.wavehash` (`/repo/py/redrock/targets.py:47-58`), `DistTargets.wavegrids` (`targets.py:468-489`) and the grids of a target in `fitz` (`fitz.py:169`), put into
the whole run (`Verif/Model/FullRun.lean`, where the binned template is a function of the wavehash). Here a template bins on wavelengths, as redrock's does.
-/
namespace Redrock

/-- targets.py:47-58  `wavehash`: the band name, or the number `hash(...)`. (Python's hash of a string is never looked up beside one of a number: a run has bands or it has not.) -/
inductive WaveKey (β : Type) where
  | band (b : β)
  | hash (h : Int)
  deriving DecidableEq

/-- targets.py:47-58  `wavehash` of a new `Spectrum`. `ndiag` is `R.data.shape[0]` if `R` has `data`. `hash` is Python's hash of the tuple. A grid with fewer than two pixels has no `wave[1]`. -/
def waveKey {β K : Type} (hash : Nat × K × K × K × K × Option Nat → Int) (band : Option β) (wave : List K) (ndiag : Option Nat) : Py (WaveKey β) :=
  match band with
  | some b => .ok (.band b)
  | none => do
    let w0 ← npGet wave 0
    let w1 ← npGet wave 1
    let u ← npGet wave (wave.length - 2)
    let v ← npGet wave (wave.length - 1)
    return .hash (hash (wave.length, w0, w1, u, v, ndiag))

/-- targets.py:33-62  a `Spectrum` as far as the run uses it, with its own wavelengths. -/
structure WSpectrum (κ K : Type) extends FitSpectrum κ K where
  wave : List K

section
variable {ι κ K σ M : Type} [DecidableEq ι] [DecidableEq κ] [Field K] [LinearOrder K]

/-- targets.py:471-476  (wavehash, wavelengths) of all spectra of the targets in turn. -/
def wavePairs (targets : List (ι × (List (WSpectrum κ K) × M))) : List (κ × List K) := targets.flatMap (fun t => t.2.1.map (fun s => (s.wavehash, s.wave)))

/-- fitz.py:169  `dwave = { s.wavehash:s.wave for s in spectra }`: the last spectrum with a hash gives the grid. -/
def fitzGrids (spectra : List (WSpectrum κ K)) : PyDict κ (List K) := spectra.foldl (fun d s => d.set s.wavehash s.wave) []

/-- templates.py:575-599 and fitz.py:221-243  the template binned on the wavelengths that the dictionary `d` has for a wavehash. -/
def onGrids (d : PyDict κ (List K)) (tm : Tmpl (List K) K σ) : Tmpl κ K σ where
  spectype := tm.spectype
  subtype := tm.subtype
  isStar := tm.isStar
  redshifts := tm.redshifts
  nbasis := tm.nbasis
  algorithm := tm.algorithm
  oii := tm.oii
  bin := fun h zs => do
    let w ← d.get h
    tm.bin w zs

/-- zfind.py:287-409  what one rank does (as `fullRank`): the scan uses the grids `d` of `targets.wavegrids()`, the fit those of the target. -/
def waveRank (c : FullCfg ι (List K) K σ) (d : PyDict κ (List K)) (loc : List (ι × (List (WSpectrum κ K) × M))) (pieces : RunTemplate K → List (Piece K)) :
    Py (PyDict ι (RunResult K (ScanRow K) (TemplateFit K σ) M)) := do
  let res ← calcZchi2Targets c.le (fun t => do
    let tm ← c.templates.get t.fulltype
    scanSlices (fun tg zs => scanSlice c.S (onGrids d tm) d.keys (tg.1.map (·.toFitSpectrum)) zs) (loc.map (·.1)) (loc.map (·.2)) (pieces t)) c.runTemplates (loc.map (·.1))
  rankFinish (fun id zs rows => addPriorRows (c.prior id zs) rows) (fun tg t rows => do
    let tm ← c.templates.get t.fulltype
    let cands ← fitz c.argsort (fitEnvOf c.minfit c.nz c.S (onGrids (fitzGrids tg.1) tm) (tg.1.map (·.toFitSpectrum))) c.nminima (rows.map (fun r => r.chi2.add (.fin r.penalty))) tm.redshifts
    return ⟨tm.spectype, tm.subtype, tm.isStar, npixelsOf (tg.1.map (·.toFitSpectrum)), cands⟩) (·.2) c.runSorted loc res

/-- zfind.py:280-475  the fits of every target (as `fullFits`); `wavegrids()` in one process, or merged over the ranks. -/
def waveFits (c : FullCfg ι (List K) K σ) (targets : List (ι × (List (WSpectrum κ K) × M))) (allIds : List ι) :
    RunWay ι (List (WSpectrum κ K) × M) K → Py (List (ι × List (PyStr × TemplateFit K σ) × Option M))
  | .serial => do
    let res ← waveRank c (wavegridsSerial (wavePairs targets)) targets (fun t => [{ index := 0, redshifts := t.redshifts }])
    let all ← gatherRun [res]
    collectFits allIds all
  | .mpi locs log => do
    let perRank ← (locs.zipIdx).mapM (fun lr => waveRank c (wavegridsMpi (locs.map wavePairs)) lr.1 (fun t => log t lr.2))
    let all ← gatherRun perRank
    collectFits allIds all

/-- zfind.py:219-720  `zfind`: the rows of the table, each with its target ID. -/
def waveCatalogue [LinearOrder σ] (c : FullCfg ι (List K) K σ) (targets : List (ι × (List (WSpectrum κ K) × M))) (allIds : List ι) (way : RunWay ι (List (WSpectrum κ K) × M) K) :
    Py (List (ι × Row K σ)) := do
  let cat ← waveFits c targets allIds way
  let m ← c.maxcoeff
  finalTable c.nminima (fun _ => false) m (cat.map (fun r => (r.1, r.2.1.map (·.2))))

end

section
variable {β K : Type} [DecidableEq β] [Field K] [LinearOrder K]

/-- targets.py:33-62  what the run uses of a `Spectrum`, with its own wavelengths. -/
def Spectrum.wavePart {ω : Type} (s : Spectrum ω β K) : WSpectrum ω K := { s.fitPart with wave := s.wave }

/-- What `rrdesi` is started with (as `RrDesi`); the templates bin on wavelengths. -/
structure RrDesiW (β K : Type) where
  argsort : List Nat → List Nat
  sqrt : K → K
  resol : List (List K) → Dia K
  opts : DOpts Int K
  noSkymask : Bool
  fit : FullCfg Int (List K) K String
  mask : FiberMask
  fibermap : DFile Int β K → List (FiberRow Int)
  method : String → String → String
  round32 : K → K

/-- desi.py:999-1013  the targets of one rank (as `rrdesiLocal`), with the wavelengths of their spectra. -/
def rrdesiLocalW (p : RrDesiW β K) (files : List (DFile Int β K)) (commSize : Option Nat) (rank : Nat) : Py (List Int × List (Int × (List (WSpectrum β K) × Unit))) := do
  let t ← distTargetsDESI p.argsort p.sqrt p.opts files commSize rank
  let data ← t.data.mapM (fun d => do
    let sp ← fittedSpectra p.resol p.opts p.noSkymask d
    return (d.id, (sp.map Spectrum.wavePart, ())))
  return (t.allIds, data)

/-- desi.py:1024-1085  the table `zfit` (as `rrdesiTable`). -/
def rrdesiTableW (p : RrDesiW β K) (files : List (DFile Int β K)) : RrDesiWay K → Py (List (Int × Row K String))
  | .serial => do
    let t ← rrdesiLocalW p files none 0
    waveCatalogue p.fit t.2 t.1 .serial
  | .mpi size log => do
    let ts ← (List.range size).mapM (rrdesiLocalW p files (some size))
    let t0 ← npGet ts 0
    waveCatalogue p.fit (ts.flatMap (·.2)) t0.1 (.mpi (ts.map (·.2)) log)

/-- desi.py:652-653  `targets.fibermap` (as `rrdesiFibermap`). -/
def rrdesiFibermapW (p : RrDesiW β K) (files : List (DFile Int β K)) : Py (List (FiberRow Int)) := do
  let kept ← files.mapM (keepIds p.opts)
  return (files.zip kept).flatMap (fun fk => (p.fibermap fk.1).filter (fun x => decide (x.targetid ∈ fk.2)))

/-- desi.py:1020-1188  the published catalogue (as `rrdesiCatalogue`). -/
def rrdesiCatalogueW (p : RrDesiW β K) (files : List (DFile Int β K)) (way : RrDesiWay K) : Py (Tab K) := do
  let zfit ← rrdesiTableW p files way
  let fm ← rrdesiFibermapW p files
  let zfit := desiFlags p.mask fm (zfit.map (fun x => ⟨x.1, x.2, p.method x.2.spectype x.2.subtype⟩))
  desiZbest p.round32 (zfitTable [] (zfit.map (fun r => ⟨r, [], [], []⟩)))

end
end Redrock
