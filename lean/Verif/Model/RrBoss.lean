import Verif.Model.Boss
import Verif.Model.Meta
import Verif.Model.Wave

/-!
The program `rrboss` (`/repo/py/redrock/external/boss.py:401-515`) put together from the models of its parts: `read_spectra` (`Verif/Model/Boss.lean`), `Spectrum` and `Target` (`Verif/Model/Coadd.lean`, `Verif/Model/Wave.lean`),
`DistTargetsCopy` (`Verif/Model/DistTargets.lean`), `zfind` on the CPU without archetypes (`Verif/Model/Wave.lean`), the metadata columns (`Verif/Model/Meta.lean`) and the published table (`Verif/Model/Zbest.lean`).
-/
namespace Redrock

section
variable {K : Type} [Field K] [LinearOrder K] [FloorRing K]

/-- What `rrboss` is started with: `np.exp`, the text of a number, Python's hash of a tuple, the options of `read_spectra`, `--allspec`, `--mintarget`, `-n`, the templates and settings of the redshift fit, the method of
a template, the order of strings. -/
structure RrBoss (K : Type) where
  exp : K → K
  fmt : Int → PyStr
  hash : Nat × K × K × K × K × Option Nat → Int
  opts : BossOpts
  allspec : Bool
  mintarget : Option Nat
  ntargets : Option Nat
  fit : FullCfg Int (List K) K String
  method : String → String → String
  strLe : PyStr → PyStr → Bool

/-- boss.py:239, targets.py:31-58  `Spectrum(la[i], fl[i], iv[i], R, Rcsr)`: no band, so the wavehash is a hash of the wavelengths and the number of diagonals. -/
def bossSpectrum (hash : Nat × K × K × K × K × Option Nat → Int) (s : BossSpec K) : Py (Spectrum (WaveKey Empty) Unit K) := do
  let key ← waveKey hash none s.wave (some s.R.data.length)
  return mkSpectrum s.wave s.flux s.ivar s.R key ()

/-- boss.py:260, targets.py:161-182  `Target(targetid, spectra, coadd=coadd, meta=tmeta)` as the run uses it: ID, number of spectra, spectra, `BRICKNAME`. -/
def bossTarget (p : RrBoss K) (t : Int × List (BossSpec K) × PyStr) : Py (LTarget Int (List (WSpectrum (WaveKey Empty) K) × PyStr)) := do
  let sp ← t.2.1.mapM (bossSpectrum p.hash)
  let tg ← mkTarget sp (!p.allspec) 0
  return ⟨t.1, tg.spectra.length, (tg.spectra.map Spectrum.wavePart, t.2.2)⟩

/-- boss.py:448-454  the targets of the run. Every rank reads them all. -/
def rrbossTargets (p : RrBoss K) (plates : List (SpPlate K)) : Py (List (LTarget Int (List (WSpectrum (WaveKey Empty) K) × PyStr))) := do
  let ts ← bossReadSpectra p.exp p.fmt p.opts plates
  let ts ← ts.mapM (bossTarget p)
  return rrbossSelect p.mintarget p.ntargets ts

end

section
variable {ι κ K σ M : Type} [DecidableEq ι] [DecidableEq κ] [Field K] [LinearOrder K]

/-- targets.py:460-463  `targets.local()` as pairs of ID and data. -/
def LocalTargets.pairs {T : Type} (L : LocalTargets ι T) : List (ι × T) := L.myData.map (fun t => (t.id, t.data))

/-- zfind.py:287-409  what one rank does (as `waveRank`). The scan takes the IDs from `local_target_ids()` and the data from `local()`, by position (zscan.py:1007-1019); the fits take the targets of `local()` with their
own IDs. -/
def localRank (c : FullCfg ι (List K) K σ) (d : PyDict κ (List K)) (L : LocalTargets ι (List (WSpectrum κ K) × M)) (pieces : RunTemplate K → List (Piece K)) :
    Py (PyDict ι (RunResult K (ScanRow K) (TemplateFit K σ) M)) := do
  let res ← calcZchi2Targets c.le (fun t => do
    let tm ← c.templates.get t.fulltype
    scanSlices (fun tg zs => scanSlice c.S (onGrids d tm) d.keys (tg.1.map (·.toFitSpectrum)) zs) L.myTargets (L.pairs.map (·.2)) (pieces t)) c.runTemplates L.myTargets
  rankFinish (fun id zs rows => addPriorRows (c.prior id zs) rows) (fun tg t rows => do
    let tm ← c.templates.get t.fulltype
    let cands ← fitz c.argsort (fitEnvOf c.minfit c.nz c.S (onGrids (fitzGrids tg.1) tm) (tg.1.map (·.toFitSpectrum))) c.nminima (rows.map (fun r => r.chi2.add (.fin r.penalty))) tm.redshifts
    return ⟨tm.spectype, tm.subtype, tm.isStar, npixelsOf (tg.1.map (·.toFitSpectrum)), cands⟩) (·.2) c.runSorted L.pairs res

/-- boss.py:462-483, zfind.py:280-475  the fits of all targets with `DistTargetsCopy`: in one process, or on `size` ranks. -/
def copyFits (c : FullCfg ι (List K) K σ) (targets : List (LTarget ι (List (WSpectrum κ K) × M))) : RrDesiWay K → Py (List (ι × List (PyStr × TemplateFit K σ) × Option M))
  | .serial => do
    let L ← distTargetsCopy targets none 0
    let res ← localRank c (wavegridsSerial (wavePairs L.pairs)) L (fun t => [{ index := 0, redshifts := t.redshifts }])
    let all ← gatherRun [res]
    collectFits L.allTargetIds all
  | .mpi size log => do
    let Ls ← (List.range size).mapM (distTargetsCopy targets (some size))
    let perRank ← (Ls.zipIdx).mapM (fun lr => localRank c (wavegridsMpi (Ls.map (fun L => wavePairs L.pairs))) lr.1 (fun t => log t lr.2))
    let all ← gatherRun perRank
    let L0 ← npGet Ls 0
    collectFits L0.allTargetIds all

end

section
variable {K : Type} [Field K] [LinearOrder K] [FloorRing K]

/-- boss.py:255-258  the metadata of a target. -/
def bossMeta (brick : PyStr) : PyDict PyStr PyStr := [("BRICKNAME".toList, brick), ("BRICKNAME_datatype".toList, "S8".toList)]

/-- zfind.py:655-658  `np.array(..., dtype="S8")`: cut to eight characters. -/
def bossCast (ty v : PyStr) : Py PyStr := .ok (if ty = "S8".toList then v.take 8 else v)

/-- zfind.py:219-720  the table `zfit` of `rrboss`: the names of the metadata columns and the rows. (`zz` and `zzchi2` are left empty here: they are not published.) -/
def rrbossTable (p : RrBoss K) (plates : List (SpPlate K)) (way : RrDesiWay K) : Py (List PyStr × List (CatRow K)) := do
  let targets ← rrbossTargets p plates
  let cat ← copyFits p.fit targets way
  let m ← p.fit.maxcoeff
  let rows ← finalTable p.fit.nminima (fun _ => false) m (cat.map (fun r => (r.1, r.2.1.map (·.2))))
  let metas := cat.map (fun r => (r.1, (r.2.2.map bossMeta).getD []))
  let cols ← metaColumns p.strLe bossCast (zfitTable (K := K) [] []).names metas (rows.map (·.1))
  return (cols.map (·.1), rows.zipIdx.map (fun x => ⟨⟨x.1.1, x.1.2, p.method x.1.2.spectype x.1.2.subtype⟩, [], [], cols.map (fun c => .str (c.2.getD x.2 []))⟩))

/-- boss.py:490-513  the published catalogue. -/
def rrbossCatalogue (p : RrBoss K) (plates : List (SpPlate K)) (way : RrDesiWay K) : Py (Tab K) := do
  let zfit ← rrbossTable p plates way
  bossZbest (zfitTable zfit.1 zfit.2)

end
end Redrock
