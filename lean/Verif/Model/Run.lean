import Verif.Model.Scan
import Verif.Model.Strings

/-!
Model of the way `/repo/py/redrock/zfind.py:219-490` (`zfind`) puts a run together: scan (`zscan.py:910-1106`, `calc_zchi2_targets`) or a scan read from a file, priors, fits, metadata, gather to
rank 0, and the table of fits handed to the final sorting. The scan of one template at one redshift (`f`), the fit of one target with one template (`fitz`) and the prior (`prior`) are parameters: any
functions.
-/
namespace Redrock

/-- A template as far as the bookkeeping goes: `full_type` and `redshifts`. -/
structure RunTemplate (Z : Type) where
  fulltype : PyStr
  redshifts : List Z

/-- `results[tid][ft]`: `redshifts`, the scan (chi2, penalty, coefficients at every redshift: `rows`) and `zfit` if it was set. -/
structure RunEntry (Z R F : Type) where
  redshifts : List Z
  rows : List R
  zfit : Option F

/-- `results[tid]`: the entries by template, and the key `meta` if it was set. (A template's full type is upper case, so it is never `meta`.) -/
structure RunResult (Z R F M : Type) where
  scans : PyDict PyStr (RunEntry Z R F)
  md : Option M

section
variable {ι T Z R F M : Type} [DecidableEq ι]

/-- zscan.py:950-952  `results[tid] = dict()` for the local targets. -/
def emptyResults (ids : List ι) : PyDict ι (RunResult Z R F M) :=
  ids.foldl (fun d t => PyDict.set d t ⟨[], none⟩) []

/-- zscan.py:1099-1104  one target of the loop after the scan of template `t`; `KeyError` if the scan has a target that is not local. -/
def storeScan (t : RunTemplate Z) (zchi2 : PyDict ι (List R)) (results : PyDict ι (RunResult Z R F M)) (tid : ι) : Py (PyDict ι (RunResult Z R F M)) := do
  let r ← PyDict.get results tid
  let rows ← PyDict.get zchi2 tid
  return PyDict.set results tid { r with scans := PyDict.set r.scans t.fulltype ⟨t.redshifts, rows, none⟩ }

/-- zscan.py:958-1104  the loop body for one template, given the result of its scan. `le` is the order of `sorted`. -/
def storeTemplate (le : ι → ι → Bool) (results : PyDict ι (RunResult Z R F M)) (tz : RunTemplate Z × PyDict ι (List R)) : Py (PyDict ι (RunResult Z R F M)) :=
  (pySort le (PyDict.keys tz.2)).foldlM (storeScan tz.1 tz.2) results

/-- zscan.py:910-1106  `calc_zchi2_targets`; `scan t` is what the MPI, serial or multiprocessing branch returns for template `t` (`Verif/Model/Scan.lean`). -/
def calcZchi2Targets (le : ι → ι → Bool) (scan : RunTemplate Z → Py (PyDict ι (List R))) (templates : List (RunTemplate Z)) (ids : List ι) :
    Py (PyDict ι (RunResult Z R F M)) :=
  templates.foldlM (fun results t => do
    let z ← scan t
    storeTemplate le results (t, z)) (emptyResults ids)

/-- zfind.py:318-321  `results[tg][ft]['zchi2'] += priors.eval(tg, redshifts)` for every target and template in `results` (without priors: `prior` returns the rows). The redshifts are those of the
results, not of the template. -/
def applyPriors (prior : ι → List Z → List R → List R) (results : PyDict ι (RunResult Z R F M)) : PyDict ι (RunResult Z R F M) :=
  results.map (fun e => (e.1, { e.2 with scans := e.2.scans.map (fun s => (s.1, { s.2 with rows := prior e.1 s.2.redshifts s.2.rows })) }))

/-- zfind.py:358-364  one fit: `results[tg.id][ft]['zfit'] = fitz(zchi2 + penalty, t.template.redshifts, tg, t.template, ...)`. -/
def fitStep (fitz : T → RunTemplate Z → List R → Py F) (results : PyDict ι (RunResult Z R F M)) (x : RunTemplate Z × (ι × T)) : Py (PyDict ι (RunResult Z R F M)) := do
  let r ← PyDict.get results x.2.1
  let e ← PyDict.get r.scans x.1.fulltype
  let z ← fitz x.2.2 x.1 e.rows
  return PyDict.set results x.2.1 { r with scans := PyDict.set r.scans x.1.fulltype { e with zfit := some z } }

/-- zfind.py:333-364  the fits of one rank: templates in the order `sorted` (an argsort of the full types), for each the local targets. -/
def fitLocal (fitz : T → RunTemplate Z → List R → Py F) (sorted : List (RunTemplate Z)) (loc : List (ι × T)) (results : PyDict ι (RunResult Z R F M)) : Py (PyDict ι (RunResult Z R F M)) :=
  (sorted.flatMap (fun t => loc.map (fun tg => (t, tg)))).foldlM (fitStep fitz) results

/-- zfind.py:408-409  `results[tg.id]['meta'] = tg.meta`. -/
def metaStepRun (mdOf : T → M) (results : PyDict ι (RunResult Z R F M)) (tg : ι × T) : Py (PyDict ι (RunResult Z R F M)) := do
  let r ← PyDict.get results tg.1
  return PyDict.set results tg.1 { r with md := some (mdOf tg.2) }

/-- zfind.py:318-409  what a rank does with its scan results before the gather. -/
def rankFinish (prior : ι → List Z → List R → List R) (fitz : T → RunTemplate Z → List R → Py F) (mdOf : T → M) (sorted : List (RunTemplate Z)) (loc : List (ι × T))
    (results : PyDict ι (RunResult Z R F M)) : Py (PyDict ι (RunResult Z R F M)) := do
  let r ← fitLocal fitz sorted loc (applyPriors prior results)
  loc.foldlM (metaStepRun mdOf) r

/-- zfind.py:437-454 then 423-434: a rank > 0 sends its results in batches of 5000, rank 0 receives them. A receive that would block for ever is an error here (`C92` shows that it does not happen). -/
def transfer (results : PyDict ι (RunResult Z R F M)) : Py (PyDict ι (RunResult Z R F M)) :=
  match gatherRecv (gatherSend results 5000).1 (gatherSend results 5000).2 with
  | some (d, _) => .ok d
  | none => .error .runtimeError

/-- zfind.py:416-462  rank 0's `allresults`, from the results of the ranks 0, 1, ... -/
def gatherRun (perRank : List (PyDict ι (RunResult Z R F M))) : Py (PyDict ι (RunResult Z R F M)) :=
  match perRank with
  | [] => .ok []
  | root :: others => do
    let received ← others.mapM transfer
    return gatherAll (root :: received)

/-- zfind.py:473  `allresults[tid][fulltype]['zfit']`, `KeyError` if it was not set. -/
def entryFit (s : PyStr × RunEntry Z R F) : Py (PyStr × F) :=
  match s.2.zfit with
  | some z => .ok (s.1, z)
  | none => .error .keyError

/-- zfind.py:467-473 (and 653 for the metadata)  what the final table is made of: for every target of `all_target_ids` its fits, in the order of the templates in `allresults[tid]`, and its metadata. -/
def collectFits (allIds : List ι) (allresults : PyDict ι (RunResult Z R F M)) : Py (List (ι × List (PyStr × F) × Option M)) :=
  allIds.mapM (fun tid => do
    let r ← PyDict.get allresults tid
    let fs ← r.scans.mapM entryFit
    return (tid, fs, r.md))

/-- What the run consists of: templates, the order in which they are fitted, scan, fit, prior, metadata, order of IDs. -/
structure RunCfg (ι T Z R F M : Type) where
  templates : List (RunTemplate Z)
  sorted : List (RunTemplate Z)
  f : RunTemplate Z → T → Z → R
  fitz : T → RunTemplate Z → List R → Py F
  prior : ι → List Z → List R → List R
  mdOf : T → M
  le : ι → ι → Bool

/-- `zfind` without MPI and with `mp_procs == 1`. -/
def serialRun (c : RunCfg ι T Z R F M) (targets : List (ι × T)) (allIds : List ι) : Py (List (ι × List (PyStr × F) × Option M)) := do
  let res ← calcZchi2Targets c.le (fun t => scanSerial (c.f t) (targets.map (·.1)) (targets.map (·.2)) t.redshifts) c.templates (targets.map (·.1))
  let res ← rankFinish c.prior c.fitz c.mdOf c.sorted targets res
  let all ← gatherRun [res]
  collectFits allIds all

/-- `zfind` with MPI: rank `r` has the targets `locs[r]` and saw, for template `t`, the redshift slices `log t r` in turn (`Verif/Model/Mpi.lean`). -/
def mpiRun (c : RunCfg ι T Z R F M) (locs : List (List (ι × T))) (log : RunTemplate Z → Nat → List (Piece Z)) (allIds : List ι) : Py (List (ι × List (PyStr × F) × Option M)) := do
  let perRank ← (locs.zipIdx).mapM (fun lr => do
    let res ← calcZchi2Targets c.le (fun t => scanPieces (c.f t) (lr.1.map (·.1)) (lr.1.map (·.2)) (log t lr.2)) c.templates (lr.1.map (·.1))
    rankFinish c.prior c.fitz c.mdOf c.sorted lr.1 res)
  let all ← gatherRun perRank
  collectFits allIds all

/-- `zfind(..., chi2_scan=file)`: every rank starts from the whole scan read from the file (zfind.py:291-292). -/
def fileRun (c : RunCfg ι T Z R F M) (locs : List (List (ι × T))) (file : PyDict ι (RunResult Z R F M)) (allIds : List ι) : Py (List (ι × List (PyStr × F) × Option M)) := do
  let perRank ← locs.mapM (fun loc => rankFinish c.prior c.fitz c.mdOf c.sorted loc file)
  let all ← gatherRun perRank
  collectFits allIds all

/-- zfind.py:83-101, 373-388  worker process: fits its targets with template `t`, one after the other, and puts the list of (ID, fit) on the queue. -/
def mpFitWorker (fitz : T → RunTemplate Z → List R → Py F) (results : PyDict ι (RunResult Z R F M)) (t : RunTemplate Z) (data : List (ι × T)) : Py (List (ι × F)) :=
  data.mapM (fun tg => do
    let r ← PyDict.get results tg.1
    let e ← PyDict.get r.scans t.fulltype
    let z ← fitz tg.2 t e.rows
    return (tg.1, z))

/-- zfind.py:394-396  `results[rs[0]][ft]['zfit'] = rs[1]`. -/
def mpFitStore (t : RunTemplate Z) (results : PyDict ι (RunResult Z R F M)) (rs : ι × F) : Py (PyDict ι (RunResult Z R F M)) := do
  let r ← PyDict.get results rs.1
  let e ← PyDict.get r.scans t.fulltype
  return PyDict.set results rs.1 { r with scans := PyDict.set r.scans t.fulltype { e with zfit := some rs.2 } }

/-- zfind.py:374  `[ x for x in targets.local() if x.id in mpdist[i] ]`. -/
def mpData (loc : List (ι × T)) (mpdist : List (List ι)) (i : Nat) : List (ι × T) := loc.filter (fun x => decide (x.1 ∈ (mpdist[i]?).getD []))

/-- zfind.py:365-399  the multiprocessing fits with one template; `arrival` is the order in which the started workers deliver. A worker that raises puts nothing on the queue and the parent waits for
ever (an error here). -/
def mpFitTemplate (fitz : T → RunTemplate Z → List R → Py F) (loc : List (ι × T)) (mpdist : List (List ι)) (arrival : RunTemplate Z → List Nat) (results : PyDict ι (RunResult Z R F M))
    (t : RunTemplate Z) : Py (PyDict ι (RunResult Z R F M)) := do
  let msgs ← (arrival t).mapM (fun i => mpFitWorker fitz results t (mpData loc mpdist i))
  msgs.flatten.foldlM (mpFitStore t) results

/-- `zfind` without MPI and with `mp_procs > 1`: `arr1 t`, `arr2 t` are the orders in which the workers deliver in the scan and in the fits with template `t`. -/
def mpRun (c : RunCfg ι T Z R F M) (loc : List (LTarget ι T)) (mpProcs : Nat) (arr1 arr2 : RunTemplate Z → List Nat) (allIds : List ι) : Py (List (ι × List (PyStr × F) × Option M)) := do
  let mpdist ← distributeTargets ℚ mpProcs (loc.map (fun t => (t.id, t.nspec))) none
  let res ← calcZchi2Targets c.le (fun t => scanMp (c.f t) loc mpProcs t.redshifts (arr1 t)) c.templates (loc.map (·.id))
  let res ← c.sorted.foldlM (mpFitTemplate c.fitz (loc.map (fun t => (t.id, t.data))) mpdist arr2) (applyPriors c.prior res)
  let res ← (loc.map (fun t => (t.id, t.data))).foldlM (metaStepRun c.mdOf) res
  let all ← gatherRun [res]
  collectFits allIds all

end
end Redrock
