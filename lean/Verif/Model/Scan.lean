import Verif.Model.Mpi
import Verif.Model.Work
import Mathlib.Algebra.Order.Ring.Rat
import Mathlib.Algebra.Field.Rat

/-!
Model of the bookkeeping in `/repo/py/redrock/zscan.py` (`calc_zchi2`, `_mp_calc_zchi2`,
`calc_zchi2_targets`) and of the gather in `/repo/py/redrock/zfind.py`.

`f tg z : R` stands for everything the scan computes for target `tg` at redshift `z` (chi2, coefficients,
penalty); see `Verif/Model/Chi2.lean` for the computation itself, which treats each redshift of a
slice on its own.
-/
namespace Redrock

section
variable {ι T Z R : Type} [DecidableEq ι]

/-- zscan.py:850-889  `calc_zchi2`: `for j in range(len(target_ids))` with `target_data[j]`, `IndexError` if there is
less data than IDs; one row per ID with one entry per redshift of the slice. -/
def calcZchi2 (f : T → Z → R) (targetIds : List ι) (targetData : List T) (zs : List Z) : Py (List (List R)) :=
  (List.range targetIds.length).mapM (fun j =>
    match targetData[j]? with
    | some tg => .ok (zs.map (f tg))
    | none => .error .indexError)

/-- zscan.py:1011-1018  `zchi2[tid][t.local.index] = tzchi2[i]` for every local target. -/
def storePiece (tids : List ι) (rows : List (List R)) (index : Nat)
    (zchi2 : PyDict ι (PyDict Nat (List R))) : PyDict ι (PyDict Nat (List R)) :=
  (tids.zip rows).foldl (fun d tr =>
    PyDict.set d tr.1 (PyDict.set ((PyDict.get? d tr.1).getD []) index tr.2)) zchi2

/-- python `sorted(d.keys())` for integer keys. -/
def sortedKeys {ν : Type} (d : PyDict Nat ν) : List Nat := pySort (fun a b => decide (a ≤ b)) (PyDict.keys d)

/-- zscan.py:1033-1036  `np.concatenate([zchi2[tid][p] for p in sorted(zchi2[tid].keys())])`. -/
def assemble (zchi2 : PyDict ι (PyDict Nat (List R))) : PyDict ι (List R) :=
  zchi2.map (fun e => (e.1, ((sortedKeys e.2).filterMap (PyDict.get? e.2)).flatten))

/-- zscan.py:985-1036  MPI / serial branch on one rank, given the pieces it processed in turn (the `log` of
the ring in `Verif/Model/Mpi.lean`). -/
def scanPieces (f : T → Z → R) (tids : List ι) (tdata : List T) (pieces : List (Piece Z)) :
    Py (PyDict ι (List R)) := do
  let zchi2 ← pieces.foldlM (fun d p => do
    let rows ← calcZchi2 f tids tdata p.redshifts
    return storePiece tids rows p.index d) []
  return assemble zchi2

/-- the same without MPI and with `mp_procs == 1`: one piece with the whole grid, and `cycle()`
returns True at once (templates.py:622-624). -/
def scanSerial (f : T → Z → R) (tids : List ι) (tdata : List T) (zs : List Z) : Py (PyDict ι (List R)) :=
  scanPieces f tids tdata [{ index := 0, redshifts := zs }]

/-- A local target: ID, number of spectra, data. -/
structure LTarget (ι T : Type) where
  id : ι
  nspec : Nat
  data : T

/-- zscan.py:892-901  what worker `i` puts on `qout`, from the argument lists built at 1056-1059: the IDs in the order of
`mpdist[i]`, the data in the order of `targets.local()`. -/
def mpWorker (f : T → Z → R) (loc : List (LTarget ι T)) (mpdist : List (List ι)) (zs : List Z) (i : Nat) :
    Py (Nat × List (List R)) := do
  let targetIds := (mpdist[i]?).getD []
  let targetData := (loc.filter (fun x => decide (x.id ∈ targetIds))).map (·.data)
  let rows ← calcZchi2 f targetIds targetData zs
  return (i, rows)

/-- zscan.py:1085-1091  the parent stores the rows of one worker's message. -/
def mpStore (mpdist : List (List ι)) (d : PyDict ι (List R)) (res : Nat × List (List R)) : PyDict ι (List R) :=
  (((mpdist[res.1]?).getD []).zip res.2).foldl (fun d tr => PyDict.set d tr.1 tr.2) d

/-- zscan.py:1053-1055  the workers that are started. -/
def mpStarted (mpdist : List (List ι)) (mpProcs : Nat) : List Nat :=
  (List.range mpProcs).filter (fun i => !((mpdist[i]?).getD []).isEmpty)

/-- zscan.py:946-948, 1037-1094  multiprocessing branch; `arrival` is the order in which the messages of
the started workers come out of the queue. Simplification: the workers do not fail (see the queue
protocol for failures). -/
def scanMp (f : T → Z → R) (loc : List (LTarget ι T)) (mpProcs : Nat) (zs : List Z) (arrival : List Nat) :
    Py (PyDict ι (List R)) := do
  let mpdist ← distributeTargets ℚ mpProcs (loc.map (fun t => (t.id, t.nspec))) none
  let msgs ← arrival.mapM (mpWorker f loc mpdist zs)
  return msgs.foldl (mpStore mpdist) []

end

section Gather
variable {ι V : Type} [DecidableEq ι]

/-- zfind.py:437-454  the messages a rank > 0 sends: the number of batches, then the batches. -/
def gatherSend (results : PyDict ι V) (maxPerSend : Nat) : Nat × List (PyDict ι V) :=
  if results.length < maxPerSend then (1, [results])
  else
    let numBatches := (results.length - 1) / maxPerSend + 1
    -- `for i in range(0, len(results), max_targets_per_send)`
    let starts := (List.range ((results.length + maxPerSend - 1) / maxPerSend)).map (· * maxPerSend)
    (numBatches, starts.map (fun i => (results.drop i).take maxPerSend))

/-- zfind.py:423-434  rank 0: receive the count, then that many batches, merging with `dict.update`. The second component
is what is left in the channel. `none` if a receive would block. -/
def gatherRecv (num : Nat) (batches : List (PyDict ι V)) : Option (PyDict ι V × List (PyDict ι V)) :=
  if batches.length < num then none
  else some ((batches.take num).foldl PyDict.update [], batches.drop num)

/-- zfind.py:458-462  `allresults.update(p)` over the ranks in order. -/
def gatherAll (perRank : List (PyDict ι V)) : PyDict ι V := perRank.foldl PyDict.update []

end Gather
end Redrock
