import Verif.Model.Scan

/-!
Model of `DistTargets.wavegrids` and `DistTargetsCopy` in `/repo/py/redrock/targets.py:390-577`.
-/
namespace Redrock

section
variable {ι T : Type} [DecidableEq ι]

/-- What one rank's `DistTargetsCopy` object holds. -/
structure LocalTargets (ι T : Type) where
  allTargetIds : List ι
  myTargets : List ι
  myData : List (LTarget ι T)

/-- targets.py:555-566  `tbuf`: the broadcast targets this rank keeps, keyed by ID. -/
def targetBuffer (targets : List (LTarget ι T)) (mine : List ι) : PyDict ι (LTarget ι T) :=
  targets.foldl (fun d tg => if tg.id ∈ mine then PyDict.set d tg.id tg else d) []

/-- targets.py:534-577  `DistTargetsCopy(targets, comm)` on rank `rank`. `commSize = none` is `comm=None`.
Every rank must pass the same list `targets` (as `rrboss` does): the constructor uses the argument on all ranks. -/
def distTargetsCopy (targets : List (LTarget ι T)) (commSize : Option Nat) (rank : Nat) :
    Py (LocalTargets ι T) := do
  let size := commSize.getD 1
  let allIds := targets.map (·.id)
  let procTargets ← distributeTargets ℚ size (targets.map (fun t => (t.id, t.nspec))) none
  match procTargets[rank]? with
  | none => throw .indexError
  | some myTargets =>
    match commSize with
    | none => return { allTargetIds := allIds, myTargets := myTargets, myData := targets }
    | some _ =>
      let tbuf := targetBuffer targets myTargets
      let myData ← myTargets.mapM (fun x => PyDict.get tbuf x)
      return { allTargetIds := allIds, myTargets := myTargets, myData := myData }

end

section Wave
variable {H W : Type} [DecidableEq H]

/-- targets.py:472-476 (and 483-485)  `if k not in d: d[k] = v` for each pair in turn. -/
def addMissing (d : PyDict H W) (pairs : List (H × W)) : PyDict H W :=
  pairs.foldl (fun d kv => if (PyDict.get? d kv.1).isSome then d else PyDict.set d kv.1 kv.2) d

/-- targets.py:471-476  `my_dwave` of a rank from the (wavehash, wave) of the spectra of its local targets in
order. -/
def myDwave (spectra : List (H × W)) : PyDict H W := addMissing [] spectra

/-- targets.py:468-489  `wavegrids()`: `none` without MPI; with MPI, `allgather` then merge in rank order. -/
def wavegridsSerial (spectra : List (H × W)) : PyDict H W := myDwave spectra
def wavegridsMpi (perRank : List (List (H × W))) : PyDict H W :=
  (perRank.map myDwave).foldl addMissing []

end Wave
end Redrock
