import Verif.Model.Mpi
import Verif.Model.Dict

/-!
Model of `_rebalance_after_scan` (`/repo/py/redrock/zfind.py` 158-192): after the scan rank 0 gathers the targets and the results of all ranks, deals the targets out evenly and scatters them with
their results. (The call in `zfind` is commented out at this commit.) Communication is not modelled beyond this: the value is what each rank has afterwards, or the exception on rank 0.
-/
namespace Redrock
namespace Rebalance
variable {T ι R : Type} [DecidableEq ι]

/-- zfind.py:175-180  the targets of one rank: `flattened_targets[i[0]:i[0] + len(i)]`, nothing for an empty index array. -/
def slice (flat : List T) (i : List Nat) : List T :=
  match i with
  | [] => []
  | a :: _ => (flat.drop a).take i.length

/-- zfind.py:182  `{k: v for d in results for k, v in d.items()}`. -/
def mergeResults (results : List (PyDict ι R)) : PyDict ι R := results.flatten.foldl (fun d kv => PyDict.set d kv.1 kv.2) []

/-- zfind.py:184  `{t.id: results[t.id] for t in s}`. -/
def resultsOf (id : T → ι) (merged : PyDict ι R) (s : List T) : Py (PyDict ι R) :=
  s.foldlM (fun d t => do
    let r ← PyDict.get merged (id t)
    return PyDict.set d (id t) r) []

/-- zfind.py:158-192  what each rank has afterwards. `ranks` are the targets and results each rank has before. -/
def rebalance (id : T → ι) (ranks : List (List T × PyDict ι R)) : Py (List (List T × PyDict ι R)) := do
  let flat := (ranks.map (·.1)).flatten
  let ix ← arraySplit (List.range flat.length) ranks.length
  let dist := ix.map (slice flat)
  let merged := mergeResults (ranks.map (·.2))
  let distResults ← dist.mapM (resultsOf id merged)
  return dist.zip distResults

end Rebalance
end Redrock
