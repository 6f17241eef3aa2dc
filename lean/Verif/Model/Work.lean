import Verif.Model.Py
import Mathlib.Algebra.Order.Field.Basic
import Mathlib.Data.List.Basic

/-!
Model of `/repo/py/redrock/utils.py`: `distribute_work`, `get_mp`, `reduced_wavelength`, and of
`distribute_targets` in `/repo/py/redrock/targets.py`.
-/
namespace Redrock

section
variable {K : Type} [Field K] [LinearOrder K] {ι : Type}

/-- utils.py:216  `dict(id=i, capacity=c, load=0)`: one process. -/
structure Proc (K : Type) where
  id : Nat
  capacity : K
  load : K
  deriving DecidableEq

/-- utils.py:221  the tuple `((p['load'] + w)/p['capacity'], 1/p['capacity'], p['id'])`; python
compares tuples lexicographically. -/
def Proc.key (w : K) (p : Proc K) : K ×ₗ (K ×ₗ Nat) :=
  toLex ((p.load + w) / p.capacity, toLex (1 / p.capacity, p.id))

/-- utils.py:212-216  the two mutable lists `dist` and `processes`. -/
structure DistState (K ι : Type) where
  dist : List (List ι)
  processes : List (Proc K)

/-- utils.py:218-225  body of `for id in sids`. Division by a zero capacity raises
`ZeroDivisionError` as in python (capacities are python numbers). -/
def distStep (weights : ι → K) (s : DistState K ι) (id : ι) : Py (DistState K ι) := do
  let w := weights id
  if s.processes.any (fun p => decide (p.capacity = 0)) then throw .zeroDivision
  let minload ← pyMinBy (Proc.key w) s.processes
  let i ← pyIndex s.processes minload
  if i < s.dist.length then
    return { dist := s.dist.modify i (fun l => l ++ [id]),
             processes := s.processes.modify i (fun p => { p with load := p.load + w }) }
  else throw .indexError

/-- utils.py:205  `sorted(ids, key=lambda x: weights[x], reverse=True)`: python's sort is stable, also
with `reverse=True`. -/
def sortByWeightDesc (weights : ι → K) (ids : List ι) : List ι :=
  pySort (fun a b => decide (weights b ≤ weights a)) ids

/-- utils.py:185-227  `distribute_work(nproc, ids, weights, capacities)`. Simplification: `weights` is
a total function (the python dictionary has an entry for every ID, else `KeyError`). -/
def distributeWork (nproc : Nat) (ids : List ι) (weights : ι → K) (capacities : List K) :
    Py (List (List ι)) := do
  let sids := sortByWeightDesc weights ids
  let dist : List (List ι) := List.replicate nproc []
  let processes := capacities.zipIdx.map (fun ci => ({ id := ci.2, capacity := ci.1, load := 0 } : Proc K))
  let s ← sids.foldlM (distStep weights) { dist := dist, processes := processes }
  return s.dist

/-- utils.py:203-209  the default arguments: `weights=None` gives weight 1 to every ID,
`capacities=None` gives `[1]*nproc`. -/
def distributeWorkDefault (K : Type) [Field K] [LinearOrder K] (nproc : Nat) (ids : List ι)
    (weights : Option (ι → K)) (capacities : Option (List K)) : Py (List (List ι)) :=
  distributeWork nproc ids (weights.getD (fun _ => 1)) (capacities.getD (List.replicate nproc 1))

/-- targets.py:492-518  `distribute_targets`: the weight of a target is its number of spectra.
Targets are given by (id, number of spectra); IDs of targets are assumed unique, as in the code's
dictionary. -/
def distributeTargets (K : Type) [Field K] [LinearOrder K] [DecidableEq ι] (nproc : Nat)
    (targets : List (ι × Nat)) (capacities : Option (List K)) : Py (List (List ι)) :=
  distributeWorkDefault K nproc (targets.map (·.1))
    (some fun i => (((targets.find? (fun t => decide (t.1 = i))).map (·.2)).getD 0 : Nat)) capacities

/-- external/desi.py:981  `[1 if is_gpu_proc else 1.0/10000 for is_gpu_proc in gpu_proc_flags]`, used
when there are both GPU and CPU-only ranks. -/
def gpuCapacities (K : Type) [Field K] (gpuProcFlags : List Bool) : List K :=
  gpuProcFlags.map (fun isGpu => if isGpu then 1 else 1 / 10000)

/-- external/desi.py:974-989, 476-484  the target distribution of a run in GPU mode: with GPU ranks only, or CPU
ranks only, `capacities=None`. -/
def distributeGpuMode (K : Type) [Field K] [LinearOrder K] (gpuProcFlags : List Bool) (ids : List ι)
    (weights : Option (ι → K)) : Py (List (List ι)) :=
  distributeWorkDefault K gpuProcFlags.length ids weights
    (if true ∈ gpuProcFlags ∧ false ∈ gpuProcFlags then some (gpuCapacities K gpuProcFlags) else none)

/-- utils.py:260-271  `reduced_wavelength(wave)`. `np.min`/`np.max` of an empty array raise. -/
def reducedWavelength (wave : List K) : Py (List K) :=
  match wave.max?, wave.min? with
  | some wmax, some wmin => .ok (wave.map (fun w => 2 * (w - wmin) / (wmax - wmin) - 1))
  | _, _ => .error .valueError

end

/-- utils.py:99-105  `nersc_login_node()` on the two relevant environment facts. -/
def nerscLoginNode (nerscHostSet slurmJobNameSet : Bool) : Bool :=
  if nerscHostSet && !slurmJobNameSet then true else false

/-- utils.py:108-150  `get_mp(requested)`; `cpuCount` is `mp.cpu_count()`. -/
def getMp (cpuCount : Nat) (login : Bool) (requested : Int) : Int :=
  let mpmax : Int := cpuCount
  let half := mpmax / 2
  let mpbest := if half = 0 then 1 else half
  let procs := if requested = 0 then mpbest else if requested > mpmax then mpmax else requested
  if login then (if procs > 4 then 4 else procs) else procs

end Redrock
