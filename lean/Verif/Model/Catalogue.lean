import Verif.Model.Run
import Verif.Model.Zfind

/-!
The redshift catalogue of a whole run of `/repo/py/redrock/zfind.py:219-720` (`zfind`): the run (`Verif/Model/Run.lean`) puts the fits of every target together, the finalisation (`Verif/Model/Zfind.lean`)
turns them into the rows of the table.
-/
namespace Redrock

/-- How the targets are processed: by one process, or by MPI ranks (rank `r` has the targets `locs[r]` and saw, for template `t`, the redshift slices `log t r` in turn). -/
inductive RunWay (ι T Z : Type) where
  | serial
  | mpi (locs : List (List (ι × T))) (log : RunTemplate Z → Nat → List (Piece Z))

section
variable {ι T Z R F M : Type} [DecidableEq ι]

/-- zfind.py:280-475  the fits of every target of `allIds`, from a run on `targets` done in the given way. -/
def fitsOfRun (c : RunCfg ι T Z R F M) (targets : List (ι × T)) (allIds : List ι) : RunWay ι T Z → Py (List (ι × List (PyStr × F) × Option M))
  | .serial => serialRun c targets allIds
  | .mpi locs log => mpiRun c locs log allIds

variable {K : Type} [Field K] [LinearOrder K] {σ : Type} [LinearOrder σ]

/-- zfind.py:467-710  the table made of the fits: per-target tables, `vstack`, standardised `coeff` width. Every row keeps its target ID. -/
def finalTable (nminima : Nat) (ibad : Row K σ → Bool) (maxcoeff : Nat) (all : List (ι × List (TemplateFit K σ))) : Py (List (ι × Row K σ)) := do
  let rows ← zfindTables nminima ibad all
  let out ← standardizeCoeff maxcoeff (rows.map (·.2))
  return (rows.map (·.1)).zip out

/-- zfind.py:219-720  `zfind`: run, then table. `fitOf` reads the result of a fit as a `TemplateFit` (zfind.py:470-511; the spectype and subtype come from the full type or the archetype). -/
def zfindCatalogue (c : RunCfg ι T Z R F M) (fitOf : PyStr × F → TemplateFit K σ) (nminima : Nat) (ibad : Row K σ → Bool) (maxcoeff : Nat) (targets : List (ι × T)) (allIds : List ι)
    (way : RunWay ι T Z) : Py (List (ι × Row K σ)) := do
  let cat ← fitsOfRun c targets allIds way
  finalTable nminima ibad maxcoeff (cat.map (fun r => (r.1, r.2.1.map fitOf)))

end
end Redrock
