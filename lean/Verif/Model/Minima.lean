import Verif.Model.Py
import Verif.Model.Ext
import Verif.Model.Dict
import Mathlib.Analysis.SpecialFunctions.Log.Basic

/-!
Model of `find_minima` in `/repo/py/redrock/fitz.py` and of `/repo/py/redrock/priors.py`.
-/
namespace Redrock

/-- `np.where(mask)[0]`: the indices at which a boolean array is true, increasing. -/
def npWhere (mask : List Bool) : List Nat :=
  (List.range mask.length).filter (fun i => mask.getD i false)

/-- Fancy indexing `x[ii]` with non-negative indices; `IndexError` if one is out of bounds. -/
def npTake {V : Type} (x : List V) (ii : List Nat) : Py (List V) :=
  ii.mapM (fun i => match x[i]? with
    | some v => .ok v
    | none => .error .indexError)

/-- What numpy documents about `np.argsort` (default kind, not stable): a permutation of the positions such
that the values in that order are sorted. `le` is numpy's sort order. -/
def IsArgsort {V : Type} (le : V → V → Bool) (argsort : List V → List Nat) : Prop :=
  ∀ v : List V, (argsort v).Perm (List.range v.length) ∧
    (argsort v).Pairwise (fun i j => ∀ a b : V, v[i]? = some a → v[j]? = some b → le a b = true)

/-- fitz.py:46-67  `find_minima(x)`:
`ii = np.where(np.r_[True, x[1:]<=x[:-1]] & np.r_[x[:-1]<=x[1:], True])[0]; jj = np.argsort(x[ii]); return ii[jj]`.
`argsort` is any function meeting numpy's contract. An empty `x` gives the one-element mask `[True]`, hence `ii=[0]`
and an `IndexError`. -/
def findMinima {K : Type} [LE K] [DecidableRel (α := K) (· ≤ ·)]
    (argsort : List (Ext K) → List Nat) (x : List (Ext K)) : Py (List Nat) := do
  let left := true :: List.zipWith Ext.le x.tail x.dropLast
  let right := List.zipWith Ext.le x.dropLast x.tail ++ [true]
  let ii := npWhere (List.zipWith (· && ·) left right)
  let xi ← npTake x ii
  let jj := argsort xi
  npTake ii jj

section
variable {K : Type} [Field K] [LinearOrder K]

/-- priors.py:64-73  `gaussian(z,z0,s0)` at one redshift (numpy broadcasts over the grid). -/
def gaussianPrior (z0 s0 z : K) : K := ((z - z0) / s0) ^ 2

/-- priors.py:76-86  `lorentzien(z,z0,s0)` at one redshift: `-2*np.log(1/(1.+((z-z0)/s0)**2))`. -/
noncomputable def lorentzPrior (z0 s0 z : ℝ) : ℝ := -2 * Real.log (1 / (1 + ((z - z0) / s0) ^ 2))

/-- priors.py:111-131  `tophat(z, z0, s0)`. `index_left`, `index_right` are the first and last index with
`prior>=0.0`; the writes are done in the same order as in the source. -/
def tophat (z : List K) (z0 s0 : K) : List (Ext K) :=
  let prior : List (Ext K) := z.map (fun v => if |v - z0| < s0 / 2 then .fin 0 else .nan)
  if prior.all Ext.isNan then prior
  else
    let good := npWhere (prior.map (fun p => Ext.le (.fin 0) p))
    let index_left := good.headD 0
    let index_right := good.getLastD 0
    let prior := if index_left = 0 then prior.set index_left .inf else prior.set (index_left - 1) .inf
    if index_right = prior.length - 1 then prior.set index_right .inf
    else prior.set (index_right + 1) .inf

/-- priors.py:31-40  `Priors.__init__`: `{targetid[i]: {'Z': z[i], 'SIGMA': sigma[i]} for i in range(z.size)}` (a dict
comprehension sets the keys in order). -/
def loadPriors {ι : Type} [DecidableEq ι] (rows : List (ι × K × K)) : PyDict ι (K × K) :=
  rows.foldl (fun d r => d.set r.1 (r.2.1, r.2.2)) []

/-- priors.py:45-61 and zfind.py:318-322  `zchi2 += priors.eval(tg, redshifts)`: the contribution is `func(z, z0, s0)` if the
target is listed, the scalar 0 otherwise. -/
def applyPrior {ι : Type} [DecidableEq ι] (func : List K → K → K → List (Ext K)) (param : PyDict ι (K × K)) (tid : ι)
    (redshifts : List K) (zchi2 : List (Ext K)) : List (Ext K) :=
  match param.get? tid with
  | some (z0, s0) => List.zipWith Ext.add zchi2 (func redshifts z0 s0)
  | none => zchi2.map (fun v => Ext.add v (.fin 0))

end
end Redrock
