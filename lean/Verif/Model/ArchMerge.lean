import Verif.Model.Zfind
import Verif.Model.Dict
import Verif.Model.Strings

/-!
Model of the part of `/repo/py/redrock/zfind.py` that stacks the column dictionaries of several templates into one table when archetypes are in use
(lines 470-553), of the `NEGATIVE_MODEL` flag (557-578), of the metadata columns (627-666) and of `extra_columns_in_archetype_mode` (utils.py:270-278).
-/
namespace Redrock

section
variable {K : Type} [Field K] [LinearOrder K]

/-- One entry `a[i,j]` of an array with at least two axes: a number, a string, or (for an array with three axes) a vector of numbers. -/
inductive Cell (K : Type) where
  | num (v : K)
  | str (s : PyStr)
  | vec (v : List K)
  deriving DecidableEq

/-- A numpy array with two or three axes, as the list of its rows. A 1-d column of a table (after `.flatten()`) is the list of rows of length one. -/
abbrev Arr (K : Type) := List (List (Cell K))

/-- `a.shape[1]` of an array with at least one row. -/
def arrWidth (a : Arr K) : Nat := (a.headD []).length

/-- `np.pad(val, ((0,0),(0, max(0, w - val.shape[1]))), constant_values=0)[:, :w]` (zfind.py:533, 537). -/
def padTo (w : Nat) (val : Arr K) : Arr K :=
  val.map (fun r => (r ++ List.replicate (w - arrWidth val) (.num 0)).take w)

/-- One entry of `np.zeros_like`: 0 for numbers, the empty string for strings. -/
def Cell.zero : Cell K → Cell K
  | .num _ => .num 0
  | .str _ => .str []
  | .vec v => .vec (v.map (fun _ => 0))

/-- `np.zeros_like(a)`. -/
def zerosLike (a : Arr K) : Arr K := a.map (fun r => r.map Cell.zero)

/-- utils.py:273  `pca_map`. -/
def pcaMap : PyDict String String := [("pca_coeff", "coeff"), ("pca_subtype", "subtype"), ("pca_spectype", "spectype")]

/-- utils.py:274  `zero_like_keys`. -/
def zeroLikeKeys : List String := ["archcoeff", "legcoeff"]

/-- zfind.py:526-539  the value `val` appended for column `k` of one template, in archetype mode (`archetypes` true). `ref` is the column of the first template, `prev` the
python variable `val` left over from the previous round (none: not yet assigned), which is used if the template has neither the column nor a substitute. -/
def mergeVal (k : String) (ref : Arr K) (prev : Option (Arr K)) (tmp : PyDict String (Arr K)) : Py (Arr K) :=
  match PyDict.get? tmp k with
  | some val => if (PyDict.get? pcaMap k).isSome then .ok (padTo (arrWidth ref) val) else .ok val
  | none =>
    match (PyDict.get? pcaMap k).bind (fun src => PyDict.get? tmp src) with
    | some val => .ok (padTo (arrWidth ref) val)
    | none =>
      if k ∈ zeroLikeKeys then .ok (zerosLike ref)
      else match prev with
        | some v => .ok v
        | none => .error .unboundLocal

/-- zfind.py:526-540  the loop over the templates for one column: the list to be stacked and the final value of `val`. -/
def mergeVals (k : String) (ref : Arr K) : List (PyDict String (Arr K)) → Option (Arr K) → Py (List (Arr K) × Option (Arr K))
  | [], prev => .ok ([], prev)
  | tmp :: rest, prev => do
    let val ← mergeVal k ref prev tmp
    let (vs, last) ← mergeVals k ref rest (some val)
    return (val :: vs, last)

/-- The shape of one entry: `none` for a scalar, the length for a vector. -/
def Cell.shape : Cell K → Option Nat
  | .num _ => none
  | .str _ => none
  | .vec v => some v.length

/-- `np.vstack` of arrays with at least two axes: concatenation along the first axis, `ValueError` unless all other axes agree. (numpy would turn numbers into
strings where both kinds meet; this model keeps them.) -/
def npVstack (as : List (Arr K)) : Py (Arr K) :=
  let rows := as.flatten
  if rows.all (fun r => decide (r.map Cell.shape = (rows.headD []).map Cell.shape)) then .ok rows else .error .valueError

/-- The scalars of one entry in C order. -/
def Cell.scalars : Cell K → List (Cell K)
  | .num v => [.num v]
  | .str s => [.str s]
  | .vec v => v.map .num

/-- `a.flatten()`, as rows of length one. -/
def arrFlatten (a : Arr K) : Arr K := (a.flatMap (fun r => r.flatMap Cell.scalars)).map (fun c => [c])

/-- zfind.py:522-544  one column of the stacked table and the leftover `val`. -/
def mergeColumn (tzfit : List (PyDict String (Arr K))) (prev : Option (Arr K)) (k : String) (ref : Arr K) : Py (Arr K × Option (Arr K)) := do
  let (vals, last) ← mergeVals k ref tzfit prev
  let col ← npVstack vals
  return (if k ≠ "coeff" ∧ arrWidth col = 1 then arrFlatten col else col, last)

/-- zfind.py:523  `for k in tzfit[0].keys()`: only the columns of the first template are stacked. -/
def mergeColumns (tzfit : List (PyDict String (Arr K))) : List (String × Arr K) → Option (Arr K) → Py (PyDict String (Arr K))
  | [], _ => .ok []
  | (k, ref) :: ks, prev => do
    let (col, last) ← mergeColumn tzfit prev k ref
    let rest ← mergeColumns tzfit ks last
    return (k, col) :: rest

/-- zfind.py:521-545  `tzfit = tzfit2`: the stacked table of one target in archetype mode. `IndexError` (`tzfit[0]`) without templates (before that, line 513 would have
raised already, see `targetRows`). -/
def mergeTemplates (tzfit : List (PyDict String (Arr K))) : Py (PyDict String (Arr K)) :=
  match tzfit with
  | [] => .error .indexError
  | first :: _ => mergeColumns tzfit first none

/-- zfind.py:78-80  `for k in d.keys(): d[k] = d[k][idx]` (also 596-598 with `iikeep`). -/
def takeRows (d : PyDict String (Arr K)) (idx : List Nat) : Py (PyDict String (Arr K)) :=
  d.mapM (fun kv => do
    let col ← npTake kv.2 idx
    return (kv.1, col))

/-- zfind.py:558-576  the test `ibad` for one row. `archTypes` is `list(archetypes.keys())`, `allTypes` the distinct `template_type`s (zfind.py:327-330), `coeff` the
row of `tzfit['coeff']`. -/
def negativeModel (archTypes allTypes : List PyStr) (nNearest : Option Nat) (spectype : PyStr) (coeff : List K) : Bool :=
  if archTypes.length = allTypes.length then
    match nNearest with
    | none => decide (coeff.getD 0 0 ≤ 0)
    | some n => (coeff.take n).any (fun c => decide (c < 0))
  else
    let ibad := decide (spectype ∈ archTypes)
    if ibad then
      match nNearest with
      | none => if 0 ≤ coeff.getD 0 0 then false else ibad
      | some n => if (coeff.take n).all (fun c => decide (0 ≤ c)) then false else ibad
    else ibad

/-- zfind.py:327-330  `all_spectype`: distinct template types in order of appearance. -/
def allSpectypes (types : List PyStr) : List PyStr :=
  types.foldl (fun acc t => if t ∉ acc then acc ++ [t] else acc) []

end
end Redrock
