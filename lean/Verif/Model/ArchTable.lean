import Verif.Model.ArchMerge
import Mathlib.Data.List.Lex
import Mathlib.Data.String.Basic

/-!
The table of one target in archetype mode from the dictionaries `fitz` returns to the published rows (`/repo/py/redrock/zfind.py` 467-617).
-/
namespace Redrock.ArchTable

section
variable {K : Type} [Field K] [LinearOrder K]

/-- A table of `zfind`: a dictionary of columns. The integer columns `zwarn`, `npixels` and `ncoeff` are kept apart as natural numbers: they are in every dictionary, so stacking them is concatenation (zfind.py:523-544 with `k in
tzfit[i].keys()`). -/
structure Tab (K : Type) where
  zwarn : List Nat
  npixels : List Nat
  ncoeff : List Nat
  cols : PyDict String (Arr K)

/-- Entry `i` of a numerical column (every reader below is used on columns that have one number per row). -/
def numAt (cols : PyDict String (Arr K)) (k : String) (i : Nat) : K :=
  match (PyDict.get? cols k).bind (fun a => a[i]?) with
  | some [.num v] => v
  | _ => 0

/-- Entry `i` of a column of strings. -/
def strAt (cols : PyDict String (Arr K)) (k : String) (i : Nat) : PyStr :=
  match (PyDict.get? cols k).bind (fun a => a[i]?) with
  | some [.str s] => s
  | _ => []

/-- Row `i` of the 2-d column `coeff`. -/
def coeffAt (cols : PyDict String (Arr K)) (i : Nat) : List K :=
  match (PyDict.get? cols "coeff").bind (fun a => a[i]?) with
  | some r => r.map (fun c => match c with | .num v => v | _ => 0)
  | none => []

/-- What `zfind` reads of row `i` (for flags, order and deltachi2). -/
def Tab.rowAt (t : Tab K) (i : Nat) : Row K PyStr :=
  { z := numAt t.cols "z" i, zerr := numAt t.cols "zerr" i, zwarn := t.zwarn.getD i 0, chi2 := numAt t.cols "chi2" i, npixels := t.npixels.getD i 0, spectype := strAt t.cols "spectype" i,
    subtype := strAt t.cols "subtype" i, ncoeff := t.ncoeff.getD i 0, coeff := coeffAt t.cols i, maxVelo := numAt t.cols "max_velo_diff" i, znum := 0, deltachi2 := 0 }

/-- All rows; `l = len(tzfit['chi2'])`. -/
def Tab.rows (t : Tab K) : List (Row K PyStr) := (List.range t.zwarn.length).map t.rowAt

/-- python `s.upper() == 'STAR'` (ASCII). -/
def isStarName (s : PyStr) : Bool := decide (s.map Char.toUpper = "STAR".toList)

/-- `el[0]` for the rows of the column `fulltype`. -/
def fullTypes (a : Arr K) : Py (List PyStr) := a.mapM (fun r => match r with | .str s :: _ => .ok s | _ => .error .typeError)

/-- zfind.py:479-511  what is added to the result of `fitz` for one template: types (from `fulltype` if the fit has that column, one per candidate), `ncoeff` and `max_velo_diff`. `none`: no candidates, skipped (495-497). With
a list of types the first one decides about stars (509). -/
def prep (fulltype : PyStr) (zwarn npixels : List Nat) (cols : PyDict String (Arr K)) : Py (Option (Tab K)) := do
  let types : List (PyStr × PyStr) × Bool ←
    (match PyDict.get? cols "fulltype" with
    | some a => do
      let fts ← fullTypes a
      let ps ← fts.mapM parseFulltype
      pure (ps, match ps with | [] => false | p :: _ => isStarName p.1)
    | none => do
      let p ← parseFulltype fulltype
      pure (List.replicate zwarn.length p, isStarName p.1) : Py (List (PyStr × PyStr) × Bool))
  let cols := cols.filter (fun kv => decide (kv.1 ≠ "fulltype"))
  if zwarn.length = 0 then return none
  if types.1.length ≠ zwarn.length then throw .assertionError
  let coeff ← PyDict.get cols "coeff"
  let cols := PyDict.set cols "spectype" (types.1.map (fun p => [.str p.1]))
  let cols := PyDict.set cols "subtype" (types.1.map (fun p => [.str p.2]))
  let cols := PyDict.set cols "max_velo_diff" (List.replicate zwarn.length [.num (maxVeloDiff types.2)])
  return some { zwarn, npixels, ncoeff := List.replicate zwarn.length (arrWidth coeff), cols }

/-- zfind.py:513-520  coefficients are widened with zeros. -/
def padCoeff (n : Nat) (t : Tab K) : Tab K :=
  match PyDict.get? t.cols "coeff" with
  | some c => { t with cols := PyDict.set t.cols "coeff" (c.map (fun r => r ++ List.replicate (n - arrWidth c) (.num 0))) }
  | none => t

/-- zfind.py:521-545  the stacked table. -/
def merge (ts : List (Tab K)) : Py (Tab K) := do
  let cols ← mergeTemplates (ts.map (·.cols))
  return { zwarn := (ts.map (·.zwarn)).flatten, npixels := (ts.map (·.npixels)).flatten, ncoeff := (ts.map (·.ncoeff)).flatten, cols }

/-- zfind.py:552-581  flags. -/
def Tab.flag (ibad : Row K PyStr → Bool) (t : Tab K) : Tab K := { t with zwarn := t.rows.map (fun r => (flagRow ibad r).zwarn) }

/-- `for k in tzfit.keys(): tzfit[k] = tzfit[k][idx]` -/
def Tab.take (t : Tab K) (idx : List Nat) : Py (Tab K) := do
  let zwarn ← npTake t.zwarn idx
  let npixels ← npTake t.npixels idx
  let ncoeff ← npTake t.ncoeff idx
  let cols ← takeRows t.cols idx
  return { zwarn, npixels, ncoeff, cols }

/-- zfind.py:206-218, 53-81  `np.lexsort` of the two keys of `sort_zfit_dict`. -/
def Tab.order (t : Tab K) : List Nat :=
  lexsort2 (fun i j => decide ((t.rowAt i).chi2 ≤ (t.rowAt j).chi2)) (fun i j => decide ((t.rowAt i).bad = true → (t.rowAt j).bad = true)) t.zwarn.length

/-- zfind.py:590-593  `iikeep`. -/
def Tab.keep (nminima : Nat) (t : Tab K) : List Nat :=
  (npUnique (t.rows.map (·.spectype))).flatMap (fun s => ((List.range t.zwarn.length).filter (fun i => decide ((t.rowAt i).spectype = s))).take nminima)

/-- zfind.py:583-602  sort, trim, sort again. -/
def Tab.sortTrim (nminima : Nat) (t : Tab K) : Py (Tab K) := do
  let t ← t.take t.order
  if (t.keep nminima).length < t.zwarn.length then do
    let t ← t.take (t.keep nminima)
    t.take t.order
  else return t

/-- A finished table of one target. -/
structure Out (K : Type) where
  zwarn : List Nat
  znum : List Nat
  deltachi2 : List K
  npixels : List Nat
  ncoeff : List Nat
  cols : PyDict String (Arr K)

/-- zfind.py:604-619  `znum`, `deltachi2`, the last flag; `max_velo_diff` is removed; `Table` raises `ValueError` unless all columns have the same length. -/
def Tab.finish (t : Tab K) : Py (Out K) := do
  let rows := finishRows t.rows
  let cols := t.cols.filter (fun kv => decide (kv.1 ≠ "max_velo_diff"))
  if cols.any (fun kv => decide (kv.2.length ≠ t.zwarn.length)) then throw .valueError
  return { zwarn := rows.map (·.zwarn), znum := rows.map (·.znum), deltachi2 := rows.map (·.deltachi2), npixels := t.npixels, ncoeff := t.ncoeff, cols }

/-- zfind.py:553-619  from the stacked table to the finished one. The columns that are read must be there. -/
def finishTable (nminima : Nat) (ibad : Row K PyStr → Bool) (t : Tab K) : Py (Out K) := do
  if ["chi2", "z", "coeff", "spectype", "max_velo_diff"].any (fun k => (PyDict.get? t.cols k).isNone) then throw .keyError
  let t ← (t.flag ibad).sortTrim nminima
  t.finish

/-- zfind.py:557-576  the test for `NEGATIVE_MODEL`. -/
def archIbad (archTypes allTypes : List PyStr) (nNearest : Option Nat) (r : Row K PyStr) : Bool := negativeModel archTypes allTypes nNearest r.spectype r.coeff

/-- `allresults[tid][fulltype]['zfit']`: the result of `fitz` for one template. -/
structure Fit (K : Type) where
  fulltype : PyStr
  zwarn : List Nat
  npixels : List Nat
  cols : PyDict String (Arr K)

/-- zfind.py:470-619  the table of one target from the fits of its templates. -/
def archTable (nminima : Nat) (archTypes allTypes : List PyStr) (nNearest : Option Nat) (fits : List (Fit K)) : Py (Out K) := do
  let ts ← fits.mapM (fun f => prep f.fulltype f.zwarn f.npixels f.cols)
  let ts := ts.filterMap id
  let maxncoeff ← pyMaxNat (ts.map (fun t => (PyDict.get? t.cols "coeff").elim 0 arrWidth))
  let t ← merge (ts.map (padCoeff maxncoeff))
  finishTable nminima (archIbad archTypes allTypes nNearest) t

end
end Redrock.ArchTable
