import Verif.Model.DesiFlags
import Verif.Model.Details
import Verif.Model.Strings

/-!
The published redshift catalogue: how `rrdesi` (`/repo/py/redrock/external/desi.py` lines 1158-1190) and `rrboss` (`/repo/py/redrock/external/boss.py` lines 478-488) make the table `zbest` out of the table
`zfit` of all candidates. Tables are lists of named columns, in order; `astropy`'s operations on them are modelled one by one.
-/
namespace Redrock

/-- One entry of a table column. -/
inductive TabCell (K : Type) where
  | int (i : Int)
  | flt (x : K)
  | arr (xs : List K)
  | str (s : PyStr)
  deriving DecidableEq

/-- An `astropy.table.Table`: columns with names, in order. -/
abbrev Tab (K : Type) := List (PyStr × List (TabCell K))

/-- `Table.colnames`. -/
def Tab.names {K : Type} (T : Tab K) : List PyStr := T.map (·.1)

/-- `T[name]`, `KeyError` if there is no such column. -/
def Tab.col {K : Type} (T : Tab K) (name : PyStr) : Py (List (TabCell K)) :=
  match T.find? (fun c => decide (c.1 = name)) with
  | some c => .ok c.2
  | none => .error .keyError

/-- The entries of a column where `mask` is true. -/
def selectMask {α : Type} (mask : List Bool) (col : List α) : List α := ((mask.zip col).filter (fun p => p.1)).map (·.2)

/-- `T[mask]`: the rows where `mask` is true. -/
def Tab.rowsWhere {K : Type} (T : Tab K) (mask : List Bool) : Tab K := T.map (fun c => (c.1, selectMask mask c.2))

/-- `T.remove_columns(names)`: `KeyError` if one of them does not exist. -/
def Tab.removeColumns {K : Type} (T : Tab K) (names : List PyStr) : Py (Tab K) :=
  if names.all (fun n => decide (n ∈ T.names)) then .ok (T.filter (fun c => decide (c.1 ∉ names))) else .error .keyError

/-- `T.rename_column(old, new)`: `KeyError` if `old` does not exist, or if `new` does. -/
def Tab.renameColumn {K : Type} (T : Tab K) (old new : PyStr) : Py (Tab K) :=
  if old ∉ T.names then .error .keyError
  else if new ∈ T.names then .error .keyError
  else .ok (T.map (fun c => if c.1 = old then (new, c.2) else c))

/-- python `s.islower()` for names in ASCII: at least one letter, and no upper-case letter. -/
def asciiIsLower (s : PyStr) : Bool := s.any Char.isLower && s.all (fun c => !c.isUpper)

/-- python `s.upper()` for names in ASCII. -/
def asciiUpper (s : PyStr) : PyStr := s.map Char.toUpper

/-- desi.py:1167-1169, boss.py:485-487  `for colname in zbest.colnames: if colname.islower(): zbest.rename_column(colname, colname.upper())`. -/
def upperColumns {K : Type} (T : Tab K) : Py (Tab K) :=
  T.names.foldlM (fun T colname => if asciiIsLower colname then T.renameColumn colname (asciiUpper colname) else .ok T) T

/-- `T[name] = T[name].astype(...)`: the column is converted in place; `KeyError` if it does not exist. -/
def Tab.convert {K : Type} (T : Tab K) (name : PyStr) (f : TabCell K → TabCell K) : Py (Tab K) :=
  if name ∈ T.names then .ok (T.map (fun c => if c.1 = name then (c.1, c.2.map f) else c)) else .error .keyError

/-- `astype('int32')` of an integer: wrap-around to 32 bits. -/
def toInt32 (n : Int) : Int := (n + 2147483648) % 4294967296 - 2147483648

/-- `astype('int16')` of an integer. -/
def toInt16 (n : Int) : Int := (n + 32768) % 65536 - 32768

/-- integer conversion of an entry (columns have the types `zfind` gives them: other entries do not occur and are left alone here, a simplification) -/
def TabCell.onInt {K : Type} (f : Int → Int) : TabCell K → TabCell K
  | .int i => .int (f i)
  | c => c

/-- floating-point conversion of an entry, also for two-dimensional columns; `round32` is the rounding to `float32`. -/
def TabCell.onFlt {K : Type} (round32 : K → K) : TabCell K → TabCell K
  | .flt x => .flt (round32 x)
  | .arr xs => .arr (xs.map round32)
  | c => c

/-- `astype('U<n>')`: longer strings are cut. -/
def TabCell.onStr {K : Type} (n : Nat) : TabCell K → TabCell K
  | .str s => .str (s.take n)
  | c => c

/-- `len(s)` of a string entry. -/
def TabCell.strlen {K : Type} : TabCell K → Nat
  | .str s => s.length
  | _ => 0

/-- desi.py:1161-1169, boss.py:479-487  the first steps, common to both programs. -/
def zbestRows {K : Type} [DecidableEq K] (zfit : Tab K) : Py (Tab K) := do
  let znum ← zfit.col "znum".toList
  let zbest := zfit.rowsWhere (znum.map (fun c => decide (c = .int 0)))
  let zbest ← zbest.removeColumns ["zz".toList, "zzchi2".toList, "znum".toList]
  upperColumns zbest

/-- boss.py:478-488  `zbest` of `rrboss`. -/
def bossZbest {K : Type} [DecidableEq K] (zfit : Tab K) : Py (Tab K) := zbestRows zfit

/-- desi.py:1160-1188  `zbest` of `rrdesi`. -/
def desiZbest {K : Type} [DecidableEq K] (round32 : K → K) (zfit : Tab K) : Py (Tab K) := do
  let zbest ← zbestRows zfit
  let zbest ← zbest.convert "FITMETHOD".toList (TabCell.onStr 4)
  let zbest ← zbest.convert "ZERR".toList (TabCell.onFlt round32)
  let zbest ← zbest.convert "ZWARN".toList (TabCell.onInt toInt32)
  let zbest ← zbest.convert "NPIXELS".toList (TabCell.onInt toInt32)
  let zbest ← zbest.convert "NCOEFF".toList (TabCell.onInt toInt16)
  let zbest ← zbest.convert "COEFF".toList (TabCell.onFlt round32)
  let zbest ← zbest.convert "CHI2".toList (TabCell.onFlt round32)
  let zbest ← zbest.convert "DELTACHI2".toList (TabCell.onFlt round32)
  let subtype ← zbest.col "SUBTYPE".toList
  let maxSubtypeLen ← pyMaxNat (subtype.map TabCell.strlen)
  zbest.convert "SUBTYPE".toList (TabCell.onStr (max 3 maxSubtypeLen))

/-- One row of `zfit` with all its columns: the target's ID, the columns of `Row`, the fit method, the fine scan, and the metadata of the target. -/
structure CatRow (K : Type) where
  base : DesiRow K Int
  zz : List K
  zzchi2 : List K
  extra : List (TabCell K)

/-- zfind.py:470-666  the table `zfit` of the given rows; `metaNames` are the names of the metadata columns, which come last. (The order of the other columns is that of `fitz`'s results and does not matter below.) -/
def zfitTable {K : Type} (metaNames : List PyStr) (rows : List (CatRow K)) : Tab K :=
  [("targetid".toList, rows.map (fun r => .int r.base.targetid)),
   ("z".toList, rows.map (fun r => .flt r.base.row.z)),
   ("zerr".toList, rows.map (fun r => .flt r.base.row.zerr)),
   ("zwarn".toList, rows.map (fun r => .int r.base.row.zwarn)),
   ("chi2".toList, rows.map (fun r => .flt r.base.row.chi2)),
   ("zz".toList, rows.map (fun r => .arr r.zz)),
   ("zzchi2".toList, rows.map (fun r => .arr r.zzchi2)),
   ("coeff".toList, rows.map (fun r => .arr r.base.row.coeff)),
   ("fitmethod".toList, rows.map (fun r => .str r.base.fitmethod.toList)),
   ("npixels".toList, rows.map (fun r => .int r.base.row.npixels)),
   ("spectype".toList, rows.map (fun r => .str r.base.row.spectype.toList)),
   ("subtype".toList, rows.map (fun r => .str r.base.row.subtype.toList)),
   ("ncoeff".toList, rows.map (fun r => .int r.base.row.ncoeff)),
   ("znum".toList, rows.map (fun r => .int r.base.row.znum)),
   ("deltachi2".toList, rows.map (fun r => .flt r.base.row.deltachi2))]
  ++ metaNames.zipIdx.map (fun n => (n.1, rows.map (fun r => r.extra.getD n.2 (.str []))))

end Redrock
