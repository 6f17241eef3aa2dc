import Verif.Model.Strings

/-!
The details file: `results.write_zscan`, `read_zscan`, `read_zfit`, `read_zscan_redrock`, on an abstract HDF5 store (names to arrays).
-/
namespace Redrock

/-- One row of the `zfit` table, as far as it matters here; the other columns are `rest`. -/
structure ZRow (τ ρ : Type) where
  targetid : τ
  znum : Int
  spectype : PyStr
  subtype : PyStr
  rest : ρ
  deriving DecidableEq

/-- `zscan[targetid][fulltype]`: redshifts, zchi2, penalty, zcoeff. -/
structure ScanEntry (K : Type) where
  redshifts : List K
  zchi2 : List K
  penalty : List K
  zcoeff : List (List K)
  deriving DecidableEq

/-- The group `/zscan/{fulltype}` of the file. -/
structure ScanTable (K : Type) where
  redshifts : List K
  zchi2 : List (List K)
  penalty : List (List K)
  zcoeff : List (List (List K))
  deriving DecidableEq

/-- The details file. -/
structure DetailsFile (τ ρ K : Type) where
  targetids : List τ
  zbest : List (ZRow τ ρ)
  zscan : PyDict PyStr (ScanTable K)
  zfit : PyDict τ (List (ZRow τ ρ))

/-- `astype(np.int8)`: wrap-around to -128..127. -/
def toInt8 (n : Int) : Int := (n + 128) % 256 - 128

/-- `np.vstack` of one-dimensional arrays: `ValueError` unless all have the same length. -/
def vstack1 {K : Type} (rows : List (List K)) : Py (List (List K)) :=
  match rows with
  | [] => .error .valueError
  | r :: _ => if rows.all (fun x => decide (x.length = r.length)) then .ok rows else .error .valueError

/-- `np.vstack` of arrays of shape (1, nz, ncoeff): `ValueError` unless all have the same shape. -/
def vstack2 {K : Type} (rows : List (List (List K))) : Py (List (List (List K))) :=
  match rows with
  | [] => .error .valueError
  | r :: _ => if rows.all (fun x => decide (x.map List.length = r.map List.length)) then .ok rows else .error .valueError

variable {τ ρ K : Type} [DecidableEq τ]

/-- results.py lines 50-66: narrowing of the columns. `conv` is the effect on the other columns (float32, int32, int8 `ncoeff`, byte strings). -/
def narrowRow (conv : ρ → ρ) (r : ZRow τ ρ) : ZRow τ ρ := { r with znum := toInt8 r.znum, rest := conv r.rest }

/-- `zscan[t][spectype]`, `KeyError` if absent -/
def scanLookup (zscan : PyDict τ (PyDict PyStr (ScanEntry K))) (t : τ) (ft : PyStr) : Py (ScanEntry K) := do
  let d ← zscan.get t
  d.get ft

/-- results.py lines 79-91: the group of one template type. `f32` is `astype(np.float32)` of one number. -/
def writeScanTable (f32 : K → K) (zscan : PyDict τ (PyDict PyStr (ScanEntry K))) (targetids : List τ) (first : τ) (ft : PyStr) : Py (ScanTable K) := do
  let es ← targetids.mapM (fun t => scanLookup zscan t ft)
  let zchi2 ← vstack1 (es.map (fun e => e.zchi2.map f32))
  let penalty ← vstack1 (es.map (fun e => e.penalty.map f32))
  let zcoeff ← vstack2 (es.map (fun e => e.zcoeff.map (fun r => r.map f32)))
  let e0 ← scanLookup zscan first ft
  return { redshifts := e0.redshifts, zchi2 := zchi2, penalty := penalty, zcoeff := zcoeff }

/-- results.py lines 17-96 (`write_zscan`): the content written. Creating a second link with the same name in HDF5 raises (`runtimeError`).
Simplified: type names contain no `/`; the order of the errors relative to the opening of the file does not matter. -/
def writeZscan (f32 : K → K) (conv : ρ → ρ) (zscan : PyDict τ (PyDict PyStr (ScanEntry K))) (zfit : List (ZRow τ ρ)) : Py (DetailsFile τ ρ K) := do
  let zfit := zfit.map (narrowRow conv)
  let zbest := zfit.filter (fun r => decide (r.znum = 0))
  let targetids := zbest.map (·.targetid)
  match targetids with
  | [] => .error .indexError
  | first :: _ =>
    let d0 ← zscan.get first
    let tables ← d0.keys.mapM (fun ft => do
      let t ← writeScanTable f32 zscan targetids first ft
      return (ft, t))
    let tabs ← targetids.foldlM (fun (acc : PyDict τ (List (ZRow τ ρ))) t =>
      if (acc.get? t).isSome then .error .runtimeError else .ok (acc ++ [(t, zfit.filter (fun r => decide (r.targetid = t)))])) []
    return { targetids := targetids, zbest := zbest, zscan := tables, zfit := tabs }

/-- python `xs[i]` of a two-level array -/
def nth {α : Type} (xs : List α) (i : Nat) : Py α := match xs[i]? with
  | some x => .ok x
  | none => .error .indexError

/-- row `i` of a group of the file -/
def scanRow (t : ScanTable K) (i : Nat) : Py (ScanEntry K) := do
  let a ← nth t.zchi2 i
  let b ← nth t.penalty i
  let c ← nth t.zcoeff i
  return { redshifts := t.redshifts, zchi2 := a, penalty := b, zcoeff := c }

/-- results.py lines 129-132: `np.isin(targetids, select_targetids)` at position `i`; `none` selects everything -/
def isSelected (ids : List τ) (select : Option (List τ)) (i : Nat) : Bool := match select, ids[i]? with
  | none, _ => true
  | some s, some t => decide (t ∈ s)
  | some _, none => false

/-- results.py lines 122-152 (`read_zscan` without the zfit part). `ord` is the order in which HDF5 lists the names of a group. `select = none` stands for all targets.
Simplified: the loops over types and over targets are exchanged. -/
def readZscan (ord : List PyStr → List PyStr) (f : DetailsFile τ ρ K) (select : Option (List τ)) : Py (PyDict τ (PyDict PyStr (ScanEntry K))) := do
  let fulltypes := ord f.zscan.keys
  let indx := (List.range f.targetids.length).filter (isSelected f.targetids select)
  let _ ← fulltypes.mapM parseFulltype
  indx.foldlM (fun (d : PyDict τ (PyDict PyStr (ScanEntry K))) i => do
    let t ← nth f.targetids i
    let e ← fulltypes.mapM (fun ft => do
      let tab ← f.zscan.get ft
      let r ← scanRow tab i
      return (ft, r))
    return d.set t e) []

/-- results.py lines 210-235 (`read_zscan_redrock`): the same data without selection (dictionary comprehensions). -/
def readZscanRedrock (ord : List PyStr → List PyStr) (f : DetailsFile τ ρ K) : Py (PyDict τ (PyDict PyStr (ScanEntry K))) :=
  let spectypes := ord f.zscan.keys
  (f.targetids.zipIdx).foldlM (fun (d : PyDict τ (PyDict PyStr (ScanEntry K))) ti => do
    let e ← spectypes.mapM (fun ft => do
      let tab ← f.zscan.get ft
      let r ← scanRow tab ti.2
      return (ft, r))
    return d.set ti.1 e) []

/-- results.py lines 178-207 (`read_zfit`): the tables of the selected targets, stacked. `np.hstack([])` raises `ValueError`. -/
def readZfit (f : DetailsFile τ ρ K) (select : Option (List τ)) : Py (List (ZRow τ ρ)) := do
  let ids := select.getD f.targetids
  let tabs ← ids.mapM (fun t => f.zfit.get t)
  match tabs with
  | [] => .error .valueError
  | _ => return tabs.flatten

/-- results.py lines 169-174: the place `zscan[targetid][make_fulltype(spectype, subtype)]` of a group of rows; `KeyError` if there is none -/
def attachKey (zscan : PyDict τ (PyDict PyStr (ScanEntry K))) (g : τ × PyStr × PyStr) : Py (τ × PyStr) := do
  let d ← zscan.get g.1
  let _ ← d.get (makeFulltype g.2.1 (some g.2.2))
  return (g.1, makeFulltype g.2.1 (some g.2.2))

/-- results.py lines 157-174 (`read_zscan`, the zfit part): for every group of rows with equal (targetid, spectype, subtype), `zscan[targetid][make_fulltype(spectype, subtype)]['zfit']` is set
to the rows of the group. Result: (targetid, fulltype) to rows. Simplified: groups are visited in order of first appearance (astropy sorts them; it matters only for names that differ by blanks). -/
def attachZfit (zscan : PyDict τ (PyDict PyStr (ScanEntry K))) (zfit : List (ZRow τ ρ)) : Py (PyDict (τ × PyStr) (List (ZRow τ ρ))) :=
  ((zfit.map (fun r => (r.targetid, r.spectype, r.subtype))).reverse.dedup.reverse).foldlM (fun (acc : PyDict (τ × PyStr) (List (ZRow τ ρ))) g => do
    let k ← attachKey zscan g
    let rows ← (pure (zfit.filter (fun r => decide ((r.targetid, r.spectype, r.subtype) = g))) : Py (List (ZRow τ ρ)))
    return acc.set k rows) []

/-- `read_zscan` with `nozfit=False`: the scan dictionary, the attached tables and the stacked table. -/
def readZscanFull (ord : List PyStr → List PyStr) (f : DetailsFile τ ρ K) (select : Option (List τ)) :
    Py (PyDict τ (PyDict PyStr (ScanEntry K)) × PyDict (τ × PyStr) (List (ZRow τ ρ)) × List (ZRow τ ρ)) := do
  let zscan ← readZscan ord f select
  let zfit ← readZfit f select
  let att ← attachZfit zscan zfit
  return (zscan, att, zfit)

end Redrock
