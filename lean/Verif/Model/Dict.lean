import Verif.Model.Py

/-!
Python dictionaries as association lists in insertion order, with unique keys by construction.
-/
namespace Redrock

/-- A python `dict` (insertion ordered). -/
abbrev PyDict (κ ν : Type) := List (κ × ν)

variable {κ ν : Type} [DecidableEq κ]

/-- python `d[k] = v`: overwrite in place if the key exists, else append. -/
def PyDict.set (d : PyDict κ ν) (k : κ) (v : ν) : PyDict κ ν :=
  if d.any (fun e => decide (e.1 = k)) then d.map (fun e => if e.1 = k then (k, v) else e)
  else d ++ [(k, v)]

/-- python `d.get(k)`. -/
def PyDict.get? (d : PyDict κ ν) (k : κ) : Option ν :=
  (d.find? (fun e => decide (e.1 = k))).map (·.2)

/-- python `d[k]`, `KeyError` if absent. -/
def PyDict.get (d : PyDict κ ν) (k : κ) : Py ν :=
  match PyDict.get? d k with
  | some v => .ok v
  | none => .error .keyError

/-- python `d.keys()`. -/
def PyDict.keys (d : PyDict κ ν) : List κ := d.map (·.1)

/-- python `d.update(e)`. -/
def PyDict.update (d e : PyDict κ ν) : PyDict κ ν :=
  e.foldl (fun d kv => PyDict.set d kv.1 kv.2) d

end Redrock
