import Mathlib.Order.Lattice
import Mathlib.Data.Prod.Lex
import Mathlib.Data.List.Sort

/-!
Python runtime vocabulary shared by all model files: exceptions as values, `min(..., key=...)`,
`list.index`.
-/
namespace Redrock

/-- The python exceptions that the modelled code can raise. -/
inductive PyErr where
  | valueError
  | indexError
  | keyError
  | typeError
  | zeroDivision
  | unboundLocal
  | runtimeError
  | linAlgError
  | assertionError
  | attributeError
  | notImplemented
  | osError
  | nameError
  deriving DecidableEq, Repr

/-- Result of python code that may raise. -/
abbrev Py (α : Type) := Except PyErr α

/-- Python builtin `min(xs, key=key)`: the first element whose key is smallest; `ValueError` on an
empty iterable. -/
def pyMinBy {α κ : Type} [LT κ] [DecidableRel (α := κ) (· < ·)] (key : α → κ) : List α → Py α
  | [] => .error .valueError
  | x :: xs => .ok (xs.foldl (fun m y => if key y < key m then y else m) x)

/-- Python `xs.index(v)`: first position with an equal element; `ValueError` if there is none. -/
def pyIndex {α : Type} [DecidableEq α] (xs : List α) (v : α) : Py Nat :=
  match xs.findIdx? (fun x => decide (x = v)) with
  | some i => .ok i
  | none => .error .valueError

/-- A stable sort by a `≤`-like test, as python's `sorted` / `list.sort` and `np.lexsort` are: elements that are
`≤` each other keep their order. (Insertion sort, so that it computes by structural recursion.) -/
def pySort {α : Type} (le : α → α → Bool) (xs : List α) : List α :=
  xs.insertionSort (fun a b => le a b = true)

end Redrock
