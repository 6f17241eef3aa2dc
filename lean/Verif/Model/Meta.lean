import Verif.Model.Zfind
import Verif.Model.Dict
import Verif.Model.Strings

/-!
Model of zfind.py:627-666: the metadata of the targets becomes extra columns of the redshift table.
-/
namespace Redrock

/-- The characters of `_datatype`. -/
def datatypeSuffix : PyStr := "_datatype".toList

/-- zfind.py:636, 640, 646  `re.compile(r'(.*)_datatype').match(mk)`: `group(1)` of the match, if any. `match` is anchored at the start only and `.*` is greedy, so this is
everything before the *last* occurrence of `_datatype` anywhere in the key. (Simplification: `.` does not match a newline; keys are taken to contain none.) -/
def datatypeOf (k : PyStr) : Option PyStr :=
  (((List.range (k.length + 1)).filter (fun n => datatypeSuffix.isPrefixOf (k.drop n))).getLast?).map (fun n => k.take n)

/-- zfind.py:639-649  the type information in the metadata of the first target. -/
def metaTypes {V : Type} (m0 : PyDict PyStr V) (allmetakeys : List PyStr) : PyDict PyStr V :=
  allmetakeys.foldl (fun d mk => match datatypeOf mk, PyDict.get? m0 mk with
    | some base, some v => PyDict.set d base v
    | _, _ => d) []

/-- zfind.py:654-664  one metadata column: the value of the row's target, converted to the declared type (`cast ty v`) if there is one. `add_column` raises `ValueError` if the table has
a column of that name. -/
def metaStep {ι V : Type} [DecidableEq ι] (cast : V → V → Py V) (metas : PyDict ι (PyDict PyStr V)) (types : PyDict PyStr V) (zfitids : List ι)
    (cols : List (PyStr × List V)) (existing : List PyStr) (mk : PyStr) : Py (List (PyStr × List V)) := do
  let col ← zfitids.mapM (fun x => do
    let m ← PyDict.get metas x
    PyDict.get m mk)
  let col ← (match PyDict.get? types mk with
    | some ty => col.mapM (cast ty)
    | none => .ok col : Py (List V))
  if mk ∈ existing ++ cols.map (·.1) then throw .valueError
  return cols ++ [(mk, col)]

/-- zfind.py:627-664  the metadata columns appended to the table whose rows belong to the targets `zfitids`. `le` is the string order of `sorted`; `metas` gives `allresults[x]['meta']`
(`KeyError` for unknown targets). -/
def metaColumns {ι V : Type} [DecidableEq ι] (le : PyStr → PyStr → Bool) (cast : V → V → Py V) (existing : List PyStr) (metas : PyDict ι (PyDict PyStr V)) (zfitids : List ι) :
    Py (List (PyStr × List V)) := do
  let x0 ← npGet zfitids 0
  let m0 ← PyDict.get metas x0
  let allmetakeys := pySort le (PyDict.keys m0)
  let metakeys := allmetakeys.filter (fun mk => decide (datatypeOf mk = none))
  metakeys.foldlM (fun cols mk => metaStep cast metas (metaTypes m0 allmetakeys) zfitids cols existing mk) []

end Redrock
