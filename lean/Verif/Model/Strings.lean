import Verif.Model.Dict
import Mathlib.Data.Nat.Digits.Defs

/-!
Python strings as lists of code points, and the template names of redrock: `parse_fulltype`, `make_fulltype`, header keywords.
-/
namespace Redrock

/-- A python `str`. -/
abbrev PyStr := List Char

/-- `str.isspace` for one character (python's unicode whitespace). -/
def pyIsSpace (c : Char) : Bool :=
  let n := c.toNat
  (9 ≤ n && n ≤ 13) || (28 ≤ n && n ≤ 32) || n == 0x85 || n == 0xA0 || n == 0x1680 || (0x2000 ≤ n && n ≤ 0x200A) || n == 0x2028 || n == 0x2029 || n == 0x202F || n == 0x205F || n == 0x3000

/-- python `s.strip()`. -/
def pyStrip (s : PyStr) : PyStr := ((s.dropWhile pyIsSpace).reverse.dropWhile pyIsSpace).reverse

/-- python `s.split(sep)` for a non-empty `sep`: scanning from the left, cutting at every occurrence that does not overlap the previous one. `skip` counts characters of the separator
still to be passed over, `acc` is the current piece. -/
def pySplitAux (sep : PyStr) : Nat → PyStr → PyStr → List PyStr
  | _, acc, [] => [acc]
  | skip + 1, acc, _ :: cs => pySplitAux sep skip acc cs
  | 0, acc, c :: cs => if sep.isPrefixOf (c :: cs) then acc :: pySplitAux sep (sep.length - 1) [] cs else pySplitAux sep 0 (acc ++ [c]) cs

/-- python `s.split(sep)`. -/
def pySplit (sep s : PyStr) : List PyStr := pySplitAux sep 0 [] s

/-- python `sub in s`. -/
def pyContains (sub : PyStr) : PyStr → Bool
  | [] => sub.isEmpty
  | c :: cs => sub.isPrefixOf (c :: cs) || pyContains sub cs

/-- the separator `':::'` -/
def sep3 : PyStr := [':', ':', ':']

/-- templates.py lines 274-284 (`parse_fulltype`). Unpacking a split into two names raises `ValueError` unless there are exactly two pieces. -/
def parseFulltype (fulltype : PyStr) : Py (PyStr × PyStr) :=
  let f := pyStrip fulltype
  if pyContains sep3 f then
    match pySplit sep3 f with
    | [spectype, subtype] => .ok (spectype, subtype)
    | _ => .error .valueError
  else .ok (f, [])

/-- templates.py lines 286-298 (`make_fulltype`); `None` subtype is `none`. -/
def makeFulltype (spectype : PyStr) (subtype : Option PyStr) : PyStr :=
  match subtype.map pyStrip with
  | none => pyStrip spectype
  | some [] => pyStrip spectype
  | some sub => pyStrip spectype ++ sep3 ++ sub

/-- python format `{i:02d}` for `i >= 0`. -/
def fmt02 (i : Nat) : PyStr :=
  let ds := (Nat.digits 10 i).reverse
  (List.replicate (2 - ds.length) 0 ++ ds).map (fun d => Char.ofNat (48 + d))

/-- A FITS header as far as redrock's keywords go: keyword to string value. -/
abbrev Header := PyDict PyStr PyStr

/-- header keyword `prefix + {i:02d}` -/
def hkey (pre : String) (i : Nat) : PyStr := pre.toList ++ fmt02 i

/-- What the header records of a template: `full_type`, `version`, `filename`. -/
structure TemplateId where
  fullType : PyStr
  version : PyStr
  filename : PyStr

/-- python `os.path.basename`: what follows the last `/`. -/
def basename (f : PyStr) : PyStr := (f.reverse.takeWhile (· ≠ '/')).reverse

/-- external/desi.py lines 64-72 (`_get_header`), the template part: for the i-th template the keywords TEMNAMnn, TEMVERnn, TEMFILnn. The other keywords of `_get_header` (archetypes, code
versions, survey information) do not have these prefixes; `hdr` is the header before. FITS formatting of values (trailing blanks, CONTINUE cards) is not modelled. -/
def writeTemplateKeys (hdr : Header) (templates : List TemplateId) : Header :=
  (templates.zipIdx).foldl (fun h ti =>
    let t := ti.1
    let i := ti.2
    (((h.set (hkey "TEMNAM" i) t.fullType).set (hkey "TEMVER" i) t.version).set (hkey "TEMFIL" i) (basename t.filename))) hdr

/-- external/boss.py lines 60-64 (`write_zbest`): only TEMNAMnn and TEMVERnn, for a dictionary `full_type -> version`. `str(i).zfill(2)` is the same as `{i:02d}`. -/
def writeTemplateKeysBoss (hdr : Header) (versions : List (PyStr × PyStr)) : Header :=
  (versions.zipIdx).foldl (fun h vi => ((h.set (hkey "TEMNAM" vi.2) vi.1.1).set (hkey "TEMVER" vi.2) vi.1.2)) hdr

/-- the file name of one numbered entry: templates.py lines 388-410, one pass of the loop; `none` if the header has no entry with this number -/
def headerEntry (hdr : Header) (i : Nat) : Py (Option PyStr) :=
  match hdr.get? (hkey "TEMFIL" i) with
  | some f => .ok (some f)
  | none =>
    match hdr.get? (hkey "TEMNAM" i), hdr.get? (hkey "TEMVER" i) with
    | some name, some ver => do
      let version := pyStrip ver
      let (spectype, subtype) ← parseFulltype name
      let version ← if version = "unknown".toList then (if spectype = "STAR".toList then pure "0.1".toList else .error .valueError) else pure version
      let subtype := if subtype = [] then "None".toList else subtype
      return some ("rrtemplate-".toList ++ spectype ++ "-".toList ++ subtype ++ "-v".toList ++ version ++ ".fits".toList)
    | _, _ => .ok none

/-- python `os.path.join(dir, f)` for two components. -/
def pathJoin (dir f : PyStr) : PyStr :=
  if f.head? = some '/' then f else if dir = [] then f else if dir.getLast? = some '/' then dir ++ f else dir ++ ['/'] ++ f

/-- templates.py lines 376-416 (`header2templatefiles`) with the template directory given. -/
def header2templatefiles (hdr : Header) (dir : PyStr) : Py (List PyStr) := do
  let names ← (List.range 100).mapM (headerEntry hdr)
  return (names.filterMap id).map (pathJoin dir)

/-- external/boss.py lines 41-42 (`platemjdfiber2targetid`). -/
def platemjdfiber2targetid (plate mjd fiber : Int) : Int := plate * 1000000000 + mjd * 10000 + fiber

/-- external/boss.py lines 45-49 (`targetid2platemjdfiber`); python `//` and `%` are floor division and remainder. -/
def targetid2platemjdfiber (t : Int) : Int × Int × Int :=
  (Int.fdiv t (10000 * 100000), Int.fmod (Int.fdiv t 10000) 100000, Int.fmod t 10000)

end Redrock
