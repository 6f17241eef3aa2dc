import Verif.Model.Templates
import Verif.Model.Wrap
import Verif.Model.Archetype

/-!
Model of `/repo/bin/rrconvertSDSStemplates` (function `convert`): SDSS template files to redrock template files.
-/
namespace Redrock
namespace Convert
open Wrap

/-- A value of a FITS header keyword. -/
inductive HVal where
  | str (s : PyStr)
  | num (x : ℝ)

/-- The first HDU of the SDSS file: header keywords in order, and the (2-d) data. -/
structure SdssFile where
  header : PyDict PyStr HVal
  data : List (List ℝ)

/-- The options `--infile`, `--outfolder`, `--version`. (Without `--version` the keyword is written without a value; here it is absent.) -/
structure Options where
  infile : PyStr
  outfolder : PyStr
  version : Option PyStr

/-- What is written into one output file: what `Template` reads back from it, and the two keywords for the reader's information. (`RRVER`, `INSPEC` and the comment are not modelled.) -/
structure Converted where
  file : TemplateFile
  sdssname : Option PyStr
  indousid : Option Nat

/-- `str.lower()` for ASCII text. -/
def pyLower (s : PyStr) : PyStr := s.map Char.toLower

/-- `value.replace`: a number has no such method. -/
def asStr : HVal → Py PyStr
  | .str s => .ok s
  | .num _ => .error .attributeError

/-- `header['COEFF0']` as a number. (Text would be copied to `CRVAL1`; here it is an error.) -/
def asNum : HVal → Py ℝ
  | .num x => .ok x
  | .str _ => .error .typeError

/-- rrconvertSDSStemplates:61-63  `re.search('\((\d+)\)$', subtype)` and the `int` of the group. -/
def indoUsId (s : PyStr) : Option Nat :=
  match s.reverse with
  | ')' :: r =>
    let ds := r.takeWhile Char.isDigit
    if ds = [] then none
    else match r.dropWhile Char.isDigit with
      | '(' :: _ => some (Nat.ofDigits 10 (ds.map (fun c => c.toNat - 48)))
      | _ => none
  | _ => none

/-- rrconvertSDSStemplates:31-36  is the file one with named templates, and the number of templates. -/
def countTemplates (h : PyDict PyStr HVal) : Bool × Nat :=
  if (PyDict.get? h "NAME0".toList).isSome then (true, ((PyDict.keys h).filter (fun k => decide (4 < k.length) && (k.take 4 == "NAME".toList))).length) else (false, 1)

/-- rrconvertSDSStemplates:41  the spectral type. -/
def specType (h : PyDict PyStr HVal) : Py PyStr := do
  let v ← PyDict.get h "OBJECT".toList
  let s ← asStr v
  return pyUpper (pyReplace [' '] [] s)

/-- rrconvertSDSStemplates:47  the subtype of a name. -/
def subTypeOf (name : PyStr) : PyStr := pyReplace ['/'] [] (pyReplace ['-'] [] name)

/-- rrconvertSDSStemplates:81  the subtype as part of the file name. -/
def fileSubType (subtype : PyStr) : PyStr := pyReplace [')'] [] (pyReplace ['('] ['_'] (pyReplace [' '] [] subtype))

/-- rrconvertSDSStemplates:79-84  the name of the output file. -/
def outName (outfolder spectype : PyStr) (subtype : Option PyStr) : PyStr :=
  match subtype with
  | some st => outfolder ++ "/rrtemplate-".toList ++ pyLower spectype ++ ['-'] ++ fileSubType st ++ ".fits".toList
  | none => outfolder ++ "/rrtemplate-".toList ++ pyLower spectype ++ ".fits".toList

/-- rrconvertSDSStemplates:39-85  one turn of the loop: the name of the output file and its content. `data[s,:]` raises `IndexError` if there is no such row. -/
def convertOne (o : Options) (f : SdssFile) (nameMode : Bool) (s : Nat) : Py (PyStr × Converted) := do
  let spectype ← specType f.header
  if nameMode then
    let v ← PyDict.get f.header ("NAME".toList ++ natStr s)
    let name ← asStr v
    let subtype := subTypeOf name
    let c0 ← PyDict.get f.header "COEFF0".toList
    let c1 ← PyDict.get f.header "COEFF1".toList
    let x0 ← asNum c0
    let x1 ← asNum c1
    match f.data[s]? with
    | none => throw .indexError
    | some row =>
      return (outName o.outfolder spectype (some subtype),
        { file := { version := o.version, crval1 := x0, cdelt1 := x1, naxis1 := row.length, loglam := some 1, flux := [row], rrmethod := none, redshifts := none, rrtype := some spectype,
                    rrsubtyp := some subtype, rrigm := none }
          sdssname := some name, indousid := indoUsId subtype })
  else
    let c0 ← PyDict.get f.header "COEFF0".toList
    let c1 ← PyDict.get f.header "COEFF1".toList
    let x0 ← asNum c0
    let x1 ← asNum c1
    return (outName o.outfolder spectype none,
      { file := { version := o.version, crval1 := x0, cdelt1 := x1, naxis1 := (f.data.head?.getD []).length, loglam := some 1, flux := f.data, rrmethod := none, redshifts := none,
                  rrtype := some spectype, rrsubtyp := some [], rrigm := none }
        sdssname := none, indousid := none })

/-- rrconvertSDSStemplates:38-86  the loop over the templates: the files on disk when it ends, and the exception that ended it, if any. -/
def convertLoop (o : Options) (f : SdssFile) (nameMode : Bool) : List Nat → PyDict PyStr Converted → PyDict PyStr Converted × Option PyErr
  | [], disk => (disk, none)
  | s :: rest, disk =>
    match convertOne o f nameMode s with
    | .error e => (disk, some e)
    | .ok pc => convertLoop o f nameMode rest (PyDict.set disk pc.1 pc.2)

/-- rrconvertSDSStemplates:10-90  `convert()`: the files on disk afterwards and the exception that ended it. A file without `OBJECT` or `COEFF0` is only reported. -/
def convert (o : Options) (f : SdssFile) (disk : PyDict PyStr Converted) : PyDict PyStr Converted × Option PyErr :=
  if (PyDict.get? f.header "OBJECT".toList).isNone || (PyDict.get? f.header "COEFF0".toList).isNone then (disk, none)
  else
    let (nameMode, n) := countTemplates f.header
    convertLoop o f nameMode (List.range n) disk

end Convert
end Redrock
