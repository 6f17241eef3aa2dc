import Verif.Model.Strings
import Verif.Model.Binned
import Mathlib.Analysis.SpecialFunctions.Log.Base
import Mathlib.Analysis.SpecialFunctions.Pow.Real

/-!
Model of the reading of templates in `/repo/py/redrock/templates.py`: `Template.__init__`, `find_templates`, `load_templates`, `load_dist_templates` (which templates it fits) and the module-level
`eval_model`. Numbers are real; the file system is given by a few functions.
-/
namespace Redrock

/-- `np.arange(start, stop, step)`: `ceil((stop-start)/step)` values. A zero step raises `ZeroDivisionError`. (Exact arithmetic: rounding in `ceil` is not modelled.) -/
noncomputable def npArange (start stop step : ℝ) : Py (List ℝ) :=
  if step = 0 then .error .zeroDivision
  else .ok ((List.range (⌈(stop - start) / step⌉).toNat).map (fun (i : Nat) => start + (i : ℝ) * step))

/-- `10**np.arange(np.log10(1+zmin), np.log10(1+zmax), dz) - 1`. The logarithm of a non-positive number is nan or -inf, for which `np.arange` raises `ValueError`. -/
noncomputable def logGrid (zmin zmax dz : ℝ) : Py (List ℝ) :=
  if 1 + zmin ≤ 0 ∨ 1 + zmax ≤ 0 then .error .valueError
  else do
    let a ← npArange (Real.logb 10 (1 + zmin)) (Real.logb 10 (1 + zmax)) dz
    return a.map (fun x => (10 : ℝ) ^ x - 1)

/-- `zmin, zmax, dz = option.split(',')` and the `float` of each part. `float` is a parameter; it raises `ValueError` for a text that is not a number. -/
def parseScan (float : PyStr → Py ℝ) (option : PyStr) : Py (ℝ × ℝ × ℝ) :=
  match pySplit [','] option with
  | [a, b, c] => do
    let zmin ← float a
    let zmax ← float b
    let dz ← float c
    return (zmin, zmax, dz)
  | _ => .error .valueError

/-- `str.upper()` for ASCII text (FITS headers hold nothing else). -/
def pyUpper (s : PyStr) : PyStr := s.map Char.toUpper

/-- The content of a template file that `Template.__init__` looks at: header of `BASIS_VECTORS`, its data, and the redshifts if there is a `REDSHIFTS` extension. -/
structure TemplateFile where
  version : Option PyStr
  crval1 : ℝ
  cdelt1 : ℝ
  naxis1 : Nat
  loglam : Option Int
  flux : List (List ℝ)
  rrmethod : Option PyStr
  redshifts : Option (List ℝ)
  rrtype : Option PyStr
  rrsubtyp : Option PyStr
  rrigm : Option PyStr

/-- templates.py:40-180  the attributes of a `Template`. -/
structure Template where
  version : PyStr
  wave : List ℝ
  flux : List (List ℝ)
  method : PyStr
  rrtype : PyStr
  subtype : PyStr
  redshifts : List ℝ
  igm : PyStr
  oii : Option (List (List ℝ))

/-- the three options `--zscan-galaxy`, `--zscan-star`, `--zscan-qso` -/
structure ZscanOptions where
  galaxy : Option PyStr
  star : Option PyStr
  qso : Option PyStr

/-- templates.py:90-111  the redshifts of a file without a `REDSHIFTS` extension. -/
noncomputable def defaultRedshifts (float : PyStr → Py ℝ) (opts : ZscanOptions) (rrtype : PyStr) : Py (List ℝ) :=
  if rrtype = "GALAXY".toList then
    match opts.galaxy with
    | some o => do
      let (zmin, zmax, dz) ← parseScan float o
      logGrid zmin zmax dz
    | none => logGrid (-0.005) 1.7 3e-4
  else if rrtype = "STAR".toList then
    match opts.star with
    | some o => do
      let (zmin, zmax, dz) ← parseScan float o
      npArange zmin zmax dz
    | none => npArange (-0.002) 0.00201 4e-5
  else if rrtype = "QSO".toList then
    match opts.qso with
    | some o => do
      let (zmin, zmax, dz) ← parseScan float o
      logGrid zmin zmax dz
    | none => logGrid 0.05 6.0 5e-4
  else .error .valueError

/-- templates.py:64-67  the wavelengths. -/
noncomputable def templateWave (f : TemplateFile) : List ℝ :=
  let lin := (List.range f.naxis1).map (fun (i : Nat) => f.crval1 + f.cdelt1 * (i : ℝ))
  match f.loglam with
  | none => lin
  | some l => if l = 0 then lin else lin.map (fun x => (10 : ℝ) ^ x)

/-- templates.py:128-144  the IGM model: the keyword, or what is known about old versions, or `ValueError`. -/
def templateIgm (f : TemplateFile) (rrtype version : PyStr) : Py PyStr :=
  match f.rrigm with
  | some m => .ok m
  | none =>
    if rrtype = "STAR".toList then .ok "None".toList
    else if rrtype = "GALAXY".toList ∧ version = "2.6".toList then .ok "Calura12".toList
    else if rrtype = "QSO".toList ∧ (version = "0.1".toList ∨ version = "1.0".toList) then .ok "Calura12".toList
    else if rrtype = "QSO".toList ∧ version = "1.1".toList then .ok "Kamble20".toList
    else .error .valueError

/-- templates.py:172-174  `self.flux[:,isOII]`: the columns with wavelength in [3724, 3733]. -/
noncomputable def oiiColumns (wave : List ℝ) (flux : List (List ℝ)) : List (List ℝ) :=
  flux.map (fun row => ((wave.zip row).filter (fun wf => decide (3724 ≤ wf.1) && decide (wf.1 ≤ 3733))).map (·.2))

/-- templates.py:59-62  `hdr['VERSION']` or `'unknown'`. -/
def templateVersion (f : TemplateFile) : PyStr := f.version.getD "unknown".toList
/-- templates.py:74-77  `hdr['RRMETHOD'].upper()` or `'PCA'`. -/
def templateMethod (f : TemplateFile) : PyStr := (f.rrmethod.map pyUpper).getD "PCA".toList
/-- templates.py:123-126  `hdr['RRSUBTYP'].strip().upper()` or `''`. -/
def templateSubtype (f : TemplateFile) : PyStr := (f.rrsubtyp.map (fun s => pyUpper (pyStrip s))).getD []

/-- templates.py:40-180  `Template(filename)` once the file is open. A missing `RRTYPE` raises `KeyError`; `redshifts[0]` of an empty grid and `wave[0]` of an empty wavelength array raise
`IndexError`; the method must be PCA or NMF. (A file without basis vectors is not distinguished: the FITS data would not be 2-d.) -/
noncomputable def Template.load (float : PyStr → Py ℝ) (opts : ZscanOptions) (f : TemplateFile) : Py Template := do
  let rrtype0 ← (match f.rrtype with
    | some t => .ok t
    | none => .error .keyError : Py PyStr)
  let rrtype := pyUpper (pyStrip rrtype0)
  let zs ← (match f.redshifts with
    | some zs => .ok zs
    | none => defaultRedshifts float opts rrtype : Py (List ℝ))
  if zs = [] then throw .indexError
  let igm ← templateIgm f rrtype (templateVersion f)
  let wave := templateWave f
  if wave = [] then throw .indexError
  let method := templateMethod f
  if method ≠ "PCA".toList ∧ method ≠ "NMF".toList then throw .valueError
  let oii := if rrtype = "GALAXY".toList ∧ method = "PCA".toList then some (oiiColumns wave f.flux) else none
  return { version := templateVersion f, wave := wave, flux := f.flux, method := method, rrtype := rrtype, subtype := templateSubtype f, redshifts := zs, igm := igm, oii := oii }

/-- templates.py:205-209  `full_type`. -/
def Template.fullType (t : Template) : PyStr := makeFulltype t.rrtype (some t.subtype)

/-- The directory tree as `find_templates` sees it. `listDir d` are the paths matched by `glob(d/rrtemplate-*.fits)`, in any order; `lines p` are the lines of a text file; `absDir p` is
`os.path.dirname(os.path.abspath(p))`. -/
structure FileTree where
  pathExists : PyStr → Bool
  isDir : PyStr → Bool
  lines : PyStr → List PyStr
  globTemplates : PyStr → List PyStr
  absDir : PyStr → PyStr

/-- What can be given as `template_path`. -/
inductive PathArg where
  | none
  | str (p : PyStr)
  | posix (p : PyStr)
  | files (l : List PyStr)

/-- python `line.split()[0]` of a stripped, non-empty line: up to the first white space. -/
def firstWord (line : PyStr) : PyStr := line.takeWhile (fun c => !pyIsSpace c)

/-- templates.py:354-368  one line of the list of templates: skipped, or a file name (which has to exist). -/
def templateLine (ft : FileTree) (dir : PyStr) (line0 : PyStr) : Py (Option PyStr) :=
  let line := pyStrip line0
  if line.length < 2 ∨ line.head? = some '#' then .ok none
  else
    let w := firstWord line
    let filename := if line.head? = some '/' then w else dir ++ ['/'] ++ w
    if ft.pathExists filename then .ok (some filename) else .error .valueError

/-- templates.py:350-371  the files of a directory `dir` with the list `listFile`. `le` is the order of `sorted`. -/
def templatesIn (le : PyStr → PyStr → Bool) (ft : FileTree) (listFile dir : PyStr) : Py (List PyStr) :=
  if ft.pathExists listFile then do
    let names ← (ft.lines listFile).mapM (templateLine ft dir)
    return names.filterMap id
  else .ok (pySort le (ft.globTemplates dir))

/-- the suffixes of a single template file -/
def isFitsName (p : PyStr) : Bool := ".fits".toList.isSuffixOf p || ".fits.gz".toList.isSuffixOf p || ".fits.fz".toList.isSuffixOf p

/-- templates.py:300-308  `get_template_dir(template_path)`: the argument, `$RR_TEMPLATE_DIR`, or the installed directory. -/
def getTemplateDir (env : Option PyStr) (installed : PyStr) (arg : PathArg) : PathArg :=
  match arg with
  | .none => .str (env.getD installed)
  | a => a

/-- templates.py:311-373  `find_templates`. A `pathlib` path that is not a directory has no `endswith`: `AttributeError`. -/
def findTemplates (le : PyStr → PyStr → Bool) (ft : FileTree) (env : Option PyStr) (installed : PyStr) (arg : PathArg) : Py (List PyStr) :=
  match getTemplateDir env installed arg with
  | .files l => .ok l
  | .none => .error .typeError
  | .posix p =>
    if ft.pathExists p = false then .error .valueError
    else if ft.isDir p then templatesIn le ft (p ++ "/templates-default.txt".toList) p
    else .error .attributeError
  | .str p =>
    if ft.pathExists p = false then .error .valueError
    else if ft.isDir p then templatesIn le ft (p ++ "/templates-default.txt".toList) p
    else if ".txt".toList.isSuffixOf p then templatesIn le ft p (ft.absDir p)
    else if isFitsName p then .ok [p]
    else .error .valueError

/-- templates.py:47-56  which file `Template(filename)` opens: the name itself, or the name in the template directory, or `IOError`. -/
def resolveFile (ft : FileTree) (env : Option PyStr) (installed filename : PyStr) : Py PyStr :=
  if ft.pathExists filename then .ok filename
  else
    let x := pathJoin (env.getD installed) filename
    if ft.pathExists x then .ok x else .error .osError

/-- templates.py:457-466  `load_templates(template_path)` as a list. `read p` is the content of the FITS file `p`. A `pathlib` path is not iterable: `TypeError`. -/
noncomputable def loadTemplates (le : PyStr → PyStr → Bool) (ft : FileTree) (env : Option PyStr) (installed : PyStr) (float : PyStr → Py ℝ) (opts : ZscanOptions) (read : PyStr → TemplateFile)
    (arg : PathArg) : Py (List Template) := do
  let files ← (match arg with
    | .files l => .ok l
    | .posix _ => .error .typeError
    | a => findTemplates le ft env installed a : Py (List PyStr))
  files.mapM (fun fn => do
    let p ← resolveFile ft env installed fn
    Template.load float opts (read p))

/-- templates.py:468-473  the dictionary by `(template_type, sub_type)` of a list of templates. -/
def templateDict (ts : List Template) : PyDict (PyStr × PyStr) Template := ts.foldl (fun d t => d.set (t.rrtype, t.subtype) t) []

/-- templates.py:746-774  the templates that `load_dist_templates` distributes, in order: the values of that dictionary (on one process or broadcast to all). -/
def distributedTemplates (ts : List Template) : List Template := (templateDict ts).map (·.2)

/-- One row of the table given to `eval_model`. -/
structure ModelRow where
  spectype : PyStr
  subtype : PyStr
  coeff : List ℝ
  z : ℝ

/-- templates.py:826-830  one row: `R[i]` of `None` raises `TypeError`, of a list that is too short `IndexError`. -/
noncomputable def tableModelRow (templates : PyDict (PyStr × PyStr) Template) (wave : List ℝ) (R : Option (List (List (List ℝ)))) (ri : ModelRow × Nat) : Py (List ℝ) := do
  let tx ← templates.get (ri.1.spectype, ri.1.subtype)
  let coeff := ri.1.coeff.take tx.flux.length
  let Ri ← (match R with
    | none => .error .typeError
    | some l => npGet l ri.2 : Py (List (List ℝ)))
  templateEval tx.wave tx.flux coeff wave ri.1.z (some Ri)

/-- templates.py:825-832  `eval_model` for one wavelength array. (The output is single precision: rounding is not modelled.) -/
noncomputable def tableModels (templates : PyDict (PyStr × PyStr) Template) (data : List ModelRow) (wave : List ℝ) (R : Option (List (List (List ℝ)))) : Py (List (List ℝ)) :=
  data.zipIdx.mapM (tableModelRow templates wave R)

/-- templates.py:811-823  `eval_model` for a dictionary of wavelength arrays: camera by camera. `R` needs the same keys. -/
noncomputable def tableModelsDict (templates : PyDict (PyStr × PyStr) Template) (data : List ModelRow) (wave : PyDict PyStr (List ℝ)) (R : Option (PyDict PyStr (List (List (List ℝ))))) :
    Py (PyDict PyStr (List (List ℝ))) :=
  match R with
  | none => wave.mapM (fun kw => do
      let m ← tableModels templates data kw.2 none
      return (kw.1, m))
  | some R =>
    if (R.keys.all (fun k => decide (k ∈ wave.keys)) && wave.keys.all (fun k => decide (k ∈ R.keys))) = false then .error .valueError
    else wave.mapM (fun kw => do
      let r ← R.get kw.1
      let m ← tableModels templates data kw.2 (some r)
      return (kw.1, m))

/-- zfind.py:474-476, 488, 683-684  the columns SPECTYPE and SUBTYPE of a candidate of a template: `parse_fulltype(full_type)`, then SPECTYPE is converted to `<U6`, which cuts it to six characters
(SUBTYPE is widened as needed, zfind.py:675-681). -/
def catalogueNames (t : Template) : Py (PyStr × PyStr) := do
  let (spectype, subtype) ← parseFulltype t.fullType
  return (spectype.take 6, subtype)

end Redrock
