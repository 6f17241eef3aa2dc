import Verif.Model.Convert

/-!
Model of the scripts that make template files: `/repo/bin/rrgaltemplate`, `/repo/bin/rrstartemplate`, `/repo/bin/rrstarwdtemplate`, `/repo/bin/rrqsotemplate`. Outside code is a parameter: `desisim` (the
simulated spectra), `desispec.resample_flux`, `empca`, and whether the installed `astropy` still has the keyword `clobber` of `writeto`. Numbers are real. Not modelled: the keywords `RRVER`, `INSPEC`,
`SEED`, `EXTNAME`, the comments and what is printed; writing a file does not fail otherwise.
-/
namespace Redrock
namespace Make
open Redrock.Convert

/-- `np.median` of a 1-d array: the middle value of the sorted array, or the mean of the two middle ones (of an empty array numpy gives nan with a warning; here 0). -/
noncomputable def npMedian (l : List ℝ) : ℝ :=
  let s := l.mergeSort (fun a b => decide (a ≤ b))
  (s.getD ((l.length - 1) / 2) 0 + s.getD (l.length / 2) 0) / 2

/-- `os.path.splitext` (posix): the extension starts at the last dot of the last component of the path; dots that component begins with do not count. -/
def splitext (p : PyStr) : PyStr × PyStr :=
  let r := p.reverse
  let ext := r.takeWhile (fun c => c != '.' && c != '/')
  match r.dropWhile (fun c => c != '.' && c != '/') with
  | '.' :: rest => if (rest.takeWhile (fun c => c != '/')).any (fun c => c != '.') then (rest.reverse, '.' :: ext.reverse) else (p, [])
  | _ => (p, [])

/-- What `empca` returns: the basis vectors and the coefficients of the spectra. -/
structure Empca where
  eigvec : List (List ℝ)
  coeff : List (List ℝ)

/-- One output file: what `Template` reads back from it and the extension `ARCHETYPE_COEFF`, if there is one. -/
structure Made where
  file : TemplateFile
  coeff : Option (List (List ℝ))

/-- The options of the three scripts for simulated spectra. (`--seed` is an argument of `desisim` only.) -/
structure MakeOptions where
  outfile : Option PyStr
  niter : Nat
  nvec : Nat
  version : Option PyStr

/-- The outside code and the environment. `simulate` yields the simulated spectra of a class as (spectrum, effective temperature) on the wavelengths `twave`; `basisDir` is `$DESI_BASIS_TEMPLATES`. -/
structure World where
  simulate : PyStr → Py (List ℝ × List (List ℝ × ℝ))
  resample : List ℝ → List ℝ → List ℝ → List ℝ
  empca : List (List ℝ) → Nat → Nat → Py Empca
  basisDir : Option PyStr
  clobber : Bool

/-- How a script ends: normally, with exit code 1, or with an exception. -/
inductive Ending where
  | done
  | exit1
  | raised (e : PyErr)

/-- rrgaltemplate:45-46  the wavelengths of the galaxy templates. -/
noncomputable def galWave : Py (List ℝ) := npArange (3500 / (1 + 1.85)) (11000 + 0.1 / 2) 0.1

/-- rrstartemplate:43-44, rrstarwdtemplate:43-44  the wavelengths of the star templates. -/
noncomputable def starWave : Py (List ℝ) := npArange 3000 (11000 + 0.1 / 2) 0.1

/-- rrgaltemplate:50-53, rrstartemplate:46-49, rrstarwdtemplate:48-56  the simulated spectra of one class on the wavelengths `wave`. -/
def sampled (w : World) (wave : List ℝ) (kind : PyStr) : Py (List (List ℝ × ℝ)) := do
  let (twave, spectra) ← w.simulate kind
  return spectra.map (fun s => (w.resample wave twave s.1, s.2))

/-- rrgaltemplate:69-70, rrstartemplate:52-53, rrstarwdtemplate:61-62  `flux[i] /= np.median(flux[i])` (division by zero gives 0 here). -/
noncomputable def normalized (row : List ℝ) : List ℝ := row.map (fun x => x / npMedian row)

/-- rrgaltemplate:79-80, rrstartemplate:79-80, rrstarwdtemplate:72-73  `model.coeff[i] /= np.linalg.norm(model.coeff[i])` (division by zero gives 0 here). -/
noncomputable def unitCoeff (row : List ℝ) : List ℝ := row.map (fun x => x / Real.sqrt ((row.map (fun y => y * y)).sum))

/-- rrgaltemplate:84-98, rrstartemplate:84-98, rrstarwdtemplate:77-90  the header and the data of the output. `wave[0]` of an empty array raises `IndexError`; `os.environ[..]` raises `KeyError`. -/
noncomputable def linearFile (w : World) (o : MakeOptions) (wave : List ℝ) (rrtype subtype : PyStr) (m : Empca) : Py Made := do
  let w0 ← npGet wave 0
  if w.basisDir.isNone then throw .keyError
  return { file := { version := o.version, crval1 := w0, cdelt1 := 0.1, naxis1 := (m.eigvec.head?.getD []).length, loglam := none, flux := m.eigvec, rrmethod := none, redshifts := none,
                     rrtype := some rrtype, rrsubtyp := some subtype, rrigm := none }
           coeff := some (m.coeff.map unitCoeff) }

/-- rrgaltemplate:42-98  the galaxy template, everything before the write. -/
noncomputable def galMade (w : World) (o : MakeOptions) : Py Made := do
  let wave ← galWave
  let elg ← sampled w wave "ELG".toList
  let lrg ← sampled w wave "LRG".toList
  let bgs ← sampled w wave "BGS".toList
  let flux := ((elg ++ lrg) ++ bgs).map (fun s => normalized s.1)
  let m ← w.empca flux o.niter o.nvec
  linearFile w o wave "GALAXY".toList [] m

/-- rrgaltemplate:36-101  the script. `overwrite=True`. -/
noncomputable def rrgaltemplate (w : World) (o : MakeOptions) (disk : PyDict PyStr Made) : PyDict PyStr Made × Ending :=
  match o.outfile with
  | none => (disk, .exit1)
  | some out =>
    match galMade w o with
    | .error e => (disk, .raised e)
    | .ok m => (disk.set out m, .done)

/-- rrstartemplate:56-64  the classes and their temperatures. -/
def typeTemp : List (PyStr × ℝ × ℝ) :=
  [("B".toList, 10000, 30000), ("A".toList, 7500, 10000), ("F".toList, 6000, 7500), ("G".toList, 5200, 6000), ("K".toList, 3700, 5200), ("M".toList, 2400, 3700)]

/-- rrstartemplate:69  the spectra of a class. -/
noncomputable def ofClass (spectra : List (List ℝ × ℝ)) (lo hi : ℝ) : List (List ℝ) :=
  (spectra.filter (fun s => decide (lo ≤ s.2) && decide (s.2 ≤ hi))).map (·.1)

/-- rrstartemplate:69-98  the template of one class. -/
noncomputable def starMade (w : World) (o : MakeOptions) (wave : List ℝ) (spectra : List (List ℝ × ℝ)) (c : PyStr × ℝ × ℝ) : Py Made := do
  let m ← w.empca (ofClass spectra c.2.1 c.2.2) o.niter o.nvec
  linearFile w o wave "STAR".toList c.1 m

/-- rrstartemplate:100  the name of the file of a class. -/
def starName (out : PyStr) (cls : PyStr) : PyStr := (splitext out).1 ++ ['-'] ++ cls ++ (splitext out).2

/-- rrstartemplate:68-102  the loop over the classes; what has been written stays when a later class fails. -/
noncomputable def starLoop (w : World) (o : MakeOptions) (out : PyStr) (wave : List ℝ) (spectra : List (List ℝ × ℝ)) : List (PyStr × ℝ × ℝ) → PyDict PyStr Made → PyDict PyStr Made × Ending
  | [], disk => (disk, .done)
  | c :: rest, disk =>
    match starMade w o wave spectra c with
    | .error e => (disk, .raised e)
    | .ok m => starLoop w o out wave spectra rest (disk.set (starName out c.1) m)

/-- rrstartemplate:42-53  the normalized spectra with their temperatures. -/
noncomputable def starSpectra (w : World) : Py (List ℝ × List (List ℝ × ℝ)) := do
  let wave ← starWave
  let s ← sampled w wave "STAR".toList
  return (wave, s.map (fun s => (normalized s.1, s.2)))

/-- rrstartemplate:36-102  the script. -/
noncomputable def rrstartemplate (w : World) (o : MakeOptions) (disk : PyDict PyStr Made) : PyDict PyStr Made × Ending :=
  match o.outfile with
  | none => (disk, .exit1)
  | some out =>
    match starSpectra w with
    | .error e => (disk, .raised e)
    | .ok ws => starLoop w o out ws.1 ws.2 typeTemp disk

/-- rrstarwdtemplate:42-90  the white dwarf template, everything before the write. -/
noncomputable def wdMade (w : World) (o : MakeOptions) : Py Made := do
  let wave ← starWave
  let da ← sampled w wave "DA".toList
  let db ← sampled w wave "DB".toList
  let m ← w.empca ((da ++ db).map (fun s => normalized s.1)) o.niter o.nvec
  linearFile w o wave "STAR".toList "WD".toList m

/-- rrstarwdtemplate:36-94  the script. `clobber=True` raises `TypeError` if `astropy` does not know it. -/
noncomputable def rrstarwdtemplate (w : World) (o : MakeOptions) (disk : PyDict PyStr Made) : PyDict PyStr Made × Ending :=
  match o.outfile with
  | none => (disk, .exit1)
  | some out =>
    match wdMade w o with
    | .error e => (disk, .raised e)
    | .ok m => if w.clobber then (disk.set (starName out "WD".toList) m, .done) else (disk, .raised .typeError)

/-- rrqsotemplate:26-44  the quasar template from the first HDU of the BOSS file. (`COEFF0`, `COEFF1` are numbers; `eigenboss` is 2-d.) -/
noncomputable def qsoMade (version : Option PyStr) (f : SdssFile) : Py Made := do
  let c0 ← PyDict.get f.header "COEFF0".toList
  let x0 ← asNum c0
  let c1 ← PyDict.get f.header "COEFF1".toList
  let x1 ← asNum c1
  return { file := { version := version, crval1 := x0, cdelt1 := x1, naxis1 := (f.data.head?.getD []).length, loglam := some 1, flux := f.data, rrmethod := none, redshifts := none,
                     rrtype := some "QSO".toList, rrsubtyp := some [], rrigm := none }
           coeff := none }

/-- rrqsotemplate:24-51  the script. The options are not checked; here `-o` is given. -/
noncomputable def rrqsotemplate (clobber : Bool) (version : Option PyStr) (out : PyStr) (f : SdssFile) (disk : PyDict PyStr Made) : PyDict PyStr Made × Ending :=
  match qsoMade version f with
  | .error e => (disk, .raised e)
  | .ok m => if clobber then (disk.set out m, .done) else (disk, .raised .typeError)

end Make
end Redrock
