import Verif.Model.Zfind

/-!
Model of the DESI-specific post-processing of the redshift table in `rrdesi` (`/repo/py/redrock/external/desi.py` lines 1093-1135) and of
`Target.eval_model` (`/repo/py/redrock/targets.py` lines 184-234).
-/
namespace Redrock

/-- The columns of one row of the fibermap that are used. -/
structure FiberRow (ι : Type) where
  targetid : ι
  fiberstatus : Nat
  objtype : String

/-- `desispec.maskbits.fibermask`: the mask values of the bits used; `coverage` are those of `BADCOLUMN, BADAMPB, BADAMPR, BADAMPZ` that exist. -/
structure FiberMask where
  poorposition : Nat
  badposition : Nat
  brokenfiber : Nat
  unassigned : Nat
  coverage : List Nat

/-- One row of the table `zfit`: target ID, the columns of `Row`, and the fit method. -/
structure DesiRow (K ι : Type) where
  targetid : ι
  row : Row K String
  fitmethod : String

section
variable {K ι : Type} [Field K] [LinearOrder K] [DecidableEq ι]

/-- `np.isin(zfit['targetid'], targetids[sel])` for one row of `zfit`. -/
def isinSel (fm : List (FiberRow ι)) (sel : FiberRow ι → Bool) (t : ι) : Bool := ((fm.filter sel).map (·.targetid)).any (fun u => decide (u = t))

/-- desi.py:1097  -/
def FiberRow.poorpos (m : FiberMask) (f : FiberRow ι) : Bool := decide (f.fiberstatus &&& m.poorposition ≠ 0)
/-- desi.py:1098  -/
def FiberRow.badpos (m : FiberMask) (f : FiberRow ι) : Bool := decide (f.fiberstatus &&& m.badposition ≠ 0)
/-- desi.py:1099  -/
def FiberRow.broken (m : FiberMask) (f : FiberRow ι) : Bool := decide (f.fiberstatus &&& m.brokenfiber ≠ 0)
/-- desi.py:1100  -/
def FiberRow.unassignedF (m : FiberMask) (f : FiberRow ι) : Bool := decide (f.fiberstatus &&& m.unassigned ≠ 0)
/-- desi.py:1101  -/
def FiberRow.sky (f : FiberRow ι) : Bool := decide (f.objtype = "SKY")
/-- desi.py:1102  `(objtype != 'TGT') & ~sky` -/
def FiberRow.badtype (f : FiberRow ι) : Bool := decide (f.objtype ≠ "TGT") && !f.sky
/-- desi.py:1104-1107  -/
def FiberRow.badcoverage (m : FiberMask) (f : FiberRow ι) : Bool := m.coverage.any (fun b => decide (f.fiberstatus &&& b ≠ 0))

/-- `zwarn[ii] |= bit` for one row. -/
def orIf (c : Bool) (bit w : Nat) : Nat := if c then w ||| bit else w

/-- desi.py:1111-1135  the flags of one row, in the order of the source; a NODATA row is reset to z=0, GALAXY, no subtype, zero coefficients, method NONE.
(`fitmethod.astype('U4')` keeps the names in use: PCA, NMF, ARCH, NONE; not modelled.) -/
def desiFlagRow (m : FiberMask) (fm : List (FiberRow ι)) (d : DesiRow K ι) : DesiRow K ι :=
  let t := d.targetid
  let w := d.row.zwarn
  let w := orIf (isinSel fm (·.poorpos m) t) ZW.POORDATA w
  let nodata := isinSel fm (fun f => f.badpos m || f.broken m || f.unassignedF m || f.badtype) t
  let w := orIf nodata ZW.NODATA w
  let w := orIf (isinSel fm (·.broken m) t) ZW.UNPLUGGED w
  let w := orIf (isinSel fm (·.sky) t) ZW.SKY w
  let w := orIf (isinSel fm (·.badcoverage m) t) ZW.LITTLE_COVERAGE w
  let w := orIf (isinSel fm (·.badtype) t) ZW.BAD_TARGET w
  if nodata then
    { d with row := { d.row with zwarn := w, spectype := "GALAXY", subtype := "", coeff := d.row.coeff.map (fun _ => 0), z := 0 },
             fitmethod := "NONE" }
  else { d with row := { d.row with zwarn := w } }

/-- desi.py:1093-1135  the whole table. -/
def desiFlags (m : FiberMask) (fm : List (FiberRow ι)) (zfit : List (DesiRow K ι)) : List (DesiRow K ι) := zfit.map (desiFlagRow m fm)

/-- What `eval_model` needs of a spectrum: its wavelength-grid key and wavelengths. -/
structure ModelSpec (ω K : Type) where
  wavehash : ω
  wave : List K

/-- targets.py:184-234  `Target.eval_model`. `templates` is the dictionary keyed by (spectype, subtype), its values the evaluation functions
`coeff wave z ↦ model` (template sum, rebinning and resolution inside, see `templateEval`; no IGM transmission there). `archEval i sp` stands for the archetype branch
of the `i`-th spectrum. The result is the dictionary `wavehash → model`, later spectra with the same key overwrite earlier ones. -/
def evalModel {ω : Type} [DecidableEq ω] (spectra : List (ModelSpec ω K)) (templates : PyDict (String × String) (List K → List K → K → Py (List K)))
    (archEval : Nat → ModelSpec ω K → Py (List K)) (fitmethod spectype subtype : String) (coeff : List K) (z : K) : Py (PyDict ω (List K)) :=
  if coeff.all (fun c => decide (c = 0)) then
    .ok (spectra.foldl (fun d sp => d.set sp.wavehash (sp.wave.map (fun _ => 0))) [])
  else if fitmethod = "ARCH" then
    spectra.zipIdx.foldlM (fun d sp => do
      let mdl ← archEval sp.2 sp.1
      return d.set sp.1.wavehash mdl) []
  else match templates.get? (spectype, subtype) with
    | none => .error .keyError
    | some tx => spectra.foldlM (fun d sp => do
        let mdl ← tx coeff sp.wave z
        return d.set sp.wavehash mdl) []

end
end Redrock
