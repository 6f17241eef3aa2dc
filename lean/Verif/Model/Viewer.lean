import Verif.Model.Binned
import Verif.Model.Details

/-!
The interactive viewer `rrplot`: `PlotSpec` (plotspec.py). What is drawn is a value (`Picture`); the window, zoom limits, labels and the median filter of width 1 (the identity) are not modelled.
Only templates, not `--use-archetype`; no `truth` table.
-/
namespace Redrock
namespace Viewer

/-- a row of the `zfit` table of the details file, the columns that the viewer uses -/
structure Row (ι K : Type) where
  targetid : ι
  znum : Int
  spectype : PyStr
  subtype : PyStr
  coeff : List K
  z : K
  deriving DecidableEq

/-- a spectrum of a target, as the viewer uses it -/
structure Spec (K : Type) where
  wave : List K
  flux : List K
  ivar : List K
  R : List (List K)
  deriving DecidableEq

/-- a target -/
structure Target (ι K : Type) where
  id : ι
  spectra : List (Spec K)
  deriving DecidableEq

/-- a template: type, rest-frame wavelengths, basis vectors -/
structure Tmpl (K : Type) where
  rrtype : PyStr
  wave : List K
  flux : List (List K)

/-- bin/rrplot:64-67  the arguments of `PlotSpec` -/
structure Args (ι K : Type) where
  targets : List (Target ι K)
  templates : PyDict PyStr (Tmpl K)
  zscan : PyDict ι (PyDict PyStr (ScanEntry K))
  zfit : List (Row ι K)

/-- a key press -/
inductive Key where
  | right | left | down | up | details | other
  deriving DecidableEq

/-- plotspec.py:33-34, 103  the mutable part of the object -/
structure St where
  itarget : Int
  znum : Int
  nznum : Nat
  deriving DecidableEq

/-- the curves for one spectrum: flux (`none` is a gap), model before (dotted) and after (solid) the resolution -/
structure Drawn (K : Type) where
  flux : List (Option K)
  dotted : List K
  solid : List (Option K)
  deriving DecidableEq

/-- a picture: the row it is labelled with, the chi2 curves of the scan (type, redshifts, chi2, chi2 + penalty), the curves of the spectra -/
structure Picture (ι K : Type) where
  row : Row ι K
  scans : List (PyStr × List K × List K × List K)
  spectra : List (Drawn K)
  deriving DecidableEq

/-- what a key press shows -/
inductive Shown (ι K : Type) where
  | picture (p : Picture ι K)
  | text
  | table (rows : List (Row ι K))
  | nothing
  deriving DecidableEq

section
variable {ι K : Type} [DecidableEq ι] [Field K] [LinearOrder K]

/-- plotspec.py:21-26  only targets that are in the zfit table -/
def keptTargets (a : Args ι K) : List (Target ι K) := a.targets.filter (fun t => decide (t.id ∈ a.zfit.map (·.targetid)))

/-- python `x[i]` for an integer `i` of any sign -/
def pyGetInt {V : Type} (x : List V) (i : Int) : Py V :=
  if 0 ≤ i then npGet x i.toNat else npGetNeg x (-i).toNat

/-- plotspec.py:161-175  one spectrum: `tp.eval(coeff[0:tp.nbasis], spec.wave, z) * (1+z)`, then the resolution; flux and model have gaps where the inverse variance is 0 -/
def drawSpectrum (tp : Tmpl K) (zz : Row ι K) (s : Spec K) : Py (Drawn K) := do
  let m ← templateEval tp.wave tp.flux (zz.coeff.take tp.flux.length) s.wave zz.z none
  let mx := m.map (fun v => v * (1 + zz.z))
  let model := matVec s.R mx
  return { flux := List.zipWith (fun f w => if w = 0 then none else some f) s.flux s.ivar,
           dotted := mx,
           solid := List.zipWith (fun f w => if w = 0 then none else some f) model s.ivar }

/-- plotspec.py:125-131  the scan curves of one type, if `zscan[target.id]` has that key -/
def drawScan (sc : PyDict PyStr (ScanEntry K)) (spectype : PyStr) : Option (PyStr × List K × List K × List K) :=
  (sc.get? spectype).map (fun zx => (spectype, zx.redshifts, zx.zchi2, List.zipWith (· + ·) zx.zchi2 zx.penalty))

/-- plotspec.py:97-231  `plot`: the first row of the target with the current `znum` (`IndexError` if there is none), its template (`KeyError`, or `ValueError` for another type), the curves.
Simplified: if `plot` raises, the object has already changed; here the run just stops with the exception. -/
def plot (a : Args ι K) (st : St) : Py (St × Picture ι K) := do
  let target ← pyGetInt (keptTargets a) st.itarget
  let zfit := a.zfit.filter (fun r => decide (r.targetid = target.id))
  let zz ← npGet (zfit.filter (fun r => decide (r.znum = st.znum))) 0
  let tp ← a.templates.get (makeFulltype zz.spectype (some zz.subtype))
  if tp.rrtype ≠ zz.spectype then throw .valueError
  let sc ← a.zscan.get target.id
  let spectra ← target.spectra.mapM (drawSpectrum tp zz)
  return ({ st with nznum := zfit.length },
    { row := zz, scans := ["STAR".toList, "GALAXY".toList, "QSO".toList].filterMap (drawScan sc), spectra := spectra })

/-- python `a % n` for integers, `n = len(...)`: `ZeroDivisionError` for 0 (the result has the sign of `n`) -/
def pyMod (a : Int) (n : Nat) : Py Int := if n = 0 then .error .zeroDivision else .ok (a % n)

/-- plot and show -/
def replot (a : Args ι K) (st : St) : Py (St × Shown ι K) := do
  let (st, p) ← plot a st
  return (st, .picture p)

/-- plotspec.py:69-95  `_onkeypress` -/
def onKey (a : Args ι K) (st : St) (k : Key) : Py (St × Shown ι K) :=
  match k with
  | .right => do
    let n ← pyMod (st.znum + 1) st.nznum
    replot a { st with znum := n }
  | .left => do
    let n ← pyMod (st.znum - 1) st.nznum
    replot a { st with znum := n }
  | .down =>
    if st.itarget = min ((keptTargets a).length : Int) a.zscan.length - 1 then .ok (st, .text)
    else replot a { st with znum := 0, itarget := st.itarget + 1 }
  | .up =>
    if st.itarget = 0 then .ok (st, .text)
    else replot a { st with znum := 0, itarget := st.itarget - 1 }
  | .details => do
    let target ← pyGetInt (keptTargets a) st.itarget
    return (st, .table (a.zfit.filter (fun r => decide (r.targetid = target.id))))
  | .other => .ok (st, .nothing)

/-- a sequence of key presses; returns what was shown after each -/
def onKeys (a : Args ι K) : St → List Key → Py (St × List (Shown ι K))
  | st, [] => .ok (st, [])
  | st, k :: ks => do
    let (st, s) ← onKey a st k
    let (st, ss) ← onKeys a st ks
    return (st, s :: ss)

/-- plotspec.py:33-34, 66, 69-95  a session: `PlotSpec(...)` draws the first picture, then the keys -/
def session (a : Args ι K) (keys : List Key) : Py (St × List (Shown ι K)) := do
  let (st, s) ← replot a { itarget := 0, znum := 0, nznum := 0 }
  let (st, ss) ← onKeys a st keys
  return (st, s :: ss)

end
end Viewer
end Redrock
