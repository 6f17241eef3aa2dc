import Verif.Model.Chi2
import Verif.Model.Fitz

/-!
Options of `rrdesi` (external/desi.py): the mask of sky lines and the archetype settings.
-/
namespace Redrock
namespace DesiOpts

section
variable {ω K : Type} [Field K] [LinearOrder K]

/-- desi.py:1011-1012  `ii` for one wavelength -/
def isSkyLine (w : K) : Bool := (decide (5572 ≤ w) && decide (w ≤ 5582)) || (decide (9792 ≤ w) && decide (w ≤ 9795))

/-- desi.py:1011-1013  one spectrum: `s.ivar[ii] = 0.0`. A boolean index of another length raises `IndexError`. -/
def skyMaskSpec (wave : ω → List K) (s : FitSpectrum ω K) : Py (FitSpectrum ω K) :=
  if (wave s.wavehash).length ≠ s.ivar.length then .error .indexError
  else .ok { s with ivar := List.zipWith (fun w v => if isSkyLine w then 0 else v) (wave s.wavehash) s.ivar }

/-- desi.py:1008-1013  all spectra of a target, unless `--no-skymask` -/
def skyMask (wave : ω → List K) (noSkymask : Bool) (spectra : List (FitSpectrum ω K)) : Py (List (FitSpectrum ω K)) :=
  if noSkymask then .ok spectra else spectra.mapM (skyMaskSpec wave)

/-- desi.py:692-709, 756-757  the options -/
structure ArchOpts (K : Type) where
  /-- `--archetypes` is given -/
  archetypes : Bool
  noLegendre : Bool
  degree : Nat
  /-- `--archetype-legendre-percamera True|False` -/
  percamera : Option Bool
  prior : K
  nNearest : Option Nat
  nminima : Option Nat

/-- the arguments of `zfind` that they determine -/
structure ArchArgs (K : Type) where
  priorSigma : Option K
  degree : Nat
  perCamera : Bool
  nNearest : Option Nat
  nminima : Nat
  deriving DecidableEq

/-- desi.py:819-827, 1019-1063, 1087-1089. `ncamera` is the number of wavelength grids of the run. (`--archetype-legendre-degree` is taken to be non-negative.) -/
def archArgs (o : ArchOpts K) (ncamera : Nat) : ArchArgs K :=
  let nminima := match o.nminima with
    | some n => n
    | none => if o.archetypes then 9 else 3
  if o.noLegendre || !o.archetypes then { priorSigma := none, degree := 0, perCamera := false, nNearest := o.nNearest, nminima := nminima }
  else
    let perCamera := if 1 < ncamera then (match o.percamera with
      | none => true
      | some b => b) else false
    { priorSigma := if o.prior ≤ 0 then none else some o.prior, degree := o.degree, perCamera := perCamera, nNearest := o.nNearest, nminima := nminima }

/-- zfind.py:340-346, 362  what `fitz` gets for a template: the archetypes of its type, if there are any, with the settings of the run; `getBest` as in `ArchEnv`. -/
def archEnvOf (a : ArchArgs K) (ncamera : Nat) (getBest : Option K → K → Option K → Py (K × List K × List Char)) : ArchEnv K :=
  { getBest := getBest, perCamera := a.perCamera, ncamGrids := ncamera, nNearest := a.nNearest, priorSigma := a.priorSigma, degLegendre := a.degree }

end
end DesiOpts
end Redrock
