import Verif.Model.Minima
import Verif.Model.ZWarn
import Mathlib.Algebra.Order.Field.Basic

/-!
Model of `/repo/py/redrock/fitz.py` (`get_dv`, `minfit`, `fitz`) and of `split_archetype_coeff` in
`/repo/py/redrock/archetypes.py`.
-/
namespace Redrock

section
variable {K : Type} [Field K] [LinearOrder K]

/-- Python/numpy indexing with a non-negative index: `IndexError` when out of bounds. -/
def npGet {V : Type} (x : List V) (i : Nat) : Py V :=
  match x[i]? with
  | some v => .ok v
  | none => .error .indexError

/-- Indexing with a negative index `x[-k]`. -/
def npGetNeg {V : Type} (x : List V) (k : Nat) : Py V :=
  if k ≤ x.length then npGet x (x.length - k) else .error .indexError

/-- Python slice `x[lo:hi]` with possibly negative bounds. -/
def pySlice {V : Type} (x : List V) (lo hi : Int) : List V :=
  let n : Int := x.length
  let norm (a : Int) : Nat := (if a < 0 then max 0 (a + n) else min a n).toNat
  (x.take (norm hi)).drop (norm lo)

/-- fitz.py:40  `scipy.constants.speed_of_light/1000.` = 299792.458 km/s. -/
def speedOfLightKms : K := 299792458 / 1000

/-- fitz.py:28-43  `get_dv(z, zref)`. -/
def getDv (z zref : K) : K := speedOfLightKms * (z - zref) / (1 + zref)

/-- constants.py:7-8 and fitz.py:193-196  the minimum velocity separation of candidates. -/
def maxVeloDiff (isStar : Bool) : K := if isStar then 100 else 1000

/-- `np.linspace(lo, hi, n)`: `lo + k*(hi-lo)/(n-1)`; numpy sets the last point to `hi` exactly, which in exact
arithmetic is the same. -/
def linspace (lo hi : K) (n : Nat) : List K :=
  (List.range n).map (fun k : Nat => lo + (k : K) * ((hi - lo) / ((n : K) - 1)))

/-- `np.min` (raises `ValueError` on an empty array). -/
def npMin (x : List K) : Py K := pyMinBy id x

/-- `np.max`. -/
def npMax (x : List K) : Py K :=
  match x with
  | [] => .error .valueError
  | v :: vs => .ok (vs.foldl max v)

/-- `np.argmin(x)`: the first index of the smallest value; also `np.where(x == np.min(x))[0][0]`. -/
def npArgmin (x : List K) : Py Nat := do
  let m ← npMin x
  pyIndex x m

/-- fitz.py:70-111  `minfit(x, y)`. `polyfit` stands for `np.polyfit(x, y, 2)` and may raise `LinAlgError`, which is caught;
`sqrt` stands for `np.sqrt`. -/
def minfit (sqrt : K → K) (polyfit : List K → List K → Py (K × K × K)) (x y : List K) : Py (K × K × K × Nat) :=
  if x.length < 3 then .ok (-1, -1, -1, ZW.BAD_MINFIT)
  else match polyfit x y with
    | .error .linAlgError => .ok (-1, -1, -1, ZW.BAD_MINFIT)
    | .error e => .error e
    | .ok (a, b, c) =>
      if a = 0 then .ok (-1, -1, -1, ZW.BAD_MINFIT)
      else do
        let x0 := -b / (2 * a)
        let y0 := -(b ^ 2) / (4 * a) + c
        let xmin ← npMin x
        let xmax ← npMax x
        let zwarn : Nat := 0
        let zwarn := if x0 ≤ xmin ∨ xmax ≤ x0 then zwarn ||| ZW.BAD_MINFIT else zwarn
        let zwarn := if y0 ≤ 0 then zwarn ||| ZW.BAD_MINFIT else zwarn
        if 0 < a then .ok (x0, 1 / sqrt a, y0, zwarn)
        else .ok (x0, 1 / sqrt (-a), y0, zwarn ||| ZW.BAD_MINFIT)

/-- archetypes.py:428-443  `split_archetype_coeff(subtype, coeff, nbands, nleg)`. The number of archetypes is
`len(subtype.split(';'))`. -/
def splitArchetypeCoeff (subtype : List Char) (coeff : List K) (nbands nleg : Nat) : List K × List (List K) :=
  let narchetypes := (subtype.splitOn ';').length
  let archcoeff := coeff.take narchetypes
  let all_legcoeff := coeff.drop narchetypes
  (archcoeff, (List.range nbands).map (fun i => (all_legcoeff.take ((i + 1) * nleg)).drop (i * nleg)))

/-- One candidate: the entries `z, zerr, zwarn, chi2, coeff, legcoeff` of the result dictionary (fitz.py:329-356); the entries
`zz, zzchi2, fitmethod, fulltype, pca_*` are not modelled. -/
structure Cand (K : Type) where
  z : K
  zerr : K
  zwarn : Nat
  chi2 : K
  coeff : List K
  legcoeff : List (List K)
  deriving DecidableEq

/-- Arguments of `fitz` that matter in archetype mode. `getBest tr z prior` stands for the numerical work of
`Archetype.get_best_archetype` at redshift `z` (it returns chi2, coefficients, subtype), with the IGM transmission `trans` calculated for the redshift `tr` (fitz.py:293-296); `tr = none`: all its entries are
`None` and nothing is absorbed. -/
structure ArchEnv (K : Type) where
  getBest : Option K → K → Option K → Py (K × List K × List Char)
  perCamera : Bool
  ncamGrids : Nat
  nNearest : Option Nat
  priorSigma : Option K
  degLegendre : Nat

/-- Everything else `fitz` uses. `scan zz` stands for fitz.py:221-273 (rebin, IGM, chi2 and [OII] penalty on the fine grid);
`fitAt zmin` for fitz.py:283-308 (coefficients at one redshift); both may raise, e.g. `ValueError` outside the template range. -/
structure FitEnv (K : Type) where
  nbasis : Nat
  isStar : Bool
  nz : Nat
  minfit : List K → List K → Py (K × K × K × Nat)
  scan : List K → Py (List K)
  fitAt : K → Py (List K)
  arch : Option (ArchEnv K)

/-- archetypes.py:364-366 inside `get_best_archetype`: with `n_nearest` given, `prior.copy()` raises `AttributeError` if the
prior is `None`. -/
def ArchEnv.getBestArchetype (A : ArchEnv K) (tr : Option K) (z : K) (prior : Option K) : Py (K × List K × List Char) :=
  if A.nNearest.isSome ∧ prior = none then .error .attributeError else A.getBest tr z prior

/-- fitz.py:313-356  after the parabola fit: choose `zbest`, set the flags, skip if too close to an earlier result, append. The local
variable `ncamera` exists only if `prior_sigma is not None` (fitz.py:334-338) and is used at line 349 in any case. `tr` is the redshift of `trans`. -/
def fitzFinish (E : FitEnv K) (redshifts zz zzchi2 : List K) (results : List (Cand K))
    (zmin sigma chi2min : K) (zwarn : Nat) (coeff : List K) (tr : Option K) : Py (List (Cand K)) := do
  let zzfirst ← npGet zz 0
  let zzlast ← npGetNeg zz 1
  let (zbest, chi2min, zwarn) ←
    (if zmin < zzfirst ∨ zzlast < zmin then do
      let imin ← npArgmin zzchi2
      let zb ← npGet zz imin
      let cb ← npGet zzchi2 imin
      pure (zb, cb, zwarn ||| ZW.BAD_MINFIT)
    else pure (zmin, chi2min, zwarn) : Py (K × K × Nat))
  let z1 ← npGet redshifts 1
  let zm2 ← npGetNeg redshifts 2
  let zwarn := if zbest < z1 ∨ zm2 < zbest then zwarn ||| ZW.Z_FITLIMIT else zwarn
  let zwarn := if zmin < z1 ∨ zm2 < zmin then zwarn ||| ZW.Z_FITLIMIT else zwarn
  if results.any (fun p => decide (|getDv zbest p.z| < maxVeloDiff E.isStar)) then pure results
  else match E.arch with
    | none => pure (results ++ [⟨zbest, sigma, zwarn, chi2min, coeff, []⟩])
    | some A => do
      let ncamera : Option Nat := A.priorSigma.map (fun _ => if A.perCamera then A.ncamGrids else 1)
      let (chi2arch, archall, subtype) ← A.getBestArchetype tr zbest A.priorSigma
      match ncamera with
      | none => .error .unboundLocal
      | some nc =>
        let (archcoeff, legcoeff) := splitArchetypeCoeff subtype archall nc A.degLegendre
        pure (results ++ [⟨zbest, sigma, zwarn, chi2arch, archcoeff, legcoeff⟩])

/-- fitz.py:202-356  body of `for imin in find_minima(zchi2)` (after the `break` test). -/
def fitzBody (E : FitEnv K) (zchi2len : Nat) (redshifts : List K) (results : List (Cand K)) (imin : Nat) :
    Py (List (Cand K)) := do
  let zi ← npGet redshifts imin
  if results.any (fun p => decide (|getDv zi p.z| < maxVeloDiff E.isStar)) then pure results
  else
    let ilo := imin - 1
    let ihi := min (imin + 1) (zchi2len - 1)
    let zlo ← npGet redshifts ilo
    let zhi ← npGet redshifts ihi
    let zz := linspace zlo zhi E.nz
    let zzchi2 ← E.scan zz
    let am ← npArgmin zzchi2
    let i : Int := min (max (am : Int) 1) ((zz.length : Int) - 2)
    let (zmin, sigma, chi2min, zwarn) ← E.minfit (pySlice zz (i - 1) (i + 2)) (pySlice zzchi2 (i - 1) (i + 2))
    match E.fitAt zmin with
    | .ok coeff => fitzFinish E redshifts zz zzchi2 results zmin sigma chi2min zwarn coeff (some zmin)
    | .error .valueError => do
      let z0 ← npGet redshifts 0
      let zl ← npGetNeg redshifts 1
      if zmin < z0 ∨ zl < zmin then
        fitzFinish E redshifts zz zzchi2 results zmin sigma chi2min (zwarn ||| ZW.Z_FITLIMIT ||| ZW.BAD_MINFIT)
          (List.replicate E.nbasis 0) none
      else .error .valueError
    | .error e => .error e

/-- fitz.py:198-356  the loop with its `break`. -/
def fitzLoop (E : FitEnv K) (nminima zchi2len : Nat) (redshifts : List K) : List Nat → List (Cand K) → Py (List (Cand K))
  | [], results => .ok results
  | imin :: rest, results =>
    if results.length = nminima then .ok results
    else do
      let results ← fitzBody E zchi2len redshifts results imin
      fitzLoop E nminima zchi2len redshifts rest results

/-- fitz.py:133-395  `fitz`. Simplifications: CPU path; the result is the list of candidates instead of a dictionary of
columns; `npixels` is modelled in `Verif.Model.Zfind`. `argsort` is any function meeting numpy's contract. -/
def fitz (argsort : List (Ext K) → List Nat) (E : FitEnv K) (nminima : Nat) (zchi2 : List (Ext K)) (redshifts : List K) :
    Py (List (Cand K)) := do
  if zchi2.length ≠ redshifts.length then throw .assertionError
  let minima ← findMinima argsort zchi2
  let results ← fitzLoop E nminima zchi2.length redshifts minima []
  let ii := argsort (results.map (fun c => .fin c.chi2))
  npTake results ii

end
end Redrock
