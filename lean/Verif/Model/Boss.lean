import Verif.Model.Zfind
import Verif.Model.Dict
import Verif.Model.Strings
import Verif.Model.Coadd
import Mathlib.Algebra.Order.Floor.Ring

/-!
Model of `/repo/py/redrock/external/boss.py`: `read_spectra` (81-289) and the target selection and archetype argument of `rrboss` (401-425, 448-454, 483-485), together with
zfind.py:261-263 which receives that argument.

What is abstracted: a FITS file is a record (`BossFile`), wavelengths are already `10**loglam`, `np.exp` is a parameter, `'{}'.format(int)` is a parameter, `print` is ignored. A fibre number is at
least one (python's index `f-1` is natural subtraction here).
-/
namespace Redrock

section
variable {K : Type} [Field K] [LinearOrder K] [FloorRing K]

/-- boss.py:160-191  what is read from one spPlate or spCFrame file: HDU 0 flux and `PLATEID`, HDU 1 ivar, HDU 2 mask, HDU 3 (or COEFF0/COEFF1) wavelengths, one row per fibre, HDU 4 dispersion, HDU 5
fibre numbers. `blue` is `CAMERAS[0]=="b"`. -/
structure BossFile (K : Type) where
  name : PyStr
  plateid : Int
  fibers : List Nat
  flux : List (List K)
  ivar : List (List K)
  andmask : List (List Int)
  wave : List (List K)
  wdisp : List (List K)
  blue : Bool

/-- boss.py:112-143  one spPlate file: header `PLATEID`, `MJD`, the files to read for it (itself, or its spCFrame files with `use_frames`) and the `THING_ID` column of its photoPosPlate file. -/
structure SpPlate (K : Type) where
  plate : Int
  mjd : Int
  infiles : List (BossFile K)
  thingId : List Int

/-- A spectrum as handed to `Spectrum` (boss.py:245). -/
structure BossSpec (K : Type) where
  wave : List K
  flux : List K
  ivar : List K
  R : Dia K
  deriving DecidableEq

/-- boss.py:145-152  the common plate (or MJD), 0 if there are several. -/
def commonOrZero (xs : List Int) : Int :=
  match xs.dedup with
  | [x] => x
  | _ => 0

/-- `abs(la-l).min(axis=0)`. `ValueError` without rows. -/
def colMinDist (la : List (List K)) (l : K) : Py (List K) :=
  match la.map (fun row => row.map (fun w => |w - l|)) with
  | [] => .error .valueError
  | r :: rs => .ok (rs.foldl (List.zipWith min) r)

/-- boss.py:175-176  `abs(la-l).min(axis=0).argmin()`. -/
def nearestPixel (la : List (List K)) (l : K) : Py Nat := do
  let m ← colMinDist la l
  npArgmin m

/-- boss.py:168-174  the wavelength limits. -/
def bossLimits (useFrames blue : Bool) : K × K :=
  if useFrames then (if blue then (3500, 6000) else (5500, 10000)) else (3500, 10000)

/-- `a[:,imin:imax]`. -/
def cropCols {V : Type} (imin imax : Nat) (a : List (List V)) : List (List V) := a.map (fun r => (r.take imax).drop imin)

/-- boss.py:187-189  `wd[wd<1e-5] = 2.` -/
def fixWidth (w : K) : K := if w < 1 / 100000 then 2 else w

/-- boss.py:162-190  mask, crop, repair the dispersion. -/
def cropFile (useFrames useAndmask : Bool) (f : BossFile K) : Py (BossFile K) := do
  let iv := if useAndmask then List.zipWith (List.zipWith (fun v m => v * (if m = 0 then 1 else 0))) f.ivar f.andmask else f.ivar
  let lim : K × K := bossLimits useFrames f.blue
  let imin ← nearestPixel f.wave lim.1
  let imax ← nearestPixel f.wave lim.2
  return { f with wave := cropCols imin imax f.wave, flux := cropCols imin imax f.flux, ivar := cropCols imin imax iv,
                  wdisp := (cropCols imin imax f.wdisp).map (fun r => r.map fixWidth) }

/-- boss.py:193  `ndiag = int(4*np.ceil(wd.max())+1)`; `ValueError` for an empty array. -/
def bossNdiag (wd : List (List K)) : Py Nat := do
  let m ← npMax wd.flatten
  return (4 * ⌈m⌉ + 1).toNat

/-- boss.py:216-223  `reso[idiag, j]`: `d` is the diagonal of `di2` with the offset `ndiag//2-idiag`, it has `nbins-|offset|` entries, all `offset**2`. -/
def resoRaw (exp : K → K) (ndiag : Nat) (wd : List K) (idiag j : Nat) : K :=
  let nbins := wd.length
  let offset : Int := ((ndiag / 2 : Nat) : Int) - idiag
  let lend : Nat := nbins - offset.natAbs
  let v := exp (-((offset : K) ^ 2) / 2 / wd.getD j 0 ^ 2)
  if offset < 0 then (if j < lend then v else 0)
  else (if nbins - lend ≤ j then v else 0)

/-- boss.py:229  `reso /= np.sum(reso, axis=0)`. -/
def resoNorm (exp : K → K) (ndiag : Nat) (wd : List K) (idiag j : Nat) : K :=
  resoRaw exp ndiag wd idiag j / ((List.range ndiag).map (fun i => resoRaw exp ndiag wd i j)).sum

/-- boss.py:230-232  `offsets = ndiag//2 - np.arange(ndiag)`, `R = sparse.dia_matrix((reso, offsets), (nwave, nwave))`. -/
def bossDia (exp : K → K) (ndiag : Nat) (wd : List K) : Dia K :=
  ⟨(List.range ndiag).map (fun (k : Nat) => ((ndiag / 2 : Nat) : Int) - (k : Int)), (List.range ndiag).map (fun k => (List.range wd.length).map (fun c => resoNorm exp ndiag wd k c))⟩

/-- boss.py:230-232  the same matrix by its entries: `data[k, j]` is the entry of column `j` in row `j - offsets[k]`, where `offsets[k] = ndiag//2 - k`. -/
def bossR (exp : K → K) (ndiag : Nat) (wd : List K) : List (List K) :=
  (List.range wd.length).map (fun r => (List.range wd.length).map (fun c => (bossDia exp ndiag wd).entry r c))

/-- boss.py:203-207  the target ID of fibre `f` of a file. -/
def bossId (useThing : Bool) (thing : PyDict PyStr (List Int)) (plate mjd : Int) (name : PyStr) (f : Nat) : Py Int :=
  if useThing then do
    let ids ← PyDict.get thing name
    npGet ids (f - 1)
  else .ok (platemjdfiber2targetid plate mjd f)

/-- boss.py:198-201  the row of fibre `f`. -/
def bossRow (useFrames : Bool) (f : Nat) : Nat := if useFrames then (f - 1) % 500 else f - 1

/-- boss.py:208  `targetids is None or t in targetids`. -/
def bossWanted (targetids : Option (List Int)) (t : Int) : Bool :=
  match targetids with
  | none => true
  | some ids => decide (t ∈ ids)

/-- boss.py:197-245  one fibre: `none` if its target was not asked for. -/
def fiberEntry (exp : K → K) (useFrames : Bool) (idOf : Nat → Py Int) (targetids : Option (List Int)) (ndiag : Nat) (c : BossFile K) (f : Nat) : Py (Option (Int × BossSpec K)) := do
  let t ← idOf f
  if bossWanted targetids t then do
    let i := bossRow useFrames f
    let wd ← npGet c.wdisp i
    let la ← npGet c.wave i
    let fl ← npGet c.flux i
    let iv ← npGet c.ivar i
    return some (t, ⟨la, fl, iv, bossDia exp ndiag wd⟩)
  else return none

/-- boss.py:210-213, 245  `dic_spectra[t].append(...)`, creating the list if needed. (`bricknames[t]` is set at the same time, to the same string for all targets.) -/
def addEntry (dic : PyDict Int (List (BossSpec K))) (e : Option (Int × BossSpec K)) : PyDict Int (List (BossSpec K)) :=
  match e with
  | none => dic
  | some (t, s) => PyDict.set dic t ((PyDict.get? dic t).getD [] ++ [s])

/-- boss.py:196-245  the loop body over the fibres. -/
def fiberStep (exp : K → K) (useFrames : Bool) (idOf : Nat → Py Int) (targetids : Option (List Int)) (ndiag : Nat) (c : BossFile K)
    (dic : PyDict Int (List (BossSpec K))) (f : Nat) : Py (PyDict Int (List (BossSpec K))) := do
  let e ← fiberEntry exp useFrames idOf targetids ndiag c f
  return addEntry dic e

/-- The options of `read_spectra` (boss.py:82-83); `coadd` and `cache_Rcsr` do not matter here. -/
structure BossOpts where
  targetids : Option (List Int)
  useFrames : Bool
  fiberid : Option (List Nat)
  useAndmask : Bool

/-- boss.py:161-164  the fibres of a file. -/
def fileFibers (o : BossOpts) (f : BossFile K) : List Nat :=
  match o.fiberid with
  | none => f.fibers
  | some w => f.fibers.filter (fun x => decide (x ∈ w))

/-- boss.py:157-247  one file. -/
def fileStep (exp : K → K) (o : BossOpts) (useThing : Bool) (thing : PyDict PyStr (List Int)) (plate mjd : Int)
    (dic : PyDict Int (List (BossSpec K))) (f : BossFile K) : Py (PyDict Int (List (BossSpec K))) := do
  if useThing = false ∧ plate ≠ f.plateid then throw .assertionError
  let c ← cropFile o.useFrames o.useAndmask f
  let ndiag ← bossNdiag c.wdisp
  (fileFibers o f).foldlM (fiberStep exp o.useFrames (bossId useThing thing plate mjd f.name) o.targetids ndiag c) dic

/-- boss.py:141-142  `fiberid2thingid`: the `THING_ID` column belonging to every file name. -/
def thingTable (plates : List (SpPlate K)) : PyDict PyStr (List Int) :=
  (plates.flatMap (fun p => p.infiles.map (fun f => (f.name, p.thingId)))).foldl (fun d e => PyDict.set d e.1 e.2) []

/-- boss.py:211  `'{}-{}'.format(plate,mjd)`, and boss.py:282 / zfind.py:655 with type `S8`: cut to eight characters. -/
def brickname (fmt : Int → PyStr) (plate mjd : Int) : PyStr := (fmt plate ++ ['-'] ++ fmt mjd).take 8

/-- boss.py:81-289  `read_spectra`: the targets with their spectra, in order, and their `BRICKNAME`. -/
def bossReadSpectra (exp : K → K) (fmt : Int → PyStr) (o : BossOpts) (plates : List (SpPlate K)) : Py (List (Int × List (BossSpec K) × PyStr)) := do
  let useThing := decide (1 < plates.length)
  let plate := commonOrZero (plates.map (·.plate))
  let mjd := commonOrZero (plates.map (·.mjd))
  let dic ← (plates.flatMap (·.infiles)).foldlM (fileStep exp o useThing (thingTable plates) plate mjd) []
  let ids := pySort (fun a b => decide (a ≤ b)) (o.targetids.getD (PyDict.keys dic))
  let targets ← ids.mapM (fun t => do
    let s ← PyDict.get dic t
    return (t, s, brickname fmt plate mjd))
  if (PyDict.keys dic).length ≠ targets.length then throw .assertionError
  return targets

/-- boss.py:417-425, 452-453  the targets `rrboss` processes: `first_target` is `--mintarget`, or 0 if only `-n` is given; the slice is taken only if `-n` is given. -/
def rrbossSelect {V : Type} (mintarget ntargets : Option Nat) (targets : List V) : List V :=
  let first := match mintarget with
    | some m => m
    | none => 0
  match ntargets with
  | some n => (targets.drop first).take n
  | none => targets

/-- The `archetypes` argument of `zfind`: `None`, a string, or a dictionary of archetypes. -/
inductive ArchArg where
  | none
  | path (s : PyStr)
  | dict (types : List PyStr)

/-- zfind.py:261-263  `if archetypes: archetype_spectype = list(archetypes.keys())`: a non-empty string has no `keys`. `Option.none`: archetypes are not used. -/
def zfindArchTypes : ArchArg → Py (Option (List PyStr))
  | .none => .ok Option.none
  | .path s => if s = [] then .ok Option.none else .error .attributeError
  | .dict ts => if ts = [] then .ok Option.none else .ok (some ts)

/-- boss.py:317-318, 481-483  `rrboss` passes the command line string on; external/desi.py builds the dictionary first. -/
def rrbossArchArg (cmdline : Option PyStr) : ArchArg :=
  match cmdline with
  | Option.none => .none
  | some s => .path s

end
end Redrock
