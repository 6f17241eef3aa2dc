import Verif.Model.Archetype
import Verif.Model.Binned

/-!
`trapz_rebin` with its optional range arguments on CPU and GPU, and its callers that rebin to a dictionary of wavelength grids, given by centers or by precomputed edges:
`rebin_template` (rebin.py:453-517), `Archetype.rebin_template_batch` (archetypes.py:122-177) and `Spectrum.gpuedges` (targets.py:73-82).
-/
namespace Redrock

section
variable {K : Type} [Field K] [LinearOrder K]

/-- rebin.py:212  the optional arguments `xmin`, `xmax`, `edge_min`, `edge_max` of `trapz_rebin`. -/
structure RangeArgs (K : Type) where
  xmin : Option K := none
  xmax : Option K := none
  edgeMin : Option K := none
  edgeMax : Option K := none

/-- `if v is None: v = default`. -/
def orDefault (v : Option K) (d : Py K) : Py K :=
  match v with
  | some a => .ok a
  | none => d

/-- rebin.py:293-340  the part of `trapz_rebin` before the computation: defaults, the empty case, the range check. -/
def withRange {R : Type} (x edges zs : List K) (a : RangeArgs K) (empty : R) (compute : Py R) : Py R := do
  let edgeMin ← orDefault a.edgeMin (npGet edges 0)
  let edgeMax ← orDefault a.edgeMax (npGetNeg edges 1)
  if zs = [] then return empty
  let xmin ← orDefault a.xmin (do
    let zmax ← npMax zs
    let x0 ← npGet x 0
    return x0 * (1 + zmax))
  let xmax ← orDefault a.xmax (do
    let zmin ← npMin zs
    let xl ← npGetNeg x 1
    return xl * (1 + zmin))
  if edgeMin < xmin ∨ xmax < edgeMax then throw .valueError
  compute

/-- rebin.py:212-378  `trapz_rebin(x, y, edges=edges, myz=zs, xmin=…, xmax=…, edge_min=…, edge_max=…)` on the CPU; result `[iz][ibasis][ibin]`. -/
def trapzRebinOpt (x : List K) (ys : List (List K)) (edges zs : List K) (a : RangeArgs K) : Py (List (List (List K))) :=
  withRange x edges zs a [] (trapzRebinBatch x ys edges zs)

/-- rebin.py:212-378  the same with `use_gpu=True`; the result is the flat array. -/
def trapzRebinGpuOpt (x : List K) (ys : List (List K)) (edges zs : List K) (a : RangeArgs K) : Py (List K) :=
  withRange x edges zs a [] (trapzRebinGpu x ys edges zs)

/-- A value of `dedges`: an array of edges, or a tuple of it with its first and last value. -/
inductive EdgeSpec (K : Type) where
  | plain (edges : List K)
  | tuple (edges : List K) (lo hi : K)

/-- targets.py:73-82, fitz.py:179, archetypes.py:333  `(s.gpuedges, s.minedge, s.maxedge)` for a spectrum with wavelengths `wave`. -/
def gpuEdges (wave : List K) : Py (EdgeSpec K) := do
  let edges ← centers2edges wave
  let lo ← npGet edges 0
  let hi ← npGetNeg edges 1
  return .tuple edges lo hi

/-- rebin.py:506-516 and archetypes.py:153-165  the loop over `dedges`: `minedge` and `maxedge` are set by tuples only and keep their values in later iterations. `f edges minedge maxedge` is the call of
`trapz_rebin`. -/
def edgeLoop {ω R : Type} (f : List K → Option K → Option K → Py R) : Option K → Option K → PyDict ω (EdgeSpec K) → Py (PyDict ω R)
  | _, _, [] => .ok []
  | lo, hi, (k, .plain edges) :: rest => do
    let r ← f edges lo hi
    let rs ← edgeLoop f lo hi rest
    return (k, r) :: rs
  | _, _, (k, .tuple edges lo hi) :: rest => do
    let r ← f edges (some lo) (some hi)
    let rs ← edgeLoop f (some lo) (some hi) rest
    return (k, r) :: rs

/-- rebin.py:488-492  the default range of `rebin_template`: `template.minwave*(1+myz.max())`, `template.maxwave*(1+myz.min())`; the first and last wavelength of the template. -/
def templateRange (twave zs : List K) (xmin xmax : Option K) : Py (K × K) := do
  let lo ← orDefault xmin (do
    let zmax ← npMax zs
    let x0 ← npGet twave 0
    return x0 * (1 + zmax))
  let hi ← orDefault xmax (do
    let zmin ← npMin zs
    let xl ← npGetNeg twave 1
    return xl * (1 + zmin))
  return (lo, hi)

/-- rebin.py:453-503  `rebin_template(template, myz, dwave=dwave, xmin=…, xmax=…)`. `trapz` is `trapz_rebin` on the CPU or GPU with the template's arrays and the redshifts. -/
def rebinTemplateWaves {ω R : Type} (trapz : List K → RangeArgs K → Py R) (twave zs : List K) (xmin xmax : Option K) (dwave : PyDict ω (List K)) : Py (PyDict ω R) := do
  let (lo, hi) ← templateRange twave zs xmin xmax
  dwave.mapM (fun kw => do
    let edges ← centers2edges kw.2
    let r ← trapz edges { xmin := some lo, xmax := some hi }
    return (kw.1, r))

/-- rebin.py:453-517  `rebin_template(template, myz, dedges=dedges, xmin=…, xmax=…)`. -/
def rebinTemplateEdges {ω R : Type} (trapz : List K → RangeArgs K → Py R) (twave zs : List K) (xmin xmax : Option K) (dedges : PyDict ω (EdgeSpec K)) : Py (PyDict ω R) := do
  let (lo, hi) ← templateRange twave zs xmin xmax
  edgeLoop (fun edges mn mx => trapz edges { xmin := some lo, xmax := some hi, edgeMin := mn, edgeMax := mx }) none none dedges

/-- archetypes.py:166-168  `rebin_template_batch(z, dwave)` on the CPU: `trapz_rebin((1.+z)*wave, flux, w)` for every grid; result `[iarch][ibin]`. -/
def Archetype.rebinBatch {ω : Type} (A : Archetype K) (z : K) (dwave : PyDict ω (List K)) : Py (PyDict ω (List (List K))) :=
  dwave.mapM (fun kw => do
    let r ← A.rebinAll z kw.2
    return (kw.1, r))

/-- archetypes.py:143-165  `rebin_template_batch(z, dwave, dedges=dedges, use_gpu=True)`: `xmin = self.minwave`, `xmax = self.maxwave`, `myz = [z]`; the result is the flat array of one redshift. -/
def Archetype.rebinBatchGpu {ω : Type} (A : Archetype K) (z : K) (dedges : PyDict ω (EdgeSpec K)) : Py (PyDict ω (List K)) := do
  let xmin ← npGet A.wave 0
  let xmax ← npGetNeg A.wave 1
  edgeLoop (fun edges mn mx => trapzRebinGpuOpt A.wave A.flux edges [z] { xmin := some xmin, xmax := some xmax, edgeMin := mn, edgeMax := mx }) none none dedges

end
end Redrock
