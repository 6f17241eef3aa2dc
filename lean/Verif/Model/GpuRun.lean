import Verif.Model.FullRun
import Verif.Model.Gpu
import Verif.Model.RebinDict

/-!
A whole run of `/repo/py/redrock/zfind.py:219-720` (`zfind`) in GPU mode (`rrdesi --gpu`), without archetypes: the scan and the fine scans are done by `calc_zchi2_batch` with `use_gpu=True`
(`Verif/Model/Gpu.lean`), every rank that uses a GPU holds all redshifts of every template and ranks without GPU hold none.
-/
namespace Redrock.Gpu
open Redrock

/-- The settings of a run in GPU mode. `cpu` are those of the same run on the CPU. `binGpu ft h zs` is the template `ft` rebinned by the GPU on the wavelength grid `h` at the redshifts `zs`, times the IGM
transmission (templates.py:584-598, fitz.py:226-243); it may raise. `cpSolve` is `cupy.linalg.solve`. `dev` is what the run time supplies for a call of `calc_zchi2_batch`: it may depend on the target, the
template, on whether the call belongs to the scan (`false`) or to a fine scan (`true`), and on the redshifts. -/
structure GpuCfg (ι ω K σ : Type) where
  cpu : FullCfg ι ω K σ
  binGpu : PyStr → ω → List K → Py (Array3 K)
  cpSolve : List (List K) → List K → List K
  dev : ι → PyStr → Bool → List K → Device K

section
variable {ι ω K σ M : Type} [DecidableEq ι] [DecidableEq ω] [Field K] [LinearOrder K]

/-- templates.py:584-598 and fitz.py:226-243 with `use_gpu`: the dictionary of binned templates, on the GPU. -/
def binAllGpu (bin : ω → List K → Py (Array3 K)) (hashes : List ω) (zs : List K) : Py (PyDict ω (Array3 K)) :=
  hashes.mapM (fun h => do
    let t ← bin h zs
    return (h, t))

/-- targets.py:256-263  `gpu_spectral_data()`: weights, flux and their product, of all spectra of a target. -/
def gpuSpectralData (spectra : List (Spec ω K)) : List K × List K × List K := spectralData (spectra.map Spec.toFit)

/-- zscan.py:855-886  one target of `calc_zchi2` with `use_gpu=True`: chi2, coefficients and penalty at every redshift. -/
def calcZchi2TargetGpu (D : Device K) (S : Solvers K) (cpSolve : List (List K) → List K → List K) (algorithm : SolveAlgorithm) (spectra : List (Spec ω K)) (tdata : PyDict ω (Array3 K)) (nz nbasis : Nat)
    (oii : Option (List (List K) × Nat)) : Py (List K × List (List K) × List K) := do
  let (weights, flux, wflux) := gpuSpectralData spectra
  if weights.sum = 0 then return (List.replicate nz hugeChi2, List.replicate nz (List.replicate nbasis 0), List.replicate nz 0)
  let r ← calcZchi2BatchGpu D S cpSolve algorithm none spectra tdata weights flux wflux nz nbasis false none
  match oii with
  | none => return (r.map (·.1), r.map (·.2), List.replicate nz 0)
  | some (t, nw) => return (r.map (·.1), r.map (·.2), negOIIPenalty t nw (r.map (·.2)))

/-- templates.py:558-598 and zscan.py:807-888  one target at the redshifts `zs` held by its GPU rank. (The templates are binned once per rank, here once per target.) -/
def scanSliceGpu (c : GpuCfg ι ω K σ) (tid : ι) (ft : PyStr) (tm : Tmpl ω K σ) (grids : List ω) (spectra : List (Spec ω K)) (zs : List K) : Py (List (ScanRow K)) := do
  let b ← binAllGpu (c.binGpu ft) grids zs
  let r ← calcZchi2TargetGpu (c.dev tid ft false zs) c.cpu.S c.cpSolve tm.algorithm spectra b zs.length tm.nbasis tm.oii
  return List.zipWith (fun x cp => ⟨.fin x, cp.1, cp.2⟩) r.1 (List.zip r.2.1 r.2.2)

/-- templates.py:563-568 and zscan.py:807-888  one target on a rank without GPU, in GPU mode: the rank's piece has no redshifts and no data. -/
def scanSliceNone (S : Solvers K) (tm : Tmpl ω K σ) (spectra : List (Spec ω K)) (zs : List K) : Py (List (ScanRow K)) := do
  let r ← calcZchi2Target (solveMatrices S tm.algorithm none) (spectra.map Spec.toFit) [] zs.length tm.nbasis tm.oii
  return List.zipWith (fun x cp => ⟨.fin x, cp.1, cp.2⟩) r.1 (List.zip r.2.1 r.2.2)

/-- fitz.py:221-273 with `use_gpu`: chi2 (with the [OII] penalty) on the fine grid. -/
def fineScanGpu (c : GpuCfg ι ω K σ) (tid : ι) (ft : PyStr) (tm : Tmpl ω K σ) (spectra : List (Spec ω K)) (zz : List K) : Py (List K) := do
  let b ← binAllGpu (c.binGpu ft) (hashesOf (spectra.map Spec.toFit)) zz
  let d := gpuSpectralData spectra
  let r ← calcZchi2BatchGpu (c.dev tid ft true zz) c.cpu.S c.cpSolve tm.algorithm none spectra b d.1 d.2.1 d.2.2 zz.length tm.nbasis true none
  match tm.oii with
  | none => return r.map (·.1)
  | some (t, nw) => return List.zipWith (· + ·) (r.map (·.1)) (negOIIPenalty t nw (r.map (·.2)))

/-- fitz.py:283-308 with `use_gpu`: coefficients at one redshift: the template is rebinned on the GPU and copied back (`binned[k].get()`), the rest is done on the CPU. (The transmission is part of `binGpu` here;
the code multiplies with it after copying back.) -/
def fitAtZGpu (c : GpuCfg ι ω K σ) (ft : PyStr) (tm : Tmpl ω K σ) (spectra : List (Spec ω K)) (z : K) : Py (List K) := do
  let b ← binAllGpu (c.binGpu ft) (hashesOf (spectra.map Spec.toFit)) [z]
  let d := spectralData (spectra.map Spec.toFit)
  let r ← calcZchi2Batch (solveMatrices c.cpu.S tm.algorithm none) (spectra.map Spec.toFit) (b.map (fun e => (e.1, e.2.nested))) d.1 d.2.1 d.2.2 1 tm.nbasis none
  let q ← npGet r 0
  return q.2

/-- fitz.py:160-200  what `fitz` works with, with `use_gpu`. -/
def fitEnvGpu (c : GpuCfg ι ω K σ) (tid : ι) (ft : PyStr) (tm : Tmpl ω K σ) (spectra : List (Spec ω K)) : FitEnv K where
  nbasis := tm.nbasis
  isStar := tm.isStar
  nz := c.cpu.nz
  minfit := c.cpu.minfit
  scan := fineScanGpu c tid ft tm spectra
  fitAt := fitAtZGpu c ft tm spectra
  arch := none

/-- zfind.py:358-364  `fitz(..., use_gpu=True)`. -/
def fitRowsGpu (c : GpuCfg ι ω K σ) (tid : ι) (ft : PyStr) (tm : Tmpl ω K σ) (spectra : List (Spec ω K)) (rows : List (ScanRow K)) : Py (TemplateFit K σ) := do
  let cands ← fitz c.cpu.argsort (fitEnvGpu c tid ft tm spectra) c.cpu.nminima (rows.map (fun r => r.chi2.add (.fin r.penalty))) tm.redshifts
  return ⟨tm.spectype, tm.subtype, tm.isStar, npixelsOf (spectra.map Spec.toFit), cands⟩

/-- The targets as a run on the CPU has them. -/
def toCpuTargets (targets : List (ι × (List (Spec ω K) × M))) : List (ι × (List (FitSpectrum ω K) × M)) := targets.map (fun e => (e.1, (e.2.1.map Spec.toFit, e.2.2)))

/-- templates.py:558-568, zscan.py:1007-1031  the redshift slices that a rank of a GPU run sees: all redshifts at once on a GPU rank that has targets (`ReDistTemplate.cycle` returns `True` after the first),
none on a GPU rank without targets (the loop is skipped), the empty slice on a rank without GPU. -/
def gpuPieces (useGpu noTargets : Bool) (rank : Nat) (redshifts : List K) : List (Piece K) :=
  if useGpu then (if noTargets then [] else [{ index := rank, redshifts := redshifts }]) else [{ index := rank, redshifts := [] }]

/-- zfind.py:287-409  what one rank of a run in GPU mode does with its targets. `useGpu` is set on the ranks that use a GPU (external/desi.py:944-988). -/
def gpuRank (c : GpuCfg ι ω K σ) (grids : List ω) (useGpu : Bool) (rank : Nat) (loc : List (ι × (List (Spec ω K) × M))) : Py (PyDict ι (RunResult K (ScanRow K) (TemplateFit K σ) M)) := do
  let res ← calcZchi2Targets c.cpu.le (fun t => do
    let tm ← c.cpu.templates.get t.fulltype
    scanSlices (fun e zs => if useGpu then scanSliceGpu c e.1 t.fulltype tm grids e.2.1 zs else scanSliceNone c.cpu.S tm e.2.1 zs) (loc.map (·.1)) loc
      (gpuPieces useGpu loc.isEmpty rank t.redshifts)) c.cpu.runTemplates (loc.map (·.1))
  rankFinish (fun id zs rows => addPriorRows (c.cpu.prior id zs) rows) (fun e t rows => do
    let tm ← c.cpu.templates.get t.fulltype
    if useGpu then fitRowsGpu c e.1 t.fulltype tm e.2.1 rows else fitRows c.cpu (e.2.1.map Spec.toFit) tm rows) (·.2.2) c.cpu.runSorted (loc.map (fun e => (e.1, e))) res

/-- zfind.py:280-475  the fits of every target in GPU mode: `ranks` says of every rank whether it uses a GPU and which targets it has (one process: one rank). -/
def fullFitsGpu (c : GpuCfg ι ω K σ) (targets : List (ι × (List (Spec ω K) × M))) (allIds : List ι) (ranks : List (Bool × List (ι × (List (Spec ω K) × M)))) :
    Py (List (ι × List (PyStr × TemplateFit K σ) × Option M)) := do
  let perRank ← (ranks.zipIdx).mapM (fun lr => gpuRank c (gridsOf (toCpuTargets targets)) lr.1.1 lr.2 lr.1.2)
  let all ← gatherRun perRank
  collectFits allIds all

/-- zfind.py:219-720  `zfind` in GPU mode: the rows of the table, each with its target ID. -/
def fullCatalogueGpu [LinearOrder σ] (c : GpuCfg ι ω K σ) (targets : List (ι × (List (Spec ω K) × M))) (allIds : List ι) (ranks : List (Bool × List (ι × (List (Spec ω K) × M)))) :
    Py (List (ι × Row K σ)) := do
  let cat ← fullFitsGpu c targets allIds ranks
  let m ← c.cpu.maxcoeff
  finalTable c.cpu.nminima (fun _ => false) m (cat.map (fun r => (r.1, r.2.1.map (·.2))))

end
/-- templates.py:598, fitz.py:243  `data[k] *= T[:,:,None]` on a 3-d array in C order, in place. -/
def mulTransmission {K : Type} [Mul K] [Zero K] (T : List (List K)) (A : Array3 K) : Array3 K :=
  { A with buf := A.buf.zipIdx.map (fun vi => vi.1 * (T.getD (vi.2 / (A.n1 * A.n2)) []).getD (vi.2 / A.n2 % A.n1) 0) }

/-- templates.py:584-598, fitz.py:226-243 with `use_gpu`: the template on one wavelength grid at the redshifts `zs`, as the GPU bins it: precomputed edges, the kernel of rebin.py, and the IGM transmission. (For all
grids of a call in turn here; the code rebins on all of them first. `transmission_Lyman` is taken to give the same numbers on the GPU.) -/
noncomputable def physBinGpu (twave : List ℝ) (flux : List (List ℝ)) (igm : IgmModel) (wave zs : List ℝ) : Py (Array3 ℝ) := do
  let e ← gpuEdges wave
  let data ← rebinTemplateEdges (fun e a => trapzRebinGpuOpt twave flux e zs a) twave zs none none [((), e)]
  let flat ← PyDict.get data ()
  let t ← transmissionLyman (.array zs) (.array wave) igm false
  let T ← matOf t
  let A := Array3.ofFlat flat zs.length wave.length flux.length
  match T with
  | none => return A
  | some T => return mulTransmission T A

end Redrock.Gpu
