import Verif.Model.Desi
import Verif.Model.DesiOpts
import Verif.Model.FullRun
import Verif.Model.Zbest
import Mathlib.Data.String.Basic

/-!
`rrdesi` from the spectra files to the published catalogue: `/repo/py/redrock/external/desi.py` lines 990-1190, composed of the models of its parts (`distTargetsDESI`, `finishTarget`, the sky mask, `fullCatalogue`,
`desiFlagRow`, `desiZbest`). Without archetypes, on the CPU. DESI targets have no metadata.
-/
namespace Redrock

section
variable {β K : Type} [DecidableEq β] [Field K] [LinearOrder K]

/-- targets.py:47-58  what the fit uses of a `Spectrum`; `Rcsr` is the resolution matrix as rows. -/
def Spectrum.fitPart {ω : Type} (s : Spectrum ω β K) : FitSpectrum ω K :=
  ⟨s.wavehash, s.flux, s.ivar, (List.range s.flux.length).map (fun i => (List.range s.flux.length).map (fun j => s.R.entry i j))⟩

/-- desi.py:1009-1013  the sky mask of one spectrum: `s.ivar[ii] = 0.0`. A boolean index of another length raises `IndexError`. -/
def skyMaskSpectrum {ω : Type} (s : Spectrum ω β K) : Py (Spectrum ω β K) :=
  if s.wave.length ≠ s.ivar.length then .error .indexError
  else .ok { s with ivar := List.zipWith (fun w v => if DesiOpts.isSkyLine w then 0 else v) s.wave s.ivar }

/-- desi.py:647-651, 1007-1013  the spectra of a local target that are fitted: those of the constructor, with the sky lines masked unless `--no-skymask`. -/
def fittedSpectra (resol : List (List K) → Dia K) (o : DOpts Int K) (noSkymask : Bool) (d : DTarget Int β K) : Py (List (Spectrum β β K)) := do
  let sp ← finishTarget resol o d
  if noSkymask then return sp else sp.mapM skyMaskSpectrum

/-- What `rrdesi` is started with: numpy's `argsort`, the square root, desispec's `Resolution`, the constructor's options, `--no-skymask`, the settings of the redshift fit (with the templates read on the targets' wavelength
grids), the bits of the fiber status, the fibermap of a file (its rows in order), and the method of a template by type and subtype. -/
structure RrDesi (β K : Type) where
  argsort : List Nat → List Nat
  sqrt : K → K
  resol : List (List K) → Dia K
  opts : DOpts Int K
  noSkymask : Bool
  fit : FullCfg Int β K String
  mask : FiberMask
  fibermap : DFile Int β K → List (FiberRow Int)
  method : String → String → String
  round32 : K → K

/-- desi.py:999-1013  the targets of one rank: all target IDs, and the local targets with the spectra to be fitted. -/
def rrdesiLocal (p : RrDesi β K) (files : List (DFile Int β K)) (commSize : Option Nat) (rank : Nat) : Py (List Int × List (Int × (List (FitSpectrum β K) × Unit))) := do
  let t ← distTargetsDESI p.argsort p.sqrt p.opts files commSize rank
  let data ← t.data.mapM (fun d => do
    let sp ← fittedSpectra p.resol p.opts p.noSkymask d
    return (d.id, (sp.map Spectrum.fitPart, ())))
  return (t.allIds, data)

/-- How the program is run: in one process, or on `size` MPI ranks, where `log t r` are the redshift slices that rank `r` sees of template `t`. -/
inductive RrDesiWay (K : Type) where
  | serial
  | mpi (size : Nat) (log : RunTemplate K → Nat → List (Piece K))

/-- desi.py:1024-1085  the table `zfit`. An exception on any rank ends the run (desi.py:1240-1251). -/
def rrdesiTable (p : RrDesi β K) (files : List (DFile Int β K)) : RrDesiWay K → Py (List (Int × Row K String))
  | .serial => do
    let t ← rrdesiLocal p files none 0
    fullCatalogue p.fit t.2 t.1 .serial
  | .mpi size log => do
    let ts ← (List.range size).mapM (rrdesiLocal p files (some size))
    let t0 ← npGet ts 0
    fullCatalogue p.fit (ts.flatMap (·.2)) t0.1 (.mpi (ts.map (·.2)) log)

/-- desi.py:652-653  `targets.fibermap`: the fibermap rows of the kept targets of all files. -/
def rrdesiFibermap (p : RrDesi β K) (files : List (DFile Int β K)) : Py (List (FiberRow Int)) := do
  let kept ← files.mapM (keepIds p.opts)
  return (files.zip kept).flatMap (fun fk => (p.fibermap fk.1).filter (fun x => decide (x.targetid ∈ fk.2)))

/-- desi.py:1020-1188  the published catalogue. (`zz` and `zzchi2` are left empty here: they are not published.) -/
def rrdesiCatalogue (p : RrDesi β K) (files : List (DFile Int β K)) (way : RrDesiWay K) : Py (Tab K) := do
  let zfit ← rrdesiTable p files way
  let fm ← rrdesiFibermap p files
  let zfit := desiFlags p.mask fm (zfit.map (fun x => ⟨x.1, x.2, p.method x.2.spectype x.2.subtype⟩))
  desiZbest p.round32 (zfitTable [] (zfit.map (fun r => ⟨r, [], [], []⟩)))

end
end Redrock
