import Verif.Model.Binned
import Verif.Model.Coadd
import Verif.Model.Zfind

/-!
From the spectra of one target to its rows of the redshift table, without archetypes: the scan (`zscan.py:807-888` `calc_zchi2`), the fit (`fitz.py:133-395` `fitz`) and the finalisation (`zfind.py:467-617`), put
together. CPU. The binned template (rebinning and IGM transmission, `Verif/Model/Binned.lean`) is a parameter of the template: any function.
-/
namespace Redrock

/-- templates.py  a `Template` as far as the fit uses it. `bin h zs` are the template's basis spectra on the wavelength grid `h` at the redshifts `zs`, with IGM transmission (`[iz][iwave][ibasis]`,
fitz.py:221-243); it may raise, e.g. outside the range of the template. `oii` is `OIItemplate` (shape) if the template has one. -/
structure Tmpl (ω K σ : Type) where
  spectype : σ
  subtype : σ
  isStar : Bool
  redshifts : List K
  nbasis : Nat
  algorithm : SolveAlgorithm
  oii : Option (List (List K) × Nat)
  bin : ω → List K → Py (List (List (List K)))

section
variable {ω K σ : Type} [DecidableEq ω] [Field K] [LinearOrder K]

/-- fitz.py:169  `dwave = { s.wavehash:s.wave for s in spectra }`: its keys. -/
def hashesOf (spectra : List (FitSpectrum ω K)) : List ω := firstSeen (spectra.map (·.wavehash))

/-- fitz.py:221-243, 283-300 and templates.py:585-599  the binned template on all grids of the target. (In the scan the dictionary also has the grids of the other targets; only those of the target are looked up.) -/
def binAll (tm : Tmpl ω K σ) (hashes : List ω) (zs : List K) : Py (PyDict ω (List (List (List K)))) :=
  hashes.mapM (fun h => do
    let t ← tm.bin h zs
    return (h, t))

/-- zscan.py:807-888 and zfind.py:358  the scan of a target with a template: chi2 plus penalty at every redshift of the template. -/
def scanTarget (S : Solvers K) (tm : Tmpl ω K σ) (spectra : List (FitSpectrum ω K)) : Py (List K) := do
  let b ← binAll tm (hashesOf spectra) tm.redshifts
  let r ← calcZchi2Target (solveMatrices S tm.algorithm none) spectra b tm.redshifts.length tm.nbasis tm.oii
  return List.zipWith (· + ·) r.1 r.2.2

/-- fitz.py:221-273  chi2 (with the [OII] penalty) on the fine grid. -/
def fineScan (S : Solvers K) (tm : Tmpl ω K σ) (spectra : List (FitSpectrum ω K)) (zz : List K) : Py (List K) := do
  let b ← binAll tm (hashesOf spectra) zz
  let d := spectralData spectra
  let r ← calcZchi2Batch (solveMatrices S tm.algorithm none) spectra b d.1 d.2.1 d.2.2 zz.length tm.nbasis none
  match tm.oii with
  | none => return r.map (·.1)
  | some (t, nw) => return List.zipWith (· + ·) (r.map (·.1)) (negOIIPenalty t nw (r.map (·.2)))

/-- fitz.py:283-308  coefficients at one redshift. -/
def fitAtZ (S : Solvers K) (tm : Tmpl ω K σ) (spectra : List (FitSpectrum ω K)) (z : K) : Py (List K) := do
  let b ← binAll tm (hashesOf spectra) [z]
  let d := spectralData spectra
  let r ← calcZchi2Batch (solveMatrices S tm.algorithm none) spectra b d.1 d.2.1 d.2.2 1 tm.nbasis none
  let q ← npGet r 0
  return q.2

/-- fitz.py:160-200  what `fitz` works with for this target and template. -/
def fitEnvOf (minfit : List K → List K → Py (K × K × K × Nat)) (nz : Nat) (S : Solvers K) (tm : Tmpl ω K σ) (spectra : List (FitSpectrum ω K)) : FitEnv K where
  nbasis := tm.nbasis
  isStar := tm.isStar
  nz := nz
  minfit := minfit
  scan := fineScan S tm spectra
  fitAt := fitAtZ S tm spectra
  arch := none

/-- fitz.py:374-378  `npixels`: pixels with positive inverse variance. -/
def npixelsOf (spectra : List (FitSpectrum ω K)) : Nat := (spectra.map (fun s => (s.ivar.filter (fun v => decide (0 < v))).length)).sum

/-- The settings of a run: numpy's `argsort`, the parabola fit, `zminfit_npoints`, `nminima`, the prior (`zfind.py:318-321`, any function of redshifts and scan), the numerical solvers. -/
structure MeasureCfg (K : Type) where
  argsort : List (Ext K) → List Nat
  minfit : List K → List K → Py (K × K × K × Nat)
  nz : Nat
  nminima : Nat
  prior : List K → List K → List (Ext K)
  S : Solvers K

/-- zfind.py:318-364  scan, prior and `fitz` of one target with one template. -/
def fitTarget (c : MeasureCfg K) (spectra : List (FitSpectrum ω K)) (tm : Tmpl ω K σ) : Py (TemplateFit K σ) := do
  let x ← scanTarget c.S tm spectra
  let cands ← fitz c.argsort (fitEnvOf c.minfit c.nz c.S tm spectra) c.nminima (c.prior tm.redshifts x) tm.redshifts
  return ⟨tm.spectype, tm.subtype, tm.isStar, npixelsOf spectra, cands⟩

/-- zfind.py:219-617  the rows of one target: all templates, then the table. -/
def measureTarget [LinearOrder σ] (c : MeasureCfg K) (templates : List (Tmpl ω K σ)) (spectra : List (FitSpectrum ω K)) : Py (List (Row K σ)) := do
  let fits ← templates.mapM (fitTarget c spectra)
  targetTable c.nminima (fun _ => false) fits

end
end Redrock
