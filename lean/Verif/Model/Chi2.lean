import Verif.Model.Rebin
import Verif.Model.Dict

/-!
Model of the chi2 fit: `/repo/py/redrock/zscan.py` `spectral_data`, `dot_product_sparse_one`, `solve_matrices`, `calc_zchi2_batch`, `calc_negOII_penalty`, `calc_zchi2` (CPU).
Arrays are lists; shapes are assumed to fit (numpy would raise otherwise): products run over the common length and `getD` reads inside the shape. Numbers are exact.
-/
namespace Redrock

section
variable {K : Type} [Field K] [LinearOrder K]

/-- `a.dot(b)` for 1-d arrays of the same length. -/
def dotv (a b : List K) : K := (List.zipWith (· * ·) a b).sum

/-- Column `b` of a 2-d array. -/
def col (A : List (List K)) (b : Nat) : List K := A.map (fun row => row.getD b 0)

/-- `A.dot(v)`, 2-d times 1-d. -/
def matVec (A : List (List K)) (v : List K) : List K := A.map (fun row => dotv row v)

/-- `A.dot(B)`, 2-d times 2-d with `nb` columns. (`Rcsr` is a scipy sparse matrix; its dense rows are used here.) -/
def matMul (A B : List (List K)) (nb : Nat) : List (List K) := A.map (fun row => (List.range nb).map (fun b => dotv row (col B b)))

/-- targets.py:20-60  the parts of a `Spectrum` the fit uses. -/
structure FitSpectrum (ω K : Type) where
  wavehash : ω
  flux : List K
  ivar : List K
  R : List (List K)

/-- zscan.py:192-209  `spectral_data`. -/
def spectralData {ω : Type} (spectra : List (FitSpectrum ω K)) : List K × List K × List K :=
  let weights := spectra.flatMap (·.ivar)
  let flux := spectra.flatMap (·.flux)
  (weights, flux, List.zipWith (· * ·) weights flux)

/-- zscan.py:446-467  `dot_product_sparse_one`: `tdata` is the dictionary `wavehash → [nz][nwave][nbasis]`. -/
def dotProductSparseOne {ω : Type} [DecidableEq ω] (spectra : List (FitSpectrum ω K)) (tdata : PyDict ω (List (List (List K)))) (nbasis i : Nat) : Py (List (List K)) := do
  let Tb ← spectra.mapM (fun s => match tdata.get? s.wavehash with
    | none => Except.error PyErr.keyError
    | some t => do
      let ti ← npGet t i
      return matMul s.R ti nbasis)
  return Tb.flatten

/-- zscan.py:753  `M = Tb.T.dot(np.multiply(weights[:,None], Tb))`. -/
def normalM (Tb : List (List K)) (weights : List K) (nbasis : Nat) : List (List K) :=
  (List.range nbasis).map (fun j => (List.range nbasis).map (fun k => dotv (col Tb j) (List.zipWith (· * ·) weights (col Tb k))))

/-- zscan.py:754  `y = Tb.T.dot(wflux)`. -/
def normalY (Tb : List (List K)) (wflux : List K) (nbasis : Nat) : List K := (List.range nbasis).map (fun j => dotv (col Tb j) wflux)

/-- zscan.py:755-756  `if prior is not None: M += prior`. -/
def addPrior (M : List (List K)) : Option (List (List K)) → List (List K)
  | none => M
  | some P => List.zipWith (List.zipWith (· + ·)) M P

/-- The numerical solvers that `solve_matrices` calls; they may raise. `lsqLinear lower upper M y` is `scipy.optimize.lsq_linear(M, y, bounds, method='bvls')`, a missing bound being infinite. -/
structure Solvers (K : Type) where
  linalgSolve : List (List K) → List K → Py (List K)
  nnls : List (List K) → List K → Py (List K)
  lsqLinear : List (Option K) → List (Option K) → List (List K) → List K → Py (List K)

/-- The algorithm name after `solve_algorithm.upper()` (zscan.py:1132): the four known names, or anything else. -/
inductive SolveAlgorithm where
  | pca
  | nmf
  | nnls
  | bvls
  | other
  deriving DecidableEq

/-- zscan.py:1107-1203  `solve_matrices` on the CPU. `bounds` is `solver_args['bounds']` if given. -/
def solveMatrices (S : Solvers K) (algorithm : SolveAlgorithm) (bounds : Option (List (Option K) × List (Option K))) (M : List (List K)) (y : List K) : Py (List K) :=
  match algorithm with
  | .pca => S.linalgSolve M y
  | .nmf | .nnls =>
    match S.nnls M y with
    | .ok c => .ok c
    | .error _ => .error .linAlgError
  | .bvls =>
    match bounds with
    | some (lo, hi) => S.lsqLinear lo hi M y
    | none => S.lsqLinear (y.map (fun _ => none)) (y.map (fun _ => none)) M y
  | .other => .error .notImplemented

/-- zscan.py:18  `HUGE_CHI2`. -/
def hugeChi2 : K := 9999999

/-- zscan.py:749-781  one redshift of the CPU loop of `calc_zchi2_batch`, given the convolved template `Tb`: chi2 and coefficients. -/
def fitOne (solve : List (List K) → List K → Py (List K)) (Tb : List (List K)) (weights flux wflux : List K) (nbasis : Nat) (prior : Option (List (List K))) : Py (K × List K) :=
  match solve (addPrior (normalM Tb weights nbasis) prior) (normalY Tb wflux nbasis) with
  | .ok c => .ok (dotv ((List.zipWith (· - ·) flux (matVec Tb c)).map (fun r => r ^ 2)) weights, c)
  | .error .linAlgError => .ok (hugeChi2, List.replicate nbasis 0)
  | .error .notImplemented => .ok (hugeChi2, List.replicate nbasis 0)
  | .error e => .error e

/-- zscan.py:627-781  `calc_zchi2_batch` on the CPU: chi2 and coefficients for every redshift. -/
def calcZchi2Batch {ω : Type} [DecidableEq ω] (solve : List (List K) → List K → Py (List K)) (spectra : List (FitSpectrum ω K)) (tdata : PyDict ω (List (List (List K))))
    (weights flux wflux : List K) (nz nbasis : Nat) (prior : Option (List (List K))) : Py (List (K × List K)) :=
  if weights.sum = 0 then .ok (List.replicate nz (hugeChi2, List.replicate nbasis 0))
  else (List.range nz).mapM (fun i => do
    let Tb ← dotProductSparseOne spectra tdata nbasis i
    fitOne solve Tb weights flux wflux nbasis prior)

/-- zscan.py:794  `OIIflux = np.sum(coeff @ OIItemplate, axis=1)` for one redshift; `oii` has shape (nbasis, nwave). -/
def oiiFlux (oii : List (List K)) (nwave : Nat) (coeff : List K) : K := ((List.range nwave).map (fun w => dotv coeff (col oii w))).sum

/-- zscan.py:783-800  `calc_negOII_penalty`: `-OIIflux * (OIIflux < 0)`. -/
def negOIIPenalty (oii : List (List K)) (nwave : Nat) (coeffs : List (List K)) : List K :=
  coeffs.map (fun c => -oiiFlux oii nwave c * (if oiiFlux oii nwave c < 0 then 1 else 0))

/-- zscan.py:850-889  one target of `calc_zchi2` on the CPU: chi2, coefficients and penalty per redshift. `oii` is the [OII] part of the template if it has one. -/
def calcZchi2Target {ω : Type} [DecidableEq ω] (solve : List (List K) → List K → Py (List K)) (spectra : List (FitSpectrum ω K)) (tdata : PyDict ω (List (List (List K))))
    (nz nbasis : Nat) (oii : Option (List (List K) × Nat)) : Py (List K × List (List K) × List K) := do
  let (weights, flux, wflux) := spectralData spectra
  if weights.sum = 0 then return (List.replicate nz hugeChi2, List.replicate nz (List.replicate nbasis 0), List.replicate nz 0)
  let r ← calcZchi2Batch solve spectra tdata weights flux wflux nz nbasis none
  match oii with
  | none => return (r.map (·.1), r.map (·.2), List.replicate nz 0)
  | some (t, nw) => return (r.map (·.1), r.map (·.2), negOIIPenalty t nw (r.map (·.2)))

end
end Redrock
