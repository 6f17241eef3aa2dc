import Verif.Model.Chi2
import Mathlib.Algebra.BigOperators.Intervals

/-!
Specification of the fit, independent of the code: the template combination `Σ_b T[w][b] c[b]` is convolved with the resolution `R`, compared with the flux and weighted by `ivar`.
-/
namespace Redrock
section
variable {K ω : Type} [CommRing K]

/-- Model flux in pixel `p`: the template combination with coefficients `c`, convolved with the resolution. -/
def modelAt (R T : List (List K)) (nbasis : Nat) (c : List K) (p : Nat) : K :=
  ∑ w ∈ Finset.range T.length, (R.getD p []).getD w 0 * ∑ b ∈ Finset.range nbasis, (T.getD w []).getD b 0 * c.getD b 0

/-- Weighted squared residuals over all pixels of all spectra; `T h` is the binned template on the wavelength grid `h`. -/
def chi2Of (spectra : List (FitSpectrum ω K)) (T : ω → List (List K)) (nbasis : Nat) (c : List K) : K :=
  (spectra.map (fun s => ∑ p ∈ Finset.range s.flux.length,
    s.ivar.getD p 0 * (s.flux.getD p 0 - modelAt s.R (T s.wavehash) nbasis c p) ^ 2)).sum

/-- Template `b` convolved with the resolution, in pixel `p`. -/
def basisAt (R T : List (List K)) (b p : Nat) : K := ∑ w ∈ Finset.range T.length, (R.getD p []).getD w 0 * (T.getD w []).getD b 0

/-- The matrix of the normal equations. -/
def normalMatrixOf (spectra : List (FitSpectrum ω K)) (T : ω → List (List K)) (nbasis : Nat) : List (List K) :=
  (List.range nbasis).map (fun j => (List.range nbasis).map (fun k => (spectra.map (fun s => ∑ p ∈ Finset.range s.flux.length,
    s.ivar.getD p 0 * basisAt s.R (T s.wavehash) j p * basisAt s.R (T s.wavehash) k p)).sum))

/-- The right-hand side of the normal equations. -/
def normalVectorOf (spectra : List (FitSpectrum ω K)) (T : ω → List (List K)) (nbasis : Nat) : List K :=
  (List.range nbasis).map (fun j => (spectra.map (fun s => ∑ p ∈ Finset.range s.flux.length,
    s.ivar.getD p 0 * basisAt s.R (T s.wavehash) j p * s.flux.getD p 0)).sum)

/-- `vᵀ P v` -/
def quadForm (P : List (List K)) (n : Nat) (v : List K) : K :=
  ∑ j ∈ Finset.range n, v.getD j 0 * ∑ k ∈ Finset.range n, (P.getD j []).getD k 0 * v.getD k 0

/-- The solver solved `M x = y`. -/
def Solves (n : Nat) (M : List (List K)) (y c : List K) : Prop :=
  c.length = n ∧ ∀ j, j < n → ∑ k ∈ Finset.range n, (M.getD j []).getD k 0 * c.getD k 0 = y.getD j 0

/-- Array shapes fit together: per spectrum as many inverse variances and resolution rows as fluxes, resolution rows as wide as the template grid, `nbasis` template columns. -/
def Shaped (spectra : List (FitSpectrum ω K)) (T : ω → List (List K)) (nbasis : Nat) : Prop :=
  ∀ s ∈ spectra, s.ivar.length = s.flux.length ∧ s.R.length = s.flux.length ∧ (∀ row ∈ s.R, row.length = (T s.wavehash).length) ∧
    ∀ row ∈ T s.wavehash, row.length = nbasis

end
end Redrock
