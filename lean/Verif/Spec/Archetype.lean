import Verif.Spec.Chi2
import Verif.Model.Archetype

/-!
Specification of the archetype fit, independent of the code: every camera (spectrum) has its own polynomial coefficients, the archetypes have common coefficients.
-/
namespace Redrock
section
variable {K ω : Type}

section
variable [CommRing K]

/-- Model of one spectrum in pixel `p`: `n` archetypes (columns `0..n` of `T`) with coefficients `a`, `nleg` polynomials (the following columns) with coefficients `block`, convolved
with the resolution. -/
def cameraModelAt (R T : List (List K)) (n nleg : Nat) (a block : List K) (p : Nat) : K :=
  ∑ w ∈ Finset.range T.length, (R.getD p []).getD w 0 *
    (∑ k ∈ Finset.range n, (T.getD w []).getD k 0 * a.getD k 0 + ∑ l ∈ Finset.range nleg, (T.getD w []).getD (n + l) 0 * block.getD l 0)

/-- Weighted squared residuals over all spectra; spectrum number `i` uses the polynomial coefficients `blocks[i]`. -/
def cameraChi2 (spectra : List (FitSpectrum ω K)) (T : ω → List (List K)) (n nleg : Nat) (a : List K) (blocks : List (List K)) : K :=
  (spectra.zipIdx.map (fun si => ∑ p ∈ Finset.range si.1.flux.length,
    si.1.ivar.getD p 0 * (si.1.flux.getD p 0 - cameraModelAt si.1.R (T si.1.wavehash) n nleg a (blocks.getD si.2 []) p) ^ 2)).sum

/-- The template row of camera `i` of `ncam` as a row of one common linear model: the polynomial columns in the block of camera `i`, zeros in the blocks of the other cameras. -/
def designRow (n nleg ncam i : Nat) (row : List K) : List K :=
  row.take n ++ List.replicate (nleg * i) 0 ++ row.drop n ++ List.replicate (nleg * (ncam - 1 - i)) 0

end

/-- All cameras as one linear model: on the grid of spectrum number `i` the rows of camera `i`. -/
def cameraDesign [CommRing K] [DecidableEq ω] (spectra : List (FitSpectrum ω K)) (T : ω → List (List K)) (n nleg : Nat) (h : ω) : List (List K) :=
  (T h).map (designRow n nleg spectra.length ((spectra.map (·.wavehash)).idxOf h))

/-- What a fit of the linear model `T` reports: the solution of the solver for the normal equations (plus prior) and its chi2; 9999999 and zeros if nothing can be fitted. -/
def fitOf [Field K] [LinearOrder K] (solve : List (List K) → List K → Py (List K)) (spectra : List (FitSpectrum ω K)) (T : ω → List (List K)) (nbasis : Nat) (P : Option (List (List K))) : K × List K :=
  if (spectra.flatMap (·.ivar)).sum = 0 then (9999999, List.replicate nbasis 0)
  else match solve (addPrior (normalMatrixOf spectra T nbasis) P) (normalVectorOf spectra T nbasis) with
    | .ok c => (chi2Of spectra T nbasis c, c)
    | .error _ => (9999999, List.replicate nbasis 0)

/-- An archetype on a grid with the transmission of the intergalactic medium (`none`: no absorption). -/
def absorbed [Mul K] (tr : Option (List K)) (row : List K) : List K :=
  match tr with
  | none => row
  | some T => List.zipWith (· * ·) row T

/-- The template on a grid with `m` pixels and reduced wavelengths `x`: the archetypes `archs`, then the first `nleg` polynomials. -/
def archTemplate [Zero K] (leg : Nat → K → K) (nleg m : Nat) (x : List K) (archs : List (List K)) : List (List K) :=
  (List.range m).map (fun p => archs.map (fun a => a.getD p 0) ++ (List.range nleg).map (fun l => leg l (x.getD p 0)))

/-- A target whose arrays fit together and whose spectra are on different grids. -/
structure GoodTarget (t : ArchTarget ω K) : Prop where
  ne : t.spectra ≠ []
  grids : (t.spectra.map (·.wavehash)).Nodup
  shape : ∀ s ∈ t.spectra, s.ivar.length = s.flux.length ∧ s.R.length = s.flux.length ∧ ∀ row ∈ s.R, row.length = (t.wave s.wavehash).length

/-- One band name per spectrum, all different, none of them `alpha`. -/
structure GoodBands (t : ArchTarget ω K) : Prop where
  count : t.bands.length = t.spectra.length
  distinct : t.bands.Nodup
  noAlpha : "alpha".toList ∉ t.bands

end
end Redrock
