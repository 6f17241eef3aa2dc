import Verif.Model.Py
import Mathlib.Algebra.Order.Field.Basic
import Mathlib.Algebra.Order.Field.Rat
import Mathlib.Algebra.BigOperators.Group.List.Basic

/-!
`Spectrum.__init__`, `Target.__init__` and `Target.compute_coadd` of `/repo/py/redrock/targets.py`, over an ordered field (exact arithmetic, no NaN).
-/
namespace Redrock

section
variable {ω β K : Type} [DecidableEq ω] [Field K] [LinearOrder K]

/-- `scipy.sparse.dia_matrix((data, offsets), shape=(n, n))`: diagonals and their offsets. -/
structure Dia (K : Type) where
  offsets : List Int
  data : List (List K)
  deriving DecidableEq

/-- Entry (i, j) of a `dia_matrix`: `data[k, j]` for the diagonal `k` with `offsets[k] = j - i` (scipy stores diagonals by column). -/
def Dia.entry (R : Dia K) (i j : Nat) : K :=
  ((R.offsets.zip R.data).map (fun od => if (j : Int) - (i : Int) = od.1 then od.2.getD j 0 else 0)).sum

/-- `R.sum(axis=1)[i]` of an `n` by `n` matrix. -/
def Dia.rowSum (R : Dia K) (n i : Nat) : K := ((List.range n).map (fun j => R.entry i j)).sum

/-- targets.py:18-62  A `Spectrum` with a resolution matrix. `wavehash` is the band name if there is one, else a hash of the wavelength grid and the number of diagonals. -/
structure Spectrum (ω β K : Type) where
  wave : List K
  flux : List K
  ivar : List K
  R : Dia K
  wavehash : ω
  band : β
  deriving DecidableEq

/-- targets.py:32-35, constants.py:9  `Spectrum.__init__`: `ivar` is set to 0 where the row of `R` sums to less than `min_resolution_integral`. The wavehash is passed in. -/
def mkSpectrum (wave flux ivar : List K) (R : Dia K) (wavehash : ω) (band : β) : Spectrum ω β K :=
  { wave, flux, ivar := (List.range ivar.length).map (fun i => if R.rowSum wave.length i < 99 / 100 then 0 else ivar.getD i 0), R, wavehash, band }

/-- targets.py:277-281  `wavehashes`: keys in order of first appearance. -/
def firstSeen (ks : List ω) : List ω := ks.foldl (fun acc k => if k ∈ acc then acc else acc ++ [k]) []

/-- `np.sum(rows, axis=0)[j]`. -/
def colSum (rows : List (List K)) (j : Nat) : K := (rows.map (fun r => r.getD j 0)).sum

/-- `np.interp(x, xp, fp)` for increasing `xp`: linear between the samples, constant outside. -/
def npInterp1 : List (K × K) → K → K
  | [], _ => 0
  | [(_, y)], _ => y
  | (x0, y0) :: (x1, y1) :: r, x => if x ≤ x0 then y0 else if x < x1 then (y1 - y0) / (x1 - x0) * (x - x0) + y0 else npInterp1 ((x1, y1) :: r) x

/-- targets.py:322-326  `v[bad] = np.interp(wave[bad], wave[good], v[good])`. -/
def interpBad (wave ivar v : List K) : List K :=
  let good := ((wave.zip v).zip ivar).filter (fun q => decide (0 < q.2))
  (List.range v.length).map (fun j => if ivar.getD j 0 = 0 then npInterp1 (good.map (·.1)) (wave.getD j 0) else v.getD j 0)

/-- targets.py:310-336  gradient of one exposure and its variance; `np.interp` raises `ValueError` without good pixels. -/
def cosmicGrad (e : Spectrum ω β K) : Py (List K × List K) := do
  if e.ivar.all (fun v => decide (v ≤ 0)) then throw .valueError
  let tflux := interpBad e.wave e.ivar e.flux
  let tivar := interpBad e.wave e.ivar e.ivar
  let pos := tivar.filter (fun v => decide (0 < v))
  let tivar := tivar.map (fun v => if v ≤ 0 then pos.foldl min (pos.headD 0) else v)
  let tvar := tivar.map (fun v => 1 / v)
  let n := e.flux.length
  return ((List.range n).map (fun j => if j = 0 then 0 else tflux.getD j 0 - tflux.getD (j - 1) 0),
    (List.range n).map (fun j => if j = 0 then tvar.getD j 0 else tvar.getD j 0 + tvar.getD (j - 1) 0))

/-- `np.argmax`: first position of a largest value. -/
def npArgmaxL (x : List K) : Nat := x.findIdx (fun v => x.all (fun u => decide (u ≤ v)))

/-- targets.py:343-348  `gradivar * deltagrad**2` of one exposure and pixel; `np.sum(gradivar)` is over all exposures and pixels. -/
def cosmicTerm (gv : List (List K × List K)) (e j : Nat) : K :=
  let gradivar := gv.map (fun p => p.2.map (fun v => 1 / v))
  let total := (gradivar.map List.sum).sum
  let meangrad := colSum (List.zipWith (fun p gi => List.zipWith (· * ·) gi p.1) gv gradivar) j / total
  (gradivar.getD e []).getD j 0 * ((gv.getD e ([], [])).1.getD j 0 - meangrad) ^ 2

/-- targets.py:340-355  inverse variances after rejection: in every pixel with `chi2 > cosmics_nsig**2`, the exposure with the largest term loses its weight. -/
def rejectCosmics (nsig : K) (gv : List (List K × List K)) (ivar : List (List K)) : List (List K) :=
  (List.range ivar.length).map (fun e => (List.range (ivar.getD e []).length).map (fun j =>
    let terms := (List.range gv.length).map (fun e => cosmicTerm gv e j)
    if nsig ^ 2 < terms.sum / ((gv.length : K) - 1) ∧ npArgmaxL terms = e then 0 else (ivar.getD e []).getD j 0))

/-- targets.py:357-371  the coadd of one grid from the (possibly masked) inverse variances `ivarM`. The sum of the diagonals (line 297, 301) uses the inverse variances before rejection. -/
def coaddFrom (e0 last : Spectrum ω β K) (es : List (Spectrum ω β K)) (ivarM : List (List K)) (key : ω) : Spectrum ω β K :=
  let n := e0.wave.length
  let weights := (List.range n).map (colSum ivarM)
  let isbad := weights.map (fun w => if w = 0 then (1 : K) else 0)
  let flux := (List.range n).map (fun j =>
    if weights.getD j 0 = 0 then colSum (es.map (·.flux)) j / (es.length : K)
    else colSum (List.zipWith (fun iv e => List.zipWith (· * ·) iv e.flux) ivarM es) j / (weights.getD j 0 + isbad.getD j 0))
  let rdiags := (List.range e0.R.data.length).map (fun k => (List.range n).map (fun j =>
    (es.map (fun e => (e.R.data.getD k []).getD j 0 * e.ivar.getD j 0)).sum / (weights.getD j 0 + isbad.getD j 0)))
  mkSpectrum e0.wave flux weights ⟨e0.R.offsets, rdiags⟩ key last.band

/-- targets.py:303-336  `grad` and `gradvar`: filled only if `cosmics_nsig > 0`. -/
def cosmicGrads (nsig : K) (es : List (Spectrum ω β K)) : Py (List (List K × List K)) := if 0 < nsig then es.mapM cosmicGrad else .ok []

/-- targets.py:283-372  one pass of the loop over the grids. Simplified: arrays whose shapes do not match raise `ValueError` (numpy would broadcast a single diagonal); `key` is the wavehash of the coadd because
the grid, the band and the number of diagonals are those of the exposures. -/
def coaddGroup (nsig : K) (es : List (Spectrum ω β K)) (key : ω) : Py (Spectrum ω β K) :=
  match es with
  | [] => .error .unboundLocal
  | e0 :: rest => do
    let n := e0.wave.length
    if (e0 :: rest).any (fun e => decide (e.wave.length ≠ n)) then throw .assertionError
    if (e0 :: rest).any (fun e => decide (e.flux.length ≠ n) || decide (e.ivar.length ≠ n) || decide (e.R.data.length ≠ e0.R.data.length) || e.R.data.any (fun r => decide (r.length ≠ n))) then throw .valueError
    let ivar := (e0 :: rest).map (·.ivar)
    let gv ← cosmicGrads nsig (e0 :: rest)
    let ivarM := if 1 < gv.length ∧ 0 < nsig then rejectCosmics nsig gv ivar else ivar
    return coaddFrom e0 (rest.getLastD e0) (e0 :: rest) ivarM key

/-- targets.py:267-373  `compute_coadd`: replaces the spectra by one coadd per wavehash. -/
def computeCoadd (nsig : K) (spectra : List (Spectrum ω β K)) : Py (List (Spectrum ω β K)) :=
  (firstSeen (spectra.map (·.wavehash))).mapM (fun key => coaddGroup nsig (spectra.filter (fun s => decide (s.wavehash = key))) key)

/-- targets.py:161-182  the parts of a `Target` that matter here. -/
structure CoTarget (ω β K : Type) where
  spectra : List (Spectrum ω β K)
  bands : List β

/-- targets.py:161-182  `Target.__init__`: `bands` is taken from the constructor's argument, also after a coadd. -/
def mkTarget (spectra : List (Spectrum ω β K)) (coadd : Bool) (nsig : K) : Py (CoTarget ω β K) := do
  let sp ← if coadd then computeCoadd nsig spectra else pure spectra
  return { spectra := sp, bands := spectra.map (·.band) }

/-- targets.py:267, 371-373  the method `compute_coadd` called later (desi.py:650-651): `bands` is left alone. -/
def CoTarget.coadd (t : CoTarget ω β K) (nsig : K) : Py (CoTarget ω β K) := do
  let sp ← computeCoadd nsig t.spectra
  return { t with spectra := sp }

end

end Redrock
