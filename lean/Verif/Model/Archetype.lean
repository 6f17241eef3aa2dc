import Verif.Model.Chi2
import Verif.Model.Strings
import Verif.Model.Work

/-!
Model of the archetype fit (CPU): `/repo/py/redrock/archetypes.py` (`Archetype`: labels, `rebin_template_batch`, `eval`, `nearest_neighbour_model`, `get_best_archetype`),
`prior_on_coeffs` in `/repo/py/redrock/fitz.py`, `per_camera_coeff_with_least_square_batch` in `/repo/py/redrock/zscan.py` and the archetype branch of `Target.eval_model` in
`/repo/py/redrock/targets.py`. Arrays are lists, indexed here with the archetype first and the wavelength second (the code transposes when needed).
-/
namespace Redrock

section
variable {K : Type} [Field K] [LinearOrder K]

/-- fitz.py:113-130  `prior_on_coeffs(n_nbh, deg_legendre, sigma, ncamera)`: `1/sigma²` on the diagonal, zero for the first `n_nbh`. -/
def priorOnCoeffs (nNbh degLegendre : Nat) (sigma : K) (ncamera : Nat) : List (List K) :=
  let nbasis := nNbh + degLegendre * ncamera
  let prior := (List.range nbasis).map (fun r => (List.range nbasis).map (fun c => if r = c then 1 / sigma ^ 2 else 0))
  (List.range nNbh).foldl (fun (p : List (List K)) i => p.modify i (fun row => row.set i 0)) prior

/-- `str(i)` for a natural number. -/
def natStr (i : Nat) : PyStr := if i = 0 then ['0'] else (Nat.digits 10 i).reverse.map (fun d => Char.ofNat (48 + d))

/-- archetypes.py:45-46  the labels `strip(SUBTYPE) + '_' + str(i)` of the archetypes in a file. -/
def archLabels (names : List PyStr) : List PyStr := names.zipIdx.map (fun ni => pyStrip ni.1 ++ ['_'] ++ natStr ni.2)

/-- archetypes.py:27-72  one archetype file: wavelengths, one flux array per archetype, type, labels. -/
structure Archetype (K : Type) where
  wave : List K
  flux : List (List K)
  rrtype : PyStr
  subtype : List PyStr

/-- archetypes.py:45-47  the archetype object made from the columns of the file. -/
def Archetype.load (wave : List K) (flux : List (List K)) (rrtype : PyStr) (names : List PyStr) : Archetype K :=
  { wave := wave, flux := flux, rrtype := pyStrip rrtype, subtype := archLabels names }

/-- archetypes.py:47  `self._full_type`. -/
def Archetype.fullType (A : Archetype K) : List PyStr := A.subtype.map (fun s => makeFulltype A.rrtype (some s))

/-- archetypes.py:122-177  `rebin_template_batch(z, dwave)` on the CPU with trapz for one grid, all archetypes: `[iarch][ibin]`. -/
def Archetype.rebinAll (A : Archetype K) (z : K) (wave : List K) : Py (List (List K)) := do
  let edges ← centers2edges wave
  let r ← trapzRebin (A.wave.map (fun v => (1 + z) * v)) A.flux edges [0]
  npGet r 0

/-- archetypes.py:370-372  `if trans[hs] is not None: binned[hs] *= trans[hs][:,None]`, for all archetypes on one grid. -/
def applyTrans (trans : Option (List K)) (rows : List (List K)) : List (List K) :=
  match trans with
  | none => rows
  | some t => rows.map (fun row => List.zipWith (· * ·) row t)

/-- archetypes.py:373-378  the 3-d array `[iarch][iwave][1+nleg]`: the archetype, then the Legendre polynomials `legendre[l][iwave]`. -/
def archColumns (binned : List (List K)) (legendre : List (List K)) : List (List (List K)) :=
  binned.map (fun row => row.zipIdx.map (fun vp => vp.1 :: legendre.map (fun l => l.getD vp.2 0)))

/-- `a[i] = v` on a 1-d array. -/
def npSet {V : Type} (a : List V) (i : Nat) (v : V) : Py (List V) := if i < a.length then .ok (a.set i v) else .error .indexError

/-- zscan.py:310-316  one wavelength of `tdata2[hs]` for the `i`-th grid: zeros, the archetype columns copied, the Legendre columns moved to the block of grid `i`.
(numpy does the same for all wavelengths of the grid at once; a grid without wavelengths is not distinguished.) -/
def expandRow (nNbh nleg nbasis i : Nat) (row : List K) : Py (List K) := do
  let r ← (List.range nNbh).foldlM (fun acc k => do
    let v ← npGet row k
    npSet acc k v) (List.replicate nbasis 0)
  (List.range' nNbh nleg).foldlM (fun acc k => do
    let v ← npGet row k
    npSet acc (k + nleg * i) v) r

/-- zscan.py:297-302  GPU mode: the same rearrangement by slices; assigning to a slice of another width raises `ValueError`. -/
def expandRowGpu (nNbh nleg nbasis i : Nat) (row : List K) : Py (List K) :=
  let zeros : List K := List.replicate nbasis 0
  let a := row.take nNbh
  let l := row.drop nNbh
  let hi := min (nNbh + (i + 1) * nleg) nbasis
  let lo := min (nNbh + i * nleg) nbasis
  if a.length ≠ min nNbh nbasis ∨ l.length ≠ hi - lo then .error .valueError
  else .ok (a ++ (zeros.drop nNbh).take (lo - nNbh) ++ l ++ zeros.drop hi)

/-- zscan.py:755-756  `M += prior` needs a prior of the shape of `M` (numpy raises `ValueError` otherwise; broadcasting a 1×1 prior is not modelled). -/
def priorFits (prior : Option (List (List K))) (nbasis : Nat) : Bool :=
  match prior with
  | none => true
  | some P => decide (P.length = nbasis) && P.all (fun row => decide (row.length = nbasis))

/-- zscan.py:283-289 and archetypes.py:388-390  the bounds given to BVLS: the first `nNbh` coefficients are at least 0, the others are free. -/
def archBounds (nNbh nbasis : Nat) : List (Option K) × List (Option K) :=
  ((List.range nbasis).map (fun k => if k < nNbh then some 0 else none), List.replicate nbasis none)

variable {ω : Type} [DecidableEq ω]

/-- zscan.py:305-325  the fit of archetype `j` (CPU branch): rearranged templates of every grid, then `calc_zchi2_batch` with one "redshift". -/
def perCameraOne (solve : List (List K) → List K → Py (List K)) (spectra : List (FitSpectrum ω K)) (tdata : PyDict ω (List (List (List K)))) (weights flux wflux : List K)
    (nleg nNbh nbasis : Nat) (prior : Option (List (List K))) (j : Nat) : Py (K × List K) := do
  let tdata2 ← tdata.zipIdx.mapM (fun ei => do
    let rows ← npGet ei.1.2 j
    let rows ← rows.mapM (expandRow nNbh nleg nbasis ei.2)
    return (ei.1.1, [rows]))
  if weights.sum ≠ 0 ∧ priorFits prior nbasis = false then throw .valueError
  let r ← calcZchi2Batch solve spectra tdata2 weights flux wflux 1 nbasis prior
  npGet r 0

/-- `np.concatenate(arrays, axis=1)` of 2-d arrays: they need the same number of rows. -/
def concatColumns (arrays : List (List (List K))) : Py (List (List K)) :=
  match arrays with
  | [] => .error .valueError
  | a :: rest =>
    if rest.any (fun b => decide (b.length ≠ a.length)) then .error .valueError
    else .ok ((List.range a.length).map (fun j => (a :: rest).flatMap (fun b => b.getD j [])))

/-- zscan.py:327-346  the coefficients in the order of the dictionary `ret_zcoeff`: key `alpha`, then the bands as they came first (assigning them again in sorted order
does not move keys). `np.split` into zero parts divides by zero. `le` is the order of `sorted`. -/
def perCameraCoeff (le : PyStr → PyStr → Bool) (bands : List PyStr) (nleg nNbh : Nat) (zzcoeff : List (List K)) : Py (List (List K)) := do
  let alphaKey : PyStr := "alpha".toList
  let ret : PyDict PyStr (List (List K)) := [(alphaKey, [])]
  let ret := if 0 < nleg then bands.foldl (fun d b => d.set b []) ret else ret
  let alpha : List (List K) ← (if 1 < nNbh then (do
      let first ← npGet zzcoeff 0
      return [first.take nNbh])
    else if nNbh = 1 then .ok (zzcoeff.map (fun c => c.take 1)) else .error .indexError : Py (List (List K)))
  let ret := ret.set alphaKey alpha
  let ret ← (if 1 ≤ nleg then (do
      if bands = [] then throw .zeroDivision
      let split := (List.range bands.length).map (fun i => zzcoeff.map (fun c => ((c.drop nNbh).drop (i * nleg)).take nleg))
      let old : PyDict PyStr (List (List K)) := (bands.zip split).foldl (fun d bs => d.set bs.1 bs.2) []
      (pySort le bands).foldlM (fun (d : PyDict PyStr (List (List K))) b => do
        let v ← old.get b
        return d.set b v) ret)
    else .ok ret : Py (PyDict PyStr (List (List K))))
  concatColumns (ret.map (·.2))

/-- zscan.py:245-348  `per_camera_coeff_with_least_square_batch` (CPU): chi2 and coefficients for each of `narch` archetypes. -/
def perCameraFit (le : PyStr → PyStr → Bool) (solve : List (List K) → List K → Py (List K)) (spectra : List (FitSpectrum ω K)) (bands : List PyStr)
    (tdata : PyDict ω (List (List (List K)))) (weights flux wflux : List K) (nleg narch nNbh : Nat) (prior : Option (List (List K))) : Py (List K × List (List K)) := do
  let nbasis := nNbh + nleg * bands.length
  let fits ← (List.range narch).mapM (perCameraOne solve spectra tdata weights flux wflux nleg nNbh nbasis prior)
  let coeff ← perCameraCoeff le bands nleg nNbh (fits.map (·.2))
  return (fits.map (·.1), coeff)

/-- targets.py:20-60, 160-181  the parts of a `Target` that the archetype fit uses: its spectra with wavelengths, and `target.bands`. -/
structure ArchTarget (ω K : Type) where
  spectra : List (FitSpectrum ω K)
  wave : ω → List K
  bands : List PyStr

/-- fitz.py:169, archetypes.py:235  `{ s.wavehash: s.wave for s in spectra }`. -/
def ArchTarget.dwave (t : ArchTarget ω K) : PyDict ω (List K) := t.spectra.foldl (fun d s => d.set s.wavehash (t.wave s.wavehash)) []

/-- targets.py:241-256  `legendre(nleg)` for one grid: the first `nleg` Legendre polynomials at the reduced wavelengths. `leg l x` is `scipy.special.legendre(l)(x)`. The cache is
modelled elsewhere (`Verif.Model.Memory`). -/
def legendreOn (leg : Nat → K → K) (nleg : Nat) (wave : List K) : Py (List (List K)) :=
  (List.range nleg).mapM (fun l => do
    let x ← reducedWavelength wave
    return x.map (leg l))

/-- archetypes.py:359, 370-372  for every grid the archetypes rebinned to redshift `z`, times the transmission. `trans` is the dictionary after `trans[hs] = trans[hs][0,:]` (349-353). -/
def archBinned (A : Archetype K) (z : K) (dwave : PyDict ω (List K)) (trans : PyDict ω (Option (List K))) : Py (PyDict ω (List (List K))) :=
  dwave.mapM (fun kw => do
    let b ← A.rebinAll z kw.2
    let t ← trans.get kw.1
    return (kw.1, applyTrans t b))

/-- archetypes.py:373-378, 262-268  the template arrays of every grid. -/
def archTdata (leg : Nat → K → K) (nleg : Nat) (dwave : PyDict ω (List K)) (binned : PyDict ω (List (List K))) : Py (PyDict ω (List (List (List K)))) :=
  dwave.mapM (fun kw => do
    let b ← binned.get kw.1
    let l ← legendreOn leg nleg kw.2
    return (kw.1, archColumns b l))

/-- archetypes.py:225-292  `nearest_neighbour_model` with `binned` given (as `get_best_archetype` does): fit of the `n` archetypes of smallest chi2 together. Their arrays are the columns
of one template. Without `per_camera`, `calc_zchi2_batch` is called without an algorithm: `None.upper()` raises `AttributeError` unless all weights are zero. -/
def nearestNeighbour (S : Solvers K) (le : PyStr → PyStr → Bool) (argsort : List K → List Nat) (leg : Nat → K → K) (A : Archetype K) (t : ArchTarget ω K) (weights flux wflux : List K)
    (nleg n : Nat) (zzchi2 : List K) (binned : PyDict ω (List (List K))) (perCamera : Bool) (prior : Option (List (List K))) : Py (K × List K × PyStr) := do
  let iBest := (argsort zzchi2).take n
  let tdata ← t.dwave.mapM (fun kw => do
    let b ← binned.get kw.1
    let best ← npTake b iBest
    let l ← legendreOn leg nleg kw.2
    return (kw.1, [(List.range kw.2.length).map (fun p => best.map (fun row => row.getD p 0) ++ l.map (fun y => y.getD p 0))]))
  let nbasis := iBest.length + nleg
  let (chi2s, coeffs) ← (if perCamera then
      perCameraFit le (solveMatrices S .bvls (some (archBounds n (n + nleg * t.bands.length)))) t.spectra t.bands tdata weights flux wflux nleg 1 n prior
    else if weights.sum = 0 then .ok ([hugeChi2], [List.replicate nbasis 0])
    else .error .attributeError : Py (List K × List (List K)))
  let chi2 ← npGet chi2s 0
  let coeff ← npGet coeffs 0
  let names ← npTake A.subtype iBest
  return (chi2, coeff, makeFulltype A.rrtype (some (List.intercalate [';'] names)))

/-- archetypes.py:364-366  `prior[n_nearest-1:,][:,n_nearest-1:]` for `n_nearest ≥ 1`. -/
def dropPrior (n : Nat) (prior : List (List K)) : List (List K) := (prior.drop (n - 1)).map (fun row => row.drop (n - 1))

/-- archetypes.py:380-393  the fits of all archetypes, one at a time. Without `per_camera` the prior is not passed on. -/
def fitArchetypes (S : Solvers K) (le : PyStr → PyStr → Bool) (t : ArchTarget ω K) (weights flux wflux : List K) (narch nleg : Nat) (tdata : PyDict ω (List (List (List K))))
    (perCamera : Bool) (prior : Option (List (List K))) : Py (List K × List (List K)) :=
  if perCamera then
    perCameraFit le (solveMatrices S .bvls (some (archBounds 1 (1 + nleg * t.bands.length)))) t.spectra t.bands tdata weights flux wflux nleg narch 1 prior
  else do
    let r ← calcZchi2Batch (solveMatrices S .bvls (some (archBounds 1 (1 + nleg)))) t.spectra tdata weights flux wflux narch (1 + nleg) none
    return (r.map (·.1), r.map (·.2))

/-- archetypes.py:295-401  `get_best_archetype` on the CPU with the default `solve_method='bvls'` and the transmission given. -/
def getBestArchetype (S : Solvers K) (le : PyStr → PyStr → Bool) (argsort : List K → List Nat) (leg : Nat → K → K) (A : Archetype K) (t : ArchTarget ω K) (weights flux wflux : List K) (z : K)
    (perCamera : Bool) (nNearest : Option Nat) (nleg : Nat) (trans : PyDict ω (Option (List K))) (prior : Option (List (List K))) : Py (K × List K × PyStr) := do
  let binned ← archBinned A z t.dwave trans
  let prior1 ← (match nNearest with
    | none => .ok prior
    | some n => match prior with
      | none => .error .attributeError
      | some P => .ok (some (dropPrior n P)) : Py (Option (List (List K))))
  let tdata ← archTdata leg nleg t.dwave binned
  let (zzchi2, zzcoeff) ← fitArchetypes S le t weights flux wflux A.flux.length nleg tdata perCamera prior1
  match nNearest with
  | some n => nearestNeighbour S le argsort leg A t weights flux wflux nleg n zzchi2 binned perCamera prior
  | none => do
    let iBest ← npArgmin zzchi2
    let chi2 ← npGet zzchi2 iBest
    let coeff ← npGet zzcoeff iBest
    let ft ← npGet A.fullType iBest
    return (chi2, coeff, ft)

/-- archetypes.py:207-212  one subtype with its coefficient in `eval`: coefficient times rebinned archetype times transmission is added to the model. `igm z wave` is
`transmission_Lyman(z, wave, model='Inoue14')`. An unknown subtype raises `IndexError`. -/
def evalArchStep (igm : K → List K → Py (List K)) (A : Archetype K) (wave : List K) (z : K) (model : List K) (sc : PyStr × K) : Py (List K) := do
  let index ← (match A.subtype.findIdx? (fun s => decide (s = sc.1)) with
    | some i => .ok i
    | none => .error .indexError : Py Nat)
  let y ← npGet A.flux index
  let edges ← centers2edges wave
  let r ← trapzRebin (A.wave.map (fun v => (1 + z) * v)) [y] edges [0]
  let rz ← npGet r 0
  let binned ← npGet rz 0
  let T ← igm z wave
  return List.zipWith (· + ·) model (List.zipWith (fun b t => sc.2 * (b * t)) binned T)

/-- archetypes.py:205-212  the archetype part of `eval`: the sum over the subtypes. -/
def evalArchSum (igm : K → List K → Py (List K)) (A : Archetype K) (wave : List K) (z : K) (terms : List (PyStr × K)) : Py (List K) :=
  terms.foldlM (evalArchStep igm A wave z) (List.replicate wave.length 0)

/-- archetypes.py:179-223  `Archetype.eval` with a 1-d `legcoeff` (or none). -/
def Archetype.eval (igm : K → List K → Py (List K)) (leg : Nat → K → K) (A : Archetype K) (subtype : PyStr) (coeff wave : List K) (z : K) (R : Option (List (List K)))
    (legcoeff : Option (List K)) : Py (List K) := do
  let subtypes := pySplit [';'] subtype
  let model ← evalArchSum igm A wave z (subtypes.zip (coeff.take subtypes.length))
  let model ← (match legcoeff with
    | none => .ok model
    | some lc => do
      let legendre ← legendreOn leg lc.length wave
      return (List.range model.length).map (fun p => model.getD p 0 + dotv (legendre.map (fun l => l.getD p 0)) lc) : Py (List K))
  match R with
  | none => return model
  | some R => return matVec R model

/-- The entry `LEGCOEFF` of a row of the table: one set for all spectra, or one per spectrum. -/
inductive LegCoeff (K : Type) where
  | one (c : List K)
  | each (c : List (List K))

/-- targets.py:222-227  the model of spectrum number `i`: with `legcoeff[i]`, where a 1-d `LEGCOEFF` is repeated for every spectrum. -/
def archModelOf (igm : K → List K → Py (List K)) (leg : Nat → K → K) (ax : Archetype K) (t : ArchTarget ω K) (subtype : PyStr) (archcoeff : List K) (legcoeff : LegCoeff K) (z : K)
    (si : FitSpectrum ω K × Nat) : Py (List K) := do
  let lc ← (match legcoeff with
    | .one c => .ok c
    | .each cs => npGet cs si.2 : Py (List K))
  ax.eval igm leg subtype archcoeff (t.wave si.1.wavehash) z (some si.1.R) (some lc)

/-- targets.py:219-227 and 212-217  `eval_model` for a row with `FITMETHOD == 'ARCH'`, including the test for all coefficients zero that comes first. -/
def evalModelArch (igm : K → List K → Py (List K)) (leg : Nat → K → K) (archetypes : PyDict PyStr (Archetype K)) (t : ArchTarget ω K) (spectype subtype : PyStr)
    (coeff : List K) (legcoeff : LegCoeff K) (z : K) : Py (PyDict ω (List K)) :=
  if coeff.all (fun c => decide (c = 0)) then
    .ok (t.spectra.foldl (fun d s => d.set s.wavehash ((t.wave s.wavehash).map (fun _ => 0))) [])
  else do
    let narchetypes := (pySplit [';'] subtype).length
    let archcoeff := coeff.take narchetypes
    let ax ← archetypes.get spectype
    t.spectra.zipIdx.foldlM (fun d si => do
      let m ← archModelOf igm leg ax t subtype archcoeff legcoeff z si
      return d.set si.1.wavehash m) []

end
end Redrock
