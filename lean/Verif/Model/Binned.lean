import Verif.Model.Igm
import Verif.Model.Chi2

/-!
Binned templates and template evaluation: `rebin_template` (rebin.py), `DistTemplate.__init__` and `Template.eval` (templates.py), the same preparation in `fitz` (fitz.py). CPU.
-/
namespace Redrock

section
variable {K : Type} [Field K] [LinearOrder K]

/-- `[ibasis][ibin]` to `[ibin][ibasis]`: the arrays of the fit are indexed by wavelength first. -/
def transposeBins (nbin : Nat) (rz : List (List K)) : List (List K) := (List.range nbin).map (fun i => rz.map (fun row => row.getD i 0))

/-- rebin.py:447-518  `rebin_template` for one wavelength grid on the CPU; result `[iz][ibin][ibasis]`. `myz.max()` raises on an empty array. (`fitz` passes the values of xmin and xmax that are
computed here by default.) -/
def rebinTemplate (twave : List K) (flux : List (List K)) (wave zs : List K) : Py (List (List (List K))) := do
  if zs = [] then throw .valueError
  let edges ← centers2edges wave
  let r ← trapzRebin twave flux edges zs
  return r.map (transposeBins (edges.length - 1))

/-- templates.py:593-598, fitz.py:238-243, 283-288  `if T is None: continue; data[k] *= T[:,:,None]`. -/
def applyTransmission (T : Option (List (List K))) (binned : List (List (List K))) : List (List (List K)) :=
  match T with
  | none => binned
  | some T => List.zipWith (List.zipWith (fun t row => row.map (· * t))) T binned

/-- templates.py:247-272  `Template.eval`: `flux.T.dot(coeff)` needs as many coefficients as basis vectors; then one rebinning without further redshift, then the resolution. -/
def templateEval (twave : List K) (flux : List (List K)) (coeff wave : List K) (z : K) (R : Option (List (List K))) : Py (List K) := do
  let c := coeff.take flux.length
  if c.length ≠ flux.length then throw .valueError
  let combo := (List.range twave.length).map (fun w => dotv (col flux w) c)
  let edges ← centers2edges wave
  let r ← trapzRebin (twave.map (fun v => v * (1 + z))) [combo] edges [0]
  let rz ← npGet r 0
  let model ← npGet rz 0
  match R with
  | none => return model
  | some R => return matVec R model

end

/-- the 2-d array of a result of `transmission_Lyman` for two arrays; `None` is `none` -/
def matOf : Option NpRes → Py (Option (List (List ℝ)))
  | none => .ok none
  | some (.mat T) => .ok (some T)
  | some _ => .error .valueError

/-- templates.py:585-599 (`DistTemplate.__init__`) and fitz.py:228-243, 271-288: the templates on all wavelength grids and redshifts, with IGM transmission.
Simplified: rebinning and transmission are done grid by grid instead of all rebinning first; this only matters for which of several errors is raised. -/
noncomputable def fitTemplates {ω : Type} (twave : List ℝ) (flux : List (List ℝ)) (dwave : PyDict ω (List ℝ)) (zs : List ℝ) (igm : IgmModel) : Py (PyDict ω (List (List (List ℝ)))) :=
  dwave.mapM (fun kw => do
    let binned ← rebinTemplate twave flux kw.2 zs
    let t ← transmissionLyman (.array zs) (.array kw.2) igm false
    let T ← matOf t
    return (kw.1, applyTransmission T binned))

end Redrock
