import Verif.Model.IgmData
import Verif.Model.Fitz
import Mathlib.Analysis.SpecialFunctions.Pow.Real

/-!
Model of `/repo/py/redrock/igm.py` (CPU and GPU run the same formulas) over the real numbers: `transmission_Lyman`, `transmission_Lyman_CaluraKamble`, `transmission_IGM_Inoue14` and the optical depths of `Inoue14`.
-/
namespace Redrock

/-- igm.py:367  `igm_models`; `None` and `'None'` are the same; every other name is `unknown`. -/
inductive IgmModel where
  | calura12
  | kamble20
  | inoue14
  | noModel
  | unknown
  deriving DecidableEq

/-- constants.py:15  `LyA_wavelength`. -/
noncomputable def lyA : ℝ := 1215.67

/-- One entry of `constants.Lyman_series[model]`: line, A, B. -/
structure LymanLine where
  line : ℝ
  A : ℝ
  B : ℝ

/-- constants.py:17-36  `Lyman_series`. -/
noncomputable def lymanSeries : IgmModel → List LymanLine
  | .calura12 => [⟨lyA, 0.0023, 3.64⟩, ⟨1025.72, 0.0023 / 5.2615, 3.64⟩, ⟨972.537, 0.0023 / 14.356, 3.64⟩, ⟨949.7431, 0.0023 / 29.85984, 3.64⟩, ⟨937.8035, 0.0023 / 53.36202, 3.64⟩]
  | .kamble20 => [⟨lyA, 0.00554, 3.182⟩]
  | _ => []

/-- An argument of numpy functions: python scalar or one-dimensional array. -/
inductive NpArg where
  | scalar (v : ℝ)
  | array (vs : List ℝ)

/-- `np.atleast_1d`. -/
def NpArg.toList : NpArg → List ℝ
  | .scalar v => [v]
  | .array vs => vs

/-- A result of any of the three dimensions. -/
inductive NpRes where
  | scalar (v : ℝ)
  | vec (vs : List ℝ)
  | mat (rows : List (List ℝ))

/-- igm.py:357-362  one pass of the loop over the lines: `T[w] *= exp(-tauEff)` with `w = lRest < line`, `lRest = outer(1/(1+zObj), lObs)`. -/
noncomputable def ckStep (zObj lObs : List ℝ) (minWave : ℝ) (T : List (List ℝ)) (s : LymanLine) : List (List ℝ) :=
  if s.line < minWave then T
  else List.zipWith (fun z row => List.zipWith (fun l t =>
    if 1 / (1 + z) * l < s.line then
      let zpix := l / s.line - 1
      let tauEff := s.A * (1 + zpix) ^ s.B
      t * Real.exp (-tauEff)
    else t) lObs row) zObj T

/-- igm.py:321-364  `transmission_Lyman_CaluraKamble`; `lRest.min()` raises on an empty array. -/
noncomputable def transmissionCK (series : List LymanLine) (zObj lObs : List ℝ) : Py (List (List ℝ)) := do
  let minWave ← npMin (zObj.flatMap (fun z => lObs.map (fun l => 1 / (1 + z) * l)))
  return series.foldl (ckStep zObj lObs minWave) (zObj.map (fun _ => lObs.map (fun _ => 1)))

/-- igm.py:104-141  `tLSLAF`, one redshift and wavelength, the term of one line. -/
noncomputable def tauLSLAFLine (a : InoueLine) (z l : ℝ) : ℝ :=
  let l2 : ℝ := a.lam
  if l / (1 + z) < l2 then
    if l < l2 * (1 + 1.2) then a.laf1 / l2 ^ (1.2 : ℝ) * l ^ (1.2 : ℝ)
    else if l < l2 * (1 + 4.7) then a.laf2 / l2 ^ (3.7 : ℝ) * l ^ (3.7 : ℝ)
    else a.laf3 / l2 ^ (5.5 : ℝ) * l ^ (5.5 : ℝ)
  else 0

/-- igm.py:144-168  `tLSDLA`, the term of one line. -/
noncomputable def tauLSDLALine (a : InoueLine) (z l : ℝ) : ℝ :=
  let l2 : ℝ := a.lam
  if l / (1 + z) < l2 then
    if l < l2 * (1 + 2) then a.dla1 / l2 ^ (2 : ℝ) * l ^ (2 : ℝ) else a.dla2 / l2 ^ (3 : ℝ) * l ^ (3 : ℝ)
  else 0

/-- igm.py:171-193  `tLCDLA`: masked assignments in the order of the code, starting from 0. -/
noncomputable def tauLCDLA (z l : ℝ) : ℝ :=
  let lamL : ℝ := 911.8
  let x0 := l < lamL * (1 + z)
  let v : ℝ := 0
  open Classical in
  let v := if x0 ∧ z < 2 then 0.2113 * (1 + z) ^ (2 : ℝ) - 0.07661 * (1 + z) ^ (2.3 : ℝ) * (l / lamL) ^ (-0.3 : ℝ) - 0.1347 * (l / lamL) ^ (2 : ℝ) else v
  let y0 := x0 ∧ 2 ≤ z
  let x1 := lamL * (1 + 2) ≤ l
  open Classical in
  let v := if y0 ∧ x1 then 0.04696 * (1 + z) ^ (3 : ℝ) - 0.01779 * (1 + z) ^ (3.3 : ℝ) * (l / lamL) ^ (-0.3 : ℝ) - 0.02916 * (l / lamL) ^ (3 : ℝ) else v
  open Classical in
  if y0 ∧ ¬ x1 then 0.6340 + 0.04696 * (1 + z) ^ (3 : ℝ) - 0.01779 * (1 + z) ^ (3.3 : ℝ) * (l / lamL) ^ (-0.3 : ℝ) - 0.1347 * (l / lamL) ^ (2 : ℝ) - 0.2905 * (l / lamL) ^ (-0.3 : ℝ) else v

/-- igm.py:195-229  `tLCLAF`: masked assignments in the order of the code, starting from 0; a later assignment overwrites an earlier one. -/
noncomputable def tauLCLAF (z l : ℝ) : ℝ :=
  let lamL : ℝ := 911.8
  let x0 := l < lamL * (1 + z)
  let v : ℝ := 0
  open Classical in
  let v := if x0 ∧ z < 1.2 then 0.3248 * ((l / lamL) ^ (1.2 : ℝ) - (1 + z) ^ (-0.9 : ℝ) * (l / lamL) ^ (2.1 : ℝ)) else v
  let y0 := x0 ∧ z < 4.7
  let x1 := lamL * (1 + 1.2) ≤ l
  open Classical in
  let v := if y0 ∧ x1 then 2.545e-2 * ((1 + z) ^ (1.6 : ℝ) * (l / lamL) ^ (2.1 : ℝ) - (l / lamL) ^ (3.7 : ℝ)) else v
  open Classical in
  let v := if y0 ∧ ¬ x1 then 2.545e-2 * (1 + z) ^ (1.6 : ℝ) * (l / lamL) ^ (2.1 : ℝ) + 0.3248 * (l / lamL) ^ (1.2 : ℝ) - 0.2496 * (l / lamL) ^ (2.1 : ℝ) else v
  let y0 := x0 ∧ 4.7 ≤ z
  let x1 := lamL * (1 + 4.7) < l
  let x2 := lamL * (1 + 1.2) ≤ l ∧ l < lamL * (1 + 4.7)
  let x3 := l < lamL * (1 + 1.2)
  open Classical in
  let v := if y0 ∧ x1 then 5.221e-4 * ((1 + z) ^ (3.4 : ℝ) * (l / lamL) ^ (2.1 : ℝ) - (l / lamL) ^ (5.5 : ℝ)) else v
  open Classical in
  let v := if y0 ∧ x2 then 5.221e-4 * (1 + z) ^ (3.4 : ℝ) * (l / lamL) ^ (2.1 : ℝ) + 0.2182 * (l / lamL) ^ (2.1 : ℝ) - 2.545e-2 * (l / lamL) ^ (3.7 : ℝ) else v
  open Classical in
  if y0 ∧ x3 then 5.221e-4 * (1 + z) ^ (3.4 : ℝ) * (l / lamL) ^ (2.1 : ℝ) + 0.3248 * (l / lamL) ^ (1.2 : ℝ) - 3.140e-2 * (l / lamL) ^ (2.1 : ℝ) else v

/-- igm.py:232-271  `full_IGM` for one redshift and wavelength (`scale_tau = 1`). -/
noncomputable def fullIgm (lines : List InoueLine) (z l : ℝ) : ℝ :=
  let tauLS := (lines.map (fun a => tauLSLAFLine a z l)).sum + (lines.map (fun a => tauLSDLALine a z l)).sum
  let tauLC := tauLCLAF z l + tauLCDLA z l
  Real.exp (-1 * (tauLC + tauLS + 0))

/-- igm.py:289-318  `transmission_IGM_Inoue14`: rows of ones, overwritten for the redshifts with `lObs.min()/(1+z) < LyA`. -/
noncomputable def transmissionInoue (lines : List InoueLine) (zObj lObs : List ℝ) : Py (List (List ℝ)) := do
  let lmin ← npMin lObs
  return zObj.map (fun z => if lmin / (1 + z) < lyA then lObs.map (fun l => fullIgm lines z l) else lObs.map (fun _ => 1))

/-- igm.py:428-437  back to the dimensionality of the input. -/
def reshapeLike (zObj lObs : NpArg) (T : List (List ℝ)) : Py NpRes :=
  match zObj, lObs with
  | .scalar _, .scalar _ => do
    let r ← npGet T 0
    let v ← npGet r 0
    return .scalar v
  | .scalar _, .array _ => do
    let r ← npGet T 0
    return .vec r
  | .array _, .scalar _ => do
    let c ← T.mapM (fun r => npGet r 0)
    return .vec c
  | .array _, .array _ => return .mat T

/-- igm.py:369-439  `transmission_Lyman`; the result `none` is python's `None`. -/
noncomputable def transmissionLyman (zObj lObs : NpArg) (model : IgmModel) (alwaysReturnArray : Bool) : Py (Option NpRes) := do
  if model = .unknown then throw .valueError
  if model = .noModel ∧ ¬ alwaysReturnArray then return none
  let lmin ← npMin lObs.toList
  let zmax ← npMax zObj.toList
  let minWave := lmin / (1 + zmax)
  if lyA < minWave ∧ ¬ alwaysReturnArray then return none
  let T ← if alwaysReturnArray ∧ (lyA < minWave ∨ model = .noModel) then pure (zObj.toList.map (fun _ => lObs.toList.map (fun _ => (1 : ℝ))))
    else match model with
      | .calura12 | .kamble20 => transmissionCK (lymanSeries model) zObj.toList lObs.toList
      | .inoue14 => transmissionInoue inoueLines zObj.toList lObs.toList
      | _ => throw .valueError
  let r ← reshapeLike zObj lObs T
  return some r

end Redrock
