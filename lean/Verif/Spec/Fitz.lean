import Verif.Model.Py
import Mathlib.Algebra.Order.Field.Basic

/-! Specification vocabulary for C15-C18: what `np.polyfit(x, y, 2)` and `np.sqrt` promise. -/
namespace Redrock

variable {K : Type} [Field K] [LinearOrder K]

/-- Sum of squared residuals of the parabola `a x² + b x + c`. -/
def sqResid (a b c : K) (x y : List K) : K :=
  ((x.zip y).map (fun p => (p.2 - (a * p.1 ^ 2 + b * p.1 + c)) ^ 2)).sum

/-- numpy's contract: whenever `polyfit` returns, its coefficients minimise the sum of squared residuals. -/
def IsPolyfit (polyfit : List K → List K → Py (K × K × K)) : Prop :=
  ∀ x y a b c, polyfit x y = .ok (a, b, c) → ∀ a' b' c', sqResid a b c x y ≤ sqResid a' b' c' x y

/-- A square root: positive on positive numbers, and `sqrt (t*t) = t` for `t ≥ 0`. -/
def IsSqrt (sqrt : K → K) : Prop :=
  (∀ a, 0 < a → 0 < sqrt a) ∧ ∀ t, 0 ≤ t → sqrt (t * t) = t

end Redrock
