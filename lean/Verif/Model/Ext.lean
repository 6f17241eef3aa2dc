import Mathlib.Algebra.Order.Field.Basic
import Mathlib.Algebra.Order.Group.Abs

/-!
Floating point values as far as redrock relies on them: a finite number, `+inf` or `nan`
(`priors.py:98-104` states the comparison rules the code depends on). Negative infinity never occurs in the modelled code.
-/
namespace Redrock

/-- A float: finite (exact) number, `np.inf` or `np.nan`. -/
inductive Ext (K : Type) where
  | fin (x : K)
  | inf
  | nan
  deriving DecidableEq

namespace Ext
variable {K : Type}

/-- IEEE `a <= b`: false as soon as one side is NaN; `inf <= inf` is true (priors.py:99-103). -/
def le [LE K] [DecidableRel (α := K) (· ≤ ·)] : Ext K → Ext K → Bool
  | .fin a, .fin b => decide (a ≤ b)
  | .fin _, .inf => true
  | .inf, .inf => true
  | _, _ => false

/-- numpy's sort order: as `<=`, with every NaN after everything else. -/
def sortLe [LE K] [DecidableRel (α := K) (· ≤ ·)] : Ext K → Ext K → Bool
  | _, .nan => true
  | a, b => le a b

/-- IEEE addition (without `-inf`). -/
def add [Add K] : Ext K → Ext K → Ext K
  | .fin a, .fin b => .fin (a + b)
  | .nan, _ => .nan
  | _, .nan => .nan
  | _, _ => .inf

/-- `np.isnan`. -/
def isNan : Ext K → Bool
  | .nan => true
  | _ => false

end Ext
end Redrock
