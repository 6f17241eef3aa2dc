import Verif.Model.Ext

/-! Specification vocabulary for C12-C14. -/
namespace Redrock

/-- Index `i` of `x` is not above either neighbour (at the edges: not above the only one). -/
def IsLocalMin {K : Type} [LE K] [DecidableRel (α := K) (· ≤ ·)] (x : List (Ext K)) (i : Nat) : Prop :=
  ∃ a, x[i]? = some a ∧ (∀ b, 0 < i → x[i-1]? = some b → Ext.le a b = true) ∧
    (∀ b, x[i+1]? = some b → Ext.le a b = true)

end Redrock
