import Mathlib.Analysis.SpecialFunctions.Integrals.Basic

/-!
Specification of rebinning, independent of the code: the piecewise linear function through the samples.
-/
namespace Redrock

/-- `f` is the piecewise linear interpolant of the samples `(x[k], y[k])`: between two neighbouring samples it is the straight line through them. -/
def IsInterpolant (f : ℝ → ℝ) (x y : List ℝ) : Prop :=
  ∀ (k : Nat) (xa xb ya yb : ℝ), x[k]? = some xa → x[k + 1]? = some xb → y[k]? = some ya → y[k + 1]? = some yb →
    ∀ t, xa ≤ t → t ≤ xb → f t = ya + (t - xa) * (yb - ya) / (xb - xa)

/-- One interpolant, by recursion over the samples (arbitrary outside the sampled range). -/
noncomputable def lerp : List ℝ → List ℝ → ℝ → ℝ
  | x0 :: x1 :: xs, y0 :: y1 :: ys, t => if t ≤ x1 then y0 + (t - x0) * (y1 - y0) / (x1 - x0) else lerp (x1 :: xs) (y1 :: ys) t
  | _, _, _ => 0

/-- The interpolant exists for strictly increasing sample positions. -/
theorem lerp_isInterpolant (x y : List ℝ) (hx : x.Pairwise (· < ·)) : IsInterpolant (lerp x y) x y := by
  induction x generalizing y with
  | nil => intro k xa xb ya yb h; simp at h
  | cons x0 xs ih =>
    intro k xa xb ya yb h1 h2 h3 h4 t ht1 ht2
    cases xs with
    | nil => simp at h2
    | cons x1 xs =>
      cases y with
      | nil => simp at h3
      | cons y0 ys =>
        cases ys with
        | nil => simp at h4
        | cons y1 ys =>
          rw [List.pairwise_cons] at hx
          cases k with
          | zero =>
            simp only [List.getElem?_cons_zero, Nat.zero_add, List.getElem?_cons_succ, Option.some.injEq] at h1 h2 h3 h4
            subst h1 h2 h3 h4
            rw [lerp, if_pos ht2]
          | succ k =>
            simp only [List.getElem?_cons_succ] at h1 h2 h3 h4
            have hi := ih (y1 :: ys) hx.2 k xa xb ya yb h1 h2 h3 h4 t ht1 ht2
            rw [lerp]
            split
            · rename_i htx
              have hx1 : x1 ≤ xa := by
                cases k with
                | zero => simp at h1; exact h1.le
                | succ k =>
                  rw [List.getElem?_cons_succ] at h1
                  exact ((List.pairwise_cons.1 hx.2).1 xa (List.mem_of_getElem? h1)).le
              have e1 : t = x1 := le_antisymm htx (hx1.trans ht1)
              have e2 : xa = x1 := le_antisymm (ht1.trans htx) hx1
              have hk : k = 0 := by
                cases k with
                | zero => rfl
                | succ k =>
                  rw [List.getElem?_cons_succ] at h1
                  have := (List.pairwise_cons.1 hx.2).1 xa (List.mem_of_getElem? h1)
                  rw [e2] at this
                  exact absurd this (lt_irrefl _)
              subst hk
              simp only [List.getElem?_cons_zero, Option.some.injEq] at h1 h3
              have h01 : x0 < x1 := hx.1 x1 (by simp)
              rw [e1, e2, ← h3]
              have : x1 - x0 ≠ 0 := by linarith
              field_simp
              ring
            · exact hi

end Redrock
