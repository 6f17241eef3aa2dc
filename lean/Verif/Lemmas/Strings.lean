import Verif.Model.Strings
import Verif.Lemmas.Dict
import Mathlib.Data.List.Infix
import Mathlib.Data.Nat.Digits.Lemmas
import Mathlib.Tactic.IntervalCases

/-! Lemmas on python strings. -/
namespace Redrock

theorem pyContains_iff (sub s : PyStr) : pyContains sub s = true ↔ sub <:+: s := by
  induction s with
  | nil => simp [pyContains, List.infix_nil]
  | cons c cs ih =>
    rw [pyContains, Bool.or_eq_true, ih, List.isPrefixOf_iff_prefix, List.infix_cons_iff]

theorem pySplitAux_skip (sep : PyStr) : ∀ (n : Nat) (acc s : PyStr), n ≤ s.length → pySplitAux sep n acc s = pySplitAux sep 0 acc (s.drop n) := by
  intro n
  induction n with
  | zero => intro acc s _; rfl
  | succ n ih =>
    intro acc s h
    cases s with
    | nil => simp at h
    | cons c cs =>
      rw [pySplitAux, List.drop_succ_cons]
      exact ih acc cs (by simpa using h)

/-- no occurrence: one piece -/
theorem pySplitAux_none (sep : PyStr) : ∀ (s acc : PyStr), ¬ sep <:+: s → pySplitAux sep 0 acc s = [acc ++ s] := by
  intro s
  induction s with
  | nil => intro acc _; simp [pySplitAux]
  | cons c cs ih =>
    intro acc h
    rw [List.infix_cons_iff, not_or] at h
    rw [pySplitAux, if_neg (by rw [List.isPrefixOf_iff_prefix]; exact h.1), ih (acc ++ [c]) h.2]
    simp

/-- cutting at the first occurrence -/
theorem pySplitAux_first (sep : PyStr) (hsep : sep ≠ []) (b : PyStr) : ∀ (a acc : PyStr), (∀ i, i < a.length → ¬ sep <+: (a ++ sep ++ b).drop i) →
    pySplitAux sep 0 acc (a ++ sep ++ b) = (acc ++ a) :: pySplit sep b := by
  intro a
  induction a with
  | nil =>
    intro acc _
    obtain ⟨x, xs, rfl⟩ := List.exists_cons_of_ne_nil hsep
    rw [List.nil_append, List.cons_append, pySplitAux, if_pos (by rw [List.isPrefixOf_iff_prefix, ← List.cons_append]; exact List.prefix_append _ _), pySplitAux_skip _ _ _ _ (by simp)]
    simp [pySplit]
  | cons c cs ih =>
    intro acc h
    rw [List.cons_append, List.cons_append, pySplitAux, if_neg, ih (acc ++ [c])]
    · simp
    · intro i hi
      have := h (i + 1) (by simp; omega)
      simpa using this
    · have := h 0 (by simp)
      rw [List.isPrefixOf_iff_prefix]
      simpa using this

/-- occurrences before the cut would lie inside the first piece, if it does not end with ':' -/
theorem no_early_sep (a b : PyStr) (h : ¬ sep3 <:+: a) (he : a.getLast? ≠ some ':') : ∀ i, i < a.length → ¬ sep3 <+: (a ++ sep3 ++ b).drop i := by
  intro i hi hp
  rw [List.append_assoc, List.drop_append, show i - a.length = 0 by omega, List.drop_zero] at hp
  -- the part of a from i on
  have hne : a.drop i ≠ [] := by simp; omega
  have hlast : (a.drop i).getLast? = a.getLast? := by
    rw [List.getLast?_drop, if_neg (by omega)]
  by_cases hl : 3 ≤ (a.drop i).length
  · apply h
    have : sep3 <+: a.drop i := List.prefix_of_prefix_length_le hp (List.prefix_append _ _) hl
    exact this.isInfix.trans (List.drop_suffix _ _).isInfix
  · generalize a.drop i = d at *
    match d, hne, hl with
    | [x], _, _ =>
      obtain ⟨t, ht⟩ := hp
      simp only [sep3, List.cons_append, List.cons.injEq] at ht
      apply he
      rw [← hlast, ← ht.1]
      rfl
    | [x, y], _, _ =>
      obtain ⟨t, ht⟩ := hp
      simp only [sep3, List.cons_append, List.cons.injEq] at ht
      apply he
      rw [← hlast, ← ht.2.1]
      rfl
    | x :: y :: z :: l, _, hl => simp at hl

/-- no white space at either end -/
def Trimmed (s : PyStr) : Prop := (∀ c, s.head? = some c → pyIsSpace c = false) ∧ (∀ c, s.getLast? = some c → pyIsSpace c = false)

theorem dropWhile_eq_self_of_head (s : PyStr) (h : ∀ c, s.head? = some c → pyIsSpace c = false) : s.dropWhile pyIsSpace = s := by
  cases s with
  | nil => rfl
  | cons c cs => rw [List.dropWhile_cons_of_neg]; simp [h c rfl]

theorem head_dropWhile (s : PyStr) : ∀ c, (s.dropWhile pyIsSpace).head? = some c → pyIsSpace c = false := by
  intro c hc
  have := List.head?_dropWhile_not pyIsSpace s
  rw [hc] at this
  exact this

theorem pyStrip_of_trimmed (s : PyStr) (h : Trimmed s) : pyStrip s = s := by
  unfold pyStrip
  rw [dropWhile_eq_self_of_head s h.1, dropWhile_eq_self_of_head, List.reverse_reverse]
  intro c hc
  rw [List.head?_reverse] at hc
  exact h.2 c hc

theorem trimmed_pyStrip (s : PyStr) : Trimmed (pyStrip s) := by
  unfold pyStrip
  constructor
  · intro c hc
    rw [List.head?_reverse] at hc
    -- the last element of the trimmed reverse is the first of the left-trimmed string
    have hsuf : (s.dropWhile pyIsSpace).reverse.dropWhile pyIsSpace <:+ (s.dropWhile pyIsSpace).reverse := List.dropWhile_suffix _
    obtain ⟨t, ht⟩ := hsuf
    have : (s.dropWhile pyIsSpace).reverse.getLast? = some c := by
      rw [← ht, List.getLast?_append, hc]
      rfl
    rw [List.getLast?_reverse] at this
    exact head_dropWhile s c this
  · intro c hc
    rw [List.getLast?_reverse] at hc
    exact head_dropWhile _ c hc

theorem pyStrip_idem (s : PyStr) : pyStrip (pyStrip s) = pyStrip s := pyStrip_of_trimmed _ (trimmed_pyStrip s)

/-! numbers in keywords -/

theorem fmt02_inj (i j : Nat) (h : fmt02 i = fmt02 j) : i = j := by
  have key : ∀ i, Nat.ofDigits 10 ((fmt02 i).map (fun c => c.toNat - 48)).reverse = i := by
    intro i
    unfold fmt02
    have hd : ∀ d ∈ (List.replicate (2 - (Nat.digits 10 i).reverse.length) 0 ++ (Nat.digits 10 i).reverse), (Char.ofNat (48 + d)).toNat - 48 = d := by
      intro d hd
      have hlt : d < 10 := by
        rcases List.mem_append.1 hd with h | h
        · rw [List.eq_of_mem_replicate h]; omega
        · exact Nat.digits_lt_base (by omega) (List.mem_reverse.1 h)
      interval_cases d <;> rfl
    simp only [List.map_map]
    rw [List.map_congr_left (f := (fun c : Char => c.toNat - 48) ∘ fun d => Char.ofNat (48 + d)) (g := id) (fun d h => hd d h), List.map_id, List.reverse_append, List.reverse_reverse, List.reverse_replicate, Nat.ofDigits_append, Nat.ofDigits_digits,
      Nat.ofDigits_replicate_zero, Nat.mul_zero, Nat.add_zero]
  rw [← key i, ← key j, h]

theorem hkey_inj (p : String) (i j : Nat) (h : hkey p i = hkey p j) : i = j := fmt02_inj i j (List.append_cancel_left h)

theorem hkey_ne (p q : String) (hl : p.toList.length = q.toList.length) (hpq : p.toList ≠ q.toList) (i j : Nat) : hkey p i ≠ hkey q j := by
  intro h
  exact hpq (List.append_inj h hl).1
end Redrock
