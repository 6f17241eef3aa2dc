import Verif.Model.Py

namespace Redrock

theorem pyMinFold_spec {α κ : Type} [LinearOrder κ] (key : α → κ) (xs : List α) (x : α) :
    let m := xs.foldl (fun m y => if key y < key m then y else m) x
    (m = x ∨ m ∈ xs) ∧ key m ≤ key x ∧ ∀ y ∈ xs, key m ≤ key y := by
  induction xs generalizing x with
  | nil => simp
  | cons a xs ih =>
    simp only [List.foldl_cons]
    by_cases h : key a < key x
    · simp only [h, if_true]
      obtain ⟨h1, h2, h3⟩ := ih a
      refine ⟨?_, h2.trans h.le, ?_⟩
      · rcases h1 with h1 | h1
        · right; rw [h1]; simp
        · right; simp [h1]
      · intro y hy
        rcases List.mem_cons.1 hy with rfl | hy
        · exact h2
        · exact h3 y hy
    · simp only [h, if_false]
      obtain ⟨h1, h2, h3⟩ := ih x
      refine ⟨?_, h2, ?_⟩
      · rcases h1 with h1 | h1
        · left; exact h1
        · right; simp [h1]
      · intro y hy
        rcases List.mem_cons.1 hy with rfl | hy
        · exact h2.trans (not_lt.1 h)
        · exact h3 y hy

theorem pyMinBy_spec {α κ : Type} [LinearOrder κ] (key : α → κ) (xs : List α) (hne : xs ≠ []) :
    ∃ m, pyMinBy key xs = .ok m ∧ m ∈ xs ∧ ∀ y ∈ xs, key m ≤ key y := by
  cases xs with
  | nil => exact absurd rfl hne
  | cons x xs =>
    obtain ⟨h1, h2, h3⟩ := pyMinFold_spec key xs x
    refine ⟨_, rfl, ?_, ?_⟩
    · rcases h1 with h1 | h1
      · simp [h1]
      · simp [h1]
    · intro y hy
      rcases List.mem_cons.1 hy with rfl | hy
      · exact h2
      · exact h3 y hy

theorem pyIndex_spec {α : Type} [DecidableEq α] (xs : List α) (v : α) (h : v ∈ xs) :
    ∃ i, ∃ hi : i < xs.length, pyIndex xs v = .ok i ∧ xs[i] = v := by
  unfold pyIndex
  cases hf : xs.findIdx? (fun x => decide (x = v)) with
  | none =>
    rw [List.findIdx?_eq_none_iff] at hf
    simpa using hf v h
  | some i =>
    rw [List.findIdx?_eq_some_iff_getElem] at hf
    obtain ⟨hi, h1, _⟩ := hf
    exact ⟨i, hi, rfl, by simpa using h1⟩

theorem pySort_perm {α : Type} (le : α → α → Bool) (xs : List α) : (pySort le xs).Perm xs :=
  List.perm_insertionSort _ _

theorem pySort_pairwise {α : Type} (le : α → α → Bool) (htrans : ∀ a b c, le a b = true → le b c = true → le a c = true)
    (htotal : ∀ a b, le a b = true ∨ le b a = true) (xs : List α) :
    (pySort le xs).Pairwise (fun a b => le a b = true) := by
  have : Std.Total (fun a b => le a b = true) := ⟨htotal⟩
  have : IsTrans α (fun a b => le a b = true) := ⟨htrans⟩
  exact List.pairwise_insertionSort (fun a b => le a b = true) xs

theorem pySort_of_pairwise {α : Type} (le : α → α → Bool) (xs : List α)
    (h : xs.Pairwise (fun a b => le a b = true)) : pySort le xs = xs :=
  List.Pairwise.insertionSort_eq h

/-- stability -/
theorem pySort_sublist {α : Type} (le : α → α → Bool) (xs c : List α)
    (hc : c.Pairwise (fun a b => le a b = true)) (hs : c.Sublist xs) : c.Sublist (pySort le xs) :=
  List.sublist_insertionSort (r := fun a b => le a b = true) hc hs

end Redrock
