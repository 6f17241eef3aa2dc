import Verif.Model.Zfind
import Verif.Lemmas.Fitz

set_option linter.unusedSectionVars false

namespace Redrock

/-- A stable sort: the result is sorted, and elements that compare equal keep whatever relation `R` held along the input. -/
theorem pySort_stable {α : Type} (le : α → α → Bool)
    (t2 : ∀ a b c, le a b = true → le b c = true → le a c = true) (o2 : ∀ a b, le a b = true ∨ le b a = true)
    (R : α → α → Prop) (s : List α) (hs : s.Pairwise R) :
    (pySort le s).Pairwise (fun a b => le a b = true ∧ (le b a = true → R a b)) := by
  have ins : ∀ (x : α) (xs : List α), xs.Pairwise (fun a b => le a b = true ∧ (le b a = true → R a b)) →
      (∀ y ∈ xs, R x y) →
      (List.orderedInsert (fun a b => le a b = true) x xs).Pairwise (fun a b => le a b = true ∧ (le b a = true → R a b)) := by
    intro x xs
    induction xs with
    | nil => intro _ _; simp
    | cons y ys ih =>
      intro hp hx
      rw [List.orderedInsert]
      rw [List.pairwise_cons] at hp
      split
      · rename_i hxy
        rw [List.pairwise_cons]
        refine ⟨?_, List.pairwise_cons.2 hp⟩
        intro z hz
        refine ⟨?_, fun _ => hx z hz⟩
        rcases List.mem_cons.1 hz with rfl | hz
        · exact hxy
        · exact t2 _ _ _ hxy (hp.1 z hz).1
      · rename_i hxy
        rw [List.pairwise_cons]
        refine ⟨?_, ih hp.2 (fun z hz => hx z (List.mem_cons_of_mem _ hz))⟩
        intro z hz
        rw [List.mem_orderedInsert] at hz
        rcases hz with rfl | hz
        · refine ⟨(o2 y z).resolve_right hxy, fun h => absurd h hxy⟩
        · exact hp.1 z hz
  induction s with
  | nil => exact List.Pairwise.nil
  | cons x xs ih =>
    rw [List.pairwise_cons] at hs
    have := ih hs.2
    unfold pySort at this ⊢
    rw [List.insertionSort_cons]
    apply ins x _ this
    intro y hy
    exact hs.1 y ((List.perm_insertionSort _ _).subset hy)

/-- Two stable sorts in sequence give lexicographic order (last one primary). -/
theorem pySort2_lex {α : Type} (le1 le2 : α → α → Bool)
    (t1 : ∀ a b c, le1 a b = true → le1 b c = true → le1 a c = true) (o1 : ∀ a b, le1 a b = true ∨ le1 b a = true)
    (t2 : ∀ a b c, le2 a b = true → le2 b c = true → le2 a c = true) (o2 : ∀ a b, le2 a b = true ∨ le2 b a = true)
    (l : List α) :
    (pySort le2 (pySort le1 l)).Pairwise (fun a b => le2 a b = true ∧ (le2 b a = true → le1 a b = true)) :=
  pySort_stable le2 t2 o2 _ _ (pySort_pairwise le1 t1 o1 l)

/-- `pySort` commutes with a map that preserves the comparison. -/
theorem pySort_map {α β : Type} (f : α → β) (le : β → β → Bool) (l : List α) :
    pySort le (l.map f) = (pySort (fun a b => le (f a) (f b)) l).map f := by
  have ins : ∀ (x : α) (xs : List α), List.orderedInsert (fun a b => le a b = true) (f x) (xs.map f) =
      (List.orderedInsert (fun a b => le (f a) (f b) = true) x xs).map f := by
    intro x xs
    induction xs with
    | nil => simp
    | cons y ys ih =>
      simp only [List.map_cons, List.orderedInsert]
      split
      · simp
      · simp [ih]
  induction l with
  | nil => rfl
  | cons x xs ih =>
    unfold pySort at ih ⊢
    rw [List.map_cons, List.insertionSort_cons, List.insertionSort_cons, ih, ins]

/-- `pySort` only looks at comparisons between elements of the list. -/
theorem pySort_congr {α : Type} (le le' : α → α → Bool) (l : List α) (h : ∀ a ∈ l, ∀ b ∈ l, le a b = le' a b) :
    pySort le l = pySort le' l := by
  have ins : ∀ (x : α) (xs : List α), (∀ b ∈ xs, le x b = le' x b) →
      List.orderedInsert (fun a b => le a b = true) x xs = List.orderedInsert (fun a b => le' a b = true) x xs := by
    intro x xs
    induction xs with
    | nil => intro _; simp
    | cons y ys ih =>
      intro hx
      simp only [List.orderedInsert]
      simp only [hx y (by simp), ih (fun b hb => hx b (List.mem_cons_of_mem _ hb))]
  induction l with
  | nil => rfl
  | cons x xs ih =>
    have ih' := ih (fun a ha b hb => h a (List.mem_cons_of_mem _ ha) b (List.mem_cons_of_mem _ hb))
    unfold pySort at ih' ⊢
    rw [List.insertionSort_cons, List.insertionSort_cons, ← ih']
    apply ins
    intro b hb
    exact h x (by simp) b (List.mem_cons_of_mem _ ((List.perm_insertionSort _ _).subset hb))

theorem mapM_Except_ok {α β : Type} (f : α → Py β) (g : α → β) (l : List α) (h : ∀ a ∈ l, f a = .ok (g a)) :
    l.mapM f = .ok (l.map g) := by
  induction l with
  | nil => rfl
  | cons a l ih =>
    rw [List.mapM_cons, h a (by simp), ih (fun b hb => h b (List.mem_cons_of_mem _ hb))]
    rfl

theorem npTake_map {V : Type} (x : List V) (ii : List Nat) (d : V) (h : ∀ i ∈ ii, i < x.length) :
    npTake x ii = .ok (ii.map (fun i => x.getD i d)) := by
  unfold npTake
  apply mapM_Except_ok
  intro i hi
  have := h i hi
  simp [List.getElem?_eq_getElem this]

section
variable {K : Type} [Field K] [LinearOrder K] [IsStrictOrderedRing K] {σ : Type}

theorem badLe_trans (a b c : Row K σ) (h1 : decide (a.bad = true → b.bad = true) = true)
    (h2 : decide (b.bad = true → c.bad = true) = true) : decide (a.bad = true → c.bad = true) = true := by
  simp only [decide_eq_true_eq] at *
  exact fun h => h2 (h1 h)

theorem badLe_total (a b : Row K σ) : decide (a.bad = true → b.bad = true) = true ∨ decide (b.bad = true → a.bad = true) = true := by
  simp only [decide_eq_true_eq]
  cases a.bad <;> cases b.bad <;> simp

theorem sortZfit_perm (rows : List (Row K σ)) : (sortZfit rows).Perm rows :=
  (pySort_perm _ _).trans (pySort_perm _ _)

/-- the order of the table: good fits first, then by chi2 -/
theorem sortZfit_sorted (rows : List (Row K σ)) :
    (sortZfit rows).Pairwise (fun a b => (a.bad = true → b.bad = true) ∧ (a.bad = b.bad → a.chi2 ≤ b.chi2)) := by
  refine (pySort2_lex (fun a b : Row K σ => decide (a.chi2 ≤ b.chi2)) (fun a b => decide (a.bad = true → b.bad = true))
    ?_ ?_ badLe_trans badLe_total rows).imp ?_
  · intro a b c h1 h2
    simp only [decide_eq_true_eq] at *
    exact le_trans h1 h2
  · intro a b
    simp only [decide_eq_true_eq]
    exact le_total _ _
  · intro a b h
    simp only [decide_eq_true_eq] at h
    exact ⟨h.1, fun he => h.2 (fun hb => by rw [he]; exact hb)⟩

end

/-- Selecting commutes with a stable sort. -/
theorem pySort_filter {α : Type} (le : α → α → Bool)
    (t : ∀ a b c, le a b = true → le b c = true → le a c = true) (o : ∀ a b, le a b = true ∨ le b a = true)
    (p : α → Bool) (l : List α) : (pySort le l).filter p = pySort le (l.filter p) := by
  have ins : ∀ (x : α) (xs : List α), xs.Pairwise (fun a b => le a b = true) →
      (List.orderedInsert (fun a b => le a b = true) x xs).filter p =
        if p x then List.orderedInsert (fun a b => le a b = true) x (xs.filter p) else xs.filter p := by
    intro x xs
    induction xs with
    | nil => intro _; by_cases h : p x <;> simp [h]
    | cons y ys ih =>
      intro hp
      rw [List.pairwise_cons] at hp
      rw [List.orderedInsert]
      split
      · rename_i hxy
        by_cases hpx : p x = true
        · rw [List.filter_cons_of_pos hpx, if_pos hpx]
          by_cases hpy : p y = true
          · rw [List.filter_cons_of_pos hpy, List.orderedInsert, if_pos hxy]
          · rw [List.filter_cons_of_neg hpy]
            cases hf : ys.filter p with
            | nil => simp
            | cons z zs =>
              have hz : z ∈ ys := (List.mem_filter.1 (by rw [hf]; simp : z ∈ ys.filter p)).1
              rw [List.orderedInsert, if_pos (t _ _ _ hxy (hp.1 z hz))]
        · rw [List.filter_cons_of_neg hpx, if_neg hpx]
      · rename_i hxy
        by_cases hpy : p y = true
        · rw [List.filter_cons_of_pos hpy, List.filter_cons_of_pos hpy, ih hp.2]
          split
          · rw [List.orderedInsert, if_neg hxy]
          · rfl
        · rw [List.filter_cons_of_neg hpy, List.filter_cons_of_neg hpy, ih hp.2]
  induction l with
  | nil => rfl
  | cons x xs ih =>
    have hs := pySort_pairwise le t o xs
    unfold pySort at ih hs ⊢
    rw [List.insertionSort_cons, ins x _ hs, ih]
    by_cases hpx : p x = true
    · rw [if_pos hpx, List.filter_cons_of_pos hpx, List.insertionSort_cons]
    · rw [if_neg hpx, List.filter_cons_of_neg hpx]

section
variable {K : Type} [Field K] [LinearOrder K] [IsStrictOrderedRing K] {σ : Type}

theorem sortZfit_filter (p : Row K σ → Bool) (l : List (Row K σ)) : (sortZfit l).filter p = sortZfit (l.filter p) := by
  unfold sortZfit
  rw [pySort_filter _ badLe_trans badLe_total, pySort_filter]
  · intro a b c h1 h2
    simp only [decide_eq_true_eq] at *
    exact le_trans h1 h2
  · intro a b
    simp only [decide_eq_true_eq]
    exact le_total _ _

/-- A list in which good rows precede bad ones is its good part followed by its bad part. -/
theorem good_append_bad (l : List (Row K σ)) (h : l.Pairwise (fun a b => a.bad = true → b.bad = true)) :
    l = l.filter (fun r => !r.bad) ++ l.filter (fun r => r.bad) := by
  induction l with
  | nil => rfl
  | cons a l ih =>
    rw [List.pairwise_cons] at h
    by_cases ha : a.bad = true
    · have hall : ∀ b ∈ l, b.bad = true := fun b hb => h.1 b hb ha
      have h1 : l.filter (fun r => !r.bad) = [] := by
        rw [List.filter_eq_nil_iff]; intro b hb; simp [hall b hb]
      have h2 : l.filter (fun r => r.bad) = l := List.filter_eq_self.2 hall
      simp [ha, h1, h2]
    · rw [List.filter_cons_of_pos (by simp [ha]), List.filter_cons_of_neg (by simp [ha]), List.cons_append, ← ih h.2]

/-- A sorted table is left unchanged. -/
theorem sortZfit_of_sorted (l : List (Row K σ))
    (h : l.Pairwise (fun a b => (a.bad = true → b.bad = true) ∧ (a.bad = b.bad → a.chi2 ≤ b.chi2))) : sortZfit l = l := by
  have part : ∀ v : Bool, (sortZfit l).filter (fun r => r.bad == v) = l.filter (fun r => r.bad == v) := by
    intro v
    rw [sortZfit_filter]
    have hbad : ∀ r ∈ l.filter (fun r => r.bad == v), r.bad = v := by
      intro r hr
      simpa using (List.mem_filter.1 hr).2
    have h1 : pySort (fun a b : Row K σ => decide (a.chi2 ≤ b.chi2)) (l.filter (fun r => r.bad == v)) = l.filter (fun r => r.bad == v) := by
      apply pySort_of_pairwise
      refine List.Pairwise.imp_of_mem ?_ (h.filter _)
      intro a b ha hb hab
      simp only [decide_eq_true_eq]
      exact hab.2 ((hbad a ha).trans (hbad b hb).symm)
    unfold sortZfit
    rw [h1]
    apply pySort_of_pairwise
    rw [List.pairwise_iff_forall_sublist]
    intro a b hab
    have ha : a ∈ l.filter (fun r => r.bad == v) := hab.subset (by simp)
    have hb : b ∈ l.filter (fun r => r.bad == v) := hab.subset (by simp)
    simp [hbad a ha, hbad b hb]
  have e1 := good_append_bad (sortZfit l) ((sortZfit_sorted l).imp (fun h => h.1))
  have e2 := good_append_bad l (h.imp (fun h => h.1))
  have p0 := part false
  have p1 := part true
  have f0 : (fun r : Row K σ => r.bad == false) = fun r => !r.bad := by funext r; cases r.bad <;> rfl
  have f1 : (fun r : Row K σ => r.bad == true) = fun r => r.bad := by funext r; cases r.bad <;> rfl
  rw [f0] at p0
  rw [f1] at p1
  rw [e1, p0, p1, ← e2]

theorem sum_eq_of_le {α : Type} (S : List α) (f g : α → Nat) (hle : ∀ s ∈ S, f s ≤ g s)
    (hsum : (S.map g).sum ≤ (S.map f).sum) : ∀ s ∈ S, f s = g s := by
  induction S with
  | nil => simp
  | cons a S ih =>
    simp only [List.map_cons, List.sum_cons] at hsum
    have h1 := hle a (by simp)
    have h2 : (S.map f).sum ≤ (S.map g).sum := List.sum_le_sum (fun s hs => hle s (List.mem_cons_of_mem _ hs))
    intro s hs
    rcases List.mem_cons.1 hs with rfl | hs
    · omega
    · exact ih (fun s hs => hle s (List.mem_cons_of_mem _ hs)) (by omega) s hs

theorem length_eq_sum_groups {α β : Type} [DecidableEq β] (f : α → β) (S : List β) (hS : S.Nodup) (l : List α) (hl : ∀ a ∈ l, f a ∈ S) :
    l.length = (S.map (fun s => (l.filter (fun a => decide (f a = s))).length)).sum := by
  induction S generalizing l with
  | nil =>
    cases l with
    | nil => rfl
    | cons a l => exact absurd (hl a (by simp)) (by simp)
  | cons s S ih =>
    rw [List.nodup_cons] at hS
    have h1 := ih hS.2 (l.filter (fun a => decide (f a ≠ s))) (by
      intro a ha
      rw [List.mem_filter] at ha
      have := hl a ha.1
      rcases List.mem_cons.1 this with h | h
      · simp [h] at ha
      · exact h)
    have h2 : ∀ t ∈ S, (l.filter (fun a => decide (f a ≠ s))).filter (fun a => decide (f a = t)) = l.filter (fun a => decide (f a = t)) := by
      intro t ht
      rw [List.filter_filter]
      apply List.filter_congr
      intro a _
      by_cases h : f a = t
      · have : f a ≠ s := by rw [h]; rintro rfl; exact hS.1 ht
        simp [h]
        rintro rfl
        exact hS.1 ht
      · simp [h]
    rw [List.map_cons, List.sum_cons]
    have h3 : (S.map (fun t => ((l.filter (fun a => decide (f a ≠ s))).filter (fun a => decide (f a = t))).length)) =
        S.map (fun t => (l.filter (fun a => decide (f a = t))).length) := by
      apply List.map_congr_left
      intro t ht
      rw [h2 t ht]
    rw [← h3, ← h1]
    have := List.length_eq_length_filter_add (l := l) (fun a => decide (f a = s))
    rw [this]
    congr 2
    apply List.filter_congr
    intro a _
    simp

end
end Redrock
