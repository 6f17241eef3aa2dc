import Verif.Lemmas.Work
import Mathlib.Algebra.BigOperators.Group.Finset.Basic
import Mathlib.Algebra.Order.BigOperators.Group.Finset
import Mathlib.Data.Finset.Card
import Mathlib.Tactic.Linarith
import Mathlib.Tactic.Ring

/-! Largest-processing-time scheduling: putting the next largest job on a least loaded machine keeps every load within 4/3 - 1/(3n) of the largest load of any other assignment (Graham 1969). -/
namespace Redrock
set_option linter.unusedSectionVars false
namespace Lpt

variable {K : Type} [Field K] [LinearOrder K] [IsStrictOrderedRing K] {ι : Type} [DecidableEq ι]

theorem sum_sublist (w : ι → K) {a b : List ι} (h : a.Sublist b) (hw : ∀ x ∈ b, 0 ≤ w x) : (a.map w).sum ≤ (b.map w).sum := by
  induction h with
  | slnil => simp
  | cons x _ ih =>
    have := ih (fun y hy => hw y (by simp [hy]))
    have := hw x (by simp)
    simp; linarith
  | cons_cons x _ ih =>
    have := ih (fun y hy => hw y (by simp [hy]))
    simp; linarith

/-- sum over a duplicate-free list as a Finset sum -/
theorem sum_nodup (w : ι → K) (l : List ι) (h : l.Nodup) : (l.map w).sum = ∑ x ∈ l.toFinset, w x := by
  rw [List.sum_toFinset w h]

/-- the loads of all machines add up to the sum of the jobs -/
theorem sum_loads (w : ι → K) (d : List (List ι)) : ((List.range d.length).map (loadOf w d)).sum = (d.flatten.map w).sum := by
  induction d with
  | nil => simp
  | cons a d ih =>
    rw [List.length_cons, List.range_succ_eq_map, List.map_cons, List.map_map, List.sum_cons, List.flatten_cons, List.map_append, List.sum_append, ← ih]
    have : (loadOf w (a :: d) ∘ Nat.succ) = loadOf w d := by
      funext i; simp [loadOf]
    rw [this]
    simp [loadOf]

theorem min_le_total (w : ι → K) (d : List (List ι)) (c : K) (h : ∀ j, j < d.length → c ≤ loadOf w d j) : (d.length : K) * c ≤ (d.flatten.map w).sum := by
  rw [← sum_loads]
  have : ∀ (l : List Nat), (∀ j ∈ l, c ≤ loadOf w d j) → (l.length : K) * c ≤ (l.map (loadOf w d)).sum := by
    intro l
    induction l with
    | nil => simp
    | cons x l ih =>
      intro hl
      have h1 := ih (fun j hj => hl j (by simp [hj]))
      have h2 := hl x (by simp)
      simp only [List.length_cons, List.map_cons, List.sum_cons]; push_cast; linarith
  have := this (List.range d.length) (fun j hj => h j (List.mem_range.1 hj))
  simpa using this

/-- lists without empty ones: at least `2 n - (number of jobs)` have exactly one job -/
theorem singles_count (d : List (List ι)) (hne : ∀ l ∈ d, l ≠ []) : 2 * d.length ≤ d.flatten.length + (d.filter (fun l => l.length = 1)).length := by
  induction d with
  | nil => simp
  | cons a d ih =>
    have h1 := ih (fun l hl => hne l (by simp [hl]))
    have h2 : 0 < a.length := List.length_pos_of_ne_nil (hne a (by simp))
    rw [List.flatten_cons, List.length_append, List.filter_cons]
    split
    · simp only [List.length_cons]; omega
    · rename_i h; simp at h; simp only [List.length_cons]; omega

/-- the jobs that are alone -/
def singles (d : List (List ι)) : List ι := (d.filter (fun l => l.length = 1)).flatten

theorem mem_singles (d : List (List ι)) (y : ι) : y ∈ singles d ↔ [y] ∈ d := by
  unfold singles
  rw [List.mem_flatten]
  constructor
  · rintro ⟨l, hl, hy⟩
    obtain ⟨h1, h2⟩ := List.mem_filter.1 hl
    simp only [decide_eq_true_eq, List.length_eq_one_iff] at h2
    obtain ⟨z, rfl⟩ := h2
    rw [List.mem_singleton] at hy; subst hy; exact h1
  · intro h; exact ⟨[y], List.mem_filter.2 ⟨h, by simp⟩, by simp⟩

theorem singles_length (d : List (List ι)) : (singles d).length = (d.filter (fun l => l.length = 1)).length := by
  unfold singles
  have : ∀ (e : List (List ι)), (∀ l ∈ e, l.length = 1) → e.flatten.length = e.length := by
    intro e
    induction e with
    | nil => simp
    | cons a e ih =>
      intro h
      rw [List.flatten_cons, List.length_append, ih (fun l hl => h l (by simp [hl])), h a (by simp), List.length_cons]; omega
  apply this
  intro l hl
  simpa using (List.mem_filter.1 hl).2

theorem singles_sublist (d : List (List ι)) : (singles d).Sublist d.flatten := by
  unfold singles
  exact List.filter_sublist.flatten

/-- counting: if every machine of the other assignment has at most two of the jobs `J` (one more than those on the machines `d`), some job that is alone in `d` shares its machine there -/
theorem exists_shared (n : Nat) (d : List (List ι)) (hl : d.length = n) (hne : ∀ l ∈ d, l ≠ []) (J : List ι) (hJ : J.Nodup) (hlen : J.length = d.flatten.length + 1)
    (hsub : ∀ y ∈ d.flatten, y ∈ J) (hnd : d.flatten.Nodup) (g : ι → Nat) (hg : ∀ y ∈ J, g y < n) (h2 : ∀ m, m < n → (J.filter (fun y => g y = m)).length ≤ 2) :
    ∃ y z, [y] ∈ d ∧ z ∈ J ∧ z ≠ y ∧ g z = g y := by
  by_contra hcon
  push Not at hcon
  set S := (singles d).toFinset with hS
  have hSmem : ∀ y, y ∈ S ↔ [y] ∈ d := by intro y; rw [hS, List.mem_toFinset, mem_singles]
  have hScard : S.card = (d.filter (fun l => l.length = 1)).length := by
    rw [hS, List.toFinset_card_of_nodup (hnd.sublist (singles_sublist d)), singles_length]
  have hSJ : ∀ y ∈ S, y ∈ J := by
    intro y hy
    exact hsub y ((singles_sublist d).subset (by rw [hS, List.mem_toFinset] at hy; exact hy))
  have hinj : Set.InjOn g S := by
    intro a ha b hb hab
    by_contra hne'
    exact hcon b a ((hSmem b).1 hb) (hSJ a ha) hne' hab
  have hfib : J.toFinset.card = ∑ m ∈ Finset.range n, (J.toFinset.filter (fun y => g y = m)).card :=
    Finset.card_eq_sum_card_fiberwise (fun y hy => by
      have : y ∈ J := by simpa using hy
      simpa using hg y this)
  have hle : ∀ m ∈ Finset.range n, (J.toFinset.filter (fun y => g y = m)).card + (if m ∈ S.image g then 1 else 0) ≤ 2 := by
    intro m hm
    split
    · rename_i h
      obtain ⟨y, hy, rfl⟩ := Finset.mem_image.1 h
      have : J.toFinset.filter (fun x => g x = g y) ⊆ {y} := by
        intro x hx
        obtain ⟨h3, h4⟩ := Finset.mem_filter.1 hx
        rw [Finset.mem_singleton]
        by_contra hxy
        exact hcon y x ((hSmem y).1 hy) (by simpa using h3) hxy h4
      have := Finset.card_le_card this
      simp at this; omega
    · have h3 := h2 m (Finset.mem_range.1 hm)
      have : (J.toFinset.filter (fun y => g y = m)).card = (J.filter (fun y => g y = m)).length := by
        rw [← List.toFinset_card_of_nodup (hJ.filter _), List.toFinset_filter]; simp
      omega
  have hsum := Finset.sum_le_sum hle
  rw [Finset.sum_add_distrib, ← hfib] at hsum
  have himg : ∑ m ∈ Finset.range n, (if m ∈ S.image g then 1 else 0) = S.card := by
    rw [← Finset.card_image_of_injOn hinj, ← Finset.sum_filter, ← Finset.card_eq_sum_ones]
    congr 1
    ext m
    rw [Finset.mem_filter, and_iff_right_iff_imp]
    intro hm
    obtain ⟨y, hy, rfl⟩ := Finset.mem_image.1 hm
    exact Finset.mem_range.2 (hg y (hSJ y hy))
  rw [himg, hScard, List.toFinset_card_of_nodup hJ, Finset.sum_const, Finset.card_range] at hsum
  simp only [nsmul_eq_mul, Nat.cast_id] at hsum
  have := singles_count d hne
  omega

theorem sum_ge_three (w : ι → K) (c : K) (l : List ι) (h : ∀ y ∈ l, c ≤ w y) (hc : 0 ≤ c) (hl : 3 ≤ l.length) : 3 * c ≤ (l.map w).sum := by
  match l, hl with
  | a :: b :: e :: l, _ =>
    have h1 := h a (by simp)
    have h2 := h b (by simp)
    have h3 := h e (by simp)
    have h4 : 0 ≤ (l.map w).sum := List.sum_nonneg (by
      intro x hx
      obtain ⟨y, hy, rfl⟩ := List.mem_map.1 hx
      have := h y (by simp [hy]); linarith)
    simp only [List.map_cons, List.sum_cons]; linarith

/-- **the step** -/
theorem lpt_step (n : Nat) (hn : 0 < n) (w : ι → K) (jobs : List ι) (hjn : jobs.Nodup) (hw : ∀ x ∈ jobs, 0 ≤ w x) (g : ι → Nat) (hg : ∀ y ∈ jobs, g y < n) (T : K)
    (hT : ∀ m, m < n → ((jobs.filter (fun y => g y = m)).map w).sum ≤ T) (done : List ι) (x : ι) (hnd : (done ++ [x]).Nodup) (hsub : ∀ y ∈ done ++ [x], y ∈ jobs)
    (hmin : ∀ y ∈ done, w x ≤ w y) (d : List (List ι)) (hl : d.length = n) (hp : d.flatten.Perm done) (i : Nat) (hi : ∀ j, j < n → loadOf w d i ≤ loadOf w d j) :
    3 * (n : K) * (loadOf w d i + w x) ≤ (4 * n - 1) * T := by
  have hxj : x ∈ jobs := hsub x (by simp)
  have hx0 := hw x hxj
  have hn1 : (1 : K) ≤ n := by exact_mod_cast hn
  -- sums of the jobs on a machine of the other assignment
  have hJT : ∀ (l : List ι), l.Nodup → (∀ y ∈ l, y ∈ jobs) → ∀ m, m < n → (∀ y ∈ l, g y = m) → (l.map w).sum ≤ T := by
    intro l hln hls m hm hlm
    have hsp : List.Subperm l (jobs.filter (fun y => g y = m)) :=
      List.subperm_of_subset hln (fun y hy => List.mem_filter.2 ⟨hls y hy, by simpa using hlm y hy⟩)
    obtain ⟨l', hp', hs'⟩ := hsp
    rw [← (hp'.map w).sum_eq]
    exact (sum_sublist w hs' (fun y hy => hw y (List.mem_filter.1 hy).1)).trans (hT m hm)
  have hxT : w x ≤ T := by simpa using hJT [x] (by simp) (by simpa using hxj) (g x) (hg x hxj) (by simp)
  have hT0 : 0 ≤ T := le_trans hx0 hxT
  have hdone : ∀ y ∈ done, y ∈ jobs := fun y hy => hsub y (by simp [hy])
  by_cases h3 : 3 * w x ≤ T
  · -- small job
    have h4 : (n : K) * loadOf w d i ≤ (done.map w).sum := by
      rw [← (hp.map w).sum_eq, ← hl]
      exact min_le_total w d _ (fun j hj => hi j (by omega))
    have h5 : ((done ++ [x]).map w).sum ≤ n * T := by
      have e : ((done ++ [x]).map w).sum = ∑ m ∈ Finset.range n, (((done ++ [x]).filter (fun y => g y = m)).map w).sum := by
        have : ∀ m, (((done ++ [x]).filter (fun y => g y = m)).map w).sum = ∑ y ∈ (done ++ [x]).toFinset.filter (fun y => g y = m), w y := by
          intro m
          rw [sum_nodup w _ (hnd.filter _), List.toFinset_filter]
          simp
        simp only [this]
        rw [sum_nodup w _ hnd]
        exact (Finset.sum_fiberwise_of_maps_to (fun y hy => by
          have : y ∈ done ++ [x] := by rwa [List.mem_toFinset] at hy
          simpa using hg y (hsub y this)) _).symm
      rw [e]
      calc _ ≤ ∑ _m ∈ Finset.range n, T := Finset.sum_le_sum (fun m hm => hJT _ (hnd.filter _) (fun y hy => hsub y (List.mem_filter.1 hy).1) m (Finset.mem_range.1 hm)
              (fun y hy => by simpa using (List.mem_filter.1 hy).2))
        _ = n * T := by simp
    rw [List.map_append, List.sum_append] at h5
    simp only [List.map_cons, List.map_nil, List.sum_cons, List.sum_nil, add_zero] at h5
    nlinarith
  · push Not at h3
    suffices h : loadOf w d i + w x ≤ T by nlinarith
    by_cases hemp : ∃ l ∈ d, l = []
    · obtain ⟨l, hlm, rfl⟩ := hemp
      obtain ⟨j, hj, he⟩ := List.getElem_of_mem hlm
      have := hi j (by omega)
      have h0 : loadOf w d j = 0 := by unfold loadOf; rw [List.getElem?_eq_getElem hj, he]; simp
      rw [h0] at this; linarith
    · push Not at hemp
      obtain ⟨y, z, hy, hz, hzy, hgz⟩ := exists_shared n d hl hemp (done ++ [x]) hnd (by rw [List.length_append, hp.length_eq]; rfl) (fun y hy => by
          rw [List.mem_append]; exact .inl (hp.mem_iff.1 hy)) (hp.nodup_iff.2 (List.nodup_append.1 hnd).1) g (fun y hy => hg y (hsub y hy)) (by
        intro m hm
        by_contra hgt
        push Not at hgt
        have hs := hJT ((done ++ [x]).filter (fun y => g y = m)) (hnd.filter _) (fun y hy => hsub y (List.mem_filter.1 hy).1) m hm (fun y hy => by simpa using (List.mem_filter.1 hy).2)
        have := sum_ge_three w (w x) _ (fun y hy => by
          rcases List.mem_append.1 (List.mem_filter.1 hy).1 with h | h
          · exact hmin y h
          · rw [List.mem_singleton] at h; rw [h]) hx0 hgt
        linarith)
      obtain ⟨j, hj, he⟩ := List.getElem_of_mem hy
      have hlj : loadOf w d j = w y := by unfold loadOf; rw [List.getElem?_eq_getElem hj, he]; simp
      have h6 := hi j (by omega)
      rw [hlj] at h6
      have hyd : y ∈ done := hp.mem_iff.1 (List.mem_flatten.2 ⟨[y], hy, by simp⟩)
      have hwz : w x ≤ w z := by
        rcases List.mem_append.1 hz with h | h
        · exact hmin z h
        · rw [List.mem_singleton] at h; rw [h]
      have h7 := hJT [y, z] (by simp [Ne.symm hzy]) (by
        intro u hu
        simp only [List.mem_cons, List.not_mem_nil, or_false] at hu
        rcases hu with rfl | rfl
        · exact hdone _ hyd
        · exact hsub _ hz) (g y) (hg y (hdone y hyd)) (by
        intro u hu
        simp only [List.mem_cons, List.not_mem_nil, or_false] at hu
        rcases hu with rfl | rfl
        · rfl
        · exact hgz)
      simp only [List.map_cons, List.map_nil, List.sum_cons, List.sum_nil, add_zero] at h7
      linarith

end Lpt
end Redrock
