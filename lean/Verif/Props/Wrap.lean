import Verif.Model.Wrap
import Verif.Lemmas.Lpt
import Verif.Lemmas.Strings
import Verif.Props.Work
import Verif.Props.ArchetypeBest
import Mathlib.Algebra.Order.Field.Rat

/-!
C94: `weighted_partition` of `wrap-redrock`; C02: `distribute_work` is within 4/3 of the best possible distribution.
-/
namespace Redrock
set_option linter.unusedSectionVars false

section
variable {K : Type} [Field K] [LinearOrder K] [IsStrictOrderedRing K] {ι : Type}

/-- **C02** with equal capacities no other distribution of the same units over the same number of processes is much better: the heaviest process gets at most `4/3 - 1/(3 n)` times the weight of the heaviest
process (`T`) in any other assignment `g`. -/
theorem C02_near_optimal (nproc : Nat) (ids : List ι) (hnd : ids.Nodup) (weights : ι → K) (cap : K) (hn : 0 < nproc) (hcap : 0 < cap) (hw : ∀ x ∈ ids, 0 ≤ weights x)
    (g : ι → Nat) (hg : ∀ x ∈ ids, g x < nproc) (T : K) (hT : ∀ m, m < nproc → ((ids.filter (fun y => g y = m)).map weights).sum ≤ T) :
    ∃ dist, distributeWork nproc ids weights (List.replicate nproc cap) = .ok dist ∧ ∀ a ∈ dist, (a.map weights).sum ≤ (4 / 3 - 1 / (3 * nproc)) * T := by
  classical
  have hperm : (sortByWeightDesc weights ids).Perm ids := pySort_perm _ ids
  have hn0 : (0 : K) < nproc := by exact_mod_cast hn
  have hn1 : (1 : K) ≤ nproc := by exact_mod_cast hn
  have hT0 : 0 ≤ T := by
    refine le_trans ?_ (hT 0 hn)
    apply List.sum_nonneg
    intro v hv
    obtain ⟨y, hy, rfl⟩ := List.mem_map.1 hv
    exact hw y (List.mem_filter.1 hy).1
  have hdesc : (sortByWeightDesc weights ids).Pairwise (fun a b => weights b ≤ weights a) := by
    have := pySort_pairwise (fun a b => decide (weights b ≤ weights a)) (fun a b c h1 h2 => by simp only [decide_eq_true_eq] at *; exact h2.trans h1)
      (fun a b => by simp only [decide_eq_true_eq]; exact le_total _ _) ids
    refine this.imp ?_
    intro a b h; simpa using h
  obtain ⟨d, h1, h2, _, h3⟩ := distributeWork_induction nproc (List.replicate nproc cap) (by simp) hn
    (by intro c hc; rw [(List.mem_replicate.1 hc).2]; exact hcap.ne') weights ids
    (fun done d => d.flatten.Perm done ∧ ∀ i, i < nproc → 3 * (nproc : K) * loadOf weights d i ≤ (4 * nproc - 1) * T)
    ⟨by simp, by intro i hi; simp [loadOf, hi]; nlinarith⟩
    (by
      intro d1 x d i hpre hd hi hP hk
      obtain ⟨hp, hload⟩ := hP
      refine ⟨(flatten_modify_perm d i (hd ▸ hi) x).trans (hp.append_right _), ?_⟩
      have hle : ∀ j, j < nproc → loadOf weights d i ≤ loadOf weights d j := by
        intro j hj
        have := hk j hj
        simp only [keyOf, hi, hj, List.getElem?_replicate, if_true, Option.getD_some] at this
        have h := Prod.Lex.monotone_fst _ _ this
        simp only [ofLex_toLex] at h
        have := (div_le_div_iff_of_pos_right hcap).1 h
        linarith
      have hpd : (d1 ++ [x]).Pairwise (fun a b => weights b ≤ weights a) := hdesc.sublist hpre.sublist
      have hstep := Lpt.lpt_step nproc hn weights ids hnd hw g hg T hT d1 x ((hperm.nodup_iff.2 hnd).sublist hpre.sublist)
        (fun y hy => hperm.mem_iff.1 (hpre.subset hy)) (fun y hy => (List.pairwise_append.1 hpd).2.2 y hy x (by simp)) d hd hp i hle
      intro j hj
      rw [loadOf_modify _ _ _ (hd ▸ hi)]
      split
      · rename_i e; subst e; exact hstep
      · exact hload j hj)
  refine ⟨d, h1, ?_⟩
  intro a ha
  obtain ⟨i, hi, rfl⟩ := List.getElem_of_mem ha
  have := h3 i (h2 ▸ hi)
  have e : loadOf weights d i = (d[i].map weights).sum := by simp [loadOf, hi]
  rw [e] at this
  have e2 : (4 / 3 - 1 / (3 * (nproc : K))) * T = ((4 * nproc - 1) * T) / (3 * nproc) := by field_simp
  rw [e2, le_div_iff₀ (by positivity)]
  linarith

/-- five units on two processes: the best distribution has 9 (5 + 4 and 3 + 3 + 3), `distribute_work` gives 10: within 7/6 of it, which is the bound for two processes minus nothing: 7/6 * 9 = 10.5. -/
example : ∃ dist, distributeWork 2 [0, 1, 2, 3, 4] (fun n : Nat => ([5, 4, 3, 3, 3] : List ℚ).getD n 0) (List.replicate 2 1) = .ok dist ∧
    ∀ a ∈ dist, (a.map (fun n : Nat => ([5, 4, 3, 3, 3] : List ℚ).getD n 0)).sum ≤ (4 / 3 - 1 / (3 * (2 : Nat))) * 9 :=
  C02_near_optimal 2 [0, 1, 2, 3, 4] (by decide) _ 1 (by decide) (by norm_num) (by decide +kernel) (fun i => if i ≤ 1 then 0 else 1) (by decide) 9 (by decide +kernel)

namespace Wrap

theorem wp_fold (w : Nat → K) (n : Nat) (hn : 0 < n) (P : List Nat → List (List Nat) → Prop) (all : List Nat)
    (hstep : ∀ d1 x d i, d1 ++ [x] <+: all → d.length = n → i < n → P d1 d → (∀ j, j < n → loadOf w d i ≤ loadOf w d j) → P (d1 ++ [x]) (d.modify i (fun l => l ++ [x]))) :
    ∀ (todo done : List Nat) (d : List (List Nat)), done ++ todo = all → d.length = n → P done d →
    ∃ d', todo.foldlM (wpStep w) (d, (List.range n).map (loadOf w d)) = .ok (d', (List.range n).map (loadOf w d')) ∧ d'.length = n ∧ P all d' := by
  intro todo
  induction todo with
  | nil => intro done d e hl hP; exact ⟨d, rfl, hl, by simpa [← e] using hP⟩
  | cons x todo ih =>
    intro done d e hl hP
    obtain ⟨i, hi, h1, h2, _⟩ := npArgmin_first ((List.range n).map (loadOf w d)) (by simp; omega)
    have hin : i < n := by simpa using hi
    have hmin : ∀ j, j < n → loadOf w d i ≤ loadOf w d j := by
      intro j hj
      have := h2 (loadOf w d j) (List.mem_map.2 ⟨j, List.mem_range.2 hj, rfl⟩)
      simpa using this
    have hs : wpStep w (d, (List.range n).map (loadOf w d)) x = .ok (d.modify i (fun l => l ++ [x]), (List.range n).map (loadOf w (d.modify i (fun l => l ++ [x])))) := by
      unfold wpStep
      simp only
      rw [h1]
      simp only [bind, Except.bind, pure, Except.pure]
      congr 2
      apply List.ext_getElem
      · simp
      · intro j hj1 hj2
        simp only [List.getElem_map, List.getElem_range]
        rw [loadOf_modify w d i (hl ▸ hin), List.getElem_modify]
        simp
    rw [List.foldlM_cons, hs]
    simp only [bind, Except.bind]
    exact ih (done ++ [x]) _ (by rw [← e]; simp) (by simpa using hl) (hstep done x d i ⟨todo, by rw [← e]; simp⟩ hl hin hP hmin)

theorem wp_induction (w : Nat → K) (n : Nat) (hn : 0 < n) (order : List Nat) (P : List Nat → List (List Nat) → Prop) (h0 : P [] (List.replicate n []))
    (hstep : ∀ d1 x d i, d1 ++ [x] <+: order → d.length = n → i < n → P d1 d → (∀ j, j < n → loadOf w d i ≤ loadOf w d j) → P (d1 ++ [x]) (d.modify i (fun l => l ++ [x]))) :
    ∃ d, weightedPartition order w n = .ok (d, d.map (fun g => (g.map w).sum)) ∧ d.length = n ∧ P order d := by
  obtain ⟨d, h1, h2, h3⟩ := wp_fold w n hn P order hstep order [] (List.replicate n []) rfl (by simp) h0
  refine ⟨d, ?_, h2, h3⟩
  unfold weightedPartition
  have e1 : (List.range n).map (loadOf w (List.replicate n [])) = List.replicate n (0 : K) := by
    apply List.ext_getElem
    · simp
    · intro j hj1 hj2
      have : j < n := by simpa using hj1
      simp [loadOf, this]
  have e2 : (List.range n).map (loadOf w d) = d.map (fun g => (g.map w).sum) := by
    apply List.ext_getElem
    · simp [h2]
    · intro j hj1 hj2
      have : j < d.length := by simpa using hj2
      simp [loadOf, this]
  rw [e1, e2] at h1
  exact h1

/-- **C94** `weighted_partition`: for any weights and at least one group, every index is in exactly one group, and the second result is the total weight of each group. -/
theorem C94_partition (w : Nat → K) (n len : Nat) (hn : 0 < n) (order : List Nat) (ho : order.Perm (List.range len)) :
    ∃ groups, weightedPartition order w n = .ok (groups, groups.map (fun g => (g.map w).sum)) ∧ groups.length = n ∧ groups.flatten.Perm (List.range len) := by
  obtain ⟨d, h1, h2, h3⟩ := wp_induction w n hn order (fun done d => d.flatten.Perm done) (by simp)
    (fun d1 x d i _ hd hi hP _ => (flatten_modify_perm d i (hd ▸ hi) x).trans (hP.append_right _))
  exact ⟨d, h1, h2, h3.trans ho⟩

/-- **C94** within each group the weights go from largest to smallest. -/
theorem C94_sorted (w : Nat → K) (n : Nat) (hn : 0 < n) (order : List Nat) (hs : order.Pairwise (fun a b => w b ≤ w a)) :
    ∃ groups gw, weightedPartition order w n = .ok (groups, gw) ∧ ∀ g ∈ groups, g.Pairwise (fun a b => w b ≤ w a) := by
  obtain ⟨d, h1, h2, h3, _⟩ := wp_induction w n hn order (fun done d => (∀ g ∈ d, g.Pairwise (fun a b => w b ≤ w a)) ∧ ∀ g ∈ d, ∀ y ∈ g, y ∈ done)
    ⟨by intro g hg; rw [(List.mem_replicate.1 hg).2]; simp, by intro g hg; rw [(List.mem_replicate.1 hg).2]; simp⟩
    (by
      intro d1 x d i hpre hd hi hP _
      obtain ⟨hP1, hP2⟩ := hP
      have hpd := hs.sublist hpre.sublist
      have hx : ∀ y ∈ d1, w x ≤ w y := fun y hy => (List.pairwise_append.1 hpd).2.2 y hy x (by simp)
      have hmem : ∀ g ∈ d.modify i (fun l => l ++ [x]), g ∈ d ∨ ∃ l ∈ d, g = l ++ [x] := by
        intro g hg
        obtain ⟨j, hj, rfl⟩ := List.getElem_of_mem hg
        rw [List.getElem_modify]
        split
        · exact .inr ⟨_, List.getElem_mem _, rfl⟩
        · exact .inl (List.getElem_mem _)
      constructor
      · intro g hg
        rcases hmem g hg with h | ⟨l, hl, rfl⟩
        · exact hP1 g h
        · rw [List.pairwise_append]
          refine ⟨hP1 l hl, by simp, ?_⟩
          intro a ha b hb
          rw [List.mem_singleton] at hb; subst hb
          exact hx a (hP2 l hl a ha)
      · intro g hg y hy
        rcases hmem g hg with h | ⟨l, hl, rfl⟩
        · exact List.mem_append_left _ (hP2 g h y hy)
        · rcases List.mem_append.1 hy with h' | h'
          · exact List.mem_append_left _ (hP2 l hl y h')
          · exact List.mem_append_right _ h')
  exact ⟨d, _, h1, h3⟩

/-- **C94** the groups are close to equal: two groups differ by at most the largest weight. -/
theorem C94_balanced (w : Nat → K) (n len : Nat) (hn : 0 < n) (order : List Nat) (ho : order.Perm (List.range len)) (M : K) (hM : 0 ≤ M) (hw : ∀ i, i < len → 0 ≤ w i ∧ w i ≤ M) :
    ∃ groups gw, weightedPartition order w n = .ok (groups, gw) ∧ ∀ a ∈ gw, ∀ b ∈ gw, a - b ≤ M := by
  obtain ⟨d, h1, h2, h3⟩ := wp_induction w n hn order (fun _ d => ∀ i j, i < n → j < n → loadOf w d i - loadOf w d j ≤ M) (by intro i j hi hj; simp [loadOf, hi, hj, hM])
    (by
      intro d1 x d i hpre hd hi hP hle a b ha hb
      obtain ⟨hx0, hxM⟩ := hw x (List.mem_range.1 (ho.mem_iff.1 (hpre.subset (by simp))))
      rw [loadOf_modify _ _ _ (hd ▸ hi), loadOf_modify _ _ _ (hd ▸ hi)]
      have h1 := hP a b ha hb
      have h2 := hle b hb
      have h3 := hle a ha
      split <;> split <;> first | linarith | (subst_vars; linarith))
  refine ⟨d, _, h1, ?_⟩
  intro a ha b hb
  obtain ⟨g, hg, rfl⟩ := List.mem_map.1 ha
  obtain ⟨g', hg', rfl⟩ := List.mem_map.1 hb
  obtain ⟨i, hi, rfl⟩ := List.getElem_of_mem hg
  obtain ⟨j, hj, rfl⟩ := List.getElem_of_mem hg'
  have := h3 i j (h2 ▸ hi) (h2 ▸ hj)
  simpa [loadOf, hi, hj] using this

/-- **C94** and no other grouping into as many groups is much faster: the longest group takes at most `4/3 - 1/(3 n)` times as long as the longest group (`T`) of any other assignment `g`. -/
theorem C94_near_optimal (w : Nat → K) (n len : Nat) (hn : 0 < n) (order : List Nat) (ho : order.Perm (List.range len)) (hs : order.Pairwise (fun a b => w b ≤ w a)) (hw : ∀ i, i < len → 0 ≤ w i)
    (g : Nat → Nat) (hg : ∀ i, i < len → g i < n) (T : K) (hT : ∀ m, m < n → (((List.range len).filter (fun i => g i = m)).map w).sum ≤ T) :
    ∃ groups gw, weightedPartition order w n = .ok (groups, gw) ∧ ∀ a ∈ gw, a ≤ (4 / 3 - 1 / (3 * n)) * T := by
  have hn0 : (0 : K) < n := by exact_mod_cast hn
  have hn1 : (1 : K) ≤ n := by exact_mod_cast hn
  have hT0 : 0 ≤ T := by
    refine le_trans ?_ (hT 0 hn)
    apply List.sum_nonneg
    intro v hv
    obtain ⟨y, hy, rfl⟩ := List.mem_map.1 hv
    exact hw y (List.mem_range.1 (List.mem_filter.1 hy).1)
  obtain ⟨d, h1, h2, _, h3⟩ := wp_induction w n hn order (fun done d => d.flatten.Perm done ∧ ∀ i, i < n → 3 * (n : K) * loadOf w d i ≤ (4 * n - 1) * T)
    ⟨by simp, by intro i hi; simp [loadOf, hi]; nlinarith⟩
    (by
      intro d1 x d i hpre hd hi hP hle
      obtain ⟨hp, hload⟩ := hP
      refine ⟨(flatten_modify_perm d i (hd ▸ hi) x).trans (hp.append_right _), ?_⟩
      have hpd := hs.sublist hpre.sublist
      have hstep := Lpt.lpt_step n hn w (List.range len) List.nodup_range (fun x hx => hw x (List.mem_range.1 hx)) g (fun x hx => hg x (List.mem_range.1 hx)) T hT d1 x
        ((ho.nodup_iff.2 List.nodup_range).sublist hpre.sublist) (fun y hy => ho.mem_iff.1 (hpre.subset hy)) (fun y hy => (List.pairwise_append.1 hpd).2.2 y hy x (by simp)) d hd hp i hle
      intro j hj
      rw [loadOf_modify _ _ _ (hd ▸ hi)]
      split
      · rename_i e; subst e; exact hstep
      · exact hload j hj)
  refine ⟨d, _, h1, ?_⟩
  intro a ha
  obtain ⟨gr, hgr, rfl⟩ := List.mem_map.1 ha
  obtain ⟨i, hi, rfl⟩ := List.getElem_of_mem hgr
  have := h3 i (h2 ▸ hi)
  have e : loadOf w d i = (d[i].map w).sum := by simp [loadOf, hi]
  rw [e] at this
  have e2 : (4 / 3 - 1 / (3 * (n : K))) * T = ((4 * n - 1) * T) / (3 * n) := by field_simp
  rw [e2, le_div_iff₀ (by positivity)]
  linarith

/-- **C94** no groups: `ValueError` if there is anything to distribute. -/
theorem C94_no_groups (w : Nat → K) (order : List Nat) (hne : order ≠ []) : weightedPartition order w 0 = .error .valueError := by
  cases order with
  | nil => exact absurd rfl hne
  | cons x xs => rfl

/-- the conditions are met: five files on two nodes -/
example : ∃ groups gw, weightedPartition [0, 1, 4, 3, 2] (fun n : Nat => ([5, 4, 3, 3, 3] : List ℚ).getD n 0) 2 = .ok (groups, gw) ∧ ∀ a ∈ gw, a ≤ (4 / 3 - 1 / (3 * (2 : Nat))) * 9 :=
  C94_near_optimal _ 2 5 (by decide) _ (by decide) (by decide +kernel) (by decide +kernel) (fun i => if i ≤ 1 then 0 else 1) (by decide) 9 (by decide +kernel)

example : weightedPartition [0, 1, 4, 3, 2] (fun n : Nat => ([5, 4, 3, 3, 3] : List ℚ).getD n 0) 2 = .ok ([[0, 3], [1, 4, 2]], [8, 10]) := by decide +kernel

end Wrap
end
end Redrock
