import Verif.Model.Work
import Verif.Lemmas.Py
import Mathlib.Tactic.Linarith
import Mathlib.Tactic.FieldSimp
import Mathlib.Algebra.BigOperators.Group.List.Basic
import Mathlib.Algebra.Order.BigOperators.Group.List

namespace Redrock
set_option linter.unusedSectionVars false
variable {K : Type} [Field K] [LinearOrder K] {ι : Type}

/-- load of process `i` in a distribution -/
def loadOf (w : ι → K) (d : List (List ι)) (i : Nat) : K := ((d[i]?.getD []).map w).sum

/-- sort key of process `i` for the next unit of weight `wi` -/
def keyOf (caps : List K) (w : ι → K) (d : List (List ι)) (wi : K) (i : Nat) : K ×ₗ (K ×ₗ Nat) :=
  toLex ((loadOf w d i + wi) / caps[i]?.getD 1, toLex (1 / caps[i]?.getD 1, i))

structure DInv (caps : List K) (w : ι → K) (s : DistState K ι) : Prop where
  lenP : s.processes.length = caps.length
  lenD : s.dist.length = caps.length
  proc : ∀ i, i < caps.length →
    s.processes[i]? = some { id := i, capacity := caps[i]?.getD 1, load := loadOf w s.dist i }

theorem loadOf_modify (w : ι → K) (d : List (List ι)) (i : Nat) (hi : i < d.length) (x : ι) (j : Nat) :
    loadOf w (d.modify i (fun l => l ++ [x])) j = if i = j then loadOf w d j + w x else loadOf w d j := by
  unfold loadOf
  rw [List.getElem?_modify]
  by_cases h : i = j
  · subst h
    simp [List.getElem?_eq_getElem hi]
  · simp [h]

theorem distStep_spec (caps : List K) (hne : caps ≠ []) (hpos : ∀ c ∈ caps, c ≠ 0) (w : ι → K)
    (s : DistState K ι) (hs : DInv caps w s) (x : ι) :
    ∃ i s', i < caps.length ∧ distStep w s x = .ok s' ∧ DInv caps w s' ∧
      s'.dist = s.dist.modify i (fun l => l ++ [x]) ∧
      ∀ j, j < caps.length → keyOf caps w s.dist (w x) i ≤ keyOf caps w s.dist (w x) j := by
  have hcap : ∀ j, j < caps.length → (caps[j]?.getD 1) ∈ caps := by
    intro j hj; rw [List.getElem?_eq_getElem hj]; simp
  have hmem : ∀ p ∈ s.processes, ∃ j, j < caps.length ∧
      p = { id := j, capacity := caps[j]?.getD 1, load := loadOf w s.dist j } := by
    intro p hp
    obtain ⟨j, hj, rfl⟩ := List.getElem_of_mem hp
    have hj' : j < caps.length := hs.lenP ▸ hj
    have := hs.proc j hj'
    rw [List.getElem?_eq_getElem hj] at this
    exact ⟨j, hj', Option.some.inj this⟩
  have hne' : s.processes ≠ [] := by
    intro h; have := hs.lenP; rw [h] at this
    exact hne (List.length_eq_zero_iff.1 this.symm)
  obtain ⟨m, hm1, hm2, hm3⟩ := pyMinBy_spec (Proc.key (w x)) s.processes hne'
  obtain ⟨i, hi, hi1, hi2⟩ := pyIndex_spec s.processes m hm2
  have hi' : i < caps.length := hs.lenP ▸ hi
  have hiD : i < s.dist.length := hs.lenD.symm ▸ hi'
  have hz : s.processes.any (fun p => decide (p.capacity = 0)) = false := by
    rw [List.any_eq_false]
    intro p hp
    obtain ⟨j, hj, rfl⟩ := hmem p hp
    simpa using hpos _ (hcap j hj)
  refine ⟨i, ⟨s.dist.modify i (fun l => l ++ [x]),
      s.processes.modify i (fun p => { p with load := p.load + w x })⟩, hi', ?_, ?_, rfl, ?_⟩
  · simp [distStep, hz, hm1, hi1, hiD, bind, Except.bind, pure, Except.pure]
  · refine ⟨by simpa using hs.lenP, by simpa using hs.lenD, ?_⟩
    intro j hj
    rw [List.getElem?_modify, hs.proc j hj, loadOf_modify _ _ _ hiD]
    by_cases h : i = j <;> simp [h]
  · intro j hj
    have h1 := hs.proc i hi'
    rw [List.getElem?_eq_getElem hi, hi2] at h1
    have h1 := Option.some.inj h1
    have h2 := hs.proc j hj
    have h3 := hm3 _ (List.mem_of_getElem? h2)
    rw [h1] at h3
    simpa [Proc.key, keyOf] using h3

theorem dist_fold (caps : List K) (hne : caps ≠ []) (hpos : ∀ c ∈ caps, c ≠ 0) (w : ι → K)
    (P : List ι → List (List ι) → Prop) (todo : List ι) :
    ∀ (done : List ι) (s : DistState K ι), DInv caps w s → P done s.dist →
    (∀ d1 x d i, d1 ++ [x] <+: done ++ todo → d.length = caps.length → i < caps.length → P d1 d →
      (∀ j, j < caps.length → keyOf caps w d (w x) i ≤ keyOf caps w d (w x) j) →
      P (d1 ++ [x]) (d.modify i (fun l => l ++ [x]))) →
    ∃ s', todo.foldlM (distStep w) s = .ok s' ∧ DInv caps w s' ∧ P (done ++ todo) s'.dist := by
  induction todo with
  | nil => intro done s hs h0 _; exact ⟨s, rfl, hs, by simpa using h0⟩
  | cons x todo ih =>
    intro done s hs h0 hstep
    obtain ⟨i, s1, hi, h1, hs1, hd, hk⟩ := distStep_spec caps hne hpos w s hs x
    have hP := hstep done x s.dist i (by simp) hs.lenD hi h0 hk
    rw [← hd] at hP
    obtain ⟨s2, h2, hs2, hP2⟩ := ih (done ++ [x]) s1 hs1 hP (by
      intro d1 y d i hpre; exact hstep d1 y d i (by simpa using hpre))
    refine ⟨s2, ?_, hs2, by simpa using hP2⟩
    simp [List.foldlM_cons, h1, h2, bind, Except.bind]

/-- Induction principle for `distributeWork`. -/
theorem distributeWork_induction (n : Nat) (caps : List K) (hn : caps.length = n) (hn0 : 0 < n)
    (hpos : ∀ c ∈ caps, c ≠ 0) (w : ι → K) (ids : List ι)
    (P : List ι → List (List ι) → Prop) (h0 : P [] (List.replicate n []))
    (hstep : ∀ d1 x d i, d1 ++ [x] <+: sortByWeightDesc w ids → d.length = n → i < n → P d1 d →
      (∀ j, j < n → keyOf caps w d (w x) i ≤ keyOf caps w d (w x) j) →
      P (d1 ++ [x]) (d.modify i (fun l => l ++ [x]))) :
    ∃ d, distributeWork n ids w caps = .ok d ∧ d.length = n ∧ P (sortByWeightDesc w ids) d := by
  subst hn
  have hne : caps ≠ [] := by rintro rfl; simp at hn0
  let s0 : DistState K ι := ⟨List.replicate caps.length [],
    caps.zipIdx.map (fun ci => ({ id := ci.2, capacity := ci.1, load := 0 } : Proc K))⟩
  have hs0 : DInv caps w s0 := by
    refine ⟨by simp [s0], by simp [s0], ?_⟩
    intro i hi
    simp [s0, hi, loadOf]
  obtain ⟨s', h1, h2, h3⟩ := dist_fold caps hne hpos w P (sortByWeightDesc w ids) [] s0 hs0 h0 (by
    intro d1 x d i hpre; exact hstep d1 x d i (by simpa using hpre))
  refine ⟨s'.dist, ?_, h2.lenD, by simpa using h3⟩
  simp only [distributeWork]
  change (do let s ← List.foldlM (distStep w) s0 (sortByWeightDesc w ids); pure s.dist) = _
  rw [h1]; rfl

theorem flatten_modify_perm (d : List (List ι)) (i : Nat) (hi : i < d.length) (x : ι) :
    (d.modify i (fun l => l ++ [x])).flatten.Perm (d.flatten ++ [x]) := by
  induction d generalizing i with
  | nil => simp at hi
  | cons a d ih =>
    cases i with
    | zero =>
      simp only [List.modify_zero_cons, List.flatten_cons]
      rw [List.append_assoc, List.append_assoc]
      exact List.Perm.append_left a (List.perm_append_comm)
    | succ i =>
      simp only [List.modify_succ_cons, List.flatten_cons, List.append_assoc]
      exact List.Perm.append_left a (ih i (by simpa using hi))

theorem flatten_length_le (flags : List Bool) (B : Nat) (d : List (List ι)) (hl : d.length = flags.length)
    (h0 : ∀ i : Nat, flags[i]? = some false → d[i]? = some [])
    (h1 : ∀ (i : Nat) (l : List ι), flags[i]? = some true → d[i]? = some l → l.length ≤ B) :
    d.flatten.length ≤ B * flags.count true := by
  induction flags generalizing d with
  | nil => simp at hl; simp [hl]
  | cons f flags ih =>
    cases d with
    | nil => simp at hl
    | cons l d =>
      have := ih d (by simpa using hl) (fun i h => by simpa using h0 (i+1) (by simpa using h))
        (fun i l' h h' => h1 (i+1) l' (by simpa using h) (by simpa using h'))
      cases f with
      | false =>
        have hl0 := h0 0 (by simp)
        simp only [List.getElem?_cons_zero, Option.some.injEq] at hl0
        subst hl0
        simpa using this
      | true =>
        have hl1 := h1 0 l (by simp) (by simp)
        simp only [List.flatten_cons, List.length_append, List.count_cons_self, Nat.mul_add]
        omega

theorem flatten_length_ge (flags : List Bool) (B : Nat) (d : List (List ι)) (hl : d.length = flags.length)
    (h1 : ∀ (i : Nat) (l : List ι), flags[i]? = some true → d[i]? = some l → B ≤ l.length) :
    B * flags.count true ≤ d.flatten.length := by
  induction flags generalizing d with
  | nil => simp
  | cons f flags ih =>
    cases d with
    | nil => simp at hl
    | cons l d =>
      have := ih d (by simpa using hl)
        (fun i l' h h' => h1 (i+1) l' (by simpa using h) (by simpa using h'))
      cases f with
      | false =>
        have hc : (false :: flags).count true = flags.count true := by simp
        rw [hc, List.flatten_cons, List.length_append]; omega
      | true =>
        have hl1 := h1 0 l (by simp) (by simp)
        simp only [List.flatten_cons, List.length_append, List.count_cons_self, Nat.mul_add]
        omega

theorem loadOf_const (wt : K) (d : List (List ι)) (i : Nat) (l : List ι) (h : d[i]? = some l) :
    loadOf (fun _ => wt) d i = l.length * wt := by
  simp [loadOf, h]

end Redrock
