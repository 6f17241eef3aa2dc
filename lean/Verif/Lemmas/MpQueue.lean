import Verif.Model.MpQueue
import Verif.Lemmas.Mpi

namespace Redrock
set_option linter.unusedSectionVars false

def putBit : WStat → Nat
  | .put => 1 | _ => 0
def exitBit : WStat → Nat
  | .running => 0 | _ => 1
def phaseNum : Phase → Nat
  | .progress => 0 | .collect => 1 | .returned => 2

structure MpInv (c : MpConf) (s : MpState) : Prop where
  ticks : s.tot + s.qprog = ∑ i ∈ Finset.range c.m, s.ticked i
  outs : s.got + s.qout.length = ∑ i ∈ Finset.range c.m, putBit (s.stat i)
  ticked_le : ∀ i, i < c.m → s.ticked i ≤ c.tasks i
  put_ok : ∀ i, i < c.m → s.stat i = .put → s.ticked i = c.tasks i ∧ c.fail i ≠ some (c.tasks i)
  fail_ge : ∀ i, i < c.m → ∀ k, c.fail i = some k → k ≤ c.tasks i → s.ticked i ≤ k
  tot_le : s.tot ≤ c.ntarget
  past : s.phase ≠ .progress → s.tot = c.ntarget
  ret : s.phase = .returned → c.m ≤ s.got

theorem MpInv.init (c : MpConf) : MpInv c MpState.init := by
  constructor <;> simp [MpState.init, putBit]

theorem MpInv.step (c : MpConf) (s t : MpState) (hs : MpInv c s) (h : MpStep c s t) : MpInv c t := by
  cases h with
  | tick i hi hr ht hf =>
    have hsum := sum_one_more c.m i hi s.ticked (upd s.ticked i (s.ticked i + 1)) (by simp)
      (fun x hx => by simp [upd, hx])
    refine ⟨?_, hs.outs, ?_, ?_, ?_, hs.tot_le, hs.past, hs.ret⟩
    · simp only; rw [hsum, ← hs.ticks]; omega
    · intro j hj; simp only [upd]; split
      · subst_vars; omega
      · exact hs.ticked_le j hj
    · intro j hj hp
      simp only at hp
      have hne : j ≠ i := by rintro rfl; rw [hr] at hp; simp at hp
      simpa [upd, hne] using hs.put_ok j hj hp
    · intro j hj k hk hkt
      simp only [upd]; split
      · rename_i hji; subst hji
        have h1 := hs.fail_ge j hj k hk hkt
        have : s.ticked j ≠ k := by rintro rfl; exact hf hk
        omega
      · exact hs.fail_ge j hj k hk hkt
  | put i hi hr ht hf =>
    have hsum := sum_one_more c.m i hi (fun x => putBit (s.stat x)) (fun x => putBit (upd s.stat i .put x))
      (by simp [hr, putBit]) (fun x hx => by simp [upd, hx])
    refine ⟨hs.ticks, ?_, hs.ticked_le, ?_, hs.fail_ge, hs.tot_le, hs.past, hs.ret⟩
    · simp only [List.length_append, List.length_singleton]; rw [hsum, ← hs.outs]; omega
    · intro j hj hp
      simp only at hp ⊢
      by_cases hji : j = i
      · subst hji; rw [ht] at hf; exact ⟨ht, hf⟩
      · exact hs.put_ok j hj (by simpa [upd, hji] using hp)
  | crash i hi hr hf =>
    refine ⟨hs.ticks, ?_, hs.ticked_le, ?_, hs.fail_ge, hs.tot_le, hs.past, hs.ret⟩
    · simp only; rw [hs.outs]
      apply Finset.sum_congr rfl
      intro x _
      by_cases hx : x = i
      · subst hx; simp [hr, putBit]
      · simp [upd, hx]
    · intro j hj hp
      simp only at hp
      by_cases hji : j = i
      · subst hji; simp at hp
      · exact hs.put_ok j hj (by simpa [upd, hji] using hp)
  | readProgress hp ht hq =>
    refine ⟨?_, hs.outs, hs.ticked_le, hs.put_ok, hs.fail_ge, ?_, ?_, hs.ret⟩
    · have := hs.ticks; simp only; omega
    · simp only; omega
    · intro h; exact absurd hp h
  | endProgress hp ht =>
    refine ⟨hs.ticks, hs.outs, hs.ticked_le, hs.put_ok, hs.fail_ge, hs.tot_le, ?_, ?_⟩
    · intro _; have := hs.tot_le; simp only; omega
    · intro h; simp at h
  | readResult hp hg i rest hq =>
    refine ⟨hs.ticks, ?_, hs.ticked_le, hs.put_ok, hs.fail_ge, hs.tot_le, hs.past, ?_⟩
    · have := hs.outs; rw [hq] at this; simp only [List.length_cons] at this; simp only; omega
    · intro h; simp only at h; rw [hp] at h; simp at h
  | join hp hg hj =>
    refine ⟨hs.ticks, hs.outs, hs.ticked_le, hs.put_ok, hs.fail_ge, hs.tot_le, ?_, ?_⟩
    · intro _; exact hs.past (by rw [hp]; simp)
    · intro _; simp only; omega

theorem MpInv.run (c : MpConf) (k : Nat) (t : MpState) (h : MpRun c k MpState.init t) : MpInv c t := by
  generalize hs : MpState.init = s at h
  induction h with
  | refl => subst hs; exact MpInv.init c
  | tail _ hstep ih => exact MpInv.step c _ _ (ih hs) hstep

/-- every step increases this -/
def MpState.measure (c : MpConf) (s : MpState) : Nat :=
  ∑ i ∈ Finset.range c.m, s.ticked i + ∑ i ∈ Finset.range c.m, exitBit (s.stat i) + s.tot + s.got + phaseNum s.phase

theorem MpState.measure_step (c : MpConf) (s t : MpState) (h : MpStep c s t) : t.measure c = s.measure c + 1 := by
  unfold MpState.measure
  cases h with
  | tick i hi hr ht hf =>
    have hsum := sum_one_more c.m i hi s.ticked (upd s.ticked i (s.ticked i + 1)) (by simp)
      (fun x hx => by simp [upd, hx])
    simp only; omega
  | put i hi hr ht hf =>
    have hsum := sum_one_more c.m i hi (fun x => exitBit (s.stat x)) (fun x => exitBit (upd s.stat i .put x))
      (by simp [hr, exitBit]) (fun x hx => by simp [upd, hx])
    simp only; omega
  | crash i hi hr hf =>
    have hsum := sum_one_more c.m i hi (fun x => exitBit (s.stat x)) (fun x => exitBit (upd s.stat i .failed x))
      (by simp [hr, exitBit]) (fun x hx => by simp [upd, hx])
    simp only; omega
  | readProgress hp ht hq => simp only; omega
  | endProgress hp ht => simp only [hp, phaseNum]
  | readResult hp hg i rest hq => simp only; omega
  | join hp hg hj => simp only [hp, phaseNum]

theorem MpState.measure_run (c : MpConf) (k : Nat) (s t : MpState) (h : MpRun c k s t) :
    t.measure c = s.measure c + k := by
  induction h with
  | refl => rfl
  | tail _ hstep ih => rw [MpState.measure_step c _ _ hstep, ih]; rfl

theorem putBit_sum_le (m : Nat) (st : Nat → WStat) : ∑ i ∈ Finset.range m, putBit (st i) ≤ m := by
  calc ∑ i ∈ Finset.range m, putBit (st i) ≤ ∑ _i ∈ Finset.range m, 1 := by
        apply Finset.sum_le_sum; intro i _; cases st i <;> simp [putBit]
    _ = m := by simp

theorem exitBit_sum_le (m : Nat) (st : Nat → WStat) : ∑ i ∈ Finset.range m, exitBit (st i) ≤ m := by
  calc ∑ i ∈ Finset.range m, exitBit (st i) ≤ ∑ _i ∈ Finset.range m, 1 := by
        apply Finset.sum_le_sum; intro i _; cases st i <;> simp [exitBit]
    _ = m := by simp

theorem MpState.measure_le (c : MpConf) (s : MpState) (hs : MpInv c s) :
    s.measure c ≤ ∑ i ∈ Finset.range c.m, c.tasks i + c.m + c.ntarget + c.m + 2 := by
  have h1 : ∑ i ∈ Finset.range c.m, s.ticked i ≤ ∑ i ∈ Finset.range c.m, c.tasks i :=
    Finset.sum_le_sum (fun i hi => hs.ticked_le i (Finset.mem_range.1 hi))
  have h2 := exitBit_sum_le c.m s.stat
  have h3 := putBit_sum_le c.m s.stat
  have h4 := hs.outs
  have h5 := hs.tot_le
  have h6 : phaseNum s.phase ≤ 2 := by cases s.phase <;> simp [phaseNum]
  unfold MpState.measure
  omega

/-- a worker that has not exited can always step -/
theorem worker_can_step (c : MpConf) (s : MpState) (hs : MpInv c s) (i : Nat) (hi : i < c.m)
    (hr : s.stat i = .running) : ∃ t, MpStep c s t := by
  by_cases hf : c.fail i = some (s.ticked i)
  · exact ⟨_, MpStep.crash s i hi hr hf⟩
  · have := hs.ticked_le i hi
    by_cases ht : s.ticked i < c.tasks i
    · exact ⟨_, MpStep.tick s i hi hr ht hf⟩
    · exact ⟨_, MpStep.put s i hi hr (by omega) hf⟩

/-- from any reachable state some run ends in a state without steps -/
theorem exists_stuck (c : MpConf) (k : Nat) (s : MpState) (h : MpRun c k MpState.init s) :
    ∃ k' t, MpRun c k' MpState.init t ∧ ¬ ∃ u, MpStep c t u := by
  by_contra hcon
  push Not at hcon
  have hlong : ∀ j, ∃ k' t, j ≤ k' ∧ MpRun c k' MpState.init t := by
    intro j
    induction j with
    | zero => exact ⟨k, s, Nat.zero_le _, h⟩
    | succ j ih =>
      obtain ⟨k', t, hj, ht⟩ := ih
      obtain ⟨u, hu⟩ := hcon k' t ht
      exact ⟨k' + 1, u, by omega, MpRun.tail ht hu⟩
  obtain ⟨k', t, hk, ht⟩ := hlong (∑ i ∈ Finset.range c.m, c.tasks i + c.m + c.ntarget + c.m + 2 + 1)
  have h1 := MpState.measure_run c k' _ _ ht
  have h2 := MpState.measure_le c t (MpInv.run c k' t ht)
  omega

end Redrock
