import Verif.Lemmas.MpQueue

/-! Properties C08, C10. -/
namespace Redrock

/-- **C10** Progress loop, no worker failing and as many targets as tasks: in every schedule the parent reads at most
`ntarget` progress ticks; as long as it has not returned some step is possible; every schedule has at most
`2*ntarget + 2*m + 2` steps; and when it returns it has read exactly `ntarget` ticks and one result per worker, and nothing is
left on either queue. -/
theorem C10_progress_loop_ends (c : MpConf) (hok : ∀ i, i < c.m → c.fail i = none)
    (hN : c.ntarget = ∑ i ∈ Finset.range c.m, c.tasks i) (k : Nat) (s : MpState) (h : MpRun c k MpState.init s) :
    s.tot ≤ c.ntarget ∧
    (s.phase ≠ .returned → ∃ t, MpStep c s t) ∧
    k ≤ 2 * c.ntarget + 2 * c.m + 2 ∧
    (s.phase = .returned → s.tot = c.ntarget ∧ s.got = c.m ∧ s.qprog = 0 ∧ s.qout = []) := by
  have hs := MpInv.run c k s h
  have hm := MpState.measure_run c k _ _ h
  have h0 : MpState.init.measure c = 0 := by simp [MpState.measure, MpState.init, exitBit, phaseNum]
  have hle := MpState.measure_le c s hs
  have hsum_le : ∑ i ∈ Finset.range c.m, s.ticked i ≤ ∑ i ∈ Finset.range c.m, c.tasks i :=
    Finset.sum_le_sum (fun i hi => hs.ticked_le i (Finset.mem_range.1 hi))
  refine ⟨hs.tot_le, ?_, by omega, ?_⟩
  · intro hnr
    by_contra hcon
    have hexit : ∀ i, i < c.m → s.stat i ≠ .running := fun i hi hr => hcon (worker_can_step c s hs i hi hr)
    have hnever : ∀ i, i < c.m → s.stat i = .put ∨ s.stat i = .failed := by
      intro i hi
      have := hexit i hi
      cases hst : s.stat i <;> simp_all
    -- no worker can have failed
    have hput : ∀ i, i < c.m → s.stat i = .put := by
      have hnf : ∀ (k' : Nat) (t : MpState), MpRun c k' MpState.init t → ∀ i, i < c.m → t.stat i ≠ .failed := by
        intro k' t ht
        generalize he : MpState.init = s0 at ht
        induction ht with
        | refl => subst he; intro i _; simp [MpState.init]
        | tail _ hstep ih =>
          intro i hi
          have hprev := ih he i hi
          cases hstep with
          | tick => exact hprev
          | put j hj => simp only [upd]; split <;> simp_all
          | crash j hj _ hf => rw [hok j hj] at hf; simp at hf
          | readProgress => exact hprev
          | endProgress => exact hprev
          | readResult => exact hprev
          | join => exact hprev
      intro i hi
      rcases hnever i hi with h1 | h1
      · exact h1
      · exact absurd h1 (hnf k s h i hi)
    have hticks : ∑ i ∈ Finset.range c.m, s.ticked i = c.ntarget := by
      rw [hN]
      exact Finset.sum_congr rfl (fun i hi => (hs.put_ok i (Finset.mem_range.1 hi) (hput i (Finset.mem_range.1 hi))).1)
    have houts : ∑ i ∈ Finset.range c.m, putBit (s.stat i) = c.m := by
      calc _ = ∑ _i ∈ Finset.range c.m, 1 :=
            Finset.sum_congr rfl (fun i hi => by rw [hput i (Finset.mem_range.1 hi)]; rfl)
        _ = c.m := by simp
    have h1 := hs.ticks
    have h2 := hs.outs
    cases hph : s.phase with
    | returned => exact hnr hph
    | progress =>
      by_cases ht : s.tot < c.ntarget
      · exact hcon ⟨_, MpStep.readProgress s hph ht (by omega)⟩
      · exact hcon ⟨_, MpStep.endProgress s hph ht⟩
    | collect =>
      by_cases hg : s.got < c.m
      · cases hq : s.qout with
        | nil => rw [hq] at h2; simp at h2; omega
        | cons i rest => exact hcon ⟨_, MpStep.readResult s hph hg i rest hq⟩
      · exact hcon ⟨_, MpStep.join s hph hg hexit⟩
  · intro hret
    have h1 := hs.past (by rw [hret]; simp)
    have h2 := hs.ret hret
    have h3 := hs.outs
    have h4 := putBit_sum_le c.m s.stat
    have h5 := hs.ticks
    refine ⟨h1, by omega, by omega, ?_⟩
    have : s.qout.length = 0 := by omega
    exact List.length_eq_zero_iff.1 this

/-- Every schedule can be completed: some run returns. -/
theorem C10_returns (c : MpConf) (hok : ∀ i, i < c.m → c.fail i = none)
    (hN : c.ntarget = ∑ i ∈ Finset.range c.m, c.tasks i) :
    ∃ k s, MpRun c k MpState.init s ∧ s.phase = .returned := by
  obtain ⟨k, t, ht, hst⟩ := exists_stuck c 0 MpState.init (MpRun.refl _)
  refine ⟨k, t, ht, ?_⟩
  by_contra hnr
  exact hst ((C10_progress_loop_ends c hok hN k t ht).2.1 hnr)

example : (⟨3, fun i => i + 2, fun _ => none, 9⟩ : MpConf).ntarget =
    ∑ i ∈ Finset.range 3, (⟨3, fun i => i + 2, fun _ => none, 9⟩ : MpConf).tasks i := by decide

/-- **C08**, full statement (false of the code): whatever workers fail, a schedule that cannot go on has returned (or raised, which
this code path never does). -/
def WorkerFailureNeverHangs : Prop :=
  ∀ (c : MpConf) (_ : c.ntarget = ∑ i ∈ Finset.range c.m, c.tasks i) (k : Nat) (s : MpState),
    MpRun c k MpState.init s → (¬ ∃ t, MpStep c s t) → s.phase = .returned

/-- **C08** is false, in the strongest form: as soon as any worker raises (after any number of its targets), *no* schedule ever
returns, and there are schedules after which no step is possible while the parent still waits. -/
theorem C08_failing_worker_hangs (c : MpConf) (i k0 : Nat) (hi : i < c.m) (hf : c.fail i = some k0)
    (hk0 : k0 ≤ c.tasks i) :
    (∀ k s, MpRun c k MpState.init s → s.phase ≠ .returned) ∧
    (∃ k s, MpRun c k MpState.init s ∧ s.phase ≠ .returned ∧ ¬ ∃ t, MpStep c s t) := by
  have hnever : ∀ k s, MpRun c k MpState.init s → s.phase ≠ .returned := by
    intro k s h hret
    have hs := MpInv.run c k s h
    have h2 := hs.ret hret
    have h3 := hs.outs
    have hnp : s.stat i ≠ .put := by
      intro hp
      obtain ⟨h4, h5⟩ := hs.put_ok i hi hp
      have h6 := hs.fail_ge i hi k0 hf hk0
      have : k0 = c.tasks i := by omega
      exact h5 (this ▸ hf)
    have hlt : ∑ j ∈ Finset.range c.m, putBit (s.stat j) < ∑ _j ∈ Finset.range c.m, 1 := by
      apply Finset.sum_lt_sum
      · intro j _; cases s.stat j <;> simp [putBit]
      · refine ⟨i, Finset.mem_range.2 hi, ?_⟩
        cases hst : s.stat i <;> simp_all [putBit]
    simp at hlt
    omega
  refine ⟨hnever, ?_⟩
  obtain ⟨k, t, ht, hst⟩ := exists_stuck c 0 MpState.init (MpRun.refl _)
  exact ⟨k, t, ht, hnever k t ht, hst⟩

example : ∃ c : MpConf, 0 < c.m ∧ c.fail 0 = some 1 ∧ 1 ≤ c.tasks 0 ∧
    c.ntarget = ∑ i ∈ Finset.range c.m, c.tasks i :=
  ⟨⟨2, fun _ => 3, fun i => if i = 0 then some 1 else none, 6⟩, by decide⟩

theorem C08_refuted : ¬ WorkerFailureNeverHangs := by
  intro h
  obtain ⟨_, k, s, h1, h2, h3⟩ := C08_failing_worker_hangs
    ⟨2, fun _ => 3, fun i => if i = 0 then some 1 else none, 6⟩ 0 1 (by decide) (by decide) (by decide)
  exact h2 (h _ (by decide) k s h1 h3)

/-- **C08**, what holds: if no worker fails, a schedule that cannot go on has returned. Missing: failing workers, where it is
false. -/
theorem C08_no_failure_no_hang_partial (c : MpConf) (hok : ∀ i, i < c.m → c.fail i = none)
    (hN : c.ntarget = ∑ i ∈ Finset.range c.m, c.tasks i) (k : Nat) (s : MpState)
    (h : MpRun c k MpState.init s) (hstuck : ¬ ∃ t, MpStep c s t) : s.phase = .returned := by
  by_contra hnr
  exact hstuck ((C10_progress_loop_ends c hok hN k s h).2.1 hnr)

example : ∀ i, i < 3 → (⟨3, fun i => i + 2, fun _ => none, 9⟩ : MpConf).fail i = none := by simp

end Redrock
