import Verif.Lemmas.Mpi

/-! Properties C04, C05. -/
namespace Redrock

/-- **C04** The slices given to `n ≥ 1` ranks, concatenated in rank order, are exactly the grid; there is one
slice per rank; any two lengths differ by at most one and earlier slices are not shorter; no slice is empty exactly if
there are at least as many redshifts as ranks. -/
theorem C04_array_split_covers {Z : Type} (zs : List Z) (n : Nat) (hn : 0 < n) :
    ∃ parts, arraySplit zs n = .ok parts ∧ parts.length = n ∧ parts.flatten = zs ∧
      (∀ a ∈ parts, ∀ b ∈ parts, a.length ≤ b.length + 1) ∧
      (∀ (i j : Nat) (a b : List Z), i ≤ j → parts[i]? = some a → parts[j]? = some b → b.length ≤ a.length) ∧
      ((∀ a ∈ parts, a ≠ []) ↔ n ≤ zs.length) := by
  have hlen := sectionSizes_length zs.length n hn
  have hsum := sectionSizes_sum zs.length n hn
  have hl := splitSizes_lengths (sectionSizes zs.length n) zs hsum.le
  refine ⟨splitSizes (sectionSizes zs.length n) zs, by simp [arraySplit, hn.ne'], ?_, ?_, ?_, ?_, ?_, ?_⟩
  · rw [splitSizes_length, hlen]
  · exact splitSizes_flatten _ _ hsum.ge
  · intro a ha b hb
    have h1 : a.length ∈ sectionSizes zs.length n := by rw [← hl]; exact List.mem_map_of_mem ha
    have h2 : b.length ∈ sectionSizes zs.length n := by rw [← hl]; exact List.mem_map_of_mem hb
    have := mem_sectionSizes _ _ _ h1
    have := mem_sectionSizes _ _ _ h2
    omega
  · intro i j a b hij ha hb
    have h1 : (sectionSizes zs.length n)[i]? = some a.length := by rw [← hl, List.getElem?_map, ha]; rfl
    have h2 : (sectionSizes zs.length n)[j]? = some b.length := by rw [← hl, List.getElem?_map, hb]; rfl
    simp only [sectionSizes, List.getElem?_append, List.getElem?_replicate, List.length_replicate] at h1 h2
    have g1 : a.length = zs.length / n + 1 ∧ i < zs.length % n ∨ a.length = zs.length / n ∧ ¬ i < zs.length % n := by
      by_cases h : i < zs.length % n
      · simp [h] at h1; omega
      · simp [h] at h1; right; exact ⟨h1.2.symm, h⟩
    have g2 : b.length = zs.length / n + 1 ∧ j < zs.length % n ∨ b.length = zs.length / n ∧ ¬ j < zs.length % n := by
      by_cases h : j < zs.length % n
      · simp [h] at h2; omega
      · simp [h] at h2; right; exact ⟨h2.2.symm, h⟩
    omega
  · intro h
    have hq : 1 ≤ zs.length / n := by
      by_contra hq
      have hq0 : zs.length / n = 0 := by
        generalize zs.length / n = q at hq ⊢
        omega
      have hlt : zs.length % n < n := Nat.mod_lt _ hn
      have hmem : 0 ∈ sectionSizes zs.length n := by
        simp only [sectionSizes, List.mem_append, List.mem_replicate]
        right; exact ⟨by omega, hq0.symm⟩
      rw [← hl] at hmem
      obtain ⟨a, ha, ha0⟩ := List.mem_map.1 hmem
      exact h a ha (List.length_eq_zero_iff.1 ha0)
    exact (Nat.one_le_div_iff hn).1 hq
  · intro h a ha ha0
    have h1 : a.length ∈ sectionSizes zs.length n := by rw [← hl]; exact List.mem_map_of_mem ha
    have hq : 1 ≤ zs.length / n := (Nat.one_le_div_iff hn).2 h
    have := mem_sectionSizes _ _ _ h1
    rw [ha0] at this; simp at this; omega

example : arraySplit [0, 1, 2, 3, 4, 5, 6, 7, 8, 9] 4 = .ok [[0, 1, 2], [3, 4, 5], [6, 7], [8, 9]] := by rfl

/-- **C04** The constructor of the distributed template: every rank gets its slice as a piece labelled with its rank exactly
if there are at least as many redshifts as ranks; with more ranks than redshifts some rank raises
`ValueError` (a limitation found while modelling). -/
theorem C04_more_ranks_than_redshifts_raises {Z : Type} (zs : List Z) (n : Nat) (hn : 0 < n) :
    (∀ r, r < n → ∃ p, DistTemplate.initPiece zs n r = .ok p ∧ p.index = r) ↔ n ≤ zs.length := by
  obtain ⟨parts, h1, h2, _, _, _, h6⟩ := C04_array_split_covers zs n hn
  rw [← h6]
  constructor
  · intro h a ha ha0
    obtain ⟨r, hr, rfl⟩ := List.getElem_of_mem ha
    obtain ⟨p, hp, _⟩ := h r (h2 ▸ hr)
    simp [DistTemplate.initPiece, h1, bind, Except.bind, hr, ha0, throw, throwThe, MonadExceptOf.throw] at hp
  · intro h r hr
    have hr' : r < parts.length := h2.symm ▸ hr
    have hne := h parts[r] (List.getElem_mem hr')
    refine ⟨{ index := r, redshifts := parts[r] }, ?_, rfl⟩
    have : parts[r].isEmpty = false := by simpa using hne
    simp [DistTemplate.initPiece, h1, bind, Except.bind, hr', this, pure, Except.pure]

/-- **C05**, safety: in every state reachable by any interleaving of the ranks (and any buffering of sends), a rank whose
`cycle()` returned True has made exactly `n` calls, holds its own piece again, and has processed every rank's piece exactly
once; a rank that is not finished has made fewer than `n` calls and has processed distinct pieces. -/
theorem C05_cycle_visits_all {Z : Type} (n : Nat) (hn : 0 < n) (strict : Bool) (p : Nat → Piece Z)
    (hp : ∀ i, i < n → (p i).index = i) (k : Nat) (s : Net Z) (hrun : Net.Run n strict k (Net.init p) s)
    (r : Nat) (hr : r < n) :
    (s.pc r = .finished → s.calls r = n ∧ s.piece r = p r ∧ (s.log r).Perm ((List.range n).map p)) ∧
    (s.pc r ≠ .finished → s.calls r < n) ∧
    ((s.log r).map (·.index)).Nodup := by
  have hinv := Net.inv_run n hn strict p hp k s hrun
  have hnd : ∀ m, m ≤ n → ((List.range m).map (fun j => ringIdx n r j)).Nodup := by
    intro m hm
    rw [List.nodup_map_iff_inj_on List.nodup_range]
    intro a ha b hb
    have := List.mem_range.1 ha
    have := List.mem_range.1 hb
    unfold ringIdx; split <;> split <;> omega
  have hsent : s.sentCnt r ≤ n := by
    rcases hinv.fin r hr with ⟨h1, h2⟩ | ⟨h1, h2⟩
    · simp [Net.sentCnt, h1, h2, Pc.sentBit]
    · have : (s.pc r).sentBit ≤ 1 := by cases s.pc r <;> simp [Pc.sentBit]
      unfold Net.sentCnt; omega
  refine ⟨?_, ?_, ?_⟩
  · intro hf
    rcases hinv.fin r hr with ⟨_, h2⟩ | ⟨h1, _⟩
    · refine ⟨h2, ?_, ?_⟩
      · rw [hinv.piece_eq r hr, h2]; unfold ringIdx; split
        · omega
        · congr 1; omega
      · rw [hinv.log_eq r hr]
        have : s.sentCnt r = n := by simp [Net.sentCnt, hf, h2, Pc.sentBit]
        rw [this]
        have hperm : ((List.range n).map (fun j => ringIdx n r j)).Perm (List.range n) := by
          have hsub : ((List.range n).map (fun j => ringIdx n r j)) ⊆ List.range n := by
            intro x hx
            obtain ⟨j, hj, rfl⟩ := List.mem_map.1 hx
            exact List.mem_range.2 (ringIdx_lt hr (List.mem_range.1 hj).le)
          exact (List.subperm_of_subset (hnd n le_rfl) hsub).perm_of_length_le (by simp)
        have := hperm.map p
        rw [List.map_map] at this
        exact this
    · exact absurd hf h1
  · intro hf
    rcases hinv.fin r hr with ⟨h1, _⟩ | ⟨_, h2⟩
    · exact absurd h1 hf
    · exact h2
  · rw [hinv.log_eq r hr, List.map_map]
    have : (List.range (s.sentCnt r)).map ((fun x => x.index) ∘ fun j => p (ringIdx n r j)) =
        (List.range (s.sentCnt r)).map (fun j => ringIdx n r j) := by
      apply List.map_congr_left
      intro j hj
      exact hp _ (ringIdx_lt hr ((List.mem_range.1 hj).le.trans hsent))
    rw [this]
    exact hnd _ hsent

/-- **C05**, no deadlock and termination: in every reachable state (any buffering) with an unfinished rank some rank can
step, even if MPI completes sends only on delivery; every schedule has at most `3 n²` steps, and all ranks are
finished exactly when it has that many. -/
theorem C05_cycle_no_deadlock {Z : Type} (n : Nat) (hn : 0 < n) (strict : Bool) (p : Nat → Piece Z)
    (hp : ∀ i, i < n → (p i).index = i) (k : Nat) (s : Net Z) (hrun : Net.Run n strict k (Net.init p) s) :
    k ≤ 3 * n * n ∧ ((∀ r, r < n → s.pc r = .finished) ↔ k = 3 * n * n) ∧
    ((∃ r, r < n ∧ s.pc r ≠ .finished) → ∃ t, Net.Step n true s t) := by
  have hinv := Net.inv_run n hn strict p hp k s hrun
  have hm := Net.measure_run n strict k _ _ hrun
  have h0 : (Net.init p).measure n = 0 := by simp [Net.measure, Net.init, Pc.num]
  have hle := Net.measure_le n p s hinv
  refine ⟨by omega, ⟨?_, ?_⟩, Net.progress n p s hinv⟩
  · intro hall
    have : s.measure n = ∑ _r ∈ Finset.range n, 3 * n := by
      apply Finset.sum_congr rfl
      intro r hr
      have hr := Finset.mem_range.1 hr
      rcases hinv.fin r hr with ⟨h1, h2⟩ | ⟨h1, _⟩
      · rw [h1, h2]; simp [Pc.num]
      · exact absurd (hall r hr) h1
    rw [Finset.sum_const, Finset.card_range, Nat.nsmul_eq_mul] at this
    have : n * (3 * n) = 3 * n * n := by rw [Nat.mul_comm]
    omega
  · intro hk r hr
    by_contra hnf
    obtain ⟨t, ht⟩ := Net.progress n p s hinv ⟨r, hr, hnf⟩
    have hinv' := Net.inv_step n true p hp s t hinv ht
    have h1 := Net.measure_step n true s t ht
    have h2 := Net.measure_le n p t hinv'
    omega

/-- A schedule that finishes exists for every ring (so the hypotheses `finished` above are met): greedy
execution never gets stuck. -/
theorem C05_cycle_completes {Z : Type} (n : Nat) (hn : 0 < n) (p : Nat → Piece Z)
    (hp : ∀ i, i < n → (p i).index = i) :
    ∃ s, Net.Run n true (3 * n * n) (Net.init p) s ∧ ∀ r, r < n → s.pc r = .finished := by
  have hex : ∀ k, k ≤ 3 * n * n → ∃ s, Net.Run n true k (Net.init p) s := by
    intro k
    induction k with
    | zero => intro _; exact ⟨_, Net.Run.refl _⟩
    | succ k ih =>
      intro hk
      obtain ⟨s, hs⟩ := ih (by omega)
      obtain ⟨_, h2, h3⟩ := C05_cycle_no_deadlock n hn true p hp k s hs
      have : ∃ r, r < n ∧ s.pc r ≠ .finished := by
        by_contra hcon
        push Not at hcon
        have := h2.1 hcon
        omega
      obtain ⟨t, ht⟩ := h3 this
      exact ⟨t, Net.Run.tail hs ht⟩
  obtain ⟨s, hs⟩ := hex _ le_rfl
  exact ⟨s, hs, (C05_cycle_no_deadlock n hn true p hp _ s hs).2.1.2 rfl⟩

example : ∃ s, Net.Run 3 true 27 (Net.init (fun i => ({ index := i, redshifts := [i] } : Piece Nat))) s ∧
    ∀ r, r < 3 → s.pc r = .finished :=
  C05_cycle_completes 3 (by decide) _ (by simp)

end Redrock
