import Verif.Model.Mpi
import Verif.Lemmas.Dict
import Mathlib.Tactic.Linarith
import Mathlib.Data.List.Range
import Mathlib.Algebra.BigOperators.Group.Finset.Basic
import Mathlib.Algebra.BigOperators.Intervals
import Mathlib.Algebra.Order.BigOperators.Group.Finset

namespace Redrock
set_option linter.unusedSectionVars false

section Split
variable {α : Type}

theorem splitSizes_length (ss : List Nat) (xs : List α) : (splitSizes ss xs).length = ss.length := by
  induction ss generalizing xs with
  | nil => rfl
  | cons s ss ih => simp [splitSizes, ih]

theorem splitSizes_flatten (ss : List Nat) (xs : List α) (h : xs.length ≤ ss.sum) :
    (splitSizes ss xs).flatten = xs := by
  induction ss generalizing xs with
  | nil => simp at h; simp [splitSizes, h]
  | cons s ss ih =>
    simp only [splitSizes, List.flatten_cons]
    rw [ih]
    · exact List.take_append_drop s xs
    · simp at h ⊢; omega

theorem splitSizes_lengths (ss : List Nat) (xs : List α) (h : ss.sum ≤ xs.length) :
    (splitSizes ss xs).map List.length = ss := by
  induction ss generalizing xs with
  | nil => rfl
  | cons s ss ih =>
    simp only [splitSizes, List.map_cons]
    rw [ih]
    · simp at h ⊢; omega
    · simp at h ⊢; omega

theorem sectionSizes_length (N n : Nat) (hn : 0 < n) : (sectionSizes N n).length = n := by
  have := Nat.mod_lt N hn
  simp [sectionSizes]; omega

theorem sectionSizes_sum (N n : Nat) (hn : 0 < n) : (sectionSizes N n).sum = N := by
  have h1 := Nat.mod_lt N hn
  have h2 := Nat.div_add_mod N n
  simp only [sectionSizes, List.sum_append, List.sum_replicate, Nat.nsmul_eq_mul]
  have h3 : N % n * (N / n + 1) = N % n * (N / n) + N % n := by rw [Nat.mul_add, Nat.mul_one]
  have h4 : N % n * (N / n) + (n - N % n) * (N / n) = n * (N / n) := by
    rw [← Nat.add_mul]; congr 1; omega
  omega

theorem mem_sectionSizes (N n : Nat) (s : Nat) (h : s ∈ sectionSizes N n) : s = N / n ∨ s = N / n + 1 := by
  simp only [sectionSizes, List.mem_append, List.mem_replicate] at h
  omega

end Split

/-! ### the ring -/
section Ring
variable {Z : Type}

/-- which piece rank `r` holds after `j ≤ n` completed cycles -/
def ringIdx (n r j : Nat) : Nat := if j ≤ r then r - j else r + n - j

theorem ringIdx_lt {n r j : Nat} (hr : r < n) (hj : j ≤ n) : ringIdx n r j < n := by
  unfold ringIdx; split <;> omega

theorem ringIdx_from {n r j : Nat} (hr : r < n) (hj : j < n) :
    ringIdx n (fromProc n r) j = ringIdx n r (j + 1) := by
  unfold ringIdx fromProc; repeat' split
  all_goals omega

theorem fromProc_lt {n r : Nat} (hr : r < n) : fromProc n r < n := by
  unfold fromProc; split <;> omega

theorem toProc_lt {n r : Nat} (hr : r < n) : toProc n r < n := by
  unfold toProc; split <;> omega

theorem from_to {n r : Nat} (hr : r < n) : fromProc n (toProc n r) = r := by
  unfold fromProc toProc; repeat' split
  all_goals omega

theorem to_from {n r : Nat} (hr : r < n) : toProc n (fromProc n r) = r := by
  unfold fromProc toProc; repeat' split
  all_goals omega

theorem toProc_inj {n a b : Nat} (ha : a < n) (hb : b < n) (h : toProc n a = toProc n b) : a = b := by
  rw [← from_to ha, ← from_to hb, h]

/-- messages sent so far within the current progress -/
def Pc.sentBit : Pc Z → Nat
  | .sent => 1 | .got _ => 1 | _ => 0
def Pc.recvBit : Pc Z → Nat
  | .got _ => 1 | _ => 0

def Net.sentCnt (s : Net Z) (r : Nat) : Nat := s.calls r + (s.pc r).sentBit
def Net.recvCnt (s : Net Z) (r : Nat) : Nat := s.calls r + (s.pc r).recvBit

structure Net.Inv (n : Nat) (p : Nat → Piece Z) (s : Net Z) : Prop where
  calls_le : ∀ r, r < n → s.calls r ≤ n
  fin : ∀ r, r < n → ((s.pc r = .finished ∧ s.calls r = n) ∨ (s.pc r ≠ .finished ∧ s.calls r < n))
  piece_eq : ∀ r, r < n → s.piece r = p (ringIdx n r (s.calls r))
  got_eq : ∀ r, r < n → ∀ q, s.pc r = .got q → q = p (ringIdx n r (s.calls r + 1))
  log_eq : ∀ r, r < n → s.log r = (List.range (s.sentCnt r)).map (fun j => p (ringIdx n r j))
  cnt_le : ∀ r, r < n → s.recvCnt r ≤ s.sentCnt (fromProc n r)
  chan_eq : ∀ r, r < n → s.chan (fromProc n r) r =
    (List.range' (s.recvCnt r) (s.sentCnt (fromProc n r) - s.recvCnt r)).map
      (fun j => p (ringIdx n (fromProc n r) j))

theorem Net.inv_init (n : Nat) (hn : 0 < n) (p : Nat → Piece Z) : Net.Inv n p (Net.init p) := by
  constructor <;> intro r hr
  · simp [Net.init]
  · right; simp [Net.init, hn]
  · simp [Net.init, ringIdx]
  · simp [Net.init]
  · simp [Net.init, Net.sentCnt, Pc.sentBit]
  · simp [Net.init, Net.sentCnt, Net.recvCnt, Pc.recvBit]
  · simp [Net.init, Net.sentCnt, Net.recvCnt, Pc.recvBit, Pc.sentBit]

@[simp] theorem upd_same {β : Type} (f : Nat → β) (r : Nat) (v : β) : upd f r v r = v := by simp [upd]
theorem upd_ne {β : Type} (f : Nat → β) (r x : Nat) (v : β) (h : x ≠ r) : upd f r v x = f x := by simp [upd, h]

theorem Net.inv_isend (n : Nat) (p : Nat → Piece Z) (s : Net Z) (hs : Net.Inv n p s) (r : Nat) (hr : r < n)
    (h : s.pc r = .ready) : Net.Inv n p (s.isend n r) := by
  have hsent : ∀ x, (s.isend n r).sentCnt x = s.sentCnt x + (if x = r then 1 else 0) := by
    intro x
    by_cases hx : x = r
    · subst hx; simp [Net.isend, Net.sentCnt, Pc.sentBit, h]
    · simp [Net.isend, Net.sentCnt, upd, hx]
  have hrecv : ∀ x, (s.isend n r).recvCnt x = s.recvCnt x := by
    intro x
    by_cases hx : x = r
    · subst hx; simp [Net.isend, Net.recvCnt, Pc.recvBit, h]
    · simp [Net.isend, Net.recvCnt, upd, hx]
  constructor
  · exact fun x hx => hs.calls_le x hx
  · intro x hx
    by_cases hxr : x = r
    · subst hxr
      right
      rcases hs.fin x hx with ⟨h1, _⟩ | ⟨_, h2⟩
      · rw [h] at h1; simp at h1
      · exact ⟨by simp [Net.isend], h2⟩
    · simpa [Net.isend, upd, hxr] using hs.fin x hx
  · exact fun x hx => hs.piece_eq x hx
  · intro x hx q hq
    by_cases hxr : x = r
    · subst hxr; simp [Net.isend] at hq
    · exact hs.got_eq x hx q (by simpa [Net.isend, upd, hxr] using hq)
  · intro x hx
    rw [hsent]
    by_cases hxr : x = r
    · subst hxr
      simp only [Net.isend, upd_same, if_true, List.range_succ, List.map_append, List.map_singleton]
      rw [hs.log_eq x hx, hs.piece_eq x hx]
      simp [Net.sentCnt, h, Pc.sentBit]
    · simpa [Net.isend, upd, hxr] using hs.log_eq x hx
  · intro x hx
    rw [hsent, hrecv]
    have := hs.cnt_le x hx
    omega
  · intro x hx
    rw [hsent, hrecv]
    by_cases hxr : fromProc n x = r
    · have hx' : x = toProc n r := by rw [← hxr, to_from hx]
      have hc := hs.chan_eq x hx
      have hcl := hs.cnt_le x hx
      simp only [hxr, if_true]
      rw [hxr] at hc hcl
      have h1 : (s.isend n r).chan r x = s.chan r x ++ [s.piece r] := by
        simp [Net.isend, hx']
      rw [h1, hc, hs.piece_eq r hr]
      have h2 : s.sentCnt r + 1 - s.recvCnt x = (s.sentCnt r - s.recvCnt x) + 1 := by omega
      rw [h2, List.range'_concat, List.map_append]
      congr 1
      have h3 : s.recvCnt x + 1 * (s.sentCnt r - s.recvCnt x) = s.calls r := by
        have : s.sentCnt r = s.calls r := by simp [Net.sentCnt, h, Pc.sentBit]
        omega
      rw [h3]; rfl
    · have h1 : (s.isend n r).chan (fromProc n x) x = s.chan (fromProc n x) x := by
        simp [Net.isend, hxr]
      rw [h1, hs.chan_eq x hx]
      simp [hxr]

theorem Net.inv_recv (n : Nat) (p : Nat → Piece Z) (s : Net Z) (hs : Net.Inv n p s) (r : Nat) (hr : r < n)
    (h : s.pc r = .sent) (q : Piece Z) (rest : List (Piece Z))
    (hc : s.chan (fromProc n r) r = q :: rest) : Net.Inv n p (s.recv n r q rest) := by
  have hsent : ∀ x, (s.recv n r q rest).sentCnt x = s.sentCnt x := by
    intro x
    by_cases hx : x = r
    · subst hx; simp [Net.recv, Net.sentCnt, Pc.sentBit, h]
    · simp [Net.recv, Net.sentCnt, upd, hx]
  have hrecv : ∀ x, (s.recv n r q rest).recvCnt x = s.recvCnt x + (if x = r then 1 else 0) := by
    intro x
    by_cases hx : x = r
    · subst hx; simp [Net.recv, Net.recvCnt, Pc.recvBit, h]
    · simp [Net.recv, Net.recvCnt, upd, hx]
  have hce := hs.chan_eq r hr
  rw [hc] at hce
  have hpos : 0 < s.sentCnt (fromProc n r) - s.recvCnt r := by
    by_contra hcon
    have : s.sentCnt (fromProc n r) - s.recvCnt r = 0 := by omega
    rw [this] at hce; simp at hce
  obtain ⟨m, hm⟩ : ∃ m, s.sentCnt (fromProc n r) - s.recvCnt r = m + 1 := ⟨_, (Nat.succ_pred_eq_of_pos hpos).symm⟩
  rw [hm, List.range'_succ, List.map_cons, List.cons.injEq] at hce
  have hcalls : s.calls r < n := by
    rcases hs.fin r hr with ⟨h1, _⟩ | ⟨_, h2⟩
    · rw [h] at h1; simp at h1
    · exact h2
  have hrc : s.recvCnt r = s.calls r := by simp [Net.recvCnt, h, Pc.recvBit]
  have hq : q = p (ringIdx n r (s.calls r + 1)) := by
    rw [hce.1, hrc, ringIdx_from hr hcalls]
  constructor
  · exact fun x hx => hs.calls_le x hx
  · intro x hx
    by_cases hxr : x = r
    · subst hxr
      right
      exact ⟨by simp [Net.recv], hcalls⟩
    · simpa [Net.recv, upd, hxr] using hs.fin x hx
  · exact fun x hx => hs.piece_eq x hx
  · intro x hx q' hq'
    by_cases hxr : x = r
    · subst hxr
      simp [Net.recv] at hq'
      rw [← hq']; exact hq
    · exact hs.got_eq x hx q' (by simpa [Net.recv, upd, hxr] using hq')
  · intro x hx
    rw [hsent]; exact hs.log_eq x hx
  · intro x hx
    rw [hsent, hrecv]
    have := hs.cnt_le x hx
    by_cases hxr : x = r
    · subst hxr; simp; omega
    · simp [hxr]; omega
  · intro x hx
    rw [hsent, hrecv]
    by_cases hxr : x = r
    · subst hxr
      have h1 : (s.recv n x q rest).chan (fromProc n x) x = rest := by simp [Net.recv]
      rw [h1, hce.2]
      have : s.sentCnt (fromProc n x) - (s.recvCnt x + 1) = m := by omega
      simp [this]
    · have h1 : (s.recv n r q rest).chan (fromProc n x) x = s.chan (fromProc n x) x := by
        simp [Net.recv, hxr]
      rw [h1, hs.chan_eq x hx]
      simp [hxr]

theorem Net.inv_wait (n : Nat) (p : Nat → Piece Z) (hp : ∀ i, i < n → (p i).index = i) (s : Net Z)
    (hs : Net.Inv n p s) (r : Nat) (hr : r < n) (q : Piece Z) (h : s.pc r = .got q) :
    Net.Inv n p (s.wait r q) := by
  have hcalls : s.calls r < n := by
    rcases hs.fin r hr with ⟨h1, _⟩ | ⟨_, h2⟩
    · rw [h] at h1; simp at h1
    · exact h2
  have hq := hs.got_eq r hr q h
  have hqi : q.index = ringIdx n r (s.calls r + 1) := by
    rw [hq]; exact hp _ (ringIdx_lt hr hcalls)
  have hfin : q.index = r ↔ s.calls r + 1 = n := by
    rw [hqi]; unfold ringIdx; split <;> omega
  have hpcbits : ((s.wait r q).pc r).sentBit = 0 ∧ ((s.wait r q).pc r).recvBit = 0 := by
    simp only [Net.wait, upd_same]; split <;> simp [Pc.sentBit, Pc.recvBit]
  have hsent : ∀ x, (s.wait r q).sentCnt x = s.sentCnt x := by
    intro x
    by_cases hx : x = r
    · subst hx
      simp only [Net.sentCnt, hpcbits.1]
      simp [Net.wait, h, Pc.sentBit]
    · simp [Net.wait, Net.sentCnt, upd, hx]
  have hrecv : ∀ x, (s.wait r q).recvCnt x = s.recvCnt x := by
    intro x
    by_cases hx : x = r
    · subst hx
      simp only [Net.recvCnt, hpcbits.2]
      simp [Net.wait, h, Pc.recvBit]
    · simp [Net.wait, Net.recvCnt, upd, hx]
  constructor
  · intro x hx
    by_cases hxr : x = r
    · subst hxr; simp [Net.wait]; omega
    · simpa [Net.wait, upd, hxr] using hs.calls_le x hx
  · intro x hx
    by_cases hxr : x = r
    · subst hxr
      by_cases hf : q.index = x
      · left; simp [Net.wait, hf]; exact hfin.1 hf
      · right
        have : s.calls x + 1 ≠ n := fun hh => hf (hfin.2 hh)
        simp [Net.wait, hf]; omega
    · simpa [Net.wait, upd, hxr] using hs.fin x hx
  · intro x hx
    by_cases hxr : x = r
    · subst hxr; simpa [Net.wait] using hq
    · simpa [Net.wait, upd, hxr] using hs.piece_eq x hx
  · intro x hx q' hq'
    by_cases hxr : x = r
    · subst hxr
      simp only [Net.wait, upd_same] at hq'
      split at hq' <;> simp at hq'
    · simpa [Net.wait, upd, hxr] using hs.got_eq x hx q' (by simpa [Net.wait, upd, hxr] using hq')
  · intro x hx
    rw [hsent]; exact hs.log_eq x hx
  · intro x hx
    rw [hsent, hrecv]; exact hs.cnt_le x hx
  · intro x hx
    rw [hsent, hrecv]; exact hs.chan_eq x hx

theorem Net.inv_step (n : Nat) (strict : Bool) (p : Nat → Piece Z) (hp : ∀ i, i < n → (p i).index = i)
    (s t : Net Z) (hs : Net.Inv n p s) (h : Net.Step n strict s t) : Net.Inv n p t := by
  cases h with
  | isend r hr h => exact Net.inv_isend n p s hs r hr h
  | recv r hr h q rest hc => exact Net.inv_recv n p s hs r hr h q rest hc
  | wait r hr q h _ => exact Net.inv_wait n p hp s hs r hr q h

theorem Net.inv_run (n : Nat) (hn : 0 < n) (strict : Bool) (p : Nat → Piece Z) (hp : ∀ i, i < n → (p i).index = i)
    (k : Nat) (t : Net Z) (h : Net.Run n strict k (Net.init p) t) : Net.Inv n p t := by
  generalize hs : Net.init p = s at h
  induction h with
  | refl _ => subst hs; exact Net.inv_init n hn p
  | tail _ hstep ih => exact Net.inv_step n strict p hp _ _ (ih hs) hstep

/-- progress measure: 3 steps per completed cycle -/
def Pc.num : Pc Z → Nat
  | .ready => 0 | .sent => 1 | .got _ => 2 | .finished => 0

def Net.measure (n : Nat) (s : Net Z) : Nat := ∑ r ∈ Finset.range n, (3 * s.calls r + (s.pc r).num)

theorem sum_one_more (n r : Nat) (hr : r < n) (f g : Nat → Nat) (h1 : g r = f r + 1)
    (h2 : ∀ x, x ≠ r → g x = f x) : ∑ x ∈ Finset.range n, g x = ∑ x ∈ Finset.range n, f x + 1 := by
  rw [← Finset.add_sum_erase _ _ (Finset.mem_range.2 hr), ← Finset.add_sum_erase (Finset.range n) f (Finset.mem_range.2 hr)]
  rw [Finset.sum_congr rfl (fun x hx => h2 x (Finset.ne_of_mem_erase hx)), h1]
  change f r + 1 + ∑ x ∈ (Finset.range n).erase r, f x = f r + ∑ x ∈ (Finset.range n).erase r, f x + 1
  omega

theorem Net.measure_step (n : Nat) (strict : Bool) (s t : Net Z) (h : Net.Step n strict s t) :
    t.measure n = s.measure n + 1 := by
  cases h with
  | isend r hr h =>
    apply sum_one_more n r hr
    · simp [Net.isend, h, Pc.num]
    · intro x hx; simp [Net.isend, upd, hx]
  | recv r hr h q rest hc =>
    apply sum_one_more n r hr
    · simp [Net.recv, h, Pc.num]
    · intro x hx; simp [Net.recv, upd, hx]
  | wait r hr q h _ =>
    apply sum_one_more n r hr
    · simp only [Net.wait, upd_same, h]
      have : (if q.index = r then Pc.finished else Pc.ready : Pc Z).num = 0 := by split <;> rfl
      rw [this]; simp [Pc.num]; omega
    · intro x hx; simp [Net.wait, upd, hx]

theorem Net.measure_run (n : Nat) (strict : Bool) (k : Nat) (s t : Net Z) (h : Net.Run n strict k s t) :
    t.measure n = s.measure n + k := by
  induction h with
  | refl => rfl
  | tail _ hstep ih => rw [Net.measure_step n strict _ _ hstep, ih]; rfl

theorem Net.measure_le (n : Nat) (p : Nat → Piece Z) (s : Net Z) (hs : Net.Inv n p s) :
    s.measure n ≤ 3 * n * n := by
  have : s.measure n ≤ ∑ _r ∈ Finset.range n, 3 * n := by
    apply Finset.sum_le_sum
    intro r hr
    have hr := Finset.mem_range.1 hr
    rcases hs.fin r hr with ⟨h1, h2⟩ | ⟨h1, h2⟩
    · rw [h1, h2]; simp [Pc.num]
    · have : (s.pc r).num ≤ 2 := by cases s.pc r <;> simp [Pc.num]
      omega
  simpa [Nat.mul_comm] using this

/-- no deadlock, with the strictest semantics of `wait` -/
theorem Net.progress (n : Nat) (p : Nat → Piece Z) (s : Net Z) (hs : Net.Inv n p s)
    (hnf : ∃ r, r < n ∧ s.pc r ≠ .finished) : ∃ t, Net.Step n true s t := by
  by_contra hcon
  push Not at hcon
  have hnr : ∀ r, r < n → s.pc r ≠ .ready := fun r hr h => hcon _ (Net.Step.isend s r hr h)
  obtain ⟨r0, hr0, hnf0⟩ := hnf
  -- a rank with the fewest completed calls
  have hex : ∃ r ∈ Finset.range n, ∀ x ∈ Finset.range n, s.calls r ≤ s.calls x :=
    Finset.exists_min_image (Finset.range n) s.calls ⟨r0, Finset.mem_range.2 hr0⟩
  obtain ⟨r, hr, hmin⟩ := hex
  have hr := Finset.mem_range.1 hr
  have hmin : ∀ x, x < n → s.calls r ≤ s.calls x := fun x hx => hmin x (Finset.mem_range.2 hx)
  have hcr : s.calls r < n := by
    rcases hs.fin r0 hr0 with ⟨h1, _⟩ | ⟨_, h2⟩
    · exact absurd h1 hnf0
    · exact lt_of_le_of_lt (hmin r0 hr0) h2
  have hsent_ge : ∀ x, x < n → s.calls r + 1 ≤ s.sentCnt x := by
    intro x hx
    have h1 := hmin x hx
    rcases hs.fin x hx with ⟨_, h2⟩ | ⟨h2, _⟩
    · unfold Net.sentCnt; omega
    · have h3 : (s.pc x).sentBit = 1 := by
        have := hnr x hx
        cases hpc : s.pc x <;> simp_all [Pc.sentBit]
      unfold Net.sentCnt; omega
  -- a rank in `sent` with `calls r` completed calls can receive
  have key : ∀ x, x < n → s.pc x = .sent → s.calls x = s.calls r → False := by
    intro x hx hpc hcx
    have h1 := hs.chan_eq x hx
    have h2 : s.recvCnt x = s.calls r := by simp [Net.recvCnt, hpc, Pc.recvBit, hcx]
    have h3 := hsent_ge (fromProc n x) (fromProc_lt hx)
    obtain ⟨m, hm⟩ : ∃ m, s.sentCnt (fromProc n x) - s.recvCnt x = m + 1 :=
      ⟨s.sentCnt (fromProc n x) - s.recvCnt x - 1, by omega⟩
    rw [hm, List.range'_succ, List.map_cons] at h1
    exact hcon _ (Net.Step.recv s x hx hpc _ _ h1)
  cases hpc : s.pc r with
  | ready => exact hnr r hr hpc
  | sent => exact key r hr hpc rfl
  | finished =>
    rcases hs.fin r hr with ⟨_, h2⟩ | ⟨h1, _⟩
    · omega
    · exact h1 hpc
  | got q =>
    have hx := toProc_lt hr
    have h1 := hs.chan_eq (toProc n r) hx
    rw [from_to hr] at h1
    have hne : s.chan r (toProc n r) ≠ [] := fun he => hcon _ (Net.Step.wait s r hr q hpc (fun _ => he))
    have h3 : s.sentCnt r = s.calls r + 1 := by simp [Net.sentCnt, hpc, Pc.sentBit]
    have h4 : s.recvCnt (toProc n r) < s.sentCnt r := by
      by_contra h5
      have : s.sentCnt r - s.recvCnt (toProc n r) = 0 := by omega
      rw [this] at h1; exact hne h1
    have h6 := hmin _ hx
    have h7 : s.calls (toProc n r) = s.calls r := by
      unfold Net.recvCnt at h4; omega
    have h8 : (s.pc (toProc n r)).recvBit = 0 := by
      unfold Net.recvCnt at h4; omega
    cases hpc' : s.pc (toProc n r) with
    | ready => exact hnr _ hx hpc'
    | sent => exact key _ hx hpc' h7
    | got q' => rw [hpc'] at h8; simp [Pc.recvBit] at h8
    | finished =>
      rcases hs.fin _ hx with ⟨_, h2⟩ | ⟨h1, _⟩
      · omega
      · exact h1 hpc'

end Ring
end Redrock
