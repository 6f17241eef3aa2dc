import Verif.Lemmas.SpmdPhase

/-! Property C102: an MPI run of `rrdesi` does not hang. -/
set_option linter.unusedSectionVars false
namespace Redrock.Spmd
open Redrock

/-- the same calls on all ranks -/
theorem Phase.uniform {size n : Nat} (hn : n ≤ size) (h0 : 0 < n) (l : List Op) (hl : ∀ o ∈ l, (∃ h s, o = Op.work h s) ∨ ∃ c s, o = Op.coll n c s) : Phase size n (fun _ => l) := by
  induction l with
  | nil => exact Phase.nil _ _
  | cons o l ih =>
    have ih := ih (fun o' ho' => hl o' (by simp [ho']))
    have ho : Phase size n (fun _ => [o]) := by
      rcases hl o (by simp) with ⟨h, s, rfl⟩ | ⟨c, s, rfl⟩
      · exact Phase.works hn (fun _ _ o ho => by simp only [List.mem_singleton] at ho; exact ⟨_, _, ho⟩)
      · exact Phase.coll hn h0 c s
    exact (ho.append ih).congr (fun _ _ => rfl)

theorem Phase.root {size n : Nat} (hn : n ≤ size) (l : List Op) (hl : ∀ o ∈ l, ∃ h s, o = Op.work h s) : Phase size n (fun r => onRoot r l) := by
  refine Phase.works hn (fun r _ o ho => ?_)
  simp only [onRoot] at ho
  split_ifs at ho
  · exact hl o ho
  · simp at ho

theorem Phase.gather {size n : Nat} (hn : n ≤ size) (m : Nat → Nat) :
    Phase size n (fun r => if r = 0 then (List.range' 1 (n - 1)).flatMap (fun q => List.replicate (m q) (Op.recv q)) else (List.replicate (m r) (send 0)).flatten) := by
  have hrep : ∀ q, 0 < q → q < n → ∀ j, Phase size n (fun r => if r = 0 then List.replicate j (Op.recv q) else if r = q then (List.replicate j (send 0)).flatten else []) := by
    intro q h1 h2 j
    induction j with
    | zero => exact (Phase.nil size n).congr (fun r _ => by simp)
    | succ j ih =>
      refine ((Phase.sendRecv hn q h1 h2).append ih).congr (fun r _ => ?_)
      by_cases hr : r = 0
      · simp [hr, List.replicate_succ]
      · by_cases hq : r = q
        · subst hq; simp [hr, List.replicate_succ]
        · simp [hr, hq]
  have h : ∀ j, j ≤ n - 1 → Phase size n (fun r => if r = 0 then (List.range' 1 j).flatMap (fun q => List.replicate (m q) (Op.recv q)) else if r ≤ j then (List.replicate (m r) (send 0)).flatten else []) := by
    intro j
    induction j with
    | zero => intro _; exact (Phase.nil size n).congr (fun r _ => by by_cases hr : r = 0 <;> simp [hr])
    | succ j ih =>
      intro hj
      refine ((ih (by omega)).append (hrep (j + 1) (by omega) (by omega) (m (j + 1)))).congr (fun r _ => ?_)
      by_cases hr : r = 0
      · simp only [hr, if_true, List.range'_concat, List.flatMap_append]
        simp [Nat.add_comm]
      · simp only [hr, if_false]
        by_cases h1 : r ≤ j
        · rw [if_pos (by omega), if_pos h1, if_neg (by omega), List.append_nil]
        · by_cases h2 : r = j + 1
          · subst h2; simp
          · rw [if_neg (by omega), if_neg h1, if_neg h2]; rfl
  refine (h (n - 1) le_rfl).congr (fun r hr => ?_)
  by_cases h0 : r = 0
  · simp [h0]
  · simp only [h0, if_false]; rw [if_pos (by omega)]

theorem announced_eq (len : Nat) : announced len = sentBatches len := by
  unfold announced sentBatches
  split_ifs <;> omega

/-- Specification: the nodes of all ranks are alike as far as `/proc/driver/nvidia/gpus/` is concerned (needed only with `--gpu` and without `--max-gpuprocs`). -/
def SameNodes (c : Cfg) : Prop := c.gpu = true → c.maxGpuprocs = none → ∀ r, r < c.size → c.nvidia r = c.nvidia 0

theorem n_le (c : Cfg) : c.n ≤ c.size := by
  unfold Cfg.n
  split
  · split_ifs <;> omega
  · exact le_rfl

section
variable {c : Cfg} {size : Nat}

local macro "phases" : tactic => `(tactic| repeat' (first
  | exact Phase.nil _ _
  | (refine Phase.root (by assumption) _ ?_; simp; done)
  | (refine Phase.uniform (by assumption) (by assumption) _ ?_; simp; done)
  | apply Phase.append))

theorem phase_fileMeta (hn : c.n ≤ size) (h0 : 0 < c.n) (f : Nat) : Phase size c.n (fun r => fileMeta c r f) := by
  unfold fileMeta
  phases

theorem phase_bandData (hn : c.n ≤ size) (h0 : 0 < c.n) (f b ntarg : Nat) : Phase size c.n (fun r => bandData c r f b ntarg) := by
  unfold bandData
  have hres : Phase size c.n (fun _ => resolutionBcasts c.n ntarg f b) := by
    refine Phase.uniform hn h0 _ ?_
    unfold resolutionBcasts
    split_ifs <;> simp
  repeat' (first | exact hres | phases)

theorem phase_fileData (hn : c.n ≤ size) (h0 : 0 < c.n) (f : Nat) (fc : FileCfg) : Phase size c.n (fun r => fileData c r f fc) := by
  unfold fileData
  split_ifs
  · refine Phase.append (by phases) (Phase.flatMap _ (fun x _ => phase_bandData hn h0 f _ _))
  · exact Phase.nil _ _

theorem phase_readTargets (hn : c.n ≤ size) (h0 : 0 < c.n) : Phase size c.n (fun r => readTargets c r) := by
  unfold readTargets
  refine (((Phase.flatMap _ (fun x _ => phase_fileMeta hn h0 _)).append ?_).append (Phase.flatMap _ (fun x _ => phase_fileData hn h0 _ _))).append ?_ <;> phases

theorem phase_loadTemplates (hn : c.n ≤ size) (h0 : 0 < c.n) : Phase size c.n (fun r => loadTemplates c r) := by
  unfold loadTemplates
  phases

theorem phase_scanTargets (hn : c.n ≤ size) (h0 : 0 < c.n) : Phase size c.n (fun r => scanTargets c r) := by
  unfold scanTargets
  refine Phase.flatMap _ (fun t _ => ?_)
  have hloop : Phase size c.n (fun r => scanLoop c r t) := by
    unfold scanLoop
    split_ifs
    · phases
    · refine Phase.flatMap _ (fun i _ => ?_)
      exact (Phase.append (Phase.uniform hn h0 [.work c.inTry ⟨.zscan, 1008, [t, i]⟩] (by simp)) (Phase.cycle hn)).congr (fun _ _ => rfl)
  repeat' (first | exact hloop | phases)

theorem phase_gatherResults (hn : c.n ≤ size) : Phase size c.n (fun r => gatherResults c r) := by
  refine (Phase.gather hn (fun r => 1 + sentBatches (c.nresults r))).congr (fun r _ => ?_)
  unfold gatherResults
  split_ifs
  · congr 1; funext q; rw [announced_eq, Nat.add_comm, List.replicate_succ]
  · rw [Nat.add_comm 1, List.replicate_succ, List.flatten_cons]

theorem phase_zfind (hn : c.n ≤ size) (h0 : 0 < c.n) : Phase size c.n (fun r => zfindOps c r) := by
  unfold zfindOps
  have h1 := phase_gatherResults (size := size) hn
  have h2 : Phase size c.n (fun r => if c.chi2Scan then [Op.work c.inTry ⟨.zfind, 292, []⟩] else scanTargets c r) := by
    split_ifs
    · phases
    · exact phase_scanTargets hn h0
  refine Phase.append (Phase.append (Phase.append (Phase.append (Phase.append (Phase.append (Phase.append (Phase.append ?_ h2) ?_) (Phase.flatMap _ (fun t _ => ?_))) ?_) h1) ?_) ?_) ?_
  all_goals phases

theorem phase_write (hn : c.n ≤ size) (h0 : 0 < c.n) : Phase size c.n (fun r => writeOps c r) := by
  unfold writeOps
  refine Phase.append (Phase.append ?_ ?_) ?_ <;> split_ifs <;> phases

theorem phase_try (hn : c.n ≤ size) (h0 : 0 < c.n) : Phase size c.n (fun r => tryBlock c r) := by
  unfold tryBlock
  have h1 := phase_readTargets (size := size) hn h0
  have h2 := phase_loadTemplates (size := size) hn h0
  have h3 := phase_zfind (size := size) hn h0
  have h4 := phase_write (size := size) hn h0
  refine Phase.append (Phase.append (Phase.append (Phase.append (Phase.append (Phase.append (Phase.append (Phase.append (Phase.append ?_ h1) ?_) h2) ?_) h3) ?_) ?_) ?_) h4
  all_goals phases

theorem phase_checks (hn : c.n ≤ size) : Phase size c.n (fun r => checks c r) := by
  unfold checks
  split_ifs <;> phases

theorem phase_setup (hn : c.n ≤ size) (h0 : 0 < c.n) (hu : c.gpu = true → c.maxGpuprocs = none → ∀ r, r < c.n → c.nvidia r = c.nvidia 0) : Phase size c.n (fun r => setup c r) := by
  unfold setup
  refine Phase.append (Phase.append ?_ ?_) ?_
  · split_ifs <;> phases
  · phases
  · split_ifs with hg hm
    · have hm' : c.maxGpuprocs = none := Option.isNone_iff_eq_none.1 hm
      refine Phase.append ?_ (by phases)
      cases hv : c.nvidia 0 with
      | true =>
        refine Phase.congr (f := fun _ => [.work .die ⟨.utils, 243, []⟩]) (by phases) (fun r hr => ?_)
        rw [hu hg hm' r hr, hv, if_pos rfl]
      | false =>
        refine Phase.congr (f := fun _ => [.work .die ⟨.utils, 251, []⟩, .coll c.n .allgather ⟨.utils, 254, []⟩]) (by phases) (fun r hr => ?_)
        rw [hu hg hm' r hr, hv]; rfl
    · refine Phase.append ?_ ?_ <;> phases
    · phases

end

/-- a run without failures to the end exists -/
theorem completes (c : Cfg) (hs : 0 < c.size) (hu : SameNodes c) :
    ∃ N F, Chain c.size noFail true N (St.init (rrdesi c)) F ∧ ∀ r, r < c.size → F.rest r = [] := by
  have hfront : Phase c.size c.size (fun _ => [.coll c.size .barrier ⟨.desi, 684, []⟩, .work .die ⟨.desi, 788, []⟩] ++ (if c.splits then [.coll c.size .split ⟨.desi, 801, []⟩] else [])) := by
    refine Phase.uniform le_rfl hs _ ?_
    split_ifs <;> simp
  obtain ⟨N1, h1⟩ := hfront
  have h1 := h1 (fun r => if r < c.n then checks c r ++ setup c r ++ tryBlock c r ++ [.coll c.n .barrier ⟨.desi, 1251, []⟩] else []) (rrdesi c)
  have e1 : quiet (glue c.size (fun r => [.coll c.size .barrier ⟨.desi, 684, []⟩, .work .die ⟨.desi, 788, []⟩] ++ (if c.splits then [.coll c.size .split ⟨.desi, 801, []⟩] else []) ++
      (if r < c.n then checks c r ++ setup c r ++ tryBlock c r ++ [.coll c.n .barrier ⟨.desi, 1251, []⟩] else [])) (rrdesi c)) = St.init (rrdesi c) := by
    simp only [quiet, St.init, St.mk.injEq, and_true]
    funext r
    by_cases hr : r < c.size
    · simp only [glue, if_pos hr]; rfl
    · simp only [glue, if_neg hr]
  rw [e1] at h1
  have hle := n_le c
  rcases Nat.eq_zero_or_pos c.n with hz | hpos
  · refine ⟨N1, _, h1, fun r hr => ?_⟩
    simp [quiet, glue, hr, hz]
  · have hmain : Phase c.size c.n (fun r => checks c r ++ setup c r ++ tryBlock c r ++ [.coll c.n .barrier ⟨.desi, 1251, []⟩]) :=
      (((phase_checks hle).append (phase_setup hle hpos (fun a b r hr => hu a b r (by omega)))).append (phase_try hle hpos)).append (Phase.coll hle hpos _ _)
    obtain ⟨N2, h2⟩ := hmain
    have h2 := h2 (fun _ => []) (fun r => if r < c.size then [] else rrdesi c r)
    have e2 : glue c.n (fun r => checks c r ++ setup c r ++ tryBlock c r ++ [.coll c.n .barrier ⟨.desi, 1251, []⟩] ++ []) (fun r => if r < c.size then [] else rrdesi c r) =
        glue c.size (fun r => if r < c.n then checks c r ++ setup c r ++ tryBlock c r ++ [.coll c.n .barrier ⟨.desi, 1251, []⟩] else []) (rrdesi c) := by
      funext r
      simp only [glue, List.append_nil]
      by_cases hr : r < c.n
      · simp [hr, show r < c.size by omega]
      · simp [hr]
    rw [e2] at h2
    refine ⟨N1 + N2, _, h1.trans h2, fun r hr => ?_⟩
    simp only [quiet, glue, hr, if_true]
    split_ifs <;> rfl

theorem terminal {size : Nat} {fails : Nat → Site → Bool} {strict : Bool} {F : St} (h : ∀ r, r < size → F.rest r = []) (q : Nat) : fire size fails strict F q = none := by
  unfold fire
  by_cases hg : F.aborted = true ∨ F.dead q = true ∨ size ≤ q
  · rw [if_pos hg]
  · rw [if_neg hg, h q (by omega)]

/-- Specification: in this state no rank can make a step, although `comm.Abort()` was not called and some rank has not finished and has not raised an exception: it waits for ever. Sends are
not buffered (the worst case that MPI allows). -/
def Hangs (size : Nat) (fails : Nat → Site → Bool) (s : St) : Prop :=
  s.aborted = false ∧ (∃ r, r < size ∧ s.dead r = false ∧ s.rest r ≠ []) ∧ ∀ r, fire size fails true s r = none

/-- Specification: all ranks have done all their calls. -/
def Finished (size : Nat) (s : St) : Prop := s.aborted = false ∧ ∀ r, r < size → s.dead r = false ∧ s.rest r = []

theorem chain_flags {size : Nat} {strict : Bool} {k : Nat} {s t : St} (h : Chain size noFail strict k s t) : t.aborted = s.aborted ∧ t.dead = s.dead := by
  induction h with
  | refl => exact ⟨rfl, rfl⟩
  | cons hf _ ih =>
    rw [fire_iff] at hf
    rcases hf.2 with ⟨_, _, _, _, _, _, rfl⟩ | ⟨_, _, _, _, rfl⟩ <;> exact ih

/-- the length of a failing run -/
theorem fire_abort_or (size : Nat) (fails : Nat → Site → Bool) (strict : Bool) (s : St) (r : Nat) (t : St) (h : fire size fails strict s r = some t) :
    fire size noFail strict s r = some t ∨ ∃ hd site k, s.aborted = false ∧ s.dead r = false ∧ r < size ∧ s.rest r = .work hd site :: k ∧ fails r site = true ∧
      ((hd = .abort ∧ t = { s with aborted := true }) ∨ (hd = .die ∧ t = { s with dead := upd s.dead r true })) := by
  unfold fire at h ⊢
  by_cases hg : s.aborted = true ∨ s.dead r = true ∨ size ≤ r
  · rw [if_pos hg] at h; cases h
  · rw [if_neg hg] at h ⊢
    have hg' : s.aborted = false ∧ s.dead r = false ∧ r < size := by
      simp only [not_or, Bool.not_eq_true, not_le] at hg; exact hg
    cases hr : s.rest r with
    | nil => rw [hr] at h; cases h
    | cons op k =>
      rw [hr] at h
      cases op with
      | work hd site =>
        simp only at h ⊢
        by_cases hf : fails r site = true
        · rw [if_pos hf] at h
          cases hd with
          | abort => exact Or.inr ⟨_, site, k, hg'.1, hg'.2.1, hg'.2.2, rfl, hf, Or.inl ⟨rfl, (Option.some.inj h).symm⟩⟩
          | die => exact Or.inr ⟨_, site, k, hg'.1, hg'.2.1, hg'.2.2, rfl, hf, Or.inr ⟨rfl, (Option.some.inj h).symm⟩⟩
        · rw [if_neg hf] at h
          left; simpa [noFail] using h
      | coll => exact Or.inl h
      | isend => exact Or.inl h
      | wait => exact Or.inl h
      | recv => exact Or.inl h

/-- a step without failures is a step, unless the work fails -/
theorem fire_of_noFail (size : Nat) (fails : Nat → Site → Bool) (strict : Bool) (s : St) (r : Nat) (t : St) (h : fire size noFail strict s r = some t) :
    ∃ t', fire size fails strict s r = some t' := by
  unfold fire at h ⊢
  by_cases hg : s.aborted = true ∨ s.dead r = true ∨ size ≤ r
  · rw [if_pos hg] at h; cases h
  · rw [if_neg hg] at h ⊢
    cases hr : s.rest r with
    | nil => rw [hr] at h; cases h
    | cons op k =>
      rw [hr] at h
      cases op with
      | work hd site =>
        simp only
        split_ifs
        · cases hd <;> exact ⟨_, rfl⟩
        · exact ⟨_, rfl⟩
      | coll => exact ⟨t, h⟩
      | isend => exact ⟨t, h⟩
      | wait => exact ⟨t, h⟩
      | recv => exact ⟨t, h⟩

/-- what a rank has still to do is the end of its program -/
theorem rest_suffix {size : Nat} {fails : Nat → Site → Bool} {strict : Bool} {k : Nat} {s t : St} (h : Run size fails strict k s t) (r : Nat) : t.rest r <:+ s.rest r := by
  induction h with
  | refl => exact List.suffix_rfl
  | @step k s t u q _ hf ih =>
    refine List.IsSuffix.trans ?_ ih
    rcases fire_abort_or size fails strict t q u hf with h | ⟨hd, site, k', _, _, _, _, _, ⟨_, rfl⟩ | ⟨_, rfl⟩⟩
    · rw [fire_iff] at h
      rcases h.2 with ⟨n, c, site, k', _, _, rfl⟩ | ⟨op, k', e1, _, rfl⟩
      · simp only
        split_ifs
        · exact List.tail_suffix _
        · exact List.suffix_rfl
      · simp only [upd]
        split_ifs with hq
        · subst hq; rw [e1]; exact List.suffix_cons _ _
        · exact List.suffix_rfl
    · exact List.suffix_rfl
    · exact List.suffix_rfl

/-- as long as nothing has failed the run is a run without failures -/
theorem run_noFail {size : Nat} {fails : Nat → Site → Bool} {strict : Bool} {k : Nat} {s t : St} (h : Run size fails strict k s t) (h0 : s.aborted = false ∧ ∀ r, s.dead r = false)
    (ha : t.aborted = false) (hd : ∀ r, t.dead r = false) : Run size noFail strict k s t := by
  induction h with
  | refl => exact .refl _
  | @step k s t u q h hf ih =>
    rcases fire_abort_or size fails strict t q u hf with h1 | ⟨hh, site, k', a1, a2, a3, a4, a5, ⟨_, rfl⟩ | ⟨_, rfl⟩⟩
    · have hfl := chain_flags (.cons h1 (.refl _))
      exact .step (ih h0 (by rw [← hfl.1]; exact ha) (fun r => by rw [← hfl.2]; exact hd r)) h1
    · simp at ha
    · have := hd q
      simp [upd] at this

/-- work of rank `r` that is done once in a finished run did not fail -/
theorem work_done {size : Nat} {fails : Nat → Site → Bool} {strict : Bool} {k : Nat} {s t : St} (h : Run size fails strict k s t) (r : Nat) (hd : OnFail) (site : Site)
    (hm : Op.work hd site ∈ s.rest r) (hf : fails r site = true) : Op.work hd site ∈ t.rest r := by
  induction h with
  | refl => exact hm
  | @step k s t u q _ hfire ih =>
    have ih := ih hm
    unfold fire at hfire
    split_ifs at hfire with hg
    cases hr : t.rest q with
    | nil => rw [hr] at hfire; cases hfire
    | cons op rest' =>
      rw [hr] at hfire
      cases op with
      | work h' site' =>
        simp only at hfire
        split_ifs at hfire with hff
        · cases h' <;> cases hfire <;> exact ih
        · cases hfire
          simp only [upd]
          split_ifs with hq
          · subst hq
            rw [hr] at ih
            rcases List.mem_cons.1 ih with he | he
            · cases he; exact absurd hf hff
            · exact he
          · exact ih
      | coll n c site' =>
        simp only at hfire
        split_ifs at hfire with hc
        cases hfire
        simp only
        split_ifs with hq
        · have := ((allAt_iff t n _).1 hc.2.2 r hq).2
          cases hrr : t.rest r with
          | nil => rw [hrr] at ih; cases ih
          | cons o os =>
            rw [hrr] at this ih
            simp only [List.head?_cons, Option.some.injEq] at this
            rcases List.mem_cons.1 ih with he | he
            · rw [this] at he; cases he
            · exact he
        · exact ih
      | isend d =>
        simp only [Option.map_eq_some_iff] at hfire
        obtain ⟨ch, _, rfl⟩ := hfire
        simp only [upd]
        split_ifs with hq
        · subst hq; rw [hr] at ih
          rcases List.mem_cons.1 ih with he | he
          · cases he
          · exact he
        · exact ih
      | wait d =>
        simp only [Option.map_eq_some_iff] at hfire
        obtain ⟨ch, _, rfl⟩ := hfire
        simp only [upd]
        split_ifs with hq
        · subst hq; rw [hr] at ih
          rcases List.mem_cons.1 ih with he | he
          · cases he
          · exact he
        · exact ih
      | recv d =>
        simp only [Option.map_eq_some_iff] at hfire
        obtain ⟨ch, _, rfl⟩ := hfire
        simp only [upd]
        split_ifs with hq
        · subst hq; rw [hr] at ih
          rcases List.mem_cons.1 ih with he | he
          · cases he
          · exact he
        · exact ih

/-- **C102** without failures, for every number of ranks, files, bands, rows, templates and results, all options and every order in which the ranks run: there is no deadlock and no endless run.
All runs have at most `N` steps, and a run that cannot be continued has exactly `N` and all ranks have finished. -/
theorem C102_no_deadlock_partial (c : Cfg) (hs : 0 < c.size) (hu : SameNodes c) :
    ∃ N, ∀ k s, Run c.size noFail false k (St.init (rrdesi c)) s → k ≤ N ∧ ¬ Hangs c.size noFail s ∧ (Finished c.size s ↔ k = N) := by
  obtain ⟨N, F, hc, hF⟩ := completes c hs hu
  refine ⟨N, fun k s hrun => ?_⟩
  obtain ⟨M, hM, hch⟩ := descent_run c.size (terminal hF) hc hrun
  have hfl := chain_flags hrun.toChain
  refine ⟨by omega, ?_, ?_⟩
  · rintro ⟨_, ⟨r, r1, r2, r3⟩, h3⟩
    cases hch with
    | refl => exact r3 (hF r r1)
    | cons hf _ => rw [h3] at hf; cases hf
  · constructor
    · rintro ⟨_, hfin⟩
      cases hch with
      | refl => omega
      | cons hf _ => rw [terminal (fun r hr => (hfin r hr).2)] at hf; cases hf
    · rintro rfl
      have : M = 0 := by omega
      subst this
      cases hch
      exact ⟨by rw [hfl.1]; rfl, fun r hr => ⟨by rw [hfl.2]; rfl, hF r hr⟩⟩

/-- **C102** when work fails (on any ranks, at any places), but only where `rrdesi` calls `comm.Abort()`: there is no deadlock and no endless run either, and a run that cannot be continued was aborted
if and only if some work of some rank fails; otherwise all ranks have finished. -/
theorem C102_failure_aborts_partial (c : Cfg) (hs : 0 < c.size) (hu : SameNodes c) (fails : Nat → Site → Bool)
    (hg : ∀ r, r < c.size → ∀ site, Op.work .die site ∈ rrdesi c r → fails r site = false) :
    ∃ N, ∀ k s, Run c.size fails false k (St.init (rrdesi c)) s → k ≤ N ∧ ¬ Hangs c.size fails s ∧ (∀ r, r < c.size → s.dead r = false) ∧
      ((∀ r, fire c.size fails true s r = none) →
        (s.aborted = true ∧ ∃ r, r < c.size ∧ ∃ hd site, Op.work hd site ∈ rrdesi c r ∧ fails r site = true) ∨
        (Finished c.size s ∧ ¬ ∃ r, r < c.size ∧ ∃ hd site, Op.work hd site ∈ rrdesi c r ∧ fails r site = true)) := by
  obtain ⟨N, F, hc, hF⟩ := completes c hs hu
  refine ⟨N + 1, fun k s hrun => ?_⟩
  have key : (∀ r, s.dead r = false) ∧ ((s.aborted = false ∧ Run c.size noFail false k (St.init (rrdesi c)) s) ∨
      (s.aborted = true ∧ (∃ t k', k = k' + 1 ∧ Run c.size noFail false k' (St.init (rrdesi c)) t) ∧
        ∃ r, r < c.size ∧ ∃ hd site, Op.work hd site ∈ rrdesi c r ∧ fails r site = true)) := by
    generalize hi : St.init (rrdesi c) = init at hrun
    induction hrun with
    | refl s => subst hi; exact ⟨fun _ => rfl, Or.inl ⟨rfl, .refl _⟩⟩
    | @step k s t u q h hf ih =>
      obtain ⟨i1, i2⟩ := ih hi
      rcases fire_abort_or c.size fails false t q u hf with h1 | ⟨hh, site, k', a1, a2, a3, a4, a5, hb⟩
      · have hta : t.aborted = false := ((fire_iff _ _ _ _ _).1 h1).1.1
        have hfl := chain_flags (.cons h1 (.refl _))
        refine ⟨fun r => by rw [hfl.2]; exact i1 r, Or.inl ⟨by rw [hfl.1]; exact hta, ?_⟩⟩
        rcases i2 with ⟨_, i2⟩ | ⟨i2, _⟩
        · exact .step i2 h1
        · rw [hta] at i2; cases i2
      · have hmem : Op.work hh site ∈ rrdesi c q := by
          have := rest_suffix h q
          rw [a4] at this
          subst hi
          exact this.subset (by simp)
        rcases hb with ⟨rfl, rfl⟩ | ⟨rfl, rfl⟩
        · refine ⟨i1, Or.inr ⟨rfl, ⟨t, k, rfl, ?_⟩, q, a3, _, site, hmem, a5⟩⟩
          rcases i2 with ⟨_, i2⟩ | ⟨i2, _⟩
          · exact i2
          · rw [a1] at i2; cases i2
        · rw [hg q a3 site hmem] at a5; cases a5
  obtain ⟨hdead, hk⟩ := key
  rcases hk with ⟨ha, hk⟩ | ⟨ha, ⟨t, k', rfl, hk⟩, hex⟩
  · obtain ⟨M, hM, hch⟩ := descent_run c.size (terminal hF) hc hk
    have hstuck : (∀ r, fire c.size fails true s r = none) → ∀ r, r < c.size → s.rest r = [] := by
      intro hn
      cases hch with
      | refl => exact hF
      | @cons _ _ _ _ q hf _ =>
        obtain ⟨t', ht'⟩ := fire_of_noFail c.size fails true s q _ hf
        rw [hn q] at ht'; cases ht'
    refine ⟨by omega, ?_, fun r _ => hdead r, fun hn => ?_⟩
    · rintro ⟨_, ⟨r, r1, _, r3⟩, h3⟩
      exact r3 (hstuck h3 r r1)
    · refine Or.inr ⟨?_, ?_⟩
      · exact ⟨ha, fun r hr => ⟨hdead r, hstuck hn r hr⟩⟩
      · rintro ⟨r, hr, hd, site, hm, hf⟩
        have := work_done hrun r hd site hm hf
        rw [hstuck hn r hr] at this
        cases this
  · obtain ⟨M, hM, _⟩ := descent_run c.size (terminal hF) hc hk
    refine ⟨by omega, ?_, fun r _ => hdead r, fun _ => ?_⟩
    · rintro ⟨h, _⟩
      rw [ha] at h; cases h
    · exact Or.inl ⟨ha, hex⟩

/-! ### unprotected failures -/

/-- number of steps that are left at most -/
def fuel (size : Nat) (s : St) : Nat := ((List.range size).map (fun r => (s.rest r).length + (if s.dead r then 0 else 1))).sum + (if s.aborted then 0 else 1)

theorem sum_le_of {l : List Nat} {f g : Nat → Nat} (h : ∀ x ∈ l, f x ≤ g x) : (l.map f).sum ≤ (l.map g).sum := by
  induction l with
  | nil => simp
  | cons x l ih =>
    have h1 := h x (by simp)
    have h2 := ih (fun y hy => h y (by simp [hy]))
    simp only [List.map_cons, List.sum_cons]; omega

theorem sum_lt_of {l : List Nat} {f g : Nat → Nat} (h : ∀ x ∈ l, f x ≤ g x) (x : Nat) (hx : x ∈ l) (hlt : f x < g x) : (l.map f).sum < (l.map g).sum := by
  induction l with
  | nil => cases hx
  | cons y l ih =>
    have h1 := h y (by simp)
    simp only [List.map_cons, List.sum_cons]
    rcases List.mem_cons.1 hx with rfl | hx
    · have := sum_le_of (l := l) (fun z hz => h z (by simp [hz])); omega
    · have := ih (fun z hz => h z (by simp [hz])) hx; omega

theorem fuel_step {size : Nat} {fails : Nat → Site → Bool} {strict : Bool} {s t : St} {r : Nat} (h : fire size fails strict s r = some t) : fuel size t < fuel size s := by
  rcases fire_abort_or size fails strict s r t h with h1 | ⟨hd, site, k, a1, a2, a3, a4, a5, ⟨_, rfl⟩ | ⟨_, rfl⟩⟩
  · rw [fire_iff] at h1
    obtain ⟨⟨g1, g2, g3⟩, h1⟩ := h1
    have hr : r ∈ List.range size := List.mem_range.2 g3
    rcases h1 with ⟨n, c, site, k, e1, ⟨rfl, e2, e3⟩, rfl⟩ | ⟨op, k, e1, e2, rfl⟩
    · unfold fuel
      apply Nat.add_lt_add_right
      refine sum_lt_of ?_ 0 hr ?_
      · intro q _
        simp only
        split_ifs <;> simp
      · simp only [e2, if_true, e1]; simp
    · unfold fuel
      apply Nat.add_lt_add_right
      refine sum_lt_of ?_ r hr ?_
      · intro q _
        simp only [upd]
        by_cases hq : q = r
        · subst hq; simp [e1]
        · simp [hq]
      · simp [upd, e1]
  · unfold fuel
    simp [a1]
  · unfold fuel
    apply Nat.add_lt_add_right
    refine sum_lt_of ?_ r (List.mem_range.2 a3) ?_
    · intro q _
      simp only [upd]
      by_cases hq : q = r
      · subst hq; simp
      · simp [hq]
    · simp [upd, a2]

theorem fuel_run {size : Nat} {fails : Nat → Site → Bool} {strict : Bool} {k : Nat} {s t : St} (h : Run size fails strict k s t) : k + fuel size t ≤ fuel size s := by
  induction h with
  | refl => simp
  | step _ hf ih => have := fuel_step hf; omega

/-- the last call -/
def lastCall (c : Cfg) : Op := .coll c.n .barrier ⟨.desi, 1251, []⟩

/-- nobody leaves before the last barrier, and then all do -/
structure Together (c : Cfg) (s : St) : Prop where
  last : ∀ r, r < c.n → s.rest r ≠ [] → ∃ l, s.rest r = l ++ [lastCall c] ∧ lastCall c ∉ l
  all : ∀ r, r < c.n → s.rest r = [] → ∀ q, q < c.n → s.rest q = []
  dead : ∀ r, s.dead r = true → s.rest r ≠ []

theorem lastCall_not_mem (c : Cfg) (r : Nat) : lastCall c ∉ [Op.coll c.size .barrier ⟨.desi, 684, []⟩, .work .die ⟨.desi, 788, []⟩] ++
    (if c.splits then [.coll c.size .split ⟨.desi, 801, []⟩] else []) ++ (checks c r ++ setup c r ++ tryBlock c r) := by
  have hr : ∀ l : List Op, lastCall c ∉ l → lastCall c ∉ onRoot r l := by
    intro l hl; unfold onRoot; split_ifs <;> simp [hl]
  have h1 : lastCall c ∉ checks c r := hr _ (by unfold lastCall; split_ifs <;> simp)
  have h2 : lastCall c ∉ setup c r := by unfold setup lastCall; split_ifs <;> simp
  have hm : ∀ f, lastCall c ∉ fileMeta c r f := by
    intro f; unfold fileMeta onRoot lastCall; split_ifs <;> simp
  have hb : ∀ f b m, lastCall c ∉ bandData c r f b m := by
    intro f b m; unfold bandData onRoot lastCall resolutionBcasts; split_ifs <;> simp
  have hd : ∀ f fc, lastCall c ∉ fileData c r f fc := by
    intro f fc; unfold fileData
    split_ifs
    · simp only [List.mem_append, List.mem_flatMap, not_or, not_exists, not_and]
      exact ⟨hr _ (by unfold lastCall; simp), fun x _ => hb _ _ _⟩
    · simp
  have h3 : lastCall c ∉ readTargets c r := by
    unfold readTargets
    simp only [List.mem_append, List.mem_flatMap, not_or, not_exists, not_and]
    refine ⟨⟨⟨fun x _ => hm _, ?_⟩, fun x _ => hd _ _⟩, ?_⟩ <;> simp [lastCall]
  have h4 : lastCall c ∉ loadTemplates c r := by
    unfold loadTemplates onRoot lastCall; split_ifs <;> simp
  have h5 : lastCall c ∉ scanTargets c r := by
    unfold scanTargets
    simp only [List.mem_append, List.mem_flatMap, not_or, not_exists, not_and]
    intro t _
    refine ⟨⟨by simp [lastCall], ?_⟩, by simp [lastCall]⟩
    unfold scanLoop lastCall cycleOps; split_ifs <;> simp
  have h6 : lastCall c ∉ gatherResults c r := by
    unfold gatherResults lastCall send; split_ifs <;> simp
  have h7 : lastCall c ∉ zfindOps c r := by
    unfold zfindOps
    simp only [List.mem_append, not_or]
    refine ⟨⟨⟨⟨⟨⟨⟨⟨?_, ?_⟩, ?_⟩, ?_⟩, ?_⟩, h6⟩, ?_⟩, ?_⟩, ?_⟩
    · simp [lastCall]
    · split_ifs
      · simp [lastCall]
      · exact h5
    · simp [lastCall]
    · simp [lastCall]
    · simp [lastCall]
    · simp [lastCall]
    · exact hr _ (by simp [lastCall])
    · simp [lastCall]
  have h8 : lastCall c ∉ writeOps c r := by
    unfold writeOps onRoot lastCall; split_ifs <;> simp
  have h9 : lastCall c ∉ tryBlock c r := by
    unfold tryBlock
    simp only [List.mem_append, not_or]
    refine ⟨⟨⟨⟨⟨⟨⟨⟨⟨?_, h3⟩, ?_⟩, h4⟩, ?_⟩, h7⟩, ?_⟩, hr _ ?_⟩, ?_⟩, h8⟩ <;> simp [lastCall]
  simp only [List.mem_append, not_or]
  refine ⟨⟨by simp [lastCall], ?_⟩, ⟨h1, h2⟩, h9⟩
  split_ifs <;> simp [lastCall]

theorem together_init (c : Cfg) : Together c (St.init (rrdesi c)) := by
  refine ⟨fun r hr _ => ?_, fun r hr h => ?_, fun r h => ?_⟩
  · simp only [St.init]
    unfold rrdesi lastCall
    rw [if_pos hr]
    exact ⟨_, by rw [← List.append_assoc], lastCall_not_mem c r⟩
  · simp only [St.init, rrdesi, List.cons_append, reduceCtorEq] at h
  · simp [St.init] at h

theorem tail_last {l k : List Op} {o x : Op} (h : o :: k = l ++ [x]) (hx : x ∉ l) (hk : k ≠ []) : ∃ l', k = l' ++ [x] ∧ x ∉ l' := by
  cases l with
  | nil => simp only [List.nil_append, List.cons.injEq] at h; exact absurd h.2 hk
  | cons y l => simp only [List.cons_append, List.cons.injEq] at h; exact ⟨l, h.2, fun hm => hx (by simp [hm])⟩

theorem together_step {c : Cfg} {fails : Nat → Site → Bool} {strict : Bool} {s t : St} {r : Nat} (hs : Together c s) (h : fire c.size fails strict s r = some t) : Together c t := by
  rcases fire_abort_or c.size fails strict s r t h with h1 | ⟨hd, site, k, a1, a2, a3, a4, a5, ⟨_, rfl⟩ | ⟨_, rfl⟩⟩
  · rw [fire_iff] at h1
    obtain ⟨⟨g1, g2, g3⟩, h1⟩ := h1
    rcases h1 with ⟨n, cc, site, k, e1, ⟨rfl, e2, e3⟩, rfl⟩ | ⟨op, k, e1, e2, rfl⟩
    · rw [allAt_iff] at e3
      have hhead : ∀ q, q < n → ∃ k', s.rest q = .coll n cc site :: k' := by
        intro q hq
        have := (e3 q hq).2
        cases hr : s.rest q with
        | nil => rw [hr] at this; cases this
        | cons o k' => rw [hr] at this; simp only [List.head?_cons, Option.some.injEq] at this; exact ⟨k', by rw [this]⟩
      refine ⟨?_, ?_, ?_⟩
      · intro q hq hne
        simp only at hne ⊢
        split_ifs at hne ⊢ with hqn
        · obtain ⟨k', hk'⟩ := hhead q hqn
          obtain ⟨l, hl, hx⟩ := hs.last q hq (by rw [hk']; simp)
          rw [hk'] at hl hne ⊢
          exact tail_last hl hx hne
        · exact hs.last q hq hne
      · intro q hq he q' hq'
        simp only at he ⊢
        by_cases hqn : q < n
        · rw [if_pos hqn] at he
          obtain ⟨k', hk'⟩ := hhead q hqn
          rw [hk'] at he
          simp only [List.tail_cons] at he
          subst he
          obtain ⟨l, hl, _⟩ := hs.last q hq (by rw [hk']; simp)
          rw [hk'] at hl
          have hop : Op.coll n cc site = lastCall c := by
            cases l with
            | nil => simp only [List.nil_append, List.cons.injEq, and_true] at hl; exact hl
            | cons y l => simp at hl
          have hn : n = c.n := by
            unfold lastCall at hop; injection hop
          rw [if_pos (by omega)]
          obtain ⟨k'', hk''⟩ := hhead q' (by omega)
          obtain ⟨l, hl, hx⟩ := hs.last q' hq' (by rw [hk'']; simp)
          rw [hk'']
          simp only [List.tail_cons]
          rw [hk''] at hl
          cases l with
          | nil => simp only [List.nil_append, List.cons.injEq] at hl; exact hl.2
          | cons y l =>
            simp only [List.cons_append, List.cons.injEq] at hl
            exact absurd (by rw [← hl.1, hop]; simp) hx
        · rw [if_neg hqn] at he
          have h0 := hs.all q hq he 0 (by omega)
          rw [h0] at e1; cases e1
      · intro q hq
        simp only
        by_cases hqn : q < n
        · have := (e3 q hqn).1
          rw [this] at hq; cases hq
        · rw [if_neg hqn]; exact hs.dead q hq
    · have hne : ∀ l, op :: k = l ++ [lastCall c] → k ≠ [] := by
        rintro l hl rfl
        cases l with
        | nil => simp only [List.nil_append, List.cons.injEq, and_true] at hl; rw [hl] at e2; exact e2
        | cons y l => simp at hl
      refine ⟨?_, ?_, ?_⟩
      · intro q hq hqne
        simp only [upd] at hqne ⊢
        split_ifs at hqne ⊢ with hqr
        · subst hqr
          obtain ⟨l, hl, hx⟩ := hs.last q hq (by rw [e1]; simp)
          rw [e1] at hl
          exact tail_last hl hx hqne
        · exact hs.last q hq hqne
      · intro q hq he q' hq'
        simp only [upd] at he ⊢
        split_ifs at he with hqr
        · subst hqr
          obtain ⟨l, hl, hx⟩ := hs.last q hq (by rw [e1]; simp)
          rw [e1] at hl
          exact absurd he (hne l hl)
        · split_ifs with hqr'
          · subst hqr'
            have := hs.all q hq he q' hq'
            rw [e1] at this; cases this
          · exact hs.all q hq he q' hq'
      · intro q hq
        simp only at hq
        have : q ≠ r := by rintro rfl; rw [g2] at hq; cases hq
        simp only [upd_other _ _ this]
        exact hs.dead q hq
  · exact ⟨hs.last, hs.all, hs.dead⟩
  · exact ⟨hs.last, hs.all, fun q hq => by
      simp only [upd] at hq
      split_ifs at hq with hqr
      · subst hqr; rw [a4]; simp
      · exact hs.dead q hq⟩

theorem together_run {c : Cfg} {fails : Nat → Site → Bool} {strict : Bool} {k : Nat} {s : St} (h : Run c.size fails strict k (St.init (rrdesi c)) s) : Together c s := by
  generalize hi : St.init (rrdesi c) = init at h
  induction h with
  | refl => subst hi; exact together_init c
  | step _ hf ih => exact together_step (ih hi) hf

/-- **C102** once a rank that takes part in the work has left with an exception, no other rank of the run ever finishes. -/
theorem C102_others_never_finish (c : Cfg) (fails : Nat → Site → Bool) (strict : Bool) (k : Nat) (s : St) (h : Run c.size fails strict k (St.init (rrdesi c)) s) (r : Nat) (hr : r < c.n)
    (hd : s.dead r = true) : ∀ q, q < c.n → s.rest q ≠ [] := by
  intro q hq he
  have ht := together_run h
  exact ht.dead r hd (ht.all q hq he r hr)

/-- work that does not fail is done by a rank that has not left -/
theorem dead_of {c : Cfg} {fails : Nat → Site → Bool} {strict : Bool} {k : Nat} {s : St} (h : Run c.size fails strict k (St.init (rrdesi c)) s) :
    (s.aborted = true → ∃ q, q < c.size ∧ ∃ site, Op.work .abort site ∈ rrdesi c q ∧ fails q site = true) ∧
    (∀ r, s.dead r = true → r < c.size ∧ ∃ site, Op.work .die site ∈ rrdesi c r ∧ fails r site = true) := by
  generalize hi : St.init (rrdesi c) = init at h
  induction h with
  | refl => subst hi; exact ⟨fun h => (by cases h), fun r h => (by cases h)⟩
  | @step k s t u q h hf ih =>
    have ih := ih hi
    rcases fire_abort_or c.size fails strict t q u hf with h1 | ⟨hh, site, k', a1, a2, a3, a4, a5, hb⟩
    · have hfl := chain_flags (.cons h1 (.refl _))
      rw [hfl.1, hfl.2]; exact ih
    · have hmem : Op.work hh site ∈ rrdesi c q := by
        have := rest_suffix h q
        rw [a4] at this
        subst hi
        exact this.subset (by simp)
      rcases hb with ⟨rfl, rfl⟩ | ⟨rfl, rfl⟩
      · exact ⟨fun _ => ⟨q, a3, site, hmem, a5⟩, ih.2⟩
      · refine ⟨ih.1, fun r hr => ?_⟩
        simp only [upd] at hr
        split_ifs at hr with hrq
        · subst hrq; exact ⟨a3, site, hmem, a5⟩
        · exact ih.2 r hr

/-- **C102** refuted for unprotected failures: if work fails on some rank that takes part, nowhere with `comm.Abort()`, and there is a rank on which nothing fails, then every run comes to a point where it
cannot go on, and there the ranks on which nothing failed wait for ever. -/
theorem C102_unprotected_hangs (c : Cfg) (hs : 0 < c.size) (hu : SameNodes c) (fails : Nat → Site → Bool) (hna : ∀ r, r < c.size → ∀ site, Op.work .abort site ∈ rrdesi c r → fails r site = false)
    (r0 : Nat) (h0 : r0 < c.n) (site0 : Site) (hd0 : OnFail) (hm0 : Op.work hd0 site0 ∈ rrdesi c r0) (hf0 : fails r0 site0 = true) (r1 : Nat) (h1 : r1 < c.n)
    (hok : ∀ site hd, Op.work hd site ∈ rrdesi c r1 → fails r1 site = false)
    (hout : ∀ r, c.n ≤ r → ∀ site, fails r site = false) :
    (∃ N, ∀ k s, Run c.size fails false k (St.init (rrdesi c)) s → k ≤ N) ∧
    ∀ k s, Run c.size fails false k (St.init (rrdesi c)) s → (∀ r, fire c.size fails true s r = none) → Hangs c.size fails s ∧ s.dead r1 = false ∧ s.rest r1 ≠ [] := by
  refine ⟨⟨_, fun k s h => (Nat.le_add_right _ _).trans (fuel_run h)⟩, fun k s h hn => ?_⟩
  have hle := n_le c
  obtain ⟨d1, d2⟩ := dead_of h
  have ha : s.aborted = false := by
    cases hc : s.aborted with
    | false => rfl
    | true => obtain ⟨q, hq, site, hm, hf⟩ := d1 hc; rw [hna q hq site hm] at hf; cases hf
  have hd1 : s.dead r1 = false := by
    cases hc : s.dead r1 with
    | false => rfl
    | true => obtain ⟨_, site, hm, hf⟩ := d2 r1 hc; rw [hok site _ hm] at hf; cases hf
  have hne : s.rest r1 ≠ [] := by
    by_cases hall : ∀ r, s.dead r = false
    · obtain ⟨N, F, hc, hF⟩ := completes c hs hu
      have hrun := run_noFail h ⟨rfl, fun _ => rfl⟩ ha hall
      obtain ⟨M, hM, hch⟩ := descent_run c.size (terminal hF) hc hrun
      cases hch with
      | refl =>
        have := work_done h r0 hd0 site0 hm0 hf0
        rw [hF r0 (by omega)] at this; cases this
      | @cons _ _ _ _ q hf _ =>
        obtain ⟨t', ht'⟩ := fire_of_noFail c.size fails true s q _ hf
        rw [hn q] at ht'; cases ht'
    · push Not at hall
      obtain ⟨r, hr⟩ := hall
      have hr : s.dead r = true := by simpa using hr
      have hrn : r < c.n := by
        by_contra hge
        obtain ⟨_, site, _, hf⟩ := d2 r hr
        rw [hout r (by omega) site] at hf; cases hf
      exact C102_others_never_finish c fails false k s h r hrn hr r1 h1
  exact ⟨⟨ha, ⟨r1, by omega, hd1, hne⟩, hn⟩, hd1, hne⟩

end Redrock.Spmd
