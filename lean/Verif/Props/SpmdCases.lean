import Verif.Props.Spmd

/-! Property C102: the cases in which an MPI run of `rrdesi` hangs. -/
set_option linter.unusedSectionVars false
namespace Redrock.Spmd
open Redrock

/-- work in the `try` block -/
def TryWork (c : Cfg) (o : Op) : Prop := ∀ hd site, o = .work hd site → hd = c.inTry ∧ site.line ≠ 830 ∧ site.line ≠ 880 ∧ site.line ≠ 894

theorem tryBlock_work (c : Cfg) (r : Nat) : ∀ o ∈ tryBlock c r, TryWork c o := by
  have hw : ∀ s : Site, TryWork c (.work c.inTry s) ↔ (s.line ≠ 830 ∧ s.line ≠ 880 ∧ s.line ≠ 894) := by
    intro s; constructor
    · intro h; exact (h _ _ rfl).2
    · rintro h hd site he; cases he; exact ⟨rfl, h⟩
  have hc : ∀ n k s, TryWork c (.coll n k s) := by intro n k s hd site he; cases he
  have hi : ∀ d, TryWork c (.isend d) := by intro d hd site he; cases he
  have hwt : ∀ d, TryWork c (.wait d) := by intro d hd site he; cases he
  have hrc : ∀ d, TryWork c (.recv d) := by intro d hd site he; cases he
  have hr : ∀ l : List Op, (∀ o ∈ l, TryWork c o) → ∀ o ∈ onRoot r l, TryWork c o := by
    intro l hl; unfold onRoot; split_ifs
    · exact hl
    · simp
  have hfm : ∀ {α : Type} (l : List α) (f : α → List Op), (∀ a ∈ l, ∀ o ∈ f a, TryWork c o) → ∀ o ∈ l.flatMap f, TryWork c o := by
    intro α l f h o ho
    obtain ⟨a, ha, ho⟩ := List.mem_flatMap.1 ho
    exact h a ha o ho
  have hm : ∀ f, ∀ o ∈ fileMeta c r f, TryWork c o := by
    intro f; unfold fileMeta onRoot; split_ifs <;> simp [hw, hc]
  have hb : ∀ f b m, ∀ o ∈ bandData c r f b m, TryWork c o := by
    intro f b m; unfold bandData
    simp only [List.forall_mem_append]
    refine ⟨⟨⟨⟨⟨⟨⟨⟨hr _ ?_, ?_⟩, hr _ ?_⟩, ?_⟩, hr _ ?_⟩, ?_⟩, hr _ ?_⟩, ?_⟩, ?_⟩ <;> try simp [hw, hc]
    unfold resolutionBcasts
    split_ifs <;> simp [hc]
  have hd : ∀ f fc, ∀ o ∈ fileData c r f fc, TryWork c o := by
    intro f fc; unfold fileData
    split_ifs
    · simp only [List.forall_mem_append, List.mem_flatMap]
      refine ⟨hr _ (by simp [hw]), ?_⟩
      rintro o ⟨x, _, ho⟩
      exact hb _ _ _ o ho
    · simp
  have h3 : ∀ o ∈ readTargets c r, TryWork c o := by
    unfold readTargets
    simp only [List.forall_mem_append, List.mem_flatMap]
    refine ⟨⟨⟨?_, by simp [hw]⟩, ?_⟩, by simp [hw]⟩
    · rintro o ⟨x, _, ho⟩; exact hm _ o ho
    · rintro o ⟨x, _, ho⟩; exact hd _ _ o ho
  have h4 : ∀ o ∈ loadTemplates c r, TryWork c o := by
    unfold loadTemplates
    simp only [List.forall_mem_append, List.forall_mem_map]
    refine ⟨⟨⟨⟨?_, hr _ ?_⟩, ?_⟩, ?_⟩, ?_⟩ <;> simp [hw, hc]
  have h5 : ∀ o ∈ scanTargets c r, TryWork c o := by
    unfold scanTargets
    refine hfm _ _ fun t _ => ?_
    simp only [List.forall_mem_append]
    refine ⟨⟨by simp [hc], ?_⟩, by simp [hw, hc]⟩
    unfold scanLoop cycleOps; split_ifs
    · simp [hw]
    · refine hfm _ _ fun i _ => ?_
      simp [hw, hi, hwt, hrc]
  have h6 : ∀ o ∈ gatherResults c r, TryWork c o := by
    unfold gatherResults
    split_ifs
    · intro o ho
      obtain ⟨q, _, ho⟩ := List.mem_flatMap.1 ho
      rcases List.mem_cons.1 ho with rfl | ho
      · exact hrc _
      · rw [(List.mem_replicate.1 ho).2]; exact hrc _
    · have hsend : ∀ o ∈ send 0, TryWork c o := by unfold send; simp [hi, hwt]
      simp only [List.forall_mem_append]
      refine ⟨hsend, ?_⟩
      intro o ho
      obtain ⟨l, hl, ho⟩ := List.mem_flatten.1 ho
      rw [(List.mem_replicate.1 hl).2] at ho
      exact hsend o ho
  have h7 : ∀ o ∈ zfindOps c r, TryWork c o := by
    unfold zfindOps
    simp only [List.forall_mem_append]
    refine ⟨⟨⟨⟨⟨⟨⟨⟨?_, ?_⟩, ?_⟩, ?_⟩, ?_⟩, h6⟩, ?_⟩, hr _ ?_⟩, ?_⟩
    · simp [hw, hc]
    · split_ifs
      · simp [hw]
      · exact h5
    · simp [hw, hc]
    · refine hfm _ _ fun t _ => ?_
      simp [hw, hc]
    · simp [hw, hc]
    · simp [hc]
    · simp [hw]
    · simp [hc]
  have h8 : ∀ o ∈ writeOps c r, TryWork c o := by
    unfold writeOps onRoot; split_ifs <;> simp [hw, hc]
  unfold tryBlock
  simp only [List.forall_mem_append]
  refine ⟨⟨⟨⟨⟨⟨⟨⟨⟨?_, h3⟩, ?_⟩, h4⟩, ?_⟩, h7⟩, ?_⟩, hr _ ?_⟩, ?_⟩, h8⟩ <;> simp [hw, hc]

/-- where `comm.Abort()` is called -/
theorem abort_sites (c : Cfg) (r : Nat) (site : Site) (h : Op.work .abort site ∈ rrdesi c r) : site.line ≠ 894 ∧ (site.line = 830 ∨ site.line = 880 ∨ c.inTry = .abort) := by
  unfold rrdesi at h
  simp only [List.mem_append] at h
  rcases h with (h | h) | h
  · simp at h
  · split_ifs at h <;> simp at h
  · split_ifs at h
    · simp only [List.mem_append] at h
      rcases h with ((h | h) | h) | h
      · unfold checks onRoot at h
        split_ifs at h <;> simp at h
        · rcases h with rfl | rfl <;> simp
        · rcases h with rfl | rfl <;> simp
        · subst h; simp
      · unfold setup at h
        split_ifs at h <;> simp at h
      · have := tryBlock_work c r _ h _ _ rfl
        exact ⟨this.2.2.2, Or.inr (Or.inr this.1.symm)⟩
      · simp at h
    · simp at h

/-- Specification: the places at which an exception is not caught: before the `try` block, apart from the two checks on rank 0. -/
def unprotected : List Site := [⟨.desi, 788, []⟩, ⟨.desi, 894, []⟩, ⟨.desi, 906, []⟩, ⟨.desi, 910, []⟩, ⟨.utils, 243, []⟩, ⟨.utils, 251, []⟩]

/-- **C102** the complete list of places where an exception lets other ranks hang, when `--no-mpi-abort` is not given. -/
theorem C102_die_sites (c : Cfg) (hno : c.noMpiAbort = false) (r : Nat) (site : Site) (h : Op.work .die site ∈ rrdesi c r) : site ∈ unprotected := by
  unfold rrdesi at h
  simp only [List.mem_append] at h
  rcases h with (h | h) | h
  · simp at h; simp [unprotected, h]
  · split_ifs at h <;> simp at h
  · split_ifs at h
    · simp only [List.mem_append] at h
      rcases h with ((h | h) | h) | h
      · unfold checks onRoot at h
        split_ifs at h <;> simp at h
        simp [unprotected, h]
      · unfold setup at h
        split_ifs at h <;> simp at h <;> simp only [unprotected, List.mem_cons] <;> tauto
      · have := (tryBlock_work c r _ h _ _ rfl).1
        simp [Cfg.inTry, hno] at this
      · simp at h
    · simp at h

/-- **C102** without `--no-mpi-abort`, if exceptions are raised anywhere but at these places, every run ends, aborted if and only if some work fails, else finished. -/
theorem C102_protected_partial (c : Cfg) (hs : 0 < c.size) (hu : SameNodes c) (hno : c.noMpiAbort = false) (fails : Nat → Site → Bool) (hg : ∀ r site, site ∈ unprotected → fails r site = false) :
    ∃ N, ∀ k s, Run c.size fails false k (St.init (rrdesi c)) s → k ≤ N ∧ ¬ Hangs c.size fails s ∧
      ((∀ r, fire c.size fails true s r = none) →
        (s.aborted = true ∧ ∃ r, r < c.size ∧ ∃ hd site, Op.work hd site ∈ rrdesi c r ∧ fails r site = true) ∨
        (Finished c.size s ∧ ¬ ∃ r, r < c.size ∧ ∃ hd site, Op.work hd site ∈ rrdesi c r ∧ fails r site = true)) := by
  obtain ⟨N, h⟩ := C102_failure_aborts_partial c hs hu fails (fun r _ site hm => hg r site (C102_die_sites c hno r site hm))
  exact ⟨N, fun k s hr => ⟨(h k s hr).1, (h k s hr).2.1, (h k s hr).2.2.2⟩⟩

/-- **C102** refuted: an archetype file whose name has no `-` (line 894, before the `try` block, on rank 0 only). With two or more ranks at work every run stops and all other ranks wait for ever. -/
theorem C102_refuted_archetype_name (c : Cfg) (hn : 2 ≤ c.n) (hu : SameNodes c) (ha : c.archetypes = true) (hf : c.archFile = true) :
    let fails : Nat → Site → Bool := fun r site => decide (r = 0 ∧ site = ⟨.desi, 894, []⟩)
    (∃ N, ∀ k s, Run c.size fails false k (St.init (rrdesi c)) s → k ≤ N) ∧
    ∀ k s, Run c.size fails false k (St.init (rrdesi c)) s → (∀ r, fire c.size fails true s r = none) → Hangs c.size fails s ∧ ∀ q, 0 < q → q < c.n → s.dead q = false ∧ s.rest q ≠ [] := by
  intro fails
  have hle := n_le c
  have hmem : Op.work .die ⟨.desi, 894, []⟩ ∈ rrdesi c 0 := by
    have h0 : 0 < c.n := by omega
    simp [rrdesi, checks, onRoot, ha, hf, h0]
  have main : ∀ q, 0 < q → q < c.n → _ := fun q h0 hq => C102_unprotected_hangs c (by omega) hu fails
    (fun r _ site hm => by
      have := (abort_sites c r site hm).1
      simp only [fails, decide_eq_false_iff_not]
      rintro ⟨_, rfl⟩
      exact this rfl)
    0 (by omega) ⟨.desi, 894, []⟩ .die hmem (by simp [fails]) q hq
    (fun site hd _ => by simp only [fails, decide_eq_false_iff_not]; omega)
    (fun r hr site => by simp only [fails, decide_eq_false_iff_not]; omega)
  refine ⟨(main 1 (by omega) (by omega)).1, fun k s h hst => ⟨((main 1 (by omega) (by omega)).2 k s h hst).1, fun q h0 hq => ?_⟩⟩
  exact ((main q h0 hq).2 k s h hst).2

/-- **C102** refuted with `--no-mpi-abort`: any exception of one rank in the `try` block, whatever its place, lets all other ranks wait for ever. -/
theorem C102_refuted_no_mpi_abort (c : Cfg) (hn : 2 ≤ c.n) (hu : SameNodes c) (hno : c.noMpiAbort = true) (r0 : Nat) (h0 : r0 < c.n) (site : Site) (hd : OnFail)
    (hm : Op.work hd site ∈ tryBlock c r0) :
    let fails : Nat → Site → Bool := fun r s => decide (r = r0 ∧ s = site)
    (∃ N, ∀ k s, Run c.size fails false k (St.init (rrdesi c)) s → k ≤ N) ∧
    ∀ k s, Run c.size fails false k (St.init (rrdesi c)) s → (∀ r, fire c.size fails true s r = none) → Hangs c.size fails s ∧ ∀ q, q ≠ r0 → q < c.n → s.dead q = false ∧ s.rest q ≠ [] := by
  intro fails
  have hle := n_le c
  have hmem : Op.work hd site ∈ rrdesi c r0 := by
    simp [rrdesi, h0, hm]
  have hlines := tryBlock_work c r0 _ hm hd site rfl
  have main : ∀ q, q ≠ r0 → q < c.n → _ := fun q hq0 hq => C102_unprotected_hangs c (by omega) hu fails
    (fun r _ s' hm' => by
      simp only [fails, decide_eq_false_iff_not]
      rintro ⟨_, rfl⟩
      rcases (abort_sites c r s' hm').2 with h | h | h
      · exact hlines.2.1 h
      · exact hlines.2.2.1 h
      · simp [Cfg.inTry, hno] at h)
    r0 h0 site hd hmem (by simp [fails]) q hq
    (fun s' hd' _ => by simp only [fails, decide_eq_false_iff_not]; tauto)
    (fun r hr s' => by simp only [fails, decide_eq_false_iff_not]; omega)
  obtain ⟨q1, hq1, hq1'⟩ : ∃ q, q ≠ r0 ∧ q < c.n := by
    by_cases h : r0 = 0
    · exact ⟨1, by omega, by omega⟩
    · exact ⟨0, fun h' => h h'.symm, by omega⟩
  refine ⟨(main q1 hq1 hq1').1, fun k s h hst => ⟨((main q1 hq1 hq1').2 k s h hst).1, fun q h0 hq => ?_⟩⟩
  exact ((main q h0 hq).2 k s h hst).2

/-- **C102** refuted on nodes that differ: with `--gpu` and without `--max-gpuprocs`, if `/proc/driver/nvidia/gpus/` exists on the nodes of some ranks and not on those of others, these make
different collective calls. Nothing fails, yet every run stops after `N` steps with all ranks waiting. -/
theorem C102_refuted_mixed_nodes (c : Cfg) (hg : c.gpu = true) (hm : c.maxGpuprocs = none) (a b : Nat) (ha : a < c.size) (hb : b < c.size) (hva : c.nvidia a = true) (hvb : c.nvidia b = false) :
    ∃ N, ∀ k s, Run c.size noFail false k (St.init (rrdesi c)) s → k ≤ N ∧ (k < N → ∃ r t, fire c.size noFail true s r = some t) ∧
      (k = N → Hangs c.size noFail s ∧ ∀ r, r < c.size → s.rest r ≠ []) := by
  have hn : c.n = c.size := by unfold Cfg.n; rw [hg, hm]
  have hsp : c.splits = false := by unfold Cfg.splits; rw [hg, hm]
  have hs : 0 < c.size := by omega
  let tl : Nat → List Op := fun r => tryBlock c r ++ [.coll c.n .barrier ⟨.desi, 1251, []⟩]
  let mid : Nat → List Op := fun r => (if c.nvidia r then [] else [.coll c.n .allgather ⟨.utils, 254, []⟩]) ++ [.coll c.n .allgather ⟨.desi, 965, []⟩] ++ tl r
  let pre : Nat → List Op := fun r => [.coll c.size .barrier ⟨.desi, 684, []⟩, .work .die ⟨.desi, 788, []⟩] ++ (checks c r ++ ((if c.archetypes then [.work .die ⟨.desi, 906, []⟩] else []) ++
    [.work .die ⟨.desi, 910, []⟩] ++ (if c.nvidia r then [.work .die ⟨.utils, 243, []⟩] else [.work .die ⟨.utils, 251, []⟩])))
  have hprog : ∀ r, r < c.size → rrdesi c r = pre r ++ mid r := by
    intro r hr
    simp only [rrdesi, pre, mid, tl, setup, hg, hm, hsp, hn, if_pos hr]
    cases c.nvidia r <;> simp
  have hchk : Phase c.size c.size (fun r => checks c r) := by
    have := phase_checks (c := c) (size := c.size) (n_le c)
    rwa [hn] at this
  have hpre : Phase c.size c.size pre := by
    refine Phase.append (Phase.uniform le_rfl hs _ (by simp)) (Phase.append hchk (Phase.works le_rfl ?_))
    intro r _ o ho
    split_ifs at ho <;> simp at ho <;> (first | exact ⟨_, _, ho⟩ | (rcases ho with rfl | rfl | rfl <;> exact ⟨_, _, rfl⟩))
  obtain ⟨N, hN⟩ := hpre
  have hN := hN mid (rrdesi c)
  have e : quiet (glue c.size (fun r => pre r ++ mid r) (rrdesi c)) = St.init (rrdesi c) := by
    simp only [quiet, St.init, St.mk.injEq, and_true]
    funext r
    by_cases hr : r < c.size
    · simp only [glue, if_pos hr]; exact (hprog r hr).symm
    · simp only [glue, if_neg hr]
  rw [e] at hN
  set F := quiet (glue c.size mid (rrdesi c)) with hFdef
  have hrest : ∀ r, r < c.size → F.rest r = mid r := fun r hr => by simp [F, quiet, glue, hr]
  have hhead : ∀ r, r < c.size → (F.rest r).head? = some (if c.nvidia r then Op.coll c.n .allgather ⟨.desi, 965, []⟩ else .coll c.n .allgather ⟨.utils, 254, []⟩) := by
    intro r hr
    rw [hrest r hr]
    simp only [mid]
    cases c.nvidia r <;> simp
  have hstuck : ∀ (st : Bool) q, fire c.size noFail st F q = none := by
    intro st q
    cases hf : fire c.size noFail st F q with
    | none => rfl
    | some t =>
      exfalso
      rw [fire_iff] at hf
      obtain ⟨⟨_, _, hq⟩, h⟩ := hf
      have hq' := hhead q hq
      rcases h with ⟨n, cc, site, k, e1, ⟨rfl, e2, e3⟩, -⟩ | ⟨op, k, e1, e2, -⟩
      · rw [e1] at hq'
        simp only [List.head?_cons, Option.some.injEq] at hq'
        have hnn : n = c.size := by
          cases hv : c.nvidia 0 <;> rw [hv] at hq' <;> simp only [if_true, Bool.false_eq_true, if_false, Op.coll.injEq] at hq' <;> rw [hq'.1, hn]
        rw [allAt_iff] at e3
        have h1 := (e3 a (by omega)).2
        have h2 := (e3 b (by omega)).2
        rw [hhead a ha, hva] at h1
        rw [hhead b hb, hvb] at h2
        rw [← h2] at h1
        simp at h1
      · rw [e1] at hq'
        simp only [List.head?_cons, Option.some.injEq] at hq'
        subst hq'
        split_ifs at e2 <;> exact e2
  refine ⟨N, fun k s hrun => ?_⟩
  obtain ⟨M, hM, hch⟩ := descent_run c.size (hstuck false) hN hrun
  refine ⟨by omega, fun hlt => ?_, fun heq => ?_⟩
  · cases hch with
    | refl => omega
    | cons hf _ => exact ⟨_, _, hf⟩
  · have : M = 0 := by omega
    subst this
    cases hch
    have hne : ∀ r, r < c.size → F.rest r ≠ [] := by
      intro r hr h
      have := hhead r hr
      rw [h] at this; cases this
    exact ⟨⟨rfl, ⟨0, hs, rfl, hne 0 hs⟩, hstuck true⟩, hne⟩

/-- **C102** with `--gpu --max-gpuprocs 0` (or less) every rank leaves after the split: no work is done, nothing is written and no error is reported. -/
theorem C102_nothing_done (c : Cfg) (hs : 0 < c.size) (hg : c.gpu = true) (m : Int) (hm : c.maxGpuprocs = some m) (hm0 : m ≤ 0) (r : Nat) :
    rrdesi c r = [.coll c.size .barrier ⟨.desi, 684, []⟩, .work .die ⟨.desi, 788, []⟩, .coll c.size .split ⟨.desi, 801, []⟩] := by
  have hn : c.n = 0 := by
    unfold Cfg.n; rw [hg, hm]
    simp only
    split_ifs <;> omega
  have hsp : c.splits = true := by
    unfold Cfg.splits; rw [hg, hm]; simp; omega
  simp [rrdesi, hn, hsp]

/-- the hypotheses are met: three ranks, two files, one with more than 10000 rows in a band, two templates, archetypes, all outputs -/
def exampleCfg : Cfg :=
  { size := 3, gpu := false, maxGpuprocs := none, nvidia := fun _ => false, archetypes := true, archFile := true, files := [⟨true, [20001, 5]⟩, ⟨false, []⟩], ntemplates := 2,
    nresults := fun r => 7000 * r, chi2Scan := false, details := true, outfile := true, model := true, noMpiAbort := false }

example : 0 < exampleCfg.size ∧ SameNodes exampleCfg ∧ 2 ≤ exampleCfg.n ∧ exampleCfg.archetypes = true ∧ exampleCfg.archFile = true :=
  ⟨by decide, fun h => (by cases h), by decide, rfl, rfl⟩

/-- a failure that aborts: rank 0 cannot open the second file -/
example : ∀ r, r < exampleCfg.size → ∀ site, Op.work .die site ∈ rrdesi exampleCfg r → (decide (r = 0 ∧ site = ⟨.desi, 289, [1]⟩)) = false := by
  intro r _ site hm
  simp only [decide_eq_false_iff_not]
  rintro ⟨rfl, rfl⟩
  revert hm
  decide +kernel

end Redrock.Spmd
