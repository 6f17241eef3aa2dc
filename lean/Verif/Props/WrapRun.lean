import Verif.Props.Wrap
import Verif.Props.WrapFiles
import Verif.Lemmas.Mpi
import Verif.Lemmas.Run

/-!
C97: what a run of `wrap-redrock` calls, and what later runs call. C98: the log files. C99: the command lines and the batch script.
-/
namespace Redrock
namespace Wrap
set_option linter.unusedSectionVars false

/-! ### lemmas -/

theorem arraySplit_spec {α : Type} (xs : List α) (n : Nat) (hn : 0 < n) : ∃ parts, arraySplit xs n = .ok parts ∧ parts.length = n ∧ parts.flatten = xs := by
  refine ⟨splitSizes (sectionSizes xs.length n) xs, by unfold arraySplit; rw [if_neg (by omega)], ?_, ?_⟩
  · rw [splitSizes_length, sectionSizes_length _ _ hn]
  · exact splitSizes_flatten _ _ (by rw [sectionSizes_sum _ _ hn])

theorem countSlice_eq (nt : PyStr → Nat) (specfiles : List PyStr) (slice : List Nat) (h : ∀ j ∈ slice, j < specfiles.length) :
    countSlice nt specfiles slice = .ok (slice.map (fun j => nt ((specfiles[j]?).getD []))) := by
  unfold countSlice
  rw [Run.mapM_ok_iff]
  rw [List.forall₂_map_right_iff]
  apply List.forall₂_same.2
  intro j hj
  have := h j hj
  simp [this, bind, Except.bind, pure, Except.pure]

theorem countTargets_eq (nt : PyStr → Nat) (specfiles : List PyStr) (size : Nat) (hs : 0 < size) : countTargets nt specfiles size = .ok (specfiles.map nt) := by
  obtain ⟨parts, h1, _, h3⟩ := arraySplit_spec (List.range specfiles.length) size hs
  unfold countTargets
  rw [h1]
  simp only [bind, Except.bind]
  have hm : parts.mapM (countSlice nt specfiles) = .ok (parts.map (fun sl => sl.map (fun j => nt ((specfiles[j]?).getD [])))) := by
    rw [Run.mapM_ok_iff, List.forall₂_map_right_iff]
    apply List.forall₂_same.2
    intro sl hsl
    apply countSlice_eq
    intro j hj
    have : j ∈ parts.flatten := List.mem_flatten.2 ⟨sl, hsl, hj⟩
    rw [h3] at this
    exact List.mem_range.1 this
  rw [hm]
  simp only [pure, Except.pure, Except.ok.injEq]
  rw [← List.map_flatten, h3]
  apply List.ext_getElem
  · simp
  · intro i hi1 hi2
    have : i < specfiles.length := by simpa using hi2
    simp [this]

section
variable {K : Type} [Field K] [LinearOrder K] [IsStrictOrderedRing K] [FloorRing K]

/-- What is assumed of `np.argsort(-weights)`: all indices, each once. -/
def IsArgsort (argsort : List K → List Nat) : Prop := ∀ xs, (argsort xs).Perm (List.range xs.length)

theorem sum_runtime_pos (nt : PyStr → Nat) (specfiles : List PyStr) (h : specfiles ≠ []) : (0 : K) < ((specfiles.map nt).map (runtime (K := K))).sum := by
  apply List.sum_pos
  · intro x hx
    obtain ⟨n, _, rfl⟩ := List.mem_map.1 hx
    unfold runtime
    positivity
  · simpa using h

/-- the groups of `plan` partition the files -/
theorem planGroups_partition (argsort : List K → List Nat) (ha : IsArgsort argsort) (nt : PyStr → Nat) (dt : DataType) (specfiles : List PyStr) (hne : specfiles ≠ []) (maxnodes : Int) (size : Option Nat)
    (hs : ∀ s, size = some s → 0 < s) (groups : List (List Nat)) (h : planGroups argsort nt dt specfiles maxnodes size = .ok groups) : groups.flatten.Perm (List.range specfiles.length) := by
  unfold planGroups at h
  rw [if_neg hne] at h
  cases dt with
  | desi =>
    simp only at h
    unfold groupSpecfiles at h
    rw [countTargets_eq nt specfiles _ (by cases size with | none => simp | some s => exact hs s rfl)] at h
    simp only [bind, Except.bind] at h
    split at h
    · simp [throw, throwThe, MonadExceptOf.throw] at h
    · rename_i hneg
      have hp := ha ((specfiles.map nt).map (runtime (K := K)))
      simp only [List.length_map] at hp
      rcases Nat.eq_zero_or_pos (numNodes size maxnodes ((specfiles.map nt).map (runtime (K := K))).sum).toNat with h0 | hpos
      · simp only [pure, Except.pure] at h
        rw [h0, C94_no_groups _ _ (by intro e; rw [e] at hp; have := hp.length_eq; simp at this; exact hne (List.length_eq_zero_iff.1 this.symm))] at h
        simp at h
      · obtain ⟨g, h1, _, h3⟩ := C94_partition (fun i => ((((specfiles.map nt).map (runtime (K := K)))[i]?).getD 0)) _ specfiles.length hpos _ hp
        simp only [pure, Except.pure] at h
        rw [h1] at h
        simp only [Except.ok.injEq] at h
        rw [← h]
        exact h3
  | boss =>
    simp only at h
    split at h
    · simp at h
    · rename_i hm
      obtain ⟨parts, h1, _, h3⟩ := arraySplit_spec (List.range specfiles.length) maxnodes.toNat (by omega)
      rw [h1] at h
      obtain rfl := Except.ok.inj h
      rw [h3]

theorem runGroups_inv (argsort : List K → List Nat) (nt : PyStr → Nat) (dt : DataType) (specfiles : List PyStr) (maxnodes : Int) (size : Option Nat) (groups : List (List Nat))
    (h : runGroups argsort nt dt specfiles maxnodes size = .ok groups) :
    planGroups argsort nt dt specfiles (min maxnodes (size.getD 1)) size = .ok groups ∧ groups.length = size.getD 1 ∧ groups.flatten.length = specfiles.length := by
  unfold runGroups at h
  simp only [bind, Except.bind] at h
  split at h
  · simp at h
  · rename_i g hg
    split at h
    · simp [throw, throwThe, MonadExceptOf.throw] at h
    · rename_i h1
      split at h
      · simp [throw, throwThe, MonadExceptOf.throw] at h
      · rename_i h2
        simp only [pure, Except.pure, Except.ok.injEq] at h
        subst h
        exact ⟨hg, by push Not at h1; exact h1, by push Not at h2; exact h2⟩

/-- **C97** with MPI and DESI files, or without MPI, the files that need processing are shared among all processes: as many groups as processes, every file in exactly one group. -/
theorem C97_shared_desi (argsort : List K → List Nat) (ha : IsArgsort argsort) (nt : PyStr → Nat) (specfiles : List PyStr) (hne : specfiles ≠ []) (maxnodes : Int) (size : Option Nat)
    (hs : ∀ s, size = some s → 0 < s) (hm : size = none → 1 ≤ maxnodes) :
    ∃ groups, runGroups argsort nt .desi specfiles maxnodes size = .ok groups ∧ groups.length = size.getD 1 ∧ groups.flatten.Perm (List.range specfiles.length) := by
  have hsz : 0 < size.getD 1 := by cases size with | none => simp | some s => exact hs s rfl
  have hnum : numNodes size (min maxnodes ((size.getD 1 : Nat) : Int)) ((specfiles.map nt).map (runtime (K := K))).sum = ((size.getD 1 : Nat) : Int) := by
    unfold numNodes
    cases size with
    | some s => rfl
    | none =>
      simp only [Option.getD_none]
      have h1 := hm rfl
      have h2 : (1 : Int) ≤ ⌈((specfiles.map nt).map (runtime (K := K))).sum / (25 * 60)⌉ := by
        apply Int.one_le_ceil_iff.2
        have := sum_runtime_pos (K := K) nt specfiles hne
        positivity
      have e : min maxnodes ((1 : Nat) : Int) = 1 := by simp [h1]
      rw [e, min_eq_left h2]
      rfl
  have hp := ha ((specfiles.map nt).map (runtime (K := K)))
  simp only [List.length_map] at hp
  obtain ⟨g, h1, h2, h3⟩ := C94_partition (fun i => ((((specfiles.map nt).map (runtime (K := K)))[i]?).getD 0)) (size.getD 1) specfiles.length hsz _ hp
  have hplan : planGroups argsort nt .desi specfiles (min maxnodes (size.getD 1)) size = .ok g := by
    unfold planGroups
    rw [if_neg hne]
    simp only
    unfold groupSpecfiles
    rw [countTargets_eq nt specfiles _ hsz]
    simp only [bind, Except.bind]
    rw [hnum, if_neg (by omega)]
    simp only [pure, Except.pure, Int.toNat_natCast]
    rw [h1]
  refine ⟨g, ?_, h2, h3⟩
  unfold runGroups
  simp only [bind, Except.bind, hplan, h2, ne_eq, not_true_eq_false, if_false]
  rw [h3.length_eq]
  simp [pure, Except.pure]

/-- **C97** BOSS files are shared as well if `--maxnodes` is at least the number of processes. -/
theorem C97_shared_boss (argsort : List K → List Nat) (nt : PyStr → Nat) (specfiles : List PyStr) (hne : specfiles ≠ []) (maxnodes : Int) (size : Option Nat)
    (hs : ∀ s, size = some s → 0 < s) (hm : ((size.getD 1 : Nat) : Int) ≤ maxnodes) :
    ∃ groups, runGroups argsort nt .boss specfiles maxnodes size = .ok groups ∧ groups.length = size.getD 1 ∧ groups.flatten = List.range specfiles.length := by
  have hsz : 0 < size.getD 1 := by cases size with | none => simp | some s => exact hs s rfl
  obtain ⟨parts, h1, h2, h3⟩ := arraySplit_spec (List.range specfiles.length) (size.getD 1) hsz
  refine ⟨parts, ?_, h2, h3⟩
  unfold runGroups planGroups
  have e : min maxnodes ((size.getD 1 : Nat) : Int) = ((size.getD 1 : Nat) : Int) := min_eq_right hm
  simp only [bind, Except.bind, if_neg hne, e]
  rw [if_neg (by omega)]
  simp only [Int.toNat_natCast, h1, h2, h3, ne_eq, not_true_eq_false, if_false, List.length_range]
  rfl

/-- **C97** BOSS with more processes than `--maxnodes` (256 by default): the run ends with an `AssertionError` and nothing is processed. -/
theorem C97_boss_too_many_ranks (argsort : List K → List Nat) (nt : PyStr → Nat) (specfiles : List PyStr) (hne : specfiles ≠ []) (maxnodes : Int) (s : Nat) (h1 : 1 ≤ maxnodes) (h2 : maxnodes < s) :
    runGroups argsort nt .boss specfiles maxnodes (some s) = .error .assertionError := by
  obtain ⟨parts, e1, e2, e3⟩ := arraySplit_spec (List.range specfiles.length) maxnodes.toNat (by omega)
  unfold runGroups planGroups
  have e : min maxnodes (s : Int) = maxnodes := min_eq_left h2.le
  simp only [bind, Except.bind, if_neg hne, Option.getD_some, e]
  rw [if_neg (by omega)]
  simp only [e1]
  rw [if_pos (by rw [e2]; omega)]
  rfl

/-- **C97** if everything has been processed already, a run ends with an `AssertionError`. -/
theorem C97_nothing_left (argsort : List K → List Nat) (nt : PyStr → Nat) (dt : DataType) (maxnodes : Int) (size : Option Nat) (hs : ∀ s, size = some s → 0 < s) :
    runGroups argsort nt dt [] maxnodes size = .error .assertionError := by
  have hsz : 0 < size.getD 1 := by cases size with | none => simp | some s => exact hs s rfl
  unfold runGroups planGroups
  simp only [bind, Except.bind, if_true, List.length_nil]
  rw [if_pos (by omega)]
  rfl

/-! calls -/

theorem tries_file (f : PyStr) (o : Nat → Outcome) : ∀ (n k : Nat), ∀ c ∈ tries f o n k, c.file = f := by
  intro n
  induction n with
  | zero => intro k c hc; simp [tries] at hc
  | succ n ih =>
    intro k c hc
    rw [tries] at hc
    rcases List.mem_cons.1 hc with rfl | hc
    · rfl
    · split at hc
      · split at hc
        · simp at hc
        · exact ih _ c hc
      · simp at hc

theorem runRank_file (outcome : PyStr → Nat → Outcome) (specfiles : List PyStr) (group : List Nat) (c : Call) :
    c ∈ runRank outcome specfiles group ↔ ∃ i ∈ group, ∃ f, specfiles[i]? = some f ∧ c ∈ tries f (outcome f) 2 0 := by
  unfold runRank
  rw [List.mem_flatMap]
  apply exists_congr; intro i
  apply and_congr_right; intro _
  cases h : specfiles[i]? with
  | none => simp
  | some f => simp

theorem runRank_filter (outcome : PyStr → Nat → Outcome) (specfiles : List PyStr) (hnd : specfiles.Nodup) (i : Nat) (f : PyStr) (hf : specfiles[i]? = some f) :
    ∀ (group : List Nat), group.Nodup → i ∈ group → (runRank outcome specfiles group).filter (fun c => c.file = f) = tries f (outcome f) 2 0 := by
  have hother : ∀ j, j ≠ i → ∀ g, specfiles[j]? = some g → g ≠ f := by
    intro j hj g hg e
    subst e
    obtain ⟨h1, h1'⟩ := List.getElem?_eq_some_iff.1 hf
    obtain ⟨h2, h2'⟩ := List.getElem?_eq_some_iff.1 hg
    exact hj ((List.Nodup.getElem_inj_iff hnd).1 (h2'.trans h1'.symm))
  have hnone : ∀ group : List Nat, i ∉ group → (runRank outcome specfiles group).filter (fun c => c.file = f) = [] := by
    intro group hi
    rw [List.filter_eq_nil_iff]
    intro c hc
    obtain ⟨j, hj, g, hg, hc'⟩ := (runRank_file outcome specfiles group c).1 hc
    rw [tries_file g _ _ _ c hc']
    have := hother j (by rintro rfl; exact hi hj) g hg
    simpa using this
  intro group
  induction group with
  | nil => intro _ h; simp at h
  | cons j group ih =>
    intro hnd' hi
    have hsplit : runRank outcome specfiles (j :: group) = runRank outcome specfiles [j] ++ runRank outcome specfiles group := by simp [runRank]
    rw [hsplit, List.filter_append]
    rw [List.nodup_cons] at hnd'
    rcases List.mem_cons.1 hi with rfl | hi
    · rw [hnone group hnd'.1, List.append_nil]
      simp only [runRank, List.flatMap_cons, List.flatMap_nil, List.append_nil, hf]
      rw [List.filter_eq_self]
      intro c hc
      simpa using tries_file f _ _ _ c hc
    · rename_i hi'
      rw [hnone [j] (by simp; rintro rfl; exact hnd'.1 hi), List.nil_append]
      exact ih hnd'.2 hi

/-- both output files exist -/
def Done (ex : PyStr → Bool) (outdir : Option PyStr) (pre f : PyStr) : Prop := ex (rrfile pre outdir f) = true ∧ ex (detailsfile pre outdir f) = true

theorem mem_needed (ex : PyStr → Bool) (outdir : Option PyStr) (pre : PyStr) (all : List PyStr) (f : PyStr) : f ∈ needed ex outdir pre all ↔ f ∈ all ∧ ¬ Done ex outdir pre f := by
  unfold needed Done
  rw [List.mem_filter]
  apply and_congr_right; intro _
  cases h1 : ex (rrfile pre outdir f) <;> cases h2 : ex (detailsfile pre outdir f) <;> simp_all [rrfile, detailsfile]

/-- **C97** a run in which all processes get to work: a spectra file whose two output files exist is not touched; any other one is processed by exactly one process, with one call if that succeeds (or raises), with
exactly two if the first fails; however the calls for the other files end. -/
theorem C97_each_file_once (argsort : List K → List Nat) (ha : IsArgsort argsort) (nt : PyStr → Nat) (isInt : PyStr → Bool) (dt : DataType) (all : List PyStr) (hnd : all.Nodup) (ex : PyStr → Bool)
    (outdir : Option PyStr) (pre : PyStr) (maxnodes : Int) (size : Option Nat) (hs : ∀ s, size = some s → 0 < s) (outcome : PyStr → Nat → Outcome) (ranks : List (List Call))
    (h : wrapRun argsort nt isInt dt all ex outdir pre maxnodes size outcome = .ok ranks) :
    (∀ rank ∈ ranks, ∀ c ∈ rank, c.file ∈ all ∧ ¬ Done ex outdir pre c.file) ∧
    ∀ f ∈ all, ¬ Done ex outdir pre f → ∃ r, ∃ hr : r < ranks.length, (∀ r', ∀ hr' : r' < ranks.length, r' ≠ r → ∀ c ∈ ranks[r'], c.file ≠ f) ∧
      ((ranks[r].filter (fun c => c.file = f) = [⟨f, 0, outcome f 0⟩] ∧ (outcome f 0 = .exit 0 ∨ outcome f 0 = .raised)) ∨
       (ranks[r].filter (fun c => c.file = f) = [⟨f, 0, outcome f 0⟩, ⟨f, 1, outcome f 1⟩] ∧ ∃ code, code ≠ 0 ∧ outcome f 0 = .exit code)) := by
  unfold wrapRun at h
  simp only [bind, Except.bind] at h
  split at h
  · simp [throw, throwThe, MonadExceptOf.throw] at h
  · split at h
    · simp at h
    · rename_i groups hg
      split at h
      · simp at h
      · simp only [pure, Except.pure, Except.ok.injEq] at h
        obtain ⟨hplan, hlen, hfl⟩ := runGroups_inv _ _ _ _ _ _ _ hg
        have hgp : groups.flatten.Perm (List.range (needed ex outdir pre all).length) := by
          by_cases hne : needed ex outdir pre all = []
          · rw [hne] at hfl ⊢
            simp only [List.length_nil, List.length_eq_zero_iff] at hfl
            rw [hfl]; simp
          · exact planGroups_partition argsort ha nt dt _ hne _ size hs groups hplan
        have hgnd : groups.flatten.Nodup := hgp.nodup_iff.2 List.nodup_range
        have hnnd : (needed ex outdir pre all).Nodup := hnd.filter _
        subst h
        constructor
        · intro rank hrank c hc
          obtain ⟨g, hg', rfl⟩ := List.mem_map.1 hrank
          obtain ⟨i, _, f, hf, hc'⟩ := (runRank_file _ _ _ _).1 hc
          rw [tries_file f _ _ _ c hc']
          exact (mem_needed ex outdir pre all f).1 (List.mem_of_getElem? hf)
        · intro f hf hnot
          obtain ⟨i, hi, hfi⟩ := List.getElem_of_mem ((mem_needed ex outdir pre all f).2 ⟨hf, hnot⟩)
          have hf' : (needed ex outdir pre all)[i]? = some f := by rw [List.getElem?_eq_getElem hi, hfi]
          have him : i ∈ groups.flatten := hgp.mem_iff.2 (List.mem_range.2 hi)
          obtain ⟨g, hgm, hig⟩ := List.mem_flatten.1 him
          obtain ⟨r, hr, rfl⟩ := List.getElem_of_mem hgm
          refine ⟨r, by simpa using hr, ?_, ?_⟩
          · intro r' hr' hne c hc
            have hr'' : r' < groups.length := by simpa using hr'
            simp only [List.getElem_map] at hc
            obtain ⟨j, hj, g', hg', hc'⟩ := (runRank_file _ _ _ _).1 hc
            rw [tries_file g' _ _ _ c hc']
            rintro rfl
            obtain ⟨a1, a2⟩ := List.getElem?_eq_some_iff.1 hg'
            have hij : j = i := (List.Nodup.getElem_inj_iff hnnd).1 (a2.trans hfi.symm)
            subst hij
            have hpw := (List.nodup_flatten.1 hgnd).2
            rw [List.pairwise_iff_getElem] at hpw
            rcases lt_or_gt_of_ne hne with hlt | hlt
            · exact hpw r' r hr'' hr hlt hj hig
            · exact hpw r r' hr hr'' hlt hig hj
          · simp only [List.getElem_map]
            rw [runRank_filter outcome _ hnnd i f hf' _ ((List.nodup_flatten.1 hgnd).1 _ hgm) hig]
            simp only [tries]
            cases h0 : outcome f 0 with
            | raised => left; simp
            | exit c =>
              by_cases hc : c = 0
              · left; simp [hc]
              · right
                simp only [if_neg hc]
                refine ⟨?_, c, hc, rfl⟩
                cases h1 : outcome f 1 with
                | raised => rfl
                | exit c' => simp

/-- **C97** over any number of runs (with any number of processes each, interrupted or not, with any failures): if outputs are never removed and a successful call leaves both output files, a file that has been
processed successfully is never processed again, and one that lacks an output file is processed by the next run. -/
theorem C97_resume (argsort : List K → List Nat) (ha : IsArgsort argsort) (nt : PyStr → Nat) (isInt : PyStr → Bool) (dt : DataType) (all : List PyStr) (hnd : all.Nodup) (outdir : Option PyStr) (pre : PyStr)
    (maxnodes : Int) (size : Nat → Option Nat) (hs : ∀ n s, size n = some s → 0 < s) (ex : Nat → PyStr → Bool) (outcome : Nat → PyStr → Nat → Outcome) (ranks : Nat → List (List Call))
    (hrun : ∀ n, wrapRun argsort nt isInt dt all (ex n) outdir pre maxnodes (size n) (outcome n) = .ok (ranks n))
    (hkeep : ∀ n p, ex n p = true → ex (n + 1) p = true)
    (hok : ∀ n, ∀ c ∈ (ranks n).flatten, c.outcome = .exit 0 → Done (ex (n + 1)) outdir pre c.file) :
    (∀ m n, m < n → ∀ c ∈ (ranks m).flatten, c.outcome = .exit 0 → ∀ c' ∈ (ranks n).flatten, c'.file ≠ c.file) ∧
    (∀ n, ∀ f ∈ all, ¬ Done (ex n) outdir pre f → ∃ c ∈ (ranks n).flatten, c.file = f ∧ c.retry = 0) := by
  have hkeep' : ∀ m n, m ≤ n → ∀ p, ex m p = true → ex n p = true := by
    intro m n hmn
    induction n, hmn using Nat.le_induction with
    | base => intro p h; exact h
    | succ n _ ih => intro p h; exact hkeep n p (ih p h)
  constructor
  · intro m n hmn c hc hc0 c' hc' e
    have hdone := hok m c hc hc0
    obtain ⟨rank, hrank, hcr⟩ := List.mem_flatten.1 hc'
    have := (C97_each_file_once argsort ha nt isInt dt all hnd (ex n) outdir pre maxnodes (size n) (hs n) (outcome n) (ranks n) (hrun n)).1 rank hrank c' hcr
    rw [e] at this
    exact this.2 ⟨hkeep' (m + 1) n hmn _ hdone.1, hkeep' (m + 1) n hmn _ hdone.2⟩
  · intro n f hf hnot
    obtain ⟨r, hr, _, h⟩ := (C97_each_file_once argsort ha nt isInt dt all hnd (ex n) outdir pre maxnodes (size n) (hs n) (outcome n) (ranks n) (hrun n)).2 f hf hnot
    have hmem : (⟨f, 0, outcome n f 0⟩ : Call) ∈ (ranks n)[r].filter (fun c => c.file = f) := by
      rcases h with ⟨h, _⟩ | ⟨h, _⟩ <;> rw [h] <;> simp
    exact ⟨⟨f, 0, outcome n f 0⟩, List.mem_flatten.2 ⟨_, List.getElem_mem hr, (List.mem_filter.1 hmem).1⟩, rfl, rfl⟩

end

/-- `np.argsort` for the examples: a stable sort of the indices by decreasing value -/
def argsortQ (xs : List ℚ) : List Nat := pySort (fun a b => decide ((xs[b]?).getD 0 ≤ (xs[a]?).getD 0)) (List.range xs.length)

theorem argsortQ_ok : IsArgsort argsortQ := fun xs => pySort_perm _ _

/-- three spectra files for the examples -/
def files3 : List PyStr := ["/r/1/spectra-1.fits".toList, "/r/2/spectra-2.fits".toList, "/r/3/spectra-3.fits".toList]

/-- the conditions are met: three files, two processes; the second file is done, the first one fails twice -/
example : wrapRun (K := ℚ) argsortQ (fun _ => 100) (fun _ => true) .desi files3 (fun p => p == "/r/2/redrock-2.fits".toList || p == "/r/2/rrdetails-2.h5".toList) none "spectra".toList 256 (some 2)
      (fun f _ => if f = "/r/1/spectra-1.fits".toList then .exit 1 else .exit 0) =
    .ok [[⟨"/r/1/spectra-1.fits".toList, 0, .exit 1⟩, ⟨"/r/1/spectra-1.fits".toList, 1, .exit 1⟩], [⟨"/r/3/spectra-3.fits".toList, 0, .exit 0⟩]] := by decide +kernel

/-- **C97** a file in a directory whose name is not a number stops the whole run (`int(...)` raises for every process), whatever the other files are. -/
theorem C97_not_a_pixel_directory : ∃ all : List PyStr, "/r/1/spectra-1.fits".toList ∈ all ∧
    ∀ outcome, wrapRun (K := ℚ) argsortQ (fun _ => 100) (fun s => s.all Char.isDigit && !s.isEmpty) .desi all (fun _ => false) none "spectra".toList 256 (some 1) outcome = .error .valueError := by
  refine ⟨["/r/1/spectra-1.fits".toList, "/r/tmp/spectra-1.fits".toList], by simp, ?_⟩
  intro outcome
  have h : runGroups (K := ℚ) argsortQ (fun _ => 100) .desi ["/r/1/spectra-1.fits".toList, "/r/tmp/spectra-1.fits".toList] 256 (some 1) = .ok [[0, 1]] := by decide +kernel
  have hn : needed (fun _ => false) none "spectra".toList ["/r/1/spectra-1.fits".toList, "/r/tmp/spectra-1.fits".toList] = ["/r/1/spectra-1.fits".toList, "/r/tmp/spectra-1.fits".toList] := by decide +kernel
  unfold wrapRun
  rw [hn]
  simp only [bind, Except.bind, h]
  rfl

/-- **C97** the resumption is by output file: with an output directory, when the first of two files of the same name succeeds, the second one counts as processed although all its calls failed. -/
theorem C97_resume_refuted_outdir : ∃ f g : PyStr, f ≠ g ∧ ∀ ex : PyStr → Bool, Done ex (some "/o".toList) "spectra".toList f → g ∉ needed ex (some "/o".toList) "spectra".toList [f, g] := by
  refine ⟨"/r/a/1/spectra-1.fits".toList, "/r/b/1/spectra-1.fits".toList, by decide, ?_⟩
  intro ex h hmem
  refine ((mem_needed _ _ _ _ _).1 hmem).2 ?_
  have e1 : rrfile "spectra".toList (some "/o".toList) "/r/b/1/spectra-1.fits".toList = rrfile "spectra".toList (some "/o".toList) "/r/a/1/spectra-1.fits".toList := by decide +kernel
  have e2 : detailsfile "spectra".toList (some "/o".toList) "/r/b/1/spectra-1.fits".toList = detailsfile "spectra".toList (some "/o".toList) "/r/a/1/spectra-1.fits".toList := by decide +kernel
  unfold Done
  rw [e1, e2]
  exact h

/-! ### C98 -/

section Logs
variable {C : Type}

theorem dec_inj (m n : Nat) (h : dec m = dec n) : m = n := by
  have h1 := Nat.ofDigitChars_toDigits (b := 10) (n := m) (by norm_num) (by norm_num)
  have h2 := Nat.ofDigitChars_toDigits (b := 10) (n := n) (by norm_num) (by norm_num)
  unfold dec at h
  rw [← h1, ← h2, h]

/-- the k-th backup of a log file -/
def backupName (log : PyStr) (k : Nat) : PyStr := log ++ ['.'] ++ dec k

theorem backupName_inj (log : PyStr) (m n : Nat) (h : backupName log m = backupName log n) : m = n := dec_inj _ _ (List.append_cancel_left h)

theorem backupName_ne (log : PyStr) (k : Nat) : backupName log k ≠ log := by
  intro h
  have := congrArg List.length h
  simp [backupName] at this

theorem isPrefix_backupName (log : PyStr) (k : Nat) : (log ++ ['.']).isPrefixOf (backupName log k) = true := by
  rw [List.isPrefixOf_iff_prefix]; exact ⟨dec k, rfl⟩

theorem not_isPrefix_log (log : PyStr) : (log ++ ['.']).isPrefixOf log = false := by
  rw [Bool.eq_false_iff]
  intro h
  rw [List.isPrefixOf_iff_prefix] at h
  have := h.length_le
  simp at this

/-- the files of the directory that are backups of the log -/
def backupsIn (files : PyDict PyStr C) (log : PyStr) : List PyStr := (PyDict.keys files).filter (fun f => (log ++ ['.']).isPrefixOf f)

/-- what holds after the tries with contents `done`: the log is the last, the backups are the earlier ones, and there are no others -/
structure LogState (log : PyStr) (files0 files : PyDict PyStr C) (done : List C) : Prop where
  nodup : (PyDict.keys files).Nodup
  backups : (backupsIn files log).Perm ((List.range (done.length - 1)).map (backupName log))
  last : PyDict.get? files log = done.getLast?
  old : ∀ k, k + 1 < done.length → PyDict.get? files (backupName log k) = done[k]?
  others : ∀ f, f ≠ log → (log ++ ['.']).isPrefixOf f = false → PyDict.get? files f = PyDict.get? files0 f

theorem get?_filter_ne (files : PyDict PyStr C) (log f : PyStr) (h : f ≠ log) : PyDict.get? (files.filter (fun e => e.1 ≠ log)) f = PyDict.get? files f := by
  unfold PyDict.get?
  congr 1
  induction files with
  | nil => rfl
  | cons e files ih =>
    by_cases he : e.1 = log
    · rw [List.filter_cons_of_neg (by simpa using he), ih, List.find?_cons_of_neg]
      simp only [decide_eq_true_eq]
      intro h'; exact h (h'.symm.trans he)
    · rw [List.filter_cons_of_pos (by simpa using he)]
      by_cases hf : e.1 = f
      · rw [List.find?_cons_of_pos (by simpa using hf), List.find?_cons_of_pos (by simpa using hf)]
      · rw [List.find?_cons_of_neg (by simpa using hf), List.find?_cons_of_neg (by simpa using hf), ih]

theorem get?_append_new (files : PyDict PyStr C) (k : PyStr) (v : C) (f : PyStr) (hk : k ∉ PyDict.keys files) :
    PyDict.get? (files ++ [(k, v)]) f = if f = k then some v else PyDict.get? files f := by
  rw [← set_new files k v hk, PyDict.get?_set]
  simp only [eq_comm]

theorem keys_filter_ne (files : PyDict PyStr C) (log : PyStr) : PyDict.keys (files.filter (fun e => e.1 ≠ log)) = (PyDict.keys files).filter (fun f => f ≠ log) := by
  unfold PyDict.keys
  rw [List.filter_map]
  rfl

theorem logTry_step (log : PyStr) (files0 files : PyDict PyStr C) (done : List C) (h : LogState log files0 files done) (c : C) :
    ∃ files', logTry log files c = .ok files' ∧ LogState log files0 files' (done ++ [c]) := by
  unfold logTry
  rcases List.eq_nil_or_concat done with rfl | ⟨done', c0, rfl⟩
  · have hnot : log ∉ PyDict.keys files := by rw [PyDict.mem_keys_iff, h.last]; simp
    rw [if_neg hnot]
    refine ⟨PyDict.set files log c, rfl, PyDict.keys_nodup_set _ h.nodup _ _, ?_, ?_, ?_, ?_⟩
    · unfold backupsIn
      rw [PyDict.keys_set, if_neg hnot, List.filter_append]
      rw [show [log].filter (fun f => (log ++ ['.']).isPrefixOf f) = [] by simp [not_isPrefix_log], List.append_nil]
      exact h.backups
    · rw [PyDict.get?_set]; simp
    · intro k hk; simp at hk
    · intro f hf hp
      rw [PyDict.get?_set, if_neg (Ne.symm hf)]
      exact h.others f hf hp
  · rw [List.concat_eq_append] at h ⊢
    have hlast : PyDict.get? files log = some c0 := by rw [h.last]; simp
    have hin : log ∈ PyDict.keys files := by rw [PyDict.mem_keys_iff, hlast]; simp
    have hb : (backupsIn files log).Perm ((List.range done'.length).map (backupName log)) := by simpa using h.backups
    have hnew : backupName log done'.length ∉ PyDict.keys files := by
      intro hk
      have : backupName log done'.length ∈ backupsIn files log := List.mem_filter.2 ⟨hk, isPrefix_backupName _ _⟩
      rw [hb.mem_iff] at this
      obtain ⟨k, hk1, hk2⟩ := List.mem_map.1 this
      have := backupName_inj _ _ _ hk2
      rw [List.mem_range] at hk1
      omega
    have hbk : backupLogs files log = .ok (files.filter (fun e => e.1 ≠ log) ++ [(backupName log done'.length, c0)], backupName log done'.length) := by
      unfold backupLogs
      have hl : ((PyDict.keys files).filter (fun f => (log ++ ['.']).isPrefixOf f)).length = done'.length := by
        have := hb.length_eq; simpa [backupsIn] using this
      simp only [hl]
      rw [show log ++ ['.'] ++ dec done'.length = backupName log done'.length from rfl, if_neg hnew, hlast]
    rw [if_pos hin, hbk]
    simp only [bind, Except.bind, pure, Except.pure]
    have hk1 : PyDict.keys (files.filter (fun e => e.1 ≠ log) ++ [(backupName log done'.length, c0)]) = (PyDict.keys files).filter (fun f => f ≠ log) ++ [backupName log done'.length] := by
      rw [← keys_filter_ne]; simp [PyDict.keys]
    have hnlog : log ∉ PyDict.keys (files.filter (fun e => e.1 ≠ log) ++ [(backupName log done'.length, c0)]) := by
      rw [hk1]
      simp [Ne.symm (backupName_ne log done'.length)]
    have hnew' : backupName log done'.length ∉ PyDict.keys (files.filter (fun e => e.1 ≠ log)) := by
      rw [keys_filter_ne]
      intro hh; exact hnew (List.mem_filter.1 hh).1
    have hnd1 : (PyDict.keys (files.filter (fun e => e.1 ≠ log) ++ [(backupName log done'.length, c0)])).Nodup := by
      rw [hk1, List.nodup_append]
      refine ⟨h.nodup.filter _, by simp, ?_⟩
      intro a ha b hb' e
      rw [List.mem_singleton] at hb'
      subst hb'; subst e
      exact hnew (List.mem_filter.1 ha).1
    refine ⟨_, rfl, PyDict.keys_nodup_set _ hnd1 _ _, ?_, ?_, ?_, ?_⟩
    · unfold backupsIn
      rw [PyDict.keys_set, if_neg hnlog, List.filter_append, hk1, List.filter_append]
      rw [show [log].filter (fun f => (log ++ ['.']).isPrefixOf f) = [] by simp [not_isPrefix_log], List.append_nil]
      rw [show [backupName log done'.length].filter (fun f => (log ++ ['.']).isPrefixOf f) = [backupName log done'.length] by simp [isPrefix_backupName]]
      have e : ((PyDict.keys files).filter (fun f => f ≠ log)).filter (fun f => (log ++ ['.']).isPrefixOf f) = backupsIn files log := by
        rw [List.filter_filter]
        unfold backupsIn
        apply List.filter_congr
        intro x _
        by_cases hx : x = log
        · subst hx; simp [not_isPrefix_log]
        · simp [hx]
      rw [e]
      simp only [List.length_append, List.length_singleton, Nat.add_sub_cancel, List.range_succ, List.map_append, List.map_cons, List.map_nil]
      exact hb.append_right _
    · rw [PyDict.get?_set]; simp
    · intro k hk
      rw [PyDict.get?_set, if_neg (Ne.symm (backupName_ne log k)), get?_append_new _ _ _ _ hnew']
      simp only [List.length_append, List.length_singleton] at hk
      by_cases hkk : k = done'.length
      · rw [if_pos (by rw [hkk])]
        simp [hkk]
      · rw [if_neg (fun e => hkk (backupName_inj _ _ _ e)), get?_filter_ne _ _ _ (backupName_ne log k), h.old k (by simp; omega)]
        rw [List.getElem?_append_left (l₁ := done' ++ [c0]) (by simp; omega)]
    · intro f hf hp
      rw [PyDict.get?_set, if_neg (Ne.symm hf), get?_append_new _ _ _ _ hnew', if_neg, get?_filter_ne _ _ _ hf]
      · exact h.others f hf hp
      · intro e
        rw [e, isPrefix_backupName] at hp
        exact Bool.noConfusion hp

/-- **C98** no log is lost: if at first there is neither a log file nor a backup of it, then after any number of tries (in one run or many) with the log contents `cs`, the log file has the last content, `LOG.0`,
`LOG.1`, ... the earlier ones in order, there are no other backups, and the other files are as before. -/
theorem C98_no_log_lost_partial (log : PyStr) (files0 : PyDict PyStr C) (hnd : (PyDict.keys files0).Nodup) (hlog : log ∉ PyDict.keys files0) (hno : ∀ f ∈ PyDict.keys files0, ¬ log ++ ['.'] <+: f)
    (cs : List C) : ∃ files, cs.foldlM (logTry log) files0 = .ok files ∧ PyDict.get? files log = cs.getLast? ∧ (∀ k, k + 1 < cs.length → PyDict.get? files (log ++ ['.'] ++ dec k) = cs[k]?) ∧
      (∀ f ∈ PyDict.keys files, log ++ ['.'] <+: f → ∃ k, k + 1 < cs.length ∧ f = log ++ ['.'] ++ dec k) ∧
      (∀ f, f ≠ log → ¬ log ++ ['.'] <+: f → PyDict.get? files f = PyDict.get? files0 f) := by
  have key : ∀ (cs done : List C) (files : PyDict PyStr C), LogState log files0 files done → ∃ files', cs.foldlM (logTry log) files = .ok files' ∧ LogState log files0 files' (done ++ cs) := by
    intro cs
    induction cs with
    | nil => intro done files h; exact ⟨files, rfl, by simpa using h⟩
    | cons c cs ih =>
      intro done files h
      obtain ⟨f1, h1, h2⟩ := logTry_step log files0 files done h c
      obtain ⟨f2, h3, h4⟩ := ih _ _ h2
      refine ⟨f2, ?_, by simpa using h4⟩
      rw [List.foldlM_cons, h1]
      exact h3
  have h0 : LogState log files0 files0 [] := by
    refine ⟨hnd, ?_, ?_, by intro k hk; simp at hk, by intros; rfl⟩
    · have : backupsIn files0 log = [] := by
        unfold backupsIn
        rw [List.filter_eq_nil_iff]
        intro f hf
        rw [List.isPrefixOf_iff_prefix]
        exact hno f hf
      rw [this]; simp
    · have : (PyDict.get? files0 log).isSome = false := by
        rw [Bool.eq_false_iff]
        intro h
        exact hlog ((PyDict.mem_keys_iff files0 log).2 h)
      simpa using this
  obtain ⟨files, h1, h2⟩ := key cs [] files0 h0
  rw [List.nil_append] at h2
  refine ⟨files, h1, h2.last, h2.old, ?_, ?_⟩
  · intro f hf hp
    have : f ∈ backupsIn files log := List.mem_filter.2 ⟨hf, List.isPrefixOf_iff_prefix.2 hp⟩
    rw [h2.backups.mem_iff] at this
    obtain ⟨k, hk1, hk2⟩ := List.mem_map.1 this
    rw [List.mem_range] at hk1
    exact ⟨k, by omega, hk2.symm⟩
  · intro f hf hp
    apply h2.others f hf
    rw [Bool.eq_false_iff]
    intro h
    exact hp (List.isPrefixOf_iff_prefix.1 h)

/-- **C98** but if a backup other than the newest has been removed, the next backup raises `AssertionError`, and so does every later one (nothing changes): the file is never processed again. `n` backups were
there, number `j` is gone. -/
theorem C98_refuted_after_deletion (log : PyStr) (files : PyDict PyStr C) (n j : Nat) (hj : j + 1 < n) (hb : (backupsIn files log).Perm (((List.range n).filter (fun k => k ≠ j)).map (backupName log))) (c : C)
    (hlog : log ∈ PyDict.keys files) : logTry log files c = .error .assertionError := by
  have hcount : ((List.range n).filter (fun k => k ≠ j)).length = n - 1 := by
    have h1 : (List.range n).filter (fun k => k ≠ j) = (List.range n).erase j := by
      rw [List.Nodup.erase_eq_filter List.nodup_range]
      apply List.filter_congr
      intro x _
      by_cases hx : x = j <;> simp [hx]
    rw [h1, List.length_erase_of_mem (by simp; omega)]
    simp
  have hl : ((PyDict.keys files).filter (fun f => (log ++ ['.']).isPrefixOf f)).length = n - 1 := by
    have := hb.length_eq
    rw [List.length_map, hcount] at this
    simpa [backupsIn] using this
  have hin : backupName log (n - 1) ∈ PyDict.keys files := by
    have : backupName log (n - 1) ∈ backupsIn files log := by
      rw [hb.mem_iff]
      refine List.mem_map.2 ⟨n - 1, ?_, rfl⟩
      rw [List.mem_filter, List.mem_range]
      exact ⟨by omega, by simp; omega⟩
    exact (List.mem_filter.1 this).1
  unfold logTry
  rw [if_pos hlog]
  have : backupLogs files log = .error .assertionError := by
    unfold backupLogs
    simp only [hl]
    rw [show log ++ ['.'] ++ dec (n - 1) = backupName log (n - 1) from rfl, if_pos hin]
  rw [this]
  rfl

/-- three tries -/
example : ["a", "b", "c"].foldlM (logTry "/r/redrock-1.log".toList) [("/r/spectra-1.fits".toList, "data")] =
    .ok [("/r/spectra-1.fits".toList, "data"), ("/r/redrock-1.log.0".toList, "a"), ("/r/redrock-1.log.1".toList, "b"), ("/r/redrock-1.log".toList, "c")] := by decide +kernel
/-- after `rm redrock-1.log.0` -/
example : logTry "/r/redrock-1.log".toList [("/r/redrock-1.log.1".toList, "b"), ("/r/redrock-1.log".toList, "c")] "d" = .error .assertionError :=
  C98_refuted_after_deletion _ _ 2 0 (by decide) (by decide +kernel) _ (by decide)

/-- **C98** the log file of `DIR/redrockMID.fits` is `DIR/redrockMID.log` - if `.fits` occurs only at the end of the path. -/
theorem C98_log_name (stem : PyStr) (h : ¬ ".fits".toList <:+: stem) : logfileOf (stem ++ ".fits".toList) = stem ++ ".log".toList := by
  have := pyReplace_mid '.' "fits".toList ".log".toList stem [] (by decide) h (by decide)
  rw [List.append_nil, List.append_nil] at this
  exact this

/-- **C98** the extension is replaced in the names of directories too: there the log is in a directory that need not exist. -/
theorem C98_log_in_other_directory : logfileOf "/data.fits/1/redrock-1.fits".toList = "/data.log/1/redrock-1.log".toList := by decide +kernel

end Logs

end Wrap
end Redrock
