import Verif.Lemmas.Work
import Mathlib.Algebra.Order.Ring.Rat
import Mathlib.Tactic.NormNum
import Mathlib.Tactic.Ring

/-! Properties C01, C02, C03, C53, C57. -/
namespace Redrock
set_option linter.unusedSectionVars false
variable {K : Type} [Field K] [LinearOrder K] [IsStrictOrderedRing K] {ι : Type}

/-- **C01** Work distribution is a partition: for any number of processes, IDs (repeats allowed),
weights and positive capacities the call succeeds, returns one list per process, and the lists
together hold exactly the input IDs, each as often as in the input. -/
theorem C01_distribute_work_partition (nproc : Nat) (ids : List ι) (weights : ι → K)
    (capacities : List K) (hn : 0 < nproc) (hc : capacities.length = nproc)
    (hpos : ∀ c ∈ capacities, 0 < c) :
    ∃ dist, distributeWork nproc ids weights capacities = .ok dist ∧ dist.length = nproc ∧
      dist.flatten.Perm ids := by
  obtain ⟨d, h1, h2, h3⟩ := distributeWork_induction nproc capacities hc hn
    (fun c h => (hpos c h).ne') weights ids (fun done d => d.flatten.Perm done) (by simp)
    (by
      intro d1 x d i _ hd hi hP _
      exact (flatten_modify_perm d i (hd ▸ hi) x).trans (hP.append_right [x]))
  exact ⟨d, h1, h2, h3.trans (pySort_perm _ _)⟩

/-- **C01**, with the default arguments of the python function. -/
theorem C01_distribute_work_default_partition (nproc : Nat) (ids : List ι)
    (weights : Option (ι → K)) (hn : 0 < nproc) :
    ∃ dist, distributeWorkDefault K nproc ids weights none = .ok dist ∧ dist.length = nproc ∧
      dist.flatten.Perm ids :=
  C01_distribute_work_partition nproc ids _ _ hn (by simp) (by
    intro c hc
    simp only [Option.getD_none, List.mem_replicate] at hc
    rw [hc.2]; exact one_pos)

/-- **C01**, error branch: with work to do but no process, python raises (`min()` of an empty list). -/
theorem C01_no_process_raises (ids : List ι) (weights : ι → K) (h : ids ≠ []) :
    distributeWork 0 ids weights [] = .error .valueError := by
  have hne : sortByWeightDesc weights ids ≠ [] := by
    intro h0
    have := (pySort_perm (fun a b => decide (weights b ≤ weights a)) ids).length_eq
    unfold sortByWeightDesc at h0
    rw [h0] at this
    exact h (List.length_eq_zero_iff.1 this.symm)
  cases hs : sortByWeightDesc weights ids with
  | nil => exact absurd hs hne
  | cons x xs =>
    simp [distributeWork, hs, distStep, pyMinBy, bind, Except.bind]

example : ∃ dist, distributeWork 2 ["a", "b", "c", "b"] (fun s => if s = "b" then (3 : ℚ) else 1) [1, 1/2]
    = .ok dist ∧ dist.length = 2 ∧ dist.flatten.Perm ["a", "b", "c", "b"] :=
  C01_distribute_work_partition _ _ _ _ (by decide) rfl (by
    intro c hc; simp at hc; rcases hc with rfl | rfl <;> norm_num)

/-- **C02** Balance: with equal capacities and non-negative weights, the total weights given to any two
processes differ by at most (any bound on) the largest single weight. -/
theorem C02_distribute_work_balanced (nproc : Nat) (ids : List ι) (weights : ι → K) (cap M : K)
    (hn : 0 < nproc) (hcap : 0 < cap) (hw : ∀ x ∈ ids, 0 ≤ weights x ∧ weights x ≤ M) (hM : 0 ≤ M) :
    ∃ dist, distributeWork nproc ids weights (List.replicate nproc cap) = .ok dist ∧
      ∀ a ∈ dist, ∀ b ∈ dist, (a.map weights).sum - (b.map weights).sum ≤ M := by
  obtain ⟨d, h1, h2, h3⟩ := distributeWork_induction nproc (List.replicate nproc cap) (by simp) hn
    (by intro c hc; rw [(List.mem_replicate.1 hc).2]; exact hcap.ne') weights ids
    (fun _ d => ∀ i j, i < nproc → j < nproc → loadOf weights d i - loadOf weights d j ≤ M)
    (by intro i j hi hj; simp [loadOf, hi, hj, hM])
    (by
      intro d1 x d i hpre hd hi hP hk a b ha hb
      have hx : x ∈ ids := by
        have : x ∈ sortByWeightDesc weights ids := hpre.subset (by simp)
        exact (pySort_perm _ ids).mem_iff.1 this
      obtain ⟨hx0, hxM⟩ := hw x hx
      have hle : ∀ j, j < nproc → loadOf weights d i ≤ loadOf weights d j := by
        intro j hj
        have := hk j hj
        simp only [keyOf, hi, hj, List.getElem?_replicate, if_true, Option.getD_some] at this
        have h := Prod.Lex.monotone_fst _ _ this
        simp only [ofLex_toLex] at h
        have := (div_le_div_iff_of_pos_right hcap).1 h
        linarith
      rw [loadOf_modify _ _ _ (hd ▸ hi), loadOf_modify _ _ _ (hd ▸ hi)]
      have h1 := hP a b ha hb
      have h2 := hle b hb
      have h3 := hle a ha
      split <;> split <;> first | linarith | (subst_vars; linarith))
  refine ⟨d, h1, ?_⟩
  intro a ha b hb
  obtain ⟨i, hi, rfl⟩ := List.getElem_of_mem ha
  obtain ⟨j, hj, rfl⟩ := List.getElem_of_mem hb
  have := h3 i j (h2 ▸ hi) (h2 ▸ hj)
  simpa [loadOf, hi, hj] using this

example : ∃ dist, distributeWork 3 [10, 20, 30, 40] (fun n : Nat => (n : ℚ) / 10) (List.replicate 3 1)
    = .ok dist ∧ ∀ a ∈ dist, ∀ b ∈ dist, (a.map fun n : Nat => (n : ℚ) / 10).sum -
      (b.map fun n : Nat => (n : ℚ) / 10).sum ≤ 4 :=
  C02_distribute_work_balanced _ _ _ _ _ (by decide) (by norm_num)
    (by intro x hx; simp at hx; rcases hx with rfl | rfl | rfl | rfl <;> norm_num) (by norm_num)

/-- Steps of C03: what the sort key of a GPU / CPU-only rank is, with equal weights. -/
private theorem key_gpu (flags : List Bool) (wt : K) (d : List (List ι)) (i : Nat) (l : List ι)
    (hf : flags[i]? = some true) (hl : d[i]? = some l) :
    keyOf (gpuCapacities K flags) (fun _ => wt) d wt i = toLex ((l.length + 1) * wt, toLex (1, i)) := by
  simp only [keyOf, gpuCapacities, List.getElem?_map, hf, loadOf_const wt d i l hl]
  simp only [Option.map_some, if_true, Option.getD_some, div_one]
  congr 2; ring

private theorem key_cpu (flags : List Bool) (wt : K) (d : List (List ι)) (i : Nat) (l : List ι)
    (hf : flags[i]? = some false) (hl : d[i]? = some l) :
    keyOf (gpuCapacities K flags) (fun _ => wt) d wt i =
      toLex (10000 * ((l.length + 1) * wt), toLex (10000, i)) := by
  simp only [keyOf, gpuCapacities, List.getElem?_map, hf, loadOf_const wt d i l hl]
  simp only [Option.map_some, Bool.false_eq_true, if_false, Option.getD_some, one_div, div_inv_eq_mul, one_mul]
  congr 2; ring

/-- **C03** In a GPU run with both kinds of rank and equal positive weights `wt` (the normal case: coadds,
every weight 1), the distribution succeeds and *all CPU-only ranks get no target exactly if there are at most
10000 targets per GPU rank*. -/
theorem C03_gpu_only_iff (flags : List Bool) (ids : List ι) (wt : K) (hwt : 0 < wt)
    (hcpu : false ∈ flags) (hgpu : true ∈ flags) :
    ∃ dist, distributeGpuMode K flags ids (some fun _ => wt) = .ok dist ∧ dist.length = flags.length ∧
      dist.flatten.Perm ids ∧
      ((∀ i : Nat, flags[i]? = some false → dist[i]? = some []) ↔ ids.length ≤ 10000 * flags.count true) := by
  have hn : 0 < flags.length := List.length_pos_of_mem hcpu
  have hcl : (gpuCapacities K flags).length = flags.length := by simp [gpuCapacities]
  have hpos : ∀ c ∈ gpuCapacities K flags, 0 < c := by
    intro c hc
    simp only [gpuCapacities, List.mem_map] at hc
    obtain ⟨f, _, rfl⟩ := hc
    cases f <;> simp
  have hmode : distributeGpuMode K flags ids (some fun _ => wt) =
      distributeWork flags.length ids (fun _ => wt) (gpuCapacities K flags) := by
    simp [distributeGpuMode, distributeWorkDefault, hcpu, hgpu]
  obtain ⟨c, hc⟩ := List.getElem?_of_mem hcpu
  have sorted_len : (sortByWeightDesc (fun _ : ι => wt) ids).length = ids.length :=
    (pySort_perm _ _).length_eq
  have getl : ∀ (d : List (List ι)) (i : Nat) f, d.length = flags.length → flags[i]? = some f → ∃ l, d[i]? = some l := by
    intro d i f hd hf
    obtain ⟨hi, _⟩ := List.getElem?_eq_some_iff.1 hf
    exact ⟨d[i], List.getElem?_eq_getElem (hd ▸ hi)⟩
  obtain ⟨d, h1, h2, h3, h4, h5⟩ := distributeWork_induction flags.length (gpuCapacities K flags) hcl hn
    (fun c h => (hpos c h).ne') (fun _ => wt) ids
    (fun done d => d.flatten.Perm done ∧
      (done.length ≤ 10000 * flags.count true →
        (∀ i : Nat, flags[i]? = some false → d[i]? = some []) ∧
        (∀ (i : Nat) (l : List ι), flags[i]? = some true → d[i]? = some l → l.length ≤ 10000)) ∧
      ((∃ (i : Nat) (l : List ι), flags[i]? = some false ∧ d[i]? = some l ∧ l ≠ []) ∨
        (∀ (i : Nat) (l : List ι), flags[i]? = some true → d[i]? = some l → l.length ≤ 10000)))
    (by
      refine ⟨by simp, ?_, ?_⟩
      · intro _
        refine ⟨?_, ?_⟩
        · intro i hi
          obtain ⟨hi, _⟩ := List.getElem?_eq_some_iff.1 hi
          simp [hi]
        · intro i l _ hl
          rw [List.getElem?_replicate] at hl
          split at hl <;> simp at hl
          subst hl; simp
      · right
        intro i l _ hl
        rw [List.getElem?_replicate] at hl
        split at hl <;> simp at hl
        subst hl; simp)
    (by
      intro d1 x d i hpre hd hi hP hk
      obtain ⟨hp, hA, hB⟩ := hP
      refine ⟨(flatten_modify_perm d i (hd ▸ hi) x).trans (hp.append_right [x]), ?_, ?_⟩
      · intro hlen
        have hlen' : d1.length < 10000 * flags.count true := by
          rw [List.length_append, List.length_singleton] at hlen; exact hlen
        obtain ⟨hA0, hA1⟩ := hA hlen'.le
        -- some GPU rank has room
        have hroom : ∃ (j : Nat) (l : List ι), flags[j]? = some true ∧ d[j]? = some l ∧ l.length < 10000 := by
          by_contra hcon
          push Not at hcon
          have := flatten_length_ge flags 10000 d hd (fun j l hj hl => hcon j l hj hl)
          rw [hp.length_eq] at this
          omega
        obtain ⟨j, lj, hj, hlj, hljl⟩ := hroom
        have hjn : j < flags.length := (List.getElem?_eq_some_iff.1 hj).1
        have hkij := hk j hjn
        rw [key_gpu flags wt d j lj hj hlj] at hkij
        have hljK : ((lj.length : K) + 1) ≤ 10000 := by
          have : lj.length + 1 ≤ 10000 := hljl
          exact_mod_cast this
        -- the chosen rank is a GPU rank with room
        have hfi : flags[i]? = some true := by
          have hfi' := List.getElem?_eq_getElem hi
          cases hb : flags[i] with
          | true => rw [hfi', hb]
          | false =>
            exfalso
            rw [hb] at hfi'
            rw [key_cpu flags wt d i [] hfi' (hA0 i hfi')] at hkij
            rw [Prod.Lex.toLex_le_toLex, Prod.Lex.toLex_le_toLex] at hkij
            simp only [List.length_nil, Nat.cast_zero, zero_add, one_mul] at hkij
            have hm := mul_le_mul_of_nonneg_right hljK hwt.le
            rcases hkij with h | ⟨_, h⟩
            · linarith
            · rcases h with h | ⟨h, _⟩
              · norm_num at h
              · norm_num at h
        obtain ⟨li, hli⟩ := getl d i true hd hfi
        have hlil : li.length < 10000 := by
          rw [key_gpu flags wt d i li hfi hli] at hkij
          have h := Prod.Lex.monotone_fst _ _ hkij
          simp only [ofLex_toLex] at h
          have h := le_of_mul_le_mul_right h hwt
          have : li.length + 1 ≤ lj.length + 1 := by exact_mod_cast h
          omega
        refine ⟨?_, ?_⟩
        · intro a ha
          have hne : i ≠ a := by rintro rfl; rw [ha] at hfi; simp at hfi
          rw [List.getElem?_modify, hA0 a ha]
          simp [hne]
        · intro a l ha hl
          rw [List.getElem?_modify] at hl
          by_cases hia : i = a
          · subst hia
            rw [hli] at hl
            simp at hl
            rw [← hl]; simp; omega
          · have : d[a]? = some l := by simpa [hia] using hl
            exact hA1 a l ha this
      · rcases hB with ⟨a, l, ha, hl, hne⟩ | hB
        · left
          refine ⟨a, if i = a then l ++ [x] else l, ha, ?_, ?_⟩
          · rw [List.getElem?_modify, hl]; by_cases h : i = a <;> simp [h]
          · by_cases h : i = a <;> simp [h, hne]
        · have hfi' := List.getElem?_eq_getElem hi
          obtain ⟨li, hli⟩ := getl d i _ hd hfi'
          cases hb : flags[i] with
          | false =>
            rw [hb] at hfi'
            left
            refine ⟨i, li ++ [x], hfi', ?_, by simp⟩
            rw [List.getElem?_modify, hli]; simp
          | true =>
            rw [hb] at hfi'
            obtain ⟨lc, hlc⟩ := getl d c _ hd hc
            by_cases hlc0 : lc = []
            · right
              subst hlc0
              have hkij := hk c (List.getElem?_eq_some_iff.1 hc).1
              rw [key_gpu flags wt d i li hfi' hli, key_cpu flags wt d c [] hc hlc] at hkij
              have h := Prod.Lex.monotone_fst _ _ hkij
              simp only [ofLex_toLex, List.length_nil, Nat.cast_zero, zero_add, one_mul] at h
              have h := le_of_mul_le_mul_right h hwt
              have hli1 : li.length + 1 ≤ 10000 := by exact_mod_cast h
              intro a l ha hl
              rw [List.getElem?_modify] at hl
              by_cases hia : i = a
              · subst hia
                rw [hli] at hl
                simp at hl
                rw [← hl]; simp; omega
              · exact hB a l ha (by simpa [hia] using hl)
            · left
              refine ⟨c, lc, hc, ?_, hlc0⟩
              have hne : i ≠ c := by rintro rfl; rw [hc] at hfi'; simp at hfi'
              rw [List.getElem?_modify, hlc]; simp [hne])
  refine ⟨d, hmode ▸ h1, h2, h3.trans (pySort_perm _ _), ?_, ?_⟩
  · intro hempty
    rcases h5 with ⟨a, l, ha, hl, hne⟩ | h5
    · rw [hempty a ha] at hl
      simp at hl
      exact absurd hl.symm (by simpa using hne)
    · have := flatten_length_le flags 10000 d h2 hempty h5
      rwa [h3.length_eq, sorted_len] at this
  · intro hN
    exact (h4 (by rw [sorted_len]; exact hN)).1

example : (0 : ℚ) < 1 ∧ false ∈ [true, false, false] ∧ true ∈ [true, false, false] := by
  refine ⟨by norm_num, by simp, by simp⟩

/-- **C03**, the failure: with one GPU rank and one CPU-only rank, any list of more than 10000 targets gives at
least one target to the CPU-only rank, which holds no redshifts. -/
theorem C03_cpu_rank_gets_target (ids : List ι) (h : 10000 < ids.length) :
    ∃ dist, distributeGpuMode ℚ [true, false] ids none = .ok dist ∧
      ∃ l, dist[1]? = some l ∧ l ≠ [] := by
  obtain ⟨d, h1, h2, _, h4⟩ := C03_gpu_only_iff (K := ℚ) [true, false] ids 1 one_pos (by simp) (by simp)
  refine ⟨d, h1, d[1]'(by rw [h2]; decide), List.getElem?_eq_getElem _, ?_⟩
  intro hnil
  have : ids.length ≤ 10000 * 1 := h4.1 (by
    intro i hi
    have : i = 1 := by
      rcases i with _ | _ | i
      · simp at hi
      · rfl
      · simp at hi
    subst this
    rw [List.getElem?_eq_getElem (by rw [h2]; decide), hnil])
  omega

example : 10000 < (List.range 10001).length := by simp

/-- **C53** `get_mp` returns between 1 and the number of CPUs for any request ≥ 0, at most 4 on a login
node, and otherwise honours a request between 1 and the number of CPUs. -/
theorem C53_get_mp_range (cpu : Nat) (hcpu : 1 ≤ cpu) (login : Bool) (req : Int) (hreq : 0 ≤ req) :
    1 ≤ getMp cpu login req ∧ getMp cpu login req ≤ cpu ∧ (login = true → getMp cpu login req ≤ 4) ∧
      (1 ≤ req → req ≤ cpu → (login = false ∨ req ≤ 4) → getMp cpu login req = req) ∧
      (req = 0 → login = false → 2 ≤ cpu → getMp cpu login req = cpu / 2) := by
  unfold getMp
  have hz : (cpu : Int) / 2 = 0 ∨ 1 ≤ (cpu : Int) / 2 := by omega
  cases login
  · simp only [Bool.false_eq_true, if_false, false_implies, true_or, true_implies, true_and]
    refine ⟨?_, ?_, ?_, ?_⟩ <;> (repeat' split) <;> intros <;> omega
  · simp only [if_true, reduceCtorEq, false_or, true_implies, false_implies, implies_true, and_true]
    refine ⟨?_, ?_, ?_, ?_⟩ <;> (repeat' split) <;> intros <;> omega

example : getMp 8 true 32 = 4 ∧ getMp 8 false 32 = 8 ∧ getMp 1 false 0 = 1 := by decide

/-- **C57** `reduced_wavelength` of any array with at least two distinct values lies in [-1, 1], keeps the
length, maps the smallest wavelength to -1 and the largest to 1, and is strictly increasing. -/
theorem C57_reduced_wavelength (wave : List K) (a b : K) (ha : a ∈ wave) (hb : b ∈ wave)
    (hmin : ∀ x ∈ wave, a ≤ x) (hmax : ∀ x ∈ wave, x ≤ b) (hab : a < b) :
    ∃ r : K → K, reducedWavelength wave = .ok (wave.map r) ∧ r a = -1 ∧ r b = 1 ∧
      (∀ x ∈ wave, -1 ≤ r x ∧ r x ≤ 1) ∧ (∀ x y, x < y → r x < r y) := by
  have h1 : wave.max? = some b := by
    rw [List.max?_eq_some_iff]; exact ⟨hb, hmax⟩
  have h2 : wave.min? = some a := by
    rw [List.min?_eq_some_iff]; exact ⟨ha, hmin⟩
  have hd : 0 < b - a := sub_pos.2 hab
  refine ⟨fun w => 2 * (w - a) / (b - a) - 1, by simp [reducedWavelength, h1, h2], ?_, ?_, ?_, ?_⟩
  · simp
  · field_simp; ring
  · intro x hx
    constructor
    · have : 0 ≤ 2 * (x - a) / (b - a) := div_nonneg (by linarith [hmin x hx]) hd.le
      linarith
    · have : 2 * (x - a) / (b - a) ≤ 2 := by
        rw [div_le_iff₀ hd]; linarith [hmax x hx]
      linarith
  · intro x y hxy
    have : 2 * (x - a) / (b - a) < 2 * (y - a) / (b - a) := by
      rw [div_lt_div_iff_of_pos_right hd]; linarith
    linarith

example : ∃ r : ℚ → ℚ, reducedWavelength [3600, 3601, 5800] = .ok ([3600, 3601, 5800].map r) ∧ r 3600 = -1 ∧ r 5800 = 1 :=
  let ⟨r, h1, h2, h3, _⟩ := C57_reduced_wavelength (K := ℚ) [3600, 3601, 5800] 3600 5800 (by simp) (by simp)
    (by intro x hx; simp at hx; rcases hx with rfl | rfl | rfl <;> norm_num)
    (by intro x hx; simp at hx; rcases hx with rfl | rfl | rfl <;> norm_num) (by norm_num)
  ⟨r, h1, h2, h3⟩

end Redrock
