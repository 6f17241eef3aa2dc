import Verif.Model.DistTargets
import Verif.Lemmas.Scan
import Verif.Props.Work

/-! Properties C11, C56. -/
namespace Redrock
set_option linter.unusedSectionVars false
variable {ι T : Type} [DecidableEq ι]

private theorem targetBuffer_get (targets : List (LTarget ι T)) (mine : List ι) (hnd : (targets.map (·.id)).Nodup) :
    ∀ t ∈ targets, t.id ∈ mine → PyDict.get? (targetBuffer targets mine) t.id = some t := by
  have gen : ∀ (L : List (LTarget ι T)) (d : PyDict ι (LTarget ι T)) (k : ι), (L.map (·.id)).Nodup → k ∈ mine →
      PyDict.get? (L.foldl (fun d tg => if tg.id ∈ mine then PyDict.set d tg.id tg else d) d) k =
        (L.find? (fun t => decide (t.id = k))).or (PyDict.get? d k) := by
    intro L
    induction L with
    | nil => intro d k _ _; simp
    | cons a L ih =>
      intro d k hn hk
      simp only [List.map_cons, List.nodup_cons] at hn
      rw [List.foldl_cons, ih _ _ hn.2 hk]
      by_cases hak : a.id = k
      · subst hak
        have hnone : L.find? (fun t => decide (t.id = a.id)) = none := by
          rw [List.find?_eq_none]; intro t ht; simp
          intro h; exact hn.1 (List.mem_map.2 ⟨t, ht, h⟩)
        simp [hnone, hk, PyDict.get?_set]
      · simp only [List.find?_cons, hak, decide_false]
        congr 1
        split
        · rw [PyDict.get?_set]; simp [hak]
        · rfl
  intro t ht htm
  unfold targetBuffer
  rw [gen targets [] t.id hnd htm]
  cases hf : targets.find? (fun t' => decide (t'.id = t.id)) with
  | none => rw [List.find?_eq_none] at hf; simpa using hf t ht
  | some t' =>
    have e1 := List.mem_of_find?_eq_some hf
    have e2 := List.find?_some hf
    simp at e2
    rw [List.inj_on_of_nodup_map hnd e1 ht e2]; rfl

/-- **C11** With MPI (`n ≥ 1` ranks) and unique IDs: the constructor succeeds on every rank; `all_target_ids` is the input
order on every rank; each rank's `local()` list holds exactly the targets of its `local_target_ids()`, position by position, with
their own data; and over all ranks every target occurs exactly once. -/
theorem C11_copied_targets_mpi_partial (targets : List (LTarget ι T)) (hnd : (targets.map (·.id)).Nodup) (n : Nat)
    (hn : 0 < n) :
    ∃ L : Nat → LocalTargets ι T, (∀ r, r < n → distTargetsCopy targets (some n) r = .ok (L r)) ∧
      (∀ r, r < n → (L r).allTargetIds = targets.map (·.id)) ∧
      (∀ r, r < n → (L r).myData.map (·.id) = (L r).myTargets) ∧
      ((List.range n).flatMap (fun r => (L r).myData)).Perm targets := by
  obtain ⟨pt, h1, h2, h3⟩ := C01_distribute_work_default_partition (K := ℚ) n (targets.map (·.id))
    (some fun i => ((((targets.map (fun t => (t.id, t.nspec))).find? (fun t => decide (t.1 = i))).map (·.2)).getD 0 : Nat)) hn
  have hpt : distributeTargets ℚ n (targets.map (fun t => (t.id, t.nspec))) none = .ok pt := by
    unfold distributeTargets
    have hids : (targets.map (fun t => (t.id, t.nspec))).map (·.1) = targets.map (·.id) := by simp
    rw [hids]; exact h1
  -- data of an ID
  let dat : ι → Option (LTarget ι T) := fun k => targets.find? (fun t => decide (t.id = k))
  have hdat : ∀ t ∈ targets, dat t.id = some t := by
    intro t ht
    simp only [dat]
    cases hf : targets.find? (fun t' => decide (t'.id = t.id)) with
    | none => rw [List.find?_eq_none] at hf; simpa using hf t ht
    | some t' =>
      have e1 := List.mem_of_find?_eq_some hf
      have e2 := List.find?_some hf
      simp at e2
      rw [List.inj_on_of_nodup_map hnd e1 ht e2]
  have hsub : ∀ r (hr : r < n), ∀ x ∈ pt[r]'(h2.symm ▸ hr), ∃ t ∈ targets, t.id = x := by
    intro r hr x hx
    have : x ∈ pt.flatten := List.mem_flatten.2 ⟨_, List.getElem_mem _, hx⟩
    obtain ⟨t, ht, rfl⟩ := List.mem_map.1 (h3.mem_iff.1 this)
    exact ⟨t, ht, rfl⟩
  by_cases hemp : targets = []
  · subst hemp
    have hflat : pt.flatten = [] := by simpa using h3
    refine ⟨fun _ => ⟨[], [], []⟩, ?_, by simp, by simp, by simp⟩
    intro r hr
    have hr' : r < pt.length := h2.symm ▸ hr
    have hnil : pt[r] = [] := by
      rw [List.flatten_eq_nil_iff] at hflat
      exact hflat _ (List.getElem_mem hr')
    unfold distTargetsCopy
    simp only [Option.getD_some, List.map_nil]
    rw [show distributeTargets ℚ n ([] : List (ι × Nat)) none = .ok pt from hpt]
    simp [bind, Except.bind, hr', hnil, pure, Except.pure]
  · obtain ⟨t0, ht0⟩ := List.exists_mem_of_ne_nil _ hemp
    let g : ι → LTarget ι T := fun k => (dat k).getD t0
    have hg : ∀ t ∈ targets, g t.id = t := by intro t ht; simp only [g]; rw [hdat t ht]; rfl
    let L : Nat → LocalTargets ι T := fun r =>
      { allTargetIds := targets.map (·.id), myTargets := (pt[r]?).getD [], myData := ((pt[r]?).getD []).map g }
    have hLr : ∀ r (hr : r < n), (pt[r]?).getD [] = pt[r]'(h2.symm ▸ hr) := by
      intro r hr; rw [List.getElem?_eq_getElem (h2.symm ▸ hr)]; rfl
    refine ⟨L, ?_, fun _ _ => rfl, ?_, ?_⟩
    · intro r hr
      have hr' : r < pt.length := h2.symm ▸ hr
      unfold distTargetsCopy
      simp only [Option.getD_some]
      rw [hpt]
      simp only [bind, Except.bind, hr', List.getElem?_eq_getElem]
      rw [mapM_ok _ g]
      · simp [L, hr', pure, Except.pure]
      · intro x hx
        obtain ⟨t, ht, rfl⟩ := hsub r hr x hx
        unfold PyDict.get
        rw [targetBuffer_get targets _ hnd t ht hx, hg t ht]
    · intro r hr
      simp only [L, List.map_map]
      conv_rhs => rw [← List.map_id ((pt[r]?).getD [])]
      apply List.map_congr_left
      intro x hx
      rw [hLr r hr] at hx
      obtain ⟨t, ht, rfl⟩ := hsub r hr x hx
      simp [hg t ht]
    · have e1 : (List.range n).flatMap (fun r => (L r).myData) = pt.flatten.map g := by
        rw [List.flatMap_def, List.map_flatten]
        congr 1
        apply List.ext_getElem
        · simp [h2]
        · intro i hi1 hi2
          simp at hi1
          simp [L, h2, hi1]
      rw [e1]
      have e2 := h3.map g
      have e3 : (targets.map (·.id)).map g = targets := by
        rw [List.map_map]
        conv_rhs => rw [← List.map_id targets]
        exact List.map_congr_left (fun t ht => hg t ht)
      rwa [e3] at e2

example : (([⟨7, 1, "x"⟩, ⟨8, 2, "y"⟩] : List (LTarget Nat String)).map (·.id)).Nodup ∧ 0 < 2 := by decide

/-- **C11**, full claim without MPI (false of the code): `local()` matches `local_target_ids()` position by position. -/
def CopyAlignedWithoutMpi : Prop :=
  ∀ (targets : List (LTarget Nat Unit)) (_ : (targets.map (·.id)).Nodup) (L : LocalTargets Nat Unit),
    distTargetsCopy targets none 0 = .ok L → L.myData.map (·.id) = L.myTargets

/-- **C11** is false without MPI: two targets with 1 and 2 spectra. `local_target_ids()` is [20, 10], `local()` is
[10, 20]; the scan pairs them by position, so each target gets the other's chi2. -/
theorem C11_misaligned_without_mpi : ¬ CopyAlignedWithoutMpi := by
  intro h
  have := h [⟨10, 1, ()⟩, ⟨20, 2, ()⟩] (by decide)
    ⟨[10, 20], [20, 10], [⟨10, 1, ()⟩, ⟨20, 2, ()⟩]⟩ (by
      have hd : distributeTargets ℚ 1 [(10, 1), (20, 2)] none = .ok [[20, 10]] := by decide +kernel
      unfold distTargetsCopy
      simp only [Option.getD_none, List.map_cons, List.map_nil]
      rw [hd]; rfl)
  exact absurd this (by decide)

/-- **C11**, consequence of the misalignment for the serial scan: target 20's chi2 is computed from target 10's
data. -/
theorem C11_serial_scan_swapped :
    (do let L ← distTargetsCopy [⟨10, 1, 100⟩, ⟨20, 2, 200⟩] none 0
        scanSerial (fun (tg : Nat) (_ : Nat) => tg) L.myTargets (L.myData.map LTarget.data) [7] : Py (PyDict Nat (List Nat)))
      = .ok [(20, [100]), (10, [200])] := by
  have hd : distributeTargets ℚ 1 [(10, 1), (20, 2)] none = .ok [[20, 10]] := by decide +kernel
  unfold distTargetsCopy
  simp only [Option.getD_none, List.map_cons, List.map_nil]
  rw [hd]; decide

/-- **C11** without MPI, what holds: if the targets are listed by non-increasing number of spectra, the lists match. -/
theorem C11_copied_targets_serial_partial (targets : List (LTarget ι T)) (hnd : (targets.map (·.id)).Nodup)
    (hs : targets.Pairwise (fun a b => b.nspec ≤ a.nspec)) :
    distTargetsCopy targets none 0 =
      .ok { allTargetIds := targets.map (·.id), myTargets := targets.map (·.id), myData := targets } := by
  let w : ι → ℚ := fun i => ((((targets.map (fun t => (t.id, t.nspec))).find? (fun e => decide (e.1 = i))).map (·.2)).getD 0 : Nat)
  have hw : ∀ t ∈ targets, w t.id = t.nspec := by
    intro t ht; simp only [w]; rw [find_nspec targets hnd t ht]
  have hpw : (targets.map (·.id)).Pairwise (fun a b => w b ≤ w a) := by
    rw [List.pairwise_map]
    refine hs.imp_of_mem ?_
    intro a b ha hb h
    rw [hw a ha, hw b hb]; exact_mod_cast h
  obtain ⟨d, h1, h2, h3, h4⟩ := distributeWork_sublist 1 [(1 : ℚ)] (by simp) (by simp)
    (by intro c hc; simp at hc; rw [hc]; exact one_ne_zero) w (targets.map (·.id)) hpw
  have hd : d = [targets.map (·.id)] := by
    match d, h2 with
    | [l], _ =>
      have hl := h4 l (by simp)
      simp at h3
      rw [hl.eq_of_length h3.length_eq]
  have hdist : distributeTargets ℚ 1 (targets.map (fun t => (t.id, t.nspec))) none = .ok d := by
    unfold distributeTargets distributeWorkDefault
    have hids : (targets.map (fun t => (t.id, t.nspec))).map (·.1) = targets.map (·.id) := by simp
    rw [hids]; exact h1
  unfold distTargetsCopy
  simp only [Option.getD_none]
  rw [hdist, hd]; rfl

example : ([⟨7, 3, "x"⟩, ⟨8, 2, "y"⟩] : List (LTarget Nat String)).Pairwise (fun a b => b.nspec ≤ a.nspec) := by decide

/-! ### C56 -/
section Wave
variable {H W : Type} [DecidableEq H]

private theorem get?_addMissing (d : PyDict H W) (ps : List (H × W)) (k : H) :
    PyDict.get? (addMissing d ps) k = (PyDict.get? d k).or (PyDict.get? ps k) := by
  induction ps generalizing d with
  | nil => simp [addMissing, PyDict.get?_nil]
  | cons p ps ih =>
    obtain ⟨a, b⟩ := p
    unfold addMissing at ih ⊢
    rw [List.foldl_cons, ih, PyDict.get?_cons]
    by_cases h : (PyDict.get? d a).isSome
    · simp only [h, if_true]
      by_cases hk : a = k
      · subst hk
        obtain ⟨v, hv⟩ := Option.isSome_iff_exists.1 h
        simp [hv]
      · simp [hk]
    · simp only [h]
      rw [if_neg (by simp), PyDict.get?_set]
      by_cases hk : a = k
      · subst hk
        have : PyDict.get? d a = none := by simpa using h
        simp [this]
      · simp [hk]

private theorem get?_foldl_addMissing (ds : List (PyDict H W)) (d : PyDict H W) (k : H) :
    PyDict.get? (ds.foldl addMissing d) k = (PyDict.get? d k).or (PyDict.get? ds.flatten k) := by
  induction ds generalizing d with
  | nil => simp [PyDict.get?_nil]
  | cons e ds ih => rw [List.foldl_cons, ih, get?_addMissing, List.flatten_cons, PyDict.get?_append, Option.or_assoc]

/-- **C56** `wavegrids()` is the same on every rank (it is computed from the gathered dictionaries only) and holds, for each wavehash of
any spectrum of any target on any rank, a wavelength grid of that hash; no other hash occurs. If equal hashes mean equal grids, it is
*the* grid, so the result does not depend on how targets are spread over ranks. -/
theorem C56_wavegrids (perRank : List (List (H × W))) :
    (∀ h, (PyDict.get? (wavegridsMpi perRank) h).isSome ↔ ∃ sp ∈ perRank, ∃ w, (h, w) ∈ sp) ∧
    (∀ h w, PyDict.get? (wavegridsMpi perRank) h = some w → ∃ sp ∈ perRank, (h, w) ∈ sp) ∧
    (∀ h, PyDict.get? (wavegridsMpi perRank) h = PyDict.get? (wavegridsSerial perRank.flatten) h) := by
  have hmy : ∀ (sp : List (H × W)) k, PyDict.get? (myDwave sp) k = PyDict.get? sp k := by
    intro sp k; unfold myDwave; rw [get?_addMissing]; simp [PyDict.get?_nil]
  have hflat : ∀ k, PyDict.get? ((perRank.map myDwave).flatten) k = PyDict.get? perRank.flatten k := by
    intro k
    induction perRank with
    | nil => rfl
    | cons sp rest ih =>
      rw [List.map_cons, List.flatten_cons, List.flatten_cons, PyDict.get?_append, PyDict.get?_append, ih, hmy]
  have hmain : ∀ k, PyDict.get? (wavegridsMpi perRank) k = PyDict.get? perRank.flatten k := by
    intro k; unfold wavegridsMpi; rw [get?_foldl_addMissing, hflat]; simp [PyDict.get?_nil]
  have hval : ∀ h w, PyDict.get? (wavegridsMpi perRank) h = some w → ∃ sp ∈ perRank, (h, w) ∈ sp := by
    intro h w hw
    rw [hmain] at hw
    have := PyDict.mem_of_get? _ _ _ hw
    obtain ⟨sp, hsp, hm⟩ := List.mem_flatten.1 this
    exact ⟨sp, hsp, hm⟩
  refine ⟨?_, hval, ?_⟩
  · intro h
    constructor
    · intro hs
      obtain ⟨w, hw⟩ := Option.isSome_iff_exists.1 hs
      obtain ⟨sp, hsp, hm⟩ := hval h w hw
      exact ⟨sp, hsp, w, hm⟩
    · rintro ⟨sp, hsp, w, hm⟩
      rw [hmain, ← PyDict.mem_keys_iff]
      exact List.mem_map.2 ⟨(h, w), List.mem_flatten.2 ⟨sp, hsp, hm⟩, rfl⟩
  · intro h
    rw [hmain]; unfold wavegridsSerial; rw [hmy]

end Wave
end Redrock
