import Verif.Lemmas.Scan
import Verif.Props.Ring
import Mathlib.Tactic.NormNum

/-! Properties C06, C07, C09. -/
namespace Redrock
variable {ι T Z R : Type} [DecidableEq ι]

/-- **C04** the pieces the ranks hold: piece `r` carries the number `r`, and the redshifts of the pieces in rank order are the whole grid. -/
theorem C04_pieces_cover_grid (zs : List Z) (n : Nat) (hn : 0 < n) (p : Nat → Piece Z)
    (hp : ∀ r, r < n → DistTemplate.initPiece zs n r = .ok (p r)) :
    (∀ i, i < n → (p i).index = i) ∧ ((List.range n).map (fun i => (p i).redshifts)).flatten = zs := by
  obtain ⟨parts, h1, h2, h3, _⟩ := C04_array_split_covers zs n hn
  have hpr : ∀ r, (hr : r < n) → p r = { index := r, redshifts := parts[r]'(h2.symm ▸ hr) } := by
    intro r hr
    have := hp r hr
    have hr' : r < parts.length := h2.symm ▸ hr
    simp only [DistTemplate.initPiece, h1, bind, Except.bind, hr', List.getElem?_eq_getElem] at this
    split at this
    · simp [throw, throwThe, MonadExceptOf.throw] at this
    · simp only [pure, Except.pure, Except.ok.injEq] at this; exact this.symm
  refine ⟨fun i hi => by rw [hpr i hi], ?_⟩
  rw [← h3]
  congr 1
  apply List.ext_getElem
  · simp [h2]
  · intro i hi1 hi2
    simp at hi1
    simp [hpr i hi1]

/-- What a scan of the whole grid returns: each target's ID with its own results at each redshift in order. -/
def scanSpec (f : T → Z → R) (targets : List (ι × T)) (zs : List Z) : PyDict ι (List R) :=
  targets.map (fun e => (e.1, zs.map (f e.2)))

/-- The serial scan returns exactly the specification. -/
theorem C06_serial_scan (f : T → Z → R) (targets : List (ι × T)) (hnd : (targets.map (·.1)).Nodup) (zs : List Z) :
    scanSerial f (targets.map (·.1)) (targets.map (·.2)) zs = .ok (scanSpec f targets zs) := by
  unfold scanSerial
  rw [scanPieces_eq f targets hnd _ (by simp)]
  congr 1
  unfold assemble scanSpec
  rw [List.map_map]
  apply List.map_congr_left
  intro e _
  have := assemble_pieces f e.2 (fun i => { index := i, redshifts := zs }) 1 (by simp)
    [{ index := 0, redshifts := zs }] [0] (by simp) (by simp)
  simp only [Function.comp]
  rw [this]; simp

/-- **C06** MPI scan equals serial scan: for `n` ranks (at most one per redshift; see C04 for more), any interleaving of
the ranks and any buffering, every rank that finishes returns for its local targets exactly what a single process
returns for them: each target's results at every redshift of the grid, in grid order. -/
theorem C06_mpi_scan_eq_serial (f : T → Z → R) (zs : List Z) (n : Nat) (hn : 0 < n) (p : Nat → Piece Z)
    (hp : ∀ r, r < n → DistTemplate.initPiece zs n r = .ok (p r)) (strict : Bool) (k : Nat) (s : Net Z)
    (hrun : Net.Run n strict k (Net.init p) s) (r : Nat) (hr : r < n) (hfin : s.pc r = .finished)
    (targets : List (ι × T)) (hnd : (targets.map (·.1)).Nodup) :
    scanPieces f (targets.map (·.1)) (targets.map (·.2)) (s.log r) = .ok (scanSpec f targets zs) ∧
    scanPieces f (targets.map (·.1)) (targets.map (·.2)) (s.log r) =
      scanSerial f (targets.map (·.1)) (targets.map (·.2)) zs := by
  obtain ⟨hidx, hflat⟩ := C04_pieces_cover_grid zs n hn p hp
  have hinv := Net.inv_run n hn strict p hidx k s hrun
  obtain ⟨hc, _, hperm⟩ := (C05_cycle_visits_all n hn strict p hidx k s hrun r hr).1 hfin
  have hlog := hinv.log_eq r hr
  have hcnt : s.sentCnt r = n := by simp [Net.sentCnt, hfin, hc, Pc.sentBit]
  rw [hcnt] at hlog
  have hlog' : s.log r = ((List.range n).map (fun j => ringIdx n r j)).map p := by
    rw [hlog, List.map_map]; rfl
  have hip : ((List.range n).map (fun j => ringIdx n r j)).Perm (List.range n) := by
    have h1 := hperm.map (fun q => q.index)
    rw [hlog', List.map_map, List.map_map, List.map_map] at h1
    have e1 : (List.range n).map ((fun q => q.index) ∘ p) = List.range n := by
      conv_rhs => rw [← List.map_id (List.range n)]
      exact List.map_congr_left (fun i hi => hidx i (List.mem_range.1 hi))
    have e2 : (List.range n).map (((fun q => q.index) ∘ p) ∘ fun j => ringIdx n r j) =
        (List.range n).map (fun j => ringIdx n r j) :=
      List.map_congr_left (fun j hj => hidx _ (ringIdx_lt hr (List.mem_range.1 hj).le))
    rw [e1] at h1
    rw [← e2]; exact h1
  have hne : s.log r ≠ [] := by
    intro h0; rw [hlog] at h0; simp at h0; omega
  have hmain : scanPieces f (targets.map (·.1)) (targets.map (·.2)) (s.log r) = .ok (scanSpec f targets zs) := by
    rw [scanPieces_eq f targets hnd _ hne]
    congr 1
    unfold assemble scanSpec
    rw [List.map_map]
    apply List.map_congr_left
    intro e _
    have := assemble_pieces f e.2 p n hidx (s.log r) _ hlog' hip
    simp only [Function.comp]
    rw [this, hflat]
  exact ⟨hmain, by rw [hmain, C06_serial_scan f targets hnd zs]⟩

/-- The hypotheses are met: 3 ranks, 7 redshifts. -/
example : ∃ p : Nat → Piece Nat, (∀ r, r < 3 → DistTemplate.initPiece [0, 1, 2, 3, 4, 5, 6] 3 r = .ok (p r)) ∧
    ∃ s, Net.Run 3 true 27 (Net.init p) s ∧ s.pc 1 = .finished := by
  let p : Nat → Piece Nat := fun r => ⟨r, if r = 0 then [0, 1, 2] else if r = 1 then [3, 4] else [5, 6]⟩
  refine ⟨p, ?_, ?_⟩
  · intro r hr
    have : r = 0 ∨ r = 1 ∨ r = 2 := by omega
    rcases this with rfl | rfl | rfl <;> rfl
  · obtain ⟨s, h1, h2⟩ := C05_cycle_completes 3 (by decide) p (by intro i _; rfl)
    exact ⟨s, h1, h2 1 (by decide)⟩

/-- **C07**, full statement (see below: it is false of the code). For every local target list, process count and arrival order
of the workers' messages, the multiprocessing scan gives each target the result of the serial scan. -/
def MpScanEqualsSerial (ι T Z R : Type) [DecidableEq ι] (f : T → Z → R) : Prop :=
  ∀ (loc : List (LTarget ι T)) (_ : (loc.map (·.id)).Nodup) (mpProcs : Nat) (_ : 0 < mpProcs)
    (mpdist : List (List ι)) (_ : distributeTargets ℚ mpProcs (loc.map (fun t => (t.id, t.nspec))) none = .ok mpdist)
    (arrival : List Nat) (_ : arrival.Perm (mpStarted mpdist mpProcs)) (zs : List Z),
    ∃ d, scanMp f loc mpProcs zs arrival = .ok d ∧
      ∀ t ∈ loc, PyDict.get? d t.id = some (zs.map (f t.data))

/-- **C07** is false: targets 10, 20, 30 with 1, 2, 3 spectra on 2 processes. Worker 1 gets the IDs [20, 10] but
the data of [10, 20], so target 20 is given the results of target 10 (and vice versa). -/
theorem C07_mp_scan_swaps_targets :
    ¬ MpScanEqualsSerial Nat Nat Nat Nat (fun tg _ => tg) := by
  intro h
  have hd : distributeTargets ℚ 2 [(10, 1), (20, 2), (30, 3)] none = .ok [[30], [20, 10]] := by decide +kernel
  obtain ⟨d, h1, h2⟩ := h [⟨10, 1, 100⟩, ⟨20, 2, 200⟩, ⟨30, 3, 300⟩] (by decide) 2 (by decide) [[30], [20, 10]] hd
    [0, 1] (by decide) [7]
  have h3 := h2 ⟨20, 2, 200⟩ (by simp)
  have h4 : scanMp (fun tg _ => tg) [⟨10, 1, 100⟩, ⟨20, 2, 200⟩, ⟨30, 3, 300⟩] 2 [7] [0, 1] =
      .ok [(30, [300]), (20, [100]), (10, [200])] := by
    unfold scanMp
    simp only [List.map_cons, List.map_nil]
    rw [hd]; rfl
  rw [h4] at h1
  cases h1
  exact absurd h3 (by decide)

/-- **C07**, what holds: if the local targets are listed by non-increasing number of spectra (in particular if all have the same
number), then for every process count and every arrival order the multiprocessing scan gives each target exactly
the serial result. Missing from the full statement: local lists not sorted that way, where it is false. -/
theorem C07_mp_scan_eq_serial_partial (f : T → Z → R) (loc : List (LTarget ι T))
    (hnd : (loc.map (·.id)).Nodup) (hsorted : loc.Pairwise (fun a b => b.nspec ≤ a.nspec))
    (mpProcs : Nat) (hmp : 0 < mpProcs) (zs : List Z) :
    ∃ mpdist, distributeTargets ℚ mpProcs (loc.map (fun t => (t.id, t.nspec))) none = .ok mpdist ∧
      ∀ arrival : List Nat, arrival.Perm (mpStarted mpdist mpProcs) →
        ∃ d, scanMp f loc mpProcs zs arrival = .ok d ∧
          (∀ t ∈ loc, PyDict.get? d t.id = some (zs.map (f t.data))) ∧
          (∀ k, k ∉ loc.map (·.id) → PyDict.get? d k = none) := by
  classical
  -- weights as seen by the code
  let w : ι → ℚ := fun i => ((((loc.map (fun t => (t.id, t.nspec))).find? (fun e => decide (e.1 = i))).map (·.2)).getD 0 : Nat)
  have hw : ∀ t ∈ loc, w t.id = t.nspec := by
    intro t ht; simp only [w]; rw [find_nspec loc hnd t ht]
  have hids : (loc.map (fun t => (t.id, t.nspec))).map (·.1) = loc.map (·.id) := by simp
  have hpw : (loc.map (·.id)).Pairwise (fun a b => w b ≤ w a) := by
    rw [List.pairwise_map]
    refine hsorted.imp_of_mem ?_
    intro a b ha hb h
    rw [hw a ha, hw b hb]; exact_mod_cast h
  obtain ⟨mpdist, h1, h2, h3, h4⟩ := distributeWork_sublist mpProcs (List.replicate mpProcs (1 : ℚ)) (by simp) hmp
    (by intro c hc; rw [(List.mem_replicate.1 hc).2]; exact one_ne_zero) w (loc.map (·.id)) hpw
  have hdist : distributeTargets ℚ mpProcs (loc.map (fun t => (t.id, t.nspec))) none = .ok mpdist := by
    unfold distributeTargets distributeWorkDefault
    rw [hids]; exact h1
  refine ⟨mpdist, hdist, ?_⟩
  intro arrival harr
  -- the value each ID should get
  let val : ι → Option (List R) := fun k => (loc.find? (fun t => decide (t.id = k))).map (fun t => zs.map (f t.data))
  have hval : ∀ t ∈ loc, val t.id = some (zs.map (f t.data)) := by
    intro t ht
    simp only [val]
    cases hf : loc.find? (fun t' => decide (t'.id = t.id)) with
    | none => rw [List.find?_eq_none] at hf; simpa using hf t ht
    | some t' =>
      have e1 := List.mem_of_find?_eq_some hf
      have e2 := List.find?_some hf
      simp at e2
      have : t' = t := List.inj_on_of_nodup_map hnd e1 ht e2
      rw [this]; rfl
  -- each worker's message
  let Lof : Nat → List (LTarget ι T) := fun i => loc.filter (fun x => decide (x.id ∈ (mpdist[i]?).getD []))
  have hLof : ∀ i, (Lof i).map (·.id) = (mpdist[i]?).getD [] := by
    intro i
    have hsub : ((mpdist[i]?).getD []).Sublist (loc.map (·.id)) := by
      by_cases hi : i < mpdist.length
      · rw [List.getElem?_eq_getElem hi]; exact h4 _ (List.getElem_mem hi)
      · rw [List.getElem?_eq_none (by omega)]; exact List.nil_sublist _
    have := filter_mem_of_sublist _ _ hsub hnd
    rw [List.filter_map] at this
    exact this
  have hmsg : ∀ i, mpWorker f loc mpdist zs i = .ok (i, (Lof i).map (fun t => zs.map (f t.data))) := by
    intro i
    unfold mpWorker
    have := calcZchi2_eq f ((Lof i).map (fun t => (t.id, t.data))) zs
    simp only [List.map_map] at this
    have e1 : (Lof i).map ((fun x => x.1) ∘ fun t => (t.id, t.data)) = (mpdist[i]?).getD [] := hLof i
    rw [e1] at this
    change (do let rows ← calcZchi2 f ((mpdist[i]?).getD []) ((Lof i).map LTarget.data) zs; return (i, rows)) = _
    have e2 : (Lof i).map ((fun x => x.2) ∘ fun t => (t.id, t.data)) = (Lof i).map LTarget.data := rfl
    rw [e2] at this
    rw [this]; rfl
  let msg : Nat → Nat × List (List R) := fun i => (i, (Lof i).map (fun t => zs.map (f t.data)))
  have hmsgs : arrival.mapM (mpWorker f loc mpdist zs) = .ok (arrival.map msg) :=
    mapM_ok _ _ _ (fun i _ => hmsg i)
  refine ⟨(arrival.map msg).foldl (mpStore mpdist) [], ?_, ?_⟩
  · unfold scanMp
    rw [hdist]
    simp only [bind, Except.bind]
    rw [hmsgs]; rfl
  -- fold invariant
  have hfold : ∀ (arr : List Nat) (d : PyDict ι (List R)),
      (∀ k v, PyDict.get? d k = some v → val k = some v) →
      (∀ k v, PyDict.get? ((arr.map msg).foldl (mpStore mpdist) d) k = some v → val k = some v) ∧
      (∀ k, ((PyDict.get? d k).isSome ∨ ∃ i ∈ arr, k ∈ (mpdist[i]?).getD []) →
        (PyDict.get? ((arr.map msg).foldl (mpStore mpdist) d) k).isSome) := by
    intro arr
    induction arr with
    | nil => intro d hd; exact ⟨hd, fun k hk => by simpa using hk⟩
    | cons i arr ih =>
      intro d hd
      obtain ⟨s1, s2⟩ := mpStore_spec val mpdist i ((Lof i).map (fun t => zs.map (f t.data))) (by
          intro k r hkr
          rw [← hLof i, List.zip_map'] at hkr
          obtain ⟨t, ht, hte⟩ := List.mem_map.1 hkr
          simp only [Prod.mk.injEq] at hte
          rw [← hte.1, ← hte.2]
          exact hval t (List.mem_filter.1 ht).1) (by rw [← hLof i]; simp) d hd
      obtain ⟨r1, r2⟩ := ih _ s1
      refine ⟨r1, ?_⟩
      intro k hk
      apply r2
      rcases hk with hk | ⟨j, hj, hkj⟩
      · left; exact s2 k (Or.inl hk)
      · rcases List.mem_cons.1 hj with rfl | hj
        · left; exact s2 k (Or.inr hkj)
        · right; exact ⟨j, hj, hkj⟩
  obtain ⟨f1, f2⟩ := hfold arrival [] (by intro k v h; simp [PyDict.get?_nil] at h)
  constructor
  · intro t ht
    have hmem : t.id ∈ mpdist.flatten := h3.mem_iff.2 (List.mem_map.2 ⟨t, ht, rfl⟩)
    obtain ⟨l, hl, htl⟩ := List.mem_flatten.1 hmem
    obtain ⟨i, hi, rfl⟩ := List.getElem_of_mem hl
    have hil : (mpdist[i]?).getD [] = mpdist[i] := by rw [List.getElem?_eq_getElem hi]; rfl
    have hia : i ∈ arrival := by
      rw [harr.mem_iff]
      unfold mpStarted
      rw [List.mem_filter]
      refine ⟨List.mem_range.2 (h2 ▸ hi), ?_⟩
      rw [hil]
      cases hc : mpdist[i] with
      | nil => rw [hc] at htl; simp at htl
      | cons => rfl
    have hsome := f2 t.id (Or.inr ⟨i, hia, by rw [hil]; exact htl⟩)
    obtain ⟨v, hv⟩ := Option.isSome_iff_exists.1 hsome
    have := f1 _ _ hv
    rw [hval t ht] at this
    rw [hv, this]
  · intro k hk
    cases hg : PyDict.get? ((arrival.map msg).foldl (mpStore mpdist) []) k with
    | none => rfl
    | some v =>
      have := f1 _ _ hg
      simp only [val] at this
      cases hf : loc.find? (fun t => decide (t.id = k)) with
      | none => rw [hf] at this; simp at this
      | some t =>
        have e1 := List.mem_of_find?_eq_some hf
        have e2 := List.find?_some hf
        simp at e2
        exact absurd (List.mem_map.2 ⟨t, e1, e2⟩) hk

example : ([⟨30, 3, ()⟩, ⟨20, 2, ()⟩, ⟨10, 2, ()⟩] : List (LTarget Nat Unit)).Pairwise (fun a b => b.nspec ≤ a.nspec) ∧
    (([⟨30, 3, ()⟩, ⟨20, 2, ()⟩, ⟨10, 2, ()⟩] : List (LTarget Nat Unit)).map (·.id)).Nodup := by
  constructor <;> decide

/-- **C09** Batched gather: whatever the number of results of a rank (0, 4999, 5000, 5001, ...) and the batch size, the announced
number of batches is the number of batches sent, rank 0 consumes all of them, and ends up with exactly the
sender's dictionary (same entries, same order). -/
theorem C09_gather_batches {V : Type} (results : PyDict ι V) (hnd : (PyDict.keys results).Nodup) (m : Nat) (hm : 0 < m) :
    gatherRecv (gatherSend results m).1 (gatherSend results m).2 = some (results, []) ∧
    (gatherSend results m).1 = (gatherSend results m).2.length ∧
    ∀ b ∈ (gatherSend results m).2, b.length ≤ m := by
  have hupd : PyDict.update [] results = results := by
    rw [update_nil results hnd [] (by simp [PyDict.keys])]; rfl
  by_cases h : results.length < m
  · have : gatherSend results m = (1, [results]) := by simp [gatherSend, h]
    rw [this]
    refine ⟨?_, rfl, ?_⟩
    · simp [gatherRecv, hupd]
    · intro b hb; simp at hb; rw [hb]; omega
  · have hpos : 0 < results.length := by omega
    have hnum : (results.length - 1) / m + 1 = (results.length + m - 1) / m := by
      rw [← Nat.add_div_right _ hm]; congr 1; omega
    have hcover : results.length ≤ (results.length + m - 1) / m * m := by
      rw [← hnum, Nat.add_mul, Nat.one_mul]
      have h1 := Nat.div_add_mod (results.length - 1) m
      have h2 := Nat.mod_lt (results.length - 1) hm
      rw [Nat.mul_comm] at h1
      omega
    have : gatherSend results m = ((results.length + m - 1) / m,
        (List.range ((results.length + m - 1) / m)).map (fun i => (results.drop (i * m)).take m)) := by
      simp [gatherSend, h, hnum]
    rw [this]
    refine ⟨?_, by simp, ?_⟩
    · simp only [gatherRecv, List.length_map, List.length_range, lt_irrefl, if_false]
      rw [List.take_of_length_le (by simp), List.drop_of_length_le (by simp), update_foldl_flatten, chunk_flatten,
        List.take_of_length_le hcover, hupd]
    · intro b hb
      obtain ⟨i, _, rfl⟩ := List.mem_map.1 hb
      exact List.length_take_le _ _

/-- **C09** After merging over the ranks in rank order, rank 0 holds exactly the results of all ranks, when targets live on
one rank each (C11). -/
theorem C09_gather_all {V : Type} (perRank : List (PyDict ι V)) (hnd : (PyDict.keys perRank.flatten).Nodup) :
    gatherAll perRank = perRank.flatten := by
  unfold gatherAll
  rw [update_foldl_flatten, update_nil _ hnd [] (by simp [PyDict.keys])]; rfl

example : (PyDict.keys ((List.range 10001).map (fun i => (i, i * i)))).Nodup := by
  have : PyDict.keys ((List.range 10001).map (fun i => (i, i * i))) = List.range 10001 := by
    simp only [PyDict.keys, List.map_map]
    exact List.map_id _
  rw [this]; exact List.nodup_range

end Redrock
