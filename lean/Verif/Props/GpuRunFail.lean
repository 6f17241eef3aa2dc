import Verif.Props.GpuRun

/-!
C124: when a run in GPU mode fails or gives another catalogue; an example that meets the hypotheses of `C124_gpu_run_partial`.
-/
set_option linter.unusedSectionVars false
namespace Redrock.Gpu
open Redrock Run Catalogue FullRun

theorem foldlM_inv {α β : Type} (P : β → Prop) (f : β → α → Py β) (l : List α) (h : ∀ b, ∀ a ∈ l, ∀ r, P b → f b a = .ok r → P r) : ∀ b r, P b → l.foldlM f b = .ok r → P r := by
  induction l with
  | nil => intro b r hb hr; rw [← Except.ok.inj hr]; exact hb
  | cons a l ih =>
    intro b r hb hr
    rw [List.foldlM_cons] at hr
    cases hx : f b a with
    | error e => rw [hx] at hr; cases hr
    | ok x =>
      rw [hx] at hr
      exact ih (fun b' a' ha' => h b' a' (List.mem_cons_of_mem _ ha')) x r (h b a (by simp) x hb hx) hr

theorem foldlM_fails {α β : Type} (P : β → Prop) (f : β → α → Py β) (l : List α) (h : ∀ b, ∀ a ∈ l, ∀ r, P b → f b a = .ok r → P r) (a0 : α) (ha0 : a0 ∈ l) (hf : ∀ b r, P b → f b a0 ≠ .ok r) :
    ∀ b r, P b → l.foldlM f b ≠ .ok r := by
  induction l with
  | nil => simp at ha0
  | cons a l ih =>
    intro b r hb hr
    rw [List.foldlM_cons] at hr
    cases hx : f b a with
    | error e => rw [hx] at hr; cases hr
    | ok x =>
      rw [hx] at hr
      rcases List.mem_cons.1 ha0 with rfl | hm
      · exact hf b x hb hx
      · exact ih (fun b' a' ha' => h b' a' (List.mem_cons_of_mem _ ha')) hm x r (h b a (by simp) x hb hx) hr

theorem mem_of_set {κ ν : Type} [DecidableEq κ] (d : PyDict κ ν) (k : κ) (v : ν) (e : κ × ν) (h : e ∈ d.set k v) : e = (k, v) ∨ e ∈ d := by
  unfold PyDict.set at h
  split at h
  · obtain ⟨x, hx, rfl⟩ := List.mem_map.1 h
    split
    · exact Or.inl rfl
    · exact Or.inr hx
  · rcases List.mem_append.1 h with h | h
    · exact Or.inr h
    · exact Or.inl (by simpa using h)

section
variable {ι ω K σ M : Type} [DecidableEq ι] [DecidableEq ω] [Field K] [LinearOrder K] [IsStrictOrderedRing K]

theorem get_mem {κ ν : Type} [DecidableEq κ] (d : PyDict κ ν) (k : κ) (v : ν) (h : d.get k = .ok v) : (k, v) ∈ d := by
  apply PyDict.mem_of_get?
  unfold PyDict.get at h
  split at h
  · rename_i w hw; rw [hw, Except.ok.inj h]
  · cases h

/-- the scan of a rank that holds no redshifts is empty -/
theorem scanSliceNone_empty (S : Solvers K) (tm : Tmpl ω K σ) (spectra : List (Spec ω K)) (rows : List (ScanRow K)) (h : scanSliceNone S tm spectra [] = .ok rows) : rows = [] := by
  unfold scanSliceNone calcZchi2Target at h
  simp only [List.length_nil, List.replicate_zero] at h
  split at h
  · simpa [bind, Except.bind, pure, Except.pure] using (Except.ok.inj h).symm
  · rename_i hw
    have : ∀ (b : PyDict ω (List (List (List K)))) w f wf, calcZchi2Batch (solveMatrices S tm.algorithm none) (spectra.map Spec.toFit) b w f wf 0 tm.nbasis none = .ok [] := by
      intro b w f wf
      unfold calcZchi2Batch
      split
      · rfl
      · rfl
    rw [this] at h
    cases ho : tm.oii with
    | none =>
      rw [ho] at h
      exact (Except.ok.inj h).symm
    | some p =>
      rw [ho] at h
      exact (Except.ok.inj h).symm

theorem scanSlices_none {T Z R : Type} (fs : T → List Z → Py (List R)) (hfs : ∀ t rows, fs t [] = .ok rows → rows = []) (ids : List ι) (L : List T) (r : Nat) (d : PyDict ι (List R))
    (h : scanSlices fs ids L [⟨r, []⟩] = .ok d) : ∀ e ∈ d, e.2 = [] := by
  unfold scanSlices at h
  rw [List.foldlM_cons] at h
  cases hx : calcZchi2Slice fs ids L [] with
  | error e => rw [hx] at h; cases h
  | ok rows =>
    rw [hx] at h
    have hd : assemble (storePiece ids rows r []) = d := Except.ok.inj h
    have hrows : ∀ x ∈ rows, x = [] := by
      intro x hxm
      unfold calcZchi2Slice at hx
      obtain ⟨j, _, hj⟩ := mapM_ok_mem _ _ _ hx x hxm
      split at hj
      · exact hfs _ _ hj
      · cases hj
    have hst : ∀ (ps : List (ι × List R)), (∀ p ∈ ps, p.2 = []) → ∀ z : PyDict ι (PyDict Nat (List R)), (∀ e ∈ z, ∀ q ∈ e.2, q.2 = []) →
        ∀ e ∈ ps.foldl (fun d tr => PyDict.set d tr.1 (PyDict.set ((PyDict.get? d tr.1).getD []) r tr.2)) z, ∀ q ∈ e.2, q.2 = [] := by
      intro ps
      induction ps with
      | nil => intro _ z hz; exact hz
      | cons p ps ih =>
        intro hp z hz
        refine ih (fun q hq => hp q (List.mem_cons_of_mem _ hq)) _ ?_
        intro e he q hq
        rcases mem_of_set _ _ _ _ he with rfl | he
        · rcases mem_of_set _ _ _ _ hq with rfl | hq
          · exact hp p (by simp)
          · cases hg : PyDict.get? z p.1 with
            | none => rw [hg] at hq; simp at hq
            | some w => rw [hg] at hq; exact hz _ (PyDict.mem_of_get? _ _ _ hg) q hq
        · exact hz e he q hq
    have hz := hst (ids.zip rows) (fun p hp => hrows _ (List.of_mem_zip hp).2) [] (by simp)
    intro e he
    rw [← hd] at he
    unfold assemble at he
    obtain ⟨x, hxm, rfl⟩ := List.mem_map.1 he
    rw [List.flatten_eq_nil_iff]
    intro l hl
    obtain ⟨k, _, hk⟩ := List.mem_filterMap.1 hl
    exact hz x hxm _ (PyDict.mem_of_get? _ _ _ hk)

/-- every scan in the results is empty -/
def NoScan {Z R F : Type} (results : PyDict ι (RunResult Z R F M)) : Prop := ∀ e ∈ results, ∀ s ∈ e.2.scans, s.2.rows = []

/-- **C124** In GPU mode a rank without GPU has no redshifts to scan: if it has any target (and any template has redshifts), it raises, so no catalogue is written, whatever the other ranks do. -/
theorem C124_cpu_rank_fails [LinearOrder σ] (c : GpuCfg ι ω K σ) (hn : (c.cpu.templates.map (·.1)).Nodup) (ho : c.cpu.order.Perm (c.cpu.templates.map (·.1)))
    (t : PyStr × Tmpl ω K σ) (ht : t ∈ c.cpu.templates) (hz : t.2.redshifts ≠ []) (targets : List (ι × (List (Spec ω K) × M))) (allIds : List ι)
    (ranks : List (Bool × List (ι × (List (Spec ω K) × M)))) (loc : List (ι × (List (Spec ω K) × M))) (hr : (false, loc) ∈ ranks) (hloc : loc ≠ []) (rows : List (ι × Row K σ)) :
    fullCatalogueGpu c targets allIds ranks ≠ .ok rows := by
  have hrank : ∀ (grids : List ω) (r : Nat) out, gpuRank c grids false r loc ≠ .ok out := by
    intro grids r out h
    unfold gpuRank at h
    obtain ⟨res, h1, h2⟩ := Except.bind_ok _ _ _ h
    clear h
    have hno : NoScan res := by
      unfold calcZchi2Targets at h1
      refine foldlM_inv NoScan _ _ ?_ _ _ ?_ h1
      · intro b u _ b' hb hstep
        obtain ⟨z, hz1, hz2⟩ := Except.bind_ok _ _ _ hstep
        obtain ⟨tm, _, hz3⟩ := Except.bind_ok _ _ _ hz1
        have hempty : ∀ e ∈ z, e.2 = [] := by
          refine scanSlices_none _ ?_ _ _ r z hz3
          intro e rs hrs
          exact scanSliceNone_empty _ _ _ _ hrs
        unfold storeTemplate at hz2
        refine foldlM_inv NoScan _ _ ?_ _ _ hb hz2
        intro d tid _ d' hd hs e he s hsm
        unfold storeScan at hs
        obtain ⟨rr, hr1, hs⟩ := Except.bind_ok _ _ _ hs
        obtain ⟨rw', hr2, hs⟩ := Except.bind_ok _ _ _ hs
        rw [← Except.ok.inj hs] at he
        rcases mem_of_set _ _ _ _ he with rfl | he
        · rcases mem_of_set _ _ _ _ hsm with rfl | hsm
          · exact hempty _ (get_mem _ _ _ hr2)
          · exact hd _ (get_mem _ _ _ hr1) s hsm
        · exact hd e he s hsm
      · have : ∀ (ids : List ι) (d : PyDict ι (RunResult K (ScanRow K) (TemplateFit K σ) M)), NoScan d → NoScan (ids.foldl (fun d t => PyDict.set d t ⟨[], none⟩) d) := by
          intro ids
          induction ids with
          | nil => intro d hd; exact hd
          | cons i ids ih =>
            intro d hd
            apply ih
            intro e he s hs
            rcases mem_of_set _ _ _ _ he with rfl | he
            · simp at hs
            · exact hd e he s hs
        exact this _ [] (by intro e he; simp at he)
    unfold rankFinish at h2
    obtain ⟨x, h3, _⟩ := Except.bind_ok _ _ _ h2
    have hpr : NoScan (applyPriors (fun id zs rows => addPriorRows (c.cpu.prior id zs) rows) res) := by
      intro e he s hs
      unfold applyPriors at he
      obtain ⟨e0, he0, rfl⟩ := List.mem_map.1 he
      obtain ⟨s0, hs0, rfl⟩ := List.mem_map.1 hs
      show addPriorRows _ s0.2.rows = []
      rw [hno e0 he0 s0 hs0]
      simp [addPriorRows]
    obtain ⟨e0, he0⟩ := List.exists_mem_of_ne_nil _ hloc
    have hts : (⟨t.1, t.2.redshifts⟩ : RunTemplate K) ∈ c.cpu.runSorted := (runSorted_perm c.cpu hn ho).mem_iff.2 (List.mem_map.2 ⟨t, ht, rfl⟩)
    unfold fitLocal at h3
    refine foldlM_fails NoScan _ _ ?_ (⟨t.1, t.2.redshifts⟩, (e0.1, e0)) ?_ ?_ _ _ hpr h3
    · intro b a _ b' hb hs e he s hsm
      unfold fitStep at hs
      obtain ⟨rr, hr1, hs⟩ := Except.bind_ok _ _ _ hs
      obtain ⟨en, hr2, hs⟩ := Except.bind_ok _ _ _ hs
      obtain ⟨zf, hr3, hs⟩ := Except.bind_ok _ _ _ hs
      rw [← Except.ok.inj hs] at he
      rcases mem_of_set _ _ _ _ he with rfl | he
      · rcases mem_of_set _ _ _ _ hsm with rfl | hsm
        · exact hb _ (get_mem _ _ _ hr1) (a.1.fulltype, en) (get_mem _ _ _ hr2)
        · exact hb _ (get_mem _ _ _ hr1) s hsm
      · exact hb e he s hsm
    · exact List.mem_flatMap.2 ⟨_, hts, List.mem_map.2 ⟨_, List.mem_map.2 ⟨e0, he0, rfl⟩, rfl⟩⟩
    · intro b b' hb hs
      unfold fitStep at hs
      obtain ⟨rr, hr1, hs⟩ := Except.bind_ok _ _ _ hs
      obtain ⟨en, hr2, hs⟩ := Except.bind_ok _ _ _ hs
      obtain ⟨zf, hr3, hs⟩ := Except.bind_ok _ _ _ hs
      have hrows : en.rows = [] := hb _ (get_mem _ _ _ hr1) _ (get_mem _ _ _ hr2)
      have hget : c.cpu.templates.get t.1 = .ok t.2 := by unfold PyDict.get; rw [get?_of_mem c.cpu.templates hn t ht]
      simp only [hrows, hget, okBind, Bool.false_eq_true, if_false] at hr3
      unfold fitRows fitz at hr3
      rw [if_pos] at hr3
      · cases hr3
      · simp only [List.map_nil, List.length_nil]
        intro h0
        exact hz (List.length_eq_zero_iff.1 h0.symm)
  intro h
  unfold fullCatalogueGpu fullFitsGpu at h
  obtain ⟨cat, h, _⟩ := Except.bind_ok _ _ _ h
  obtain ⟨per, h, _⟩ := Except.bind_ok _ _ _ h
  obtain ⟨r, hr'⟩ := List.mem_iff_getElem?.1 hr
  have hm : ((false, loc), r) ∈ ranks.zipIdx := by
    rw [List.mem_zipIdx_iff_getElem?]; exact hr'
  obtain ⟨out, _, ho'⟩ := forall₂_left_mem (mapM_inv _ _ _ h) _ hm
  exact hrank _ _ out ho'

end
/-! ### an example -/
namespace Ex
open Redrock.Units

/-- one basis spectrum of two pixels, 1 and `z` -/
def tm (alg : SolveAlgorithm) : Tmpl Unit ℚ Nat where
  spectype := 0
  subtype := 0
  isStar := false
  redshifts := [0, 1, 2, 3, 4]
  nbasis := 1
  algorithm := alg
  oii := none
  bin := fun _ zs => .ok (zs.map (fun z => [[1], [z]]))

/-- the solver fails for matrices above 4, which belong to the redshifts 2, 3, 4 -/
def nnlsFails (M : List (List ℚ)) (y : List ℚ) : Py (List ℚ) := if 4 < (M.getD 0 []).getD 0 0 then .error .runtimeError else .ok [y.getD 0 0 / (M.getD 0 []).getD 0 0]

def solveQ (M : List (List ℚ)) (y : List ℚ) : Py (List ℚ) := if (M.getD 0 []).getD 0 0 = 0 ∨ y.length ≠ 1 then .error .linAlgError else .ok [y.getD 0 0 / (M.getD 0 []).getD 0 0]

def solveGpu (M : List (List ℚ)) (y : List ℚ) : List ℚ := if y.length = 1 then [y.getD 0 0 / (M.getD 0 []).getD 0 0] else y

def ident : Csr ℚ := ⟨[1, 1], [0, 1], [0, 1, 2], 2, 2⟩

/-- the threads run last to first, the memory from `cp.empty` holds sevens -/
def device (nz : Nat) : Device ℚ where
  sparse := fun _ n => (threads n blockSize).reverse
  dot33 := fun n => (threads n blockSize).reverse
  dot32 := fun n => (threads n blockSize).reverse
  junk := fun _ => List.replicate (nz * 2 * 1) 7
  junk32 := List.replicate (nz * 2) 7

def run (alg : SolveAlgorithm) : GpuCfg Nat Unit ℚ Nat where
  cpu :=
    { templates := [("A".toList, tm alg)]
      order := ["A".toList]
      argsort := stableArgsort Ext.le
      minfit := Units.cfg.minfit
      nz := 3
      nminima := 2
      S := ⟨solveQ, fun M y => if y.length = 1 then nnlsFails M y else .error .runtimeError, fun _ _ => solveQ⟩
      prior := fun _ zs => zs.map (fun _ => .fin 0)
      le := fun a b => decide (a ≤ b) }
  binGpu := fun _ _ zs => .ok (Array3.ofFlat (zs.flatMap (fun z => [1, z])) zs.length 2 1)
  cpSolve := solveGpu
  dev := fun _ _ _ zs => device zs.length

def targets : List (Nat × (List (Spec Unit ℚ) × Nat)) := [(5, [⟨(), [1, 2], [1, 1], ident⟩], 50), (7, [⟨(), [2, 2], [1, 1], ident⟩], 70)]

/-- target 5 on a rank with GPU, target 7 on another, and a rank without GPU -/
def ranks : List (Bool × List (Nat × (List (Spec Unit ℚ) × Nat))) := [(true, [(5, [⟨(), [1, 2], [1, 1], ident⟩], 50)]), (false, []), (true, [(7, [⟨(), [2, 2], [1, 1], ident⟩], 70)])]

theorem ranks_ok : GpuRanks targets ranks := ⟨List.Perm.refl _, by
  intro r hr h
  simp only [ranks, List.mem_cons, List.not_mem_nil, or_false] at hr
  rcases hr with rfl | rfl | rfl
  · cases h
  · rfl
  · cases h⟩

def alike (zs : List ℚ) : List (List (List ℚ)) := zs.map (fun z => [[1], [z]])

theorem buf_get (zs : List ℚ) (i : Nat) (hi : i < zs.length) : (zs.flatMap (fun z => [1, z])).getD (i * 2) 0 = 1 ∧ (zs.flatMap (fun z => [1, z])).getD (i * 2 + 1) 0 = zs.getD i 0 := by
  induction zs generalizing i with
  | nil => simp at hi
  | cons z zs ih =>
    cases i with
    | zero => exact ⟨rfl, rfl⟩
    | succ i =>
      have := ih i (by simpa using hi)
      rw [show (i + 1) * 2 = i * 2 + 1 + 1 by ring]
      exact this

theorem binning (alg : SolveAlgorithm) (zs : List ℚ) : SameBinning (tm alg) ((run alg).binGpu "A".toList) 2 () zs := by
  have hlen : (zs.flatMap (fun z => [(1 : ℚ), z])).length = zs.length * 2 * 1 := by
    induction zs with
    | nil => rfl
    | cons z zs ih => simp only [List.flatMap_cons, List.length_append, ih, List.length_cons]; simp; ring
  show ∃ A, _ = _ ∧ _
  refine ⟨_, rfl, ⟨rfl, rfl, rfl, hlen⟩, ?_, rfl, rfl, rfl⟩
  show (List.range zs.length).map _ = zs.map _
  apply List.ext_getElem
  · simp
  · intro i h1 h2
    have hi : i < zs.length := by simpa using h2
    obtain ⟨a, b⟩ := buf_get zs i hi
    have h3 : zs.getD i 0 = zs[i] := by simp [hi]
    rw [h3] at b
    simp only [List.getElem_map, List.getElem_range]
    show [[(zs.flatMap _).getD (i * (2 * 1) + 0 * 1 + 0 * 1) 0], [(zs.flatMap _).getD (i * (2 * 1) + 1 * 1 + 0 * 1) 0]] = _
    rw [show i * (2 * 1) + 0 * 1 + 0 * 1 = i * 2 by ring, show i * (2 * 1) + 1 * 1 + 0 * 1 = i * 2 + 1 by ring, a, b]

theorem fair : FairSchedule (fun n => (threads n blockSize).reverse) := fun _ => List.reverse_perm _

theorem setup (alg : SolveAlgorithm) (halg : alg = .pca ∨ alg = .nmf) : GpuSetup (run alg) (fun _ => 2) targets where
  cpu := by
    refine ⟨by simp [run], List.Perm.refl _, ?_⟩
    intro t ht
    simp only [run, List.mem_cons, List.not_mem_nil, or_false] at ht
    subst ht
    refine ⟨fun _ z => [[1], [z]], fun _ _ _ _ _ => rfl, by simp [tm], ?_⟩
    intro A y e h
    rcases halg with rfl | rfl
    · simp only [tm, solveMatrices, run, solveQ] at h
      split at h
      · exact Or.inl (Except.error.inj h).symm
      · cases h
    · simp only [tm, solveMatrices] at h
      split at h
      · cases h
      · exact Or.inl (Except.error.inj h).symm
  solvers := by
    have h1 : ∀ M y c, solveQ M y = .ok c → c.length = y.length := by
      intro M y c h
      unfold solveQ at h
      split at h
      · cases h
      · rename_i hx
        push Not at hx
        rw [← Except.ok.inj h, hx.2]; rfl
    refine ⟨?_, ?_, ?_, fun _ _ => h1, ?_⟩
    · intro M y c h
      simp only [run, solveQ] at h
      split at h
      · cases h
      · rename_i hx
        push Not at hx
        simp only [run, solveGpu, if_pos hx.2]
        exact Except.ok.inj h
    · intro M y
      simp only [run, solveGpu]
      split
      · rename_i hx; rw [hx]; rfl
      · rfl
    · intro M y c h
      simp only [run, nnlsFails] at h
      split at h
      · rename_i hx
        split at h
        · cases h
        · rw [← Except.ok.inj h, hx]; rfl
      · cases h
    · intro lo hi M y h
      simp only [run, solveQ] at h
      split at h <;> cases h
  spectra := by
    have hid : ident.Valid := ⟨rfl, by decide, rfl, by decide⟩
    intro e he s hs
    simp only [targets, List.mem_cons, List.not_mem_nil, or_false] at he
    rcases he with rfl | rfl <;> (simp only [List.mem_singleton] at hs; subst hs; exact ⟨hid, rfl, rfl, rfl, rfl⟩)
  scanBin := by
    intro t ht h _
    simp only [run, List.mem_cons, List.not_mem_nil, or_false] at ht
    subst ht
    exact binning alg _
  bin := by
    intro e _ t ht zs _ s _
    simp only [run, List.mem_cons, List.not_mem_nil, or_false] at ht
    subst ht
    exact binning alg _
  device := by
    intro e he t ht fine zs
    simp only [run, List.mem_cons, List.not_mem_nil, or_false] at ht
    subst ht
    simp only [targets, List.mem_cons, List.not_mem_nil, or_false] at he
    rcases he with rfl | rfl
    · refine ⟨fun _ => fair, fair, fair, ?_, by simp [run, device, nrowsOf, ident]⟩
      intro k s hk
      have := List.mem_of_getElem? hk
      simp only [List.mem_singleton] at this
      subst this
      simp [run, device, ident, tm]
    · refine ⟨fun _ => fair, fair, fair, ?_, by simp [run, device, nrowsOf, ident]⟩
      intro k s hk
      have := List.mem_of_getElem? hk
      simp only [List.mem_singleton] at this
      subst this
      simp [run, device, ident, tm]

/-- with the PCA solver no fit fails: the matrix at redshift `z` is `1 + z^2` -/
theorem good : GoodGpuRun (run .pca) (fun _ => 2) targets where
  toGpuSetup := setup .pca (Or.inl rfl)
  noFailure := by
    intro e he t ht zs _ b r hb hr
    right
    simp only [run, List.mem_cons, List.not_mem_nil, or_false] at ht
    subst ht
    have hb' : b = [((), zs.map (fun z => [[1], [z]]))] := by
      have : hashesOf (e.2.1.map Spec.toFit) = [()] := by
        simp only [targets, List.mem_cons, List.not_mem_nil, or_false] at he
        rcases he with rfl | rfl <;> rfl
      rw [this] at hb
      exact (Except.ok.inj hb).symm
    subst hb'
    intro hm
    simp only [targets, List.mem_cons, List.not_mem_nil, or_false] at he
    have key : ∀ (u v : ℚ) (R : List (List ℚ)), R = [[1, 0], [0, 1]] → u * u + v * v ≠ 9999999 → calcZchi2Batch (solveMatrices (run .pca).cpu.S (tm .pca).algorithm none) [⟨(), [u, v], [1, 1], R⟩]
        ([((), zs.map (fun z => [[1], [z]]))] : PyDict Unit (List (List (List ℚ)))) [1, 1] [u, v] [1 * u, 1 * v] zs.length (tm .pca).nbasis none = .ok r → False := by
      intro u v R hR huv h
      subst hR
      unfold calcZchi2Batch at h
      rw [if_neg (by norm_num)] at h
      obtain ⟨i, hi, hfit⟩ := mapM_ok_mem _ _ _ h _ hm
      have hi' : i < zs.length := by simpa using hi
      have hTb : dotProductSparseOne [⟨(), [u, v], [1, 1], [[1, 0], [0, 1]]⟩] ([((), zs.map (fun z => [[1], [z]]))] : PyDict Unit (List (List (List ℚ)))) 1 i = .ok [[1], [zs[i]]] := by
        unfold dotProductSparseOne
        simp [PyDict.get?, npGet, hi', matMul, dotv, col, bind, Except.bind, pure, Except.pure]
      rw [show (tm .pca).nbasis = 1 from rfl, hTb] at hfit
      simp only [okBind] at hfit
      unfold fitOne at hfit
      simp only [tm, solveMatrices, run, solveQ, normalM, normalY, addPrior, col, dotv] at hfit
      have hne : (1 : ℚ) + zs[i] * zs[i] ≠ 0 := by nlinarith [mul_self_nonneg zs[i]]
      rw [if_neg (by simpa using hne)] at hfit
      have h2 := Except.ok.inj hfit
      have hc := (Prod.mk.inj h2).2
      have hx := (Prod.mk.inj h2).1
      simp only [List.replicate_one, List.cons.injEq, and_true] at hc
      rw [hc] at hx
      apply huv
      simpa [matVec, dotv, pow_two] using hx
    rcases he with rfl | rfl
    · exact key 1 2 _ (by decide +kernel) (by norm_num) hr
    · exact key 2 2 _ (by decide +kernel) (by norm_num) hr

/-- what is compared -/
def short (x : Py (List (Nat × Row ℚ Nat))) : Py (List (Nat × ℚ × ℚ)) := x.map (List.map (fun r => (r.1, r.2.z, r.2.chi2)))

theorem cpu_run : short (fullCatalogue (run .pca).cpu (toCpuTargets targets) [7, 5] .serial) = .ok [(7, 1, 0), (5, 2, 0)] := by decide +kernel

/-- the hypotheses of `C124_gpu_run_partial` are met and the run returns a table -/
example : ∃ rows, fullCatalogueGpu (run .pca) targets [7, 5] ranks = .ok rows ∧ rows.length = 2 := by
  cases hrun : fullCatalogue (run .pca).cpu (toCpuTargets targets) [7, 5] .serial with
  | error e => have := cpu_run; rw [hrun] at this; cases this
  | ok rows =>
    refine ⟨rows, (C124_gpu_run_partial (run .pca) (fun _ => 2) targets good (by decide) [7, 5] (by decide) ranks ranks_ok .serial trivial rows).2 hrun, ?_⟩
    have := cpu_run
    rw [hrun] at this
    have := congrArg List.length (Except.ok.inj this)
    simpa using this

/-- **C124** as stated is false: where `nnls` fails on the same data, the runs give different catalogues: the CPU's has a second candidate for each target, with chi2 9999999 where the fit failed; the GPU's has none,
as there the coefficients (not chi2) were set to 9999999. Everything but the fits that fail is as `C124_gpu_run_partial` needs it. -/
theorem C124_failed_fits : GpuSetup (run .nmf) (fun _ => 2) targets ∧ GpuRanks targets ranks ∧
    short (fullCatalogue (run .nmf).cpu (toCpuTargets targets) [7, 5] .serial) = .ok [(7, 1, 0), (7, 3, 9999999), (5, 1, 1 / 2), (5, 3, 9999999)] ∧
    short (fullCatalogueGpu (run .nmf) targets [7, 5] ranks) = .ok [(7, 1, 0), (5, 1, 1 / 2)] :=
  ⟨setup .nmf (Or.inr rfl), ranks_ok, by decide +kernel, by decide +kernel⟩

/-- the hypotheses of `C124_cpu_rank_fails` are met if the rank without GPU has a target -/
example (rows : List (Nat × Row ℚ Nat)) : fullCatalogueGpu (run .pca) targets [7, 5] [(true, targets.take 1), (false, targets.drop 1)] ≠ .ok rows :=
  C124_cpu_rank_fails (run .pca) (by decide) (List.Perm.refl _) ("A".toList, tm .pca) (by simp [run]) (by simp [tm]) targets [7, 5] _ (targets.drop 1) (by simp) (by simp [targets]) rows

end Ex
end Redrock.Gpu
