import Verif.Model.Wave
import Verif.Props.FullRun
import Verif.Props.DistTargets
import Verif.Props.RrDesi

/-! Property C120: every spectrum is compared with the templates binned on its own wavelengths. -/
set_option linter.unusedSectionVars false
namespace Redrock
namespace Wave
open FullRun Catalogue Run

variable {ι κ K σ M : Type} [DecidableEq ι] [DecidableEq κ] [Field K] [LinearOrder K] [IsStrictOrderedRing K]

/-! ### the specification -/

/-- the spectrum, to be compared with templates on its own wavelengths -/
def own (s : WSpectrum κ K) : FitSpectrum (List K) K := ⟨s.wave, s.flux, s.ivar, s.R⟩

/-- the targets with their spectra on their own wavelengths -/
def ownTarget (t : ι × (List (WSpectrum κ K) × M)) : ι × (List (FitSpectrum (List K) K) × M) := (t.1, t.2.1.map own, t.2.2)

/-- spectra of the run with the same wavehash have the same wavelengths -/
def SameGrids (targets : List (ι × (List (WSpectrum κ K) × M))) : Prop :=
  ∀ t ∈ targets, ∀ t' ∈ targets, ∀ s ∈ t.2.1, ∀ s' ∈ t'.2.1, s.wavehash = s'.wavehash → s.wave = s'.wave

/-- the same way of running -/
def ownWay : RunWay ι (List (WSpectrum κ K) × M) K → RunWay ι (List (FitSpectrum (List K) K) × M) K
  | .serial => .serial
  | .mpi locs log => .mpi (locs.map (List.map ownTarget)) log

/-- the way of running is possible: with MPI, every target is on exactly one rank, and the ranks' redshift slices come from a complete run of the ring -/
def CanRun (c : FullCfg ι (List K) K σ) (targets : List (ι × (List (WSpectrum κ K) × M))) : RunWay ι (List (WSpectrum κ K) × M) K → Prop
  | .serial => True
  | .mpi locs log => locs.flatten.Perm targets ∧ ∀ t ∈ c.templates, RingRun t.2.redshifts locs.length (log ⟨t.1, t.2.redshifts⟩)

/-! ### the dictionaries of grids -/

theorem mem_keys {κ ν : Type} [DecidableEq κ] (d : PyDict κ ν) (h : κ) : h ∈ d.keys ↔ (d.get? h).isSome := by
  unfold PyDict.keys
  induction d with
  | nil => simp [PyDict.get?_nil]
  | cons a d ih =>
    rw [List.map_cons, List.mem_cons, ih, PyDict.get?_cons]
    by_cases hk : a.1 = h
    · simp [hk]
    · simp only [hk, if_false]
      constructor
      · rintro (h' | h')
        · exact absurd h'.symm hk
        · exact h'
      · exact Or.inr

/-- every grid in the dictionary is one of `pairs`, and every hash of `pairs` is in it -/
structure GridsOf (d : PyDict κ (List K)) (pairs : List (κ × List K)) : Prop where
  keys : ∀ h, (d.get? h).isSome ↔ ∃ w, (h, w) ∈ pairs
  vals : ∀ h w, d.get? h = some w → (h, w) ∈ pairs

theorem gridsOf_mpi (locs : List (List (ι × (List (WSpectrum κ K) × M)))) : GridsOf (wavegridsMpi (locs.map wavePairs)) (wavePairs locs.flatten) := by
  obtain ⟨h1, h2, h3⟩ := C56_wavegrids (locs.map (wavePairs (ι := ι) (κ := κ) (K := K) (M := M)))
  have hm : ∀ x, x ∈ wavePairs locs.flatten ↔ ∃ sp ∈ locs.map wavePairs, x ∈ sp := by
    intro x
    unfold wavePairs
    simp only [List.mem_flatMap, List.mem_flatten, List.mem_map, exists_exists_and_eq_and]
    constructor
    · rintro ⟨t, ⟨l, hl, ht⟩, s, hs⟩
      exact ⟨l, hl, t, ht, s, hs⟩
    · rintro ⟨l, hl, t, ht, s, hs⟩
      exact ⟨t, ⟨l, hl, ht⟩, s, hs⟩
  constructor
  · intro h
    rw [h1]
    constructor
    · rintro ⟨sp, hsp, w, hw⟩
      exact ⟨w, (hm _).2 ⟨sp, hsp, hw⟩⟩
    · rintro ⟨w, hw⟩
      obtain ⟨sp, hsp, hw⟩ := (hm _).1 hw
      exact ⟨sp, hsp, w, hw⟩
  · intro h w hw
    exact (hm _).2 (h2 h w hw)

theorem gridsOf_serial (targets : List (ι × (List (WSpectrum κ K) × M))) : GridsOf (wavegridsSerial (wavePairs targets)) (wavePairs targets) := by
  have h := gridsOf_mpi [targets]
  obtain ⟨_, _, h3⟩ := C56_wavegrids ([targets].map (wavePairs (ι := ι) (κ := κ) (K := K) (M := M)))
  have e1 : ([targets].map (wavePairs (ι := ι) (κ := κ) (K := K) (M := M))).flatten = wavePairs targets := by simp
  have e2 : [targets].flatten = targets := by simp
  rw [e1] at h3
  rw [e2] at h
  exact ⟨fun k => by rw [← h3]; exact h.keys k, fun k w hw => h.vals k w (by rw [h3]; exact hw)⟩

theorem mem_wavePairs (targets : List (ι × (List (WSpectrum κ K) × M))) (h : κ) (w : List K) : (h, w) ∈ wavePairs targets ↔ ∃ t ∈ targets, ∃ s ∈ t.2.1, s.wavehash = h ∧ s.wave = w := by
  unfold wavePairs
  simp only [List.mem_flatMap, List.mem_map, Prod.mk.injEq]

theorem get_own (targets : List (ι × (List (WSpectrum κ K) × M))) (hsame : SameGrids targets) (d : PyDict κ (List K)) (hd : GridsOf d (wavePairs targets)) (t : ι × (List (WSpectrum κ K) × M)) (ht : t ∈ targets)
    (s : WSpectrum κ K) (hs : s ∈ t.2.1) : d.get? s.wavehash = some s.wave := by
  have h1 : (d.get? s.wavehash).isSome := (hd.keys _).2 ⟨s.wave, (mem_wavePairs _ _ _).2 ⟨t, ht, s, hs, rfl, rfl⟩⟩
  obtain ⟨w, hw⟩ := Option.isSome_iff_exists.1 h1
  obtain ⟨t', ht', s', hs', e1, e2⟩ := (mem_wavePairs _ _ _).1 (hd.vals _ _ hw)
  rw [hw, ← e2, hsame t' ht' t ht s' hs' s hs e1]

theorem get_fitz (spectra : List (WSpectrum κ K)) (hsame : ∀ s ∈ spectra, ∀ s' ∈ spectra, s.wavehash = s'.wavehash → s.wave = s'.wave) (s : WSpectrum κ K) (hs : s ∈ spectra) :
    (fitzGrids spectra).get? s.wavehash = some s.wave := by
  have key : ∀ (l : List (WSpectrum κ K)) (d : PyDict κ (List K)), (∀ s' ∈ l, s'.wavehash = s.wavehash → s'.wave = s.wave) → (s ∈ l ∨ d.get? s.wavehash = some s.wave) →
      (l.foldl (fun d s => d.set s.wavehash s.wave) d).get? s.wavehash = some s.wave := by
    intro l
    induction l with
    | nil => intro d _ h; simpa using h
    | cons a l ih =>
      intro d hl h
      rw [List.foldl_cons]
      apply ih _ (fun s' hs' => hl s' (List.mem_cons_of_mem _ hs'))
      by_cases ha : a.wavehash = s.wavehash
      · right
        rw [PyDict.get?_set, if_pos ha, hl a (by simp) ha]
      · rcases h with h | h
        · rcases List.mem_cons.1 h with rfl | h
          · exact absurd rfl ha
          · exact Or.inl h
        · right
          rw [PyDict.get?_set, if_neg ha]
          exact h
  exact key spectra [] (fun s' hs' h => hsame s' hs' s hs h) (Or.inl hs)

/-! ### the computations on the right grids -/

theorem mapM_firstSeen_error {α β : Type} [DecidableEq α] (f : α → Py β) (l : List α) (e : PyErr) : (firstSeen l).mapM f = .error e ↔ l.mapM f = .error e := by
  have key : ∀ (l acc : List α), (l.foldl (fun acc k => if k ∈ acc then acc else acc ++ [k]) acc).mapM f = .error e ↔ (acc ++ l).mapM f = .error e := by
    intro l
    induction l with
    | nil => intro acc; simp
    | cons k l ih =>
      intro acc
      rw [List.foldl_cons]
      by_cases hk : k ∈ acc
      · rw [if_pos hk, ih, List.mapM_append, List.mapM_append]
        cases ha : acc.mapM f with
        | error e' => simp [bind, Except.bind]
        | ok xs =>
          obtain ⟨y, _, hy⟩ := forall₂_left_mem (mapM_inv _ _ _ ha) k hk
          rw [List.mapM_cons, hy]
          cases l.mapM f <;> simp [bind, Except.bind, pure, Except.pure]
      · rw [if_neg hk, ih]
        simp
  have := key l []
  simpa [firstSeen] using this

theorem bind_pure_error {α α' β β' : Type} {A : Py α} {B : Py α'} {e : PyErr} (g : α → β) (g' : α' → β') (h : A = .error e ↔ B = .error e) :
    (A >>= fun x => pure (g x) : Py β) = .error e ↔ (B >>= fun x => pure (g' x) : Py β') = .error e := by
  have : ∀ {α β : Type} (A : Py α) (g : α → β), (A >>= fun x => pure (g x) : Py β) = .error e ↔ A = .error e := by
    intro α β A g
    cases A <;> simp [bind, Except.bind, pure, Except.pure]
  rw [this, this, h]

theorem binAll_cases (d : PyDict κ (List K)) (tm : Tmpl (List K) K σ) (spectra : List (WSpectrum κ K)) (hd : ∀ s ∈ spectra, d.get? s.wavehash = some s.wave) (zs : List K) :
    (∃ e, binAll (onGrids d tm) (hashesOf (spectra.map (·.toFitSpectrum))) zs = .error e ∧ binAll tm (hashesOf (spectra.map own)) zs = .error e) ∨
    (∃ b b', binAll (onGrids d tm) (hashesOf (spectra.map (·.toFitSpectrum))) zs = .ok b ∧ binAll tm (hashesOf (spectra.map own)) zs = .ok b' ∧ ∀ s ∈ spectra, b.get? s.wavehash = b'.get? s.wave) := by
  have hbin : ∀ s ∈ spectra, (onGrids d tm).bin s.wavehash zs = tm.bin s.wave zs := by
    intro s hs
    unfold onGrids PyDict.get
    simp only [hd s hs]
    rfl
  have herr : ∀ e, binAll (onGrids d tm) (hashesOf (spectra.map (·.toFitSpectrum))) zs = .error e ↔ binAll tm (hashesOf (spectra.map own)) zs = .error e := by
    intro e
    unfold binAll hashesOf
    rw [mapM_firstSeen_error, mapM_firstSeen_error, List.map_map, List.map_map, mapM_map', mapM_map']
    have : ∀ (l : List (WSpectrum κ K)), (∀ s ∈ l, s ∈ spectra) →
        (l.mapM (fun s => (do let t ← (onGrids d tm).bin s.wavehash zs; return (s.wavehash, t) : Py _)) = .error e ↔ l.mapM (fun s => (do let t ← tm.bin s.wave zs; return (s.wave, t) : Py _)) = .error e) := by
      intro l
      induction l with
      | nil => intro _; simp [pure, Except.pure]
      | cons a l ih =>
        intro hl
        have ih := ih (fun s hs => hl s (List.mem_cons_of_mem _ hs))
        rw [List.mapM_cons, List.mapM_cons, hbin a (hl a (by simp))]
        cases tm.bin a.wave zs with
        | error e' => simp [bind, Except.bind]
        | ok t =>
          exact bind_pure_error _ _ ih
    exact this spectra (fun s hs => hs)
  cases h1 : binAll (onGrids d tm) (hashesOf (spectra.map (·.toFitSpectrum))) zs with
  | error e => exact Or.inl ⟨e, rfl, (herr e).1 h1⟩
  | ok b =>
    cases h2 : binAll tm (hashesOf (spectra.map own)) zs with
    | error e => rw [(herr e).2 h2] at h1; cases h1
    | ok b' =>
      refine Or.inr ⟨b, b', rfl, rfl, ?_⟩
      intro s hs
      obtain ⟨t, g1, g2⟩ := binAll_get (onGrids d tm) _ zs b h1 s.wavehash ((mem_hashesOf _ _).2 ⟨s.toFitSpectrum, List.mem_map.2 ⟨s, hs, rfl⟩, rfl⟩)
      obtain ⟨t', g1', g2'⟩ := binAll_get tm _ zs b' h2 s.wave ((mem_hashesOf _ _).2 ⟨own s, List.mem_map.2 ⟨s, hs, rfl⟩, rfl⟩)
      rw [hbin s hs, g1'] at g1
      rw [g2, g2', Except.ok.inj g1]

theorem spectralData_own (spectra : List (WSpectrum κ K)) : spectralData (spectra.map (·.toFitSpectrum)) = spectralData (spectra.map own) := by
  unfold spectralData
  simp only [List.flatMap_map]
  rfl

theorem dot_own (spectra : List (WSpectrum κ K)) (b : PyDict κ (List (List (List K)))) (b' : PyDict (List K) (List (List (List K)))) (hb : ∀ s ∈ spectra, b.get? s.wavehash = b'.get? s.wave) (n i : Nat) :
    dotProductSparseOne (spectra.map (·.toFitSpectrum)) b n i = dotProductSparseOne (spectra.map own) b' n i := by
  unfold dotProductSparseOne
  rw [mapM_map', mapM_map']
  congr 1
  apply mapM_congr'
  intro s hs
  show (match b.get? s.wavehash with | none => _ | some t => _) = (match b'.get? s.wave with | none => _ | some t => _)
  rw [hb s hs]
  rfl

theorem batch_own (solve : List (List K) → List K → Py (List K)) (spectra : List (WSpectrum κ K)) (b : PyDict κ (List (List (List K)))) (b' : PyDict (List K) (List (List (List K))))
    (hb : ∀ s ∈ spectra, b.get? s.wavehash = b'.get? s.wave) (w f wf : List K) (nz n : Nat) :
    calcZchi2Batch solve (spectra.map (·.toFitSpectrum)) b w f wf nz n none = calcZchi2Batch solve (spectra.map own) b' w f wf nz n none := by
  unfold calcZchi2Batch
  simp only [dot_own spectra b b' hb]

theorem fineScan_own (S : Solvers K) (d : PyDict κ (List K)) (tm : Tmpl (List K) K σ) (spectra : List (WSpectrum κ K)) (hd : ∀ s ∈ spectra, d.get? s.wavehash = some s.wave) (zz : List K) :
    fineScan S (onGrids d tm) (spectra.map (·.toFitSpectrum)) zz = fineScan S tm (spectra.map own) zz := by
  unfold fineScan
  rw [spectralData_own]
  rcases binAll_cases d tm spectra hd zz with ⟨e, h1, h2⟩ | ⟨b, b', h1, h2, h3⟩
  · rw [h1, h2]; rfl
  · rw [h1, h2]
    simp only [okBind]
    rw [batch_own _ spectra b b' h3]
    rfl

theorem fitAtZ_own (S : Solvers K) (d : PyDict κ (List K)) (tm : Tmpl (List K) K σ) (spectra : List (WSpectrum κ K)) (hd : ∀ s ∈ spectra, d.get? s.wavehash = some s.wave) (z : K) :
    fitAtZ S (onGrids d tm) (spectra.map (·.toFitSpectrum)) z = fitAtZ S tm (spectra.map own) z := by
  unfold fitAtZ
  rw [spectralData_own]
  rcases binAll_cases d tm spectra hd [z] with ⟨e, h1, h2⟩ | ⟨b, b', h1, h2, h3⟩
  · rw [h1, h2]; rfl
  · rw [h1, h2]
    simp only [okBind]
    rw [batch_own _ spectra b b' h3]
    rfl

theorem fitEnv_own (minfit : List K → List K → Py (K × K × K × Nat)) (nz : Nat) (S : Solvers K) (d : PyDict κ (List K)) (tm : Tmpl (List K) K σ) (spectra : List (WSpectrum κ K))
    (hd : ∀ s ∈ spectra, d.get? s.wavehash = some s.wave) : fitEnvOf minfit nz S (onGrids d tm) (spectra.map (·.toFitSpectrum)) = fitEnvOf minfit nz S tm (spectra.map own) := by
  unfold fitEnvOf
  have h1 : fineScan S (onGrids d tm) (spectra.map (·.toFitSpectrum)) = fineScan S tm (spectra.map own) := funext (fineScan_own S d tm spectra hd)
  have h2 : fitAtZ S (onGrids d tm) (spectra.map (·.toFitSpectrum)) = fitAtZ S tm (spectra.map own) := funext (fitAtZ_own S d tm spectra hd)
  rw [h1, h2]
  rfl

theorem npixels_own (spectra : List (WSpectrum κ K)) : npixelsOf (spectra.map (·.toFitSpectrum)) = npixelsOf (spectra.map own) := by
  unfold npixelsOf
  rw [List.map_map, List.map_map]
  rfl

theorem entryAt_own (S : Solvers K) (d : PyDict κ (List K)) (tm : Tmpl (List K) K σ) (g : List K → K → List (List K)) (spectra : List (WSpectrum κ K)) (hd : ∀ s ∈ spectra, d.get? s.wavehash = some s.wave) (z : K) :
    entryAt S (onGrids d tm) (fun h => g ((d.get? h).getD [])) (spectra.map (·.toFitSpectrum)) z = entryAt S tm g (spectra.map own) z := by
  have h1 : (spectra.map (·.toFitSpectrum)).flatMap (·.ivar) = (spectra.map own).flatMap (·.ivar) := by rw [List.flatMap_map, List.flatMap_map]; rfl
  have h2 : (spectra.map (·.toFitSpectrum)).flatMap (fun s => matMul s.R (g ((d.get? s.wavehash).getD []) z) tm.nbasis) = (spectra.map own).flatMap (fun s => matMul s.R (g s.wavehash z) tm.nbasis) := by
    rw [List.flatMap_map, List.flatMap_map, List.flatMap_def, List.flatMap_def]
    congr 1
    apply List.map_congr_left
    intro s hs
    rw [hd s hs]
    rfl
  unfold entryAt
  rw [h1, spectralData_own]
  have h3 : (onGrids d tm).nbasis = tm.nbasis := rfl
  have h4 : (onGrids d tm).algorithm = tm.algorithm := rfl
  simp only [h3, h4, h2]

theorem rowAt_own (S : Solvers K) (d : PyDict κ (List K)) (tm : Tmpl (List K) K σ) (g : List K → K → List (List K)) (spectra : List (WSpectrum κ K)) (hd : ∀ s ∈ spectra, d.get? s.wavehash = some s.wave) (z : K) :
    rowAt S (onGrids d tm) (fun h => g ((d.get? h).getD [])) (spectra.map (·.toFitSpectrum)) z = rowAt S tm g (spectra.map own) z := by
  have h1 : (spectra.map (·.toFitSpectrum)).flatMap (·.ivar) = (spectra.map own).flatMap (·.ivar) := by rw [List.flatMap_map, List.flatMap_map]; rfl
  unfold rowAt penaltyAt
  rw [entryAt_own S d tm g spectra hd, h1]
  rfl

theorem scanSlice_own (S : Solvers K) (tm : Tmpl (List K) K σ) (targets : List (ι × (List (WSpectrum κ K) × M))) (hsame : SameGrids targets) (d : PyDict κ (List K)) (hd : GridsOf d (wavePairs targets))
    (g : List K → K → List (List K)) (hg : Scannable S tm (gridsOf (targets.map ownTarget)) g) (t : ι × (List (WSpectrum κ K) × M)) (ht : t ∈ targets) (zs : List K) (hne : zs ≠ []) (hz : ∀ z ∈ zs, z ∈ tm.redshifts) :
    scanSlice S (onGrids d tm) d.keys (t.2.1.map (·.toFitSpectrum)) zs = scanSlice S tm (gridsOf (targets.map ownTarget)) (t.2.1.map own) zs := by
  have hget := get_own targets hsame d hd
  have hmem : ∀ t ∈ targets, ∀ s ∈ t.2.1, s.wave ∈ gridsOf (targets.map ownTarget) := by
    intro t ht s hs
    exact mem_gridsOf (targets.map ownTarget) (ownTarget t) (List.mem_map.2 ⟨t, ht, rfl⟩) (own s) (List.mem_map.2 ⟨s, hs, rfl⟩)
  have hsc : Scannable S (onGrids d tm) d.keys (fun h => g ((d.get? h).getD [])) := by
    refine ⟨?_, hg.redshifts, hg.solver⟩
    intro h hh zs hne hz
    obtain ⟨w, hw⟩ := Option.isSome_iff_exists.1 ((mem_keys d h).1 hh)
    obtain ⟨t', ht', s', hs', e1, e2⟩ := (mem_wavePairs _ _ _).1 (hd.vals _ _ hw)
    have := hg.bin w (by rw [← e2]; exact hmem t' ht' s' hs') zs hne hz
    show (d.get h >>= fun w => tm.bin w zs) = _
    unfold PyDict.get
    simp only [hw, Option.getD_some]
    exact this
  rw [scanSlice_eq S (onGrids d tm) d.keys _ hsc _ (by
      intro s hs
      obtain ⟨s', hs', rfl⟩ := List.mem_map.1 hs
      rw [mem_keys, hget t ht s' hs']; rfl) zs hne hz,
    scanSlice_eq S tm _ g hg _ (by
      intro s hs
      obtain ⟨s', hs', rfl⟩ := List.mem_map.1 hs
      exact hmem t ht s' hs') zs hne hz]
  congr 1
  apply List.map_congr_left
  intro z _
  exact rowAt_own S d tm g t.2.1 (hget t ht) z

/-! ### the run -/

section
variable {T T' Z R F : Type}

theorem calcZchi2Slice_map (φ : T → T') (fs : T' → List Z → Py (List R)) (ids : List ι) (data : List T) (zs : List Z) :
    calcZchi2Slice fs ids (data.map φ) zs = calcZchi2Slice (fun t => fs (φ t)) ids data zs := by
  unfold calcZchi2Slice
  apply mapM_congr'
  intro j _
  rw [List.getElem?_map]
  cases data[j]? <;> rfl

theorem calcZchi2Slice_congr (fs fs' : T → List Z → Py (List R)) (ids : List ι) (data : List T) (zs : List Z) (h : ∀ t ∈ data, fs t zs = fs' t zs) : calcZchi2Slice fs ids data zs = calcZchi2Slice fs' ids data zs := by
  unfold calcZchi2Slice
  apply mapM_congr'
  intro j _
  cases hx : data[j]? with
  | none => rfl
  | some tg => exact h tg (List.mem_of_getElem? hx)

theorem rankFinish_map (φ : T → T') (prior : ι → List Z → List R → List R) (fz : T → RunTemplate Z → List R → Py F) (fz' : T' → RunTemplate Z → List R → Py F) (md : T → M) (md' : T' → M) (sorted : List (RunTemplate Z))
    (loc : List (ι × T)) (res : PyDict ι (RunResult Z R F M)) (hf : ∀ t ∈ loc, ∀ s ∈ sorted, ∀ rows, fz t.2 s rows = fz' (φ t.2) s rows) (hm : ∀ t ∈ loc, md t.2 = md' (φ t.2)) :
    rankFinish prior fz md sorted loc res = rankFinish prior fz' md' sorted (loc.map (fun t => (t.1, φ t.2))) res := by
  unfold rankFinish fitLocal
  have e : (sorted.flatMap (fun t => (loc.map (fun t => (t.1, φ t.2))).map (fun tg => (t, tg)))) = (sorted.flatMap (fun t => loc.map (fun tg => (t, tg)))).map (fun x => (x.1, (x.2.1, φ x.2.2))) := by
    rw [List.map_flatMap]
    simp only [List.map_map]
    rfl
  rw [e, List.foldlM_map]
  simp only [List.foldlM_map]
  rw [foldlM_congr (fitStep fz) (fun b x => fitStep fz' b (x.1, (x.2.1, φ x.2.2)))]
  · congr 1
    funext r
    apply foldlM_congr
    intro b t ht
    unfold metaStepRun
    simp only [hm t ht]
  · rintro b ⟨s, t⟩ hx
    obtain ⟨s', hs', hx⟩ := List.mem_flatMap.1 hx
    obtain ⟨t', ht', hx⟩ := List.mem_map.1 hx
    cases hx
    unfold fitStep
    simp only [hf t ht' s hs']

end

theorem waveRank_own (c : FullCfg ι (List K) K σ) (targets : List (ι × (List (WSpectrum κ K) × M))) (hsame : SameGrids targets) (d : PyDict κ (List K)) (hd : GridsOf d (wavePairs targets))
    (hc : GoodRun c (gridsOf (targets.map ownTarget))) (loc : List (ι × (List (WSpectrum κ K) × M))) (hl : ∀ t ∈ loc, t ∈ targets) (pieces : RunTemplate K → List (Piece K))
    (hp : ∀ t ∈ c.templates, GoodPieces t.2 (pieces ⟨t.1, t.2.redshifts⟩)) :
    waveRank c d loc pieces = fullRank c (gridsOf (targets.map ownTarget)) (loc.map ownTarget) pieces := by
  unfold waveRank fullRank
  have e1 : (loc.map ownTarget).map (·.1) = loc.map (·.1) := by rw [List.map_map]; rfl
  have e2 : (loc.map ownTarget).map (·.2) = (loc.map (·.2)).map (fun t : List (WSpectrum κ K) × M => (t.1.map own, t.2)) := by rw [List.map_map, List.map_map]; rfl
  rw [e1, e2]
  have hscan : ∀ t ∈ c.runTemplates, (do
      let tm ← c.templates.get t.fulltype
      scanSlices (fun tg zs => scanSlice c.S (onGrids d tm) d.keys (tg.1.map (·.toFitSpectrum)) zs) (loc.map (·.1)) (loc.map (·.2)) (pieces t) : Py (PyDict ι (List (ScanRow K)))) = (do
      let tm ← c.templates.get t.fulltype
      scanSlices (fun tg zs => scanSlice c.S tm (gridsOf (targets.map ownTarget)) tg.1 zs) (loc.map (·.1)) ((loc.map (·.2)).map (fun t : List (WSpectrum κ K) × M => (t.1.map own, t.2))) (pieces t)) := by
    intro t ht
    obtain ⟨t, ht', rfl⟩ := List.mem_map.1 ht
    replace ht := ht'
    have h1 : c.templates.get t.1 = .ok t.2 := by unfold PyDict.get; rw [get?_of_mem c.templates hc.names t ht]
    obtain ⟨g, hg⟩ := hc.scan t ht
    simp only [h1, okBind]
    unfold scanSlices
    congr 1
    apply foldlM_congr
    intro b p hpm
    obtain ⟨a1, a2⟩ := hp t ht p hpm
    rw [calcZchi2Slice_map (fun t : List (WSpectrum κ K) × M => (t.1.map own, t.2)), calcZchi2Slice_congr]
    intro tg htg
    obtain ⟨e, he, rfl⟩ := List.mem_map.1 htg
    exact scanSlice_own c.S t.2 targets hsame d hd g hg e (hl e he) p.redshifts a1 a2
  have hz : calcZchi2Targets (F := TemplateFit K σ) (M := M) c.le (fun t => (do
      let tm ← c.templates.get t.fulltype
      scanSlices (fun tg zs => scanSlice c.S (onGrids d tm) d.keys (tg.1.map (·.toFitSpectrum)) zs) (loc.map (·.1)) (loc.map (·.2)) (pieces t) : Py (PyDict ι (List (ScanRow K))))) c.runTemplates (loc.map (·.1)) =
    calcZchi2Targets c.le (fun t => (do
      let tm ← c.templates.get t.fulltype
      scanSlices (fun tg zs => scanSlice c.S tm (gridsOf (targets.map ownTarget)) tg.1 zs) (loc.map (·.1)) ((loc.map (·.2)).map (fun t : List (WSpectrum κ K) × M => (t.1.map own, t.2))) (pieces t))) c.runTemplates (loc.map (·.1)) := by
    unfold calcZchi2Targets
    apply foldlM_congr
    intro b t ht
    dsimp only
    rw [hscan t ht]
  rw [hz]
  congr 1
  funext res
  refine rankFinish_map (fun t : List (WSpectrum κ K) × M => (t.1.map own, t.2)) _ _ _ _ _ _ _ _ ?_ (fun _ _ => rfl)
  intro t ht s _ rows
  cases c.templates.get s.fulltype with
  | error e => rfl
  | ok tm =>
    simp only [okBind]
    unfold fitRows
    rw [fitEnv_own, npixels_own]
    intro s hs
    exact get_fitz t.2.1 (fun a ha b hb => hsame t (hl t ht) t (hl t ht) a ha b hb) s hs

theorem wavePairs_perm (A B : List (ι × (List (WSpectrum κ K) × M))) (h : A.Perm B) (x : κ × List K) : x ∈ wavePairs A ↔ x ∈ wavePairs B := (h.flatMap_right _).mem_iff

/-- under `SameGrids` the run is the run on the spectra's own wavelengths -/
theorem waveFits_own (c : FullCfg ι (List K) K σ) (targets : List (ι × (List (WSpectrum κ K) × M))) (hsame : SameGrids targets) (hc : GoodRun c (gridsOf (targets.map ownTarget))) (allIds : List ι)
    (way : RunWay ι (List (WSpectrum κ K) × M) K) (hway : CanRun c targets way) : waveFits c targets allIds way = fullFits c (targets.map ownTarget) allIds (ownWay way) := by
  cases way with
  | serial =>
    unfold waveFits fullFits ownWay
    simp only
    rw [waveRank_own c targets hsame _ (gridsOf_serial targets) hc targets (fun t ht => ht)]
    intro t ht p hp
    simp only [List.mem_singleton] at hp
    subst hp
    obtain ⟨g, hg⟩ := hc.scan t ht
    exact ⟨hg.redshifts, fun z hz => hz⟩
  | mpi locs log =>
    have hd : GridsOf (wavegridsMpi (locs.map wavePairs)) (wavePairs targets) := by
      have h := gridsOf_mpi locs
      refine ⟨fun k => ?_, fun k w hw => (wavePairs_perm _ _ hway.1 _).1 (h.vals k w hw)⟩
      rw [h.keys]
      simp only [wavePairs_perm _ _ hway.1]
    unfold waveFits fullFits ownWay
    simp only
    rw [show (locs.map (List.map ownTarget)).zipIdx = locs.zipIdx.map (fun lr : List (ι × (List (WSpectrum κ K) × M)) × Nat => (lr.1.map ownTarget, lr.2)) by
      rw [List.zipIdx_map]; rfl, mapM_map']
    congr 1
    apply mapM_congr'
    rintro ⟨loc, r⟩ hlr
    have hlr' := List.mem_zipIdx hlr
    simp only at hlr' ⊢
    rw [waveRank_own c targets hsame _ hd hc loc]
    · intro e he
      exact hway.1.mem_iff.1 (List.mem_flatten.2 ⟨loc, (List.mem_zipIdx' hlr).2 ▸ List.getElem_mem _, he⟩)
    · intro t ht p hp
      exact ringRun_pieces _ _ _ (hway.2 t ht) r (by omega) p hp

theorem possible_own (c : FullCfg ι (List K) K σ) (targets : List (ι × (List (WSpectrum κ K) × M))) (way : RunWay ι (List (WSpectrum κ K) × M) K) (hway : CanRun c targets way) :
    PossibleWay c (targets.map ownTarget) (ownWay way) := by
  cases way with
  | serial => trivial
  | mpi locs log =>
    refine ⟨?_, ?_⟩
    · rw [← List.map_flatten]
      exact hway.1.map _
    · rw [List.length_map]
      exact hway.2

variable [LinearOrder σ]

theorem waveCatalogue_own (c : FullCfg ι (List K) K σ) (targets : List (ι × (List (WSpectrum κ K) × M))) (hsame : SameGrids targets) (hc : GoodRun c (gridsOf (targets.map ownTarget))) (allIds : List ι)
    (way : RunWay ι (List (WSpectrum κ K) × M) K) (hway : CanRun c targets way) : waveCatalogue c targets allIds way = fullCatalogue c (targets.map ownTarget) allIds (ownWay way) := by
  unfold waveCatalogue fullCatalogue
  rw [waveFits_own c targets hsame hc allIds way hway]

/-- **C120** (part) If spectra with the same wavehash have the same wavelengths, every target's rows in the table, however the run was distributed, are the measurement of its own spectra with every template binned on each
spectrum's own wavelengths. Missing: without that condition it is false (`C120_refuted`). -/
theorem C120_own_wavelengths_partial (c : FullCfg ι (List K) K σ) (targets : List (ι × (List (WSpectrum κ K) × M))) (hsame : SameGrids targets) (hc : GoodRun c (gridsOf (targets.map ownTarget)))
    (hn : (targets.map (·.1)).Nodup) (allIds : List ι) (hids : allIds.Perm (targets.map (·.1))) (way : RunWay ι (List (WSpectrum κ K) × M) K) (hway : CanRun c targets way) (rows : List (ι × Row K σ))
    (h : waveCatalogue c targets allIds way = .ok rows) :
    ∀ e ∈ targets, ∃ T, measureTarget (measureCfg c e.1) (c.templates.map (·.2)) (e.2.1.map own) = .ok T ∧ List.Forall₂ Catalogue.SameRow T (Catalogue.rowsOf e.1 rows) := by
  rw [waveCatalogue_own c targets hsame hc allIds way hway] at h
  have e1 : (targets.map (ownTarget (ι := ι) (κ := κ) (K := K) (M := M))).map (·.1) = targets.map (·.1) := by rw [List.map_map]; rfl
  have := C117_rows c (targets.map ownTarget) hc (by rw [e1]; exact hn) allIds (by rw [e1]; exact hids) (ownWay way) (possible_own c targets way hway) rows h
  intro e he
  exact this.2 (ownTarget e) (List.mem_map.2 ⟨e, he, rfl⟩)

end Wave
end Redrock
