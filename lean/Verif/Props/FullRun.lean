import Verif.Model.FullRun
import Verif.Props.Catalogue
import Verif.Props.TemplateSet
import Verif.Props.SameData
import Verif.Props.Binned

/-!
C117: the catalogue of a whole run is made of the per-target measurements.
-/
namespace Redrock
set_option linter.unusedSectionVars false
set_option synthInstance.maxSize 2000
namespace FullRun
open Run Catalogue

section
variable {ι ω K σ M : Type} [DecidableEq ι] [DecidableEq ω] [Field K] [LinearOrder K] [IsStrictOrderedRing K]

/-! ### specification -/

/-- The settings as one target sees them: the same, with the target's own prior added to chi2 plus penalty. -/
def measureCfg (c : FullCfg ι ω K σ) (tid : ι) : MeasureCfg K :=
  ⟨c.argsort, c.minfit, c.nz, c.nminima, fun zs x => List.zipWith (fun v p => Ext.add (.fin v) p) x (c.prior tid zs), c.S⟩

/-- What the run needs of a template and the wavelength grids of its targets: the template can be binned at every redshift of its grid, the result at a redshift does not depend on the other redshifts it is
computed with (`C117_physical` shows that redrock's own binning is like that), there is at least one redshift, and the solver raises nothing but what the scan catches. -/
structure Scannable (S : Solvers K) (tm : Tmpl ω K σ) (grids : List ω) (g : ω → K → List (List K)) : Prop where
  bin : ∀ h ∈ grids, ∀ zs, zs ≠ [] → (∀ z ∈ zs, z ∈ tm.redshifts) → tm.bin h zs = .ok (zs.map (g h))
  redshifts : tm.redshifts ≠ []
  solver : ∀ A y e, solveMatrices S tm.algorithm none A y = .error e → e = .linAlgError ∨ e = .notImplemented

/-- A run that can be started: template names differ, the fits are done in some order, every template can be scanned on the grids of all targets. -/
structure GoodRun (c : FullCfg ι ω K σ) (grids : List ω) : Prop where
  names : (c.templates.map (·.1)).Nodup
  order : c.order.Perm (c.templates.map (·.1))
  scan : ∀ t ∈ c.templates, ∃ g, Scannable c.S t.2 grids g

/-- The way of running is possible: with MPI, every target is on exactly one rank, and the ranks' redshift slices come from a complete run of the ring. -/
def PossibleWay (c : FullCfg ι ω K σ) (targets : List (ι × (List (FitSpectrum ω K) × M))) : RunWay ι (List (FitSpectrum ω K) × M) K → Prop
  | .serial => True
  | .mpi locs log => locs.flatten.Perm targets ∧ ∀ t ∈ c.templates, RingRun t.2.redshifts locs.length (log ⟨t.1, t.2.redshifts⟩)

/-! ### one slice of the scan -/

/-- chi2 and coefficients at one redshift -/
def entryAt (S : Solvers K) (tm : Tmpl ω K σ) (g : ω → K → List (List K)) (spectra : List (FitSpectrum ω K)) (z : K) : K × List K :=
  if (spectra.flatMap (·.ivar)).sum = 0 then (hugeChi2, List.replicate tm.nbasis 0)
  else match fitOne (solveMatrices S tm.algorithm none) (spectra.flatMap (fun s => matMul s.R (g s.wavehash z) tm.nbasis)) (spectralData spectra).1 (spectralData spectra).2.1 (spectralData spectra).2.2 tm.nbasis none with
    | .ok q => q
    | .error _ => (0, [])

def penaltyAt (S : Solvers K) (tm : Tmpl ω K σ) (g : ω → K → List (List K)) (spectra : List (FitSpectrum ω K)) (z : K) : K :=
  if (spectra.flatMap (·.ivar)).sum = 0 then 0
  else match tm.oii with
    | none => 0
    | some (t, nw) => -oiiFlux t nw (entryAt S tm g spectra z).2 * (if oiiFlux t nw (entryAt S tm g spectra z).2 < 0 then 1 else 0)

def rowAt (S : Solvers K) (tm : Tmpl ω K σ) (g : ω → K → List (List K)) (spectra : List (FitSpectrum ω K)) (z : K) : ScanRow K :=
  ⟨.fin (entryAt S tm g spectra z).1, (entryAt S tm g spectra z).2, penaltyAt S tm g spectra z⟩

theorem binAll_ok (tm : Tmpl ω K σ) (g : ω → K → List (List K)) (grids : List ω) (zs : List K) (hb : ∀ h ∈ grids, tm.bin h zs = .ok (zs.map (g h))) :
    ∃ b, binAll tm grids zs = .ok b ∧ ∀ h ∈ grids, b.get? h = some (zs.map (g h)) := by
  have h1 : binAll tm grids zs = .ok (grids.map (fun h => (h, zs.map (g h)))) := by
    unfold binAll
    apply mapM_ok
    intro h hh
    rw [hb h hh]; rfl
  refine ⟨_, h1, fun h hh => ?_⟩
  obtain ⟨t, ht1, ht2⟩ := binAll_get tm grids zs _ h1 h hh
  rw [hb h hh] at ht1
  rw [ht2, Except.ok.inj ht1]

theorem fitOne_total (solve : List (List K) → List K → Py (List K)) (hs : ∀ A y e, solve A y = .error e → e = .linAlgError ∨ e = .notImplemented) (Tb : List (List K)) (w f wf : List K) (n : Nat) :
    ∃ q, fitOne solve Tb w f wf n none = .ok q := by
  unfold fitOne
  cases h : solve (addPrior (normalM Tb w n) none) (normalY Tb wf n) with
  | ok c => exact ⟨_, rfl⟩
  | error e =>
    rcases hs _ _ _ h with rfl | rfl
    · exact ⟨_, rfl⟩
    · exact ⟨_, rfl⟩

/-- chi2, coefficients and penalty of a target on a slice, redshift by redshift -/
theorem calcTarget_eq (S : Solvers K) (tm : Tmpl ω K σ) (g : ω → K → List (List K)) (hs : ∀ A y e, solveMatrices S tm.algorithm none A y = .error e → e = .linAlgError ∨ e = .notImplemented)
    (spectra : List (FitSpectrum ω K)) (b : PyDict ω (List (List (List K)))) (zs : List K) (hb : ∀ s ∈ spectra, b.get? s.wavehash = some (zs.map (g s.wavehash))) :
    calcZchi2Target (solveMatrices S tm.algorithm none) spectra b zs.length tm.nbasis tm.oii =
      .ok (zs.map (fun z => (entryAt S tm g spectra z).1), zs.map (fun z => (entryAt S tm g spectra z).2), zs.map (penaltyAt S tm g spectra)) := by
  unfold calcZchi2Target
  simp only
  have hw : (spectralData spectra).1 = spectra.flatMap (·.ivar) := rfl
  by_cases h0 : (spectra.flatMap (·.ivar)).sum = 0
  · rw [hw, if_pos h0]
    simp only [pure, Except.pure]
    have e1 : ∀ z, entryAt S tm g spectra z = (hugeChi2, List.replicate tm.nbasis 0) := by intro z; unfold entryAt; rw [if_pos h0]
    have e2 : penaltyAt S tm g spectra = fun _ => 0 := by funext z; unfold penaltyAt; rw [if_pos h0]
    simp only [e1, e2, List.map_const']
  · rw [hw, if_neg h0]
    have hbatch : calcZchi2Batch (solveMatrices S tm.algorithm none) spectra b (spectra.flatMap (·.ivar)) (spectralData spectra).2.1 (spectralData spectra).2.2 zs.length tm.nbasis none =
        .ok (zs.map (entryAt S tm g spectra)) := by
      unfold calcZchi2Batch
      rw [if_neg h0, mapM_ok _ (fun i => ((zs[i]?).map (entryAt S tm g spectra)).getD (0, []))]
      · congr 1
        apply List.ext_getElem
        · simp
        · intro i h1 h2
          simp at h1
          simp [h1]
      · intro i hi
        simp only [List.mem_range] at hi
        rw [dotProductSparseOne_eq (T := fun h => g h zs[i])]
        · simp only [bind, Except.bind]
          obtain ⟨q, hq⟩ := fitOne_total (solveMatrices S tm.algorithm none) hs (spectra.flatMap (fun s => matMul s.R (g s.wavehash zs[i]) tm.nbasis)) (spectralData spectra).1 (spectralData spectra).2.1
            (spectralData spectra).2.2 tm.nbasis
          rw [List.getElem?_eq_getElem hi, Option.map_some, Option.getD_some]
          unfold entryAt
          rw [if_neg h0, hq]
          exact hq
        · intro s hs'
          exact ⟨_, hb s hs', by rw [List.getElem?_map, List.getElem?_eq_getElem hi, Option.map_some]⟩
    rw [hbatch]
    simp only [bind, Except.bind, pure, Except.pure]
    cases ho : tm.oii with
    | none =>
      simp only [List.map_map]
      have e2 : penaltyAt S tm g spectra = fun _ => 0 := by funext z; unfold penaltyAt; rw [if_neg h0, ho]
      rw [e2, List.map_const']
      rfl
    | some tn =>
      obtain ⟨t, nw⟩ := tn
      have e2 : penaltyAt S tm g spectra = fun z => -oiiFlux t nw (entryAt S tm g spectra z).2 * (if oiiFlux t nw (entryAt S tm g spectra z).2 < 0 then 1 else 0) := by
        funext z; unfold penaltyAt; rw [if_neg h0, ho]
      rw [e2]
      simp only [negOIIPenalty, List.map_map]
      rfl

theorem zipWith_map_same {α β γ δ : Type} (f : β → γ → δ) (a : α → β) (b : α → γ) (l : List α) : List.zipWith f (l.map a) (l.map b) = l.map (fun x => f (a x) (b x)) := by
  induction l with
  | nil => rfl
  | cons x l ih => simp [ih]

theorem zip_map_same {α β γ : Type} (a : α → β) (b : α → γ) (l : List α) : List.zip (l.map a) (l.map b) = l.map (fun x => (a x, b x)) := by
  induction l with
  | nil => rfl
  | cons x l ih => simp [ih]

theorem scanSlice_eq (S : Solvers K) (tm : Tmpl ω K σ) (grids : List ω) (g : ω → K → List (List K)) (h : Scannable S tm grids g) (spectra : List (FitSpectrum ω K)) (hg : ∀ s ∈ spectra, s.wavehash ∈ grids)
    (zs : List K) (hne : zs ≠ []) (hz : ∀ z ∈ zs, z ∈ tm.redshifts) : scanSlice S tm grids spectra zs = .ok (zs.map (rowAt S tm g spectra)) := by
  obtain ⟨b, hb1, hb2⟩ := binAll_ok tm g grids zs (fun k hk => h.bin k hk zs hne hz)
  unfold scanSlice
  rw [hb1]
  simp only [bind, Except.bind]
  rw [calcTarget_eq S tm g h.solver spectra b zs (fun s hs => hb2 _ (hg s hs))]
  simp only [pure, Except.pure]
  rw [zip_map_same, zipWith_map_same]
  rfl

theorem scanTarget_eq (S : Solvers K) (tm : Tmpl ω K σ) (grids : List ω) (g : ω → K → List (List K)) (h : Scannable S tm grids g) (spectra : List (FitSpectrum ω K)) (hg : ∀ s ∈ spectra, s.wavehash ∈ grids) :
    scanTarget S tm spectra = .ok (tm.redshifts.map (fun z => (entryAt S tm g spectra z).1 + penaltyAt S tm g spectra z)) := by
  obtain ⟨b, hb1, hb2⟩ := binAll_ok tm g (hashesOf spectra) tm.redshifts (fun k hk => by
    obtain ⟨s, hs, rfl⟩ := (mem_hashesOf spectra k).1 hk
    exact h.bin _ (hg s hs) _ h.redshifts (fun z hz => hz))
  unfold scanTarget
  rw [hb1]
  simp only [bind, Except.bind]
  rw [calcTarget_eq S tm g h.solver spectra b tm.redshifts (fun s hs => hb2 _ ((mem_hashesOf spectra _).2 ⟨s, hs, rfl⟩))]
  simp only [pure, Except.pure]
  rw [zipWith_map_same]

/-! ### the run is the run of `Verif/Model/Run.lean` -/

/-- the same run, with the computations as functions of one redshift -/
def toRun (c : FullCfg ι ω K σ) (g : PyStr → ω → K → List (List K)) : RunCfg ι (List (FitSpectrum ω K) × M) K (ScanRow K) (TemplateFit K σ) M where
  templates := c.runTemplates
  sorted := c.runSorted
  f := fun t tg z => match c.templates.get? t.fulltype with
    | some tm => rowAt c.S tm (g t.fulltype) tg.1 z
    | none => ⟨.nan, [], 0⟩
  fitz := fun tg t rows => do
    let tm ← c.templates.get t.fulltype
    fitRows c tg.1 tm rows
  prior := fun id zs rows => addPriorRows (c.prior id zs) rows
  mdOf := (·.2)
  le := c.le

theorem get?_of_mem {κ ν : Type} [DecidableEq κ] (d : PyDict κ ν) (hn : (d.map (·.1)).Nodup) (e : κ × ν) (he : e ∈ d) : d.get? e.1 = some e.2 := by
  obtain ⟨A, B, rfl⟩ := List.append_of_mem he
  obtain ⟨k, v⟩ := e
  apply get?_mid
  rw [List.map_append, List.nodup_append] at hn
  intro hk
  exact hn.2.2 k hk k (by simp) rfl

theorem runSorted_perm (c : FullCfg ι ω K σ) (hn : (c.templates.map (·.1)).Nodup) (ho : c.order.Perm (c.templates.map (·.1))) : c.runSorted.Perm c.runTemplates := by
  refine (ho.filterMap _).trans ?_
  unfold FullCfg.runTemplates
  rw [List.filterMap_map, ← List.filterMap_eq_map]
  apply List.Perm.of_eq
  apply List.filterMap_congr
  intro t ht
  simp only [Function.comp]
  rw [get?_of_mem c.templates hn t ht]
  rfl

theorem toRun_good (c : FullCfg ι ω K σ) (hn : (c.templates.map (·.1)).Nodup) (ho : c.order.Perm (c.templates.map (·.1))) (g : PyStr → ω → K → List (List K)) : GoodCfg (toRun (M := M) c g) := by
  refine ⟨?_, runSorted_perm c hn ho⟩
  show (c.runTemplates.map (·.fulltype)).Nodup
  unfold FullCfg.runTemplates
  rw [List.map_map]
  exact hn

theorem calcZchi2Slice_eq {T Z R : Type} (fs : T → List Z → Py (List R)) (f : T → Z → R) (L : List (ι × T)) (zs : List Z) (h : ∀ e ∈ L, fs e.2 zs = .ok (zs.map (f e.2))) :
    calcZchi2Slice fs (L.map (·.1)) (L.map (·.2)) zs = calcZchi2 f (L.map (·.1)) (L.map (·.2)) zs := by
  unfold calcZchi2Slice calcZchi2
  apply mapM_congr'
  intro j hj
  cases hx : (L.map (·.2))[j]? with
  | none => rfl
  | some tg =>
    obtain ⟨e, he, rfl⟩ := List.mem_map.1 (List.mem_of_getElem? hx)
    exact h e he

theorem foldlM_congr {α β : Type} (f f' : β → α → Py β) (l : List α) (h : ∀ b, ∀ a ∈ l, f b a = f' b a) (b : β) : l.foldlM f b = l.foldlM f' b := by
  induction l generalizing b with
  | nil => rfl
  | cons a l ih =>
    rw [List.foldlM_cons, List.foldlM_cons, h b a (by simp)]
    congr 1
    funext x
    exact ih (fun b a ha => h b a (List.mem_cons_of_mem _ ha)) x

theorem scanSlices_eq {T Z R : Type} (fs : T → List Z → Py (List R)) (f : T → Z → R) (L : List (ι × T)) (pieces : List (Piece Z)) (h : ∀ p ∈ pieces, ∀ e ∈ L, fs e.2 p.redshifts = .ok (p.redshifts.map (f e.2))) :
    scanSlices fs (L.map (·.1)) (L.map (·.2)) pieces = scanPieces f (L.map (·.1)) (L.map (·.2)) pieces := by
  unfold scanSlices scanPieces
  congr 1
  apply foldlM_congr
  intro d p hp
  rw [calcZchi2Slice_eq fs f L p.redshifts (h p hp)]

/-- slices that can be scanned: not empty, and part of the template's redshifts -/
def GoodPieces (tm : Tmpl ω K σ) (pieces : List (Piece K)) : Prop := ∀ p ∈ pieces, p.redshifts ≠ [] ∧ ∀ z ∈ p.redshifts, z ∈ tm.redshifts

theorem fullRank_eq (c : FullCfg ι ω K σ) (g : PyStr → ω → K → List (List K)) (grids : List ω) (hn : (c.templates.map (·.1)).Nodup) (hs : ∀ t ∈ c.templates, Scannable c.S t.2 grids (g t.1))
    (loc : List (ι × (List (FitSpectrum ω K) × M))) (hg : ∀ e ∈ loc, ∀ s ∈ e.2.1, s.wavehash ∈ grids) (pieces : RunTemplate K → List (Piece K))
    (hp : ∀ t ∈ c.templates, GoodPieces t.2 (pieces ⟨t.1, t.2.redshifts⟩)) :
    fullRank c grids loc pieces = (do
      let res ← calcZchi2Targets (toRun (M := M) c g).le (fun t => scanPieces ((toRun (M := M) c g).f t) (loc.map (·.1)) (loc.map (·.2)) (pieces t)) (toRun (M := M) c g).templates (loc.map (·.1))
      rankFinish (toRun (M := M) c g).prior (toRun (M := M) c g).fitz (toRun (M := M) c g).mdOf (toRun (M := M) c g).sorted loc res) := by
  unfold fullRank
  congr 1
  unfold calcZchi2Targets
  apply foldlM_congr
  intro b t ht
  obtain ⟨t, ht', rfl⟩ := List.mem_map.1 ht
  replace ht := ht'
  have hget := get?_of_mem c.templates hn t ht
  have h1 : c.templates.get t.1 = .ok t.2 := by unfold PyDict.get; rw [hget]
  simp only [h1]
  have h2 : scanSlices (fun (tg : List (FitSpectrum ω K) × M) zs => scanSlice c.S t.2 grids tg.1 zs) (loc.map (·.1)) (loc.map (·.2)) (pieces ⟨t.1, t.2.redshifts⟩) =
      scanPieces ((toRun (M := M) c g).f ⟨t.1, t.2.redshifts⟩) (loc.map (·.1)) (loc.map (·.2)) (pieces ⟨t.1, t.2.redshifts⟩) := by
    apply scanSlices_eq
    intro p hpm e he
    obtain ⟨a1, a2⟩ := hp t ht p hpm
    rw [scanSlice_eq c.S t.2 grids (g t.1) (hs t ht) e.2.1 (hg e he) p.redshifts a1 a2]
    congr 1
    apply List.map_congr_left
    intro z _
    simp only [toRun, hget]
  rw [← h2]
  rfl

theorem mem_gridsOf (targets : List (ι × (List (FitSpectrum ω K) × M))) (e : ι × (List (FitSpectrum ω K) × M)) (he : e ∈ targets) (s : FitSpectrum ω K) (hs : s ∈ e.2.1) : s.wavehash ∈ gridsOf targets := by
  unfold gridsOf
  rw [firstSeen_eq, mem_distinctKeys, List.mem_flatMap]
  exact ⟨e, he, List.mem_map.2 ⟨s, hs, rfl⟩⟩

theorem initPiece_good {Z : Type} (zs : List Z) (n r : Nat) (p : Piece Z) (h : DistTemplate.initPiece zs n r = .ok p) : p.redshifts ≠ [] ∧ ∀ z ∈ p.redshifts, z ∈ zs := by
  unfold DistTemplate.initPiece at h
  cases hs : arraySplit zs n with
  | error e => rw [hs] at h; cases h
  | ok parts =>
    rw [hs] at h
    simp only [bind, Except.bind] at h
    cases hp : parts[r]? with
    | none => rw [hp] at h; cases h
    | some myz =>
      rw [hp] at h
      simp only at h
      split at h
      · cases h
      · rename_i hne
        have := Except.ok.inj h
        subst this
        refine ⟨by simpa using hne, fun z hz => ?_⟩
        have h3 : parts.flatten = zs := by
          have hn : 0 < n := by
            rcases Nat.eq_zero_or_pos n with rfl | h
            · simp [arraySplit] at hs
            · exact h
          obtain ⟨parts', h1, _, h3, _⟩ := C04_array_split_covers zs n hn
          rw [hs] at h1
          rw [Except.ok.inj h1]; exact h3
        rw [← h3, List.mem_flatten]
        exact ⟨myz, List.mem_of_getElem? hp, hz⟩

theorem ringRun_pieces {Z : Type} (zs : List Z) (n : Nat) (log : Nat → List (Piece Z)) (h : RingRun zs n log) (r : Nat) (hr : r < n) : ∀ p ∈ log r, p.redshifts ≠ [] ∧ ∀ z ∈ p.redshifts, z ∈ zs := by
  obtain ⟨p, strict, k, s, h1, h2, h3⟩ := h
  intro q hq
  obtain ⟨hf, hl⟩ := h3 r hr
  have hperm := ((C05_cycle_visits_all n (by omega) strict p (C04_pieces_cover_grid zs n (by omega) p h1).1 k s h2 r hr).1 hf).2.2
  rw [hl] at hq
  obtain ⟨i, hi, rfl⟩ := List.mem_map.1 (hperm.mem_iff.1 hq)
  exact initPiece_good zs n i (p i) (h1 i (by simpa using hi))

/-- the fits of a run are those of the abstract run -/
theorem fullFits_eq (c : FullCfg ι ω K σ) (g : PyStr → ω → K → List (List K)) (targets : List (ι × (List (FitSpectrum ω K) × M))) (hn : (c.templates.map (·.1)).Nodup)
    (hs : ∀ t ∈ c.templates, Scannable c.S t.2 (gridsOf targets) (g t.1)) (allIds : List ι) (way : RunWay ι (List (FitSpectrum ω K) × M) K) (hway : PossibleWay c targets way) :
    fullFits c targets allIds way = fitsOfRun (toRun (M := M) c g) targets allIds way := by
  cases way with
  | serial =>
    unfold fullFits fitsOfRun serialRun
    simp only
    rw [fullRank_eq c g (gridsOf targets) hn hs targets (fun e he s hs => mem_gridsOf targets e he s hs)]
    · simp only [bind_assoc]
      rfl
    · intro t ht p hp
      simp only [List.mem_singleton] at hp
      subst hp
      exact ⟨(hs t ht).redshifts, fun z hz => hz⟩
  | mpi locs log =>
    unfold fullFits fitsOfRun mpiRun
    simp only
    congr 1
    apply mapM_congr'
    rintro ⟨loc, r⟩ hlr
    have hlr' := List.mem_zipIdx hlr
    simp only at hlr' ⊢
    rw [fullRank_eq c g (gridsOf targets) hn hs loc]
    · intro e he s hs
      refine mem_gridsOf targets e (hway.1.mem_iff.1 (List.mem_flatten.2 ⟨loc, ?_, he⟩)) s hs
      exact (List.mem_zipIdx' hlr).2 ▸ List.getElem_mem _
    · intro t ht p hp
      have hr := hway.2 t ht
      exact ringRun_pieces _ _ _ hr r (by omega) p hp

/-! ### one target -/

theorem add_swap (a b : K) (p : Ext K) : Ext.add (Ext.add (.fin a) p) (.fin b) = Ext.add (.fin (a + b)) p := by
  cases p with
  | fin x => simp only [Ext.add]; rw [add_right_comm]
  | inf => rfl
  | nan => rfl

theorem fitRows_eq (c : FullCfg ι ω K σ) (g : PyStr → ω → K → List (List K)) (grids : List ω) (hn : (c.templates.map (·.1)).Nodup) (tid : ι) (tg : List (FitSpectrum ω K) × M)
    (hg : ∀ s ∈ tg.1, s.wavehash ∈ grids) (t : PyStr × Tmpl ω K σ) (ht : t ∈ c.templates) (hs : Scannable c.S t.2 grids (g t.1)) :
    (toRun (M := M) c g).fitz tg ⟨t.1, t.2.redshifts⟩ ((toRun (M := M) c g).prior tid t.2.redshifts (t.2.redshifts.map ((toRun (M := M) c g).f ⟨t.1, t.2.redshifts⟩ tg))) =
      fitTarget (measureCfg c tid) tg.1 t.2 := by
  have hget := get?_of_mem c.templates hn t ht
  have h1 : c.templates.get t.1 = .ok t.2 := by unfold PyDict.get; rw [hget]
  simp only [toRun, h1, hget]
  show fitRows c tg.1 t.2 _ = _
  unfold fitRows fitTarget
  rw [show (measureCfg c tid).S = c.S from rfl, scanTarget_eq c.S t.2 grids (g t.1) hs tg.1 hg]
  show _ = (fitz c.argsort _ c.nminima _ _ >>= _)
  have e : (addPriorRows (c.prior tid t.2.redshifts) (t.2.redshifts.map (fun z => rowAt c.S t.2 (g t.1) tg.1 z))).map (fun r => r.chi2.add (.fin r.penalty)) =
      (measureCfg c tid).prior t.2.redshifts (t.2.redshifts.map (fun z => (entryAt c.S t.2 (g t.1) tg.1 z).1 + penaltyAt c.S t.2 (g t.1) tg.1 z)) := by
    unfold addPriorRows measureCfg
    simp only
    rw [List.zipWith_map_left, List.zipWith_map_left, List.map_zipWith]
    congr 1
    funext z p
    exact add_swap _ _ p
  rw [e]
  rfl

/-- the fits of a target in the run are its own measurements -/
theorem fits_iff (c : FullCfg ι ω K σ) (g : PyStr → ω → K → List (List K)) (grids : List ω) (hn : (c.templates.map (·.1)).Nodup) (tid : ι) (tg : List (FitSpectrum ω K) × M)
    (hg : ∀ s ∈ tg.1, s.wavehash ∈ grids) (hs : ∀ t ∈ c.templates, Scannable c.S t.2 grids (g t.1)) (xs : List (PyStr × TemplateFit K σ)) :
    List.Forall₂ (fun t x => x.1 = t.fulltype ∧ (toRun (M := M) c g).fitz tg t ((toRun (M := M) c g).prior tid t.redshifts (t.redshifts.map ((toRun (M := M) c g).f t tg))) = .ok x.2)
      (toRun (M := M) c g).templates xs ↔
    xs.map (·.1) = c.templates.map (·.1) ∧ (c.templates.map (·.2)).mapM (fitTarget (measureCfg c tid) tg.1) = .ok (xs.map (·.2)) := by
  have key : ∀ (l : List (PyStr × Tmpl ω K σ)), (∀ t ∈ l, t ∈ c.templates) → ∀ xs : List (PyStr × TemplateFit K σ),
      (List.Forall₂ (fun t x => x.1 = t.fulltype ∧ (toRun (M := M) c g).fitz tg t ((toRun (M := M) c g).prior tid t.redshifts (t.redshifts.map ((toRun (M := M) c g).f t tg))) = .ok x.2)
        (l.map (fun t => ⟨t.1, t.2.redshifts⟩)) xs ↔ xs.map (·.1) = l.map (·.1) ∧ List.Forall₂ (fun t x => fitTarget (measureCfg c tid) tg.1 t = .ok x) (l.map (·.2)) (xs.map (·.2))) := by
    intro l
    induction l with
    | nil =>
      intro _ xs
      cases xs with
      | nil => simp
      | cons x xs => simp
    | cons t l ih =>
      intro hsub xs
      cases xs with
      | nil => simp
      | cons x xs =>
        simp only [List.map_cons, List.forall₂_cons, List.cons.injEq]
        rw [ih (fun t ht => hsub t (List.mem_cons_of_mem _ ht)) xs, fitRows_eq c g grids hn tid tg hg t (hsub t (by simp)) (hs t (hsub t (by simp)))]
        tauto
  rw [show (toRun (M := M) c g).templates = c.templates.map (fun t => ⟨t.1, t.2.redshifts⟩) from rfl, key c.templates (fun t h => h) xs, Run.mapM_ok_iff]

/-! ### the table -/

variable [LinearOrder σ]

/-- the width of the coefficients of a table -/
def width (T : List (Row K σ)) : Nat := (T.map (·.coeff.length)).headD 0

theorem width_flat (w : Nat) (tabs : List (ι × List (Row K σ))) (hne : tabs ≠ []) (hw : ∀ t ∈ tabs, width t.2 = w) :
    (((tabs.flatMap (fun t => t.2.map (fun r => (t.1, r)))).map (·.2)).map (·.coeff.length)).headD 0 = w := by
  by_cases hall : ∀ t ∈ tabs, t.2 = []
  · have h0 : tabs.flatMap (fun t => t.2.map (fun r => (t.1, r))) = [] := by
      rw [List.flatMap_eq_nil_iff]
      intro t ht; rw [hall t ht]; rfl
    obtain ⟨t, ts, rfl⟩ := List.exists_cons_of_ne_nil hne
    have := hw t (by simp)
    rw [hall t (by simp)] at this
    rw [h0, ← this]; rfl
  · push Not at hall
    obtain ⟨t, ht, hte⟩ := hall
    exact headD_flat w tabs hw t ht hte

theorem finalTable_iff (nminima : Nat) (ibad : Row K σ → Bool) (m : Nat) (all : List (ι × List (TemplateFit K σ))) :
    (∃ rows, finalTable nminima ibad m all = .ok rows) ↔ all ≠ [] ∧ ∃ w, w ≤ m ∧ ∀ e ∈ all, ∃ T, targetTable nminima ibad e.2 = .ok T ∧ width T = w := by
  constructor
  · rintro ⟨rows, h⟩
    unfold finalTable at h
    cases hT : zfindTables nminima ibad all with
    | error e => rw [hT] at h; simp [bind, Except.bind] at h
    | ok T =>
      rw [hT] at h
      simp only [bind, Except.bind] at h
      obtain ⟨tabs, h2, htne, ⟨w, hw⟩, hflat⟩ := (zfindTables_iff nminima ibad all T).1 hT
      have hne : all ≠ [] := by rintro rfl; cases h2; exact htne rfl
      refine ⟨hne, w, ?_, ?_⟩
      · cases hS : standardizeCoeff m (T.map (·.2)) with
        | error e => rw [hS] at h; simp at h
        | ok out =>
          have := (standardizeCoeff_form m (T.map (·.2))).1 out hS
          rw [hflat, width_flat w tabs htne hw] at this
          exact this
      · intro e he
        obtain ⟨t, ht, h1, h3⟩ := forall₂_left_mem h2 e he
        exact ⟨t.2, h3, hw t ht⟩
  · rintro ⟨hne, w, hwm, hall⟩
    obtain ⟨tabs, hm, h2⟩ := mapM_forall₂ (fun tf : ι × List (TemplateFit K σ) => (do
        let rows ← targetTable nminima ibad tf.2
        return (tf.1, rows) : Py (ι × List (Row K σ)))) (fun tf t => (t.1 = tf.1 ∧ targetTable nminima ibad tf.2 = .ok t.2) ∧ width t.2 = w) all (by
      intro e he
      obtain ⟨T, h1, h3⟩ := hall e he
      refine ⟨(e.1, T), ?_, ⟨rfl, h1⟩, h3⟩
      simp only [h1]; rfl)
    have hw : ∀ t ∈ tabs, width t.2 = w := by
      intro t ht
      obtain ⟨_, _, hx⟩ := forall₂_right_mem h2 t ht
      exact hx.2
    have htne : tabs ≠ [] := by rintro rfl; cases h2; exact hne rfl
    have hT := (zfindTables_iff nminima ibad all (tabs.flatMap (fun t => t.2.map (fun r => (t.1, r))))).2 ⟨tabs, h2.imp (fun a b hab => hab.1), htne, ⟨w, hw⟩, rfl⟩
    obtain ⟨C, _, hS⟩ := (standardizeCoeff_form m ((tabs.flatMap (fun t => t.2.map (fun r => (t.1, r)))).map (·.2))).2 (by rw [width_flat w tabs htne hw]; exact hwm)
    unfold finalTable
    rw [hT]
    simp only [bind, Except.bind]
    rw [hS]
    exact ⟨_, rfl⟩

theorem targetTable_ncoeff (nminima : Nat) (ibad : Row K σ → Bool) (fits : List (TemplateFit K σ)) (T : List (Row K σ)) (h : targetTable nminima ibad fits = .ok T) : ∀ r ∈ T, r.ncoeff ≤ r.coeff.length := by
  unfold targetTable targetRows at h
  cases hm : pyMaxNat ((fits.filter (fun t => decide (t.cands ≠ []))).map (·.ncoeff)) with
  | error e => simp only [hm] at h; cases h
  | ok W =>
    simp only [hm] at h
    have hT := Except.ok.inj h
    intro r hr
    rw [← hT] at hr
    obtain ⟨r1, hr1, i, d, w, hrr, _⟩ := forall₂_right_mem (finishRows_forall₂ _) r hr
    obtain ⟨r0, hr0, hfl⟩ := List.mem_map.1 (trimRows_subset _ _ _ hr1)
    obtain ⟨t, ht, hrt⟩ := List.mem_flatMap.1 hr0
    obtain ⟨q, hq, hqr⟩ := List.mem_map.1 hrt
    have hW := ((pyMaxNat_iff _ W).1 hm).2 t.ncoeff (List.mem_map.2 ⟨t, ht, rfl⟩)
    have e1 : r.ncoeff = t.ncoeff := by rw [hrr, ← hfl, ← hqr]; rfl
    have e2 : r.coeff = q.coeff ++ List.replicate (W - q.coeff.length) 0 := by rw [hrr, ← hfl, ← hqr]; rfl
    rw [e1, e2, List.length_append, List.length_replicate]
    omega

theorem finalTable_rows (nminima : Nat) (ibad : Row K σ → Bool) (m : Nat) (all : List (ι × List (TemplateFit K σ))) (hn : (all.map (·.1)).Nodup) (rows : List (ι × Row K σ))
    (h : finalTable nminima ibad m all = .ok rows) :
    (∀ x ∈ rows, x.1 ∈ all.map (·.1)) ∧ ∀ e ∈ all, ∃ T, targetTable nminima ibad e.2 = .ok T ∧ List.Forall₂ Catalogue.SameRow T (Catalogue.rowsOf e.1 rows) := by
  unfold finalTable at h
  cases hT : zfindTables nminima ibad all with
  | error e => rw [hT] at h; simp [bind, Except.bind] at h
  | ok T =>
    rw [hT] at h
    simp only [bind, Except.bind] at h
    obtain ⟨tabs, h2, htne, ⟨w, hw⟩, hflat⟩ := (zfindTables_iff nminima ibad all T).1 hT
    have hkeys : tabs.map (·.1) = all.map (·.1) := by
      clear hn h hT hw hflat htne
      induction h2 with
      | nil => rfl
      | cons hab _ ih => simp [hab.1, ih]
    cases hS : standardizeCoeff m (T.map (·.2)) with
    | error e => rw [hS] at h; simp at h
    | ok out =>
      rw [hS] at h
      simp only [pure, Except.pure] at h
      have hrows := Except.ok.inj h
      have hle := (standardizeCoeff_form m (T.map (·.2))).1 out hS
      obtain ⟨C, hC, hSC⟩ := (standardizeCoeff_form m (T.map (·.2))).2 hle
      rw [hS] at hSC
      have hout := Except.ok.inj hSC
      rw [hout, zip_self_map] at hrows
      refine ⟨?_, ?_⟩
      · intro x hx
        rw [← hrows] at hx
        obtain ⟨y, hy, rfl⟩ := List.mem_map.1 hx
        rw [hflat] at hy
        obtain ⟨t, ht, hy⟩ := List.mem_flatMap.1 hy
        obtain ⟨r, hr, rfl⟩ := List.mem_map.1 hy
        rw [← hkeys]
        exact List.mem_map.2 ⟨t, ht, rfl⟩
      · intro e he
        obtain ⟨t, ht, h1, h3⟩ := forall₂_left_mem h2 e he
        refine ⟨t.2, h3, ?_⟩
        have r1 : Catalogue.rowsOf e.1 T = t.2 := by rw [hflat, ← h1]; exact rowsOf_tab t.1 t.2 tabs (by rw [hkeys]; exact hn) ht
        rw [← hrows, rowsOf_map (fun r => { r with coeff := C (r.coeff ++ List.replicate (m - ((T.map (·.2)).map (·.coeff.length)).headD 0) 0) }), r1, List.forall₂_map_right_iff, List.forall₂_same]
        intro r hr
        have hrT : r ∈ T.map (·.2) := by
          rw [← r1] at hr; unfold Catalogue.rowsOf at hr; obtain ⟨x, hx, rfl⟩ := List.mem_map.1 hr; exact List.mem_map.2 ⟨x, (List.mem_filter.1 hx).1, rfl⟩
        generalize List.replicate (m - ((T.map (·.2)).map (·.coeff.length)).headD 0) (0 : K) = Z
        have hnc : r.ncoeff ≤ r.coeff.length := targetTable_ncoeff nminima ibad e.2 t.2 h3 r hr
        have k1 : (C = id ∨ C = List.take r.ncoeff) := by
          rcases hC with h | ⟨k, h, hk⟩
          · exact Or.inl h
          · right; rw [h, hk r hrT]
        refine ⟨rfl, ?_, ?_⟩
        · rcases k1 with rfl | rfl
          · left; exact List.prefix_append _ _
          · right
            simp only
            rw [List.take_append_of_le_length hnc]
            exact List.take_prefix _ _
        · simp only
          rcases k1 with rfl | rfl
          · rw [id, List.take_append_of_le_length hnc]
          · rw [List.take_take, Nat.min_self, List.take_append_of_le_length hnc]

/-! ### the whole run -/

/-- the binning function of every template -/
theorem GoodRun.choose {c : FullCfg ι ω K σ} {grids : List ω} (h : GoodRun c grids) : ∃ g : PyStr → ω → K → List (List K), ∀ t ∈ c.templates, Scannable c.S t.2 grids (g t.1) := by
  classical
  refine ⟨fun ft => match c.templates.get? ft with
    | some tm => Classical.epsilon (Scannable c.S tm grids)
    | none => fun _ _ => [], ?_⟩
  intro t ht
  simp only [get?_of_mem c.templates h.names t ht]
  exact Classical.epsilon_spec (h.scan t ht)

/-- what the fits of the run are, target by target -/
def IsMeasured (c : FullCfg ι ω K σ) (targets : List (ι × (List (FitSpectrum ω K) × M))) (tid : ι) (row : ι × List (PyStr × TemplateFit K σ) × Option M) : Prop :=
  row.1 = tid ∧ ∃ tg, (tid, tg) ∈ targets ∧ row.2.2 = some tg.2 ∧ row.2.1.map (·.1) = c.templates.map (·.1) ∧ (c.templates.map (·.2)).mapM (fitTarget (measureCfg c tid) tg.1) = .ok (row.2.1.map (·.2))

theorem possibleWay_good (c : FullCfg ι ω K σ) (g : PyStr → ω → K → List (List K)) (targets : List (ι × (List (FitSpectrum ω K) × M))) (way : RunWay ι (List (FitSpectrum ω K) × M) K) (h : PossibleWay c targets way) :
    GoodWay (toRun (M := M) c g) targets way := by
  cases way with
  | serial => trivial
  | mpi locs log =>
    refine ⟨h.1, ?_⟩
    intro t ht
    obtain ⟨t, ht', rfl⟩ := List.mem_map.1 ht
    exact h.2 t ht'

theorem fullFits_iff (c : FullCfg ι ω K σ) (targets : List (ι × (List (FitSpectrum ω K) × M))) (hc : GoodRun c (gridsOf targets)) (hn : (targets.map (·.1)).Nodup) (allIds : List ι)
    (hids : allIds.Perm (targets.map (·.1))) (way : RunWay ι (List (FitSpectrum ω K) × M) K) (hway : PossibleWay c targets way) (cat : List (ι × List (PyStr × TemplateFit K σ) × Option M)) :
    fullFits c targets allIds way = .ok cat ↔ List.Forall₂ (IsMeasured c targets) allIds cat := by
  obtain ⟨g, hg⟩ := hc.choose
  rw [fullFits_eq c g targets hc.names hg allIds way hway,
    fitsOfRun_iff (toRun (M := M) c g) (toRun_good c hc.names hc.order g) targets hn allIds hids way (possibleWay_good c g targets way hway) cat]
  unfold IsCatalogue IsCatalogueFrom
  have : (fun (tid : ι) (row : ι × List (PyStr × TemplateFit K σ) × Option M) => row.1 = tid ∧ ∃ tg, (tid, tg) ∈ targets ∧ row.2.2 = some ((toRun (M := M) c g).mdOf tg) ∧
      List.Forall₂ (fun t x => x.1 = t.fulltype ∧ (toRun (M := M) c g).fitz tg t ((toRun (M := M) c g).prior tid t.redshifts (t.redshifts.map ((toRun (M := M) c g).f t tg))) = .ok x.2)
        (toRun (M := M) c g).templates row.2.1) = IsMeasured c targets := by
    funext tid row
    unfold IsMeasured
    refine propext (and_congr_right fun _ => exists_congr fun tg => and_congr_right fun htg => and_congr_right fun _ => ?_)
    exact fits_iff c g (gridsOf targets) hc.names tid tg (fun s hs => mem_gridsOf targets (tid, tg) htg s hs) hg row.2.1
  exact iff_of_eq (congrArg (fun R => List.Forall₂ R allIds cat) this)

/-- **C117** the table of a run does not depend on how it is distributed: one process, or any number of MPI ranks, any distribution of the targets, any interleaving. -/
theorem C117_any_way (c : FullCfg ι ω K σ) (targets : List (ι × (List (FitSpectrum ω K) × M))) (hc : GoodRun c (gridsOf targets)) (hn : (targets.map (·.1)).Nodup) (allIds : List ι)
    (hids : allIds.Perm (targets.map (·.1))) (way : RunWay ι (List (FitSpectrum ω K) × M) K) (hway : PossibleWay c targets way) (rows : List (ι × Row K σ)) :
    fullCatalogue c targets allIds way = .ok rows ↔ fullCatalogue c targets allIds .serial = .ok rows := by
  have h : ∀ cat, fullFits c targets allIds way = .ok cat ↔ fullFits c targets allIds .serial = .ok cat := by
    intro cat
    rw [fullFits_iff c targets hc hn allIds hids way hway, fullFits_iff c targets hc hn allIds hids .serial trivial]
  unfold fullCatalogue
  cases h1 : fullFits c targets allIds way with
  | ok cat => rw [(h cat).1 h1]
  | error e =>
    cases h2 : fullFits c targets allIds .serial with
    | ok cat => rw [(h cat).2 h2] at h1; cases h1
    | error e' => simp [bind, Except.bind]

theorem isMeasured_keys (c : FullCfg ι ω K σ) (targets : List (ι × (List (FitSpectrum ω K) × M))) (allIds : List ι) (cat : List (ι × List (PyStr × TemplateFit K σ) × Option M))
    (h : List.Forall₂ (IsMeasured c targets) allIds cat) : cat.map (·.1) = allIds := by
  induction h with
  | nil => rfl
  | cons hab _ ih => simp [hab.1, ih]

/-- **C117** In the table of a run, however it was distributed, the rows of a target are the rows that its own spectra give on their own: the measurement of the target (scan with every template, the target's
prior, refinement, sorting, flags: `measureTarget`), with nothing of any other target in it. `coeff` may be longer or shorter by padding, the first `ncoeff` coefficients are the same. Every row belongs to one of
the targets. -/
theorem C117_rows (c : FullCfg ι ω K σ) (targets : List (ι × (List (FitSpectrum ω K) × M))) (hc : GoodRun c (gridsOf targets)) (hn : (targets.map (·.1)).Nodup) (allIds : List ι)
    (hids : allIds.Perm (targets.map (·.1))) (way : RunWay ι (List (FitSpectrum ω K) × M) K) (hway : PossibleWay c targets way) (rows : List (ι × Row K σ))
    (h : fullCatalogue c targets allIds way = .ok rows) :
    (∀ x ∈ rows, x.1 ∈ allIds) ∧
    ∀ e ∈ targets, ∃ T, measureTarget (measureCfg c e.1) (c.templates.map (·.2)) e.2.1 = .ok T ∧ List.Forall₂ Catalogue.SameRow T (Catalogue.rowsOf e.1 rows) := by
  unfold fullCatalogue at h
  cases hcat : fullFits c targets allIds way with
  | error e => rw [hcat] at h; cases h
  | ok cat =>
    rw [hcat] at h
    simp only [bind, Except.bind] at h
    have hC := (fullFits_iff c targets hc hn allIds hids way hway cat).1 hcat
    have hkeys := isMeasured_keys c targets allIds cat hC
    cases hm : c.maxcoeff with
    | error e => rw [hm] at h; cases h
    | ok m =>
      rw [hm] at h
      simp only at h
      have hk2 : (cat.map (fun r => (r.1, r.2.1.map (·.2)))).map (·.1) = allIds := by rw [List.map_map]; exact hkeys
      obtain ⟨h1, h2⟩ := finalTable_rows c.nminima (fun _ => false) m _ (by rw [hk2]; exact hids.nodup_iff.2 hn) rows h
      rw [hk2] at h1
      refine ⟨h1, ?_⟩
      intro e he
      have htid : e.1 ∈ allIds := hids.mem_iff.2 (List.mem_map.2 ⟨e, he, rfl⟩)
      obtain ⟨row, hrow, hr1, tg, hr2, _, _, hr5⟩ := forall₂_left_mem hC e.1 htid
      have htg : (e.1, tg) = e := List.inj_on_of_nodup_map hn hr2 he rfl
      obtain ⟨T, hT1, hT2⟩ := h2 _ (List.mem_map.2 ⟨row, hrow, rfl⟩)
      simp only [hr1] at hT1 hT2
      refine ⟨T, ?_, hT2⟩
      unfold measureTarget
      rw [← congrArg (fun e => e.2) htg]
      simp only
      rw [hr5]
      exact hT1

/-- **C117** when a run succeeds: exactly if there are targets, every target can be measured on its own, and their tables have coefficients of the same width, not wider than the largest template. -/
theorem C117_success (c : FullCfg ι ω K σ) (targets : List (ι × (List (FitSpectrum ω K) × M))) (hc : GoodRun c (gridsOf targets)) (hn : (targets.map (·.1)).Nodup) (allIds : List ι)
    (hids : allIds.Perm (targets.map (·.1))) (way : RunWay ι (List (FitSpectrum ω K) × M) K) (hway : PossibleWay c targets way) :
    (∃ rows, fullCatalogue c targets allIds way = .ok rows) ↔
      targets ≠ [] ∧ ∃ w, (∃ t ∈ c.templates, w ≤ t.2.nbasis) ∧ ∀ e ∈ targets, ∃ T, measureTarget (measureCfg c e.1) (c.templates.map (·.2)) e.2.1 = .ok T ∧ width T = w := by
  have hmax : ∀ w, (∃ m, c.maxcoeff = .ok m ∧ w ≤ m) ↔ ∃ t ∈ c.templates, w ≤ t.2.nbasis := by
    intro w
    unfold FullCfg.maxcoeff
    constructor
    · rintro ⟨m, hm, hw⟩
      obtain ⟨h1, _⟩ := (pyMaxNat_iff _ m).1 hm
      obtain ⟨t, ht, rfl⟩ := List.mem_map.1 h1
      exact ⟨t, ht, hw⟩
    · rintro ⟨t, ht, hw⟩
      cases hL : pyMaxNat (c.templates.map (fun t => t.2.nbasis)) with
      | error e =>
        have : c.templates.map (fun t => t.2.nbasis) = [] := by
          cases hx : c.templates.map (fun t => t.2.nbasis) with
          | nil => rfl
          | cons a l => rw [hx] at hL; cases hL
        rw [List.map_eq_nil_iff] at this
        rw [this] at ht; cases ht
      | ok m => exact ⟨m, rfl, hw.trans (((pyMaxNat_iff _ m).1 hL).2 _ (List.mem_map.2 ⟨t, ht, rfl⟩))⟩
  have hmeas : ∀ (e : ι × (List (FitSpectrum ω K) × M)) (fits : List (TemplateFit K σ)), (c.templates.map (·.2)).mapM (fitTarget (measureCfg c e.1) e.2.1) = .ok fits →
      measureTarget (measureCfg c e.1) (c.templates.map (·.2)) e.2.1 = targetTable c.nminima (fun _ => false) fits := by
    intro e fits h
    unfold measureTarget
    rw [h]; rfl
  constructor
  · rintro ⟨rows, h⟩
    unfold fullCatalogue at h
    cases hcat : fullFits c targets allIds way with
    | error e => rw [hcat] at h; cases h
    | ok cat =>
      rw [hcat] at h
      simp only [bind, Except.bind] at h
      have hC := (fullFits_iff c targets hc hn allIds hids way hway cat).1 hcat
      have hkeys := isMeasured_keys c targets allIds cat hC
      cases hm : c.maxcoeff with
      | error e => rw [hm] at h; cases h
      | ok m =>
        rw [hm] at h
        simp only at h
        obtain ⟨hne, w, hwm, hall⟩ := (finalTable_iff c.nminima (fun _ => false) m _).1 ⟨rows, h⟩
        refine ⟨?_, w, (hmax w).1 ⟨m, hm, hwm⟩, ?_⟩
        · rintro rfl
          have : allIds = [] := List.perm_nil.1 hids
          rw [this] at hkeys
          exact hne (by rw [List.map_eq_nil_iff.1 hkeys]; rfl)
        · intro e he
          have htid : e.1 ∈ allIds := hids.mem_iff.2 (List.mem_map.2 ⟨e, he, rfl⟩)
          obtain ⟨row, hrow, hr1, tg, hr2, _, _, hr5⟩ := forall₂_left_mem hC e.1 htid
          have htg : (e.1, tg) = e := List.inj_on_of_nodup_map hn hr2 he rfl
          obtain ⟨T, hT1, hT2⟩ := hall _ (List.mem_map.2 ⟨row, hrow, rfl⟩)
          have ht2 : tg = e.2 := congrArg (fun e => e.2) htg
          rw [ht2] at hr5
          exact ⟨T, by rw [hmeas e _ hr5]; exact hT1, hT2⟩
  · rintro ⟨hne, w, hw, hall⟩
    obtain ⟨m, hm, hwm⟩ := (hmax w).2 hw
    have hex : ∀ tid ∈ allIds, ∃ row, IsMeasured c targets tid row ∧ ∃ T, targetTable c.nminima (fun _ => false) (row.2.1.map (·.2)) = .ok T ∧ width T = w := by
      intro tid htid
      obtain ⟨e, he, rfl⟩ := List.mem_map.1 (hids.mem_iff.1 htid)
      obtain ⟨T, hT, hwT⟩ := hall e he
      unfold measureTarget at hT
      cases hf : (c.templates.map (·.2)).mapM (fitTarget (measureCfg c e.1) e.2.1) with
      | error x => rw [hf] at hT; cases hT
      | ok fits =>
        rw [hf] at hT
        have hlen : fits.length = c.templates.length := by
          have := ((Run.mapM_ok_iff _ _ _).1 hf).length_eq
          simpa using this.symm
        have e2 : ((c.templates.map (·.1)).zip fits).map (·.2) = fits := by
          apply List.map_snd_zip
          simp [hlen]
        have e1 : ((c.templates.map (·.1)).zip fits).map (·.1) = c.templates.map (·.1) := by
          apply List.map_fst_zip
          simp [hlen]
        exact ⟨(e.1, (c.templates.map (·.1)).zip fits, some e.2.2), ⟨rfl, e.2, he, rfl, e1, by rw [e2]; exact hf⟩, T, by rw [e2]; exact hT, hwT⟩
    obtain ⟨cat, h2⟩ : ∃ cat, List.Forall₂ (fun tid row => IsMeasured c targets tid row ∧ ∃ T, targetTable c.nminima (fun _ => false) (row.2.1.map (·.2)) = .ok T ∧ width T = w) allIds cat := by
      clear hids
      induction allIds with
      | nil => exact ⟨[], .nil⟩
      | cons i is ih =>
        obtain ⟨row, hrow⟩ := hex i (by simp)
        obtain ⟨cat, h2⟩ := ih (fun t ht => hex t (List.mem_cons_of_mem _ ht))
        exact ⟨row :: cat, .cons hrow h2⟩
    have hcat := (fullFits_iff c targets hc hn allIds hids way hway cat).2 (h2.imp (fun a b hab => hab.1))
    obtain ⟨rows, hr⟩ := (finalTable_iff c.nminima (fun _ => false) m (cat.map (fun r => (r.1, r.2.1.map (·.2))))).2 ⟨by
        intro h0
        rw [List.map_eq_nil_iff] at h0
        subst h0
        cases h2
        exact hne (List.map_eq_nil_iff.1 hids.symm.eq_nil), w, hwm, by
        intro e he
        obtain ⟨row, hrow, rfl⟩ := List.mem_map.1 he
        obtain ⟨_, _, hx⟩ := forall₂_right_mem h2 row hrow
        exact hx.2⟩
    refine ⟨rows, ?_⟩
    unfold fullCatalogue
    rw [hcat]
    simp only [bind, Except.bind, hm]
    exact hr

/-! ### what holds for one target holds in a run -/

/-- The two rows are the same in every column; of `coeff` the first `ncoeff` are (the rest is padding). -/
def SameMeasurement (a b : Row K σ) : Prop := a = { b with coeff := a.coeff } ∧ a.coeff.take a.ncoeff = b.coeff.take b.ncoeff

theorem sameMeasurement_of {T A B : List (Row K σ)} (h1 : List.Forall₂ Catalogue.SameRow T A) (h2 : List.Forall₂ Catalogue.SameRow T B) : List.Forall₂ SameMeasurement A B := by
  refine forall₂_compose ?_ (forall₂_converse h1) h2
  intro a t b ha hb
  obtain ⟨x1, _, x3⟩ := ha
  obtain ⟨y1, _, y3⟩ := hb
  refine ⟨?_, x3.symm.trans y3⟩
  rw [x1] at y1
  have e := congrArg (fun r : Row K σ => { r with coeff := a.coeff }) y1
  exact e

/-- **C117** (with C112) two runs, on any other targets and distributed in any way: a target whose exposures have the same informative pixels in both (in any order and any grouping into spectra) gets the same rows. -/
theorem C117_same_pixels (c : FullCfg ι ω K σ) (targets targets' : List (ι × (List (FitSpectrum ω K) × M))) (hc : GoodRun c (gridsOf targets)) (hc' : GoodRun c (gridsOf targets'))
    (hn : (targets.map (·.1)).Nodup) (hn' : (targets'.map (·.1)).Nodup) (allIds allIds' : List ι) (hids : allIds.Perm (targets.map (·.1))) (hids' : allIds'.Perm (targets'.map (·.1)))
    (way way' : RunWay ι (List (FitSpectrum ω K) × M) K) (hway : PossibleWay c targets way) (hway' : PossibleWay c targets' way') (rows rows' : List (ι × Row K σ))
    (h : fullCatalogue c targets allIds way = .ok rows) (h' : fullCatalogue c targets' allIds' way' = .ok rows')
    (tid : ι) (sp sp' : List (FitSpectrum ω K)) (md md' : M) (hm : (tid, sp, md) ∈ targets) (hm' : (tid, sp', md') ∈ targets')
    (hf : ∀ t ∈ c.templates, Fits t.2 sp) (hf' : ∀ t ∈ c.templates, Fits t.2 sp') (hp : (informative sp).Perm (informative sp'))
    (hg : ∀ t ∈ c.templates, ∀ zs, (∃ s ∈ sp, ∃ e, t.2.bin s.wavehash zs = .error e) ↔ (∃ s ∈ sp', ∃ e, t.2.bin s.wavehash zs = .error e)) :
    List.Forall₂ SameMeasurement (Catalogue.rowsOf tid rows) (Catalogue.rowsOf tid rows') := by
  obtain ⟨T, hT, hr⟩ := (C117_rows c targets hc hn allIds hids way hway rows h).2 _ hm
  obtain ⟨T', hT', hr'⟩ := (C117_rows c targets' hc' hn' allIds' hids' way' hway' rows' h').2 _ hm'
  simp only at hT hT' hr hr'
  rw [C112_same_pixels (measureCfg c tid) (c.templates.map (·.2)) sp sp' (List.forall_mem_map.2 hf) (List.forall_mem_map.2 hf') hp (List.forall_mem_map.2 hg), hT] at hT'
  rw [← Except.ok.inj hT'] at hr'
  exact sameMeasurement_of hr hr'

/-- **C117** (with C116) in a run with more templates (and the same other settings) no target's best fit gets worse. -/
theorem C117_more_templates (c c' : FullCfg ι ω K σ) (hsame : c' = { c with templates := c'.templates, order := c'.order }) (hsub : ∀ t ∈ c.templates, ∃ t' ∈ c'.templates, t'.2 = t.2)
    (hmin : 1 ≤ c.nminima) (targets : List (ι × (List (FitSpectrum ω K) × M))) (hc : GoodRun c (gridsOf targets)) (hc' : GoodRun c' (gridsOf targets)) (hn : (targets.map (·.1)).Nodup)
    (allIds : List ι) (hids : allIds.Perm (targets.map (·.1))) (way way' : RunWay ι (List (FitSpectrum ω K) × M) K) (hway : PossibleWay c targets way) (hway' : PossibleWay c' targets way')
    (rows rows' : List (ι × Row K σ)) (h : fullCatalogue c targets allIds way = .ok rows) (h' : fullCatalogue c' targets allIds way' = .ok rows') :
    ∀ tid ∈ allIds, ∃ best best', (Catalogue.rowsOf tid rows).head? = some best ∧ (Catalogue.rowsOf tid rows').head? = some best' ∧ best'.notWorse best := by
  intro tid htid
  obtain ⟨e, he, rfl⟩ := List.mem_map.1 (hids.mem_iff.1 htid)
  obtain ⟨T, hT, hr⟩ := (C117_rows c targets hc hn allIds hids way hway rows h).2 _ he
  obtain ⟨T', hT', hr'⟩ := (C117_rows c' targets hc' hn allIds hids way' hway' rows' h').2 _ he
  have hcfg : measureCfg c' e.1 = measureCfg c e.1 := by rw [hsame]; rfl
  rw [hcfg] at hT'
  obtain ⟨b, b', h1, h2, h3⟩ := C116_more_templates (measureCfg c e.1) hmin (c.templates.map (·.2)) (c'.templates.map (·.2)) e.2.1 (by
    intro tm htm
    obtain ⟨t, ht, rfl⟩ := List.mem_map.1 htm
    obtain ⟨t', ht', h⟩ := hsub t ht
    exact List.mem_map.2 ⟨t', ht', h⟩) T T' hT hT'
  have key : ∀ {T R : List (Row K σ)} {b : Row K σ}, List.Forall₂ Catalogue.SameRow T R → T.head? = some b → ∃ r, R.head? = some r ∧ Catalogue.SameRow b r := by
    intro T R b hTR hb
    cases hTR with
    | nil => cases hb
    | @cons t r _ _ ht _ => simp only [List.head?_cons, Option.some.injEq] at hb ⊢; subst hb; exact ⟨r, rfl, ht⟩
  obtain ⟨r, hr1, hr2⟩ := key hr h1
  obtain ⟨r', hr1', hr2'⟩ := key hr' h2
  refine ⟨r, r', hr1, hr1', ?_⟩
  have e1 : b.chi2 = r.chi2 ∧ b.bad = r.bad := by rw [hr2.1]; exact ⟨rfl, rfl⟩
  have e2 : b'.chi2 = r'.chi2 ∧ b'.bad = r'.bad := by rw [hr2'.1]; exact ⟨rfl, rfl⟩
  unfold Row.notWorse at h3 ⊢
  rw [e1.1, e1.2, e2.1, e2.2] at h3
  exact h3

end

/-! ### redrock's own binning -/

/-- A template as redrock bins it: exact rebinning onto the wavelength grid, times the IGM transmission (`Verif/Model/Binned.lean`). `waveOf` is the grid with a given hash. -/
noncomputable def physTmpl {ω σ : Type} (tm : Tmpl ω ℝ σ) (waveOf : ω → List ℝ) (twave : List ℝ) (flux : List (List ℝ)) (igm : IgmModel) : Tmpl ω ℝ σ :=
  { tm with nbasis := flux.length, bin := fun h zs => do
      let binned ← rebinTemplate twave flux (waveOf h) zs
      let t ← transmissionLyman (.array zs) (.array (waveOf h)) igm false
      let T ← matOf t
      return applyTransmission T binned }

/-- **C117** redrock's own binning meets the condition of the theorems above: a template with increasing wavelengths that covers every grid at every redshift of its own grid can be scanned, slice by slice, and
the binned template at a redshift is the bin average of the redshifted template times the transmission of the pixel, in whatever slice the redshift is. -/
theorem C117_physical {ω σ : Type} [DecidableEq ω] (S : Solvers ℝ) (tm : Tmpl ω ℝ σ) (waveOf : ω → List ℝ) (twave : List ℝ) (flux : List (List ℝ)) (igm : IgmModel) (grids : List ω)
    (ht : GoodTemplate twave flux) (hw : ∀ h ∈ grids, GoodGrid (waveOf h)) (hi : igm ≠ .unknown) (hne : tm.redshifts ≠ []) (hz : ∀ z ∈ tm.redshifts, -1 < z)
    (hr : ∀ h ∈ grids, ∀ z ∈ tm.redshifts, InRange (redshifted twave z) (edgesOf (waveOf h)))
    (hs : ∀ A y e, solveMatrices S tm.algorithm none A y = .error e → e = .linAlgError ∨ e = .notImplemented) :
    Scannable S (physTmpl tm waveOf twave flux igm) grids (fun h z => gridTemplate twave flux (waveOf h) igm z) where
  bin := fun h hh zs hzs hsub => fitGrid_eq ht (hw h hh) hi hzs (fun z hx => hz z (hsub z hx)) (fun z hx => hr h hh z (hsub z hx))
  redshifts := hne
  solver := hs

/-- the hypotheses of `C117_physical` are met: two basis spectra on 0 to 2000, one grid around 3650, redshifts 1 to 3 -/
example (S : Solvers ℝ) (hs : ∀ A y e, S.linalgSolve A y = .error e → e = .linAlgError ∨ e = .notImplemented) :
    Scannable S (physTmpl ⟨(), (), false, [1, 2, 3], 0, .pca, none, fun _ _ => .error .valueError⟩ (fun _ : Unit => [3600, 3700]) [0, 2000] [[1, 1], [0, 1]] .calura12) [()]
      (fun _ z => gridTemplate [0, 2000] [[1, 1], [0, 1]] [3600, 3700] .calura12 z) :=
  C117_physical S _ (fun _ => [3600, 3700]) [0, 2000] [[1, 1], [0, 1]] .calura12 [()] ex_good.1 (fun _ _ => ex_good.2) (by simp) (by simp)
    (by intro z h; simp at h; rcases h with rfl | rfl | rfl <;> norm_num) (by intro _ _ z h; simp at h; exact ex_range z (by rcases h with rfl | rfl | rfl <;> norm_num)) hs

/-! ### a concrete run -/

namespace Ex
open Units TemplateSet

/-- two templates with prior (redshift 3 forbidden for target 7) -/
def run : FullCfg Nat Unit ℚ Nat where
  templates := [("A".toList, tmpl false), ("B".toList, tmplB 1)]
  order := ["A".toList, "B".toList]
  argsort := stableArgsort Ext.le
  minfit := cfg.minfit
  nz := 3
  nminima := 2
  S := cfg.S
  prior := fun id zs => zs.map (fun z => if id = 7 ∧ z = 3 then .inf else .fin 0)
  le := fun a b => decide (a ≤ b)

def data2 : List (FitSpectrum Unit ℚ) := [⟨(), [3, 1], [1, 1], [[1, 0], [0, 1]]⟩]

def targets : List (Nat × (List (FitSpectrum Unit ℚ) × Nat)) := [(5, data, 50), (7, data2, 70)]

theorem good : GoodRun run (gridsOf targets) where
  names := by decide
  order := List.Perm.refl _
  scan := by
    have hs : ∀ A y e, solve1 A y = .error e → e = .linAlgError ∨ e = .notImplemented := by
      intro A y e h
      unfold solve1 at h
      split at h
      · exact Or.inl (Except.error.inj h).symm
      · cases h
    intro t ht
    simp only [run, List.mem_cons, List.not_mem_nil, or_false] at ht
    rcases ht with rfl | rfl
    · exact ⟨_, fun _ _ _ _ _ => rfl, by decide, hs⟩
    · exact ⟨_, fun _ _ _ _ _ => rfl, by decide, hs⟩

/-- what is compared -/
def short (x : Py (List (Nat × Row ℚ Nat))) : Py (List (Nat × ℚ × ℚ × Nat)) := x.map (List.map (fun r => (r.1, r.2.z, r.2.chi2, r.2.spectype)))

/-- the run in one process: eight rows, those of target 7 without redshift 3 -/
theorem serial_run : short (fullCatalogue run targets [7, 5] .serial) =
    .ok [(7, 2, 0, 1), (7, 1, 1, 0), (7, 7 / 2, 9999999, 0), (7, 1 / 2, 9999999, 1), (5, 1, 1 / 4, 0), (5, 2, 5 / 8, 1), (5, 3, 1, 0), (5, 1 / 2, 9999999, 1)] := by decide +kernel

/-- the rows of target 5 on its own -/
theorem alone : brief (measureTarget (measureCfg run 5) [tmpl false, tmplB 1] data) = .ok [(1, 1 / 4, 0, 6, 3 / 8), (2, 5 / 8, 1, 6, 3 / 8), (3, 1, 0, 6, 0), (1 / 2, 9999999, 1, 34, 0)] := by decide +kernel

/-- two MPI ranks, target 7 on rank 0 and target 5 on rank 1, are a possible way of doing the run, and it succeeds with the same table -/
example : ∃ (way : RunWay Nat (List (FitSpectrum Unit ℚ) × Nat) ℚ) (rows : List (Nat × Row ℚ Nat)), way ≠ .serial ∧ PossibleWay run targets way ∧ fullCatalogue run targets [7, 5] way = .ok rows ∧ rows.length = 8 := by
  obtain ⟨l, hl⟩ := ringRun_exists ([0, 1, 2, 3, 4] : List ℚ) 2 (by decide) (fun r => ⟨r, if r = 0 then [0, 1, 2] else [3, 4]⟩) (by
    intro r hr
    have : r = 0 ∨ r = 1 := by omega
    rcases this with rfl | rfl <;> rfl)
  have hway : PossibleWay run targets (.mpi [[(7, data2, 70)], [(5, data, 50)]] (fun _ => l)) := by
    refine ⟨List.Perm.swap _ _ _, ?_⟩
    intro t ht
    simp only [run, List.mem_cons, List.not_mem_nil, or_false] at ht
    rcases ht with rfl | rfl <;> exact hl
  cases hrun : fullCatalogue run targets [7, 5] .serial with
  | error e => have := serial_run; rw [hrun] at this; cases this
  | ok rows =>
    refine ⟨_, rows, by simp, hway, (C117_any_way run targets good (by decide) [7, 5] (by decide) _ hway rows).2 hrun, ?_⟩
    have := serial_run
    rw [hrun] at this
    have := congrArg List.length (Except.ok.inj this)
    simpa using this

end Ex
end FullRun
end Redrock
