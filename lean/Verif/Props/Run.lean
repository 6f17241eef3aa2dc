import Verif.Lemmas.Run
import Verif.Props.Work
import Mathlib.Algebra.Order.Field.Rat

/-!
C92: the redshift catalogue does not depend on how the run is distributed (one process, MPI ranks, multiprocessing).
C93: reusing a scan.
-/
namespace Redrock
set_option linter.unusedSectionVars false
set_option synthInstance.maxSize 2000
namespace Run

section
variable {ι T Z R F M : Type} [DecidableEq ι]

/-! ### specification -/

/-- What the final table has to be made of, given the scan `scan e t` of every target with every template: for every target of `allIds`, in that order, one fit per template in the order of `types`, each
the fit of that target's own data with the scan of that target (with its prior), and the target's own metadata. -/
def IsCatalogueFrom (c : RunCfg ι T Z R F M) (types : List (RunTemplate Z)) (scan : ι × T → RunTemplate Z → List R) (targets : List (ι × T)) (allIds : List ι)
    (cat : List (ι × List (PyStr × F) × Option M)) : Prop :=
  List.Forall₂ (fun tid row => row.1 = tid ∧ ∃ tg, (tid, tg) ∈ targets ∧ row.2.2 = some (c.mdOf tg) ∧
    List.Forall₂ (fun t x => x.1 = t.fulltype ∧ c.fitz tg t (c.prior tid t.redshifts (scan (tid, tg) t)) = .ok x.2) types row.2.1) allIds cat

/-- The catalogue of the run: the scan is the scan over all redshifts of the template. Nothing here knows about processes. -/
def IsCatalogue (c : RunCfg ι T Z R F M) (targets : List (ι × T)) (allIds : List ι) (cat : List (ι × List (PyStr × F) × Option M)) : Prop :=
  IsCatalogueFrom c c.templates (fun e t => t.redshifts.map (c.f t e.2)) targets allIds cat

/-- The templates have different full types, and are fitted in some order. -/
structure GoodCfg (c : RunCfg ι T Z R F M) : Prop where
  types : (c.templates.map (·.fulltype)).Nodup
  sorted : c.sorted.Perm c.templates

/-- The slices `log 0 .. log (n-1)` that the ranks processed come from a complete run of the ring of `n` ranks (any interleaving, any buffering) over the redshifts `zs`. -/
def RingRun (zs : List Z) (n : Nat) (log : Nat → List (Piece Z)) : Prop :=
  ∃ (p : Nat → Piece Z) (strict : Bool) (k : Nat) (s : Net Z), (∀ r, r < n → DistTemplate.initPiece zs n r = .ok (p r)) ∧ Net.Run n strict k (Net.init p) s ∧
    ∀ r, r < n → s.pc r = .finished ∧ log r = s.log r

/-! ### lemmas -/

theorem collect_iff (c : RunCfg ι T Z R F M) (types : List (RunTemplate Z)) (scan : ι × T → RunTemplate Z → List R) (L : List (ι × T)) (hn : (L.map (·.1)).Nodup) (allIds : List ι) (hids : ∀ i ∈ allIds, i ∈ L.map (·.1)) (D : PyDict ι (RunResult Z R F M))
    (hok : ∀ t ∈ types, ∀ tg ∈ L, ∃ z, c.fitz tg.2 t (c.prior tg.1 t.redshifts (scan tg t)) = .ok z)
    (hD : ∀ e ∈ L, ∃ r : RunResult Z R F M, PyDict.get D e.1 = .ok r ∧ r.md = some (c.mdOf e.2) ∧
      r.scans.map (fun s => (s.1, s.2.zfit)) = types.map (fun t => (t.fulltype, (c.fitz e.2 t (c.prior e.1 t.redshifts (scan e t))).toOption)))
    (cat : List (ι × List (PyStr × F) × Option M)) : collectFits allIds D = .ok cat ↔ IsCatalogueFrom c types scan L allIds cat := by
  unfold collectFits IsCatalogueFrom
  rw [mapM_ok_iff]
  have key : ∀ tid ∈ allIds, ∀ row : ι × List (PyStr × F) × Option M, ((do
      let r ← PyDict.get D tid
      let fs ← r.scans.mapM entryFit
      return (tid, fs, r.md)) = (Except.ok row : Py _)) ↔ (row.1 = tid ∧ ∃ tg, (tid, tg) ∈ L ∧ row.2.2 = some (c.mdOf tg) ∧
        List.Forall₂ (fun t x => x.1 = t.fulltype ∧ c.fitz tg t (c.prior tid t.redshifts (scan (tid, tg) t)) = .ok x.2) types row.2.1) := by
    intro tid htid row
    obtain ⟨rid, rfs, rmd⟩ := row
    obtain ⟨e, he, hee⟩ := List.mem_map.1 (hids tid htid)
    subst hee
    obtain ⟨r, hr, hmd, hsc⟩ := hD e he
    rw [hr]
    simp only [bind, Except.bind]
    have hfits : ∀ fs, r.scans.mapM entryFit = .ok fs ↔ List.Forall₂ (fun t (x : PyStr × F) => x.1 = t.fulltype ∧ c.fitz e.2 t (c.prior e.1 t.redshifts (scan e t)) = .ok x.2) types fs := by
      intro fs
      rw [mapM_ok_iff]
      have hok' : ∀ t ∈ types, ∃ z, c.fitz e.2 t (c.prior e.1 t.redshifts (scan e t)) = .ok z := fun t ht => hok t ht e he
      generalize types = ts at hsc hok'
      generalize r.scans = ss at hsc
      induction ts generalizing ss fs with
      | nil =>
        have : ss = [] := by simpa using hsc
        subst this
        constructor <;> intro h <;> cases h <;> exact .nil
      | cons t ts ih =>
        cases ss with
        | nil => simp at hsc
        | cons s ss =>
          simp only [List.map_cons, List.cons.injEq, Prod.mk.injEq] at hsc
          obtain ⟨⟨h1, h2⟩, h3⟩ := hsc
          obtain ⟨z, hz⟩ := hok' t (by simp)
          have hs : entryFit s = .ok (t.fulltype, z) := by
            unfold entryFit; rw [h2, hz]; simp [Except.toOption, h1]
          constructor
          · intro h
            cases h with
            | @cons _ x _ xs a b =>
              rw [hs] at a
              simp only [Except.ok.injEq] at a
              subst a
              exact .cons ⟨rfl, hz⟩ ((ih xs (fun u hu => hok' u (by simp [hu])) ss h3).1 b)
          · intro h
            cases h with
            | @cons _ x _ xs a b =>
              obtain ⟨x1, x2⟩ := x
              obtain ⟨a1, a2⟩ := a
              simp only at a1 a2
              rw [hz] at a2
              simp only [Except.ok.injEq] at a2
              subst a1; subst a2
              exact .cons hs ((ih xs (fun u hu => hok' u (by simp [hu])) ss h3).2 b)
    constructor
    · intro h
      cases hf : r.scans.mapM entryFit with
      | error er => rw [hf] at h; simp at h
      | ok fs =>
        rw [hf] at h
        simp only [pure, Except.pure, Except.ok.injEq, Prod.mk.injEq] at h
        obtain ⟨h1, h2, h3⟩ := h
        subst h2
        exact ⟨h1.symm, e.2, he, by rw [← h3]; exact hmd, (hfits fs).1 hf⟩
    · rintro ⟨h1, tg, htg, h2, h3⟩
      have : e = (e.1, tg) := List.inj_on_of_nodup_map hn he htg rfl
      have htg' : tg = e.2 := by rw [this]
      subst htg'
      rw [(hfits rfs).2 h3]
      simp only [pure, Except.pure]
      rw [h1, h2, hmd]
  clear hids
  constructor
  · intro h
    induction h with
    | nil => exact .nil
    | @cons a b as bs h1 _ ih => exact .cons ((key a (by simp) b).1 h1) (ih (fun tg htg => key tg (by simp [htg])))
  · intro h
    induction h with
    | nil => exact .nil
    | @cons a b as bs h1 _ ih => exact .cons ((key a (by simp) b).2 h1) (ih (fun tg htg => key tg (by simp [htg])))

/-- a catalogue exists only if all fits succeed -/
theorem fits_of_catalogue (c : RunCfg ι T Z R F M) (types : List (RunTemplate Z)) (scan : ι × T → RunTemplate Z → List R) (L : List (ι × T)) (hn : (L.map (·.1)).Nodup) (allIds : List ι) (hids : allIds.Perm (L.map (·.1))) (cat : List (ι × List (PyStr × F) × Option M))
    (h : IsCatalogueFrom c types scan L allIds cat) : ∀ t ∈ types, ∀ tg ∈ L, ∃ z, c.fitz tg.2 t (c.prior tg.1 t.redshifts (scan tg t)) = .ok z := by
  intro t ht tg htg
  have hmem : tg.1 ∈ allIds := hids.mem_iff.2 (List.mem_map.2 ⟨tg, htg, rfl⟩)
  clear hids
  unfold IsCatalogueFrom at h
  induction h with
  | nil => simp at hmem
  | @cons a b as bs h1 _ ih =>
    rcases List.mem_cons.1 hmem with e | h'
    · obtain ⟨_, tg', h2, _, h3⟩ := h1
      have : tg = (a, tg') := List.inj_on_of_nodup_map hn htg h2 e
      subst this
      clear ih
      generalize types = ts at h3 ht
      generalize b.2.1 = fs at h3
      induction h3 with
      | nil => simp at ht
      | cons x _ ih =>
        rcases List.mem_cons.1 ht with rfl | h''
        · exact ⟨_, x.2⟩
        · exact ih h''
    · exact ih h'

theorem forall₂_exists {α β : Type} {P : α → β → Prop} {xs : List α} {ys : List β} (h : List.Forall₂ P xs ys) : ∀ x ∈ xs, ∃ y, P x y := by
  induction h with
  | nil => intro x hx; simp at hx
  | cons a _ ih =>
    intro x hx
    rcases List.mem_cons.1 hx with rfl | h'
    · exact ⟨_, a⟩
    · exact ih x h'

theorem state_lookup (c : RunCfg ι T Z R F M) (types : List (RunTemplate Z)) (scan : ι × T → RunTemplate Z → List R) (L : List (ι × T)) (hn : (L.map (·.1)).Nodup)
    (rows : ι × T → RunTemplate Z → List R) (fits : ι × T → RunTemplate Z → Option F) (md : ι × T → Option M)
    (hfits : ∀ e ∈ L, ∀ t ∈ types, fits e t = (c.fitz e.2 t (c.prior e.1 t.redshifts (scan e t))).toOption) (hmd : ∀ e ∈ L, md e = some (c.mdOf e.2)) :
    ∀ e ∈ L, ∃ r : RunResult Z R F M, PyDict.get (stateOf L types rows fits md) e.1 = .ok r ∧ r.md = some (c.mdOf e.2) ∧
      r.scans.map (fun s => (s.1, s.2.zfit)) = types.map (fun t => (t.fulltype, (c.fitz e.2 t (c.prior e.1 t.redshifts (scan e t))).toOption)) := by
  intro e he
  refine ⟨_, get_map L (·.1) _ hn e he, hmd e he, ?_⟩
  simp only [List.map_map]
  apply List.map_congr_left
  intro t ht
  simp [hfits e he t ht]

theorem scan_ok (f : T → Z → R) (L : List (ι × T)) (hn : (L.map (·.1)).Nodup) (zs : List Z) :
    (∀ e ∈ L, PyDict.get (scanSpec f L zs) e.1 = .ok (zs.map (f e.2))) ∧ (PyDict.keys (scanSpec f L zs)).Perm (L.map (·.1)) := by
  constructor
  · intro e he
    exact get_map L (·.1) (fun e => zs.map (f e.2)) hn e he
  · simp [scanSpec, PyDict.keys, Function.comp_def]

/-! ### C92 -/

/-- **C92** one process: the run returns a catalogue exactly if every fit succeeds, and it is the specified one. -/
theorem C92_serial (c : RunCfg ι T Z R F M) (hc : GoodCfg c) (targets : List (ι × T)) (hn : (targets.map (·.1)).Nodup) (allIds : List ι) (hids : allIds.Perm (targets.map (·.1)))
    (cat : List (ι × List (PyStr × F) × Option M)) : serialRun c targets allIds = .ok cat ↔ IsCatalogue c targets allIds cat := by
  have h0 := calcZchi2Targets_eq (F := F) (M := M) c.le c.f targets hn c.templates hc.types (fun t => scanSerial (c.f t) (targets.map (·.1)) (targets.map (·.2)) t.redshifts)
    (fun t _ => ⟨_, C06_serial_scan (c.f t) targets hn t.redshifts, scan_ok (c.f t) targets hn t.redshifts⟩)
  unfold serialRun
  rw [h0]
  simp only [bind, Except.bind]
  have hst : (targets.map (fun e => (e.1, (⟨c.templates.map (fun t => (t.fulltype, ⟨t.redshifts, t.redshifts.map (c.f t e.2), none⟩)), none⟩ : RunResult Z R F M)))) =
      stateOf targets c.templates (fun e t => t.redshifts.map (c.f t e.2)) (fun _ _ => none) (fun _ => none) := rfl
  rw [hst]
  have hr := fun res => rankFinish_iff c.prior c.fitz c.mdOf c.sorted targets targets hn c.templates hc.types (fun e t => t.redshifts.map (c.f t e.2)) (fun x h => h)
    (fun t ht => hc.sorted.mem_iff.1 ht) res
  have hfin : ∀ res, rankFinish c.prior c.fitz c.mdOf c.sorted targets (stateOf targets c.templates (fun e t => t.redshifts.map (c.f t e.2)) (fun _ _ => none) (fun _ => none)) = .ok res →
      (collectFits allIds res = .ok cat ↔ IsCatalogue c targets allIds cat) := by
    intro res h
    obtain ⟨a, b⟩ := (hr res).1 h
    have hok : ∀ t ∈ c.templates, ∀ tg ∈ targets, ∃ z, c.fitz tg.2 t (c.prior tg.1 t.redshifts (t.redshifts.map (c.f t tg.2))) = .ok z :=
      fun t ht tg htg => a t (hc.sorted.mem_iff.2 ht) tg htg
    rw [b]
    refine collect_iff c c.templates _ targets hn allIds (fun i hi => hids.mem_iff.1 hi) _ hok ?_ cat
    apply state_lookup c c.templates (fun e t => t.redshifts.map (c.f t e.2)) targets hn
    · intro e he t ht
      rw [if_pos ⟨List.mem_map.2 ⟨e, he, rfl⟩, List.mem_map.2 ⟨t, hc.sorted.mem_iff.2 ht, rfl⟩⟩]
    · intro e he
      rw [if_pos (List.mem_map.2 ⟨e, he, rfl⟩)]
  cases h1 : rankFinish c.prior c.fitz c.mdOf c.sorted targets (stateOf targets c.templates (fun e t => t.redshifts.map (c.f t e.2)) (fun _ _ => none) (fun _ => none)) with
  | error e =>
    simp only
    constructor
    · intro h; simp at h
    · intro h
      have hok := fits_of_catalogue c c.templates (fun e t => t.redshifts.map (c.f t e.2)) targets hn allIds hids cat h
      have := (hr _).2 ⟨fun t ht tg htg => hok t (hc.sorted.mem_iff.1 ht) tg htg, rfl⟩
      rw [h1] at this; simp at this
  | ok res =>
    obtain ⟨_, b⟩ := (hr res).1 h1
    have hk : (PyDict.keys res).Nodup := by rw [b, keys_stateOf]; exact hn
    have hg : gatherRun [res] = .ok res := by
      rw [gatherRun_eq [res] (by intro d hd; simp at hd; subst hd; exact hk), C09_gather_all [res] (by simpa using hk)]; simp
    simp only [hg]
    exact hfin res h1

/-- the catalogue of a run on several ranks, if every rank scans its targets at all redshifts -/
theorem mpi_iff_of_scan (c : RunCfg ι T Z R F M) (hc : GoodCfg c) (locs : List (List (ι × T))) (targets : List (ι × T)) (hn : (targets.map (·.1)).Nodup) (hpart : locs.flatten.Perm targets)
    (allIds : List ι) (hids : allIds.Perm (targets.map (·.1))) (log : RunTemplate Z → Nat → List (Piece Z)) (hlog : ∀ r l, locs[r]? = some l → ∀ t ∈ c.templates, ∃ zd, scanPieces (c.f t) (l.map (·.1)) (l.map (·.2)) (log t r) = .ok zd ∧
      (∀ e ∈ l, PyDict.get zd e.1 = .ok (t.redshifts.map (c.f t e.2))) ∧ (PyDict.keys zd).Perm (l.map (·.1)))
    (cat : List (ι × List (PyStr × F) × Option M)) : mpiRun c locs log allIds = .ok cat ↔ IsCatalogue c targets allIds cat := by
  have hnf : (locs.flatten.map (·.1)).Nodup := (hpart.map _).nodup_iff.2 hn
  have hcat : IsCatalogue c targets allIds cat ↔ IsCatalogue c locs.flatten allIds cat := by
    unfold IsCatalogue IsCatalogueFrom
    constructor <;> intro h <;> refine h.imp ?_ <;> rintro i row ⟨a, tg, b, d⟩
    · exact ⟨a, tg, hpart.mem_iff.2 b, d⟩
    · exact ⟨a, tg, hpart.mem_iff.1 b, d⟩
  rw [hcat]
  have hidsf : allIds.Perm (locs.flatten.map (·.1)) := hids.trans (hpart.map _).symm
  have hnl : ∀ l ∈ locs, (l.map (·.1)).Nodup := by
    intro l hl
    exact hnf.sublist ((List.sublist_flatten_of_mem hl).map _)
  -- the scan of one rank
  have hscan : ∀ lr ∈ locs.zipIdx, (calcZchi2Targets c.le (fun t => scanPieces (c.f t) (lr.1.map (·.1)) (lr.1.map (·.2)) (log t lr.2)) c.templates (lr.1.map (·.1)) :
      Py (PyDict ι (RunResult Z R F M))) = .ok (stateOf lr.1 c.templates (fun e t => t.redshifts.map (c.f t e.2)) (fun _ _ => none) (fun _ => none)) := by
    rintro ⟨l, r⟩ hlr
    obtain ⟨hr1, hr2⟩ := List.mem_zipIdx' hlr
    have hl : l ∈ locs := by rw [hr2]; exact List.getElem_mem _
    simp only
    apply calcZchi2Targets_eq (F := F) (M := M) c.le c.f l (hnl l hl) c.templates hc.types
    intro t ht
    exact hlog r l (by rw [hr2]; exact List.getElem?_eq_getElem _) t ht
  -- the finished results of one rank
  let fin : List (ι × T) → PyDict ι (RunResult Z R F M) := fun l => stateOf l c.templates (fun e t => c.prior e.1 t.redshifts (t.redshifts.map (c.f t e.2)))
    (fun e u => (c.fitz e.2 u (c.prior e.1 u.redshifts (u.redshifts.map (c.f u e.2)))).toOption) (fun e => some (c.mdOf e.2))
  have hrank : ∀ lr ∈ locs.zipIdx, ∀ res, (do
      let res ← calcZchi2Targets c.le (fun t => scanPieces (c.f t) (lr.1.map (·.1)) (lr.1.map (·.2)) (log t lr.2)) c.templates (lr.1.map (·.1))
      rankFinish c.prior c.fitz c.mdOf c.sorted lr.1 res : Py (PyDict ι (RunResult Z R F M))) = .ok res ↔
      ((∀ t ∈ c.templates, ∀ tg ∈ lr.1, ∃ z, c.fitz tg.2 t (c.prior tg.1 t.redshifts (t.redshifts.map (c.f t tg.2))) = .ok z) ∧ res = fin lr.1) := by
    intro lr hlr res
    rw [hscan lr hlr]
    simp only [bind, Except.bind]
    obtain ⟨l, r⟩ := lr
    have hl : l ∈ locs := by obtain ⟨hr1, hr2⟩ := List.mem_zipIdx' hlr; rw [hr2]; exact List.getElem_mem _
    rw [rankFinish_iff c.prior c.fitz c.mdOf c.sorted l l (hnl l hl) c.templates hc.types _ (fun x h => h) (fun t ht => hc.sorted.mem_iff.1 ht) res]
    have hfe : stateOf l c.templates (fun e t => c.prior e.1 t.redshifts (t.redshifts.map (c.f t e.2)))
        (fun e u => if e.1 ∈ l.map (·.1) ∧ u.fulltype ∈ c.sorted.map (·.fulltype) then (c.fitz e.2 u (c.prior e.1 u.redshifts (u.redshifts.map (c.f u e.2)))).toOption else none)
        (fun e => if e.1 ∈ l.map (·.1) then some (c.mdOf e.2) else none) = fin l := by
      unfold stateOf fin stateOf
      apply List.map_congr_left
      intro e he
      have h1 : e.1 ∈ l.map (·.1) := List.mem_map.2 ⟨e, he, rfl⟩
      simp only [h1, true_and, if_true]
      congr 2
      apply List.map_congr_left
      intro u hu
      have h2 : u.fulltype ∈ c.sorted.map (·.fulltype) := List.mem_map.2 ⟨u, hc.sorted.mem_iff.2 hu, rfl⟩
      simp only [h2, if_true]
    rw [hfe]
    constructor
    · rintro ⟨a, b⟩; exact ⟨fun t ht tg htg => a t (hc.sorted.mem_iff.2 ht) tg htg, b⟩
    · rintro ⟨a, b⟩; exact ⟨fun t ht tg htg => a t (hc.sorted.mem_iff.1 ht) tg htg, b⟩
  have hfinal : (∀ t ∈ c.templates, ∀ tg ∈ locs.flatten, ∃ z, c.fitz tg.2 t (c.prior tg.1 t.redshifts (t.redshifts.map (c.f t tg.2))) = .ok z) →
      ∃ all, gatherRun (locs.map fin) = .ok all ∧ (collectFits allIds all = .ok cat ↔ IsCatalogue c locs.flatten allIds cat) := by
    intro hok
    have hkeys : ∀ l, PyDict.keys (fin l) = l.map (·.1) := fun l => keys_stateOf _ _ _ _ _
    have hflat : (locs.map fin).flatten = stateOf locs.flatten c.templates (fun e t => c.prior e.1 t.redshifts (t.redshifts.map (c.f t e.2)))
        (fun e u => (c.fitz e.2 u (c.prior e.1 u.redshifts (u.redshifts.map (c.f u e.2)))).toOption) (fun e => some (c.mdOf e.2)) := by
      unfold fin stateOf
      rw [List.map_flatten]
    refine ⟨(locs.map fin).flatten, ?_, ?_⟩
    · rw [gatherRun_eq, C09_gather_all]
      · rw [hflat, keys_stateOf]; exact hnf
      · intro d hd
        obtain ⟨l, hl, rfl⟩ := List.mem_map.1 hd
        rw [hkeys]; exact hnl l hl
    · rw [hflat]
      refine collect_iff c c.templates (fun e t => t.redshifts.map (c.f t e.2)) locs.flatten hnf allIds (fun i hi => hidsf.mem_iff.1 hi) _ hok ?_ cat
      exact state_lookup c c.templates (fun e t => t.redshifts.map (c.f t e.2)) locs.flatten hnf _ _ _ (fun e he t ht => rfl) (fun e he => rfl)
  unfold mpiRun
  constructor
  · intro h
    cases hm : locs.zipIdx.mapM (fun lr => (do
      let res ← calcZchi2Targets c.le (fun t => scanPieces (c.f t) (lr.1.map (·.1)) (lr.1.map (·.2)) (log t lr.2)) c.templates (lr.1.map (·.1))
      rankFinish c.prior c.fitz c.mdOf c.sorted lr.1 res : Py (PyDict ι (RunResult Z R F M)))) with
    | error e => rw [hm] at h; simp [bind, Except.bind] at h
    | ok per =>
      rw [hm] at h
      rw [mapM_ok_iff] at hm
      have hper : per = locs.map fin ∧ ∀ l ∈ locs, ∀ t ∈ c.templates, ∀ tg ∈ l, ∃ z, c.fitz tg.2 t (c.prior tg.1 t.redshifts (t.redshifts.map (c.f t tg.2))) = .ok z := by
        have h2 : List.Forall₂ (fun lr res => (∀ t ∈ c.templates, ∀ tg ∈ lr.1, ∃ z, c.fitz tg.2 t (c.prior tg.1 t.redshifts (t.redshifts.map (c.f t tg.2))) = .ok z) ∧ res = fin lr.1) locs.zipIdx per := by
          clear h hfinal hcat hpart hlog hscan
          generalize locs.zipIdx = zs at hm hrank
          induction hm with
          | nil => exact .nil
          | @cons a b as bs x _ ih => exact .cons ((hrank a (by simp) b).1 x) (ih (fun lr hlr => hrank lr (by simp [hlr])))
        have h3 : ∀ (xs : List (List (ι × T) × Nat)) (ys : List (PyDict ι (RunResult Z R F M))),
            List.Forall₂ (fun lr res => (∀ t ∈ c.templates, ∀ tg ∈ lr.1, ∃ z, c.fitz tg.2 t (c.prior tg.1 t.redshifts (t.redshifts.map (c.f t tg.2))) = .ok z) ∧ res = fin lr.1) xs ys →
            ys = (xs.map (·.1)).map fin ∧ ∀ l ∈ xs.map (·.1), ∀ t ∈ c.templates, ∀ tg ∈ l, ∃ z, c.fitz tg.2 t (c.prior tg.1 t.redshifts (t.redshifts.map (c.f t tg.2))) = .ok z := by
          intro xs ys h
          induction h with
          | nil => simp
          | cons a _ ih =>
            obtain ⟨i1, i2⟩ := ih
            refine ⟨by rw [i1, a.2]; rfl, ?_⟩
            intro l hl
            rcases List.mem_cons.1 hl with e | h'
            · subst e; exact a.1
            · exact i2 l h'
        have h4 := h3 _ _ h2
        rw [List.zipIdx_map_fst] at h4
        exact h4
      obtain ⟨hp1, hp2⟩ := hper
      obtain ⟨all, hall, hiff⟩ := hfinal (fun t ht tg htg => by
        obtain ⟨l, hl, htl⟩ := List.mem_flatten.1 htg
        exact hp2 l hl t ht tg htl)
      rw [hp1] at h
      simp only [bind, Except.bind, hall] at h
      exact hiff.1 h
  · intro h
    have hok := fits_of_catalogue c c.templates (fun e t => t.redshifts.map (c.f t e.2)) locs.flatten hnf allIds hidsf cat h
    obtain ⟨all, hall, hiff⟩ := hfinal hok
    have hm : locs.zipIdx.mapM (fun lr => (do
      let res ← calcZchi2Targets c.le (fun t => scanPieces (c.f t) (lr.1.map (·.1)) (lr.1.map (·.2)) (log t lr.2)) c.templates (lr.1.map (·.1))
      rankFinish c.prior c.fitz c.mdOf c.sorted lr.1 res : Py (PyDict ι (RunResult Z R F M)))) = .ok (locs.map fin) := by
      rw [mapM_ok_iff]
      have h5 : ∀ lr ∈ locs.zipIdx, (do
          let res ← calcZchi2Targets c.le (fun t => scanPieces (c.f t) (lr.1.map (·.1)) (lr.1.map (·.2)) (log t lr.2)) c.templates (lr.1.map (·.1))
          rankFinish c.prior c.fitz c.mdOf c.sorted lr.1 res : Py (PyDict ι (RunResult Z R F M))) = .ok (fin lr.1) := by
        intro lr hlr
        refine (hrank lr hlr _).2 ⟨?_, rfl⟩
        obtain ⟨l, r⟩ := lr
        have hl : l ∈ locs := by obtain ⟨hr1, hr2⟩ := List.mem_zipIdx' hlr; rw [hr2]; exact List.getElem_mem _
        intro t ht tg htg
        exact hok t ht tg (List.mem_flatten.2 ⟨l, hl, htg⟩)
      have h6 : locs.map fin = locs.zipIdx.map (fun lr => fin lr.1) := by
        conv_lhs => rw [← List.zipIdx_map_fst 0 locs]
        rw [List.map_map]; rfl
      rw [h6]
      clear hrank hscan hfinal h6 hall hiff
      generalize locs.zipIdx = zs at h5
      induction zs with
      | nil => exact .nil
      | cons a as ih => exact .cons (h5 a (by simp)) (ih (fun lr hlr => h5 lr (by simp [hlr])))
    rw [hm]
    simp only [bind, Except.bind, hall]
    exact hiff.2 h

/-- **C92** MPI: for any number of ranks, any distribution of the targets over them (also empty ranks), any interleaving of the messages of the scans: the run returns a catalogue exactly if every fit
succeeds, and it is the specified one. -/
theorem C92_mpi (c : RunCfg ι T Z R F M) (hc : GoodCfg c) (locs : List (List (ι × T))) (targets : List (ι × T)) (hn : (targets.map (·.1)).Nodup) (hpart : locs.flatten.Perm targets)
    (allIds : List ι) (hids : allIds.Perm (targets.map (·.1))) (log : RunTemplate Z → Nat → List (Piece Z)) (hlog : ∀ t ∈ c.templates, RingRun t.redshifts locs.length (log t))
    (cat : List (ι × List (PyStr × F) × Option M)) : mpiRun c locs log allIds = .ok cat ↔ IsCatalogue c targets allIds cat := by
  have hnf : (locs.flatten.map (·.1)).Nodup := (hpart.map _).nodup_iff.2 hn
  refine mpi_iff_of_scan c hc locs targets hn hpart allIds hids log ?_ cat
  intro r l hl t ht
  have hlm := List.mem_of_getElem? hl
  have hr1 : r < locs.length := (List.getElem?_eq_some_iff.1 hl).1
  have hnl : (l.map (·.1)).Nodup := hnf.sublist ((List.sublist_flatten_of_mem hlm).map _)
  obtain ⟨p, strict, k, s, hp, hrun, hfin⟩ := hlog t ht
  obtain ⟨hf1, hf2⟩ := hfin r hr1
  have := (C06_mpi_scan_eq_serial (c.f t) t.redshifts locs.length (by omega) p hp strict k s hrun r hr1 hf1 l hnl).1
  exact ⟨_, by rw [hf2]; exact this, scan_ok (c.f t) l hnl t.redshifts⟩

/-- **C92** so the number of ranks, the distribution of targets and the schedule have no influence on the catalogue: an MPI run returns it exactly if a single process does, and it is the same. -/
theorem C92_mpi_eq_serial (c : RunCfg ι T Z R F M) (hc : GoodCfg c) (locs : List (List (ι × T))) (targets : List (ι × T)) (hn : (targets.map (·.1)).Nodup) (hpart : locs.flatten.Perm targets)
    (allIds : List ι) (hids : allIds.Perm (targets.map (·.1))) (log : RunTemplate Z → Nat → List (Piece Z)) (hlog : ∀ t ∈ c.templates, RingRun t.redshifts locs.length (log t))
    (cat : List (ι × List (PyStr × F) × Option M)) : mpiRun c locs log allIds = .ok cat ↔ serialRun c targets allIds = .ok cat := by
  rw [C92_mpi c hc locs targets hn hpart allIds hids log hlog cat, C92_serial c hc targets hn allIds hids cat]

/-! ### multiprocessing -/

theorem keys_scanMp (f : T → Z → R) (loc : List (LTarget ι T)) (mpProcs : Nat) (zs : List Z) (arrival : List Nat) (d : PyDict ι (List R)) (h : scanMp f loc mpProcs zs arrival = .ok d) :
    (PyDict.keys d).Nodup := by
  unfold scanMp at h
  cases hd : distributeTargets ℚ mpProcs (loc.map (fun t => (t.id, t.nspec))) none with
  | error e => rw [hd] at h; simp [bind, Except.bind] at h
  | ok mpdist =>
    rw [hd] at h
    simp only [bind, Except.bind] at h
    cases hm : arrival.mapM (mpWorker f loc mpdist zs) with
    | error e => rw [hm] at h; simp at h
    | ok msgs =>
      rw [hm] at h
      simp only [pure, Except.pure, Except.ok.injEq] at h
      subst h
      have hstore : ∀ (res : Nat × List (List R)) (d : PyDict ι (List R)), (PyDict.keys d).Nodup → (PyDict.keys (mpStore mpdist d res)).Nodup := by
        intro res
        unfold mpStore
        generalize ((mpdist[res.1]?).getD []).zip res.2 = xs
        induction xs with
        | nil => intro d h; exact h
        | cons x xs ih => intro d h; exact ih _ (PyDict.keys_nodup_set d h _ _)
      have : ∀ (ms : List (Nat × List (List R))) (d : PyDict ι (List R)), (PyDict.keys d).Nodup → (PyDict.keys (ms.foldl (mpStore mpdist) d)).Nodup := by
        intro ms
        induction ms with
        | nil => intro d h; exact h
        | cons m ms ih => intro d h; exact ih _ (hstore m d h)
      exact this msgs [] (by simp [PyDict.keys])

/-- results of one process with all fits done and the metadata set: what the table is -/
theorem finish_table (c : RunCfg ι T Z R F M) (types : List (RunTemplate Z)) (hty : (types.map (·.fulltype)).Nodup) (scan : ι × T → RunTemplate Z → List R) (targets : List (ι × T))
    (hn : (targets.map (·.1)).Nodup) (allIds : List ι) (hids : allIds.Perm (targets.map (·.1))) (rows : ι × T → RunTemplate Z → List R) (cat : List (ι × List (PyStr × F) × Option M))
    (hok : ∀ t ∈ types, ∀ tg ∈ targets, ∃ z, c.fitz tg.2 t (c.prior tg.1 t.redshifts (scan tg t)) = .ok z) :
    (do let all ← gatherRun [(stateOf targets types rows (fun e t => (c.fitz e.2 t (c.prior e.1 t.redshifts (scan e t))).toOption) (fun e => some (c.mdOf e.2)) : PyDict ι (RunResult Z R F M))]
        collectFits allIds all) = .ok cat ↔ IsCatalogueFrom c types scan targets allIds cat := by
  have hk : (PyDict.keys (stateOf targets types rows (fun e t => (c.fitz e.2 t (c.prior e.1 t.redshifts (scan e t))).toOption) (fun e => some (c.mdOf e.2)) : PyDict ι (RunResult Z R F M))).Nodup := by
    rw [keys_stateOf]; exact hn
  rw [gatherRun_eq _ (by intro d hd; simp at hd; subst hd; exact hk), C09_gather_all _ (by simpa using hk)]
  simp only [bind, Except.bind, List.flatten_cons, List.flatten_nil, List.append_nil]
  exact collect_iff c types scan targets hn allIds (fun i hi => hids.mem_iff.1 hi) _ hok (state_lookup c types scan targets hn _ _ _ (fun e he t ht => rfl) (fun e he => rfl)) cat

/-- **C92** with multiprocessing (any number of processes, any order in which the workers deliver, in the scan and in the fits): the run returns the specified catalogue exactly if every fit succeeds, provided
the local targets are in order of non-increasing numbers of spectra. Without that the scan gives targets each other's chi2 (`C92_mp_swaps`); the fits themselves never do, since their messages carry the ID. -/
theorem C92_mp_partial (c : RunCfg ι T Z R F M) (hc : GoodCfg c) (loc : List (LTarget ι T)) (hn : (loc.map (·.id)).Nodup) (hsorted : loc.Pairwise (fun a b => b.nspec ≤ a.nspec))
    (mpProcs : Nat) (hmp : 0 < mpProcs) (mpdist : List (List ι)) (hdist : distributeTargets ℚ mpProcs (loc.map (fun t => (t.id, t.nspec))) none = .ok mpdist)
    (arr1 arr2 : RunTemplate Z → List Nat) (h1 : ∀ t, (arr1 t).Perm (mpStarted mpdist mpProcs)) (h2 : ∀ t, (arr2 t).Perm (mpStarted mpdist mpProcs))
    (allIds : List ι) (hids : allIds.Perm (loc.map (·.id))) (cat : List (ι × List (PyStr × F) × Option M)) :
    mpRun c loc mpProcs arr1 arr2 allIds = .ok cat ↔ IsCatalogue c (loc.map (fun t => (t.id, t.data))) allIds cat := by
  set L : List (ι × T) := loc.map (fun t => (t.id, t.data)) with hL
  have hLid : L.map (·.1) = loc.map (·.id) := by rw [hL, List.map_map]; rfl
  have hnL : (L.map (·.1)).Nodup := by rw [hLid]; exact hn
  have hscan : (calcZchi2Targets c.le (fun t => scanMp (c.f t) loc mpProcs t.redshifts (arr1 t)) c.templates (L.map (·.1)) : Py (PyDict ι (RunResult Z R F M))) =
      .ok (stateOf L c.templates (fun e t => t.redshifts.map (c.f t e.2)) (fun _ _ => none) (fun _ => none)) := by
    apply calcZchi2Targets_eq (F := F) (M := M) c.le c.f L hnL c.templates hc.types
    intro t _
    obtain ⟨md, a1, a2⟩ := C07_mp_scan_eq_serial_partial (c.f t) loc hn hsorted mpProcs hmp t.redshifts
    rw [hdist] at a1
    simp only [Except.ok.injEq] at a1
    subst a1
    obtain ⟨d, b1, b2, b3⟩ := a2 (arr1 t) (h1 t)
    refine ⟨d, b1, ?_, ?_⟩
    · intro e he
      obtain ⟨x, hx, rfl⟩ := List.mem_map.1 he
      unfold PyDict.get
      rw [b2 x hx]
    · rw [hLid, List.perm_ext_iff_of_nodup (keys_scanMp _ _ _ _ _ _ b1) hn]
      intro k
      rw [PyDict.mem_keys_iff]
      constructor
      · intro hk
        by_contra hcon
        rw [b3 k hcon] at hk; simp at hk
      · intro hk
        obtain ⟨x, hx, rfl⟩ := List.mem_map.1 hk
        rw [b2 x hx]; rfl
  have hcover : ∀ t ∈ c.sorted, ∀ x ∈ L, ∃ i ∈ arr2 t, x.1 ∈ (mpdist[i]?).getD [] := by
    intro t _ x hx
    obtain ⟨md, c1, c2, c3⟩ := C01_distribute_work_default_partition (K := ℚ) mpProcs ((loc.map (fun t => (t.id, t.nspec))).map (·.1)) (some (fun i => ((((loc.map (fun t => (t.id, t.nspec))).find? (fun e => decide (e.1 = i))).map (·.2)).getD 0 : Nat))) hmp
    have hmd : md = mpdist := by
      have : distributeTargets ℚ mpProcs (loc.map (fun t => (t.id, t.nspec))) none = .ok md := c1
      rw [hdist] at this
      exact (Except.ok.inj this).symm
    subst hmd
    have hm : x.1 ∈ md.flatten := by
      rw [c3.mem_iff, List.map_map]
      have : x.1 ∈ L.map (·.1) := List.mem_map.2 ⟨x, hx, rfl⟩
      rw [hLid] at this; exact this
    obtain ⟨l, hl, hxl⟩ := List.mem_flatten.1 hm
    obtain ⟨i, hi, rfl⟩ := List.getElem_of_mem hl
    have hil : (md[i]?).getD [] = md[i] := by rw [List.getElem?_eq_getElem hi]; rfl
    refine ⟨i, ?_, by rw [hil]; exact hxl⟩
    rw [(h2 t).mem_iff]
    unfold mpStarted
    rw [List.mem_filter]
    refine ⟨List.mem_range.2 (by omega), ?_⟩
    rw [hil]
    cases hcc : md[i] with
    | nil => rw [hcc] at hxl; simp at hxl
    | cons => rfl
  unfold mpRun
  rw [hdist]
  simp only [bind, Except.bind]
  rw [← hLid, hscan, ← hL]
  simp only
  rw [applyPriors_eq]
  have hfits := fun res => mpFitAll_iff (M := M) c.fitz L hnL c.templates hc.types (fun e t => c.prior e.1 t.redshifts (t.redshifts.map (c.f t e.2))) (fun _ => none) mpdist arr2 res c.sorted (fun _ _ => none)
    (fun t ht => hc.sorted.mem_iff.1 ht) hcover
  cases hf : c.sorted.foldlM (mpFitTemplate c.fitz L mpdist arr2)
      (stateOf L c.templates (fun e t => c.prior e.1 t.redshifts (t.redshifts.map (c.f t e.2))) (fun _ _ => none) (fun _ => none) : PyDict ι (RunResult Z R F M)) with
  | error er =>
    simp only
    constructor
    · intro h; simp at h
    · intro h
      have hok := fits_of_catalogue c c.templates (fun e t => t.redshifts.map (c.f t e.2)) L hnL allIds (by rw [hLid]; exact hids) cat h
      have := (hfits _).2 ⟨fun t ht tg htg => hok t (hc.sorted.mem_iff.1 ht) tg htg, rfl⟩
      rw [hf] at this; simp at this
  | ok res =>
    obtain ⟨a, b⟩ := (hfits res).1 hf
    simp only
    rw [b, metaFold' c.mdOf L hnL c.templates _ _ L _ (fun x h => h)]
    simp only
    have hfe : stateOf L c.templates (fun e t => c.prior e.1 t.redshifts (t.redshifts.map (c.f t e.2)))
        (fun e u => if u.fulltype ∈ c.sorted.map (·.fulltype) then (c.fitz e.2 u (c.prior e.1 u.redshifts (u.redshifts.map (c.f u e.2)))).toOption else none)
        (fun e => if e.1 ∈ L.map (·.1) then some (c.mdOf e.2) else none) =
        stateOf L c.templates (fun e t => c.prior e.1 t.redshifts (t.redshifts.map (c.f t e.2))) (fun e u => (c.fitz e.2 u (c.prior e.1 u.redshifts (u.redshifts.map (c.f u e.2)))).toOption)
          (fun e => some (c.mdOf e.2)) := by
      unfold stateOf
      apply List.map_congr_left
      intro e he
      have h1 : e.1 ∈ L.map (·.1) := List.mem_map.2 ⟨e, he, rfl⟩
      simp only [h1, if_true]
      congr 2
      apply List.map_congr_left
      intro u hu
      have h2 : u.fulltype ∈ c.sorted.map (·.fulltype) := List.mem_map.2 ⟨u, hc.sorted.mem_iff.2 hu, rfl⟩
      simp only [h2, if_true]
    rw [hfe]
    exact finish_table c c.templates hc.types (fun e t => t.redshifts.map (c.f t e.2)) L hnL allIds (by rw [hLid]; exact hids) _ cat (fun t ht tg htg => a t (hc.sorted.mem_iff.2 ht) tg htg)

/-- **C92**, the claim about multiprocessing without the condition on the order of the targets (false of the code). -/
def MpRunGivesCatalogue (ι T Z R F M : Type) [DecidableEq ι] : Prop :=
  ∀ (c : RunCfg ι T Z R F M), GoodCfg c → ∀ (loc : List (LTarget ι T)), (loc.map (·.id)).Nodup → ∀ (mpProcs : Nat), 0 < mpProcs → ∀ (mpdist : List (List ι)),
    distributeTargets ℚ mpProcs (loc.map (fun t => (t.id, t.nspec))) none = .ok mpdist → ∀ (arr1 arr2 : RunTemplate Z → List Nat),
    (∀ t, (arr1 t).Perm (mpStarted mpdist mpProcs)) → (∀ t, (arr2 t).Perm (mpStarted mpdist mpProcs)) → ∀ (allIds : List ι), allIds.Perm (loc.map (·.id)) →
    ∀ cat, mpRun c loc mpProcs arr1 arr2 allIds = .ok cat ↔ IsCatalogue c (loc.map (fun t => (t.id, t.data))) allIds cat

/-- `"QSO"` -/
def exQ : PyStr := ['Q', 'S', 'O']

/-- `"GALAXY"` -/
def exG : PyStr := ['G', 'A', 'L', 'A', 'X', 'Y']

/-- Data for examples: targets are numbers, the "chi2" at redshift `z` is target times redshift, a fit is the pair (target, sum of its chi2); two templates. -/
def exCfg : RunCfg Nat Nat Nat Nat (Nat × Nat) Nat where
  templates := [⟨exQ, [1, 2, 3]⟩, ⟨exG, [4, 5]⟩]
  sorted := [⟨exG, [4, 5]⟩, ⟨exQ, [1, 2, 3]⟩]
  f := fun _ tg z => tg * z
  fitz := fun tg _ rows => if tg = 0 then .error .valueError else .ok (tg, rows.sum)
  prior := fun i _ rows => rows.map (· + i)
  mdOf := fun tg => tg + 7
  le := fun a b => decide (a ≤ b)

theorem exCfg_good : GoodCfg exCfg := ⟨by decide, List.Perm.swap _ _ _⟩

/-- three targets, whose fits succeed: the catalogue, from one process -/
theorem ex_serial : serialRun exCfg [(10, 100), (20, 200), (30, 300)] [30, 10, 20] = .ok [(30, [(exQ, (300, 1890)), (exG, (300, 2760))], some 307),
    (10, [(exQ, (100, 630)), (exG, (100, 920))], some 107), (20, [(exQ, (200, 1260)), (exG, (200, 1840))], some 207)] := by decide +kernel

/-- Target 20 gets the chi2 of target 10 and vice versa, as in `C07_mp_scan_swaps_targets`: (200, 660) is the fit of target 20 with the scan of target 10. -/
theorem C92_mp_swaps : ¬ MpRunGivesCatalogue Nat Nat Nat Nat (Nat × Nat) Nat := by
  intro h
  have h1 := h exCfg exCfg_good [⟨10, 1, 100⟩, ⟨20, 2, 200⟩, ⟨30, 3, 300⟩] (by decide) 2 (by decide) [[30], [20, 10]] (by decide +kernel) (fun _ => [0, 1]) (fun _ => [0, 1]) (fun _ => by decide) (fun _ => by decide)
    [30, 10, 20] (by decide) [(30, [(exQ, (300, 1890)), (exG, (300, 2760))], some 307), (10, [(exQ, (100, 1230)), (exG, (100, 1820))], some 107),
      (20, [(exQ, (200, 660)), (exG, (200, 940))], some 207)]
  have h2 : mpRun exCfg [⟨10, 1, 100⟩, ⟨20, 2, 200⟩, ⟨30, 3, 300⟩] 2 (fun _ => [0, 1]) (fun _ => [0, 1]) [30, 10, 20] = .ok [(30, [(exQ, (300, 1890)), (exG, (300, 2760))], some 307),
      (10, [(exQ, (100, 1230)), (exG, (100, 1820))], some 107), (20, [(exQ, (200, 660)), (exG, (200, 940))], some 207)] := by decide +kernel
  have h3 := (C92_serial exCfg exCfg_good [(10, 100), (20, 200), (30, 300)] (by decide) [30, 10, 20] (by decide) _).2 (h1.1 h2)
  rw [ex_serial] at h3
  revert h3; decide +kernel

/-- the conditions of the multiprocessing theorem are met, with a catalogue -/
example : mpRun exCfg [⟨30, 3, 300⟩, ⟨20, 2, 200⟩, ⟨10, 1, 100⟩] 2 (fun _ => [1, 0]) (fun _ => [0, 1]) [30, 10, 20] = .ok [(30, [(exQ, (300, 1890)), (exG, (300, 2760))], some 307),
    (10, [(exQ, (100, 630)), (exG, (100, 920))], some 107), (20, [(exQ, (200, 1260)), (exG, (200, 1840))], some 207)] := by
  rw [C92_mp_partial exCfg exCfg_good [⟨30, 3, 300⟩, ⟨20, 2, 200⟩, ⟨10, 1, 100⟩] (by decide) (by simp) 2 (by decide) [[30], [20, 10]] (by decide +kernel) _ _ (fun _ => by decide) (fun _ => by decide) [30, 10, 20] (by decide)]
  have := (C92_serial exCfg exCfg_good [(30, 300), (20, 200), (10, 100)] (by decide) [30, 10, 20] (by decide)
    [(30, [(exQ, (300, 1890)), (exG, (300, 2760))], some 307), (10, [(exQ, (100, 630)), (exG, (100, 920))], some 107), (20, [(exQ, (200, 1260)), (exG, (200, 1840))], some 207)]).1
    (by decide +kernel)
  exact this

/-- ring runs exist for any template and any number of ranks that is at least one and at most the number of redshifts (the grid pieces exist) -/
theorem ringRun_exists (zs : List Z) (n : Nat) (hn : 0 < n) (p : Nat → Piece Z) (hp : ∀ r, r < n → DistTemplate.initPiece zs n r = .ok (p r)) : ∃ log, RingRun zs n log := by
  obtain ⟨hidx, _⟩ := C04_pieces_cover_grid zs n hn p hp
  obtain ⟨s, h1, h2⟩ := C05_cycle_completes n hn p hidx
  exact ⟨s.log, p, true, _, s, hp, h1, fun r hr => ⟨h2 r hr, rfl⟩⟩

/-- the conditions of the MPI theorem are met: two ranks, the second with two targets; the run returns the catalogue -/
example : ∃ log : RunTemplate Nat → Nat → List (Piece Nat), (∀ t ∈ exCfg.templates, RingRun t.redshifts 2 (log t)) ∧
    mpiRun exCfg [[(20, 200)], [(10, 100), (30, 300)]] log [30, 10, 20] = .ok [(30, [(exQ, (300, 1890)), (exG, (300, 2760))], some 307),
      (10, [(exQ, (100, 630)), (exG, (100, 920))], some 107), (20, [(exQ, (200, 1260)), (exG, (200, 1840))], some 207)] := by
  obtain ⟨l1, h1⟩ := ringRun_exists [1, 2, 3] 2 (by decide) (fun r => ⟨r, if r = 0 then [1, 2] else [3]⟩) (by
    intro r hr
    have : r = 0 ∨ r = 1 := by omega
    rcases this with rfl | rfl <;> rfl)
  obtain ⟨l2, h2⟩ := ringRun_exists [4, 5] 2 (by decide) (fun r => ⟨r, if r = 0 then [4] else [5]⟩) (by
    intro r hr
    have : r = 0 ∨ r = 1 := by omega
    rcases this with rfl | rfl <;> rfl)
  have hlog : ∀ t ∈ exCfg.templates, RingRun t.redshifts 2 ((fun t : RunTemplate Nat => if t.fulltype = exQ then l1 else l2) t) := by
    intro t ht
    simp only [exCfg, List.mem_cons, List.not_mem_nil, or_false] at ht
    rcases ht with rfl | rfl
    · exact h1
    · exact h2
  refine ⟨_, hlog, ?_⟩
  rw [C92_mpi_eq_serial exCfg exCfg_good [[(20, 200)], [(10, 100), (30, 300)]] [(10, 100), (20, 200), (30, 300)] (by decide) (by decide) [30, 10, 20] (by decide) _ hlog]
  exact ex_serial

/-! ### C93: a scan read from a file -/

/-- A scan file: the targets `ids`, the templates `types` (with their redshifts), and for each the scan. -/
def scanFile (ids : List ι) (types : List (RunTemplate Z)) (scan : ι → RunTemplate Z → List R) : PyDict ι (RunResult Z R F M) :=
  ids.map (fun i => (i, ⟨types.map (fun t => (t.fulltype, ⟨t.redshifts, scan i t, none⟩)), none⟩))

theorem scanFile_eq (ids : List ι) (types : List (RunTemplate Z)) (scan : ι → RunTemplate Z → List R) (data : ι → T) :
    (scanFile ids types scan : PyDict ι (RunResult Z R F M)) = stateOf (ids.map (fun i => (i, data i))) types (fun e t => scan e.1 t) (fun _ _ => none) (fun _ => none) := by
  unfold scanFile stateOf
  rw [List.map_map]; rfl

/-- a choice of data for the targets of the file, right for those of the run -/
theorem data_of (targets : List (ι × T)) (hn : (targets.map (·.1)).Nodup) (hne : targets ≠ []) : ∃ data : ι → T, ∀ e ∈ targets, data e.1 = e.2 := by
  obtain ⟨d, hd⟩ := List.exists_mem_of_ne_nil _ hne
  refine ⟨fun i => ((targets.find? (fun e => decide (e.1 = i))).map (·.2)).getD d.2, ?_⟩
  intro e he
  cases hf : targets.find? (fun x => decide (x.1 = e.1)) with
  | none => rw [List.find?_eq_none] at hf; simpa using hf e he
  | some x =>
    have e1 := List.mem_of_find?_eq_some hf
    have e2 := List.find?_some hf
    simp only [decide_eq_true_eq] at e2
    have : x = e := List.inj_on_of_nodup_map hn e1 he e2
    subst this; simp only [hf]; rfl

/-- **C93** one process, a file with the scans of (at least) the targets of the run for exactly the templates of the run, over their redshifts: the run returns a catalogue exactly if the fits succeed, and it
is the catalogue made from the scans in the file plus the prior. -/
theorem C93_file_one_process (c : RunCfg ι T Z R F M) (types : List (RunTemplate Z)) (hty : (types.map (·.fulltype)).Nodup) (hs : c.sorted.Perm types) (ids : List ι) (hnid : ids.Nodup)
    (scan : ι → RunTemplate Z → List R) (targets : List (ι × T)) (hn : (targets.map (·.1)).Nodup) (hin : ∀ e ∈ targets, e.1 ∈ ids) (allIds : List ι) (hids : allIds.Perm (targets.map (·.1)))
    (cat : List (ι × List (PyStr × F) × Option M)) :
    fileRun c [targets] (scanFile ids types scan) allIds = .ok cat ↔ IsCatalogueFrom c types (fun e t => scan e.1 t) targets allIds cat := by
  by_cases hne : targets = []
  · subst hne
    have : allIds = [] := by simpa using hids
    subst this
    have hk : (PyDict.keys (applyPriors c.prior (scanFile ids types scan : PyDict ι (RunResult Z R F M)))).Nodup := by
      simp only [applyPriors, scanFile, PyDict.keys, List.map_map, Function.comp_def]
      simpa using hnid
    have h1 : rankFinish c.prior c.fitz c.mdOf c.sorted ([] : List (ι × T)) (scanFile ids types scan : PyDict ι (RunResult Z R F M)) = .ok (applyPriors c.prior (scanFile ids types scan)) := by
      have h0 : c.sorted.flatMap (fun t => ([] : List (ι × T)).map (fun tg => (t, tg))) = [] := by simp
      unfold rankFinish fitLocal
      rw [h0]; rfl
    have h2 : [([] : List (ι × T))].mapM (fun loc => rankFinish c.prior c.fitz c.mdOf c.sorted loc (scanFile ids types scan : PyDict ι (RunResult Z R F M))) = .ok [applyPriors c.prior (scanFile ids types scan)] := by
      rw [mapM_ok_iff]; exact .cons h1 .nil
    unfold fileRun
    rw [h2]
    simp only [bind, Except.bind]
    rw [gatherRun_eq _ (by intro d hd; simp at hd; subst hd; exact hk)]
    unfold collectFits IsCatalogueFrom
    rw [mapM_ok_iff]
    constructor <;> intro h <;> cases h <;> exact .nil
  obtain ⟨data, hdata⟩ := data_of targets hn hne
  rw [scanFile_eq ids types scan data]
  set L : List (ι × T) := ids.map (fun i => (i, data i)) with hL
  have hLid : L.map (·.1) = ids := by rw [hL, List.map_map]; simp [Function.comp_def]
  have hnL : (L.map (·.1)).Nodup := by rw [hLid]; exact hnid
  have hsub : ∀ x ∈ targets, x ∈ L := by
    intro x hx
    exact List.mem_map.2 ⟨x.1, hin x hx, by rw [hdata x hx]⟩
  have hr := fun res => rankFinish_iff c.prior c.fitz c.mdOf c.sorted targets L hnL types hty (fun e t => scan e.1 t) hsub (fun t ht => hs.mem_iff.1 ht) res
  have hm : ∀ per, [targets].mapM (fun loc => rankFinish c.prior c.fitz c.mdOf c.sorted loc (stateOf L types (fun e t => scan e.1 t) (fun _ _ => none) (fun _ => none))) = .ok per ↔
      ∃ res, rankFinish c.prior c.fitz c.mdOf c.sorted targets (stateOf L types (fun e t => scan e.1 t) (fun _ _ => none) (fun _ => none)) = .ok res ∧ per = [res] := by
    intro per
    rw [mapM_ok_iff]
    constructor
    · intro h
      cases h with
      | cons a b => cases b; exact ⟨_, a, rfl⟩
    · rintro ⟨res, a, rfl⟩
      exact .cons a .nil
  have hfin : (∀ t ∈ c.sorted, ∀ tg ∈ targets, ∃ z, c.fitz tg.2 t (c.prior tg.1 t.redshifts (scan tg.1 t)) = .ok z) →
      ((do let all ← gatherRun [(stateOf L types (fun e t => c.prior e.1 t.redshifts (scan e.1 t))
        (fun (e : ι × T) (u : RunTemplate Z) => if e.1 ∈ targets.map (fun x : ι × T => x.1) ∧ u.fulltype ∈ c.sorted.map (fun x : RunTemplate Z => x.fulltype) then (c.fitz e.2 u (c.prior e.1 u.redshifts (scan e.1 u))).toOption else none)
        (fun (e : ι × T) => if e.1 ∈ targets.map (fun x : ι × T => x.1) then some (c.mdOf e.2) else none) : PyDict ι (RunResult Z R F M))]
           collectFits allIds all) = .ok cat ↔ IsCatalogueFrom c types (fun e t => scan e.1 t) targets allIds cat) := by
    intro hok
    rw [gatherRun_eq _ (by intro d hd; simp at hd; subst hd; rw [keys_stateOf]; exact hnL), C09_gather_all _ (by simp only [List.flatten_cons, List.flatten_nil, List.append_nil]; rw [keys_stateOf]; exact hnL)]
    simp only [bind, Except.bind, List.flatten_cons, List.flatten_nil, List.append_nil]
    refine collect_iff c types (fun e t => scan e.1 t) targets hn allIds (fun i hi => hids.mem_iff.1 hi) _ (fun t ht tg htg => hok t (hs.mem_iff.2 ht) tg htg) ?_ cat
    intro e he
    refine ⟨_, get_map L (·.1) _ hnL e (hsub e he), ?_, ?_⟩
    · simp only; rw [if_pos (List.mem_map.2 ⟨e, he, rfl⟩)]
    · simp only [List.map_map]
      apply List.map_congr_left
      intro t ht
      simp only [Function.comp]
      rw [if_pos ⟨List.mem_map.2 ⟨e, he, rfl⟩, List.mem_map.2 ⟨t, hs.mem_iff.2 ht, rfl⟩⟩]
  unfold fileRun
  constructor
  · intro h
    cases hp : [targets].mapM (fun loc => rankFinish c.prior c.fitz c.mdOf c.sorted loc (stateOf L types (fun e t => scan e.1 t) (fun _ _ => none) (fun _ => none) : PyDict ι (RunResult Z R F M))) with
    | error er => rw [hp] at h; simp [bind, Except.bind] at h
    | ok per =>
      rw [hp] at h
      obtain ⟨res, h1, rfl⟩ := (hm per).1 hp
      obtain ⟨a, rfl⟩ := (hr res).1 h1
      exact (hfin a).1 h
  · intro h
    have hok := fits_of_catalogue c types (fun e t => scan e.1 t) targets hn allIds hids cat h
    have hok' : ∀ t ∈ c.sorted, ∀ tg ∈ targets, ∃ z, c.fitz tg.2 t (c.prior tg.1 t.redshifts (scan tg.1 t)) = .ok z := fun t ht tg htg => hok t (hs.mem_iff.1 ht) tg htg
    rw [(hm _).2 ⟨_, (hr _).2 ⟨hok', rfl⟩, rfl⟩]
    exact (hfin hok').2 h

/-- **C93** so, if the file has the scans themselves, the run gives the catalogue of a run that scans. -/
theorem C93_file_same_catalogue (c : RunCfg ι T Z R F M) (hc : GoodCfg c) (ids : List ι) (hnid : ids.Nodup) (scan : ι → RunTemplate Z → List R) (targets : List (ι × T))
    (hn : (targets.map (·.1)).Nodup) (hin : ∀ e ∈ targets, e.1 ∈ ids) (hscan : ∀ e ∈ targets, ∀ t ∈ c.templates, scan e.1 t = t.redshifts.map (c.f t e.2))
    (allIds : List ι) (hids : allIds.Perm (targets.map (·.1))) (cat : List (ι × List (PyStr × F) × Option M)) :
    fileRun c [targets] (scanFile ids c.templates scan) allIds = .ok cat ↔ serialRun c targets allIds = .ok cat := by
  rw [C93_file_one_process c c.templates hc.types hc.sorted ids hnid scan targets hn hin allIds hids, C92_serial c hc targets hn allIds hids]
  unfold IsCatalogue IsCatalogueFrom
  have key : ∀ tg : T, ∀ tid : ι, (tid, tg) ∈ targets → ∀ fs, List.Forall₂ (fun t (x : PyStr × F) => x.1 = t.fulltype ∧ c.fitz tg t (c.prior tid t.redshifts (scan tid t)) = .ok x.2) c.templates fs ↔
      List.Forall₂ (fun t x => x.1 = t.fulltype ∧ c.fitz tg t (c.prior tid t.redshifts (t.redshifts.map (c.f t tg))) = .ok x.2) c.templates fs := by
    intro tg tid hm fs
    have hsc : ∀ t ∈ c.templates, scan tid t = t.redshifts.map (c.f t tg) := fun t ht => hscan (tid, tg) hm t ht
    generalize c.templates = ts at hsc
    constructor
    · intro h
      induction h with
      | nil => exact .nil
      | @cons a b as bs x _ ih => rw [hsc a (by simp)] at x; exact .cons x (ih (fun t ht => hsc t (by simp [ht])))
    · intro h
      induction h with
      | nil => exact .nil
      | @cons a b as bs x _ ih => rw [← hsc a (by simp)] at x; exact .cons x (ih (fun t ht => hsc t (by simp [ht])))
  constructor <;> intro h <;> refine h.imp ?_ <;> rintro tid row ⟨h1, tg, h2, h3, h4⟩
  · exact ⟨h1, tg, h2, h3, (key tg tid h2 _).1 h4⟩
  · exact ⟨h1, tg, h2, h3, (key tg tid h2 _).2 h4⟩

/-- **C93** but the details file that a run writes has the scans with the prior already added (`applyPriors` works in place), so that reusing it with the same prior adds the prior twice. -/
theorem C93_prior_twice (c : RunCfg ι T Z R F M) (hc : GoodCfg c) (targets : List (ι × T)) (hn : (targets.map (·.1)).Nodup) (allIds : List ι) (hids : allIds.Perm (targets.map (·.1)))
    (scan : ι → RunTemplate Z → List R) (hscan : ∀ e ∈ targets, ∀ t ∈ c.templates, scan e.1 t = c.prior e.1 t.redshifts (t.redshifts.map (c.f t e.2))) (cat : List (ι × List (PyStr × F) × Option M)) :
    fileRun c [targets] (scanFile (targets.map (·.1)) c.templates scan) allIds = .ok cat ↔
      serialRun { c with prior := fun i zs rows => c.prior i zs (c.prior i zs rows) } targets allIds = .ok cat := by
  rw [C93_file_one_process c c.templates hc.types hc.sorted _ hn scan targets hn (fun e he => List.mem_map.2 ⟨e, he, rfl⟩) allIds hids,
    C92_serial { c with prior := fun i zs rows => c.prior i zs (c.prior i zs rows) } ⟨hc.types, hc.sorted⟩ targets hn allIds hids]
  unfold IsCatalogue IsCatalogueFrom
  have key : ∀ tg : T, ∀ tid : ι, (tid, tg) ∈ targets → ∀ fs, List.Forall₂ (fun t (x : PyStr × F) => x.1 = t.fulltype ∧ c.fitz tg t (c.prior tid t.redshifts (scan tid t)) = .ok x.2) c.templates fs ↔
      List.Forall₂ (fun t x => x.1 = t.fulltype ∧ c.fitz tg t (c.prior tid t.redshifts (c.prior tid t.redshifts (t.redshifts.map (c.f t tg)))) = .ok x.2) c.templates fs := by
    intro tg tid hm fs
    have hsc : ∀ t ∈ c.templates, scan tid t = c.prior tid t.redshifts (t.redshifts.map (c.f t tg)) := fun t ht => hscan (tid, tg) hm t ht
    generalize c.templates = ts at hsc
    constructor
    · intro h
      induction h with
      | nil => exact .nil
      | @cons a b as bs x _ ih => rw [hsc a (by simp)] at x; exact .cons x (ih (fun t ht => hsc t (by simp [ht])))
    · intro h
      induction h with
      | nil => exact .nil
      | @cons a b as bs x _ ih => rw [← hsc a (by simp)] at x; exact .cons x (ih (fun t ht => hsc t (by simp [ht])))
  constructor <;> intro h <;> refine h.imp ?_ <;> rintro tid row ⟨h1, tg, h2, h3, h4⟩
  · exact ⟨h1, tg, h2, h3, (key tg tid h2 _).1 h4⟩
  · exact ⟨h1, tg, h2, h3, (key tg tid h2 _).2 h4⟩

/-- rankFinish hands the scans with the prior to the details file -/
theorem C93_details_have_prior (c : RunCfg ι T Z R F M) (hc : GoodCfg c) (targets : List (ι × T)) (hn : (targets.map (·.1)).Nodup) (rows : ι × T → RunTemplate Z → List R) (res : PyDict ι (RunResult Z R F M))
    (h : rankFinish c.prior c.fitz c.mdOf c.sorted targets (stateOf targets c.templates rows (fun _ _ => none) (fun _ => none)) = .ok res) :
    ∀ e ∈ targets, ∃ r, PyDict.get res e.1 = .ok r ∧ ∀ t ∈ c.templates, ∃ x, PyDict.get r.scans t.fulltype = .ok x ∧ x.redshifts = t.redshifts ∧ x.rows = c.prior e.1 t.redshifts (rows e t) := by
  obtain ⟨_, rfl⟩ := (rankFinish_iff c.prior c.fitz c.mdOf c.sorted targets targets hn c.templates hc.types rows (fun x h => h) (fun t ht => hc.sorted.mem_iff.1 ht) res).1 h
  intro e he
  refine ⟨_, get_map targets (·.1) _ hn e he, ?_⟩
  intro t ht
  exact ⟨_, get_map c.templates (·.fulltype) _ hc.types t ht, rfl, rfl⟩

/-- **C93** with two or more MPI ranks the run never completes (`KeyError: 'zfit'`): every rank starts from the whole file, so the last rank's results, in which the other ranks' targets have no fits,
replace theirs. Only if all targets are on the last rank (or the file has no template) can it succeed. -/
theorem C93_file_mpi_fails (c : RunCfg ι T Z R F M) (types : List (RunTemplate Z)) (hty : (types.map (·.fulltype)).Nodup) (hne : types ≠ []) (hs : c.sorted.Perm types) (ids : List ι) (hnid : ids.Nodup)
    (scan : ι → RunTemplate Z → List R) (front : List (List (ι × T))) (last : List (ι × T)) (hn : ((front.flatten ++ last).map (·.1)).Nodup) (hin : ∀ e ∈ front.flatten ++ last, e.1 ∈ ids)
    (hfront : front.flatten ≠ []) (allIds : List ι) (hids : allIds.Perm ((front.flatten ++ last).map (·.1))) (cat : List (ι × List (PyStr × F) × Option M)) :
    fileRun c (front ++ [last]) (scanFile ids types scan) allIds ≠ .ok cat := by
  intro hrun
  obtain ⟨data, hdata⟩ := data_of (front.flatten ++ last) hn (by simp [hfront])
  rw [scanFile_eq ids types scan data] at hrun
  set L : List (ι × T) := ids.map (fun i => (i, data i)) with hL
  have hLid : L.map (·.1) = ids := by rw [hL, List.map_map]; simp [Function.comp_def]
  have hnL : (L.map (·.1)).Nodup := by rw [hLid]; exact hnid
  have hsub : ∀ x ∈ front.flatten ++ last, x ∈ L := by
    intro x hx
    exact List.mem_map.2 ⟨x.1, hin x hx, by rw [hdata x hx]⟩
  unfold fileRun at hrun
  cases hm : (front ++ [last]).mapM (fun loc => rankFinish c.prior c.fitz c.mdOf c.sorted loc (stateOf L types (fun e t => scan e.1 t) (fun _ _ => none) (fun _ => none) : PyDict ι (RunResult Z R F M))) with
  | error er => rw [hm] at hrun; simp [bind, Except.bind] at hrun
  | ok per =>
    rw [hm] at hrun
    rw [mapM_ok_iff] at hm
    have hm2 : List.Forall₂ (fun loc res => res = stateOf L types (fun e t => c.prior e.1 t.redshifts (scan e.1 t))
        (fun e u => if e.1 ∈ loc.map (·.1) ∧ u.fulltype ∈ c.sorted.map (·.fulltype) then (c.fitz e.2 u (c.prior e.1 u.redshifts (scan e.1 u))).toOption else none)
        (fun e => if e.1 ∈ loc.map (·.1) then some (c.mdOf e.2) else none)) (front ++ [last]) per := by
      have hl : ∀ loc ∈ front ++ [last], ∀ x ∈ loc, x ∈ L := by
        intro loc hloc x hx
        apply hsub
        rcases List.mem_append.1 hloc with h | h
        · exact List.mem_append_left _ (List.mem_flatten.2 ⟨loc, h, hx⟩)
        · rw [List.mem_singleton] at h; subst h; exact List.mem_append_right _ hx
      clear hrun
      generalize front ++ [last] = locs at hm hl
      induction hm with
      | nil => exact .nil
      | @cons a b as bs x _ ih =>
        exact .cons ((rankFinish_iff c.prior c.fitz c.mdOf c.sorted a L hnL types hty (fun e t => scan e.1 t) (hl a (by simp)) (fun t ht => hs.mem_iff.1 ht) b).1 x).2
          (ih (fun l hl' => hl l (by simp [hl'])))
    have hkeys : ∀ d ∈ per, (PyDict.keys d).Nodup := by
      clear hrun hm
      generalize front ++ [last] = locs at hm2
      induction hm2 with
      | nil => intro d hd; simp at hd
      | cons x _ ih =>
        intro d hd
        rcases List.mem_cons.1 hd with rfl | h'
        · rw [x, keys_stateOf]; exact hnL
        · exact ih d h'
    obtain ⟨pf, pl, hpf, hpl, rfl⟩ : ∃ pf pl, List.Forall₂ (fun _ _ => True) front pf ∧ pl = stateOf L types (fun e t => c.prior e.1 t.redshifts (scan e.1 t))
        (fun e u => if e.1 ∈ last.map (·.1) ∧ u.fulltype ∈ c.sorted.map (·.fulltype) then (c.fitz e.2 u (c.prior e.1 u.redshifts (scan e.1 u))).toOption else none)
        (fun e => if e.1 ∈ last.map (·.1) then some (c.mdOf e.2) else none) ∧ per = pf ++ [pl] := by
      have hlen := hm2.length_eq
      have : per ≠ [] := by intro h; rw [h] at hlen; simp at hlen
      refine ⟨per.dropLast, per.getLast this, ?_, ?_, (List.dropLast_append_getLast this).symm⟩
      · rw [List.forall₂_iff_get]
        refine ⟨?_, fun _ _ _ => trivial⟩
        simp at hlen ⊢; omega
      · rw [← List.dropLast_append_getLast this] at hm2
        have := (List.forall₂_reverse_iff.2 hm2)
        simp only [List.reverse_append, List.reverse_cons, List.reverse_nil, List.nil_append, List.singleton_append] at this
        cases this with | cons x _ => exact x
    simp only [bind, Except.bind] at hrun
    rw [gatherRun_eq _ hkeys] at hrun
    simp only at hrun
    -- a target of another rank
    obtain ⟨x, hx⟩ := List.exists_mem_of_ne_nil _ hfront
    have hxl : x.1 ∉ last.map (·.1) := by
      intro h
      rw [List.map_append] at hn
      exact List.disjoint_of_nodup_append hn (List.mem_map.2 ⟨x, hx, rfl⟩) h
    have hxid : x.1 ∈ allIds := hids.mem_iff.2 (List.mem_map.2 ⟨x, List.mem_append_left _ hx, rfl⟩)
    have hxL := hsub x (List.mem_append_left _ hx)
    have hget : ∃ r, PyDict.get (gatherAll (pf ++ [pl])) x.1 = .ok r ∧ r.scans ≠ [] ∧ ∀ s ∈ r.scans, s.2.zfit = none := by
      refine ⟨⟨types.map (fun t => (t.fulltype, ⟨t.redshifts, c.prior x.1 t.redshifts (scan x.1 t), none⟩)), none⟩, ?_, by simpa using hne, ?_⟩
      · have hg := get_map L (·.1) (fun e => (⟨types.map (fun t => (t.fulltype, ⟨t.redshifts, c.prior e.1 t.redshifts (scan e.1 t),
          if e.1 ∈ last.map (·.1) ∧ t.fulltype ∈ c.sorted.map (·.fulltype) then (c.fitz e.2 t (c.prior e.1 t.redshifts (scan e.1 t))).toOption else none⟩)),
          if e.1 ∈ last.map (·.1) then some (c.mdOf e.2) else none⟩ : RunResult Z R F M)) hnL x hxL
        have hg2 : PyDict.get? pl x.1 = some ⟨types.map (fun t => (t.fulltype, ⟨t.redshifts, c.prior x.1 t.redshifts (scan x.1 t), none⟩)), none⟩ := by
          rw [hpl]
          unfold stateOf
          simp only [hxl, false_and, if_false] at hg
          unfold PyDict.get at hg
          cases hgg : PyDict.get? (L.map (fun e => (e.1, (⟨types.map (fun t => (t.fulltype, ⟨t.redshifts, c.prior e.1 t.redshifts (scan e.1 t),
            if e.1 ∈ last.map (·.1) ∧ t.fulltype ∈ c.sorted.map (·.fulltype) then (c.fitz e.2 t (c.prior e.1 t.redshifts (scan e.1 t))).toOption else none⟩)),
            if e.1 ∈ last.map (·.1) then some (c.mdOf e.2) else none⟩ : RunResult Z R F M)))) x.1 with
          | none => rw [hgg] at hg; simp at hg
          | some r => rw [hgg] at hg; simp only [Except.ok.injEq] at hg; rw [hg]
        unfold PyDict.get gatherAll
        rw [List.foldl_append, List.foldl_cons, List.foldl_nil, PyDict.get?_update _ _ _ (hkeys pl (by simp)), hg2]
        rfl
      · intro s hs'
        obtain ⟨t, _, rfl⟩ := List.mem_map.1 hs'
        rfl
    obtain ⟨r, hr1, hr3, hr2⟩ := hget
    unfold collectFits at hrun
    rw [mapM_ok_iff] at hrun
    obtain ⟨row, hrow⟩ : ∃ row : ι × List (PyStr × F) × Option M, ((do
        let r ← PyDict.get (gatherAll (pf ++ [pl])) x.1
        let fs ← r.scans.mapM entryFit
        return (x.1, fs, r.md)) : Py _) = .ok row := by
      clear hids
      induction hrun with
      | nil => simp at hxid
      | @cons a b as bs h1 _ ih =>
        rcases List.mem_cons.1 hxid with e | h'
        · rw [e]; exact ⟨b, h1⟩
        · exact ih h'
    rw [hr1] at hrow
    simp only [bind, Except.bind] at hrow
    cases hsc : r.scans with
    | nil => exact hr3 hsc
    | cons s0 ss =>
      rw [hsc] at hrow
      have : entryFit s0 = (.error .keyError : Py (PyStr × F)) := by
        unfold entryFit; rw [hr2 s0 (by rw [hsc]; simp)]
      rw [List.mapM_cons, this] at hrow
      simp [bind, Except.bind] at hrow

/-- **C93** a template type in the file that is not among the templates of the run (say, the file is from a run with more templates): never a catalogue, if there is a target (`KeyError: 'zfit'`). -/
theorem C93_file_extra_type (c : RunCfg ι T Z R F M) (types : List (RunTemplate Z)) (hty : (types.map (·.fulltype)).Nodup) (hs : ∀ t ∈ c.sorted, t ∈ types) (u : RunTemplate Z) (hu : u ∈ types)
    (hu2 : u.fulltype ∉ c.sorted.map (·.fulltype)) (ids : List ι) (hnid : ids.Nodup) (scan : ι → RunTemplate Z → List R) (targets : List (ι × T)) (hn : (targets.map (·.1)).Nodup)
    (hin : ∀ e ∈ targets, e.1 ∈ ids) (hne : targets ≠ []) (allIds : List ι) (hids : allIds.Perm (targets.map (·.1))) (cat : List (ι × List (PyStr × F) × Option M)) :
    fileRun c [targets] (scanFile ids types scan) allIds ≠ .ok cat := by
  intro hrun
  obtain ⟨data, hdata⟩ := data_of targets hn hne
  rw [scanFile_eq ids types scan data] at hrun
  set L : List (ι × T) := ids.map (fun i => (i, data i)) with hL
  have hLid : L.map (·.1) = ids := by rw [hL, List.map_map]; simp [Function.comp_def]
  have hnL : (L.map (·.1)).Nodup := by rw [hLid]; exact hnid
  have hsub : ∀ x ∈ targets, x ∈ L := by
    intro x hx
    exact List.mem_map.2 ⟨x.1, hin x hx, by rw [hdata x hx]⟩
  unfold fileRun at hrun
  cases hm : [targets].mapM (fun loc => rankFinish c.prior c.fitz c.mdOf c.sorted loc (stateOf L types (fun e t => scan e.1 t) (fun _ _ => none) (fun _ => none) : PyDict ι (RunResult Z R F M))) with
  | error er => rw [hm] at hrun; simp [bind, Except.bind] at hrun
  | ok per =>
    rw [hm] at hrun
    rw [mapM_ok_iff] at hm
    cases hm with
    | @cons _ res _ _ h1 h2 =>
    cases h2
    obtain ⟨_, rfl⟩ := (rankFinish_iff c.prior c.fitz c.mdOf c.sorted targets L hnL types hty (fun e t => scan e.1 t) hsub hs res).1 h1
    simp only [bind, Except.bind] at hrun
    rw [gatherRun_eq _ (by intro d hd; simp at hd; subst hd; rw [keys_stateOf]; exact hnL), C09_gather_all _ (by simp only [List.flatten_cons, List.flatten_nil, List.append_nil]; rw [keys_stateOf]; exact hnL)] at hrun
    simp only [List.flatten_cons, List.flatten_nil, List.append_nil] at hrun
    obtain ⟨x, hx⟩ := List.exists_mem_of_ne_nil _ hne
    have hxid : x.1 ∈ allIds := hids.mem_iff.2 (List.mem_map.2 ⟨x, hx, rfl⟩)
    unfold collectFits at hrun
    rw [mapM_ok_iff] at hrun
    have hrow := forall₂_exists hrun x.1 hxid
    obtain ⟨row, hrow⟩ := hrow
    unfold stateOf at hrow
    rw [get_map L (·.1) _ hnL x (hsub x hx)] at hrow
    simp only [bind, Except.bind] at hrow
    cases hq : (types.map (fun t => (t.fulltype, (⟨t.redshifts, c.prior x.1 t.redshifts (scan x.1 t),
        if x.1 ∈ targets.map (·.1) ∧ t.fulltype ∈ c.sorted.map (·.fulltype) then (c.fitz x.2 t (c.prior x.1 t.redshifts (scan x.1 t))).toOption else none⟩ : RunEntry Z R F)))).mapM entryFit with
    | error er => rw [hq] at hrow; simp at hrow
    | ok fs =>
      rw [mapM_ok_iff] at hq
      obtain ⟨y, hy⟩ := forall₂_exists hq _ (List.mem_map.2 ⟨u, hu, rfl⟩)
      unfold entryFit at hy
      simp only [hu2, and_false, if_false] at hy
      simp at hy

/-- fits never add template types -/
theorem fitStep_keeps (fitz : T → RunTemplate Z → List R → Py F) (ft : PyStr) (x : RunTemplate Z × (ι × T)) (d d' : PyDict ι (RunResult Z R F M)) (h : fitStep fitz d x = .ok d')
    (hd : ∀ i r, PyDict.get? d i = some r → PyDict.get? r.scans ft = none) : ∀ i r, PyDict.get? d' i = some r → PyDict.get? r.scans ft = none := by
  unfold fitStep at h
  cases h1 : PyDict.get? d x.2.1 with
  | none => simp [PyDict.get, h1, bind, Except.bind] at h
  | some r0 =>
    have hr0 := hd _ _ h1
    cases h2 : PyDict.get? r0.scans x.1.fulltype with
    | none => simp [PyDict.get, h1, h2, bind, Except.bind] at h
    | some e0 =>
      simp only [PyDict.get, h1, h2, bind, Except.bind] at h
      cases h3 : fitz x.2.2 x.1 e0.rows with
      | error e => rw [h3] at h; simp at h
      | ok z =>
        rw [h3] at h
        simp only [pure, Except.pure, Except.ok.injEq] at h
        subst h
        intro i r hi
        rw [PyDict.get?_set] at hi
        by_cases hii : x.2.1 = i
        · rw [if_pos hii] at hi
          simp only [Option.some.injEq] at hi
          subst hi
          simp only
          rw [PyDict.get?_set]
          rw [if_neg]
          · exact hr0
          · intro he; rw [he, hr0] at h2; simp at h2
        · rw [if_neg hii] at hi
          exact hd i r hi

/-- **C93** a template of the run that is not in the file (say, the file is from a run with fewer templates): never a catalogue, if there is a target (`KeyError`). -/
theorem C93_file_missing_type (c : RunCfg ι T Z R F M) (types : List (RunTemplate Z)) (u : RunTemplate Z) (hu : u ∈ c.sorted) (hu2 : u.fulltype ∉ types.map (·.fulltype)) (ids : List ι)
    (scan : ι → RunTemplate Z → List R) (targets : List (ι × T)) (hne : targets ≠ []) (allIds : List ι) (cat : List (ι × List (PyStr × F) × Option M)) :
    fileRun c [targets] (scanFile ids types scan) allIds ≠ .ok cat := by
  intro hrun
  have hstart : ∀ i r, PyDict.get? (applyPriors c.prior (scanFile ids types scan : PyDict ι (RunResult Z R F M))) i = some r → PyDict.get? r.scans u.fulltype = none := by
    intro i r h
    have hm := PyDict.mem_of_get? _ _ _ h
    simp only [applyPriors, scanFile, List.map_map, List.mem_map, Function.comp, Prod.mk.injEq] at hm
    obtain ⟨j, _, _, rfl⟩ := hm
    simp only
    cases hg : PyDict.get? (types.map (fun t => (t.fulltype, (⟨t.redshifts, c.prior j t.redshifts (scan j t), none⟩ : RunEntry Z R F)))) u.fulltype with
    | none => exact hg
    | some w =>
      have := PyDict.mem_of_get? _ _ _ hg
      simp only [List.mem_map, Prod.mk.injEq] at this
      obtain ⟨t, ht, he, _⟩ := this
      exact absurd (List.mem_map.2 ⟨t, ht, he⟩) hu2
  have hfold : ∀ (steps : List (RunTemplate Z × (ι × T))) (d d' : PyDict ι (RunResult Z R F M)), (∀ i r, PyDict.get? d i = some r → PyDict.get? r.scans u.fulltype = none) →
      (∃ x ∈ steps, x.1 = u) → steps.foldlM (fitStep c.fitz) d ≠ .ok d' := by
    intro steps
    induction steps with
    | nil => intro d d' _ h; simp at h
    | cons x steps ih =>
      intro d d' hd hx hf
      rw [List.foldlM_cons] at hf
      cases h1 : fitStep c.fitz d x with
      | error e => rw [h1] at hf; simp [bind, Except.bind] at hf
      | ok d1 =>
        rw [h1] at hf
        simp only [bind, Except.bind] at hf
        by_cases hxu : x.1 = u
        · unfold fitStep at h1
          cases h2 : PyDict.get? d x.2.1 with
          | none => simp [PyDict.get, h2, bind, Except.bind] at h1
          | some r0 =>
            have := hd _ _ h2
            rw [← hxu] at this
            simp [PyDict.get, h2, this, bind, Except.bind] at h1
        · refine ih d1 d' (fitStep_keeps c.fitz u.fulltype x d d1 h1 hd) ?_ hf
          obtain ⟨y, hy, hyu⟩ := hx
          rcases List.mem_cons.1 hy with rfl | h'
          · exact absurd hyu hxu
          · exact ⟨y, h', hyu⟩
  unfold fileRun at hrun
  cases hm : [targets].mapM (fun loc => rankFinish c.prior c.fitz c.mdOf c.sorted loc (scanFile ids types scan : PyDict ι (RunResult Z R F M))) with
  | error er => rw [hm] at hrun; simp [bind, Except.bind] at hrun
  | ok per =>
    rw [mapM_ok_iff] at hm
    cases hm with
    | @cons _ res _ _ h1 h2 =>
    unfold rankFinish fitLocal at h1
    cases hf : (c.sorted.flatMap (fun t => targets.map (fun tg => (t, tg)))).foldlM (fitStep c.fitz) (applyPriors c.prior (scanFile ids types scan : PyDict ι (RunResult Z R F M))) with
    | error e => rw [hf] at h1; simp [bind, Except.bind] at h1
    | ok d =>
      obtain ⟨x, hx⟩ := List.exists_mem_of_ne_nil _ hne
      exact hfold _ _ d hstart ⟨(u, x), List.mem_flatMap.2 ⟨u, hu, List.mem_map.2 ⟨x, hx, rfl⟩⟩, rfl⟩ hf

/-- **C93**, the claim: a run with the details of an identical earlier run gives the catalogue of that run (false of the code: prior added twice). -/
def ReuseGivesSameCatalogue (ι T Z R F M : Type) [DecidableEq ι] : Prop :=
  ∀ (c : RunCfg ι T Z R F M), GoodCfg c → ∀ (targets : List (ι × T)), (targets.map (·.1)).Nodup → ∀ (scan : ι → RunTemplate Z → List R),
    (∀ e ∈ targets, ∀ t ∈ c.templates, scan e.1 t = c.prior e.1 t.redshifts (t.redshifts.map (c.f t e.2))) →
    ∀ cat, fileRun c [targets] (scanFile (targets.map (·.1)) c.templates scan) (targets.map (·.1)) = .ok cat ↔ serialRun c targets (targets.map (·.1)) = .ok cat

theorem C93_reuse_fails : ¬ ReuseGivesSameCatalogue Nat Nat Nat Nat (Nat × Nat) Nat := by
  intro h
  have := h exCfg exCfg_good [(10, 100)] (by decide) (fun i t => exCfg.prior i t.redshifts (t.redshifts.map (exCfg.f t 100))) (by
    intro e he t _
    simp only [List.mem_singleton] at he
    subst he; rfl) [(10, [(exQ, (100, 630)), (exG, (100, 920))], some 107)]
  have h2 := this.2 (by decide +kernel)
  revert h2
  decide +kernel

/-- **C93** nor is the grid compared: a file scanned over other redshifts (as many of them) is used as it is, the fits taking it for a scan over the redshifts of the template: here the template has redshifts 1, 2, 3,
the file 11, 12, 13. -/
theorem C93_other_grid_used : fileRun exCfg [[(10, 100)]] (scanFile [10] [⟨exQ, [11, 12, 13]⟩, ⟨exG, [4, 5]⟩] (fun _ t => t.redshifts.map (· * 100))) [10] =
    .ok [(10, [(exQ, (100, 3630)), (exG, (100, 920))], some 107)] := by decide +kernel

/-- the conditions of the theorems above are met: a file with more targets than the run, one process -/
example : fileRun exCfg [[(10, 100), (20, 200)]] (scanFile [10, 20, 30] exCfg.templates (fun i t => t.redshifts.map (fun z => i * 10 * z))) [20, 10] =
    .ok [(20, [(exQ, (200, 1260)), (exG, (200, 1840))], some 207), (10, [(exQ, (100, 630)), (exG, (100, 920))], some 107)] := by
  rw [C93_file_same_catalogue exCfg exCfg_good [10, 20, 30] (by decide) _ [(10, 100), (20, 200)] (by decide) (by decide) (by
    intro e he t _
    simp only [List.mem_cons, List.not_mem_nil, or_false] at he
    rcases he with rfl | rfl <;> rfl) [20, 10] (by decide)]
  decide +kernel

/-- two ranks, the same file: no catalogue -/
example : fileRun exCfg [[(10, 100)], [(20, 200)]] (scanFile [10, 20, 30] exCfg.templates (fun i t => t.redshifts.map (fun z => i * 10 * z))) [20, 10] = .error .keyError := by decide +kernel

end
end Run
end Redrock
