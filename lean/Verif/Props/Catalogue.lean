import Verif.Model.Catalogue
import Verif.Props.Run
import Verif.Props.Coeff

/-!
C110: what a target's rows are does not depend on which other targets are in the run.
-/
namespace Redrock
set_option linter.unusedSectionVars false
set_option synthInstance.maxSize 2000
namespace Catalogue
open Run

section
variable {ι T Z R F M : Type} [DecidableEq ι] {K : Type} [Field K] [LinearOrder K] {σ : Type} [LinearOrder σ]

/-! ### specification -/

/-- The way of running is possible: with MPI, every target is on exactly one rank, and the ranks' redshift slices come from a complete run of the ring. -/
def GoodWay (c : RunCfg ι T Z R F M) (targets : List (ι × T)) : RunWay ι T Z → Prop
  | .serial => True
  | .mpi locs log => locs.flatten.Perm targets ∧ ∀ t ∈ c.templates, RingRun t.redshifts locs.length (log t)

/-- The rows of target `tid`, in the order of the table. -/
def rowsOf (tid : ι) (rows : List (ι × Row K σ)) : List (Row K σ) := (rows.filter (fun x => decide (x.1 = tid))).map (·.2)

/-- The two rows are the same in every column, except that one `coeff` may be longer than the other; the first `ncoeff` coefficients are the same. -/
def SameRow (a b : Row K σ) : Prop :=
  a = { b with coeff := a.coeff } ∧ (a.coeff <+: b.coeff ∨ b.coeff <+: a.coeff) ∧ a.coeff.take a.ncoeff = b.coeff.take b.ncoeff

/-! ### lemmas -/

theorem forall₂_left_mem {α β : Type} {P : α → β → Prop} {l : List α} {r : List β} (h : List.Forall₂ P l r) (a : α) (ha : a ∈ l) : ∃ b ∈ r, P a b := by
  induction h with
  | nil => simp at ha
  | cons hab _ ih =>
    rcases List.mem_cons.1 ha with rfl | ha
    · exact ⟨_, by simp, hab⟩
    · obtain ⟨b, hb, h⟩ := ih ha
      exact ⟨b, List.mem_cons_of_mem _ hb, h⟩

theorem forall₂_right_mem {α β : Type} {P : α → β → Prop} {l : List α} {r : List β} (h : List.Forall₂ P l r) (b : β) (hb : b ∈ r) : ∃ a ∈ l, P a b := by
  obtain ⟨a, ha, h⟩ := forall₂_left_mem h.flip b hb
  exact ⟨a, ha, h⟩

theorem zfindTables_iff (nminima : Nat) (ibad : Row K σ → Bool) (all : List (ι × List (TemplateFit K σ))) (rows : List (ι × Row K σ)) :
    zfindTables nminima ibad all = .ok rows ↔ ∃ tabs : List (ι × List (Row K σ)), List.Forall₂ (fun tf t => t.1 = tf.1 ∧ targetTable nminima ibad tf.2 = .ok t.2) all tabs ∧ tabs ≠ [] ∧
      (∃ w, ∀ t ∈ tabs, (t.2.map (·.coeff.length)).headD 0 = w) ∧ rows = tabs.flatMap (fun t => t.2.map (fun r => (t.1, r))) := by
  have hstep : ∀ (tf : ι × List (TemplateFit K σ)) (t : ι × List (Row K σ)), ((do
      let rows ← targetTable nminima ibad tf.2
      return (tf.1, rows) : Py (ι × List (Row K σ))) = .ok t) ↔ (t.1 = tf.1 ∧ targetTable nminima ibad tf.2 = .ok t.2) := by
    intro tf t
    cases h : targetTable nminima ibad tf.2 with
    | error e => simp [bind, Except.bind]
    | ok v =>
      obtain ⟨a, b⟩ := t
      simp only [bind, Except.bind, pure, Except.pure, Except.ok.injEq, Prod.mk.injEq]
      constructor
      · rintro ⟨rfl, rfl⟩; exact ⟨rfl, rfl⟩
      · rintro ⟨rfl, rfl⟩; exact ⟨rfl, rfl⟩
  unfold zfindTables
  cases hm : all.mapM (fun tf => (do
      let rows ← targetTable nminima ibad tf.2
      return (tf.1, rows) : Py (ι × List (Row K σ)))) with
  | error e =>
    simp only [bind, Except.bind]
    constructor
    · intro h; simp at h
    · rintro ⟨tabs, h, -⟩
      have := (Run.mapM_ok_iff _ all tabs).2 (h.imp (fun a b hab => (hstep a b).2 hab))
      rw [hm] at this; simp at this
  | ok tabs =>
    have h2 := (Run.mapM_ok_iff _ all tabs).1 hm
    have h2' := h2.imp (fun a b hab => (hstep a b).1 hab)
    simp only [bind, Except.bind]
    have huniq : ∀ tabs' : List (ι × List (Row K σ)), List.Forall₂ (fun tf t => t.1 = tf.1 ∧ targetTable nminima ibad tf.2 = .ok t.2) all tabs' → tabs' = tabs := by
      intro tabs' h
      have := (Run.mapM_ok_iff _ all tabs').2 (h.imp (fun a b hab => (hstep a b).2 hab))
      rw [hm] at this; exact (Except.ok.inj this).symm
    constructor
    · intro h
      refine ⟨tabs, h2', ?_⟩
      cases tabs with
      | nil => simp at h
      | cons t ts =>
        simp only [List.map_cons] at h
        split at h
        · simp at h
        · rename_i hw
          refine ⟨by simp, ⟨(t.2.map (·.coeff.length)).headD 0, ?_⟩, (Except.ok.inj h).symm⟩
          intro u hu
          rcases List.mem_cons.1 hu with rfl | hu
          · rfl
          · simp only [List.any_eq_true, List.mem_map, decide_eq_true_eq, not_exists, not_and] at hw
            by_contra hne
            exact hw _ ⟨u, hu, rfl⟩ hne
    · rintro ⟨tabs', h, hne, ⟨w, hw⟩, rfl⟩
      have := huniq tabs' h
      subst this
      cases tabs' with
      | nil => exact absurd rfl hne
      | cons t ts =>
        simp only [List.map_cons]
        rw [if_neg]
        simp only [List.any_eq_true, List.mem_map, decide_eq_true_eq, not_exists, not_and]
        rintro v ⟨u, hu, rfl⟩ hv
        exact hv ((hw u (List.mem_cons_of_mem _ hu)).trans (hw t (by simp)).symm)

/-- the table after standardisation: every row's coefficients are padded with the same number of zeros, and perhaps cut to the common number of coefficients -/
theorem standardizeCoeff_form (m : Nat) (rows : List (Row K σ)) :
    (∀ out, standardizeCoeff m rows = .ok out → (rows.map (·.coeff.length)).headD 0 ≤ m) ∧
    ((rows.map (·.coeff.length)).headD 0 ≤ m → ∃ C : List K → List K, (C = id ∨ ∃ k, C = List.take k ∧ ∀ r ∈ rows, r.ncoeff = k) ∧
      standardizeCoeff m rows = .ok (rows.map (fun r => { r with coeff := C (r.coeff ++ List.replicate (m - (rows.map (·.coeff.length)).headD 0) 0) }))) := by
  generalize hw : (rows.map (·.coeff.length)).headD 0 = w
  constructor
  · intro out h
    by_contra hlt
    unfold standardizeCoeff at h
    simp only [hw] at h
    rw [if_pos (by omega), if_neg (by omega)] at h
    simp [bind, Except.bind, throw, throwThe, MonadExceptOf.throw] at h
  · intro hle
    have hmid : (if w ≠ m then
        if w ≤ m then pure (rows.map (fun r => { r with coeff := r.coeff ++ List.replicate (m - w) 0 }))
        else throw PyErr.valueError
      else pure rows : Py (List (Row K σ))) = .ok (rows.map (fun r => { r with coeff := r.coeff ++ List.replicate (m - w) 0 })) := by
      by_cases he : w = m
      · subst he
        simp [pure, Except.pure]
      · rw [if_pos he, if_pos hle]; rfl
    unfold standardizeCoeff
    simp only [hw]
    rw [hmid]
    simp only [bind, Except.bind]
    split
    · rename_i k hk
      refine ⟨List.take k, Or.inr ⟨k, rfl, ?_⟩, ?_⟩
      · intro r hr
        have : r.ncoeff ∈ ((rows.map (fun r => { r with coeff := r.coeff ++ List.replicate (m - w) 0 })).map (·.ncoeff)).dedup := by
          rw [List.mem_dedup]; simp only [List.map_map, List.mem_map, Function.comp]; exact ⟨r, hr, rfl⟩
        rw [hk] at this; simpa using this
      · simp [List.map_map, Function.comp_def]
    · exact ⟨id, Or.inl rfl, by simp⟩

theorem rowsOf_map (g : Row K σ → Row K σ) (tid : ι) (rows : List (ι × Row K σ)) : rowsOf tid (rows.map (fun x => (x.1, g x.2))) = (rowsOf tid rows).map g := by
  unfold rowsOf
  rw [List.filter_map, List.map_map, List.map_map]; rfl

theorem rowsOf_tab (tid : ι) (tab : List (Row K σ)) : ∀ tabs : List (ι × List (Row K σ)), (tabs.map (·.1)).Nodup → (tid, tab) ∈ tabs →
    rowsOf tid (tabs.flatMap (fun t => t.2.map (fun r => (t.1, r)))) = tab := by
  intro tabs
  induction tabs with
  | nil => intro _ h; simp at h
  | cons t ts ih =>
    intro hn hmem
    simp only [List.map_cons, List.nodup_cons] at hn
    have hsame : ∀ (i : ι) (l : List (Row K σ)), rowsOf tid (l.map (fun r => (i, r))) = if i = tid then l else [] := by
      intro i l
      unfold rowsOf
      rw [List.filter_map, List.map_map]
      by_cases h : i = tid <;> simp [h, Function.comp_def]
    have happ : ∀ a b : List (ι × Row K σ), rowsOf tid (a ++ b) = rowsOf tid a ++ rowsOf tid b := by
      intro a b; simp [rowsOf]
    rw [List.flatMap_cons, happ, hsame]
    rcases List.mem_cons.1 hmem with rfl | hm
    · simp only [if_true]
      have : rowsOf tid (ts.flatMap (fun t => t.2.map (fun r => (t.1, r)))) = [] := by
        unfold rowsOf
        rw [List.map_eq_nil_iff, List.filter_eq_nil_iff]
        rintro ⟨i, r⟩ hx
        simp only [List.mem_flatMap, List.mem_map, Prod.mk.injEq] at hx
        obtain ⟨u, hu, r', _, hi, _⟩ := hx
        simp only [decide_eq_true_eq]
        rintro rfl
        exact hn.1 (List.mem_map.2 ⟨u, hu, hi⟩)
      rw [this, List.append_nil]
    · have hne : t.1 ≠ tid := by
        intro h; exact hn.1 (List.mem_map.2 ⟨_, hm, h.symm⟩)
      rw [if_neg hne, List.nil_append]
      exact ih hn.2 hm

theorem zip_self_map (rows : List (ι × Row K σ)) (g : Row K σ → Row K σ) : (rows.map (·.1)).zip ((rows.map (·.2)).map g) = rows.map (fun x => (x.1, g x.2)) := by
  induction rows with
  | nil => rfl
  | cons a l ih => simp only [List.map_cons, List.zip_cons_cons, ih]

/-- the width of a stack of tables of the same width -/
theorem headD_flat (w : Nat) : ∀ tabs : List (ι × List (Row K σ)), (∀ t ∈ tabs, (t.2.map (·.coeff.length)).headD 0 = w) →
    ∀ t ∈ tabs, t.2 ≠ [] → (((tabs.flatMap (fun t => t.2.map (fun r => (t.1, r)))).map (·.2)).map (·.coeff.length)).headD 0 = w := by
  intro tabs
  induction tabs with
  | nil => intro _ t ht; simp at ht
  | cons u us ih =>
    intro hw t ht hne
    by_cases hu : u.2 = []
    · have htu : t ∈ us := by
        rcases List.mem_cons.1 ht with rfl | h
        · exact absurd hu hne
        · exact h
      have := ih (fun x hx => hw x (List.mem_cons_of_mem _ hx)) t htu hne
      rw [List.flatMap_cons, hu]
      simpa using this
    · have h1 := hw u (by simp)
      obtain ⟨r, rs, hr⟩ := List.exists_cons_of_ne_nil hu
      rw [hr] at h1
      rw [List.flatMap_cons, hr]
      simpa using h1

/-- **C110** the finalisation: if the table of `all` exists then so does the table of any non-empty part of it, and every target's rows are the same. -/
theorem C110_finalTable (nminima : Nat) (ibad : Row K σ → Bool) (maxcoeff : Nat) (all all' : List (ι × List (TemplateFit K σ))) (hn : (all.map (·.1)).Nodup) (hn' : (all'.map (·.1)).Nodup)
    (hsub : ∀ e ∈ all', e ∈ all) (hne : all' ≠ []) (rows : List (ι × Row K σ)) (h : finalTable nminima ibad maxcoeff all = .ok rows) :
    ∃ rows', finalTable nminima ibad maxcoeff all' = .ok rows' ∧ ∀ e ∈ all', List.Forall₂ SameRow (rowsOf e.1 rows') (rowsOf e.1 rows) := by
  unfold finalTable at h
  cases hT : zfindTables nminima ibad all with
  | error e => rw [hT] at h; simp [bind, Except.bind] at h
  | ok T =>
    rw [hT] at h
    simp only [bind, Except.bind] at h
    obtain ⟨tabs, h2, htne, ⟨w, hw⟩, hflat⟩ := (zfindTables_iff nminima ibad all T).1 hT
    -- the table of each target
    have hkeys : tabs.map (·.1) = all.map (·.1) := by
      clear hn hn' hsub hne h hT hw hflat htne
      induction h2 with
      | nil => rfl
      | cons hab _ ih => simp [hab.1, ih]
    have hget : ∀ e ∈ all, ∃ tab, targetTable nminima ibad e.2 = .ok tab ∧ (e.1, tab) ∈ tabs := by
      clear hn hn' hsub hne h hT hw hflat hkeys htne
      induction h2 with
      | nil => intro e he; simp at he
      | @cons a b la lb hab _ ih =>
        intro e he
        rcases List.mem_cons.1 he with rfl | he
        · exact ⟨b.2, hab.2, by rw [← hab.1]; simp⟩
        · obtain ⟨tab, h1, h2⟩ := ih e he
          exact ⟨tab, h1, List.mem_cons_of_mem _ h2⟩
    -- the tables of the part
    obtain ⟨tabs', hm', h2'⟩ := mapM_forall₂ (fun tf : ι × List (TemplateFit K σ) => (do
        let rows ← targetTable nminima ibad tf.2
        return (tf.1, rows) : Py (ι × List (Row K σ)))) (fun tf t => t.1 = tf.1 ∧ targetTable nminima ibad tf.2 = .ok t.2 ∧ t ∈ tabs) all' (by
      intro e he
      obtain ⟨tab, h1, h3⟩ := hget e (hsub e he)
      refine ⟨(e.1, tab), ?_, rfl, h1, h3⟩
      simp only [h1]; rfl)
    have hin' : ∀ t ∈ tabs', t ∈ tabs := by
      intro t ht
      obtain ⟨e, _, he⟩ := forall₂_right_mem h2' t ht
      exact he.2.2
    have hne' : tabs' ≠ [] := by
      intro h0; rw [h0] at h2'; cases h2'; exact hne rfl
    have hkeys' : tabs'.map (·.1) = all'.map (·.1) := by
      clear hm' hn hn' hsub hne h hT hw hflat hkeys hin' hne'
      induction h2' with
      | nil => rfl
      | cons hab _ ih => simp [hab.1, ih]
    have hT' : zfindTables nminima ibad all' = .ok (tabs'.flatMap (fun t => t.2.map (fun r => (t.1, r)))) :=
      (zfindTables_iff nminima ibad all' _).2 ⟨tabs', h2'.imp (fun a b hab => ⟨hab.1, hab.2.1⟩), hne', ⟨w, fun t ht => hw t (hin' t ht)⟩, rfl⟩
    cases hS : standardizeCoeff maxcoeff (T.map (·.2)) with
    | error e => rw [hS] at h; simp at h
    | ok out =>
      rw [hS] at h
      simp only [pure, Except.pure] at h
      have hrows := Except.ok.inj h
      have hle := (standardizeCoeff_form maxcoeff (T.map (·.2))).1 out hS
      obtain ⟨C, hC, hSC⟩ := (standardizeCoeff_form maxcoeff (T.map (·.2))).2 hle
      rw [hS] at hSC
      have hout := Except.ok.inj hSC
      rw [hout, zip_self_map] at hrows
      set T' := tabs'.flatMap (fun t => t.2.map (fun r => (t.1, r))) with hT'def
      -- widths
      have hwT : ∀ t ∈ tabs', t.2 ≠ [] → ((T.map (·.2)).map (·.coeff.length)).headD 0 = w ∧ ((T'.map (·.2)).map (·.coeff.length)).headD 0 = w := by
        intro t ht hte
        rw [hflat]
        exact ⟨headD_flat w tabs hw t (hin' t ht) hte, headD_flat w tabs' (fun t ht => hw t (hin' t ht)) t ht hte⟩
      have hle' : ((T'.map (·.2)).map (·.coeff.length)).headD 0 ≤ maxcoeff := by
        by_cases hall : ∀ t ∈ tabs', t.2 = []
        · have : T' = [] := by
            rw [hT'def, List.flatMap_eq_nil_iff]
            intro t ht; rw [hall t ht]; rfl
          rw [this]; simp
        · push Not at hall
          obtain ⟨t, ht, hte⟩ := hall
          obtain ⟨e1, e2⟩ := hwT t ht hte
          rw [e2]; rw [e1] at hle; exact hle
      obtain ⟨C', hC', hSC'⟩ := (standardizeCoeff_form maxcoeff (T'.map (·.2))).2 hle'
      refine ⟨T'.map (fun x => (x.1, { x.2 with coeff := C' (x.2.coeff ++ List.replicate (maxcoeff - ((T'.map (·.2)).map (·.coeff.length)).headD 0) 0) })), ?_, ?_⟩
      · unfold finalTable
        rw [hT']
        simp only [bind, Except.bind]
        rw [hSC']
        simp only [pure, Except.pure]
        rw [zip_self_map T' (fun r => { r with coeff := C' (r.coeff ++ List.replicate (maxcoeff - ((T'.map (·.2)).map (·.coeff.length)).headD 0) 0) })]
      · intro e he
        obtain ⟨tab, htab, hmem⟩ := hget e (hsub e he)
        have hmem' : (e.1, tab) ∈ tabs' := by
          obtain ⟨t, ht, h1, h3, _⟩ := forall₂_left_mem h2' e he
          rw [htab] at h3
          have : t = (e.1, tab) := by
            rw [Except.ok.inj h3]; exact Prod.ext h1 rfl
          rwa [this] at ht
        have r1 : rowsOf e.1 T = tab := by rw [hflat]; exact rowsOf_tab e.1 tab tabs (by rw [hkeys]; exact hn) hmem
        have r2 : rowsOf e.1 T' = tab := rowsOf_tab e.1 tab tabs' (by rw [hkeys']; exact hn') hmem'
        rw [← hrows, rowsOf_map (fun r => { r with coeff := C' (r.coeff ++ List.replicate (maxcoeff - ((T'.map (·.2)).map (·.coeff.length)).headD 0) 0) }),
          rowsOf_map (fun r => { r with coeff := C (r.coeff ++ List.replicate (maxcoeff - ((T.map (·.2)).map (·.coeff.length)).headD 0) 0) }), r1, r2]
        rw [List.forall₂_map_left_iff, List.forall₂_map_right_iff, List.forall₂_same]
        intro r hr
        have hte : tab ≠ [] := List.ne_nil_of_mem hr
        obtain ⟨e1, e2⟩ := hwT (e.1, tab) hmem' hte
        rw [e1, e2]
        have hrT : r ∈ T.map (·.2) := by rw [← r1] at hr; unfold rowsOf at hr; obtain ⟨x, hx, rfl⟩ := List.mem_map.1 hr; exact List.mem_map.2 ⟨x, (List.mem_filter.1 hx).1, rfl⟩
        have hrT' : r ∈ T'.map (·.2) := by rw [← r2] at hr; unfold rowsOf at hr; obtain ⟨x, hx, rfl⟩ := List.mem_map.1 hr; exact List.mem_map.2 ⟨x, (List.mem_filter.1 hx).1, rfl⟩
        generalize r.coeff ++ List.replicate (maxcoeff - w) 0 = X
        have k1 : (C = id ∨ C = List.take r.ncoeff) := by
          rcases hC with h | ⟨k, h, hk⟩
          · exact Or.inl h
          · right; rw [h, hk r hrT]
        have k2 : (C' = id ∨ C' = List.take r.ncoeff) := by
          rcases hC' with h | ⟨k, h, hk⟩
          · exact Or.inl h
          · right; rw [h, hk r hrT']
        refine ⟨rfl, ?_, ?_⟩
        · rcases k1 with rfl | rfl <;> rcases k2 with rfl | rfl
          · left; simp
          · left; exact List.take_prefix _ _
          · right; exact List.take_prefix _ _
          · left; simp
        · rcases k1 with rfl | rfl <;> rcases k2 with rfl | rfl <;> simp [List.take_take]

/-- the fits of a run done in any possible way are the specified ones -/
theorem fitsOfRun_iff (c : RunCfg ι T Z R F M) (hc : GoodCfg c) (targets : List (ι × T)) (hn : (targets.map (·.1)).Nodup) (allIds : List ι) (hids : allIds.Perm (targets.map (·.1)))
    (way : RunWay ι T Z) (hway : GoodWay c targets way) (cat : List (ι × List (PyStr × F) × Option M)) : fitsOfRun c targets allIds way = .ok cat ↔ IsCatalogue c targets allIds cat := by
  cases way with
  | serial => exact C92_serial c hc targets hn allIds hids cat
  | mpi locs log => exact C92_mpi c hc locs targets hn hway.1 allIds hids log hway.2 cat

/-- **C110** If a run succeeds then a run on any non-empty part of its targets succeeds too, and every target of it gets the same rows (redshifts, errors, chi2, flags, deltachi2, classification, the first
`ncoeff` coefficients) in the same order: whatever other targets are in the run, whatever the order of the targets, and however the two runs are distributed (one process, or any number of MPI ranks with any
distribution and any interleaving). -/
theorem C110_other_targets_do_not_matter (c : RunCfg ι T Z R F M) (hc : GoodCfg c) (fitOf : PyStr × F → TemplateFit K σ) (nminima : Nat) (ibad : Row K σ → Bool) (maxcoeff : Nat)
    (targets : List (ι × T)) (hn : (targets.map (·.1)).Nodup) (allIds : List ι) (hids : allIds.Perm (targets.map (·.1))) (way : RunWay ι T Z) (hway : GoodWay c targets way)
    (part : List (ι × T)) (hnp : (part.map (·.1)).Nodup) (hsub : ∀ e ∈ part, e ∈ targets) (hne : part ≠ []) (partIds : List ι) (hpids : partIds.Perm (part.map (·.1))) (way' : RunWay ι T Z)
    (hway' : GoodWay c part way') (rows : List (ι × Row K σ)) (h : zfindCatalogue c fitOf nminima ibad maxcoeff targets allIds way = .ok rows) :
    ∃ rows', zfindCatalogue c fitOf nminima ibad maxcoeff part partIds way' = .ok rows' ∧ ∀ tid ∈ partIds, List.Forall₂ SameRow (rowsOf tid rows') (rowsOf tid rows) := by
  unfold zfindCatalogue at h
  cases hcat : fitsOfRun c targets allIds way with
  | error e => rw [hcat] at h; simp [bind, Except.bind] at h
  | ok cat =>
    rw [hcat] at h
    simp only [bind, Except.bind] at h
    have hC := (fitsOfRun_iff c hc targets hn allIds hids way hway cat).1 hcat
    unfold IsCatalogue IsCatalogueFrom at hC
    have hkeys : cat.map (·.1) = allIds := by
      clear hids h hcat
      induction hC with
      | nil => rfl
      | cons hab _ ih => simp [hab.1, ih]
    -- the fits of the part
    have hex : ∃ cat' : List (ι × List (PyStr × F) × Option M), List.Forall₂ (fun tid row => row ∈ cat ∧ row.1 = tid ∧ ∃ tg, (tid, tg) ∈ part ∧ row.2.2 = some (c.mdOf tg) ∧
        List.Forall₂ (fun t x => x.1 = t.fulltype ∧ c.fitz tg t (c.prior tid t.redshifts (t.redshifts.map (c.f t tg))) = .ok x.2) c.templates row.2.1) partIds cat' := by
      have hstep : ∀ tid ∈ partIds, ∃ row, row ∈ cat ∧ row.1 = tid ∧ ∃ tg, (tid, tg) ∈ part ∧ row.2.2 = some (c.mdOf tg) ∧
          List.Forall₂ (fun t x => x.1 = t.fulltype ∧ c.fitz tg t (c.prior tid t.redshifts (t.redshifts.map (c.f t tg))) = .ok x.2) c.templates row.2.1 := by
        intro tid htid
        obtain ⟨e, he, hei⟩ := List.mem_map.1 (hpids.mem_iff.1 htid)
        have htid2 : tid ∈ allIds := hids.mem_iff.2 (List.mem_map.2 ⟨e, hsub e he, hei⟩)
        obtain ⟨row, hrow, h1, tg, h3, h4, h5⟩ := forall₂_left_mem hC tid htid2
        have : (tid, tg) = e := List.inj_on_of_nodup_map hn h3 (hsub e he) hei.symm
        exact ⟨row, hrow, h1, tg, by rw [this]; exact he, h4, h5⟩
      clear hpids
      induction partIds with
      | nil => exact ⟨[], .nil⟩
      | cons i is ih =>
        obtain ⟨row, hrow⟩ := hstep i (by simp)
        obtain ⟨cat', h2⟩ := ih (fun t ht => hstep t (List.mem_cons_of_mem _ ht))
        exact ⟨row :: cat', .cons hrow h2⟩
    obtain ⟨cat', h2⟩ := hex
    have hcat' : fitsOfRun c part partIds way' = .ok cat' :=
      (fitsOfRun_iff c hc part hnp partIds hpids way' hway' cat').2 (h2.imp (fun a b hab => hab.2))
    have hkeys' : cat'.map (·.1) = partIds := by
      clear hpids hcat'
      induction h2 with
      | nil => rfl
      | cons hab _ ih => simp [hab.2.1, ih]
    have hin : ∀ r ∈ cat', r ∈ cat := by
      intro r hr
      obtain ⟨_, _, hx⟩ := forall₂_right_mem h2 r hr
      exact hx.1
    obtain ⟨rows', hr1, hr2⟩ := C110_finalTable nminima ibad maxcoeff (cat.map (fun r => (r.1, r.2.1.map fitOf))) (cat'.map (fun r => (r.1, r.2.1.map fitOf)))
      (by rw [List.map_map]; show (cat.map (·.1)).Nodup; rw [hkeys]; exact hids.nodup_iff.2 hn)
      (by rw [List.map_map]; show (cat'.map (·.1)).Nodup; rw [hkeys']; exact hpids.nodup_iff.2 hnp)
      (by intro e he; obtain ⟨r, hr, rfl⟩ := List.mem_map.1 he; exact List.mem_map.2 ⟨r, hin r hr, rfl⟩)
      (by
        intro h0
        rw [List.map_eq_nil_iff] at h0
        subst h0
        cases h2
        have := hpids.symm.eq_nil
        exact hne (List.map_eq_nil_iff.1 this)) rows h
    refine ⟨rows', ?_, ?_⟩
    · unfold zfindCatalogue
      rw [hcat']
      exact hr1
    · intro tid htid
      rw [← hkeys'] at htid
      obtain ⟨r, hr, rfl⟩ := List.mem_map.1 htid
      exact hr2 _ (List.mem_map.2 ⟨r, hr, rfl⟩)

end

/-! ### a concrete case, and what is not true -/

/-- Fits for the examples: QSO with two coefficients, GALAXY with one; a target whose data is 5 has no minimum for any template. -/
def exFit (x : PyStr × (Nat × Nat)) : TemplateFit ℚ Nat :=
  if x.2.1 = 5 then ⟨1, 0, false, 100, []⟩
  else if x.1 = exQ then ⟨1, 0, false, 100, [⟨1/2, 1/1000, 0, x.2.2, [x.2.1, 7], []⟩]⟩
  else ⟨2, 0, false, 100, [⟨3/4, 1/1000, 0, x.2.2, [x.2.1], []⟩]⟩

/-- the run on three targets (one process) -/
theorem ex_full : zfindCatalogue exCfg exFit 2 (fun _ => false) 3 [(10, 100), (20, 200), (30, 300)] [30, 10, 20] .serial = .ok
    [(30, ⟨1/2, 1/1000, 0, 1890, 100, 1, 0, 2, [300, 7, 0], 1000, 0, 870⟩), (30, ⟨3/4, 1/1000, 0, 2760, 100, 2, 0, 1, [300, 0, 0], 1000, 1, 0⟩),
     (10, ⟨1/2, 1/1000, 0, 630, 100, 1, 0, 2, [100, 7, 0], 1000, 0, 290⟩), (10, ⟨3/4, 1/1000, 0, 920, 100, 2, 0, 1, [100, 0, 0], 1000, 1, 0⟩),
     (20, ⟨1/2, 1/1000, 0, 1260, 100, 1, 0, 2, [200, 7, 0], 1000, 0, 580⟩), (20, ⟨3/4, 1/1000, 0, 1840, 100, 2, 0, 1, [200, 0, 0], 1000, 1, 0⟩)] := by decide +kernel

/-- the hypotheses of `C110_other_targets_do_not_matter` are met: run on two of the three targets, in another order, on two MPI ranks -/
example : ∃ (way : RunWay Nat Nat Nat) (rows' : List (Nat × Row ℚ Nat)), zfindCatalogue exCfg exFit 2 (fun _ => false) 3 [(30, 300), (20, 200)] [20, 30] way = .ok rows' ∧ way ≠ .serial ∧
    (rowsOf 30 rows').map (fun r => (r.z, r.chi2, r.deltachi2)) = [(1/2, 1890, 870), (3/4, 2760, 0)] := by
  obtain ⟨l1, h1⟩ := ringRun_exists [1, 2, 3] 2 (by decide) (fun r => ⟨r, if r = 0 then [1, 2] else [3]⟩) (by
    intro r hr
    have : r = 0 ∨ r = 1 := by omega
    rcases this with rfl | rfl <;> rfl)
  obtain ⟨l2, h2⟩ := ringRun_exists [4, 5] 2 (by decide) (fun r => ⟨r, if r = 0 then [4] else [5]⟩) (by
    intro r hr
    have : r = 0 ∨ r = 1 := by omega
    rcases this with rfl | rfl <;> rfl)
  have hlog : ∀ t ∈ exCfg.templates, RingRun t.redshifts 2 ((fun t : RunTemplate Nat => if t.fulltype = exQ then l1 else l2) t) := by
    intro t ht
    simp only [exCfg, List.mem_cons, List.not_mem_nil, or_false] at ht
    rcases ht with rfl | rfl
    · exact h1
    · exact h2
  obtain ⟨rows', hr1, hr2⟩ := C110_other_targets_do_not_matter exCfg exCfg_good exFit 2 (fun _ => false) 3 [(10, 100), (20, 200), (30, 300)] (by decide) [30, 10, 20] (by decide) .serial trivial
    [(30, 300), (20, 200)] (by decide) (by decide) (by decide) [20, 30] (by decide) (.mpi [[(20, 200)], [(30, 300)]] (fun t => if t.fulltype = exQ then l1 else l2)) ⟨by decide, hlog⟩ _ ex_full
  refine ⟨_, rows', hr1, by simp, ?_⟩
  have h := hr2 30 (by decide)
  have hrhs : rowsOf 30 [(30, (⟨1/2, 1/1000, 0, 1890, 100, 1, 0, 2, [300, 7, 0], 1000, 0, 870⟩ : Row ℚ Nat)), (30, ⟨3/4, 1/1000, 0, 2760, 100, 2, 0, 1, [300, 0, 0], 1000, 1, 0⟩),
     (10, ⟨1/2, 1/1000, 0, 630, 100, 1, 0, 2, [100, 7, 0], 1000, 0, 290⟩), (10, ⟨3/4, 1/1000, 0, 920, 100, 2, 0, 1, [100, 0, 0], 1000, 1, 0⟩),
     (20, ⟨1/2, 1/1000, 0, 1260, 100, 1, 0, 2, [200, 7, 0], 1000, 0, 580⟩), (20, ⟨3/4, 1/1000, 0, 1840, 100, 2, 0, 1, [200, 0, 0], 1000, 1, 0⟩)] =
     [⟨1/2, 1/1000, 0, 1890, 100, 1, 0, 2, [300, 7, 0], 1000, 0, 870⟩, ⟨3/4, 1/1000, 0, 2760, 100, 2, 0, 1, [300, 0, 0], 1000, 1, 0⟩] := by decide +kernel
  rw [hrhs] at h
  generalize hL : rowsOf 30 rows' = L at h
  cases h with
  | cons ha hrest =>
    cases hrest with
    | cons hb hnil =>
      cases hnil
      rw [ha.1, hb.1]
      rfl

/-- **C110** the coefficients' padding does depend on the other targets: with the QSO template only, the `coeff` column is cut to the two coefficients all rows have. (So two runs can be compared only up to
trailing padding, as `SameRow` does.) -/
theorem C110_padding_depends_on_others : ∃ (all all' : List (Nat × List (TemplateFit ℚ Nat))) (rows rows' : List (Nat × Row ℚ Nat)), (∀ e ∈ all', e ∈ all) ∧
    finalTable 2 (fun _ => false) 3 all = .ok rows ∧ finalTable 2 (fun _ => false) 3 all' = .ok rows' ∧ rowsOf 10 rows' ≠ rowsOf 10 rows :=
  ⟨[(10, [exFit (exQ, (100, 5)), ⟨2, 0, false, 100, []⟩]), (20, [exFit (exQ, (100, 5)), exFit (exG, (100, 6))])], [(10, [exFit (exQ, (100, 5)), ⟨2, 0, false, 100, []⟩])],
    [(10, ⟨1/2, 1/1000, 0, 5, 100, 1, 0, 2, [100, 7, 0], 1000, 0, 0⟩), (20, ⟨1/2, 1/1000, 4, 5, 100, 1, 0, 2, [100, 7, 0], 1000, 0, 1⟩), (20, ⟨3/4, 1/1000, 4, 6, 100, 2, 0, 1, [100, 0, 0], 1000, 1, 0⟩)],
    [(10, ⟨1/2, 1/1000, 0, 5, 100, 1, 0, 2, [100, 7], 1000, 0, 0⟩)], by simp, by decide +kernel, by decide +kernel, by decide +kernel⟩

/-- **C110** the other direction does not hold: one more target can make the run raise, and no target gets any row (`C60`). -/
theorem C110_one_more_target_can_abort : ∃ rows, zfindCatalogue exCfg exFit 2 (fun _ => false) 3 [(10, 100)] [10] .serial = .ok rows ∧
    zfindCatalogue exCfg exFit 2 (fun _ => false) 3 [(10, 100), (20, 5)] [10, 20] .serial = .error .valueError :=
  ⟨[(10, ⟨1/2, 1/1000, 0, 630, 100, 1, 0, 2, [100, 7, 0], 1000, 0, 290⟩), (10, ⟨3/4, 1/1000, 0, 920, 100, 2, 0, 1, [100, 0, 0], 1000, 1, 0⟩)], by decide +kernel, by decide +kernel⟩

end Catalogue
end Redrock
