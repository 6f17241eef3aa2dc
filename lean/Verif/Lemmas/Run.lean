import Verif.Model.Run
import Verif.Lemmas.Dict
import Verif.Lemmas.Desi
import Verif.Lemmas.Scan
import Verif.Lemmas.Zfind
import Verif.Props.Scan

/-! Lemmas about the bookkeeping of a run. -/
namespace Redrock
set_option linter.unusedSectionVars false
namespace Run

theorem mapM_ok_iff {α β : Type} (g : α → Py β) : ∀ (xs : List α) (ys : List β), xs.mapM g = .ok ys ↔ List.Forall₂ (fun x y => g x = .ok y) xs ys
  | [], ys => by
    simp only [List.mapM_nil, pure, Except.pure, Except.ok.injEq]
    constructor
    · rintro rfl; exact .nil
    · intro h; cases h; rfl
  | x :: xs, ys => by
    rw [List.mapM_cons]
    cases hx : g x with
    | error e =>
      simp only [bind, Except.bind]
      constructor
      · intro h; simp at h
      · intro h; cases h with | cons h1 _ => rw [hx] at h1; simp at h1
    | ok y =>
      simp only [bind, Except.bind]
      cases hr : xs.mapM g with
      | error e =>
        simp only
        constructor
        · intro h; simp at h
        · intro h
          cases h with
          | @cons _ y' _ ys' h1 h2 =>
            have := (mapM_ok_iff g xs ys').2 h2
            rw [hr] at this; simp at this
      | ok ys' =>
        simp only [pure, Except.pure, Except.ok.injEq]
        constructor
        · rintro rfl
          exact .cons hx ((mapM_ok_iff g xs ys').1 hr)
        · intro h
          cases h with
          | @cons _ y2 _ ys2 h1 h2 =>
            have e2 := (mapM_ok_iff g xs ys2).2 h2
            rw [hr] at e2; rw [hx] at h1
            simp only [Except.ok.injEq] at e2 h1
            rw [h1, e2]

section maps
variable {α κ ν : Type} [DecidableEq κ]

theorem get_map (L : List α) (k : α → κ) (v : α → ν) (hn : (L.map k).Nodup) (x : α) (hx : x ∈ L) : PyDict.get (L.map (fun y => (k y, v y))) (k x) = .ok (v x) := by
  unfold PyDict.get
  rw [PyDict.get?_of_mem _ (by simpa [PyDict.keys, Function.comp_def] using hn) (k x) (v x) (List.mem_map.2 ⟨x, hx, rfl⟩)]

theorem get_map_none (L : List α) (k : α → κ) (v : α → ν) (a : κ) (ha : a ∉ L.map k) : PyDict.get (L.map (fun y => (k y, v y))) a = .error .keyError := by
  unfold PyDict.get
  have : PyDict.get? (L.map (fun y => (k y, v y))) a = none := by
    cases h : PyDict.get? (L.map (fun y => (k y, v y))) a with
    | none => rfl
    | some w =>
      have := PyDict.mem_of_get? _ _ _ h
      obtain ⟨y, hy, e⟩ := List.mem_map.1 this
      simp only [Prod.mk.injEq] at e
      exact absurd (List.mem_map.2 ⟨y, hy, e.1⟩) ha
  rw [this]

theorem set_map (L : List α) (k : α → κ) (v : α → ν) (x : α) (hx : x ∈ L) (w : ν) :
    PyDict.set (L.map (fun y => (k y, v y))) (k x) w = L.map (fun y => (k y, if k y = k x then w else v y)) := by
  unfold PyDict.set
  rw [if_pos]
  · rw [List.map_map]
    apply List.map_congr_left
    intro y _
    simp only [Function.comp]
    by_cases h : k y = k x
    · simp [h]
    · simp [h]
  · simp only [List.any_map, List.any_eq_true, Function.comp, decide_eq_true_eq]
    exact ⟨x, hx, rfl⟩

end maps

section
variable {ι T Z R F M : Type} [DecidableEq ι]

theorem emptyResults_eq (ids : List ι) (hn : ids.Nodup) : (emptyResults ids : PyDict ι (RunResult Z R F M)) = ids.map (fun t => (t, ⟨[], none⟩)) := by
  unfold emptyResults
  suffices h : ∀ (xs : List ι) (d : PyDict ι (RunResult Z R F M)), xs.Nodup → (∀ x ∈ xs, x ∉ PyDict.keys d) →
      xs.foldl (fun d t => PyDict.set d t ⟨[], none⟩) d = d ++ xs.map (fun t => (t, ⟨[], none⟩)) by
    simpa using h ids [] hn (by simp [PyDict.keys])
  intro xs
  induction xs with
  | nil => intro d _ _; simp
  | cons x xs ih =>
    intro d hnd hd
    rw [List.foldl_cons, set_new d x _ (hd x (by simp))]
    rw [ih _ (List.nodup_cons.1 hnd).2]
    · simp
    · intro y hy
      have : PyDict.keys (d ++ [(x, (⟨[], none⟩ : RunResult Z R F M))]) = PyDict.keys d ++ [x] := by simp [PyDict.keys]
      rw [this, List.mem_append, List.mem_singleton]
      rintro (h | h)
      · exact hd y (List.mem_cons_of_mem _ hy) h
      · subst h; exact (List.nodup_cons.1 hnd).1 hy

theorem perm_lift {α β : Type} {k : α → β} : ∀ (L : List α) (ks : List β), ks.Perm (L.map k) → ∃ xs : List α, xs.Perm L ∧ xs.map k = ks
  | [], ks, h => ⟨[], .refl _, by simpa using h.symm⟩
  | a :: L, ks, h => by
    have hm : k a ∈ ks := h.mem_iff.2 (by simp)
    obtain ⟨s, t, rfl⟩ := List.append_of_mem hm
    have h2 : (s ++ t).Perm (L.map k) := by
      have : (k a :: (s ++ t)).Perm (k a :: L.map k) := (List.perm_middle.symm).trans h
      exact (List.perm_cons _).1 this
    obtain ⟨xs, hx, he⟩ := perm_lift L (s ++ t) h2
    obtain ⟨x1, x2, rfl, e1, e2⟩ := List.map_eq_append_iff.1 he
    exact ⟨x1 ++ a :: x2, List.perm_middle.trans (hx.cons a), by simp [e1, e2]⟩

/-- the store loop over a set of targets -/
theorem storeScan_fold (t : RunTemplate Z) (L : List (ι × T)) (hn : (L.map (·.1)).Nodup) (rows : ι × T → List R) (zd : PyDict ι (List R)) (hzd : ∀ e ∈ L, PyDict.get zd e.1 = .ok (rows e)) : ∀ (xs : List (ι × T)) (g : ι × T → RunResult Z R F M),
    (∀ x ∈ xs, x ∈ L) → (xs.map (·.1)).Nodup →
    (xs.map (·.1)).foldlM (storeScan t zd) (L.map (fun e => (e.1, g e))) =
      .ok (L.map (fun e => (e.1, if e.1 ∈ xs.map (·.1) then { g e with scans := PyDict.set (g e).scans t.fulltype ⟨t.redshifts, rows e, none⟩ } else g e)))
  | [], g, _, _ => by simp; rfl
  | x :: xs, g, hs, hnd => by
    have hx : x ∈ L := hs x (by simp)
    rw [List.map_cons, List.foldlM_cons]
    have h1 : storeScan t zd (L.map (fun e => (e.1, g e))) x.1 =
        .ok (L.map (fun e => (e.1, if e.1 = x.1 then { g x with scans := PyDict.set (g x).scans t.fulltype ⟨t.redshifts, rows x, none⟩ } else g e))) := by
      unfold storeScan
      rw [get_map L (·.1) g hn x hx, hzd x hx]
      simp only [bind, Except.bind, pure, Except.pure]
      rw [set_map L (·.1) g x hx]
    rw [h1]
    simp only [bind, Except.bind]
    rw [List.map_cons, List.nodup_cons] at hnd
    rw [storeScan_fold t L hn rows zd hzd xs (fun e => if e.1 = x.1 then { g x with scans := PyDict.set (g x).scans t.fulltype ⟨t.redshifts, rows x, none⟩ } else g e)
      (fun y hy => hs y (List.mem_cons_of_mem _ hy)) hnd.2]
    congr 1
    apply List.map_congr_left
    intro e he
    congr 1
    by_cases hex : e.1 = x.1
    · have : e = x := List.inj_on_of_nodup_map hn he hx hex
      subst this
      simp [hnd.1]
    · have hm : e.1 ∈ x.1 :: xs.map (·.1) ↔ e.1 ∈ xs.map (·.1) := by simp [hex]
      simp only [hex, if_false, hm, List.map_cons]

theorem storeTemplate_eq (le : ι → ι → Bool) (t : RunTemplate Z) (L : List (ι × T)) (hn : (L.map (·.1)).Nodup) (rows : ι × T → List R) (g : ι × T → RunResult Z R F M)
    (zd : PyDict ι (List R)) (hzd : ∀ e ∈ L, PyDict.get zd e.1 = .ok (rows e)) (hkz : (PyDict.keys zd).Perm (L.map (·.1))) :
    storeTemplate le (L.map (fun e => (e.1, g e))) (t, zd) =
      .ok (L.map (fun e => (e.1, { g e with scans := PyDict.set (g e).scans t.fulltype ⟨t.redshifts, rows e, none⟩ }))) := by
  unfold storeTemplate
  simp only
  have hp1 : (pySort le (PyDict.keys zd)).Perm (L.map (·.1)) := (List.perm_insertionSort _ _).trans hkz
  obtain ⟨xs, hp, hx2⟩ : ∃ xs : List (ι × T), xs.Perm L ∧ xs.map (·.1) = pySort le (PyDict.keys zd) := perm_lift L _ hp1
  rw [← hx2, storeScan_fold t L hn rows zd hzd xs g (fun x hx => hp.mem_iff.1 hx) ((hp.map _).nodup_iff.2 hn)]
  congr 1
  apply List.map_congr_left
  intro e he
  rw [if_pos (List.mem_map.2 ⟨e, hp.mem_iff.2 he, rfl⟩)]

/-- the whole scan -/
theorem calcZchi2Targets_eq (le : ι → ι → Bool) (f : RunTemplate Z → T → Z → R) (L : List (ι × T)) (hn : (L.map (·.1)).Nodup) (templates : List (RunTemplate Z))
    (ht : (templates.map (·.fulltype)).Nodup) (scan : RunTemplate Z → Py (PyDict ι (List R)))
    (hscan : ∀ t ∈ templates, ∃ zd, scan t = .ok zd ∧ (∀ e ∈ L, PyDict.get zd e.1 = .ok (t.redshifts.map (f t e.2))) ∧ (PyDict.keys zd).Perm (L.map (·.1))) :
    (calcZchi2Targets le scan templates (L.map (·.1)) : Py (PyDict ι (RunResult Z R F M))) =
      .ok (L.map (fun e => (e.1, ⟨templates.map (fun t => (t.fulltype, ⟨t.redshifts, t.redshifts.map (f t e.2), none⟩)), none⟩))) := by
  unfold calcZchi2Targets
  rw [emptyResults_eq _ hn, List.map_map]
  suffices h : ∀ (todo done : List (RunTemplate Z)), (∀ t ∈ todo, t ∈ templates) → ((done ++ todo).map (·.fulltype)).Nodup →
      todo.foldlM (fun results t => do
        let z ← scan t
        storeTemplate le results (t, z))
        (L.map (fun e => (e.1, (⟨done.map (fun t => (t.fulltype, ⟨t.redshifts, t.redshifts.map (f t e.2), none⟩)), none⟩ : RunResult Z R F M)))) =
      .ok (L.map (fun e => (e.1, (⟨(done ++ todo).map (fun t => (t.fulltype, ⟨t.redshifts, t.redshifts.map (f t e.2), none⟩)), none⟩ : RunResult Z R F M)))) by
    have := h templates [] (fun t h => h) (by simpa using ht)
    simpa [Function.comp_def] using this
  intro todo
  induction todo with
  | nil => intro done _ _; simp; rfl
  | cons t todo ih =>
    intro done hsub hnd
    obtain ⟨zd, hz1, hz2, hz3⟩ := hscan t (hsub t (by simp))
    rw [List.foldlM_cons, hz1]
    simp only [bind, Except.bind]
    rw [storeTemplate_eq le t L hn (fun e => t.redshifts.map (f t e.2)) _ zd hz2 hz3]
    simp only
    have hnew : ∀ e : ι × T, PyDict.set (done.map (fun t => (t.fulltype, (⟨t.redshifts, t.redshifts.map (f t e.2), none⟩ : RunEntry Z R F)))) t.fulltype
        ⟨t.redshifts, t.redshifts.map (f t e.2), none⟩ = (done ++ [t]).map (fun t => (t.fulltype, ⟨t.redshifts, t.redshifts.map (f t e.2), none⟩)) := by
      intro e
      rw [set_new]
      · simp
      · simp only [PyDict.keys, List.map_map, Function.comp_def]
        intro hm
        rw [List.map_append, List.map_cons] at hnd
        have := List.disjoint_of_nodup_append hnd
        exact this hm (by simp)
    simp only [hnew]
    have := ih (done ++ [t]) (fun x hx => hsub x (List.mem_cons_of_mem _ hx)) (by simpa using hnd)
    simp only [bind, Except.bind] at this
    rw [this]; simp

/-- Results of the targets `L`: entry by entry `rows`, `fits`, and `md`. -/
def stateOf (L : List (ι × T)) (templates : List (RunTemplate Z)) (rows : ι × T → RunTemplate Z → List R) (fits : ι × T → RunTemplate Z → Option F) (md : ι × T → Option M) :
    PyDict ι (RunResult Z R F M) :=
  L.map (fun e => (e.1, ⟨templates.map (fun t => (t.fulltype, ⟨t.redshifts, rows e t, fits e t⟩)), md e⟩))

theorem applyPriors_eq (prior : ι → List Z → List R → List R) (L : List (ι × T)) (templates : List (RunTemplate Z)) (rows : ι × T → RunTemplate Z → List R)
    (fits : ι × T → RunTemplate Z → Option F) (md : ι × T → Option M) :
    applyPriors prior (stateOf L templates rows fits md) = stateOf L templates (fun e t => prior e.1 t.redshifts (rows e t)) fits md := by
  simp [applyPriors, stateOf, Function.comp_def]

/-- one fit -/
theorem fitStep_eq (fitz : T → RunTemplate Z → List R → Py F) (L : List (ι × T)) (hn : (L.map (·.1)).Nodup) (templates : List (RunTemplate Z)) (ht : (templates.map (·.fulltype)).Nodup)
    (rows : ι × T → RunTemplate Z → List R) (fits : ι × T → RunTemplate Z → Option F) (md : ι × T → Option M) (t : RunTemplate Z) (htm : t ∈ templates) (tg : ι × T) (htg : tg ∈ L) :
    fitStep fitz (stateOf L templates rows fits md) (t, tg) = match fitz tg.2 t (rows tg t) with
      | .ok z => .ok (stateOf L templates rows (fun e u => if e.1 = tg.1 ∧ u.fulltype = t.fulltype then some z else fits e u) md)
      | .error e => .error e := by
  unfold fitStep stateOf
  simp only
  rw [get_map L (·.1) _ hn tg htg]
  simp only [bind, Except.bind]
  rw [get_map templates (·.fulltype) _ ht t htm]
  simp only
  cases fitz tg.2 t (rows tg t) with
  | error e => rfl
  | ok z =>
    simp only [pure, Except.pure]
    rw [set_map templates (·.fulltype) _ t htm, set_map L (·.1) _ tg htg]
    congr 1
    apply List.map_congr_left
    intro e he
    congr 1
    by_cases hex : e.1 = tg.1
    · have : e = tg := List.inj_on_of_nodup_map hn he htg hex
      subst this
      simp only [if_true, true_and]
      congr 1
      apply List.map_congr_left
      intro u hu
      congr 1
      by_cases hut : u.fulltype = t.fulltype
      · have : u = t := List.inj_on_of_nodup_map ht hu htm hut
        subst this; simp
      · simp [hut]
    · simp [hex]

/-- all fits: they succeed exactly if each of them does -/
theorem fitFold (fitz : T → RunTemplate Z → List R → Py F) (L : List (ι × T)) (hn : (L.map (·.1)).Nodup) (templates : List (RunTemplate Z)) (ht : (templates.map (·.fulltype)).Nodup)
    (rows : ι × T → RunTemplate Z → List R) (md : ι × T → Option M) (res : PyDict ι (RunResult Z R F M)) : ∀ (steps : List (RunTemplate Z × (ι × T))) (fits : ι × T → RunTemplate Z → Option F),
    (∀ x ∈ steps, x.1 ∈ templates ∧ x.2 ∈ L) →
    (steps.foldlM (fitStep fitz) (stateOf L templates rows fits md) = .ok res ↔
      (∀ x ∈ steps, ∃ z, fitz x.2.2 x.1 (rows x.2 x.1) = .ok z) ∧
      res = stateOf L templates rows (fun e u => if (∃ x ∈ steps, e.1 = x.2.1 ∧ u.fulltype = x.1.fulltype) then (fitz e.2 u (rows e u)).toOption else fits e u) md)
  | [], fits, _ => by
    simp [pure, Except.pure, eq_comm]
  | x :: steps, fits, hs => by
    obtain ⟨t, tg⟩ := x
    obtain ⟨htm, htg⟩ := hs (t, tg) (by simp)
    rw [List.foldlM_cons, fitStep_eq fitz L hn templates ht rows fits md t htm tg htg]
    cases hz : fitz tg.2 t (rows tg t) with
    | error e =>
      simp only [bind, Except.bind]
      constructor
      · intro h; simp at h
      · rintro ⟨h, _⟩
        obtain ⟨z, hz'⟩ := h (t, tg) (by simp)
        simp only at hz'
        rw [hz] at hz'; simp at hz'
    | ok z =>
      simp only [bind, Except.bind]
      rw [fitFold fitz L hn templates ht rows md res steps _ (fun y hy => hs y (List.mem_cons_of_mem _ hy))]
      have hst : stateOf L templates rows (fun e u => if (∃ x ∈ steps, e.1 = x.2.1 ∧ u.fulltype = x.1.fulltype) then (fitz e.2 u (rows e u)).toOption else
            if e.1 = tg.1 ∧ u.fulltype = t.fulltype then some z else fits e u) md =
          stateOf L templates rows (fun e u => if (∃ x ∈ (t, tg) :: steps, e.1 = x.2.1 ∧ u.fulltype = x.1.fulltype) then (fitz e.2 u (rows e u)).toOption else fits e u) md := by
        unfold stateOf
        apply List.map_congr_left
        intro e he
        congr 2
        apply List.map_congr_left
        intro u hu
        congr 2
        simp only [List.mem_cons, exists_eq_or_imp]
        by_cases h1 : ∃ x ∈ steps, e.1 = x.2.1 ∧ u.fulltype = x.1.fulltype
        · simp [h1]
        · by_cases h2 : e.1 = tg.1 ∧ u.fulltype = t.fulltype
          · have e1 : e = tg := List.inj_on_of_nodup_map hn he htg h2.1
            have e2 : u = t := List.inj_on_of_nodup_map ht hu htm h2.2
            subst e1; subst e2
            simp [h1, hz, Except.toOption]
          · simp only [h1, h2, or_false, if_false]
      rw [hst]
      simp only [List.forall_mem_cons]
      constructor
      · rintro ⟨a, b⟩; exact ⟨⟨⟨z, hz⟩, a⟩, b⟩
      · rintro ⟨⟨_, a⟩, b⟩; exact ⟨a, b⟩

theorem metaFold' (mdOf : T → M) (L : List (ι × T)) (hn : (L.map (·.1)).Nodup) (templates : List (RunTemplate Z)) (rows : ι × T → RunTemplate Z → List R)
    (fits : ι × T → RunTemplate Z → Option F) : ∀ (xs : List (ι × T)) (md : ι × T → Option M), (∀ x ∈ xs, x ∈ L) →
    xs.foldlM (metaStepRun mdOf) (stateOf L templates rows fits md) = .ok (stateOf L templates rows fits (fun e => if e.1 ∈ xs.map (·.1) then some (mdOf e.2) else md e))
  | [], md, _ => by simp; rfl
  | x :: xs, md, hs => by
    have hx := hs x (by simp)
    rw [List.foldlM_cons]
    have h1 : metaStepRun mdOf (stateOf L templates rows fits md) x = .ok (stateOf L templates rows fits (fun e => if e.1 = x.1 then some (mdOf e.2) else md e)) := by
      unfold metaStepRun stateOf
      rw [get_map L (·.1) _ hn x hx]
      simp only [bind, Except.bind, pure, Except.pure]
      rw [set_map L (·.1) _ x hx]
      congr 1
      apply List.map_congr_left
      intro e he
      congr 1
      by_cases hex : e.1 = x.1
      · have : e = x := List.inj_on_of_nodup_map hn he hx hex
        subst this; simp
      · simp [hex]
    rw [h1]
    simp only [bind, Except.bind]
    rw [metaFold' mdOf L hn templates rows fits xs _ (fun y hy => hs y (List.mem_cons_of_mem _ hy))]
    congr 2
    funext e
    by_cases h2 : e.1 ∈ xs.map (·.1)
    · simp only [h2, if_true, List.map_cons, List.mem_cons, or_true]
    · by_cases h3 : e.1 = x.1
      · rw [if_neg h2, if_pos h3, if_pos (by rw [List.map_cons, h3]; exact List.mem_cons_self)]
      · simp only [h2, if_false, h3, List.map_cons, List.mem_cons, or_false]

theorem mpFitStore_eq (L : List (ι × T)) (hn : (L.map (·.1)).Nodup) (templates : List (RunTemplate Z)) (ht : (templates.map (·.fulltype)).Nodup)
    (rows : ι × T → RunTemplate Z → List R) (fits : ι × T → RunTemplate Z → Option F) (md : ι × T → Option M) (t : RunTemplate Z) (htm : t ∈ templates) (tg : ι × T) (htg : tg ∈ L) (z : F) :
    mpFitStore t (stateOf L templates rows fits md) (tg.1, z) =
      .ok (stateOf L templates rows (fun e u => if e.1 = tg.1 ∧ u.fulltype = t.fulltype then some z else fits e u) md) := by
  have h := fitStep_eq (fun _ _ _ => Except.ok z) L hn templates ht rows fits md t htm tg htg
  simp only at h
  rw [← h]
  unfold fitStep mpFitStore
  simp only
  cases PyDict.get (stateOf L templates rows fits md) tg.1 with
  | error e => rfl
  | ok r =>
    simp only [bind, Except.bind]

theorem mpStoreFold (fitz : T → RunTemplate Z → List R → Py F) (L : List (ι × T)) (hn : (L.map (·.1)).Nodup) (templates : List (RunTemplate Z)) (ht : (templates.map (·.fulltype)).Nodup)
    (rows : ι × T → RunTemplate Z → List R) (md : ι × T → Option M) (t : RunTemplate Z) (htm : t ∈ templates) : ∀ (tgs : List (ι × T)) (msgs : List (ι × F)) (fits : ι × T → RunTemplate Z → Option F),
    (∀ x ∈ tgs, x ∈ L) → List.Forall₂ (fun tg m => m.1 = tg.1 ∧ fitz tg.2 t (rows tg t) = .ok m.2) tgs msgs →
    msgs.foldlM (mpFitStore t) (stateOf L templates rows fits md) =
      .ok (stateOf L templates rows (fun e u => if (e.1 ∈ tgs.map (·.1) ∧ u.fulltype = t.fulltype) then (fitz e.2 u (rows e u)).toOption else fits e u) md)
  | [], _, fits, _, h => by cases h; simp; rfl
  | tg :: tgs, _, fits, hs, h => by
    cases h with
    | @cons _ m _ msgs h1 h2 =>
    obtain ⟨mid, mz⟩ := m
    obtain ⟨hm1, hm2⟩ := h1
    simp only at hm1 hm2
    subst hm1
    have htg := hs tg (by simp)
    rw [List.foldlM_cons, mpFitStore_eq L hn templates ht rows fits md t htm tg htg]
    simp only [bind, Except.bind]
    rw [mpStoreFold fitz L hn templates ht rows md t htm tgs msgs _ (fun y hy => hs y (List.mem_cons_of_mem _ hy)) h2]
    congr 1
    unfold stateOf
    apply List.map_congr_left
    intro e he
    congr 2
    apply List.map_congr_left
    intro u hu
    congr 2
    simp only [List.map_cons, List.mem_cons]
    by_cases hu2 : u.fulltype = t.fulltype
    · have e2 : u = t := List.inj_on_of_nodup_map ht hu htm hu2
      subst e2
      by_cases h3 : e.1 ∈ tgs.map (·.1)
      · rw [if_pos ⟨h3, rfl⟩, if_pos ⟨.inr h3, rfl⟩]
      · by_cases h4 : e.1 = tg.1
        · have e1 : e = tg := List.inj_on_of_nodup_map hn he htg h4
          subst e1
          simp [h3, hm2, Except.toOption]
        · simp [h3, h4]
    · simp [hu2]

theorem mpFitWorker_iff (fitz : T → RunTemplate Z → List R → Py F) (L : List (ι × T)) (hn : (L.map (·.1)).Nodup) (templates : List (RunTemplate Z)) (ht : (templates.map (·.fulltype)).Nodup)
    (rows : ι × T → RunTemplate Z → List R) (fits : ι × T → RunTemplate Z → Option F) (md : ι × T → Option M) (t : RunTemplate Z) (htm : t ∈ templates) (tgs : List (ι × T)) (hs : ∀ x ∈ tgs, x ∈ L)
    (ms : List (ι × F)) :
    mpFitWorker fitz (stateOf L templates rows fits md) t tgs = .ok ms ↔ List.Forall₂ (fun tg m => m.1 = tg.1 ∧ fitz tg.2 t (rows tg t) = .ok m.2) tgs ms := by
  unfold mpFitWorker
  rw [mapM_ok_iff]
  have key : ∀ tg ∈ tgs, ∀ m : ι × F, ((do
      let r ← PyDict.get (stateOf L templates rows fits md) tg.1
      let e ← PyDict.get r.scans t.fulltype
      let z ← fitz tg.2 t e.rows
      return (tg.1, z)) = (Except.ok m : Py (ι × F))) ↔ (m.1 = tg.1 ∧ fitz tg.2 t (rows tg t) = .ok m.2) := by
    intro tg htg m
    unfold stateOf
    rw [get_map L (·.1) _ hn tg (hs tg htg)]
    simp only [bind, Except.bind]
    rw [get_map templates (·.fulltype) _ ht t htm]
    simp only
    obtain ⟨m1, m2⟩ := m
    cases fitz tg.2 t (rows tg t) with
    | error e => simp
    | ok z =>
      simp only [pure, Except.pure, Except.ok.injEq, Prod.mk.injEq]
      constructor
      · rintro ⟨a, b⟩; exact ⟨a.symm, b⟩
      · rintro ⟨a, b⟩; exact ⟨a.symm, b⟩
  clear hs
  constructor
  · intro h
    induction h with
    | nil => exact .nil
    | @cons a b as bs h1 _ ih => exact .cons ((key a (by simp) b).1 h1) (ih (fun tg htg => key tg (by simp [htg])))
  · intro h
    induction h with
    | nil => exact .nil
    | @cons a b as bs h1 _ ih => exact .cons ((key a (by simp) b).2 h1) (ih (fun tg htg => key tg (by simp [htg])))

/-- the multiprocessing fits with one template -/
theorem mpFitTemplate_iff (fitz : T → RunTemplate Z → List R → Py F) (L : List (ι × T)) (hn : (L.map (·.1)).Nodup) (templates : List (RunTemplate Z)) (ht : (templates.map (·.fulltype)).Nodup)
    (rows : ι × T → RunTemplate Z → List R) (fits : ι × T → RunTemplate Z → Option F) (md : ι × T → Option M) (t : RunTemplate Z) (htm : t ∈ templates) (mpdist : List (List ι))
    (arrival : RunTemplate Z → List Nat) (hcover : ∀ x ∈ L, ∃ i ∈ arrival t, x.1 ∈ (mpdist[i]?).getD []) (res : PyDict ι (RunResult Z R F M)) :
    mpFitTemplate fitz L mpdist arrival (stateOf L templates rows fits md) t = .ok res ↔
      (∀ tg ∈ L, ∃ z, fitz tg.2 t (rows tg t) = .ok z) ∧
      res = stateOf L templates rows (fun e u => if u.fulltype = t.fulltype then (fitz e.2 u (rows e u)).toOption else fits e u) md := by
  have hsub : ∀ i, ∀ x ∈ mpData L mpdist i, x ∈ L := fun i x hx => (List.mem_filter.1 hx).1
  have hst : stateOf L templates rows (fun e u => if (e.1 ∈ (((arrival t).map (mpData L mpdist)).flatten).map (·.1) ∧ u.fulltype = t.fulltype) then (fitz e.2 u (rows e u)).toOption else fits e u) md =
      stateOf L templates rows (fun e u => if u.fulltype = t.fulltype then (fitz e.2 u (rows e u)).toOption else fits e u) md := by
    unfold stateOf
    apply List.map_congr_left
    intro e he
    have : e.1 ∈ (((arrival t).map (mpData L mpdist)).flatten).map (·.1) := by
      obtain ⟨i, hi, hx⟩ := hcover e he
      exact List.mem_map.2 ⟨e, List.mem_flatten.2 ⟨_, List.mem_map.2 ⟨i, hi, rfl⟩, List.mem_filter.2 ⟨he, by simpa using hx⟩⟩, rfl⟩
    simp only [this, true_and]
  have hflat : ∀ (is : List Nat) (msgs : List (List (ι × F))),
      List.Forall₂ (fun i m => List.Forall₂ (fun tg m => m.1 = tg.1 ∧ fitz tg.2 t (rows tg t) = .ok m.2) (mpData L mpdist i) m) is msgs →
      List.Forall₂ (fun tg m => m.1 = tg.1 ∧ fitz tg.2 t (rows tg t) = .ok m.2) ((is.map (mpData L mpdist)).flatten) msgs.flatten := by
    intro is msgs h
    induction h with
    | nil => exact .nil
    | cons h1 _ ih => exact List.rel_append h1 ih
  have hmem : ∀ x ∈ ((arrival t).map (mpData L mpdist)).flatten, x ∈ L := by
    intro x hx
    obtain ⟨l, h1, h2⟩ := List.mem_flatten.1 hx
    obtain ⟨i, _, rfl⟩ := List.mem_map.1 h1
    exact hsub i x h2
  unfold mpFitTemplate
  constructor
  · intro h
    cases hm : (arrival t).mapM (fun i => mpFitWorker fitz (stateOf L templates rows fits md) t (mpData L mpdist i)) with
    | error e => rw [hm] at h; simp [bind, Except.bind] at h
    | ok msgs =>
      rw [hm] at h
      simp only [bind, Except.bind] at h
      have h2 := (mapM_ok_iff _ _ _).1 hm
      have h3 := hflat _ _ (h2.imp (fun i m hi => (mpFitWorker_iff fitz L hn templates ht rows fits md t htm _ (hsub i) m).1 hi))
      rw [mpStoreFold fitz L hn templates ht rows md t htm _ _ fits hmem h3, hst] at h
      simp only [Except.ok.injEq] at h
      refine ⟨?_, h.symm⟩
      intro tg htg
      obtain ⟨i, hi, hx⟩ := hcover tg htg
      have hin : tg ∈ ((arrival t).map (mpData L mpdist)).flatten :=
        List.mem_flatten.2 ⟨_, List.mem_map.2 ⟨i, hi, rfl⟩, List.mem_filter.2 ⟨htg, by simpa using hx⟩⟩
      clear h h2 hm hst hmem
      generalize ((arrival t).map (mpData L mpdist)).flatten = l at h3 hin
      generalize msgs.flatten = fl at h3
      induction h3 with
      | nil => simp at hin
      | cons a _ ih =>
        rcases List.mem_cons.1 hin with rfl | h
        · exact ⟨_, a.2⟩
        · exact ih h
  · rintro ⟨hok, rfl⟩
    obtain ⟨msgs, hmsgs⟩ : ∃ msgs, (arrival t).mapM (fun i => mpFitWorker fitz (stateOf L templates rows fits md) t (mpData L mpdist i)) = .ok msgs := by
      have hone : ∀ i, ∃ m, mpFitWorker fitz (stateOf L templates rows fits md) t (mpData L mpdist i) = .ok m := by
        intro i
        have hsi := hsub i
        obtain ⟨m, hm⟩ : ∃ m, List.Forall₂ (fun tg (m : ι × F) => m.1 = tg.1 ∧ fitz tg.2 t (rows tg t) = .ok m.2) (mpData L mpdist i) m := by
          generalize mpData L mpdist i = l at hsi
          induction l with
          | nil => exact ⟨[], .nil⟩
          | cons a l ih =>
            obtain ⟨m, hm⟩ := ih (fun x hx => hsi x (by simp [hx]))
            obtain ⟨z, hz⟩ := hok a (hsi a (by simp))
            exact ⟨(a.1, z) :: m, .cons ⟨rfl, hz⟩ hm⟩
        exact ⟨m, (mpFitWorker_iff fitz L hn templates ht rows fits md t htm _ (hsub i) m).2 hm⟩
      generalize arrival t = is
      induction is with
      | nil => exact ⟨[], rfl⟩
      | cons i is ih =>
        obtain ⟨m, hm⟩ := hone i
        obtain ⟨ms, hms⟩ := ih
        refine ⟨m :: ms, ?_⟩
        rw [mapM_ok_iff] at hms ⊢
        exact .cons hm hms
    have h2 := (mapM_ok_iff _ _ _).1 hmsgs
    have h3 := hflat _ _ (h2.imp (fun i m hi => (mpFitWorker_iff fitz L hn templates ht rows fits md t htm _ (hsub i) m).1 hi))
    rw [hmsgs]
    simp only [bind, Except.bind]
    rw [mpStoreFold fitz L hn templates ht rows md t htm _ _ fits hmem h3, hst]

/-- all multiprocessing fits -/
theorem mpFitAll_iff (fitz : T → RunTemplate Z → List R → Py F) (L : List (ι × T)) (hn : (L.map (·.1)).Nodup) (templates : List (RunTemplate Z)) (ht : (templates.map (·.fulltype)).Nodup)
    (rows : ι × T → RunTemplate Z → List R) (md : ι × T → Option M) (mpdist : List (List ι)) (arrival : RunTemplate Z → List Nat) (res : PyDict ι (RunResult Z R F M)) :
    ∀ (sorted : List (RunTemplate Z)) (fits : ι × T → RunTemplate Z → Option F), (∀ t ∈ sorted, t ∈ templates) → (∀ t ∈ sorted, ∀ x ∈ L, ∃ i ∈ arrival t, x.1 ∈ (mpdist[i]?).getD []) →
    (sorted.foldlM (mpFitTemplate fitz L mpdist arrival) (stateOf L templates rows fits md) = .ok res ↔
      (∀ t ∈ sorted, ∀ tg ∈ L, ∃ z, fitz tg.2 t (rows tg t) = .ok z) ∧
      res = stateOf L templates rows (fun e u => if u.fulltype ∈ sorted.map (·.fulltype) then (fitz e.2 u (rows e u)).toOption else fits e u) md)
  | [], fits, _, _ => by simp [pure, Except.pure, eq_comm]
  | t :: sorted, fits, hs, hc => by
    rw [List.foldlM_cons]
    have h1 := fun r => mpFitTemplate_iff fitz L hn templates ht rows fits md t (hs t (by simp)) mpdist arrival (hc t (by simp)) r
    have hst : ∀ (fa : ι × T → RunTemplate Z → Option F), stateOf L templates rows (fun e u => if u.fulltype ∈ sorted.map (·.fulltype) then (fitz e.2 u (rows e u)).toOption else
          if u.fulltype = t.fulltype then (fitz e.2 u (rows e u)).toOption else fa e u) md =
        stateOf L templates rows (fun e u => if u.fulltype ∈ (t :: sorted).map (·.fulltype) then (fitz e.2 u (rows e u)).toOption else fa e u) md := by
      intro fa
      congr 1
      funext e u
      by_cases a : u.fulltype ∈ sorted.map (·.fulltype)
      · simp only [a, if_true, List.map_cons, List.mem_cons, or_true]
      · by_cases b : u.fulltype = t.fulltype
        · rw [if_neg a, if_pos b, if_pos (by rw [List.map_cons, b]; exact List.mem_cons_self)]
        · simp only [a, b, if_false, List.map_cons, List.mem_cons, or_false]
    cases hf : mpFitTemplate fitz L mpdist arrival (stateOf L templates rows fits md) t with
    | error e =>
      simp only [bind, Except.bind]
      constructor
      · intro h; simp at h
      · rintro ⟨h, _⟩
        have := (h1 _).2 ⟨h t (by simp), rfl⟩
        rw [hf] at this; simp at this
    | ok r =>
      obtain ⟨a1, a2⟩ := (h1 r).1 hf
      simp only [bind, Except.bind]
      rw [a2, mpFitAll_iff fitz L hn templates ht rows md mpdist arrival res sorted _ (fun u hu => hs u (by simp [hu])) (fun u hu => hc u (by simp [hu])), hst]
      simp only [List.forall_mem_cons]
      constructor
      · rintro ⟨b, c⟩; exact ⟨⟨a1, b⟩, c⟩
      · rintro ⟨⟨_, b⟩, c⟩; exact ⟨b, c⟩

/-- what a rank hands to the gather -/
theorem rankFinish_iff (prior : ι → List Z → List R → List R) (fitz : T → RunTemplate Z → List R → Py F) (mdOf : T → M) (sorted : List (RunTemplate Z)) (loc L : List (ι × T))
    (hn : (L.map (·.1)).Nodup) (templates : List (RunTemplate Z)) (ht : (templates.map (·.fulltype)).Nodup) (rows : ι × T → RunTemplate Z → List R)
    (hl : ∀ x ∈ loc, x ∈ L) (hs : ∀ t ∈ sorted, t ∈ templates) (res : PyDict ι (RunResult Z R F M)) :
    rankFinish prior fitz mdOf sorted loc (stateOf L templates rows (fun _ _ => none) (fun _ => none)) = .ok res ↔
      (∀ t ∈ sorted, ∀ tg ∈ loc, ∃ z, fitz tg.2 t (prior tg.1 t.redshifts (rows tg t)) = .ok z) ∧
      res = stateOf L templates (fun e t => prior e.1 t.redshifts (rows e t))
        (fun e u => if e.1 ∈ loc.map (·.1) ∧ u.fulltype ∈ sorted.map (·.fulltype) then (fitz e.2 u (prior e.1 u.redshifts (rows e u))).toOption else none)
        (fun e => if e.1 ∈ loc.map (·.1) then some (mdOf e.2) else none) := by
  unfold rankFinish fitLocal
  rw [applyPriors_eq]
  have hsteps : ∀ x ∈ sorted.flatMap (fun t => loc.map (fun tg => (t, tg))), x.1 ∈ templates ∧ x.2 ∈ L := by
    intro x hx
    obtain ⟨t, h1, h2⟩ := List.mem_flatMap.1 hx
    obtain ⟨tg, h3, rfl⟩ := List.mem_map.1 h2
    exact ⟨hs t h1, hl tg h3⟩
  have hfe : ∀ (e : ι × T) (u : RunTemplate Z), (∃ x ∈ sorted.flatMap (fun t => loc.map (fun tg => (t, tg))), e.1 = x.2.1 ∧ u.fulltype = x.1.fulltype) ↔
      (e.1 ∈ loc.map (·.1) ∧ u.fulltype ∈ sorted.map (·.fulltype)) := by
    intro e u
    constructor
    · rintro ⟨x, hx, h1, h2⟩
      obtain ⟨t, h3, h4⟩ := List.mem_flatMap.1 hx
      obtain ⟨tg, h5, rfl⟩ := List.mem_map.1 h4
      exact ⟨List.mem_map.2 ⟨tg, h5, h1.symm⟩, List.mem_map.2 ⟨t, h3, h2.symm⟩⟩
    · rintro ⟨h1, h2⟩
      obtain ⟨tg, h3, h4⟩ := List.mem_map.1 h1
      obtain ⟨t, h5, h6⟩ := List.mem_map.1 h2
      exact ⟨(t, tg), List.mem_flatMap.2 ⟨t, h5, List.mem_map.2 ⟨tg, h3, rfl⟩⟩, h4.symm, h6.symm⟩
  have key := fun r => fitFold (M := M) fitz L hn templates ht (fun e t => prior e.1 t.redshifts (rows e t)) (fun _ => none) r (sorted.flatMap (fun t => loc.map (fun tg => (t, tg)))) (fun _ _ => none) hsteps
  simp only [hfe] at key
  have hall : (∀ x ∈ sorted.flatMap (fun t => loc.map (fun tg => (t, tg))), ∃ z, fitz x.2.2 x.1 (prior x.2.1 x.1.redshifts (rows x.2 x.1)) = .ok z) ↔
      ∀ t ∈ sorted, ∀ tg ∈ loc, ∃ z, fitz tg.2 t (prior tg.1 t.redshifts (rows tg t)) = .ok z := by
    constructor
    · intro h t ht tg htg
      exact h (t, tg) (List.mem_flatMap.2 ⟨t, ht, List.mem_map.2 ⟨tg, htg, rfl⟩⟩)
    · intro h x hx
      obtain ⟨t, h3, h4⟩ := List.mem_flatMap.1 hx
      obtain ⟨tg, h5, rfl⟩ := List.mem_map.1 h4
      exact h t h3 tg h5
  rw [hall] at key
  cases hf : (sorted.flatMap (fun t => loc.map (fun tg => (t, tg)))).foldlM (fitStep fitz) (stateOf L templates (fun e t => prior e.1 t.redshifts (rows e t)) (fun _ _ => none) (fun _ => none) :
      PyDict ι (RunResult Z R F M)) with
  | error e =>
    simp only [bind, Except.bind]
    constructor
    · intro h; simp at h
    · rintro ⟨h, _⟩
      have := (key _).2 ⟨h, rfl⟩
      rw [hf] at this; simp at this
  | ok r =>
    obtain ⟨h1, h2⟩ := (key r).1 hf
    simp only [bind, Except.bind]
    rw [h2, metaFold' mdOf L hn templates _ _ loc _ hl]
    simp only [Except.ok.injEq]
    constructor
    · intro h; exact ⟨h1, h.symm⟩
    · rintro ⟨_, h⟩; exact h.symm

theorem keys_stateOf (L : List (ι × T)) (templates : List (RunTemplate Z)) (rows : ι × T → RunTemplate Z → List R) (fits : ι × T → RunTemplate Z → Option F) (md : ι × T → Option M) :
    PyDict.keys (stateOf L templates rows fits md) = L.map (·.1) := by
  simp [PyDict.keys, stateOf, Function.comp_def]

theorem transfer_eq (d : PyDict ι (RunResult Z R F M)) (hn : (PyDict.keys d).Nodup) : transfer d = .ok d := by
  unfold transfer
  rw [(C09_gather_batches d hn 5000 (by omega)).1]

theorem gatherRun_eq (ds : List (PyDict ι (RunResult Z R F M))) (hn : ∀ d ∈ ds, (PyDict.keys d).Nodup) : gatherRun ds = .ok (gatherAll ds) := by
  cases ds with
  | nil => rfl
  | cons root others =>
    unfold gatherRun
    have : others.mapM transfer = .ok others := by
      rw [mapM_ok_iff]
      have h2 : ∀ d ∈ others, transfer d = .ok d := fun d hd => transfer_eq d (hn d (by simp [hd]))
      clear hn
      induction others with
      | nil => exact .nil
      | cons a as ih => exact .cons (h2 a (by simp)) (ih (fun d hd => h2 d (by simp [hd])))
    simp only [this]; rfl

end
end Run
end Redrock
