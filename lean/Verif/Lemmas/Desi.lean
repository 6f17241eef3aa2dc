import Verif.Model.Desi
import Verif.Props.Coadd
import Mathlib.Tactic.Linarith

/-! Lemmas about `DistTargetsDESI`: row selection and the counter-based copying loops. -/
set_option linter.unusedSectionVars false
namespace Redrock

/-! ### lists -/

theorem forall₂_append {α β : Type} {R : α → β → Prop} {l1 l2 : List α} {r1 r2 : List β} (h1 : List.Forall₂ R l1 r1) (h2 : List.Forall₂ R l2 r2) :
    List.Forall₂ R (l1 ++ l2) (r1 ++ r2) := by
  induction h1 with
  | nil => exact h2
  | cons h _ ih => exact .cons h ih

theorem forall₂_split {α β : Type} {R : α → β → Prop} {l1 l2 : List α} {r : List β} (h : List.Forall₂ R (l1 ++ l2) r) :
    ∃ r1 r2, r = r1 ++ r2 ∧ List.Forall₂ R l1 r1 ∧ List.Forall₂ R l2 r2 := by
  induction l1 generalizing r with
  | nil => exact ⟨[], r, rfl, .nil, h⟩
  | cons a l ih =>
    cases h with
    | cons ha hl =>
      obtain ⟨r1, r2, rfl, h1, h2⟩ := ih hl
      exact ⟨_ :: r1, r2, rfl, .cons ha h1, h2⟩

theorem forall₂_imp {α β : Type} {R S : α → β → Prop} {l : List α} {r : List β} (h : List.Forall₂ R l r) (hi : ∀ a b, R a b → S a b) : List.Forall₂ S l r := by
  induction h with
  | nil => exact .nil
  | cons h _ ih => exact .cons (hi _ _ h) ih

theorem forall₂_comp {α β γ : Type} {R : α → β → Prop} {S : β → γ → Prop} {l : List α} {m : List β} {r : List γ} (h1 : List.Forall₂ R l m) (h2 : List.Forall₂ S m r) :
    List.Forall₂ (fun a c => ∃ b, R a b ∧ S b c) l r := by
  induction h1 generalizing r with
  | nil => cases h2; exact .nil
  | cons h _ ih => cases h2 with | cons h' t => exact .cons ⟨_, h, h'⟩ (ih t)

theorem forall₂_flip' {α β : Type} {R : α → β → Prop} {l : List α} {r : List β} (h : List.Forall₂ R l r) : List.Forall₂ (fun b a => R a b) r l := by
  induction h with
  | nil => exact .nil
  | cons h _ ih => exact .cons h ih

theorem forall₂_and {α β : Type} {R S : α → β → Prop} {l : List α} {r : List β} (h1 : List.Forall₂ R l r) (h2 : List.Forall₂ S l r) : List.Forall₂ (fun a b => R a b ∧ S a b) l r := by
  induction h1 with
  | nil => exact .nil
  | cons h _ ih => cases h2 with | cons h' t => exact .cons ⟨h, h'⟩ (ih t)

theorem foldlM_forall₂ {α β : Type} (G : List α → β → Py (List α)) (g : α → β → Py α) (hG : ∀ ts x out, G ts x = .ok out → List.Forall₂ (fun t o => g t x = .ok o) ts out) :
    ∀ (xs : List β) (ts out : List α), xs.foldlM G ts = .ok out → List.Forall₂ (fun t o => xs.foldlM g t = .ok o) ts out := by
  intro xs
  induction xs with
  | nil =>
    intro ts out h
    cases h
    induction ts with
    | nil => exact .nil
    | cons t ts ih => exact .cons rfl ih
  | cons x xs ih =>
    intro ts out h
    rw [List.foldlM_cons] at h
    obtain ⟨mid, h1, h2⟩ := Except.bind_ok _ _ _ h
    refine forall₂_imp (forall₂_comp (hG _ _ _ h1) (ih _ _ h2)) ?_
    rintro a c ⟨b, hb, hc⟩
    rw [List.foldlM_cons, hb]
    exact hc

theorem foldlM_of_forall₂ {α β : Type} (G : List α → β → Py (List α)) (g : α → β → Py α) :
    ∀ (xs : List β) (_hG : ∀ x ∈ xs, ∀ ts out, List.Forall₂ (fun t o => g t x = .ok o) ts out → G ts x = .ok out) (ts out : List α), List.Forall₂ (fun t o => xs.foldlM g t = .ok o) ts out → xs.foldlM G ts = .ok out := by
  intro xs
  induction xs with
  | nil =>
    intro _ ts out h
    have : ts = out := by
      induction h with
      | nil => rfl
      | cons h _ ih => cases h; rw [ih]
    rw [this]; rfl
  | cons x xs ih =>
    intro hG ts out h
    have : ∃ mid, List.Forall₂ (fun t o => g t x = .ok o) ts mid ∧ List.Forall₂ (fun t o => xs.foldlM g t = .ok o) mid out := by
      clear ih hG
      induction h with
      | nil => exact ⟨[], .nil, .nil⟩
      | cons h _ ih =>
        obtain ⟨mid, h1, h2⟩ := ih
        rw [List.foldlM_cons] at h
        obtain ⟨m, hm1, hm2⟩ := Except.bind_ok _ _ _ h
        exact ⟨m :: mid, .cons hm1 h1, .cons hm2 h2⟩
    obtain ⟨mid, h1, h2⟩ := this
    rw [List.foldlM_cons, hG x (by simp) _ _ h1]
    exact ih (fun y hy => hG y (by simp [hy])) _ _ h2

/-! ### row selection -/

section
variable {ι β K : Type} [LinearOrder ι] [DecidableEq β] [Field K] [LinearOrder K]

/-- Specification: the rows whose TARGETID is `t`, in file order. -/
def rowsOf (t : ι) (ids : List ι) : List Nat := (List.range ids.length).filter (fun i => decide (ids[i]? = some t))

theorem filterMap_zipIdx_if (P : ι → Prop) [DecidablePred P] (ids : List ι) :
    ids.zipIdx.filterMap (fun yx => if P yx.1 then some yx.2 else none) = (List.range ids.length).filter (fun i => (ids[i]?).any (fun y => decide (P y))) := by
  have h1 : List.range ids.length = ids.zipIdx.map (·.2) := by
    rw [List.zipIdx_map_snd, List.range_eq_range']
  rw [h1, List.filter_map]
  rw [← List.filterMap_eq_map, List.filterMap_filter]
  refine List.filterMap_congr ?_
  rintro ⟨y, i⟩ hy
  have hy' : ids[i]? = some y := by
    rw [List.mem_zipIdx_iff_getElem?] at hy
    exact hy
  simp only [Function.comp, hy', Option.any_some, decide_eq_true_eq]

theorem specKeep_eq (f : DFile ι β K) (keep : List ι) : specKeep f keep = f.rowIds.zipIdx.filterMap (fun yx => if yx.1 ∈ keep then some yx.2 else none) := by
  unfold specKeep
  rw [List.filterMap_map]
  refine List.filterMap_congr ?_
  rintro ⟨y, i⟩ _
  by_cases h : y ∈ keep <;> simp [h]

private theorem row_map (P : ι → Prop) [DecidablePred P] (t : ι) (ht : P t) : ∀ (ids : List ι) (n m : Nat),
    List.Forall₂ (fun tr i => m ≤ tr ∧ ((ids.zipIdx n).filterMap (fun yx => if P yx.1 then some yx.2 else none))[tr - m]? = some i)
      (((ids.filter (fun y => decide (P y))).zipIdx m).filterMap (fun yx => if yx.1 = t then some yx.2 else none))
      ((ids.zipIdx n).filterMap (fun yx => if yx.1 = t then some yx.2 else none)) := by
  intro ids
  induction ids with
  | nil => intro n m; exact .nil
  | cons y ys ih =>
    intro n m
    by_cases hp : P y
    · rw [List.filter_cons_of_pos (by simpa using hp)]
      simp only [List.zipIdx_cons, List.filterMap_cons, hp, if_true]
      have ih' := forall₂_imp (ih (n + 1) (m + 1)) (S := fun tr i => m ≤ tr ∧ (n :: ((ys.zipIdx (n + 1)).filterMap (fun yx => if P yx.1 then some yx.2 else none)))[tr - m]? = some i) (by
        rintro tr i ⟨h1, h2⟩
        refine ⟨by omega, ?_⟩
        rw [show tr - m = (tr - (m + 1)) + 1 by omega, List.getElem?_cons_succ]
        exact h2)
      by_cases hyt : y = t
      · simp only [hyt, if_true]
        exact .cons ⟨le_refl _, by simp⟩ ih'
      · simp only [hyt, if_false]
        exact ih'
    · have hyt : y ≠ t := fun h => hp (h ▸ ht)
      rw [List.filter_cons_of_neg (by simpa using hp)]
      simp only [List.zipIdx_cons, List.filterMap_cons, hp, if_false, hyt]
      exact ih (n + 1) m

theorem rowsOf_eq (t : ι) (ids : List ι) : ids.zipIdx.filterMap (fun yx => if yx.1 = t then some yx.2 else none) = rowsOf t ids := by
  rw [filterMap_zipIdx_if (fun y => y = t)]
  unfold rowsOf
  refine List.filter_congr ?_
  intro i _
  cases h : ids[i]? <;> simp

/-- The rows of a kept target, translated through the list of kept rows, are the rows of the file with its ID. -/
theorem targetSpecs_spec (f : DFile ι β K) (keep : List ι) (t : ι) (ht : t ∈ keep) :
    ∃ trows, targetSpecs f keep t = some trows ∧ List.Forall₂ (fun tr i => (specKeep f keep)[tr]? = some i) trows (rowsOf t f.rowIds) := by
  refine ⟨_, if_pos ht, ?_⟩
  rw [← rowsOf_eq, specKeep_eq]
  exact forall₂_imp (row_map (fun y => y ∈ keep) t ht f.rowIds 0 0) (fun a b h => by simpa using h.2)

theorem targetSpecs_none (f : DFile ι β K) (keep : List ι) (t : ι) (ht : t ∉ keep) : targetSpecs f keep t = none := if_neg ht

theorem specKeep_mem (f : DFile ι β K) (keep : List ι) (i : Nat) : i ∈ specKeep f keep ↔ ∃ y, f.rowIds[i]? = some y ∧ y ∈ keep := by
  rw [specKeep_eq, filterMap_zipIdx_if (fun y => y ∈ keep), List.mem_filter, List.mem_range, Option.any_eq_true]
  simp only [decide_eq_true_eq]
  constructor
  · exact fun h => h.2
  · rintro ⟨y, h1, h2⟩
    exact ⟨(List.getElem?_eq_some_iff.1 h1).1, y, h1, h2⟩

theorem mem_rowsOf (t : ι) (ids : List ι) (i : Nat) : i ∈ rowsOf t ids ↔ ids[i]? = some t := by
  unfold rowsOf
  rw [List.mem_filter, List.mem_range, decide_eq_true_eq]
  exact ⟨fun h => h.2, fun h => ⟨(List.getElem?_eq_some_iff.1 h).1, h⟩⟩

theorem rowsOf_of_skip (f : DFile ι β K) (keep : List ι) (t : ι) (ht : t ∈ keep) (h : (specKeep f keep).length = 0) : rowsOf t f.rowIds = [] := by
  rw [List.eq_nil_iff_forall_not_mem]
  intro i hi
  have : i ∈ specKeep f keep := (specKeep_mem f keep i).2 ⟨t, (mem_rowsOf t _ i).1 hi, ht⟩
  rw [List.length_eq_zero_iff.1 h] at this
  simp at this

theorem npTake_get {V : Type} (x : List V) (ii : List Nat) (r : List V) (h : npTake x ii = .ok r) (j i : Nat) (hj : ii[j]? = some i) : ∃ v, x[i]? = some v ∧ r[j]? = some v := by
  have h2 := mapM_inv _ _ _ h
  clear h
  induction h2 generalizing j with
  | nil => simp at hj
  | cons h t ih =>
    cases j with
    | zero =>
      simp only [List.getElem?_cons_zero, Option.some.injEq] at hj
      subst hj
      split at h
      · rename_i v hv
        cases h
        exact ⟨_, hv, by simp⟩
      · cases h
    | succ j =>
      rw [List.getElem?_cons_succ] at hj
      rw [List.getElem?_cons_succ]
      exact ih j hj

theorem npTake_length {V : Type} (x : List V) (ii : List Nat) (r : List V) (h : npTake x ii = .ok r) : r.length = ii.length :=
  (mapM_inv _ _ _ h).length_eq.symm

theorem npTake_total {V : Type} (x : List V) (ii : List Nat) (h : ∀ i ∈ ii, i < x.length) : ∃ r, npTake x ii = .ok r := by
  obtain ⟨r, hr, _⟩ := mapM_forall₂ (fun i => match x[i]? with | some v => (.ok v : Py V) | none => .error .indexError) (fun _ _ => True) ii (by
    intro i hi
    rw [List.getElem?_eq_getElem (h i hi)]
    exact ⟨_, rfl, trivial⟩)
  exact ⟨r, hr⟩

theorem npTake_eq_map {V : Type} [Inhabited V] (x : List V) (ii : List Nat) (h : ∀ i ∈ ii, i < x.length) : npTake x ii = .ok (ii.map (fun i => x[i]!)) := by
  unfold npTake
  induction ii with
  | nil => rfl
  | cons i ii ih =>
    rw [List.mapM_cons, List.getElem?_eq_getElem (h i (by simp))]
    simp only [okBind]
    rw [ih (fun k hk => h k (by simp [hk])), okBind, List.map_cons, getElem!_pos x i (h i (by simp))]
    rfl

/-! ### the copying loop -/

theorem fillRows_eq {X : Type} (upd : X → DSpec β K → Py (DSpec β K)) (h : List X) : ∀ (trows : List Nat) (A S C : List (DSpec β K)), S.length = trows.length →
    fillRows upd h trows (A ++ S ++ C) A.length = (do
      let S' ← (trows.zip S).mapM (fun p => do
        let x ← npGet h p.1
        upd x p.2)
      return (A ++ S' ++ C, A.length + trows.length)) := by
  intro trows
  induction trows with
  | nil =>
    intro A S C hl
    rw [List.length_nil, List.length_eq_zero_iff] at hl
    subst hl
    rfl
  | cons tr trows ih =>
    intro A S C hl
    cases S with
    | nil => simp at hl
    | cons s S =>
      rw [fillRows, List.zip_cons_cons, List.mapM_cons]
      cases hx : npGet h tr with
      | error e => rfl
      | ok x =>
        have hg : npGet (A ++ s :: S ++ C) A.length = .ok s := by
          rw [npGet_ok]; simp
        rw [hg]
        simp only [okBind]
        cases hu : upd x s with
        | error e => rfl
        | ok s' =>
          simp only [okBind]
          have hset : (A ++ s :: S ++ C).set A.length s' = (A ++ [s']) ++ S ++ C := by simp
          rw [hset, show A.length + 1 = (A ++ [s']).length by simp, ih (A ++ [s']) S C (by simpa using hl)]
          generalize ((trows.zip S).mapM (fun p => do
            let x ← npGet h p.1
            upd x p.2)) = q
          cases q with
          | error e => rfl
          | ok S' =>
            simp only [okBind]
            show Except.ok _ = Except.ok _
            simp only [List.append_assoc, List.cons_append, List.nil_append, List.length_append, List.length_cons, List.length_nil]
            congr 2
            omega

theorem zip_mapM_inv {X γ : Type} (upd : X → DSpec β K → Py (DSpec β K)) (h : List X) (R R' : γ → DSpec β K → Prop) : ∀ (L : List γ) (trows : List Nat) (S S' : List (DSpec β K)),
    List.Forall₂ R L S → List.Forall₂ (fun (tr : Nat) (q : γ) => ∀ x s s', h[tr]? = some x → R q s → upd x s = .ok s' → R' q s') trows L →
    (trows.zip S).mapM (fun p => do
      let x ← npGet h p.1
      upd x p.2) = .ok S' → List.Forall₂ R' L S' := by
  intro L
  induction L with
  | nil =>
    intro trows S S' h1 h2 h3
    cases h1; cases h2
    cases h3; exact .nil
  | cons q L ih =>
    intro trows S S' h1 h2 h3
    cases h1 with
    | cons hs hS =>
      cases h2 with
      | cons ht hT =>
        rw [List.zip_cons_cons, List.mapM_cons] at h3
        obtain ⟨s', h4, h5⟩ := Except.bind_ok _ _ _ h3
        obtain ⟨S'', h6, h7⟩ := Except.bind_ok _ _ _ h5
        cases h7
        obtain ⟨x, hx, hu⟩ := Except.bind_ok _ _ _ h4
        exact .cons (ht x _ _ ((npGet_ok _ _ _).1 hx) hs hu) (ih _ _ _ hS hT h6)

theorem zip_mapM_ok {X γ : Type} (upd : X → DSpec β K → Py (DSpec β K)) (h : List X) (R : γ → DSpec β K → Prop) : ∀ (L : List γ) (trows : List Nat) (S : List (DSpec β K)),
    List.Forall₂ R L S → List.Forall₂ (fun (tr : Nat) (q : γ) => ∀ s, R q s → ∃ x s', h[tr]? = some x ∧ upd x s = .ok s') trows L →
    ∃ S', (trows.zip S).mapM (fun p => do
      let x ← npGet h p.1
      upd x p.2) = .ok S' := by
  intro L
  induction L with
  | nil =>
    intro trows S h1 h2
    cases h1; cases h2
    exact ⟨[], rfl⟩
  | cons q L ih =>
    intro trows S h1 h2
    cases h1 with
    | cons hs hS =>
      cases h2 with
      | cons ht hT =>
        obtain ⟨S', hS'⟩ := ih _ _ hS hT
        obtain ⟨x, s', hx, hu⟩ := ht _ hs
        refine ⟨s' :: S', ?_⟩
        rw [List.zip_cons_cons, List.mapM_cons, (npGet_ok _ _ _).2 hx]
        simp only [okBind]
        rw [hu, okBind, hS', okBind]
        rfl

theorem fillRows_preserve {X γ : Type} (upd : X → DSpec β K → Py (DSpec β K)) (h : List X) (Q : γ → DSpec β K → Prop) (hQ : ∀ q s x s', Q q s → upd x s = .ok s' → Q q s') (L : List γ) :
    ∀ (trows : List Nat) (specs : List (DSpec β K)) (c : Nat) (specs' : List (DSpec β K)) (c' : Nat), List.Forall₂ Q L specs → fillRows upd h trows specs c = .ok (specs', c') → List.Forall₂ Q L specs' := by
  intro trows
  induction trows with
  | nil => intro specs c specs' c' h1 h2; cases h2; exact h1
  | cons tr trows ih =>
    intro specs c specs' c' h1 h2
    rw [fillRows] at h2
    obtain ⟨x, hx, h3⟩ := Except.bind_ok _ _ _ h2
    obtain ⟨s, hs, h4⟩ := Except.bind_ok _ _ _ h3
    obtain ⟨s', hs', h5⟩ := Except.bind_ok _ _ _ h4
    refine ih _ _ _ _ ?_ h5
    rw [npGet_ok] at hs
    clear h2 h3 h4 h5 ih hx
    induction h1 generalizing c with
    | nil => simp at hs
    | cons hq hQs ih2 =>
      cases c with
      | zero =>
        simp only [List.getElem?_cons_zero, Option.some.injEq] at hs
        subst hs
        exact .cons (hQ _ _ _ _ hq hs') hQs
      | succ c =>
        rw [List.getElem?_cons_succ] at hs
        exact .cons hq (ih2 c hs)

end

/-! ### batches -/

theorem flatten_batches {X : Type} (n : Nat) : ∀ (k : Nat) (l : List X), l.length ≤ k * n →
    ((List.range k).map (fun i => (l.drop (i * n)).take n)).flatten = l := by
  intro k
  induction k with
  | zero => intro l h; simp at h; subst h; rfl
  | succ k ih =>
    intro l h
    rw [List.range_succ_eq_map, List.map_cons, List.map_map, List.flatten_cons]
    have : ((fun i => (l.drop (i * n)).take n) ∘ Nat.succ) = fun i => ((l.drop n).drop (i * n)).take n := by
      funext i
      simp only [Function.comp, List.drop_drop]
      congr 2
      rw [Nat.succ_mul, Nat.add_comm]
    rw [this, ih (l.drop n) (by rw [List.length_drop, Nat.succ_mul] at *; omega)]
    simp

theorem bcastBatches_eq {X : Type} (n : Nat) (hn : 0 < n) (l : List X) : bcastBatches n l = l := by
  unfold bcastBatches
  split
  · rfl
  · refine flatten_batches n _ l ?_
    have := Nat.div_add_mod (l.length + n - 1) n
    have h2 := Nat.mod_lt (l.length + n - 1) hn
    rw [Nat.mul_comm] at this
    omega

end Redrock
