import Verif.Model.Meta
import Verif.Lemmas.Dict
import Verif.Lemmas.Desi

/-!
C87: metadata of the targets become columns of the redshift table.
-/
namespace Redrock
set_option linter.unusedSectionVars false

section
variable {ι V : Type} [DecidableEq ι]

/-! ### specification -/

/-- A key carries type information if it contains `_datatype` (anywhere). -/
def IsTypeKey (k : PyStr) : Prop := ∃ a b, k = a ++ "_datatype".toList ++ b

theorem prefix_drop (k : PyStr) (n : Nat) : datatypeSuffix.isPrefixOf (k.drop n) = true ↔ ∃ b, k.drop n = datatypeSuffix ++ b := by
  rw [List.isPrefixOf_iff_prefix]
  constructor
  · rintro ⟨b, hb⟩; exact ⟨b, hb.symm⟩
  · rintro ⟨b, hb⟩; exact ⟨b, hb.symm⟩

theorem datatypeOf_none (k : PyStr) : datatypeOf k = none ↔ ¬ IsTypeKey k := by
  unfold datatypeOf
  rw [Option.map_eq_none_iff, List.getLast?_eq_none_iff, List.filter_eq_nil_iff]
  constructor
  · rintro h ⟨a, b, e⟩
    refine h a.length (List.mem_range.2 (by rw [e]; simp)) ?_
    rw [prefix_drop]
    refine ⟨b, ?_⟩
    rw [e, List.append_assoc, List.drop_left]; rfl
  · intro h n _ hp
    rw [prefix_drop] at hp
    obtain ⟨b, hb⟩ := hp
    apply h
    refine ⟨k.take n, b, ?_⟩
    have := List.take_append_drop n k
    rw [hb] at this
    rw [List.append_assoc]; exact this.symm

/-- `X_datatype` is the type of the column `X` (for keys `X` that are not type keys themselves, and more generally for any key ending like this). -/
theorem datatypeOf_suffix (base : PyStr) : datatypeOf (base ++ "_datatype".toList) = some base := by
  unfold datatypeOf
  have hlen : datatypeSuffix.length = 9 := by decide
  have : (List.range ((base ++ "_datatype".toList).length + 1)).filter (fun n => datatypeSuffix.isPrefixOf ((base ++ "_datatype".toList).drop n)) =
      (List.range base.length).filter (fun n => datatypeSuffix.isPrefixOf ((base ++ "_datatype".toList).drop n)) ++ [base.length] := by
    have e : (base ++ "_datatype".toList).length + 1 = base.length + (1 + 9) := by
      rw [List.length_append]; have : ("_datatype".toList).length = 9 := by decide
      omega
    rw [e, List.range_add, List.filter_append]
    congr 1
    rw [show (1 + 9) = 10 from rfl]
    have h0 : datatypeSuffix.isPrefixOf ((base ++ "_datatype".toList).drop base.length) = true := by
      rw [List.drop_left]; decide
    have hr : List.range 10 = 0 :: (List.range 9).map Nat.succ := List.range_succ_eq_map
    rw [hr, List.map_cons, List.filter_cons]
    simp only [Nat.add_zero]
    rw [if_pos h0]
    congr 1
    rw [List.filter_eq_nil_iff]
    intro n hn hp
    simp only [List.map_map, List.mem_map, List.mem_range, Function.comp] at hn
    obtain ⟨m, hm, rfl⟩ := hn
    rw [prefix_drop] at hp
    obtain ⟨b, hb⟩ := hp
    have := congrArg List.length hb
    rw [List.length_drop, List.length_append, List.length_append, hlen] at this
    have h9 : ("_datatype".toList).length = 9 := by decide
    omega
  rw [this, List.getLast?_append]
  simp

/-! ### C87 -/

theorem metaFold (cast : V → V → Py V) (metas : PyDict ι (PyDict PyStr V)) (types : PyDict PyStr V) (zfitids : List ι) (existing : List PyStr) :
    ∀ (keys : List PyStr) (cols r : List (PyStr × List V)), keys.foldlM (fun cols mk => metaStep cast metas types zfitids cols existing mk) cols = .ok r →
      ∃ new, r = cols ++ new ∧ List.Forall₂ (fun mk kc => kc.1 = mk ∧ mk ∉ existing ∧
        List.Forall₂ (fun x v => ∃ m v0, PyDict.get metas x = .ok m ∧ PyDict.get m mk = .ok v0 ∧
          (match PyDict.get? types mk with | some ty => cast ty v0 = .ok v | none => v = v0)) zfitids kc.2) keys new
  | [], cols, r, h => by
    simp only [List.foldlM_nil, pure, Except.pure, Except.ok.injEq] at h
    exact ⟨[], by rw [List.append_nil]; exact h.symm, .nil⟩
  | mk :: keys, cols, r, h => by
    rw [List.foldlM_cons] at h
    unfold metaStep at h
    cases h1 : zfitids.mapM (fun x => do
        let m ← PyDict.get metas x
        PyDict.get m mk) with
    | error e => rw [h1] at h; simp [bind, Except.bind] at h
    | ok col0 =>
      rw [h1] at h
      simp only [bind, Except.bind] at h
      have hin := mapM_inv _ _ _ h1
      have hin' : List.Forall₂ (fun x v0 => ∃ m, PyDict.get metas x = .ok m ∧ PyDict.get m mk = .ok v0) zfitids col0 := by
        refine hin.imp ?_
        intro x v0 hx
        cases hm : PyDict.get metas x with
        | error e => rw [hm] at hx; simp [bind, Except.bind] at hx
        | ok m => rw [hm] at hx; exact ⟨m, rfl, hx⟩
      -- the converted column
      have key : ∀ col, (match PyDict.get? types mk with
            | some ty => col0.mapM (cast ty)
            | none => .ok col0 : Py (List V)) = .ok col →
          List.Forall₂ (fun x v => ∃ m v0, PyDict.get metas x = .ok m ∧ PyDict.get m mk = .ok v0 ∧
            (match PyDict.get? types mk with | some ty => cast ty v0 = .ok v | none => v = v0)) zfitids col := by
        intro col hc
        cases ht : PyDict.get? types mk with
        | none =>
          rw [ht] at hc
          simp only [Except.ok.injEq] at hc
          subst hc
          exact hin'.imp (fun x v ⟨m, a, b⟩ => ⟨m, v, a, b, rfl⟩)
        | some ty =>
          rw [ht] at hc
          have hc2 := mapM_inv _ _ _ hc
          clear hc h h1 hin
          induction hin' generalizing col with
          | nil => cases hc2; exact .nil
          | cons e1 _ ih =>
            cases hc2 with
            | cons e2 hc2 =>
              obtain ⟨m, a, b⟩ := e1
              exact .cons ⟨m, _, a, b, e2⟩ (ih _ hc2)
      split at h
      · simp at h
      rename_i c hc
      split at hc
      · simp at hc
      rename_i col hcol
      split at hc
      · simp [throw, throwThe, MonadExceptOf.throw] at hc
      rename_i hne
      simp only [pure, Except.pure, Except.ok.injEq] at hc
      subst hc
      obtain ⟨new, hr, hf⟩ := metaFold cast metas types zfitids existing keys _ r h
      refine ⟨(mk, col) :: new, by rw [hr]; simp, .cons ⟨rfl, fun he => hne (List.mem_append_left _ he), key col hcol⟩ hf⟩

/-- C87: if the table is produced, its metadata columns are the keys of the first row's target that carry no type information, sorted; and in every column, row `r` holds the value of the
target of row `r`, converted to the declared type. -/
theorem C87_rows (le : PyStr → PyStr → Bool) (cast : V → V → Py V) (existing : List PyStr) (metas : PyDict ι (PyDict PyStr V)) (x0 : ι) (ids : List ι) (m0 : PyDict PyStr V)
    (hm0 : PyDict.get? metas x0 = some m0) (cols : List (PyStr × List V)) (h : metaColumns le cast existing metas (x0 :: ids) = .ok cols) :
    cols.map (·.1) = (pySort le (PyDict.keys m0)).filter (fun k => decide (datatypeOf k = none)) ∧
    (∀ k, k ∈ cols.map (·.1) ↔ k ∈ PyDict.keys m0 ∧ ¬ IsTypeKey k) ∧
    ∀ kc ∈ cols, kc.1 ∉ existing ∧ List.Forall₂ (fun x v => ∃ m v0, PyDict.get? metas x = some m ∧ PyDict.get? m kc.1 = some v0 ∧
      (match PyDict.get? (metaTypes m0 (pySort le (PyDict.keys m0))) kc.1 with | some ty => cast ty v0 = .ok v | none => v = v0)) (x0 :: ids) kc.2 := by
  unfold metaColumns at h
  simp only [npGet, List.getElem?_cons_zero, bind, Except.bind, PyDict.get, hm0] at h
  obtain ⟨new, hr, hf⟩ := metaFold cast metas _ (x0 :: ids) existing _ [] cols h
  rw [List.nil_append] at hr
  subst hr
  have hkeys : cols.map (·.1) = (pySort le (PyDict.keys m0)).filter (fun k => decide (datatypeOf k = none)) := by
    generalize (pySort le (PyDict.keys m0)).filter (fun k => decide (datatypeOf k = none)) = L at hf
    clear h
    induction hf with
    | nil => rfl
    | cons e _ ih => rw [List.map_cons, e.1, ih]
  refine ⟨hkeys, ?_, ?_⟩
  · intro k
    rw [hkeys, List.mem_filter, decide_eq_true_eq, datatypeOf_none]
    have : k ∈ pySort le (PyDict.keys m0) ↔ k ∈ PyDict.keys m0 := (List.perm_insertionSort _ _).mem_iff
    rw [this]
  · intro kc hkc
    have key : ∀ (L : List PyStr) (C : List (PyStr × List V)), List.Forall₂ (fun mk kc => kc.1 = mk ∧ mk ∉ existing ∧
        List.Forall₂ (fun x v => ∃ m v0, PyDict.get metas x = .ok m ∧ PyDict.get m mk = .ok v0 ∧
          (match PyDict.get? (metaTypes m0 (pySort le (PyDict.keys m0))) mk with | some ty => cast ty v0 = .ok v | none => v = v0)) (x0 :: ids) kc.2) L C → kc ∈ C →
        kc.1 ∉ existing ∧ List.Forall₂ (fun x v => ∃ m v0, PyDict.get metas x = .ok m ∧ PyDict.get m kc.1 = .ok v0 ∧
          (match PyDict.get? (metaTypes m0 (pySort le (PyDict.keys m0))) kc.1 with | some ty => cast ty v0 = .ok v | none => v = v0)) (x0 :: ids) kc.2 := by
      intro L C hF
      induction hF with
      | nil => intro hm; simp at hm
      | cons e _ ih =>
        intro hm
        rcases List.mem_cons.1 hm with e' | e'
        · subst e'
          obtain ⟨e1, e2, e3⟩ := e
          rw [e1]
          exact ⟨e2, e3⟩
        · exact ih e'
    obtain ⟨h1, h2⟩ := key _ _ hf hkc
    have conv : ∀ {κ μ : Type} [DecidableEq κ] (d : PyDict κ μ) (k : κ) (v : μ), PyDict.get d k = .ok v → PyDict.get? d k = some v := by
      intro κ μ _ d k v hg
      unfold PyDict.get at hg
      cases hq : PyDict.get? d k with
      | none => rw [hq] at hg; simp at hg
      | some w => rw [hq] at hg; simpa using hg
    exact ⟨h1, h2.imp (fun x v ⟨m, v0, a, b, c⟩ => ⟨m, v0, conv _ _ _ a, conv _ _ _ b, c⟩)⟩

/-- C87: the declared type: `X_datatype` in the first target's metadata gives the type of `X`. (Only for keys whose type key is unambiguous: no other key of the form `X_datatype…`.) -/
theorem C87_type (m0 : PyDict PyStr V) (keys : List PyStr) (X : PyStr) (ty : V) (hmem : X ++ "_datatype".toList ∈ keys) (hty : PyDict.get? m0 (X ++ "_datatype".toList) = some ty)
    (hone : ∀ k ∈ keys, datatypeOf k = some X → k = X ++ "_datatype".toList) : PyDict.get? (metaTypes m0 keys) X = some ty := by
  unfold metaTypes
  have key : ∀ (L : List PyStr) (d : PyDict PyStr V), (∀ k ∈ L, datatypeOf k = some X → k = X ++ "_datatype".toList) →
      (PyDict.get? d X = some ty ∨ X ++ "_datatype".toList ∈ L) →
      PyDict.get? (L.foldl (fun d mk => match datatypeOf mk, PyDict.get? m0 mk with
        | some base, some v => PyDict.set d base v
        | _, _ => d) d) X = some ty := by
    intro L
    induction L with
    | nil => intro d _ h; rcases h with h | h
             · exact h
             · simp at h
    | cons k L ih =>
      intro d hk h
      rw [List.foldl_cons]
      refine ih _ (fun k' hk' => hk k' (List.mem_cons_of_mem _ hk')) ?_
      by_cases hkX : datatypeOf k = some X
      · left
        have := hk k (List.mem_cons_self ..) hkX
        subst this
        rw [datatypeOf_suffix, hty]
        simp [PyDict.get?_set]
      · rcases h with h | h
        · left
          cases h1 : datatypeOf k with
          | none => simpa using h
          | some base =>
            cases h2 : PyDict.get? m0 k with
            | none => simpa using h
            | some v =>
              simp only
              rw [PyDict.get?_set, if_neg (fun e => hkX (by rw [h1, e]))]
              exact h
        · rcases List.mem_cons.1 h with e | e
          · subst e; exact absurd (datatypeOf_suffix X) hkX
          · exact .inr e
  exact key keys [] hone (.inr hmem)

theorem metaStep_missing (cast : V → V → Py V) (metas : PyDict ι (PyDict PyStr V)) (types : PyDict PyStr V) (zfitids : List ι) (cols : List (PyStr × List V)) (existing : List PyStr)
    (mk : PyStr) (hsome : ∀ x ∈ zfitids, (PyDict.get? metas x).isSome) (y : ι) (hy : y ∈ zfitids) (m : PyDict PyStr V) (hm : PyDict.get? metas y = some m)
    (hk : PyDict.get? m mk = none) : metaStep cast metas types zfitids cols existing mk = .error .keyError := by
  unfold metaStep
  have : zfitids.mapM (fun x => do
        let m ← PyDict.get metas x
        PyDict.get m mk) = .error .keyError := by
    induction zfitids with
    | nil => simp at hy
    | cons z zs ih =>
      rw [List.mapM_cons]
      obtain ⟨mz, hmz⟩ := Option.isSome_iff_exists.1 (hsome z (List.mem_cons_self ..))
      cases hv : PyDict.get? mz mk with
      | none => simp [bind, Except.bind, PyDict.get, hmz, hv]
      | some v =>
        have hz : y ∈ zs := by
          rcases List.mem_cons.1 hy with e | e
          · subst e; rw [hm] at hmz; simp at hmz; subst hmz; rw [hk] at hv; simp at hv
          · exact e
        have := ih (fun x hx => hsome x (List.mem_cons_of_mem _ hx)) hz
        simp only [bind, Except.bind] at this
        simp only [bind, Except.bind, PyDict.get, hmz, hv]
        simp only [PyDict.get] at this
        rw [this]
  rw [this]; rfl

/-- C87, refuted part: the keys of the first row's target are required of all: if the first key to be written is missing from the metadata of any other target in the table, the whole
run ends with `KeyError`. (Stated for tables whose first target has one real key; the same happens at any key.) -/
theorem C87_missing_refuted (le : PyStr → PyStr → Bool) (cast : V → V → Py V) (existing : List PyStr) (metas : PyDict ι (PyDict PyStr V)) (x0 : ι) (ids : List ι) (m0 : PyDict PyStr V)
    (hm0 : PyDict.get? metas x0 = some m0) (hsome : ∀ x ∈ ids, (PyDict.get? metas x).isSome) (y : ι) (hy : y ∈ ids) (m : PyDict PyStr V) (hm : PyDict.get? metas y = some m)
    (X : PyStr) (hX : X ∈ PyDict.keys m0) (hreal : ¬ IsTypeKey X) (hk : PyDict.get? m X = none) :
    ∃ e, metaColumns le cast existing metas (x0 :: ids) = .error e := by
  unfold metaColumns
  simp only [npGet, List.getElem?_cons_zero, bind, Except.bind, PyDict.get, hm0]
  have hmem : X ∈ (pySort le (PyDict.keys m0)).filter (fun mk => decide (datatypeOf mk = none)) := by
    rw [List.mem_filter, decide_eq_true_eq, datatypeOf_none]
    exact ⟨(List.perm_insertionSort _ _).mem_iff.2 hX, hreal⟩
  generalize (pySort le (PyDict.keys m0)).filter (fun mk => decide (datatypeOf mk = none)) = L at hmem
  have key : ∀ (L : List PyStr) (cols : List (PyStr × List V)), X ∈ L →
      ∃ e, L.foldlM (fun cols mk => metaStep cast metas (metaTypes m0 (pySort le (PyDict.keys m0))) (x0 :: ids) cols existing mk) cols = .error e := by
    intro L
    induction L with
    | nil => intro _ h; simp at h
    | cons k L ih =>
      intro cols h
      rw [List.foldlM_cons]
      cases hs : metaStep cast metas (metaTypes m0 (pySort le (PyDict.keys m0))) (x0 :: ids) cols existing k with
      | error e => exact ⟨e, rfl⟩
      | ok c =>
        rcases List.mem_cons.1 h with e | e
        · subst e
          rw [metaStep_missing cast metas _ (x0 :: ids) cols existing X
            (fun x hx => (List.mem_cons.1 hx).elim (fun e => by rw [e, hm0]; rfl) (hsome x)) y (List.mem_cons_of_mem _ hy) m hm hk] at hs
          simp at hs
        · obtain ⟨e', he⟩ := ih c e
          exact ⟨e', by simpa [bind, Except.bind] using he⟩
  exact key L [] hmem

/-- C87, refuted part: a key that only other targets have is dropped without notice. -/
theorem C87_dropped (le : PyStr → PyStr → Bool) (cast : V → V → Py V) (existing : List PyStr) (metas : PyDict ι (PyDict PyStr V)) (x0 : ι) (ids : List ι) (m0 : PyDict PyStr V)
    (hm0 : PyDict.get? metas x0 = some m0) (cols : List (PyStr × List V)) (h : metaColumns le cast existing metas (x0 :: ids) = .ok cols) (X : PyStr) (hX : X ∉ PyDict.keys m0) :
    X ∉ cols.map (·.1) := by
  intro hc
  exact hX (((C87_rows le cast existing metas x0 ids m0 hm0 cols h).2.1 X).1 hc).1

/-! #### examples -/

/-- Metadata of two targets as the BOSS reader makes them. -/
def exMetas : PyDict Nat (PyDict PyStr PyStr) :=
  [(7, [("BRICKNAME".toList, "3586-55181".toList), ("BRICKNAME_datatype".toList, "S8".toList)]),
   (9, [("BRICKNAME".toList, "3587-55182".toList), ("BRICKNAME_datatype".toList, "S8".toList)])]
def exCast (ty v : PyStr) : Py PyStr := if ty = "S8".toList then .ok (v.take 8) else .ok v

example : metaColumns (fun a b => decide (a.length ≤ b.length)) exCast ["z".toList] exMetas [7, 7, 9] =
    .ok [("BRICKNAME".toList, ["3586-551".toList, "3586-551".toList, "3587-551".toList])] := by decide +kernel
example : metaColumns (fun a b => decide (a.length ≤ b.length)) exCast ["z".toList] (exMetas ++ [(11, [])]) [7, 11] = .error .keyError := by decide +kernel
example : IsTypeKey "A_datatype_x".toList := ⟨"A".toList, "_x".toList, by decide⟩
example : datatypeOf "BRICKNAME_datatype".toList = some "BRICKNAME".toList := by decide +kernel

end
end Redrock
