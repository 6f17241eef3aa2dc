import Verif.Model.Rebalance
import Verif.Props.Ring
import Verif.Lemmas.Dict

/-!
C132: rebalancing after a lopsided scan.
-/
set_option linter.unusedSectionVars false
namespace Redrock
namespace Rebalance
variable {T ι R : Type} [DecidableEq ι]

private theorem take_range' (k n s : Nat) : (List.range' k n).take s = List.range' k (min s n) := by
  apply List.ext_getElem
  · simp
  · intro i h1 h2
    simp

private theorem slice_split (flat : List T) : ∀ (ss : List Nat) (k : Nat),
    (splitSizes ss (List.range' k (flat.length - k))).map (slice flat) = splitSizes ss (flat.drop k) := by
  intro ss
  induction ss with
  | nil => intro k; rfl
  | cons s ss ih =>
    intro k
    simp only [splitSizes, List.map_cons]
    congr 1
    · rw [take_range']
      by_cases h : min s (flat.length - k) = 0
      · rw [h]
        have : (flat.drop k).take s = [] := by
          rw [← List.length_eq_zero_iff, List.length_take, List.length_drop]
          exact h
        rw [this]
        rfl
      · obtain ⟨j, hj⟩ := Nat.exists_eq_succ_of_ne_zero h
        rw [hj, List.range'_succ]
        simp only [slice, List.length_cons, List.length_range']
        rw [← Nat.succ_eq_add_one, ← hj]
        conv_rhs => rw [← List.take_length (l := List.drop k flat), List.length_drop, List.take_take]
    · rw [List.drop_range', List.drop_drop, ← ih (k + s)]
      congr 3
      · omega
      · omega

/-- dealing out by index is dealing out -/
theorem dealt (flat : List T) (n : Nat) (hn : 0 < n) : ∃ ix parts, arraySplit (List.range flat.length) n = .ok ix ∧ arraySplit flat n = .ok parts ∧ ix.map (slice flat) = parts := by
  refine ⟨_, _, by unfold arraySplit; rw [if_neg (by omega)], by unfold arraySplit; rw [if_neg (by omega)], ?_⟩
  have := slice_split flat (sectionSizes flat.length n) 0
  rw [List.drop_zero, Nat.sub_zero, ← List.range_eq_range'] at this
  rw [List.length_range]
  exact this

private theorem merged_get (results : List (PyDict ι R)) (hn : (results.flatMap PyDict.keys).Nodup) (d : PyDict ι R) (hd : d ∈ results) (k : ι) (v : R) (hv : PyDict.get? d k = some v) :
    PyDict.get? (mergeResults results) k = some v := by
  have hm : mergeResults results = PyDict.update [] results.flatten := rfl
  have hk : (PyDict.keys results.flatten).Nodup := by
    have : PyDict.keys results.flatten = results.flatMap PyDict.keys := by
      unfold PyDict.keys
      rw [List.map_flatten, List.flatMap]
      try rfl
    rw [this]
    exact hn
  rw [hm, PyDict.get?_update _ _ _ hk, PyDict.get?_of_mem results.flatten hk k v (List.mem_flatten.2 ⟨d, hd, PyDict.mem_of_get? d k v hv⟩)]
  rfl

private theorem resultsOf_ok (id : T → ι) (merged : PyDict ι R) : ∀ (s : List T) (d0 : PyDict ι R), (∀ t ∈ s, ∃ v, PyDict.get? merged (id t) = some v) →
    ∃ d, s.foldlM (fun d t => do
      let r ← PyDict.get merged (id t)
      return PyDict.set d (id t) r) d0 = (.ok d : Py _) ∧
      ∀ k, PyDict.get? d k = if k ∈ s.map id then PyDict.get? merged k else PyDict.get? d0 k := by
  intro s
  induction s with
  | nil => intro d0 _; exact ⟨d0, rfl, by simp⟩
  | cons t s ih =>
    intro d0 h
    obtain ⟨v, hv⟩ := h t (by simp)
    obtain ⟨d, hd, hk⟩ := ih (PyDict.set d0 (id t) v) (fun u hu => h u (List.mem_cons_of_mem _ hu))
    refine ⟨d, ?_, ?_⟩
    · rw [List.foldlM_cons]
      unfold PyDict.get
      rw [hv]
      exact hd
    · intro k
      rw [hk k, PyDict.get?_set]
      by_cases h1 : k ∈ s.map id
      · rw [if_pos h1, if_pos (by simp at h1 ⊢; exact Or.inr h1)]
      · by_cases h2 : id t = k
        · subst h2
          rw [if_neg h1, if_pos rfl, if_pos (by simp), hv]
        · rw [if_neg h1, if_neg h2, if_neg (by simp at h1 ⊢; exact ⟨Ne.symm h2, h1⟩)]

private theorem mapM_of {α β : Type} (f : α → Py β) (P : α → β → Prop) : ∀ l : List α, (∀ a ∈ l, ∃ b, f a = .ok b ∧ P a b) → ∃ bs, l.mapM f = .ok bs ∧ List.Forall₂ P l bs := by
  intro l
  induction l with
  | nil => intro _; exact ⟨[], rfl, .nil⟩
  | cons a l ih =>
    intro h
    obtain ⟨b, hb, hp⟩ := h a (by simp)
    obtain ⟨bs, hbs, hf⟩ := ih (fun c hc => h c (List.mem_cons_of_mem _ hc))
    exact ⟨b :: bs, by rw [List.mapM_cons, hb, hbs]; rfl, .cons hp hf⟩

/-- **C132** If every rank has results for its own targets and no target id has results on two ranks, rebalancing succeeds for any number of ranks: the targets of the ranks one after the other are the
same as before, in the same order, none lost or doubled; the numbers of targets of two ranks differ by at most one (ranks without targets if there are more ranks than targets); and every rank has
exactly the results of its new targets, each the one computed on the rank that had the target before. -/
theorem C132_rebalance (id : T → ι) (ranks : List (List T × PyDict ι R)) (hr : ranks ≠ []) (hown : ∀ r ∈ ranks, ∀ t ∈ r.1, (PyDict.get? r.2 (id t)).isSome)
    (hids : (ranks.flatMap (fun r => PyDict.keys r.2)).Nodup) :
    ∃ out, rebalance id ranks = .ok out ∧ out.length = ranks.length ∧ out.flatMap (·.1) = ranks.flatMap (·.1) ∧ (∀ a ∈ out, ∀ b ∈ out, a.1.length ≤ b.1.length + 1) ∧
      (∀ a ∈ out, ∀ k, k ∈ PyDict.keys a.2 ↔ ∃ t ∈ a.1, id t = k) ∧
      (∀ a ∈ out, ∀ t ∈ a.1, ∃ r ∈ ranks, t ∈ r.1 ∧ PyDict.get? a.2 (id t) = PyDict.get? r.2 (id t)) := by
  have hpos : 0 < ranks.length := List.length_pos_iff.2 hr
  obtain ⟨ix, parts, h1, h2, h3⟩ := dealt (ranks.map (·.1)).flatten ranks.length hpos
  obtain ⟨parts', p1, p2, p3, p4, _⟩ := C04_array_split_covers (ranks.map (·.1)).flatten ranks.length hpos
  rw [h2] at p1
  injection p1 with p1
  subst p1
  have hids' : ((ranks.map (·.2)).flatMap PyDict.keys).Nodup := by rw [List.flatMap_map]; exact hids
  have hmem : ∀ p ∈ parts, ∀ t ∈ p, ∃ r ∈ ranks, t ∈ r.1 ∧ ∃ v, PyDict.get? r.2 (id t) = some v ∧ PyDict.get? (mergeResults (ranks.map (·.2))) (id t) = some v := by
    intro p hp t ht
    have : t ∈ (ranks.map (·.1)).flatten := by rw [← p3]; exact List.mem_flatten.2 ⟨p, hp, ht⟩
    obtain ⟨l, hl, htl⟩ := List.mem_flatten.1 this
    obtain ⟨r, hrr, rfl⟩ := List.mem_map.1 hl
    obtain ⟨v, hv⟩ := Option.isSome_iff_exists.1 (hown r hrr t htl)
    exact ⟨r, hrr, htl, v, hv, merged_get _ hids' r.2 (List.mem_map_of_mem hrr) _ _ hv⟩
  obtain ⟨ds, hds, hfor⟩ := mapM_of (resultsOf id (mergeResults (ranks.map (·.2)))) (fun s d => ∀ k, PyDict.get? d k = if k ∈ s.map id then PyDict.get? (mergeResults (ranks.map (·.2))) k else none)
    parts (by
      intro p hp
      obtain ⟨d, hd, hk⟩ := resultsOf_ok id (mergeResults (ranks.map (·.2))) p [] (fun t ht => by
        obtain ⟨r, _, _, v, _, hv⟩ := hmem p hp t ht
        exact ⟨v, hv⟩)
      exact ⟨d, hd, hk⟩)
  have hlen : parts.length = ds.length := hfor.length_eq
  have hzip : ∀ a ∈ parts.zip ds, a.1 ∈ parts ∧ ∀ k, PyDict.get? a.2 k = if k ∈ a.1.map id then PyDict.get? (mergeResults (ranks.map (·.2))) k else none := by
    intro a ha
    refine ⟨(List.of_mem_zip ha).1, ?_⟩
    have := List.forall₂_iff_zip.1 hfor
    exact this.2 ha
  refine ⟨parts.zip ds, ?_, ?_, ?_, ?_, ?_, ?_⟩
  · unfold rebalance
    simp only [h1]
    change (((ix.map (slice (ranks.map (·.1)).flatten)).mapM (resultsOf id (mergeResults (ranks.map (·.2)))) : Py (List (PyDict ι R))) >>= _) = _
    rw [h3, hds]
    rfl
  · rw [List.length_zip, ← hlen, Nat.min_self, p2]
  · rw [List.flatMap, List.map_fst_zip hlen.le, p3]
    rfl
  · intro a ha b hb
    exact p4 _ (hzip a ha).1 _ (hzip b hb).1
  · intro a ha k
    rw [PyDict.mem_keys_iff, (hzip a ha).2 k]
    by_cases hk : k ∈ a.1.map id
    · obtain ⟨t, ht, rfl⟩ := List.mem_map.1 hk
      obtain ⟨r, _, _, v, _, hv⟩ := hmem a.1 (hzip a ha).1 t ht
      rw [if_pos hk, hv]
      simp only [Option.isSome_some, true_iff]
      exact ⟨t, ht, rfl⟩
    · rw [if_neg hk]
      simp only [Option.isSome_none, Bool.false_eq_true, false_iff]
      rintro ⟨t, ht, rfl⟩
      exact hk (List.mem_map_of_mem ht)
  · intro a ha t ht
    obtain ⟨r, hrr, htr, v, hv1, hv2⟩ := hmem a.1 (hzip a ha).1 t ht
    exact ⟨r, hrr, htr, by rw [(hzip a ha).2, if_pos (List.mem_map_of_mem ht), hv1, hv2]⟩

/-- **C132** a target without results on any rank stops rank 0 with `KeyError`. -/
theorem C132_missing (id : T → ι) (ranks : List (List T × PyDict ι R)) (r : List T × PyDict ι R) (hr : r ∈ ranks) (t : T) (ht : t ∈ r.1) (hno : ∀ q ∈ ranks, PyDict.get? q.2 (id t) = none) :
    rebalance id ranks = .error .keyError := by
  have hpos : 0 < ranks.length := List.length_pos_of_mem hr
  obtain ⟨ix, parts, h1, h2, h3⟩ := dealt (ranks.map (·.1)).flatten ranks.length hpos
  obtain ⟨parts', p1, p2, p3, _⟩ := C04_array_split_covers (ranks.map (·.1)).flatten ranks.length hpos
  rw [h2] at p1
  injection p1 with p1
  subst p1
  have hmerged : PyDict.get? (mergeResults (ranks.map (·.2))) (id t) = none := by
    unfold mergeResults
    rw [PyDict.get?_foldl_set]
    have : (ranks.map (·.2)).flatten.reverse.find? (fun x => decide (x.1 = id t)) = none := by
      rw [List.find?_eq_none]
      intro x hx
      have hx := List.mem_reverse.1 hx
      obtain ⟨d, hd, hxd⟩ := List.mem_flatten.1 hx
      obtain ⟨q, hq, rfl⟩ := List.mem_map.1 hd
      have := hno q hq
      unfold PyDict.get? at this
      rw [Option.map_eq_none_iff, List.find?_eq_none] at this
      exact this x hxd
    rw [this]
    rfl
  have hbad : ∀ (s : List T) (d0 : PyDict ι R), t ∈ s → s.foldlM (fun d t => do
      let r ← PyDict.get (mergeResults (ranks.map (·.2))) (id t)
      return PyDict.set d (id t) r) d0 = (.error .keyError : Py (PyDict ι R)) := by
    intro s
    induction s with
    | nil => intro _ h; exact absurd h (by simp)
    | cons u s ih =>
      intro d0 h
      rw [List.foldlM_cons]
      cases hu : PyDict.get? (mergeResults (ranks.map (·.2))) (id u) with
      | none => unfold PyDict.get; rw [hu]; rfl
      | some v =>
        have hts : t ∈ s := by
          rcases List.mem_cons.1 h with rfl | h
          · rw [hmerged] at hu; cases hu
          · exact h
        have := ih (PyDict.set d0 (id u) v) hts
        unfold PyDict.get at this ⊢
        rw [hu]
        exact this
  have hkey : ∀ (s : List T) (e : PyErr), resultsOf id (mergeResults (ranks.map (·.2))) s = .error e → e = .keyError := by
    intro s
    unfold resultsOf
    generalize ([] : PyDict ι R) = d0
    induction s generalizing d0 with
    | nil => intro e h; cases h
    | cons u s ih =>
      intro e h
      rw [List.foldlM_cons] at h
      cases hu : PyDict.get? (mergeResults (ranks.map (·.2))) (id u) with
      | none =>
        unfold PyDict.get at h
        rw [hu] at h
        injection h with h
        exact h.symm
      | some v =>
        apply ih (PyDict.set d0 (id u) v) e
        unfold PyDict.get at h ⊢
        rw [hu] at h
        exact h
  have hmapM : ∀ l : List (List T), (∃ s ∈ l, t ∈ s) → l.mapM (resultsOf id (mergeResults (ranks.map (·.2)))) = .error .keyError := by
    intro l
    induction l with
    | nil => rintro ⟨s, hs, _⟩; exact absurd hs (by simp)
    | cons s l ih =>
      rintro ⟨q, hq, htq⟩
      rw [List.mapM_cons]
      cases hs : resultsOf id (mergeResults (ranks.map (·.2))) s with
      | error e => rw [hkey s e hs]; rfl
      | ok d =>
        rcases List.mem_cons.1 hq with rfl | hq
        · have := hbad q [] htq
          unfold resultsOf at hs
          rw [this] at hs
          cases hs
        · rw [ih ⟨q, hq, htq⟩]
          rfl
  have hin : ∃ s ∈ parts, t ∈ s := by
    have : t ∈ parts.flatten := by
      rw [p3]
      exact List.mem_flatten.2 ⟨r.1, List.mem_map_of_mem hr, ht⟩
    obtain ⟨s, hs, hts⟩ := List.mem_flatten.1 this
    exact ⟨s, hs, hts⟩
  unfold rebalance
  simp only [h1]
  change (((ix.map (slice (ranks.map (·.1)).flatten)).mapM (resultsOf id (mergeResults (ranks.map (·.2)))) : Py (List (PyDict ι R))) >>= _) = _
  rw [h3, hmapM parts hin]
  rfl

/-- **C132** distinct ids are needed: if the same target id is on two ranks, both get the result of the later rank. -/
theorem C132_duplicate : rebalance (fun t : Nat × Nat => t.1) [([(7, 0)], [(7, "first")]), ([(7, 1)], [(7, "second")])] =
    .ok [([(7, 0)], [(7, "second")]), ([(7, 1)], [(7, "second")])] := by decide

/-- three ranks with 4, 0 and 1 targets: the hypotheses of `C132_rebalance`, and its result -/
example : rebalance (fun t : Nat => t) [([1, 2, 3, 4], [(1, "a"), (2, "b"), (3, "c"), (4, "d")]), ([], []), ([5], [(5, "e")])] =
    .ok [([1, 2], [(1, "a"), (2, "b")]), ([3, 4], [(3, "c"), (4, "d")]), ([5], [(5, "e")])] := by decide
example : (∀ r ∈ [([1, 2, 3, 4], [(1, "a"), (2, "b"), (3, "c"), (4, "d")]), ([], []), ([5], [(5, "e")])], ∀ t ∈ r.1, (PyDict.get? r.2 t).isSome) ∧
    ([([1, 2, 3, 4], [(1, "a"), (2, "b"), (3, "c"), (4, "d")]), ([], []), ([5], [(5, "e")])].flatMap (fun r => PyDict.keys r.2)).Nodup := by decide
/-- more ranks than targets -/
example : rebalance (fun t : Nat => t) [([1], [(1, "a")]), ([], []), ([2], [(2, "b")])] = .ok [([1], [(1, "a")]), ([2], [(2, "b")]), ([], [])] := by decide
example : rebalance (R := String) (fun t : Nat => t) [([1], [(2, "a")])] = .error .keyError := by decide

end Rebalance
end Redrock
