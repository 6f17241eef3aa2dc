import Verif.Lemmas.Zfind
import Verif.Props.Fitz

/-! Properties C19 - C24, C60. -/
set_option linter.unusedSectionVars false

namespace Redrock

section
variable {K : Type} [Field K] [LinearOrder K] [IsStrictOrderedRing K] {σ : Type}

/-- **C19** `sort_zfit_dict`: for any table whose columns all have the length of `zwarn` there is one permutation `idx` of the row numbers such
that every column is reordered by `idx`, rows without bad-fit bits come before rows with, chi2 is non-decreasing within each group, and equal rows keep their order. -/
theorem C19_sort_columns {V : Type} (zwarn : List Nat) (chi2 : List K)
    (d : PyDict String (List V)) (hd : ∀ kv ∈ d, kv.2.length = zwarn.length) :
    ∃ (idx : List Nat) (d' : PyDict String (List V)), idx.Perm (List.range zwarn.length) ∧ sortZfitDict zwarn chi2 d = .ok d' ∧
      List.Forall₂ (fun kv kv' => kv'.1 = kv.1 ∧ kv'.2.length = zwarn.length ∧ ∀ k i : Nat, idx[k]? = some i → kv'.2[k]? = kv.2[i]?) d d' ∧
      idx.Pairwise (fun i j => ∀ wi wj ci cj, zwarn[i]? = some wi → zwarn[j]? = some wj → chi2[i]? = some ci → chi2[j]? = some cj →
        (wi &&& ZW.badfit ≠ 0 → wj &&& ZW.badfit ≠ 0) ∧
        ((wi &&& ZW.badfit ≠ 0 ↔ wj &&& ZW.badfit ≠ 0) → ci ≤ cj ∧ (ci = cj → i < j))) := by
  generalize hle0 : (fun i j : Nat => decide ((zwarn.getD i 0 &&& ZW.badfit ≠ 0) → (zwarn.getD j 0 &&& ZW.badfit ≠ 0))) = le0
  generalize hle1 : (fun i j : Nat => decide (chi2.getD i 0 ≤ chi2.getD j 0)) = le1
  have hs1 : (pySort le1 (List.range zwarn.length)).Pairwise (fun a b => le1 a b = true ∧ (le1 b a = true → a < b)) := by
    apply pySort_stable
    · intro a b c; subst hle1; simp only [decide_eq_true_eq]; exact le_trans
    · intro a b; subst hle1; simp only [decide_eq_true_eq]; exact le_total _ _
    · exact List.pairwise_lt_range
  have hs2 := pySort_stable le0 (by
      intro a b c; subst hle0; simp only [decide_eq_true_eq]; exact fun h1 h2 h => h2 (h1 h)) (by
      intro a b; subst hle0; simp only [decide_eq_true_eq]
      by_cases h : zwarn.getD b 0 &&& ZW.badfit ≠ 0
      · exact Or.inl fun _ => h
      · exact Or.inr fun h' => absurd h' h) _ _ hs1
  have hperm : (lexsort2 le1 le0 zwarn.length).Perm (List.range zwarn.length) :=
    (pySort_perm _ _).trans (pySort_perm _ _)
  have hlt : ∀ i ∈ lexsort2 le1 le0 zwarn.length, i < zwarn.length := fun i hi => List.mem_range.1 (hperm.subset hi)
  have hmap : ∀ e : PyDict String (List V), (∀ kv ∈ e, kv.2.length = zwarn.length) →
      ∃ e', e.mapM (fun kv => (do
        let col ← npTake kv.2 (lexsort2 le1 le0 zwarn.length)
        return (kv.1, col) : Py (String × List V))) = .ok e' ∧
      List.Forall₂ (fun kv kv' => kv'.1 = kv.1 ∧ kv'.2.length = zwarn.length ∧ ∀ k i : Nat, (lexsort2 le1 le0 zwarn.length)[k]? = some i → kv'.2[k]? = kv.2[i]?) e e' := by
    intro e
    induction e with
    | nil => intro _; exact ⟨[], rfl, List.Forall₂.nil⟩
    | cons kv e ih =>
      intro he
      obtain ⟨e', h1, h2⟩ := ih (fun x hx => he x (List.mem_cons_of_mem _ hx))
      obtain ⟨col, h3, h4, h5⟩ := npTake_ok kv.2 (lexsort2 le1 le0 zwarn.length) (by
        intro i hi; rw [he kv (by simp)]; exact hlt i hi)
      refine ⟨(kv.1, col) :: e', ?_, List.Forall₂.cons ⟨rfl, ?_, ?_⟩ h2⟩
      · rw [List.mapM_cons, h1, h3]; rfl
      · rw [h4, hperm.length_eq, List.length_range]
      · intro k i hk
        show col[k]? = _
        rw [h5, hk]; rfl
  obtain ⟨d', hd1, hd2⟩ := hmap d hd
  refine ⟨lexsort2 le1 le0 zwarn.length, d', hperm, ?_, hd2, ?_⟩
  · unfold sortZfitDict sortDictByCols
    rw [hle0, hle1]
    exact hd1
  · unfold lexsort2
    refine hs2.imp ?_
    intro i j h wi wj ci cj hwi hwj hci hcj
    subst hle0 hle1
    simp only [List.getD_eq_getElem?_getD, hwi, hwj, hci, hcj, Option.getD_some, decide_eq_true_eq] at h
    refine ⟨h.1, fun hiff => ?_⟩
    obtain ⟨h1, h2⟩ := h.2 hiff.2
    exact ⟨h1, fun he => h2 (le_of_eq he.symm)⟩

/-- **C19** row view: every column of the sorted table is the column of `sortZfit`'s rows (so one may reason about rows). -/
theorem C19_rows_are_columns {V : Type} (rows : List (Row K σ)) (name : String) (f : Row K σ → V) :
    sortZfitDict (rows.map (·.zwarn)) (rows.map (·.chi2)) [(name, rows.map f)] = .ok [(name, (sortZfit rows).map f)] := by
  cases hrows : rows with
  | nil => rfl
  | cons d tl =>
  rw [← hrows]
  generalize hidx : lexsort2 (fun i j => decide ((rows.map (·.chi2)).getD i 0 ≤ (rows.map (·.chi2)).getD j 0))
    (fun i j => decide (((rows.map (·.zwarn)).getD i 0 &&& ZW.badfit ≠ 0) → ((rows.map (·.zwarn)).getD j 0 &&& ZW.badfit ≠ 0)))
    (rows.map (·.zwarn)).length = idx
  have hperm : idx.Perm (List.range rows.length) := by
    rw [← hidx]
    have := (pySort_perm (fun i j => decide (((rows.map (·.zwarn)).getD i 0 &&& ZW.badfit ≠ 0) → ((rows.map (·.zwarn)).getD j 0 &&& ZW.badfit ≠ 0)))
      (pySort (fun i j => decide ((rows.map (·.chi2)).getD i 0 ≤ (rows.map (·.chi2)).getD j 0)) (List.range (rows.map (·.zwarn)).length))).trans (pySort_perm _ _)
    rw [List.length_map] at this
    unfold lexsort2
    rw [List.length_map]
    exact this
  have hlt : ∀ i ∈ idx, i < rows.length := fun i hi => List.mem_range.1 (hperm.subset hi)
  have hsort : sortZfit rows = idx.map (fun i => rows.getD i d) := by
    have hr : rows = (List.range rows.length).map (fun i => rows.getD i d) := by
      apply List.ext_getElem (by simp)
      intro k h1 h2
      simp [h1]
    rw [← hidx]
    unfold sortZfit lexsort2
    rw [List.length_map]
    conv_lhs => rw [hr]
    rw [pySort_map, pySort_map]
    congr 1
    rw [pySort_congr (fun a b => decide ((rows.getD a d).chi2 ≤ (rows.getD b d).chi2)) (fun i j => decide ((rows.map (·.chi2)).getD i 0 ≤ (rows.map (·.chi2)).getD j 0))]
    · apply pySort_congr
      intro a ha b hb
      have ha := (pySort_perm _ _).subset ha
      have hb := (pySort_perm _ _).subset hb
      rw [List.mem_range] at ha hb
      simp [ha, hb, Row.bad]
    · intro a ha b hb
      rw [List.mem_range] at ha hb
      simp [ha, hb]
  unfold sortZfitDict sortDictByCols
  rw [hidx]
  dsimp only
  rw [List.mapM_cons, npTake_map (rows.map f) idx (f d) (by simpa using hlt), hsort]
  simp only [bind, Except.bind, pure, Except.pure, List.mapM_nil, List.map_map]
  congr 3
  apply List.map_congr_left
  intro i hi
  simp [hlt i hi]

/-! ### trimming -/

/-- what the table is ordered by: good fits first, then chi2 -/
def Row.notWorse (a b : Row K σ) : Prop := (a.bad = true → b.bad = true) ∧ (a.bad = b.bad → a.chi2 ≤ b.chi2)

private theorem filter_flatMap_keep [LinearOrder σ] (S : List σ) (hS : S.Nodup) (rows : List (Row K σ)) (n : Nat) (s : σ) :
    (S.flatMap (fun t => (rows.filter (fun r => decide (r.spectype = t))).take n)).filter (fun r => decide (r.spectype = s)) =
      if s ∈ S then (rows.filter (fun r => decide (r.spectype = s))).take n else [] := by
  induction S with
  | nil => simp
  | cons t S ih =>
    rw [List.nodup_cons] at hS
    rw [List.flatMap_cons, List.filter_append, ih hS.2]
    have hmem : ∀ r ∈ (rows.filter (fun r => decide (r.spectype = t))).take n, r.spectype = t := by
      intro r hr
      have := List.mem_of_mem_take hr
      simpa using (List.mem_filter.1 this).2
    by_cases hst : s = t
    · subst hst
      rw [if_neg hS.1, if_pos (by simp), List.append_nil]
      apply List.filter_eq_self.2
      intro r hr
      simpa using hmem r hr
    · have : ((rows.filter (fun r => decide (r.spectype = t))).take n).filter (fun r => decide (r.spectype = s)) = [] := by
        rw [List.filter_eq_nil_iff]
        intro r hr
        simp only [decide_eq_true_eq]
        intro h
        exact hst (h.symm.trans (hmem r hr))
      rw [this, List.nil_append]
      by_cases h : s ∈ S
      · rw [if_pos h, if_pos (List.mem_cons_of_mem _ h)]
      · rw [if_neg h, if_neg (by simp [hst, h])]

private theorem npUnique_mem [LinearOrder σ] (xs : List σ) (s : σ) : s ∈ npUnique xs ↔ s ∈ xs := by
  unfold npUnique
  rw [List.mem_dedup]
  exact (pySort_perm _ _).mem_iff

private theorem npUnique_nodup [LinearOrder σ] (xs : List σ) : (npUnique xs).Nodup := List.nodup_dedup _

/-- **C20** after sorting and trimming, the rows of each spectype are exactly the first `nminima` rows of that spectype in the sorted table (so
`min(nminima, available)` of them), and the result is sorted. -/
theorem C20_trim_per_spectype [LinearOrder σ] (nminima : Nat) (rows : List (Row K σ)) :
    (∀ s, (trimRows nminima (sortZfit rows)).filter (fun r => decide (r.spectype = s)) =
      ((sortZfit rows).filter (fun r => decide (r.spectype = s))).take nminima) ∧
    (∀ s, ((trimRows nminima (sortZfit rows)).filter (fun r => decide (r.spectype = s))).length =
      min nminima (rows.filter (fun r => decide (r.spectype = s))).length) ∧
    (trimRows nminima (sortZfit rows)).Pairwise (fun a b => a.notWorse b) := by
  have hsorted := sortZfit_sorted rows
  have hperm := sortZfit_perm rows
  generalize hT : sortZfit rows = T at *
  have hmemS : ∀ s, s ∈ npUnique (T.map (·.spectype)) ↔ ∃ r ∈ T, r.spectype = s := by
    intro s; rw [npUnique_mem, List.mem_map]
  have key : (∀ s, (trimRows nminima T).filter (fun r => decide (r.spectype = s)) = (T.filter (fun r => decide (r.spectype = s))).take nminima) ∧
      (trimRows nminima T).Pairwise (fun a b => a.notWorse b) := by
    unfold trimRows
    dsimp only
    split
    · refine ⟨?_, sortZfit_sorted _⟩
      intro s
      rw [sortZfit_filter, filter_flatMap_keep _ (npUnique_nodup _)]
      split
      · apply sortZfit_of_sorted
        exact (hsorted.filter _).sublist (List.take_sublist _ _)
      · rename_i hs
        have : T.filter (fun r => decide (r.spectype = s)) = [] := by
          rw [List.filter_eq_nil_iff]
          intro r hr
          simp only [decide_eq_true_eq]
          intro h
          exact hs ((hmemS s).2 ⟨r, hr, h⟩)
        rw [this]; simp [sortZfit, pySort]
    · rename_i hlen
      refine ⟨?_, hsorted⟩
      intro s
      have hl := length_eq_sum_groups (fun r : Row K σ => r.spectype) (npUnique (T.map (·.spectype))) (npUnique_nodup _) T
        (fun r hr => (hmemS _).2 ⟨r, hr, rfl⟩)
      rw [List.length_flatMap] at hlen
      have heq := sum_eq_of_le (npUnique (T.map (·.spectype)))
        (fun s => ((T.filter (fun r => decide (r.spectype = s))).take nminima).length)
        (fun s => (T.filter (fun r => decide (r.spectype = s))).length)
        (fun s _ => by rw [List.length_take]; exact min_le_right _ _)
        (by rw [← hl]; exact not_lt.1 hlen)
      by_cases hs : s ∈ npUnique (T.map (·.spectype))
      · have := heq s hs
        rw [List.length_take] at this
        rw [List.take_of_length_le (by omega)]
      · have : T.filter (fun r => decide (r.spectype = s)) = [] := by
          rw [List.filter_eq_nil_iff]
          intro r hr
          simp only [decide_eq_true_eq]
          intro h
          exact hs ((hmemS s).2 ⟨r, hr, h⟩)
        rw [this, List.take_nil]
  refine ⟨key.1, ?_, key.2⟩
  intro s
  rw [key.1, List.length_take, (hperm.filter _).length_eq]

/-- **C20** a row dropped by the trimming is never better than a kept row of the same spectype; kept and dropped rows together are the input. -/
theorem C20_dropped_not_better [LinearOrder σ] (nminima : Nat) (rows : List (Row K σ)) (s : σ) :
    ∃ dropped, List.Perm (rows.filter (fun r => decide (r.spectype = s)))
        ((trimRows nminima (sortZfit rows)).filter (fun r => decide (r.spectype = s)) ++ dropped) ∧
      ∀ k ∈ trimRows nminima (sortZfit rows), k.spectype = s → ∀ d ∈ dropped, k.notWorse d := by
  have h := (C20_trim_per_spectype nminima rows).1 s
  refine ⟨((sortZfit rows).filter (fun r => decide (r.spectype = s))).drop nminima, ?_, ?_⟩
  · rw [h, List.take_append_drop]
    exact ((sortZfit_perm rows).filter _).symm
  · intro k hk hks d hd
    have hk' : k ∈ ((sortZfit rows).filter (fun r => decide (r.spectype = s))).take nminima := by
      rw [← h, List.mem_filter]; exact ⟨hk, by simp [hks]⟩
    have hp := (sortZfit_sorted rows).filter (fun r => decide (r.spectype = s))
    rw [← List.take_append_drop nminima ((sortZfit rows).filter (fun r => decide (r.spectype = s))), List.pairwise_append] at hp
    exact hp.2.2 k hk' d hd

/-- **C20** the overall best row is kept, and comes first: for `nminima ≥ 1` and at least one candidate, the first row of the trimmed table is not worse than any
candidate. -/
theorem C20_best_first [LinearOrder σ] (nminima : Nat) (hn : 1 ≤ nminima) (rows : List (Row K σ)) (hne : rows ≠ []) :
    ∃ best, (trimRows nminima (sortZfit rows)).head? = some best ∧ best ∈ rows ∧ ∀ r ∈ rows, best.notWorse r := by
  obtain ⟨h1, h2, h3⟩ := C20_trim_per_spectype nminima rows
  have refl : ∀ a : Row K σ, a.notWorse a := fun a => ⟨id, fun _ => le_refl _⟩
  have trans : ∀ a b c : Row K σ, a.notWorse b → b.notWorse c → a.notWorse c := by
    rintro a b c ⟨x1, x2⟩ ⟨y1, y2⟩
    refine ⟨fun h => y1 (x1 h), fun h => ?_⟩
    by_cases hab : a.bad = b.bad
    · exact le_trans (x2 hab) (y2 (hab ▸ h))
    · exfalso
      cases ha : a.bad <;> cases hb : b.bad <;> simp_all
  have hsub : ∀ r ∈ trimRows nminima (sortZfit rows), r ∈ rows := by
    intro r hr
    have : r ∈ (trimRows nminima (sortZfit rows)).filter (fun x => decide (x.spectype = r.spectype)) := by
      rw [List.mem_filter]; exact ⟨hr, by simp⟩
    rw [h1] at this
    exact (sortZfit_perm rows).subset (List.mem_filter.1 (List.mem_of_mem_take this)).1
  -- every input row has a kept row of its spectype which is not worse
  have hcover : ∀ r ∈ rows, ∃ k ∈ trimRows nminima (sortZfit rows), k.notWorse r := by
    intro r hr
    have hrT : r ∈ (sortZfit rows).filter (fun x => decide (x.spectype = r.spectype)) := by
      rw [List.mem_filter]; exact ⟨(sortZfit_perm rows).mem_iff.2 hr, by simp⟩
    have hs := (sortZfit_sorted rows).filter (fun x => decide (x.spectype = r.spectype))
    cases hT : (sortZfit rows).filter (fun x => decide (x.spectype = r.spectype)) with
    | nil => rw [hT] at hrT; simp at hrT
    | cons k t =>
      have hk : k ∈ (trimRows nminima (sortZfit rows)).filter (fun x => decide (x.spectype = r.spectype)) := by
        rw [h1, hT]
        cases nminima with
        | zero => omega
        | succ m => simp
      refine ⟨k, (List.mem_filter.1 hk).1, ?_⟩
      rw [hT] at hrT hs
      rcases List.mem_cons.1 hrT with rfl | h
      · exact refl _
      · exact (List.pairwise_cons.1 hs).1 r h
  cases hF : trimRows nminima (sortZfit rows) with
  | nil =>
    obtain ⟨r, hr⟩ := List.exists_mem_of_ne_nil _ hne
    obtain ⟨k, hk, _⟩ := hcover r hr
    rw [hF] at hk; simp at hk
  | cons b t =>
    refine ⟨b, rfl, hsub b (by rw [hF]; simp), ?_⟩
    intro r hr
    obtain ⟨k, hk, hkr⟩ := hcover r hr
    rw [hF] at hk h3
    rcases List.mem_cons.1 hk with rfl | h
    · exact hkr
    · exact trans _ _ _ ((List.pairwise_cons.1 h3).1 k h) hkr

end
end Redrock
