import Verif.Props.Flags

/-! Properties C46 (padding), C60, C61 and concrete cases for C19 - C24, C49. -/
set_option linter.unusedSectionVars false

namespace Redrock

section
variable {K : Type} [Field K] [LinearOrder K] [IsStrictOrderedRing K] {σ ι : Type}

theorem mapM_Except_error {α β : Type} (f : α → Py β) (l : List α) (e : PyErr) (he : ∀ a ∈ l, ∀ e', f a = .error e' → e' = e)
    (a : α) (ha : a ∈ l) (hf : ∃ e', f a = .error e') : l.mapM f = .error e := by
  induction l with
  | nil => simp at ha
  | cons b l ih =>
    rw [List.mapM_cons]
    cases hb : f b with
    | error e' => rw [he b (by simp) e' hb]; rfl
    | ok v =>
      rcases List.mem_cons.1 ha with rfl | ha
      · obtain ⟨e', h⟩ := hf; rw [hb] at h; cases h
      · rw [ih (fun c hc => he c (List.mem_cons_of_mem _ hc)) ha]; rfl

/-- the only way a target's table fails is that it has no candidate at all -/
theorem targetTable_error_iff [LinearOrder σ] (nminima : Nat) (ibad : Row K σ → Bool) (fits : List (TemplateFit K σ)) :
    (∀ e, targetTable nminima ibad fits = .error e → e = .valueError) ∧
    ((∀ t ∈ fits, t.cands = []) → targetTable nminima ibad fits = .error .valueError) ∧
    ((∃ t ∈ fits, t.cands ≠ []) → ∃ T, targetTable nminima ibad fits = .ok T) := by
  have hne : ∀ L : List Nat, (L = [] ∧ pyMaxNat L = .error .valueError) ∨ (∃ m, pyMaxNat L = .ok m) := by
    intro L; cases L
    · exact Or.inl ⟨rfl, rfl⟩
    · exact Or.inr ⟨_, rfl⟩
  refine ⟨?_, ?_, ?_⟩
  · intro e h
    unfold targetTable targetRows at h
    rcases hne ((fits.filter (fun t : TemplateFit K σ => decide (t.cands ≠ []))).map (fun t => t.ncoeff)) with ⟨_, h1⟩ | ⟨m, h1⟩
    · dsimp only at h
      rw [h1] at h
      cases h; rfl
    · dsimp only at h
      rw [h1] at h
      cases h
  · intro h
    have h0 : fits.filter (fun t => decide (t.cands ≠ [])) = [] := by
      rw [List.filter_eq_nil_iff]; intro t ht; simp [h t ht]
    unfold targetTable targetRows
    rw [h0]; rfl
  · rintro ⟨t, ht, hc⟩
    unfold targetTable targetRows
    rcases hne ((fits.filter (fun t : TemplateFit K σ => decide (t.cands ≠ []))).map (fun t => t.ncoeff)) with ⟨h0, _⟩ | ⟨m, h1⟩
    · rw [List.map_eq_nil_iff, List.filter_eq_nil_iff] at h0
      exact absurd (h0 t ht) (by simpa using hc)
    · dsimp only
      rw [h1]
      exact ⟨_, rfl⟩

/-- **C60** (negation) if one target has no candidate for any template, `zfind` raises for the whole run, whatever the other targets have. -/
theorem C60_target_without_candidates_aborts [LinearOrder σ] (nminima : Nat) (ibad : Row K σ → Bool) (all : List (ι × List (TemplateFit K σ)))
    (tid : ι) (fits : List (TemplateFit K σ)) (hmem : (tid, fits) ∈ all) (hno : ∀ t ∈ fits, t.cands = []) :
    zfindTables nminima ibad all = .error .valueError := by
  unfold zfindTables
  have h := mapM_Except_error (fun tf : ι × List (TemplateFit K σ) => (do
      let rows ← targetTable nminima ibad tf.2
      return (tf.1, rows) : Py (ι × List (Row K σ)))) all .valueError (by
      intro tf _ e' h
      cases hT : targetTable nminima ibad tf.2 with
      | error e2 => rw [hT] at h; cases h; exact (targetTable_error_iff nminima ibad tf.2).1 _ hT
      | ok T => rw [hT] at h; cases h) (tid, fits) hmem ⟨.valueError, by
      rw [(targetTable_error_iff nminima ibad fits).2.1 hno]; rfl⟩
  rw [h]
  rfl

/-- all rows of a target's table have the width of its widest template with candidates, and there is at least one row -/
theorem targetTable_width [LinearOrder σ] (nminima : Nat) (hn : 1 ≤ nminima) (ibad : Row K σ → Bool) (fits : List (TemplateFit K σ)) (W : Nat)
    (hw : ∃ t ∈ fits, t.cands ≠ [] ∧ t.ncoeff = W) (hle : ∀ t ∈ fits, ∀ c ∈ t.cands, c.coeff.length ≤ W ∧ t.ncoeff ≤ W) :
    ∃ T, targetTable nminima ibad fits = .ok T ∧ T ≠ [] ∧ ∀ r ∈ T, r.coeff.length = W := by
  have hmax : ∀ (L : List Nat), (∃ x ∈ L, x = W) → (∀ x ∈ L, x ≤ W) → pyMaxNat L = .ok W := by
    intro L h1 h2
    cases L with
    | nil => simp at h1
    | cons v vs =>
      have key : ∀ (vs : List Nat) (v : Nat), (∀ x ∈ v :: vs, x ≤ W) → (W ∈ v :: vs) → vs.foldl max v = W := by
        intro vs
        induction vs with
        | nil => intro v _ h; exact (List.mem_singleton.1 h).symm
        | cons x vs ih =>
          intro v hx hm
          rw [List.foldl_cons]
          apply ih
          · intro y hy
            rcases List.mem_cons.1 hy with rfl | hy
            · exact max_le (hx v (by simp)) (hx x (by simp))
            · exact hx y (by simp [hy])
          · have hv := hx v (by simp)
            have hx' := hx x (by simp)
            rcases List.mem_cons.1 hm with h | hm
            · subst h; rw [max_eq_left hx']; simp
            · rcases List.mem_cons.1 hm with h | hm
              · subst h; rw [max_eq_right hv]; simp
              · simp [hm]
      obtain ⟨x, hx, rfl⟩ := h1
      exact congrArg Except.ok (key vs v h2 hx)
  obtain ⟨t0, ht0, hc0, hW⟩ := hw
  have hm : pyMaxNat ((fits.filter (fun t => decide (t.cands ≠ []))).map (·.ncoeff)) = .ok W := by
    apply hmax
    · exact ⟨W, List.mem_map.2 ⟨t0, List.mem_filter.2 ⟨ht0, by simpa using hc0⟩, hW⟩, rfl⟩
    · intro x hx
      obtain ⟨t, ht, rfl⟩ := List.mem_map.1 hx
      obtain ⟨h1, h2⟩ := List.mem_filter.1 ht
      simp only [decide_eq_true_eq] at h2
      obtain ⟨c, hc⟩ := List.exists_mem_of_ne_nil _ h2
      exact (hle t h1 c hc).2
  unfold targetTable targetRows
  dsimp only
  rw [hm]
  have hR0 : ∀ r0 ∈ (fits.filter (fun t => decide (t.cands ≠ []))).flatMap (fun t => t.cands.map (fun c =>
      ({ z := c.z, zerr := c.zerr, zwarn := c.zwarn, chi2 := c.chi2, npixels := t.npixels, spectype := t.spectype, subtype := t.subtype,
         ncoeff := t.ncoeff, coeff := c.coeff ++ List.replicate (W - c.coeff.length) 0,
         maxVelo := maxVeloDiff t.isStar, znum := 0, deltachi2 := 0 } : Row K σ))), r0.coeff.length = W := by
    intro r0 hr0
    obtain ⟨t, ht, hrt⟩ := List.mem_flatMap.1 hr0
    obtain ⟨c, hc, hcr⟩ := List.mem_map.1 hrt
    have hk := (hle t (List.mem_filter.1 ht).1 c hc).1
    rw [← hcr]
    simp only [List.length_append, List.length_replicate]
    omega
  have hRne : (fits.filter (fun t => decide (t.cands ≠ []))).flatMap (fun t => t.cands.map (fun c =>
      ({ z := c.z, zerr := c.zerr, zwarn := c.zwarn, chi2 := c.chi2, npixels := t.npixels, spectype := t.spectype, subtype := t.subtype,
         ncoeff := t.ncoeff, coeff := c.coeff ++ List.replicate (W - c.coeff.length) 0,
         maxVelo := maxVeloDiff t.isStar, znum := 0, deltachi2 := 0 } : Row K σ))) ≠ [] := by
    intro h
    rw [List.flatMap_eq_nil_iff] at h
    have := h t0 (List.mem_filter.2 ⟨ht0, by simpa using hc0⟩)
    rw [List.map_eq_nil_iff] at this
    exact hc0 this
  show ∃ T, (Except.ok (finishRows (trimRows nminima (sortZfit (List.map (flagRow ibad) ((fits.filter (fun t => decide (t.cands ≠ []))).flatMap (fun t => t.cands.map (fun c =>
      ({ z := c.z, zerr := c.zerr, zwarn := c.zwarn, chi2 := c.chi2, npixels := t.npixels, spectype := t.spectype, subtype := t.subtype,
         ncoeff := t.ncoeff, coeff := c.coeff ++ List.replicate (W - c.coeff.length) 0,
         maxVelo := maxVeloDiff t.isStar, znum := 0, deltachi2 := 0 } : Row K σ))))))) ) : Py (List (Row K σ))) = .ok T ∧ T ≠ [] ∧ ∀ r ∈ T, r.coeff.length = W
  generalize (fits.filter (fun t => decide (t.cands ≠ []))).flatMap (fun t => t.cands.map (fun c =>
      ({ z := c.z, zerr := c.zerr, zwarn := c.zwarn, chi2 := c.chi2, npixels := t.npixels, spectype := t.spectype, subtype := t.subtype,
         ncoeff := t.ncoeff, coeff := c.coeff ++ List.replicate (W - c.coeff.length) 0,
         maxVelo := maxVeloDiff t.isStar, znum := 0, deltachi2 := 0 } : Row K σ))) = rows at hR0 hRne
  refine ⟨_, rfl, ?_, ?_⟩
  · intro h0
    have hl := congrArg List.length h0
    rw [finishRows_length, List.length_nil, List.length_eq_zero_iff] at hl
    obtain ⟨b, hb, _⟩ := C20_best_first nminima hn (rows.map (flagRow ibad)) (fun h => hRne (List.map_eq_nil_iff.1 h))
    rw [hl] at hb
    simp at hb
  · intro r hr
    obtain ⟨i, hi⟩ := List.mem_iff_getElem?.1 hr
    have hlt := (List.getElem?_eq_some_iff.1 hi).1
    rw [finishRows_length] at hlt
    obtain ⟨d, f, _, _, h3⟩ := finishRows_spec _ i _ (List.getElem?_eq_getElem hlt)
    rw [hi, Option.some.injEq] at h3
    obtain ⟨r0, hr0, hfl⟩ := List.mem_map.1 (trimRows_subset _ _ _ (List.getElem_mem hlt))
    have hs := congrArg (fun r : Row K σ => r.coeff) (C24_flagRow ibad r0).2
    rw [hfl] at hs
    rw [h3]
    exact (congrArg List.length hs).trans (hR0 r0 hr0)

/-- **C60** (what does hold) if in every target some template has a candidate and the widest such template has the same number of coefficients `W` in all targets, `zfind`
returns one table that contains, for every target in the order of the target list, exactly the rows of that target's own table. -/
theorem C60_all_targets_reported_partial [LinearOrder σ] (nminima : Nat) (hn : 1 ≤ nminima) (ibad : Row K σ → Bool) (all : List (ι × List (TemplateFit K σ)))
    (hall : all ≠ []) (W : Nat) (hw : ∀ tf ∈ all, ∃ t ∈ tf.2, t.cands ≠ [] ∧ t.ncoeff = W)
    (hle : ∀ tf ∈ all, ∀ t ∈ tf.2, ∀ c ∈ t.cands, c.coeff.length ≤ W ∧ t.ncoeff ≤ W) :
    ∃ T : List (List (Row K σ)), zfindTables nminima ibad all = .ok ((all.zip T).flatMap (fun x => x.2.map (fun r => (x.1.1, r)))) ∧
      T.length = all.length ∧ (∀ R ∈ T, R ≠ []) ∧
      ∀ (i : Nat) (tf : ι × List (TemplateFit K σ)) (R : List (Row K σ)), all[i]? = some tf → T[i]? = some R → targetTable nminima ibad tf.2 = .ok R := by
  have hone : ∀ tf ∈ all, ∃ T, targetTable nminima ibad tf.2 = .ok T ∧ T ≠ [] ∧ ∀ r ∈ T, r.coeff.length = W :=
    fun tf h => targetTable_width nminima hn ibad tf.2 W (hw tf h) (hle tf h)
  have hex : ∃ T : List (List (Row K σ)), all.mapM (fun tf => (do
      let rows ← targetTable nminima ibad tf.2
      return (tf.1, rows) : Py (ι × List (Row K σ)))) = .ok ((all.zip T).map (fun x => (x.1.1, x.2))) ∧
      List.Forall₂ (fun tf R => targetTable nminima ibad tf.2 = .ok R ∧ R ≠ [] ∧ ∀ r ∈ R, r.coeff.length = W) all T := by
    clear hall hw hle
    induction all with
    | nil => exact ⟨[], rfl, List.Forall₂.nil⟩
    | cons tf all ih =>
      obtain ⟨T, h1, h2⟩ := ih (fun x hx => hone x (List.mem_cons_of_mem _ hx))
      obtain ⟨R, hR, h3⟩ := hone tf (by simp)
      refine ⟨R :: T, ?_, List.Forall₂.cons ⟨hR, h3⟩ h2⟩
      rw [List.mapM_cons, h1, hR]
      rfl
  obtain ⟨T, h1, h2⟩ := hex
  have hlen := h2.length_eq
  refine ⟨T, ?_, hlen.symm, ?_, ?_⟩
  · unfold zfindTables
    rw [h1]
    have hwid : ∀ x ∈ ((all.zip T).map (fun x => (x.1.1, x.2))).map (fun t => ((t.2.map (·.coeff.length)).headD 0)), x = W := by
      intro x hx
      rw [List.map_map] at hx
      obtain ⟨⟨tf, R⟩, hz, rfl⟩ := List.mem_map.1 hx
      obtain ⟨i, hi⟩ := List.mem_iff_getElem?.1 hz
      rw [List.getElem?_zip_eq_some] at hi
      obtain ⟨_, hRne, hRw⟩ := (List.forall₂_iff_get.1 h2).2 i (List.getElem?_eq_some_iff.1 hi.1).1 (List.getElem?_eq_some_iff.1 hi.2).1
      rw [List.get_eq_getElem, (List.getElem?_eq_some_iff.1 hi.2).2] at hRne hRw
      cases R with
      | nil => exact absurd rfl hRne
      | cons r R => exact hRw r (by simp)
    show (match ((all.zip T).map (fun x => (x.1.1, x.2))).map (fun t => ((t.2.map (·.coeff.length)).headD 0)) with
      | [] => _ | w :: ws => _) = _
    cases hws : ((all.zip T).map (fun x => (x.1.1, x.2))).map (fun t => ((t.2.map (·.coeff.length)).headD 0)) with
    | nil =>
      have := congrArg List.length hws
      simp only [List.length_map, List.length_zip, ← hlen, Nat.min_self, List.length_nil, List.length_eq_zero_iff] at this
      exact absurd this hall
    | cons w ws =>
      rw [hws] at hwid
      dsimp only
      rw [if_neg]
      · rw [List.flatMap_map]
      · rw [List.any_eq_true]
        rintro ⟨v, hv, h⟩
        simp only [decide_eq_true_eq] at h
        exact h ((hwid v (by simp [hv])).trans (hwid w (by simp)).symm)
  · intro R hR
    obtain ⟨i, hi⟩ := List.mem_iff_getElem?.1 hR
    obtain ⟨hlt, rfl⟩ := List.getElem?_eq_some_iff.1 hi
    exact ((List.forall₂_iff_get.1 h2).2 i (by omega) hlt).2.1
  · intro i tf R h3 h4
    obtain ⟨hlt, rfl⟩ := List.getElem?_eq_some_iff.1 h3
    obtain ⟨hlt2, rfl⟩ := List.getElem?_eq_some_iff.1 h4
    exact ((List.forall₂_iff_get.1 h2).2 i hlt hlt2).1

end
/-! ### concrete cases -/

/-- candidates of two templates for one target: GALAXY with 2 coefficients, STAR with 1 -/
def demoFits : List (TemplateFit ℚ Nat) :=
  [⟨1, 0, false, 100, [⟨1/2, 1/1000, 0, 50, [3, 4], []⟩, ⟨1, 1/1000, 32, 40, [1, 4], []⟩, ⟨6/5, 1/1000, 0, 55, [3, 3], []⟩]⟩,
   ⟨2, 7, true, 5, [⟨0, 1/1000, 0, 52, [9], []⟩]⟩]

set_option synthInstance.maxSize 1000 in
/-- C20 - C24: a target table with trimming, a bad fit, small deltachi2 and little coverage. -/
example : (targetTable 2 (fun _ => false) demoFits).map (fun T => T.map (fun r => (r.z, r.chi2, r.zwarn, r.coeff, r.znum, r.deltachi2))) = .ok
    [(1/2, 50, 4, [3, 4], 0, 2), (0, 52, 6, [9, 0], 1, 3), (6/5, 55, 4, [3, 3], 2, 0)] := by decide +kernel

/-- with `nminima = 1` the second galaxy is dropped; the best row stays first -/
example : (targetTable 1 (fun _ => false) demoFits).map (fun T => T.map (fun r => (r.z, r.znum))) = .ok [(1/2, 0), (0, 1)] := by decide +kernel

/-- C21: a table meeting the sortedness hypothesis of `C21_nonneg`, with a non-zero result -/
example : deltachi2s [(⟨50, 1/2, 0, 1000⟩ : DRow ℚ), ⟨52, 1/2, 0, 1000⟩, ⟨55, 6/5, 0, 1000⟩, ⟨40, 1, 32, 1000⟩] = [5, 3, 0, 0] ∧
    setzwarns [(⟨50, 1/2, 0, 1000⟩ : DRow ℚ), ⟨52, 1/2, 0, 1000⟩, ⟨55, 6/5, 0, 1000⟩, ⟨40, 1, 32, 1000⟩] = [true, true, true, false] := by decide +kernel

/-- **C60** (negation) every target has candidates, and still `zfind` raises: target 11 has none for the widest template (for instance because a tophat prior excludes its
whole redshift grid, `C13_tophat_empty_window`), so the `coeff` columns of the two tables differ in width. -/
theorem C60_width_mismatch_aborts :
    ¬ ∀ all : List (Nat × List (TemplateFit ℚ Nat)), all ≠ [] → (∀ tf ∈ all, ∃ t ∈ tf.2, t.cands ≠ []) →
      ∃ T, zfindTables 2 (fun _ => false) all = .ok T := by
  intro h
  obtain ⟨T, hT⟩ := h [(10, demoFits), (11, [⟨1, 0, false, 100, []⟩, ⟨2, 7, true, 5, [⟨0, 1/1000, 0, 52, [9], []⟩]⟩])] (by simp) (by decide +kernel)
  have : zfindTables 2 (fun _ => false) [(10, demoFits), (11, [⟨1, 0, false, 100, []⟩, ⟨2, 7, true, 5, [⟨0, 1/1000, 0, 52, [9], []⟩]⟩])] =
      .error .valueError := by decide +kernel
  rw [this] at hT
  cases hT

/-- C60: the hypotheses of the partial theorem are met by two targets with the same templates -/
example : ∃ T : List (List (Row ℚ Nat)), zfindTables 2 (fun _ => false) [(10, demoFits), (11, demoFits)] =
    .ok (([(10, demoFits), (11, demoFits)].zip T).flatMap (fun x => x.2.map (fun r => (x.1.1, r)))) ∧ T.length = 2 := by
  obtain ⟨T, h1, h2, _⟩ := C60_all_targets_reported_partial 2 (by decide) (fun _ => false) [(10, demoFits), (11, demoFits)] (by simp) 2
    (by decide +kernel) (by decide +kernel)
  exact ⟨T, h1, h2⟩

set_option synthInstance.maxSize 1000 in
/-- C49/C23: a target with a broken fiber is reset, a good one is kept -/
example : (desiFlags ⟨1, 2, 4, 8, [16]⟩ [(⟨10, 4, "TGT"⟩ : FiberRow Nat), ⟨11, 1, "TGT"⟩]
      [⟨10, ⟨1/2, 1, 4, (9 : ℚ), 100, "QSO", "HIZ", 2, [3, 4], 1000, 0, 5⟩, "PCA"⟩, ⟨11, ⟨1/2, 1, 4, 9, 100, "QSO", "HIZ", 2, [3, 4], 1000, 0, 5⟩, "PCA"⟩]).map
      (fun d => (d.targetid, d.row.z, d.row.zwarn, d.row.spectype, d.row.coeff, d.fitmethod)) =
    [(10, 0, 644, "GALAXY", [0, 0], "NONE"), (11, 1/2, 2052, "QSO", [3, 4], "PCA")] := by decide +kernel

/-- C19: a three-row table -/
example : sortZfitDict [0, 32, 0] [(7 : ℚ), 1, 5] [("z", [10, 11, 12]), ("zwarn", [0, 32, 0])] =
    .ok [("z", [12, 10, 11]), ("zwarn", [0, 0, 32])] := by decide +kernel

end Redrock
