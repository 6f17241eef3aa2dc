import Verif.Props.Table
import Verif.Lemmas.Details

/-!
The COEFF column of the catalogue (C67): `zfind.py` lines 686-710.
-/
set_option linter.unusedSectionVars false
namespace Redrock

section
variable {K : Type} [Field K] [LinearOrder K] [IsStrictOrderedRing K] {σ ι : Type}

/-- **C67** (widening and cutting) for a table whose coefficient vectors have the same width, at most `maxcoeff`, and are zero beyond the first NCOEFF entries: the result has the same rows in the
same order; only the coefficient vectors change; they all get the same width; the first NCOEFF entries are kept and the others are zero. -/
theorem C67_standardize (maxcoeff W : Nat) (rows : List (Row K σ)) (hw : ∀ r ∈ rows, r.coeff.length = W ∧ r.ncoeff ≤ W ∧ ∀ x ∈ r.coeff.drop r.ncoeff, x = 0) (hm : W ≤ maxcoeff) :
    ∃ out W', standardizeCoeff maxcoeff rows = .ok out ∧ List.Forall₂ (fun r o => o = { r with coeff := o.coeff } ∧ o.coeff.length = W' ∧ r.ncoeff ≤ W' ∧
      o.coeff.take r.ncoeff = r.coeff.take r.ncoeff ∧ ∀ x ∈ o.coeff.drop r.ncoeff, x = 0) rows out := by
  by_cases hnil : rows = []
  · subst hnil
    refine ⟨[], 0, ?_, List.Forall₂.nil⟩
    unfold standardizeCoeff
    by_cases h : (0 : Nat) ≠ maxcoeff <;> simp [h, bind, Except.bind, pure, Except.pure]
  have hhead : (rows.map (·.coeff.length)).headD 0 = W := by
    obtain ⟨r, l, rfl⟩ := List.exists_cons_of_ne_nil hnil
    exact (hw r (by simp)).1
  have hstep : ∃ mid, (if (rows.map (·.coeff.length)).headD 0 ≠ maxcoeff then
      if (rows.map (·.coeff.length)).headD 0 ≤ maxcoeff then pure (rows.map (fun r => { r with coeff := r.coeff ++ List.replicate (maxcoeff - (rows.map (·.coeff.length)).headD 0) 0 }))
      else throw .valueError
    else pure rows : Py (List (Row K σ))) = .ok mid ∧ mid = rows.map (fun r => { r with coeff := r.coeff ++ List.replicate (maxcoeff - W) 0 }) := by
    rw [hhead]
    by_cases h : W = maxcoeff
    · refine ⟨rows, by simp [h, pure, Except.pure], ?_⟩
      subst h
      simp
    · exact ⟨_, by rw [if_pos h, if_pos hm]; rfl, rfl⟩
  obtain ⟨mid, hmid, hdef⟩ := hstep
  have hnc : (mid.map (·.ncoeff)) = rows.map (·.ncoeff) := by rw [hdef, List.map_map]; rfl
  have hres : standardizeCoeff maxcoeff rows = (match (mid.map (·.ncoeff)).dedup with
      | [m] => .ok (mid.map (fun r => { r with coeff := r.coeff.take m }))
      | _ => .ok mid) := by
    unfold standardizeCoeff
    dsimp only
    rw [hmid]
    rfl
  rw [hres, hnc]
  have hmidF : List.Forall₂ (fun r o => o = { r with coeff := o.coeff } ∧ o.coeff.length = maxcoeff ∧ r.ncoeff ≤ maxcoeff ∧
      o.coeff.take r.ncoeff = r.coeff.take r.ncoeff ∧ ∀ x ∈ o.coeff.drop r.ncoeff, x = 0) rows mid := by
    rw [hdef, List.forall₂_map_right_iff, List.forall₂_same]
    intro r hr
    obtain ⟨h1, h2, h3⟩ := hw r hr
    refine ⟨rfl, by simp [h1]; omega, by omega, ?_, ?_⟩
    · show (r.coeff ++ _).take _ = _
      rw [List.take_append_of_le_length (by omega)]
    · intro x hx
      change x ∈ (r.coeff ++ _).drop _ at hx
      rw [List.drop_append_of_le_length (by omega)] at hx
      rcases List.mem_append.1 hx with hx | hx
      · exact h3 x hx
      · exact (List.mem_replicate.1 hx).2
  split
  · rename_i m hm'
    refine ⟨_, m, rfl, ?_⟩
    rw [List.forall₂_map_right_iff]
    have hall : ∀ r ∈ rows, r.ncoeff = m := by
      intro r hr
      have : r.ncoeff ∈ (rows.map (·.ncoeff)).dedup := List.mem_dedup.2 (List.mem_map_of_mem hr)
      rw [hm'] at this
      exact List.mem_singleton.1 this
    refine List.Forall₂.imp ?_ (List.forall₂_iff_get.2 ⟨hmidF.length_eq, fun i h1 h2 => And.intro (List.getElem_mem h1 : rows[i] ∈ rows) ((List.forall₂_iff_get.1 hmidF).2 i h1 h2)⟩ :
      List.Forall₂ (fun r o => r ∈ rows ∧ (o = { r with coeff := o.coeff } ∧ o.coeff.length = maxcoeff ∧ r.ncoeff ≤ maxcoeff ∧
        o.coeff.take r.ncoeff = r.coeff.take r.ncoeff ∧ ∀ x ∈ o.coeff.drop r.ncoeff, x = 0)) rows mid)
    rintro r o ⟨hr, e1, e2, e3, e4, e5⟩
    have hrm := hall r hr
    refine ⟨?_, ?_, hrm.le, ?_, ?_⟩
    · conv_lhs => rw [e1]
    · show (o.coeff.take m).length = m
      rw [List.length_take, e2]; omega
    · show (o.coeff.take m).take _ = _
      rw [← e4, List.take_take, hrm, Nat.min_self]
    · intro x hx
      change x ∈ (o.coeff.take m).drop _ at hx
      rw [hrm, List.drop_take_self] at hx
      simp at hx
  · exact ⟨mid, maxcoeff, rfl, hmidF⟩

/-- **C67** a table wider than `maxcoeff` makes `zfind` raise `ValueError`; `maxcoeff` is the largest number of template components unless `per_camera` is set, so this happens with
more nearest archetypes than that. -/
theorem C67_too_wide_raises (maxcoeff : Nat) (rows : List (Row K σ)) (r : Row K σ) (rest : List (Row K σ)) (h : rows = r :: rest) (hm : maxcoeff < r.coeff.length) :
    standardizeCoeff maxcoeff rows = .error .valueError := by
  subst h
  unfold standardizeCoeff
  dsimp only
  have e : (List.map (fun x : Row K σ => x.coeff.length) (r :: rest)).headD 0 = r.coeff.length := rfl
  rw [e, if_pos (by omega), if_neg (by omega)]
  rfl

/-- **C67** end to end: in the catalogue every row carries the coefficient vector of the candidate it comes from, followed by zeros, and all vectors have the same width. -/
theorem C67_coeff_column [LinearOrder σ] (nminima : Nat) (hn : 1 ≤ nminima) (ibad : Row K σ → Bool) (all : List (ι × List (TemplateFit K σ)))
    (hall : all ≠ []) (W : Nat) (hw : ∀ tf ∈ all, ∃ t ∈ tf.2, t.cands ≠ [] ∧ t.ncoeff = W) (hle : ∀ tf ∈ all, ∀ t ∈ tf.2, ∀ c ∈ t.cands, c.coeff.length ≤ W ∧ t.ncoeff ≤ W)
    (hsame : ∀ tf ∈ all, ∀ t ∈ tf.2, ∀ c ∈ t.cands, c.coeff.length = t.ncoeff) (maxcoeff : Nat) (hm : W ≤ maxcoeff) :
    ∃ T out W', zfindTables nminima ibad all = .ok T ∧ standardizeCoeff maxcoeff (T.map (·.2)) = .ok out ∧
      List.Forall₂ (fun tr o => ∃ tf ∈ all, tf.1 = tr.1 ∧ ∃ t ∈ tf.2, ∃ c ∈ t.cands, o.z = c.z ∧ o.chi2 = c.chi2 ∧ o.spectype = t.spectype ∧ o.subtype = t.subtype ∧
        o.ncoeff = c.coeff.length ∧ o.coeff.length = W' ∧ o.coeff = c.coeff ++ List.replicate (W' - c.coeff.length) 0) T out := by
  obtain ⟨Ts, h1, h2, h3, h4⟩ := C60_all_targets_reported_partial nminima hn ibad all hall W hw hle
  have hrow : ∀ tr ∈ (all.zip Ts).flatMap (fun x => x.2.map (fun r => (x.1.1, r))), ∃ tf ∈ all, tf.1 = tr.1 ∧ ∃ R, targetTable nminima ibad tf.2 = .ok R ∧ tr.2 ∈ R := by
    intro tr htr
    obtain ⟨⟨tf, R⟩, hz, hq⟩ := List.mem_flatMap.1 htr
    obtain ⟨r, hr, rfl⟩ := List.mem_map.1 hq
    obtain ⟨i, hi⟩ := List.mem_iff_getElem?.1 hz
    rw [List.getElem?_zip_eq_some] at hi
    exact ⟨tf, List.mem_of_getElem? hi.1, rfl, R, h4 i tf R hi.1 hi.2, hr⟩
  have horig : ∀ tr ∈ (all.zip Ts).flatMap (fun x => x.2.map (fun r => (x.1.1, r))), tr.2.coeff.length = W ∧ ∃ tf ∈ all, tf.1 = tr.1 ∧ ∃ t ∈ tf.2, ∃ c ∈ t.cands, tr.2.z = c.z ∧ tr.2.chi2 = c.chi2 ∧
      tr.2.spectype = t.spectype ∧ tr.2.subtype = t.subtype ∧ tr.2.ncoeff = c.coeff.length ∧ ∃ n, tr.2.coeff = c.coeff ++ List.replicate n 0 := by
    intro tr htr
    obtain ⟨tf, htf, e, R, hR, hmem⟩ := hrow tr htr
    obtain ⟨T', hT', _, hlen⟩ := targetTable_width nminima hn ibad tf.2 W (hw tf htf) (hle tf htf)
    rw [hR] at hT'
    cases hT'
    obtain ⟨t, ht, c, hc, a1, _, a3, a4, a5, ⟨n, a6⟩, _, a8, _⟩ := C23_table_rows nminima ibad tf.2 R hR tr.2 hmem
    exact ⟨hlen tr.2 hmem, tf, htf, e, t, ht, c, hc, a1, a3, a4, a5, by rw [a8, hsame tf htf t ht c hc], n, a6⟩
  generalize hT : (all.zip Ts).flatMap (fun x => x.2.map (fun r => (x.1.1, r))) = T at h1 hrow horig
  obtain ⟨out, W', g1, g2⟩ := C67_standardize maxcoeff W (T.map (·.2)) (by
    intro r hr
    obtain ⟨tr, htr, rfl⟩ := List.mem_map.1 hr
    obtain ⟨b1, tf, htf, _, t, ht, c, hc, _, _, _, _, b2, n, b3⟩ := horig tr htr
    refine ⟨b1, ?_, ?_⟩
    · rw [b2]; exact (hle tf htf t ht c hc).1
    · intro x hx
      rw [b2, b3, List.drop_left] at hx
      exact (List.mem_replicate.1 hx).2) hm
  refine ⟨T, out, W', h1, g1, ?_⟩
  rw [List.forall₂_map_left_iff] at g2
  refine List.Forall₂.imp ?_ (List.forall₂_iff_get.2 ⟨g2.length_eq, fun i h1 h2 => And.intro (List.getElem_mem h1 : T[i] ∈ T) ((List.forall₂_iff_get.1 g2).2 i h1 h2)⟩ :
    List.Forall₂ (fun tr o => tr ∈ T ∧ (o = { tr.2 with coeff := o.coeff } ∧ o.coeff.length = W' ∧ tr.2.ncoeff ≤ W' ∧
      o.coeff.take tr.2.ncoeff = tr.2.coeff.take tr.2.ncoeff ∧ ∀ x ∈ o.coeff.drop tr.2.ncoeff, x = 0)) T out)
  rintro tr o ⟨htr, e1, e2, e3, e4, e5⟩
  obtain ⟨_, tf, htf, he, t, ht, c, hc, b1, b2, b3, b4, b5, n, b6⟩ := horig tr htr
  refine ⟨tf, htf, he, t, ht, c, hc, ?_, ?_, ?_, ?_, ?_, e2, ?_⟩
  · rw [e1]; exact b1
  · rw [e1]; exact b2
  · rw [e1]; exact b3
  · rw [e1]; exact b4
  · rw [e1]; exact b5
  · rw [b5] at e4 e5 e3
    rw [b6, List.take_left] at e4
    conv_lhs => rw [← List.take_append_drop c.coeff.length o.coeff, e4]
    congr 1
    rw [List.eq_replicate_iff]
    exact ⟨by rw [List.length_drop, e2], e5⟩

end

/-- the hypotheses are met: two targets, templates with 2 and 1 components, COEFF of width 3 -/
example : ∃ T out W', zfindTables 2 (fun _ => false) [(10, demoFits), (11, demoFits)] = .ok T ∧ standardizeCoeff 3 (T.map (·.2)) = .ok out ∧
    (∀ o ∈ out, o.coeff.length = W') ∧ out ≠ [] := by
  have h1 : (zfindTables 2 (fun _ => false) [(10, demoFits), (11, demoFits)]).toOption.isSome = true := by decide +kernel
  obtain ⟨T, out, W', a, b, c⟩ := C67_coeff_column 2 (by decide) (fun _ => false) [(10, demoFits), (11, demoFits)] (by simp) 2 (by decide +kernel) (by decide +kernel) (by decide +kernel) 3 (by decide)
  refine ⟨T, out, W', a, b, ?_, ?_⟩
  · intro o ho
    obtain ⟨i, hi, rfl⟩ := List.getElem_of_mem ho
    have := (List.forall₂_iff_get.1 c).2 i (by rw [c.length_eq]; exact hi) hi
    obtain ⟨_, _, _, _, _, _, _, _, _, _, _, _, h, _⟩ := this
    exact h
  · rintro rfl
    have := c.length_eq
    have hT : T = [] := List.length_eq_zero_iff.1 this
    subst hT
    have h2 : (zfindTables 2 (fun _ => false) [(10, demoFits), (11, demoFits)]).toOption.map List.length ≠ some 0 := by decide +kernel
    rw [a] at h2
    exact h2 rfl

end Redrock
