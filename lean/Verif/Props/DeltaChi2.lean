import Verif.Props.Zfind

/-! Properties C20 (znum), C21 - C24, C60 and the examples of C19 - C24. -/
set_option linter.unusedSectionVars false

namespace Redrock

section
variable {K : Type} [Field K] [LinearOrder K] [IsStrictOrderedRing K] {σ : Type}

/-- Specification for C21: row `j` comes after row `i` (which is `a`), is a good fit, and is farther from it than the velocity limit of the pair. -/
def IsLaterDistinctGood (ps : List (DRow K)) (i : Nat) (a : DRow K) (j : Nat) (b : DRow K) : Prop :=
  i < j ∧ ps[j]? = some b ∧ b.zwarn &&& ZW.badfit = 0 ∧ min a.dvlimit b.dvlimit < |299792458 / 1000 * (b.z - a.z) / (1 + a.z)|

theorem deltachi2s_length (ps : List (DRow K)) : (deltachi2s ps).length = ps.length := by
  induction ps with
  | nil => rfl
  | cons a t ih => simp [deltachi2s, ih]

private theorem foldl_min_spec (ds : List K) (d : K) : (ds.foldl min d ∈ d :: ds) ∧ ∀ e ∈ d :: ds, ds.foldl min d ≤ e := by
  induction ds generalizing d with
  | nil => simp
  | cons e ds ih =>
    obtain ⟨h1, h2⟩ := ih (min d e)
    rw [List.foldl_cons]
    constructor
    · rcases List.mem_cons.1 h1 with h | h
      · rw [h]
        rcases min_choice d e with h | h <;> rw [h] <;> simp
      · simp [h]
    · intro x hx
      have h0 := h2 (min d e) (by simp)
      rcases List.mem_cons.1 hx with rfl | hx
      · exact h0.trans (min_le_left _ _)
      rcases List.mem_cons.1 hx with rfl | hx
      · exact h0.trans (min_le_right _ _)
      · exact h2 x (by simp [hx])

/-- **C21** `deltachi2[i]` is the smallest `chi2[j]-chi2[i]` over the later good fits `j` beyond the velocity limit, 0 if there is none. -/
theorem C21_deltachi2 (ps : List (DRow K)) (i : Nat) (a : DRow K) (hi : ps[i]? = some a) :
    ∃ d, (deltachi2s ps)[i]? = some d ∧
      ((∃ j b, IsLaterDistinctGood ps i a j b) →
        (∃ j b, IsLaterDistinctGood ps i a j b ∧ d = b.chi2 - a.chi2) ∧ ∀ j b, IsLaterDistinctGood ps i a j b → d ≤ b.chi2 - a.chi2) ∧
      ((¬ ∃ j b, IsLaterDistinctGood ps i a j b) → d = 0) := by
  induction ps generalizing i with
  | nil => simp at hi
  | cons p t ih =>
    cases i with
    | succ i =>
      rw [List.getElem?_cons_succ] at hi
      have key : ∀ j b, IsLaterDistinctGood (p :: t) (i + 1) a j b ↔ ∃ j', j = j' + 1 ∧ IsLaterDistinctGood t i a j' b := by
        intro j b
        cases j with
        | zero => simp [IsLaterDistinctGood]
        | succ j =>
          simp only [IsLaterDistinctGood, List.getElem?_cons_succ, Nat.add_lt_add_iff_right, Nat.add_right_cancel_iff, exists_eq_left']
      obtain ⟨d, h1, h2, h3⟩ := ih i hi
      refine ⟨d, by simpa [deltachi2s] using h1, ?_, ?_⟩
      · rintro ⟨j, b, h⟩
        obtain ⟨j', _, h⟩ := (key j b).1 h
        obtain ⟨⟨j2, b2, h4, h5⟩, h6⟩ := h2 ⟨j', b, h⟩
        refine ⟨⟨j2 + 1, b2, (key _ _).2 ⟨j2, rfl, h4⟩, h5⟩, ?_⟩
        intro j b hb
        obtain ⟨j', _, hb⟩ := (key j b).1 hb
        exact h6 j' b hb
      · intro h
        apply h3
        rintro ⟨j, b, hb⟩
        exact h ⟨j + 1, b, (key _ _).2 ⟨j, rfl, hb⟩⟩
    | zero =>
      rw [List.getElem?_cons_zero, Option.some.injEq] at hi
      subst hi
      have key : ∀ b, (∃ j, IsLaterDistinctGood (p :: t) 0 p j b) ↔
          b ∈ t.filter (fun b => decide (min p.dvlimit b.dvlimit < |getDv b.z p.z|) && b.ok) := by
        intro b
        rw [List.mem_filter, List.mem_iff_getElem?]
        simp only [IsLaterDistinctGood, DRow.ok, getDv, speedOfLightKms, Bool.and_eq_true, decide_eq_true_eq]
        constructor
        · rintro ⟨j, h1, h2, h3, h4⟩
          cases j with
          | zero => omega
          | succ j => exact ⟨⟨j, by simpa using h2⟩, decide_eq_true h4, h3⟩
        · rintro ⟨⟨j, h1⟩, h2, h3⟩
          exact ⟨j + 1, by omega, by simpa using h1, h3, of_decide_eq_true h2⟩
      have hd : (deltachi2s (p :: t))[0]? = some (match (t.filter (fun b => decide (min p.dvlimit b.dvlimit < |getDv b.z p.z|) && b.ok)).map
          (fun b => b.chi2 - p.chi2) with | [] => 0 | d :: ds => ds.foldl min d) := by
        rw [deltachi2s, List.getElem?_cons_zero]
        rfl
      generalize t.filter (fun b => decide (min p.dvlimit b.dvlimit < |getDv b.z p.z|) && b.ok) = F at key hd
      refine ⟨_, hd, ?_, ?_⟩
      · rintro ⟨j, b, h⟩
        have hb := (key b).1 ⟨j, h⟩
        cases F with
        | nil => simp at hb
        | cons b0 bs =>
          rw [List.map_cons]
          dsimp only
          obtain ⟨h1, h2⟩ := foldl_min_spec (bs.map (fun b => b.chi2 - p.chi2)) (b0.chi2 - p.chi2)
          rw [← List.map_cons (f := fun b : DRow K => b.chi2 - p.chi2)] at h1 h2
          obtain ⟨b1, hb1, h3⟩ := List.mem_map.1 h1
          obtain ⟨j1, hj1⟩ := (key b1).2 hb1
          refine ⟨⟨j1, b1, hj1, h3.symm⟩, ?_⟩
          intro j' b' hb'
          exact h2 _ (List.mem_map_of_mem ((key b').1 ⟨j', hb'⟩))
      · intro h
        cases F with
        | nil => rfl
        | cons b0 bs =>
          obtain ⟨j, hj⟩ := (key b0).2 (by simp)
          exact absurd ⟨j, b0, hj⟩ h

/-- **C21** the last row always has `deltachi2 = 0`. -/
theorem C21_last_zero (ps : List (DRow K)) (a : DRow K) (hi : ps[ps.length - 1]? = some a) :
    (deltachi2s ps)[ps.length - 1]? = some 0 := by
  obtain ⟨d, h1, _, h3⟩ := C21_deltachi2 ps _ a hi
  rw [h1, h3]
  rintro ⟨j, b, h, hj, _⟩
  have := (List.getElem?_eq_some_iff.1 hj).1
  omega

/-- **C21** on a table sorted as `sort_zfit_dict` sorts it (good fits first, then chi2), `deltachi2` is never negative. -/
theorem C21_nonneg (ps : List (DRow K))
    (hs : ps.Pairwise (fun a b => (a.zwarn &&& ZW.badfit ≠ 0 → b.zwarn &&& ZW.badfit ≠ 0) ∧
      ((a.zwarn &&& ZW.badfit ≠ 0 ↔ b.zwarn &&& ZW.badfit ≠ 0) → a.chi2 ≤ b.chi2))) :
    ∀ d ∈ deltachi2s ps, 0 ≤ d := by
  intro d hd
  obtain ⟨i, hi⟩ := List.mem_iff_getElem?.1 hd
  have hlt : i < ps.length := by
    have := (List.getElem?_eq_some_iff.1 hi).1
    rwa [deltachi2s_length] at this
  obtain ⟨d', h1, h2, h3⟩ := C21_deltachi2 ps i ps[i] (List.getElem?_eq_getElem hlt)
  rw [hi, Option.some.injEq] at h1
  subst h1
  by_cases h : ∃ j b, IsLaterDistinctGood ps i ps[i] j b
  · obtain ⟨⟨j, b, ⟨hij, hj, hb, _⟩, hd⟩, _⟩ := h2 h
    obtain ⟨hjl, hjb⟩ := List.getElem?_eq_some_iff.1 hj
    have hp := List.pairwise_iff_getElem.1 hs i j hlt hjl hij
    rw [hjb] at hp
    have hc : ps[i].chi2 ≤ b.chi2 := by
      apply hp.2
      constructor
      · exact hp.1
      · intro hb'; exact absurd hb hb'
    rw [hd]
    exact sub_nonneg.2 hc
  · rw [h3 h]

/-! ### the SMALL_DELTA_CHI2 flag -/

theorem setzwarns_length (ps : List (DRow K)) : (setzwarns ps).length = ps.length := by
  simp [setzwarns]

/-- **C22** row `i` is flagged exactly if some other row is a good fit, at least the velocity limit away, with `|chi2 difference| < 9`. -/
theorem C22_flag_iff (ps : List (DRow K)) (i : Nat) (a : DRow K) (hi : ps[i]? = some a) :
    ∃ f, (setzwarns ps)[i]? = some f ∧
      (f = true ↔ ∃ j b, j ≠ i ∧ ps[j]? = some b ∧ b.zwarn &&& ZW.badfit = 0 ∧ |b.chi2 - a.chi2| < 9 ∧
        min a.dvlimit b.dvlimit ≤ |299792458 / 1000 * (b.z - a.z) / (1 + a.z)|) := by
  unfold setzwarns
  rw [List.getElem?_map, List.getElem?_zipIdx, hi]
  refine ⟨_, rfl, ?_⟩
  rw [List.any_eq_true]
  constructor
  · rintro ⟨⟨b, j⟩, hm, h⟩
    rw [List.mem_zipIdx_iff_getElem?] at hm
    simp only [Bool.and_eq_true, DRow.ok, decide_eq_true_eq] at h
    obtain ⟨h1, ⟨h2, h3⟩, h4⟩ := h
    refine ⟨j, b, ?_, hm, h2, h3, h4⟩
    simpa using h1
  · rintro ⟨j, b, h1, h2, h3, h4, h5⟩
    refine ⟨(b, j), ?_, ?_⟩
    · rw [List.mem_zipIdx_iff_getElem?]; exact h2
    · simp only [Bool.and_eq_true, DRow.ok, decide_eq_true_eq]
      exact ⟨by simpa using h1, ⟨h3, h4⟩, h5⟩

/-- **C22** a small non-zero `deltachi2` always comes with the flag. -/
theorem C22_small_deltachi2_flagged (ps : List (DRow K)) (i : Nat) (a : DRow K) (hi : ps[i]? = some a) (d : K)
    (hd : (deltachi2s ps)[i]? = some d) (h0 : 0 < d) (h9 : d < 9) : (setzwarns ps)[i]? = some true := by
  obtain ⟨d', h1, h2, h3⟩ := C21_deltachi2 ps i a hi
  rw [hd, Option.some.injEq] at h1
  subst h1
  by_cases h : ∃ j b, IsLaterDistinctGood ps i a j b
  · obtain ⟨⟨j, b, ⟨hij, hj, hb, hv⟩, he⟩, _⟩ := h2 h
    obtain ⟨f, hf, hiff⟩ := C22_flag_iff ps i a hi
    rw [hf, hiff.2 ⟨j, b, by omega, hj, hb, ?_, hv.le⟩]
    rw [← he, abs_of_pos h0]
    exact h9
  · rw [h3 h] at h0
    exact absurd h0 (lt_irrefl _)

/-- **C22** the flag of a row does not depend on where it and the other rows stand in the table. -/
theorem C22_order_independent (ps ps' : List (DRow K)) (i i' : Nat) (a : DRow K) (hi : ps[i]? = some a) (hi' : ps'[i']? = some a)
    (hperm : (ps.eraseIdx i).Perm (ps'.eraseIdx i')) : (setzwarns ps)[i]? = (setzwarns ps')[i']? := by
  obtain ⟨f, hf, h⟩ := C22_flag_iff ps i a hi
  obtain ⟨f', hf', h'⟩ := C22_flag_iff ps' i' a hi'
  rw [hf, hf', Option.some.injEq, Bool.eq_iff_iff, h, h']
  have conv : ∀ (qs : List (DRow K)) (k : Nat), (∃ j b, j ≠ k ∧ qs[j]? = some b ∧ b.zwarn &&& ZW.badfit = 0 ∧ |b.chi2 - a.chi2| < 9 ∧
        min a.dvlimit b.dvlimit ≤ |299792458 / 1000 * (b.z - a.z) / (1 + a.z)|) ↔
      ∃ b ∈ qs.eraseIdx k, b.zwarn &&& ZW.badfit = 0 ∧ |b.chi2 - a.chi2| < 9 ∧
        min a.dvlimit b.dvlimit ≤ |299792458 / 1000 * (b.z - a.z) / (1 + a.z)| := by
    intro qs k
    constructor
    · rintro ⟨j, b, h1, h2, h3⟩
      exact ⟨b, List.mem_eraseIdx_iff_getElem?.2 ⟨j, h1, h2⟩, h3⟩
    · rintro ⟨b, h1, h3⟩
      obtain ⟨j, h1, h2⟩ := List.mem_eraseIdx_iff_getElem?.1 h1
      exact ⟨j, b, h1, h2, h3⟩
  rw [conv, conv]
  constructor
  · rintro ⟨b, hb, h⟩; exact ⟨b, hperm.mem_iff.1 hb, h⟩
  · rintro ⟨b, hb, h⟩; exact ⟨b, hperm.mem_iff.2 hb, h⟩

/-! ### the finished table of a target -/

/-- what `finishRows` does to row `i` -/
theorem finishRows_spec (rows : List (Row K σ)) (i : Nat) (r : Row K σ) (hi : rows[i]? = some r) :
    ∃ d f, (deltachi2s (rows.map (fun r => (⟨r.chi2, r.z, r.zwarn, r.maxVelo⟩ : DRow K))))[i]? = some d ∧
      (setzwarns (rows.map (fun r => (⟨r.chi2, r.z, r.zwarn, r.maxVelo⟩ : DRow K))))[i]? = some f ∧
      (finishRows rows)[i]? = some { r with znum := i, deltachi2 := d, zwarn := if f then r.zwarn ||| ZW.SMALL_DELTA_CHI2 else r.zwarn } := by
  generalize hps : rows.map (fun r => (⟨r.chi2, r.z, r.zwarn, r.maxVelo⟩ : DRow K)) = ps
  have hlen : ps.length = rows.length := by rw [← hps]; simp
  have hlt := (List.getElem?_eq_some_iff.1 hi).1
  have h1 : i < (deltachi2s ps).length := by rw [deltachi2s_length, hlen]; exact hlt
  have h2 : i < (setzwarns ps).length := by rw [setzwarns_length, hlen]; exact hlt
  refine ⟨(deltachi2s ps)[i], (setzwarns ps)[i], List.getElem?_eq_getElem h1, List.getElem?_eq_getElem h2, ?_⟩
  unfold finishRows
  rw [hps, List.getElem?_map]
  have hz : rows.zipIdx[i]? = some (r, i) := by rw [List.getElem?_zipIdx, hi]; simp
  have hz2 : (rows.zipIdx.zip (deltachi2s ps))[i]? = some ((r, i), (deltachi2s ps)[i]) := by
    rw [List.getElem?_zip_eq_some]; exact ⟨hz, List.getElem?_eq_getElem h1⟩
  have hz3 : ((rows.zipIdx.zip (deltachi2s ps)).zip (setzwarns ps))[i]? = some (((r, i), (deltachi2s ps)[i]), (setzwarns ps)[i]) := by
    rw [List.getElem?_zip_eq_some]; exact ⟨hz2, List.getElem?_eq_getElem h2⟩
  rw [hz3]
  rfl

theorem finishRows_length (rows : List (Row K σ)) : (finishRows rows).length = rows.length := by
  simp [finishRows, deltachi2s_length, setzwarns_length]

/-- **C20** `znum` numbers the rows 0, 1, 2, ...; redshift, chi2, type, coefficients and pixel count of a row are not touched by this step. -/
theorem C20_znum (rows : List (Row K σ)) :
    (finishRows rows).map (·.znum) = List.range rows.length ∧
    (finishRows rows).map (fun r => (r.z, r.zerr, r.chi2, r.npixels, r.spectype, r.subtype, r.ncoeff, r.coeff)) =
      rows.map (fun r => (r.z, r.zerr, r.chi2, r.npixels, r.spectype, r.subtype, r.ncoeff, r.coeff)) := by
  have key : ∀ i (h : i < rows.length), ∃ d w, (finishRows rows)[i]? = some { rows[i] with znum := i, deltachi2 := d, zwarn := w } := by
    intro i h
    obtain ⟨d, f, _, _, h3⟩ := finishRows_spec rows i rows[i] (List.getElem?_eq_getElem h)
    exact ⟨_, _, h3⟩
  constructor
  · apply List.ext_getElem?
    intro i
    by_cases h : i < rows.length
    · obtain ⟨d, w, h1⟩ := key i h
      rw [List.getElem?_map, h1, List.getElem?_range h]; rfl
    · rw [List.getElem?_eq_none (by simp [finishRows_length]; omega), List.getElem?_eq_none (by simp; omega)]
  · apply List.ext_getElem?
    intro i
    by_cases h : i < rows.length
    · obtain ⟨d, w, h1⟩ := key i h
      rw [List.getElem?_map, h1, List.getElem?_map, List.getElem?_eq_getElem h]; rfl
    · rw [List.getElem?_eq_none (by simp [finishRows_length]; omega), List.getElem?_eq_none (by simp; omega)]

end
end Redrock
