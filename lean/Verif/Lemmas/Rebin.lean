import Verif.Model.Rebin
import Verif.Spec.Rebin
import Verif.Lemmas.Fitz

set_option linter.unusedSectionVars false
open MeasureTheory intervalIntegral

namespace Redrock

theorem okBind {α β : Type} (a : α) (g : α → Py β) : ((Except.ok a : Py α) >>= g) = g a := rfl

theorem npGet_getD {K : Type} [Zero K] (x : List K) (k : Nat) (h : k < x.length) : npGet x k = .ok (x.getD k 0) := by
  rw [npGet_ok]; simp [h]

theorem npGetPrev_getD {K : Type} [Field K] [LinearOrder K] (x : List K) (k : Nat) (h : k < x.length) (h0 : 0 < k) :
    npGetPrev x k = .ok (x.getD (k - 1) 0) := by
  unfold npGetPrev
  rw [if_neg (by omega)]
  exact npGet_getD x _ (by omega)

theorem npGetBefore_getD {K : Type} [Field K] [LinearOrder K] (x : List K) (k : Nat) (h : k < x.length + 1) (h0 : 0 < k) :
    npGetBefore x k = .ok (x.getD (k - 1) 0) := by
  unfold npGetBefore
  rw [if_neg (by omega)]
  exact npGet_getD x _ (by omega)

theorem seek_eq {K : Type} [Field K] [LinearOrder K] (x : List K) (e : K) (m : Nat) (hm : m < x.length) (he : e < x.getD m 0) :
    ∀ d j, j + d = m → (∀ k, j ≤ k → k < m → x.getD k 0 ≤ e) → seek x e j = .ok m := by
  intro d
  induction d with
  | zero =>
    intro j hj _
    have hj : j = m := by omega
    subst hj
    unfold seek
    rw [List.drop_eq_getElem_cons hm, seekGo, if_neg]
    rw [not_le]; simpa [hm] using he
  | succ d ih =>
    intro j hj hle
    have hjm : j < m := by omega
    have hjl : j < x.length := by omega
    have h := ih (j + 1) (by omega) (fun k h1 h2 => hle k (by omega) h2)
    unfold seek at h ⊢
    rw [List.drop_eq_getElem_cons hjl, seekGo, if_pos]
    · exact h
    · have := hle j le_rfl hjm
      simpa [hjl] using this

section
variable {x y : List ℝ} {f : ℝ → ℝ}

theorem getD_lt (hx : x.Pairwise (· < ·)) {i j : Nat} (hij : i < j) (hj : j < x.length) : x.getD i 0 < x.getD j 0 := by
  have := List.pairwise_iff_getElem.1 hx i j (by omega) hj hij
  simpa [hj, show i < x.length by omega] using this

theorem getD_le (hx : x.Pairwise (· < ·)) {i j : Nat} (hij : i ≤ j) (hj : j < x.length) : x.getD i 0 ≤ x.getD j 0 := by
  rcases Nat.eq_or_lt_of_le hij with rfl | h
  · exact le_refl _
  · exact (getD_lt hx h hj).le

/-- the straight line through samples `k` and `k+1` -/
noncomputable def line (x y : List ℝ) (k : Nat) (t : ℝ) : ℝ :=
  y.getD k 0 + (t - x.getD k 0) * (y.getD (k + 1) 0 - y.getD k 0) / (x.getD (k + 1) 0 - x.getD k 0)

theorem interp_line (hlen : x.length ≤ y.length) (hf : IsInterpolant f x y) {k : Nat} (hk : k + 1 < x.length) {t : ℝ}
    (h1 : x.getD k 0 ≤ t) (h2 : t ≤ x.getD (k + 1) 0) : f t = line x y k t := by
  unfold line
  apply hf k (x.getD k 0) (x.getD (k + 1) 0) (y.getD k 0) (y.getD (k + 1) 0) _ _ _ _ t h1 h2
  all_goals rw [List.getD_eq_getElem?_getD, List.getElem?_eq_getElem (by omega)]; rfl

/-- inside one segment the integral of the interpolant is the trapezoid -/
theorem seg_integral (hlen : x.length ≤ y.length) (hf : IsInterpolant f x y) {k : Nat} (hk : k + 1 < x.length)
    {a b : ℝ} (ha : x.getD k 0 ≤ a) (hab : a ≤ b) (hb : b ≤ x.getD (k + 1) 0) :
    IntervalIntegrable f volume a b ∧ ∫ t in a..b, f t = 1 / 2 * (line x y k a + line x y k b) * (b - a) := by
  have hcong : ∀ t ∈ Set.uIcc a b, f t = line x y k t := by
    intro t ht
    rw [Set.uIcc_of_le hab] at ht
    exact interp_line hlen hf hk (ha.trans ht.1) (ht.2.trans hb)
  have hcont : Continuous (line x y k) := by unfold line; fun_prop
  constructor
  · refine (hcont.intervalIntegrable a b).congr ?_
    intro t ht
    exact (hcong t (Set.uIoc_subset_uIcc ht)).symm
  · rw [integral_congr hcong]
    have hd : ∀ t ∈ Set.uIcc a b, HasDerivAt (fun t => y.getD k 0 * t + (t - x.getD k 0) ^ 2 / 2 * ((y.getD (k + 1) 0 - y.getD k 0) / (x.getD (k + 1) 0 - x.getD k 0)))
        (line x y k t) t := by
      intro t _
      have h1 : HasDerivAt (fun t => y.getD k 0 * t) (y.getD k 0 * 1) t := (hasDerivAt_id t).const_mul _
      have h2 : HasDerivAt (fun t => (t - x.getD k 0) ^ 2) (((2 : ℕ) : ℝ) * (t - x.getD k 0) ^ (2 - 1) * 1) t := ((hasDerivAt_id t).sub_const _).pow 2
      have h3 := h1.add ((h2.div_const 2).mul_const ((y.getD (k + 1) 0 - y.getD k 0) / (x.getD (k + 1) 0 - x.getD k 0)))
      refine h3.congr_deriv ?_
      unfold line
      norm_num
      ring
    rw [integral_eq_sub_of_hasDerivAt hd (hcont.intervalIntegrable a b)]
    unfold line
    ring

theorem line_left (k : Nat) : line x y k (x.getD k 0) = y.getD k 0 := by unfold line; ring

theorem line_right (hx : x.Pairwise (· < ·)) {k : Nat} (hk : k + 1 < x.length) : line x y k (x.getD (k + 1) 0) = y.getD (k + 1) 0 := by
  have h := getD_lt hx (Nat.lt_succ_self k) hk
  have : x.getD (k + 1) 0 - x.getD k 0 ≠ 0 := by
    have h' : x.getD k 0 < x.getD (k + 1) 0 := h
    linarith
  unfold line
  field_simp
  ring

/-- the line seen from its right end -/
theorem line_from_right (hx : x.Pairwise (· < ·)) {k : Nat} (hk : k + 1 < x.length) (t : ℝ) :
    line x y k t = y.getD (k + 1) 0 + (t - x.getD (k + 1) 0) * (y.getD (k + 1) 0 - y.getD k 0) / (x.getD (k + 1) 0 - x.getD k 0) := by
  have h : x.getD k 0 < x.getD (k + 1) 0 := getD_lt hx (Nat.lt_succ_self k) hk
  have : x.getD (k + 1) 0 - x.getD k 0 ≠ 0 := by linarith
  unfold line
  field_simp
  ring

/-- the CPU inner loop accumulates the integral up to the last sample below the upper edge -/
theorem innerLoop_spec (hx : x.Pairwise (· < ·)) (hlen : x.length ≤ y.length) (hf : IsInterpolant f x y) (lo hi : ℝ)
    (hhi : ∃ m, m < x.length ∧ hi ≤ x.getD m 0) :
    ∀ fuel j acc, x.length ≤ fuel + j → j < x.length → x.getD j 0 < hi →
      IntervalIntegrable f volume lo (x.getD j 0) → acc = ∫ t in lo..(x.getD j 0), f t →
      ∃ j' acc', innerLoop x y hi fuel j acc = .ok (j', acc') ∧ j ≤ j' ∧ j' + 1 < x.length ∧ x.getD j' 0 < hi ∧ hi ≤ x.getD (j' + 1) 0 ∧
        IntervalIntegrable f volume lo (x.getD j' 0) ∧ acc' = ∫ t in lo..(x.getD j' 0), f t := by
  obtain ⟨m, hm, hmhi⟩ := hhi
  intro fuel
  induction fuel with
  | zero => intro j acc h1 h2; omega
  | succ fuel ih =>
    intro j acc h1 h2 h3 h4 h5
    have hj1 : j + 1 < x.length := by
      by_contra hge
      have : m ≤ j := by omega
      have := getD_le hx this h2
      linarith
    rw [innerLoop, npGet_getD x (j + 1) hj1]
    show ∃ j' acc', (if x.getD (j + 1) 0 < hi then _ else _) = _ ∧ _
    by_cases hlt : x.getD (j + 1) 0 < hi
    · rw [if_pos hlt, npGet_getD y (j + 1) (by omega), npGet_getD y j (by omega), npGet_getD x j h2]
      have hle := (getD_lt hx (Nat.lt_succ_self j) hj1).le
      obtain ⟨hi1, hi2⟩ := seg_integral hlen hf hj1 (le_refl _) hle (le_refl _)
      obtain ⟨j', acc', e1, e2, e3⟩ := ih (j + 1) (acc + 1 / 2 * (y.getD (j + 1) 0 + y.getD j 0) * (x.getD (j + 1) 0 - x.getD j 0))
        (by omega) hj1 hlt (h4.trans hi1) (by
          rw [← integral_add_adjacent_intervals h4 hi1, hi2, h5, line_left, line_right hx hj1]; ring)
      exact ⟨j', acc', e1, by omega, e3⟩
    · rw [if_neg hlt]
      exact ⟨j, acc, rfl, le_refl _, hj1, h3, not_lt.1 hlt, h4, h5⟩

/-- one bin of the CPU loop: the area is the integral, and the sample counter stays at or before the first sample beyond the upper edge -/
theorem rebinBin_spec (hx : x.Pairwise (· < ·)) (hlen : x.length ≤ y.length) (hf : IsInterpolant f x y) (lo hi : ℝ) (hlh : lo < hi)
    (hlo : ∃ m, m < x.length ∧ x.getD m 0 ≤ lo) (hhi : ∃ m, m < x.length ∧ hi ≤ x.getD m 0) (j : Nat) (hj : ∀ k, k < j → x.getD k 0 ≤ lo) :
    ∃ j', rebinBin x y lo hi j = .ok (∫ t in lo..hi, f t, j') ∧ (∀ k, k < j' → x.getD k 0 ≤ hi) ∧ j' < x.length ∧ IntervalIntegrable f volume lo hi := by
  obtain ⟨m0, hm0, hm0lo⟩ := hlo
  obtain ⟨mh, hmh, hmhhi⟩ := hhi
  -- the first sample beyond `lo`
  have hex : ∃ m, m < x.length ∧ lo < x.getD m 0 := ⟨mh, hmh, by linarith⟩
  classical
  obtain ⟨hm, hmlo⟩ := Nat.find_spec hex
  have hmin : ∀ k, k < Nat.find hex → x.getD k 0 ≤ lo := by
    intro k hk
    by_contra h
    exact Nat.find_min hex hk ⟨by omega, not_le.1 h⟩
  generalize Nat.find hex = m at hm hmlo hmin
  have hjm : j ≤ m := by
    by_contra h
    have := hj m (by omega)
    linarith
  have hseek := seek_eq x lo m hm hmlo (m - j) j (by omega) (fun k _ h => hmin k h)
  have hmpos : 0 < m := by
    rcases Nat.eq_zero_or_pos m with h | h
    · subst h
      have := getD_le hx (Nat.zero_le m0) hm0
      linarith
    · exact h
  obtain ⟨k, rfl⟩ : ∃ k, m = k + 1 := ⟨m - 1, by omega⟩
  have hk1 : x.getD k 0 ≤ lo := hmin k (by omega)
  have hkk : x.getD k 0 < x.getD (k + 1) 0 := getD_lt hx (Nat.lt_succ_self k) hm
  unfold rebinBin
  rw [hseek]
  rw [okBind]
  rw [npGet_getD x _ hm, npGetPrev_getD x _ hm hmpos, npGet_getD y _ (by omega), npGetPrev_getD y _ (by omega) hmpos, okBind, okBind, okBind, okBind]
  show ∃ j', (if x.getD (k + 1) 0 < hi then _ else _) = _ ∧ _
  rw [Nat.add_sub_cancel]
  by_cases hin : x.getD (k + 1) 0 < hi
  · rw [if_pos hin]
    obtain ⟨i1, i2⟩ := seg_integral hlen hf hm hk1 hmlo.le (le_refl _)
    rw [line_right hx hm] at i2
    obtain ⟨j', acc', e1, e2, e3, e4, e5, e6, e7⟩ := innerLoop_spec hx hlen hf lo hi ⟨mh, hmh, hmhhi⟩ x.length (k + 1)
      (0 + 1 / 2 * (y.getD (k + 1) 0 + (y.getD k 0 + (lo - x.getD k 0) * (y.getD (k + 1) 0 - y.getD k 0) / (x.getD (k + 1) 0 - x.getD k 0))) * (x.getD (k + 1) 0 - lo))
      (by omega) hm hin i1 (by rw [i2]; unfold line; ring)
    rw [e1, okBind]
    dsimp only
    rw [npGet_getD x _ (by omega), npGet_getD y _ (by omega), npGet_getD y _ (by omega), npGet_getD x _ e3]
    obtain ⟨u1, u2⟩ := seg_integral hlen hf e3 (le_refl _) e4.le e5
    rw [line_left] at u2
    refine ⟨j', ?_, ?_, by omega, e6.trans u1⟩
    · rw [← integral_add_adjacent_intervals e6 u1, ← e7, u2]
      show (Except.ok _ : Py (ℝ × Nat)) = .ok _
      congr 2
      unfold line
      ring
    · intro k' hk'
      exact (getD_le hx (by omega) (by omega)).trans e4.le
  · rw [if_neg hin]
    obtain ⟨i1, i2⟩ := seg_integral hlen hf hm hk1 hlh.le (not_lt.1 hin)
    refine ⟨k + 1, ?_, ?_, hm, i1⟩
    · rw [i2, line_from_right hx hm, line_from_right hx hm]
      show (Except.ok _ : Py (ℝ × Nat)) = .ok _
      congr 2
      ring
    · intro k' hk'
      exact (getD_le hx (show k' ≤ k by omega) (by omega)).trans (hk1.trans hlh.le)

/-- the whole outer loop -/
theorem rebinLoop_spec (hx : x.Pairwise (· < ·)) (hlen : x.length ≤ y.length) (hf : IsInterpolant f x y) :
    ∀ (edges : List ℝ) (j : Nat), edges.Pairwise (· < ·) →
      (∀ e ∈ edges, (∃ m, m < x.length ∧ x.getD m 0 ≤ e) ∧ ∃ m, m < x.length ∧ e ≤ x.getD m 0) →
      (∀ lo, edges.head? = some lo → ∀ k, k < j → x.getD k 0 ≤ lo) →
      ∃ r, rebinLoop x y edges j = .ok r ∧ r.length = edges.length - 1 ∧
        ∀ (i : Nat) (lo hi : ℝ), edges[i]? = some lo → edges[i + 1]? = some hi →
          IntervalIntegrable f volume lo hi ∧ ∃ v, r[i]? = some v ∧ v * (hi - lo) = ∫ t in lo..hi, f t := by
  intro edges
  induction edges with
  | nil => intro j _ _ _; exact ⟨[], rfl, rfl, by simp⟩
  | cons lo rest ih =>
    intro j he hr hj
    cases rest with
    | nil => exact ⟨[], rfl, rfl, by intro i a b h1 h2; simp at h2⟩
    | cons hi rest =>
      rw [List.pairwise_cons] at he
      have hlh : lo < hi := he.1 hi (by simp)
      obtain ⟨j', e1, e2, e3, e4⟩ := rebinBin_spec hx hlen hf lo hi hlh (hr lo (by simp)).1 (hr hi (by simp)).2 j (hj lo rfl)
      obtain ⟨r, g1, g2, g3⟩ := ih j' he.2 (fun e h => hr e (List.mem_cons_of_mem _ h)) (by
        intro lo' hlo'
        simp only [List.head?_cons, Option.some.injEq] at hlo'
        subst hlo'
        exact e2)
      refine ⟨(∫ t in lo..hi, f t) / (hi - lo) :: r, ?_, by simpa using g2, ?_⟩
      · rw [rebinLoop, e1]
        show (do
          let r ← rebinLoop x y (hi :: rest) j'
          _ : Py (List ℝ)) = _
        rw [g1]
        rfl
      · intro i a b h1 h2
        cases i with
        | zero =>
          simp only [List.getElem?_cons_zero, Nat.zero_add, List.getElem?_cons_succ, Option.some.injEq] at h1 h2
          subst h1 h2
          refine ⟨e4, _, rfl, ?_⟩
          rw [div_mul_cancel₀]
          linarith
        | succ i => exact g3 i a b h1 h2

end
end Redrock
