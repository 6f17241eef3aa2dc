import Verif.Spec.Fitz
import Verif.Spec.Minima
import Verif.Lemmas.Fitz
import Verif.Props.Minima

/-! Properties C15, C16, C17, C18, C51 (splitting), C52, C58, C59. -/
set_option linter.unusedSectionVars false

namespace Redrock

section
variable {K : Type} [Field K] [LinearOrder K] [IsStrictOrderedRing K]

/-- **C15** `fitz` returns at most `nminima` candidates, sorted by chi2; and in the order in which they were found each one is at least
the velocity limit (100 km/s for stars, 1000 km/s otherwise) away from every earlier one. -/
theorem C15_candidates (argsort : List (Ext K) → List Nat) (harg : IsArgsort Ext.sortLe argsort) (E : FitEnv K)
    (nminima : Nat) (zchi2 : List (Ext K)) (redshifts : List K) (r : List (Cand K))
    (h : fitz argsort E nminima zchi2 redshifts = .ok r) :
    r.length ≤ nminima ∧ r.Pairwise (fun a b => a.chi2 ≤ b.chi2) ∧
    ∃ found, List.Perm found r ∧ found.Pairwise (fun earlier later =>
      (if E.isStar then 100 else 1000) ≤ |299792458 / 1000 * (later.z - earlier.z) / (1 + earlier.z)|) := by
  obtain ⟨_, minima, found, hm, hl, hp, hs⟩ := fitz_spec argsort harg E nminima zchi2 redshifts r h
  have key := fitzLoop_induction E nminima zchi2.length redshifts
    (fun res => res.length ≤ nminima ∧ res.Pairwise (fun a b => maxVeloDiff E.isStar ≤ |getDv b.z a.z|)) minima
    (by
      rintro imin _ res res' ⟨h1, h2⟩ hne hb
      rcases fitzBody_spec E _ redshifts res imin res' hb with rfl | ⟨zlo, zhi, zzchi2, am, zmin, sigma, chi2min, zwarn, zwarn', coeff, tr, _, _, _, _, _, _, hfin⟩
      · exact ⟨h1, h2⟩
      · rcases fitzFinish_spec E _ _ _ _ _ _ _ _ _ _ _ hfin with rfl | ⟨c, _, _, _, _, _, _, rfl, hsep, _⟩
        · exact ⟨h1, h2⟩
        · refine ⟨by simp; omega, ?_⟩
          rw [List.pairwise_append]
          refine ⟨h2, List.pairwise_singleton _ _, ?_⟩
          intro a ha b hb
          rw [List.mem_singleton] at hb
          subst hb
          exact hsep a ha) [] found ⟨by simp, List.Pairwise.nil⟩ hl
  refine ⟨by rw [← hp.length_eq]; exact key.1, hs, found, hp, ?_⟩
  refine key.2.imp ?_
  intro a b hab
  unfold maxVeloDiff getDv speedOfLightKms at hab
  exact hab

/-- **C16** with a non-decreasing redshift grid and at least two fine grid points: every reported redshift lies between the coarse
neighbours of a local minimum of the scan, and within the scanned range; and `Z_FITLIMIT` is set if it is below the second or above the second-to-last
grid redshift. -/
theorem C16_redshift_in_range (argsort : List (Ext K) → List Nat) (harg : IsArgsort Ext.sortLe argsort) (E : FitEnv K)
    (hnz : 2 ≤ E.nz) (nminima : Nat) (zchi2 : List (Ext K)) (redshifts : List K) (hz : redshifts.Pairwise (· ≤ ·))
    (r : List (Cand K)) (h : fitz argsort E nminima zchi2 redshifts = .ok r) :
    ∀ c ∈ r, (∃ imin zlo zhi, IsLocalMin zchi2 imin ∧ redshifts[imin - 1]? = some zlo ∧
        redshifts[min (imin + 1) (redshifts.length - 1)]? = some zhi ∧ zlo ≤ c.z ∧ c.z ≤ zhi) ∧
      (∀ z0 zn, redshifts.head? = some z0 → redshifts.getLast? = some zn → z0 ≤ c.z ∧ c.z ≤ zn) ∧
      (∀ z1, redshifts[1]? = some z1 → c.z < z1 → c.zwarn &&& ZW.Z_FITLIMIT ≠ 0) ∧
      (∀ z2, redshifts[redshifts.length - 2]? = some z2 → z2 < c.z → c.zwarn &&& ZW.Z_FITLIMIT ≠ 0) := by
  obtain ⟨hlen, minima, found, hm, hl, hp, hs⟩ := fitz_spec argsort harg E nminima zchi2 redshifts r h
  have hne : zchi2 ≠ [] := by
    rintro rfl
    rw [C12_empty_raises] at hm
    cases hm
  obtain ⟨minima', hm', _, hloc, _⟩ := C12_find_minima argsort harg zchi2 hne
  rw [hm] at hm'; cases hm'
  have hmono : ∀ (a b : Nat) (va vb : K), a ≤ b → redshifts[a]? = some va → redshifts[b]? = some vb → va ≤ vb := by
    intro a b va vb hab ha hb
    rw [List.getElem?_eq_some_iff] at ha hb
    obtain ⟨ha1, rfl⟩ := ha
    obtain ⟨hb1, rfl⟩ := hb
    rcases Nat.lt_or_eq_of_le hab with hlt | rfl
    · exact List.pairwise_iff_getElem.1 hz a b ha1 hb1 hlt
    · exact le_refl _
  suffices hfound : ∀ c ∈ found, (∃ imin zlo zhi, IsLocalMin zchi2 imin ∧ redshifts[imin - 1]? = some zlo ∧
        redshifts[min (imin + 1) (redshifts.length - 1)]? = some zhi ∧ zlo ≤ c.z ∧ c.z ≤ zhi) ∧
      (∀ z1, redshifts[1]? = some z1 → c.z < z1 → c.zwarn &&& ZW.Z_FITLIMIT ≠ 0) ∧
      (∀ z2, redshifts[redshifts.length - 2]? = some z2 → z2 < c.z → c.zwarn &&& ZW.Z_FITLIMIT ≠ 0) by
    intro c hc
    obtain ⟨⟨imin, zlo, zhi, h1, h2, h3, h4, h5⟩, h6, h7⟩ := hfound c (hp.mem_iff.2 hc)
    refine ⟨⟨imin, zlo, zhi, h1, h2, h3, h4, h5⟩, ?_, h6, h7⟩
    intro z0 zn hz0 hzn
    rw [List.head?_eq_getElem?] at hz0
    rw [List.getLast?_eq_getElem?] at hzn
    exact ⟨le_trans (hmono _ _ _ _ (Nat.zero_le _) hz0 h2) h4,
      le_trans h5 (hmono _ _ _ _ (min_le_right _ _) h3 hzn)⟩
  refine fitzLoop_induction E nminima zchi2.length redshifts
    (fun res => ∀ c ∈ res, (∃ imin zlo zhi, IsLocalMin zchi2 imin ∧ redshifts[imin - 1]? = some zlo ∧
        redshifts[min (imin + 1) (redshifts.length - 1)]? = some zhi ∧ zlo ≤ c.z ∧ c.z ≤ zhi) ∧
      (∀ z1, redshifts[1]? = some z1 → c.z < z1 → c.zwarn &&& ZW.Z_FITLIMIT ≠ 0) ∧
      (∀ z2, redshifts[redshifts.length - 2]? = some z2 → z2 < c.z → c.zwarn &&& ZW.Z_FITLIMIT ≠ 0)) minima
    ?_ [] found (by simp) hl
  intro imin himin res res' hP _ hb
  rcases fitzBody_spec E _ redshifts res imin res' hb with rfl | ⟨zlo, zhi, zzchi2, am, zmin, sigma, chi2min, zwarn, zwarn', coeff, tr, hlo, hhi, _, _, _, _, hfin⟩
  · exact hP
  rcases fitzFinish_spec E _ _ _ _ _ _ _ _ _ _ _ hfin with rfl | ⟨c, zf, zl, z1, zm2, zw1, chi2pre, rfl, _, hf, hla, h1, h2, hcase, hzw, _⟩
  · exact hP
  intro c' hc'
  rcases List.mem_append.1 hc' with hc' | hc'
  · exact hP c' hc'
  rw [List.mem_singleton] at hc'
  subst hc'
  rw [npGet_ok] at hlo hhi h1
  rw [npGetNeg_ok] at h2
  rw [hlen] at hhi
  have hlohi : zlo ≤ zhi := by
    refine hmono _ _ _ _ ?_ hlo hhi
    have : imin < redshifts.length := by
      obtain ⟨a, ha, _⟩ := (hloc imin).1 himin
      rw [List.getElem?_eq_some_iff] at ha
      obtain ⟨ha, _⟩ := ha
      omega
    omega
  have hzf := linspace_first _ _ _ _ hf
  have hzl := linspace_last _ _ _ hnz _ hla
  subst hzf hzl
  have hor : ∀ w : Nat, (w ||| ZW.Z_FITLIMIT) &&& ZW.Z_FITLIMIT ≠ 0 := by
    intro w
    rw [Nat.and_or_distrib_right]
    intro h0
    have := (Nat.or_eq_zero_iff.1 h0).2
    exact absurd this (by decide)
  refine ⟨⟨imin, zf, zl, (hloc imin).1 himin, hlo, hhi, ?_⟩, ?_, ?_⟩
  · rcases hcase with ⟨ha, hb, hc, _⟩ | ⟨_, _, k, _, hk, _⟩
    · rw [hc]; exact ⟨ha, hb⟩
    · rw [npGet_ok] at hk
      exact linspace_mem _ _ hlohi _ _ hnz _ hk
  · intro z1' hz1' hlt
    rw [h1] at hz1'
    cases hz1'
    rw [hzw]
    have : c'.z < z1 ∨ zm2 < c'.z := Or.inl hlt
    simp only [this, if_true]
    split
    · exact hor _
    · exact hor _
  · intro z2' hz2' hlt
    rw [h2.2] at hz2'
    cases hz2'
    rw [hzw]
    have : c'.z < z1 ∨ zm2 < c'.z := Or.inr hlt
    simp only [this, if_true]
    split
    · exact hor _
    · exact hor _

/-! ### minfit -/

private theorem sqResid_nonneg (a b c : K) (x y : List K) : 0 ≤ sqResid a b c x y := by
  unfold sqResid
  apply List.sum_nonneg
  intro v hv
  rw [List.mem_map] at hv
  obtain ⟨p, _, rfl⟩ := hv
  exact sq_nonneg _

private theorem sqResid_zero (a b c : K) (x y : List K) (h : sqResid a b c x y = 0) :
    ∀ p ∈ x.zip y, p.2 = a * p.1 ^ 2 + b * p.1 + c := by
  unfold sqResid at h
  intro p hp
  have hall : ∀ l : List K, (∀ v ∈ l, 0 ≤ v) → l.sum = 0 → ∀ v ∈ l, v = 0 := by
    intro l
    induction l with
    | nil => simp
    | cons w ws ih =>
      intro hn hsum v hv
      rw [List.sum_cons] at hsum
      have h1 := hn w (by simp)
      have h2 := List.sum_nonneg (fun v hv => hn v (List.mem_cons_of_mem _ hv)) (l := ws)
      rcases List.mem_cons.1 hv with rfl | hv
      · linarith
      · exact ih (fun v hv => hn v (List.mem_cons_of_mem _ hv)) (by linarith) v hv
  have hall := hall _ (by
    intro v hv
    rw [List.mem_map] at hv
    obtain ⟨p, _, rfl⟩ := hv
    exact sq_nonneg _) h
  have := hall _ (List.mem_map.2 ⟨p, hp, rfl⟩)
  have := pow_eq_zero_iff (by norm_num) |>.1 this
  linarith

/-- data on an exact parabola, at three or more different x, are fitted exactly -/
private theorem polyfit_exact (polyfit : List K → List K → Py (K × K × K)) (hpf : IsPolyfit polyfit) (x y : List K)
    (a b c a' b' c' : K) (hfit : polyfit x y = .ok (a', b', c'))
    (hy : ∀ p ∈ x.zip y, p.2 = a * p.1 ^ 2 + b * p.1 + c) (x1 x2 x3 : K) (hx1 : ∃ v, (x1, v) ∈ x.zip y)
    (hx2 : ∃ v, (x2, v) ∈ x.zip y) (hx3 : ∃ v, (x3, v) ∈ x.zip y) (h12 : x1 ≠ x2) (h13 : x1 ≠ x3) (h23 : x2 ≠ x3) :
    a' = a ∧ b' = b ∧ c' = c := by
  have h0 : sqResid a b c x y = 0 := by
    unfold sqResid
    apply List.sum_eq_zero
    intro v hv
    rw [List.mem_map] at hv
    obtain ⟨p, hp, rfl⟩ := hv
    rw [hy p hp]; ring
  have h1 := hpf x y a' b' c' hfit a b c
  have h2 : sqResid a' b' c' x y = 0 := le_antisymm (by rw [← h0]; exact h1) (sqResid_nonneg _ _ _ _ _)
  have hz := sqResid_zero _ _ _ _ _ h2
  obtain ⟨v1, hv1⟩ := hx1
  obtain ⟨v2, hv2⟩ := hx2
  obtain ⟨v3, hv3⟩ := hx3
  have e1 : a' * x1 ^ 2 + b' * x1 + c' = a * x1 ^ 2 + b * x1 + c := by rw [← hz _ hv1, ← hy _ hv1]
  have e2 : a' * x2 ^ 2 + b' * x2 + c' = a * x2 ^ 2 + b * x2 + c := by rw [← hz _ hv2, ← hy _ hv2]
  have e3 : a' * x3 ^ 2 + b' * x3 + c' = a * x3 ^ 2 + b * x3 + c := by rw [← hz _ hv3, ← hy _ hv3]
  have d12 : x1 - x2 ≠ 0 := sub_ne_zero.2 h12
  have d13 : x1 - x3 ≠ 0 := sub_ne_zero.2 h13
  have d23 : x2 - x3 ≠ 0 := sub_ne_zero.2 h23
  have f12 : (a' - a) * (x1 + x2) + (b' - b) = 0 := by
    apply mul_left_cancel₀ d12; linear_combination e1 - e2
  have f13 : (a' - a) * (x1 + x3) + (b' - b) = 0 := by
    apply mul_left_cancel₀ d13; linear_combination e1 - e3
  have fa : a' - a = 0 := by
    apply mul_left_cancel₀ d23; linear_combination f12 - f13
  have fb : b' - b = 0 := by rw [fa] at f12; linarith
  have ha : a' = a := sub_eq_zero.1 fa
  have hb : b' = b := sub_eq_zero.1 fb
  refine ⟨ha, hb, ?_⟩
  rw [ha, hb] at e1
  linarith

/-- **C17** Data lying exactly on `y = y0 + ((x-x0)/xerr)²` (three or more points, at least three different x) with `x0` strictly inside
the sampled range, `xerr > 0`, `y0 > 0`: `minfit` returns exactly `(x0, xerr, y0, 0)`, provided `np.polyfit` returns. -/
theorem C17_minfit_exact (sqrt : K → K) (hsq : IsSqrt sqrt) (polyfit : List K → List K → Py (K × K × K))
    (hpf : IsPolyfit polyfit) (x0 xerr y0 : K) (hxerr : 0 < xerr) (hy0 : 0 < y0) (x : List K)
    (x1 x2 x3 : K) (hx1 : x1 ∈ x) (hx2 : x2 ∈ x) (hx3 : x3 ∈ x) (h12 : x1 < x2) (h23 : x2 < x3) (hlo : x1 < x0) (hhi : x0 < x3)
    (hret : ∃ p, polyfit x (x.map (fun v => y0 + ((v - x0) / xerr) ^ 2)) = .ok p) :
    minfit sqrt polyfit x (x.map (fun v => y0 + ((v - x0) / xerr) ^ 2)) = .ok (x0, xerr, y0, 0) := by
  obtain ⟨⟨a, b, c⟩, hp⟩ := hret
  have hzip : ∀ p ∈ x.zip (x.map (fun v => y0 + ((v - x0) / xerr) ^ 2)),
      p.2 = (1 / xerr ^ 2) * p.1 ^ 2 + (-2 * x0 / xerr ^ 2) * p.1 + (y0 + x0 ^ 2 / xerr ^ 2) := by
    intro p hp
    rw [List.zip_map_right, List.mem_map] at hp
    obtain ⟨q, hq, rfl⟩ := hp
    have hqq : q.1 = q.2 := by
      have := List.mem_iff_getElem?.1 hq
      obtain ⟨k, hk⟩ := this
      rw [List.getElem?_zip_eq_some] at hk
      have := hk.1.symm.trans hk.2
      simpa using this
    simp only [Prod.map_fst, Prod.map_snd, id]
    rw [hqq]
    have := ne_of_gt hxerr
    field_simp
    ring
  have hmem : ∀ v ∈ x, ∃ w, (v, w) ∈ x.zip (x.map (fun v => y0 + ((v - x0) / xerr) ^ 2)) := by
    intro v hv
    obtain ⟨k, hk, rfl⟩ := List.getElem_of_mem hv
    refine ⟨y0 + ((x[k] - x0) / xerr) ^ 2, List.mem_iff_getElem?.2 ⟨k, ?_⟩⟩
    rw [List.getElem?_zip_eq_some]
    exact ⟨List.getElem?_eq_getElem hk, by rw [List.getElem?_map, List.getElem?_eq_getElem hk]; rfl⟩
  obtain ⟨rfl, rfl, rfl⟩ := polyfit_exact polyfit hpf _ _ _ _ _ _ _ _ hp hzip x1 x2 x3 (hmem _ hx1) (hmem _ hx2) (hmem _ hx3)
    (ne_of_lt h12) (ne_of_lt (lt_trans h12 h23)) (ne_of_lt h23)
  have hne := ne_of_gt hxerr
  have hapos : 0 < 1 / xerr ^ 2 := by positivity
  have hlen : ¬ x.length < 3 := by
    intro hlt
    have hnd : [x1, x2, x3].Nodup := by
      simp [ne_of_lt h12, ne_of_lt h23, ne_of_lt (lt_trans h12 h23)]
    have : [x1, x2, x3].length ≤ x.length := by
      apply List.Subperm.length_le
      apply hnd.subperm
      intro v hv
      simp only [List.mem_cons, List.not_mem_nil, or_false] at hv
      rcases hv with rfl | rfl | rfl <;> assumption
    simp at this
    omega
  have hxne : x ≠ [] := List.ne_nil_of_mem hx1
  obtain ⟨xmin, hmin⟩ := npMin_ne x hxne
  obtain ⟨xmax, hmax⟩ : ∃ m, npMax x = .ok m := by
    cases x with
    | nil => exact absurd rfl hxne
    | cons v vs => exact ⟨_, rfl⟩
  have hx0 : -(-2 * x0 / xerr ^ 2) / (2 * (1 / xerr ^ 2)) = x0 := by field_simp
  have hy0' : -((-2 * x0 / xerr ^ 2) ^ 2) / (4 * (1 / xerr ^ 2)) + (y0 + x0 ^ 2 / xerr ^ 2) = y0 := by
    field_simp; ring
  have hrange : ¬ (x0 ≤ xmin ∨ xmax ≤ x0) := by
    rw [not_or, not_le, not_le]
    exact ⟨lt_of_le_of_lt ((npMin_spec x _ hmin).2 x1 hx1) hlo, lt_of_lt_of_le hhi ((npMax_spec x _ hmax).2 x3 hx3)⟩
  have hsqrt : 1 / sqrt (1 / xerr ^ 2) = xerr := by
    rw [show 1 / xerr ^ 2 = (1 / xerr) * (1 / xerr) by field_simp, hsq.2 _ (by positivity)]
    field_simp
  unfold minfit
  rw [if_neg hlen, hp]
  simp only [if_neg (ne_of_gt hapos), hx0, hy0', hmin, hmax, bind, Except.bind, if_neg hrange, if_pos hapos,
    if_neg (not_le.2 hy0), hsqrt]

/-- what a successful `minfit` says: without `BAD_MINFIT` the vertex is strictly inside the sampled range, above zero, the fitted parabola
opens upward; the error is then positive. -/
private theorem minfit_good (sqrt : K → K) (hsq : IsSqrt sqrt) (polyfit : List K → List K → Py (K × K × K))
    (x y : List K) (x0 xerr y0 : K) (zw : Nat) (h : minfit sqrt polyfit x y = .ok (x0, xerr, y0, zw)) :
    (zw = 0 ∨ zw = ZW.BAD_MINFIT) ∧ (zw = 0 → 3 ≤ x.length ∧ (∃ u ∈ x, u < x0) ∧ (∃ v ∈ x, x0 < v) ∧ 0 < y0 ∧ 0 < xerr ∧
      ∃ a b c, polyfit x y = .ok (a, b, c) ∧ 0 < a ∧ x0 = -b / (2 * a)) := by
  unfold minfit at h
  split at h
  · cases h
    exact ⟨Or.inr rfl, fun h => absurd h (by decide)⟩
  rename_i hlen
  split at h
  · cases h
    exact ⟨Or.inr rfl, fun h => absurd h (by decide)⟩
  · cases h
  · rename_i a b c hp
    split at h
    · cases h
      exact ⟨Or.inr rfl, fun h => absurd h (by decide)⟩
    · rename_i ha
      obtain ⟨xmin, hmin, h⟩ := Except.bind_ok _ _ _ h
      obtain ⟨xmax, hmax, h⟩ := Except.bind_ok _ _ _ h
      dsimp only at h
      split at h
      · rename_i hapos
        simp only [Except.ok.injEq, Prod.mk.injEq] at h
        obtain ⟨e1, e2, e3, e4⟩ := h
        by_cases hr : -b / (2 * a) ≤ xmin ∨ xmax ≤ -b / (2 * a)
        · have : zw = ZW.BAD_MINFIT := by
            rw [← e4]; simp only [hr, if_true]; split <;> decide
          exact ⟨Or.inr this, fun h => absurd (this.symm.trans h) (by decide)⟩
        · by_cases hy : -(b ^ 2) / (4 * a) + c ≤ 0
          · have : zw = ZW.BAD_MINFIT := by
              rw [← e4]; simp only [hy, hr, if_true, if_false]; decide
            exact ⟨Or.inr this, fun h => absurd (this.symm.trans h) (by decide)⟩
          · have : zw = 0 := by
              rw [← e4]; simp only [hy, hr, if_false]
            refine ⟨Or.inl this, fun _ => ?_⟩
            rw [not_or, not_le, not_le] at hr
            rw [e1] at hr
            refine ⟨by omega, ⟨xmin, (npMin_spec x _ hmin).1, hr.1⟩, ⟨xmax, (npMax_spec x _ hmax).1, hr.2⟩, ?_, ?_, a, b, c, hp, hapos, e1.symm⟩
            · rw [← e3]; exact not_le.1 hy
            · rw [← e2]; exact one_div_pos.2 (hsq.1 a hapos)
      · simp only [Except.ok.injEq, Prod.mk.injEq] at h
        obtain ⟨e1, e2, e3, e4⟩ := h
        have : zw = ZW.BAD_MINFIT := by
          rw [← e4]; split <;> split <;> decide
        exact ⟨Or.inr this, fun h => absurd (this.symm.trans h) (by decide)⟩

/-- **C18** soundness of the flag: a result without `BAD_MINFIT` has the vertex strictly inside the sampled range, a positive minimum and a
positive error, and comes from a parabola that opens upward. The flag is 0 or BAD_MINFIT. -/
theorem C18_minfit_sound (sqrt : K → K) (hsq : IsSqrt sqrt) (polyfit : List K → List K → Py (K × K × K))
    (x y : List K) (x0 xerr y0 : K) (zw : Nat) (h : minfit sqrt polyfit x y = .ok (x0, xerr, y0, zw)) :
    (zw = 0 ∨ zw = ZW.BAD_MINFIT) ∧
    (zw = 0 → (∃ u ∈ x, u < x0) ∧ (∃ v ∈ x, x0 < v) ∧ 0 < y0 ∧ 0 < xerr ∧
      ∃ a b c, polyfit x y = .ok (a, b, c) ∧ 0 < a ∧ x0 = -b / (2 * a)) := by
  obtain ⟨h1, h2⟩ := minfit_good sqrt hsq polyfit x y x0 xerr y0 zw h
  refine ⟨h1, fun h0 => ?_⟩
  obtain ⟨_, a, b, c⟩ := h2 h0
  exact ⟨a, b, c⟩

/-- **C18** fewer than three points always give BAD_MINFIT. -/
theorem C18_few_points (sqrt : K → K) (polyfit : List K → List K → Py (K × K × K)) (x y : List K) (h : x.length < 3) :
    minfit sqrt polyfit x y = .ok (-1, -1, -1, ZW.BAD_MINFIT) := by
  unfold minfit; rw [if_pos h]

/-- **C18** three points with the middle one not above its neighbours and below at least one: the vertex passes the range test (it lies between
the mid-points), so `BAD_MINFIT` is set exactly when the fitted minimum is not positive. -/
theorem C18_discrete_minimum (sqrt : K → K) (polyfit : List K → List K → Py (K × K × K)) (hpf : IsPolyfit polyfit)
    (x1 x2 x3 y1 y2 y3 : K) (h12 : x1 < x2) (h23 : x2 < x3) (hl : y2 ≤ y1) (hr : y2 ≤ y3) (hs : y2 < y1 ∨ y2 < y3)
    (hret : ∃ p, polyfit [x1, x2, x3] [y1, y2, y3] = .ok p) :
    ∃ x0 xerr y0 zw, minfit sqrt polyfit [x1, x2, x3] [y1, y2, y3] = .ok (x0, xerr, y0, zw) ∧
      (x1 + x2) / 2 ≤ x0 ∧ x0 ≤ (x2 + x3) / 2 ∧ y0 ≤ y2 ∧ (zw = ZW.BAD_MINFIT ↔ y0 ≤ 0) ∧ (zw = 0 ↔ 0 < y0) := by
  obtain ⟨⟨a, b, c⟩, hp⟩ := hret
  -- the interpolating parabola
  have d12 : 0 < x2 - x1 := by linarith
  have d23 : 0 < x3 - x2 := by linarith
  have d13 : 0 < x3 - x1 := by linarith
  obtain ⟨A, B, C, hA, e1, e2, e3⟩ : ∃ A B C : K, 0 < A ∧ y1 = A * x1 ^ 2 + B * x1 + C ∧ y2 = A * x2 ^ 2 + B * x2 + C ∧
      y3 = A * x3 ^ 2 + B * x3 + C := by
    refine ⟨((y3 - y2) / (x3 - x2) - (y2 - y1) / (x2 - x1)) / (x3 - x1),
      (y2 - y1) / (x2 - x1) - ((y3 - y2) / (x3 - x2) - (y2 - y1) / (x2 - x1)) / (x3 - x1) * (x1 + x2),
      y1 - ((y3 - y2) / (x3 - x2) - (y2 - y1) / (x2 - x1)) / (x3 - x1) * x1 ^ 2 - ((y2 - y1) / (x2 - x1) - ((y3 - y2) / (x3 - x2) - (y2 - y1) / (x2 - x1)) / (x3 - x1) * (x1 + x2)) * x1, ?_, ?_, ?_, ?_⟩
    · apply div_pos _ d13
      have n1 : 0 ≤ (y3 - y2) / (x3 - x2) := div_nonneg (by linarith) d23.le
      have n2 : (y2 - y1) / (x2 - x1) ≤ 0 := div_nonpos_of_nonpos_of_nonneg (by linarith) d12.le
      rcases hs with hs | hs
      · have : (y2 - y1) / (x2 - x1) < 0 := div_neg_of_neg_of_pos (by linarith) d12
        linarith
      · have : 0 < (y3 - y2) / (x3 - x2) := div_pos (by linarith) d23
        linarith
    · ring
    · have := ne_of_gt d12
      have := ne_of_gt d13
      have := ne_of_gt d23
      field_simp
      ring
    · have := ne_of_gt d12
      have := ne_of_gt d13
      have := ne_of_gt d23
      field_simp
      ring
  obtain ⟨rfl, rfl, rfl⟩ := polyfit_exact polyfit hpf [x1, x2, x3] [y1, y2, y3] A B C a b c hp
    (by
      intro p hp
      simp only [List.zip_cons_cons, List.zip_nil_right, List.mem_cons, List.not_mem_nil, or_false] at hp
      rcases hp with rfl | rfl | rfl
      · exact e1
      · exact e2
      · exact e3) x1 x2 x3 ⟨y1, by simp⟩ ⟨y2, by simp⟩ ⟨y3, by simp⟩ (ne_of_lt h12) (ne_of_lt (lt_trans h12 h23)) (ne_of_lt h23)
  have hs12 : a * (x1 + x2) + b ≤ 0 := by
    by_contra hc
    have := mul_pos (not_le.1 hc) d12
    nlinarith [this]
  have hs23 : 0 ≤ a * (x2 + x3) + b := by
    by_contra hc
    have := mul_pos_of_neg_of_neg (not_le.1 hc) (show x2 - x3 < 0 by linarith)
    nlinarith [this]
  have hlo : (x1 + x2) / 2 ≤ -b / (2 * a) := by
    rw [le_div_iff₀ (by linarith)]; linarith
  have hhi : -b / (2 * a) ≤ (x2 + x3) / 2 := by
    rw [div_le_iff₀ (by linarith)]; linarith
  have hy0 : -(b ^ 2) / (4 * a) + c ≤ y2 := by
    rw [e2]
    have h4 : 0 < 4 * a := by linarith
    have : -(b ^ 2) / (4 * a) ≤ a * x2 ^ 2 + b * x2 := by
      rw [div_le_iff₀ h4]
      nlinarith [sq_nonneg (2 * a * x2 + b)]
    linarith
  obtain ⟨xmin, hmin⟩ := npMin_ne [x1, x2, x3] (by simp)
  obtain ⟨xmax, hmax⟩ : ∃ m, npMax [x1, x2, x3] = .ok m := ⟨_, rfl⟩
  have hrange : ¬ (-b / (2 * a) ≤ xmin ∨ xmax ≤ -b / (2 * a)) := by
    rw [not_or, not_le, not_le]
    have m1 := (npMin_spec _ _ hmin).2 x1 (by simp)
    have m2 := (npMax_spec _ _ hmax).2 x3 (by simp)
    constructor
    · linarith
    · linarith
  refine ⟨-b / (2 * a), 1 / sqrt a, -(b ^ 2) / (4 * a) + c, if -(b ^ 2) / (4 * a) + c ≤ 0 then ZW.BAD_MINFIT else 0, ?_, hlo, hhi, hy0, ?_, ?_⟩
  · unfold minfit
    rw [if_neg (by simp), hp]
    simp only [if_neg (ne_of_gt hA), hmin, hmax, bind, Except.bind, if_neg hrange, if_pos hA]
    congr 1
  · split
    · rename_i h; simp [h]
    · rename_i h; simp [h, ZW.BAD_MINFIT]
  · split
    · rename_i h; simp [ZW.BAD_MINFIT, not_lt.2 h]
    · rename_i h; simp [not_le.1 h]

/-! ### fitz with the real `minfit` -/

private theorem and_or_zero (a b m : Nat) (h : (a ||| b) &&& m = 0) : a &&& m = 0 ∧ b &&& m = 0 := by
  rw [Nat.and_or_distrib_right] at h
  exact Nat.or_eq_zero_iff.1 h

/-- everything a candidate of the standard (non-archetype) fit carries -/
private theorem cand_origin (argsort : List (Ext K) → List Nat) (harg : IsArgsort Ext.sortLe argsort) (E : FitEnv K)
    (harch : E.arch = none) (nminima : Nat) (zchi2 : List (Ext K)) (redshifts : List K) (r : List (Cand K))
    (h : fitz argsort E nminima zchi2 redshifts = .ok r) :
    ∀ c ∈ r, ∃ xs ys zmin sigma chi2min zwarn, E.minfit xs ys = .ok (zmin, sigma, chi2min, zwarn) ∧ c.zerr = sigma ∧
      zwarn ||| c.zwarn = c.zwarn ∧
      (c.zwarn &&& ZW.BAD_MINFIT = 0 → c.z = zmin ∧ c.chi2 = chi2min ∧ E.fitAt zmin = .ok c.coeff) := by
  obtain ⟨hlen, minima, found, hm, hl, hp, hs⟩ := fitz_spec argsort harg E nminima zchi2 redshifts r h
  suffices hfound : ∀ c ∈ found, ∃ xs ys zmin sigma chi2min zwarn, E.minfit xs ys = .ok (zmin, sigma, chi2min, zwarn) ∧ c.zerr = sigma ∧
      zwarn ||| c.zwarn = c.zwarn ∧
      (c.zwarn &&& ZW.BAD_MINFIT = 0 → c.z = zmin ∧ c.chi2 = chi2min ∧ E.fitAt zmin = .ok c.coeff) from
    fun c hc => hfound c (hp.mem_iff.2 hc)
  refine fitzLoop_induction E nminima zchi2.length redshifts
    (fun res => ∀ c ∈ res, ∃ xs ys zmin sigma chi2min zwarn, E.minfit xs ys = .ok (zmin, sigma, chi2min, zwarn) ∧ c.zerr = sigma ∧
      zwarn ||| c.zwarn = c.zwarn ∧
      (c.zwarn &&& ZW.BAD_MINFIT = 0 → c.z = zmin ∧ c.chi2 = chi2min ∧ E.fitAt zmin = .ok c.coeff)) minima
    ?_ [] found (by simp) hl
  intro imin himin res res' hP _ hb
  rcases fitzBody_spec E _ redshifts res imin res' hb with rfl | ⟨zlo, zhi, zzchi2, am, zmin, sigma, chi2min, zwarn, zwarn', coeff, tr, hlo, hhi, _, _, hmf, hfit, hfin⟩
  · exact hP
  rcases fitzFinish_spec E _ _ _ _ _ _ _ _ _ _ _ hfin with rfl | ⟨c, zf, zl, z1, zm2, zw1, chi2pre, rfl, _, hf, hla, h1, h2, hcase, hzw, hze, har⟩
  · exact hP
  intro c' hc'
  rcases List.mem_append.1 hc' with hc' | hc'
  · exact hP c' hc'
  rw [List.mem_singleton] at hc'
  subst hc'
  have hb0 : ZW.BAD_MINFIT &&& ZW.BAD_MINFIT ≠ 0 := by decide
  refine ⟨_, _, zmin, sigma, chi2min, zwarn, hmf, hze, ?_, ?_⟩
  · have hz' : zwarn ||| zwarn' = zwarn' := by
      rcases hfit with ⟨_, _, rfl⟩ | ⟨_, _, _, rfl⟩
      · exact Nat.or_self _
      · rw [← Nat.or_assoc, ← Nat.or_assoc, Nat.or_self]
    have hz1 : zwarn ||| zw1 = zw1 := by
      rcases hcase with ⟨_, _, _, rfl, _⟩ | ⟨_, rfl, _⟩
      · exact hz'
      · rw [← Nat.or_assoc, hz']
    rw [hzw]
    split <;> split <;> simp only [← Nat.or_assoc, hz1]
  · intro hgood
    have hzw1 : zw1 &&& ZW.BAD_MINFIT = 0 := by
      rw [hzw] at hgood
      split at hgood <;> split at hgood
      · exact (and_or_zero _ _ _ (and_or_zero _ _ _ hgood).1).1
      · exact (and_or_zero _ _ _ hgood).1
      · exact (and_or_zero _ _ _ hgood).1
      · exact hgood
    obtain ⟨ha1, ha2⟩ := har harch
    rcases hcase with ⟨_, _, e1, e2, e3⟩ | ⟨_, e2, _⟩
    · refine ⟨e1, by rw [ha2, e3], ?_⟩
      rcases hfit with ⟨h1, _⟩ | ⟨_, _, _, h2⟩
      · rw [h1, ha1]
      · rw [e2, h2] at hzw1
        exact absurd (and_or_zero _ _ _ hzw1).2 hb0
    · rw [e2] at hzw1
      exact absurd (and_or_zero _ _ _ hzw1).2 hb0

/-- **C58** The coefficients reported with a candidate that is not flagged `BAD_MINFIT` are those fitted at its own redshift. -/
theorem C58_coeff_at_reported_redshift (argsort : List (Ext K) → List Nat) (harg : IsArgsort Ext.sortLe argsort) (E : FitEnv K)
    (harch : E.arch = none) (nminima : Nat) (zchi2 : List (Ext K)) (redshifts : List K) (r : List (Cand K))
    (h : fitz argsort E nminima zchi2 redshifts = .ok r) :
    ∀ c ∈ r, c.zwarn &&& ZW.BAD_MINFIT = 0 → E.fitAt c.z = .ok c.coeff := by
  intro c hc hgood
  obtain ⟨_, _, zmin, _, _, _, _, _, _, h3⟩ := cand_origin argsort harg E harch nminima zchi2 redshifts r h c hc
  obtain ⟨e1, _, e3⟩ := h3 hgood
  rw [e1]; exact e3

/-- **C18** carried through `fitz`: a candidate without `BAD_MINFIT` has a positive redshift error and a positive chi2. -/
theorem C18_good_candidates (argsort : List (Ext K) → List Nat) (harg : IsArgsort Ext.sortLe argsort) (E : FitEnv K)
    (harch : E.arch = none) (sqrt : K → K) (hsq : IsSqrt sqrt) (polyfit : List K → List K → Py (K × K × K))
    (hE : E.minfit = minfit sqrt polyfit) (nminima : Nat) (zchi2 : List (Ext K)) (redshifts : List K) (r : List (Cand K))
    (h : fitz argsort E nminima zchi2 redshifts = .ok r) :
    ∀ c ∈ r, c.zwarn &&& ZW.BAD_MINFIT = 0 → 0 < c.zerr ∧ 0 < c.chi2 := by
  intro c hc hgood
  obtain ⟨xs, ys, zmin, sigma, chi2min, zwarn, h1, h2, h3, h4⟩ := cand_origin argsort harg E harch nminima zchi2 redshifts r h c hc
  obtain ⟨e1, e2, e3⟩ := h4 hgood
  rw [hE] at h1
  obtain ⟨g1, g2⟩ := C18_minfit_sound sqrt hsq polyfit xs ys zmin sigma chi2min zwarn h1
  have hz : zwarn = 0 := by
    rcases g1 with g | g
    · exact g
    · rw [← h3, g] at hgood
      exact absurd (and_or_zero _ _ _ hgood).1 (by decide)
  obtain ⟨_, _, hy, hx, _⟩ := g2 hz
  rw [h2, e2]
  exact ⟨hx, hy⟩

/-! ### `fitz` returns -/

private theorem fitzFinish_total (E : FitEnv K) (redshifts zz zzchi2 : List K) (results : List (Cand K))
    (zmin sigma chi2min : K) (zwarn : Nat) (coeff : List K) (tr : Option K) (hzz : 1 ≤ zz.length) (hlen : zzchi2.length = zz.length)
    (hred : 2 ≤ redshifts.length)
    (harch : ∀ A, E.arch = some A → A.priorSigma ≠ none ∧ ∀ tr z p, ∃ v, A.getBest tr z p = .ok v) :
    ∃ res, fitzFinish E redshifts zz zzchi2 results zmin sigma chi2min zwarn coeff tr = .ok res ∧
      (results = [] → res ≠ []) := by
  have g1 : npGet zz 0 = .ok zz[0] := (npGet_ok _ _ _).2 (List.getElem?_eq_getElem _)
  have g2 : npGetNeg zz 1 = .ok zz[zz.length - 1] := (npGetNeg_ok _ _ _).2 ⟨hzz, List.getElem?_eq_getElem _⟩
  have g3 : npGet redshifts 1 = .ok redshifts[1] := (npGet_ok _ _ _).2 (List.getElem?_eq_getElem _)
  have g4 : npGetNeg redshifts 2 = .ok redshifts[redshifts.length - 2] :=
    (npGetNeg_ok _ _ _).2 ⟨hred, List.getElem?_eq_getElem _⟩
  have hne : zzchi2 ≠ [] := by rintro rfl; simp at hlen; omega
  obtain ⟨m, hm⟩ := npMin_ne zzchi2 hne
  obtain ⟨k, hk, hk1, _⟩ := pyIndex_spec zzchi2 m (npMin_spec _ _ hm).1
  have g5 : npArgmin zzchi2 = .ok k := by
    unfold npArgmin; rw [hm]; exact hk1
  have g6 : npGet zz k = .ok zz[k] := (npGet_ok _ _ _).2 (List.getElem?_eq_getElem _)
  have g7 : npGet zzchi2 k = .ok zzchi2[k] := (npGet_ok _ _ _).2 (List.getElem?_eq_getElem _)
  unfold fitzFinish
  rw [g1, g2, g3, g4, g5]
  simp only [bind, Except.bind, g6, g7, pure, Except.pure]
  generalize hb : (if zmin < zz[0] ∨ zz[zz.length - 1] < zmin then (Except.ok (zz[k], zzchi2[k], zwarn ||| ZW.BAD_MINFIT) : Py (K × K × Nat))
    else Except.ok (zmin, chi2min, zwarn)) = B
  obtain ⟨b, rfl⟩ : ∃ b, B = .ok b := by
    rw [← hb]; split <;> exact ⟨_, rfl⟩
  simp only
  split
  · rename_i hany
    refine ⟨results, rfl, ?_⟩
    rintro rfl
    simp at hany
  · cases ha : E.arch with
    | none => exact ⟨_, rfl, fun _ => by simp⟩
    | some A =>
      obtain ⟨hps, hgb⟩ := harch A ha
      obtain ⟨v, hv⟩ := hgb tr b.1 A.priorSigma
      have : A.getBestArchetype tr b.1 A.priorSigma = .ok v := by
        unfold ArchEnv.getBestArchetype
        rw [if_neg (by simp [hps])]
        exact hv
      simp only [this]
      cases hp : A.priorSigma with
      | none => exact absurd hp hps
      | some s => exact ⟨_, rfl, fun _ => by simp⟩

private theorem fitz_total (argsort : List (Ext K) → List Nat) (harg : IsArgsort Ext.sortLe argsort) (E : FitEnv K)
    (hnz : 1 ≤ E.nz) (hscan : ∀ zz, ∃ v, E.scan zz = .ok v ∧ v.length = zz.length) (hmin : ∀ x y, ∃ v, E.minfit x y = .ok v)
    (redshifts : List K) (hred : 2 ≤ redshifts.length)
    (hfit : ∀ z, (∃ v, E.fitAt z = .ok v) ∨ (E.fitAt z = .error .valueError ∧
      ((∃ z0, redshifts.head? = some z0 ∧ z < z0) ∨ (∃ zn, redshifts.getLast? = some zn ∧ zn < z))))
    (harch : ∀ A, E.arch = some A → A.priorSigma ≠ none ∧ ∀ tr z p, ∃ v, A.getBest tr z p = .ok v)
    (nminima : Nat) (zchi2 : List (Ext K)) (hlen : zchi2.length = redshifts.length) :
    ∃ r, fitz argsort E nminima zchi2 redshifts = .ok r ∧ (0 < nminima → Ext.nan ∉ zchi2 → r ≠ []) := by
  have hne : zchi2 ≠ [] := by rintro rfl; simp at hlen; omega
  obtain ⟨minima, hm, _, hloc, _⟩ := C12_find_minima argsort harg zchi2 hne
  have hbody : ∀ imin ∈ minima, ∀ res, ∃ res', fitzBody E zchi2.length redshifts res imin = .ok res' ∧ (res = [] → res' ≠ []) := by
    intro imin hi res
    have hilt : imin < redshifts.length := by
      obtain ⟨a, ha, _⟩ := (hloc imin).1 hi
      rw [List.getElem?_eq_some_iff] at ha
      obtain ⟨ha, _⟩ := ha
      omega
    have g1 : npGet redshifts imin = .ok redshifts[imin] := (npGet_ok _ _ _).2 (List.getElem?_eq_getElem _)
    have g2 : npGet redshifts (imin - 1) = .ok redshifts[imin - 1] := (npGet_ok _ _ _).2 (List.getElem?_eq_getElem _)
    have g3 : npGet redshifts (min (imin + 1) (zchi2.length - 1)) = .ok (redshifts[min (imin + 1) (zchi2.length - 1)]'(by omega)) :=
      (npGet_ok _ _ _).2 (List.getElem?_eq_getElem _)
    obtain ⟨zzchi2, hs, hsl⟩ := hscan (linspace redshifts[imin - 1] (redshifts[min (imin + 1) (zchi2.length - 1)]'(by omega)) E.nz)
    have hne2 : zzchi2 ≠ [] := by
      rintro rfl
      rw [linspace_length] at hsl
      simp at hsl; omega
    obtain ⟨m, hmm⟩ := npMin_ne zzchi2 hne2
    obtain ⟨k, hk, hk1, _⟩ := pyIndex_spec zzchi2 m (npMin_spec _ _ hmm).1
    have g5 : npArgmin zzchi2 = .ok k := by
      unfold npArgmin; rw [hmm]; exact hk1
    unfold fitzBody
    rw [g1]
    simp only [bind, Except.bind]
    split
    · rename_i hany
      refine ⟨res, rfl, ?_⟩
      rintro rfl
      simp at hany
    · simp only [g2, g3, hs, g5]
      obtain ⟨⟨zmin, sigma, c2, zw⟩, hmf⟩ := hmin
        (pySlice (linspace redshifts[imin - 1] (redshifts[min (imin + 1) (zchi2.length - 1)]'(by omega)) E.nz)
          (min (max (k : Int) 1) (((linspace redshifts[imin - 1] (redshifts[min (imin + 1) (zchi2.length - 1)]'(by omega)) E.nz).length : Int) - 2) - 1)
          (min (max (k : Int) 1) (((linspace redshifts[imin - 1] (redshifts[min (imin + 1) (zchi2.length - 1)]'(by omega)) E.nz).length : Int) - 2) + 2))
        (pySlice zzchi2
          (min (max (k : Int) 1) (((linspace redshifts[imin - 1] (redshifts[min (imin + 1) (zchi2.length - 1)]'(by omega)) E.nz).length : Int) - 2) - 1)
          (min (max (k : Int) 1) (((linspace redshifts[imin - 1] (redshifts[min (imin + 1) (zchi2.length - 1)]'(by omega)) E.nz).length : Int) - 2) + 2))
      simp only [hmf]
      rcases hfit zmin with ⟨v, hv⟩ | ⟨hv, hout⟩
      · simp only [hv]
        exact fitzFinish_total E redshifts _ _ _ _ _ _ _ _ _ (by rw [linspace_length]; exact hnz) hsl hred harch
      · simp only [hv]
        have g6 : npGet redshifts 0 = .ok redshifts[0] := (npGet_ok _ _ _).2 (List.getElem?_eq_getElem _)
        have g7 : npGetNeg redshifts 1 = .ok redshifts[redshifts.length - 1] :=
          (npGetNeg_ok _ _ _).2 ⟨by omega, List.getElem?_eq_getElem _⟩
        simp only [g6, g7]
        rw [if_pos]
        · exact fitzFinish_total E redshifts _ _ _ _ _ _ _ _ _ (by rw [linspace_length]; exact hnz) hsl hred harch
        · rcases hout with ⟨z0, h0, hlt⟩ | ⟨zn, hn, hlt⟩
          · left
            rw [List.head?_eq_getElem?, List.getElem?_eq_getElem (by omega)] at h0
            cases h0; exact hlt
          · right
            rw [List.getLast?_eq_getElem?, List.getElem?_eq_getElem (by omega)] at hn
            cases hn; exact hlt
  have hloop : ∀ l, (∀ i ∈ l, i ∈ minima) → ∀ res, ∃ found, fitzLoop E nminima zchi2.length redshifts l res = .ok found ∧
      (res ≠ [] → found ≠ []) ∧ (l ≠ [] → 0 < nminima → found ≠ []) := by
    intro l
    induction l with
    | nil => intro _ res; exact ⟨res, rfl, id, fun h => absurd rfl h⟩
    | cons i l ih =>
      intro hl res
      by_cases hn : res.length = nminima
      · refine ⟨res, by rw [fitzLoop, if_pos hn], id, ?_⟩
        rintro _ hpos rfl
        simp at hn; omega
      · obtain ⟨res', h1, h2⟩ := hbody i (hl i (by simp)) res
        obtain ⟨found, h3, h4, _⟩ := ih (fun j hj => hl j (List.mem_cons_of_mem _ hj)) res'
        have hgrow : res ≠ [] → res' ≠ [] := by
          intro hr
          rcases fitzBody_spec E _ redshifts res i res' h1 with rfl | ⟨_, _, _, _, _, _, _, _, _, _, _, _, _, _, _, _, _, hfin⟩
          · exact hr
          · rcases fitzFinish_spec E _ _ _ _ _ _ _ _ _ _ _ hfin with rfl | ⟨c, _, _, _, _, _, _, rfl, _⟩
            · exact hr
            · simp
        have hne' : res' ≠ [] := by
          by_cases hr : res = []
          · exact h2 hr
          · exact hgrow hr
        refine ⟨found, ?_, fun _ => h4 hne', fun _ _ => h4 hne'⟩
        rw [fitzLoop, if_neg hn, h1]
        exact h3
  obtain ⟨found, hf, _, hf2⟩ := hloop minima (fun _ h => h) []
  have hargf := harg (found.map (fun c => .fin c.chi2))
  obtain ⟨r, hr1, hr2, _⟩ := npTake_ok found (argsort (found.map (fun c => .fin c.chi2))) (by
    intro i hi
    have := hargf.1.subset hi
    simpa using this)
  refine ⟨r, ?_, ?_⟩
  · unfold fitz
    rw [if_neg (by simp [hlen]), hm]
    simp only [bind, Except.bind, hf]
    exact hr1
  · intro hpos hnan hr
    obtain ⟨i, a, hhead, _⟩ := C12_first_is_global argsort harg zchi2 hne hnan minima hm
    have : minima ≠ [] := by rintro rfl; simp at hhead
    have hfne := hf2 this hpos
    apply hfne
    rw [hr] at hr2
    have hl2 := hargf.1.length_eq
    rw [List.length_range, List.length_map] at hl2
    rw [← List.length_eq_zero_iff, ← hl2, ← hr2]
    rfl

/-- **C59** `fitz` returns, with at least one candidate: if the numerical parts do not raise (`fitAt` may raise `ValueError` outside the redshift
range), the grid has at least two redshifts and the scan has no NaN, then for `nminima ≥ 1` the result is a non-empty candidate list. -/
theorem C59_fitz_returns_a_candidate (argsort : List (Ext K) → List Nat) (harg : IsArgsort Ext.sortLe argsort) (E : FitEnv K)
    (harch : E.arch = none)
    (hnz : 1 ≤ E.nz) (hscan : ∀ zz, ∃ v, E.scan zz = .ok v ∧ v.length = zz.length) (hmin : ∀ x y, ∃ v, E.minfit x y = .ok v)
    (redshifts : List K) (hred : 2 ≤ redshifts.length)
    (hfit : ∀ z, (∃ v, E.fitAt z = .ok v) ∨ (E.fitAt z = .error .valueError ∧
      ((∃ z0, redshifts.head? = some z0 ∧ z < z0) ∨ (∃ zn, redshifts.getLast? = some zn ∧ zn < z))))
    (nminima : Nat) (hpos : 0 < nminima) (zchi2 : List (Ext K)) (hlen : zchi2.length = redshifts.length) (hnan : Ext.nan ∉ zchi2) :
    ∃ r, fitz argsort E nminima zchi2 redshifts = .ok r ∧ r ≠ [] := by
  obtain ⟨r, h1, h2⟩ := fitz_total argsort harg E hnz hscan hmin redshifts hred hfit
    (fun A hA => by rw [harch] at hA; cases hA) nminima zchi2 hlen
  exact ⟨r, h1, h2 hpos hnan⟩

/-- **C52** (the claim is false of the code) With an archetype and `prior_sigma=None`, `fitz` never returns a candidate: it raises, or the list
is empty. -/
theorem C52_without_prior_no_candidate (argsort : List (Ext K) → List Nat) (harg : IsArgsort Ext.sortLe argsort) (E : FitEnv K)
    (A : ArchEnv K) (hA : E.arch = some A) (hp : A.priorSigma = none) (nminima : Nat) (zchi2 : List (Ext K)) (redshifts : List K)
    (r : List (Cand K)) (h : fitz argsort E nminima zchi2 redshifts = .ok r) : r = [] := by
  obtain ⟨_, minima, found, hm, hl, hperm, _⟩ := fitz_spec argsort harg E nminima zchi2 redshifts r h
  have key := fitzLoop_induction E nminima zchi2.length redshifts (fun res => res = []) minima
    (by
      rintro imin _ res res' rfl _ hb
      rcases fitzBody_spec E _ redshifts [] imin res' hb with rfl | ⟨_, _, _, _, _, _, _, _, _, _, _, _, _, _, _, _, _, hfin⟩
      · rfl
      · unfold fitzFinish at hfin
        obtain ⟨_, _, hfin⟩ := Except.bind_ok _ _ _ hfin
        obtain ⟨_, _, hfin⟩ := Except.bind_ok _ _ _ hfin
        obtain ⟨_, _, hfin⟩ := Except.bind_ok _ _ _ hfin
        obtain ⟨_, _, hfin⟩ := Except.bind_ok _ _ _ hfin
        obtain ⟨_, _, hfin⟩ := Except.bind_ok _ _ _ hfin
        dsimp only at hfin
        split at hfin
        · cases hfin; rfl
        · rw [hA] at hfin
          obtain ⟨_, _, hfin⟩ := Except.bind_ok _ _ _ hfin
          rw [hp] at hfin
          cases hfin) [] found rfl hl
  rw [key] at hperm
  exact hperm.nil_eq.symm

/-- **C52** (proved part: with a prior) With an archetype and `prior_sigma` given, `fitz` returns candidates. Missing from the full claim:
`prior_sigma=None`, where the code raises (`C52_without_prior_no_candidate`). -/
theorem C52_with_prior_partial (argsort : List (Ext K) → List Nat) (harg : IsArgsort Ext.sortLe argsort) (E : FitEnv K)
    (A : ArchEnv K) (hA : E.arch = some A) (hp : A.priorSigma ≠ none) (hget : ∀ tr z p, ∃ v, A.getBest tr z p = .ok v)
    (hnz : 1 ≤ E.nz) (hscan : ∀ zz, ∃ v, E.scan zz = .ok v ∧ v.length = zz.length) (hmin : ∀ x y, ∃ v, E.minfit x y = .ok v)
    (redshifts : List K) (hred : 2 ≤ redshifts.length)
    (hfit : ∀ z, (∃ v, E.fitAt z = .ok v) ∨ (E.fitAt z = .error .valueError ∧
      ((∃ z0, redshifts.head? = some z0 ∧ z < z0) ∨ (∃ zn, redshifts.getLast? = some zn ∧ zn < z))))
    (nminima : Nat) (hpos : 0 < nminima) (zchi2 : List (Ext K)) (hlen : zchi2.length = redshifts.length) (hnan : Ext.nan ∉ zchi2) :
    ∃ r, fitz argsort E nminima zchi2 redshifts = .ok r ∧ r ≠ [] := by
  obtain ⟨r, h1, h2⟩ := fitz_total argsort harg E hnz hscan hmin redshifts hred hfit
    (fun A' hA' => by rw [hA] at hA'; cases hA'; exact ⟨hp, hget⟩) nminima zchi2 hlen
  exact ⟨r, h1, h2 hpos hnan⟩

/-- **C51** `split_archetype_coeff`: a vector of `narch + nbands*nleg` coefficients is split without loss: the archetype part has one entry per
`;`-separated subtype, there are `nbands` blocks of `nleg`, and the concatenation is the original vector. -/
theorem C51_split_lossless (subtype : List Char) (coeff : List K) (nbands nleg : Nat)
    (hlen : coeff.length = (subtype.splitOn ';').length + nbands * nleg) :
    (splitArchetypeCoeff subtype coeff nbands nleg).1.length = (subtype.splitOn ';').length ∧
    (splitArchetypeCoeff subtype coeff nbands nleg).2.length = nbands ∧
    (∀ b ∈ (splitArchetypeCoeff subtype coeff nbands nleg).2, b.length = nleg) ∧
    (splitArchetypeCoeff subtype coeff nbands nleg).1 ++ (splitArchetypeCoeff subtype coeff nbands nleg).2.flatten = coeff := by
  unfold splitArchetypeCoeff
  dsimp only
  generalize (subtype.splitOn ';').length = n at *
  have hd : (coeff.drop n).length = nbands * nleg := by simp [hlen]
  refine ⟨by simp [hlen], by simp, ?_, ?_⟩
  · intro b hb
    rw [List.mem_map] at hb
    obtain ⟨i, hi, rfl⟩ := hb
    rw [List.mem_range] at hi
    have : (i + 1) * nleg ≤ nbands * nleg := Nat.mul_le_mul_right _ hi
    rw [List.length_drop, List.length_take, hd, Nat.min_eq_left this, Nat.add_mul]
    omega
  · have hflat : ∀ (m : Nat) (l : List K), l.length = m * nleg →
        ((List.range m).map (fun i => (l.take ((i + 1) * nleg)).drop (i * nleg))).flatten = l := by
      intro m
      induction m with
      | zero => intro l hl; simp at hl; simp [hl]
      | succ m ih =>
        intro l hl
        rw [List.range_succ, List.map_append, List.flatten_append]
        have h1 : ((List.range m).map (fun i => (l.take ((i + 1) * nleg)).drop (i * nleg))) =
            ((List.range m).map (fun i => ((l.take (m * nleg)).take ((i + 1) * nleg)).drop (i * nleg))) := by
          apply List.map_congr_left
          intro i hi
          rw [List.mem_range] at hi
          have : (i + 1) * nleg ≤ m * nleg := Nat.mul_le_mul_right _ hi
          rw [List.take_take, Nat.min_eq_left this]
        rw [h1, ih (l.take (m * nleg)) (by rw [List.length_take, hl]; exact Nat.min_eq_left (Nat.mul_le_mul_right _ (by omega)))]
        simp only [List.map_cons, List.map_nil, List.flatten_cons, List.flatten_nil, List.append_nil]
        rw [← hl, List.take_length]
        exact List.take_append_drop _ _
    rw [hflat nbands _ hd]
    exact List.take_append_drop _ _

end

/-! ### concrete cases -/

/-- an exact parabola through three points: a lawful `polyfit` for three different points -/
def exactPolyfit {K : Type} [Field K] [LinearOrder K] (x y : List K) : Py (K × K × K) :=
  match x, y with
  | [x1, x2, x3], [y1, y2, y3] =>
    if x1 = x2 ∨ x1 = x3 ∨ x2 = x3 then .error .linAlgError
    else
      let a := ((y3 - y2) / (x3 - x2) - (y2 - y1) / (x2 - x1)) / (x3 - x1)
      let b := (y2 - y1) / (x2 - x1) - a * (x1 + x2)
      .ok (a, b, y1 - a * x1 ^ 2 - b * x1)
  | _, _ => .error .linAlgError

private theorem exactPolyfit_isPolyfit {K : Type} [Field K] [LinearOrder K] [IsStrictOrderedRing K] :
    IsPolyfit (exactPolyfit (K := K)) := by
  intro x y a b c h a' b' c'
  have h0 : sqResid a b c x y = 0 := by
    unfold exactPolyfit at h
    split at h
    · rename_i x1 x2 x3 y1 y2 y3
      split at h
      · cases h
      · rename_i hne
        rw [not_or, not_or] at hne
        obtain ⟨h12, h13, h23⟩ := hne
        have d12 : x2 - x1 ≠ 0 := sub_ne_zero.2 (Ne.symm h12)
        have d13 : x3 - x1 ≠ 0 := sub_ne_zero.2 (Ne.symm h13)
        have d23 : x3 - x2 ≠ 0 := sub_ne_zero.2 (Ne.symm h23)
        simp only [Except.ok.injEq, Prod.mk.injEq] at h
        obtain ⟨rfl, rfl, rfl⟩ := h
        have e2 : y2 - (((y3 - y2) / (x3 - x2) - (y2 - y1) / (x2 - x1)) / (x3 - x1) * x2 ^ 2 + ((y2 - y1) / (x2 - x1) - ((y3 - y2) / (x3 - x2) - (y2 - y1) / (x2 - x1)) / (x3 - x1) * (x1 + x2)) * x2 + (y1 - ((y3 - y2) / (x3 - x2) - (y2 - y1) / (x2 - x1)) / (x3 - x1) * x1 ^ 2 - ((y2 - y1) / (x2 - x1) - ((y3 - y2) / (x3 - x2) - (y2 - y1) / (x2 - x1)) / (x3 - x1) * (x1 + x2)) * x1)) = 0 := by
          field_simp; ring
        have e3 : y3 - (((y3 - y2) / (x3 - x2) - (y2 - y1) / (x2 - x1)) / (x3 - x1) * x3 ^ 2 + ((y2 - y1) / (x2 - x1) - ((y3 - y2) / (x3 - x2) - (y2 - y1) / (x2 - x1)) / (x3 - x1) * (x1 + x2)) * x3 + (y1 - ((y3 - y2) / (x3 - x2) - (y2 - y1) / (x2 - x1)) / (x3 - x1) * x1 ^ 2 - ((y2 - y1) / (x2 - x1) - ((y3 - y2) / (x3 - x2) - (y2 - y1) / (x2 - x1)) / (x3 - x1) * (x1 + x2)) * x1)) = 0 := by
          field_simp; ring
        unfold sqResid
        simp only [List.zip_cons_cons, List.zip_nil_right, List.map_cons, List.map_nil, List.sum_cons, List.sum_nil, e2, e3]
        ring
    · cases h
  rw [h0]
  exact sqResid_nonneg _ _ _ _ _

private theorem realSqrt_isSqrt : IsSqrt Real.sqrt :=
  ⟨fun _ h => Real.sqrt_pos.2 h, fun _ h => Real.sqrt_mul_self h⟩

/-- C17 has instances: `y = 5 + ((x-1/4)/2)²` at -1, 0, 1 -/
example : minfit Real.sqrt exactPolyfit [-1, 0, 1] ([-1, 0, 1].map (fun v => 5 + ((v - 1/4) / 2) ^ 2)) = .ok (1/4, 2, 5, 0) :=
  C17_minfit_exact Real.sqrt realSqrt_isSqrt exactPolyfit exactPolyfit_isPolyfit (1/4) 2 5 (by norm_num) (by norm_num)
    [-1, 0, 1] (-1) 0 1 (by simp) (by simp) (by simp) (by norm_num) (by norm_num) (by norm_num) (by norm_num)
    ⟨_, by unfold exactPolyfit; simp only [List.map_cons, List.map_nil]; rw [if_neg (by norm_num)]⟩

/-- C18: the hypotheses on three points are met -/
example : ∃ x0 xerr y0 zw, minfit Real.sqrt exactPolyfit [0, 1, 2] [5, 3, 4] = .ok (x0, xerr, y0, zw) ∧
      ((0 : ℝ) + 1) / 2 ≤ x0 ∧ x0 ≤ (1 + 2) / 2 ∧ y0 ≤ 3 ∧ (zw = ZW.BAD_MINFIT ↔ y0 ≤ 0) ∧ (zw = 0 ↔ 0 < y0) :=
  C18_discrete_minimum Real.sqrt exactPolyfit exactPolyfit_isPolyfit 0 1 2 5 3 4 (by norm_num) (by norm_num) (by norm_num) (by norm_num)
    (Or.inl (by norm_num)) ⟨_, by unfold exactPolyfit; simp only; rw [if_neg (by norm_num)]⟩

/-- a small fit over ℚ: chi2(z) = 4 + (z-1/2)² (so `a = 1` and `sqrt 1 = 1`), coefficients `[z]`; the template covers z ≤ 2 -/
def demoEnv (arch : Option (ArchEnv ℚ)) : FitEnv ℚ where
  nbasis := 1
  isStar := false
  nz := 5
  minfit := minfit (fun _ => 1) exactPolyfit
  scan := fun zz => .ok (zz.map (fun z => 4 + (z - 1/2) ^ 2))
  fitAt := fun z => .ok [z]
  arch := arch

/-- C15, C16, C58 are about a reachable case -/
example : fitz (stableArgsort Ext.sortLe) (demoEnv none) 3 ([17/4, 4, 25/4].map .fin) [0, 1/2, 2] = .ok
    [⟨1/2, 1, 0, 4, [1/2], []⟩] := by decide +kernel

/-- **C58** the restriction to candidates without `BAD_MINFIT` is needed: with the scan minimum at the lower end of the grid and the parabola's vertex outside
it, the reported redshift is the grid point but the reported coefficients are those of the vertex. -/
theorem C58_flagged_candidate_mismatch :
    ∃ (E : FitEnv ℚ) (c : Cand ℚ), fitz (stableArgsort Ext.sortLe) E 3 ([4, 17/4, 25/4].map .fin) [1, 2, 3] = .ok [c] ∧
      E.fitAt c.z = .ok [1] ∧ c.coeff = [1/2] ∧ c.zwarn &&& ZW.BAD_MINFIT ≠ 0 := by
  refine ⟨demoEnv none, ⟨1, 1, ZW.BAD_MINFIT ||| ZW.Z_FITLIMIT, 17/4, [1/2], []⟩, ?_, ?_, ?_, ?_⟩
  · decide +kernel
  · decide +kernel
  · decide +kernel
  · decide

/-- C52: the raising case really occurs -/
example : fitz (stableArgsort Ext.sortLe)
    (demoEnv (some ⟨fun _ z _ => .ok (z, [1, 2, 3], ['A']), false, 3, none, none, 2⟩)) 3 ([17/4, 4, 25/4].map .fin) [0, 1/2, 2]
    = .error .unboundLocal := by decide +kernel

/-- and with a prior the same call returns -/
example : fitz (stableArgsort Ext.sortLe)
    (demoEnv (some ⟨fun _ z _ => .ok (z, [1, 2, 3], ['A']), false, 3, none, some 1, 2⟩)) 3 ([17/4, 4, 25/4].map .fin) [0, 1/2, 2]
    = .ok [⟨1/2, 1, 0, 1/2, [1], [[2, 3]]⟩] := by decide +kernel

/-- C51 -/
example : splitArchetypeCoeff ['A', ';', 'B'] [1, 2, 3, 4, 5, 6, (7 : ℚ), 8] 3 2 = ([1, 2], [[3, 4], [5, 6], [7, 8]]) := by
  decide +kernel

end Redrock
