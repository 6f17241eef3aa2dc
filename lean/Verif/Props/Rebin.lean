import Verif.Lemmas.Rebin

/-! Properties C32, C33, C34, C36, C61. -/
set_option linter.unusedSectionVars false
open MeasureTheory intervalIntegral

namespace Redrock

section
variable {K : Type} [Field K] [LinearOrder K] [IsStrictOrderedRing K]

private theorem midpoints_length (c : List K) : (midpoints c).length = c.length - 1 := by
  induction c with
  | nil => rfl
  | cons a t ih => cases t with
    | nil => rfl
    | cons b t => simp only [midpoints, List.length_cons] at ih ⊢; omega

private theorem midpoints_get (c : List K) (i : Nat) (a b : K) (ha : c[i]? = some a) (hb : c[i + 1]? = some b) :
    (midpoints c)[i]? = some ((a + b) / 2) := by
  induction c generalizing i with
  | nil => simp at ha
  | cons u t ih => cases t with
    | nil => simp at hb
    | cons v t =>
      cases i with
      | zero => simp_all [midpoints]
      | succ i => rw [midpoints, List.getElem?_cons_succ]; exact ih i (by simpa using ha) (by simpa using hb)

/-- **C32** bin edges from at least two strictly increasing centers: one more edge than centers, strictly increasing, each center strictly between its two edges, interior
edges half-way between neighbouring centers, outer edges mirror images of their inner neighbours. -/
theorem C32_centers2edges (c : List K) (h2 : 2 ≤ c.length) (hc : c.Pairwise (· < ·)) :
    ∃ e, centers2edges c = .ok e ∧ e.length = c.length + 1 ∧ e.Pairwise (· < ·) ∧
      (∀ i v, c[i]? = some v → ∃ lo hi, e[i]? = some lo ∧ e[i + 1]? = some hi ∧ lo < v ∧ v < hi) ∧
      (∀ i a b, c[i]? = some a → c[i + 1]? = some b → e[i + 1]? = some ((a + b) / 2)) ∧
      (∀ a b, c[0]? = some a → e[1]? = some b → e[0]? = some (2 * a - b)) ∧
      (∀ a b, c[c.length - 1]? = some a → e[c.length - 1]? = some b → e[c.length]? = some (2 * a - b)) := by
  have hml := midpoints_length c
  have hget : ∀ i (h : i < c.length), c[i]? = some c[i] := fun i h => List.getElem?_eq_getElem h
  have hmid : ∀ i (h : i + 1 < c.length), (midpoints c)[i]? = some ((c[i] + c[i+1]) / 2) :=
    fun i h => midpoints_get c i _ _ (hget i (by omega)) (hget (i + 1) h)
  have hlt : ∀ i j (hj : j < c.length) (hij : i < j), c[i] < c[j] := fun i j hj hij => List.pairwise_iff_getElem.1 hc i j (by omega) hj hij
  have hl2 : c.length - 2 + 1 = c.length - 1 := by omega
  have hml2 : (midpoints c)[c.length - 2]? = some ((c[c.length - 2] + c[c.length - 1]) / 2) := by
    have := hmid (c.length - 2) (by omega)
    simpa only [hl2] using this
  have hE : centers2edges c = .ok ((c[0] - (c[1] - (c[0] + c[1]) / 2)) :: (midpoints c ++
      [c[c.length - 1] + (c[c.length - 1] - (c[c.length - 2] + c[c.length - 1]) / 2)])) := by
    unfold centers2edges
    dsimp only
    rw [(npGet_ok c 0 _).2 (hget 0 (by omega)), (npGet_ok c 1 _).2 (hget 1 (by omega)), (npGet_ok _ 0 _).2 (hmid 0 (by omega)),
      (npGetNeg_ok c 1 _).2 ⟨by omega, hget (c.length - 1) (by omega)⟩,
      (npGetNeg_ok (midpoints c) 1 ((c[c.length - 2] + c[c.length - 1]) / 2)).2 ⟨by omega, by rw [hml, Nat.sub_sub]; exact hml2⟩]
    rfl
  generalize he : (c[0] - (c[1] - (c[0] + c[1]) / 2)) :: (midpoints c ++
      [c[c.length - 1] + (c[c.length - 1] - (c[c.length - 2] + c[c.length - 1]) / 2)]) = e at hE
  have e0 : e[0]? = some (c[0] - (c[1] - (c[0] + c[1]) / 2)) := by rw [← he]; rfl
  have emid : ∀ i (h : i + 1 < c.length), e[i + 1]? = some ((c[i] + c[i+1]) / 2) := by
    intro i h
    rw [← he, List.getElem?_cons_succ, List.getElem?_append_left (by rw [hml]; omega)]
    exact hmid i h
  have elast : e[c.length]? = some (c[c.length - 1] + (c[c.length - 1] - (c[c.length - 2] + c[c.length - 1]) / 2)) := by
    have key : ∀ (a v : K) (n : Nat), n + 1 = c.length → (a :: (midpoints c ++ [v]))[n + 1]? = some v := by
      intro a v n hn
      rw [List.getElem?_cons_succ, List.getElem?_append_right (by rw [hml]; omega), hml, show n - (c.length - 1) = 0 by omega]
      rfl
    rw [← he]
    have := key (c[0] - (c[1] - (c[0] + c[1]) / 2)) (c[c.length - 1] + (c[c.length - 1] - (c[c.length - 2] + c[c.length - 1]) / 2)) (c.length - 1) (by omega)
    rwa [show c.length - 1 + 1 = c.length by omega] at this
  have hel : e.length = c.length + 1 := by rw [← he]; simp [hml]; omega
  have hbin : ∀ i (h : i < c.length), ∃ lo hi, e[i]? = some lo ∧ e[i + 1]? = some hi ∧ lo < c[i] ∧ c[i] < hi := by
    intro i h
    have hlo : ∃ lo, e[i]? = some lo ∧ lo < c[i] := by
      cases i with
      | zero =>
        refine ⟨_, e0, ?_⟩
        have := hlt 0 1 (by omega) (by omega)
        linarith
      | succ i =>
        refine ⟨_, emid i h, ?_⟩
        have := hlt i (i + 1) h (by omega)
        linarith
    have hhi : ∃ hi, e[i + 1]? = some hi ∧ c[i] < hi := by
      by_cases hi : i + 1 < c.length
      · refine ⟨_, emid i hi, ?_⟩
        have := hlt i (i + 1) hi (by omega)
        linarith
      · have hil : i + 1 = c.length := by omega
        refine ⟨_, by rw [hil]; exact elast, ?_⟩
        have hi' : i = c.length - 1 := by omega
        subst hi'
        have := hlt (c.length - 2) (c.length - 1) (by omega) (by omega)
        linarith
    obtain ⟨lo, h1, h3⟩ := hlo
    obtain ⟨hi, h4, h5⟩ := hhi
    exact ⟨lo, hi, h1, h4, h3, h5⟩
  refine ⟨e, hE, hel, ?_, ?_, ?_, ?_, ?_⟩
  · have : List.IsChain (· < ·) e := by
      rw [List.isChain_iff_getElem]
      intro i hi
      obtain ⟨lo, hi', h1, h3, h4, h5⟩ := hbin i (by omega)
      obtain ⟨_, rfl⟩ := List.getElem?_eq_some_iff.1 h1
      obtain ⟨_, rfl⟩ := List.getElem?_eq_some_iff.1 h3
      exact h4.trans h5
    exact this.pairwise
  · intro i v hv
    obtain ⟨h, rfl⟩ := List.getElem?_eq_some_iff.1 hv
    exact hbin i h
  · intro i a b ha hb
    obtain ⟨h, rfl⟩ := List.getElem?_eq_some_iff.1 ha
    obtain ⟨h', rfl⟩ := List.getElem?_eq_some_iff.1 hb
    exact emid i h'
  · intro a b ha hb
    rw [hget 0 (by omega), Option.some.injEq] at ha
    rw [emid 0 (by omega), Option.some.injEq] at hb
    rw [e0, ← ha, ← hb]
    congr 1
    simp only [Nat.zero_add]
    ring
  · intro a b ha hb
    rw [hget (c.length - 1) (by omega), Option.some.injEq] at ha
    have hb' := emid (c.length - 2) (by omega)
    simp only [hl2] at hb'
    rw [hb', Option.some.injEq] at hb
    rw [elast, ← ha, ← hb]
    congr 1
    ring

end

/-! ### exact integration -/

section
variable {x y edges : List ℝ}

/-- Specification: every edge lies within the sampled range. -/
def InRange (x edges : List ℝ) : Prop :=
  ∀ e ∈ edges, ∀ x0 xl, x[0]? = some x0 → x[x.length - 1]? = some xl → x0 ≤ e ∧ e ≤ xl

private theorem inRange_iff (hne : x ≠ []) (hr : InRange x edges) :
    ∀ e ∈ edges, (∃ m, m < x.length ∧ x.getD m 0 ≤ e) ∧ ∃ m, m < x.length ∧ e ≤ x.getD m 0 := by
  intro e he
  have hl : 0 < x.length := List.length_pos_of_ne_nil hne
  obtain ⟨h1, h2⟩ := hr e he x[0] x[x.length - 1] (List.getElem?_eq_getElem hl) (List.getElem?_eq_getElem (by omega))
  exact ⟨⟨0, hl, by simpa [hl] using h1⟩, ⟨x.length - 1, by omega, by simpa [show x.length - 1 < x.length by omega] using h2⟩⟩

/-- **C33** for strictly increasing samples and edges within the sampled range, `_trapz_rebin_1d` reads nothing out of bounds, returns one number per bin, and each number times
the bin width is the integral over the bin of the piecewise linear interpolant of the samples. -/
theorem C33_trapz_rebin_exact (hne : x ≠ []) (hlen : x.length ≤ y.length) (hx : x.Pairwise (· < ·)) (he : edges.Pairwise (· < ·))
    (hr : InRange x edges) (f : ℝ → ℝ) (hf : IsInterpolant f x y) :
    ∃ r, trapzRebin1d x y edges = .ok r ∧ r.length = edges.length - 1 ∧
      ∀ (i : Nat) (lo hi : ℝ), edges[i]? = some lo → edges[i + 1]? = some hi →
        IntervalIntegrable f volume lo hi ∧ ∃ v, r[i]? = some v ∧ v * (hi - lo) = ∫ t in lo..hi, f t :=
  rebinLoop_spec hx hlen hf edges 0 he (inRange_iff hne hr) (fun _ _ k hk => absurd hk (Nat.not_lt_zero k))

/-- neighbouring edges -/
theorem edge_lt (he : edges.Pairwise (· < ·)) {i : Nat} {lo hi : ℝ} (h1 : edges[i]? = some lo) (h2 : edges[i + 1]? = some hi) : lo < hi := by
  obtain ⟨h1', rfl⟩ := List.getElem?_eq_some_iff.1 h1
  obtain ⟨h2', rfl⟩ := List.getElem?_eq_some_iff.1 h2
  exact List.pairwise_iff_getElem.1 he i (i + 1) h1' h2' (by omega)

/-- **C34** bounds: if all sample values lie in `[m, M]`, so do all bin values. In particular a constant is preserved (`m = M`) and non-negative flux stays non-negative. -/
theorem C34_bounds (hne : x ≠ []) (hlen : x.length ≤ y.length) (hx : x.Pairwise (· < ·)) (he : edges.Pairwise (· < ·))
    (hr : InRange x edges) (m M : ℝ) (hy : ∀ v ∈ y, m ≤ v ∧ v ≤ M) :
    ∃ r, trapzRebin1d x y edges = .ok r ∧ r.length = edges.length - 1 ∧ ∀ v ∈ r, m ≤ v ∧ v ≤ M := by
  obtain ⟨r, h1, h2, h3⟩ := C33_trapz_rebin_exact hne hlen hx he hr (lerp x y) (lerp_isInterpolant x y hx)
  refine ⟨r, h1, h2, ?_⟩
  intro v hv
  obtain ⟨i, hi⟩ := List.mem_iff_getElem?.1 hv
  have hil : i < edges.length - 1 := by rw [← h2]; exact (List.getElem?_eq_some_iff.1 hi).1
  have ha := List.getElem?_eq_getElem (show i < edges.length by omega)
  have hb := List.getElem?_eq_getElem (show i + 1 < edges.length by omega)
  obtain ⟨g1, w, g2, g3⟩ := h3 i _ _ ha hb
  rw [hi, Option.some.injEq] at g2
  subst g2
  have hlh := edge_lt he ha hb
  -- the interpolant is within the bounds on the sampled range
  have hbnd : ∀ t ∈ Set.Icc edges[i] edges[i + 1], m ≤ lerp x y t ∧ lerp x y t ≤ M := by
    intro t ht
    obtain ⟨m0, hm0, h0⟩ := (inRange_iff hne hr edges[i] (List.getElem_mem _)).1
    obtain ⟨m1, hm1, h4⟩ := (inRange_iff hne hr edges[i + 1] (List.getElem_mem _)).2
    have hex : ∃ k, k < x.length ∧ t ≤ x.getD k 0 := ⟨m1, hm1, ht.2.trans h4⟩
    classical
    obtain ⟨hk, hkt⟩ := Nat.find_spec hex
    have hmin : ∀ k, k < Nat.find hex → x.getD k 0 < t := by
      intro k hk
      by_contra h
      exact Nat.find_min hex hk ⟨by omega, not_lt.1 h⟩
    generalize Nat.find hex = k at hk hkt hmin
    have hyk : ∀ k, k < x.length → m ≤ y.getD k 0 ∧ y.getD k 0 ≤ M := by
      intro k hk
      have hky : k < y.length := by omega
      have := hy y[k] (List.getElem_mem hky)
      simpa [hky] using this
    have comb : ∀ k, k + 1 < x.length → x.getD k 0 ≤ t → t ≤ x.getD (k + 1) 0 → m ≤ lerp x y t ∧ lerp x y t ≤ M := by
      intro k hk1 hlo hhi
      rw [interp_line hlen (lerp_isInterpolant x y hx) hk1 hlo hhi]
      have hpos : 0 < x.getD (k + 1) 0 - x.getD k 0 := sub_pos.2 (getD_lt hx (Nat.lt_succ_self k) hk1)
      obtain ⟨a1, a2⟩ := hyk k (by omega)
      obtain ⟨b1, b2⟩ := hyk (k + 1) hk1
      have hs0 : 0 ≤ (t - x.getD k 0) / (x.getD (k + 1) 0 - x.getD k 0) := div_nonneg (by linarith) hpos.le
      have hs1 : (t - x.getD k 0) / (x.getD (k + 1) 0 - x.getD k 0) ≤ 1 := (div_le_one hpos).2 (by linarith)
      have hl : line x y k t = (1 - (t - x.getD k 0) / (x.getD (k + 1) 0 - x.getD k 0)) * y.getD k 0 +
          (t - x.getD k 0) / (x.getD (k + 1) 0 - x.getD k 0) * y.getD (k + 1) 0 := by
        unfold line; ring
      rw [hl]
      generalize (t - x.getD k 0) / (x.getD (k + 1) 0 - x.getD k 0) = s at hs0 hs1
      constructor <;> nlinarith
    rcases Nat.eq_zero_or_pos k with h | hkpos
    · -- `t` is the first sample
      subst h
      have e1 : t = x.getD 0 0 := le_antisymm hkt ((getD_le hx (Nat.zero_le m0) hm0).trans (h0.trans ht.1))
      have hl1 : 0 + 1 < x.length := by
        by_contra hlt
        have hlen1 : x.length = 1 := by omega
        have : m1 = 0 := by omega
        subst this
        have : m0 = 0 := by omega
        subst this
        linarith [ht.1, ht.2]
      exact comb 0 hl1 e1.ge (e1.le.trans (getD_lt hx (Nat.lt_succ_self 0) hl1).le)
    · obtain ⟨k', rfl⟩ : ∃ k', k = k' + 1 := ⟨k - 1, by omega⟩
      exact comb k' hk (hmin k' (by omega)).le hkt
  have hint : ∫ t in edges[i]..edges[i + 1], m ≤ ∫ t in edges[i]..edges[i + 1], lerp x y t :=
    integral_mono_on hlh.le (by simp) g1 (fun t ht => (hbnd t ht).1)
  have hint2 : ∫ t in edges[i]..edges[i + 1], lerp x y t ≤ ∫ t in edges[i]..edges[i + 1], M :=
    integral_mono_on hlh.le g1 (by simp) (fun t ht => (hbnd t ht).2)
  rw [intervalIntegral.integral_const, smul_eq_mul, ← g3] at hint
  rw [intervalIntegral.integral_const, smul_eq_mul, ← g3] at hint2
  have hw : 0 < edges[i + 1] - edges[i] := sub_pos.2 hlh
  constructor
  · by_contra h
    nlinarith [not_le.1 h]
  · by_contra h
    nlinarith [not_le.1 h]

/-- **C34** constants are preserved exactly. -/
theorem C34_constant (hne : x ≠ []) (hx : x.Pairwise (· < ·)) (he : edges.Pairwise (· < ·)) (hr : InRange x edges) (c : ℝ) :
    trapzRebin1d x (List.replicate x.length c) edges = .ok (List.replicate (edges.length - 1) c) := by
  obtain ⟨r, h1, h2, h3⟩ := C34_bounds (y := List.replicate x.length c) hne (by simp) hx he hr c c (by
    intro v hv; rw [List.eq_of_mem_replicate hv]; exact ⟨le_refl _, le_refl _⟩)
  rw [h1]
  congr 1
  rw [List.eq_replicate_iff]
  exact ⟨h2, fun v hv => le_antisymm (h3 v hv).2 (h3 v hv).1⟩

/-- **C34** linearity in the flux. -/
theorem C34_linear (hne : x ≠ []) (hx : x.Pairwise (· < ·)) (he : edges.Pairwise (· < ·)) (hr : InRange x edges)
    (y' : List ℝ) (hlen : y.length = x.length) (hlen' : y'.length = x.length) (a b : ℝ) :
    ∃ r r', trapzRebin1d x y edges = .ok r ∧ trapzRebin1d x y' edges = .ok r' ∧
      trapzRebin1d x (List.zipWith (fun u v => a * u + b * v) y y') edges = .ok (List.zipWith (fun u v => a * u + b * v) r r') := by
  obtain ⟨r, h1, h2, h3⟩ := C33_trapz_rebin_exact hne hlen.ge hx he hr (lerp x y) (lerp_isInterpolant x y hx)
  obtain ⟨r', h1', h2', h3'⟩ := C33_trapz_rebin_exact hne hlen'.ge hx he hr (lerp x y') (lerp_isInterpolant x y' hx)
  have hcomb : IsInterpolant (fun t => a * lerp x y t + b * lerp x y' t) x (List.zipWith (fun u v => a * u + b * v) y y') := by
    intro k xa xb ya yb k1 k2 k3 k4 t t1 t2
    have hkl : k + 1 < x.length := (List.getElem?_eq_some_iff.1 k2).1
    have e1 := lerp_isInterpolant x y hx k xa xb _ _ k1 k2 (List.getElem?_eq_getElem (by omega : k < y.length)) (List.getElem?_eq_getElem (by omega : k + 1 < y.length)) t t1 t2
    have e2 := lerp_isInterpolant x y' hx k xa xb _ _ k1 k2 (List.getElem?_eq_getElem (by omega : k < y'.length)) (List.getElem?_eq_getElem (by omega : k + 1 < y'.length)) t t1 t2
    rw [List.getElem?_zipWith, List.getElem?_eq_getElem (by omega : k < y.length), List.getElem?_eq_getElem (by omega : k < y'.length)] at k3
    rw [List.getElem?_zipWith, List.getElem?_eq_getElem (by omega : k + 1 < y.length), List.getElem?_eq_getElem (by omega : k + 1 < y'.length)] at k4
    simp only [Option.some.injEq] at k3 k4
    show a * lerp x y t + b * lerp x y' t = _
    rw [e1, e2, ← k3, ← k4]
    ring
  obtain ⟨R, H1, H2, H3⟩ := C33_trapz_rebin_exact (y := List.zipWith (fun u v => a * u + b * v) y y') hne (by simp [hlen, hlen']) hx he hr _ hcomb
  refine ⟨r, r', h1, h1', ?_⟩
  rw [H1]
  congr 1
  apply List.ext_getElem?
  intro i
  by_cases hi : i < edges.length - 1
  · have ha := List.getElem?_eq_getElem (show i < edges.length by omega)
    have hb := List.getElem?_eq_getElem (show i + 1 < edges.length by omega)
    obtain ⟨g1, v, g2, g3⟩ := h3 i _ _ ha hb
    obtain ⟨g1', v', g2', g3'⟩ := h3' i _ _ ha hb
    obtain ⟨G1, V, G2, G3⟩ := H3 i _ _ ha hb
    rw [List.getElem?_zipWith, g2, g2', G2]
    simp only [Option.some.injEq]
    have hlh := edge_lt he ha hb
    have hne0 : edges[i + 1] - edges[i] ≠ 0 := by linarith
    apply mul_right_cancel₀ hne0
    rw [G3, intervalIntegral.integral_add (g1.const_mul a) (g1'.const_mul b), intervalIntegral.integral_const_mul, intervalIntegral.integral_const_mul, ← g3, ← g3']
    ring
  · rw [List.getElem?_eq_none (by omega), List.getElem?_eq_none (by simp; omega)]

/-- **C34** conservation and merging: for any two edges `i ≤ j`, the bin values weighted by the bin widths add up to the integral between the two edges; so a single
bin `[edges[i], edges[j]]` gets the width-weighted mean of the bins it replaces. -/
theorem C34_conservation (hne : x ≠ []) (hlen : x.length ≤ y.length) (hx : x.Pairwise (· < ·)) (he : edges.Pairwise (· < ·))
    (hr : InRange x edges) (f : ℝ → ℝ) (hf : IsInterpolant f x y) :
    ∃ r, trapzRebin1d x y edges = .ok r ∧ ∀ i j : Nat, i ≤ j → j < edges.length →
      ((List.range (j - i)).map (fun k => r.getD (i + k) 0 * (edges.getD (i + k + 1) 0 - edges.getD (i + k) 0))).sum =
        ∫ t in (edges.getD i 0)..(edges.getD j 0), f t := by
  obtain ⟨r, h1, h2, h3⟩ := C33_trapz_rebin_exact hne hlen hx he hr f hf
  refine ⟨r, h1, ?_⟩
  intro i j hij hj
  obtain ⟨d, rfl⟩ : ∃ d, j = i + d := ⟨j - i, by omega⟩
  rw [Nat.add_sub_cancel_left]
  have key : ∀ d, i + d < edges.length → IntervalIntegrable f volume (edges.getD i 0) (edges.getD (i + d) 0) ∧
      ((List.range d).map (fun k => r.getD (i + k) 0 * (edges.getD (i + k + 1) 0 - edges.getD (i + k) 0))).sum =
        ∫ t in (edges.getD i 0)..(edges.getD (i + d) 0), f t := by
    intro d
    induction d with
    | zero => intro _; simp
    | succ d ih =>
      intro hd
      obtain ⟨k1, k2⟩ := ih (by omega)
      obtain ⟨g1, v, g2, g3⟩ := h3 (i + d) _ _ (List.getElem?_eq_getElem (by omega)) (List.getElem?_eq_getElem hd)
      have e1 : edges.getD (i + d) 0 = edges[i + d] := by simp [show i + d < edges.length by omega]
      have e2 : edges.getD (i + (d + 1)) 0 = edges[i + (d + 1)] := by simp [show i + (d + 1) < edges.length by omega]
      have e3 : r.getD (i + d) 0 = v := by simp [g2]
      rw [← e1, ← e2] at g1 g3
      refine ⟨k1.trans g1, ?_⟩
      rw [List.range_succ, List.map_append, List.sum_append, k2, List.map_singleton, List.sum_singleton, e3, Nat.add_assoc i d 1, g3,
        integral_add_adjacent_intervals k1 g1]
  exact (key d hj).2

/-- **C34** merging bins averages them by width. -/
theorem C34_merge (hne : x ≠ []) (hlen : x.length ≤ y.length) (hx : x.Pairwise (· < ·)) (he : edges.Pairwise (· < ·))
    (hr : InRange x edges) (i j : Nat) (hij : i < j) (hj : j < edges.length) :
    ∃ r v, trapzRebin1d x y edges = .ok r ∧ trapzRebin1d x y [edges.getD i 0, edges.getD j 0] = .ok [v] ∧
      v * (edges.getD j 0 - edges.getD i 0) =
        ((List.range (j - i)).map (fun k => r.getD (i + k) 0 * (edges.getD (i + k + 1) 0 - edges.getD (i + k) 0))).sum := by
  obtain ⟨r, h1, h2⟩ := C34_conservation hne hlen hx he hr (lerp x y) (lerp_isInterpolant x y hx)
  have hi : edges.getD i 0 ∈ edges := by simp [show i < edges.length by omega]
  have hjm : edges.getD j 0 ∈ edges := by simp [hj]
  obtain ⟨r', g1, g2, g3⟩ := C33_trapz_rebin_exact (edges := [edges.getD i 0, edges.getD j 0]) hne hlen hx
    (by simpa using getD_lt he hij hj) (by
      intro e he' x0 xl a b
      rcases List.mem_cons.1 he' with rfl | he'
      · exact hr _ hi _ _ a b
      · rw [List.mem_singleton] at he'; subst he'; exact hr _ hjm _ _ a b) (lerp x y) (lerp_isInterpolant x y hx)
  obtain ⟨_, v, g4, g5⟩ := g3 0 _ _ rfl rfl
  have hr' : r' = [v] := by
    cases r' with
    | nil => simp at g4
    | cons a t =>
      cases t with
      | nil => simpa using g4
      | cons b t => simp at g2
  refine ⟨r, v, h1, by rw [g1, hr'], ?_⟩
  rw [g5, h2 i j hij.le hj]

/-- a `for` loop in which every iteration succeeds -/
theorem mapM_forall₂ {α β : Type} (g : α → Py β) (P : α → β → Prop) (l : List α) (h : ∀ a ∈ l, ∃ b, g a = .ok b ∧ P a b) :
    ∃ r, l.mapM g = .ok r ∧ List.Forall₂ P l r := by
  induction l with
  | nil => exact ⟨[], rfl, .nil⟩
  | cons a l ih =>
    obtain ⟨b, h1, h2⟩ := h a (by simp)
    obtain ⟨r, h3, h4⟩ := ih (fun b hb => h b (List.mem_cons_of_mem _ hb))
    exact ⟨b :: r, by rw [List.mapM_cons, h1, h3]; rfl, .cons h2 h4⟩

/-- Specification: `r` is the rebinned spectrum of the samples `(x, y)`: one value per bin, and value times width is the integral of the interpolant. -/
def IsRebinned (x y edges r : List ℝ) : Prop :=
  r.length = edges.length - 1 ∧ ∀ f, IsInterpolant f x y → ∀ (i : Nat) (lo hi : ℝ), edges[i]? = some lo → edges[i + 1]? = some hi →
    ∃ v, r[i]? = some v ∧ v * (hi - lo) = ∫ t in lo..hi, f t

theorem trapzRebin1d_isRebinned (hne : x ≠ []) (hlen : x.length ≤ y.length) (hx : x.Pairwise (· < ·)) (he : edges.Pairwise (· < ·))
    (hr : InRange x edges) : ∃ r, trapzRebin1d x y edges = .ok r ∧ IsRebinned x y edges r := by
  obtain ⟨r, h1, h2, h3⟩ := C33_trapz_rebin_exact hne hlen hx he hr (lerp x y) (lerp_isInterpolant x y hx)
  refine ⟨r, h1, h2, ?_⟩
  intro f hf i lo hi hlo hhi
  obtain ⟨r', h1', h2', h3'⟩ := C33_trapz_rebin_exact hne hlen hx he hr f hf
  rw [h1, Except.ok.injEq] at h1'
  subst h1'
  exact (h3' i lo hi hlo hhi).2

/-- `x * (1 + z)` -/
def redshifted (x : List ℝ) (z : ℝ) : List ℝ := x.map (fun v => v * (1 + z))

theorem redshifted_sorted (hx : x.Pairwise (· < ·)) {z : ℝ} (hz : -1 < z) : (redshifted x z).Pairwise (· < ·) := by
  unfold redshifted
  rw [List.pairwise_map]
  exact hx.imp (fun h => by nlinarith)

/-- **C36** `trapz_rebin` over a batch of redshifts. With non-negative increasing wavelengths and redshifts above -1: if the redshifted samples of some requested redshift do not
cover the output edges, `ValueError` is raised; otherwise the call succeeds and every redshift and every basis gets the exactly rebinned spectrum. (An empty batch gives an empty
result.) -/
theorem C36_trapz_rebin (x : List ℝ) (ys : List (List ℝ)) (edges zs : List ℝ) (hne : x ≠ []) (hene : edges ≠ []) (hx : x.Pairwise (· < ·)) (hx0 : ∀ v ∈ x, 0 ≤ v)
    (hys : ∀ y ∈ ys, x.length ≤ y.length) (he : edges.Pairwise (· < ·)) (hz : ∀ z ∈ zs, -1 < z) :
    ((∃ z ∈ zs, ¬ InRange (redshifted x z) edges) → trapzRebin x ys edges zs = .error .valueError) ∧
    ((∀ z ∈ zs, InRange (redshifted x z) edges) → ∃ r, trapzRebin x ys edges zs = .ok r ∧
      List.Forall₂ (fun z rz => List.Forall₂ (fun y rb => IsRebinned (redshifted x z) y edges rb) ys rz) zs r) := by
  have hxl : 0 < x.length := List.length_pos_of_ne_nil hne
  have hel : 0 < edges.length := List.length_pos_of_ne_nil hene
  have g1 : npGet edges 0 = .ok edges[0] := (npGet_ok _ _ _).2 (List.getElem?_eq_getElem hel)
  have g2 : npGetNeg edges 1 = .ok edges[edges.length - 1] := (npGetNeg_ok _ _ _).2 ⟨hel, List.getElem?_eq_getElem (by omega)⟩
  have g3 : npGet x 0 = .ok x[0] := (npGet_ok _ _ _).2 (List.getElem?_eq_getElem hxl)
  have g4 : npGetNeg x 1 = .ok x[x.length - 1] := (npGetNeg_ok _ _ _).2 ⟨hxl, List.getElem?_eq_getElem (by omega)⟩
  have hrange : ∀ z : ℝ, InRange (redshifted x z) edges ↔ (x[0] * ((1:ℝ) + z) ≤ edges[0] ∧ edges[edges.length - 1] ≤ x[x.length - 1] * ((1:ℝ) + z)) := by
    intro z
    constructor
    · intro h
      refine ⟨(h edges[0] (List.getElem_mem _) (x[0] * (1 + z)) (x[x.length - 1] * (1 + z)) ?_ ?_).1,
        (h edges[edges.length - 1] (List.getElem_mem _) (x[0] * (1 + z)) (x[x.length - 1] * (1 + z)) ?_ ?_).2⟩ <;> simp [redshifted, hxl]
    · rintro ⟨h1, h2⟩ e hem x0 xl a b
      simp only [redshifted, List.getElem?_map, List.length_map, List.getElem?_eq_getElem hxl, List.getElem?_eq_getElem (show x.length - 1 < x.length by omega),
        Option.map_some, Option.some.injEq] at a b
      subst a b
      obtain ⟨k, hk, rfl⟩ := List.mem_iff_getElem.1 hem
      have k1 : edges[0] ≤ edges[k] := by
        rcases Nat.eq_zero_or_pos k with h | h
        · subst h; exact le_refl _
        · exact (List.pairwise_iff_getElem.1 he 0 k hel hk h).le
      have k2 : edges[k] ≤ edges[edges.length - 1] := by
        rcases Nat.lt_or_ge k (edges.length - 1) with h | h
        · exact (List.pairwise_iff_getElem.1 he k (edges.length - 1) hk (by omega) h).le
        · have : k = edges.length - 1 := by omega
          subst this; exact le_refl _
      exact ⟨h1.trans k1, k2.trans h2⟩
  by_cases hzn : zs = []
  · subst hzn
    refine ⟨by simp, fun _ => ⟨[], ?_, .nil⟩⟩
    unfold trapzRebin
    rw [g1, g2, okBind, okBind, if_pos rfl]
    rfl
  · obtain ⟨zmin, hmin⟩ := npMin_ne zs hzn
    obtain ⟨hmin1, hmin2⟩ := npMin_spec zs zmin hmin
    obtain ⟨zmax, hmax⟩ : ∃ m, npMax zs = .ok m := by
      cases zs with
      | nil => exact absurd rfl hzn
      | cons a t => exact ⟨_, rfl⟩
    obtain ⟨hmax1, hmax2⟩ := npMax_spec zs zmax hmax
    have hT : trapzRebin x ys edges zs = if edges[0] < x[0] * ((1:ℝ) + zmax) ∨ x[x.length - 1] * ((1:ℝ) + zmin) < edges[edges.length - 1] then .error .valueError
        else trapzRebinBatch x ys edges zs := by
      unfold trapzRebin
      rw [g1, g2, okBind, okBind, if_neg hzn, hmax, hmin, g3, g4]
      simp only [okBind]
      split <;> rfl
    have p0 : (0:ℝ) ≤ x[0] := hx0 _ (List.getElem_mem _)
    have pl : (0:ℝ) ≤ x[x.length - 1] := hx0 _ (List.getElem_mem _)
    constructor
    · rintro ⟨z, hzm, hbad⟩
      rw [hT, if_pos]
      rw [hrange, not_and_or, not_le, not_le] at hbad
      rcases hbad with h | h
      · exact .inl (h.trans_le (mul_le_mul_of_nonneg_left (by linarith [hmax2 z hzm]) p0))
      · exact .inr (lt_of_le_of_lt (mul_le_mul_of_nonneg_left (by linarith [hmin2 z hzm]) pl) h)
    · intro hall
      have q1 := ((hrange zmax).1 (hall zmax hmax1)).1
      have q2 := ((hrange zmin).1 (hall zmin hmin1)).2
      rw [hT, if_neg (by rw [not_or, not_lt, not_lt]; exact ⟨q1, q2⟩)]
      unfold trapzRebinBatch
      apply mapM_forall₂
      intro z hzm
      unfold trapzRebinZ
      apply mapM_forall₂
      intro y hy
      exact trapzRebin1d_isRebinned (by simpa [redshifted] using hne) (by rw [List.length_map]; exact hys y hy)
        (redshifted_sorted hx (hz z hzm)) he (hall z hzm)

theorem isInterpolant_take (f : ℝ → ℝ) : IsInterpolant f x (y.take x.length) ↔ IsInterpolant f x y := by
  have hk : ∀ (k : Nat) (v : ℝ), x[k + 1]? = some v → (y.take x.length)[k]? = y[k]? ∧ (y.take x.length)[k + 1]? = y[k + 1]? := by
    intro k v h
    have hl : k + 1 < x.length := (List.getElem?_eq_some_iff.1 h).1
    exact ⟨List.getElem?_take_of_lt (by omega), List.getElem?_take_of_lt hl⟩
  constructor
  · intro h k xa xb ya yb h1 h2 h3 h4
    exact h k xa xb ya yb h1 h2 ((hk k _ h2).1.trans h3) ((hk k _ h2).2.trans h4)
  · intro h k xa xb ya yb h1 h2 h3 h4
    exact h k xa xb ya yb h1 h2 ((hk k _ h2).1.symm.trans h3) ((hk k _ h2).2.symm.trans h4)

/-- the specification of rebinning determines the result -/
theorem IsRebinned.unique (hx : x.Pairwise (· < ·)) (he : edges.Pairwise (· < ·)) {r r' : List ℝ} (h : IsRebinned x y edges r) (h' : IsRebinned x y edges r') : r = r' := by
  apply List.ext_getElem?
  intro i
  by_cases hi : i < edges.length - 1
  · have ha := List.getElem?_eq_getElem (show i < edges.length by omega)
    have hb := List.getElem?_eq_getElem (show i + 1 < edges.length by omega)
    obtain ⟨v, g2, g3⟩ := h.2 _ (lerp_isInterpolant x y hx) i _ _ ha hb
    obtain ⟨v', g2', g3'⟩ := h'.2 _ (lerp_isInterpolant x y hx) i _ _ ha hb
    rw [g2, g2', Option.some.injEq]
    have hlh := edge_lt he ha hb
    have hne0 : edges[i + 1] - edges[i] ≠ 0 := by linarith
    exact mul_right_cancel₀ hne0 (g3.trans g3'.symm)
  · rw [List.getElem?_eq_none (by rw [h.1]; omega), List.getElem?_eq_none (by rw [h'.1]; omega)]

theorem mapM_congr' {α β : Type} (g h : α → Py β) (l : List α) (hl : ∀ a ∈ l, g a = h a) : l.mapM g = l.mapM h := by
  induction l with
  | nil => rfl
  | cons a l ih => rw [List.mapM_cons, List.mapM_cons, hl a (by simp), ih (fun b hb => hl b (List.mem_cons_of_mem _ hb))]

theorem mapM_map' {α β γ : Type} (g : β → Py γ) (h : α → β) (l : List α) : (l.map h).mapM g = l.mapM (fun a => g (h a)) := by
  induction l with
  | nil => rfl
  | cons a l ih => rw [List.map_cons, List.mapM_cons, List.mapM_cons, ih]

/-- **C61** (the promised length check is missing) the documentation of `trapz_rebin` says that `ValueError` is raised if `len(x) != len(y)`. The code never looks at the lengths:
flux arrays that are all strictly longer than `x` are silently accepted whenever the wavelengths are in range, the surplus being ignored. -/
theorem C61_length_mismatch_accepted (x : List ℝ) (ys : List (List ℝ)) (edges zs : List ℝ) (hne : x ≠ []) (hene : edges ≠ []) (hx : x.Pairwise (· < ·)) (hx0 : ∀ v ∈ x, 0 ≤ v)
    (hys : ∀ y ∈ ys, x.length < y.length) (he : edges.Pairwise (· < ·)) (hz : ∀ z ∈ zs, -1 < z) (hall : ∀ z ∈ zs, InRange (redshifted x z) edges) :
    ∃ r, trapzRebin x ys edges zs = .ok r ∧ trapzRebin x (ys.map (·.take x.length)) edges zs = .ok r := by
  obtain ⟨r, h1, -⟩ := (C36_trapz_rebin x ys edges zs hne hene hx hx0 (fun y hy => (hys y hy).le) he hz).2 hall
  refine ⟨r, h1, ?_⟩
  rw [← h1]
  have key : trapzRebinBatch x (ys.map (·.take x.length)) edges zs = trapzRebinBatch x ys edges zs := by
    unfold trapzRebinBatch
    apply mapM_congr'
    intro z hzm
    unfold trapzRebinZ
    rw [mapM_map']
    apply mapM_congr'
    intro y hy
    have hl : (redshifted x z).length = x.length := List.length_map _
    have hs := redshifted_sorted hx (hz z hzm)
    have hn : redshifted x z ≠ [] := by simpa [redshifted] using hne
    have hyl := hys y hy
    obtain ⟨r1, e1, f1⟩ := trapzRebin1d_isRebinned (y := y) hn (by omega) hs he (hall z hzm)
    obtain ⟨r2, e2, f2⟩ := trapzRebin1d_isRebinned (y := y.take x.length) hn (by rw [List.length_take]; omega) hs he (hall z hzm)
    have f3 : IsRebinned (redshifted x z) y edges r2 := ⟨f2.1, fun f hf => f2.2 f (by rw [← hl, isInterpolant_take]; exact hf)⟩
    show trapzRebin1d (redshifted x z) _ _ = trapzRebin1d (redshifted x z) _ _
    rw [e1, e2, IsRebinned.unique hs he f1 f3]
  unfold trapzRebin
  rw [key]

/-- … and flux arrays that are too short are read out of bounds. -/
theorem C61_short_flux_out_of_bounds : trapzRebin (K := ℚ) [0, 1, 2] [[1, 1]] [0, 2] [0] = .error .indexError := by decide +kernel

end

/-! ### concrete cases: irregular samples, edges coinciding with samples, several bins inside one sample interval -/

example : centers2edges (K := ℚ) [1, 2, 4] = .ok [1 / 2, 3 / 2, 3, 5] := by decide +kernel

example : trapzRebin1d (K := ℚ) [0, 1, 3, 4] [0, 2, 0, 4] [0, 1 / 2, 1, 2, 3, 4] = .ok [1 / 2, 3 / 2, 3 / 2, 1 / 2, 2] := by decide +kernel

example : InRange [0, 1, 3, 4] [0, 1 / 2, 1, 2, 3, 4] ∧ ([0, 1, 3, 4] : List ℝ).Pairwise (· < ·) ∧ ([0, 1 / 2, 1, 2, 3, 4] : List ℝ).Pairwise (· < ·) := by
  refine ⟨?_, by norm_num, by norm_num⟩
  intro e he x0 xl a b
  simp at a b
  subst a b
  simp at he
  rcases he with rfl | rfl | rfl | rfl | rfl | rfl <;> norm_num

example : trapzRebin (K := ℚ) [1, 2, 3] [[1, 1, 1], [0, 1, 0]] [2, 3, 4] [0, 1 / 2] = .error .valueError := by decide +kernel
example : trapzRebin (K := ℚ) [1, 2, 4] [[1, 1, 1], [0, 2, 0]] [2, 3, 4] [0, 1 / 2] = .ok [[[1, 1], [3 / 2, 1 / 2]], [[1, 1], [4 / 3, 5 / 3]]] := by decide +kernel

end Redrock
