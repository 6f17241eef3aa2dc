import Verif.Props.Rebin

/-! Property C35: the CUDA kernel against the CPU loop. -/
set_option linter.unusedSectionVars false
open MeasureTheory intervalIntegral

namespace Redrock

/-- row-major indexing -/
theorem flatten_get {α : Type} (n : Nat) (ys : List (List α)) (hn : ∀ y ∈ ys, y.length = n) (b : Nat) (y : List α) (hb : ys[b]? = some y) (k : Nat) (hk : k < n) :
    ys.flatten[b * n + k]? = y[k]? := by
  induction ys generalizing b with
  | nil => simp at hb
  | cons a t ih =>
    have ha : a.length = n := hn a (by simp)
    rw [List.flatten_cons]
    cases b with
    | zero =>
      simp only [List.getElem?_cons_zero, Option.some.injEq] at hb
      subst hb
      rw [Nat.zero_mul, Nat.zero_add, List.getElem?_append_left (by omega)]
    | succ b =>
      rw [List.getElem?_append_right (by rw [ha, Nat.add_mul]; omega), ha, show (b + 1) * n + k - n = b * n + k by rw [Nat.add_mul]; omega]
      exact ih (fun y hy => hn y (List.mem_cons_of_mem _ hy)) b (by simpa using hb)

/-- `searchsorted(..., side='right')`: everything before is `≤ v`, the sample at the returned position is above `v`. -/
theorem searchsortedRight_spec (x : List ℝ) (v : ℝ) :
    (∀ k, k < searchsortedRight x v → x.getD k 0 ≤ v) ∧ searchsortedRight x v ≤ x.length ∧ (searchsortedRight x v < x.length → v < x.getD (searchsortedRight x v) 0) := by
  unfold searchsortedRight
  induction x with
  | nil => simp
  | cons a t ih =>
    by_cases h : a ≤ v
    · rw [List.takeWhile_cons_of_pos (by simpa using h)]
      obtain ⟨h1, h2, h3⟩ := ih
      refine ⟨?_, by simpa using h2, ?_⟩
      · intro k hk
        cases k with
        | zero => simpa using h
        | succ k => simpa using h1 k (by simpa using hk)
      · intro hl
        simpa using h3 (by simpa using hl)
    · rw [List.takeWhile_cons_of_neg (by simpa using h)]
      simp
      exact not_le.1 h

section
variable {x y : List ℝ} {f : ℝ → ℝ}

theorem redshifted_getD (z : ℝ) (k : Nat) : (redshifted x z).getD k 0 = x.getD k 0 * (1 + z) := by
  unfold redshifted
  by_cases h : k < x.length
  · simp [h]
  · simp [List.getElem?_eq_none (not_lt.1 h)]

theorem redshifted_length (z : ℝ) : (redshifted x z).length = x.length := List.length_map _

/-- the flat flux array, seen from basis `ibasis` -/
def FlatAt (Y y : List ℝ) (b : Nat) : Prop := ∀ k, k < y.length → npGet Y (k + b) = .ok (y.getD k 0)

theorem gpuInner_spec {z : ℝ} (hz : -1 < z) (hx : x.Pairwise (· < ·)) (hlen : x.length = y.length) (hf : IsInterpolant f (redshifted x z) y) (lo : ℝ)
    (Y : List ℝ) (b : Nat) (hY : FlatAt Y y b) :
    ∀ n j r, j + n < x.length → IntervalIntegrable f volume lo ((redshifted x z).getD j 0) → r = ∫ t in lo..((redshifted x z).getD j 0), f t →
      ∃ r', gpuInner x Y (1 + z) n j (j + b) r = .ok (j + n, j + n + b, r') ∧ IntervalIntegrable f volume lo ((redshifted x z).getD (j + n) 0) ∧
        r' = ∫ t in lo..((redshifted x z).getD (j + n) 0), f t := by
  have hX := redshifted_sorted hx hz
  have hXl := redshifted_length (x := x) z
  intro n
  induction n with
  | zero => intro j r h1 h2 h3; exact ⟨r, rfl, h2, h3⟩
  | succ n ih =>
    intro j r h1 h2 h3
    have hj1 : j + 1 < (redshifted x z).length := by omega
    obtain ⟨i1, i2⟩ := seg_integral (by omega) hf hj1 (le_refl _) (getD_lt hX (Nat.lt_succ_self j) hj1).le (le_refl _)
    obtain ⟨r', e1, e2, e3⟩ := ih (j + 1) (r + 1 / 2 * (y.getD (j + 1) 0 + y.getD j 0) * (x.getD (j + 1) 0 * (1 + z) - x.getD j 0 * (1 + z))) (by omega)
      (h2.trans i1) (by
        rw [← integral_add_adjacent_intervals h2 i1, i2, ← h3, line_left, line_right hX hj1, redshifted_getD, redshifted_getD]; ring)
    rw [gpuInner]
    have hyb : npGetBefore Y (j + b + 1) = .ok (y.getD j 0) := by
      unfold npGetBefore
      rw [if_neg (by omega), Nat.add_sub_cancel]
      exact hY j (by omega)
    rw [npGet_getD x (j + 1) (by omega), npGetBefore_getD x (j + 1) (by omega) (by omega), show j + b + 1 = j + 1 + b by omega, hY (j + 1) (by omega),
      show j + 1 + b = j + b + 1 by omega, hyb]
    simp only [okBind]
    rw [Nat.add_sub_cancel, show j + b + 1 = j + 1 + b by omega, e1, show j + 1 + n = j + (n + 1) by omega]
    exact ⟨r', rfl, by rw [← show j + 1 + n = j + (n + 1) by omega]; exact e2, by rw [← show j + 1 + n = j + (n + 1) by omega]; exact e3⟩

theorem gpuThread_spec {z : ℝ} (hz : -1 < z) (hx : x.Pairwise (· < ·)) (hlen : x.length = y.length) (hf : IsInterpolant f (redshifted x z) y) (lo hi : ℝ) (hlh : lo < hi)
    (h0 : ∃ m, m < x.length ∧ (redshifted x z).getD m 0 ≤ lo) (h1 : ∃ m, m < x.length ∧ hi < (redshifted x z).getD m 0)
    (Y edges zs : List ℝ) (idx : List Nat) (nbin nbasis i : Nat)
    (hY : FlatAt Y y (i % nbasis * x.length)) (hzs : npGet zs (i / (nbasis * nbin)) = .ok z)
    (hi0 : npGet idx (i / nbasis + i / (nbasis * nbin)) = .ok (searchsortedRight x (lo / (1 + z))))
    (hi1 : npGet idx (i / nbasis + i / (nbasis * nbin) + 1) = .ok (searchsortedRight x (hi / (1 + z))))
    (he0 : npGet edges (i % (nbasis * nbin) / nbasis) = .ok lo) (he1 : npGet edges (i % (nbasis * nbin) / nbasis + 1) = .ok hi) :
    gpuThread x Y edges zs idx nbin nbasis x.length i = .ok ((∫ t in lo..hi, f t) / (hi - lo)) := by
  have hz1 : 0 < 1 + z := by linarith
  have hX := redshifted_sorted hx hz
  have hXl := redshifted_length (x := x) z
  obtain ⟨m0, hm0, hm0lo⟩ := h0
  obtain ⟨m1, hm1, hm1hi⟩ := h1
  -- positions of the edges among the samples
  have pos : ∀ e, lo ≤ e → e ≤ hi → ∃ k, searchsortedRight x (e / (1 + z)) = k + 1 ∧ k + 1 < x.length ∧ (redshifted x z).getD k 0 ≤ e ∧ e < (redshifted x z).getD (k + 1) 0 := by
    intro e hle heh
    obtain ⟨s1, s2, s3⟩ := searchsortedRight_spec x (e / (1 + z))
    generalize searchsortedRight x (e / (1 + z)) = m at s1 s2 s3
    have hml : m < x.length := by
      by_contra h
      have := s1 m1 (by omega)
      rw [redshifted_getD] at hm1hi
      rw [le_div_iff₀ hz1] at this
      linarith
    have hmp : m ≠ 0 := by
      intro h
      have h3 := s3 hml
      rw [h, div_lt_iff₀ hz1] at h3
      have := getD_le hX (Nat.zero_le m0) (by omega)
      rw [redshifted_getD] at this
      linarith
    obtain ⟨k, rfl⟩ : ∃ k, m = k + 1 := ⟨m - 1, by omega⟩
    refine ⟨k, rfl, hml, ?_, ?_⟩
    · rw [redshifted_getD, ← le_div_iff₀ hz1]; exact s1 k (by omega)
    · rw [redshifted_getD, ← div_lt_iff₀ hz1]; exact s3 hml
  obtain ⟨k, k1, k2, k3, k4⟩ := pos lo (le_refl _) hlh.le
  obtain ⟨l, l1, l2, l3, l4⟩ := pos hi hlh.le (le_refl _)
  unfold gpuThread
  dsimp only
  have hyb : npGetBefore Y (k + 1 + i % nbasis * x.length) = .ok (y.getD k 0) := by
    unfold npGetBefore
    rw [if_neg (by omega), show k + 1 + i % nbasis * x.length - 1 = k + i % nbasis * x.length by omega]
    exact hY k (by omega)
  rw [hzs, hi0, hi1, he0, he1, k1, l1]
  simp only [okBind]
  rw [npGet_getD x (k + 1) (by omega), npGetBefore_getD x (k + 1) (by omega) (by omega), hY (k + 1) (by omega), hyb]
  simp only [okBind, Nat.add_sub_cancel]
  have X0 := redshifted_getD (x := x) z k
  have X1 := redshifted_getD (x := x) z (k + 1)
  rw [← X0, ← X1]
  by_cases hin : (redshifted x z).getD (k + 1) 0 < hi
  · rw [if_pos hin]
    have hkl : k + 1 ≤ l := by
      by_contra h
      have := getD_le hX (show l + 1 ≤ k + 1 by omega) (by omega)
      linarith
    obtain ⟨i1, i2⟩ := seg_integral (by omega) hf (show k + 1 < (redshifted x z).length by omega) k3 k4.le (le_refl _)
    rw [line_right hX (by omega)] at i2
    obtain ⟨r', e1, e2, e3⟩ := gpuInner_spec hz hx hlen hf lo Y (i % nbasis * x.length) hY (l - (k + 1)) (k + 1)
      (0 + 1 / 2 * (y.getD (k + 1) 0 + (y.getD k 0 + (lo - (redshifted x z).getD k 0) * (y.getD (k + 1) 0 - y.getD k 0) /
        ((redshifted x z).getD (k + 1) 0 - (redshifted x z).getD k 0))) * ((redshifted x z).getD (k + 1) 0 - lo)) (by omega) i1 (by rw [i2]; unfold line; ring)
    rw [show l + 1 - (k + 1 + 1) = l - (k + 1) by omega, e1]
    rw [show k + 1 + (l - (k + 1)) = l by omega] at e2 e3 ⊢
    rw [okBind]
    dsimp only
    rw [npGet_getD x l (by omega), npGet_getD x (l + 1) l2, hY l (by omega), show l + i % nbasis * x.length + 1 = l + 1 + i % nbasis * x.length by omega,
      hY (l + 1) (by omega)]
    simp only [okBind]
    have Xl := redshifted_getD (x := x) z l
    have Xl1 := redshifted_getD (x := x) z (l + 1)
    rw [← Xl, ← Xl1]
    obtain ⟨u1, u2⟩ := seg_integral (by omega) hf (show l + 1 < (redshifted x z).length by omega) (le_refl _) l3 l4.le
    rw [line_left] at u2
    rw [← integral_add_adjacent_intervals e2 u1, ← e3, u2]
    show (Except.ok _ : Py ℝ) = .ok _
    congr 2
    unfold line
    ring
  · rw [if_neg hin]
    obtain ⟨i1, i2⟩ := seg_integral (by omega) hf (show k + 1 < (redshifted x z).length by omega) k3 hlh.le (not_lt.1 hin)
    rw [i2, line_from_right hX (by omega), line_from_right hX (by omega)]
    show (Except.ok _ : Py ℝ) = .ok _
    congr 2
    ring

end

/-- the position of an output element and its redshift, bin and basis -/
private theorem thread_index (nbin nbasis iz ibin ibasis : Nat) (h1 : ibin < nbin) (h2 : ibasis < nbasis) :
    let i := (iz * nbin + ibin) * nbasis + ibasis
    i % nbasis = ibasis ∧ i % (nbasis * nbin) / nbasis = ibin ∧ i / (nbasis * nbin) = iz ∧ i / nbasis = iz * nbin + ibin := by
  intro i
  have hb : 0 < nbasis := by omega
  have e1 : i % nbasis = ibasis := by
    show ((iz * nbin + ibin) * nbasis + ibasis) % nbasis = _
    rw [Nat.mul_add_mod_self_right, Nat.mod_eq_of_lt h2]
  have e2 : i / nbasis = iz * nbin + ibin := by
    show ((iz * nbin + ibin) * nbasis + ibasis) / nbasis = _
    rw [Nat.mul_comm, Nat.mul_add_div hb, Nat.div_eq_of_lt h2, Nat.add_zero]
  have hn : 0 < nbin := by omega
  refine ⟨e1, ?_, ?_, e2⟩
  · rw [Nat.mod_mul_right_div_self, e2, Nat.mul_add_mod_self_right, Nat.mod_eq_of_lt h1]
  · rw [← Nat.div_div_eq_div_mul, e2, Nat.mul_comm, Nat.mul_add_div hn, Nat.div_eq_of_lt h1, Nat.add_zero]

/-- **C35** the CUDA kernel and the CPU code agree: for every batch whose redshifted samples cover the output edges, with a sample beyond the last edge, both succeed (no thread reads out
of bounds), the flat GPU array has `nz*nbin*nbasis` elements, and the element `(iz, ibin, ibasis)` in row-major order is the number that the CPU code computes. -/
theorem C35_gpu_eq_cpu (x : List ℝ) (ys : List (List ℝ)) (edges zs : List ℝ) (hne : x ≠ []) (hene : edges ≠ []) (hx : x.Pairwise (· < ·)) (hx0 : ∀ v ∈ x, 0 ≤ v)
    (hys : ∀ y ∈ ys, y.length = x.length) (he : edges.Pairwise (· < ·)) (hz : ∀ z ∈ zs, -1 < z) (hall : ∀ z ∈ zs, InRange (redshifted x z) edges)
    (hlast : ∀ z ∈ zs, ∀ e ∈ edges, ∀ xl, (redshifted x z)[x.length - 1]? = some xl → e < xl) :
    ∃ R r, trapzRebin x ys edges zs = .ok R ∧ trapzRebinGpu x ys edges zs = .ok r ∧ r.length = zs.length * (edges.length - 1) * ys.length ∧
      ∀ iz ibin ibasis, iz < zs.length → ibin < edges.length - 1 → ibasis < ys.length →
        ∃ Rz Rb v, R[iz]? = some Rz ∧ Rz[ibasis]? = some Rb ∧ Rb[ibin]? = some v ∧ r[(iz * (edges.length - 1) + ibin) * ys.length + ibasis]? = some v := by
  obtain ⟨R, hR, hF⟩ := (C36_trapz_rebin x ys edges zs hne hene hx hx0 (fun y hy => (hys y hy).ge) he hz).2 hall
  have hxl : 0 < x.length := List.length_pos_of_ne_nil hne
  -- one thread
  have thread : ∀ iz ibin ibasis (h1 : iz < zs.length) (h2 : ibin < edges.length - 1) (h3 : ibasis < ys.length),
      ∃ Rz Rb v, R[iz]? = some Rz ∧ Rz[ibasis]? = some Rb ∧ Rb[ibin]? = some v ∧
      gpuThread x ys.flatten edges zs (zs.flatMap (fun z => edges.map (fun e => searchsortedRight x (e / (1 + z))))) (edges.length - 1) ys.length x.length
        ((iz * (edges.length - 1) + ibin) * ys.length + ibasis) = .ok v := by
    intro iz ibin ibasis h1 h2 h3
    obtain ⟨t1, t2, t3, t4⟩ := thread_index (edges.length - 1) ys.length iz ibin ibasis h2 h3
    obtain ⟨hRl, hRall⟩ := List.forall₂_iff_get.1 hF
    have hRz := hRall iz h1 (by omega)
    obtain ⟨hRzl, hRball⟩ := List.forall₂_iff_get.1 hRz
    have hRb := hRball ibasis h3 (by omega)
    simp only [List.get_eq_getElem] at hRb hRzl
    have hzm : zs[iz] ∈ zs := List.getElem_mem _
    have hym : ys[ibasis] ∈ ys := List.getElem_mem _
    have ha := List.getElem?_eq_getElem (show ibin < edges.length by omega)
    have hb := List.getElem?_eq_getElem (show ibin + 1 < edges.length by omega)
    have hX := redshifted_sorted hx (hz _ hzm)
    obtain ⟨v, g1, g2⟩ := hRb.2 (lerp (redshifted x zs[iz]) ys[ibasis]) (lerp_isInterpolant _ _ hX) ibin _ _ ha hb
    refine ⟨_, _, v, List.getElem?_eq_getElem (by omega), List.getElem?_eq_getElem (by omega), g1, ?_⟩
    have hlh := edge_lt he ha hb
    have hidx : ∀ k (hk : k < edges.length), npGet (zs.flatMap (fun z => edges.map (fun e => searchsortedRight x (e / (1 + z))))) (iz * edges.length + k) =
        .ok (searchsortedRight x (edges[k] / (1 + zs[iz]))) := by
      intro k hk
      rw [npGet_ok, List.flatMap_def, flatten_get edges.length _ (by simp) iz (edges.map (fun e => searchsortedRight x (e / (1 + zs[iz])))) (by simp [h1]) k hk]
      simp [hk]
    have harith : iz * (edges.length - 1) + ibin + iz = iz * edges.length + ibin := by
      obtain ⟨d, hd⟩ : ∃ d, edges.length = d + 1 := ⟨edges.length - 1, by omega⟩
      rw [hd, Nat.add_sub_cancel, Nat.mul_add]; omega
    have hr := hall _ hzm
    have hY : FlatAt ys.flatten ys[ibasis] (ibasis * x.length) := by
      intro k hk
      rw [hys _ hym] at hk
      rw [npGet_ok, Nat.add_comm, flatten_get x.length ys hys ibasis ys[ibasis] (List.getElem?_eq_getElem h3) k hk]
      have : k < ys[ibasis].length := by rw [hys _ hym]; exact hk
      simp [this]
    rw [gpuThread_spec (hz _ hzm) hx (hys _ hym).symm (lerp_isInterpolant _ _ hX) edges[ibin] edges[ibin + 1] hlh ⟨0, hxl, ?_⟩ ⟨x.length - 1, by omega, ?_⟩
      ys.flatten edges zs _ (edges.length - 1) ys.length _ (by rw [t1]; exact hY) (by rw [t3, npGet_ok]; exact List.getElem?_eq_getElem h1)
      (by rw [t4, t3, harith]; exact hidx ibin (by omega)) (by rw [t4, t3, harith]; exact hidx (ibin + 1) (by omega))
      (by rw [t2, npGet_ok]; exact ha) (by rw [t2, npGet_ok]; exact hb)]
    · congr 1
      rw [← g2, mul_div_cancel_right₀]
      linarith
    · obtain ⟨q1, -⟩ := hr edges[ibin] (List.getElem_mem _) (x[0] * ((1:ℝ) + zs[iz])) (x[x.length - 1] * ((1:ℝ) + zs[iz])) (by simp [redshifted, hxl]) (by simp [redshifted, hxl])
      rw [redshifted_getD]
      simpa [hxl] using q1
    · have q1 := hlast _ hzm edges[ibin + 1] (List.getElem_mem _) (x[x.length - 1] * ((1:ℝ) + zs[iz])) (by simp [redshifted, hxl])
      rw [redshifted_getD]
      simpa [show x.length - 1 < x.length by omega] using q1
  obtain ⟨r, h1, h2⟩ := mapM_forall₂ (gpuThread x ys.flatten edges zs (zs.flatMap (fun z => edges.map (fun e => searchsortedRight x (e / (1 + z))))) (edges.length - 1) ys.length x.length)
    (fun i v => gpuThread x ys.flatten edges zs (zs.flatMap (fun z => edges.map (fun e => searchsortedRight x (e / (1 + z))))) (edges.length - 1) ys.length x.length i = .ok v)
    (List.range (zs.length * (edges.length - 1) * ys.length)) (by
      intro i hi
      rw [List.mem_range] at hi
      have hb : 0 < ys.length := Nat.pos_of_ne_zero (by rintro h; rw [h, Nat.mul_zero] at hi; omega)
      have hn : 0 < edges.length - 1 := Nat.pos_of_ne_zero (by rintro h; rw [h, Nat.mul_zero, Nat.zero_mul] at hi; omega)
      have hdiv : i / ys.length < zs.length * (edges.length - 1) := Nat.div_lt_of_lt_mul (by rw [Nat.mul_comm]; exact hi)
      have hdiv2 : i / ys.length / (edges.length - 1) < zs.length := Nat.div_lt_of_lt_mul (by rw [Nat.mul_comm]; exact hdiv)
      obtain ⟨_, _, v, _, _, _, hv⟩ := thread (i / ys.length / (edges.length - 1)) (i / ys.length % (edges.length - 1)) (i % ys.length) hdiv2 (Nat.mod_lt _ hn) (Nat.mod_lt _ hb)
      rw [Nat.div_add_mod', Nat.div_add_mod'] at hv
      exact ⟨v, hv, hv⟩)
  obtain ⟨hrl, hrall⟩ := List.forall₂_iff_get.1 h2
  rw [List.length_range] at hrl
  refine ⟨R, r, hR, h1, hrl.symm, ?_⟩
  intro iz ibin ibasis k1 k2 k3
  obtain ⟨Rz, Rb, v, e1, e2, e3, e4⟩ := thread iz ibin ibasis k1 k2 k3
  refine ⟨Rz, Rb, v, e1, e2, e3, ?_⟩
  have hlt : (iz * (edges.length - 1) + ibin) * ys.length + ibasis < zs.length * (edges.length - 1) * ys.length := by
    calc (iz * (edges.length - 1) + ibin) * ys.length + ibasis < (iz * (edges.length - 1) + ibin) * ys.length + ys.length := by omega
      _ = (iz * (edges.length - 1) + ibin + 1) * ys.length := by rw [Nat.add_mul _ 1, Nat.one_mul]
      _ ≤ ((iz + 1) * (edges.length - 1)) * ys.length := Nat.mul_le_mul_right _ (by rw [Nat.add_mul, Nat.one_mul]; omega)
      _ ≤ zs.length * (edges.length - 1) * ys.length := Nat.mul_le_mul_right _ (Nat.mul_le_mul_right _ k1)
  have := hrall _ (by rw [List.length_range]; exact hlt) (by omega)
  simp only [List.get_eq_getElem, List.getElem_range] at this
  rw [e4, Except.ok.injEq] at this
  rw [List.getElem?_eq_getElem (by omega), ← this]

/-- **C35** (out of bounds) the hypothesis that the last edge is below the last sample cannot be dropped: if they coincide and the last bin contains a sample, the kernel reads beyond the
end of the arrays, while the CPU code handles the same input. -/
theorem C35_coincident_out_of_bounds :
    trapzRebin (K := ℚ) [0, 1, 2] [[0, 1, 5]] [0, 2] [0] = .ok [[[7 / 4]]] ∧ trapzRebinGpu (K := ℚ) [0, 1, 2] [[0, 1, 5]] [0, 2] [0] = .error .indexError := by
  decide +kernel

example : trapzRebin (K := ℚ) [1, 2, 4] [[1, 1, 1], [0, 2, 0]] [2, 3, 7/2] [0, 1 / 2] = .ok [[[1, 1], [3 / 2, 3 / 4]], [[1, 1], [4 / 3, 11 / 6]]] ∧
    trapzRebinGpu (K := ℚ) [1, 2, 4] [[1, 1, 1], [0, 2, 0]] [2, 3, 7/2] [0, 1 / 2] = .ok [1, 3 / 2, 1, 3 / 4, 1, 4 / 3, 1, 11 / 6] := by decide +kernel

end Redrock
