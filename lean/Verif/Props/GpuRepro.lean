import Verif.Props.GpuMore

/-! Property C101: reproducibility of the GPU kernels in rounded arithmetic. -/
set_option linter.unusedSectionVars false
namespace Redrock.Gpu
open Redrock

section
variable {K : Type} [Add K] [Mul K] [Zero K]

/-- **C101** the convolution with the resolution is reproducible in any arithmetic, rounded or not (no laws of addition or multiplication are used). -/
theorem C101_convolution_reproducible (R : Csr K) (A : Array3 K) (hR : R.Valid) (hA : A.Contiguous) (h0 : R.shape0 = A.n1) (h1 : R.shape1 = A.n1) (s s' : Schedule) (hs : FairSchedule s)
    (hs' : FairSchedule s') (junk junk' : List K) (hj : junk.length = A.n0 * R.shape0 * A.n2) (hj' : junk'.length = A.n0 * R.shape0 * A.n2) :
    sparseGpu R A s junk = sparseGpu R A s' junk' := by
  rw [sparseGpu_eq R A hR hA h0 h1 s hs junk hj, sparseGpu_eq R A hR hA h0 h1 s' hs' junk' hj']

/-- **C101** so is the computation of the model flux. -/
theorem C101_model_reproducible (tbs : Array3 K) (hA : tbs.Contiguous) (zc : List (List K)) (hz : zc.length = tbs.n0) (hr : ∀ c ∈ zc, c.length = tbs.n2) (s s' : Schedule) (hs : FairSchedule s)
    (hs' : FairSchedule s') (junk junk' : List K) (hj : junk.length = tbs.n0 * tbs.n1) (hj' : junk'.length = tbs.n0 * tbs.n1) :
    dot32Gpu tbs zc tbs.n2 s junk = dot32Gpu tbs zc tbs.n2 s' junk' := by
  rw [dot32Gpu_eq tbs hA zc hz hr s hs junk hj, dot32Gpu_eq tbs hA zc hz hr s' hs' junk' hj']

theorem launch_filter (kernel : Kernel K) (N : Nat) (e : Nat → Effect K) (hk : ∀ b t, kernel b t = .ok (if blockSize * b + t < N then some (e (blockSize * b + t)) else none))
    (order : List (Nat × Nat)) (mem : List K) : launch kernel order mem = launch kernel (order.filter (fun t => decide (tid t < N))) mem := by
  induction order generalizing mem with
  | nil => rfl
  | cons t order ih =>
    have ht := hk t.1 t.2
    have hid : tid t = blockSize * t.1 + t.2 := rfl
    rw [← hid] at ht
    by_cases h : tid t < N
    · rw [List.filter_cons_of_pos (by simpa using h)]
      unfold launch at ih ⊢
      rw [List.foldlM_cons, List.foldlM_cons, ht, if_pos h]
      simp only [okBind]
      cases (e (tid t)).apply mem with
      | error _ => rfl
      | ok m => exact ih m
    · rw [List.filter_cons_of_neg (by simpa using h)]
      rw [← ih]
      unfold launch
      rw [List.foldlM_cons, ht, if_neg h]
      rfl

end

/-- Specification: a binary floating point number with 53 bits (the exponent is not bounded). -/
def Representable (y : ℚ) : Prop := ∃ m e : ℤ, |m| < 2 ^ 53 ∧ y = m * (2 : ℚ) ^ e

/-- Specification: `y` is a floating point number nearest to `x`. -/
def Nearest (x y : ℚ) : Prop := Representable y ∧ ∀ y', Representable y' → |x - y| ≤ |x - y'|

/-- Specification: double precision arithmetic, in which a sum or product is a number nearest to the exact one (ties are not specified). -/
structure DoubleArith (F : Type) [Add F] [Mul F] [Zero F] (val : F → ℚ) : Prop where
  rep : ∀ x, Representable (val x)
  inj : ∀ x y, val x = val y → x = y
  surj : ∀ q, Representable q → ∃ x, val x = q
  zero : val 0 = 0
  add : ∀ x y, Nearest (val x + val y) (val (x + y))
  mul : ∀ x y, Nearest (val x * val y) (val (x * y))

theorem nearest_self {x y : ℚ} (hx : Representable x) (h : Nearest x y) : y = x := by
  have := h.2 x hx
  rw [sub_self, abs_zero] at this
  have := abs_eq_zero.1 (le_antisymm this (abs_nonneg _))
  linarith

theorem rep_ge_one {y : ℚ} (h : Representable y) (h1 : 1 ≤ y) : ∃ k : ℤ, y = k * (2 : ℚ) ^ (-52 : ℤ) := by
  obtain ⟨m, e, hm, rfl⟩ := h
  have he : -52 ≤ e := by
    by_contra hlt
    have hle : e ≤ -53 := by omega
    have hm' : (m : ℚ) ≤ 2 ^ 53 - 1 := by
      have : m ≤ 2 ^ 53 - 1 := by have := (abs_lt.1 hm).2; omega
      exact_mod_cast this
    have hp : (2 : ℚ) ^ e ≤ 2 ^ (-53 : ℤ) := zpow_le_zpow_right₀ (by norm_num) hle
    have hp0 : (0 : ℚ) < 2 ^ e := zpow_pos (by norm_num) _
    have h53 : (2 : ℚ) ^ (-53 : ℤ) = 1 / 2 ^ 53 := by rw [zpow_neg]; norm_num
    rw [h53] at hp
    have hmpos : (0 : ℚ) < m := by
      by_contra hneg
      have : (m : ℚ) * 2 ^ e ≤ 0 := mul_nonpos_of_nonpos_of_nonneg (not_lt.1 hneg) hp0.le
      linarith
    have : (m : ℚ) * 2 ^ e ≤ (2 ^ 53 - 1) * (1 / 2 ^ 53) := mul_le_mul hm' hp hp0.le (by norm_num)
    norm_num at this
    have h2 : (9007199254740991 : ℚ) / 9007199254740992 < 1 := by norm_num
    linarith
  refine ⟨m * 2 ^ (e + 52).toNat, ?_⟩
  push_cast
  rw [mul_assoc, ← zpow_natCast, Int.toNat_of_nonneg (by omega), ← zpow_add₀ (by norm_num)]
  congr 2
  omega

/-- 3·2⁻⁵⁵ = 0.75·2⁻⁵³ -/
def dlt : ℚ := 3 / 2 ^ 55

theorem rep_one : Representable 1 := ⟨1, 0, by norm_num, by norm_num⟩
theorem rep_zero : Representable 0 := ⟨0, 0, by norm_num, by norm_num⟩
theorem rep_dlt : Representable dlt := ⟨3, -55, by norm_num, by rw [dlt, zpow_neg]; norm_num⟩
theorem rep_dlt2 : Representable (dlt + dlt) := ⟨3, -54, by norm_num, by rw [dlt, zpow_neg]; norm_num⟩
theorem rep_next : Representable (1 + 1 / 2 ^ 52) := ⟨2 ^ 52 + 1, -52, by norm_num, by rw [zpow_neg]; norm_num⟩

theorem nearest_down {y : ℚ} (h : Nearest (1 + dlt) y) : y = 1 := by
  have h1 := h.2 1 rep_one
  rw [show (1 : ℚ) + dlt - 1 = dlt by ring, abs_of_nonneg (by norm_num [dlt] : (0 : ℚ) ≤ dlt)] at h1
  rw [abs_le] at h1
  obtain ⟨a1, a2⟩ := h1
  obtain ⟨k, rfl⟩ := rep_ge_one h.1 (by linarith)
  have e52 : (2 : ℚ) ^ (-52 : ℤ) = 1 / 2 ^ 52 := by rw [zpow_neg]; norm_num
  rw [e52] at a1 a2 ⊢
  have k1 : (k : ℚ) < 2 ^ 52 + 1 := by
    have : (k : ℚ) * (1 / 2 ^ 52) ≤ 1 + 2 * dlt := by linarith
    rw [dlt] at this
    have := mul_le_mul_of_nonneg_right this (by norm_num : (0 : ℚ) ≤ 2 ^ 52)
    rw [mul_assoc, one_div, inv_mul_cancel₀ (by norm_num), mul_one] at this
    refine lt_of_le_of_lt this ?_
    norm_num
  have k2 : (2 : ℚ) ^ 52 ≤ k := by
    have : (1 : ℚ) ≤ k * (1 / 2 ^ 52) := by linarith
    have := mul_le_mul_of_nonneg_right this (by norm_num : (0 : ℚ) ≤ 2 ^ 52)
    rw [mul_assoc, one_div, inv_mul_cancel₀ (by norm_num), mul_one, one_mul] at this
    exact this
  have k3 : k = 2 ^ 52 := by
    have a : k < 2 ^ 52 + 1 := by exact_mod_cast k1
    have b : 2 ^ 52 ≤ k := by exact_mod_cast k2
    omega
  rw [k3]
  norm_num

theorem nearest_up {y : ℚ} (h : Nearest (dlt + dlt + 1) y) : y ≠ 1 := by
  rintro rfl
  have h1 := h.2 _ rep_next
  rw [dlt] at h1
  norm_num [abs_of_pos, abs_of_neg] at h1

/-- the two orders -/
def forwardOrder : Schedule := fun n => threads n blockSize
def backwardOrder : Schedule := fun n => (threads n blockSize).reverse

theorem forward_fair : FairSchedule forwardOrder := fun _ => List.Perm.refl _
theorem backward_fair : FairSchedule backwardOrder := fun _ => List.reverse_perm _

theorem dot33_forward {F : Type} [Add F] [Mul F] [Zero F] (o x0 x1 x2 x3 : F) :
    dot33Gpu (Array3.ofFlat [o, o, o, o] 1 4 1) (Array3.ofFlat [x0, x1, x2, x3] 1 4 1) true true forwardOrder = .ok [0 + (0 + o * x0) + (0 + o * x1) + (0 + o * x2) + (0 + o * x3)] := by
  have hk := fun bl t => dot33_thread [o, o, o, o] [x0, x1, x2, x3] 4 1 1 4 true (by decide) rfl rfl bl t
  have e0 : dot33Gpu (Array3.ofFlat [o, o, o, o] 1 4 1) (Array3.ofFlat [x0, x1, x2, x3] 1 4 1) true true forwardOrder =
      launch (dot33Kernel [o, o, o, o] [x0, x1, x2, x3] 4 1 1 4 true) (forwardOrder (blocksFor 4)) [0] := by
    simp only [dot33Gpu, Array3.ofFlat, nparallelOf, if_true, Nat.one_mul, Nat.mul_one, List.replicate_one]
  rw [e0, show blocksFor 4 = 1 by decide, show forwardOrder 1 = threads 1 blockSize from rfl]
  rw [launch_filter _ 4 (fun u => .atomicAdd (u / 4) (dot33Val [o, o, o, o] [x0, x1, x2, x3] 4 1 4 true u)) hk]
  rw [show (threads 1 blockSize).filter (fun t => decide (tid t < 4)) = [(0, 0), (0, 1), (0, 2), (0, 3)] by decide +kernel]
  rfl

theorem dot33_backward {F : Type} [Add F] [Mul F] [Zero F] (o x0 x1 x2 x3 : F) :
    dot33Gpu (Array3.ofFlat [o, o, o, o] 1 4 1) (Array3.ofFlat [x0, x1, x2, x3] 1 4 1) true true backwardOrder = .ok [0 + (0 + o * x3) + (0 + o * x2) + (0 + o * x1) + (0 + o * x0)] := by
  have hk := fun bl t => dot33_thread [o, o, o, o] [x0, x1, x2, x3] 4 1 1 4 true (by decide) rfl rfl bl t
  have e0 : dot33Gpu (Array3.ofFlat [o, o, o, o] 1 4 1) (Array3.ofFlat [x0, x1, x2, x3] 1 4 1) true true backwardOrder =
      launch (dot33Kernel [o, o, o, o] [x0, x1, x2, x3] 4 1 1 4 true) (backwardOrder (blocksFor 4)) [0] := by
    simp only [dot33Gpu, Array3.ofFlat, nparallelOf, if_true, Nat.one_mul, Nat.mul_one, List.replicate_one]
  rw [e0, show blocksFor 4 = 1 by decide, show backwardOrder 1 = (threads 1 blockSize).reverse from rfl]
  rw [launch_filter _ 4 (fun u => .atomicAdd (u / 4) (dot33Val [o, o, o, o] [x0, x1, x2, x3] 4 1 4 true u)) hk]
  rw [show (threads 1 blockSize).reverse.filter (fun t => decide (tid t < 4)) = [(0, 3), (0, 2), (0, 1), (0, 0)] by decide +kernel]
  rfl

/-- **C101** refuted in double precision: even with `fullprecision=True` ("ensure reproducibly identical results") the matrix product of the normal equations depends on the order in which the four
threads of an element happen to add their partial sums. In every correctly rounded arithmetic there are inputs (one redshift, four pixels, one basis vector) on which two runs differ. -/
theorem C101_fullprecision_refuted {F : Type} [Add F] [Mul F] [Zero F] (val : F → ℚ) (hF : DoubleArith F val) :
    ∃ (a b : Array3 F) (s s' : Schedule), a.Contiguous ∧ b.Contiguous ∧ (a.n0 = b.n0 ∧ a.n1 = b.n1 ∧ a.n2 = b.n2) ∧ FairSchedule s ∧ FairSchedule s' ∧
      dot33Gpu a b true true s ≠ dot33Gpu a b true true s' := by
  obtain ⟨o, ho⟩ := hF.surj 1 rep_one
  obtain ⟨d, hd⟩ := hF.surj dlt rep_dlt
  obtain ⟨n, hn⟩ := hF.surj (dlt + dlt) rep_dlt2
  have hmul : ∀ x, o * x = x := by
    intro x
    apply hF.inj
    have := hF.mul o x
    rw [ho, one_mul] at this
    exact nearest_self (hF.rep x) this
  have hzl : ∀ x : F, 0 + x = x := by
    intro x
    apply hF.inj
    have := hF.add 0 x
    rw [hF.zero, zero_add] at this
    exact nearest_self (hF.rep x) this
  have hzr : ∀ x : F, x + 0 = x := by
    intro x
    apply hF.inj
    have := hF.add x 0
    rw [hF.zero, add_zero] at this
    exact nearest_self (hF.rep x) this
  have h1 : o + d = o := by
    apply hF.inj
    have := hF.add o d
    rw [ho, hd] at this
    rw [nearest_down this, ho]
  have h2 : d + d = n := by
    apply hF.inj
    have := hF.add d d
    rw [hd] at this
    rw [nearest_self rep_dlt2 this, hn]
  have h3 : n + o ≠ o := by
    intro h
    have := hF.add n o
    rw [hn, ho, h, ho] at this
    exact nearest_up this rfl
  refine ⟨Array3.ofFlat [o, o, o, o] 1 4 1, Array3.ofFlat [o, d, d, 0] 1 4 1, forwardOrder, backwardOrder, ⟨rfl, rfl, rfl, rfl⟩, ⟨rfl, rfl, rfl, rfl⟩, ⟨rfl, rfl, rfl⟩,
    forward_fair, backward_fair, ?_⟩
  rw [dot33_forward, dot33_backward]
  simp only [hmul, hzl, hzr, h1, h2]
  intro h
  rw [Except.ok.injEq, List.cons.injEq] at h
  exact h3 h.1.symm

/-! ### such an arithmetic exists -/

theorem exists_nearest (x : ℚ) : ∃ y, Nearest x y := by
  by_cases hx : x = 0
  · subst hx
    exact ⟨0, rep_zero, fun y' _ => by simp⟩
  have hxa : 0 < |x| := abs_pos.2 hx
  obtain ⟨e, he1, he2⟩ := exists_mem_Ico_zpow (x := |x| / 2 ^ 52) (y := (2 : ℚ)) (by positivity) (by norm_num)
  have hp : (0 : ℚ) < 2 ^ e := zpow_pos (by norm_num) _
  have hlo : (2 : ℚ) ^ 52 * 2 ^ e ≤ |x| := by
    have := (le_div_iff₀ (by norm_num : (0 : ℚ) < 2 ^ 52)).1 he1
    linarith
  have hhi : |x| < 2 ^ 53 * 2 ^ e := by
    have := (div_lt_iff₀ (by norm_num : (0 : ℚ) < 2 ^ 52)).1 he2
    rw [zpow_add_one₀ (by norm_num)] at this
    linarith
  have hbest : ∀ k : ℤ, |x - (round (x / 2 ^ e) : ℤ) * 2 ^ e| ≤ |x - k * 2 ^ e| := by
    intro k
    have h := round_le (x / 2 ^ e) k
    have e1 : ∀ j : ℤ, x - j * (2 : ℚ) ^ e = (x / 2 ^ e - j) * 2 ^ e := by
      intro j; field_simp
    rw [e1, e1, abs_mul, abs_mul]
    exact mul_le_mul_of_nonneg_right h (abs_nonneg _)
  refine ⟨(round (x / 2 ^ e) : ℤ) * 2 ^ e, ?_, ?_⟩
  · have hr : |round (x / 2 ^ e)| ≤ 2 ^ 53 := by
      have h1 := abs_sub_round (x / 2 ^ e)
      have h2 : |x / 2 ^ e| < 2 ^ 53 := by
        rw [abs_div, abs_of_pos hp, div_lt_iff₀ hp]; exact hhi
      have h3 : |(round (x / 2 ^ e) : ℚ)| < 2 ^ 53 + 1 := by
        calc |(round (x / 2 ^ e) : ℚ)| = |x / 2 ^ e - (x / 2 ^ e - round (x / 2 ^ e))| := by rw [sub_sub_cancel]
          _ ≤ |x / 2 ^ e| + |x / 2 ^ e - round (x / 2 ^ e)| := abs_sub _ _
          _ < 2 ^ 53 + 1 := by linarith
      have h4 : |round (x / 2 ^ e)| < 2 ^ 53 + 1 := by exact_mod_cast h3
      omega
    rcases lt_or_eq_of_le hr with hlt | heq
    · exact ⟨_, e, hlt, rfl⟩
    · rcases abs_eq (by norm_num : (0 : ℤ) ≤ 2 ^ 53) |>.1 heq with h | h
      · refine ⟨2 ^ 52, e + 1, by norm_num, ?_⟩
        rw [h, zpow_add_one₀ (by norm_num)]; push_cast; ring
      · refine ⟨-2 ^ 52, e + 1, by norm_num, ?_⟩
        rw [h, zpow_add_one₀ (by norm_num)]; push_cast; ring
  · rintro y' ⟨m', e', hm', rfl⟩
    by_cases hee : e ≤ e'
    · have : (m' : ℚ) * 2 ^ e' = ((m' * 2 ^ (e' - e).toNat : ℤ) : ℚ) * 2 ^ e := by
        push_cast
        rw [mul_assoc, ← zpow_natCast, Int.toNat_of_nonneg (by omega), ← zpow_add₀ (by norm_num)]
        congr 2
        omega
      rw [this]
      exact hbest _
    · have hle : e' ≤ e - 1 := by omega
      have hy : |(m' : ℚ) * 2 ^ e'| ≤ 2 ^ 52 * 2 ^ e := by
        rw [abs_mul, abs_of_pos (zpow_pos (by norm_num : (0 : ℚ) < 2) e')]
        have h1 : |(m' : ℚ)| ≤ 2 ^ 53 := by exact_mod_cast hm'.le
        have h2 : (2 : ℚ) ^ e' ≤ 2 ^ (e - 1) := zpow_le_zpow_right₀ (by norm_num) hle
        have h3 : (2 : ℚ) ^ (e - 1) = 2 ^ e / 2 := by rw [zpow_sub_one₀ (by norm_num)]; ring
        rw [h3] at h2
        calc |(m' : ℚ)| * 2 ^ e' ≤ 2 ^ 53 * (2 ^ e / 2) := mul_le_mul h1 h2 (zpow_pos (by norm_num) _).le (by norm_num)
          _ = 2 ^ 52 * 2 ^ e := by ring
      rcases lt_or_gt_of_ne hx with hneg | hpos
      · refine (hbest (-2 ^ 52)).trans ?_
        rw [abs_of_neg hneg] at hlo
        have hb := (abs_le.1 hy).1
        push_cast
        rw [abs_of_nonpos (by linarith), abs_of_nonpos (by linarith)]
        linarith
      · refine (hbest (2 ^ 52)).trans ?_
        rw [abs_of_pos hpos] at hlo
        have hb := (abs_le.1 hy).2
        push_cast
        rw [abs_of_nonneg (by linarith), abs_of_nonneg (by linarith)]
        linarith

/-- the floating point numbers -/
abbrev Dbl := { q : ℚ // Representable q }
noncomputable instance : Add Dbl := ⟨fun x y => ⟨_, (exists_nearest (x.1 + y.1)).choose_spec.1⟩⟩
noncomputable instance : Mul Dbl := ⟨fun x y => ⟨_, (exists_nearest (x.1 * y.1)).choose_spec.1⟩⟩
instance : Zero Dbl := ⟨⟨0, rep_zero⟩⟩

/-- the hypotheses of the refutation are met -/
example : DoubleArith Dbl Subtype.val where
  rep x := x.2
  inj _ _ h := Subtype.ext h
  surj q hq := ⟨⟨q, hq⟩, rfl⟩
  zero := rfl
  add x y := (exists_nearest (x.1 + y.1)).choose_spec
  mul x y := (exists_nearest (x.1 * y.1)).choose_spec

/-! ### C100: what differs from the CPU -/

/-- `np.eye(2)` -/
def eye2 : Csr ℚ := { data := [1, 1], indices := [0, 1], indptr := [0, 1, 2], shape0 := 2, shape1 := 2 }

theorem eye2_valid : eye2.Valid := ⟨rfl, by decide, rfl, by decide⟩

/-- **C100** `calc_batch_dot_product_3d3d_gpu(a, b)` does not return `a @ b`, as documented, but its transpose, for all `a` of shape `(nz, n, m)` and `b` of shape `(nz, m, n)`:
element `[t, p, q]` of the result is `Σ_j a[t,q,j] b[t,j,p]`. (The fit calls it with `b = weights · a`, where the product is symmetric.) -/
theorem C100_product_is_transposed {K : Type} [Field K] [LinearOrder K] [IsStrictOrderedRing K] (a b : Array3 K) (ha : a.Contiguous) (hb : b.Contiguous) (h0 : b.n0 = a.n0) (h1 : b.n1 = a.n2)
    (h2 : b.n2 = a.n1) (fp : Bool) (s : Schedule) (hs : FairSchedule s) :
    ∃ flat, dot33Gpu a b false fp s = .ok flat ∧ ∀ t p q, t < a.n0 → p < a.n1 → q < a.n1 →
      (Array3.ofFlat flat a.n0 a.n1 a.n1).elem t p q = ∑ j ∈ Finset.range a.n2, a.elem t q j * b.elem t j p := by
  obtain ⟨flat, f1, f2⟩ := dot33Gpu_plain_eq a b ha hb h0 h1 h2 fp s hs
  refine ⟨flat, f1, ?_⟩
  intro t p q ht hp hq
  unfold Array3.elem
  rw [f2]
  simp [ht, hp, hq, Array3.elem]

/-- it is not `a @ b` -/
theorem C100_product_refuted : ∃ (a b : Array3 ℚ) (flat : List ℚ), a.Contiguous ∧ b.Contiguous ∧ dot33Gpu a b false true forwardOrder = .ok flat ∧
    (Array3.ofFlat flat 1 2 2).elem 0 0 1 ≠ ∑ j ∈ Finset.range 2, a.elem 0 0 j * b.elem 0 j 1 := by
  refine ⟨Array3.ofFlat [1, 2, 3, 4] 1 2 2, Array3.ofFlat [1, 0, 0, 2] 1 2 2, [1, 3, 4, 8], ⟨rfl, rfl, rfl, rfl⟩, ⟨rfl, rfl, rfl, rfl⟩, by decide +kernel, ?_⟩
  norm_num [Finset.sum_range_succ, Array3.elem, Array3.nested, Array3.ofFlat]

/-- a solver of one equation -/
def solve1 : List (List ℚ) → List ℚ → Py (List ℚ)
  | [[a]], [u] => if a = 0 then .error .linAlgError else .ok [u / a]
  | _, _ => .error .linAlgError

def solvers1 : Solvers ℚ := { linalgSolve := solve1, nnls := solve1, lsqLinear := fun _ _ => solve1 }
def cpSolve1 : List (List ℚ) → List ℚ → List ℚ
  | [[a]], [u] => [u / a]
  | _, y => y

theorem solvers1_ok : SolversOk solvers1 cpSolve1 := by
  have hlen : ∀ M y c, solve1 M y = .ok c → c.length = y.length := by
    intro M y c h
    unfold solve1 at h
    split at h
    · split at h
      · cases h
      · cases h; rfl
    · cases h
  refine ⟨?_, ?_, hlen, fun _ _ => hlen, ?_⟩
  · intro M y c h
    simp only [solvers1] at h
    unfold solve1 at h
    split at h
    · split at h
      · cases h
      · cases h; rfl
    · cases h
  · intro M y
    unfold cpSolve1
    split <;> rfl
  · intro _ _ M y h
    simp only [solvers1] at h
    unfold solve1 at h
    split at h
    · split at h
      · cases h
      · cases h
    · cases h

/-- a device that runs the threads in order -/
def dev (n n32 : Nat) : Device ℚ := { sparse := fun _ => forwardOrder, dot33 := forwardOrder, dot32 := backwardOrder, junk := fun _ => List.replicate n 7, junk32 := List.replicate n32 7 }

def spec1 : Spec Nat ℚ := { wavehash := 0, flux := [1, 3], ivar := [1, 1], Rcsr := eye2 }

/-- two "redshifts", one basis vector, two pixels: the second template vanishes, so its fit fails -/
def tdata1 : PyDict Nat (Array3 ℚ) := [(0, Array3.ofFlat [1, 2, 0, 0] 2 2 1)]

theorem dev_ok : (dev 4 4).Ok [spec1] 2 1 := by
  refine ⟨fun _ => forward_fair, forward_fair, backward_fair, ?_, rfl⟩
  intro k s h
  cases k with
  | zero => cases h; rfl
  | succ k => simp at h

/-- **C100** refuted for failed fits: with the same data and solvers the CPU marks the second redshift as failed (chi2 9999999, coefficient 0); the GPU returns coefficient 9999999 and the chi2 of
that (zero) model, 10, which looks like a fit. -/
theorem C100_failed_fit_refuted : OnGpu [spec1] tdata1 2 1 ∧ (dev 4 4).Ok [spec1] 2 1 ∧ SolversOk solvers1 cpSolve1 ∧
    (calcZchi2Batch (solveMatrices solvers1 .nmf none) ([spec1].map Spec.toFit) (toCpu tdata1) [1, 1] [1, 3] [1, 3] 2 1 none).toOption = some [(1 / 5, [7 / 5]), (9999999, [0])] ∧
    (calcZchi2BatchGpu (dev 4 4) solvers1 cpSolve1 .nmf none [spec1] tdata1 [1, 1] [1, 3] [1, 3] 2 1 true none).toOption = some [(1 / 5, [7 / 5]), (10, [9999999])] := by
  refine ⟨?_, dev_ok, solvers1_ok, by decide +kernel, by decide +kernel⟩
  intro s hs
  simp only [List.mem_singleton] at hs
  subst hs
  exact ⟨eye2_valid, _, rfl, ⟨rfl, rfl, rfl, rfl⟩, rfl, rfl, rfl, rfl⟩

/-- two archetypes on two wavelengths, as `get_best_archetype` passes them to the fit on the GPU when there are no Legendre terms: a transposed view of the rebinned archetypes `[[1, 2], [3, 4]]` -/
def tdataView : PyDict Nat (Array3 ℚ) := [(0, Array3.transposedView [1, 2, 3, 4] 2 2)]

/-- **C100** refuted for archetypes without Legendre terms (`archetypes.py` line 376): the array passed to the kernel is a transposed view, whose strides the kernel ignores. The flux `(1, 3)` is
exactly the first archetype, with chi2 0 on the CPU; the GPU fits `(1, 2)` instead. All other hypotheses hold. -/
theorem C100_transposed_view_refuted : (dev 4 4).Ok [spec1] 2 1 ∧ SolversOk solvers1 cpSolve1 ∧ ((tdataView.get? 0).map Array3.nested) = some [[[1], [3]], [[2], [4]]] ∧
    (calcZchi2Batch (solveMatrices solvers1 .bvls none) ([spec1].map Spec.toFit) (toCpu tdataView) [1, 1] [1, 3] [1, 3] 2 1 none).toOption = some [(0, [1]), (1 / 5, [7 / 10])] ∧
    (calcZchi2BatchGpu (dev 4 4) solvers1 cpSolve1 .bvls none [spec1] tdataView [1, 1] [1, 3] [1, 3] 2 1 true none).toOption = some [(1 / 5, [7 / 5]), (1, [3 / 5])] :=
  ⟨dev_ok, solvers1_ok, by decide +kernel, by decide +kernel, by decide +kernel⟩

/-- **C100** the view is read as if it were in C order: for every resolution matrix and every transposed view the kernel gives what it gives for the untransposed buffer. -/
theorem C100_strides_ignored {K : Type} [Add K] [Mul K] [Zero K] (R : Csr K) (buf : List K) (nw na : Nat) (s : Schedule) (junk : List K) :
    sparseGpu R (Array3.transposedView buf nw na) s junk = sparseGpu R (Array3.ofFlat buf na nw 1) s junk := rfl

/-- the hypotheses of the equality theorem are met by a fit with two redshifts, of which the first is fitted -/
example : OnGpu [spec1] tdata1 2 1 ∧ (dev 4 4).Ok [spec1] 2 1 ∧ SolversOk solvers1 cpSolve1 ∧ [spec1].flatMap (·.ivar) = [1, 1] ∧ nrowsOf [spec1] = 2 :=
  ⟨C100_failed_fit_refuted.1, dev_ok, solvers1_ok, rfl, rfl⟩

/-- **C100** the sparse kernel needs square matrices: with a 1×2 matrix and two redshifts it reads the second template at the wrong place (the result should be `[1 + 2, 3 + 4]`). -/
theorem C100_square_needed : (sparseGpu ({ data := [1, 1], indices := [0, 1], indptr := [0, 2], shape0 := 1, shape1 := 2 } : Csr ℚ) (Array3.ofFlat [1, 2, 3, 4] 2 2 1) forwardOrder [0, 0]).toOption =
    some [1 + 2, 2 + 3] := by decide +kernel

end Redrock.Gpu
