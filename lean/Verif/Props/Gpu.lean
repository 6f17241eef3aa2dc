import Verif.Lemmas.Gpu
import Verif.Props.Chi2

/-! Property C100 and C101: the GPU branch of the chi2 fit. -/
set_option linter.unusedSectionVars false
namespace Redrock.Gpu
open Redrock

/-- Specification: an order of the threads of every launch: each thread of each block runs exactly once. -/
def FairSchedule (s : Schedule) : Prop := ∀ blocks, (s blocks).Perm (threads blocks blockSize)

section kernels
variable {K : Type} [Add K] [Mul K] [Zero K]

/-- Specification: a well-formed CSR matrix. -/
structure Csr.Valid (R : Csr K) : Prop where
  ptr : R.indptr.length = R.shape0 + 1
  inside : ∀ p ∈ R.indptr, p ≤ R.data.length
  same : R.indices.length = R.data.length
  cols : ∀ c ∈ R.indices, c < R.shape1

/-- Specification: the elements are stored in C order without gaps. -/
structure Array3.Contiguous (A : Array3 K) : Prop where
  s0 : A.s0 = A.n1 * A.n2
  s1 : A.s1 = A.n2
  s2 : A.s2 = 1
  len : A.buf.length = A.n0 * A.n1 * A.n2

/-- what thread `i` of the sparse kernel stores -/
def sparseVal (R : Csr K) (buf : List K) (nb i : Nat) : K :=
  (List.range' (R.indptr.getD (i % (nb * R.shape0) / nb) 0) (R.indptr.getD (i % (nb * R.shape0) / nb + 1) 0 - R.indptr.getD (i % (nb * R.shape0) / nb) 0)).foldl
    (fun x j => x + R.data.getD j 0 * buf.getD (i / (nb * R.shape0) * nb * R.shape0 + nb * R.indices.getD j 0 + i % nb) 0) 0

theorem decode_lt {n0 n1 n2 i : Nat} (h : i < n1 * n2 * n0) : i % n2 < n2 ∧ i % (n2 * n1) / n2 < n1 ∧ i / (n2 * n1) < n0 ∧
    i = i / (n2 * n1) * (n1 * n2) + i % (n2 * n1) / n2 * n2 + i % n2 := by
  have h2 : 0 < n2 := by
    rcases Nat.eq_zero_or_pos n2 with h0 | h0
    · subst h0; simp at h
    · exact h0
  have h1 : 0 < n1 := by
    rcases Nat.eq_zero_or_pos n1 with h0 | h0
    · subst h0; simp at h
    · exact h0
  refine ⟨Nat.mod_lt _ h2, ?_, ?_, ?_⟩
  · exact Nat.div_lt_of_lt_mul (Nat.mod_lt _ (Nat.mul_pos h2 h1))
  · exact Nat.div_lt_of_lt_mul (by rwa [Nat.mul_comm n2 n1])
  · have e1 := Nat.div_add_mod i (n2 * n1)
    have e2 := Nat.div_add_mod (i % (n2 * n1)) n2
    have e3 : i % (n2 * n1) % n2 = i % n2 := Nat.mod_mod_of_dvd i (Nat.dvd_mul_right n2 n1)
    rw [e3] at e2
    calc i = n2 * n1 * (i / (n2 * n1)) + i % (n2 * n1) := e1.symm
      _ = n2 * n1 * (i / (n2 * n1)) + (n2 * (i % (n2 * n1) / n2) + i % n2) := by rw [e2]
      _ = _ := by ring

theorem sparse_thread (R : Csr K) (A : Array3 K) (hR : R.Valid) (hA : A.Contiguous) (h0 : R.shape0 = A.n1) (h1 : R.shape1 = A.n1) (b t : Nat) :
    sparseKernel R.data R.indices R.indptr A.buf R.shape0 A.n2 A.n0 b t = .ok (if blockSize * b + t < A.n0 * A.n1 * A.n2 then
      some (.store (blockSize * b + t) (sparseVal R A.buf A.n2 (blockSize * b + t))) else none) := by
  simp only [sparseKernel]
  generalize blockSize * b + t = i
  have hcomm : R.shape0 * A.n2 * A.n0 = A.n0 * A.n1 * A.n2 := by rw [h0]; ring
  by_cases hi : i < A.n0 * A.n1 * A.n2
  · rw [if_neg (by omega), if_pos hi]
    obtain ⟨d1, d2, d3, d4⟩ := decode_lt (n0 := A.n0) (n1 := R.shape0) (n2 := A.n2) (i := i) (by omega)
    have hrow : i % (A.n2 * R.shape0) / A.n2 + 1 < R.indptr.length := by rw [hR.ptr]; omega
    rw [npGet_getD _ _ 0 (by omega), npGet_getD _ _ 0 hrow]
    simp only [okBind]
    rw [foldlM_ok _ (fun x j => x + R.data.getD j 0 * A.buf.getD (i / (A.n2 * R.shape0) * A.n2 * R.shape0 + A.n2 * R.indices.getD j 0 + i % A.n2) 0)]
    · rfl
    · intro j hj x
      rw [List.mem_range'_1] at hj
      have hmem : R.indptr.getD (i % (A.n2 * R.shape0) / A.n2 + 1) 0 ∈ R.indptr := by
        rw [List.getD_eq_getElem?_getD, List.getElem?_eq_getElem hrow]; exact List.getElem_mem _
      have hle := hR.inside _ hmem
      have hj1 : j < R.data.length := by omega
      have hj2 : j < R.indices.length := by rw [hR.same]; exact hj1
      have hc : R.indices.getD j 0 < R.shape1 := by
        apply hR.cols
        rw [List.getD_eq_getElem?_getD, List.getElem?_eq_getElem hj2]; exact List.getElem_mem _
      rw [npGet_getD _ _ 0 hj2, npGet_getD _ _ 0 hj1]
      simp only [okBind]
      have hlt : i / (A.n2 * R.shape0) * A.n2 * R.shape0 + A.n2 * R.indices.getD j 0 + i % A.n2 < A.buf.length := by
        rw [hA.len]
        have := idx3_lt (n0 := A.n0) (n1 := A.n1) (n2 := A.n2) d3 (h1 ▸ hc) d1
        calc _ = i / (A.n2 * R.shape0) * (A.n1 * A.n2) + R.indices.getD j 0 * A.n2 + i % A.n2 := by rw [h0]; ring
          _ < _ := this
      rw [npGet_getD _ _ 0 hlt]
      rfl
  · rw [if_pos (by omega), if_neg hi]

/-- `_batch_dot_product_sparse_gpu`, one spectrum, any arithmetic -/
theorem sparseGpu_eq (R : Csr K) (A : Array3 K) (hR : R.Valid) (hA : A.Contiguous) (h0 : R.shape0 = A.n1) (h1 : R.shape1 = A.n1) (s : Schedule) (hs : FairSchedule s) (junk : List K)
    (hj : junk.length = A.n0 * R.shape0 * A.n2) : sparseGpu R A s junk = .ok ((List.range (A.n0 * A.n1 * A.n2)).map (sparseVal R A.buf A.n2)) := by
  unfold sparseGpu
  exact launch_store _ _ _ (fun b t _ => sparse_thread R A hR hA h0 h1 b t) _ (blocksFor_covers _) _ (hs _) junk (by rw [hj, h0])

/-- what thread `i` of the 3d2d kernel stores -/
def dot32Val (tb zc : List K) (nrows nb i : Nat) : K :=
  (List.range nb).foldl (fun x j => x + tb.getD (i / nrows * nrows * nb + i % nrows * nb + j) 0 * zc.getD (i / nrows * nb + j) 0) 0

theorem dot32_thread (tb zc : List K) (nrows nb nt : Nat) (htb : tb.length = nt * nrows * nb) (hzc : zc.length = nt * nb) (b t : Nat) :
    dot32Kernel tb zc nrows nb nt b t = .ok (if blockSize * b + t < nrows * nt then some (.store (blockSize * b + t) (dot32Val tb zc nrows nb (blockSize * b + t))) else none) := by
  simp only [dot32Kernel]
  generalize blockSize * b + t = i
  by_cases hi : i < nrows * nt
  · rw [if_neg (by omega), if_pos hi]
    have hn : 0 < nrows := by
      rcases Nat.eq_zero_or_pos nrows with h | h
      · subst h; simp at hi
      · exact h
    have h1 : i / nrows < nt := Nat.div_lt_of_lt_mul hi
    have h2 : i % nrows < nrows := Nat.mod_lt _ hn
    rw [foldlM_ok _ (fun x j => x + tb.getD (i / nrows * nrows * nb + i % nrows * nb + j) 0 * zc.getD (i / nrows * nb + j) 0)]
    · rfl
    · intro j hj x
      have hj' := List.mem_range.1 hj
      have a1 : i / nrows * nrows * nb + i % nrows * nb + j < tb.length := by
        rw [htb, Nat.mul_assoc (i / nrows)]
        exact idx3_lt h1 h2 hj'
      have a2 : i / nrows * nb + j < zc.length := by
        rw [hzc]
        calc i / nrows * nb + j < i / nrows * nb + nb := by omega
          _ = (i / nrows + 1) * nb := by ring
          _ ≤ nt * nb := Nat.mul_le_mul_right _ h1
      rw [npGet_getD _ _ 0 a1, npGet_getD _ _ 0 a2]
      rfl
  · rw [if_pos (by omega), if_neg hi]

theorem dot32Gpu_eq (tbs : Array3 K) (hA : tbs.Contiguous) (zc : List (List K)) (hz : zc.length = tbs.n0) (hr : ∀ c ∈ zc, c.length = tbs.n2) (s : Schedule) (hs : FairSchedule s) (junk : List K)
    (hj : junk.length = tbs.n0 * tbs.n1) : dot32Gpu tbs zc tbs.n2 s junk = .ok ((List.range (tbs.n1 * zc.length)).map (dot32Val tbs.buf zc.flatten tbs.n1 tbs.n2)) := by
  unfold dot32Gpu
  refine launch_store _ _ _ (fun b t _ => dot32_thread _ _ _ _ _ ?_ ?_ b t) _ (blocksFor_covers _) _ (hs _) junk ?_
  · rw [hA.len, hz]
  · rw [flatten_length_const _ _ hr]
  · rw [hj, hz, Nat.mul_comm]

/-- what thread number `u` of the 3d3d kernel adds -/
def dot33Val (a b : List K) (nrows nb P : Nat) (tr : Bool) (u : Nat) : K :=
  (List.range' (u % P * (nrows / P)) ((if u % P = P - 1 then nrows else (u % P + 1) * (nrows / P)) - u % P * (nrows / P))).foldl
    (fun x j => x + a.getD (if tr then u / P / (nb * nb) * nrows * nb + u / P % (nb * nb) % nb + j * nb else u / P / (nb * nb) * nrows * nb + u / P % (nb * nb) % nb * nrows + j) 0 *
      b.getD (u / P / (nb * nb) * nrows * nb + u / P % (nb * nb) / nb + j * nb) 0) 0

theorem dot33_thread (a b : List K) (nrows nb nt P : Nat) (tr : Bool) (hP : P ∣ blockSize) (ha : a.length = nt * nrows * nb) (hb : b.length = nt * nrows * nb) (bl t : Nat) :
    dot33Kernel a b nrows nb nt P tr bl t = .ok (if blockSize * bl + t < nt * nb * nb * P then
      some (.atomicAdd ((blockSize * bl + t) / P) (dot33Val a b nrows nb P tr (blockSize * bl + t))) else none) := by
  simp only [dot33Kernel]
  have ht : t % P = (blockSize * bl + t) % P := by
    obtain ⟨q, hq⟩ := hP
    rw [hq, Nat.mul_assoc, Nat.mul_add_mod]
  rw [ht]
  generalize blockSize * bl + t = u
  have hcomm : nb * nb * nt * P = nt * nb * nb * P := by ring
  by_cases hu : u < nt * nb * nb * P
  · rw [if_neg (by omega), if_pos hu]
    have hP0 : 0 < P := by
      rcases Nat.eq_zero_or_pos P with h | h
      · subst h; simp at hu
      · exact h
    have hm : u / P < nb * nb * nt := Nat.div_lt_of_lt_mul (by rw [Nat.mul_comm]; omega)
    obtain ⟨d1, d2, d3, -⟩ := decode_lt (n0 := nt) (n1 := nb) (n2 := nb) (i := u / P) hm
    have d4 : u / P % (nb * nb) % nb < nb := Nat.mod_lt _ (by omega)
    rw [foldlM_ok _ (fun x j => x + a.getD (if tr then u / P / (nb * nb) * nrows * nb + u / P % (nb * nb) % nb + j * nb else u / P / (nb * nb) * nrows * nb + u / P % (nb * nb) % nb * nrows + j) 0 *
      b.getD (u / P / (nb * nb) * nrows * nb + u / P % (nb * nb) / nb + j * nb) 0)]
    · rfl
    · intro j hj x
      rw [List.mem_range'_1] at hj
      have hjn : j < nrows := by
        have hk : u % P < P := Nat.mod_lt _ hP0
        by_cases hl : u % P = P - 1
        · rw [if_pos hl] at hj; omega
        · rw [if_neg hl] at hj
          have : (u % P + 1) * (nrows / P) ≤ nrows := by
            calc (u % P + 1) * (nrows / P) ≤ P * (nrows / P) := Nat.mul_le_mul_right _ hk
              _ ≤ nrows := Nat.mul_div_le _ _
          omega
      have a2 : u / P / (nb * nb) * nrows * nb + u / P % (nb * nb) / nb + j * nb < b.length := by
        rw [hb]
        calc _ = u / P / (nb * nb) * (nrows * nb) + j * nb + u / P % (nb * nb) / nb := by ring
          _ < _ := idx3_lt d3 hjn d2
      cases tr
      · have a1 : u / P / (nb * nb) * nrows * nb + u / P % (nb * nb) % nb * nrows + j < a.length := by
          rw [ha]
          calc _ = u / P / (nb * nb) * (nb * nrows) + u / P % (nb * nb) % nb * nrows + j := by ring
            _ < nt * nb * nrows := idx3_lt d3 d4 hjn
            _ = _ := by ring
        simp only [Bool.false_eq_true, if_false]
        rw [npGet_getD _ _ 0 a1, npGet_getD _ _ 0 a2]
        rfl
      · have a1 : u / P / (nb * nb) * nrows * nb + u / P % (nb * nb) % nb + j * nb < a.length := by
          rw [ha]
          calc _ = u / P / (nb * nb) * (nrows * nb) + j * nb + u / P % (nb * nb) % nb := by ring
            _ < _ := idx3_lt d3 hjn d4
        simp only [if_true]
        rw [npGet_getD _ _ 0 a1, npGet_getD _ _ 0 a2]
        rfl
  · rw [if_pos (by omega), if_neg hu]

theorem nparallel_dvd (fp : Bool) (nz : Nat) : nparallelOf fp nz ∣ blockSize ∧ 0 < nparallelOf fp nz := by
  unfold nparallelOf blockSize
  cases fp
  · by_cases h : nz ≤ 512
    · simp [h]
    · simp [h]
  · simp

end kernels

section exact
variable {K : Type} [Field K] [LinearOrder K] [IsStrictOrderedRing K]

/-- Element `(i, j, k)` of a 3-d array. -/
def Array3.elem (A : Array3 K) (i j k : Nat) : K := ((A.nested.getD i []).getD j []).getD k 0

theorem elem_eq (A : Array3 K) (i j k : Nat) (hi : i < A.n0) (hj : j < A.n1) (hk : k < A.n2) : A.elem i j k = A.buf.getD (i * A.s0 + j * A.s1 + k * A.s2) 0 := by
  simp [Array3.elem, Array3.nested, hi, hj, hk]

theorem elem_contiguous (A : Array3 K) (hA : A.Contiguous) (i j k : Nat) (hi : i < A.n0) (hj : j < A.n1) (hk : k < A.n2) : A.elem i j k = A.buf.getD (i * (A.n1 * A.n2) + j * A.n2 + k) 0 := by
  rw [elem_eq A i j k hi hj hk, hA.s0, hA.s1, hA.s2, Nat.mul_one]

theorem foldl_add {α : Type} (h : α → K) (l : List α) (x : K) : l.foldl (fun x j => x + h j) x = x + (l.map h).sum := by
  induction l generalizing x with
  | nil => simp
  | cons a l ih => rw [List.foldl_cons, ih, List.map_cons, List.sum_cons, add_assoc]

theorem sum_range' (h : Nat → K) (a n : Nat) : ((List.range' a n).map h).sum = ∑ j ∈ Finset.Ico a (a + n), h j := by
  rw [Finset.sum_Ico_eq_sum_range, ← sum_range_list, List.range'_eq_map_range, List.map_map]
  simp [Function.comp_def]

/-- the chunks of the `P` threads of one output cell cover the rows -/
theorem chunks_sum (h : Nat → K) (n P : Nat) (hP : 0 < P) :
    ((List.range P).map (fun k => ((List.range' (k * (n / P)) ((if k = P - 1 then n else (k + 1) * (n / P)) - k * (n / P))).map h).sum)).sum = ∑ j ∈ Finset.range n, h j := by
  obtain ⟨Q, rfl⟩ : ∃ Q, P = Q + 1 := ⟨P - 1, by omega⟩
  have hpart : ∀ m, m ≤ Q → ((List.range m).map (fun k => ((List.range' (k * (n / (Q + 1))) ((if k = Q + 1 - 1 then n else (k + 1) * (n / (Q + 1))) - k * (n / (Q + 1)))).map h).sum)).sum =
      ∑ j ∈ Finset.range (m * (n / (Q + 1))), h j := by
    intro m
    induction m with
    | zero => intro _; simp
    | succ m ih =>
      intro hm
      rw [List.range_succ, List.map_append, List.sum_append, ih (by omega), List.map_singleton, List.sum_singleton, if_neg (by omega), sum_range', Nat.add_sub_cancel' (Nat.mul_le_mul_right _ (by omega))]
      rw [Finset.sum_range_add_sum_Ico _ (Nat.mul_le_mul_right _ (by omega))]
  rw [List.range_succ, List.map_append, List.sum_append, hpart Q le_rfl, List.map_singleton, List.sum_singleton, if_pos (by omega), sum_range']
  have : Q * (n / (Q + 1)) ≤ n := (Nat.mul_le_mul_right _ (by omega)).trans (Nat.mul_div_le n (Q + 1))
  rw [Nat.add_sub_cancel' this, Finset.sum_range_add_sum_Ico _ this]

/-- the 3d3d product, transposed first argument -/
theorem dot33Gpu_eq (a b : Array3 K) (ha : a.Contiguous) (hb : b.Contiguous) (h0 : b.n0 = a.n0) (h1 : b.n1 = a.n1) (h2 : b.n2 = a.n2) (fp : Bool) (s : Schedule) (hs : FairSchedule s) :
    ∃ flat, dot33Gpu a b true fp s = .ok flat ∧ (Array3.ofFlat flat a.n0 a.n2 a.n2).nested = (List.range a.n0).map (fun t => (List.range a.n2).map (fun p => (List.range a.n2).map (fun q =>
      ∑ j ∈ Finset.range a.n1, a.elem t j q * b.elem t j p))) := by
  obtain ⟨hd, hP⟩ := nparallel_dvd fp a.n0
  unfold dot33Gpu
  simp only [if_true]
  refine ⟨_, launch_atomic _ _ _ hP _ (fun bl t _ => dot33_thread _ _ _ _ _ _ _ hd ha.len (by rw [hb.len, h0, h1, h2]) bl t) _ (blocksFor_covers _) _ (hs _), ?_⟩
  rw [nested_range]
  apply List.map_congr_left
  intro t ht
  apply List.map_congr_left
  intro p hp
  apply List.map_congr_left
  intro q hq
  rw [List.mem_range] at ht hp hq
  obtain ⟨e1, e2, e3⟩ := idx3_decode (i := t) (j := p) (k := q) hp hq
  set P := nparallelOf fp a.n0
  have hdiv : ∀ k, k < P → ((t * (a.n2 * a.n2) + p * a.n2 + q) * P + k) / P = t * (a.n2 * a.n2) + p * a.n2 + q ∧ ((t * (a.n2 * a.n2) + p * a.n2 + q) * P + k) % P = k := by
    intro k hk
    constructor
    · rw [Nat.add_comm, Nat.add_mul_div_right _ _ hP, Nat.div_eq_of_lt hk, Nat.zero_add]
    · rw [Nat.add_comm, Nat.add_mul_mod_self_right, Nat.mod_eq_of_lt hk]
  have hval : ∀ k ∈ List.range P, dot33Val a.buf b.buf a.n1 a.n2 P true ((t * (a.n2 * a.n2) + p * a.n2 + q) * P + k) =
      ((List.range' (k * (a.n1 / P)) ((if k = P - 1 then a.n1 else (k + 1) * (a.n1 / P)) - k * (a.n1 / P))).map (fun j =>
        a.buf.getD (t * (a.n1 * a.n2) + j * a.n2 + q) 0 * b.buf.getD (t * (a.n1 * a.n2) + j * a.n2 + p) 0)).sum := by
    intro k hk
    obtain ⟨k1, k2⟩ := hdiv k (List.mem_range.1 hk)
    unfold dot33Val
    rw [k1, k2, foldl_add, zero_add, e2, e3, Nat.mod_mod_of_dvd _ (Nat.dvd_mul_right a.n2 a.n2), e1]
    congr 2
    funext j
    rw [if_pos rfl, show t * a.n1 * a.n2 + q + j * a.n2 = t * (a.n1 * a.n2) + j * a.n2 + q by ring, show t * a.n1 * a.n2 + p + j * a.n2 = t * (a.n1 * a.n2) + j * a.n2 + p by ring]
  rw [List.map_congr_left hval, chunks_sum _ _ _ hP]
  apply Finset.sum_congr rfl
  intro j hj
  rw [Finset.mem_range] at hj
  rw [elem_contiguous a ha t j q ht hj hq, elem_contiguous b hb t j p (by omega) (by omega) (by omega), h1, h2]

/-- the 3d3d product, first argument as it is: the result is the transpose of `a @ b` -/
theorem dot33Gpu_plain_eq (a b : Array3 K) (ha : a.Contiguous) (hb : b.Contiguous) (h0 : b.n0 = a.n0) (h1 : b.n1 = a.n2) (h2 : b.n2 = a.n1) (fp : Bool) (s : Schedule) (hs : FairSchedule s) :
    ∃ flat, dot33Gpu a b false fp s = .ok flat ∧ (Array3.ofFlat flat a.n0 a.n1 a.n1).nested = (List.range a.n0).map (fun t => (List.range a.n1).map (fun p => (List.range a.n1).map (fun q =>
      ∑ j ∈ Finset.range a.n2, a.elem t q j * b.elem t j p))) := by
  obtain ⟨hd, hP⟩ := nparallel_dvd fp a.n0
  unfold dot33Gpu
  simp only [Bool.false_eq_true, if_false]
  refine ⟨_, launch_atomic _ _ _ hP _ (fun bl t _ => dot33_thread _ _ _ _ _ _ _ hd (by rw [ha.len]; ring) (by rw [hb.len, h0, h1, h2]) bl t) _ (blocksFor_covers _) _ (hs _), ?_⟩
  rw [nested_range]
  apply List.map_congr_left
  intro t ht
  apply List.map_congr_left
  intro p hp
  apply List.map_congr_left
  intro q hq
  rw [List.mem_range] at ht hp hq
  obtain ⟨e1, e2, e3⟩ := idx3_decode (i := t) (j := p) (k := q) hp hq
  set P := nparallelOf fp a.n0
  have hdiv : ∀ k, k < P → ((t * (a.n1 * a.n1) + p * a.n1 + q) * P + k) / P = t * (a.n1 * a.n1) + p * a.n1 + q ∧ ((t * (a.n1 * a.n1) + p * a.n1 + q) * P + k) % P = k := by
    intro k hk
    constructor
    · rw [Nat.add_comm, Nat.add_mul_div_right _ _ hP, Nat.div_eq_of_lt hk, Nat.zero_add]
    · rw [Nat.add_comm, Nat.add_mul_mod_self_right, Nat.mod_eq_of_lt hk]
  have hval : ∀ k ∈ List.range P, dot33Val a.buf b.buf a.n2 a.n1 P false ((t * (a.n1 * a.n1) + p * a.n1 + q) * P + k) =
      ((List.range' (k * (a.n2 / P)) ((if k = P - 1 then a.n2 else (k + 1) * (a.n2 / P)) - k * (a.n2 / P))).map (fun j =>
        a.buf.getD (t * (a.n1 * a.n2) + q * a.n2 + j) 0 * b.buf.getD (t * (a.n2 * a.n1) + j * a.n1 + p) 0)).sum := by
    intro k hk
    obtain ⟨k1, k2⟩ := hdiv k (List.mem_range.1 hk)
    unfold dot33Val
    rw [k1, k2, foldl_add, zero_add, e2, e3, Nat.mod_mod_of_dvd _ (Nat.dvd_mul_right a.n1 a.n1), e1]
    congr 2
    funext j
    rw [if_neg (by simp), show t * a.n2 * a.n1 + q * a.n2 + j = t * (a.n1 * a.n2) + q * a.n2 + j by ring, show t * a.n2 * a.n1 + p + j * a.n1 = t * (a.n2 * a.n1) + j * a.n1 + p by ring]
  rw [List.map_congr_left hval, chunks_sum _ _ _ hP]
  apply Finset.sum_congr rfl
  intro j hj
  rw [Finset.mem_range] at hj
  rw [elem_contiguous a ha t q j ht hq hj, elem_contiguous b hb t j p (by omega) (by omega) (by omega), h1, h2]

end exact
end Redrock.Gpu
