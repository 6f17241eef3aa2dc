import Verif.Props.Gpu
import Verif.Lemmas.Details

/-! Property C100, continued: the whole GPU fit. -/
set_option linter.unusedSectionVars false
namespace Redrock.Gpu
open Redrock
section
variable {K ω : Type} [Field K] [LinearOrder K] [IsStrictOrderedRing K] [DecidableEq ω]

theorem sum_mul_of_indicator (n : Nat) (t : Nat → K) (ind : Nat → Nat) (d : Nat → K) (l : List Nat) (hl : ∀ j ∈ l, ind j < n) :
    ∑ c ∈ Finset.range n, (l.map (fun j => if ind j = c then d j else 0)).sum * t c = (l.map (fun j => d j * t (ind j))).sum := by
  induction l with
  | nil => simp
  | cons j l ih =>
    simp only [List.map_cons, List.sum_cons, add_mul, Finset.sum_add_distrib]
    rw [ih (fun k hk => hl k (List.mem_cons_of_mem _ hk))]
    congr 1
    rw [Finset.sum_eq_single (ind j)]
    · simp
    · intro c _ hc
      rw [if_neg (fun h => hc h.symm), zero_mul]
    · intro h
      exact absurd (Finset.mem_range.2 (hl j (by simp))) h

theorem nested_shape (A : Array3 K) : Shape3 A.nested A.n0 A.n1 A.n2 := by
  refine ⟨by simp [Array3.nested], ?_, ?_⟩
  · intro T hT
    simp only [Array3.nested, List.mem_map] at hT
    obtain ⟨i, _, rfl⟩ := hT
    simp
  · intro T hT r hr
    simp only [Array3.nested, List.mem_map] at hT
    obtain ⟨i, _, rfl⟩ := hT
    obtain ⟨j, _, rfl⟩ := List.mem_map.1 hr
    simp

theorem contiguous_ofFlat (L : List (List (List K))) (n0 n1 n2 : Nat) (h : Shape3 L n0 n1 n2) : (Array3.ofFlat (L.flatMap List.flatten) n0 n1 n2).Contiguous := by
  refine ⟨rfl, rfl, rfl, ?_⟩
  show (L.flatMap List.flatten).length = n0 * n1 * n2
  rw [List.flatMap_def, flatten_length_const (n1 * n2)]
  · rw [List.length_map, h.1]; ring
  · intro l hl
    obtain ⟨T, hT, rfl⟩ := List.mem_map.1 hl
    rw [flatten_length_const n2 T (h.2.2 T hT), h.2.1 T hT]

/-- one spectrum: the kernel computes the product of the resolution matrix with the template of every redshift -/
theorem sparseGpu_nested (R : Csr K) (A : Array3 K) (hR : R.Valid) (hA : A.Contiguous) (h0 : R.shape0 = A.n1) (h1 : R.shape1 = A.n1) (s : Schedule) (hs : FairSchedule s) (junk : List K)
    (hj : junk.length = A.n0 * R.shape0 * A.n2) :
    ∃ flat, sparseGpu R A s junk = .ok flat ∧ (Array3.ofFlat flat A.n0 R.shape0 A.n2).nested = A.nested.map (fun T => matMul R.dense T A.n2) := by
  refine ⟨_, sparseGpu_eq R A hR hA h0 h1 s hs junk hj, ?_⟩
  rw [h0, nested_range]
  conv_rhs => rw [Array3.nested]
  rw [List.map_map]
  apply List.map_congr_left
  intro i hi
  rw [List.mem_range] at hi
  simp only [Function.comp, matMul, Csr.dense, List.map_map]
  rw [h0]
  apply List.map_congr_left
  intro r hr
  rw [List.mem_range] at hr
  simp only [Function.comp]
  apply List.map_congr_left
  intro b hb
  rw [List.mem_range] at hb
  obtain ⟨e1, e2, e3⟩ := idx3_decode (n1 := A.n1) (n2 := A.n2) (i := i) hr hb
  unfold sparseVal
  rw [h0, e1, e2, e3, foldl_add, zero_add, dotv_eq_sum _ _ A.n1 (by simp [h1]) (by simp [col])]
  have hl : ∀ j ∈ List.range' (R.indptr.getD r 0) (R.indptr.getD (r + 1) 0 - R.indptr.getD r 0), R.indices.getD j 0 < A.n1 := by
    intro j hj
    rw [List.mem_range'_1] at hj
    have hrow : r + 1 < R.indptr.length := by rw [hR.ptr]; omega
    have hmem : R.indptr.getD (r + 1) 0 ∈ R.indptr := by
      rw [List.getD_eq_getElem?_getD, List.getElem?_eq_getElem hrow]; exact List.getElem_mem _
    have hle := hR.inside _ hmem
    have hj2 : j < R.indices.length := by rw [hR.same]; omega
    rw [← h1]
    apply hR.cols
    rw [List.getD_eq_getElem?_getD, List.getElem?_eq_getElem hj2]; exact List.getElem_mem _
  rw [show (∑ c ∈ Finset.range A.n1, _) = ∑ c ∈ Finset.range A.n1,
      ((List.range' (R.indptr.getD r 0) (R.indptr.getD (r + 1) 0 - R.indptr.getD r 0)).map (fun j => if R.indices.getD j 0 = c then R.data.getD j 0 else 0)).sum *
        A.buf.getD (i * (A.n1 * A.n2) + c * A.n2 + b) 0 from ?_]
  · rw [sum_mul_of_indicator A.n1 (fun c => A.buf.getD (i * (A.n1 * A.n2) + c * A.n2 + b) 0) (fun j => R.indices.getD j 0) (fun j => R.data.getD j 0) _ hl]
    congr 1
    apply List.map_congr_left
    intro j _
    rw [show i * A.n2 * A.n1 + A.n2 * R.indices.getD j 0 + b = i * (A.n1 * A.n2) + R.indices.getD j 0 * A.n2 + b by ring]
  · apply Finset.sum_congr rfl
    intro c hc
    rw [Finset.mem_range] at hc
    congr 1
    · simp [h1, hc]
    · simp [col, hc, hb, hA.s0, hA.s1, hA.s2]

/-- Specification: the inputs of a GPU fit: well-formed square resolution matrices, and for the wavelength grid of every spectrum a template array of shape `(nz, nwave, nbasis)` stored in C order. -/
def OnGpu (spectra : List (Spec ω K)) (tdata : PyDict ω (Array3 K)) (nz nbasis : Nat) : Prop :=
  ∀ s ∈ spectra, s.Rcsr.Valid ∧ ∃ A, tdata.get? s.wavehash = some A ∧ A.Contiguous ∧ A.n0 = nz ∧ A.n2 = nbasis ∧ s.Rcsr.shape0 = A.n1 ∧ s.Rcsr.shape1 = A.n1

/-- Number of pixels of all spectra. -/
def nrowsOf (spectra : List (Spec ω K)) : Nat := (spectra.map (fun s => s.Rcsr.shape0)).sum

/-- Specification: every launch runs each of its threads once, in any order; the memory from `cp.empty` has the requested size and any content. -/
structure Device.Ok (D : Device K) (spectra : List (Spec ω K)) (nz nbasis : Nat) : Prop where
  sparse : ∀ k, FairSchedule (D.sparse k)
  dot33 : FairSchedule D.dot33
  dot32 : FairSchedule D.dot32
  junk : ∀ k s, spectra[k]? = some s → (D.junk k).length = nz * s.Rcsr.shape0 * nbasis
  junk32 : D.junk32.length = nz * nrowsOf spectra

/-- The template on grid `h` at redshift number `i`. -/
def templateAt (tdata : PyDict ω (Array3 K)) (i : Nat) (h : ω) : List (List K) := match tdata.get? h with
  | some A => A.nested.getD i []
  | none => []

/-- The templates of the spectra at redshift number `i`, convolved with the resolution. -/
def tbOf (spectra : List (Spec ω K)) (tdata : PyDict ω (Array3 K)) (nbasis i : Nat) : List (List K) :=
  spectra.flatMap (fun s => matMul s.Rcsr.dense (templateAt tdata i s.wavehash) nbasis)

theorem tbOf_shape (spectra : List (Spec ω K)) (tdata : PyDict ω (Array3 K)) (nbasis i : Nat) : (tbOf spectra tdata nbasis i).length = nrowsOf spectra ∧
    ∀ r ∈ tbOf spectra tdata nbasis i, r.length = nbasis := by
  constructor
  · unfold tbOf nrowsOf
    rw [List.length_flatMap]
    congr 1
    apply List.map_congr_left
    intro s _
    simp [matMul, Csr.dense]
  · intro r hr
    unfold tbOf at hr
    rw [List.mem_flatMap] at hr
    obtain ⟨s, _, h⟩ := hr
    simp only [matMul, List.mem_map] at h
    obtain ⟨_, _, rfl⟩ := h
    simp

theorem mapM_zipIdx {α β : Type} (f : α × Nat → Py β) (P : α → β → Prop) (l : List α) (k0 : Nat) (h : ∀ k a, l[k]? = some a → ∃ b, f (a, k0 + k) = .ok b ∧ P a b) :
    ∃ r, (l.zipIdx k0).mapM f = .ok r ∧ List.Forall₂ P l r := by
  induction l generalizing k0 with
  | nil => exact ⟨[], rfl, .nil⟩
  | cons a l ih =>
    obtain ⟨b, h1, h2⟩ := h 0 a rfl
    obtain ⟨r, h3, h4⟩ := ih (k0 + 1) (fun k a' ha' => by
      obtain ⟨b', h5, h6⟩ := h (k + 1) a' (by simpa using ha')
      exact ⟨b', by rw [show k0 + 1 + k = k0 + (k + 1) by omega]; exact h5, h6⟩)
    refine ⟨b :: r, ?_, .cons h2 h4⟩
    rw [List.zipIdx_cons, List.mapM_cons, show f (a, k0) = .ok b from h1, h3]
    rfl

/-- `_batch_dot_product_sparse_gpu` -/
theorem sparseGpuAll_eq (D : Device K) (spectra : List (Spec ω K)) (tdata : PyDict ω (Array3 K)) (nz nbasis : Nat) (hne : spectra ≠ []) (hin : OnGpu spectra tdata nz nbasis) (hD : D.Ok spectra nz nbasis) :
    ∃ tbs, sparseGpuAll D spectra tdata = .ok tbs ∧ tbs.Contiguous ∧ tbs.n0 = nz ∧ tbs.n1 = nrowsOf spectra ∧ tbs.n2 = nbasis ∧
      tbs.nested = (List.range nz).map (tbOf spectra tdata nbasis) := by
  obtain ⟨r, hr, hf⟩ := mapM_zipIdx (fun sk : Spec ω K × Nat => do
    let A ← tdata.get sk.1.wavehash
    let flat ← sparseGpu sk.1.Rcsr A (D.sparse sk.2) (D.junk sk.2)
    return Array3.ofFlat flat A.n0 sk.1.Rcsr.shape0 A.n2)
    (fun s B => B.n0 = nz ∧ B.n1 = s.Rcsr.shape0 ∧ B.n2 = nbasis ∧ B.nested = (List.range nz).map (fun i => matMul s.Rcsr.dense (templateAt tdata i s.wavehash) nbasis)) spectra 0 (by
      intro k s hs
      obtain ⟨hv, A, h1, h2, h3, h4, h5, h6⟩ := hin s (List.mem_of_getElem? hs)
      obtain ⟨flat, h7, h8⟩ := sparseGpu_nested s.Rcsr A hv h2 h5 h6 (D.sparse (0 + k)) (hD.sparse _) (D.junk (0 + k)) (by rw [Nat.zero_add, hD.junk k s hs, h3, h4])
      refine ⟨Array3.ofFlat flat A.n0 s.Rcsr.shape0 A.n2, ?_, h3, rfl, h4, ?_⟩
      · simp only [PyDict.get, h1, okBind, h7]
        rfl
      · rw [h8]
        conv_lhs => rw [← map_range_getD [] A.nested A.n0 (nested_shape A).1]
        rw [List.map_map, h3, h4]
        apply List.map_congr_left
        intro i _
        simp only [Function.comp, templateAt, h1])
  unfold sparseGpuAll
  rw [hr]
  cases hf with
  | nil => exact absurd rfl hne
  | @cons s B ss Bs h1 h2 =>
    have hall : ∀ C ∈ B :: Bs, C.n0 = nz ∧ C.n2 = nbasis := by
      have : List.Forall₂ (fun (s : Spec ω K) C => C.n0 = nz ∧ C.n1 = s.Rcsr.shape0 ∧ C.n2 = nbasis ∧
          C.nested = (List.range nz).map (fun i => matMul s.Rcsr.dense (templateAt tdata i s.wavehash) nbasis)) (s :: ss) (B :: Bs) := .cons h1 h2
      intro C hC
      obtain ⟨i, hi, rfl⟩ := List.getElem_of_mem hC
      have := List.Forall₂.get this (i := i) (by rw [this.length_eq]; exact hi) hi
      exact ⟨this.1, this.2.2.1⟩
    have hsum : ((B :: Bs).map (·.n1)).sum = nrowsOf (s :: ss) := by
      unfold nrowsOf
      congr 1
      simp only [List.map_cons]
      rw [h1.2.1]
      congr 1
      clear hr hin hD hall
      induction h2 with
      | nil => rfl
      | cons h _ ih => simp only [List.map_cons, h.2.1, ih (by simp)]
    have hflat : ∀ i, i < nz → (B :: Bs).flatMap (fun C => C.nested.getD i []) = tbOf (s :: ss) tdata nbasis i := by
      intro i hi
      unfold tbOf
      have hF : List.Forall₂ (fun (s : Spec ω K) C => C.n0 = nz ∧ C.n1 = s.Rcsr.shape0 ∧ C.n2 = nbasis ∧
          C.nested = (List.range nz).map (fun i => matMul s.Rcsr.dense (templateAt tdata i s.wavehash) nbasis)) (s :: ss) (B :: Bs) := .cons h1 h2
      generalize s :: ss = l1 at hF
      generalize B :: Bs = l2 at hF
      induction hF with
      | nil => rfl
      | cons h _ ih =>
        rw [List.flatMap_cons, List.flatMap_cons, ih]
        congr 1
        rw [h.2.2.2]
        simp [hi]
    have hcheck : Bs.any (fun C => decide (C.n0 ≠ B.n0 ∨ C.n2 ≠ B.n2)) = false := by
      rw [List.any_eq_false]
      intro C hC
      obtain ⟨a1, a2⟩ := hall C (List.mem_cons_of_mem _ hC)
      simp [a1, a2, h1.1, h1.2.2.1]
    have hL : ∀ (L : List (List (List K))), L = (List.range nz).map (tbOf (s :: ss) tdata nbasis) →
        (List.range B.n0).flatMap (fun i => (B :: Bs).flatMap (fun C => (C.nested.getD i []).flatten)) = L.flatMap List.flatten := by
      rintro L rfl
      rw [h1.1, List.flatMap_map]
      apply List.flatMap_congr
      intro i hi
      rw [← hflat i (List.mem_range.1 hi)]
      simp [List.flatMap_def, List.flatten_flatten, Function.comp_def]
    have hshape : Shape3 ((List.range nz).map (tbOf (s :: ss) tdata nbasis)) nz (nrowsOf (s :: ss)) nbasis := by
      refine ⟨by simp, ?_, ?_⟩
      · intro T hT
        obtain ⟨i, _, rfl⟩ := List.mem_map.1 hT
        exact (tbOf_shape _ _ _ _).1
      · intro T hT
        obtain ⟨i, _, rfl⟩ := List.mem_map.1 hT
        exact (tbOf_shape _ _ _ _).2
    simp only [okBind, hstack, hcheck, Bool.false_eq_true, if_false]
    rw [hL _ rfl, h1.1, hsum, h1.2.2.1]
    exact ⟨_, rfl, contiguous_ofFlat _ _ _ _ hshape, rfl, rfl, rfl, nested_ofFlat _ _ _ _ hshape⟩

/-- the weighted templates -/
theorem weighted_eq (weights : List K) (tbs : Array3 K) (hw : weights.length = tbs.n1) : (weighted weights tbs).Contiguous ∧ ∀ i j k, i < tbs.n0 → j < tbs.n1 → k < tbs.n2 →
    (weighted weights tbs).elem i j k = weights.getD j 0 * tbs.elem i j k := by
  have hs := nested_shape tbs
  have hshape : Shape3 (tbs.nested.map (fun T => List.zipWith (fun w row => row.map (fun v => w * v)) weights T)) tbs.n0 tbs.n1 tbs.n2 := by
    refine ⟨by simp [hs.1], ?_, ?_⟩
    · intro T hT
      obtain ⟨T', hT', rfl⟩ := List.mem_map.1 hT
      simp [hs.2.1 T' hT', hw]
    · intro T hT r hr
      obtain ⟨T', hT', rfl⟩ := List.mem_map.1 hT
      rw [← List.map_uncurry_zip_eq_zipWith, List.mem_map] at hr
      obtain ⟨⟨w, row⟩, hp, rfl⟩ := hr
      simp [hs.2.2 T' hT' row (List.of_mem_zip hp).2]
  have e : tbs.nested.flatMap (fun T => (List.zipWith (fun w row => row.map (fun v => w * v)) weights T).flatten) =
      (tbs.nested.map (fun T => List.zipWith (fun w row => row.map (fun v => w * v)) weights T)).flatMap List.flatten := by
    rw [List.flatMap_map]
  unfold weighted
  rw [e]
  refine ⟨contiguous_ofFlat _ _ _ _ hshape, ?_⟩
  intro i j k hi hj hk
  unfold Array3.elem
  rw [nested_ofFlat _ _ _ _ hshape]
  have hi' : i < tbs.nested.length := by rw [hs.1]; exact hi
  have hT : tbs.nested.getD i [] ∈ tbs.nested := by simp [hi']
  have e1 : (tbs.nested.map (fun T => List.zipWith (fun w row => row.map (fun v => w * v)) weights T)).getD i [] =
      List.zipWith (fun w row => row.map (fun v => w * v)) weights (tbs.nested.getD i []) := by
    simp [List.getD_eq_getElem?_getD, hi']
  rw [e1]
  generalize hTT : tbs.nested.getD i [] = T at hT
  have hl := hs.2.1 T hT
  have hj1 : j < weights.length := by omega
  have hj2 : j < T.length := by omega
  have hrow : T[j] ∈ T := List.getElem_mem _
  have hk' : k < T[j].length := by rw [hs.2.2 T hT _ hrow]; exact hk
  simp [hj1, hj2, hk']

/-- entries of the normal matrix as sums over rows -/
theorem normalM_sum (Tb : List (List K)) (w : List K) (n : Nat) (hT : Tb.length = n) (hw : w.length = n) (p q : Nat) :
    dotv (col Tb p) (List.zipWith (· * ·) w (col Tb q)) = ∑ j ∈ Finset.range n, (Tb.getD j []).getD q 0 * (w.getD j 0 * (Tb.getD j []).getD p 0) := by
  rw [dotv_eq_sum _ _ n (by simp [col, hT]) (by simp [col, hT, hw])]
  apply Finset.sum_congr rfl
  intro j hj
  rw [Finset.mem_range] at hj
  have h1 : j < Tb.length := by omega
  have h2 : j < w.length := by omega
  simp [col, h1, h2]
  ring

/-- what the GPU fit computes, in terms of the convolved templates `Tb` of each redshift -/
theorem gpuBatch_eq (D : Device K) (S : Solvers K) (cpSolve : List (List K) → List K → List K) (alg : SolveAlgorithm) (bounds : Option (List (Option K) × List (Option K)))
    (spectra : List (Spec ω K)) (tdata : PyDict ω (Array3 K)) (weights flux wflux : List K) (nz nbasis : Nat) (fp : Bool) (prior : Option (List (List K)))
    (hsum : weights.sum ≠ 0) (hin : OnGpu spectra tdata nz nbasis) (hD : D.Ok spectra nz nbasis)
    (hw : weights.length = nrowsOf spectra) (hf : flux.length = nrowsOf spectra) (hwf : wflux.length = nrowsOf spectra)
    (hsol : ∀ z, solveMatricesGpu S cpSolve alg bounds ((List.range nz).map (fun i => addPrior (normalM (tbOf spectra tdata nbasis i) weights nbasis) prior))
      ((List.range nz).map (fun i => normalY (tbOf spectra tdata nbasis i) wflux nbasis)) = .ok z → z.length = nz ∧ ∀ c ∈ z, c.length = nbasis) :
    calcZchi2BatchGpu D S cpSolve alg bounds spectra tdata weights flux wflux nz nbasis fp prior =
      match solveMatricesGpu S cpSolve alg bounds ((List.range nz).map (fun i => addPrior (normalM (tbOf spectra tdata nbasis i) weights nbasis) prior))
        ((List.range nz).map (fun i => normalY (tbOf spectra tdata nbasis i) wflux nbasis)) with
      | .error .notImplemented => .ok (List.replicate nz (hugeChi2, List.replicate nbasis 0))
      | .error e => .error e
      | .ok z => .ok ((List.range nz).map (fun i =>
          (dotv ((List.zipWith (· - ·) flux (matVec (tbOf spectra tdata nbasis i) (z.getD i []))).map (fun r => r ^ 2)) weights, z.getD i []))) := by
  have hne : spectra ≠ [] := by
    rintro rfl
    have : weights = [] := List.length_eq_zero_iff.1 (by rw [hw]; rfl)
    subst this
    exact hsum rfl
  obtain ⟨tbs, t1, t2, t3, t4, t5, t6⟩ := sparseGpuAll_eq D spectra tdata nz nbasis hne hin hD
  have telem : ∀ i j k, i < nz → tbs.elem i j k = ((tbOf spectra tdata nbasis i).getD j []).getD k 0 := by
    intro i j k hi
    unfold Array3.elem
    rw [t6]
    simp [hi]
  obtain ⟨w1, w2⟩ := weighted_eq weights tbs (by rw [hw, t4])
  obtain ⟨flatM, m1, m2⟩ := dot33Gpu_eq tbs (weighted weights tbs) t2 w1 rfl rfl rfl fp D.dot33 hD.dot33
  have hM : (Array3.ofFlat flatM tbs.n0 tbs.n2 tbs.n2).nested = (List.range nz).map (fun i => normalM (tbOf spectra tdata nbasis i) weights nbasis) := by
    rw [m2, t3, t5]
    apply List.map_congr_left
    intro i hi
    rw [List.mem_range] at hi
    apply List.map_congr_left
    intro p hp
    apply List.map_congr_left
    intro q hq
    rw [List.mem_range] at hp hq
    rw [normalM_sum _ _ tbs.n1 (by rw [t4]; exact (tbOf_shape _ _ _ _).1) (by rw [hw, t4])]
    apply Finset.sum_congr rfl
    intro j hj
    rw [Finset.mem_range] at hj
    rw [w2 i j p (by omega) hj (by omega), telem i j q hi, telem i j p hi]
  have hy : tbs.nested.map (fun Tb => normalY Tb wflux tbs.n2) = (List.range nz).map (fun i => normalY (tbOf spectra tdata nbasis i) wflux nbasis) := by
    rw [t6, List.map_map, t5]; rfl
  unfold calcZchi2BatchGpu
  rw [if_neg hsum, t1]
  simp only [okBind]
  rw [if_neg (by rw [t4]; omega)]
  simp only [m1, okBind, hM, hy, List.map_map, Function.comp_def]
  generalize hA : (List.range nz).map (fun i => addPrior (normalM (tbOf spectra tdata nbasis i) weights nbasis) prior) = allM at hsol ⊢
  generalize hY : (List.range nz).map (fun i => normalY (tbOf spectra tdata nbasis i) wflux nbasis) = ally at hsol ⊢
  cases hz : solveMatricesGpu S cpSolve alg bounds allM ally with
  | error e =>
    cases e <;> rfl
  | ok z =>
    obtain ⟨z1, z2⟩ := hsol z hz
    dsimp only
    rw [dot32Gpu_eq tbs t2 z (by rw [z1, t3]) (by rw [t5]; exact z2) D.dot32 hD.dot32 D.junk32 (by rw [hD.junk32, t3, t4])]
    simp only [okBind]
    rw [if_neg (by simp [t3])]
    show Except.ok _ = Except.ok _
    congr 1
    apply List.ext_getElem
    · simp [t3, z1]
    · intro i h1 h2
      have hi : i < nz := by simpa using h2
      simp only [List.getElem_zip, List.getElem_map, List.getElem_range]
      have hzi : z.getD i [] = z[i]'(by omega) := by simp [show i < z.length by omega]
      rw [← hzi]
      congr 1
      have hzl : (z.getD i []).length = nbasis := by
        rw [hzi]; exact z2 _ (List.getElem_mem _)
      have hmodel : (List.range tbs.n1).map (fun r => ((List.range (tbs.n1 * z.length)).map (dot32Val tbs.buf z.flatten tbs.n1 tbs.n2)).getD (i * tbs.n1 + r) 0) =
          matVec (tbOf spectra tdata nbasis i) (z.getD i []) := by
        obtain ⟨s1, s2⟩ := tbOf_shape spectra tdata nbasis i
        conv_rhs => rw [matVec, ← map_range_getD [] (tbOf spectra tdata nbasis i) tbs.n1 (by rw [t4]; exact s1), List.map_map]
        apply List.map_congr_left
        intro r hr
        rw [List.mem_range] at hr
        have hlt : i * tbs.n1 + r < tbs.n1 * z.length := by
          calc i * tbs.n1 + r < i * tbs.n1 + tbs.n1 := by omega
            _ = tbs.n1 * (i + 1) := by ring
            _ ≤ tbs.n1 * z.length := Nat.mul_le_mul_left _ (by omega)
        have hdm : (i * tbs.n1 + r) / tbs.n1 = i ∧ (i * tbs.n1 + r) % tbs.n1 = r := by
          constructor
          · rw [Nat.add_comm, Nat.add_mul_div_right _ _ (by omega), Nat.div_eq_of_lt hr, Nat.zero_add]
          · rw [Nat.add_comm, Nat.add_mul_mod_self_right, Nat.mod_eq_of_lt hr]
        simp only [Function.comp]
        have hrl : ((tbOf spectra tdata nbasis i).getD r []).length = nbasis := by
          apply s2
          have : r < (tbOf spectra tdata nbasis i).length := by omega
          rw [List.getD_eq_getElem?_getD, List.getElem?_eq_getElem this]
          exact List.getElem_mem _
        rw [dotv_eq_sum _ _ nbasis hrl hzl]
        have : ((List.range (tbs.n1 * z.length)).map (dot32Val tbs.buf z.flatten tbs.n1 tbs.n2)).getD (i * tbs.n1 + r) 0 = dot32Val tbs.buf z.flatten tbs.n1 tbs.n2 (i * tbs.n1 + r) := by
          simp [hlt]
        rw [this]
        unfold dot32Val
        rw [hdm.1, hdm.2, foldl_add, zero_add, sum_range_list, t5]
        apply Finset.sum_congr rfl
        intro j hj
        rw [Finset.mem_range] at hj
        rw [getD_flatten_const 0 nbasis z z2 i j hj, ← telem i r j hi, elem_contiguous tbs t2 i r j (by omega) hr (by omega), t5, Nat.mul_assoc]
      rw [hmodel]
      simp only [pow_two]

/-- The same template dictionary for the CPU. -/
def toCpu (tdata : PyDict ω (Array3 K)) : PyDict ω (List (List (List K))) := tdata.map (fun e => (e.1, e.2.nested))

theorem get?_toCpu (tdata : PyDict ω (Array3 K)) (h : ω) : (toCpu tdata).get? h = (tdata.get? h).map Array3.nested := by
  unfold toCpu PyDict.get?
  rw [List.find?_map, Option.map_map, Option.map_map]
  rfl

theorem cpu_tb (spectra : List (Spec ω K)) (tdata : PyDict ω (Array3 K)) (nz nbasis : Nat) (hin : OnGpu spectra tdata nz nbasis) (i : Nat) (hi : i < nz) :
    dotProductSparseOne (spectra.map Spec.toFit) (toCpu tdata) nbasis i = .ok (tbOf spectra tdata nbasis i) := by
  rw [dotProductSparseOne_eq (T := templateAt tdata i)]
  · rw [List.flatMap_map]; rfl
  · intro s hs
    obtain ⟨s0, hs0, rfl⟩ := List.mem_map.1 hs
    obtain ⟨_, A, h1, h2, h3, h4, h5, h6⟩ := hin s0 hs0
    refine ⟨A.nested, ?_, ?_⟩
    · rw [get?_toCpu]
      show (tdata.get? s0.wavehash).map _ = _
      rw [h1]; rfl
    · have hlt : i < A.nested.length := by rw [(nested_shape A).1]; omega
      have : templateAt tdata i (Spec.toFit s0).wavehash = A.nested.getD i [] := by
        show templateAt tdata i s0.wavehash = _
        simp only [templateAt, h1]
      rw [this]
      simp [hlt]

theorem mapM_congr' {α β : Type} (f g : α → Py β) (l : List α) (h : ∀ a ∈ l, f a = g a) : l.mapM f = l.mapM g := by
  induction l with
  | nil => rfl
  | cons a l ih => rw [List.mapM_cons, List.mapM_cons, h a (by simp), ih (fun b hb => h b (List.mem_cons_of_mem _ hb))]

theorem cpu_batch (solve : List (List K) → List K → Py (List K)) (spectra : List (Spec ω K)) (tdata : PyDict ω (Array3 K)) (weights flux wflux : List K) (nz nbasis : Nat)
    (prior : Option (List (List K))) (hsum : weights.sum ≠ 0) (hin : OnGpu spectra tdata nz nbasis) :
    calcZchi2Batch solve (spectra.map Spec.toFit) (toCpu tdata) weights flux wflux nz nbasis prior =
      (List.range nz).mapM (fun i => fitOne solve (tbOf spectra tdata nbasis i) weights flux wflux nbasis prior) := by
  unfold calcZchi2Batch
  rw [if_neg hsum]
  apply mapM_congr'
  intro i hi
  rw [cpu_tb spectra tdata nz nbasis hin i (List.mem_range.1 hi)]
  rfl

/-- Specification: the numerical solvers return one coefficient per equation; where numpy's `linalg.solve` succeeds cupy's gives the same; `lsq_linear` does not raise `NotImplementedError`. -/
structure SolversOk (S : Solvers K) (cpSolve : List (List K) → List K → List K) : Prop where
  agree : ∀ M y c, S.linalgSolve M y = .ok c → cpSolve M y = c
  cpLen : ∀ M y, (cpSolve M y).length = y.length
  nnlsLen : ∀ M y c, S.nnls M y = .ok c → c.length = y.length
  lsqLen : ∀ lo hi M y c, S.lsqLinear lo hi M y = .ok c → c.length = y.length
  lsqErr : ∀ lo hi M y, S.lsqLinear lo hi M y ≠ .error .notImplemented

/-- one matrix of `solve_matrices` on the GPU -/
def gpuOne (S : Solvers K) (cpSolve : List (List K) → List K → List K) (alg : SolveAlgorithm) (bounds : Option (List (Option K) × List (Option K))) (M : List (List K)) (y : List K) : Py (List K) :=
  match alg with
  | .pca => .ok (cpSolve M y)
  | .nmf | .nnls => .ok (match S.nnls M y with
      | .ok c => c
      | .error _ => y.map (fun _ => hugeChi2))
  | .bvls =>
      match S.lsqLinear (match bounds with | some b => b.1 | none => y.map (fun _ => none)) (match bounds with | some b => b.2 | none => y.map (fun _ => none)) M y with
      | .ok c => .ok c
      | .error .linAlgError => .ok (y.map (fun _ => hugeChi2))
      | .error e => .error e
  | .other => .error .notImplemented

theorem zipWith_mapM {α β γ : Type} (f : α → β → γ) : ∀ (a : List α) (b : List β), (.ok (List.zipWith f a b) : Py (List γ)) = (a.zip b).mapM (fun p => .ok (f p.1 p.2))
  | [], _ => by simp; rfl
  | _ :: _, [] => by simp; rfl
  | x :: a, y :: b => by
    rw [List.zip_cons_cons, List.mapM_cons, ← zipWith_mapM f a b]
    rfl

theorem solveGpu_mapM (S : Solvers K) (cpSolve : List (List K) → List K → List K) (alg : SolveAlgorithm) (halg : alg ≠ .other) (bounds : Option (List (Option K) × List (Option K)))
    (allM : List (List (List K))) (ally : List (List K)) :
    solveMatricesGpu S cpSolve alg bounds allM ally = (allM.zip ally).mapM (fun My => gpuOne S cpSolve alg bounds My.1 My.2) := by
  cases alg with
  | pca => exact zipWith_mapM _ _ _
  | nmf => exact zipWith_mapM _ _ _
  | nnls => exact zipWith_mapM _ _ _
  | bvls =>
    unfold solveMatricesGpu gpuOne
    apply mapM_congr'
    intro My _
    cases bounds <;> rfl
  | other => exact absurd rfl halg

theorem zip_map_range {α β : Type} (f : Nat → α) (g : Nat → β) (n : Nat) : ((List.range n).map f).zip ((List.range n).map g) = (List.range n).map (fun i => (f i, g i)) := by
  rw [List.zip_map']

theorem gpuOne_len (S : Solvers K) (cpSolve : List (List K) → List K → List K) (hS : SolversOk S cpSolve) (alg : SolveAlgorithm) (bounds : Option (List (Option K) × List (Option K)))
    (M : List (List K)) (y c : List K) (h : gpuOne S cpSolve alg bounds M y = .ok c) : c.length = y.length := by
  cases alg with
  | pca => simp only [gpuOne, Except.ok.injEq] at h; rw [← h]; exact hS.cpLen M y
  | nmf =>
    simp only [gpuOne, Except.ok.injEq] at h
    subst h
    split
    · rename_i c hc; exact hS.nnlsLen M y c hc
    · simp
  | nnls =>
    simp only [gpuOne, Except.ok.injEq] at h
    subst h
    split
    · rename_i c hc; exact hS.nnlsLen M y c hc
    · simp
  | bvls =>
    simp only [gpuOne] at h
    split at h
    · rename_i c' hc; rw [Except.ok.injEq] at h; subst h; exact hS.lsqLen _ _ M y _ hc
    · rw [Except.ok.injEq] at h; subst h; simp
    · cases h
  | other => simp [gpuOne] at h

theorem normalY_length (Tb : List (List K)) (wf : List K) (n : Nat) : (normalY Tb wf n).length = n := by simp [normalY]

/-- where the CPU solver gives coefficients the GPU gives the same -/
theorem gpuOne_agree (S : Solvers K) (cpSolve : List (List K) → List K → List K) (hS : SolversOk S cpSolve) (alg : SolveAlgorithm) (bounds : Option (List (Option K) × List (Option K)))
    (M : List (List K)) (y c : List K) (h : solveMatrices S alg bounds M y = .ok c) : gpuOne S cpSolve alg bounds M y = .ok c := by
  cases alg with
  | pca => simp only [solveMatrices] at h; simp only [gpuOne, hS.agree M y c h]
  | nmf =>
    simp only [solveMatrices] at h
    split at h
    · rename_i c' hc; rw [Except.ok.injEq] at h; subst h; simp only [gpuOne, hc]
    · cases h
  | nnls =>
    simp only [solveMatrices] at h
    split at h
    · rename_i c' hc; rw [Except.ok.injEq] at h; subst h; simp only [gpuOne, hc]
    · cases h
  | bvls =>
    cases bounds with
    | none => simp only [solveMatrices] at h; simp only [gpuOne, h]
    | some b => simp only [solveMatrices] at h; simp only [gpuOne, h]
  | other => simp [solveMatrices] at h

/-- where the CPU solver fails with an exception that `calc_zchi2_batch` catches, the GPU solver returns something -/
theorem gpuOne_caught (S : Solvers K) (cpSolve : List (List K) → List K → List K) (hS : SolversOk S cpSolve) (alg : SolveAlgorithm) (halg : alg ≠ .other) (bounds : Option (List (Option K) × List (Option K)))
    (M : List (List K)) (y : List K) (e : PyErr) (he : Caught e) (h : solveMatrices S alg bounds M y = .error e) : ∃ c, gpuOne S cpSolve alg bounds M y = .ok c := by
  cases alg with
  | pca => exact ⟨_, rfl⟩
  | nmf => exact ⟨_, rfl⟩
  | nnls => exact ⟨_, rfl⟩
  | bvls =>
    cases bounds with
    | none =>
      simp only [solveMatrices] at h
      rcases he with rfl | rfl
      · simp only [gpuOne, h]; exact ⟨_, rfl⟩
      · exact absurd h (hS.lsqErr _ _ _ _)
    | some b =>
      simp only [solveMatrices] at h
      rcases he with rfl | rfl
      · simp only [gpuOne, h]; exact ⟨_, rfl⟩
      · exact absurd h (hS.lsqErr _ _ _ _)
  | other => exact absurd rfl halg

/-- **C100** `calc_zchi2_batch` with `use_gpu=True` returns what it returns on the CPU: for every order in which the GPU runs its threads and every old content of its memory, and for both settings of
`fullprecision`, whenever the CPU code returns a result the GPU code does too, without any access outside an array, and at every redshift chi2 and all coefficients are equal, unless the CPU entry is the
mark of a failed fit, (9999999, zeros). -/
theorem C100_gpu_equals_cpu_partial (D : Device K) (S : Solvers K) (cpSolve : List (List K) → List K → List K) (hS : SolversOk S cpSolve) (alg : SolveAlgorithm)
    (bounds : Option (List (Option K) × List (Option K))) (spectra : List (Spec ω K)) (tdata : PyDict ω (Array3 K)) (weights flux wflux : List K) (nz nbasis : Nat) (fp : Bool)
    (prior : Option (List (List K))) (hin : OnGpu spectra tdata nz nbasis) (hD : D.Ok spectra nz nbasis)
    (hw : weights.length = nrowsOf spectra) (hf : flux.length = nrowsOf spectra) (hwf : wflux.length = nrowsOf spectra)
    (r : List (K × List K)) (hr : calcZchi2Batch (solveMatrices S alg bounds) (spectra.map Spec.toFit) (toCpu tdata) weights flux wflux nz nbasis prior = .ok r) :
    ∃ g, calcZchi2BatchGpu D S cpSolve alg bounds spectra tdata weights flux wflux nz nbasis fp prior = .ok g ∧ g.length = nz ∧ r.length = nz ∧
      ∀ i, i < nz → g[i]? = r[i]? ∨ r[i]? = some (9999999, List.replicate nbasis 0) := by
  by_cases hsum : weights.sum = 0
  · unfold calcZchi2Batch at hr
    rw [if_pos hsum, Except.ok.injEq] at hr
    subst hr
    unfold calcZchi2BatchGpu
    rw [if_pos hsum]
    exact ⟨_, rfl, by simp, by simp, fun i _ => Or.inl rfl⟩
  rw [cpu_batch _ _ _ _ _ _ _ _ _ hsum hin] at hr
  have hF := mapM_inv _ _ _ hr
  have hrl : r.length = nz := by rw [← hF.length_eq]; simp
  have hent : ∀ i (hi : i < nz), fitOne (solveMatrices S alg bounds) (tbOf spectra tdata nbasis i) weights flux wflux nbasis prior = .ok (r[i]'(by omega)) := by
    intro i hi
    have := List.Forall₂.get hF (i := i) (by simpa using hi) (by omega)
    simpa using this
  by_cases halg : alg = .other
  · subst halg
    have hg : calcZchi2BatchGpu D S cpSolve .other bounds spectra tdata weights flux wflux nz nbasis fp prior = .ok (List.replicate nz (hugeChi2, List.replicate nbasis 0)) := by
      rw [gpuBatch_eq D S cpSolve .other bounds spectra tdata weights flux wflux nz nbasis fp prior hsum hin hD hw hf hwf (fun z h => by cases h)]
      rfl
    refine ⟨_, hg, by simp, hrl, fun i hi => Or.inl ?_⟩
    have := hent i hi
    simp only [fitOne, solveMatrices, Except.ok.injEq] at this
    rw [List.getElem?_eq_getElem (show i < r.length by omega), ← this]
    simp [hi]
  have hone : ∀ i ∈ List.range nz, ∃ c, gpuOne S cpSolve alg bounds (addPrior (normalM (tbOf spectra tdata nbasis i) weights nbasis) prior) (normalY (tbOf spectra tdata nbasis i) wflux nbasis) = .ok c ∧
      (∀ c', solveMatrices S alg bounds (addPrior (normalM (tbOf spectra tdata nbasis i) weights nbasis) prior) (normalY (tbOf spectra tdata nbasis i) wflux nbasis) = .ok c' → c = c') := by
    intro i hi
    rw [List.mem_range] at hi
    have := hent i hi
    unfold fitOne at this
    split at this
    · rename_i c hc
      refine ⟨c, gpuOne_agree S cpSolve hS alg bounds _ _ c hc, ?_⟩
      intro c' hc'
      rw [hc] at hc'; cases hc'; rfl
    · rename_i hc
      obtain ⟨c, h⟩ := gpuOne_caught S cpSolve hS alg halg bounds _ _ _ (Or.inl rfl) hc
      exact ⟨c, h, fun c' hc' => by rw [hc] at hc'; cases hc'⟩
    · rename_i hc
      obtain ⟨c, h⟩ := gpuOne_caught S cpSolve hS alg halg bounds _ _ _ (Or.inr rfl) hc
      exact ⟨c, h, fun c' hc' => by rw [hc] at hc'; cases hc'⟩
    · cases this
  obtain ⟨z, hz, hzF⟩ := mapM_forall₂ _ _ _ hone
  have hzl : z.length = nz := by rw [← hzF.length_eq]; simp
  have hsolve : solveMatricesGpu S cpSolve alg bounds ((List.range nz).map (fun i => addPrior (normalM (tbOf spectra tdata nbasis i) weights nbasis) prior))
      ((List.range nz).map (fun i => normalY (tbOf spectra tdata nbasis i) wflux nbasis)) = .ok z := by
    rw [solveGpu_mapM S cpSolve alg halg, zip_map_range, List.mapM_map]
    exact hz
  have hlens : ∀ c ∈ z, c.length = nbasis := by
    intro c hc
    obtain ⟨i, _, hi⟩ := mapM_ok_mem _ _ _ hz c hc
    rw [gpuOne_len S cpSolve hS alg bounds _ _ c hi, normalY_length]
  have hg := gpuBatch_eq D S cpSolve alg bounds spectra tdata weights flux wflux nz nbasis fp prior hsum hin hD hw hf hwf (fun z' h => by
    rw [hsolve] at h; cases h; exact ⟨hzl, hlens⟩)
  rw [hsolve] at hg
  refine ⟨_, hg, by simp, hrl, ?_⟩
  intro i hi
  have h1 := hent i hi
  have hzi : z.getD i [] = z[i]'(by omega) := by simp [show i < z.length by omega]
  have h2 := List.Forall₂.get hzF (i := i) (by simpa using hi) (by omega)
  simp only [List.get_eq_getElem, List.getElem_range] at h2
  rw [List.getElem?_eq_getElem (show i < r.length by omega), List.getElem?_map, List.getElem?_range hi]
  unfold fitOne at h1
  split at h1
  · rename_i c hc
    rw [Except.ok.injEq] at h1
    left
    rw [← h1]
    simp only [Option.map_some, hzi, h2 c hc]
  · rw [Except.ok.injEq] at h1; right; rw [← h1]; rfl
  · rw [Except.ok.injEq] at h1; right; rw [← h1]; rfl
  · cases h1

end
end Redrock.Gpu
