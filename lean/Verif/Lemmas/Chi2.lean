import Verif.Spec.Chi2
import Verif.Lemmas.Rebin
import Mathlib.Tactic.Ring
import Mathlib.Tactic.Linarith
import Mathlib.Algebra.Order.BigOperators.Group.Finset

set_option linter.unusedSectionVars false
namespace Redrock
section
variable {K ω : Type} [Field K] [LinearOrder K] [IsStrictOrderedRing K]

theorem dotv_append (a b a' b' : List K) (h : a.length = b.length) : dotv (a ++ a') (b ++ b') = dotv a b + dotv a' b' := by
  unfold dotv
  rw [List.zipWith_append h, List.sum_append]

theorem dotv_cons (x y : K) (a b : List K) : dotv (x :: a) (y :: b) = x * y + dotv a b := by simp [dotv]

theorem dotv_eq_sum (a b : List K) (n : Nat) (ha : a.length = n) (hb : b.length = n) : dotv a b = ∑ i ∈ Finset.range n, a.getD i 0 * b.getD i 0 := by
  induction a generalizing b n with
  | nil => simp at ha; subst ha; simp [dotv]
  | cons x a ih =>
    cases b with
    | nil => simp at ha hb; omega
    | cons y b =>
      simp only [List.length_cons] at ha hb
      subst ha
      rw [dotv_cons, Finset.sum_range_succ', ih b a.length rfl (by omega)]
      simp [add_comm]

/-- the pixels: weight, flux, template row -/
abbrev Pix (K : Type) := K × K × List K

/-- code's chi2 in terms of pixels -/
theorem chi2_pixels (P : List (Pix K)) (c : List K) :
    dotv ((List.zipWith (· - ·) (P.map (·.2.1)) (matVec (P.map (·.2.2)) c)).map (fun r => r ^ 2)) (P.map (·.1)) = (P.map (fun p => p.1 * (p.2.1 - dotv p.2.2 c) ^ 2)).sum := by
  induction P with
  | nil => simp [dotv, matVec]
  | cons p P ih =>
    simp only [List.map_cons, matVec, List.zipWith_cons_cons, dotv_cons, List.sum_cons] at ih ⊢
    rw [ih]
    ring

theorem normalM_pixels (P : List (Pix K)) (j k : Nat) :
    dotv (col (P.map (·.2.2)) j) (List.zipWith (· * ·) (P.map (·.1)) (col (P.map (·.2.2)) k)) = (P.map (fun p => p.1 * p.2.2.getD j 0 * p.2.2.getD k 0)).sum := by
  induction P with
  | nil => simp [dotv, col]
  | cons p P ih =>
    simp only [List.map_cons, col, List.zipWith_cons_cons, dotv_cons, List.sum_cons] at ih ⊢
    rw [ih]
    ring

theorem normalY_pixels (P : List (Pix K)) (j : Nat) :
    dotv (col (P.map (·.2.2)) j) (List.zipWith (· * ·) (P.map (·.1)) (P.map (·.2.1))) = (P.map (fun p => p.1 * p.2.2.getD j 0 * p.2.1)).sum := by
  induction P with
  | nil => simp [dotv, col]
  | cons p P ih =>
    simp only [List.map_cons, col, List.zipWith_cons_cons, dotv_cons, List.sum_cons] at ih ⊢
    rw [ih]
    ring

/-- the quadratic expansion of chi2 around `c` -/
theorem chi2_expand (P : List (Pix K)) (n : Nat) (hn : ∀ p ∈ P, p.2.2.length = n) (c c' : List K) (hc : c.length = n) (hc' : c'.length = n) :
    (P.map (fun p => p.1 * (p.2.1 - dotv p.2.2 c') ^ 2)).sum = (P.map (fun p => p.1 * (p.2.1 - dotv p.2.2 c) ^ 2)).sum +
      (P.map (fun p => p.1 * (dotv p.2.2 c' - dotv p.2.2 c) ^ 2)).sum +
      2 * ∑ j ∈ Finset.range n, (c'.getD j 0 - c.getD j 0) *
        (∑ k ∈ Finset.range n, (P.map (fun p => p.1 * p.2.2.getD j 0 * p.2.2.getD k 0)).sum * c.getD k 0 - (P.map (fun p => p.1 * p.2.2.getD j 0 * p.2.1)).sum) := by
  induction P with
  | nil => simp
  | cons p P ih =>
    have ih' := ih (fun q hq => hn q (List.mem_cons_of_mem _ hq))
    simp only [List.map_cons, List.sum_cons]
    rw [ih']
    obtain ⟨w, f, t⟩ := p
    have ht : t.length = n := hn (w, f, t) (by simp)
    have key : w * (f - dotv t c') ^ 2 = w * (f - dotv t c) ^ 2 + w * (dotv t c' - dotv t c) ^ 2 +
        2 * ∑ j ∈ Finset.range n, (c'.getD j 0 - c.getD j 0) * (∑ k ∈ Finset.range n, (w * t.getD j 0 * t.getD k 0) * c.getD k 0 - w * t.getD j 0 * f) := by
      have e1 : ∀ j, ∑ k ∈ Finset.range n, (w * t.getD j 0 * t.getD k 0) * c.getD k 0 - w * t.getD j 0 * f = t.getD j 0 * (w * (dotv t c - f)) := by
        intro j
        rw [dotv_eq_sum t c n ht hc, mul_sub, mul_sub, Finset.mul_sum, Finset.mul_sum]
        congr 1
        · apply Finset.sum_congr rfl; intro k _; ring
        · ring
      have e2 : ∑ j ∈ Finset.range n, (c'.getD j 0 - c.getD j 0) * (∑ k ∈ Finset.range n, (w * t.getD j 0 * t.getD k 0) * c.getD k 0 - w * t.getD j 0 * f) =
          (dotv t c' - dotv t c) * (w * (dotv t c - f)) := by
        rw [dotv_eq_sum t c' n ht hc', dotv_eq_sum t c n ht hc, ← Finset.sum_sub_distrib, Finset.sum_mul]
        apply Finset.sum_congr rfl
        intro j _
        rw [e1 j, dotv_eq_sum t c n ht hc]
        ring
      rw [e2]
      ring
    rw [key]
    simp only [add_mul, Finset.sum_add_distrib]
    have e3 : ∀ (A B C D : Nat → K), ∑ j ∈ Finset.range n, (c'.getD j 0 - c.getD j 0) * (A j + B j - (C j + D j)) =
        ∑ j ∈ Finset.range n, (c'.getD j 0 - c.getD j 0) * (A j - C j) + ∑ j ∈ Finset.range n, (c'.getD j 0 - c.getD j 0) * (B j - D j) := by
      intro A B C D
      rw [← Finset.sum_add_distrib]
      apply Finset.sum_congr rfl
      intro j _
      ring
    rw [e3]
    ring

/-- a spectrum's pixels -/
def pixOf (T : ω → List (List K)) (nbasis : Nat) (s : FitSpectrum ω K) : List (Pix K) :=
  s.ivar.zip (s.flux.zip (matMul s.R (T s.wavehash) nbasis))

theorem pixOf_maps (T : ω → List (List K)) (nbasis : Nat) (s : FitSpectrum ω K) (h1 : s.ivar.length = s.flux.length) (h2 : s.R.length = s.flux.length) :
    (pixOf T nbasis s).map (·.1) = s.ivar ∧ (pixOf T nbasis s).map (·.2.1) = s.flux ∧ (pixOf T nbasis s).map (·.2.2) = matMul s.R (T s.wavehash) nbasis := by
  have hl : (matMul s.R (T s.wavehash) nbasis).length = s.flux.length := by simp [matMul, h2]
  have a1 : (pixOf T nbasis s).map Prod.fst = s.ivar := List.map_fst_zip (by simp [hl, h1])
  have a2 : (pixOf T nbasis s).map Prod.snd = s.flux.zip (matMul s.R (T s.wavehash) nbasis) := List.map_snd_zip (by simp [hl, h1])
  refine ⟨a1, ?_, ?_⟩
  · rw [show (fun p : Pix K => p.2.1) = Prod.fst ∘ Prod.snd from rfl, ← List.map_map, a2, List.map_fst_zip (by omega)]
  · rw [show (fun p : Pix K => p.2.2) = Prod.snd ∘ Prod.snd from rfl, ← List.map_map, a2, List.map_snd_zip (by omega)]

theorem pixOf_flatMap (T : ω → List (List K)) (nbasis : Nat) (spectra : List (FitSpectrum ω K)) (h : Shaped spectra T nbasis) :
    (spectra.flatMap (pixOf T nbasis)).map (·.1) = spectra.flatMap (·.ivar) ∧ (spectra.flatMap (pixOf T nbasis)).map (·.2.1) = spectra.flatMap (·.flux) ∧
      (spectra.flatMap (pixOf T nbasis)).map (·.2.2) = spectra.flatMap (fun s => matMul s.R (T s.wavehash) nbasis) := by
  simp only [List.map_flatMap]
  refine ⟨?_, ?_, ?_⟩ <;>
  · apply List.flatMap_congr
    intro s hs
    obtain ⟨q1, q2, q3⟩ := pixOf_maps T nbasis s (h s hs).1 (h s hs).2.1
    assumption

theorem matMul_row_dot (R T : List (List K)) (nbasis : Nat) (c : List K) (hc : c.length = nbasis) (hT : ∀ row ∈ T, row.length = nbasis)
    (p : Nat) (hp : p < R.length) (hR : (R.getD p []).length = T.length) :
    dotv ((matMul R T nbasis).getD p []) c = modelAt R T nbasis c p := by
  have e0 : (matMul R T nbasis).getD p [] = (List.range nbasis).map (fun b => dotv (R.getD p []) (col T b)) := by
    simp [matMul, hp]
  rw [e0, dotv_eq_sum _ c nbasis (by simp) hc]
  unfold modelAt
  simp only [Finset.mul_sum]
  rw [Finset.sum_comm]
  apply Finset.sum_congr rfl
  intro b hb
  rw [Finset.mem_range] at hb
  have e1 : ((List.range nbasis).map (fun b => dotv (R.getD p []) (col T b))).getD b 0 = dotv (R.getD p []) (col T b) := by simp [hb]
  rw [e1, dotv_eq_sum _ _ T.length hR (by simp [col]), Finset.sum_mul]
  apply Finset.sum_congr rfl
  intro w hw
  rw [Finset.mem_range] at hw
  have e2 : (col T b).getD w 0 = (T.getD w []).getD b 0 := by simp [col, hw]
  rw [e2]
  ring

theorem sum_map_eq_range {α : Type} (l : List α) (d : α) (g : α → K) : (l.map g).sum = ∑ i ∈ Finset.range l.length, g (l.getD i d) := by
  induction l with
  | nil => simp
  | cons a l ih => rw [List.map_cons, List.sum_cons, ih, List.length_cons, Finset.sum_range_succ']; simp [add_comm]

/-- sums over all pixels, spectrum by spectrum -/
theorem pix_sum (spectra : List (FitSpectrum ω K)) (T : ω → List (List K)) (nbasis : Nat) (h : Shaped spectra T nbasis) (G : K → K → List K → K) :
    ((spectra.flatMap (pixOf T nbasis)).map (fun p => G p.1 p.2.1 p.2.2)).sum = (spectra.map (fun s => ∑ p ∈ Finset.range s.flux.length,
      G (s.ivar.getD p 0) (s.flux.getD p 0) ((matMul s.R (T s.wavehash) nbasis).getD p []))).sum := by
  induction spectra with
  | nil => simp
  | cons s spectra ih =>
    rw [List.flatMap_cons, List.map_append, List.sum_append, ih (fun s hs => h s (List.mem_cons_of_mem _ hs)), List.map_cons, List.sum_cons]
    congr 1
    obtain ⟨h1, h2, h3, h4⟩ := h s (by simp)
    have hl : (pixOf T nbasis s).length = s.flux.length := by simp [pixOf, matMul, h1, h2]
    rw [sum_map_eq_range _ (0, 0, []), hl]
    apply Finset.sum_congr rfl
    intro p hp
    rw [Finset.mem_range] at hp
    obtain ⟨m1, m2, m3⟩ := pixOf_maps T nbasis s h1 h2
    have g1 : ((pixOf T nbasis s).getD p (0, 0, [])).1 = s.ivar.getD p 0 := by
      conv_rhs => rw [← m1]
      simp [show p < (pixOf T nbasis s).length by omega]
    have g2 : ((pixOf T nbasis s).getD p (0, 0, [])).2.1 = s.flux.getD p 0 := by
      conv_rhs => rw [← m2]
      simp [show p < (pixOf T nbasis s).length by omega]
    have g3 : ((pixOf T nbasis s).getD p (0, 0, [])).2.2 = (matMul s.R (T s.wavehash) nbasis).getD p [] := by
      conv_rhs => rw [← m3]
      simp [show p < (pixOf T nbasis s).length by omega]
    rw [g1, g2, g3]

/-- the code's chi2 is the specified one -/
theorem chi2_pix_eq_spec (spectra : List (FitSpectrum ω K)) (T : ω → List (List K)) (nbasis : Nat) (h : Shaped spectra T nbasis) (c : List K) (hc : c.length = nbasis) :
    ((spectra.flatMap (pixOf T nbasis)).map (fun p => p.1 * (p.2.1 - dotv p.2.2 c) ^ 2)).sum = chi2Of spectra T nbasis c := by
  rw [pix_sum spectra T nbasis h (fun w f t => w * (f - dotv t c) ^ 2)]
  unfold chi2Of
  apply congrArg List.sum
  apply List.map_congr_left
  intro s hs
  obtain ⟨h1, h2, h3, h4⟩ := h s hs
  apply Finset.sum_congr rfl
  intro p hp
  rw [Finset.mem_range] at hp
  rw [matMul_row_dot s.R _ nbasis c hc h4 p (by omega)]
  exact h3 _ (by simp [show p < s.R.length by omega])

theorem matMul_entry (R T : List (List K)) (nbasis : Nat) (p b : Nat) (hp : p < R.length) (hb : b < nbasis) (hR : (R.getD p []).length = T.length) :
    ((matMul R T nbasis).getD p []).getD b 0 = basisAt R T b p := by
  have e0 : (matMul R T nbasis).getD p [] = (List.range nbasis).map (fun b => dotv (R.getD p []) (col T b)) := by
    simp [matMul, hp]
  have e1 : ((List.range nbasis).map (fun b => dotv (R.getD p []) (col T b))).getD b 0 = dotv (R.getD p []) (col T b) := by simp [hb]
  rw [e0, e1, dotv_eq_sum _ _ T.length hR (by simp [col])]
  unfold basisAt
  apply Finset.sum_congr rfl
  intro w hw
  rw [Finset.mem_range] at hw
  have e2 : (col T b).getD w 0 = (T.getD w []).getD b 0 := by simp [col, hw]
  rw [e2]

/-- the code's normal equations are the specified ones -/
theorem normal_eq_spec (spectra : List (FitSpectrum ω K)) (T : ω → List (List K)) (nbasis : Nat) (h : Shaped spectra T nbasis) :
    normalM (spectra.flatMap (fun s => matMul s.R (T s.wavehash) nbasis)) (spectra.flatMap (·.ivar)) nbasis = normalMatrixOf spectra T nbasis ∧
    normalY (spectra.flatMap (fun s => matMul s.R (T s.wavehash) nbasis)) (spectralData spectra).2.2 nbasis = normalVectorOf spectra T nbasis := by
  obtain ⟨m1, m2, m3⟩ := pixOf_flatMap T nbasis spectra h
  have hwf : (spectralData spectra).2.2 = List.zipWith (· * ·) (spectra.flatMap (·.ivar)) (spectra.flatMap (·.flux)) := rfl
  rw [hwf, ← m1, ← m2, ← m3]
  unfold normalM normalY normalMatrixOf normalVectorOf
  constructor
  · apply List.map_congr_left
    intro j hj
    apply List.map_congr_left
    intro k hk
    rw [List.mem_range] at hj hk
    rw [normalM_pixels, pix_sum spectra T nbasis h (fun w f t => w * t.getD j 0 * t.getD k 0)]
    apply congrArg List.sum
    apply List.map_congr_left
    intro s hs
    obtain ⟨h1, h2, h3, h4⟩ := h s hs
    apply Finset.sum_congr rfl
    intro p hp
    rw [Finset.mem_range] at hp
    have hrow : (s.R.getD p []).length = (T s.wavehash).length := h3 _ (by simp [show p < s.R.length by omega])
    rw [matMul_entry s.R _ nbasis p j (by omega) hj hrow, matMul_entry s.R _ nbasis p k (by omega) hk hrow]
  · apply List.map_congr_left
    intro j hj
    rw [List.mem_range] at hj
    rw [normalY_pixels, pix_sum spectra T nbasis h (fun w f t => w * t.getD j 0 * f)]
    apply congrArg List.sum
    apply List.map_congr_left
    intro s hs
    obtain ⟨h1, h2, h3, h4⟩ := h s hs
    apply Finset.sum_congr rfl
    intro p hp
    rw [Finset.mem_range] at hp
    have hrow : (s.R.getD p []).length = (T s.wavehash).length := h3 _ (by simp [show p < s.R.length by omega])
    rw [matMul_entry s.R _ nbasis p j (by omega) hj hrow]

end
end Redrock
