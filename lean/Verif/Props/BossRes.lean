import Verif.Model.Boss
import Verif.Model.Chi2
import Verif.Lemmas.Fitz
import Verif.Lemmas.Chi2
import Mathlib.Algebra.BigOperators.Ring.Finset
import Mathlib.Algebra.Order.BigOperators.Group.Finset
import Mathlib.Data.Rat.Floor
import Mathlib.Algebra.Order.Ring.Rat
import Mathlib.Algebra.Order.Floor.Ring
import Mathlib.Tactic.Linarith
import Mathlib.Tactic.FieldSimp
import Mathlib.Tactic.Ring

/-!
C89: the resolution matrix made from the BOSS dispersion.
-/
namespace Redrock
set_option linter.unusedSectionVars false
namespace Boss
open Finset
section
variable {K : Type} [Field K] [LinearOrder K] [IsStrictOrderedRing K] [FloorRing K]

theorem sum_range_list {V : Type} [AddCommMonoid V] (n : Nat) (f : Nat → V) : ((List.range n).map f).sum = ∑ i ∈ range n, f i := by
  induction n with
  | zero => rfl
  | succ n ih => rw [List.range_succ, List.map_append, List.sum_append, ih, sum_range_succ]; simp

/-- The gaussian weight of row `r` for the light of pixel `c` (dispersion `w`), cut at `half` pixels. -/
def gauss (exp : K → K) (half : Nat) (w : K) (r c : Nat) : K :=
  if |(c : Int) - r| ≤ half then exp (-(((c : K) - r) ^ 2) / 2 / w ^ 2) else 0

/-- Entry (r, c) of the resolution matrix. -/
def entry (exp : K → K) (ndiag : Nat) (wd : List K) (r c : Nat) : K := ((bossR exp ndiag wd).getD r []).getD c 0

/-- The matrix that `Spectrum` receives has these entries. -/
theorem bossDia_entry (exp : K → K) (ndiag : Nat) (wd : List K) (r c : Nat) (hr : r < wd.length) (hc : c < wd.length) : (bossDia exp ndiag wd).entry r c = entry exp ndiag wd r c := by
  unfold entry bossR
  rw [List.getD_eq_getElem?_getD, List.getD_eq_getElem?_getD, List.getElem?_map, List.getElem?_range hr]
  simp only [Option.map_some, Option.getD_some]
  rw [List.getElem?_map, List.getElem?_range hc]
  rfl

theorem entry_eq (exp : K → K) (ndiag : Nat) (wd : List K) (r c : Nat) (hr : r < wd.length) (hc : c < wd.length) :
    entry exp ndiag wd r c = ∑ k ∈ range ndiag, if (c : Int) - r = ((ndiag / 2 : Nat) : Int) - k then resoNorm exp ndiag wd k c else 0 := by
  rw [← bossDia_entry exp ndiag wd r c hr hc]
  unfold Dia.entry bossDia
  rw [List.zip_map', List.map_map, ← sum_range_list]
  congr 1
  apply List.map_congr_left
  intro k _
  simp only [Function.comp_apply]
  rw [List.getD_eq_getElem?_getD, List.getElem?_map, List.getElem?_range hc]
  rfl

theorem zipWith_sum (n : Nat) (a b : List K) (ha : a.length = n) (hb : b.length = n) :
    (List.zipWith (· * ·) a b).sum = ∑ c ∈ range n, a.getD c 0 * b.getD c 0 := by
  rw [← sum_range_list]
  congr 1
  apply List.ext_getElem
  · simp [ha, hb]
  · intro i h1 h2
    simp only [List.length_zipWith] at h1
    have e1 : a.getD i 0 = a[i] := by rw [List.getD_eq_getElem?_getD, List.getElem?_eq_getElem (by omega)]; rfl
    have e2 : b.getD i 0 = b[i] := by rw [List.getD_eq_getElem?_getD, List.getElem?_eq_getElem (by omega)]; rfl
    rw [List.getElem_zipWith, List.getElem_map, List.getElem_range, e1, e2]

/-- The raw entry on the diagonal through (r, c). -/
theorem resoRaw_inside (exp : K → K) (half : Nat) (wd : List K) (r c k : Nat) (hr : r < wd.length) (hc : c < wd.length) (hk : (c : Int) - r = (half : Int) - k) :
    resoRaw exp (2 * half + 1) wd k c = exp (-(((c : K) - r) ^ 2) / 2 / wd.getD c 0 ^ 2) := by
  have hh : (2 * half + 1) / 2 = half := by omega
  unfold resoRaw
  simp only [hh]
  have hcast : (((half : Int) - k : Int) : K) = (c : K) - r := by rw [← hk]; push_cast; ring
  rw [hcast]
  by_cases ho : (half : Int) - k < 0
  · rw [if_pos ho, if_pos (by omega)]
  · rw [if_neg ho, if_pos (by omega)]

/-- Outside the matrix the raw entry is zero. -/
theorem resoRaw_outside (exp : K → K) (half : Nat) (wd : List K) (c k : Nat) (hc : c < wd.length)
    (hno : ∀ r : Nat, r < wd.length → (c : Int) - r ≠ (half : Int) - k) : resoRaw exp (2 * half + 1) wd k c = 0 := by
  have hh : (2 * half + 1) / 2 = half := by omega
  unfold resoRaw
  simp only [hh]
  by_cases ho : (half : Int) - k < 0
  · rw [if_pos ho, if_neg]
    intro hj
    have := hno (c + (k - half)) (by omega)
    omega
  · rw [if_neg ho, if_neg]
    intro hj
    by_cases hlt : half - k ≤ c
    · have := hno (c - (half - k)) (by omega)
      omega
    · omega

/-- Sum of one column of the array of diagonals. -/
theorem raw_column (exp : K → K) (half : Nat) (wd : List K) (c : Nat) (hc : c < wd.length) :
    ∑ k ∈ range (2 * half + 1), resoRaw exp (2 * half + 1) wd k c = ∑ r ∈ range wd.length, gauss exp half (wd.getD c 0) r c := by
  have h1 : ∑ r ∈ range wd.length, gauss exp half (wd.getD c 0) r c =
      ∑ r ∈ range wd.length, ∑ k ∈ range (2 * half + 1), if (c : Int) - r = (half : Int) - k then resoRaw exp (2 * half + 1) wd k c else 0 := by
    refine sum_congr rfl fun r hr => ?_
    have hr' := mem_range.1 hr
    unfold gauss
    by_cases hb : |(c : Int) - r| ≤ half
    · rw [if_pos hb]
      rw [abs_le] at hb
      have hkn : (half : Int) - ((c : Int) - r) = (((half : Int) - ((c : Int) - r)).toNat : Int) := (Int.toNat_of_nonneg (by omega)).symm
      rw [sum_eq_single ((half : Int) - ((c : Int) - r)).toNat]
      · rw [if_pos (by omega), resoRaw_inside exp half wd r c _ hr' hc (by omega)]
      · intro k _ hne
        rw [if_neg]
        intro e
        apply hne
        omega
      · intro hnm
        exact absurd (mem_range.2 (by omega)) hnm
    · rw [if_neg hb]
      symm
      apply sum_eq_zero
      intro k hk
      have hk' := mem_range.1 hk
      rw [if_neg]
      intro e
      apply hb
      rw [abs_le]
      omega
  rw [h1, sum_comm]
  refine sum_congr rfl fun k hk => ?_
  by_cases hex : ∃ r : Nat, r < wd.length ∧ (c : Int) - r = (half : Int) - k
  · obtain ⟨r, hr, he⟩ := hex
    rw [sum_eq_single r]
    · rw [if_pos he]
    · intro r' _ hne
      rw [if_neg]
      intro e
      apply hne
      omega
    · intro hnm; exact absurd (mem_range.2 hr) hnm
  · push Not at hex
    rw [resoRaw_outside exp half wd c k hc hex]
    symm
    apply sum_eq_zero
    intro r _
    rw [ite_self]

theorem norm_pos (exp : K → K) (hexp : ∀ x, 0 < exp x) (half : Nat) (wd : List K) (c : Nat) (hc : c < wd.length) :
    0 < ∑ r ∈ range wd.length, gauss exp half (wd.getD c 0) r c := by
  apply sum_pos'
  · intro r _
    unfold gauss
    split
    · exact (hexp _).le
    · exact le_rfl
  · refine ⟨c, mem_range.2 hc, ?_⟩
    unfold gauss
    rw [if_pos (by simp)]
    exact hexp _

/-- **C89** every entry of the matrix: column `c` is the gaussian with the dispersion of pixel `c`, centred on `c`, cut at `half` pixels and at the ends of the spectrum, and normalised to one. -/
theorem C89_profile (exp : K → K) (hexp : ∀ x, 0 < exp x) (half : Nat) (wd : List K) (r c : Nat) (hr : r < wd.length) (hc : c < wd.length) :
    entry exp (2 * half + 1) wd r c = gauss exp half (wd.getD c 0) r c / ∑ r' ∈ range wd.length, gauss exp half (wd.getD c 0) r' c := by
  rw [entry_eq exp _ wd r c hr hc]
  have hh : (2 * half + 1) / 2 = half := by omega
  simp only [hh]
  have hn : ∀ k, resoNorm exp (2 * half + 1) wd k c = resoRaw exp (2 * half + 1) wd k c / ∑ r' ∈ range wd.length, gauss exp half (wd.getD c 0) r' c := by
    intro k
    unfold resoNorm
    rw [sum_range_list, raw_column exp half wd c hc]
  simp only [hn]
  unfold gauss
  by_cases hb : |(c : Int) - r| ≤ half
  · rw [if_pos hb]
    rw [abs_le] at hb
    rw [sum_eq_single ((half : Int) - ((c : Int) - r)).toNat]
    · rw [if_pos (by omega), resoRaw_inside exp half wd r c _ hr hc (by omega)]
    · intro k _ hne
      rw [if_neg]
      intro e; apply hne; omega
    · intro hnm
      exact absurd (mem_range.2 (by omega)) hnm
  · rw [if_neg hb, zero_div]
    apply sum_eq_zero
    intro k hk
    have hk' := mem_range.1 hk
    rw [if_neg]
    intro e
    apply hb
    rw [abs_le]; omega

/-- **C89** every column sums to one and has no negative entry. -/
theorem C89_columns (exp : K → K) (hexp : ∀ x, 0 < exp x) (half : Nat) (wd : List K) (c : Nat) (hc : c < wd.length) :
    ∑ r ∈ range wd.length, entry exp (2 * half + 1) wd r c = 1 ∧ ∀ r < wd.length, 0 ≤ entry exp (2 * half + 1) wd r c := by
  have hp := norm_pos exp hexp half wd c hc
  constructor
  · rw [sum_congr rfl (fun r hr => C89_profile exp hexp half wd r c (mem_range.1 hr) hc), ← sum_div]
    exact div_self hp.ne'
  · intro r hr
    rw [C89_profile exp hexp half wd r c hr hc]
    apply div_nonneg _ hp.le
    unfold gauss
    split
    · exact (hexp _).le
    · exact le_rfl

/-- **C89** so applying the resolution to a model conserves its total flux: `R.dot(model)` has the same sum. -/
theorem C89_flux_conserved (exp : K → K) (hexp : ∀ x, 0 < exp x) (half : Nat) (wd model : List K) (hl : model.length = wd.length) :
    (matVec (bossR exp (2 * half + 1) wd) model).sum = model.sum := by
  have hrow : ∀ r, r < wd.length → dotv ((bossR exp (2 * half + 1) wd).getD r []) model = ∑ c ∈ range wd.length, entry exp (2 * half + 1) wd r c * model.getD c 0 := by
    intro r hr
    have hlen : ((bossR exp (2 * half + 1) wd).getD r []).length = wd.length := by
      unfold bossR
      rw [List.getD_eq_getElem?_getD, List.getElem?_map, List.getElem?_range hr]
      simp
    unfold dotv entry
    generalize (bossR exp (2 * half + 1) wd).getD r [] = row at hlen
    exact zipWith_sum _ row model hlen hl
  have hlenR : (bossR exp (2 * half + 1) wd).length = wd.length := by simp [bossR]
  unfold matVec
  rw [sum_map_eq_range (bossR exp (2 * half + 1) wd) ([] : List K) (fun row => dotv row model), hlenR]
  rw [sum_congr rfl (fun r hr => hrow r (mem_range.1 hr)), sum_comm]
  have h2 := sum_map_eq_range model (0 : K) id
  rw [List.map_id, hl] at h2
  rw [h2]
  refine sum_congr rfl fun c hc => ?_
  rw [← sum_mul, (C89_columns exp hexp half wd c (mem_range.1 hc)).1, one_mul]; rfl

/-- **C89** the number of diagonals of a file is odd, `2*half+1`, and the gaussian of every pixel of every fibre is cut no closer than two dispersions; no dispersion is below 1e-5. -/
theorem C89_cut (wd : List (List K)) (ndiag : Nat) (hpos : ∀ row ∈ wd, ∀ w ∈ row, 0 < w) (h : bossNdiag wd = .ok ndiag) :
    ∃ half : Nat, ndiag = 2 * half + 1 ∧ ∀ row ∈ wd, ∀ w ∈ row, 2 * w ≤ half := by
  unfold bossNdiag at h
  cases hm : npMax wd.flatten with
  | error e => rw [hm] at h; simp [bind, Except.bind] at h
  | ok m =>
    rw [hm] at h
    simp only [bind, Except.bind, pure, Except.pure, Except.ok.injEq] at h
    obtain ⟨h1, h2⟩ := npMax_spec _ m hm
    obtain ⟨row, hrow, hmr⟩ := List.mem_flatten.1 h1
    have hm0 : 0 < m := hpos row hrow m hmr
    have hc : 0 < ⌈m⌉ := Int.ceil_pos.2 hm0
    refine ⟨(2 * ⌈m⌉).toNat, by omega, ?_⟩
    intro row' hrow' w hw
    have hwm : w ≤ m := h2 w (List.mem_flatten.2 ⟨row', hrow', hw⟩)
    have hle : m ≤ (⌈m⌉ : K) := Int.le_ceil m
    have : (((2 * ⌈m⌉).toNat : Int) : K) = 2 * (⌈m⌉ : K) := by
      rw [Int.toNat_of_nonneg (by omega)]; push_cast; ring
    have h3 : (((2 * ⌈m⌉).toNat : Nat) : K) = 2 * (⌈m⌉ : K) := by rw [← this]; norm_cast
    rw [h3]; linarith

theorem C89_widths (w : K) : 0 < fixWidth w ∧ (1 / 100000 ≤ w → fixWidth w = w) := by
  unfold fixWidth
  constructor
  · split
    · norm_num
    · rename_i h
      push Not at h
      exact lt_of_lt_of_le (by norm_num) h
  · intro h; rw [if_neg (not_lt.2 h)]

/-- **C89**, refuted part: a flat model does not stay flat: with three pixels of equal dispersion the middle pixel changes, for every dispersion and every cut at two or more pixels, because columns (not rows) are
normalised and the first and last pixel lose the part of their gaussian outside the spectrum. `a` is the gaussian at distance one, `b` at distance two. -/
theorem C89_flat_refuted (exp : K → K) (hexp : ∀ x, 0 < exp x) (half : Nat) (hh : 2 ≤ half) (w : K)
    (hab : exp (-((2 : K) ^ 2) / 2 / w ^ 2) ≠ exp (-((1 : K) ^ 2) / 2 / w ^ 2)) (h0 : exp 0 = 1) :
    ∑ c ∈ range 3, entry exp (2 * half + 1) [w, w, w] 1 c * 1 ≠ 1 := by
  have hlen : ([w, w, w] : List K).length = 3 := rfl
  set a := exp (-((1 : K) ^ 2) / 2 / w ^ 2) with ha
  set b := exp (-((2 : K) ^ 2) / 2 / w ^ 2) with hb
  have g0 : ∀ c, c < 3 → gauss exp half w c c = 1 := by
    intro c _; unfold gauss; rw [if_pos (by simp)]; simp [h0]
  have g1 : ∀ r c : Nat, |(c : Int) - r| = 1 → gauss exp half w r c = a := by
    intro r c h
    unfold gauss
    rw [if_pos (by omega), ha]
    congr 3
    have : ((c : K) - r) ^ 2 = ((((c : Int) - r) ^ 2 : Int) : K) := by push_cast; ring
    rw [this, ← sq_abs, h]; norm_num
  have g2 : ∀ r c : Nat, |(c : Int) - r| = 2 → gauss exp half w r c = b := by
    intro r c h
    unfold gauss
    rw [if_pos (by omega), hb]
    congr 3
    have : ((c : K) - r) ^ 2 = ((((c : Int) - r) ^ 2 : Int) : K) := by push_cast; ring
    rw [this, ← sq_abs, h]; norm_num
  have ha0 : 0 < a := hexp _
  have hb0 : 0 < b := hexp _
  rw [sum_range_succ, sum_range_succ, sum_range_one, C89_profile exp hexp half _ 1 0 (by simp) (by simp), C89_profile exp hexp half _ 1 1 (by simp) (by simp),
    C89_profile exp hexp half _ 1 2 (by simp) (by simp)]
  simp only [hlen, sum_range_succ, sum_range_zero, List.getD_cons_zero, List.getD_cons_succ, zero_add]
  rw [g0 0 (by omega), g0 1 (by omega), g0 2 (by omega), g1 1 0 (by decide), g1 0 1 (by decide), g1 2 1 (by decide), g1 1 2 (by decide), g2 2 0 (by decide), g2 0 2 (by decide)]
  intro h
  apply hab
  have e1 : (1 + a + b) ≠ 0 := by positivity
  have e2 : (a + 1 + a) ≠ 0 := by positivity
  have e3 : (b + a + 1) ≠ 0 := by positivity
  field_simp at h
  have key : 2 * a * (a - b) * (1 + a + b) = 0 := by linear_combination h
  have : a - b = 0 := by
    rcases mul_eq_zero.1 key with h1 | h1
    · rcases mul_eq_zero.1 h1 with h2 | h2
      · exact absurd h2 (by positivity)
      · exact h2
    · exact absurd h1 e1
  linarith

end

/-- The hypotheses of `C89_flat_refuted`, `C89_profile`, `C89_flux_conserved` on a concrete positive function with value one at zero. -/
def exExp (x : ℚ) : ℚ := 1 / (1 + x ^ 2)

theorem exExp_pos : ∀ x, 0 < exExp x := fun x => by unfold exExp; positivity

example : bossR exExp 3 [1, 1, 1] = [[5 / 9, 4 / 13, 0], [4 / 9, 5 / 13, 4 / 9], [0, 4 / 13, 5 / 9]] := by decide +kernel
example : (matVec (bossR exExp 5 [1, 2, 1, 1]) [3, 1, 4, 1]).sum = 9 := by
  rw [show (5 : Nat) = 2 * 2 + 1 from rfl, C89_flux_conserved exExp exExp_pos 2 [1, 2, 1, 1] [3, 1, 4, 1] rfl]; norm_num
example : ∑ c ∈ range 3, entry exExp 5 [1, 1, 1] 1 c * 1 ≠ 1 := C89_flat_refuted exExp exExp_pos 2 (by omega) 1 (by norm_num [exExp]) (by norm_num [exExp])
example : bossNdiag [[(1 : ℚ), 3 / 2], [1, 1]] = .ok 9 := by decide +kernel

end Boss
end Redrock
