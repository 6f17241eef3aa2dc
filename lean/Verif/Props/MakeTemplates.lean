import Verif.Model.MakeTemplates
import Verif.Props.TemplateGrid
import Verif.Lemmas.Dict

/-!
C131: the scripts that make templates: the wavelengths, the spectra that go into each template, the files written, and whether redrock can read them.
-/
set_option linter.unusedSectionVars false
namespace Redrock
namespace Make
open Redrock.Convert

/-! ### the wavelengths -/

/-- The wavelengths `a, a+0.1, ..`: `n` of them. -/
def IsGrid (a : ℝ) (n : Nat) (wave : List ℝ) : Prop := wave.length = n ∧ ∀ i, i < n → wave[i]? = some (a + 0.1 * (i : ℝ))

private theorem grid_of_range (a : ℝ) (n : Nat) : IsGrid a n ((List.range n).map (fun (i : Nat) => a + (i : ℝ) * 0.1)) := by
  refine ⟨by simp, fun i hi => ?_⟩
  rw [List.getElem?_map, List.getElem?_range hi]
  simp [mul_comm]

theorem starWave_eq : starWave = .ok ((List.range 80001).map (fun (i : Nat) => (3000 : ℝ) + (i : ℝ) * 0.1)) := by
  unfold starWave
  rw [npArange_ok _ _ _ (by norm_num)]
  have : ⌈((11000 + 0.1 / 2 : ℝ) - 3000) / 0.1⌉ = 80001 := by
    rw [Int.ceil_eq_iff]; norm_num
  rw [this]; rfl

theorem galWave_eq : galWave = .ok ((List.range 97720).map (fun (i : Nat) => (3500 / (1 + 1.85) : ℝ) + (i : ℝ) * 0.1)) := by
  unfold galWave
  rw [npArange_ok _ _ _ (by norm_num)]
  have : ⌈((11000 + 0.1 / 2 : ℝ) - 3500 / (1 + 1.85)) / 0.1⌉ = 97720 := by
    rw [Int.ceil_eq_iff]; norm_num
  rw [this]; rfl

/-- **C131** the star templates are made on 80001 wavelengths from 3000 to 11000 in steps of 0.1. -/
theorem C131_star_wave : ∃ wave, starWave = .ok wave ∧ IsGrid 3000 80001 wave ∧ wave.getLast? = some 11000 := by
  refine ⟨_, starWave_eq, grid_of_range _ _, ?_⟩
  rw [List.getLast?_map, List.range_succ]
  simp
  norm_num

/-- **C131** (refuted) the galaxy templates are meant to cover observed wavelengths from 3500 to 11000 at redshifts from 0 to 1.85. Their last wavelength is below 11000, so at redshift 0 the last
0.03 Angstrom are not covered. -/
theorem C131_covers_refuted : ∃ wave, galWave = .ok wave ∧ ∀ x ∈ wave, x < 11000 - 0.0298 := by
  refine ⟨_, galWave_eq, ?_⟩
  intro x hx
  obtain ⟨i, hi, rfl⟩ := List.mem_map.1 hx
  have hi := List.mem_range.1 hi
  have : (i : ℝ) ≤ 97719 := by exact_mod_cast Nat.le_of_lt_succ hi
  norm_num
  linarith

/-- **C131** (what is true) they cover every observed wavelength from 3500 to 10999.97 at these redshifts: the rest-frame wavelength lies between two neighbouring wavelengths of the template. -/
theorem C131_covers_partial (lam z : ℝ) (h1 : 3500 ≤ lam) (h2 : lam ≤ 10999.97) (hz : 0 ≤ z) (hz2 : z ≤ 1.85) :
    ∃ wave, galWave = .ok wave ∧ ∃ (i : Nat) (x y : ℝ), wave[i]? = some x ∧ wave[i+1]? = some y ∧ x ≤ lam / (1 + z) ∧ lam / (1 + z) ≤ y := by
  refine ⟨_, galWave_eq, ?_⟩
  have hg := grid_of_range (3500 / (1 + 1.85)) 97720
  set a : ℝ := 3500 / (1 + 1.85) with ha
  have hlo : a ≤ lam / (1 + z) := by
    rw [ha, div_le_div_iff₀ (by norm_num) (by linarith)]
    nlinarith
  have hhi : lam / (1 + z) ≤ 10999.97 := by
    rw [div_le_iff₀ (by linarith)]
    nlinarith
  have ha2 : (10999.97 : ℝ) < a + 97719 * 0.1 := by rw [ha]; norm_num
  set r := lam / (1 + z)
  have h0 : 0 ≤ (r - a) / 0.1 := div_nonneg (by linarith) (by norm_num)
  have hf1 := Nat.floor_le h0
  have hf2 := Nat.lt_floor_add_one ((r - a) / 0.1)
  rw [le_div_iff₀ (by norm_num)] at hf1
  rw [div_lt_iff₀ (by norm_num)] at hf2
  have hlt : ⌊(r - a) / 0.1⌋₊ < 97719 := by
    have : ((⌊(r - a) / 0.1⌋₊ : Nat) : ℝ) < 97719 := by nlinarith
    exact_mod_cast this
  refine ⟨⌊(r - a) / 0.1⌋₊, _, _, hg.2 _ (by omega), hg.2 _ (by omega), by linarith, ?_⟩
  push_cast
  linarith

/-! ### the spectra -/

/-- scaling scales the median -/
theorem npMedian_div (row : List ℝ) (m : ℝ) (h : 0 < m) : npMedian (row.map (fun x => x / m)) = npMedian row / m := by
  have hs : (row.map (fun x => x / m)).mergeSort (fun a b => decide (a ≤ b)) = (row.mergeSort (fun a b => decide (a ≤ b))).map (fun x => x / m) := by
    symm
    apply List.map_mergeSort
    intro a _ b _
    simp only [decide_eq_decide]
    exact (div_le_div_iff_of_pos_right h).symm
  have hd : ∀ (l : List ℝ) (i : Nat), (l.map (fun x => x / m)).getD i 0 = l.getD i 0 / m := by
    intro l i
    simp only [List.getD_eq_getElem?_getD, List.getElem?_map]
    cases l[i]? <;> simp
  unfold npMedian
  simp only [hs, hd, List.length_map]
  ring

/-- `m` is a median of `l`: at least half of the values are at most `m`, and at least half are at least `m`. -/
def IsMedian (m : ℝ) (l : List ℝ) : Prop := l.length ≤ 2 * l.countP (fun x => decide (x ≤ m)) ∧ l.length ≤ 2 * l.countP (fun x => decide (m ≤ x))

theorem npMedian_isMedian (l : List ℝ) : IsMedian (npMedian l) l := by
  rcases Nat.eq_zero_or_pos l.length with h0 | hpos
  · rw [List.length_eq_zero_iff] at h0
    subst h0
    simp [IsMedian]
  have hperm : (l.mergeSort (fun a b => decide (a ≤ b))).Perm l := List.mergeSort_perm _ _
  have hsort : (l.mergeSort (fun a b => decide (a ≤ b))).Pairwise (fun a b => a ≤ b) := by
    have := List.pairwise_mergeSort (le := fun a b : ℝ => decide (a ≤ b)) (by intro a b c; simp; exact le_trans) (by intro a b; simp; exact le_total a b) l
    simpa using this
  have hmed : npMedian l = ((l.mergeSort (fun a b => decide (a ≤ b))).getD ((l.length - 1) / 2) 0 + (l.mergeSort (fun a b => decide (a ≤ b))).getD (l.length / 2) 0) / 2 := rfl
  unfold IsMedian
  rw [← hperm.countP_eq, ← hperm.countP_eq]
  have hlen := hperm.length_eq
  generalize l.mergeSort (fun a b => decide (a ≤ b)) = s at hperm hsort hmed hlen
  rw [← hlen] at hmed hpos ⊢
  generalize npMedian l = m at hmed
  have hle : ∀ i j (hi : i < s.length) (hj : j < s.length), i ≤ j → s[i] ≤ s[j] := by
    intro i j hi hj hij
    rcases Nat.lt_or_eq_of_le hij with h | rfl
    · exact List.pairwise_iff_getElem.1 hsort i j hi hj h
    · exact le_refl _
  have ha : (s.length - 1) / 2 < s.length := by omega
  have hb : s.length / 2 < s.length := by omega
  rw [List.getD_eq_getElem?_getD, List.getD_eq_getElem?_getD, List.getElem?_eq_getElem ha, List.getElem?_eq_getElem hb, Option.getD_some, Option.getD_some] at hmed
  have hab := hle _ _ ha hb (by omega)
  constructor
  · have h1 : (s.take ((s.length - 1) / 2 + 1)).countP (fun x => decide (x ≤ m)) = (s.take ((s.length - 1) / 2 + 1)).length := by
      rw [List.countP_eq_length]
      intro x hx
      obtain ⟨i, hi, rfl⟩ := List.mem_iff_getElem.1 hx
      rw [List.length_take] at hi
      rw [List.getElem_take]
      have := hle i _ (by omega) ha (by omega)
      simp only [decide_eq_true_eq]
      linarith
    have h2 := (List.take_sublist ((s.length - 1) / 2 + 1) s).countP_le (p := fun x => decide (x ≤ m))
    rw [h1, List.length_take] at h2
    omega
  · have h1 : (s.drop (s.length / 2)).countP (fun x => decide (m ≤ x)) = (s.drop (s.length / 2)).length := by
      rw [List.countP_eq_length]
      intro x hx
      obtain ⟨i, hi, rfl⟩ := List.mem_iff_getElem.1 hx
      rw [List.length_drop] at hi
      rw [List.getElem_drop]
      have := hle _ (s.length / 2 + i) hb (by omega) (by omega)
      simp only [decide_eq_true_eq]
      linarith
    have h2 := (List.drop_sublist (s.length / 2) s).countP_le (p := fun x => decide (m ≤ x))
    rw [h1, List.length_drop] at h2
    omega

/-- **C131** every spectrum with a positive median is given to the fit with median 1: half of its values are at most 1 and half at least 1. -/
theorem C131_median (row : List ℝ) (h : 0 < npMedian row) : npMedian (normalized row) = 1 ∧ IsMedian 1 (normalized row) := by
  have : npMedian (normalized row) = 1 := by
    unfold normalized
    rw [npMedian_div _ _ h, div_self h.ne']
  exact ⟨this, this ▸ npMedian_isMedian (normalized row)⟩

/-- **C131** coefficients that are not all zero are stored with length 1. -/
theorem C131_unit (row : List ℝ) (h : ∃ x ∈ row, x ≠ 0) : ((unitCoeff row).map (fun y => y * y)).sum = 1 := by
  have nn : ∀ l : List ℝ, 0 ≤ (l.map (fun y => y * y)).sum := by
    intro l
    apply List.sum_nonneg
    intro x hx
    obtain ⟨y, _, rfl⟩ := List.mem_map.1 hx
    exact mul_self_nonneg y
  have pos : ∀ l : List ℝ, (∃ x ∈ l, x ≠ 0) → 0 < (l.map (fun y => y * y)).sum := by
    intro l
    induction l with
    | nil => rintro ⟨x, hx, _⟩; exact absurd hx (by simp)
    | cons a l ih =>
      rintro ⟨x, hx, hx0⟩
      rw [List.map_cons, List.sum_cons]
      rcases List.mem_cons.1 hx with rfl | hx
      · have := nn l
        have : 0 < x * x := mul_self_pos.2 hx0
        linarith
      · have := ih ⟨x, hx, hx0⟩
        have := mul_self_nonneg a
        linarith
  have hp := pos row h
  set S := (row.map (fun y => y * y)).sum with hS
  have key : ∀ l : List ℝ, ((l.map (fun x => x / Real.sqrt S)).map (fun y => y * y)).sum = (l.map (fun y => y * y)).sum / S := by
    intro l
    induction l with
    | nil => simp
    | cons a l ih =>
      simp only [List.map_cons, List.sum_cons] at ih ⊢
      rw [ih, add_div, div_mul_div_comm, Real.mul_self_sqrt hp.le]
  unfold unitCoeff
  rw [← hS, key, ← hS, div_self hp.ne']

/-- **C131** a simulated star goes into the templates of exactly the classes whose range of temperatures, both ends included, holds its temperature. -/
theorem C131_class (spectra : List (List ℝ × ℝ)) (lo hi : ℝ) (row : List ℝ) : row ∈ ofClass spectra lo hi ↔ ∃ T, (row, T) ∈ spectra ∧ lo ≤ T ∧ T ≤ hi := by
  unfold ofClass
  simp only [List.mem_map, List.mem_filter, Bool.and_eq_true, decide_eq_true_eq]
  constructor
  · rintro ⟨⟨r, T⟩, ⟨h1, h2⟩, rfl⟩; exact ⟨T, h1, h2⟩
  · rintro ⟨T, h1, h2⟩; exact ⟨(row, T), ⟨h1, h2⟩, rfl⟩

/-- **C131** every star from 2400 to 30000 K is in one of the classes, and in no other unless its temperature is one of the five common borders. -/
theorem C131_classes_partial (T : ℝ) (h1 : 2400 ≤ T) (h2 : T ≤ 30000) :
    (∃ c ∈ typeTemp, c.2.1 ≤ T ∧ T ≤ c.2.2) ∧
    (T ∉ [(3700 : ℝ), 5200, 6000, 7500, 10000] → ∀ c ∈ typeTemp, ∀ d ∈ typeTemp, c.2.1 ≤ T → T ≤ c.2.2 → d.2.1 ≤ T → T ≤ d.2.2 → c = d) := by
  constructor
  · unfold typeTemp
    by_cases a : T ≤ 3700
    · exact ⟨("M".toList, 2400, 3700), by simp, h1, a⟩
    by_cases b : T ≤ 5200
    · exact ⟨("K".toList, 3700, 5200), by simp, (not_le.1 a).le, b⟩
    by_cases c : T ≤ 6000
    · exact ⟨("G".toList, 5200, 6000), by simp, (not_le.1 b).le, c⟩
    by_cases d : T ≤ 7500
    · exact ⟨("F".toList, 6000, 7500), by simp, (not_le.1 c).le, d⟩
    by_cases e : T ≤ 10000
    · exact ⟨("A".toList, 7500, 10000), by simp, (not_le.1 d).le, e⟩
    · exact ⟨("B".toList, 10000, 30000), by simp, (not_le.1 e).le, h2⟩
  · intro hT c hc d hd a1 a2 b1 b2
    simp only [List.mem_cons, List.not_mem_nil, or_false, not_or] at hT
    obtain ⟨t1, t2, t3, t4, t5⟩ := hT
    unfold typeTemp at hc hd
    simp only [List.mem_cons, List.not_mem_nil, or_false] at hc hd
    rcases hc with rfl | rfl | rfl | rfl | rfl | rfl <;> rcases hd with rfl | rfl | rfl | rfl | rfl | rfl <;> simp only at a1 a2 b1 b2 <;> first
      | rfl
      | (exfalso; first | linarith | exact t1 (by linarith) | exact t2 (by linarith) | exact t3 (by linarith) | exact t4 (by linarith) | exact t5 (by linarith))

/-- **C131** (refuted) a star is not always in one class only: one of 6000 K is in the templates of F and of G. -/
theorem C131_classes_refuted (row : List ℝ) :
    row ∈ ofClass [(row, 6000)] 6000 7500 ∧ row ∈ ofClass [(row, 6000)] 5200 6000 ∧ ("F".toList, (6000 : ℝ), (7500 : ℝ)) ∈ typeTemp ∧ ("G".toList, (5200 : ℝ), (6000 : ℝ)) ∈ typeTemp := by
  refine ⟨(C131_class _ _ _ _).2 ⟨6000, by simp, by norm_num, by norm_num⟩, (C131_class _ _ _ _).2 ⟨6000, by simp, by norm_num, by norm_num⟩, by simp [typeTemp], by simp [typeTemp]⟩

/-! ### the names -/

/-- **C131** name and extension make up the given name; the extension is empty or starts with a dot and has no further dot or slash. -/
theorem C131_splitext (p : PyStr) : (splitext p).1 ++ (splitext p).2 = p ∧ ((splitext p).2 = [] ∨ ∃ e : PyStr, (splitext p).2 = '.' :: e ∧ '.' ∉ e ∧ '/' ∉ e) := by
  unfold splitext
  have hsplit := List.takeWhile_append_dropWhile (p := fun c => c != '.' && c != '/') (l := p.reverse)
  simp only
  split
  · next rest hr =>
    rw [hr] at hsplit
    split
    · constructor
      · simp only
        have := congrArg List.reverse hsplit
        simpa using this
      · right
        refine ⟨_, rfl, ?_, ?_⟩ <;>
        · intro h
          have h := List.mem_reverse.1 h
          have := List.all_eq_true.1 List.all_takeWhile _ h
          simp at this
    · simp
  · simp

private theorem takeWhile_stop (p : Char → Bool) (a b : List Char) (x : Char) (ha : ∀ c ∈ a, p c = true) (hx : p x = false) :
    (a ++ x :: b).takeWhile p = a ∧ (a ++ x :: b).dropWhile p = x :: b := by
  induction a with
  | nil => simp [hx]
  | cons c a ih =>
    have := ih (fun d hd => ha d (List.mem_cons_of_mem _ hd))
    simp [ha c (by simp), this]

private theorem takeWhile_all (p : Char → Bool) (a : List Char) (ha : ∀ c ∈ a, p c = true) : a.takeWhile p = a := by
  induction a with
  | nil => rfl
  | cons c a ih => simp [ha c (by simp), ih (fun d hd => ha d (List.mem_cons_of_mem _ hd))]

/-- **C131** a last dot in a file name that has another character than dots before it starts the extension, whatever folder the file is in. -/
theorem C131_splitext_dot (dir file ext : PyStr) (hd : dir = [] ∨ ∃ d, dir = d ++ ['/']) (hf : '/' ∉ file) (hc : ∃ c ∈ file, c ≠ '.') (h1 : '.' ∉ ext) (h2 : '/' ∉ ext) :
    splitext (dir ++ file ++ '.' :: ext) = (dir ++ file, '.' :: ext) := by
  have hr : (dir ++ file ++ '.' :: ext).reverse = ext.reverse ++ '.' :: (dir ++ file).reverse := by simp
  obtain ⟨e1, e2⟩ := takeWhile_stop (fun c => c != '.' && c != '/') ext.reverse (dir ++ file).reverse '.' (by
    intro c hc'
    have hc' := List.mem_reverse.1 hc'
    have a1 : c ≠ '.' := by rintro rfl; exact h1 hc'
    have a2 : c ≠ '/' := by rintro rfl; exact h2 hc'
    simp [a1, a2]) (by simp)
  have e3 : (dir ++ file).reverse.takeWhile (fun c => c != '/') = file.reverse := by
    have hp : ∀ c ∈ file.reverse, (c != '/') = true := by
      intro c hc'
      have hc' := List.mem_reverse.1 hc'
      have : c ≠ '/' := by rintro rfl; exact hf hc'
      simp [this]
    rcases hd with rfl | ⟨d, rfl⟩
    · rw [List.nil_append]
      exact takeWhile_all _ _ hp
    · rw [show (d ++ ['/'] ++ file).reverse = file.reverse ++ '/' :: d.reverse by simp]
      exact (takeWhile_stop _ _ _ _ hp (by simp)).1
  unfold splitext
  rw [hr]
  simp only [e1, e2, e3]
  rw [if_pos]
  · simp
  · obtain ⟨c, hc, hne⟩ := hc
    rw [List.any_eq_true]
    exact ⟨c, List.mem_reverse.2 hc, by simpa using hne⟩

/-- a spectrum with a positive median, as in `C131_median` -/
example : npMedian [1, 2, 6] = 2 ∧ npMedian [1, 2, 6, 7] = 4 := by
  have h : ∀ l : List ℝ, l.Pairwise (· ≤ ·) → l.mergeSort (fun a b => decide (a ≤ b)) = l := by
    intro l hl
    apply List.mergeSort_of_pairwise
    simpa using hl
  unfold npMedian
  rw [h _ (by norm_num), h _ (by norm_num)]
  norm_num

theorem starName_inj (out c d : PyStr) (h : starName out c = starName out d) : c = d := by
  unfold starName at h
  simpa using h

end Make
end Redrock
