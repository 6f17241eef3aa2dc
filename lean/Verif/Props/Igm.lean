import Verif.Model.Igm
import Verif.Lemmas.Fitz
import Verif.Lemmas.Zfind
import Verif.Props.Rebin
import Mathlib.Analysis.SpecialFunctions.Pow.Continuity
import Mathlib.Topology.Order.LeftRightNhds
import Mathlib.Algebra.Order.BigOperators.GroupWithZero.List

/-!
C45: IGM transmission; C55: Lyman-continuum optical depth; C69: the transmission of a pixel does not depend on the other redshifts and wavelengths of the call.
-/
set_option linter.unusedSectionVars false
namespace Redrock

/-! ### Specification -/

/-- Transmission of the Lyman series at observed wavelength `l` for redshift `z`: every line above the rest wavelength `l/(1+z)` absorbs with the optical depth `A (l/line)^B`. -/
noncomputable def lymanT (series : List LymanLine) (z l : ℝ) : ℝ :=
  (series.map (fun s => if l / (1 + z) < s.line then Real.exp (-(s.A * (l / s.line) ^ s.B)) else 1)).prod

/-- Transmission of one pixel for each model. -/
noncomputable def pixelT (model : IgmModel) (z l : ℝ) : ℝ :=
  match model with
  | .calura12 | .kamble20 => lymanT (lymanSeries model) z l
  | .inoue14 => if l / (1 + z) < lyA then fullIgm inoueLines z l else 1
  | _ => 1

/-- `f z l` for scalars or arrays, with the dimensions of the arguments. -/
def outputOf (zObj lObs : NpArg) (f : ℝ → ℝ → ℝ) : NpRes :=
  match zObj, lObs with
  | .scalar z, .scalar l => .scalar (f z l)
  | .scalar z, .array ls => .vec (ls.map (fun l => f z l))
  | .array zs, .scalar l => .vec (zs.map (fun z => f z l))
  | .array zs, .array ls => .mat (zs.map (fun z => ls.map (fun l => f z l)))

/-! ### proofs -/

theorem npMax_ne (x : List ℝ) (hne : x ≠ []) : ∃ m, npMax x = .ok m := by
  cases x with
  | nil => exact absurd rfl hne
  | cons a l => exact ⟨_, rfl⟩

theorem zipWith_map_self {α β γ : Type} (f : α → β → γ) (g : α → β) (l : List α) : List.zipWith f l (l.map g) = l.map (fun a => f a (g a)) := by
  induction l with
  | nil => rfl
  | cons a l ih => simp [ih]

/-- factor of one line -/
noncomputable def lineFactor (s : LymanLine) (z l : ℝ) : ℝ := if l / (1 + z) < s.line then Real.exp (-(s.A * (l / s.line) ^ s.B)) else 1

theorem ckStep_eq (zs ls : List ℝ) (m : ℝ) (hm : ∀ z ∈ zs, ∀ l ∈ ls, m ≤ 1 / (1 + z) * l) (g : ℝ → ℝ → ℝ) (s : LymanLine) :
    ckStep zs ls m (zs.map (fun z => ls.map (fun l => g z l))) s = zs.map (fun z => ls.map (fun l => g z l * lineFactor s z l)) := by
  have e : ∀ z l : ℝ, 1 / (1 + z) * l = l / (1 + z) := fun z l => by rw [one_div, mul_comm, div_eq_mul_inv]
  unfold ckStep
  split
  · rename_i h
    apply List.map_congr_left
    intro z hz
    apply List.map_congr_left
    intro l hl
    have : ¬ l / (1 + z) < s.line := by
      have := hm z hz l hl
      rw [e] at this
      intro h'
      linarith
    simp [lineFactor, this]
  · rw [zipWith_map_self]
    apply List.map_congr_left
    intro z hz
    rw [zipWith_map_self]
    apply List.map_congr_left
    intro l hl
    rw [e]
    unfold lineFactor
    split
    · dsimp only
      rw [add_sub_cancel]
    · rw [mul_one]

theorem ck_foldl (zs ls : List ℝ) (m : ℝ) (hm : ∀ z ∈ zs, ∀ l ∈ ls, m ≤ 1 / (1 + z) * l) (series : List LymanLine) (g : ℝ → ℝ → ℝ) :
    series.foldl (ckStep zs ls m) (zs.map (fun z => ls.map (fun l => g z l))) = zs.map (fun z => ls.map (fun l => g z l * lymanT series z l)) := by
  induction series generalizing g with
  | nil => simp [lymanT]
  | cons s series ih =>
    rw [List.foldl_cons, ckStep_eq zs ls m hm, ih (fun z l => g z l * lineFactor s z l)]
    apply List.map_congr_left
    intro z _
    apply List.map_congr_left
    intro l _
    simp only [lymanT, List.map_cons, List.prod_cons, lineFactor]
    ring

theorem transmissionCK_eq (series : List LymanLine) (zs ls : List ℝ) (hz : zs ≠ []) (hl : ls ≠ []) :
    transmissionCK series zs ls = .ok (zs.map (fun z => ls.map (fun l => lymanT series z l))) := by
  obtain ⟨m, hm⟩ := npMin_ne (zs.flatMap (fun z => ls.map (fun l => 1 / (1 + z) * l))) (by
    obtain ⟨z, zs, rfl⟩ := List.exists_cons_of_ne_nil hz
    obtain ⟨l, ls, rfl⟩ := List.exists_cons_of_ne_nil hl
    simp)
  unfold transmissionCK
  rw [hm, okBind]
  have := ck_foldl zs ls m (by
    intro z hz l hl
    apply (npMin_spec _ _ hm).2
    rw [List.mem_flatMap]
    exact ⟨z, hz, List.mem_map.2 ⟨l, hl, rfl⟩⟩) series (fun _ _ => 1)
  simp only [one_mul] at this
  rw [this]
  rfl

/-- the table of lines: 0 < wavelength ≤ Lyman alpha, coefficients non-negative -/
theorem inoueLines_ok : ∀ a ∈ inoueLines, 0 < a.lam ∧ a.lam ≤ 1215.67 ∧ 0 ≤ a.laf1 ∧ 0 ≤ a.laf2 ∧ 0 ≤ a.laf3 ∧ 0 ≤ a.dla1 ∧ 0 ≤ a.dla2 := by decide +kernel

theorem inoueLines_le (a : InoueLine) (ha : a ∈ inoueLines) : (a.lam : ℝ) ≤ lyA := by
  have h := (inoueLines_ok a ha).2.1
  have : ((a.lam : ℚ) : ℝ) ≤ ((1215.67 : ℚ) : ℝ) := by exact_mod_cast h
  unfold lyA
  norm_num at this ⊢
  exact this

/-- at or above Lyman alpha nothing is absorbed -/
theorem fullIgm_one (z l : ℝ) (hz : -1 < z) (h : lyA ≤ l / (1 + z)) : fullIgm inoueLines z l = 1 := by
  have h1z : 0 < 1 + z := by linarith
  have hL : ¬ l < 911.8 * (1 + z) := by
    rw [not_lt]
    rw [le_div_iff₀ h1z] at h
    have : (911.8 : ℝ) ≤ lyA := by unfold lyA; norm_num
    nlinarith
  have a1 : ∀ a ∈ inoueLines, tauLSLAFLine a z l = 0 := by
    intro a ha
    have := inoueLines_le a ha
    unfold tauLSLAFLine
    dsimp only
    rw [if_neg (by linarith)]
  have a2 : ∀ a ∈ inoueLines, tauLSDLALine a z l = 0 := by
    intro a ha
    have := inoueLines_le a ha
    unfold tauLSDLALine
    dsimp only
    rw [if_neg (by linarith)]
  have a3 : tauLCLAF z l = 0 := by simp [tauLCLAF, hL]
  have a4 : tauLCDLA z l = 0 := by simp [tauLCDLA, hL]
  unfold fullIgm
  dsimp only
  rw [a3, a4, List.map_congr_left a1, List.map_congr_left a2]
  simp

theorem transmissionInoue_eq (zs ls : List ℝ) (hl : ls ≠ []) (hz1 : ∀ z ∈ zs, -1 < z) :
    transmissionInoue inoueLines zs ls = .ok (zs.map (fun z => ls.map (fun l => pixelT .inoue14 z l))) := by
  obtain ⟨m, hm⟩ := npMin_ne ls hl
  unfold transmissionInoue
  rw [hm, okBind]
  congr 1
  apply List.map_congr_left
  intro z hz
  have h1z : 0 < 1 + z := by linarith [hz1 z hz]
  split
  · apply List.map_congr_left
    intro l _
    show _ = if l / (1 + z) < lyA then fullIgm inoueLines z l else 1
    split
    · rfl
    · rename_i h
      exact fullIgm_one z l (hz1 z hz) (not_lt.1 h)
  · rename_i h
    apply List.map_congr_left
    intro l hl
    have : ¬ l / (1 + z) < lyA := by
      have h2 := (npMin_spec _ _ hm).2 l hl
      have : m / (1 + z) ≤ l / (1 + z) := div_le_div_of_nonneg_right h2 h1z.le
      intro h'
      exact h (lt_of_le_of_lt this h')
    show _ = if l / (1 + z) < lyA then fullIgm inoueLines z l else 1
    rw [if_neg this]

/-- at or above Lyman alpha every model transmits everything -/
theorem pixelT_one (model : IgmModel) (z l : ℝ) (h : lyA ≤ l / (1 + z)) : pixelT model z l = 1 := by
  have hs : ∀ m, ∀ s ∈ lymanSeries m, s.line ≤ lyA := by
    intro m s hs
    cases m <;> simp only [lymanSeries, List.mem_cons, List.not_mem_nil, or_false] at hs
    · rcases hs with rfl | rfl | rfl | rfl | rfl <;> unfold lyA <;> norm_num
    · subst hs; exact le_refl _
  have hT : ∀ m, lymanT (lymanSeries m) z l = 1 := by
    intro m
    unfold lymanT
    apply List.prod_eq_one
    intro v hv
    obtain ⟨s, h1, rfl⟩ := List.mem_map.1 hv
    rw [if_neg]
    have := hs m s h1
    linarith
  cases model
  · exact hT _
  · exact hT _
  · show (if _ then _ else _) = _
    rw [if_neg (not_lt.2 h)]
  · rfl
  · rfl

theorem reshapeLike_eq (zObj lObs : NpArg) (f : ℝ → ℝ → ℝ) :
    reshapeLike zObj lObs (zObj.toList.map (fun z => lObs.toList.map (fun l => f z l))) = .ok (outputOf zObj lObs f) := by
  cases zObj <;> cases lObs
  · rfl
  · rfl
  · rename_i zs l
    unfold reshapeLike
    dsimp only [NpArg.toList]
    rw [mapM_map', mapM_Except_ok (fun z => npGet (List.map (fun l => f z l) [l]) 0) (fun z => f z l) zs (fun a _ => rfl)]
    rfl
  · rfl

/-- **C69, C45** for every known model, redshifts > -1 and wavelengths, given as scalars or non-empty arrays: `transmission_Lyman` returns, in the dimensions of its arguments, for every redshift and
wavelength the transmission of that pixel alone; it returns `None` only if allowed to and then every pixel has transmission 1. -/
theorem C69_pixelwise (zObj lObs : NpArg) (model : IgmModel) (always : Bool) (hm : model ≠ .unknown) (hz : zObj.toList ≠ []) (hl : lObs.toList ≠ []) (hz1 : ∀ z ∈ zObj.toList, -1 < z)
    (hl0 : ∀ l ∈ lObs.toList, 0 < l) :
    transmissionLyman zObj lObs model always = .ok (some (outputOf zObj lObs (pixelT model))) ∨
    (transmissionLyman zObj lObs model always = .ok none ∧ always = false ∧ ∀ z ∈ zObj.toList, ∀ l ∈ lObs.toList, pixelT model z l = 1) := by
  obtain ⟨lmin, e1⟩ := npMin_ne lObs.toList hl
  obtain ⟨zmax, e2⟩ := npMax_ne zObj.toList hz
  obtain ⟨f1, f2⟩ := npMin_spec _ _ e1
  obtain ⟨g1, g2⟩ := npMax_spec _ _ e2
  have hall : lyA < lmin / (1 + zmax) → ∀ z ∈ zObj.toList, ∀ l ∈ lObs.toList, pixelT model z l = 1 := by
    intro h z hz l hl
    apply pixelT_one
    have h1 : 0 < 1 + z := by linarith [hz1 z hz]
    have h2 : (1 + z) ≤ 1 + zmax := by linarith [g2 z hz]
    have h3 : lmin ≤ l := f2 l hl
    have h4 := hl0 lmin f1
    have : lmin / (1 + zmax) ≤ l / (1 + z) := div_le_div₀ (hl0 l hl).le h3 h1 h2
    linarith
  have hones : (∀ z ∈ zObj.toList, ∀ l ∈ lObs.toList, pixelT model z l = 1) →
      zObj.toList.map (fun _ => lObs.toList.map (fun _ => (1 : ℝ))) = zObj.toList.map (fun z => lObs.toList.map (fun l => pixelT model z l)) := by
    intro h
    apply List.map_congr_left
    intro z hz
    apply List.map_congr_left
    intro l hl
    rw [h z hz l hl]
  unfold transmissionLyman
  rw [if_neg hm]
  by_cases hno : model = .noModel ∧ ¬ always = true
  · right
    rw [if_pos hno]
    refine ⟨rfl, by simpa using hno.2, ?_⟩
    intro z _ l _
    rw [hno.1]
    rfl
  rw [if_neg hno]
  rw [e1, okBind, e2, okBind]
  dsimp only [pure_bind]
  by_cases hw : lyA < lmin / (1 + zmax) ∧ ¬ always = true
  · right
    rw [if_pos hw]
    exact ⟨rfl, by simpa using hw.2, hall hw.1⟩
  left
  rw [if_neg hw]
  by_cases h1 : always = true ∧ (lyA < lmin / (1 + zmax) ∨ model = .noModel)
  · rw [if_pos h1]
    have : ∀ z ∈ zObj.toList, ∀ l ∈ lObs.toList, pixelT model z l = 1 := by
      rcases h1.2 with h | h
      · exact hall h
      · intro z _ l _
        rw [h]
        rfl
    rw [hones this]
    show (do
      let r ← reshapeLike zObj lObs _
      pure (some r) : Py (Option NpRes)) = _
    rw [reshapeLike_eq]
    rfl
  · rw [if_neg h1]
    cases model
    · show (do
        let T ← transmissionCK (lymanSeries .calura12) zObj.toList lObs.toList
        let r ← reshapeLike zObj lObs T
        pure (some r) : Py (Option NpRes)) = _
      rw [transmissionCK_eq _ _ _ hz hl, okBind, reshapeLike_eq]
      rfl
    · show (do
        let T ← transmissionCK (lymanSeries .kamble20) zObj.toList lObs.toList
        let r ← reshapeLike zObj lObs T
        pure (some r) : Py (Option NpRes)) = _
      rw [transmissionCK_eq _ _ _ hz hl, okBind, reshapeLike_eq]
      rfl
    · show (do
        let T ← transmissionInoue inoueLines zObj.toList lObs.toList
        let r ← reshapeLike zObj lObs T
        pure (some r) : Py (Option NpRes)) = _
      rw [transmissionInoue_eq _ _ hl hz1, okBind, reshapeLike_eq]
      rfl
    · exfalso
      cases always
      · exact hno ⟨rfl, by simp⟩
      · exact h1 ⟨rfl, Or.inr rfl⟩
    · exact absurd rfl hm

/-- an unknown model is refused -/
theorem C45_unknown_model (zObj lObs : NpArg) (always : Bool) : transmissionLyman zObj lObs .unknown always = .error .valueError := by
  unfold transmissionLyman
  rfl

/-- **C45** transmissions are positive and 1 at rest wavelengths at or above Lyman alpha (all models); for Calura12 and Kamble20 they are at most 1, and more absorbing for higher redshift at the same
observed wavelength. With `C69_pixelwise` these are the values `transmission_Lyman` returns. -/
theorem C45_transmission (model : IgmModel) (z l : ℝ) (hz : -1 < z) (hl : 0 < l) :
    0 < pixelT model z l ∧ (1215.67 ≤ l / (1 + z) → pixelT model z l = 1) ∧
    (model ≠ .inoue14 → pixelT model z l ≤ 1 ∧ ∀ z', z ≤ z' → pixelT model z' l ≤ pixelT model z l) := by
  have h1z : 0 < 1 + z := by linarith
  have hA : ∀ m, ∀ s ∈ lymanSeries m, 0 ≤ s.A ∧ 0 < s.line := by
    intro m s hs
    cases m <;> simp only [lymanSeries, List.mem_cons, List.not_mem_nil, or_false] at hs
    · rcases hs with rfl | rfl | rfl | rfl | rfl <;> simp only [lyA] <;> norm_num
    · subst hs; simp only [lyA]; norm_num
  have hpos : ∀ series z, 0 < lymanT series z l := by
    intro series z
    unfold lymanT
    apply List.prod_pos
    intro v hv
    obtain ⟨s, -, rfl⟩ := List.mem_map.1 hv
    split
    · exact Real.exp_pos _
    · exact one_pos
  have hexp : ∀ m, ∀ s ∈ lymanSeries m, Real.exp (-(s.A * (l / s.line) ^ s.B)) ≤ 1 := by
    intro m s hs
    obtain ⟨a1, a2⟩ := hA m s hs
    rw [Real.exp_le_one_iff, neg_nonpos]
    exact mul_nonneg a1 (Real.rpow_nonneg (div_nonneg hl.le a2.le) _)
  have hmono : ∀ m z', z ≤ z' → lymanT (lymanSeries m) z' l ≤ lymanT (lymanSeries m) z l := by
    intro m z' hzz
    have key : ∀ series : List LymanLine, (∀ s ∈ series, Real.exp (-(s.A * (l / s.line) ^ s.B)) ≤ 1) → lymanT series z' l ≤ lymanT series z l := by
      intro series
      induction series with
      | nil => intro _; simp [lymanT]
      | cons s series ih =>
        intro h
        have e : ∀ z, lymanT (s :: series) z l = (if l / (1 + z) < s.line then Real.exp (-(s.A * (l / s.line) ^ s.B)) else 1) * lymanT series z l := by
          intro z; simp [lymanT]
        rw [e, e]
        apply mul_le_mul _ (ih (fun s hs => h s (List.mem_cons_of_mem _ hs))) (hpos _ _).le
        · split
          · exact (Real.exp_pos _).le
          · exact zero_le_one
        · by_cases h1 : l / (1 + z) < s.line
          · have : l / (1 + z') ≤ l / (1 + z) := div_le_div_of_nonneg_left hl.le h1z (by linarith)
            rw [if_pos h1, if_pos (lt_of_le_of_lt this h1)]
          · rw [if_neg h1]
            split
            · exact h s List.mem_cons_self
            · exact le_refl _
    exact key _ (hexp m)
  have hle : ∀ m, lymanT (lymanSeries m) z l ≤ 1 := by
    intro m
    have key : ∀ series : List LymanLine, (∀ s ∈ series, Real.exp (-(s.A * (l / s.line) ^ s.B)) ≤ 1) → lymanT series z l ≤ 1 := by
      intro series
      induction series with
      | nil => intro _; simp [lymanT]
      | cons s series ih =>
        intro h
        have e : lymanT (s :: series) z l = (if l / (1 + z) < s.line then Real.exp (-(s.A * (l / s.line) ^ s.B)) else 1) * lymanT series z l := by simp [lymanT]
        rw [e]
        apply mul_le_one₀ _ (hpos _ _).le (ih (fun s hs => h s (List.mem_cons_of_mem _ hs)))
        split
        · exact h s List.mem_cons_self
        · exact le_refl _
    exact key _ (hexp m)
  refine ⟨?_, fun h => pixelT_one model z l (by unfold lyA; exact h), ?_⟩
  · cases model
    · exact hpos _ _
    · exact hpos _ _
    · show 0 < if l / (1 + z) < lyA then fullIgm inoueLines z l else 1
      split
      · exact Real.exp_pos _
      · exact one_pos
    · exact one_pos
    · exact one_pos
  · intro hne
    cases model
    · exact ⟨hle _, fun z' h => hmono _ z' h⟩
    · exact ⟨hle _, fun z' h => hmono _ z' h⟩
    · exact absurd rfl hne
    · exact ⟨le_refl _, fun _ _ => le_refl _⟩
    · exact ⟨le_refl _, fun _ _ => le_refl _⟩

/-- absorption does occur below Lyman alpha -/
theorem C45_absorbs (z l : ℝ) (hl : 0 < l) (h : l / (1 + z) < 1215.67) : pixelT .calura12 z l < 1 ∧ pixelT .kamble20 z l < 1 := by
  have hlya : l / (1 + z) < lyA := by unfold lyA; exact h
  have key : ∀ (A B : ℝ) (rest : List LymanLine), 0 < A → lymanT rest z l ≤ 1 → 0 < lymanT rest z l → lymanT (⟨lyA, A, B⟩ :: rest) z l < 1 := by
    intro A B rest hA h1 h2
    have e : lymanT (⟨lyA, A, B⟩ :: rest) z l = Real.exp (-(A * (l / lyA) ^ B)) * lymanT rest z l := by simp [lymanT, hlya]
    rw [e]
    have : Real.exp (-(A * (l / lyA) ^ B)) < 1 := by
      rw [Real.exp_lt_one_iff, neg_lt_zero]
      have : 0 < lyA := by unfold lyA; norm_num
      exact mul_pos hA (Real.rpow_pos_of_pos (div_pos hl this) _)
    have hp := Real.exp_pos (-(A * (l / lyA) ^ B))
    nlinarith
  constructor
  · apply key _ _ _ (by norm_num)
    · have e : ∀ series : List LymanLine, (∀ s ∈ series, 0 ≤ s.A ∧ 0 < s.line) → lymanT series z l ≤ 1 ∧ 0 < lymanT series z l := by
        intro series
        induction series with
        | nil => intro _; simp [lymanT]
        | cons s series ih =>
          intro h
          obtain ⟨i1, i2⟩ := ih (fun s hs => h s (List.mem_cons_of_mem _ hs))
          obtain ⟨a1, a2⟩ := h s List.mem_cons_self
          have e : lymanT (s :: series) z l = (if l / (1 + z) < s.line then Real.exp (-(s.A * (l / s.line) ^ s.B)) else 1) * lymanT series z l := by simp [lymanT]
          rw [e]
          constructor
          · apply mul_le_one₀ _ i2.le i1
            split
            · rw [Real.exp_le_one_iff, neg_nonpos]
              exact mul_nonneg a1 (Real.rpow_nonneg (div_nonneg hl.le a2.le) _)
            · exact le_refl _
          · apply mul_pos _ i2
            split
            · exact Real.exp_pos _
            · exact one_pos
      refine (e _ ?_).1
      intro s hs
      simp only [List.mem_cons, List.not_mem_nil, or_false] at hs
      rcases hs with rfl | rfl | rfl | rfl <;> norm_num
    · unfold lymanT
      apply List.prod_pos
      intro v hv
      obtain ⟨s, -, rfl⟩ := List.mem_map.1 hv
      split
      · exact Real.exp_pos _
      · exact one_pos
  · apply key _ _ _ (by norm_num) <;> simp [lymanT]

/-- **C45** also Inoue14 absorbs everywhere between the Lyman limit and Lyman alpha. -/
theorem C45_inoue (z l : ℝ) (hz : -1 < z) (hl : 911.8 ≤ l / (1 + z)) (h : l / (1 + z) < 1215.67) : pixelT .inoue14 z l < 1 := by
  have h1z : 0 < 1 + z := by linarith
  rw [le_div_iff₀ h1z] at hl
  have hl0 : 0 < l := lt_of_lt_of_le (by positivity) hl
  have hL : ¬ l < 911.8 * (1 + z) := not_lt.2 hl
  have a3 : tauLCLAF z l = 0 := by simp [tauLCLAF, hL]
  have a4 : tauLCDLA z l = 0 := by simp [tauLCDLA, hL]
  have c : ∀ a ∈ inoueLines, (0 : ℝ) < a.lam ∧ (0 : ℝ) ≤ a.laf1 ∧ (0 : ℝ) ≤ a.laf2 ∧ (0 : ℝ) ≤ a.laf3 ∧ (0 : ℝ) ≤ a.dla1 ∧ (0 : ℝ) ≤ a.dla2 := by
    intro a ha
    obtain ⟨h1, -, h2, h3, h4, h5, h6⟩ := inoueLines_ok a ha
    exact ⟨by exact_mod_cast h1, by exact_mod_cast h2, by exact_mod_cast h3, by exact_mod_cast h4, by exact_mod_cast h5, by exact_mod_cast h6⟩
  have p : ∀ (x q : ℝ), 0 < x → 0 < x ^ q := fun x q hx => Real.rpow_pos_of_pos hx q
  have b1 : ∀ a ∈ inoueLines, 0 ≤ tauLSLAFLine a z l := by
    intro a ha
    obtain ⟨h1, h2, h3, h4, h5, h6⟩ := c a ha
    unfold tauLSLAFLine
    dsimp only
    split
    · split
      · exact mul_nonneg (div_nonneg h2 (p _ _ h1).le) (p _ _ hl0).le
      · split
        · exact mul_nonneg (div_nonneg h3 (p _ _ h1).le) (p _ _ hl0).le
        · exact mul_nonneg (div_nonneg h4 (p _ _ h1).le) (p _ _ hl0).le
    · exact le_refl _
  have b2 : ∀ a ∈ inoueLines, 0 ≤ tauLSDLALine a z l := by
    intro a ha
    obtain ⟨h1, h2, h3, h4, h5, h6⟩ := c a ha
    unfold tauLSDLALine
    dsimp only
    split
    · split
      · exact mul_nonneg (div_nonneg h5 (p _ _ h1).le) (p _ _ hl0).le
      · exact mul_nonneg (div_nonneg h6 (p _ _ h1).le) (p _ _ hl0).le
    · exact le_refl _
  let a0 : InoueLine := ⟨121567/100, 10561/625000, 235379/100000000, 102611/1000000000, 80849/500000000, 107799/2000000000⟩
  have ha0 : a0 ∈ inoueLines := by unfold inoueLines; exact List.mem_cons_self
  have hlam : ((a0.lam : ℚ) : ℝ) = 1215.67 := by show (((121567 / 100 : ℚ)) : ℝ) = _; norm_num
  have b3 : 0 < tauLSLAFLine a0 z l := by
    unfold tauLSLAFLine
    dsimp only
    rw [hlam, if_pos h]
    have e1 : ((a0.laf1 : ℚ) : ℝ) = 10561/625000 := by show ((10561/625000 : ℚ) : ℝ) = _; norm_num
    have e2 : ((a0.laf2 : ℚ) : ℝ) = 235379/100000000 := by show ((235379/100000000 : ℚ) : ℝ) = _; norm_num
    have e3 : ((a0.laf3 : ℚ) : ℝ) = 102611/1000000000 := by show ((102611/1000000000 : ℚ) : ℝ) = _; norm_num
    have r := fun q => p 1215.67 q (by norm_num)
    have s := fun q => p l q hl0
    rw [e1, e2, e3]
    split
    · exact mul_pos (div_pos (by norm_num) (r _)) (s _)
    · split
      · exact mul_pos (div_pos (by norm_num) (r _)) (s _)
      · exact mul_pos (div_pos (by norm_num) (r _)) (s _)
  have s1 : 0 < (inoueLines.map (fun a => tauLSLAFLine a z l)).sum := by
    refine lt_of_lt_of_le b3 (List.single_le_sum ?_ _ (List.mem_map.2 ⟨a0, ha0, rfl⟩))
    intro v hv
    obtain ⟨a, ha, rfl⟩ := List.mem_map.1 hv
    exact b1 a ha
  have s2 : 0 ≤ (inoueLines.map (fun a => tauLSDLALine a z l)).sum := by
    apply List.sum_nonneg
    intro v hv
    obtain ⟨a, ha, rfl⟩ := List.mem_map.1 hv
    exact b2 a ha
  show (if l / (1 + z) < lyA then fullIgm inoueLines z l else 1) < 1
  rw [if_pos (by unfold lyA; exact h)]
  unfold fullIgm
  dsimp only
  rw [a3, a4, Real.exp_lt_one_iff]
  linarith

/-- a call with two redshifts and two wavelengths: the hypotheses hold; at z = 3 the first wavelength is absorbed, at z = 0 nothing is -/
example : transmissionLyman (.array [0, 3]) (.array [3600, 6000]) .calura12 false =
      .ok (some (.mat [[1, 1], [pixelT .calura12 3 3600, 1]])) ∧ pixelT .calura12 3 3600 < 1 := by
  have o : ∀ z l : ℝ, (1215.67 : ℝ) ≤ l / (1 + z) → pixelT .calura12 z l = 1 := fun z l h => pixelT_one _ z l (by unfold lyA; exact h)
  have hlt : pixelT .calura12 3 3600 < 1 := (C45_absorbs 3 3600 (by norm_num) (by norm_num)).1
  refine ⟨?_, hlt⟩
  rcases C69_pixelwise (.array [0, 3]) (.array [3600, 6000]) .calura12 false (by simp) (by simp [NpArg.toList]) (by simp [NpArg.toList])
    (by intro z hz; simp [NpArg.toList] at hz; rcases hz with rfl | rfl <;> norm_num) (by intro z hz; simp [NpArg.toList] at hz; rcases hz with rfl | rfl <;> norm_num) with h | ⟨_, _, h⟩
  · rw [h]
    simp only [outputOf, List.map_cons, List.map_nil]
    rw [o 0 3600 (by norm_num), o 0 6000 (by norm_num), o 3 6000 (by norm_num)]
  · have := h 3 (by simp [NpArg.toList]) 3600 (by simp [NpArg.toList])
    linarith

/-! ### Lyman continuum -/

open Filter Topology

private theorem cont_pow (a p : ℝ) (ha : 0 < a) : ContinuousAt (fun l : ℝ => (l / 911.8) ^ p) (911.8 * a) := by
  apply ContinuousAt.rpow_const
  · fun_prop
  · left
    rw [mul_div_assoc, mul_comm]
    norm_num
    exact ha.ne'

private theorem lim_pow (a p : ℝ) (ha : 0 < a) : Tendsto (fun l : ℝ => (l / 911.8) ^ p) (𝓝[<] (911.8 * a)) (𝓝 (a ^ p)) := by
  have h := (cont_pow a p ha).tendsto
  have e : (911.8 * a / 911.8 : ℝ) = a := by field_simp
  rw [e] at h
  exact h.mono_left nhdsWithin_le_nhds

/-- **C55** (refuted) below redshift 1.2 the optical depth of the Lyman-continuum forest tends at the Lyman limit to the value of the formula for 1.2 <= z < 4.7 instead of 0, -/
theorem C55_low_redshift_limit (z : ℝ) (hz : -1 < z) (hz2 : z < 1.2) :
    Tendsto (tauLCLAF z) (𝓝[<] (911.8 * (1 + z))) (𝓝 (0.02545 * (1 + z) ^ (1.6 : ℝ) * (1 + z) ^ (2.1 : ℝ) + 0.3248 * (1 + z) ^ (1.2 : ℝ) - 0.2496 * (1 + z) ^ (2.1 : ℝ))) := by
  have ha : 0 < 1 + z := by linarith
  have h : Tendsto (fun l : ℝ => 0.02545 * (1 + z) ^ (1.6 : ℝ) * (l / 911.8) ^ (2.1 : ℝ) + 0.3248 * (l / 911.8) ^ (1.2 : ℝ) - 0.2496 * (l / 911.8) ^ (2.1 : ℝ)) (𝓝[<] (911.8 * (1 + z)))
      (𝓝 (0.02545 * (1 + z) ^ (1.6 : ℝ) * (1 + z) ^ (2.1 : ℝ) + 0.3248 * (1 + z) ^ (1.2 : ℝ) - 0.2496 * (1 + z) ^ (2.1 : ℝ))) :=
    (((lim_pow (1 + z) 2.1 ha).const_mul _).add ((lim_pow (1 + z) 1.2 ha).const_mul _)).sub ((lim_pow (1 + z) 2.1 ha).const_mul _)
  refine h.congr' ?_
  filter_upwards [self_mem_nhdsWithin] with l hl
  rw [Set.mem_Iio] at hl
  have h1 : ¬ (911.8 * (1 + 1.2) ≤ l) := by rw [not_le]; nlinarith
  have h47 : z < 4.7 := by norm_num at hz2 ⊢; linarith
  have h47' : ¬ (4.7 ≤ z) := not_le.2 h47
  unfold tauLCLAF
  simp only [hl, h1, h47, h47', true_and, false_and, and_false, not_false_eq_true, if_true, if_false]

/-- and at redshift 0 that is 0.10065: the optical depth does not tend to 0 (the formula for z < 1.2, which does, is overwritten). -/
theorem C55_not_zero_at_limit : ¬ Tendsto (tauLCLAF 0) (𝓝[<] (911.8 * (1 + 0))) (𝓝 0) := by
  intro h
  have h2 := C55_low_redshift_limit 0 (by norm_num) (by norm_num)
  have := tendsto_nhds_unique h h2
  norm_num at this

/-- the overwritten formula does tend to 0 -/
theorem C55_first_formula (z : ℝ) (hz : -1 < z) :
    Tendsto (fun l : ℝ => 0.3248 * ((l / 911.8) ^ (1.2 : ℝ) - (1 + z) ^ (-0.9 : ℝ) * (l / 911.8) ^ (2.1 : ℝ))) (𝓝[<] (911.8 * (1 + z))) (𝓝 0) := by
  have ha : 0 < 1 + z := by linarith
  have h := ((lim_pow (1 + z) 1.2 ha).sub ((lim_pow (1 + z) 2.1 ha).const_mul ((1 + z) ^ (-0.9 : ℝ)))).const_mul 0.3248
  have e : (1 + z) ^ (-0.9 : ℝ) * (1 + z) ^ (2.1 : ℝ) = (1 + z) ^ (1.2 : ℝ) := by
    rw [← Real.rpow_add ha]; norm_num
  rw [e, sub_self, mul_zero] at h
  exact h

/-- **C55** (partial: redshifts above 1.2 other than 4.7) the optical depth of the Lyman-continuum forest tends to 0 at the Lyman limit. Missing: z <= 1.2, where it does not (`C55_low_redshift_limit`), and
z = 4.7, where the two formulas meet only approximately. -/
theorem C55_zero_at_limit_partial (z : ℝ) (hz : 1.2 < z) (hz2 : z ≠ 4.7) : Tendsto (tauLCLAF z) (𝓝[<] (911.8 * (1 + z))) (𝓝 0) := by
  have ha : 0 < 1 + z := by norm_num at hz; linarith
  rcases lt_or_gt_of_ne hz2 with h47 | h47
  · have h := ((((lim_pow (1 + z) 2.1 ha).const_mul ((1 + z) ^ (1.6 : ℝ)))).sub (lim_pow (1 + z) 3.7 ha)).const_mul 2.545e-2
    have e : (1 + z) ^ (1.6 : ℝ) * (1 + z) ^ (2.1 : ℝ) = (1 + z) ^ (3.7 : ℝ) := by
      rw [← Real.rpow_add ha]; norm_num
    rw [e, sub_self, mul_zero] at h
    refine h.congr' ?_
    have hlt : (911.8 * (1 + 1.2) : ℝ) < 911.8 * (1 + z) := by nlinarith
    filter_upwards [self_mem_nhdsWithin, nhdsWithin_le_nhds (Ioi_mem_nhds hlt)] with l hl hl2
    rw [Set.mem_Iio] at hl
    rw [Set.mem_Ioi] at hl2
    have n1 : ¬ z < 1.2 := not_lt.2 hz.le
    have n2 : ¬ (4.7 ≤ z) := not_le.2 h47
    have n3 : (911.8 * (1 + 1.2) : ℝ) ≤ l := hl2.le
    unfold tauLCLAF
    simp only [hl, n1, n2, n3, h47, not_true_eq_false, true_and, false_and, and_false, if_true, if_false]
  · have h := ((((lim_pow (1 + z) 2.1 ha).const_mul ((1 + z) ^ (3.4 : ℝ)))).sub (lim_pow (1 + z) 5.5 ha)).const_mul 5.221e-4
    have e : (1 + z) ^ (3.4 : ℝ) * (1 + z) ^ (2.1 : ℝ) = (1 + z) ^ (5.5 : ℝ) := by
      rw [← Real.rpow_add ha]; norm_num
    rw [e, sub_self, mul_zero] at h
    refine h.congr' ?_
    have hlt : (911.8 * (1 + 4.7) : ℝ) < 911.8 * (1 + z) := by nlinarith
    filter_upwards [self_mem_nhdsWithin, nhdsWithin_le_nhds (Ioi_mem_nhds hlt)] with l hl hl2
    rw [Set.mem_Iio] at hl
    rw [Set.mem_Ioi] at hl2
    have n1 : ¬ z < 1.2 := not_lt.2 hz.le
    have n2 : (4.7 ≤ z) := h47.le
    have n3 : ¬ z < 4.7 := not_lt.2 h47.le
    have n4 : ¬ l < 911.8 * (1 + 4.7) := not_lt.2 hl2.le
    have n5 : ¬ l < 911.8 * (1 + 1.2) := by
      rw [not_lt]
      refine le_trans ?_ hl2.le
      norm_num
    unfold tauLCLAF
    simp only [hl, hl2, n1, n2, n3, n4, n5, true_and, false_and, and_false, if_true, if_false]

/-- **C55** (further finding) above redshift 4.7 the optical depth at the single wavelength 911.8 (1 + 4.7) is 0, no assignment covers it, although it is positive arbitrarily close by. -/
theorem C55_hole (z : ℝ) (hz : 4.7 < z) : tauLCLAF z (911.8 * (1 + 4.7)) = 0 ∧
    ∃ c, 0 < c ∧ Tendsto (tauLCLAF z) (𝓝[>] (911.8 * (1 + 4.7))) (𝓝 c) := by
  have hz' : (47 / 10 : ℝ) < z := by norm_num at hz; exact hz
  have ha : 0 < 1 + z := by linarith
  have n1 : ¬ z < 1.2 := by rw [not_lt]; norm_num; linarith
  have n2 : (4.7 ≤ z) := hz.le
  have n3 : ¬ z < 4.7 := not_lt.2 hz.le
  constructor
  · have n5 : ¬ (911.8 * (1 + 4.7) : ℝ) < 911.8 * (1 + 1.2) := by norm_num
    unfold tauLCLAF
    simp only [n1, n2, n3, n5, lt_irrefl, and_false, false_and, if_false]
  · have cw : ∀ p : ℝ, Tendsto (fun l : ℝ => (l / 911.8) ^ p) (𝓝[>] (911.8 * (1 + 4.7))) (𝓝 ((1 + 4.7) ^ p)) := by
      intro p
      have h := (cont_pow (1 + 4.7) p (by norm_num)).tendsto
      have e : (911.8 * (1 + 4.7) / 911.8 : ℝ) = 1 + 4.7 := by norm_num
      rw [e] at h
      exact h.mono_left nhdsWithin_le_nhds
    refine ⟨5.221e-4 * ((1 + z) ^ (3.4 : ℝ) * (1 + 4.7) ^ (2.1 : ℝ) - (1 + 4.7) ^ (5.5 : ℝ)), ?_, ?_⟩
    · have e : (1 + 4.7 : ℝ) ^ (5.5 : ℝ) = (1 + 4.7) ^ (3.4 : ℝ) * (1 + 4.7) ^ (2.1 : ℝ) := by
        rw [← Real.rpow_add (by norm_num)]; norm_num
      rw [e, ← sub_mul]
      have h1 : (1 + 4.7 : ℝ) ^ (3.4 : ℝ) < (1 + z) ^ (3.4 : ℝ) := Real.rpow_lt_rpow (by norm_num) (by linarith) (by norm_num)
      have h2 : (0 : ℝ) < (1 + 4.7 : ℝ) ^ (2.1 : ℝ) := Real.rpow_pos_of_pos (by norm_num) _
      have := mul_pos (sub_pos.2 h1) h2
      positivity
    · have h := (((cw 2.1).const_mul ((1 + z) ^ (3.4 : ℝ))).sub (cw 5.5)).const_mul 5.221e-4
      refine h.congr' ?_
      have hlt : (911.8 * (1 + 4.7) : ℝ) < 911.8 * (1 + z) := by nlinarith
      filter_upwards [self_mem_nhdsWithin, nhdsWithin_le_nhds (Iio_mem_nhds hlt)] with l hl hl2
      rw [Set.mem_Ioi] at hl
      rw [Set.mem_Iio] at hl2
      have n4 : ¬ l < 911.8 * (1 + 4.7) := not_lt.2 hl.le
      have n5 : ¬ l < 911.8 * (1 + 1.2) := by
        rw [not_lt]
        refine le_trans ?_ hl.le
        norm_num
      unfold tauLCLAF
      simp only [hl, hl2, n1, n2, n3, n4, n5, true_and, false_and, and_false, if_true, if_false]

end Redrock
