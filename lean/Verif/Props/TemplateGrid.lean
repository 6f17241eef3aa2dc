import Verif.Model.Templates
import Verif.Lemmas.Strings
import Mathlib.Algebra.Order.Floor.Ring
import Mathlib.Tactic.Linarith
import Mathlib.Tactic.NormNum
import Mathlib.Tactic.FieldSimp
import Mathlib.Tactic.Ring

/-!
C79: the redshift grid of a template (`Template(filename).redshifts`).
-/
namespace Redrock

/-- Specification of a scan grid from `a` (included) to `b` (excluded) with steps of `d` in the coordinate `u`: it starts at `a`, increases by one step at a time, stays below `b`, and leaves no
gap of a whole step anywhere between `a` and `b`. -/
structure ScanGrid (u : ℝ → ℝ) (a b d : ℝ) (zs : List ℝ) : Prop where
  first : zs[0]? = some a
  below : ∀ z ∈ zs, a ≤ z ∧ z < b
  step : ∀ (i : Nat) (x y : ℝ), zs[i]? = some x → zs[i+1]? = some y → x < y ∧ u y - u x = d
  dense : ∀ z, a ≤ z → z < b → ∃ g ∈ zs, g ≤ z ∧ u z - u g < d

private theorem arange_length_pos (a b d : ℝ) (hd : 0 < d) (hab : a < b) : 0 < (⌈(b - a) / d⌉).toNat := by
  have : (0 : ℤ) < ⌈(b - a) / d⌉ := Int.ceil_pos.2 (div_pos (by linarith) hd)
  omega

private theorem arange_index (a b d : ℝ) (hd : 0 < d) (i : Nat) : i < (⌈(b - a) / d⌉).toNat ↔ a + (i : ℝ) * d < b := by
  rw [Int.lt_toNat, Int.lt_ceil, lt_div_iff₀ hd]
  push_cast
  constructor <;> intro h <;> linarith

private theorem getElem?_arange {n : Nat} {α : Type} (f : Nat → α) (i : Nat) (x : α) : ((List.range n).map f)[i]? = some x ↔ i < n ∧ f i = x := by
  rw [List.getElem?_map]
  by_cases h : i < n
  · rw [List.getElem?_range h]; simp [h]
  · rw [List.getElem?_eq_none (by simpa using h)]; simp [h]

theorem npArange_ok (a b d : ℝ) (hd : d ≠ 0) : npArange a b d = .ok ((List.range (⌈(b - a) / d⌉).toNat).map (fun (i : Nat) => a + (i : ℝ) * d)) := by
  unfold npArange; rw [if_neg hd]

/-- `np.arange(a, b, d)` is a scan grid in the plain coordinate. -/
theorem npArange_grid (a b d : ℝ) (hd : 0 < d) (hab : a < b) : ∃ zs, npArange a b d = .ok zs ∧ ScanGrid (fun z => z) a b d zs := by
  refine ⟨_, npArange_ok a b d hd.ne', ?_, ?_, ?_, ?_⟩
  · rw [getElem?_arange]
    exact ⟨arange_length_pos a b d hd hab, by simp⟩
  · intro z hz
    obtain ⟨i, hi, rfl⟩ := List.mem_map.1 hz
    refine ⟨?_, (arange_index a b d hd i).1 (List.mem_range.1 hi)⟩
    have : 0 ≤ (i : ℝ) * d := by positivity
    linarith
  · intro i x y hx hy
    obtain ⟨_, rfl⟩ := (getElem?_arange _ _ _).1 hx
    obtain ⟨_, rfl⟩ := (getElem?_arange _ _ _).1 hy
    push_cast
    constructor
    · nlinarith
    · ring
  · intro z hz1 hz2
    have h0 : 0 ≤ (z - a) / d := div_nonneg (by linarith) hd.le
    have hle : a + (⌊(z - a) / d⌋₊ : ℝ) * d ≤ z := by
      have := Nat.floor_le h0
      rw [le_div_iff₀ hd] at this
      linarith
    refine ⟨a + (⌊(z - a) / d⌋₊ : ℝ) * d, List.mem_map.2 ⟨⌊(z - a) / d⌋₊, List.mem_range.2 ((arange_index a b d hd _).2 (by linarith)), rfl⟩, hle, ?_⟩
    have := Nat.lt_floor_add_one ((z - a) / d)
    rw [div_lt_iff₀ hd] at this
    linarith

/-- the coordinate `log10(1+z)` -/
noncomputable def log1pz (z : ℝ) : ℝ := Real.logb 10 (1 + z)

private theorem pow_log (z : ℝ) (hz : -1 < z) : (10 : ℝ) ^ (Real.logb 10 (1 + z)) - 1 = z := by
  rw [Real.rpow_logb (by norm_num) (by norm_num) (by linarith)]; ring

private theorem log_pow (x : ℝ) : log1pz ((10 : ℝ) ^ x - 1) = x := by
  unfold log1pz
  rw [add_sub_cancel, Real.logb_rpow (by norm_num) (by norm_num)]

private theorem log_lt (x y : ℝ) (hx : -1 < x) (hxy : x < y) : log1pz x < log1pz y :=
  Real.logb_lt_logb (by norm_num) (by linarith) (by linarith)

private theorem log_le (x y : ℝ) (hx : -1 < x) (hxy : x ≤ y) : log1pz x ≤ log1pz y :=
  Real.logb_le_logb_of_le (by norm_num) (by linarith) (by linarith)

private theorem pow_lt (x y : ℝ) (hxy : x < y) : (10 : ℝ) ^ x - 1 < (10 : ℝ) ^ y - 1 := by
  have := Real.rpow_lt_rpow_of_exponent_lt (x := (10 : ℝ)) (by norm_num) hxy
  linarith

private theorem pow_le (x y : ℝ) (hxy : x ≤ y) : (10 : ℝ) ^ x - 1 ≤ (10 : ℝ) ^ y - 1 := by
  have := Real.rpow_le_rpow_of_exponent_le (x := (10 : ℝ)) (by norm_num) hxy
  linarith

/-- `10**np.arange(log10(1+a), log10(1+b), d) - 1` is a scan grid in the coordinate `log10(1+z)`. -/
theorem logGrid_grid (a b d : ℝ) (ha : -1 < a) (hd : 0 < d) (hab : a < b) : ∃ zs, logGrid a b d = .ok zs ∧ ScanGrid log1pz a b d zs := by
  obtain ⟨xs, hxs, h⟩ := npArange_grid (log1pz a) (log1pz b) d hd (log_lt a b ha hab)
  refine ⟨xs.map (fun x => (10 : ℝ) ^ x - 1), ?_, ?_, ?_, ?_, ?_⟩
  · unfold logGrid
    rw [if_neg (by push Not; constructor <;> linarith)]
    change (npArange (log1pz a) (log1pz b) d >>= _) = _
    rw [hxs]; rfl
  · rw [List.getElem?_map, h.first]
    simp only [Option.map_some]
    rw [show log1pz a = Real.logb 10 (1 + a) from rfl, pow_log a ha]
  · intro z hz
    obtain ⟨x, hx, rfl⟩ := List.mem_map.1 hz
    obtain ⟨h1, h2⟩ := h.below x hx
    constructor
    · have := pow_le _ _ h1
      rwa [show log1pz a = Real.logb 10 (1 + a) from rfl, pow_log a ha] at this
    · have := pow_lt _ _ h2
      rwa [show log1pz b = Real.logb 10 (1 + b) from rfl, pow_log b (by linarith)] at this
  · intro i x y hx hy
    rw [List.getElem?_map] at hx hy
    obtain ⟨x', hx', rfl⟩ := Option.map_eq_some_iff.1 hx
    obtain ⟨y', hy', rfl⟩ := Option.map_eq_some_iff.1 hy
    obtain ⟨h1, h2⟩ := h.step i x' y' hx' hy'
    exact ⟨pow_lt _ _ h1, by rw [log_pow, log_pow]; exact h2⟩
  · intro z hz1 hz2
    obtain ⟨g, hg, h1, h2⟩ := h.dense (log1pz z) (log_le a z ha hz1) (log_lt z b (by linarith) hz2)
    refine ⟨(10 : ℝ) ^ g - 1, List.mem_map.2 ⟨g, hg, rfl⟩, ?_, by rw [log_pow]; exact h2⟩
    have := pow_le _ _ h1
    rwa [show log1pz z = Real.logb 10 (1 + z) from rfl, pow_log z (by linarith)] at this

/-- The coordinate in which the grid of a spectral type is uniform: `z` for stars, `log10(1+z)` for galaxies and quasars. -/
noncomputable def scanCoord (ty : PyStr) : ℝ → ℝ := if ty = "STAR".toList then (fun z => z) else log1pz

/-- The option that concerns a spectral type. -/
def scanOption (opts : ZscanOptions) (ty : PyStr) : Option PyStr :=
  if ty = "GALAXY".toList then opts.galaxy else if ty = "STAR".toList then opts.star else if ty = "QSO".toList then opts.qso else none

/-- The built-in scan range `(zmin, zmax, dz)` of a spectral type. -/
def BuiltinRange (ty : PyStr) (a b d : ℝ) : Prop :=
  (ty = "GALAXY".toList ∧ a = -0.005 ∧ b = 1.7 ∧ d = 0.0003) ∨ (ty = "STAR".toList ∧ a = -0.002 ∧ b = 0.00201 ∧ d = 0.00004) ∨ (ty = "QSO".toList ∧ a = 0.05 ∧ b = 6 ∧ d = 0.0005)

/-- The scan range in effect for a file without redshifts: the option `zmin,zmax,dz` if it is given, else the built-in range. -/
def RangeInEffect (float : PyStr → Py ℝ) (opts : ZscanOptions) (ty : PyStr) (a b d : ℝ) : Prop :=
  match scanOption opts ty with
  | some o => ∃ p q r : PyStr, ',' ∉ p ∧ ',' ∉ q ∧ ',' ∉ r ∧ o = p ++ [','] ++ q ++ [','] ++ r ∧ float p = .ok a ∧ float q = .ok b ∧ float r = .ok d
  | none => BuiltinRange ty a b d

/-- splitting at commas -/
theorem pySplit_two_commas (p q r : PyStr) (hp : ',' ∉ p) (hq : ',' ∉ q) (hr : ',' ∉ r) : pySplit [','] (p ++ [','] ++ q ++ [','] ++ r) = [p, q, r] := by
  have key : ∀ (a b : PyStr), ',' ∉ a → ∀ i, i < a.length → ¬ [','] <+: (a ++ [','] ++ b).drop i := by
    intro a b ha i hi hpre
    rw [List.append_assoc, List.drop_append_of_le_length hi.le, List.drop_eq_getElem_cons hi, List.cons_append, List.cons_prefix_cons] at hpre
    exact ha (hpre.1 ▸ List.getElem_mem hi)
  have none : ∀ a : PyStr, ',' ∉ a → ¬ [','] <:+: a := by
    intro a ha h
    obtain ⟨s, t, rfl⟩ := h
    simp at ha
  unfold pySplit
  rw [show p ++ [','] ++ q ++ [','] ++ r = p ++ [','] ++ (q ++ [','] ++ r) by simp, pySplitAux_first _ (by simp) _ _ _ (key _ _ hp)]
  unfold pySplit
  rw [pySplitAux_first _ (by simp) _ _ _ (key _ _ hq)]
  unfold pySplit
  rw [pySplitAux_none _ _ _ (none r hr)]
  simp

private theorem parseScan_of (float : PyStr → Py ℝ) (p q r : PyStr) (a b d : ℝ) (hp : ',' ∉ p) (hq : ',' ∉ q) (hr : ',' ∉ r) (ha : float p = .ok a) (hb : float q = .ok b) (hd : float r = .ok d) :
    parseScan float (p ++ [','] ++ q ++ [','] ++ r) = .ok (a, b, d) := by
  unfold parseScan
  rw [pySplit_two_commas p q r hp hq hr]
  simp only [ha, hb, hd]
  rfl

/-- what `defaultRedshifts` computes for the range in effect -/
private theorem defaultRedshifts_eq (float : PyStr → Py ℝ) (opts : ZscanOptions) (ty : PyStr) (a b d : ℝ) (hty : ty = "GALAXY".toList ∨ ty = "STAR".toList ∨ ty = "QSO".toList)
    (h : RangeInEffect float opts ty a b d) : defaultRedshifts float opts ty = if ty = "STAR".toList then npArange a b d else logGrid a b d := by
  have n1 : "STAR".toList ≠ "GALAXY".toList := by decide
  have n2 : "QSO".toList ≠ "GALAXY".toList := by decide
  have n3 : "QSO".toList ≠ "STAR".toList := by decide
  unfold RangeInEffect scanOption BuiltinRange at h
  unfold defaultRedshifts
  rcases hty with rfl | rfl | rfl
  · rw [if_pos rfl] at h ⊢
    rw [if_neg n1.symm]
    cases ho : opts.galaxy with
    | some o =>
      rw [ho] at h
      obtain ⟨p, q, r, hp, hq, hr, rfl, e1, e2, e3⟩ := h
      simp only [parseScan_of float p q r a b d hp hq hr e1 e2 e3]
      rfl
    | none =>
      rw [ho] at h
      rcases h with ⟨_, rfl, rfl, rfl⟩ | ⟨h, _⟩ | ⟨h, _⟩
      · norm_num
      · exact absurd h n1.symm
      · exact absurd h n2.symm
  · rw [if_neg n1, if_pos rfl] at h ⊢
    rw [if_pos rfl]
    cases ho : opts.star with
    | some o =>
      rw [ho] at h
      obtain ⟨p, q, r, hp, hq, hr, rfl, e1, e2, e3⟩ := h
      simp only [parseScan_of float p q r a b d hp hq hr e1 e2 e3]
      rfl
    | none =>
      rw [ho] at h
      rcases h with ⟨h, _⟩ | ⟨_, rfl, rfl, rfl⟩ | ⟨h, _⟩
      · exact absurd h n1
      · norm_num
      · exact absurd h n3.symm
  · rw [if_neg n2, if_neg n3, if_pos rfl] at h ⊢
    rw [if_neg n3]
    cases ho : opts.qso with
    | some o =>
      rw [ho] at h
      obtain ⟨p, q, r, hp, hq, hr, rfl, e1, e2, e3⟩ := h
      simp only [parseScan_of float p q r a b d hp hq hr e1 e2 e3]
      rfl
    | none =>
      rw [ho] at h
      rcases h with ⟨h, _⟩ | ⟨h, _⟩ | ⟨_, rfl, rfl, rfl⟩
      · exact absurd h n2
      · exact absurd h n3
      · norm_num

/-- what a successful construction went through -/
theorem load_ok (float : PyStr → Py ℝ) (opts : ZscanOptions) (f : TemplateFile) (t : Template) (h : Template.load float opts f = .ok t) :
    ∃ ty, f.rrtype = some ty ∧ t.rrtype = pyUpper (pyStrip ty) ∧ (match f.redshifts with
      | some zs => .ok zs
      | none => defaultRedshifts float opts t.rrtype : Py (List ℝ)) = .ok t.redshifts ∧ t.redshifts ≠ [] ∧ templateIgm f t.rrtype (templateVersion f) = .ok t.igm ∧ templateWave f ≠ [] ∧
      (templateMethod f = "PCA".toList ∨ templateMethod f = "NMF".toList) ∧ t.version = templateVersion f ∧ t.wave = templateWave f ∧ t.flux = f.flux ∧
      t.method = templateMethod f ∧ t.subtype = templateSubtype f ∧
      t.oii = (if t.rrtype = "GALAXY".toList ∧ templateMethod f = "PCA".toList then some (oiiColumns (templateWave f) f.flux) else none) := by
  unfold Template.load at h
  cases hty : f.rrtype with
  | none => rw [hty] at h; simp only at h; cases h
  | some ty =>
    rw [hty] at h
    simp only at h
    refine ⟨ty, rfl, ?_⟩
    change ((match f.redshifts with
      | some zs => .ok zs
      | none => defaultRedshifts float opts (pyUpper (pyStrip ty)) : Py (List ℝ)) >>= _) = _ at h
    cases hz : (match f.redshifts with
      | some zs => .ok zs
      | none => defaultRedshifts float opts (pyUpper (pyStrip ty)) : Py (List ℝ)) with
    | error e => rw [hz] at h; cases h
    | ok zs =>
      rw [hz] at h
      change (if zs = [] then _ else _) = _ at h
      split at h
      · cases h
      · next hne =>
        change (templateIgm f (pyUpper (pyStrip ty)) (templateVersion f) >>= _) = _ at h
        cases hi : templateIgm f (pyUpper (pyStrip ty)) (templateVersion f) with
        | error e => rw [hi] at h; cases h
        | ok igm =>
          rw [hi] at h
          change (if templateWave f = [] then _ else _) = _ at h
          split at h
          · cases h
          · next hw =>
            change (if templateMethod f ≠ "PCA".toList ∧ templateMethod f ≠ "NMF".toList then _ else _) = _ at h
            split at h
            · cases h
            · next hm =>
              injection h with h
              subst h
              exact ⟨rfl, hz, hne, hi, hw, by tauto, rfl, rfl, rfl, rfl, rfl, rfl⟩

private theorem arange_empty (a b d : ℝ) (hd : 0 < d) (hab : b ≤ a) : npArange a b d = .ok [] := by
  rw [npArange_ok a b d hd.ne']
  have : ⌈(b - a) / d⌉ ≤ 0 := by
    rw [Int.ceil_le]
    push_cast
    exact div_nonpos_of_nonpos_of_nonneg (by linarith) hd.le
  rw [show (⌈(b - a) / d⌉).toNat = 0 by omega]
  rfl

private theorem known_type (float : PyStr → Py ℝ) (opts : ZscanOptions) (ty : PyStr) (zs : List ℝ) (h : defaultRedshifts float opts ty = .ok zs) :
    ty = "GALAXY".toList ∨ ty = "STAR".toList ∨ ty = "QSO".toList := by
  unfold defaultRedshifts at h
  split at h
  · next e => exact Or.inl e
  · split at h
    · next e => exact Or.inr (Or.inl e)
    · split at h
      · next e => exact Or.inr (Or.inr e)
      · cases h

/-- **C79** The redshifts of a template are never empty. They are those of the file if it has any (the `zscan` options then have no effect). Otherwise the template is a galaxy, star or quasar
template and, for the range `zmin,zmax,dz` of the option or the built-in one with `dz > 0`, they start at `zmin`, increase by `dz` (in `z` for stars, in `log10(1+z)` otherwise), stay below
`zmax`, and every redshift of the range has a grid point less than one step below it. -/
theorem C79_redshift_grid (float : PyStr → Py ℝ) (opts : ZscanOptions) (f : TemplateFile) (t : Template) (h : Template.load float opts f = .ok t) :
    t.redshifts ≠ [] ∧ (∀ zs, f.redshifts = some zs → t.redshifts = zs) ∧
    (f.redshifts = none → (t.rrtype = "GALAXY".toList ∨ t.rrtype = "STAR".toList ∨ t.rrtype = "QSO".toList) ∧
      ∀ a b d, RangeInEffect float opts t.rrtype a b d → 0 < d → a < b ∧ ScanGrid (scanCoord t.rrtype) a b d t.redshifts) := by
  obtain ⟨ty, _, _, hz, hne, _⟩ := load_ok float opts f t h
  refine ⟨hne, ?_, ?_⟩
  · intro zs hzs
    rw [hzs] at hz
    injection hz with hz
    exact hz.symm
  · intro hnone
    rw [hnone] at hz
    have hty := known_type float opts t.rrtype t.redshifts hz
    refine ⟨hty, fun a b d hr hd => ?_⟩
    change defaultRedshifts float opts t.rrtype = _ at hz
    rw [defaultRedshifts_eq float opts t.rrtype a b d hty hr] at hz
    unfold scanCoord
    split at hz
    · next hs =>
      rw [if_pos hs]
      have hab : a < b := by
        by_contra hab
        rw [arange_empty a b d hd (not_lt.1 hab)] at hz
        injection hz with hz
        exact hne hz.symm
      obtain ⟨zs, e, hg⟩ := npArange_grid a b d hd hab
      rw [e] at hz
      injection hz with hz
      exact ⟨hab, hz ▸ hg⟩
    · next hs =>
      rw [if_neg hs]
      have hab : -1 < a ∧ a < b := by
        by_cases h1 : 1 + a ≤ 0 ∨ 1 + b ≤ 0
        · unfold logGrid at hz
          rw [if_pos h1] at hz
          cases hz
        · push Not at h1
          refine ⟨by linarith [h1.1], ?_⟩
          by_contra hab
          unfold logGrid at hz
          rw [if_neg (by push Not; exact h1), arange_empty (Real.logb 10 (1 + a)) (Real.logb 10 (1 + b)) d hd (log_le b a (by linarith [h1.2]) (not_lt.1 hab))] at hz
          injection hz with hz
          exact hne hz.symm
      obtain ⟨zs, e, hg⟩ := logGrid_grid a b d hab.1 hd hab.2
      rw [e] at hz
      injection hz with hz
      exact ⟨hab.2, hz ▸ hg⟩

/-- **C79** Refused: a file without redshifts whose range in effect is empty (`zmax ≤ zmin` with `dz > 0`) or, unless it is a star template, reaches `z ≤ -1`; and a file without redshifts of
another type. -/
theorem C79_refused (float : PyStr → Py ℝ) (opts : ZscanOptions) (f : TemplateFile) (ty : PyStr) (hty : f.rrtype = some ty) (hz : f.redshifts = none) :
    (∀ a b d, (pyUpper (pyStrip ty) = "GALAXY".toList ∨ pyUpper (pyStrip ty) = "STAR".toList ∨ pyUpper (pyStrip ty) = "QSO".toList) →
      RangeInEffect float opts (pyUpper (pyStrip ty)) a b d → 0 < d → (b ≤ a ∨ (pyUpper (pyStrip ty) ≠ "STAR".toList ∧ a ≤ -1)) →
      Template.load float opts f = .error .indexError ∨ Template.load float opts f = .error .valueError) ∧
    (pyUpper (pyStrip ty) ≠ "GALAXY".toList → pyUpper (pyStrip ty) ≠ "STAR".toList → pyUpper (pyStrip ty) ≠ "QSO".toList → Template.load float opts f = .error .valueError) := by
  constructor
  · intro a b d hk hr hd hab
    unfold Template.load
    rw [hty, hz]
    simp only
    change (defaultRedshifts float opts (pyUpper (pyStrip ty)) >>= _) = _ ∨ (defaultRedshifts float opts (pyUpper (pyStrip ty)) >>= _) = _
    rw [defaultRedshifts_eq float opts _ a b d hk hr]
    by_cases hs : pyUpper (pyStrip ty) = "STAR".toList
    · rw [if_pos hs, arange_empty a b d hd (by tauto)]
      left; rfl
    · rw [if_neg hs]
      by_cases h1 : 1 + a ≤ 0 ∨ 1 + b ≤ 0
      · unfold logGrid
        rw [if_pos h1]
        right; rfl
      · unfold logGrid
        rw [if_neg h1]
        push Not at h1
        rw [arange_empty (Real.logb 10 (1 + a)) (Real.logb 10 (1 + b)) d hd (log_le b a (by linarith [h1.2]) (by rcases hab with h | h; exacts [h, absurd h.2 (by linarith [h1.1])]))]
        left; rfl
  · intro h1 h2 h3
    unfold Template.load
    rw [hty, hz]
    simp only
    change (defaultRedshifts float opts (pyUpper (pyStrip ty)) >>= _) = _
    have e : defaultRedshifts float opts (pyUpper (pyStrip ty)) = .error .valueError := by
      unfold defaultRedshifts
      rw [if_neg h1, if_neg h2, if_neg h3]
    rw [e]
    rfl

/-- **C79** A negative step is not refused: it gives a decreasing grid. -/
theorem C79_negative_step (a b d : ℝ) (hd : d < 0) (hab : b < a) :
    ∃ zs, npArange a b d = .ok zs ∧ zs[0]? = some a ∧ ∀ (i : Nat) (x y : ℝ), zs[i]? = some x → zs[i+1]? = some y → y < x := by
  refine ⟨_, npArange_ok a b d hd.ne, ?_, ?_⟩
  · rw [getElem?_arange]
    have : (0 : ℤ) < ⌈(b - a) / d⌉ := Int.ceil_pos.2 (div_pos_of_neg_of_neg (by linarith) hd)
    exact ⟨by omega, by simp⟩
  · intro i x y hx hy
    obtain ⟨_, rfl⟩ := (getElem?_arange _ _ _).1 hx
    obtain ⟨_, rfl⟩ := (getElem?_arange _ _ _).1 hy
    push_cast
    nlinarith

/-- **C79** The built-in star grid has 101 points, symmetric around `z = 0`, which is one of them. -/
theorem C79_star_default (float : PyStr → Py ℝ) (opts : ZscanOptions) (ho : opts.star = none) :
    defaultRedshifts float opts "STAR".toList = .ok ((List.range 101).map (fun (i : Nat) => ((i : ℝ) - 50) * 0.00004)) := by
  rw [defaultRedshifts_eq float opts _ (-0.002) 0.00201 0.00004 (by tauto) (by unfold RangeInEffect scanOption; rw [if_neg (by decide), if_pos rfl, ho]; unfold BuiltinRange; simp), if_pos rfl,
    npArange_ok _ _ _ (by norm_num)]
  have : ⌈((0.00201 : ℝ) - -0.002) / 0.00004⌉ = 101 := by
    rw [Int.ceil_eq_iff]
    norm_num
  rw [this]
  congr 1
  apply List.map_congr_left
  intro i _
  ring

/-- a star template file without redshifts -/
noncomputable def exStarFile : TemplateFile :=
  { version := none, crval1 := 3000, cdelt1 := 1, naxis1 := 3, loglam := none, flux := [[1, 2, 3]], rrmethod := none, redshifts := none, rrtype := some "star ".toList,
    rrsubtyp := some "M".toList, rrigm := none }

/-- a reader of decimal numbers that knows three texts -/
noncomputable def exFloat (s : PyStr) : Py ℝ :=
  if s = "-0.1".toList then .ok (-0.1) else if s = "0.3".toList then .ok 0.3 else if s = "0.01".toList then .ok 0.01 else .error .valueError

/-- the file loads, with the option `-0.1,0.3,0.01` in effect -/
example : ∃ t, Template.load exFloat ⟨none, some "-0.1,0.3,0.01".toList, none⟩ exStarFile = .ok t ∧ RangeInEffect exFloat ⟨none, some "-0.1,0.3,0.01".toList, none⟩ t.rrtype (-0.1) 0.3 0.01 := by
  have hr : RangeInEffect exFloat ⟨none, some "-0.1,0.3,0.01".toList, none⟩ "STAR".toList (-0.1) 0.3 0.01 := by
    refine ⟨"-0.1".toList, "0.3".toList, "0.01".toList, by decide, by decide, by decide, by decide, ?_, ?_, ?_⟩
    · unfold exFloat; rw [if_pos rfl]
    · unfold exFloat; rw [if_neg (by decide), if_pos rfl]
    · unfold exFloat; rw [if_neg (by decide), if_neg (by decide), if_pos rfl]
  obtain ⟨zs, e, hg⟩ := npArange_grid (-0.1 : ℝ) 0.3 0.01 (by norm_num) (by norm_num)
  have hu : pyUpper (pyStrip "star ".toList) = "STAR".toList := by decide
  have he : defaultRedshifts exFloat ⟨none, some "-0.1,0.3,0.01".toList, none⟩ "STAR".toList = .ok zs := by
    rw [defaultRedshifts_eq _ _ _ _ _ _ (by tauto) hr, if_pos rfl, e]
  have hne : zs ≠ [] := by rintro rfl; exact absurd hg.first (by simp)
  refine ⟨⟨"unknown".toList, templateWave exStarFile, [[1, 2, 3]], "PCA".toList, "STAR".toList, "M".toList, zs, "None".toList, none⟩, ?_, hr⟩
  · unfold Template.load exStarFile
    simp only
    change (defaultRedshifts exFloat ⟨none, some "-0.1,0.3,0.01".toList, none⟩ (pyUpper (pyStrip "star ".toList)) >>= _) = _
    rw [hu, he]
    change (if zs = [] then _ else _) = _
    rw [if_neg hne]
    rfl

end Redrock
