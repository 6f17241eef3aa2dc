import Verif.Props.DeltaChi2
import Verif.Model.DesiFlags
import Verif.Lemmas.Dict
import Mathlib.Tactic.IntervalCases
import Mathlib.Data.String.Basic

/-! Properties C23, C24, C49, C60. -/
set_option linter.unusedSectionVars false

namespace Redrock

section
variable {K : Type} [Field K] [LinearOrder K] [IsStrictOrderedRing K] {σ : Type}

/-- bit `b` is set in mask `w` (specification; python `w & (1 << b) != 0`) -/
abbrev bitSet (w b : Nat) : Prop := w.testBit b = true

/-! ### bits produced by `fitz` -/

private theorem or_subset (a b m : Nat) (ha : a ||| m = m) (hb : b ||| m = m) : (a ||| b) ||| m = m := by
  rw [Nat.or_assoc, hb, ha]

/-- **C23** a candidate returned by `fitz` (standard or archetype) carries no other bits than `Z_FITLIMIT` (5) and `BAD_MINFIT` (10). -/
theorem C23_fitz_bits (argsort : List (Ext K) → List Nat) (harg : IsArgsort Ext.sortLe argsort) (E : FitEnv K)
    (sqrt : K → K) (hsq : IsSqrt sqrt) (polyfit : List K → List K → Py (K × K × K))
    (hE : E.minfit = minfit sqrt polyfit) (nminima : Nat) (zchi2 : List (Ext K)) (redshifts : List K) (r : List (Cand K))
    (h : fitz argsort E nminima zchi2 redshifts = .ok r) :
    ∀ c ∈ r, ∀ b, bitSet c.zwarn b → b = 5 ∨ b = 10 := by
  suffices hs : ∀ c ∈ r, c.zwarn ||| 1056 = 1056 by
    intro c hc b hb
    have h1 := hs c hc
    have h2 : (c.zwarn ||| 1056).testBit b = true := by rw [Nat.testBit_or, hb]; rfl
    rw [h1] at h2
    have hlt : b < 11 := by
      by_contra hge
      rw [Nat.testBit_lt_two_pow (lt_of_lt_of_le (show 1056 < 2 ^ 11 by norm_num) (Nat.pow_le_pow_right (by norm_num) (not_lt.1 hge)))] at h2
      cases h2
    revert h2
    interval_cases b <;> decide
  obtain ⟨hlen, minima, found, hm, hl, hp, _⟩ := fitz_spec argsort harg E nminima zchi2 redshifts r h
  suffices hfound : ∀ c ∈ found, c.zwarn ||| 1056 = 1056 from fun c hc => hfound c (hp.mem_iff.2 hc)
  refine fitzLoop_induction E nminima zchi2.length redshifts (fun res => ∀ c ∈ res, c.zwarn ||| 1056 = 1056) minima ?_ [] found (by simp) hl
  intro imin himin res res' hP _ hb
  rcases fitzBody_spec E _ redshifts res imin res' hb with rfl | ⟨zlo, zhi, zzchi2, am, zmin, sigma, chi2min, zwarn, zwarn', coeff, tr, hlo, hhi, _, _, hmf, hfit, hfin⟩
  · exact hP
  rcases fitzFinish_spec E _ _ _ _ _ _ _ _ _ _ _ hfin with rfl | ⟨c, zf, zl, z1, zm2, zw1, chi2pre, rfl, _, hf, hla, h1, h2, hcase, hzw, hze, har⟩
  · exact hP
  intro c' hc'
  rcases List.mem_append.1 hc' with hc' | hc'
  · exact hP c' hc'
  rw [List.mem_singleton] at hc'
  subst hc'
  rw [hE] at hmf
  have hmin := (C18_minfit_sound sqrt hsq polyfit _ _ zmin sigma chi2min zwarn hmf).1
  have h0 : zwarn ||| 1056 = 1056 := by rcases hmin with rfl | rfl <;> decide
  have h1 : zwarn' ||| 1056 = 1056 := by
    rcases hfit with ⟨_, _, rfl⟩ | ⟨_, _, _, rfl⟩
    · exact h0
    · exact or_subset _ _ _ (or_subset _ _ _ h0 (by decide)) (by decide)
  have h2 : zw1 ||| 1056 = 1056 := by
    rcases hcase with ⟨_, _, _, rfl, _⟩ | ⟨_, rfl, _⟩
    · exact h1
    · exact or_subset _ _ _ h1 (by decide)
  rw [hzw]
  split <;> split
  · exact or_subset _ _ _ (or_subset _ _ _ h2 (by decide)) (by decide)
  · exact or_subset _ _ _ h2 (by decide)
  · exact or_subset _ _ _ h2 (by decide)
  · exact h2

theorem testBit_ite_or (p : Prop) [Decidable p] (w k b : Nat) :
    (if p then w ||| 2 ^ k else w).testBit b = true ↔ w.testBit b = true ∨ (b = k ∧ p) := by
  split
  · rename_i h
    rw [Nat.testBit_or, Bool.or_eq_true, Nat.testBit_two_pow, decide_eq_true_eq]
    constructor
    · rintro (h1 | h1)
      · exact Or.inl h1
      · exact Or.inr ⟨h1.symm, h⟩
    · rintro (h1 | h1)
      · exact Or.inl h1
      · exact Or.inr h1.1.symm
  · rename_i h; simp [h]

/-! ### bits added by `zfind` and `rrdesi` -/

/-- **C23/C24** what the coverage step does to one row: every old bit stays, `NEGATIVE_MODEL` may be added, bit 9 (`NODATA`) is added exactly if there are no pixels,
bit 1 (`LITTLE_COVERAGE`) exactly if there are fewer than ten pixels per coefficient; nothing else changes. -/
theorem C24_flagRow (ibad : Row K σ → Bool) (r : Row K σ) :
    (∀ b, bitSet (flagRow ibad r).zwarn b ↔
      bitSet r.zwarn b ∨ (b = 3 ∧ ibad r = true) ∨ (b = 9 ∧ r.npixels = 0) ∨ (b = 1 ∧ r.npixels < 10 * r.ncoeff)) ∧
    { flagRow ibad r with zwarn := r.zwarn } = r := by
  refine ⟨?_, rfl⟩
  intro b
  unfold flagRow bitSet ZW.NEGATIVE_MODEL ZW.NODATA ZW.LITTLE_COVERAGE
  dsimp only
  rw [testBit_ite_or, testBit_ite_or, testBit_ite_or]
  tauto

/-- **C24** on the rows `fitz` produces (bits 1 and 9 never set before): `NODATA` exactly if there are no pixels, `LITTLE_COVERAGE` exactly if
`npixels < 10*ncoeff`. -/
theorem C24_coverage_flags (ibad : Row K σ → Bool) (r : Row K σ) (hr : ∀ b, bitSet r.zwarn b → b = 5 ∨ b = 10) :
    (bitSet (flagRow ibad r).zwarn 9 ↔ r.npixels = 0) ∧ (bitSet (flagRow ibad r).zwarn 1 ↔ r.npixels < 10 * r.ncoeff) ∧
    (r.npixels = 0 → 0 < r.ncoeff → bitSet (flagRow ibad r).zwarn 9 ∧ bitSet (flagRow ibad r).zwarn 1) := by
  have h := (C24_flagRow ibad r).1
  have h9 : ¬ bitSet r.zwarn 9 := fun hb => by have := hr 9 hb; omega
  have h1 : ¬ bitSet r.zwarn 1 := fun hb => by have := hr 1 hb; omega
  refine ⟨?_, ?_, ?_⟩
  · rw [h]; simp [h9]
  · rw [h]; simp [h1]
  · intro h0 hc
    rw [h, h]
    exact ⟨Or.inr (Or.inr (Or.inl ⟨rfl, h0⟩)), Or.inr (Or.inr (Or.inr ⟨rfl, by omega⟩))⟩

/-- every row of the sorted and trimmed table is one of the rows it was made of -/
theorem trimRows_subset [LinearOrder σ] (nminima : Nat) (rows : List (Row K σ)) :
    ∀ r ∈ trimRows nminima (sortZfit rows), r ∈ rows := by
  intro r hr
  have h1 := (C20_trim_per_spectype nminima rows).1 r.spectype
  have h2 : r ∈ (trimRows nminima (sortZfit rows)).filter (fun x => decide (x.spectype = r.spectype)) := by
    rw [List.mem_filter]; exact ⟨hr, by simp⟩
  rw [h1] at h2
  exact (sortZfit_perm rows).mem_iff.1 (List.mem_filter.1 (List.mem_of_mem_take h2)).1

/-- **C23/C24** through the whole per-target table of `zfind`: every output row comes from one candidate of one template of that target, has its redshift, chi2 and error
and its coefficients followed by zeros; it keeps every bit the candidate had and adds only `LITTLE_COVERAGE`(1), `SMALL_DELTA_CHI2`(2),
`NEGATIVE_MODEL`(3), `NODATA`(9), with bit 9 added exactly for `npixels = 0` and bit 1 exactly for `npixels < 10*ncoeff`. -/
theorem C23_table_rows [LinearOrder σ] (nminima : Nat) (ibad : Row K σ → Bool) (fits : List (TemplateFit K σ)) (T : List (Row K σ))
    (h : targetTable nminima ibad fits = .ok T) :
    ∀ r ∈ T, ∃ t ∈ fits, ∃ c ∈ t.cands, r.z = c.z ∧ r.zerr = c.zerr ∧ r.chi2 = c.chi2 ∧ r.spectype = t.spectype ∧ r.subtype = t.subtype ∧
      (∃ n, r.coeff = c.coeff ++ List.replicate n 0) ∧ r.npixels = t.npixels ∧ r.ncoeff = t.ncoeff ∧
      (∀ b, bitSet c.zwarn b → bitSet r.zwarn b) ∧
      (∀ b, bitSet r.zwarn b → bitSet c.zwarn b ∨ b = 1 ∨ b = 2 ∨ b = 3 ∨ b = 9) ∧
      (¬ bitSet c.zwarn 9 → (bitSet r.zwarn 9 ↔ t.npixels = 0)) ∧ (¬ bitSet c.zwarn 1 → (bitSet r.zwarn 1 ↔ t.npixels < 10 * t.ncoeff)) := by
  unfold targetTable at h
  obtain ⟨rows, hrows, h⟩ := Except.bind_ok _ _ _ h
  cases h
  intro r hr
  obtain ⟨i, hi⟩ := List.mem_iff_getElem?.1 hr
  have hlt := (List.getElem?_eq_some_iff.1 hi).1
  rw [finishRows_length] at hlt
  obtain ⟨d, f, _, _, h3⟩ := finishRows_spec _ i _ (List.getElem?_eq_getElem hlt)
  rw [hi, Option.some.injEq] at h3
  generalize hrt : (trimRows nminima (sortZfit (rows.map (flagRow ibad))))[i] = rt at h3
  have hmem : rt ∈ trimRows nminima (sortZfit (rows.map (flagRow ibad))) := by rw [← hrt]; exact List.getElem_mem hlt
  obtain ⟨r0, hr0, hfl⟩ := List.mem_map.1 (trimRows_subset _ _ _ hmem)
  unfold targetRows at hrows
  obtain ⟨m, hm, hrows⟩ := Except.bind_ok _ _ _ hrows
  cases hrows
  obtain ⟨t, ht, hrt0⟩ := List.mem_flatMap.1 hr0
  obtain ⟨c, hc, hcr⟩ := List.mem_map.1 hrt0
  have ht' := (List.mem_filter.1 ht).1
  have hbits := (C24_flagRow ibad r0).1
  rw [hfl] at hbits
  have hbits' : ∀ b, bitSet r.zwarn b ↔ bitSet rt.zwarn b ∨ (b = 2 ∧ f = true) := by
    intro b
    rw [h3]
    show (if f = true then rt.zwarn ||| 2 ^ 2 else rt.zwarn).testBit b = true ↔ _
    rw [testBit_ite_or]
  have hsame := (C24_flagRow ibad r0).2
  rw [hfl] at hsame
  have hz0 : r0.zwarn = c.zwarn := by rw [← hcr]
  have hn0 : r0.npixels = t.npixels := by rw [← hcr]
  have hk0 : r0.ncoeff = t.ncoeff := by rw [← hcr]
  rw [hz0, hn0, hk0] at hbits
  have e1 : (r.z, r.zerr, r.chi2, r.spectype, r.subtype, r.coeff, r.npixels, r.ncoeff) =
      (rt.z, rt.zerr, rt.chi2, rt.spectype, rt.subtype, rt.coeff, rt.npixels, rt.ncoeff) := by rw [h3]
  have e2 : (rt.z, rt.zerr, rt.chi2, rt.spectype, rt.subtype, rt.coeff, rt.npixels, rt.ncoeff) =
      (r0.z, r0.zerr, r0.chi2, r0.spectype, r0.subtype, r0.coeff, r0.npixels, r0.ncoeff) := by
    conv_rhs => rw [← hsame]
  have e3 : (r0.z, r0.zerr, r0.chi2, r0.spectype, r0.subtype, r0.coeff, r0.npixels, r0.ncoeff) =
      (c.z, c.zerr, c.chi2, t.spectype, t.subtype, c.coeff ++ List.replicate (m - c.coeff.length) 0, t.npixels, t.ncoeff) := by rw [← hcr]
  have e := e1.trans (e2.trans e3)
  simp only [Prod.mk.injEq] at e
  obtain ⟨g1, g2, g3, g4, g5, g6, g7, g8⟩ := e
  refine ⟨t, ht', c, hc, g1, g2, g3, g4, g5, ⟨_, g6⟩, g7, g8, ?_, ?_, ?_, ?_⟩
  · intro b hb; rw [hbits', hbits]; exact Or.inl (Or.inl hb)
  · intro b hb
    rw [hbits', hbits] at hb
    rcases hb with (hb | hb | hb | hb) | hb
    · exact Or.inl hb
    · exact Or.inr (Or.inr (Or.inr (Or.inl hb.1)))
    · exact Or.inr (Or.inr (Or.inr (Or.inr hb.1)))
    · exact Or.inr (Or.inl hb.1)
    · exact Or.inr (Or.inr (Or.inl hb.1))
  · intro h9; rw [hbits', hbits]; simp [h9]
  · intro h1; rw [hbits', hbits]; simp [h1]

/-! ### DESI flags -/

/-- Specification: the fibermap says that this target must be reset. -/
def FiberReset {ι : Type} (m : FiberMask) (fm : List (FiberRow ι)) (t : ι) : Prop :=
  ∃ f ∈ fm, f.targetid = t ∧ (f.fiberstatus &&& m.badposition ≠ 0 ∨ f.fiberstatus &&& m.brokenfiber ≠ 0 ∨ f.fiberstatus &&& m.unassigned ≠ 0 ∨
    (f.objtype ≠ "TGT" ∧ f.objtype ≠ "SKY"))

variable {ι : Type} [DecidableEq ι]

private theorem isinSel_iff (fm : List (FiberRow ι)) (sel : FiberRow ι → Bool) (t : ι) :
    isinSel fm sel t = true ↔ ∃ f ∈ fm, f.targetid = t ∧ sel f = true := by
  unfold isinSel
  rw [List.any_eq_true]
  constructor
  · rintro ⟨u, hu, h⟩
    obtain ⟨f, hf, rfl⟩ := List.mem_map.1 hu
    obtain ⟨h1, h2⟩ := List.mem_filter.1 hf
    exact ⟨f, h1, of_decide_eq_true h, h2⟩
  · rintro ⟨f, h1, h2, h3⟩
    exact ⟨f.targetid, List.mem_map.2 ⟨f, List.mem_filter.2 ⟨h1, h3⟩, rfl⟩, decide_eq_true h2⟩

private theorem reset_iff (m : FiberMask) (fm : List (FiberRow ι)) (t : ι) :
    isinSel fm (fun f => f.badpos m || f.broken m || f.unassignedF m || f.badtype) t = true ↔ FiberReset m fm t := by
  rw [isinSel_iff]
  unfold FiberReset
  refine exists_congr fun f => and_congr_right fun _ => and_congr_right fun _ => ?_
  simp only [FiberRow.badpos, FiberRow.broken, FiberRow.unassignedF, FiberRow.badtype, FiberRow.sky, Bool.or_eq_true, Bool.and_eq_true,
    decide_eq_true_eq, Bool.not_eq_true', decide_eq_false_iff_not]
  tauto

/-- the bits of a row after the DESI flags -/
theorem desiFlagRow_bits (m : FiberMask) (fm : List (FiberRow ι)) (d : DesiRow K ι) (b : Nat) :
    bitSet (desiFlagRow m fm d).row.zwarn b ↔ bitSet d.row.zwarn b ∨
      (b = 11 ∧ ∃ f ∈ fm, f.targetid = d.targetid ∧ f.fiberstatus &&& m.poorposition ≠ 0) ∨
      (b = 9 ∧ FiberReset m fm d.targetid) ∨
      (b = 7 ∧ ∃ f ∈ fm, f.targetid = d.targetid ∧ f.fiberstatus &&& m.brokenfiber ≠ 0) ∨
      (b = 0 ∧ ∃ f ∈ fm, f.targetid = d.targetid ∧ f.objtype = "SKY") ∨
      (b = 1 ∧ ∃ f ∈ fm, f.targetid = d.targetid ∧ ∃ c ∈ m.coverage, f.fiberstatus &&& c ≠ 0) ∨
      (b = 8 ∧ ∃ f ∈ fm, f.targetid = d.targetid ∧ f.objtype ≠ "TGT" ∧ f.objtype ≠ "SKY") := by
  have h1 : isinSel fm (·.poorpos m) d.targetid = true ↔ ∃ f ∈ fm, f.targetid = d.targetid ∧ f.fiberstatus &&& m.poorposition ≠ 0 := by
    rw [isinSel_iff]; simp [FiberRow.poorpos]
  have h2 := reset_iff m fm d.targetid
  have h3 : isinSel fm (·.broken m) d.targetid = true ↔ ∃ f ∈ fm, f.targetid = d.targetid ∧ f.fiberstatus &&& m.brokenfiber ≠ 0 := by
    rw [isinSel_iff]; simp [FiberRow.broken]
  have h4 : isinSel fm (·.sky) d.targetid = true ↔ ∃ f ∈ fm, f.targetid = d.targetid ∧ f.objtype = "SKY" := by
    rw [isinSel_iff]; simp [FiberRow.sky]
  have h5 : isinSel fm (·.badcoverage m) d.targetid = true ↔ ∃ f ∈ fm, f.targetid = d.targetid ∧ ∃ c ∈ m.coverage, f.fiberstatus &&& c ≠ 0 := by
    rw [isinSel_iff]; simp [FiberRow.badcoverage]
  have h6 : isinSel fm (·.badtype) d.targetid = true ↔ ∃ f ∈ fm, f.targetid = d.targetid ∧ f.objtype ≠ "TGT" ∧ f.objtype ≠ "SKY" := by
    rw [isinSel_iff]; simp [FiberRow.badtype, FiberRow.sky]
  rw [← h1, ← h2, ← h3, ← h4, ← h5, ← h6]
  have key : (desiFlagRow m fm d).row.zwarn = orIf (isinSel fm (·.badtype) d.targetid) (2 ^ 8) (orIf (isinSel fm (·.badcoverage m) d.targetid) (2 ^ 1)
      (orIf (isinSel fm (·.sky) d.targetid) (2 ^ 0) (orIf (isinSel fm (·.broken m) d.targetid) (2 ^ 7)
      (orIf (isinSel fm (fun f => f.badpos m || f.broken m || f.unassignedF m || f.badtype) d.targetid) (2 ^ 9)
      (orIf (isinSel fm (·.poorpos m) d.targetid) (2 ^ 11) d.row.zwarn))))) := by
    unfold desiFlagRow
    dsimp only
    split <;> rfl
  unfold bitSet
  rw [key]
  unfold orIf
  simp only [testBit_ite_or]
  clear key h1 h2 h3 h4 h5 h6
  generalize isinSel fm (·.badtype) d.targetid = x1
  generalize isinSel fm (·.badcoverage m) d.targetid = x2
  generalize isinSel fm (·.sky) d.targetid = x3
  generalize isinSel fm (·.broken m) d.targetid = x4
  generalize isinSel fm (fun f => f.badpos m || f.broken m || f.unassignedF m || f.badtype) d.targetid = x5
  generalize isinSel fm (·.poorpos m) d.targetid = x6
  generalize d.row.zwarn.testBit b = x7
  constructor
  · rintro ((((((h | h) | h) | h) | h) | h) | h)
    · exact Or.inl h
    · exact Or.inr (Or.inl h)
    · exact Or.inr (Or.inr (Or.inl h))
    · exact Or.inr (Or.inr (Or.inr (Or.inl h)))
    · exact Or.inr (Or.inr (Or.inr (Or.inr (Or.inl h))))
    · exact Or.inr (Or.inr (Or.inr (Or.inr (Or.inr (Or.inl h)))))
    · exact Or.inr (Or.inr (Or.inr (Or.inr (Or.inr (Or.inr h)))))
  · rintro (h | h | h | h | h | h | h)
    · exact Or.inl (Or.inl (Or.inl (Or.inl (Or.inl (Or.inl h)))))
    · exact Or.inl (Or.inl (Or.inl (Or.inl (Or.inl (Or.inr h)))))
    · exact Or.inl (Or.inl (Or.inl (Or.inl (Or.inr h))))
    · exact Or.inl (Or.inl (Or.inl (Or.inr h)))
    · exact Or.inl (Or.inl (Or.inr h))
    · exact Or.inl (Or.inr h)
    · exact Or.inr h

/-- **C23** after `fitz`, `zfind` and the `rrdesi` flags, only bits 0-11 can be set (in particular none of the reserved bits 16-23), and every bit `fitz` set is still set. -/
theorem C23_reserved_bits_clear (nminima : Nat) (ibad : Row K String → Bool) (fits : List (TemplateFit K String))
    (hf : ∀ t ∈ fits, ∀ c ∈ t.cands, ∀ b, bitSet c.zwarn b → b = 5 ∨ b = 10) (T : List (Row K String))
    (h : targetTable nminima ibad fits = .ok T) (m : FiberMask) (fm : List (FiberRow ι)) (tid : ι) (method : String) :
    ∀ d ∈ desiFlags m fm (T.map (fun r => ⟨tid, r, method⟩)),
      (∀ b, bitSet d.row.zwarn b → b ≤ 11) ∧ ∃ t ∈ fits, ∃ c ∈ t.cands, ∀ b, bitSet c.zwarn b → bitSet d.row.zwarn b := by
  intro d hd
  obtain ⟨d0, hd0, rfl⟩ := List.mem_map.1 hd
  obtain ⟨r, hr, rfl⟩ := List.mem_map.1 hd0
  obtain ⟨t, ht, c, hc, _, _, _, _, _, _, _, _, hb1, hb2, _, _⟩ := C23_table_rows nminima ibad fits T h r hr
  refine ⟨?_, t, ht, c, hc, ?_⟩
  · intro b hb
    rw [desiFlagRow_bits] at hb
    rcases hb with hb | hb | hb | hb | hb | hb | hb
    · rcases hb2 b hb with hb | hb
      · have := hf t ht c hc b hb; omega
      · omega
    all_goals (have := hb.1; omega)
  · intro b hb
    rw [desiFlagRow_bits]
    exact Or.inl (hb1 b hb)

/-- **C49** a row whose target has a bad position, broken or unassigned fiber, or is not a target: `NODATA` set, z = 0, GALAXY, no subtype, all coefficients 0 (same number),
method NONE. Any other row keeps redshift, type, coefficients and method. Error, chi2, pixel count, rank and deltachi2 are never touched; rows stay in place. -/
theorem C49_bad_fibers_reset (m : FiberMask) (fm : List (FiberRow ι)) (zfit : List (DesiRow K ι)) (i : Nat) (d : DesiRow K ι)
    (hi : zfit[i]? = some d) :
    ∃ d', (desiFlags m fm zfit)[i]? = some d' ∧ d'.targetid = d.targetid ∧
      (FiberReset m fm d.targetid → bitSet d'.row.zwarn 9 ∧ d'.row.z = 0 ∧ d'.row.spectype = "GALAXY" ∧ d'.row.subtype = "" ∧
        d'.row.coeff = List.replicate d.row.coeff.length 0 ∧ d'.fitmethod = "NONE") ∧
      (¬ FiberReset m fm d.targetid → d'.row.z = d.row.z ∧ d'.row.spectype = d.row.spectype ∧ d'.row.subtype = d.row.subtype ∧
        d'.row.coeff = d.row.coeff ∧ d'.fitmethod = d.fitmethod ∧ (bitSet d'.row.zwarn 9 ↔ bitSet d.row.zwarn 9)) ∧
      d'.row.zerr = d.row.zerr ∧ d'.row.chi2 = d.row.chi2 ∧ d'.row.npixels = d.row.npixels ∧ d'.row.ncoeff = d.row.ncoeff ∧
      d'.row.znum = d.row.znum ∧ d'.row.deltachi2 = d.row.deltachi2 := by
  refine ⟨desiFlagRow m fm d, by unfold desiFlags; rw [List.getElem?_map, hi]; rfl, ?_⟩
  have hbit := desiFlagRow_bits m fm d 9
  have hri := reset_iff m fm d.targetid
  refine ⟨?_, ?_, ?_, ?_⟩
  · unfold desiFlagRow; dsimp only; split <;> rfl
  · intro hr
    have hc := hri.2 hr
    refine ⟨hbit.2 (Or.inr (Or.inr (Or.inl ⟨rfl, hr⟩))), ?_⟩
    unfold desiFlagRow
    dsimp only
    rw [if_pos hc]
    exact ⟨rfl, rfl, rfl, by simp, rfl⟩
  · intro hr
    have hc : ¬ isinSel fm (fun f => f.badpos m || f.broken m || f.unassignedF m || f.badtype) d.targetid = true := fun h => hr (hri.1 h)
    have h9 : bitSet (desiFlagRow m fm d).row.zwarn 9 ↔ bitSet d.row.zwarn 9 := by
      rw [hbit]
      constructor
      · rintro (h | h | h | h | h | h | h)
        · exact h
        · exact absurd h.1 (by decide)
        · exact absurd h.2 hr
        all_goals exact absurd h.1 (by decide)
      · exact Or.inl
    refine ⟨?_, ?_, ?_, ?_, ?_, h9⟩ <;>
    · unfold desiFlagRow
      dsimp only
      rw [if_neg hc]
  · unfold desiFlagRow; dsimp only; split <;> exact ⟨rfl, rfl, rfl, rfl, rfl, rfl⟩

/-- **C49** the model spectrum of a row with all coefficients 0 (such as a reset row) is 0 on every wavelength grid of the target, whatever the type. -/
theorem C49_zero_model {ω : Type} [DecidableEq ω] (spectra : List (ModelSpec ω K))
    (templates : PyDict (String × String) (List K → List K → K → Py (List K))) (archEval : Nat → ModelSpec ω K → Py (List K))
    (fitmethod spectype subtype : String) (coeff : List K) (z : K) (hc : ∀ c ∈ coeff, c = 0) :
    ∃ D, evalModel spectra templates archEval fitmethod spectype subtype coeff z = .ok D ∧
      ∀ sp ∈ spectra, ∃ v, D.get? sp.wavehash = some v ∧ (∀ y ∈ v, y = 0) ∧
        ∃ sp' ∈ spectra, sp'.wavehash = sp.wavehash ∧ v.length = sp'.wave.length := by
  unfold evalModel
  rw [if_pos (by rw [List.all_eq_true]; intro c h; exact decide_eq_true (hc c h))]
  refine ⟨_, rfl, ?_⟩
  intro sp hsp
  rw [PyDict.get?_foldl_set (fun sp : ModelSpec ω K => sp.wavehash) (fun sp => sp.wave.map (fun _ => (0 : K)))]
  cases hfind : spectra.reverse.find? (fun x => decide (x.wavehash = sp.wavehash)) with
  | none =>
    have := List.find?_eq_none.1 hfind sp (by simpa using hsp)
    simp at this
  | some sp' =>
    refine ⟨sp'.wave.map (fun _ => 0), by simp, by simp, sp', ?_, ?_, by simp⟩
    · have := List.mem_of_find?_eq_some hfind
      simpa using this
    · have := List.find?_some hfind
      simpa using this

end
end Redrock
