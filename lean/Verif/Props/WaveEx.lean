import Verif.Props.WaveDesi

/-! Property C120: when spectra with the same wavehash have different wavelengths; which wavelengths a wavehash determines; examples. -/
set_option linter.unusedSectionVars false
namespace Redrock
namespace Wave
open FullRun Catalogue Run RrDesiRun

namespace Ex

/-- a template with one emission line at wavelength 1: redshifted by z it is in the pixel with wavelength 1 + z -/
def line : Tmpl (List ℚ) ℚ String where
  spectype := "GALAXY"
  subtype := ""
  isStar := false
  redshifts := [0, 1, 2, 3, 4]
  nbasis := 1
  algorithm := .pca
  oii := none
  bin := fun w zs => .ok (zs.map (fun z => w.map (fun x => [if x = 1 + z then 1 else 0])))

def fit : FullCfg Int (List ℚ) ℚ String where
  templates := [("GALAXY".toList, line)]
  order := ["GALAXY".toList]
  argsort := stableArgsort Ext.le
  minfit := Units.cfg.minfit
  nz := 3
  nminima := 2
  S := Units.cfg.S
  prior := fun _ zs => zs.map (fun _ => .fin 0)
  le := fun a b => decide (a ≤ b)

theorem good (grids : List (List ℚ)) : GoodRun fit grids where
  names := by decide
  order := List.Perm.refl _
  scan := by
    have hs : ∀ A y e, Units.solve1 A y = .error e → e = .linAlgError ∨ e = .notImplemented := by
      intro A y e h
      unfold Units.solve1 at h
      split at h
      · exact Or.inl (Except.error.inj h).symm
      · cases h
    intro t ht
    simp only [fit, List.mem_cons, List.not_mem_nil, or_false] at ht
    subst ht
    exact ⟨_, fun _ _ _ _ _ => rfl, by decide, hs⟩

/-- two spectra of two pixels with a line in the first: at wavelength 2 (target 7) and at wavelength 3 (target 5); the grids have the same hash -/
def targets : List (Int × (List (WSpectrum Unit ℚ) × Unit)) :=
  [(7, [⟨⟨(), [1, 0], [1, 1], [[1, 0], [0, 1]]⟩, [2, 4]⟩], ()), (5, [⟨⟨(), [1, 0], [1, 1], [[1, 0], [0, 1]]⟩, [3, 5]⟩], ())]

def short (x : Py (List (Int × Row ℚ String))) : Py (List (Int × ℚ × ℚ × Nat)) := x.map (List.map (fun r => (r.1, r.2.z, r.2.chi2, r.2.zwarn)))

theorem ran : short (waveCatalogue fit targets [7, 5] .serial) = .ok [(7, 1, 0, 6), (7, 3, 1, 6), (5, 1, 9999999, 6), (5, 3, 9999999, 6)] := by decide +kernel

theorem measured : (measureTarget (measureCfg fit 5) [line] [⟨[3, 5], [1, 0], [1, 1], [[1, 0], [0, 1]]⟩]).map (List.map (fun r => (r.z, r.chi2, r.zwarn))) =
    .ok [(2, 0, 2), (7 / 2, 9999999, 34)] := by decide +kernel

/-- the conditions of `C120_own_wavelengths_partial` are met by a run with two different grids (two hashes), serial and on two ranks -/
def targets2 : List (Int × (List (WSpectrum Nat ℚ) × Unit)) :=
  [(7, [⟨⟨0, [1, 0], [1, 1], [[1, 0], [0, 1]]⟩, [2, 4]⟩], ()), (5, [⟨⟨1, [1, 0], [1, 1], [[1, 0], [0, 1]]⟩, [3, 5]⟩, ⟨⟨0, [0, 0], [1, 0], [[1, 0], [0, 1]]⟩, [2, 4]⟩], ())]

theorem same2 : SameGrids targets2 := by
  intro t ht t' ht' s hs s' hs'
  simp only [targets2, List.mem_cons, List.not_mem_nil, or_false] at ht ht'
  rcases ht with rfl | rfl <;> rcases ht' with rfl | rfl <;> simp only [List.mem_cons, List.not_mem_nil, or_false] at hs hs'
  · subst hs; subst hs'; simp
  · rcases hs' with rfl | rfl <;> subst hs <;> simp
  · rcases hs with rfl | rfl <;> subst hs' <;> simp
  · rcases hs with rfl | rfl <;> rcases hs' with rfl | rfl <;> simp

theorem ran2 : short (waveCatalogue fit targets2 [7, 5] .serial) = .ok [(7, 1, 0, 6), (7, 3, 1, 6), (5, 2, 0, 2), (5, 7 / 2, 9999999, 34)] := by decide +kernel

example : ∃ way rows, way ≠ .serial ∧ CanRun fit targets2 way ∧ (targets2.map (·.1)).Nodup ∧ ([7, 5] : List Int).Perm (targets2.map (·.1)) ∧ GoodRun fit (gridsOf (targets2.map ownTarget)) ∧
    waveCatalogue fit targets2 [7, 5] way = .ok rows ∧ rows.length = 4 := by
  obtain ⟨l, hl⟩ := ringRun_exists ([0, 1, 2, 3, 4] : List ℚ) 2 (by decide) (fun r => ⟨r, if r = 0 then [0, 1, 2] else [3, 4]⟩) (by
    intro r hr
    have : r = 0 ∨ r = 1 := by omega
    rcases this with rfl | rfl <;> rfl)
  have hway : CanRun fit targets2 (.mpi (targets2.map (fun t => [t])) (fun _ => l)) := by
    refine ⟨by simp [targets2], ?_⟩
    intro t ht
    simp only [fit, List.mem_cons, List.not_mem_nil, or_false] at ht
    subst ht
    exact hl
  have hn : (targets2.map (·.1)).Nodup := by decide
  have hids : ([7, 5] : List Int).Perm (targets2.map (·.1)) := List.Perm.refl _
  have e1 : (targets2.map ownTarget).map (·.1) = targets2.map (·.1) := rfl
  cases hrun : waveCatalogue fit targets2 [7, 5] .serial with
  | error e => have := ran2; rw [hrun] at this; cases this
  | ok rows =>
    refine ⟨_, rows, ?_, hway, hn, hids, good _, ?_, ?_⟩
    · intro h; cases h
    · rw [waveCatalogue_own fit targets2 same2 (good _) [7, 5] _ hway, C117_any_way fit _ (good _) (by rw [e1]; exact hn) [7, 5] (by rw [e1]; exact hids) _ (possible_own fit targets2 _ hway), ← hrun,
        waveCatalogue_own fit targets2 same2 (good _) [7, 5] .serial trivial]
      rfl
    · have := ran2
      rw [hrun] at this
      have := congrArg List.length (Except.ok.inj this)
      simpa using this

end Ex

/-- **C120** as stated is false: target 5 has its line at wavelength 3, redshift 2, and on its own wavelengths fits perfectly (chi2 0). In a run after target 7, whose grid has the same wavehash, its rows are at redshifts 1
and 3, with the chi2 of a failed fit: the scan compared its pixels with a template binned on the wavelengths of target 7. -/
theorem C120_refuted : ∃ (c : FullCfg Int (List ℚ) ℚ String) (targets : List (Int × (List (WSpectrum Unit ℚ) × Unit))) (rows : List (Int × Row ℚ String)), GoodRun c (gridsOf (targets.map ownTarget)) ∧
    (targets.map (·.1)).Nodup ∧ waveCatalogue c targets (targets.map (·.1)) .serial = .ok rows ∧
    ∃ e ∈ targets, ¬ ∃ T, measureTarget (measureCfg c e.1) (c.templates.map (·.2)) (e.2.1.map own) = .ok T ∧ List.Forall₂ Catalogue.SameRow T (Catalogue.rowsOf e.1 rows) := by
  cases hrun : waveCatalogue Ex.fit Ex.targets [7, 5] .serial with
  | error e => have := Ex.ran; rw [hrun] at this; cases this
  | ok rows =>
    refine ⟨Ex.fit, Ex.targets, rows, Ex.good _, by decide, hrun, (5, [⟨⟨(), [1, 0], [1, 1], [[1, 0], [0, 1]]⟩, [3, 5]⟩], ()), by simp [Ex.targets], ?_⟩
    rintro ⟨T, hT, hF⟩
    have hm := Ex.measured
    have hT' : measureTarget (measureCfg Ex.fit 5) [Ex.line] [⟨[3, 5], [1, 0], [1, 1], [[1, 0], [0, 1]]⟩] = .ok T := hT
    rw [hT'] at hm
    have hz : T.map (·.z) = [2, 7 / 2] := by
      have := congrArg (List.map (·.1)) (Except.ok.inj hm)
      rw [List.map_map] at this
      exact this
    have hz' : (Catalogue.rowsOf 5 rows).map (·.z) = [1, 3] := by
      have := Ex.ran
      rw [hrun] at this
      have h2 := congrArg (fun l : List (Int × ℚ × ℚ × Nat) => (l.filter (fun x => decide (x.1 = 5))).map (fun x => x.2.1)) (Except.ok.inj this)
      simp only [List.filter_map, List.map_map] at h2
      unfold Catalogue.rowsOf
      rw [List.map_map]
      exact h2
    have : T.map (·.z) = (Catalogue.rowsOf 5 rows).map (·.z) := by
      clear hz hz' hm hT' hT
      have hF' : List.Forall₂ Catalogue.SameRow T (Catalogue.rowsOf 5 rows) := hF
      clear hF hrun
      generalize Catalogue.rowsOf 5 rows = R at *
      induction hF' with
      | nil => rfl
      | cons hab _ ih =>
        rw [List.map_cons, List.map_cons, ih]
        congr 1
        rw [hab.1]
    rw [hz, hz'] at this
    norm_num at this

/-! ### `rrdesi` -/

namespace Ex

def fileA : DFile Int Unit ℚ where
  coadded := true
  coaddIds := [7]
  expIds := [7]
  waveHdus := [((), [2, 4])]
  flux := fun _ => some [[some 1, some 0]]
  ivar := fun _ => some [[some 1, some 1]]
  mask := fun _ => some [[0, 0]]
  res := fun _ => some [[[1, 1]]]

/-- the same band with other wavelengths -/
def fileB : DFile Int Unit ℚ where
  coadded := true
  coaddIds := [5]
  expIds := [5]
  waveHdus := [((), [3, 5])]
  flux := fun _ => some [[some 1, some 0]]
  ivar := fun _ => some [[some 1, some 1]]
  mask := fun _ => some [[0, 0]]
  res := fun _ => some [[[1, 1]]]

/-- the same targets on the wavelengths of `fileA` -/
def fileC : DFile Int Unit ℚ := { fileB with waveHdus := [((), [2, 4])], flux := fun _ => some [[some 0, some 1]] }

def prog : RrDesiW Unit ℚ where
  argsort := exSort
  sqrt := fun x => x
  resol := fun r => ⟨[0], r⟩
  opts := RrDesiRun.Ex.opts
  fit := fit
  mask := ⟨1, 2, 4, 8, []⟩
  fibermap := fun f => f.coaddIds.map (fun t => ⟨t, 0, "TGT"⟩)
  method := fun _ _ => "PCA"
  noSkymask := false
  round32 := fun x => x

theorem sqrt_ok : ∀ f ∈ [fileA, fileB, fileC], SqrtOn (fun x : ℚ => x) f := by
  intro f hf b i ir v hir hv _
  have : ∀ x ∈ ir, x = some 1 := by
    simp only [List.mem_cons, List.not_mem_nil, or_false] at hf
    rcases hf with rfl | rfl | rfl <;>
    · obtain ⟨l, hl, h⟩ := hir
      cases hl
      have := List.mem_of_getElem? h
      simp only [List.mem_cons, List.not_mem_nil, or_false] at this
      subst this
      intro x hx
      simpa using hx
  have := Option.some.inj (this _ hv)
  subst this
  norm_num

theorem start (files : List (DFile Int Unit ℚ)) (hsub : ∀ f ∈ files, f ∈ [fileA, fileB, fileC]) (size : Nat) : GoodStartW prog files size where
  argsort := stableArgsort_isArgsort _ (fun a b c => by simpa using le_trans) (fun a b => by simpa using le_total a b)
  sqrt := fun f hf => sqrt_ok f (hsub f hf)
  masks := by
    refine ⟨true, ?_⟩
    intro f hf b _
    have := hsub f hf
    simp only [List.mem_cons, List.not_mem_nil, or_false] at this
    rcases this with rfl | rfl | rfl <;> rfl
  fit := good _
  nminima := by decide
  capacities := by
    intro c hc
    cases hc

def brief (B : Tab ℚ) : Py (List (List (TabCell ℚ))) := ["TARGETID", "Z", "CHI2"].mapM (fun n => B.col n.toList)

theorem both : ((rrdesiCatalogueW prog [fileA, fileB] .serial).bind brief) = .ok [[.int 7, .int 5], [.flt 1, .flt 1], [.flt 0, .flt 9999999]] := by decide +kernel
theorem alone : ((rrdesiCatalogueW prog [fileB] .serial).bind brief) = .ok [[.int 5], [.flt 2], [.flt 0]] := by decide +kernel
theorem agree : ((rrdesiCatalogueW prog [fileA, fileC] .serial).bind brief) = .ok [[.int 7, .int 5], [.flt 1, .flt 3], [.flt 0, .flt 0]] := by decide +kernel

/-- the conditions of the theorems are met by two files with the same wavelengths -/
example : SameWaves [fileA, fileC] ∧ GoodStartW prog [fileA, fileC] 1 ∧ ∃ B, rrdesiCatalogueW prog [fileA, fileC] .serial = .ok B := by
  refine ⟨?_, start _ (by simp) 1, ?_⟩
  · intro f hf f' hf' b w w' hw hw'
    simp only [List.mem_cons, List.not_mem_nil, or_false] at hf hf'
    rcases hf with rfl | rfl <;> rcases hf' with rfl | rfl <;> simp only [fileA, fileC, List.mem_cons, List.not_mem_nil, or_false, Prod.mk.injEq] at hw hw' <;> rw [hw.2, hw'.2]
  · cases h : rrdesiCatalogueW prog [fileA, fileC] .serial with
    | ok B => exact ⟨B, rfl⟩
    | error e => have := agree; rw [h] at this; cases this

end Ex

/-- **C120** as stated is false of `rrdesi`: target 5 has the same row in both runs, with chi2 0 at redshift 2 if its file is given alone; with a file of another target before it, whose band has other wavelengths, it is
published at redshift 1 with the chi2 of a failed fit. -/
theorem C120_rrdesi_refuted : ∃ (p : RrDesiW Unit ℚ) (f f' : DFile Int Unit ℚ) (B B' : Tab ℚ), (∀ files, (∀ g ∈ files, g = f ∨ g = f') → GoodStartW p files 1) ∧ slotsOf p.opts 5 [f, f'] = slotsOf p.opts 5 [f'] ∧
    rrdesiCatalogueW p [f, f'] .serial = .ok B ∧ rrdesiCatalogueW p [f'] .serial = .ok B' ∧
    B.col "TARGETID".toList = .ok [.int 7, .int 5] ∧ B.col "Z".toList = .ok [.flt 1, .flt 1] ∧ B.col "CHI2".toList = .ok [.flt 0, .flt 9999999] ∧
    B'.col "TARGETID".toList = .ok [.int 5] ∧ B'.col "Z".toList = .ok [.flt 2] ∧ B'.col "CHI2".toList = .ok [.flt 0] := by
  have key : ∀ (B : Tab ℚ) a b c, Ex.brief B = .ok [a, b, c] → B.col "TARGETID".toList = .ok a ∧ B.col "Z".toList = .ok b ∧ B.col "CHI2".toList = .ok c := by
    intro B a b c h
    unfold Ex.brief at h
    have hF := mapM_inv _ _ _ h
    cases hF with
    | cons h1 hF =>
      cases hF with
      | cons h2 hF =>
        cases hF with
        | cons h3 hF => exact ⟨h1, h2, h3⟩
  cases h : rrdesiCatalogueW Ex.prog [Ex.fileA, Ex.fileB] .serial with
  | error e => have := Ex.both; rw [h] at this; cases this
  | ok B =>
    cases h' : rrdesiCatalogueW Ex.prog [Ex.fileB] .serial with
    | error e => have := Ex.alone; rw [h'] at this; cases this
    | ok B' =>
      have b1 := Ex.both
      have b2 := Ex.alone
      rw [h] at b1
      rw [h'] at b2
      obtain ⟨x1, x2, x3⟩ := key B _ _ _ b1
      obtain ⟨y1, y2, y3⟩ := key B' _ _ _ b2
      refine ⟨Ex.prog, Ex.fileA, Ex.fileB, B, B', ?_, rfl, h, h', x1, x2, x3, y1, y2, y3⟩
      intro files hfiles
      apply Ex.start
      intro g hg
      rcases hfiles g hg with rfl | rfl <;> simp

/-! ### which wavelengths a wavehash determines -/

section
variable {β K : Type} [Field K]

/-- wavelengths with constant steps -/
def Linear (w : List K) : Prop := ∃ a d, ∀ i (h : i < w.length), w[i] = a + i * d

/-- wavelengths with constant steps of the logarithm (as in the SDSS files) -/
def LogLinear (w : List K) : Prop := ∃ a r, a ≠ 0 ∧ ∀ i (h : i < w.length), w[i] = a * r ^ i

theorem waveKey_hash (hash : Nat × K × K × K × K × Option Nat → Int) (w : List K) (n : Option Nat) (k : WaveKey β) (h : waveKey hash none w n = .ok k) :
    ∃ h2 : 2 ≤ w.length, k = .hash (hash (w.length, w[0], w[1], w[w.length - 2], w[w.length - 1], n)) := by
  unfold waveKey at h
  obtain ⟨w0, h0, h⟩ := Except.bind_ok _ _ _ h
  obtain ⟨w1, h1, h⟩ := Except.bind_ok _ _ _ h
  obtain ⟨u, hu, h⟩ := Except.bind_ok _ _ _ h
  obtain ⟨v, hv, h⟩ := Except.bind_ok _ _ _ h
  have hlen : 1 < w.length := by
    have := (npGet_ok _ _ _).1 h1
    by_contra hc
    rw [List.getElem?_eq_none (by omega)] at this
    cases this
  refine ⟨by omega, ?_⟩
  have e : ∀ i (hi : i < w.length) x, npGet w i = .ok x → x = w[i] := by
    intro i hi x hx
    have := (npGet_ok _ _ _).1 hx
    rw [List.getElem?_eq_getElem hi] at this
    exact (Option.some.inj this).symm
  rw [← e 0 (by omega) w0 h0, ← e 1 hlen w1 h1, ← e (w.length - 2) (by omega) u hu, ← e (w.length - 1) (by omega) v hv]
  exact (Except.ok.inj h).symm

/-- **C120** (part) Without bands: if no two tuples that occur have the same hash, two grids with constant steps (in wavelength or in its logarithm) and the same wavehash are the same, so that `SameGrids` holds for spectra
on such grids. -/
theorem C120_regular_grids (hash : Nat × K × K × K × K × Option Nat → Int) (hinj : Function.Injective hash) (w w' : List K) (n n' : Option Nat) (k : WaveKey β) (h : waveKey hash none w n = .ok k)
    (h' : waveKey hash none w' n' = .ok k) (hreg : (Linear w ∧ Linear w') ∨ (LogLinear w ∧ LogLinear w')) : w = w' ∧ n = n' := by
  obtain ⟨l, e⟩ := waveKey_hash hash w n k h
  obtain ⟨l', e'⟩ := waveKey_hash hash w' n' k h'
  rw [e] at e'
  have := hinj (WaveKey.hash.inj e')
  simp only [Prod.mk.injEq] at this
  obtain ⟨t1, t2, t3, _, _, t6⟩ := this
  refine ⟨?_, t6⟩
  rcases hreg with ⟨⟨a, d, ha⟩, ⟨a', d', ha'⟩⟩ | ⟨⟨a, r, hne, ha⟩, ⟨a', r', hne', ha'⟩⟩
  · have e0 : a = a' := by
      rw [ha 0 (by omega), ha' 0 (by omega)] at t2
      simpa using t2
    have e1 : d = d' := by
      rw [ha 1 (by omega), ha' 1 (by omega), e0] at t3
      simpa using t3
    apply List.ext_getElem t1
    intro i hi hi'
    rw [ha i hi, ha' i hi', e0, e1]
  · have e0 : a = a' := by
      rw [ha 0 (by omega), ha' 0 (by omega)] at t2
      simpa using t2
    have e1 : r = r' := by
      rw [ha 1 (by omega), ha' 1 (by omega), e0] at t3
      simp only [pow_one] at t3
      exact mul_left_cancel₀ hne' t3
    apply List.ext_getElem t1
    intro i hi hi'
    rw [ha i hi, ha' i hi', e0, e1]

/-- grids of both kinds exist, with a wavehash -/
example : LogLinear ([1, 2, 4, 8] : List ℚ) ∧ Linear ([1, 3, 5] : List ℚ) ∧ ∃ k, waveKey (β := Unit) (fun t : Nat × ℚ × ℚ × ℚ × ℚ × Option Nat => (t.1 : Int)) none [1, 2, 4, 8] (some 3) = .ok k := by
  refine ⟨⟨1, 2, by norm_num, ?_⟩, ⟨1, 2, ?_⟩, _, rfl⟩
  · intro i h
    have : i = 0 ∨ i = 1 ∨ i = 2 ∨ i = 3 := by simp at h; omega
    rcases this with rfl | rfl | rfl | rfl <;> norm_num
  · intro i h
    have : i = 0 ∨ i = 1 ∨ i = 2 := by simp at h; omega
    rcases this with rfl | rfl | rfl <;> norm_num

/-- **C120** as stated fails for irregular grids: whatever the hash function, two grids that differ only between the second and the last but one pixel have the same wavehash. -/
theorem C120_refuted_hash (hash : Nat × ℚ × ℚ × ℚ × ℚ × Option Nat → Int) (n : Option Nat) : ∃ (w w' : List ℚ) (k : WaveKey β), waveKey hash none w n = .ok k ∧ waveKey hash none w' n = .ok k ∧ w ≠ w' ∧
    w.Pairwise (· < ·) ∧ w'.Pairwise (· < ·) := by
  refine ⟨[1, 2, 3, 5, 6], [1, 2, 4, 5, 6], _, rfl, rfl, by simp, ?_, ?_⟩ <;> norm_num

/-- **C120** With bands the wavehash is the band, whatever the wavelengths. -/
theorem C120_band_key (hash : Nat × K × K × K × K × Option Nat → Int) (b : β) (w w' : List K) (n n' : Option Nat) : waveKey hash (some b) w n = .ok (.band b) ∧ waveKey hash (some b) w n = waveKey hash (some b) w' n' := ⟨rfl, rfl⟩

end
end Wave
end Redrock
