import Verif.Props.MpRun

/-! Property C122: concrete runs with worker processes. -/
set_option linter.unusedSectionVars false
namespace Redrock
namespace MpRun
namespace Ex
open RrDesiRun FullRun

/-- a template for bands `false` and `true` -/
def tmpl : Tmpl Bool ℚ String := ⟨"STAR", "K", false, [0, 1, 2, 3, 4], 1, .pca, none, fun _ zs => (Units.tmpl false).bin () zs⟩

def fit : FullCfg Int Bool ℚ String where
  templates := [("STAR:::K".toList, tmpl)]
  order := ["STAR:::K".toList]
  argsort := stableArgsort Ext.le
  minfit := Units.cfg.minfit
  nz := 3
  nminima := 1
  S := Units.cfg.S
  prior := fun _ zs => zs.map (fun _ => .fin 0)
  le := fun a b => decide (a ≤ b)

/-- a coadd of target 10, with one band -/
def oneBand : DFile Int Bool ℚ where
  coadded := true
  coaddIds := [10]
  expIds := [10]
  waveHdus := [(false, [1, 2])]
  flux := fun _ => some [[some 3, some 1]]
  ivar := fun _ => some [[some 1, some 1]]
  mask := fun _ => some [[0, 0]]
  res := fun _ => some [[[1, 1]]]

/-- coadds of targets 20 and 30, with two bands -/
def twoBands : DFile Int Bool ℚ where
  coadded := true
  coaddIds := [20, 30]
  expIds := [20, 30]
  waveHdus := [(false, [1, 2]), (true, [1, 2])]
  flux := fun _ => some [[some 1, some 3], [some 3, some 1]]
  ivar := fun _ => some [[some 1, some 1], [some 1, some 1]]
  mask := fun _ => some [[0, 0], [0, 0]]
  res := fun _ => some [[[1, 1]], [[1, 1]]]

/-- exposures: one of target 10, two of target 20, one of target 30, two bands -/
def exposures : DFile Int Bool ℚ where
  coadded := false
  coaddIds := [10, 20, 30]
  expIds := [10, 20, 20, 30]
  waveHdus := [(false, [1, 2]), (true, [1, 2])]
  flux := fun _ => some [[some 3, some 1], [some 1, some 3], [some 1, some 3], [some 3, some 1]]
  ivar := fun _ => some [[some 1, some 1], [some 1, some 1], [some 1, some 1], [some 1, some 1]]
  mask := fun _ => some [[0, 0], [0, 0], [0, 0], [0, 0]]
  res := fun _ => some [[[1, 1]], [[1, 1]], [[1, 1]], [[1, 1]]]

/-- with or without coaddition -/
def run (coadd : Bool) : RrDesi Bool ℚ where
  argsort := exSort
  sqrt := fun x => x
  resol := fun r => ⟨[0], r⟩
  opts := { targetids := none, firstTarget := none, nTarget := none, coadd := coadd, negfluxNsig := 5, cosmicsNsig := 0, capacities := none }
  fit := fit
  mask := ⟨1, 2, 4, 8, []⟩
  fibermap := fun f => f.coaddIds.map (fun t => ⟨t, 0, "TGT"⟩)
  method := fun _ _ => "PCA"
  noSkymask := false
  round32 := fun x => x

/-- two workers; the second one delivers first in the scan -/
def two : Workers ℚ := ⟨2, fun _ l => l.reverse, fun _ l => l⟩

theorem two_any : AnyOrder two := ⟨by decide, fun _ l => List.reverse_perm l, fun _ l => .refl l⟩

def brief (B : Tab ℚ) : Py (List (List (TabCell ℚ))) := ["TARGETID", "Z"].mapM (fun n => B.col n.toList)

theorem two_rows {X : Type} {l : List (List X)} (h : ∀ r ∈ l, r.length = 2) {i : Nat} {r : List X} (hr : RowAt (some l) i r) : r.length = 2 := by
  obtain ⟨l', hl, h1⟩ := hr
  cases hl
  exact h r (List.mem_of_getElem? h1)

theorem mem3 (f : DFile Int Bool ℚ) (h : f ∈ [oneBand, twoBands, exposures]) : f = oneBand ∨ f = twoBands ∨ f = exposures := by simpa using h

theorem sqrt_ok (f : DFile Int Bool ℚ) (hf : f ∈ [oneBand, twoBands, exposures]) : SqrtOn (fun x : ℚ => x) f := by
  intro b i ir v hir hv _
  have : ∀ x ∈ ir, x = some 1 := by
    rcases mem3 f hf with rfl | rfl | rfl <;>
    · obtain ⟨l, hl, h⟩ := hir
      cases hl
      have := List.mem_of_getElem? h
      simp only [List.mem_cons, List.not_mem_nil, or_false, or_self] at this
      subst this
      intro x hx
      simpa using hx
  have := Option.some.inj (this _ hv)
  subst this
  norm_num

theorem good (coadd : Bool) (files : List (DFile Int Bool ℚ)) (hsub : ∀ f ∈ files, f ∈ [oneBand, twoBands, exposures]) : GoodStart (run coadd) files 1 where
  argsort := stableArgsort_isArgsort _ (fun a b c => by simpa using le_trans) (fun a b => by simpa using le_total a b)
  sqrt := fun f hf => sqrt_ok f (hsub f hf)
  masks := by
    refine ⟨true, ?_⟩
    intro f hf b _
    rcases mem3 f (hsub f hf) with rfl | rfl | rfl <;> rfl
  fit := by
    refine ⟨(by decide : (fit.templates.map (·.1)).Nodup), List.Perm.refl _, ?_⟩
    have hs : ∀ A y e, Units.solve1 A y = .error e → e = .linAlgError ∨ e = .notImplemented := by
      intro A y e h
      unfold Units.solve1 at h
      split at h
      · exact Or.inl (Except.error.inj h).symm
      · cases h
    intro t ht
    simp only [run, fit, List.mem_cons, List.not_mem_nil, or_false] at ht
    subst ht
    exact ⟨_, fun _ _ _ _ _ => rfl, by decide, hs⟩
  nminima := (by decide : 1 ≤ fit.nminima)
  capacities := by
    intro c hc
    cases hc

theorem readable (coadd : Bool) (files : List (DFile Int Bool ℚ)) (hne : files ≠ []) (hsub : ∀ f ∈ files, f ∈ [oneBand, twoBands, exposures]) : Readable (run coadd) files where
  nonempty := hne
  wellFormed := by
    intro f hf
    rcases mem3 f (hsub f hf) with rfl | rfl | rfl <;>
    exact {
      flux := fun b _ => ⟨_, rfl, rfl⟩
      ivar := fun b _ => ⟨_, rfl, rfl⟩
      res := fun b _ => ⟨_, rfl, rfl⟩
      ivarRow := fun b i fr ir h1 h2 => (two_rows (by simp) h2).trans (two_rows (by simp) h1).symm
      mask := fun b m hm => by cases hm; rfl
      maskRow := fun b i fr mr h1 h2 => (two_rows (by simp) h2).trans (two_rows (by simp) h1).symm }
  oneGrid := by
    intro f hf
    rcases mem3 f (hsub f hf) with rfl | rfl | rfl <;> decide
  selection := by
    intro f hf
    show 0 + (f.coaddIds).length ≤ (f.coaddIds).length
    omega

theorem hasRows (coadd : Bool) (files : List (DFile Int Bool ℚ)) (hsub : ∀ f ∈ files, f ∈ [oneBand, twoBands, exposures]) : HasRows (run coadd).opts files := by
  intro f hf t ht
  rcases mem3 f (hsub f hf) with rfl | rfl | rfl
  · have : t ∈ ([10] : List Int) := ht
    show t ∈ ([10] : List Int)
    exact this
  · have : t ∈ ([20, 30] : List Int) := ht
    show t ∈ ([20, 30] : List Int)
    exact this
  · have : t ∈ ([10, 20, 30] : List Int) := ht
    show t ∈ ([10, 20, 20, 30] : List Int)
    simp only [List.mem_cons, List.not_mem_nil, or_false] at this ⊢
    tauto

theorem sub2 : ∀ f ∈ [oneBand, twoBands], f ∈ [oneBand, twoBands, exposures] := by
  intro f hf
  simp only [List.mem_cons, List.not_mem_nil, or_false] at hf ⊢
  tauto

/-- one process: target 10 has redshift 1, target 20 redshift 3 -/
theorem serial : ((rrdesiCatalogue (run true) [oneBand, twoBands] .serial).bind brief) = .ok [[.int 10, .int 20, .int 30], [.flt 1, .flt 3, .flt 1]] := by decide +kernel

/-- two workers: the redshifts are exchanged -/
theorem swapped : ((rrdesiCatalogueMp (run true) [oneBand, twoBands] two).bind brief) = .ok [[.int 10, .int 20, .int 30], [.flt 3, .flt 1, .flt 1]] := by decide +kernel

/-- all exposures are fitted, two workers: the redshifts are right -/
theorem exposures_mp : ((rrdesiCatalogueMp (run false) [exposures] two).bind brief) = .ok [[.int 10, .int 20, .int 30], [.flt 1, .flt 3, .flt 1]] := by decide +kernel

end Ex

/-- **C122** the claim without the condition on the bands is false: two workers, a file with one band and a file with two bands; the catalogue has the redshifts of targets 10 and 20 exchanged. -/
theorem C122_refuted : ¬ WorkersGiveCatalogue Bool ℚ := by
  intro h
  cases hB : rrdesiCatalogueMp (Ex.run true) [Ex.oneBand, Ex.twoBands] Ex.two with
  | error e =>
    have := Ex.swapped
    rw [hB] at this
    cases this
  | ok B =>
    have h1 := (h (Ex.run true) [Ex.oneBand, Ex.twoBands] (Ex.readable true _ (by simp) Ex.sub2) (Ex.hasRows true _ Ex.sub2) (Ex.good true _ Ex.sub2) Ex.two Ex.two_any B).1 hB
    have h2 := Ex.swapped
    have h3 := Ex.serial
    rw [hB] at h2
    rw [h1] at h3
    rw [h2] at h3
    revert h3
    decide +kernel

/-- the conditions of `C122_rrdesi_partial` are met by the exposures (fitted one by one: the targets have 2, 4 and 2 spectra) -/
example : SameBands [Ex.exposures] ∧ HasRows (Ex.run false).opts [Ex.exposures] ∧ RrDesiRun.GoodStart (Ex.run false) [Ex.exposures] 1 ∧ AnyOrder Ex.two ∧ ∃ B, rrdesiCatalogue (Ex.run false) [Ex.exposures] .serial = .ok B := by
  have hsub : ∀ f ∈ [Ex.exposures], f ∈ [Ex.oneBand, Ex.twoBands, Ex.exposures] := by
    intro f hf
    simp only [List.mem_cons, List.not_mem_nil, or_false] at hf ⊢
    tauto
  have hs : SameBands [Ex.exposures] := by
    intro f hf f' hf' b hb
    simp only [List.mem_singleton] at hf hf'
    subst hf hf'
    exact hb
  refine ⟨hs, Ex.hasRows false _ hsub, Ex.good false _ hsub, Ex.two_any, ?_⟩
  cases hB : rrdesiCatalogueMp (Ex.run false) [Ex.exposures] Ex.two with
  | error e =>
    have := Ex.exposures_mp
    rw [hB] at this
    cases this
  | ok B => exact ⟨B, (C122_rrdesi_partial (Ex.run false) [Ex.exposures] hs (fun _ => Ex.hasRows false _ hsub) (Ex.good false _ hsub) Ex.two Ex.two_any B).1 hB⟩

end MpRun
end Redrock
