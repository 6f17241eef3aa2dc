import Verif.Props.ModelFile
import Verif.Props.MpRunEx

/-! Property C126: concrete runs with `--model`. -/
set_option linter.unusedSectionVars false
namespace Redrock
namespace RrDesiRun
namespace ModelEx
open MpRun.Ex FullRun Run

/-- wavelengths 0..3, one basis spectrum -/
def basis : PyStr → EvalTemplate ℚ := fun _ => ⟨[0, 1, 2, 3], [[1, 2, 3, 4]]⟩

def idSort : List Int → List Nat := stableArgsort (fun a b => decide (a ≤ b))

theorem idSort_ok : IsArgsort (fun a b => decide (a ≤ b)) idSort := stableArgsort_isArgsort _ (fun a b c => by simpa using le_trans) (fun a b => by simpa using le_total a b)

/-- the model HDUs alone -/
def hdus (x : Py (Tab ℚ × PyDict Bool (List ℚ × List (List ℚ)))) : Py (List (Bool × List ℚ × List (List ℚ))) := x.map (fun y => y.2)

/-- two bands, three targets: three models per band; those of targets 10 and 30 (redshift 1) are the same, that of target 20 (redshift 3) is another -/
theorem written : hdus (rrdesiModelFile (run true) basis idSort [exposures] .serial) =
    .ok [(false, [1, 2], [[9 / 2, 6], [15 / 4, 9 / 2], [9 / 2, 6]]), (true, [1, 2], [[9 / 2, 6], [15 / 4, 9 / 2], [9 / 2, 6]])] := by
  decide +kernel

/-- a file with one band and a file with two bands: `KeyError` -/
theorem failed : hdus (rrdesiModelFile (run true) basis idSort [oneBand, twoBands] .serial) = .error .keyError := by decide +kernel

theorem start (files : List (DFile Int Bool ℚ)) (hsub : ∀ f ∈ files, f ∈ [oneBand, twoBands, exposures]) (size : Nat) : GoodStart (run true) files size :=
  let h := good true files hsub
  ⟨h.argsort, h.sqrt, h.masks, h.fit, h.nminima, by intro c hc; cases hc⟩

theorem sub1 : ∀ f ∈ [exposures], f ∈ [oneBand, twoBands, exposures] := by
  intro f hf
  rw [List.mem_singleton.1 hf]
  simp

/-- the hypotheses of `C126_rows` and `C126_ranks` are met: the run on two ranks writes the same models as the serial one, and the k-th model is that of the k-th row -/
example : ∃ log, PossibleRing (run true) (.mpi 2 log) ∧ ∃ B D D', rrdesiModelFile (run true) basis idSort [exposures] .serial = .ok (B, D) ∧ rrdesiModelFile (run true) basis idSort [exposures] (.mpi 2 log) = .ok (B, D') ∧
    (∀ band, D.get? band = D'.get? band) ∧ ∃ best, List.Forall₂ (IsRow (run true) [exposures]) [10, 20, 30] best ∧
      List.Forall₂ (IsModel (run true) basis [exposures] true) best [[9 / 2, 6], [15 / 4, 9 / 2], [9 / 2, 6]] := by
  obtain ⟨l, hl⟩ := ringRun_exists ([0, 1, 2, 3, 4] : List ℚ) 2 (by decide) (fun r => ⟨r, if r = 0 then [0, 1, 2] else [3, 4]⟩) (by
    intro r hr
    have : r = 0 ∨ r = 1 := by omega
    rcases this with rfl | rfl <;> rfl)
  have hring : PossibleRing (run true) (.mpi 2 (fun _ => l)) := by
    refine ⟨by decide, ?_⟩
    intro t ht
    have ht' : t ∈ fit.templates := ht
    simp only [fit, List.mem_cons, List.not_mem_nil, or_false] at ht'
    subst ht'
    exact hl
  refine ⟨_, hring, ?_⟩
  have hw := written
  cases hrun : rrdesiModelFile (run true) basis idSort [exposures] .serial with
  | error e => rw [hrun] at hw; cases hw
  | ok x =>
    obtain ⟨B, D⟩ := x
    rw [hrun] at hw
    have hD : D = [(false, [1, 2], [[9 / 2, 6], [15 / 4, 9 / 2], [9 / 2, 6]]), (true, [1, 2], [[9 / 2, 6], [15 / 4, 9 / 2], [9 / 2, 6]])] := Except.ok.inj hw
    obtain ⟨D', h1, _, h3⟩ := C126_ranks (run true) basis idSort idSort_ok [exposures] (readable true _ (by simp) sub1) .serial (.mpi 2 (fun _ => l)) (start _ sub1 _) (start _ sub1 _) trivial hring B D hrun
    refine ⟨B, D, D', rfl, h1, h3 ?_, ?_⟩
    · intro f hf f' hf' b w w' hw hw'
      rw [List.mem_singleton.1 hf] at hw
      rw [List.mem_singleton.1 hf'] at hw'
      exact wave_unique (by decide) hw hw'
    · obtain ⟨best, g1, _, _, g4⟩ := C126_rows (run true) basis idSort [exposures] (readable true _ (by simp) sub1).oneGrid .serial (start _ sub1 _) trivial B D hrun
      refine ⟨best, g1, (g4 true [1, 2] _ ?_).2⟩
      rw [hD]
      rfl

/-- redshifts and coefficients of a catalogue -/
def fits (B : Tab ℚ) : Py (List (TabCell ℚ) × List (TabCell ℚ)) := do return (← B.col "Z".toList, ← B.col "COEFF".toList)

theorem fits_of (best : List (CatRow ℚ)) : fits (Zbest.publishedTable (fun x => x) [] best) = .ok (best.map (fun r => .flt r.base.row.z), best.map (fun r => .arr (r.base.row.coeff.map (fun x => x)))) := rfl

theorem exposures_fits : (rrdesiCatalogue (run true) [exposures] .serial).bind fits = .ok ([.flt 1, .flt 3, .flt 1], [.arr [3], .arr [3], .arr [3]]) := by decide +kernel

theorem exposures_used : (rankTargets (run true) [exposures] .serial).map (fun ts => ts.flatten.all (fun e => e.2.all (fun s => decide (s.wave = [1, 2] ∧ s.flux.length = 2)))) = .ok true := by decide +kernel

theorem eval_ok : ∀ z ∈ ([1, 3] : List ℚ), (templateEval [0, 1, 2, 3] [[1, 2, 3, 4]] [3] [1, 2] z none).toBool = true := by decide +kernel

/-- the hypotheses of `C126_written_partial` are met -/
example : ∃ B, rrdesiCatalogue (run true) [exposures] .serial = .ok B ∧ ((∃ D, rrdesiModelFile (run true) basis idSort [exposures] .serial = .ok (B, D)) ↔ EveryBand (run true) [exposures]) := by
  have hf := exposures_fits
  cases hB : rrdesiCatalogue (run true) [exposures] .serial with
  | error e => rw [hB] at hf; cases hf
  | ok B =>
    refine ⟨B, rfl, ?_⟩
    rw [hB] at hf
    have hone := (readable true [exposures] (by simp) sub1).oneGrid
    refine C126_written_partial (run true) basis idSort idSort_ok [exposures] hone .serial (start _ sub1 _) trivial B hB rfl (fun _ _ => (by decide : "PCA".toList.take 4 ≠ "ARCH".toList)) ?_
    rintro best hb rfl r hr used hu name _ s hs
    have hf' : (best.map (fun r => (TabCell.flt r.base.row.z : TabCell ℚ)), best.map (fun r => (TabCell.arr (r.base.row.coeff.map (fun x => x)) : TabCell ℚ))) = ([.flt 1, .flt 3, .flt 1], [.arr [3], .arr [3], .arr [3]]) :=
      Except.ok.inj hf
    rw [Prod.mk.injEq] at hf'
    have hz : r.base.row.z ∈ ([1, 3] : List ℚ) := by
      have : (TabCell.flt r.base.row.z : TabCell ℚ) ∈ best.map (fun r => (TabCell.flt r.base.row.z : TabCell ℚ)) := List.mem_map_of_mem hr
      rw [hf'.1] at this
      simp only [List.mem_cons, TabCell.flt.injEq, List.not_mem_nil, or_false] at this ⊢
      tauto
    have hc : r.base.row.coeff.map (run true).round32 = [3] := by
      have : (TabCell.arr (r.base.row.coeff.map (fun x => x)) : TabCell ℚ) ∈ best.map (fun r => (TabCell.arr (r.base.row.coeff.map (fun x => x)) : TabCell ℚ)) := List.mem_map_of_mem hr
      rw [hf'.2] at this
      simp only [List.mem_cons, TabCell.arr.injEq, List.not_mem_nil, or_false, or_self] at this
      exact this
    have hsw : s.wave = [1, 2] ∧ s.flux.length = 2 := by
      have hus := exposures_used
      cases hts : rankTargets (run true) [exposures] .serial with
      | error e => rw [hts] at hus; cases hus
      | ok ts =>
        rw [hts] at hus
        have hall := Except.ok.inj hus
        have hok := ranks_ok (run true) [exposures] .serial (start _ sub1 _) trivial ts hts
        obtain ⟨tid, htid, hrow⟩ := Catalogue.forall₂_right_mem hb r hr
        have hid := isRow_id _ _ _ _ hrow
        obtain ⟨e, he, heq⟩ := List.mem_map.1 (hok.ids.mem_iff.1 htid)
        rw [used_unique (run true) [exposures] hone tid used e.2 (hid ▸ hu) (heq ▸ hok.own e he)] at hs
        have := List.all_eq_true.1 (List.all_eq_true.1 hall e he) s hs
        simpa using this
    refine ⟨by rw [hsw.1, hsw.2]; rfl, ?_⟩
    rw [hc, hsw.1]
    have := eval_ok _ hz
    show ∃ flux, templateEval [0, 1, 2, 3] [[1, 2, 3, 4]] [3] [1, 2] r.base.row.z none = .ok flux
    cases ht : templateEval ([0, 1, 2, 3] : List ℚ) [[1, 2, 3, 4]] [3] [1, 2] r.base.row.z none with
    | error e => rw [ht] at this; cases this
    | ok v => exact ⟨v, rfl⟩

/-- a run that publishes a catalogue publishes its models -/
def ModelsFollow (β K : Type) [DecidableEq β] [Field K] [LinearOrder K] [IsStrictOrderedRing K] : Prop :=
  ∀ (p : RrDesi β K) (basis : PyStr → EvalTemplate K) (argsort : List Int → List Nat) (files : List (DFile Int β K)) (way : RrDesiWay K), IsArgsort (fun a b => decide (a ≤ b)) argsort → Readable p files →
    GoodStart p files (ways way) → PossibleRing p way → (∀ name, (basis name).wave ≠ []) → ∀ B, rrdesiCatalogue p files way = .ok B → ∃ D, rrdesiModelFile p basis argsort files way = .ok (B, D)

/-- **C126** the claim without the condition on the bands is false: a file with one band and a file with two bands; the catalogue is written, then `rrdesi` ends with a `KeyError` and there is no model file. -/
theorem _root_.Redrock.RrDesiRun.C126_refuted : ¬ ModelsFollow Bool ℚ := by
  intro h
  have hf := failed
  have hs := MpRun.Ex.serial
  cases hB : rrdesiCatalogue (run true) [oneBand, twoBands] .serial with
  | error e => rw [hB] at hs; cases hs
  | ok B =>
    obtain ⟨D, hD⟩ := h (run true) basis idSort [oneBand, twoBands] .serial idSort_ok (readable true _ (by simp) sub2) (start _ sub2 _) trivial (by intro n; simp [basis]) B hB
    rw [hD] at hf
    cases hf

end ModelEx
end RrDesiRun
end Redrock
