import Verif.Props.GpuRunFail
import Verif.Props.Work

/-!
C124 with the distribution of targets that rrdesi uses (C03).
-/
set_option linter.unusedSectionVars false
namespace Redrock.Gpu
open Redrock Run Catalogue FullRun

section
variable {ι ω K σ M : Type} [DecidableEq ι] [DecidableEq ω] [Field K] [LinearOrder K] [IsStrictOrderedRing K]

/-- Rank `i` uses a GPU if `flags[i]` and has the targets whose IDs are in `dist[i]`. -/
def ranksOf (flags : List Bool) (dist : List (List ι)) (targets : List (ι × (List (Spec ω K) × M))) : List (Bool × List (ι × (List (Spec ω K) × M))) :=
  List.zipWith (fun f ids => (f, ids.filterMap (fun i => targets.find? (fun e => decide (e.1 = i))))) flags dist

theorem filterMap_find (targets : List (ι × (List (Spec ω K) × M))) (hn : (targets.map (·.1)).Nodup) :
    (targets.map (·.1)).filterMap (fun i => targets.find? (fun e => decide (e.1 = i))) = targets := by
  rw [List.filterMap_map]
  have : ∀ e ∈ targets, ((fun i => targets.find? (fun e => decide (e.1 = i))) ∘ (·.1)) e = some e := by
    intro e he
    show targets.find? _ = some e
    cases hf : targets.find? (fun x => decide (x.1 = e.1)) with
    | none =>
      have := List.find?_eq_none.1 hf e he
      simp at this
    | some x =>
      have h1 := List.find?_some hf
      have h2 := List.mem_of_find?_eq_some hf
      simp only [decide_eq_true_eq] at h1
      rw [List.inj_on_of_nodup_map hn h2 he h1]
  rw [List.filterMap_congr this, List.filterMap_some]

/-- **C124** What `rrdesi --gpu` does with its targets when some ranks use a GPU and others do not (targets of equal weight): with at most 10000 targets per GPU rank the catalogue is that of the run on the CPU; with
more, the run always fails. -/
theorem C124_rrdesi_distribution [LinearOrder σ] (c : GpuCfg ι ω K σ) (targets : List (ι × (List (Spec ω K) × M))) (hn : (targets.map (·.1)).Nodup)
    (allIds : List ι) (hids : allIds.Perm (targets.map (·.1))) (flags : List Bool) (hcpu : false ∈ flags) (hgpu : true ∈ flags) (ids : List ι) (hi : ids.Perm (targets.map (·.1))) (wt : K) (hwt : 0 < wt) :
    ∃ dist, distributeGpuMode K flags ids (some fun _ => wt) = .ok dist ∧
      (targets.length ≤ 10000 * flags.count true → ∀ size, GoodGpuRun c size targets → ∀ (way : RunWay ι (List (FitSpectrum ω K) × M) K), PossibleWay c.cpu (toCpuTargets targets) way → ∀ rows,
        (fullCatalogueGpu c targets allIds (ranksOf flags dist targets) = .ok rows ↔ fullCatalogue c.cpu (toCpuTargets targets) allIds way = .ok rows)) ∧
      (10000 * flags.count true < targets.length → (c.cpu.templates.map (·.1)).Nodup → c.cpu.order.Perm (c.cpu.templates.map (·.1)) → (∃ t ∈ c.cpu.templates, t.2.redshifts ≠ []) →
        ∀ rows, fullCatalogueGpu c targets allIds (ranksOf flags dist targets) ≠ .ok rows) := by
  obtain ⟨dist, h1, h2, h3, h4⟩ := C03_gpu_only_iff (K := K) flags ids wt hwt hcpu hgpu
  have hlen : ids.length = targets.length := by rw [hi.length_eq, List.length_map]
  have hmem : ∀ l ∈ dist, ∀ i ∈ l, ∃ e, targets.find? (fun e => decide (e.1 = i)) = some e := by
    intro l hl i hil
    have : i ∈ targets.map (·.1) := hi.mem_iff.1 (h3.mem_iff.1 (List.mem_flatten.2 ⟨l, hl, hil⟩))
    obtain ⟨e, he, rfl⟩ := List.mem_map.1 this
    cases hf : targets.find? (fun x => decide (x.1 = e.1)) with
    | none =>
      have := List.find?_eq_none.1 hf e he
      simp at this
    | some x => exact ⟨x, rfl⟩
  refine ⟨dist, h1, ?_, ?_⟩
  · intro hle size hg way hway rows
    refine C124_gpu_run_partial c size targets hg hn allIds hids _ ⟨?_, ?_⟩ way hway rows
    · have hmap : ∀ (fl : List Bool) (d : List (List ι)), d.length = fl.length → ((ranksOf fl d targets).map (·.2)).flatten = d.flatten.filterMap (fun i => targets.find? (fun e => decide (e.1 = i))) := by
        intro fl
        induction fl with
        | nil =>
          intro d hd
          rw [List.length_eq_zero_iff.1 hd]; rfl
        | cons f fl ih =>
          intro d hd
          cases d with
          | nil => simp at hd
          | cons x d =>
            have := ih d (by simpa using hd)
            unfold ranksOf at this ⊢
            rw [List.zipWith_cons_cons, List.map_cons, List.flatten_cons, this, List.flatten_cons, List.filterMap_append]
      rw [hmap flags dist h2]
      refine ((h3.trans hi).filterMap _).trans ?_
      rw [filterMap_find targets hn]
    · intro r hr hf
      obtain ⟨i, hi'⟩ := List.mem_iff_getElem?.1 hr
      unfold ranksOf at hi'
      rw [List.getElem?_zipWith] at hi'
      cases ha : flags[i]? with
      | none => rw [ha] at hi'; simp at hi'
      | some f =>
        cases hb : dist[i]? with
        | none => rw [ha, hb] at hi'; simp at hi'
        | some l =>
          rw [ha, hb] at hi'
          simp only [Option.some.injEq] at hi'
          rw [← hi'] at hf ⊢
          simp only at hf ⊢
          rw [hf] at ha
          have := (h4.2 (by omega)) i ha
          rw [this] at hb
          rw [← Option.some.inj hb]
          rfl
  · intro hlt hnames horder ⟨t, ht, hz⟩ rows
    have hnot : ¬ ∀ i : Nat, flags[i]? = some false → dist[i]? = some [] := by
      intro h
      have := h4.1 h
      omega
    push Not at hnot
    obtain ⟨i, hfi, hdi⟩ := hnot
    have hil : i < dist.length := by
      have := (List.getElem?_eq_some_iff.1 hfi).1
      omega
    have hdl : dist[i] ≠ [] := by
      intro h
      apply hdi
      rw [List.getElem?_eq_getElem hil, h]
    refine C124_cpu_rank_fails c hnames horder t ht hz targets allIds _ (dist[i].filterMap (fun j => targets.find? (fun e => decide (e.1 = j)))) ?_ ?_ rows
    · apply List.mem_of_getElem? (i := i)
      unfold ranksOf
      rw [List.getElem?_zipWith, hfi, List.getElem?_eq_getElem hil]
    · obtain ⟨j, hj⟩ := List.exists_mem_of_ne_nil _ hdl
      obtain ⟨e, he⟩ := hmem dist[i] (List.getElem_mem _) j hj
      intro h0
      have : e ∈ dist[i].filterMap (fun j => targets.find? (fun e => decide (e.1 = j))) := List.mem_filterMap.2 ⟨j, hj, he⟩
      rw [h0] at this
      simp at this

/-- the hypotheses are met: two targets, one rank with and one without GPU -/
example : ∃ dist, distributeGpuMode ℚ [true, false] [7, 5] (some fun _ => 1) = .ok dist ∧ ∀ rows,
    (fullCatalogueGpu (Ex.run .pca) Ex.targets [7, 5] (ranksOf [true, false] dist Ex.targets) = .ok rows ↔ fullCatalogue (Ex.run .pca).cpu (toCpuTargets Ex.targets) [7, 5] .serial = .ok rows) := by
  obtain ⟨dist, h1, h2, _⟩ := C124_rrdesi_distribution (Ex.run .pca) Ex.targets (by decide) [7, 5] (by decide) [true, false] (by decide) (by decide) [7, 5] (by decide) 1 one_pos
  exact ⟨dist, h1, h2 (by decide) _ Ex.good .serial trivial⟩

end
end Redrock.Gpu
