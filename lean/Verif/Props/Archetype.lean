import Verif.Lemmas.Archetype
import Verif.Props.Strings
import Verif.Props.Fitz

/-! Properties C51 (per-camera part), C75, C76, C77: the archetype fit. -/
set_option linter.unusedSectionVars false
namespace Redrock
section
variable {K ω : Type} [Field K] [LinearOrder K] [IsStrictOrderedRing K] [DecidableEq ω]

theorem splitArchetypeCoeff_eq (subtype : List Char) (c : List K) (nbands nleg n : Nat) (hn : (subtype.splitOn ';').length = n) :
    splitArchetypeCoeff subtype c nbands nleg = (c.take n, (List.range nbands).map (fun i => ((c.drop n).drop (i * nleg)).take nleg)) := by
  unfold splitArchetypeCoeff
  simp only [hn]
  congr 1
  apply List.map_congr_left
  intro i _
  rw [List.drop_take]
  congr 1
  rw [Nat.add_mul]; omega

/-- what a camera fit reports: the chi2 of the camera models of its coefficients, or failure -/
theorem fitOf_camera (solve : List (List K) → List K → Py (List K)) (spectra : List (FitSpectrum ω K)) (hnd : (spectra.map (·.wavehash)).Nodup) (T : ω → List (List K)) (n nleg : Nat)
    (hT : ∀ s ∈ spectra, ∀ row ∈ T s.wavehash, row.length = n + nleg) (P : Option (List (List K))) (q : K × List K)
    (hq : fitOf solve spectra (cameraDesign spectra T n nleg) (n + nleg * spectra.length) P = q) :
    q = (9999999, List.replicate (n + nleg * spectra.length) 0) ∨
      q.1 = cameraChi2 spectra T n nleg (q.2.take n) ((List.range spectra.length).map (fun i => ((q.2.drop n).drop (i * nleg)).take nleg)) := by
  unfold fitOf at hq
  split at hq
  · exact Or.inl hq.symm
  · split at hq
    · rename_i c hc
      subst hq
      right
      apply chi2_design spectra T _ n nleg c hT
      intro i s hs
      rw [cameraDesign, idxOf_wavehash spectra hnd i s hs]
    · exact Or.inl hq.symm

theorem fitOf_length (solve : List (List K) → List K → Py (List K)) (hso : SolverOk solve) (spectra : List (FitSpectrum ω K)) (T : ω → List (List K)) (nbasis : Nat) (P : Option (List (List K))) :
    (fitOf solve spectra T nbasis P).2.length = nbasis := by
  unfold fitOf
  split
  · simp
  · have := hso (addPrior (normalMatrixOf spectra T nbasis) P) (normalVectorOf spectra T nbasis)
    revert this
    cases solve _ _ with
    | ok c => intro h; simpa [normalVectorOf] using h
    | error e => intro _; simp

/-- **C51** the per-camera fit of `narch` archetypes (or of `n > 1` archetypes together) to spectra on different grids with different band names: there is one chi2 and one coefficient vector for each,
in order; `split_archetype_coeff` cuts the vector into the `n` archetype coefficients and one block of `nleg` polynomial coefficients for each spectrum, *in the order of the spectra*: the reported chi2 is
that of the model in which spectrum number `i` has the polynomial of block `i` (unless nothing could be fitted). The alphabetical order of the band names plays no role. -/
theorem C51_per_camera (le : PyStr → PyStr → Bool) (solve : List (List K) → List K → Py (List K)) (hso : SolverOk solve) (t : ArchTarget ω K) (ht : GoodTarget t) (hb : GoodBands t)
    (F : ω → List (List (List K))) (T : Nat → ω → List (List K)) (nleg n narch : Nat) (hn : n = 1 ∨ (1 < n ∧ narch = 1))
    (hF : ∀ j, j < narch → ∀ s ∈ t.spectra, (F s.wavehash)[j]? = some (T j s.wavehash))
    (hT : ∀ j, j < narch → ∀ s ∈ t.spectra, (T j s.wavehash).length = (t.wave s.wavehash).length ∧ ∀ row ∈ T j s.wavehash, row.length = n + nleg)
    (P : Option (List (List K))) (hP : priorFits P (n + nleg * t.spectra.length) = true) (subtype : PyStr) (hsub : (subtype.splitOn ';').length = n) :
    ∃ chi2s coeffs, perCameraFit le solve t.spectra t.bands (t.spectra.map (fun s => (s.wavehash, F s.wavehash))) (spectralData t.spectra).1 (spectralData t.spectra).2.1
        (spectralData t.spectra).2.2 nleg narch n P = .ok (chi2s, coeffs) ∧ chi2s.length = narch ∧ coeffs.length = narch ∧
      ∀ (j : Nat) (chi2 : K) (c : List K), chi2s[j]? = some chi2 → coeffs[j]? = some c →
        c = (splitArchetypeCoeff subtype c t.spectra.length nleg).1 ++ (splitArchetypeCoeff subtype c t.spectra.length nleg).2.flatten ∧
        (splitArchetypeCoeff subtype c t.spectra.length nleg).1.length = n ∧
        (splitArchetypeCoeff subtype c t.spectra.length nleg).2.length = t.spectra.length ∧ (∀ b ∈ (splitArchetypeCoeff subtype c t.spectra.length nleg).2, b.length = nleg) ∧
        ((chi2, c) = (9999999, List.replicate (n + nleg * t.spectra.length) 0) ∨
          chi2 = cameraChi2 t.spectra (T j) n nleg (splitArchetypeCoeff subtype c t.spectra.length nleg).1 (splitArchetypeCoeff subtype c t.spectra.length nleg).2) := by
  have hS : ∀ j, j < narch → Shaped t.spectra (T j) (n + nleg) := by
    intro j hj s hs
    obtain ⟨h1, h2, h3⟩ := ht.shape s hs
    exact ⟨h1, h2, fun row hrow => by rw [h3 row hrow, (hT j hj s hs).1], (hT j hj s hs).2⟩
  have h := perCameraFit_eq le solve hso t.spectra ht.grids t.bands hb.count hb.distinct hb.noAlpha ht.ne F T nleg n narch hn hF hS P hP
  refine ⟨_, _, h, by simp, by simp, ?_⟩
  intro j chi2 c h1 h2
  have hj : j < narch := by
    have := (List.getElem?_eq_some_iff.1 h1).1
    simpa using this
  simp only [List.getElem?_map, List.getElem?_range hj, Option.map_some, Option.some.injEq] at h1 h2
  have hlen : c.length = n + nleg * t.spectra.length := by rw [← h2]; exact fitOf_length solve hso _ _ _ _
  have hsp := C51_split_lossless subtype c t.spectra.length nleg (by rw [hsub, hlen, Nat.mul_comm])
  refine ⟨hsp.2.2.2.symm, by rw [hsp.1, hsub], hsp.2.1, hsp.2.2.1, ?_⟩
  rw [splitArchetypeCoeff_eq subtype c _ nleg n hsub]
  apply fitOf_camera solve t.spectra ht.grids (T j) n nleg (fun s hs => (hT j hj s hs).2) P (chi2, c)
  rw [← h1, ← h2]

/-- **C51** the rearrangement by slices used on the GPU gives the same rows as the loop used on the CPU. -/
theorem C51_gpu_layout (n nleg ncam i : Nat) (hi : i < ncam) (row : List K) (hrow : row.length = n + nleg) :
    expandRowGpu n nleg (n + nleg * ncam) i row = expandRow n nleg (n + nleg * ncam) i row := by
  rw [expandRow_eq n nleg ncam i hi row hrow]
  have h1 : nleg * (i + 1) ≤ nleg * ncam := Nat.mul_le_mul_left _ hi
  have h2 : (i + 1) * nleg = nleg * i + nleg := by ring
  have h3 : i * nleg = nleg * i := by ring
  have h4 : nleg * (i + 1) = nleg * i + nleg := by ring
  have h5 : nleg * (ncam - 1 - i) = nleg * ncam - (nleg * i + nleg) := by
    rw [← h4, ← Nat.mul_sub]
    congr 1
    omega
  unfold expandRowGpu designRow
  dsimp only
  rw [if_neg (by simp only [List.length_take, List.length_drop, hrow]; omega), h2, h3, Nat.min_eq_left (by omega), Nat.min_eq_left (by omega)]
  congr 1
  rw [h5]
  congr 1
  · congr 2
    rw [List.drop_replicate, List.take_replicate]
    congr 1
    omega
  · rw [List.drop_replicate]
    congr 1
    omega

/-! ### the prior -/

theorem priorOnCoeffs_eq (n d m : Nat) (sigma : K) :
    priorOnCoeffs n d sigma m = (List.range (n + d * m)).map (fun r => (List.range (n + d * m)).map (fun c => if r = c ∧ n ≤ r then 1 / sigma ^ 2 else 0)) := by
  unfold priorOnCoeffs
  dsimp only
  generalize n + d * m = nb
  have key : ∀ k, (List.range k).foldl (fun (p : List (List K)) i => p.modify i (fun row => row.set i 0))
      ((List.range nb).map (fun r => (List.range nb).map (fun c => if r = c then 1 / sigma ^ 2 else 0))) =
      (List.range nb).map (fun r => (List.range nb).map (fun c => if r = c ∧ k ≤ r then 1 / sigma ^ 2 else 0)) := by
    intro k
    induction k with
    | zero => simp
    | succ k ih =>
      rw [List.range_succ, List.foldl_append, ih, List.foldl_cons, List.foldl_nil]
      apply List.ext_getElem
      · simp
      · intro r h1 h2
        have hr : r < nb := by simpa using h2
        rw [List.getElem_modify]
        simp only [List.getElem_map, List.getElem_range]
        by_cases hkr : k = r
        · subst hkr
          rw [if_pos rfl]
          apply List.ext_getElem
          · simp
          · intro c h3 h4
            rw [List.getElem_set]
            simp only [List.getElem_map, List.getElem_range]
            by_cases hkc : k = c
            · subst hkc; simp
            · simp [hkc]
        · rw [if_neg hkr]
          apply List.map_congr_left
          intro c _
          by_cases hrc : r = c
          · subst hrc
            by_cases h5 : k ≤ r
            · rw [if_pos ⟨rfl, h5⟩, if_pos ⟨rfl, by omega⟩]
            · rw [if_neg (by omega), if_neg (by omega)]
          · rw [if_neg (by tauto), if_neg (by tauto)]
  exact key n

/-- **C77** the prior matrix of `prior_on_coeffs` acts on the polynomial coefficients only: as a quadratic form it is `Σ c_k² / sigma²` over the coefficients after the first `n_nbh`. -/
theorem C77_prior_form (n d m : Nat) (sigma : K) (v : List K) :
    quadForm (priorOnCoeffs n d sigma m) (n + d * m) v = (∑ k ∈ Finset.range (d * m), v.getD (n + k) 0 ^ 2) / sigma ^ 2 := by
  rw [priorOnCoeffs_eq, quadForm]
  have hinner : ∀ j ∈ Finset.range (n + d * m), v.getD j 0 * ∑ k ∈ Finset.range (n + d * m),
      (((List.range (n + d * m)).map (fun r => (List.range (n + d * m)).map (fun c => if r = c ∧ n ≤ r then 1 / sigma ^ 2 else 0))).getD j []).getD k 0 * v.getD k 0 =
      if n ≤ j then v.getD j 0 ^ 2 / sigma ^ 2 else 0 := by
    intro j hj
    have hj' := Finset.mem_range.1 hj
    have : ∀ k ∈ Finset.range (n + d * m), (((List.range (n + d * m)).map (fun r => (List.range (n + d * m)).map (fun c => if r = c ∧ n ≤ r then 1 / sigma ^ 2 else 0))).getD j []).getD k 0 * v.getD k 0 =
        if k = j then (if n ≤ j then 1 / sigma ^ 2 * v.getD j 0 else 0) else 0 := by
      intro k hk
      have hk' := Finset.mem_range.1 hk
      simp only [List.getD_eq_getElem?_getD, List.getElem?_map, List.getElem?_range hj', List.getElem?_range hk', Option.map_some, Option.getD_some]
      by_cases h : k = j
      · subst h
        by_cases h2 : n ≤ k <;> simp [h2]
      · rw [if_neg (by intro h3; exact h h3.1.symm), if_neg h, zero_mul]
    rw [Finset.sum_congr rfl this, Finset.sum_ite_eq', if_pos hj]
    by_cases h2 : n ≤ j
    · rw [if_pos h2, if_pos h2]; ring
    · rw [if_neg h2, if_neg h2, mul_zero]
  rw [Finset.sum_congr rfl hinner, Finset.sum_range_add]
  have h0 : ∑ x ∈ Finset.range n, (if n ≤ x then v.getD x 0 ^ 2 / sigma ^ 2 else 0) = 0 := by
    apply Finset.sum_eq_zero
    intro x hx
    rw [if_neg (by have := Finset.mem_range.1 hx; omega)]
  rw [h0, zero_add, Finset.sum_div]
  apply Finset.sum_congr rfl
  intro x _
  rw [if_pos (by omega)]

/-- **C77** it has the shape of the normal matrix, is symmetric and positive semidefinite, so the least-squares theorem C37 applies to fits with this prior. -/
theorem C77_prior_ok (n d m : Nat) (sigma : K) : PriorOk (n + d * m) (priorOnCoeffs n d sigma m) ∧ priorFits (some (priorOnCoeffs n d sigma m)) (n + d * m) = true := by
  refine ⟨⟨⟨?_, ?_⟩, ?_, ?_⟩, ?_⟩
  · rw [priorOnCoeffs_eq]; simp
  · rw [priorOnCoeffs_eq]
    intro r hr
    obtain ⟨j, -, rfl⟩ := List.mem_map.1 hr
    simp
  · intro j k hj hk
    rw [priorOnCoeffs_eq]
    simp only [List.getD_eq_getElem?_getD, List.getElem?_map, List.getElem?_range hj, List.getElem?_range hk, Option.map_some, Option.getD_some]
    by_cases h : j = k
    · subst h; rfl
    · rw [if_neg (by tauto), if_neg (by intro h2; exact h h2.1.symm)]
  · intro v _
    rw [C77_prior_form]
    exact div_nonneg (Finset.sum_nonneg (fun k _ => sq_nonneg _)) (sq_nonneg _)
  · rw [priorOnCoeffs_eq]
    simp [priorFits]

/-- **C77** in nearest-neighbour mode the first pass, which fits one archetype at a time, uses exactly the prior that a fit without nearest neighbours would use: cutting off the first `n-1` rows and
columns of the prior for `n` archetypes leaves the prior for one archetype. -/
theorem C77_dropped_prior (n d m : Nat) (hn : 1 ≤ n) (sigma : K) : dropPrior n (priorOnCoeffs n d sigma m) = priorOnCoeffs 1 d sigma m := by
  rw [priorOnCoeffs_eq, priorOnCoeffs_eq, dropPrior]
  apply List.ext_getElem
  · simp; omega
  · intro r h1 h2
    simp only [List.getElem_map, List.getElem_drop, List.getElem_range]
    apply List.ext_getElem
    · simp; omega
    · intro c h3 h4
      simp only [List.getElem_map, List.getElem_drop, List.getElem_range]
      by_cases h : r = c ∧ 1 ≤ r
      · rw [if_pos h, if_pos (by omega)]
      · rw [if_neg h, if_neg (by omega)]

/-- a concrete prior: one archetype, two polynomials, two cameras, sigma = 1/2 -/
example : priorOnCoeffs (K := ℚ) 1 2 (1/2) 2 = [[0,0,0,0,0],[0,4,0,0,0],[0,0,4,0,0],[0,0,0,4,0],[0,0,0,0,4]] ∧ dropPrior 3 (priorOnCoeffs (K := ℚ) 3 2 (1/2) 2) = priorOnCoeffs 1 2 (1/2) 2 := by
  decide +kernel

end
end Redrock
