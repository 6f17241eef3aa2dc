import Verif.Props.SameData

/-!
C113: the choice of basis of a PCA template.
-/
namespace Redrock
set_option linter.unusedSectionVars false

/-- Specification: `A` and `B` are `n × n` matrices, inverse to each other. -/
structure InverseMats {K : Type} [Field K] [LinearOrder K] (n : Nat) (A B : List (List K)) : Prop where
  lenA : A.length = n
  rowsA : ∀ r ∈ A, r.length = n
  lenB : B.length = n
  rowsB : ∀ r ∈ B, r.length = n
  left : ∀ c : List K, c.length = n → matVec B (matVec A c) = c
  right : ∀ c : List K, c.length = n → matVec A (matVec B c) = c

/-- Specification: the template with other basis spectra: the `b`th new basis spectrum is `Σ_k A[k][b]` times the `k`th old one. -/
def rebase {ω K σ : Type} [Field K] [LinearOrder K] (A : List (List K)) (tm : Tmpl ω K σ) : Tmpl ω K σ :=
  { tm with bin := fun h zs => (tm.bin h zs).map (List.map (fun T => T.map (fun row => (List.range tm.nbasis).map (fun b => dotv row (col A b))))) }

/-- Specification: rebinning the template onto the grid of a spectrum gives, for every redshift, a matrix with `nbasis` columns and as many rows as the resolution matrix has columns; arrays of a spectrum have the same
length; inverse variances are not negative. (It may also raise.) -/
def FitsShaped {ω K σ : Type} [Field K] [LinearOrder K] (tm : Tmpl ω K σ) (spectra : List (FitSpectrum ω K)) : Prop :=
  ∀ s ∈ spectra, s.ivar.length = s.flux.length ∧ s.R.length = s.flux.length ∧ (∀ v ∈ s.ivar, 0 ≤ v) ∧
    ∀ zs t, tm.bin s.wavehash zs = .ok t → t.length = zs.length ∧ ∀ T ∈ t, (∀ row ∈ s.R, row.length = T.length) ∧ ∀ row ∈ T, row.length = tm.nbasis

section
variable {ω K σ : Type} [DecidableEq ω] [Field K] [LinearOrder K] [IsStrictOrderedRing K]

theorem modelAt_rebase (R T A B : List (List K)) (n : Nat) (h : InverseMats n A B) (hT : ∀ row ∈ T, row.length = n) (c : List K) (hc : c.length = n) (p : Nat) :
    modelAt R (T.map (fun row => (List.range n).map (fun b => dotv row (col A b)))) n (matVec B c) p = modelAt R T n c p := by
  unfold modelAt
  rw [List.length_map]
  apply Finset.sum_congr rfl
  intro w hw
  rw [Finset.mem_range] at hw
  congr 1
  have hrow : (T.getD w []).length = n := by
    rw [List.getD_eq_getElem?_getD, List.getElem?_eq_getElem hw]
    exact hT _ (List.getElem_mem hw)
  have e1 : ((T.map (fun row => (List.range n).map (fun b => dotv row (col A b)))).getD w []) = (List.range n).map (fun b => dotv (T.getD w []) (col A b)) := by
    simp [List.getD_eq_getElem?_getD, List.getElem?_eq_getElem hw]
  rw [e1]
  have hcol : ∀ b, (col A b).length = n := fun b => by simp [col, h.lenA]
  have hcolk : ∀ b k, k < n → (col A b).getD k 0 = (A.getD k []).getD b 0 := by
    intro b k hk
    have : k < A.length := by rw [h.lenA]; exact hk
    simp [col, List.getD_eq_getElem?_getD, List.getElem?_eq_getElem this]
  have hBc : (matVec B c).length = n := by simp [matVec, h.lenB]
  have hA : ∀ k, k < n → (matVec A (matVec B c)).getD k 0 = ∑ b ∈ Finset.range n, (A.getD k []).getD b 0 * (matVec B c).getD b 0 := by
    intro k hk
    have hk' : k < A.length := by rw [h.lenA]; exact hk
    have : (matVec A (matVec B c)).getD k 0 = dotv (A.getD k []) (matVec B c) := by
      simp [matVec, List.getD_eq_getElem?_getD, List.getElem?_eq_getElem hk']
    rw [this]
    apply dotv_eq_sum _ _ n _ hBc
    rw [List.getD_eq_getElem?_getD, List.getElem?_eq_getElem hk']
    exact h.rowsA _ (List.getElem_mem hk')
  have e2 : ∀ b ∈ Finset.range n, ((List.range n).map (fun b => dotv (T.getD w []) (col A b))).getD b 0 * (matVec B c).getD b 0 =
      ∑ k ∈ Finset.range n, (T.getD w []).getD k 0 * ((A.getD k []).getD b 0 * (matVec B c).getD b 0) := by
    intro b hb
    rw [getD_rangeMap n _ b (Finset.mem_range.1 hb), dotv_eq_sum _ _ n hrow (hcol b), Finset.sum_mul]
    apply Finset.sum_congr rfl
    intro k hk
    rw [hcolk b k (Finset.mem_range.1 hk)]
    ring
  rw [Finset.sum_congr rfl e2, Finset.sum_comm]
  apply Finset.sum_congr rfl
  intro k hk
  rw [← Finset.mul_sum, ← hA k (Finset.mem_range.1 hk), h.right c hc]

theorem rebase_bin (A : List (List K)) (tm : Tmpl ω K σ) (h : ω) (zs : List K) : (rebase A tm).bin h zs =
    (tm.bin h zs).map (List.map (fun T => T.map (fun row => (List.range tm.nbasis).map (fun b => dotv row (col A b))))) := rfl

theorem binAll_rebase (A : List (List K)) (tm : Tmpl ω K σ) (hs : List ω) (zs : List K) : binAll (rebase A tm) hs zs =
    (binAll tm hs zs).map (List.map (fun q => (q.1, q.2.map (fun T => T.map (fun row => (List.range tm.nbasis).map (fun b => dotv row (col A b))))))) := by
  unfold binAll
  rw [← mapM_except_map]
  apply mapM_congr'
  intro h _
  rw [rebase_bin]
  cases tm.bin h zs <;> rfl

theorem dictGet_map {V W : Type} (b : PyDict ω V) (f : V → W) (k : ω) : PyDict.get? (b.map (fun q => (q.1, f q.2))) k = (PyDict.get? b k).map f := by
  simp only [PyDict.get?]
  induction b with
  | nil => rfl
  | cons q b ih =>
    rw [List.map_cons]
    by_cases h : q.1 = k
    · simp [h]
    · rw [List.find?_cons_of_neg (by simpa using h), List.find?_cons_of_neg (by simpa using h)]
      exact ih

theorem binAll_template (tm : Tmpl ω K σ) (spectra : List (FitSpectrum ω K)) (hf : FitsShaped tm spectra) (zs : List K) (b : PyDict ω (List (List (List K)))) (hb : binAll tm (hashesOf spectra) zs = .ok b) :
    ∀ i, i < zs.length → HasTemplate spectra b i (binAt tm zs i) ∧ Shaped spectra (binAt tm zs i) tm.nbasis := by
  intro i hi
  have key : ∀ s ∈ spectra, ∃ t, tm.bin s.wavehash zs = .ok t ∧ b.get? s.wavehash = some t ∧ t[i]? = some (binAt tm zs i s.wavehash) := by
    intro s hs
    obtain ⟨t, h1, h2⟩ := binAll_get tm _ zs b hb s.wavehash ((mem_hashesOf spectra _).2 ⟨s, hs, rfl⟩)
    refine ⟨t, h1, h2, ?_⟩
    have hl := ((hf s hs).2.2.2 zs t h1).1
    unfold binAt
    rw [h1]
    have hit : i < t.length := by omega
    simp [hit]
  constructor
  · intro s hs
    obtain ⟨t, _, h2, h3⟩ := key s hs
    exact ⟨t, h2, h3⟩
  · intro s hs
    obtain ⟨t, h1, _, h3⟩ := key s hs
    obtain ⟨a, b', _, d⟩ := hf s hs
    obtain ⟨_, e⟩ := d zs t h1
    obtain ⟨e1, e2⟩ := e _ (List.mem_of_getElem? h3)
    exact ⟨a, b', e1, e2⟩

theorem batch_len (n : Nat) (solve : List (List K) → List K → Py (List K)) (hE : ExactSolver n solve) (spectra : List (FitSpectrum ω K)) (b : PyDict ω (List (List (List K)))) (w f wf : List K) (nz : Nat)
    (r : List (K × List K)) (h : calcZchi2Batch solve spectra b w f wf nz n none = .ok r) : ∀ q ∈ r, q.2.length = n := by
  intro q hq
  unfold calcZchi2Batch at h
  split at h
  · rw [← Except.ok.inj h] at hq
    rw [List.eq_of_mem_replicate hq]; simp
  · obtain ⟨i, _, hi⟩ := mapM_ok_mem _ _ _ h q hq
    cases hd : dotProductSparseOne spectra b n i with
    | error e => rw [hd] at hi; simp [bind, Except.bind] at hi
    | ok Tb =>
      rw [hd] at hi
      change fitOne solve Tb w f wf n none = .ok q at hi
      unfold fitOne at hi
      simp only [addPrior] at hi
      cases hs : solve (normalM Tb w n) (normalY Tb wf n) with
      | ok c =>
        rw [hs] at hi
        simp only [Except.ok.injEq] at hi
        rw [← hi]
        exact (hE.sound _ _ c (by simp [normalM]) (by
          intro r hr
          unfold normalM at hr
          obtain ⟨j, _, rfl⟩ := List.mem_map.1 hr
          simp) (by simp [normalY]) hs).1
      | error e =>
        rw [hs] at hi
        cases e <;> simp at hi <;> (rw [← hi]; simp)

theorem sameFits_rebase (S : Solvers K) (tm : Tmpl ω K σ) (A B : List (List K)) (hAB : InverseMats tm.nbasis A B) (hS : ExactSolver tm.nbasis S.linalgSolve) (ha : tm.algorithm = .pca) (ho : tm.oii = none)
    (spectra : List (FitSpectrum ω K)) (hf : FitsShaped tm spectra) : SameFits (fun c c' => c.length = tm.nbasis ∧ c' = matVec B c) S tm (rebase A tm) spectra spectra where
  spectype := rfl
  subtype := rfl
  isStar := rfl
  redshifts := rfl
  nbasis := rfl
  oii := rfl
  pen := by intro t nw h; rw [ho] at h; simp at h
  zero := by
    refine ⟨by simp, ?_⟩
    have : ∀ r : List K, dotv r (List.replicate tm.nbasis 0) = 0 := by
      intro r
      generalize tm.nbasis = m
      induction r generalizing m with
      | nil => simp [dotv]
      | cons x r ih =>
        cases m with
        | zero => simp [dotv]
        | succ m => rw [List.replicate_succ, dotv_cons', ih]; ring
    unfold matVec
    rw [List.map_congr_left (g := fun _ => (0 : K)) (fun r _ => this r)]
    rw [List.map_const', hAB.lenB]
  weight := Iff.rfl
  batch := by
    intro zs
    unfold batchAt
    rw [binAll_rebase]
    cases hb : binAll tm (hashesOf spectra) zs with
    | error e => rfl
    | ok b =>
      have hT := binAll_template tm spectra hf zs b hb
      have hw : ∀ s ∈ spectra, ∀ v ∈ s.ivar, 0 ≤ v := fun s hs => (hf s hs).2.2.1
      let f : List (List K) → List (List K) := fun T => T.map (fun row => (List.range tm.nbasis).map (fun b => dotv row (col A b)))
      have hsolve : solveMatrices S tm.algorithm none = S.linalgSolve := by rw [ha]; rfl
      have hsolve' : solveMatrices S (rebase A tm).algorithm none = S.linalgSolve := by rw [show (rebase A tm).algorithm = tm.algorithm from rfl, ha]; rfl
      obtain ⟨r, r1, r2⟩ := batch_transfer tm.nbasis zs.length S.linalgSolve hS spectra spectra b (b.map (fun q => (q.1, q.2.map f))) (binAt tm zs) (fun i h => f (binAt tm zs i h))
        (fun i hi => (hT i hi).1)
        (by
          intro i hi s hs
          obtain ⟨t, h1, h2⟩ := (hT i hi).1 s hs
          refine ⟨t.map f, ?_, ?_⟩
          · rw [dictGet_map, h1]; rfl
          · rw [List.getElem?_map, h2]; rfl)
        (fun i hi => (hT i hi).2)
        (by
          intro i hi s hs
          obtain ⟨a, b', e1, e2⟩ := (hT i hi).2 s hs
          refine ⟨a, b', ?_, ?_⟩
          · intro row hr; rw [e1 row hr]; simp [f]
          · intro row hr
            obtain ⟨q, _, rfl⟩ := List.mem_map.1 hr
            simp)
        hw hw Iff.rfl (matVec B) (matVec A)
        (fun c hc => ⟨by simp [matVec, hAB.lenB], hAB.right c hc⟩) (fun c hc => ⟨by simp [matVec, hAB.lenA], hAB.left c hc⟩)
        (by
          have : ∀ r : List K, dotv r (List.replicate tm.nbasis 0) = 0 := by
            intro r
            generalize tm.nbasis = m
            induction r generalizing m with
            | nil => simp [dotv]
            | cons x r ih =>
              cases m with
              | zero => simp [dotv]
              | succ m => rw [List.replicate_succ, dotv_cons', ih]; ring
          unfold matVec
          rw [List.map_congr_left (g := fun _ => (0 : K)) (fun r _ => this r)]
          rw [List.map_const', hAB.lenB])
        (by
          intro i hi c hc
          unfold chi2Of
          apply congrArg List.sum
          apply List.map_congr_left
          intro s hs
          apply Finset.sum_congr rfl
          intro p _
          rw [modelAt_rebase s.R (binAt tm zs i s.wavehash) A B tm.nbasis hAB ((hT i hi).2 s hs).2.2.2 c hc p])
      show RelPy _ (calcZchi2Batch (solveMatrices S tm.algorithm none) _ b _ _ _ _ _ _) (calcZchi2Batch (solveMatrices S (rebase A tm).algorithm none) _ (b.map (fun q => (q.1, q.2.map f))) _ _ _ _ _ _)
      rw [hsolve, hsolve', r1, show (rebase A tm).nbasis = tm.nbasis from rfl, r2]
      show List.Forall₂ _ r (r.map _)
      rw [List.forall₂_map_right_iff]
      exact List.forall₂_same.2 (fun q hq => ⟨rfl, batch_len tm.nbasis S.linalgSolve hS spectra b _ _ _ _ r r1 q hq, rfl⟩)

theorem SameFits.mono {ρ ρ' : List K → List K → Prop} (h : ∀ c c', ρ c c' → ρ' c c') {S : Solvers K} {tm tm' : Tmpl ω K σ} {spectra spectra' : List (FitSpectrum ω K)}
    (ho : tm.oii = none) (hs : SameFits ρ S tm tm' spectra spectra') : SameFits ρ' S tm tm' spectra spectra' where
  spectype := hs.spectype
  subtype := hs.subtype
  isStar := hs.isStar
  redshifts := hs.redshifts
  nbasis := hs.nbasis
  oii := hs.oii
  pen := by intro t nw h; rw [ho] at h; simp at h
  zero := h _ _ hs.zero
  weight := hs.weight
  batch := by
    intro zs
    have := hs.batch zs
    cases h1 : batchAt S tm spectra zs <;> cases h2 : batchAt S tm' spectra' zs <;> rw [h1, h2] at this
    · exact this
    · exact this
    · exact this
    · exact List.Forall₂.imp (fun a b hab => ⟨hab.1, h _ _ hab.2⟩) this

variable [LinearOrder σ]

/-- **C113** (part) PCA templates without [OII] penalty, exact linear solver: replacing the basis spectra of every template by invertible combinations of them changes nothing in the table of a target except the
coefficients: redshifts, errors, chi2, warnings, types, numbers of coefficients and order stay the same, and it raises in the same cases. -/
theorem C113_basis_partial (c : MeasureCfg K) (templates templates' : List (Tmpl ω K σ)) (spectra : List (FitSpectrum ω K))
    (h : List.Forall₂ (fun tm tm' => ∃ A B, InverseMats tm.nbasis A B ∧ tm' = rebase A tm) templates templates')
    (hS : ∀ tm ∈ templates, tm.algorithm = .pca ∧ tm.oii = none ∧ ExactSolver tm.nbasis c.S.linalgSolve ∧ FitsShaped tm spectra) :
    match measureTarget c templates spectra, measureTarget c templates' spectra with
    | .ok rows, .ok rows' => List.Forall₂ (fun r r' => r' = { r with coeff := r'.coeff } ∧ r'.coeff.length = r.coeff.length) rows rows'
    | .error e, .error e' => e = e'
    | _, _ => False := by
  have := measure_rel (fun c c' : List K => c'.length = c.length) ⟨fun _ _ h => h, fun c c' k h => by simpa using h⟩ c templates templates' spectra spectra (by
    induction h with
    | nil => exact .nil
    | @cons tm tm' l l' hab _ ih =>
      refine .cons ?_ (ih (fun tm ht => hS tm (List.mem_cons_of_mem _ ht)))
      obtain ⟨A, B, hAB, rfl⟩ := hab
      obtain ⟨h1, h2, h3, h4⟩ := hS tm (by simp)
      refine SameFits.mono ?_ h2 (sameFits_rebase c.S tm A B hAB h3 h1 h2 spectra h4)
      rintro c c' ⟨hc, rfl⟩
      simp [matVec, hAB.lenB, hc]) rfl
  cases h1 : measureTarget c templates spectra <;> cases h2 : measureTarget c templates' spectra <;> rw [h1, h2] at this <;> exact this

/-- **C113** the coefficients of the candidates of one template are those of the same spectrum in the new basis: `c' = A⁻¹ c`. -/
theorem C113_coefficients_partial (c : MeasureCfg K) (tm : Tmpl ω K σ) (A B : List (List K)) (spectra : List (FitSpectrum ω K)) (hAB : InverseMats tm.nbasis A B)
    (hS : tm.algorithm = .pca ∧ tm.oii = none ∧ ExactSolver tm.nbasis c.S.linalgSolve ∧ FitsShaped tm spectra) :
    match fitTarget c spectra tm, fitTarget c spectra (rebase A tm) with
    | .ok t, .ok t' => List.Forall₂ (fun q q' => q' = { q with coeff := matVec B q.coeff }) t.cands t'.cands
    | .error e, .error e' => e = e'
    | _, _ => False := by
  obtain ⟨h1, h2, h3, h4⟩ := hS
  have := (sameFits_rebase c.S tm A B hAB h3 h1 h2 spectra h4).fitTarget rfl c rfl
  cases e1 : fitTarget c spectra tm <;> cases e2 : fitTarget c spectra (rebase A tm) <;> rw [e1, e2] at this
  · exact this
  · exact this
  · exact this
  · refine List.Forall₂.imp (fun q q' hq => ?_) this.2.2.2.2
    rw [← hq.2.2]
    exact hq.1

end

/-! ### a concrete case -/
namespace Basis

theorem cramer2_exact : ExactSolver 2 cramer2 where
  sound := by
    intro M y v hM hr hy h
    match M, hM, y, hy with
    | [r1, r2], _, [u, w], _ =>
      have h1 := hr r1 (by simp)
      have h2 := hr r2 (by simp)
      match r1, h1, r2, h2 with
      | [a, b], _, [c, d], _ =>
        simp only [cramer2] at h
        split at h
        · simp at h
        · rename_i hd
          rw [← Except.ok.inj h]
          refine ⟨rfl, ?_⟩
          intro j hj
          have : j = 0 ∨ j = 1 := by omega
          rcases this with rfl | rfl <;> (simp [Finset.sum_range_succ]; rw [mul_div_assoc', mul_div_assoc', ← add_div, div_eq_iff hd]; ring)
  complete := by
    intro M y hM hr hy hns
    match M, hM, y, hy with
    | [r1, r2], _, [u, w], _ =>
      have h1 := hr r1 (by simp)
      have h2 := hr r2 (by simp)
      match r1, h1, r2, h2 with
      | [a, b], _, [c, d], _ =>
        simp only [cramer2]
        split
        · rename_i hd
          exfalso
          have k1 := hns [b, -a] rfl (by
            intro j hj
            have : j = 0 ∨ j = 1 := by omega
            rcases this with rfl | rfl
            · simp [Finset.sum_range_succ]; ring
            · simp [Finset.sum_range_succ]; linarith)
          have k2 := hns [d, -c] rfl (by
            intro j hj
            have : j = 0 ∨ j = 1 := by omega
            rcases this with rfl | rfl
            · simp [Finset.sum_range_succ]; linarith
            · simp [Finset.sum_range_succ]; ring)
          simp [List.replicate] at k1 k2
          have k3 := hns [1, 0] rfl (by
            intro j hj
            have : j = 0 ∨ j = 1 := by omega
            rcases this with rfl | rfl
            · simp [Finset.sum_range_succ, k1.2]
            · simp [Finset.sum_range_succ, k2.2])
          simp [List.replicate] at k3
        · exact ⟨_, rfl⟩
  singular := by
    intro M y hM hr hy hns
    match M, hM, y, hy with
    | [r1, r2], _, [u, w], _ =>
      have h1 := hr r1 (by simp)
      have h2 := hr r2 (by simp)
      match r1, h1, r2, h2 with
      | [a, b], _, [c, d], _ =>
        simp only [cramer2]
        split
        · rfl
        · rename_i hd
          exfalso
          apply hns
          intro v hv hk
          match v, hv with
          | [x, y'], _ =>
            have k0 := hk 0 (by decide)
            have k1 := hk 1 (by decide)
            simp [Finset.sum_range_succ] at k0 k1
            have hx : (a * d - b * c) * x = 0 := by linear_combination d * k0 - b * k1
            have hy' : (a * d - b * c) * y' = 0 := by linear_combination a * k1 - c * k0
            rcases mul_eq_zero.1 hx with h | h
            · exact absurd h hd
            · rcases mul_eq_zero.1 hy' with h' | h'
              · exact absurd h' hd
              · rw [h, h']; rfl

def cfg2 : MeasureCfg ℚ := { Units.cfg with S := ⟨cramer2, cramer2, fun _ _ => cramer2⟩ }

/-- two basis spectra on three pixels, moving with the redshift -/
def tmpl3 : Tmpl Unit ℚ Nat where
  spectype := 0
  subtype := 0
  isStar := false
  redshifts := [0, 1, 2, 3, 4]
  nbasis := 2
  algorithm := .pca
  oii := none
  bin := fun _ zs => .ok (zs.map (fun z => [[1, 0], [1, z - 1], [1, (z - 1) * (z - 3)]]))

def data3 : List (FitSpectrum Unit ℚ) := [⟨(), [1, 3, 0], [1, 2, 1], [[1, 0, 0], [1 / 4, 1 / 2, 1 / 4], [0, 0, 1]]⟩]

def matA : List (List ℚ) := [[2, 1], [1, 1]]
def matB : List (List ℚ) := [[1, -1], [-1, 2]]

theorem inv2 : InverseMats 2 matA matB where
  lenA := rfl
  rowsA := by decide
  lenB := rfl
  rowsB := by decide
  left := by
    intro c hc
    match c, hc with
    | [x, y], _ => simp [matVec, matA, matB, dotv]; constructor <;> ring
  right := by
    intro c hc
    match c, hc with
    | [x, y], _ => simp [matVec, matA, matB, dotv]; constructor <;> ring

/-- the hypotheses of `C113_basis_partial` hold for this template, and these are the tables in the two bases -/
theorem shaped3 : FitsShaped tmpl3 data3 := by
  intro s hs
  simp only [data3, List.mem_singleton] at hs
  subst hs
  refine ⟨rfl, rfl, by decide +kernel, ?_⟩
  intro zs t h
  simp only [tmpl3] at h
  rw [← Except.ok.inj h]
  refine ⟨by simp, ?_⟩
  intro T hT
  obtain ⟨z, _, rfl⟩ := List.mem_map.1 hT
  exact ⟨by simp, by simp [tmpl3]⟩

example : List.Forall₂ (fun tm tm' => ∃ A B, InverseMats tm.nbasis A B ∧ tm' = rebase A tm) [tmpl3] [rebase matA tmpl3] ∧
    ∀ tm ∈ [tmpl3], tm.algorithm = .pca ∧ tm.oii = none ∧ ExactSolver tm.nbasis cfg2.S.linalgSolve ∧ FitsShaped tm data3 := by
  refine ⟨.cons ⟨matA, matB, inv2, rfl⟩ .nil, ?_⟩
  intro tm ht
  rw [List.mem_singleton] at ht
  subst ht
  exact ⟨rfl, rfl, cramer2_exact, shaped3⟩

example : (measureTarget cfg2 [tmpl3] data3).map (List.map (fun r => (r.z, r.chi2, r.coeff))) = .ok [(3, 1 / 2, [1 / 2, 5 / 2]), (1 / 2, 1681 / 562, [1341 / 562, -520 / 281])] ∧
    (measureTarget cfg2 [rebase matA tmpl3] data3).map (List.map (fun r => (r.z, r.chi2, r.coeff))) = .ok [(3, 1 / 2, [-2, 9 / 2]), (1 / 2, 1681 / 562, [2381 / 562, -3421 / 562])] := by
  decide +kernel

/-- `[a, 0]` is the only non-negative least-squares solution -/
theorem nnls_doubled (c : List ℚ) (h : IsNnls 2 ([[2, 2], [2, 4]] : List (List ℚ)) [2, 0] c) : c = [1 / 2, 0] := by
  obtain ⟨hc2, hc3, hc4⟩ := h
  match c, hc2 with
  | [a, b], _ =>
    have ha : 0 ≤ a := hc3 a (by simp)
    have hb : 0 ≤ b := hc3 b (by simp)
    have h := hc4 [1 / 2, 0] rfl (by intro v hv; simp at hv; rcases hv with rfl | rfl <;> norm_num)
    simp [Finset.sum_range_succ] at h
    have hb0 : b = 0 := by
      by_contra hne
      have : 0 < b := lt_of_le_of_ne hb (Ne.symm hne)
      nlinarith [sq_nonneg (2 * a - 1 + 3 * b), sq_nonneg b]
    subst hb0
    have ha0 : a = 1 / 2 := by nlinarith [sq_nonneg (2 * a - 1)]
    rw [ha0]

/-- **C113** refuted for NMF templates: two pixels of weight 1 with fluxes 2 and 0, basis spectra `(1,1)` and `(0,1)`, any correct NNLS solver. The fit uses the first basis spectrum only and has chi2 52/25. If the second
basis spectrum, which the fit does not use, is given in other units (doubled), the chi2 becomes 5/2: the normalisation of the basis changes the chi2, because NNLS runs on the normal equations. -/
theorem C113_nmf_refuted (S : Solvers ℚ) (h1 : ∃ c, S.nnls [[2, 1], [1, 1]] [2, 0] = .ok c ∧ IsNnls 2 [[2, 1], [1, 1]] [2, 0] c)
    (h2 : ∃ c, S.nnls [[2, 2], [2, 4]] [2, 0] = .ok c ∧ IsNnls 2 [[2, 2], [2, 4]] [2, 0] c) :
    let tm : Tmpl Nat ℚ Nat := { spectype := 0, subtype := 0, isStar := false, redshifts := [], nbasis := 2, algorithm := .nmf, oii := none, bin := fun _ zs => .ok (zs.map (fun _ => [[1, 0], [1, 1]])) }
    let s : FitSpectrum Nat ℚ := { wavehash := 0, flux := [2, 0], ivar := [1, 1], R := [[1, 0], [0, 1]] }
    fineScan S tm [s] [0] = .ok [52 / 25] ∧ fineScan S (rebase [[1, 0], [0, 2]] tm) [s] [0] = .ok [5 / 2] := by
  intro tm s
  have e1 := (C62_nmf_not_minimal S h1).1
  obtain ⟨c, hc, hn⟩ := h2
  obtain rfl := nnls_doubled c hn
  constructor
  · show (calcZchi2Batch (solveMatrices S .nmf none) [s] [(0, [[[1, 0], [1, 1]]])] (spectralData [s]).1 (spectralData [s]).2.1 (spectralData [s]).2.2 1 2 none >>= fun r => (Except.ok (r.map (·.1)) : Py (List ℚ))) = _
    rw [e1]
    rfl
  · have hb : binAll (rebase [[1, 0], [0, 2]] tm) (hashesOf [s]) [0] = .ok [(0, [[[1, 0], [1, 2]]])] := by
      have : (binAll (rebase [[1, 0], [0, 2]] tm) (hashesOf [s]) [0] : Py (List (Nat × List (List (List ℚ))))) = .ok [(0, [[[1, 0], [1, 2]]])] := by decide +kernel
      exact this
    show (binAll (rebase [[1, 0], [0, 2]] tm) (hashesOf [s]) [0] >>= fun b => calcZchi2Batch (solveMatrices S .nmf none) [s] b (spectralData [s]).1 (spectralData [s]).2.1 (spectralData [s]).2.2 1 2 none >>=
      fun r => (Except.ok (r.map (·.1)) : Py (List ℚ))) = _
    rw [hb]
    show (calcZchi2Batch (solveMatrices S .nmf none) [s] [(0, [[[1, 0], [1, 2]]])] (spectralData [s]).1 (spectralData [s]).2.1 (spectralData [s]).2.2 1 2 none >>= fun r => (Except.ok (r.map (·.1)) : Py (List ℚ))) = _
    have hM : normalM ([[1, 0], [1, 2]] : List (List ℚ)) [1, 1] 2 = [[2, 2], [2, 4]] := by decide +kernel
    have hy : normalY ([[1, 0], [1, 2]] : List (List ℚ)) [2, 0] 2 = [2, 0] := by decide +kernel
    have hfit : fitOne (solveMatrices S .nmf none) ([[1, 0], [1, 2]] : List (List ℚ)) [1, 1] [2, 0] [2, 0] 2 none = .ok (5 / 2, [1 / 2, 0]) := by
      unfold fitOne
      simp only [addPrior]
      rw [hM, hy]
      simp only [solveMatrices, hc]
      congr 2
      decide +kernel
    have hd : (dotProductSparseOne [s] [(0, [[[1, 0], [1, 2]]])] 2 0 : Py (List (List ℚ))) = .ok [[1, 0], [1, 2]] := by decide +kernel
    have hsd : (spectralData [s]) = ([1, 1], [2, 0], [2, 0]) := by decide +kernel
    have : calcZchi2Batch (solveMatrices S .nmf none) [s] [(0, [[[1, 0], [1, 2]]])] (spectralData [s]).1 (spectralData [s]).2.1 (spectralData [s]).2.2 1 2 none = .ok [(5 / 2, [1 / 2, 0])] := by
      rw [hsd]
      unfold calcZchi2Batch
      rw [if_neg (by decide +kernel)]
      show (List.mapM (fun i => dotProductSparseOne [s] [(0, [[[1, 0], [1, 2]]])] 2 i >>= fun Tb => fitOne (solveMatrices S .nmf none) Tb [1, 1] [2, 0] [2, 0] 2 none) [0] : Py _) = _
      rw [List.mapM_cons, hd]
      show (fitOne (solveMatrices S .nmf none) ([[1, 0], [1, 2]] : List (List ℚ)) [1, 1] [2, 0] [2, 0] 2 none >>= _) = _
      rw [hfit]
      rfl
    rw [this]
    rfl

/-- such a solution exists -/
example : IsNnls 2 ([[2, 2], [2, 4]] : List (List ℚ)) [2, 0] [1 / 2, 0] := by
  refine ⟨rfl, by intro v hv; simp at hv; rcases hv with rfl | rfl <;> norm_num, ?_⟩
  intro c' hc' hpos
  match c', hc' with
  | [a, b], _ =>
    have ha : 0 ≤ a := hpos a (by simp)
    have hb : 0 ≤ b := hpos b (by simp)
    simp [Finset.sum_range_succ]
    nlinarith [sq_nonneg (2 * a - 1 + 3 * b), sq_nonneg b]

end Basis
end Redrock
