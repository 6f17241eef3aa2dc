import Verif.Lemmas.MeasureRel

/-!
Data in other flux units: the normal equations, the chi2 and the measurement.
-/
namespace Redrock
set_option linter.unusedSectionVars false

/-- Specification: the same spectrum in other flux units. -/
def scaleSpec {ω K : Type} [Field K] (a : K) (s : FitSpectrum ω K) : FitSpectrum ω K := { s with flux := s.flux.map (fun f => a * f), ivar := s.ivar.map (fun v => v / a ^ 2) }

/-- Specification of a solver of the normal equations whose answer follows a change of units: if the matrix is divided by `a²` and the right-hand side by `a`, the coefficients are multiplied by `a`, and
it raises in the same cases. -/
def ScaleEquivariant {K : Type} [Field K] (n : Nat) (a : K) (solve : List (List K) → List K → Py (List K)) : Prop :=
  ∀ M y, M.length = n → (∀ r ∈ M, r.length = n) → y.length = n →
    solve (M.map (fun r => r.map (fun v => v / a ^ 2))) (y.map (fun v => v / a)) = (solve M y).map (fun c => c.map (fun v => a * v))

section
variable {ω K σ : Type} [DecidableEq ω] [Field K] [LinearOrder K] [IsStrictOrderedRing K]

theorem dotv_scale_right (a : K) (u v : List K) : dotv u (v.map (fun x => a * x)) = a * dotv u v := by
  unfold dotv
  induction u generalizing v with
  | nil => simp
  | cons x u ih =>
    cases v with
    | nil => simp
    | cons y v =>
      simp only [List.map_cons, List.zipWith_cons_cons, List.sum_cons, ih]
      ring

theorem dotv_nil_left (v : List K) : dotv ([] : List K) v = 0 := by simp [dotv]
theorem dotv_nil_right (v : List K) : dotv v ([] : List K) = 0 := by cases v <;> simp [dotv]

theorem dotv_cons' (x y : K) (u v : List K) : dotv (x :: u) (y :: v) = x * y + dotv u v := by simp [dotv]

theorem normalM_scale (a : K) (Tb : List (List K)) (w : List K) (n : Nat) : normalM Tb (w.map (fun v => v / a ^ 2)) n = (normalM Tb w n).map (fun r => r.map (fun v => v / a ^ 2)) := by
  unfold normalM
  rw [List.map_map]
  apply List.map_congr_left
  intro j _
  simp only [Function.comp, List.map_map]
  apply List.map_congr_left
  intro k _
  simp only [Function.comp]
  induction Tb generalizing w with
  | nil => simp [col, dotv]
  | cons t Tb ih =>
    cases w with
    | nil => simp [dotv]
    | cons w0 w =>
      have := ih w
      simp only [col, List.map_cons, List.zipWith_cons_cons, dotv_cons'] at this ⊢
      rw [this]
      ring

theorem wflux_scale (a : K) (ha : a ≠ 0) (w f : List K) : List.zipWith (· * ·) (w.map (fun v => v / a ^ 2)) (f.map (fun v => a * v)) = (List.zipWith (· * ·) w f).map (fun v => v / a) := by
  induction w generalizing f with
  | nil => simp
  | cons w0 w ih =>
    cases f with
    | nil => simp
    | cons f0 f =>
      simp only [List.map_cons, List.zipWith_cons_cons, ih]
      congr 1
      field_simp

theorem normalY_scale (a : K) (Tb : List (List K)) (wf : List K) (n : Nat) : normalY Tb (wf.map (fun v => v / a)) n = (normalY Tb wf n).map (fun v => v / a) := by
  unfold normalY
  rw [List.map_map]
  apply List.map_congr_left
  intro j _
  have : wf.map (fun v => v / a) = wf.map (fun v => a⁻¹ * v) := by
    apply List.map_congr_left
    intro v _
    rw [div_eq_mul_inv, mul_comm]
  rw [this, dotv_scale_right]
  simp only [Function.comp]
  rw [div_eq_mul_inv, mul_comm]

theorem chi2_scale (a : K) (ha : a ≠ 0) (Tb : List (List K)) (w f c : List K) :
    dotv ((List.zipWith (· - ·) (f.map (fun v => a * v)) (matVec Tb (c.map (fun v => a * v)))).map (fun r => r ^ 2)) (w.map (fun v => v / a ^ 2)) =
      dotv ((List.zipWith (· - ·) f (matVec Tb c)).map (fun r => r ^ 2)) w := by
  induction f generalizing Tb w with
  | nil => simp [dotv]
  | cons f0 f ih =>
    cases Tb with
    | nil => simp [matVec, dotv]
    | cons t Tb =>
      cases w with
      | nil => simp [dotv]
      | cons w0 w =>
        have := ih Tb w
        simp only [matVec, List.map_cons, List.zipWith_cons_cons, dotv_cons'] at this ⊢
        rw [this, dotv_scale_right]
        congr 1
        field_simp

theorem map_eq_ok {α β : Type} {f : α → β} {x : Py α} : x.map f = (match x with | .ok a => .ok (f a) | .error e => .error e) := by cases x <;> rfl

theorem fitOne_scale (a : K) (ha : a ≠ 0) (solve : List (List K) → List K → Py (List K)) (n : Nat) (hs : ScaleEquivariant n a solve) (Tb : List (List K)) (w f : List K) :
    fitOne solve Tb (w.map (fun v => v / a ^ 2)) (f.map (fun v => a * v)) (List.zipWith (· * ·) (w.map (fun v => v / a ^ 2)) (f.map (fun v => a * v))) n none =
      (fitOne solve Tb w f (List.zipWith (· * ·) w f) n none).map (fun q => (q.1, q.2.map (fun v => a * v))) := by
  unfold fitOne addPrior
  simp only
  rw [wflux_scale a ha, normalM_scale, normalY_scale, hs _ _ (by simp [normalM]) (by
    intro r hr
    unfold normalM at hr
    obtain ⟨j, _, rfl⟩ := List.mem_map.1 hr
    simp) (by simp [normalY])]
  cases solve (normalM Tb w n) (normalY Tb (List.zipWith (· * ·) w f) n) with
  | ok c =>
    show Except.ok _ = Except.ok _
    rw [chi2_scale a ha]
  | error e =>
    cases e <;> first
      | rfl
      | (show Except.ok _ = Except.ok _; simp)

theorem flatMap_scale_ivar (a : K) (spectra : List (FitSpectrum ω K)) : (spectra.map (scaleSpec a)).flatMap (·.ivar) = (spectra.flatMap (·.ivar)).map (fun v => v / a ^ 2) := by
  induction spectra with
  | nil => rfl
  | cons s l ih => simp only [List.map_cons, List.flatMap_cons, ih, List.map_append]; rfl

theorem flatMap_scale_flux (a : K) (spectra : List (FitSpectrum ω K)) : (spectra.map (scaleSpec a)).flatMap (·.flux) = (spectra.flatMap (·.flux)).map (fun v => a * v) := by
  induction spectra with
  | nil => rfl
  | cons s l ih => simp only [List.map_cons, List.flatMap_cons, ih, List.map_append]; rfl

theorem sum_scale (a : K) (w : List K) : (w.map (fun v => v / a ^ 2)).sum = w.sum / a ^ 2 := by
  induction w with
  | nil => simp
  | cons x w ih => simp only [List.map_cons, List.sum_cons, ih]; ring

theorem dotProductSparseOne_scale (a : K) (spectra : List (FitSpectrum ω K)) (b : PyDict ω (List (List (List K)))) (n i : Nat) : dotProductSparseOne (spectra.map (scaleSpec a)) b n i = dotProductSparseOne spectra b n i := by
  unfold dotProductSparseOne
  rw [mapM_map']
  rfl

theorem mapM_except_map {α β γ : Type} (f : α → Py β) (g : β → γ) (l : List α) : l.mapM (fun x => (f x).map g) = (l.mapM f).map (List.map g) := by
  induction l with
  | nil => rfl
  | cons x l ih =>
    rw [List.mapM_cons, List.mapM_cons, ih]
    cases f x with
    | error e => rfl
    | ok b =>
      cases l.mapM f with
      | error e => rfl
      | ok bs => rfl

theorem batchAt_scale (a : K) (ha : a ≠ 0) (S : Solvers K) (tm : Tmpl ω K σ) (hs : ScaleEquivariant tm.nbasis a (solveMatrices S tm.algorithm none)) (spectra : List (FitSpectrum ω K)) (zs : List K) :
    batchAt S tm (spectra.map (scaleSpec a)) zs = (batchAt S tm spectra zs).map (List.map (fun q => (q.1, q.2.map (fun v => a * v)))) := by
  unfold batchAt
  have hh : hashesOf (spectra.map (scaleSpec a)) = hashesOf spectra := by
    unfold hashesOf
    rw [List.map_map]
    rfl
  rw [hh]
  cases binAll tm (hashesOf spectra) zs with
  | error e => rfl
  | ok b =>
    show calcZchi2Batch _ _ _ _ _ _ _ _ _ = Except.map _ (calcZchi2Batch _ _ _ _ _ _ _ _ _)
    simp only [spectralData, flatMap_scale_ivar, flatMap_scale_flux]
    unfold calcZchi2Batch
    rw [sum_scale]
    have ha2 : a ^ 2 ≠ 0 := pow_ne_zero 2 ha
    by_cases h0 : (spectra.flatMap (·.ivar)).sum = 0
    · rw [if_pos h0, if_pos (by rw [h0, zero_div])]
      show Except.ok _ = Except.ok _
      simp
    · rw [if_neg h0, if_neg (div_ne_zero h0 ha2), ← mapM_except_map]
      apply mapM_congr'
      intro i _
      rw [dotProductSparseOne_scale]
      cases dotProductSparseOne spectra b tm.nbasis i with
      | error e => rfl
      | ok Tb => exact fitOne_scale a ha _ _ hs Tb _ _

theorem npixelsOf_scale (a : K) (ha : a ≠ 0) (spectra : List (FitSpectrum ω K)) : npixelsOf (spectra.map (scaleSpec a)) = npixelsOf spectra := by
  unfold npixelsOf
  rw [List.map_map]
  apply congrArg List.sum
  apply List.map_congr_left
  intro s _
  show ((s.ivar.map (fun v => v / a ^ 2)).filter (fun v => decide (0 < v))).length = _
  rw [List.filter_map, List.length_map]
  congr 1
  apply List.filter_congr
  intro v _
  have : 0 < a ^ 2 := by positivity
  simp only [Function.comp]
  apply decide_eq_decide.2
  exact div_pos_iff_of_pos_right this

theorem sameFits_scale (a : K) (ha : a ≠ 0) (S : Solvers K) (tm : Tmpl ω K σ) (hs : ScaleEquivariant tm.nbasis a (solveMatrices S tm.algorithm none)) (ho : tm.oii = none) (spectra : List (FitSpectrum ω K)) :
    SameFits (fun c c' => c' = c.map (fun v => a * v)) S tm tm spectra (spectra.map (scaleSpec a)) where
  spectype := rfl
  subtype := rfl
  isStar := rfl
  redshifts := rfl
  nbasis := rfl
  oii := rfl
  pen := by intro t nw h; rw [ho] at h; simp at h
  zero := by simp
  weight := by
    rw [flatMap_scale_ivar, sum_scale]
    constructor
    · intro h; rw [h, zero_div]
    · intro h
      rcases div_eq_zero_iff.1 h with h | h
      · exact h
      · exact absurd h (pow_ne_zero 2 ha)
  batch := by
    intro zs
    rw [batchAt_scale a ha S tm hs]
    cases batchAt S tm spectra zs with
    | error e => rfl
    | ok r =>
      show List.Forall₂ _ r (r.map _)
      rw [List.forall₂_map_right_iff]
      exact List.forall₂_same.2 (fun _ _ => ⟨rfl, rfl⟩)

theorem rel_rows_eq (g : List K → List K) {x y : Py (List (Row K σ))} (h : RelPy (List.Forall₂ (RowRel (fun c c' => c' = g c))) x y) : y = x.map (List.map (fun r => { r with coeff := g r.coeff })) := by
  cases x with
  | error e =>
    cases y with
    | error e' => rw [show e = e' from h]; rfl
    | ok b => exact h.elim
  | ok a =>
    cases y with
    | error e' => exact h.elim
    | ok b =>
      show Except.ok _ = Except.ok _
      congr 1
      have h' : List.Forall₂ (RowRel (fun c c' => c' = g c)) a b := h
      clear h
      induction h' with
      | nil => rfl
      | cons hab _ ih =>
        rw [List.map_cons, ← ih]
        congr 1
        rw [← hab.2]
        exact hab.1

end
end Redrock
