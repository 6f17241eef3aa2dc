import Verif.Lemmas.MeasureRel
import Verif.Props.Coadd
import Verif.Props.Table

/-!
The measurement depends on the spectra only through their informative pixels.
-/
namespace Redrock
set_option linter.unusedSectionVars false

section
variable {ω K σ : Type} [DecidableEq ω] [Field K] [LinearOrder K] [IsStrictOrderedRing K]

/-- Specification: the pixels of the spectra with non-zero inverse variance: wavelength grid, inverse variance, flux, row of the resolution matrix. -/
def informative (spectra : List (FitSpectrum ω K)) : List (ω × K × K × List K) :=
  (spectra.flatMap (fun s => (s.ivar.zip (s.flux.zip s.R)).map (fun p => (s.wavehash, p)))).filter (fun p => decide (p.2.1 ≠ 0))

/-- Specification: as many inverse variances and resolution rows as fluxes; rebinning the template onto the grid of a spectrum gives one matrix per redshift, or raises `ValueError`. -/
def Fits (tm : Tmpl ω K σ) (spectra : List (FitSpectrum ω K)) : Prop :=
  ∀ s ∈ spectra, s.ivar.length = s.flux.length ∧ s.R.length = s.flux.length ∧
    ∀ zs, (∀ t, tm.bin s.wavehash zs = .ok t → t.length = zs.length) ∧ ∀ e, tm.bin s.wavehash zs = .error e → e = .valueError

/-- The binned template at the `i`th redshift. -/
def binAt (tm : Tmpl ω K σ) (zs : List K) (i : Nat) (h : ω) : List (List K) :=
  match tm.bin h zs with
  | .ok t => t.getD i []
  | .error _ => []

theorem mem_hashesOf (spectra : List (FitSpectrum ω K)) (h : ω) : h ∈ hashesOf spectra ↔ ∃ s ∈ spectra, s.wavehash = h := by
  unfold hashesOf
  rw [firstSeen_eq, mem_distinctKeys, List.mem_map]

theorem binAll_get (tm : Tmpl ω K σ) (hs : List ω) (zs : List K) (b : PyDict ω (List (List (List K)))) (h : binAll tm hs zs = .ok b) (k : ω) (hk : k ∈ hs) :
    ∃ t, tm.bin k zs = .ok t ∧ b.get? k = some t := by
  induction hs generalizing b with
  | nil => simp at hk
  | cons x hs ih =>
    unfold binAll at h ih
    rw [List.mapM_cons] at h
    cases hx : tm.bin x zs with
    | error e => rw [hx] at h; simp [bind, Except.bind] at h
    | ok t =>
      rw [hx] at h
      cases hr : (hs.mapM (fun h => do
          let t ← tm.bin h zs
          return (h, t)) : Py (List (ω × List (List (List K))))) with
      | error e =>
        exfalso
        have : (Except.error e : Py (PyDict ω (List (List (List K))))) = .ok b := by
          rw [← h]
          show _ = ((hs.mapM (fun h => do
            let t ← tm.bin h zs
            return (h, t)) : Py (List (ω × List (List (List K))))) >>= fun r => Except.ok ((x, t) :: r))
          rw [hr]; rfl
        simp at this
      | ok r =>
        have hb : b = (x, t) :: r := by
          have : (Except.ok ((x, t) :: r) : Py (PyDict ω (List (List (List K))))) = .ok b := by
            rw [← h]
            show _ = ((hs.mapM (fun h => do
              let t ← tm.bin h zs
              return (h, t)) : Py (List (ω × List (List (List K))))) >>= fun r => Except.ok ((x, t) :: r))
            rw [hr]; rfl
          exact (Except.ok.inj this).symm
        subst hb
        by_cases he : x = k
        · subst he
          exact ⟨t, hx, by simp [PyDict.get?]⟩
        · have hk' : k ∈ hs := by
            rcases List.mem_cons.1 hk with h | h
            · exact absurd h.symm he
            · exact h
          obtain ⟨t', h1, h2⟩ := ih r hr hk'
          refine ⟨t', h1, ?_⟩
          simp only [PyDict.get?] at h2 ⊢
          rw [List.find?_cons_of_neg (by simpa using he)]
          exact h2

theorem binAll_cases (tm : Tmpl ω K σ) (spectra : List (FitSpectrum ω K)) (hf : Fits tm spectra) (zs : List K) :
    (∃ b, binAll tm (hashesOf spectra) zs = .ok b ∧ (∀ i, i < zs.length → HasTemplate spectra b i (binAt tm zs i)) ∧ ¬ ∃ s ∈ spectra, ∃ e, tm.bin s.wavehash zs = .error e) ∨
      (binAll tm (hashesOf spectra) zs = .error .valueError ∧ ∃ s ∈ spectra, ∃ e, tm.bin s.wavehash zs = .error e) := by
  by_cases hex : ∃ s ∈ spectra, ∃ e, tm.bin s.wavehash zs = .error e
  · right
    refine ⟨?_, hex⟩
    obtain ⟨s, hs, e, he⟩ := hex
    unfold binAll
    apply mapM_Except_error _ _ _ _ s.wavehash ((mem_hashesOf spectra _).2 ⟨s, hs, rfl⟩) ⟨e, by rw [he]; rfl⟩
    intro h hh e' he'
    obtain ⟨s', hs', rfl⟩ := (mem_hashesOf spectra _).1 hh
    cases hb : tm.bin s'.wavehash zs with
    | ok t => rw [hb] at he'; simp [bind, Except.bind, pure, Except.pure] at he'
    | error e2 =>
      rw [hb] at he'
      rw [← ((hf s' hs').2.2 zs).2 e2 hb]
      exact (Except.error.inj he').symm
  · left
    have hok : ∀ h ∈ hashesOf spectra, ∃ q : ω × List (List (List K)), (do
        let t ← tm.bin h zs
        return (h, t) : Py (ω × List (List (List K)))) = .ok q ∧ True := by
      intro h hh
      obtain ⟨s, hs, rfl⟩ := (mem_hashesOf spectra _).1 hh
      cases hb : tm.bin s.wavehash zs with
      | ok t => exact ⟨(s.wavehash, t), rfl, trivial⟩
      | error e => exact absurd ⟨s, hs, e, hb⟩ hex
    obtain ⟨b, hb, _⟩ := mapM_forall₂ _ (fun _ _ => True) _ hok
    refine ⟨b, hb, ?_, hex⟩
    intro i hi s hs
    obtain ⟨t, h1, h2⟩ := binAll_get tm _ zs b hb s.wavehash ((mem_hashesOf spectra _).2 ⟨s, hs, rfl⟩)
    refine ⟨t, h2, ?_⟩
    have hl := ((hf s hs).2.2 zs).1 t h1
    unfold binAt
    rw [h1]
    have hit : i < t.length := by omega
    simp [hit]

/-- the pixels of the fit, from the data pixels -/
theorem pix_of_data (T : ω → List (List K)) (n : Nat) (spectra : List (FitSpectrum ω K)) :
    spectra.flatMap (pixOf T n) = (spectra.flatMap (fun s => (s.ivar.zip (s.flux.zip s.R)).map (fun p => (s.wavehash, p)))).map
      (fun q => (q.2.1, q.2.2.1, (List.range n).map (fun b => dotv q.2.2.2 (col (T q.1) b)))) := by
  rw [List.map_flatMap]
  apply List.flatMap_congr
  intro s _
  unfold pixOf matMul
  rw [List.map_map, List.zip_map_right, List.zip_map_right]
  apply List.map_congr_left
  rintro ⟨a, b, c⟩ _
  rfl

theorem sum_informative (g : ω × K × K × List K → K) (l : List (ω × K × K × List K)) : (l.map (fun q => q.2.1 * g q)).sum = ((l.filter (fun p => decide (p.2.1 ≠ 0))).map (fun q => q.2.1 * g q)).sum := by
  induction l with
  | nil => rfl
  | cons q l ih =>
    rw [List.map_cons, List.sum_cons, ih, List.filter_cons]
    by_cases h : q.2.1 = 0
    · simp [h]
    · simp [h]

/-- two observations with the same informative pixels have the same weighted sums -/
theorem sum_same {spectra spectra' : List (FitSpectrum ω K)} (hp : (informative spectra).Perm (informative spectra')) (T : ω → List (List K)) (n : Nat) (g : Pix K → K) :
    ((spectra.flatMap (pixOf T n)).map (fun p => p.1 * g p)).sum = ((spectra'.flatMap (pixOf T n)).map (fun p => p.1 * g p)).sum := by
  rw [pix_of_data, pix_of_data, List.map_map, List.map_map]
  have e := fun l : List (ω × K × K × List K) => sum_informative (fun q => g (q.2.1, q.2.2.1, (List.range n).map (fun b => dotv q.2.2.2 (col (T q.1) b)))) l
  refine (e _).trans (Eq.trans ?_ (e _).symm)
  exact (hp.map _).sum_eq

theorem pixOf_flatMap' (T : ω → List (List K)) (n : Nat) (spectra : List (FitSpectrum ω K)) (h : ∀ s ∈ spectra, s.ivar.length = s.flux.length ∧ s.R.length = s.flux.length) :
    (spectra.flatMap (pixOf T n)).map (·.1) = spectra.flatMap (·.ivar) ∧ (spectra.flatMap (pixOf T n)).map (·.2.1) = spectra.flatMap (·.flux) ∧
      (spectra.flatMap (pixOf T n)).map (·.2.2) = spectra.flatMap (fun s => matMul s.R (T s.wavehash) n) := by
  simp only [List.map_flatMap]
  refine ⟨?_, ?_, ?_⟩ <;>
  · apply List.flatMap_congr
    intro s hs
    obtain ⟨q1, q2, q3⟩ := pixOf_maps T n s (h s hs).1 (h s hs).2
    assumption

/-- one redshift -/
theorem fitOne_same (solve : List (List K) → List K → Py (List K)) (n : Nat) (P P' : List (Pix K)) (h : ∀ g : Pix K → K, (P.map (fun p => p.1 * g p)).sum = (P'.map (fun p => p.1 * g p)).sum) :
    fitOne solve (P.map (·.2.2)) (P.map (·.1)) (P.map (·.2.1)) (List.zipWith (· * ·) (P.map (·.1)) (P.map (·.2.1))) n none =
      fitOne solve (P'.map (·.2.2)) (P'.map (·.1)) (P'.map (·.2.1)) (List.zipWith (· * ·) (P'.map (·.1)) (P'.map (·.2.1))) n none := by
  unfold fitOne
  have h1 : normalM (P.map (·.2.2)) (P.map (·.1)) n = normalM (P'.map (·.2.2)) (P'.map (·.1)) n := by
    unfold normalM
    apply List.map_congr_left
    intro j _
    apply List.map_congr_left
    intro k _
    rw [normalM_pixels, normalM_pixels]
    have := h (fun p => p.2.2.getD j 0 * p.2.2.getD k 0)
    simpa only [← mul_assoc] using this
  have h2 : normalY (P.map (·.2.2)) (List.zipWith (· * ·) (P.map (·.1)) (P.map (·.2.1))) n = normalY (P'.map (·.2.2)) (List.zipWith (· * ·) (P'.map (·.1)) (P'.map (·.2.1))) n := by
    unfold normalY
    apply List.map_congr_left
    intro j _
    rw [normalY_pixels, normalY_pixels]
    have := h (fun p => p.2.2.getD j 0 * p.2.1)
    simpa only [← mul_assoc] using this
  simp only [addPrior]
  rw [h1, h2]
  have h3 : ∀ c, dotv ((List.zipWith (· - ·) (P.map (·.2.1)) (matVec (P.map (·.2.2)) c)).map (fun r => r ^ 2)) (P.map (·.1)) =
      dotv ((List.zipWith (· - ·) (P'.map (·.2.1)) (matVec (P'.map (·.2.2)) c)).map (fun r => r ^ 2)) (P'.map (·.1)) := by
    intro c
    rw [chi2_pixels, chi2_pixels]
    exact h (fun p => (p.2.1 - dotv p.2.2 c) ^ 2)
  split <;> first
    | rfl
    | (rw [h3])

theorem ivar_sum_same {spectra spectra' : List (FitSpectrum ω K)} (hp : (informative spectra).Perm (informative spectra')) (hs : ∀ s ∈ spectra, s.ivar.length = s.flux.length ∧ s.R.length = s.flux.length)
    (hs' : ∀ s ∈ spectra', s.ivar.length = s.flux.length ∧ s.R.length = s.flux.length) : (spectra.flatMap (·.ivar)).sum = (spectra'.flatMap (·.ivar)).sum := by
  have := sum_same hp (fun _ => []) 0 (fun _ => 1)
  simp only [mul_one] at this
  rw [← (pixOf_flatMap' (fun _ => []) 0 spectra hs).1, ← (pixOf_flatMap' (fun _ => []) 0 spectra' hs').1]
  exact this

theorem length_filter_flatMap {α β : Type} (f : α → List β) (p : β → Bool) (l : List α) : ((l.flatMap f).filter p).length = (l.map (fun a => ((f a).filter p).length)).sum := by
  induction l with
  | nil => rfl
  | cons a l ih => rw [List.flatMap_cons, List.filter_append, List.length_append, ih]; rfl

theorem npixels_informative (spectra : List (FitSpectrum ω K)) (hs : ∀ s ∈ spectra, s.ivar.length = s.flux.length ∧ s.R.length = s.flux.length) :
    npixelsOf spectra = ((informative spectra).filter (fun q => decide (0 < q.2.1))).length := by
  unfold informative
  rw [List.filter_filter]
  rw [length_filter_flatMap]
  unfold npixelsOf
  apply congrArg List.sum
  apply List.map_congr_left
  intro s h
  have hz : (s.ivar.zip (s.flux.zip s.R)).map Prod.fst = s.ivar := List.map_fst_zip (by simp [(hs s h).1, (hs s h).2])
  conv_lhs => rw [← hz]
  rw [List.filter_map, List.length_map, List.filter_map, List.length_map]
  congr 1
  apply List.filter_congr
  intro q _
  simp only [Function.comp]
  by_cases h0 : 0 < q.1
  · simp [h0, h0.ne']
  · simp [h0]

theorem sameFits_data (S : Solvers K) (tm : Tmpl ω K σ) {spectra spectra' : List (FitSpectrum ω K)} (hf : Fits tm spectra) (hf' : Fits tm spectra') (hp : (informative spectra).Perm (informative spectra'))
    (hg : ∀ zs, (∃ s ∈ spectra, ∃ e, tm.bin s.wavehash zs = .error e) ↔ (∃ s ∈ spectra', ∃ e, tm.bin s.wavehash zs = .error e)) : SameFits Eq S tm tm spectra spectra' where
  spectype := rfl
  subtype := rfl
  isStar := rfl
  redshifts := rfl
  nbasis := rfl
  oii := rfl
  pen := by rintro t nw _ c c' rfl; rfl
  zero := rfl
  weight := by rw [ivar_sum_same hp (fun s hs => ⟨(hf s hs).1, (hf s hs).2.1⟩) (fun s hs => ⟨(hf' s hs).1, (hf' s hs).2.1⟩)]
  batch := by
    intro zs
    have hs : ∀ s ∈ spectra, s.ivar.length = s.flux.length ∧ s.R.length = s.flux.length := fun s hs => ⟨(hf s hs).1, (hf s hs).2.1⟩
    have hs' : ∀ s ∈ spectra', s.ivar.length = s.flux.length ∧ s.R.length = s.flux.length := fun s hs => ⟨(hf' s hs).1, (hf' s hs).2.1⟩
    have key : batchAt S tm spectra zs = batchAt S tm spectra' zs := by
      unfold batchAt
      rcases binAll_cases tm spectra hf zs with ⟨b, hb, hT, hno⟩ | ⟨hb, hex⟩
      · rcases binAll_cases tm spectra' hf' zs with ⟨b', hb', hT', _⟩ | ⟨_, hex'⟩
        · rw [hb, hb']
          show calcZchi2Batch _ _ _ _ _ _ _ _ _ = calcZchi2Batch _ _ _ _ _ _ _ _ _
          unfold calcZchi2Batch
          simp only [show ∀ sp : List (FitSpectrum ω K), (spectralData sp).1 = sp.flatMap (·.ivar) from fun _ => rfl]
          rw [ivar_sum_same hp hs hs']
          split
          · rfl
          · apply mapM_congr'
            intro i hi
            rw [dotProductSparseOne_eq (hT i (List.mem_range.1 hi)), dotProductSparseOne_eq (hT' i (List.mem_range.1 hi))]
            show fitOne _ _ _ _ _ _ _ = fitOne _ _ _ _ _ _ _
            obtain ⟨m1, m2, m3⟩ := pixOf_flatMap' (binAt tm zs i) tm.nbasis spectra hs
            obtain ⟨m1', m2', m3'⟩ := pixOf_flatMap' (binAt tm zs i) tm.nbasis spectra' hs'
            simp only [spectralData]
            rw [← m1, ← m2, ← m3, ← m1', ← m2', ← m3']
            exact fitOne_same _ _ _ _ (fun g => sum_same hp _ _ g)
        · exact absurd ((hg zs).2 hex') hno
      · rcases binAll_cases tm spectra' hf' zs with ⟨b', hb', hT', hno'⟩ | ⟨hb', _⟩
        · exact absurd ((hg zs).1 hex) hno'
        · rw [hb, hb']; rfl
    rw [key]
    exact RelPy.refl (fun r => List.forall₂_same.2 (fun _ _ => ⟨rfl, rfl⟩)) _

end
end Redrock
