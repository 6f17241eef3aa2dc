import Verif.Model.Coadd
import Verif.Props.Rebin
import Verif.Lemmas.Details
import Mathlib.Algebra.BigOperators.Group.Finset.Basic

/-!
C41, C42: coadds; C70: coadded resolution; C71: bands of a coadded target.
-/
set_option linter.unusedSectionVars false
namespace Redrock

section
variable {ω β K : Type} [DecidableEq ω] [Field K] [LinearOrder K]

/-! ### Specification -/

/-- The different keys in order of first appearance. -/
def distinctKeys : List ω → List ω
  | [] => []
  | k :: ks => k :: (distinctKeys ks).filter (fun x => decide (x ≠ k))

/-- Arrays have the length of the wavelength grid, one diagonal per offset. -/
def ShapedExp (e : Spectrum ω β K) : Prop :=
  e.flux.length = e.wave.length ∧ e.ivar.length = e.wave.length ∧ e.R.data.length = e.R.offsets.length ∧ ∀ r ∈ e.R.data, r.length = e.wave.length

/-- Exposures with the same wavehash have the same grid, diagonals and band. -/
def Compatible (spectra : List (Spectrum ω β K)) : Prop :=
  ∀ e ∈ spectra, ∀ e' ∈ spectra, e.wavehash = e'.wavehash → e.wave = e'.wave ∧ e.R.offsets = e'.R.offsets ∧ e.band = e'.band

/-- Sum over exposures. -/
def sumOver (es : List (Spectrum ω β K)) (f : Spectrum ω β K → K) : K := (es.map f).sum

/-- `c` is the coadd of the exposures `es`, with weights `w e j` for exposure `e` and pixel `j`. -/
structure IsCoadd (c : Spectrum ω β K) (es : List (Spectrum ω β K)) : Prop where
  grid : ∀ e ∈ es, c.wave = e.wave ∧ c.band = e.band ∧ c.R.offsets = e.R.offsets
  shaped : ShapedExp c
  weighted : ∀ j < c.wave.length, sumOver es (fun e => e.ivar.getD j 0) ≠ 0 →
    c.flux.getD j 0 = sumOver es (fun e => e.ivar.getD j 0 * e.flux.getD j 0) / sumOver es (fun e => e.ivar.getD j 0)
  masked : ∀ j < c.wave.length, sumOver es (fun e => e.ivar.getD j 0) = 0 → c.flux.getD j 0 = sumOver es (fun e => e.flux.getD j 0) / (es.length : K)
  resolution : ∀ i j, i < c.wave.length → j < c.wave.length → c.R.entry i j =
    if sumOver es (fun e => e.ivar.getD j 0) = 0 then sumOver es (fun e => e.ivar.getD j 0 * e.R.entry i j)
    else sumOver es (fun e => e.ivar.getD j 0 * e.R.entry i j) / sumOver es (fun e => e.ivar.getD j 0)
  ivar : ∀ i < c.wave.length, c.ivar.getD i 0 =
    if ∑ j ∈ Finset.range c.wave.length, c.R.entry i j < 99 / 100 then 0 else sumOver es (fun e => e.ivar.getD i 0)

/-! ### lemmas -/

theorem firstSeen_go (ks acc : List ω) :
    ks.foldl (fun acc k => if k ∈ acc then acc else acc ++ [k]) acc = acc ++ (distinctKeys ks).filter (fun x => decide (x ∉ acc)) := by
  induction ks generalizing acc with
  | nil => simp [distinctKeys]
  | cons k ks ih =>
    rw [List.foldl_cons, ih, distinctKeys]
    by_cases h : k ∈ acc
    · rw [if_pos h, List.filter_cons, if_neg (by simp [h]), List.filter_filter]
      congr 1
      apply List.filter_congr
      intro x _
      by_cases hx : x = k
      · subst hx; simp [h]
      · simp [hx]
    · rw [if_neg h, List.filter_cons, if_pos (by simp [h]), List.filter_filter, List.append_assoc]
      congr 1
      rw [List.singleton_append]
      congr 1
      apply List.filter_congr
      intro x _
      simp [List.mem_append, not_or]

theorem firstSeen_eq (ks : List ω) : firstSeen ks = distinctKeys ks := by
  unfold firstSeen
  rw [firstSeen_go]
  simp

theorem mem_distinctKeys (ks : List ω) (k : ω) : k ∈ distinctKeys ks ↔ k ∈ ks := by
  induction ks with
  | nil => simp [distinctKeys]
  | cons a ks ih =>
    simp only [distinctKeys, List.mem_cons, List.mem_filter, ih, decide_eq_true_eq]
    by_cases h : k = a <;> simp [h]

theorem nodup_distinctKeys (ks : List ω) : (distinctKeys ks).Nodup := by
  induction ks with
  | nil => simp [distinctKeys]
  | cons a ks ih =>
    rw [distinctKeys, List.nodup_cons]
    exact ⟨by simp, ih.filter _⟩

theorem distinctKeys_of_nodup (ks : List ω) (h : ks.Nodup) : distinctKeys ks = ks := by
  induction ks with
  | nil => rfl
  | cons a ks ih =>
    rw [List.nodup_cons] at h
    rw [distinctKeys, ih h.2, List.filter_eq_self.2]
    intro x hx
    simp only [decide_eq_true_eq]
    rintro rfl
    exact h.1 hx

theorem getD_map_range {α : Type} (f : Nat → α) (d : α) (n j : Nat) : ((List.range n).map f).getD j d = if j < n then f j else d := by
  by_cases h : j < n <;> simp [h]

/-- simpler form of the coadd, for any inverse variances after rejection -/
theorem coaddFrom_eqM (e0 last : Spectrum ω β K) (es : List (Spectrum ω β K)) (ivarM : List (List K)) (key : ω) :
    coaddFrom e0 last es ivarM key = mkSpectrum e0.wave
      ((List.range e0.wave.length).map (fun j => if colSum ivarM j = 0 then colSum (es.map (·.flux)) j / (es.length : K)
        else colSum (List.zipWith (fun iv e => List.zipWith (· * ·) iv e.flux) ivarM es) j / colSum ivarM j))
      ((List.range e0.wave.length).map (colSum ivarM))
      ⟨e0.R.offsets, (List.range e0.R.data.length).map (fun k => (List.range e0.wave.length).map (fun j =>
        sumOver es (fun e => (e.R.data.getD k []).getD j 0 * e.ivar.getD j 0) / (if colSum ivarM j = 0 then 1 else colSum ivarM j)))⟩ key last.band := by
  have h1 : ∀ j < e0.wave.length, ((List.range e0.wave.length).map (colSum ivarM)).getD j 0 = colSum ivarM j := by
    intro j hj; rw [getD_map_range, if_pos hj]
  have h2 : ∀ j < e0.wave.length, ((List.range e0.wave.length).map (colSum ivarM)).getD j 0 +
      (((List.range e0.wave.length).map (colSum ivarM)).map (fun w => if w = 0 then (1 : K) else 0)).getD j 0 = if colSum ivarM j = 0 then 1 else colSum ivarM j := by
    intro j hj
    rw [h1 j hj, List.map_map, getD_map_range, if_pos hj]
    simp only [Function.comp_apply]
    split
    · rename_i h; rw [h, zero_add]
    · rw [add_zero]
  unfold coaddFrom
  dsimp only
  congr 1
  · apply List.map_congr_left
    intro j hj
    rw [List.mem_range] at hj
    rw [h2 j hj, h1 j hj]
    split
    · rfl
    · rfl
  · congr 1
    apply List.map_congr_left
    intro k _
    apply List.map_congr_left
    intro j hj
    rw [List.mem_range] at hj
    rw [h2 j hj]
    rfl

theorem colSum_ivar (es : List (Spectrum ω β K)) (j : Nat) : colSum (es.map (·.ivar)) j = sumOver es (fun e => e.ivar.getD j 0) := by
  unfold colSum sumOver; rw [List.map_map]; rfl

theorem colSum_flux (es : List (Spectrum ω β K)) (j : Nat) : colSum (es.map (·.flux)) j = sumOver es (fun e => e.flux.getD j 0) := by
  unfold colSum sumOver; rw [List.map_map]; rfl

theorem getD_zipWith_mul (a b : List K) (j : Nat) (h : a.length = b.length) : (List.zipWith (· * ·) a b).getD j 0 = a.getD j 0 * b.getD j 0 := by
  rw [List.getD_eq_getElem?_getD, List.getD_eq_getElem?_getD, List.getD_eq_getElem?_getD, List.getElem?_zipWith]
  by_cases hj : j < a.length
  · rw [List.getElem?_eq_getElem hj, List.getElem?_eq_getElem (h ▸ hj)]; rfl
  · rw [List.getElem?_eq_none (by omega)]; simp

theorem colSum_wflux (es : List (Spectrum ω β K)) (j : Nat) (hes : ∀ e ∈ es, e.flux.length = e.ivar.length) :
    colSum (List.zipWith (fun iv e => List.zipWith (· * ·) iv e.flux) (es.map (·.ivar)) es) j = sumOver es (fun e => e.ivar.getD j 0 * e.flux.getD j 0) := by
  unfold colSum sumOver
  congr 1
  have : List.zipWith (fun iv (e : Spectrum ω β K) => List.zipWith (· * ·) iv e.flux) (es.map (·.ivar)) es = es.map (fun e => List.zipWith (· * ·) e.ivar e.flux) := by
    rw [List.zipWith_map_left, List.zipWith_self]
  rw [this, List.map_map]
  apply List.map_congr_left
  intro e he
  exact getD_zipWith_mul _ _ _ (hes e he).symm

/-- the coadd written with sums over the exposures only -/
def coaddSpec (wave : List K) (offsets : List Int) (nd : Nat) (band : β) (es : List (Spectrum ω β K)) (key : ω) : Spectrum ω β K :=
  mkSpectrum wave
      ((List.range wave.length).map (fun j => if sumOver es (fun e => e.ivar.getD j 0) = 0 then sumOver es (fun e => e.flux.getD j 0) / (es.length : K)
        else sumOver es (fun e => e.ivar.getD j 0 * e.flux.getD j 0) / sumOver es (fun e => e.ivar.getD j 0)))
      ((List.range wave.length).map (fun j => sumOver es (fun e => e.ivar.getD j 0)))
      ⟨offsets, (List.range nd).map (fun k => (List.range wave.length).map (fun j =>
        sumOver es (fun e => (e.R.data.getD k []).getD j 0 * e.ivar.getD j 0) / (if sumOver es (fun e => e.ivar.getD j 0) = 0 then 1 else sumOver es (fun e => e.ivar.getD j 0))))⟩ key band

theorem coaddFrom_eq (e0 last : Spectrum ω β K) (es : List (Spectrum ω β K)) (key : ω) (hes : ∀ e ∈ es, e.flux.length = e.ivar.length) :
    coaddFrom e0 last es (es.map (·.ivar)) key = coaddSpec e0.wave e0.R.offsets e0.R.data.length last.band es key := by
  rw [coaddFrom_eqM]
  unfold coaddSpec
  have hi : colSum (es.map (·.ivar)) = fun j => sumOver es (fun e => e.ivar.getD j 0) := funext (colSum_ivar es)
  simp only [hi, colSum_flux, colSum_wflux es _ hes]

/-- without cosmic rejection, a group of compatible exposures has this coadd -/
theorem coaddGroup_eq (nsig : K) (hn : nsig ≤ 0) (es : List (Spectrum ω β K)) (key : ω) (e : Spectrum ω β K) (he : e ∈ es) (hs : ∀ e' ∈ es, ShapedExp e')
    (hc : ∀ e' ∈ es, e'.wave = e.wave ∧ e'.R.offsets = e.R.offsets ∧ e'.band = e.band) :
    coaddGroup nsig es key = .ok (coaddSpec e.wave e.R.offsets e.R.offsets.length e.band es key) := by
  cases es with
  | nil => simp at he
  | cons e0 rest =>
    obtain ⟨w0, o0, b0⟩ := hc e0 List.mem_cons_self
    have hlast : (rest.getLastD e0).band = e.band := by
      have : rest.getLastD e0 ∈ e0 :: rest := by
        cases rest with
        | nil => simp
        | cons a l => rw [List.getLastD_cons]; exact List.mem_cons_of_mem _ (List.getLastD_mem_cons)
      exact (hc _ this).2.2
    have n1 : (e0 :: rest).any (fun e => decide (e.wave.length ≠ e0.wave.length)) = false := by
      rw [List.any_eq_false]
      intro x hx
      simp [(hc x hx).1, w0]
    have n2 : (e0 :: rest).any (fun e => decide (e.flux.length ≠ e0.wave.length) || decide (e.ivar.length ≠ e0.wave.length) || decide (e.R.data.length ≠ e0.R.data.length) ||
        e.R.data.any (fun r => decide (r.length ≠ e0.wave.length))) = false := by
      rw [List.any_eq_false]
      intro x hx
      obtain ⟨s1, s2, s3, s4⟩ := hs x hx
      obtain ⟨-, -, t3, -⟩ := hs e0 List.mem_cons_self
      obtain ⟨c1, c2, -⟩ := hc x hx
      have : x.R.data.any (fun r => decide (r.length ≠ e0.wave.length)) = false := by
        rw [List.any_eq_false]
        intro r hr
        simp [s4 r hr, c1, w0]
      rw [this]
      simp [s1, s2, s3, t3, c1, c2, o0, w0]
    unfold coaddGroup
    dsimp only
    rw [n1, n2, if_neg (by simp), if_neg (by simp)]
    unfold cosmicGrads
    rw [if_neg (not_lt.2 hn)]
    show Except.ok (coaddFrom e0 (rest.getLastD e0) (e0 :: rest) (if 1 < ([] : List (List K × List K)).length ∧ 0 < nsig then _ else _) key) = _
    rw [if_neg (by simp), coaddFrom_eq e0 _ (e0 :: rest) key (fun x hx => by rw [(hs x hx).1, (hs x hx).2.1]), hlast, w0, (hs e0 List.mem_cons_self).2.2.1, o0]

theorem entry_mul (offs : List Int) (rows : List (List K)) (i j : Nat) (h : rows.length = offs.length) :
    (⟨offs, rows⟩ : Dia K).entry i j = ∑ k ∈ Finset.range offs.length, if (j : Int) - (i : Int) = offs.getD k 0 then (rows.getD k []).getD j 0 else 0 := by
  unfold Dia.entry
  dsimp only
  induction offs generalizing rows with
  | nil => simp
  | cons o offs ih =>
    cases rows with
    | nil => simp at h
    | cons r rows =>
      rw [List.zip_cons_cons, List.map_cons, List.sum_cons, ih rows (by simpa using h), List.length_cons, Finset.sum_range_succ']
      simp only [List.getD_cons_succ, List.getD_cons_zero]
      rw [add_comm]

theorem sumOver_add (es : List (Spectrum ω β K)) (f g : Spectrum ω β K → K) : sumOver es (fun e => f e + g e) = sumOver es f + sumOver es g := by
  unfold sumOver
  rw [← List.sum_map_add]

theorem sumOver_finset (es : List (Spectrum ω β K)) (s : Finset Nat) (f : Nat → Spectrum ω β K → K) : sumOver es (fun e => ∑ k ∈ s, f k e) = ∑ k ∈ s, sumOver es (f k) := by
  induction es with
  | nil => simp [sumOver]
  | cons e es ih =>
    unfold sumOver at ih ⊢
    simp only [List.map_cons, List.sum_cons, ih, Finset.sum_add_distrib]

theorem sumOver_congr {es : List (Spectrum ω β K)} {f g : Spectrum ω β K → K} (h : ∀ e ∈ es, f e = g e) : sumOver es f = sumOver es g := by
  unfold sumOver
  rw [List.map_congr_left h]

theorem sumOver_mul_right (es : List (Spectrum ω β K)) (f : Spectrum ω β K → K) (c : K) : sumOver es (fun e => f e * c) = sumOver es f * c := by
  unfold sumOver
  rw [List.sum_map_mul_right]

theorem rowSum_eq (R : Dia K) (n i : Nat) : R.rowSum n i = ∑ j ∈ Finset.range n, R.entry i j := by
  unfold Dia.rowSum
  induction n with
  | zero => simp
  | succ n ih => rw [List.range_succ, List.map_append, List.sum_append, ih, Finset.sum_range_succ]; simp

/-- the explicit form satisfies the specification -/
theorem coaddSpec_isCoadd (es : List (Spectrum ω β K)) (key : ω) (e : Spectrum ω β K) (hs : ∀ e' ∈ es, ShapedExp e')
    (hc : ∀ e' ∈ es, e'.wave = e.wave ∧ e'.R.offsets = e.R.offsets ∧ e'.band = e.band) :
    IsCoadd (coaddSpec e.wave e.R.offsets e.R.offsets.length e.band es key) es := by
  have hwave : (coaddSpec e.wave e.R.offsets e.R.offsets.length e.band es key).wave = e.wave := rfl
  refine ⟨?_, ⟨?_, ?_, ?_, ?_⟩, ?_, ?_, ?_, ?_⟩
  · intro e' he'
    obtain ⟨h1, h2, h3⟩ := hc e' he'
    exact ⟨h1.symm, h3.symm, h2.symm⟩
  · simp [coaddSpec, mkSpectrum]
  · simp [coaddSpec, mkSpectrum]
  · simp [coaddSpec, mkSpectrum]
  · intro r hr
    simp only [coaddSpec, mkSpectrum, List.mem_map] at hr
    obtain ⟨k, -, rfl⟩ := hr
    simp [coaddSpec, mkSpectrum]
  · intro j hj h
    rw [hwave] at hj
    simp only [coaddSpec, mkSpectrum]
    rw [getD_map_range, if_pos hj, if_neg h]
  · intro j hj h
    rw [hwave] at hj
    simp only [coaddSpec, mkSpectrum]
    rw [getD_map_range, if_pos hj, if_pos h]
  · intro i j _ hj
    rw [hwave] at hj
    have e1 : sumOver es (fun e' => e'.ivar.getD j 0 * e'.R.entry i j) =
        ∑ k ∈ Finset.range e.R.offsets.length, if (j : Int) - (i : Int) = e.R.offsets.getD k 0 then sumOver es (fun e' => (e'.R.data.getD k []).getD j 0 * e'.ivar.getD j 0) else 0 := by
      have : sumOver es (fun e' => e'.ivar.getD j 0 * e'.R.entry i j) = sumOver es (fun e' => ∑ k ∈ Finset.range e.R.offsets.length,
          if (j : Int) - (i : Int) = e.R.offsets.getD k 0 then (e'.R.data.getD k []).getD j 0 * e'.ivar.getD j 0 else 0) := by
        apply sumOver_congr
        intro e' he'
        have := entry_mul e'.R.offsets e'.R.data i j (hs e' he').2.2.1
        rw [show e'.R = ⟨e'.R.offsets, e'.R.data⟩ from rfl, this, (hc e' he').2.1, Finset.mul_sum]
        apply Finset.sum_congr rfl
        intro k _
        split
        · rw [mul_comm]
        · rw [mul_zero]
      rw [this, sumOver_finset]
      apply Finset.sum_congr rfl
      intro k _
      split
      · rfl
      · simp [sumOver]
    simp only [coaddSpec, mkSpectrum]
    rw [entry_mul _ _ _ _ (by simp), e1]
    split
    · rename_i h0
      apply Finset.sum_congr rfl
      intro k hk
      rw [Finset.mem_range] at hk
      rw [getD_map_range, if_pos hk, getD_map_range, if_pos hj, if_pos h0, div_one]
    · rename_i h0
      rw [Finset.sum_div]
      apply Finset.sum_congr rfl
      intro k hk
      rw [Finset.mem_range] at hk
      rw [getD_map_range, if_pos hk, getD_map_range, if_pos hj, if_neg h0]
      split
      · rfl
      · rw [zero_div]
  · intro i hi
    rw [hwave] at hi
    rw [← rowSum_eq]
    simp only [coaddSpec, mkSpectrum]
    rw [getD_map_range, if_pos (by simpa using hi), getD_map_range, if_pos hi]
    rfl

/-! ### C41 -/

/-- the whole list of coadds, explicitly -/
theorem computeCoadd_eq (nsig : K) (hn : nsig ≤ 0) (spectra : List (Spectrum ω β K)) (hs : ∀ e ∈ spectra, ShapedExp e) (hc : Compatible spectra) :
    ∃ out, computeCoadd nsig spectra = .ok out ∧ List.Forall₂ (fun key c => ∀ e ∈ spectra, e.wavehash = key →
      c = coaddSpec e.wave e.R.offsets e.R.offsets.length e.band (spectra.filter (fun s => decide (s.wavehash = key))) key) (distinctKeys (spectra.map (·.wavehash))) out := by
  unfold computeCoadd
  rw [firstSeen_eq]
  have : ∀ keys : List ω, (∀ k ∈ keys, k ∈ spectra.map (·.wavehash)) → ∃ out, keys.mapM (fun key => coaddGroup nsig (spectra.filter (fun s => decide (s.wavehash = key))) key) = .ok out ∧
      List.Forall₂ (fun key c => ∀ e ∈ spectra, e.wavehash = key →
      c = coaddSpec e.wave e.R.offsets e.R.offsets.length e.band (spectra.filter (fun s => decide (s.wavehash = key))) key) keys out := by
    intro keys hk
    induction keys with
    | nil => exact ⟨[], rfl, List.Forall₂.nil⟩
    | cons k keys ih =>
      obtain ⟨out, h1, h2⟩ := ih (fun x hx => hk x (List.mem_cons_of_mem _ hx))
      obtain ⟨e0, he0, rfl⟩ := List.mem_map.1 (hk k List.mem_cons_self)
      have hg : ∀ e ∈ spectra, e.wavehash = e0.wavehash → coaddGroup nsig (spectra.filter (fun s => decide (s.wavehash = e0.wavehash))) e0.wavehash =
          .ok (coaddSpec e.wave e.R.offsets e.R.offsets.length e.band (spectra.filter (fun s => decide (s.wavehash = e0.wavehash))) e0.wavehash) := by
        intro e he hek
        apply coaddGroup_eq nsig hn _ _ e (List.mem_filter.2 ⟨he, by simpa using hek⟩) (fun e' he' => hs e' (List.mem_filter.1 he').1)
        intro e' he'
        rw [List.mem_filter, decide_eq_true_eq] at he'
        exact hc e' he'.1 e he (by rw [he'.2, hek])
      refine ⟨coaddSpec e0.wave e0.R.offsets e0.R.offsets.length e0.band (spectra.filter (fun s => decide (s.wavehash = e0.wavehash))) e0.wavehash :: out, ?_, ?_⟩
      · rw [List.mapM_cons, hg e0 he0 rfl, h1]
        rfl
      · refine List.Forall₂.cons ?_ h2
        intro e he hek
        have a := hg e0 he0 rfl
        rw [hg e he hek, Except.ok.injEq] at a
        exact a.symm
  exact this _ (fun k hk => (mem_distinctKeys _ k).1 hk)

/-- **C41** without cosmic rejection, coadding never fails and yields one spectrum per grid, in order of first appearance of the grids; each is the coadd of the exposures on its grid. -/
theorem C41_coadd (nsig : K) (hn : nsig ≤ 0) (spectra : List (Spectrum ω β K)) (hs : ∀ e ∈ spectra, ShapedExp e) (hc : Compatible spectra) :
    ∃ out, computeCoadd nsig spectra = .ok out ∧ out.map (·.wavehash) = distinctKeys (spectra.map (·.wavehash)) ∧
      ∀ c ∈ out, IsCoadd c (spectra.filter (fun s => decide (s.wavehash = c.wavehash))) := by
  obtain ⟨out, h1, h2⟩ := computeCoadd_eq nsig hn spectra hs hc
  have h3 : List.Forall₂ (fun key (c : Spectrum ω β K) => c.wavehash = key ∧ IsCoadd c (spectra.filter (fun s => decide (s.wavehash = key)))) (distinctKeys (spectra.map (·.wavehash))) out := by
    have hall : ∀ k ∈ distinctKeys (spectra.map (·.wavehash)), ∃ e ∈ spectra, e.wavehash = k := fun k hk => List.mem_map.1 ((mem_distinctKeys _ k).1 hk)
    clear h1
    generalize distinctKeys (spectra.map (·.wavehash)) = keys at h2 hall
    induction h2 with
    | nil => exact List.Forall₂.nil
    | cons hkc _ ih =>
      rename_i k c ks cs _
      refine List.Forall₂.cons ?_ (ih (fun x hx => hall x (List.mem_cons_of_mem _ hx)))
      obtain ⟨e, he, hek⟩ := hall k List.mem_cons_self
      rw [hkc e he hek]
      refine ⟨rfl, coaddSpec_isCoadd _ _ e (fun e' he' => hs e' (List.mem_filter.1 he').1) ?_⟩
      intro e' he'
      rw [List.mem_filter, decide_eq_true_eq] at he'
      exact hc e' he'.1 e he (by rw [he'.2, hek])
  refine ⟨out, h1, ?_, ?_⟩
  · clear h1 h2
    generalize distinctKeys (spectra.map (·.wavehash)) = keys at h3
    induction h3 with
    | nil => rfl
    | cons h _ ih => rw [List.map_cons, h.1, ih]
  · clear h1 h2
    intro c hcm
    generalize distinctKeys (spectra.map (·.wavehash)) = keys at h3
    induction h3 with
    | nil => simp at hcm
    | cons h _ ih =>
      rcases List.mem_cons.1 hcm with rfl | hcm
      · obtain ⟨a, b⟩ := h
        subst a
        exact b
      · exact ih hcm

/-- **C41** what the keys of the coadds are: no repeats, exactly the keys of the exposures. -/
theorem C41_keys (ks : List ω) : (distinctKeys ks).Nodup ∧ (∀ k, k ∈ distinctKeys ks ↔ k ∈ ks) ∧
    ∀ a b, a ∈ distinctKeys ks → b ∈ distinctKeys ks → (ks.idxOf a < ks.idxOf b ↔ (distinctKeys ks).idxOf a < (distinctKeys ks).idxOf b) := by
  refine ⟨nodup_distinctKeys ks, mem_distinctKeys ks, ?_⟩
  induction ks with
  | nil => intro a b ha; simp [distinctKeys] at ha
  | cons k ks ih =>
    intro a b ha hb
    rw [mem_distinctKeys] at ha hb
    rw [distinctKeys]
    by_cases h1 : a = k
    · subst h1
      by_cases h2 : b = a
      · subst h2; simp
      · rw [List.idxOf_cons_self, List.idxOf_cons_self, List.idxOf_cons_ne _ (Ne.symm h2), List.idxOf_cons_ne _ (Ne.symm h2)]
        simp
    · by_cases h2 : b = k
      · subst h2
        simp
      · rw [List.idxOf_cons_ne _ (Ne.symm h1), List.idxOf_cons_ne _ (Ne.symm h2), List.idxOf_cons_ne _ (Ne.symm h1), List.idxOf_cons_ne _ (Ne.symm h2)]
        have ha' : a ∈ ks := (List.mem_cons.1 ha).resolve_left h1
        have hb' : b ∈ ks := (List.mem_cons.1 hb).resolve_left h2
        have := ih a b ((mem_distinctKeys _ _).2 ha') ((mem_distinctKeys _ _).2 hb')
        rw [Nat.succ_lt_succ_iff, Nat.succ_lt_succ_iff, this]
        generalize distinctKeys ks = l
        have key : ∀ (l : List ω), ((l.idxOf a < l.idxOf b) ↔ (l.filter (fun x => decide (x ≠ k))).idxOf a < (l.filter (fun x => decide (x ≠ k))).idxOf b) := by
          intro l
          induction l with
          | nil => simp
          | cons x l ih =>
            by_cases hx : x = k
            · subst hx
              rw [List.filter_cons, if_neg (by simp), ← ih, List.idxOf_cons_ne _ (Ne.symm h1), List.idxOf_cons_ne _ (Ne.symm h2), Nat.succ_lt_succ_iff]
            · rw [List.filter_cons, if_pos (by simpa using hx)]
              by_cases ha : x = a
              · subst ha
                by_cases hb : b = x
                · subst hb; simp
                · rw [List.idxOf_cons_self, List.idxOf_cons_self, List.idxOf_cons_ne _ (Ne.symm hb), List.idxOf_cons_ne _ (Ne.symm hb)]
                  simp
              · by_cases hb : x = b
                · subst hb
                  simp
                · rw [List.idxOf_cons_ne _ ha, List.idxOf_cons_ne _ hb, List.idxOf_cons_ne _ ha, List.idxOf_cons_ne _ hb, Nat.succ_lt_succ_iff, Nat.succ_lt_succ_iff, ih]
        exact key l

theorem sumOver_perm {es es' : List (Spectrum ω β K)} (h : es.Perm es') (f : Spectrum ω β K → K) : sumOver es f = sumOver es' f := by
  unfold sumOver
  exact (h.map f).sum_eq

theorem coaddSpec_perm {es es' : List (Spectrum ω β K)} (h : es.Perm es') (wave : List K) (offsets : List Int) (nd : Nat) (band : β) (key : ω) :
    coaddSpec wave offsets nd band es key = coaddSpec wave offsets nd band es' key := by
  unfold coaddSpec
  simp only [sumOver_perm h, h.length_eq]

/-- **C41** the order of the exposures does not matter: after any permutation of the input, the same coadds come out, and in the same order if the grids first appear in the same order. -/
theorem C41_order (nsig : K) (hn : nsig ≤ 0) (spectra spectra' : List (Spectrum ω β K)) (hs : ∀ e ∈ spectra, ShapedExp e) (hc : Compatible spectra) (hp : spectra.Perm spectra') :
    ∃ out out', computeCoadd nsig spectra = .ok out ∧ computeCoadd nsig spectra' = .ok out' ∧ out.Perm out' ∧
      (distinctKeys (spectra.map (·.wavehash)) = distinctKeys (spectra'.map (·.wavehash)) → out = out') := by
  have hs' : ∀ e ∈ spectra', ShapedExp e := fun e he => hs e (hp.mem_iff.2 he)
  have hc' : Compatible spectra' := fun e he e' he' => hc e (hp.mem_iff.2 he) e' (hp.mem_iff.2 he')
  obtain ⟨out, h1, h2⟩ := computeCoadd_eq nsig hn spectra hs hc
  obtain ⟨out', h1', h2'⟩ := computeCoadd_eq nsig hn spectra' hs' hc'
  have hkeys : (distinctKeys (spectra.map (·.wavehash))).Perm (distinctKeys (spectra'.map (·.wavehash))) := by
    rw [List.perm_ext_iff_of_nodup (nodup_distinctKeys _) (nodup_distinctKeys _)]
    intro k
    rw [mem_distinctKeys, mem_distinctKeys, (hp.map _).mem_iff]
  -- both outputs are the image of the keys under one function
  have himg : ∀ (sp : List (Spectrum ω β K)) (o : List (Spectrum ω β K)), sp.Perm spectra → List.Forall₂ (fun key c => ∀ e ∈ sp, e.wavehash = key →
      c = coaddSpec e.wave e.R.offsets e.R.offsets.length e.band (sp.filter (fun s => decide (s.wavehash = key))) key) (distinctKeys (sp.map (·.wavehash))) o →
      o.map some = (distinctKeys (sp.map (·.wavehash))).map (fun key => (spectra.find? (fun e => decide (e.wavehash = key))).map
        (fun e => coaddSpec e.wave e.R.offsets e.R.offsets.length e.band (spectra.filter (fun s => decide (s.wavehash = key))) key)) := by
    intro sp o hsp h
    have hall : ∀ k ∈ distinctKeys (sp.map (·.wavehash)), ∃ e ∈ spectra, e.wavehash = k := by
      intro k hk
      obtain ⟨e, he, hek⟩ := List.mem_map.1 ((mem_distinctKeys _ k).1 hk)
      exact ⟨e, hsp.mem_iff.1 he, hek⟩
    generalize distinctKeys (sp.map (·.wavehash)) = keys at h hall
    induction h with
    | nil => rfl
    | cons hkc _ ih =>
      rename_i k c ks cs _
      rw [List.map_cons, List.map_cons, ih (fun x hx => hall x (List.mem_cons_of_mem _ hx))]
      congr 1
      obtain ⟨e0, he0, hek0⟩ := hall k List.mem_cons_self
      cases hf : spectra.find? (fun e => decide (e.wavehash = k)) with
      | none =>
        rw [List.find?_eq_none] at hf
        exact absurd (by simpa using hek0) (hf e0 he0)
      | some e =>
        have m1 := List.mem_of_find?_eq_some hf
        have m2 := List.find?_some hf
        rw [decide_eq_true_eq] at m2
        rw [Option.map_some, hkc e (hsp.mem_iff.2 m1) m2, coaddSpec_perm (hsp.filter _)]
  have g := himg spectra out (List.Perm.refl _) h2
  have g' := himg spectra' out' hp.symm h2'
  have hinj : Function.Injective (some : Spectrum ω β K → Option (Spectrum ω β K)) := Option.some_injective _
  refine ⟨out, out', h1, h1', ?_, ?_⟩
  · have := hkeys.map (fun key => (spectra.find? (fun e => decide (e.wavehash = key))).map
        (fun e => coaddSpec e.wave e.R.offsets e.R.offsets.length e.band (spectra.filter (fun s => decide (s.wavehash = key))) key))
    rw [← g, ← g'] at this
    exact (List.map_perm_map_iff hinj).1 this
  · intro hk
    rw [hk] at g
    rw [← g'] at g
    exact (List.map_injective_iff.2 hinj) g

theorem filter_key_eq {α κ : Type} [DecidableEq κ] (l : List α) (f : α → κ) (hk : (l.map f).Nodup) (e : α) (he : e ∈ l) : l.filter (fun s => decide (f s = f e)) = [e] := by
  induction l with
  | nil => simp at he
  | cons a l ih =>
    rw [List.map_cons, List.nodup_cons] at hk
    rcases List.mem_cons.1 he with rfl | he
    · rw [List.filter_cons, if_pos (by simp), List.filter_eq_nil_iff.2]
      intro s hs h
      rw [decide_eq_true_eq] at h
      exact hk.1 (List.mem_map.2 ⟨s, hs, h⟩)
    · have : f a ≠ f e := fun h => hk.1 (List.mem_map.2 ⟨e, he, h.symm⟩)
      rw [List.filter_cons, if_neg (by simpa using this), ih hk.2 he]

/-- **C41** one exposure per grid: flux and grid are unchanged; the resolution loses the columns of masked pixels; a pixel keeps its inverse variance unless the remaining columns of its row sum to less than 0.99. -/
theorem C41_single (nsig : K) (hn : nsig ≤ 0) (spectra : List (Spectrum ω β K)) (hs : ∀ e ∈ spectra, ShapedExp e) (hk : (spectra.map (·.wavehash)).Nodup) :
    ∃ out, computeCoadd nsig spectra = .ok out ∧ List.Forall₂ (fun e c => c.wave = e.wave ∧ c.flux = e.flux ∧ c.wavehash = e.wavehash ∧ c.band = e.band ∧
      (∀ i j, i < e.wave.length → j < e.wave.length → c.R.entry i j = if e.ivar.getD j 0 = 0 then 0 else e.R.entry i j) ∧
      (∀ i < e.wave.length, c.ivar.getD i 0 = if ∑ j ∈ Finset.range e.wave.length, (if e.ivar.getD j 0 = 0 then 0 else e.R.entry i j) < 99 / 100 then 0 else e.ivar.getD i 0)) spectra out := by
  have hc : Compatible spectra := by
    intro e he e' he' h
    have : e = e' := List.inj_on_of_nodup_map hk he he' h
    subst this
    exact ⟨rfl, rfl, rfl⟩
  obtain ⟨out, h1, h2, h3⟩ := C41_coadd nsig hn spectra hs hc
  refine ⟨out, h1, ?_⟩
  rw [distinctKeys_of_nodup _ hk] at h2
  have hlen : out.length = spectra.length := by simpa using congrArg List.length h2
  rw [List.forall₂_iff_get]
  refine ⟨hlen.symm, ?_⟩
  intro i b1 b2
  rw [List.get_eq_getElem, List.get_eq_getElem]
  have hwh : (out[i]'b2).wavehash = (spectra[i]'b1).wavehash := by
    have : (out.map (·.wavehash))[i]? = (spectra.map (·.wavehash))[i]? := by rw [h2]
    simpa [b1, b2] using this
  have hco := h3 _ (List.getElem_mem b2)
  have hfilt : spectra.filter (fun s => decide (s.wavehash = (out[i]'b2).wavehash)) = [spectra[i]'b1] := by
    rw [hwh]
    exact filter_key_eq spectra (·.wavehash) hk _ (List.getElem_mem b1)
  rw [hfilt] at hco
  obtain ⟨g1, g2, g3⟩ := hco.grid _ (List.mem_singleton.2 rfl)
  have hsh := hs _ (List.getElem_mem b1)
  have one : ∀ f : Spectrum ω β K → K, sumOver [spectra[i]'b1] f = f (spectra[i]'b1) := fun f => by simp [sumOver]
  have hR : ∀ a j, a < (spectra[i]'b1).wave.length → j < (spectra[i]'b1).wave.length →
      (out[i]'b2).R.entry a j = if (spectra[i]'b1).ivar.getD j 0 = 0 then 0 else (spectra[i]'b1).R.entry a j := by
    intro a j ha hj
    rw [hco.resolution a j (by rw [g1]; exact ha) (by rw [g1]; exact hj), one, one]
    split
    · rename_i h; rw [h, zero_mul]
    · rename_i h; rw [mul_div_assoc, mul_div_cancel₀ _ h]
  refine ⟨g1, ?_, hwh, g2, hR, ?_⟩
  · have hl : (out[i]'b2).flux.length = (spectra[i]'b1).flux.length := by rw [hco.shaped.1, hsh.1, g1]
    apply List.ext_getElem hl
    intro j q1 q2
    have hj : j < (out[i]'b2).wave.length := by rw [← hco.shaped.1]; exact q1
    have e : (out[i]'b2).flux.getD j 0 = (spectra[i]'b1).flux.getD j 0 := by
      by_cases h : (spectra[i]'b1).ivar.getD j 0 = 0
      · have := hco.masked j hj (by rw [one]; exact h)
        rw [this, one]
        simp
      · have := hco.weighted j hj (by rw [one]; exact h)
        rw [this, one, one, mul_div_assoc, mul_div_cancel₀ _ h]
    simpa [q1, q2] using e
  · intro a ha
    rw [hco.ivar a (by rw [g1]; exact ha), one]
    have : ∑ j ∈ Finset.range (out[i]'b2).wave.length, (out[i]'b2).R.entry a j = ∑ j ∈ Finset.range (spectra[i]'b1).wave.length, (if (spectra[i]'b1).ivar.getD j 0 = 0 then 0 else (spectra[i]'b1).R.entry a j) := by
      rw [g1]
      apply Finset.sum_congr rfl
      intro j hj
      exact hR a j ha (Finset.mem_range.1 hj)
    rw [this]

/-- **C41** (partial: no masked pixel) one exposure per grid without masked pixels and with normalised resolution is unchanged as a whole. Missing: masked pixels, where it fails, see `C41_mask_grows`. -/
theorem C41_single_unchanged_partial (nsig : K) (hn : nsig ≤ 0) (spectra : List (Spectrum ω β K)) (hs : ∀ e ∈ spectra, ShapedExp e) (hk : (spectra.map (·.wavehash)).Nodup)
    (hi : ∀ e ∈ spectra, ∀ v ∈ e.ivar, v ≠ 0) (hr : ∀ e ∈ spectra, ∀ i < e.wave.length, 99 / 100 ≤ ∑ j ∈ Finset.range e.wave.length, e.R.entry i j) :
    computeCoadd nsig spectra = .ok spectra := by
  have hc : Compatible spectra := by
    intro e he e' he' h
    have : e = e' := List.inj_on_of_nodup_map hk he he' h
    subst this
    exact ⟨rfl, rfl, rfl⟩
  obtain ⟨out, h1, h2⟩ := computeCoadd_eq nsig hn spectra hs hc
  rw [h1, Except.ok.injEq]
  rw [distinctKeys_of_nodup _ hk, List.forall₂_map_left_iff] at h2
  have key : ∀ e ∈ spectra, coaddSpec e.wave e.R.offsets e.R.offsets.length e.band (spectra.filter (fun s => decide (s.wavehash = e.wavehash))) e.wavehash = e := by
    intro e he
    rw [filter_key_eq spectra (·.wavehash) hk e he]
    obtain ⟨s1, s2, s3, s4⟩ := hs e he
    have one : ∀ f : Spectrum ω β K → K, sumOver [e] f = f e := fun f => by simp [sumOver]
    have hne : ∀ j < e.wave.length, e.ivar.getD j 0 ≠ 0 := by
      intro j hj
      apply hi e he
      rw [← s2] at hj
      simp [hj]
    have hrange : ∀ (l : List K), l.length = e.wave.length → (List.range e.wave.length).map (fun j => l.getD j 0) = l := by
      intro l hl
      apply List.ext_getElem (by simp [hl])
      intro j q1 q2
      simp [q2]
    unfold coaddSpec
    simp only [one]
    have hdata : (List.range e.R.offsets.length).map (fun k => (List.range e.wave.length).map (fun j => (e.R.data.getD k []).getD j 0 * e.ivar.getD j 0 /
        (if e.ivar.getD j 0 = 0 then 1 else e.ivar.getD j 0))) = e.R.data := by
      apply List.ext_getElem (by simp [s3])
      intro k q1 q2
      rw [List.getElem_map, List.getElem_range]
      have : (List.range e.wave.length).map (fun j => (e.R.data.getD k []).getD j 0 * e.ivar.getD j 0 / (if e.ivar.getD j 0 = 0 then 1 else e.ivar.getD j 0)) =
          (List.range e.wave.length).map (fun j => (e.R.data.getD k []).getD j 0) := by
        apply List.map_congr_left
        intro j hj
        have := hne j (List.mem_range.1 hj)
        rw [if_neg this, mul_div_cancel_right₀ _ this]
      rw [this, hrange]
      · simp [q2]
      · apply s4
        simp [q2]
    have hflux : (List.range e.wave.length).map (fun j => if e.ivar.getD j 0 = 0 then e.flux.getD j 0 / (([e] : List (Spectrum ω β K)).length : K) else e.ivar.getD j 0 * e.flux.getD j 0 / e.ivar.getD j 0) = e.flux := by
      rw [← hrange e.flux s1]
      apply List.map_congr_left
      intro j hj
      rw [hrange e.flux s1, if_neg (hne j (List.mem_range.1 hj)), mul_div_assoc, mul_div_cancel₀ _ (hne j (List.mem_range.1 hj))]
    rw [hdata, hflux, hrange e.ivar s2]
    unfold mkSpectrum
    have : (List.range e.ivar.length).map (fun i => if (⟨e.R.offsets, e.R.data⟩ : Dia K).rowSum e.wave.length i < 99 / 100 then 0 else e.ivar.getD i 0) = e.ivar := by
      rw [s2]
      refine Eq.trans ?_ (hrange e.ivar s2)
      apply List.map_congr_left
      intro i hi
      rw [if_neg]
      rw [rowSum_eq]
      exact not_lt.2 (hr e he i (List.mem_range.1 hi))
    rw [this]
  apply List.ext_getElem (by simpa using (List.Forall₂.length_eq h2).symm)
  intro i q1 q2
  have := (List.forall₂_iff_get.1 h2).2 i q2 q1
  rw [List.get_eq_getElem, List.get_eq_getElem] at this
  rw [this _ (List.getElem_mem q2) rfl]
  exact key _ (List.getElem_mem q2)

/-! ### C42 -/

/-- Sum over exposures with their position. -/
def sumOverIdx (es : List (Spectrum ω β K)) (f : Nat → Spectrum ω β K → K) : K := (es.zipIdx.map (fun p => f p.2 p.1)).sum

theorem zipIdx_sum_go (es : List (Spectrum ω β K)) (F : Nat → List K) (G : Nat → Spectrum ω β K → K) (H : List K → Spectrum ω β K → K) (k : Nat)
    (h : ∀ (i : Nat) (e : Spectrum ω β K), es[i]? = some e → H (F (k + i)) e = G (k + i) e) :
    (List.zipWith H ((List.range' k es.length).map F) es).sum = ((es.zipIdx k).map (fun p => G p.2 p.1)).sum := by
  induction es generalizing k with
  | nil => simp
  | cons e es ih =>
    rw [List.length_cons, List.range'_succ, List.map_cons, List.zipWith_cons_cons, List.sum_cons, List.zipIdx_cons, List.map_cons, List.sum_cons, ih (k + 1)]
    · have := h 0 e rfl
      rw [Nat.add_zero] at this
      rw [this]
    · intro i e' he'
      have := h (i + 1) e' (by simpa using he')
      rw [show k + 1 + i = k + (i + 1) by omega]
      exact this

/-- the inverse variances after rejection -/
theorem rejectCosmics_spec (nsig : K) (gv : List (List K × List K)) (es : List (Spectrum ω β K)) : ∃ rejected : Nat → Option Nat,
    rejectCosmics nsig gv (es.map (·.ivar)) = (List.range' 0 es.length).map (fun k => (List.range ((es.map (·.ivar)).getD k []).length).map
      (fun j => if rejected j = some k then 0 else ((es.map (·.ivar)).getD k []).getD j 0)) := by
  refine ⟨fun j => if nsig ^ 2 < ((List.range gv.length).map (fun e => cosmicTerm gv e j)).sum / ((gv.length : K) - 1) then some (npArgmaxL ((List.range gv.length).map (fun e => cosmicTerm gv e j))) else none, ?_⟩
  unfold rejectCosmics
  rw [List.length_map, ← List.range_eq_range']
  apply List.map_congr_left
  intro k _
  apply List.map_congr_left
  intro j _
  dsimp only
  by_cases h : nsig ^ 2 < ((List.range gv.length).map (fun e => cosmicTerm gv e j)).sum / ((gv.length : K) - 1)
  · simp only [h, true_and, if_true, Option.some.injEq]
  · simp only [h, false_and, if_false, reduceCtorEq]

/-- **C42** (partial) with cosmic rejection: in every pixel at most one exposure is rejected, none if there is only one exposure; the flux is the mean of the exposures that are left, weighted by their inverse variances.
The resolution, though, is summed over all exposures, also the rejected ones, and divided by the weight of those that are left. Missing: the two claims of the property, which fail, see `C42_identical_exposures_rejected`
and `C42_resolution_not_mean`. -/
theorem C42_rejection_partial (nsig : K) (spectra out : List (Spectrum ω β K)) (hs : ∀ e ∈ spectra, ShapedExp e) (hc : Compatible spectra) (h : computeCoadd nsig spectra = .ok out) :
    out.map (·.wavehash) = distinctKeys (spectra.map (·.wavehash)) ∧ ∀ c ∈ out, ∃ rejected : Nat → Option Nat, ∀ es, es = spectra.filter (fun s => decide (s.wavehash = c.wavehash)) →
      (es.length ≤ 1 → ∀ j, rejected j = none) ∧ ∀ W : Nat → K, (∀ j, W j = sumOverIdx es (fun k e => if rejected j = some k then 0 else e.ivar.getD j 0)) →
      ∀ j < c.wave.length, (W j = 0 → c.flux.getD j 0 = sumOver es (fun e => e.flux.getD j 0) / (es.length : K)) ∧
        (W j ≠ 0 → c.flux.getD j 0 = sumOverIdx es (fun k e => if rejected j = some k then 0 else e.ivar.getD j 0 * e.flux.getD j 0) / W j ∧
          ∀ i < c.wave.length, c.R.entry i j = sumOver es (fun e => e.ivar.getD j 0 * e.R.entry i j) / W j) := by
  unfold computeCoadd at h
  rw [firstSeen_eq] at h
  have hf := mapM_inv _ _ _ h
  have hall : ∀ k ∈ distinctKeys (spectra.map (·.wavehash)), ∃ e ∈ spectra, e.wavehash = k := fun k hk => List.mem_map.1 ((mem_distinctKeys _ k).1 hk)
  have hgroup : ∀ k c, (∃ e ∈ spectra, e.wavehash = k) → coaddGroup nsig (spectra.filter (fun s => decide (s.wavehash = k))) k = .ok c →
      ∃ (rejected : Nat → Option Nat) (e0 last : Spectrum ω β K), e0 ∈ spectra.filter (fun s => decide (s.wavehash = k)) ∧
        ((spectra.filter (fun s => decide (s.wavehash = k))).length ≤ 1 → ∀ j, rejected j = none) ∧
        c = coaddFrom e0 last (spectra.filter (fun s => decide (s.wavehash = k))) ((List.range' 0 (spectra.filter (fun s => decide (s.wavehash = k))).length).map
          (fun k' => (List.range (((spectra.filter (fun s => decide (s.wavehash = k))).map (·.ivar)).getD k' []).length).map
          (fun j => if rejected j = some k' then 0 else (((spectra.filter (fun s => decide (s.wavehash = k))).map (·.ivar)).getD k' []).getD j 0))) k := by
    intro k c hk hg
    generalize spectra.filter (fun s => decide (s.wavehash = k)) = es at hg
    cases es with
    | nil => simp [coaddGroup] at hg
    | cons e0 rest =>
      unfold coaddGroup at hg
      dsimp only at hg
      split at hg
      · exact absurd hg (by simp [throw, throwThe, MonadExceptOf.throw, bind, Except.bind])
      · split at hg
        · exact absurd hg (by simp [throw, throwThe, MonadExceptOf.throw, bind, Except.bind, pure, Except.pure])
        · obtain ⟨gv, hgv, hret⟩ := Except.bind_ok _ _ _ hg
          simp only [pure, Except.pure, Except.ok.injEq] at hret
          have hnone : (e0 :: rest).map (·.ivar) = (List.range' 0 (e0 :: rest).length).map (fun k' => (List.range (((e0 :: rest).map (·.ivar)).getD k' []).length).map
              (fun j => if (none : Option Nat) = some k' then 0 else (((e0 :: rest).map (·.ivar)).getD k' []).getD j 0)) := by
            apply List.ext_getElem (by simp)
            intro i q1 q2
            rw [List.getElem_map, List.getElem_map, List.getElem_range']
            simp only [reduceCtorEq, if_false, Nat.zero_add, Nat.one_mul]
            rw [List.length_map] at q1
            have : ((e0 :: rest).map (·.ivar)).getD i [] = ((e0 :: rest)[i]'q1).ivar := by
              rw [List.getD_eq_getElem?_getD, List.getElem?_map, List.getElem?_eq_getElem q1]; rfl
            rw [this]
            apply List.ext_getElem (by simp)
            intro j r1 r2
            simp [r1]
          by_cases hr : 1 < gv.length ∧ 0 < nsig
          · rw [if_pos hr] at hret
            obtain ⟨rejected, hrej⟩ := rejectCosmics_spec nsig gv (e0 :: rest)
            refine ⟨rejected, e0, rest.getLastD e0, List.mem_cons_self, ?_, ?_⟩
            · intro hl
              unfold cosmicGrads at hgv
              rw [if_pos hr.2] at hgv
              have := (List.Forall₂.length_eq (mapM_inv _ _ _ hgv))
              omega
            · rw [← hrej]
              exact hret.symm
          · rw [if_neg hr] at hret
            refine ⟨fun _ => none, e0, rest.getLastD e0, List.mem_cons_self, fun _ _ => rfl, ?_⟩
            rw [← hnone]
            exact hret.symm
  -- one coadd
  have hcoadd : ∀ k c, (∃ e ∈ spectra, e.wavehash = k) → coaddGroup nsig (spectra.filter (fun s => decide (s.wavehash = k))) k = .ok c → c.wavehash = k ∧
      ∃ rejected : Nat → Option Nat, ∀ es, es = spectra.filter (fun s => decide (s.wavehash = k)) →
      (es.length ≤ 1 → ∀ j, rejected j = none) ∧ ∀ W : Nat → K, (∀ j, W j = sumOverIdx es (fun k e => if rejected j = some k then 0 else e.ivar.getD j 0)) →
      ∀ j < c.wave.length, (W j = 0 → c.flux.getD j 0 = sumOver es (fun e => e.flux.getD j 0) / (es.length : K)) ∧
        (W j ≠ 0 → c.flux.getD j 0 = sumOverIdx es (fun k e => if rejected j = some k then 0 else e.ivar.getD j 0 * e.flux.getD j 0) / W j ∧
          ∀ i < c.wave.length, c.R.entry i j = sumOver es (fun e => e.ivar.getD j 0 * e.R.entry i j) / W j) := by
    intro k c hk hg
    obtain ⟨rejected, e0, last, he0, hone, hceq⟩ := hgroup k c hk hg
    have hsE : ∀ e ∈ spectra.filter (fun s => decide (s.wavehash = k)), ShapedExp e := fun e he => hs e (List.mem_filter.1 he).1
    have hcE : ∀ e ∈ spectra.filter (fun s => decide (s.wavehash = k)), e.wave = e0.wave ∧ e.R.offsets = e0.R.offsets := by
      intro e he
      rw [List.mem_filter, decide_eq_true_eq] at he he0
      obtain ⟨a, b, -⟩ := hc e he.1 e0 he0.1 (by rw [he.2, he0.2])
      exact ⟨a, b⟩
    refine ⟨by rw [hceq, coaddFrom_eqM]; rfl, rejected, ?_⟩
    intro es hes
    rw [← hes] at hsE hcE hone hceq he0
    refine ⟨hone, ?_⟩
    intro W hW j hj
    have hwave : c.wave = e0.wave := by rw [hceq, coaddFrom_eqM]; rfl
    rw [hwave] at hj ⊢
    set F : Nat → List K := fun k' => (List.range ((es.map (·.ivar)).getD k' []).length).map (fun j => if rejected j = some k' then 0 else ((es.map (·.ivar)).getD k' []).getD j 0) with hF
    have hFj : ∀ (i : Nat) (e : Spectrum ω β K), es[i]? = some e → (F (0 + i)).getD j 0 = (if rejected j = some (0 + i) then 0 else e.ivar.getD j 0) ∧ (F (0 + i)).length = e.ivar.length := by
      intro i e he
      have hget : (es.map (·.ivar)).getD i [] = e.ivar := by simp [he]
      have hem := List.mem_of_getElem? he
      rw [hF, Nat.zero_add]
      dsimp only
      rw [hget, getD_map_range, if_pos (by rw [(hsE e hem).2.1, (hcE e hem).1]; exact hj)]
      exact ⟨rfl, by simp⟩
    have hcs : colSum ((List.range' 0 es.length).map F) j = W j := by
      rw [hW j]
      unfold colSum sumOverIdx
      rw [← zipIdx_sum_go es F (fun k e => if rejected j = some k then 0 else e.ivar.getD j 0) (fun iv _ => iv.getD j 0) 0 (fun i e he => (hFj i e he).1)]
      congr 1
      rw [List.zipWith_map_left]
      apply List.ext_getElem (by simp)
      intro i q1 q2
      simp
    have hcf : colSum (List.zipWith (fun iv e => List.zipWith (· * ·) iv e.flux) ((List.range' 0 es.length).map F) es) j =
        sumOverIdx es (fun k e => if rejected j = some k then 0 else e.ivar.getD j 0 * e.flux.getD j 0) := by
      unfold colSum sumOverIdx
      rw [← zipIdx_sum_go es F (fun k e => if rejected j = some k then 0 else e.ivar.getD j 0 * e.flux.getD j 0) (fun iv e => (List.zipWith (· * ·) iv e.flux).getD j 0) 0]
      · rw [List.map_zipWith]
      · intro i e he
        have hem := List.mem_of_getElem? he
        obtain ⟨a1, a2⟩ := hFj i e he
        rw [getD_zipWith_mul _ _ _ (by rw [a2, (hsE e hem).1, (hsE e hem).2.1]), a1]
        split
        · rw [zero_mul]
        · rfl
    rw [hceq, coaddFrom_eqM]
    simp only [mkSpectrum]
    rw [getD_map_range, if_pos hj, hcs, hcf, colSum_flux]
    refine ⟨fun h0 => by rw [if_pos h0], fun h0 => ⟨by rw [if_neg h0], ?_⟩⟩
    intro i _
    have hd0 := (hsE e0 he0).2.2.1
    rw [entry_mul _ _ _ _ (by simp [hd0])]
    have e1 : sumOver es (fun e' => e'.ivar.getD j 0 * e'.R.entry i j) =
        ∑ k ∈ Finset.range e0.R.offsets.length, if (j : Int) - (i : Int) = e0.R.offsets.getD k 0 then sumOver es (fun e' => (e'.R.data.getD k []).getD j 0 * e'.ivar.getD j 0) else 0 := by
      have : sumOver es (fun e' => e'.ivar.getD j 0 * e'.R.entry i j) = sumOver es (fun e' => ∑ k ∈ Finset.range e0.R.offsets.length,
          if (j : Int) - (i : Int) = e0.R.offsets.getD k 0 then (e'.R.data.getD k []).getD j 0 * e'.ivar.getD j 0 else 0) := by
        apply sumOver_congr
        intro e' he'
        have := entry_mul e'.R.offsets e'.R.data i j (hsE e' he').2.2.1
        rw [show e'.R = ⟨e'.R.offsets, e'.R.data⟩ from rfl, this, (hcE e' he').2, Finset.mul_sum]
        apply Finset.sum_congr rfl
        intro k _
        split
        · rw [mul_comm]
        · rw [mul_zero]
      rw [this, sumOver_finset]
      apply Finset.sum_congr rfl
      intro k _
      split
      · rfl
      · simp [sumOver]
    rw [e1, Finset.sum_div]
    apply Finset.sum_congr rfl
    intro k' hk'
    rw [Finset.mem_range] at hk'
    rw [getD_map_range, hd0, if_pos hk', getD_map_range, if_pos hj, hcs, if_neg h0]
    split
    · rfl
    · rw [zero_div]
  clear h
  generalize distinctKeys (spectra.map (·.wavehash)) = keys at hf hall
  constructor
  · induction hf with
    | nil => rfl
    | cons hkc _ ih =>
      rw [List.map_cons, (hcoadd _ _ (hall _ List.mem_cons_self) hkc).1, ih (fun x hx => hall x (List.mem_cons_of_mem _ hx))]
  · intro c hcm
    induction hf with
    | nil => simp at hcm
    | cons hkc _ ih =>
      rcases List.mem_cons.1 hcm with rfl | hcm
      · obtain ⟨a, b⟩ := hcoadd _ _ (hall _ List.mem_cons_self) hkc
        rw [a]
        exact b
      · exact ih (fun x hx => hall x (List.mem_cons_of_mem _ hx)) hcm

theorem mapM_ok_each {α γ : Type} {f : α → Py γ} {l : List α} {r : List γ} (h : l.mapM f = .ok r) (a : α) (ha : a ∈ l) : ∃ b, f a = .ok b := by
  have := mapM_inv _ _ _ h
  clear h
  induction this with
  | nil => simp at ha
  | cons h _ ih =>
    rcases List.mem_cons.1 ha with rfl | ha
    · exact ⟨_, h⟩
    · exact ih ha

/-- **C42** an exposure without any good pixel makes coadding with cosmic rejection fail (`np.interp` without samples). -/
theorem C42_masked_exposure_fails (nsig : K) (hn : 0 < nsig) (spectra : List (Spectrum ω β K)) (e : Spectrum ω β K) (he : e ∈ spectra) (hm : ∀ v ∈ e.ivar, v ≤ 0) :
    ∃ err, computeCoadd nsig spectra = .error err := by
  cases h : computeCoadd nsig spectra with
  | error err => exact ⟨err, rfl⟩
  | ok out =>
    exfalso
    unfold computeCoadd at h
    rw [firstSeen_eq] at h
    have hk : e.wavehash ∈ distinctKeys (spectra.map (·.wavehash)) := (mem_distinctKeys _ _).2 (List.mem_map.2 ⟨e, he, rfl⟩)
    obtain ⟨c, hc⟩ := mapM_ok_each h _ hk
    have hem : e ∈ spectra.filter (fun s => decide (s.wavehash = e.wavehash)) := List.mem_filter.2 ⟨he, by simp⟩
    generalize spectra.filter (fun s => decide (s.wavehash = e.wavehash)) = es at hc hem
    cases es with
    | nil => simp at hem
    | cons e0 rest =>
      unfold coaddGroup at hc
      dsimp only at hc
      split at hc
      · exact absurd hc (by simp [throw, throwThe, MonadExceptOf.throw, bind, Except.bind])
      · split at hc
        · exact absurd hc (by simp [throw, throwThe, MonadExceptOf.throw, bind, Except.bind])
        · obtain ⟨gv, hgv, -⟩ := Except.bind_ok _ _ _ hc
          unfold cosmicGrads at hgv
          rw [if_pos hn] at hgv
          obtain ⟨g, hg⟩ := mapM_ok_each hgv e hem
          unfold cosmicGrad at hg
          rw [if_pos (by rw [List.all_eq_true]; intro v hv; simpa using hm v hv)] at hg
          exact absurd hg (by simp [throw, throwThe, MonadExceptOf.throw, bind, Except.bind])

/-! ### C70 -/

/-- Noise-free exposure of the true spectrum `t`: its flux is its resolution applied to `t`. -/
def NoiseFree (e : Spectrum ω β K) (t : Nat → K) : Prop := ∀ i < e.wave.length, e.flux.getD i 0 = ∑ j ∈ Finset.range e.wave.length, e.R.entry i j * t j

/-- **C70** (partial: only if the inverse variances of the exposures are proportional to each other and nothing is masked) the coadd of noise-free exposures is the coadded resolution applied to the true spectrum.
Missing: other inverse variances; it fails there, see `C70_refuted`. -/
theorem C70_noise_free_partial (nsig : K) (hn : nsig ≤ 0) (spectra : List (Spectrum ω β K)) (hs : ∀ e ∈ spectra, ShapedExp e) (hc : Compatible spectra) (t : ω → Nat → K) (ht : ∀ e ∈ spectra, NoiseFree e (t e.wavehash))
    (a : Spectrum ω β K → K) (v : ω → Nat → K) (ha : ∀ k ∈ spectra.map (·.wavehash), sumOver (spectra.filter (fun s => decide (s.wavehash = k))) a ≠ 0)
    (hv : ∀ k j, v k j ≠ 0) (hiv : ∀ e ∈ spectra, ∀ j < e.wave.length, e.ivar.getD j 0 = a e * v e.wavehash j) :
    ∃ out, computeCoadd nsig spectra = .ok out ∧ ∀ c ∈ out, NoiseFree c (t c.wavehash) := by
  obtain ⟨out, h1, h2, h3⟩ := C41_coadd nsig hn spectra hs hc
  refine ⟨out, h1, ?_⟩
  intro c hcm i hi
  have hco := h3 c hcm
  have hk : c.wavehash ∈ spectra.map (·.wavehash) := by
    rw [← mem_distinctKeys, ← h2]
    exact List.mem_map.2 ⟨c, hcm, rfl⟩
  have hA := ha _ hk
  set es := spectra.filter (fun s => decide (s.wavehash = c.wavehash)) with hes
  have hmem : ∀ e ∈ es, e ∈ spectra ∧ e.wavehash = c.wavehash ∧ e.wave = c.wave := by
    intro e he
    have h := List.mem_filter.1 he
    rw [decide_eq_true_eq] at h
    exact ⟨h.1, h.2, (hco.grid e he).1.symm⟩
  have hivj : ∀ e ∈ es, ∀ j < c.wave.length, e.ivar.getD j 0 = a e * v c.wavehash j := by
    intro e he j hj
    obtain ⟨m1, m2, m3⟩ := hmem e he
    rw [← m2]
    exact hiv e m1 j (by rw [m3]; exact hj)
  have hW : ∀ j < c.wave.length, sumOver es (fun e => e.ivar.getD j 0) = sumOver es a * v c.wavehash j := by
    intro j hj
    rw [← sumOver_mul_right]
    exact sumOver_congr (fun e he => hivj e he j hj)
  have hW0 : ∀ j < c.wave.length, sumOver es (fun e => e.ivar.getD j 0) ≠ 0 := by
    intro j hj
    rw [hW j hj]
    exact mul_ne_zero hA (hv _ _)
  have hR : ∀ j < c.wave.length, c.R.entry i j = sumOver es (fun e => a e * e.R.entry i j) / sumOver es a := by
    intro j hj
    rw [hco.resolution i j hi hj, if_neg (hW0 j hj), hW j hj]
    have : sumOver es (fun e => e.ivar.getD j 0 * e.R.entry i j) = sumOver es (fun e => a e * e.R.entry i j) * v c.wavehash j := by
      rw [← sumOver_mul_right]
      apply sumOver_congr
      intro e he
      rw [hivj e he j hj]
      ring
    rw [this, mul_div_mul_right _ _ (hv _ _)]
  rw [hco.weighted i hi (hW0 i hi), hW i hi]
  have hF : sumOver es (fun e => e.ivar.getD i 0 * e.flux.getD i 0) = sumOver es (fun e => a e * e.flux.getD i 0) * v c.wavehash i := by
    rw [← sumOver_mul_right]
    apply sumOver_congr
    intro e he
    rw [hivj e he i hi]
    ring
  rw [hF, mul_div_mul_right _ _ (hv _ _)]
  have hfl : sumOver es (fun e => a e * e.flux.getD i 0) = ∑ j ∈ Finset.range c.wave.length, sumOver es (fun e => a e * e.R.entry i j) * t c.wavehash j := by
    rw [Finset.sum_congr rfl (fun j _ => (sumOver_mul_right es (fun e => a e * e.R.entry i j) (t c.wavehash j)).symm), ← sumOver_finset]
    apply sumOver_congr
    intro e he
    obtain ⟨m1, m2, m3⟩ := hmem e he
    have := ht e m1 i (by rw [m3]; exact hi)
    rw [this, m3, m2, Finset.mul_sum]
    apply Finset.sum_congr rfl
    intro j _
    ring
  rw [hfl, Finset.sum_div]
  apply Finset.sum_congr rfl
  intro j hj
  rw [hR j (Finset.mem_range.1 hj)]
  ring

/-! ### C71 -/

/-- **C71** the bands of a target (DESI: the wavehash of a spectrum is its band) that is coadded at construction, or later, are those of its spectra exactly if no band has more than one exposure; they are always those
of the exposures. -/
theorem C71_bands_after_coadd (nsig : K) (hn : nsig ≤ 0) (spectra : List (Spectrum ω ω K)) (hs : ∀ e ∈ spectra, ShapedExp e) (hc : Compatible spectra) (hb : ∀ e ∈ spectra, e.wavehash = e.band) :
    ∃ t, mkTarget spectra true nsig = .ok t ∧ (do let t ← mkTarget spectra false nsig; t.coadd nsig) = .ok t ∧
      t.bands = spectra.map (·.band) ∧ t.spectra.map (·.band) = distinctKeys (spectra.map (·.band)) ∧
      (t.bands = t.spectra.map (·.band) ↔ (spectra.map (·.band)).Nodup) := by
  obtain ⟨out, h1, h2, h3⟩ := C41_coadd nsig hn spectra hs hc
  have hband : out.map (·.band) = distinctKeys (spectra.map (·.band)) := by
    have e1 : spectra.map (·.wavehash) = spectra.map (·.band) := List.map_congr_left hb
    rw [← e1, ← h2]
    apply List.map_congr_left
    intro c hcm
    have hk : c.wavehash ∈ spectra.map (·.wavehash) := by
      rw [← mem_distinctKeys, ← h2]
      exact List.mem_map.2 ⟨c, hcm, rfl⟩
    obtain ⟨e, he, hek⟩ := List.mem_map.1 hk
    have := ((h3 c hcm).grid e (List.mem_filter.2 ⟨he, by simpa using hek⟩)).2.1
    rw [this, ← hb e he, hek]
  refine ⟨⟨out, spectra.map (·.band)⟩, ?_, ?_, rfl, hband, ?_⟩
  · unfold mkTarget
    rw [if_pos rfl, h1]
    rfl
  · show (do let sp ← computeCoadd nsig spectra; pure { spectra := sp, bands := spectra.map (·.band) } : Py (CoTarget ω ω K)) = _
    rw [h1]
    rfl
  · show spectra.map (·.band) = out.map (·.band) ↔ _
    rw [hband]
    constructor
    · intro h; rw [h]; exact nodup_distinctKeys _
    · intro h; rw [distinctKeys_of_nodup _ h]

end

/-! ### concrete cases -/

instance (e : Spectrum String String ℚ) : Decidable (ShapedExp e) := by unfold ShapedExp; infer_instance
instance (l : List (Spectrum String String ℚ)) : Decidable (Compatible l) := by unfold Compatible; infer_instance

/-- resolution with rows 1/4, 1/2, 1/4 (3/4, 1/4 at the ends), on 5 pixels -/
def exR5 : Dia ℚ := ⟨[-1, 0, 1], [[1/4, 1/4, 1/4, 1/4, 0], [3/4, 1/2, 1/2, 1/2, 3/4], [0, 1/4, 1/4, 1/4, 1/4]]⟩

/-- one exposure with one masked pixel -/
def exMasked : Spectrum String String ℚ := ⟨[1, 2, 3, 4, 5], [1, 2, 3, 4, 5], [1, 1, 0, 1, 1], exR5, "b", "b"⟩

/-- **C41** (refuted for a single exposure) the exposure `exMasked` is normalised and has one masked pixel; after coadding this one exposure, also the two neighbours are masked, and the resolution has lost a column. -/
theorem C41_mask_grows : ShapedExp exMasked ∧ (∀ i, i < 5 → exMasked.R.rowSum 5 i = 1) ∧
    ∃ c, computeCoadd 0 [exMasked] = .ok [c] ∧ c.flux = exMasked.flux ∧ exMasked.ivar = [1, 1, 0, 1, 1] ∧ c.ivar = [1, 0, 0, 0, 1] ∧ exMasked.R.entry 1 2 = 1 / 4 ∧ c.R.entry 1 2 = 0 := by
  refine ⟨by decide +kernel, by decide +kernel, ?_⟩
  refine ⟨⟨[1, 2, 3, 4, 5], [1, 2, 3, 4, 5], [1, 0, 0, 0, 1], ⟨[-1, 0, 1], [[1/4, 1/4, 0, 1/4, 0], [3/4, 1/2, 0, 1/2, 3/4], [0, 1/4, 0, 1/4, 1/4]]⟩, "b", "b"⟩, ?_⟩
  decide +kernel

/-- flux rises in the last pixel -/
def exStep : Spectrum String String ℚ := ⟨[1, 2], [0, 100], [1, 1], ⟨[0], [[1, 1]]⟩, "b", "b"⟩

/-- **C42** (refuted) of two identical exposures, one loses a pixel: the weight of the pixel is 1 instead of 2 (threshold 4 sigma). -/
theorem C42_identical_exposures_rejected : ∃ c, computeCoadd 4 [exStep, exStep] = .ok [c] ∧ exStep.ivar = [1, 1] ∧ c.ivar = [2, 1] := by
  refine ⟨⟨[1, 2], [0, 100], [2, 1], ⟨[0], [[1, 2]]⟩, "b", "b"⟩, ?_⟩
  decide +kernel

/-- **C42** (refuted) after a rejection the resolution is not a weighted mean of the resolutions: both exposures have 1 on the diagonal, the coadd has 2. -/
theorem C42_resolution_not_mean : ∃ c, computeCoadd 4 [exStep, exStep] = .ok [c] ∧ exStep.R.entry 1 1 = 1 ∧ c.R.entry 1 1 = 2 ∧ 0 < c.ivar.getD 1 0 := by
  refine ⟨⟨[1, 2], [0, 100], [2, 1], ⟨[0], [[1, 2]]⟩, "b", "b"⟩, ?_⟩
  decide +kernel

/-- two exposures of a flat spectrum with different resolutions and inverse variances -/
def exFlat1 : Spectrum String String ℚ := ⟨[1, 2], [1, 1], [1, 1], ⟨[-1, 0, 1], [[0, 0], [1, 1], [0, 0]]⟩, "b", "b"⟩
def exFlat2 : Spectrum String String ℚ := ⟨[1, 2], [1, 1], [1, 3], ⟨[-1, 0, 1], [[1/2, 0], [1/2, 1/2], [0, 1/2]]⟩, "b", "b"⟩

/-- **C70** (refuted) two noise-free exposures of the flat spectrum 1, with normalised resolutions and no masked pixel: the coadded flux is 1 in the first pixel, but the coadded resolution applied to the flat spectrum gives
9/8 there, and the pixel is used. (The diagonals are weighted with the inverse variance of the column instead of that of the row.) -/
theorem C70_refuted : NoiseFree exFlat1 (fun _ => 1) ∧ NoiseFree exFlat2 (fun _ => 1) ∧ (∀ v ∈ exFlat1.ivar ++ exFlat2.ivar, 0 < v) ∧
    ∃ c, computeCoadd 0 [exFlat1, exFlat2] = .ok [c] ∧ c.ivar.getD 0 0 = 2 ∧ c.flux.getD 0 0 = 1 ∧ ∑ j ∈ Finset.range 2, c.R.entry 0 j * 1 = 9 / 8 := by
  refine ⟨?_, ?_, by decide +kernel, ⟨[1, 2], [1, 1], [2, 0], ⟨[-1, 0, 1], [[1/4, 0], [3/4, 5/8], [0, 3/8]]⟩, "b", "b"⟩, by decide +kernel⟩
  · unfold NoiseFree; decide +kernel
  · unfold NoiseFree; decide +kernel

/-- a case of `C41_coadd`, `C41_order` and `C71_bands_after_coadd`: two exposures in b, one in r -/
def exExposures : List (Spectrum String String ℚ) :=
  [⟨[1, 2], [1, 2], [1, 0], ⟨[0], [[1, 1]]⟩, "b", "b"⟩, ⟨[3, 4, 5], [7, 8, 9], [1, 0, 2], ⟨[0], [[1, 1, 1]]⟩, "r", "r"⟩, ⟨[1, 2], [3, 5], [3, 0], ⟨[0], [[1, 1]]⟩, "b", "b"⟩]

example : (∀ e ∈ exExposures, ShapedExp e) ∧ Compatible exExposures ∧ (∀ e ∈ exExposures, e.wavehash = e.band) := by decide +kernel

example : (computeCoadd 0 exExposures).map (fun l => l.map (fun c => (c.wavehash, c.flux, c.ivar))) =
    .ok [("b", [5/2, 7/2], [4, 0]), ("r", [7, 8, 9], [1, 0, 2])] := by decide +kernel

example : (mkTarget exExposures true 0).map (fun t => (t.bands, t.spectra.map (·.band))) = .ok (["b", "r", "b"], ["b", "r"]) := by decide +kernel

/-- a case of `C70_noise_free_partial`: proportional inverse variances -/
example : ∃ out, computeCoadd 0 [exFlat1, { exFlat2 with ivar := [3, 3] }] = .ok out ∧ ∀ c ∈ out, NoiseFree c (fun _ => 1) := by
  apply C70_noise_free_partial 0 le_rfl _ (by decide +kernel) (by decide +kernel) (fun _ _ => 1) _ (fun e => e.ivar.getD 0 0) (fun _ _ => 1) _ (by simp)
  · intro e he
    simp only [List.mem_cons, List.not_mem_nil, or_false] at he
    rcases he with rfl | rfl <;> (intro j hj; have : j = 0 ∨ j = 1 := by (change j < 2 at hj; omega)) <;> rcases this with rfl | rfl <;> decide +kernel
  · intro e he
    simp only [List.mem_cons, List.not_mem_nil, or_false] at he
    rcases he with rfl | rfl <;> (unfold NoiseFree; decide +kernel)
  · intro k hk
    simp only [List.map_cons, List.map_nil, List.mem_cons, List.not_mem_nil, or_false] at hk
    rcases hk with rfl | rfl <;> decide +kernel

/-- an entirely masked exposure with rejection -/
example : computeCoadd (4 : ℚ) [exStep, { exStep with ivar := [0, 0] }] = .error .valueError := by decide +kernel

end Redrock
