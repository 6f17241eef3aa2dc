import Verif.Props.ArchetypeBest

/-! Property C76: the model that `eval_model` draws for an archetype fit is the model whose chi2 was reported. -/
set_option linter.unusedSectionVars false
namespace Redrock

theorem pySplit_semicolon (labels : List PyStr) (hne : labels ≠ []) (h : ∀ l ∈ labels, ';' ∉ l) : pySplit [';'] (List.intercalate [';'] labels) = labels := by
  induction labels with
  | nil => exact absurd rfl hne
  | cons a rest ih =>
    have ha : ';' ∉ a := h a (by simp)
    cases rest with
    | nil =>
      have : List.intercalate [';'] [a] = a := by simp [List.intercalate]
      rw [this, pySplit, pySplitAux_none]
      · simp
      · intro hc
        exact ha (hc.subset (by simp))
    | cons b rest =>
      have : List.intercalate [';'] (a :: b :: rest) = a ++ [';'] ++ List.intercalate [';'] (b :: rest) := by
        simp [List.intercalate]
      rw [this, pySplit, pySplitAux_first [';'] (by simp)]
      · rw [ih (by simp) (fun l hl => h l (List.mem_cons_of_mem _ hl))]
        simp
      · intro i hi hc
        rw [List.append_assoc, List.drop_append_of_le_length (by omega)] at hc
        obtain ⟨x, xs, hx⟩ := List.exists_cons_of_ne_nil (show a.drop i ≠ [] by intro h; have := List.drop_eq_nil_iff.1 h; omega)
        rw [hx] at hc
        have hx2 : ';' = x := by
          have := hc.eq_of_length_le
          obtain ⟨u, hu⟩ := hc
          simp only [List.cons_append, List.nil_append, List.cons.injEq] at hu
          exact hu.1
        apply ha
        rw [hx2]
        exact List.mem_of_mem_drop (by rw [hx]; simp : x ∈ a.drop i)

section
variable {K ω : Type} [Field K] [LinearOrder K] [IsStrictOrderedRing K] [DecidableEq ω]
variable {A : Archetype K} {t : ArchTarget ω K} {z : K} {trans : PyDict ω (Option (List K))} {B : ω → List (List K)} {X : ω → List K} {tr : ω → Option (List K)}

/-- The transmission that `eval_model` computes is the one that was used in the fit (where `none` stands for no absorption). -/
def SameTransmission (igm : K → List K → Py (List K)) (t : ArchTarget ω K) (z : K) (tr : ω → Option (List K)) : Prop :=
  ∀ s ∈ t.spectra, ∃ T, igm z (t.wave s.wavehash) = .ok T ∧ (tr s.wavehash = some T ∨ (tr s.wavehash = none ∧ T = List.replicate (t.wave s.wavehash).length 1))

theorem zipWith_replicate_one (row : List K) (f : K → K) (m : Nat) (h : row.length = m) : List.zipWith (fun b t => f (b * t)) row (List.replicate m 1) = row.map f := by
  induction row generalizing m with
  | nil => simp
  | cons a row ih =>
    cases m with
    | zero => simp at h
    | succ m =>
      simp only [List.replicate_succ, List.zipWith_cons_cons, mul_one, List.map_cons]
      rw [ih m (by simpa using h)]

theorem absorbed_scaled (tr : Option (List K)) (T row : List K) (m : Nat) (hrow : row.length = m) (h : tr = some T ∨ (tr = none ∧ T = List.replicate m 1)) (c : K) :
    List.zipWith (fun b t => c * (b * t)) row T = (absorbed tr row).map (fun v => c * v) := by
  rcases h with rfl | ⟨rfl, rfl⟩
  · unfold absorbed
    simp only [List.map_zipWith]
  · rw [zipWith_replicate_one row (fun v => c * v) m hrow]
    rfl

/-- one archetype is rebinned as all of them -/
theorem rebin_one (hI : A.rebinAll z wave = .ok Bh) (j : Nat) (y : List K) (hy : A.flux[j]? = some y) :
    ∃ edges, centers2edges wave = .ok edges ∧ trapzRebin (A.wave.map (fun v => (1 + z) * v)) [y] edges [0] = .ok [[Bh.getD j []]] := by
  have hI' := hI
  unfold Archetype.rebinAll at hI
  obtain ⟨edges, h1, h⟩ := Except.bind_ok _ _ _ hI
  obtain ⟨r, h2, h⟩ := Except.bind_ok _ _ _ h
  refine ⟨edges, h1, ?_⟩
  obtain ⟨rows, rfl, h3⟩ := trapzRebin_single _ _ _ _ _ h2
  obtain rfl : rows = Bh := Except.ok.inj h
  have hj := (List.getElem?_eq_some_iff.1 hy).1
  have hB := (rebinAll_shape A z wave rows hI').1
  have h5 : trapzRebinZ (A.wave.map (fun v => (1 + z) * v)) [y] edges 0 = .ok [rows.getD j []] := by
    have hyv := (mapM_inv _ _ _ h3)
    have hget := List.forall₂_iff_get.1 hyv
    have := hget.2 j hj (by omega)
    simp only [List.get_eq_getElem] at this
    have e : A.flux[j] = y := (List.getElem?_eq_some_iff.1 hy).2
    rw [e] at this
    unfold trapzRebinZ
    rw [List.mapM_cons, this, okBind, List.mapM_nil, List.getD_eq_getElem?_getD, List.getElem?_eq_getElem (by omega)]
    rfl
  unfold trapzRebin at h2 ⊢
  obtain ⟨a1, e1, h2⟩ := Except.bind_ok _ _ _ h2
  obtain ⟨a2, e2, h2⟩ := Except.bind_ok _ _ _ h2
  rw [if_neg (by simp)] at h2 
  obtain ⟨_, e0, h2⟩ := Except.bind_ok _ _ _ h2
  obtain ⟨a3, e3, h2⟩ := Except.bind_ok _ _ _ h2
  obtain ⟨a4, e4, h2⟩ := Except.bind_ok _ _ _ h2
  obtain ⟨a5, e5, h2⟩ := Except.bind_ok _ _ _ h2
  rw [e1, okBind, e2, okBind, if_neg (by simp)]
  rw [e0, okBind, e3, okBind, e4, okBind, e5, okBind]
  split at h2
  · cases h2
  · rename_i hc
    rw [if_neg hc]
    unfold trapzRebinBatch
    rw [List.mapM_cons, h5, okBind, List.mapM_nil]
    rfl


/-- the archetype part of `eval` -/
theorem evalArchSum_eq (igm : K → List K → Py (List K)) (wave : List K) (hB : A.rebinAll z wave = .ok Bh) (T : List K) (hT : igm z wave = .ok T) (tr : Option (List K))
    (htr : tr = some T ∨ (tr = none ∧ T = List.replicate wave.length 1)) (hTl : T.length = wave.length) (hnd : A.subtype.Nodup) (terms : List (Nat × PyStr × K))
    (ht : ∀ e ∈ terms, e.1 < A.flux.length ∧ A.subtype[e.1]? = some e.2.1) (acc : List K) (hacc : acc.length = wave.length) :
    (terms.map (fun e => (e.2.1, e.2.2))).foldlM (evalArchStep igm A wave z) acc =
      .ok ((List.range wave.length).map (fun p => acc.getD p 0 + (terms.map (fun e => e.2.2 * (absorbed tr (Bh.getD e.1 [])).getD p 0)).sum)) := by
  have hBs := rebinAll_shape A z wave Bh hB
  induction terms generalizing acc with
  | nil =>
    simp only [List.map_nil, List.foldlM_nil, List.sum_nil, add_zero]
    refine congrArg Except.ok ?_
    apply List.ext_getElem
    · simp [hacc]
    · intro p h1 h2
      simp [List.getD_eq_getElem?_getD, List.getElem?_eq_getElem h1]
  | cons e terms ih =>
    obtain ⟨h1, h2⟩ := ht e (by simp)
    have hidx : A.subtype.findIdx? (fun s => decide (s = e.2.1)) = some e.1 := by
      obtain ⟨hl, he⟩ := List.getElem?_eq_some_iff.1 h2
      rw [List.findIdx?_eq_some_iff_getElem]
      refine ⟨hl, by simpa using he, ?_⟩
      intro j hj
      simp only [decide_eq_true_eq]
      intro hc
      have := (List.Nodup.getElem_inj_iff hnd (hi := by omega) (hj := hl)).1 (hc.trans he.symm)
      omega
    obtain ⟨edges, h3, h4⟩ := rebin_one hB e.1 _ (List.getElem?_eq_getElem h1)
    have hrow : (Bh.getD e.1 []).length = wave.length := by
      rw [List.getD_eq_getElem?_getD, List.getElem?_eq_getElem (by omega)]
      exact hBs.2 _ (List.getElem_mem _)
    have habs : (absorbed tr (Bh.getD e.1 [])).length = wave.length := by
      rw [absorbed_length, hrow]
      intro T' hT'
      rcases htr with h | h
      · rw [h] at hT'; cases hT'; rw [hTl, hrow]
      · rw [h.1] at hT'; cases hT'
    have hg : npGet A.flux e.1 = .ok A.flux[e.1] := (npGet_ok _ _ _).2 (List.getElem?_eq_getElem h1)
    have g0 : ∀ {V : Type} (v : V), npGet [v] 0 = .ok v := fun v => rfl
    have hstep : evalArchStep igm A wave z acc (e.2.1, e.2.2) = .ok (List.zipWith (· + ·) acc ((absorbed tr (Bh.getD e.1 [])).map (fun v => e.2.2 * v))) := by
      unfold evalArchStep
      simp only [hidx, okBind, hg, h3, h4, hT, g0]
      rw [absorbed_scaled tr T _ wave.length hrow htr]
      rfl
    have hlen2 : (List.zipWith (· + ·) acc ((absorbed tr (Bh.getD e.1 [])).map (fun v => e.2.2 * v))).length = wave.length := by
      rw [List.length_zipWith, List.length_map, habs, hacc, min_self]
    rw [List.map_cons, List.foldlM_cons, hstep, okBind, ih (fun e' he' => ht e' (List.mem_cons_of_mem _ he')) _ hlen2]
    congr 1
    apply List.map_congr_left
    intro p hp
    have hp := List.mem_range.1 hp
    rw [List.map_cons, List.sum_cons, ← add_assoc]
    congr 1
    simp only [List.getD_eq_getElem?_getD, List.getElem?_zipWith, List.getElem?_map]
    rw [List.getElem?_eq_getElem (show p < acc.length by omega), List.getElem?_eq_getElem (show p < (absorbed tr (Bh[e.1]?.getD [])).length by
      rw [← List.getD_eq_getElem?_getD]; omega)]
    simp

/-- the template row and the coefficients -/
theorem sum_zip_getD {α : Type} (js : List α) (a : List K) (g : α → K) (h : js.length = a.length) :
    ((js.zip a).map (fun e => e.2 * g e.1)).sum = ∑ k ∈ Finset.range js.length, (js.map g).getD k 0 * a.getD k 0 := by
  rw [← dotv_eq_sum (js.map g) a js.length (by simp) h.symm]
  unfold dotv
  rw [List.zipWith_map_left]
  clear h
  induction js generalizing a with
  | nil => simp
  | cons j js ih =>
    cases a with
    | nil => simp
    | cons x a =>
      simp only [List.zip_cons_cons, List.map_cons, List.sum_cons, List.zipWith_cons_cons]
      rw [ih a, mul_comm]

/-- `Archetype.eval` on one spectrum: the model of the fit -/
theorem eval_camera (igm : K → List K → Py (List K)) (leg : Nat → K → K) (nleg : Nat) (ht : GoodTarget t) (hI : ArchInput A t z trans B X tr) (hnd : A.subtype.Nodup) (js : List Nat)
    (labels : List PyStr) (hjs : ∀ j ∈ js, j < A.flux.length) (hlab : List.Forall₂ (fun j label => A.subtype[j]? = some label) js labels) (hne : labels ≠ []) (hsemi : ∀ l ∈ labels, ';' ∉ l)
    (htr : SameTransmission igm t z tr) (a block : List K) (ha : a.length = js.length) (hb : block.length = nleg) (s : FitSpectrum ω K) (hs : s ∈ t.spectra) :
    A.eval igm leg (List.intercalate [';'] labels) a (t.wave s.wavehash) z (some s.R) (some block) =
      .ok ((List.range s.flux.length).map (cameraModelAt s.R (archTmpl leg nleg t B X tr js s.wavehash) js.length nleg a block)) := by
  obtain ⟨T, hT, hcase⟩ := htr s hs
  have hTl : T.length = (t.wave s.wavehash).length := by
    rcases hcase with h | h
    · exact hI.transLen s hs T h
    · rw [h.2]; simp
  have hll : labels.length = js.length := hlab.length_eq.symm
  unfold Archetype.eval
  rw [pySplit_semicolon labels hne hsemi]
  dsimp only
  rw [show a.take labels.length = a by rw [List.take_of_length_le (by omega)]]
  have hterms : labels.zip a = ((js.zip (labels.zip a)).map (fun e => (e.2.1, e.2.2))) := by
    have : (js.zip (labels.zip a)).map Prod.snd = labels.zip a := by rw [List.map_snd_zip (by simp; omega)]
    conv_lhs => rw [← this]
  unfold evalArchSum
  rw [hterms, evalArchSum_eq igm (t.wave s.wavehash) (hI.rebinned s hs) T hT (tr s.wavehash) hcase hTl hnd (js.zip (labels.zip a)) ?_ _ (by simp), okBind]
  · rw [hb, legendreOn_eq leg nleg _ _ (hI.reduced s hs), okBind]
    rw [show ∀ x : List K, (pure x : Py (List K)) = .ok x from fun _ => rfl, okBind]
    refine congrArg Except.ok ?_
    obtain ⟨h1, h2, h3⟩ := ht.shape s hs
    have hX := reducedWavelength_length _ _ (hI.reduced s hs)
    unfold matVec
    apply List.ext_getElem
    · simp [h2]
    · intro p hp1 hp2
      have hp : p < s.R.length := by simpa using hp1
      simp only [List.getElem_map, List.getElem_range]
      rw [dotv_eq_sum _ _ (t.wave s.wavehash).length (h3 _ (List.getElem_mem _)) (by simp)]
      unfold cameraModelAt
      rw [(archTmpl_shape leg nleg t B X tr js s.wavehash).1]
      apply Finset.sum_congr rfl
      intro w hw
      have hw := Finset.mem_range.1 hw
      congr 1
      · simp [List.getD_eq_getElem?_getD, List.getElem?_eq_getElem hp]
      · have hmap : ∀ (f : Nat → K) (m : Nat), w < m → ((List.range m).map f).getD w 0 = f w := by
          intro f m hm
          rw [List.getD_eq_getElem?_getD, List.getElem?_map, List.getElem?_range hm]; rfl
        have hrow : (archTmpl leg nleg t B X tr js s.wavehash).getD w [] =
            (js.map (fun j => absorbed (tr s.wavehash) ((B s.wavehash).getD j []))).map (fun a => a.getD w 0) ++ (List.range nleg).map (fun l => leg l ((X s.wavehash).getD w 0)) := by
          unfold archTmpl archTemplate
          rw [List.getD_eq_getElem?_getD, List.getElem?_map, List.getElem?_range hw]; rfl
        rw [hmap _ _ (by simpa using hw), hmap _ _ hw, hrow]
        congr 1
        · have : (List.replicate (t.wave s.wavehash).length (0 : K)).getD w 0 = 0 := by simp [List.getD_eq_getElem?_getD, hw]
          rw [this, zero_add]
          have hz : (js.zip (labels.zip a)).map (fun e => e.2.2 * (absorbed (tr s.wavehash) ((B s.wavehash).getD e.1 [])).getD w 0) =
              (js.zip a).map (fun e => e.2 * (absorbed (tr s.wavehash) ((B s.wavehash).getD e.1 [])).getD w 0) := by
            apply List.ext_getElem
            · simp [hll, ha]
            · intro k _ _
              simp
          rw [hz, sum_zip_getD js a (fun j => (absorbed (tr s.wavehash) ((B s.wavehash).getD j [])).getD w 0) ha.symm]
          apply Finset.sum_congr rfl
          intro k hk
          have hk := Finset.mem_range.1 hk
          congr 1
          rw [List.getD_eq_getElem?_getD, List.getD_eq_getElem?_getD, List.getElem?_append_left (by simpa using hk), List.map_map]
          rfl
        · rw [dotv_eq_sum _ _ nleg (by simp) hb]
          apply Finset.sum_congr rfl
          intro l hl
          have hl := Finset.mem_range.1 hl
          congr 1
          rw [List.getD_eq_getElem?_getD (l := _ ++ _), List.getElem?_append_right (by simp)]
          simp only [List.length_map, Nat.add_sub_cancel_left]
          simp [List.getD_eq_getElem?_getD, hl, List.getElem?_eq_getElem (show w < (X s.wavehash).length by omega)]
  · rintro ⟨j, l, c⟩ he
    have hj := List.of_mem_zip he
    refine ⟨hjs j hj.1, ?_⟩
    obtain ⟨k, hk, hke⟩ := List.getElem_of_mem he
    have hk' : k < js.length := by simp only [List.length_zip] at hk; omega
    have := (List.forall₂_iff_get.1 hlab).2 k hk' (by omega)
    simp only [List.get_eq_getElem] at this
    simp only [List.getElem_zip, Prod.mk.injEq] at hke
    rw [← hke.1, ← hke.2.1]
    exact this


/-- chi2 of a model with the same polynomials on all spectra -/
theorem chi2_common (spectra : List (FitSpectrum ω K)) (T : ω → List (List K)) (n nleg : Nat) (c : List K) :
    chi2Of spectra T (n + nleg) c = cameraChi2 spectra T n nleg (c.take n) (spectra.map (fun _ => (c.drop n).take nleg)) := by
  unfold chi2Of cameraChi2
  rw [sum_map_zipIdx_congr _ (fun s i => ∑ p ∈ Finset.range s.flux.length,
    s.ivar.getD p 0 * (s.flux.getD p 0 - cameraModelAt s.R (T s.wavehash) n nleg (c.take n) ((spectra.map (fun _ => (c.drop n).take nleg)).getD i []) p) ^ 2) spectra 0]
  intro i s hs
  have hi : i < spectra.length := (List.getElem?_eq_some_iff.1 hs).1
  apply Finset.sum_congr rfl
  intro p _
  congr 3
  unfold modelAt cameraModelAt
  apply Finset.sum_congr rfl
  intro w hw
  congr 1
  rw [Finset.sum_range_add]
  congr 1
  · apply Finset.sum_congr rfl
    intro k hk
    rw [Finset.mem_range] at hk
    simp [List.getD_eq_getElem?_getD, List.getElem?_take, hk]
  · apply Finset.sum_congr rfl
    intro k hk
    rw [Finset.mem_range] at hk
    simp [List.getD_eq_getElem?_getD, List.getElem?_take, hk, hi, List.getElem?_drop]

/-- Weighted squared residuals of the spectra against a model, the way a user computes them from the output of `eval_model`: `Σ ivar (flux - model[wavehash])²`. -/
def modelChi2 (spectra : List (FitSpectrum ω K)) (model : PyDict ω (List K)) : K :=
  (spectra.map (fun s => ∑ p ∈ Finset.range s.flux.length, s.ivar.getD p 0 * (s.flux.getD p 0 - ((model.get? s.wavehash).getD []).getD p 0) ^ 2)).sum

/-- the polynomial coefficients a spectrum gets -/
def LegCoeff.block (l : LegCoeff K) (i : Nat) : List K :=
  match l with
  | .one c => c
  | .each cs => cs.getD i []

theorem foldlM_dict_ok {α κ ν : Type} [DecidableEq κ] (l : List (α × Nat)) (key : α → κ) (f : α × Nat → Py ν) (g : α × Nat → ν) (h : ∀ e ∈ l, f e = .ok (g e)) (d : PyDict κ ν) :
    l.foldlM (fun d e => (do
      let m ← f e
      return PyDict.set d (key e.1) m : Py (PyDict κ ν))) d = .ok (l.foldl (fun d e => PyDict.set d (key e.1) (g e)) d) := by
  induction l generalizing d with
  | nil => rfl
  | cons e l ih =>
    rw [List.foldlM_cons, h e (by simp), okBind, show ∀ x : PyDict κ ν, (pure x : Py (PyDict κ ν)) = .ok x from fun _ => rfl, okBind, ih (fun e' he' => h e' (List.mem_cons_of_mem _ he')), List.foldl_cons]

theorem zipIdx_keys {α κ ν : Type} (l : List α) (key : α → κ) (g : α × Nat → ν) (k : Nat) : PyDict.keys ((l.zipIdx k).map (fun si => (key si.1, g si))) = l.map key := by
  induction l generalizing k with
  | nil => rfl
  | cons a l ih =>
    have := ih (k + 1)
    simp only [PyDict.keys] at this ⊢
    simp only [List.zipIdx_cons, List.map_cons, this]

/-- `eval_model` for archetypes: the dictionary holds, for spectrum number `i`, the camera model with polynomial coefficients number `i` -/
theorem evalModelArch_eq (igm : K → List K → Py (List K)) (leg : Nat → K → K) (nleg : Nat) (ht : GoodTarget t) (hI : ArchInput A t z trans B X tr) (hnd : A.subtype.Nodup) (js : List Nat)
    (labels : List PyStr) (hjs : ∀ j ∈ js, j < A.flux.length) (hlab : List.Forall₂ (fun j label => A.subtype[j]? = some label) js labels) (hne : labels ≠ []) (hsemi : ∀ l ∈ labels, ';' ∉ l)
    (htr : SameTransmission igm t z tr) (archetypes : PyDict PyStr (Archetype K)) (spectype : PyStr) (hA : archetypes.get? spectype = some A) (a : List K) (ha : a.length = js.length) (legc : LegCoeff K)
    (hblock : ∀ i, i < t.spectra.length → (legc.block i).length = nleg) (hcs : ∀ cs, legc = .each cs → cs.length = t.spectra.length) (hnz : ∃ c ∈ a, c ≠ 0) :
    evalModelArch igm leg archetypes t spectype (List.intercalate [';'] labels) a legc z =
      .ok (t.spectra.zipIdx.map (fun si => (si.1.wavehash, (List.range si.1.flux.length).map
        (cameraModelAt si.1.R (archTmpl leg nleg t B X tr js si.1.wavehash) js.length nleg a (legc.block si.2))))) := by
  unfold evalModelArch
  rw [if_neg (by
    rw [List.all_eq_true]
    intro h
    obtain ⟨c, hc, hc0⟩ := hnz
    exact hc0 (of_decide_eq_true (h c hc)))]
  rw [pySplit_semicolon labels hne hsemi, dict_get_of_get? _ _ _ hA, okBind, show a.take labels.length = a by rw [List.take_of_length_le (by rw [ha, hlab.length_eq])]]
  rw [foldlM_dict_ok t.spectra.zipIdx (fun s : FitSpectrum ω K => s.wavehash) (archModelOf igm leg A t (List.intercalate [';'] labels) a legc z)
    (fun si => (List.range si.1.flux.length).map (cameraModelAt si.1.R (archTmpl leg nleg t B X tr js si.1.wavehash) js.length nleg a (legc.block si.2)))]
  · congr 1
    rw [foldl_set_new (fun si : FitSpectrum ω K × Nat => si.1.wavehash)]
    · simp
    · have : (t.spectra.zipIdx.map (fun si => si.1.wavehash)) = t.spectra.map (·.wavehash) := by
        have := zipIdx_keys t.spectra (fun s => s.wavehash) (fun _ => ()) 0
        rw [PyDict.keys, List.map_map] at this
        exact this
      simpa [PyDict.keys, this] using ht.grids
  · rintro ⟨s, i⟩ hsi
    have hsi := List.mk_mem_zipIdx_iff_getElem?.1 hsi
    have hi : i < t.spectra.length := (List.getElem?_eq_some_iff.1 hsi).1
    have hlc : archModelOf igm leg A t (List.intercalate [';'] labels) a legc z (s, i) =
        A.eval igm leg (List.intercalate [';'] labels) a (t.wave s.wavehash) z (some s.R) (some (legc.block i)) := by
      unfold archModelOf
      cases legc with
      | one c => rfl
      | each cs =>
        have h1 := hcs cs rfl
        have h2 : npGet cs i = .ok (cs.getD i []) := by
          rw [npGet_ok, List.getD_eq_getElem?_getD, List.getElem?_eq_getElem (by omega)]
          rfl
        simp only [LegCoeff.block, h2, okBind]
    rw [hlc]
    exact eval_camera igm leg nleg ht hI hnd js labels hjs hlab hne hsemi htr a _ ha (hblock i hi) s (List.mem_of_getElem? hsi)

/-- the chi2 of the model drawn by `eval_model` -/
theorem evalModelArch_chi2 (igm : K → List K → Py (List K)) (leg : Nat → K → K) (nleg : Nat) (ht : GoodTarget t) (hI : ArchInput A t z trans B X tr) (hnd : A.subtype.Nodup) (js : List Nat)
    (labels : List PyStr) (hjs : ∀ j ∈ js, j < A.flux.length) (hlab : List.Forall₂ (fun j label => A.subtype[j]? = some label) js labels) (hne : labels ≠ []) (hsemi : ∀ l ∈ labels, ';' ∉ l)
    (htr : SameTransmission igm t z tr) (archetypes : PyDict PyStr (Archetype K)) (spectype : PyStr) (hA : archetypes.get? spectype = some A) (a : List K) (ha : a.length = js.length) (legc : LegCoeff K)
    (hblock : ∀ i, i < t.spectra.length → (legc.block i).length = nleg) (hcs : ∀ cs, legc = .each cs → cs.length = t.spectra.length) (hnz : ∃ c ∈ a, c ≠ 0) :
    ∃ model, evalModelArch igm leg archetypes t spectype (List.intercalate [';'] labels) a legc z = .ok model ∧ PyDict.keys model = t.spectra.map (·.wavehash) ∧
      modelChi2 t.spectra model = cameraChi2 t.spectra (archTmpl leg nleg t B X tr js) js.length nleg a ((List.range t.spectra.length).map legc.block) := by
  refine ⟨_, evalModelArch_eq igm leg nleg ht hI hnd js labels hjs hlab hne hsemi htr archetypes spectype hA a ha legc hblock hcs hnz, ?_, ?_⟩
  · exact zipIdx_keys t.spectra (fun s => s.wavehash) _ 0
  · unfold modelChi2 cameraChi2
    rw [sum_map_zipIdx_congr _ (fun s i => ∑ p ∈ Finset.range s.flux.length,
      s.ivar.getD p 0 * (s.flux.getD p 0 - cameraModelAt s.R (archTmpl leg nleg t B X tr js s.wavehash) js.length nleg a (((List.range t.spectra.length).map legc.block).getD i []) p) ^ 2) t.spectra 0]
    intro i s hs
    have hi : i < t.spectra.length := (List.getElem?_eq_some_iff.1 hs).1
    have hget : PyDict.get? (t.spectra.zipIdx.map (fun si => (si.1.wavehash, (List.range si.1.flux.length).map
        (cameraModelAt si.1.R (archTmpl leg nleg t B X tr js si.1.wavehash) js.length nleg a (legc.block si.2))))) s.wavehash =
        some ((List.range s.flux.length).map (cameraModelAt s.R (archTmpl leg nleg t B X tr js s.wavehash) js.length nleg a (legc.block i))) := by
      apply PyDict.get?_of_mem
      · have := zipIdx_keys t.spectra (fun s => s.wavehash) (fun si => (List.range si.1.flux.length).map
          (cameraModelAt si.1.R (archTmpl leg nleg t B X tr js si.1.wavehash) js.length nleg a (legc.block si.2))) 0
        rw [this]; exact ht.grids
      · exact List.mem_map.2 ⟨(s, i), List.mk_mem_zipIdx_iff_getElem?.2 hs, rfl⟩
    apply Finset.sum_congr rfl
    intro p hp
    rw [Finset.mem_range] at hp
    rw [hget]
    simp [List.getD_eq_getElem?_getD, hp, hi]

/-- **C76** the chi2 reported by the archetype fit is the chi2 of the model that `eval_model` draws from the row made from the fit: with `COEFF`, `LEGCOEFF` cut from the coefficients by
`split_archetype_coeff` (one set of polynomial coefficients per spectrum with `per_camera`, a common set otherwise), `SUBTYPE` the labels separated by `;` and `Z` the redshift of the fit. It holds
if the labels are different and contain no `;`, if the transmission at `Z` is the one used in the fit, and if not all archetype coefficients are zero. -/
theorem C76_model_chi2 (S : Solvers K) (hS : ∀ b, SolverOk (solveMatrices S .bvls (some b))) (igm : K → List K → Py (List K)) (leg : Nat → K → K) (nleg : Nat) (ht : GoodTarget t)
    (hI : ArchInput A t z trans B X tr) (hnd : A.subtype.Nodup) (js : List Nat) (labels : List PyStr) (hjs : ∀ j ∈ js, j < A.flux.length)
    (hlab : List.Forall₂ (fun j label => A.subtype[j]? = some label) js labels) (hne : js ≠ []) (hsemi : ∀ l ∈ labels, ';' ∉ l) (htr : SameTransmission igm t z tr)
    (archetypes : PyDict PyStr (Archetype K)) (spectype : PyStr) (hA : archetypes.get? spectype = some A) (perCamera : Bool) (P : Option (List (List K)))
    (chi2 : K) (coeff : List K) (hfit : archFit S t js.length nleg perCamera P (archTmpl leg nleg t B X tr js) = (chi2, coeff)) (hnz : ∃ c ∈ coeff.take js.length, c ≠ 0)
    (a : List K) (legs : List (List K)) (hsplit : splitArchetypeCoeff (List.intercalate [';'] labels) coeff (if perCamera then t.spectra.length else 1) nleg = (a, legs)) :
    ∃ model, evalModelArch igm leg archetypes t spectype (List.intercalate [';'] labels) a (if perCamera then .each legs else .one (legs.getD 0 [])) z = .ok model ∧
      PyDict.keys model = t.spectra.map (·.wavehash) ∧ modelChi2 t.spectra model = chi2 := by
  have hlne : labels ≠ [] := by
    intro h; rw [h] at hlab; cases hlab; exact hne rfl
  have hsp : ((List.intercalate [';'] labels).splitOn ';').length = js.length := by
    rw [List.splitOn_intercalate ';' hsemi hlne, hlab.length_eq]
  cases perCamera with
  | true =>
    simp only [if_true] at hsplit ⊢
    simp only [archFit, if_true] at hfit
    have hlen : coeff.length = js.length + nleg * t.spectra.length := by
      rw [← show (_ : K × List K).2 = coeff from congrArg Prod.snd hfit]; exact fitOf_length _ (hS _) _ _ _ _
    have hl := C51_split_lossless (List.intercalate [';'] labels) coeff t.spectra.length nleg (by rw [hsp, hlen, Nat.mul_comm])
    rw [hsplit] at hl
    have hsplit2 := hsplit
    rw [splitArchetypeCoeff_eq _ coeff _ nleg js.length hsp] at hsplit2
    obtain ⟨rfl, rfl⟩ := Prod.mk.inj hsplit2
    obtain ⟨model, h1, h2, h3⟩ := evalModelArch_chi2 igm leg nleg ht hI hnd js labels hjs hlab hlne hsemi htr archetypes spectype hA (coeff.take js.length) (by simp [hlen])
      (.each ((List.range t.spectra.length).map (fun i => ((coeff.drop js.length).drop (i * nleg)).take nleg))) (by
        intro i hi
        apply hl.2.2.1
        simp only [LegCoeff.block]
        rw [List.getD_eq_getElem?_getD, List.getElem?_eq_getElem (by simpa using hi)]
        exact List.getElem_mem _) (by rintro cs h; cases h; simp) hnz
    refine ⟨model, h1, h2, ?_⟩
    rw [h3]
    have hc := fitOf_camera _ t.spectra ht.grids (archTmpl leg nleg t B X tr js) js.length nleg (fun s _ => (archTmpl_shape leg nleg t B X tr js s.wavehash).2) P _ hfit
    rcases hc with hc | hc
    · exfalso
      obtain ⟨c, hc1, hc0⟩ := hnz
      rw [show coeff = List.replicate (js.length + nleg * t.spectra.length) 0 from congrArg Prod.snd hc] at hc1
      exact hc0 (List.eq_of_mem_replicate (List.mem_of_mem_take hc1))
    · rw [show chi2 = _ from hc]
      congr 1
      apply List.map_congr_left
      intro i hi
      rw [List.mem_range] at hi
      simp [LegCoeff.block, hi]
  | false =>
    simp only [Bool.false_eq_true, if_false] at hsplit ⊢
    simp only [archFit, Bool.false_eq_true, if_false] at hfit
    have hlen : coeff.length = js.length + nleg := by
      rw [← show (_ : K × List K).2 = coeff from congrArg Prod.snd hfit]; exact fitOf_length _ (hS _) _ _ _ _
    rw [splitArchetypeCoeff_eq _ coeff _ nleg js.length hsp] at hsplit
    obtain ⟨rfl, rfl⟩ := Prod.mk.inj hsplit
    obtain ⟨model, h1, h2, h3⟩ := evalModelArch_chi2 igm leg nleg ht hI hnd js labels hjs hlab hlne hsemi htr archetypes spectype hA (coeff.take js.length) (by simp [hlen])
      (.one (((List.range 1).map (fun i => ((coeff.drop js.length).drop (i * nleg)).take nleg)).getD 0 [])) (by
        intro i hi
        simp [LegCoeff.block, hlen]) (by rintro cs h; cases h) hnz
    refine ⟨model, h1, h2, ?_⟩
    rw [h3]
    unfold fitOf at hfit
    have hbad : (9999999, List.replicate (js.length + nleg) (0 : K)) ≠ (chi2, coeff) := by
      intro h
      obtain ⟨c, hc1, hc0⟩ := hnz
      rw [← (Prod.mk.inj h).2] at hc1
      exact hc0 (List.eq_of_mem_replicate (List.mem_of_mem_take hc1))
    split at hfit
    · exact absurd hfit hbad
    · split at hfit
      · rename_i c hc
        obtain ⟨rfl, rfl⟩ := Prod.mk.inj hfit
        rw [chi2_common]
        congr 1
        apply List.ext_getElem
        · simp
        · intro i h1 h2
          simp [LegCoeff.block]
      · exact absurd hfit hbad

/-- **C76** negation: if all archetype coefficients are zero (as the lower bound 0 of the fit allows), `eval_model` draws zero flux whatever the polynomial coefficients are. -/
theorem C76_zero_model (igm : K → List K → Py (List K)) (leg : Nat → K → K) (ht : GoodTarget t) (archetypes : PyDict PyStr (Archetype K)) (spectype subtype : PyStr) (a : List K)
    (ha : ∀ c ∈ a, c = 0) (legc : LegCoeff K) (z : K) :
    ∃ model, evalModelArch igm leg archetypes t spectype subtype a legc z = .ok model ∧ ∀ s ∈ t.spectra, model.get? s.wavehash = some ((t.wave s.wavehash).map (fun _ => 0)) := by
  refine ⟨t.spectra.map (fun s => (s.wavehash, (t.wave s.wavehash).map (fun _ => 0))), ?_, ?_⟩
  · unfold evalModelArch
    rw [if_pos (by
      rw [List.all_eq_true]
      intro c hc
      exact decide_eq_true (ha c hc)), foldl_set_new (fun s : FitSpectrum ω K => s.wavehash)]
    · simp
    · simpa [PyDict.keys] using ht.grids
  · intro s hs
    exact get?_spectra_map ht (fun h => (t.wave h).map (fun _ => (0 : K))) s hs


/-! ### optimality and signs -/

theorem sum_sq_getD (l : List K) (m : Nat) (h : l.length = m) : ∑ k ∈ Finset.range m, l.getD k 0 ^ 2 = (l.map (fun v => v ^ 2)).sum := by
  have := dotv_eq_sum l l m h h
  unfold dotv at this
  have e : (l.map (fun v => v ^ 2)).sum = (List.zipWith (· * ·) l l).sum := by
    congr 1
    clear this h
    induction l with
    | nil => rfl
    | cons a l ih => rw [List.map_cons, List.zipWith_cons_cons, ih, sq]
  rw [e, this]
  exact Finset.sum_congr rfl (fun k _ => sq _)

theorem flatten_chunk (m : Nat) (blocks : List (List K)) (h : ∀ b ∈ blocks, b.length = m) (i : Nat) (hi : i < blocks.length) : (blocks.flatten.drop (i * m)).take m = blocks[i] := by
  induction blocks generalizing i with
  | nil => simp at hi
  | cons b bs ih =>
    have hb := h b (by simp)
    cases i with
    | zero => simp [List.take_left' hb]
    | succ i =>
      rw [List.flatten_cons, show (i + 1) * m = b.length + i * m by rw [hb]; ring, List.drop_append, List.drop_eq_nil_of_le (by omega), List.nil_append, Nat.add_sub_cancel_left,
        ih (fun x hx => h x (List.mem_cons_of_mem _ hx)) i (by simpa using hi)]
      rfl

/-- **C75** optimality: when the solver solves the equations it is given (the bound is not active), the per-camera fit minimises, over *all* archetype coefficients and all polynomial
coefficients of all cameras, chi2 plus the sum of the squared polynomial coefficients over `prior_sigma²`. The reported chi2 does not contain the prior term. -/
theorem C75_least_squares (S : Solvers K) (ht : GoodTarget t) (hw : ∀ s ∈ t.spectra, ∀ v ∈ s.ivar, 0 ≤ v) (hdata : (t.spectra.flatMap (·.ivar)).sum ≠ 0) (T : ω → List (List K)) (n nleg : Nat)
    (hT : ∀ s ∈ t.spectra, (T s.wavehash).length = (t.wave s.wavehash).length ∧ ∀ row ∈ T s.wavehash, row.length = n + nleg) (sigma : K)
    (hsol : ∃ c, S.lsqLinear (archBounds n (n + nleg * t.spectra.length)).1 (archBounds n (n + nleg * t.spectra.length)).2
        (addPrior (normalMatrixOf t.spectra (cameraDesign t.spectra T n nleg) (n + nleg * t.spectra.length)) (some (priorOnCoeffs n nleg sigma t.spectra.length)))
        (normalVectorOf t.spectra (cameraDesign t.spectra T n nleg) (n + nleg * t.spectra.length)) = .ok c ∧
      Solves (n + nleg * t.spectra.length) (addPrior (normalMatrixOf t.spectra (cameraDesign t.spectra T n nleg) (n + nleg * t.spectra.length)) (some (priorOnCoeffs n nleg sigma t.spectra.length)))
        (normalVectorOf t.spectra (cameraDesign t.spectra T n nleg) (n + nleg * t.spectra.length)) c) (chi2 : K) (coeff : List K)
    (hfit : archFit S t n nleg true (some (priorOnCoeffs n nleg sigma t.spectra.length)) T = (chi2, coeff)) :
    0 ≤ chi2 ∧ ∀ (a : List K) (blocks : List (List K)), a.length = n → blocks.length = t.spectra.length → (∀ b ∈ blocks, b.length = nleg) →
      chi2 + ((coeff.drop n).map (fun v => v ^ 2)).sum / sigma ^ 2 ≤ cameraChi2 t.spectra T n nleg a blocks + (blocks.flatten.map (fun v => v ^ 2)).sum / sigma ^ 2 := by
  obtain ⟨nb, hnb⟩ : ∃ nb, nb = n + nleg * t.spectra.length := ⟨_, rfl⟩
  obtain ⟨D, hD⟩ : ∃ D, D = cameraDesign t.spectra T n nleg := ⟨_, rfl⟩
  obtain ⟨c', hc1, hc2⟩ := hsol
  have hc1 : solveMatrices S .bvls (some (archBounds n (n + nleg * t.spectra.length))) (addPrior (normalMatrixOf t.spectra D nb) (some (priorOnCoeffs n nleg sigma t.spectra.length)))
      (normalVectorOf t.spectra D nb) = .ok c' := by rw [hD, hnb]; exact hc1
  rw [← hD, ← hnb] at hc2
  have hS0 : Shaped t.spectra T (n + nleg) := by
    intro s hs
    obtain ⟨h1, h2, h3⟩ := ht.shape s hs
    exact ⟨h1, h2, fun row hrow => by rw [h3 row hrow, (hT s hs).1], (hT s hs).2⟩
  have hSD : Shaped t.spectra D nb := by rw [hD, hnb]; exact shaped_design t.spectra ht.grids T n nleg hS0
  have hget : HasTemplate t.spectra (t.spectra.map (fun s => (s.wavehash, [D s.wavehash]))) 0 D := by
    intro s hs
    exact ⟨_, get?_spectra_map ht (fun h => [D h]) s hs, rfl⟩
  obtain ⟨r, h1, h2, h3⟩ := C37_least_squares (solveMatrices S .bvls (some (archBounds n (n + nleg * t.spectra.length)))) t.spectra (t.spectra.map (fun s => (s.wavehash, [D s.wavehash]))) 1 nb
    (fun _ => D) (fun i hi => by obtain rfl : i = 0 := by omega
                                 exact hget) (fun _ _ => hSD) hw (some (priorOnCoeffs n nleg sigma t.spectra.length))
    (by intro Q hQ; cases hQ; rw [hnb]; exact (C77_prior_ok n nleg _ sigma).1) hdata
    (by
      intro i _
      exact ⟨c', hc1, hc2⟩)
  obtain ⟨x, c, hr, hcl, hx, hx0, hmin⟩ := h3 0 (by omega)
  have hxc : (x, c) = (chi2, coeff) := by
    have hb := C39_batch_entries (solveMatrices S .bvls (some (archBounds n (n + nleg * t.spectra.length)))) t.spectra (t.spectra.map (fun s => (s.wavehash, [D s.wavehash]))) 1 nb
      (fun _ => D) (fun i hi => by obtain rfl : i = 0 := by omega
                                   exact hget) (fun _ _ => hSD) (some (priorOnCoeffs n nleg sigma t.spectra.length)) hdata (by
        intro i _
        rw [hc1]
        exact hc2.1)
    obtain ⟨r', g1, -, g3⟩ := hb
    rw [h1] at g1
    cases g1
    have := (g3 0 (by omega)).1 c' hc1
    rw [hr] at this
    have this := Option.some.inj this
    rw [← hfit, this]
    simp only [archFit, if_true, fitOf]
    rw [if_neg hdata, ← hD, ← hnb]
    rw [hnb] at hc1 ⊢
    rw [hc1]
  obtain ⟨rfl, rfl⟩ := Prod.mk.inj hxc
  refine ⟨hx0, ?_⟩
  intro a blocks ha hbl hbs
  have hflat : blocks.flatten.length = nleg * t.spectra.length := by
    rw [List.length_flatten, ← hbl]
    clear hmin hbl
    induction blocks with
    | nil => simp
    | cons b bs ih => rw [List.map_cons, List.sum_cons, ih (fun x hx => hbs x (List.mem_cons_of_mem _ hx)), hbs b (by simp), List.length_cons]; ring
  have hm := hmin (a ++ blocks.flatten) (by rw [List.length_append, hflat, ha, hnb])
  have hchi : chi2Of t.spectra D nb (a ++ blocks.flatten) = cameraChi2 t.spectra T n nleg a blocks := by
    rw [hnb, chi2_design t.spectra T D n nleg _ (fun s hs => (hT s hs).2) (by
      intro i s hs
      rw [hD, cameraDesign, idxOf_wavehash t.spectra ht.grids i s hs])]
    rw [List.take_left' ha, List.drop_left' ha]
    congr 1
    apply List.ext_getElem
    · simp [hbl]
    · intro i h1 h2
      simp only [List.getElem_map, List.getElem_range]
      exact flatten_chunk nleg blocks hbs i h2
  have hpf : ∀ v : List K, v.length = nb → priorForm (some (priorOnCoeffs n nleg sigma t.spectra.length)) nb v = ((v.drop n).map (fun v => v ^ 2)).sum / sigma ^ 2 := by
    intro v hv
    rw [priorForm, hnb, C77_prior_form, ← sum_sq_getD (v.drop n) (nleg * t.spectra.length) (by rw [List.length_drop]; omega)]
    congr 1
    apply Finset.sum_congr rfl
    intro k _
    simp [List.getD_eq_getElem?_getD, List.getElem?_drop]
  rw [hpf c hcl, hpf _ (by rw [List.length_append, hflat, ha, hnb]), hchi, List.drop_left' ha] at hm
  exact hm

/-- **C75** signs: no archetype coefficient of a fit is negative (if scipy keeps its promise to respect bounds); polynomial coefficients may have any sign. -/
theorem C75_nonnegative (S : Solvers K) (hbv : ∀ lo hi M y c, S.lsqLinear lo hi M y = .ok c → WithinBounds lo hi c) (T : ω → List (List K)) (n nleg : Nat) (perCamera : Bool)
    (P : Option (List (List K))) : ∀ v ∈ (archFit S t n nleg perCamera P T).2.take n, 0 ≤ v := by
  have key : ∀ (T : ω → List (List K)) (m : Nat) (P : Option (List (List K))), ∀ v ∈ (fitOf (solveMatrices S .bvls (some (archBounds n (n + m)))) t.spectra T (n + m) P).2.take n, 0 ≤ v := by
    intro T m P v hv
    unfold fitOf at hv
    split at hv
    · exact (List.eq_of_mem_replicate (List.mem_of_mem_take hv)).ge
    · split at hv
      · rename_i c hc
        have hv : v ∈ c.take n := hv
        obtain ⟨k, hk, rfl⟩ := List.getElem_of_mem hv
        have hk2 : k < n := by rw [List.length_take] at hk; omega
        have hk3 : k < c.length := by rw [List.length_take] at hk; omega
        have := (hbv _ _ _ _ _ hc k c[k] (List.getElem?_eq_getElem hk3)).1 0 (by
          simp [show k < n + m by omega, hk2])
        simpa using this
      · exact (List.eq_of_mem_replicate (List.mem_of_mem_take hv)).ge
  unfold archFit
  split
  · exact key _ _ _
  · exact key _ _ _

/-! ### the labels of an archetype file -/

theorem natStr_digits (i : Nat) : ∀ c ∈ natStr i, ∃ d, d < 10 ∧ c = Char.ofNat (48 + d) := by
  intro c hc
  unfold natStr at hc
  split at hc
  · simp only [List.mem_singleton] at hc
    exact ⟨0, by omega, hc⟩
  · obtain ⟨d, hd, rfl⟩ := List.mem_map.1 hc
    exact ⟨d, Nat.digits_lt_base (by omega) (List.mem_reverse.1 hd), rfl⟩

theorem digitChar_inj : ∀ a, a < 10 → ∀ b, b < 10 → Char.ofNat (48 + a) = Char.ofNat (48 + b) → a = b := by decide

theorem digitChar_plain : ∀ d, d < 10 → Char.ofNat (48 + d) ≠ '_' ∧ Char.ofNat (48 + d) ≠ ';' ∧ Char.ofNat (48 + d) ≠ ':' ∧ pyIsSpace (Char.ofNat (48 + d)) = false ∧ Char.ofNat (48 + d) ∈ "0123456789".toList := by
  decide

theorem natStr_ne_nil (i : Nat) : natStr i ≠ [] := by
  unfold natStr
  split
  · simp
  · rename_i h
    simp [Nat.digits_ne_nil_iff_ne_zero, h]

theorem natStr_inj (i j : Nat) (h : natStr i = natStr j) : i = j := by
  have key : ∀ i, ∃ ds : List Nat, (∀ d ∈ ds, d < 10) ∧ Nat.ofDigits 10 ds = i ∧ natStr i = ds.reverse.map (fun d => Char.ofNat (48 + d)) := by
    intro i
    unfold natStr
    split
    · rename_i h
      exact ⟨[0], by simp, by simp [h], rfl⟩
    · exact ⟨Nat.digits 10 i, fun d hd => Nat.digits_lt_base (by omega) hd, Nat.ofDigits_digits _ _, rfl⟩
  obtain ⟨ds, h1, h2, h3⟩ := key i
  obtain ⟨es, g1, g2, g3⟩ := key j
  rw [h3, g3, List.map_reverse, List.map_reverse, List.reverse_inj] at h
  have : ds = es := by
    clear h2 h3 g2 g3
    induction ds generalizing es with
    | nil => cases es with
      | nil => rfl
      | cons e es => simp at h
    | cons d ds ih =>
      cases es with
      | nil => simp at h
      | cons e es =>
        simp only [List.map_cons, List.cons.injEq] at h
        rw [digitChar_inj d (h1 d (by simp)) e (g1 e (by simp)) h.1, ih (fun x hx => h1 x (List.mem_cons_of_mem _ hx)) es h.2 (fun x hx => g1 x (List.mem_cons_of_mem _ hx))]
  rw [← h2, ← g2, this]

/-- the part after the last underscore determines the number -/
theorem label_inj (a b : PyStr) (i j : Nat) (h : a ++ ['_'] ++ natStr i = b ++ ['_'] ++ natStr j) : i = j := by
  have hno : ∀ k, ∀ c ∈ (natStr k).reverse, (c != '_') = true := by
    intro k c hc
    obtain ⟨d, hd, rfl⟩ := natStr_digits k c (List.mem_reverse.1 hc)
    simpa using (digitChar_plain d hd).1
  have key : ∀ (a : PyStr) k, (a ++ ['_'] ++ natStr k).reverse.takeWhile (· != '_') = (natStr k).reverse := by
    intro a k
    rw [List.reverse_append, List.takeWhile_append_of_pos (hno k), List.reverse_append]
    simp
  have := congrArg (fun s : PyStr => s.reverse.takeWhile (· != '_')) h
  simp only [key, List.reverse_inj] at this
  exact natStr_inj i j this

/-- **C78** the labels given to the archetypes of a file are all different, whatever the names in the file are (`index` in `eval` is unique). -/
theorem C78_labels_distinct (names : List PyStr) : (archLabels names).Nodup ∧ (archLabels names).length = names.length := by
  refine ⟨?_, by simp [archLabels]⟩
  unfold archLabels
  rw [List.nodup_iff_injective_get]
  intro i j h
  have hi := i.2
  have hj := j.2
  simp only [List.get_eq_getElem, List.getElem_map, List.getElem_zipIdx] at h
  have := label_inj _ _ _ _ h
  apply Fin.ext
  omega

/-- **C78** a `;` or `:` in a label can only come from a name in the file. -/
theorem C78_labels_plain (names : List PyStr) (c : Char) (hc : c = ';' ∨ c = ':') (h : ∀ n ∈ names, c ∉ n) : ∀ l ∈ archLabels names, c ∉ l := by
  intro l hl hcl
  unfold archLabels at hl
  obtain ⟨⟨nm, i⟩, hni, rfl⟩ := List.mem_map.1 hl
  have hn : nm ∈ names := List.mem_of_getElem? (List.mk_mem_zipIdx_iff_getElem?.1 hni)
  simp only [List.mem_append, List.mem_singleton] at hcl
  rcases hcl with (h1 | h1) | h1
  · apply h nm hn
    unfold pyStrip at h1
    have h2 := (List.dropWhile_sublist _).subset (List.mem_reverse.1 h1)
    exact (List.dropWhile_sublist _).subset (List.mem_reverse.1 h2)
  · subst h1
    rcases hc with h2 | h2 <;> exact absurd h2 (by decide)
  · obtain ⟨d, hd, rfl⟩ := natStr_digits i c h1
    have := digitChar_plain d hd
    tauto

example : archLabels ["ELG ".toList, "ELG_1".toList, "".toList] = ["ELG_0".toList, "ELG_1_1".toList, "_2".toList] := by decide +kernel


theorem trimmed_append (a b : PyStr) (ha : Trimmed a) (hb : Trimmed b) (ha0 : a ≠ []) (hb0 : b ≠ []) (m : PyStr) : Trimmed (a ++ m ++ b) := by
  constructor
  · intro c hc
    obtain ⟨x, xs, rfl⟩ := List.exists_cons_of_ne_nil ha0
    exact ha.1 c (by simpa using hc)
  · intro c hc
    apply hb.2
    rw [List.getLast?_append] at hc
    cases hq : b.getLast? with
    | none => exact absurd (List.getLast?_eq_none_iff.1 hq) hb0
    | some y => rw [hq] at hc; exact hc

theorem intercalate_trimmed (labels : List PyStr) (hne : labels ≠ []) (h : ∀ l ∈ labels, l ≠ [] ∧ Trimmed l) : List.intercalate [';'] labels ≠ [] ∧ Trimmed (List.intercalate [';'] labels) := by
  induction labels with
  | nil => exact absurd rfl hne
  | cons a rest ih =>
    cases rest with
    | nil => simpa [List.intercalate] using h a (by simp)
    | cons b rest =>
      have e : List.intercalate [';'] (a :: b :: rest) = a ++ [';'] ++ List.intercalate [';'] (b :: rest) := by simp [List.intercalate]
      obtain ⟨i1, i2⟩ := ih (by simp) (fun l hl => h l (List.mem_cons_of_mem _ hl))
      obtain ⟨a1, a2⟩ := h a (by simp)
      rw [e]
      exact ⟨by simp, trimmed_append a _ a2 i2 a1 i1 _⟩

theorem intercalate_mem (labels : List PyStr) (c : Char) (hc : c ∈ List.intercalate [';'] labels) : c = ';' ∨ ∃ l ∈ labels, c ∈ l := by
  induction labels with
  | nil => simp [List.intercalate] at hc
  | cons a rest ih =>
    cases rest with
    | nil => right; exact ⟨a, by simp, by simpa [List.intercalate] using hc⟩
    | cons b rest =>
      have e : List.intercalate [';'] (a :: b :: rest) = a ++ [';'] ++ List.intercalate [';'] (b :: rest) := by simp [List.intercalate]
      rw [e] at hc
      simp only [List.mem_append, List.mem_singleton] at hc
      rcases hc with (hc | hc) | hc
      · right; exact ⟨a, by simp, hc⟩
      · left; exact hc
      · rcases ih hc with h | ⟨l, hl, h⟩
        · left; exact h
        · right; exact ⟨l, List.mem_cons_of_mem _ hl, h⟩

theorem label_trimmed (names : List PyStr) : ∀ l ∈ archLabels names, l ≠ [] ∧ Trimmed l := by
  intro l hl
  unfold archLabels at hl
  obtain ⟨⟨nm, i⟩, hni, rfl⟩ := List.mem_map.1 hl
  refine ⟨by simp, ?_, ?_⟩
  · intro c hc
    simp only [] at hc
    cases hq : pyStrip nm with
    | nil => rw [hq] at hc; simp at hc; subst hc; decide
    | cons x xs =>
      rw [hq] at hc
      have := (trimmed_pyStrip nm).1
      rw [hq] at this
      exact this c (by simpa using hc)
  · intro c hc
    rw [List.getLast?_append] at hc
    cases hq : (natStr i).getLast? with
    | none => exact absurd (List.getLast?_eq_none_iff.1 hq) (natStr_ne_nil i)
    | some y =>
      rw [hq] at hc
      have hc : y = c := by simpa using hc
      subst hc
      obtain ⟨d, hd, rfl⟩ := natStr_digits i y (List.mem_of_getLast? hq)
      exact (digitChar_plain d hd).2.2.2.1

/-- the full type of a fit gives back type and labels -/
theorem parse_labels (rrtype : PyStr) (hr : ':' ∉ pyStrip rrtype) (names labels : List PyStr) (hne : labels ≠ []) (hl : ∀ l ∈ labels, l ∈ archLabels names) (hcolon : ∀ n ∈ names, ':' ∉ n) :
    parseFulltype (makeFulltype (pyStrip rrtype) (some (List.intercalate [';'] labels))) = .ok (pyStrip rrtype, List.intercalate [';'] labels) := by
  have ht := intercalate_trimmed labels hne (fun l h => label_trimmed names l (hl l h))
  have hnc : ':' ∉ List.intercalate [';'] labels := by
    intro h
    rcases intercalate_mem labels ':' h with h | ⟨l, hl2, h⟩
    · exact absurd h (by decide)
    · exact C78_labels_plain names ':' (Or.inr rfl) hcolon l (hl l hl2) h
  have h3 : ∀ x : PyStr, ':' ∉ x → ¬ ":::".toList <:+: x := fun x hx h => hx (h.subset (by decide))
  have := C28_round_trip (pyStrip rrtype) (some (List.intercalate [';'] labels)) (by rw [pyStrip_idem]; exact h3 _ hr)
    (by intro s hs; cases hs; rw [pyStrip_of_trimmed _ ht.2]; exact h3 _ hnc)
    (by intro s _ _ h; rw [pyStrip_idem] at h; exact hr (List.mem_of_getLast? h))
  rw [this, Option.getD_some, pyStrip_idem, pyStrip_of_trimmed _ ht.2]

/-- **C76** the whole way, for an archetype file whose names contain neither `;` nor `:`: `get_best_archetype` succeeds, `parse_fulltype` gives type and subtype, `split_archetype_coeff` cuts the
coefficients, and `eval_model` on the row made of these has the chi2 that was reported, unless all archetype coefficients are zero. With `n` nearest neighbours this needs `per_camera`. -/
theorem C76_end_to_end (S : Solvers K) (hS : ∀ b, SolverOk (solveMatrices S .bvls (some b))) (le : PyStr → PyStr → Bool) (argsort : List K → List Nat)
    (hargsort : IsArgsort (fun a b : K => decide (a ≤ b)) argsort) (igm : K → List K → Py (List K)) (leg : Nat → K → K) (nleg : Nat) (ht : GoodTarget t)
    (wave : List K) (flux : List (List K)) (rrtype : PyStr) (names : List PyStr) (hA : A = Archetype.load wave flux rrtype names) (hlen : names.length = flux.length) (hne : flux ≠ [])
    (hr : ':' ∉ pyStrip rrtype) (hcolon : ∀ n ∈ names, ':' ∉ n) (hsemi : ∀ n ∈ names, ';' ∉ n)
    (hI : ArchInput A t z trans B X tr) (htr : SameTransmission igm t z tr)
    (archetypes : PyDict PyStr (Archetype K)) (hAd : archetypes.get? (pyStrip rrtype) = some A) (perCamera : Bool) (hb : perCamera = true → GoodBands t)
    (nNearest : Option Nat) (hn : ∀ n, nNearest = some n → 1 ≤ n ∧ n ≤ flux.length ∧ perCamera = true) (sigma : K) :
    ∃ chi2 coeff fulltype subtype, getBestArchetype S le argsort leg A t (spectralData t.spectra).1 (spectralData t.spectra).2.1 (spectralData t.spectra).2.2 z perCamera nNearest nleg trans
        (some (priorOnCoeffs (nNearest.getD 1) nleg sigma (if perCamera then t.spectra.length else 1))) = .ok (chi2, coeff, fulltype) ∧
      parseFulltype fulltype = .ok (pyStrip rrtype, subtype) ∧
      ∀ a legs, splitArchetypeCoeff subtype coeff (if perCamera then t.spectra.length else 1) nleg = (a, legs) → (∃ c ∈ a, c ≠ 0) →
        ∃ model, evalModelArch igm leg archetypes t (pyStrip rrtype) subtype a (if perCamera then .each legs else .one (legs.getD 0 [])) z = .ok model ∧
          PyDict.keys model = t.spectra.map (·.wavehash) ∧ modelChi2 t.spectra model = chi2 := by
  have hsub : A.subtype = archLabels names := by rw [hA]; rfl
  have hflux : A.flux = flux := by rw [hA]; rfl
  have hrr : A.rrtype = pyStrip rrtype := by rw [hA]; rfl
  have hlab : A.subtype.length = A.flux.length := by rw [hsub, hflux, (C78_labels_distinct names).2, hlen]
  have hnd : A.subtype.Nodup := by rw [hsub]; exact (C78_labels_distinct names).1
  -- the common part
  have key : ∀ (js : List Nat) (labels : List PyStr) (P : Option (List (List K))), js ≠ [] → (∀ j ∈ js, j < A.flux.length) → List.Forall₂ (fun j label => A.subtype[j]? = some label) js labels →
      ∀ coeff subtype, parseFulltype (makeFulltype A.rrtype (some (List.intercalate [';'] labels))) = .ok (pyStrip rrtype, subtype) →
      (archFit S t js.length nleg perCamera P (archTmpl leg nleg t B X tr js)).2 = coeff →
      ∀ a legs, splitArchetypeCoeff subtype coeff (if perCamera then t.spectra.length else 1) nleg = (a, legs) → (∃ c ∈ a, c ≠ 0) →
        ∃ model, evalModelArch igm leg archetypes t (pyStrip rrtype) subtype a (if perCamera then .each legs else .one (legs.getD 0 [])) z = .ok model ∧
          PyDict.keys model = t.spectra.map (·.wavehash) ∧ modelChi2 t.spectra model = (archFit S t js.length nleg perCamera P (archTmpl leg nleg t B X tr js)).1 := by
    intro js labels P hjne hjs hfor coeff subtype hparse hcoeff a legs hsplit hnz
    have hlne : labels ≠ [] := by intro h; rw [h] at hfor; cases hfor; exact hjne rfl
    have hmem : ∀ l ∈ labels, l ∈ archLabels names := by
      intro l hl
      obtain ⟨k, hk, rfl⟩ := List.getElem_of_mem hl
      have := (List.forall₂_iff_get.1 hfor).2 k (by rw [hfor.length_eq]; exact hk) hk
      simp only [List.get_eq_getElem] at this
      rw [← hsub]
      exact List.mem_of_getElem? this
    have hsemi' : ∀ l ∈ labels, ';' ∉ l := fun l hl => C78_labels_plain names ';' (Or.inl rfl) hsemi l (hmem l hl)
    rw [hrr, parse_labels rrtype hr names labels hlne hmem hcolon] at hparse
    obtain rfl : List.intercalate [';'] labels = subtype := (Prod.mk.inj (Except.ok.inj hparse)).2
    have hsp : ((List.intercalate [';'] labels).splitOn ';').length = js.length := by
      rw [List.splitOn_intercalate ';' hsemi' hlne, hfor.length_eq]
    have hnz2 : ∃ c ∈ coeff.take js.length, c ≠ 0 := by
      rw [splitArchetypeCoeff_eq _ coeff _ nleg js.length hsp] at hsplit
      rw [(Prod.mk.inj hsplit).1]; exact hnz
    exact C76_model_chi2 S hS igm leg nleg ht hI hnd js labels hjs hfor hjne hsemi' htr archetypes (pyStrip rrtype) hAd perCamera P _ coeff (by rw [← hcoeff]) hnz2 a legs hsplit
  have hparse : ∀ (js : List Nat) (labels : List PyStr), js ≠ [] → List.Forall₂ (fun j label => A.subtype[j]? = some label) js labels →
      ∃ subtype, parseFulltype (makeFulltype A.rrtype (some (List.intercalate [';'] labels))) = .ok (pyStrip rrtype, subtype) := by
    intro js labels hjne hfor
    refine ⟨List.intercalate [';'] labels, ?_⟩
    · rw [hrr]
      apply parse_labels rrtype hr names labels
      · intro h; rw [h] at hfor; cases hfor; exact hjne rfl
      · intro l hl
        obtain ⟨k, hk, rfl⟩ := List.getElem_of_mem hl
        have := (List.forall₂_iff_get.1 hfor).2 k (by rw [hfor.length_eq]; exact hk) hk
        simp only [List.get_eq_getElem] at this
        rw [← hsub]
        exact List.mem_of_getElem? this
      · exact hcolon
  cases nNearest with
  | none =>
    obtain ⟨i, label, hi, hl, hbest, -⟩ := C75_best_archetype S hS le argsort leg nleg ht hI (by rw [hflux]; exact hne) hlab perCamera hb
      (some (priorOnCoeffs 1 nleg sigma (if perCamera then t.spectra.length else 1))) (by intro h; subst h; exact (C77_prior_ok 1 nleg _ sigma).2)
    have hfor : List.Forall₂ (fun j label => A.subtype[j]? = some label) [i] [label] := .cons hl .nil
    have hint : List.intercalate [';'] [label] = label := by simp [List.intercalate]
    obtain ⟨subtype, hps⟩ := hparse [i] [label] (by simp) hfor
    refine ⟨_, _, _, subtype, hbest, by rw [← hint]; exact hps, ?_⟩
    exact key [i] [label] _ (by simp) (by simpa using hi) hfor _ subtype hps rfl
  | some n =>
    obtain ⟨hn1, hn2, rfl⟩ := hn n rfl
    obtain ⟨js, labels, hjl, -, hjs, hfor, -, -, hbest⟩ := C75_nearest_neighbours S hS le argsort hargsort leg nleg ht (hb rfl) hI n hn1 (by rw [hflux]; exact hn2) hlab
      (priorOnCoeffs n nleg sigma t.spectra.length) (C77_prior_ok n nleg _ sigma).2
    have hjne : js ≠ [] := by intro h; rw [h] at hjl; simp at hjl; omega
    obtain ⟨subtype, hps⟩ := hparse js labels hjne hfor
    refine ⟨_, _, _, subtype, hbest, hps, ?_⟩
    have := key js labels (some (priorOnCoeffs n nleg sigma t.spectra.length)) hjne hjs hfor _ subtype hps rfl
    rw [hjl] at this
    exact this


section Example

def exIgm (_ : ℚ) (wave : List ℚ) : Py (List ℚ) := .ok (wave.map (fun w => if w = 1 then 1/2 else 1))

/-- the hypotheses of `C76_end_to_end` about the transmission hold for the example of C75 -/
theorem exSame : SameTransmission exIgm exTarget (1/2) (fun h => if h = 0 then some [1/2, 1, 1] else none) := by
  intro s hs
  have : s.wavehash = 0 ∨ s.wavehash = 1 := by revert s; decide +kernel
  rcases this with h | h
  · rw [h]; exact ⟨[1/2, 1, 1], by decide +kernel, Or.inl rfl⟩
  · rw [h]; exact ⟨[1, 1], by decide +kernel, Or.inr ⟨rfl, by decide +kernel⟩⟩

example : exArch = Archetype.load [0, 2, 4, 6, 8] [[0, 0, 0, 0, 0], [1, 2, 3, 4, 5]] "GALAXY ".toList ["A".toList, " B".toList] := by
  have h : archLabels ["A".toList, " B".toList] = ["A_0".toList, "B_1".toList] := by decide +kernel
  have h2 : pyStrip "GALAXY ".toList = "GALAXY".toList := by decide +kernel
  unfold Archetype.load
  rw [h, h2]
  rfl

/-- the row of the best archetype in the example of C75 reproduces its chi2 13/4 -/
example : (evalModelArch exIgm exLeg [("GALAXY".toList, exArch)] exTarget "GALAXY".toList "B_1".toList [1/2] (.each [[1/2], [1/2]]) (1/2)).map (modelChi2 exTarget.spectra) = .ok (13/4) := by
  decide +kernel

/-- the hypotheses of `C75_least_squares` are met: a solver that solves the equations of the example (prior sigma 1, second archetype), with a positive archetype coefficient -/
def exSolversLs : Solvers ℚ := { exSolvers with lsqLinear := fun _ _ _ _ => .ok [210/551, 204/551, 75/551] }
def exTmpl : Nat → List (List ℚ) := archTmpl exLeg 1 exTarget (fun h => if h = 0 then [[0, 0, 0], [4/3, 5/3, 2]] else [[0, 0], [7/3, 3]]) (fun h => if h = 0 then [-1, 0, 1] else [-1, 1])
  (fun h => if h = 0 then some [1/2, 1, 1] else none) [1]
example : ∃ c, exSolversLs.lsqLinear (archBounds 1 (1 + 1 * exTarget.spectra.length)).1 (archBounds 1 (1 + 1 * exTarget.spectra.length)).2
        (addPrior (normalMatrixOf exTarget.spectra (cameraDesign exTarget.spectra exTmpl 1 1) (1 + 1 * exTarget.spectra.length)) (some (priorOnCoeffs 1 1 1 exTarget.spectra.length)))
        (normalVectorOf exTarget.spectra (cameraDesign exTarget.spectra exTmpl 1 1) (1 + 1 * exTarget.spectra.length)) = .ok c ∧
      Solves (1 + 1 * exTarget.spectra.length) (addPrior (normalMatrixOf exTarget.spectra (cameraDesign exTarget.spectra exTmpl 1 1) (1 + 1 * exTarget.spectra.length)) (some (priorOnCoeffs 1 1 1 exTarget.spectra.length)))
        (normalVectorOf exTarget.spectra (cameraDesign exTarget.spectra exTmpl 1 1) (1 + 1 * exTarget.spectra.length)) c :=
  ⟨_, rfl, rfl, by decide +kernel⟩

/-- a solver that puts the archetype coefficient on its lower bound 0 -/
def exSolvers0 : Solvers ℚ := { exSolvers with lsqLinear := fun lo _ _ y => .ok (List.zipWith (fun l _ => match l with | some b => b | none => 1) lo y) }

/-- **C76** negation, concrete: the fit with archetype coefficient 0 and polynomial coefficients 1 reports chi2 1, the model drawn from its row has chi2 9 -/
theorem C76_zero_coefficient_mismatch :
    getBestArchetype exSolvers0 (fun _ _ => true) (fun v => List.range v.length) exLeg exArch exTarget (spectralData exTarget.spectra).1 (spectralData exTarget.spectra).2.1
      (spectralData exTarget.spectra).2.2 (1/2) true none 1 exTrans none = .ok (1, [0, 1, 1], "GALAXY:::A_0".toList) ∧
    (evalModelArch exIgm exLeg [("GALAXY".toList, exArch)] exTarget "GALAXY".toList "A_0".toList [0] (.each [[1], [1]]) (1/2)).map (modelChi2 exTarget.spectra) = .ok 9 := by
  constructor <;> decide +kernel

/-- **C76** a `;` in a name of the file: the label is found by the fit but `eval_model` raises `IndexError` -/
theorem C76_semicolon_breaks :
    evalModelArch exIgm exLeg [("GALAXY".toList, { exArch with subtype := archLabels ["A".toList, "B;C".toList] })] exTarget "GALAXY".toList "B;C_1".toList [1/2] (.each [[1/2], [1/2]]) (1/2)
      = .error .indexError := by
  decide +kernel

/-- **C51** different band names are needed: with two spectra of the same band the two polynomial blocks are not both kept -/
theorem C51_duplicate_bands :
    perCameraCoeff (K := ℚ) (fun _ _ => true) ["b".toList, "b".toList] 1 1 [[5, 7, 8]] = .ok [[5, 8]] ∧
    perCameraCoeff (K := ℚ) (fun _ _ => true) ["r".toList, "b".toList] 1 1 [[5, 7, 8]] = .ok [[5, 7, 8]] := by
  constructor <;> decide +kernel

end Example

end
end Redrock
