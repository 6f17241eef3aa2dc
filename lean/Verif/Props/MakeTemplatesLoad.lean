import Verif.Props.MakeTemplates

/-!
C131, second part: what the scripts write and whether redrock can read it.
-/
set_option linter.unusedSectionVars false
namespace Redrock
namespace Make
open Redrock.Convert

/-- `Template(filename)` for a file with type `ty`, without `RRMETHOD` and without redshifts, once its pieces are known. -/
private theorem load_eq (float : PyStr → Py ℝ) (opts : ZscanOptions) (f : TemplateFile) (ty igm : PyStr) (zs : List ℝ) (hty : f.rrtype = some ty) (hup : pyUpper (pyStrip ty) = ty)
    (hz : f.redshifts = none) (hd : defaultRedshifts float opts ty = .ok zs) (hzs : zs ≠ []) (hm : f.rrmethod = none) (hi : templateIgm f ty (templateVersion f) = .ok igm)
    (hw : templateWave f ≠ []) :
    Template.load float opts f = .ok ⟨templateVersion f, templateWave f, f.flux, "PCA".toList, ty, templateSubtype f, zs, igm,
      if ty = "GALAXY".toList then some (oiiColumns (templateWave f) f.flux) else none⟩ := by
  have hme : templateMethod f = "PCA".toList := by unfold templateMethod; rw [hm]; rfl
  unfold Template.load
  rw [hty, hz]
  simp only
  change (defaultRedshifts float opts (pyUpper (pyStrip ty)) >>= _) = _
  rw [hup, hd]
  change (if zs = [] then _ else _) = _
  rw [if_neg hzs]
  change (templateIgm f ty (templateVersion f) >>= _) = _
  rw [hi]
  change (if templateWave f = [] then _ else _) = _
  rw [if_neg hw]
  change (if templateMethod f ≠ "PCA".toList ∧ templateMethod f ≠ "NMF".toList then _ else _) = _
  rw [hme, if_neg (by simp)]
  simp only [and_true]
  rfl

/-- .. and if its IGM model is not known. -/
private theorem load_err (float : PyStr → Py ℝ) (opts : ZscanOptions) (f : TemplateFile) (ty : PyStr) (zs : List ℝ) (e : PyErr) (hty : f.rrtype = some ty) (hup : pyUpper (pyStrip ty) = ty)
    (hz : f.redshifts = none) (hd : defaultRedshifts float opts ty = .ok zs) (hzs : zs ≠ []) (hi : templateIgm f ty (templateVersion f) = .error e) :
    Template.load float opts f = .error e := by
  unfold Template.load
  rw [hty, hz]
  simp only
  change (defaultRedshifts float opts (pyUpper (pyStrip ty)) >>= _) = _
  rw [hup, hd]
  change (if zs = [] then _ else _) = _
  rw [if_neg hzs]
  change (templateIgm f ty (templateVersion f) >>= _) = _
  rw [hi]
  rfl

/-- the wavelengths read back from a file with a linear grid -/
private theorem wave_back (f : TemplateFile) (a : ℝ) (n : Nat) (wave : List ℝ) (hg : IsGrid a n wave) (h1 : f.crval1 = a) (h2 : f.cdelt1 = 0.1) (h3 : f.naxis1 = n) (h4 : f.loglam = none) :
    templateWave f = wave := by
  unfold templateWave
  rw [h4, h1, h2, h3]
  simp only
  apply List.ext_getElem?
  intro i
  rw [List.getElem?_map]
  by_cases hi : i < n
  · rw [List.getElem?_range hi, hg.2 i hi]; rfl
  · rw [List.getElem?_eq_none (by simpa using hi), List.getElem?_eq_none (by rw [hg.1]; omega)]; rfl

/-- What is asked of `empca`: of spectra with `n` values it makes at least one basis vector, of `n` values. -/
def EmpcaShape (w : World) (n : Nat) : Prop :=
  ∀ data it nv r, data ≠ [] → (∀ d ∈ data, d.length = n) → w.empca data it nv = .ok r → ∃ v vs, r.eigvec = v :: vs ∧ v.length = n

/-- What is asked of `resample_flux`: one value per wavelength. -/
def ResampleShape (w : World) : Prop := ∀ wave twave s, (w.resample wave twave s).length = wave.length

/-- What a file of the scripts for simulated spectra is: `$DESI_BASIS_TEMPLATES` was set, and it has this content. -/
theorem linearFile_ok (w : World) (o : MakeOptions) (a : ℝ) (n : Nat) (wave : List ℝ) (hn : 0 < n) (hg : IsGrid a n wave) (ty sub : PyStr) (e : Empca) (m : Made)
    (h : linearFile w o wave ty sub e = .ok m) :
    w.basisDir.isSome ∧ m.coeff = some (e.coeff.map unitCoeff) ∧ m.file =
      ⟨o.version, a, 0.1, (e.eigvec.head?.getD []).length, none, e.eigvec, none, none, some ty, some sub, none⟩ := by
  unfold linearFile npGet at h
  rw [hg.2 0 hn] at h
  cases hb : w.basisDir with
  | none => rw [hb] at h; cases h
  | some d =>
    rw [hb] at h
    injection h with h
    subst h
    simp

/-- without `$DESI_BASIS_TEMPLATES` there is no file -/
theorem linearFile_env (w : World) (o : MakeOptions) (a : ℝ) (n : Nat) (wave : List ℝ) (hn : 0 < n) (hg : IsGrid a n wave) (ty sub : PyStr) (e : Empca) (h : w.basisDir = none) :
    linearFile w o wave ty sub e = .error .keyError := by
  unfold linearFile npGet
  rw [hg.2 0 hn, h]
  rfl

theorem linearFile_total (w : World) (o : MakeOptions) (a : ℝ) (n : Nat) (wave : List ℝ) (hn : 0 < n) (hg : IsGrid a n wave) (ty sub : PyStr) (e : Empca) (h : w.basisDir.isSome) :
    ∃ m, linearFile w o wave ty sub e = .ok m := by
  unfold linearFile npGet
  rw [hg.2 0 hn]
  cases hb : w.basisDir with
  | none => rw [hb] at h; cases h
  | some d => exact ⟨_, rfl⟩

/-! ### stars -/

/-- A template of stars of a class: on exactly the wavelengths of the fit, with the basis vectors of the fit, named `STAR:::class`, without IGM, scanned at the default redshifts of stars. -/
structure IsStarTemplate (cls : PyStr) (wave : List ℝ) (basis : List (List ℝ)) (t : Template) : Prop where
  wave : t.wave = wave
  flux : t.flux = basis
  name : t.fullType = "STAR:::".toList ++ cls
  igm : t.igm = "None".toList
  method : t.method = "PCA".toList
  redshifts : t.redshifts = (List.range 101).map (fun (i : Nat) => ((i : ℝ) - 50) * 0.00004)

private theorem star_load (float : PyStr → Py ℝ) (opts : ZscanOptions) (hz : opts.star = none) (w : World) (o : MakeOptions) (wave : List ℝ) (hg : IsGrid 3000 80001 wave) (sub : PyStr)
    (hsub : makeFulltype "STAR".toList (some (pyUpper (pyStrip sub))) = "STAR:::".toList ++ sub) (e : Empca) (he : ∃ v vs, e.eigvec = v :: vs ∧ v.length = wave.length) (m : Made)
    (h : linearFile w o wave "STAR".toList sub e = .ok m) : ∃ t, Template.load float opts m.file = .ok t ∧ IsStarTemplate sub wave e.eigvec t := by
  obtain ⟨_, _, hm⟩ := linearFile_ok w o 3000 80001 wave (by norm_num) hg _ _ e m h
  obtain ⟨v, vs, hv, hl⟩ := he
  have hw : templateWave m.file = wave := by
    apply wave_back m.file 3000 80001 wave hg <;> rw [hm]
    · simp [hv, hl, hg.1]
  have hw0 : wave ≠ [] := by
    intro h0
    have := hg.1
    rw [h0] at this
    simp at this
  have hi : templateIgm m.file "STAR".toList (templateVersion m.file) = .ok "None".toList := by
    unfold templateIgm
    rw [hm]
    simp
  have hs : templateSubtype m.file = pyUpper (pyStrip sub) := by unfold templateSubtype; rw [hm]; rfl
  refine ⟨_, load_eq float opts m.file "STAR".toList "None".toList _ (by rw [hm]) (by decide) (by rw [hm]) (C79_star_default float opts hz) (by
    intro h
    have := congrArg List.length h
    simp at this) (by rw [hm]) hi (by rw [hw]; exact hw0), ⟨hw, by rw [hm], ?_, rfl, rfl, rfl⟩⟩
  change makeFulltype _ (some _) = _
  rw [hs]
  exact hsub

private theorem class_names : ∀ cls ∈ typeTemp.map (·.1), makeFulltype "STAR".toList (some (pyUpper (pyStrip cls))) = "STAR:::".toList ++ cls := by
  have : typeTemp.map (·.1) = ["B".toList, "A".toList, "F".toList, "G".toList, "K".toList, "M".toList] := rfl
  rw [this]
  decide

/-- **C131** the file made for a class of stars, whatever `--version` says, is read by redrock as the template of that class: the basis vectors are those fitted to exactly the spectra of the
class, on exactly the wavelengths they were fitted on. -/
theorem C131_star_load (float : PyStr → Py ℝ) (opts : ZscanOptions) (hz : opts.star = none) (w : World) (o : MakeOptions) (wave : List ℝ) (hwave : starWave = .ok wave)
    (spectra : List (List ℝ × ℝ)) (hlen : ∀ s ∈ spectra, s.1.length = wave.length) (c : PyStr × ℝ × ℝ) (hc : c ∈ typeTemp) (hne : ∃ s ∈ spectra, c.2.1 ≤ s.2 ∧ s.2 ≤ c.2.2)
    (hshape : EmpcaShape w wave.length) (m : Made) (hm : starMade w o wave spectra c = .ok m) :
    ∃ e t, w.empca (ofClass spectra c.2.1 c.2.2) o.niter o.nvec = .ok e ∧ m.coeff = some (e.coeff.map unitCoeff) ∧ Template.load float opts m.file = .ok t ∧ IsStarTemplate c.1 wave e.eigvec t := by
  obtain ⟨wave', hw', hg, _⟩ := C131_star_wave
  rw [hwave] at hw'
  injection hw' with hw'
  subst hw'
  unfold starMade at hm
  cases he : w.empca (ofClass spectra c.2.1 c.2.2) o.niter o.nvec with
  | error x => rw [he] at hm; cases hm
  | ok e =>
    rw [he] at hm
    have hm : linearFile w o wave "STAR".toList c.1 e = .ok m := hm
    have hsh := hshape _ _ _ e (by
      obtain ⟨s, hs, h1, h2⟩ := hne
      exact List.ne_nil_of_mem ((C131_class spectra c.2.1 c.2.2 s.1).2 ⟨s.2, hs, h1, h2⟩)) (by
      intro d hd
      obtain ⟨T, hT, _⟩ := (C131_class spectra c.2.1 c.2.2 d).1 hd
      exact hlen _ hT) he
    obtain ⟨t, ht, hst⟩ := star_load float opts hz w o wave hg c.1 (class_names c.1 (List.mem_map_of_mem hc)) e hsh m hm
    exact ⟨e, t, rfl, (linearFile_ok w o 3000 80001 wave (by norm_num) hg _ _ e m hm).2.1, ht, hst⟩

/-- **C131** what the loop over the classes leaves behind, whether it ends normally or not: the files of the first `k` classes are written, every other file is as before; it ends normally after the
last class only, and with the exception of the class after the last one written otherwise. -/
theorem C131_star_files (w : World) (o : MakeOptions) (out : PyStr) (wave : List ℝ) (spectra : List (List ℝ × ℝ)) :
    ∀ (l : List (PyStr × ℝ × ℝ)) (disk disk' : PyDict PyStr Made) (en : Ending), (l.map (·.1)).Nodup → starLoop w o out wave spectra l disk = (disk', en) →
      ∃ k ≤ l.length, (∀ c ∈ l.take k, ∃ m, starMade w o wave spectra c = .ok m ∧ disk'.get? (starName out c.1) = some m) ∧
        (∀ name, (∀ c ∈ l.take k, name ≠ starName out c.1) → disk'.get? name = disk.get? name) ∧ (en = .done → k = l.length) ∧
        (∀ e, en = .raised e → ∃ c, l[k]? = some c ∧ starMade w o wave spectra c = .error e) ∧ en ≠ .exit1 := by
  intro l
  induction l with
  | nil =>
    intro disk disk' en _ h
    unfold starLoop at h
    obtain ⟨rfl, rfl⟩ := Prod.mk.injEq .. ▸ h
    exact ⟨0, le_refl _, by simp, by simp, by simp, by simp, by simp⟩
  | cons c rest ih =>
    intro disk disk' en hnd h
    unfold starLoop at h
    cases hm : starMade w o wave spectra c with
    | error e =>
      rw [hm] at h
      obtain ⟨rfl, rfl⟩ := Prod.mk.injEq .. ▸ h
      refine ⟨0, Nat.zero_le _, by simp, by simp, by simp, ?_, by simp⟩
      intro e' he'
      injection he' with he'
      subst he'
      exact ⟨c, rfl, hm⟩
    | ok m =>
      rw [hm] at h
      rw [List.map_cons, List.nodup_cons] at hnd
      obtain ⟨k, hk, h1, h2, h3, h4, h5⟩ := ih _ disk' en hnd.2 h
      have hfirst : disk'.get? (starName out c.1) = some m := by
        rw [h2, PyDict.get?_set, if_pos rfl]
        intro d hd he
        exact hnd.1 (List.mem_map.2 ⟨d, List.mem_of_mem_take hd, (starName_inj out _ _ he).symm⟩)
      refine ⟨k + 1, by simpa using hk, ?_, ?_, ?_, ?_, h5⟩
      · intro d hd
        rw [List.take_succ_cons, List.mem_cons] at hd
        rcases hd with rfl | hd
        · exact ⟨m, hm, hfirst⟩
        · exact h1 d hd
      · intro name hname
        rw [List.take_succ_cons] at hname
        rw [h2 name (fun d hd => hname d (List.mem_cons_of_mem _ hd)), PyDict.get?_set, if_neg (Ne.symm (hname c (by simp)))]
      · intro hd
        simp [h3 hd]
      · intro e he
        obtain ⟨d, hd, hde⟩ := h4 e he
        exact ⟨d, by simpa using hd, hde⟩

/-- the names of the classes differ -/
theorem class_nodup : (typeTemp.map (·.1)).Nodup := by
  have : typeTemp.map (·.1) = ["B".toList, "A".toList, "F".toList, "G".toList, "K".toList, "M".toList] := rfl
  rw [this]
  decide

/-- the normalized simulated spectra of stars -/
private theorem starSpectra_ok (w : World) (hres : ResampleShape w) (tw : List ℝ) (raw : List (List ℝ × ℝ)) (hsim : w.simulate "STAR".toList = .ok (tw, raw)) :
    ∃ wave, starWave = .ok wave ∧ starSpectra w = .ok (wave, raw.map (fun s => (normalized (w.resample wave tw s.1), s.2))) ∧
      ∀ s ∈ raw.map (fun s => (normalized (w.resample wave tw s.1), s.2)), s.1.length = wave.length := by
  obtain ⟨wave, hw, _, _⟩ := C131_star_wave
  refine ⟨wave, hw, ?_, ?_⟩
  · unfold starSpectra sampled
    rw [hw, hsim]
    change Except.ok (wave, (raw.map _).map _) = _
    rw [List.map_map]
    rfl
  · intro s hs
    obtain ⟨r, _, rfl⟩ := List.mem_map.1 hs
    simp [normalized, hres wave]

/-- **C131** a whole run of `rrstartemplate`: if the simulation works, every class has a star, `empca` succeeds and `$DESI_BASIS_TEMPLATES` is set, the run ends normally, leaves one file per class
that redrock reads as the template of that class, made from exactly the stars of its temperatures (each resampled and normalized), and touches no other file. -/
theorem C131_star_run (float : PyStr → Py ℝ) (opts : ZscanOptions) (hz : opts.star = none) (w : World) (o : MakeOptions) (out : PyStr) (hout : o.outfile = some out)
    (henv : w.basisDir.isSome) (hres : ResampleShape w) (hshape : ∀ n, EmpcaShape w n) (htotal : ∀ data, ∃ e, w.empca data o.niter o.nvec = .ok e)
    (tw : List ℝ) (raw : List (List ℝ × ℝ)) (hsim : w.simulate "STAR".toList = .ok (tw, raw)) (hall : ∀ c ∈ typeTemp, ∃ s ∈ raw, c.2.1 ≤ s.2 ∧ s.2 ≤ c.2.2) (disk : PyDict PyStr Made) :
    ∃ disk' wave, rrstartemplate w o disk = (disk', .done) ∧ starWave = .ok wave ∧
      (∀ c ∈ typeTemp, ∃ m e t, disk'.get? ((splitext out).1 ++ ['-'] ++ c.1 ++ (splitext out).2) = some m ∧
        w.empca (((raw.filter (fun s => decide (c.2.1 ≤ s.2 ∧ s.2 ≤ c.2.2))).map (fun s => normalized (w.resample wave tw s.1)))) o.niter o.nvec = .ok e ∧
        Template.load float opts m.file = .ok t ∧ IsStarTemplate c.1 wave e.eigvec t) ∧
      (∀ name, (∀ c ∈ typeTemp, name ≠ (splitext out).1 ++ ['-'] ++ c.1 ++ (splitext out).2) → disk'.get? name = disk.get? name) := by
  obtain ⟨wave, hw, hsp, hlen⟩ := starSpectra_ok w hres tw raw hsim
  obtain ⟨wave', hw', hg, _⟩ := C131_star_wave
  rw [hw] at hw'
  injection hw' with hw'
  subst hw'
  have hrun : rrstartemplate w o disk = starLoop w o out wave (raw.map (fun s => (normalized (w.resample wave tw s.1), s.2))) typeTemp disk := by
    unfold rrstartemplate
    rw [hout]
    simp only [hsp]
  have hof : ∀ c : PyStr × ℝ × ℝ, ofClass (raw.map (fun s => (normalized (w.resample wave tw s.1), s.2))) c.2.1 c.2.2 =
      (raw.filter (fun s => decide (c.2.1 ≤ s.2 ∧ s.2 ≤ c.2.2))).map (fun s => normalized (w.resample wave tw s.1)) := by
    intro c
    unfold ofClass
    rw [List.filter_map, List.map_map]
    congr 1
    apply List.filter_congr
    intro s _
    simp [Bool.decide_and]
  set spectra := raw.map (fun s => (normalized (w.resample wave tw s.1), s.2)) with hspectra
  have hne : ∀ c ∈ typeTemp, ∃ s ∈ spectra, c.2.1 ≤ s.2 ∧ s.2 ≤ c.2.2 := by
    intro c hc
    obtain ⟨s, hs, h1, h2⟩ := hall c hc
    exact ⟨_, List.mem_map_of_mem hs, h1, h2⟩
  have hmade : ∀ c, ∃ m, starMade w o wave spectra c = .ok m := by
    intro c
    unfold starMade
    obtain ⟨e, he⟩ := htotal (ofClass spectra c.2.1 c.2.2)
    rw [he]
    exact linearFile_total w o 3000 80001 wave (by norm_num) hg _ _ e henv
  obtain ⟨⟨disk', en⟩, hloop⟩ : ∃ r, starLoop w o out wave spectra typeTemp disk = r := ⟨_, rfl⟩
  obtain ⟨k, hk, h1, h2, h3, h4, h5⟩ := C131_star_files w o out wave spectra typeTemp disk disk' en class_nodup hloop
  have hen : en = .done := by
    cases en with
    | done => rfl
    | exit1 => exact absurd rfl h5
    | raised e =>
      obtain ⟨c, _, hc⟩ := h4 e rfl
      obtain ⟨m, hm⟩ := hmade c
      rw [hm] at hc
      cases hc
  subst hen
  rw [h3 rfl, List.take_length] at h1 h2
  refine ⟨disk', wave, by rw [hrun, hloop], hw, ?_, h2⟩
  intro c hc
  obtain ⟨m, hm, hget⟩ := h1 c hc
  obtain ⟨e, t, he, _, ht, hst⟩ := C131_star_load float opts hz w o wave hw spectra hlen c hc (hne c hc) (hshape _) m hm
  exact ⟨m, e, t, hget, by rw [← hof]; exact he, ht, hst⟩

/-- **C131** (refuted: "or nothing") if the fit of a later class fails, the files of the earlier classes have been written. -/
theorem C131_star_partial_output (w : World) (o : MakeOptions) (out : PyStr) (wave : List ℝ) (spectra : List (List ℝ × ℝ)) (disk disk' : PyDict PyStr Made) (e : PyErr)
    (h : starLoop w o out wave spectra typeTemp disk = (disk', .raised e)) (m : Made) (hB : starMade w o wave spectra ("B".toList, 10000, 30000) = .ok m) :
    disk'.get? ((splitext out).1 ++ "-B".toList ++ (splitext out).2) = some m := by
  obtain ⟨k, hk, h1, h2, h3, h4, _⟩ := C131_star_files w o out wave spectra typeTemp disk disk' _ class_nodup h
  obtain ⟨c, hc, hce⟩ := h4 e rfl
  have hk0 : k ≠ 0 := by
    rintro rfl
    injection (show typeTemp[0]? = some c from hc) with hc
    subst hc
    rw [hB] at hce
    cases hce
  obtain ⟨j, rfl⟩ := Nat.exists_eq_succ_of_ne_zero hk0
  obtain ⟨m', hm', hg⟩ := h1 ("B".toList, 10000, 30000) (by unfold typeTemp; rw [List.take_succ_cons]; simp)
  rw [hB] at hm'
  injection hm' with hm'
  subst hm'
  rw [← hg]
  congr 1
  unfold starName
  simp

/-! ### galaxies, white dwarfs and quasars -/

private theorem galGrid : IsGrid (3500 / (1 + 1.85)) 97720 ((List.range 97720).map (fun (i : Nat) => (3500 / (1 + 1.85) : ℝ) + (i : ℝ) * 0.1)) := by
  refine ⟨by simp, fun i hi => ?_⟩
  rw [List.getElem?_map, List.getElem?_range hi]
  simp [mul_comm]

private theorem gal_grid (float : PyStr → Py ℝ) (opts : ZscanOptions) (hz : opts.galaxy = none) : ∃ zs, defaultRedshifts float opts "GALAXY".toList = .ok zs ∧ zs ≠ [] := by
  obtain ⟨zs, h, hg⟩ := logGrid_grid (-0.005) 1.7 3e-4 (by norm_num) (by norm_num) (by norm_num)
  refine ⟨zs, ?_, ?_⟩
  · unfold defaultRedshifts
    rw [if_pos rfl, hz]
    exact h
  · rintro rfl
    exact absurd hg.first (by simp)

private theorem qso_grid (float : PyStr → Py ℝ) (opts : ZscanOptions) (hz : opts.qso = none) : ∃ zs, defaultRedshifts float opts "QSO".toList = .ok zs ∧ zs ≠ [] := by
  obtain ⟨zs, h, hg⟩ := logGrid_grid 0.05 6.0 5e-4 (by norm_num) (by norm_num) (by norm_num)
  refine ⟨zs, ?_, ?_⟩
  · unfold defaultRedshifts
    rw [if_neg (by decide), if_neg (by decide), if_pos rfl, hz]
    exact h
  · rintro rfl
    exact absurd hg.first (by simp)

/-- **C131** the galaxy template is made of all simulated spectra of the three kinds, and redrock reads its file if `--version` is `2.6`: then on exactly the wavelengths of the fit with exactly its
basis vectors, as type `GALAXY` with the IGM model of that version. With any other version, or none, the file has no known IGM model and redrock refuses it. -/
theorem C131_gal_load (float : PyStr → Py ℝ) (opts : ZscanOptions) (hz : opts.galaxy = none) (w : World) (o : MakeOptions) (hres : ResampleShape w) (hshape : ∀ n, EmpcaShape w n)
    (t1 t2 t3 : List ℝ) (elg lrg bgs : List (List ℝ × ℝ)) (h1 : w.simulate "ELG".toList = .ok (t1, elg)) (h2 : w.simulate "LRG".toList = .ok (t2, lrg)) (h3 : w.simulate "BGS".toList = .ok (t3, bgs))
    (hne : elg ++ lrg ++ bgs ≠ []) (m : Made) (hm : galMade w o = .ok m) :
    ∃ wave e, galWave = .ok wave ∧
      w.empca (elg.map (fun s => normalized (w.resample wave t1 s.1)) ++ lrg.map (fun s => normalized (w.resample wave t2 s.1)) ++ bgs.map (fun s => normalized (w.resample wave t3 s.1))) o.niter o.nvec = .ok e ∧
      (o.version = some "2.6".toList → ∃ t, Template.load float opts m.file = .ok t ∧ t.wave = wave ∧ t.flux = e.eigvec ∧ t.fullType = "GALAXY".toList ∧ t.igm = "Calura12".toList) ∧
      (o.version ≠ some "2.6".toList → Template.load float opts m.file = .error .valueError) := by
  have hw := galWave_eq
  have hg := galGrid
  generalize hwv : (List.range 97720).map (fun (i : Nat) => (3500 / (1 + 1.85) : ℝ) + (i : ℝ) * 0.1) = wave at hw hg
  have hbody : galMade w o = (w.empca (elg.map (fun s => normalized (w.resample wave t1 s.1)) ++ lrg.map (fun s => normalized (w.resample wave t2 s.1)) ++
      bgs.map (fun s => normalized (w.resample wave t3 s.1))) o.niter o.nvec >>= fun e => linearFile w o wave "GALAXY".toList [] e) := by
    unfold galMade sampled
    rw [hw, h1, h2, h3]
    change (w.empca ((((elg.map _) ++ (lrg.map _)) ++ (bgs.map _)).map _) o.niter o.nvec >>= _) = _
    rw [List.map_append, List.map_append, List.map_map, List.map_map, List.map_map]
    rfl
  rw [hbody] at hm
  set data := elg.map (fun s => normalized (w.resample wave t1 s.1)) ++ lrg.map (fun s => normalized (w.resample wave t2 s.1)) ++ bgs.map (fun s => normalized (w.resample wave t3 s.1)) with hdata
  cases he : w.empca data o.niter o.nvec with
  | error x => rw [he] at hm; cases hm
  | ok e =>
    rw [he] at hm
    have hm : linearFile w o wave "GALAXY".toList [] e = .ok m := hm
    obtain ⟨v, vs, hv, hl⟩ := hshape wave.length data _ _ e (by
      rw [hdata]
      simp only [ne_eq, List.append_eq_nil_iff, List.map_eq_nil_iff] at hne ⊢
      exact hne) (by
      intro d hd
      rw [hdata] at hd
      simp only [List.mem_append, List.mem_map] at hd
      rcases hd with (⟨s, _, rfl⟩ | ⟨s, _, rfl⟩) | ⟨s, _, rfl⟩ <;> simp [normalized, hres wave]) he
    obtain ⟨_, _, hf⟩ := linearFile_ok w o _ _ wave (by norm_num) hg _ _ e m hm
    obtain ⟨zs, hzs, hzn⟩ := gal_grid float opts hz
    have hwb : templateWave m.file = wave := by
      apply wave_back m.file _ _ wave hg <;> rw [hf]
      · simp [hv, hl, hg.1]
    refine ⟨wave, e, hw, he, ?_, ?_⟩
    · intro hver
      have hi : templateIgm m.file "GALAXY".toList (templateVersion m.file) = .ok "Calura12".toList := by
        unfold templateIgm templateVersion
        rw [hf]
        simp only [hver]
        decide
      refine ⟨_, load_eq float opts m.file _ _ zs (by rw [hf]) (by decide) (by rw [hf]) hzs hzn (by rw [hf]) hi (by
        rw [hwb]
        intro h0
        have := hg.1
        rw [h0] at this
        simp at this), hwb, by rw [hf], ?_, rfl⟩
      have hs : templateSubtype m.file = [] := by unfold templateSubtype; rw [hf]; rfl
      change makeFulltype "GALAXY".toList (some (templateSubtype m.file)) = _
      rw [hs]
      decide
    · intro hver
      apply load_err float opts m.file "GALAXY".toList zs .valueError (by rw [hf]) (by decide) (by rw [hf]) hzs hzn
      unfold templateIgm templateVersion
      rw [hf]
      simp only
      rw [if_neg (by decide), if_neg ?_, if_neg (by rintro ⟨h, _⟩; exact absurd h (by decide)), if_neg (by rintro ⟨h, _⟩; exact absurd h (by decide))]
      rintro ⟨_, h⟩
      cases hv2 : o.version with
      | none => rw [hv2] at h; exact absurd h (by decide)
      | some x =>
        rw [hv2] at h
        exact hver (by rw [hv2, ← h]; rfl)

/-- **C131** the quasar template copies the eigenspectra: redrock reads its file if `--version` is `0.1`, `1.0` or `1.1`, with wavelengths 10^(COEFF0 + COEFF1 i); otherwise it refuses it. -/
theorem C131_qso_load (float : PyStr → Py ℝ) (opts : ZscanOptions) (hz : opts.qso = none) (version : Option PyStr) (f : SdssFile) (x0 x1 : ℝ)
    (h0 : f.header.get? "COEFF0".toList = some (.num x0)) (h1 : f.header.get? "COEFF1".toList = some (.num x1)) (row : List ℝ) (rows : List (List ℝ)) (hrow : f.data = row :: rows) (hr : row ≠ []) :
    ∃ m, qsoMade version f = .ok m ∧
      ((∃ v, version = some v ∧ v ∈ ["0.1".toList, "1.0".toList, "1.1".toList]) → ∃ t, Template.load float opts m.file = .ok t ∧ t.flux = f.data ∧ t.fullType = "QSO".toList ∧
        t.wave = (List.range row.length).map (fun (i : Nat) => (10 : ℝ) ^ (x0 + x1 * (i : ℝ)))) ∧
      ((∀ v, version = some v → v ∉ ["0.1".toList, "1.0".toList, "1.1".toList]) → Template.load float opts m.file = .error .valueError) := by
  have hq : qsoMade version f = .ok ⟨⟨version, x0, x1, row.length, some 1, f.data, none, none, some "QSO".toList, some [], none⟩, none⟩ := by
    unfold qsoMade PyDict.get
    rw [h0, h1]
    simp only
    rw [hrow]
    rfl
  refine ⟨_, hq, ?_, ?_⟩
  all_goals
    obtain ⟨zs, hzs, hzn⟩ := qso_grid float opts hz
    intro hv
  · obtain ⟨v, rfl, hv⟩ := hv
    have hw : templateWave ⟨some v, x0, x1, row.length, some 1, f.data, none, none, some "QSO".toList, some [], none⟩ = (List.range row.length).map (fun (i : Nat) => (10 : ℝ) ^ (x0 + x1 * (i : ℝ))) := by
      unfold templateWave
      simp
    have hi : ∃ igm, templateIgm ⟨some v, x0, x1, row.length, some 1, f.data, none, none, some "QSO".toList, some [], none⟩ "QSO".toList v = .ok igm := by
      unfold templateIgm
      simp only
      simp only [List.mem_cons, List.not_mem_nil, or_false] at hv
      rcases hv with rfl | rfl | rfl
      · exact ⟨"Calura12".toList, by decide⟩
      · exact ⟨"Calura12".toList, by decide⟩
      · exact ⟨"Kamble20".toList, by decide⟩
    obtain ⟨igm, hi⟩ := hi
    refine ⟨_, load_eq float opts _ "QSO".toList igm zs rfl (by decide) rfl hzs hzn rfl hi (by
      rw [hw]
      intro h
      have := congrArg List.length h
      simp at this
      exact hr this), rfl, ?_, hw⟩
    change makeFulltype _ (some _) = _
    unfold templateSubtype
    simp only
    decide
  · apply load_err float opts _ "QSO".toList zs .valueError rfl (by decide) rfl hzs hzn
    unfold templateIgm templateVersion
    simp only
    rw [if_neg (by decide), if_neg (by rintro ⟨h, _⟩; exact absurd h (by decide))]
    cases version with
    | none =>
      rw [if_neg (by decide), if_neg (by decide)]
    | some v =>
      have := hv v rfl
      simp only [List.mem_cons, List.not_mem_nil, or_false, not_or] at this
      simp only [Option.getD_some]
      rw [if_neg (by tauto), if_neg (by tauto)]

/-- **C131** (refuted) the quasar and white dwarf scripts use the old keyword `clobber`: with an `astropy` that does not know it they write nothing at all, and raise `TypeError` after all the work. -/
theorem C131_clobber_refuted (w : World) (hw : w.clobber = false) (o : MakeOptions) (version : Option PyStr) (out : PyStr) (f : SdssFile) (disk : PyDict PyStr Made) :
    (rrqsotemplate false version out f disk).1 = disk ∧ (rrstarwdtemplate w o disk).1 = disk ∧
    (∀ m, qsoMade version f = .ok m → (rrqsotemplate false version out f disk).2 = .raised .typeError) ∧
    (∀ m, o.outfile = some out → wdMade w o = .ok m → (rrstarwdtemplate w o disk).2 = .raised .typeError) := by
  refine ⟨?_, ?_, ?_, ?_⟩
  · unfold rrqsotemplate
    cases qsoMade version f <;> rfl
  · unfold rrstarwdtemplate
    cases o.outfile with
    | none => rfl
    | some out =>
      cases wdMade w o with
      | error e => rfl
      | ok m => simp only [hw]; rfl
  · intro m hm
    unfold rrqsotemplate
    rw [hm]
    rfl
  · intro m ho hm
    unfold rrstarwdtemplate
    rw [ho, hm, hw]
    rfl

/-- **C131** with one that does, the white dwarf file is `name-WD.ext`, and redrock reads it as the template `STAR:::WD` made of all simulated spectra of both kinds; no other file changes. -/
theorem C131_wd_run (float : PyStr → Py ℝ) (opts : ZscanOptions) (hz : opts.star = none) (w : World) (hcl : w.clobber = true) (o : MakeOptions) (out : PyStr) (hout : o.outfile = some out)
    (hres : ResampleShape w) (hshape : ∀ n, EmpcaShape w n) (t1 t2 : List ℝ) (da db : List (List ℝ × ℝ)) (h1 : w.simulate "DA".toList = .ok (t1, da)) (h2 : w.simulate "DB".toList = .ok (t2, db))
    (hne : da ++ db ≠ []) (disk : PyDict PyStr Made) (m : Made) (hm : wdMade w o = .ok m) :
    ∃ disk' wave e t, rrstarwdtemplate w o disk = (disk', .done) ∧ starWave = .ok wave ∧
      w.empca (da.map (fun s => normalized (w.resample wave t1 s.1)) ++ db.map (fun s => normalized (w.resample wave t2 s.1))) o.niter o.nvec = .ok e ∧
      disk'.get? ((splitext out).1 ++ "-WD".toList ++ (splitext out).2) = some m ∧ Template.load float opts m.file = .ok t ∧ IsStarTemplate "WD".toList wave e.eigvec t ∧
      ∀ name, name ≠ (splitext out).1 ++ "-WD".toList ++ (splitext out).2 → disk'.get? name = disk.get? name := by
  obtain ⟨wave, hw, hg, _⟩ := C131_star_wave
  have hbody : wdMade w o = (w.empca (da.map (fun s => normalized (w.resample wave t1 s.1)) ++ db.map (fun s => normalized (w.resample wave t2 s.1))) o.niter o.nvec >>=
      fun e => linearFile w o wave "STAR".toList "WD".toList e) := by
    unfold wdMade sampled
    rw [hw, h1, h2]
    change (w.empca (((da.map _) ++ (db.map _)).map _) o.niter o.nvec >>= _) = _
    rw [List.map_append, List.map_map, List.map_map]
    rfl
  have hm0 := hm
  rw [hbody] at hm
  set data := da.map (fun s => normalized (w.resample wave t1 s.1)) ++ db.map (fun s => normalized (w.resample wave t2 s.1)) with hdata
  cases he : w.empca data o.niter o.nvec with
  | error x => rw [he] at hm; cases hm
  | ok e =>
    rw [he] at hm
    have hm : linearFile w o wave "STAR".toList "WD".toList e = .ok m := hm
    have hsh := hshape wave.length data _ _ e (by
      rw [hdata]
      simp only [ne_eq, List.append_eq_nil_iff, List.map_eq_nil_iff] at hne ⊢
      exact hne) (by
      intro d hd
      rw [hdata] at hd
      simp only [List.mem_append, List.mem_map] at hd
      rcases hd with ⟨s, _, rfl⟩ | ⟨s, _, rfl⟩ <;> simp [normalized, hres wave]) he
    obtain ⟨t, ht, hst⟩ := star_load float opts hz w o wave hg "WD".toList (by decide) e hsh m hm
    have hnm : starName out "WD".toList = (splitext out).1 ++ "-WD".toList ++ (splitext out).2 := by
      unfold starName
      simp
    refine ⟨disk.set (starName out "WD".toList) m, wave, e, t, ?_, hw, he, ?_, ht, hst, ?_⟩
    · unfold rrstarwdtemplate
      rw [hout, hm0, hcl]
      rfl
    · rw [← hnm, PyDict.get?_set, if_pos rfl]
    · intro name hname
      rw [PyDict.get?_set, if_neg (by rw [hnm]; exact Ne.symm hname)]

/-- **C131** the galaxy and quasar scripts write the file of the given name, replacing an old one, and touch no other; or they end with an exception and touch nothing. -/
theorem C131_one_file (w : World) (o : MakeOptions) (version : Option PyStr) (out : PyStr) (hout : o.outfile = some out) (f : SdssFile) (disk : PyDict PyStr Made) :
    ((∃ m, galMade w o = .ok m ∧ (rrgaltemplate w o disk).2 = .done ∧ (rrgaltemplate w o disk).1.get? out = some m ∧ ∀ name, name ≠ out → (rrgaltemplate w o disk).1.get? name = disk.get? name) ∨
      (∃ e, galMade w o = .error e ∧ rrgaltemplate w o disk = (disk, .raised e))) ∧
    ((∃ m, qsoMade version f = .ok m ∧ (rrqsotemplate true version out f disk).2 = .done ∧ (rrqsotemplate true version out f disk).1.get? out = some m ∧
        ∀ name, name ≠ out → (rrqsotemplate true version out f disk).1.get? name = disk.get? name) ∨
      (∃ e, qsoMade version f = .error e ∧ rrqsotemplate true version out f disk = (disk, .raised e))) := by
  constructor
  · unfold rrgaltemplate
    rw [hout]
    cases h : galMade w o with
    | error e => exact Or.inr ⟨e, rfl, rfl⟩
    | ok m =>
      refine Or.inl ⟨m, rfl, rfl, ?_, ?_⟩
      · simp only; rw [PyDict.get?_set, if_pos rfl]
      · intro name hn
        simp only
        rw [PyDict.get?_set, if_neg (Ne.symm hn)]
  · unfold rrqsotemplate
    cases h : qsoMade version f with
    | error e => exact Or.inr ⟨e, rfl, rfl⟩
    | ok m =>
      refine Or.inl ⟨m, rfl, rfl, ?_, ?_⟩
      · simp only [if_true]; rw [PyDict.get?_set, if_pos rfl]
      · intro name hn
        simp only [if_true]
        rw [PyDict.get?_set, if_neg (Ne.symm hn)]

/-- **C131** without `-o`, or without `$DESI_BASIS_TEMPLATES`, the three scripts for simulated spectra leave every file as it was. -/
theorem C131_nothing (w : World) (o : MakeOptions) (h : o.outfile = none ∨ w.basisDir = none) (disk : PyDict PyStr Made) :
    (rrgaltemplate w o disk).1 = disk ∧ (rrstartemplate w o disk).1 = disk ∧ (rrstarwdtemplate w o disk).1 = disk := by
  cases ho : o.outfile with
  | none => unfold rrgaltemplate rrstartemplate rrstarwdtemplate; rw [ho]; exact ⟨rfl, rfl, rfl⟩
  | some out =>
    have hb : w.basisDir = none := by
      rcases h with h | h
      · rw [ho] at h; cases h
      · exact h
    obtain ⟨wave, hw, hg, _⟩ := C131_star_wave
    have key : ∀ {α : Type} (x : Py α) (k : α → Py Made), (∀ a, ∃ e, k a = .error e) → ∃ e, (x >>= k) = .error e := by
      intro α x k hk
      cases x with
      | error e => exact ⟨e, rfl⟩
      | ok a => exact hk a
    have hstar : ∀ sp c, ∃ e, starMade w o wave sp c = .error e := by
      intro sp c
      unfold starMade
      exact key _ _ (fun a => ⟨_, linearFile_env w o 3000 80001 wave (by norm_num) hg _ _ a hb⟩)
    refine ⟨?_, ?_, ?_⟩
    · unfold rrgaltemplate
      rw [ho]
      have : ∃ e, galMade w o = .error e := by
        unfold galMade
        have hgg := galGrid
        rw [galWave_eq]
        generalize (List.range 97720).map (fun (i : Nat) => (3500 / (1 + 1.85) : ℝ) + (i : ℝ) * 0.1) = gw at hgg
        change ∃ e, (sampled w gw "ELG".toList >>= _) = _
        exact key _ _ fun a1 => key _ _ fun a2 => key _ _ fun a3 => key _ _ fun a4 => ⟨_, linearFile_env w o _ _ gw (by norm_num) hgg _ _ a4 hb⟩
      obtain ⟨e, he⟩ := this
      simp only [he]
    · unfold rrstartemplate
      rw [ho]
      simp only
      cases hs : starSpectra w with
      | error e => rfl
      | ok ws =>
        have : ws.1 = wave := by
          unfold starSpectra at hs
          rw [hw] at hs
          change (sampled w wave "STAR".toList >>= _) = _ at hs
          cases hq : sampled w wave "STAR".toList with
          | error e => rw [hq] at hs; cases hs
          | ok s => rw [hq] at hs; injection hs with hs; subst hs; rfl
        simp only
        rw [this]
        unfold typeTemp starLoop
        obtain ⟨e, he⟩ := hstar ws.2 ("B".toList, 10000, 30000)
        rw [he]
    · unfold rrstarwdtemplate
      rw [ho]
      have : ∃ e, wdMade w o = .error e := by
        unfold wdMade
        rw [hw]
        change ∃ e, (sampled w wave "DA".toList >>= _) = _
        refine key _ _ fun a1 => key _ _ fun a2 => key _ _ fun a3 => ⟨_, linearFile_env w o 3000 80001 wave (by norm_num) hg _ _ a3 hb⟩
      obtain ⟨e, he⟩ := this
      simp only [he]

/-! ### a concrete case -/

namespace Ex

/-- one star per class; every resampled spectrum is 1 at all wavelengths; the basis is the first spectrum -/
noncomputable def world : World :=
  { simulate := fun _ => .ok ([3000, 11000], [([1, 1], 20000), ([1, 1], 8000), ([1, 1], 7000), ([1, 1], 5800), ([1, 1], 4500), ([1, 1], 3000)])
    resample := fun wave _ _ => wave.map (fun _ => 1)
    empca := fun data _ _ => .ok ⟨[data.headD []], data.map (fun _ => [2])⟩
    basisDir := some "/basis".toList
    clobber := true }

theorem shape (n : Nat) : EmpcaShape world n := by
  intro data it nv r hne hlen h
  injection h with h
  subst h
  cases data with
  | nil => exact absurd rfl hne
  | cons d ds => exact ⟨d, [], rfl, hlen d (by simp)⟩

theorem resample : ResampleShape world := by intro wave tw s; simp [world]

/-- options `-o d.x/star.fits --version 2.6` -/
def opts : MakeOptions := ⟨some "d.x/star.fits".toList, 5, 5, some "2.6".toList⟩

example : splitext "d.x/star.fits".toList = ("d.x/star".toList, ".fits".toList) ∧ splitext "d.x/star".toList = ("d.x/star".toList, []) ∧ splitext "d/..fits".toList = ("d/..fits".toList, []) ∧
    starName "d.x/star.fits".toList "B".toList = "d.x/star-B.fits".toList := by decide

/-- the run of `C131_star_run` -/
example : ∃ disk' : PyDict PyStr Made, rrstartemplate world opts [] = (disk', .done) ∧ (disk'.get? "d.x/star-G.fits".toList).isSome ∧ disk'.get? "d.x/star.fits".toList = none := by
  obtain ⟨disk', wave, h1, _, h2, h3⟩ := C131_star_run (fun _ => .error .valueError) ⟨none, none, none⟩ rfl world opts "d.x/star.fits".toList rfl rfl resample shape (fun data => ⟨_, rfl⟩) _ _ rfl
    (by
      intro c hc
      simp only [typeTemp, List.mem_cons, List.not_mem_nil, or_false] at hc
      rcases hc with rfl | rfl | rfl | rfl | rfl | rfl
      · exact ⟨([1, 1], 20000), by simp, by norm_num, by norm_num⟩
      · exact ⟨([1, 1], 8000), by simp, by norm_num, by norm_num⟩
      · exact ⟨([1, 1], 7000), by simp, by norm_num, by norm_num⟩
      · exact ⟨([1, 1], 5800), by simp, by norm_num, by norm_num⟩
      · exact ⟨([1, 1], 4500), by simp, by norm_num, by norm_num⟩
      · exact ⟨([1, 1], 3000), by simp, by norm_num, by norm_num⟩) []
  refine ⟨disk', h1, ?_, ?_⟩
  · obtain ⟨m, _, _, hm, _⟩ := h2 ("G".toList, 5200, 6000) (by simp [typeTemp])
    have : (splitext "d.x/star.fits".toList).1 ++ ['-'] ++ "G".toList ++ (splitext "d.x/star.fits".toList).2 = "d.x/star-G.fits".toList := by decide
    rw [this] at hm
    rw [hm]
    rfl
  · rw [h3]
    · rfl
    · intro c hc
      simp only [typeTemp, List.mem_cons, List.not_mem_nil, or_false] at hc
      rcases hc with rfl | rfl | rfl | rfl | rfl | rfl <;> simp only <;> decide

/-- the hypotheses of `C131_gal_load` and `C131_wd_run` -/
example : (∃ m, galMade world opts = .ok m) ∧ (∃ m, wdMade world opts = .ok m) := by
  obtain ⟨wave, hw, hg, _⟩ := C131_star_wave
  constructor
  · unfold galMade
    have hgg := galGrid
    rw [galWave_eq]
    generalize (List.range 97720).map (fun (i : Nat) => (3500 / (1 + 1.85) : ℝ) + (i : ℝ) * 0.1) = gw at hgg
    exact linearFile_total world opts _ _ gw (by norm_num) hgg _ _ _ rfl
  · unfold wdMade
    rw [hw]
    exact linearFile_total world opts _ _ wave (by norm_num) hg _ _ _ rfl

/-- a BOSS file of one eigenspectrum -/
noncomputable def boss : SdssFile := ⟨[("COEFF0".toList, .num 3), ("COEFF1".toList, .num 0.0001)], [[1, 2, 3]]⟩

example : boss.header.get? "COEFF0".toList = some (.num 3) ∧ boss.header.get? "COEFF1".toList = some (.num 0.0001) ∧ boss.data = [1, 2, 3] :: [] := ⟨rfl, rfl, rfl⟩

/-- `empca` as above, but it fails for two spectra or more -/
noncomputable def failing : World := { world with empca := fun data _ _ => if 1 < data.length then .error .linAlgError else .ok ⟨[data.headD []], []⟩ }

private theorem filtered (row : List ℝ) : ofClass [(row, 20000), (row, 8000), (row, 8000)] 10000 30000 = [row] ∧ ofClass [(row, 20000), (row, 8000), (row, 8000)] 7500 10000 = [row, row] := by
  unfold ofClass
  constructor
  · simp [List.filter]; norm_num
  · simp [List.filter]; norm_num

end Ex

/-- **C131** (refuted: all or nothing) if the fit of a class fails, the files of the classes before it have been written. -/
theorem C131_all_or_nothing_refuted : ∃ (w : World) (o : MakeOptions) (spectra : List (List ℝ × ℝ)) (disk' : PyDict PyStr Made) (e : PyErr),
    starLoop w o "star.fits".toList [3000] spectra typeTemp [] = (disk', .raised e) ∧ (disk'.get? "star-B.fits".toList).isSome ∧ disk'.get? "star-A.fits".toList = none := by
  obtain ⟨f1, f2⟩ := Ex.filtered [1]
  have hB : ∃ m, starMade Ex.failing Ex.opts [3000] [([1], 20000), ([1], 8000), ([1], 8000)] ("B".toList, 10000, 30000) = .ok m := by
    unfold starMade
    simp only [f1]
    exact ⟨_, rfl⟩
  have hA : starMade Ex.failing Ex.opts [3000] [([1], 20000), ([1], 8000), ([1], 8000)] ("A".toList, 7500, 10000) = .error .linAlgError := by
    unfold starMade
    simp only [f2]
    rfl
  obtain ⟨m, hB⟩ := hB
  refine ⟨Ex.failing, Ex.opts, [([1], 20000), ([1], 8000), ([1], 8000)], PyDict.set [] "star-B.fits".toList m, .linAlgError, ?_, ?_, ?_⟩
  · have hn : starName "star.fits".toList "B".toList = "star-B.fits".toList := by decide
    unfold typeTemp
    rw [starLoop, hB]
    simp only
    rw [starLoop, hA]
    simp only [hn]
  · rw [PyDict.get?_set, if_pos rfl]; rfl
  · rw [PyDict.get?_set, if_neg (by decide)]; rfl

end Make
end Redrock
