import Verif.Model.MpRun
import Verif.Props.RrDesi

/-! Property C122: a whole run, and `rrdesi`, with worker processes. -/
set_option linter.unusedSectionVars false
set_option synthInstance.maxSize 2000
namespace Redrock
namespace MpRun
open Run Catalogue FullRun

/-! ### specification -/

/-- every started worker delivers once, in any order -/
structure AnyOrder {Z : Type} (w : Workers Z) : Prop where
  procs : 0 < w.procs
  scan : ∀ t l, (w.scanOrder t l).Perm l
  fit : ∀ t l, (w.fitOrder t l).Perm l

section
variable {ι ω K σ M : Type} [DecidableEq ι] [DecidableEq ω] [Field K] [LinearOrder K] [IsStrictOrderedRing K]

/-- the targets with more spectra come first -/
def MoreFirst (targets : List (ι × (List (FitSpectrum ω K) × M))) : Prop := targets.Pairwise (fun a b => b.2.1.length ≤ a.2.1.length)

/-! ### the run is the run of `Verif/Model/Run.lean` -/

theorem mpWorker_eq (c : FullCfg ι ω K σ) (g : PyStr → ω → K → List (List K)) (targets : List (ι × (List (FitSpectrum ω K) × M))) (hn : (c.templates.map (·.1)).Nodup)
    (hs : ∀ t ∈ c.templates, Scannable c.S t.2 (gridsOf targets) (g t.1)) (t : PyStr × Tmpl ω K σ) (ht : t ∈ c.templates) (mpdist : List (List ι)) (i : Nat) :
    mpScanWorker (fun (tg : List (FitSpectrum ω K) × M) zs => scanSlice c.S t.2 (gridsOf targets) tg.1 zs) (localOf targets) mpdist t.2.redshifts i =
      mpWorker ((toRun (M := M) c g).f ⟨t.1, t.2.redshifts⟩) (localOf targets) mpdist t.2.redshifts i := by
  unfold mpScanWorker mpWorker
  have : calcZchi2Slice (fun (tg : List (FitSpectrum ω K) × M) zs => scanSlice c.S t.2 (gridsOf targets) tg.1 zs) ((mpdist[i]?).getD [])
      (((localOf targets).filter (fun x => decide (x.id ∈ (mpdist[i]?).getD []))).map (·.data)) t.2.redshifts =
      calcZchi2 ((toRun (M := M) c g).f ⟨t.1, t.2.redshifts⟩) ((mpdist[i]?).getD []) (((localOf targets).filter (fun x => decide (x.id ∈ (mpdist[i]?).getD []))).map (·.data)) t.2.redshifts := by
    unfold calcZchi2Slice calcZchi2
    apply mapM_congr'
    intro j _
    cases hx : (((localOf targets).filter (fun x => decide (x.id ∈ (mpdist[i]?).getD []))).map (·.data))[j]? with
    | none => rfl
    | some tg =>
      obtain ⟨e, he, rfl⟩ := List.mem_map.1 (List.mem_of_getElem? hx)
      obtain ⟨e', he', rfl⟩ := List.mem_map.1 (List.mem_filter.1 he).1
      simp only
      rw [scanSlice_eq c.S t.2 (gridsOf targets) (g t.1) (hs t ht) e'.2.1 (fun s hs => mem_gridsOf targets e' he' s hs) t.2.redshifts (hs t ht).redshifts (fun z hz => hz)]
      congr 1
      apply List.map_congr_left
      intro z _
      simp only [toRun, get?_of_mem c.templates hn t ht]
  simp only [this]

theorem fullFitsMp_eq (c : FullCfg ι ω K σ) (g : PyStr → ω → K → List (List K)) (targets : List (ι × (List (FitSpectrum ω K) × M))) (hn : (c.templates.map (·.1)).Nodup)
    (hs : ∀ t ∈ c.templates, Scannable c.S t.2 (gridsOf targets) (g t.1)) (allIds : List ι) (w : Workers K) (mpdist : List (List ι))
    (hd : distributeTargets ℚ w.procs ((localOf targets).map (fun t => (t.id, t.nspec))) none = .ok mpdist) :
    fullFitsMp c targets allIds w =
      mpRun (toRun (M := M) c g) (localOf targets) w.procs (fun t => w.scanOrder t (mpStarted mpdist w.procs)) (fun t => w.fitOrder t (mpStarted mpdist w.procs)) allIds := by
  have hids : (localOf targets).map (·.id) = targets.map (·.1) := by unfold localOf; rw [List.map_map]; rfl
  have hloc : (localOf targets).map (fun t => (t.id, t.data)) = targets := by unfold localOf; rw [List.map_map]; exact List.map_id' targets
  unfold fullFitsMp mpRun
  rw [hd, okBind, okBind, hloc, hids]
  congr 1
  unfold calcZchi2Targets
  apply foldlM_congr
  intro b t ht
  obtain ⟨t, ht', rfl⟩ := List.mem_map.1 ht
  have h1 : c.templates.get t.1 = .ok t.2 := by unfold PyDict.get; rw [get?_of_mem c.templates hn t ht']
  simp only [h1]
  have h2 : scanMpSlices (fun (tg : List (FitSpectrum ω K) × M) zs => scanSlice c.S t.2 (gridsOf targets) tg.1 zs) (localOf targets) mpdist t.2.redshifts
      (w.scanOrder ⟨t.1, t.2.redshifts⟩ (mpStarted mpdist w.procs)) =
      scanMp ((toRun (M := M) c g).f ⟨t.1, t.2.redshifts⟩) (localOf targets) w.procs t.2.redshifts (w.scanOrder ⟨t.1, t.2.redshifts⟩ (mpStarted mpdist w.procs)) := by
    unfold scanMpSlices scanMp
    rw [hd, okBind]
    congr 1
    apply mapM_congr'
    intro i _
    exact mpWorker_eq c g targets hn hs t ht' mpdist i
  rw [← h2]
  rfl

theorem isCatalogue_measured (c : FullCfg ι ω K σ) (g : PyStr → ω → K → List (List K)) (targets : List (ι × (List (FitSpectrum ω K) × M))) (hn : (c.templates.map (·.1)).Nodup)
    (hg : ∀ t ∈ c.templates, Scannable c.S t.2 (gridsOf targets) (g t.1)) (allIds : List ι) (cat : List (ι × List (PyStr × TemplateFit K σ) × Option M)) :
    IsCatalogue (toRun (M := M) c g) targets allIds cat ↔ List.Forall₂ (IsMeasured c targets) allIds cat := by
  unfold IsCatalogue IsCatalogueFrom
  have : (fun (tid : ι) (row : ι × List (PyStr × TemplateFit K σ) × Option M) => row.1 = tid ∧ ∃ tg, (tid, tg) ∈ targets ∧ row.2.2 = some ((toRun (M := M) c g).mdOf tg) ∧
      List.Forall₂ (fun t x => x.1 = t.fulltype ∧ (toRun (M := M) c g).fitz tg t ((toRun (M := M) c g).prior tid t.redshifts (t.redshifts.map ((toRun (M := M) c g).f t tg))) = .ok x.2)
        (toRun (M := M) c g).templates row.2.1) = IsMeasured c targets := by
    funext tid row
    unfold IsMeasured
    refine propext (and_congr_right fun _ => exists_congr fun tg => and_congr_right fun htg => and_congr_right fun _ => ?_)
    exact fits_iff c g (gridsOf targets) hn tid tg (fun s hs => mem_gridsOf targets (tid, tg) htg s hs) hg row.2.1
  exact iff_of_eq (congrArg (fun R => List.Forall₂ R allIds cat) this)

theorem fullFitsMp_iff [LinearOrder σ] (c : FullCfg ι ω K σ) (targets : List (ι × (List (FitSpectrum ω K) × M))) (hc : GoodRun c (gridsOf targets)) (hn : (targets.map (·.1)).Nodup) (hm : MoreFirst targets) (allIds : List ι)
    (hids : allIds.Perm (targets.map (·.1))) (w : Workers K) (hw : AnyOrder w) (cat : List (ι × List (PyStr × TemplateFit K σ) × Option M)) :
    fullFitsMp c targets allIds w = .ok cat ↔ List.Forall₂ (IsMeasured c targets) allIds cat := by
  obtain ⟨g, hg⟩ := hc.choose
  have hlid : (localOf targets).map (·.id) = targets.map (·.1) := by unfold localOf; rw [List.map_map]; rfl
  have hloc : (localOf targets).map (fun t => (t.id, t.data)) = targets := by unfold localOf; rw [List.map_map]; exact List.map_id' targets
  have hsorted : (localOf targets).Pairwise (fun a b => b.nspec ≤ a.nspec) := by
    unfold localOf
    rw [List.pairwise_map]
    exact hm
  have hnl : ((localOf targets).map (·.id)).Nodup := by rw [hlid]; exact hn
  obtain ⟨mpdist, hd, _⟩ := C07_mp_scan_eq_serial_partial (R := Unit) (fun _ (_ : Unit) => ()) (localOf targets) hnl hsorted w.procs hw.procs []
  rw [fullFitsMp_eq c g targets hc.names hg allIds w mpdist hd,
    C92_mp_partial (toRun (M := M) c g) (toRun_good c hc.names hc.order g) (localOf targets) hnl hsorted w.procs hw.procs mpdist hd _ _ (fun t => hw.scan t _) (fun t => hw.fit t _) allIds (by rw [hlid]; exact hids) cat,
    hloc]
  exact isCatalogue_measured c g targets hc.names hg allIds cat

variable [LinearOrder σ]

/-- **C122** (part) `zfind` with any number of worker processes that deliver in any order returns the table of the serial run (or both fail), provided the targets with more spectra come first in the list of local
targets; in particular if all have the same number. -/
theorem C122_zfind_partial (c : FullCfg ι ω K σ) (targets : List (ι × (List (FitSpectrum ω K) × M))) (hc : GoodRun c (gridsOf targets)) (hn : (targets.map (·.1)).Nodup) (hm : MoreFirst targets)
    (allIds : List ι) (hids : allIds.Perm (targets.map (·.1))) (w : Workers K) (hw : AnyOrder w) (rows : List (ι × Row K σ)) :
    fullCatalogueMp c targets allIds w = .ok rows ↔ fullCatalogue c targets allIds .serial = .ok rows := by
  unfold fullCatalogueMp fullCatalogue
  split
  · rfl
  · have h : ∀ cat, fullFitsMp c targets allIds w = .ok cat ↔ fullFits c targets allIds .serial = .ok cat := by
      intro cat
      rw [fullFitsMp_iff c targets hc hn hm allIds hids w hw, fullFits_iff c targets hc hn allIds hids .serial trivial]
    cases h1 : fullFitsMp c targets allIds w with
    | ok cat => rw [(h cat).1 h1]
    | error e =>
      cases h2 : fullFits c targets allIds .serial with
      | ok cat => rw [(h cat).2 h2] at h1; cases h1
      | error e' => simp [bind, Except.bind]

end

/-! ### the local targets of `rrdesi` -/

section
variable {K : Type} [Field K] [LinearOrder K] {ι : Type}

/-- one process gets everything, the heavy units first -/
theorem distribute_one (ids : List ι) (w : ι → K) (caps : List K) (h1 : caps.length = 1) (h0 : ∀ c ∈ caps, c ≠ 0) : distributeWork 1 ids w caps = .ok [sortByWeightDesc w ids] := by
  obtain ⟨d, h2, h3, _, rfl⟩ := distributeWork_induction 1 caps h1 (by decide) h0 w ids (fun done d => d = [done]) rfl (by
    intro d1 x d i _ _ hi hP _
    have : i = 0 := by omega
    subst this
    rw [hP]; rfl)
  rw [h2]

end

section
variable {β K : Type} [DecidableEq β] [Field K] [LinearOrder K] [IsStrictOrderedRing K]
open RrDesiRun

/-- all files have the same bands -/
def SameBands (files : List (DFile Int β K)) : Prop := ∀ f ∈ files, ∀ f' ∈ files, ∀ b, b ∈ f.waveHdus.map (·.1) → b ∈ f'.waveHdus.map (·.1)

/-- every selected target has a row in every file that it is selected from -/
def HasRows (o : DOpts Int K) (files : List (DFile Int β K)) : Prop := ∀ f ∈ files, ∀ t ∈ Selection o f, t ∈ spectrumIds f

theorem nodup_distinct_perm (a b : List β) (h : ∀ x, x ∈ a ↔ x ∈ b) : (distinctKeys a).length = (distinctKeys b).length := by
  apply List.Perm.length_eq
  rw [List.perm_ext_iff_of_nodup (nodup_distinctKeys _) (nodup_distinctKeys _)]
  intro x
  rw [mem_distinctKeys, mem_distinctKeys, h]

/-- number of bands of a file -/
def nbands (f : DFile Int β K) : Nat := (distinctKeys (f.waveHdus.map (·.1))).length

theorem nbands_same (files : List (DFile Int β K)) (h : SameBands files) (f f' : DFile Int β K) (hf : f ∈ files) (hf' : f' ∈ files) : nbands f = nbands f' :=
  nodup_distinct_perm _ _ (fun b => ⟨h f hf f' hf' b, h f' hf' f hf b⟩)

theorem slots_length (o : DOpts Int K) (files : List (DFile Int β K)) (n : Nat) (hn : ∀ f ∈ files, nbands f = n) (tid : Int) :
    ((slotsOf o tid files).length : K) = (n : K) * targetWeight (files.map (fun f => (f, Selection o f))) tid := by
  unfold slotsOf targetWeight
  rw [← Nat.cast_mul, Nat.cast_inj]
  induction files with
  | nil => simp
  | cons f fs ih =>
    rw [List.flatMap_cons, List.length_append, ih (fun f hf => hn f (by simp [hf]))]
    simp only [List.map_cons, List.sum_cons, Nat.mul_add]
    congr 1
    by_cases ht : tid ∈ Selection o f
    · rw [if_pos ht]
      obtain ⟨trows, h1, h2⟩ := targetSpecs_spec f (Selection o f) tid ht
      rw [h1]
      simp only
      rw [h2.length_eq, ← hn f (by simp), List.length_flatMap]
      simp only [List.length_map]
      rw [List.map_const', List.sum_replicate, smul_eq_mul]
      rfl
    · rw [if_neg ht, targetSpecs_none f _ tid ht]
      simp

theorem toSpectrum_hash (p : RrDesi β K) (specs : List (DSpec β K)) (sp : List (Spectrum β β K)) (h : specs.mapM (toSpectrum p.resol) = .ok sp) : sp.map (·.wavehash) = specs.map (·.band) := by
  have hF := mapM_inv _ _ _ h
  clear h
  induction hF with
  | nil => rfl
  | cons hab _ ih =>
    rw [List.map_cons, List.map_cons, ih]
    congr 1
    unfold toSpectrum at hab
    split at hab
    · rw [← Except.ok.inj hab]
    · cases hab

/-- how many spectra of a target are fitted -/
theorem own_length (p : RrDesi β K) (files : List (DFile Int β K)) (tid : Int) (sp : List (FitSpectrum β K)) (h : OwnSpectra p files tid sp) :
    sp.length = if p.opts.coadd then (distinctKeys ((slotsOf p.opts tid files).map (fun q => q.2.1))).length else (slotsOf p.opts tid files).length := by
  obtain ⟨specs, full, used, h1, h2, hu, h3⟩ := h
  rw [← h3.length_eq, mask_length _ _ _ hu]
  have hb : specs.map (·.band) = (slotsOf p.opts tid files).map (fun q => q.2.1) := by
    clear h2
    generalize slotsOf p.opts tid files = L at h1
    induction h1 with
    | nil => rfl
    | cons hab _ ih => rw [List.map_cons, List.map_cons, ih, hab.1.band]
  unfold combined at h2
  obtain ⟨sps, h4, h5⟩ := Except.bind_ok _ _ _ h2
  have hh := toSpectrum_hash p specs sps h4
  split
  · rename_i hco
    rw [if_pos hco] at h5
    unfold computeCoadd at h5
    have := (mapM_inv _ _ _ h5).length_eq
    rw [← this, firstSeen_eq, hh, hb]
  · rename_i hco
    rw [if_neg hco] at h5
    rw [← Except.ok.inj h5, ← List.length_map (f := (·.wavehash)), hh, List.length_map, h1.length_eq]

theorem slots_bands (o : DOpts Int K) (files : List (DFile Int β K)) (hsame : SameBands files) (hrows : HasRows o files) (tid : Int) (f0 : DFile Int β K) (hf0 : f0 ∈ files) (ht : tid ∈ Selection o f0) (b : β) :
    b ∈ (slotsOf o tid files).map (fun q => q.2.1) ↔ b ∈ f0.waveHdus.map (·.1) := by
  unfold slotsOf
  simp only [List.mem_map, List.mem_flatMap]
  constructor
  · rintro ⟨q, ⟨f, hf, hq⟩, rfl⟩
    split at hq
    · obtain ⟨b, hb, hq⟩ := List.mem_flatMap.1 hq
      obtain ⟨i, _, rfl⟩ := List.mem_map.1 hq
      rw [mem_distinctKeys] at hb
      obtain ⟨x, hx⟩ := List.mem_map.1 (hsame f hf f0 hf0 b hb)
      exact ⟨x, hx⟩
    · simp at hq
  · rintro ⟨x, hx, rfl⟩
    obtain ⟨i, hi⟩ := List.getElem?_of_mem (hrows f0 hf0 tid ht)
    refine ⟨(f0, x.1, i), ⟨f0, hf0, ?_⟩, rfl⟩
    rw [if_pos ht, List.mem_flatMap]
    refine ⟨x.1, (mem_distinctKeys _ _).2 (List.mem_map.2 ⟨x, hx, rfl⟩), ?_⟩
    rw [List.mem_map]
    exact ⟨i, (mem_rowsOf _ _ _).2 hi, rfl⟩

/-- the local targets of one process are listed with the larger numbers of spectra first -/
theorem local_moreFirst (p : RrDesi β K) (files : List (DFile Int β K)) (hsame : SameBands files) (hrows : p.opts.coadd = true → HasRows p.opts files) (hsq : ∀ f ∈ files, SqrtOn p.sqrt f)
    (harg : IsArgsort (fun a b => decide (a ≤ b)) p.argsort) (has : Bool) (hmask : UniformMask has files) (hcap : ∀ c, p.opts.capacities = some c → c.length = 1 ∧ ∀ x ∈ c, 0 < x)
    (t : List Int × List (Int × (List (FitSpectrum β K) × Unit))) (h : rrdesiLocal p files none 0 = .ok t) : MoreFirst t.2 := by
  obtain ⟨out, g1, g2, g3, g4⟩ := local_spec p files hsq harg has hmask none 0 t h
  obtain ⟨hne, _, ⟨proc, hp1, hp2⟩, _⟩ := constructor_inv p.argsort p.sqrt p.opts files none 0 out g1
  have hall := C54_target_order p.argsort harg p.sqrt p.opts files none 0 out g1
  unfold distributeWorkDefault at hp1
  rw [show (none : Option Nat).getD 1 = 1 from rfl, distribute_one _ _ _ (by
      cases hc : p.opts.capacities with
      | none => rfl
      | some c => exact (hcap c hc).1) (by
      cases hc : p.opts.capacities with
      | none => intro x hx; simp at hx; rw [hx]; exact one_ne_zero
      | some c => intro x hx; exact ((hcap c hc).2 x hx).ne')] at hp1
  rw [← Except.ok.inj hp1] at hp2
  have hmy := (Option.some.inj hp2).symm
  have hmem : ∀ e ∈ t.2, e.1 ∈ out.allIds := by
    intro e he
    have : e.1 ∈ out.myIds := g3 ▸ List.mem_map_of_mem he
    rw [hmy] at this
    exact (pySort_perm _ _).mem_iff.1 this
  cases hco : p.opts.coadd with
  | true =>
    obtain ⟨f0, hf0⟩ := List.exists_mem_of_length_pos (Nat.pos_of_ne_zero hne)
    have hlen : ∀ e ∈ t.2, e.2.1.length = nbands f0 := by
      intro e he
      rw [own_length p files e.1 e.2.1 (g4 e he), hco, if_pos rfl]
      obtain ⟨f, hf, ht⟩ := (hall.2.2 e.1).1 (hmem e he)
      rw [nbands_same files hsame f0 f hf0 hf]
      exact nodup_distinct_perm _ _ (slots_bands p.opts files hsame (hrows hco) e.1 f hf ht)
    unfold MoreFirst
    rw [List.pairwise_iff_getElem]
    intro i j hi hj _
    rw [hlen _ (List.getElem_mem hi), hlen _ (List.getElem_mem hj)]
  | false =>
    rw [hco] at hmy
    have hpw := pySort_pairwise (fun a b => decide (targetWeight (files.map (fun f => (f, Selection p.opts f))) b ≤ targetWeight (files.map (fun f => (f, Selection p.opts f))) a))
      (fun a b c h1 h2 => by simp only [decide_eq_true_eq] at *; exact h2.trans h1) (fun a b => by simp only [decide_eq_true_eq]; exact le_total _ _) out.allIds
    have hmy' : pySort (fun a b => decide (targetWeight (files.map (fun f => (f, Selection p.opts f))) b ≤ targetWeight (files.map (fun f => (f, Selection p.opts f))) a)) out.allIds = t.2.map (·.1) := by
      rw [g3, hmy]
      rfl
    rw [hmy', List.pairwise_map] at hpw
    obtain ⟨f0, hf0⟩ := List.exists_mem_of_length_pos (Nat.pos_of_ne_zero hne)
    refine hpw.imp_of_mem ?_
    intro a b ha hb hab
    simp only [decide_eq_true_eq] at hab
    rw [own_length p files a.1 a.2.1 (g4 a ha), own_length p files b.1 b.2.1 (g4 b hb), hco]
    simp only [Bool.false_eq_true, if_false]
    have e := slots_length p.opts files (nbands f0) (fun f hf => nbands_same files hsame f f0 hf hf0)
    have : ((slotsOf p.opts b.1 files).length : K) ≤ (slotsOf p.opts a.1 files).length := by
      rw [e, e]
      exact mul_le_mul_of_nonneg_left hab (Nat.cast_nonneg _)
    exact_mod_cast this

/-- **C122** (part) `rrdesi` with any number of worker processes, delivering in any order, publishes the catalogue of the serial run (or both fail): if all files have the same bands, and, when spectra are coadded, every
selected target has a row in the file it is selected from. -/
theorem C122_rrdesi_partial (p : RrDesi β K) (files : List (DFile Int β K)) (hsame : SameBands files) (hrows : p.opts.coadd = true → HasRows p.opts files) (hp : GoodStart p files 1) (w : Workers K) (hw : AnyOrder w)
    (B : Tab K) : rrdesiCatalogueMp p files w = .ok B ↔ rrdesiCatalogue p files .serial = .ok B := by
  obtain ⟨has, hmask⟩ := hp.masks
  have key : ∀ rows, rrdesiTableMp p files w = .ok rows ↔ rrdesiTable p files .serial = .ok rows := by
    intro rows
    unfold rrdesiTableMp rrdesiTable
    dsimp only
    cases hl : rrdesiLocal p files none 0 with
    | error e => simp [bind, Except.bind]
    | ok t =>
      rw [okBind, okBind]
      obtain ⟨hok, _⟩ := loaded_ok p files .serial hp trivial t.2 .serial ⟨t, hl, rfl, rfl⟩
      obtain ⟨out, g1, g2, g3, g4⟩ := local_spec p files hp.sqrt hp.argsort has hmask none 0 t hl
      rw [g2]
      exact C122_zfind_partial p.fit t.2 (targets_good p files hp.fit t.2 hok) hok.nodup (local_moreFirst p files hsame hrows hp.sqrt hp.argsort has hmask hp.capacities t hl) (selected p files) hok.ids w hw rows
  unfold rrdesiCatalogueMp rrdesiCatalogue
  cases h1 : rrdesiTableMp p files w with
  | ok rows => rw [(key rows).1 h1]
  | error e =>
    cases h2 : rrdesiTable p files .serial with
    | ok rows => rw [(key rows).2 h2] at h1; cases h1
    | error e' => simp [bind, Except.bind]

/-- **C122** (part) Worker processes against MPI ranks: the same catalogue. -/
theorem C122_mpi_partial (p : RrDesi β K) (files : List (DFile Int β K)) (hf : Readable p files) (hsame : SameBands files) (hrows : p.opts.coadd = true → HasRows p.opts files) (hp : GoodStart p files 1) (w : Workers K)
    (hw : AnyOrder w) (way : RrDesiWay K) (hp' : GoodStart p files (ways way)) (hr : PossibleRing p way) (B : Tab K) : rrdesiCatalogueMp p files w = .ok B ↔ rrdesiCatalogue p files way = .ok B := by
  rw [C122_rrdesi_partial p files hsame hrows hp w hw B]
  exact C119_ranks p files hf .serial way hp hp' trivial hr B

/-- **C122** (part, with C119) The rows that `rrdesi` publishes with worker processes: one per selected target, the best measurement of the target's own spectra. -/
theorem C122_rows_partial (p : RrDesi β K) (files : List (DFile Int β K)) (hsame : SameBands files) (hrows : p.opts.coadd = true → HasRows p.opts files) (hp : GoodStart p files 1) (w : Workers K) (hw : AnyOrder w)
    (B : Tab K) (h : rrdesiCatalogueMp p files w = .ok B) : ∃ best, List.Forall₂ (IsRow p files) (selected p files) best ∧ B = Zbest.publishedTable p.round32 [] best :=
  C119_rows p files .serial hp trivial B ((C122_rrdesi_partial p files hsame hrows hp w hw B).1 h)

/-- **C122**, the claim without the condition on the bands (false of the code). -/
def WorkersGiveCatalogue (β K : Type) [DecidableEq β] [Field K] [LinearOrder K] : Prop :=
  ∀ (p : RrDesi β K) (files : List (DFile Int β K)), Readable p files → HasRows p.opts files → GoodStart p files 1 → ∀ w : Workers K, AnyOrder w → ∀ B,
    rrdesiCatalogueMp p files w = .ok B ↔ rrdesiCatalogue p files .serial = .ok B

end
end MpRun
end Redrock
