import Verif.Model.ModelFile
import Verif.Props.WaveDesi
import Verif.Props.DesiMore

/-! Property C126: the models that `rrdesi --model` writes. -/
set_option linter.unusedSectionVars false
namespace Redrock
namespace RrDesiRun
open Run FullRun Catalogue Zbest

section
variable {β K : Type} [DecidableEq β] [Field K] [LinearOrder K] [IsStrictOrderedRing K]

/-! ### specification -/

/-- `used` are the spectra of target `tid` that are fitted: made of the rows of the target in the files and of nothing else, coadded unless told otherwise, with the sky lines masked unless told otherwise -/
def OwnUsed (p : RrDesi β K) (files : List (DFile Int β K)) (tid : Int) (used : List (Spectrum β β K)) : Prop :=
  ∃ specs full, List.Forall₂ (fun q s => HoldsRow q s ∧ IvarExact p.opts.negfluxNsig q s) (slotsOf p.opts tid files) specs ∧ combined p specs = .ok full ∧ SkyLinesMasked p.noSkymask full used

/-- `s` is the last of the spectra in the band (the only one, if they are coadded) -/
def LastOf (band : β) (used : List (Spectrum β β K)) (s : Spectrum β β K) : Prop := ∃ before after, used = before ++ s :: after ∧ s.wavehash = band ∧ ∀ s' ∈ after, s'.wavehash ≠ band

/-- the template with full type `name` of the run is of this type and subtype -/
def HasType (p : RrDesi β K) (name : PyStr) (spectype subtype : String) : Prop := ∃ t, (name, t) ∈ p.fit.templates ∧ t.spectype = spectype ∧ t.subtype = subtype

/-- `row` is the spectrum `flux` on the wavelengths of `s`, seen with the resolution of `s` -/
def Convolved (s : Spectrum β β K) (flux row : List K) : Prop :=
  row.length = s.wave.length ∧ ∀ i, i < s.wave.length → row[i]? = some (((List.range s.wave.length).map (fun j => s.R.entry i j * flux.getD j 0)).sum)

/-- `row` is the model of the catalogue row `r` in the band: 0 everywhere if all its published coefficients are 0; otherwise a template of the published type and subtype, with the published coefficients, at the
published redshift, on the wavelengths and with the resolution of the target's own spectrum, in single precision. -/
def IsModel (p : RrDesi β K) (basis : PyStr → EvalTemplate K) (files : List (DFile Int β K)) (band : β) (r : CatRow K) (row : List K) : Prop :=
  ∃ used s, OwnUsed p files r.base.targetid used ∧ LastOf band used s ∧
    ((∀ c ∈ r.base.row.coeff, p.round32 c = 0) → row = s.wave.map (fun _ => p.round32 0)) ∧
    ((∃ c ∈ r.base.row.coeff, p.round32 c ≠ 0) → ∃ name flux model, HasType p name r.base.row.spectype r.base.row.subtype ∧
      templateEval (basis name).wave (basis name).flux (r.base.row.coeff.map p.round32) s.wave r.base.row.z none = .ok flux ∧ Convolved s flux model ∧ row = model.map p.round32)

/-- some selected target has a spectrum in the band -/
def BandUsed (p : RrDesi β K) (files : List (DFile Int β K)) (band : β) (wave : List K) : Prop := ∃ tid ∈ selected p files, ∃ used, OwnUsed p files tid used ∧ ∃ s ∈ used, s.wavehash = band ∧ s.wave = wave

/-! ### evaluation -/

theorem templateEval_some (twave : List K) (flux : List (List K)) (coeff wave : List K) (z : K) (R : List (List K)) (v : List K) :
    templateEval twave flux coeff wave z (some R) = .ok v ↔ ∃ m, templateEval twave flux coeff wave z none = .ok m ∧ v = matVec R m := by
  unfold templateEval
  dsimp only
  split
  · constructor
    · intro h; cases h
    · rintro ⟨m, h, _⟩; cases h
  · cases centers2edges wave with
    | error e =>
      constructor
      · intro h; cases h
      · rintro ⟨m, h, _⟩; cases h
    | ok edges =>
      rw [okBind, okBind]
      cases trapzRebin (twave.map (fun v => v * (1 + z))) [(List.range twave.length).map (fun w => dotv (col flux w) (coeff.take flux.length))] edges [0] with
      | error e =>
        constructor
        · intro h; cases h
        · rintro ⟨m, h, _⟩; cases h
      | ok r =>
        rw [okBind, okBind]
        cases npGet r 0 with
        | error e =>
          constructor
          · intro h; cases h
          · rintro ⟨m, h, _⟩; cases h
        | ok rz =>
          rw [okBind, okBind]
          cases npGet rz 0 with
          | error e =>
            constructor
            · intro h; cases h
            · rintro ⟨m, h, _⟩; cases h
          | ok m =>
            rw [okBind, okBind]
            constructor
            · intro h; exact ⟨m, rfl, (Except.ok.inj h).symm⟩
            · rintro ⟨m', h, rfl⟩; rw [Except.ok.inj h]; rfl

theorem dot_range (n : Nat) (f : Nat → K) (m : List K) : dotv ((List.range n).map f) m = ((List.range n).map (fun j => f j * m.getD j 0)).sum := by
  unfold dotv
  have : ∀ (k n : Nat) (f : Nat → K) (m : List K), (List.zipWith (· * ·) ((List.range' k n).map f) m).sum = ((List.range' k n).map (fun j => f j * m.getD (j - k) 0)).sum := by
    intro k n
    induction n generalizing k with
    | zero => intros; rfl
    | succ n ih =>
      intro f m
      rw [List.range'_succ, List.map_cons, List.map_cons, List.sum_cons]
      cases m with
      | nil =>
        rw [List.zipWith_nil_right, List.sum_nil]
        have : ((List.range' (k + 1) n).map (fun j => f j * ([] : List K).getD (j - k) 0)).sum = 0 := by
          apply List.sum_eq_zero
          intro x hx
          obtain ⟨j, _, rfl⟩ := List.mem_map.1 hx
          simp
        rw [this]; simp
      | cons a m =>
        rw [List.zipWith_cons_cons, List.sum_cons, ih]
        congr 1
        · simp
        · congr 1
          apply List.map_congr_left
          intro j hj
          have := (List.mem_range'_1.1 hj).1
          have e : j - k = (j - (k + 1)) + 1 := by omega
          rw [e, List.getD_cons_succ]
  have h := this 0 n f m
  rw [← List.range_eq_range'] at h
  simpa using h

theorem evalSpectrum_spec (tx : EvalTemplate K) (coeff : List K) (z : K) (s : Spectrum β β K) (v : List K) (h : evalSpectrum tx coeff z s = .ok v) :
    ∃ flux, templateEval tx.wave tx.flux coeff s.wave z none = .ok flux ∧ Convolved s flux v := by
  unfold evalSpectrum at h
  split at h
  · cases h
  · rename_i hl
    push Not at hl
    obtain ⟨m, h1, rfl⟩ := (templateEval_some _ _ _ _ _ _ _).1 h
    refine ⟨m, h1, ?_⟩
    unfold Convolved matVec Spectrum.fitPart
    dsimp only
    constructor
    · simp [hl]
    · intro i hi
      rw [List.map_map, List.getElem?_map, List.getElem?_range (by omega), Option.map_some, Function.comp_apply, dot_range, hl]

theorem foldlM_last {S : Type} (key : S → β) (f : S → Py (List K)) (spectra : List S) (d : PyDict β (List K)) (h : spectra.foldlM (fun (d : PyDict β (List K)) sp => do
        let mdl ← f sp
        return PyDict.set d (key sp) mdl) [] = .ok d) (band : β) (v : List K) (hv : d.get? band = some v) :
    ∃ before s after, spectra = before ++ s :: after ∧ key s = band ∧ (∀ s' ∈ after, key s' ≠ band) ∧ f s = .ok v := by
  induction spectra using List.reverseRecOn generalizing d v with
  | nil => rw [← Except.ok.inj h] at hv; cases hv
  | append_singleton l a ih =>
    rw [List.foldlM_append] at h
    obtain ⟨d0, h1, h2⟩ := Except.bind_ok _ _ _ h
    simp only [List.foldlM_cons, List.foldlM_nil, bind_pure] at h2
    obtain ⟨mdl, h3, h4⟩ := Except.bind_ok _ _ _ h2
    rw [← Except.ok.inj h4, PyDict.get?_set] at hv
    split at hv
    · rename_i hk
      exact ⟨l, a, [], rfl, hk, by simp, by rw [h3, Option.some.inj hv]⟩
    · rename_i hk
      obtain ⟨before, s, after, e1, e2, e3, e4⟩ := ih d0 h1 v hv
      refine ⟨before, s, after ++ [a], by rw [e1]; simp, e2, ?_, e4⟩
      intro s' hs'
      rcases List.mem_append.1 hs' with h | h
      · exact e3 s' h
      · rw [List.mem_singleton.1 h]; exact hk

theorem foldl_eq_foldlM {S : Type} (key : S → β) (f : S → List K) (spectra : List S) (d : PyDict β (List K)) : spectra.foldlM (fun (d : PyDict β (List K)) sp => do
        let mdl ← (.ok (f sp) : Py (List K))
        return PyDict.set d (key sp) mdl) d = .ok (spectra.foldl (fun (d : PyDict β (List K)) sp => PyDict.set d (key sp) (f sp)) d) := by
  induction spectra generalizing d with
  | nil => rfl
  | cons a l ih =>
    rw [List.foldlM_cons, List.foldl_cons, okBind, ← ih]
    rfl

theorem evalTarget_get (templates : PyDict (PyStr × PyStr) (EvalTemplate K)) (b : BestFit K) (spectra : List (Spectrum β β K)) (m : PyDict β (List K)) (h : evalTarget templates b spectra = .ok m) (band : β) (v : List K)
    (hv : m.get? band = some v) : ∃ s, LastOf band spectra s ∧ ((∀ c ∈ b.coeff, c = 0) → v = s.wave.map (fun _ => 0)) ∧
      ((∃ c ∈ b.coeff, c ≠ 0) → ∃ tx, templates.get? (b.spectype, b.subtype) = some tx ∧ evalSpectrum tx b.coeff b.z s = .ok v) := by
  unfold evalTarget at h
  split at h
  · rename_i hz
    have hz : ∀ c ∈ b.coeff, c = 0 := by simpa using hz
    rw [← foldl_eq_foldlM (fun sp : Spectrum β β K => sp.wavehash) (fun sp => sp.wave.map (fun _ => 0))] at h
    obtain ⟨before, s, after, e1, e2, e3, e4⟩ := foldlM_last _ _ _ _ h band v hv
    refine ⟨s, ⟨before, after, e1, e2, e3⟩, fun _ => (Except.ok.inj e4).symm, ?_⟩
    rintro ⟨c, hc, hne⟩
    exact absurd (hz c hc) hne
  · rename_i hz
    split at h
    · cases h
    · cases hg : templates.get? (b.spectype, b.subtype) with
      | none => rw [hg] at h; cases h
      | some tx =>
        rw [hg] at h
        obtain ⟨before, s, after, e1, e2, e3, e4⟩ := foldlM_last _ _ _ _ h band v hv
        refine ⟨s, ⟨before, after, e1, e2, e3⟩, ?_, fun _ => ⟨tx, rfl, e4⟩⟩
        intro hall
        exact absurd (by simpa using hall) hz

theorem evalTemplateDict_get (p : RrDesi β K) (basis : PyStr → EvalTemplate K) (a b : String) (tx : EvalTemplate K) (h : (evalTemplateDict p basis).get? (a.toList, b.toList) = some tx) :
    ∃ name, HasType p name a b ∧ tx = basis name := by
  unfold evalTemplateDict at h
  rw [PyDict.get?_foldl_set (fun t : PyStr × Tmpl β K String => (t.2.spectype.toList, t.2.subtype.toList)) (fun t => basis t.1)] at h
  rw [show PyDict.get? ([] : PyDict (PyStr × PyStr) (EvalTemplate K)) (a.toList, b.toList) = none from rfl, Option.or_none] at h
  obtain ⟨t, ht, rfl⟩ := Option.map_eq_some_iff.1 h
  have h1 := List.mem_of_find?_eq_some ht
  have h2 := List.find?_some ht
  simp only [decide_eq_true_eq, Prod.mk.injEq, String.toList_inj] at h2
  exact ⟨t.1, ⟨t.2, by simpa using h1, h2.1, h2.2⟩, rfl⟩

/-! ### the catalogue as `eval_models` reads it -/

theorem published_ids (round32 : K → K) (best : List (CatRow K)) : (do (← (publishedTable round32 [] best).col "TARGETID".toList).mapM TabCell.asInt : Py (List Int)) = .ok (best.map (·.base.targetid)) := by
  show (best.map (fun r => (TabCell.int r.base.targetid : TabCell K))).mapM TabCell.asInt = _
  induction best with
  | nil => rfl
  | cons r l ih =>
    rw [List.map_cons, List.mapM_cons, ih]
    rfl

theorem published_fit (round32 : K → K) (best : List (CatRow K)) (k : Nat) (r : CatRow K) (h : best[k]? = some r) : (publishedTable round32 [] best).bestFit k =
    .ok ⟨r.base.row.spectype.toList, r.base.row.subtype.toList, r.base.row.coeff.map round32, r.base.row.z, r.base.fitmethod.toList.take 4⟩ := by
  have key : ∀ (f : CatRow K → TabCell K), npGet (best.map f) k = .ok (f r) := by
    intro f
    rw [npGet_ok, List.getElem?_map, h]
    rfl
  have c1 : (publishedTable round32 [] best).at "SPECTYPE".toList k = .ok (.str r.base.row.spectype.toList) := key (fun r => .str r.base.row.spectype.toList)
  have c2 : (publishedTable round32 [] best).at "SUBTYPE".toList k = .ok (.str r.base.row.subtype.toList) := key (fun r => .str r.base.row.subtype.toList)
  have c3 : (publishedTable round32 [] best).at "COEFF".toList k = .ok (.arr (r.base.row.coeff.map round32)) := key (fun r => .arr (r.base.row.coeff.map round32))
  have c4 : (publishedTable round32 [] best).at "Z".toList k = .ok (.flt r.base.row.z) := key (fun r => .flt r.base.row.z)
  have c5 : (publishedTable round32 [] best).at "FITMETHOD".toList k = .ok (.str (r.base.fitmethod.toList.take 4)) := key (fun r => .str (r.base.fitmethod.toList.take 4))
  unfold Tab.bestFit
  rw [c1, c2, c3, c4, c5]
  rfl

/-! ### the targets of the ranks -/

/-- what the fit uses of a target -/
def fitTargetOf (e : Int × List (Spectrum β β K)) : Int × (List (FitSpectrum β K) × Unit) := (e.1, (e.2.map Spectrum.fitPart, ()))

theorem mapM_post {A B C : Type} (f : A → Py B) (c : B → C) (l : List A) : l.mapM (fun a => do return c (← f a)) = (do return (← l.mapM f).map c) := by
  induction l with
  | nil => rfl
  | cons a l ih =>
    rw [List.mapM_cons, List.mapM_cons, ih]
    cases f a with
    | error e => rfl
    | ok b =>
      cases l.mapM f with
      | error e => rfl
      | ok bs => rfl

theorem local_full (p : RrDesi β K) (files : List (DFile Int β K)) (commSize : Option Nat) (rank : Nat) : rrdesiLocal p files commSize rank = (do
      let out ← distTargetsDESI p.argsort p.sqrt p.opts files commSize rank
      let loc ← out.data.mapM (fun d => do
        let sp ← fittedSpectra p.resol p.opts p.noSkymask d
        return (d.id, sp))
      return (out.allIds, loc.map fitTargetOf)) := by
  unfold rrdesiLocal
  cases distTargetsDESI p.argsort p.sqrt p.opts files commSize rank with
  | error e => rfl
  | ok out =>
    rw [okBind, okBind]
    have := mapM_post (fun d : DTarget Int β K => (do
        let sp ← fittedSpectra p.resol p.opts p.noSkymask d
        return (d.id, sp) : Py (Int × List (Spectrum β β K)))) fitTargetOf out.data
    have e : (fun d : DTarget Int β K => (do
        let sp ← fittedSpectra p.resol p.opts p.noSkymask d
        return (d.id, (sp.map Spectrum.fitPart, ())) : Py (Int × (List (FitSpectrum β K) × Unit)))) = (fun d => do return fitTargetOf (← (do
        let sp ← fittedSpectra p.resol p.opts p.noSkymask d
        return (d.id, sp) : Py (Int × List (Spectrum β β K))))) := by
      funext d
      cases fittedSpectra p.resol p.opts p.noSkymask d <;> rfl
    rw [e, this]
    cases out.data.mapM (fun d : DTarget Int β K => (do
        let sp ← fittedSpectra p.resol p.opts p.noSkymask d
        return (d.id, sp) : Py (Int × List (Spectrum β β K)))) <;> rfl

theorem local_full_iff (p : RrDesi β K) (files : List (DFile Int β K)) (commSize : Option Nat) (rank : Nat) (t : List (Int × (List (FitSpectrum β K) × Unit))) :
    (∃ ids, rrdesiLocal p files commSize rank = .ok (ids, t)) ↔ ∃ loc, rrdesiLocalFull p files commSize rank = .ok loc ∧ t = loc.map fitTargetOf := by
  rw [local_full]
  unfold rrdesiLocalFull
  cases distTargetsDESI p.argsort p.sqrt p.opts files commSize rank with
  | error e =>
    constructor
    · rintro ⟨ids, h⟩; cases h
    · rintro ⟨loc, h, _⟩; cases h
  | ok out =>
    simp only [okBind]
    cases out.data.mapM (fun d : DTarget Int β K => (do
        let sp ← fittedSpectra p.resol p.opts p.noSkymask d
        return (d.id, sp) : Py (Int × List (Spectrum β β K)))) with
    | error e =>
      constructor
      · rintro ⟨ids, h⟩; cases h
      · rintro ⟨loc, h, _⟩; cases h
    | ok loc =>
      rw [okBind]
      constructor
      · rintro ⟨ids, h⟩
        have := Except.ok.inj h
        exact ⟨loc, rfl, (congrArg Prod.snd this).symm⟩
      · rintro ⟨loc', h, rfl⟩
        rw [← Except.ok.inj h]
        exact ⟨_, rfl⟩

theorem local_own (p : RrDesi β K) (files : List (DFile Int β K)) (hsq : ∀ f ∈ files, SqrtOn p.sqrt f) (has : Bool) (hmask : UniformMask has files)
    (commSize : Option Nat) (rank : Nat) (loc : List (Int × List (Spectrum β β K))) (h : rrdesiLocalFull p files commSize rank = .ok loc) : ∀ e ∈ loc, OwnUsed p files e.1 e.2 := by
  unfold rrdesiLocalFull at h
  obtain ⟨out, hd, hm⟩ := Except.bind_ok _ _ _ h
  intro e he
  obtain ⟨d, hd', hde⟩ := forall₂_right_mem (mapM_inv _ _ _ hm) e he
  obtain ⟨sp, h1, h2⟩ := Except.bind_ok _ _ _ hde
  have := C47_rows_reach_target_partial p.argsort p.sqrt p.opts files hsq has hmask commSize rank out hd
  obtain ⟨tid, _, hid, hslots⟩ := forall₂_right_mem this d hd'
  have h2' := Except.ok.inj h2
  subst h2'
  obtain ⟨full, k1, k2⟩ := Except.bind_ok _ _ _ h1
  exact ⟨d.spectra, full, hid ▸ hslots, k1, (mask_iff _ _ _).1 k2⟩

/-- the targets of all ranks: every selected target on one rank, with its own spectra -/
structure RanksOk (p : RrDesi β K) (files : List (DFile Int β K)) (ts : List (List (Int × List (Spectrum β β K)))) : Prop where
  nodup : (ts.flatten.map (·.1)).Nodup
  ids : (selected p files).Perm (ts.flatten.map (·.1))
  own : ∀ e ∈ ts.flatten, OwnUsed p files e.1 e.2

theorem rankTargets_iff (p : RrDesi β K) (files : List (DFile Int β K)) (way : RrDesiWay K) :
    ((∃ targets rw', Loaded p files way targets rw') ↔ ∃ ts, rankTargets p files way = .ok ts) ∧ ∀ ts, rankTargets p files way = .ok ts → ∃ rw', Loaded p files way (ts.flatten.map fitTargetOf) rw' := by
  cases way with
  | serial =>
    unfold rankTargets Loaded
    constructor
    · constructor
      · rintro ⟨_, _, ⟨ids, t⟩, ht, _, _⟩
        obtain ⟨loc, h1, _⟩ := (local_full_iff p files none 0 t).1 ⟨ids, ht⟩
        rw [h1]; exact ⟨_, rfl⟩
      · rintro ⟨ts, h⟩
        obtain ⟨loc, h1, h2⟩ := Except.bind_ok _ _ _ h
        obtain ⟨ids, h3⟩ := (local_full_iff p files none 0 _).2 ⟨loc, h1, rfl⟩
        exact ⟨_, _, _, h3, rfl, rfl⟩
    · intro ts h
      obtain ⟨loc, h1, h2⟩ := Except.bind_ok _ _ _ h
      obtain ⟨ids, h3⟩ := (local_full_iff p files none 0 _).2 ⟨loc, h1, rfl⟩
      rw [← Except.ok.inj h2]
      exact ⟨_, _, h3, by simp, rfl⟩
  | mpi size log =>
    unfold rankTargets Loaded
    dsimp only
    constructor
    · constructor
      · rintro ⟨_, _, ts, ht, _, _⟩
        obtain ⟨r, hr, _⟩ := mapM_forall₂ (rrdesiLocalFull p files (some size)) (fun _ _ => True) (List.range size) (by
          intro k hk
          obtain ⟨t, _, hkt⟩ := forall₂_left_mem (mapM_inv _ _ _ ht) k hk
          obtain ⟨loc, h1, _⟩ := (local_full_iff p files (some size) k t.2).1 ⟨t.1, hkt⟩
          exact ⟨loc, h1, trivial⟩)
        exact ⟨r, hr⟩
      · rintro ⟨ts, h⟩
        obtain ⟨r, hr, _⟩ := mapM_forall₂ (rrdesiLocal p files (some size)) (fun _ _ => True) (List.range size) (by
          intro k hk
          obtain ⟨loc, _, hkt⟩ := forall₂_left_mem (mapM_inv _ _ _ h) k hk
          obtain ⟨ids, h1⟩ := (local_full_iff p files (some size) k _).2 ⟨loc, hkt, rfl⟩
          exact ⟨_, h1, trivial⟩)
        exact ⟨_, _, r, hr, rfl, rfl⟩
    · intro ts h
      have hF := mapM_inv _ _ _ h
      clear h
      have : ∃ r, (List.range size).mapM (rrdesiLocal p files (some size)) = .ok r ∧ r.flatMap (·.2) = ts.flatten.map fitTargetOf := by
        generalize List.range size = l at hF
        induction hF with
        | nil => exact ⟨[], rfl, rfl⟩
        | @cons a b as bs hab _ ih =>
          obtain ⟨r, h1, h2⟩ := ih
          obtain ⟨ids, h3⟩ := (local_full_iff p files (some size) a _).2 ⟨b, hab, rfl⟩
          refine ⟨(ids, b.map fitTargetOf) :: r, ?_, ?_⟩
          · rw [List.mapM_cons, h3, okBind, h1, okBind]; rfl
          · rw [List.flatMap_cons, h2, List.flatten_cons, List.map_append]
      obtain ⟨r, h1, h2⟩ := this
      exact ⟨_, r, h1, h2.symm, rfl⟩

theorem ranks_ok (p : RrDesi β K) (files : List (DFile Int β K)) (way : RrDesiWay K) (hp : GoodStart p files (ways way)) (hr : PossibleRing p way) (ts : List (List (Int × List (Spectrum β β K))))
    (h : rankTargets p files way = .ok ts) : RanksOk p files ts := by
  obtain ⟨rw', hl⟩ := (rankTargets_iff p files way).2 ts h
  obtain ⟨hok, _⟩ := loaded_ok p files way hp hr _ rw' hl
  have e : (ts.flatten.map fitTargetOf).map (·.1) = ts.flatten.map (·.1) := by rw [List.map_map]; rfl
  have h1 := hok.nodup
  have h2 := hok.ids
  rw [e] at h1 h2
  refine ⟨h1, h2, ?_⟩
  obtain ⟨has, hmask⟩ := hp.masks
  intro x hx
  obtain ⟨loc, hloc, hxl⟩ := List.mem_flatten.1 hx
  cases way with
  | serial =>
    obtain ⟨loc', g1, g2⟩ := Except.bind_ok _ _ _ h
    rw [← Except.ok.inj g2] at hloc
    rw [List.mem_singleton.1 hloc] at hxl
    exact local_own p files hp.sqrt has hmask none 0 loc' g1 x hxl
  | mpi size log =>
    obtain ⟨r, _, g⟩ := forall₂_right_mem (mapM_inv _ _ _ h) loc hloc
    exact local_own p files hp.sqrt has hmask (some size) r loc g x hxl

theorem used_unique (p : RrDesi β K) (files : List (DFile Int β K)) (hone : OneGrid files) (tid : Int) (u u' : List (Spectrum β β K)) (h : OwnUsed p files tid u) (h' : OwnUsed p files tid u') : u = u' := by
  obtain ⟨specs, full, h1, h2, hu⟩ := h
  obtain ⟨specs', full', h1', h2', hu'⟩ := h'
  have := specs_unique p.opts.negfluxNsig (fun q hq => hone _ (slot_file hq)) (List.forall₂_same.2 (fun q _ => sameSlot_refl q)) h1 h1'
  subst this
  rw [h2] at h2'
  rw [← Except.ok.inj h2'] at hu'
  exact mask_unique _ _ _ _ hu hu'

theorem catalogue_ranks (p : RrDesi β K) (files : List (DFile Int β K)) (way : RrDesiWay K) (hp : GoodStart p files (ways way)) (hr : PossibleRing p way) (B : Tab K) (h : rrdesiCatalogue p files way = .ok B) :
    ∃ ts, rankTargets p files way = .ok ts := by
  unfold rrdesiCatalogue at h
  obtain ⟨rows, h1, _⟩ := Except.bind_ok _ _ _ h
  obtain ⟨targets, rw', hl, _⟩ := (table_form p files way hp hr rows).1 h1
  exact (rankTargets_iff p files way).1.1 ⟨_, _, hl⟩

/-! ### the grids -/

theorem modelGrids_spec (way : RrDesiWay K) (ts : List (List (Int × List (Spectrum β β K)))) (band : β) :
    (∀ w, (modelGrids way ts).get? band = some w → ∃ e ∈ ts.flatten, ∃ s ∈ e.2, s.wavehash = band ∧ s.wave = w) ∧ (∀ e ∈ ts.flatten, ∀ s ∈ e.2, s.wavehash = band → ∃ w, (modelGrids way ts).get? band = some w) := by
  obtain ⟨h1, h2, h3⟩ := C56_wavegrids (ts.map (fun loc => loc.flatMap (fun t => t.2.map (fun s => (s.wavehash, s.wave)))))
  have e : (modelGrids way ts).get? band = PyDict.get? (wavegridsMpi (ts.map (fun loc => loc.flatMap (fun t => t.2.map (fun s => (s.wavehash, s.wave)))))) band := by
    unfold modelGrids
    cases way with
    | serial => exact (h3 band).symm
    | mpi _ _ => rfl
  rw [e]
  constructor
  · intro w hw
    obtain ⟨sp, hsp, hm⟩ := h2 band w hw
    obtain ⟨loc, hloc, rfl⟩ := List.mem_map.1 hsp
    obtain ⟨t, ht, hm⟩ := List.mem_flatMap.1 hm
    obtain ⟨s, hs, hm⟩ := List.mem_map.1 hm
    exact ⟨t, List.mem_flatten.2 ⟨loc, hloc, ht⟩, s, hs, congrArg Prod.fst hm, congrArg Prod.snd hm⟩
  · intro t ht s hs hb
    obtain ⟨loc, hloc, ht⟩ := List.mem_flatten.1 ht
    apply Option.isSome_iff_exists.1
    refine (h1 band).2 ⟨_, List.mem_map_of_mem hloc, s.wave, ?_⟩
    exact List.mem_flatMap.2 ⟨t, ht, List.mem_map.2 ⟨s, hs, by rw [hb]⟩⟩

theorem mapM_dict {W R R' : Type} (g : β → Py R) (f : R → R') (d : PyDict β W) (D : PyDict β (W × R')) (h : d.mapM (fun bw => do
      let r ← g bw.1
      return (bw.1, bw.2, f r)) = .ok D) (band : β) : (∀ w v, D.get? band = some (w, v) → d.get? band = some w ∧ ∃ r, g band = .ok r ∧ v = f r) ∧ (∀ w, d.get? band = some w → ∃ v, D.get? band = some (w, v)) := by
  have hF := mapM_inv _ _ _ h
  clear h
  induction hF with
  | nil => exact ⟨(by intro w v h; cases h), (by intro w h; cases h)⟩
  | @cons a b as bs hab _ ih =>
    obtain ⟨r, h1, h2⟩ := Except.bind_ok _ _ _ hab
    have h2 := Except.ok.inj h2
    subst h2
    rw [PyDict.get?_cons, PyDict.get?_cons]
    by_cases hk : a.1 = band
    · simp only [hk, if_true]
      constructor
      · intro w v e
        have := Option.some.inj e
        rw [Prod.mk.injEq] at this
        exact ⟨by rw [this.1], r, hk ▸ h1, this.2.symm⟩
      · intro w e
        exact ⟨f r, by rw [Option.some.inj e]⟩
    · simp only [hk, if_false]
      exact ih

theorem mapM_dict_ok {W R R' : Type} (g : β → Py R) (f : R → R') (d : PyDict β W) (h : ∀ band w, d.get? band = some w → ∃ r, g band = .ok r) : ∃ D, d.mapM (fun bw => do
      let r ← g bw.1
      return (bw.1, bw.2, f r)) = .ok D := by
  obtain ⟨D, h1, _⟩ := mapM_forall₂ (fun bw : β × W => (do
      let r ← g bw.1
      return (bw.1, bw.2, f r) : Py (β × W × R'))) (fun _ _ => True) d (by
    intro bw hbw
    have : (d.get? bw.1).isSome := by
      unfold PyDict.get?
      rw [Option.isSome_map, List.find?_isSome]
      exact ⟨bw, hbw, by simp⟩
    obtain ⟨w, hw⟩ := Option.isSome_iff_exists.1 this
    obtain ⟨r, hr⟩ := h bw.1 w hw
    rw [hr]
    exact ⟨_, rfl, trivial⟩)
  exact ⟨D, h1⟩

/-! ### the models of the catalogue -/

/-- what `eval_model` reads of a catalogue row -/
def fitOf (p : RrDesi β K) (r : CatRow K) : BestFit K := ⟨r.base.row.spectype.toList, r.base.row.subtype.toList, r.base.row.coeff.map p.round32, r.base.row.z, r.base.fitmethod.toList.take 4⟩

theorem where_at (ids : List Int) (hnd : ids.Nodup) (k : Nat) (t : Int) (hk : ids[k]? = some t) : npGet (npWhere (ids.map (fun z => decide (z = t)))) 0 = .ok k := by
  have hk' := (List.getElem?_eq_some_iff.1 hk).1
  have : npWhere (ids.map (fun z => decide (z = t))) = [k] := by
    unfold npWhere
    rw [List.length_map]
    have : (List.range ids.length).filter (fun i => (ids.map (fun z => decide (z = t))).getD i false) = (List.range ids.length).filter (fun i => decide (i = k)) := by
      refine List.filter_congr ?_
      intro i hi
      have hi' := List.mem_range.1 hi
      rw [List.getD_eq_getElem?_getD, List.getElem?_map, List.getElem?_eq_getElem hi']
      simp only [Option.map_some, Option.getD_some]
      have : (ids[i] = t) ↔ (i = k) := by
        constructor
        · intro he
          have h2 := (List.getElem?_eq_some_iff.1 hk).2
          exact (hnd.getElem_inj_iff).1 (he.trans h2.symm)
        · rintro rfl; exact (List.getElem?_eq_some_iff.1 hk).2
      rw [decide_eq_decide]; exact this
    rw [this]
    have h3 : ∀ n, k < n → (List.range n).filter (fun i => decide (i = k)) = [k] := by
      intro n
      induction n with
      | zero => intro h; omega
      | succ n ih =>
        intro h
        rw [List.range_succ, List.filter_append]
        by_cases hkn : k = n
        · subst hkn
          rw [List.filter_eq_nil_iff.2 (by intro i hi; have := List.mem_range.1 hi; simp; omega)]
          simp
        · rw [ih (by omega)]
          simp [Ne.symm hkn]
    exact h3 _ hk'
  rw [this]
  rfl

/-- the model of target `t` for row `k` of the catalogue -/
def evOf (p : RrDesi β K) (basis : PyStr → EvalTemplate K) (zbest : Tab K) (ts : List (List (Int × List (Spectrum β β K)))) (t : Int) (k : Nat) : Py (PyDict β (List K)) := do
  let b ← zbest.bestFit k
  evalTarget (evalTemplateDict p basis) b ((PyDict.get? ts.flatten t).getD [])

theorem evalLocal_eq (p : RrDesi β K) (basis : PyStr → EvalTemplate K) (zbest : Tab K) (ids : List Int) (ts : List (List (Int × List (Spectrum β β K)))) (hn : (ts.flatten.map (·.1)).Nodup) :
    ts.mapM (evalLocal (evalTemplateDict p basis) zbest ids) = (ts.map (List.map (·.1))).mapM (evalModels ids (evOf p basis zbest ts)) := by
  rw [mapM_map']
  apply mapM_congr'
  intro loc hloc
  unfold evalLocal evalModels
  rw [mapM_map']
  apply mapM_congr'
  intro e he
  unfold evOf
  rw [get?_of_mem ts.flatten hn e (List.mem_flatten.2 ⟨loc, hloc, he⟩)]
  rfl

theorem mapM_nested {A B : Type} (f : A → Py B) (ls : List (List A)) (rs : List (List B)) (h : ls.mapM (fun l => l.mapM f) = .ok rs) : List.Forall₂ (fun a b => f a = .ok b) ls.flatten rs.flatten := by
  have hF := mapM_inv _ _ _ h
  clear h
  induction hF with
  | nil => exact .nil
  | @cons a b as bs hab _ ih =>
    rw [List.flatten_cons, List.flatten_cons]
    exact List.rel_append (mapM_inv _ _ _ hab) ih

theorem bestFit_at (p : RrDesi β K) (best : List (CatRow K)) (k : Nat) (r : CatRow K) (h : best[k]? = some r) : (publishedTable p.round32 [] best).bestFit k = .ok (fitOf p r) := published_fit p.round32 best k r h

theorem models_form (p : RrDesi β K) (basis : PyStr → EvalTemplate K) (argsort : List Int → List Nat) (files : List (DFile Int β K)) (way : RrDesiWay K) (ts : List (List (Int × List (Spectrum β β K))))
    (hts : rankTargets p files way = .ok ts) (hok : RanksOk p files ts) (best : List (CatRow K)) (hids : best.map (·.base.targetid) = selected p files) (D : PyDict β (List K × List (List K)))
    (h : rrdesiModels p basis argsort files way (publishedTable p.round32 [] best) = .ok D) :
    (∀ r ∈ best, ∃ used m, (r.base.targetid, used) ∈ ts.flatten ∧ evalTarget (evalTemplateDict p basis) (fitOf p r) used = .ok m) ∧
    (∀ band w, (modelGrids way ts).get? band = some w → ∃ rows, D.get? band = some (w, rows)) ∧
    ∀ band w rows, D.get? band = some (w, rows) → (modelGrids way ts).get? band = some w ∧ rows.length = best.length ∧
      ∀ (k : Nat) r, best[k]? = some r → ∃ used m v, (r.base.targetid, used) ∈ ts.flatten ∧ evalTarget (evalTemplateDict p basis) (fitOf p r) used = .ok m ∧ m.get? band = some v ∧ rows[k]? = some (v.map p.round32) := by
  unfold rrdesiModels at h
  rw [hts, okBind] at h
  have hid := published_ids p.round32 best
  cases hc : (publishedTable p.round32 [] best).col "TARGETID".toList with
  | error e => rw [hc] at hid; cases hid
  | ok c =>
    rw [hc, okBind] at hid h
    rw [hid, okBind, evalLocal_eq p basis _ _ ts hok.nodup, hids] at h
    obtain ⟨models, h1, h2⟩ := Except.bind_ok _ _ _ h
    have hnd : (selected p files).Nodup := (hok.ids.nodup_iff).2 hok.nodup
    have hmod := mapM_nested (fun t => (do
        let i ← npGet (npWhere ((selected p files).map (fun z => decide (z = t)))) 0
        evOf p basis (publishedTable p.round32 [] best) ts t i : Py (PyDict β (List K)))) _ _ h1
    rw [show (ts.map (List.map (·.1))).flatten = ts.flatten.map (·.1) by rw [← List.map_flatten]] at hmod
    have hrow : ∀ (k : Nat) r, best[k]? = some r → (selected p files)[k]? = some r.base.targetid := by
      intro k r hk
      rw [← hids, List.getElem?_map, hk]; rfl
    have hmod' : ∀ (k : Nat) r (j : Nat) m, best[k]? = some r → (ts.flatten.map (·.1))[j]? = some r.base.targetid → models.flatten[j]? = some m →
        ∃ used, (r.base.targetid, used) ∈ ts.flatten ∧ evalTarget (evalTemplateDict p basis) (fitOf p r) used = .ok m := by
      intro k r j m hk hj hm
      obtain ⟨hj1, hj2⟩ := List.getElem?_eq_some_iff.1 hj
      obtain ⟨hm1, hm2⟩ := List.getElem?_eq_some_iff.1 hm
      have gen : ∀ f : Int → Py (PyDict β (List K)), List.Forall₂ (fun a b => f a = .ok b) (ts.flatten.map (·.1)) models.flatten → f r.base.targetid = .ok m := by
        intro f hf
        have := (List.forall₂_iff_get.1 hf).2 j hj1 hm1
        rw [List.get_eq_getElem, List.get_eq_getElem] at this
        dsimp only at this hj2
        rw [hj2, hm2] at this
        exact this
      have := gen _ hmod
      rw [where_at _ hnd k _ (hrow k r hk), okBind] at this
      unfold evOf at this
      rw [bestFit_at p best k r hk, okBind] at this
      have hmem : r.base.targetid ∈ ts.flatten.map (·.1) := List.mem_of_getElem? hj
      obtain ⟨e, he, heq⟩ := List.mem_map.1 hmem
      rw [← heq, get?_of_mem ts.flatten hok.nodup e he] at this
      refine ⟨e.2, ?_, this⟩
      rw [← heq]; exact he
    refine ⟨?_, ?_, ?_⟩
    · intro r hr
      obtain ⟨k, hk, rfl⟩ := List.mem_iff_getElem.1 hr
      have hk' := List.getElem?_eq_getElem hk
      have hmem : best[k].base.targetid ∈ ts.flatten.map (·.1) := hok.ids.mem_iff.1 (List.mem_of_getElem? (hrow k _ hk'))
      obtain ⟨j, hj, hje⟩ := List.mem_iff_getElem.1 hmem
      have hj' : j < models.flatten.length := by rw [← hmod.length_eq]; exact hj
      obtain ⟨used, g1, g2⟩ := hmod' k _ j _ hk' (by rw [List.getElem?_eq_getElem hj, hje]) (List.getElem?_eq_getElem hj')
      exact ⟨used, _, g1, g2⟩
    · intro band w hw
      exact (mapM_dict _ _ _ _ h2 band).2 w hw
    · intro band w rows hg
      obtain ⟨g1, raw, g2, g3⟩ := (mapM_dict _ _ _ _ h2 band).1 w rows hg
      obtain ⟨k1, k2⟩ := C50_never_misaligned _ _ _ _ _ _ g2
      refine ⟨g1, ?_, ?_⟩
      · rw [g3, List.length_map, k1, ← hids, List.length_map]
      · intro k r hk
        obtain ⟨j, m, v, q1, q2, q3, q4⟩ := k2 k _ (hrow k r hk)
        rw [show (ts.map (List.map (·.1))).flatten = ts.flatten.map (·.1) by rw [← List.map_flatten]] at q1
        obtain ⟨used, u1, u2⟩ := hmod' k r j m hk q1 q2
        refine ⟨used, m, v, u1, u2, ?_, ?_⟩
        · unfold PyDict.get at q3
          cases hm : m.get? band with
          | none => rw [hm] at q3; cases q3
          | some x => rw [hm] at q3; rw [Except.ok.inj q3]
        · rw [g3, List.getElem?_map, q4]; rfl

theorem models_exist (p : RrDesi β K) (basis : PyStr → EvalTemplate K) (argsort : List Int → List Nat) (harg : IsArgsort (fun a b => decide (a ≤ b)) argsort) (files : List (DFile Int β K)) (way : RrDesiWay K)
    (ts : List (List (Int × List (Spectrum β β K)))) (hts : rankTargets p files way = .ok ts) (hok : RanksOk p files ts) (best : List (CatRow K)) (hids : best.map (·.base.targetid) = selected p files)
    (hall : ∀ r ∈ best, ∀ used, (r.base.targetid, used) ∈ ts.flatten → ∃ m, evalTarget (evalTemplateDict p basis) (fitOf p r) used = .ok m ∧ ∀ band w, (modelGrids way ts).get? band = some w → ∃ v, m.get? band = some v) :
    ∃ D, rrdesiModels p basis argsort files way (publishedTable p.round32 [] best) = .ok D := by
  unfold rrdesiModels
  rw [hts, okBind]
  have hid := published_ids p.round32 best
  cases hc : (publishedTable p.round32 [] best).col "TARGETID".toList with
  | error e => rw [hc] at hid; cases hid
  | ok c =>
    rw [hc, okBind] at hid
    rw [okBind, hid, okBind, evalLocal_eq p basis _ _ ts hok.nodup, hids]
    have hnd : (selected p files).Nodup := (hok.ids.nodup_iff).2 hok.nodup
    have hev : ∀ (k : Nat) t, (selected p files)[k]? = some t → ∃ m, evOf p basis (publishedTable p.round32 [] best) ts t k = .ok m ∧ ∀ band w, (modelGrids way ts).get? band = some w → ∃ v, m.get? band = some v := by
      intro k t hk
      rw [← hids, List.getElem?_map] at hk
      obtain ⟨r, hr, rfl⟩ := Option.map_eq_some_iff.1 hk
      have hmem : r.base.targetid ∈ ts.flatten.map (·.1) := hok.ids.mem_iff.1 (by rw [← hids]; exact List.mem_map_of_mem (List.mem_of_getElem? hr))
      obtain ⟨e, he, heq⟩ := List.mem_map.1 hmem
      obtain ⟨m, h1, h2⟩ := hall r (List.mem_of_getElem? hr) e.2 (by rw [← heq]; exact he)
      refine ⟨m, ?_, h2⟩
      unfold evOf
      rw [bestFit_at p best k r hr, okBind, ← heq, get?_of_mem ts.flatten hok.nodup e he]
      exact h1
    obtain ⟨models, hmodels, _⟩ := mapM_forall₂ (evalModels (selected p files) (evOf p basis (publishedTable p.round32 [] best) ts)) (fun _ _ => True) (ts.map (List.map (·.1))) (by
      intro l hl
      obtain ⟨ms, hms, _⟩ := mapM_forall₂ (fun t => (do
        let i ← npGet (npWhere ((selected p files).map (fun z => decide (z = t)))) 0
        evOf p basis (publishedTable p.round32 [] best) ts t i : Py (PyDict β (List K)))) (fun _ _ => True) l (by
          intro t ht
          have hmem : t ∈ ts.flatten.map (·.1) := by
            rw [List.map_flatten]
            exact List.mem_flatten.2 ⟨l, hl, ht⟩
          obtain ⟨k, hk, hke⟩ := List.mem_iff_getElem.1 (hok.ids.mem_iff.2 hmem)
          have hk' : (selected p files)[k]? = some t := by rw [List.getElem?_eq_getElem hk, hke]
          obtain ⟨m, hm, _⟩ := hev k t hk'
          exact ⟨m, by rw [where_at _ hnd k t hk', okBind, hm], trivial⟩)
      exact ⟨ms, hms, trivial⟩)
    rw [hmodels, okBind]
    apply mapM_dict_ok
    intro band w hw
    have hne : selected p files ≠ [] := by
      intro hnil
      obtain ⟨e, he, _⟩ := (modelGrids_spec way ts band).1 w hw
      have := hok.ids.mem_iff.2 (List.mem_map_of_mem he)
      rw [hnil] at this
      cases this
    obtain ⟨models', rows, q1, q2, _⟩ := C50_rows_aligned argsort harg (selected p files) hne hnd (ts.map (List.map (·.1))) (by rw [← List.map_flatten]; exact hok.ids.symm)
      (evOf p basis (publishedTable p.round32 [] best) ts) band (by
        intro k t hk
        obtain ⟨m, h1, h2⟩ := hev k t hk
        obtain ⟨v, hv⟩ := h2 band w hw
        exact ⟨m, v, h1, by unfold PyDict.get; rw [hv]⟩)
    rw [hmodels] at q1
    rw [← Except.ok.inj q1] at q2
    exact ⟨rows, q2⟩

/-! ### the theorems -/

theorem isRow_id (p : RrDesi β K) (files : List (DFile Int β K)) (tid : Int) (r : CatRow K) (h : IsRow p files tid r) : r.base.targetid = tid := by
  obtain ⟨sp, _, T, b, row, _, _, _, h⟩ := h
  rw [h]
  unfold desiFlagRow
  dsimp only
  split <;> rfl

theorem rows_ids (p : RrDesi β K) (files : List (DFile Int β K)) (l : List Int) (best : List (CatRow K)) (h : List.Forall₂ (IsRow p files) l best) : best.map (·.base.targetid) = l := by
  induction h with
  | nil => rfl
  | cons hab _ ih => rw [List.map_cons, ih, isRow_id _ _ _ _ hab]

theorem isModel_of (p : RrDesi β K) (basis : PyStr → EvalTemplate K) (files : List (DFile Int β K)) (band : β) (r : CatRow K) (used : List (Spectrum β β K)) (hu : OwnUsed p files r.base.targetid used) (m : PyDict β (List K))
    (v : List K) (h : evalTarget (evalTemplateDict p basis) (fitOf p r) used = .ok m) (hv : m.get? band = some v) : IsModel p basis files band r (v.map p.round32) := by
  obtain ⟨s, h1, h2, h3⟩ := evalTarget_get _ _ _ _ h band v hv
  refine ⟨used, s, hu, h1, ?_, ?_⟩
  · intro hz
    rw [h2 (by
      intro c hc
      obtain ⟨c', hc', rfl⟩ := List.mem_map.1 hc
      exact hz c' hc'), List.map_map]
    rfl
  · rintro ⟨c, hc, hne⟩
    obtain ⟨tx, g1, g2⟩ := h3 ⟨p.round32 c, List.mem_map.2 ⟨c, hc, rfl⟩, hne⟩
    obtain ⟨name, hn, rfl⟩ := evalTemplateDict_get p basis _ _ tx g1
    obtain ⟨flux, k1, k2⟩ := evalSpectrum_spec _ _ _ _ _ g2
    exact ⟨name, flux, v, hn, k1, k2, rfl⟩

/-- **C126** Whatever `rrdesi --model` writes, serial or on any number of ranks: the bands are exactly those in which some selected target has a spectrum, and in each band there is one model per row of the catalogue, in
the order of the catalogue; the k-th is the model of the k-th row: a template of the published type and subtype with the published coefficients at the published redshift, on the wavelengths and with the resolution of that
target's own spectrum; 0 if the published coefficients are all 0. -/
theorem C126_rows (p : RrDesi β K) (basis : PyStr → EvalTemplate K) (argsort : List Int → List Nat) (files : List (DFile Int β K)) (hone : OneGrid files) (way : RrDesiWay K) (hp : GoodStart p files (ways way)) (hr : PossibleRing p way)
    (B : Tab K) (D : PyDict β (List K × List (List K))) (h : rrdesiModelFile p basis argsort files way = .ok (B, D)) :
    ∃ best, List.Forall₂ (IsRow p files) (selected p files) best ∧ B = publishedTable p.round32 [] best ∧ (∀ band, (D.get? band).isSome ↔ ∃ w, BandUsed p files band w) ∧
      ∀ band w rows, D.get? band = some (w, rows) → BandUsed p files band w ∧ List.Forall₂ (IsModel p basis files band) best rows := by
  unfold rrdesiModelFile at h
  obtain ⟨B', h1, h⟩ := Except.bind_ok _ _ _ h
  obtain ⟨D', h2, h⟩ := Except.bind_ok _ _ _ h
  have h := Except.ok.inj h
  rw [Prod.mk.injEq] at h
  obtain ⟨rfl, rfl⟩ := h
  obtain ⟨best, hb1, rfl⟩ := C119_rows p files way hp hr B' h1
  obtain ⟨ts, hts⟩ := catalogue_ranks p files way hp hr _ h1
  have hok := ranks_ok p files way hp hr ts hts
  obtain ⟨g1, g2, g3⟩ := models_form p basis argsort files way ts hts hok best (rows_ids _ _ _ _ hb1) D' h2
  have hused : ∀ band w, (modelGrids way ts).get? band = some w → BandUsed p files band w := by
    intro band w hw
    obtain ⟨e, he, s, hs, hs1, hs2⟩ := (modelGrids_spec way ts band).1 w hw
    exact ⟨e.1, hok.ids.mem_iff.2 (List.mem_map_of_mem he), e.2, hok.own e he, s, hs, hs1, hs2⟩
  refine ⟨best, hb1, rfl, ?_, ?_⟩
  · intro band
    constructor
    · intro hs
      obtain ⟨⟨w, rows⟩, hd⟩ := Option.isSome_iff_exists.1 hs
      exact ⟨w, hused band w (g3 band w rows hd).1⟩
    · rintro ⟨w, tid, htid, used, hu, s, hs, hs1, hs2⟩
      obtain ⟨e, he, heq⟩ := List.mem_map.1 (hok.ids.mem_iff.1 htid)
      rw [used_unique p files hone e.1 used e.2 (heq ▸ hu) (hok.own e he)] at hs
      obtain ⟨w', hw'⟩ := (modelGrids_spec way ts band).2 e he s hs hs1
      obtain ⟨rows, hrows⟩ := g2 band w' hw'
      rw [hrows]; rfl
  · intro band w rows hd
    obtain ⟨k1, k2, k3⟩ := g3 band w rows hd
    refine ⟨hused band w k1, ?_⟩
    rw [List.forall₂_iff_get]
    refine ⟨k2.symm, ?_⟩
    intro k hk hk'
    obtain ⟨used, m, v, q1, q2, q3, q4⟩ := k3 k _ (List.getElem?_eq_getElem hk)
    rw [List.getElem?_eq_getElem hk'] at q4
    rw [List.get_eq_getElem, List.get_eq_getElem, Option.some.inj q4]
    exact isModel_of p basis files band _ used (hok.own _ q1) m v q2 q3

theorem used_wave (p : RrDesi β K) (files : List (DFile Int β K)) (hw : Wave.SameWaves files) (tid tid' : Int) (u u' : List (Spectrum β β K)) (h : OwnUsed p files tid u) (h' : OwnUsed p files tid' u') (s s' : Spectrum β β K)
    (hs : s ∈ u) (hs' : s' ∈ u') (e : s.wavehash = s'.wavehash) : s.wave = s'.wave := by
  obtain ⟨waveOf, hf⟩ := hw.follow
  have key : ∀ tid u, OwnUsed p files tid u → ∀ s ∈ u, s.wave = waveOf s.wavehash := by
    rintro tid u ⟨specs, full, h1, h2, h3⟩ s hs
    obtain ⟨q, hq, e1, e2⟩ := mask_grid _ _ _ h3 s hs
    rw [e1, e2]
    exact Wave.combined_wave waveOf ⟨p.argsort, p.sqrt, p.resol, p.opts, p.noSkymask, ⟨[], p.fit.order, p.fit.argsort, p.fit.minfit, p.fit.nz, p.fit.nminima, p.fit.S, p.fit.prior, p.fit.le⟩, p.mask, p.fibermap, p.method, p.round32⟩
      specs (Wave.slot_wave waveOf files hf p.opts tid specs _ h1) full h2 q hq
  rw [key tid u h s hs, key tid' u' h' s' hs', e]

/-- **C126** On readable files the models do not depend on whether `rrdesi` runs in one process or on how many MPI ranks, nor on the schedule of the ring: the same catalogue, the same bands, and in each band the same
models in the same order; and the same wavelengths if the files agree on the wavelengths of the bands. -/
theorem C126_ranks (p : RrDesi β K) (basis : PyStr → EvalTemplate K) (argsort : List Int → List Nat) (harg : IsArgsort (fun a b => decide (a ≤ b)) argsort) (files : List (DFile Int β K)) (hf : Readable p files)
    (way way' : RrDesiWay K) (hp : GoodStart p files (ways way)) (hp' : GoodStart p files (ways way')) (hr : PossibleRing p way) (hr' : PossibleRing p way') (B : Tab K) (D : PyDict β (List K × List (List K)))
    (h : rrdesiModelFile p basis argsort files way = .ok (B, D)) : ∃ D', rrdesiModelFile p basis argsort files way' = .ok (B, D') ∧ (∀ band, (D.get? band).map (·.2) = (D'.get? band).map (·.2)) ∧
      (Wave.SameWaves files → ∀ band, D.get? band = D'.get? band) := by
  unfold rrdesiModelFile at h
  obtain ⟨B', h1, h⟩ := Except.bind_ok _ _ _ h
  obtain ⟨D0, h2, h⟩ := Except.bind_ok _ _ _ h
  have h := Except.ok.inj h
  rw [Prod.mk.injEq] at h
  obtain ⟨rfl, rfl⟩ := h
  obtain ⟨best, hb1, rfl⟩ := C119_rows p files way hp hr B' h1
  have hids := rows_ids _ _ _ _ hb1
  obtain ⟨ts, hts⟩ := catalogue_ranks p files way hp hr _ h1
  have hok := ranks_ok p files way hp hr ts hts
  have h1' := (C119_ranks p files hf way way' hp hp' hr hr' _).1 h1
  obtain ⟨ts', hts'⟩ := catalogue_ranks p files way' hp' hr' _ h1'
  have hok' := ranks_ok p files way' hp' hr' ts' hts'
  obtain ⟨g1, g2, g3⟩ := models_form p basis argsort files way ts hts hok best hids D0 h2
  have hmem : ∀ e, e ∈ ts.flatten ↔ e ∈ ts'.flatten := by
    have key : ∀ ts ts', RanksOk p files ts → RanksOk p files ts' → ∀ e, e ∈ ts.flatten → e ∈ ts'.flatten := by
      intro ts ts' hok hok' e he
      obtain ⟨e', he', heq⟩ := List.mem_map.1 (hok'.ids.mem_iff.1 (hok.ids.mem_iff.2 (List.mem_map_of_mem he)))
      have := used_unique p files hf.oneGrid e.1 e.2 e'.2 (hok.own e he) (heq ▸ hok'.own e' he')
      have e3 : e = e' := Prod.ext heq.symm this
      rw [e3]; exact he'
    exact fun e => ⟨key ts ts' hok hok' e, key ts' ts hok' hok e⟩
  have hgr : ∀ band w, (modelGrids way' ts').get? band = some w → ∃ w', (modelGrids way ts).get? band = some w' := by
    intro band w hw
    obtain ⟨e, he, s, hs, hs1, hs2⟩ := (modelGrids_spec way' ts' band).1 w hw
    exact (modelGrids_spec way ts band).2 e ((hmem e).2 he) s hs hs1
  have hgr' : ∀ band w, (modelGrids way ts).get? band = some w → ∃ w', (modelGrids way' ts').get? band = some w' := by
    intro band w hw
    obtain ⟨e, he, s, hs, hs1, hs2⟩ := (modelGrids_spec way ts band).1 w hw
    exact (modelGrids_spec way' ts' band).2 e ((hmem e).1 he) s hs hs1
  have huni : ∀ tid used used', (tid, used) ∈ ts.flatten → (tid, used') ∈ ts'.flatten → used = used' := by
    intro tid used used' hu hu'
    exact used_unique p files hf.oneGrid tid used used' (hok.own _ hu) (hok'.own _ hu')
  obtain ⟨D', hD'⟩ := models_exist p basis argsort harg files way' ts' hts' hok' best hids (by
    intro r hr used hused
    obtain ⟨used0, m, q1, q2⟩ := g1 r hr
    obtain rfl := huni _ _ _ q1 hused
    refine ⟨m, q2, ?_⟩
    intro band w hw
    obtain ⟨w', hw'⟩ := hgr band w hw
    obtain ⟨rows, hrows⟩ := g2 band w' hw'
    obtain ⟨k, hk, rfl⟩ := List.mem_iff_getElem.1 hr
    obtain ⟨used1, m1, v, u1, u2, u3, _⟩ := (g3 band w' rows hrows).2.2 k _ (List.getElem?_eq_getElem hk)
    obtain rfl := huni _ _ _ u1 hused
    rw [q2] at u2
    rw [Except.ok.inj u2]
    exact ⟨v, u3⟩)
  obtain ⟨g1', g2', g3'⟩ := models_form p basis argsort files way' ts' hts' hok' best hids D' hD'
  have hrows : ∀ band w rows w' rows', D0.get? band = some (w, rows) → D'.get? band = some (w', rows') → rows = rows' := by
    intro band w rows w' rows' hd hd'
    obtain ⟨_, k1, k2⟩ := g3 band w rows hd
    obtain ⟨_, k1', k2'⟩ := g3' band w' rows' hd'
    apply List.ext_getElem?
    intro k
    by_cases hk : k < best.length
    · obtain ⟨used, m, v, q1, q2, q3, q4⟩ := k2 k _ (List.getElem?_eq_getElem hk)
      obtain ⟨used', m', v', q1', q2', q3', q4'⟩ := k2' k _ (List.getElem?_eq_getElem hk)
      obtain rfl := huni _ _ _ q1 q1'
      rw [q2] at q2'
      obtain rfl := Except.ok.inj q2'
      rw [q3] at q3'
      rw [q4, q4', Option.some.inj q3']
    · rw [List.getElem?_eq_none (by omega), List.getElem?_eq_none (by omega)]
  have hsome : ∀ band, (∃ x, D0.get? band = some x) ↔ ∃ x, D'.get? band = some x := by
    intro band
    constructor
    · rintro ⟨⟨w, rows⟩, hx⟩
      obtain ⟨w', hw'⟩ := hgr' band w (g3 band w rows hx).1
      obtain ⟨rows', hr'⟩ := g2' band w' hw'
      exact ⟨_, hr'⟩
    · rintro ⟨⟨w, rows⟩, hx⟩
      obtain ⟨w', hw'⟩ := hgr band w (g3' band w rows hx).1
      obtain ⟨rows', hr'⟩ := g2 band w' hw'
      exact ⟨_, hr'⟩
  refine ⟨D', ?_, ?_, ?_⟩
  · unfold rrdesiModelFile
    rw [h1', okBind, hD']
    rfl
  · intro band
    cases hd : D0.get? band with
    | none =>
      cases hd' : D'.get? band with
      | none => rfl
      | some x =>
        obtain ⟨y, hy⟩ := (hsome band).2 ⟨x, hd'⟩
        rw [hd] at hy; cases hy
    | some x =>
      obtain ⟨y, hy⟩ := (hsome band).1 ⟨x, hd⟩
      rw [hy]
      obtain ⟨w, rows⟩ := x
      obtain ⟨w', rows'⟩ := y
      exact congrArg some (hrows band w rows w' rows' hd hy)
  · intro hw band
    cases hd : D0.get? band with
    | none =>
      cases hd' : D'.get? band with
      | none => rfl
      | some x =>
        obtain ⟨y, hy⟩ := (hsome band).2 ⟨x, hd'⟩
        rw [hd] at hy; cases hy
    | some x =>
      obtain ⟨y, hy⟩ := (hsome band).1 ⟨x, hd⟩
      rw [hy]
      obtain ⟨w, rows⟩ := x
      obtain ⟨w', rows'⟩ := y
      obtain ⟨e, he, s, hs, hs1, hs2⟩ := (modelGrids_spec way ts band).1 w (g3 band w rows hd).1
      obtain ⟨e', he', s', hs', hs1', hs2'⟩ := (modelGrids_spec way' ts' band).1 w' (g3' band w' rows' hy).1
      have : w = w' := by
        rw [← hs2, ← hs2']
        exact used_wave p files hw _ _ _ _ (hok.own e he) (hok'.own e' he') s s' hs hs' (by rw [hs1, hs1'])
      rw [this, hrows band w rows w' rows' hd hy]

/-! ### when the models are written -/

theorem table_type {σ : Type} [LinearOrder σ] (nminima : Nat) (ibad : Row K σ → Bool) (fits : List (TemplateFit K σ)) (T : List (Row K σ)) (h : targetTable nminima ibad fits = .ok T) :
    ∀ r ∈ T, ∃ t ∈ fits, t.spectype = r.spectype ∧ t.subtype = r.subtype := by
  unfold targetTable targetRows at h
  cases hm : pyMaxNat ((fits.filter (fun t => decide (t.cands ≠ []))).map (·.ncoeff)) with
  | error e => simp only [hm] at h; cases h
  | ok W =>
    simp only [hm] at h
    have hT := Except.ok.inj h
    intro r hr
    rw [← hT] at hr
    obtain ⟨r1, hr1, i, d, w, hrr, _⟩ := forall₂_right_mem (finishRows_forall₂ _) r hr
    obtain ⟨r0, hr0, hfl⟩ := List.mem_map.1 (trimRows_subset _ _ _ hr1)
    obtain ⟨t, ht, hrt⟩ := List.mem_flatMap.1 hr0
    obtain ⟨q, hq, hqr⟩ := List.mem_map.1 hrt
    refine ⟨t, (List.mem_filter.1 ht).1, ?_, ?_⟩
    · rw [hrr, ← hfl, ← hqr]; rfl
    · rw [hrr, ← hfl, ← hqr]; rfl

/-- the type and subtype of a published row with coefficients are those of a template of the run -/
theorem row_type (p : RrDesi β K) (files : List (DFile Int β K)) (h0 : p.round32 0 = 0) (tid : Int) (r : CatRow K) (h : IsRow p files tid r) (hc : ∃ c ∈ r.base.row.coeff, p.round32 c ≠ 0) :
    (∃ name, HasType p name r.base.row.spectype r.base.row.subtype) ∧ r.base.fitmethod = p.method r.base.row.spectype r.base.row.subtype := by
  obtain ⟨sp, _, T, best, row, hT, hhd, hsame, hb⟩ := h
  have htype : ∃ name, HasType p name row.spectype row.subtype := by
    unfold measureTarget at hT
    obtain ⟨fits, h1, h2⟩ := Except.bind_ok _ _ _ hT
    obtain ⟨t, ht, e1, e2⟩ := table_type _ _ _ _ h2 best (List.mem_of_mem_head? hhd)
    obtain ⟨tm, htm, hft⟩ := forall₂_right_mem (mapM_inv _ _ _ h1) t ht
    obtain ⟨x, hx, rfl⟩ := List.mem_map.1 htm
    unfold fitTarget at hft
    obtain ⟨a, _, hft⟩ := Except.bind_ok _ _ _ hft
    obtain ⟨b, _, hft⟩ := Except.bind_ok _ _ _ hft
    have hft := Except.ok.inj hft
    have e3 : row.spectype = best.spectype ∧ row.subtype = best.subtype := by rw [hsame.1]; exact ⟨rfl, rfl⟩
    refine ⟨x.1, x.2, hx, ?_, ?_⟩
    · rw [e3.1, ← e1, ← hft]
    · rw [e3.2, ← e2, ← hft]
  rw [hb] at hc ⊢
  unfold desiFlagRow at hc ⊢
  dsimp only at hc ⊢
  split at hc
  · obtain ⟨c, hc, hne⟩ := hc
    obtain ⟨c', _, rfl⟩ := List.mem_map.1 hc
    exact absurd h0 hne
  · rename_i hn
    rw [if_neg hn]
    exact ⟨htype, rfl⟩

/-- the model of the row can be evaluated on the target's spectra: the templates of the published type and subtype can be resampled to the wavelengths of every spectrum of the target -/
def Evaluable (p : RrDesi β K) (basis : PyStr → EvalTemplate K) (r : CatRow K) (used : List (Spectrum β β K)) : Prop :=
  ∀ name, HasType p name r.base.row.spectype r.base.row.subtype → ∀ s ∈ used, s.flux.length = s.wave.length ∧
    ∃ flux, templateEval (basis name).wave (basis name).flux (r.base.row.coeff.map p.round32) s.wave r.base.row.z none = .ok flux

/-- every selected target has a spectrum in every band that is used -/
def EveryBand (p : RrDesi β K) (files : List (DFile Int β K)) : Prop := ∀ band w, BandUsed p files band w → ∀ tid ∈ selected p files, ∃ used, OwnUsed p files tid used ∧ ∃ s ∈ used, s.wavehash = band

theorem foldlM_keys {S : Type} (key : S → β) (f : S → Py (List K)) (spectra : List S) (d0 : PyDict β (List K)) (hf : ∀ s ∈ spectra, ∃ v, f s = .ok v) : ∃ d, spectra.foldlM (fun (d : PyDict β (List K)) sp => do
        let mdl ← f sp
        return PyDict.set d (key sp) mdl) d0 = .ok d ∧ (∀ b, (∃ v, d0.get? b = some v) → ∃ v, d.get? b = some v) ∧ ∀ s ∈ spectra, ∃ v, d.get? (key s) = some v := by
  induction spectra generalizing d0 with
  | nil => exact ⟨d0, rfl, fun b h => h, by simp⟩
  | cons a l ih =>
    obtain ⟨v, hv⟩ := hf a (by simp)
    obtain ⟨d, h1, h2, h3⟩ := ih (d0.set (key a) v) (fun s hs => hf s (by simp [hs]))
    have hset : ∀ b, (∃ v, d0.get? b = some v) ∨ b = key a → ∃ v', (d0.set (key a) v).get? b = some v' := by
      intro b hb
      rw [PyDict.get?_set]
      by_cases e : key a = b
      · rw [if_pos e]; exact ⟨v, rfl⟩
      · rw [if_neg e]
        rcases hb with hb | hb
        · exact hb
        · exact absurd hb.symm e
    refine ⟨d, ?_, fun b hb => h2 b (hset b (Or.inl hb)), ?_⟩
    · rw [List.foldlM_cons, hv]
      exact h1
    · intro s hs
      rcases List.mem_cons.1 hs with rfl | hs
      · exact h2 _ (hset _ (Or.inr rfl))
      · exact h3 s hs

theorem evalTemplateDict_some (p : RrDesi β K) (basis : PyStr → EvalTemplate K) (a b : String) (name : PyStr) (h : HasType p name a b) : ∃ tx, (evalTemplateDict p basis).get? (a.toList, b.toList) = some tx := by
  obtain ⟨t, ht, rfl, rfl⟩ := h
  unfold evalTemplateDict
  rw [PyDict.get?_foldl_set (fun t : PyStr × Tmpl β K String => (t.2.spectype.toList, t.2.subtype.toList)) (fun t => basis t.1)]
  apply Option.isSome_iff_exists.1
  rw [Option.isSome_or, Option.isSome_map, List.find?_isSome.2 ⟨(name, t), by simpa using ht, by simp⟩]
  rfl

theorem evaluable_ok (p : RrDesi β K) (basis : PyStr → EvalTemplate K) (files : List (DFile Int β K)) (h0 : p.round32 0 = 0) (hmeth : ∀ a b, (p.method a b).toList.take 4 ≠ "ARCH".toList) (tid : Int) (r : CatRow K)
    (h : IsRow p files tid r) (used : List (Spectrum β β K)) (he : Evaluable p basis r used) : ∃ m, evalTarget (evalTemplateDict p basis) (fitOf p r) used = .ok m ∧ ∀ s ∈ used, ∃ v, m.get? s.wavehash = some v := by
  unfold evalTarget
  split
  · obtain ⟨d, h1, _, h3⟩ := foldlM_keys (fun sp : Spectrum β β K => sp.wavehash) (fun sp => .ok (sp.wave.map (fun _ => (0 : K)))) used [] (fun s _ => ⟨_, rfl⟩)
    rw [foldl_eq_foldlM] at h1
    exact ⟨d, h1, h3⟩
  · rename_i hz
    have hc : ∃ c ∈ r.base.row.coeff, p.round32 c ≠ 0 := by
      by_contra hcon
      push Not at hcon
      apply hz
      rw [List.all_eq_true]
      intro c hc
      obtain ⟨c', hc', rfl⟩ := List.mem_map.1 hc
      simpa using hcon c' hc'
    obtain ⟨⟨name, hn⟩, hm⟩ := row_type p files h0 tid r h hc
    rw [if_neg (by
      show ¬ (r.base.fitmethod.toList.take 4 = _)
      rw [hm]; exact hmeth _ _)]
    obtain ⟨tx, htx⟩ := evalTemplateDict_some p basis _ _ name hn
    obtain ⟨name', hn', rfl⟩ := evalTemplateDict_get p basis _ _ tx htx
    rw [show (evalTemplateDict p basis).get? ((fitOf p r).spectype, (fitOf p r).subtype) = some (basis name') from htx]
    dsimp only
    obtain ⟨d, h1, _, h3⟩ := foldlM_keys (fun sp : Spectrum β β K => sp.wavehash) (evalSpectrum (basis name') (fitOf p r).coeff (fitOf p r).z) used [] (by
      intro s hs
      obtain ⟨k1, flux, k2⟩ := he name' hn' s hs
      unfold evalSpectrum
      rw [if_neg (by simpa using k1)]
      exact ⟨_, (templateEval_some _ _ _ _ _ _ _).2 ⟨flux, k2, rfl⟩⟩)
    exact ⟨d, h1, h3⟩

/-- **C126** When the models are written: if the catalogue is, and the templates can be resampled to the targets' wavelengths (no archetypes), exactly when every selected target has a spectrum in every band in which any
selected target has one. In full, the claim "a run that publishes a catalogue publishes its models" is false: `C126_refuted`. -/
theorem C126_written_partial (p : RrDesi β K) (basis : PyStr → EvalTemplate K) (argsort : List Int → List Nat) (harg : IsArgsort (fun a b => decide (a ≤ b)) argsort) (files : List (DFile Int β K)) (hone : OneGrid files)
    (way : RrDesiWay K) (hp : GoodStart p files (ways way)) (hr : PossibleRing p way) (B : Tab K) (h : rrdesiCatalogue p files way = .ok B) (h0 : p.round32 0 = 0)
    (hmeth : ∀ a b, (p.method a b).toList.take 4 ≠ "ARCH".toList) (hev : ∀ best, List.Forall₂ (IsRow p files) (selected p files) best → B = publishedTable p.round32 [] best → ∀ r ∈ best, ∀ used, OwnUsed p files r.base.targetid used → Evaluable p basis r used) :
    (∃ D, rrdesiModelFile p basis argsort files way = .ok (B, D)) ↔ EveryBand p files := by
  constructor
  · rintro ⟨D, hD⟩
    obtain ⟨best, hb1, hb2, hb3, hb4⟩ := C126_rows p basis argsort files hone way hp hr B D hD
    intro band w hw tid htid
    obtain ⟨⟨w', rows⟩, hd⟩ := Option.isSome_iff_exists.1 ((hb3 band).2 ⟨w, hw⟩)
    obtain ⟨r, hrm, hrow⟩ := forall₂_left_mem hb1 tid htid
    obtain ⟨row, _, used, s, k1, ⟨before, after, k2, k3, _⟩, _⟩ := forall₂_left_mem (hb4 band w' rows hd).2 r hrm
    rw [isRow_id _ _ _ _ hrow] at k1
    exact ⟨used, k1, s, by rw [k2]; simp, k3⟩
  · intro hall
    obtain ⟨best, hb1, rfl⟩ := C119_rows p files way hp hr B h
    obtain ⟨ts, hts⟩ := catalogue_ranks p files way hp hr _ h
    have hok := ranks_ok p files way hp hr ts hts
    obtain ⟨D, hD⟩ := models_exist p basis argsort harg files way ts hts hok best (rows_ids _ _ _ _ hb1) (by
      intro r hrm used hu
      obtain ⟨tid, htid, hrow⟩ := forall₂_right_mem hb1 r hrm
      have hid := isRow_id _ _ _ _ hrow
      have hown := hok.own _ hu
      rw [hid] at hu
      have hev' := hev best hb1 rfl r hrm used hown
      rw [show (r.base.targetid, used).1 = tid from hid] at hown
      obtain ⟨m, h1, h2⟩ := evaluable_ok p basis files h0 hmeth tid r hrow used hev'
      refine ⟨m, h1, ?_⟩
      intro band w hw
      obtain ⟨e, he, s, hs, hs1, hs2⟩ := (modelGrids_spec way ts band).1 w hw
      obtain ⟨used', hu', s', hs', hs1'⟩ := hall band w ⟨e.1, hok.ids.mem_iff.2 (List.mem_map_of_mem he), e.2, hok.own e he, s, hs, hs1, hs2⟩ tid htid
      rw [← used_unique p files hone tid used used' hown hu'] at hs'
      rw [← hs1']
      exact h2 s' hs')
    refine ⟨D, ?_⟩
    unfold rrdesiModelFile
    rw [h, okBind, hD]
    rfl

end
end RrDesiRun
end Redrock
