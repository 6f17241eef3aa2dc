import Verif.Model.TargetHist
import Verif.Props.Coadd
import Verif.Props.Memory

/-!
C129: the life of a target. Which spectra the copies for the GPU and the Legendre polynomials belong to, and what repeated coadds do.
-/
set_option linter.unusedSectionVars false
namespace Redrock.TargetHist

variable {ω β K : Type} [DecidableEq ω] [Field K] [LinearOrder K]

/-! ### Specification -/

/-- The spectra after coadds with thresholds `nsigs`, one after the other; a coadd that raises changes nothing. -/
def coadds (sp : List (Spectrum ω β K)) : List K → List (Spectrum ω β K)
  | [] => sp
  | x :: xs =>
    match computeCoadd x sp with
    | .ok sp' => coadds sp' xs
    | .error _ => coadds sp xs

/-- The thresholds of the coadds among the calls. -/
def thresholds (ops : List (Op K)) : List K := ops.filterMap (fun op => match op with | .coadd x => some x | _ => none)

/-- Exposures with the same wavehash have the same grid. -/
def SameGrid (sp : List (Spectrum ω β K)) : Prop := ∀ e ∈ sp, ∀ e' ∈ sp, e.wavehash = e'.wavehash → e.wave = e'.wave

/-- `w`, `f`, `wf` are the arrays of the spectra `sp`, one spectrum after the other. -/
def ArraysOf (sp : List (Spectrum ω β K)) (w f wf : List K) : Prop :=
  w = (sp.map (·.ivar)).flatten ∧ f = (sp.map (·.flux)).flatten ∧ wf = List.zipWith (· * ·) w f

/-- `d` has the first `n` polynomials on the grid of every spectrum, and nothing else. -/
def PolysOf (poly : Nat → List K → List K) (sp : List (Spectrum ω β K)) (n : Nat) (d : PyDict ω (List (List K))) : Prop :=
  (∀ s ∈ sp, PyDict.get? d s.wavehash = some ((List.range n).map (fun i => poly i s.wave))) ∧ ∀ k, k ∈ PyDict.keys d ↔ k ∈ sp.map (·.wavehash)

/-- `c` is what further coadds may leave of `e`: the same flux on the same grid; a pixel keeps its inverse variance or is masked, and a column of the resolution stays or is zero. -/
structure Eroded (e c : Spectrum ω β K) : Prop where
  wave : c.wave = e.wave
  flux : c.flux = e.flux
  wavehash : c.wavehash = e.wavehash
  band : c.band = e.band
  ivar : ∀ j < e.wave.length, c.ivar.getD j 0 = e.ivar.getD j 0 ∨ c.ivar.getD j 0 = 0
  res : ∀ i j, i < e.wave.length → j < e.wave.length → c.R.entry i j = e.R.entry i j ∨ c.R.entry i j = 0

/-- Same as `Eroded`, with nothing lost. -/
structure Equivalent (e c : Spectrum ω β K) : Prop where
  wave : c.wave = e.wave
  flux : c.flux = e.flux
  wavehash : c.wavehash = e.wavehash
  band : c.band = e.band
  ivar : ∀ j < e.wave.length, c.ivar.getD j 0 = e.ivar.getD j 0
  res : ∀ i j, i < e.wave.length → j < e.wave.length → c.R.entry i j = e.R.entry i j

/-! ### lemmas -/

theorem after_append (poly : Nat → List K → List K) (t : State ω β K) (a b : List (Op K)) : after poly t (a ++ b) = after poly (after poly t a) b := by
  induction a generalizing t with
  | nil => rfl
  | cons op a ih =>
    rw [List.cons_append, after, after]
    cases step poly t op with
    | ok r => exact ih r.1
    | error e => exact ih t

theorem coadds_append (sp : List (Spectrum ω β K)) (a b : List K) : coadds sp (a ++ b) = coadds (coadds sp a) b := by
  induction a generalizing sp with
  | nil => rfl
  | cons x a ih =>
    rw [List.cons_append, coadds, coadds]
    cases computeCoadd x sp with
    | ok r => exact ih r
    | error e => exact ih sp

/-- what one call does to the spectra and the bands -/
theorem after_one (poly : Nat → List K → List K) (t : State ω β K) (op : Op K) :
    (after poly t [op]).spectra = coadds t.spectra (thresholds [op]) ∧ (after poly t [op]).bands = t.bands := by
  rw [after]
  cases op with
  | coadd x =>
    cases h : computeCoadd x t.spectra with
    | ok sp => simp [step, h, after, thresholds, coadds, bind, Except.bind, pure, Except.pure]
    | error e => simp [step, h, after, thresholds, coadds, bind, Except.bind]
  | gpuData =>
    simp only [step, gpuData]
    cases hg : t.gpu with
    | some g => simp [after, thresholds, coadds, bind, Except.bind, pure, Except.pure]
    | none =>
      simp only []
      split_ifs <;> simp [after, thresholds, coadds, bind, Except.bind, pure, Except.pure]
  | legendre n gpu => simp [step, after, thresholds, coadds]

theorem after_cons (poly : Nat → List K → List K) (t : State ω β K) (op : Op K) (ops : List (Op K)) : after poly t (op :: ops) = after poly (after poly t [op]) ops := after_append poly t [op] ops

theorem thresholds_cons (op : Op K) (ops : List (Op K)) : thresholds (op :: ops) = thresholds [op] ++ thresholds ops := by
  rw [← List.singleton_append, thresholds, List.filterMap_append]
  rfl

/-- whatever the threshold, a coadd sits on the grid of an exposure with its key, and every key has its coadd -/
theorem coadd_grids (x : K) (sp out : List (Spectrum ω β K)) (h : computeCoadd x sp = .ok out) :
    out.map (·.wavehash) = distinctKeys (sp.map (·.wavehash)) ∧ ∀ c ∈ out, ∃ e ∈ sp, e.wavehash = c.wavehash ∧ c.wave = e.wave := by
  unfold computeCoadd at h
  rw [firstSeen_eq] at h
  have hf := mapM_inv _ _ _ h
  have key : ∀ k c, coaddGroup x (sp.filter (fun s => decide (s.wavehash = k))) k = .ok c → c.wavehash = k ∧ ∃ e ∈ sp, e.wavehash = k ∧ c.wave = e.wave := by
    intro k c hc
    cases hl : sp.filter (fun s => decide (s.wavehash = k)) with
    | nil => rw [hl] at hc; simp [coaddGroup] at hc
    | cons e0 rest =>
      rw [hl] at hc
      have he0 : e0 ∈ sp.filter (fun s => decide (s.wavehash = k)) := by rw [hl]; exact List.mem_cons_self
      rw [List.mem_filter, decide_eq_true_eq] at he0
      unfold coaddGroup at hc
      dsimp only at hc
      split at hc
      · exact absurd hc (by simp [throw, throwThe, MonadExceptOf.throw, bind, Except.bind])
      · split at hc
        · exact absurd hc (by simp [throw, throwThe, MonadExceptOf.throw, bind, Except.bind, pure, Except.pure])
        · obtain ⟨gv, hgv, hret⟩ := Except.bind_ok _ _ _ hc
          simp only [pure, Except.pure, Except.ok.injEq] at hret
          subst hret
          exact ⟨rfl, e0, he0.1, he0.2, rfl⟩
  clear h
  generalize distinctKeys (sp.map (·.wavehash)) = keys at hf
  induction hf with
  | nil => exact ⟨rfl, fun c hc => absurd hc (by simp)⟩
  | @cons k c ks cs hkc _ ih =>
    obtain ⟨a, e, he, b, d⟩ := key _ _ hkc
    refine ⟨by rw [List.map_cons, a, ih.1], ?_⟩
    intro c' hc'
    rcases List.mem_cons.1 hc' with rfl | hc'
    · exact ⟨e, he, by rw [a, b], d⟩
    · exact ih.2 c' hc'

/-! ### C129 -/

/-- **C129** copies for the GPU and Legendre polynomials leave the spectra alone: after any calls the spectra are those after the coadds among them, and `bands` never changes. -/
theorem C129_spectra (poly : Nat → List K → List K) (t : State ω β K) (ops : List (Op K)) :
    (after poly t ops).spectra = coadds t.spectra (thresholds ops) ∧ (after poly t ops).bands = t.bands := by
  induction ops generalizing t with
  | nil => exact ⟨rfl, rfl⟩
  | cons op ops ih =>
    rw [after_cons, thresholds_cons, coadds_append, ← (after_one poly t op).1, ← (after_one poly t op).2]
    exact ih _

theorem after_gpu_some (poly : Nat → List K → List K) (t : State ω β K) (ops : List (Op K)) (g : List K × List K × List K) (h : t.gpu = some g) : (after poly t ops).gpu = some g := by
  induction ops generalizing t with
  | nil => exact h
  | cons op ops ih =>
    rw [after_cons]
    apply ih
    rw [after]
    cases op with
    | coadd x =>
      cases hc : computeCoadd x t.spectra with
      | ok sp => simp [step, hc, after, bind, Except.bind, pure, Except.pure, h]
      | error e => simp [step, hc, after, bind, Except.bind, h]
    | gpuData => simp [step, gpuData, h, after, bind, Except.bind, pure, Except.pure]
    | legendre n gpu => simp [step, after, h]

theorem after_gpu_none (poly : Nat → List K → List K) (t : State ω β K) (ops : List (Op K)) (h : t.gpu = none) (hno : Op.gpuData ∉ ops) : (after poly t ops).gpu = none := by
  induction ops generalizing t with
  | nil => exact h
  | cons op ops ih =>
    rw [List.mem_cons, not_or] at hno
    rw [after_cons]
    refine ih _ ?_ hno.2
    rw [after]
    cases op with
    | coadd x =>
      cases hc : computeCoadd x t.spectra with
      | ok sp => simp [step, hc, after, bind, Except.bind, pure, Except.pure, h]
      | error e => simp [step, hc, after, bind, Except.bind, h]
    | gpuData => exact absurd rfl hno.1
    | legendre n gpu => simp [step, after, h]

/-- **C129** (what the code does) the first call of `gpu_spectral_data` that succeeds returns the arrays of the spectra at that moment, and every later call returns these same arrays, whatever was called in between. -/
theorem C129_gpu_first (poly : Nat → List K → List K) (t t' : State ω β K) (hnew : t.gpu = none) (pre post : List (Op K)) (hpre : Op.gpuData ∉ pre) (o : Out ω K)
    (h : step poly (after poly t pre) .gpuData = .ok (t', o)) :
    ∃ w f wf, o = .data w f wf ∧ ArraysOf (coadds t.spectra (thresholds pre)) w f wf ∧ ∃ t2, step poly (after poly t (pre ++ .gpuData :: post)) .gpuData = .ok (t2, .data w f wf) := by
  have hg := after_gpu_none poly t pre hnew hpre
  have hs := (C129_spectra poly t pre).1
  have h0 := h
  simp only [step, gpuData, hg] at h
  by_cases h1 : (after poly t pre).spectra = []
  · rw [if_pos h1] at h; cases h
  rw [if_neg h1] at h
  split at h
  · cases h
  simp only [bind, Except.bind, pure, Except.pure, Except.ok.injEq, Prod.mk.injEq] at h
  obtain ⟨h2, h3⟩ := h
  refine ⟨_, _, _, h3.symm, ⟨by rw [← hs], by rw [← hs], rfl⟩, ?_⟩
  rw [after_append, after, h0]
  have hsome : t'.gpu = some (((after poly t pre).spectra.map (·.ivar)).flatten, ((after poly t pre).spectra.map (·.flux)).flatten, List.zipWith (· * ·) ((after poly t pre).spectra.map (·.ivar)).flatten ((after poly t pre).spectra.map (·.flux)).flatten) := by rw [← h2]
  have := after_gpu_some poly t' post _ hsome
  simp only [step, gpuData, this]
  exact ⟨_, rfl⟩

/-- **C129** (partial: no coadd after the first call) then `gpu_spectral_data` returns the arrays of the spectra the target has. Missing: a coadd after the first call, see `C129_gpu_stale_refuted`. -/
theorem C129_gpu_fresh_partial (poly : Nat → List K → List K) (t t' : State ω β K) (hnew : t.gpu = none) (pre post : List (Op K)) (hpre : Op.gpuData ∉ pre) (hpost : thresholds post = []) (o : Out ω K)
    (h : step poly (after poly t pre) .gpuData = .ok (t', o)) :
    ∃ w f wf t2, step poly (after poly t (pre ++ .gpuData :: post)) .gpuData = .ok (t2, .data w f wf) ∧ ArraysOf (after poly t (pre ++ .gpuData :: post)).spectra w f wf ∧ ArraysOf t2.spectra w f wf := by
  obtain ⟨w, f, wf, -, h2, t2, h3⟩ := C129_gpu_first poly t t' hnew pre post hpre o h
  have hs : (after poly t (pre ++ .gpuData :: post)).spectra = coadds t.spectra (thresholds pre) := by
    rw [(C129_spectra poly t _).1]
    have : thresholds (pre ++ .gpuData :: post) = thresholds pre := by
      have e : thresholds (pre ++ .gpuData :: post) = thresholds pre ++ thresholds (.gpuData :: post) := List.filterMap_append
      rw [e, thresholds_cons, hpost]
      simp [thresholds]
    rw [this]
  refine ⟨w, f, wf, t2, h3, by rw [hs]; exact h2, ?_⟩
  have hstep := after_one poly (after poly t (pre ++ .gpuData :: post)) .gpuData
  rw [after, h3] at hstep
  have e : t2.spectra = (after poly t (pre ++ .gpuData :: post)).spectra := hstep.1
  rw [e, hs]
  exact h2

/-! #### Legendre polynomials -/

theorem sameGrid_coadd (x : K) (sp out : List (Spectrum ω β K)) (hc : SameGrid sp) (h : computeCoadd x sp = .ok out) : SameGrid out := by
  intro c hcm c' hcm' he
  obtain ⟨-, hg⟩ := coadd_grids x sp out h
  obtain ⟨e, hem, h1, h2⟩ := hg c hcm
  obtain ⟨e', hem', h1', h2'⟩ := hg c' hcm'
  rw [h2, h2']
  exact hc e hem e' hem' (by rw [h1, h1', he])

theorem polysOf_coadd (poly : Nat → List K → List K) (x : K) (sp out : List (Spectrum ω β K)) (n : Nat) (d : PyDict ω (List (List K))) (h : computeCoadd x sp = .ok out) (hp : PolysOf poly sp n d) : PolysOf poly out n d := by
  obtain ⟨hk, hg⟩ := coadd_grids x sp out h
  refine ⟨?_, ?_⟩
  · intro c hc
    obtain ⟨e, he, h1, h2⟩ := hg c hc
    rw [← h1, h2]
    exact hp.1 e he
  · intro k
    rw [hp.2 k, hk, mem_distinctKeys]

theorem get?_map_val {κ ν ν' : Type} [DecidableEq κ] (d : PyDict κ ν) (f : ν → ν') (k : κ) : PyDict.get? (d.map (fun kv => (kv.1, f kv.2)) : PyDict κ ν') k = (PyDict.get? d k).map f := by
  induction d with
  | nil => rfl
  | cons a d ih =>
    obtain ⟨k0, v⟩ := a
    rw [List.map_cons, PyDict.get?_cons, PyDict.get?_cons, ih]
    split <;> rfl

theorem polysOf_legendreDict (poly : Nat → List K → List K) (sp : List (Spectrum ω β K)) (hc : SameGrid sp) (n : Nat) : PolysOf poly sp n (legendreDict poly sp n) := by
  have hget : ∀ k, PyDict.get? (sp.foldl (fun (d : PyDict ω (List K)) s => PyDict.set d s.wavehash s.wave) []) k = (sp.reverse.find? (fun s => decide (s.wavehash = k))).map (·.wave) := by
    intro k
    rw [PyDict.get?_foldl_set (fun s : Spectrum ω β K => s.wavehash) (fun s => s.wave)]
    simp [PyDict.get?_nil]
  have hget2 : ∀ k, PyDict.get? (legendreDict poly sp n) k = (sp.reverse.find? (fun s => decide (s.wavehash = k))).map (fun s => (List.range n).map (fun i => poly i s.wave)) := by
    intro k
    unfold legendreDict
    dsimp only
    rw [get?_map_val _ (fun w => (List.range n).map (fun i => poly i w)), hget, Option.map_map]
    rfl
  refine ⟨?_, ?_⟩
  · intro s hs
    rw [hget2]
    cases hf : sp.reverse.find? (fun s' => decide (s'.wavehash = s.wavehash)) with
    | none =>
      rw [List.find?_eq_none] at hf
      exact absurd (hf s (List.mem_reverse.2 hs)) (by simp)
    | some s' =>
      have h1 := List.find?_some hf
      have h2 := List.mem_of_find?_eq_some hf
      rw [decide_eq_true_eq] at h1
      rw [Option.map_some, hc s' (List.mem_reverse.1 h2) s hs h1]
  · intro k
    rw [PyDict.mem_keys_iff, hget2]
    cases hf : sp.reverse.find? (fun s' => decide (s'.wavehash = k)) with
    | none =>
      rw [List.find?_eq_none] at hf
      simp only [Option.map_none, Option.isSome_none, Bool.false_eq_true, List.mem_map, false_iff]
      rintro ⟨s, hs, rfl⟩
      exact absurd (hf s (List.mem_reverse.2 hs)) (by simp)
    | some s' =>
      have h1 := List.find?_some hf
      have h2 := List.mem_of_find?_eq_some hf
      rw [decide_eq_true_eq] at h1
      simp only [Option.map_some, Option.isSome_some, List.mem_map, true_iff]
      exact ⟨s', List.mem_reverse.1 h2, h1⟩

/-- the state of the polynomials kept on the CPU -/
def CpuOk (poly : Nat → List K → List K) (t : State ω β K) : Prop := SameGrid t.spectra ∧ ∀ l, t.leg.legendre = some l → PolysOf poly t.spectra t.leg.nleg l

theorem legendreCall_ok {V : Type} (P : Nat → V → Prop) (compute : Nat → V) (hcomp : ∀ n, P n (compute n)) (c : LegCache V) (hinv : ∀ l, c.legendre = some l → P c.nleg l) (n : Nat) (gpu : Bool) :
    (∀ l, (legendreCall compute c n gpu).1.legendre = some l → P (legendreCall compute c n gpu).1.nleg l) ∧ (gpu = false → P n (legendreCall compute c n gpu).2) := by
  obtain ⟨leg, gleg, m⟩ := c
  unfold legendreCall
  cases gpu <;> cases leg <;> cases gleg <;> by_cases hm : m = n <;> simp_all

theorem cpuOk_after (poly : Nat → List K → List K) (t : State ω β K) (ht : CpuOk poly t) (ops : List (Op K)) : CpuOk poly (after poly t ops) := by
  induction ops generalizing t with
  | nil => exact ht
  | cons op ops ih =>
    rw [after_cons]
    apply ih
    rw [after]
    cases op with
    | coadd x =>
      cases hc : computeCoadd x t.spectra with
      | ok sp =>
        simp only [step, hc, after, bind, Except.bind, pure, Except.pure]
        exact ⟨sameGrid_coadd x _ _ ht.1 hc, fun l hl => polysOf_coadd poly x _ _ _ _ hc (ht.2 l hl)⟩
      | error e =>
        simp only [step, hc, after, bind, Except.bind]
        exact ht
    | gpuData =>
      simp only [step, gpuData]
      cases hg : t.gpu with
      | some g => exact ht
      | none =>
        simp only []
        split_ifs <;> exact ht
    | legendre n gpu =>
      simp only [step, after]
      exact ⟨ht.1, (legendreCall_ok (PolysOf poly t.spectra) (legendreDict poly t.spectra) (polysOf_legendreDict poly _ ht.1) t.leg ht.2 n gpu).1⟩

/-- **C129** (partial: CPU) after any calls, coadds with any threshold among them, `legendre(n)` for the CPU returns the first `n` polynomials on the grids of the spectra the target has then, and of no others. Missing: calls for
the GPU, see `C44_stale_gpu`. -/
theorem C129_legendre_partial (poly : Nat → List K → List K) (spectra : List (Spectrum ω β K)) (hs : SameGrid spectra) (coadd : Bool) (nsig : K) (t : State ω β K) (hnew : new spectra coadd nsig = .ok t) (ops : List (Op K)) (n : Nat) :
    ∃ t' d, step poly (after poly t ops) (.legendre n false) = .ok (t', .polys d) ∧ PolysOf poly (after poly t ops).spectra n d := by
  have ht : CpuOk poly t := by
    unfold new mkTarget at hnew
    cases coadd with
    | false =>
      simp only [bind, Except.bind, pure, Except.pure, Bool.false_eq_true, if_false, Except.ok.injEq] at hnew
      subst hnew
      exact ⟨hs, fun l hl => by simp [LegCache.new] at hl⟩
    | true =>
      cases hc : computeCoadd nsig spectra with
      | error e => simp [hc, bind, Except.bind] at hnew
      | ok sp =>
        simp only [hc, bind, Except.bind, pure, Except.pure, if_true, Except.ok.injEq] at hnew
        subst hnew
        exact ⟨sameGrid_coadd nsig _ _ hs hc, fun l hl => by simp [LegCache.new] at hl⟩
  have h := cpuOk_after poly t ht ops
  exact ⟨_, _, rfl, (legendreCall_ok (PolysOf poly _) (legendreDict poly _) (polysOf_legendreDict poly _ h.1) _ h.2 n false).2 rfl⟩

/-! #### repeated coadds -/

theorem forall₂_refl {α : Type} (R : α → α → Prop) (h : ∀ a, R a a) : ∀ l : List α, List.Forall₂ R l l
  | [] => .nil
  | a :: l => .cons (h a) (forall₂_refl R h l)

theorem forall₂_trans {α : Type} (R : α → α → Prop) (h : ∀ a b c, R a b → R b c → R a c) {l1 l2 l3 : List α} (h12 : List.Forall₂ R l1 l2) (h23 : List.Forall₂ R l2 l3) : List.Forall₂ R l1 l3 := by
  induction h12 generalizing l3 with
  | nil => cases h23; exact .nil
  | cons hab _ ih =>
    cases h23 with
    | cons hbc htl => exact .cons (h _ _ _ hab hbc) (ih htl)

theorem Eroded.refl (e : Spectrum ω β K) : Eroded e e := ⟨rfl, rfl, rfl, rfl, fun _ _ => .inl rfl, fun _ _ _ _ => .inl rfl⟩

theorem Eroded.trans (a b c : Spectrum ω β K) (h : Eroded a b) (g : Eroded b c) : Eroded a c := by
  refine ⟨by rw [g.wave, h.wave], by rw [g.flux, h.flux], by rw [g.wavehash, h.wavehash], by rw [g.band, h.band], ?_, ?_⟩
  · intro j hj
    rcases g.ivar j (by rw [h.wave]; exact hj) with q | q
    · rw [q]; exact h.ivar j hj
    · exact .inr q
  · intro i j hi hj
    rcases g.res i j (by rw [h.wave]; exact hi) (by rw [h.wave]; exact hj) with q | q
    · rw [q]; exact h.res i j hi hj
    · exact .inr q

theorem Equivalent.refl (e : Spectrum ω β K) : Equivalent e e := ⟨rfl, rfl, rfl, rfl, fun _ _ => rfl, fun _ _ _ _ => rfl⟩

theorem Equivalent.trans (a b c : Spectrum ω β K) (h : Equivalent a b) (g : Equivalent b c) : Equivalent a c := by
  refine ⟨by rw [g.wave, h.wave], by rw [g.flux, h.flux], by rw [g.wavehash, h.wavehash], by rw [g.band, h.band], ?_, ?_⟩
  · intro j hj
    rw [g.ivar j (by rw [h.wave]; exact hj)]; exact h.ivar j hj
  · intro i j hi hj
    rw [g.res i j (by rw [h.wave]; exact hi) (by rw [h.wave]; exact hj)]; exact h.res i j hi hj

/-- the spectra after a first coadd: arrays of the right lengths, one spectrum per grid -/
def Single (sp : List (Spectrum ω β K)) : Prop := (∀ e ∈ sp, ShapedExp e) ∧ (sp.map (·.wavehash)).Nodup

theorem Single.compatible {sp : List (Spectrum ω β K)} (h : Single sp) : Compatible sp := by
  intro e he e' he' hw
  have : e = e' := List.inj_on_of_nodup_map h.2 he he' hw
  subst this
  exact ⟨rfl, rfl, rfl⟩

theorem single_coadd (x : K) (hx : x ≤ 0) (sp : List (Spectrum ω β K)) (hs : ∀ e ∈ sp, ShapedExp e) (hc : Compatible sp) : ∃ out, computeCoadd x sp = .ok out ∧ Single out := by
  obtain ⟨out, h1, h2, h3⟩ := C41_coadd x hx sp hs hc
  exact ⟨out, h1, fun c hcm => (h3 c hcm).shaped, by rw [h2]; exact nodup_distinctKeys _⟩

theorem single_step (x : K) (hx : x ≤ 0) (sp : List (Spectrum ω β K)) (h : Single sp) : ∃ out, computeCoadd x sp = .ok out ∧ Single out ∧ List.Forall₂ (fun e c => Eroded e c ∧
      (∀ i j, i < e.wave.length → j < e.wave.length → c.R.entry i j = if e.ivar.getD j 0 = 0 then 0 else e.R.entry i j) ∧
      (∀ i < e.wave.length, c.ivar.getD i 0 = if ∑ j ∈ Finset.range e.wave.length, (if e.ivar.getD j 0 = 0 then 0 else e.R.entry i j) < 99 / 100 then 0 else e.ivar.getD i 0)) sp out := by
  obtain ⟨out, h1, h2⟩ := C41_single x hx sp h.1 h.2
  obtain ⟨out', h1', h3⟩ := single_coadd x hx sp h.1 h.compatible
  rw [h1] at h1'
  cases h1'
  refine ⟨out, h1, h3, h2.imp ?_⟩
  rintro e c ⟨a1, a2, a3, a4, a5, a6⟩
  refine ⟨⟨a1, a2, a3, a4, ?_, ?_⟩, a5, a6⟩
  · intro j hj
    rw [a6 j hj]
    split
    · exact .inr rfl
    · exact .inl rfl
  · intro i j hi hj
    rw [a5 i j hi hj]
    split
    · exact .inr rfl
    · exact .inl rfl

theorem single_coadds (xs : List K) (hx : ∀ x ∈ xs, x ≤ 0) (sp : List (Spectrum ω β K)) (h : Single sp) : Single (coadds sp xs) ∧ List.Forall₂ Eroded sp (coadds sp xs) := by
  induction xs generalizing sp with
  | nil => exact ⟨h, forall₂_refl _ Eroded.refl _⟩
  | cons x xs ih =>
    obtain ⟨out, h1, h2, h3⟩ := single_step x (hx x List.mem_cons_self) sp h
    obtain ⟨i1, i2⟩ := ih (fun y hy => hx y (List.mem_cons_of_mem _ hy)) out h2
    rw [coadds, h1]
    exact ⟨i1, forall₂_trans _ Eroded.trans (h3.imp fun _ _ q => q.1) i2⟩

/-- **C129** without cosmic rejection: whatever number of coadds follows the first one (and whatever else is called), they never fail, keep the spectra, their order, grids, bands and fluxes, and can only mask more pixels and
clear columns of the resolution. -/
theorem C129_coadd_again (poly : Nat → List K → List K) (t : State ω β K) (hs : ∀ e ∈ t.spectra, ShapedExp e) (hc : Compatible t.spectra) (x : K) (ops : List (Op K)) (hx : ∀ y ∈ thresholds (.coadd x :: ops), y ≤ 0) :
    ∃ first, computeCoadd x t.spectra = .ok first ∧ List.Forall₂ Eroded first (after poly t (.coadd x :: ops)).spectra := by
  have hx0 : x ≤ 0 := hx x (by rw [thresholds_cons]; simp [thresholds])
  obtain ⟨first, h1, h2⟩ := single_coadd x hx0 t.spectra hs hc
  refine ⟨first, h1, ?_⟩
  rw [(C129_spectra poly t _).1, thresholds_cons, coadds_append]
  have e : coadds t.spectra (thresholds [Op.coadd x]) = first := by simp [thresholds, coadds, h1]
  rw [e]
  exact (single_coadds _ (fun y hy => hx y (by rw [thresholds_cons]; exact List.mem_append_right _ hy)) first h2).2

/-- same inverse variances -/
def SameIvar (a b : Spectrum ω β K) : Prop := ∀ j < a.wave.length, b.ivar.getD j 0 = a.ivar.getD j 0

theorem stable_step (x y : K) (hx : x ≤ 0) (hy : y ≤ 0) (sp s1 : List (Spectrum ω β K)) (h : Single sp) (h1 : computeCoadd x sp = .ok s1) (hsame : List.Forall₂ SameIvar sp s1) :
    ∃ s2, computeCoadd y s1 = .ok s2 ∧ Single s1 ∧ List.Forall₂ Equivalent s1 s2 := by
  obtain ⟨s1', h1', hS1, f1⟩ := single_step x hx sp h
  rw [h1] at h1'
  cases h1'
  obtain ⟨s2, h2, hS2, f2⟩ := single_step y hy s1 hS1
  refine ⟨s2, h2, hS1, ?_⟩
  clear h1 h2 hS1 hS2 h
  induction f1 generalizing s2 with
  | nil => cases f2; exact .nil
  | @cons e c es cs hec _ ih =>
    cases f2 with
    | @cons _ c2 _ cs2 hcc hrest =>
      cases hsame with
      | cons hq hsrest =>
        refine .cons ?_ (ih hsrest _ hrest)
        obtain ⟨a, a5, a6⟩ := hec
        obtain ⟨b, b5, b6⟩ := hcc
        have hR : ∀ i j, i < c.wave.length → j < c.wave.length → (if c.ivar.getD j 0 = 0 then 0 else c.R.entry i j) = c.R.entry i j := by
          intro i j hi hj
          split
          · rename_i hz
            rw [a.wave] at hi hj
            rw [a5 i j hi hj, if_pos (by rw [← hq j hj]; exact hz)]
          · rfl
        refine ⟨b.wave, b.flux, b.wavehash, b.band, ?_, ?_⟩
        · intro i hi
          rw [b6 i hi]
          have hi' := hi
          rw [a.wave] at hi'
          have hsum : ∑ j ∈ Finset.range c.wave.length, (if c.ivar.getD j 0 = 0 then 0 else c.R.entry i j) = ∑ j ∈ Finset.range e.wave.length, (if e.ivar.getD j 0 = 0 then 0 else e.R.entry i j) := by
            rw [a.wave]
            apply Finset.sum_congr rfl
            intro j hj
            have hj := Finset.mem_range.1 hj
            rw [hR i j hi (by rw [a.wave]; exact hj), a5 i j hi' hj]
          rw [hsum]
          split
          · rename_i hlt
            rw [a6 i hi', if_pos hlt]
          · rfl
        · intro i j hi hj
          rw [b5 i j hi hj, hR i j hi hj]

theorem Equivalent.sameIvar {a b : Spectrum ω β K} (h : Equivalent a b) : SameIvar a b := h.ivar

theorem stable_coadds (ys : List K) (hy : ∀ y ∈ ys, y ≤ 0) (x : K) (hx : x ≤ 0) (sp s1 : List (Spectrum ω β K)) (h : Single sp) (h1 : computeCoadd x sp = .ok s1) (hsame : List.Forall₂ SameIvar sp s1) :
    List.Forall₂ Equivalent s1 (coadds s1 ys) := by
  induction ys generalizing sp s1 x with
  | nil => exact forall₂_refl _ Equivalent.refl _
  | cons y ys ih =>
    obtain ⟨s2, h2, hS, heq⟩ := stable_step x y hx (hy y List.mem_cons_self) sp s1 h h1 hsame
    rw [coadds, h2]
    exact forall₂_trans _ Equivalent.trans heq (ih (fun z hz => hy z (List.mem_cons_of_mem _ hz)) y (hy y List.mem_cons_self) s1 s2 hS h2 (heq.imp fun _ _ q => q.sameIvar))

/-- **C129** (partial: a coadd that masks nothing new) if a coadd after the first leaves every inverse variance as it was, all coadds after it change nothing. Missing: coadds that mask more, see `C129_again_refuted`. -/
theorem C129_coadd_stable_partial (sp : List (Spectrum ω β K)) (hs : ∀ e ∈ sp, ShapedExp e) (hc : Compatible sp) (x : K) (xs : List K) (y : K) (ys : List K) (hx : ∀ z ∈ x :: xs ++ y :: ys, z ≤ 0)
    (hsame : List.Forall₂ SameIvar (coadds sp (x :: xs)) (coadds sp (x :: xs ++ [y]))) :
    List.Forall₂ Equivalent (coadds sp (x :: xs ++ [y])) (coadds sp (x :: xs ++ y :: ys)) := by
  obtain ⟨out, h1, h2⟩ := single_coadd x (hx x (by simp)) sp hs hc
  have hS : Single (coadds sp (x :: xs)) := by
    rw [coadds, h1]
    exact (single_coadds xs (fun z hz => hx z (by simp [hz])) out h2).1
  obtain ⟨s1, g1, -⟩ := single_step y (hx y (by simp)) _ hS
  have e1 : coadds sp (x :: xs ++ [y]) = s1 := by rw [coadds_append, coadds, g1]; rfl
  have e2 : coadds sp (x :: xs ++ y :: ys) = coadds s1 ys := by rw [coadds_append, coadds, g1]
  rw [e1] at hsame ⊢
  rw [e2]
  exact stable_coadds ys (fun z hz => hx z (by simp [hz])) y (hx y (by simp)) _ s1 hS g1 hsame

/-- pixels in use -/
def used (sp : List (Spectrum ω β K)) : Nat := (sp.map (fun e => ((List.range e.wave.length).filter (fun j => decide (e.ivar.getD j 0 ≠ 0))).length)).sum

theorem filter_le {α : Type} (p q : α → Bool) (l : List α) (h : ∀ a ∈ l, q a = true → p a = true) : (l.filter q).length ≤ (l.filter p).length ∧ ((l.filter q).length = (l.filter p).length → ∀ a ∈ l, q a = p a) := by
  induction l with
  | nil => exact ⟨le_rfl, fun _ a ha => absurd ha (by simp)⟩
  | cons a l ih =>
    obtain ⟨i1, i2⟩ := ih (fun b hb => h b (List.mem_cons_of_mem _ hb))
    have ha := h a List.mem_cons_self
    rw [List.filter_cons, List.filter_cons]
    cases hq : q a <;> cases hp : p a
    · simp only [Bool.false_eq_true, if_false]
      refine ⟨i1, fun he b hb => ?_⟩
      rcases List.mem_cons.1 hb with rfl | hb
      · rw [hq, hp]
      · exact i2 he b hb
    · simp only [Bool.false_eq_true, if_false, if_true, List.length_cons]
      exact ⟨by omega, fun he => by omega⟩
    · rw [hq, hp] at ha
      exact absurd (ha rfl) (by simp)
    · simp only [if_true, List.length_cons]
      refine ⟨by omega, fun he b hb => ?_⟩
      rcases List.mem_cons.1 hb with rfl | hb
      · rw [hq, hp]
      · exact i2 (by omega) b hb

theorem eroded_used {a b : List (Spectrum ω β K)} (h : List.Forall₂ Eroded a b) : used b ≤ used a ∧ (used b = used a → List.Forall₂ SameIvar a b) := by
  induction h with
  | nil => exact ⟨le_rfl, fun _ => .nil⟩
  | @cons e c es cs hec _ ih =>
    have hf := filter_le (fun j => decide (e.ivar.getD j 0 ≠ 0)) (fun j => decide (c.ivar.getD j 0 ≠ 0)) (List.range e.wave.length) (by
      intro j hj hq
      rw [decide_eq_true_eq] at hq ⊢
      rcases hec.ivar j (List.mem_range.1 hj) with r | r
      · rw [← r]; exact hq
      · exact absurd r hq)
    have e1 : used (e :: es) = ((List.range e.wave.length).filter (fun j => decide (e.ivar.getD j 0 ≠ 0))).length + used es := rfl
    have e2 : used (c :: cs) = ((List.range e.wave.length).filter (fun j => decide (c.ivar.getD j 0 ≠ 0))).length + used cs := by
      rw [← hec.wave]; rfl
    rw [e1, e2]
    refine ⟨by omega, fun he => .cons ?_ (ih.2 (by omega))⟩
    intro j hj
    have := hf.2 (by omega) j (List.mem_range.2 hj)
    rcases hec.ivar j hj with r | r
    · exact r
    · rw [r]
      by_contra hne
      have h2 : decide (c.ivar.getD j 0 ≠ 0) = true := by rw [this, decide_eq_true_eq]; exact fun h => hne h.symm
      rw [decide_eq_true_eq] at h2
      exact h2 r

/-- **C129** repeated coadds settle: after at most as many coadds as the first coadd has pixels in use, plus two, no further coadd changes anything. -/
theorem C129_coadd_settles (sp : List (Spectrum ω β K)) (hs : ∀ e ∈ sp, ShapedExp e) (hc : Compatible sp) : ∃ first, computeCoadd 0 sp = .ok first ∧
    ∃ k ≤ used first + 2, ∀ ys : List K, (∀ y ∈ ys, y ≤ 0) → List.Forall₂ Equivalent (coadds sp (List.replicate k 0)) (coadds sp (List.replicate k 0 ++ ys)) := by
  obtain ⟨first, h1, h2⟩ := single_coadd (0 : K) le_rfl sp hs hc
  refine ⟨first, h1, ?_⟩
  have gen : ∀ (m : Nat) (s : List (Spectrum ω β K)), Single s → used s ≤ m → ∃ k ≤ m + 1, ∀ ys : List K, (∀ y ∈ ys, y ≤ 0) → List.Forall₂ Equivalent (coadds s (List.replicate k 0)) (coadds s (List.replicate k 0 ++ ys)) := by
    intro m
    induction m with
    | zero =>
      intro s hS hm
      obtain ⟨out, g1, g2, g3⟩ := single_step (0 : K) le_rfl s hS
      have hu := eroded_used (g3.imp fun _ _ q => q.1)
      refine ⟨1, le_rfl, fun ys hy => ?_⟩
      rw [coadds_append]
      have : coadds s (List.replicate 1 0) = out := by simp [coadds, g1]
      rw [this]
      exact stable_coadds ys hy 0 le_rfl s out hS g1 (hu.2 (by omega))
    | succ m ih =>
      intro s hS hm
      obtain ⟨out, g1, g2, g3⟩ := single_step (0 : K) le_rfl s hS
      have hu := eroded_used (g3.imp fun _ _ q => q.1)
      by_cases he : used out = used s
      · refine ⟨1, by omega, fun ys hy => ?_⟩
        rw [coadds_append]
        have : coadds s (List.replicate 1 0) = out := by simp [coadds, g1]
        rw [this]
        exact stable_coadds ys hy 0 le_rfl s out hS g1 (hu.2 he)
      · obtain ⟨k, hk, hall⟩ := ih out g2 (by omega)
        refine ⟨k + 1, by omega, fun ys hy => ?_⟩
        have : ∀ zs, coadds s (List.replicate (k + 1) 0 ++ zs) = coadds out (List.replicate k 0 ++ zs) := by
          intro zs
          rw [List.replicate_succ, List.cons_append, coadds, g1]
        have h0 := this []
        rw [List.append_nil, List.append_nil] at h0
        rw [h0, this]
        exact hall ys hy
  obtain ⟨k, hk, hall⟩ := gen (used first) first h2 le_rfl
  refine ⟨k + 1, by omega, fun ys hy => ?_⟩
  have : ∀ zs, coadds sp (List.replicate (k + 1) 0 ++ zs) = coadds first (List.replicate k 0 ++ zs) := by
    intro zs
    rw [List.replicate_succ, List.cons_append, coadds, h1]
  have h0 := this []
  rw [List.append_nil, List.append_nil] at h0
  rw [h0, this]
  exact hall ys hy

/-! ### Examples and refutations -/

/-- the target of `exExposures` without coadd -/
def exState : State String String ℚ := ⟨exExposures, ["b", "r", "b"], none, LegCache.new⟩

def polyEx : Nat → List ℚ → List ℚ := fun i w => w.map (fun x => x ^ i)

example : new exExposures false 0 = .ok exState := rfl

example : SameGrid exExposures := by unfold SameGrid; decide +kernel

def outData (r : Py (State String String ℚ × Out String ℚ)) : Option (List ℚ × List ℚ × List ℚ) :=
  match r with
  | .ok (_, .data w f wf) => some (w, f, wf)
  | _ => none

/-- **C129** (refuted) `gpu_spectral_data`, then `compute_coadd`, then `gpu_spectral_data` again: seven pixels of the three exposures, while the target now has two spectra with five pixels. -/
theorem C129_gpu_stale_refuted : outData (step polyEx (after polyEx exState [.gpuData, .coadd 0]) .gpuData) = some ([1, 0, 1, 0, 2, 3, 0], [1, 2, 7, 8, 9, 3, 5], [1, 0, 7, 0, 18, 9, 0]) ∧
    (after polyEx exState [.gpuData, .coadd 0]).spectra.map (fun s => (s.ivar, s.flux)) = [([4, 0], [5/2, 7/2]), ([1, 0, 2], [7, 8, 9])] := by
  constructor <;> decide +kernel

/-- **C129** (refuted) coadding again is not neutral: the second coadd of `exMasked`, an exposure with one masked pixel of five, masks the whole spectrum. -/
theorem C129_again_refuted : (coadds [exMasked] [(0 : ℚ)]).map (·.ivar) = [[1, 0, 0, 0, 1]] ∧ (coadds [exMasked] [(0 : ℚ), 0]).map (·.ivar) = [[0, 0, 0, 0, 0]] ∧ (coadds [exMasked] [(0 : ℚ), 0]).map (·.flux) = [[1, 2, 3, 4, 5]] := by
  refine ⟨?_, ?_, ?_⟩ <;> decide +kernel

/-- a case of `C129_coadd_stable_partial` -/
example : List.Forall₂ SameIvar (coadds exExposures [(0 : ℚ)]) (coadds exExposures ([(0 : ℚ)] ++ [0])) := by
  have e1 : coadds exExposures [(0 : ℚ)] = [⟨[1, 2], [5/2, 7/2], [4, 0], ⟨[0], [[1, 0]]⟩, "b", "b"⟩, ⟨[3, 4, 5], [7, 8, 9], [1, 0, 2], ⟨[0], [[1, 0, 1]]⟩, "r", "r"⟩] := by decide +kernel
  have e2 : coadds exExposures [(0 : ℚ), 0] = coadds exExposures [(0 : ℚ)] := by decide +kernel
  rw [List.cons_append, List.nil_append, e2]
  exact forall₂_refl _ (fun _ _ _ => rfl) _

/-- a case of `C129_gpu_first` -/
example : outData (step polyEx (after polyEx exState [.coadd 0, .legendre 2 false]) .gpuData) = some ([4, 0, 1, 0, 2], [5/2, 7/2, 7, 8, 9], [10, 0, 7, 0, 18]) := by decide +kernel

end Redrock.TargetHist
