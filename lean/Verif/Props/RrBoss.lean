import Verif.Model.RrBoss
import Verif.Props.Boss
import Verif.Props.Meta
import Verif.Props.DistTargets
import Verif.Props.Zbest
import Verif.Props.Wave

/-! Property C121: `rrboss` from the spPlate files to the published catalogue. -/
set_option linter.unusedSectionVars false
namespace Redrock
namespace RrBossRun
open FullRun Catalogue Run Wave Boss

section
variable {K : Type} [Field K] [LinearOrder K] [FloorRing K]

/-! ### specification -/

/-- The targets in the files: exactly those that have a fibre and were asked for, by increasing ID, each with the spectra of its own fibres in all files (`FileSpectra`), and the common plate and MJD. -/
structure InFiles (p : RrBoss K) (plates : List (SpPlate K)) (ts : List (Int × List (BossSpec K) × PyStr)) : Prop where
  increasing : (ts.map (·.1)).Pairwise (· < ·)
  exactly : ∀ t, t ∈ ts.map (·.1) ↔ (∀ ids, p.opts.targetids = some ids → t ∈ ids) ∧ ∃ file ∈ plates.flatMap (·.infiles), ∃ fib ∈ fibersOf p.opts file, IsId plates file fib t
  spectra : ∀ t ss b, (t, ss, b) ∈ ts → ∃ blocks, ss = blocks.flatten ∧ List.Forall₂ (FileSpectra p.exp p.opts plates t) (plates.flatMap (·.infiles)) blocks
  brick : ∀ t ss b, (t, ss, b) ∈ ts → ∃ pl mj, IsCommon (plates.map (·.plate)) pl ∧ IsCommon (plates.map (·.mjd)) mj ∧ b = (p.fmt pl ++ ['-'] ++ p.fmt mj).take 8

/-- the part of the targets that is processed: all, or with `-n` the given number from `--mintarget` on (from the first if that is not given) -/
def processed (p : RrBoss K) {V : Type} (ts : List V) : List V :=
  match p.ntargets with
  | none => ts
  | some n => (ts.drop (p.mintarget.getD 0)).take n

/-- what the fit uses of a spectrum: its own wavelengths, flux, inverse variance, and the resolution matrix with its rows as rows -/
structure FittedOn {ω β : Type} (s : Spectrum ω β K) (q : FitSpectrum (List K) K) : Prop where
  grid : q.wavehash = s.wave
  flux : q.flux = s.flux
  ivar : q.ivar = s.ivar
  size : q.R.length = s.flux.length
  rows : ∀ i (h : i < q.R.length), q.R[i].length = s.flux.length
  entry : ∀ i j (h : i < q.R.length) (h' : j < q.R[i].length), q.R[i][j] = s.R.entry i j

/-- what is fitted, from the spectra of a target: these, or their coadds grid by grid -/
def Fitted (p : RrBoss K) (ss : List (BossSpec K)) (sp : List (FitSpectrum (List K) K)) : Prop :=
  ∃ keys full, List.Forall₂ (fun (s : BossSpec K) k => waveKey (β := Empty) p.hash none s.wave (some s.R.data.length) = .ok k) ss keys ∧
    (if p.allspec then full = List.zipWith (fun s k => mkSpectrum s.wave s.flux s.ivar s.R k ()) ss keys
     else computeCoadd 0 (List.zipWith (fun s k => mkSpectrum s.wave s.flux s.ivar s.R k ()) ss keys) = .ok full) ∧
    List.Forall₂ FittedOn full sp

/-- the published row `r` of the target `t`: the first row of the measurement of its own spectra with the templates binned on their own wavelengths, and its `BRICKNAME` -/
def IsRow (p : RrBoss K) (t : Int × List (BossSpec K) × PyStr) (r : CatRow K) : Prop :=
  ∃ sp, Fitted p t.2.1 sp ∧ ∃ T best row, measureTarget (measureCfg p.fit t.1) (p.fit.templates.map (·.2)) sp = .ok T ∧ T.head? = some best ∧ Catalogue.SameRow best row ∧
    r.base = ⟨t.1, row, p.method row.spectype row.subtype⟩ ∧ r.extra = [.str t.2.2]

/-- the published table with the rows `best` -/
def bossTable {K : Type} (best : List (CatRow K)) : Tab K :=
  [("TARGETID".toList, best.map (fun r => .int r.base.targetid)),
   ("Z".toList, best.map (fun r => .flt r.base.row.z)),
   ("ZERR".toList, best.map (fun r => .flt r.base.row.zerr)),
   ("ZWARN".toList, best.map (fun r => .int r.base.row.zwarn)),
   ("CHI2".toList, best.map (fun r => .flt r.base.row.chi2)),
   ("COEFF".toList, best.map (fun r => .arr r.base.row.coeff)),
   ("FITMETHOD".toList, best.map (fun r => .str r.base.fitmethod.toList)),
   ("NPIXELS".toList, best.map (fun r => .int r.base.row.npixels)),
   ("SPECTYPE".toList, best.map (fun r => .str r.base.row.spectype.toList)),
   ("SUBTYPE".toList, best.map (fun r => .str r.base.row.subtype.toList)),
   ("NCOEFF".toList, best.map (fun r => .int r.base.row.ncoeff)),
   ("DELTACHI2".toList, best.map (fun r => .flt r.base.row.deltachi2)),
   ("BRICKNAME".toList, best.map (fun r => r.extra.getD 0 (.str [])))]

/-- the targets of the run with their spectra, as pairs -/
def pairsOf {ι T : Type} (targets : List (LTarget ι T)) : List (ι × T) := targets.map (fun t => (t.id, t.data))

/-- The run can be started on these targets: templates that cover their wavelengths, and no two different grids with the same wavehash (`C120`). -/
structure GoodStart (p : RrBoss K) (plates : List (SpPlate K)) : Prop where
  fit : ∀ targets, rrbossTargets p plates = .ok targets → GoodRun p.fit (gridsOf ((pairsOf targets).map ownTarget))
  grids : ∀ targets, rrbossTargets p plates = .ok targets → SameGrids (pairsOf targets)
  nminima : 1 ≤ p.fit.nminima

/-- The way of running: on MPI ranks with a complete run of the ring; or in one process, if no target has more spectra than one with a smaller ID. -/
def GoodWay (p : RrBoss K) (plates : List (SpPlate K)) : RrDesiWay K → Prop
  | .serial => ∀ targets, rrbossTargets p plates = .ok targets → targets.Pairwise (fun a b => b.nspec ≤ a.nspec)
  | .mpi size log => 0 < size ∧ ∀ t ∈ p.fit.templates, RingRun t.2.redshifts size (log ⟨t.1, t.2.redshifts⟩)

end

/-! ### the run -/

section
variable {ι κ K σ M : Type} [DecidableEq ι] [DecidableEq κ] [Field K] [LinearOrder K]

theorem localRank_aligned (c : FullCfg ι (List K) K σ) (d : PyDict κ (List K)) (L : LocalTargets ι (List (WSpectrum κ K) × M)) (pieces : RunTemplate K → List (Piece K)) (h : L.myData.map (·.id) = L.myTargets) :
    localRank c d L pieces = waveRank c d L.pairs pieces := by
  have : L.myTargets = L.pairs.map (·.1) := by
    rw [← h]
    unfold LocalTargets.pairs
    rw [List.map_map]
    rfl
  unfold localRank waveRank
  rw [this]

theorem copyFits_serial (c : FullCfg ι (List K) K σ) (targets : List (LTarget ι (List (WSpectrum κ K) × M))) (hn : (targets.map (·.id)).Nodup) (hs : targets.Pairwise (fun a b => b.nspec ≤ a.nspec)) :
    copyFits c targets .serial = waveFits c (pairsOf targets) (targets.map (·.id)) .serial := by
  unfold copyFits
  simp only
  rw [C11_copied_targets_serial_partial targets hn hs]
  simp only [bind, Except.bind]
  rw [localRank_aligned _ _ _ _ rfl]
  rfl

theorem mapM_range {α : Type} (f : Nat → Py α) (g : Nat → α) (n : Nat) (h : ∀ r, r < n → f r = .ok (g r)) : (List.range n).mapM f = .ok ((List.range n).map g) := by
  have : ∀ (l : List Nat), (∀ r ∈ l, r < n) → l.mapM f = .ok (l.map g) := by
    intro l
    induction l with
    | nil => intro _; rfl
    | cons a l ih =>
      intro hl
      rw [List.mapM_cons, h a (hl a (by simp)), ih (fun r hr => hl r (by simp [hr]))]
      rfl
  exact this _ (fun r hr => List.mem_range.1 hr)

theorem copyFits_mpi (c : FullCfg ι (List K) K σ) (targets : List (LTarget ι (List (WSpectrum κ K) × M))) (hn : (targets.map (·.id)).Nodup) (size : Nat) (hsize : 0 < size)
    (log : RunTemplate K → Nat → List (Piece K)) :
    ∃ locs, locs.length = size ∧ locs.flatten.Perm (pairsOf targets) ∧ copyFits c targets (.mpi size log) = waveFits c (pairsOf targets) (targets.map (·.id)) (.mpi locs log) := by
  obtain ⟨L, h1, h2, h3, h4⟩ := C11_copied_targets_mpi_partial targets hn size hsize
  refine ⟨(List.range size).map (fun r => (L r).pairs), by simp, ?_, ?_⟩
  · have := h4.map (fun t => (t.id, t.data))
    rw [List.map_flatMap] at this
    exact this
  · unfold copyFits
    simp only
    rw [mapM_range _ L size h1]
    simp only [bind, Except.bind]
    unfold waveFits
    simp only [bind, Except.bind]
    rw [show ((List.range size).map (fun r => (L r).pairs)).zipIdx = ((List.range size).map L).zipIdx.map (fun lr => (lr.1.pairs, lr.2)) by
      rw [show (List.range size).map (fun r => (L r).pairs) = ((List.range size).map L).map LocalTargets.pairs by rw [List.map_map]; rfl, List.zipIdx_map]; rfl, mapM_map']
    have e1 : ((List.range size).map (fun r => (L r).pairs)).map wavePairs = ((List.range size).map L).map (fun L => wavePairs L.pairs) := by rw [List.map_map, List.map_map]; rfl
    rw [e1]
    have e2 : ∀ lr ∈ ((List.range size).map L).zipIdx, localRank c (wavegridsMpi (((List.range size).map L).map (fun L => wavePairs L.pairs))) lr.1 (fun t => log t lr.2) =
        waveRank c (wavegridsMpi (((List.range size).map L).map (fun L => wavePairs L.pairs))) lr.1.pairs (fun t => log t lr.2) := by
      rintro ⟨x, r⟩ hx
      obtain ⟨_, hlt, hx'⟩ := List.mem_zipIdx hx
      simp only [List.length_map, List.length_range, Nat.zero_add] at hlt
      simp only [List.getElem_map, List.getElem_range, Nat.sub_zero] at hx'
      apply localRank_aligned
      rw [hx']
      exact h3 r hlt
    rw [mapM_congr' _ _ _ e2]
    have e3 : npGet ((List.range size).map L) 0 = .ok (L 0) := by
      rw [npGet_ok, List.getElem?_map, List.getElem?_range hsize]
      rfl
    rw [e3]
    simp only []
    rw [h2 0 hsize]

end

section
variable {K : Type} [Field K] [LinearOrder K] [IsStrictOrderedRing K] [FloorRing K]

theorem rrbossSelect_processed (p : RrBoss K) {V : Type} (ts : List V) : rrbossSelect p.mintarget p.ntargets ts = processed p ts := by
  unfold rrbossSelect processed
  cases p.ntargets <;> cases p.mintarget <;> rfl

theorem processed_map (p : RrBoss K) {V W : Type} (f : V → W) (ts : List V) : (processed p ts).map f = processed p (ts.map f) := by
  unfold processed
  cases p.ntargets with
  | none => rfl
  | some n => simp only [List.map_take, List.map_drop]

theorem processed_sublist (p : RrBoss K) {V : Type} (ts : List V) : (processed p ts).Sublist ts := by
  unfold processed
  cases p.ntargets with
  | none => exact List.Sublist.refl _
  | some n => exact (List.take_sublist _ _).trans (List.drop_sublist _ _)

theorem processed_forall₂ (p : RrBoss K) {V W : Type} (R : V → W → Prop) (l : List V) (l' : List W) (h : List.Forall₂ R l l') : List.Forall₂ R (processed p l) (processed p l') := by
  unfold processed
  cases p.ntargets with
  | none => exact h
  | some n => exact List.forall₂_take n (List.forall₂_drop _ h)

theorem inFiles (p : RrBoss K) (plates : List (SpPlate K)) (ts : List (Int × List (BossSpec K) × PyStr)) (h : bossReadSpectra p.exp p.fmt p.opts plates = .ok ts) : InFiles p plates ts := by
  obtain ⟨h1, h2, _, h4⟩ := C88_spectra p.exp p.fmt p.opts plates ts h
  exact ⟨h1, h2, h4, C88_brickname p.exp p.fmt p.opts plates ts h⟩

theorem bossTarget_ok (p : RrBoss K) (t : Int × List (BossSpec K) × PyStr) (L : LTarget Int (List (WSpectrum (WaveKey Empty) K) × PyStr)) (h : bossTarget p t = .ok L) :
    L.id = t.1 ∧ L.data.2 = t.2.2 ∧ L.nspec = L.data.1.length ∧ Fitted p t.2.1 (L.data.1.map own) := by
  unfold bossTarget at h
  cases hs : t.2.1.mapM (bossSpectrum p.hash) with
  | error e => rw [hs] at h; cases h
  | ok sp =>
    rw [hs] at h
    simp only [bind, Except.bind] at h
    cases hg : mkTarget sp (!p.allspec) 0 with
    | error e => rw [hg] at h; cases h
    | ok tg =>
      rw [hg] at h
      have h' := Except.ok.inj h
      subst h'
      refine ⟨rfl, rfl, by simp, ?_⟩
      have hk : ∃ keys, List.Forall₂ (fun (s : BossSpec K) k => waveKey (β := Empty) p.hash none s.wave (some s.R.data.length) = .ok k) t.2.1 keys ∧
          sp = List.zipWith (fun s k => mkSpectrum s.wave s.flux s.ivar s.R k ()) t.2.1 keys := by
        have hf := mapM_inv _ _ _ hs
        clear hs h hg
        generalize t.2.1 = l at hf ⊢
        induction hf with
        | nil => exact ⟨[], List.Forall₂.nil, rfl⟩
        | cons hab _ ih =>
          rename_i a b l r _
          obtain ⟨keys, h1, h2⟩ := ih
          unfold bossSpectrum at hab
          cases hk : waveKey (β := Empty) p.hash none a.wave (some a.R.data.length) with
          | error e => rw [hk] at hab; cases hab
          | ok k =>
            rw [hk] at hab
            refine ⟨k :: keys, List.Forall₂.cons hk h1, ?_⟩
            rw [List.zipWith_cons_cons, ← h2, ← Except.ok.inj hab]
      obtain ⟨keys, h1, h2⟩ := hk
      refine ⟨keys, tg.spectra, h1, ?_, ?_⟩
      · rw [← h2]
        unfold mkTarget at hg
        cases ha : p.allspec with
        | true =>
          rw [ha] at hg
          simp only [Bool.not_true, Bool.false_eq_true, if_false] at hg
          rw [← Except.ok.inj hg]
          simp
        | false =>
          rw [ha] at hg
          simp only [Bool.not_false, if_true] at hg
          cases hco : computeCoadd 0 sp with
          | error e => rw [hco] at hg; cases hg
          | ok co =>
            rw [hco] at hg
            rw [← Except.ok.inj hg]
            simp
      · rw [List.map_map, List.forall₂_map_right_iff, List.forall₂_same]
        intro s _
        refine ⟨rfl, rfl, rfl, by simp [own, Spectrum.wavePart, Spectrum.fitPart], ?_, ?_⟩
        · intro i h
          simp [own, Spectrum.wavePart, Spectrum.fitPart]
        · intro i j h h'
          simp [own, Spectrum.wavePart, Spectrum.fitPart]

theorem targets_ok (p : RrBoss K) (plates : List (SpPlate K)) (targets : List (LTarget Int (List (WSpectrum (WaveKey Empty) K) × PyStr))) (h : rrbossTargets p plates = .ok targets) :
    ∃ ts, bossReadSpectra p.exp p.fmt p.opts plates = .ok ts ∧ List.Forall₂ (fun t L => bossTarget p t = .ok L) (processed p ts) targets := by
  unfold rrbossTargets at h
  cases hr : bossReadSpectra p.exp p.fmt p.opts plates with
  | error e => rw [hr] at h; cases h
  | ok ts =>
    rw [hr] at h
    simp only [bind, Except.bind] at h
    cases hm : ts.mapM (bossTarget p) with
    | error e => rw [hm] at h; cases h
    | ok full =>
      rw [hm] at h
      refine ⟨ts, rfl, ?_⟩
      rw [← Except.ok.inj h, rrbossSelect_processed]
      exact processed_forall₂ p _ _ _ (mapM_inv _ _ _ hm)

theorem targets_ids (p : RrBoss K) (ts : List (Int × List (BossSpec K) × PyStr)) (targets : List (LTarget Int (List (WSpectrum (WaveKey Empty) K) × PyStr)))
    (h : List.Forall₂ (fun t L => bossTarget p t = .ok L) ts targets) : targets.map (·.id) = ts.map (·.1) := by
  induction h with
  | nil => rfl
  | cons hab _ ih => rw [List.map_cons, List.map_cons, ih, (bossTarget_ok p _ _ hab).1]

theorem targets_nodup (p : RrBoss K) (plates : List (SpPlate K)) (targets : List (LTarget Int (List (WSpectrum (WaveKey Empty) K) × PyStr))) (h : rrbossTargets p plates = .ok targets) :
    (targets.map (·.id)).Nodup := by
  obtain ⟨ts, h1, h2⟩ := targets_ok p plates targets h
  rw [targets_ids p _ _ h2]
  have := (inFiles p plates ts h1).increasing
  exact (this.imp (fun {a b} h => ne_of_lt h)).sublist ((processed_sublist p ts).map _)

theorem copyFits_iff (p : RrBoss K) (plates : List (SpPlate K)) (hg : GoodStart p plates) (way : RrDesiWay K) (hw : GoodWay p plates way) (targets : List (LTarget Int (List (WSpectrum (WaveKey Empty) K) × PyStr)))
    (h : rrbossTargets p plates = .ok targets) (cat : List (Int × List (PyStr × TemplateFit K String) × Option PyStr)) :
    copyFits p.fit targets way = .ok cat ↔ List.Forall₂ (IsMeasured p.fit ((pairsOf targets).map ownTarget)) (targets.map (·.id)) cat := by
  have hn := targets_nodup p plates targets h
  have e : ((pairsOf targets).map (ownTarget (ι := Int) (κ := WaveKey Empty) (K := K) (M := PyStr))).map (·.1) = targets.map (·.id) := by
    unfold pairsOf
    rw [List.map_map, List.map_map]
    rfl
  cases way with
  | serial =>
    rw [copyFits_serial p.fit targets hn (hw targets h), waveFits_own p.fit _ (hg.grids targets h) (hg.fit targets h) _ .serial trivial,
      fullFits_iff p.fit _ (hg.fit targets h) (by rw [e]; exact hn) _ (by rw [e]) (ownWay .serial) (possible_own p.fit (pairsOf targets) .serial trivial)]
  | mpi size log =>
    obtain ⟨locs, h1, h2, h3⟩ := copyFits_mpi p.fit targets hn size hw.1 log
    have hcan : CanRun p.fit (pairsOf targets) (.mpi locs log) := ⟨h2, by rw [h1]; exact hw.2⟩
    rw [h3, waveFits_own p.fit _ (hg.grids targets h) (hg.fit targets h) _ _ hcan,
      fullFits_iff p.fit _ (hg.fit targets h) (by rw [e]; exact hn) _ (by rw [e]) _ (possible_own p.fit _ _ hcan)]

theorem bossMeta_columns (le : PyStr → PyStr → Bool) (existing : List PyStr) (hex : "BRICKNAME".toList ∉ existing) (metas : PyDict Int (PyDict PyStr PyStr)) (brickOf : Int → PyStr) (ids : List Int) (hne : ids ≠ [])
    (h : ∀ x ∈ ids, metas.get? x = some (bossMeta (brickOf x))) : metaColumns le bossCast existing metas ids = .ok [("BRICKNAME".toList, ids.map (fun x => (brickOf x).take 8))] := by
  cases ids with
  | nil => exact absurd rfl hne
  | cons x0 rest =>
    unfold metaColumns
    simp only [npGet, List.getElem?_cons_zero, bind, Except.bind, PyDict.get, h x0 (by simp)]
    have hs : pySort le (PyDict.keys (bossMeta (brickOf x0))) = ["BRICKNAME".toList, "BRICKNAME_datatype".toList] ∨ pySort le (PyDict.keys (bossMeta (brickOf x0))) = ["BRICKNAME_datatype".toList, "BRICKNAME".toList] := by
      unfold pySort bossMeta PyDict.keys
      simp only [List.map_cons, List.map_nil, List.insertionSort_cons, List.insertionSort_nil, List.orderedInsert_nil, List.orderedInsert_cons]
      split
      · exact Or.inl rfl
      · exact Or.inr rfl
    have hkeep : (pySort le (PyDict.keys (bossMeta (brickOf x0)))).filter (fun mk => decide (datatypeOf mk = none)) = ["BRICKNAME".toList] := by
      rcases hs with hs | hs <;> rw [hs] <;> decide
    have htype : PyDict.get? (metaTypes (bossMeta (brickOf x0)) (pySort le (PyDict.keys (bossMeta (brickOf x0))))) "BRICKNAME".toList = some "S8".toList := by
      have hd1 : datatypeOf "BRICKNAME".toList = none := by decide
      have hd2 : datatypeOf "BRICKNAME_datatype".toList = some "BRICKNAME".toList := by decide
      have hg2 : PyDict.get? (bossMeta (brickOf x0)) "BRICKNAME_datatype".toList = some "S8".toList := rfl
      rcases hs with hs | hs <;> rw [hs] <;> unfold metaTypes <;> simp only [List.foldl_cons, List.foldl_nil, hd1, hd2, hg2] <;> rfl
    rw [hkeep]
    simp only [List.foldlM_cons, List.foldlM_nil, bind, Except.bind]
    unfold metaStep
    rw [htype]
    have hcol : (x0 :: rest).mapM (fun x => (do let m ← PyDict.get metas x; PyDict.get m "BRICKNAME".toList : Py PyStr)) = .ok ((x0 :: rest).map brickOf) := by
      apply mapM_Except_ok
      intro x hx
      simp only [PyDict.get, h x hx, bind, Except.bind]
      rfl
    rw [hcol]
    simp only [bind, Except.bind]
    have hcast : ((x0 :: rest).map brickOf).mapM (bossCast "S8".toList) = .ok (((x0 :: rest).map brickOf).map (fun v => v.take 8)) := by
      apply mapM_Except_ok
      intro x hx
      rfl
    rw [hcast]
    simp only [List.map_nil, List.append_nil]
    rw [if_neg hex, List.map_map]
    rfl

theorem forall₂_members {α β : Type} {R : α → β → Prop} {l : List α} {m : List β} (h : List.Forall₂ R l m) : List.Forall₂ (fun a b => R a b ∧ a ∈ l ∧ b ∈ m) l m := by
  induction h with
  | nil => exact .nil
  | cons hab _ ih => exact .cons ⟨hab, by simp, by simp⟩ (ih.imp (fun a b h => ⟨h.1, by simp [h.2.1], by simp [h.2.2]⟩))

/-- the published table of candidates that have one metadata column `BRICKNAME` -/
theorem bossZbest_table (rows : List (CatRow K)) : bossZbest (zfitTable ["BRICKNAME".toList] rows) = .ok (bossTable (Zbest.bestOf rows)) := by
  have hg : Zbest.GoodNames ["BRICKNAME".toList] := ⟨by decide, by decide⟩
  rw [Zbest.C118_boss_table (Zbest.zfitTable_isZfit _ hg rows), Zbest.zfitTable_kept _ hg.notDropped]
  constructor
  · have : Tab.names ([("targetid".toList, rows.map (fun r => TabCell.int r.base.targetid)),
       ("z".toList, rows.map (fun r => .flt r.base.row.z)),
       ("zerr".toList, rows.map (fun r => .flt r.base.row.zerr)),
       ("zwarn".toList, rows.map (fun r => .int r.base.row.zwarn)),
       ("chi2".toList, rows.map (fun r => .flt r.base.row.chi2)),
       ("coeff".toList, rows.map (fun r => .arr r.base.row.coeff)),
       ("fitmethod".toList, rows.map (fun r => .str r.base.fitmethod.toList)),
       ("npixels".toList, rows.map (fun r => .int r.base.row.npixels)),
       ("spectype".toList, rows.map (fun r => .str r.base.row.spectype.toList)),
       ("subtype".toList, rows.map (fun r => .str r.base.row.subtype.toList)),
       ("ncoeff".toList, rows.map (fun r => .int r.base.row.ncoeff)),
       ("deltachi2".toList, rows.map (fun r => .flt r.base.row.deltachi2))]
      ++ ["BRICKNAME".toList].zipIdx.map (fun n => (n.1, rows.map (fun r => r.extra.getD n.2 (.str []))))) =
      ["targetid".toList, "z".toList, "zerr".toList, "zwarn".toList, "chi2".toList, "coeff".toList, "fitmethod".toList, "npixels".toList, "spectype".toList, "subtype".toList, "ncoeff".toList,
        "deltachi2".toList, "BRICKNAME".toList] := rfl
    rw [this]
    decide
  · simp only [List.zipIdx_cons, List.zipIdx_nil, List.map_cons, List.map_nil, List.cons_append, List.nil_append, Zbest.bestOnly_rows]
    rfl

/-- the fits of a run and its rows, as those of one process that has the targets in order -/
theorem table_ok (p : RrBoss K) (plates : List (SpPlate K)) (hg : GoodStart p plates) (way : RrDesiWay K) (hw : GoodWay p plates way) (zfit : List PyStr × List (CatRow K)) (h : rrbossTable p plates way = .ok zfit) :
    ∃ targets rows, rrbossTargets p plates = .ok targets ∧ fullCatalogue p.fit ((pairsOf targets).map ownTarget) (targets.map (·.id)) .serial = .ok rows ∧
      zfit.1 = ["BRICKNAME".toList] ∧
      List.Forall₂ (fun x (r : CatRow K) => r.base = ⟨x.1, x.2, p.method x.2.spectype x.2.subtype⟩ ∧ ∃ e ∈ targets, e.id = x.1 ∧ r.extra = [.str (e.data.2.take 8)]) rows zfit.2 := by
  unfold rrbossTable at h
  cases ht : rrbossTargets p plates with
  | error e => rw [ht] at h; cases h
  | ok targets =>
    rw [ht] at h
    simp only [bind, Except.bind] at h
    cases hc : copyFits p.fit targets way with
    | error e => rw [hc] at h; cases h
    | ok cat =>
      rw [hc] at h
      simp only at h
      have hM := (copyFits_iff p plates hg way hw targets ht cat).1 hc
      have hn := targets_nodup p plates targets ht
      have e : ((pairsOf targets).map (ownTarget (ι := Int) (κ := WaveKey Empty) (K := K) (M := PyStr))).map (·.1) = targets.map (·.id) := by
        unfold pairsOf
        rw [List.map_map, List.map_map]
        rfl
      have hser := (fullFits_iff p.fit _ (hg.fit targets ht) (by rw [e]; exact hn) (targets.map (·.id)) (by rw [e]) .serial trivial cat).2 hM
      cases hm : p.fit.maxcoeff with
      | error e => rw [hm] at h; cases h
      | ok m =>
        rw [hm] at h
        simp only at h
        cases hf : finalTable p.fit.nminima (fun _ => false) m (cat.map (fun r => (r.1, r.2.1.map (·.2)))) with
        | error e => rw [hf] at h; cases h
        | ok rows =>
          rw [hf] at h
          simp only at h
          have hfull : fullCatalogue p.fit ((pairsOf targets).map ownTarget) (targets.map (·.id)) .serial = .ok rows := by
            unfold fullCatalogue
            rw [hser]
            simp only [bind, Except.bind]
            rw [hm]
            exact hf
          refine ⟨targets, rows, rfl, hfull, ?_⟩
          have hkeys := isMeasured_keys _ _ _ _ hM
          -- the metadata of a target
          have hmeta : ∀ x ∈ rows.map (·.1), ∃ L ∈ targets, L.id = x ∧ PyDict.get? (cat.map (fun r => (r.1, (r.2.2.map bossMeta).getD []))) x = some (bossMeta L.data.2) := by
            intro x hx
            obtain ⟨y, hy, rfl⟩ := List.mem_map.1 hx
            have hid := (C117_rows p.fit _ (hg.fit targets ht) (by rw [e]; exact hn) _ (by rw [e]) .serial trivial rows hfull).1 y hy
            obtain ⟨c, hcm, hc1, tg, htg, hmd, _⟩ := forall₂_left_mem hM y.1 hid
            obtain ⟨q, hq, hq'⟩ := List.mem_map.1 htg
            obtain ⟨L, hL, rfl⟩ := List.mem_map.1 hq
            have h1 : L.id = y.1 := congrArg (·.1) hq'
            have h2 : tg.2 = L.data.2 := (congrArg (·.2.2) hq').symm
            refine ⟨L, hL, h1, ?_⟩
            have := FullRun.get?_of_mem (cat.map (fun r => (r.1, (r.2.2.map bossMeta).getD []))) (by
              rw [List.map_map]
              show (cat.map (·.1)).Nodup
              rw [hkeys]; exact hn) _ (List.mem_map_of_mem hcm)
            rw [hc1, hmd] at this
            rw [this, ← h2]
            rfl
          let brickOf : Int → PyStr := fun x => (((PyDict.get? (cat.map (fun r => (r.1, (r.2.2.map bossMeta).getD []))) x).bind (fun m => m.head?)).map (·.2)).getD []
          have hb : ∀ x ∈ rows.map (·.1), PyDict.get? (cat.map (fun r => (r.1, (r.2.2.map bossMeta).getD []))) x = some (bossMeta (brickOf x)) ∧ ∃ L ∈ targets, L.id = x ∧ brickOf x = L.data.2 := by
            intro x hx
            obtain ⟨L, hL, h1, h2⟩ := hmeta x hx
            have h3 : brickOf x = L.data.2 := by
              simp only [brickOf]
              rw [h2]
              rfl
            exact ⟨by rw [h3]; exact h2, L, hL, h1, h3⟩
          by_cases hne : rows.map (·.1) = []
          · rw [hne] at h
            cases h
          · rw [bossMeta_columns p.strLe (zfitTable (K := K) [] []).names (by rw [Zbest.zfitTable_names]; decide) _ brickOf _ hne (fun x hx => (hb x hx).1)] at h
            have h' := Except.ok.inj h
            subst h'
            refine ⟨rfl, ?_⟩
            rw [List.forall₂_iff_get]
            refine ⟨by simp, ?_⟩
            intro i h1 h2
            simp only [List.get_eq_getElem, List.getElem_map, List.getElem_zipIdx, Nat.zero_add, List.map_cons, List.map_nil]
            refine ⟨trivial, ?_⟩
            obtain ⟨_, L, hL, h3, h4⟩ := hb rows[i].1 (List.mem_map_of_mem (List.getElem_mem h1))
            refine ⟨L, hL, h3, ?_⟩
            rw [List.getD_eq_getElem?_getD, List.getElem?_map, List.getElem?_map, List.getElem?_eq_getElem h1]
            simp only [Option.map_some, Option.getD_some]
            rw [h4]

theorem brick_short (p : RrBoss K) (plates : List (SpPlate K)) (ts : List (Int × List (BossSpec K) × PyStr)) (h : InFiles p plates ts) (t : Int × List (BossSpec K) × PyStr) (ht : t ∈ ts) : t.2.2.take 8 = t.2.2 := by
  obtain ⟨pl, mj, _, _, hb⟩ := h.brick t.1 t.2.1 t.2.2 ht
  rw [hb, List.take_take]
  rfl

/-- **C121** What `rrboss` publishes, on MPI ranks or (if no target has more spectra than one with a smaller ID) in one process: exactly one row for every processed target of the files, by increasing target ID; the row is
the first row of the measurement of this target's own spectra (or of their coadds), with the templates binned on the wavelengths of these spectra, and its `BRICKNAME` is the common plate and MJD. -/
theorem C121_rows_partial (p : RrBoss K) (plates : List (SpPlate K)) (hg : GoodStart p plates) (way : RrDesiWay K) (hw : GoodWay p plates way) (B : Tab K) (h : rrbossCatalogue p plates way = .ok B) :
    ∃ ts best, InFiles p plates ts ∧ List.Forall₂ (IsRow p) (processed p ts) best ∧ B = bossTable best := by
  unfold rrbossCatalogue at h
  cases hz : rrbossTable p plates way with
  | error e => rw [hz] at h; cases h
  | ok zfit =>
    rw [hz] at h
    simp only [bind, Except.bind] at h
    obtain ⟨targets, rows, ht, hfull, hnames, hrows⟩ := table_ok p plates hg way hw zfit hz
    rw [hnames, bossZbest_table] at h
    obtain ⟨ts, hr, hts⟩ := targets_ok p plates targets ht
    have hin := inFiles p plates ts hr
    refine ⟨ts, Zbest.bestOf zfit.2, hin, ?_, (Except.ok.inj h).symm⟩
    have hn := targets_nodup p plates targets ht
    have e : ((pairsOf targets).map (ownTarget (ι := Int) (κ := WaveKey Empty) (K := K) (M := PyStr))).map (·.1) = targets.map (·.id) := by
      unfold pairsOf
      rw [List.map_map, List.map_map]
      rfl
    have h1 := Zbest.C118_one_per_target p.fit hg.nminima _ (hg.fit targets ht) (by rw [e]; exact hn) (targets.map (·.id)) (by rw [e]) .serial trivial rows hfull
    rw [List.forall₂_map_left_iff] at h1
    have h2 : List.Forall₂ (fun (x : Int × Row K String) (r : CatRow K) => r.base = ⟨x.1, x.2, p.method x.2.spectype x.2.subtype⟩ ∧ ∃ e ∈ targets, e.id = x.1 ∧ r.extra = [.str (e.data.2.take 8)])
        (rows.filter (fun x => decide (x.2.znum = 0))) (Zbest.bestOf zfit.2) := by
      clear h1 h hfull
      unfold Zbest.bestOf
      generalize zfit.2 = z at hrows
      induction hrows with
      | nil => exact List.Forall₂.nil
      | cons hab _ ih =>
        rename_i a b l r _
        have hzn : b.base.row.znum = a.2.znum := by rw [hab.1]
        rw [List.filter_cons, List.filter_cons, hzn]
        split
        · exact List.Forall₂.cons hab ih
        · exact ih
    have huniq : ∀ L ∈ targets, ∀ L' ∈ targets, L.id = L'.id → L = L' := fun L hL L' hL' hid => List.inj_on_of_nodup_map hn hL hL' hid
    have h3 := forall₂_compose (T := fun (t : Int × List (BossSpec K) × PyStr) (x : Int × Row K String) => ∃ L, bossTarget p t = .ok L ∧ t ∈ ts ∧ L ∈ targets ∧ x.1 = L.id ∧
        ∃ e ∈ (pairsOf targets).map ownTarget, e.1 = L.id ∧ ∃ T best, measureTarget (measureCfg p.fit L.id) (p.fit.templates.map (·.2)) e.2.1 = .ok T ∧ T.head? = some best ∧ Catalogue.SameRow best x.2)
      (fun t L x hR hS => ⟨L, hR.1, (processed_sublist p ts).subset hR.2.1, hR.2.2, hS⟩) (forall₂_members hts) h1
    refine forall₂_compose ?_ h3 h2
    rintro t x r ⟨L, hL, htm, hLm, hx, e', he', hid, T, best, hT, hhd, hsame⟩ ⟨hbase, e2, he2, hid2, hext⟩
    obtain ⟨q, hq, hq'⟩ := List.mem_map.1 he'
    obtain ⟨L', hL', rfl⟩ := List.mem_map.1 hq
    subst hq'
    have : L' = L := huniq L' hL' L hLm hid
    subst this
    have : e2 = L' := huniq e2 he2 L' hL' (by rw [hid2, hx])
    subst this
    obtain ⟨g1, g2, _, g4⟩ := bossTarget_ok p t e2 hL
    refine ⟨_, g4, T, best, x.2, ?_, hhd, hsame, ?_, ?_⟩
    · rw [← g1]; exact hT
    · rw [hbase, hx, g1]
    · rw [hext, g2, brick_short p plates ts hin t htm]

/-- **C121** It does not matter on how many ranks, and with which interleaving of the ring, `rrboss` runs, or whether it runs in one process (under the condition of `GoodWay`): all publish the same catalogue, or none
does. -/
theorem C121_ranks_partial (p : RrBoss K) (plates : List (SpPlate K)) (hg : GoodStart p plates) (way way' : RrDesiWay K) (hw : GoodWay p plates way) (hw' : GoodWay p plates way') (B : Tab K) :
    rrbossCatalogue p plates way = .ok B ↔ rrbossCatalogue p plates way' = .ok B := by
  have key : ∀ way way', GoodWay p plates way → GoodWay p plates way' → rrbossCatalogue p plates way = .ok B → rrbossCatalogue p plates way' = .ok B := by
    intro way way' hw hw' h
    unfold rrbossCatalogue rrbossTable at h ⊢
    cases ht : rrbossTargets p plates with
    | error e => rw [ht] at h; cases h
    | ok targets =>
      rw [ht] at h
      simp only [bind, Except.bind] at h ⊢
      cases hc : copyFits p.fit targets way with
      | error e => rw [hc] at h; cases h
      | ok cat =>
        rw [hc] at h
        rw [(copyFits_iff p plates hg way' hw' targets ht cat).2 ((copyFits_iff p plates hg way hw targets ht cat).1 hc)]
        exact h
  exact ⟨key way way' hw hw', key way' way hw' hw⟩

end
end RrBossRun
end Redrock
