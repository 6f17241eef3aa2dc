import Verif.Props.RrBoss
import Verif.Props.WaveEx

/-! Property C121: when the conditions of `C121_rows_partial` hold, and what happens in one process when they do not. -/
set_option linter.unusedSectionVars false
namespace Redrock
namespace RrBossRun
open FullRun Catalogue Run Wave Boss

section
variable {K : Type} [Field K] [LinearOrder K] [IsStrictOrderedRing K] [FloorRing K]

/-- One spPlate file, all of whose rows are on the same wavelengths, with every fibre once. -/
structure OnePlate (plates : List (SpPlate K)) (w : List K) : Prop where
  one : ∃ plate file, plates = [plate] ∧ plate.infiles = [file] ∧ file.fibers.Nodup ∧ ∀ r ∈ file.wave, r = w

theorem sublist_of_same {l m : List Nat} (h : l.Sublist m) (hm : m.Nodup) (hsame : ∀ a ∈ l, ∀ b ∈ l, a = b) : l.length ≤ 1 := by
  have hn := hm.sublist h
  match l, hn, hsame with
  | [], _, _ => simp
  | [a], _, _ => simp
  | a :: b :: l, hn, hsame =>
    have : a = b := hsame a (by simp) b (by simp)
    subst this
    simp at hn

theorem cropFile_wave (u a : Bool) (f c : BossFile K) (w : List K) (hw : ∀ r ∈ f.wave, r = w) (h : cropFile u a f = .ok c) : ∃ v, ∀ r ∈ c.wave, r = v := by
  unfold cropFile at h
  simp only [bind, Except.bind] at h
  cases h1 : nearestPixel f.wave (bossLimits u f.blue : K × K).1 with
  | error e => rw [h1] at h; cases h
  | ok imin =>
    rw [h1] at h
    simp only at h
    cases h2 : nearestPixel f.wave (bossLimits u f.blue : K × K).2 with
    | error e => rw [h2] at h; cases h
    | ok imax =>
      rw [h2] at h
      rw [← Except.ok.inj h]
      refine ⟨(w.take imax).drop imin, ?_⟩
      intro r hr
      obtain ⟨q, hq, rfl⟩ := List.mem_map.1 hr
      rw [hw q hq]

/-- the coadd of one spectrum is one spectrum on the same wavelengths -/
theorem coadd_one {ω β : Type} [DecidableEq ω] (s : Spectrum ω β K) (full : List (Spectrum ω β K)) (h : computeCoadd 0 [s] = .ok full) : ∃ q, full = [q] ∧ q.wave = s.wave := by
  unfold computeCoadd at h
  simp only [List.map_cons, List.map_nil, firstSeen, List.foldl_cons, List.foldl_nil, List.not_mem_nil, if_false, List.nil_append, List.mapM_cons, List.mapM_nil, List.filter_cons, List.filter_nil, decide_true, if_true,
    bind, Except.bind] at h
  cases hg : coaddGroup 0 [s] s.wavehash with
  | error e => rw [hg] at h; cases h
  | ok q =>
    rw [hg] at h
    refine ⟨q, (Except.ok.inj h).symm, ?_⟩
    unfold coaddGroup at hg
    simp only [bind, Except.bind] at hg
    split at hg
    · cases hg
    · split at hg
      · cases hg
      · unfold cosmicGrads at hg
        simp only [lt_irrefl, if_false] at hg
        rw [← Except.ok.inj hg]
        rfl

theorem fitted_one (p : RrBoss K) (ss : List (BossSpec K)) (s : BossSpec K) (hs : ss = [s]) (sp : List (FitSpectrum (List K) K)) (h : Fitted p ss sp) : ∃ q, sp = [q] ∧ q.wavehash = s.wave := by
  subst hs
  obtain ⟨keys, full, h1, h2, h3⟩ := h
  cases h1 with
  | cons hk h1 =>
    cases h1
    rename_i k
    have : ∃ q, full = [q] ∧ q.wave = s.wave := by
      cases ha : p.allspec with
      | true => rw [ha] at h2; exact ⟨_, h2, rfl⟩
      | false =>
        rw [ha] at h2
        exact coadd_one _ _ h2
    obtain ⟨q, rfl, hq⟩ := this
    cases h3 with
    | cons hf h3 =>
      cases h3
      exact ⟨_, rfl, hf.grid.trans hq⟩

/-- **C121** For one spPlate file the conditions of `C121_rows_partial` on the data hold by themselves: every target has one spectrum, all on the same wavelengths. So `rrboss` may run in one process. -/
theorem C121_single_plate (p : RrBoss K) (plates : List (SpPlate K)) (w : List K) (h1 : OnePlate plates w) :
    (∀ targets, rrbossTargets p plates = .ok targets → SameGrids (pairsOf targets) ∧ ∀ t ∈ targets, t.nspec = 1) ∧ GoodWay p plates .serial := by
  have key : ∀ targets, rrbossTargets p plates = .ok targets → ∃ v, ∀ L ∈ targets, L.nspec = 1 ∧ ∀ s ∈ L.data.1, s.wave = v := by
    intro targets ht
    obtain ⟨plate, file, rfl, hfile, hnd, hw⟩ := h1.one
    obtain ⟨ts, hr, hts⟩ := targets_ok p _ targets ht
    have hin := inFiles p _ ts hr
    have hfl : [plate].flatMap (·.infiles) = [file] := by simp [hfile]
    -- the wavelengths of the spectra
    have hone : ∃ v, ∀ t ∈ ts, ∃ s : BossSpec K, t.2.1 = [s] ∧ s.wave = v := by
      have hts1 : ∀ t ∈ ts, ∃ c, cropFile p.opts.useFrames p.opts.useAndmask file = .ok c ∧ ∃ s : BossSpec K, t.2.1 = [s] ∧ s.wave ∈ c.wave := by
        intro t htm
        obtain ⟨blocks, hb1, hb2⟩ := hin.spectra t.1 t.2.1 t.2.2 htm
        rw [hfl] at hb2
        cases hb2 with
        | cons hb hnil =>
          cases hnil
          obtain ⟨c, nd, hc, _, fibs, hsub, hmem, hsp⟩ := hb
          refine ⟨c, hc, ?_⟩
          have hnd' : (fibersOf p.opts file).Nodup := by
            unfold fibersOf
            split
            · exact hnd
            · exact hnd.filter _
          have hlen : fibs.length ≤ 1 := by
            refine sublist_of_same hsub hnd' ?_
            intro a ha b hb
            have h3 := (hmem a (hsub.subset ha)).1 ha
            have h4 := (hmem b (hsub.subset hb)).1 hb
            unfold IsId at h3 h4
            rw [if_pos (by simp)] at h3 h4
            omega
          obtain ⟨_, f, hf, fib, hfib, hid⟩ := (hin.exactly t.1).1 (List.mem_map_of_mem htm)
          rw [hfl, List.mem_singleton] at hf
          subst hf
          have hpos := (hmem fib hfib).2 hid
          match fibs, hlen, hpos, hsp with
          | [a], _, _, hsp =>
            cases hsp with
            | cons hs hn =>
              cases hn
              rename_i s
              obtain ⟨i, wd, _, _, hwv, _⟩ := hs
              exact ⟨s, by rw [hb1]; rfl, List.mem_of_getElem? hwv⟩
          | a :: b :: l, hlen, _, _ => simp at hlen
      cases hcrop : cropFile p.opts.useFrames p.opts.useAndmask file with
      | error e =>
        refine ⟨[], fun t htm => ?_⟩
        obtain ⟨c, hc, _⟩ := hts1 t htm
        rw [hcrop] at hc
        cases hc
      | ok c =>
        obtain ⟨v, hv⟩ := cropFile_wave _ _ _ _ w hw hcrop
        refine ⟨v, fun t htm => ?_⟩
        obtain ⟨c', hc', s, hs1, hs2⟩ := hts1 t htm
        rw [hcrop] at hc'
        have := Except.ok.inj hc'
        subst this
        exact ⟨s, hs1, hv _ hs2⟩
    obtain ⟨v, hv⟩ := hone
    refine ⟨v, ?_⟩
    intro L hL
    obtain ⟨t, htm, htL⟩ := forall₂_right_mem hts L hL
    obtain ⟨s, hs1, hs2⟩ := hv t ((processed_sublist p ts).subset htm)
    obtain ⟨_, _, g3, g4⟩ := bossTarget_ok p t L htL
    obtain ⟨q, hq1, hq2⟩ := fitted_one p _ s hs1 _ g4
    refine ⟨?_, ?_⟩
    · rw [g3]
      have := congrArg List.length hq1
      simpa using this
    · intro x hx
      have : own x ∈ [q] := hq1 ▸ List.mem_map_of_mem hx
      rw [List.mem_singleton] at this
      rw [← hs2, ← hq2, ← this]
      rfl
  refine ⟨?_, ?_⟩
  · intro targets ht
    obtain ⟨v, hv⟩ := key targets ht
    refine ⟨?_, fun t h => (hv t h).1⟩
    intro t htm t' htm' s hs s' hs' _
    obtain ⟨L, hL, rfl⟩ := List.mem_map.1 htm
    obtain ⟨L', hL', rfl⟩ := List.mem_map.1 htm'
    rw [(hv L hL).2 s hs, (hv L' hL').2 s' hs']
  · intro targets ht
    obtain ⟨v, hv⟩ := key targets ht
    refine List.Pairwise.imp_of_mem (R := fun _ _ => True) ?_ (List.pairwise_of_forall (fun _ _ => trivial))
    intro a b ha hb _
    rw [(hv a ha).1, (hv b hb).1]

/-- the run of the ring on one rank -/
theorem ringRun_one (zs : List K) (hz : DistTemplate.initPiece zs 1 0 = .ok ⟨0, zs⟩) : RingRun zs 1 (fun _ => [⟨0, zs⟩]) := by
  have hp : ∀ r, r < 1 → DistTemplate.initPiece zs 1 r = .ok ((fun _ => ⟨0, zs⟩ : Nat → Piece K) r) := by
    intro r hr
    have : r = 0 := by omega
    subst this
    exact hz
  obtain ⟨hidx, _⟩ := C04_pieces_cover_grid zs 1 (by omega) _ hp
  obtain ⟨s, h1, h2⟩ := C05_cycle_completes 1 (by omega) _ hidx
  refine ⟨_, true, _, s, hp, h1, ?_⟩
  intro r hr
  have := ((C05_cycle_visits_all 1 (by omega) true _ hidx _ s h1 r hr).1 (h2 r hr)).2.2
  exact ⟨h2 r hr, (List.perm_singleton.1 this).symm⟩

end

/-! ### examples -/
namespace Ex

/-- a template with one line at wavelength 3500 + 500 z -/
def line : Tmpl (List ℚ) ℚ String := { Wave.Ex.line with bin := fun w zs => .ok (zs.map (fun z => w.map (fun x => [if x = 3500 + 500 * z then 1 else 0]))) }

def fit : FullCfg Int (List ℚ) ℚ String := { Wave.Ex.fit with templates := [("GALAXY".toList, line)] }

def fileA : BossFile ℚ :=
  ⟨"a".toList, 3586, [1, 2], [[0, 1, 0, 0, 0], [0, 0, 1, 0, 0]], [[1, 1, 1, 1, 1], [1, 1, 1, 1, 1]], [], [[3500, 4000, 4500, 5000, 10000], [3500, 4000, 4500, 5000, 10000]], [[1, 1, 1, 1, 1], [1, 1, 1, 1, 1]], false⟩

def fileB : BossFile ℚ :=
  ⟨"b".toList, 3587, [1], [[0, 0, 1, 0]], [[1, 1, 1, 1]], [], [[3500, 4000, 4500, 10000]], [[1, 1, 1, 1]], false⟩

/-- the object 88 is on both plates, which have different wavelengths -/
def plates : List (SpPlate ℚ) := [⟨3586, 55181, [fileA], [77, 88]⟩, ⟨3587, 55182, [fileB], [88]⟩]

def prog : RrBoss ℚ where
  exp := fun x => if x = 0 then 1 else 0
  fmt := fun n => (toString n).toList
  hash := fun t => t.1
  opts := ⟨none, false, none, false⟩
  allspec := false
  mintarget := none
  ntargets := none
  fit := fit
  method := fun _ _ => "PCA"
  strLe := fun a b => decide (a ≤ b)

def brief (B : Tab ℚ) : Py (List (List (TabCell ℚ))) := ["TARGETID", "Z", "CHI2", "BRICKNAME"].mapM (fun n => B.col n.toList)


def oneRank : RrDesiWay ℚ := .mpi 1 (fun t _ => [⟨0, t.redshifts⟩])

theorem good (grids : List (List ℚ)) : GoodRun fit grids where
  names := by decide
  order := List.Perm.refl _
  scan := by
    have hs : ∀ A y e, Units.solve1 A y = .error e → e = .linAlgError ∨ e = .notImplemented := by
      intro A y e h
      unfold Units.solve1 at h
      split at h
      · exact Or.inl (Except.error.inj h).symm
      · cases h
    intro t ht
    simp only [fit, List.mem_cons, List.not_mem_nil, or_false] at ht
    subst ht
    exact ⟨_, fun _ _ _ _ _ => rfl, by decide, hs⟩

theorem oneRank_good (pl : List (SpPlate ℚ)) : GoodWay prog pl oneRank := by
  refine ⟨by omega, ?_⟩
  intro t ht
  simp only [prog, fit, List.mem_cons, List.not_mem_nil, or_false] at ht
  subst ht
  exact ringRun_one _ (by decide +kernel)

/-- the wavelengths of the spectra of the run, with their hashes -/
def keys (x : Py (List (LTarget Int (List (WSpectrum (WaveKey Empty) ℚ) × PyStr)))) : Py (List (List (WaveKey Empty × List ℚ))) := x.map (List.map (fun L => L.data.1.map (fun s => (s.wavehash, s.wave))))

theorem plates_keys : keys (rrbossTargets prog plates) = .ok [[(.hash 4, [3500, 4000, 4500, 5000])], [(.hash 4, [3500, 4000, 4500, 5000]), (.hash 3, [3500, 4000, 4500])]] := by decide +kernel

theorem plates_start : GoodStart prog plates where
  fit := fun _ _ => good _
  nminima := by decide
  grids := by
    intro targets ht t htm t' htm' s hs s' hs'
    have hk := plates_keys
    rw [ht] at hk
    have hk := Except.ok.inj hk
    have hall : ∀ t ∈ pairsOf targets, ∀ s ∈ t.2.1, (s.wavehash, s.wave) = (WaveKey.hash 4, [3500, 4000, 4500, 5000]) ∨ (s.wavehash, s.wave) = (WaveKey.hash 3, [3500, 4000, 4500]) := by
      intro t htm s hs
      obtain ⟨L, hL, rfl⟩ := List.mem_map.1 htm
      have h1 := List.mem_map_of_mem (f := fun L : LTarget Int (List (WSpectrum (WaveKey Empty) ℚ) × PyStr) => L.data.1.map (fun s => (s.wavehash, s.wave))) hL
      rw [hk] at h1
      have h2 := List.mem_map_of_mem (f := fun s : WSpectrum (WaveKey Empty) ℚ => (s.wavehash, s.wave)) hs
      simp only [List.mem_cons, List.not_mem_nil, or_false] at h1
      rcases h1 with h1 | h1 <;> rw [h1] at h2 <;> simp only [List.mem_cons, List.not_mem_nil, or_false] at h2
      · exact Or.inl h2
      · exact h2
    intro he
    rcases hall t htm s hs with h1 | h1 <;> rcases hall t' htm' s' hs' with h2 | h2 <;> obtain ⟨h1a, h1b⟩ := Prod.mk.inj h1 <;> obtain ⟨h2a, h2b⟩ := Prod.mk.inj h2
    · rw [h1b, h2b]
    · rw [h1a, h2a] at he; exact absurd (WaveKey.hash.inj he) (by decide)
    · rw [h1a, h2a] at he; exact absurd (WaveKey.hash.inj he) (by decide)
    · rw [h1b, h2b]

theorem serial_run : ((rrbossCatalogue prog plates .serial).bind brief) = .ok [[.int 77, .int 88], [.flt 2, .flt 1], [.flt 1, .flt 2], [.str "0-0".toList, .str "0-0".toList]] := by decide +kernel
theorem rank_run : ((rrbossCatalogue prog plates oneRank).bind brief) = .ok [[.int 77, .int 88], [.flt 1, .flt 2], [.flt 0, .flt 0], [.str "0-0".toList, .str "0-0".toList]] := by decide +kernel

/-- one spPlate file: the conditions of `C121_single_plate` and of `C121_rows_partial` are met, the run publishes two rows -/
example : OnePlate (plates.take 1) [3500, 4000, 4500, 5000, 10000] ∧ GoodStart prog (plates.take 1) ∧ GoodWay prog (plates.take 1) .serial ∧
    ((rrbossCatalogue prog (plates.take 1) .serial).bind brief) =
      .ok [[.int 3586551810001, .int 3586551810002], [.flt 1, .flt 2], [.flt 0, .flt 0], [.str "3586-551".toList, .str "3586-551".toList]] := by
  have h1 : OnePlate (plates.take 1) [3500, 4000, 4500, 5000, 10000] := ⟨⟨_, fileA, rfl, rfl, by decide, by decide⟩⟩
  have h2 := C121_single_plate prog (plates.take 1) _ h1
  exact ⟨h1, ⟨fun _ _ => good _, fun t ht => (h2.1 t ht).1, by decide⟩, h2.2, by decide +kernel⟩

/-- two spPlate files with different wavelengths on one MPI rank -/
example : GoodStart prog plates ∧ GoodWay prog plates oneRank ∧ ((rrbossCatalogue prog plates oneRank).bind brief) =
    .ok [[.int 77, .int 88], [.flt 1, .flt 2], [.flt 0, .flt 0], [.str "0-0".toList, .str "0-0".toList]] := ⟨plates_start, oneRank_good _, rank_run⟩

end Ex

/-- **C121** (refutation of the claim without `GoodWay`) A run of `rrboss` in one process on two plates, where the object with the larger ID has spectra on two grids: it publishes a catalogue, with the targets'
redshifts exchanged: 2 for the object 77 whose own spectrum has its line at redshift 1, 1 for the object 88 at redshift 2. On one MPI rank the same program publishes the right ones. -/
theorem C121_refuted : ∃ (p : RrBoss ℚ) (plates : List (SpPlate ℚ)) (way : RrDesiWay ℚ) (B B' : Tab ℚ), GoodStart p plates ∧ GoodWay p plates way ∧ rrbossCatalogue p plates .serial = .ok B ∧ rrbossCatalogue p plates way = .ok B' ∧
    B.col "TARGETID".toList = .ok [.int 77, .int 88] ∧ B'.col "TARGETID".toList = .ok [.int 77, .int 88] ∧ B.col "Z".toList = .ok [.flt 2, .flt 1] ∧ B'.col "Z".toList = .ok [.flt 1, .flt 2] := by
  have hb : ∀ (B : Tab ℚ) (a b c d : List (TabCell ℚ)), Ex.brief B = .ok [a, b, c, d] → B.col "TARGETID".toList = .ok a ∧ B.col "Z".toList = .ok b := by
    intro B a b c d h
    have h := mapM_inv _ _ _ h
    cases h with
    | cons h1 h =>
      cases h with
      | cons h2 h => exact ⟨h1, h2⟩
  cases hs : rrbossCatalogue Ex.prog Ex.plates .serial with
  | error e => have := Ex.serial_run; rw [hs] at this; cases this
  | ok B =>
    cases hr : rrbossCatalogue Ex.prog Ex.plates Ex.oneRank with
    | error e => have := Ex.rank_run; rw [hr] at this; cases this
    | ok B' =>
      have h1 := Ex.serial_run
      have h2 := Ex.rank_run
      rw [hs] at h1
      rw [hr] at h2
      exact ⟨_, _, _, B, B', Ex.plates_start, Ex.oneRank_good _, hs, hr, (hb B _ _ _ _ h1).1, (hb B' _ _ _ _ h2).1, (hb B _ _ _ _ h1).2, (hb B' _ _ _ _ h2).2⟩

end RrBossRun
end Redrock
