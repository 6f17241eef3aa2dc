import Verif.Model.Boss
import Verif.Lemmas.Dict
import Verif.Lemmas.Desi
import Verif.Lemmas.Minima
import Verif.Lemmas.Fitz
import Verif.Lemmas.Chi2
import Verif.Props.ArchetypeBest
import Mathlib.Data.Rat.Floor
import Mathlib.Algebra.Order.Ring.Rat
import Mathlib.Tactic.Linarith
import Mathlib.Tactic.FieldSimp
import Mathlib.Tactic.Ring

/-!
C88: BOSS spectra reach the right target.  C91: selection of targets and archetypes in `rrboss`.
-/
namespace Redrock
set_option linter.unusedSectionVars false

namespace Boss
section
variable {K : Type} [Field K] [LinearOrder K] [FloorRing K]

/-! ### specification -/

/-- The target ID of fibre `fib` of `file`: plate, MJD and fibre for a single spPlate file, the `THING_ID` of the fibre if there are several. -/
def IsId (plates : List (SpPlate K)) (file : BossFile K) (fib : Nat) (t : Int) : Prop :=
  if plates.length ≤ 1 then t = commonOrZero (plates.map (·.plate)) * 1000000000 + commonOrZero (plates.map (·.mjd)) * 10000 + fib
  else ∃ ids, PyDict.get? (thingTable plates) file.name = some ids ∧ ids[fib - 1]? = some t

/-- The fibres of a file that are read. -/
def fibersOf (o : BossOpts) (file : BossFile K) : List Nat :=
  match o.fiberid with
  | none => file.fibers
  | some w => file.fibers.filter (fun x => decide (x ∈ w))

/-- `s` is the spectrum of fibre `fib`: wavelength, flux and weight of its row of the cropped file, and the resolution made of its dispersion. -/
def IsSpectrum (exp : K → K) (o : BossOpts) (c : BossFile K) (ndiag : Nat) (fib : Nat) (s : BossSpec K) : Prop :=
  ∃ i wd, i = (if o.useFrames then (fib - 1) % 500 else fib - 1) ∧ c.wdisp[i]? = some wd ∧ c.wave[i]? = some s.wave ∧ c.flux[i]? = some s.flux ∧ c.ivar[i]? = some s.ivar ∧
    s.R = bossDia exp ndiag wd

/-- The spectra of target `t` in one file, in the order of the fibres. -/
def FileSpectra (exp : K → K) (o : BossOpts) (plates : List (SpPlate K)) (t : Int) (file : BossFile K) (block : List (BossSpec K)) : Prop :=
  ∃ c ndiag, cropFile o.useFrames o.useAndmask file = .ok c ∧ bossNdiag c.wdisp = .ok ndiag ∧
    ∃ fibs : List Nat, fibs.Sublist (fibersOf o file) ∧ (∀ fib ∈ fibersOf o file, fib ∈ fibs ↔ IsId plates file fib t) ∧
      List.Forall₂ (fun fib s => IsSpectrum exp o c ndiag fib s) fibs block

/-! ### lemmas -/

theorem npGet_some {V : Type} (x : List V) (i : Nat) (v : V) (h : npGet x i = .ok v) : x[i]? = some v := by
  unfold npGet at h
  cases hx : x[i]? with
  | none => rw [hx] at h; simp at h
  | some w => rw [hx] at h; simpa using h

theorem get_some {κ ν : Type} [DecidableEq κ] (d : PyDict κ ν) (k : κ) (v : ν) (h : PyDict.get d k = .ok v) : PyDict.get? d k = some v := by
  unfold PyDict.get at h
  cases hx : PyDict.get? d k with
  | none => rw [hx] at h; simp at h
  | some w => rw [hx] at h; simpa using h

theorem bossId_spec (plates : List (SpPlate K)) (file : BossFile K) (fib : Nat) (t : Int)
    (h : bossId (decide (1 < plates.length)) (thingTable plates) (commonOrZero (plates.map (·.plate))) (commonOrZero (plates.map (·.mjd))) file.name fib = .ok t) :
    IsId plates file fib t ∧ ∀ t', IsId plates file fib t' → t' = t := by
  unfold IsId
  unfold bossId at h
  by_cases hp : 1 < plates.length
  · rw [if_neg (by omega)]
    simp only [hp, decide_true, if_true] at h
    cases h1 : PyDict.get (thingTable plates) file.name with
    | error e => rw [h1] at h; simp [bind, Except.bind] at h
    | ok ids =>
      rw [h1] at h
      have h2 := npGet_some ids _ t h
      have h3 := get_some _ _ _ h1
      refine ⟨⟨ids, h3, h2⟩, ?_⟩
      simp only [if_neg (show ¬ plates.length ≤ 1 by omega)]
      rintro t' ⟨ids', h4, h5⟩
      rw [h3] at h4
      simp only [Option.some.injEq] at h4
      subst h4
      rw [h2] at h5
      simpa using h5.symm
  · rw [if_pos (by omega)]
    simp only [hp, decide_false, Bool.false_eq_true, if_false, Except.ok.injEq, platemjdfiber2targetid] at h
    refine ⟨h.symm, ?_⟩
    simp only [if_pos (show plates.length ≤ 1 by omega)]
    intro t' h'
    rw [h', h]

/-- The entries a list of fibres contributes. -/
theorem fiberFold (exp : K → K) (uf : Bool) (idOf : Nat → Py Int) (tids : Option (List Int)) (ndiag : Nat) (c : BossFile K) :
    ∀ (fs : List Nat) (dic r : PyDict Int (List (BossSpec K))), fs.foldlM (fiberStep exp uf idOf tids ndiag c) dic = .ok r →
      ∃ es, List.Forall₂ (fun f e => fiberEntry exp uf idOf tids ndiag c f = .ok e) fs es ∧ r = es.foldl addEntry dic
  | [], dic, r, h => by
    simp only [List.foldlM_nil, pure, Except.pure, Except.ok.injEq] at h
    exact ⟨[], .nil, h.symm⟩
  | f :: fs, dic, r, h => by
    rw [List.foldlM_cons] at h
    cases he : fiberEntry exp uf idOf tids ndiag c f with
    | error e =>
      have : fiberStep exp uf idOf tids ndiag c dic f = .error e := by unfold fiberStep; rw [he]; rfl
      rw [this] at h; simp [bind, Except.bind] at h
    | ok e =>
      have : fiberStep exp uf idOf tids ndiag c dic f = .ok (addEntry dic e) := by unfold fiberStep; rw [he]; rfl
      rw [this] at h
      obtain ⟨es, h1, h2⟩ := fiberFold exp uf idOf tids ndiag c fs (addEntry dic e) r h
      exact ⟨e :: es, .cons he h1, h2⟩

/-- The spectra for `t` in a list of entries. -/
def pick (t : Int) (es : List (Option (Int × BossSpec K))) : List (BossSpec K) :=
  es.filterMap (fun e => match e with
    | some (t', s) => if t' = t then some s else none
    | none => none)

/-- What a file contributes to `t`. -/
theorem addEntry_get? (dic : PyDict Int (List (BossSpec K))) (e : Option (Int × BossSpec K)) (t : Int) :
    (PyDict.get? (addEntry dic e) t).getD [] = (PyDict.get? dic t).getD [] ++ pick t [e] := by
  cases e with
  | none => simp [addEntry, pick]
  | some ts =>
    obtain ⟨t', s⟩ := ts
    simp only [addEntry, PyDict.get?_set]
    by_cases h : t' = t
    · subst h; simp [pick]
    · simp [pick, h]

theorem addEntries_get? (t : Int) : ∀ (es : List (Option (Int × BossSpec K))) (dic : PyDict Int (List (BossSpec K))),
    (PyDict.get? (es.foldl addEntry dic) t).getD [] = (PyDict.get? dic t).getD [] ++ pick t es
  | [], dic => by simp [pick]
  | e :: es, dic => by
    rw [List.foldl_cons, addEntries_get? t es, addEntry_get?, List.append_assoc]
    congr 1
    unfold pick
    rw [← List.filterMap_append]; rfl

theorem addEntry_nodup (dic : PyDict Int (List (BossSpec K))) (e : Option (Int × BossSpec K)) (h : (PyDict.keys dic).Nodup) : (PyDict.keys (addEntry dic e)).Nodup := by
  cases e with
  | none => exact h
  | some ts => exact PyDict.keys_nodup_set dic h ts.1 _

theorem addEntry_keys (dic : PyDict Int (List (BossSpec K))) (e : Option (Int × BossSpec K)) (t : Int) :
    t ∈ PyDict.keys (addEntry dic e) ↔ t ∈ PyDict.keys dic ∨ ∃ s, e = some (t, s) := by
  cases e with
  | none => simp [addEntry]
  | some ts =>
    obtain ⟨t', s⟩ := ts
    simp only [addEntry, PyDict.keys_set]
    split
    · rename_i hm
      constructor
      · exact .inl
      · rintro (h | ⟨s', h⟩)
        · exact h
        · simp only [Option.some.injEq, Prod.mk.injEq] at h; rw [← h.1]; exact hm
    · rw [List.mem_append, List.mem_singleton]
      simp only [Option.some.injEq, Prod.mk.injEq]
      constructor
      · rintro (h | h)
        · exact .inl h
        · exact .inr ⟨s, h.symm, rfl⟩
      · rintro (h | ⟨s', h, _⟩)
        · exact .inl h
        · exact .inr h.symm

theorem addEntries_nodup : ∀ (es : List (Option (Int × BossSpec K))) (dic : PyDict Int (List (BossSpec K))), (PyDict.keys dic).Nodup → (PyDict.keys (es.foldl addEntry dic)).Nodup
  | [], _, h => h
  | e :: es, dic, h => addEntries_nodup es _ (addEntry_nodup dic e h)

theorem addEntries_keys (t : Int) : ∀ (es : List (Option (Int × BossSpec K))) (dic : PyDict Int (List (BossSpec K))),
    t ∈ PyDict.keys (es.foldl addEntry dic) ↔ t ∈ PyDict.keys dic ∨ ∃ s, some (t, s) ∈ es
  | [], dic => by simp
  | e :: es, dic => by
    rw [List.foldl_cons, addEntries_keys t es, addEntry_keys]
    simp only [List.mem_cons, or_assoc]
    constructor
    · rintro (h | ⟨s, h⟩ | ⟨s, h⟩)
      · exact .inl h
      · exact .inr ⟨s, .inl h.symm⟩
      · exact .inr ⟨s, .inr h⟩
    · rintro (h | ⟨s, h | h⟩)
      · exact .inl h
      · exact .inr (.inl ⟨s, h.symm⟩)
      · exact .inr (.inr ⟨s, h⟩)

/-- One fibre. -/
theorem fiberEntry_ok (exp : K → K) (o : BossOpts) (idOf : Nat → Py Int) (ndiag : Nat) (c : BossFile K) (f : Nat) (e : Option (Int × BossSpec K))
    (h : fiberEntry exp o.useFrames idOf o.targetids ndiag c f = .ok e) :
    ∃ t, idOf f = .ok t ∧ ((∃ ids, o.targetids = some ids ∧ t ∉ ids ∧ e = none) ∨
      ((∀ ids, o.targetids = some ids → t ∈ ids) ∧ ∃ s, e = some (t, s) ∧ IsSpectrum exp o c ndiag f s)) := by
  unfold fiberEntry at h
  cases ht : idOf f with
  | error e => rw [ht] at h; simp [bind, Except.bind] at h
  | ok t =>
    refine ⟨t, rfl, ?_⟩
    rw [ht] at h
    simp only [bind, Except.bind] at h
    split at h
    · rename_i hin
      right
      refine ⟨fun ids hids => by rw [hids] at hin; simpa [bossWanted] using hin, ?_⟩
      split at h
      · simp at h
      rename_i wd h1
      split at h
      · simp at h
      rename_i la h2
      split at h
      · simp at h
      rename_i fl h3
      split at h
      · simp at h
      rename_i iv h4
      simp only [pure, Except.pure, Except.ok.injEq] at h
      exact ⟨_, h.symm, _, wd, rfl, npGet_some _ _ _ h1, npGet_some _ _ _ h2, npGet_some _ _ _ h3, npGet_some _ _ _ h4, rfl⟩
    · rename_i hin
      left
      simp only [pure, Except.pure, Except.ok.injEq] at h
      cases hids : o.targetids with
      | none => rw [hids] at hin; simp [bossWanted] at hin
      | some ids => rw [hids] at hin; exact ⟨ids, rfl, by simpa [bossWanted] using hin, h.symm⟩

theorem entries_pick (exp : K → K) (o : BossOpts) (plates : List (SpPlate K)) (file : BossFile K) (c : BossFile K) (ndiag : Nat) (t : Int)
    (ht : ∀ ids, o.targetids = some ids → t ∈ ids) : ∀ (fs : List Nat) (es : List (Option (Int × BossSpec K))),
    List.Forall₂ (fun f e => fiberEntry exp o.useFrames
      (bossId (decide (1 < plates.length)) (thingTable plates) (commonOrZero (plates.map (·.plate))) (commonOrZero (plates.map (·.mjd))) file.name) o.targetids ndiag c f = .ok e) fs es →
    ∃ fibs : List Nat, fibs.Sublist fs ∧ (∀ fib ∈ fs, fib ∈ fibs ↔ IsId plates file fib t) ∧ List.Forall₂ (fun fib s => IsSpectrum exp o c ndiag fib s) fibs (pick t es) := by
  intro fs es h
  induction h with
  | nil => exact ⟨[], .slnil, by simp, .nil⟩
  | @cons f e fs es h1 _ ih =>
    obtain ⟨fibs, s1, s2, s3⟩ := ih
    obtain ⟨t', hid, hcase⟩ := fiberEntry_ok exp o _ ndiag c f e h1
    obtain ⟨i1, i2⟩ := bossId_spec plates file f t' hid
    have hmem : ∀ fib, fib ∈ fs → (fib ∈ fibs ↔ IsId plates file fib t) := s2
    by_cases htt : t' = t
    · subst htt
      rcases hcase with ⟨ids, a, b, _⟩ | ⟨_, s, he, hs⟩
      · exact absurd (ht ids a) b
      · refine ⟨f :: fibs, s1.cons_cons f, ?_, ?_⟩
        · intro fib hf
          by_cases e : fib = f
          · subst e; exact ⟨fun _ => i1, fun _ => List.mem_cons_self ..⟩
          · have hf' : fib ∈ fs := (List.mem_cons.1 hf).resolve_left e
            rw [← hmem fib hf', List.mem_cons]
            exact ⟨fun h => h.resolve_left e, .inr⟩
        · have : pick t' (e :: es) = s :: pick t' es := by simp [pick, he]
          rw [this]; exact .cons hs s3
    · refine ⟨fibs, s1.cons f, ?_, ?_⟩
      · intro fib hf
        by_cases e : fib = f
        · subst e
          have hn : ¬ IsId plates file fib t := fun hI => htt (i2 t hI).symm
          refine ⟨fun hm => ?_, fun hI => absurd hI hn⟩
          exact (hmem fib (s1.subset hm)).1 hm
        · exact hmem fib ((List.mem_cons.1 hf).resolve_left e)
      · have : pick t (e :: es) = pick t es := by
          rcases hcase with ⟨_, _, _, he⟩ | ⟨_, s, he, _⟩
          · simp [pick, he]
          · simp [pick, he, htt]
        rw [this]; exact s3

/-- One file. -/
theorem fileStep_ok (exp : K → K) (o : BossOpts) (plates : List (SpPlate K)) (dic r : PyDict Int (List (BossSpec K))) (file : BossFile K)
    (h : fileStep exp o (decide (1 < plates.length)) (thingTable plates) (commonOrZero (plates.map (·.plate))) (commonOrZero (plates.map (·.mjd))) dic file = .ok r) :
    (plates.length ≤ 1 → file.plateid = commonOrZero (plates.map (·.plate))) ∧
    ((PyDict.keys dic).Nodup → (PyDict.keys r).Nodup) ∧
    (∀ t, (∀ ids, o.targetids = some ids → t ∈ ids) → ∃ block, FileSpectra exp o plates t file block ∧ (PyDict.get? r t).getD [] = (PyDict.get? dic t).getD [] ++ block) ∧
    (∀ t, t ∈ PyDict.keys r ↔ t ∈ PyDict.keys dic ∨ ((∀ ids, o.targetids = some ids → t ∈ ids) ∧ ∃ fib ∈ fibersOf o file, IsId plates file fib t)) := by
  unfold fileStep at h
  split at h
  · simp [throw, throwThe, MonadExceptOf.throw, bind, Except.bind] at h
  rename_i hassert
  simp only [bind, Except.bind] at h
  cases hc : cropFile o.useFrames o.useAndmask file with
  | error e => rw [hc] at h; simp at h
  | ok c =>
    rw [hc] at h
    simp only at h
    cases hn : bossNdiag c.wdisp with
    | error e => rw [hn] at h; simp at h
    | ok ndiag =>
      rw [hn] at h
      simp only at h
      obtain ⟨es, h1, h2⟩ := fiberFold exp o.useFrames _ o.targetids ndiag c (fibersOf o file) dic r h
      subst h2
      refine ⟨fun hp => ?_, addEntries_nodup es dic, ?_, ?_⟩
      · by_contra hne
        exact hassert ⟨by simp; omega, fun e => hne e.symm⟩
      · intro t ht
        obtain ⟨fibs, s1, s2, s3⟩ := entries_pick exp o plates file c ndiag t ht (fibersOf o file) es h1
        exact ⟨pick t es, ⟨c, ndiag, hc, hn, fibs, s1, s2, s3⟩, addEntries_get? t es dic⟩
      · intro t
        rw [addEntries_keys]
        apply or_congr Iff.rfl
        generalize fibersOf o file = fs at h1
        clear h
        induction h1 with
        | nil => simp
        | @cons f e fs es e1 _ ih =>
          obtain ⟨t', hid, hcase⟩ := fiberEntry_ok exp o _ ndiag c f e e1
          obtain ⟨i1, i2⟩ := bossId_spec plates file f t' hid
          constructor
          · rintro ⟨s, hs⟩
            rcases List.mem_cons.1 hs with he | he
            · rcases hcase with ⟨_, _, _, hnone⟩ | ⟨hall, s', hs', _⟩
              · rw [hnone] at he; simp at he
              · rw [hs'] at he
                simp only [Option.some.injEq, Prod.mk.injEq] at he
                obtain ⟨rfl, _⟩ := he
                exact ⟨hall, f, List.mem_cons_self .., i1⟩
            · obtain ⟨a, fib, b, d⟩ := ih.1 ⟨s, he⟩
              exact ⟨a, fib, List.mem_cons_of_mem _ b, d⟩
          · rintro ⟨hall, fib, hf, hI⟩
            rcases List.mem_cons.1 hf with he | he
            · subst he
              have := i2 t hI
              subst this
              rcases hcase with ⟨ids, a, b, _⟩ | ⟨_, s', hs', _⟩
              · exact absurd (hall ids a) b
              · exact ⟨s', by rw [hs']; exact List.mem_cons_self ..⟩
            · obtain ⟨s, hs⟩ := ih.2 ⟨hall, fib, he, hI⟩
              exact ⟨s, List.mem_cons_of_mem _ hs⟩

/-- All files. -/
theorem filesFold (exp : K → K) (o : BossOpts) (plates : List (SpPlate K)) : ∀ (files : List (BossFile K)) (dic r : PyDict Int (List (BossSpec K))),
    files.foldlM (fileStep exp o (decide (1 < plates.length)) (thingTable plates) (commonOrZero (plates.map (·.plate))) (commonOrZero (plates.map (·.mjd)))) dic = .ok r →
    (PyDict.keys dic).Nodup →
    (PyDict.keys r).Nodup ∧ (plates.length ≤ 1 → ∀ file ∈ files, file.plateid = commonOrZero (plates.map (·.plate))) ∧
    (∀ t, (∀ ids, o.targetids = some ids → t ∈ ids) → ∃ blocks, List.Forall₂ (FileSpectra exp o plates t) files blocks ∧
      (PyDict.get? r t).getD [] = (PyDict.get? dic t).getD [] ++ blocks.flatten) ∧
    (∀ t, t ∈ PyDict.keys r ↔ t ∈ PyDict.keys dic ∨ ((∀ ids, o.targetids = some ids → t ∈ ids) ∧ ∃ file ∈ files, ∃ fib ∈ fibersOf o file, IsId plates file fib t))
  | [], dic, r, h, hn => by
    simp only [List.foldlM_nil, pure, Except.pure, Except.ok.injEq] at h
    subst h
    exact ⟨hn, by simp, fun t _ => ⟨[], .nil, by simp⟩, by simp⟩
  | file :: files, dic, r, h, hn => by
    rw [List.foldlM_cons] at h
    cases hs : fileStep exp o (decide (1 < plates.length)) (thingTable plates) (commonOrZero (plates.map (·.plate))) (commonOrZero (plates.map (·.mjd))) dic file with
    | error e => rw [hs] at h; simp [bind, Except.bind] at h
    | ok d1 =>
      rw [hs] at h
      obtain ⟨a1, a2, a3, a4⟩ := fileStep_ok exp o plates dic d1 file hs
      obtain ⟨b1, b2, b3, b4⟩ := filesFold exp o plates files d1 r h (a2 hn)
      refine ⟨b1, ?_, ?_, ?_⟩
      · intro hp f hf
        rcases List.mem_cons.1 hf with e | e
        · rw [e]; exact a1 hp
        · exact b2 hp f e
      · intro t ht
        obtain ⟨block, e1, e2⟩ := a3 t ht
        obtain ⟨blocks, e3, e4⟩ := b3 t ht
        exact ⟨block :: blocks, .cons e1 e3, by rw [e4, e2, List.flatten_cons, List.append_assoc]⟩
      · intro t
        rw [b4, a4]
        simp only [List.mem_cons, exists_eq_or_imp, or_assoc]
        constructor
        · rintro (h | h | h)
          · exact .inl h
          · exact .inr ⟨h.1, .inl h.2⟩
          · exact .inr ⟨h.1, .inr h.2⟩
        · rintro (h | ⟨h1, h | h⟩)
          · exact .inl h
          · exact .inr (.inl ⟨h1, h⟩)
          · exact .inr (.inr ⟨h1, h⟩)

/-! ### C88 -/

/-- **C88** what `read_spectra` returns. The targets are sorted and distinct; without `targetids` they are exactly the IDs of the fibres read, with `targetids` exactly the requested ones; each target has,
file by file and in fibre order, exactly the spectra of the fibres with its ID (at least one), each with the row of that fibre. -/
theorem C88_spectra (exp : K → K) (fmt : Int → PyStr) (o : BossOpts) (plates : List (SpPlate K)) (targets : List (Int × List (BossSpec K) × PyStr))
    (h : bossReadSpectra exp fmt o plates = .ok targets) :
    (targets.map (·.1)).Pairwise (· < ·) ∧
    (∀ t, t ∈ targets.map (·.1) ↔ (∀ ids, o.targetids = some ids → t ∈ ids) ∧ ∃ file ∈ plates.flatMap (·.infiles), ∃ fib ∈ fibersOf o file, IsId plates file fib t) ∧
    (∀ ids, o.targetids = some ids → (targets.map (·.1)).Perm ids) ∧
    ∀ t ss b, (t, ss, b) ∈ targets → ∃ blocks, ss = blocks.flatten ∧ List.Forall₂ (FileSpectra exp o plates t) (plates.flatMap (·.infiles)) blocks := by
  simp only [bossReadSpectra] at h
  cases hd : (plates.flatMap (·.infiles)).foldlM (fileStep exp o (decide (1 < plates.length)) (thingTable plates) (commonOrZero (plates.map (·.plate)))
      (commonOrZero (plates.map (·.mjd)))) [] with
  | error e => rw [hd] at h; simp [bind, Except.bind] at h
  | ok dic =>
    rw [hd] at h
    obtain ⟨hn, _, hsp, hkeys⟩ := filesFold exp o plates _ [] dic hd (by simp [PyDict.keys])
    have hkeys' : ∀ t, t ∈ PyDict.keys dic ↔ (∀ ids, o.targetids = some ids → t ∈ ids) ∧ ∃ file ∈ plates.flatMap (·.infiles), ∃ fib ∈ fibersOf o file, IsId plates file fib t := by
      intro t; rw [hkeys t]; simp [PyDict.keys]
    simp only [bind, Except.bind] at h
    split at h
    · simp at h
    rename_i ts hts
    split at h
    · simp [throw, throwThe, MonadExceptOf.throw] at h
    rename_i hlen
    simp only [pure, Except.pure, Except.ok.injEq] at h
    subst h
    have hinv := mapM_inv _ _ _ hts
    have hinv' : List.Forall₂ (fun t x => x.1 = t ∧ PyDict.get? dic t = some x.2.1) (pySort (fun a b => decide (a ≤ b)) (o.targetids.getD (PyDict.keys dic))) ts := by
      refine hinv.imp ?_
      intro t x hx
      cases hg : PyDict.get dic t with
      | error e => rw [hg] at hx; simp at hx
      | ok s =>
        rw [hg] at hx
        simp only [pure, Except.pure, Except.ok.injEq] at hx
        rw [← hx]
        exact ⟨rfl, get_some _ _ _ hg⟩
    have hmap : ts.map (·.1) = pySort (fun a b => decide (a ≤ b)) (o.targetids.getD (PyDict.keys dic)) := by
      generalize pySort (fun a b => decide (a ≤ b)) (o.targetids.getD (PyDict.keys dic)) = L at hinv'
      clear hts hinv hlen
      induction hinv' with
      | nil => rfl
      | cons e _ ih => rw [List.map_cons, e.1, ih]
    have hperm : (pySort (fun a b => decide (a ≤ b)) (o.targetids.getD (PyDict.keys dic))).Perm (o.targetids.getD (PyDict.keys dic)) := List.perm_insertionSort _ _
    have hsub : ∀ t ∈ ts.map (·.1), t ∈ PyDict.keys dic := by
      rw [hmap]
      clear hmap hperm
      generalize pySort (fun a b => decide (a ≤ b)) (o.targetids.getD (PyDict.keys dic)) = L at hinv'
      clear hts hinv hlen
      induction hinv' with
      | nil => simp
      | cons e _ ih =>
        intro t ht
        rcases List.mem_cons.1 ht with e' | e'
        · subst e'; rw [PyDict.mem_keys_iff, e.2]; rfl
        · exact ih t e'
    have hreq : ∀ t ∈ PyDict.keys dic, t ∈ ts.map (·.1) := by
      intro t ht
      rw [hmap, hperm.mem_iff]
      cases htid : o.targetids with
      | none => exact ht
      | some ids => exact ((hkeys' t).1 ht).1 ids htid
    have hnod : (ts.map (·.1)).Nodup := by
      have hl : (ts.map (·.1)).length = (PyDict.keys dic).length := by rw [List.length_map]; omega
      have : (PyDict.keys dic).Perm (ts.map (·.1)) :=
        (List.subperm_of_subset hn hreq).perm_of_length_le (by omega)
      exact this.nodup_iff.1 hn
    refine ⟨?_, ?_, ?_, ?_⟩
    · have hs : (pySort (fun a b => decide (a ≤ b)) (o.targetids.getD (PyDict.keys dic))).Pairwise (· ≤ ·) := by
        have := List.pairwise_insertionSort (fun a b : Int => decide (a ≤ b) = true) (o.targetids.getD (PyDict.keys dic))
        unfold pySort
        exact this.imp (by intro a b h; simpa using h)
      rw [← hmap] at hs
      exact (hs.and hnod).imp (fun {a b} ⟨h1, h2⟩ => lt_of_le_of_ne h1 h2)
    · intro t
      rw [← hkeys' t]
      exact ⟨hsub t, hreq t⟩
    · intro ids hids
      rw [hmap]
      rw [hids] at hperm
      rw [hids]
      exact hperm
    · intro t ss b hm
      have htm : t ∈ PyDict.keys dic := hsub t (List.mem_map.2 ⟨_, hm, rfl⟩)
      obtain ⟨blocks, e1, e2⟩ := hsp t ((hkeys' t).1 htm).1
      have hg : PyDict.get? dic t = some ss := by
        generalize pySort (fun a b => decide (a ≤ b)) (o.targetids.getD (PyDict.keys dic)) = L at hinv'
        clear hts hinv hlen hmap hsub hreq hnod hperm
        induction hinv' with
        | nil => simp at hm
        | cons e _ ih =>
          rcases List.mem_cons.1 hm with e' | e'
          · subst e'; have := e.2; rw [← e.1] at this; exact this
          · exact ih e'
      rw [hg] at e2
      refine ⟨blocks, by simpa [PyDict.get?] using e2, e1⟩

/-- **C88** a requested target that no fibre has makes the read fail. -/
theorem C88_missing (exp : K → K) (fmt : Int → PyStr) (o : BossOpts) (plates : List (SpPlate K)) (ids : List Int) (hids : o.targetids = some ids) (t : Int) (ht : t ∈ ids)
    (hno : ∀ file ∈ plates.flatMap (·.infiles), ∀ fib ∈ fibersOf o file, ¬ IsId plates file fib t) : ∃ e, bossReadSpectra exp fmt o plates = .error e := by
  cases h : bossReadSpectra exp fmt o plates with
  | error e => exact ⟨e, rfl⟩
  | ok targets =>
    obtain ⟨_, h2, h3, _⟩ := C88_spectra exp fmt o plates targets h
    obtain ⟨file, hf, fib, hfib, hI⟩ := ((h2 t).1 ((h3 ids hids).mem_iff.2 ht)).2
    exact absurd hI (hno file hf fib hfib)

/-- **C88** so does a target requested twice. -/
theorem C88_duplicate (exp : K → K) (fmt : Int → PyStr) (o : BossOpts) (plates : List (SpPlate K)) (ids : List Int) (hids : o.targetids = some ids) (hd : ¬ ids.Nodup) :
    ∃ e, bossReadSpectra exp fmt o plates = .error e := by
  cases h : bossReadSpectra exp fmt o plates with
  | error e => exact ⟨e, rfl⟩
  | ok targets =>
    obtain ⟨h1, _, h3, _⟩ := C88_spectra exp fmt o plates targets h
    exact absurd ((h3 ids hids).nodup_iff.1 (h1.imp (fun {a b} h => ne_of_lt h))) hd

/-- **C88** with several spPlate files whose files have different names, the ID of a fibre is the `THING_ID` of its own plate's photoPosPlate file. -/
theorem C88_thing_id (plates : List (SpPlate K)) (hn : ((plates.flatMap (·.infiles)).map (·.name)).Nodup) (p : SpPlate K) (hp : p ∈ plates) (file : BossFile K) (hf : file ∈ p.infiles)
    (fib : Nat) (t : Int) (hm : 1 < plates.length) : IsId plates file fib t ↔ p.thingId[fib - 1]? = some t := by
  have hg : PyDict.get? (thingTable plates) file.name = some p.thingId := by
    unfold thingTable
    have hkeys : (plates.flatMap (fun p => p.infiles.map (fun f => (f.name, p.thingId)))).map (·.1) = (plates.flatMap (·.infiles)).map (·.name) := by
      rw [List.map_flatMap, List.map_flatMap]
      congr 1; funext q
      rw [List.map_map]; rfl
    have hnod : ((plates.flatMap (fun p => p.infiles.map (fun f => (f.name, p.thingId)))).map (·.1)).Nodup := by rw [hkeys]; exact hn
    have hmem : (file.name, p.thingId) ∈ plates.flatMap (fun p => p.infiles.map (fun f => (f.name, p.thingId))) :=
      List.mem_flatMap.2 ⟨p, hp, List.mem_map.2 ⟨file, hf, rfl⟩⟩
    generalize plates.flatMap (fun p => p.infiles.map (fun f => (f.name, p.thingId))) = E at hnod hmem
    have := PyDict.get?_update ([] : PyDict PyStr (List Int)) E file.name hnod
    unfold PyDict.update at this
    rw [this, PyDict.get?_of_mem E hnod _ _ hmem]; rfl
  unfold IsId
  rw [if_neg (by omega)]
  constructor
  · rintro ⟨ids, h1, h2⟩
    rw [hg] at h1
    simp only [Option.some.injEq] at h1
    rw [h1]; exact h2
  · intro h
    exact ⟨_, hg, h⟩

/-- **C88** with a single spPlate file, the ID of a fibre is made of its plate, its MJD and the fibre number. -/
theorem C88_plate_id (p : SpPlate K) (file : BossFile K) (fib : Nat) (t : Int) : IsId [p] file fib t ↔ t = p.plate * 1000000000 + p.mjd * 10000 + fib := by
  simp [IsId, commonOrZero]

/-- **C88** and a file of another plate is refused. -/
theorem C88_plate_check (exp : K → K) (fmt : Int → PyStr) (o : BossOpts) (p : SpPlate K) (file : BossFile K) (hf : file ∈ p.infiles) (hne : file.plateid ≠ p.plate) :
    ∃ e, bossReadSpectra exp fmt o [p] = .error e := by
  cases h : bossReadSpectra exp fmt o [p] with
  | error e => exact ⟨e, rfl⟩
  | ok targets =>
    exfalso
    simp only [bossReadSpectra] at h
    cases hd : ([p].flatMap (·.infiles)).foldlM (fileStep exp o (decide (1 < [p].length)) (thingTable [p]) (commonOrZero ([p].map (·.plate))) (commonOrZero ([p].map (·.mjd)))) [] with
    | error e => rw [hd] at h; simp [bind, Except.bind] at h
    | ok dic =>
      obtain ⟨_, hpl, _⟩ := filesFold exp o [p] _ [] dic hd (by simp [PyDict.keys])
      have := hpl (by simp) file (by simpa using hf)
      exact hne (by simpa [commonOrZero] using this)

/-- `v` is the common value of the list, or 0 if there is none. -/
def IsCommon (xs : List Int) (v : Int) : Prop := (xs ≠ [] ∧ ∀ x ∈ xs, x = v) ∨ (v = 0 ∧ ¬ ∃ w, xs ≠ [] ∧ ∀ x ∈ xs, x = w)

theorem commonOrZero_spec (xs : List Int) : IsCommon xs (commonOrZero xs) := by
  unfold commonOrZero
  split
  · rename_i x hx
    refine .inl ⟨?_, ?_⟩
    · intro e; rw [e] at hx; simp at hx
    · intro y hy
      have := List.mem_dedup.2 hy
      rw [hx] at this; simpa using this
  · rename_i hx
    refine .inr ⟨rfl, ?_⟩
    rintro ⟨w, hne, hw⟩
    apply hx w
    have hall : ∀ y ∈ xs.dedup, y = w := fun y hy => hw y (List.mem_dedup.1 hy)
    have hnod := List.nodup_dedup xs
    have hne' : xs.dedup ≠ [] := by
      intro e
      apply hne
      exact (List.dedup_eq_nil _).1 e
    generalize xs.dedup = d at hall hnod hne'
    match d with
    | [] => exact absurd rfl hne'
    | [a] => rw [hall a (by simp)]
    | a :: b :: r =>
      have h1 := hall a (by simp)
      have h2 := hall b (by simp)
      rw [h1, h2] at hnod
      simp at hnod

/-- **C88** every target has the same `BRICKNAME`: the first eight characters of plate-mjd, with 0 for plates or MJDs that differ. -/
theorem C88_brickname (exp : K → K) (fmt : Int → PyStr) (o : BossOpts) (plates : List (SpPlate K)) (targets : List (Int × List (BossSpec K) × PyStr))
    (h : bossReadSpectra exp fmt o plates = .ok targets) : ∀ t ss b, (t, ss, b) ∈ targets →
      ∃ pl mj, IsCommon (plates.map (·.plate)) pl ∧ IsCommon (plates.map (·.mjd)) mj ∧ b = (fmt pl ++ ['-'] ++ fmt mj).take 8 := by
  suffices hs : ∀ t ss b, (t, ss, b) ∈ targets → b = (fmt (commonOrZero (plates.map (·.plate))) ++ ['-'] ++ fmt (commonOrZero (plates.map (·.mjd)))).take 8 by
    intro t ss b hm
    exact ⟨_, _, commonOrZero_spec _, commonOrZero_spec _, hs t ss b hm⟩
  simp only [bossReadSpectra] at h
  cases hd : (plates.flatMap (·.infiles)).foldlM (fileStep exp o (decide (1 < plates.length)) (thingTable plates) (commonOrZero (plates.map (·.plate)))
      (commonOrZero (plates.map (·.mjd)))) [] with
  | error e => rw [hd] at h; simp [bind, Except.bind] at h
  | ok dic =>
    rw [hd] at h
    simp only [bind, Except.bind] at h
    split at h
    · simp at h
    rename_i ts hts
    split at h
    · simp [throw, throwThe, MonadExceptOf.throw] at h
    rename_i hlen
    clear hlen
    simp only [pure, Except.pure, Except.ok.injEq] at h
    subst h
    intro t ss b hm
    have hinv := mapM_inv _ _ _ hts
    generalize pySort (fun a b => decide (a ≤ b)) (o.targetids.getD (PyDict.keys dic)) = L at hinv
    clear hts
    induction hinv with
    | nil => simp at hm
    | @cons x y _ _ e _ ih =>
      rcases List.mem_cons.1 hm with e' | e'
      · subst e'
        cases hg : PyDict.get dic x with
        | error e2 => rw [hg] at e; simp at e
        | ok s =>
          rw [hg] at e
          simp only [pure, Except.pure, Except.ok.injEq, Prod.mk.injEq] at e
          exact e.2.2.symm
      · exact ih e'

/-- **C88**, refuted part: `BRICKNAME` does not tell plates and dates apart: eight characters do not hold a four-digit plate, a dash and a five-digit MJD, so all MJDs with the same first three digits
get the same name. -/
theorem C88_brickname_refuted (fmt : Int → PyStr) (plate mjd mjd' : Int) (hp : (fmt plate).length = 4) (h : (fmt mjd).take 3 = (fmt mjd').take 3) :
    brickname fmt plate mjd = brickname fmt plate mjd' := by
  have key : ∀ a : PyStr, (fmt plate ++ ['-'] ++ a).take 8 = fmt plate ++ ['-'] ++ a.take 3 := by
    intro a
    have h5 : (fmt plate ++ ['-']).length = 5 := by rw [List.length_append, hp]; rfl
    rw [List.take_append, h5, List.take_of_length_le (by omega)]
  unfold brickname
  rw [key, key, h]

example : brickname (fun n => (toString n).toList) 3586 55181 = "3586-551".toList := by decide +kernel
example : brickname (fun n => (toString n).toList) 3586 55181 = brickname (fun n => (toString n).toList) 3586 55199 := by decide +kernel

/-- A plate with two fibres, three pixels each. -/
def exFile (name : PyStr) (pl : Int) : BossFile ℚ :=
  ⟨name, pl, [1, 2], [[1, 2, 3], [4, 5, 6]], [[1, 1, 1], [2, 2, 2]], [], [[3500, 5000, 10000], [3500, 5000, 10000]], [[1, 1, 1], [1, 1, 1]], false⟩
/-- Two plates; the object 88 is on both. -/
def exPlates : List (SpPlate ℚ) := [⟨3586, 55181, [exFile "a".toList 3586], [77, 88]⟩, ⟨3587, 55182, [exFile "b".toList 3587], [88, -1]⟩]

example : (bossReadSpectra (fun _ => (1 : ℚ)) (fun n => (toString n).toList) ⟨none, false, none, false⟩ exPlates).toOption.map
    (fun ts => ts.map (fun t => (t.1, t.2.1.map (·.flux)))) = some [(-1, [[4, 5]]), (77, [[1, 2]]), (88, [[4, 5], [1, 2]])] := by decide +kernel
example : (bossReadSpectra (fun _ => (1 : ℚ)) (fun n => (toString n).toList) ⟨none, false, none, false⟩ (exPlates.take 1)).toOption.map
    (fun ts => ts.map (fun t => (t.1, t.2.1.map (·.flux)))) = some [(3586551810001, [[1, 2]]), (3586551810002, [[4, 5]])] := by decide +kernel
example : bossReadSpectra (fun _ => (1 : ℚ)) (fun n => (toString n).toList) ⟨some [5], false, none, false⟩ exPlates = .error .keyError := by decide +kernel

/-! ### C90 the wavelength range -/

theorem foldl_min_same (k : Nat) (r : List K) : (List.replicate k r).foldl (List.zipWith min) r = r := by
  induction k with
  | zero => rfl
  | succ k ih =>
    rw [List.replicate_succ, List.foldl_cons]
    have : List.zipWith min r r = r := by
      rw [List.zipWith_self]; simp
    rw [this, ih]

variable [IsStrictOrderedRing K]

theorem nearest_common (m : Nat) (la : List K) (l : K) (p : Nat) (h : nearestPixel (List.replicate (m + 1) la) l = .ok p) :
    ∃ hp : p < la.length, (∀ q (hq : q < la.length), |la[p] - l| ≤ |la[q] - l|) ∧ ∀ q (hq : q < p), |la[p] - l| < |la[q] - l| := by
  unfold nearestPixel colMinDist at h
  rw [List.map_replicate, List.replicate_succ] at h
  simp only [bind, Except.bind, foldl_min_same] at h
  have hne : la.map (fun w => |w - l|) ≠ [] := by
    intro e; rw [e] at h; simp [npArgmin, npMin, pyMinBy, bind, Except.bind] at h
  obtain ⟨i, hi, h1, h2, h3⟩ := npArgmin_first _ hne
  rw [h1] at h
  simp only [Except.ok.injEq] at h
  subst h
  have hi' : i < la.length := by simpa using hi
  refine ⟨hi', ?_, ?_⟩
  · intro q hq
    have := h2 (|la[q] - l|) (List.mem_map.2 ⟨la[q], List.getElem_mem _, rfl⟩)
    simpa using this
  · intro q hq
    have := h3 q hq
    simpa using this

/-- **C90** the limits: 3500 to 10000 Angstrom for spPlate files, 3500 to 6000 for single blue and 5500 to 10000 for single red exposures. -/
theorem C90_limits (blue : Bool) : bossLimits (K := K) false blue = (3500, 10000) ∧ bossLimits (K := K) true true = (3500, 6000) ∧ bossLimits (K := K) true false = (5500, 10000) := ⟨rfl, rfl, rfl⟩

/-- **C90** with `use_andmask` a pixel keeps its weight if its mask is 0 and gets weight 0 otherwise, and goes through the same cut. -/
theorem C90_mask (useFrames : Bool) (f c : BossFile K) (h : cropFile useFrames true f = .ok c) :
    ∃ imin imax, c.flux = f.flux.map (fun r => (r.take imax).drop imin) ∧ ∀ (i : Nat) (ri : List K) (mi : List Int), f.ivar[i]? = some ri → f.andmask[i]? = some mi → ∃ ci : List K, c.ivar[i]? = some ci ∧
      ∀ (p : Nat) v m, imin + p < imax → ri[imin + p]? = some v → mi[imin + p]? = some m → ci[p]? = some (if m = 0 then v else 0) := by
  simp only [cropFile] at h
  cases h1 : nearestPixel f.wave (bossLimits useFrames f.blue : K × K).1 with
  | error e => rw [h1] at h; simp [bind, Except.bind] at h
  | ok imin =>
    cases h2 : nearestPixel f.wave (bossLimits useFrames f.blue : K × K).2 with
    | error e => rw [h1, h2] at h; simp [bind, Except.bind] at h
    | ok imax =>
      rw [h1, h2] at h
      simp only [bind, Except.bind, pure, Except.pure, Except.ok.injEq] at h
      subst h
      refine ⟨imin, imax, rfl, fun i ri mi hri hmi => ?_⟩
      simp only [if_true, cropCols, List.getElem?_map, List.getElem?_zipWith, hri, hmi, Option.map_some]
      refine ⟨_, rfl, fun p v m hp hv hm => ?_⟩
      rw [List.getElem?_drop, List.getElem?_take_of_lt hp, List.getElem?_zipWith, hv, hm]
      by_cases h0 : m = 0 <;> simp [h0]

example : (cropFile false true (⟨[], 1, [1], [[1, 2, 3, 4]], [[7, 7, 7, 7]], [[0, 4, 0, 0]], [[3500, 3600, 8000, 9990]], [[1, 1, 0, 1]], false⟩ : BossFile ℚ)).toOption.map
    (fun c => c.ivar) = some [[7, 0, 7]] := by decide +kernel

/-- **C90** an spPlate file has one increasing wavelength grid `la` for all fibres. The pixels used are `imin ≤ p < imax`, the same for all fibres and for wavelength, flux, weight and dispersion. All used
pixels lie at or below the upper limit, all but the first above the lower limit; and every pixel between the limits is used, except possibly pixel `imax` (the one closest to the upper limit). -/
theorem C90_range (useFrames useAndmask : Bool) (f c : BossFile K) (m : Nat) (la : List K) (hw : f.wave = List.replicate (m + 1) la) (hinc : la.Pairwise (· < ·))
    (h : cropFile useFrames useAndmask f = .ok c) :
    ∃ imin imax, c.wave = List.replicate (m + 1) ((la.take imax).drop imin) ∧ c.flux = f.flux.map (fun r => (r.take imax).drop imin) ∧
      (useAndmask = false → c.ivar = f.ivar.map (fun r => (r.take imax).drop imin)) ∧ imax < la.length ∧
      (∀ p (hp : p < la.length), imin ≤ p → p < imax → la[p] ≤ (bossLimits useFrames f.blue).2 ∧ (p ≠ imin → (bossLimits useFrames f.blue).1 < la[p])) ∧
      (∀ p (hp : p < la.length), (bossLimits useFrames f.blue).1 ≤ la[p] → la[p] ≤ (bossLimits useFrames f.blue).2 → imin ≤ p ∧ p ≤ imax) := by
  simp only [cropFile] at h
  rw [hw] at h
  cases h1 : nearestPixel (List.replicate (m + 1) la) (bossLimits useFrames f.blue : K × K).1 with
  | error e => rw [h1] at h; simp [bind, Except.bind] at h
  | ok imin =>
    cases h2 : nearestPixel (List.replicate (m + 1) la) (bossLimits useFrames f.blue : K × K).2 with
    | error e => rw [h1, h2] at h; simp [bind, Except.bind] at h
    | ok imax =>
      rw [h1, h2] at h
      simp only [bind, Except.bind, pure, Except.pure, Except.ok.injEq] at h
      subst h
      obtain ⟨hi, a1, _⟩ := nearest_common m la _ imin h1
      obtain ⟨hj, b1, _⟩ := nearest_common m la _ imax h2
      have hlt : ∀ p q (hp : p < la.length) (hq : q < la.length), p < q → la[p] < la[q] := fun p q hp hq hpq => (List.pairwise_iff_getElem.1 hinc) p q hp hq hpq
      refine ⟨imin, imax, by simp [cropCols], rfl, ?_, hj, ?_, ?_⟩
      · intro hu; rw [hu]; rfl
      · intro p hp hip hpj
        constructor
        · by_contra hc
          push Not at hc
          have e1 := hlt p imax hp hj hpj
          have e2 := b1 p hp
          rw [abs_of_pos (by linarith), abs_of_pos (by linarith)] at e2
          linarith
        · intro hne
          by_contra hc
          push Not at hc
          have e1 := hlt imin p hi hp (by omega)
          have e2 := a1 p hp
          rw [abs_of_nonpos (by linarith), abs_of_nonpos (by linarith)] at e2
          linarith
      · intro p hp hlo hhi
        constructor
        · by_contra hc
          push Not at hc
          have e1 := hlt p imin hp hi hc
          have e2 := a1 p hp
          rw [abs_of_nonneg (by linarith), abs_of_nonneg (by linarith)] at e2
          linarith
        · by_contra hc
          push Not at hc
          have e1 := hlt imax p hj hp hc
          have e2 := b1 p hp
          rw [abs_of_nonpos (by linarith), abs_of_nonpos (by linarith)] at e2
          linarith

/-- **C90**, refuted part: pixel `imax` itself is never used. In particular a spectrum that ends at or before the upper limit loses its last pixel. -/
theorem C90_last_pixel_refuted (useFrames useAndmask : Bool) (f c : BossFile K) (m : Nat) (la : List K) (hw : f.wave = List.replicate (m + 1) la) (hinc : la.Pairwise (· < ·))
    (h : cropFile useFrames useAndmask f = .ok c) (hend : ∀ w ∈ la, w ≤ (bossLimits useFrames f.blue).2) :
    ∃ imin, c.wave = List.replicate (m + 1) ((la.take (la.length - 1)).drop imin) := by
  simp only [cropFile] at h
  rw [hw] at h
  cases h1 : nearestPixel (List.replicate (m + 1) la) (bossLimits useFrames f.blue : K × K).1 with
  | error e => rw [h1] at h; simp [bind, Except.bind] at h
  | ok imin =>
    cases h2 : nearestPixel (List.replicate (m + 1) la) (bossLimits useFrames f.blue : K × K).2 with
    | error e => rw [h1, h2] at h; simp [bind, Except.bind] at h
    | ok imax =>
      rw [h1, h2] at h
      simp only [bind, Except.bind, pure, Except.pure, Except.ok.injEq] at h
      subst h
      obtain ⟨hj, b1, _⟩ := nearest_common m la _ imax h2
      have : imax = la.length - 1 := by
        by_contra hne
        have hl : la.length - 1 < la.length := by omega
        have e1 : la[imax] < la[la.length - 1] := (List.pairwise_iff_getElem.1 hinc) imax (la.length - 1) hj hl (by omega)
        have e2 := b1 (la.length - 1) hl
        have e3 := hend _ (List.getElem_mem hl)
        rw [abs_of_nonpos (by linarith), abs_of_nonpos (by linarith)] at e2
        linarith
      subst this
      exact ⟨imin, by simp [cropCols]⟩

/-- **C90** a spectrum entirely above the upper limit has no pixels left, and the read fails. -/
theorem C90_no_overlap (useFrames useAndmask : Bool) (f c : BossFile K) (m : Nat) (la : List K) (hw : f.wave = List.replicate (m + 1) la) (hinc : la.Pairwise (· < ·))
    (h : cropFile useFrames useAndmask f = .ok c) (hab : ∀ w ∈ la, (bossLimits useFrames f.blue).2 ≤ w) : bossNdiag c.wdisp = .error .valueError := by
  have hlim : (bossLimits useFrames f.blue : K × K).1 ≤ (bossLimits useFrames f.blue).2 := by
    unfold bossLimits; split
    · split <;> norm_num
    · norm_num
  simp only [cropFile] at h
  rw [hw] at h
  cases h1 : nearestPixel (List.replicate (m + 1) la) (bossLimits useFrames f.blue : K × K).1 with
  | error e => rw [h1] at h; simp [bind, Except.bind] at h
  | ok imin =>
    cases h2 : nearestPixel (List.replicate (m + 1) la) (bossLimits useFrames f.blue : K × K).2 with
    | error e => rw [h1, h2] at h; simp [bind, Except.bind] at h
    | ok imax =>
      rw [h1, h2] at h
      simp only [bind, Except.bind, pure, Except.pure, Except.ok.injEq] at h
      subst h
      obtain ⟨hj, b1, _⟩ := nearest_common m la _ imax h2
      have : imax = 0 := by
        by_contra hne
        have e1 : la[0] < la[imax] := (List.pairwise_iff_getElem.1 hinc) 0 imax (by omega) hj (by omega)
        have e2 := b1 0 (by omega)
        have e3 := hab _ (List.getElem_mem (show 0 < la.length by omega))
        rw [abs_of_nonneg (by linarith), abs_of_nonneg (by linarith)] at e2
        linarith
      subst this
      unfold bossNdiag
      have : ((cropCols imin 0 f.wdisp).map (fun r => r.map fixWidth)).flatten = ([] : List K) := by
        rw [List.flatten_eq_nil_iff]
        intro l hl
        simp only [cropCols, List.take_zero, List.drop_nil, List.map_map, List.mem_map, Function.comp] at hl
        obtain ⟨_, _, rfl⟩ := hl
        rfl
      rw [this]; rfl

/-- a grid of five pixels: 3000, 3600, 8000, 9990, 10400 -/
example : (cropFile false false (⟨[], 1, [1], [[1, 2, 3, 4, 5]], [[1, 1, 1, 1, 1]], [], [[3000, 3600, 8000, 9990, 10400]], [[1, 1, 0, 1, 1]], false⟩ : BossFile ℚ)).toOption.map
    (fun c => (c.wave, c.flux, c.wdisp)) = some ([[3600, 8000]], [[2, 3]], [[1, 2]]) := by decide +kernel

/-! ### C91 `rrboss` -/

/-- **C91** jobs with `--mintarget k*n -n n`, `k = 0, 1, ...`, process every target exactly once, in order. -/
theorem C91_ranges {V : Type} (n : Nat) (targets : List V) (jobs : Nat) (h : targets.length ≤ jobs * n) :
    (List.range jobs).flatMap (fun k => rrbossSelect (some (k * n)) (some n) targets) = targets := by
  have key : ∀ j, (List.range j).flatMap (fun k => rrbossSelect (some (k * n)) (some n) targets) = targets.take (j * n) := by
    intro j
    induction j with
    | zero => simp
    | succ j ih =>
      rw [List.range_succ, List.flatMap_append, ih]
      simp only [List.flatMap_cons, List.flatMap_nil, List.append_nil, rrbossSelect]
      rw [Nat.succ_mul, List.take_add]
  rw [key, List.take_of_length_le h]

/-- **C91** `-n` alone takes the first `n` targets. -/
theorem C91_first {V : Type} (n : Nat) (targets : List V) : rrbossSelect none (some n) targets = targets.take n := rfl

/-- **C91**, refuted part: `--mintarget` without `-n` is ignored: all targets are processed, from the first one. -/
theorem C91_mintarget_refuted {V : Type} (m : Nat) (targets : List V) : rrbossSelect (some m) none targets = targets := rfl

/-- **C91**, refuted part: `rrboss --archetypes PATH` always fails, because `zfind` is given the path instead of the archetypes. -/
theorem C91_archetypes_refuted (s : PyStr) (h : s ≠ []) : zfindArchTypes (rrbossArchArg (some s)) = .error .attributeError := by
  simp [zfindArchTypes, rrbossArchArg, h]

example : (List.range 3).flatMap (fun k => rrbossSelect (some (k * 2)) (some 2) [10, 20, 30, 40, 50]) = [10, 20, 30, 40, 50] := by decide

end
end Boss
end Redrock
