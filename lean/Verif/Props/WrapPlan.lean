import Verif.Props.WrapRun

/-!
C99: the command lines of `wrap-redrock`, and the batch script that `wrap-redrock --plan` prints.
-/
namespace Redrock
namespace Wrap
set_option linter.unusedSectionVars false

/-- no whitespace, not empty -/
def IsWord (s : PyStr) : Prop := s ≠ [] ∧ ∀ c ∈ s, pyIsSpace c = false

/-- the arguments that are meant: the program and its options, each path one argument -/
def argv (dt : DataType) (specfile rrfile details : PyStr) (nminima : Nat) (mp : Option Nat) (archetypes : Option PyStr) : List PyStr :=
  (match dt with
   | .desi => ["rrdesi".toList, specfile]
   | .boss => ["rrboss".toList, "--spplate".toList, specfile])
  ++ ["--nminima".toList, dec nminima, "--outfile".toList, rrfile, "--details".toList, details]
  ++ (match mp with | some m => ["--mp".toList, dec m] | none => [])
  ++ (match archetypes with | some a => ["--archetypes".toList, a] | none => [])

theorem splitWsAux_word (w : PyStr) (hw : ∀ c ∈ w, pyIsSpace c = false) : ∀ (acc rest : PyStr), splitWsAux acc (w ++ rest) = splitWsAux (acc ++ w) rest := by
  induction w with
  | nil => intro acc rest; simp
  | cons c w ih =>
    intro acc rest
    rw [List.cons_append, splitWsAux, hw c (by simp), if_neg (by simp), ih (fun d hd => hw d (by simp [hd]))]
    simp

theorem splitWs_word_space (w : PyStr) (hw : IsWord w) (rest : PyStr) : splitWs (w ++ ' ' :: rest) = w :: splitWs rest := by
  unfold splitWs
  rw [splitWsAux_word w hw.2, splitWsAux, if_pos (by decide), List.nil_append, if_neg hw.1]

theorem splitWs_word (w : PyStr) (hw : IsWord w) : splitWs w = [w] := by
  have := splitWsAux_word w hw.2 [] []
  unfold splitWs
  rw [List.append_nil] at this
  rw [this, splitWsAux, List.nil_append, if_neg hw.1]

theorem splitWs_words : ∀ (ws : List PyStr), (∀ w ∈ ws, IsWord w) → splitWs (List.intercalate [' '] ws) = ws
  | [], _ => rfl
  | [w], h => by simp [List.intercalate]; exact splitWs_word w (h w (by simp))
  | w :: w' :: ws, h => by
    have e : List.intercalate [' '] (w :: w' :: ws) = w ++ ' ' :: List.intercalate [' '] (w' :: ws) := by
      simp [List.intercalate, List.intersperse]
    rw [e, splitWs_word_space w (h w (by simp)), splitWs_words (w' :: ws) (fun v hv => h v (List.mem_cons_of_mem _ hv))]

theorem splitWsAux_isWord : ∀ (s acc : PyStr), (∀ c ∈ acc, pyIsSpace c = false) → ∀ w ∈ splitWsAux acc s, IsWord w := by
  intro s
  induction s with
  | nil =>
    intro acc ha w hw
    rw [splitWsAux] at hw
    split at hw
    · simp at hw
    · rename_i h0
      rw [List.mem_singleton] at hw; subst hw
      exact ⟨h0, ha⟩
  | cons c s ih =>
    intro acc ha w hw
    rw [splitWsAux] at hw
    split at hw
    · split at hw
      · exact ih [] (by simp) w hw
      · rename_i h0
        rcases List.mem_cons.1 hw with rfl | hw
        · exact ⟨h0, ha⟩
        · exact ih [] (by simp) w hw
    · rename_i hc
      refine ih _ ?_ w hw
      intro d hd
      rcases List.mem_append.1 hd with h | h
      · exact ha d h
      · rw [List.mem_singleton] at h; subst h; simpa using hc

theorem dec_isWord (n : Nat) : IsWord (dec n) := by
  constructor
  · exact Nat.toDigits_ne_nil
  · intro c hc
    have := Nat.isDigit_of_mem_toDigits (by norm_num) (by norm_num) hc
    simp only [Char.isDigit, Bool.and_eq_true, decide_eq_true_eq] at this
    obtain ⟨h1, h2⟩ := this
    have h1' : 48 ≤ c.toNat := h1
    have h2' : c.toNat ≤ 57 := h2
    simp only [pyIsSpace]
    simp only [Bool.or_eq_false_iff, Bool.and_eq_false_iff, decide_eq_false_iff_not, beq_eq_false_iff_ne]
    omega

theorem command_eq (dt : DataType) (specfile rrfile details : PyStr) (nminima : Nat) (mp : Option Nat) (archetypes : Option PyStr) :
    command dt specfile rrfile details nminima mp archetypes = List.intercalate [' '] (argv dt specfile rrfile details nminima mp archetypes) := by
  have i1 : ∀ w : PyStr, List.intercalate [' '] [w] = w := by intro w; simp [List.intercalate]
  have i2 : ∀ (w w' : PyStr) (ws : List PyStr), List.intercalate [' '] (w :: w' :: ws) = w ++ ([' '] ++ List.intercalate [' '] (w' :: ws)) := by
    intro w w' ws; simp [List.intercalate, List.intersperse]
  have e1 : "rrdesi ".toList = "rrdesi".toList ++ [' '] := rfl
  have e2 : "rrboss --spplate ".toList = "rrboss".toList ++ ([' '] ++ ("--spplate".toList ++ [' '])) := rfl
  have e3 : " --nminima ".toList = [' '] ++ ("--nminima".toList ++ [' ']) := rfl
  have e4 : " --outfile ".toList = [' '] ++ ("--outfile".toList ++ [' ']) := rfl
  have e5 : " --details ".toList = [' '] ++ ("--details".toList ++ [' ']) := rfl
  have e6 : " --mp ".toList = [' '] ++ ("--mp".toList ++ [' ']) := rfl
  have e7 : " --archetypes ".toList = [' '] ++ ("--archetypes".toList ++ [' ']) := rfl
  unfold command argv
  rw [e1, e2, e3, e4, e5, e6, e7]
  generalize "rrdesi".toList = a1
  generalize "rrboss".toList = a2
  generalize "--spplate".toList = a3
  generalize "--nminima".toList = a4
  generalize "--outfile".toList = a5
  generalize "--details".toList = a6
  generalize "--mp".toList = a7
  generalize "--archetypes".toList = a8
  cases dt <;> cases mp <;> cases archetypes <;> simp only [List.cons_append, List.nil_append, List.append_nil, i1, i2, List.append_assoc]

/-- **C99** `subprocess.call(cmd.split())` gives the program the arguments that are meant exactly if no path is empty or contains whitespace. -/
theorem C99_command_partial (dt : DataType) (specfile rrfile details : PyStr) (nminima : Nat) (mp : Option Nat) (archetypes : Option PyStr) :
    splitWs (command dt specfile rrfile details nminima mp archetypes) = argv dt specfile rrfile details nminima mp archetypes ↔
      IsWord specfile ∧ IsWord rrfile ∧ IsWord details ∧ ∀ a, archetypes = some a → IsWord a := by
  constructor
  · intro h
    have hw : ∀ w ∈ argv dt specfile rrfile details nminima mp archetypes, IsWord w := by
      rw [← h]; exact splitWsAux_isWord _ [] (by simp)
    refine ⟨hw _ ?_, hw _ ?_, hw _ ?_, ?_⟩
    · cases dt <;> simp [argv]
    · cases dt <;> simp [argv]
    · cases dt <;> simp [argv]
    · rintro a rfl
      exact hw _ (by cases dt <;> simp [argv])
  · rintro ⟨h1, h2, h3, h4⟩
    rw [command_eq]
    apply splitWs_words
    intro w hw
    have k : ∀ s : PyStr, s ≠ [] → (s.all fun c => !pyIsSpace c) = true → IsWord s := fun s hs h => ⟨hs, fun c hc => by have := List.all_eq_true.1 h c hc; simpa using this⟩
    have hopt : w ∈ (match mp with | some m => ["--mp".toList, dec m] | none => []) ++ (match archetypes with | some a => ["--archetypes".toList, a] | none => []) → IsWord w := by
      intro hw
      rcases List.mem_append.1 hw with hw | hw
      · cases mp with
        | none => simp at hw
        | some m =>
          simp only [List.mem_cons, List.not_mem_nil, or_false] at hw
          rcases hw with rfl | rfl
          · exact k _ (by decide) (by decide)
          · exact dec_isWord m
      · cases archetypes with
        | none => simp at hw
        | some a =>
          simp only [List.mem_cons, List.not_mem_nil, or_false] at hw
          rcases hw with rfl | rfl
          · exact k _ (by decide) (by decide)
          · exact h4 _ rfl
    unfold argv at hw
    rw [List.append_assoc] at hw
    rcases List.mem_append.1 hw with hw | hw
    · rcases List.mem_append.1 hw with hw | hw
      · cases dt
        · simp only [List.mem_cons, List.not_mem_nil, or_false] at hw
          rcases hw with rfl | rfl
          · exact k _ (by decide) (by decide)
          · exact h1
        · simp only [List.mem_cons, List.not_mem_nil, or_false] at hw
          rcases hw with rfl | rfl | rfl
          · exact k _ (by decide) (by decide)
          · exact k _ (by decide) (by decide)
          · exact h1
      · simp only [List.mem_cons, List.not_mem_nil, or_false] at hw
        rcases hw with rfl | rfl | rfl | rfl | rfl | rfl
        · exact k _ (by decide) (by decide)
        · exact dec_isWord _
        · exact k _ (by decide) (by decide)
        · exact h2
        · exact k _ (by decide) (by decide)
        · exact h3
    · exact hopt hw

/-- **C99** with a blank in a directory name the program gets other arguments. -/
theorem C99_refuted_blank : ∃ specfile, splitWs (command .desi specfile "/o/redrock-1.fits".toList "/o/rrdetails-1.h5".toList 3 none none) ≠ argv .desi specfile "/o/redrock-1.fits".toList "/o/rrdetails-1.h5".toList 3 none none := by
  refine ⟨"/my data/1/spectra-1.fits".toList, ?_⟩
  intro h
  exact absurd ((C99_command_partial _ _ _ _ _ _ _).1 h).1.2 (by decide)

example : splitWs (command .boss "/r/1/spPlate-1.fits".toList "/o/redrock-1.fits".toList "/o/rrdetails-1.h5".toList 3 (some 32) none) =
    ["rrboss", "--spplate", "/r/1/spPlate-1.fits", "--nminima", "3", "--outfile", "/o/redrock-1.fits", "--details", "/o/rrdetails-1.h5", "--mp", "32"].map String.toList := by decide +kernel

/-! ### the batch script -/

/-- **C99** the time limit of the script is the job time: hours, minutes and seconds add up, minutes and seconds are below 60. -/
theorem C99_time_limit (t : Int) (h : 0 ≤ t) : ∃ hh mm ss, hms t = (hh, mm, ss) ∧ t = hh * 3600 + mm * 60 + ss ∧ 0 ≤ hh ∧ 0 ≤ mm ∧ mm < 60 ∧ 0 ≤ ss ∧ ss < 60 := by
  refine ⟨_, _, _, rfl, ?_⟩
  omega

/-- **C99** the script runs `wrap-redrock` with the same options as the plan was made for exactly if they are the defaults, but for `--reduxdir`, `--outdir` (as an absolute path) and `--mp`. -/
theorem C99_script_options_partial (abspath : PyStr → PyStr) (o : Opts) (mp : Nat) (hmp : o.mp = some mp) (habs : o.outdir.map abspath = o.outdir) :
    scriptOpts abspath o mp = o ↔ o.datatype = .desi ∧ o.prefixOpt = none ∧ o.nminima = 3 ∧ o.archetypes = none := by
  obtain ⟨a, b, c, d, e, f, g⟩ := o
  simp only at hmp habs
  subst hmp
  simp only [scriptOpts, Opts.mk.injEq, habs, true_and, and_true]
  constructor
  · rintro ⟨rfl, rfl, rfl, rfl⟩; exact ⟨rfl, rfl, rfl, rfl⟩
  · rintro ⟨rfl, rfl, rfl, rfl⟩; exact ⟨rfl, rfl, rfl, rfl⟩

/-- **C99** a plan for BOSS prints a script for DESI files. -/
theorem C99_refuted_boss_script (abspath : PyStr → PyStr) (o : Opts) (mp : Nat) (h : o.datatype = .boss) : (scriptOpts abspath o mp).datatype ≠ o.datatype := by
  rw [h]; simp [scriptOpts]

section
variable {K : Type} [Field K] [LinearOrder K] [IsStrictOrderedRing K] [FloorRing K]

theorem aim_25_minutes (argsort : List K → List Nat) (ha : IsArgsort argsort) (nt : PyStr → Nat) (specfiles : List PyStr) (hne : specfiles ≠ []) (maxnodes : Int)
    (hm : ⌈((specfiles.map nt).map (runtime (K := K))).sum / (25 * 60)⌉ ≤ maxnodes) (M : K) (hM : ∀ f ∈ specfiles, runtime (nt f) ≤ M) :
    ∃ groups, groupSpecfiles argsort nt specfiles maxnodes none = .ok groups ∧ ∀ g ∈ groups, (g.map (fun i => runtime (K := K) (nt ((specfiles[i]?).getD [])))).sum ≤ 25 * 60 + M := by
  have hpos := sum_runtime_pos (K := K) nt specfiles hne
  set rts := (specfiles.map nt).map (runtime (K := K)) with hrts
  have hceil : (1 : Int) ≤ ⌈rts.sum / (25 * 60)⌉ := Int.one_le_ceil_iff.2 (by positivity)
  have hnum : numNodes none maxnodes rts.sum = ⌈rts.sum / (25 * 60)⌉ := by unfold numNodes; exact min_eq_right hm
  set N := ⌈rts.sum / (25 * 60)⌉.toNat with hN
  have hN0 : 0 < N := by omega
  have hNK : rts.sum ≤ (25 * 60) * (N : K) := by
    have h1 : rts.sum / (25 * 60) ≤ ((⌈rts.sum / (25 * 60)⌉ : Int) : K) := Int.le_ceil _
    have h2 : ((⌈rts.sum / (25 * 60)⌉ : Int) : K) = (N : K) := by
      have : ⌈rts.sum / (25 * 60)⌉ = (N : Int) := by omega
      rw [this]; simp
    rw [h2, div_le_iff₀ (by norm_num)] at h1
    linarith
  have hp := ha rts
  have hlen : rts.length = specfiles.length := by simp [hrts]
  rw [hlen] at hp
  obtain ⟨f0, hf0⟩ := List.exists_mem_of_ne_nil specfiles hne
  have hM0 : 0 ≤ M := le_trans (by unfold runtime; positivity) (hM f0 hf0)
  have hw : ∀ i, i < specfiles.length → 0 ≤ (rts[i]?).getD 0 ∧ (rts[i]?).getD 0 ≤ M := by
    intro i hi
    have : (rts[i]?).getD 0 = runtime (nt specfiles[i]) := by simp [hrts, hi]
    rw [this]
    exact ⟨by unfold runtime; positivity, hM _ (List.getElem_mem hi)⟩
  obtain ⟨g, gw, h1, h4⟩ := C94_balanced (fun i => (rts[i]?).getD 0) N specfiles.length hN0 _ hp M hM0 hw
  obtain ⟨g', h1', h2, h3⟩ := C94_partition (fun i => (rts[i]?).getD 0) N specfiles.length hN0 _ hp
  rw [h1'] at h1
  obtain ⟨rfl, rfl⟩ := Prod.mk.inj (Except.ok.inj h1)
  refine ⟨g', ?_, ?_⟩
  · unfold groupSpecfiles
    rw [countTargets_eq nt specfiles _ (by simp)]
    simp only [bind, Except.bind, ← hrts, hnum]
    rw [if_neg (by omega)]
    simp only [pure, Except.pure, ← hN]
    rw [h1']
  · -- the total
    have htot : ((g'.map (fun gg => (gg.map (fun i => (rts[i]?).getD 0)).sum)).sum) = rts.sum := by
      have e1 : (g'.map (fun gg => (gg.map (fun i => (rts[i]?).getD 0)).sum)).sum = (g'.flatten.map (fun i => (rts[i]?).getD 0)).sum := by
        rw [List.map_flatten, List.sum_flatten, List.map_map]; rfl
      rw [e1, (h3.map _).sum_eq]
      congr 1
      apply List.ext_getElem
      · simp [hlen]
      · intro i hi1 hi2
        simp [hi2]
    -- some group is at most average
    have havg : ∃ b ∈ g'.map (fun gg => (gg.map (fun i => (rts[i]?).getD 0)).sum), b ≤ 25 * 60 := by
      by_contra hcon
      push Not at hcon
      have hlt : (N : K) * (25 * 60) < (g'.map (fun gg => (gg.map (fun i => (rts[i]?).getD 0)).sum)).sum := by
        have hl : (g'.map (fun gg => (gg.map (fun i => (rts[i]?).getD 0)).sum)).length = N := by simpa using h2
        rw [← hl]
        have hne' : g'.map (fun gg => (gg.map (fun i => (rts[i]?).getD 0)).sum) ≠ [] := by
          intro e; rw [e] at hl; simp at hl; omega
        revert hcon hne'
        generalize g'.map (fun gg => (gg.map (fun i => (rts[i]?).getD 0)).sum) = L
        intro hcon hne'
        clear * - hcon hne'
        induction L with
        | nil => exact absurd rfl hne'
        | cons a L ih =>
          have ha := hcon a (by simp)
          rcases L.eq_nil_or_concat with rfl | ⟨_, _, hL⟩
          · simpa using ha
          · have := ih (fun b hb => hcon b (by simp [hb])) (by rw [hL]; simp)
            simp only [List.length_cons, Nat.cast_add, Nat.cast_one, List.sum_cons]
            linarith
      rw [htot] at hlt
      linarith
    obtain ⟨b, hb, hb'⟩ := havg
    intro gg hgg
    have := h4 _ (List.mem_map_of_mem hgg) b hb
    have e : gg.map (fun i => runtime (K := K) (nt ((specfiles[i]?).getD []))) = gg.map (fun i => (rts[i]?).getD 0) := by
      apply List.map_congr_left
      intro i hi
      have hi' : i < specfiles.length := List.mem_range.1 (h3.mem_iff.1 (List.mem_flatten.2 ⟨gg, hgg, hi⟩))
      simp [hrts, hi']
    rw [e]
    linarith

/-- **C99** without MPI, if `--maxnodes` does not limit the number of nodes, no node is expected to take longer than 25 minutes plus the time of the longest file. A file with n targets is expected to take
30 + 0.4 n seconds. -/
theorem C99_aim_25_minutes (argsort : List K → List Nat) (ha : IsArgsort argsort) (nt : PyStr → Nat) (specfiles : List PyStr) (hne : specfiles ≠ []) (maxnodes : Int)
    (hm : ⌈(specfiles.map (fun f => 30 + 2 / 5 * (nt f : K))).sum / 1500⌉ ≤ maxnodes) (M : K) (hM : ∀ f ∈ specfiles, 30 + 2 / 5 * (nt f : K) ≤ M) :
    ∃ groups, groupSpecfiles argsort nt specfiles maxnodes none = .ok groups ∧ ∀ g ∈ groups, (g.map (fun i => 30 + 2 / 5 * (nt ((specfiles[i]?).getD []) : K))).sum ≤ 1500 + M := by
  have e : (1500 : K) = 25 * 60 := by norm_num
  rw [e] at hm ⊢
  exact aim_25_minutes argsort ha nt specfiles hne maxnodes (by rw [List.map_map]; exact hm) M hM

/-- the conditions are met -/
example : ∃ groups, groupSpecfiles (K := ℚ) argsortQ (fun _ => 2000) files3 256 none = .ok groups ∧ ∀ g ∈ groups, (g.map (fun _ => (30 + 2 / 5 * (2000 : Nat) : ℚ))).sum ≤ 1500 + 830 :=
  C99_aim_25_minutes (K := ℚ) argsortQ argsortQ_ok (fun _ => 2000) files3 (by simp [files3]) 256 (by decide +kernel) 830 (by intro f _; norm_num)

/-- **C99** a job in the `debug` queue, which allows 30 minutes, asks for at most 34.5 minutes if all cores are used. -/
theorem C99_debug_time_partial (plantime : K) (gt : GroupTimes K) (maxproc : Nat) (mp : Option Nat) (hmp : ∀ m, mp = some m → maxproc / 2 ≤ m) (t : Int)
    (h : planJob plantime gt maxproc mp = .ok (true, t)) : (t : K) ≤ 23 / 20 * 1800 := by
  unfold planJob at h
  simp only [bind, Except.bind] at h
  split at h
  · simp at h
  · rename_i m hm
    have hge : ¬ (mp.getD (maxproc / 2) < maxproc / 2) := by
      cases mp with
      | none => simp
      | some m => have := hmp m rfl; simp; omega
    rw [if_neg hge] at h
    simp only [pure, Except.pure, hm, Except.ok.injEq, Prod.mk.injEq, decide_eq_true_eq] at h
    obtain ⟨h1, h2⟩ := h
    rw [← h2]
    refine le_trans (Int.floor_le _) ?_
    linarith

/-- **C99** so the time limit of a `debug` job can exceed the 30 minutes of that queue (here 34 minutes 30 seconds); with fewer cores than half of the maximum it is not bounded at all, as the queue is chosen
before the times are scaled (here 4 hours 36 minutes in the `debug` queue). -/
theorem C99_refuted_debug : planJob (K := ℚ) 0 (.array [1800]) 64 none = .ok (true, 2070) ∧ planJob (K := ℚ) 0 (.array [1800]) 64 (some 4) = .ok (true, 8 * 2070) := by
  constructor <;> decide +kernel

/-- **C99** planning BOSS files with fewer cores than half of the maximum raises `TypeError` (a list is multiplied by a float). -/
theorem C99_refuted_boss_fewer_cores (plantime : K) (ts : List Int) (hts : ts ≠ []) (maxproc m : Nat) (h0 : 0 < m) (hm : m < maxproc / 2) :
    planJob plantime (.list ts) maxproc (some m) = .error .typeError := by
  unfold planJob
  have hmax : ∃ v, npMax (GroupTimes.vals (K := K) (.list ts)) = .ok v := by
    cases ts with
    | nil => exact absurd rfl hts
    | cons a ts => exact ⟨_, rfl⟩
  obtain ⟨v, hv⟩ := hmax
  simp only [bind, Except.bind, hv, Option.getD_some, if_pos hm, if_neg (by omega : ¬ m = 0)]
  rfl

end

end Wrap
end Redrock
