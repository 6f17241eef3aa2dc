import Verif.Lemmas.Spmd

/-! Building a complete run of all ranks phase by phase. -/
set_option linter.unusedSectionVars false
namespace Redrock.Spmd
open Redrock

/-- quiet state: nothing under way -/
def quiet (rest : Nat → List Op) : St := { rest := rest, chan := fun _ _ => 0, dead := fun _ => false, aborted := false }

/-- ranks below `n` do `f`, the others `g` -/
def glue (n : Nat) (f g : Nat → List Op) : Nat → List Op := fun r => if r < n then f r else g r

/-- the ranks below `n` can all do `f` and be quiet again -/
def Phase (size n : Nat) (f : Nat → List Op) : Prop :=
  ∃ N, ∀ k g : Nat → List Op, Chain size noFail true N (quiet (glue n (fun r => f r ++ k r) g)) (quiet (glue n k g))

theorem Phase.nil (size n : Nat) : Phase size n (fun _ => []) := ⟨0, fun _ _ => .refl _⟩

theorem Phase.congr {size n : Nat} {f f' : Nat → List Op} (h : Phase size n f) (he : ∀ r, r < n → f' r = f r) : Phase size n f' := by
  obtain ⟨N, h⟩ := h
  refine ⟨N, fun k g => ?_⟩
  have : glue n (fun r => f' r ++ k r) g = glue n (fun r => f r ++ k r) g := by
    funext r; simp only [glue]; split_ifs with hr
    · rw [he r hr]
    · rfl
  rw [this]; exact h k g

theorem Phase.append {size n : Nat} {f f' : Nat → List Op} (h : Phase size n f) (h' : Phase size n f') : Phase size n (fun r => f r ++ f' r) := by
  obtain ⟨N, h⟩ := h
  obtain ⟨N', h'⟩ := h'
  refine ⟨N + N', fun k g => ?_⟩
  have := (h (fun r => f' r ++ k r) g).trans (h' k g)
  simpa only [List.append_assoc] using this

theorem Phase.flatMap {size n : Nat} {β : Type} (l : List β) {f : Nat → β → List Op} (h : ∀ x ∈ l, Phase size n (fun r => f r x)) : Phase size n (fun r => l.flatMap (f r)) := by
  induction l with
  | nil => exact Phase.nil _ _
  | cons x l ih =>
    have := (h x (by simp)).append (ih (fun y hy => h y (by simp [hy])))
    exact this.congr (fun r _ => by simp)

/-- one step of a rank on its own -/
theorem fire_solo (size : Nat) (s : St) (r : Nat) (op : Op) (k : List Op) (h1 : s.aborted = false) (h2 : s.dead r = false) (h3 : r < size) (h4 : s.rest r = op :: k) (h5 : en true r s.chan op) :
    fire size noFail true s r = some { s with rest := upd s.rest r k, chan := ef r s.chan op } := by
  rw [fire_iff]
  exact ⟨⟨h1, h2, h3⟩, Or.inr ⟨op, k, h4, h5, rfl⟩⟩

/-- one call of every rank, in order -/
theorem each_one (size n m : Nat) (hm : m ≤ n) (hn : n ≤ size) (op : Nat → Op) (C : Nat → Nat → Nat → Nat) (hC : ∀ r, r < n → C (r + 1) = ef r (C r) (op r)) (hen : ∀ r, r < n → en true r (C r) (op r))
    (k g : Nat → List Op) :
    Chain size noFail true m { quiet (glue n (fun r => op r :: k r) g) with chan := C 0 }
      { quiet (glue n (fun r => if r < m then k r else op r :: k r) g) with chan := C m } := by
  induction m with
  | zero => simpa using Chain.refl _
  | succ m ih =>
    refine (ih (by omega)).trans (.cons (r := m) (fire_solo size _ m (op m) (k m) rfl rfl (by omega) ?_ (hen m (by omega))) ?_)
    · simp only [quiet, glue]; rw [if_pos (by omega), if_neg (by omega)]
    · have : ({ { quiet (glue n (fun r => if r < m then k r else op r :: k r) g) with chan := C m } with
          rest := upd (glue n (fun r => if r < m then k r else op r :: k r) g) m (k m), chan := ef m (C m) (op m) } : St) =
          { quiet (glue n (fun r => if r < m + 1 then k r else op r :: k r) g) with chan := C (m + 1) } := by
        rw [hC m (by omega)]
        simp only [quiet, St.mk.injEq, and_true]
        funext q
        simp only [upd, glue]
        by_cases hq : q = m
        · subst hq; simp; omega
        · simp only [hq, if_false]
          have : (q < m + 1) = (q < m) := by apply propext; omega
          simp only [this]
      rw [← this]
      exact .refl _

theorem each_all (size n : Nat) (hn : n ≤ size) (op : Nat → Op) (C : Nat → Nat → Nat → Nat) (hC : ∀ r, r < n → C (r + 1) = ef r (C r) (op r)) (hen : ∀ r, r < n → en true r (C r) (op r))
    (k g : Nat → List Op) :
    Chain size noFail true n { quiet (glue n (fun r => op r :: k r) g) with chan := C 0 } { quiet (glue n k g) with chan := C n } := by
  have h := each_one size n n le_rfl hn op C hC hen k g
  have e : glue n (fun r => if r < n then k r else op r :: k r) g = glue n k g := by
    funext q; simp only [glue]; split_ifs <;> rfl
  rwa [e] at h

/-- local work of a rank -/
theorem solo_works (size : Nat) (ws : List Op) (hw : ∀ o ∈ ws, ∃ h s, o = Op.work h s) (s : St) (r : Nat) (k : List Op) (h1 : s.aborted = false) (h2 : s.dead r = false) (h3 : r < size)
    (h4 : s.rest r = ws ++ k) : Chain size noFail true ws.length s { s with rest := upd s.rest r k } := by
  induction ws generalizing s with
  | nil =>
    have : upd s.rest r k = s.rest := by
      funext q; simp only [upd]; split_ifs with hq
      · subst hq; rw [h4]; rfl
      · rfl
    rw [this]; exact .refl _
  | cons w ws ih =>
    obtain ⟨h, site, rfl⟩ := hw w (by simp)
    refine .cons (r := r) (fire_solo size s r _ (ws ++ k) h1 h2 h3 h4 trivial) ?_
    have := ih (fun o ho => hw o (by simp [ho])) { s with rest := upd s.rest r (ws ++ k), chan := ef r s.chan (.work h site) } h1 h2 (by simp [upd])
    have e : upd (upd s.rest r (ws ++ k)) r k = upd s.rest r k := by funext q; simp only [upd]; split_ifs <;> rfl
    simp only [e] at this
    exact this

theorem Phase.works {size n : Nat} (hn : n ≤ size) {f : Nat → List Op} (hf : ∀ r, r < n → ∀ o ∈ f r, ∃ h s, o = Op.work h s) : Phase size n f := by
  refine ⟨((List.range n).map (fun r => (f r).length)).sum, fun k g => ?_⟩
  have h : ∀ m, m ≤ n → Chain size noFail true ((List.range m).map (fun r => (f r).length)).sum (quiet (glue n (fun r => f r ++ k r) g))
      (quiet (glue n (fun r => if r < m then k r else f r ++ k r) g)) := by
    intro m
    induction m with
    | zero => intro _; simpa using Chain.refl _
    | succ m ih =>
      intro hm
      rw [List.range_succ, List.map_append, List.sum_append]
      simp only [List.map_cons, List.map_nil, List.sum_cons, List.sum_nil, Nat.add_zero]
      refine (ih (by omega)).trans ?_
      have := solo_works size (f m) (hf m (by omega)) (quiet (glue n (fun r => if r < m then k r else f r ++ k r) g)) m (k m) rfl rfl (by omega)
        (by simp only [quiet, glue]; rw [if_pos (by omega), if_neg (by omega)])
      have e : upd (glue n (fun r => if r < m then k r else f r ++ k r) g) m (k m) = glue n (fun r => if r < m + 1 then k r else f r ++ k r) g := by
        funext q
        simp only [upd, glue]
        by_cases hq : q = m
        · subst hq; simp; omega
        · simp only [hq, if_false]
          have : (q < m + 1) = (q < m) := by apply propext; omega
          simp only [this]
      simp only [quiet, e] at this
      exact this
  have := h n le_rfl
  have e : glue n (fun r => if r < n then k r else f r ++ k r) g = glue n k g := by
    funext q; simp only [glue]; split_ifs <;> rfl
  rwa [e] at this

theorem Phase.coll {size n : Nat} (hn : n ≤ size) (h0 : 0 < n) (c : Coll) (site : Site) : Phase size n (fun _ => [.coll n c site]) := by
  refine ⟨1, fun k g => .cons (r := 0) ((fire_iff size true _ 0 _).2 ⟨⟨rfl, rfl, by omega⟩, Or.inl ⟨n, c, site, k 0, by simp [quiet, glue, h0], ⟨rfl, h0, ?_⟩, rfl⟩⟩) ?_⟩
  · rw [allAt_iff]
    intro q hq
    exact ⟨rfl, by simp [quiet, glue, hq]⟩
  · have : (fun q => if q < n then ((quiet (glue n (fun r => [Op.coll n c site] ++ k r) g)).rest q).tail else (quiet (glue n (fun r => [Op.coll n c site] ++ k r) g)).rest q) = glue n k g := by
      funext q
      simp only [quiet, glue]
      split_ifs <;> simp
    rw [this]
    exact .refl _

theorem toProc_inj {n a b : Nat} (ha : a < n) (hb : b < n) (h : toProc n a = toProc n b) : a = b := by
  simp only [toProc] at h; split_ifs at h <;> omega
theorem toProc_from {n r : Nat} (hr : r < n) : toProc n (fromProc n r) = r := by
  simp only [toProc, fromProc]; split_ifs <;> omega
theorem fromProc_lt {n r : Nat} (hr : r < n) : fromProc n r < n := by
  simp only [fromProc]; split_ifs <;> omega

theorem Phase.cycle {size n : Nat} (hn : n ≤ size) : Phase size n (cycleOps n) := by
  refine ⟨n + (n + n), fun k g => ?_⟩
  have h1 := each_all size n hn (fun r => .isend (toProc n r)) (fun m a b => if a < m ∧ b = toProc n a then 1 else 0)
    (by
      intro r hr
      funext a b
      simp only [ef, bump]
      by_cases ha : a = r
      · subst ha
        by_cases hb : b = toProc n a <;> simp [hb]
      · have : (a < r + 1) = (a < r) := by apply propext; omega
        simp [ha, this])
    (fun _ _ => trivial) (fun r => .recv (fromProc n r) :: .wait (toProc n r) :: k r) g
  have h2 := each_all size n hn (fun r => .recv (fromProc n r)) (fun m a b => if a < n ∧ b = toProc n a ∧ ¬ b < m then 1 else 0)
    (by
      intro r hr
      funext a b
      simp only [ef, bump]
      by_cases hb : b = r
      · subst hb
        by_cases ha : a = fromProc n b
        · subst ha; simp; split_ifs <;> rfl
        · simp only [ha, false_and, if_false]
          have : ¬ (a < n ∧ b = toProc n a) := fun ⟨h1, h2⟩ => ha (toProc_inj h1 (fromProc_lt hr) (by rw [← h2, toProc_from hr]))
          rw [if_neg (fun h => this ⟨h.1, h.2.1⟩), if_neg (fun h => this ⟨h.1, h.2.1⟩)]
      · have : (b < r + 1) = (b < r) := by apply propext; omega
        simp [hb, this])
    (by
      intro r hr
      simp only [en]
      rw [if_pos ⟨fromProc_lt hr, (toProc_from hr).symm, by omega⟩]
      decide) (fun r => .wait (toProc n r) :: k r) g
  have h3 := each_all size n hn (fun r => .wait (toProc n r)) (fun _ _ _ => 0) (by intro r hr; rfl) (by intro r hr _; rfl) k g
  have e12 : (fun a b => if a < n ∧ b = toProc n a then 1 else 0) = (fun a b => if a < n ∧ b = toProc n a ∧ ¬ b < 0 then 1 else (0 : Nat)) := by
    funext a b; simp
  have e23 : (fun a b => if a < n ∧ b = toProc n a ∧ ¬ b < n then 1 else (0 : Nat)) = (fun _ _ => 0) := by
    funext a b
    rw [if_neg]
    rintro ⟨h1, h2, h3⟩
    apply h3
    rw [h2]
    simp only [toProc]; split_ifs <;> omega
  have e00 : (fun a b => if a < 0 ∧ b = toProc n a then 1 else (0 : Nat)) = (fun _ _ => 0) := by
    funext a b; simp
  rw [e12, e00] at h1
  rw [e23] at h2
  exact h1.trans (h2.trans h3)

/-- a blocking send of rank `q` to rank 0 and its reception -/
theorem Phase.sendRecv {size n : Nat} (hn : n ≤ size) (q : Nat) (hq0 : 0 < q) (hq : q < n) : Phase size n (fun r => if r = 0 then [.recv q] else if r = q then send 0 else []) := by
  refine ⟨3, fun k g => ?_⟩
  have hq0' : q ≠ 0 := by omega
  refine .cons (r := q) (fire_solo size _ q (.isend 0) (.wait 0 :: k q) rfl rfl (by omega) ?_ trivial) ?_
  · simp [quiet, glue, hq, hq0', send]
  refine .cons (r := 0) (fire_solo size _ 0 (.recv q) (k 0) rfl rfl (by omega) ?_ ?_) ?_
  · have h0 : (0 : Nat) ≠ q := by omega
    simp only [quiet, upd, h0, if_false, glue, show 0 < n by omega, if_true]
    rfl
  · simp [en, ef, bump]
  refine .cons (r := q) (fire_solo size _ q (.wait 0) (k q) rfl rfl (by omega) ?_ ?_) ?_
  · simp [upd, hq0']
  · intro _
    simp [ef, bump, quiet]
  have : St.mk (upd (upd (upd (glue n (fun r => (if r = 0 then [Op.recv q] else if r = q then send 0 else []) ++ k r) g) q (Op.wait 0 :: k q)) 0 (k 0)) q (k q))
      (ef q (ef 0 (ef q (fun _ _ => 0) (Op.isend 0)) (Op.recv q)) (Op.wait 0)) (fun _ => false) false = quiet (glue n k g) := by
    simp only [quiet, St.mk.injEq, and_true]
    constructor
    · funext x
      simp only [upd, glue]
      by_cases h1 : x = q
      · subst h1; simp [hq]
      · by_cases h2 : x = 0
        · subst h2; simp only [if_neg h1, if_true, if_pos (show 0 < n by omega)]
        · simp [h1, h2]
    · funext a b
      simp only [ef, bump]
      split_ifs <;> omega
  rw [← this]
  exact .refl _

end Redrock.Spmd
