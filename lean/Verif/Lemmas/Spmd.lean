import Verif.Model.Spmd

/-! Lemmas about the interleaving of ranks: steps of different ranks commute, so that one complete run determines all runs. -/
set_option linter.unusedSectionVars false
namespace Redrock.Spmd
open Redrock

/-- no work fails -/
def noFail : Nat → Site → Bool := fun _ _ => false

/-- change of one cell -/
def bump (ch : Nat → Nat → Nat) (p q : Nat) (f : Nat → Nat) : Nat → Nat → Nat := fun a b => if a = p ∧ b = q then f (ch a b) else ch a b

/-- the call can return -/
def en (strict : Bool) (r : Nat) (ch : Nat → Nat → Nat) : Op → Prop
  | .work _ _ => True
  | .coll _ _ _ => False
  | .isend _ => True
  | .wait d => strict = true → ch r d = 0
  | .recv q => ch q r ≠ 0

/-- its effect -/
def ef (r : Nat) (ch : Nat → Nat → Nat) : Op → Nat → Nat → Nat
  | .isend d => bump ch r d (· + 1)
  | .recv q => bump ch q r (· - 1)
  | _ => ch

theorem chanEff_iff (strict : Bool) (r : Nat) (ch : Nat → Nat → Nat) (op : Op) (c : Nat → Nat → Nat) : chanEff strict r ch op = some c ↔ en strict r ch op ∧ c = ef r ch op := by
  cases op with
  | work => simp [chanEff, en, ef, eq_comm]
  | coll => simp [chanEff, en]
  | isend d => simp only [chanEff, en, ef, Option.some.injEq, true_and]; exact eq_comm
  | wait d =>
    simp only [chanEff, en, ef]
    by_cases h : strict = true ∧ ch r d ≠ 0
    · rw [if_pos h]; simp [h.1, h.2]
    · rw [if_neg h]
      have : strict = true → ch r d = 0 := fun hs => by_contra fun hc => h ⟨hs, hc⟩
      exact ⟨fun h => ⟨this, (Option.some.inj h).symm⟩, fun h => by rw [h.2]⟩
  | recv q =>
    simp only [chanEff, en, ef]
    by_cases h : ch q r = 0
    · simp [h]
    · rw [if_neg h]; simp only [Option.some.injEq, ne_eq, h, not_false_eq_true, true_and]; exact eq_comm

theorem en_pres {s1 s2 : Bool} {r1 r2 : Nat} (h : r1 ≠ r2) {ch : Nat → Nat → Nat} {op1 op2 : Op} (h1 : en s1 r1 ch op1) (h2 : en s2 r2 ch op2) : en s2 r2 (ef r1 ch op1) op2 := by
  cases op2 with
  | work => trivial
  | coll => exact h2
  | isend => trivial
  | wait d =>
    intro hs
    have h2 := h2 hs
    cases op1 <;> simp only [ef, bump] <;> (try exact h2)
    · rw [if_neg (fun hh => h hh.1.symm)]; exact h2
    · split_ifs <;> omega
  | recv q =>
    have h2 : ch q r2 ≠ 0 := h2
    show ef r1 ch op1 q r2 ≠ 0
    cases op1 <;> simp only [ef, bump] <;> (try exact h2)
    · split_ifs <;> omega
    · rw [if_neg (fun hh => h hh.2.symm)]; exact h2

theorem ef_comm {s1 s2 : Bool} {r1 r2 : Nat} (h : r1 ≠ r2) {ch : Nat → Nat → Nat} {op1 op2 : Op} (h1 : en s1 r1 ch op1) (h2 : en s2 r2 ch op2) : ef r2 (ef r1 ch op1) op2 = ef r1 (ef r2 ch op2) op1 := by
  cases op1 <;> cases op2 <;> simp only [ef] <;> simp only [en] at h1 h2 <;> funext a b <;> simp only [bump] <;> split_ifs <;> (try rfl) <;> (try omega)
  all_goals (simp_all; try omega)

/-- inversion of a step without failures -/
theorem fire_iff (size : Nat) (strict : Bool) (s : St) (r : Nat) (t : St) : fire size noFail strict s r = some t ↔
    (s.aborted = false ∧ s.dead r = false ∧ r < size) ∧
    ((∃ n c site k, s.rest r = .coll n c site :: k ∧ (r = 0 ∧ 0 < n ∧ allAt s n (.coll n c site) = true) ∧ t = { s with rest := fun q => if q < n then (s.rest q).tail else s.rest q }) ∨
     (∃ op k, s.rest r = op :: k ∧ en strict r s.chan op ∧ t = { s with rest := upd s.rest r k, chan := ef r s.chan op })) := by
  unfold fire
  by_cases hg : s.aborted = true ∨ s.dead r = true ∨ size ≤ r
  · rw [if_pos hg]
    constructor
    · intro h; cases h
    · rintro ⟨⟨h1, h2, h3⟩, -⟩
      rcases hg with hg | hg | hg
      · simp [h1] at hg
      · simp [h2] at hg
      · omega
  · rw [if_neg hg]
    have hg' : s.aborted = false ∧ s.dead r = false ∧ r < size := by
      simp only [not_or, Bool.not_eq_true, not_le] at hg; exact hg
    rw [and_iff_right hg']
    cases hr : s.rest r with
    | nil => simp
    | cons op k =>
      cases op with
      | work h site =>
        simp only [noFail, Bool.false_eq_true, if_false, Option.some.injEq, List.cons.injEq, reduceCtorEq, false_and, exists_const]
        constructor
        · rintro rfl
          exact Or.inr ⟨_, _, ⟨rfl, rfl⟩, trivial, rfl⟩
        · rintro (⟨_, _, h⟩ | ⟨op, k', ⟨rfl, rfl⟩, -, rfl⟩)
          · exact h.elim
          · rfl
      | coll n c site =>
        simp only [List.cons.injEq]
        constructor
        · intro h
          split_ifs at h with hc
          exact Or.inl ⟨n, c, site, k, ⟨rfl, rfl⟩, hc, (Option.some.inj h).symm⟩
        · rintro (⟨n', c', site', k', ⟨he, rfl⟩, hc, rfl⟩ | ⟨op, k', ⟨rfl, rfl⟩, he, -⟩)
          · cases he; rw [if_pos hc]
          · exact he.elim
      | isend d => simp only [Option.map_eq_some_iff, chanEff_iff, List.cons.injEq, reduceCtorEq, false_and, exists_const]; aesop
      | wait d => simp only [Option.map_eq_some_iff, chanEff_iff, List.cons.injEq, reduceCtorEq, false_and, exists_const]; aesop
      | recv d => simp only [Option.map_eq_some_iff, chanEff_iff, List.cons.injEq, reduceCtorEq, false_and, exists_const]; aesop

theorem allAt_iff (s : St) (n : Nat) (op : Op) : allAt s n op = true ↔ ∀ q, q < n → s.dead q = false ∧ (s.rest q).head? = some op := by
  simp [allAt]

theorem upd_self' {β : Type} (f : Nat → β) (r : Nat) (v : β) : upd f r v r = v := by simp [upd]
theorem upd_other {β : Type} (f : Nat → β) {r q : Nat} (v : β) (h : q ≠ r) : upd f r v q = f q := by simp [upd, h]
theorem upd_comm {β : Type} (f : Nat → β) {r q : Nat} (v w : β) (h : r ≠ q) : upd (upd f r v) q w = upd (upd f q w) r v := by
  funext x; simp only [upd]; split_ifs <;> simp_all

/-- steps of different ranks commute -/
theorem diamond (size : Nat) (s1 s2 : Bool) {s a b : St} {r1 r2 : Nat} (h : r1 ≠ r2) (h1 : fire size noFail s1 s r1 = some a) (h2 : fire size noFail s2 s r2 = some b) :
    ∃ d, fire size noFail s2 a r2 = some d ∧ fire size noFail s1 b r1 = some d := by
  rw [fire_iff] at h1 h2
  obtain ⟨⟨g1, g2, g3⟩, h1⟩ := h1
  obtain ⟨⟨-, g5, g6⟩, h2⟩ := h2
  rcases h1 with ⟨n, c, site, k, e1, ⟨rfl, e2, e3⟩, rfl⟩ | ⟨op1, k1, e1, e2, rfl⟩
  · rcases h2 with ⟨n', c', site', k', f1, ⟨rfl, -, -⟩, -⟩ | ⟨op2, k2, f1, f2, rfl⟩
    · exact absurd rfl h
    · rw [allAt_iff] at e3
      have hn : ¬ r2 < n := by
        intro hlt
        have := (e3 r2 hlt).2
        rw [f1] at this
        simp only [List.head?_cons, Option.some.injEq] at this
        rw [this] at f2
        exact f2
      refine ⟨{ s with rest := fun q => if q < n then (s.rest q).tail else upd s.rest r2 k2 q, chan := ef r2 s.chan op2 }, ?_, ?_⟩
      · rw [fire_iff]
        refine ⟨⟨g1, g5, g6⟩, Or.inr ⟨op2, k2, by simp only [hn, if_false]; exact f1, f2, ?_⟩⟩
        congr 1
        funext q
        by_cases hq : q = r2
        · subst hq; simp [hn, upd]
        · simp [upd, hq]
      · rw [fire_iff]
        refine ⟨⟨g1, g2, g3⟩, Or.inl ⟨n, c, site, k, ?_, ⟨rfl, e2, ?_⟩, ?_⟩⟩
        · simp only [upd_other _ _ h]; exact e1
        · rw [allAt_iff]
          intro q hq
          refine ⟨(e3 q hq).1, ?_⟩
          simp only [upd_other _ _ (show q ≠ r2 by rintro rfl; exact hn hq)]
          exact (e3 q hq).2
        · congr 1
          funext q
          by_cases hq : q = r2
          · subst hq; simp [hn]
          · simp [upd, hq]
  · rcases h2 with ⟨n, c, site, k, f1, ⟨rfl, f2, f3⟩, rfl⟩ | ⟨op2, k2, f1, f2, rfl⟩
    · rw [allAt_iff] at f3
      have hn : ¬ r1 < n := by
        intro hlt
        have := (f3 r1 hlt).2
        rw [e1] at this
        simp only [List.head?_cons, Option.some.injEq] at this
        rw [this] at e2
        exact e2
      refine ⟨{ s with rest := fun q => if q < n then (s.rest q).tail else upd s.rest r1 k1 q, chan := ef r1 s.chan op1 }, ?_, ?_⟩
      · rw [fire_iff]
        refine ⟨⟨g1, g5, g6⟩, Or.inl ⟨n, c, site, k, ?_, ⟨rfl, f2, ?_⟩, ?_⟩⟩
        · simp only [upd_other _ _ (Ne.symm h)]; exact f1
        · rw [allAt_iff]
          intro q hq
          refine ⟨(f3 q hq).1, ?_⟩
          simp only [upd_other _ _ (show q ≠ r1 by rintro rfl; exact hn hq)]
          exact (f3 q hq).2
        · congr 1
          funext q
          by_cases hq : q = r1
          · subst hq; simp [hn]
          · simp [upd, hq]
      · rw [fire_iff]
        refine ⟨⟨g1, g2, g3⟩, Or.inr ⟨op1, k1, by simp only [hn, if_false]; exact e1, e2, ?_⟩⟩
        congr 1
        funext q
        by_cases hq : q = r1
        · subst hq; simp [hn, upd]
        · simp [upd, hq]
    · refine ⟨{ s with rest := upd (upd s.rest r1 k1) r2 k2, chan := ef r2 (ef r1 s.chan op1) op2 }, ?_, ?_⟩
      · rw [fire_iff]
        exact ⟨⟨g1, g5, g6⟩, Or.inr ⟨op2, k2, by simp only [upd_other _ _ (Ne.symm h)]; exact f1, en_pres h e2 f2, rfl⟩⟩
      · rw [fire_iff]
        refine ⟨⟨g1, g2, g3⟩, Or.inr ⟨op1, k1, by simp only [upd_other _ _ h]; exact e1, en_pres (Ne.symm h) f2 e2, ?_⟩⟩
        rw [upd_comm _ _ _ h, ef_comm h e2 f2]

/-- a strict step is a step -/
theorem fire_weaken (size : Nat) {s t : St} {r : Nat} (h : fire size noFail true s r = some t) : fire size noFail false s r = some t := by
  rw [fire_iff] at h ⊢
  refine ⟨h.1, ?_⟩
  rcases h.2 with h | ⟨op, k, e1, e2, e3⟩
  · exact Or.inl h
  · refine Or.inr ⟨op, k, e1, ?_, e3⟩
    cases op <;> simp_all [en]

/-- runs built from the front -/
inductive Chain (size : Nat) (fails : Nat → Site → Bool) (strict : Bool) : Nat → St → St → Prop where
  | refl (s : St) : Chain size fails strict 0 s s
  | cons {k : Nat} {s t u : St} {r : Nat} : fire size fails strict s r = some t → Chain size fails strict k t u → Chain size fails strict (k + 1) s u

theorem Chain.trans {size : Nat} {fails : Nat → Site → Bool} {strict : Bool} {j k : Nat} {s t u : St} (h1 : Chain size fails strict j s t) (h2 : Chain size fails strict k t u) :
    Chain size fails strict (j + k) s u := by
  induction h1 with
  | refl => simpa using h2
  | cons hf _ ih => rw [Nat.add_right_comm]; exact .cons hf (ih h2)

theorem Run.toChain {size : Nat} {fails : Nat → Site → Bool} {strict : Bool} {k : Nat} {s t : St} (h : Run size fails strict k s t) : Chain size fails strict k s t := by
  induction h with
  | refl => exact .refl _
  | step _ hf ih => exact ih.trans (.cons hf (.refl _))

theorem Run.trans {size : Nat} {fails : Nat → Site → Bool} {strict : Bool} {j k : Nat} {s t u : St} (h1 : Run size fails strict j s t) (h2 : Run size fails strict k t u) :
    Run size fails strict (j + k) s u := by
  induction h2 with
  | refl => exact h1
  | step _ hf ih => exact .step (ih h1) hf

theorem Chain.toRun {size : Nat} {fails : Nat → Site → Bool} {strict : Bool} {k : Nat} {s t : St} (h : Chain size fails strict k s t) : Run size fails strict k s t := by
  induction h with
  | refl => exact .refl _
  | cons hf _ ih => rw [Nat.add_comm]; exact (Run.step (.refl _) hf).trans ih

/-- one step keeps the way to the end, and shortens it by one -/
theorem descent (size : Nat) {N : Nat} {s a F : St} {r : Nat} (hF : ∀ q, fire size noFail false F q = none) (hrun : Chain size noFail true N s F) (h : fire size noFail false s r = some a) :
    ∃ M, N = M + 1 ∧ Chain size noFail true M a F := by
  induction N generalizing s a with
  | zero => cases hrun; rw [hF] at h; cases h
  | succ N ih =>
    cases hrun with
    | @cons _ _ b _ q hf hrest =>
      refine ⟨N, rfl, ?_⟩
      by_cases hq : r = q
      · subst hq
        rw [fire_weaken size hf] at h
        cases h; exact hrest
      · obtain ⟨d, d1, d2⟩ := diamond size false true hq h hf
        obtain ⟨M, rfl, hM⟩ := ih hrest d2
        exact .cons d1 hM

/-- every run can be continued to the same end, in the strict semantics -/
theorem descent_run (size : Nat) {N k : Nat} {s a F : St} (hF : ∀ q, fire size noFail false F q = none) (hrun : Chain size noFail true N s F) (h : Run size noFail false k s a) :
    ∃ M, N = M + k ∧ Chain size noFail true M a F := by
  induction h with
  | refl => exact ⟨N, rfl, hrun⟩
  | step _ hf ih =>
    obtain ⟨M, rfl, hM⟩ := ih hrun
    obtain ⟨M', rfl, hM'⟩ := descent size hF hM hf
    exact ⟨M', by omega, hM'⟩

end Redrock.Spmd
