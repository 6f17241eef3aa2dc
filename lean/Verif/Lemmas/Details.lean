import Verif.Model.Details
import Verif.Lemmas.Dict
import Verif.Lemmas.Rebin
import Verif.Lemmas.Zfind
import Verif.Lemmas.Fitz

/-! Lemmas for the details file. -/
namespace Redrock

theorem mapM_inv {α β : Type} (f : α → Py β) : ∀ (l : List α) (r : List β), l.mapM f = .ok r → List.Forall₂ (fun a b => f a = .ok b) l r := by
  intro l
  induction l with
  | nil => intro r h; cases h; exact .nil
  | cons a l ih =>
    intro r h
    rw [List.mapM_cons] at h
    cases ha : f a with
    | error e => rw [ha] at h; cases h
    | ok b =>
      rw [ha, okBind] at h
      cases hl : l.mapM f with
      | error e => rw [hl] at h; cases h
      | ok bs =>
        rw [hl, okBind] at h
        cases h
        exact .cons ha (ih bs hl)

theorem mapM_of_forall₂ {α β : Type} (f : α → Py β) (l : List α) (r : List β) (h : List.Forall₂ (fun a b => f a = .ok b) l r) : l.mapM f = .ok r := by
  induction h with
  | nil => rfl
  | cons ha _ ih => rw [List.mapM_cons, ha, okBind, ih, okBind]; rfl

theorem mapM_filter {α β : Type} (f : α → Py β) (p : α → Bool) (q : β → Bool) (l : List α) (r : List β) (h : l.mapM f = .ok r) (hpq : ∀ a ∈ l, ∀ b, f a = .ok b → p a = q b) :
    (l.filter p).mapM f = .ok (r.filter q) := by
  have h2 := mapM_inv f l r h
  clear h
  induction h2 with
  | nil => rfl
  | @cons a b l r ha _ ih =>
    have hab := hpq a (by simp) b ha
    have ih := ih (fun x hx => hpq x (List.mem_cons_of_mem _ hx))
    by_cases hp : p a = true
    · rw [List.filter_cons_of_pos hp, List.filter_cons_of_pos (hab ▸ hp), List.mapM_cons, ha, okBind, ih, okBind]; rfl
    · rw [List.filter_cons_of_neg hp, List.filter_cons_of_neg (hab ▸ hp)]; exact ih

theorem foldlM_set_eq {α κ ν : Type} [DecidableEq κ] (A : α → Py κ) (B : α → Py ν) : ∀ (l : List α) (d : PyDict κ ν),
    l.foldlM (fun (d : PyDict κ ν) i => do
      let t ← A i
      let e ← B i
      return d.set t e) d = (do
      let ps ← l.mapM (fun i => do
        let t ← A i
        let e ← B i
        return (t, e))
      return ps.foldl (fun (d : PyDict κ ν) p => d.set p.1 p.2) d) := by
  intro l
  induction l with
  | nil => intro d; rfl
  | cons a l ih =>
    intro d
    rw [List.foldlM_cons, List.mapM_cons]
    cases hA : A a with
    | error e => rfl
    | ok t =>
      simp only [okBind]
      cases hB : B a with
      | error e => rfl
      | ok e =>
        simp only [okBind]
        show List.foldlM _ (d.set t e) l = _
        rw [ih]
        show _ = (((do
          let bs ← l.mapM (fun i => do
            let t ← A i
            let e ← B i
            return (t, e))
          return (t, e) :: bs) : Py (List (κ × ν))) >>= _)
        cases (l.mapM (fun i => do
            let t ← A i
            let e ← B i
            return (t, e)) : Py (List (κ × ν))) with
        | error e => rfl
        | ok bs => rfl

theorem foldlM_congr_mem {α β : Type} (f g : β → α → Py β) (l : List α) (h : ∀ a ∈ l, ∀ b, f b a = g b a) : ∀ b, l.foldlM f b = l.foldlM g b := by
  induction l with
  | nil => intro b; rfl
  | cons a l ih =>
    intro b
    rw [List.foldlM_cons, List.foldlM_cons, h a (by simp) b]
    cases g b a with
    | error e => rfl
    | ok c => exact ih (fun x hx => h x (List.mem_cons_of_mem _ hx)) c

theorem get?_map_pair {κ ν : Type} [DecidableEq κ] (l : List κ) (g : κ → ν) (k : κ) : PyDict.get? (l.map (fun x => (x, g x))) k = if k ∈ l then some (g k) else none := by
  induction l with
  | nil => rfl
  | cons a l ih =>
    rw [List.map_cons, PyDict.get?_cons, ih]
    by_cases h : a = k
    · subst h; simp
    · have : (k ∈ a :: l) ↔ k ∈ l := by simp [Ne.symm h]
      simp [h, this]

theorem forall₂_get?_dict {κ ν : Type} [DecidableEq κ] (l : List κ) (r : List (κ × ν)) (h : List.Forall₂ (fun k p => p.1 = k) l r) : PyDict.keys r = l := by
  induction h with
  | nil => rfl
  | cons a _ ih => simp only [PyDict.keys, List.map_cons] at ih ⊢; rw [a, ih]

theorem dict_get_ok {κ ν : Type} [DecidableEq κ] (d : PyDict κ ν) (k : κ) (v : ν) : PyDict.get d k = .ok v ↔ PyDict.get? d k = some v := by
  unfold PyDict.get
  cases PyDict.get? d k <;> simp

theorem nth_ok {α : Type} (xs : List α) (i : Nat) (x : α) : nth xs i = .ok x ↔ xs[i]? = some x := by
  unfold nth
  cases xs[i]? <;> simp

theorem vstack1_ok {K : Type} (rows r : List (List K)) (h : vstack1 rows = .ok r) : r = rows := by
  cases rows with
  | nil => cases h
  | cons a l =>
    unfold vstack1 at h
    dsimp only at h
    split_ifs at h
    exact (Except.ok.inj h).symm

theorem vstack2_ok {K : Type} (rows r : List (List (List K))) (h : vstack2 rows = .ok r) : r = rows := by
  cases rows with
  | nil => cases h
  | cons a l =>
    unfold vstack2 at h
    dsimp only at h
    split_ifs at h
    exact (Except.ok.inj h).symm

end Redrock
