import Verif.Model.Minima
import Verif.Lemmas.Py
import Verif.Lemmas.Dict
import Mathlib.Tactic.Linarith

set_option linter.unusedSectionVars false

namespace Redrock

theorem mem_npWhere (m : List Bool) (i : Nat) : i ∈ npWhere m ↔ m[i]? = some true := by
  simp only [npWhere, List.mem_filter, List.mem_range, List.getD_eq_getElem?_getD]
  constructor
  · rintro ⟨h, h2⟩
    rw [List.getElem?_eq_getElem h] at h2 ⊢
    simpa using h2
  · intro h
    have hi : i < m.length := by
      by_contra hc
      rw [List.getElem?_eq_none (by omega)] at h
      simp at h
    exact ⟨hi, by rw [h]; rfl⟩

theorem npWhere_nodup (m : List Bool) : (npWhere m).Nodup :=
  List.Nodup.filter _ List.nodup_range

theorem npWhere_sorted (m : List Bool) : (npWhere m).Pairwise (· < ·) :=
  List.Pairwise.filter _ List.pairwise_lt_range

theorem npTake_ok {V : Type} (x : List V) (ii : List Nat) (h : ∀ i ∈ ii, i < x.length) :
    ∃ r, npTake x ii = .ok r ∧ r.length = ii.length ∧ ∀ k : Nat, r[k]? = (ii[k]?).bind (fun i => x[i]?) := by
  induction ii with
  | nil => exact ⟨[], rfl, rfl, by simp⟩
  | cons i ii ih =>
    obtain ⟨r, h1, h2, h3⟩ := ih (fun j hj => h j (List.mem_cons_of_mem _ hj))
    have hi := h i List.mem_cons_self
    refine ⟨x[i] :: r, ?_, by simp [h2], ?_⟩
    · unfold npTake at h1 ⊢
      rw [List.mapM_cons, h1, List.getElem?_eq_getElem hi]
      rfl
    · intro k
      cases k with
      | zero => simp [List.getElem?_eq_getElem hi]
      | succ k => simpa using h3 k

/-- Local minimum, edges included (`IsLocalMin` of the spec, unfolded to index form). -/
theorem findMinima_mask {K : Type} [LinearOrder K] (x : List (Ext K)) (i : Nat) :
    i ∈ npWhere (List.zipWith (· && ·) (true :: List.zipWith Ext.le x.tail x.dropLast)
      (List.zipWith Ext.le x.dropLast x.tail ++ [true])) ↔
    (x = [] ∧ i = 0) ∨ (i < x.length ∧ (∀ a b, 0 < i → x[i]? = some a → x[i-1]? = some b → Ext.le a b = true) ∧
      (∀ a b, x[i]? = some a → x[i+1]? = some b → Ext.le a b = true)) := by
  rw [mem_npWhere, List.getElem?_zipWith]
  cases hx : x with
  | nil => cases i <;> simp
  | cons v vs =>
    rw [← hx]
    have hne : x ≠ [] := by simp [hx]
    have hpos : 0 < x.length := List.length_pos_iff.2 hne
    have hlen : (List.zipWith Ext.le x.dropLast x.tail).length = x.length - 1 := by simp
    simp only [hne, false_and, false_or]
    by_cases hi : i < x.length
    · simp only [hi, true_and]
      have hl : (true :: List.zipWith Ext.le x.tail x.dropLast)[i]? =
          some (if h : 0 < i then Ext.le x[i] x[i-1] else true) := by
        cases i with
        | zero => simp
        | succ k =>
          simp only [List.getElem?_cons_succ, List.getElem?_zipWith, List.getElem?_tail,
            List.getElem?_dropLast]
          rw [List.getElem?_eq_getElem hi, if_pos (by omega), List.getElem?_eq_getElem (by omega)]
          simp
      have hr : (List.zipWith Ext.le x.dropLast x.tail ++ [true])[i]? =
          some (if h : i + 1 < x.length then Ext.le x[i] x[i+1] else true) := by
        by_cases h1 : i + 1 < x.length
        · rw [List.getElem?_append_left (by rw [hlen]; omega), List.getElem?_zipWith, List.getElem?_tail,
            List.getElem?_dropLast, if_pos (by omega), List.getElem?_eq_getElem hi, List.getElem?_eq_getElem h1]
          simp [h1]
        · rw [List.getElem?_append_right (by rw [hlen]; omega), hlen]
          have : i - (x.length - 1) = 0 := by omega
          simp [this, h1]
      rw [hl, hr]
      simp only [Option.some.injEq, Bool.and_eq_true]
      refine and_congr ?_ ?_
      · by_cases h0 : 0 < i
        · simp only [h0, dif_pos, forall_true_left]
          rw [List.getElem?_eq_getElem hi, List.getElem?_eq_getElem (show i - 1 < x.length by omega)]
          simp
        · simp [h0]
      · by_cases h1 : i + 1 < x.length
        · simp only [h1, dif_pos]
          rw [List.getElem?_eq_getElem hi, List.getElem?_eq_getElem h1]
          simp
        · simp [h1]
    · simp only [hi, false_and, iff_false]
      have : (true :: List.zipWith Ext.le x.tail x.dropLast)[i]? = none := by
        apply List.getElem?_eq_none
        simp; omega
      rw [this]
      simp

/-- a lawful `argsort`, to show that the contract can be met -/
def stableArgsort {V : Type} (le : V → V → Bool) (v : List V) : List Nat :=
  (pySort (fun p q => le p.1 q.1) v.zipIdx).map (·.2)

theorem stableArgsort_isArgsort {V : Type} (le : V → V → Bool)
    (htrans : ∀ a b c, le a b = true → le b c = true → le a c = true)
    (htotal : ∀ a b, le a b = true ∨ le b a = true) : IsArgsort le (stableArgsort le) := by
  intro v
  constructor
  · unfold stableArgsort
    refine ((pySort_perm _ _).map _).trans ?_
    rw [List.zipIdx_map_snd, List.range_eq_range']
  · unfold stableArgsort
    rw [List.pairwise_map]
    have hp := pySort_pairwise (fun p q : V × Nat => le p.1 q.1) (fun a b c => htrans _ _ _)
      (fun a b => htotal _ _) v.zipIdx
    have hm : ∀ p ∈ pySort (fun p q : V × Nat => le p.1 q.1) v.zipIdx, v[p.2]? = some p.1 := by
      intro p hp
      have := (pySort_perm _ _).subset hp
      rw [List.mem_zipIdx_iff_getElem?] at this
      exact this
    refine List.Pairwise.imp_of_mem ?_ hp
    intro p q hpm hqm hle a b ha hb
    rw [hm p hpm] at ha
    rw [hm q hqm] at hb
    cases ha; cases hb
    exact hle

theorem Ext.sortLe_trans {K : Type} [LinearOrder K] (a b c : Ext K) (h1 : Ext.sortLe a b = true)
    (h2 : Ext.sortLe b c = true) : Ext.sortLe a c = true := by
  cases a <;> cases b <;> cases c <;> simp_all [Ext.sortLe, Ext.le]
  exact le_trans h1 h2

theorem Ext.sortLe_total {K : Type} [LinearOrder K] (a b : Ext K) :
    Ext.sortLe a b = true ∨ Ext.sortLe b a = true := by
  cases a <;> cases b <;> simp_all [Ext.sortLe, Ext.le]
  exact le_total _ _

end Redrock
