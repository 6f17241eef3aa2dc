import Verif.Model.Dict
import Mathlib.Data.List.Basic
import Mathlib.Data.List.Nodup

namespace Redrock
namespace PyDict
set_option linter.unusedSectionVars false
variable {κ ν : Type} [DecidableEq κ]

theorem get?_nil (k : κ) : PyDict.get? ([] : PyDict κ ν) k = none := rfl

theorem get?_cons (k k' : κ) (v : ν) (d : PyDict κ ν) :
    PyDict.get? ((k, v) :: d) k' = if k = k' then some v else PyDict.get? d k' := by
  unfold PyDict.get?
  by_cases h : k = k' <;> simp [h]

theorem get?_append (d e : PyDict κ ν) (k : κ) :
    PyDict.get? (d ++ e) k = (PyDict.get? d k).or (PyDict.get? e k) := by
  unfold PyDict.get?
  rw [List.find?_append]
  cases d.find? (fun e => decide (e.1 = k)) <;> simp

theorem get?_map_set (d : PyDict κ ν) (k : κ) (v : ν) (k' : κ) :
    PyDict.get? (d.map (fun e => if e.1 = k then (k, v) else e)) k' =
      if k = k' then (PyDict.get? d k).map (fun _ => v) else PyDict.get? d k' := by
  induction d with
  | nil => simp [get?_nil]
  | cons e d ih =>
    obtain ⟨a, b⟩ := e
    simp only [List.map_cons]
    by_cases h1 : a = k
    · subst h1
      simp only [if_true, get?_cons]
      by_cases h2 : a = k'
      · simp [h2]
      · simp [h2, ih]
    · simp only [h1, if_false, get?_cons]
      by_cases h2 : a = k'
      · subst h2; simp [Ne.symm h1]
      · simp [h2, ih]

theorem any_iff_get? (d : PyDict κ ν) (k : κ) :
    d.any (fun e => decide (e.1 = k)) = (PyDict.get? d k).isSome := by
  unfold PyDict.get?
  rw [Option.isSome_map, Bool.eq_iff_iff, List.find?_isSome]
  simp

theorem get?_set (d : PyDict κ ν) (k : κ) (v : ν) (k' : κ) :
    PyDict.get? (PyDict.set d k v) k' = if k = k' then some v else PyDict.get? d k' := by
  unfold PyDict.set
  rw [any_iff_get?]
  cases h : PyDict.get? d k with
  | none =>
    simp only [Option.isSome_none, Bool.false_eq_true, if_false]
    rw [get?_append, get?_cons, get?_nil]
    by_cases hk : k = k'
    · subst hk; simp [h]
    · simp [hk]
  | some x =>
    simp only [Option.isSome_some, if_true]
    rw [get?_map_set, h]; simp

theorem mem_keys_iff (d : PyDict κ ν) (k : κ) : k ∈ PyDict.keys d ↔ (PyDict.get? d k).isSome := by
  rw [← any_iff_get?]
  simp [PyDict.keys]

theorem keys_set (d : PyDict κ ν) (k : κ) (v : ν) :
    PyDict.keys (PyDict.set d k v) = if k ∈ PyDict.keys d then PyDict.keys d else PyDict.keys d ++ [k] := by
  unfold PyDict.set
  rw [any_iff_get?]
  by_cases h : k ∈ PyDict.keys d
  · have h' := (mem_keys_iff d k).1 h
    rw [if_pos h', if_pos h]
    simp only [PyDict.keys, List.map_map]
    apply List.map_congr_left
    intro e _
    simp only [Function.comp]
    split <;> simp_all
  · have h' : (PyDict.get? d k).isSome = false := by
      rw [← Bool.not_eq_true, ← mem_keys_iff]; exact h
    simp only [h', h]
    simp [PyDict.keys]

theorem keys_nodup_set (d : PyDict κ ν) (h : (PyDict.keys d).Nodup) (k : κ) (v : ν) :
    (PyDict.keys (PyDict.set d k v)).Nodup := by
  rw [keys_set]
  split
  · exact h
  · rename_i hk
    rw [List.nodup_append]
    refine ⟨h, by simp, ?_⟩
    intro a ha b hb
    simp at hb; subst hb
    rintro rfl; exact hk ha

/-- value after a sequence of assignments: the last one for the key wins -/
theorem get?_foldl_set {α : Type} (f : α → κ) (g : α → ν) (xs : List α) (d : PyDict κ ν) (k : κ) :
    PyDict.get? (xs.foldl (fun d x => PyDict.set d (f x) (g x)) d) k =
      ((xs.reverse.find? (fun x => decide (f x = k))).map g).or (PyDict.get? d k) := by
  induction xs generalizing d with
  | nil => simp
  | cons x xs ih =>
    simp only [List.foldl_cons, List.reverse_cons, ih, List.find?_append, get?_set]
    by_cases h : f x = k <;>
      cases xs.reverse.find? (fun x => decide (f x = k)) <;> simp [h]

theorem get?_update (d e : PyDict κ ν) (k : κ) (he : (PyDict.keys e).Nodup) :
    PyDict.get? (PyDict.update d e) k = (PyDict.get? e k).or (PyDict.get? d k) := by
  unfold PyDict.update
  rw [get?_foldl_set]
  congr 1
  induction e with
  | nil => rfl
  | cons x e ih =>
    obtain ⟨a, b⟩ := x
    have hn : (PyDict.keys e).Nodup := by
      simp only [PyDict.keys, List.map_cons, List.nodup_cons] at he; exact he.2
    have ha : a ∉ PyDict.keys e := by
      simp only [PyDict.keys, List.map_cons, List.nodup_cons] at he; exact he.1
    rw [List.reverse_cons, List.find?_append, get?_cons]
    have ih := ih hn
    by_cases h : a = k
    · subst h
      have h0 : PyDict.get? e a = none := by
        rw [← Option.not_isSome_iff_eq_none, ← mem_keys_iff]; exact ha
      rw [h0] at ih
      have : e.reverse.find? (fun x => decide (x.1 = a)) = none := by
        simpa using ih
      simp [this]
    · rw [if_neg h, ← ih]
      cases e.reverse.find? (fun x => decide (x.1 = k)) <;> simp [h]

theorem mem_of_get? (d : PyDict κ ν) (k : κ) (v : ν) (h : PyDict.get? d k = some v) : (k, v) ∈ d := by
  unfold PyDict.get? at h
  cases hf : d.find? (fun e => decide (e.1 = k)) with
  | none => rw [hf] at h; simp at h
  | some e =>
    rw [hf] at h
    have h1 := List.mem_of_find?_eq_some hf
    have h2 := List.find?_some hf
    simp at h h2
    obtain ⟨a, b⟩ := e
    simp only at h h2
    subst h; subst h2; exact h1

theorem get?_of_mem (d : PyDict κ ν) (hn : (PyDict.keys d).Nodup) (k : κ) (v : ν) (h : (k, v) ∈ d) :
    PyDict.get? d k = some v := by
  induction d with
  | nil => simp at h
  | cons e d ih =>
    obtain ⟨a, b⟩ := e
    simp only [PyDict.keys, List.map_cons, List.nodup_cons] at hn
    rw [get?_cons]
    rcases List.mem_cons.1 h with h | h
    · simp only [Prod.mk.injEq] at h; simp [h.1, h.2]
    · have : a ≠ k := by
        rintro rfl
        exact hn.1 (List.mem_map.2 ⟨(a, v), h, rfl⟩)
      simp [this, ih hn.2 h]

end PyDict
end Redrock
