import Verif.Spec.Minima
import Verif.Lemmas.Minima
import Mathlib.Tactic.Ring
import Mathlib.Tactic.FieldSimp
import Mathlib.Tactic.NormNum
import Mathlib.Tactic.Positivity
import Mathlib.Analysis.SpecialFunctions.Log.Basic

/-! Properties C12, C13, C14. -/
set_option linter.unusedSectionVars false

namespace Redrock

section
variable {K : Type} [LinearOrder K]

private theorem local_iff (x : List (Ext K)) (i : Nat) (hne : x ≠ []) :
    i ∈ npWhere (List.zipWith (· && ·) (true :: List.zipWith Ext.le x.tail x.dropLast)
      (List.zipWith Ext.le x.dropLast x.tail ++ [true])) ↔ IsLocalMin x i := by
  rw [findMinima_mask]
  simp only [hne, false_and, false_or, IsLocalMin]
  constructor
  · rintro ⟨h, h1, h2⟩
    exact ⟨x[i], List.getElem?_eq_getElem h, fun b h0 hb => h1 _ b h0 (List.getElem?_eq_getElem h) hb,
      fun b hb => h2 _ b (List.getElem?_eq_getElem h) hb⟩
  · rintro ⟨a, ha, h1, h2⟩
    have h : i < x.length := by
      by_contra hc
      rw [List.getElem?_eq_none (by omega)] at ha
      simp at ha
    refine ⟨h, ?_, ?_⟩
    · intro a' b h0 ha' hb
      rw [ha] at ha'; cases ha'
      exact h1 b h0 hb
    · intro a' b ha' hb
      rw [ha] at ha'; cases ha'
      exact h2 b hb

private theorem findMinima_core (argsort : List (Ext K) → List Nat) (harg : IsArgsort Ext.sortLe argsort)
    (x : List (Ext K)) (hne : x ≠ []) :
    ∃ r, findMinima argsort x = .ok r ∧ r.Nodup ∧ (∀ i, i ∈ r ↔ IsLocalMin x i) ∧
      r.Pairwise (fun i j => ∀ a b, x[i]? = some a → x[j]? = some b → Ext.sortLe a b = true) := by
  generalize hii : npWhere (List.zipWith (· && ·) (true :: List.zipWith Ext.le x.tail x.dropLast)
      (List.zipWith Ext.le x.dropLast x.tail ++ [true])) = ii
  have hloc : ∀ i, i ∈ ii ↔ IsLocalMin x i := by
    intro i; rw [← hii]; exact local_iff x i hne
  have hnd : ii.Nodup := by rw [← hii]; exact npWhere_nodup _
  have hlt : ∀ i ∈ ii, i < x.length := by
    intro i hi
    obtain ⟨a, ha, _⟩ := (hloc i).1 hi
    by_contra hc
    rw [List.getElem?_eq_none (by omega)] at ha
    simp at ha
  obtain ⟨xi, hx1, hx2, hx3⟩ := npTake_ok x ii hlt
  obtain ⟨hp, hs⟩ := harg xi
  have hjlt : ∀ j ∈ argsort xi, j < ii.length := by
    intro j hj
    have := hp.subset hj
    rw [List.mem_range] at this
    omega
  obtain ⟨r, hr1, hr2, hr3⟩ := npTake_ok ii (argsort xi) hjlt
  have hrmap : r = (argsort xi).map (fun j => ii.getD j 0) := by
    apply List.ext_getElem?
    intro k
    rw [hr3, List.getElem?_map]
    cases hk : (argsort xi)[k]? with
    | none => rfl
    | some j =>
      have := hjlt j (List.mem_of_getElem? hk)
      simp [List.getElem?_eq_getElem this]
  have hperm : r.Perm ii := by
    rw [hrmap]
    refine (hp.map _).trans ?_
    rw [hx2]
    have : (List.range ii.length).map (fun j => ii.getD j 0) = ii := by
      apply List.ext_getElem (by simp)
      intro k h1 h2
      simp [h2]
    rw [this]
  refine ⟨r, ?_, ?_, ?_, ?_⟩
  · unfold findMinima
    simp only [hii]
    show (npTake x ii >>= fun xi => npTake ii (argsort xi)) = _
    rw [hx1]
    exact hr1
  · exact hperm.nodup_iff.2 hnd
  · intro i; rw [hperm.mem_iff]; exact hloc i
  · rw [hrmap, List.pairwise_map]
    refine List.Pairwise.imp_of_mem ?_ hs
    intro j k hj hk h a b ha hb
    have hj' := hjlt j hj
    have hk' := hjlt k hk
    simp only [List.getD_eq_getElem?_getD, List.getElem?_eq_getElem hj', List.getElem?_eq_getElem hk',
      Option.getD_some] at ha hb
    apply h
    · rw [hx3, List.getElem?_eq_getElem hj']; exact ha
    · rw [hx3, List.getElem?_eq_getElem hk']; exact hb

private theorem local_not_nan (x : List (Ext K)) (i : Nat) (h2 : 2 ≤ x.length) (h : IsLocalMin x i) :
    ∃ a, x[i]? = some a ∧ a ≠ .nan := by
  obtain ⟨a, ha, hl, hr⟩ := h
  refine ⟨a, ha, ?_⟩
  rintro rfl
  have hi : i < x.length := by
    by_contra hc
    rw [List.getElem?_eq_none (by omega)] at ha
    simp at ha
  by_cases h0 : 0 < i
  · have := hl x[i-1] h0 (List.getElem?_eq_getElem (by omega))
    simp [Ext.le] at this
  · have := hr x[i+1] (List.getElem?_eq_getElem (by omega))
    simp [Ext.le] at this

/-- **C12** `find_minima(x)` on any non-empty array (with `inf` and `nan` allowed), for any `argsort` numpy may
use: returns each local minimum exactly once and no other index, in order of increasing value. -/
theorem C12_find_minima (argsort : List (Ext K) → List Nat) (harg : IsArgsort Ext.sortLe argsort)
    (x : List (Ext K)) (hne : x ≠ []) :
    ∃ r, findMinima argsort x = .ok r ∧ r.Nodup ∧ (∀ i, i ∈ r ↔ IsLocalMin x i) ∧
      r.Pairwise (fun i j => ∀ a b, x[i]? = some a → x[j]? = some b → Ext.le a b = true) := by
  obtain ⟨r, h1, h2, h3, h4⟩ := findMinima_core argsort harg x hne
  refine ⟨r, h1, h2, h3, ?_⟩
  by_cases hlen : 2 ≤ x.length
  · refine List.Pairwise.imp_of_mem ?_ h4
    intro i j hi hj h a b ha hb
    have := h a b ha hb
    obtain ⟨a', ha', hna⟩ := local_not_nan x i hlen ((h3 i).1 hi)
    obtain ⟨b', hb', hnb⟩ := local_not_nan x j hlen ((h3 j).1 hj)
    rw [ha] at ha'; cases ha'
    rw [hb] at hb'; cases hb'
    cases a <;> cases b <;> simp_all [Ext.sortLe]
  · have hsub : ∀ i ∈ r, i = 0 := by
      intro i hi
      obtain ⟨a, ha, _⟩ := (h3 i).1 hi
      by_contra hc
      rw [List.getElem?_eq_none (by omega)] at ha
      simp at ha
    match r, h2, hsub with
    | [], _, _ => simp
    | [_], _, _ => simp
    | a :: b :: _, h2, hsub =>
      have e1 := hsub a (by simp)
      have e2 := hsub b (by simp)
      simp [e1, e2] at h2

/-- **C12** the first index returned is a global minimum (no NaN in `x`). -/
theorem C12_first_is_global (argsort : List (Ext K) → List Nat) (harg : IsArgsort Ext.sortLe argsort)
    (x : List (Ext K)) (hne : x ≠ []) (hnan : Ext.nan ∉ x) (r : List Nat) (hr : findMinima argsort x = .ok r) :
    ∃ i a, r.head? = some i ∧ x[i]? = some a ∧ ∀ b ∈ x, Ext.le a b = true := by
  obtain ⟨r', h1, _, h3, h4⟩ := C12_find_minima argsort harg x hne
  rw [h1] at hr; cases hr
  -- some global minimum exists
  have hglob : ∃ m ∈ x, ∀ b ∈ x, Ext.le m b = true := by
    clear h1 h3 h4 
    induction x with
    | nil => exact absurd rfl hne
    | cons v vs ih =>
      have hv : v ≠ .nan := fun h => hnan (by simp [h])
      by_cases hvs : vs = []
      · subst hvs
        refine ⟨v, by simp, ?_⟩
        intro b hb
        simp only [List.mem_singleton] at hb
        subst hb
        cases b <;> simp_all [Ext.le]
      · obtain ⟨m, hm, hmin⟩ := ih hvs (fun h => hnan (List.mem_cons_of_mem _ h))
        have hmn : m ≠ .nan := fun h => hnan (by rw [← h]; exact List.mem_cons_of_mem _ hm)
        rcases Ext.sortLe_total v m with h | h
        · have hvm : Ext.le v m = true := by cases v <;> cases m <;> simp_all [Ext.sortLe]
          refine ⟨v, by simp, ?_⟩
          intro b hb
          rcases List.mem_cons.1 hb with rfl | hb
          · cases b <;> simp_all [Ext.le]
          · have := hmin b hb
            cases v <;> cases m <;> cases b <;> simp_all [Ext.le]
            exact le_trans hvm (by simpa [Ext.le] using hmin _ hb)
        · have hmv : Ext.le m v = true := by cases v <;> cases m <;> simp_all [Ext.sortLe]
          refine ⟨m, List.mem_cons_of_mem _ hm, ?_⟩
          intro b hb
          rcases List.mem_cons.1 hb with rfl | hb
          · exact hmv
          · exact hmin b hb
  obtain ⟨m, hm, hmin⟩ := hglob
  obtain ⟨k, hk, hkm⟩ := List.getElem_of_mem hm
  have hkr : k ∈ r := by
    rw [h3]
    refine ⟨m, by rw [List.getElem?_eq_getElem hk, hkm], ?_, ?_⟩
    · intro b _ hb; exact hmin b (List.mem_of_getElem? hb)
    · intro b hb; exact hmin b (List.mem_of_getElem? hb)
  cases r with
  | nil => simp at hkr
  | cons i r =>
    obtain ⟨a, ha, _⟩ := (h3 i).1 List.mem_cons_self
    refine ⟨i, a, rfl, ha, ?_⟩
    intro b hb
    rcases List.mem_cons.1 hkr with h | h
    · subst h
      rw [List.getElem?_eq_getElem hk, hkm] at ha
      cases ha
      exact hmin b hb
    · have := (List.pairwise_cons.1 h4).1 k h a m ha (by rw [List.getElem?_eq_getElem hk, hkm])
      have hb' := hmin b hb
      cases a <;> cases m <;> cases b <;> simp_all [Ext.le]
      exact le_trans this (by simpa [Ext.le] using hmin _ hb)

/-- **C12** on an empty array the code raises `IndexError`. -/
theorem C12_empty_raises (argsort : List (Ext K) → List Nat) :
    findMinima argsort ([] : List (Ext K)) = .error .indexError := by
  rfl

end

/-- the contract on `argsort` can be met -/
example : IsArgsort (Ext.sortLe (K := ℚ)) (stableArgsort Ext.sortLe) :=
  stableArgsort_isArgsort _ (fun a b c => Ext.sortLe_trans a b c) Ext.sortLe_total

/-- the docstring example `find_minima([1,1,1,2,2,2])` has the values `[0,1,2,4,5]` -/
example : findMinima (K := ℚ) (stableArgsort Ext.sortLe) ([1,1,1,2,2,2].map .fin) = .ok [0,1,2,4,5] := by
  decide +kernel

example : findMinima (K := ℚ) (stableArgsort Ext.sortLe) [.fin 3, .fin 2, .nan, .fin 5, .inf, .fin 4, .fin 1, .inf]
    = .ok [6] := by
  decide +kernel

section
variable {K : Type} [Field K] [LinearOrder K] [IsStrictOrderedRing K]

/-- values of the tophat prior, position by position, when some grid point is inside -/
private theorem tophat_get (z : List K) (z0 s0 : K) (hin : ∃ v ∈ z, |v - z0| < s0 / 2) :
    ∃ l r : Nat, l ≤ r ∧ r < z.length ∧
      (∀ v, z[l]? = some v → |v - z0| < s0 / 2) ∧ (∀ v, z[r]? = some v → |v - z0| < s0 / 2) ∧
      (∀ i v, z[i]? = some v → |v - z0| < s0 / 2 → l ≤ i ∧ i ≤ r) ∧
      (tophat z z0 s0).length = z.length ∧
      ∀ i v, z[i]? = some v → (tophat z z0 s0)[i]? = some
        (if (i = if r = z.length - 1 then r else r + 1) ∨ (i = if l = 0 then 0 else l - 1) then .inf
         else if |v - z0| < s0 / 2 then .fin 0 else .nan) := by
  generalize hp : z.map (fun v => if |v - z0| < s0 / 2 then Ext.fin (0 : K) else Ext.nan) = prior
  have hplen : prior.length = z.length := by rw [← hp]; simp
  have hpget : ∀ i : Nat, prior[i]? = (z[i]?).map (fun v => if |v - z0| < s0 / 2 then Ext.fin (0 : K) else Ext.nan) := by
    intro i; rw [← hp, List.getElem?_map]
  generalize hg : npWhere (prior.map (fun p => Ext.le (.fin 0) p)) = good
  have hmem : ∀ i, i ∈ good ↔ ∃ v, z[i]? = some v ∧ |v - z0| < s0 / 2 := by
    intro i
    rw [← hg, mem_npWhere, List.getElem?_map, hpget, Option.map_map]
    cases hz : z[i]? with
    | none => simp
    | some v =>
      by_cases hv : |v - z0| < s0 / 2 <;> simp [hv, Ext.le]
  have hsorted : good.Pairwise (· < ·) := by rw [← hg]; exact npWhere_sorted _
  obtain ⟨v, hv, hvin⟩ := hin
  obtain ⟨k, hk, hkv⟩ := List.getElem_of_mem hv
  have hkg : k ∈ good := (hmem k).2 ⟨v, by rw [List.getElem?_eq_getElem hk, hkv], hvin⟩
  have hgne : good ≠ [] := List.ne_nil_of_mem hkg
  obtain ⟨l, hl⟩ : ∃ l, good.head? = some l := by
    cases good with
    | nil => exact absurd rfl hgne
    | cons a t => exact ⟨a, rfl⟩
  obtain ⟨r, hr⟩ : ∃ r, good.getLast? = some r := ⟨_, List.getLast?_eq_some_getLast hgne⟩
  have hle : ∀ i ∈ good, l ≤ i := by
    intro i hi
    cases good with
    | nil => simp at hi
    | cons a t =>
      simp only [List.head?_cons, Option.some.injEq] at hl
      subst hl
      rcases List.mem_cons.1 hi with rfl | hi
      · exact le_refl _
      · exact le_of_lt ((List.pairwise_cons.1 hsorted).1 i hi)
  have hge : ∀ i ∈ good, i ≤ r := by
    intro i hi
    have h1 := List.dropLast_append_getLast hgne
    rw [List.getLast?_eq_some_getLast hgne] at hr
    simp only [Option.some.injEq] at hr
    rw [hr] at h1
    rw [← h1] at hi hsorted
    rw [List.pairwise_append] at hsorted
    rcases List.mem_append.1 hi with h | h
    · exact le_of_lt (hsorted.2.2 i h r (by simp))
    · simp only [List.mem_singleton] at h; omega
  have hlg : l ∈ good := List.mem_of_head? hl
  have hrg : r ∈ good := List.mem_of_getLast? hr
  have hrlt : r < z.length := by
    obtain ⟨w, hw, _⟩ := (hmem r).1 hrg
    by_contra hc
    rw [List.getElem?_eq_none (by omega)] at hw
    simp at hw
  have hall : prior.all Ext.isNan = false := by
    rw [Bool.eq_false_iff]
    intro h
    rw [List.all_eq_true] at h
    have := h (.fin 0) (by rw [← hp, List.mem_map]; exact ⟨v, hv, by simp [hvin]⟩)
    simp [Ext.isNan] at this
  have htop : tophat z z0 s0 =
      (prior.set (if l = 0 then 0 else l - 1) .inf).set (if r = z.length - 1 then r else r + 1) .inf := by
    unfold tophat
    simp only [hp, hall, hg]
    have e1 : good.headD 0 = l := by
      cases good with
      | nil => simp at hl
      | cons a t => simpa using hl
    have e2 : good.getLastD 0 = r := by
      rw [List.getLastD_eq_getLast?, hr]; rfl
    rw [e1, e2]
    by_cases h0 : l = 0 <;> by_cases h1 : r = z.length - 1 <;> simp [h0, h1, hplen]
  refine ⟨l, r, hle r hrg, hrlt, ?_, ?_, ?_, by rw [htop]; simp [hplen], ?_⟩
  · intro w hw
    obtain ⟨w', hw', h⟩ := (hmem l).1 hlg
    rw [hw] at hw'; cases hw'; exact h
  · intro w hw
    obtain ⟨w', hw', h⟩ := (hmem r).1 hrg
    rw [hw] at hw'; cases hw'; exact h
  · intro i w hw h
    have : i ∈ good := (hmem i).2 ⟨w, hw, h⟩
    exact ⟨hle i this, hge i this⟩
  · intro i w hw
    have hi : i < z.length := by
      by_contra hc
      rw [List.getElem?_eq_none (by omega)] at hw
      simp at hw
    rw [htop, List.getElem?_set, List.getElem?_set, hpget, hw]
    generalize (if r = z.length - 1 then r else r + 1) = R
    generalize (if l = 0 then 0 else l - 1) = L
    by_cases h1 : R = i <;> by_cases h2 : L = i <;> simp [h1, h2, hplen, hi, eq_comm]; omega

private theorem zip_get (chi2 : List K) (p : List (Ext K)) (i : Nat) (c : K) (v : Ext K)
    (h1 : chi2[i]? = some c) (h2 : p[i]? = some v) :
    (List.zipWith Ext.add (chi2.map .fin) p)[i]? = some (Ext.add (.fin c) v) := by
  rw [List.getElem?_zipWith, List.getElem?_map, h1, h2]; rfl

/-- **C13** Adding a tophat prior (window `|z - z0| < s0/2`) to finite chi2 values on a grid of at least three
redshifts: `find_minima` returns only indices of redshifts inside the window, whatever the grid, the window and the chi2. -/
theorem C13_tophat_confines (argsort : List (Ext K) → List Nat) (harg : IsArgsort Ext.sortLe argsort)
    (z chi2 : List K) (hlen : chi2.length = z.length) (h3 : 3 ≤ z.length) (z0 s0 : K) (r : List Nat)
    (hr : findMinima argsort (List.zipWith Ext.add (chi2.map .fin) (tophat z z0 s0)) = .ok r) :
    ∀ i ∈ r, ∃ v, z[i]? = some v ∧ |v - z0| < s0 / 2 := by
  have htl : (tophat z z0 s0).length = z.length := by
    unfold tophat
    dsimp only
    split_ifs <;> simp
  generalize ht : List.zipWith Ext.add (chi2.map .fin) (tophat z z0 s0) = tot at hr
  have hlt : tot.length = z.length := by rw [← ht]; simp [hlen, htl]
  have hne : tot ≠ [] := by intro h; rw [h] at hlt; simp at hlt; omega
  obtain ⟨r', h1, _, hloc, _⟩ := C12_find_minima argsort harg tot hne
  rw [h1] at hr
  cases hr
  intro i hi
  have hmin := (hloc i).1 hi
  obtain ⟨a, ha, hl, hrr⟩ := hmin
  have hilt : i < z.length := by
    by_contra hc
    rw [List.getElem?_eq_none (by omega)] at ha
    simp at ha
  obtain ⟨v, hv⟩ : ∃ v, z[i]? = some v := ⟨_, List.getElem?_eq_getElem hilt⟩
  refine ⟨v, hv, ?_⟩
  by_contra hout
  obtain ⟨a', ha', hnan⟩ := local_not_nan tot i (by omega) ((hloc i).1 hi)
  rw [ha] at ha'; cases ha'
  have hcg : ∀ j, j < z.length → ∃ c, chi2[j]? = some c := fun j hj =>
    ⟨_, List.getElem?_eq_getElem (by omega)⟩
  by_cases hin : ∃ w ∈ z, |w - z0| < s0 / 2
  · obtain ⟨l, r, hlr, hrn, hlw, hrw, hwin, _, hget⟩ := tophat_get z z0 s0 hin
    obtain ⟨c, hc⟩ := hcg i hilt
    have hval := hget i v hv
    simp only [hout, if_false] at hval
    have hti := zip_get chi2 _ i c _ hc hval
    rw [ht, ha] at hti
    simp only [Option.some.injEq] at hti
    -- a general way to compute a neighbour
    have nb : ∀ j w, z[j]? = some w → tot[j]? = some (Ext.add (.fin (chi2.getD j 0))
        (if (j = if r = z.length - 1 then r else r + 1) ∨ (j = if l = 0 then 0 else l - 1) then .inf
         else if |w - z0| < s0 / 2 then .fin 0 else .nan)) := by
      intro j w hw
      rw [← ht]
      refine zip_get chi2 _ j _ _ ?_ (hget j w hw)
      have hj : j < chi2.length := by
        by_contra hcc
        rw [List.getElem?_eq_none (by omega)] at hw
        simp at hw
      simp [hj]
    by_cases hR : i = if r = z.length - 1 then r else r + 1
    · have hr' : r ≠ z.length - 1 := by
        intro h
        rw [if_pos h] at hR
        exact hout (hrw v (by rw [← hR]; exact hv))
      rw [if_neg hr'] at hR
      have hainf : a = .inf := by rw [hti]; simp [hR, hr', Ext.add]
      subst hainf
      by_cases h00 : l = 0 ∧ r = 0
      · obtain ⟨w, hw⟩ : ∃ w, z[i+1]? = some w := ⟨_, List.getElem?_eq_getElem (by omega)⟩
        have hwo : ¬ |w - z0| < s0 / 2 := fun h => by have := hwin _ w hw h; omega
        have := hrr _ (nb _ w hw)
        have e1 : ¬ ((i + 1 = if r = z.length - 1 then r else r + 1) ∨ (i + 1 = if l = 0 then 0 else l - 1)) := by
          rw [if_neg hr', if_pos h00.1]; omega
        rw [if_neg e1, if_neg hwo] at this
        simp [Ext.add, Ext.le] at this
      · obtain ⟨w, hw⟩ : ∃ w, z[r]? = some w := ⟨_, List.getElem?_eq_getElem hrn⟩
        have hwi := hrw w hw
        have := hl _ (by omega) (by rw [show i - 1 = r by omega]; exact nb _ w hw)
        have e1 : ¬ (r = if l = 0 then 0 else l - 1) := by split_ifs <;> omega
        simp [hwi, hr', e1, Ext.add, Ext.le] at this
    · by_cases hL : i = if l = 0 then 0 else l - 1
      · have hl' : l ≠ 0 := by
          intro h
          rw [if_pos h] at hL
          exact hout (hlw v (by rw [h, ← hL]; exact hv))
        rw [if_neg hl'] at hL
        have hainf : a = .inf := by rw [hti]; simp [hL, hl', Ext.add]
        subst hainf
        by_cases h00 : l = z.length - 1 ∧ r = z.length - 1
        · obtain ⟨w, hw⟩ : ∃ w, z[i-1]? = some w := ⟨_, List.getElem?_eq_getElem (by omega)⟩
          have hwo : ¬ |w - z0| < s0 / 2 := fun h => by have := hwin _ w hw h; omega
          have := hl _ (by omega) (nb _ w hw)
          have e1 : ¬ ((i - 1 = if r = z.length - 1 then r else r + 1) ∨ (i - 1 = if l = 0 then 0 else l - 1)) := by
            split_ifs <;> omega
          rw [if_neg e1, if_neg hwo] at this
          simp [Ext.add, Ext.le] at this
        · obtain ⟨w, hw⟩ : ∃ w, z[l]? = some w := ⟨_, List.getElem?_eq_getElem (by omega)⟩
          have hwi := hlw w hw
          have := hrr _ (by rw [show i + 1 = l by omega]; exact nb _ w hw)
          have e1 : ¬ (l = if r = z.length - 1 then r else r + 1) := by split_ifs <;> omega
          have e2 : ¬ (l = l - 1) := by omega
          simp [hwi, hl', e1, e2, Ext.add, Ext.le] at this
      · rw [hti] at hnan
        simp [hR, hL, Ext.add] at hnan
  · -- no grid point in the window: the prior is NaN everywhere
    have hall : (z.map (fun v => if |v - z0| < s0 / 2 then Ext.fin (0 : K) else Ext.nan)).all Ext.isNan = true := by
      rw [List.all_eq_true]
      intro p hp
      rw [List.mem_map] at hp
      obtain ⟨w, hw, rfl⟩ := hp
      have : ¬ |w - z0| < s0 / 2 := fun h => hin ⟨w, hw, h⟩
      simp [this, Ext.isNan]
    obtain ⟨c, hc⟩ := hcg i hilt
    have hti := zip_get chi2 (tophat z z0 s0) i c .nan hc (by
      unfold tophat
      simp only [hall, if_true, List.getElem?_map, hv, Option.map_some, hout, if_false])
    rw [ht, ha] at hti
    simp only [Option.some.injEq] at hti
    simp [hti, Ext.add] at hnan

/-- **C13** with no grid point in the window `find_minima` returns nothing. -/
theorem C13_tophat_empty_window (argsort : List (Ext K) → List Nat) (harg : IsArgsort Ext.sortLe argsort)
    (z chi2 : List K) (hlen : chi2.length = z.length) (h3 : 3 ≤ z.length) (z0 s0 : K)
    (hout : ∀ v ∈ z, s0 / 2 ≤ |v - z0|) :
    findMinima argsort (List.zipWith Ext.add (chi2.map .fin) (tophat z z0 s0)) = .ok [] := by
  have htl : (tophat z z0 s0).length = z.length := by
    unfold tophat
    dsimp only
    split_ifs <;> simp
  have hne : List.zipWith Ext.add (chi2.map .fin) (tophat z z0 s0) ≠ [] := by
    intro h
    have := congrArg List.length h
    simp [hlen, htl] at this
    subst this
    simp at h3
  obtain ⟨r, h1, _, _, _⟩ := C12_find_minima argsort harg _ hne
  have := C13_tophat_confines argsort harg z chi2 hlen h3 z0 s0 r h1
  have hr : r = [] := by
    rw [List.eq_nil_iff_forall_not_mem]
    intro i hi
    obtain ⟨v, hv, hlt⟩ := this i hi
    exact absurd hlt (not_lt.2 (hout v (List.mem_of_getElem? hv)))
  rw [h1, hr]

/-- **C13** the prior loses no candidate away from the ends of the grid: on an increasing grid, an interior grid point inside the window
whose chi2 is not above that of its neighbours inside the window is returned. -/
theorem C13_tophat_keeps_minima (argsort : List (Ext K) → List Nat) (harg : IsArgsort Ext.sortLe argsort)
    (z chi2 : List K) (hz : z.Pairwise (· < ·)) (hlen : chi2.length = z.length) (z0 s0 : K) (i : Nat)
    (hi0 : 0 < i) (hi1 : i + 1 < z.length)
    (hin : |z[i] - z0| < s0 / 2)
    (hl : |z[i-1] - z0| < s0 / 2 → chi2[i] ≤ chi2[i-1])
    (hr : |z[i+1] - z0| < s0 / 2 → chi2[i] ≤ chi2[i+1]) :
    ∃ r, findMinima argsort (List.zipWith Ext.add (chi2.map .fin) (tophat z z0 s0)) = .ok r ∧ i ∈ r := by
  obtain ⟨l, r, hlr, hrn, hlw, hrw, hwin, htl, hget⟩ := tophat_get z z0 s0 ⟨z[i], List.getElem_mem _, hin⟩
  have hne : List.zipWith Ext.add (chi2.map .fin) (tophat z z0 s0) ≠ [] := by
    intro h
    have := congrArg List.length h
    simp [hlen, htl] at this
    subst this
    simp at hi1
  obtain ⟨res, h1, _, hloc, _⟩ := C12_find_minima argsort harg _ hne
  refine ⟨res, h1, (hloc i).2 ?_⟩
  have nb : ∀ j (hj : j < z.length), (List.zipWith Ext.add (chi2.map .fin) (tophat z z0 s0))[j]? =
      some (Ext.add (.fin (chi2[j]'(by omega)))
        (if (j = if r = z.length - 1 then r else r + 1) ∨ (j = if l = 0 then 0 else l - 1) then .inf
         else if |z[j] - z0| < s0 / 2 then .fin 0 else .nan)) := by
    intro j hj
    exact zip_get chi2 _ j _ _ (List.getElem?_eq_getElem (by omega)) (hget j _ (List.getElem?_eq_getElem hj))
  obtain ⟨hli, hir⟩ := hwin i z[i] (List.getElem?_eq_getElem (by omega)) hin
  have eR : ¬ (i = if r = z.length - 1 then r else r + 1) := by split_ifs <;> omega
  have eL : ¬ (i = if l = 0 then 0 else l - 1) := by split_ifs <;> omega
  have hself := nb i (by omega)
  simp only [eR, eL, hin, or_false, if_true, if_false, Ext.add] at hself
  have hmono : ∀ a b (ha : a < z.length) (hb : b < z.length), a < b → z[a] < z[b] := fun a b ha hb hab =>
    List.pairwise_iff_getElem.1 hz a b ha hb hab
  refine ⟨_, hself, ?_, ?_⟩
  · intro b _ hb
    rw [nb (i-1) (by omega)] at hb
    simp only [Option.some.injEq] at hb
    subst hb
    by_cases hc : (i - 1 = if r = z.length - 1 then r else r + 1) ∨ (i - 1 = if l = 0 then 0 else l - 1)
    · simp [hc, Ext.add, Ext.le]
    · by_cases hw : |z[i-1] - z0| < s0 / 2
      · simpa [hc, hw, Ext.add, Ext.le] using hl hw
      · exfalso
        -- then l = i, so i-1 carries inf
        have : l = i := by
          by_contra hne
          have hlt : l < i := by omega
          have hl1 : l ≤ i - 1 := by omega
          have hlw' := hlw z[l] (List.getElem?_eq_getElem (by omega))
          have h1 : z[l] ≤ z[i-1] := by
            rcases Nat.lt_or_eq_of_le hl1 with h | h
            · exact le_of_lt (hmono _ _ _ _ h)
            · simp [h]
          have h2 : z[i-1] < z[i] := hmono _ _ _ _ (by omega)
          rw [abs_lt] at hlw' hin
          exact hw (abs_lt.2 ⟨by linarith, by linarith⟩)
        apply hc
        right
        rw [this, if_neg (by omega)]
  · intro b hb
    rw [nb (i+1) (by omega)] at hb
    simp only [Option.some.injEq] at hb
    subst hb
    by_cases hc : (i + 1 = if r = z.length - 1 then r else r + 1) ∨ (i + 1 = if l = 0 then 0 else l - 1)
    · simp [hc, Ext.add, Ext.le]
    · by_cases hw : |z[i+1] - z0| < s0 / 2
      · simpa [hc, hw, Ext.add, Ext.le] using hr hw
      · exfalso
        have : r = i := by
          by_contra hne
          have hr1 : i + 1 ≤ r := by omega
          have hrw' := hrw z[r] (List.getElem?_eq_getElem (by omega))
          have h1 : z[i+1] ≤ z[r] := by
            rcases Nat.lt_or_eq_of_le hr1 with h | h
            · exact le_of_lt (hmono _ _ _ _ h)
            · simp [← h]
          have h2 : z[i] < z[i+1] := hmono _ _ _ _ (by omega)
          rw [abs_lt] at hrw' hin
          exact hw (abs_lt.2 ⟨by linarith, by linarith⟩)
        apply hc
        left
        rw [this, if_neg (by omega)]

end

/-- a concrete case: window [1.5, 3.5] on the grid 0..5 -/
example : findMinima (K := ℚ) (stableArgsort Ext.sortLe)
    (List.zipWith Ext.add ([5, 1, 7, 6, 1, 5].map .fin) (tophat [0, 1, 2, 3, 4, 5] (5/2) 2)) = .ok [3] := by
  decide +kernel

/-- the bound of three grid points is needed: on a two point grid a redshift outside the window is returned -/
example : findMinima (K := ℚ) (stableArgsort Ext.sortLe)
    (List.zipWith Ext.add ([5, 1].map .fin) (tophat [0, 1] 0 1)) = .ok [0, 1] ∧ ¬ |(1 : ℚ) - 0| < 1 / 2 := by
  constructor
  · decide +kernel
  · norm_num

section
variable {K : Type} [Field K] [LinearOrder K] [IsStrictOrderedRing K] {ι : Type} [DecidableEq ι]

/-- **C14** a target absent from the prior file keeps its chi2. -/
theorem C14_unlisted_unchanged (func : List K → K → K → List (Ext K)) (rows : List (ι × K × K)) (tid : ι)
    (h : ∀ r ∈ rows, r.1 ≠ tid) (redshifts : List K) (zchi2 : List (Ext K)) :
    applyPrior func (loadPriors rows) tid redshifts zchi2 = zchi2 := by
  have : PyDict.get? (loadPriors rows) tid = none := by
    unfold loadPriors
    rw [PyDict.get?_foldl_set (fun r : ι × K × K => r.1) (fun r => (r.2.1, r.2.2)), PyDict.get?_nil]
    have : rows.reverse.find? (fun x => decide (x.1 = tid)) = none := by
      rw [List.find?_eq_none]
      intro x hx
      simpa using h x (by simpa using hx)
    rw [this]; rfl
  unfold applyPrior
  rw [this]
  simp only
  conv_rhs => rw [← List.map_id zchi2]
  apply List.map_congr_left
  intro a _
  cases a <;> simp [Ext.add]

/-- **C14** the last row listing a target is the one that counts. -/
theorem C14_last_row_wins (func : List K → K → K → List (Ext K)) (rows rows' : List (ι × K × K)) (tid : ι) (z0 s0 : K)
    (h : ∀ r ∈ rows', r.1 ≠ tid) (redshifts : List K) (zchi2 : List (Ext K)) :
    applyPrior func (loadPriors (rows ++ (tid, z0, s0) :: rows')) tid redshifts zchi2 =
      List.zipWith Ext.add zchi2 (func redshifts z0 s0) := by
  have : PyDict.get? (loadPriors (rows ++ (tid, z0, s0) :: rows')) tid = some (z0, s0) := by
    unfold loadPriors
    rw [PyDict.get?_foldl_set (fun r : ι × K × K => r.1) (fun r => (r.2.1, r.2.2))]
    have h1 : rows'.reverse.find? (fun x => decide (x.1 = tid)) = none := by
      rw [List.find?_eq_none]
      intro x hx
      simpa using h x (by simpa using hx)
    simp [h1]
  unfold applyPrior
  rw [this]

/-- **C14** the Gaussian prior is non-negative, zero exactly at the mean, symmetric, and increases strictly with distance. -/
theorem C14_gaussian (z0 s0 : K) (hs : 0 < s0) :
    (∀ z, 0 ≤ gaussianPrior z0 s0 z) ∧ (∀ z, gaussianPrior z0 s0 z = 0 ↔ z = z0) ∧
    (∀ d, gaussianPrior z0 s0 (z0 + d) = gaussianPrior z0 s0 (z0 - d)) ∧
    (∀ z w, |z - z0| < |w - z0| → gaussianPrior z0 s0 z < gaussianPrior z0 s0 w) := by
  unfold gaussianPrior
  refine ⟨fun z => sq_nonneg _, fun z => ?_, fun d => by ring, fun z w h => ?_⟩
  · rw [pow_eq_zero_iff (by norm_num), div_eq_zero_iff, sub_eq_zero]
    constructor
    · rintro (h | h)
      · exact h
      · exact absurd h (ne_of_gt hs)
    · exact Or.inl
  · rw [sq_lt_sq, abs_div, abs_div, abs_of_pos hs]
    exact div_lt_div_of_pos_right h hs

end

/-- **C14** the same for the Lorentzian prior (over the reals). -/
theorem C14_lorentzian (z0 s0 : ℝ) (hs : 0 < s0) :
    (∀ z, 0 ≤ lorentzPrior z0 s0 z) ∧ (∀ z, lorentzPrior z0 s0 z = 0 ↔ z = z0) ∧
    (∀ d, lorentzPrior z0 s0 (z0 + d) = lorentzPrior z0 s0 (z0 - d)) ∧
    (∀ z w, |z - z0| < |w - z0| → lorentzPrior z0 s0 z < lorentzPrior z0 s0 w) := by
  have key : ∀ z, lorentzPrior z0 s0 z = 2 * Real.log (1 + ((z - z0) / s0) ^ 2) := by
    intro z
    unfold lorentzPrior
    rw [one_div, Real.log_inv]; ring
  have hg := C14_gaussian z0 s0 hs
  unfold gaussianPrior at hg
  obtain ⟨g0, g1, g2, g3⟩ := hg
  refine ⟨fun z => ?_, fun z => ?_, fun d => ?_, fun z w h => ?_⟩
  · rw [key]
    have := Real.log_nonneg (show 1 ≤ 1 + ((z - z0) / s0) ^ 2 by linarith [g0 z])
    linarith
  · rw [key, ← g1 z]
    constructor
    · intro h
      by_contra hne
      have hpos : 0 < ((z - z0) / s0) ^ 2 := lt_of_le_of_ne (g0 z) (Ne.symm hne)
      have := Real.log_pos (show 1 < 1 + ((z - z0) / s0) ^ 2 by linarith)
      linarith
    · intro h; rw [h]; simp
  · rw [key, key, g2]
  · rw [key, key]
    have := Real.log_lt_log (by linarith [g0 z]) (show 1 + ((z - z0) / s0) ^ 2 < 1 + ((w - z0) / s0) ^ 2 by
      linarith [g3 z w h])
    linarith

example : applyPrior (K := ℚ) (fun z z0 s0 => z.map (fun v => .fin (gaussianPrior z0 s0 v)))
    (loadPriors [(7, 1, 1), (8, 5, 2), (7, 2, 1)]) 7 [1, 2, 3] [.fin 10, .fin 10, .fin 10]
    = [.fin 11, .fin 10, .fin 11] := by decide +kernel

end Redrock
