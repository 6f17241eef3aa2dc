import Verif.Model.ArchTable
import Verif.Props.ArchMerge
import Verif.Props.Zfind
import Verif.Props.Flags
import Verif.Props.DeltaChi2

/-!
C130: the published rows of a target in archetype mode, from the results of `fitz` to the finished table.
-/
set_option linter.unusedSectionVars false
namespace Redrock.ArchTable

section
variable {K : Type} [Field K] [LinearOrder K] [IsStrictOrderedRing K]

/-! ### Specification -/

/-- Entry of row `i` in column `k`, if there is one. -/
def cell (cols : PyDict String (Arr K)) (k : String) (i : Nat) : Option (List (Cell K)) := (PyDict.get? cols k).bind (fun a => a[i]?)

/-- `src` says which row of `t0` every row of `t` is: the columns of `t` are the columns of `t0` at these rows. -/
structure Taken (src : List Nat) (t0 t : Tab K) : Prop where
  zlen : t.zwarn.length = src.length
  zwarn : ∀ p i : Nat, src[p]? = some i → t.zwarn[p]? = t0.zwarn[i]?
  npix : ∀ p i : Nat, src[p]? = some i → t.npixels[p]? = t0.npixels[i]?
  ncoeff : ∀ p i : Nat, src[p]? = some i → t.ncoeff[p]? = t0.ncoeff[i]?
  plen : t.npixels.length = src.length
  clen : t.ncoeff.length = src.length
  keys : PyDict.keys t.cols = PyDict.keys t0.cols
  len : ∀ kv ∈ t.cols, kv.2.length = src.length
  col : ∀ k (p i : Nat), src[p]? = some i → cell t.cols k p = cell t0.cols k i

/-! ### lemmas -/

theorem rowAt_congr (t t' : Tab K) (p i : Nat) (hz : t'.zwarn[p]? = t.zwarn[i]?) (hp : t'.npixels[p]? = t.npixels[i]?) (hn : t'.ncoeff[p]? = t.ncoeff[i]?) (hc : ∀ k, cell t'.cols k p = cell t.cols k i) :
    t'.rowAt p = t.rowAt i := by
  have hnum : ∀ k, numAt t'.cols k p = numAt t.cols k i := by
    intro k
    have := hc k
    unfold cell at this
    unfold numAt
    rw [this]
  have hstr : ∀ k, strAt t'.cols k p = strAt t.cols k i := by
    intro k
    have := hc k
    unfold cell at this
    unfold strAt
    rw [this]
  have hco : coeffAt t'.cols p = coeffAt t.cols i := by
    have := hc "coeff"
    unfold cell at this
    unfold coeffAt
    rw [this]
  unfold Tab.rowAt
  rw [hnum, hnum, hnum, hnum, hstr, hstr, hco, List.getD_eq_getElem?_getD, List.getD_eq_getElem?_getD, List.getD_eq_getElem?_getD, List.getD_eq_getElem?_getD, List.getD_eq_getElem?_getD, List.getD_eq_getElem?_getD, hz, hp, hn]

theorem Taken.row {src : List Nat} {t0 t : Tab K} (h : Taken src t0 t) (p i : Nat) (hp : src[p]? = some i) : t.rowAt p = t0.rowAt i :=
  rowAt_congr t0 t p i (h.zwarn p i hp) (h.npix p i hp) (h.ncoeff p i hp) (fun k => h.col k p i hp)

theorem Taken.rows {src : List Nat} {t0 t : Tab K} (h : Taken src t0 t) : t.rows = src.map t0.rowAt := by
  unfold Tab.rows
  apply List.ext_getElem (by simp [h.zlen])
  intro p h1 h2
  rw [List.getElem_map, List.getElem_map, List.getElem_range]
  rw [List.length_map] at h2
  exact h.row p _ (List.getElem?_eq_getElem h2)

theorem cell_takeRows (d d' : PyDict String (Arr K)) (idx : List Nat) (h : takeRows d idx = .ok d') :
    PyDict.keys d' = PyDict.keys d ∧ (∀ kv ∈ d', kv.2.length = idx.length) ∧ ∀ k (p i : Nat), idx[p]? = some i → cell d' k p = cell d k i := by
  have hf := C85_rows_stay_together d d' idx h
  clear h
  induction hf with
  | nil => exact ⟨rfl, by simp, fun k p i _ => rfl⟩
  | @cons a b as bs hab _ ih =>
    obtain ⟨i1, i2, i3⟩ := ih
    obtain ⟨e1, e2, e3⟩ := hab
    refine ⟨?_, ?_, ?_⟩
    · unfold PyDict.keys at i1 ⊢
      rw [List.map_cons, List.map_cons, e1, i1]
    · intro kv hkv
      rcases List.mem_cons.1 hkv with rfl | hkv
      · exact e2
      · exact i2 kv hkv
    · intro k p i hp
      have := i3 k p i hp
      unfold cell at this ⊢
      obtain ⟨ka, va⟩ := a
      obtain ⟨kb, vb⟩ := b
      simp only at e1 e3
      subst e1
      rw [PyDict.get?_cons, PyDict.get?_cons]
      split
      · exact e3 p i hp
      · exact this

theorem take_taken (t t' : Tab K) (idx : List Nat) (h : t.take idx = .ok t') : Taken idx t t' := by
  unfold Tab.take at h
  obtain ⟨zw, hz, h⟩ := Except.bind_ok _ _ _ h
  obtain ⟨np, hp, h⟩ := Except.bind_ok _ _ _ h
  obtain ⟨nc, hn, h⟩ := Except.bind_ok _ _ _ h
  obtain ⟨cols, hc, h⟩ := Except.bind_ok _ _ _ h
  cases h
  obtain ⟨c1, c2, c3⟩ := cell_takeRows _ _ _ hc
  have g : ∀ (x r : List Nat), npTake x idx = .ok r → ∀ p i : Nat, idx[p]? = some i → r[p]? = x[i]? := by
    intro x r hx p i hpi
    obtain ⟨v, h1, h2⟩ := npTake_get x idx r hx p i hpi
    rw [h1, h2]
  exact ⟨npTake_length _ _ _ hz, g _ _ hz, g _ _ hp, g _ _ hn, npTake_length _ _ _ hp, npTake_length _ _ _ hn, c1, c2, c3⟩

/-- a table whose columns all have one entry per row -/
def Full (t : Tab K) : Prop := t.npixels.length = t.zwarn.length ∧ t.ncoeff.length = t.zwarn.length ∧ ∀ kv ∈ t.cols, kv.2.length = t.zwarn.length

theorem take_total (t : Tab K) (hf : Full t) (idx : List Nat) (hi : ∀ i ∈ idx, i < t.zwarn.length) : ∃ t', t.take idx = .ok t' := by
  obtain ⟨z, hz⟩ := npTake_total t.zwarn idx hi
  obtain ⟨p, hp⟩ := npTake_total t.npixels idx (by rw [hf.1]; exact hi)
  obtain ⟨n, hn⟩ := npTake_total t.ncoeff idx (by rw [hf.2.1]; exact hi)
  have : ∃ c, takeRows t.cols idx = .ok c := by
    have hcols := hf.2.2
    unfold takeRows
    generalize t.cols = d at hcols
    induction d with
    | nil => exact ⟨[], rfl⟩
    | cons a d ih =>
      obtain ⟨c, hc⟩ := ih (fun kv hkv => hcols kv (List.mem_cons_of_mem _ hkv))
      obtain ⟨v, hv⟩ := npTake_total a.2 idx (by rw [hcols a List.mem_cons_self]; exact hi)
      exact ⟨(a.1, v) :: c, by rw [List.mapM_cons, hv, hc]; rfl⟩
  obtain ⟨c, hc⟩ := this
  exact ⟨⟨z, p, n, c⟩, by unfold Tab.take; rw [hz, hp, hn, hc]; rfl⟩

theorem Taken.full {src : List Nat} {t0 t : Tab K} (h : Taken src t0 t) : Full t :=
  ⟨by rw [h.plen, h.zlen], by rw [h.clen, h.zlen], fun kv hkv => by rw [h.len kv hkv, h.zlen]⟩

theorem Taken.trans {a b : List Nat} {t0 t1 t2 : Tab K} (h1 : Taken a t0 t1) (h2 : Taken b t1 t2) (hb : ∀ i ∈ b, i < a.length) : Taken (b.map (fun i => a.getD i 0)) t0 t2 := by
  have key : ∀ p i : Nat, (b.map (fun i => a.getD i 0))[p]? = some i → ∃ q : Nat, b[p]? = some q ∧ a[q]? = some i := by
    intro p i hp
    rw [List.getElem?_map] at hp
    cases hq : b[p]? with
    | none => rw [hq] at hp; simp at hp
    | some q =>
      rw [hq] at hp
      refine ⟨q, rfl, ?_⟩
      have hlt := hb q (List.mem_of_getElem? hq)
      simp only [Option.map_some, Option.some.injEq, List.getD_eq_getElem?_getD, List.getElem?_eq_getElem hlt, Option.getD_some] at hp
      rw [List.getElem?_eq_getElem hlt, hp]
  refine ⟨by rw [h2.zlen, List.length_map], ?_, ?_, ?_, by rw [h2.plen, List.length_map], by rw [h2.clen, List.length_map], by rw [h2.keys, h1.keys], fun kv hkv => by rw [h2.len kv hkv, List.length_map], ?_⟩
  · intro p i hp; obtain ⟨q, e1, e2⟩ := key p i hp; rw [h2.zwarn p q e1, h1.zwarn q i e2]
  · intro p i hp; obtain ⟨q, e1, e2⟩ := key p i hp; rw [h2.npix p q e1, h1.npix q i e2]
  · intro p i hp; obtain ⟨q, e1, e2⟩ := key p i hp; rw [h2.ncoeff p q e1, h1.ncoeff q i e2]
  · intro k p i hp; obtain ⟨q, e1, e2⟩ := key p i hp; rw [h2.col k p q e1, h1.col k q i e2]

theorem order_perm (t : Tab K) : t.order.Perm (List.range t.zwarn.length) := (pySort_perm _ _).trans (pySort_perm _ _)

theorem order_rows (t : Tab K) : t.order.map t.rowAt = sortZfit t.rows := by
  unfold Tab.order lexsort2 sortZfit Tab.rows
  rw [pySort_map, pySort_map]

theorem filter_map_comm {α β : Type} (f : α → β) (p : β → Bool) (l : List α) : (l.map f).filter p = (l.filter (fun a => p (f a))).map f := by
  rw [List.filter_map]; rfl



theorem keep_rows (nminima : Nat) (t : Tab K) : (t.keep nminima).map t.rowAt = (npUnique (t.rows.map (·.spectype))).flatMap (fun s => (t.rows.filter (fun r => decide (r.spectype = s))).take nminima) := by
  unfold Tab.keep
  rw [List.map_flatMap]
  congr 1
  funext s
  rw [List.map_take]
  unfold Tab.rows
  rw [filter_map_comm]

theorem keep_lt (nminima : Nat) (t : Tab K) : ∀ i ∈ t.keep nminima, i < t.zwarn.length := by
  intro i hi
  unfold Tab.keep at hi
  obtain ⟨s, -, h⟩ := List.mem_flatMap.1 hi
  exact List.mem_range.1 (List.mem_filter.1 (List.mem_of_mem_take h)).1

theorem npUnique_nodup' {σ : Type} [LinearOrder σ] (xs : List σ) : (npUnique xs).Nodup := List.nodup_dedup _

theorem keep_nodup (nminima : Nat) (t : Tab K) : (t.keep nminima).Nodup := by
  unfold Tab.keep
  rw [List.nodup_flatMap]
  refine ⟨fun s _ => (List.nodup_range.filter _).sublist (List.take_sublist _ _), ?_⟩
  have hn : (npUnique (t.rows.map (·.spectype))).Nodup := npUnique_nodup' _
  refine hn.imp ?_
  intro a b hab i hi hj
  have h1 := (List.mem_filter.1 (List.mem_of_mem_take hi)).2
  have h2 := (List.mem_filter.1 (List.mem_of_mem_take hj)).2
  rw [decide_eq_true_eq] at h1 h2
  exact hab (h1.symm.trans h2)

theorem map_getD_nodup (a b : List Nat) (ha : a.Nodup) (hb : b.Nodup) (hlt : ∀ i ∈ b, i < a.length) : (b.map (fun i => a.getD i 0)).Nodup := by
  rw [List.nodup_map_iff_inj_on hb]
  intro x hx y hy hxy
  have h1 := hlt x hx
  have h2 := hlt y hy
  simp only [List.getD_eq_getElem?_getD, List.getElem?_eq_getElem h1, List.getElem?_eq_getElem h2, Option.getD_some] at hxy
  exact (List.Nodup.getElem_inj_iff ha).1 hxy

theorem map_getD_mem (a b : List Nat) (hlt : ∀ i ∈ b, i < a.length) : ∀ x ∈ b.map (fun i => a.getD i 0), x ∈ a := by
  intro x hx
  obtain ⟨i, hi, rfl⟩ := List.mem_map.1 hx
  have h1 := hlt i hi
  rw [List.getD_eq_getElem?_getD, List.getElem?_eq_getElem h1, Option.getD_some]
  exact List.getElem_mem h1

/-- `trimRows` with the usual equality test of strings -/
theorem trimRows_eq (nminima : Nat) (rows : List (Row K PyStr)) : trimRows nminima rows =
    if ((npUnique (rows.map (·.spectype))).flatMap (fun s => (rows.filter (fun r => decide (r.spectype = s))).take nminima)).length < rows.length then
      sortZfit ((npUnique (rows.map (·.spectype))).flatMap (fun s => (rows.filter (fun r => decide (r.spectype = s))).take nminima)) else rows := by
  unfold trimRows
  dsimp only
  congr!

/-- sorting and trimming the columns is sorting and trimming the rows -/
theorem sortTrim_spec (nminima : Nat) (t t' : Tab K) (h : t.sortTrim nminima = .ok t') :
    ∃ src : List Nat, src.Nodup ∧ (∀ i ∈ src, i < t.zwarn.length) ∧ Taken src t t' ∧ t'.rows = trimRows nminima (sortZfit t.rows) := by
  unfold Tab.sortTrim at h
  obtain ⟨t1, h1, h⟩ := Except.bind_ok _ _ _ h
  have T1 := take_taken _ _ _ h1
  have r1 : t1.rows = sortZfit t.rows := by rw [T1.rows, order_rows]
  have l1 : t1.zwarn.length = t.zwarn.length := by rw [T1.zlen, (order_perm t).length_eq, List.length_range]
  have n1 : t.order.Nodup := (order_perm t).nodup_iff.2 List.nodup_range
  have m1 : ∀ i ∈ t.order, i < t.zwarn.length := fun i hi => List.mem_range.1 ((order_perm t).subset hi)
  have hlen : (t1.keep nminima).length = ((npUnique (t1.rows.map (·.spectype))).flatMap (fun s => (t1.rows.filter (fun r => decide (r.spectype = s))).take nminima)).length := by rw [← keep_rows, List.length_map]
  have hrl : t1.rows.length = t1.zwarn.length := by simp [Tab.rows]
  split at h
  · rename_i hlt
    obtain ⟨t2, h2, h3⟩ := Except.bind_ok _ _ _ h
    have T2 := take_taken _ _ _ h2
    have T3 := take_taken _ _ _ h3
    have b2 : ∀ i ∈ t1.keep nminima, i < t.order.length := fun i hi => by
      have := keep_lt nminima t1 i hi
      rw [T1.zlen] at this
      exact this
    have T12 := T1.trans T2 b2
    have b3 : ∀ i ∈ t2.order, i < ((t1.keep nminima).map (fun i => t.order.getD i 0)).length := fun i hi => by
      have := List.mem_range.1 ((order_perm t2).subset hi)
      rw [T12.zlen] at this
      exact this
    have T123 := T12.trans T3 b3
    refine ⟨_, ?_, ?_, T123, ?_⟩
    · apply map_getD_nodup _ _ (map_getD_nodup _ _ n1 (keep_nodup nminima t1) b2) _ b3
      exact (order_perm t2).nodup_iff.2 List.nodup_range
    · intro i hi
      exact m1 i (map_getD_mem _ _ b2 i (map_getD_mem _ _ b3 i hi))
    · rw [T3.rows, order_rows, T2.rows, keep_rows]
      rw [trimRows_eq, ← r1, if_pos (by rw [← hlen, hrl]; exact hlt)]
  · rename_i hge
    cases h
    refine ⟨t.order, n1, m1, T1, ?_⟩
    rw [trimRows_eq, ← r1, if_neg (by rw [← hlen, hrl]; exact hge)]

theorem sortTrim_total (nminima : Nat) (t : Tab K) (hf : Full t) : ∃ t', t.sortTrim nminima = .ok t' := by
  obtain ⟨t1, h1⟩ := take_total t hf t.order (fun i hi => List.mem_range.1 ((order_perm t).subset hi))
  have T1 := take_taken _ _ _ h1
  unfold Tab.sortTrim
  rw [h1]
  by_cases hlt : (t1.keep nminima).length < t1.zwarn.length
  · obtain ⟨t2, h2⟩ := take_total t1 T1.full (t1.keep nminima) (keep_lt nminima t1)
    have T2 := take_taken _ _ _ h2
    obtain ⟨t3, h3⟩ := take_total t2 T2.full t2.order (fun i hi => List.mem_range.1 ((order_perm t2).subset hi))
    refine ⟨t3, ?_⟩
    simp only [bind, Except.bind, if_pos hlt, h2, h3]
  · refine ⟨t1, ?_⟩
    simp only [bind, Except.bind, if_neg hlt]
    rfl

/-! ### From the stacked table to the published one -/

/-- Row `i` of the stacked table with the flags of this table: `NEGATIVE_MODEL`, `NODATA`, `LITTLE_COVERAGE`. -/
def flagged (ibad : Row K PyStr → Bool) (t : Tab K) (i : Nat) : Row K PyStr := flagRow ibad (t.rowAt i)

/-- Row `j` is a good fit whose redshift is further from the one of row `i` than the smaller of the two velocity limits. -/
def IsNext (ibad : Row K PyStr → Bool) (t : Tab K) (i j : Nat) : Prop :=
  (flagged ibad t j).zwarn &&& ZW.badfit = 0 ∧ min (t.rowAt i).maxVelo (t.rowAt j).maxVelo < |299792458 / 1000 * ((t.rowAt j).z - (t.rowAt i).z) / (1 + (t.rowAt i).z)|

/-- `o` publishes rows `src` of the stacked table `t`. -/
structure Published (nminima : Nat) (ibad : Row K PyStr → Bool) (t : Tab K) (src : List Nat) (o : Out K) : Prop where
  /-- every published row is a different row of the stacked table -/
  nodup : src.Nodup
  lt : ∀ i ∈ src, i < t.zwarn.length
  /-- all columns have as many rows -/
  lengths : o.zwarn.length = src.length ∧ o.deltachi2.length = src.length ∧ o.npixels.length = src.length ∧ o.ncoeff.length = src.length ∧ ∀ kv ∈ o.cols, kv.2.length = src.length
  names : PyDict.keys o.cols = (PyDict.keys t.cols).filter (fun k => decide (k ≠ "max_velo_diff"))
  /-- all columns of published row `p` come from the same row -/
  own : ∀ k, k ≠ "max_velo_diff" → ∀ p i : Nat, src[p]? = some i → cell o.cols k p = cell t.cols k i
  npixels : ∀ p i : Nat, src[p]? = some i → o.npixels[p]? = t.npixels[i]?
  ncoeff : ∀ p i : Nat, src[p]? = some i → o.ncoeff[p]? = t.ncoeff[i]?
  znum : o.znum = List.range src.length
  /-- good fits first, then by increasing chi2 -/
  sorted : src.Pairwise (fun i j => (flagged ibad t i).notWorse (flagged ibad t j))
  /-- at most `nminima` rows of a type -/
  quota : ∀ s : PyStr, (src.filter (fun i => decide ((t.rowAt i).spectype = s))).length = min nminima ((List.range t.zwarn.length).filter (fun i => decide ((t.rowAt i).spectype = s))).length
  /-- rows that are left out are not better than the ones of the same type that are kept -/
  dropped : ∀ i, i < t.zwarn.length → i ∉ src → ∀ k ∈ src, (t.rowAt k).spectype = (t.rowAt i).spectype → (flagged ibad t k).notWorse (flagged ibad t i)
  /-- the published warning: the bits of the fit, of this table, and `SMALL_DELTA_CHI2` iff another published row that is a good fit has a chi2 within 9 and another redshift -/
  zwarn : ∀ p i : Nat, src[p]? = some i → ∃ w, o.zwarn[p]? = some w ∧ ∀ b, bitSet w b ↔
    bitSet (t.rowAt i).zwarn b ∨ (b = 3 ∧ ibad (t.rowAt i) = true) ∨ (b = 9 ∧ (t.rowAt i).npixels = 0) ∨ (b = 1 ∧ (t.rowAt i).npixels < 10 * (t.rowAt i).ncoeff) ∨
    (b = 2 ∧ ∃ q j : Nat, q ≠ p ∧ src[q]? = some j ∧ (flagged ibad t j).zwarn &&& ZW.badfit = 0 ∧ |(t.rowAt j).chi2 - (t.rowAt i).chi2| < 9 ∧
      min (t.rowAt i).maxVelo (t.rowAt j).maxVelo ≤ |299792458 / 1000 * ((t.rowAt j).z - (t.rowAt i).z) / (1 + (t.rowAt i).z)|)
  /-- `deltachi2`: the distance to the next good fit at another redshift below, 0 if there is none -/
  deltachi2 : ∀ p i : Nat, src[p]? = some i → ∃ d, o.deltachi2[p]? = some d ∧
    ((∃ q j : Nat, p < q ∧ src[q]? = some j ∧ IsNext ibad t i j) → (∃ q j : Nat, p < q ∧ src[q]? = some j ∧ IsNext ibad t i j ∧ d = (t.rowAt j).chi2 - (t.rowAt i).chi2) ∧
      ∀ q j : Nat, p < q → src[q]? = some j → IsNext ibad t i j → d ≤ (t.rowAt j).chi2 - (t.rowAt i).chi2) ∧
    ((¬ ∃ q j : Nat, p < q ∧ src[q]? = some j ∧ IsNext ibad t i j) → d = 0)

theorem flag_row (ibad : Row K PyStr → Bool) (t : Tab K) (i : Nat) (hi : i < t.zwarn.length) : (t.flag ibad).rowAt i = flagged ibad t i := by
  have this : (t.flag ibad).zwarn.getD i 0 = (flagRow ibad (t.rowAt i)).zwarn := by
    unfold Tab.flag Tab.rows
    rw [List.map_map, List.getD_eq_getElem?_getD, List.getElem?_map, List.getElem?_range hi]; rfl
  have e : (t.flag ibad).rowAt i = { t.rowAt i with zwarn := (t.flag ibad).zwarn.getD i 0 } := rfl
  rw [e, this]
  rfl

theorem flag_rows (ibad : Row K PyStr → Bool) (t : Tab K) : (t.flag ibad).rows = t.rows.map (flagRow ibad) := by
  unfold Tab.rows
  have hl : (t.flag ibad).zwarn.length = t.zwarn.length := by simp [Tab.flag, Tab.rows]
  rw [hl, List.map_map]
  apply List.map_congr_left
  intro i hi
  exact flag_row ibad t i (List.mem_range.1 hi)

/-- the same bits, or `SMALL_DELTA_CHI2` in addition -/
theorem bit_small (w : Nat) (f : Bool) (b : Nat) : bitSet (if f = true then w ||| ZW.SMALL_DELTA_CHI2 else w) b ↔ bitSet w b ∨ (b = 2 ∧ f = true) := by
  cases f
  · simp
  · rw [if_pos rfl]
    unfold bitSet ZW.SMALL_DELTA_CHI2
    rw [Nat.testBit_or, Bool.or_eq_true, Nat.testBit_two_pow, decide_eq_true_eq]
    constructor
    · rintro (h | h)
      · exact .inl h
      · exact .inr ⟨h.symm, rfl⟩
    · rintro (h | h)
      · exact .inl h
      · exact .inr h.1.symm

theorem finish_zwarn (src : List Nat) (f : Nat → Row K PyStr) (p i : Nat) (hp : src[p]? = some i) :
    ∃ w, ((finishRows (src.map f)).map (·.zwarn))[p]? = some w ∧ ∀ b, bitSet w b ↔ bitSet (f i).zwarn b ∨
      (b = 2 ∧ ∃ q j : Nat, q ≠ p ∧ src[q]? = some j ∧ (f j).zwarn &&& ZW.badfit = 0 ∧ |(f j).chi2 - (f i).chi2| < 9 ∧
        min (f i).maxVelo (f j).maxVelo ≤ |299792458 / 1000 * ((f j).z - (f i).z) / (1 + (f i).z)|) := by
  have hg : (src.map f)[p]? = some (f i) := by rw [List.getElem?_map, hp]; rfl
  obtain ⟨d, fl, _, hf, hfin⟩ := finishRows_spec _ p _ hg
  refine ⟨_, by rw [List.getElem?_map, hfin]; rfl, ?_⟩
  obtain ⟨f', hf', hiff⟩ := C22_flag_iff ((src.map f).map (fun r => (⟨r.chi2, r.z, r.zwarn, r.maxVelo⟩ : DRow K))) p ⟨(f i).chi2, (f i).z, (f i).zwarn, (f i).maxVelo⟩ (by rw [List.getElem?_map, hg]; rfl)
  rw [hf, Option.some.injEq] at hf'
  subst hf'
  intro b
  refine (bit_small _ _ _).trans ?_
  rw [hiff]
  refine or_congr Iff.rfl (and_congr Iff.rfl ?_)
  constructor
  · rintro ⟨q, b, hq, hb, r1, r2, r3⟩
    rw [List.getElem?_map, List.getElem?_map] at hb
    cases hj : src[q]? with
    | none => rw [hj] at hb; cases hb
    | some j =>
      rw [hj] at hb
      simp only [Option.map_some, Option.some.injEq] at hb
      subst hb
      exact ⟨q, j, hq, hj, r1, r2, r3⟩
  · rintro ⟨q, j, hq, hj, r1, r2, r3⟩
    exact ⟨q, ⟨(f j).chi2, (f j).z, (f j).zwarn, (f j).maxVelo⟩, hq, by rw [List.getElem?_map, List.getElem?_map, hj]; rfl, r1, r2, r3⟩

theorem finish_deltachi2 (src : List Nat) (f : Nat → Row K PyStr) (p i : Nat) (hp : src[p]? = some i) (N : Nat → Prop)
    (hN : ∀ j, N j ↔ ((f j).zwarn &&& ZW.badfit = 0 ∧ min (f i).maxVelo (f j).maxVelo < |299792458 / 1000 * ((f j).z - (f i).z) / (1 + (f i).z)|)) :
    ∃ d, ((finishRows (src.map f)).map (·.deltachi2))[p]? = some d ∧
    ((∃ q j : Nat, p < q ∧ src[q]? = some j ∧ N j) → (∃ q j : Nat, p < q ∧ src[q]? = some j ∧ N j ∧ d = (f j).chi2 - (f i).chi2) ∧
      ∀ q j : Nat, p < q → src[q]? = some j → N j → d ≤ (f j).chi2 - (f i).chi2) ∧
    ((¬ ∃ q j : Nat, p < q ∧ src[q]? = some j ∧ N j) → d = 0) := by
  have hg : (src.map f)[p]? = some (f i) := by rw [List.getElem?_map, hp]; rfl
  obtain ⟨d, fl, hd, _, hfin⟩ := finishRows_spec _ p _ hg
  refine ⟨d, by rw [List.getElem?_map, hfin]; rfl, ?_⟩
  obtain ⟨d', hd', h1, h2⟩ := C21_deltachi2 ((src.map f).map (fun r => (⟨r.chi2, r.z, r.zwarn, r.maxVelo⟩ : DRow K))) p ⟨(f i).chi2, (f i).z, (f i).zwarn, (f i).maxVelo⟩ (by rw [List.getElem?_map, hg]; rfl)
  rw [hd, Option.some.injEq] at hd'
  subst hd'
  have conv : ∀ (q : Nat) b, IsLaterDistinctGood ((src.map f).map (fun r => (⟨r.chi2, r.z, r.zwarn, r.maxVelo⟩ : DRow K))) p ⟨(f i).chi2, (f i).z, (f i).zwarn, (f i).maxVelo⟩ q b ↔
      ∃ j, p < q ∧ src[q]? = some j ∧ N j ∧ b = ⟨(f j).chi2, (f j).z, (f j).zwarn, (f j).maxVelo⟩ := by
    intro q b
    unfold IsLaterDistinctGood
    rw [List.getElem?_map, List.getElem?_map]
    constructor
    · rintro ⟨r1, hb, r2, r3⟩
      cases hj : src[q]? with
      | none => rw [hj] at hb; cases hb
      | some j =>
        rw [hj] at hb
        simp only [Option.map_some, Option.some.injEq] at hb
        subst hb
        exact ⟨j, r1, rfl, (hN j).2 ⟨r2, r3⟩, rfl⟩
    · rintro ⟨j, r1, hj, hn, rfl⟩
      obtain ⟨r2, r3⟩ := (hN j).1 hn
      exact ⟨r1, by rw [hj]; rfl, r2, r3⟩
  refine ⟨?_, ?_⟩
  · rintro ⟨q, j, e1, e2, e3⟩
    obtain ⟨⟨q', b', g1, g2⟩, g3⟩ := h1 ⟨q, _, (conv q _).2 ⟨j, e1, e2, e3, rfl⟩⟩
    obtain ⟨j', f1, f2, f3, rfl⟩ := (conv q' b').1 g1
    refine ⟨⟨q', j', f1, f2, f3, g2⟩, ?_⟩
    intro q2 j2 k1 k2 k3
    exact g3 q2 _ ((conv q2 _).2 ⟨j2, k1, k2, k3, rfl⟩)
  · intro hno
    apply h2
    rintro ⟨q, b, hb⟩
    obtain ⟨j, f1, f2, f3, _⟩ := (conv q b).1 hb
    exact hno ⟨q, j, f1, f2, f3⟩

/-- which rows are left out: none that is better than a kept one of its type -/
theorem dropped_of_rows (nminima n : Nat) (src : List Nat) (f : Nat → Row K PyStr) (hn : src.Nodup) (hlt : ∀ i ∈ src, i < n)
    (h : src.map f = trimRows nminima (sortZfit ((List.range n).map f))) (i : Nat) (hi : i < n) (hns : i ∉ src) (k : Nat) (hk : k ∈ src) (hs : (f k).spectype = (f i).spectype) :
    (f k).notWorse (f i) := by
  obtain ⟨dr, hp, hd⟩ := C20_dropped_not_better nminima ((List.range n).map f) (f i).spectype
  rw [← h] at hp hd
  apply hd (f k) (List.mem_map_of_mem hk) hs
  have hsub : src ⊆ List.range n := fun x hx => List.mem_range.2 (hlt x hx)
  have hperm : (List.range n).Perm (src ++ (List.range n).filter (fun x => decide (x ∉ src))) := by
    rw [List.perm_ext_iff_of_nodup List.nodup_range]
    · intro a
      rw [List.mem_append, List.mem_filter, decide_eq_true_eq]
      constructor
      · intro ha
        by_cases h : a ∈ src
        · exact .inl h
        · exact .inr ⟨ha, h⟩
      · rintro (h | h)
        · exact hsub h
        · exact h.1
    · refine List.Nodup.append hn (List.nodup_range.filter _) ?_
      intro a ha hb
      have := (List.mem_filter.1 hb).2
      rw [decide_eq_true_eq] at this
      exact this ha
  have h1 := (hperm.map f).filter (fun r => decide (r.spectype = (f i).spectype))
  rw [List.map_append, List.filter_append] at h1
  have h2 : (((List.range n).filter (fun x => decide (x ∉ src))).map f).filter (fun r => decide (r.spectype = (f i).spectype)) |>.Perm dr := by
    refine (List.perm_append_left_iff _).1 (h1.symm.trans ?_)
    convert hp using 3 <;> (first | exact decide_eq_decide.2 Iff.rfl | (funext r; exact decide_eq_decide.2 Iff.rfl))
  refine h2.subset (List.mem_filter.2 ⟨List.mem_map_of_mem (List.mem_filter.2 ⟨List.mem_range.2 hi, ?_⟩), by simp⟩)
  simpa using hns

/-- Without changing the other columns, `finishTable` gives the rows `src` of the stacked table. -/
theorem C130_published (nminima : Nat) (ibad : Row K PyStr → Bool) (t : Tab K) (o : Out K) (h : finishTable nminima ibad t = .ok o) :
    ∃ src, Published nminima ibad t src o := by
  unfold finishTable at h
  split at h
  · cases h
  obtain ⟨t1, h1, h2⟩ := Except.bind_ok _ _ _ h
  clear h
  obtain ⟨src, hn, hlt, T, hrows⟩ := sortTrim_spec nminima (t.flag ibad) t1 h1
  have hl : (t.flag ibad).zwarn.length = t.zwarn.length := by simp [Tab.flag, Tab.rows]
  rw [hl] at hlt
  have hsrc : t1.rows = src.map (flagged ibad t) := by
    rw [T.rows]
    apply List.map_congr_left
    intro i hi
    exact flag_row ibad t i (hlt i hi)
  rw [flag_rows] at hrows
  unfold Tab.finish at h2
  dsimp only at h2
  split at h2
  · cases h2
  rename_i hcols
  cases h2
  rw [hsrc]
  rw [hsrc] at hrows
  have hget : ∀ p i : Nat, src[p]? = some i → (src.map (flagged ibad t))[p]? = some (flagged ibad t i) := fun p i hp => by rw [List.getElem?_map, hp]; rfl
  have hkey : ∀ k, k ≠ "max_velo_diff" → PyDict.get? (t1.cols.filter (fun kv => decide (kv.1 ≠ "max_velo_diff"))) k = PyDict.get? t1.cols k := by
    intro k hk
    generalize t1.cols = d
    induction d with
    | nil => rfl
    | cons kv d ih =>
      obtain ⟨a, v⟩ := kv
      rw [List.filter_cons]
      split
      · rw [PyDict.get?_cons, PyDict.get?_cons, ih]
      · rename_i h
        rw [PyDict.get?_cons, ih, if_neg]
        rintro rfl
        simp [hk] at h
  have hquota := C20_trim_per_spectype nminima (t.rows.map (flagRow ibad))
  have hrowsall : t.rows.map (flagRow ibad) = (List.range t.zwarn.length).map (flagged ibad t) := by
    unfold Tab.rows
    rw [List.map_map]
    rfl
  refine ⟨src, hn, hlt, ⟨by simp [finishRows_length], by simp [finishRows_length], T.plen, T.clen, ?_⟩, ?_, ?_, ?_, ?_, ?_, ?_, ?_, ?_, ?_, ?_⟩
  · intro kv hkv
    exact T.len kv (List.mem_filter.1 hkv).1
  · have : PyDict.keys (t1.cols.filter (fun kv => decide (kv.1 ≠ "max_velo_diff"))) = (PyDict.keys t1.cols).filter (fun k => decide (k ≠ "max_velo_diff")) := by
      unfold PyDict.keys
      rw [List.filter_map]; rfl
    simp only [this, T.keys]
    rfl
  · intro k hk p i hp
    have := T.col k p i hp
    unfold cell at this ⊢
    rw [hkey k hk, this]
    rfl
  · intro p i hp; exact T.npix p i hp
  · intro p i hp; exact T.ncoeff p i hp
  · have := (C20_znum (src.map (flagged ibad t))).1
    simpa using this
  · have := hquota.2.2
    rw [← hrows, List.pairwise_map] at this
    exact this
  · intro s
    have := hquota.2.1 s
    rw [← hrows, hrowsall, filter_map_comm, filter_map_comm, List.length_map, List.length_map] at this
    refine Eq.trans (congrArg List.length (List.filter_congr ?_)) (Eq.trans this (congrArg (fun l => min nminima (List.length l)) (List.filter_congr ?_)))
    · exact fun _ _ => decide_eq_decide.2 Iff.rfl
    · exact fun _ _ => decide_eq_decide.2 Iff.rfl
  · intro i hi hns k hk hs
    rw [hrowsall] at hrows
    exact dropped_of_rows nminima _ src (flagged ibad t) hn hlt hrows i hi hns k hk hs
  · intro p i hp
    obtain ⟨w, h1, h2⟩ := finish_zwarn src (flagged ibad t) p i hp
    refine ⟨w, h1, fun b => (h2 b).trans ?_⟩
    have hflag := (C24_flagRow ibad (t.rowAt i)).1 b
    have hc : ∀ j, (flagged ibad t j).chi2 = (t.rowAt j).chi2 ∧ (flagged ibad t j).z = (t.rowAt j).z ∧ (flagged ibad t j).maxVelo = (t.rowAt j).maxVelo := fun j => ⟨rfl, rfl, rfl⟩
    simp only [hc]
    unfold flagged at *
    rw [hflag]
    simp only [or_assoc]
  · intro p i hp
    exact finish_deltachi2 src (flagged ibad t) p i hp (IsNext ibad t i) (fun j => Iff.rfl)

end
end Redrock.ArchTable
