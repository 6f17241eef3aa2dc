import Verif.Model.Scan
import Verif.Lemmas.Mpi
import Verif.Lemmas.Work
import Mathlib.Data.List.Sort
import Mathlib.Data.List.Perm.Basic

namespace Redrock
set_option linter.unusedSectionVars false
variable {ι T Z R : Type} [DecidableEq ι]

theorem mapM_ok {α β : Type} (g : α → Py β) (h : α → β) (xs : List α) (hx : ∀ x ∈ xs, g x = .ok (h x)) :
    xs.mapM g = .ok (xs.map h) := by
  induction xs with
  | nil => rfl
  | cons x xs ih =>
    rw [List.mapM_cons, hx x (by simp), ih (fun y hy => hx y (by simp [hy]))]; rfl

theorem calcZchi2_eq (f : T → Z → R) (L : List (ι × T)) (zs : List Z) :
    calcZchi2 f (L.map (·.1)) (L.map (·.2)) zs = .ok (L.map (fun e => zs.map (f e.2))) := by
  unfold calcZchi2
  rw [mapM_ok _ (fun j => ((L[j]?).map (fun e => zs.map (f e.2))).getD [])]
  · congr 1
    apply List.ext_getElem
    · simp
    · intro i h1 h2
      simp at h1
      simp [h1]
  · intro j hj
    simp at hj
    simp [hj]

theorem set_mid {κ ν : Type} [DecidableEq κ] (A B : PyDict κ ν) (k : κ) (v v' : ν)
    (hA : k ∉ PyDict.keys A) (hB : k ∉ PyDict.keys B) :
    PyDict.set (A ++ (k, v) :: B) k v' = A ++ (k, v') :: B := by
  unfold PyDict.set
  have hAny : (A ++ (k, v) :: B).any (fun e => decide (e.1 = k)) = true := by simp
  rw [if_pos hAny]
  have hid : ∀ (D : PyDict κ ν), k ∉ PyDict.keys D → D.map (fun e => if e.1 = k then (k, v') else e) = D := by
    intro D hD
    rw [List.map_congr_left (g := id), List.map_id]
    intro e he
    have : e.1 ≠ k := by rintro rfl; exact hD (List.mem_map.2 ⟨e, he, rfl⟩)
    simp [this]
  rw [List.map_append, List.map_cons, hid A hA, hid B hB]; simp

theorem set_new {κ ν : Type} [DecidableEq κ] (A : PyDict κ ν) (k : κ) (v : ν) (hA : k ∉ PyDict.keys A) :
    PyDict.set A k v = A ++ [(k, v)] := by
  unfold PyDict.set
  rw [PyDict.any_iff_get?]
  have : (PyDict.get? A k).isSome = false := by
    rw [← Bool.not_eq_true, ← PyDict.mem_keys_iff]; exact hA
  simp [this]

theorem get?_mid {κ ν : Type} [DecidableEq κ] (A B : PyDict κ ν) (k : κ) (v : ν)
    (hA : k ∉ PyDict.keys A) : PyDict.get? (A ++ (k, v) :: B) k = some v := by
  rw [PyDict.get?_append, PyDict.get?_cons]
  have : PyDict.get? A k = none := by
    rw [← Option.not_isSome_iff_eq_none, ← PyDict.mem_keys_iff]; exact hA
  simp [this]

theorem storePiece_again (L1 L2 : List (ι × T)) (pd : T → PyDict Nat (List R)) (row : T → List R) (idx : Nat)
    (hn : ((L1 ++ L2).map (·.1)).Nodup) :
    storePiece (L2.map (·.1)) (L2.map (fun e => row e.2)) idx
      (L1.map (fun e => (e.1, PyDict.set (pd e.2) idx (row e.2))) ++ L2.map (fun e => (e.1, pd e.2))) =
    (L1 ++ L2).map (fun e => (e.1, PyDict.set (pd e.2) idx (row e.2))) := by
  induction L2 generalizing L1 with
  | nil => simp [storePiece]
  | cons e L2 ih =>
    have h1 : e.1 ∉ PyDict.keys (L1.map (fun e => (e.1, PyDict.set (pd e.2) idx (row e.2)))) := by
      simp only [PyDict.keys, List.map_map]
      intro hm
      simp only [List.map_append, List.map_cons, List.nodup_append] at hn
      obtain ⟨a, ha, ha'⟩ := List.mem_map.1 hm
      exact hn.2.2 _ (List.mem_map.2 ⟨a, ha, rfl⟩) e.1 (by simp) ha'
    have h2 : e.1 ∉ PyDict.keys (L2.map (fun e => (e.1, pd e.2))) := by
      simp only [PyDict.keys, List.map_map]
      intro hm
      simp only [List.map_append, List.map_cons, List.nodup_append, List.nodup_cons] at hn
      obtain ⟨a, ha, ha'⟩ := List.mem_map.1 hm
      exact hn.2.1.1 (List.mem_map.2 ⟨a, ha, ha'⟩)
    have ih' := ih (L1 ++ [e]) (by simpa using hn)
    rw [List.append_assoc, List.singleton_append] at ih'
    rw [← ih']
    unfold storePiece
    simp only [List.map_cons, List.zip_cons_cons, List.foldl_cons]
    rw [get?_mid _ _ _ _ h1, set_mid _ _ _ _ _ h1 h2]
    simp

theorem storePiece_first (L1 L2 : List (ι × T)) (row : T → List R) (idx : Nat)
    (hn : ((L1 ++ L2).map (·.1)).Nodup) :
    storePiece (L2.map (·.1)) (L2.map (fun e => row e.2)) idx
      (L1.map (fun e => (e.1, PyDict.set ([] : PyDict Nat (List R)) idx (row e.2)))) =
    (L1 ++ L2).map (fun e => (e.1, PyDict.set [] idx (row e.2))) := by
  induction L2 generalizing L1 with
  | nil => simp [storePiece]
  | cons e L2 ih =>
    have h1 : e.1 ∉ PyDict.keys (L1.map (fun e => (e.1, PyDict.set ([] : PyDict Nat (List R)) idx (row e.2)))) := by
      simp only [PyDict.keys, List.map_map]
      intro hm
      simp only [List.map_append, List.map_cons, List.nodup_append] at hn
      obtain ⟨a, ha, ha'⟩ := List.mem_map.1 hm
      exact hn.2.2 _ (List.mem_map.2 ⟨a, ha, rfl⟩) e.1 (by simp) ha'
    have h0 : PyDict.get? (L1.map (fun e => (e.1, PyDict.set ([] : PyDict Nat (List R)) idx (row e.2)))) e.1 = none := by
      rw [← Option.not_isSome_iff_eq_none, ← PyDict.mem_keys_iff]; exact h1
    have ih' := ih (L1 ++ [e]) (by simpa using hn)
    rw [List.append_assoc, List.singleton_append] at ih'
    rw [← ih']
    unfold storePiece
    simp only [List.map_cons, List.zip_cons_cons, List.foldl_cons]
    rw [h0, set_new _ _ _ h1]
    simp

/-- the per-target dictionary after a list of pieces -/
def pieceDict (f : T → Z → R) (tg : T) (d : PyDict Nat (List R)) (ps : List (Piece Z)) : PyDict Nat (List R) :=
  ps.foldl (fun d p => PyDict.set d p.index (p.redshifts.map (f tg))) d

theorem scan_fold (f : T → Z → R) (L : List (ι × T)) (hn : (L.map (·.1)).Nodup) (ps : List (Piece Z))
    (pd : T → PyDict Nat (List R)) :
    ps.foldlM (fun (d : PyDict ι (PyDict Nat (List R))) p => do
      let rows ← calcZchi2 f (L.map (·.1)) (L.map (·.2)) p.redshifts
      return storePiece (L.map (·.1)) rows p.index d) (L.map (fun e => (e.1, pd e.2))) =
    (.ok (L.map (fun e => (e.1, pieceDict f e.2 (pd e.2) ps))) : Py _) := by
  induction ps generalizing pd with
  | nil => rfl
  | cons p ps ih =>
    rw [List.foldlM_cons, calcZchi2_eq]
    have h := storePiece_again [] L pd (fun tg => p.redshifts.map (f tg)) p.index (by simpa using hn)
    simp only [List.map_nil, List.nil_append] at h
    simp only [bind, Except.bind, pure, Except.pure]
    rw [h]
    exact ih (fun tg => PyDict.set (pd tg) p.index (p.redshifts.map (f tg)))

theorem scanPieces_eq (f : T → Z → R) (L : List (ι × T)) (hn : (L.map (·.1)).Nodup) (ps : List (Piece Z))
    (hps : ps ≠ []) :
    scanPieces f (L.map (·.1)) (L.map (·.2)) ps =
      .ok (assemble (L.map (fun e => (e.1, pieceDict f e.2 [] ps)))) := by
  cases ps with
  | nil => exact absurd rfl hps
  | cons p ps =>
    unfold scanPieces
    rw [List.foldlM_cons, calcZchi2_eq]
    have h := storePiece_first [] L (fun tg => p.redshifts.map (f tg)) p.index (by simpa using hn)
    simp only [List.map_nil, List.nil_append] at h
    simp only [bind, Except.bind, pure, Except.pure]
    rw [h]
    have h2 := scan_fold f L hn ps (fun tg => PyDict.set [] p.index (p.redshifts.map (f tg)))
    simp only [bind, Except.bind, pure, Except.pure] at h2
    rw [h2]
    rfl

theorem pieceDict_eq (f : T → Z → R) (tg : T) (ps : List (Piece Z)) (d : PyDict Nat (List R))
    (hn : (PyDict.keys d ++ ps.map (·.index)).Nodup) :
    pieceDict f tg d ps = d ++ ps.map (fun p => (p.index, p.redshifts.map (f tg))) := by
  induction ps generalizing d with
  | nil => simp [pieceDict]
  | cons p ps ih =>
    have hk : p.index ∉ PyDict.keys d := by
      intro hm
      rw [List.nodup_append] at hn
      exact hn.2.2 _ hm p.index (by simp) rfl
    have := ih (d ++ [(p.index, p.redshifts.map (f tg))]) (by
      simpa [PyDict.keys] using hn)
    unfold pieceDict at this ⊢
    rw [List.foldl_cons, set_new _ _ _ hk, this]
    simp

theorem sorted_perm_range (l : List Nat) (n : Nat) (h : l.Perm (List.range n)) :
    pySort (fun a b => decide (a ≤ b)) l = List.range n := by
  apply List.Perm.eq_of_pairwise (le := (· ≤ ·)) (fun a b _ _ h1 h2 => le_antisymm h1 h2)
  · have := pySort_pairwise (le := fun a b : Nat => decide (a ≤ b))
      (by intro a b c; simp; omega) (by intro a b; simp; omega) l
    exact this.imp (by simp)
  · exact List.pairwise_le_range
  · exact (pySort_perm _ l).trans h

theorem assemble_pieces (f : T → Z → R) (tg : T) (p : Nat → Piece Z) (n : Nat) (hp : ∀ i, i < n → (p i).index = i)
    (ps : List (Piece Z)) (is : List Nat) (hps : ps = is.map p) (his : is.Perm (List.range n)) :
    ((sortedKeys (pieceDict f tg [] ps)).filterMap (PyDict.get? (pieceDict f tg [] ps))).flatten =
      (((List.range n).map (fun i => (p i).redshifts)).flatten).map (f tg) := by
  have hlt : ∀ i ∈ is, i < n := fun i hi => List.mem_range.1 (his.mem_iff.1 hi)
  have hidx : ps.map (·.index) = is := by
    rw [hps, List.map_map]
    conv_rhs => rw [← List.map_id is]
    apply List.map_congr_left
    intro i hi; exact hp i (hlt i hi)
  have hnd : is.Nodup := his.nodup_iff.2 List.nodup_range
  have hd : pieceDict f tg [] ps = ps.map (fun p => (p.index, p.redshifts.map (f tg))) := by
    rw [pieceDict_eq]; · simp
    · simpa [PyDict.keys, hidx] using hnd
  have hkeys : PyDict.keys (pieceDict f tg [] ps) = is := by
    rw [hd]; simp only [PyDict.keys, List.map_map]; exact hidx
  rw [sortedKeys, hkeys, sorted_perm_range is n his]
  have hget : ∀ i ∈ List.range n, PyDict.get? (pieceDict f tg [] ps) i = some ((p i).redshifts.map (f tg)) := by
    intro i hi
    have hi' : i ∈ is := his.mem_iff.2 hi
    apply PyDict.get?_of_mem
    · rw [hkeys]; exact hnd
    · rw [hd, hps, List.map_map]
      refine List.mem_map.2 ⟨i, hi', ?_⟩
      simp [hp i (hlt i hi')]
  have : (List.range n).filterMap (PyDict.get? (pieceDict f tg [] ps)) =
      (List.range n).map (fun i => (p i).redshifts.map (f tg)) := by
    rw [List.filterMap_congr hget]
    exact congrFun List.filterMap_eq_map' _
  rw [this, List.map_flatten, List.map_map]; rfl

/-! ### gather -/

theorem chunk_flatten {α : Type} (xs : List α) (m k : Nat) :
    ((List.range k).map (fun i => (xs.drop (i * m)).take m)).flatten = xs.take (k * m) := by
  induction k with
  | zero => simp
  | succ k ih =>
    rw [List.range_succ, List.map_append, List.flatten_append, ih]
    simp only [List.map_singleton, List.flatten_singleton]
    rw [Nat.add_mul, Nat.one_mul, List.take_add]

theorem update_foldl_flatten {V : Type} (bs : List (PyDict ι V)) (d : PyDict ι V) :
    bs.foldl PyDict.update d = PyDict.update d bs.flatten := by
  induction bs generalizing d with
  | nil => rfl
  | cons b bs ih => rw [List.foldl_cons, ih]; simp [PyDict.update, List.foldl_append]

theorem update_nil {V : Type} (e : PyDict ι V) (he : (PyDict.keys e).Nodup) (d : PyDict ι V)
    (hd : ∀ k ∈ PyDict.keys e, k ∉ PyDict.keys d) : PyDict.update d e = d ++ e := by
  induction e generalizing d with
  | nil => simp [PyDict.update]
  | cons x e ih =>
    obtain ⟨k, v⟩ := x
    simp only [PyDict.keys, List.map_cons, List.nodup_cons] at he
    have := ih he.2 (d ++ [(k, v)]) (by
      intro a ha ha'
      simp only [PyDict.keys, List.map_append, List.mem_append, List.map_cons, List.map_nil, List.mem_singleton] at ha'
      rcases ha' with ha' | ha'
      · exact hd a (by simp only [PyDict.keys, List.map_cons, List.mem_cons]; right; exact ha) ha'
      · subst ha'; exact he.1 ha)
    unfold PyDict.update at this ⊢
    rw [List.foldl_cons]
    simp only
    rw [set_new d k v (hd k (by simp [PyDict.keys])), this]
    simp

/-! ### multiprocessing -/

theorem filter_mem_of_sublist (l ids : List ι) (h : l.Sublist ids) (hn : ids.Nodup) :
    ids.filter (fun x => decide (x ∈ l)) = l := by
  induction h with
  | slnil => rfl
  | @cons l1 l2 a h ih =>
    rw [List.nodup_cons] at hn
    have ha : a ∉ l1 := fun hm => hn.1 (h.subset hm)
    simp only [List.filter_cons, ha, decide_false, Bool.false_eq_true, if_false]
    exact ih hn.2
  | @cons_cons l1 l2 a h ih =>
    rw [List.nodup_cons] at hn
    simp only [List.filter_cons, List.mem_cons, true_or, decide_true, if_true]
    congr 1
    rw [← ih hn.2]
    apply List.filter_congr
    intro x hx
    have : x ≠ a := by rintro rfl; exact hn.1 hx
    simp [this, ih hn.2]

theorem distributeWork_sublist {K : Type} [Field K] [LinearOrder K] (n : Nat) (caps : List K)
    (hn : caps.length = n) (hn0 : 0 < n) (hpos : ∀ c ∈ caps, c ≠ 0) (w : ι → K) (ids : List ι)
    (hs : ids.Pairwise (fun a b => w b ≤ w a)) :
    ∃ d, distributeWork n ids w caps = .ok d ∧ d.length = n ∧ d.flatten.Perm ids ∧ ∀ l ∈ d, l.Sublist ids := by
  have hsort : sortByWeightDesc w ids = ids := by
    unfold sortByWeightDesc
    apply pySort_of_pairwise
    exact hs.imp (by simp)
  obtain ⟨d, h1, h2, h3, h4⟩ := distributeWork_induction n caps hn hn0 hpos w ids
    (fun done d => d.flatten.Perm done ∧ ∀ l ∈ d, l.Sublist done)
    (by
      refine ⟨by simp, ?_⟩
      intro l hl
      rw [(List.mem_replicate.1 hl).2])
    (by
      intro d1 x d i _ hd hi hP _
      refine ⟨(flatten_modify_perm d i (hd ▸ hi) x).trans (hP.1.append_right [x]), ?_⟩
      intro l hl
      obtain ⟨j, hj, rfl⟩ := List.getElem_of_mem hl
      rw [List.getElem_modify]
      rw [List.length_modify] at hj
      have := hP.2 d[j] (List.getElem_mem hj)
      split
      · exact this.append (List.Sublist.refl _)
      · exact this.trans (List.sublist_append_left _ _))
  rw [hsort] at h3 h4
  exact ⟨d, h1, h2, h3, h4⟩

theorem find_nspec (loc : List (LTarget ι T)) (hn : (loc.map (·.id)).Nodup) (t : LTarget ι T) (ht : t ∈ loc) :
    (((loc.map (fun t => (t.id, t.nspec))).find? (fun e => decide (e.1 = t.id))).map (·.2)).getD 0 = t.nspec := by
  induction loc with
  | nil => simp at ht
  | cons a loc ih =>
    simp only [List.map_cons, List.nodup_cons] at hn
    rcases List.mem_cons.1 ht with rfl | ht
    · simp
    · have : a.id ≠ t.id := by
        intro h; exact hn.1 (h ▸ List.mem_map.2 ⟨t, ht, rfl⟩)
      simp only [List.map_cons, List.find?_cons, this, decide_false]
      exact ih hn.2 ht

/-- storing correct rows keeps a dictionary of correct rows and adds the keys -/
theorem mpStore_spec (val : ι → Option (List R)) (mpdist : List (List ι)) (i : Nat) (rows : List (List R))
    (hrows : ∀ k r, (k, r) ∈ ((mpdist[i]?).getD []).zip rows → val k = some r)
    (hlen : rows.length = ((mpdist[i]?).getD []).length) (d : PyDict ι (List R))
    (hd : ∀ k v, PyDict.get? d k = some v → val k = some v) :
    (∀ k v, PyDict.get? (mpStore mpdist d (i, rows)) k = some v → val k = some v) ∧
    (∀ k, ((PyDict.get? d k).isSome ∨ k ∈ (mpdist[i]?).getD []) →
      (PyDict.get? (mpStore mpdist d (i, rows)) k).isSome) := by
  unfold mpStore
  simp only
  constructor
  · intro k v
    rw [PyDict.get?_foldl_set]
    cases hf : (((mpdist[i]?).getD []).zip rows).reverse.find? (fun x => decide (x.1 = k)) with
    | none => simp; exact hd k v
    | some e =>
      have h1 := List.mem_of_find?_eq_some hf
      have h2 := List.find?_some hf
      simp at h2
      intro h
      simp at h
      obtain ⟨a, b⟩ := e
      simp only at h2 h
      subst h2; subst h
      exact hrows _ _ (List.mem_reverse.1 h1)
  · intro k hk
    rw [PyDict.get?_foldl_set]
    rcases hk with hk | hk
    · cases (((mpdist[i]?).getD []).zip rows).reverse.find? (fun x => decide (x.1 = k)) <;> simp [hk]
    · have : ∃ e ∈ (((mpdist[i]?).getD []).zip rows).reverse, e.1 = k := by
        obtain ⟨j, hj, rfl⟩ := List.getElem_of_mem hk
        refine ⟨(((mpdist[i]?).getD [])[j], rows[j]'(by omega)), ?_, rfl⟩
        rw [List.mem_reverse]
        rw [← List.getElem_zip (h := by simp; omega)]
        exact List.getElem_mem _
      obtain ⟨e, he, hek⟩ := this
      have : ((((mpdist[i]?).getD []).zip rows).reverse.find? (fun x => decide (x.1 = k))).isSome := by
        rw [List.find?_isSome]; exact ⟨e, he, by simp [hek]⟩
      obtain ⟨e', he'⟩ := Option.isSome_iff_exists.1 this
      rw [he']; simp

end Redrock
