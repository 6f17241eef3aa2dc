import Verif.Model.ArchMerge
import Verif.Props.Zfind
import Verif.Lemmas.Dict
import Verif.Lemmas.Desi
import Mathlib.Data.Rat.Defs
import Mathlib.Algebra.Order.Ring.Rat
import Mathlib.Algebra.BigOperators.Group.List.Basic
import Mathlib.Tactic.Linarith

/-!
C85: stacking the fits of several templates in archetype mode.  C86: `NEGATIVE_MODEL`.
-/
namespace Redrock
set_option linter.unusedSectionVars false

section
variable {K : Type} [Field K] [LinearOrder K]

/-! ### specification -/

/-- The columns of one template: `n` candidates, one row each in every column. -/
def HasRows (n : Nat) (tmp : PyDict String (Arr K)) : Prop := ∀ k a, PyDict.get? tmp k = some a → a.length = n

/-- `fits` are the fits of one target, with their numbers of candidates (at least one each; templates without candidates are skipped before), and `first`'s column names are
distinct. -/
structure FitsOf (fits : List (PyDict String (Arr K))) (ns : List Nat) : Prop where
  rows : List.Forall₂ (fun n tmp => 0 < n ∧ HasRows n tmp) ns fits
  keys : ∀ first ∈ fits.head?, (PyDict.keys first).Nodup

/-- The row of the final table that belongs to candidate `j` of template number `i`: candidates are numbered template by template. -/
def rowNumber (ns : List Nat) (i j : Nat) : Nat := (ns.take i).sum + j

/-- A cell of zeros: the number 0, the empty string or a vector of zeros. -/
def ZeroCell (c : Cell K) : Prop := c = .num 0 ∨ c = .str [] ∨ ∃ n, c = .vec (List.replicate n 0)

theorem zeroCell_zero (c : Cell K) : ZeroCell (Cell.zero c) := by
  cases c with
  | num v => exact .inl rfl
  | str s => exact .inr (.inl rfl)
  | vec v => exact .inr (.inr ⟨v.length, by simp [Cell.zero]⟩)

/-- The entry of candidate `j` of a template in column `k`: its own value; where the template has no such column (it was fitted without archetypes) its own PCA coefficients,
subtype or type for the three `pca_` columns, zeros for the Legendre coefficients. `pca_` columns are cut or padded to `w` entries. -/
inductive IsOwn (k : String) (ref : Arr K) (tmp : PyDict String (Arr K)) (j : Nat) (row : List (Cell K)) : Prop where
  | own (a : Arr K) (h : PyDict.get? tmp k = some a) (hk : k ∉ ["pca_coeff", "pca_subtype", "pca_spectype"]) (hr : a[j]? = some row)
  | pca (src : String) (a : Arr K) (r : List (Cell K)) (h : PyDict.get? tmp k = some a ∨ (PyDict.get? tmp k = none ∧ PyDict.get? tmp src = some a))
      (hk : (k, src) ∈ [("pca_coeff", "coeff"), ("pca_subtype", "subtype"), ("pca_spectype", "spectype")])
      (hr : a[j]? = some r) (hrow : row = (r ++ List.replicate (arrWidth ref - arrWidth a) (Cell.num 0)).take (arrWidth ref))
  | zero (h : PyDict.get? tmp k = none) (hk : k = "legcoeff" ∨ k = "archcoeff") (r : List (Cell K)) (hr : r ∈ ref) (hrow : row.map Cell.shape = r.map Cell.shape) (hzero : ∀ c ∈ row, ZeroCell c)

/-! ### lemmas -/

theorem flattenRows_get {V : Type} (as : List (List V)) (ns : List Nat) (h : as.map List.length = ns) (i j : Nat) (a : List V) (hi : as[i]? = some a) (hj : j < a.length) :
    as.flatten[rowNumber ns i j]? = a[j]? := by
  subst h
  induction as generalizing i with
  | nil => simp at hi
  | cons b bs ih =>
    cases i with
    | zero =>
      simp only [List.getElem?_cons_zero, Option.some.injEq] at hi
      subst hi
      simp [rowNumber, List.getElem?_append_left hj]
    | succ i =>
      simp only [List.getElem?_cons_succ] at hi
      have := ih i hi
      simp only [rowNumber, List.map_cons, List.take_succ_cons, List.sum_cons, List.flatten_cons] at this ⊢
      rw [List.getElem?_append_right (by omega), ← this]
      congr 1; omega

theorem mergeVals_forall₂ (k : String) (ref : Arr K) : ∀ (ts : List (PyDict String (Arr K))) (prev : Option (Arr K)) (vs : List (Arr K)) (last : Option (Arr K)),
    mergeVals k ref ts prev = .ok (vs, last) → List.Forall₂ (fun tmp v => ∃ p, mergeVal k ref p tmp = .ok v) ts vs
  | [], prev, vs, last, h => by
    simp only [mergeVals, Except.ok.injEq, Prod.mk.injEq] at h
    rw [← h.1]; exact .nil
  | t :: ts, prev, vs, last, h => by
    simp only [mergeVals] at h
    cases h1 : mergeVal k ref prev t with
    | error e => rw [h1] at h; simp [bind, Except.bind] at h
    | ok v =>
      rw [h1] at h
      cases h2 : mergeVals k ref ts (some v) with
      | error e => simp [bind, Except.bind, h2] at h
      | ok q =>
        obtain ⟨qs, ql⟩ := q
        simp only [bind, Except.bind, h2, pure, Except.pure, Except.ok.injEq, Prod.mk.injEq] at h
        rw [← h.1]
        exact .cons ⟨prev, h1⟩ (mergeVals_forall₂ k ref ts _ _ _ h2)

/-- A stacked column before flattening. -/
theorem mergeColumn_ok (ts : List (PyDict String (Arr K))) (prev : Option (Arr K)) (k : String) (ref col : Arr K) (last : Option (Arr K))
    (h : mergeColumn ts prev k ref = .ok (col, last)) :
    ∃ vs : List (Arr K), List.Forall₂ (fun tmp v => ∃ p, mergeVal k ref p tmp = .ok v) ts vs ∧
      (∀ r ∈ vs.flatten, r.map Cell.shape = (vs.flatten.headD []).map Cell.shape) ∧
      col = if k ≠ "coeff" ∧ arrWidth vs.flatten = 1 then arrFlatten vs.flatten else vs.flatten := by
  unfold mergeColumn at h
  cases h1 : mergeVals k ref ts prev with
  | error e => rw [h1] at h; simp [bind, Except.bind] at h
  | ok q =>
    obtain ⟨vs, l⟩ := q
    rw [h1] at h
    simp only [bind, Except.bind] at h
    split at h
    · simp at h
    rename_i col' hv
    simp only [npVstack] at hv
    split at hv
    · rename_i hc
      simp only [Except.ok.injEq] at hv
      subst hv
      simp only [pure, Except.pure, Except.ok.injEq, Prod.mk.injEq] at h
      refine ⟨vs, mergeVals_forall₂ k ref ts _ _ _ h1, ?_, h.1.symm⟩
      intro r hr
      exact of_decide_eq_true (List.all_eq_true.1 hc r hr)
    · simp at hv

theorem mergeColumns_ok (ts : List (PyDict String (Arr K))) : ∀ (ks : List (String × Arr K)) (prev : Option (Arr K)) (d : PyDict String (Arr K)),
    mergeColumns ts ks prev = .ok d →
    List.Forall₂ (fun kr kc => kc.1 = kr.1 ∧ ∃ p l, mergeColumn ts p kr.1 kr.2 = .ok (kc.2, l)) ks d
  | [], prev, d, h => by
    simp only [mergeColumns, Except.ok.injEq] at h
    rw [← h]; exact .nil
  | (k, ref) :: ks, prev, d, h => by
    simp only [mergeColumns] at h
    cases h1 : mergeColumn ts prev k ref with
    | error e => rw [h1] at h; simp [bind, Except.bind] at h
    | ok q =>
      obtain ⟨col, l⟩ := q
      rw [h1] at h
      cases h2 : mergeColumns ts ks l with
      | error e => simp [bind, Except.bind, h2] at h
      | ok rest =>
        simp only [bind, Except.bind, h2, pure, Except.pure, Except.ok.injEq] at h
        rw [← h]
        exact .cons ⟨rfl, prev, l, h1⟩ (mergeColumns_ok ts ks l rest h2)

theorem mergeColumns_keys (ts : List (PyDict String (Arr K))) (ks : List (String × Arr K)) (prev : Option (Arr K)) (d : PyDict String (Arr K))
    (h : mergeColumns ts ks prev = .ok d) : PyDict.keys d = PyDict.keys ks := by
  have := mergeColumns_ok ts ks prev d h
  clear h
  unfold PyDict.keys
  induction this with
  | nil => rfl
  | cons h1 _ ih => rw [List.map_cons, List.map_cons, h1.1, ih]

theorem pcaMap_get? (k src : String) : PyDict.get? pcaMap k = some src ↔ (k, src) ∈ [("pca_coeff", "coeff"), ("pca_subtype", "subtype"), ("pca_spectype", "spectype")] := by
  constructor
  · exact PyDict.mem_of_get? pcaMap k src
  · exact PyDict.get?_of_mem pcaMap (by decide) k src

theorem pcaMap_isSome (k : String) : (PyDict.get? pcaMap k).isSome = true ↔ k ∈ ["pca_coeff", "pca_subtype", "pca_spectype"] := by
  rw [Option.isSome_iff_exists]
  constructor
  · rintro ⟨s, hs⟩
    rw [pcaMap_get?] at hs
    simp at hs ⊢; rcases hs with h | h | h <;> simp [h.1]
  · intro h
    simp at h
    rcases h with h | h | h
    · exact ⟨"coeff", by rw [pcaMap_get?, h]; simp⟩
    · exact ⟨"subtype", by rw [pcaMap_get?, h]; simp⟩
    · exact ⟨"spectype", by rw [pcaMap_get?, h]; simp⟩

/-- Where the template has no such column. -/
def Lacks (k : String) (tmp : PyDict String (Arr K)) : Prop :=
  PyDict.get? tmp k = none ∧ ∀ src, (k, src) ∈ [("pca_coeff", "coeff"), ("pca_subtype", "subtype"), ("pca_spectype", "spectype")] → PyDict.get? tmp src = none

theorem mergeVal_own (k : String) (ref : Arr K) (p : Option (Arr K)) (tmp : PyDict String (Arr K)) (v : Arr K) (n : Nat) (hn : HasRows n tmp)
    (hl : ¬ Lacks k tmp) (h : mergeVal k ref p tmp = .ok v) : v.length = n ∧ ∀ j r, v[j]? = some r → IsOwn k ref tmp j r := by
  unfold mergeVal at h
  cases h1 : PyDict.get? tmp k with
  | some val =>
    rw [h1] at h
    simp only at h
    split at h
    · rename_i hp
      obtain ⟨src, hs⟩ := Option.isSome_iff_exists.1 hp
      simp only [Except.ok.injEq] at h
      subst h
      refine ⟨by rw [padTo, List.length_map, hn k val h1], fun j r hr => ?_⟩
      rw [padTo, List.getElem?_map, Option.map_eq_some_iff] at hr
      obtain ⟨r0, hr0, rfl⟩ := hr
      exact .pca src val r0 (.inl h1) ((pcaMap_get? k src).1 hs) hr0 rfl
    · rename_i hp
      simp only [Except.ok.injEq] at h
      subst h
      exact ⟨hn k val h1, fun j r hr => .own val h1 (fun hk => hp ((pcaMap_isSome k).2 hk)) hr⟩
  | none =>
    rw [h1] at h
    simp only at h
    cases hs : PyDict.get? pcaMap k with
    | none =>
      exact absurd ⟨h1, fun src hsrc => by rw [(pcaMap_get? k src).2 hsrc] at hs; simp at hs⟩ hl
    | some src =>
      rw [hs] at h
      simp only [Option.bind_some] at h
      cases h2 : PyDict.get? tmp src with
      | none =>
        refine absurd ⟨h1, fun src' hsrc => ?_⟩ hl
        rw [(pcaMap_get? k src').2 hsrc] at hs
        simp only [Option.some.injEq] at hs
        rw [hs]; exact h2
      | some val =>
        rw [h2] at h
        simp only [Except.ok.injEq] at h
        subst h
        refine ⟨by rw [padTo, List.length_map, hn src val h2], fun j r hr => ?_⟩
        rw [padTo, List.getElem?_map, Option.map_eq_some_iff] at hr
        obtain ⟨r0, hr0, rfl⟩ := hr
        exact .pca src val r0 (.inr ⟨h1, h2⟩) ((pcaMap_get? k src).1 hs) hr0 rfl

theorem zeroLike_iff (k : String) : k ∈ zeroLikeKeys ↔ (k = "legcoeff" ∨ k = "archcoeff") := by simp [zeroLikeKeys, or_comm]

theorem mergeVal_zero (k : String) (ref : Arr K) (p : Option (Arr K)) (tmp : PyDict String (Arr K)) (v : Arr K)
    (hk : k = "legcoeff" ∨ k = "archcoeff") (hl : PyDict.get? tmp k = none) (h : mergeVal k ref p tmp = .ok v) : v = zerosLike ref := by
  have hp : PyDict.get? pcaMap k = none := by rcases hk with rfl | rfl <;> decide
  unfold mergeVal at h
  rw [hl] at h
  simp only [hp, Option.bind_none] at h
  rw [if_pos ((zeroLike_iff k).2 hk)] at h
  simpa using h.symm

/-! ### C85 -/

/-- C85: the columns of the stacked table are those of the first template, in order. -/
theorem C85_columns (first : PyDict String (Arr K)) (rest : List (PyDict String (Arr K))) (d : PyDict String (Arr K))
    (h : mergeTemplates (first :: rest) = .ok d) : PyDict.keys d = PyDict.keys first :=
  mergeColumns_keys _ _ _ _ h

/-- C85, refuted part: if the first template was fitted without archetypes, the Legendre coefficients (and `pca_` columns) of all others are lost. -/
theorem C85_first_without_archetypes (first : PyDict String (Arr K)) (rest : List (PyDict String (Arr K))) (d : PyDict String (Arr K)) (k : String)
    (h : mergeTemplates (first :: rest) = .ok d) (hk : k ∉ PyDict.keys first) : PyDict.get d k = .error .keyError := by
  have := C85_columns first rest d h
  unfold PyDict.get
  have hn : PyDict.get? d k = none := by
    cases hg : PyDict.get? d k with
    | none => rfl
    | some v => exact absurd (this ▸ (PyDict.mem_keys_iff d k).2 (by rw [hg]; rfl)) hk
  rw [hn]


theorem column_of (first : PyDict String (Arr K)) (rest : List (PyDict String (Arr K))) (d : PyDict String (Arr K)) (hk : (PyDict.keys first).Nodup)
    (h : mergeTemplates (first :: rest) = .ok d) (k : String) (ref : Arr K) (hr : PyDict.get? first k = some ref) :
    ∃ col p l, PyDict.get? d k = some col ∧ mergeColumn (first :: rest) p k ref = .ok (col, l) := by
  have hkeys := C85_columns first rest d h
  have hf := mergeColumns_ok (first :: rest) first none d h
  have hm := PyDict.mem_of_get? first k ref hr
  have key : ∀ (ks : List (String × Arr K)) (d' : List (String × Arr K)),
      List.Forall₂ (fun kr kc => kc.1 = kr.1 ∧ ∃ p l, mergeColumn (first :: rest) p kr.1 kr.2 = .ok (kc.2, l)) ks d' → (k, ref) ∈ ks →
      ∃ col p l, (k, col) ∈ d' ∧ mergeColumn (first :: rest) p k ref = .ok (col, l) := by
    intro ks d' hfa
    induction hfa with
    | nil => intro hm; simp at hm
    | cons h1 _ ih =>
      intro hm
      rename_i a b l1 l2 _
      rcases List.mem_cons.1 hm with e | e
      · subst e
        obtain ⟨hb, p, l, hc⟩ := h1
        exact ⟨b.2, p, l, List.mem_cons.2 (.inl (Prod.ext hb.symm rfl)), hc⟩
      · obtain ⟨c, p, l, hc, hp⟩ := ih e
        exact ⟨c, p, l, List.mem_cons_of_mem _ hc, hp⟩
  obtain ⟨col, p, l, hc, hp⟩ := key first d hf hm
  exact ⟨col, p, l, PyDict.get?_of_mem d (hkeys ▸ hk) k col hc, hp⟩

/-- A row of scalars. -/
def ScalarRow (r : List (Cell K)) : Prop := ∀ c ∈ r, c.shape = none

theorem scalars_of_shape (c : Cell K) (h : c.shape = none) : c.scalars = [c] := by
  cases c <;> simp [Cell.shape, Cell.scalars] at h ⊢

theorem arrFlatten_id (a : Arr K) (h : ∀ r ∈ a, r.map Cell.shape = [none]) : arrFlatten a = a := by
  unfold arrFlatten
  induction a with
  | nil => rfl
  | cons r a ih =>
    have hr := h r (List.mem_cons_self ..)
    obtain ⟨c, rfl⟩ : ∃ c, r = [c] := by
      cases r with
      | nil => simp at hr
      | cons c r => cases r with
        | nil => exact ⟨c, rfl⟩
        | cons c' r => simp at hr
    have hc : c.shape = none := by simpa using hr
    simp only [List.flatMap_cons, List.flatMap_nil, scalars_of_shape c hc, List.append_nil, List.map_append, List.map_cons, List.map_nil, List.cons_append, List.nil_append]
    rw [ih (fun r hr => h r (List.mem_cons_of_mem _ hr))]

theorem forall₂_get {α β : Type} {R : α → β → Prop} {l : List α} {m : List β} (h : List.Forall₂ R l m) (i : Nat) (a : α) (ha : l[i]? = some a) :
    ∃ b, m[i]? = some b ∧ R a b := by
  induction h generalizing i with
  | nil => simp at ha
  | cons h1 _ ih =>
    cases i with
    | zero => simp only [List.getElem?_cons_zero, Option.some.injEq] at ha; subst ha; exact ⟨_, rfl, h1⟩
    | succ i => simpa using ih i (by simpa using ha)

/-- The value of the first template is its own column. -/
theorem mergeVal_first (k : String) (ref : Arr K) (p : Option (Arr K)) (first : PyDict String (Arr K)) (v : Arr K) (hr : PyDict.get? first k = some ref)
    (h : mergeVal k ref p first = .ok v) (hne : ref ≠ []) : v.length = ref.length ∧ v.headD [] = ref.headD [] := by
  unfold mergeVal at h
  rw [hr] at h
  simp only at h
  split at h
  · simp only [Except.ok.injEq] at h
    subst h
    refine ⟨by simp [padTo], ?_⟩
    cases ref with
    | nil => exact absurd rfl hne
    | cons r ref => simp [padTo, arrWidth]
  · simp only [Except.ok.injEq] at h
    rw [h]; exact ⟨rfl, rfl⟩

/-- The stacked column before flattening, template by template. -/
theorem column_blocks (first : PyDict String (Arr K)) (rest : List (PyDict String (Arr K))) (ns : List Nat) (hF : FitsOf (first :: rest) ns) (d : PyDict String (Arr K))
    (h : mergeTemplates (first :: rest) = .ok d) (k : String) (ref : Arr K) (hr : PyDict.get? first k = some ref) :
    ∃ (col : Arr K) (vs : List (Arr K)), PyDict.get? d k = some col ∧
      List.Forall₂ (fun tmp v => ∃ p, mergeVal k ref p tmp = .ok v) (first :: rest) vs ∧
      (∀ r ∈ vs.flatten, r.map Cell.shape = (ref.headD []).map Cell.shape) ∧
      col = if k ≠ "coeff" ∧ arrWidth ref = 1 then arrFlatten vs.flatten else vs.flatten := by
  obtain ⟨col, p, l, hc, hp⟩ := column_of first rest d (hF.keys first rfl) h k ref hr
  obtain ⟨vs, hv, hs, he⟩ := mergeColumn_ok _ _ _ _ _ _ hp
  have hhead : vs.flatten.headD [] = ref.headD [] := by
    cases hv with
    | @cons _ v _ vs' h1 _ =>
      obtain ⟨p', h1⟩ := h1
      have hns := hF.rows
      cases hns with
      | cons hn _ =>
        have hl := hn.2 k ref hr
        have hne : ref ≠ [] := by intro e; rw [e] at hl; simp at hl; omega
        obtain ⟨e1, e2⟩ := mergeVal_first k ref p' first v hr h1 hne
        rw [List.flatten_cons]
        cases v with
        | nil =>
          exact absurd (List.length_eq_zero_iff.1 e1.symm) hne
        | cons r v => simpa using e2
  refine ⟨col, vs, hc, hv, ?_, ?_⟩
  · rw [← hhead]; exact hs
  · rw [he]; unfold arrWidth; rw [hhead]

/-- C85, proved part: in column `k` every candidate's row holds its own value, provided every template that has no such column has as many candidates as the first template (this
concerns only the Legendre coefficients of templates fitted without archetypes), and the column is not a 3-d array whose middle axis has length one. -/
theorem C85_rows_partial (first : PyDict String (Arr K)) (rest : List (PyDict String (Arr K))) (ns : List Nat) (hF : FitsOf (first :: rest) ns) (d : PyDict String (Arr K))
    (h : mergeTemplates (first :: rest) = .ok d) (k : String) (ref : Arr K) (hr : PyDict.get? first k = some ref)
    (hflat : arrWidth ref = 1 → ScalarRow (ref.headD []))
    (hz : ∀ (i : Nat) tmp (n : Nat), (first :: rest)[i]? = some tmp → ns[i]? = some n → Lacks k tmp → (k = "legcoeff" ∨ k = "archcoeff") ∧ n = ref.length) :
    ∃ col, PyDict.get? d k = some col ∧ col.length = ns.sum ∧
      ∀ (i : Nat) tmp (n j : Nat), (first :: rest)[i]? = some tmp → ns[i]? = some n → j < n → ∃ row, col[rowNumber ns i j]? = some row ∧ IsOwn k ref tmp j row := by
  obtain ⟨col, vs, hc, hv, hs, he⟩ := column_blocks first rest ns hF d h k ref hr
  have hcol : col = vs.flatten := by
    rw [he]
    split
    · rename_i hk
      apply arrFlatten_id
      intro r hr'
      rw [hs r hr']
      have h1 := hk.2
      have h2 := hflat h1
      unfold arrWidth at h1
      obtain ⟨c, e⟩ := List.length_eq_one_iff.1 h1
      rw [e] at h2 ⊢
      simp [h2 c (by simp)]
    · rfl
  have hblock : ∀ (i : Nat) tmp (n : Nat), (first :: rest)[i]? = some tmp → ns[i]? = some n → ∃ v, vs[i]? = some v ∧ v.length = n ∧ ∀ j r, v[j]? = some r → IsOwn k ref tmp j r := by
    intro i tmp n ht hn
    obtain ⟨v, hvi, p, hm⟩ := forall₂_get hv i tmp ht
    obtain ⟨tmp', ht', hn0, hrows⟩ := forall₂_get hF.rows i n hn
    rw [ht] at ht'
    simp only [Option.some.injEq] at ht'
    subst ht'
    refine ⟨v, hvi, ?_⟩
    by_cases hl : Lacks k tmp
    · obtain ⟨hk, hnn⟩ := hz i tmp n ht hn hl
      have e := mergeVal_zero k ref p tmp v hk hl.1 hm
      subst e
      refine ⟨by simp [zerosLike, hnn], fun j r hj => ?_⟩
      rw [zerosLike, List.getElem?_map, Option.map_eq_some_iff] at hj
      obtain ⟨r0, hr0, rfl⟩ := hj
      refine .zero hl.1 hk r0 (List.mem_of_getElem? hr0) ?_ ?_
      · rw [List.map_map]
        apply List.map_congr_left
        intro c _
        cases c <;> simp [Cell.zero, Cell.shape]
      · intro c hc
        obtain ⟨c0, _, rfl⟩ := List.mem_map.1 hc
        exact zeroCell_zero c0
    · exact mergeVal_own k ref p tmp v n hrows hl hm
  have hlen : vs.map List.length = ns := by
    apply List.ext_getElem?
    intro i
    rw [List.getElem?_map]
    have hl1 : (first :: rest).length = vs.length := hv.length_eq
    have hl2 : ns.length = (first :: rest).length := hF.rows.length_eq
    by_cases hi : i < ns.length
    · obtain ⟨v, e1, e2, _⟩ := hblock i (first :: rest)[i] ns[i] (List.getElem?_eq_getElem _) (List.getElem?_eq_getElem hi)
      rw [e1, List.getElem?_eq_getElem hi, ← e2]; rfl
    · rw [List.getElem?_eq_none (by omega), List.getElem?_eq_none (by omega)]; rfl
  refine ⟨col, hc, ?_, ?_⟩
  · rw [hcol, List.length_flatten, hlen]
  · intro i tmp n j ht hn hj
    obtain ⟨v, e1, e2, e3⟩ := hblock i tmp n ht hn
    have hjv : j < v.length := by omega
    refine ⟨v[j], ?_, e3 j v[j] (List.getElem?_eq_getElem hjv)⟩
    rw [hcol, flattenRows_get vs ns hlen i j v e1 hjv]
    exact List.getElem?_eq_getElem hjv


/-- C85: the length of the column of Legendre coefficients (2-d, or 3-d with more than one camera): a template without archetypes contributes as many rows as the *first*
template has candidates, not as many as it has itself. -/
theorem C85_legendre_length (first : PyDict String (Arr K)) (rest : List (PyDict String (Arr K))) (ns : List Nat) (hF : FitsOf (first :: rest) ns) (d : PyDict String (Arr K))
    (h : mergeTemplates (first :: rest) = .ok d) (ref : Arr K) (hr : PyDict.get? first "legcoeff" = some ref) (hflat : arrWidth ref ≠ 1) :
    ∃ col, PyDict.get? d "legcoeff" = some col ∧
      col.length = (List.zipWith (fun tmp n => if (PyDict.get? tmp "legcoeff").isSome then n else ref.length) (first :: rest) ns).sum := by
  obtain ⟨col, vs, hc, hv, hs, he⟩ := column_blocks first rest ns hF d h _ ref hr
  refine ⟨col, hc, ?_⟩
  rw [if_neg (fun e => hflat e.2)] at he
  rw [he, List.length_flatten]
  congr 1
  have hrows := hF.rows
  clear he hs hc h hF hr
  revert hrows
  generalize first :: rest = fits at hv ⊢
  intro hrows
  induction hv generalizing ns with
  | nil => cases hrows; rfl
  | cons h1 _ ih =>
    cases hrows with
    | cons hn hrest =>
      rename_i tmp v _ _ _ n ns'
      rw [List.map_cons, List.zipWith_cons_cons, ih ns' hrest]
      congr 1
      obtain ⟨p, h1⟩ := h1
      cases hg : PyDict.get? tmp "legcoeff" with
      | some a => exact (mergeVal_own "legcoeff" ref p tmp v n hn.2 (fun hl => by have := hl.1; rw [hg] at this; simp at this) h1).1
      | none => rw [mergeVal_zero "legcoeff" ref p tmp v (.inl rfl) hg h1]; simp [zerosLike]

theorem npTake_error {V : Type} (x : List V) (idx : List Nat) (i : Nat) (hi : i ∈ idx) (hx : x.length ≤ i) : npTake x idx = .error .indexError := by
  unfold npTake
  induction idx with
  | nil => simp at hi
  | cons a idx ih =>
    rw [List.mapM_cons]
    cases ha : x[a]? with
    | none => rfl
    | some v =>
      rcases List.mem_cons.1 hi with e | e
      · subst e; rw [List.getElem?_eq_none hx] at ha; simp at ha
      · simp only [bind, Except.bind]
        have := ih e
        rw [this]

theorem npTake_only_index {V : Type} (x : List V) (idx : List Nat) (e : PyErr) (h : npTake x idx = .error e) : e = .indexError := by
  unfold npTake at h
  induction idx with
  | nil => simp [pure, Except.pure] at h
  | cons a idx ih =>
    rw [List.mapM_cons] at h
    cases ha : x[a]? with
    | none => rw [ha] at h; simp [bind, Except.bind] at h; exact h.symm
    | some v =>
      rw [ha] at h
      simp only [bind, Except.bind] at h
      split at h
      · rename_i h2; simp at h; subst h; exact ih h2
      · simp [pure, Except.pure] at h

theorem takeRows_error (d : PyDict String (Arr K)) (idx : List Nat) (k : String) (col : Arr K) (hk : (k, col) ∈ d) (i : Nat) (hi : i ∈ idx) (hc : col.length ≤ i) :
    takeRows d idx = .error .indexError := by
  unfold takeRows
  induction d with
  | nil => simp at hk
  | cons a d ih =>
    rw [List.mapM_cons]
    cases ha : npTake a.2 idx with
    | error e => rw [npTake_only_index _ _ _ ha]; rfl
    | ok v =>
      rcases List.mem_cons.1 hk with e | e
      · subst e; rw [npTake_error _ _ i hi hc] at ha; simp at ha
      · simp only [bind, Except.bind, pure, Except.pure]
        have := ih e
        simp only [bind, Except.bind, pure, Except.pure] at this
        rw [this]

/-- C85, refuted part: if the templates without archetypes have more candidates (in total) than the first template has for each of them, the column of Legendre coefficients is
shorter than the table and sorting the table raises `IndexError`: the run is aborted. `idx` is the order of the sorted rows. -/
theorem C85_more_candidates_refuted (first : PyDict String (Arr K)) (rest : List (PyDict String (Arr K))) (ns : List Nat) (hF : FitsOf (first :: rest) ns)
    (d : PyDict String (Arr K)) (h : mergeTemplates (first :: rest) = .ok d) (ref : Arr K) (hr : PyDict.get? first "legcoeff" = some ref) (hflat : arrWidth ref ≠ 1)
    (hmore : (List.zipWith (fun tmp n => if (PyDict.get? tmp "legcoeff").isSome then n else ref.length) (first :: rest) ns).sum < ns.sum)
    (idx : List Nat) (hidx : idx.Perm (List.range ns.sum)) : takeRows d idx = .error .indexError := by
  obtain ⟨col, hc, hl⟩ := C85_legendre_length first rest ns hF d h ref hr hflat
  exact takeRows_error d idx "legcoeff" col (PyDict.mem_of_get? d _ _ hc) (ns.sum - 1)
    (hidx.mem_iff.2 (List.mem_range.2 (by omega))) (by omega)

/-- C85, refuted part: three templates, the second fitted without archetypes and with fewer candidates than the first. Then the first candidates of the third template get zeros
for their Legendre coefficients although the archetype fit gave them others, and no error is raised for this column. -/
theorem C85_fewer_candidates_refuted (A B C : PyDict String (Arr K)) (a b c : Nat) (hF : FitsOf [A, B, C] [a, b, c]) (d : PyDict String (Arr K))
    (h : mergeTemplates [A, B, C] = .ok d) (ref : Arr K) (hr : PyDict.get? A "legcoeff" = some ref) (hflat : arrWidth ref ≠ 1)
    (hB : PyDict.get? B "legcoeff" = none) (own : Arr K) (hC : PyDict.get? C "legcoeff" = some own) (hab : b < a) :
    ∃ col, PyDict.get? d "legcoeff" = some col ∧ ∀ j, j < a - b → col[rowNumber [a, b, c] 2 j]? = (ref[b + j]?).map (fun r => r.map Cell.zero) := by
  obtain ⟨col, vs, hc, hv, hs, he⟩ := column_blocks A [B, C] [a, b, c] hF d h _ ref hr
  refine ⟨col, hc, ?_⟩
  rw [if_neg (fun e => hflat e.2)] at he
  have hrows := hF.rows
  cases hrows with
  | cons hA hrows =>
  cases hv with
  | cons h1 hv =>
  cases hv with
  | cons h2 hv =>
  cases hv with
  | cons h3 hv =>
  cases hv with
  | nil =>
  obtain ⟨p1, h1⟩ := h1
  obtain ⟨p2, h2⟩ := h2
  have l1 := (mergeVal_own "legcoeff" ref p1 A _ a hA.2 (fun hl => by have := hl.1; rw [hr] at this; simp at this) h1).1
  rw [mergeVal_zero "legcoeff" ref p2 B _ (.inl rfl) hB h2] at he
  have lr := hA.2 _ _ hr
  intro j hj
  rw [he]
  simp only [rowNumber, List.flatten_cons, List.flatten_nil, List.append_nil, List.take_succ_cons, List.take_zero, List.sum_cons, List.sum_nil]
  rw [List.getElem?_append_right (by omega), List.getElem?_append_left (by simp [zerosLike]; omega), zerosLike, List.getElem?_map]
  congr 2; omega

/-- C85, refuted part: with `per_camera` and a single camera the Legendre coefficients (3-d, middle axis of length one) are flattened: the column has `deg` entries per candidate, and
the sort keeps as many single numbers as there are candidates. Row `i` of the table is the number `i % deg` of candidate `i / deg`, not the coefficients of candidate `i`. -/
theorem C85_one_camera_refuted (first : PyDict String (Arr K)) (rest : List (PyDict String (Arr K))) (ns : List Nat) (hF : FitsOf (first :: rest) ns)
    (d : PyDict String (Arr K)) (h : mergeTemplates (first :: rest) = .ok d) (legs : List (List (List K))) (deg : Nat)
    (hown : List.Forall₂ (fun tmp l => PyDict.get? tmp "legcoeff" = some (l.map (fun v => [Cell.vec v]))) (first :: rest) legs)
    (hdeg : ∀ v ∈ legs.flatten, v.length = deg) :
    PyDict.get? d "legcoeff" = some ((legs.flatten.flatten).map (fun x => [Cell.num x])) ∧
    ((legs.flatten.flatten).map (fun x => [Cell.num x])).length = ns.sum * deg := by
  cases hown with
  | @cons _ l0 _ ls hr0 hrest =>
  obtain ⟨col, vs, hc, hv, hs, he⟩ := column_blocks first rest ns hF d h _ _ hr0
  have hrows := hF.rows
  have hl0 : l0 ≠ [] := by
    intro e
    cases hrows with
    | cons hn _ =>
      have := hn.2 _ _ hr0
      rw [e] at this; simp at this; omega
  have hw : arrWidth (l0.map (fun v => [Cell.vec v])) = 1 := by
    cases l0 with
    | nil => exact absurd rfl hl0
    | cons v l0 => rfl
  rw [if_pos ⟨by decide, hw⟩] at he
  have hown2 : List.Forall₂ (fun tmp l => PyDict.get? tmp "legcoeff" = some (l.map (fun v => [Cell.vec v]))) (first :: rest) (l0 :: ls) := .cons hr0 hrest
  have hvs : vs = (l0 :: ls).map (fun l => l.map (fun v => [Cell.vec v])) := by
    generalize first :: rest = fits at hv hown2
    generalize l0 :: ls = L at hown2 ⊢
    clear hrows he
    induction hown2 generalizing vs with
    | nil => cases hv; rfl
    | cons e1 _ ih =>
      cases hv with
      | cons e2 hv =>
        obtain ⟨p, e2⟩ := e2
        rw [List.map_cons, ← ih _ (fun r hr => hs r (by rw [List.flatten_cons]; exact List.mem_append_right _ hr)) hv]
        congr 1
        unfold mergeVal at e2
        rw [e1] at e2
        simp only [show (PyDict.get? pcaMap "legcoeff").isSome = false by decide, Bool.false_eq_true, if_false, Except.ok.injEq] at e2
        exact e2.symm
  have hflat : arrFlatten vs.flatten = ((l0 :: ls).flatten.flatten).map (fun x => [Cell.num x]) := by
    rw [hvs]
    unfold arrFlatten
    generalize l0 :: ls = L
    rw [← List.map_flatten]
    rw [List.flatMap_map]
    simp only [List.flatMap_cons, List.flatMap_nil, List.append_nil, Cell.scalars]
    generalize L.flatten = M
    induction M with
    | nil => rfl
    | cons v M ih =>
      rw [List.flatMap_cons, List.map_append, ih, List.flatten_cons, List.map_append, List.map_map]; rfl
  refine ⟨by rw [hc, he, hflat], ?_⟩
  rw [List.length_map, List.length_flatten]
  have hlen : ((l0 :: ls).flatten).length = ns.sum := by
    rw [List.length_flatten]
    congr 1
    generalize first :: rest = fits at hown2 hrows
    clear hdeg hvs hflat hF
    generalize l0 :: ls = L at hown2 ⊢
    induction hown2 generalizing ns with
    | nil => cases hrows; rfl
    | cons e1 _ ih =>
      cases hrows with
      | cons hn hrest =>
        rw [List.map_cons, ih _ hrest]
        have := hn.2 _ _ e1
        rw [List.length_map] at this
        rw [this]
  rw [← hlen]
  generalize (l0 :: ls).flatten = M at hdeg
  induction M with
  | nil => simp
  | cons v M ih =>
    rw [List.map_cons, List.sum_cons, ih (fun w hw => hdeg w (List.mem_cons_of_mem _ hw)), hdeg v (List.mem_cons_self ..), List.length_cons, Nat.succ_mul, Nat.add_comm]

/-- C85: sorting and trimming move the rows of all columns together. -/
theorem C85_rows_stay_together (d d' : PyDict String (Arr K)) (idx : List Nat) (h : takeRows d idx = .ok d') :
    List.Forall₂ (fun kc kc' => kc'.1 = kc.1 ∧ kc'.2.length = idx.length ∧ ∀ p i : Nat, idx[p]? = some i → kc'.2[p]? = kc.2[i]?) d d' := by
  unfold takeRows at h
  refine (mapM_inv _ _ _ h).imp ?_
  intro kc kc' hk
  cases hn : npTake kc.2 idx with
  | error e => rw [hn] at hk; simp [bind, Except.bind] at hk
  | ok col =>
    rw [hn] at hk
    simp only [bind, Except.bind, pure, Except.pure, Except.ok.injEq] at hk
    subst hk
    refine ⟨rfl, npTake_length _ _ _ hn, fun p i hp => ?_⟩
    obtain ⟨v, h1, h2⟩ := npTake_get _ _ _ hn p i hp
    rw [h1, h2]


/-! #### the hypotheses are met -/

/-- A fit with archetypes, two candidates, two cameras with two Legendre coefficients each. -/
def exArchFit (x : ℚ) : PyDict String (Arr ℚ) :=
  [("chi2", [[.num x], [.num (x + 1)]]), ("coeff", [[.num 3], [.num 4]]), ("legcoeff", [[.vec [1, 2], .vec [3, 4]], [.vec [5, 6], .vec [7, 8]]]),
   ("pca_coeff", [[.num 1, .num 2], [.num 3, .num 4]])]
/-- A fit without archetypes and `n` candidates. -/
def exPcaFit (n : Nat) : PyDict String (Arr ℚ) := [("chi2", List.replicate n [.num 9]), ("coeff", List.replicate n [.num 7])]

example : (mergeTemplates [exArchFit 1, exPcaFit 2, exArchFit 5]).toOption.bind (fun d => PyDict.get? d "legcoeff") =
    some [[.vec [1, 2], .vec [3, 4]], [.vec [5, 6], .vec [7, 8]], [.vec [0, 0], .vec [0, 0]], [.vec [0, 0], .vec [0, 0]],
          [.vec [1, 2], .vec [3, 4]], [.vec [5, 6], .vec [7, 8]]] := by decide +kernel
example : (mergeTemplates [exArchFit 1, exPcaFit 2]).toOption.bind (fun d => PyDict.get? d "pca_coeff") =
    some [[.num 1, .num 2], [.num 3, .num 4], [.num 7, .num 0], [.num 7, .num 0]] := by decide +kernel
example : FitsOf [exArchFit 1, exPcaFit 1, exArchFit 5] [2, 1, 2] := by
  refine ⟨?_, by simp [exArchFit, PyDict.keys]⟩
  have hA : ∀ x, HasRows 2 (exArchFit x) := by
    intro x k a h
    have := PyDict.mem_of_get? _ _ _ h
    simp [exArchFit] at this
    rcases this with h | h | h | h <;> simp [h.2]
  refine .cons ⟨by decide, hA 1⟩ (.cons ⟨by decide, ?_⟩ (.cons ⟨by decide, hA 5⟩ .nil))
  intro k a h
  have := PyDict.mem_of_get? _ _ _ h
  simp [exPcaFit] at this
  rcases this with h | h <;> simp [h.2]
-- with one candidate less in the second template the third template's first candidate gets zeros
example : (mergeTemplates [exArchFit 1, exPcaFit 1, exArchFit 5]).toOption.bind (fun d => (PyDict.get? d "legcoeff").bind (fun c => c[rowNumber [2, 1, 2] 2 0]?)) =
    some [.vec [0, 0], .vec [0, 0]] := by decide +kernel
-- with one more the sort raises
example : ((mergeTemplates [exArchFit 1, exPcaFit 3]) >>= fun d => takeRows d [0, 1, 2, 3, 4]) = .error .indexError := by decide +kernel
-- the first template without archetypes: no Legendre coefficients in the table
example : (mergeTemplates [exPcaFit 1, exArchFit 5]).toOption.map PyDict.keys = some ["chi2", "coeff"] := by decide +kernel

/-! ### C86 `NEGATIVE_MODEL` -/

/-- C86: with archetypes for every template type (as many archetype types as template types) and no nearest neighbours, a row is flagged iff the coefficient of its archetype is not
positive. -/
theorem C86_all_types (archTypes allTypes : List PyStr) (hlen : archTypes.length = allTypes.length) (spectype : PyStr) (c : K) (cs : List K) :
    negativeModel archTypes allTypes none spectype (c :: cs) = true ↔ c ≤ 0 := by
  simp [negativeModel, hlen]

/-- C86: with archetypes for only some of the template types, a row is flagged iff its type has archetypes and the archetype's coefficient is negative. -/
theorem C86_some_types (archTypes allTypes : List PyStr) (hlen : archTypes.length ≠ allTypes.length) (spectype : PyStr) (c : K) (cs : List K) :
    negativeModel archTypes allTypes none spectype (c :: cs) = true ↔ spectype ∈ archTypes ∧ c < 0 := by
  simp only [negativeModel, hlen, if_false]
  by_cases h : spectype ∈ archTypes <;> simp [h]

/-- C86 with nearest neighbours: flagged iff one of the first `n` coefficients (the archetypes) is negative and, where not all types have archetypes, the row's type has them. -/
theorem C86_nearest (archTypes allTypes : List PyStr) (n : Nat) (spectype : PyStr) (coeff : List K) :
    negativeModel archTypes allTypes (some n) spectype coeff = true ↔
      (archTypes.length = allTypes.length ∨ spectype ∈ archTypes) ∧ ∃ c ∈ coeff.take n, c < 0 := by
  by_cases hl : archTypes.length = allTypes.length
  · simp [negativeModel, hl]
  · by_cases h : spectype ∈ archTypes
    · simp [negativeModel, hl, h]
    · simp [negativeModel, hl, h]

theorem allSpectypes_spec (types : List PyStr) : (allSpectypes types).Nodup ∧ ∀ t, t ∈ allSpectypes types ↔ t ∈ types := by
  unfold allSpectypes
  have key : ∀ (l acc : List PyStr), acc.Nodup →
      (l.foldl (fun acc t => if t ∉ acc then acc ++ [t] else acc) acc).Nodup ∧
      ∀ t, t ∈ l.foldl (fun acc t => if t ∉ acc then acc ++ [t] else acc) acc ↔ t ∈ acc ∨ t ∈ l := by
    intro l
    induction l with
    | nil => intro acc h; exact ⟨h, fun t => by simp⟩
    | cons x l ih =>
      intro acc h
      rw [List.foldl_cons]
      by_cases hx : x ∈ acc
      · rw [if_neg (not_not.2 hx)]
        refine ⟨(ih acc h).1, fun t => ?_⟩
        rw [(ih acc h).2 t, List.mem_cons]
        constructor
        · rintro (e | e)
          · exact .inl e
          · exact .inr (.inr e)
        · rintro (e | e | e)
          · exact .inl e
          · exact .inl (e ▸ hx)
          · exact .inr e
      · rw [if_pos hx]
        have hn : (acc ++ [x]).Nodup := List.nodup_append.2 ⟨h, List.nodup_singleton _, fun a ha b hb => by
          rw [List.mem_singleton] at hb; subst hb; exact fun e => hx (e ▸ ha)⟩
        refine ⟨(ih _ hn).1, fun t => ?_⟩
        rw [(ih _ hn).2 t]; simp [or_assoc]
  have := key types [] List.nodup_nil
  exact ⟨this.1, fun t => by rw [this.2 t]; simp⟩

/-- C86, the exact condition: given that archetype types are distinct (dictionary keys) and each of them is a template type, a row of a type without archetypes is never flagged,
and a row with a negative archetype coefficient always is. -/
theorem C86_subset_partial (archTypes types : List PyStr) (hn : archTypes.Nodup) (hsub : ∀ t ∈ archTypes, t ∈ types) (spectype : PyStr) (hs : spectype ∈ types) (c : K) (cs : List K) :
    (spectype ∉ archTypes → negativeModel archTypes (allSpectypes types) none spectype (c :: cs) = false) ∧
    (spectype ∈ archTypes → c < 0 → negativeModel archTypes (allSpectypes types) none spectype (c :: cs) = true) := by
  obtain ⟨hn2, hm⟩ := allSpectypes_spec types
  by_cases hl : archTypes.length = (allSpectypes types).length
  · have hperm : archTypes.Perm (allSpectypes types) := by
      refine (List.subperm_of_subset hn (fun t ht => (hm t).2 (hsub t ht))).perm_of_length_le (by omega)
    refine ⟨fun h => absurd (hperm.mem_iff.2 ((hm spectype).2 hs)) h, fun _ hc => ?_⟩
    exact (C86_all_types archTypes _ hl spectype c cs).2 hc.le
  · refine ⟨fun h => ?_, fun h hc => (C86_some_types archTypes _ hl spectype c cs).2 ⟨h, hc⟩⟩
    rw [Bool.eq_false_iff]
    exact fun e => h ((C86_some_types archTypes _ hl spectype c cs).1 e).1

/-- C86, refuted part: only the *numbers* of types are compared. With as many archetype types as template types but not the same ones, every row of a type without archetypes whose first
PCA coefficient is not positive is flagged `NEGATIVE_MODEL`, hence sorted behind every good fit. -/
theorem C86_counts_refuted (archTypes types : List PyStr) (hl : archTypes.length = (allSpectypes types).length) (spectype : PyStr) (_ : spectype ∉ archTypes) (c : K) (cs : List K)
    (hc : c ≤ 0) : negativeModel archTypes (allSpectypes types) none spectype (c :: cs) = true ∧ ZW.NEGATIVE_MODEL &&& ZW.badfit ≠ 0 :=
  ⟨(C86_all_types archTypes _ hl spectype c cs).2 hc, by decide⟩

/-- C86, refuted part: an archetype coefficient of exactly zero is flagged iff all template types have archetypes, so the flag of a row depends on types it has nothing to do with. -/
theorem C86_zero_refuted (archTypes types : List PyStr) (spectype : PyStr) (_ : spectype ∈ archTypes) (cs : List K) :
    negativeModel archTypes (allSpectypes types) none spectype ((0 : K) :: cs) = true ↔ archTypes.length = (allSpectypes types).length := by
  by_cases hl : archTypes.length = (allSpectypes types).length
  · simp [negativeModel, hl]
  · simp [negativeModel, hl]

example : negativeModel ["GALAXY".toList, "STAR".toList] (allSpectypes ["GALAXY".toList, "QSO".toList, "QSO".toList]) none "QSO".toList [(-1 : ℚ), 5] = true := by decide +kernel
example : negativeModel ["GALAXY".toList] (allSpectypes ["GALAXY".toList, "QSO".toList, "QSO".toList]) none "QSO".toList [(-1 : ℚ), 5] = false := by decide +kernel
example : negativeModel ["GALAXY".toList] (allSpectypes ["GALAXY".toList, "QSO".toList, "QSO".toList]) none "GALAXY".toList [(-1 : ℚ), 5] = true := by decide +kernel

end
end Redrock
