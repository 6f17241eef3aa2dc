import Verif.Props.ArchTable
import Verif.Lemmas.Details

/-!
C130, second part: the rows of the stacked table are the candidates of the fits, so that with the first part every published row is one candidate of one fit.
-/
set_option linter.unusedSectionVars false
namespace Redrock.ArchTable

section
variable {K : Type} [Field K] [LinearOrder K] [IsStrictOrderedRing K]

/-! ### Specification -/

/-- The full type (`TYPE:::SUBTYPE`) of candidate `j` of a fit: its own if the fit has a column `fulltype` (archetypes), else the name under which the fit is kept. -/
def FullTypeOf (f : Fit K) (j : Nat) (ft : PyStr) : Prop :=
  match PyDict.get? f.cols "fulltype" with
  | none => ft = f.fulltype
  | some a => ∃ rest, a[j]? = some (.str ft :: rest)

/-- Columns of a fit that are not simply copied. -/
def special : List String := ["coeff", "spectype", "subtype", "fulltype", "max_velo_diff", "pca_coeff", "pca_spectype", "pca_subtype"]

/-- What column `k` holds for candidate `j` of fit `f`; `ref` is this column of the first fit with candidates. -/
inductive Value (ref : Option (Arr K)) (f : Fit K) (k : String) (j : Nat) (row : List (Cell K)) : Prop where
  | own (a : Arr K) (hk : k ∉ special) (h : PyDict.get? f.cols k = some a) (hr : a[j]? = some row)
  | coeff (a : Arr K) (r : List (Cell K)) (N : Nat) (hk : k = "coeff") (h : PyDict.get? f.cols "coeff" = some a) (hr : a[j]? = some r) (hrow : row = r ++ List.replicate N (Cell.num 0))
  | spectype (ft st sub : PyStr) (hk : k = "spectype") (h : FullTypeOf f j ft) (hp : parseFulltype ft = .ok (st, sub)) (hrow : row = [.str st])
  | subtype (ft st sub : PyStr) (hk : k = "subtype") (h : FullTypeOf f j ft) (hp : parseFulltype ft = .ok (st, sub)) (hrow : row = [.str sub])
  | velocity (ft st sub : PyStr) (hk : k = "max_velo_diff") (h : FullTypeOf f 0 ft) (hp : parseFulltype ft = .ok (st, sub)) (hrow : row = [.num (maxVeloDiff (isStarName st))])
  | pca (a ra : Arr K) (r : List (Cell K)) (N : Nat) (hk : k ∈ ["pca_coeff", "pca_spectype", "pca_subtype"]) (h : PyDict.get? f.cols k = some a) (hr : a[j]? = some r)
      (href : ref = some ra) (hrow : row = (r ++ List.replicate N (Cell.num 0)).take (arrWidth ra)) (hN : arrWidth ra ≤ arrWidth a + N)
  | pcaCoeff (a ra : Arr K) (r : List (Cell K)) (N : Nat) (hk : k = "pca_coeff") (h0 : PyDict.get? f.cols k = none) (h : PyDict.get? f.cols "coeff" = some a) (hr : a[j]? = some r)
      (href : ref = some ra) (hrow : row = (r ++ List.replicate N (Cell.num 0)).take (arrWidth ra)) (hN : arrWidth ra ≤ arrWidth a + N)
  | pcaType (ft st sub : PyStr) (ra : Arr K) (N : Nat) (h0 : PyDict.get? f.cols k = none) (h : FullTypeOf f j ft) (hp : parseFulltype ft = .ok (st, sub)) (href : ref = some ra)
      (hrow : row = ((if k = "pca_spectype" then Cell.str st else Cell.str sub) :: List.replicate N (Cell.num 0)).take (arrWidth ra)) (hk : k = "pca_spectype" ∨ k = "pca_subtype") (hN : arrWidth ra ≤ 1 + N)
  | zero (hk : k = "legcoeff" ∨ k = "archcoeff") (h0 : PyDict.get? f.cols k = none) (hrow : ∀ c ∈ row, ZeroCell c)

/-- `t` has one row for every candidate of every fit, fit after fit. -/
structure Stacked (fits : List (Fit K)) (first : Fit K) (t : Tab K) : Prop where
  length : t.zwarn.length = (fits.map (fun f => f.zwarn.length)).sum
  names : ∀ k, k ∈ PyDict.keys t.cols ↔ k ∈ ["spectype", "subtype", "max_velo_diff"] ∨ (k ≠ "fulltype" ∧ k ∈ PyDict.keys first.cols)
  zwarn : ∀ (i j : Nat) f, fits[i]? = some f → j < f.zwarn.length → t.zwarn[rowNumber (fits.map (fun f => f.zwarn.length)) i j]? = f.zwarn[j]?
  npixels : ∀ (i j : Nat) f, fits[i]? = some f → j < f.zwarn.length → t.npixels[rowNumber (fits.map (fun f => f.zwarn.length)) i j]? = f.npixels[j]?
  ncoeff : ∀ (i j : Nat) f a, fits[i]? = some f → j < f.zwarn.length → PyDict.get? f.cols "coeff" = some a →
    t.ncoeff[rowNumber (fits.map (fun f => f.zwarn.length)) i j]? = some (arrWidth a)
  cols : ∀ (i j : Nat) f, fits[i]? = some f → j < f.zwarn.length → ∀ k ∈ PyDict.keys t.cols,
    ∃ row, cell t.cols k (rowNumber (fits.map (fun f => f.zwarn.length)) i j) = some row ∧ Value (PyDict.get? first.cols k) f k j row

/-- The shape of the results of `fitz`: every column has one entry per candidate; names are distinct; no column of shape `(n, 1, m)` (archetypes with one camera, see C85). -/
structure GoodFit (f : Fit K) : Prop where
  npixels : f.npixels.length = f.zwarn.length
  rows : HasRows f.zwarn.length f.cols
  keys : (PyDict.keys f.cols).Nodup
  scalar : ∀ k a, PyDict.get? f.cols k = some a → arrWidth a = 1 → ScalarRow (a.headD [])

/-- The columns of the first fit with candidates are in fit `f` too, except for those the stacking replaces; zeros for missing Legendre coefficients need as many candidates as in the first. -/
def Fits (first f : Fit K) : Prop := ∀ k ∈ PyDict.keys first.cols, k ∈ PyDict.keys f.cols ∨ k ∈ ["pca_coeff", "pca_spectype", "pca_subtype", "fulltype", "spectype", "subtype", "max_velo_diff"] ∨
  ((k = "legcoeff" ∨ k = "archcoeff") ∧ f.zwarn.length = first.zwarn.length)

/-! ### numbering -/

/-- leaving out fits without candidates does not change the numbers of the rows -/
theorem rowNumber_live {α : Type} (w : α → Nat) (l : List α) (i : Nat) (a : α) (hi : l[i]? = some a) (ha : w a ≠ 0) (j : Nat) :
    ∃ i' : Nat, (l.filter (fun a => decide (w a ≠ 0)))[i']? = some a ∧ rowNumber ((l.filter (fun a => decide (w a ≠ 0))).map w) i' j = rowNumber (l.map w) i j := by
  induction l generalizing i with
  | nil => simp at hi
  | cons b l ih =>
    cases i with
    | zero =>
      simp only [List.getElem?_cons_zero, Option.some.injEq] at hi
      subst hi
      refine ⟨0, by simp [ha], by simp [rowNumber]⟩
    | succ i =>
      simp only [List.getElem?_cons_succ] at hi
      obtain ⟨i', h1, h2⟩ := ih i hi
      unfold rowNumber at h2 ⊢
      by_cases hb : w b = 0
      · refine ⟨i', by simpa [hb] using h1, ?_⟩
        simpa [hb] using h2
      · refine ⟨i' + 1, by simpa [hb] using h1, ?_⟩
        simp only [ne_eq, hb, not_false_eq_true, decide_true, List.filter_cons_of_pos, List.map_cons, List.take_succ_cons, List.sum_cons] at h2 ⊢
        omega

theorem sum_live {α : Type} (w : α → Nat) (l : List α) : ((l.filter (fun a => decide (w a ≠ 0))).map w).sum = (l.map w).sum := by
  induction l with
  | nil => rfl
  | cons b l ih =>
    by_cases hb : w b = 0
    · simpa [hb] using ih
    · simpa [hb] using ih

/-- every row number belongs to exactly one candidate -/
theorem rowNumber_surj (ns : List Nat) (p : Nat) (hp : p < ns.sum) : ∃ i j n : Nat, ns[i]? = some n ∧ j < n ∧ rowNumber ns i j = p := by
  induction ns generalizing p with
  | nil => simp at hp
  | cons n ns ih =>
    by_cases h : p < n
    · exact ⟨0, p, n, rfl, h, by simp [rowNumber]⟩
    · rw [List.sum_cons] at hp
      obtain ⟨i, j, m, h1, h2, h3⟩ := ih (p - n) (by omega)
      refine ⟨i + 1, j, m, by simpa using h1, h2, ?_⟩
      unfold rowNumber at h3 ⊢
      rw [List.take_succ_cons, List.sum_cons]
      omega

/-! ### preparation of one fit -/

theorem get?_filter_ne (d : PyDict String (Arr K)) (x k : String) (hk : k ≠ x) : PyDict.get? (d.filter (fun kv => decide (kv.1 ≠ x))) k = PyDict.get? d k := by
  induction d with
  | nil => rfl
  | cons kv d ih =>
    obtain ⟨a, v⟩ := kv
    rw [List.filter_cons]
    split
    · rw [PyDict.get?_cons, PyDict.get?_cons, ih]
    · rename_i h
      rw [PyDict.get?_cons, ih, if_neg]
      rintro rfl
      simp [hk] at h

theorem get?_filter_eq (d : PyDict String (Arr K)) (x : String) : PyDict.get? (d.filter (fun kv => decide (kv.1 ≠ x))) x = none := by
  induction d with
  | nil => rfl
  | cons kv d ih =>
    rw [List.filter_cons]
    split
    · rename_i h
      obtain ⟨a, v⟩ := kv
      rw [PyDict.get?_cons, ih, if_neg]
      simpa using h
    · exact ih

/-- what is in the dictionary of a fit when the stacking starts -/
structure Prepared (f : Fit K) (t : Tab K) : Prop where
  live : f.zwarn ≠ []
  zwarn : t.zwarn = f.zwarn
  npixels : t.npixels = f.npixels
  ncoeff : ∃ a, PyDict.get? f.cols "coeff" = some a ∧ t.ncoeff = List.replicate f.zwarn.length (arrWidth a)
  own : ∀ k, k ∉ ["spectype", "subtype", "fulltype", "max_velo_diff"] → PyDict.get? t.cols k = PyDict.get? f.cols k
  gone : PyDict.get? t.cols "fulltype" = none
  types : ∃ ps : List (PyStr × PyStr), ps.length = f.zwarn.length ∧ PyDict.get? t.cols "spectype" = some (ps.map (fun p => [.str p.1])) ∧
    PyDict.get? t.cols "subtype" = some (ps.map (fun p => [.str p.2])) ∧ (∀ (j : Nat) p, ps[j]? = some p → ∃ ft, FullTypeOf f j ft ∧ parseFulltype ft = .ok p)
  velo : ∃ ft st sub, FullTypeOf f 0 ft ∧ parseFulltype ft = .ok (st, sub) ∧ PyDict.get? t.cols "max_velo_diff" = some (List.replicate f.zwarn.length [.num (maxVeloDiff (isStarName st))])
  keys : (PyDict.keys f.cols).Nodup → (PyDict.keys t.cols).Nodup

theorem prep_some (f : Fit K) (t : Tab K) (h : prep f.fulltype f.zwarn f.npixels f.cols = .ok (some t)) : Prepared f t := by
  unfold prep at h
  obtain ⟨⟨ps, star⟩, hty, h⟩ := Except.bind_ok _ _ _ h
  dsimp only at h
  have hspec : (∀ (j : Nat) p, ps[j]? = some p → ∃ ft, FullTypeOf f j ft ∧ parseFulltype ft = .ok p) ∧
      (∀ p, ps[0]? = some p → star = isStarName p.1) := by
    unfold FullTypeOf
    cases hft : PyDict.get? f.cols "fulltype" with
    | none =>
      rw [hft] at hty
      dsimp only at hty
      obtain ⟨p, hp, hty⟩ := Except.bind_ok _ _ _ hty
      cases hty
      refine ⟨fun j q hq => ⟨f.fulltype, rfl, ?_⟩, fun q hq => ?_⟩
      · rw [hp, List.eq_of_mem_replicate (List.mem_of_getElem? hq)]
      · rw [List.eq_of_mem_replicate (List.mem_of_getElem? hq)]
    | some a =>
      rw [hft] at hty
      dsimp only at hty
      obtain ⟨fts, hfts, hty⟩ := Except.bind_ok _ _ _ hty
      obtain ⟨qs, hqs, hty⟩ := Except.bind_ok _ _ _ hty
      cases hty
      have F1 := mapM_inv _ _ _ hfts
      have F2 := mapM_inv _ _ _ hqs
      refine ⟨fun j q hq => ?_, fun q hq => ?_⟩
      · have hj : j < fts.length := by rw [F2.length_eq]; exact (List.getElem?_eq_some_iff.1 hq).1
        obtain ⟨q', e1, e2⟩ := forall₂_get F2 j _ (List.getElem?_eq_getElem hj)
        rw [hq, Option.some.injEq] at e1
        subst e1
        have hj' : j < a.length := by rw [F1.length_eq]; exact hj
        obtain ⟨s, e3, e4⟩ := forall₂_get F1 j _ (List.getElem?_eq_getElem hj')
        rw [List.getElem?_eq_getElem hj, Option.some.injEq] at e3
        refine ⟨_, ?_, e2⟩
        split at e4
        · rename_i s' rest heq
          cases e4
          exact ⟨rest, by rw [List.getElem?_eq_getElem hj', heq, e3]⟩
        · cases e4
      · cases ps with
        | nil => simp at hq
        | cons p qs => simp at hq; rw [hq]
  split at h
  · cases h
  rename_i hne
  split at h
  · cases h
  rename_i hlen
  obtain ⟨coeff, hc, h⟩ := Except.bind_ok _ _ _ h
  cases h
  have hlen' : ps.length = f.zwarn.length := by
    by_contra hx; exact hlen hx
  have hcget : PyDict.get? f.cols "coeff" = some coeff := by
    unfold PyDict.get at hc
    rw [get?_filter_ne _ _ _ (by decide)] at hc
    cases hx : PyDict.get? f.cols "coeff" with
    | none => rw [hx] at hc; cases hc
    | some v => rw [hx] at hc; cases hc; rfl
  have h0 : ∃ p, ps[0]? = some p := ⟨_, List.getElem?_eq_getElem (by omega)⟩
  refine ⟨fun e => hne (by rw [e]; rfl), rfl, rfl, ⟨coeff, hcget, rfl⟩, ?_, ?_, ⟨ps, hlen', ?_, ?_, hspec.1⟩, ?_, ?_⟩
  · intro k hk
    simp only [List.mem_cons, List.not_mem_nil, or_false, not_or] at hk
    obtain ⟨k1, k2, k3, k4⟩ := hk
    dsimp only
    rw [PyDict.get?_set, if_neg (Ne.symm k4), PyDict.get?_set, if_neg (Ne.symm k2), PyDict.get?_set, if_neg (Ne.symm k1), get?_filter_ne _ _ _ k3]
  · dsimp only
    rw [PyDict.get?_set, if_neg (by decide), PyDict.get?_set, if_neg (by decide), PyDict.get?_set, if_neg (by decide), get?_filter_eq]
  · dsimp only
    rw [PyDict.get?_set, if_neg (by decide), PyDict.get?_set, if_neg (by decide), PyDict.get?_set, if_pos rfl]
  · dsimp only
    rw [PyDict.get?_set, if_neg (by decide), PyDict.get?_set, if_pos rfl]
  · obtain ⟨p, hp⟩ := h0
    obtain ⟨ft, g1, g2⟩ := hspec.1 0 p hp
    refine ⟨ft, p.1, p.2, g1, g2, ?_⟩
    dsimp only
    rw [PyDict.get?_set, if_pos rfl, hspec.2 p hp]
  · intro hn
    dsimp only
    apply PyDict.keys_nodup_set
    apply PyDict.keys_nodup_set
    apply PyDict.keys_nodup_set
    have : PyDict.keys (f.cols.filter (fun kv => decide (kv.1 ≠ "fulltype"))) = (PyDict.keys f.cols).filter (fun k => decide (k ≠ "fulltype")) := by
      unfold PyDict.keys
      rw [List.filter_map]; rfl
    rw [this]
    exact hn.filter _

theorem prep_none (f : Fit K) (h : prep f.fulltype f.zwarn f.npixels f.cols = .ok none) : f.zwarn = [] := by
  unfold prep at h
  obtain ⟨⟨ps, star⟩, hty, h⟩ := Except.bind_ok _ _ _ h
  dsimp only at h
  split at h
  · rename_i h0; exact List.length_eq_zero_iff.1 h0
  split at h
  · cases h
  obtain ⟨coeff, hc, h⟩ := Except.bind_ok _ _ _ h
  cases h

theorem prep_all (fits : List (Fit K)) (ts : List (Option (Tab K))) (h : fits.mapM (fun f => prep f.fulltype f.zwarn f.npixels f.cols) = .ok ts) :
    List.Forall₂ Prepared (fits.filter (fun f => decide (f.zwarn.length ≠ 0))) (ts.filterMap id) := by
  have hF := mapM_inv _ _ _ h
  clear h
  induction hF with
  | nil => exact .nil
  | @cons f o fs os hfo _ ih =>
    cases o with
    | none =>
      have := prep_none f hfo
      simpa [this] using ih
    | some t =>
      have := prep_some f t hfo
      have hne : f.zwarn.length ≠ 0 := fun e => this.live (List.length_eq_zero_iff.1 e)
      simp only [ne_eq, hne, not_false_eq_true, decide_true, List.filter_cons_of_pos, List.filterMap_cons, id]
      exact .cons this ih

/-! ### padding -/

theorem pad_get? (n : Nat) (t : Tab K) (k : String) : PyDict.get? (padCoeff n t).cols k =
    if k = "coeff" then (PyDict.get? t.cols "coeff").map (fun c => c.map (fun r => r ++ List.replicate (n - arrWidth c) (Cell.num 0))) else PyDict.get? t.cols k := by
  unfold padCoeff
  cases h : PyDict.get? t.cols "coeff" with
  | none =>
    dsimp only
    split
    · rename_i hk; subst hk; rw [h]; rfl
    · rfl
  | some c =>
    dsimp only
    rw [PyDict.get?_set]
    by_cases hk : k = "coeff"
    · rw [if_pos hk.symm, if_pos hk]; rfl
    · rw [if_neg (Ne.symm hk), if_neg hk]

theorem pad_fields (n : Nat) (t : Tab K) : (padCoeff n t).zwarn = t.zwarn ∧ (padCoeff n t).npixels = t.npixels ∧ (padCoeff n t).ncoeff = t.ncoeff := by
  unfold padCoeff
  split <;> exact ⟨rfl, rfl, rfl⟩

theorem pad_keys_nodup (n : Nat) (t : Tab K) (h : (PyDict.keys t.cols).Nodup) : (PyDict.keys (padCoeff n t).cols).Nodup := by
  unfold padCoeff
  split
  · exact PyDict.keys_nodup_set _ h _ _
  · exact h

/-- the width and the first row of a column after padding -/
theorem pad_scalar (n : Nat) (c : Arr K) (h : arrWidth c = 1 → ScalarRow (c.headD [])) (hw : arrWidth (c.map (fun r => r ++ List.replicate (n - arrWidth c) (Cell.num 0))) = 1) :
    ScalarRow ((c.map (fun r => r ++ List.replicate (n - arrWidth c) (Cell.num (0 : K)))).headD []) := by
  cases c with
  | nil => intro x hx; simp at hx
  | cons r c =>
    simp only [arrWidth, List.map_cons, List.headD_cons, List.length_append, List.length_replicate] at h hw ⊢
    intro x hx
    rcases List.mem_append.1 hx with hx | hx
    · have : r.length = 1 := by
        have := List.length_pos_of_mem hx
        omega
      exact h this x hx
    · rw [List.eq_of_mem_replicate hx]; rfl

/-! ### the fits as they are stacked -/

theorem prepared_get (f : Fit K) (t : Tab K) (hp : Prepared f t) (n : Nat) (k : String) : PyDict.get? (padCoeff n t).cols k =
    if k = "coeff" then (PyDict.get? f.cols "coeff").map (fun c => c.map (fun r => r ++ List.replicate (n - arrWidth c) (Cell.num 0)))
    else PyDict.get? t.cols k := by
  rw [pad_get?, hp.own "coeff" (by decide)]

theorem prepared_rows (f : Fit K) (t : Tab K) (hg : GoodFit f) (hp : Prepared f t) (n : Nat) : HasRows f.zwarn.length (padCoeff n t).cols := by
  intro k a h
  rw [prepared_get f t hp] at h
  split at h
  · rw [Option.map_eq_some_iff] at h
    obtain ⟨c, hc, rfl⟩ := h
    rw [List.length_map]
    exact hg.rows _ c hc
  · obtain ⟨ps, l, h1, h2, _⟩ := hp.types
    obtain ⟨_, _, _, _, _, h3⟩ := hp.velo
    by_cases e1 : k = "spectype"
    · subst e1; rw [h1] at h; cases h; simp [l]
    by_cases e2 : k = "subtype"
    · subst e2; rw [h2] at h; cases h; simp [l]
    by_cases e3 : k = "max_velo_diff"
    · subst e3; rw [h3] at h; cases h; simp
    by_cases e4 : k = "fulltype"
    · subst e4; rw [hp.gone] at h; cases h
    rw [hp.own k (by simp [e1, e2, e3, e4])] at h
    exact hg.rows k a h

theorem prepared_scalar (f : Fit K) (t : Tab K) (hg : GoodFit f) (hp : Prepared f t) (n : Nat) (k : String) (a : Arr K) (h : PyDict.get? (padCoeff n t).cols k = some a) (hw : arrWidth a = 1) :
    ScalarRow (a.headD []) := by
  rw [prepared_get f t hp] at h
  split at h
  · rw [Option.map_eq_some_iff] at h
    obtain ⟨c, hc, rfl⟩ := h
    exact pad_scalar n c (hg.scalar _ c hc) hw
  · obtain ⟨ps, l, h1, h2, _⟩ := hp.types
    obtain ⟨_, _, _, _, _, h3⟩ := hp.velo
    by_cases e1 : k = "spectype"
    · subst e1; rw [h1] at h; cases h; cases ps <;> simp [ScalarRow, Cell.shape]
    by_cases e2 : k = "subtype"
    · subst e2; rw [h2] at h; cases h; cases ps <;> simp [ScalarRow, Cell.shape]
    by_cases e3 : k = "max_velo_diff"
    · subst e3; rw [h3] at h; cases h
      cases f.zwarn.length <;> simp [ScalarRow, Cell.shape, List.replicate_succ]
    by_cases e4 : k = "fulltype"
    · subst e4; rw [hp.gone] at h; cases h
    rw [hp.own k (by simp [e1, e2, e3, e4])] at h
    exact hg.scalar k a h hw

theorem prepared_keys (f : Fit K) (t : Tab K) (hp : Prepared f t) (n : Nat) (k : String) : k ∈ PyDict.keys (padCoeff n t).cols ↔
    k ∈ ["spectype", "subtype", "max_velo_diff"] ∨ (k ≠ "fulltype" ∧ k ∈ PyDict.keys f.cols) := by
  rw [PyDict.mem_keys_iff, prepared_get f t hp, PyDict.mem_keys_iff]
  obtain ⟨ps, l, h1, h2, _⟩ := hp.types
  obtain ⟨_, _, _, _, _, h3⟩ := hp.velo
  by_cases e0 : k = "coeff"
  · subst e0; simp
  rw [if_neg e0]
  by_cases e1 : k = "spectype"
  · subst e1; simp [h1]
  by_cases e2 : k = "subtype"
  · subst e2; simp [h2]
  by_cases e3 : k = "max_velo_diff"
  · subst e3; simp [h3]
  by_cases e4 : k = "fulltype"
  · subst e4; simp [hp.gone]
  rw [hp.own k (by simp [e1, e2, e3, e4])]
  simp [e1, e2, e3, e4]

/-- the first row of a prepared column of types is one string wide -/
theorem types_width (ps : List (PyStr × PyStr)) (g : PyStr × PyStr → PyStr) (h : ps ≠ []) : arrWidth (ps.map (fun p => [(Cell.str (g p) : Cell K)])) = 1 := by
  cases ps with
  | nil => exact absurd rfl h
  | cons p ps => rfl

/-- the entry the stacking finds for candidate `j` -/
theorem value_of_own (f f0 : Fit K) (t t0 : Tab K) (hp : Prepared f t) (hp0 : Prepared f0 t0) (n : Nat) (k : String) (ref : Arr K)
    (hr : PyDict.get? (padCoeff n t0).cols k = some ref) (j : Nat) (hj : j < f.zwarn.length) (hg : GoodFit f) (row : List (Cell K)) (h : IsOwn k ref (padCoeff n t).cols j row) :
    Value (PyDict.get? f0.cols k) f k j row := by
  obtain ⟨ps, l, h1, h2, hps⟩ := hp.types
  obtain ⟨vt, vs, vb, hv1, hv2, h3⟩ := hp.velo
  have hjp : j < ps.length := by omega
  obtain ⟨ft, hft, hpar⟩ := hps j _ (List.getElem?_eq_getElem hjp)
  have hne : ps ≠ [] := by rintro rfl; simp at hjp
  have hpcaref : k ∈ ["pca_coeff", "pca_spectype", "pca_subtype"] → PyDict.get? f0.cols k = some ref := by
    intro hk
    rw [prepared_get f0 t0 hp0] at hr
    simp only [List.mem_cons, List.not_mem_nil, or_false] at hk
    rw [if_neg (by rintro rfl; simp at hk), hp0.own k (by rintro hm; simp at hm; rcases hm with rfl | rfl | rfl | rfl <;> simp at hk)] at hr
    exact hr
  cases h with
  | own a ha hk hra =>
    rw [prepared_get f t hp] at ha
    split at ha
    · rename_i e
      rw [Option.map_eq_some_iff] at ha
      obtain ⟨c, hc, rfl⟩ := ha
      rw [List.getElem?_map, Option.map_eq_some_iff] at hra
      obtain ⟨r, hr', rfl⟩ := hra
      exact .coeff c r _ e hc hr' rfl
    · rename_i e0
      by_cases e1 : k = "spectype"
      · subst e1; rw [h1, Option.some.injEq] at ha; subst ha
        rw [List.getElem?_map, List.getElem?_eq_getElem hjp] at hra
        cases hra
        exact .spectype ft _ _ rfl hft hpar rfl
      by_cases e2 : k = "subtype"
      · subst e2; rw [h2, Option.some.injEq] at ha; subst ha
        rw [List.getElem?_map, List.getElem?_eq_getElem hjp] at hra
        cases hra
        exact .subtype ft _ _ rfl hft hpar rfl
      by_cases e3 : k = "max_velo_diff"
      · subst e3; rw [h3, Option.some.injEq] at ha; subst ha
        rw [List.getElem?_replicate, if_pos hj] at hra
        cases hra
        exact .velocity vt vs vb rfl hv1 hv2 rfl
      by_cases e4 : k = "fulltype"
      · subst e4; rw [hp.gone] at ha; cases ha
      rw [hp.own k (by simp [e1, e2, e3, e4])] at ha
      refine .own a ?_ ha hra
      simp only [special, List.mem_cons, List.not_mem_nil, or_false, not_or] at hk ⊢
      exact ⟨e0, e1, e2, e4, e3, hk.1, hk.2.2, hk.2.1⟩
  | pca src a r ha hk hra hrow =>
    have hk3 : k ∈ ["pca_coeff", "pca_spectype", "pca_subtype"] := by
      simp only [List.mem_cons, Prod.mk.injEq, List.not_mem_nil, or_false] at hk ⊢
      tauto
    have href := hpcaref hk3
    have hkown : ∀ b, PyDict.get? (padCoeff n t).cols k = b → PyDict.get? f.cols k = b := by
      intro b hb
      rw [prepared_get f t hp, if_neg (by rintro rfl; simp at hk3), hp.own k (by rintro hm; simp at hm; rcases hm with rfl | rfl | rfl | rfl <;> simp at hk3)] at hb
      exact hb
    rcases ha with ha | ⟨hno, ha⟩
    · exact .pca a ref r _ hk3 (hkown _ ha) hra href hrow (by omega)
    · have hno := hkown _ hno
      simp only [List.mem_cons, Prod.mk.injEq, List.not_mem_nil, or_false] at hk
      rcases hk with ⟨rfl, rfl⟩ | ⟨rfl, rfl⟩ | ⟨rfl, rfl⟩
      · rw [prepared_get f t hp, if_pos rfl, Option.map_eq_some_iff] at ha
        obtain ⟨c, hc, rfl⟩ := ha
        rw [List.getElem?_map, Option.map_eq_some_iff] at hra
        obtain ⟨r', hr', rfl⟩ := hra
        have hcl := hg.rows _ c hc
        have hwid : arrWidth (c.map (fun r => r ++ List.replicate (n - arrWidth c) (Cell.num (0 : K)))) = arrWidth c + (n - arrWidth c) := by
          cases c with
          | nil => rw [List.length_nil] at hcl; omega
          | cons x c => simp [arrWidth]
        refine .pcaCoeff c ref r' ((n - arrWidth c) + (arrWidth ref - (arrWidth c + (n - arrWidth c)))) rfl hno hc hr' href ?_ (by omega)
        rw [hrow, hwid, List.append_assoc, List.replicate_append_replicate]
      · rw [prepared_get f t hp, if_neg (by decide), h2, Option.some.injEq] at ha
        subst ha
        rw [List.getElem?_map, List.getElem?_eq_getElem hjp] at hra
        cases hra
        refine .pcaType ft _ _ ref (arrWidth ref - 1) hno hft hpar href ?_ (.inr rfl) (by omega)
        rw [hrow, types_width ps (fun p => p.2) hne]
        rfl
      · rw [prepared_get f t hp, if_neg (by decide), h1, Option.some.injEq] at ha
        subst ha
        rw [List.getElem?_map, List.getElem?_eq_getElem hjp] at hra
        cases hra
        refine .pcaType ft _ _ ref (arrWidth ref - 1) hno hft hpar href ?_ (.inl rfl) (by omega)
        rw [hrow, types_width ps (fun p => p.1) hne]
        rfl
  | zero hno hk r hr' hrow hz =>
    refine .zero hk ?_ hz
    rw [prepared_get f t hp, if_neg (by rcases hk with rfl | rfl <;> decide), hp.own k (by rcases hk with rfl | rfl <;> decide)] at hno
    exact hno

/-! ### the stacked table -/

theorem flatten_block (as : List (List Nat)) (ns : List Nat) (h : as.map List.length = ns) (i : Nat) (a : List Nat) (hi : as[i]? = some a) (j : Nat) (hj : j < a.length) :
    as.flatten[rowNumber ns i j]? = a[j]? := flattenRows_get as ns h i j a hi hj

/-- The stacked table has one row per candidate, with the candidate's own values. -/
theorem C130_stacked (fits : List (Fit K)) (ts : List (Tab K)) (m : Nat) (t : Tab K) (hF : List.Forall₂ Prepared (fits.filter (fun f => decide (f.zwarn.length ≠ 0))) ts)
    (hm : merge (ts.map (padCoeff m)) = .ok t) (hg : ∀ f ∈ fits, GoodFit f)
    (hfit : ∀ first ∈ (fits.filter (fun f => decide (f.zwarn.length ≠ 0))).head?, ∀ f ∈ fits, f.zwarn ≠ [] → Fits first f) :
    ∃ first ∈ (fits.filter (fun f => decide (f.zwarn.length ≠ 0))).head?, Stacked fits first t ∧ Full t := by
  have hgl : ∀ f ∈ fits.filter (fun f => decide (f.zwarn.length ≠ 0)), GoodFit f ∧ f.zwarn ≠ [] ∧ f ∈ fits := by
    intro f hf
    have := List.mem_filter.1 hf
    refine ⟨hg f this.1, ?_, this.1⟩
    have h2 := this.2
    rw [decide_eq_true_eq] at h2
    exact fun e => h2 (by rw [e]; rfl)
  have hnum := fun (i : Nat) f (hi : fits[i]? = some f) (j : Nat) (hj : j < f.zwarn.length) => rowNumber_live (fun f : Fit K => f.zwarn.length) fits i f hi (by show f.zwarn.length ≠ 0; omega) j
  have hsum := sum_live (fun f : Fit K => f.zwarn.length) fits
  generalize hlive : fits.filter (fun f => decide (f.zwarn.length ≠ 0)) = live at hF hgl hfit hnum hsum ⊢
  unfold merge at hm
  obtain ⟨d, hd, hm⟩ := Except.bind_ok _ _ _ hm
  cases hm
  cases hF with
  | nil => cases hd
  | @cons f0 t0 fs ts' hp0 hF' =>
  have hFull : List.Forall₂ Prepared (f0 :: fs) (t0 :: ts') := .cons hp0 hF'
  have hlens : ∀ (g : Tab K → List Nat) (gf : Fit K → List Nat), (∀ f t, GoodFit f → Prepared f t → g (padCoeff m t) = gf f ∧ (gf f).length = f.zwarn.length) →
      ((t0 :: ts').map (padCoeff m)).map g = (f0 :: fs).map gf ∧ ((f0 :: fs).map gf).map List.length = (f0 :: fs).map (fun f => f.zwarn.length) := by
    intro g gf h
    constructor
    · rw [List.map_map]
      apply List.ext_getElem (by rw [List.length_map, List.length_map, hFull.length_eq])
      intro q h1 h2
      rw [List.getElem_map, List.getElem_map]
      rw [List.length_map] at h1 h2
      obtain ⟨t', e1, e2⟩ := forall₂_get hFull q _ (List.getElem?_eq_getElem h2)
      rw [List.getElem?_eq_getElem h1, Option.some.injEq] at e1
      subst e1
      exact (h _ _ (hgl _ (List.getElem_mem h2)).1 e2).1
    · rw [List.map_map]
      apply List.map_congr_left
      intro f hf
      obtain ⟨q, hq, rfl⟩ := List.getElem_of_mem hf
      obtain ⟨t', e1, e2⟩ := forall₂_get hFull q _ (List.getElem?_eq_getElem hq)
      exact (h _ t' (hgl _ hf).1 e2).2
  obtain ⟨z1, z2⟩ := hlens (·.zwarn) (·.zwarn) (fun f t _ hp => ⟨by rw [(pad_fields m t).1, hp.zwarn], rfl⟩)
  obtain ⟨p1, p2⟩ := hlens (·.npixels) (·.npixels) (fun f t hg hp => ⟨by rw [(pad_fields m t).2.1, hp.npixels], hg.npixels⟩)
  obtain ⟨c1, c2⟩ := hlens (·.ncoeff) (fun f => List.replicate f.zwarn.length ((PyDict.get? f.cols "coeff").elim 0 arrWidth)) (fun f t hg hp => by
    obtain ⟨a, ha, hn⟩ := hp.ncoeff
    exact ⟨by rw [(pad_fields m t).2.2, hn, ha]; rfl, by rw [List.length_replicate]⟩)
  have hns : ∀ f ∈ f0 :: fs, 0 < f.zwarn.length := fun f hf => List.length_pos_of_ne_nil (hgl f hf).2.1
  have hFO : FitsOf (((t0 :: ts').map (padCoeff m)).map (·.cols)) ((f0 :: fs).map (fun f => f.zwarn.length)) := by
    refine ⟨?_, ?_⟩
    · rw [List.map_map, List.forall₂_map_left_iff, List.forall₂_map_right_iff, List.forall₂_iff_get]
      refine ⟨hFull.length_eq, ?_⟩
      intro q h1 h2
      obtain ⟨t', e1, e2⟩ := forall₂_get hFull q _ (List.getElem?_eq_getElem h1)
      rw [List.getElem?_eq_getElem h2, Option.some.injEq] at e1
      subst e1
      exact ⟨hns _ (List.getElem_mem h1), prepared_rows _ _ (hgl _ (List.getElem_mem h1)).1 e2 m⟩
    · intro first hfirst
      simp only [List.map_cons, List.head?_cons, Option.mem_some_iff] at hfirst
      subst hfirst
      exact pad_keys_nodup m t0 (hp0.keys (hgl f0 List.mem_cons_self).1.keys)
  have hcol : ∀ k ref, PyDict.get? (padCoeff m t0).cols k = some ref → ∃ col, PyDict.get? d k = some col ∧ col.length = ((f0 :: fs).map (fun f => f.zwarn.length)).sum ∧
      ∀ (i : Nat) tmp (n j : Nat), (((t0 :: ts').map (padCoeff m)).map (·.cols))[i]? = some tmp → ((f0 :: fs).map (fun f => f.zwarn.length))[i]? = some n → j < n →
        ∃ row, col[rowNumber ((f0 :: fs).map (fun f => f.zwarn.length)) i j]? = some row ∧ IsOwn k ref tmp j row := by
    intro k ref href
    refine C85_rows_partial (padCoeff m t0).cols ((ts'.map (padCoeff m)).map (fun t : Tab K => t.cols)) _ hFO d hd k ref href ?_ ?_
    · exact prepared_scalar f0 t0 (hgl f0 List.mem_cons_self).1 hp0 m k ref href
    · intro i tmp n htmp hn hlack
      have htmp' : (((t0 :: ts').map (padCoeff m)).map (·.cols))[i]? = some tmp := htmp
      rw [List.getElem?_map, Option.map_eq_some_iff] at hn
      obtain ⟨f, hf, rfl⟩ := hn
      obtain ⟨t', e1, e2⟩ := forall₂_get hFull i f hf
      rw [List.getElem?_map, List.getElem?_map, e1] at htmp'
      simp only [Option.map_some, Option.some.injEq] at htmp'
      subst htmp'
      have hfm := List.mem_of_getElem? hf
      have hk0 : k ∈ PyDict.keys (padCoeff m t0).cols := by rw [PyDict.mem_keys_iff, href]; rfl
      have hkn : k ∉ PyDict.keys (padCoeff m t').cols := by rw [PyDict.mem_keys_iff, hlack.1]; simp
      rw [prepared_keys f0 t0 hp0] at hk0
      rw [prepared_keys f t' e2] at hkn
      push Not at hkn
      rcases hk0 with hk0 | ⟨hk1, hk2⟩
      · exact absurd hk0 hkn.1
      have hsrc : ∀ src, src ∈ ["coeff", "spectype", "subtype"] → (PyDict.get? (padCoeff m t').cols src) ≠ none := by
        intro src hs hno
        have : src ∉ PyDict.keys (padCoeff m t').cols := by rw [PyDict.mem_keys_iff, hno]; simp
        rw [prepared_keys f t' e2] at this
        push Not at this
        simp only [List.mem_cons, List.not_mem_nil, or_false] at hs
        rcases hs with rfl | rfl | rfl
        · obtain ⟨a, ha, _⟩ := e2.ncoeff
          have := this.2 (by decide)
          rw [PyDict.mem_keys_iff, ha] at this
          simp at this
        · simp at this
        · simp at this
      rcases hfit f0 (by simp) f (hgl f hfm).2.2 (hgl f hfm).2.1 k hk2 with h | h | h
      · exact absurd h (hkn.2 hk1)
      · simp only [List.mem_cons, List.not_mem_nil, or_false] at h
        rcases h with rfl | rfl | rfl | rfl | rfl | rfl | rfl
        · exact absurd (hlack.2 "coeff" (by simp)) (hsrc _ (by simp))
        · exact absurd (hlack.2 "spectype" (by simp)) (hsrc _ (by simp))
        · exact absurd (hlack.2 "subtype" (by simp)) (hsrc _ (by simp))
        · exact absurd rfl hk1
        · simp at hkn
        · simp at hkn
        · simp at hkn
      · refine ⟨h.1, ?_⟩
        rw [prepared_rows f0 t0 (hgl f0 List.mem_cons_self).1 hp0 m k ref href]
        exact h.2
  have hkd : PyDict.keys d = PyDict.keys (padCoeff m t0).cols := C85_columns _ _ d hd
  have hlookup : ∀ k, k ∈ PyDict.keys d → ∃ ref, PyDict.get? (padCoeff m t0).cols k = some ref := by
    intro k hk
    rw [hkd, PyDict.mem_keys_iff] at hk
    exact Option.isSome_iff_exists.1 hk
  refine ⟨f0, by simp, ⟨?_, ?_, ?_, ?_, ?_, ?_⟩, ?_⟩
  · show (((t0 :: ts').map (padCoeff m)).map (·.zwarn)).flatten.length = _
    rw [z1, List.length_flatten, z2, hsum]
  · intro k
    show k ∈ PyDict.keys d ↔ _
    rw [hkd, prepared_keys f0 t0 hp0]
  · intro i j f hi hj
    obtain ⟨i', h1, h2⟩ := hnum i f hi j hj
    show (((t0 :: ts').map (padCoeff m)).map (·.zwarn)).flatten[_]? = _
    rw [← h2, z1]
    exact flatten_block _ _ z2 i' f.zwarn (by rw [List.getElem?_map, h1]; rfl) j hj
  · intro i j f hi hj
    obtain ⟨i', h1, h2⟩ := hnum i f hi j hj
    show (((t0 :: ts').map (padCoeff m)).map (·.npixels)).flatten[_]? = _
    rw [← h2, p1]
    exact flatten_block _ _ p2 i' f.npixels (by rw [List.getElem?_map, h1]; rfl) j (by rw [(hg f (List.mem_of_getElem? hi)).npixels]; exact hj)
  · intro i j f a hi hj ha
    obtain ⟨i', h1, h2⟩ := hnum i f hi j hj
    show (((t0 :: ts').map (padCoeff m)).map (·.ncoeff)).flatten[_]? = _
    rw [← h2, c1]
    rw [flatten_block _ _ c2 i' (List.replicate f.zwarn.length ((PyDict.get? f.cols "coeff").elim 0 arrWidth)) (by rw [List.getElem?_map, h1]; rfl) j (by rw [List.length_replicate]; exact hj), List.getElem?_replicate, if_pos hj, ha]
    rfl
  · intro i j f hi hj k hk
    obtain ⟨ref, href⟩ := hlookup k hk
    obtain ⟨col, q1, q2, q3⟩ := hcol k ref href
    obtain ⟨i', h1, h2⟩ := hnum i f hi j hj
    obtain ⟨t', e1, e2⟩ := forall₂_get hFull i' f h1
    obtain ⟨row, r1, r2⟩ := q3 i' (padCoeff m t').cols f.zwarn.length j (by rw [List.getElem?_map, List.getElem?_map, e1]; rfl) (by rw [List.getElem?_map, h1]; rfl) hj
    refine ⟨row, ?_, value_of_own f f0 t' t0 e2 hp0 m k ref href j hj (hg f (List.mem_of_getElem? hi)) row r2⟩
    show (PyDict.get? d k).bind _ = _
    rw [q1, ← h2]
    exact r1
  · refine ⟨?_, ?_, ?_⟩
    · show (((t0 :: ts').map (padCoeff m)).map (·.npixels)).flatten.length = (((t0 :: ts').map (padCoeff m)).map (·.zwarn)).flatten.length
      rw [p1, z1, List.length_flatten, List.length_flatten, p2, z2]
    · show (((t0 :: ts').map (padCoeff m)).map (·.ncoeff)).flatten.length = (((t0 :: ts').map (padCoeff m)).map (·.zwarn)).flatten.length
      rw [c1, z1, List.length_flatten, List.length_flatten, c2, z2]
    · intro kv hkv
      show kv.2.length = (((t0 :: ts').map (padCoeff m)).map (·.zwarn)).flatten.length
      have hnd : (PyDict.keys d).Nodup := by rw [hkd]; exact pad_keys_nodup m t0 (hp0.keys (hgl f0 List.mem_cons_self).1.keys)
      obtain ⟨ref, href⟩ := hlookup kv.1 (List.mem_map.2 ⟨kv, hkv, rfl⟩)
      obtain ⟨col, q1, q2, _⟩ := hcol kv.1 ref href
      have := PyDict.get?_of_mem d hnd kv.1 kv.2 hkv
      rw [q1, Option.some.injEq] at this
      rw [z1, List.length_flatten, z2, ← this, q2]

end
end Redrock.ArchTable
