import Verif.Props.ArchRows

/-!
C130, third part: from the results of `fitz` for one target to its published rows, in archetype mode.
-/
set_option linter.unusedSectionVars false
namespace Redrock.ArchTable

section
variable {K : Type} [Field K] [LinearOrder K] [IsStrictOrderedRing K]

/-- the fits that have candidates -/
def live (fits : List (Fit K)) : List (Fit K) := fits.filter (fun f => decide (f.zwarn.length ≠ 0))

theorem archTable_ok (nminima : Nat) (archTypes allTypes : List PyStr) (nNearest : Option Nat) (fits : List (Fit K)) (o : Out K) (h : archTable nminima archTypes allTypes nNearest fits = .ok o) :
    ∃ ts m t, List.Forall₂ Prepared (live fits) ts ∧ merge (ts.map (padCoeff m)) = .ok t ∧ finishTable nminima (archIbad archTypes allTypes nNearest) t = .ok o := by
  unfold archTable at h
  obtain ⟨ts, h1, h⟩ := Except.bind_ok _ _ _ h
  dsimp only at h
  obtain ⟨m, _, h⟩ := Except.bind_ok _ _ _ h
  obtain ⟨t, h2, h⟩ := Except.bind_ok _ _ _ h
  exact ⟨_, m, t, prep_all fits ts h1, h2, h⟩

/-- The published table is a sorted, flagged selection of the rows of the stacked table, which are the candidates of the fits with their own values. -/
theorem C130_table_partial (nminima : Nat) (archTypes allTypes : List PyStr) (nNearest : Option Nat) (fits : List (Fit K)) (o : Out K)
    (h : archTable nminima archTypes allTypes nNearest fits = .ok o) (hg : ∀ f ∈ fits, GoodFit f)
    (hfit : ∀ first ∈ (live fits).head?, ∀ f ∈ fits, f.zwarn ≠ [] → Fits first f) :
    ∃ first ∈ (live fits).head?, ∃ t src, Stacked fits first t ∧ Published nminima (archIbad archTypes allTypes nNearest) t src o := by
  obtain ⟨ts, m, t, h1, h2, h3⟩ := archTable_ok _ _ _ _ _ _ h
  obtain ⟨first, e1, e2, _⟩ := C130_stacked fits ts m t h1 h2 hg hfit
  obtain ⟨src, e3⟩ := C130_published _ _ _ _ h3
  exact ⟨first, e1, t, src, e2, e3⟩

/-- The same without the stacked table: published row `p` is candidate `j` of fit `i` in all its columns, no candidate is published twice, and its warning has the bits of the candidate and
at most `LITTLE_COVERAGE`, `SMALL_DELTA_CHI2`, `NEGATIVE_MODEL` and `NODATA` in addition. -/
theorem C130_rows_partial (nminima : Nat) (archTypes allTypes : List PyStr) (nNearest : Option Nat) (fits : List (Fit K)) (o : Out K)
    (h : archTable nminima archTypes allTypes nNearest fits = .ok o) (hg : ∀ f ∈ fits, GoodFit f)
    (hfit : ∀ first ∈ (live fits).head?, ∀ f ∈ fits, f.zwarn ≠ [] → Fits first f) :
    ∃ first ∈ (live fits).head?, ∃ src : List (Nat × Nat), src.Nodup ∧ o.zwarn.length = src.length ∧ o.znum = List.range src.length ∧
      (∀ k, k ∈ PyDict.keys o.cols ↔ k ∈ ["spectype", "subtype"] ∨ (k ∉ ["fulltype", "max_velo_diff"] ∧ k ∈ PyDict.keys first.cols)) ∧
      ∀ (p i j : Nat), src[p]? = some (i, j) → ∃ f, fits[i]? = some f ∧ j < f.zwarn.length ∧ o.npixels[p]? = f.npixels[j]? ∧
        (∀ a, PyDict.get? f.cols "coeff" = some a → o.ncoeff[p]? = some (arrWidth a)) ∧
        (∃ w0 w, f.zwarn[j]? = some w0 ∧ o.zwarn[p]? = some w ∧ ∀ b, (bitSet w0 b → bitSet w b) ∧ (bitSet w b → bitSet w0 b ∨ b = 1 ∨ b = 2 ∨ b = 3 ∨ b = 9)) ∧
        ∀ k ∈ PyDict.keys o.cols, ∃ row, cell o.cols k p = some row ∧ Value (PyDict.get? first.cols k) f k j row := by
  obtain ⟨first, hf, t, src, S, P⟩ := C130_table_partial _ _ _ _ _ _ h hg hfit
  generalize hns : fits.map (fun f => f.zwarn.length) = ns at *
  have hlen : t.zwarn.length = ns.sum := by rw [← hns]; exact S.length
  have hex : ∀ q : Nat, ∃ x : Nat × Nat, q ∈ src → ∃ n, ns[x.1]? = some n ∧ x.2 < n ∧ rowNumber ns x.1 x.2 = q := by
    intro q
    by_cases hq : q ∈ src
    · obtain ⟨i, j, n, h1, h2, h3⟩ := rowNumber_surj ns q (by rw [← hlen]; exact P.lt q hq)
      exact ⟨(i, j), fun _ => ⟨n, h1, h2, h3⟩⟩
    · exact ⟨(0, 0), fun h => absurd h hq⟩
  choose g hgs using hex
  have hkey : ∀ k, k ∈ PyDict.keys o.cols ↔ k ∈ PyDict.keys t.cols ∧ k ≠ "max_velo_diff" := by
    intro k
    rw [P.names, List.mem_filter, decide_eq_true_eq]
  refine ⟨first, hf, src.map g, ?_, ?_, ?_, ?_, ?_⟩
  · rw [List.nodup_map_iff_inj_on P.nodup]
    intro x hx y hy hxy
    obtain ⟨n, _, _, h3⟩ := hgs x hx
    obtain ⟨n', _, _, h3'⟩ := hgs y hy
    rw [← h3, ← h3', hxy]
  · rw [List.length_map]; exact P.lengths.1
  · rw [List.length_map]; exact P.znum
  · intro k
    rw [hkey, S.names]
    by_cases e : k = "max_velo_diff"
    · subst e; simp
    by_cases e1 : k = "spectype"
    · subst e1; simp
    by_cases e2 : k = "subtype"
    · subst e2; simp
    simp [e, e1, e2]
  · intro p i j hp
    rw [List.getElem?_map, Option.map_eq_some_iff] at hp
    obtain ⟨q, hq, hgq⟩ := hp
    obtain ⟨n, h1, h2, h3⟩ := hgs q (List.mem_of_getElem? hq)
    rw [hgq] at h1 h2 h3
    dsimp only at h1 h2 h3
    have h1' := h1
    rw [← hns, List.getElem?_map, Option.map_eq_some_iff] at h1'
    obtain ⟨f, hfi, rfl⟩ := h1'
    have e3 : rowNumber (fits.map (fun f => f.zwarn.length)) i j = q := by rw [hns]; exact h3
    have Sz := S.zwarn i j f hfi h2
    have Sp := S.npixels i j f hfi h2
    have Sc := S.cols i j f hfi h2
    rw [e3] at Sz Sp Sc
    refine ⟨f, hfi, h2, ?_, ?_, ?_, ?_⟩
    · rw [P.npixels p q hq, Sp]
    · intro a ha
      have := S.ncoeff i j f a hfi h2 ha
      rw [e3] at this
      rw [P.ncoeff p q hq, this]
    · obtain ⟨w, w1, w2⟩ := P.zwarn p q hq
      have hrow : (t.rowAt q).zwarn = f.zwarn[j] := by
        show t.zwarn.getD q 0 = _
        rw [List.getD_eq_getElem?_getD, Sz, List.getElem?_eq_getElem h2]; rfl
      refine ⟨f.zwarn[j], w, List.getElem?_eq_getElem h2, w1, fun b => ⟨fun hb => (w2 b).2 (.inl (by rw [hrow]; exact hb)), fun hb => ?_⟩⟩
      have := (w2 b).1 hb
      rw [hrow] at this
      tauto
    · intro k hk
      obtain ⟨hk1, hk2⟩ := (hkey k).1 hk
      obtain ⟨row, r1, r2⟩ := Sc k hk1
      exact ⟨row, by rw [P.own k hk2 p q hq, r1], r2⟩

/-- Once stacked, a table with columns of one length (`C130_stacked`: this holds for it) and with the five columns that are read is published: nothing after the stacking fails. -/
theorem C130_publishes (nminima : Nat) (ibad : Row K PyStr → Bool) (t : Tab K) (hf : Full t) (hk : ∀ k ∈ ["chi2", "z", "coeff", "spectype", "max_velo_diff"], k ∈ PyDict.keys t.cols) :
    ∃ o, finishTable nminima ibad t = .ok o := by
  have hl : (t.flag ibad).zwarn.length = t.zwarn.length := by simp [Tab.flag, Tab.rows]
  have hff : Full (t.flag ibad) := ⟨by rw [hl]; exact hf.1, by rw [hl]; exact hf.2.1, by rw [hl]; exact hf.2.2⟩
  obtain ⟨t', ht'⟩ := sortTrim_total nminima (t.flag ibad) hff
  obtain ⟨src, _, _, T, _⟩ := sortTrim_spec nminima _ _ ht'
  unfold finishTable
  rw [if_neg]
  · rw [ht']
    show ∃ o, t'.finish = .ok o
    unfold Tab.finish
    dsimp only
    rw [if_neg]
    · exact ⟨_, rfl⟩
    · rw [List.any_eq_true]
      rintro ⟨kv, h1, h2⟩
      rw [decide_eq_true_eq] at h2
      exact h2 (by rw [T.full.2.2 kv (List.mem_filter.1 h1).1])
  · rw [List.any_eq_true]
    rintro ⟨k, h1, h2⟩
    have := hk k h1
    rw [PyDict.mem_keys_iff] at this
    rw [Option.isNone_iff_eq_none] at h2
    rw [h2] at this
    cases this

/-- With `nminima ≥ 1` the best candidate of the target is the first published row: no candidate of any fit is better. -/
theorem C130_best (nminima : Nat) (hn : 1 ≤ nminima) (ibad : Row K PyStr → Bool) (t : Tab K) (src : List Nat) (o : Out K) (P : Published nminima ibad t src o) (hne : t.zwarn ≠ []) :
    ∃ b, src.head? = some b ∧ ∀ i, i < t.zwarn.length → (flagged ibad t b).notWorse (flagged ibad t i) := by
  have trans : ∀ a b c : Row K PyStr, a.notWorse b → b.notWorse c → a.notWorse c := by
    rintro a b c ⟨x1, x2⟩ ⟨y1, y2⟩
    refine ⟨fun h => y1 (x1 h), fun h => ?_⟩
    have : a.bad = b.bad := by
      cases ha : a.bad <;> cases hb : b.bad <;> simp_all
    exact (x2 this).trans (y2 (this.symm.trans h))
  have kept : ∀ i, i < t.zwarn.length → ∃ k ∈ src, (flagged ibad t k).notWorse (flagged ibad t i) := by
    intro i hi
    by_cases hs : i ∈ src
    · exact ⟨i, hs, id, fun _ => le_refl _⟩
    · have hq := P.quota (t.rowAt i).spectype
      have hpos : 0 < ((List.range t.zwarn.length).filter (fun x => decide ((t.rowAt x).spectype = (t.rowAt i).spectype))).length :=
        List.length_pos_of_mem (List.mem_filter.2 ⟨List.mem_range.2 hi, by simp⟩)
      have : 0 < (src.filter (fun x => decide ((t.rowAt x).spectype = (t.rowAt i).spectype))).length := by omega
      obtain ⟨k, hk⟩ := List.exists_mem_of_length_pos this
      obtain ⟨hk1, hk2⟩ := List.mem_filter.1 hk
      exact ⟨k, hk1, P.dropped i hi hs k hk1 (by simpa using hk2)⟩
  cases src with
  | nil =>
    obtain ⟨k, hk, _⟩ := kept 0 (List.length_pos_of_ne_nil hne)
    simp at hk
  | cons b src =>
    refine ⟨b, rfl, fun i hi => ?_⟩
    obtain ⟨k, hk, h⟩ := kept i hi
    rcases List.mem_cons.1 hk with rfl | hk
    · exact h
    · exact trans _ _ _ ((List.pairwise_cons.1 P.sorted).1 k hk) h

end

/-! ### Examples -/
namespace Ex

/-- a fit with archetypes (two candidates, the second one bad) -/
def fA (name : String) (x : ℚ) : Fit ℚ := ⟨name.toList, [0, 32], [100, 100], [("chi2", [[.num x], [.num (x + 1)]]), ("z", [[.num (x/10)], [.num (x/20)]]), ("coeff", [[.num 3], [.num 4]]),
  ("legcoeff", [[.num x, .num 1], [.num x, .num 2]]), ("fulltype", [[.str (name ++ ":::A").toList], [.str (name ++ ":::B").toList]]), ("pca_coeff", [[.num 1, .num 2], [.num 3, .num 4]])]⟩

/-- a fit without archetypes and `n` candidates -/
def fP (name : String) (n : Nat) (x : ℚ) : Fit ℚ := ⟨name.toList, List.replicate n 0, List.replicate n 50, [("chi2", List.replicate n [.num x]), ("z", List.replicate n [.num (x/30)]), ("coeff", List.replicate n [.num 7, .num 8, .num 9])]⟩

def types : List PyStr := ["GALAXY".toList, "STAR".toList, "QSO".toList]
def archs : List PyStr := ["GALAXY".toList, "QSO".toList]

/-- galaxies and quasars with archetypes, one stellar template without, one template without candidates -/
def mixed : List (Fit ℚ) := [fA "GALAXY" 40, fP "STAR:::M" 2 30, fP "QSO:::X" 0 3, fA "QSO" 20]

theorem fA_good (name : String) (x : ℚ) : GoodFit (fA name x) := by
  refine ⟨rfl, ?_, by simp [fA, PyDict.keys], ?_⟩
  · intro k a h
    have := PyDict.mem_of_get? _ _ _ h
    simp only [fA, List.mem_cons, Prod.mk.injEq, List.not_mem_nil, or_false] at this
    rcases this with ⟨_, rfl⟩ | ⟨_, rfl⟩ | ⟨_, rfl⟩ | ⟨_, rfl⟩ | ⟨_, rfl⟩ | ⟨_, rfl⟩ <;> rfl
  · intro k a h _
    have := PyDict.mem_of_get? _ _ _ h
    simp only [fA, List.mem_cons, Prod.mk.injEq, List.not_mem_nil, or_false] at this
    rcases this with ⟨_, rfl⟩ | ⟨_, rfl⟩ | ⟨_, rfl⟩ | ⟨_, rfl⟩ | ⟨_, rfl⟩ | ⟨_, rfl⟩ <;> simp [ScalarRow, Cell.shape]

theorem fP_good (name : String) (n : Nat) (x : ℚ) : GoodFit (fP name n x) := by
  refine ⟨by simp [fP], ?_, by simp [fP, PyDict.keys], ?_⟩
  · intro k a h
    have := PyDict.mem_of_get? _ _ _ h
    simp only [fP, List.mem_cons, Prod.mk.injEq, List.not_mem_nil, or_false] at this
    rcases this with ⟨_, rfl⟩ | ⟨_, rfl⟩ | ⟨_, rfl⟩ <;> simp [fP]
  · intro k a h _
    have := PyDict.mem_of_get? _ _ _ h
    simp only [fP, List.mem_cons, Prod.mk.injEq, List.not_mem_nil, or_false] at this
    rcases this with ⟨_, rfl⟩ | ⟨_, rfl⟩ | ⟨_, rfl⟩ <;> cases n <;> simp [ScalarRow, Cell.shape, List.replicate_succ]

-- the hypotheses of the theorems
example : (∀ f ∈ mixed, GoodFit f) ∧ ∀ first ∈ (live mixed).head?, ∀ f ∈ mixed, f.zwarn ≠ [] → Fits first f := by
  refine ⟨?_, ?_⟩
  · intro f hf
    simp only [mixed, List.mem_cons, List.not_mem_nil, or_false] at hf
    rcases hf with rfl | rfl | rfl | rfl
    · exact fA_good _ _
    · exact fP_good _ _ _
    · exact fP_good _ _ _
    · exact fA_good _ _
  · intro first h1 f hf hne k hk
    simp [live, mixed, fA, fP] at h1
    subst h1
    simp only [mixed, List.mem_cons, List.not_mem_nil, or_false] at hf
    rcases hf with rfl | rfl | rfl | rfl <;> simp [fA, fP, PyDict.keys] at hk hne ⊢ <;> tauto

/-- the names and entries the table is checked on -/
def look (k : String) (fits : List (Fit ℚ)) : Option (Arr ℚ) := (archTable 3 archs types none fits).toOption.bind (fun o => PyDict.get? o.cols k)

example : look "chi2" mixed = some [[.num 20], [.num 30], [.num 30], [.num 40], [.num 21], [.num 41]] := by decide +kernel
example : look "coeff" mixed = some [[.num 3, .num 0, .num 0], [.num 7, .num 8, .num 9], [.num 7, .num 8, .num 9], [.num 3, .num 0, .num 0], [.num 4, .num 0, .num 0], [.num 4, .num 0, .num 0]] := by decide +kernel
example : look "legcoeff" mixed = some [[.num 20, .num 1], [.num 0, .num 0], [.num 0, .num 0], [.num 40, .num 1], [.num 20, .num 2], [.num 40, .num 2]] := by decide +kernel
example : look "subtype" mixed = some [[.str "A".toList], [.str "M".toList], [.str "M".toList], [.str "A".toList], [.str "B".toList], [.str "B".toList]] := by decide +kernel
example : (archTable 3 archs types none mixed).toOption.map (·.zwarn) = some [0, 0, 0, 0, 36, 36] := by decide +kernel

/-- C130 as claimed is false: with a template without archetypes that has fewer candidates than the first, a published quasar (its fit has Legendre coefficients 20 and 1) gets zeros. -/
theorem C130_rows_refuted : ∃ (fits : List (Fit ℚ)) (o : Out ℚ) (f : Fit ℚ), (∀ f ∈ fits, GoodFit f) ∧ archTable 3 archs types none fits = .ok o ∧ f ∈ fits ∧
    cell o.cols "chi2" 0 = cell f.cols "chi2" 0 ∧ (∀ g ∈ fits, ∀ j : Nat, cell g.cols "chi2" j = cell f.cols "chi2" 0 → g.fulltype = f.fulltype ∧ j = 0) ∧
    cell f.cols "legcoeff" 0 = some [.num 20, .num 1] ∧ cell o.cols "legcoeff" 0 = some [.num 0, .num 0] := by
  cases ho : archTable 3 archs types none [fA "GALAXY" 40, fP "STAR:::M" 1 30, fA "QSO" 20] with
  | error e =>
    have : (archTable 3 archs types none [fA "GALAXY" 40, fP "STAR:::M" 1 30, fA "QSO" 20]).toOption.isSome = true := by decide +kernel
    rw [ho] at this
    cases this
  | ok o =>
    have h1 : (archTable 3 archs types none [fA "GALAXY" 40, fP "STAR:::M" 1 30, fA "QSO" 20]).toOption.map (fun o => (cell o.cols "chi2" 0, cell o.cols "legcoeff" 0)) =
        some (some [.num 20], some [.num 0, .num 0]) := by decide +kernel
    rw [ho] at h1
    have h2 := Option.some.inj h1
    rw [Prod.mk.injEq] at h2
    refine ⟨_, o, fA "QSO" 20, ?_, ho, by simp, ?_, ?_, by decide +kernel, h2.2⟩
    · intro f hf
      simp only [List.mem_cons, List.not_mem_nil, or_false] at hf
      rcases hf with rfl | rfl | rfl
      · exact fA_good _ _
      · exact fP_good _ _ _
      · exact fA_good _ _
    · rw [h2.1]; decide +kernel
    · intro g hg j hj
      have hq : cell (fA "QSO" 20).cols "chi2" 0 = some [.num 20] := by decide +kernel
      rw [hq] at hj
      simp only [List.mem_cons, List.not_mem_nil, or_false] at hg
      have hA : ∀ name x, cell (fA name x).cols "chi2" j = ([[.num x], [.num (x + 1)]] : Arr ℚ)[j]? := fun name x => rfl
      have hP : ∀ name n x, cell (fP name n x).cols "chi2" j = (List.replicate n [Cell.num x])[j]? := fun name n x => rfl
      rcases hg with rfl | rfl | rfl
      · rw [hA] at hj
        rcases j with _ | _ | j
        · norm_num at hj
        · norm_num at hj
        · cases hj
      · rw [hP] at hj
        rcases j with _ | j <;> simp at hj
      · rw [hA] at hj
        rcases j with _ | _ | j
        · exact ⟨rfl, rfl⟩
        · norm_num at hj
        · cases hj

-- and with one candidate more than the first the target has no rows at all: IndexError
example : (archTable 3 archs types none [fA "GALAXY" 40, fP "STAR:::M" 3 30, fA "QSO" 20]).toOption.isNone = true := by decide +kernel

end Ex
end Redrock.ArchTable
