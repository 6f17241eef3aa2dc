import Verif.Lemmas.Details
import Verif.Props.Strings
import Verif.Props.Rebin
import Verif.Props.Table
import Mathlib.Data.List.Nodup
import Mathlib.Data.List.Perm.Basic

/-! Properties C26, C27, C31, C65 (the details file). -/
namespace Redrock
section
variable {τ ρ K : Type} [DecidableEq τ]

/-! ### writing -/

private theorem foldlM_links {β : Type} (g : τ → β) : ∀ (l : List τ) (acc r : PyDict τ β),
    l.foldlM (fun (acc : PyDict τ β) t => if (acc.get? t).isSome then (.error .runtimeError : Py (PyDict τ β)) else .ok (acc ++ [(t, g t)])) acc = .ok r →
    l.Nodup ∧ (∀ t ∈ l, acc.get? t = none) ∧ r = acc ++ l.map (fun t => (t, g t)) := by
  intro l
  induction l with
  | nil => intro acc r h; cases h; simp
  | cons a l ih =>
    intro acc r h
    rw [List.foldlM_cons] at h
    split_ifs at h with hc
    · cases h
    · rw [okBind] at h
      obtain ⟨h1, h2, h3⟩ := ih _ _ h
      have ha : acc.get? a = none := by simpa using hc
      have hal : ∀ t ∈ l, t ≠ a ∧ acc.get? t = none := by
        intro t ht
        have := h2 t ht
        rw [PyDict.get?_append] at this
        constructor
        · rintro rfl
          rw [ha] at this
          simp [PyDict.get?] at this
        · cases hq : PyDict.get? acc t with
          | none => rfl
          | some v => rw [hq] at this; simp at this
      refine ⟨List.nodup_cons.2 ⟨fun hm => (hal a hm).1 rfl, h1⟩, ?_, ?_⟩
      · intro t ht
        rcases List.mem_cons.1 ht with rfl | ht
        · exact ha
        · exact (hal t ht).2
      · rw [h3]; simp

private theorem foldlM_links_ok {β : Type} (g : τ → β) : ∀ (l : List τ) (acc : PyDict τ β), l.Nodup → (∀ t ∈ l, acc.get? t = none) →
    l.foldlM (fun (acc : PyDict τ β) t => if (acc.get? t).isSome then (.error .runtimeError : Py (PyDict τ β)) else .ok (acc ++ [(t, g t)])) acc = .ok (acc ++ l.map (fun t => (t, g t))) := by
  intro l
  induction l with
  | nil => intro acc _ _; simp; rfl
  | cons a l ih =>
    intro acc hn h
    obtain ⟨hn1, hn2⟩ := List.nodup_cons.1 hn
    rw [List.foldlM_cons, if_neg (by rw [h a (by simp)]; simp), okBind, ih _ hn2]
    · simp
    · intro t ht
      have hta : a ≠ t := fun e => hn1 (e ▸ ht)
      rw [PyDict.get?_append, h t (by simp [ht])]
      simp [PyDict.get?, hta]

/-- Specification of what the file stores of a row: the same names, the candidate number in one signed byte, the other columns converted to the storage types. -/
def storedRow (conv : ρ → ρ) (r : ZRow τ ρ) : ZRow τ ρ := ⟨r.targetid, (r.znum + 128) % 256 - 128, r.spectype, r.subtype, conv r.rest⟩

omit [DecidableEq τ] in
theorem storedRow_eq (conv : ρ → ρ) : (storedRow conv : ZRow τ ρ → ZRow τ ρ) = narrowRow conv := rfl

/-- the targets of the rows selected as best fits -/
def bestIds (conv : ρ → ρ) (zfit : List (ZRow τ ρ)) : List τ := ((zfit.map (narrowRow conv)).filter (fun r => decide (r.znum = 0))).map (·.targetid)

/-- what a successful write implies -/
theorem writeZscan_inv (f32 : K → K) (conv : ρ → ρ) (zscan : PyDict τ (PyDict PyStr (ScanEntry K))) (zfit : List (ZRow τ ρ)) (f : DetailsFile τ ρ K)
    (h : writeZscan f32 conv zscan zfit = .ok f) :
    f.targetids = bestIds conv zfit ∧ f.zbest = (zfit.map (narrowRow conv)).filter (fun r => decide (r.znum = 0)) ∧ f.targetids.Nodup ∧
    f.zfit = f.targetids.map (fun t => (t, (zfit.map (narrowRow conv)).filter (fun r => decide (r.targetid = t)))) ∧
    ∃ first d0, f.targetids.head? = some first ∧ zscan.get? first = some d0 ∧ f.zscan.keys = d0.keys ∧
      ∀ ft tab, (ft, tab) ∈ f.zscan → writeScanTable f32 zscan f.targetids first ft = .ok tab := by
  unfold writeZscan at h
  dsimp only at h
  change (match bestIds conv zfit with
    | [] => _
    | first :: _ => _ : Py (DetailsFile τ ρ K)) = _ at h
  cases hb : bestIds conv zfit with
  | nil => rw [hb] at h; cases h
  | cons first rest =>
    rw [hb] at h
    dsimp only at h
    obtain ⟨d0, h1, h⟩ := Except.bind_ok _ _ _ h
    obtain ⟨tables, h2, h⟩ := Except.bind_ok _ _ _ h
    obtain ⟨tabs, h3, h⟩ := Except.bind_ok _ _ _ h
    cases h
    have hids : ((zfit.map (narrowRow conv)).filter (fun r => decide (r.znum = 0))).map (·.targetid) = first :: rest := hb
    rw [hids] at h2 h3 ⊢
    obtain ⟨n1, _, n3⟩ := foldlM_links _ _ _ _ h3
    have hF := mapM_inv _ _ _ h2
    refine ⟨rfl, rfl, n1, by rw [n3]; simp, first, d0, rfl, (dict_get_ok _ _ _).1 h1, ?_, ?_⟩
    · apply forall₂_get?_dict
      apply hF.imp
      intro ft p hp
      obtain ⟨tab, _, hp⟩ := Except.bind_ok _ _ _ hp
      cases hp
      rfl
    · intro ft tab hm
      obtain ⟨i, hi, hget⟩ := List.getElem_of_mem hm
      have := (List.forall₂_iff_get.1 hF).2 i (by rw [(List.forall₂_iff_get.1 hF).1]; exact hi) hi
      simp only [List.get_eq_getElem] at this
      rw [hget] at this
      obtain ⟨tab', h5, h6⟩ := Except.bind_ok _ _ _ this
      cases h6
      exact h5

/-- one group: row `i` is the (rounded) scan of target `i` -/
theorem writeScanTable_row (f32 : K → K) (zscan : PyDict τ (PyDict PyStr (ScanEntry K))) (ids : List τ) (first : τ) (ft : PyStr) (tab : ScanTable K)
    (h : writeScanTable f32 zscan ids first ft = .ok tab) (i : Nat) (t : τ) (hi : ids[i]? = some t) :
    ∃ e e0, scanLookup zscan t ft = .ok e ∧ scanLookup zscan first ft = .ok e0 ∧
      scanRow tab i = .ok { redshifts := e0.redshifts, zchi2 := e.zchi2.map f32, penalty := e.penalty.map f32, zcoeff := e.zcoeff.map (fun r => r.map f32) } := by
  unfold writeScanTable at h
  obtain ⟨es, h1, h⟩ := Except.bind_ok _ _ _ h
  obtain ⟨a, h2, h⟩ := Except.bind_ok _ _ _ h
  obtain ⟨b, h3, h⟩ := Except.bind_ok _ _ _ h
  obtain ⟨c, h4, h⟩ := Except.bind_ok _ _ _ h
  obtain ⟨e0, h5, h⟩ := Except.bind_ok _ _ _ h
  cases h
  have hF := mapM_inv _ _ _ h1
  obtain ⟨hl, hall⟩ := List.forall₂_iff_get.1 hF
  obtain ⟨hi1, hi2⟩ := List.getElem?_eq_some_iff.1 hi
  have hie : i < es.length := hl ▸ hi1
  have hrow := hall i hi1 hie
  simp only [List.get_eq_getElem] at hrow
  rw [hi2] at hrow
  have h2 := vstack1_ok _ _ h2
  have h3 := vstack1_ok _ _ h3
  have h4 := vstack2_ok _ _ h4
  refine ⟨es[i], e0, hrow, h5, ?_⟩
  unfold scanRow
  dsimp only
  rw [h2, h3, h4]
  rw [(nth_ok _ i (es[i].zchi2.map f32)).2 (by simp [hie]), okBind, (nth_ok _ i (es[i].penalty.map f32)).2 (by simp [hie]), okBind,
    (nth_ok _ i (es[i].zcoeff.map (fun r => r.map f32))).2 (by simp [hie]), okBind]
  rfl

/-! ### reading -/

private theorem filter_all (ids : List τ) (l : List Nat) : l.filter (isSelected ids none) = l := by
  rw [List.filter_eq_self]
  intro i _
  rfl

/-- reading as a map followed by assignments -/
private theorem readZscan_eq (ord : List PyStr → List PyStr) (f : DetailsFile τ ρ K) (select : Option (List τ)) : readZscan ord f select = (do
    let _ ← (ord f.zscan.keys).mapM parseFulltype
    let ps ← ((List.range f.targetids.length).filter (isSelected f.targetids select)).mapM (fun i => do
        let t ← nth f.targetids i
        let e ← (ord f.zscan.keys).mapM (fun ft => do
          let tab ← f.zscan.get ft
          let r ← scanRow tab i
          return (ft, r))
        return (t, e))
    return ps.foldl (fun (d : PyDict τ (PyDict PyStr (ScanEntry K))) p => d.set p.1 p.2) []) := by
  unfold readZscan
  dsimp only
  congr 1
  funext _
  rw [foldlM_set_eq]

/-- the last assignment wins, also after filtering the keys -/
private theorem get?_foldl_filter {ν : Type} (ps : List (τ × ν)) (s : List τ) (t : τ) :
    PyDict.get? ((ps.filter (fun p => decide (p.1 ∈ s))).foldl (fun (d : PyDict τ ν) p => d.set p.1 p.2) []) t =
      if t ∈ s then PyDict.get? (ps.foldl (fun (d : PyDict τ ν) p => d.set p.1 p.2) []) t else none := by
  have e : ∀ (xs : List (τ × ν)) (d : PyDict τ ν), PyDict.get? (xs.foldl (fun (d : PyDict τ ν) p => d.set p.1 p.2) d) t = _ := fun xs d => PyDict.get?_foldl_set (fun p : τ × ν => p.1) (fun p => p.2) xs d t
  rw [e, e, ← List.filter_reverse]
  generalize ps.reverse = q
  simp only [PyDict.get?_nil, Option.or_none]
  induction q with
  | nil => simp
  | cons p q ih =>
    by_cases hp : p.1 = t
    · by_cases hs : t ∈ s
      · rw [List.filter_cons_of_pos (by simp [hp, hs])]
        simp [hp, hs]
      · rw [List.filter_cons_of_neg (by simp [hp, hs]), ih]
        simp [hs]
    · by_cases hs : p.1 ∈ s
      · rw [List.filter_cons_of_pos (by simp [hs]), List.find?_cons_of_neg (by simp [hp]), ih, List.find?_cons_of_neg (by simp [hp])]
      · rw [List.filter_cons_of_neg (by simp [hs]), ih, List.find?_cons_of_neg (by simp [hp])]

/-- **C31** reading selected targets returns for each of them exactly what the full read returns (nothing if the target is not in the file), and nothing for other targets. For every file that
can be read completely, and every selection. -/
theorem C31_selected_targets (ord : List PyStr → List PyStr) (f : DetailsFile τ ρ K) (d : PyDict τ (PyDict PyStr (ScanEntry K))) (h : readZscan ord f none = .ok d) (s : List τ) :
    ∃ ds, readZscan ord f (some s) = .ok ds ∧ ∀ t, ds.get? t = if t ∈ s then d.get? t else none := by
  rw [readZscan_eq] at h
  obtain ⟨u, h1, h⟩ := Except.bind_ok _ _ _ h
  obtain ⟨ps, h2, h⟩ := Except.bind_ok _ _ _ h
  cases h
  rw [filter_all] at h2
  have h3 := mapM_filter _ (isSelected f.targetids (some s)) (fun p => decide (p.1 ∈ s)) _ _ h2 (by
    intro i hi b hb
    obtain ⟨t, ht, hb⟩ := Except.bind_ok _ _ _ hb
    obtain ⟨e, _, hb⟩ := Except.bind_ok _ _ _ hb
    cases hb
    rw [nth_ok] at ht
    simp only [isSelected, ht])
  refine ⟨_, ?_, fun t => get?_foldl_filter ps s t⟩
  rw [readZscan_eq, h1, okBind, h3, okBind]
  rfl

/-- **C26** `read_zscan_redrock` returns the same dictionary as `read_zscan` (which also checks that the type names can be parsed). -/
theorem C26_same_readers (ord : List PyStr → List PyStr) (f : DetailsFile τ ρ K) (hparse : ∀ ft ∈ ord f.zscan.keys, ∃ p, parseFulltype ft = .ok p) :
    readZscanRedrock ord f = readZscan ord f none := by
  obtain ⟨u, hu⟩ : ∃ u, (ord f.zscan.keys).mapM parseFulltype = .ok u := by
    generalize ord f.zscan.keys = l at hparse ⊢
    induction l with
    | nil => exact ⟨[], rfl⟩
    | cons a l ih =>
      obtain ⟨p, hp⟩ := hparse a (by simp)
      obtain ⟨u, hu⟩ := ih (fun x hx => hparse x (by simp [hx]))
      exact ⟨p :: u, by rw [List.mapM_cons, hp, okBind, hu, okBind]; rfl⟩
  unfold readZscan
  dsimp only
  rw [hu, okBind, filter_all]
  unfold readZscanRedrock
  dsimp only
  rw [List.zipIdx_eq_zip_range']
  have key : ∀ (n : Nat) (l : List τ) (d : PyDict τ (PyDict PyStr (ScanEntry K))), (∀ i, i < l.length → f.targetids[n + i]? = l[i]?) →
      (l.zip (List.range' n l.length)).foldlM (fun (d : PyDict τ (PyDict PyStr (ScanEntry K))) ti => do
        let e ← (ord f.zscan.keys).mapM (fun ft => do
          let tab ← f.zscan.get ft
          let r ← scanRow tab ti.2
          return (ft, r))
        return d.set ti.1 e) d = (List.range' n l.length).foldlM (fun (d : PyDict τ (PyDict PyStr (ScanEntry K))) i => do
        let t ← nth f.targetids i
        let e ← (ord f.zscan.keys).mapM (fun ft => do
          let tab ← f.zscan.get ft
          let r ← scanRow tab i
          return (ft, r))
        return d.set t e) d := by
    intro n l
    induction l generalizing n with
    | nil => intro d _; rfl
    | cons a l ih =>
      intro d h
      rw [List.length_cons, List.range'_succ, List.zip_cons_cons, List.foldlM_cons, List.foldlM_cons]
      have h0 := h 0 (by simp)
      rw [(nth_ok f.targetids n a).2 (by simpa using h0), okBind]
      cases ((ord f.zscan.keys).mapM (fun ft => do
          let tab ← f.zscan.get ft
          let r ← scanRow tab n
          return (ft, r)) : Py _) with
      | error e => rfl
      | ok e =>
        rw [okBind]
        apply ih
        intro i hi
        have := h (i + 1) (by simp; omega)
        rw [show n + 1 + i = n + (i + 1) by omega, this]
        simp
  have := key 0 f.targetids [] (fun i _ => by simp)
  rw [List.range_eq_range']
  exact this

/-- **C26** round trip. If `write_zscan` succeeds, then a full read of the file succeeds (for type names that can be parsed); it holds exactly the targets with a best fit, each with exactly
the template types of the first one; and for each target and type the redshifts (of the first target, which all targets share) and the float32-rounded zchi2, penalty and
coefficients of that same target and type. -/
theorem C26_round_trip (f32 : K → K) (conv : ρ → ρ) (zscan : PyDict τ (PyDict PyStr (ScanEntry K))) (zfit : List (ZRow τ ρ)) (f : DetailsFile τ ρ K)
    (ord : List PyStr → List PyStr) (hord : ∀ l, (ord l).Perm l) (h : writeZscan f32 conv zscan zfit = .ok f)
    (hnd : ∀ t d, zscan.get? t = some d → d.keys.Nodup) (hparse : ∀ t d, zscan.get? t = some d → ∀ ft ∈ d.keys, ∃ p, parseFulltype ft = .ok p) :
    ∃ d first d0, readZscan ord f none = .ok d ∧ f.targetids.head? = some first ∧ zscan.get? first = some d0 ∧
      (∀ t, t ∉ f.targetids → d.get? t = none) ∧
      ∀ t ∈ f.targetids, ∃ dt, d.get? t = some dt ∧ (∀ ft, ft ∉ d0.keys → dt.get? ft = none) ∧
        ∀ ft ∈ d0.keys, ∃ st e e0, zscan.get? t = some st ∧ st.get? ft = some e ∧ d0.get? ft = some e0 ∧
          dt.get? ft = some { redshifts := e0.redshifts, zchi2 := e.zchi2.map f32, penalty := e.penalty.map f32, zcoeff := e.zcoeff.map (fun r => r.map f32) } := by
  obtain ⟨hids, _, hnodup, _, first, d0, hfirst, hd0, hkeys, htab⟩ := writeZscan_inv f32 conv zscan zfit f h
  have hkn : f.zscan.keys.Nodup := by rw [hkeys]; exact hnd _ _ hd0
  have hmem : ∀ ft, ft ∈ ord f.zscan.keys ↔ ft ∈ d0.keys := fun ft => by rw [(hord _).mem_iff, hkeys]
  obtain ⟨u, hu⟩ : ∃ u, (ord f.zscan.keys).mapM parseFulltype = .ok u := by
    have : ∀ ft ∈ ord f.zscan.keys, ∃ p, parseFulltype ft = .ok p := fun ft hft => hparse _ _ hd0 ft ((hmem ft).1 hft)
    generalize ord f.zscan.keys = l at this ⊢
    induction l with
    | nil => exact ⟨[], rfl⟩
    | cons a l ih =>
      obtain ⟨p, hp⟩ := this a (by simp)
      obtain ⟨u, hu⟩ := ih (fun x hx => this x (by simp [hx]))
      exact ⟨p :: u, by rw [List.mapM_cons, hp, okBind, hu, okBind]; rfl⟩
  -- the entry of one type and one row
  have hentry : ∀ ft ∈ ord f.zscan.keys, ∀ i t, f.targetids[i]? = some t → ∃ st e e0, zscan.get? t = some st ∧ st.get? ft = some e ∧ d0.get? ft = some e0 ∧
      (do
        let tab ← f.zscan.get ft
        let r ← scanRow tab i
        return (ft, r) : Py (PyStr × ScanEntry K)) =
        .ok (ft, { redshifts := e0.redshifts, zchi2 := e.zchi2.map f32, penalty := e.penalty.map f32, zcoeff := e.zcoeff.map (fun r => r.map f32) }) := by
    intro ft hft i t hi
    have hft' : ft ∈ f.zscan.keys := by rw [hkeys]; exact (hmem ft).1 hft
    obtain ⟨tab, ht⟩ := Option.isSome_iff_exists.1 ((PyDict.mem_keys_iff _ _).1 hft')
    obtain ⟨e, e0, l1, l2, l3⟩ := writeScanTable_row f32 zscan f.targetids first ft tab (htab ft tab (PyDict.mem_of_get? _ _ _ ht)) i t hi
    obtain ⟨st, q1, q2⟩ := Except.bind_ok _ _ _ l1
    obtain ⟨st0, q3, q4⟩ := Except.bind_ok _ _ _ l2
    rw [dict_get_ok] at q1 q2 q3 q4
    rw [hd0] at q3
    cases q3
    refine ⟨st, e, e0, q1, q2, q4, ?_⟩
    rw [(dict_get_ok _ _ _).2 ht, okBind, l3, okBind]
    rfl
  -- all rows
  have hrow : ∀ i t, f.targetids[i]? = some t → ∃ dt, (ord f.zscan.keys).mapM (fun ft => do
          let tab ← f.zscan.get ft
          let r ← scanRow tab i
          return (ft, r)) = .ok dt ∧ (∀ ft, ft ∉ d0.keys → PyDict.get? dt ft = none) ∧
        ∀ ft ∈ d0.keys, ∃ st e e0, zscan.get? t = some st ∧ st.get? ft = some e ∧ d0.get? ft = some e0 ∧
          PyDict.get? dt ft = some { redshifts := e0.redshifts, zchi2 := e.zchi2.map f32, penalty := e.penalty.map f32, zcoeff := e.zcoeff.map (fun r => r.map f32) } := by
    intro i t hi
    have : ∀ ft ∈ ord f.zscan.keys, ∃ r, (do
        let tab ← f.zscan.get ft
        let r ← scanRow tab i
        return (ft, r) : Py (PyStr × ScanEntry K)) = .ok r ∧ r.1 = ft ∧ ∃ st e e0, zscan.get? t = some st ∧ st.get? ft = some e ∧ d0.get? ft = some e0 ∧
          r.2 = { redshifts := e0.redshifts, zchi2 := e.zchi2.map f32, penalty := e.penalty.map f32, zcoeff := e.zcoeff.map (fun r => r.map f32) } := by
      intro ft hft
      obtain ⟨st, e, e0, a, b, c, d⟩ := hentry ft hft i t hi
      exact ⟨_, d, rfl, st, e, e0, a, b, c, rfl⟩
    obtain ⟨dt, g1, g2⟩ := mapM_forall₂ _ _ _ this
    have hdk : PyDict.keys dt = ord f.zscan.keys := forall₂_get?_dict _ _ (g2.imp (fun _ _ h => h.1))
    have hdn : (PyDict.keys dt).Nodup := by rw [hdk]; exact (hord _).nodup_iff.2 hkn
    refine ⟨dt, g1, ?_, ?_⟩
    · intro ft hft
      rw [← Option.not_isSome_iff_eq_none, ← PyDict.mem_keys_iff, hdk, hmem]
      exact hft
    · intro ft hft
      obtain ⟨j, hj, hget⟩ := List.getElem_of_mem ((hmem ft).2 hft)
      obtain ⟨gl, gall⟩ := List.forall₂_iff_get.1 g2
      obtain ⟨r1, st, e, e0, a, b, c, r2⟩ := gall j hj (by omega)
      simp only [List.get_eq_getElem] at r1 a b c r2
      rw [hget] at r1 b c
      refine ⟨st, e, e0, a, b, c, ?_⟩
      apply PyDict.get?_of_mem _ hdn
      rw [← r2, ← r1]
      exact List.getElem_mem _
  have hall : ∀ i ∈ List.range f.targetids.length, ∃ p : τ × PyDict PyStr (ScanEntry K), (do
        let t ← nth f.targetids i
        let e ← (ord f.zscan.keys).mapM (fun ft => do
          let tab ← f.zscan.get ft
          let r ← scanRow tab i
          return (ft, r))
        return (t, e) : Py (τ × PyDict PyStr (ScanEntry K))) = .ok p ∧ f.targetids[i]? = some p.1 ∧ (∀ ft, ft ∉ d0.keys → PyDict.get? p.2 ft = none) ∧
        ∀ ft ∈ d0.keys, ∃ st e e0, zscan.get? p.1 = some st ∧ st.get? ft = some e ∧ d0.get? ft = some e0 ∧
          PyDict.get? p.2 ft = some { redshifts := e0.redshifts, zchi2 := e.zchi2.map f32, penalty := e.penalty.map f32, zcoeff := e.zcoeff.map (fun r => r.map f32) } := by
    intro i hi
    rw [List.mem_range] at hi
    have ht : f.targetids[i]? = some f.targetids[i] := List.getElem?_eq_getElem hi
    obtain ⟨dt, a, b, c⟩ := hrow i _ ht
    refine ⟨(f.targetids[i], dt), ?_, ht, b, c⟩
    rw [(nth_ok _ _ _).2 ht, okBind, a, okBind]
    rfl
  obtain ⟨ps, g1, g2⟩ := mapM_forall₂ _ _ _ hall
  obtain ⟨gl, gall⟩ := List.forall₂_iff_get.1 g2
  rw [List.length_range] at gl
  have hpsk : ps.map (·.1) = f.targetids := by
    apply List.ext_getElem?
    intro i
    rw [List.getElem?_map]
    by_cases hi : i < f.targetids.length
    · obtain ⟨k1, _⟩ := gall i (by rw [List.length_range]; exact hi) (by omega)
      simp only [List.get_eq_getElem, List.getElem_range] at k1
      rw [List.getElem?_eq_getElem (by omega : i < ps.length), k1]
      rfl
    · rw [List.getElem?_eq_none (by omega), List.getElem?_eq_none (by omega)]
      rfl
  have hfold : ∀ (ps : List (τ × PyDict PyStr (ScanEntry K))), (ps.map (·.1)).Nodup → ∀ acc : PyDict τ (PyDict PyStr (ScanEntry K)), (∀ p ∈ ps, PyDict.get? acc p.1 = none) →
      ps.foldl (fun (d : PyDict τ (PyDict PyStr (ScanEntry K))) p => d.set p.1 p.2) acc = acc ++ ps := by
    intro ps
    induction ps with
    | nil => intro _ acc _; simp
    | cons p ps ih =>
      intro hn acc hacc
      rw [List.map_cons, List.nodup_cons] at hn
      have hset : acc.set p.1 p.2 = acc ++ [p] := by
        unfold PyDict.set
        rw [if_neg]
        rw [PyDict.any_iff_get?, hacc p (by simp)]
        simp
      rw [List.foldl_cons, hset, ih hn.2]
      · simp
      · intro q hq
        have hne : p.1 ≠ q.1 := fun e => hn.1 (List.mem_map.2 ⟨q, hq, e.symm⟩)
        rw [PyDict.get?_append, hacc q (by simp [hq])]
        simp [PyDict.get?, hne]
  refine ⟨ps, first, d0, ?_, hfirst, hd0, ?_, ?_⟩
  · rw [readZscan_eq, hu, okBind, filter_all, g1, okBind]
    show Except.ok _ = _
    rw [hfold ps (by rw [hpsk]; exact hnodup) [] (fun _ _ => rfl)]
    rfl
  · intro t ht
    rw [← Option.not_isSome_iff_eq_none, ← PyDict.mem_keys_iff]
    show t ∉ ps.map (·.1)
    rw [hpsk]; exact ht
  · intro t ht
    obtain ⟨i, hi, hget⟩ := List.getElem_of_mem ht
    obtain ⟨k1, k2, k3⟩ := gall i (by rw [List.length_range]; exact hi) (by omega)
    simp only [List.get_eq_getElem, List.getElem_range] at k1 k2 k3
    rw [List.getElem?_eq_getElem hi, hget] at k1
    have k1 := Option.some.inj k1
    refine ⟨(ps[i]'(by omega)).2, ?_, k2, ?_⟩
    · apply PyDict.get?_of_mem
      · show (ps.map (·.1)).Nodup
        rw [hpsk]; exact hnodup
      · rw [k1]; exact List.getElem_mem _
    · rw [k1]; exact k3

/-! ### one best fit per target (C27) -/

private theorem toInt8_natCast (i : Nat) : toInt8 (i : Int) = 0 ↔ i % 256 = 0 := by unfold toInt8; omega

private theorem count_wrapped (n : Nat) : ((List.range n).filter (fun i : Nat => decide (toInt8 (i : Int) = 0))).length = (n + 255) / 256 := by
  induction n with
  | zero => rfl
  | succ n ih =>
    rw [List.range_succ, List.filter_append, List.length_append, ih]
    by_cases h : n % 256 = 0
    · rw [List.filter_cons_of_pos (by simpa [toInt8_natCast] using h)]
      simp; omega
    · rw [List.filter_cons_of_neg (by simpa [toInt8_natCast] using h)]
      simp; omega

/-- Specification: the candidates of target `t` are numbered 0, 1, ..., n-1 (as `zfind` numbers them). -/
def Numbered (zfit : List (ZRow τ ρ)) (t : τ) (n : Nat) : Prop := (zfit.filter (fun r => decide (r.targetid = t))).map (·.znum) = (List.range n).map (fun (i : Nat) => (i : Int))

private theorem bestIds_count (conv : ρ → ρ) (zfit : List (ZRow τ ρ)) (t : τ) (n : Nat) (h : Numbered zfit t n) : (bestIds conv zfit).count t = (n + 255) / 256 := by
  rw [← count_wrapped n]
  have e1 : (bestIds conv zfit).count t = (((zfit.filter (fun r => decide (r.targetid = t))).map (·.znum)).filter (fun z => decide (toInt8 z = 0))).length := by
    clear h
    unfold bestIds
    induction zfit with
    | nil => rfl
    | cons r l ih =>
      by_cases hz : toInt8 r.znum = 0 <;> by_cases ht : r.targetid = t
      · rw [List.map_cons, List.filter_cons_of_pos (show _ by show decide (toInt8 r.znum = 0) = true; exact decide_eq_true hz), List.filter_cons_of_pos (by simpa using ht), List.map_cons, List.map_cons,
          List.filter_cons_of_pos (by simpa using hz), List.length_cons, ← ih, List.count_cons]
        simp [narrowRow, ht]
      · rw [List.map_cons, List.filter_cons_of_pos (show _ by show decide (toInt8 r.znum = 0) = true; exact decide_eq_true hz), List.filter_cons_of_neg (by simpa using ht), List.map_cons, ← ih, List.count_cons]
        simp [narrowRow, ht]
      · rw [List.map_cons, List.filter_cons_of_neg (show _ by show ¬ (decide (toInt8 r.znum = 0) = true); simpa using hz), List.filter_cons_of_pos (by simpa using ht), List.map_cons,
          List.filter_cons_of_neg (by simpa using hz), ← ih]
      · rw [List.map_cons, List.filter_cons_of_neg (show _ by show ¬ (decide (toInt8 r.znum = 0) = true); simpa using hz), List.filter_cons_of_neg (by simpa using ht), ← ih]
  rw [e1, h, List.filter_map, List.length_map]
  rfl

/-- **C27** (number of rows) the number of rows of target `t` that `write_zscan` takes for best fits is `ceil(n/256)`, where `n` is its number of candidates: exactly one for 1 to 256
candidates. `hsel` says that `zbest` is the table of the rows whose `znum`, converted to int8, is 0. -/
theorem C27_exactly_one_iff (conv : ρ → ρ) (zfit : List (ZRow τ ρ)) (t : τ) (n : Nat) (h : Numbered zfit t n) (zbest : List (ZRow τ ρ))
    (hsel : zbest = (zfit.map (narrowRow conv)).filter (fun r => decide (r.znum = 0))) :
    (zbest.map (·.targetid)).count t = (n + 255) / 256 ∧ ((zbest.map (·.targetid)).count t = 1 ↔ 1 ≤ n ∧ n ≤ 256) := by
  have h1 : (zbest.map (·.targetid)).count t = (n + 255) / 256 := by
    rw [hsel]; exact bestIds_count conv zfit t n h
  refine ⟨h1, ?_⟩
  rw [h1]
  omega

/-- **C27** if any target has more than 256 candidates, `write_zscan` fails. -/
theorem C27_more_than_256_fails (f32 : K → K) (conv : ρ → ρ) (zscan : PyDict τ (PyDict PyStr (ScanEntry K))) (zfit : List (ZRow τ ρ)) (t : τ) (n : Nat) (h : Numbered zfit t n) (hn : 256 < n) :
    ∃ e, writeZscan f32 conv zscan zfit = .error e := by
  cases hw : writeZscan f32 conv zscan zfit with
  | error e => exact ⟨e, rfl⟩
  | ok f =>
    obtain ⟨h1, _, h3, _⟩ := writeZscan_inv f32 conv zscan zfit f hw
    have := List.nodup_iff_count_le_one.1 h3 t
    rw [h1, bestIds_count conv zfit t n h] at this
    omega

/-- **C27** otherwise the best fits in the file are exactly the candidates number 0, one for every target of the table, in the order of the table. -/
theorem C27_at_most_256 (f32 : K → K) (conv : ρ → ρ) (zscan : PyDict τ (PyDict PyStr (ScanEntry K))) (zfit : List (ZRow τ ρ)) (f : DetailsFile τ ρ K)
    (hw : writeZscan f32 conv zscan zfit = .ok f) (h : ∀ t ∈ zfit.map (·.targetid), ∃ n, n ≤ 256 ∧ Numbered zfit t n) :
    f.zbest = (zfit.filter (fun r => decide (r.znum = 0))).map (storedRow conv) ∧ f.targetids = (zfit.filter (fun r => decide (r.znum = 0))).map (·.targetid) ∧
      ∀ t ∈ zfit.map (·.targetid), (f.zbest.map (·.targetid)).count t = 1 := by
  obtain ⟨h1, h2, h3, _⟩ := writeZscan_inv f32 conv zscan zfit f hw
  have hz : ∀ r ∈ zfit, (toInt8 r.znum = 0 ↔ r.znum = 0) := by
    intro r hr
    obtain ⟨n, hn, hN⟩ := h r.targetid (List.mem_map_of_mem hr)
    have hm : r.znum ∈ (zfit.filter (fun r' => decide (r'.targetid = r.targetid))).map (·.znum) := List.mem_map_of_mem (List.mem_filter.2 ⟨hr, by simp⟩)
    rw [hN] at hm
    obtain ⟨i, hi, he⟩ := List.mem_map.1 hm
    rw [List.mem_range] at hi
    rw [← he, toInt8_natCast]
    omega
  have hb : f.zbest = (zfit.filter (fun r => decide (r.znum = 0))).map (narrowRow conv) := by
    rw [h2, List.filter_map]
    congr 1
    apply List.filter_congr
    intro r hr
    exact decide_eq_decide.2 (hz r hr)
  have hids : f.targetids = (zfit.filter (fun r => decide (r.znum = 0))).map (·.targetid) := by
    have : f.targetids = f.zbest.map (·.targetid) := by rw [h1, h2]; rfl
    rw [this, hb, List.map_map]
    rfl
  refine ⟨hb, hids, ?_⟩
  intro t ht
  obtain ⟨n, hn, hN⟩ := h t ht
  have hpos : 1 ≤ n := by
    obtain ⟨r, hr, rfl⟩ := List.mem_map.1 ht
    have hm : r.znum ∈ (zfit.filter (fun r' => decide (r'.targetid = r.targetid))).map (·.znum) := List.mem_map_of_mem (List.mem_filter.2 ⟨hr, by simp⟩)
    rw [hN] at hm
    obtain ⟨i, hi, _⟩ := List.mem_map.1 hm
    rw [List.mem_range] at hi
    omega
  exact (C27_exactly_one_iff conv zfit t n hN f.zbest h2).2.2 ⟨hpos, hn⟩

/-- **C26** (the write succeeds) for a non-empty table with at most 256 numbered candidates per target, if every target has been scanned with the types of every other one, on arrays of the same shape. -/
theorem C26_write_succeeds (f32 : K → K) (conv : ρ → ρ) (zscan : PyDict τ (PyDict PyStr (ScanEntry K))) (zfit : List (ZRow τ ρ)) (hne : zfit ≠ [])
    (h : ∀ t ∈ zfit.map (·.targetid), ∃ n, n ≤ 256 ∧ Numbered zfit t n) (types : List PyStr) (nz : PyStr → Nat) (shape : PyStr → List Nat)
    (hscan : ∀ t ∈ zfit.map (·.targetid), ∃ d, zscan.get? t = some d ∧ d.keys = types ∧
      ∀ ft ∈ types, ∃ e, d.get? ft = some e ∧ e.zchi2.length = nz ft ∧ e.penalty.length = nz ft ∧ e.zcoeff.map List.length = shape ft) :
    ∃ f, writeZscan f32 conv zscan zfit = .ok f := by
  have hsub : ∀ t ∈ bestIds conv zfit, t ∈ zfit.map (·.targetid) := by
    intro t ht
    unfold bestIds at ht
    obtain ⟨r, hr, rfl⟩ := List.mem_map.1 ht
    obtain ⟨r', hr', rfl⟩ := List.mem_map.1 (List.mem_filter.1 hr).1
    exact List.mem_map.2 ⟨r', hr', rfl⟩
  have hcount : ∀ t ∈ zfit.map (·.targetid), (bestIds conv zfit).count t = 1 := by
    intro t ht
    obtain ⟨n, hn, hN⟩ := h t ht
    have hpos : 1 ≤ n := by
      obtain ⟨r, hr, rfl⟩ := List.mem_map.1 ht
      have hm : r.znum ∈ (zfit.filter (fun r' => decide (r'.targetid = r.targetid))).map (·.znum) := List.mem_map_of_mem (List.mem_filter.2 ⟨hr, by simp⟩)
      rw [hN] at hm
      obtain ⟨i, hi, _⟩ := List.mem_map.1 hm
      rw [List.mem_range] at hi
      omega
    rw [bestIds_count conv zfit t n hN]
    omega
  have hnodup : (bestIds conv zfit).Nodup := by
    rw [List.nodup_iff_count_le_one]
    intro t
    by_cases ht : t ∈ zfit.map (·.targetid)
    · rw [hcount t ht]
    · rw [List.count_eq_zero.2 (fun hc => ht (hsub t hc))]; omega
  obtain ⟨first, rest, hb⟩ : ∃ first rest, bestIds conv zfit = first :: rest := by
    apply List.exists_cons_of_ne_nil
    intro e
    obtain ⟨r, l, hr⟩ := List.exists_cons_of_ne_nil hne
    have := hcount r.targetid (by rw [hr]; simp)
    rw [e] at this
    simp at this
  have hfirst : first ∈ zfit.map (·.targetid) := hsub first (by rw [hb]; simp)
  obtain ⟨d0, hd0, hk0, he0⟩ := hscan first hfirst
  have htab : ∀ ft ∈ d0.keys, ∃ p : PyStr × ScanTable K, (do
      let t ← writeScanTable f32 zscan (bestIds conv zfit) first ft
      return (ft, t) : Py (PyStr × ScanTable K)) = .ok p ∧ True := by
    intro ft hft
    rw [hk0] at hft
    have hes : ∀ t ∈ bestIds conv zfit, ∃ e, scanLookup zscan t ft = .ok e ∧ (e.zchi2.length = nz ft ∧ e.penalty.length = nz ft ∧ e.zcoeff.map List.length = shape ft) := by
      intro t ht
      obtain ⟨d, q1, _, q3⟩ := hscan t (hsub t ht)
      obtain ⟨e, q4, q5⟩ := q3 ft hft
      refine ⟨e, ?_, q5⟩
      unfold scanLookup
      rw [(dict_get_ok _ _ _).2 q1, okBind]
      exact (dict_get_ok _ _ _).2 q4
    obtain ⟨es, g1, g2⟩ := mapM_forall₂ _ _ _ hes
    have hesne : es ≠ [] := by
      rintro rfl
      have := g2.length_eq
      rw [hb] at this
      simp at this
    have hshape : ∀ e ∈ es, e.zchi2.length = nz ft ∧ e.penalty.length = nz ft ∧ e.zcoeff.map List.length = shape ft := by
      intro e he
      obtain ⟨i, hi, hget⟩ := List.getElem_of_mem he
      have := (List.forall₂_iff_get.1 g2).2 i (by rw [g2.length_eq]; exact hi) hi
      simp only [List.get_eq_getElem] at this
      rw [hget] at this
      exact this
    obtain ⟨e1, l1, hcons⟩ := List.exists_cons_of_ne_nil hesne
    have v1 : ∀ (m : Nat) (g : ScanEntry K → List K), (∀ e ∈ es, (g e).length = m) → vstack1 (es.map (fun e => (g e).map f32)) = .ok (es.map (fun e => (g e).map f32)) := by
      intro m g hg
      rw [hcons] at hg ⊢
      unfold vstack1
      rw [List.map_cons]
      dsimp only
      rw [if_pos]
      rw [← List.map_cons (f := fun e => (g e).map f32)]
      rw [List.all_eq_true]
      intro x hx
      obtain ⟨e, he, rfl⟩ := List.mem_map.1 hx
      simp [hg e he, hg e1 (by simp)]
    have v2 : vstack2 (es.map (fun e => e.zcoeff.map (fun r => r.map f32))) = .ok (es.map (fun e => e.zcoeff.map (fun r => r.map f32))) := by
      rw [hcons] at hshape ⊢
      unfold vstack2
      rw [List.map_cons]
      dsimp only
      rw [if_pos]
      rw [← List.map_cons (f := fun e : ScanEntry K => e.zcoeff.map (fun r => r.map f32))]
      rw [List.all_eq_true]
      intro x hx
      obtain ⟨e, he, rfl⟩ := List.mem_map.1 hx
      have a := (hshape e he).2.2
      have b := (hshape e1 (by simp)).2.2
      have c : ∀ z : List (List K), (z.map (fun r => r.map f32)).map List.length = z.map List.length := by
        intro z
        rw [List.map_map]
        apply List.map_congr_left
        intro r _
        simp
      simp only [c, a, b, decide_true]
    obtain ⟨e0, q4, _⟩ := he0 ft hft
    have hl0 : scanLookup zscan first ft = .ok e0 := by
      unfold scanLookup
      rw [(dict_get_ok _ _ _).2 hd0, okBind]
      exact (dict_get_ok _ _ _).2 q4
    refine ⟨(ft, ⟨e0.redshifts, es.map (fun e => e.zchi2.map f32), es.map (fun e => e.penalty.map f32), es.map (fun e => e.zcoeff.map (fun r => r.map f32))⟩), ?_, trivial⟩
    unfold writeScanTable
    rw [g1, okBind, v1 (nz ft) (·.zchi2) (fun e he => (hshape e he).1), okBind, v1 (nz ft) (·.penalty) (fun e he => (hshape e he).2.1), okBind, v2, okBind, hl0, okBind]
    rfl
  obtain ⟨tables, t1, _⟩ := mapM_forall₂ _ _ _ htab
  refine ⟨⟨bestIds conv zfit, (zfit.map (narrowRow conv)).filter (fun r => decide (r.znum = 0)), tables,
    (bestIds conv zfit).map (fun t => (t, (zfit.map (narrowRow conv)).filter (fun r => decide (r.targetid = t))))⟩, ?_⟩
  unfold writeZscan
  dsimp only
  have hids : ((zfit.map (narrowRow conv)).filter (fun r => decide (r.znum = 0))).map (·.targetid) = first :: rest := hb
  rw [hids]
  dsimp only
  rw [hb] at t1 hnodup ⊢
  rw [(dict_get_ok _ _ _).2 hd0, okBind, t1, okBind, foldlM_links_ok _ _ _ hnodup (fun _ _ => rfl), okBind]
  simp
  rfl

/-! ### the zfit tables -/

/-- **C26** the tables of redshift candidates: `read_zfit` returns, target by target in the order of the best fits, the (narrowed) rows of each target in their order. -/
theorem C26_zfit_round_trip (f32 : K → K) (conv : ρ → ρ) (zscan : PyDict τ (PyDict PyStr (ScanEntry K))) (zfit : List (ZRow τ ρ)) (f : DetailsFile τ ρ K)
    (hw : writeZscan f32 conv zscan zfit = .ok f) :
    readZfit f none = .ok (f.targetids.flatMap (fun t => (zfit.map (storedRow conv)).filter (fun r => decide (r.targetid = t)))) := by
  obtain ⟨h1, h2, h3, h4, first, d0, hf, _⟩ := writeZscan_inv f32 conv zscan zfit f hw
  unfold readZfit
  have : ∀ t ∈ f.targetids, f.zfit.get t = .ok ((zfit.map (narrowRow conv)).filter (fun r => decide (r.targetid = t))) := by
    intro t ht
    rw [dict_get_ok, h4, get?_map_pair, if_pos ht]
  dsimp only
  rw [Option.getD_none, mapM_Except_ok _ _ _ this, okBind, List.flatMap]
  cases hc : f.targetids with
  | nil => rw [hc] at hf; cases hf
  | cons a l => rfl

/-- **C31** selected candidates: for a non-empty selection of targets of the file, the rows of each selected target, in the order of the selection; a selected target that is not in the file
raises `KeyError` - here, unlike in the scan part, unknown targets are not ignored. -/
theorem C31_selected_zfit (f32 : K → K) (conv : ρ → ρ) (zscan : PyDict τ (PyDict PyStr (ScanEntry K))) (zfit : List (ZRow τ ρ)) (f : DetailsFile τ ρ K)
    (hw : writeZscan f32 conv zscan zfit = .ok f) (s : List τ) (hs : s ≠ []) :
    ((∀ t ∈ s, t ∈ f.targetids) → readZfit f (some s) = .ok (s.flatMap (fun t => (zfit.map (storedRow conv)).filter (fun r => decide (r.targetid = t))))) ∧
    ((∃ t ∈ s, t ∉ f.targetids) → readZfit f (some s) = .error .keyError) := by
  obtain ⟨h1, h2, h3, h4, first, d0, hf, _⟩ := writeZscan_inv f32 conv zscan zfit f hw
  constructor
  · intro hsub
    unfold readZfit
    have : ∀ t ∈ s, f.zfit.get t = .ok ((zfit.map (narrowRow conv)).filter (fun r => decide (r.targetid = t))) := by
      intro t ht
      rw [dict_get_ok, h4, get?_map_pair, if_pos (hsub t ht)]
    dsimp only
    rw [Option.getD_some, mapM_Except_ok _ _ _ this, okBind, List.flatMap]
    cases s with
    | nil => exact absurd rfl hs
    | cons a l => rfl
  · rintro ⟨t, ht, hnot⟩
    unfold readZfit
    dsimp only
    rw [Option.getD_some, mapM_Except_error (fun t => f.zfit.get t) s .keyError ?_ t ht ?_]
    · rfl
    · intro a _ e he
      unfold PyDict.get at he
      cases hq : PyDict.get? f.zfit a <;> rw [hq] at he <;> cases he
      rfl
    · refine ⟨.keyError, ?_⟩
      unfold PyDict.get
      rw [h4, get?_map_pair, if_neg hnot]

/-! ### reading everything (C65) -/

private theorem mem_groups {α : Type} [DecidableEq α] (l : List α) (g : α) : g ∈ l.reverse.dedup.reverse ↔ g ∈ l := by simp

/-- the candidates that are stored in the file -/
private theorem mem_stored (f : DetailsFile τ ρ K) (zf : List (ZRow τ ρ)) (r : ZRow τ ρ) : r ∈ f.targetids.flatMap (fun t => zf.filter (fun r => decide (r.targetid = t))) ↔
    r ∈ zf ∧ r.targetid ∈ f.targetids := by
  simp only [List.mem_flatMap, List.mem_filter, decide_eq_true_eq]
  constructor
  · rintro ⟨t, h1, h2, h3⟩; exact ⟨h2, h3 ▸ h1⟩
  · rintro ⟨h1, h2⟩; exact ⟨_, h2, h1, rfl⟩

/-- **C65** refuted: a details file with a candidate whose full type (built from its SPECTYPE and SUBTYPE) is not one of the scanned template types cannot be read by `read_zscan`: `KeyError`. This is the
case of every archetype run (the subtype is that of the archetype) and of every spectype that was cut to 6 characters. -/
theorem C65_unreadable_details (f32 : K → K) (conv : ρ → ρ) (zscan : PyDict τ (PyDict PyStr (ScanEntry K))) (zfit : List (ZRow τ ρ)) (f : DetailsFile τ ρ K)
    (ord : List PyStr → List PyStr) (hord : ∀ l, (ord l).Perm l) (h : writeZscan f32 conv zscan zfit = .ok f)
    (hnd : ∀ t d, zscan.get? t = some d → d.keys.Nodup) (hparse : ∀ t d, zscan.get? t = some d → ∀ ft ∈ d.keys, ∃ p, parseFulltype ft = .ok p)
    (r : ZRow τ ρ) (hr : r ∈ zfit) (hrt : r.targetid ∈ f.targetids) (hty : ∀ t d, zscan.get? t = some d → makeFulltype r.spectype (some r.subtype) ∉ d.keys) :
    readZscanFull ord f none = .error .keyError := by
  obtain ⟨d, first, d0, h1, h2, h3, h4, h5⟩ := C26_round_trip f32 conv zscan zfit f ord hord h hnd hparse
  have hz := C26_zfit_round_trip f32 conv zscan zfit f h
  rw [storedRow_eq] at hz
  unfold readZscanFull
  rw [h1, okBind, hz, okBind]
  have hmem : narrowRow conv r ∈ f.targetids.flatMap (fun t => (zfit.map (narrowRow conv)).filter (fun r => decide (r.targetid = t))) :=
    (mem_stored f _ _).2 ⟨List.mem_map_of_mem hr, hrt⟩
  generalize f.targetids.flatMap (fun t => (zfit.map (narrowRow conv)).filter (fun r => decide (r.targetid = t))) = zf at hmem
  have herr : attachZfit d zf = .error .keyError := by
    unfold attachZfit
    rw [foldlM_set_eq]
    rw [mapM_Except_error _ _ .keyError ?_ (r.targetid, r.spectype, r.subtype) ?_ ?_]
    · rfl
    · intro g _ e he
      cases hk : attachKey d g with
      | ok k => rw [hk] at he; cases he
      | error e' =>
        rw [hk] at he
        cases he
        unfold attachKey at hk
        cases hq : PyDict.get? d g.1 with
        | none => unfold PyDict.get at hk; rw [hq] at hk; cases hk; rfl
        | some dt =>
          rw [(dict_get_ok _ _ _).2 hq, okBind] at hk
          cases hq2 : PyDict.get? dt (makeFulltype g.2.1 (some g.2.2)) with
          | none => unfold PyDict.get at hk; rw [hq2] at hk; cases hk; rfl
          | some e => rw [(dict_get_ok _ _ _).2 hq2, okBind] at hk; cases hk
    · rw [mem_groups]
      exact List.mem_map.2 ⟨narrowRow conv r, hmem, rfl⟩
    · refine ⟨.keyError, ?_⟩
      obtain ⟨dt, q1, q2, _⟩ := h5 _ hrt
      have : attachKey d (r.targetid, r.spectype, r.subtype) = .error .keyError := by
        unfold attachKey
        rw [(dict_get_ok _ _ _).2 q1, okBind]
        unfold PyDict.get
        rw [q2 _ (hty _ _ h3)]
        rfl
      rw [this]
      rfl
  rw [herr]
  rfl

/-- **C65** what holds: if the full type of every candidate is one of the scanned types, `read_zscan` succeeds, and the table attached to (target, type) holds exactly the
candidates of that target and type, in their order. (`hinj`: candidates whose full types agree have the same SPECTYPE and SUBTYPE, see C28.) -/
theorem C65_readable_partial (f32 : K → K) (conv : ρ → ρ) (zscan : PyDict τ (PyDict PyStr (ScanEntry K))) (zfit : List (ZRow τ ρ)) (f : DetailsFile τ ρ K)
    (ord : List PyStr → List PyStr) (hord : ∀ l, (ord l).Perm l) (h : writeZscan f32 conv zscan zfit = .ok f)
    (hnd : ∀ t d, zscan.get? t = some d → d.keys.Nodup) (hparse : ∀ t d, zscan.get? t = some d → ∀ ft ∈ d.keys, ∃ p, parseFulltype ft = .ok p)
    (hty : ∀ r ∈ zfit, ∀ t d, zscan.get? t = some d → makeFulltype r.spectype (some r.subtype) ∈ d.keys)
    (hinj : ∀ r ∈ zfit, ∀ r' ∈ zfit, makeFulltype r.spectype (some r.subtype) = makeFulltype r'.spectype (some r'.subtype) → r.spectype = r'.spectype ∧ r.subtype = r'.subtype) :
    ∃ d att zf, readZscanFull ord f none = .ok (d, att, zf) ∧ readZscan ord f none = .ok d ∧ readZfit f none = .ok zf ∧
      ∀ r ∈ zf, att.get? (r.targetid, makeFulltype r.spectype (some r.subtype)) =
        some (zf.filter (fun r' => decide (r'.targetid = r.targetid ∧ makeFulltype r'.spectype (some r'.subtype) = makeFulltype r.spectype (some r.subtype)))) := by
  obtain ⟨d, first, d0, h1, h2, h3, h4, h5⟩ := C26_round_trip f32 conv zscan zfit f ord hord h hnd hparse
  have hz := C26_zfit_round_trip f32 conv zscan zfit f h
  rw [storedRow_eq] at hz
  have hmem : ∀ r ∈ f.targetids.flatMap (fun t => (zfit.map (narrowRow conv)).filter (fun r => decide (r.targetid = t))),
      r.targetid ∈ f.targetids ∧ ∃ r' ∈ zfit, r'.spectype = r.spectype ∧ r'.subtype = r.subtype := by
    intro r hr
    obtain ⟨a, b⟩ := (mem_stored f _ _).1 hr
    obtain ⟨r', hr', rfl⟩ := List.mem_map.1 a
    exact ⟨b, r', hr', rfl, rfl⟩
  generalize f.targetids.flatMap (fun t => (zfit.map (narrowRow conv)).filter (fun r => decide (r.targetid = t))) = zf at hmem hz
  have hkey : ∀ g ∈ (zf.map (fun r => (r.targetid, r.spectype, r.subtype))).reverse.dedup.reverse, (do
      let k ← attachKey d g
      let rows ← (pure (zf.filter (fun r => decide ((r.targetid, r.spectype, r.subtype) = g))) : Py (List (ZRow τ ρ)))
      return (k, rows)) = Except.ok ((g.1, makeFulltype g.2.1 (some g.2.2)), zf.filter (fun r => decide ((r.targetid, r.spectype, r.subtype) = g))) := by
    intro g hg
    rw [mem_groups] at hg
    obtain ⟨r, hr, rfl⟩ := List.mem_map.1 hg
    obtain ⟨a, r', b, c1, c2⟩ := hmem r hr
    obtain ⟨dt, q1, _, q3⟩ := h5 _ a
    obtain ⟨_, _, _, _, _, _, q4⟩ := q3 (makeFulltype r.spectype (some r.subtype)) (by rw [← c1, ← c2]; exact hty r' b _ _ h3)
    have : attachKey d (r.targetid, r.spectype, r.subtype) = .ok (r.targetid, makeFulltype r.spectype (some r.subtype)) := by
      unfold attachKey
      rw [(dict_get_ok _ _ _).2 q1, okBind, (dict_get_ok _ _ _).2 q4, okBind]
      rfl
    rw [this, okBind]
    rfl
  have hatt : attachZfit d zf = .ok (((zf.map (fun r => (r.targetid, r.spectype, r.subtype))).reverse.dedup.reverse.map
      (fun g => ((g.1, makeFulltype g.2.1 (some g.2.2)), zf.filter (fun r => decide ((r.targetid, r.spectype, r.subtype) = g))))).foldl
      (fun (d : PyDict (τ × PyStr) (List (ZRow τ ρ))) p => d.set p.1 p.2) []) := by
    unfold attachZfit
    rw [foldlM_set_eq, mapM_Except_ok _ _ _ hkey, okBind]
    rfl
  obtain ⟨att, hatt, hdef⟩ : ∃ att, attachZfit d zf = .ok att ∧ att = _ := ⟨_, hatt, rfl⟩
  refine ⟨d, att, zf, ?_, h1, hz, ?_⟩
  · unfold readZscanFull
    rw [h1, okBind, hz, okBind, hatt, okBind]
    rfl
  · intro r hr
    rw [hdef, List.foldl_map]
    rw [PyDict.get?_foldl_set (fun g : τ × PyStr × PyStr => (g.1, makeFulltype g.2.1 (some g.2.2))) (fun g => zf.filter (fun r => decide ((r.targetid, r.spectype, r.subtype) = g)))]
    have hg0 : (r.targetid, r.spectype, r.subtype) ∈ (zf.map (fun r => (r.targetid, r.spectype, r.subtype))).reverse.dedup.reverse := by
      rw [mem_groups]; exact List.mem_map.2 ⟨r, hr, rfl⟩
    obtain ⟨g, hg⟩ : ∃ g, (zf.map (fun r => (r.targetid, r.spectype, r.subtype))).reverse.dedup.reverse.reverse.find?
        (fun g => decide ((g.1, makeFulltype g.2.1 (some g.2.2)) = (r.targetid, makeFulltype r.spectype (some r.subtype)))) = some g := by
      apply Option.isSome_iff_exists.1
      rw [List.find?_isSome]
      exact ⟨_, List.mem_reverse.2 hg0, by simp⟩
    rw [hg]
    have hp := List.find?_some hg
    have hm := (mem_groups _ _).1 (List.mem_reverse.1 (List.mem_of_find?_eq_some hg))
    obtain ⟨r1, hr1, rfl⟩ := List.mem_map.1 hm
    simp only [decide_eq_true_eq, Prod.mk.injEq] at hp
    obtain ⟨_, x1, y1, z1, w1⟩ := hmem r1 hr1
    simp only [Option.map_some, Option.some_or]
    congr 1
    apply List.filter_congr
    intro r2 hr2
    obtain ⟨_, x2, y2, z2, w2⟩ := hmem r2 hr2
    simp only [decide_eq_decide, Prod.mk.injEq]
    constructor
    · rintro ⟨a, b, c⟩
      rw [a, b, c]; exact hp
    · rintro ⟨a, b⟩
      refine ⟨a.trans hp.1.symm, ?_⟩
      have := hinj x2 y2 x1 y1 (by rw [z2, w2, z1, w1, b, hp.2])
      rw [z2, w2, z1, w1] at this
      exact this
end

/-! ### the hypotheses are met -/

/-- two targets, two template types, two candidates for the first target -/
def exZscan : PyDict Nat (PyDict PyStr (ScanEntry ℚ)) :=
  [(7, [("GALAXY".toList, ⟨[0, 1], [5, 6], [0, 0], [[1], [2]]⟩), ("STAR:::M".toList, ⟨[0], [9], [0], [[1, 1]]⟩)]),
   (3, [("GALAXY".toList, ⟨[0, 1], [8, 4], [0, 1], [[3], [4]]⟩), ("STAR:::M".toList, ⟨[0], [7], [0], [[2, 1]]⟩)])]
def exZfit : List (ZRow Nat Unit) := [⟨7, 0, "GALAXY".toList, [], ()⟩, ⟨7, 1, "STAR".toList, "M".toList, ()⟩, ⟨3, 0, "GALAXY".toList, [], ()⟩]

def exRound (q : ℚ) : ℚ := q

example : ((writeZscan exRound id exZscan exZfit).toOption.map (·.targetids)) = some [7, 3] := by decide +kernel
example : ∀ t ∈ exZfit.map (·.targetid), ∃ n, n ≤ 256 ∧ Numbered exZfit t n := by
  intro t ht
  simp [exZfit] at ht
  rcases ht with rfl | rfl
  · exact ⟨2, by omega, by unfold Numbered; decide +kernel⟩
  · exact ⟨1, by omega, by unfold Numbered; decide +kernel⟩
/-- reading it back gives the second target its own chi2 -/
example : ((writeZscan exRound id exZscan exZfit).toOption.bind (fun f => (readZscan id f (some [3])).toOption)).map (fun d => (d.keys, ((d.get? 3).bind (·.get? "GALAXY".toList)).map (·.zchi2))) =
    some ([3], some [8, 4]) := by decide +kernel
/-- an archetype subtype makes the file unreadable -/
example : ((writeZscan exRound id exZscan [⟨7, 0, "GALAXY".toList, "ELG_12".toList, ()⟩]).bind (fun f => readZscanFull id f none)).toOption = none := by decide +kernel
end Redrock
