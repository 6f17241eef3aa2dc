import Verif.Model.Zbest
import Verif.Props.FullRun
import Verif.Props.Flags

/-! Property C118: the published catalogue `zbest`. -/
set_option linter.unusedSectionVars false
namespace Redrock
namespace Zbest

variable {K : Type} [DecidableEq K]

/-! ### the specification -/

/-- the name of a column in the published table: names without upper-case letters become upper case, others stay -/
def outName (n : PyStr) : PyStr := if asciiIsLower n then asciiUpper n else n

/-- the three columns that are not published -/
def dropped : List PyStr := ["zz".toList, "zzchi2".toList, "znum".toList]

/-- the columns that are published -/
def kept (T : Tab K) : Tab K := T.filter (fun c => decide (c.1 ∉ dropped))

/-- the entries of a column at the positions where the candidate number is 0 -/
def bestOnly {α : Type} (zn : List Int) (col : List α) : List α := ((zn.zip col).filter (fun p => decide (p.1 = 0))).map (·.2)

/-- what `rrdesi` does to an entry of the published column `name` -/
def published (round32 : K → K) (name : PyStr) (c : TabCell K) : TabCell K :=
  if name = "ZERR".toList ∨ name = "COEFF".toList ∨ name = "CHI2".toList ∨ name = "DELTACHI2".toList then c.onFlt round32
  else if name = "ZWARN".toList ∨ name = "NPIXELS".toList then c.onInt toInt32
  else if name = "NCOEFF".toList then c.onInt toInt16
  else if name = "FITMETHOD".toList then c.onStr 4
  else c

/-- a candidate table with the columns `rrdesi` works on, all of the same length, with candidate numbers `zn` -/
structure IsZfit (T : Tab K) (zn : List Int) : Prop where
  nodup : T.names.Nodup
  znum : ("znum".toList, zn.map TabCell.int) ∈ T
  len : ∀ c ∈ T, c.2.length = zn.length
  cols : ∀ n ∈ ["fitmethod".toList, "zerr".toList, "zwarn".toList, "npixels".toList, "ncoeff".toList, "coeff".toList, "chi2".toList, "deltachi2".toList, "subtype".toList, "zz".toList, "zzchi2".toList],
    n ∈ T.names

/-! ### renaming -/

theorem upper_ne {n : PyStr} (h : asciiIsLower n = true) : asciiUpper n ≠ n := by
  unfold asciiIsLower at h
  rw [Bool.and_eq_true, List.any_eq_true, List.all_eq_true] at h
  obtain ⟨⟨c, hc, hl⟩, _⟩ := h
  intro he
  unfold asciiUpper at he
  have : c.toUpper = c := (List.map_inj_left (f := Char.toUpper) (g := id)).1 (by simpa using he) c hc
  unfold Char.toUpper at this
  rw [dif_pos (by simpa [Char.isLower] using hl)] at this
  have h2 : c.val = c.val + ('A'.val - 'a'.val) := by
    conv_lhs => rw [← this]
  have h3 : ∀ v : UInt32, v ≠ v + ('A'.val - 'a'.val) := by
    intro v hv
    have := congrArg UInt32.toNat hv
    have h4 : v.toNat < 4294967296 := v.toNat_lt
    simp [UInt32.toNat_add, UInt32.toNat_sub] at this
    omega
  exact h3 _ h2

theorem upper_isUpper {c : Char} (h : c.isLower = true) : c.toUpper.isUpper = true := by
  have hb : 97 ≤ c.val.toNat ∧ c.val.toNat ≤ 122 := by
    simpa [Char.isLower, UInt32.le_iff_toNat_le] using h
  unfold Char.toUpper
  rw [dif_pos (by simpa [Char.isLower] using h)]
  have : (c.val + ('A'.val - 'a'.val)).toNat = c.val.toNat - 32 := by
    have hx : c.toNat = c.val.toNat := rfl
    simp [UInt32.toNat_add]
    omega
  simp only [Char.isUpper, Bool.and_eq_true, decide_eq_true_eq, ge_iff_le, UInt32.le_iff_toNat_le]
  constructor
  · show 65 ≤ (c.val + ('A'.val - 'a'.val)).toNat
    omega
  · show (c.val + ('A'.val - 'a'.val)).toNat ≤ 90
    omega

theorem not_lower_upper {n : PyStr} (h : asciiIsLower n = true) : asciiIsLower (asciiUpper n) = false := by
  unfold asciiIsLower at h
  rw [Bool.and_eq_true, List.any_eq_true, List.all_eq_true] at h
  obtain ⟨⟨c, hc, hl⟩, _⟩ := h
  unfold asciiIsLower asciiUpper
  rw [Bool.and_eq_false_iff]
  right
  rw [List.all_eq_false]
  exact ⟨c.toUpper, List.mem_map_of_mem hc, by simp [upper_isUpper hl]⟩

theorem outName_idem (n : PyStr) : outName (outName n) = outName n := by
  unfold outName
  split
  · rw [not_lower_upper (by assumption)]; simp
  · simp_all

/-- the loop over the column names succeeds exactly if no two published names collide -/
theorem upper_aux (post : Tab K) : ∀ (pre : Tab K) (B : Tab K), (pre.names ++ post.names).Nodup → (∀ n ∈ pre.names, outName n = n) →
    (post.names.foldlM (fun T colname => if asciiIsLower colname then T.renameColumn colname (asciiUpper colname) else .ok T) (pre ++ post) = (.ok B : Py (Tab K)) ↔
      (pre.names ++ post.names.map outName).Nodup ∧ B = pre ++ post.map (fun c => (outName c.1, c.2))) := by
  induction post with
  | nil => intro pre B hn _; simp [Tab.names, pure, Except.pure] at *; constructor <;> intro h <;> simp_all
  | cons c cs ih =>
    intro pre B hn hp
    have hcons : (Tab.names (c :: cs)) = c.1 :: Tab.names cs := rfl
    rw [hcons] at hn ⊢
    rw [List.foldlM_cons]
    by_cases hl : asciiIsLower c.1 = true
    · have ho : outName c.1 = asciiUpper c.1 := by unfold outName; rw [if_pos hl]
      rw [if_pos hl]
      have hold : c.1 ∈ Tab.names (pre ++ c :: cs) := by simp [Tab.names]
      by_cases hnew : asciiUpper c.1 ∈ Tab.names (pre ++ c :: cs)
      · have hren : Tab.renameColumn (pre ++ c :: cs) c.1 (asciiUpper c.1) = .error .keyError := by
          unfold Tab.renameColumn
          rw [if_neg (by simpa using hold), if_pos hnew]
        rw [hren]
        constructor
        · intro h; cases h
        · rintro ⟨h, -⟩
          exfalso
          have hin : asciiUpper c.1 ∈ pre.names ∨ asciiUpper c.1 ∈ Tab.names cs := by
            simp only [Tab.names, List.map_append, List.mem_append, List.map_cons, List.mem_cons] at hnew ⊢
            rcases hnew with h | h | h
            · exact .inl h
            · exact absurd h (upper_ne hl)
            · exact .inr h
          rw [List.map_cons, ho] at h
          rcases hin with h1 | h1
          · exact (List.nodup_append.1 h).2.2 _ h1 _ (by simp) rfl
          · have h2 := (List.nodup_cons.1 (List.nodup_append.1 h).2.1).1
            apply h2
            exact List.mem_map.2 ⟨_, h1, by unfold outName; rw [not_lower_upper hl]; simp⟩
      · have hren : Tab.renameColumn (pre ++ c :: cs) c.1 (asciiUpper c.1) = .ok ((pre ++ c :: cs).map (fun d => if d.1 = c.1 then (asciiUpper c.1, d.2) else d)) := by
          unfold Tab.renameColumn
          rw [if_neg (by simpa using hold), if_neg hnew]
        rw [hren]
        simp only [bind, Except.bind]
        have hmap : (pre ++ c :: cs).map (fun d => if d.1 = c.1 then (asciiUpper c.1, d.2) else d) = (pre ++ [(asciiUpper c.1, c.2)]) ++ cs := by
          rw [List.map_append, List.map_cons]
          have h1 : ∀ (l : Tab K), c.1 ∉ l.names → l.map (fun d => if d.1 = c.1 then (asciiUpper c.1, d.2) else d) = l := by
            intro l hl'
            conv_rhs => rw [← List.map_id l]
            apply List.map_congr_left
            intro d hd
            rw [if_neg]; rfl
            rintro h
            exact hl' (h ▸ List.mem_map_of_mem hd)
          have hnd := List.nodup_append.1 hn
          rw [h1 pre (fun h => hnd.2.2 _ h _ (by simp) rfl), h1 cs (List.nodup_cons.1 hnd.2.1).1]
          simp
        rw [hmap]
        have hnames : Tab.names (pre ++ [(asciiUpper c.1, c.2)]) = pre.names ++ [asciiUpper c.1] := by simp [Tab.names]
        have := ih (pre ++ [(asciiUpper c.1, c.2)]) B (by
          rw [hnames]
          have hnd := List.nodup_append.1 hn
          have h3 : asciiUpper c.1 ∉ pre.names ∧ asciiUpper c.1 ∉ Tab.names cs := by
            constructor <;> intro h <;> apply hnew <;> simp only [Tab.names, List.map_append, List.mem_append, List.map_cons, List.mem_cons] at h ⊢
            · exact .inl h
            · exact .inr (.inr h)
          rw [List.append_assoc, List.singleton_append, List.nodup_append]
          refine ⟨hnd.1, List.nodup_cons.2 ⟨h3.2, (List.nodup_cons.1 hnd.2.1).2⟩, ?_⟩
          intro a ha b hb hab
          subst hab
          rcases List.mem_cons.1 hb with h | h
          · exact h3.1 (h ▸ ha)
          · exact hnd.2.2 _ ha _ (List.mem_cons_of_mem _ h) rfl) (by
          intro n hmem
          rw [hnames] at hmem
          rcases List.mem_append.1 hmem with h | h
          · exact hp n h
          · rw [List.mem_singleton.1 h, ← ho, outName_idem])
        rw [this, hnames, List.map_cons, List.map_cons, ho]
        simp
    · have ho : outName c.1 = c.1 := by unfold outName; rw [if_neg hl]
      rw [if_neg hl]
      simp only [bind, Except.bind]
      have := ih (pre ++ [c]) B (by simpa [Tab.names] using hn) (by
        intro n hmem
        have : n ∈ pre.names ∨ n = c.1 := by simpa [Tab.names] using hmem
        rcases this with h | h
        · exact hp n h
        · rw [h, ho])
      rw [List.append_assoc, List.singleton_append] at this
      rw [this, List.map_cons, List.map_cons, ho]
      simp [Tab.names]

theorem upperColumns_iff (T B : Tab K) (hn : T.names.Nodup) :
    upperColumns T = .ok B ↔ (T.names.map outName).Nodup ∧ B = T.map (fun c => (outName c.1, c.2)) := by
  have := upper_aux T [] B (by simpa [Tab.names] using hn) (by simp [Tab.names])
  simpa [upperColumns, Tab.names] using this

theorem selectMask_eq {α : Type} (zn : List Int) (col : List α) :
    selectMask ((zn.map TabCell.int).map (fun c : TabCell K => decide (c = .int 0))) col = bestOnly zn col := by
  unfold selectMask bestOnly
  induction zn generalizing col with
  | nil => rfl
  | cons z zn ih =>
    cases col with
    | nil => rfl
    | cons x xs =>
      have := ih xs
      simp only [List.map_cons, List.zip_cons_cons, List.filter_cons]
      by_cases hz : z = 0 <;> simp_all

theorem col_of_mem {T : Tab K} (hn : T.names.Nodup) {c : PyStr × List (TabCell K)} (hc : c ∈ T) : T.col c.1 = .ok c.2 := by
  unfold Tab.col
  have : T.find? (fun d => decide (d.1 = c.1)) = some c := by
    induction T with
    | nil => simp at hc
    | cons d T ih =>
      have hnd : d.1 ∉ Tab.names T ∧ (Tab.names T).Nodup := List.nodup_cons.1 hn
      rw [List.find?_cons]
      rcases List.mem_cons.1 hc with h | h
      · subst h; simp
      · rw [show decide (d.1 = c.1) = false from by
          rw [decide_eq_false_iff_not]
          intro he
          exact hnd.1 (he ▸ List.mem_map_of_mem h)]
        exact ih hnd.2 h
  rw [this]

theorem zbestRows_iff {T : Tab K} {zn : List Int} (hT : IsZfit T zn) (B : Tab K) :
    zbestRows T = .ok B ↔ ((kept T).names.map outName).Nodup ∧
      B = (kept T).map (fun c => (outName c.1, bestOnly zn c.2)) := by
  unfold zbestRows
  have hcol := col_of_mem hT.nodup hT.znum
  simp only at hcol
  simp only [hcol, bind, Except.bind]
  have hrows : T.rowsWhere ((zn.map TabCell.int).map (fun c : TabCell K => decide (c = .int 0))) = T.map (fun c => (c.1, bestOnly zn c.2)) := by
    unfold Tab.rowsWhere
    simp only [selectMask_eq]
  rw [hrows]
  have hnames : Tab.names (T.map (fun c => (c.1, bestOnly zn c.2))) = T.names := by simp [Tab.names]
  have hrem : Tab.removeColumns (T.map (fun c => (c.1, bestOnly zn c.2))) ["zz".toList, "zzchi2".toList, "znum".toList] =
      .ok ((kept T).map (fun c => (c.1, bestOnly zn c.2))) := by
    unfold Tab.removeColumns
    rw [if_pos]
    · rw [List.filter_map]; rfl
    · rw [List.all_eq_true]
      intro n hn
      rw [decide_eq_true_eq, hnames]
      rcases List.mem_cons.1 hn with h | hn
      · exact hT.cols n (by rw [h]; simp)
      rcases List.mem_cons.1 hn with h | hn
      · exact hT.cols n (by rw [h]; simp)
      · rw [List.mem_singleton.1 hn]
        exact List.mem_map_of_mem (f := (·.1)) hT.znum
  rw [hrem]
  dsimp only
  have hn2 : Tab.names ((kept T).map (fun c => (c.1, bestOnly zn c.2))) = (kept T).names := by simp [Tab.names]
  rw [upperColumns_iff, hn2]
  · rw [List.map_map]; rfl
  · rw [hn2]
    exact hT.nodup.sublist (List.Sublist.map _ List.filter_sublist)

/-- every entry of every column converted by `g` of the column's name -/
def convertAll (g : PyStr → TabCell K → TabCell K) (U : Tab K) : Tab K := U.map (fun c => (c.1, c.2.map (g c.1)))

/-- `g`, then `f` on the column `name` -/
def also (g : PyStr → TabCell K → TabCell K) (name : PyStr) (f : TabCell K → TabCell K) : PyStr → TabCell K → TabCell K := fun n x => if n = name then f (g n x) else g n x

theorem convert_map (U : Tab K) (g : PyStr → TabCell K → TabCell K) (name : PyStr) (f : TabCell K → TabCell K) (h : name ∈ U.names) :
    Tab.convert (convertAll g U) name f = .ok (convertAll (also g name f) U) := by
  unfold Tab.convert convertAll
  rw [if_pos (by simpa [Tab.names] using h), List.map_map]
  congr 1
  apply List.map_congr_left
  intro c _
  by_cases hc : c.1 = name
  · simp [hc, also]
  · simp [hc, also]

theorem bestOnly_length {α : Type} (zn : List Int) (col : List α) (h : col.length = zn.length) : (bestOnly zn col).length = (zn.filter (fun z => decide (z = 0))).length := by
  unfold bestOnly
  rw [List.length_map]
  induction zn generalizing col with
  | nil => simp
  | cons z zn ih =>
    cases col with
    | nil => simp at h
    | cons x xs =>
      have := ih xs (by simpa using h)
      by_cases hz : z = 0 <;> simp [hz, this]

theorem pyMaxNat_le {xs : List Nat} {m : Nat} (h : pyMaxNat xs = .ok m) : ∀ x ∈ xs, x ≤ m := fun x hx => ((pyMaxNat_iff xs m).1 h).2 x hx

theorem onStr_id (c : TabCell K) (n : Nat) (h : c.strlen ≤ n) : c.onStr n = c := by
  cases c with
  | str s => simp only [TabCell.strlen] at h; simp [TabCell.onStr, List.take_of_length_le h]
  | int i => rfl
  | flt x => rfl
  | arr xs => rfl

/-- **C118** `rrdesi` publishes a catalogue exactly if there is a candidate with number 0 and no two published column names collide; its columns are those of the candidate table except `zz`, `zzchi2`, `znum`,
in their order, renamed, and hold the entries of the candidates with number 0, in order, converted by `published`: nothing else is dropped, added, moved or cut. -/
theorem C118_table {T : Tab K} {zn : List Int} (hT : IsZfit T zn) (round32 : K → K) (B : Tab K) :
    desiZbest round32 T = .ok B ↔ 0 ∈ zn ∧ ((kept T).names.map outName).Nodup ∧
      B = (kept T).map (fun c => (outName c.1, (bestOnly zn c.2).map (published round32 (outName c.1)))) := by
  unfold desiZbest
  cases hz : zbestRows T with
  | error e =>
    constructor
    · intro h; cases h
    · rintro ⟨_, h, _⟩
      exact absurd (((zbestRows_iff hT _).2 ⟨h, rfl⟩).symm.trans hz) (by simp)
  | ok U =>
    obtain ⟨hnd, hU⟩ := (zbestRows_iff hT U).1 hz
    simp only [bind, Except.bind]
    have hin : ∀ n, n ∈ T.names → n ∉ dropped → outName n ∈ U.names := by
      intro n hn hd
      obtain ⟨c, hc, rfl⟩ := List.mem_map.1 hn
      rw [hU]
      exact List.mem_map.2 ⟨_, List.mem_map_of_mem (List.mem_filter.2 ⟨hc, by simpa using hd⟩), rfl⟩
    have hreq : ∀ n, n ∈ ["fitmethod".toList, "zerr".toList, "zwarn".toList, "npixels".toList, "ncoeff".toList, "coeff".toList, "chi2".toList, "deltachi2".toList, "subtype".toList] → outName n ∈ U.names := by
      intro n hn
      apply hin
      · apply hT.cols
        have := List.mem_append_left ["zz".toList, "zzchi2".toList] hn
        simpa using this
      · have : ∀ n ∈ ["fitmethod".toList, "zerr".toList, "zwarn".toList, "npixels".toList, "ncoeff".toList, "coeff".toList, "chi2".toList, "deltachi2".toList, "subtype".toList], n ∉ dropped := by decide
        exact this n hn
    have h0 : U = convertAll (fun _ x => x) U := by simp [convertAll]
    have r1 := hreq "fitmethod".toList (by decide)
    have r2 := hreq "zerr".toList (by decide)
    have r3 := hreq "zwarn".toList (by decide)
    have r4 := hreq "npixels".toList (by decide)
    have r5 := hreq "ncoeff".toList (by decide)
    have r6 := hreq "coeff".toList (by decide)
    have r7 := hreq "chi2".toList (by decide)
    have r8 := hreq "deltachi2".toList (by decide)
    have r9 := hreq "subtype".toList (by decide)
    rw [show outName "fitmethod".toList = "FITMETHOD".toList by decide] at r1
    rw [show outName "zerr".toList = "ZERR".toList by decide] at r2
    rw [show outName "zwarn".toList = "ZWARN".toList by decide] at r3
    rw [show outName "npixels".toList = "NPIXELS".toList by decide] at r4
    rw [show outName "ncoeff".toList = "NCOEFF".toList by decide] at r5
    rw [show outName "coeff".toList = "COEFF".toList by decide] at r6
    rw [show outName "chi2".toList = "CHI2".toList by decide] at r7
    rw [show outName "deltachi2".toList = "DELTACHI2".toList by decide] at r8
    rw [show outName "subtype".toList = "SUBTYPE".toList by decide] at r9
    conv_lhs => rw [h0]
    rw [convert_map U _ _ _ r1]
    dsimp only
    rw [convert_map U _ _ _ r2]
    dsimp only
    rw [convert_map U _ _ _ r3]
    dsimp only
    rw [convert_map U _ _ _ r4]
    dsimp only
    rw [convert_map U _ _ _ r5]
    dsimp only
    rw [convert_map U _ _ _ r6]
    dsimp only
    rw [convert_map U _ _ _ r7]
    dsimp only
    rw [convert_map U _ _ _ r8]
    dsimp only
    generalize hG : also (also (also (also (also (also (also (also (fun _ x => x) "FITMETHOD".toList (TabCell.onStr 4)) "ZERR".toList (TabCell.onFlt round32)) "ZWARN".toList (TabCell.onInt toInt32))
      "NPIXELS".toList (TabCell.onInt toInt32)) "NCOEFF".toList (TabCell.onInt toInt16)) "COEFF".toList (TabCell.onFlt round32)) "CHI2".toList (TabCell.onFlt round32)) "DELTACHI2".toList (TabCell.onFlt round32) = G
    have hpub : ∀ n x, G n x = published round32 n x := by
      intro n x
      rw [← hG]
      unfold also published
      by_cases e1 : n = "DELTACHI2".toList
      · subst e1; simp
      by_cases e2 : n = "CHI2".toList
      · subst e2; simp
      by_cases e3 : n = "COEFF".toList
      · subst e3; simp
      by_cases e4 : n = "NCOEFF".toList
      · subst e4; simp
      by_cases e5 : n = "NPIXELS".toList
      · subst e5; simp
      by_cases e6 : n = "ZWARN".toList
      · subst e6; simp
      by_cases e7 : n = "ZERR".toList
      · subst e7; simp
      by_cases e8 : n = "FITMETHOD".toList
      · subst e8; simp
      simp only [e1, e2, e3, e4, e5, e6, e7, e8, if_false, or_self]
    have hUn : U.names.Nodup := by
      rw [hU]
      have h1 : Tab.names ((kept T).map (fun c => (outName c.1, bestOnly zn c.2))) = (kept T).names.map outName := by
        unfold Tab.names; rw [List.map_map, List.map_map]; rfl
      rw [h1]; exact hnd
    have hcn : ∀ g : PyStr → TabCell K → TabCell K, (convertAll g U).names = U.names := by intro g; simp [convertAll, Tab.names]
    obtain ⟨sc, hsc, hsn⟩ := List.mem_map.1 r9
    have hsub : (convertAll G U).col "SUBTYPE".toList = .ok sc.2 := by
      have h1 : (sc.1, sc.2.map (G sc.1)) ∈ convertAll G U := List.mem_map_of_mem hsc
      have h2 := col_of_mem (by rw [hcn]; exact hUn) h1
      simp only [hsn] at h2
      rw [h2, show G "SUBTYPE".toList = (fun x => x) from by funext x; rw [hpub]; simp [published]]
      simp
    rw [hsub]
    dsimp only
    have hlen : sc.2.length = (zn.filter (fun z => decide (z = 0))).length := by
      rw [hU] at hsc
      obtain ⟨c, hc, rfl⟩ := List.mem_map.1 hsc
      exact bestOnly_length zn c.2 (hT.len c (List.mem_filter.1 hc).1)
    have hzero : 0 ∈ zn ↔ sc.2 ≠ [] := by
      rw [Ne, ← List.length_eq_zero_iff, hlen, List.length_eq_zero_iff, List.filter_eq_nil_iff]
      simp
    cases hm : pyMaxNat (sc.2.map TabCell.strlen) with
    | error e =>
      dsimp only
      constructor
      · intro h; cases h
      · rintro ⟨h, _⟩
        exfalso
        rw [hzero] at h
        cases hl : sc.2 with
        | nil => exact h hl
        | cons a l => rw [hl] at hm; simp [pyMaxNat] at hm
    | ok m =>
      dsimp only
      have hne : 0 ∈ zn := by
        rw [hzero]
        intro h
        rw [h] at hm
        simp [pyMaxNat] at hm
      rw [convert_map U _ _ _ r9]
      have hfin : convertAll (also G "SUBTYPE".toList (TabCell.onStr (max 3 m))) U = (kept T).map (fun c => (outName c.1, (bestOnly zn c.2).map (published round32 (outName c.1)))) := by
        have : convertAll (also G "SUBTYPE".toList (TabCell.onStr (max 3 m))) U = convertAll (published round32) U := by
          unfold convertAll
          apply List.map_congr_left
          intro c hc
          congr 1
          apply List.map_congr_left
          intro x hx
          unfold also
          split
          · rename_i hcs
            have hcsc : c = sc := List.inj_on_of_nodup_map hUn hc hsc (by rw [hsn]; exact hcs)
            subst hcsc
            rw [hpub, hcs]
            have : published round32 "SUBTYPE".toList x = x := by simp [published]
            rw [this]
            apply onStr_id
            exact le_max_of_le_right (pyMaxNat_le hm _ (List.mem_map_of_mem hx))
          · rw [hpub]
        rw [this, hU]
        unfold convertAll
        rw [List.map_map]
        rfl
      rw [hfin]
      constructor
      · intro h; exact ⟨hne, hnd, (Except.ok.inj h).symm⟩
      · rintro ⟨_, _, h⟩; rw [h]

/-- **C118** `rrboss` publishes the same columns without conversions. -/
theorem C118_boss_table {T : Tab K} {zn : List Int} (hT : IsZfit T zn) (B : Tab K) :
    bossZbest T = .ok B ↔ ((kept T).names.map outName).Nodup ∧ B = (kept T).map (fun c => (outName c.1, bestOnly zn c.2)) := zbestRows_iff hT B

/-! ### the candidate table of a run -/

/-- the names of the published columns that do not come from metadata -/
def standardNames : List PyStr :=
  ["TARGETID".toList, "Z".toList, "ZERR".toList, "ZWARN".toList, "CHI2".toList, "COEFF".toList, "FITMETHOD".toList, "NPIXELS".toList, "SPECTYPE".toList, "SUBTYPE".toList, "NCOEFF".toList, "DELTACHI2".toList]

/-- the metadata columns have names of their own: different from each other and from the table's columns, also in upper case -/
structure GoodNames (metaNames : List PyStr) : Prop where
  nodup : (standardNames ++ metaNames.map outName).Nodup
  notDropped : ∀ n ∈ metaNames, n ∉ dropped

/-- the candidates with number 0 -/
def bestOf {K : Type} (rows : List (CatRow K)) : List (CatRow K) := rows.filter (fun r => decide (r.base.row.znum = 0))

/-- The published table whose rows are `best`: target ID, redshift, SPECTYPE, SUBTYPE and metadata exactly; ZERR, CHI2, DELTACHI2 and COEFF rounded to single precision; ZWARN, NPIXELS, NCOEFF as 32- and 16-bit
integers; at most four characters of FITMETHOD. -/
def publishedTable {K : Type} (round32 : K → K) (metaNames : List PyStr) (best : List (CatRow K)) : Tab K :=
  [("TARGETID".toList, best.map (fun r => .int r.base.targetid)),
   ("Z".toList, best.map (fun r => .flt r.base.row.z)),
   ("ZERR".toList, best.map (fun r => .flt (round32 r.base.row.zerr))),
   ("ZWARN".toList, best.map (fun r => .int (toInt32 r.base.row.zwarn))),
   ("CHI2".toList, best.map (fun r => .flt (round32 r.base.row.chi2))),
   ("COEFF".toList, best.map (fun r => .arr (r.base.row.coeff.map round32))),
   ("FITMETHOD".toList, best.map (fun r => .str (r.base.fitmethod.toList.take 4))),
   ("NPIXELS".toList, best.map (fun r => .int (toInt32 r.base.row.npixels))),
   ("SPECTYPE".toList, best.map (fun r => .str r.base.row.spectype.toList)),
   ("SUBTYPE".toList, best.map (fun r => .str r.base.row.subtype.toList)),
   ("NCOEFF".toList, best.map (fun r => .int (toInt16 r.base.row.ncoeff))),
   ("DELTACHI2".toList, best.map (fun r => .flt (round32 r.base.row.deltachi2)))]
  ++ metaNames.zipIdx.map (fun n => (outName n.1, best.map (fun r => r.extra.getD n.2 (.str []))))

theorem bestOnly_rows {α : Type} (rows : List (CatRow K)) (f : CatRow K → α) :
    bestOnly (rows.map (fun r => (r.base.row.znum : Int))) (rows.map f) = (bestOf rows).map f := by
  unfold bestOnly bestOf
  induction rows with
  | nil => rfl
  | cons r rs ih =>
    simp only [List.map_cons, List.zip_cons_cons, List.filter_cons]
    by_cases hz : r.base.row.znum = 0
    · simp_all
    · have : ¬ ((r.base.row.znum : Int) = 0) := by omega
      simp_all

theorem zfitTable_names (metaNames : List PyStr) (rows : List (CatRow K)) :
    (zfitTable metaNames rows).names = ["targetid".toList, "z".toList, "zerr".toList, "zwarn".toList, "chi2".toList, "zz".toList, "zzchi2".toList, "coeff".toList, "fitmethod".toList, "npixels".toList,
      "spectype".toList, "subtype".toList, "ncoeff".toList, "znum".toList, "deltachi2".toList] ++ metaNames := by
  have h : (metaNames.zipIdx.map (fun n => (n.1, rows.map (fun r => r.extra.getD n.2 (.str []))))).map (·.1) = metaNames := by
    rw [List.map_map]
    exact List.zipIdx_map_fst _ _
  unfold zfitTable Tab.names
  rw [List.map_append, h]
  rfl

theorem zfitTable_kept (metaNames : List PyStr) (hm : ∀ n ∈ metaNames, n ∉ dropped) (rows : List (CatRow K)) :
    kept (zfitTable metaNames rows) =
      [("targetid".toList, rows.map (fun r => .int r.base.targetid)),
       ("z".toList, rows.map (fun r => .flt r.base.row.z)),
       ("zerr".toList, rows.map (fun r => .flt r.base.row.zerr)),
       ("zwarn".toList, rows.map (fun r => .int r.base.row.zwarn)),
       ("chi2".toList, rows.map (fun r => .flt r.base.row.chi2)),
       ("coeff".toList, rows.map (fun r => .arr r.base.row.coeff)),
       ("fitmethod".toList, rows.map (fun r => .str r.base.fitmethod.toList)),
       ("npixels".toList, rows.map (fun r => .int r.base.row.npixels)),
       ("spectype".toList, rows.map (fun r => .str r.base.row.spectype.toList)),
       ("subtype".toList, rows.map (fun r => .str r.base.row.subtype.toList)),
       ("ncoeff".toList, rows.map (fun r => .int r.base.row.ncoeff)),
       ("deltachi2".toList, rows.map (fun r => .flt r.base.row.deltachi2))]
      ++ metaNames.zipIdx.map (fun n => (n.1, rows.map (fun r => r.extra.getD n.2 (.str [])))) := by
  unfold kept zfitTable
  rw [List.filter_append]
  congr 1
  rw [List.filter_eq_self]
  intro c hc
  obtain ⟨n, hn, rfl⟩ := List.mem_map.1 hc
  have : n.1 ∈ metaNames := by
    have h := List.mem_map_of_mem (f := Prod.fst) hn
    rwa [List.zipIdx_map_fst] at h
  simpa using hm n.1 this

theorem zfitTable_isZfit (metaNames : List PyStr) (hm : GoodNames metaNames) (rows : List (CatRow K)) :
    IsZfit (zfitTable metaNames rows) (rows.map (fun r => (r.base.row.znum : Int))) where
  nodup := by
    rw [zfitTable_names, List.nodup_append]
    have h1 := List.nodup_append.1 hm.nodup
    refine ⟨by decide, h1.2.1.of_map _, ?_⟩
    rintro a ha b hb rfl
    have hall : ∀ a ∈ ["targetid".toList, "z".toList, "zerr".toList, "zwarn".toList, "chi2".toList, "zz".toList, "zzchi2".toList, "coeff".toList, "fitmethod".toList, "npixels".toList,
      "spectype".toList, "subtype".toList, "ncoeff".toList, "znum".toList, "deltachi2".toList], a ∈ dropped ∨ outName a ∈ standardNames := by decide
    rcases hall a ha with h | h
    · exact hm.notDropped a hb h
    · exact h1.2.2 _ h _ (List.mem_map_of_mem hb) rfl
  znum := by
    unfold zfitTable
    apply List.mem_append_left
    simp
  len := by
    intro c hc
    rw [List.length_map]
    unfold zfitTable at hc
    rcases List.mem_append.1 hc with h | h
    · simp only [List.mem_cons, List.not_mem_nil, or_false] at h
      rcases h with h | h | h | h | h | h | h | h | h | h | h | h | h | h | h <;> rw [h] <;> simp
    · obtain ⟨n, _, rfl⟩ := List.mem_map.1 h
      simp
  cols := by
    intro n hn
    rw [zfitTable_names]
    apply List.mem_append_left
    revert n
    decide

/-- **C118** The published catalogue of `rrdesi`, written out: one row per candidate with number 0, in order. Target ID, redshift, SPECTYPE, SUBTYPE and metadata are exactly those of the candidate; ZERR, CHI2,
DELTACHI2 and COEFF are rounded to single precision; ZWARN, NPIXELS, NCOEFF and FITMETHOD are exact as long as they fit (see `C118_exact_integers`). It is published whenever there is such a candidate. -/
theorem C118_rows (round32 : K → K) (metaNames : List PyStr) (hm : GoodNames metaNames) (rows : List (CatRow K)) (hne : bestOf rows ≠ []) :
    desiZbest round32 (zfitTable metaNames rows) = .ok (publishedTable round32 metaNames (bestOf rows)) := by
  rw [C118_table (zfitTable_isZfit metaNames hm rows)]
  refine ⟨?_, ?_, ?_⟩
  · obtain ⟨r, hr⟩ := List.exists_mem_of_ne_nil _ hne
    have := List.mem_filter.1 hr
    exact List.mem_map.2 ⟨r, this.1, by have h := of_decide_eq_true this.2; simp [h]⟩
  · have : (kept (zfitTable metaNames rows)).names.map outName = standardNames ++ metaNames.map outName := by
      rw [zfitTable_kept _ hm.notDropped]
      have h : (metaNames.zipIdx.map (fun n => (n.1, rows.map (fun r => r.extra.getD n.2 (.str []))))).map (·.1) = metaNames := by
        rw [List.map_map]
        exact List.zipIdx_map_fst _ _
      unfold Tab.names
      rw [List.map_append, List.map_append, h]
      congr 1
    rw [this]
    exact hm.nodup
  · rw [zfitTable_kept _ hm.notDropped, List.map_append]
    unfold publishedTable
    congr 1
    · simp only [List.map_cons, List.map_nil, bestOnly_rows, List.map_map]
      rfl
    · rw [List.map_map]
      apply List.map_congr_left
      intro n hn
      simp only [Function.comp, bestOnly_rows, List.map_map]
      congr 1
      apply List.map_congr_left
      intro r _
      have hnm : n.1 ∈ metaNames := by
        have h := List.mem_map_of_mem (f := Prod.fst) hn
        rwa [List.zipIdx_map_fst] at h
      have hns : outName n.1 ∉ standardNames := fun h => (List.nodup_append.1 hm.nodup).2.2 _ h _ (List.mem_map_of_mem hnm) rfl
      simp only [standardNames, List.mem_cons, List.not_mem_nil, or_false, not_or] at hns
      simp only [Function.comp, published]
      obtain ⟨h1, h2, h3, h4, h5, h6, h7, h8, h9, h10, h11, h12⟩ := hns
      simp only [h3, h4, h5, h6, h7, h8, h11, h12, if_false, or_self]

/-- **C118** flags, pixel counts and coefficient counts are published exactly as long as they fit into the published type, and only then. -/
theorem C118_exact_integers (n : Nat) : (toInt32 n = n ↔ n < 2 ^ 31) ∧ (toInt16 n = n ↔ n < 2 ^ 15) := by
  unfold toInt32 toInt16
  omega

/-! ### from the run to the catalogue -/

section run
variable {ι ω K σ M : Type} [DecidableEq ι] [DecidableEq ω] [Field K] [LinearOrder K] [IsStrictOrderedRing K] [LinearOrder σ]
open FullRun Catalogue

theorem head_only (T : List (Row K σ)) (h : T.map (·.znum) = List.range T.length) : T.filter (fun r => decide (r.znum = 0)) = T.head?.toList := by
  cases T with
  | nil => rfl
  | cons a l =>
    rw [List.map_cons, List.length_cons, List.range_succ_eq_map] at h
    have h1 := (List.cons.inj h).1
    have h2 := (List.cons.inj h).2
    rw [List.filter_cons_of_pos (by simpa using h1), List.filter_eq_nil_iff.2]
    · rfl
    · intro r hr
      have : r.znum ∈ l.map (·.znum) := List.mem_map_of_mem hr
      rw [h2] at this
      obtain ⟨k, _, hk⟩ := List.mem_map.1 this
      simp only [decide_eq_true_eq]
      omega

theorem targetTable_znum (nminima : Nat) (ibad : Row K σ → Bool) (fits : List (TemplateFit K σ)) (T : List (Row K σ)) (hT : targetTable nminima ibad fits = .ok T) :
    T.map (·.znum) = List.range T.length := by
  unfold targetTable at hT
  cases hr : targetRows fits with
  | error e => rw [hr] at hT; cases hT
  | ok rows =>
    rw [hr] at hT
    have hT' := Except.ok.inj hT
    rw [← hT']
    have h := (C20_znum (trimRows nminima (sortZfit (rows.map (flagRow ibad))))).1
    rw [h]
    congr 1
    have := congrArg List.length h
    simpa using this.symm

/-- in the table of a run the candidates with number 0 are one per target, in the order of the targets -/
theorem finalTable_best (nminima : Nat) (hmin : 1 ≤ nminima) (m : Nat) (all : List (ι × List (TemplateFit K σ))) (rows : List (ι × Row K σ))
    (h : finalTable nminima (fun _ => false) m all = .ok rows) : (rows.filter (fun x => decide (x.2.znum = 0))).map (·.1) = all.map (·.1) := by
  unfold finalTable at h
  cases hT : zfindTables nminima (fun _ => false) all with
  | error e => rw [hT] at h; simp [bind, Except.bind] at h
  | ok T =>
    rw [hT] at h
    simp only [bind, Except.bind] at h
    obtain ⟨tabs, h2, htne, ⟨w, hw⟩, hflat⟩ := (zfindTables_iff nminima (fun _ => false) all T).1 hT
    cases hS : standardizeCoeff m (T.map (·.2)) with
    | error e => rw [hS] at h; simp at h
    | ok out =>
      rw [hS] at h
      simp only [pure, Except.pure] at h
      have hrows := Except.ok.inj h
      have hle := (standardizeCoeff_form m (T.map (·.2))).1 out hS
      obtain ⟨C, hC, hSC⟩ := (standardizeCoeff_form m (T.map (·.2))).2 hle
      rw [hS] at hSC
      have hout := Except.ok.inj hSC
      rw [hout, zip_self_map] at hrows
      rw [← hrows, List.filter_map, List.map_map]
      show ((T.filter (fun x => decide (x.2.znum = 0))).map (·.1)) = _
      rw [hflat]
      clear hflat hrows hout hSC hC hle hS h hT hw htne
      induction h2 with
      | nil => rfl
      | cons hab _ ih =>
        rename_i a b l r _
        rw [List.flatMap_cons, List.filter_append, List.map_append, ih, List.filter_map, List.map_map]
        obtain ⟨best, hb, _⟩ := targetTable_head nminima hmin a.2 b.2 hab.2
        have hh := head_only b.2 (targetTable_znum _ _ _ _ hab.2)
        rw [hb] at hh
        show ((b.2.filter (fun r => decide (r.znum = 0))).map (fun _ => b.1)) ++ _ = _
        rw [hh, List.map_cons, ← hab.1]
        rfl

theorem fullCatalogue_best (c : FullCfg ι ω K σ) (hmin : 1 ≤ c.nminima) (targets : List (ι × (List (FitSpectrum ω K) × M))) (hc : GoodRun c (gridsOf targets)) (hn : (targets.map (·.1)).Nodup)
    (allIds : List ι) (hids : allIds.Perm (targets.map (·.1))) (way : RunWay ι (List (FitSpectrum ω K) × M) K) (hway : PossibleWay c targets way) (rows : List (ι × Row K σ))
    (h : fullCatalogue c targets allIds way = .ok rows) : (rows.filter (fun x => decide (x.2.znum = 0))).map (·.1) = allIds := by
  unfold fullCatalogue at h
  cases hcat : fullFits c targets allIds way with
  | error e => rw [hcat] at h; cases h
  | ok cat =>
    rw [hcat] at h
    simp only [bind, Except.bind] at h
    have hC := (fullFits_iff c targets hc hn allIds hids way hway cat).1 hcat
    have hkeys := isMeasured_keys c targets allIds cat hC
    cases hm : c.maxcoeff with
    | error e => rw [hm] at h; cases h
    | ok m =>
      rw [hm] at h
      have := finalTable_best c.nminima hmin m _ rows h
      rw [this, List.map_map, ← hkeys]
      rfl

/-- **C118** The rows of a run with candidate number 0 are one per target, in the order of the run's target list, and the row of a target is the first row of that target's own measurement. -/
theorem C118_one_per_target (c : FullCfg ι ω K σ) (hmin : 1 ≤ c.nminima) (targets : List (ι × (List (FitSpectrum ω K) × M))) (hc : GoodRun c (gridsOf targets)) (hn : (targets.map (·.1)).Nodup)
    (allIds : List ι) (hids : allIds.Perm (targets.map (·.1))) (way : RunWay ι (List (FitSpectrum ω K) × M) K) (hway : PossibleWay c targets way) (rows : List (ι × Row K σ))
    (h : fullCatalogue c targets allIds way = .ok rows) :
    List.Forall₂ (fun tid x => x.1 = tid ∧ ∃ e ∈ targets, e.1 = tid ∧ ∃ T best, measureTarget (measureCfg c tid) (c.templates.map (·.2)) e.2.1 = .ok T ∧ T.head? = some best ∧ Catalogue.SameRow best x.2)
      allIds (rows.filter (fun x => decide (x.2.znum = 0))) := by
  have hids' := fullCatalogue_best c hmin targets hc hn allIds hids way hway rows h
  have hR := C117_rows c targets hc hn allIds hids way hway rows h
  rw [← hids', List.forall₂_map_left_iff, List.forall₂_same]
  intro x hx
  refine ⟨rfl, ?_⟩
  have hx' := List.mem_filter.1 hx
  have hid := hR.1 x hx'.1
  obtain ⟨e, he, hxe⟩ := List.mem_map.1 (hids.mem_iff.1 hid)
  obtain ⟨T, hT, hS⟩ := hR.2 e he
  refine ⟨e, he, hxe, T, ?_⟩
  have hxm : x.2 ∈ Catalogue.rowsOf e.1 rows := List.mem_map.2 ⟨x, List.mem_filter.2 ⟨hx'.1, by simpa using hxe.symm⟩, rfl⟩
  obtain ⟨b, hb, hsame⟩ := forall₂_right_mem hS x.2 hxm
  refine ⟨b, hxe ▸ hT, ?_, hsame⟩
  have hzn : T.map (·.znum) = List.range T.length := by
    unfold measureTarget at hT
    cases hf : (c.templates.map (·.2)).mapM (fitTarget (measureCfg c e.1) e.2.1) with
    | error e => rw [hf] at hT; cases hT
    | ok fits => rw [hf] at hT; exact targetTable_znum _ _ _ _ hT
  have hb0 : b.znum = 0 := by
    have h1 : b.znum = x.2.znum := by rw [hsame.1]
    rw [h1]
    exact of_decide_eq_true hx'.2
  have hbf : b ∈ T.filter (fun r => decide (r.znum = 0)) := List.mem_filter.2 ⟨hb, by simpa using hb0⟩
  rw [head_only T hzn] at hbf
  exact Option.mem_toList.1 hbf

end run

section published
variable {ω K M : Type} [DecidableEq ω] [Field K] [LinearOrder K] [IsStrictOrderedRing K]
open FullRun Catalogue

/-- what row `r` of the published catalogue says about target `tid` of the run: the first row of the target's own measurement, with the flags and resets of the fiber status -/
def IsPublished (c : FullCfg Int ω K String) (m : FiberMask) (fm : List (FiberRow Int)) (targets : List (Int × (List (FitSpectrum ω K) × M))) (tid : Int) (r : CatRow K) : Prop :=
  ∃ e ∈ targets, e.1 = tid ∧ ∃ T best row method, measureTarget (measureCfg c tid) (c.templates.map (·.2)) e.2.1 = .ok T ∧ T.head? = some best ∧ Catalogue.SameRow best row ∧
    r.base = desiFlagRow m fm ⟨tid, row, method⟩

/-- **C118** The catalogue `rrdesi` publishes after a run (serial or MPI): exactly one row per target, in the order of the target list; every row is the first row of that target's own measurement, with the fiber
flags; the columns are those of `publishedTable`. It is published whenever the run succeeds. -/
theorem C118_run (c : FullCfg Int ω K String) (hmin : 1 ≤ c.nminima) (targets : List (Int × (List (FitSpectrum ω K) × M))) (hc : GoodRun c (gridsOf targets)) (hn : (targets.map (·.1)).Nodup)
    (allIds : List Int) (hids : allIds.Perm (targets.map (·.1))) (way : RunWay Int (List (FitSpectrum ω K) × M) K) (hway : PossibleWay c targets way) (rows : List (Int × Row K String))
    (h : fullCatalogue c targets allIds way = .ok rows) (m : FiberMask) (fm : List (FiberRow Int)) (cat : List (CatRow K))
    (hcat : List.Forall₂ (fun x r => ∃ method, r.base = desiFlagRow m fm ⟨x.1, x.2, method⟩) rows cat)
    (round32 : K → K) (metaNames : List PyStr) (hm : GoodNames metaNames) :
    ∃ best, List.Forall₂ (IsPublished c m fm targets) allIds best ∧ desiZbest round32 (zfitTable metaNames cat) = .ok (publishedTable round32 metaNames best) := by
  have h1 := C118_one_per_target c hmin targets hc hn allIds hids way hway rows h
  have h2 : List.Forall₂ (fun x r => ∃ method, r.base = desiFlagRow m fm ⟨x.1, x.2, method⟩) (rows.filter (fun x => decide (x.2.znum = 0))) (bestOf cat) := by
    clear h1 h
    unfold bestOf
    induction hcat with
    | nil => exact List.Forall₂.nil
    | cons hab _ ih =>
      rename_i a b l r _
      have hz : b.base.row.znum = a.2.znum := by
        obtain ⟨method, hb⟩ := hab
        rw [hb]
        unfold desiFlagRow
        dsimp only
        split <;> rfl
      rw [List.filter_cons, List.filter_cons, hz]
      split
      · exact List.Forall₂.cons hab ih
      · exact ih
  have h3 : List.Forall₂ (IsPublished c m fm targets) allIds (bestOf cat) := by
    refine forall₂_compose ?_ h1 h2
    rintro tid x r ⟨hx1, e, he, het, T, best, hT, hhd, hsame⟩ ⟨method, hb⟩
    exact ⟨e, he, het, T, best, x.2, method, hT, hhd, hsame, by rw [hb, hx1]⟩
  refine ⟨bestOf cat, h3, C118_rows round32 metaNames hm cat ?_⟩
  intro hnil
  rw [hnil] at h3
  cases h3
  have ht : targets ≠ [] := ((C117_success c targets hc hn [] hids way hway).1 ⟨rows, h⟩).1
  have := hids.length_eq
  simp only [List.length_nil, List.length_map] at this
  exact ht (List.length_eq_zero_iff.1 this.symm)

end published

/-! ### examples -/

namespace Ex

/-- the types of a template as strings -/
def named (t : Tmpl Unit ℚ Nat) (a b : String) : Tmpl Unit ℚ String := ⟨a, b, t.isStar, t.redshifts, t.nbasis, t.algorithm, t.oii, t.bin⟩

/-- the run of `FullRun.Ex` with integer target IDs and named types -/
def run : FullCfg Int Unit ℚ String where
  templates := [("STAR:::K".toList, named (Units.tmpl false) "STAR" "K"), ("QSO:::LONGNAME".toList, named (TemplateSet.tmplB 1) "QSO" "LONGNAME")]
  order := ["QSO:::LONGNAME".toList, "STAR:::K".toList]
  argsort := stableArgsort Ext.le
  minfit := Units.cfg.minfit
  nz := 3
  nminima := 2
  S := Units.cfg.S
  prior := fun id zs => zs.map (fun z => if id = 7 ∧ z = 3 then .inf else .fin 0)
  le := fun a b => decide (a ≤ b)

def targets : List (Int × (List (FitSpectrum Unit ℚ) × Nat)) := [(5, Units.data, 50), (7, FullRun.Ex.data2, 70)]

theorem good : FullRun.GoodRun run (gridsOf targets) where
  names := by decide
  order := by decide
  scan := by
    have hs : ∀ A y e, Units.solve1 A y = .error e → e = .linAlgError ∨ e = .notImplemented := by
      intro A y e h
      unfold Units.solve1 at h
      split at h
      · exact Or.inl (Except.error.inj h).symm
      · cases h
    intro t ht
    simp only [run, List.mem_cons, List.not_mem_nil, or_false] at ht
    rcases ht with rfl | rfl
    · exact ⟨_, fun _ _ _ _ _ => rfl, by decide, hs⟩
    · exact ⟨_, fun _ _ _ _ _ => rfl, by decide, hs⟩

/-- the fibermap: target 5 has a broken fiber -/
def fmap : List (FiberRow Int) := [⟨7, 0, "TGT"⟩, ⟨5, 4, "TGT"⟩]
def fmask : FiberMask := ⟨1, 2, 4, 8, []⟩

/-- the candidate table of the run after the flags, with metadata `MAG` and `ra` -/
def catOf (rows : List (Int × Row ℚ String)) : List (CatRow ℚ) :=
  rows.map (fun x => ⟨desiFlagRow fmask fmap ⟨x.1, x.2, "PCA"⟩, [0], [1], [.int (x.1 * 10), .flt 3]⟩)

theorem goodNames : GoodNames ["MAG".toList, "ra".toList] where
  nodup := by decide
  notDropped := by decide

/-- a run of two targets succeeds; its published catalogue has one row for target 7 and one for target 5 -/
example : ∃ rows, fullCatalogue run targets [7, 5] .serial = .ok rows ∧ rows.length = 8 ∧ ∃ best, List.Forall₂ (IsPublished run fmask fmap targets) [7, 5] best ∧
    desiZbest (fun x => x) (zfitTable ["MAG".toList, "ra".toList] (catOf rows)) = .ok (publishedTable (fun x => x) ["MAG".toList, "ra".toList] best) := by
  have hlen : (fullCatalogue run targets [7, 5] .serial).map List.length = .ok 8 := by decide +kernel
  cases hrun : fullCatalogue run targets [7, 5] .serial with
  | error e => rw [hrun] at hlen; cases hlen
  | ok rows =>
    rw [hrun] at hlen
    refine ⟨rows, rfl, Except.ok.inj hlen, ?_⟩
    refine C118_run run (by decide) targets good (by decide) [7, 5] (by decide) .serial trivial rows hrun fmask fmap (catOf rows) ?_ _ _ goodNames
    unfold catOf
    rw [List.forall₂_map_right_iff, List.forall₂_same]
    intro x _
    exact ⟨"PCA", rfl⟩

/-- columns Z, SPECTYPE, SUBTYPE, RA and ZWARN of it: target 7 is a quasar at 2 with its long subtype, target 5 is reset because of its fiber -/
example : (do
    let rows ← fullCatalogue run targets [7, 5] .serial
    let B ← desiZbest (fun x => x) (zfitTable ["MAG".toList, "ra".toList] (catOf rows))
    ["TARGETID", "Z", "SPECTYPE", "SUBTYPE", "MAG", "RA", "FITMETHOD"].mapM (fun n => B.col n.toList) : Py (List (List (TabCell ℚ)))) =
    .ok [[.int 7, .int 5], [.flt 2, .flt 0], [.str "QSO".toList, .str "GALAXY".toList], [.str "LONGNAME".toList, .str []], [.int 70, .int 50], [.flt 3, .flt 3], [.str "PCA".toList, .str "NONE".toList]] := by
  decide +kernel

/-- metadata called `Z` in a run with a column `z`: nothing is published -/
example : (do
    let rows ← fullCatalogue run targets [7, 5] .serial
    desiZbest (fun x => x) (zfitTable ["Z".toList, "ra".toList] (catOf rows)) : Py (Tab ℚ)) = .error .keyError := by decide +kernel

/-- no candidate: `max()` of nothing -/
example : desiZbest (fun x : ℚ => x) (zfitTable [] []) = .error .valueError := by decide +kernel

end Ex
end Zbest
end Redrock
