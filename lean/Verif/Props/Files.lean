import Verif.Model.Files
import Mathlib.Data.List.Induction
import Mathlib.Tactic.SplitIfs

/-! Properties C25, C64 (output files). -/
set_option linter.unusedSectionVars false
namespace Redrock
section
variable {P C : Type} [DecidableEq P] (empty : C)

/-- A consistent file system: directory entries point to existing inodes. -/
def FsOk (fs : Fs P C) : Prop := ∀ p i, fs.names p = some i → i < fs.fresh

/-- The two paths do not name the same file (no hard or symbolic link between them). -/
def NoAlias (fs : Fs P C) (p q : P) : Prop := ∀ i, fs.names p = some i → fs.names q ≠ some i

/-- The calls made before the final rename: they concern the temporary file only. -/
private inductive TmpOp (tmp : P) : FsOp P C → Prop
  | unlink : TmpOp tmp (.unlink tmp)
  | openW : TmpOp tmp (.openW tmp)
  | put (c : C) : TmpOp tmp (.put c)

private structure Keep (fs0 fs : Fs P C) (k : Nat) (tmp q : P) : Prop where
  ok : FsOk fs
  names : fs.names q = fs0.names q
  data : ∀ i, fs.names q = some i → fs.data i = fs0.data i
  hnd : ∀ i, fs.names q = some i → fs.handle k ≠ some i
  noal : ∀ i, fs.names q = some i → fs.names tmp ≠ some i

private theorem Keep.read {fs0 fs : Fs P C} {k : Nat} {tmp q : P} (h : Keep fs0 fs k tmp q) : fs.read q = fs0.read q := by
  unfold Fs.read
  rw [← h.names]
  cases e : fs.names q with
  | none => rfl
  | some i => simp [h.data i e]

private theorem Keep.step {fs0 fs : Fs P C} {k : Nat} {tmp q : P} (hq : q ≠ tmp) (h : Keep fs0 fs k tmp q) (o : FsOp P C) (ho : TmpOp tmp o) : Keep fs0 (fs.step empty k o) k tmp q := by
  obtain ⟨h1, h2, h3, h4, h5⟩ := h
  cases ho with
  | unlink =>
    refine ⟨?_, ?_, ?_, ?_, ?_⟩ <;> simp only [Fs.step, FsOk]
    · intro p i hp
      split_ifs at hp
      exact h1 p i hp
    · rw [if_neg hq]; exact h2
    · rw [if_neg hq]; exact h3
    · rw [if_neg hq]; exact h4
    · simp
  | openW =>
    cases e : fs.names tmp with
    | some j =>
      have hs : fs.step empty k (.openW tmp) = { fs with data := fun l => if l = j then empty else fs.data l, handle := fun l => if l = k then some j else fs.handle l } := by
        simp only [Fs.step, e]
      rw [hs]
      have hne : ∀ i, fs.names q = some i → i ≠ j := fun i hi hij => h5 i hi (by rw [e, hij])
      refine ⟨h1, h2, ?_, ?_, h5⟩
      · intro i hi
        show (if i = j then empty else fs.data i) = _
        rw [if_neg (hne i hi)]; exact h3 i hi
      · intro i hi
        show (if k = k then some j else fs.handle k) ≠ some i
        rw [if_pos rfl]
        intro hc
        exact hne i hi (Option.some.inj hc).symm
    | none =>
      have hs : fs.step empty k (.openW tmp) = { names := fun x => if x = tmp then some fs.fresh else fs.names x, data := fun j => if j = fs.fresh then empty else fs.data j, fresh := fs.fresh + 1, handle := fun j => if j = k then some fs.fresh else fs.handle j } := by
        simp only [Fs.step, e]
      rw [hs]
      have hne : ∀ i, fs.names q = some i → i ≠ fs.fresh := fun i hi => (h1 q i hi).ne
      refine ⟨?_, ?_, ?_, ?_, ?_⟩
      · intro p i hp
        show i < fs.fresh + 1
        change (if p = tmp then some fs.fresh else fs.names p) = some i at hp
        split_ifs at hp
        · have := Option.some.inj hp; omega
        · have := h1 p i hp; omega
      · show (if q = tmp then some fs.fresh else fs.names q) = _
        rw [if_neg hq]; exact h2
      · intro i hi
        change (if q = tmp then some fs.fresh else fs.names q) = some i at hi
        rw [if_neg hq] at hi
        show (if i = fs.fresh then empty else fs.data i) = _
        rw [if_neg (hne i hi)]; exact h3 i hi
      · intro i hi
        change (if q = tmp then some fs.fresh else fs.names q) = some i at hi
        rw [if_neg hq] at hi
        show (if k = k then some fs.fresh else fs.handle k) ≠ some i
        rw [if_pos rfl]
        intro hc
        exact hne i hi (Option.some.inj hc).symm
      · intro i hi
        change (if q = tmp then some fs.fresh else fs.names q) = some i at hi
        rw [if_neg hq] at hi
        show (if tmp = tmp then some fs.fresh else fs.names tmp) ≠ some i
        rw [if_pos rfl]
        intro hc
        exact hne i hi (Option.some.inj hc).symm
  | put c =>
    cases e : fs.handle k with
    | none =>
      have hs : fs.step empty k (.put c) = fs := by simp only [Fs.step, e]
      rw [hs]; exact ⟨h1, h2, h3, h4, h5⟩
    | some j =>
      have hs : fs.step empty k (.put c) = { fs with data := fun l => if l = j then c else fs.data l } := by simp only [Fs.step, e]
      rw [hs]
      refine ⟨h1, h2, ?_, h4, h5⟩
      intro i hi
      show (if i = j then c else fs.data i) = _
      rw [if_neg (fun hij => h4 i hi (by rw [e, hij]))]
      exact h3 i hi

private theorem Keep.run {fs0 : Fs P C} {k : Nat} {tmp q : P} (hq : q ≠ tmp) (ops : List (FsOp P C)) (ho : ∀ o ∈ ops, TmpOp tmp o) :
    ∀ fs, Keep fs0 fs k tmp q → Keep fs0 (fs.run empty (byProc k ops)) k tmp q := by
  induction ops with
  | nil => intro fs h; exact h
  | cons o ops ih =>
    intro fs h
    exact ih (fun x hx => ho x (List.mem_cons_of_mem _ hx)) _ (h.step empty hq o (ho o (by simp)))

/-- After `openW tmp` the handle is the inode of `tmp`; puts keep that. -/
private theorem run_puts (k : Nat) (cs : List C) : ∀ (fs : Fs P C), (fs.run empty (byProc k (cs.map .put))).names = fs.names ∧ (fs.run empty (byProc k (cs.map .put))).handle = fs.handle := by
  induction cs with
  | nil => intro fs; exact ⟨rfl, rfl⟩
  | cons c cs ih =>
    intro fs
    have h1 : (fs.step empty k (.put c)).names = fs.names ∧ (fs.step empty k (.put c)).handle = fs.handle := by
      cases e : fs.handle k <;> simp only [Fs.step, e, and_self]
    obtain ⟨a, b⟩ := ih (fs.step empty k (.put c))
    exact ⟨a.trans h1.1, b.trans h1.2⟩

private theorem run_append (fs : Fs P C) (a b : List (Nat × FsOp P C)) : fs.run empty (a ++ b) = (fs.run empty a).run empty b := by
  simp [Fs.run, List.foldl_append]

/-- the tail of every writer: open, write, rename -/
private theorem run_tail (k : Nat) (tmp out : P) (hne : tmp ≠ out) (mids : List C) (new : C) (fs : Fs P C) :
    let st := fs.run empty (byProc k ([.openW tmp] ++ mids.map .put ++ [.put new, .rename tmp out]))
    st.read out = some new ∧ st.read tmp = none := by
  intro st
  have e0 : byProc k ([FsOp.openW tmp] ++ mids.map .put ++ [.put new, .rename tmp out]) =
      [(k, FsOp.openW tmp)] ++ (byProc k (mids.map .put) ++ [(k, .put new), (k, .rename tmp out)]) := by simp [byProc]
  have hopen : ∃ i, (fs.step empty k (.openW tmp)).names tmp = some i ∧ (fs.step empty k (.openW tmp)).handle k = some i := by
    cases e : fs.names tmp with
    | some i => exact ⟨i, by simp only [Fs.step, e], by simp only [Fs.step, e]; simp⟩
    | none => exact ⟨fs.fresh, by simp only [Fs.step, e]; simp, by simp only [Fs.step, e]; simp⟩
  obtain ⟨i, a1, a2⟩ := hopen
  obtain ⟨b1, b2⟩ := run_puts empty k mids (fs.step empty k (.openW tmp))
  have hst : st = (((fs.step empty k (.openW tmp)).run empty (byProc k (mids.map .put))).step empty k (.put new)).step empty k (.rename tmp out) := by
    show fs.run empty _ = _
    rw [e0, run_append, run_append]
    rfl
  generalize (fs.step empty k (.openW tmp)).run empty (byProc k (mids.map .put)) = f1 at hst b1 b2
  have c1 : f1.names tmp = some i := by rw [b1]; exact a1
  have c2 : f1.handle k = some i := by rw [b2]; exact a2
  have d1 : f1.step empty k (.put new) = { f1 with data := fun l => if l = i then new else f1.data l } := by simp only [Fs.step, c2]
  rw [d1] at hst
  have d2 : st = { f1 with data := fun l => if l = i then new else f1.data l, names := fun x => if x = out then some i else if x = tmp then none else f1.names x } := by
    rw [hst]; simp only [Fs.step, c1]
  rw [d2]
  constructor
  · simp [Fs.read]
  · simp [Fs.read, hne]

private theorem read_rename (fs : Fs P C) (k : Nat) (tmp out q : P) (h1 : q ≠ tmp) (h2 : q ≠ out) : (fs.step empty k (.rename tmp out)).read q = fs.read q := by
  cases e : fs.names tmp with
  | none => simp only [Fs.step, e]
  | some i => simp only [Fs.step, e, Fs.read, if_neg h1, if_neg h2]

private theorem take_append_rename {α : Type} (a : List α) (x : α) (n : Nat) (h : n < (a ++ [x]).length) : (a ++ [x]).take n = a.take n := by
  rw [List.length_append, List.length_singleton] at h
  rw [List.take_append, show n - a.length = 0 by omega]
  simp

/-- **C25** a redshift catalogue or model file (`write_zbest`, `write_bestmodel`) is replaced atomically. Whatever the previous content, the stale temporary file and the intermediate
contents: if the writer is stopped after any number `n` of its system calls, the output path still holds exactly what it held before - unless all calls were made, and then it holds
the complete new file, with the temporary file gone. No other path is touched. -/
theorem C25_catalogue_crash (fs : Fs P C) (k : Nat) (tmp out : P) (mids : List C) (new : C) (hne : tmp ≠ out) (hok : FsOk fs) (hk : fs.handle k = none) (n : Nat) :
    let ops := byProc k (fitsWriter tmp out mids new)
    let st := fs.run empty (ops.take n)
    (n < ops.length → st.read out = fs.read out) ∧ (ops.length ≤ n → st.read out = some new ∧ st.read tmp = none) ∧
      ∀ q, q ≠ tmp → q ≠ out → st.read q = fs.read q := by
  intro ops st
  have hsplit : fitsWriter tmp out mids new = ([.unlink tmp, .openW tmp] ++ mids.map .put ++ [.put new]) ++ [.rename tmp out] := by simp [fitsWriter]
  have hlen : ops.length = ([.unlink tmp, .openW tmp] ++ mids.map .put ++ [.put new] : List (FsOp P C)).length + 1 := by
    show (byProc k (fitsWriter tmp out mids new)).length = _
    rw [hsplit]; simp [byProc]
  have hpre : ∀ (m : Nat) (q : P), q ≠ tmp → (fs.run empty (byProc k ((([.unlink tmp, .openW tmp] ++ mids.map .put ++ [.put new]) : List (FsOp P C)).take m))).read q = fs.read q := by
    intro m q hq
    cases m with
    | zero => rfl
    | succ m =>
      have hkeep : Keep fs (fs.step empty k (.unlink tmp)) k tmp q := by
        refine ⟨?_, ?_, ?_, ?_, ?_⟩ <;> simp only [Fs.step, FsOk]
        · intro p i hp
          split_ifs at hp
          exact hok p i hp
        · rw [if_neg hq]
        · intro i _; trivial
        · intro i _; rw [hk]; simp
        · simp
      refine Keep.read (k := k) (tmp := tmp) ?_
      refine Keep.run empty hq (([.openW tmp] ++ mids.map .put ++ [.put new] : List (FsOp P C)).take m) ?_ _ hkeep
      intro o ho
      have ho := List.mem_of_mem_take ho
      simp only [List.mem_append, List.mem_map, List.mem_singleton] at ho
      rcases ho with (rfl | ⟨c, _, rfl⟩) | rfl
      · exact .openW
      · exact .put c
      · exact .put new
  have hlast : ops.length ≤ n → st = fs.run empty ops := by
    intro h
    show fs.run empty (ops.take n) = _
    rw [List.take_of_length_le h]
  have htail : (fs.run empty ops).read out = some new ∧ (fs.run empty ops).read tmp = none := run_tail empty k tmp out hne mids new (fs.step empty k (.unlink tmp))
  have hearly : n < ops.length → ∀ q, q ≠ tmp → st.read q = fs.read q := by
    intro h q hq
    have : ops.take n = byProc k ((([.unlink tmp, .openW tmp] ++ mids.map .put ++ [.put new]) : List (FsOp P C)).take n) := by
      show (byProc k (fitsWriter tmp out mids new)).take n = _
      rw [hsplit, byProc, ← List.map_take, take_append_rename]
      · rfl
      · rw [List.length_append, List.length_singleton]; omega
    show (fs.run empty (ops.take n)).read q = _
    rw [this]
    exact hpre n q hq
  refine ⟨fun h => hearly h out hne.symm, fun h => by rw [hlast h]; exact htail, ?_⟩
  intro q h1 h2
  by_cases hn : n < ops.length
  · exact hearly hn q h1
  · rw [hlast (by omega)]
    have e : fs.run empty ops = (fs.run empty (byProc k ([.unlink tmp, .openW tmp] ++ mids.map .put ++ [.put new]))).step empty k (.rename tmp out) := by
      show fs.run empty (byProc k (fitsWriter tmp out mids new)) = _
      rw [hsplit, byProc, List.map_append]
      exact run_append empty fs _ _
    rw [e]
    have hp := hpre ([.unlink tmp, .openW tmp] ++ mids.map .put ++ [.put new] : List (FsOp P C)).length q h1
    rw [List.take_of_length_le (le_refl _)] at hp
    rw [← hp]
    exact read_rename empty _ k tmp out q h1 h2

/-- **C25** the details file (`write_zscan`). Without `clobber`: as above. With `clobber` (as rrdesi and rrboss call it) the previous file is removed first, so an interruption can leave no
file at all - but never a partial one. The path `out + '.tmp'` must not be a link to another file. -/
theorem C25_details_crash (fs : Fs P C) (k : Nat) (clobber : Bool) (tmp out : P) (mids : List C) (new : C) (hne : tmp ≠ out) (hok : FsOk fs) (hk : fs.handle k = none)
    (hal : ∀ q, q ≠ tmp → NoAlias fs q tmp) (n : Nat) :
    let ops := byProc k (detailsWriter clobber tmp out mids new)
    let st := fs.run empty (ops.take n)
    (n < ops.length → st.read out = if clobber ∧ 0 < n then none else fs.read out) ∧ (ops.length ≤ n → st.read out = some new ∧ st.read tmp = none) ∧
      ∀ q, q ≠ tmp → q ≠ out → st.read q = fs.read q := by
  intro ops st
  -- the state after the optional removal
  have hrest : ∀ (f0 : Fs P C) (m : Nat) (q : P), q ≠ tmp → FsOk f0 → f0.handle k = none → NoAlias f0 q tmp →
      (m < mids.length + 3 → (f0.run empty ((byProc k ([.openW tmp] ++ mids.map .put ++ [.put new, .rename tmp out])).take m)).read q = f0.read q) ∧
      (mids.length + 3 ≤ m → q ≠ out → (f0.run empty ((byProc k ([.openW tmp] ++ mids.map .put ++ [.put new, .rename tmp out])).take m)).read q = f0.read q) := by
    intro f0 m q hq hok0 hk0 hal0
    have hkeep : Keep f0 f0 k tmp q := ⟨hok0, rfl, fun _ _ => rfl, fun i _ => by rw [hk0]; simp, hal0⟩
    have hall : ∀ m, (f0.run empty (byProc k (([.openW tmp] ++ mids.map .put ++ [.put new] : List (FsOp P C)).take m))).read q = f0.read q := by
      intro m
      refine Keep.read (k := k) (tmp := tmp) (Keep.run empty hq _ ?_ _ hkeep)
      intro o ho
      have ho := List.mem_of_mem_take ho
      simp only [List.mem_append, List.mem_map, List.mem_singleton] at ho
      rcases ho with (rfl | ⟨c, _, rfl⟩) | rfl
      · exact .openW
      · exact .put c
      · exact .put new
    have hsplit : ([.openW tmp] ++ mids.map .put ++ [.put new, .rename tmp out] : List (FsOp P C)) = ([.openW tmp] ++ mids.map .put ++ [.put new]) ++ [.rename tmp out] := by simp
    constructor
    · intro h
      rw [hsplit, byProc, ← List.map_take, take_append_rename _ _ _ (by simp; omega)]
      exact hall m
    · intro h h2
      rw [List.take_of_length_le (by simp [byProc]; omega), hsplit, byProc, List.map_append]
      have hp := hall ([.openW tmp] ++ mids.map .put ++ [.put new] : List (FsOp P C)).length
      rw [List.take_of_length_le (le_refl _)] at hp
      rw [← hp, run_append]
      exact read_rename empty _ k tmp out q hq h2
  cases clobber with
  | false =>
    have hlen : ops.length = mids.length + 3 := by show (byProc k (detailsWriter false tmp out mids new)).length = _; simp [byProc, detailsWriter]
    have hops : ops = byProc k ([.openW tmp] ++ mids.map .put ++ [.put new, .rename tmp out]) := by simp [ops, detailsWriter]
    refine ⟨?_, ?_, ?_⟩
    · intro h
      rw [if_neg (by simp)]
      have := (hrest fs n out hne.symm hok hk (hal out hne.symm)).1 (by omega)
      rw [← hops] at this
      exact this
    · intro h
      have : st = fs.run empty ops := by show fs.run empty (ops.take n) = _; rw [List.take_of_length_le h]
      rw [this, hops]
      exact run_tail empty k tmp out hne mids new fs
    · intro q h1 h2
      have := hrest fs n q h1 hok hk (hal q h1)
      rw [← hops] at this
      by_cases hn : n < mids.length + 3
      · exact this.1 hn
      · exact this.2 (by omega) h2
  | true =>
    have hlen : ops.length = mids.length + 4 := by show (byProc k (detailsWriter true tmp out mids new)).length = _; simp [byProc, detailsWriter]
    have hops : ops = (k, .unlink out) :: byProc k ([.openW tmp] ++ mids.map .put ++ [.put new, .rename tmp out]) := by simp [ops, detailsWriter, byProc]
    cases n with
    | zero =>
      refine ⟨fun _ => ?_, fun h => by omega, fun q _ _ => rfl⟩
      rw [if_neg (by simp)]
      rfl
    | succ n =>
      have hst : st = (fs.step empty k (.unlink out)).run empty ((byProc k ([.openW tmp] ++ mids.map .put ++ [.put new, .rename tmp out])).take n) := by
        show fs.run empty (ops.take (n + 1)) = _
        rw [hops]; rfl
      have hread : ∀ q, q ≠ out → (fs.step empty k (.unlink out)).read q = fs.read q := by
        intro q hq
        simp [Fs.step, Fs.read, hq]
      have hro : (fs.step empty k (.unlink out)).read out = none := by simp [Fs.step, Fs.read]
      have hok1 : FsOk (fs.step empty k (.unlink out)) := by
        intro p i hp
        simp only [Fs.step] at hp ⊢
        split_ifs at hp
        exact hok p i hp
      have hal1 : ∀ q, q ≠ tmp → NoAlias (fs.step empty k (.unlink out)) q tmp := by
        intro q hq i hi
        simp only [Fs.step] at hi ⊢
        split_ifs at hi
        rw [if_neg hne]
        exact hal q hq i hi
      refine ⟨?_, ?_, ?_⟩
      · intro h
        rw [if_pos ⟨rfl, by omega⟩, hst, ← hro]
        exact (hrest _ n out hne.symm hok1 hk (hal1 out hne.symm)).1 (by omega)
      · intro h
        rw [hst, List.take_of_length_le (by simp [byProc]; omega)]
        exact run_tail empty k tmp out hne mids new _
      · intro q h1 h2
        rw [hst, ← hread q h2]
        by_cases hn : n < mids.length + 3
        · exact (hrest _ n q h1 hok1 hk (hal1 q h1)).1 hn
        · exact (hrest _ n q h1 hok1 hk (hal1 q h1)).2 (by omega) h2

/-- **C25** `clobber=False` does not protect an existing file: a complete run replaces it just the same. -/
theorem C25_clobber_irrelevant (fs : Fs P C) (k : Nat) (clobber : Bool) (tmp out : P) (mids : List C) (new : C) (hne : tmp ≠ out) :
    (fs.run empty (byProc k (detailsWriter clobber tmp out mids new))).read out = some new := by
  cases clobber with
  | false =>
    have := (run_tail empty k tmp out hne mids new fs).1
    simpa [detailsWriter] using this
  | true =>
    have := (run_tail empty k tmp out hne mids new (fs.step empty k (.unlink out))).1
    exact this

/-! ### several writers of the same output path (C64) -/

/-- the calls of process `k` in a history -/
def opsOf (k : Nat) (l : List (Nat × FsOp P C)) : List (FsOp P C) := (l.filter (fun o => o.1 = k)).map (·.2)

private theorem opsOf_append (k : Nat) (l l' : List (Nat × FsOp P C)) : opsOf k (l ++ l') = opsOf k l ++ opsOf k l' := by simp [opsOf]

private structure CInv (fs0 fs : Fs P C) (pc : Nat → Nat) (tmp : Nat → P) (out : P) (mids : Nat → List C) (new : Nat → C) : Prop where
  ok : FsOk fs
  okh : ∀ k i, fs.handle k = some i → i < fs.fresh
  h0 : ∀ k, pc k < 2 → fs.handle k = none
  clr : ∀ k, pc k = 1 → fs.names (tmp k) = none
  wr : ∀ k, 2 ≤ pc k → ∃ i, fs.handle k = some i ∧ (pc k < (mids k).length + 4 → fs.names (tmp k) = some i ∧ ∀ p, fs.names p = some i → p = tmp k) ∧
    (pc k = (mids k).length + 3 → fs.data i = new k)
  dis : ∀ k j i, k ≠ j → fs.handle k = some i → fs.handle j ≠ some i
  outp : (fs.names out = fs0.names out ∧ ∀ i, fs.names out = some i → fs.data i = fs0.data i ∧ ∀ k, fs.handle k ≠ some i) ∨
    ∃ k i, pc k = (mids k).length + 4 ∧ fs.names out = some i ∧ fs.handle k = some i ∧ fs.data i = new k

private theorem CInv.step {fs0 fs : Fs P C} {pc : Nat → Nat} {tmp : Nat → P} {out : P} {mids : Nat → List C} {new : Nat → C} (hinj : ∀ k j, tmp k = tmp j → k = j) (hto : ∀ k, tmp k ≠ out)
    (h : CInv fs0 fs pc tmp out mids new) (k : Nat) (o : FsOp P C) (ho : (fitsWriter (tmp k) out (mids k) (new k))[pc k]? = some o) :
    CInv fs0 (fs.step empty k o) (fun j => if j = k then pc k + 1 else pc j) tmp out mids new := by
  obtain ⟨ok, okh, h0, clr, wr, dis, outp⟩ := h
  have hpcj : ∀ j, j ≠ k → (fun j => if j = k then pc k + 1 else pc j) j = pc j := fun j hj => if_neg hj
  have hpck : (fun j => if j = k then pc k + 1 else pc j) k = pc k + 1 := if_pos rfl
  generalize (fun j => if j = k then pc k + 1 else pc j) = pc' at hpcj hpck ⊢
  have hlt : pc k < (mids k).length + 4 := by
    have := (List.getElem?_eq_some_iff.1 ho).1
    simpa [fitsWriter] using this
  have htj : ∀ j, j ≠ k → tmp j ≠ tmp k := fun j hj e => hj (hinj j k e)
  -- which call is it
  rcases Nat.lt_or_ge (pc k) 1 with c0 | c0
  · -- unlink
    have e0 : pc k = 0 := by omega
    rw [e0] at ho
    obtain rfl : FsOp.unlink (tmp k) = o := by simpa [fitsWriter] using ho
    have hs : fs.step empty k (.unlink (tmp k)) = { fs with names := fun x => if x = tmp k then none else fs.names x } := rfl
    rw [hs]
    refine ⟨?_, okh, ?_, ?_, ?_, dis, ?_⟩
    · intro p i hp
      change (if p = tmp k then none else fs.names p) = some i at hp
      split_ifs at hp
      exact ok p i hp
    · intro j hj
      by_cases hjk : j = k
      · subst hjk; exact h0 j (by omega)
      · rw [hpcj j hjk] at hj; exact h0 j hj
    · intro j hj
      show (if tmp j = tmp k then none else fs.names (tmp j)) = none
      by_cases hjk : j = k
      · subst hjk; rw [if_pos rfl]
      · rw [hpcj j hjk] at hj; rw [if_neg (htj j hjk)]; exact clr j hj
    · intro j hj
      by_cases hjk : j = k
      · subst hjk; rw [hpck] at hj; omega
      · rw [hpcj j hjk] at hj ⊢
        obtain ⟨i, a, b, c⟩ := wr j hj
        refine ⟨i, a, fun hl => ?_, c⟩
        obtain ⟨b1, b2⟩ := b hl
        refine ⟨?_, ?_⟩
        · show (if tmp j = tmp k then none else fs.names (tmp j)) = some i
          rw [if_neg (htj j hjk)]; exact b1
        · intro p hp
          change (if p = tmp k then none else fs.names p) = some i at hp
          split_ifs at hp
          exact b2 p hp
    · have hno : (if out = tmp k then none else fs.names out) = fs.names out := if_neg (fun e => hto k e.symm)
      rcases outp with ⟨a, b⟩ | ⟨j, i, a, b, c, d⟩
      · left
        show (if out = tmp k then none else fs.names out) = _ ∧ ∀ i, (if out = tmp k then none else fs.names out) = some i → _
        rw [hno]
        exact ⟨a, b⟩
      · right
        have hjk : j ≠ k := fun e => by rw [e] at a; omega
        refine ⟨j, i, ?_, ?_, c, d⟩
        · rw [hpcj j hjk]; exact a
        · show (if out = tmp k then none else fs.names out) = _
          rw [hno]; exact b
  rcases Nat.lt_or_ge (pc k) 2 with c1 | c1
  · -- openW
    have e0 : pc k = 1 := by omega
    have hclr := clr k e0
    have hk0 := h0 k c1
    rw [e0] at ho
    obtain rfl : FsOp.openW (tmp k) = o := by simpa [fitsWriter] using ho
    have hs : fs.step empty k (.openW (tmp k)) = { names := fun x => if x = tmp k then some fs.fresh else fs.names x, data := fun j => if j = fs.fresh then empty else fs.data j, fresh := fs.fresh + 1, handle := fun j => if j = k then some fs.fresh else fs.handle j } := by
      simp only [Fs.step, hclr]
    rw [hs]
    have hd : ∀ i, i < fs.fresh → (if i = fs.fresh then empty else fs.data i) = fs.data i := fun i hi => if_neg (by omega)
    refine ⟨?_, ?_, ?_, ?_, ?_, ?_, ?_⟩
    · intro p i hp
      change (if p = tmp k then some fs.fresh else fs.names p) = some i at hp
      show i < fs.fresh + 1
      split_ifs at hp
      · have := Option.some.inj hp; omega
      · have := ok p i hp; omega
    · intro j i hj
      change (if j = k then some fs.fresh else fs.handle j) = some i at hj
      show i < fs.fresh + 1
      split_ifs at hj
      · have := Option.some.inj hj; omega
      · have := okh j i hj; omega
    · intro j hj
      show (if j = k then some fs.fresh else fs.handle j) = none
      by_cases hjk : j = k
      · subst hjk; rw [hpck] at hj; omega
      · rw [hpcj j hjk] at hj; rw [if_neg hjk]; exact h0 j hj
    · intro j hj
      show (if tmp j = tmp k then some fs.fresh else fs.names (tmp j)) = none
      by_cases hjk : j = k
      · subst hjk; rw [hpck] at hj; omega
      · rw [hpcj j hjk] at hj; rw [if_neg (htj j hjk)]; exact clr j hj
    · intro j hj
      by_cases hjk : j = k
      · subst hjk
        rw [hpck]
        refine ⟨fs.fresh, if_pos rfl, fun _ => ⟨if_pos rfl, ?_⟩, fun h => by omega⟩
        intro p hp
        change (if p = tmp j then some fs.fresh else fs.names p) = some fs.fresh at hp
        split_ifs at hp with hpt
        · exact hpt
        · have := ok p _ hp; omega
      · rw [hpcj j hjk] at hj ⊢
        obtain ⟨i, a, b, c⟩ := wr j hj
        have hi := okh j i a
        refine ⟨i, ?_, fun hl => ?_, fun hl => ?_⟩
        · show (if j = k then some fs.fresh else fs.handle j) = some i
          rw [if_neg hjk]; exact a
        · obtain ⟨b1, b2⟩ := b hl
          refine ⟨?_, ?_⟩
          · show (if tmp j = tmp k then some fs.fresh else fs.names (tmp j)) = some i
            rw [if_neg (htj j hjk)]; exact b1
          · intro p hp
            change (if p = tmp k then some fs.fresh else fs.names p) = some i at hp
            split_ifs at hp
            · have := Option.some.inj hp; omega
            · exact b2 p hp
        · exact (hd i hi).trans (c hl)
    · intro a b i hab ha hb
      change (if a = k then some fs.fresh else fs.handle a) = some i at ha
      change (if b = k then some fs.fresh else fs.handle b) = some i at hb
      split_ifs at ha with h1 <;> split_ifs at hb with h2
      · exact hab (h1.trans h2.symm)
      · have := Option.some.inj ha; have := okh b i hb; omega
      · have := Option.some.inj hb; have := okh a i ha; omega
      · exact dis a b i hab ha hb
    · have hno : (if out = tmp k then some fs.fresh else fs.names out) = fs.names out := if_neg (fun e => hto k e.symm)
      rcases outp with ⟨a, b⟩ | ⟨j, i, a, b, c, d⟩
      · left
        show (if out = tmp k then some fs.fresh else fs.names out) = _ ∧ ∀ i, (if out = tmp k then some fs.fresh else fs.names out) = some i → (if i = fs.fresh then empty else fs.data i) = _ ∧ ∀ j, (if j = k then some fs.fresh else fs.handle j) ≠ some i
        rw [hno]
        refine ⟨a, fun i hi => ?_⟩
        have hlt' := ok out i hi
        refine ⟨(hd i hlt').trans (b i hi).1, fun j => ?_⟩
        split_ifs
        · intro e; have := Option.some.inj e; omega
        · exact (b i hi).2 j
      · right
        have hjk : j ≠ k := fun e => by rw [e] at a; omega
        refine ⟨j, i, ?_, ?_, ?_, ?_⟩
        · rw [hpcj j hjk]; exact a
        · show (if out = tmp k then some fs.fresh else fs.names out) = _
          rw [hno]; exact b
        · show (if j = k then some fs.fresh else fs.handle j) = some i
          rw [if_neg hjk]; exact c
        · exact (hd i (okh j i c)).trans d
  obtain ⟨i0, hi0, hw0, hw1⟩ := wr k c1
  obtain ⟨hw2, hw3⟩ := hw0 hlt
  rcases Nat.lt_or_ge (pc k) ((mids k).length + 3) with c2 | c2
  · -- put
    have hput : ∃ c, o = .put c ∧ (pc k + 1 = (mids k).length + 3 → c = new k) := by
      have hf : fitsWriter (tmp k) out (mids k) (new k) = [.unlink (tmp k), .openW (tmp k)] ++ ((mids k ++ [new k]).map .put ++ [.rename (tmp k) out]) := by simp [fitsWriter]
      rw [hf, List.getElem?_append_right (by simpa using c1), List.getElem?_append_left (by simp; omega), List.getElem?_map] at ho
      obtain ⟨c, hc1, hc2⟩ := Option.map_eq_some_iff.1 ho
      refine ⟨c, hc2.symm, fun hl => ?_⟩
      have hidx : pc k - [FsOp.unlink (tmp k), FsOp.openW (tmp k) (C := C)].length = (mids k).length := by
        simp only [List.length_cons, List.length_nil]; omega
      rw [hidx] at hc1
      simpa using hc1.symm
    obtain ⟨c, rfl, hcn⟩ := hput
    have hs : fs.step empty k (.put c) = { fs with data := fun l => if l = i0 then c else fs.data l } := by simp only [Fs.step, hi0]
    rw [hs]
    refine ⟨ok, okh, ?_, ?_, ?_, dis, ?_⟩
    · intro j hj
      by_cases hjk : j = k
      · subst hjk; rw [hpck] at hj; omega
      · rw [hpcj j hjk] at hj; exact h0 j hj
    · intro j hj
      by_cases hjk : j = k
      · subst hjk; rw [hpck] at hj; omega
      · rw [hpcj j hjk] at hj; exact clr j hj
    · intro j hj
      by_cases hjk : j = k
      · subst hjk
        rw [hpck]
        exact ⟨i0, hi0, fun _ => ⟨hw2, hw3⟩, fun hl => (if_pos rfl).trans (hcn hl)⟩
      · rw [hpcj j hjk] at hj ⊢
        obtain ⟨i, a, b, d⟩ := wr j hj
        have hne : i ≠ i0 := fun e => dis j k i hjk a (by rw [e]; exact hi0)
        exact ⟨i, a, b, fun hl => (if_neg hne).trans (d hl)⟩
    · rcases outp with ⟨a, b⟩ | ⟨j, i, a, b, c', d⟩
      · left
        refine ⟨a, fun i hi => ?_⟩
        have hne : i ≠ i0 := fun e => (b i hi).2 k (by rw [e]; exact hi0)
        exact ⟨(if_neg hne).trans (b i hi).1, (b i hi).2⟩
      · right
        have hjk : j ≠ k := fun e => by rw [e] at a; omega
        have hne : i ≠ i0 := fun e => dis j k i hjk c' (by rw [e]; exact hi0)
        exact ⟨j, i, by rw [hpcj j hjk]; exact a, b, c', (if_neg hne).trans d⟩
  · -- rename
    have e0 : pc k = (mids k).length + 3 := by omega
    have hdat := hw1 e0
    have hren : o = .rename (tmp k) out := by
      have hf : fitsWriter (tmp k) out (mids k) (new k) = ([.unlink (tmp k), .openW (tmp k)] ++ (mids k ++ [new k]).map .put) ++ [.rename (tmp k) out] := by simp [fitsWriter]
      rw [hf, List.getElem?_append_right (by simp; omega)] at ho
      have hidx : pc k - ([.unlink (tmp k), .openW (tmp k)] ++ (mids k ++ [new k]).map .put : List (FsOp P C)).length = 0 := by simp; omega
      rw [hidx] at ho
      simpa using ho.symm
    subst hren
    have hs : fs.step empty k (.rename (tmp k) out) = { fs with names := fun x => if x = out then some i0 else if x = tmp k then none else fs.names x } := by simp only [Fs.step, hw2]
    rw [hs]
    refine ⟨?_, okh, ?_, ?_, ?_, dis, ?_⟩
    · intro p i hp
      change (if p = out then some i0 else if p = tmp k then none else fs.names p) = some i at hp
      split_ifs at hp
      · rw [← Option.some.inj hp]; exact okh k i0 hi0
      · exact ok p i hp
    · intro j hj
      by_cases hjk : j = k
      · subst hjk; rw [hpck] at hj; omega
      · rw [hpcj j hjk] at hj; exact h0 j hj
    · intro j hj
      show (if tmp j = out then some i0 else if tmp j = tmp k then none else fs.names (tmp j)) = none
      by_cases hjk : j = k
      · subst hjk; rw [hpck] at hj; omega
      · rw [hpcj j hjk] at hj; rw [if_neg (hto j), if_neg (htj j hjk)]; exact clr j hj
    · intro j hj
      by_cases hjk : j = k
      · subst hjk
        rw [hpck]
        exact ⟨i0, hi0, fun h => by omega, fun h => by omega⟩
      · rw [hpcj j hjk] at hj ⊢
        obtain ⟨i, a, b, c⟩ := wr j hj
        have hne : i ≠ i0 := fun e => dis j k i hjk a (by rw [e]; exact hi0)
        refine ⟨i, a, fun hl => ?_, c⟩
        obtain ⟨b1, b2⟩ := b hl
        refine ⟨?_, ?_⟩
        · show (if tmp j = out then some i0 else if tmp j = tmp k then none else fs.names (tmp j)) = some i
          rw [if_neg (hto j), if_neg (htj j hjk)]; exact b1
        · intro p hp
          change (if p = out then some i0 else if p = tmp k then none else fs.names p) = some i at hp
          split_ifs at hp
          · exact absurd (Option.some.inj hp).symm hne
          · exact b2 p hp
    · right
      exact ⟨k, i0, by rw [hpck, e0], if_pos rfl, hi0, hdat⟩

/-- **C64** any number of processes writing the same output path at the same time, in any interleaving, each stopped anywhere: if they use different temporary files, the output path holds
what it held before, or exactly the complete file of one of the processes that finished. -/
theorem C64_concurrent_writers_partial (fs : Fs P C) (tmp : Nat → P) (out : P) (mids : Nat → List C) (new : Nat → C) (hinj : ∀ k j, tmp k = tmp j → k = j) (hto : ∀ k, tmp k ≠ out)
    (hok : FsOk fs) (hk : ∀ k, fs.handle k = none) (l : List (Nat × FsOp P C)) (hl : ∀ k, opsOf k l <+: fitsWriter (tmp k) out (mids k) (new k)) :
    (fs.run empty l).read out = fs.read out ∨ ∃ k, opsOf k l = fitsWriter (tmp k) out (mids k) (new k) ∧ (fs.run empty l).read out = some (new k) := by
  have hinv : ∀ l : List (Nat × FsOp P C), (∀ k, opsOf k l <+: fitsWriter (tmp k) out (mids k) (new k)) → CInv fs (fs.run empty l) (fun k => (opsOf k l).length) tmp out mids new := by
    intro l
    induction l using List.reverseRecOn with
    | nil =>
      intro _
      refine ⟨hok, ?_, fun k _ => hk k, ?_, ?_, ?_, ?_⟩
      · intro k i h; change fs.handle k = some i at h; rw [hk k] at h; cases h
      · intro k h; simp [opsOf] at h
      · intro k h; simp [opsOf] at h
      · intro k j i _ h; change fs.handle k = some i at h; rw [hk k] at h; cases h
      · left
        refine ⟨rfl, fun i hi => ⟨rfl, fun k => ?_⟩⟩
        show fs.handle k ≠ some i
        rw [hk k]; simp
    | append_singleton l o ih =>
      intro h
      have ih := ih (fun k => (by rw [opsOf_append]; exact List.prefix_append _ _ : opsOf k l <+: opsOf k (l ++ [o])).trans (h k))
      obtain ⟨k, o⟩ := o
      have hk' : opsOf k (l ++ [(k, o)]) = opsOf k l ++ [o] := by rw [opsOf_append]; simp [opsOf]
      have hj' : ∀ j, j ≠ k → opsOf j (l ++ [(k, o)]) = opsOf j l := by
        intro j hj
        rw [opsOf_append]
        simp [opsOf, Ne.symm hj]
      have hget : (fitsWriter (tmp k) out (mids k) (new k))[(opsOf k l).length]? = some o := by
        obtain ⟨t, ht⟩ := h k
        rw [hk'] at ht
        rw [← ht]
        simp
      have hstep := CInv.step empty hinj hto ih k o hget
      rw [run_append]
      have hpc : (fun j => (opsOf j (l ++ [(k, o)])).length) = fun j => if j = k then (opsOf k l).length + 1 else (opsOf j l).length := by
        funext j
        by_cases hj : j = k
        · subst hj; rw [hk', if_pos rfl]; simp
        · rw [hj' j hj, if_neg hj]
      rw [hpc]
      exact hstep
  rcases (hinv l hl).outp with ⟨a, b⟩ | ⟨k, i, a, b, c, d⟩
  · left
    unfold Fs.read
    rw [← a]
    cases e : (fs.run empty l).names out with
    | none => rfl
    | some i => simp [(b i e).1]
  · right
    refine ⟨k, ?_, ?_⟩
    · apply (hl k).eq_of_length
      rw [a]
      simp [fitsWriter]
    · unfold Fs.read
      rw [b]
      simp [d]

/-- **C64** refuted for `write_zbest` (and `write_zscan`), where the temporary name is a function of the output name: two runs with the same output path can leave at the output path, at a
moment when the first run has completed without any error, an arbitrary unfinished content of the second run's file. -/
theorem C64_shared_temporary_file (fs : Fs P C) (tmp out : P) (new : Nat → C) (unfinished : C) (rest : List C) :
    ∃ l : List (Nat × FsOp P C), opsOf 0 l = fitsWriter tmp out [] (new 0) ∧ opsOf 1 l <+: fitsWriter tmp out (unfinished :: rest) (new 1) ∧
      (∀ k, 1 < k → opsOf k l = []) ∧ (fs.run empty l).read out = some unfinished := by
  refine ⟨[(0, .unlink tmp), (0, .openW tmp), (0, .put (new 0)), (1, .unlink tmp), (1, .openW tmp), (1, .put unfinished), (0, .rename tmp out)], rfl, ?_, ?_, ?_⟩
  · exact ⟨rest.map .put ++ [.put (new 1), .rename tmp out], by simp [opsOf, fitsWriter]⟩
  · intro k hk
    have h0 : (0 : Nat) ≠ k := by omega
    have h1 : (1 : Nat) ≠ k := by omega
    simp [opsOf, h0, h1]
  · simp [Fs.run, Fs.step, Fs.read]
end

/-! ### the hypotheses are met -/

/-- a disc with an old catalogue (path 0) and a stale temporary file (path 1) -/
def exFs : Fs Nat String := { names := fun p => if p = 0 then some 0 else if p = 1 then some 1 else none, data := fun i => if i = 0 then "old" else "stale", fresh := 2, handle := fun _ => none }

example : FsOk exFs ∧ (∀ k, exFs.handle k = none) ∧ (∀ q, q ≠ 1 → NoAlias exFs q 1) ∧ exFs.read 0 = some "old" := by
  refine ⟨?_, fun _ => rfl, ?_, rfl⟩
  · intro p i h
    simp only [exFs] at h ⊢
    split_ifs at h <;> (have := Option.some.inj h; omega)
  · intro q hq i h h'
    simp only [exFs] at h h'
    split_ifs at h
    · have h1 := Option.some.inj h
      have h2 : (1 : Nat) = i := by simpa using h'
      omega

/-- interrupted while the temporary file is half written -/
example : (exFs.run "" ((byProc 0 (fitsWriter 1 0 ["ne"] "new")).take 4)).read 0 = some "old" ∧ (exFs.run "" ((byProc 0 (fitsWriter 1 0 ["ne"] "new")).take 3)).read 1 = some "ne" := by decide

/-- two writers with different temporary files, interleaved, the second one unfinished -/
example : ∀ k, opsOf k ([(0, .unlink 1), (1, .unlink 2), (0, .openW 1), (1, .openW 2), (0, .put "a"), (1, .put "b"), (0, .rename 1 0)] : List (Nat × FsOp Nat String)) <+:
    fitsWriter (k + 1) 0 (if k = 1 then ["b"] else []) (if k = 0 then "a" else "bb") := by
  intro k
  match k with
  | 0 => exact ⟨[], rfl⟩
  | 1 => exact ⟨[.put "bb", .rename 2 0], rfl⟩
  | k + 2 => exact ⟨_, by simp [opsOf]; rfl⟩
end Redrock
