import Verif.Model.Memory
import Mathlib.Data.List.Basic
import Mathlib.Tactic.Common

/-!
C43: packing into shared memory is transparent; C44: Legendre cache.
-/
set_option linter.unusedSectionVars false
namespace Redrock

variable {K C V : Type}

/-! ### C43 -/

/-- What a user sees in `s` of a spectrum with these arrays and this resolution: the arrays; and `R`, unless it is packed. -/
def Shows (s : SpecMem K C) (wave flux ivar : List K) (R : DiaM K) : Prop :=
  s.wave = wave ∧ s.flux = flux ∧ s.ivar = ivar ∧ (s.mpshared = false → s.R = .val R)

/-- invariant of all states -/
private def Inv (tocsr : DiaM K → C) (wave flux ivar : List K) (R : DiaM K) (s : SpecMem K C) : Prop :=
  s.wave = wave ∧ s.flux = flux ∧ s.ivar = ivar ∧
  ((s.mpshared = false ∧ s.R = .val R ∧ (s.rcsr = .pyNone ∨ s.rcsr = .val (tocsr R))) ∨
   (s.mpshared = true ∧ s.rData = .val R.data ∧ s.rOffsets = .val R.offsets ∧ s.splen = R.splen ∧ (s.rcsrData = .pyNone ∨ s.rcsrData = .val (tocsr R))))

private theorem step_inv (tocsr : DiaM K → C) (wave flux ivar : List K) (R : DiaM K) (hR : R.shape = (R.splen, R.splen)) (s : SpecMem K C) (h : Inv tocsr wave flux ivar R s) (op : MemOp) :
    ∃ s', memStep tocsr s op = .ok (s', if op = .rcsr then some (tocsr R) else none) ∧ Inv tocsr wave flux ivar R s' ∧
      (op = .pack → s'.mpshared = true) ∧ (op ≠ .pack → s'.mpshared = false) := by
  obtain ⟨h1, h2, h3, h⟩ := h
  have hR' : (⟨(R.splen, R.splen), R.offsets, R.data, R.splen⟩ : DiaM K) = R := by rw [← hR]
  rcases h with ⟨m, r, c⟩ | ⟨m, d, o, l, c⟩
  · cases op
    · rcases c with c | c
      · refine ⟨{ s with splen := R.splen, rOffsets := .val R.offsets, rData := .val R.data, R := .missing, rcsrData := .pyNone, mpshared := true },
          by simp only [memStep, sharedmemPack, m, r, c, Bool.false_eq_true, if_false]; rfl, ⟨h1, h2, h3, Or.inr ⟨rfl, rfl, rfl, rfl, Or.inl rfl⟩⟩, fun _ => rfl, fun h => absurd rfl h⟩
      · refine ⟨{ s with splen := R.splen, rOffsets := .val R.offsets, rData := .val R.data, R := .missing, rcsrData := .val (tocsr R), rcsr := .missing, mpshared := true },
          by simp only [memStep, sharedmemPack, m, r, c, Bool.false_eq_true, if_false]; rfl, ⟨h1, h2, h3, Or.inr ⟨rfl, rfl, rfl, rfl, Or.inr rfl⟩⟩, fun _ => rfl, fun h => absurd rfl h⟩
    · refine ⟨s, ?_, ⟨h1, h2, h3, Or.inl ⟨m, r, c⟩⟩, (by simp), fun _ => m⟩
      simp only [memStep, sharedmemUnpack, m]; rfl
    · rcases c with c | c
      · refine ⟨{ s with rcsr := .val (tocsr R) }, ?_, ⟨h1, h2, h3, Or.inl ⟨m, r, Or.inr rfl⟩⟩, (by simp), fun _ => m⟩
        have hu : sharedmemUnpack s = .ok s := by simp [sharedmemUnpack, m]
        simp only [memStep, getRcsr, hu, bind, Except.bind, c, r, pure, Except.pure]
        rfl
      · refine ⟨s, ?_, ⟨h1, h2, h3, Or.inl ⟨m, r, Or.inr c⟩⟩, (by simp), fun _ => m⟩
        have hu : sharedmemUnpack s = .ok s := by simp [sharedmemUnpack, m]
        simp only [memStep, getRcsr, hu, bind, Except.bind, c, pure, Except.pure]
        rfl
  · have hun : ∃ s', sharedmemUnpack s = .ok s' ∧ s'.wave = wave ∧ s'.flux = flux ∧ s'.ivar = ivar ∧ s'.mpshared = false ∧ s'.R = .val R ∧ (s'.rcsr = .pyNone ∨ s'.rcsr = .val (tocsr R)) := by
      rcases c with c | c
      · refine ⟨{ s with R := .val R, rData := .missing, rOffsets := .missing, rcsr := .pyNone, mpshared := false }, by simp only [sharedmemUnpack, m, d, o, c, l, hR', not_true_eq_false, if_false], h1, h2, h3, rfl, rfl, Or.inl rfl⟩
      · refine ⟨{ s with R := .val R, rData := .missing, rOffsets := .missing, rcsr := .val (tocsr R), rcsrData := .missing, mpshared := false }, by simp only [sharedmemUnpack, m, d, o, c, l, hR', not_true_eq_false, if_false], h1, h2, h3, rfl, rfl, Or.inr rfl⟩
    obtain ⟨s', hu, u1, u2, u3, u4, u5, u6⟩ := hun
    cases op
    · refine ⟨s, ?_, ⟨h1, h2, h3, Or.inr ⟨m, d, o, l, c⟩⟩, (fun _ => m), fun h => absurd rfl h⟩
      simp only [memStep, sharedmemPack, m]; rfl
    · refine ⟨s', ?_, ⟨u1, u2, u3, Or.inl ⟨u4, u5, u6⟩⟩, (by simp), fun _ => u4⟩
      simp only [memStep, hu]; rfl
    · rcases u6 with u6 | u6
      · refine ⟨{ s' with rcsr := .val (tocsr R) }, ?_, ⟨u1, u2, u3, Or.inl ⟨u4, u5, Or.inr rfl⟩⟩, (by simp), fun _ => u4⟩
        simp only [memStep, getRcsr, hu, bind, Except.bind, u6, u5, pure, Except.pure]
        rfl
      · refine ⟨s', ?_, ⟨u1, u2, u3, Or.inl ⟨u4, u5, Or.inr u6⟩⟩, (by simp), fun _ => u4⟩
        simp only [memStep, getRcsr, hu, bind, Except.bind, u6, pure, Except.pure]
        rfl

/-- **C43** any sequence of packing, unpacking and accesses to `Rcsr` succeeds; every access returns the CSR form of the resolution; afterwards the arrays are unchanged, and `R` is unchanged (and available unless the last
call packed it). The spectrum may have been made with or without a ready CSR matrix. -/
theorem C43_sharedmem_transparent (tocsr : DiaM K → C) (wave flux ivar : List K) (R : DiaM K) (hR : R.shape = (R.splen, R.splen)) (rcsr : Option C) (hc : rcsr = none ∨ rcsr = some (tocsr R)) (ops : List MemOp) :
    ∃ s, memRun tocsr (newSpec wave flux ivar (some R) rcsr) ops = .ok (s, ops.map (fun op => if op = .rcsr then some (tocsr R) else none)) ∧ Shows s wave flux ivar R ∧
      (s.mpshared = true ↔ ops.getLast? = some .pack) := by
  have gen : ∀ (ops : List MemOp) (s : SpecMem K C), Inv tocsr wave flux ivar R s → ∃ s', memRun tocsr s ops = .ok (s', ops.map (fun op => if op = .rcsr then some (tocsr R) else none)) ∧
      Inv tocsr wave flux ivar R s' ∧ (s'.mpshared = true ↔ (match ops.getLast? with | none => s.mpshared = true | some op => op = .pack)) := by
    intro ops
    induction ops with
    | nil => intro s h; exact ⟨s, rfl, h, by simp⟩
    | cons op ops ih =>
      intro s h
      obtain ⟨s', h1, h2, h3, h4⟩ := step_inv tocsr wave flux ivar R hR s h op
      obtain ⟨s'', h5, h6, h7⟩ := ih s' h2
      refine ⟨s'', ?_, h6, ?_⟩
      · simp only [memRun, h1, bind, Except.bind, h5, pure, Except.pure, List.map_cons]
      · rw [h7]
        cases ops with
        | nil =>
          simp only [List.getLast?_nil, List.getLast?_singleton]
          constructor
          · intro hm
            by_contra hp
            rw [h4 hp] at hm
            exact absurd hm (by simp)
          · exact h3
        | cons a l => rw [List.getLast?_cons_cons]; cases hl : (a :: l).getLast? <;> simp_all
  have h0 : Inv tocsr wave flux ivar R (newSpec wave flux ivar (some R) rcsr) := by
    refine ⟨rfl, rfl, rfl, Or.inl ⟨rfl, rfl, ?_⟩⟩
    rcases hc with rfl | rfl
    · exact Or.inl rfl
    · exact Or.inr rfl
  obtain ⟨s, h1, ⟨a, b, c, h2⟩, h3⟩ := gen ops _ h0
  refine ⟨s, h1, ⟨a, b, c, ?_⟩, ?_⟩
  · intro hm
    rcases h2 with ⟨_, r, _⟩ | ⟨m, _⟩
    · exact r
    · rw [m] at hm
      exact absurd hm (by simp)
  · rw [h3]
    cases h : ops.getLast? <;> simp [newSpec]

/-- **C43** a spectrum without resolution cannot be packed. -/
theorem C43_no_resolution (wave flux ivar : List K) (rcsr : Option C) : sharedmemPack (newSpec wave flux ivar none rcsr) = .error .attributeError := by
  cases rcsr <;> rfl

example : memRun (fun (R : DiaM Nat) => R.data) (newSpec [1, 2] [3, 4] [5, 6] (some ⟨(2, 2), [0], [[7, 8]], 2⟩) none) [.pack, .pack, .rcsr, .pack, .unpack, .rcsr, .pack] =
    .ok (⟨[1, 2], [3, 4], [5, 6], .missing, .val [0], .val [[7, 8]], 2, .missing, .val [[7, 8]], true⟩, [none, none, some [[7, 8]], none, none, some [[7, 8]], none]) := by decide

/-! ### C44 -/

/-- **C44** (partial: CPU only) a call for the CPU returns the number of polynomials it asks for, after any history of calls on either device. Missing: calls for the GPU, see `C44_stale_gpu`. -/
theorem C44_cpu_partial (compute : Nat → V) (calls : List (Nat × Bool)) (i n : Nat) (h : calls[i]? = some (n, false)) :
    (legendreRun compute LegCache.new calls)[i]? = some (compute n) := by
  have gen : ∀ (calls : List (Nat × Bool)) (t : LegCache V), (∀ l, t.legendre = some l → l = compute t.nleg) → ∀ i : Nat, calls[i]? = some (n, false) → (legendreRun compute t calls)[i]? = some (compute n) := by
    intro calls
    induction calls with
    | nil => intro t _ i hi; simp at hi
    | cons c calls ih =>
      intro t ht i hi
      obtain ⟨n', gpu⟩ := c
      have hstep : (∀ l, (legendreCall compute t n' gpu).1.legendre = some l → l = compute (legendreCall compute t n' gpu).1.nleg) ∧ (gpu = false → (legendreCall compute t n' gpu).2 = compute n') := by
        unfold legendreCall
        cases gpu with
        | true =>
          simp only [true_and, Bool.true_eq_false, false_implies, and_true, if_true]
          split
          · split
            · rename_i hn g l' hg; exact ht
            · rename_i hn hg hl
              intro l hl'
              exact ht l hl'
            · intro l hl'; simp only [Option.some.injEq] at hl'; exact hl'.symm
          · split
            · rename_i hn l' hd hl
              intro l hl'
              exact ht l hl'
            · intro l hl'; simp only [Option.some.injEq] at hl'; exact hl'.symm
        | false =>
          simp only [Bool.false_eq_true, false_and, if_false, true_implies]
          split
          · rename_i l hd hl
            refine ⟨ht, ?_⟩
            rw [decide_eq_true_eq] at hl
            show l = compute n'
            rw [ht l hd, hl]
          · exact ⟨fun l hl' => by simp only [Option.some.injEq] at hl'; exact hl'.symm, rfl⟩
      cases i with
      | zero =>
        rw [List.getElem?_cons_zero, Option.some.injEq, Prod.mk.injEq] at hi
        obtain ⟨rfl, rfl⟩ := hi
        rw [legendreRun, List.getElem?_cons_zero, hstep.2 rfl]
      | succ i =>
        rw [legendreRun, List.getElem?_cons_succ]
        exact ih _ hstep.1 i (by simpa using hi)
  exact gen calls _ (by intro l h; simp [LegCache.new] at h) i h

/-- **C44** (partial) all calls are right, on either device, if every CPU call except the first repeats the number of the call before it; in particular if all calls are for the GPU, or all ask for the same number.
Missing: other histories, see `C44_stale_gpu`. -/
theorem C44_gpu_partial (compute : Nat → V) (calls : List (Nat × Bool)) (hrep : ∀ (i m n : Nat) (g : Bool), calls[i]? = some (m, g) → calls[i + 1]? = some (n, false) → n = m) :
    legendreRun compute LegCache.new calls = calls.map (fun c => compute c.1) := by
  have gen : ∀ (calls : List (Nat × Bool)) (t : LegCache V), (∀ l, t.legendre = some l → l = compute t.nleg) → (∀ l, t.gpulegendre = some l → l = compute t.nleg) →
      (∀ n, calls[0]? = some (n, false) → t.gpulegendre = none ∨ n = t.nleg) →
      (∀ (i m n : Nat) (g : Bool), calls[i]? = some (m, g) → calls[i + 1]? = some (n, false) → n = m) → legendreRun compute t calls = calls.map (fun c => compute c.1) := by
    intro calls
    induction calls with
    | nil => intro t _ _ _ _; rfl
    | cons c calls ih =>
      intro t h1 h2 h3 h4
      obtain ⟨n, gpu⟩ := c
      have hstep : (legendreCall compute t n gpu).2 = compute n ∧ (∀ l, (legendreCall compute t n gpu).1.legendre = some l → l = compute (legendreCall compute t n gpu).1.nleg) ∧
          (∀ l, (legendreCall compute t n gpu).1.gpulegendre = some l → l = compute (legendreCall compute t n gpu).1.nleg) ∧ (legendreCall compute t n gpu).1.nleg = n := by
        have new : ∀ l, some (compute n) = some l → l = compute n := fun l h => (Option.some.inj h).symm
        unfold legendreCall
        by_cases hc : gpu = true ∧ t.nleg = n
        · rw [if_pos hc]
          obtain ⟨hg, rfl⟩ := hc
          split
          · rename_i g hgl
            exact ⟨h2 g hgl, h1, h2, rfl⟩
          · rename_i l hgl hl
            exact ⟨h1 l hl, h1, fun l' hl' => by rw [← Option.some.inj hl']; exact h1 l hl, rfl⟩
          · exact ⟨rfl, new, new, rfl⟩
        · rw [if_neg hc]
          split
          · rename_i l hl hd
            rw [decide_eq_true_eq] at hd
            subst hd
            exact ⟨h1 l hl, h1, h2, rfl⟩
          · split
            · exact ⟨rfl, new, new, rfl⟩
            · rename_i hgpu
              refine ⟨rfl, new, ?_, rfl⟩
              intro l hl
              have hgpu' : gpu = false := by simpa using hgpu
              subst hgpu'
              rcases h3 n rfl with h | h
              · rw [h] at hl; exact absurd hl (by simp)
              · show l = compute n
                rw [h]; exact h2 l hl
      obtain ⟨s1, s2, s3, s4⟩ := hstep
      rw [legendreRun, List.map_cons, s1, ih _ s2 s3 ?_ ?_]
      · intro n' hn'
        right
        rw [s4]
        exact h4 0 n n' gpu rfl (by simpa using hn')
      · intro i m n' g hm hn'
        exact h4 (i + 1) m n' g (by simpa using hm) (by simpa using hn')
  exact gen calls _ (by intro l h; simp [LegCache.new] at h) (by intro l h; simp [LegCache.new] at h) (by intro n _; left; rfl) hrep

/-- **C44** (refuted) three calls: 3 polynomials for the GPU, 2 for the CPU, 2 for the GPU; the last call returns 3. -/
theorem C44_stale_gpu : legendreRun (fun n => List.replicate n ()) LegCache.new [(3, true), (2, false), (2, true)] = [List.replicate 3 (), List.replicate 2 (), List.replicate 3 ()] := rfl

example : legendreRun (fun n => n) LegCache.new [(5, false), (5, true), (5, false), (2, true), (3, true), (3, false)] = [5, 5, 5, 2, 3, 3] := rfl

end Redrock
