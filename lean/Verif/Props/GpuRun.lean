import Verif.Model.GpuRun
import Verif.Props.GpuMore
import Verif.Props.FullRun

/-!
C124: a run in GPU mode gives the catalogue of the run on the CPU.
-/
set_option linter.unusedSectionVars false
set_option synthInstance.maxSize 2000
namespace Redrock.Gpu
open Redrock Run Catalogue FullRun

section
variable {ι ω K σ M : Type} [DecidableEq ι] [DecidableEq ω] [Field K] [LinearOrder K] [IsStrictOrderedRing K]

/-! ### specification -/

/-- The redshifts of a fine scan: the grid of `zminfit_npoints` points between two redshifts of the template. -/
def FineGrid (c : FullCfg ι ω K σ) (tm : Tmpl ω K σ) (zs : List K) : Prop := ∃ zlo ∈ tm.redshifts, ∃ zhi ∈ tm.redshifts, zs = linspace zlo zhi c.nz

/-- `z` is the minimum of a parabola through neighbouring points of a fine scan of the target on the CPU. -/
def ParabolaMinimum (c : FullCfg ι ω K σ) (tm : Tmpl ω K σ) (spectra : List (FitSpectrum ω K)) (z : K) : Prop :=
  ∃ zz chi2 k s m w, FineGrid c tm zz ∧ fineScan c.S tm spectra zz = .ok chi2 ∧ c.minfit (pySlice zz (k - 1) (k + 2)) (pySlice chi2 (k - 1) (k + 2)) = .ok (z, s, m, w)

/-- The lists of redshifts at which the target is fitted with the template: those of the scan, of the fine scans, and the minima of parabolas. -/
def Used (c : FullCfg ι ω K σ) (tm : Tmpl ω K σ) (spectra : List (FitSpectrum ω K)) (zs : List K) : Prop :=
  zs = tm.redshifts ∨ FineGrid c tm zs ∨ ∃ z, ParabolaMinimum c tm spectra z ∧ zs = [z]

/-- The GPU bins the template on grid `h` (of `n` wavelengths) at the redshifts `zs` as the CPU does: the same numbers, in an array of shape `(nz, n, nbasis)` in C order, or the same exception. -/
def SameBinning (tm : Tmpl ω K σ) (bin : ω → List K → Py (Array3 K)) (n : Nat) (h : ω) (zs : List K) : Prop :=
  match tm.bin h zs with
  | .error e => bin h zs = .error e
  | .ok b => ∃ A, bin h zs = .ok A ∧ A.Contiguous ∧ A.nested = b ∧ A.n0 = zs.length ∧ A.n1 = n ∧ A.n2 = tm.nbasis

/-- No fit on the CPU fails at the redshifts `zs`: none of them has chi2 9999999 with zero coefficients, unless the target has no weight at all. -/
def NoFailedFit (S : Solvers K) (tm : Tmpl ω K σ) (spectra : List (FitSpectrum ω K)) (zs : List K) : Prop :=
  ∀ b r, binAll tm (hashesOf spectra) zs = .ok b →
    calcZchi2Batch (solveMatrices S tm.algorithm none) spectra b (spectralData spectra).1 (spectralData spectra).2.1 (spectralData spectra).2.2 zs.length tm.nbasis none = .ok r →
    (spectralData spectra).1.sum = 0 ∨ (9999999, List.replicate tm.nbasis 0) ∉ r

/-- A target that can be measured: its resolution matrices are well formed and square, its arrays have the length of its wavelength grid (`size`). -/
def GoodSpectra (size : ω → Nat) (spectra : List (Spec ω K)) : Prop :=
  ∀ s ∈ spectra, s.Rcsr.Valid ∧ s.Rcsr.shape0 = size s.wavehash ∧ s.Rcsr.shape1 = size s.wavehash ∧ s.flux.length = size s.wavehash ∧ s.ivar.length = size s.wavehash

/-- What a run in GPU mode needs: the run on the CPU can be started (`GoodRun`), targets are well formed, the GPU bins templates as the CPU does, runs every thread of a launch once, the two linear solvers agree
where the CPU's succeeds. -/
structure GpuSetup (c : GpuCfg ι ω K σ) (size : ω → Nat) (targets : List (ι × (List (Spec ω K) × M))) : Prop where
  cpu : GoodRun c.cpu (gridsOf (toCpuTargets targets))
  solvers : SolversOk c.cpu.S c.cpSolve
  spectra : ∀ e ∈ targets, GoodSpectra size e.2.1
  scanBin : ∀ t ∈ c.cpu.templates, ∀ h ∈ gridsOf (toCpuTargets targets), SameBinning t.2 (c.binGpu t.1) (size h) h t.2.redshifts
  bin : ∀ e ∈ targets, ∀ t ∈ c.cpu.templates, ∀ zs, Used c.cpu t.2 (e.2.1.map Spec.toFit) zs → ∀ s ∈ e.2.1, SameBinning t.2 (c.binGpu t.1) (size s.wavehash) s.wavehash zs
  device : ∀ e ∈ targets, ∀ t ∈ c.cpu.templates, ∀ fine zs, (c.dev e.1 t.1 fine zs).Ok e.2.1 zs.length t.2.nbasis

/-- The same, and no fit of a scan or fine scan fails on the CPU. -/
structure GoodGpuRun (c : GpuCfg ι ω K σ) (size : ω → Nat) (targets : List (ι × (List (Spec ω K) × M))) : Prop extends GpuSetup c size targets where
  noFailure : ∀ e ∈ targets, ∀ t ∈ c.cpu.templates, ∀ zs, zs = t.2.redshifts ∨ FineGrid c.cpu t.2 zs → NoFailedFit c.cpu.S t.2 (e.2.1.map Spec.toFit) zs

/-- The ranks share the targets among them, each target on one rank, and only ranks with a GPU have targets (`C03` says when `rrdesi` distributes them like that). -/
def GpuRanks (targets : List (ι × (List (Spec ω K) × M))) (ranks : List (Bool × List (ι × (List (Spec ω K) × M)))) : Prop :=
  (ranks.map (·.2)).flatten.Perm targets ∧ ∀ r ∈ ranks, r.1 = false → r.2 = []

/-! ### binning -/

theorem binAllGpu_eq (tm : Tmpl ω K σ) (bin : ω → List K → Py (Array3 K)) (size : ω → Nat) (zs : List K) (hashes : List ω) (h : ∀ k ∈ hashes, SameBinning tm bin (size k) k zs) :
    (∃ b, binAllGpu bin hashes zs = .ok b ∧ binAll tm hashes zs = .ok (toCpu b) ∧
      ∀ k ∈ hashes, ∃ A, b.get? k = some A ∧ A.Contiguous ∧ A.n0 = zs.length ∧ A.n1 = size k ∧ A.n2 = tm.nbasis) ∨
    (∃ e, binAllGpu bin hashes zs = .error e ∧ binAll tm hashes zs = .error e) := by
  induction hashes with
  | nil => exact Or.inl ⟨[], rfl, rfl, by simp⟩
  | cons k ks ih =>
    have hk := h k (by simp)
    unfold SameBinning at hk
    unfold binAllGpu binAll
    rw [List.mapM_cons, List.mapM_cons]
    cases hb : tm.bin k zs with
    | error e =>
      rw [hb] at hk
      right
      refine ⟨e, ?_, rfl⟩
      rw [show bin k zs = .error e from hk]; rfl
    | ok b =>
      rw [hb] at hk
      obtain ⟨A, h1, h2, h3, h4, h5, h6⟩ := hk
      rw [h1]
      rcases ih (fun x hx => h x (List.mem_cons_of_mem _ hx)) with ⟨b', i1, i2, i3⟩ | ⟨e, i1, i2⟩
      · left
        unfold binAllGpu at i1
        unfold binAll at i2
        refine ⟨(k, A) :: b', ?_, ?_, ?_⟩
        · simp only [okBind]
          rw [i1]; rfl
        · simp only [okBind]
          rw [i2]
          show Except.ok _ = Except.ok _
          rw [← h3]; rfl
        · intro x hx
          by_cases hxk : k = x
          · subst hxk
            exact ⟨A, by simp [PyDict.get?], h2, h4, h5, h6⟩
          · rcases List.mem_cons.1 hx with rfl | hx
            · exact absurd rfl hxk
            · obtain ⟨B, j1, j2⟩ := i3 x hx
              refine ⟨B, ?_, j2⟩
              rw [← j1]
              simp [PyDict.get?, hxk]
      · right
        unfold binAllGpu at i1
        unfold binAll at i2
        refine ⟨e, ?_, ?_⟩
        · simp only [okBind]
          rw [i1]; rfl
        · simp only [okBind]
          rw [i2]; rfl

theorem onGpu_of (size : ω → Nat) (spectra : List (Spec ω K)) (hs : GoodSpectra size spectra) (b : PyDict ω (Array3 K)) (nz nbasis : Nat)
    (hb : ∀ s ∈ spectra, ∃ A, b.get? s.wavehash = some A ∧ A.Contiguous ∧ A.n0 = nz ∧ A.n1 = size s.wavehash ∧ A.n2 = nbasis) : OnGpu spectra b nz nbasis := by
  intro s hsm
  obtain ⟨h1, h2, h3, _, _⟩ := hs s hsm
  obtain ⟨A, a1, a2, a3, a4, a5⟩ := hb s hsm
  exact ⟨h1, A, a1, a2, a3, a5, by rw [h2, a4], by rw [h3, a4]⟩

theorem data_lengths (size : ω → Nat) (spectra : List (Spec ω K)) (hs : GoodSpectra size spectra) :
    (gpuSpectralData spectra).1.length = nrowsOf spectra ∧ (gpuSpectralData spectra).2.1.length = nrowsOf spectra ∧ (gpuSpectralData spectra).2.2.length = nrowsOf spectra := by
  have hlen : ∀ (f : Spec ω K → List K), (∀ s ∈ spectra, (f s).length = s.Rcsr.shape0) → (spectra.flatMap f).length = nrowsOf spectra := by
    intro f hf
    unfold nrowsOf
    rw [List.length_flatMap]
    congr 1
    exact List.map_congr_left hf
  have hw : (gpuSpectralData spectra).1 = spectra.flatMap (·.ivar) := by simp only [gpuSpectralData, spectralData, List.flatMap_map]; rfl
  have hf : (gpuSpectralData spectra).2.1 = spectra.flatMap (·.flux) := by simp only [gpuSpectralData, spectralData, List.flatMap_map]; rfl
  have h1 : (gpuSpectralData spectra).1.length = nrowsOf spectra := by
    rw [hw]; apply hlen; intro s h; obtain ⟨_, a, _, _, b⟩ := hs s h; rw [a, b]
  have h2 : (gpuSpectralData spectra).2.1.length = nrowsOf spectra := by
    rw [hf]; apply hlen; intro s h; obtain ⟨_, a, _, b, _⟩ := hs s h; rw [a, b]
  refine ⟨h1, h2, ?_⟩
  have : (gpuSpectralData spectra).2.2 = List.zipWith (· * ·) (gpuSpectralData spectra).1 (gpuSpectralData spectra).2.1 := rfl
  rw [this, List.length_zipWith, h1, h2, Nat.min_self]

/-- the batch on the CPU always returns -/
theorem cpu_batch_ok (S : Solvers K) (tm : Tmpl ω K σ) (hs : ∀ A y e, solveMatrices S tm.algorithm none A y = .error e → e = .linAlgError ∨ e = .notImplemented)
    (spectra : List (Spec ω K)) (b : PyDict ω (Array3 K)) (w f wf : List K) (nz : Nat) (hin : OnGpu spectra b nz tm.nbasis) :
    ∃ r, calcZchi2Batch (solveMatrices S tm.algorithm none) (spectra.map Spec.toFit) (toCpu b) w f wf nz tm.nbasis none = .ok r := by
  by_cases h0 : w.sum = 0
  · unfold calcZchi2Batch
    rw [if_pos h0]
    exact ⟨_, rfl⟩
  rw [cpu_batch _ _ _ _ _ _ _ _ _ h0 hin]
  obtain ⟨r, hr, _⟩ := mapM_forall₂ (fun i => fitOne (solveMatrices S tm.algorithm none) (tbOf spectra b tm.nbasis i) w f wf tm.nbasis none) (fun _ _ => True) (List.range nz) (fun i _ => by
    obtain ⟨q, hq⟩ := fitOne_total (solveMatrices S tm.algorithm none) hs (tbOf spectra b tm.nbasis i) w f wf tm.nbasis
    exact ⟨q, hq, trivial⟩)
  exact ⟨r, hr⟩

/-- one call of `calc_zchi2_batch` -/
theorem batch_same (D : Device K) (S : Solvers K) (cpSolve : List (List K) → List K → List K) (hS : SolversOk S cpSolve) (size : ω → Nat) (tm : Tmpl ω K σ)
    (spectra : List (Spec ω K)) (hsp : GoodSpectra size spectra) (b : PyDict ω (Array3 K)) (nz : Nat) (fp : Bool) (hin : OnGpu spectra b nz tm.nbasis) (hD : D.Ok spectra nz tm.nbasis)
    (r : List (K × List K)) (hr : calcZchi2Batch (solveMatrices S tm.algorithm none) (spectra.map Spec.toFit) (toCpu b) (gpuSpectralData spectra).1 (gpuSpectralData spectra).2.1 (gpuSpectralData spectra).2.2
      nz tm.nbasis none = .ok r) (hno : (gpuSpectralData spectra).1.sum = 0 ∨ (9999999, List.replicate tm.nbasis 0) ∉ r) :
    calcZchi2BatchGpu D S cpSolve tm.algorithm none spectra b (gpuSpectralData spectra).1 (gpuSpectralData spectra).2.1 (gpuSpectralData spectra).2.2 nz tm.nbasis fp none = .ok r := by
  by_cases h0 : (gpuSpectralData spectra).1.sum = 0
  · unfold calcZchi2Batch at hr
    rw [if_pos h0] at hr
    unfold calcZchi2BatchGpu
    rw [if_pos h0]
    exact hr
  obtain ⟨l1, l2, l3⟩ := data_lengths size spectra hsp
  obtain ⟨g, h1, h2, h3, h4⟩ := C100_gpu_equals_cpu_partial D S cpSolve hS tm.algorithm none spectra b _ _ _ nz tm.nbasis fp none hin hD l1 l2 l3 r hr
  rw [h1]
  congr 1
  apply List.ext_getElem?
  intro i
  by_cases hi : i < nz
  · rcases h4 i hi with h | h
    · exact h
    · rcases hno with h' | h'
      · exact absurd h' h0
      · exact absurd (List.mem_of_getElem? h) h'
  · rw [List.getElem?_eq_none (by omega), List.getElem?_eq_none (by omega)]

/-! ### one target -/

theorem batch_congr (solve : List (List K) → List K → Py (List K)) (spectra : List (FitSpectrum ω K)) (b b' : PyDict ω (List (List (List K)))) (w f wf : List K) (nz nbasis : Nat) (prior : Option (List (List K)))
    (h : ∀ s ∈ spectra, b.get? s.wavehash = b'.get? s.wavehash) : calcZchi2Batch solve spectra b w f wf nz nbasis prior = calcZchi2Batch solve spectra b' w f wf nz nbasis prior := by
  unfold calcZchi2Batch
  split
  · rfl
  · apply mapM_congr'
    intro i _
    have : dotProductSparseOne spectra b nbasis i = dotProductSparseOne spectra b' nbasis i := by
      unfold dotProductSparseOne
      congr 1
      apply mapM_congr'
      intro s hs
      rw [h s hs]
    rw [this]

/-- the scan of one target on its GPU rank -/
theorem scanSlice_same (c : GpuCfg ι ω K σ) (size : ω → Nat) (hS : SolversOk c.cpu.S c.cpSolve) (tid : ι) (ft : PyStr) (tm : Tmpl ω K σ)
    (hs : ∀ A y e, solveMatrices c.cpu.S tm.algorithm none A y = .error e → e = .linAlgError ∨ e = .notImplemented) (grids : List ω) (spectra : List (Spec ω K)) (hsp : GoodSpectra size spectra)
    (hg : ∀ s ∈ spectra, s.wavehash ∈ grids) (zs : List K) (hbin : ∀ h ∈ grids, SameBinning tm (c.binGpu ft) (size h) h zs) (hD : (c.dev tid ft false zs).Ok spectra zs.length tm.nbasis)
    (hno : NoFailedFit c.cpu.S tm (spectra.map Spec.toFit) zs) :
    scanSliceGpu c tid ft tm grids spectra zs = scanSlice c.cpu.S tm grids (spectra.map Spec.toFit) zs := by
  unfold scanSliceGpu scanSlice
  rcases binAllGpu_eq tm (c.binGpu ft) size zs grids hbin with ⟨b, h1, h2, h3⟩ | ⟨e, h1, h2⟩
  · rw [h1, h2]
    simp only [okBind]
    have hin : OnGpu spectra b zs.length tm.nbasis := onGpu_of size spectra hsp b _ _ (fun s hsm => h3 _ (hg s hsm))
    obtain ⟨r, hr⟩ := cpu_batch_ok c.cpu.S tm hs spectra b (gpuSpectralData spectra).1 (gpuSpectralData spectra).2.1 (gpuSpectralData spectra).2.2 zs.length hin
    have hmark : (gpuSpectralData spectra).1.sum = 0 ∨ (9999999, List.replicate tm.nbasis 0) ∉ r := by
      rcases binAllGpu_eq tm (c.binGpu ft) size zs (hashesOf (spectra.map Spec.toFit)) (fun k hk => by
        obtain ⟨s, hsm, rfl⟩ := (mem_hashesOf _ k).1 hk
        obtain ⟨s0, hs0, rfl⟩ := List.mem_map.1 hsm
        exact hbin _ (hg s0 hs0)) with ⟨b0, k1, k2, k3⟩ | ⟨e, k1, k2⟩
      · refine hno (toCpu b0) r k2 ?_
        rw [← hr]
        apply batch_congr
        intro s hsm
        obtain ⟨t1, u1, u2⟩ := binAll_get tm _ zs _ k2 s.wavehash ((mem_hashesOf _ _).2 ⟨s, hsm, rfl⟩)
        obtain ⟨s0, hs0, rfl⟩ := List.mem_map.1 hsm
        obtain ⟨t2, v1, v2⟩ := binAll_get tm _ zs _ h2 s0.wavehash (hg s0 hs0)
        rw [u2]
        show _ = (toCpu b).get? s0.wavehash
        rw [v2]
        rw [show (s0.toFit).wavehash = s0.wavehash from rfl] at u1
        rw [u1] at v1
        rw [Except.ok.inj v1]
      · exfalso
        have : ∀ (l : List ω), (∀ k ∈ l, k ∈ grids) → ∃ x, binAll tm l zs = .ok x := by
          intro l hl
          induction l with
          | nil => exact ⟨[], rfl⟩
          | cons k l ih =>
            obtain ⟨x, hx⟩ := ih (fun y hy => hl y (List.mem_cons_of_mem _ hy))
            obtain ⟨t, ht, _⟩ := binAll_get tm _ zs _ h2 k (hl k (by simp))
            refine ⟨(k, t) :: x, ?_⟩
            unfold binAll at hx ⊢
            rw [List.mapM_cons, ht]
            simp only [okBind]
            rw [hx]; rfl
        obtain ⟨x, hx⟩ := this (hashesOf (spectra.map Spec.toFit)) (fun k hk => by
          obtain ⟨s, hsm, rfl⟩ := (mem_hashesOf _ k).1 hk
          obtain ⟨s0, hs0, rfl⟩ := List.mem_map.1 hsm
          exact hg s0 hs0)
        rw [hx] at k2
        cases k2
    have hg2 := batch_same (c.dev tid ft false zs) c.cpu.S c.cpSolve hS size tm spectra hsp b zs.length false hin hD r hr hmark
    congr 1
    unfold calcZchi2TargetGpu calcZchi2Target
    simp only
    show (if (gpuSpectralData spectra).1.sum = 0 then _ else _) = (if (gpuSpectralData spectra).1.sum = 0 then _ else _)
    split
    · rfl
    · rw [hg2]
      show _ = (calcZchi2Batch _ _ _ (gpuSpectralData spectra).1 (gpuSpectralData spectra).2.1 (gpuSpectralData spectra).2.2 _ _ _ >>= _)
      rw [hr]
      rfl
  · rw [h1, h2]; rfl

/-- a fine scan of one target -/
theorem fineScan_same (c : GpuCfg ι ω K σ) (size : ω → Nat) (hS : SolversOk c.cpu.S c.cpSolve) (tid : ι) (ft : PyStr) (tm : Tmpl ω K σ)
    (hs : ∀ A y e, solveMatrices c.cpu.S tm.algorithm none A y = .error e → e = .linAlgError ∨ e = .notImplemented) (spectra : List (Spec ω K)) (hsp : GoodSpectra size spectra)
    (zs : List K) (hbin : ∀ s ∈ spectra, SameBinning tm (c.binGpu ft) (size s.wavehash) s.wavehash zs) (hD : (c.dev tid ft true zs).Ok spectra zs.length tm.nbasis)
    (hno : NoFailedFit c.cpu.S tm (spectra.map Spec.toFit) zs) :
    fineScanGpu c tid ft tm spectra zs = fineScan c.cpu.S tm (spectra.map Spec.toFit) zs := by
  have hbin' : ∀ k ∈ hashesOf (spectra.map Spec.toFit), SameBinning tm (c.binGpu ft) (size k) k zs := by
    intro k hk
    obtain ⟨s, hsm, rfl⟩ := (mem_hashesOf _ k).1 hk
    obtain ⟨s0, hs0, rfl⟩ := List.mem_map.1 hsm
    exact hbin s0 hs0
  unfold fineScanGpu fineScan
  rcases binAllGpu_eq tm (c.binGpu ft) size zs _ hbin' with ⟨b, h1, h2, h3⟩ | ⟨e, h1, h2⟩
  · rw [h1, h2]
    simp only [okBind]
    have hin : OnGpu spectra b zs.length tm.nbasis := onGpu_of size spectra hsp b _ _ (fun s hsm => h3 _ ((mem_hashesOf _ _).2 ⟨s.toFit, List.mem_map.2 ⟨s, hsm, rfl⟩, rfl⟩))
    obtain ⟨r, hr⟩ := cpu_batch_ok c.cpu.S tm hs spectra b (gpuSpectralData spectra).1 (gpuSpectralData spectra).2.1 (gpuSpectralData spectra).2.2 zs.length hin
    rw [batch_same (c.dev tid ft true zs) c.cpu.S c.cpSolve hS size tm spectra hsp b zs.length true hin hD r hr (hno _ r h2 hr)]
    show _ = (calcZchi2Batch _ _ _ (gpuSpectralData spectra).1 (gpuSpectralData spectra).2.1 (gpuSpectralData spectra).2.2 _ _ _ >>= _)
    rw [hr]
    rfl
  · rw [h1, h2]; rfl

/-- the coefficients at the minimum -/
theorem fitAtZ_same (c : GpuCfg ι ω K σ) (size : ω → Nat) (ft : PyStr) (tm : Tmpl ω K σ) (spectra : List (Spec ω K)) (z : K)
    (hbin : ∀ s ∈ spectra, SameBinning tm (c.binGpu ft) (size s.wavehash) s.wavehash [z]) : fitAtZGpu c ft tm spectra z = fitAtZ c.cpu.S tm (spectra.map Spec.toFit) z := by
  have hbin' : ∀ k ∈ hashesOf (spectra.map Spec.toFit), SameBinning tm (c.binGpu ft) (size k) k [z] := by
    intro k hk
    obtain ⟨s, hsm, rfl⟩ := (mem_hashesOf _ k).1 hk
    obtain ⟨s0, hs0, rfl⟩ := List.mem_map.1 hsm
    exact hbin s0 hs0
  unfold fitAtZGpu fitAtZ
  rcases binAllGpu_eq tm (c.binGpu ft) size [z] _ hbin' with ⟨b, h1, h2, h3⟩ | ⟨e, h1, h2⟩
  · rw [h1, h2]; rfl
  · rw [h1, h2]; rfl

/-! ### `fitz` -/

theorem fitzBody_congr (E E' : FitEnv K) (hb : E.nbasis = E'.nbasis) (hst : E.isStar = E'.isStar) (hnz : E.nz = E'.nz) (hm : E.minfit = E'.minfit) (ha : E.arch = E'.arch) (redshifts : List K)
    (hscan : ∀ zlo ∈ redshifts, ∀ zhi ∈ redshifts, E.scan (linspace zlo zhi E'.nz) = E'.scan (linspace zlo zhi E'.nz))
    (hfit : ∀ zlo ∈ redshifts, ∀ zhi ∈ redshifts, ∀ chi2, E'.scan (linspace zlo zhi E'.nz) = .ok chi2 → ∀ (k : Int) z s m w,
      E'.minfit (pySlice (linspace zlo zhi E'.nz) (k - 1) (k + 2)) (pySlice chi2 (k - 1) (k + 2)) = .ok (z, s, m, w) → E.fitAt z = E'.fitAt z)
    (n : Nat) (results : List (Cand K)) (imin : Nat) : fitzBody E n redshifts results imin = fitzBody E' n redshifts results imin := by
  have hfin : ∀ zz zzchi2 zmin sigma chi2min zwarn coeff tr, fitzFinish E redshifts zz zzchi2 results zmin sigma chi2min zwarn coeff tr = fitzFinish E' redshifts zz zzchi2 results zmin sigma chi2min zwarn coeff tr := by
    intro zz zzchi2 zmin sigma chi2min zwarn coeff tr
    unfold fitzFinish
    rw [hst, ha]
  unfold fitzBody
  cases h1 : npGet redshifts imin with
  | error e => rfl
  | ok zi =>
    simp only [okBind]
    rw [hst]
    split
    · rfl
    · cases h2 : npGet redshifts (imin - 1) with
      | error e => rfl
      | ok zlo =>
        simp only [okBind]
        cases h3 : npGet redshifts (min (imin + 1) (n - 1)) with
        | error e => rfl
        | ok zhi =>
          simp only [okBind]
          have m2 : zlo ∈ redshifts := by
            unfold npGet at h2
            cases hx : redshifts[imin - 1]? with
            | none => rw [hx] at h2; cases h2
            | some v => rw [hx] at h2; rw [← Except.ok.inj h2]; exact List.mem_of_getElem? hx
          have m3 : zhi ∈ redshifts := by
            unfold npGet at h3
            cases hx : redshifts[min (imin + 1) (n - 1)]? with
            | none => rw [hx] at h3; cases h3
            | some v => rw [hx] at h3; rw [← Except.ok.inj h3]; exact List.mem_of_getElem? hx
          rw [hnz, hscan zlo m2 zhi m3]
          cases h4 : E'.scan (linspace zlo zhi E'.nz) with
          | error e => rfl
          | ok chi2 =>
            simp only [okBind]
            cases h5 : npArgmin chi2 with
            | error e => rfl
            | ok am =>
              simp only [okBind]
              rw [hm]
              cases h6 : E'.minfit (pySlice (linspace zlo zhi E'.nz) (min (max (am : Int) 1) (((linspace zlo zhi E'.nz).length : Int) - 2) - 1)
                  (min (max (am : Int) 1) (((linspace zlo zhi E'.nz).length : Int) - 2) + 2))
                (pySlice chi2 (min (max (am : Int) 1) (((linspace zlo zhi E'.nz).length : Int) - 2) - 1) (min (max (am : Int) 1) (((linspace zlo zhi E'.nz).length : Int) - 2) + 2)) with
              | error e => rfl
              | ok q =>
                obtain ⟨z, s, m, w⟩ := q
                simp only [okBind]
                rw [hfit zlo m2 zhi m3 chi2 h4 _ z s m w h6, hb]
                simp only [hfin]

theorem fitz_congr (argsort : List (Ext K) → List Nat) (E E' : FitEnv K) (hb : E.nbasis = E'.nbasis) (hst : E.isStar = E'.isStar) (hnz : E.nz = E'.nz) (hm : E.minfit = E'.minfit) (ha : E.arch = E'.arch)
    (redshifts : List K) (hscan : ∀ zlo ∈ redshifts, ∀ zhi ∈ redshifts, E.scan (linspace zlo zhi E'.nz) = E'.scan (linspace zlo zhi E'.nz))
    (hfit : ∀ zlo ∈ redshifts, ∀ zhi ∈ redshifts, ∀ chi2, E'.scan (linspace zlo zhi E'.nz) = .ok chi2 → ∀ (k : Int) z s m w,
      E'.minfit (pySlice (linspace zlo zhi E'.nz) (k - 1) (k + 2)) (pySlice chi2 (k - 1) (k + 2)) = .ok (z, s, m, w) → E.fitAt z = E'.fitAt z)
    (nminima : Nat) (zchi2 : List (Ext K)) : fitz argsort E nminima zchi2 redshifts = fitz argsort E' nminima zchi2 redshifts := by
  have hloop : ∀ (l : List Nat) (n : Nat) (results : List (Cand K)), fitzLoop E nminima n redshifts l results = fitzLoop E' nminima n redshifts l results := by
    intro l
    induction l with
    | nil => intros; rfl
    | cons i l ih =>
      intro n results
      simp only [fitzLoop, fitzBody_congr E E' hb hst hnz hm ha redshifts hscan hfit, ih]
  unfold fitz
  simp only [hloop]

/-- `fitz` of one target with one template -/
theorem fitRows_same (c : GpuCfg ι ω K σ) (size : ω → Nat) (targets : List (ι × (List (Spec ω K) × M))) (hg : GoodGpuRun c size targets) (e : ι × (List (Spec ω K) × M)) (he : e ∈ targets)
    (t : PyStr × Tmpl ω K σ) (ht : t ∈ c.cpu.templates) (rows : List (ScanRow K)) : fitRowsGpu c e.1 t.1 t.2 e.2.1 rows = fitRows c.cpu (e.2.1.map Spec.toFit) t.2 rows := by
  obtain ⟨g, hsc⟩ := hg.cpu.scan t ht
  unfold fitRowsGpu fitRows
  rw [fitz_congr c.cpu.argsort (fitEnvGpu c e.1 t.1 t.2 e.2.1) (fitEnvOf c.cpu.minfit c.cpu.nz c.cpu.S t.2 (e.2.1.map Spec.toFit)) rfl rfl rfl rfl rfl]
  · intro zlo hlo zhi hhi
    have hf : FineGrid c.cpu t.2 (linspace zlo zhi c.cpu.nz) := ⟨zlo, hlo, zhi, hhi, rfl⟩
    exact fineScan_same c size hg.solvers e.1 t.1 t.2 hsc.solver e.2.1 (hg.spectra e he) _ (fun s hs => hg.bin e he t ht _ (Or.inr (Or.inl hf)) s hs) (hg.device e he t ht true _) (hg.noFailure e he t ht _ (Or.inr hf))
  · intro zlo hlo zhi hhi chi2 hchi k z s m w hmin
    have hf : FineGrid c.cpu t.2 (linspace zlo zhi c.cpu.nz) := ⟨zlo, hlo, zhi, hhi, rfl⟩
    exact fitAtZ_same c size t.1 t.2 e.2.1 z (fun s' hs' => hg.bin e he t ht _ (Or.inr (Or.inr ⟨z, ⟨_, chi2, k, s, m, w, hf, hchi, hmin⟩, rfl⟩)) s' hs')

/-! ### one rank -/

theorem scanPieces_one {T Z R : Type} (f : T → Z → R) (L : List (ι × T)) (hn : (L.map (·.1)).Nodup) (r : Nat) (zs : List Z) :
    scanPieces f (L.map (·.1)) (L.map (·.2)) [{ index := r, redshifts := zs }] = .ok (scanSpec f L zs) := by
  rw [scanPieces_eq f L hn _ (by simp)]
  congr 1
  unfold assemble scanSpec
  rw [List.map_map]
  apply List.map_congr_left
  intro e _
  simp [sortedKeys, PyDict.keys, PyDict.get?, pySort, PyDict.set, pieceDict]

theorem scanSlices_map {T T' Z R : Type} (fs : T → List Z → Py (List R)) (fs' : T' → List Z → Py (List R)) (ids : List ι) (L : List T) (h : T → T') (pieces : List (Piece Z))
    (hfs : ∀ p ∈ pieces, ∀ e ∈ L, fs e p.redshifts = fs' (h e) p.redshifts) : scanSlices fs ids L pieces = scanSlices fs' ids (L.map h) pieces := by
  unfold scanSlices
  congr 1
  apply foldlM_congr
  intro d p hp
  have : calcZchi2Slice fs ids L p.redshifts = calcZchi2Slice fs' ids (L.map h) p.redshifts := by
    unfold calcZchi2Slice
    apply mapM_congr'
    intro j _
    rw [List.getElem?_map]
    cases hx : L[j]? with
    | none => rfl
    | some e => exact hfs p hp e (List.mem_of_getElem? hx)
  rw [this]

theorem scanSlices_empty {T Z R : Type} (fs : T → List Z → Py (List R)) (L : List T) (pieces : List (Piece Z)) : scanSlices fs ([] : List ι) L pieces = .ok [] := by
  unfold scanSlices
  have : pieces.foldlM (fun (d : PyDict ι (PyDict Nat (List R))) p => do
      let rows ← calcZchi2Slice fs ([] : List ι) L p.redshifts
      return storePiece ([] : List ι) rows p.index d) [] = .ok [] := by
    induction pieces with
    | nil => rfl
    | cons p ps ih => exact ih
  rw [this]; rfl

theorem rankFinish_map {T T' Z R F : Type} (prior : ι → List Z → List R → List R) (fitz : T → RunTemplate Z → List R → Py F) (fitz' : T' → RunTemplate Z → List R → Py F) (mdOf : T → M) (mdOf' : T' → M)
    (sorted : List (RunTemplate Z)) (L : List (ι × T)) (L' : List (ι × T')) (hL : List.Forall₂ (fun a b => a.1 = b.1 ∧ mdOf a.2 = mdOf' b.2 ∧ ∀ t ∈ sorted, ∀ rows, fitz a.2 t rows = fitz' b.2 t rows) L L')
    (res : PyDict ι (RunResult Z R F M)) : rankFinish prior fitz mdOf sorted L res = rankFinish prior fitz' mdOf' sorted L' res := by
  have hmeta : ∀ (r : PyDict ι (RunResult Z R F M)), L.foldlM (metaStepRun mdOf) r = L'.foldlM (metaStepRun mdOf') r := by
    induction hL with
    | nil => intro r; rfl
    | @cons a b as bs h _ ih =>
      intro r
      rw [List.foldlM_cons, List.foldlM_cons]
      have : metaStepRun mdOf r a = metaStepRun mdOf' r b := by
        unfold metaStepRun
        rw [h.1, h.2.1]
      rw [this]
      congr 1
      funext x
      exact ih x
  have hfit : ∀ (ts : List (RunTemplate Z)), (∀ t ∈ ts, t ∈ sorted) → ∀ (r : PyDict ι (RunResult Z R F M)),
      (ts.flatMap (fun t => L.map (fun tg => (t, tg)))).foldlM (fitStep fitz) r = (ts.flatMap (fun t => L'.map (fun tg => (t, tg)))).foldlM (fitStep fitz') r := by
    intro ts
    induction ts with
    | nil => intros; rfl
    | cons t ts ih =>
      intro hts r
      rw [List.flatMap_cons, List.flatMap_cons, List.foldlM_append, List.foldlM_append]
      have h1 : ∀ r : PyDict ι (RunResult Z R F M), (L.map (fun tg => (t, tg))).foldlM (fitStep fitz) r = (L'.map (fun tg => (t, tg))).foldlM (fitStep fitz') r := by
        clear hmeta ih
        induction hL with
        | nil => intro r; rfl
        | @cons a b as bs h _ ih =>
          intro r
          rw [List.map_cons, List.map_cons, List.foldlM_cons, List.foldlM_cons]
          have : fitStep fitz r (t, a) = fitStep fitz' r (t, b) := by
            unfold fitStep
            simp only [h.1, h.2.2 t (hts t (by simp))]
          rw [this]
          congr 1
          funext x
          exact ih x
      rw [h1]
      congr 1
      funext x
      exact ih (fun u hu => hts u (List.mem_cons_of_mem _ hu)) x
  unfold rankFinish fitLocal
  rw [hfit sorted (fun t h => h)]
  congr 1
  funext x
  exact hmeta x

theorem runSorted_mem (c : FullCfg ι ω K σ) (hn : (c.templates.map (·.1)).Nodup) (t : RunTemplate K) (ht : t ∈ c.runSorted) : ∃ u ∈ c.templates, t = ⟨u.1, u.2.redshifts⟩ := by
  unfold FullCfg.runSorted at ht
  rw [List.mem_filterMap] at ht
  obtain ⟨ft, _, h⟩ := ht
  cases hx : c.templates.get? ft with
  | none => rw [hx] at h; cases h
  | some tm =>
    rw [hx] at h
    exact ⟨(ft, tm), PyDict.mem_of_get? _ _ _ hx, (Option.some.inj h).symm⟩

/-- a rank with a GPU, or without targets, does what a rank does that has all redshifts on the CPU -/
theorem gpuRank_eq (c : GpuCfg ι ω K σ) (size : ω → Nat) (targets : List (ι × (List (Spec ω K) × M))) (hg : GoodGpuRun c size targets) (u : Bool) (r : Nat)
    (loc : List (ι × (List (Spec ω K) × M))) (hloc : ∀ e ∈ loc, e ∈ targets) (hu : u = false → loc = []) :
    gpuRank c (gridsOf (toCpuTargets targets)) u r loc = fullRank c.cpu (gridsOf (toCpuTargets targets)) (toCpuTargets loc) (fun t => [{ index := r, redshifts := t.redshifts }]) := by
  cases loc with
  | nil =>
    unfold gpuRank fullRank
    simp only [toCpuTargets, List.map_nil, scanSlices_empty]
    congr 1
    funext res
    exact rankFinish_map _ _ _ _ _ _ _ _ .nil res
  | cons e0 rest =>
    have hut : u = true := by
      cases u with
      | true => rfl
      | false => exact absurd (hu rfl) (by simp)
    subst hut
    generalize hL : e0 :: rest = loc at hloc
    have hpieces : ∀ zs : List K, gpuPieces true loc.isEmpty r zs = [{ index := r, redshifts := zs }] := by
      intro zs; subst hL; rfl
    have hids : (toCpuTargets loc).map (·.1) = loc.map (·.1) := by unfold toCpuTargets; rw [List.map_map]; rfl
    have hdata : (toCpuTargets loc).map (·.2) = loc.map (fun e => (e.2.1.map Spec.toFit, e.2.2)) := by unfold toCpuTargets; rw [List.map_map]; rfl
    unfold gpuRank fullRank
    rw [hids, hdata]
    have hscan : (calcZchi2Targets c.cpu.le (fun t => do
        let tm ← c.cpu.templates.get t.fulltype
        scanSlices (fun (e : ι × (List (Spec ω K) × M)) zs => if true = true then scanSliceGpu c e.1 t.fulltype tm (gridsOf (toCpuTargets targets)) e.2.1 zs else scanSliceNone c.cpu.S tm e.2.1 zs) (loc.map (·.1)) loc
          (gpuPieces true loc.isEmpty r t.redshifts)) c.cpu.runTemplates (loc.map (·.1)) : Py (PyDict ι (RunResult K (ScanRow K) (TemplateFit K σ) M))) =
        calcZchi2Targets c.cpu.le (fun t => do
          let tm ← c.cpu.templates.get t.fulltype
          scanSlices (fun (tg : List (FitSpectrum ω K) × M) zs => scanSlice c.cpu.S tm (gridsOf (toCpuTargets targets)) tg.1 zs) (loc.map (·.1)) (loc.map (fun e => (e.2.1.map Spec.toFit, e.2.2)))
            [{ index := r, redshifts := t.redshifts }]) c.cpu.runTemplates (loc.map (·.1)) := by
      unfold calcZchi2Targets
      apply foldlM_congr
      intro b t ht
      obtain ⟨u, hu', rfl⟩ := List.mem_map.1 ht
      have hget := get?_of_mem c.cpu.templates hg.cpu.names u hu'
      have h1 : c.cpu.templates.get u.1 = .ok u.2 := by unfold PyDict.get; rw [hget]
      simp only [h1, okBind, hpieces, if_true]
      congr 1
      apply scanSlices_map
      intro p hp e he
      simp only [List.mem_singleton] at hp
      subst hp
      obtain ⟨g, hsc⟩ := hg.cpu.scan u hu'
      exact scanSlice_same c size hg.solvers e.1 u.1 u.2 hsc.solver (gridsOf (toCpuTargets targets)) e.2.1 (hg.spectra e (hloc e he)) (fun s hs =>
        mem_gridsOf (toCpuTargets targets) (e.1, (e.2.1.map Spec.toFit, e.2.2)) (List.mem_map.2 ⟨e, hloc e he, rfl⟩) s.toFit (List.mem_map.2 ⟨s, hs, rfl⟩)) u.2.redshifts (hg.scanBin u hu')
        (hg.device e (hloc e he) u hu' false _) (hg.noFailure e (hloc e he) u hu' _ (Or.inl rfl))
    rw [hscan]
    congr 1
    funext res
    apply rankFinish_map
    unfold toCpuTargets
    rw [List.forall₂_map_left_iff, List.forall₂_map_right_iff, List.forall₂_same]
    intro e he
    refine ⟨rfl, rfl, ?_⟩
    intro t ht rows
    obtain ⟨u, hu', rfl⟩ := runSorted_mem c.cpu hg.cpu.names t ht
    have hget := get?_of_mem c.cpu.templates hg.cpu.names u hu'
    have h1 : c.cpu.templates.get u.1 = .ok u.2 := by unfold PyDict.get; rw [hget]
    simp only [h1, okBind, if_true]
    exact fitRows_same c size targets hg e (hloc e he) u hu' rows

/-! ### the run -/

theorem toCpuTargets_ids (targets : List (ι × (List (Spec ω K) × M))) : (toCpuTargets targets).map (·.1) = targets.map (·.1) := by
  unfold toCpuTargets
  rw [List.map_map]; rfl

theorem fullFitsGpu_iff [LinearOrder σ] (c : GpuCfg ι ω K σ) (size : ω → Nat) (targets : List (ι × (List (Spec ω K) × M))) (hg : GoodGpuRun c size targets) (hn : (targets.map (·.1)).Nodup) (allIds : List ι)
    (hids : allIds.Perm (targets.map (·.1))) (ranks : List (Bool × List (ι × (List (Spec ω K) × M)))) (hr : GpuRanks targets ranks)
    (cat : List (ι × List (PyStr × TemplateFit K σ) × Option M)) :
    fullFitsGpu c targets allIds ranks = .ok cat ↔ fullFits c.cpu (toCpuTargets targets) allIds .serial = .ok cat := by
  obtain ⟨g, hgs⟩ := hg.cpu.choose
  have hnc : ((toCpuTargets targets).map (·.1)).Nodup := by rw [toCpuTargets_ids]; exact hn
  have hidc : allIds.Perm ((toCpuTargets targets).map (·.1)) := by rw [toCpuTargets_ids]; exact hids
  have hgood := toRun_good (M := M) c.cpu hg.cpu.names hg.cpu.order g
  let locs := ranks.map (fun r => toCpuTargets r.2)
  let log : RunTemplate K → Nat → List (Piece K) := fun t r => [{ index := r, redshifts := t.redshifts }]
  have hpart : locs.flatten.Perm (toCpuTargets targets) := by
    have : locs.flatten = toCpuTargets (ranks.map (·.2)).flatten := by
      unfold locs toCpuTargets
      rw [List.map_flatten, List.map_map]
      rfl
    rw [this]
    exact hr.1.map _
  have hmem : ∀ r ∈ ranks, ∀ e ∈ r.2, e ∈ targets := by
    intro r hrm e he
    exact hr.1.mem_iff.1 (List.mem_flatten.2 ⟨r.2, List.mem_map.2 ⟨r, hrm, rfl⟩, he⟩)
  have hrun : fullFitsGpu c targets allIds ranks = mpiRun (toRun (M := M) c.cpu g) locs log allIds := by
    unfold fullFitsGpu mpiRun
    congr 1
    unfold locs
    rw [List.zipIdx_map, List.mapM_map]
    apply mapM_congr'
    rintro ⟨⟨u, loc⟩, r⟩ hlr
    have hrm : (u, loc) ∈ ranks := (List.mem_zipIdx' hlr).2 ▸ List.getElem_mem _
    rw [gpuRank_eq c size targets hg u r loc (hmem _ hrm) (fun hu => hr.2 _ hrm hu)]
    rw [fullRank_eq c.cpu g (gridsOf (toCpuTargets targets)) hg.cpu.names hgs (toCpuTargets loc)]
    · rfl
    · intro e he s hs
      obtain ⟨e0, he0, rfl⟩ := List.mem_map.1 he
      exact mem_gridsOf (toCpuTargets targets) _ (List.mem_map.2 ⟨e0, hmem _ hrm e0 he0, rfl⟩) s hs
    · intro t ht p hp
      simp only [List.mem_singleton] at hp
      subst hp
      exact ⟨(hgs t ht).redshifts, fun z hz => hz⟩
  rw [hrun, mpi_iff_of_scan (toRun (M := M) c.cpu g) hgood locs (toCpuTargets targets) hnc hpart allIds hidc log, fullFits_eq c.cpu g (toCpuTargets targets) hg.cpu.names hgs allIds .serial trivial]
  · exact (C92_serial (toRun (M := M) c.cpu g) hgood (toCpuTargets targets) hnc allIds hidc cat).symm
  · intro r l hl t ht
    have hnl : (l.map (·.1)).Nodup := ((hpart.map _).nodup_iff.2 hnc).sublist ((List.sublist_flatten_of_mem (List.mem_of_getElem? hl)).map _)
    exact ⟨_, scanPieces_one _ l hnl r t.redshifts, scan_ok _ l hnl t.redshifts⟩

/-- **C124** A run in GPU mode gives the catalogue of the run on the CPU: for every order in which the GPUs run their threads, whatever their memory held, for any number of GPU ranks and any distribution of the targets
over them (and any ranks without GPU, which have no targets), and for any way in which the run on the CPU is distributed, the two return the same table, or neither returns one: provided no fit of a scan or fine scan
fails on the CPU, and the GPU bins the templates as the CPU does. -/
theorem C124_gpu_run_partial [LinearOrder σ] (c : GpuCfg ι ω K σ) (size : ω → Nat) (targets : List (ι × (List (Spec ω K) × M))) (hg : GoodGpuRun c size targets) (hn : (targets.map (·.1)).Nodup) (allIds : List ι)
    (hids : allIds.Perm (targets.map (·.1))) (ranks : List (Bool × List (ι × (List (Spec ω K) × M)))) (hr : GpuRanks targets ranks) (way : RunWay ι (List (FitSpectrum ω K) × M) K)
    (hway : PossibleWay c.cpu (toCpuTargets targets) way) (rows : List (ι × Row K σ)) :
    fullCatalogueGpu c targets allIds ranks = .ok rows ↔ fullCatalogue c.cpu (toCpuTargets targets) allIds way = .ok rows := by
  have hnc : ((toCpuTargets targets).map (·.1)).Nodup := by rw [toCpuTargets_ids]; exact hn
  have hidc : allIds.Perm ((toCpuTargets targets).map (·.1)) := by rw [toCpuTargets_ids]; exact hids
  rw [C117_any_way c.cpu (toCpuTargets targets) hg.cpu hnc allIds hidc way hway rows]
  have h := fullFitsGpu_iff c size targets hg hn allIds hids ranks hr
  unfold fullCatalogueGpu fullCatalogue
  cases h1 : fullFitsGpu c targets allIds ranks with
  | ok cat => rw [(h cat).1 h1]
  | error e =>
    cases h2 : fullFits c.cpu (toCpuTargets targets) allIds .serial with
    | ok cat => rw [(h cat).2 h2] at h1; cases h1
    | error e' => simp [bind, Except.bind]

end
end Redrock.Gpu
