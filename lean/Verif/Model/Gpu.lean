import Verif.Model.Chi2

/-!
Model of the GPU side of the chi2 fit: the CUDA kernels of `/repo/py/redrock/zscan.py` (lines 43-167) on flat memory, the functions that launch them and the GPU branch of `calc_zchi2_batch`.
A kernel is a function of block and thread number; the threads of a launch run in any order. Every thread of these kernels writes at most once, at its end, and reads no
memory that another thread writes, so an order of the threads is an order of these writes. Reading or writing outside an array is `indexError` here (undefined behaviour on the GPU).
`int` arithmetic is exact (no overflow). The kernels need only addition and multiplication, which may be rounded; only the theorems assume laws for them.
-/
namespace Redrock.Gpu
open Redrock

section kernels
variable {K : Type} [Add K] [Mul K] [Zero K]

/-- What one thread does to the output array: `out[i] = x` or `atomicAdd(&out[i], x)`. -/
inductive Effect (K : Type) where
  | store (i : Nat) (x : K)
  | atomicAdd (i : Nat) (x : K)

/-- One write. -/
def Effect.apply (mem : List K) : Effect K → Py (List K)
  | .store i x => if i < mem.length then .ok (mem.set i x) else .error .indexError
  | .atomicAdd i x => match mem[i]? with
    | some m => .ok (mem.set i (m + x))
    | none => .error .indexError

/-- A kernel with its arguments: `blockIdx.x`, `threadIdx.x` ↦ the write of that thread, if any. -/
abbrev Kernel (K : Type) := Nat → Nat → Py (Option (Effect K))

/-- `kernel((blocks,), (block_size,), args)`: the threads run in the order `order`. -/
def launch (kernel : Kernel K) (order : List (Nat × Nat)) (mem : List K) : Py (List K) :=
  order.foldlM (fun mem t => do
    match ← kernel t.1 t.2 with
    | none => return mem
    | some e => e.apply mem) mem

/-- The threads of a launch with `blocks` blocks of `blockSize` threads. -/
def threads (blocks blockSize : Nat) : List (Nat × Nat) := (List.range blocks).flatMap (fun b => (List.range blockSize).map (fun t => (b, t)))

/-- zscan.py:39  `block_size = 512`. -/
def blockSize : Nat := 512

/-- zscan.py:427, 528, 611  `blocks = (n+block_size-1)//block_size`. -/
def blocksFor (n : Nat) : Nat := (n + blockSize - 1) / blockSize

/-- zscan.py:45-74  kernel `batch_dot_product_sparse` (its parameter `nrows` is not used). -/
def sparseKernel (values : List K) (cols indptr : List Nat) (tdata : List K) (ncols nbasis nt : Nat) : Kernel K := fun blockIdx threadIdx =>
  let i := blockSize * blockIdx + threadIdx
  if ncols * nbasis * nt ≤ i then .ok none
  else do
    let ibatch := i % nbasis
    let icol := (i % (nbasis * ncols)) / nbasis
    let it := i / (nbasis * ncols)
    let tStart := it * nbasis * ncols
    let row := icol
    let lo ← npGet indptr row
    let hi ← npGet indptr (row + 1)
    let x ← (List.range' lo (hi - lo)).foldlM (fun x j => do
      let col ← npGet cols j
      let v ← npGet values j
      let t ← npGet tdata (tStart + nbasis * col + ibatch)
      return x + v * t) 0
    return some (.store i x)

/-- zscan.py:76-135  kernel `batch_dot_product_3d3d`. -/
def dot33Kernel (a b : List K) (nrows nbasis nt nparallel : Nat) (transposeA : Bool) : Kernel K := fun blockIdx threadIdx =>
  let i := blockSize * blockIdx + threadIdx
  if nbasis * nbasis * nt * nparallel ≤ i then .ok none
  else do
    let mIdx := i / nparallel
    let t := mIdx / (nbasis * nbasis)
    let aRow := (mIdx % (nbasis * nbasis)) % nbasis
    let bRow := (mIdx % (nbasis * nbasis)) / nbasis
    let stride := nrows / nparallel
    let start := (threadIdx % nparallel) * stride
    let stop := if threadIdx % nparallel = nparallel - 1 then nrows else (threadIdx % nparallel + 1) * stride
    let aIdx := if transposeA then t * nrows * nbasis + aRow else t * nrows * nbasis + aRow * nrows
    let bIdx := t * nrows * nbasis + bRow
    let x ← (List.range' start (stop - start)).foldlM (fun x j => do
      let u ← npGet a (if transposeA then aIdx + j * nbasis else aIdx + j)
      let v ← npGet b (bIdx + j * nbasis)
      return x + u * v) 0
    return some (.atomicAdd mIdx x)

/-- zscan.py:137-165  kernel `batch_dot_product_3d2d`. -/
def dot32Kernel (tb zc : List K) (nrows nbasis nt : Nat) : Kernel K := fun blockIdx threadIdx =>
  let i := blockSize * blockIdx + threadIdx
  if nrows * nt ≤ i then .ok none
  else do
    let it := i / nrows
    let row := i % nrows
    let iTb := it * nrows * nbasis + row * nbasis
    let iZc := it * nbasis
    let x ← (List.range nbasis).foldlM (fun x j => do
      let u ← npGet tb (iTb + j)
      let v ← npGet zc (iZc + j)
      return x + u * v) 0
    return some (.store i x)

/-- A sparse matrix in CSR form (`scipy.sparse.csr_matrix`): `data`, `indices`, `indptr`, `shape`. -/
structure Csr (K : Type) where
  data : List K
  indices : List Nat
  indptr : List Nat
  shape0 : Nat
  shape1 : Nat

/-- A 3-d array on the GPU: a buffer, a shape and strides (in elements). -/
structure Array3 (K : Type) where
  buf : List K
  n0 : Nat
  n1 : Nat
  n2 : Nat
  s0 : Nat
  s1 : Nat
  s2 : Nat

/-- The elements of a 3-d array, read through its strides (this is what `asnumpy` gives and what the CPU code works with). -/
def Array3.nested (A : Array3 K) : List (List (List K)) :=
  (List.range A.n0).map (fun i => (List.range A.n1).map (fun j => (List.range A.n2).map (fun k => A.buf.getD (i * A.s0 + j * A.s1 + k * A.s2) 0)))

/-- A newly created array (`cp.empty`, `cp.zeros`, `cp.hstack`) with the given elements in C order. -/
def Array3.ofFlat (buf : List K) (n0 n1 n2 : Nat) : Array3 K := { buf := buf, n0 := n0, n1 := n1, n2 := n2, s0 := n1 * n2, s1 := n2, s2 := 1 }

/-- `binned.transpose()[:,:,None]` of a new 2-d array with `nw` rows and `na` columns (archetypes.py:374-376): a view of the same buffer with other strides. -/
def Array3.transposedView (buf : List K) (nw na : Nat) : Array3 K := { buf := buf, n0 := na, n1 := nw, n2 := 1, s0 := 1, s1 := na, s2 := 1 }

/-- The order in which the threads of a launch run: `sched n` for the `n` blocks of a launch. -/
abbrev Schedule := Nat → List (Nat × Nat)

/-- zscan.py:414-435  one spectrum of `_batch_dot_product_sparse_gpu`: the launch for the resolution matrix `R` and the template array `A`; `junk` is the content of `cp.empty`. -/
def sparseGpu (R : Csr K) (A : Array3 K) (sched : Schedule) (junk : List K) : Py (List K) :=
  launch (sparseKernel R.data R.indices R.indptr A.buf R.shape0 A.n2 A.n0) (sched (blocksFor (A.n0 * A.n1 * A.n2))) junk

/-- zscan.py:603-610  `nparallel`. -/
def nparallelOf (fullprecision : Bool) (nz : Nat) : Nat := if fullprecision then 4 else if nz ≤ 512 then 64 else 4

/-- zscan.py:551-617  `calc_batch_dot_product_3d3d_gpu(a, b, transpose_a, fullprecision)`: the flat output array. -/
def dot33Gpu (a b : Array3 K) (transposeA fullprecision : Bool) (sched : Schedule) : Py (List K) :=
  let nz := a.n0
  let nrows := if transposeA then a.n1 else a.n2
  let ncols := if transposeA then a.n2 else a.n1
  let nparallel := nparallelOf fullprecision nz
  launch (dot33Kernel a.buf b.buf nrows ncols nz nparallel transposeA) (sched (blocksFor (nz * ncols * ncols * nparallel))) (List.replicate (nz * ncols * ncols) 0)

/-- zscan.py:502-535  `_calc_batch_dot_product_3d2d_gpu(Tbs, zc)`: the flat output array; `zc` has `nz` rows of `nbasis`. -/
def dot32Gpu (tbs : Array3 K) (zc : List (List K)) (nbasis : Nat) (sched : Schedule) (junk : List K) : Py (List K) :=
  launch (dot32Kernel tbs.buf zc.flatten tbs.n1 nbasis zc.length) (sched (blocksFor (tbs.n1 * zc.length))) junk

end kernels

section
variable {K ω : Type} [Field K] [LinearOrder K] [DecidableEq ω]

/-- The dense rows of a CSR matrix: entries stored twice add up. -/
def Csr.dense (R : Csr K) : List (List K) :=
  (List.range R.shape0).map (fun r => (List.range R.shape1).map (fun c =>
    ((List.range' (R.indptr.getD r 0) (R.indptr.getD (r + 1) 0 - R.indptr.getD r 0)).map (fun j => if R.indices.getD j 0 = c then R.data.getD j 0 else 0)).sum))

/-- targets.py:20-60  a `Spectrum` with its sparse resolution matrix `Rcsr`. -/
structure Spec (ω K : Type) where
  wavehash : ω
  flux : List K
  ivar : List K
  Rcsr : Csr K

/-- The same spectrum for the CPU model, which uses dense rows. -/
def Spec.toFit (s : Spec ω K) : FitSpectrum ω K := { wavehash := s.wavehash, flux := s.flux, ivar := s.ivar, R := s.Rcsr.dense }

/-- What the run time supplies: an order of the threads for every launch (one per spectrum, one for M, one for the model) and the contents of memory from `cp.empty`. -/
structure Device (K : Type) where
  sparse : Nat → Schedule
  dot33 : Schedule
  dot32 : Schedule
  junk : Nat → List K
  junk32 : List K

/-- `cp.hstack` of 3-d arrays in C order: equal first and last dimensions, rows joined along the second. -/
def hstack (As : List (Array3 K)) : Py (Array3 K) :=
  match As with
  | [] => .error .valueError
  | A :: rest =>
    if rest.any (fun B => decide (B.n0 ≠ A.n0 ∨ B.n2 ≠ A.n2)) then .error .valueError
    else .ok (Array3.ofFlat ((List.range A.n0).flatMap (fun i => (A :: rest).flatMap (fun B => (B.nested.getD i []).flatten))) A.n0 ((A :: rest).map (·.n1)).sum A.n2)

/-- zscan.py:392-443  `_batch_dot_product_sparse_gpu(spectra, tdata)`. -/
def sparseGpuAll (D : Device K) (spectra : List (Spec ω K)) (tdata : PyDict ω (Array3 K)) : Py (Array3 K) := do
  let tbs ← spectra.zipIdx.mapM (fun sk => do
    let A ← tdata.get sk.1.wavehash
    let flat ← sparseGpu sk.1.Rcsr A (D.sparse sk.2) (D.junk sk.2)
    return Array3.ofFlat flat A.n0 sk.1.Rcsr.shape0 A.n2)
  hstack tbs

/-- zscan.py:1107-1203  `solve_matrices(all_M, all_y, …, use_gpu=True)`: `cpSolve` is `cupy.linalg.solve` for one matrix, which never raises. A failure of `nnls` (any exception)
or a `LinAlgError` of `lsq_linear` fills the row of coefficients with `HUGE_CHI2`. -/
def solveMatricesGpu (S : Solvers K) (cpSolve : List (List K) → List K → List K) (algorithm : SolveAlgorithm) (bounds : Option (List (Option K) × List (Option K)))
    (allM : List (List (List K))) (ally : List (List K)) : Py (List (List K)) :=
  match algorithm with
  | .pca => .ok (List.zipWith cpSolve allM ally)
  | .nmf | .nnls => .ok (List.zipWith (fun M y => match S.nnls M y with
      | .ok c => c
      | .error _ => y.map (fun _ => hugeChi2)) allM ally)
  | .bvls => (allM.zip ally).mapM (fun My =>
      let (lo, hi) := match bounds with
        | some b => b
        | none => (My.2.map (fun _ => none), My.2.map (fun _ => none))
      match S.lsqLinear lo hi My.1 My.2 with
      | .ok c => .ok c
      | .error .linAlgError => .ok (My.2.map (fun _ => hugeChi2))
      | .error e => .error e)
  | .other => .error .notImplemented

/-- zscan.py:704  `weights[None, :, None] * Tbs`, in C order. -/
def weighted (weights : List K) (tbs : Array3 K) : Array3 K :=
  Array3.ofFlat (tbs.nested.flatMap (fun T => (List.zipWith (fun w row => row.map (fun v => w * v)) weights T).flatten)) tbs.n0 tbs.n1 tbs.n2

/-- zscan.py:627-745  `calc_zchi2_batch` with `use_gpu=True`: chi2 and coefficients for every redshift. Arrays of the wrong shape raise `ValueError` (numpy would broadcast
arrays of length 1, which is not modelled). -/
def calcZchi2BatchGpu (D : Device K) (S : Solvers K) (cpSolve : List (List K) → List K → List K) (algorithm : SolveAlgorithm) (bounds : Option (List (Option K) × List (Option K)))
    (spectra : List (Spec ω K)) (tdata : PyDict ω (Array3 K)) (weights flux wflux : List K) (nz nbasis : Nat) (fullprecision : Bool) (prior : Option (List (List K))) : Py (List (K × List K)) :=
  if weights.sum = 0 then .ok (List.replicate nz (hugeChi2, List.replicate nbasis 0))
  else do
    let tbs ← sparseGpuAll D spectra tdata
    if weights.length ≠ tbs.n1 ∨ flux.length ≠ tbs.n1 ∨ wflux.length ≠ tbs.n1 then throw .valueError
    let flatM ← dot33Gpu tbs (weighted weights tbs) true fullprecision D.dot33
    let allM := (Array3.ofFlat flatM tbs.n0 tbs.n2 tbs.n2).nested
    let ally := tbs.nested.map (fun Tb => normalY Tb wflux tbs.n2)
    let allM := allM.map (fun M => addPrior M prior)
    match solveMatricesGpu S cpSolve algorithm bounds allM ally with
    | .error .notImplemented => return List.replicate nz (hugeChi2, List.replicate nbasis 0)
    | .error e => throw e
    | .ok zcoeff =>
      let flatModel ← dot32Gpu tbs zcoeff tbs.n2 D.dot32 D.junk32
      let model := (List.range tbs.n0).map (fun i => (List.range tbs.n1).map (fun r => flatModel.getD (i * tbs.n1 + r) 0))
      let zchi2 := model.map (fun m => dotv ((List.zipWith (· - ·) flux m).map (fun r => r * r)) weights)
      if zchi2.length ≠ nz then throw .valueError
      return zchi2.zip zcoeff

end
end Redrock.Gpu
