import Verif.Model.Fitz

/-!
Model of `/repo/py/redrock/rebin.py`: bin edges, the trapezoidal rebinning loop (CPU), the batch wrappers, the range check, and the CUDA kernel.
Array reads are `npGet`, which fails out of bounds (numba and CUDA do not check; a failure here stands for an out-of-bounds read).
-/
namespace Redrock

section
variable {K : Type} [Field K] [LinearOrder K]

/-- rebin.py:111-116  interior edges `(centers[0:-1] + centers[1:]) / 2`. -/
def midpoints : List K → List K
  | a :: b :: rest => (a + b) / 2 :: midpoints (b :: rest)
  | _ => []

/-- rebin.py:100-118  `centers2edges`. `edges[0] = centers[0] - (centers[1]-edges[1])`, `edges[-1] = centers[-1] + (centers[-1]-edges[-2])`;
`centers[1]` raises `IndexError` for a single center. -/
def centers2edges (centers : List K) : Py (List K) := do
  let mid := midpoints centers
  let c0 ← npGet centers 0
  let c1 ← npGet centers 1
  let m0 ← npGet mid 0
  let cl ← npGetNeg centers 1
  let ml ← npGetNeg mid 1
  return (c0 - (c1 - m0)) :: (mid ++ [cl + (cl - ml)])

/-- rebin.py:143-144  `while x[j] <= edges[i]: j += 1`, on the samples from `j` on. -/
def seekGo (e : K) : List K → Nat → Py Nat
  | [], _ => .error .indexError
  | v :: vs, j => if v ≤ e then seekGo e vs (j + 1) else .ok j

/-- The same loop started at `j`. -/
def seek (x : List K) (e : K) (j : Nat) : Py Nat := seekGo e (x.drop j) j

/-- `x[j-1]`; for `j = 0` numba wraps around to the last element. -/
def npGetPrev (x : List K) (j : Nat) : Py K := if j = 0 then npGetNeg x 1 else npGet x (j - 1)

/-- rebin.py:155-158  `while x[j+1] < edges[i+1]: j += 1; results[i] += 0.5*(y[j]+y[j-1])*(x[j]-x[j-1])`. The loop ends by failing before `fuel` (the number of
samples) runs out. -/
def innerLoop (x y : List K) (hi : K) : Nat → Nat → K → Py (Nat × K)
  | 0, _, _ => .error .indexError
  | fuel + 1, j, acc => do
    let xn ← npGet x (j + 1)
    if xn < hi then do
      let yj ← npGet y (j + 1)
      let yp ← npGet y j
      let xp ← npGet x j
      innerLoop x y hi fuel (j + 1) (acc + 1 / 2 * (yj + yp) * (xn - xp))
    else return (j, acc)

/-- rebin.py:141-173  one iteration of the outer loop: the area in the bin `[lo, hi]` and the new `j`. -/
def rebinBin (x y : List K) (lo hi : K) (j : Nat) : Py (K × Nat) := do
  let j ← seek x lo j
  let xj ← npGet x j
  let xp ← npGetPrev x j
  let yj ← npGet y j
  let yp ← npGetPrev y j
  let yedge := yp + (lo - xp) * (yj - yp) / (xj - xp)
  if xj < hi then do
    let (j, acc) ← innerLoop x y hi x.length j (0 + 1 / 2 * (yj + yedge) * (xj - lo))
    let xj ← npGet x j
    let yj ← npGet y j
    let yn ← npGet y (j + 1)
    let xn ← npGet x (j + 1)
    let yedge := yj + (hi - xj) * (yn - yj) / (xn - xj)
    return (acc + 1 / 2 * (yedge + yj) * (hi - xj), j)
  else
    let ylo := yj + (lo - xj) * (yj - yp) / (xj - xp)
    let yhi := yj + (hi - xj) * (yj - yp) / (xj - xp)
    return (0 + 1 / 2 * (ylo + yhi) * (hi - lo), j)

/-- rebin.py:141-176  the outer loop over the remaining edges, and the division by the bin width. -/
def rebinLoop (x y : List K) : List K → Nat → Py (List K)
  | lo :: hi :: rest, j => do
    let (area, j) ← rebinBin x y lo hi j
    let r ← rebinLoop x y (hi :: rest) j
    return area / (hi - lo) :: r
  | _, _ => .ok []

/-- rebin.py:127-176  `_trapz_rebin_1d`. -/
def trapzRebin1d (x y edges : List K) : Py (List K) := rebinLoop x y edges 0

/-- rebin.py:178-209  `_trapz_rebin_batch` for one redshift: `results[iz, :, ibasis]` for every basis. -/
def trapzRebinZ (x : List K) (ys : List (List K)) (edges : List K) (z : K) : Py (List (List K)) :=
  ys.mapM (fun y => trapzRebin1d (x.map (fun v => v * (1 + z))) y edges)

/-- rebin.py:178-209  `_trapz_rebin_batch`; the result is indexed `[iz][ibasis][ibin]` (numpy array `results[iz, ibin, ibasis]`). -/
def trapzRebinBatch (x : List K) (ys : List (List K)) (edges zs : List K) : Py (List (List (List K))) :=
  zs.mapM (trapzRebinZ x ys edges)

/-- rebin.py:211-378  `trapz_rebin` on the CPU with `edges` and an array of redshifts, `xmin`/`xmax`/`edge_min`/`edge_max` not given: the empty case, the range check,
the batch. (The special case of a single basis and redshift calls the same loop.) Note that `len(y)` is not looked at. -/
def trapzRebin (x : List K) (ys : List (List K)) (edges zs : List K) : Py (List (List (List K))) := do
  let edgeMin ← npGet edges 0
  let edgeMax ← npGetNeg edges 1
  if zs = [] then return []
  let zmax ← npMax zs
  let zmin ← npMin zs
  let x0 ← npGet x 0
  let xl ← npGetNeg x 1
  if edgeMin < x0 * (1 + zmax) ∨ xl * (1 + zmin) < edgeMax then throw .valueError
  trapzRebinBatch x ys edges zs

/-- `cp.searchsorted(x, v, side='right')` on a sorted array: the number of leading samples `≤ v`. -/
def searchsortedRight (x : List K) (v : K) : Nat := (x.takeWhile (fun a => decide (a ≤ v))).length

/-- `x[j-1]` in the kernel: no wrap-around. -/
def npGetBefore (x : List K) (j : Nat) : Py K := if j = 0 then .error .indexError else npGet x (j - 1)

/-- rebin.py:67-73  the kernel's inner loop `while (j+1 < end_idx)`: `n` iterations, `y_idx` moves along with `j`. -/
def gpuInner (x y : List K) (z1 : K) : Nat → Nat → Nat → K → Py (Nat × Nat × K)
  | 0, j, yi, r => .ok (j, yi, r)
  | n + 1, j, yi, r => do
    let j := j + 1
    let yi := yi + 1
    let xj ← npGet x j
    let xp ← npGetBefore x j
    let yj ← npGet y yi
    let yp ← npGetBefore y yi
    gpuInner x y z1 n j yi (r + 1 / 2 * (yj + yp) * (xj * z1 - xp * z1))

/-- rebin.py:19-96  the kernel `batch_trapz_rebin` for thread `i`: `y` is the flattened `(nbasis, nt)` array, `idx` the flattened `(nz, nbin+1)` array. -/
def gpuThread (x y edges zs : List K) (idx : List Nat) (nbin nbasis nt i : Nat) : Py K := do
  let ibasis := i % nbasis
  let ibin := i % (nbasis * nbin) / nbasis
  let iz := i / (nbasis * nbin)
  let iidx := i / nbasis + iz
  let zz ← npGet zs iz
  let z1 := 1 + zz
  let j ← npGet idx iidx
  let endIdx ← npGet idx (iidx + 1)
  let xjr ← npGet x j
  let xpr ← npGetBefore x j
  let xj := xjr * z1
  let xj1 := xpr * z1
  let yi := j + ibasis * nt
  let lo ← npGet edges ibin
  let hi ← npGet edges (ibin + 1)
  let yj ← npGet y yi
  let yp ← npGetBefore y yi
  let yedge := yp + (lo - xj1) * (yj - yp) / (xj - xj1)
  if xj < hi then do
    let r := 0 + 1 / 2 * (yj + yedge) * (xj - lo)
    let (j, yi, r) ← gpuInner x y z1 (endIdx - (j + 1)) j yi r
    let xjr ← npGet x j
    let xj := xjr * z1
    let yj ← npGet y yi
    let yn ← npGet y (yi + 1)
    let xn ← npGet x (j + 1)
    let yedge := yj + (hi - xj) * (yn - yj) / (xn * z1 - xj)
    return (r + 1 / 2 * (yedge + yj) * (hi - xj)) / (hi - lo)
  else
    let ylo := yj + (lo - xj) * (yj - yp) / (xj - xj1)
    let yhi := yj + (hi - xj) * (yj - yp) / (xj - xj1)
    return (0 + 1 / 2 * (ylo + yhi) * (hi - lo)) / (hi - lo)

/-- rebin.py:380-447  `_trapz_rebin_batch_gpu`: `idx = searchsorted(x, edges/(1+myz[:,None]), side='right')`, then one thread per output element; the result is the flat array of
length `nz*nbin*nbasis`. -/
def trapzRebinGpu (x : List K) (ys : List (List K)) (edges zs : List K) : Py (List K) :=
  let idx := zs.flatMap (fun z => edges.map (fun e => searchsortedRight x (e / (1 + z))))
  let nbin := edges.length - 1
  (List.range (zs.length * nbin * ys.length)).mapM (gpuThread x ys.flatten edges zs idx nbin ys.length x.length)

end
end Redrock
