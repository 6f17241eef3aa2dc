import Verif.Model.Py

/-!
State of a `Spectrum` with shared memory, and the cache of Legendre polynomials of a `Target` (`/repo/py/redrock/targets.py`).
-/
namespace Redrock

/-- A python attribute: deleted (or never set), `None`, or a value. -/
inductive Attr (α : Type) where
  | missing
  | pyNone
  | val (a : α)
  deriving DecidableEq

/-- A `dia_matrix`: shape, offsets, diagonals (`data.shape = (ndiag, splen)`). -/
structure DiaM (K : Type) where
  shape : Nat × Nat
  offsets : List Int
  data : List (List K)
  splen : Nat
  deriving DecidableEq

/-- targets.py:32-62, 91-142  the attributes of a `Spectrum`. `C` is the type of a CSR matrix (its three arrays and its shape). -/
structure SpecMem (K C : Type) where
  wave : List K
  flux : List K
  ivar : List K
  R : Attr (DiaM K)
  rOffsets : Attr (List Int)
  rData : Attr (List (List K))
  splen : Nat
  rcsr : Attr C
  rcsrData : Attr C
  mpshared : Bool
  deriving DecidableEq

variable {K C : Type}

/-- targets.py:32-47  a new `Spectrum` (the masking of `ivar` is in `mkSpectrum`). -/
def newSpec (wave flux ivar : List K) (R : Option (DiaM K)) (rcsr : Option C) : SpecMem K C :=
  { wave, flux, ivar, R := match R with | none => .pyNone | some r => .val r, rOffsets := .missing, rData := .missing, splen := 0, rcsr := match rcsr with | none => .pyNone | some c => .val c,
    rcsrData := .missing, mpshared := false }

/-- utils.py:153-182, targets.py:91-115  `sharedmem_pack`. `mp_array` and `np.array` copy an array. -/
def sharedmemPack (s : SpecMem K C) : Py (SpecMem K C) :=
  if s.mpshared then .ok s else
    match s.R, s.rcsr with
    | .val R, .val c => .ok { s with splen := R.splen, rOffsets := .val R.offsets, rData := .val R.data, R := .missing, rcsrData := .val c, rcsr := .missing, mpshared := true }
    | .val R, .pyNone => .ok { s with splen := R.splen, rOffsets := .val R.offsets, rData := .val R.data, R := .missing, rcsrData := .pyNone, mpshared := true }
    | _, _ => .error .attributeError

/-- targets.py:117-142  `sharedmem_unpack`: the matrix is made anew with shape `(splen, splen)`. -/
def sharedmemUnpack (s : SpecMem K C) : Py (SpecMem K C) :=
  if ¬ s.mpshared then .ok s else
    match s.rData, s.rOffsets, s.rcsrData with
    | .val d, .val o, .val c => .ok { s with R := .val ⟨(s.splen, s.splen), o, d, s.splen⟩, rData := .missing, rOffsets := .missing, rcsr := .val c, rcsrData := .missing, mpshared := false }
    | .val d, .val o, .pyNone => .ok { s with R := .val ⟨(s.splen, s.splen), o, d, s.splen⟩, rData := .missing, rOffsets := .missing, rcsr := .pyNone, mpshared := false }
    | _, _, _ => .error .attributeError

/-- targets.py:84-89  the property `Rcsr`: unpack, convert once, keep. -/
def getRcsr (tocsr : DiaM K → C) (s : SpecMem K C) : Py (SpecMem K C × C) := do
  let s ← sharedmemUnpack s
  match s.rcsr with
  | .val c => return (s, c)
  | .pyNone =>
    match s.R with
    | .val R => return ({ s with rcsr := .val (tocsr R) }, tocsr R)
    | _ => throw .attributeError
  | .missing => throw .attributeError

/-- The calls a user can make. -/
inductive MemOp where
  | pack
  | unpack
  | rcsr
  deriving DecidableEq

/-- One call, with the value it returns (for `rcsr`). -/
def memStep (tocsr : DiaM K → C) (s : SpecMem K C) : MemOp → Py (SpecMem K C × Option C)
  | .pack => do
    let s ← sharedmemPack s
    return (s, none)
  | .unpack => do
    let s ← sharedmemUnpack s
    return (s, none)
  | .rcsr => do
    let (s, c) ← getRcsr tocsr s
    return (s, some c)

/-- A sequence of calls: final state and all returned values. -/
def memRun (tocsr : DiaM K → C) : SpecMem K C → List MemOp → Py (SpecMem K C × List (Option C))
  | s, [] => .ok (s, [])
  | s, op :: ops => do
    let (s, r) ← memStep tocsr s op
    let (s, rs) ← memRun tocsr s ops
    return (s, r :: rs)

/-! ### Legendre polynomials -/

variable {V : Type}

/-- targets.py:174-177  the cache of a `Target`: `_legendre`, `_gpulegendre`, `nleg`. -/
structure LegCache (V : Type) where
  legendre : Option V
  gpulegendre : Option V
  nleg : Nat

/-- targets.py:174-177  a new target. -/
def LegCache.new : LegCache V := ⟨none, none, 0⟩

/-- targets.py:237-254  `legendre(nleg, use_gpu)`; `compute n` stands for the dictionary of the first `n` polynomials on the wavelength grids of the target (lines 247-248). A copy on the GPU has the same values. -/
def legendreCall (compute : Nat → V) (t : LegCache V) (n : Nat) (gpu : Bool) : LegCache V × V :=
  if gpu = true ∧ t.nleg = n then
    match t.gpulegendre, t.legendre with
    | some g, _ => (t, g)
    | none, some l => ({ t with gpulegendre := some l }, l)
    | none, none => ({ legendre := some (compute n), nleg := n, gpulegendre := some (compute n) }, compute n)
  else
    match t.legendre, decide (t.nleg = n) with
    | some l, true => (t, l)
    | _, _ =>
      if gpu then ({ legendre := some (compute n), nleg := n, gpulegendre := some (compute n) }, compute n)
      else ({ t with legendre := some (compute n), nleg := n }, compute n)

/-- All results of a sequence of calls. -/
def legendreRun (compute : Nat → V) : LegCache V → List (Nat × Bool) → List V
  | _, [] => []
  | t, (n, gpu) :: calls => (legendreCall compute t n gpu).2 :: legendreRun compute (legendreCall compute t n gpu).1 calls

end Redrock
