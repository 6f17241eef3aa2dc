import Verif.Model.Memory
import Verif.Model.Coadd
import Verif.Model.Dict

/-!
A `Target` over its whole life (`/repo/py/redrock/targets.py`): the spectra, the copies for the GPU and the Legendre polynomials, under any sequence of calls of `compute_coadd`, `gpu_spectral_data` and `legendre`.
-/
namespace Redrock.TargetHist

variable {ω β K : Type} [DecidableEq ω] [Field K] [LinearOrder K]

/-- targets.py:161-182  the attributes of a `Target` that these calls read or write. `gpu` holds `gpuweights`, `gpuflux` and `gpuwflux`, which are set together. -/
structure State (ω β K : Type) where
  spectra : List (Spectrum ω β K)
  bands : List β
  gpu : Option (List K × List K × List K)
  leg : LegCache (PyDict ω (List (List K)))

/-- targets.py:161-182  `Target.__init__`: the caches are empty, also after the coadd at construction. -/
def new (spectra : List (Spectrum ω β K)) (coadd : Bool) (nsig : K) : Py (State ω β K) := do
  let t ← mkTarget spectra coadd nsig
  return { spectra := t.spectra, bands := t.bands, gpu := none, leg := LegCache.new }

/-- targets.py:247-248  the dictionary of the first `n` Legendre polynomials on the grids of the spectra. `poly i w` stands for `scipy.special.legendre(i)(reduced_wavelength(w))`; the failure of `reduced_wavelength` on an
empty grid is left out. -/
def legendreDict (poly : Nat → List K → List K) (spectra : List (Spectrum ω β K)) (n : Nat) : PyDict ω (List (List K)) :=
  let dwave : PyDict ω (List K) := spectra.foldl (fun d s => PyDict.set d s.wavehash s.wave) []
  dwave.map (fun kw => (kw.1, (List.range n).map (fun i => poly i kw.2)))

/-- The calls a user can make. -/
inductive Op (K : Type) where
  | coadd (nsig : K)
  | gpuData
  | legendre (n : Nat) (gpu : Bool)

/-- What a call returns. -/
inductive Out (ω K : Type) where
  | none
  | data (weights flux wflux : List K)
  | polys (d : PyDict ω (List (List K)))

/-- targets.py:256-263  `gpu_spectral_data`: the arrays are concatenated and copied at the first call only; `cp.concatenate` of no array raises `ValueError`. -/
def gpuData (t : State ω β K) : Py (State ω β K × (List K × List K × List K)) :=
  match t.gpu with
  | some g => .ok (t, g)
  | none =>
    if t.spectra = [] then .error .valueError else
      let w := (t.spectra.map (·.ivar)).flatten
      let f := (t.spectra.map (·.flux)).flatten
      if w.length ≠ f.length then .error .valueError else
        let g := (w, f, List.zipWith (· * ·) w f)
        .ok ({ t with gpu := some g }, g)

/-- One call. -/
def step (poly : Nat → List K → List K) (t : State ω β K) : Op K → Py (State ω β K × Out ω K)
  | .coadd nsig => do
    -- targets.py:267-373  `compute_coadd` replaces `spectra` at its very end, and nothing else
    let sp ← computeCoadd nsig t.spectra
    return ({ t with spectra := sp }, .none)
  | .gpuData => do
    let (t, g) ← gpuData t
    return (t, .data g.1 g.2.1 g.2.2)
  | .legendre n gpu =>
    -- targets.py:237-254
    let r := legendreCall (legendreDict poly t.spectra) t.leg n gpu
    .ok ({ t with leg := r.1 }, .polys r.2)

/-- The target after a sequence of calls. A call that raises leaves it as it was (the caller may catch the exception and go on). -/
def after (poly : Nat → List K → List K) (t : State ω β K) : List (Op K) → State ω β K
  | [] => t
  | op :: ops =>
    match step poly t op with
    | .ok (t', _) => after poly t' ops
    | .error _ => after poly t ops

end Redrock.TargetHist
