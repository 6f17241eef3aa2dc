import Verif.Model.Archetype

/-!
`fitz` in archetype mode with the real archetype fit: what `/repo/py/redrock/fitz.py` gives to `get_best_archetype`.
-/
namespace Redrock

/-- The archetypes of the type of the template and the settings of the run, for one target. `lyman z wave` is row 0 of `transmission_Lyman([z], wave, model=template.igm_model)` (fitz.py:293), `none` where the function
returns `None`. -/
structure ArchFitCfg (ω K : Type) where
  S : Solvers K
  le : PyStr → PyStr → Bool
  argsort : List K → List Nat
  leg : Nat → K → K
  A : Archetype K
  t : ArchTarget ω K
  lyman : K → List K → Option (List K)
  perCamera : Bool
  nNearest : Option Nat
  nleg : Nat
  sigma : Option K

section
variable {K ω : Type} [Field K] [LinearOrder K] [DecidableEq ω]

/-- fitz.py:280, 292-296  the dictionary `trans`: one entry per grid; all `None` if the `try` block raised before the transmission was calculated. -/
def ArchFitCfg.trans (c : ArchFitCfg ω K) (tr : Option K) : PyDict ω (Option (List K)) := c.t.dwave.map (fun kw => (kw.1, tr.bind (fun z => c.lyman z kw.2)))

/-- fitz.py:334-338  the number of sets of polynomials. -/
def ArchFitCfg.ncamera (c : ArchFitCfg ω K) : Nat := if c.perCamera then c.t.dwave.length else 1

/-- fitz.py:333-347  the prior matrix, the archetype fit at `z` and the subtype of its full type. -/
def ArchFitCfg.getBest (c : ArchFitCfg ω K) (tr : Option K) (z : K) (sigma : Option K) : Py (K × List K × List Char) := do
  let d := spectralData c.t.spectra
  let prior := sigma.map (fun s => priorOnCoeffs (c.nNearest.getD 1) c.nleg s c.ncamera)
  let (chi2, coeff, fulltype) ← getBestArchetype c.S c.le c.argsort c.leg c.A c.t d.1 d.2.1 d.2.2 z c.perCamera c.nNearest c.nleg (c.trans tr) prior
  let p ← parseFulltype fulltype
  return (chi2, coeff, p.2)

/-- fitz.py:331-356  the archetype part of `fitz` for this target and template. -/
def ArchFitCfg.env (c : ArchFitCfg ω K) : ArchEnv K where
  getBest := c.getBest
  perCamera := c.perCamera
  ncamGrids := c.t.dwave.length
  nNearest := c.nNearest
  priorSigma := c.sigma
  degLegendre := c.nleg

end
end Redrock
