import Verif.Model.Catalogue
import Verif.Model.Measure

/-!
A whole run of `/repo/py/redrock/zfind.py:219-720` (`zfind`) with the computations it really does, without archetypes, on the CPU: binned templates, chi2 scan slice by slice, priors, `fitz`, gather, table.
`Verif/Model/Run.lean` has the same bookkeeping with any functions in place of the computations; here a slice of the scan is computed as a whole and may raise.
-/
namespace Redrock

/-- zscan.py:1099-1104  `results[tid][ft]`: chi2 (it becomes `inf` where the prior forbids a redshift), coefficients and penalty at one redshift. -/
structure ScanRow (K : Type) where
  chi2 : Ext K
  coeff : List K
  penalty : K

section
variable {ι T Z R : Type} [DecidableEq ι]

/-- zscan.py:850-889  `calc_zchi2` on one slice: `fs tg zs` scans target `tg` at the redshifts of the slice. -/
def calcZchi2Slice (fs : T → List Z → Py (List R)) (targetIds : List ι) (targetData : List T) (zs : List Z) : Py (List (List R)) :=
  (List.range targetIds.length).mapM (fun j =>
    match targetData[j]? with
    | some tg => fs tg zs
    | none => .error .indexError)

/-- zscan.py:985-1036  one rank: the slices it processed in turn, put together by slice number. -/
def scanSlices (fs : T → List Z → Py (List R)) (tids : List ι) (tdata : List T) (pieces : List (Piece Z)) : Py (PyDict ι (List R)) := do
  let zchi2 ← pieces.foldlM (fun d p => do
    let rows ← calcZchi2Slice fs tids tdata p.redshifts
    return storePiece tids rows p.index d) []
  return assemble zchi2
end

/-- The settings of a run: `templates` by full type, the order `order` in which their fits are done (zfind.py:327, an argsort of the full types), numpy's `argsort`, the parabola fit, `zminfit_npoints`,
`nminima`, the numerical solvers, the priors (priors.py `Priors.eval`; zeros without priors), the order of target IDs. -/
structure FullCfg (ι ω K σ : Type) where
  templates : PyDict PyStr (Tmpl ω K σ)
  order : List PyStr
  argsort : List (Ext K) → List Nat
  minfit : List K → List K → Py (K × K × K × Nat)
  nz : Nat
  nminima : Nat
  S : Solvers K
  prior : ι → List K → List (Ext K)
  le : ι → ι → Bool

section
variable {ι ω K σ M : Type} [DecidableEq ι] [DecidableEq ω] [Field K] [LinearOrder K]

/-- templates.py:575-599 and zscan.py:807-888  one target on one slice of the redshifts of a template: the template binned on the grids `grids` of all targets, then the fit at every redshift. -/
def scanSlice (S : Solvers K) (tm : Tmpl ω K σ) (grids : List ω) (spectra : List (FitSpectrum ω K)) (zs : List K) : Py (List (ScanRow K)) := do
  let b ← binAll tm grids zs
  let r ← calcZchi2Target (solveMatrices S tm.algorithm none) spectra b zs.length tm.nbasis tm.oii
  return List.zipWith (fun x cp => ⟨.fin x, cp.1, cp.2⟩) r.1 (List.zip r.2.1 r.2.2)

/-- targets.py:468-489  `targets.wavegrids()`: the grids of all targets of the run. -/
def gridsOf (targets : List (ι × (List (FitSpectrum ω K) × M))) : List ω := firstSeen (targets.flatMap (fun t => t.2.1.map (·.wavehash)))

/-- zfind.py:318-321  `results[tg][ft]['zchi2'] += priors.eval(tg, results[tg][ft]['redshifts'])`. -/
def addPriorRows (P : List (Ext K)) (rows : List (ScanRow K)) : List (ScanRow K) := List.zipWith (fun r p => { r with chi2 := r.chi2.add p }) rows P

/-- zfind.py:358-364  `fitz(results[tg.id][ft]['zchi2'] + results[tg.id][ft]['penalty'], t.template.redshifts, tg, t.template, ...)`. -/
def fitRows (c : FullCfg ι ω K σ) (spectra : List (FitSpectrum ω K)) (tm : Tmpl ω K σ) (rows : List (ScanRow K)) : Py (TemplateFit K σ) := do
  let cands ← fitz c.argsort (fitEnvOf c.minfit c.nz c.S tm spectra) c.nminima (rows.map (fun r => r.chi2.add (.fin r.penalty))) tm.redshifts
  return ⟨tm.spectype, tm.subtype, tm.isStar, npixelsOf spectra, cands⟩

/-- the templates as far as the bookkeeping goes -/
def FullCfg.runTemplates (c : FullCfg ι ω K σ) : List (RunTemplate K) := c.templates.map (fun t => ⟨t.1, t.2.redshifts⟩)

/-- zfind.py:327, 336  the templates in the order in which the fits are done. -/
def FullCfg.runSorted (c : FullCfg ι ω K σ) : List (RunTemplate K) := c.order.filterMap (fun ft => (c.templates.get? ft).map (fun t => ⟨ft, t.redshifts⟩))

/-- zfind.py:287-409  what one rank does: scan of its targets with every template (`pieces t` are the slices it saw), priors, fits, metadata. -/
def fullRank (c : FullCfg ι ω K σ) (grids : List ω) (loc : List (ι × (List (FitSpectrum ω K) × M))) (pieces : RunTemplate K → List (Piece K)) :
    Py (PyDict ι (RunResult K (ScanRow K) (TemplateFit K σ) M)) := do
  let res ← calcZchi2Targets c.le (fun t => do
    let tm ← c.templates.get t.fulltype
    scanSlices (fun tg zs => scanSlice c.S tm grids tg.1 zs) (loc.map (·.1)) (loc.map (·.2)) (pieces t)) c.runTemplates (loc.map (·.1))
  rankFinish (fun id zs rows => addPriorRows (c.prior id zs) rows) (fun tg t rows => do
    let tm ← c.templates.get t.fulltype
    fitRows c tg.1 tm rows) (·.2) c.runSorted loc res

/-- zfind.py:280-475  the fits of every target: one process, or MPI ranks. -/
def fullFits (c : FullCfg ι ω K σ) (targets : List (ι × (List (FitSpectrum ω K) × M))) (allIds : List ι) :
    RunWay ι (List (FitSpectrum ω K) × M) K → Py (List (ι × List (PyStr × TemplateFit K σ) × Option M))
  | .serial => do
    let res ← fullRank c (gridsOf targets) targets (fun t => [{ index := 0, redshifts := t.redshifts }])
    let all ← gatherRun [res]
    collectFits allIds all
  | .mpi locs log => do
    let perRank ← (locs.zipIdx).mapM (fun lr => fullRank c (gridsOf targets) lr.1 (fun t => log t lr.2))
    let all ← gatherRun perRank
    collectFits allIds all

/-- zfind.py:686-692  `maxcoeff` without archetypes; `np.max` of an empty list raises. -/
def FullCfg.maxcoeff (c : FullCfg ι ω K σ) : Py Nat := pyMaxNat (c.templates.map (fun t => t.2.nbasis))

/-- zfind.py:219-720  `zfind`: the rows of the table, each with its target ID. -/
def fullCatalogue [LinearOrder σ] (c : FullCfg ι ω K σ) (targets : List (ι × (List (FitSpectrum ω K) × M))) (allIds : List ι) (way : RunWay ι (List (FitSpectrum ω K) × M) K) :
    Py (List (ι × Row K σ)) := do
  let cat ← fullFits c targets allIds way
  let m ← c.maxcoeff
  finalTable c.nminima (fun _ => false) m (cat.map (fun r => (r.1, r.2.1.map (·.2))))

end
end Redrock
