import Verif.Model.RrDesi
import Verif.Model.Binned
import Verif.Model.DistTargets

/-!
The best-fit models that `rrdesi --model` writes (`/repo/py/redrock/external/desi.py` lines 1139-1236, `/repo/py/redrock/targets.py` lines 184-234, 444-489), for a run without archetypes.
-/
namespace Redrock

/-- templates.py:29-45  what `Template.eval` uses of a template: wavelengths and basis spectra. -/
structure EvalTemplate (K : Type) where
  wave : List K
  flux : List (List K)

section
variable {β K : Type} [DecidableEq β] [Field K] [LinearOrder K]

/-- A string entry. (The columns have the types `zfind` gives them; another entry does not occur.) -/
def TabCell.asStr : TabCell K → Py PyStr
  | .str s => .ok s
  | _ => .error .typeError

/-- A number. -/
def TabCell.asFlt : TabCell K → Py K
  | .flt x => .ok x
  | _ => .error .typeError

/-- A row of coefficients. -/
def TabCell.asArr : TabCell K → Py (List K)
  | .arr x => .ok x
  | _ => .error .typeError

/-- An integer. -/
def TabCell.asInt : TabCell K → Py Int
  | .int x => .ok x
  | _ => .error .typeError

/-- `T[name][i]`. -/
def Tab.at (T : Tab K) (name : PyStr) (i : Nat) : Py (TabCell K) := do
  let c ← T.col name
  npGet c i

/-- targets.py:206-210  what `eval_model` reads of a row of the catalogue. -/
structure BestFit (K : Type) where
  spectype : PyStr
  subtype : PyStr
  coeff : List K
  z : K
  fitmethod : PyStr
  deriving DecidableEq

/-- targets.py:206-210, 463-464  `bestfit[i]['SPECTYPE']` and so on. -/
def Tab.bestFit (T : Tab K) (i : Nat) : Py (BestFit K) := do
  let spectype ← (← T.at "SPECTYPE".toList i).asStr
  let subtype ← (← T.at "SUBTYPE".toList i).asStr
  let coeff ← (← T.at "COEFF".toList i).asArr
  let z ← (← T.at "Z".toList i).asFlt
  let fitmethod ← (← T.at "FITMETHOD".toList i).asStr
  return ⟨spectype, subtype, coeff, z, fitmethod⟩

/-- targets.py:229-232  `tx.eval(coeff, sp.wave, z, sp.Rcsr)`. The resolution matrix has as many columns as the spectrum has fluxes; `R.dot` of another length raises `ValueError`. -/
def evalSpectrum (tx : EvalTemplate K) (coeff : List K) (z : K) (s : Spectrum β β K) : Py (List K) :=
  if s.flux.length ≠ s.wave.length then .error .valueError else templateEval tx.wave tx.flux coeff s.wave z (some s.fitPart.R)

/-- targets.py:184-234  `Target.eval_model` (as `evalModel`, with the spectra of the target). No archetypes are given, so that `archetypes[spectype]` raises `TypeError`. -/
def evalTarget (templates : PyDict (PyStr × PyStr) (EvalTemplate K)) (b : BestFit K) (spectra : List (Spectrum β β K)) : Py (PyDict β (List K)) :=
  if b.coeff.all (fun c => decide (c = 0)) then .ok (spectra.foldl (fun d sp => d.set sp.wavehash (sp.wave.map (fun _ => 0))) [])
  else if b.fitmethod = "ARCH".toList then .error .typeError
  else match templates.get? (b.spectype, b.subtype) with
    | none => .error .keyError
    | some tx => spectra.foldlM (fun d sp => do
        let mdl ← evalSpectrum tx b.coeff b.z sp
        return d.set sp.wavehash mdl) []

/-- targets.py:460-466  `eval_models` on one rank: for each local target the row `np.where(bestfit['TARGETID'] == tgt.id)[0][0]`. -/
def evalLocal (templates : PyDict (PyStr × PyStr) (EvalTemplate K)) (zbest : Tab K) (ids : List Int) (loc : List (Int × List (Spectrum β β K))) : Py (List (PyDict β (List K))) :=
  loc.mapM (fun t => do
    let i ← npGet (npWhere (ids.map (fun z => decide (z = t.1)))) 0
    let b ← zbest.bestFit i
    evalTarget templates b t.2)

/-- desi.py:999-1013  the local targets of a rank with their spectra (as `rrdesiLocal`, which has what the fit uses of them). -/
def rrdesiLocalFull (p : RrDesi β K) (files : List (DFile Int β K)) (commSize : Option Nat) (rank : Nat) : Py (List (Int × List (Spectrum β β K))) := do
  let t ← distTargetsDESI p.argsort p.sqrt p.opts files commSize rank
  t.data.mapM (fun d => do
    let sp ← fittedSpectra p.resol p.opts p.noSkymask d
    return (d.id, sp))

/-- desi.py:999-1013  the targets of all ranks. -/
def rankTargets (p : RrDesi β K) (files : List (DFile Int β K)) : RrDesiWay K → Py (List (List (Int × List (Spectrum β β K))))
  | .serial => do
    let t ← rrdesiLocalFull p files none 0
    return [t]
  | .mpi size _ => (List.range size).mapM (rrdesiLocalFull p files (some size))

/-- desi.py:1139-1143  `templates[(spectype, subtype)] = dt.template` for the templates of the run; `basis` are wavelengths and basis spectra of a template by its full type. -/
def evalTemplateDict (p : RrDesi β K) (basis : PyStr → EvalTemplate K) : PyDict (PyStr × PyStr) (EvalTemplate K) :=
  p.fit.templates.foldl (fun d t => d.set (t.2.spectype.toList, t.2.subtype.toList) (basis t.1)) []

/-- targets.py:471-489  `targets.wavegrids()` in one process, or on the ranks. -/
def modelGrids (way : RrDesiWay K) (ts : List (List (Int × List (Spectrum β β K)))) : PyDict β (List K) :=
  let pairs := ts.map (fun loc => loc.flatMap (fun t => t.2.map (fun s => (s.wavehash, s.wave))))
  match way with
  | .serial => wavegridsSerial pairs.flatten
  | .mpi _ _ => wavegridsMpi pairs

/-- desi.py:1193-1236 and 174-190  the model HDUs of a run with `--outfile` and `--model`: for each band the wavelengths and one model per row of the catalogue, in single precision. `argsort` is `np.argsort` of target
IDs. An exception leaves no model file; the catalogue has been written by then. -/
def rrdesiModels (p : RrDesi β K) (basis : PyStr → EvalTemplate K) (argsort : List Int → List Nat) (files : List (DFile Int β K)) (way : RrDesiWay K) (zbest : Tab K) : Py (PyDict β (List K × List (List K))) := do
  let ts ← rankTargets p files way
  let ids ← (← zbest.col "TARGETID".toList).mapM TabCell.asInt
  let models ← ts.mapM (evalLocal (evalTemplateDict p basis) zbest ids)
  (modelGrids way ts).mapM (fun bw => do
    let rows ← orderModels argsort ids (ts.map (List.map (·.1))) models bw.1
    return (bw.1, bw.2, rows.map (List.map p.round32)))

/-- desi.py:1020-1236  a run of `rrdesi` with `--outfile` and `--model`: the catalogue and the models. -/
def rrdesiModelFile (p : RrDesi β K) (basis : PyStr → EvalTemplate K) (argsort : List Int → List Nat) (files : List (DFile Int β K)) (way : RrDesiWay K) : Py (Tab K × PyDict β (List K × List (List K))) := do
  let zbest ← rrdesiCatalogue p files way
  let d ← rrdesiModels p basis argsort files way zbest
  return (zbest, d)

end
end Redrock
