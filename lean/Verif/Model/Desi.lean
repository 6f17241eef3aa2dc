import Verif.Model.Work
import Verif.Model.Dict
import Verif.Model.Fitz
import Verif.Model.Minima
import Verif.Model.Zfind
import Verif.Model.Coadd

/-!
`DistTargetsDESI.__init__` of `/repo/py/redrock/external/desi.py` and the ordering of model spectra in `rrdesi`.

What is abstracted: FITS input is a record (`DFile`); non-finite pixels are `none`; TARGETIDs are any linear order; band names are already lower case. MPI broadcasts deliver the data of rank 0 to all ranks, so the
constructor is a function of the files, the options, the number of ranks and the rank.
-/
namespace Redrock

section
variable {ι β K : Type} [LinearOrder ι] [DecidableEq β] [Field K] [LinearOrder K]

/-- What the constructor reads from one spectra or coadd file (desi.py:297-345, 427-447, 537-603). `coadded` says whether there is an `EXP_FIBERMAP` HDU; `coaddIds` and `expIds` are the TARGETID
columns of the two fibermaps (for uncoadded input `coaddIds` comes from desispec's `coadd_fibermap`); `waveHdus` are the `<band>_WAVELENGTH` HDUs in file order; the other HDUs are `none` if absent. -/
structure DFile (ι β K : Type) where
  coadded : Bool
  coaddIds : List ι
  expIds : List ι
  waveHdus : List (β × List K)
  flux : β → Option (List (List (Option K)))
  ivar : β → Option (List (List (Option K)))
  mask : β → Option (List (List Nat))
  res : β → Option (List (List (List K)))

/-- Arguments of the constructor (desi.py:236-238). Simplified: `first_target` and `n_target` are not negative. -/
structure DOpts (ι K : Type) where
  targetids : Option (List ι)
  firstTarget : Option Nat
  nTarget : Option Nat
  coadd : Bool
  negfluxNsig : K
  cosmicsNsig : K
  capacities : Option (List K)

/-- desi.py:348-374  the target IDs selected from one file. -/
def keepIds (o : DOpts ι K) (f : DFile ι β K) : Py (List ι) := do
  let ids := o.targetids.getD f.coaddIds
  let first := o.firstTarget.getD 0
  if first > ids.length then throw .runtimeError
  let nkeep := o.nTarget.getD ids.length
  if first + nkeep > ids.length then throw .runtimeError
  return (ids.drop first).take nkeep

/-- desi.py:381-384  `input_targetids`: the TARGETID of every spectral row. -/
def DFile.rowIds (f : DFile ι β K) : List ι := if f.coadded then f.coaddIds else f.expIds

/-- desi.py:386-392  `_spec_to_target`, `_spec_keep`: the rows of the kept targets. -/
def specKeep (f : DFile ι β K) (keep : List ι) : List Nat :=
  (f.rowIds.zipIdx.map (fun yx => if yx.1 ∈ keep then (yx.2 : Int) else -1)).filterMap (fun x => if 0 ≤ x then some x.toNat else none)

/-- desi.py:407-418  `_target_specs[sfile].get(t)`: positions, among the kept rows, of the spectra of `t`. -/
def targetSpecs (f : DFile ι β K) (keep : List ι) (t : ι) : Option (List Nat) :=
  if t ∈ keep then some ((f.rowIds.filter (fun y => decide (y ∈ keep))).zipIdx.filterMap (fun yx => if yx.1 = t then some yx.2 else none)) else none

/-- desi.py:427-444  `_bands`: the bands in order of first appearance. -/
def DFile.bands (f : DFile ι β K) : List β := firstSeen (f.waveHdus.map (·.1))

/-- desi.py:443  `_wave`. -/
def DFile.waves (f : DFile ι β K) : PyDict β (List K) := f.waveHdus.foldl (fun d bw => d.set bw.1 bw.2) []

/-- `np.unique(xs, return_index=True)[1]`: for every distinct value in increasing order the position of its first occurrence. -/
def npUniqueIndex (xs : List ι) : List Nat := (npUnique xs).map (fun v => xs.idxOf v)

/-- desi.py:453-459  `_alltargetids` without repeats, in order of appearance. -/
def allTargetIds (argsort : List Nat → List Nat) (kept : List (List ι)) : Py (List ι) := do
  let all := kept.flatten
  let sortedidx := npUniqueIndex all
  let ii := argsort sortedidx
  let sel ← npTake sortedidx ii
  npTake all sel

/-- desi.py:467-474  `tweights[t]`: the number of spectra of `t`. -/
def targetWeight (fks : List (DFile ι β K × List ι)) (t : ι) : K :=
  ((fks.map (fun fk => match targetSpecs fk.1 fk.2 t with | some l => l.length | none => 0)).sum : Nat)

/-- desi.py:496-505  a spectrum of the local target list; flux, ivar and R are `None` when it is created. -/
structure DSpec (β K : Type) where
  wave : List K
  band : β
  flux : Option (List K)
  ivar : Option (List K)
  R : Option (List (List K))
  deriving DecidableEq

/-- desi.py:494-507, 514-517  a local target and the entries of `tspec_flux`, `tspec_ivar`, `tspec_mask`, `tspec_res` for it. -/
structure DTarget (ι β K : Type) where
  id : ι
  spectra : List (DSpec β K)
  nflux : Nat
  nivar : Nat
  nmask : Nat
  nres : Nat
  deriving DecidableEq

/-- desi.py:499-505  the pre-allocated spectra of one target for one file and band. -/
def blankBand (f : DFile ι β K) (keep : List ι) (t : ι) (b : β) : Py (List (DSpec β K)) :=
  match targetSpecs f keep t with
  | none => .ok []
  | some rows => rows.mapM (fun _ => do
      let w ← f.waves.get b
      return { wave := w, band := b, flux := none, ivar := none, R := none })

/-- desi.py:496-507  the pre-allocated spectra of one target. -/
def blankTarget (fks : List (DFile ι β K × List ι)) (t : ι) : Py (DTarget ι β K) := do
  let specs ← fks.mapM (fun fk => fk.1.bands.mapM (blankBand fk.1 fk.2 t))
  return { id := t, spectra := specs.flatten.flatten, nflux := 0, nivar := 0, nmask := 0, nres := 0 }

/-- desi.py:544-550 and the three similar loops: for every row of the target, `upd` the spectrum at the counter with that row, then increment the counter. -/
def fillRows {X : Type} (upd : X → DSpec β K → Py (DSpec β K)) (hdata : List X) : List Nat → List (DSpec β K) → Nat → Py (List (DSpec β K) × Nat)
  | [], specs, c => .ok (specs, c)
  | trow :: rest, specs, c => do
    let x ← npGet hdata trow
    let s ← npGet specs c
    let s' ← upd x s
    fillRows upd hdata rest (specs.set c s') (c + 1)

/-- desi.py:547  assign the flux. -/
def updFlux (x : List K) (s : DSpec β K) : Py (DSpec β K) := .ok { s with flux := some x }

/-- desi.py:570-572  `sigma = flux*sqrt(ivar)`; `sigma < -abs(negflux_nsig)`. The square root of a negative number is NaN and the comparison false. -/
def bigNegFlux (sqrt : K → K) (nsig fl iv : K) : Bool := if iv < 0 then false else decide (fl * sqrt iv < -|nsig|)

/-- desi.py:565-573  assign the inverse variance; 0 where the flux is significantly negative. Simplified: different lengths raise `ValueError` (numpy would broadcast length 1). -/
def updIvar (sqrt : K → K) (nsig : K) (x : List K) (s : DSpec β K) : Py (DSpec β K) :=
  match s.flux with
  | none => .error .typeError
  | some fl => if fl.length ≠ x.length then .error .valueError else .ok { s with ivar := some (List.zipWith (fun a v => if bigNegFlux sqrt nsig a v then 0 else v) fl x) }

/-- desi.py:590-591  `ivar *= (mask == 0)`. -/
def updMask (m : List Nat) (s : DSpec β K) : Py (DSpec β K) :=
  match s.ivar with
  | none => .error .typeError
  | some iv => if iv.length ≠ m.length then .error .valueError else .ok { s with ivar := some (List.zipWith (fun v k => v * (if k = 0 then 1 else 0)) iv m) }

/-- desi.py:634-635  assign the resolution matrix (kept as the array of diagonals). -/
def updRes (r : List (List K)) (s : DSpec β K) : Py (DSpec β K) := .ok { s with R := some r }

/-- `hdus[extname].data[rows]`. -/
def hduRows {X : Type} (d : Option (List X)) (rows : List Nat) : Py (List X) :=
  match d with
  | none => .error .keyError
  | some x => npTake x rows

/-- desi.py:556-561  non-finite inverse variances, and those of non-finite fluxes, become 0; the boolean index needs the same shape. -/
def cleanIvar (flux ivar : List (List (Option K))) : Py (List (List K)) :=
  if flux.map List.length = ivar.map List.length then
    .ok (List.zipWith (fun fr ir => List.zipWith (fun f i => if f.isNone then (0 : K) else i.getD 0) fr ir) flux ivar)
  else .error .indexError

/-- desi.py:613-629  the resolution data is broadcast in pieces of at most `n` rows and put together again. -/
def bcastBatches {X : Type} (n : Nat) (hdata : List X) : List X :=
  if hdata.length ≤ n then hdata else ((List.range ((hdata.length + n - 1) / n)).map (fun i => (hdata.drop (i * n)).take n)).flatten

/-- desi.py:537-550 for one target. -/
def loopFlux (rows : Option (List Nat)) (hdata : List (List K)) (t : DTarget ι β K) : Py (DTarget ι β K) :=
  match rows with
  | none => .ok t
  | some trows => do
    let r ← fillRows updFlux hdata trows t.spectra t.nflux
    return { t with spectra := r.1, nflux := r.2 }

/-- desi.py:563-576 for one target. -/
def loopIvar (sqrt : K → K) (nsig : K) (rows : Option (List Nat)) (hdata : List (List K)) (t : DTarget ι β K) : Py (DTarget ι β K) :=
  match rows with
  | none => .ok t
  | some trows => do
    let r ← fillRows (updIvar sqrt nsig) hdata trows t.spectra t.nivar
    return { t with spectra := r.1, nivar := r.2 }

/-- desi.py:586-594 for one target; nothing happens without a MASK HDU. -/
def loopMask (rows : Option (List Nat)) (hdata : Option (List (List Nat))) (t : DTarget ι β K) : Py (DTarget ι β K) :=
  match hdata, rows with
  | some h, some trows => do
    let r ← fillRows updMask h trows t.spectra t.nmask
    return { t with spectra := r.1, nmask := r.2 }
  | _, _ => .ok t

/-- desi.py:631-640 for one target. -/
def loopRes (rows : Option (List Nat)) (hdata : List (List (List K))) (t : DTarget ι β K) : Py (DTarget ι β K) :=
  match rows with
  | none => .ok t
  | some trows => do
    let r ← fillRows updRes hdata trows t.spectra t.nres
    return { t with spectra := r.1, nres := r.2 }

/-- desi.py:579-584  the MASK HDU is optional. -/
def maskRows (d : Option (List (List Nat))) (rows : List Nat) : Py (Option (List (List Nat))) :=
  match d with
  | none => .ok none
  | some x => do
    let y ← npTake x rows
    return some y

/-- desi.py:526-642  one file and band: read the four HDUs in turn and copy the rows into the local targets. -/
def fillBand (sqrt : K → K) (o : DOpts ι K) (mpi : Bool) (f : DFile ι β K) (keep : List ι) (ts : List (DTarget ι β K)) (b : β) : Py (List (DTarget ι β K)) := do
  let rows := specKeep f keep
  let fl ← hduRows (f.flux b) rows
  let ts ← ts.mapM (fun t => loopFlux (targetSpecs f keep t.id) (fl.map (·.map (·.getD 0))) t)
  let iv ← hduRows (f.ivar b) rows
  let iv ← cleanIvar fl iv
  let ts ← ts.mapM (fun t => loopIvar sqrt o.negfluxNsig (targetSpecs f keep t.id) iv t)
  let m ← maskRows (f.mask b) rows
  let ts ← ts.mapM (fun t => loopMask (targetSpecs f keep t.id) m t)
  let r ← hduRows (f.res b) rows
  ts.mapM (fun t => loopRes (targetSpecs f keep t.id) (if mpi then bcastBatches 10000 r else r) t)

/-- desi.py:519-645  one file; skipped if no row is kept. -/
def fillFile (sqrt : K → K) (o : DOpts ι K) (mpi : Bool) (ts : List (DTarget ι β K)) (fk : DFile ι β K × List ι) : Py (List (DTarget ι β K)) :=
  if (specKeep fk.1 fk.2).length = 0 then .ok ts else fk.1.bands.foldlM (fillBand sqrt o mpi fk.1 fk.2) ts

/-- What one rank's object holds: all IDs, the local IDs, the local targets and the TARGETID columns of `fibermap` and `exp_fibermap`. -/
structure DesiTargets (ι β K : Type) where
  allIds : List ι
  myIds : List ι
  data : List (DTarget ι β K)
  fibermapIds : List ι
  expFibermapIds : List ι
  deriving DecidableEq

/-- desi.py:287-645, 652-661  the body of the constructor for a non-empty list of files. -/
def desiBody (argsort : List Nat → List Nat) (sqrt : K → K) (o : DOpts ι K) (files : List (DFile ι β K)) (commSize : Option Nat) (rank : Nat) : Py (DesiTargets ι β K) := do
  let kept ← files.mapM (keepIds o)
  let fks := files.zip kept
  let allIds ← allTargetIds argsort kept
  let proc ← distributeWorkDefault K (commSize.getD 1) allIds (if o.coadd then none else some (targetWeight fks)) o.capacities
  let mine ← npGet proc rank
  let blank ← mine.mapM (blankTarget fks)
  let data ← fks.foldlM (fillFile sqrt o commSize.isSome) blank
  return { allIds := allIds, myIds := mine, data := data,
           fibermapIds := fks.flatMap (fun fk => fk.1.coaddIds.filter (fun y => decide (y ∈ fk.2))),
           expFibermapIds := fks.flatMap (fun fk => fk.1.expIds.filter (fun y => decide (y ∈ fk.2))) }

/-- desi.py:236-645, 652-661  `DistTargetsDESI.__init__` before coaddition, on rank `rank` of `commSize` ranks (`none`: `comm=None`). `argsort` is `np.argsort`. -/
def distTargetsDESI (argsort : List Nat → List Nat) (sqrt : K → K) (o : DOpts ι K) (files : List (DFile ι β K)) (commSize : Option Nat) (rank : Nat) : Py (DesiTargets ι β K) :=
  if files.length = 0 then .error .assertionError else desiBody argsort sqrt o files commSize rank

/-- desi.py:647-651, targets.py:32-58  the `Spectrum` of a filled slot: it was created with `R=None`, so its `ivar` was not masked by the row sums of R; the wavehash is the band. `resol` is desispec's `Resolution`.
 -/
def toSpectrum (resol : List (List K) → Dia K) (s : DSpec β K) : Py (Spectrum β β K) :=
  match s.flux, s.ivar, s.R with
  | some fl, some iv, some r => .ok { wave := s.wave, flux := fl, ivar := iv, R := resol r, wavehash := s.band, band := s.band }
  | _, _, _ => .error .attributeError

/-- desi.py:647-651  the spectra of a local target, coadded if asked for. -/
def finishTarget (resol : List (List K) → Dia K) (o : DOpts ι K) (t : DTarget ι β K) : Py (List (Spectrum β β K)) := do
  let sp ← t.spectra.mapM (toSpectrum resol)
  if o.coadd then computeCoadd o.cosmicsNsig sp else return sp

end

section Models
variable {ι β M : Type} [LinearOrder ι] [DecidableEq β]

/-- `np.searchsorted(a, v)` (side left) on a sorted array. -/
def searchsortedLeft (a : List ι) (v : ι) : Nat := (a.takeWhile (fun x => decide (x < v))).length

/-- targets.py:460-466  `eval_models`: for every local target the model of the first row of the table with its ID (`IndexError` if there is none). `ev` is `Target.eval_model`, with a row index. -/
def evalModels (zbest : List ι) (ev : ι → Nat → Py (PyDict β M)) (local_ : List ι) : Py (List (PyDict β M)) :=
  local_.mapM (fun t => do
    let i ← npGet (npWhere (zbest.map (fun z => decide (z = t)))) 0
    ev t i)

/-- desi.py:1213-1232  models of all ranks brought into the order of the catalogue: the array written for `band`. Simplified: `np.vstack` of zero rows raises `ValueError`. -/
def orderModels (argsort : List ι → List Nat) (zbest : List ι) (allIds : List (List ι)) (allModels : List (List (PyDict β M))) (band : β) : Py (List M) := do
  let models := allModels.flatten
  let ids := allIds.flatten
  let xsorted := argsort ids
  let sorted ← npTake ids xsorted
  let ypos := zbest.map (searchsortedLeft sorted)
  let sortIndices ← npTake xsorted ypos
  let check ← npTake ids sortIndices
  if check ≠ zbest then throw .assertionError
  let rows ← models.mapM (fun m => m.get band)
  if rows.length = 0 then throw .valueError
  npTake rows sortIndices

end Models
end Redrock
