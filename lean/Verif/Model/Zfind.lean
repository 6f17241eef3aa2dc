import Verif.Model.Fitz

/-!
Model of the finalisation part of `/repo/py/redrock/zfind.py`: `sort_dict_by_cols`, `sort_zfit_dict`, `calc_deltachi2` and lines 458-618 of
`zfind` (per-target tables: flags, sorting, trimming, deltachi2, stacking of the per-target tables).
-/
namespace Redrock

section
variable {K : Type} [Field K] [LinearOrder K]

/-- `np.lexsort((k1, k2))` for two keys: a stable argsort by the first key followed by a stable argsort by the last (primary) key. `le1`, `le2` compare
positions by the two keys. -/
def lexsort2 (le1 le2 : Nat → Nat → Bool) (n : Nat) : List Nat :=
  pySort le2 (pySort le1 (List.range n))

/-- zfind.py:53-81  `sort_dict_by_cols(d, (c0, c1), sort_first_column_first=True)` on a dictionary of columns. The tuple is reversed, so
`np.lexsort((d[c1], d[c0]))` makes `c0` the primary key. Every column is indexed with the same `idx`. `le0`, `le1` compare positions by `c0`, `c1`. -/
def sortDictByCols {V : Type} (d : PyDict String (List V)) (n : Nat) (le0 le1 : Nat → Nat → Bool) : Py (PyDict String (List V)) := do
  let idx := lexsort2 le1 le0 n
  d.mapM (fun kv => do
    let col ← npTake kv.2 idx
    return (kv.1, col))

/-- zfind.py:206-218  `sort_zfit_dict`: sort by `(zwarn & badfit_mask) != 0`, then `chi2`. `zwarn` and `chi2` are the columns of that name; `d` holds
all columns (as one type `V`). -/
def sortZfitDict {V : Type} (zwarn : List Nat) (chi2 : List K) (d : PyDict String (List V)) : Py (PyDict String (List V)) :=
  sortDictByCols d zwarn.length
    (fun i j => decide ((zwarn.getD i 0 &&& ZW.badfit ≠ 0) → (zwarn.getD j 0 &&& ZW.badfit ≠ 0)))
    (fun i j => decide (chi2.getD i 0 ≤ chi2.getD j 0))

/-- One row of a target's table `tzfit` (the columns `targetid`, `zz`, `zzchi2`, `fitmethod`, `pca_*` are not modelled). -/
structure Row (K σ : Type) where
  z : K
  zerr : K
  zwarn : Nat
  chi2 : K
  npixels : Nat
  spectype : σ
  subtype : σ
  ncoeff : Nat
  coeff : List K
  maxVelo : K
  znum : Nat
  deltachi2 : K
  deriving DecidableEq

variable {σ : Type}

/-- `(zwarn & badfit_mask) != 0`. -/
def Row.bad (r : Row K σ) : Bool := decide (r.zwarn &&& ZW.badfit ≠ 0)

/-- zfind.py:206-218  `sort_zfit_dict` seen row by row (`Verif.Lemmas.Zfind` proves that this is what `sortZfitDict` does to every column): stable sort
by chi2, then stable sort by the bad-fit flag. -/
def sortZfit (rows : List (Row K σ)) : List (Row K σ) :=
  pySort (fun a b => decide (a.bad = true → b.bad = true)) (pySort (fun a b => decide (a.chi2 ≤ b.chi2)) rows)

/-- The four columns `calc_deltachi2` reads. -/
structure DRow (K : Type) where
  chi2 : K
  z : K
  zwarn : Nat
  dvlimit : K

/-- zfind.py:127  `okfit = (zwarn & badfit_mask) == 0`. -/
def DRow.ok (p : DRow K) : Bool := decide (p.zwarn &&& ZW.badfit = 0)

/-- zfind.py:133-138  the loop `for i in range(len(chi2)-1)`: `ii = (np.abs(dv)>np.minimum(dvlimit[i],dvlimit[i+1:])) & okfit[i+1:]`,
`deltachi2[i] = np.min(dchi2[ii])`, else 0. The last entry stays 0, as it does here (nothing follows it). -/
def deltachi2s : List (DRow K) → List K
  | [] => []
  | a :: rest =>
    (match (rest.filter (fun b => decide (min a.dvlimit b.dvlimit < |getDv b.z a.z|) && b.ok)).map (fun b => b.chi2 - a.chi2) with
      | [] => 0
      | d :: ds => ds.foldl min d) :: deltachi2s rest

/-- zfind.py:140-153  the `SMALL_DELTA_CHI2` loop; constants.py:11 `min_deltachi2 = 9.` -/
def setzwarns (ps : List (DRow K)) : List Bool :=
  ps.zipIdx.map (fun ai => ps.zipIdx.any (fun bj => decide (bj.2 ≠ ai.2) &&
    (bj.1.ok && decide (|bj.1.chi2 - ai.1.chi2| < 9) && decide (min ai.1.dvlimit bj.1.dvlimit ≤ |getDv bj.1.z ai.1.z|))))

/-- What `fitz` returned for one template: `spectype`, `subtype` from the full type, `isStar` for `spectype.upper() == 'STAR'`, the candidates
and `npixels` (fitz.py:375-378; the same number on every row). -/
structure TemplateFit (K σ : Type) where
  spectype : σ
  subtype : σ
  isStar : Bool
  npixels : Nat
  cands : List (Cand K)

/-- `tmp['coeff'].shape[1]` of a template with candidates. -/
def TemplateFit.ncoeff (t : TemplateFit K σ) : Nat := ((t.cands.map (·.coeff.length)).headD 0)

/-- zfind.py:513  `max([tmp['coeff'].shape[1] for tmp in tzfit])`, `ValueError` if no template has candidates. -/
def pyMaxNat : List Nat → Py Nat
  | [] => .error .valueError
  | v :: vs => .ok (vs.foldl max v)

/-- zfind.py:470-553  the rows of one target before flags and sorting: templates without minima are skipped, coefficients are padded with zeros to the
widest template of this target. -/
def targetRows (fits : List (TemplateFit K σ)) : Py (List (Row K σ)) := do
  let tzfit := fits.filter (fun t => decide (t.cands ≠ []))
  let maxncoeff ← pyMaxNat (tzfit.map (·.ncoeff))
  return tzfit.flatMap (fun t => t.cands.map (fun c =>
    { z := c.z, zerr := c.zerr, zwarn := c.zwarn, chi2 := c.chi2, npixels := t.npixels, spectype := t.spectype, subtype := t.subtype,
      ncoeff := t.ncoeff, coeff := c.coeff ++ List.replicate (maxncoeff - c.coeff.length) 0,
      maxVelo := maxVeloDiff t.isStar, znum := 0, deltachi2 := 0 }))

/-- zfind.py:557-584  flags: `NEGATIVE_MODEL` where the archetype test `ibad` says so (any test), `NODATA` where `npixels==0`, `LITTLE_COVERAGE` where
`npixels < 10*ncoeff`. -/
def flagRow (ibad : Row K σ → Bool) (r : Row K σ) : Row K σ :=
  let w := if ibad r then r.zwarn ||| ZW.NEGATIVE_MODEL else r.zwarn
  let w := if r.npixels = 0 then w ||| ZW.NODATA else w
  let w := if r.npixels < 10 * r.ncoeff then w ||| ZW.LITTLE_COVERAGE else w
  { r with zwarn := w }

/-- `np.unique`: sorted distinct values. -/
def npUnique [LinearOrder σ] (xs : List σ) : List σ := (pySort (fun a b => decide (a ≤ b)) xs).dedup

/-- zfind.py:589-602  keep the first `nminima` rows of every spectype (`np.unique` order), re-sort if anything was dropped. -/
def trimRows [LinearOrder σ] (nminima : Nat) (rows : List (Row K σ)) : List (Row K σ) :=
  let keep := (npUnique (rows.map (·.spectype))).flatMap (fun s => (rows.filter (fun r => decide (r.spectype = s))).take nminima)
  if keep.length < rows.length then sortZfit keep else rows

/-- zfind.py:604-613  `znum = np.arange(l)`, `deltachi2`, `zwarn[setzwarn] |= SMALL_DELTA_CHI2`. -/
def finishRows (rows : List (Row K σ)) : List (Row K σ) :=
  let ps : List (DRow K) := rows.map (fun r => ⟨r.chi2, r.z, r.zwarn, r.maxVelo⟩)
  (((rows.zipIdx).zip (deltachi2s ps)).zip (setzwarns ps)).map (fun x =>
    { x.1.1.1 with znum := x.1.1.2, deltachi2 := x.1.2,
                   zwarn := if x.2 then x.1.1.1.zwarn ||| ZW.SMALL_DELTA_CHI2 else x.1.1.1.zwarn })

/-- zfind.py:470-617  the table of one target. -/
def targetTable [LinearOrder σ] (nminima : Nat) (ibad : Row K σ → Bool) (fits : List (TemplateFit K σ)) : Py (List (Row K σ)) := do
  let rows ← targetRows fits
  return finishRows (trimRows nminima (sortZfit (rows.map (flagRow ibad))))

/-- zfind.py:468-619  all targets, then `astropy.table.vstack(allzfit)`. `vstack` raises (TableMergeError, here `valueError`) if the `coeff` columns of
two tables have different widths; on an empty list of tables it raises too. -/
def zfindTables {ι : Type} [LinearOrder σ] (nminima : Nat) (ibad : Row K σ → Bool) (all : List (ι × List (TemplateFit K σ))) :
    Py (List (ι × Row K σ)) := do
  let tabs ← all.mapM (fun tf => do
    let rows ← targetTable nminima ibad tf.2
    return (tf.1, rows))
  let widths := tabs.map (fun t => ((t.2.map (·.coeff.length)).headD 0))
  match widths with
  | [] => .error .valueError
  | w :: ws =>
    if ws.any (fun v => decide (v ≠ w)) then .error .valueError
    else .ok (tabs.flatMap (fun t => t.2.map (fun r => (t.1, r))))

/-- zfind.py:686-710  standardise the `coeff` width: widen with zeros to `maxcoeff` (largest nbasis; numpy raises if it is narrower than the table), then
cut to the common `ncoeff` if all rows have the same. -/
def standardizeCoeff (maxcoeff : Nat) (rows : List (Row K σ)) : Py (List (Row K σ)) := do
  let ncoeff := (rows.map (·.coeff.length)).headD 0
  let rows ←
    (if ncoeff ≠ maxcoeff then
      if ncoeff ≤ maxcoeff then pure (rows.map (fun r => { r with coeff := r.coeff ++ List.replicate (maxcoeff - ncoeff) 0 }))
      else throw .valueError
    else pure rows : Py (List (Row K σ)))
  match (rows.map (·.ncoeff)).dedup with
  | [m] => .ok (rows.map (fun r => { r with coeff := r.coeff.take m }))
  | _ => .ok rows

end
end Redrock
