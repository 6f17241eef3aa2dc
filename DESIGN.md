# Formal model of desihub/redrock in Lean 4 — design

Source of truth: `/repo/py/redrock` at the pinned commit (read as text; never built or run).
Lake project: `/verif/lean`, library `Verif`.

## Layout

* `Verif/Model/*.lean`  executable (or, over the reals, total) definitions that follow the python
  function by function. Every definition carries a comment with file and lines, and says what is simplified.
* `Verif/Spec/*.lean`   small independent vocabulary used in the statements (no reference to the model's helpers).
* `Verif/Lemmas/*.lean` helper lemmas.
* `Verif/Props/*.lean`  the property theorems, named `Cnn_...`, each with an `example` that meets its hypotheses.

## Trusted base

* Lean 4.33.0's kernel; Mathlib as installed. Axioms allowed: `propext`, `Classical.choice`, `Quot.sound`
  (every theorem depends on at most these). No axioms of our own, no compiled evaluation.
* My reading of the python source, as cited line by line in the model.
* **Numbers.** python/numpy floats are modelled by an arbitrary linearly ordered field (or ℝ / ℚ) - exact
  arithmetic, no rounding, overflow, signed zero. NaN and infinity are modelled explicitly only where the code relies on them
  (`priors.tophat`, `find_minima`: type `Ext` = finite | inf | nan; DESI flux NaNs). The narrowing conversions
  the code makes on purpose (int8 znum, int32 zwarn) are modelled with wrap-around.
* **numpy / python primitives** are modelled by list functions of their documented behaviour: `np.array_split`, `np.lexsort` (stable),
  `sorted(..., key, reverse)` (stable), `np.unique`, `np.concatenate`, `np.vstack`, boolean masks, dict insertion order, `min` over tuples.
  Where numpy leaves something unspecified (order of ties in `np.argsort`), the model takes an arbitrary function that meets the documented contract.
* **LAPACK / scipy solvers, CUDA runtime, FITS/HDF5 byte layout, MPI library, OS** are not modelled; they are parameters:
  a solver is an arbitrary function returning a solution or a failure; MPI is FIFO, reliable, pairwise channels with
  nonblocking sends; `os.rename` is atomic; a file write is a sequence of chunks that may be cut anywhere.

## Properties, model and proof idea

| id | what is modelled | how it is proved |
|----|------------------|------------------|
| C01 | `utils.distribute_work` as stable sort + fold with lexicographic argmin | fold invariant: concatenation is a permutation (`List.count`) |
| C02 | same, capacities all equal | fold invariant: max load - min load ≤ max weight |
| C03 | same, capacities 1 and 1/10000, unit weights | invariant on loads; exact characterisation N ≤ 10000·G; negation with explicit witness family for N > 10000·G |
| C04 | `np.array_split`, `DistTemplate.__init__` | arithmetic on div/mod, list take/drop |
| C05 | small-step message-passing system with one FIFO channel per rank and `isend/recv/wait` program counters | inductive invariant over every interleaving; progress (no deadlock) theorem; counting of the pieces held |
| C06 | `calc_zchi2_targets` MPI branch: store by piece index, concatenate sorted by index | from C04/C05 plus per-redshift locality of the scan function |
| C07 | MP branch with the ID list / data list order as in the source | negation with witness (unequal numbers of spectra); partial: equality when every worker list is in local order, any completion order |
| C08 | queue protocol of parent and workers | negation: a reachable stuck state with a failing worker; partial: without failures every maximal schedule ends |
| C09 | batch send / receive of `zfind` | list chunking lemma; message counts |
| C10 | progress protocol | counting invariant over every schedule |
| C11 | `DistTargetsCopy` | from C01, uniqueness of IDs |
| C12 | `find_minima` with arbitrary valid argsort | list/index reasoning; global minimum from well-founded argmin |
| C13 | `priors.tophat` + `find_minima` over numbers with inf/nan | case analysis of window ends |
| C14 | `Priors.__init__`, `eval`, the three prior functions | algebra, monotonicity of log |
| C15,C16 | `fitz` candidate loop; refinement is an arbitrary function (subclaims use its real structure: linspace, argmin, minfit) | loop invariant |
| C17,C18 | `minfit` with exact polynomial fit of 3 points | field algebra |
| C19 | `sort_dict_by_cols` + `sort_zfit_dict` | stable sort characterisation |
| C20 | trimming in `zfind` | list filtering lemmas |
| C21,C22 | `calc_deltachi2` loops | fold = min specification |
| C23,C24 | zwarn flow through fitz, zfind, rrdesi as bitmask operations | `Nat.testBit` |
| C25 | file system state machine: tmp write in chunks, rename, optional remove | invariant over every crash point |
| C26,C27,C31 | `write_zscan`, `read_zscan` on an abstract table store | list lookup lemmas; int8 wrap-around |
| C28 | `parse_fulltype`, `make_fulltype` with a faithful `str.split(':::')` and `strip` | string-splitting lemmas |
| C29 | BOSS ID arithmetic | `omega` |
| C30 | header keyword writing and `header2templatefiles` | list indexing |
| C32 | `centers2edges` | `linarith` |
| C33,C34 | `_trapz_rebin_1d` loops, in-bounds access modelled with failure | loop invariants; integral of the piecewise linear interpolant specified independently (additive antiderivative / interval integral) |
| C35 | CUDA kernel loop with searchsorted starts | same integral spec for both |
| C36 | range check | ordered-field algebra |
| C37-C40 | `calc_zchi2_batch`, `calc_negOII_penalty` with an arbitrary solver | completion of the square; finite sums |
| C41,C42 | `compute_coadd` per pixel | finite sums, permutation invariance; negation witness for C42 |
| C43 | `Spectrum` memory states | invariant over operation sequences |
| C44 | Legendre cache state machine | negation witness; partial: single-device histories |
| C45,C55 | Calura/Kamble, Inoue14 formulas over ℝ | `Real.exp` bounds; C55 negation at an explicit redshift |
| C46 | `Template.eval` | linear algebra on finite sums |
| C47,C48,C54 | `DistTargetsDESI` loops | refinement of counter-based filling to filtering; C48 negation + partial |
| C49 | rrdesi post-processing | row-wise case analysis |
| C50 | model gather/ordering | permutation + searchsorted lemma |
| C51,C52 | archetype coefficient bookkeeping, `perCameraFit`; variable-binding state | list lemmas, dictionary order, block structure of the design matrix; C52 negation |
| C53 | `get_mp` | `omega` |
| C57 | `reduced_wavelength` | ordered-field algebra |
| C56 | `wavegrids` | fold lemmas |
| C58 | `fitz` candidates: where z, chi2, coeff come from | case analysis of the model of `fitz`; counterexample for flagged candidates |
| C59 | `fitz` returns at least one candidate | existence lemma for minima + model of `fitz` |
| C60 | `zfind` finalisation: every target reported | negation (two ways to abort) and partial |
| C61 | `trapz_rebin` without length check | corollary of the C36 theorem, which only needs `len(x) <= len(y)` |
| C62 | `solve_matrices` with nnls modelled by its optimality contract on the normal equations | explicit 2x2 counterexample; partial from C37 |
| C63 | `Template.eval` and the binned template of the fit with the transmission factor | linear algebra; explicit counterexample |
| C64 | interleaved file-system steps of several writers | invariant for distinct temporaries; counterexample schedule for the shared one |
| C65 | `read_zscan` including the candidate tables | lookup lemmas; KeyError case and partial |
| C66 | loop of `fitz` with the list of visited minima | loop rule over (visited minima, candidates) |
| C67 | widening and cutting of the coefficient column in `zfind` | list lemmas; composed with C23 and C60 |
| C68 | `solveMatrices`, `calcZchi2Batch` (Chi2) | case analysis of every entry of a batch: failure entry or solver output | 
| C69 | `rebin_template`, `transmission_Lyman`, preparation of templates in `DistTemplate` and `fitz`, `calc_zchi2_batch` | every result is a `map` over redshifts of a function of that redshift alone |
| C70 | `compute_coadd` with the DIA format of the resolution | finite sums; counterexample over ℚ |
| C71 | `Target.__init__`, `compute_coadd`: attribute `bands` | keys of the coadds; equality iff no repeats |
| C72 | `keepIds` of the `DistTargetsDESI` model | case analysis; negation for "rest of the list" and for absent IDs |
| C73 | TARGETID columns of the kept FIBERMAP rows | list lemmas; two counterexamples |
| C74 | `computeCoadd` + `finishTarget` | inversion of the coadd; counterexample with `coadd=False` |
| C75 | `getBestArchetype`, `nearestNeighbour`, `perCameraFit` (CPU) | refinement to the least-squares specification `fitOf`; argmin/argsort lemmas |
| C76 | `evalModelArch`, `Archetype.eval`, `parseFulltype`, `splitArchetypeCoeff` | equality of the drawn model with the linear model of the fit; counterexamples for zero coefficients and `;` in names |
| C77 | `priorOnCoeffs`, `dropPrior` | loop invariant, quadratic form |
| C78 | `archLabels` (`str(i)` as decimal digits) | injectivity of decimal notation, last underscore |
| C79 | `Template.load`, `defaultRedshifts`, `logGrid`, `npArange` over ℝ | floor/ceiling arithmetic, monotonicity of `log10` and `10**x`; inversion of the constructor |
| C80 | `Template.load`, `templateWave`, `templateIgm`, `oiiColumns` | inversion of the constructor |
| C81 | `findTemplates`, `templateLine`, `templatesIn`; the file system is a parameter | string lemmas against the inductive grammar `LineNames` (total: `lineNames_total`) |
| C82 | `templateDict`, `distributedTemplates`, `loadTemplates` | invariant of the dictionary over the list of files |
| C83 | `tableModels`, `tableModelsDict` | inversion; counterexample for `R=None` |
| C84 | `catalogueNames`, `templateDict` | C28 round trip + dictionary invariant; counterexample with a seven-character type |
| C85 | `mergeTemplates`, `takeRows` (columns as dictionaries of 2-d/3-d arrays, leftover loop variable included) | block decomposition of every stacked column; counterexample families for unequal candidate counts and one camera |
| C86 | `negativeModel`, `allSpectypes` | case analysis; exact condition via distinctness of types |
| C87 | `metaColumns`, `datatypeOf` | inversion of the loop over keys |
| C88 | `bossReadSpectra` and its steps (`cropFile`, `fiberEntry`, `addEntry`, `fileStep`, `thingTable`) | loop invariants over fibres and files; counterexample for the cut `BRICKNAME` |
| C89 | `resoRaw`, `resoNorm`, `bossR`, `bossNdiag`, `fixWidth` (`np.exp` any positive function) | double sums over diagonals; flat-model counterexample |
| C90 | `nearestPixel`, `cropFile` | properties of `argmin` on an increasing grid; last-pixel counterexample for all grids that end inside the range |
| C91 | `rrbossSelect`, `rrbossArchArg`, `zfindArchTypes` | case analysis; refutations for all inputs |
| C92 | `Model/Run.lean`: `calcZchi2Targets`, `applyPriors`, `fitLocal`, `rankFinish`, `transfer`, `gatherRun`, `collectFits`, `serialRun`, `mpiRun`, `mpRun` (scan, fit and prior functions are parameters; the scans are those of C06/C07 on the ring of C05; send/receive those of C09) | fold invariants: after every step the results are a table indexed by target and template; then equivalence with the specification `IsCatalogue` in each mode |
| C93 | `fileRun`, `scanFile` | the same invariants; refutations for all inputs (MPI, other templates) and concrete ones (prior, grid) |
| C94 | `Model/Wrap.lean`: `weightedPartition` (`order` = any result of the unstable `argsort`) | fold invariants; `Lemmas/Lpt.lean` is Graham's LPT argument (also used for C02) |
| C95 | `pyReplace`, `pathSplit`, `outfile`, `spectra2outfiles` | string lemmas on the non-overlapping scan of `str.replace`; refutations on concrete paths |
| C96 | `Tree`, `walk`, `findSpecfiles` (`normpath` and `exists` are parameters; symbolic links that lead back up not modelled) | mutual structural induction on the tree against the specification `FileAt`; refutation for every relative path |
| C97 | `countTargets`, `groupSpecfiles`, `planGroups`, `runGroups`, `tries`, `runRank`, `wrapRun` (exit codes and exceptions of the subprocesses are arbitrary) | partition (C94) + exactly one index per file; induction over the sequence of runs |
| C98 | `backupLogs`, `logTry`, `logfileOf` (the directory is a dictionary of contents) | invariant `LogState` by induction over the tries; refutation for every deleted backup but the newest |
| C99 | `splitWs`, `command`, `hms`, `scriptOpts`, `planJob`, `numNodes` | `split()` characterised for all strings; averages for the 25 minutes; concrete refutations |
| C100 | `sparseKernel`, `dot33Kernel`, `dot32Kernel` on flat memory with threads in any order, `sparseGpuAll`, `solveMatricesGpu`, `calcZchi2BatchGpu` (index arithmetic exact, out-of-bounds access is an error; `cupy.linalg.solve` agrees with `numpy` where that succeeds) | refinement: each launch is shown to give the dense product for every fair schedule, then equality with `calcZchi2Batch` of the CPU model; refutations for failed fits, transposed views and the documented product |
| C101 | the same, the arithmetic of the kernels being any type with `+`, `*`, 0 | schedule independence without any law for convolution and model; in exact arithmetic for the normal equations; refutation in every correctly rounded 53-bit arithmetic |
| C102 | `Spmd.rrdesi`: for every rank the sequence of its MPI calls and pieces of local work, `fire` / `Run`: any interleaving, collectives synchronise, sends buffered or rendezvous; contents of messages not modelled (C05, C06, C09) | steps of different ranks commute, so one complete run fixes the length of all (random descent); complete runs composed from phases; invariant `Together` for runs with failures; refutations for failures outside the `try` block, `--no-mpi-abort` and unequal nodes |
| C103 | `withRange`, `trapzRebinOpt`, `trapzRebinGpuOpt`, `edgeLoop`, `rebinTemplateWaves`, `rebinTemplateEdges`, `gpuEdges` (kernel as in C35) | equality of the two loops by induction over the dictionary; C35 and C36 per grid; refutation for mixed dictionaries |
| C104 | `Archetype.rebinBatch`, `Archetype.rebinBatchGpu` | range check characterised per grid; partial equality and two refutations for all inputs of the two kinds |
| C105 | `Viewer.plot`, `drawSpectrum` (`Template.eval` as in C46; window, labels, zoom not modelled) | inversion of `plot`; linearity of the resolution |
| C106 | `Viewer.onKey`, `session` | refinement of the moves on (target, candidate) by induction over the keys |
| C107 | `Viewer.drawScan` | inversion; the full name contains `:` |
| C108 | `DesiOpts.skyMask` | pixelwise; C38 |
| C109 | `DesiOpts.archArgs`, `archEnvOf`, `fitz` | case analysis; C52 |
| C110 | `zfindCatalogue` (`Model/Catalogue`: run of `Model/Run`, then the tables of `Model/Zfind`), `C110_finalTable` | fits are a function of the target's own data for every distribution (C92); stacking and padding by cases; counterexamples for the padding and for adding a target |
| C111 | `measureTarget` (`Model/Measure`: scan, fit, table of one target), `scaleSpec` | relational lemma `measure_rel` (tables related if every fit of every template is); scaling of the normal equations; counterexample with the [OII] penalty |
| C112 | `measureTarget`, `informative` (the pixels that count) | normal equations and chi2 are sums over the informative pixels; permutation; `measure_rel` |
| C113 | `measureTarget`, `rebase` | the fit is the unique minimiser (C62) and the two bases have the same set of models; `measure_rel`; counterexample for NMF |
| C114 | `measureTarget`, `targetTable` | stable sorts with equal parts of equal keys are equal (`sorted_eq_of_filters`); permuted blocks; counterexample with ties |
| C115 | as C114 | C20 per spectype; `sortZfit_filter`, relation of rows up to padding |
| C116 | as C114 | C20: the first row is a minimum over all candidates |
| C117 | `Model/FullRun.lean`: the run of `zfind` with the real computations (binning on all grids, slices of redshifts, prior, `fitz`, gather, table) instead of arbitrary functions | a slice of the scan equals the redshift-by-redshift scan for templates whose binning is local (`Scannable`, shown for redrock's own binning), so the run is an instance of C92; then the table splits into targets as in C110 |
| C118 | `Model/Zbest.lean`: tables as named columns; row selection, `remove_columns`, `rename_column` (KeyError on collision), `astype`, SUBTYPE width; `desiZbest`, `bossZbest` | invariant of the renaming loop, composition of the column conversions; znum = range per target + C117 for whole runs |
| C119 | `Model/RrDesi.lean`: `rrdesi` (desi.py:1020-1188) as the composition of `distTargetsDESI`, `finishTarget`, `skyMaskSpectrum` (desi.py:1007-1013, unless `--no-skymask`), `fullCatalogue`, `desiFlagRow`, `desiZbest`, serial or on `size` ranks with a ring schedule | C119_rows from C47 (rows reach targets), C01 (partition), C117 and C118; C119_ranks because the spectra of a target are determined by its file rows (`own_unique`) and the fits by the set of targets (`fullFits_iff`); C119_isolated by the same uniqueness applied to two runs. `sqrt` need only be right on the inverse variances in the files |
| C120 | `Model/Wave.lean`: `waveKey`, `wavePairs` + `wavegridsSerial`/`wavegridsMpi`, `fitzGrids`, `onGrids`, `waveCatalogue`, `rrdesiCatalogueW` (the run of C117/C119 with templates binned on wavelengths instead of on a hash) | if equal hashes mean equal wavelengths the run equals the run of C117 on the spectra labelled by their own wavelengths (`waveCatalogue_own`); refutations by concrete runs; which grids share a hash characterised |
| C121 | `rrboss` from spPlate files to the published table: `read_spectra`, `Spectrum`, `Target`, `-n/--mintarget`, `DistTargetsCopy` (serial and MPI), wavegrids, scan by position of IDs and data, refinement, metadata columns, `zbest` (`Model/RrBoss.lean`) | aligned ranks reduce to C120's `waveFits`, then C117/C118; C88 gives the spectra of a target; single-plate corollary; concrete run refutes the general serial claim |
| C122 | `Model/MpRun`: the multiprocessing branches of `calc_zchi2_targets` and `zfind` with the real scan and fit of `Model/FullRun` and `rrdesi --mp N` on DESI files; the number of workers and the order of their messages are arbitrary | the local targets of `DistTargetsDESI` are in order of decreasing number of rows, which with equal bands is the order of decreasing number of spectra (`local_moreFirst`), so that IDs and data of every worker agree; then the run is the serial one (`C122_rrdesi_partial`) and equal to MPI (`C122_mpi_partial`). Without equal bands refuted (`C122_refuted`) |
| C123 | `Model/ArchFiles`: `find_archetypes`, `All_archetypes`, `os.path.expandvars` and `str.replace` character by character, the look-up in `zfind`, the ARC* keywords, the check in `rrdesi`; glob, isfile, exists and the content of files are parameters | `expandvars` leaves a name after `/` alone (`expand_append`), replacing a text by itself is the identity (`pyReplace_self`), dictionary lemmas. Refuted for paths with variables (`C123_trailing_slash_refuted`, `C123_relative_refuted`); exact behaviour under conditions in `C123_variables_partial` |
| C124 | `Model/GpuRun.lean`: `zfind` in GPU mode (scan, fine scans and final fits with the kernels of `Model/Gpu.lean`, pieces of GPU and CPU-only ranks, gather, table), rebinning with precomputed edges and transmission on flat arrays | every call of `calc_zchi2_batch` equals the CPU's (C100) unless a fit fails; ranks and gather by the generalised C92 (`mpi_iff_of_scan`); rebinning by C103; refutation by a run with a failing solver; a CPU-only rank with targets raises (invariant: its scans are empty) C124_rrdesi_distribution combines this with the distribution of C03: up to 10000 targets per GPU rank give the CPU catalogue, more make the run fail. |
| C125 | `skyMaskSpectrum`, `fittedSpectra` (desi.py:647-651, 1007-1013) inside the run of C119, with `computeCoadd` before the mask | non-interference: spectra that agree outside the sky lines have, after the mask, the same informative pixels (`alike_informative`), so C112_same_pixels applies and C119_rows gives the published rows; for coadds `computeCoadd_alike` shows that the coadds agree outside the sky lines when the weights agree; `C125_refuted` is a pair of files run with the default options |
| C126 | `rrdesi --model` end to end (`Model/ModelFile.lean`): targets of all ranks with their spectra, template dictionary, `eval_models`, `wavegrids`, gathering and reordering, single precision; for any `argsort` of the IDs | `C126_rows`: whatever is written has exactly the used bands and the k-th model of a band is that of the k-th catalogue row, from the target's own spectrum; `C126_ranks`: same models on any number of ranks; `C126_written_partial`: written exactly when every selected target has every used band; `C126_refuted`: otherwise `KeyError` after the catalogue is written |
| C127 | `bin/rrconvertSDSStemplates` (Model/Convert.lean): keyword count, names, file names, loop with the files on disk at an exception; composed with `Template.load`, `find_templates`, `load_templates` | induction over the loop with the disk as a dictionary; `replace` as filter/map; count of keywords by permutation; end to end by composition with C79/C82; collision, gap and missing-RRIGM refutations |
| C128 | `fitz` with `ArchFitCfg.env` (`get_best_archetype`, `parse_fulltype`, priors, the `trans` dictionary of the vertex), `evalModelArch`; over ℝ `transmissionLyman` | trace of every candidate (C58) gives the redshift of the transmission; then C75/C76 at the reported redshift; C69 for the two IGM models; ℚ counterexamples |
| C129 | `TargetHist.State`: spectra, `bands`, `gpuweights/gpuflux/gpuwflux`, Legendre cache; `compute_coadd`, `gpu_spectral_data`, `legendre` in any order, a call that raises changes nothing | induction over the calls: spectra are those after the coadds (C41, C42), CPU polynomials belong to them whatever the threshold, GPU arrays to the moment of the first call; repeated coadds only mask (C41_single), settle after finitely many; ℚ counterexamples |
| C130 | `ArchTable.prep`, `padCoeff`, `merge`, `Tab.flag`, `Tab.sortTrim`, `Tab.finish`, `archTable` (zfind.py 467-617): column dictionaries as the code has them, sorted and trimmed column by column with index arrays | `Taken`: after every index step the columns are the old columns at the same rows; sorting and trimming columns is sorting and trimming rows (`order_rows`, `keep_rows`), so C19-C24 apply (`C130_published`); stacking: C85 and numbering of candidates (`C130_stacked`); composition `C130_rows_partial`; best first `C130_best`; mixed templates `C130_rows_refuted` |
| C131 | `Make.rrgaltemplate`, `rrstartemplate`, `rrstarwdtemplate`, `rrqsotemplate`, `npMedian`, `splitext` (the bin scripts): disk as a dictionary of files, ending normally, with exit code 1 or an exception; desisim, resample_flux, empca, the environment and whether astropy knows `clobber` are parameters; reading with `Template.load` | induction over the classes (`C131_star_files`), composition with the reader and C79 (`C131_star_run`, `C131_wd_run`, `C131_gal_load`, `C131_qso_load`); the median is a median (`npMedian_isMedian`) and scales; the exact number of grid points; refutations for border temperatures, last wavelength, partial output, clobber |
| C132 | `Rebalance.rebalance`, `slice`, `mergeResults`, `resultsOf` (zfind.py 158-192): gather, merge of the result dictionaries, `array_split` of the indices, slices, scatter | slices by index are the split itself (`dealt`), C04 for the sizes, dictionary lemmas for the merge (distinct ids) and the new dictionaries |

## Defects found (each is a proved refutation or exact-condition theorem)

Claims with status `partial` are false of the pinned code as stated; the theorems `..._refuted` show that, the `..._partial` ones give the part that holds.

* **Distribution** C03: more than 10000 targets per GPU rank sends targets to CPU ranks. C07/C92: with multiprocessing, scans of targets are exchanged between targets unless they are ordered by number of spectra. C08: a failing worker leaves the parent waiting. C11: `DistTargetsCopy` without MPI mixes up targets. C102: an exception outside the `try` block on some ranks only (e.g. archetype file name without `-`), `--no-mpi-abort`, or nodes that differ in `/proc/driver/nvidia/gpus` hang the run; `--gpu --max-gpuprocs 0` does nothing and succeeds.
* **Scan and fit** C13: on a two-point window the prior leaks. C52/C109: archetype fits without a prior raise `UnboundLocalError`, so `--archetypes-no-legendre` and `--archetype-legendre-prior 0` never work. C58: flagged candidates carry coefficients of another redshift. C60: one target without candidates aborts the run. C62/C113: NNLS on the normal equations, so the chi2 of NMF templates depends on the normalisation of the basis spectra. C111: the [OII] penalty depends on the flux units. C114: targets without data get the type of the template loaded first. C67/C75: `n_nearest` larger than the width of the table or the number of archetypes, or without `per_camera`, raises. C85/C86: columns of mixed archetype runs; `NEGATIVE_MODEL` for rows without archetypes. C93: `--chi2-scan` with MPI raises, applies priors twice, does not compare grids.
* **Rebinning, IGM, GPU** C35: kernel reads beyond the template if the last edge is the last sample. C55: hole and overwritten branch in the Inoue14 Lyman continuum. C61: lengths never checked. C63: `Template.eval` without IGM absorption. C100/C101: failed GPU fits put the failure value into the coefficients, PCA failures unmarked, transposed views, not reproducible in rounded arithmetic. C103/C104: range checks with the limits of another grid / of the rest frame.
* **Coaddition and input** C41, C42: cosmic-ray mask. C48, C72–C74, C87: mask counter, absent IDs, misaligned fibermap, unmasked resolution, metadata of the first target only. C70, C71: weights of R, stale `bands`. C88–C91: BOSS identifiers, resolution, range, options.
* **Wavelength grids** C120: the wavehash is the band name (DESI) or a hash of the length and four wavelengths; `wavegrids()` keeps the first grid of a hash, `fitz` the last one of the target, so files with different wavelengths for a band silently give wrong redshifts.
* **Output** C25: `clobber=False` does not protect. C27: more than 256 candidates. C30, C81, C82, C84: template names. C64: shared temporary name. C65: archetype details files cannot be read back. C76, C83: `eval_model`. C105, C107: `rrplot` draws (1+z) times the model and no scans of templates with subtypes.
* **wrap-redrock** C95–C99: file names, avoided directory, nothing left, logs, paths with blanks, printed script, debug queue.
* **rrboss** C121: `rrboss` in one process (no MPI) on several spPlate files: if a target has more spectra (after coadding: more wavelength grids) than one with a smaller ID, `DistTargetsCopy` lists the IDs by decreasing number of spectra but the data in the original order, so scans, and with them published redshifts, are exchanged between targets (`C121_refuted`).
* **Multiprocessing** C122: `rrdesi --mp N` on files with different bands (e.g. one file without a camera) exchanges redshifts between targets: the weights of `DistTargetsDESI` count rows and not spectra, the workers' ID lists are by number of spectra (`C122_refuted`).
* **Archetype files** C123: `find_archetypes('$DIR')` puts the variable back with `f.replace(expanded, original)`: if the value ends with `/` or occurs elsewhere in the path, the file names become wrong (`$DIRrrarchetype-…`) and the files are not found. `RRTYPE` of archetypes is not converted to upper case as that of templates is: archetypes of type `galaxy` are silently never used (`C123_case`). `rrdesi --archetypes FILE` raises `IndexError` if the file name has no dash (`C123_rrdesi`).
* **zfind.py, zscan.py** C124: in GPU mode a failed `nnls` sets the coefficients to 9999999 instead of chi2, so the catalogue differs from the CPU's (other candidates, chi2 of order 1e14); a rank without GPU that has targets makes `fitz` raise `AssertionError`.
* **Sky mask** C125: `rrdesi` masks the sky lines after the exposures have been coadded. A flagged (or zero-weight) pixel in a sky line is dropped from the coadded resolution matrix, and its neighbours outside the sky line are masked with it (row sum below 0.99). So with the default options a flag inside the masked sky lines changes which pixels outside them are fitted, and the redshift.
* **Models** C126: with files of different bands (a target without a spectrum in a band that another target has) `rrdesi --model` writes the catalogue and then ends with `KeyError` in `np.vstack([m[band] ...])`, without a model file. Without coaddition all exposures of a band share one model, that with the resolution of the last exposure.
* **rrconvertSDSStemplates** C127: two SDSS names that differ only in `-`, `/`, blanks or parentheses (`K1 III`, `K1-III`) get one output file; the first is silently overwritten. Names differing in case give two files of one type, of which redrock uses one (C82). A gap in the numbering, or another keyword beginning with `NAME`, raises `KeyError` after some files are written. No `RRIGM` is written: converted galaxies and quasars cannot be loaded (unless `--version` is 2.6 resp. 0.1, 1.0, 1.1).
* **Archetypes** C128: the IGM transmission is calculated at the vertex `zmin` (fitz.py:293) but applied to archetypes redshifted to `zbest`, so flagged candidates have the absorption of another redshift (or none after `ValueError`); the fit uses the IGM model of the template while `Archetype.eval` always uses Inoue14.
* **Targets** C129: `gpu_spectral_data` keeps the arrays of its first call; after a later `compute_coadd` it returns the arrays of the exposures, of another length. A second `compute_coadd` masks more pixels than the first (one masked pixel of five: all five after two), because masked columns are cleared from the resolution.
* **zfind** C130: galaxies and quasars with archetypes and a stellar template without, which has one candidate less than the galaxies: the published quasar has zeros for Legendre coefficients (its own are given to another row); one candidate more: `IndexError`.
* **Template scripts** C131: `rrgaltemplate` and `rrqsotemplate` write no `RRIGM`, so `Template` refuses their files unless `--version` is `2.6` (galaxies) or `0.1`, `1.0`, `1.1` (quasars).
* **Template scripts** C131: `rrqsotemplate:50` and `rrstarwdtemplate:93` use `clobber=True`; an astropy without that keyword raises `TypeError` after all the work and nothing is written.
* **Template scripts** C131: `rrgaltemplate:46` starts at 3500/2.85, which is no multiple of 0.1 below 11000: the grid ends at 10999.9702, not 11000. `rrstartemplate:69` puts stars of exactly 3700, 5200, 6000, 7500 or 10000 K in two classes, and a failing fit leaves the files of the classes before.
