{"id": "C01", "title": "Work distribution is a partition", "statement": "distribute_work(nproc, ids, weights, capacities) returns nproc lists in which every input ID occurs exactly as often as in ids, and nothing else occurs.", "quantifier": "every nproc>=1, every ID list, every weight table, every list of nproc positive capacities", "why_tests_cant": "tests try a handful of list sizes; losing or duplicating a target depends on weights, ties and capacities", "anchors": ["py/redrock/utils.py:distribute_work", "py/redrock/targets.py:distribute_targets"]}
{"id": "C02", "title": "Work distribution is balanced", "statement": "With equal capacities and non-negative weights the total weights of any two processes differ by at most the largest single weight.", "quantifier": "every nproc, ID list and non-negative weight table", "why_tests_cant": "a worst case over all weight tables; tests only look at a few", "anchors": ["py/redrock/utils.py:distribute_work"]}
{"id": "C03", "title": "GPU runs give no targets to CPU-only ranks", "statement": "In GPU mode the capacities 1 (GPU rank) and 1/10000 (CPU rank) are meant to give every target to a GPU rank, because CPU ranks hold no redshifts at all in that mode. With unit weights this holds exactly up to 10000 targets per GPU rank and fails for any larger number.", "quantifier": "every number of targets, every mix of GPU and CPU ranks", "why_tests_cant": "the failure needs more than 10000 targets per GPU, far beyond a unit test", "anchors": ["py/redrock/utils.py:distribute_work", "py/redrock/external/desi.py:rrdesi", "py/redrock/templates.py:DistTemplate"]}
{"id": "C04", "title": "Redshift slices cover the grid", "statement": "The redshift slices handed to the ranks of a communicator, concatenated in rank order, are exactly the template's redshift grid; slice lengths differ by at most one; no slice is empty iff there are at least as many redshifts as ranks.", "quantifier": "every grid, every number of ranks >= 1", "why_tests_cant": "needs all grid sizes and rank counts", "anchors": ["py/redrock/templates.py:DistTemplate.__init__"]}
{"id": "C05", "title": "Template slices cycle correctly around the ranks", "statement": "While the ranks call DistTemplate.cycle() until it returns True, every rank holds every slice exactly once, stops after exactly comm.size calls holding its own slice again, and the ranks never deadlock.", "quantifier": "every communicator size and every interleaving of the ranks' sends and receives", "why_tests_cant": "interleavings of an asynchronous ring cannot be enumerated by tests", "anchors": ["py/redrock/templates.py:DistTemplate.cycle"]}
{"id": "C06", "title": "MPI scan equals serial scan", "statement": "For every target, calc_zchi2_targets over any number of ranks returns the same zchi2, zcoeff and penalty arrays (same order, same length) as over a single process.", "quantifier": "every rank count, every grid, every target list, every interleaving", "why_tests_cant": "tests run one or two rank counts", "anchors": ["py/redrock/zscan.py:calc_zchi2_targets", "py/redrock/zscan.py:calc_zchi2", "py/redrock/templates.py:DistTemplate"]}
{"id": "C07", "title": "Multiprocessing scan equals serial scan", "statement": "For every target, calc_zchi2_targets with mp_procs>1 returns the same zchi2/zcoeff/penalty as with mp_procs=1, whatever the order in which workers finish.", "quantifier": "every target list (with any numbers of spectra), every mp_procs, every order of worker completion", "why_tests_cant": "only shows for targets with different numbers of spectra; depends on worker scheduling", "anchors": ["py/redrock/zscan.py:calc_zchi2_targets", "py/redrock/targets.py:distribute_targets", "py/redrock/utils.py:distribute_work"]}
{"id": "C08", "title": "A failing worker does not hang the scan", "statement": "If a multiprocessing worker raises, calc_zchi2_targets / zfind either return or raise; they never wait forever.", "quantifier": "every set of failing workers, every schedule", "why_tests_cant": "termination over all schedules and crash points", "anchors": ["py/redrock/zscan.py:_mp_calc_zchi2", "py/redrock/zscan.py:calc_zchi2_targets", "py/redrock/zfind.py:_mp_fitz", "py/redrock/zfind.py:zfind"]}
{"id": "C09", "title": "Batched gather delivers every result", "statement": "In zfind, the results rank 0 reassembles from the batches of each other rank are exactly that rank's results, and rank 0 does exactly as many receives as the sender does sends.", "quantifier": "every number of targets per rank, including 0, 4999, 5000, 5001 and multiples of the batch size; every number of ranks", "why_tests_cant": "batch boundary arithmetic needs >5000 targets per rank under MPI", "anchors": ["py/redrock/zfind.py:zfind"]}
{"id": "C10", "title": "Progress loop ends when all targets are scanned", "statement": "Workers report exactly one progress tick per target (also for all-masked targets), so the parent's progress loop ends after exactly as many reads as there are targets and no tick is left over.", "quantifier": "every target list, every distribution over workers, every schedule", "why_tests_cant": "schedules and masked/unmasked mixes cannot be enumerated", "anchors": ["py/redrock/zscan.py:calc_zchi2", "py/redrock/zscan.py:calc_zchi2_targets"]}
{"id": "C11", "title": "Copied targets live on exactly one rank", "statement": "DistTargetsCopy places every input target on exactly one rank, each rank's local() list matches its local_target_ids() position by position, and all_target_ids is the same on every rank.", "quantifier": "every target list with unique IDs, every communicator size", "why_tests_cant": "all sizes and weight mixes", "anchors": ["py/redrock/targets.py:DistTargetsCopy"]}
{"id": "C12", "title": "find_minima returns exactly the local minima, best first", "statement": "find_minima(x) returns each index that is not above either neighbour (edges included) exactly once and no other index, ordered by increasing x; for non-empty NaN-free x the first is a global minimum.", "quantifier": "every array x, every tie pattern, every argsort tie-breaking", "why_tests_cant": "all arrays; argsort tie order is unspecified", "anchors": ["py/redrock/fitz.py:find_minima"]}
{"id": "C13", "title": "Tophat prior confines candidates to the window", "statement": "After adding a tophat prior to finite chi2 values, find_minima never returns a redshift outside the prior window (grids of at least 3 points); with no grid point in the window it returns nothing.", "quantifier": "every grid of at least 3 redshifts, every window, every finite chi2 array", "why_tests_cant": "NaN/inf comparisons at window edges touching grid edges, for all window positions", "anchors": ["py/redrock/priors.py:Priors.tophat", "py/redrock/fitz.py:find_minima"]}
{"id": "C14", "title": "Priors only touch listed targets", "statement": "Targets absent from the prior file keep their chi2 unchanged; Gaussian and Lorentzian priors add a non-negative amount that is zero exactly at the prior mean, symmetric about it and increasing with the distance from it; the last row wins for repeated TARGETIDs.", "quantifier": "every prior table, target, redshift and sigma != 0", "why_tests_cant": "all real z, z0, s0", "anchors": ["py/redrock/priors.py:Priors.eval", "py/redrock/priors.py:Priors.gaussian", "py/redrock/priors.py:Priors.lorentzien", "py/redrock/zfind.py:zfind"]}
{"id": "C15", "title": "Fit candidates of one template are few, separated and sorted", "statement": "fitz returns at most nminima candidates; no two are closer than the velocity limit of the template type (100 km/s stars, 1000 km/s otherwise, measured from the one found first); they are sorted by chi2.", "quantifier": "every chi2 array, grid, nminima, refinement outcome", "why_tests_cant": "refined positions are data dependent; any collision pattern must be covered", "anchors": ["py/redrock/fitz.py:fitz", "py/redrock/fitz.py:get_dv"]}
{"id": "C16", "title": "Reported redshifts stay inside the scanned range", "statement": "Every z returned by fitz lies between the coarse-grid neighbours of a coarse minimum (hence within the template's redshift range), and Z_FITLIMIT is set whenever z is below the second or above the second-to-last grid redshift.", "quantifier": "every grid, chi2 array, parabola outcome including vertices far outside", "why_tests_cant": "all parabola outcomes including failed fits", "anchors": ["py/redrock/fitz.py:fitz", "py/redrock/fitz.py:minfit"]}
{"id": "C17", "title": "minfit recovers an exact parabola", "statement": "If three distinct x have y = y0 + ((x-x0)/xerr)^2 with x0 strictly between the extreme x, xerr>0 and y0>0, minfit returns exactly (x0, xerr, y0, 0).", "quantifier": "all reals x0,y0,xerr and all distinct triples", "why_tests_cant": "real-valued identity", "anchors": ["py/redrock/fitz.py:minfit"]}
{"id": "C18", "title": "minfit flags are sound", "statement": "If minfit returns zwarn=0 then x0 is strictly inside the sampled range, y0>0, the parabola opens upward and xerr>0; a discrete interior minimum strictly below at least one neighbour never fails the range test; fewer than three points always give BAD_MINFIT.", "quantifier": "all inputs", "why_tests_cant": "all real inputs, sign corner cases", "anchors": ["py/redrock/fitz.py:minfit", "py/redrock/fitz.py:fitz"]}
{"id": "C19", "title": "Candidate sort", "statement": "sort_zfit_dict reorders all columns by one common permutation, such that fits without bad-fit ZWARN bits precede those with, and within each group chi2 is non-decreasing; equal rows keep their order.", "quantifier": "every table, every zwarn bit pattern", "why_tests_cant": "all bit patterns and row counts", "anchors": ["py/redrock/zfind.py:sort_zfit_dict", "py/redrock/zfind.py:sort_dict_by_cols", "py/redrock/zwarning.py:badfit_mask"]}
{"id": "C20", "title": "Trimming keeps the best nminima per spectral type", "statement": "After zfind's trimming each spectype has min(nminima, available) rows, none of the dropped rows is better than a kept row of the same spectype, the overall best row is kept first, and znum is 0,1,2,...", "quantifier": "every candidate table, nminima >= 1", "why_tests_cant": "all mixes of types and ties", "anchors": ["py/redrock/zfind.py:zfind"]}
{"id": "C21", "title": "deltachi2 is the gap to the next distinct good fit", "statement": "deltachi2[i] is the smallest chi2[j]-chi2[i] over later good fits j farther than the velocity limit, 0 if there is none; the last entry is 0; on a sorted table it is never negative.", "quantifier": "every chi2, z, zwarn, dvlimit arrays", "why_tests_cant": "all arrays", "anchors": ["py/redrock/zfind.py:calc_deltachi2"]}
{"id": "C22", "title": "SMALL_DELTA_CHI2 flag", "statement": "calc_deltachi2 flags row i exactly if some other row is a good fit, at least the velocity limit away, with |chi2 difference|<9; in particular 0<deltachi2<9 (or deltachi2=0 through such a row) implies the flag; the flag does not depend on the order of the other rows.", "quantifier": "every table", "why_tests_cant": "all arrays", "anchors": ["py/redrock/zfind.py:calc_deltachi2", "py/redrock/zfind.py:zfind"]}
{"id": "C23", "title": "redrock never sets reserved ZWARN bits and never clears bits", "statement": "Every ZWARN produced by fitz, zfind and rrdesi uses only bits 0-11, so bits 16-23 stay 0; every step after fitz only adds bits.", "quantifier": "every input, every combination of flag conditions", "why_tests_cant": "all combinations of conditions", "anchors": ["py/redrock/zwarning.py:ZWarningMask", "py/redrock/fitz.py:fitz", "py/redrock/zfind.py:zfind", "py/redrock/external/desi.py:rrdesi"]}
{"id": "C24", "title": "Coverage flags", "statement": "NODATA is set by zfind exactly if npixels=0 and LITTLE_COVERAGE exactly if npixels < 10*ncoeff; a row with no pixels always carries both.", "quantifier": "all rows", "why_tests_cant": "all values", "anchors": ["py/redrock/zfind.py:zfind"]}
{"id": "C25", "title": "Output files are replaced atomically", "statement": "If writing a redshift catalogue (write_zbest, write_bestmodel) is interrupted at any point, the output path holds either exactly the previous content (or absence) or the complete new file; for the details file (write_zscan) with clobber it may also be absent, but never partial, and without clobber it is old or new.", "quantifier": "every crash point, every previous content, every split of the write into chunks", "why_tests_cant": "crash points", "anchors": ["py/redrock/results.py:write_zscan", "py/redrock/external/desi.py:write_zbest", "py/redrock/external/boss.py:write_zbest"]}
{"id": "C26", "title": "Details file round trip", "statement": "Reading back what write_zscan wrote returns, for every target with a best fit and every template type of the first target, the same redshifts and the float32-rounded zchi2, penalty and zcoeff of that same target.", "quantifier": "every zscan dictionary, every target order, every selection", "why_tests_cant": "all dictionaries and orders", "anchors": ["py/redrock/results.py:write_zscan", "py/redrock/results.py:read_zscan", "py/redrock/results.py:read_zscan_redrock"]}
{"id": "C27", "title": "One best fit per target in the details file", "statement": "write_zscan selects rows with znum==0 after converting znum to int8; the selection has exactly one row per target exactly if no target has more than 256 candidates.", "quantifier": "every number of candidates per target", "why_tests_cant": "needs >256 candidates", "anchors": ["py/redrock/results.py:write_zscan", "py/redrock/zfind.py:zfind"]}
{"id": "C28", "title": "Template full type round trip", "statement": "parse_fulltype(make_fulltype(spectype, subtype)) returns the stripped (spectype, subtype) when neither contains ':::' and spectype does not end in ':'; make_fulltype is injective on such pairs; a name with two separators raises.", "quantifier": "all strings", "why_tests_cant": "all strings", "anchors": ["py/redrock/templates.py:parse_fulltype", "py/redrock/templates.py:make_fulltype"]}
{"id": "C29", "title": "BOSS target IDs", "statement": "targetid2platemjdfiber inverts platemjdfiber2targetid for all plate>=0, 0<=mjd<100000, 0<=fiber<10000, so IDs of distinct (plate,mjd,fiber) are distinct.", "quantifier": "all integers in range", "why_tests_cant": "integer domain", "anchors": ["py/redrock/external/boss.py:platemjdfiber2targetid", "py/redrock/external/boss.py:targetid2platemjdfiber"]}
{"id": "C30", "title": "Template files recorded in the output header", "statement": "header2templatefiles applied to the header written by rrdesi returns the template file names in order, for up to 100 templates; further ones are ignored.", "quantifier": "every template list", "why_tests_cant": "all counts", "anchors": ["py/redrock/external/desi.py:_get_header", "py/redrock/templates.py:header2templatefiles"]}
{"id": "C31", "title": "Selective reads agree with the full read", "statement": "read_zscan with select_targetids returns for each selected target in the file the same data as the full read, and no other target.", "quantifier": "every file content and selection", "why_tests_cant": "all selections", "anchors": ["py/redrock/results.py:read_zscan"]}
{"id": "C32", "title": "Bin edges from centers", "statement": "centers2edges of n>=2 strictly increasing centers gives n+1 strictly increasing edges with each center strictly inside its bin and every interior edge half-way.", "quantifier": "all increasing arrays", "why_tests_cant": "all arrays", "anchors": ["py/redrock/rebin.py:centers2edges"]}
{"id": "C33", "title": "trapz_rebin integrates exactly", "statement": "For strictly increasing x and edges within [x[0],x[-1]], each output bin times its width is the integral of the piecewise linear interpolant of (x,y) over the bin, and no array access is out of bounds.", "quantifier": "all sizes, all sample/edge alignments including coincident ones", "why_tests_cant": "loop-carried index over all alignments", "anchors": ["py/redrock/rebin.py:_trapz_rebin_1d", "py/redrock/rebin.py:trapz_rebin"]}
{"id": "C34", "title": "Rebinning laws", "statement": "Rebinning preserves constants, is linear in the flux, keeps non-negative flux non-negative, stays between min and max of the input flux, and conserves the total integral; merging adjacent bins averages them by width.", "quantifier": "all inputs as in C33", "why_tests_cant": "all inputs", "anchors": ["py/redrock/rebin.py:trapz_rebin"]}
{"id": "C35", "title": "GPU rebinning equals CPU rebinning", "statement": "The CUDA kernel computes, for every redshift, bin and basis, the same value as the CPU code, provided the last edge is below the last redshifted sample; if they coincide the kernel reads beyond the array.", "quantifier": "all inputs", "why_tests_cant": "needs a GPU and coincident edges", "anchors": ["py/redrock/rebin.py:batch_trapz_rebin", "py/redrock/rebin.py:_trapz_rebin_batch_gpu", "py/redrock/rebin.py:_trapz_rebin_1d"]}
{"id": "C36", "title": "Rebinning outside the template range is rejected", "statement": "trapz_rebin raises ValueError exactly if some requested redshift leaves part of the output range uncovered; otherwise every redshift of the batch is in range.", "quantifier": "all grids with positive wavelengths and redshifts > -1", "why_tests_cant": "all batches", "anchors": ["py/redrock/rebin.py:trapz_rebin", "py/redrock/rebin.py:rebin_template"]}
{"id": "C37", "title": "chi2 is the least-squares minimum", "statement": "With ivar>=0, if the solver returns a solution of the normal equations, the chi2 returned by calc_zchi2_batch is the smallest weighted squared residual over all coefficient vectors, and is >= 0.", "quantifier": "all spectra, templates, coefficient vectors", "why_tests_cant": "real-valued optimality", "anchors": ["py/redrock/zscan.py:calc_zchi2_batch", "py/redrock/zscan.py:_zchi2_one"]}
{"id": "C38", "title": "Masked pixels do not matter", "statement": "Changing flux where ivar=0 changes neither chi2 nor the coefficients at any redshift (finite flux).", "quantifier": "all flux arrays", "why_tests_cant": "all arrays", "anchors": ["py/redrock/zscan.py:spectral_data", "py/redrock/zscan.py:calc_zchi2_batch"]}
{"id": "C39", "title": "Unfittable data give HUGE_CHI2", "statement": "If the weights sum to 0, or the solver fails at a redshift, chi2 there is exactly 9999999.0 and the coefficients are all 0; other redshifts are unaffected.", "quantifier": "all inputs and solver outcomes", "why_tests_cant": "all failure patterns", "anchors": ["py/redrock/zscan.py:calc_zchi2_batch", "py/redrock/zscan.py:calc_zchi2"]}
{"id": "C40", "title": "[OII] penalty", "statement": "The penalty is >=0, zero exactly when the [OII] flux is >=0, and equals minus the flux otherwise.", "quantifier": "all coefficients", "why_tests_cant": "all reals", "anchors": ["py/redrock/zscan.py:calc_negOII_penalty"]}
{"id": "C41", "title": "Coadd", "statement": "Coadding (no cosmic rejection) yields one spectrum per wavelength grid in order of first appearance; ivar is the sum of ivars; flux is the ivar-weighted mean (plain mean where all ivar are 0); the result does not depend on the order of exposures of a grid; a single exposure is unchanged. (Examined: inverse variances are also set to 0 where the coadded resolution sums to less than 0.99, and a column of the resolution is lost where all exposures are masked, so masks of single exposures grow.)", "quantifier": "all exposure lists", "why_tests_cant": "all orders and masks", "anchors": ["py/redrock/targets.py:Target.compute_coadd"]}
{"id": "C42", "title": "Cosmic-ray rejection in the coadd", "statement": "With cosmic rejection, identical exposures lose no pixel, and the coadded resolution stays a weighted mean of the input resolutions.", "quantifier": "all exposure lists, all thresholds", "why_tests_cant": "needs pixels rejected in particular patterns", "anchors": ["py/redrock/targets.py:Target.compute_coadd"]}
{"id": "C43", "title": "Shared-memory packing is transparent", "statement": "Any sequence of sharedmem_pack, sharedmem_unpack and Rcsr accesses leaves wave, flux, ivar, R and Rcsr of a spectrum unchanged.", "quantifier": "every sequence of operations", "why_tests_cant": "all histories", "anchors": ["py/redrock/targets.py:Spectrum.sharedmem_pack", "py/redrock/targets.py:Spectrum.sharedmem_unpack", "py/redrock/targets.py:Spectrum.Rcsr"]}
{"id": "C44", "title": "Legendre cache coherence", "statement": "Target.legendre(n) always returns the n polynomials for the n it is asked for.", "quantifier": "every history of calls with any n and device", "why_tests_cant": "all histories", "anchors": ["py/redrock/targets.py:Target.legendre"]}
{"id": "C45", "title": "IGM transmission", "statement": "transmission_Lyman for Calura12/Kamble20 lies in (0,1] and is 1 for rest wavelengths at or above Lyman alpha; when it returns None, the transmission would have been 1 everywhere.", "quantifier": "all redshifts > -1 and positive wavelengths", "why_tests_cant": "real-valued", "anchors": ["py/redrock/igm.py:transmission_Lyman", "py/redrock/igm.py:transmission_Lyman_CaluraKamble"]}
{"id": "C46", "title": "Template evaluation", "statement": "Template.eval is linear in the coefficients and ignores coefficients beyond nbasis, so the zero padding of the output table does not change the model.", "quantifier": "all coefficient arrays", "why_tests_cant": "all arrays", "anchors": ["py/redrock/templates.py:Template.eval", "py/redrock/zfind.py:zfind"]}
{"id": "C47", "title": "DESI rows reach the right target", "statement": "DistTargetsDESI gives every kept target exactly the flux and ivar rows whose TARGETID is that target, for each file and band, in file order.", "quantifier": "all fibermaps, selections, files, bands", "why_tests_cant": "all row permutations", "anchors": ["py/redrock/external/desi.py:DistTargetsDESI.__init__"]}
{"id": "C48", "title": "DESI pixel masks reach the right spectrum", "statement": "Each MASK row is applied to the spectrum of the same file, band and row.", "quantifier": "all combinations of files/bands with or without a MASK HDU", "why_tests_cant": "needs a mixture of files with and without MASK", "anchors": ["py/redrock/external/desi.py:DistTargetsDESI.__init__"]}
{"id": "C49", "title": "Bad fibers are reset", "statement": "After rrdesi, every row of a target with a bad, broken, unassigned or non-target fiber has NODATA, z=0, GALAXY, zero coefficients, and its model spectrum is 0; other rows keep z and type.", "quantifier": "all fibermaps and tables", "why_tests_cant": "all status bit patterns", "anchors": ["py/redrock/external/desi.py:rrdesi", "py/redrock/targets.py:Target.eval_model"]}
{"id": "C50", "title": "Model rows align with the redshift catalogue", "statement": "The model written for row i of the catalogue is the model of that row's TARGETID, for any distribution of targets over ranks.", "quantifier": "every distribution of unique targets over ranks", "why_tests_cant": "all permutations", "anchors": ["py/redrock/external/desi.py:rrdesi", "py/redrock/targets.py:DistTargets.eval_models"]}
{"id": "C51", "title": "Archetype coefficients", "statement": "split_archetype_coeff splits a coefficient vector without loss into archetype coefficients and nbands blocks of nleg; the per-camera fit of spectra with different band names returns, for every archetype, coefficients that this function cuts so that block i belongs to spectrum i: the reported chi2 is that of the model with these blocks. The CPU and GPU layouts of the linear system agree.", "quantifier": "all sizes, spectra, templates, priors and (different) band names", "why_tests_cant": "all sizes", "anchors": ["py/redrock/archetypes.py:split_archetype_coeff", "py/redrock/zscan.py:per_camera_coeff_with_least_square_batch"]}
{"id": "C52", "title": "Archetype fits without a prior work", "statement": "fitz with an archetype and prior_sigma=None returns candidates.", "quantifier": "all inputs", "why_tests_cant": "no test runs this option", "anchors": ["py/redrock/fitz.py:fitz"]}
{"id": "C53", "title": "Process count", "statement": "get_mp returns between 1 and the number of CPUs for any request >= 0, and at most 4 on a login node.", "quantifier": "all requests, all CPU counts >= 1", "why_tests_cant": "all values", "anchors": ["py/redrock/utils.py:get_mp"]}
{"id": "C54", "title": "Target order", "statement": "The catalogue's target list is the list of kept TARGETIDs in order of first appearance over all files, without repeats.", "quantifier": "all file contents", "why_tests_cant": "all sequences", "anchors": ["py/redrock/external/desi.py:DistTargetsDESI.__init__"]}
{"id": "C55", "title": "Lyman-continuum optical depth", "statement": "The optical depth of the Lyman-continuum forest tends to 0 at the Lyman limit for every redshift, as in its first formula (z<1.2).", "quantifier": "all redshifts", "why_tests_cant": "all reals", "anchors": ["py/redrock/igm.py:Inoue14.tLCLAF"]}
{"id": "C56", "title": "Global wavelength grids", "statement": "wavegrids() returns on every rank the same dictionary, containing each wavehash of every target on every rank.", "quantifier": "every distribution of targets", "why_tests_cant": "all distributions", "anchors": ["py/redrock/targets.py:DistTargets.wavegrids"]}
{"id": "C57", "title": "Reduced wavelength", "statement": "reduced_wavelength maps the input wavelengths into [-1,1], the smallest to -1 and the largest to 1, preserving order.", "quantifier": "all wavelength arrays with at least two distinct values", "why_tests_cant": "all reals", "anchors": ["py/redrock/utils.py:reduced_wavelength"]}
{"id": "C58", "title": "Coefficients belong to the reported redshift", "statement": "Every candidate of a standard fit that is not flagged BAD_MINFIT carries the coefficients fitted at its own redshift (for flagged ones the code may report the coefficients of the parabola vertex with the redshift of a grid point).", "quantifier": "all scans, grids, templates", "why_tests_cant": "the mismatch needs a vertex outside the fine grid", "anchors": ["py/redrock/fitz.py:fitz"]}
{"id": "C59", "title": "fitz returns a candidate", "statement": "If the numerical parts do not raise, fitz returns at least one candidate for every NaN-free scan of at least two redshifts and nminima>=1.", "quantifier": "all scans and grids", "why_tests_cant": "all inputs", "anchors": ["py/redrock/fitz.py:fitz"]}
{"id": "C60", "title": "One target cannot abort the run", "statement": "If a target has no redshift candidate (for all templates, or only for the widest one), zfind still returns a table with the rows of all targets that have candidates.", "quantifier": "every mix of targets, templates and candidate counts", "why_tests_cant": "needs priors or NaN data that empty one template's candidate list for one target among many", "anchors": ["py/redrock/zfind.py:zfind", "py/redrock/fitz.py:fitz", "py/redrock/priors.py:Priors.tophat"]}
{"id": "C61", "title": "Flux/wavelength length mismatch in trapz_rebin", "statement": "The documentation promises ValueError for len(x) != len(y); the code never compares the lengths. Whenever the wavelengths are in range, flux arrays longer than x are accepted and the surplus samples have no effect; shorter ones can be read out of bounds.", "quantifier": "all inputs with longer flux arrays", "why_tests_cant": "the absence of a check for every input", "anchors": ["py/redrock/rebin.pytrapz_rebin"]}
{"id": "C62", "title": "NMF chi2 is the constrained optimum", "statement": "For NMF templates the chi2 reported at each redshift is the smallest weighted squared residual among all non-negative coefficient vectors. (False of the code: non-negative least squares is run on the normal equations, i.e. it minimises |Mc-y|^2 rather than the chi2; equal when the unconstrained optimum is non-negative.)", "quantifier": "all data and templates", "why_tests_cant": "optimality over all coefficient vectors", "anchors": ["py/redrock/zscan.py:solve_matrices", "py/redrock/zscan.py:calc_zchi2_batch"]}
{"id": "C63", "title": "The reported model is the fitted model", "statement": "The model spectrum computed for the output (Template.eval and eval_models) from a best-fit coefficient vector equals the template combination that was fitted to the data at that redshift. (Examined: it fails at redshifts with Lyman absorption because the fit multiplies the binned templates by an IGM transmission that eval does not apply; it holds when the transmission is None or one.)", "quantifier": "every template, coefficient vector, redshift and transmission array", "why_tests_cant": "all redshifts and transmissions", "anchors": ["py/redrock/templates.py:Template.eval", "py/redrock/fitz.py:fitz", "py/redrock/igm.py:transmission_Lyman"]}
{"id": "C64", "title": "Concurrent writers never publish a partial file", "statement": "When several processes write the same output path at the same time, the path holds at every moment either the previous content or one complete file. (Examined: false, because the temporary name is the output name plus '.tmp', shared by all writers; true when the temporary names differ.)", "quantifier": "every number of writers, interleaving of their steps and previous content", "why_tests_cant": "interleavings", "anchors": ["py/redrock/results.py:write_zscan", "py/redrock/external/desi.py:write_zbest", "py/redrock/external/boss.py:write_zbest"]}
{"id": "C65", "title": "Every details file can be read back with its candidates", "statement": "read_zscan succeeds on every file written by write_zscan and attaches to each (target, type) the candidates of that target and type. (Examined: false when the type of a candidate is not a scanned template type, as after an archetype run or a spectype cut to 6 characters: KeyError; true otherwise.)", "quantifier": "every scan dictionary and candidate table", "why_tests_cant": "all tables", "anchors": ["py/redrock/results.py:write_zscan", "py/redrock/results.py:read_zscan"]}
{"id": "C66", "title": "No minimum of the scan is dropped without a reason", "statement": "Every candidate of fitz is the refinement of its own local minimum of the scan, and a local minimum gives no candidate only when nminima candidates were already found or when the minimum, or its refined redshift, is within the velocity limit of a reported candidate.", "quantifier": "every chi2 array, grid, refinement outcome, nminima", "why_tests_cant": "all collision patterns", "anchors": ["py/redrock/fitz.py:fitz", "py/redrock/fitz.py:find_minima"]}
{"id": "C67", "title": "The COEFF column holds the fitted coefficients", "statement": "In the table returned by zfind every row carries the coefficient vector of its candidate followed by zeros, all rows have the same width, and NCOEFF is the number of fitted coefficients; a table wider than the largest template makes zfind raise.", "quantifier": "every set of templates, candidates and targets", "why_tests_cant": "all width combinations", "anchors": ["py/redrock/zfind.py:zfind"]}
{"id": "C68", "title": "Constrained fits respect their constraints", "statement": "calc_zchi2_batch with the NMF/NNLS algorithm reports no negative coefficient; with BVLS and bounds every reported coefficient vector is within the bounds, except the zeros of a failed fit (chi2 9999999); an unknown algorithm fails at every redshift.", "quantifier": "all data, templates, priors, bounds", "why_tests_cant": "all solver outcomes", "anchors": ["py/redrock/zscan.py:solve_matrices", "py/redrock/zscan.py:calc_zchi2_batch"]}
{"id": "C69", "title": "A redshift does not depend on its batch", "statement": "The transmission, the binned template, chi2 and the coefficients of one redshift (and one wavelength) do not depend on which other redshifts, wavelengths or grids are processed in the same call: coarse and fine scans, slices on different ranks and single-redshift calls agree wherever they share a redshift.", "quantifier": "all redshift arrays > -1, increasing wavelength grids, templates, IGM models, spectra", "why_tests_cant": "the shortcuts for whole batches (minimum wavelength, None results, skipped lines) can only be wrong for particular mixtures of redshifts", "anchors": ["py/redrock/igm.py:transmission_Lyman", "py/redrock/rebin.py:rebin_template", "py/redrock/templates.py:DistTemplate", "py/redrock/fitz.py:fitz", "py/redrock/zscan.py:calc_zchi2_batch"]}
{"id": "C70", "title": "Coadded resolution", "statement": "If every exposure is its resolution matrix applied to one true spectrum (no noise), then the coadded flux is the coadded resolution matrix applied to that spectrum in every pixel with non-zero weight. (Examined: false, the diagonals are weighted by the inverse variance of the column; true for proportional inverse variances.)", "quantifier": "all exposure lists, resolutions, inverse variances, spectra", "why_tests_cant": "all matrices and weights", "anchors": ["py/redrock/targets.py:Target.compute_coadd"]}
{"id": "C71", "title": "Bands of a coadded target", "statement": "Target.bands lists the bands of the target's current spectra, also after a coadd, so that per-camera fits use one block per spectrum. (Examined: false after coadding several exposures of a band.)", "quantifier": "all exposure lists", "why_tests_cant": "needs several exposures per band and a later per-camera fit", "anchors": ["py/redrock/targets.py:Target.__init__", "py/redrock/targets.py:Target.compute_coadd", "py/redrock/archetypes.py:Archetype.get_best_archetype"]}
{"id": "C72", "title": "DESI selection by range", "statement": "DistTargetsDESI(first_target=k, n_target=n) keeps exactly the targets k .. k+n-1 of the (file or requested) list and raises if the range leaves the list; with n_target omitted it keeps the rest of the list; a requested TARGETID that is in no file raises instead of becoming a target without data.", "quantifier": "all ID lists, ranges, files", "why_tests_cant": "every range and list length", "anchors": ["py/redrock/external/desi.py:DistTargetsDESI.__init__"]}
{"id": "C73", "title": "FIBERMAP rows align with the target list", "statement": "The FIBERMAP rows kept by DistTargetsDESI (and written next to REDSHIFTS) are in the order of all_target_ids, one row per target.", "quantifier": "all files, selections and requested ID lists", "why_tests_cant": "all permutations and repeats of IDs over files", "anchors": ["py/redrock/external/desi.py:DistTargetsDESI.__init__", "py/redrock/external/desi.py:write_zbest"]}
{"id": "C74", "title": "Pixels with incomplete resolution carry no weight", "statement": "In every spectrum of a target handed to zfind, a pixel whose row of the resolution matrix sums to less than 0.99 has ivar 0.", "quantifier": "all spectra, resolution matrices, coadd or not", "why_tests_cant": "all matrices", "anchors": ["py/redrock/targets.py:Spectrum.__init__", "py/redrock/targets.py:Target.compute_coadd", "py/redrock/external/desi.py:DistTargetsDESI.__init__"]}
{"id": "C75", "title": "Best archetype", "statement": "get_best_archetype fits every archetype on its own (redshifted, absorbed, with a non-negative coefficient, plus Legendre polynomials common to all spectra or per camera) and returns chi2, coefficients and full type of the first archetype of smallest chi2; with n nearest neighbours it fits together the n archetypes of smallest chi2 and lists their labels in the order of the coefficients. Per camera, chi2 plus the prior is minimal over all coefficients when the bound is inactive.", "quantifier": "all archetype files, targets, redshifts, solvers that return a vector or one of the two caught exceptions, numbers of neighbours, priors", "why_tests_cant": "archetype files have hundreds of entries; ties, all-masked data and failing solvers are not covered by the tests, which compare one fit", "anchors": ["py/redrock/archetypes.py:Archetype.get_best_archetype", "py/redrock/archetypes.py:Archetype.nearest_neighbour_model", "py/redrock/zscan.py:per_camera_coeff_with_least_square_batch", "py/redrock/zscan.py:calc_zchi2_batch"]}
{"id": "C76", "title": "Archetype model reproduces the reported chi2", "statement": "For a row made from an archetype fit, sum(ivar*(flux - eval_model)**2) over all spectra is the chi2 the fit reported, if the archetype names contain no ';' or ':', the transmission at Z is the one used in the fit, and not all archetype coefficients are zero. It fails if the archetype coefficient is at its lower bound 0 (eval_model then ignores the Legendre terms) or if a name contains ';'.", "quantifier": "all targets, archetype files, redshifts, coefficients", "why_tests_cant": "needs all coefficient values including the boundary", "anchors": ["py/redrock/targets.py:Target.eval_model", "py/redrock/archetypes.py:Archetype.eval", "py/redrock/archetypes.py:split_archetype_coeff", "py/redrock/fitz.py:fitz"]}
{"id": "C77", "title": "Prior on archetype coefficients", "statement": "prior_on_coeffs(n, deg, sigma, ncam) penalises the polynomial coefficients only: its quadratic form is sum(c_k**2)/sigma**2 over the coefficients after the first n; it is a symmetric positive semidefinite matrix of the size of the normal matrix; removing the first n-1 rows and columns gives the prior for one archetype.", "quantifier": "all n, degrees, sigma, numbers of cameras, coefficient vectors", "why_tests_cant": "all sizes", "anchors": ["py/redrock/fitz.py:prior_on_coeffs", "py/redrock/archetypes.py:Archetype.get_best_archetype"]}
{"id": "C78", "title": "Archetype labels", "statement": "The labels built from an archetype file (name_i) are all different, whatever the names are, so that the subtype of a result identifies its archetype; a separator character in a label comes from a name in the file.", "quantifier": "all archetype files", "why_tests_cant": "all lists of names", "anchors": ["py/redrock/archetypes.py:Archetype.__init__"]}
{"id": "C79", "title": "Redshift grid of a template", "statement": "The redshifts of a template are never empty. They are the REDSHIFTS of the file if it has them; otherwise they come from the zscan option zmin,zmax,dz of its type or the built-in range: they start at zmin, grow by dz (in z for stars, in log10(1+z) for galaxies and quasars), stay below zmax and leave no gap of a whole step between zmin and zmax. Empty ranges and other types are refused.", "quantifier": "all template files, options and number texts", "why_tests_cant": "the grid length is a ceiling of a quotient of logarithms; a test sees one range", "anchors": ["py/redrock/templates.py:Template.__init__"]}
{"id": "C80", "title": "Attributes of a template", "statement": "Type and subtype of a loaded template are the header's, without surrounding blanks and in upper case; the method is PCA (default) or NMF; wavelengths follow CRVAL1, CDELT1, LOGLAM and increase; the IGM model is RRIGM or the one known for that old version, else the file is refused; GALAXY/PCA templates carry exactly the basis vectors' values from 3724 to 3733 Angstrom.", "quantifier": "all template files", "why_tests_cant": "headers come in many generations; tests load the few shipped files", "anchors": ["py/redrock/templates.py:Template.__init__", "py/redrock/templates.py:Template.full_type"]}
{"id": "C81", "title": "Which template files are used", "statement": "find_templates returns, for a directory with templates-default.txt or a list file, exactly the files its lines name (blank and comment lines skipped, trailing comments allowed, relative to the directory unless absolute), in order, and refuses a missing one; else the rrtemplate-*.fits of the directory, sorted; a FITS file is used alone; nothing given means $RR_TEMPLATE_DIR or the installed directory.", "quantifier": "all directory trees, list files and arguments", "why_tests_cant": "the space of list files and paths is unbounded", "anchors": ["py/redrock/templates.py:find_templates", "py/redrock/templates.py:get_template_dir", "py/redrock/templates.py:load_templates"]}
{"id": "C82", "title": "One template per type", "statement": "load_templates loads one template per file in order; the templates that are fitted are, for every (type, subtype) that occurs, the last file with it, in the order in which the pairs first occur. All files are fitted exactly if no two have the same type and subtype.", "quantifier": "all lists of template files", "why_tests_cant": "needs arbitrary combinations of files", "anchors": ["py/redrock/templates.py:load_templates", "py/redrock/templates.py:load_dist_templates"]}
{"id": "C83", "title": "eval_model evaluates every row", "statement": "eval_model(data, wave, R) gives one model per row of the table: the template of its SPECTYPE and SUBTYPE with its coefficients at its redshift, on the given wavelengths, convolved with that row's resolution if R is given; for dictionaries of wavelengths camera by camera.", "quantifier": "all tables, wavelengths, resolutions and template sets", "why_tests_cant": "ranges over all tables and dictionaries", "anchors": ["py/redrock/templates.py:eval_model", "py/redrock/templates.py:Template.eval"]}
{"id": "C84", "title": "Catalogue rows find their template", "statement": "The SPECTYPE and SUBTYPE that the redshift catalogue gives to a candidate of a fitted template are the key of that template in the dictionary of templates, so models can be evaluated from the catalogue.", "quantifier": "all template sets", "why_tests_cant": "depends on names of arbitrary length and content; shipped templates have short names", "anchors": ["py/redrock/zfind.py:zfind", "py/redrock/templates.py:parse_fulltype", "py/redrock/templates.py:make_fulltype", "py/redrock/templates.py:eval_model"]}
{"id": "C85", "title": "Archetype columns stay with their candidate", "statement": "In archetype mode the fits of all templates are stacked into one table: every candidate's row holds its own value in every column (coefficients, Legendre coefficients, PCA coefficients; zeros for Legendre coefficients of templates fitted without archetypes), also when only some spectral types have archetypes. (Examined: it holds for every column every template has and for the pca_ columns; for the Legendre coefficients it holds iff templates without archetypes have as many candidates as the first template: with more, sorting raises IndexError; with fewer, later rows silently get zeros or other candidates' values. If the first template has no archetypes the column is lost; with per_camera and one camera the column is flattened to single numbers.)", "quantifier": "every set of template fits, every number of candidates per template, every number of cameras", "why_tests_cant": "needs a mixture of types with and without archetypes and unequal numbers of minima, which depend on the data", "anchors": ["py/redrock/zfind.py:zfind", "py/redrock/utils.py:extra_columns_in_archetype_mode", "py/redrock/fitz.py:fitz"]}
{"id": "C86", "title": "NEGATIVE_MODEL flag", "statement": "NEGATIVE_MODEL is set exactly on rows fitted with archetypes whose archetype coefficient is negative (with n_nearest: any of them). (Examined: it holds when the archetype types are a proper subset of the template types; when only the counts agree, rows of types without archetypes are flagged by their first PCA coefficient, and a coefficient of exactly zero is flagged iff all types have archetypes.)", "quantifier": "all sets of archetype and template types, all coefficients", "why_tests_cant": "depends on combinations of installed archetype and template files", "anchors": ["py/redrock/zfind.py:zfind", "py/redrock/zwarning.py:ZWarningMask"]}
{"id": "C87", "title": "Metadata columns", "statement": "Every metadata key of the targets becomes a column of the redshift table in which each row holds the value of its own target, converted to the declared datatype; keys with _datatype become no column. (Examined: the keys are those of the first row's target; a target lacking one aborts the run with KeyError and keys of other targets are dropped.)", "quantifier": "all metadata dictionaries, all tables", "why_tests_cant": "needs heterogeneous metadata, which the readers' tests never produce", "anchors": ["py/redrock/zfind.py:zfind", "py/redrock/targets.py:Target.__init__", "py/redrock/external/boss.py:read_spectra"]}
{"id": "C88", "title": "BOSS spectra reach their target", "statement": "rrboss read_spectra returns, sorted by ID, exactly the requested targets (all if none requested); the ID of a fibre is made of plate, MJD and fibre number, or is its plate's THING_ID if several plates are read; every target gets the spectra of all its fibres of all files in order, each cut to the wavelength range with its own flux, ivar and resolution; a requested target that is absent or repeated aborts the run; BRICKNAME is plate-mjd. (Examined: BRICKNAME is cut to eight characters, so plates observed on different nights share it.)", "quantifier": "all spPlate/spCFrame files, selections of fibres and targets", "why_tests_cant": "ranges over all file contents and ID lists", "anchors": ["py/redrock/external/boss.py:read_spectra", "py/redrock/external/boss.py:platemjdfiber2targetid"]}
{"id": "C89", "title": "BOSS resolution matrix", "statement": "The resolution matrix built from the dispersion of a fibre has as column c the gaussian with the dispersion of pixel c centred on c, cut no closer than two dispersions and at the ends of the spectrum, normalised to one: applying it conserves the total flux of any model (but does not leave a flat model flat).", "quantifier": "all dispersions and models", "why_tests_cant": "all matrices of all sizes", "anchors": ["py/redrock/external/boss.py:read_spectra"]}
{"id": "C90", "title": "BOSS wavelength range", "statement": "The BOSS spectra keep exactly the pixels within 3500-10000 Angstrom (3500-6000 or 5500-10000 for single exposures). (Examined: the pixel nearest to each limit decides, so one pixel outside may be kept at the blue end and the last pixel inside is dropped at the red end.)", "quantifier": "all wavelength grids common to the fibres of a file", "why_tests_cant": "all grids", "anchors": ["py/redrock/external/boss.py:read_spectra"]}
{"id": "C91", "title": "rrboss target selection and archetypes", "statement": "rrboss -n N --mintarget M processes targets M .. M+N-1 of the list, --mintarget alone the rest of it, and --archetypes uses the archetypes of the given directory. (Examined: --mintarget without -n is ignored; --archetypes raises AttributeError because the path is passed on unread.)", "quantifier": "all target lists and options", "why_tests_cant": "all option combinations", "anchors": ["py/redrock/external/boss.py:rrboss", "py/redrock/zfind.py:zfind"]}
{"id": "C92", "title": "The catalogue does not depend on how the run is distributed", "statement": "A run of the redshift finder over given targets and templates returns the same table of fits and metadata whether it is executed in one process, over any number of MPI ranks (with any distribution of targets, also empty ranks, and any interleaving of messages) or with any number of worker processes: one row set per target, in the order of the target list, one fit per template in template order, each computed from that target's own data with that target's scan over all redshifts of the template plus its own prior. If some fit raises, no execution mode returns a catalogue.", "quantifier": "all target lists, templates, chi2/fit/prior functions, rank counts, distributions, message interleavings, worker counts and arrival orders", "why_tests_cant": "the mode, number of ranks and schedule are unbounded; tests run one schedule on a handful of targets", "anchors": ["py/redrock/zfind.py:zfind", "py/redrock/zscan.py:calc_zchi2_targets", "py/redrock/templates.py:DistTemplate.cycle"]}
{"id": "C93", "title": "Reusing a chi2 scan reproduces the catalogue", "statement": "Running again with --chi2-scan pointing to the details file of an identical earlier run gives the same catalogue as that run, in any execution mode; a file that does not fit the run (other templates or other redshift grids) is rejected.", "quantifier": "all runs, scan files, priors and numbers of ranks", "why_tests_cant": "depends on every combination of file contents, priors and rank counts", "anchors": ["py/redrock/zfind.py:zfind", "py/redrock/results.py:read_zscan_redrock", "py/redrock/results.py:write_zscan"]}
{"id": "C94", "title": "wrap-redrock balances its groups", "statement": "weighted_partition puts every file in exactly one group and returns the total weight of each group; within a group weights decrease; two groups differ by at most the largest weight; and the longest group takes at most 4/3 - 1/(3n) times as long as in the best possible grouping into n groups.", "quantifier": "all lists of weights, numbers of groups and tie-breaking orders of argsort", "why_tests_cant": "optimality compares with every other grouping of every input", "anchors": ["bin/wrap-redrock:weighted_partition"]}
{"id": "C95", "title": "Output files of wrap-redrock", "statement": "Each spectra file dir/PREFIXname.fits has the output files dir/redrockname.fits and dir/rrdetailsname.h5 (in outdir if given), different spectra files have different output files, no output file is a spectra file, and no output is taken for a spectra file by a later run.", "quantifier": "all paths, prefixes and output directories", "why_tests_cant": "string processing: holds or fails depending on repeated substrings and equal names in different directories", "anchors": ["bin/wrap-redrock:spectra2outfiles"]}
{"id": "C96", "title": "wrap-redrock finds exactly the unprocessed files", "statement": "find_specfiles returns exactly the files PREFIX*.fits below reduxdir that lack at least one output file, without those below the directory to avoid, and raises only if there are no spectra files at all.", "quantifier": "all directory trees, prefixes, sets of existing files, relative and absolute paths", "why_tests_cant": "quantifies over directory trees of any depth and over the file system state", "anchors": ["bin/wrap-redrock:find_specfiles", "bin/wrap-redrock:plan"]}
{"id": "C97", "title": "wrap-redrock processes every file once, and resumes", "statement": "Whatever the number of processes, each spectra file that lacks an output is processed by exactly one process with at most one retry, whether or not other files fail; over any sequence of runs a file that succeeded is never processed again and one that lacks an output is processed by the next run; a run with nothing left to do ends normally.", "quantifier": "all numbers of processes, file lists, patterns of failures and sequences of runs", "why_tests_cant": "quantifies over schedules, failures and histories of runs", "anchors": ["bin/wrap-redrock:run_redrock", "bin/wrap-redrock:group_specfiles", "bin/wrap-redrock:plan"]}
{"id": "C98", "title": "wrap-redrock loses no log", "statement": "Before each try an existing log is renamed to LOG.n, so that after any number of tries and runs all logs are there, in order, and no other file changes; this never keeps a file from being processed.", "quantifier": "all histories of tries and runs, including removal of old logs by the user", "why_tests_cant": "quantifies over histories of tries and deletions", "anchors": ["bin/wrap-redrock:backup_logs", "bin/wrap-redrock:run_redrock"]}
{"id": "C99", "title": "Commands and batch script of wrap-redrock", "statement": "Every rrdesi/rrboss call gets exactly the intended arguments; the script printed by --plan runs with the options of the plan, asks for a time limit that adds up to the job time, and fits the queue it asks for; nodes are expected to take about 25 minutes.", "quantifier": "all paths, options, numbers of targets and of cores", "why_tests_cant": "depends on every path and combination of options", "anchors": ["bin/wrap-redrock:run_redrock", "bin/wrap-redrock:plan"]}
{"id": "C100", "title": "The GPU fit gives the CPU's chi2 and coefficients", "statement": "calc_zchi2_batch with use_gpu=True returns for every redshift the chi2 and coefficients that it returns with use_gpu=False, whatever the thread order, the number of pixels, redshifts and basis vectors, and whatever memory held before; redshifts whose fit fails are marked the same way, and calc_batch_dot_product_3d3d_gpu(a, b) is a @ b.", "quantifier": "all spectra with sparse resolution matrices, template arrays, weights, solvers, priors, thread schedules and initial memory contents", "why_tests_cant": "There is no GPU in the test environment, and thread orders, sizes relative to the block size and failures of the solver cannot be enumerated.", "anchors": ["py/redrock/zscan.py:calc_zchi2_batch", "py/redrock/zscan.py:_batch_dot_product_sparse_gpu", "py/redrock/zscan.py:calc_batch_dot_product_3d3d_gpu", "py/redrock/zscan.py:_calc_batch_dot_product_3d2d_gpu", "py/redrock/zscan.py:solve_matrices", "py/redrock/archetypes.py:get_best_archetype"]}
{"id": "C101", "title": "GPU results are reproducible", "statement": "With fullprecision=True two GPU runs on the same data give identical results, whatever the order in which the GPU runs its threads.", "quantifier": "all inputs and pairs of thread schedules, in exact and in rounded arithmetic", "why_tests_cant": "Thread schedules of the hardware cannot be controlled or enumerated by a test.", "anchors": ["py/redrock/zscan.py:calc_batch_dot_product_3d3d_gpu", "py/redrock/zscan.py:cuda_source", "py/redrock/zscan.py:_batch_dot_product_sparse_gpu", "py/redrock/zscan.py:_calc_batch_dot_product_3d2d_gpu"]}
{"id": "C102", "title": "An MPI run of rrdesi never hangs", "statement": "When rrdesi is run with MPI on any number of ranks, every run ends: either every rank finishes, or, if any work of any rank raises an exception, comm.Abort() ends all ranks. At no point do all remaining ranks wait for messages or collective calls that never come, whatever the order in which the ranks run and whether sends are buffered or wait for the receiver.", "quantifier": "all numbers of ranks, files, bands, rows per band, templates and results per rank, all options that change the calls, all interleavings of the ranks, all sets of ranks and places at which an exception is raised", "why_tests_cant": "deadlocks depend on the interleaving, on buffering and on where an exception is raised; tests run one schedule on a few ranks", "anchors": ["py/redrock/external/desi.py:rrdesi", "py/redrock/external/desi.py:DistTargetsDESI.__init__", "py/redrock/templates.py:load_dist_templates", "py/redrock/templates.py:DistTemplate.cycle", "py/redrock/zscan.py:calc_zchi2_targets", "py/redrock/zfind.py:zfind", "py/redrock/utils.py:getGPUCountMPI"]}
{"id": "C103", "title": "Precomputed bin edges and GPU rebinning of templates", "statement": "rebin_template called with precomputed bin edges (dedges: arrays, or tuples of an array with its first and last value) returns what it returns for the wavelengths (dwave) from which the edges were computed, and with use_gpu=True it returns the same numbers under the same keys, or raises ValueError in the same cases, as on the CPU.", "quantifier": "all templates, redshift arrays, dictionaries of wavelength grids and forms of the edges", "why_tests_cant": "the defects depend on how the entries of the dictionary are mixed and on ranges at the limits of a template; tests use one grid in one form", "anchors": ["py/redrock/rebin.py:rebin_template", "py/redrock/rebin.py:trapz_rebin", "py/redrock/targets.py:Spectrum.gpuedges"]}
{"id": "C104", "title": "GPU and CPU rebin archetypes alike", "statement": "Archetype.rebin_template_batch with use_gpu=True and precomputed edges accepts the same redshifts and wavelength grids as on the CPU (those for which the redshifted archetypes cover the grids), and returns the same numbers.", "quantifier": "all archetypes, redshifts and dictionaries of wavelength grids", "why_tests_cant": "needs redshifts at which the archetypes just cover a grid, and a GPU", "anchors": ["py/redrock/archetypes.py:Archetype.rebin_template_batch", "py/redrock/rebin.py:trapz_rebin"]}
{"id": "C105", "title": "rrplot draws the fitted model", "statement": "In every picture of rrplot the solid curve of a spectrum is the model of the table row that the picture is labelled with (Template.eval with that row's coefficients and redshift and the resolution of the spectrum, as eval_model and the fit have it), with gaps exactly at masked pixels. (Examined: it is (1+z) times that model.)", "quantifier": "all details files, templates, targets, candidates", "why_tests_cant": "quantifies over all redshifts; the viewer has no test", "anchors": ["py/redrock/plotspec.py:PlotSpec.plot", "py/redrock/templates.py:Template.eval"]}
{"id": "C106", "title": "rrplot navigation", "statement": "For every sequence of key presses rrplot raises nothing and shows exactly the candidate that the keys lead to: right/left cycle through the candidates of a target, down/up go to the first candidate of the next/previous target and stop at the ends; every candidate of every target in the table can be reached; left undoes right.", "quantifier": "all key sequences, tables numbered per target, targets", "why_tests_cant": "key sequences are unbounded", "anchors": ["py/redrock/plotspec.py:PlotSpec._onkeypress", "py/redrock/plotspec.py:PlotSpec.plot"]}
{"id": "C107", "title": "rrplot draws the scans of all types", "statement": "The upper panel of rrplot shows the chi2 scan of every template type that was scanned for the target. (Examined: scans of templates with a subtype are never shown.)", "quantifier": "all scan results", "why_tests_cant": "quantifies over all template names", "anchors": ["py/redrock/plotspec.py:PlotSpec.plot"]}
{"id": "C108", "title": "Sky-line mask", "statement": "Unless --no-skymask is given, rrdesi sets the inverse variance to zero at wavelengths 5572..5582 and 9792..9795 (ends included) and changes nothing else; what the data contain there has no influence on chi2, coefficients and penalties of any template.", "quantifier": "all spectra, wavelength grids, templates, solvers", "why_tests_cant": "all flux values in the masked pixels", "anchors": ["py/redrock/external/desi.py:rrdesi", "py/redrock/zscan.py:calc_zchi2"]}
{"id": "C109", "title": "Archetype options of rrdesi", "statement": "--archetypes-no-legendre switches off Legendre terms, per-camera fits and prior; --archetype-legendre-prior 0 (or negative) the prior only; per-camera fits are the default with several wavelength grids; with each setting the fit of a target returns candidates. (Examined: without a prior it always raises.)", "quantifier": "all option values, targets, scans", "why_tests_cant": "all combinations of options with all inputs", "anchors": ["py/redrock/external/desi.py:rrdesi", "py/redrock/fitz.py:fitz"]}
{"id": "C110", "title": "A target's rows do not depend on the other targets of the run", "statement": "If a run succeeds, then a run on any non-empty part of its targets succeeds too, and every target of that part gets the same rows in the same order (redshift, error, chi2, flags, deltachi2, classification, znum and the first ncoeff coefficients); only trailing zeros of the coefficient column can differ. The order of the targets and the way the two runs are distributed (one process, or any number of MPI ranks) do not matter.", "quantifier": "all sets of targets, parts of them, orders, distributions over MPI ranks, interleavings of the ring, scans, fits, priors", "why_tests_cant": "a test compares a few chosen subsets on one schedule; the claim is about every subset, every distribution and every interleaving", "anchors": ["py/redrock/zfind.py:zfind", "py/redrock/zscan.py:calc_zchi2_targets"]}
{"id": "C111", "title": "Flux units do not matter", "statement": "If all fluxes of a target are multiplied by a factor a and all inverse variances divided by a squared (other flux units, same data), the target gets the same table: same redshifts, errors, chi2, warnings, types, order of rows, and raises in the same cases; only the coefficients are multiplied by a. (Examined: false for templates with the [OII] penalty, whose size is a flux.)", "quantifier": "all targets, templates, redshift grids, priors, factors", "why_tests_cant": "quantifies over all spectra and factors; a test fixes one unit", "anchors": ["py/redrock/zscan.py:calc_zchi2", "py/redrock/zscan.py:calc_negOII_penalty", "py/redrock/fitz.py:fitz"]}
{"id": "C112", "title": "Only the informative pixels of a target count", "statement": "The table of a target depends only on its pixels with non-zero inverse variance (flux, inverse variance, wavelength grid, resolution row): the order in which its spectra are given does not matter, and fully masked spectra on grids the templates can be rebinned to may be added or left out.", "quantifier": "all targets, orders of spectra, masked spectra, templates, solvers, priors", "why_tests_cant": "all permutations and all contents of masked pixels", "anchors": ["py/redrock/targets.py:Target", "py/redrock/zscan.py:spectral_data", "py/redrock/zscan.py:calc_zchi2", "py/redrock/fitz.py:fitz"]}
{"id": "C113", "title": "A template is the space its basis spectra span", "statement": "Replacing the basis spectra of a PCA template by any other basis of the same space (any invertible linear combination of them) gives every target the same table - same redshifts, errors, chi2, warnings, order - with the coefficients converted to the new basis. Rescaling a basis spectrum of an NMF template changes nothing but its coefficient. (Examined: the second sentence is false.)", "quantifier": "all templates, invertible matrices, targets, redshift grids, priors", "why_tests_cant": "quantifies over all bases of all templates", "anchors": ["py/redrock/zscan.py:calc_zchi2_batch", "py/redrock/zscan.py:solve_matrices", "py/redrock/fitz.py:fitz"]}
{"id": "C114", "title": "The order of the templates does not matter", "statement": "Giving the same templates in another order gives every target the same table, row by row, and raises in the same cases. (Examined: false if fits of different templates have the same chi2, e.g. for targets without data.)", "quantifier": "all targets, template sets, permutations, priors, solvers", "why_tests_cant": "all permutations of all template sets", "anchors": ["py/redrock/zfind.py:zfind", "py/redrock/zfind.py:sort_zfit_dict"]}
{"id": "C115", "title": "Rows of one type do not depend on templates of other types", "statement": "Two runs with the same templates of a spectral type give every target the same rows of that type, in the same order: redshift, error, chi2, subtype, pixel count, coefficients (up to trailing zeros) and all warning bits but SMALL_DELTA_CHI2, whatever the templates of other types are.", "quantifier": "all targets, pairs of template sets, priors, solvers", "why_tests_cant": "pairs of template sets are unbounded", "anchors": ["py/redrock/zfind.py:zfind"]}
{"id": "C116", "title": "More templates never give a worse best fit", "statement": "If templates are added to a run, the first row of every target is not worse than before: not flagged as a bad fit unless it was, and with no larger chi2 if the flag is the same.", "quantifier": "all targets, template sets and supersets, nminima >= 1, priors, solvers", "why_tests_cant": "template sets are unbounded", "anchors": ["py/redrock/zfind.py:zfind", "py/redrock/zfind.py:sort_zfit_dict"]}
{"id": "C117", "title": "A run's catalogue is the per-target measurements", "statement": "The redshift table of a run without archetypes on the CPU is made, target by target, of exactly the rows the target's own spectra give when measured alone with the run's templates, settings and the target's own prior; it does not depend on the other targets, on the order of targets, nor on whether one process or any number of MPI ranks did the work with any distribution of targets and redshifts and any interleaving. It exists exactly if every target can be measured alone and the tables fit together.", "quantifier": "every set of targets and spectra, every template set that covers the grids, every solver, every prior, every distribution and interleaving", "why_tests_cant": "Holds for all data and all schedules; a test compares a few runs.", "anchors": ["py/redrock/zfind.py:zfind", "py/redrock/zscan.py:calc_zchi2_targets", "py/redrock/zscan.py:calc_zchi2", "py/redrock/fitz.py:fitz", "py/redrock/templates.py:DistTemplate"]}
{"id": "C118", "title": "The published catalogue has one best row per target", "statement": "The redshift catalogue written by rrdesi (and rrboss --zbest) has exactly one row per target of the run, in the order of the target list. The row is the target's first candidate (znum 0): target ID, redshift, spectral type, subtype and metadata exactly, chi2, errors and coefficients rounded to single precision, flags and counts exactly as long as they fit their published integer type; no subtype is cut. It is published for every successful run whose metadata columns do not collide with the table's columns in upper case.", "quantifier": "all runs (any number of targets, templates, ranks), all fiber maps, all candidate tables and metadata columns", "why_tests_cant": "The result depends on the interplay of candidate numbering, row selection, column renaming, type narrowing and string widths for every table; tests use one table.", "anchors": ["py/redrock/external/desi.py:rrdesi", "py/redrock/external/boss.py:rrboss", "py/redrock/zfind.py:zfind"]}
{"id": "C119", "title": "rrdesi end to end: one row per selected target, from its own spectra, whatever the number of ranks", "statement": "Whatever rrdesi publishes, in one process or on any number of MPI ranks, has exactly one row per selected target in the order of first appearance in the input files; the row is the best candidate measured from the spectra built from exactly the file rows with that TARGETID (flagged, non-finite and very negative pixels without weight; coadded per band if asked), with the warning flags of that target's own fiber. On readable files the published table is the same for every number of ranks and every schedule of the template ring, or every run fails. What is published about a target is the same in two runs with different files, selections and numbers of ranks as long as the target's own rows are the same.", "quantifier": "all input files, selections, template sets, numbers of ranks, ring schedules", "why_tests_cant": "tests run one small file on one or two ranks; the claim composes reading, work distribution, coaddition, fitting, gathering, flagging and publishing over all inputs and schedules", "anchors": ["py/redrock/external/desi.py:rrdesi", "py/redrock/external/desi.py:DistTargetsDESI", "py/redrock/zfind.py:zfind", "py/redrock/targets.py:Target.compute_coadd"]}
{"id": "C120", "title": "Every spectrum is compared with the templates binned on its own wavelengths", "statement": "In a whole run, serial or MPI, every redshift and chi2 of a target is the one obtained by binning the templates on the wavelengths of that target's own spectra, whatever other targets (with other wavelength grids) are in the run, in their files or on other ranks.", "quantifier": "all sets of targets, wavelength arrays, band names, files, numbers of ranks, ring schedules", "why_tests_cant": "Test data share one wavelength grid per band; a grid mix-up needs two inputs whose grids differ but have the same wave hash, and the result is a plausible but wrong redshift.", "anchors": ["py/redrock/targets.py:Spectrum", "py/redrock/targets.py:DistTargets.wavegrids", "py/redrock/fitz.py:fitz", "py/redrock/zscan.py:calc_zchi2_targets"]}
{"id": "C121", "title": "The catalogue of a whole rrboss run", "statement": "For every set of spPlate (or spCFrame) files rrboss publishes one row for every processed target of the files, by increasing target ID, and every column of the row comes from the measurement of that target's own fibres (coadded grid by grid unless --allspec), with the templates on the wavelengths of those fibres and BRICKNAME the common plate-MJD cut to eight characters; the catalogue does not depend on whether rrboss runs in one process or on MPI ranks. This holds on MPI ranks; in one process it holds if no target has more spectra than one with a smaller ID (as for one spPlate file), and is false otherwise: the targets' scans, hence redshifts, are exchanged.", "quantifier": "all files, options, numbers of MPI ranks and interleavings of the ring", "why_tests_cant": "needs every combination of plates, fibres, wavelength grids and every schedule; the exchange only occurs for unequal numbers of spectra per target", "anchors": ["py/redrock/external/boss.py:rrboss", "py/redrock/external/boss.py:read_spectra", "py/redrock/targets.py:DistTargetsCopy", "py/redrock/zfind.py:zfind"]}
{"id": "C122", "title": "rrdesi with worker processes publishes the serial catalogue", "statement": "For every set of DESI files, rrdesi with any number of multiprocessing workers (--mp N), whatever the order in which the workers deliver, publishes exactly the catalogue of the run in one process (or both fail): in particular one row per selected target, measured from the target's own spectra, and the same catalogue as with MPI.", "quantifier": "all files, options, templates, numbers of workers and delivery orders of scan and fit messages", "why_tests_cant": "the exchange needs a particular combination of bands, target list order and worker split; the delivery orders are unboundedly many", "anchors": ["py/redrock/zscan.py:calc_zchi2_targets", "py/redrock/zfind.py:zfind", "py/redrock/external/desi.py:rrdesi", "py/redrock/external/desi.py:DistTargetsDESI", "py/redrock/utils.py:distribute_work", "py/redrock/targets.py:distribute_targets"]}
{"id": "C123", "title": "Which archetype files are used, and which are recorded", "statement": "With --archetypes PATH (or archetypes_dir), a file is used as it is; of a directory (environment variables in the path are expanded) every rrarchetype-*.fits file is opened, and no other; without a path $RR_ARCHETYPE_DIR or the code's directory is used. A template of a type is compared with the archetypes of the alphabetically last file of that type and fitted without archetypes if there is none; the output header names type, version and file of every archetype used.", "quantifier": "all directory contents, file names, paths, environment variables and types", "why_tests_cant": "names, variables and contents are unbounded; a test uses one directory", "anchors": ["py/redrock/archetypes.py:find_archetypes", "py/redrock/archetypes.py:All_archetypes", "py/redrock/archetypes.py:Archetype.__init__", "py/redrock/zfind.py:zfind", "py/redrock/external/desi.py:_get_header", "py/redrock/external/desi.py:rrdesi"]}
{"id": "C124", "title": "A run in GPU mode gives the catalogue of the run on the CPU", "statement": "Running redrock with --gpu gives the same catalogue (or fails likewise) as running it on the CPU on the same targets and templates: for every order in which the GPUs run their threads, whatever their memory held, any number of GPU ranks, and any distribution of the targets over them. (As stated it fails where a fit fails: the GPU then sets the coefficients, not chi2, to 9999999; and a rank without a GPU that has targets makes the run fail.)", "quantifier": "all sets of targets and templates, all settings, all thread schedules, all distributions of targets over ranks, all distributions of the CPU run", "why_tests_cant": "GPU and CPU runs are compared on few files and one schedule; the number of thread orders and distributions is unbounded", "anchors": ["py/redrock/zfind.py:zfind", "py/redrock/zscan.py:calc_zchi2_batch", "py/redrock/templates.py:DistTemplate", "py/redrock/fitz.py:fitz", "py/redrock/rebin.py:rebin_template"]}
{"id": "C125", "title": "Sky lines do not influence the catalogue", "statement": "With the sky mask on (the default), what the input files contain in the sky lines (5572-5582 and 9792-9795 Angstrom) has no influence on what rrdesi publishes: two sets of files whose rows for a target have the same wavelengths, resolution, and the same flux, inverse variance and flags outside the sky lines, publish the same redshift, chi2, coefficients, type and warnings for it.", "quantifier": "all input files, targets, options (with and without coaddition), numbers of ranks and ring schedules, all contents of the sky-line pixels including NaN, flags and zero weights", "why_tests_cant": "a test compares a few files; the claim is a non-interference statement over all pairs of inputs, and the pixels concerned are also read by coaddition, negative-flux rejection and the resolution matrix", "anchors": ["py/redrock/external/desi.py:rrdesi", "py/redrock/external/desi.py:DistTargetsDESI", "py/redrock/targets.py:Target.compute_coadd", "py/redrock/targets.py:Spectrum"]}
{"id": "C126", "title": "rrdesi --model writes the model of every catalogue row", "statement": "When rrdesi is run with --outfile and --model, the model file has exactly the bands in which some selected target has a spectrum, and in every band one model per row of the catalogue, in the order of the catalogue. The k-th model is the template of the type and subtype in the k-th row, with the coefficients and at the redshift of that row, resampled to the wavelengths and seen with the resolution of that target's own spectrum in that band, or 0 if the coefficients of the row are all 0; it depends on no other target and not on the number of MPI ranks. A run that publishes a catalogue also publishes its models.", "quantifier": "all spectra files, selections, templates, fiber states, numbers of MPI ranks, distributions of the targets, schedules of the redshift ring, argsort tie orders", "why_tests_cant": "a test with one file has every band for every target and compares a few pixels; a model attached to the wrong row, or a target that lacks a band another one has, is seen only on particular mixtures of files and distributions of targets", "anchors": ["py/redrock/external/desi.py:rrdesi", "py/redrock/external/desi.py:write_bestmodel", "py/redrock/targets.py:Target.eval_model", "py/redrock/targets.py:DistTargets.eval_models", "py/redrock/templates.py:Template.eval"]}
{"id": "C127", "title": "Converting SDSS templates", "statement": "rrconvertSDSStemplates turns every template of an SDSS file into a redrock template file of its own: its type and subtype follow from OBJECT and NAMEn, its wavelengths are 10^(COEFF0+COEFF1 i), its basis vector is its own row of the data, no other file is touched; and redrock, given the folder, fits exactly these templates, one per SDSS template.", "quantifier": "all SDSS files with any number of named templates (or none), any names, data, output folders and previous folder contents", "why_tests_cant": "The names are arbitrary text from other people's files; a test of a few names does not show which names collide, nor what is on disk after a failure in the middle.", "anchors": ["bin/rrconvertSDSStemplates:convert", "py/redrock/templates.py:Template.__init__", "py/redrock/templates.py:find_templates", "py/redrock/templates.py:load_templates"]}
{"id": "C128", "title": "Archetype candidates are fits at the redshift they report", "statement": "In a run with archetypes every reported candidate is the fit of the best archetype at the candidate's own redshift: redshifted to it and absorbed by the intergalactic medium as at that redshift, so that eval_model of the published row has the published chi2. True for candidates without BAD_MINFIT of templates whose IGM model is the archetypes' (Inoue14) or whose pixels are all above Lyman alpha, unless all archetype coefficients are zero; false of flagged candidates (absorption of the parabola's vertex, or none at all) and of templates with another IGM model.", "quantifier": "all targets, archetype files, templates, scans, redshift grids, IGM models", "why_tests_cant": "the wrong absorption needs a vertex outside the fine grid or a header keyword, and only shows when the published row is evaluated again", "anchors": ["py/redrock/fitz.py:fitz", "py/redrock/archetypes.py:Archetype.get_best_archetype", "py/redrock/archetypes.py:Archetype.eval", "py/redrock/targets.py:Target.eval_model", "py/redrock/igm.py:transmission_Lyman"]}
{"id": "C129", "title": "The life of a target", "statement": "Whatever sequence of coadds, Legendre requests and GPU copies a Target goes through, the GPU arrays and the polynomials it hands out belong to the spectra it holds, and coadding a coadd again changes nothing.", "quantifier": "all targets, all sequences of compute_coadd, gpu_spectral_data and legendre calls", "why_tests_cant": "tests make one call after the construction; caches and masks are wrong only after particular histories", "anchors": ["py/redrock/targets.py:Target.compute_coadd", "py/redrock/targets.py:Target.gpu_spectral_data", "py/redrock/targets.py:Target.legendre"]}
{"id": "C130", "title": "The published table of a target in archetype mode", "statement": "With archetypes every published row of a target is one candidate of one template: all its columns (redshift, chi2, coefficients, Legendre and PCA coefficients, types, warnings) are those of that candidate, no candidate is published twice, the best candidate comes first, at most nminima rows of a type are kept and none that is left out is better than a kept one of its type, deltachi2 and the flags follow from the published rows. False when a template without archetypes has fewer candidates than the first template.", "quantifier": "all targets, templates, numbers of candidates, archetype files, columns and warnings", "why_tests_cant": "tests use one or two templates with the same number of candidates; columns shift against each other only for particular mixtures of templates with and without archetypes", "anchors": ["py/redrock/zfind.py:zfind", "py/redrock/zfind.py:sort_zfit_dict", "py/redrock/zfind.py:calc_deltachi2", "py/redrock/utils.py:extra_columns_in_archetype_mode"]}
{"id": "C131", "title": "Making templates", "statement": "The template scripts write files redrock reads as the templates they were made for: rrstartemplate writes one file name-X.ext per class B, A, F, G, K, M, all six or none, read as STAR:::X with the basis vectors fitted to exactly the simulated stars of the class's temperatures (resampled, divided by their median) on exactly the wavelengths of the fit, every star being in one class; rrstarwdtemplate writes name-WD.ext read as STAR:::WD, rrgaltemplate a GALAXY template covering observed 3500 to 11000 at redshifts 0 to 1.85, rrqsotemplate a QSO template; no other file is touched. (Examined: false in five ways: galaxy and quasar files are refused by redrock unless --version is one of four old numbers; the scripts with clobber=True write nothing with an astropy that does not know it; the galaxy grid ends 0.03 Angstrom below 11000; stars at a border temperature are in two classes; when the fit of a class fails the files of earlier classes stay.)", "quantifier": "all simulated spectra and temperatures, output names, versions, numbers of vectors, previous folder contents, results and failures of empca, header values of the BOSS file", "why_tests_cant": "the scripts need desisim, desispec and empca and are in no test; the boundaries are sets of measure zero and the failures depend on the version option", "anchors": ["bin/rrgaltemplate", "bin/rrstartemplate", "bin/rrstarwdtemplate", "bin/rrqsotemplate", "py/redrock/templates.py:Template"]}
{"id": "C132", "title": "Rebalancing after a scan", "statement": "Given any distribution of targets (with distinct ids, each with its results on the rank that has it) over any number of ranks, rebalancing leaves the same targets in the same rank-to-rank order, none lost or doubled, with numbers per rank differing by at most one, and gives every rank exactly the results of its new targets, as computed where the target was before; a target without results stops it with KeyError. (The function is not called at this commit.)", "quantifier": "all numbers of ranks and targets, all distributions including empty ranks, all results", "why_tests_cant": "needs MPI and lopsided distributions; the function has no test", "anchors": ["py/redrock/zfind.py:_rebalance_after_scan"]}
