{
 "claims": [
  {
   "property": "C01",
   "status": "proved",
   "theorems": [
    "Redrock.C01_distribute_work_partition",
    "Redrock.C01_distribute_work_default_partition",
    "Redrock.C01_no_process_raises"
   ],
   "note": ""
  },
  {
   "property": "C02",
   "status": "proved",
   "theorems": [
    "Redrock.C02_distribute_work_balanced",
    "Redrock.C02_near_optimal"
   ],
   "note": ""
  },
  {
   "property": "C03",
   "status": "partial",
   "theorems": [
    "Redrock.C03_gpu_only_iff",
    "Redrock.C03_cpu_rank_gets_target"
   ],
   "note": "The intended claim (no target ever goes to a CPU-only rank) is false beyond 10000 targets per GPU rank; C03_gpu_only_iff gives the exact condition, C03_cpu_rank_gets_target the failure."
  },
  {
   "property": "C04",
   "status": "proved",
   "theorems": [
    "Redrock.C04_array_split_covers",
    "Redrock.C04_more_ranks_than_redshifts_raises",
    "Redrock.C04_pieces_cover_grid"
   ],
   "note": ""
  },
  {
   "property": "C05",
   "status": "proved",
   "theorems": [
    "Redrock.C05_cycle_visits_all",
    "Redrock.C05_cycle_no_deadlock",
    "Redrock.C05_cycle_completes"
   ],
   "note": ""
  },
  {
   "property": "C06",
   "status": "proved",
   "theorems": [
    "Redrock.C06_serial_scan",
    "Redrock.C06_mpi_scan_eq_serial"
   ],
   "note": ""
  },
  {
   "property": "C07",
   "status": "partial",
   "theorems": [
    "Redrock.C07_mp_scan_swaps_targets",
    "Redrock.C07_mp_scan_eq_serial_partial"
   ],
   "note": "False of the code as stated: C07_mp_scan_swaps_targets proves the negation. C07_mp_scan_eq_serial_partial: true when local targets are listed by non-increasing number of spectra."
  },
  {
   "property": "C08",
   "status": "partial",
   "theorems": [
    "Redrock.C08_failing_worker_hangs",
    "Redrock.C08_refuted",
    "Redrock.C08_no_failure_no_hang_partial"
   ],
   "note": "False of the code: C08_failing_worker_hangs / C08_refuted. C08_no_failure_no_hang_partial covers runs without failing workers."
  },
  {
   "property": "C09",
   "status": "proved",
   "theorems": [
    "Redrock.C09_gather_batches",
    "Redrock.C09_gather_all"
   ],
   "note": ""
  },
  {
   "property": "C10",
   "status": "proved",
   "theorems": [
    "Redrock.C10_progress_loop_ends",
    "Redrock.C10_returns"
   ],
   "note": ""
  },
  {
   "property": "C11",
   "status": "partial",
   "theorems": [
    "Redrock.C11_copied_targets_mpi_partial",
    "Redrock.C11_misaligned_without_mpi",
    "Redrock.C11_serial_scan_swapped",
    "Redrock.C11_copied_targets_serial_partial"
   ],
   "note": "True with MPI (C11_copied_targets_mpi_partial). False without MPI when numbers of spectra differ (C11_misaligned_without_mpi, C11_serial_scan_swapped); true there for sorted lists (C11_copied_targets_serial_partial)."
  },
  {
   "property": "C12",
   "status": "proved",
   "theorems": [
    "Redrock.C12_find_minima",
    "Redrock.C12_first_is_global",
    "Redrock.C12_empty_raises"
   ],
   "note": ""
  },
  {
   "property": "C13",
   "status": "proved",
   "theorems": [
    "Redrock.C13_tophat_confines",
    "Redrock.C13_tophat_empty_window",
    "Redrock.C13_tophat_keeps_minima"
   ],
   "note": ""
  },
  {
   "property": "C14",
   "status": "proved",
   "theorems": [
    "Redrock.C14_unlisted_unchanged",
    "Redrock.C14_last_row_wins",
    "Redrock.C14_gaussian",
    "Redrock.C14_lorentzian"
   ],
   "note": ""
  },
  {
   "property": "C15",
   "status": "proved",
   "theorems": [
    "Redrock.C15_candidates"
   ],
   "note": ""
  },
  {
   "property": "C16",
   "status": "proved",
   "theorems": [
    "Redrock.C16_redshift_in_range",
    "Redrock.C16_fitlimit_exact"
   ],
   "note": ""
  },
  {
   "property": "C17",
   "status": "proved",
   "theorems": [
    "Redrock.C17_minfit_exact"
   ],
   "note": ""
  },
  {
   "property": "C18",
   "status": "proved",
   "theorems": [
    "Redrock.C18_minfit_sound",
    "Redrock.C18_few_points",
    "Redrock.C18_discrete_minimum",
    "Redrock.C18_good_candidates"
   ],
   "note": ""
  },
  {
   "property": "C19",
   "status": "proved",
   "theorems": [
    "Redrock.C19_sort_columns",
    "Redrock.C19_rows_are_columns"
   ],
   "note": ""
  },
  {
   "property": "C20",
   "status": "proved",
   "theorems": [
    "Redrock.C20_znum",
    "Redrock.C20_trim_per_spectype",
    "Redrock.C20_dropped_not_better",
    "Redrock.C20_best_first"
   ],
   "note": ""
  },
  {
   "property": "C21",
   "status": "proved",
   "theorems": [
    "Redrock.C21_deltachi2",
    "Redrock.C21_last_zero",
    "Redrock.C21_nonneg"
   ],
   "note": ""
  },
  {
   "property": "C22",
   "status": "proved",
   "theorems": [
    "Redrock.C22_flag_iff",
    "Redrock.C22_small_deltachi2_flagged",
    "Redrock.C22_order_independent"
   ],
   "note": ""
  },
  {
   "property": "C23",
   "status": "proved",
   "theorems": [
    "Redrock.C23_fitz_bits",
    "Redrock.C23_table_rows",
    "Redrock.C23_reserved_bits_clear"
   ],
   "note": ""
  },
  {
   "property": "C24",
   "status": "proved",
   "theorems": [
    "Redrock.C24_flagRow",
    "Redrock.C24_coverage_flags"
   ],
   "note": ""
  },
  {
   "property": "C25",
   "status": "proved",
   "theorems": [
    "Redrock.C25_catalogue_crash",
    "Redrock.C25_details_crash",
    "Redrock.C25_clobber_irrelevant"
   ],
   "note": ""
  },
  {
   "property": "C26",
   "status": "proved",
   "theorems": [
    "Redrock.C26_same_readers",
    "Redrock.C26_round_trip",
    "Redrock.C26_write_succeeds",
    "Redrock.C26_zfit_round_trip"
   ],
   "note": ""
  },
  {
   "property": "C27",
   "status": "proved",
   "theorems": [
    "Redrock.C27_exactly_one_iff",
    "Redrock.C27_more_than_256_fails",
    "Redrock.C27_at_most_256"
   ],
   "note": "C27_more_than_256_fails: beyond 256 candidates write_zscan fails, because the same HDF5 link is created twice."
  },
  {
   "property": "C28",
   "status": "proved",
   "theorems": [
    "Redrock.C28_round_trip",
    "Redrock.C28_injective",
    "Redrock.C28_colon_needed",
    "Redrock.C28_two_separators"
   ],
   "note": ""
  },
  {
   "property": "C29",
   "status": "proved",
   "theorems": [
    "Redrock.C29_inverse",
    "Redrock.C29_injective",
    "Redrock.C29_inverse"
   ],
   "note": ""
  },
  {
   "property": "C30",
   "status": "proved",
   "theorems": [
    "Redrock.C30_files_from_header",
    "Redrock.C30_same_file_iff",
    "Redrock.C30_boss_header"
   ],
   "note": "Only base names are recorded: C30_same_file_iff says when the path is found again."
  },
  {
   "property": "C31",
   "status": "proved",
   "theorems": [
    "Redrock.C31_selected_targets",
    "Redrock.C31_selected_zfit"
   ],
   "note": ""
  },
  {
   "property": "C32",
   "status": "proved",
   "theorems": [
    "Redrock.C32_centers2edges"
   ],
   "note": ""
  },
  {
   "property": "C33",
   "status": "proved",
   "theorems": [
    "Redrock.C33_trapz_rebin_exact"
   ],
   "note": ""
  },
  {
   "property": "C34",
   "status": "proved",
   "theorems": [
    "Redrock.C34_bounds",
    "Redrock.C34_constant",
    "Redrock.C34_linear",
    "Redrock.C34_conservation",
    "Redrock.C34_merge"
   ],
   "note": ""
  },
  {
   "property": "C35",
   "status": "proved",
   "theorems": [
    "Redrock.C35_gpu_eq_cpu",
    "Redrock.C35_coincident_out_of_bounds"
   ],
   "note": ""
  },
  {
   "property": "C36",
   "status": "proved",
   "theorems": [
    "Redrock.C36_trapz_rebin"
   ],
   "note": ""
  },
  {
   "property": "C37",
   "status": "proved",
   "theorems": [
    "Redrock.C37_least_squares"
   ],
   "note": ""
  },
  {
   "property": "C38",
   "status": "proved",
   "theorems": [
    "Redrock.C38_masked_pixels"
   ],
   "note": ""
  },
  {
   "property": "C39",
   "status": "proved",
   "theorems": [
    "Redrock.C39_batch_entries",
    "Redrock.C39_no_weight",
    "Redrock.C39_weight_sum",
    "Redrock.C39_scan_no_weight"
   ],
   "note": ""
  },
  {
   "property": "C40",
   "status": "proved",
   "theorems": [
    "Redrock.C40_penalty",
    "Redrock.C40_scan_of_target"
   ],
   "note": ""
  },
  {
   "property": "C41",
   "status": "partial",
   "theorems": [
    "Redrock.C41_coadd",
    "Redrock.C41_keys",
    "Redrock.C41_order",
    "Redrock.C41_single",
    "Redrock.C41_single_unchanged_partial",
    "Redrock.C41_mask_grows"
   ],
   "note": "C41_coadd, C41_keys, C41_order: all claims but the last hold (inverse variances up to the resolution cut, which is stated). The claim about a single exposure is false of the code: C41_mask_grows; C41_single says what happens, C41_single_unchanged_partial when it holds."
  },
  {
   "property": "C42",
   "status": "partial",
   "theorems": [
    "Redrock.C42_rejection_partial",
    "Redrock.C42_masked_exposure_fails",
    "Redrock.C42_identical_exposures_rejected",
    "Redrock.C42_resolution_not_mean"
   ],
   "note": "Both claims are false of the code: C42_identical_exposures_rejected, C42_resolution_not_mean. C42_rejection_partial says what rejection does; C42_masked_exposure_fails: entirely masked exposures raise."
  },
  {
   "property": "C43",
   "status": "proved",
   "theorems": [
    "Redrock.C43_sharedmem_transparent",
    "Redrock.C43_no_resolution"
   ],
   "note": ""
  },
  {
   "property": "C44",
   "status": "partial",
   "theorems": [
    "Redrock.C44_cpu_partial",
    "Redrock.C44_gpu_partial",
    "Redrock.C44_stale_gpu"
   ],
   "note": "False of the code for mixed devices: C44_stale_gpu. C44_cpu_partial, C44_gpu_partial: CPU calls always, GPU calls when CPU calls repeat the current number."
  },
  {
   "property": "C45",
   "status": "proved",
   "theorems": [
    "Redrock.C45_unknown_model",
    "Redrock.C45_transmission",
    "Redrock.C45_absorbs",
    "Redrock.C45_inoue"
   ],
   "note": ""
  },
  {
   "property": "C46",
   "status": "proved",
   "theorems": [
    "Redrock.C46_eval",
    "Redrock.C46_padding",
    "Redrock.C46_too_few",
    "Redrock.C46_linear"
   ],
   "note": ""
  },
  {
   "property": "C47",
   "status": "partial",
   "theorems": [
    "Redrock.C47_rows_reach_target_partial",
    "Redrock.C47_any_masks",
    "Redrock.C47_ranks_partition",
    "Redrock.C47_constructor_succeeds",
    "Redrock.C47_allspec_unchanged",
    "Redrock.C47_weights"
   ],
   "note": "C47_any_masks: flux and resolution rows exactly, inverse variances that are either the cleaned row or 0, for all files. C47_rows_reach_target_partial: exact inverse variances when all bands of all files have a MASK HDU, or none has (otherwise C48_refuted). C47_ranks_partition: every target on exactly one rank. C47_constructor_succeeds: well-formed files do not raise."
  },
  {
   "property": "C48",
   "status": "partial",
   "theorems": [
    "Redrock.C48_refuted",
    "Redrock.C48_uniform_masks_partial"
   ],
   "note": "False of the code for a mixture of files with and without MASK: C48_refuted. C48_uniform_masks_partial: true when all or none have it."
  },
  {
   "property": "C49",
   "status": "proved",
   "theorems": [
    "Redrock.C49_bad_fibers_reset",
    "Redrock.C49_zero_model"
   ],
   "note": ""
  },
  {
   "property": "C50",
   "status": "proved",
   "theorems": [
    "Redrock.C50_never_misaligned",
    "Redrock.C50_rows_aligned"
   ],
   "note": "C50_never_misaligned (safety, any argsort) and C50_rows_aligned (it is written, any distribution over ranks)."
  },
  {
   "property": "C51",
   "status": "proved",
   "theorems": [
    "Redrock.C51_per_camera",
    "Redrock.C51_gpu_layout",
    "Redrock.C51_duplicate_bands",
    "Redrock.C51_split_lossless"
   ],
   "note": "Proved for spectra on different grids with different band names (the number of bands equal to the number of spectra, none called alpha); C51_duplicate_bands shows that the condition is needed."
  },
  {
   "property": "C52",
   "status": "partial",
   "theorems": [
    "Redrock.C52_without_prior_no_candidate",
    "Redrock.C52_with_prior_partial"
   ],
   "note": "False of the code: ncamera is unbound when prior_sigma is None (C52_without_prior_no_candidate). C52_with_prior_partial covers runs with a prior."
  },
  {
   "property": "C53",
   "status": "proved",
   "theorems": [
    "Redrock.C53_get_mp_range"
   ],
   "note": ""
  },
  {
   "property": "C54",
   "status": "proved",
   "theorems": [
    "Redrock.C54_target_order"
   ],
   "note": ""
  },
  {
   "property": "C55",
   "status": "partial",
   "theorems": [
    "Redrock.C55_low_redshift_limit",
    "Redrock.C55_not_zero_at_limit",
    "Redrock.C55_first_formula",
    "Redrock.C55_zero_at_limit_partial",
    "Redrock.C55_hole"
   ],
   "note": "False of the code for z < 1.2 (C55_low_redshift_limit, C55_not_zero_at_limit): the first branch is overwritten. C55_zero_at_limit_partial: true for z > 1.2, z != 4.7. C55_hole: the optical depth is 0 at one wavelength inside the range."
  },
  {
   "property": "C56",
   "status": "proved",
   "theorems": [
    "Redrock.C56_wavegrids"
   ],
   "note": ""
  },
  {
   "property": "C57",
   "status": "proved",
   "theorems": [
    "Redrock.C57_reduced_wavelength"
   ],
   "note": ""
  },
  {
   "property": "C58",
   "status": "proved",
   "theorems": [
    "Redrock.C58_coeff_at_reported_redshift",
    "Redrock.C58_flagged_candidate_mismatch",
    "Redrock.C58_origin"
   ],
   "note": "C58_flagged_candidate_mismatch shows that the restriction to unflagged candidates is needed."
  },
  {
   "property": "C59",
   "status": "proved",
   "theorems": [
    "Redrock.C59_fitz_returns_a_candidate"
   ],
   "note": ""
  },
  {
   "property": "C60",
   "status": "partial",
   "theorems": [
    "Redrock.C60_target_without_candidates_aborts",
    "Redrock.C60_all_targets_reported_partial",
    "Redrock.C60_width_mismatch_aborts"
   ],
   "note": "False of the code: C60_target_without_candidates_aborts (max([]) raises) and C60_width_mismatch_aborts (astropy vstack of coeff columns of different width). C60_all_targets_reported_partial: holds when every target has a candidate for a template of the same largest width."
  },
  {
   "property": "C61",
   "status": "proved",
   "theorems": [
    "Redrock.C61_length_mismatch_accepted",
    "Redrock.C61_short_flux_out_of_bounds"
   ],
   "note": ""
  },
  {
   "property": "C62",
   "status": "partial",
   "theorems": [
    "Redrock.C62_nmf_minimal_partial",
    "Redrock.C62_nmf_not_minimal"
   ],
   "note": "False of the code: C62_nmf_not_minimal (nnls is run on the normal equations). C62_nmf_minimal_partial: true when nnls solves them exactly."
  },
  {
   "property": "C63",
   "status": "partial",
   "theorems": [
    "Redrock.C63_fitted_model",
    "Redrock.C63_same_model_partial",
    "Redrock.C63_absorbed",
    "Redrock.C63_refuted"
   ],
   "note": "False of the code at redshifts with absorption (C63_absorbed, C63_refuted). C63_same_model_partial: true without absorption."
  },
  {
   "property": "C64",
   "status": "partial",
   "theorems": [
    "Redrock.C64_concurrent_writers_partial",
    "Redrock.C64_shared_temporary_file"
   ],
   "note": "False of the code: C64_shared_temporary_file (the temporary name is shared). C64_concurrent_writers_partial: true when the temporary names differ."
  },
  {
   "property": "C65",
   "status": "partial",
   "theorems": [
    "Redrock.C65_unreadable_details",
    "Redrock.C65_readable_partial"
   ],
   "note": "False of the code: C65_unreadable_details. C65_readable_partial: true when the full type of every candidate is a scanned type."
  },
  {
   "property": "C66",
   "status": "proved",
   "theorems": [
    "Redrock.C66_no_minimum_dropped"
   ],
   "note": ""
  },
  {
   "property": "C67",
   "status": "proved",
   "theorems": [
    "Redrock.C67_standardize",
    "Redrock.C67_too_wide_raises",
    "Redrock.C67_coeff_column"
   ],
   "note": ""
  },
  {
   "property": "C68",
   "status": "proved",
   "theorems": [
    "Redrock.C68_constraints"
   ],
   "note": ""
  },
  {
   "property": "C69",
   "status": "proved",
   "theorems": [
    "Redrock.C69_fit_templates",
    "Redrock.C69_same_chi2",
    "Redrock.C69_pixelwise"
   ],
   "note": ""
  },
  {
   "property": "C70",
   "status": "partial",
   "theorems": [
    "Redrock.C70_noise_free_partial",
    "Redrock.C70_refuted"
   ],
   "note": "False of the code: C70_refuted. C70_noise_free_partial: true for proportional inverse variances."
  },
  {
   "property": "C71",
   "status": "partial",
   "theorems": [
    "Redrock.C71_bands_after_coadd"
   ],
   "note": "False of the code when a band has several exposures: C71_bands_after_coadd is the exact condition."
  },
  {
   "property": "C72",
   "status": "partial",
   "theorems": [
    "Redrock.C72_range",
    "Redrock.C72_first_alone_fails",
    "Redrock.C72_absent_id"
   ],
   "note": "C72_range is the first claim. The others are false of the code: C72_first_alone_fails (RuntimeError), C72_absent_id (no error)."
  },
  {
   "property": "C73",
   "status": "partial",
   "theorems": [
    "Redrock.C73_fibermap_aligned_partial",
    "Redrock.C73_refuted_ids",
    "Redrock.C73_refuted_repeat"
   ],
   "note": "False of the code for requested IDs in another order and for targets in two files: C73_refuted_ids, C73_refuted_repeat. C73_fibermap_aligned_partial otherwise."
  },
  {
   "property": "C74",
   "status": "partial",
   "theorems": [
    "Redrock.C74_coadd",
    "Redrock.C74_desi_coadd",
    "Redrock.C74_refuted_allspec"
   ],
   "note": "False of the code with coadd=False: C74_refuted_allspec. C74_coadd, C74_desi_coadd otherwise."
  },
  {
   "property": "C75",
   "status": "proved",
   "theorems": [
    "Redrock.C75_best_archetype",
    "Redrock.C75_nearest_neighbours",
    "Redrock.C75_too_many_neighbours",
    "Redrock.C75_neighbours_need_per_camera",
    "Redrock.C75_least_squares",
    "Redrock.C75_nonnegative"
   ],
   "note": "Assumes the solver returns a vector of the right length or raises LinAlgError/NotImplementedError; hypotheses ArchInput (all archetypes can be rebinned on all grids). n_nearest without per_camera and n_nearest larger than the number of archetypes raise (proved). GPU path not modelled here."
  },
  {
   "property": "C76",
   "status": "proved",
   "theorems": [
    "Redrock.C76_model_chi2",
    "Redrock.C76_zero_model",
    "Redrock.C76_end_to_end",
    "Redrock.C76_zero_coefficient_mismatch",
    "Redrock.C76_semicolon_breaks"
   ],
   "note": "Proved under the stated conditions; C76_zero_model, C76_zero_coefficient_mismatch, C76_semicolon_breaks show the exceptions. The claim that fitz passes the transmission at Z is not part of the model: the code computes it at the parabola vertex."
  },
  {
   "property": "C77",
   "status": "proved",
   "theorems": [
    "Redrock.C77_prior_form",
    "Redrock.C77_prior_ok",
    "Redrock.C77_dropped_prior"
   ],
   "note": ""
  },
  {
   "property": "C78",
   "status": "proved",
   "theorems": [
    "Redrock.C78_labels_distinct",
    "Redrock.C78_labels_plain"
   ],
   "note": ""
  },
  {
   "property": "C79",
   "status": "proved",
   "theorems": [
    "Redrock.C79_redshift_grid",
    "Redrock.C79_refused",
    "Redrock.C79_negative_step",
    "Redrock.C79_star_default"
   ],
   "note": "Real arithmetic: rounding in np.arange is not modelled. zscan options have no effect on files with a REDSHIFTS extension. C79_negative_step: a negative dz is accepted and gives a decreasing grid."
  },
  {
   "property": "C80",
   "status": "proved",
   "theorems": [
    "Redrock.C80_names",
    "Redrock.C80_wave",
    "Redrock.C80_igm",
    "Redrock.C80_oii"
   ],
   "note": ""
  },
  {
   "property": "C81",
   "status": "proved",
   "theorems": [
    "Redrock.C81_line",
    "Redrock.C81_list_file",
    "Redrock.C81_sources",
    "Redrock.C81_path_object"
   ],
   "note": "C81_path_object: pathlib paths raise TypeError in load_templates, AttributeError in find_templates unless a directory. A name of a single character is taken for a blank line."
  },
  {
   "property": "C82",
   "status": "proved",
   "theorems": [
    "Redrock.C82_one_per_type",
    "Redrock.C82_all_used_iff",
    "Redrock.C82_dropped",
    "Redrock.C82_load_order"
   ],
   "note": ""
  },
  {
   "property": "C83",
   "status": "partial",
   "theorems": [
    "Redrock.C83_rows_partial",
    "Redrock.C83_no_resolution",
    "Redrock.C83_cameras"
   ],
   "note": "False of the code for the default R=None: C83_no_resolution (TypeError). C83_rows_partial, C83_cameras otherwise."
  },
  {
   "property": "C84",
   "status": "partial",
   "theorems": [
    "Redrock.C84_row_finds_template_partial",
    "Redrock.C84_long_type",
    "Redrock.C84_long_type_refuted"
   ],
   "note": "False of the code for types of more than six characters: C84_long_type, C84_long_type_refuted. C84_row_finds_template_partial otherwise."
  },
  {
   "property": "C85",
   "status": "partial",
   "theorems": [
    "Redrock.C85_columns",
    "Redrock.C85_first_without_archetypes",
    "Redrock.C85_rows_partial",
    "Redrock.C85_legendre_length",
    "Redrock.C85_more_candidates_refuted",
    "Redrock.C85_fewer_candidates_refuted",
    "Redrock.C85_one_camera_refuted",
    "Redrock.C85_rows_stay_together"
   ],
   "note": "False of the code as stated: C85_more_candidates_refuted (IndexError), C85_fewer_candidates_refuted (wrong rows), C85_first_without_archetypes (column lost), C85_one_camera_refuted. C85_rows_partial otherwise; C85_rows_stay_together for sort and trim."
  },
  {
   "property": "C86",
   "status": "partial",
   "theorems": [
    "Redrock.C86_all_types",
    "Redrock.C86_some_types",
    "Redrock.C86_nearest",
    "Redrock.C86_subset_partial",
    "Redrock.C86_counts_refuted",
    "Redrock.C86_zero_refuted"
   ],
   "note": "False of the code as stated: C86_counts_refuted, C86_zero_refuted. Exact behaviour in C86_all_types, C86_some_types, C86_nearest; C86_subset_partial."
  },
  {
   "property": "C87",
   "status": "partial",
   "theorems": [
    "Redrock.C87_rows",
    "Redrock.C87_type",
    "Redrock.C87_missing_refuted",
    "Redrock.C87_dropped"
   ],
   "note": "Only the keys of the first row's target count: C87_missing_refuted, C87_dropped. C87_rows and C87_type otherwise."
  },
  {
   "property": "C88",
   "status": "partial",
   "theorems": [
    "Redrock.Boss.C88_spectra",
    "Redrock.Boss.C88_missing",
    "Redrock.Boss.C88_duplicate",
    "Redrock.Boss.C88_thing_id",
    "Redrock.Boss.C88_plate_id",
    "Redrock.Boss.C88_plate_check",
    "Redrock.Boss.C88_brickname",
    "Redrock.Boss.C88_brickname_refuted"
   ],
   "note": "C88_spectra, C88_missing, C88_duplicate, C88_thing_id are the claims about spectra. BRICKNAME: C88_brickname (what it is), C88_brickname_refuted (cut to eight characters)."
  },
  {
   "property": "C89",
   "status": "proved",
   "theorems": [
    "Redrock.Boss.C89_profile",
    "Redrock.Boss.C89_columns",
    "Redrock.Boss.C89_flux_conserved",
    "Redrock.Boss.C89_cut",
    "Redrock.Boss.C89_widths",
    "Redrock.Boss.C89_flat_refuted"
   ],
   "note": "np.exp is an arbitrary positive function. C89_flat_refuted: rows do not sum to one."
  },
  {
   "property": "C90",
   "status": "partial",
   "theorems": [
    "Redrock.Boss.C90_limits",
    "Redrock.Boss.C90_mask",
    "Redrock.Boss.C90_range",
    "Redrock.Boss.C90_last_pixel_refuted",
    "Redrock.Boss.C90_no_overlap"
   ],
   "note": "False of the code at the ends: C90_range gives what is kept, C90_last_pixel_refuted the lost pixel, C90_no_overlap the failure outside the range."
  },
  {
   "property": "C91",
   "status": "partial",
   "theorems": [
    "Redrock.Boss.C91_ranges",
    "Redrock.Boss.C91_first",
    "Redrock.Boss.C91_mintarget_refuted",
    "Redrock.Boss.C91_archetypes_refuted"
   ],
   "note": "C91_ranges, C91_first; C91_mintarget_refuted, C91_archetypes_refuted for the false parts."
  },
  {
   "property": "C92",
   "status": "partial",
   "theorems": [
    "Redrock.Run.C92_serial",
    "Redrock.Run.C92_mpi",
    "Redrock.Run.C92_mpi_eq_serial",
    "Redrock.Run.C92_mp_partial",
    "Redrock.Run.C92_mp_swaps"
   ],
   "note": "Proved without reservation for one process (C92_serial) and MPI (C92_mpi, C92_mpi_eq_serial). With worker processes false of the code when targets are not ordered by number of spectra (C92_mp_swaps); C92_mp_partial is the case in which they are."
  },
  {
   "property": "C93",
   "status": "partial",
   "theorems": [
    "Redrock.Run.C93_file_one_process",
    "Redrock.Run.C93_file_same_catalogue",
    "Redrock.Run.C93_prior_twice",
    "Redrock.Run.C93_details_have_prior",
    "Redrock.Run.C93_file_mpi_fails",
    "Redrock.Run.C93_file_extra_type",
    "Redrock.Run.C93_file_missing_type",
    "Redrock.Run.C93_reuse_fails",
    "Redrock.Run.C93_other_grid_used"
   ],
   "note": "False of the code: C93_reuse_fails and C93_prior_twice (prior added twice), C93_file_mpi_fails (KeyError with two or more ranks), C93_other_grid_used (grid not compared). C93_file_same_catalogue is the case in which it holds; C93_file_extra_type and C93_file_missing_type: other template sets never give a catalogue."
  },
  {
   "property": "C94",
   "status": "proved",
   "theorems": [
    "Redrock.Wrap.C94_partition",
    "Redrock.Wrap.C94_sorted",
    "Redrock.Wrap.C94_balanced",
    "Redrock.Wrap.C94_near_optimal",
    "Redrock.Wrap.C94_no_groups"
   ],
   "note": "Proved for any result of argsort."
  },
  {
   "property": "C95",
   "status": "partial",
   "theorems": [
    "Redrock.Wrap.C95_redrock_file",
    "Redrock.Wrap.C95_details_file",
    "Redrock.Wrap.C95_distinct_partial",
    "Redrock.Wrap.C95_outdir_collision",
    "Redrock.Wrap.C95_refuted",
    "Redrock.Wrap.C95_prefix_redrock",
    "Redrock.Wrap.C95_outputs_not_spectra"
   ],
   "note": "C95_redrock_file, C95_details_file, C95_distinct_partial, C95_outputs_not_spectra; false of the code when the prefix occurs again in the name (C95_refuted), with an output directory and equal names (C95_outdir_collision), and with prefix redrock (C95_prefix_redrock: the output is the input)."
  },
  {
   "property": "C96",
   "status": "partial",
   "theorems": [
    "Redrock.Wrap.C96_found_partial",
    "Redrock.Wrap.C96_none",
    "Redrock.Wrap.C96_relative_never_avoided"
   ],
   "note": "C96_found_partial is the exact result, C96_none the exception; the directory to avoid is not avoided when reduxdir is relative (C96_relative_never_avoided), and files directly in it are returned."
  },
  {
   "property": "C97",
   "status": "partial",
   "theorems": [
    "Redrock.Wrap.C97_shared_desi",
    "Redrock.Wrap.C97_shared_boss",
    "Redrock.Wrap.C97_boss_too_many_ranks",
    "Redrock.Wrap.C97_nothing_left",
    "Redrock.Wrap.C97_each_file_once",
    "Redrock.Wrap.C97_resume",
    "Redrock.Wrap.C97_not_a_pixel_directory",
    "Redrock.Wrap.C97_resume_refuted_outdir"
   ],
   "note": "C97_shared_desi, C97_each_file_once, C97_resume hold; false of the code: nothing left to do raises AssertionError (C97_nothing_left), BOSS with more processes than maxnodes (C97_boss_too_many_ranks; C97_shared_boss is the other case), a directory that is not a number (C97_not_a_pixel_directory), equal names with an output directory (C97_resume_refuted_outdir)."
  },
  {
   "property": "C98",
   "status": "partial",
   "theorems": [
    "Redrock.Wrap.C98_no_log_lost_partial",
    "Redrock.Wrap.C98_refuted_after_deletion",
    "Redrock.Wrap.C98_log_name",
    "Redrock.Wrap.C98_log_in_other_directory"
   ],
   "note": "C98_no_log_lost_partial for histories without deletions; after deletion of an old backup every try raises (C98_refuted_after_deletion). C98_log_name / C98_log_in_other_directory: name of the log."
  },
  {
   "property": "C99",
   "status": "partial",
   "theorems": [
    "Redrock.Wrap.C99_command_partial",
    "Redrock.Wrap.C99_refuted_blank",
    "Redrock.Wrap.C99_time_limit",
    "Redrock.Wrap.C99_script_options_partial",
    "Redrock.Wrap.C99_refuted_boss_script",
    "Redrock.Wrap.C99_aim_25_minutes",
    "Redrock.Wrap.C99_debug_time_partial",
    "Redrock.Wrap.C99_refuted_debug",
    "Redrock.Wrap.C99_refuted_boss_fewer_cores"
   ],
   "note": "C99_command_partial is exact (no path with whitespace), C99_refuted_blank; C99_time_limit, C99_aim_25_minutes hold; C99_script_options_partial exact, C99_refuted_boss_script; C99_debug_time_partial, C99_refuted_debug, C99_refuted_boss_fewer_cores."
  },
  {
   "property": "C100",
   "status": "partial",
   "theorems": [
    "Redrock.Gpu.C100_gpu_equals_cpu_partial",
    "Redrock.Gpu.C100_no_failure",
    "Redrock.Gpu.C100_failed_nnls",
    "Redrock.Gpu.C100_pca_never_marked",
    "Redrock.Gpu.C100_product_is_transposed",
    "Redrock.Gpu.C100_product_refuted",
    "Redrock.Gpu.C100_failed_fit_refuted",
    "Redrock.Gpu.C100_transposed_view_refuted",
    "Redrock.Gpu.C100_strides_ignored",
    "Redrock.Gpu.C100_square_needed"
   ],
   "note": "C100_gpu_equals_cpu_partial: equal whenever no fit fails; C100_failed_nnls and C100_pca_never_marked say what happens otherwise. False of the code: C100_failed_fit_refuted (coefficients instead of chi2 set to 9999999), C100_transposed_view_refuted (archetypes without Legendre terms), C100_product_refuted (the product is the transpose of a @ b, C100_product_is_transposed)."
  },
  {
   "property": "C101",
   "status": "partial",
   "theorems": [
    "Redrock.Gpu.C101_exact_arithmetic_partial",
    "Redrock.Gpu.C101_convolution_reproducible",
    "Redrock.Gpu.C101_model_reproducible",
    "Redrock.Gpu.C101_fullprecision_refuted"
   ],
   "note": "C101_exact_arithmetic_partial: identical in exact arithmetic. C101_convolution_reproducible and C101_model_reproducible hold in any arithmetic; the normal equations are not reproducible in rounded arithmetic even with fullprecision=True (C101_fullprecision_refuted)."
  },
  {
   "property": "C102",
   "status": "partial",
   "theorems": [
    "Redrock.Spmd.C102_no_deadlock_partial",
    "Redrock.Spmd.C102_failure_aborts_partial",
    "Redrock.Spmd.C102_others_never_finish",
    "Redrock.Spmd.C102_unprotected_hangs",
    "Redrock.Spmd.C102_die_sites",
    "Redrock.Spmd.C102_protected_partial",
    "Redrock.Spmd.C102_refuted_archetype_name",
    "Redrock.Spmd.C102_refuted_no_mpi_abort",
    "Redrock.Spmd.C102_refuted_mixed_nodes",
    "Redrock.Spmd.C102_nothing_done"
   ],
   "note": "C102_protected_partial: for exceptions anywhere but at six listed places (C102_die_sites). C102_no_deadlock_partial and C102_failure_aborts_partial: no run hangs if all nodes agree on /proc/driver/nvidia/gpus (SameNodes) and exceptions are raised only where rrdesi calls comm.Abort(). False of the code otherwise: C102_unprotected_hangs (any exception outside the try block on some ranks only), C102_refuted_archetype_name (line 894), C102_refuted_no_mpi_abort, C102_refuted_mixed_nodes. C102_nothing_done: --gpu --max-gpuprocs 0 ends at once without output or error."
  },
  {
   "property": "C103",
   "status": "partial",
   "theorems": [
    "Redrock.C103_precomputed_edges",
    "Redrock.C103_precomputed_arrays",
    "Redrock.C103_mixture_refuted",
    "Redrock.C103_gpu_equals_cpu_partial",
    "Redrock.C103_fitz_range"
   ],
   "note": "C103_precomputed_edges, C103_precomputed_arrays, C103_gpu_equals_cpu_partial (if no edge coincides with the last redshifted sample, see C35), C103_fitz_range. False of the code for dictionaries that mix tuples and arrays: C103_mixture_refuted (an array after a tuple is checked against the limits of the tuple)."
  },
  {
   "property": "C104",
   "status": "partial",
   "theorems": [
    "Redrock.C104_same_partial",
    "Redrock.C104_spurious_error_refuted",
    "Redrock.C104_out_of_bounds_refuted"
   ],
   "note": "C104_same_partial: equal if the archetypes cover the grids both at redshift z and at rest. Otherwise false of the code, which compares observed wavelengths with the rest-frame range: C104_spurious_error_refuted, C104_out_of_bounds_refuted (for all such inputs)."
  },
  {
   "property": "C105",
   "status": "partial",
   "theorems": [
    "Redrock.Viewer.C105_drawn",
    "Redrock.Viewer.C105_is_model_partial",
    "Redrock.Viewer.C105_refuted"
   ],
   "note": "C105_drawn is the exact result: (1+z) times the model of the row. C105_is_model_partial: equal to the model exactly if z = 0 or the model vanishes; C105_refuted is a concrete case."
  },
  {
   "property": "C106",
   "status": "proved",
   "theorems": [
    "Redrock.Viewer.C106_navigation",
    "Redrock.Viewer.C106_reachable",
    "Redrock.Viewer.C106_undo",
    "Redrock.Viewer.C106_no_targets"
   ],
   "note": "C106_navigation (refinement of the moves), C106_reachable, C106_undo; C106_no_targets: IndexError if no target is in the table."
  },
  {
   "property": "C107",
   "status": "partial",
   "theorems": [
    "Redrock.Viewer.C107_curves",
    "Redrock.Viewer.C107_subtypes_refuted"
   ],
   "note": "C107_curves: exactly the scans stored under STAR, GALAXY, QSO are drawn; C107_subtypes_refuted: no scan of a template with a subtype is ever drawn."
  },
  {
   "property": "C108",
   "status": "proved",
   "theorems": [
    "Redrock.DesiOpts.C108_mask",
    "Redrock.DesiOpts.C108_no_influence"
   ],
   "note": "C108_mask, C108_no_influence (uses C38)."
  },
  {
   "property": "C109",
   "status": "partial",
   "theorems": [
    "Redrock.DesiOpts.C109_settings",
    "Redrock.DesiOpts.C109_no_prior_refuted",
    "Redrock.DesiOpts.C109_works_partial"
   ],
   "note": "C109_settings (exact); C109_works_partial with a positive prior; C109_no_prior_refuted: --archetypes-no-legendre or a prior <= 0 never gives a candidate."
  },
  {
   "property": "C110",
   "status": "proved",
   "theorems": [
    "Redrock.Catalogue.C110_finalTable",
    "Redrock.Catalogue.C110_other_targets_do_not_matter",
    "Redrock.Catalogue.C110_padding_depends_on_others",
    "Redrock.Catalogue.C110_one_more_target_can_abort"
   ],
   "note": ""
  },
  {
   "property": "C111",
   "status": "partial",
   "theorems": [
    "Redrock.C111_flux_units_partial",
    "Redrock.C111_pca_partial",
    "Redrock.Units.C111_oii_penalty_has_units"
   ],
   "note": "C111_flux_units_partial (templates without [OII] penalty, any solver that follows the units), C111_pca_partial (exact linear solver). With the penalty false of the code: Units.C111_oii_penalty_has_units (other units change chi2 and the order of the rows)."
  },
  {
   "property": "C112",
   "status": "proved",
   "theorems": [
    "Redrock.C112_same_pixels",
    "Redrock.C112_order",
    "Redrock.C112_masked_spectra",
    "Redrock.SameData.C112_masked_grid_can_abort"
   ],
   "note": "C112_same_pixels, C112_order, C112_masked_spectra; SameData.C112_masked_grid_can_abort shows that a masked spectrum on a grid outside the range of a template still makes the run raise."
  },
  {
   "property": "C113",
   "status": "partial",
   "theorems": [
    "Redrock.C113_basis_partial",
    "Redrock.C113_coefficients_partial",
    "Redrock.Basis.C113_nmf_refuted"
   ],
   "note": "C113_basis_partial and C113_coefficients_partial: PCA templates without [OII] penalty, exact solver. For NMF false of the code (NNLS is applied to the normal equations, C62): Basis.C113_nmf_refuted."
  },
  {
   "property": "C114",
   "status": "partial",
   "theorems": [
    "Redrock.C114_template_order_partial",
    "Redrock.TemplateSet.C114_ties_refuted"
   ],
   "note": "C114_template_order_partial: no two templates fit with the same chi2. With ties false of the code: TemplateSet.C114_ties_refuted (a target without data gets the type of the template loaded first)."
  },
  {
   "property": "C115",
   "status": "proved",
   "theorems": [
    "Redrock.C115_other_types"
   ],
   "note": "C115_other_types."
  },
  {
   "property": "C116",
   "status": "proved",
   "theorems": [
    "Redrock.C116_more_templates"
   ],
   "note": "C116_more_templates."
  },
  {
   "property": "C117",
   "status": "proved",
   "theorems": [
    "Redrock.FullRun.C117_any_way",
    "Redrock.FullRun.C117_rows",
    "Redrock.FullRun.C117_success",
    "Redrock.FullRun.C117_same_pixels",
    "Redrock.FullRun.C117_more_templates",
    "Redrock.FullRun.C117_physical"
   ],
   "note": "C117_rows (rows are the per-target measurement), C117_any_way (serial or MPI, any interleaving), C117_success (exactly when the run succeeds), C117_physical (redrock's own rebinning and IGM transmission meet the hypotheses), C117_same_pixels and C117_more_templates (C112 and C116 for whole runs). CPU, no archetypes; multiprocessing is C92."
  },
  {
   "property": "C118",
   "status": "proved",
   "theorems": [
    "Redrock.Zbest.C118_table",
    "Redrock.Zbest.C118_boss_table",
    "Redrock.Zbest.C118_rows",
    "Redrock.Zbest.C118_exact_integers",
    "Redrock.Zbest.C118_one_per_target",
    "Redrock.Zbest.C118_run"
   ],
   "note": "C118_table: exactly when and what rrdesi publishes, for any candidate table; C118_boss_table the same for rrboss; C118_rows the columns written out; C118_one_per_target and C118_run for the table of a whole run (C117), with fiber flags; C118_exact_integers: exact below 2^31 and 2^15."
  },
  {
   "property": "C119",
   "status": "proved",
   "theorems": [
    "Redrock.RrDesiRun.C119_rows",
    "Redrock.RrDesiRun.C119_ranks",
    "Redrock.RrDesiRun.C119_isolated"
   ],
   "note": "Composition of the models of reading (C47), distribution (C01), coaddition, fit and gathering (C117), flags and publication (C118). For MASK HDUs in all bands of all files or in none (otherwise C48 refutes it), without archetypes, on the CPU, with templates that can be scanned on the bands of the files; C119_ranks and C119_isolated for files with one wavelength HDU per band. Coefficients beyond ncoeff are padding and may differ in length between runs with different template sets. In this model a template is binned on a band; C120_rrdesi_* are the same claims with templates binned on wavelengths."
  },
  {
   "property": "C120",
   "status": "partial",
   "theorems": [
    "Redrock.Wave.C120_own_wavelengths_partial",
    "Redrock.Wave.C120_rrdesi_rows_partial",
    "Redrock.Wave.C120_rrdesi_ranks_partial",
    "Redrock.Wave.C120_rrdesi_isolated_partial",
    "Redrock.Wave.C120_refuted",
    "Redrock.Wave.C120_rrdesi_refuted",
    "Redrock.Wave.C120_regular_grids",
    "Redrock.Wave.C120_refuted_hash",
    "Redrock.Wave.C120_band_key"
   ],
   "note": "False as stated (C120_refuted: a target measured on the grid of another one with the same wavehash; C120_rrdesi_refuted: two DESI files whose wavelengths for a band differ, rows of a target depend on the other file; C120_refuted_hash: grids that agree in length and in the first two and last two wavelengths; C120_band_key: the hash of a DESI spectrum is its band name alone). Proved: C120_own_wavelengths_partial when equal wavehash means equal wavelengths (SameGrids), serial or MPI; C120_rrdesi_rows_partial, C120_rrdesi_ranks_partial, C120_rrdesi_isolated_partial: the claims of C119 with templates binned on the wavelengths in the files, if all files have the same wavelengths for a band; C120_regular_grids: evenly spaced (linear) grids of different length, start or step have different hashes if Python's hash does not collide."
  },
  {
   "property": "C121",
   "status": "partial",
   "theorems": [
    "Redrock.RrBossRun.C121_rows_partial",
    "Redrock.RrBossRun.C121_ranks_partial",
    "Redrock.RrBossRun.C121_single_plate",
    "Redrock.RrBossRun.C121_refuted"
   ],
   "note": "rrboss from the files to the published table. Proved for MPI runs (any number of ranks, any interleaving) and for one process if no target has more spectra than one with a smaller ID; C121_single_plate shows that this always holds for one spPlate file with common wavelengths. C121_refuted: without it, a run in one process exchanges the redshifts of two objects. Hypotheses on the data: no two different wavelength grids with one wavehash (C120). Multiprocessing of rrboss and archetypes (rrboss crashes with them, C91) are not in this theorem."
  },
  {
   "property": "C122",
   "status": "partial",
   "theorems": [
    "Redrock.MpRun.C122_zfind_partial",
    "Redrock.MpRun.C122_rrdesi_partial",
    "Redrock.MpRun.C122_mpi_partial",
    "Redrock.MpRun.C122_rows_partial",
    "Redrock.MpRun.C122_refuted"
   ],
   "note": "False as stated (C122_refuted: one file with one band and one with two, 2 workers: redshifts of two targets are exchanged). Proved when all files have the same bands and, with coaddition, every selected target has a row in its file: any number of workers and any delivery orders give the serial (and MPI) catalogue."
  },
  {
   "property": "C123",
   "status": "partial",
   "theorems": [
    "Redrock.ArchFiles.C123_expand",
    "Redrock.ArchFiles.C123_sources",
    "Redrock.ArchFiles.C123_directory",
    "Redrock.ArchFiles.C123_variables_partial",
    "Redrock.ArchFiles.C123_used",
    "Redrock.ArchFiles.C123_loaded_iff",
    "Redrock.ArchFiles.C123_case",
    "Redrock.ArchFiles.C123_header",
    "Redrock.ArchFiles.C123_trailing_slash_refuted",
    "Redrock.ArchFiles.C123_relative_refuted",
    "Redrock.ArchFiles.C123_rrdesi"
   ],
   "note": "Everything is proved for files, for directories without environment variables in the path, for $RR_ARCHETYPE_DIR and the code's directory. For paths with variables the claim is false (C123_trailing_slash_refuted, C123_relative_refuted) and proved under the condition of C123_variables_partial (the expanded directory occurs once in the path and has no slash at the end, unless written there)."
  },
  {
   "property": "C124",
   "status": "partial",
   "theorems": [
    "Redrock.Gpu.C124_physical",
    "Redrock.Gpu.C124_gpu_run_partial",
    "Redrock.Gpu.C124_rrdesi_distribution",
    "Redrock.Gpu.C124_cpu_rank_fails",
    "Redrock.Gpu.Ex.C124_failed_fits"
   ],
   "note": "As stated false: C124_failed_fits is a run in which nnls fails at some redshifts and the two catalogues differ; C124_cpu_rank_fails: in GPU mode a rank without GPU that has any target always raises. C124_gpu_run_partial: equal for all thread orders, memory contents, ranks and ways of the CPU run when no fit of a scan or fine scan fails on the CPU. Its condition on binning is proved for redrock's own GPU rebinning by C124_physical unless a bin edge coincides with the last redshifted template sample (where the kernel reads beyond the array, C35). Exact arithmetic; without archetypes. C124_rrdesi_distribution: with the distribution of C03, at most 10000 targets per GPU rank give the CPU catalogue; more make every run fail."
  },
  {
   "property": "C125",
   "status": "partial",
   "theorems": [
    "Redrock.RrDesiRun.C125_sky_lines_partial",
    "Redrock.RrDesiRun.SkyEx.C125_refuted"
   ],
   "note": "As stated false with coaddition, the default (C125_refuted: a flag on a pixel in the 5577 line changes the redshift, because the coadd masks the neighbouring pixels before the sky mask is applied). Proved: without coaddition for all contents of the sky lines; with coaddition (no cosmic rejection) for all fluxes there if the weights agree. Missing: cosmic-ray rejection, other weights with coaddition."
  },
  {
   "property": "C126",
   "status": "partial",
   "theorems": [
    "Redrock.RrDesiRun.C126_rows",
    "Redrock.RrDesiRun.C126_ranks",
    "Redrock.RrDesiRun.C126_written_partial"
   ],
   "note": "C126_rows (what is written) and C126_ranks (any number of ranks) hold without restriction on the bands. That a run which publishes a catalogue publishes its models is false of the code (C126_refuted: KeyError when a target lacks a band another target has); C126_written_partial gives the exact condition, for templates that can be resampled to the targets' wavelengths and no archetypes."
  },
  {
   "property": "C127",
   "status": "partial",
   "theorems": [
    "Redrock.Convert.C127_files_partial",
    "Redrock.Convert.C127_gap",
    "Redrock.Convert.C127_single",
    "Redrock.Convert.C127_indousid",
    "Redrock.Convert.C127_load_star",
    "Redrock.Convert.C127_load_refuted",
    "Redrock.Convert.C127_run_partial",
    "Redrock.Convert.C127_refuted"
   ],
   "note": "False as stated: names that differ only in '-', '/', blanks or parentheses have the same output file and the earlier template is silently lost (C127_refuted, last-wins in C127_files_partial); a missing number or a further keyword beginning with NAME raises KeyError after part of the files are written (C127_gap); converted galaxy and quasar files have no RRIGM and cannot be read back except for a few old version numbers (C127_load_refuted). Proved for all files of stars whose names stay different, from the SDSS file to the fitted templates (C127_run_partial), files without names (C127_single), Indo-US numbers (C127_indousid)."
  },
  {
   "property": "C128",
   "status": "partial",
   "theorems": [
    "Redrock.C128_best_partial",
    "Redrock.C128_model_partial",
    "Redrock.C128_same_igm",
    "Redrock.C128_other_igm",
    "Redrock.C128_flagged_refuted",
    "Redrock.C128_igm_refuted"
   ],
   "note": "True for candidates without BAD_MINFIT whose template has the IGM model of the archetypes at that redshift (C128_best_partial, C128_model_partial, C128_same_igm). False otherwise: flagged candidates use the transmission of the vertex (C128_flagged_refuted), templates with another RRIGM are fitted with that one and drawn with Inoue14 (C128_igm_refuted, C128_other_igm)."
  },
  {
   "property": "C129",
   "status": "partial",
   "theorems": [
    "Redrock.TargetHist.C129_spectra",
    "Redrock.TargetHist.C129_gpu_first",
    "Redrock.TargetHist.C129_gpu_fresh_partial",
    "Redrock.TargetHist.C129_legendre_partial",
    "Redrock.TargetHist.C129_coadd_again",
    "Redrock.TargetHist.C129_coadd_stable_partial",
    "Redrock.TargetHist.C129_coadd_settles",
    "Redrock.TargetHist.C129_gpu_stale_refuted",
    "Redrock.TargetHist.C129_again_refuted"
   ],
   "note": "True of the spectra and bands (C129_spectra), of CPU polynomials (C129_legendre_partial) and of GPU arrays if no coadd follows the first call (C129_gpu_fresh_partial; C129_gpu_first says what the code does for every history). False for GPU arrays after a later coadd (C129_gpu_stale_refuted), for GPU polynomials (C44_stale_gpu), and coadding again masks more pixels (C129_again_refuted); it keeps grids, fluxes and order (C129_coadd_again) and settles (C129_coadd_stable_partial, C129_coadd_settles)."
  },
  {
   "property": "C130",
   "status": "partial",
   "theorems": [
    "Redrock.ArchTable.C130_table_partial",
    "Redrock.ArchTable.C130_rows_partial",
    "Redrock.ArchTable.C130_publishes",
    "Redrock.ArchTable.C130_best",
    "Redrock.ArchTable.Ex.C130_rows_refuted",
    "Redrock.ArchTable.C130_stacked",
    "Redrock.ArchTable.C130_published"
   ],
   "note": "C130_table_partial / C130_rows_partial: for results of fitz whose columns are also in the other fits (or are replaced by the stacking: PCA columns; Legendre columns only with as many candidates as in the first fit) every published row is one candidate in all columns. C130_published (what sorting, trimming, flags and deltachi2 do to any stacked table), C130_stacked, C130_publishes and C130_best hold without that. C130_rows_refuted: a template without archetypes with fewer candidates shifts the Legendre coefficients of later templates. Merging numbers with strings in one column (numpy would turn numbers into strings) is not modelled."
  },
  {
   "property": "C131",
   "status": "partial",
   "theorems": [
    "Redrock.Make.C131_star_wave",
    "Redrock.Make.C131_covers_refuted",
    "Redrock.Make.C131_covers_partial",
    "Redrock.Make.C131_median",
    "Redrock.Make.C131_unit",
    "Redrock.Make.C131_class",
    "Redrock.Make.C131_classes_partial",
    "Redrock.Make.C131_classes_refuted",
    "Redrock.Make.C131_splitext",
    "Redrock.Make.C131_splitext_dot",
    "Redrock.Make.C131_star_load",
    "Redrock.Make.C131_star_files",
    "Redrock.Make.C131_star_run",
    "Redrock.Make.C131_star_partial_output",
    "Redrock.Make.C131_gal_load",
    "Redrock.Make.C131_qso_load",
    "Redrock.Make.C131_clobber_refuted",
    "Redrock.Make.C131_wd_run",
    "Redrock.Make.C131_one_file",
    "Redrock.Make.C131_nothing",
    "Redrock.Make.C131_all_or_nothing_refuted"
   ],
   "note": "Proved: the whole run of rrstartemplate (C131_star_run), the white dwarf run with an astropy knowing clobber (C131_wd_run), what a galaxy / quasar file is to redrock for every --version (C131_gal_load, C131_qso_load), which file is written (C131_one_file, C131_star_files, C131_nothing, C131_splitext, C131_splitext_dot), normalization (C131_median, C131_unit), classes (C131_class, C131_classes_partial), wavelengths (C131_star_wave, C131_covers_partial). False: C131_covers_refuted, C131_classes_refuted, C131_all_or_nothing_refuted, C131_clobber_refuted, and the refusals in C131_gal_load and C131_qso_load. desisim, resample_flux and empca are parameters (empca and resample_flux: only shapes assumed)."
  },
  {
   "property": "C132",
   "status": "proved",
   "theorems": [
    "Redrock.Rebalance.C132_rebalance",
    "Redrock.Rebalance.C132_missing",
    "Redrock.Rebalance.C132_duplicate"
   ],
   "note": "C132_rebalance for all distributions and numbers of ranks, C132_missing for a target without results, C132_duplicate: distinct ids are needed. The function is dead code at this commit (its call is commented out). gather and scatter are what MPI says they do."
  }
 ]
}