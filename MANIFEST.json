{
 "claims": [
  {
   "property": "C01",
   "status": "proved",
   "theorems": [
    "Amazed.C01_intersect",
    "Amazed.C01_intersect_idem",
    "Amazed.C01_clamp"
   ],
   "note": "generic linear order"
  },
  {
   "property": "C02",
   "status": "proved",
   "theorems": [
    "Amazed.C02_union",
    "Amazed.C02_join",
    "Amazed.C02_join_errors"
   ],
   "note": ""
  },
  {
   "property": "C03",
   "status": "partial",
   "theorems": [
    "Amazed.C03_closed",
    "Amazed.C03_closed_no_sample",
    "Amazed.C03_closed_sorted_partial",
    "Amazed.C03_closed_duplicates_dropped"
   ],
   "note": "full for vectors without repeated values; false (witness) when the end value is repeated"
  },
  {
   "property": "C04",
   "status": "proved",
   "theorems": [
    "Amazed.C04_enclosing",
    "Amazed.C04_enclosing_strict",
    "Amazed.C04_enclosing_errors",
    "Amazed.C04_enclosing_at",
    "Amazed.C04_enclosing_inverted_ub"
   ],
   "note": "needs begin<=end; an inverted range can dereference end() (witness)"
  },
  {
   "property": "C05",
   "status": "proved",
   "theorems": [
    "Amazed.C05_spread_forward",
    "Amazed.C05_spread_backward",
    "Amazed.C05_spread_eps_forward",
    "Amazed.C05_spread_eps_backward",
    "Amazed.IsForwardGrid.strict",
    "Amazed.IsBackwardGrid.strict",
    "Amazed.C05_spread_eps_small_step_leaves_range"
   ],
   "note": "exact arithmetic; the Epsilon variants need step > epsilon, otherwise points leave the range (witness)"
  },
  {
   "property": "C06",
   "status": "proved",
   "theorems": [
    "Amazed.C06_log_forward",
    "Amazed.C06_log_backward",
    "Amazed.C06_log_eps_forward",
    "Amazed.C06_log_eps_backward",
    "Amazed.C06_log_opposite_signs",
    "Amazed.C06_log_negative_bounds_ub"
   ],
   "note": "real arithmetic; same-sign negative bounds are undefined behaviour (witness)"
  },
  {
   "property": "C07",
   "status": "proved",
   "theorems": [
    "Amazed.C07_span_linear",
    "Amazed.C07_span_log"
   ],
   "note": ""
  },
  {
   "property": "C08",
   "status": "proved",
   "theorems": [
    "Amazed.C08_getIndex",
    "Amazed.C08_closestLower",
    "Amazed.C08_closestUpper",
    "Amazed.C08_closer",
    "Amazed.C08_empty_ub"
   ],
   "note": "needs a non-empty vector (UB otherwise, witness)"
  },
  {
   "property": "C09",
   "status": "proved",
   "theorems": [
    "Amazed.C09_insertWithDuplicates",
    "Amazed.C09_insertSubgrid",
    "Amazed.C09_insertSubgrids",
    "Amazed.C09_coarse_subgrid_ub",
    "Amazed.C09_overhanging_subgrid_unsorted"
   ],
   "note": "under SubgridFits; the two excluded situations are shown to break the property"
  },
  {
   "property": "C10",
   "status": "proved",
   "theorems": [
    "Amazed.C10_overlap_fraction",
    "Amazed.C10_overlap_bounds",
    "Amazed.C10_intersect",
    "Amazed.C10_counts",
    "Amazed.C10_computeOverlapFraction_not_overlap"
   ],
   "note": "CompouteOverlapFraction does not compute an overlap (witness)"
  },
  {
   "property": "C100",
   "status": "proved",
   "theorems": [
    "Amazed.SecondPass.C100_first_pass",
    "Amazed.SecondPass.C100_null_model",
    "Amazed.SecondPass.C100_nan_hides",
    "Amazed.SecondPass.C100_ratio_range"
   ],
   "note": ""
  },
  {
   "property": "C101",
   "status": "proved",
   "theorems": [
    "Amazed.SecondPass.C101_recompute",
    "Amazed.SecondPass.C101_total"
   ],
   "note": ""
  },
  {
   "property": "C102",
   "status": "proved",
   "theorems": [
    "Amazed.SecondPass.C102_search",
    "Amazed.SecondPass.C102_no_line",
    "Amazed.SecondPass.C102_grid",
    "Amazed.SecondPass.C102_redshifts",
    "Amazed.SecondPass.C102_fit_velocity",
    "Amazed.SecondPass.C102_merit_elsewhere"
   ],
   "note": ""
  },
  {
   "property": "C103",
   "status": "proved",
   "theorems": [
    "Amazed.SecondPass.C103_line_measurement"
   ],
   "note": ""
  },
  {
   "property": "C104",
   "status": "proved",
   "theorems": [
    "Amazed.SecondPass.C104_windows_apart",
    "Amazed.SecondPass.C104_refine_log",
    "Amazed.SecondPass.C104_refine_linear",
    "Amazed.SecondPass.C104_negative_counterexample"
   ],
   "note": "Exact arithmetic; for the grid functions the candidates must exceed the limit of the filter by twice their tolerance 1e-8. False for the linear sampling with negative redshifts (counterexample proved)."
  },
  {
   "property": "C105",
   "status": "proved",
   "theorems": [
    "Amazed.LmCands.C105_first_pass",
    "Amazed.LmCands.C105_not_in_grid",
    "Amazed.LmCands.C105_combine",
    "Amazed.LmCands.C105_cover",
    "Amazed.LmCands.C105_first_extrema"
   ],
   "note": "Duplicates inside the second list are all kept (example)."
  },
  {
   "property": "C106",
   "status": "proved",
   "theorems": [
    "Amazed.ChiArray.C106_models",
    "Amazed.ChiArray.C106_best_chi2",
    "Amazed.ChiArray.C106_bad_option",
    "Amazed.ChiArray.C106_consistent",
    "Amazed.ChiArray.C106_accepted"
   ],
   "note": "Merits are real numbers (no NaN)."
  },
  {
   "property": "C107",
   "status": "proved",
   "theorems": [
    "Amazed.ChiArray.C107_strong_lines",
    "Amazed.ChiArray.C107_ha_strongest",
    "Amazed.ChiArray.C107_priors",
    "Amazed.ChiArray.C107_line_never_penalised"
   ],
   "note": "The emitters term needs an increasing grid avoiding zeros of its polynomial (as C27)."
  },
  {
   "property": "C108",
   "status": "proved",
   "theorems": [
    "Amazed.LmCands.C108_saved",
    "Amazed.LmCands.C108_too_many",
    "Amazed.LmCands.C108_errors"
   ],
   "note": "Velocities by groups and the saved spectra are not modelled."
  },
  {
   "property": "C109",
   "status": "proved",
   "theorems": [
    "Amazed.ContFit.C109_store",
    "Amazed.ContFit.C109_lookup",
    "Amazed.ContFit.C109_duplicate_counterexample"
   ],
   "note": "a grid with a duplicate redshift makes the later search read out of bounds (counterexample); the redshift grids are strictly increasing"
  },
  {
   "property": "C11",
   "status": "proved",
   "theorems": [
    "Amazed.C11_flags",
    "Amazed.C11_flag_of_code"
   ],
   "note": ""
  },
  {
   "property": "C110",
   "status": "proved",
   "theorems": [
    "Amazed.ContFit.C110_precompute",
    "Amazed.ContFit.C110_negative_second_pass_counterexample"
   ],
   "note": "the fits of the templates are a parameter; with tplFitAuto the second pass accepts a negative continuum silently (counterexample to what the switch suggests)"
  },
  {
   "property": "C111",
   "status": "proved",
   "theorems": [
    "Amazed.ContFit.C111_refit",
    "Amazed.ContFit.C111_refused"
   ],
   "note": "catalogue lookups and the extinction index are those of the template catalogue model"
  },
  {
   "property": "C112",
   "status": "proved",
   "theorems": [
    "Amazed.ContFit.C112_options",
    "Amazed.ContFit.C112_no_break",
    "Amazed.ContFit.C112_candidate",
    "Amazed.ContFit.C112_from_first",
    "Amazed.ContFit.C112_other"
   ],
   "note": ""
  },
  {
   "property": "C113",
   "status": "proved",
   "theorems": [
    "Amazed.ContFit.C113_operator",
    "Amazed.ContFit.C110_precompute"
   ],
   "note": "the mask is part of Computed in C110_precompute"
  },
  {
   "property": "C114",
   "status": "proved",
   "theorems": [
    "Amazed.ContFit.C114_first_grid",
    "Amazed.ContFit.C114_first_grid_log"
   ],
   "note": "real arithmetic"
  },
  {
   "property": "C115",
   "status": "proved",
   "theorems": [
    "Amazed.Peaks.C116_runs",
    "Amazed.Peaks.C115_isolated_last",
    "Amazed.Peaks.C115_last_ignored"
   ],
   "note": "the level clause of C116_runs; undefined exactly without a neighbour of the last sample"
  },
  {
   "property": "C116",
   "status": "proved",
   "theorems": [
    "Amazed.Peaks.C116_runs",
    "Amazed.Peaks.C116_runs_unique"
   ],
   "note": ""
  },
  {
   "property": "C117",
   "status": "proved",
   "theorems": [
    "Amazed.Peaks.C117_kept",
    "Amazed.Peaks.C117_compute"
   ],
   "note": "border means the first two samples or the last one"
  },
  {
   "property": "C118",
   "status": "proved",
   "theorems": [
    "Amazed.Peaks.C118_enlarged",
    "Amazed.Peaks.C118_rate_zero",
    "Amazed.Peaks.C118_applies"
   ],
   "note": ""
  },
  {
   "property": "C119",
   "status": "proved",
   "theorems": [
    "Amazed.LineDetect.C119_fluxes",
    "Amazed.LineDetect.C119_errors"
   ],
   "note": ""
  },
  {
   "property": "C12",
   "status": "proved",
   "theorems": [
    "Amazed.Median.C12_small_odd_median"
   ],
   "note": ""
  },
  {
   "property": "C120",
   "status": "proved",
   "theorems": [
    "Amazed.LineDetect.C120_detect",
    "Amazed.LineDetect.C120_no_retest",
    "Amazed.LineDetect.C120_status"
   ],
   "note": "Gaussian fit is a parameter"
  },
  {
   "property": "C121",
   "status": "partial",
   "theorems": [
    "Amazed.LineDetect.C121_retest",
    "Amazed.LineDetect.C121_total_partial",
    "Amazed.LineDetect.C121_compute",
    "Amazed.LineDetect.C121_duplicate_counterexample",
    "Amazed.LineDetect.C121_first_sample_counterexample",
    "Amazed.LineDetect.C121_infinite_counterexample"
   ],
   "note": "additions proved; at most one line per peak and never failing are false of the code"
  },
  {
   "property": "C122",
   "status": "partial",
   "theorems": [
    "Amazed.LineDetect.C122_index_partial",
    "Amazed.LineDetect.C122_shift"
   ],
   "note": "true when the first sample is kept; off by one otherwise"
  },
  {
   "property": "C123",
   "status": "proved",
   "theorems": [
    "Amazed.LineMatch.C123_match",
    "Amazed.LineMatch.C123_sort",
    "Amazed.LineMatch.C123_negative_threshold"
   ],
   "note": ""
  },
  {
   "property": "C124",
   "status": "proved",
   "theorems": [
    "Amazed.LineMatch.C124_best",
    "Amazed.LineMatch.C124_match_num",
    "Amazed.LineMatch.C124_over",
    "Amazed.LineMatch.C124_by_index"
   ],
   "note": ""
  },
  {
   "property": "C125",
   "status": "proved",
   "theorems": [
    "Amazed.LineMatch.C125_rounded",
    "Amazed.LineMatch.C125_extended",
    "Amazed.LineMatch.C125_narrow"
   ],
   "note": ""
  },
  {
   "property": "C126",
   "status": "partial",
   "theorems": [
    "Amazed.LineMatch.C126_partition",
    "Amazed.LineMatch.C126_code",
    "Amazed.LineMatch.C126_rule01",
    "Amazed.LineMatch.C126_rule02_partial",
    "Amazed.LineMatch.C126_rule03",
    "Amazed.LineMatch.C126_no_effect",
    "Amazed.LineMatch.C126_rule02_counterexample"
   ],
   "note": "the rules as documented are false of the code"
  },
  {
   "property": "C127",
   "status": "proved",
   "theorems": [
    "Amazed.Fft.C127_correlation",
    "Amazed.Fft.C127_init",
    "Amazed.Fft.C127_stale",
    "Amazed.Fft.C127_mtm_fast_counterexample"
   ],
   "note": "exact reals; FFTW by its definition (r2c and c2r); the unused function EstimateMtMFast is proved wrong by a counterexample"
  },
  {
   "property": "C128",
   "status": "proved",
   "theorems": [
    "Amazed.TplLog.C128_fit",
    "Amazed.TplLog.C128_total",
    "Amazed.TplLog.C128_alignment",
    "Amazed.TplLog.C128_fft"
   ],
   "note": ""
  },
  {
   "property": "C129",
   "status": "partial",
   "theorems": [
    "Amazed.TplLog.C129_ranges_partial",
    "Amazed.TplLog.C129_curves",
    "Amazed.TplLog.C129_two_cuts_fail",
    "Amazed.TplLog.C129_empty_counterexample",
    "Amazed.TplLog.C129_bound_counterexample"
   ],
   "note": "False of the code in two cases, proved as counterexamples: empty ranges, and redshifts equal to a bin bound. Everything else of the statement is proved."
  },
  {
   "property": "C13",
   "status": "proved",
   "theorems": [
    "Amazed.Median.C13_find",
    "Amazed.Median.C13_fastFind",
    "Amazed.Median.C13_beersFind",
    "Amazed.Median.C13_find_perm",
    "Amazed.Median.C13_find_empty_is_ub"
   ],
   "note": "Empty input is undefined behaviour (witness theorem)."
  },
  {
   "property": "C130",
   "status": "proved",
   "theorems": [
    "Amazed.TplLog.C130_indices",
    "Amazed.TplLog.C130_log",
    "Amazed.TplLog.C130_ends"
   ],
   "note": ""
  },
  {
   "property": "C131",
   "status": "partial",
   "theorems": [
    "Amazed.TplLog.C131_fit_partial",
    "Amazed.TplLog.C131_total",
    "Amazed.TplLog.C131_prior_agrees",
    "Amazed.TplLog.C131_prior_minimum",
    "Amazed.TplLog.C131_prior_differs_counterexample",
    "Amazed.TplLog.C131_choice_ignores_prior_counterexample",
    "Amazed.TplLog.C131_prior_constant"
   ],
   "note": "The choice of the configuration ignores the prior and the prior differs from the direct operator in some cases: proved as counterexamples. C131_total is without priors."
  },
  {
   "property": "C132",
   "status": "proved",
   "theorems": [
    "Amazed.TplLog.C132_spectra",
    "Amazed.TplLog.C132_refuses",
    "Amazed.TplLog.C132_aligned",
    "Amazed.TplLog.C132_decreasing_counterexample"
   ],
   "note": "For increasing redshifts; a decreasing list reaches undefined behaviour (counterexample)."
  },
  {
   "property": "C133",
   "status": "proved",
   "theorems": [
    "Amazed.TplComb.C133_range",
    "Amazed.TplComb.C133_overlap",
    "Amazed.TplComb.C133_disjoint_counterexample"
   ],
   "note": "the refusal of templates without common range is not claimed: the witness shows the code does not do it"
  },
  {
   "property": "C134",
   "status": "proved",
   "theorems": [
    "Amazed.TplComb.C134_fit"
   ],
   "note": "the GSL solver is a parameter; the theorem assumes it returns a weighted least squares solution"
  },
  {
   "property": "C135",
   "status": "partial",
   "theorems": [
    "Amazed.TplComb.C135_amplitudes_partial",
    "Amazed.TplComb.C135_amplitudes_counterexample"
   ],
   "note": "false of the code for several configurations: proved for the last one fitted, with a witness for the rest"
  },
  {
   "property": "C136",
   "status": "proved",
   "theorems": [
    "Amazed.TplComb.C136_scale",
    "Amazed.TplComb.C136_covariance",
    "Amazed.TplComb.C136_snr"
   ],
   "note": "exact arithmetic"
  },
  {
   "property": "C137",
   "status": "proved",
   "theorems": [
    "Amazed.TplComb.C137_one_template",
    "Amazed.TplComb.C137_mask_unused"
   ],
   "note": ""
  },
  {
   "property": "C138",
   "status": "proved",
   "theorems": [
    "Amazed.TplComb.C138_compute",
    "Amazed.TplComb.C138_order",
    "Amazed.TplComb.C138_refused"
   ],
   "note": ""
  },
  {
   "property": "C139",
   "status": "partial",
   "theorems": [
    "Amazed.TplComb.C139_model_partial",
    "Amazed.TplComb.C139_consistent",
    "Amazed.TplComb.C139_axis_counterexample"
   ],
   "note": "the flux is proved; the axis of the model is not the axis of the spectrum (proved)"
  },
  {
   "property": "C14",
   "status": "proved",
   "theorems": [
    "Amazed.ScopeStack.C14_wf",
    "Amazed.ScopeStack.C14_failed_push_unchanged",
    "Amazed.ScopeStack.C14_push_outcome",
    "Amazed.ScopeStack.C14_push_accepted",
    "Amazed.ScopeStack.C14_push_then_read",
    "Amazed.ScopeStack.C14_getTypeValue"
   ],
   "note": ""
  },
  {
   "property": "C140",
   "status": "proved",
   "theorems": [
    "Amazed.PdfOp.C140_search",
    "Amazed.PdfOp.C140_windows",
    "Amazed.PdfOp.C140_candidates",
    "Amazed.PdfOp.C140_refused",
    "Amazed.PdfOp.C140_first_pass"
   ],
   "note": "the window size warning is not modelled"
  },
  {
   "property": "C141",
   "status": "partial",
   "theorems": [
    "Amazed.TplSolve.C141_solve",
    "Amazed.TplSolve.C141_solve_total",
    "Amazed.TplSolve.C141_all",
    "Amazed.TplSolve.C141_run_partial",
    "Amazed.TplSolve.C141_refused",
    "Amazed.TplSolve.C141_combination",
    "Amazed.TplSolve.C141_combination_total",
    "Amazed.TplSolve.C141_combination_refused",
    "Amazed.TplSolve.C141_not_restored",
    "Amazed.TplSolve.C141_not_restored_counterexample",
    "Amazed.TplSolve.C141_dust_counterexample"
   ],
   "note": "proved for runs that end without error; the restoration after an error and the dust of the continuum with all components are false of the code (counterexamples proved)"
  },
  {
   "property": "C142",
   "status": "partial",
   "theorems": [
    "Amazed.TplSolve.C142_template_fitting_partial",
    "Amazed.TplSolve.C142_template_combination",
    "Amazed.TplSolve.C142_schema_counterexample"
   ],
   "note": "the accepted names are proved; agreement with the schema is false of the code (counterexample proved)"
  },
  {
   "property": "C143",
   "status": "partial",
   "theorems": [
    "Amazed.TplSolve.C143_array",
    "Amazed.TplSolve.C143_constants_partial",
    "Amazed.TplSolve.C143_pdf",
    "Amazed.TplSolve.C143_combination",
    "Amazed.TplSolve.C143_constants_counterexample"
   ],
   "note": "the refusal of different constants is false for a first constant -1 (counterexample proved)"
  },
  {
   "property": "C144",
   "status": "partial",
   "theorems": [
    "Amazed.TplSolve.C144_fitted",
    "Amazed.TplSolve.C144_extrema_partial",
    "Amazed.TplSolve.C144_merit",
    "Amazed.TplSolve.C144_pipeline",
    "Amazed.TplSolve.C144_combination",
    "Amazed.TplSolve.C144_combination_extrema",
    "Amazed.TplSolve.C144_off_grid_ub",
    "Amazed.TplSolve.C144_no_template_ub",
    "Amazed.TplSolve.C144_no_template_counterexample"
   ],
   "note": "proved when a template has a chi2 below the largest number at the redshift; otherwise undefined behaviour (proved)"
  },
  {
   "property": "C145",
   "status": "proved",
   "theorems": [
    "Amazed.TplSolve.C145_check",
    "Amazed.TplSolve.C145_not_pairwise_counterexample"
   ],
   "note": ""
  },
  {
   "property": "C146",
   "status": "proved",
   "theorems": [
    "Amazed.TplSolve.C146_result",
    "Amazed.TplSolve.C146_error",
    "Amazed.TplSolve.C146_snr"
   ],
   "note": ""
  },
  {
   "property": "C147",
   "status": "partial",
   "theorems": [
    "Amazed.Lbfgs.C147_layout",
    "Amazed.Lbfgs.C147_set",
    "Amazed.Lbfgs.C147_all_set_partial",
    "Amazed.Lbfgs.C147_gap_ub",
    "Amazed.Lbfgs.C147_counterexample"
   ],
   "note": "Positions and written entries exact for every group; the claim is false for groups of two types with an element after the first one of the other type (witness proved)."
  },
  {
   "property": "C148",
   "status": "partial",
   "theorems": [
    "Amazed.Lbfgs.C148_cost_partial",
    "Amazed.Lbfgs.unpack_spec",
    "Amazed.Lbfgs.C148_path_counterexample",
    "Amazed.Lbfgs.C148_unpackPoly",
    "Amazed.Lbfgs.C148_polyInit"
   ],
   "note": "Cost equal to the chi2 when the lines in range are unchanged since the previous evaluation; depends on the history otherwise (witness proved)."
  },
  {
   "property": "C149",
   "status": "proved",
   "theorems": [
    "Amazed.Lbfgs.C149_result",
    "Amazed.Lbfgs.C149_bounded",
    "Amazed.Lbfgs.C149_poly",
    "Amazed.Lbfgs.C149_cases",
    "Amazed.Lbfgs.bounds_val",
    "Amazed.Lbfgs.C149_guess",
    "Amazed.Lbfgs.C149_start"
   ],
   "note": "For every minimiser. Amplitudes path independent for the elements up to the first one out of range; bounds hold when the minimiser returns a point in its bounds."
  },
  {
   "property": "C15",
   "status": "proved",
   "theorems": [
    "Amazed.ScopeStack.C15_guards_restore",
    "Amazed.ScopeStack.C15_body_sees_scope"
   ],
   "note": ""
  },
  {
   "property": "C150",
   "status": "partial",
   "theorems": [
    "Amazed.Lbfgs.C150_reach_partial",
    "Amazed.Lbfgs.C150_capped",
    "Amazed.Lbfgs.C150_counterexample",
    "Amazed.Lbfgs.C150_stored_counterexample"
   ],
   "note": "Exact set of reachable amplitudes; the claim is false as soon as the largest flux is not 1 (witnesses proved)."
  },
  {
   "property": "C151",
   "status": "partial",
   "theorems": [
    "Amazed.Lbfgs.C151_uncertainty_partial",
    "Amazed.Lbfgs.C151_counterexample",
    "Amazed.Lbfgs.uncert_spec"
   ],
   "note": "Holds up to the first element out of range; false after it (witness proved)."
  },
  {
   "property": "C152",
   "status": "proved",
   "theorems": [
    "Amazed.LmatchSolve.C152_static",
    "Amazed.LmatchSolve.C152_return",
    "Amazed.LmatchSolve.C152_never",
    "Amazed.LmatchSolve.C152_endless",
    "Amazed.LmatchSolve.C152_error",
    "Amazed.LmatchSolve.C152_best",
    "Amazed.LmatchSolve.C152_sweep",
    "Amazed.LmatchSolve.C152_finite",
    "Amazed.LmatchSolve.C152_bounds",
    "Amazed.LmatchSolve.C152_method"
   ],
   "note": "Peak detection, line detection and matching are parameters."
  },
  {
   "property": "C153",
   "status": "proved",
   "theorems": [
    "Amazed.GaussFit.C153_residual",
    "Amazed.GaussFit.C153_jacobian"
   ],
   "note": "Real arithmetic."
  },
  {
   "property": "C154",
   "status": "proved",
   "theorems": [
    "Amazed.GaussFit.C154_guess",
    "Amazed.GaussFit.C154_status",
    "Amazed.GaussFit.C154_result",
    "Amazed.GaussFit.C154_sigma",
    "Amazed.GaussFit.C154_codes"
   ],
   "note": "GSL is a parameter; square root as a parameter."
  },
  {
   "property": "C155",
   "status": "proved",
   "theorems": [
    "Amazed.ObjSolve.C155_linemeas_lin",
    "Amazed.ObjSolve.C155_linemeas_log",
    "Amazed.ObjSolve.C155_reference",
    "Amazed.ObjSolve.C155_ranges",
    "Amazed.ObjSolve.C155_linemodel"
   ],
   "note": "Real arithmetic: with rounding the reference redshift is on the grid up to rounding only."
  },
  {
   "property": "C156",
   "status": "partial",
   "theorems": [
    "Amazed.SvdLc.C156_fit",
    "Amazed.SvdLc.C156_model_partial",
    "Amazed.SvdLc.C156_refused",
    "Amazed.SvdLc.C156_continuum_error",
    "Amazed.SvdLc.C156_absorption_counterexample",
    "Amazed.SvdLc.C156_negative_counterexample",
    "Amazed.SvdLc.maxAbs_spec"
   ],
   "note": "The minimum, the stored values and the refusals are proved in full; the model left by the fit is the fitted one for emission lines with non negative amplitudes; false of the code for absorption lines, for negative amplitudes and for the error of the continuum (counterexamples proved)."
  },
  {
   "property": "C157",
   "status": "partial",
   "theorems": [
    "Amazed.EltDeriv.C157_profiles",
    "Amazed.EltDeriv.C157_amplitude",
    "Amazed.EltDeriv.C157_amplitude_deriv",
    "Amazed.EltDeriv.C157_velocity",
    "Amazed.EltDeriv.C157_continuum_partial",
    "Amazed.EltDeriv.C157_negative_counterexample"
   ],
   "note": "Exact for amplitudes that are not negative; false for the continuum derivative with a negative amplitude (counterexample)."
  },
  {
   "property": "C158",
   "status": "partial",
   "theorems": [
    "Amazed.EltDeriv.C158_position",
    "Amazed.EltDeriv.C158_between",
    "Amazed.EltDeriv.C158_width",
    "Amazed.EltDeriv.C158_refused",
    "Amazed.EltDeriv.C158_amplitude",
    "Amazed.EltDeriv.C158_redshift_partial",
    "Amazed.EltDeriv.C158_redshift_counterexample"
   ],
   "note": "The redshift derivative is proved for a width constant around the redshift, and false otherwise (counterexample)."
  },
  {
   "property": "C159",
   "status": "proved",
   "theorems": [
    "Amazed.DirInt.C159_flux",
    "Amazed.DirInt.inWindow_of_mem",
    "Amazed.DirInt.C159_refuses"
   ],
   "note": "positions and widths of the lines are parameters; rounding not modelled"
  },
  {
   "property": "C16",
   "status": "proved",
   "theorems": [
    "Amazed.C16_scopedName_components",
    "Amazed.C16_scopedName_injective",
    "Amazed.C16_scopedName_injective_name",
    "Amazed.C16_scopedName_injective_both",
    "Amazed.C16_scopedNameAt",
    "Amazed.C16_scopedNameAtType"
   ],
   "note": ""
  },
  {
   "property": "C160",
   "status": "proved",
   "theorems": [
    "Amazed.DirInt.C160_sum",
    "Amazed.DirInt.C160_nan",
    "Amazed.DirInt.C160_outside_counterexample"
   ],
   "note": "two deviations recorded as theorems (null flux, line outside of one spectrum)"
  },
  {
   "property": "C161",
   "status": "proved",
   "theorems": [
    "Amazed.LmSol.C161_solution",
    "Amazed.LmSol.C161_total",
    "Amazed.LmSol.C161_sign",
    "Amazed.LmSol.C161_valid"
   ],
   "note": "What comes from the spectra (continuum, residual, unit flux, direct integration) is a parameter; direct integration itself is C159-C160."
  },
  {
   "property": "C162",
   "status": "proved",
   "theorems": [
    "Amazed.LmSol.C162_load",
    "Amazed.LmSol.C162_roundtrip"
   ],
   "note": "With amplitude offsets the solution must come from the full extraction (level not 0): the brief one holds NaN polynomials (example)."
  },
  {
   "property": "C163",
   "status": "proved",
   "theorems": [
    "Amazed.Lya.C163_profile",
    "Amazed.Lya.C163_history",
    "Amazed.Lya.C163_missing",
    "Amazed.Lya.C163_pass",
    "Amazed.Lya.C163_convert",
    "Amazed.Lya.C163_sym_sticks"
   ],
   "note": "the searches of the parameters are parameters here (Model/LmSearch.lean models them)"
  },
  {
   "property": "C164",
   "status": "proved",
   "theorems": [
    "Amazed.Outside.C164_mask",
    "Amazed.Outside.C164_builder",
    "Amazed.Outside.C164_std",
    "Amazed.Outside.C164_update"
   ],
   "note": ""
  },
  {
   "property": "C165",
   "status": "proved",
   "theorems": [
    "Amazed.Strong.C165_valid",
    "Amazed.Strong.C165_present",
    "Amazed.Strong.C165_ha",
    "Amazed.Strong.C165_ha_max",
    "Amazed.Strong.C165_scale",
    "Amazed.Strong.C165_scale_one",
    "Amazed.Strong.C165_scale_all",
    "Amazed.Strong.C165_over",
    "Amazed.Strong.C165_strong_lines",
    "Amazed.Strong.C165_strongest",
    "Amazed.Strong.C165_min",
    "Amazed.Strong.C165_max"
   ],
   "note": "A line identifier missing in the catalogue throws std::out_of_range in the code; the theorems suppose the identifiers present."
  },
  {
   "property": "C166",
   "status": "proved",
   "theorems": [
    "Amazed.TplModel.C166_rebin",
    "Amazed.TplModel.C166_model",
    "Amazed.TplModel.C166_beyond_range"
   ],
   "note": "Linear interpolation (the default method). Samples beyond the range but in the last template interval get the template without extinction (C166_beyond_range)."
  },
  {
   "property": "C167",
   "status": "partial",
   "theorems": [
    "Amazed.TplCompute.C167_compute_partial",
    "Amazed.TplCompute.C167_refuses"
   ],
   "note": "With several IGM curves the last sample of the fit of each observation must be above the IGM range (the defect of C65). Linear resampling. Totality is that of C65_total_partial for each redshift."
  },
  {
   "property": "C168",
   "status": "proved",
   "theorems": [
    "Amazed.ContIdx.C168_mean",
    "Amazed.ContIdx.C168_null_error",
    "Amazed.ContIdx.C168_regression",
    "Amazed.ContIdx.C168_indexes",
    "Amazed.ContIdx.C168_relevance",
    "Amazed.ContIdx.C168_rms",
    "Amazed.ContIdx.C168_sizes"
   ],
   "note": "gsl_fit_wlinear by its formula. The regression takes the first sample at or after the end of the range, which may be beyond it: part of the specification RegOf."
  },
  {
   "property": "C169",
   "status": "proved",
   "theorems": [
    "Amazed.PhotFit.C169_fit",
    "Amazed.PhotFit.C169_bands",
    "Amazed.PhotFit.C169_new"
   ],
   "note": "One IGM index and any list of dust indices (the fast IGM processing over several IGM indices is C90). Real arithmetic, no rounding."
  },
  {
   "property": "C17",
   "status": "proved",
   "theorems": [
    "Amazed.ResultStore.C17_read",
    "Amazed.ResultStore.C17_store_outcome",
    "Amazed.ResultStore.C17_refused_unchanged",
    "Amazed.ResultStore.C17_allTemplates",
    "Amazed.ResultStore.C17_hasDataset",
    "Amazed.ResultStore.C17_scoped_store_then_get",
    "Amazed.ResultStore.C17_scoped_roundtrip",
    "Amazed.ResultStore.C17_dotted_names_collide"
   ],
   "note": ""
  },
  {
   "property": "C170",
   "status": "proved",
   "theorems": [
    "Amazed.AboveSnr.C170_above",
    "Amazed.AboveSnr.C170_total"
   ],
   "note": "direct integration of the flux is the one of C159, here a parameter"
  },
  {
   "property": "C171",
   "status": "proved",
   "theorems": [
    "Amazed.CandData.C171_get",
    "Amazed.CandData.C171_has",
    "Amazed.CandData.C171_type",
    "Amazed.CandData.C171_getter",
    "Amazed.CandData.C171_wrong",
    "Amazed.CandData.C171_count",
    "Amazed.CandData.C171_parent",
    "Amazed.CandData.C171_announced_ub"
   ],
   "note": "pointers stored in the store itself are taken non-null; announced but unset datasets are undefined behaviour when their type is asked (C171_announced_ub)"
  },
  {
   "property": "C172",
   "status": "partial",
   "theorems": [
    "Amazed.Tpl.C172_data",
    "Amazed.Tpl.C172_dust_partial",
    "Amazed.Tpl.C172_amplitude",
    "Amazed.Tpl.C172_disable",
    "Amazed.Tpl.C172_configured",
    "Amazed.Tpl.C172_refused",
    "Amazed.Tpl.C172_igm_without_effect",
    "Amazed.Tpl.C172_igm_counterexample"
   ],
   "note": "false for the IGM: the end index of the IGM is not set on the copy, so IGM indices are silently ignored until the copy is configured again; a copy whose kept samples surround the extinction range without one inside it is refused with CRANGE_NO_INTERSECTION"
  },
  {
   "property": "C173",
   "status": "proved",
   "theorems": [
    "Amazed.InputCtx.C173_own",
    "Amazed.InputCtx.C173_accept",
    "Amazed.InputCtx.C173_twice"
   ],
   "note": "Init up to the resampling; the operations on a spectrum (clamping C35, validation C51) are parameters."
  },
  {
   "property": "C174",
   "status": "partial",
   "theorems": [
    "Amazed.InputCtx.C174_igm_first_partial",
    "Amazed.InputCtx.C174_once",
    "Amazed.InputCtx.C174_growth",
    "Amazed.InputCtx.C174_own_counterexample"
   ],
   "note": "False of the code for line spread functions of the spectra: the curves of the first spectrum are used for all the later ones (counterexample proved); what holds is proved."
  },
  {
   "property": "C175",
   "status": "proved",
   "theorems": [
    "Amazed.InputCtx.C175_history",
    "Amazed.InputCtx.C175_next",
    "Amazed.InputCtx.C175_added"
   ],
   "note": "The catalogue of original templates, before resampling and orthogonalisation."
  },
  {
   "property": "C176",
   "status": "partial",
   "theorems": [
    "Amazed.SolveRun.C176_run_partial",
    "Amazed.SolveRun.C176_init_throws",
    "Amazed.SolveRun.C176_taken_terminates",
    "Amazed.SolveRun.C176_twice"
   ],
   "note": "False when the name of the warnings is already taken in the scope of the method (the same solver run twice without a reset of the store): the destructor throws and the program is ended (C176_taken_terminates, C176_twice). Proved for free names."
  },
  {
   "property": "C177",
   "status": "proved",
   "theorems": [
    "Amazed.SolveRun.C177_ends",
    "Amazed.SolveRun.C177_results",
    "Amazed.SolveRun.C177_hasResult",
    "Amazed.SolveRun.C177_leak"
   ],
   "note": "C177_leak: the warnings of an initialisation that throws are saved as those of the next solver."
  },
  {
   "property": "C178",
   "status": "partial",
   "theorems": [
    "Amazed.SpcCopy.C178_copy",
    "Amazed.SpcCopy.C178_assign_partial",
    "Amazed.SpcCopy.C178_assign_counterexample",
    "Amazed.SpcCopy.C178_masked",
    "Amazed.SpcCopy.C178_extract_partial",
    "Amazed.SpcCopy.C178_extract_counterexample"
   ],
   "note": "copy construction and masked copy proved in full; the assignment keeps the observation and the photometry of the target, and the extraction drops several members: the claim is false of the code there (counterexamples proved)"
  },
  {
   "property": "C179",
   "status": "partial",
   "theorems": [
    "Amazed.SpcCopy.C179_plain_partial",
    "Amazed.SpcCopy.C179_log",
    "Amazed.SpcCopy.C179_log_same",
    "Amazed.SpcCopy.C179_log_models",
    "Amazed.SpcCopy.C179_log_counterexample"
   ],
   "note": "proved for the operators that fit the inputs; false of the code for the operator on log grids, which is proved to fit the raw flux whatever is selected and to keep one model for all observations"
  },
  {
   "property": "C18",
   "status": "proved",
   "theorems": [
    "Amazed.ParamStore.C18_ism",
    "Amazed.ParamStore.C18_igm",
    "Amazed.ParamStore.C18_fft",
    "Amazed.ParamStore.C18_orthogonalize",
    "Amazed.ParamStore.C18_enable_implies_needed",
    "Amazed.ParamStore.C18_enable",
    "Amazed.ParamStore.C18_fft_frame",
    "Amazed.ParamStore.C18_hasToLogRebin",
    "Amazed.ParamStore.C18_minZStep",
    "Amazed.ParamStore.C18_set_get",
    "Amazed.ParamStore.C18_setBool_get",
    "Amazed.ParamStore.C18_setList_get",
    "Amazed.ParamStore.C18_listScoped",
    "Amazed.ParamStore.C18_range",
    "Amazed.ParamStore.C18_igm_other_method_throws",
    "Amazed.ParamStore.C18_scoped"
   ],
   "note": "boost property tree modelled; number parsing abstract."
  },
  {
   "property": "C180",
   "status": "partial",
   "theorems": [
    "Amazed.LogTable.C180_delivery_partial",
    "Amazed.LogTable.C180_safe",
    "Amazed.LogTable.C180_full",
    "Amazed.LogTable.C180_counterexample",
    "Amazed.LogTable.C180_levels",
    "Amazed.LogTable.C180_text"
   ],
   "note": "exact delivery proved for histories with at most eight handlers at a time; safety for all; false of the code with more (counterexample proved)"
  },
  {
   "property": "C181",
   "status": "partial",
   "theorems": [
    "Amazed.LogTable.C181_delivery_partial",
    "Amazed.LogTable.C181_complete",
    "Amazed.LogTable.C181_progress",
    "Amazed.LogTable.C181_terminates",
    "Amazed.LogTable.C181_throw_blocks",
    "Amazed.LogTable.C181_destroy_counterexample",
    "Amazed.LogTable.C181_throw_counterexample"
   ],
   "note": "proved for any threads that log and any schedule with a fixed set of handlers that do not throw; false of the code otherwise (counterexamples proved)"
  },
  {
   "property": "C182",
   "status": "partial",
   "theorems": [
    "Amazed.LmSolve.C182_second_first_pass_partial",
    "Amazed.LmSolve.C182_continuum",
    "Amazed.LmSolve.C182_false",
    "Amazed.LmSolve.C182_enabled"
   ],
   "note": "the claim is false of the code; proved: the option has no effect"
  },
  {
   "property": "C183",
   "status": "proved",
   "theorems": [
    "Amazed.LmSolve.C183_stored",
    "Amazed.LmSolve.C183_kept",
    "Amazed.LmSolve.C183_independent"
   ],
   "note": ""
  },
  {
   "property": "C184",
   "status": "partial",
   "theorems": [
    "Amazed.LmSolve.C184_number_partial",
    "Amazed.LmSolve.C184_skip_one",
    "Amazed.LmSolve.C184_false",
    "Amazed.LmSolve.C184_first"
   ],
   "note": "without second pass only one candidate is given"
  },
  {
   "property": "C185",
   "status": "partial",
   "theorems": [
    "Amazed.TplRun.C185_history_partial",
    "Amazed.TplRun.C185_template_fitting",
    "Amazed.TplRun.C185_flag",
    "Amazed.TplRun.C185_lists",
    "Amazed.TplRun.C185_reads_template_fitting",
    "Amazed.TplRun.C185_reads_template_combination",
    "Amazed.TplRun.C185_recovery",
    "Amazed.TplRun.C185_false"
   ],
   "note": "False of the code: an FFT template fitting run that throws after line 105 and before line 200 leaves the catalogue in log sampling for the solvers after it (C185_false); proved for histories without such a failure, and for the template fitting solver for every history."
  },
  {
   "property": "C186",
   "status": "proved",
   "theorems": [
    "Amazed.TplRun.C186_template_fitting",
    "Amazed.TplRun.C186_kept",
    "Amazed.TplRun.C186_template_combination",
    "Amazed.TplRun.C186_operator"
   ],
   "note": ""
  },
  {
   "property": "C187",
   "status": "proved",
   "theorems": [
    "Amazed.LineDef.C187_refines",
    "Amazed.LineDef.C187_memory",
    "Amazed.LineDef.C187_apart",
    "Amazed.LineDef.C187_copy",
    "Amazed.LineDef.C187_refused"
   ],
   "note": "heap model of profile ownership, refinement to plain values for all histories"
  },
  {
   "property": "C188",
   "status": "partial",
   "theorems": [
    "Amazed.LineDef.C188_added_partial",
    "Amazed.LineDef.C188_counterexample",
    "Amazed.LineDef.C188_refused"
   ],
   "note": "the asymmetry parameters of ASYM and ASYMFIT are ignored by the code (counterexample)"
  },
  {
   "property": "C189",
   "status": "partial",
   "theorems": [
    "Amazed.LineDef.C189_igm",
    "Amazed.LineDef.C189_asym_partial",
    "Amazed.LineDef.C189_counterexample"
   ],
   "note": "the asymmetry of a ratio catalogue is silently ignored after the IGM conversion (counterexample)"
  },
  {
   "property": "C19",
   "status": "partial",
   "theorems": [
    "Amazed.Extremum.C19_reported_points_are_samples",
    "Amazed.Extremum.C19_reported_points_are_maxima_partial",
    "Amazed.Extremum.C19_shelf_counterexample",
    "Amazed.Extremum.C19_low_border_counterexample",
    "Amazed.Extremum.C19_nan_counterexample"
   ],
   "note": "Reported points are samples of the search range for every input; they are exactly plateau middles when there is no NaN and no shelf (descending flat run). The full claim is false of the code: three counterexamples."
  },
  {
   "property": "C190",
   "status": "proved",
   "theorems": [
    "Amazed.FitStage.C190_stages",
    "Amazed.FitStage.C190_order",
    "Amazed.FitStage.C190_lineMeas",
    "Amazed.FitStage.C190_ortho"
   ],
   "note": ""
  },
  {
   "property": "C191",
   "status": "partial",
   "theorems": [
    "Amazed.FitStage.C191_agrees_partial",
    "Amazed.FitStage.C191_agrees_inside",
    "Amazed.FitStage.C191_velocity_loses_offsets",
    "Amazed.FitStage.C191_lc_loses_offsets",
    "Amazed.FitStage.C191_random_refused",
    "Amazed.FitStage.C191_report",
    "Amazed.FitStage.C191_mismatch"
   ],
   "note": "Holds without velocity fit and without svdlc, or when the second pass is skipped; otherwise false of the code, refuted for all such parameter sets."
  },
  {
   "property": "C192",
   "status": "proved",
   "theorems": [
    "Amazed.FitStage.C192_unknown",
    "Amazed.FitStage.C192_known",
    "Amazed.FitStage.C192_lc"
   ],
   "note": ""
  },
  {
   "property": "C193",
   "status": "partial",
   "theorems": [
    "Amazed.Reest.C193_reestimation",
    "Amazed.Reest.C193_result",
    "Amazed.Reest.C193_stable_partial",
    "Amazed.Reest.C193_overshoot_counterexample"
   ],
   "note": "the iterations and their result are proved in full; the last clause (an exact model is kept) holds for up to 3 iterations and is refuted for 8 (onlyextrema), where the lines are removed up to twice"
  },
  {
   "property": "C194",
   "status": "partial",
   "theorems": [
    "Amazed.Reest.C194_independent_partial",
    "Amazed.Reest.C194_noContinuum_partial",
    "Amazed.Reest.C194_stages",
    "Amazed.Reest.C194_leak_counterexample",
    "Amazed.Reest.C194_component"
   ],
   "note": "false of the code for noContinuum with re-estimation: the continuum of the previous fit is not reset (counterexample); proved in all other cases"
  },
  {
   "property": "C195",
   "status": "partial",
   "theorems": [
    "Amazed.Reest.C195_ratios_partial",
    "Amazed.Reest.C195_order_counterexample"
   ],
   "note": "false of the code when the continuum is re-estimated: each ratio starts from the continuum left by the previous one (counterexample); proved without re-estimation"
  },
  {
   "property": "C196",
   "status": "partial",
   "theorems": [
    "Amazed.Ortho.C196_orthogonal_partial",
    "Amazed.Ortho.C196_absorption",
    "Amazed.Ortho.C196_disabled",
    "Amazed.Ortho.C196_negative_counterexample",
    "Amazed.Ortho.C196_absorption_counterexample"
   ],
   "note": "Proved: for disjoint emission elements the projection is min(0, projection of the template), i.e. zero unless negative, and the flux is kept where there is no emission line. Full claim false: negative projections are kept and absorption elements never change the template. Overlapping elements (fitAmplitudesLinSolve) not covered here."
  },
  {
   "property": "C197",
   "status": "partial",
   "theorems": [
    "Amazed.RebinCache.C197_current_partial",
    "Amazed.RebinCache.C197_other",
    "Amazed.RebinCache.C197_unknown",
    "Amazed.RebinCache.C197_library",
    "Amazed.RebinCache.C197_stale_counterexamples",
    "Amazed.RebinCache.C197_names"
   ],
   "note": "Proved for histories where, once the fine grid was used, the flux, component and amplitude are only changed while the fine grid is in force, the continuum options only while the raw flux is selected, and no new axis, inversion, correction or smoothing is made; and for every history when another interpolation is in force. False otherwise (counterexamples)."
  },
  {
   "property": "C198",
   "status": "partial",
   "theorems": [
    "Amazed.ProcFlow.C198_stages_partial",
    "Amazed.ProcFlow.C198_models",
    "Amazed.ProcFlow.C198_errors",
    "Amazed.ProcFlow.C198_once",
    "Amazed.ProcFlow.C198_isolated",
    "Amazed.ProcFlow.C198_classif",
    "Amazed.ProcFlow.C198_load",
    "Amazed.ProcFlow.C198_init",
    "Amazed.ProcFlow.C198_scope",
    "Amazed.ProcFlow.C198_key",
    "Amazed.ProcFlow.C198_reliability_counterexample",
    "Amazed.ProcFlow.C198_reliability_alone_counterexample",
    "Amazed.ProcFlow.C198_linemeas_counterexample",
    "Amazed.ProcFlow.C198_linemeas_alone_counterexample",
    "Amazed.ProcFlow.C198_lmload_counterexample",
    "Amazed.ProcFlow.C198_classif_counterexample",
    "Amazed.ProcFlow.C198_asked"
   ],
   "note": "All proved, except that stages asked for can be neither run nor reported: reliability without a network in the calibration library or without redshift solver, a line measurement with both a redshift solver and a catalogue or with neither, the loading of the redshift for the line measurement (held to be asked for exactly when it is never run); and a model with only a line measurement makes the classification run although every redshift solver failed."
  },
  {
   "property": "C199",
   "status": "partial",
   "theorems": [
    "Amazed.SpecFilter.C199_rows_partial",
    "Amazed.SpecFilter.C199_order",
    "Amazed.SpecFilter.C199_unknown_column",
    "Amazed.SpecFilter.C199_instructions",
    "Amazed.SpecFilter.C199_reader",
    "Amazed.SpecFilter.C199_observations",
    "Amazed.SpecFilter.C199_airvacuum",
    "Amazed.SpecFilter.C199_notxor_counterexample",
    "Amazed.SpecFilter.C199_names_counterexample",
    "Amazed.SpecFilter.C199_documented_counterexample",
    "Amazed.SpecFilter.C199_empty_counterexample",
    "Amazed.SpecFilter.C199_empty"
   ],
   "note": "The rows kept are proved to be exactly those meeting every filter, columns attached. False parts, with witnesses: \"~^\" is refused although in the schema; the authorised names Wave/Flux/Err are not the names of the columns, so filters on them never work; the documented meaning of \"^ 8\" (flag absent) is not what is computed; a spectrum left empty by the filters passes the emptiness test."
  },
  {
   "property": "C20",
   "status": "partial",
   "theorems": [
    "Amazed.Extremum.C20_filter",
    "Amazed.Extremum.C20_find_partial"
   ],
   "note": "The filter is proved for every strictly increasing list of peaks, separation in (0,2); end to end for shelf free merit without merit cut."
  },
  {
   "property": "C200",
   "status": "partial",
   "theorems": [
    "Amazed.Merge.C200_merge_partial",
    "Amazed.Merge.C200_pixels",
    "Amazed.Merge.C200_distinct",
    "Amazed.Merge.C200_order",
    "Amazed.Merge.C200_single",
    "Amazed.Merge.C200_full",
    "Amazed.Merge.C200_merged",
    "Amazed.Merge.C200_warned",
    "Amazed.Merge.C200_moved_counterexample",
    "Amazed.Merge.C200_close_counterexample",
    "Amazed.Merge.C200_range_counterexample",
    "Amazed.Merge.C200_range"
   ],
   "note": "Proved: the complete outcome of the merge (when accepted, which error otherwise), pixels kept with their flux and error, exactness without common wavelengths, independence of orders, names of the observations. False parts, with witnesses: pixels at a repeated wavelength are moved by multiples of 1e-10; close wavelengths one of which is repeated are refused; the coverage warning looks at each observation, not at the merged spectrum."
  },
  {
   "property": "C201",
   "status": "partial",
   "theorems": [
    "Amazed.LmParams.C201_own",
    "Amazed.LmParams.C201_history_partial",
    "Amazed.LmParams.C201_nan_counterexample"
   ],
   "note": "Measurements use the values of their own spectrum for any history (full). The comparison with a new session needs that no NaN was read by the earlier spectra: with one the claim is false (witness): the NaN stays in the shared parameters and every later spectrum fails."
  },
  {
   "property": "C202",
   "status": "partial",
   "theorems": [
    "Amazed.LmParams.C202_lsf_partial",
    "Amazed.LmParams.C202_lsf_counterexample",
    "Amazed.LmParams.C202_lsf_names"
   ],
   "note": "Proved for the first observation that has a line spread function; the widths of the other observations are ignored (witness)."
  },
  {
   "property": "C203",
   "status": "partial",
   "theorems": [
    "Amazed.OutLoad.C203_loaded_partial",
    "Amazed.OutLoad.C203_init",
    "Amazed.OutLoad.C203_root",
    "Amazed.OutLoad.C203_names_counterexample",
    "Amazed.OutLoad.C203_methods_counterexample",
    "Amazed.OutLoad.C203_stage"
   ],
   "note": "Proved for tables whose dataset names stay distinct once the observations are put in and datasets stored by one method; false otherwise, with witnesses (C203_names_counterexample, C203_methods_counterexample)."
  },
  {
   "property": "C204",
   "status": "partial",
   "theorems": [
    "Amazed.OutLoad.C204_object_partial",
    "Amazed.OutLoad.C204_candidate",
    "Amazed.OutLoad.C204_linemeas_counterexample",
    "Amazed.OutLoad.C204_flags_counterexample",
    "Amazed.OutLoad.C204_extended_counterexample"
   ],
   "note": "Proved for visible, plainly named attributes of the datasets whose solver get_method gives; false for linemeas_parameters, the warning flags of the methods and the extended results, with witnesses."
  },
  {
   "property": "C205",
   "status": "partial",
   "theorems": [
    "Amazed.PdfSave.C205_saved_partial",
    "Amazed.PdfSave.C205_firstpass",
    "Amazed.PdfSave.C205_size",
    "Amazed.PdfSave.C205_firstpass_counterexample",
    "Amazed.PdfSave.C205_stale_counterexample"
   ],
   "note": "Proved when the read of zstep[1] after the resize (undefined behaviour, see C32) gives the former value; otherwise false (C205_stale_counterexample). First pass: proved for grids without centre."
  },
  {
   "property": "C206",
   "status": "partial",
   "theorems": [
    "Amazed.PdfSave.C206_final_partial",
    "Amazed.PdfSave.C206_first_counterexample"
   ],
   "note": "False for the first pass attributes (witness)."
  },
  {
   "property": "C207",
   "status": "partial",
   "theorems": [
    "Amazed.PdfSave.C207_checked_partial",
    "Amazed.PdfSave.C207_coarse_counterexample",
    "Amazed.PdfSave.C207_fine"
   ],
   "note": "The checks are one-sided: the step may be coarser and the beginning of the grid is not checked (witness)."
  },
  {
   "property": "C208",
   "status": "partial",
   "theorems": [
    "Amazed.H5Write.C208_complete_partial",
    "Amazed.H5Write.C208_exact",
    "Amazed.H5Write.C208_once",
    "Amazed.H5Write.C208_empty_counterexample",
    "Amazed.H5Write.C208_first_counterexample"
   ],
   "note": "False for candidate datasets whose first attribute is an empty array and for lists of candidates of different sizes (witnesses); proved otherwise."
  },
  {
   "property": "C209",
   "status": "proved",
   "theorems": [
    "Amazed.H5Write.C209_succeeds",
    "Amazed.H5Write.C209_again",
    "Amazed.H5Write.C209_columns_counterexample"
   ],
   "note": ""
  },
  {
   "property": "C21",
   "status": "proved",
   "theorems": [
    "Amazed.Extremum.C21_truncate",
    "Amazed.Extremum.C21_cut"
   ],
   "note": "For every peak list and every order of equal peaks."
  },
  {
   "property": "C210",
   "status": "partial",
   "theorems": [
    "Amazed.ParamV2.C210_partial",
    "Amazed.ParamV2.convert_total",
    "Amazed.ParamV2.convert_same",
    "Amazed.ParamV2.convert_section",
    "Amazed.ParamV2.accepted_key",
    "Amazed.ParamV2.converted_key",
    "Amazed.ParamV2.C210_collision_counterexample",
    "Amazed.ParamV2.C210_airvacuum",
    "Amazed.ParamV2.C210_linemeas",
    "Amazed.ParamV2.C210_lsf",
    "Amazed.ParamV2.C210_templateFitting_schema",
    "Amazed.ParamV2.C210_templateFitting",
    "Amazed.ParamV2.C210_asym_schema",
    "Amazed.ParamV2.C210_asym",
    "Amazed.ParamV2.C210_priors",
    "Amazed.ParamV2.C210_balmer",
    "Amazed.ParamV2.C210_stage"
   ],
   "note": "The full claim (every documented option can be used) is false of the code: C210_airvacuum, C210_linemeas, C210_lsf, C210_templateFitting, C210_asym, C210_priors and C210_balmer prove, for all files, that seven documented options are unreachable in an accepted version-2 file."
  },
  {
   "property": "C211",
   "status": "partial",
   "theorems": [
    "Amazed.ParamV1.C211_simultaneous_partial",
    "Amazed.ParamV1.renText_lookup",
    "Amazed.ParamV1.C211_rows",
    "Amazed.ParamV1.C211_other",
    "Amazed.ParamV1.C211_idempotent",
    "Amazed.ParamV1.C211_injective",
    "Amazed.ParamV1.C211_kept",
    "Amazed.ParamV1.C211_merge_counterexample",
    "Amazed.ParamV1.C211_value_counterexample"
   ],
   "note": "That freely chosen values are unchanged is false of the code (C211_value_counterexample), and two keys of an object can be merged (C211_merge_counterexample)."
  },
  {
   "property": "C212",
   "status": "proved",
   "theorems": [
    "Amazed.ParamV1.C212_sections",
    "Amazed.ParamV1.redshiftPart_spec",
    "Amazed.ParamV1.linemeasPart_spec",
    "Amazed.ParamV1.reliabilityPart_spec",
    "Amazed.ParamV1.pass_spec",
    "Amazed.ParamV1.C212_unknown_method",
    "Amazed.ParamV1.C212_missing",
    "Amazed.ParamV1.C212_missing_linemeas",
    "Amazed.ParamV1.C212_missing_reliability"
   ],
   "note": ""
  },
  {
   "property": "C213",
   "status": "proved",
   "theorems": [
    "Amazed.PeakFit.C213_windows",
    "Amazed.PeakFit.C213_flag",
    "Amazed.PeakFit.C213_errors",
    "Amazed.PeakFit.C213_proba",
    "Amazed.PeakFit.C213_problem",
    "Amazed.PeakFit.C213_total",
    "Amazed.PeakFit.C213_unsorted",
    "Amazed.PeakFit.C213_values",
    "Amazed.PeakFit.C213_jacobian",
    "Amazed.PeakFit.C213_scale"
   ],
   "note": "the GSL solver is a parameter; rounding not modelled"
  },
  {
   "property": "C214",
   "status": "partial",
   "theorems": [
    "Amazed.LinePrior.C214_value_partial",
    "Amazed.LinePrior.C214_without",
    "Amazed.LinePrior.C214_penalty",
    "Amazed.LinePrior.C214_record",
    "Amazed.LinePrior.C214_nan",
    "Amazed.LinePrior.C214_nan_counterexample"
   ],
   "note": "full claim false of the code: an element inside the range that could not be fitted (NaN amplitude, for instance because all its nominal amplitudes are zero in the catalog) makes the prior a NaN and the catalog is never recorded"
  },
  {
   "property": "C215",
   "status": "partial",
   "theorems": [
    "Amazed.ParamExt.C215_kept_partial",
    "Amazed.ParamExt.C215_untouched",
    "Amazed.ParamExt.C215_needs",
    "Amazed.ParamExt.C215_log_needs",
    "Amazed.ParamExt.C215_reestimation",
    "Amazed.ParamExt.C215_loglambda",
    "Amazed.ParamExt.C215_linemodel",
    "Amazed.ParamExt.C215_removal",
    "Amazed.ParamExt.C215_kernel",
    "Amazed.ParamExt.C215_template_removal",
    "Amazed.ParamExt.C215_reestimation_counterexample",
    "Amazed.ParamExt.C215_removal_counterexample"
   ],
   "note": "False of the code: values that are not needed are overwritten. Proved: everything else is untouched, and the exact value of each written place."
  },
  {
   "property": "C216",
   "status": "proved",
   "theorems": [
    "Amazed.Calib.C216_amplitudes",
    "Amazed.Calib.C216_list"
   ],
   "note": ""
  },
  {
   "property": "C217",
   "status": "partial",
   "theorems": [
    "Amazed.Calib.C217_bands_partial",
    "Amazed.Calib.C217_refused",
    "Amazed.Calib.C217_twice_counterexample"
   ],
   "note": "Proved for bands that are not asked twice; a band asked twice is refused (counterexample)."
  },
  {
   "property": "C218",
   "status": "partial",
   "theorems": [
    "Amazed.Calib.C218_ids_partial",
    "Amazed.Calib.C218_unique",
    "Amazed.Calib.C218_stale_counterexample",
    "Amazed.Calib.C218_shared_counterexample"
   ],
   "note": "Proved when every attribute has a catalog and the names are different; false otherwise (counterexamples)."
  },
  {
   "property": "C22",
   "status": "partial",
   "theorems": [
    "Amazed.Extremum.C22_scan_in_bounds",
    "Amazed.Extremum.C22_find_in_bounds_partial",
    "Amazed.Extremum.C22_merit_cut_out_of_bounds",
    "Amazed.Extremum.C22_no_peak_wanted_out_of_bounds"
   ],
   "note": "Scan safe for every input; Find safe without merit cut; the full claim is false of the code (two counterexamples)."
  },
  {
   "property": "C23",
   "status": "proved",
   "theorems": [
    "Amazed.Pdfz.C23_log_sum_exp",
    "Amazed.Pdfz.C23_terms_bounded",
    "Amazed.Pdfz.C23_small_grid"
   ],
   "note": "Real arithmetic (rounding not modelled)."
  },
  {
   "property": "C24",
   "status": "proved",
   "theorems": [
    "Amazed.Pdfz.C24_normalised",
    "Amazed.Pdfz.C24_passes_check",
    "Amazed.Pdfz.C24_single_point",
    "Amazed.Pdfz.C24_check"
   ],
   "note": "Real arithmetic. A flat PDF is refused by the same check with FLAT_ZPDF."
  },
  {
   "property": "C25",
   "status": "proved",
   "theorems": [
    "Amazed.Pdfz.C25_formula",
    "Amazed.Pdfz.C25_constant",
    "Amazed.Pdfz.C25_chi2_shift",
    "Amazed.Pdfz.C25_prior_shift",
    "Amazed.Pdfz.C25_order"
   ],
   "note": "Real arithmetic."
  },
  {
   "property": "C26",
   "status": "proved",
   "theorems": [
    "Amazed.Pdfz.C26_mixture",
    "Amazed.Pdfz.C26_normalised",
    "Amazed.Pdfz.C26_passes_check",
    "Amazed.Pdfz.C26_order",
    "Amazed.Pdfz.C26_default_prior"
   ],
   "note": "Real arithmetic; the seed exp(-DBL_MAX) is explicit."
  },
  {
   "property": "C27",
   "status": "proved",
   "theorems": [
    "Amazed.Pdfz.C27_normalised",
    "Amazed.Pdfz.C27_constant",
    "Amazed.Pdfz.C27_line_presence",
    "Amazed.Pdfz.C27_nlines",
    "Amazed.Pdfz.C27_no_penalty",
    "Amazed.Pdfz.C27_combine",
    "Amazed.Pdfz.C27_combine_sizes",
    "Amazed.Pdfz.C27_nha",
    "Amazed.Pdfz.C27_nha_bad_coefficient"
   ],
   "note": "Normalisation means trapezoid integral of the exponentials over the grid equal to 1."
  },
  {
   "property": "C28",
   "status": "proved",
   "theorems": [
    "Amazed.Deltaz.C28_parabola",
    "Amazed.Deltaz.C28_gaussian",
    "Amazed.Deltaz.C28_total",
    "Amazed.Deltaz.C28_not_on_grid"
   ],
   "note": "Real arithmetic; the GSL fit used with gslfit=1 (never by the library) is not modelled. Finding: for a Gaussian PDF the result is sqrt(2) times the standard deviation."
  },
  {
   "property": "C29",
   "status": "partial",
   "theorems": [
    "Amazed.Candidates.C29_ranges",
    "Amazed.Candidates.C29_disjoint_partial",
    "Amazed.Candidates.C29_disjoint_no_duplicate",
    "Amazed.Candidates.C29_adjacent",
    "Amazed.Candidates.C29_best_kept",
    "Amazed.Candidates.C29_overlap_across_duplicate",
    "Amazed.Candidates.C29_empty_ub"
   ],
   "note": "Proved: no error, containment, bounds, disjointness of candidates with no duplicate between them. The full disjointness claim is false (C29_overlap_across_duplicate is a machine-checked counterexample). No candidate: undefined behaviour."
  },
  {
   "property": "C30",
   "status": "proved",
   "theorems": [
    "Amazed.Candidates.C30_perm",
    "Amazed.Candidates.C30_sorted",
    "Amazed.Candidates.C30_stable",
    "Amazed.Candidates.C30_rank"
   ],
   "note": "NaN probabilities (failed Gaussian fit) are not modelled."
  },
  {
   "property": "C31",
   "status": "partial",
   "theorems": [
    "Amazed.PriorHelper.tplPriorData_mode1_safe",
    "Amazed.PriorHelper.tplPriorData_mode0_safe_partial",
    "Amazed.PriorHelper.tplPriorData_mode0_overrun",
    "Amazed.PriorHelper.tplPriorData_values",
    "Amazed.PriorHelper.tplPriorData_mode1_refuses",
    "Amazed.PriorHelper.redshiftIndex_mode1_negative",
    "Amazed.PriorHelper.tzePriorData_mode1_safe",
    "Amazed.PriorHelper.tzePriorData_initFailed",
    "Amazed.PriorHelper.init_shaped",
    "Amazed.PriorHelper.init_short_file",
    "Amazed.PriorHelper.init_content"
   ],
   "note": "False of the clamping mode at z >= 6 (index 24 of a 24 row table, proved) and of short prior files; proved for the rejecting mode and below 6."
  },
  {
   "property": "C32",
   "status": "partial",
   "theorems": [
    "Amazed.C32_interpolateOnGrid",
    "Amazed.C32_interpolate_refuses",
    "Amazed.C32_convertToRegular_coarse",
    "Amazed.C32_convertToRegular_regular",
    "Amazed.C32_convertToRegular_steps",
    "Amazed.C32_convertToRegular_fine_ub",
    "Amazed.C32_convertToRegular_fine_partial",
    "Amazed.C32_extrapolate",
    "Amazed.C32_extrapolate_noop",
    "Amazed.C32_linear_grid_grows"
   ],
   "note": "Fine conversion reads a removed vector element (undefined by the standard, proved for every refined PDF); the rest is proved."
  },
  {
   "property": "C33",
   "status": "partial",
   "theorems": [
    "Amazed.SAxis.C33_isSorted_sound",
    "Amazed.SAxis.C33_isSorted_exact_partial",
    "Amazed.SAxis.C33_mask_counterexample",
    "Amazed.SAxis.C33_setSize_counterexample",
    "Amazed.SAxis.C33_extract_counterexample",
    "Amazed.SAxis.C33_negative_scale_counterexample",
    "Amazed.SAxis.C33_raw_counterexample"
   ],
   "note": "Soundness (announced sorted implies strictly increasing) for every history without raw mutation; exactness only for histories without the five listed operations, each shown to break it by a counterexample."
  },
  {
   "property": "C34",
   "status": "proved",
   "theorems": [
    "Amazed.C34_maskVector",
    "Amazed.C34_count",
    "Amazed.C34_aligned"
   ],
   "note": ""
  },
  {
   "property": "C35",
   "status": "proved",
   "theorems": [
    "Amazed.SAxis.C35_clamp",
    "Amazed.SAxis.C35_clamp_refuses"
   ],
   "note": ""
  },
  {
   "property": "C36",
   "status": "proved",
   "theorems": [
    "Amazed.SAxis.C36_getMask",
    "Amazed.SAxis.C36_overlapFraction",
    "Amazed.SAxis.C36_overlap_short_mask",
    "Amazed.SAxis.C36_indexAt",
    "Amazed.SAxis.C36_indexAt_empty",
    "Amazed.SAxis.C36_indexesAt"
   ],
   "note": "Short mask and empty axis are out-of-bounds reads, shown."
  },
  {
   "property": "C37",
   "status": "partial",
   "theorems": [
    "Amazed.Rebin.C37_linear_partial",
    "Amazed.Rebin.C37_covered",
    "Amazed.Rebin.C37_refuses",
    "Amazed.Rebin.C37_empty_source",
    "Amazed.Rebin.C37_beyond_range_counterexample",
    "Amazed.Rebin.C37_single_target_variance"
   ],
   "note": "Interpolation, masks, errors and memory safety proved for all grids. Missing because false of the code: targets beyond the end of the range are kept (mask 1) while the source interval holding them begins in the range (counterexample proved)."
  },
  {
   "property": "C38",
   "status": "proved",
   "theorems": [
    "Amazed.Flux.C38_mean",
    "Amazed.Flux.C38_mean_bounds",
    "Amazed.Flux.C38_mean_constant",
    "Amazed.Flux.C38_median",
    "Amazed.Flux.C38_median_bounds",
    "Amazed.Flux.C38_no_op",
    "Amazed.Flux.C38_negative_width"
   ],
   "note": "For widths >= 0; a negative width is proved to be undefined behaviour."
  },
  {
   "property": "C39",
   "status": "proved",
   "theorems": [
    "Amazed.Flux.C39_correct",
    "Amazed.Flux.C39_fails"
   ],
   "note": ""
  },
  {
   "property": "C40",
   "status": "partial",
   "theorems": [
    "Amazed.Flux.C40_flux_partial",
    "Amazed.Flux.C40_noise_partial",
    "Amazed.Flux.C40_last_sample_counterexample",
    "Amazed.Flux.C40_point_range"
   ],
   "note": "Proved exactly for the samples the code looks at (before the last one, below the end of the range). Missing because false of the code: the last sample and a sample at the end of the range are not checked (counterexample proved)."
  },
  {
   "property": "C41",
   "status": "partial",
   "theorems": [
    "Amazed.TplCat.C41_add",
    "Amazed.TplCat.C41_set",
    "Amazed.TplCat.C41_clear_all",
    "Amazed.TplCat.C41_clear_one",
    "Amazed.TplCat.C41_no_stale_partial",
    "Amazed.TplCat.C41_sound",
    "Amazed.TplCat.C41_count",
    "Amazed.TplCat.C41_get",
    "Amazed.TplCat.C41_by_name",
    "Amazed.TplCat.C41_by_name_sound",
    "Amazed.TplCat.C41_set_moves",
    "Amazed.TplCat.C41_by_name_null",
    "Amazed.TplCat.C41_throw_stale"
   ],
   "note": "Proved for every history of calls that return; histories with exceptions keep the lists sound but the consistency with the original list is false of the code (counterexample), as is replacing the last template left at a non-zero position, and the search by name across a null template."
  },
  {
   "property": "C42",
   "status": "proved",
   "theorems": [
    "Amazed.Tpl.C42_history",
    "Amazed.Tpl.C42_commute",
    "Amazed.Tpl.C42_reset",
    "Amazed.Tpl.C42_after_exception_counterexamples"
   ],
   "note": "Histories whose calls all return; the flux type is fixed. C42_after_exception_counterexamples shows that the property fails after a refused call (the refused index stays recorded)."
  },
  {
   "property": "C43",
   "status": "proved",
   "theorems": [
    "Amazed.Continuum.C43_decomposition",
    "Amazed.Continuum.C43_selected",
    "Amazed.Continuum.C43_set_flux",
    "Amazed.Continuum.C43_zero_raw",
    "Amazed.Continuum.C43_zero_raw_available",
    "Amazed.Continuum.C43_manual",
    "Amazed.Continuum.C43_stale_counterexamples",
    "Amazed.Continuum.C43_correction_lost"
   ],
   "note": "state machine over all histories, the median estimator a parameter; stale continua after a change of the axis or of a manual continuum before its first use are shown as counterexamples to a stronger claim"
  },
  {
   "property": "C44",
   "status": "proved",
   "theorems": [
    "Amazed.Pdfz.C44_best_chi2",
    "Amazed.Pdfz.C44_min",
    "Amazed.Pdfz.C44_only_min",
    "Amazed.Pdfz.C44_unknown_method"
   ],
   "note": ""
  },
  {
   "property": "C45",
   "status": "proved",
   "theorems": [
    "Amazed.Pdfz.C45_best_proba",
    "Amazed.Pdfz.C45_refuses"
   ],
   "note": ""
  },
  {
   "property": "C46",
   "status": "proved",
   "theorems": [
    "Amazed.Candidates.C46_integral",
    "Amazed.Candidates.C46_candidates",
    "Amazed.Candidates.C46_candidates_any"
   ],
   "note": "Direct integration (the default method)."
  },
  {
   "property": "C47",
   "status": "partial",
   "theorems": [
    "Amazed.SAxis.C47_isLogSampled_partial",
    "Amazed.SAxis.C47_offset_counterexample",
    "Amazed.SAxis.checkLog_geometric",
    "Amazed.SAxis.checkLog_total"
   ],
   "note": "Holds for every history without a non-zero offset applied to a log-sampled axis; the counterexample shows why."
  },
  {
   "property": "C48",
   "status": "proved",
   "theorems": [
    "Amazed.SAxis.C48_subSamplingMask",
    "Amazed.SAxis.C48_subSampling_refuses",
    "Amazed.SAxis.C48_ratio_one",
    "Amazed.SAxis.C48_ratio_zero"
   ],
   "note": "Ratio 1 ignores the range and ratio 0 never ends: shown as theorems."
  },
  {
   "property": "C49",
   "status": "proved",
   "theorems": [
    "Amazed.SAxis.C49_meanResolution",
    "Amazed.SAxis.C49_resolution"
   ],
   "note": ""
  },
  {
   "property": "C50",
   "status": "proved",
   "theorems": [
    "Amazed.Rebin.C50_ngp",
    "Amazed.Rebin.C50_ngp_single_source",
    "Amazed.Rebin.C50_spline",
    "Amazed.Rebin.C50_spline_refuses",
    "Amazed.Rebin.C50_fine",
    "Amazed.Rebin.C50_fine_end_counterexample"
   ],
   "note": "The cubic spline is a parameter (GSL)."
  },
  {
   "property": "C51",
   "status": "proved",
   "theorems": [
    "Amazed.Flux.C51_accepted",
    "Amazed.Flux.C51_corrected"
   ],
   "note": ""
  },
  {
   "property": "C52",
   "status": "proved",
   "theorems": [
    "Amazed.Flux.C52_integrate",
    "Amazed.Flux.C52_refuses",
    "Amazed.Flux.C52_out_of_range"
   ],
   "note": ""
  },
  {
   "property": "C53",
   "status": "proved",
   "theorems": [
    "Amazed.MedCont.C53_amplitude",
    "Amazed.MedCont.C53_bounds",
    "Amazed.MedCont.C53_constant",
    "Amazed.MedCont.C53_small_window",
    "Amazed.MedCont.C53_refused",
    "Amazed.MedCont.C53_border_fits",
    "Amazed.MedCont.C53_scale",
    "Amazed.MedCont.C53_spectrum",
    "Amazed.MedCont.C53_spectrum_refused",
    "Amazed.MedCont.C53_median_window",
    "Amazed.MedCont.C53_mean_window",
    "Amazed.MedCont.C53_mirror",
    "Amazed.MedCont.C53_steps"
   ],
   "note": "The GSL weighted linear fit of the border is a parameter function. Mean amplitudes of 1 to 3 samples are undefined (C53_small_window)."
  },
  {
   "property": "C54",
   "status": "partial",
   "theorems": [
    "Amazed.TplCat.C54_orthogonalize",
    "Amazed.TplCat.C54_all",
    "Amazed.TplCat.C54_history_partial",
    "Amazed.TplCat.C54_rebin_first",
    "Amazed.TplCat.C54_rebin_again",
    "Amazed.TplCat.C54_rebin_fits",
    "Amazed.TplCat.C54_rebin_prefix",
    "Amazed.TplCat.C54_not_prefix",
    "Amazed.TplCat.C54_first_time_stale",
    "Amazed.TplCat.C54_same_name"
   ],
   "note": "Proved for every sequence of LSFs with fixed spectrum models, and for log samplings that redo a prefix of the templates. The full claim is false of the code: three counterexamples (non-first template log-sampled again, spectrum model orthogonalised for the first time with a new LSF, templates of the same name). Orthogonalisation of one template and resampling are parameters."
  },
  {
   "property": "C55",
   "status": "proved",
   "theorems": [
    "Amazed.Calzetti.C55_accept",
    "Amazed.Calzetti.C55_single_wavelength_ub",
    "Amazed.Calzetti.C55_curve",
    "Amazed.Calzetti.C55_nearest",
    "Amazed.Calzetti.C55_outside",
    "Amazed.Calzetti.C55_index_refused",
    "Amazed.Calzetti.C55_ebmv_index",
    "Amazed.Calzetti.C55_attenuates",
    "Amazed.Calzetti.C55_monotone",
    "Amazed.Calzetti.C55_negative_index",
    "Amazed.Calzetti.C55_size_mismatch"
   ],
   "note": "A negative dust index is not refused and the sizes of wavelengths and values are not compared (witnesses C55_negative_index, C55_size_mismatch); the last wavelength of the curve gets 1."
  },
  {
   "property": "C56",
   "status": "partial",
   "theorems": [
    "Amazed.Profile.C56_sym_deriv",
    "Amazed.Profile.C56_sym_shape",
    "Amazed.Profile.C56_sym_flux",
    "Amazed.Profile.C56_lor",
    "Amazed.Profile.C56_asym_deriv_sigma_partial",
    "Amazed.Profile.C56_asym_derivX0_wrong",
    "Amazed.Profile.C56_default_derivX0_wrong",
    "Amazed.Profile.C56_asym_refused",
    "Amazed.Profile.C56_asym_shape",
    "Amazed.Profile.C56_asym_flux",
    "Amazed.Profile.C56_asym_mean",
    "Amazed.Profile.C56_convert"
   ],
   "note": "The derivative of the asymmetric profile with respect to its centre is wrong in the code (proved: right iff alpha = 0); the other parts are proved. Over the reals, no rounding."
  },
  {
   "property": "C57",
   "status": "proved",
   "theorems": [
    "Amazed.Lsf.C57_make",
    "Amazed.Lsf.C57_variable",
    "Amazed.Lsf.C57_variable_outside",
    "Amazed.Lsf.C57_width_pos",
    "Amazed.Lsf.C57_resolution",
    "Amazed.Lsf.C57_kernel"
   ],
   "note": "Table of wavelengths assumed strictly increasing (not checked by the code)."
  },
  {
   "property": "C58",
   "status": "partial",
   "theorems": [
    "Amazed.Meiksin.C58_no_absorption",
    "Amazed.Meiksin.C58_correction_partial",
    "Amazed.Meiksin.C58_mean_bounds",
    "Amazed.Meiksin.C58_reconvolve_ignored",
    "Amazed.Meiksin.C58_not_convolved",
    "Amazed.Meiksin.C58_vector",
    "Amazed.Meiksin.C58_derivative",
    "Amazed.Meiksin.C58_zero_above_last_bin",
    "Amazed.Meiksin.goodLsf_library"
   ],
   "note": "Proved for the first convolution. False of the code: a second convolution (another spectrum) is ignored (C58_reconvolve_ignored) and samples outside the convolution range brought to rest get zero, also at observed wavelengths inside the range (C58_zero_above_last_bin)."
  },
  {
   "property": "C59",
   "status": "partial",
   "theorems": [
    "Amazed.SymIgm.C59_not_ready",
    "Amazed.SymIgm.C59_value",
    "Amazed.SymIgm.C59_deriv_sigma",
    "Amazed.SymIgm.C59_deriv_x0",
    "Amazed.SymIgm.C59_flux_above_partial",
    "Amazed.SymIgm.C59_flux_wrong"
   ],
   "note": "The flux below Lyman alpha is not the integral of the profile (C59_flux_wrong: transmission applied twice, factor 1+z missing); the rest is proved."
  },
  {
   "property": "C60",
   "status": "partial",
   "theorems": [
    "Amazed.LogRebin.C60_spectrum",
    "Amazed.LogRebin.C60_spectrum_border_refused",
    "Amazed.LogRebin.C60_spectrum_refused",
    "Amazed.LogRebin.C60_spectrum_log_refused",
    "Amazed.LogRebin.C60_zrange",
    "Amazed.LogRebin.C60_setup_never_fails",
    "Amazed.LogRebin.C60_template",
    "Amazed.LogRebin.C60_template_refused",
    "Amazed.LogRebin.C60_alignment",
    "Amazed.LogRebin.C60_alignment_log",
    "Amazed.LogRebin.C60_reuse_stable",
    "Amazed.LogRebin.C60_reuse_partial",
    "Amazed.LogRebin.C60_reuse_counterexample",
    "Amazed.LogRebin.C60_setup_other_step",
    "Amazed.LogRebin.C60_sizes"
   ],
   "note": "Everything but the reuse of resampled templates is proved in full; the alignment check of reused templates is one-sided, so misaligned templates are kept (counterexample). A spectrum or template less than half a step longer than the grid is refused (finding)."
  },
  {
   "property": "C61",
   "status": "proved",
   "theorems": [
    "Amazed.LogRebin.C61_recompute",
    "Amazed.LogRebin.C61_recompute_refused"
   ],
   "note": "Rounding errors up to 1/42 of the step; over the reals."
  },
  {
   "property": "C62",
   "status": "partial",
   "theorems": [
    "Amazed.RebinInputs.C62_in_order_partial",
    "Amazed.RebinInputs.C62_single_log",
    "Amazed.RebinInputs.C62_two_log_counterexample",
    "Amazed.RebinInputs.C62_mixed_counterexample",
    "Amazed.RebinInputs.C62_redshift_range_partial",
    "Amazed.RebinInputs.C62_stale_range"
   ],
   "note": "Proved for inputs without log-sampled spectra, for a single log-sampled spectrum and for a fresh context; false otherwise (three findings)."
  },
  {
   "property": "C63",
   "status": "proved",
   "theorems": [
    "Amazed.AirVac.C63_names",
    "Amazed.AirVac.C63_refused",
    "Amazed.AirVac.C63_vacToAir",
    "Amazed.AirVac.C63_airToVac",
    "Amazed.AirVac.C63_precision_missed",
    "Amazed.AirVac.C63_axis"
   ],
   "note": "The iterated inversion always stops after one iteration because the precision test uses the sign (C63_precision_missed)."
  },
  {
   "property": "C64",
   "status": "proved",
   "theorems": [
    "Amazed.TplFit.C64_fit",
    "Amazed.TplFit.C64_positive"
   ],
   "note": "Over a linearly ordered field with a square root; no rounding."
  },
  {
   "property": "C65",
   "status": "partial",
   "theorems": [
    "Amazed.TplFit.C65_fit_partial",
    "Amazed.TplFit.C65_total_partial",
    "Amazed.TplFit.C65_fast_counterexample",
    "Amazed.TplFit.C65_igm_out_of_range_counterexample",
    "Amazed.TplFit.C65_prior_without_dust_counterexample",
    "Amazed.TplFit.C65_igm_range"
   ],
   "note": "Proved for every input when, with several IGM curves, the fit ranges end above the IGM range. False of the code otherwise (sums counted twice, proved); the fit also throws with several IGM curves, no dust fit and a range above Lyman alpha, and reads prior -1 with priors and no dust fit. Photometric terms are not modelled."
  },
  {
   "property": "C66",
   "status": "proved",
   "theorems": [
    "Amazed.Classify.C66_classify",
    "Amazed.Classify.C66_none",
    "Amazed.Classify.C66_missing",
    "Amazed.Classify.C66_nan_counterexample"
   ],
   "note": "a NaN evidence makes every probability NaN without error (C66_nan_counterexample)"
  },
  {
   "property": "C67",
   "status": "proved",
   "theorems": [
    "Amazed.Amp.C67_set",
    "Amazed.Amp.C67_set_nan",
    "Amazed.Amp.C67_get_set",
    "Amazed.Amp.C67_limit_below",
    "Amazed.Amp.C67_limit_above",
    "Amazed.Amp.C67_allNull",
    "Amazed.Amp.C67_limit_zero_nominal_counterexample"
   ],
   "note": "counterexample: a line of zero nominal amplitude limited below zero makes the whole element NaN"
  },
  {
   "property": "C68",
   "status": "proved",
   "theorems": [
    "Amazed.Rules.C68_find",
    "Amazed.Rules.C68_two",
    "Amazed.Rules.C68_two_skip",
    "Amazed.Rules.C68_ratio_in_range",
    "Amazed.Rules.C68_ratio_first_high",
    "Amazed.Rules.C68_ratio_second_high",
    "Amazed.Rules.C68_ratio_between",
    "Amazed.Rules.C68_ratio_idempotent",
    "Amazed.Rules.C68_ratio_null_errors_counterexample"
   ],
   "note": "idempotence for single lines of nominal amplitude one; with two null errors the rule makes the amplitudes NaN (counterexample)"
  },
  {
   "property": "C69",
   "status": "proved",
   "theorems": [
    "Amazed.Rules.C69_no_strong",
    "Amazed.Rules.C69_strong_weak",
    "Amazed.Rules.C69_nan_error",
    "Amazed.Rules.C69_super_strong"
   ],
   "note": "for elements whose amplitudes are as left by the fit (Fitted)"
  },
  {
   "property": "C70",
   "status": "proved",
   "theorems": [
    "Amazed.Rules.C70_only_amplitudes",
    "Amazed.Rules.C70_apply_only_amplitudes",
    "Amazed.Rules.C70_apply_enabled",
    "Amazed.Rules.C70_apply_append",
    "Amazed.Rules.C70_selection",
    "Amazed.Rules.C70_no",
    "Amazed.Rules.C70_balmer_absorption_counterexample",
    "Amazed.Rules.C70_twice_counterexample"
   ],
   "note": "the Balmer rules for absorption never touch absorption lines; setting the option twice doubles the rules"
  },
  {
   "property": "C71",
   "status": "partial",
   "theorems": [
    "Amazed.EltSup.C71_theoretical",
    "Amazed.EltSup.C71_in_range",
    "Amazed.EltSup.C71_groups",
    "Amazed.EltSup.C71_coverage",
    "Amazed.EltSup.C71_separated_partial",
    "Amazed.EltSup.C71_shared_sample_counterexample",
    "Amazed.EltSup.C71_line_before_range_counterexample",
    "Amazed.EltSup.C71_line_after_axis_counterexample"
   ],
   "note": "Separation proved for up to 21 lines per element (the code stops after 20 passes); supports can share an end sample and lines outside the range can count as inside with a coarse sampling (counterexamples)."
  },
  {
   "property": "C72",
   "status": "partial",
   "theorems": [
    "Amazed.EltSup.C72_add_model",
    "Amazed.EltSup.C72_init_model",
    "Amazed.EltSup.C72_deriv_vel_partial",
    "Amazed.EltSup.C72_deriv_vel_counterexample"
   ],
   "note": "The derivative with respect to the velocity misses merged lines (counterexample); model and initialisation are proved in full."
  },
  {
   "property": "C73",
   "status": "proved",
   "theorems": [
    "Amazed.FitAmp.C73_fit",
    "Amazed.FitAmp.C73_merit",
    "Amazed.FitAmp.C73_offset",
    "Amazed.FitAmp.C73_outside",
    "Amazed.FitAmp.C73_shared_sample_counterexample"
   ],
   "note": "optimality is about the same flux model as C72; the hypothesis that no sample is shared is needed: two adjacent supports left by prepareSupport share their end sample and the fit returns 4/3 for a spectrum equal to the model of amplitude 1"
  },
  {
   "property": "C74",
   "status": "proved",
   "theorems": [
    "Amazed.EltList.C74_support",
    "Amazed.EltList.C74_groups",
    "Amazed.EltList.C74_offset",
    "Amazed.EltList.C74_empty_list_counterexample"
   ],
   "note": "An empty list standing for all elements is shown by the counterexample theorem."
  },
  {
   "property": "C75",
   "status": "proved",
   "theorems": [
    "Amazed.EltList.C75_overlap",
    "Amazed.EltList.C75_hybrid",
    "Amazed.EltList.C75_chain_counterexample",
    "Amazed.EltList.C75_asymmetric_counterexample",
    "Amazed.EltList.C75_disabled_counterexample"
   ],
   "note": "The counterexamples show that overlapping elements can end in different groups, that the overlap is not symmetric and that disabled elements are fitted when they overlap another one."
  },
  {
   "property": "C76",
   "status": "proved",
   "theorems": [
    "Amazed.EltList.C76_velocity_groups",
    "Amazed.EltList.C76_duplicate_counterexample"
   ],
   "note": "The loop of the code meant to remove duplicates has no effect (counterexample)."
  },
  {
   "property": "C77",
   "status": "proved",
   "theorems": [
    "Amazed.SvdFit.C77_least_squares",
    "Amazed.SvdFit.C77_positive",
    "Amazed.SvdFit.exact_exists",
    "Amazed.SvdFit.C77_truncation_counterexample",
    "Amazed.SvdFit.C77_norm"
   ],
   "note": "gsl_multifit_wlinear is a parameter; the joint model minimised differs from the truncated flux model (counterexample)."
  },
  {
   "property": "C78",
   "status": "proved",
   "theorems": [
    "Amazed.LineCat.C78_catalogue",
    "Amazed.LineCat.C78_filtered",
    "Amazed.LineCat.C78_groups",
    "Amazed.LineCat.C78_load",
    "Amazed.LineCat.C78_one_line",
    "Amazed.LineCat.C78_two",
    "Amazed.LineCat.C78_find",
    "Amazed.LineCat.C78_load_find",
    "Amazed.LineCat.C78_single_counterexample",
    "Amazed.LineCat.C78_mixed_counterexample",
    "Amazed.LineCat.C78_no_type_counterexample",
    "Amazed.LineCat.C78_type",
    "Amazed.LineCat.C78_force"
   ],
   "note": "The stated exceptions are the three counterexamples."
  },
  {
   "property": "C79",
   "status": "proved",
   "theorems": [
    "Amazed.LineCat.C79_set_amplitude",
    "Amazed.LineCat.C79_new",
    "Amazed.LineCat.C79_velocities"
   ],
   "note": ""
  },
  {
   "property": "C80",
   "status": "proved",
   "theorems": [
    "Amazed.SpcIndex.C80_visit",
    "Amazed.SpcIndex.C80_break",
    "Amazed.SpcIndex.C80_nested_counterexample",
    "Amazed.SpcIndex.C80_flags",
    "Amazed.SpcIndex.C80_flags_lines",
    "Amazed.SpcIndex.C80_nddl",
    "Amazed.SpcIndex.C80_stale_counterexample"
   ],
   "note": ""
  },
  {
   "property": "C81",
   "status": "proved",
   "theorems": [
    "Amazed.SpcModel.C81_refresh",
    "Amazed.SpcModel.C81_refresh_under",
    "Amazed.SpcModel.C81_under_eq_full",
    "Amazed.SpcModel.C81_get_model",
    "Amazed.SpcModel.C81_overlap_counterexample",
    "Amazed.SpcModel.C81_offset_counterexample",
    "Amazed.SpcModel.C81_get_model_counterexample"
   ],
   "note": "The stated exceptions are the counterexamples."
  },
  {
   "property": "C82",
   "status": "proved",
   "theorems": [
    "Amazed.SpcModel.C82_weight",
    "Amazed.SpcModel.C82_removed",
    "Amazed.SpcModel.C82_all_counterexample",
    "Amazed.SpcModel.C82_state_counterexample"
   ],
   "note": "The stated exceptions are the counterexamples."
  },
  {
   "property": "C83",
   "status": "proved",
   "theorems": [
    "Amazed.SpcModel.C83_squared_residual",
    "Amazed.SpcModel.C83_no_element",
    "Amazed.SpcModel.C83_rms",
    "Amazed.SpcModel.C83_rms_all",
    "Amazed.SpcModel.C83_zero_counterexample",
    "Amazed.SpcModel.C83_without_continuum_counterexample",
    "Amazed.SpcModel.C83_weights_one",
    "Amazed.SpcModel.C83_continuum"
   ],
   "note": "The square root is a parameter."
  },
  {
   "property": "C84",
   "status": "proved",
   "theorems": [
    "Amazed.Merit.C84_merits",
    "Amazed.Merit.C84_samples_exist",
    "Amazed.Merit.C84_expansion",
    "Amazed.Merit.C84_least_square_zero",
    "Amazed.Merit.C84_n_samples",
    "Amazed.Merit.C84_constant",
    "Amazed.Merit.C84_samples",
    "Amazed.Merit.C84_last_sample_counterexample",
    "Amazed.Merit.C84_stale_cache_counterexample"
   ],
   "note": "The logarithm is a parameter."
  },
  {
   "property": "C85",
   "status": "proved",
   "theorems": [
    "Amazed.Merit.C85_merge",
    "Amazed.Merit.C85_merge_sorted",
    "Amazed.Merit.C85_merge_counterexample",
    "Amazed.Merit.C85_snr_range",
    "Amazed.Merit.C85_cumul",
    "Amazed.Merit.C85_double_count_counterexample",
    "Amazed.Merit.C85_weighted_sum",
    "Amazed.Merit.C85_mean_continuum",
    "Amazed.Merit.C85_mean_continuum_outside"
   ],
   "note": "The square root is a parameter."
  },
  {
   "property": "C86",
   "status": "proved",
   "theorems": [
    "Amazed.LmSearch.C86_offsets",
    "Amazed.LmSearch.C86_offsets_whole",
    "Amazed.LmSearch.C86_offset_search",
    "Amazed.LmSearch.C86_profile_values",
    "Amazed.LmSearch.C86_over_maximum_counterexample",
    "Amazed.LmSearch.C86_asym",
    "Amazed.LmSearch.C86_igm",
    "Amazed.LmSearch.C86_joint_fit",
    "Amazed.LmSearch.C86_joint_offset_counterexample",
    "Amazed.LmSearch.C86_individual",
    "Amazed.LmSearch.C86_hybrid",
    "Amazed.LmSearch.C86_balmer_counterexample"
   ],
   "note": "In the profile searches the merit of a parameter is a parameter of the model."
  },
  {
   "property": "C87",
   "status": "partial",
   "theorems": [
    "Amazed.FitStore.C87_content",
    "Amazed.FitStore.C87_unknown",
    "Amazed.FitStore.C87_upper_bound_precondition",
    "Amazed.FitStore.C87_lookup_index_partial",
    "Amazed.FitStore.C87_lookup_redshift",
    "Amazed.FitStore.C87_max",
    "Amazed.FitStore.C87_uneven_counterexample",
    "Amazed.FitStore.C87_small_grid_counterexample",
    "Amazed.FitStore.C87_lookup_rank"
   ],
   "note": "Content, order, count, errors of Add and the maximum proved for every history. Lookups proved exactly, but false of the code in two cases (uneven numbers of candidates; grid of fewer than ten redshifts): out of bounds reads, proved."
  },
  {
   "property": "C88",
   "status": "proved",
   "theorems": [
    "Amazed.Polynom.C88_value",
    "Amazed.Polynom.C88_coeffs",
    "Amazed.Polynom.C88_set_get",
    "Amazed.Polynom.C88_get_set",
    "Amazed.Polynom.C88_gradient",
    "Amazed.Polynom.C88_of_list"
   ],
   "note": ""
  },
  {
   "property": "C89",
   "status": "proved",
   "theorems": [
    "Amazed.Phot.C89_construction",
    "Amazed.Phot.C89_integration",
    "Amazed.Phot.C89_linear",
    "Amazed.Phot.C89_flat",
    "Amazed.Phot.C89_mean",
    "Amazed.Phot.C89_one_sample",
    "Amazed.Phot.C89_catalogue"
   ],
   "note": "One sample bands have no defined flux (proved)."
  },
  {
   "property": "C90",
   "status": "partial",
   "theorems": [
    "Amazed.Phot.C90_data",
    "Amazed.Phot.C90_checks",
    "Amazed.Phot.C90_sums",
    "Amazed.Phot.C90_next_partial",
    "Amazed.Phot.C90_counted_twice",
    "Amazed.Phot.C90_chi2",
    "Amazed.Phot.C90_bands_sorted",
    "Amazed.Phot.C90_twice_counterexample"
   ],
   "note": "Proved in full when some band is out of the IGM range; false of the code otherwise (photometry counted twice, proved)."
  },
  {
   "property": "C91",
   "status": "partial",
   "theorems": [
    "Amazed.Phot.C91_value_partial",
    "Amazed.Phot.C91_wrong_sign"
   ],
   "note": "Exact value proved; the claim is false of the code unless the product of the errors is 1 (proved)."
  },
  {
   "property": "C92",
   "status": "partial",
   "theorems": [
    "Amazed.Phot.C92_integrated",
    "Amazed.Phot.C92_model_partial",
    "Amazed.Phot.C92_amplitude_counterexample"
   ],
   "note": "Exact behaviour proved; the claim is false of the code unless the amplitude is 1 (proved)."
  },
  {
   "property": "C93",
   "status": "partial",
   "theorems": [
    "Amazed.TplRatio.C93_best_partial",
    "Amazed.TplRatio.C93_tables",
    "Amazed.TplRatio.C93_consistent",
    "Amazed.TplRatio.C93_infinite",
    "Amazed.TplRatio.C93_prior_counterexample",
    "Amazed.TplRatio.C93_mixed_counterexample",
    "Amazed.TplRatio.C93_rules_counterexample"
   ],
   "note": "Proved for ratio catalogs without a prior on the lines (best, tables, consistency). False of the code with priors (never added to the compared merit; continuum of one fit with amplitudes of another) and for the rules type with several continua (elements of the last continuum): counterexamples proved."
  },
  {
   "property": "C94",
   "status": "partial",
   "theorems": [
    "Amazed.TplRatio.C94_keep",
    "Amazed.TplRatio.C94_keep_none",
    "Amazed.TplRatio.C94_restore_partial",
    "Amazed.TplRatio.C94_null_counterexample",
    "Amazed.TplRatio.C94_capped_counterexample"
   ],
   "note": "Proved for a positive amplitude without capped absorption lines. False for a null amplitude (error lost) and capped lines: counterexamples proved."
  },
  {
   "property": "C95",
   "status": "proved",
   "theorems": [
    "Amazed.TplRatio.C95_amplitudes",
    "Amazed.TplRatio.C95_missing"
   ],
   "note": ""
  },
  {
   "property": "C96",
   "status": "partial",
   "theorems": [
    "Amazed.TplRatio.C96_least_squares",
    "Amazed.TplRatio.C96_best_partial",
    "Amazed.TplRatio.C96_out_of_bounds_counterexample",
    "Amazed.TplRatio.C96_exact_counterexample",
    "Amazed.TplCorr.C96_tplcorr_never_returns_partial",
    "Amazed.TplCorr.C96_tplcorr_undefined_partial",
    "Amazed.TplCorr.C96_tplcorr_ratio"
   ],
   "note": "Least squares and choice of the catalog proved; the result is false of the code: the vector of corrected amplitudes is cleared and then written out of bounds in every successful case, and an exact catalog is refused."
  },
  {
   "property": "C97",
   "status": "proved",
   "theorems": [
    "Amazed.LmResult.C97_refine",
    "Amazed.LmResult.C97_refine_total",
    "Amazed.LmResult.C97_init",
    "Amazed.LmResult.C97_init_stale"
   ],
   "note": "C97_init_stale: the exception"
  },
  {
   "property": "C98",
   "status": "partial",
   "theorems": [
    "Amazed.LmResult.C98_windows_found_partial",
    "Amazed.LmResult.C98_overlap_counterexample"
   ],
   "note": "proved for windows that do not meet; the full statement is false (counterexample proved)"
  },
  {
   "property": "C99",
   "status": "proved",
   "theorems": [
    "Amazed.SecondPass.C99_window_linear",
    "Amazed.SecondPass.C99_windows",
    "Amazed.SecondPass.C99_refine",
    "Amazed.SecondPass.C99_window_log"
   ],
   "note": ""
  }
 ]
}