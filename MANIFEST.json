{
 "claims": [
  {
   "property": "C01",
   "status": "proved",
   "theorems": [
    "Reliability.Convert.C01_FR_FNRN_FR_roundtrip"
   ],
   "note": ""
  },
  {
   "property": "C02",
   "status": "partial",
   "theorems": [
    "Reliability.Convert.C02_FR_XCN_FR_roundtrip",
    "Reliability.Convert.C02_custom_codes_partial",
    "Reliability.Convert.C02_mixed_codes_counterexample"
   ],
   "note": "Round trip proved for the default codes, and for custom codes that are both strings / both numbers and not confusable; false for mixed codes (proved counterexample: np.hstack stringifies)."
  },
  {
   "property": "C03",
   "status": "proved",
   "theorems": [
    "Reliability.Convert.C03_FNRN_is_histogram"
   ],
   "note": ""
  },
  {
   "property": "C04",
   "status": "proved",
   "theorems": [
    "Reliability.Convert.C04_FNRN_XCN_FNRN_roundtrip"
   ],
   "note": ""
  },
  {
   "property": "C05",
   "status": "proved",
   "theorems": [
    "Reliability.Convert.C05_XCN_to_FR_spec",
    "Reliability.Convert.C05_sides_disjoint",
    "Reliability.Convert.C05_default_N"
   ],
   "note": ""
  },
  {
   "property": "C06",
   "status": "proved",
   "theorems": [
    "Reliability.Convert.C06_row_order_irrelevant"
   ],
   "note": ""
  },
  {
   "property": "C07",
   "status": "partial",
   "theorems": [
    "Reliability.Convert.C07_xlsx_to_XCN_partial",
    "Reliability.Convert.C07_custom_codes_swap",
    "Reliability.Convert.C07_custom_codes_raise"
   ],
   "note": "Proved when the output codes are the defaults; false for custom output codes (proved: swap, and ValueError)."
  },
  {
   "property": "C08",
   "status": "proved",
   "theorems": [
    "Reliability.PP.C08_adjusted_rank_estimator",
    "Reliability.PP.C08_rank_recursion",
    "Reliability.PP.C08_errors"
   ],
   "note": ""
  },
  {
   "property": "C09",
   "status": "proved",
   "theorems": [
    "Reliability.PP.C09_strictly_increasing_probabilities"
   ],
   "note": ""
  },
  {
   "property": "C10",
   "status": "proved",
   "theorems": [
    "Reliability.PP.C10_complete_data"
   ],
   "note": ""
  },
  {
   "property": "C11",
   "status": "proved",
   "theorems": [
    "Reliability.PP.C11_sort_option"
   ],
   "note": ""
  },
  {
   "property": "C12",
   "status": "proved",
   "theorems": [
    "Reliability.NP.C12_accepts",
    "Reliability.NP.C12_accepts_iff",
    "Reliability.NP.C12_survival_curve"
   ],
   "note": ""
  },
  {
   "property": "C13",
   "status": "partial",
   "theorems": [
    "Reliability.NP.C13_product_limit",
    "Reliability.NP.C13_product_limit_stable",
    "Reliability.NP.C13_unstable_sort_counterexample"
   ],
   "note": "Product-limit proved for every tie order that lists failures first (in particular every stable sort); false for an arbitrary (unstable) tie order, proved counterexample."
  },
  {
   "property": "C14",
   "status": "proved",
   "theorems": [
    "Reliability.NP.C14_complete_data",
    "Reliability.NP.C14_zero_iff_last_failure"
   ],
   "note": ""
  },
  {
   "property": "C15",
   "status": "proved",
   "theorems": [
    "Reliability.NP.C15_bounds_bracket",
    "Reliability.NP.C15_greenwood_formula",
    "Reliability.NP.C15_greenwood_sum_monotone"
   ],
   "note": ""
  },
  {
   "property": "C16",
   "status": "proved",
   "theorems": [
    "Reliability.NP.C16_nelson_aalen",
    "Reliability.NP.C16_hazard_monotone",
    "Reliability.NP.C16_nelson_aalen_ge_kaplan_meier",
    "Reliability.NP.C16_bounds_bracket",
    "Reliability.NP.C16_CI_zero_gives_nan"
   ],
   "note": "The CI=0 corner (bounds are nan) is proved separately as a finding."
  },
  {
   "property": "C17",
   "status": "proved",
   "theorems": [
    "Reliability.NP.C17_rank_adjustment",
    "Reliability.NP.C17_uses_plotting_positions",
    "Reliability.NP.C17_bounds_bracket"
   ],
   "note": ""
  },
  {
   "property": "C18",
   "status": "partial",
   "theorems": [
    "Reliability.NP.C18_KM_arrays_aligned",
    "Reliability.NP.C18_NA_arrays_aligned",
    "Reliability.NP.C18_RA_arrays_aligned",
    "Reliability.NP.C18_KM_step_bounds_partial",
    "Reliability.NP.C18_KM_step_curve",
    "Reliability.NP.C18_last_lower_bound_counterexample",
    "Reliability.NP.C18_KM_staircase",
    "Reliability.NP.C18_NA_staircase",
    "Reliability.NP.C18_RA_staircase",
    "Reliability.NP.C18_CHF"
   ],
   "note": "Alignment and complementarity proved for all three estimators. The extra step-bound claim (SF_lower<=SF<=SF_upper) holds at every index except possibly the last (proved counterexample)."
  },
  {
   "property": "C19",
   "status": "proved",
   "theorems": [
    "Reliability.MCF.C19_mcf_is_sum_of_reciprocals",
    "Reliability.MCF.C19_accepts_iff",
    "Reliability.MCF.C19_mcf_increasing"
   ],
   "note": ""
  },
  {
   "property": "C20",
   "status": "proved",
   "theorems": [
    "Reliability.MCF.C20_order_irrelevant",
    "Reliability.MCF.C20_list_of_lists",
    "Reliability.MCF.C20_single_system"
   ],
   "note": ""
  },
  {
   "property": "C21",
   "status": "partial",
   "theorems": [
    "Reliability.MCF.C21_variance_nonneg",
    "Reliability.MCF.C21_bounds_bracket_partial",
    "Reliability.MCF.C21_inverted_below_half"
   ],
   "note": "Variance >= 0 and 0<lower<=MCF<=upper proved for CI>=0.5; for CI<0.5 the code's Z=-ppf(1-CI) is negative and the bounds are proved to come out inverted."
  },
  {
   "property": "C22",
   "status": "partial",
   "theorems": [
    "Reliability.MCF.C22_caller_lists_sorted",
    "Reliability.MCF.C22_untouched_iff_sorted_partial",
    "Reliability.MCF.C22_counterexample",
    "Reliability.MCF.C22_array1_rejected"
   ],
   "note": "False as stated (proved counterexample: caller's lists are sorted in place). Proved exactly when it holds: already-sorted systems, or numpy input."
  },
  {
   "property": "C23",
   "status": "proved",
   "theorems": [
    "Reliability.Repairable.C23_crow_demonstrated",
    "Reliability.Repairable.C23_crow_time_to_target",
    "Reliability.Repairable.C23_duane",
    "Reliability.Repairable.C23_duane_exact",
    "Reliability.Repairable.C23_order_irrelevant",
    "Reliability.Repairable.C23_model_choice",
    "Reliability.Repairable.C23_rejects_iff"
   ],
   "note": ""
  },
  {
   "property": "C24",
   "status": "proved",
   "theorems": [
    "Reliability.Repairable.C24_as_good_as_old",
    "Reliability.Repairable.C24_as_good_as_new",
    "Reliability.Repairable.C24_rejects_iff",
    "Reliability.Repairable.C24_cost_roles_finding"
   ],
   "note": "Proved for the cost curve the code uses. Finding (proved): the q=1 curve charges cost_PM per failure and cost_CM per replacement, so under the usual minimal-repair model the answer is never optimal when PM<CM."
  },
  {
   "property": "C25",
   "status": "proved",
   "theorems": [
    "Reliability.Repairable.C25_same_analysis",
    "Reliability.Repairable.C25_failure_times",
    "Reliability.Repairable.C25_no_data",
    "Reliability.Repairable.C25_rejects"
   ],
   "note": ""
  },
  {
   "property": "C26",
   "status": "partial",
   "theorems": [
    "Reliability.Repairable.C26_trend_iff",
    "Reliability.Repairable.C26_unit_invariant",
    "Reliability.Repairable.C26_constant_rate_partial",
    "Reliability.Repairable.C26_constant_time_terminated"
   ],
   "note": "Trend decision, Laplace statistic and unit invariance proved in full. The constant-ROCOF value is failures/total time for failure-terminated tests; proved false (too large) when test_end is given."
  },
  {
   "property": "C27",
   "status": "proved",
   "theorems": [
    "Reliability.Testing.C27_least_sample_size",
    "Reliability.Testing.C27_rejects_iff"
   ],
   "note": ""
  },
  {
   "property": "C28",
   "status": "proved",
   "theorems": [
    "Reliability.Testing.C28_MTBF",
    "Reliability.Testing.C28_duration",
    "Reliability.Testing.C28_CI",
    "Reliability.Testing.C28_failures",
    "Reliability.Testing.C28_round_trip",
    "Reliability.Testing.C28_arguments",
    "Reliability.Testing.C28_failure_terminated_finding"
   ],
   "note": "Proved for every chi-squared family with the listed laws (Chi2.Law; a concrete family satisfying them is given). number_of_failures mode for time-terminated tests; for failure-terminated tests a finding is proved (chi2 with 0 dof is nan, the impossibility check never fires)."
  },
  {
   "property": "C29",
   "status": "partial",
   "theorems": [
    "Reliability.Testing.C29_clopper_pearson",
    "Reliability.Testing.C29_no_successes",
    "Reliability.Testing.C29_all_successes",
    "Reliability.Testing.C29_two_proportion_wald",
    "Reliability.Testing.C29_one_sample_bounds",
    "Reliability.Testing.C29_one_sample_rejects",
    "Reliability.Testing.C29_two_proportion_swap",
    "Reliability.Testing.C29_two_proportion_verdict_partial",
    "Reliability.Testing.C29_two_proportion_perfect_finding"
   ],
   "note": "Bounds, edges, rejection and swap symmetry proved. The verdict is 'significant' iff 0 is not strictly inside the interval; with 0 on the boundary (e.g. two perfect samples, interval [0,0]) it says significant although 0 is in the closed interval (proved)."
  },
  {
   "property": "C30",
   "status": "proved",
   "theorems": [
    "Reliability.Testing.C30_is_sprt",
    "Reliability.Testing.C30_no_overlap",
    "Reliability.Testing.C30_monotone",
    "Reliability.Testing.C30_overlap_finding"
   ],
   "note": "Proved for p1<p2 and alpha+beta<1, including that the table is exactly Wald's SPRT; the code checks neither, and an overlap is proved without them."
  },
  {
   "property": "C31",
   "status": "proved",
   "theorems": [
    "Reliability.Testing.C31_duration",
    "Reliability.Testing.C31_risk_not_met_finding",
    "Reliability.Testing.C31_failure_terminated_finding",
    "Reliability.Testing.C31_rejects"
   ],
   "note": "For every chi2/cdf functions and counts up to the code's cap of 1e10. Findings proved: the answered test's producer's risk is not below the level; failure-terminated plans can answer nan."
  },
  {
   "property": "C32",
   "status": "proved",
   "theorems": [
    "Reliability.Testing.C32_statistic",
    "Reliability.Testing.C32_verdict",
    "Reliability.Testing.C32_answers"
   ],
   "note": ""
  },
  {
   "property": "C33",
   "status": "proved",
   "theorems": [
    "Reliability.Props.Distributions.C33_weibull",
    "Reliability.Props.Distributions.C33_exponential",
    "Reliability.Props.Distributions.C33_loglogistic",
    "Reliability.Props.Distributions.C33_gumbel",
    "Reliability.Props.Distributions.C33_normal",
    "Reliability.Props.Distributions.C33_lognormal",
    "Reliability.Props.Distributions.C33_gamma",
    "Reliability.Props.Distributions.C33_beta",
    "Reliability.Props.Distributions.C33_vectors"
   ],
   "note": ""
  },
  {
   "property": "C34",
   "status": "proved",
   "theorems": [
    "Reliability.Props.Distributions.C34_weibull",
    "Reliability.Props.Distributions.C34_exponential",
    "Reliability.Props.Distributions.C34_loglogistic",
    "Reliability.Props.Distributions.C34_gumbel",
    "Reliability.Props.Distributions.C34_normal",
    "Reliability.Props.Distributions.C34_lognormal",
    "Reliability.Props.Distributions.C34_gamma",
    "Reliability.Props.Distributions.C34_beta",
    "Reliability.Props.Distributions.C34_quantile_vectors",
    "Reliability.Props.Distributions.C34_support_ends",
    "Reliability.Props.Distributions.C34_inverse_sf"
   ],
   "note": ""
  },
  {
   "property": "C35",
   "status": "proved",
   "theorems": [
    "Reliability.Props.Distributions.C35_weibull",
    "Reliability.Props.Distributions.C35_exponential",
    "Reliability.Props.Distributions.C35_loglogistic",
    "Reliability.Props.Distributions.C35_gumbel",
    "Reliability.Props.Distributions.C35_normal",
    "Reliability.Props.Distributions.C35_lognormal",
    "Reliability.Props.Distributions.C35_gamma",
    "Reliability.Props.Distributions.C35_beta",
    "Reliability.Props.Distributions.C35_vectors",
    "Reliability.Props.Distributions.C35_scalar_shift_finding",
    "Reliability.Props.Distributions.C35_scalar_negative_finding"
   ],
   "note": ""
  },
  {
   "property": "C36",
   "status": "proved",
   "theorems": [
    "Reliability.Props.Distributions.C36_weibull",
    "Reliability.Props.Distributions.C36_exponential",
    "Reliability.Props.Distributions.C36_loglogistic",
    "Reliability.Props.Distributions.C36_gumbel",
    "Reliability.Props.Distributions.C36_normal",
    "Reliability.Props.Distributions.C36_lognormal",
    "Reliability.Props.Distributions.C36_gamma",
    "Reliability.Props.Distributions.C36_beta",
    "Reliability.Props.Distributions.C36_shape_below_one"
   ],
   "note": ""
  },
  {
   "property": "C37",
   "status": "proved",
   "theorems": [
    "Reliability.Props.Combined.C37_sf_product",
    "Reliability.Props.Combined.C37_hazard_sum",
    "Reliability.Props.Combined.C37_order",
    "Reliability.Props.Combined.C37_accepts"
   ],
   "note": "For ascending xvals and components as the library creates them (no mass before 0 unless Normal/Gumbel; gamma >= 0)."
  },
  {
   "property": "C38",
   "status": "partial",
   "theorems": [
    "Reliability.Props.Combined.C38_proportions",
    "Reliability.Props.Combined.C38_mixture",
    "Reliability.Props.Combined.C38_density",
    "Reliability.Props.Combined.C38_negative_finding",
    "Reliability.Props.Combined.C38_accepts"
   ],
   "note": "Weighted sums, equal default weights and ValueErrors proved; 'CDF between the smallest and largest component CDF' proved for non-negative proportions, and proved false otherwise (negative proportions are accepted)."
  },
  {
   "property": "C39",
   "status": "partial",
   "theorems": [
    "Reliability.Props.Combined.C39_aligned",
    "Reliability.Props.Combined.C39_misaligned_finding",
    "Reliability.Props.Combined.C39_all_negative_finding",
    "Reliability.Props.Combined.C39_beta_finding"
   ],
   "note": "Proved for every ascending xvals; proved false for xvals with a non-negative value before a negative one, and the errors for all-negative xvals and Beta components are proved as findings."
  },
  {
   "property": "C40",
   "status": "partial",
   "theorems": [
    "Reliability.Props.DSZI.C40_init",
    "Reliability.Props.DSZI.C40_cdf",
    "Reliability.Props.DSZI.C40_functions",
    "Reliability.Props.DSZI.C40_base",
    "Reliability.Props.DSZI.C40_quantile",
    "Reliability.Props.DSZI.C40_quantile_grid",
    "Reliability.Props.DSZI.C40_quantile_list_finding",
    "Reliability.Props.DSZI.C40_mrl",
    "Reliability.Props.DSZI.C40_samples",
    "Reliability.Props.DSZI.C40_samples_finding",
    "Reliability.Props.DSZI.C40_median_finding"
   ],
   "note": "All parts proved for scalar quantiles; findings proved: a list of quantiles is not checked against [ZI,DS]; random_samples raises ValueError if no draw is a failure; median attribute is the base's."
  },
  {
   "property": "C41",
   "status": "proved",
   "theorems": [
    "Reliability.Props.Likelihood.C41_weibull_2P",
    "Reliability.Props.Likelihood.C41_weibull_3P",
    "Reliability.Props.Likelihood.C41_exponential_2P",
    "Reliability.Props.Likelihood.C41_exponential_2P_inv",
    "Reliability.Props.Likelihood.C41_exponential_1P",
    "Reliability.Props.Likelihood.C41_exponential_2P_finding",
    "Reliability.Props.Likelihood.C41_gumbel_2P",
    "Reliability.Props.Likelihood.C41_loglogistic",
    "Reliability.Props.Likelihood.C41_normal_2P",
    "Reliability.Props.Likelihood.C41_lognormal",
    "Reliability.Props.Likelihood.C41_gamma",
    "Reliability.Props.Likelihood.C41_gamma_mu",
    "Reliability.Props.Likelihood.C41_beta_2P",
    "Reliability.Props.Likelihood.C41_weibull_mixture",
    "Reliability.Props.Likelihood.C41_weibull_CR",
    "Reliability.Props.Likelihood.C41_weibull_DSZI",
    "Reliability.Props.Likelihood.C41_weibull_ZI",
    "Reliability.Props.Likelihood.C41_weibull_DS",
    "Reliability.Props.Likelihood.C41_DSZI_zeros_finding"
   ],
   "note": ""
  },
  {
   "property": "C42",
   "status": "proved",
   "theorems": [
    "Reliability.Props.Likelihood.C42_grouped"
   ],
   "note": ""
  },
  {
   "property": "C43",
   "status": "proved",
   "theorems": [
    "Reliability.Props.C43_values",
    "Reliability.Props.C43_forced",
    "Reliability.Props.C43_fewer_parameters"
   ],
   "note": ""
  },
  {
   "property": "C44",
   "status": "proved",
   "theorems": [
    "Reliability.Props.C44_contents",
    "Reliability.Props.C44_sorted",
    "Reliability.Props.C44_errors",
    "Reliability.Props.C44_AICC_finding"
   ],
   "note": "Argsort is an arbitrary (unstable) oracle. Corner: sort_by='AICC' (upper case) with mixed 'Insufficient data' raises TypeError (proved finding). NaN criteria not modelled."
  },
  {
   "property": "C45",
   "status": "partial",
   "theorems": [
    "Reliability.Props.C45_loglik_partial",
    "Reliability.Props.C45_positive_loglik_finding"
   ],
   "note": "Proved when no log-likelihood is positive; false otherwise (proved counterexample: sorted by absolute value)."
  },
  {
   "property": "C46",
   "status": "partial",
   "theorems": [
    "Reliability.Props.C46_exclude_unchanged_partial",
    "Reliability.Props.C46_exclude_mutated_finding"
   ],
   "note": "False for a list with fewer than 3 failures (proved: the caller's list grows by six names). Proved unchanged in all other cases."
  },
  {
   "property": "C47",
   "status": "partial",
   "theorems": [
    "Reliability.Props.C47_loop_terminates",
    "Reliability.Props.C47_default_first_success",
    "Reliability.Props.C47_best_of_successes",
    "Reliability.Props.C47_all_fail",
    "Reliability.Props.C47_optimizers",
    "Reliability.Props.C47_best_is_most_likely_partial",
    "Reliability.Props.C47_positive_loglik_finding",
    "Reliability.Props.C47_forced_shape"
   ],
   "note": "Loop termination, success and reporting proved for every optimiser behaviour; 'no smaller negative log-likelihood' proved for non-positive log-likelihoods, false otherwise (proved counterexample: minimises |2LL|)."
  },
  {
   "property": "C48",
   "status": "partial",
   "theorems": [
    "Reliability.Props.C48_dispatch",
    "Reliability.Props.C48_LS_picks_better_partial",
    "Reliability.Props.C48_positive_loglik_finding"
   ],
   "note": "Proved when neither log-likelihood is positive; otherwise the worse one is returned (proved)."
  },
  {
   "property": "C49",
   "status": "proved",
   "theorems": [
    "Reliability.LinReg.C49_RRY",
    "Reliability.LinReg.C49_RRX",
    "Reliability.LinReg.C49_RRY_forced_intercept",
    "Reliability.LinReg.C49_RRY_forced_slope",
    "Reliability.LinReg.C49_RRX_forced_intercept",
    "Reliability.LinReg.C49_RRX_forced_slope",
    "Reliability.LinReg.C49_singular_iff",
    "Reliability.LinReg.C49_value_error",
    "Reliability.LinReg.C49_succeeds"
   ],
   "note": ""
  },
  {
   "property": "C50",
   "status": "proved",
   "theorems": [
    "Reliability.Props.C50_clean",
    "Reliability.Props.C50_given",
    "Reliability.Props.C50_short"
   ],
   "note": ""
  },
  {
   "property": "C51",
   "status": "proved",
   "theorems": [
    "Reliability.Props.C51_ok_iff",
    "Reliability.Props.C51_refusals",
    "Reliability.Props.C51_case_insensitive",
    "Reliability.Props.C51_idempotent"
   ],
   "note": ""
  },
  {
   "property": "C52",
   "status": "proved",
   "theorems": [
    "Reliability.Props.C52_axis_weibull",
    "Reliability.Props.C52_axis_loglogistic",
    "Reliability.Props.C52_axis_exponential",
    "Reliability.Props.C52_axis_normal",
    "Reliability.Props.C52_axis_gumbel",
    "Reliability.Props.C52_axis_gamma",
    "Reliability.Props.C52_axis_beta",
    "Reliability.Props.C52_transform_spaced",
    "Reliability.Props.C52_bounds_either_way",
    "Reliability.Props.C52_errors",
    "Reliability.Props.C52_beta_swapped_finding"
   ],
   "note": "Every axis scale, for every distribution parameter. The beta axis calls ss.beta with (beta, alpha) swapped; proved as a finding."
  },
  {
   "property": "C53",
   "status": "proved",
   "theorems": [
    "Reliability.Props.C53_positive",
    "Reliability.Props.C53_default",
    "Reliability.Props.C53_real_line",
    "Reliability.Props.C53_beta",
    "Reliability.Props.C53_xvals",
    "Reliability.Props.C53_corner_finding",
    "Reliability.Props.C53_negative_finding"
   ],
   "note": "Corner cases excluded by hypothesis and proved separately as findings: xmax equal to the 0.0001 quantile overshoots; a negative xmax is accepted for a positive family."
  },
  {
   "property": "C54",
   "status": "proved",
   "theorems": [
    "Reliability.Props.C54_zeroise",
    "Reliability.Props.C54_unsorted_finding"
   ],
   "note": "Proved for ascending X; a counterexample for unsorted X is proved as a finding."
  },
  {
   "property": "C55",
   "status": "partial",
   "theorems": [
    "Reliability.Props.C55_unchanged",
    "Reliability.Props.C55_factor",
    "Reliability.Props.C55_default",
    "Reliability.Props.C55_pairs_kept",
    "Reliability.Props.C55_unpaired_finding"
   ],
   "note": "Extreme points kept, equal counts, M/2..M points by default, small inputs unchanged: proved. x and y are sorted separately, so the pairing is kept only when both are ascending (proved; counterexample proved for decreasing y)."
  },
  {
   "property": "C56",
   "status": "proved",
   "theorems": [
    "Reliability.Props.C56_removeNaNs"
   ],
   "note": ""
  },
  {
   "property": "C57",
   "status": "partial",
   "theorems": [
    "Reliability.Props.C57_threshold",
    "Reliability.Props.C57_fraction",
    "Reliability.Props.C57_errors",
    "Reliability.Props.C57_caller_partial",
    "Reliability.Props.C57_caller_finding",
    "Reliability.Props.C57_negative_finding"
   ],
   "note": "Everything proved for all data, thresholds, fractions, shuffles and draws, except that a caller's ndarray is NOT left unchanged under fraction censoring (proved counterexample: it is shuffled in place, even when the call then raises); lists are. Negative data: proved finding (censored time exceeds the observation)."
  },
  {
   "property": "C58",
   "status": "proved",
   "theorems": [
    "Reliability.Props.C58_data",
    "Reliability.Props.C58_total",
    "Reliability.Props.C58_errors",
    "Reliability.Props.C58_dual_errors"
   ],
   "note": "Random numbers are arbitrary lists; samples from a distribution are an oracle indexed by the distribution asked for. Finding: dual-stress model with a scalar use level raises TypeError."
  },
  {
   "property": "C59",
   "status": "proved",
   "theorems": [
    "Reliability.Props.ALT.C59_Weibull_Exponential",
    "Reliability.Props.ALT.C59_Weibull_Eyring",
    "Reliability.Props.ALT.C59_Weibull_Power",
    "Reliability.Props.ALT.C59_Weibull_Dual_Exponential",
    "Reliability.Props.ALT.C59_Weibull_Power_Exponential",
    "Reliability.Props.ALT.C59_Weibull_Dual_Power",
    "Reliability.Props.ALT.C59_Lognormal_Exponential",
    "Reliability.Props.ALT.C59_Lognormal_Eyring",
    "Reliability.Props.ALT.C59_Lognormal_Power",
    "Reliability.Props.ALT.C59_Lognormal_Dual_Exponential",
    "Reliability.Props.ALT.C59_Lognormal_Power_Exponential",
    "Reliability.Props.ALT.C59_Lognormal_Dual_Power",
    "Reliability.Props.ALT.C59_Normal_Exponential",
    "Reliability.Props.ALT.C59_Normal_Eyring",
    "Reliability.Props.ALT.C59_Normal_Power",
    "Reliability.Props.ALT.C59_Normal_Dual_Exponential",
    "Reliability.Props.ALT.C59_Normal_Power_Exponential",
    "Reliability.Props.ALT.C59_Normal_Dual_Power",
    "Reliability.Props.ALT.C59_Exponential_Exponential",
    "Reliability.Props.ALT.C59_Exponential_Eyring",
    "Reliability.Props.ALT.C59_Exponential_Power",
    "Reliability.Props.ALT.C59_Exponential_Dual_Exponential",
    "Reliability.Props.ALT.C59_Exponential_Power_Exponential",
    "Reliability.Props.ALT.C59_Exponential_Dual_Power"
   ],
   "note": ""
  },
  {
   "property": "C60",
   "status": "proved",
   "theorems": [
    "Reliability.Props.C60_probability",
    "Reliability.Props.C60_range",
    "Reliability.Props.C60_monotone",
    "Reliability.Props.C60_equal",
    "Reliability.Props.C60_swap"
   ],
   "note": "Probability statement is about independent Gaussian random variables on an arbitrary probability space."
  },
  {
   "property": "C61",
   "status": "proved",
   "theorems": [
    "Reliability.Props.PoF.C61_palmgren_miner",
    "Reliability.Props.PoF.C61_lengths"
   ],
   "note": ""
  },
  {
   "property": "C62",
   "status": "proved",
   "theorems": [
    "Reliability.Props.PoF.C62_larson_miller",
    "Reliability.Props.PoF.C62_creep",
    "Reliability.Props.PoF.C62_arrhenius",
    "Reliability.Props.PoF.C62_arrhenius_inverse",
    "Reliability.Props.PoF.C62_missing",
    "Reliability.Props.PoF.C62_all_given_finding"
   ],
   "note": "Finding (proved): acceleration_factor given all three of AF, T_use, T_acc/Ea sets none of its outputs."
  },
  {
   "property": "C63",
   "status": "partial",
   "theorems": [
    "Reliability.Props.Creep.C63_lines_partial",
    "Reliability.Props.Creep.C63_trace_required_finding",
    "Reliability.Props.Creep.C63_interleaved_finding",
    "Reliability.Props.Creep.C63_errors"
   ],
   "note": "Proved for rows grouped by temperature with a trace; both other halves are proved false: omitting the trace is always a ValueError, and interleaved temperatures are sliced wrongly."
  },
  {
   "property": "C64",
   "status": "proved",
   "theorems": [
    "Reliability.Props.Crack.C64_loop",
    "Reliability.Props.Crack.C64_strictly_increasing",
    "Reliability.Props.Crack.C64_stages",
    "Reliability.Props.Crack.C64_stage1_lost_finding",
    "Reliability.Props.Crack.C64_final_length_finding",
    "Reliability.Props.Crack.C64_terminates",
    "Reliability.Props.Crack.C64_errors",
    "Reliability.Props.Crack.C64_default_notch",
    "Reliability.Props.Crack.C64_default_edge_finding",
    "Reliability.Props.Crack.C64_simplified",
    "Reliability.Props.Crack.C64_simplified_notch_finding"
   ],
   "note": "Findings proved: default un-notched edge crack is a ZeroDivisionError; stage-1 cycles reported as 0 when the transition length is never passed; the reported final length is the critical length even when stopped at a_final; simplified single-stage counts the notch depth as growth."
  },
  {
   "property": "C65",
   "status": "proved",
   "theorems": [
    "Reliability.Repairable.C65_crow_is_mle"
   ],
   "note": ""
  },
  {
   "property": "C66",
   "status": "proved",
   "theorems": [
    "Reliability.Repairable.C66_rocof_agrees_with_crow",
    "Reliability.Repairable.C66_rocof_time_terminated_mle"
   ],
   "note": ""
  },
  {
   "property": "C67",
   "status": "proved",
   "theorems": [
    "Reliability.Testing.C67_expected_total",
    "Reliability.Testing.C67_statistic_nonneg",
    "Reliability.Testing.C67_verdict"
   ],
   "note": ""
  },
  {
   "property": "C68",
   "status": "proved",
   "theorems": [
    "Reliability.Props.Distributions.C68_median",
    "Reliability.Props.Distributions.C68_percentiles"
   ],
   "note": ""
  },
  {
   "property": "C69",
   "status": "proved",
   "theorems": [
    "Reliability.Props.Distributions.C69_exponential_mrl",
    "Reliability.Props.Distributions.C69_mean_residual_life",
    "Reliability.Props.Distributions.C69_from_start"
   ],
   "note": ""
  },
  {
   "property": "C70",
   "status": "proved",
   "theorems": [
    "Reliability.Props.DSZI.C70_model_quantile",
    "Reliability.Props.DSZI.C70_nodes"
   ],
   "note": ""
  },
  {
   "property": "C71",
   "status": "proved",
   "theorems": [
    "Reliability.Props.C71_positive_parameter",
    "Reliability.Props.C71_location_parameter",
    "Reliability.Props.C71_proportion"
   ],
   "note": ""
  },
  {
   "property": "C72",
   "status": "proved",
   "theorems": [
    "Reliability.Props.C72_location_bound",
    "Reliability.Props.C72_other_bounds",
    "Reliability.Props.C72_more_bounds"
   ],
   "note": ""
  },
  {
   "property": "C73",
   "status": "proved",
   "theorems": [
    "Reliability.Props.C73_no_reverse"
   ],
   "note": ""
  },
  {
   "property": "C74",
   "status": "partial",
   "theorems": [
    "Reliability.Props.C74_accepts_iff",
    "Reliability.Props.C74_groups",
    "Reliability.Props.C74_refusals",
    "Reliability.Props.C74_misplaced_finding"
   ],
   "note": "Acceptance, refusals and pass-through proved in full. Groups proved right for dual-stress models always, and for single-stress models when every stress with censored data also has failures; otherwise the censored group is proved (counterexample) to be filed under the wrong stress."
  },
  {
   "property": "C75",
   "status": "proved",
   "theorems": [
    "Reliability.Props.C75_trapezoidal",
    "Reliability.Props.C75_nonneg",
    "Reliability.Props.C75_accuracy",
    "Reliability.Props.C75_mixed_finding"
   ],
   "note": "Accuracy is conditional on a bound of the integrand's second derivative. Finding (proved): Normal/Gumbel combined with a positive family is a ValueError when the 1e-8 quantile is negative."
  },
  {
   "property": "C76",
   "status": "proved",
   "theorems": [
    "Reliability.Props.ALT.C76_Weibull_Exponential",
    "Reliability.Props.ALT.C76_Weibull_Eyring",
    "Reliability.Props.ALT.C76_Weibull_Power",
    "Reliability.Props.ALT.C76_Weibull_Dual_Exponential",
    "Reliability.Props.ALT.C76_Weibull_Power_Exponential",
    "Reliability.Props.ALT.C76_Weibull_Dual_Power",
    "Reliability.Props.ALT.C76_Lognormal_Exponential",
    "Reliability.Props.ALT.C76_Lognormal_Eyring",
    "Reliability.Props.ALT.C76_Lognormal_Power",
    "Reliability.Props.ALT.C76_Lognormal_Dual_Exponential",
    "Reliability.Props.ALT.C76_Lognormal_Power_Exponential",
    "Reliability.Props.ALT.C76_Lognormal_Dual_Power",
    "Reliability.Props.ALT.C76_Normal_Exponential",
    "Reliability.Props.ALT.C76_Normal_Eyring",
    "Reliability.Props.ALT.C76_Normal_Power",
    "Reliability.Props.ALT.C76_Normal_Dual_Exponential",
    "Reliability.Props.ALT.C76_Normal_Power_Exponential",
    "Reliability.Props.ALT.C76_Normal_Dual_Power",
    "Reliability.Props.ALT.C76_Exponential_Exponential",
    "Reliability.Props.ALT.C76_Exponential_Eyring",
    "Reliability.Props.ALT.C76_Exponential_Power",
    "Reliability.Props.ALT.C76_Exponential_Dual_Exponential",
    "Reliability.Props.ALT.C76_Exponential_Power_Exponential",
    "Reliability.Props.ALT.C76_Exponential_Dual_Power"
   ],
   "note": ""
  },
  {
   "property": "C77",
   "status": "partial",
   "theorems": [
    "Reliability.Props.FEA.C77_contents",
    "Reliability.Props.FEA.C77_sorted",
    "Reliability.Props.FEA.C77_use_distribution_partial",
    "Reliability.Props.FEA.C77_lognormal_use_finding",
    "Reliability.Props.FEA.C77_exponential_use_finding",
    "Reliability.Props.FEA.C77_errors"
   ],
   "note": "Contents, order and refusals proved. best_model_at_use_stress is right for 18 of the 24 models; for the dual-stress Lognormal and Exponential models it is proved wrong (mu=1/life, Lambda=life)."
  },
  {
   "property": "C78",
   "status": "proved",
   "theorems": [
    "Reliability.Props.CrackInit.C78_plastic",
    "Reliability.Props.CrackInit.C78_elastic",
    "Reliability.Props.CrackInit.C78_methods_agree",
    "Reliability.Props.CrackInit.C78_monotone",
    "Reliability.Props.CrackInit.C78_yield_jump_finding",
    "Reliability.Props.CrackInit.C78_method"
   ],
   "note": "fsolve is modelled as an oracle returning some root; uniqueness of the root is proved. Findings proved: predicted life jumps up across yield; morrow and modified_morrow are the same."
  },
  {
   "property": "C79",
   "status": "proved",
   "theorems": [
    "Reliability.Convert.C79_FNRN_to_FR",
    "Reliability.Convert.C79_grouping",
    "Reliability.Convert.C79_xlsx_to_FR",
    "Reliability.Convert.C79_blanks",
    "Reliability.Convert.C79_xlsx_to_FNRN",
    "Reliability.Convert.C79_xlsx_to_FNRN_errors",
    "Reliability.Convert.C79_blank_pairing_finding"
   ],
   "note": "Finding (proved): blanks are dropped column by column, so a time and a quantity of different rows can be paired silently."
  },
  {
   "property": "C80",
   "status": "proved",
   "theorems": [
    "Reliability.Props.Distributions.C80_weibull",
    "Reliability.Props.Distributions.C80_exponential",
    "Reliability.Props.Distributions.C80_normal",
    "Reliability.Props.Distributions.C80_lognormal",
    "Reliability.Props.Distributions.C80_gamma",
    "Reliability.Props.Distributions.C80_beta",
    "Reliability.Props.Distributions.C80_gumbel",
    "Reliability.Props.Distributions.C80_loglogistic"
   ],
   "note": ""
  },
  {
   "property": "C81",
   "status": "proved",
   "theorems": [
    "Reliability.Props.C81_reliability",
    "Reliability.Props.C81_time"
   ],
   "note": ""
  },
  {
   "property": "C82",
   "status": "proved",
   "theorems": [
    "Reliability.Props.C82_reliability",
    "Reliability.Props.C82_time"
   ],
   "note": "Gamma: under the hypothesis that autograd_gamma's numerically computed derivatives are the exact ones (all other families: exact derivatives, no hypothesis)."
  },
  {
   "property": "C83",
   "status": "proved",
   "theorems": [
    "Reliability.Props.C83_reliability",
    "Reliability.Props.C83_time"
   ],
   "note": ""
  },
  {
   "property": "C84",
   "status": "proved",
   "theorems": [
    "Reliability.Props.C84_reliability",
    "Reliability.Props.C84_time"
   ],
   "note": ""
  },
  {
   "property": "C85",
   "status": "partial",
   "theorems": [
    "Reliability.Props.C85_reliability",
    "Reliability.Props.C85_reported",
    "Reliability.Props.C85_bracket_partial",
    "Reliability.Props.C85_order_finding",
    "Reliability.Props.C85_time_partial",
    "Reliability.Props.C85_time_finding"
   ],
   "note": "Exact result proved for every list (C85_reliability); containment proved for ascending lists or at most two values, and bounds on time for z*SE < Lambda*ln 10; false otherwise (two proved findings)."
  },
  {
   "property": "C86",
   "status": "partial",
   "theorems": [
    "Reliability.Props.C86_resolves_partial",
    "Reliability.Props.C86_fitted_level",
    "Reliability.Props.C86_unfitted_finding"
   ],
   "note": "All but the last clause proved; 'ignored on an unfitted distribution' is false (proved: TypeError)."
  },
  {
   "property": "C87",
   "status": "proved",
   "theorems": [
    "Reliability.Props.C87_rank_regression",
    "Reliability.Props.C87_exact",
    "Reliability.Props.C87_forced",
    "Reliability.Props.C87_exponential",
    "Reliability.Props.C87_errors",
    "Reliability.Props.C87_unknown"
   ],
   "note": ""
  },
  {
   "property": "C88",
   "status": "proved",
   "theorems": [
    "Reliability.Props.C88_rank_regression",
    "Reliability.Props.C88_exponential"
   ],
   "note": ""
  },
  {
   "property": "C89",
   "status": "proved",
   "theorems": [
    "Reliability.Props.C89_loglik",
    "Reliability.Props.C89_mle"
   ],
   "note": ""
  },
  {
   "property": "C90",
   "status": "proved",
   "theorems": [
    "Reliability.Props.C90_integral",
    "Reliability.Props.C90_nonneg",
    "Reliability.Props.C90_order",
    "Reliability.Props.C90_number",
    "Reliability.Props.C90_lengths",
    "Reliability.Props.C90_list_finding"
   ],
   "note": ""
  },
  {
   "property": "C91",
   "status": "proved",
   "theorems": [
    "Reliability.Props.C91_points",
    "Reliability.Props.C91_ci",
    "Reliability.Props.C91_no_repairs",
    "Reliability.Props.C91_bounds",
    "Reliability.Props.C91_nested",
    "Reliability.Props.C91_verdict",
    "Reliability.Props.C91_power_law",
    "Reliability.Props.C91_regular_finding",
    "Reliability.Props.C91_start"
   ],
   "note": ""
  },
  {
   "property": "C92",
   "status": "proved",
   "theorems": [
    "Reliability.MCF.C92_order_only",
    "Reliability.Props.C92_parametric_units"
   ],
   "note": ""
  },
  {
   "property": "C93",
   "status": "proved",
   "theorems": [
    "Reliability.Props.C93_tension",
    "Reliability.Props.C93_stress_controlled",
    "Reliability.Props.C93_strain_controlled",
    "Reliability.Props.C93_min_stress_finding",
    "Reliability.Props.C93_ignored_finding",
    "Reliability.Props.C93_compression_finding",
    "Reliability.Props.C93_compression_odd",
    "Reliability.Props.C93_errors"
   ],
   "note": ""
  },
  {
   "property": "C94",
   "status": "proved",
   "theorems": [
    "Reliability.Props.C94_reversed",
    "Reliability.Props.C94_monotone",
    "Reliability.Props.C94_stress_range",
    "Reliability.Props.C94_strain_range",
    "Reliability.Props.C94_transition",
    "Reliability.Props.C94_negative_min_stress_finding",
    "Reliability.Props.C94_strain_control_finding",
    "Reliability.Props.C94_errors"
   ],
   "note": ""
  },
  {
   "property": "C95",
   "status": "proved",
   "theorems": [
    "Reliability.Props.C95_stress_strain",
    "Reliability.Props.C95_strain_life",
    "Reliability.Props.C95_lengths"
   ],
   "note": ""
  },
  {
   "property": "C96",
   "status": "proved",
   "theorems": [
    "Reliability.Props.C96_accepts",
    "Reliability.Props.C96_line",
    "Reliability.Props.C96_residual",
    "Reliability.Props.C96_residual_finding",
    "Reliability.Props.C96_statistical",
    "Reliability.Props.C96_statistical_finding"
   ],
   "note": ""
  },
  {
   "property": "C97",
   "status": "proved",
   "theorems": [
    "Reliability.Props.C97_least_squares",
    "Reliability.Props.C97_exact",
    "Reliability.Props.C97_bounds",
    "Reliability.Props.C97_dual_legal",
    "Reliability.Props.C97_degenerate",
    "Reliability.Props.C97_errors"
   ],
   "note": ""
  },
  {
   "property": "C98",
   "status": "proved",
   "theorems": [
    "Reliability.Props.C98_ranking",
    "Reliability.Props.C98_exponential_finding",
    "Reliability.Props.C98_errors",
    "Reliability.Props.C98_succeeds"
   ],
   "note": ""
  },
  {
   "property": "C99",
   "status": "proved",
   "theorems": [
    "Reliability.Props.C99_weibull_2P",
    "Reliability.Props.C99_normal_2P",
    "Reliability.Props.C99_lognormal_2P",
    "Reliability.Props.C99_gumbel_2P",
    "Reliability.Props.C99_loglogistic_2P",
    "Reliability.Props.C99_exponential_1P",
    "Reliability.Props.C99_exponential_2P",
    "Reliability.Props.C99_beta_2P",
    "Reliability.Props.C99_gamma_2P",
    "Reliability.Props.C99_weibull_3P",
    "Reliability.Props.C99_lognormal_3P",
    "Reliability.Props.C99_loglogistic_3P",
    "Reliability.Props.C99_gamma_3P"
   ],
   "note": ""
  },
  {
   "property": "C100",
   "status": "proved",
   "theorems": [
    "Reliability.Props.C100_weibull_2P",
    "Reliability.Props.C100_normal_2P",
    "Reliability.Props.C100_lognormal_2P",
    "Reliability.Props.C100_gumbel_2P",
    "Reliability.Props.C100_loglogistic_2P",
    "Reliability.Props.C100_beta_2P",
    "Reliability.Props.C100_gamma_2P",
    "Reliability.Props.C100_weibull_3P",
    "Reliability.Props.C100_lognormal_3P",
    "Reliability.Props.C100_loglogistic_3P",
    "Reliability.Props.C100_gamma_3P"
   ],
   "note": ""
  },
  {
   "property": "C101",
   "status": "proved",
   "theorems": [
    "Reliability.Props.C101_weibull",
    "Reliability.Props.C101_normal",
    "Reliability.Props.C101_lognormal"
   ],
   "note": ""
  },
  {
   "property": "C102",
   "status": "partial",
   "theorems": [
    "Reliability.Props.C102_labels_two_parameter",
    "Reliability.Props.C102_mle_returns_partial",
    "Reliability.Props.C102_singular_finding",
    "Reliability.Props.C102_method_none_finding",
    "Reliability.Props.C102_labels_exponential",
    "Reliability.Props.C102_labels_beta_gamma",
    "Reliability.Props.C102_labels_three_parameter",
    "Reliability.Props.C102_labels_gamma_3P",
    "Reliability.Props.C102_mle_returns_one_two_partial",
    "Reliability.Props.C102_mle_returns_three_partial",
    "Reliability.Props.FitOutcome.C102_outcome_two_parameter",
    "Reliability.Props.FitOutcome.C102_outcome_one_two",
    "Reliability.Props.FitOutcome.C102_outcome_three_parameter"
   ],
   "note": "Labels are proved for every class. C102_outcome_*: without quantiles, accepted data either gives a result or TypeError whatever scipy's routines answer; C102_mle_returns_* (MLE, successful optimizers, no quantiles) exclude the TypeError. Least squares fits can raise it (C102_singular_finding), so the full claim is false. Quantile tables: C104."
  },
  {
   "property": "C103",
   "status": "proved",
   "theorems": [
    "Reliability.Props.C103_exponential_1P",
    "Reliability.Props.C103_exponential_2P"
   ],
   "note": ""
  },
  {
   "property": "C104",
   "status": "proved",
   "theorems": [
    "Reliability.Props.C104_table",
    "Reliability.Props.C104_false_finding",
    "Reliability.Props.C104_exponential_1P",
    "Reliability.Props.C104_exponential_2P",
    "Reliability.Props.C104_beta_2P",
    "Reliability.Props.C104_exponential_finding"
   ],
   "note": ""
  },
  {
   "property": "C105",
   "status": "proved",
   "theorems": [
    "Reliability.Props.C105_weibull_3P",
    "Reliability.Props.C105_lognormal_3P",
    "Reliability.Props.C105_loglogistic_3P",
    "Reliability.Props.C105_gamma_3P"
   ],
   "note": ""
  },
  {
   "property": "C106",
   "status": "proved",
   "theorems": [
    "Reliability.Props.C106_mixture",
    "Reliability.Props.C106_CR",
    "Reliability.Props.C106_DSZI",
    "Reliability.Props.C106_DS",
    "Reliability.Props.C106_ZI"
   ],
   "note": ""
  },
  {
   "property": "C107",
   "status": "proved",
   "theorems": [
    "Reliability.Props.C107_mixture",
    "Reliability.Props.C107_CR",
    "Reliability.Props.C107_DSZI",
    "Reliability.Props.C107_DS",
    "Reliability.Props.C107_ZI"
   ],
   "note": ""
  },
  {
   "property": "C108",
   "status": "partial",
   "theorems": [
    "Reliability.Props.C108_two_groups_return",
    "Reliability.Props.C108_DS_returns",
    "Reliability.Props.C108_ZI_returns",
    "Reliability.Props.C108_DSZI_returns_partial",
    "Reliability.Props.C108_DSZI_order_finding",
    "Reliability.Props.C108_ties_finding",
    "Reliability.Props.C108_labels"
   ],
   "note": "returns are proved under: distinct failures (Mixture, CR), optimizers that succeed and answer within bounds, and ZI <= DS for DSZI; the findings show that ties and ZI > DS make the fits raise"
  },
  {
   "property": "C109",
   "status": "proved",
   "theorems": [
    "Reliability.Props.C109_counts",
    "Reliability.Props.C109_refused",
    "Reliability.Props.C109_least_squares",
    "Reliability.Props.C109_maximum_likelihood",
    "Reliability.Props.C109_mle_returns",
    "Reliability.Props.C109_discards_finding",
    "Reliability.Props.C109_no_method_finding"
   ],
   "note": ""
  },
  {
   "property": "C110",
   "status": "proved",
   "theorems": [
    "Reliability.Props.ALTGlue.C110_single",
    "Reliability.Props.ALTGlue.C110_dual"
   ],
   "note": ""
  },
  {
   "property": "C111",
   "status": "partial",
   "theorems": [
    "Reliability.Props.ALTGlue.C111_single_partial",
    "Reliability.Props.ALTGlue.C111_dual_partial",
    "Reliability.Props.ALTGlue.C111_tied_failures_finding",
    "Reliability.Props.FitOutcome.C111_outcome_single_partial",
    "Reliability.Props.FitOutcome.C111_outcome_dual_partial"
   ],
   "note": "C111_outcome_*: whatever scipy's routines answer, the class returns or raises TypeError; with successful optimizers it returns (C111_single_partial, C111_dual_partial). Not covered: a censored stress of a single-stress fit that has no failures, and stresses whose failures are all tied (refused: C111_tied_failures_finding)."
  },
  {
   "property": "C112",
   "status": "proved",
   "theorems": [
    "Reliability.Props.C112_weibull_2P",
    "Reliability.Props.C112_normal_2P",
    "Reliability.Props.C112_lognormal_2P",
    "Reliability.Props.C112_gumbel_2P",
    "Reliability.Props.C112_loglogistic_2P",
    "Reliability.Props.C112_gamma_2P",
    "Reliability.Props.C112_beta_2P",
    "Reliability.Props.C112_exponential_1P",
    "Reliability.Props.C112_exponential_2P",
    "Reliability.Props.C112_weibull_3P",
    "Reliability.Props.C112_lognormal_3P",
    "Reliability.Props.C112_loglogistic_3P",
    "Reliability.Props.C112_gamma_3P",
    "Reliability.Props.ALTGlue.C112_alt_single",
    "Reliability.Props.ALTGlue.C112_alt_dual",
    "Reliability.Props.C112_exponential_closed_form",
    "Reliability.Props.C112_normal_closed_form",
    "Reliability.Props.C112_mixture",
    "Reliability.Props.C112_CR",
    "Reliability.Props.C112_DSZI",
    "Reliability.Props.C112_DS",
    "Reliability.Props.C112_ZI"
   ],
   "note": ""
  },
  {
   "property": "C113",
   "status": "proved",
   "theorems": [
    "Reliability.ProbPlots.C113_points",
    "Reliability.ProbPlots.C113_conversion",
    "Reliability.ProbPlots.C113_same",
    "Reliability.ProbPlots.C113_missing",
    "Reliability.ProbPlots.C113_weibull",
    "Reliability.ProbPlots.C113_exponential",
    "Reliability.ProbPlots.C113_loglogistic",
    "Reliability.ProbPlots.C113_gumbel",
    "Reliability.ProbPlots.C113_normal",
    "Reliability.ProbPlots.C113_lognormal",
    "Reliability.ProbPlots.C113_gamma"
   ],
   "note": ""
  },
  {
   "property": "C114",
   "status": "partial",
   "theorems": [
    "Reliability.ProbPlots.C114_points",
    "Reliability.ProbPlots.C114_accepts",
    "Reliability.ProbPlots.C114_rejects",
    "Reliability.ProbPlots.C114_complete_KM",
    "Reliability.ProbPlots.C114_complete_RA",
    "Reliability.ProbPlots.C114_correct_iff",
    "Reliability.ProbPlots.C114_censored_finding"
   ],
   "note": "The points, lines, acceptance and the complete-data values are proved; the pairing claim is false under censoring (C114_censored_finding) and true exactly when the estimates are symmetric (C114_correct_iff)."
  },
  {
   "property": "C115",
   "status": "partial",
   "theorems": [
    "Reliability.ProbPlots.C115_parametric",
    "Reliability.ProbPlots.C115_same",
    "Reliability.ProbPlots.C115_square",
    "Reliability.ProbPlots.C115_quantile_lines_finding",
    "Reliability.ProbPlots.C115_negative_finding",
    "Reliability.ProbPlots.C115_semiparametric",
    "Reliability.ProbPlots.C115_complete_KM"
   ],
   "note": "Everything but quantile lines, which always raise ValueError (C115_quantile_lines_finding)."
  },
  {
   "property": "C116",
   "status": "proved",
   "theorems": [
    "Reliability.ProbPlots.C116_points",
    "Reliability.ProbPlots.C116_density",
    "Reliability.ProbPlots.C116_order",
    "Reliability.ProbPlots.C116_order_finding",
    "Reliability.ProbPlots.C116_tied_finding",
    "Reliability.ProbPlots.C116_errors"
   ],
   "note": ""
  },
  {
   "property": "C117",
   "status": "partial",
   "theorems": [
    "Reliability.ProbPaper.C117_defined",
    "Reliability.ProbPaper.C117_x",
    "Reliability.ProbPaper.C117_y",
    "Reliability.ProbPaper.C117_single_finding",
    "Reliability.ProbPaper.C117_reversed_finding"
   ],
   "note": "Proved for positive times, or on papers that show negative times for at least two different times; C117_single_finding and C117_reversed_finding show what fails otherwise."
  },
  {
   "property": "C118",
   "status": "partial",
   "theorems": [
    "Reliability.ProbPaper.C118_straight_weibull",
    "Reliability.ProbPaper.C118_straight_exponential_weibull_scale",
    "Reliability.ProbPaper.C118_straight_exponential",
    "Reliability.ProbPaper.C118_straight_loglogistic",
    "Reliability.ProbPaper.C118_straight_normal",
    "Reliability.ProbPaper.C118_straight_lognormal",
    "Reliability.ProbPaper.C118_straight_gumbel",
    "Reliability.ProbPaper.C118_straight_gamma",
    "Reliability.ProbPaper.C118_straight_beta",
    "Reliability.ProbPaper.C118_weibull",
    "Reliability.ProbPaper.C118_loglogistic",
    "Reliability.ProbPaper.C118_lognormal",
    "Reliability.ProbPaper.C118_gamma",
    "Reliability.ProbPaper.C118_normal",
    "Reliability.ProbPaper.C118_gumbel",
    "Reliability.ProbPaper.C118_exponential",
    "Reliability.ProbPaper.C118_exponential_weibull_scale_finding",
    "Reliability.ProbPaper.C118_beta",
    "Reliability.ProbPaper.C118_scatter_only",
    "Reliability.ProbPaper.C118_errors",
    "Reliability.ProbPaper.C118_one_failure",
    "Reliability.ProbPaper.C118_CI"
   ],
   "note": "Proved for all nine plots; on the Weibull scale the Exponential's points are displaced by 0.009 when there is a location (C118_exponential states it, C118_exponential_weibull_scale_finding the consequence). Failure times equal to a censoring time are excluded (the plotting positions then depend on numpy's tie order)."
  },
  {
   "property": "C119",
   "status": "proved",
   "theorems": [
    "Reliability.Props.Combined.C119_competing_builds",
    "Reliability.Props.Combined.C119_competing",
    "Reliability.Props.Combined.C119_mixture_builds",
    "Reliability.Props.Combined.C119_mixture",
    "Reliability.Props.Combined.C119_beta_finding",
    "Reliability.Props.Combined.C119_dszi",
    "Reliability.Props.Combined.C119_dszi_degenerate"
   ],
   "note": ""
  },
  {
   "property": "C120",
   "status": "proved",
   "theorems": [
    "Reliability.Props.Combined.C120_competing",
    "Reliability.Props.Combined.C120_mixture",
    "Reliability.Props.Combined.C120_negative_finding",
    "Reliability.Props.Combined.C120_competing_samples",
    "Reliability.Props.Combined.C120_mixture_samples",
    "Reliability.Props.Combined.C120_negative_pdf_finding",
    "Reliability.Props.Combined.C120_negative_proportion_finding"
   ],
   "note": ""
  },
  {
   "property": "C121",
   "status": "proved",
   "theorems": [
    "Reliability.Props.FitEverythingFull.C121_rows",
    "Reliability.Props.FitEverythingFull.C121_direct",
    "Reliability.Props.FitEverythingFull.C121_best",
    "Reliability.Props.FitEverythingFull.C121_returns_if_each_does",
    "Reliability.Props.FitEverythingFull.C121_returns",
    "Reliability.Props.FitEverythingFull.C121_all_or_nothing",
    "Reliability.Props.FitEverythingFull.C121_three_failures_finding"
   ],
   "note": ""
  },
  {
   "property": "C122",
   "status": "proved",
   "theorems": [
    "Reliability.Props.LikelihoodPlot.C122_contours",
    "Reliability.Props.LikelihoodPlot.C122_regions",
    "Reliability.Props.LikelihoodPlot.C122_grid",
    "Reliability.Props.LikelihoodPlot.C122_location_finding",
    "Reliability.Props.LikelihoodPlot.C122_unknown",
    "Reliability.Props.LikelihoodPlot.C122_axes",
    "Reliability.Props.LikelihoodPlot.C122_margins",
    "Reliability.Props.LikelihoodPlot.C122_returns",
    "Reliability.Props.LikelihoodPlot.C122_estimate_off_grid_finding"
   ],
   "note": ""
  },
  {
   "property": "C123",
   "status": "partial",
   "theorems": [
    "Reliability.Props.FEAFull.C123_single",
    "Reliability.Props.FEAFull.C123_dual",
    "Reliability.Props.FEAFull.C123_best",
    "Reliability.Props.FEAFull.C123_use_single",
    "Reliability.Props.FEAFull.C123_use_dual_partial",
    "Reliability.Props.FEAFull.C123_all_fit",
    "Reliability.Props.FEAFull.C123_returns_partial",
    "Reliability.Props.FEAFull.C123_returns_iff_each_does"
   ],
   "note": "Rows, best model and single-stress use-level object are proved in full. The use-level object of the six dual-stress Lognormal and Exponential models is excepted because the code makes the claim false there (C77_lognormal_use_finding, C77_exponential_use_finding). Returning: C123_returns_iff_each_does (exactly when each of the wanted classes returns), and C123_returns_partial under the provisos of C111 (optimizers succeed, every censored stress also has failures)."
  },
  {
   "property": "C124",
   "status": "proved",
   "theorems": [
    "Reliability.Props.Histogram.C124_shading",
    "Reliability.Props.Histogram.C124_above_below",
    "Reliability.Props.Histogram.C124_plain",
    "Reliability.Props.Histogram.C124_accepts_iff",
    "Reliability.Props.Histogram.C124_style",
    "Reliability.Props.Histogram.C124_straddling_finding"
   ],
   "note": "C124_straddling_finding: the documented 'bins above this value' also takes in bins that begin below it."
  },
  {
   "property": "C125",
   "status": "proved",
   "theorems": [
    "Reliability.Props.RoundString.C125_whole",
    "Reliability.Props.RoundString.C125_ordinary",
    "Reliability.Props.RoundString.C125_ties",
    "Reliability.Props.RoundString.C125_scientific",
    "Reliability.Props.RoundString.C125_sign",
    "Reliability.Props.RoundString.C125_form",
    "Reliability.Props.RoundString.C125_large_whole_finding",
    "Reliability.Props.RoundString.C125_vanishes_finding"
   ],
   "note": "Two findings about the documentation: C125_large_whole_finding, C125_vanishes_finding."
  },
  {
   "property": "C126",
   "status": "proved",
   "theorems": [
    "Reliability.Props.FitPlots.C126_layout",
    "Reliability.Props.FitPlots.C126_bars",
    "Reliability.Props.FitPlots.C126_bins",
    "Reliability.Props.FitPlots.C126_overflow_finding",
    "Reliability.Props.FitPlots.C126_pp"
   ],
   "note": "Provided the quartiles of the failures differ: otherwise C126_overflow_finding (OverflowError). The axes of the P-P plot are swapped with respect to its title."
  },
  {
   "property": "C127",
   "status": "proved",
   "theorems": [
    "Reliability.Props.AxesLimits.C127_window",
    "Reliability.Props.AxesLimits.C127_errors",
    "Reliability.Props.AxesLimits.C127_infinite",
    "Reliability.Props.AxesLimits.C127_visible",
    "Reliability.Props.AxesLimits.C127_keeps",
    "Reliability.Props.AxesLimits.C127_history",
    "Reliability.Props.AxesLimits.C127_negative_gamma_finding",
    "Reliability.Props.AxesLimits.C127_hf_peak_finding",
    "Reliability.Props.AxesLimits.C127_chf_cut_finding",
    "Reliability.Props.AxesLimits.C127_unit_square_finding"
   ],
   "note": "Provisos stated in C127_visible and C127_history; each is needed (four findings)."
  },
  {
   "property": "C128",
   "status": "partial",
   "theorems": [
    "Reliability.Props.AxesLimits.C128_numbers",
    "Reliability.Props.AxesLimits.C128_sequences_partial",
    "Reliability.Props.AxesLimits.C128_y_list_finding",
    "Reliability.Props.AxesLimits.C128_capital_x_finding",
    "Reliability.Props.AxesLimits.C128_errors"
   ],
   "note": "False for lists of data values of the y-axis (C128_y_list_finding) and for the axis X (C128_capital_x_finding)."
  },
  {
   "property": "C129",
   "status": "partial",
   "theorems": [
    "Reliability.Props.Ticks.C129_percent_partial",
    "Reliability.Props.Ticks.C129_percent_exact",
    "Reliability.Props.Ticks.C129_percent_finding",
    "Reliability.Props.Ticks.C129_xlabel",
    "Reliability.Props.Ticks.C129_locator",
    "Reliability.Props.Ticks.C129_edges",
    "Reliability.Props.Ticks.C129_first",
    "Reliability.Props.Ticks.C129_preferred",
    "Reliability.Props.Ticks.C129_minor",
    "Reliability.Props.Ticks.C129_yticks"
   ],
   "note": "False for percentages of 1 or more whose decimals are rounded up: the label is a whole percent too low (C129_percent_finding); C129_percent_partial says exactly when. %g is not modelled."
  },
  {
   "property": "C130",
   "status": "proved",
   "theorems": [
    "Reliability.Props.ChiTest.C130_accepts",
    "Reliability.Props.ChiTest.C130_errors",
    "Reliability.Props.ChiTest.C130_result",
    "Reliability.Props.ChiTest.C130_negative_edge_finding"
   ],
   "note": "Finding C130_negative_edge_finding: the reset for negative edges is dead code (min(bin_edges < 0))."
  },
  {
   "property": "C131",
   "status": "proved",
   "theorems": [
    "Reliability.Downsample.C131_qq_parametric",
    "Reliability.Downsample.C131_pp_parametric",
    "Reliability.Downsample.C131_pp_semiparametric",
    "Reliability.Downsample.C131_qq_semiparametric",
    "Reliability.Downsample.C131_probability_plots"
   ],
   "note": "For the QQ plot of data against a Normal or Gumbel distribution: provided the estimated survival does not reach 0 (there the code replaces -inf by 0, which may be out of order). Failures must not be tied with censored times (as in C118)."
  },
  {
   "property": "C132",
   "status": "proved",
   "theorems": [
    "Reliability.WriteXlsx.C132_terminates",
    "Reliability.WriteXlsx.C132_where",
    "Reliability.WriteXlsx.C132_write",
    "Reliability.WriteXlsx.C132_never_overwrites",
    "Reliability.WriteXlsx.C132_windows",
    "Reliability.WriteXlsx.C132_posix_finding",
    "Reliability.WriteXlsx.C132_dots_finding",
    "Reliability.WriteXlsx.C132_unreadable_finding"
   ],
   "note": "Readable means that open() succeeds; existing files that cannot be read are replaced without asking (C132_unreadable_finding). Termination needs finitely many readable paths. Paths are compared as strings."
  },
  {
   "property": "C133",
   "status": "proved",
   "theorems": [
    "Reliability.Convert.C133_FR",
    "Reliability.Convert.C133_FNRN",
    "Reliability.Convert.C133_XCN",
    "Reliability.Convert.C133_XCN_default",
    "Reliability.Convert.C133_NA_finding"
   ],
   "note": "pandas' writing and reading of cells is assumed to be faithful for numbers, and for codes as far as the parameter readCode says. Output codes of xlsx_to_XCN must have their documented meaning (otherwise false: C07)."
  },
  {
   "property": "C134",
   "status": "proved",
   "theorems": [
    "Reliability.ALTPlots.C134_alt_prob_plot",
    "Reliability.ALTPlots.C134_single",
    "Reliability.ALTPlots.C134_dual",
    "Reliability.ALTPlots.C134_exponential_original_finding"
   ],
   "note": "Only for ax=True. Labels, titles, legend and ticks are not modelled. The original line of the Exponential classes is stated as what it is (C134_exponential_original_finding)."
  },
  {
   "property": "C135",
   "status": "proved",
   "theorems": [
    "Reliability.ALTPlots.C135_single_fit",
    "Reliability.ALTPlots.C135_dual_fit",
    "Reliability.ALTPlots.C135_no_figure",
    "Reliability.ALTPlots.C135_single",
    "Reliability.ALTPlots.C135_dual",
    "Reliability.ALTPlots.C135_use_above_finding",
    "Reliability.ALTPlots.C135_increasing_finding"
   ],
   "note": "The point of the line at stress 0 is left out. plt.xlim()[0] at the time of drawing is an arbitrary number. Failures beyond the z axis of the dual figure: matplotlib chooses the upper z limit."
  },
  {
   "property": "C136",
   "status": "proved",
   "theorems": [
    "Reliability.Props.Explorer.C136_consistent",
    "Reliability.Props.Explorer.C136_click",
    "Reliability.Props.Explorer.C136_drag"
   ],
   "note": "Drawing is a list of curves; matplotlib's slider clipping is modelled as clamping to the range."
  },
  {
   "property": "C137",
   "status": "proved",
   "theorems": [
    "Reliability.Props.RandomSamples.C137_accepts",
    "Reliability.Props.RandomSamples.C137_samples",
    "Reliability.Props.RandomSamples.C137_parameters",
    "Reliability.Props.RandomSamples.C137_reproducible",
    "Reliability.Props.RandomSamples.C137_refused",
    "Reliability.Props.RandomSamples.C137_beta",
    "Reliability.Props.RandomSamples.C137_beta_endless_finding"
   ],
   "note": "The generator is arbitrary, with scipy's contract (number of values, support) as hypothesis; for Beta the theorems speak about calls that return (C137_beta: enough rounds suffice; C137_beta_endless_finding)."
  },
  {
   "property": "C138",
   "status": "proved",
   "theorems": [
    "Reliability.Props.DistPlot.C138_curves",
    "Reliability.Props.DistPlot.C138_limits",
    "Reliability.Props.DistPlot.C138_texts",
    "Reliability.Props.DistPlot.C138_accepts",
    "Reliability.Props.DistPlot.C138_scalar_finding"
   ],
   "note": "x-values are reals; infinite values of a curve are not represented. C138_scalar_finding: a single number is refused."
  },
  {
   "property": "C139",
   "status": "proved",
   "theorems": [
    "Reliability.Props.Crosshairs.C139_crosshairs",
    "Reliability.Props.Crosshairs.C139_annotations",
    "Reliability.Props.Crosshairs.C139_decimals_zero_finding",
    "Reliability.Props.Crosshairs.C139_cut_off_finding",
    "Reliability.Props.Crosshairs.C139_accepts",
    "Reliability.Props.Crosshairs.C139_lookalike_finding",
    "Reliability.Props.Crosshairs.C139_later_line_finding"
   ],
   "note": "mplcursors' behaviour is assumed as stated in Model/Crosshairs.lean. The exceptions (decimals=0, look-alikes, later drawing) are findings."
  },
  {
   "property": "C140",
   "status": "proved",
   "theorems": [
    "Reliability.Props.CIPlot.C140_reliability",
    "Reliability.Props.CIPlot.C140_time",
    "Reliability.Props.CIPlot.C140_time_chf",
    "Reliability.Props.CIPlot.C140_chf_finding",
    "Reliability.Props.CIPlot.C140_nothing",
    "Reliability.Props.CIPlot.C140_exponential",
    "Reliability.Props.CIPlot.C140_gamma_finding"
   ],
   "note": "Colours and the title are not modelled. Outside the stated provisos for Gamma and CHF the claim is false: C140_gamma_finding, C140_chf_finding. On a function scale (probability plots) the polygon of a CHF would be clipped to below 1, so FilledBetween is claimed for CDF and SF or an ordinary scale."
  },
  {
   "property": "C141",
   "status": "partial",
   "theorems": [
    "Reliability.Props.MethodPlot.C141_draws",
    "Reliability.Props.MethodPlot.C141_limits",
    "Reliability.Props.MethodPlot.C141_no_plot",
    "Reliability.Props.MethodPlot.C141_accepts",
    "Reliability.Props.MethodPlot.C141_number",
    "Reliability.Props.MethodPlot.C141_one_value_finding",
    "Reliability.Props.MethodPlot.C141_number_limit_finding"
   ],
   "note": "Everything but the acceptance of one x-value in a list, and of a number with limits, which the code does not provide: C141_one_value_finding, C141_number_limit_finding. Values are reals; fonts and margins are not modelled; after an error what is left on the canvas is not modelled."
  },
  {
   "property": "C142",
   "status": "partial",
   "theorems": [
    "Reliability.Props.CompositePlot.C142_grid",
    "Reliability.Props.CompositePlot.C142_points_finding",
    "Reliability.Props.CompositePlot.C142_default",
    "Reliability.Props.CompositePlot.C142_no_plot",
    "Reliability.Props.CompositePlot.C142_draws",
    "Reliability.Props.CompositePlot.C142_accepts",
    "Reliability.Props.CompositePlot.C142_errors",
    "Reliability.Props.CompositePlot.C142_cap_finding",
    "Reliability.Props.CompositePlot.C142_components_finding",
    "Reliability.Props.CompositePlot.C142_plot",
    "Reliability.Props.CompositePlot.C142_texts",
    "Reliability.Props.CompositePlot.C142_plot_accepts",
    "Reliability.Props.CompositePlot.C142_plot_number_finding"
   ],
   "note": "The documented number of points and equality of the returned values with and without plot are false: C142_points_finding, C142_cap_finding; other errors: C142_components_finding, C142_plot_number_finding. The statistics are those of C119."
  },
  {
   "property": "C143",
   "status": "partial",
   "theorems": [
    "Reliability.Props.DsziPlot.C143_draws",
    "Reliability.Props.DsziPlot.C143_number",
    "Reliability.Props.DsziPlot.C143_no_plot",
    "Reliability.Props.DsziPlot.C143_accepts",
    "Reliability.Props.DsziPlot.C143_errors",
    "Reliability.Props.DsziPlot.C143_one_value_finding",
    "Reliability.Props.DsziPlot.C143_range_finding",
    "Reliability.Props.DsziPlot.C143_beta_finding",
    "Reliability.Props.DsziPlot.C143_plot",
    "Reliability.Props.DsziPlot.C143_plot_accepts",
    "Reliability.Props.DsziPlot.C143_message_finding",
    "Reliability.Props.DsziPlot.C143_plot_one_finding"
   ],
   "note": "False where the findings C143_one_value_finding, C143_beta_finding, C143_range_finding, C143_message_finding, C143_plot_one_finding say; everything else is proved."
  },
  {
   "property": "C144",
   "status": "partial",
   "theorems": [
    "Reliability.NP.Plot.C144_draws",
    "Reliability.NP.Plot.C144_accepts",
    "Reliability.NP.Plot.C144_limits",
    "Reliability.NP.Plot.C144_chf_limits",
    "Reliability.NP.Plot.C144_chf_band",
    "Reliability.NP.Plot.C144_km_chf_limits",
    "Reliability.NP.Plot.C144_na_chf_finding",
    "Reliability.NP.Plot.C144_ra_chf_finding"
   ],
   "note": "That the last point of the CHF is within the axes is false for NelsonAalen and RankAdjustment: C144_na_chf_finding, C144_ra_chf_finding. a = 1 is left out. Colours are not modelled."
  },
  {
   "property": "C145",
   "status": "partial",
   "theorems": [
    "Reliability.MCF.Plot.C145_np_draws",
    "Reliability.MCF.Plot.C145_np_accepts",
    "Reliability.MCF.Plot.C145_np_limits",
    "Reliability.MCF.Plot.C145_np_low_CI_finding",
    "Reliability.MCFP.Plot.C145_parametric",
    "Reliability.MCFP.Plot.C145_parametric_accepts"
   ],
   "note": "That the line is within the axes is false for CI < 1/2: C145_np_low_CI_finding. Colours are not modelled."
  },
  {
   "property": "C146",
   "status": "partial",
   "theorems": [
    "Reliability.Repairable.GPlot.C146_accepts",
    "Reliability.Repairable.GPlot.C146_draws",
    "Reliability.Repairable.GPlot.C146_start",
    "Reliability.Repairable.GPlot.C146_target",
    "Reliability.Repairable.GPlot.C146_limits",
    "Reliability.Repairable.GPlot.C146_legend",
    "Reliability.Repairable.GPlot.C146_low_target_finding",
    "Reliability.Repairable.GPlot.C146_early_target_finding"
   ],
   "note": "On log scale the target's line can be below or left of the axes: C146_low_target_finding, C146_early_target_finding. The rank-deficient Duane case (all times equal) is not modelled; a linear plot assumes the axes were not already logarithmic."
  },
  {
   "property": "C147",
   "status": "partial",
   "theorems": [
    "Reliability.Repairable.C147_accepts",
    "Reliability.Repairable.C147_time_old",
    "Reliability.Repairable.C147_time_new",
    "Reliability.Repairable.C147_ratio",
    "Reliability.Repairable.C147_ratio_end",
    "Reliability.Repairable.C147_old_outside_finding",
    "Reliability.Repairable.C147_small_alpha_finding"
   ],
   "note": "That the optimum is within the axes is false for q=1 (C147_old_outside_finding; exact condition proved), and the curve is outside for alpha < 1/3, q=0 (C147_small_alpha_finding). Colours are not modelled."
  },
  {
   "property": "C148",
   "status": "partial",
   "theorems": [
    "Reliability.Repairable.C148_failure_cost",
    "Reliability.Repairable.C148_planned_cost",
    "Reliability.Repairable.C148_money",
    "Reliability.Repairable.C148_old_finding"
   ],
   "note": "False for q=1: C148_old_finding. For q=0 with exact integrals in place of scipy's quad."
  },
  {
   "property": "C149",
   "status": "partial",
   "theorems": [
    "Reliability.Repairable.C149_accepts",
    "Reliability.Repairable.C149_failure_times",
    "Reliability.Repairable.C149_draws",
    "Reliability.Repairable.C149_constant_mean_partial",
    "Reliability.Repairable.C149_time_terminated_finding"
   ],
   "note": "That the flat line is the mean is false with test_end: C149_time_terminated_finding. A single failure at the very end of the test (infinite Beta_hat) is left out."
  },
  {
   "property": "C150",
   "status": "proved",
   "theorems": [
    "Reliability.Props.SLP.C150_curves",
    "Reliability.Props.SLP.C150_limits",
    "Reliability.Props.SLP.C150_point",
    "Reliability.Props.SLP.C150_visible",
    "Reliability.Props.SLP.C150_transition",
    "Reliability.Props.SLP.C150_notes",
    "Reliability.Props.SLP.C150_elastic",
    "Reliability.Props.SLP.C150_stress_control",
    "Reliability.Props.SLP.C150_unloaded",
    "Reliability.Props.SLP.C150_unset_finding",
    "Reliability.Props.SLP.C150_attributes",
    "Reliability.Props.SLP.C150_dash_finding",
    "Reliability.Props.SLP.C150_short_life_finding",
    "Reliability.Props.SLP.C150_elastic_finding"
   ],
   "note": "For loads with a positive largest stress, a mean stress below sigma_f, and a reversed strain if the mean stress is 0 (C150_stress_control shows stress control meets this). fsolve is taken to find a root (RootFinder). The equation in the legend is not modelled."
  },
  {
   "property": "C151",
   "status": "proved",
   "theorems": [
    "Reliability.Props.SNP.C151_axes",
    "Reliability.Props.SNP.C151_line",
    "Reliability.Props.SNP.C151_spans",
    "Reliability.Props.SNP.C151_traces",
    "Reliability.Props.SNP.C151_trace_finding",
    "Reliability.Props.SNP.C151_runouts",
    "Reliability.Props.SNP.C151_draws",
    "Reliability.Props.SNP.C151_runout_outside_finding",
    "Reliability.Props.SNP.C151_runout_cycles_finding",
    "Reliability.Props.SNP.C151_bounds"
   ],
   "note": "Positive stresses and cycles (SNData). polyfit is taken to be a least-squares line; scipy's t quantile is an oracle that is nonnegative above 1/2. Traces below the endurance limit are a proved finding."
  },
  {
   "property": "C152",
   "status": "proved",
   "theorems": [
    "Reliability.Props.SSP.C152_tension",
    "Reliability.Props.SSP.C152_compression",
    "Reliability.Props.SSP.C152_draws",
    "Reliability.Props.SSP.C152_scale"
   ],
   "note": "Under the hypotheses of C93 (positive parameters, fsolve finds a root; compression needs 1/n odd, else the code takes roots of negative numbers)."
  },
  {
   "property": "C153",
   "status": "proved",
   "theorems": [
    "Reliability.Props.ParamsPlot.C153_hidden",
    "Reliability.Props.ParamsPlot.C153_stress_strain",
    "Reliability.Props.ParamsPlot.C153_strain_life",
    "Reliability.Props.ParamsPlot.C153_transition",
    "Reliability.Props.ParamsPlot.C153_exact_stress_strain",
    "Reliability.Props.ParamsPlot.C153_exact_strain_life",
    "Reliability.Props.ParamsPlot.C153_few_cycles_finding"
   ],
   "note": "The exact-data theorems take np.polyfit to be a least-squares line."
  },
  {
   "property": "C154",
   "status": "proved",
   "theorems": [
    "Reliability.Props.CreepPlot.C154_lines",
    "Reliability.Props.CreepPlot.C154_axes",
    "Reliability.Props.CreepPlot.C154_trace_outside_finding"
   ],
   "note": "Contiguous rows and a trace are needed for the claim (see C63 for what happens otherwise); C154_axes needs neither."
  },
  {
   "property": "C155",
   "status": "proved",
   "theorems": [
    "Reliability.Props.CrackPlot.C155_curves",
    "Reliability.Props.CrackPlot.C155_crossing",
    "Reliability.Props.CrackPlot.C155_guide",
    "Reliability.Props.CrackPlot.C155_axes",
    "Reliability.Props.CrackPlot.C155_final_length_finding",
    "Reliability.Props.CrackPlot.C155_outside_finding"
   ],
   "note": "Accepted as in C64; guide and axes for cracks that stay within the net section before the last cycle."
  },
  {
   "property": "C156",
   "status": "proved",
   "theorems": [
    "Reliability.Props.FitProbPlots.C156_panels",
    "Reliability.Props.FitProbPlots.C156_drawable"
   ],
   "note": "The 0.009 of Exponential_2P is a defect (C118_exponential_weibull_scale_finding). The model calls the class again where the code keeps the object of the first call."
  },
  {
   "property": "C157",
   "status": "proved",
   "theorems": [
    "Reliability.Props.FitProbPlotsALT.C157_single",
    "Reliability.Props.FitProbPlotsALT.C157_single_colours",
    "Reliability.Props.FitProbPlotsALT.C157_dual",
    "Reliability.Props.FitProbPlotsALT.C157_dual_colours"
   ],
   "note": "The model of the panels assumes a matplotlib whose plt.subplot returns an Axes (3.7 or later; ALT_prob_plot draws nothing otherwise) and computes the groups again where the code keeps the object of the first call. Admissible estimates and censored stresses with failures are stated as hypotheses."
  },
  {
   "property": "C158",
   "status": "proved",
   "theorems": [
    "Reliability.Props.FitterPlots.C158_plot",
    "Reliability.Props.FitterPlots.C158_grouped",
    "Reliability.Props.FitterPlots.C158_zero_inflated",
    "Reliability.Props.FitterPlots.C158_defective_zero_inflated",
    "Reliability.Props.FitterPlots.C158_hidden_finding"
   ],
   "note": "The hypotheses (no failure tied with a censored time, no downsampling, Plottable) are part of the statement. Labels, legends and titles are not modelled; the confidence band is C159. For Exponential_2P the drawn location is moved by the code's 0.009 (the aside of the statement). The zero-inflated classes need not show every point: C158_hidden_finding."
  },
  {
   "property": "C159",
   "status": "proved",
   "theorems": [
    "Reliability.Props.ProbBand.C159_time",
    "Reliability.Props.ProbBand.C159_reliability",
    "Reliability.Props.ProbBand.C159_exponential",
    "Reliability.Props.ProbBand.C159_none",
    "Reliability.Props.ProbBand.C159_object"
   ],
   "note": "Hypotheses: legal parameters and finite standard errors that a covariance matrix allows (a fit always reports finite ones); for Gamma with bounds on reliability the 0.99999 quantile is at least 0.0001 after the location (C140_gamma_finding shows what happens otherwise). Derivatives of the Gamma functions are the numerical ones of C80/C81. The band's colour is not modelled."
  },
  {
   "property": "C160",
   "status": "proved",
   "theorems": [
    "Reliability.Props.ColorPrint.C160_shows",
    "Reliability.Props.ColorPrint.C160_sequence",
    "Reliability.Props.ColorPrint.C160_refuses",
    "Reliability.Props.ColorPrint.C160_bold_finding"
   ],
   "note": "Letter case is ASCII. The terminal of the specification knows the SGR codes used."
  },
  {
   "property": "C161",
   "status": "proved",
   "theorems": [
    "Reliability.Props.UniqueFit.C161_weibull_2P",
    "Reliability.Props.UniqueFit.C161_loglogistic_2P",
    "Reliability.Props.UniqueFit.C161_normal_2P",
    "Reliability.Props.UniqueFit.C161_lognormal_2P",
    "Reliability.Props.UniqueFit.C161_gumbel_2P"
   ],
   "note": "Exactness of scipy's optimizer is an assumption (Spec.Exact). Fit_Exponential_1P is C163_exponential_1P with k = 1. The three-parameter fitters, Gamma and Beta are not covered."
  },
  {
   "property": "C162",
   "status": "proved",
   "theorems": [
    "Reliability.Props.UniqueFit.C162_lognormal_normal",
    "Reliability.Props.UniqueFit.C162_weibull_gumbel",
    "Reliability.Props.UniqueFit.C162_weibull_exponential"
   ],
   "note": "As C161."
  },
  {
   "property": "C163",
   "status": "proved",
   "theorems": [
    "Reliability.Props.UniqueFit.C163_weibull_2P",
    "Reliability.Props.UniqueFit.C163_loglogistic_2P",
    "Reliability.Props.UniqueFit.C163_lognormal_2P",
    "Reliability.Props.UniqueFit.C163_normal_2P",
    "Reliability.Props.UniqueFit.C163_gumbel_2P",
    "Reliability.Props.UniqueFit.C163_exponential_1P"
   ],
   "note": "As C161."
  },
  {
   "property": "C164",
   "status": "proved",
   "theorems": [
    "Reliability.Props.UniqueFit.C164_weibull_2P",
    "Reliability.Props.UniqueFit.C164_loglogistic_2P",
    "Reliability.Props.UniqueFit.C164_normal_2P",
    "Reliability.Props.UniqueFit.C164_lognormal_2P",
    "Reliability.Props.UniqueFit.C164_gumbel_2P"
   ],
   "note": "Finds and Exact are assumptions about the optimizer, met by the (noncomputable) optimizer of the example. Exact real arithmetic."
  },
  {
   "property": "C165",
   "status": "proved",
   "theorems": [
    "Reliability.Props.ALTGlue.C165_single",
    "Reliability.Props.ALTGlue.C165_dual",
    "Reliability.Props.ALTGlue.C165_dual_collinear_finding"
   ],
   "note": "Exactness of scipy's optimizer is an assumption (Spec.Exact). The Normal classes are not covered: their likelihood is not log-concave in these parameters. C165_dual_collinear_finding shows that the condition on the pairs of stresses cannot be dropped."
  },
  {
   "property": "C166",
   "status": "proved",
   "theorems": [
    "Reliability.Props.ALTGlue.C166_single",
    "Reliability.Props.ALTGlue.C166_dual"
   ],
   "note": "As C165; Spec.ALTGlue.convert lists the formulas."
  },
  {
   "property": "C167",
   "status": "proved",
   "theorems": [
    "Reliability.Props.ALTGlue.C167_single",
    "Reliability.Props.ALTGlue.C167_dual",
    "Reliability.Props.ALTGlue.C167_single_through_finding",
    "Reliability.Props.ALTGlue.C167_dual_through_finding",
    "Reliability.Props.UnitsALT.C167_everything_single",
    "Reliability.Props.UnitsALT.C167_everything_dual"
   ],
   "note": "Finds and Exact are assumptions about the optimizers, met by the (noncomputable) optimizer of the examples. C167_single_through_finding and C167_dual_through_finding show that the condition on the failures cannot be dropped."
  },
  {
   "property": "C168",
   "status": "proved",
   "theorems": [
    "Reliability.Props.UnitsReport.C168_weibull_2P",
    "Reliability.Props.UnitsReport.C168_lognormal_2P",
    "Reliability.Props.UnitsReport.C168_loglogistic_2P",
    "Reliability.Props.UnitsReport.C168_gumbel_2P",
    "Reliability.Props.UnitsReport.C168_normal_2P",
    "Reliability.Props.UnitsReport.C168_exponential_1P",
    "Reliability.Props.UnitsReport.C168_gamma_2P",
    "Reliability.Props.UnitsReport.C168_weibull_3P",
    "Reliability.Props.UnitsReport.C168_lognormal_3P",
    "Reliability.Props.UnitsReport.C168_loglogistic_3P",
    "Reliability.Props.UnitsReport.C168_exponential_2P",
    "Reliability.Props.UnitsReport.C168_gamma_3P",
    "Reliability.Props.UnitsReport.C168_beta_2P",
    "Reliability.Props.UnitsReport.C168_same_choice"
   ],
   "note": "Exactness of scipy's optimizer is an assumption (Spec.Exact); the estimates have to be positive (where the parameter is). The fitters with a location search for it up to 0.0001 below the first time and drop locations under 0.01, whatever the unit: for them the theorems ask for positive locations, each inside the search interval of the other run. A forced sigma of the Normal distribution has to be converted too. The Anderson-Darling statistic is not part of the claim."
  },
  {
   "property": "C169",
   "status": "proved",
   "theorems": [
    "Reliability.Props.UnitsEverything.C169_criteria",
    "Reliability.Props.UnitsEverything.C169_best_BIC",
    "Reliability.Props.UnitsEverything.C169_best_AICc",
    "Reliability.Props.UnitsEverything.C169_loglik",
    "Reliability.Props.UnitsEverything.C169_loglik_finding"
   ],
   "note": "Exactness of scipy's optimizer is an assumption (Spec.Exact), and the estimates have to be positive (except Mu). Sorting by log-likelihood is not part of the claim: the code sorts by its absolute value, so in a large enough unit it picks the highest and in a small enough unit the lowest log-likelihood (C169_loglik), and C169_loglik_finding gives data for which the choice changes with the unit. Distributions with a location, Beta, Mixture, Competing Risks and DS are outside: the location search of the code is not scale free (see C168). The theorems C121_returns_if_each_does and the example show that such calls return."
  },
  {
   "property": "C170",
   "status": "proved",
   "theorems": [
    "Reliability.Props.UnitsAD.C170_weibull_2P",
    "Reliability.Props.UnitsAD.C170_loglogistic_2P",
    "Reliability.Props.UnitsAD.C170_lognormal_2P",
    "Reliability.Props.UnitsAD.C170_normal_2P",
    "Reliability.Props.UnitsAD.C170_gumbel_2P",
    "Reliability.Props.UnitsAD.C170_exponential_1P",
    "Reliability.Props.UnitsAD.C170_rows",
    "Reliability.Props.UnitsAD.C170_best_AD"
   ],
   "note": "Exactness of scipy's optimizer is an assumption (Spec.Exact); the estimates have to be positive (except mu); the sorting routine may only compare (Spec.ComparisonSort), because with ties between failures and censored times the positions depend on its choice. Gamma_2P and the distributions with a location are not covered (no uniqueness of the maximum is proved for them)."
  },
  {
   "property": "C171",
   "status": "proved",
   "theorems": [
    "Reliability.Props.UnitsALT.C171_single",
    "Reliability.Props.UnitsALT.C171_dual",
    "Reliability.Props.UnitsALT.C171_rows_single",
    "Reliability.Props.UnitsALT.C171_rows_dual",
    "Reliability.Props.UnitsALT.C171_best_single",
    "Reliability.Props.UnitsALT.C171_best_dual"
   ],
   "note": "Exactness of scipy's optimizer is an assumption (Spec.Exact), and the estimates have to be admissible (positive where the model requires it). C167_everything_single and C167_everything_dual show when Fit_Everything_ALT returns such a table."
  },
  {
   "property": "C172",
   "status": "proved",
   "theorems": [
    "Reliability.Props.C172_KM_times",
    "Reliability.Props.C172_NA_times",
    "Reliability.Props.C172_RA_times",
    "Reliability.Props.C172_data_order",
    "Reliability.Props.C172_shared_time_finding"
   ],
   "note": "For times: the sort must depend only on comparisons (Spec.ComparisonSort, true of numpy's sorts). For the order of the data: any sort if no time is shared between failures and censored items, else stable sorts; C172_shared_time_finding shows the proviso is needed, since pandas sorts with quicksort."
  },
  {
   "property": "C173",
   "status": "proved",
   "theorems": [
    "Reliability.Repairable.C173_growth_rejects",
    "Reliability.Repairable.C173_crow",
    "Reliability.Repairable.C173_duane",
    "Reliability.Repairable.C173_replacement_old",
    "Reliability.Repairable.C173_replacement_currency",
    "Reliability.Repairable.C173_replacement_new_unit_finding"
   ],
   "note": "That alpha in another unit changes the answer for q=0, because times below 1 are never searched, is proved: C173_replacement_new_unit_finding. Data with all times equal is left out."
  },
  {
   "property": "C174",
   "status": "proved",
   "theorems": [
    "Reliability.Testing.C174_planner",
    "Reliability.Testing.C174_duration",
    "Reliability.Testing.C174_ks",
    "Reliability.Testing.C174_chi2",
    "Reliability.Testing.C174_rescaled",
    "Reliability.OtherFunctions.C174_stress_strength",
    "Reliability.OtherFunctions.C174_stress_strength_normal"
   ],
   "note": "scipy's chi2 and kstwo are parameters. The KS theorem covers every distribution whose CDF scales; C174_rescaled gives the parameters for seven families. In C174_chi2 numpy's choice of edges must follow the unit."
  },
  {
   "property": "C175",
   "status": "proved",
   "theorems": [
    "Reliability.Titles.C175_title",
    "Reliability.Titles.C175_long",
    "Reliability.Titles.C175_name2",
    "Reliability.Titles.C175_distinguishes",
    "Reliability.Titles.C175_same_title_finding"
   ],
   "note": "Parameters are finite floats, taken as the rational numbers they represent. The names of the competing-risks, mixture and DSZI models are not included."
  },
  {
   "property": "C176",
   "status": "proved",
   "theorems": [
    "Reliability.Props.C176_least_squares",
    "Reliability.Props.C176_two_parameter",
    "Reliability.Props.C176_gamma2",
    "Reliability.Props.C176_beta2",
    "Reliability.Props.C176_exponential1",
    "Reliability.Props.C176_exponential2",
    "Reliability.Props.C176_three_parameter",
    "Reliability.Props.C176_gamma3",
    "Reliability.Props.C176_shared_time_finding",
    "Reliability.Props.C176_everything",
    "Reliability.Props.C176_mixture",
    "Reliability.Props.C176_competing_risks",
    "Reliability.Props.C176_defective",
    "Reliability.Props.C176_defective_inflated",
    "Reliability.Props.C176_inflated"
   ],
   "note": "Exact arithmetic: in floating point the sums of the log-likelihood may differ in the last digits with the order of the summands. The answers of scipy (minimize, the non-linear least_squares, the kernel density estimate) do not depend on the order of the data; the objective handed to minimize is proved to be the same function with the same bounds. Fit_Everything: for one sorting function."
  },
  {
   "property": "C177",
   "status": "proved",
   "theorems": [
    "Reliability.Props.C177_grouped"
   ],
   "note": "Exact arithmetic; the optimizer's answers are the same arbitrary functions in both calls, the objective handed to it is proved to be the same function."
  },
  {
   "property": "C178",
   "status": "proved",
   "theorems": [
    "Reliability.Props.C178_single",
    "Reliability.Props.C178_dual",
    "Reliability.Props.C178_everything"
   ],
   "note": "Exact arithmetic: in floating point the sums may differ in the last digits with the order of the summands. The answers of scipy (minimize, the least squares inside the fits of the groups, the noise of the non-invertible handler) are the same arbitrary functions in both calls; the objective handed to minimize is proved to be the same function. Fit_Everything_ALT: for one sorting function (it also sorts the table)."
  },
  {
   "property": "C179",
   "status": "proved",
   "theorems": [
    "Reliability.Props.C179_KS",
    "Reliability.Props.C179_chi2",
    "Reliability.Props.C179_QQ",
    "Reliability.Props.C179_PP"
   ],
   "note": "chi2test with bins chosen by numpy: numpy's rule is an arbitrary function of the items that does not depend on their order."
  },
  {
   "property": "C180",
   "status": "proved",
   "theorems": [
    "Reliability.Props.UniqueFit.C180_weibull_2P",
    "Reliability.Props.UniqueFit.C180_loglogistic_2P",
    "Reliability.Props.UniqueFit.C180_normal_2P",
    "Reliability.Props.UniqueFit.C180_lognormal_2P",
    "Reliability.Props.UniqueFit.C180_gumbel_2P",
    "Reliability.Props.UniqueFit.C180_exponential_1P",
    "Reliability.Props.UniqueFit.C180_weibull_2P_errors",
    "Reliability.Props.UniqueFit.C180_loglogistic_2P_errors",
    "Reliability.Props.UniqueFit.C180_normal_2P_errors",
    "Reliability.Props.UniqueFit.C180_lognormal_2P_errors",
    "Reliability.Props.UniqueFit.C180_gumbel_2P_errors",
    "Reliability.Props.UniqueFit.C180_exponential_1P_errors",
    "Reliability.Props.ALTGlue.C180_single",
    "Reliability.Props.ALTGlue.C180_dual"
   ],
   "note": "As in C161 and C165: for optimizers that are exact (Spec/Optimizer.lean) and estimates that are positive where the family needs it. The Normal ALT fitters and the errors of the ALT fitters are not covered."
  },
  {
   "property": "C181",
   "status": "proved",
   "theorems": [
    "Reliability.Props.ReplicatedKM.C181_kaplan_meier",
    "Reliability.Props.ReplicatedKM.C181_nelson_aalen"
   ],
   "note": "For a stable sort, or any sort when no item is censored at a failure time (Spec.NoChoice). The bounds of NelsonAalen are not covered."
  }
 ]
}