{
 "C02": {
  "status": "partial",
  "note": "Round trip proved for the default codes, and for custom codes that are both strings / both numbers and not confusable; false for mixed codes (proved counterexample: np.hstack stringifies)."
 },
 "C07": {
  "status": "partial",
  "note": "Proved when the output codes are the defaults; false for custom output codes (proved: swap, and ValueError)."
 },
 "C13": {
  "status": "partial",
  "note": "Product-limit proved for every tie order that lists failures first (in particular every stable sort); false for an arbitrary (unstable) tie order, proved counterexample."
 },
 "C18": {
  "status": "partial",
  "note": "Alignment and complementarity proved for all three estimators. The extra step-bound claim (SF_lower<=SF<=SF_upper) holds at every index except possibly the last (proved counterexample)."
 },
 "C16": {
  "status": "proved",
  "note": "The CI=0 corner (bounds are nan) is proved separately as a finding."
 },
 "C21": {
  "status": "partial",
  "note": "Variance >= 0 and 0<lower<=MCF<=upper proved for CI>=0.5; for CI<0.5 the code's Z=-ppf(1-CI) is negative and the bounds are proved to come out inverted."
 },
 "C22": {
  "status": "partial",
  "note": "False as stated (proved counterexample: caller's lists are sorted in place). Proved exactly when it holds: already-sorted systems, or numpy input."
 },
 "C26": {
  "status": "partial",
  "note": "Trend decision, Laplace statistic and unit invariance proved in full. The constant-ROCOF value is failures/total time for failure-terminated tests; proved false (too large) when test_end is given."
 },
 "C24": {
  "status": "proved",
  "note": "Proved for the cost curve the code uses. Finding (proved): the q=1 curve charges cost_PM per failure and cost_CM per replacement, so under the usual minimal-repair model the answer is never optimal when PM<CM."
 },
 "C28": {
  "status": "proved",
  "note": "Proved for every chi-squared family with the listed laws (Chi2.Law; a concrete family satisfying them is given). number_of_failures mode for time-terminated tests; for failure-terminated tests a finding is proved (chi2 with 0 dof is nan, the impossibility check never fires)."
 },
 "C29": {
  "status": "partial",
  "note": "Bounds, edges, rejection and swap symmetry proved. The verdict is 'significant' iff 0 is not strictly inside the interval; with 0 on the boundary (e.g. two perfect samples, interval [0,0]) it says significant although 0 is in the closed interval (proved)."
 },
 "C30": {
  "status": "proved",
  "note": "Proved for p1<p2 and alpha+beta<1, including that the table is exactly Wald's SPRT; the code checks neither, and an overlap is proved without them."
 },
 "C31": {
  "status": "proved",
  "note": "For every chi2/cdf functions and counts up to the code's cap of 1e10. Findings proved: the answered test's producer's risk is not below the level; failure-terminated plans can answer nan."
 },
 "C37": {
  "status": "proved",
  "note": "For ascending xvals and components as the library creates them (no mass before 0 unless Normal/Gumbel; gamma >= 0)."
 },
 "C38": {
  "status": "partial",
  "note": "Weighted sums, equal default weights and ValueErrors proved; 'CDF between the smallest and largest component CDF' proved for non-negative proportions, and proved false otherwise (negative proportions are accepted)."
 },
 "C39": {
  "status": "partial",
  "note": "Proved for every ascending xvals; proved false for xvals with a non-negative value before a negative one, and the errors for all-negative xvals and Beta components are proved as findings."
 },
 "C40": {
  "status": "partial",
  "note": "All parts proved for scalar quantiles; findings proved: a list of quantiles is not checked against [ZI,DS]; random_samples raises ValueError if no draw is a failure; median attribute is the base's."
 },
 "C44": {
  "status": "proved",
  "note": "Argsort is an arbitrary (unstable) oracle. Corner: sort_by='AICC' (upper case) with mixed 'Insufficient data' raises TypeError (proved finding). NaN criteria not modelled."
 },
 "C45": {
  "status": "partial",
  "note": "Proved when no log-likelihood is positive; false otherwise (proved counterexample: sorted by absolute value)."
 },
 "C46": {
  "status": "partial",
  "note": "False for a list with fewer than 3 failures (proved: the caller's list grows by six names). Proved unchanged in all other cases."
 },
 "C47": {
  "status": "partial",
  "note": "Loop termination, success and reporting proved for every optimiser behaviour; 'no smaller negative log-likelihood' proved for non-positive log-likelihoods, false otherwise (proved counterexample: minimises |2LL|)."
 },
 "C48": {
  "status": "partial",
  "note": "Proved when neither log-likelihood is positive; otherwise the worse one is returned (proved)."
 },
 "C55": {
  "status": "partial",
  "note": "Extreme points kept, equal counts, M/2..M points by default, small inputs unchanged: proved. x and y are sorted separately, so the pairing is kept only when both are ascending (proved; counterexample proved for decreasing y)."
 },
 "C54": {
  "status": "proved",
  "note": "Proved for ascending X; a counterexample for unsorted X is proved as a finding."
 },
 "C74": {
  "status": "partial",
  "note": "Acceptance, refusals and pass-through proved in full. Groups proved right for dual-stress models always, and for single-stress models when every stress with censored data also has failures; otherwise the censored group is proved (counterexample) to be filed under the wrong stress."
 },
 "C52": {
  "status": "proved",
  "note": "Every axis scale, for every distribution parameter. The beta axis calls ss.beta with (beta, alpha) swapped; proved as a finding."
 },
 "C53": {
  "status": "proved",
  "note": "Corner cases excluded by hypothesis and proved separately as findings: xmax equal to the 0.0001 quantile overshoots; a negative xmax is accepted for a positive family."
 },
 "C57": {
  "status": "partial",
  "note": "Everything proved for all data, thresholds, fractions, shuffles and draws, except that a caller's ndarray is NOT left unchanged under fraction censoring (proved counterexample: it is shuffled in place, even when the call then raises); lists are. Negative data: proved finding (censored time exceeds the observation)."
 },
 "C58": {
  "status": "proved",
  "note": "Random numbers are arbitrary lists; samples from a distribution are an oracle indexed by the distribution asked for. Finding: dual-stress model with a scalar use level raises TypeError."
 },
 "C60": {
  "status": "proved",
  "note": "Probability statement is about independent Gaussian random variables on an arbitrary probability space."
 },
 "C75": {
  "status": "proved",
  "note": "Accuracy is conditional on a bound of the integrand's second derivative. Finding (proved): Normal/Gumbel combined with a positive family is a ValueError when the 1e-8 quantile is negative."
 },
 "C77": {
  "status": "partial",
  "note": "Contents, order and refusals proved. best_model_at_use_stress is right for 18 of the 24 models; for the dual-stress Lognormal and Exponential models it is proved wrong (mu=1/life, Lambda=life)."
 },
 "C62": {
  "status": "proved",
  "note": "Finding (proved): acceleration_factor given all three of AF, T_use, T_acc/Ea sets none of its outputs."
 },
 "C63": {
  "status": "partial",
  "note": "Proved for rows grouped by temperature with a trace; both other halves are proved false: omitting the trace is always a ValueError, and interleaved temperatures are sliced wrongly."
 },
 "C64": {
  "status": "proved",
  "note": "Findings proved: default un-notched edge crack is a ZeroDivisionError; stage-1 cycles reported as 0 when the transition length is never passed; the reported final length is the critical length even when stopped at a_final; simplified single-stage counts the notch depth as growth."
 },
 "C78": {
  "status": "proved",
  "note": "fsolve is modelled as an oracle returning some root; uniqueness of the root is proved. Findings proved: predicted life jumps up across yield; morrow and modified_morrow are the same."
 },
 "C79": {
  "status": "proved",
  "note": "Finding (proved): blanks are dropped column by column, so a time and a quantity of different rows can be paired silently."
 },
 "C82": {
  "status": "proved",
  "note": "Gamma: under the hypothesis that autograd_gamma's numerically computed derivatives are the exact ones (all other families: exact derivatives, no hypothesis)."
 },
 "C85": {
  "status": "partial",
  "note": "Exact result proved for every list (C85_reliability); containment proved for ascending lists or at most two values, and bounds on time for z*SE < Lambda*ln 10; false otherwise (two proved findings)."
 },
 "C86": {
  "status": "partial",
  "note": "All but the last clause proved; 'ignored on an unfitted distribution' is false (proved: TypeError)."
 },
 "C102": {
  "status": "partial",
  "note": "Labels are proved for every class. C102_outcome_*: without quantiles, accepted data either gives a result or TypeError whatever scipy's routines answer; C102_mle_returns_* (MLE, successful optimizers, no quantiles) exclude the TypeError. Least squares fits can raise it (C102_singular_finding), so the full claim is false. Quantile tables: C104."
 },
 "C108": {
  "status": "partial",
  "note": "returns are proved under: distinct failures (Mixture, CR), optimizers that succeed and answer within bounds, and ZI <= DS for DSZI; the findings show that ties and ZI > DS make the fits raise"
 },
 "C111": {
  "status": "partial",
  "note": "C111_outcome_*: whatever scipy's routines answer, the class returns or raises TypeError; with successful optimizers it returns (C111_single_partial, C111_dual_partial). Not covered: a censored stress of a single-stress fit that has no failures, and stresses whose failures are all tied (refused: C111_tied_failures_finding)."
 },
 "C114": {
  "status": "partial",
  "note": "The points, lines, acceptance and the complete-data values are proved; the pairing claim is false under censoring (C114_censored_finding) and true exactly when the estimates are symmetric (C114_correct_iff)."
 },
 "C115": {
  "status": "partial",
  "note": "Everything but quantile lines, which always raise ValueError (C115_quantile_lines_finding)."
 },
 "C117": {
  "status": "partial",
  "note": "Proved for positive times, or on papers that show negative times for at least two different times; C117_single_finding and C117_reversed_finding show what fails otherwise."
 },
 "C118": {
  "status": "partial",
  "note": "Proved for all nine plots; on the Weibull scale the Exponential's points are displaced by 0.009 when there is a location (C118_exponential states it, C118_exponential_weibull_scale_finding the consequence). Failure times equal to a censoring time are excluded (the plotting positions then depend on numpy's tie order)."
 },
 "C123": {
  "status": "partial",
  "note": "Rows, best model and single-stress use-level object are proved in full. The use-level object of the six dual-stress Lognormal and Exponential models is excepted because the code makes the claim false there (C77_lognormal_use_finding, C77_exponential_use_finding). Returning: C123_returns_iff_each_does (exactly when each of the wanted classes returns), and C123_returns_partial under the provisos of C111 (optimizers succeed, every censored stress also has failures)."
 },
 "C125": {
  "status": "proved",
  "note": "Two findings about the documentation: C125_large_whole_finding, C125_vanishes_finding."
 },
 "C124": {
  "status": "proved",
  "note": "C124_straddling_finding: the documented 'bins above this value' also takes in bins that begin below it."
 },
 "C126": {
  "status": "proved",
  "note": "Provided the quartiles of the failures differ: otherwise C126_overflow_finding (OverflowError). The axes of the P-P plot are swapped with respect to its title."
 },
 "C127": {
  "status": "proved",
  "note": "Provisos stated in C127_visible and C127_history; each is needed (four findings)."
 },
 "C128": {
  "status": "partial",
  "note": "False for lists of data values of the y-axis (C128_y_list_finding) and for the axis X (C128_capital_x_finding)."
 },
 "C129": {
  "status": "partial",
  "note": "False for percentages of 1 or more whose decimals are rounded up: the label is a whole percent too low (C129_percent_finding); C129_percent_partial says exactly when. %g is not modelled."
 },
 "C130": {
  "status": "proved",
  "note": "Finding C130_negative_edge_finding: the reset for negative edges is dead code (min(bin_edges < 0))."
 },
 "C131": {
  "status": "proved",
  "note": "For the QQ plot of data against a Normal or Gumbel distribution: provided the estimated survival does not reach 0 (there the code replaces -inf by 0, which may be out of order). Failures must not be tied with censored times (as in C118)."
 },
 "C132": {
  "status": "proved",
  "note": "Readable means that open() succeeds; existing files that cannot be read are replaced without asking (C132_unreadable_finding). Termination needs finitely many readable paths. Paths are compared as strings."
 },
 "C133": {
  "status": "proved",
  "note": "pandas' writing and reading of cells is assumed to be faithful for numbers, and for codes as far as the parameter readCode says. Output codes of xlsx_to_XCN must have their documented meaning (otherwise false: C07)."
 },
 "C134": {
  "status": "proved",
  "note": "Only for ax=True. Labels, titles, legend and ticks are not modelled. The original line of the Exponential classes is stated as what it is (C134_exponential_original_finding)."
 },
 "C135": {
  "status": "proved",
  "note": "The point of the line at stress 0 is left out. plt.xlim()[0] at the time of drawing is an arbitrary number. Failures beyond the z axis of the dual figure: matplotlib chooses the upper z limit."
 },
 "C136": {
  "status": "proved",
  "note": "Drawing is a list of curves; matplotlib's slider clipping is modelled as clamping to the range."
 },
 "C137": {
  "status": "proved",
  "note": "The generator is arbitrary, with scipy's contract (number of values, support) as hypothesis; for Beta the theorems speak about calls that return (C137_beta: enough rounds suffice; C137_beta_endless_finding)."
 },
 "C138": {
  "status": "proved",
  "note": "x-values are reals; infinite values of a curve are not represented. C138_scalar_finding: a single number is refused."
 },
 "C139": {
  "status": "proved",
  "note": "mplcursors' behaviour is assumed as stated in Model/Crosshairs.lean. The exceptions (decimals=0, look-alikes, later drawing) are findings."
 },
 "C140": {
  "status": "proved",
  "note": "Colours and the title are not modelled. Outside the stated provisos for Gamma and CHF the claim is false: C140_gamma_finding, C140_chf_finding. On a function scale (probability plots) the polygon of a CHF would be clipped to below 1, so FilledBetween is claimed for CDF and SF or an ordinary scale."
 },
 "C141": {
  "status": "partial",
  "note": "Everything but the acceptance of one x-value in a list, and of a number with limits, which the code does not provide: C141_one_value_finding, C141_number_limit_finding. Values are reals; fonts and margins are not modelled; after an error what is left on the canvas is not modelled."
 },
 "C142": {
  "status": "partial",
  "note": "The documented number of points and equality of the returned values with and without plot are false: C142_points_finding, C142_cap_finding; other errors: C142_components_finding, C142_plot_number_finding. The statistics are those of C119."
 },
 "C143": {
  "status": "partial",
  "note": "False where the findings C143_one_value_finding, C143_beta_finding, C143_range_finding, C143_message_finding, C143_plot_one_finding say; everything else is proved."
 },
 "C144": {
  "status": "partial",
  "note": "That the last point of the CHF is within the axes is false for NelsonAalen and RankAdjustment: C144_na_chf_finding, C144_ra_chf_finding. a = 1 is left out. Colours are not modelled."
 },
 "C145": {
  "status": "partial",
  "note": "That the line is within the axes is false for CI < 1/2: C145_np_low_CI_finding. Colours are not modelled."
 },
 "C146": {
  "status": "partial",
  "note": "On log scale the target's line can be below or left of the axes: C146_low_target_finding, C146_early_target_finding. The rank-deficient Duane case (all times equal) is not modelled; a linear plot assumes the axes were not already logarithmic."
 },
 "C147": {
  "status": "partial",
  "note": "That the optimum is within the axes is false for q=1 (C147_old_outside_finding; exact condition proved), and the curve is outside for alpha < 1/3, q=0 (C147_small_alpha_finding). Colours are not modelled."
 },
 "C148": {
  "status": "partial",
  "note": "False for q=1: C148_old_finding. For q=0 with exact integrals in place of scipy's quad."
 },
 "C149": {
  "status": "partial",
  "note": "That the flat line is the mean is false with test_end: C149_time_terminated_finding. A single failure at the very end of the test (infinite Beta_hat) is left out."
 },
 "C150": {
  "status": "proved",
  "note": "For loads with a positive largest stress, a mean stress below sigma_f, and a reversed strain if the mean stress is 0 (C150_stress_control shows stress control meets this). fsolve is taken to find a root (RootFinder). The equation in the legend is not modelled."
 },
 "C151": {
  "status": "proved",
  "note": "Positive stresses and cycles (SNData). polyfit is taken to be a least-squares line; scipy's t quantile is an oracle that is nonnegative above 1/2. Traces below the endurance limit are a proved finding."
 },
 "C152": {
  "status": "proved",
  "note": "Under the hypotheses of C93 (positive parameters, fsolve finds a root; compression needs 1/n odd, else the code takes roots of negative numbers)."
 },
 "C153": {
  "status": "proved",
  "note": "The exact-data theorems take np.polyfit to be a least-squares line."
 },
 "C154": {
  "status": "proved",
  "note": "Contiguous rows and a trace are needed for the claim (see C63 for what happens otherwise); C154_axes needs neither."
 },
 "C155": {
  "status": "proved",
  "note": "Accepted as in C64; guide and axes for cracks that stay within the net section before the last cycle."
 },
 "C156": {
  "status": "proved",
  "note": "The 0.009 of Exponential_2P is a defect (C118_exponential_weibull_scale_finding). The model calls the class again where the code keeps the object of the first call."
 },
 "C157": {
  "status": "proved",
  "note": "The model of the panels assumes a matplotlib whose plt.subplot returns an Axes (3.7 or later; ALT_prob_plot draws nothing otherwise) and computes the groups again where the code keeps the object of the first call. Admissible estimates and censored stresses with failures are stated as hypotheses."
 },
 "C158": {
  "status": "proved",
  "note": "The hypotheses (no failure tied with a censored time, no downsampling, Plottable) are part of the statement. Labels, legends and titles are not modelled; the confidence band is C159. For Exponential_2P the drawn location is moved by the code's 0.009 (the aside of the statement). The zero-inflated classes need not show every point: C158_hidden_finding."
 },
 "C159": {
  "status": "proved",
  "note": "Hypotheses: legal parameters and finite standard errors that a covariance matrix allows (a fit always reports finite ones); for Gamma with bounds on reliability the 0.99999 quantile is at least 0.0001 after the location (C140_gamma_finding shows what happens otherwise). Derivatives of the Gamma functions are the numerical ones of C80/C81. The band's colour is not modelled."
 },
 "C160": {
  "status": "proved",
  "note": "Letter case is ASCII. The terminal of the specification knows the SGR codes used."
 },
 "C161": {
  "status": "proved",
  "note": "Exactness of scipy's optimizer is an assumption (Spec.Exact). Fit_Exponential_1P is C163_exponential_1P with k = 1. The three-parameter fitters, Gamma and Beta are not covered."
 },
 "C162": {
  "status": "proved",
  "note": "As C161."
 },
 "C163": {
  "status": "proved",
  "note": "As C161."
 },
 "C164": {
  "status": "proved",
  "note": "Finds and Exact are assumptions about the optimizer, met by the (noncomputable) optimizer of the example. Exact real arithmetic."
 },
 "C165": {
  "status": "proved",
  "note": "Exactness of scipy's optimizer is an assumption (Spec.Exact). The Normal classes are not covered: their likelihood is not log-concave in these parameters. C165_dual_collinear_finding shows that the condition on the pairs of stresses cannot be dropped."
 },
 "C166": {
  "status": "proved",
  "note": "As C165; Spec.ALTGlue.convert lists the formulas."
 },
 "C167": {
  "status": "proved",
  "note": "Finds and Exact are assumptions about the optimizers, met by the (noncomputable) optimizer of the examples. C167_single_through_finding and C167_dual_through_finding show that the condition on the failures cannot be dropped."
 },
 "C168": {
  "status": "proved",
  "note": "Exactness of scipy's optimizer is an assumption (Spec.Exact); the estimates have to be positive (where the parameter is). The fitters with a location search for it up to 0.0001 below the first time and drop locations under 0.01, whatever the unit: for them the theorems ask for positive locations, each inside the search interval of the other run. A forced sigma of the Normal distribution has to be converted too. The Anderson-Darling statistic is not part of the claim."
 },
 "C169": {
  "status": "proved",
  "note": "Exactness of scipy's optimizer is an assumption (Spec.Exact), and the estimates have to be positive (except Mu). Sorting by log-likelihood is not part of the claim: the code sorts by its absolute value, so in a large enough unit it picks the highest and in a small enough unit the lowest log-likelihood (C169_loglik), and C169_loglik_finding gives data for which the choice changes with the unit. Distributions with a location, Beta, Mixture, Competing Risks and DS are outside: the location search of the code is not scale free (see C168). The theorems C121_returns_if_each_does and the example show that such calls return."
 },
 "C170": {
  "status": "proved",
  "note": "Exactness of scipy's optimizer is an assumption (Spec.Exact); the estimates have to be positive (except mu); the sorting routine may only compare (Spec.ComparisonSort), because with ties between failures and censored times the positions depend on its choice. Gamma_2P and the distributions with a location are not covered (no uniqueness of the maximum is proved for them)."
 },
 "C171": {
  "status": "proved",
  "note": "Exactness of scipy's optimizer is an assumption (Spec.Exact), and the estimates have to be admissible (positive where the model requires it). C167_everything_single and C167_everything_dual show when Fit_Everything_ALT returns such a table."
 },
 "C172": {
  "status": "proved",
  "note": "For times: the sort must depend only on comparisons (Spec.ComparisonSort, true of numpy's sorts). For the order of the data: any sort if no time is shared between failures and censored items, else stable sorts; C172_shared_time_finding shows the proviso is needed, since pandas sorts with quicksort."
 },
 "C173": {
  "status": "proved",
  "note": "That alpha in another unit changes the answer for q=0, because times below 1 are never searched, is proved: C173_replacement_new_unit_finding. Data with all times equal is left out."
 },
 "C174": {
  "status": "proved",
  "note": "scipy's chi2 and kstwo are parameters. The KS theorem covers every distribution whose CDF scales; C174_rescaled gives the parameters for seven families. In C174_chi2 numpy's choice of edges must follow the unit."
 },
 "C175": {
  "status": "proved",
  "note": "Parameters are finite floats, taken as the rational numbers they represent. The names of the competing-risks, mixture and DSZI models are not included."
 },
 "C176": {
  "status": "proved",
  "note": "Exact arithmetic: in floating point the sums of the log-likelihood may differ in the last digits with the order of the summands. The answers of scipy (minimize, the non-linear least_squares, the kernel density estimate) do not depend on the order of the data; the objective handed to minimize is proved to be the same function with the same bounds. Fit_Everything: for one sorting function."
 },
 "C177": {
  "status": "proved",
  "note": "Exact arithmetic; the optimizer's answers are the same arbitrary functions in both calls, the objective handed to it is proved to be the same function."
 },
 "C178": {
  "status": "proved",
  "note": "Exact arithmetic: in floating point the sums may differ in the last digits with the order of the summands. The answers of scipy (minimize, the least squares inside the fits of the groups, the noise of the non-invertible handler) are the same arbitrary functions in both calls; the objective handed to minimize is proved to be the same function. Fit_Everything_ALT: for one sorting function (it also sorts the table)."
 },
 "C179": {
  "status": "proved",
  "note": "chi2test with bins chosen by numpy: numpy's rule is an arbitrary function of the items that does not depend on their order."
 },
 "C180": {
  "status": "proved",
  "note": "As in C161 and C165: for optimizers that are exact (Spec/Optimizer.lean) and estimates that are positive where the family needs it. The Normal ALT fitters and the errors of the ALT fitters are not covered."
 },
 "C181": {
  "status": "proved",
  "note": "For a stable sort, or any sort when no item is censored at a failure time (Spec.NoChoice). The bounds of NelsonAalen are not covered."
 }
}