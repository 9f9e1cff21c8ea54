{"id": "C01", "title": "FR -> FNRN -> FR round trip", "statement": "Converting failures/right-censored lists to grouped FNRN format and back returns exactly the same failures and the same right-censored values (each in ascending order); right_censored comes back as None exactly when there was none.", "quantifier": "all failure lists and all (possibly absent) right-censored lists of any length and content", "why_tests_cant": "A unit test fixes one data set; the claim ranges over every data set of every length, including every pattern of ties and censoring.", "anchors": ["reliability/Convert_data.py:FR_to_FNRN", "reliability/Convert_data.py:FNRN_to_FR"]}
{"id": "C02", "title": "FR -> XCN -> FR round trip", "statement": "Converting failures/right-censored lists to XCN format (default codes) and back loses and invents nothing: the multiset of failures and the multiset of right-censored times are unchanged.", "quantifier": "all failure and right-censored lists of any length", "why_tests_cant": "A unit test fixes one data set; the claim ranges over every data set of every length, including every pattern of ties and censoring.", "anchors": ["reliability/Convert_data.py:FR_to_XCN", "reliability/Convert_data.py:XCN_to_FR"]}
{"id": "C03", "title": "FNRN grouping is an exact histogram", "statement": "After FR_to_FNRN (and XCN_to_FNRN) each list of times is strictly increasing with no duplicates, every quantity is at least 1 and equals the number of occurrences of that time in the input, and the quantities sum to the number of observations.", "quantifier": "all inputs of any length", "why_tests_cant": "A unit test fixes one data set; the claim ranges over every data set of every length, including every pattern of ties and censoring.", "anchors": ["reliability/Convert_data.py:FR_to_FNRN", "reliability/Convert_data.py:XCN_to_FNRN"]}
{"id": "C04", "title": "FNRN -> XCN -> FNRN round trip", "statement": "Grouped data converted to XCN and back has, for each failure time and each censoring time, the same total quantity; a grouped data set that is already strictly increasing with positive quantities comes back identically.", "quantifier": "all grouped data sets of any length", "why_tests_cant": "A unit test fixes one data set; the claim ranges over every data set of every length, including every pattern of ties and censoring.", "anchors": ["reliability/Convert_data.py:FNRN_to_XCN", "reliability/Convert_data.py:XCN_to_FNRN"]}
{"id": "C05", "title": "XCN censor codes are classified by a fixed precedence", "statement": "XCN_to_FR/XCN_to_FNRN put every row on exactly one side: a row is a failure if its (upper-cased) code equals the user's failure_code, else censored if it equals the user's censor_code, else failure if in the documented failure names, else censored if in the documented censor names, and otherwise the whole conversion raises ValueError. A row with quantity N contributes exactly N copies.", "quantifier": "all X, C, N of any length, all user codes", "why_tests_cant": "A unit test fixes one data set; the claim ranges over every data set of every length, including every pattern of ties and censoring.", "anchors": ["reliability/Convert_data.py:XCN_to_FR", "reliability/Convert_data.py:XCN_to_FNRN"]}
{"id": "C06", "title": "XCN conversion does not depend on row order", "statement": "Permuting the rows of an XCN data set permutes the XCN_to_FR lists and leaves the XCN_to_FNRN result completely unchanged.", "quantifier": "all XCN data sets and all permutations of their rows", "why_tests_cant": "A unit test fixes one data set; the claim ranges over every data set of every length, including every pattern of ties and censoring.", "anchors": ["reliability/Convert_data.py:XCN_to_FNRN", "reliability/Convert_data.py:XCN_to_FR"]}
{"id": "C07", "title": "xlsx_to_XCN: derived FR data agrees with the X, C, N it reports", "statement": "The failures and right_censored that xlsx_to_XCN derives are those rows its own C column marks as failed / censored, whatever failure and censor codes the user selected.", "quantifier": "all spreadsheets and all user-selected codes", "why_tests_cant": "The custom-code branch interacts with the default code tables; only a claim over every pair of codes exposes the swap.", "anchors": ["reliability/Convert_data.py:xlsx_to_XCN"]}
{"id": "C08", "title": "Plotting positions are the adjusted-rank estimator", "statement": "plotting_positions returns, for the j-th failure in time order, F=(r_j-a)/(n+1-2a) where the adjusted rank r_j follows r_j = r_{j-1} + (n+1-r_{j-1})/(1+ number of items at or beyond that failure); both code branches (first item failed / first item censored) agree with it.", "quantifier": "all failure/censored data of any length, any tie order chosen by the sort, every a in [0,1]", "why_tests_cant": "A unit test fixes one data set; the claim ranges over every data set of every length, including every pattern of ties and censoring.", "anchors": ["reliability/Probability_plotting.py:plotting_positions"]}
{"id": "C09", "title": "Plotting positions are strictly increasing probabilities", "statement": "In time order the plotting positions are strictly increasing and lie in [0,1] (strictly inside (0,1) when a<1, in particular for the default a=0.3); there is exactly one per failure.", "quantifier": "all data sets with at least one failure, any censoring pattern, every a in [0,1] (n>1 if a=1)", "why_tests_cant": "A unit test fixes one data set; the claim ranges over every data set of every length, including every pattern of ties and censoring.", "anchors": ["reliability/Probability_plotting.py:plotting_positions"]}
{"id": "C10", "title": "Complete-data plotting positions are (i-a)/(n+1-2a)", "statement": "With no censored data, the i-th smallest failure receives exactly (i-a)/(n+1-2a); the median-rank approximation (i-0.3)/(n+0.4) is the a=0.3 case.", "quantifier": "all complete samples of any size, every a", "why_tests_cant": "A unit test fixes one data set; the claim ranges over every data set of every length, including every pattern of ties and censoring.", "anchors": ["reliability/Probability_plotting.py:plotting_positions"]}
{"id": "C11", "title": "plotting_positions sort option", "statement": "sort=True returns the points in ascending time order; sort=False returns the same points in the order the user supplied the failures, so x is exactly the failures list given.", "quantifier": "all data sets, both values of sort", "why_tests_cant": "A unit test fixes one data set; the claim ranges over every data set of every length, including every pattern of ties and censoring.", "anchors": ["reliability/Probability_plotting.py:plotting_positions"]}
{"id": "C12", "title": "Kaplan-Meier estimate is a survival curve", "statement": "The KM column is within [0,1] and never increases with time, for every data set accepted by KaplanMeier.", "quantifier": "all data of any length, any censoring and tie order", "why_tests_cant": "A unit test fixes one data set; the claim ranges over every data set of every length, including every pattern of ties and censoring.", "anchors": ["reliability/Nonparametric.py:KaplanMeier"]}
{"id": "C13", "title": "Kaplan-Meier is the product-limit estimator", "statement": "The KM value reported at an observation equals the product over distinct failure times t' not later than it of (1 - d(t')/n(t')), whenever failures precede censorings at tied times; with a censoring sorted before a tied failure the reported value can differ.", "quantifier": "all data sets of any length and tie structure", "why_tests_cant": "A unit test fixes one data set; the claim ranges over every data set of every length, including every pattern of ties and censoring.", "anchors": ["reliability/Nonparametric.py:KaplanMeier"]}
{"id": "C14", "title": "Kaplan-Meier on complete data is the empirical survival", "statement": "With no censoring KM after the i-th of n failures is (n-i)/n; in general KM reaches 0 exactly when the last observation is a failure.", "quantifier": "all data sets", "why_tests_cant": "A unit test fixes one data set; the claim ranges over every data set of every length, including every pattern of ties and censoring.", "anchors": ["reliability/Nonparametric.py:KaplanMeier"]}
{"id": "C15", "title": "Kaplan-Meier confidence bounds bracket the estimate", "statement": "For every CI in (0,1) and every row, 0 <= lower <= KM <= upper <= 1, and the Greenwood variance term never decreases while KM>0.", "quantifier": "all data sets, all CI levels", "why_tests_cant": "A unit test fixes one data set; the claim ranges over every data set of every length, including every pattern of ties and censoring.", "anchors": ["reliability/Nonparametric.py:KaplanMeier"]}
{"id": "C16", "title": "Nelson-Aalen estimate", "statement": "NelsonAalen's CHF equals the sum of 1/(items remaining) over failures so far, is non-decreasing, its SF=exp(-CHF) lies in (0,1], never increases, and is never below the Kaplan-Meier value at the same row.", "quantifier": "all data sets of any length", "why_tests_cant": "A unit test fixes one data set; the claim ranges over every data set of every length, including every pattern of ties and censoring.", "anchors": ["reliability/Nonparametric.py:NelsonAalen", "reliability/Nonparametric.py:KaplanMeier"]}
{"id": "C17", "title": "Rank adjustment SF is the complement of the plotting positions", "statement": "RankAdjustment's SF at each failure is 1 minus the plotting position, stays constant across censored rows, never increases, and lies in [0,1].", "quantifier": "all data sets, every a in [0,1]", "why_tests_cant": "A unit test fixes one data set; the claim ranges over every data set of every length, including every pattern of ties and censoring.", "anchors": ["reliability/Nonparametric.py:RankAdjustment", "reliability/Probability_plotting.py:plotting_positions"]}
{"id": "C18", "title": "Non-parametric step arrays are aligned and complementary", "statement": "xvals, SF, CDF, CHF and every bound array returned by the nonparametric estimators have equal length; CDF=1-SF, the CDF lower bound is 1 minus the SF upper bound, CHF=-ln(SF); the curve starts at (0,1), is a staircase (only vertical and horizontal segments) through the table's rows, and ends at the last row.", "quantifier": "all data sets", "why_tests_cant": "A unit test fixes one data set; the claim ranges over every data set of every length, including every pattern of ties and censoring.", "anchors": ["reliability/Nonparametric.py:KaplanMeier", "reliability/Nonparametric.py:NelsonAalen"]}
{"id": "C19", "title": "MCF is the sum of reciprocal risk-set sizes", "statement": "MCF_nonparametric reports at each repair time the sum, over repairs so far (in the sorted order), of 1/(number of systems whose observation has not ended); it is strictly increasing over repair rows and at least 1/(number of systems) times the number of repairs.", "quantifier": "all collections of systems with any repair histories", "why_tests_cant": "Counting of systems at risk interacts with ties between repairs and end times over histories of any length.", "anchors": ["reliability/Repairable_systems.py:MCF_nonparametric"]}
{"id": "C20", "title": "MCF does not depend on system order", "statement": "The MCF table is the same however the systems are listed and however each system's times are ordered.", "quantifier": "all histories and all permutations", "why_tests_cant": "A unit test fixes one data set; the claim ranges over every data set of every length, including every pattern of ties and censoring.", "anchors": ["reliability/Repairable_systems.py:MCF_nonparametric"]}
{"id": "C21", "title": "MCF confidence bounds bracket the MCF", "statement": "The reported variance is non-negative and lower bound <= MCF <= upper bound at each repair row, for every confidence level.", "quantifier": "all histories, all CI", "why_tests_cant": "A unit test fixes one data set; the claim ranges over every data set of every length, including every pattern of ties and censoring.", "anchors": ["reliability/Repairable_systems.py:MCF_nonparametric"]}
{"id": "C22", "title": "MCF_nonparametric leaves the caller's data untouched", "statement": "Calling MCF_nonparametric does not alter the lists passed in.", "quantifier": "all inputs", "why_tests_cant": "Aliasing of nested mutable lists is invisible to value-based assertions on the result.", "anchors": ["reliability/Repairable_systems.py:MCF_nonparametric"]}
{"id": "C23", "title": "Reliability growth: fitted model reproduces demonstrated MTBF", "statement": "For Crow-AMSAA, Lambda*T^Beta equals the number of failures, cumulative MTBF at T is T/n, instantaneous MTBF at T is cumulative/Beta, and growth (Beta<1) makes instantaneous exceed cumulative; time_to_target is the time at which the fitted cumulative (Duane/Crow-AMSAA) MTBF equals target_MTBF.", "quantifier": "all lists of positive failure times, all targets", "why_tests_cant": "Tests evaluate finitely many real parameter/argument combinations; the claim is over a continuum.", "anchors": ["reliability/Repairable_systems.py:reliability_growth"]}
{"id": "C24", "title": "Optimal replacement time minimises cost per unit time", "statement": "For q=1 (as good as old) the returned optimal replacement time attains the minimum of the cost-per-unit-time curve over all positive times whenever the Weibull shape exceeds 1, and min_cost is that minimum; for q=0 the returned time is the grid point with the least reported cost.", "quantifier": "all cost pairs with cost_PM<=cost_CM, all Weibull scales and shapes>1, all times", "why_tests_cant": "Tests evaluate finitely many real parameter/argument combinations; the claim is over a continuum.", "anchors": ["reliability/Repairable_systems.py:optimal_replacement_time"]}
{"id": "C25", "title": "ROCOF treats failure times and inter-arrival times alike", "statement": "ROCOF gives the same trend, U statistic and parameters from failure_times as from the corresponding times_between_failures.", "quantifier": "all failure histories, all test_end values, all CI", "why_tests_cant": "A unit test fixes one data set; the claim ranges over every data set of every length, including every pattern of ties and censoring.", "anchors": ["reliability/Repairable_systems.py:ROCOF"]}
{"id": "C26", "title": "ROCOF trend decision", "statement": "The trend is 'worsening' exactly when U > z_crit upper, 'improving' exactly when U < z_crit lower, 'constant' otherwise; U is unchanged by a change of time unit; in the constant case the ROCOF equals number of failures divided by total observation time.", "quantifier": "all failure histories, all CI", "why_tests_cant": "Tests evaluate finitely many real parameter/argument combinations; the claim is over a continuum.", "anchors": ["reliability/Repairable_systems.py:ROCOF"]}
{"id": "C27", "title": "sample_size_no_failures returns the least sufficient sample size", "statement": "The returned n is the smallest number of items for which zero failures over the given number of lifetimes demonstrates the required reliability at the requested confidence: 1-R^(n*L^beta) >= CI holds for n and fails for n-1.", "quantifier": "all reliabilities and confidences in (0,1), lifetimes>0, shapes>0", "why_tests_cant": "Tests evaluate finitely many real parameter/argument combinations; the claim is over a continuum.", "anchors": ["reliability/Reliability_testing.py:sample_size_no_failures"]}
{"id": "C28", "title": "reliability_test_planner solves each unknown consistently", "statement": "Whichever one of MTBF, number_of_failures, test_duration, CI is left out, the value returned satisfies the planner's relation MTBF = 2*T/chi2 with the other three (for number_of_failures: it is the largest count whose MTBF bound still meets the requirement), so planning and re-planning agree.", "quantifier": "all positive inputs, one- and two-sided, time and failure terminated, for any monotone chi-squared quantile", "why_tests_cant": "Tests evaluate finitely many real parameter/argument combinations; the claim is over a continuum.", "anchors": ["reliability/Reliability_testing.py:reliability_test_planner"]}
{"id": "C29", "title": "Proportion tests", "statement": "one_sample_proportion returns the exact (Clopper-Pearson) bounds: the success probabilities at which the observed count or more, respectively or fewer, has probability (1-CI)/2, one-sided (1-CI) at 0 and n successes, with 0<=lower<=upper<=1; two_proportion_test returns the Wald interval of the difference and gives negated, swapped bounds and the same verdict when the samples are swapped; its verdict is 'significant' exactly when 0 is outside the interval.", "quantifier": "all trial/success counts, all CI", "why_tests_cant": "Tests evaluate finitely many real parameter/argument combinations; the claim is over a continuum.", "anchors": ["reliability/Reliability_testing.py:one_sample_proportion", "reliability/Reliability_testing.py:two_proportion_test"]}
{"id": "C30", "title": "sequential_sampling_chart regions", "statement": "In the decision table the acceptance number is never greater than the rejection number, both are non-decreasing in the number of samples, an accept decision is never offered when fewer than zero failures would be needed, and accept/reject never overlap.", "quantifier": "all p1<p2, alpha, beta and all sample counts", "why_tests_cant": "Tests evaluate finitely many real parameter/argument combinations; the claim is over a continuum.", "anchors": ["reliability/Reliability_testing.py:sequential_sampling_chart"]}
{"id": "C31", "title": "reliability_test_duration stops at the right failure count", "statement": "The duration returned is the one planned for the last failure count before the producer's risk first drops below the required level (for zero failures if it is already below there); the search always ends.", "quantifier": "all required/design MTBFs and risks", "why_tests_cant": "Tests evaluate finitely many real parameter/argument combinations; the claim is over a continuum.", "anchors": ["reliability/Reliability_testing.py:reliability_test_duration"]}
{"id": "C32", "title": "KStest statistic is the supremum distance", "statement": "The KS statistic is at least |F_fitted(x)-F_empirical(x)| at every x (both sides of each jump), is attained, and the hypothesis is accepted exactly when it is below the critical value.", "quantifier": "all samples of any size, every monotone fitted CDF, all real x", "why_tests_cant": "Tests evaluate finitely many real parameter/argument combinations; the claim is over a continuum.", "anchors": ["reliability/Reliability_testing.py:KStest"]}
{"id": "C33", "title": "CDF and SF are complementary survival laws", "statement": "For all eight distributions: 0<=CDF<=1, CDF is continuous and non-decreasing from 0 to 1, CDF+SF=1 at every x, and CDF is 0 up to the location shift gamma; vectors of xvals are accepted or rejected as documented and evaluated entry by entry.", "quantifier": "all valid parameters and all x", "why_tests_cant": "Tests evaluate finitely many real parameter/argument combinations; the claim is over a continuum.", "anchors": ["reliability/Distributions.py:Weibull_Distribution", "reliability/Distributions.py:Exponential_Distribution", "reliability/Distributions.py:Loglogistic_Distribution", "reliability/Distributions.py:Gumbel_Distribution"]}
{"id": "C34", "title": "quantile and inverse_SF invert CDF and SF", "statement": "quantile(CDF(x))=x and CDF(quantile(q))=q for every q in (0,1) and every x in the support; inverse_SF(q)=quantile(1-q); out-of-range q raises ValueError.", "quantifier": "all valid parameters, all q in (0,1)", "why_tests_cant": "Tests evaluate finitely many real parameter/argument combinations; the claim is over a continuum.", "anchors": ["reliability/Distributions.py:Weibull_Distribution.quantile", "reliability/Distributions.py:Weibull_Distribution.inverse_SF"]}
{"id": "C35", "title": "Hazard identities", "statement": "HF = PDF/SF, CHF = -ln(SF), PDF is the derivative of CDF and HF the derivative of CHF at every point of the support.", "quantifier": "all valid parameters, all x in the support", "why_tests_cant": "Tests evaluate finitely many real parameter/argument combinations; the claim is over a continuum.", "anchors": ["reliability/Distributions.py"]}
{"id": "C36", "title": "The stated mode maximises the PDF", "statement": "The mode attribute is a maximiser of the PDF (Weibull/Loglogistic/Gamma with shape>=1, Exponential, Gumbel, Normal, Lognormal, Beta with both shapes>1); for shape<1 the density grows without bound at the reported mode gamma.", "quantifier": "all valid parameters, all x", "why_tests_cant": "Tests evaluate finitely many real parameter/argument combinations; the claim is over a continuum.", "anchors": ["reliability/Distributions.py"]}
{"id": "C37", "title": "Competing risks model", "statement": "Competing_Risks_Model: SF is the product of the component SFs, HF is the sum of the component HFs, CDF is at least every component's CDF, order of the components does not matter.", "quantifier": "all non-empty lists of components, all x", "why_tests_cant": "Tests evaluate finitely many real parameter/argument combinations; the claim is over a continuum.", "anchors": ["reliability/Distributions.py:Competing_Risks_Model"]}
{"id": "C38", "title": "Mixture model", "statement": "Mixture_Model: CDF/SF/PDF are the proportion-weighted sums, CDF lies between the smallest and largest component CDF, omitted proportions default to equal weights, proportions that do not sum to 1 or do not match in number raise ValueError.", "quantifier": "all component lists and proportions, all x", "why_tests_cant": "Tests evaluate finitely many real parameter/argument combinations; the claim is over a continuum.", "anchors": ["reliability/Distributions.py:Mixture_Model"]}
{"id": "C39", "title": "Model arrays stay aligned with xvals", "statement": "For a vector of xvals, the i-th entry of PDF/CDF/SF/HF/CHF of a Mixture or Competing risks model is the value at the i-th x.", "quantifier": "all xvals vectors (any order, any sign)", "why_tests_cant": "Alignment errors occur only for particular orders of positive and negative xvals.", "anchors": ["reliability/Distributions.py:Mixture_Model", "reliability/Distributions.py:Competing_Risks_Model"]}
{"id": "C40", "title": "DSZI model", "statement": "DSZI_Model: CDF is non-decreasing from ZI to DS, SF=1-CDF>=1-DS, quantile inverts the CDF on [ZI,DS] to within the resolution of its internal grid and rejects values outside, DS=1 and ZI=0 reproduce the base distribution, random samples return exactly the requested number of values with the documented split.", "quantifier": "all base distributions, 0<=ZI<DS<=1, all x", "why_tests_cant": "Tests evaluate finitely many real parameter/argument combinations; the claim is over a continuum.", "anchors": ["reliability/Distributions.py:DSZI_Model"]}
{"id": "C41", "title": "Fitters' log-likelihood is the likelihood of the fitted distribution", "statement": "For every parametric fitter the reported loglik equals the sum of log PDF over failures plus the sum of log SF over right-censored data, where PDF and SF are those of the distribution object returned.", "quantifier": "all data sets, all valid parameters", "why_tests_cant": "Tests evaluate finitely many real parameter/argument combinations; the claim is over a continuum.", "anchors": ["reliability/Fitters.py:LL functions", "reliability/Distributions.py"]}
{"id": "C42", "title": "Grouped Weibull likelihood equals the ungrouped one", "statement": "Fit_Weibull_2P_grouped's likelihood on (time, quantity) data equals Fit_Weibull_2P's likelihood on the data with each time repeated quantity times.", "quantifier": "all grouped data sets of any size", "why_tests_cant": "A unit test fixes one data set; the claim ranges over every data set of every length, including every pattern of ties and censoring.", "anchors": ["reliability/Fitters.py:Fit_Weibull_2P_grouped.LL", "reliability/Fitters.py:Fit_Weibull_2P.LL"]}
{"id": "C43", "title": "AICc and BIC", "statement": "AICc = 2k - 2 loglik + (2k^2+2k)/(n-k-1) when n-k-1>0 and 'Insufficient data' otherwise, BIC = k ln n - 2 loglik; forcing a parameter reduces k by one; for equal loglik fewer parameters ranks strictly better.", "quantifier": "all n, k, loglik", "why_tests_cant": "Tests evaluate finitely many real parameter/argument combinations; the claim is over a continuum.", "anchors": ["reliability/Fitters.py"]}
{"id": "C44", "title": "Fit_Everything picks the best-ranked distribution", "statement": "results is sorted by the chosen criterion, best_distribution_name is its first row so no fitted distribution has a smaller value of the criterion, every non-excluded distribution appears exactly once and excluded ones never.", "quantifier": "all fit outcomes, all exclude lists, all sort_by values", "why_tests_cant": "A unit test fixes one data set; the claim ranges over every data set of every length, including every pattern of ties and censoring.", "anchors": ["reliability/Fitters.py:Fit_Everything"]}
{"id": "C45", "title": "sort_by log-likelihood ranks the most likely distribution first", "statement": "When sorting by log-likelihood the first row has the largest log-likelihood.", "quantifier": "all fit outcomes", "why_tests_cant": "Depends on the sign of the log-likelihoods.", "anchors": ["reliability/Fitters.py:Fit_Everything"]}
{"id": "C46", "title": "Fitters do not alter the caller's exclude list", "statement": "Fit_Everything leaves the exclude list passed in unchanged.", "quantifier": "all inputs", "why_tests_cant": "Aliasing", "anchors": ["reliability/Fitters.py:Fit_Everything"]}
{"id": "C47", "title": "MLE optimisation loop terminates and returns the best success", "statement": "For every optimiser behaviour the refinement loop ends within five runs, the optimiser reported is one that succeeded and no successful optimiser tried had a smaller negative log-likelihood; if none succeed the initial guess is returned with optimizer None.", "quantifier": "all optimiser outcomes (success flags, values) and all optimiser selections", "why_tests_cant": "The number of runs and winners depends on arbitrary optimiser behaviour.", "anchors": ["reliability/Utils.py:MLE_optimization"]}
{"id": "C48", "title": "Least squares method selection", "statement": "method='LS' returns the estimate from whichever of RRX and RRY has the better log-likelihood.", "quantifier": "all data", "why_tests_cant": "Tests evaluate finitely many real parameter/argument combinations; the claim is over a continuum.", "anchors": ["reliability/Utils.py:LS_optimization"]}
{"id": "C49", "title": "Regression used by rank regression is least squares", "statement": "linear_regression's RRX/RRY line minimises the sum of squared residuals (in x for RRX, in y for RRY) among all lines, or all lines through a forced intercept / of forced slope; ValueError exactly for mismatched lengths, an unknown side, conflicting constraints or too few points.", "quantifier": "all point sets of any size, all competing lines", "why_tests_cant": "Tests evaluate finitely many real parameter/argument combinations; the claim is over a continuum.", "anchors": ["reliability/Utils.py:linear_regression"]}
{"id": "C50", "title": "clean_CI_arrays", "statement": "The cleaned confidence arrays have equal length, contain only finite in-range pairs, keep their original order and pairing, keep every valid pair, and cleaning twice changes nothing.", "quantifier": "all arrays", "why_tests_cant": "A unit test fixes one data set; the claim ranges over every data set of every length, including every pattern of ties and censoring.", "anchors": ["reliability/Utils.py:clean_CI_arrays"]}
{"id": "C51", "title": "Fitter input checking", "statement": "fitters_input_checking accepts exactly the inputs meeting its documented requirements; on acceptance the failures are the positive entries in the original order, and method/optimizer/CI_type are mapped to canonical names case-insensitively.", "quantifier": "all inputs", "why_tests_cant": "A unit test fixes one data set; the claim ranges over every data set of every length, including every pattern of ties and censoring.", "anchors": ["reliability/Utils.py:fitters_input_checking"]}
{"id": "C52", "title": "transform_spaced and axis transforms", "statement": "transform_spaced returns num points from the lower to the upper bound in order, whichever way the bounds were given; forward and inverse axis transforms are mutually inverse and monotone.", "quantifier": "all bounds in range, all num", "why_tests_cant": "Tests evaluate finitely many real parameter/argument combinations; the claim is over a continuum.", "anchors": ["reliability/Utils.py:transform_spaced", "reliability/Utils.py:axes_transforms"]}
{"id": "C53", "title": "Default evaluation grid of a distribution plot", "statement": "When no xvals are given, a distribution function evaluates on exactly 200 non-decreasing points whose first and last are the smaller and the larger of xmin and xmax (defaults: 0 or the 0.0001 quantile, and the 0.9999 quantile), in whichever order the two bounds were given; given xvals are used unchanged, and exactly the invalid ones (empty, negative outside Normal/Gumbel, above 1 for Beta, wrong type) raise ValueError.", "quantifier": "all eight families, all parameters, all bounds and xvals", "why_tests_cant": "Tests evaluate finitely many real parameter/argument combinations; the claim is over a continuum.", "anchors": ["reliability/Utils.py:generate_X_array"]}
{"id": "C54", "title": "zeroise_below_gamma", "statement": "For a positive gamma and ascending X every Y value whose X is at or below gamma becomes 0 and all other values are unchanged; for gamma <= 0 nothing changes.", "quantifier": "all arrays", "why_tests_cant": "A unit test fixes one data set; the claim ranges over every data set of every length, including every pattern of ties and censoring.", "anchors": ["reliability/Utils.py:zeroise_below_gamma"]}
{"id": "C55", "title": "xy_downsample", "statement": "Downsampling keeps the extreme points, returns a sublist of paired points, never more than the maximum, and returns everything when small.", "quantifier": "all point lists and factors", "why_tests_cant": "A unit test fixes one data set; the claim ranges over every data set of every length, including every pattern of ties and censoring.", "anchors": ["reliability/Utils.py:xy_downsample"]}
{"id": "C56", "title": "removeNaNs", "statement": "removeNaNs removes exactly the NaN entries, keeps the order of the rest, and is idempotent.", "quantifier": "all lists", "why_tests_cant": "A unit test fixes one data set; the claim ranges over every data set of every length, including every pattern of ties and censoring.", "anchors": ["reliability/Utils.py:removeNaNs"]}
{"id": "C57", "title": "make_right_censored_data", "statement": "Every non-negative observation ends up either as a failure with its original value or as a censored time not exceeding its original value; threshold censoring splits exactly at the threshold; fraction censoring censors exactly floor(n*fraction); the caller's array is left unchanged.", "quantifier": "all data, thresholds, fractions, random draws", "why_tests_cant": "A unit test fixes one data set; the claim ranges over every data set of every length, including every pattern of ties and censoring.", "anchors": ["reliability/Other_functions.py:make_right_censored_data"]}
{"id": "C58", "title": "make_ALT_data", "statement": "Whatever the random numbers, the data consist of number_of_samples items per requested stress level, each failure and censored time paired with the stress (pair) at which it was drawn, samples at a level being drawn from the life distribution whose life is the life-stress model at that level; exactly floor(n*fraction) per level are censored; the reported use-level mean life is that of the distribution at the use stress; invalid parameters raise ValueError.", "quantifier": "all models, stresses, sample counts, random draws", "why_tests_cant": "A unit test fixes one data set; the claim ranges over every data set of every length, including every pattern of ties and censoring.", "anchors": ["reliability/Other_functions.py:make_ALT_data"]}
{"id": "C59", "title": "ALT likelihoods agree with the life-stress model", "statement": "For each ALT fitter the log-likelihood of an item at stress S equals that of the base distribution whose scale is the fitted life at S, so the use-level distribution reported is the one whose likelihood was maximised; AICc and BIC follow from that likelihood, the change-of-parameters table gives the scale at each test stress, and the acceleration factors are the ratios of use-level life to life at each test stress.", "quantifier": "all parameters, stresses, times", "why_tests_cant": "Tests evaluate finitely many real parameter/argument combinations; the claim is over a continuum.", "anchors": ["reliability/ALT_fitters.py", "reliability/Other_functions.py:make_ALT_data"]}
{"id": "C60", "title": "Stress-strength interference for normals", "statement": "stress_strength_normal gives the probability that an independent normal stress exceeds a normal strength; it lies in (0,1), decreases as the strength mean increases, equals 1/2 for equal means, and swapping stress and strength gives the complement.", "quantifier": "all means and standard deviations", "why_tests_cant": "Tests evaluate finitely many real parameter/argument combinations; the claim is over a continuum.", "anchors": ["reliability/Other_functions.py:stress_strength_normal"]}
{"id": "C61", "title": "Palmgren-Miner damage", "statement": "Damage fractions are non-negative and sum to 1, service life times damage per cycle is 1, scaling all times at stress by k divides service life by k; mismatched lengths raise ValueError.", "quantifier": "all lists of any length with positive lives", "why_tests_cant": "A unit test fixes one data set; the claim ranges over every data set of every length, including every pattern of ties and censoring.", "anchors": ["reliability/PoF.py:palmgren_miner_linear_damage"]}
{"id": "C62", "title": "Creep and Arrhenius relations are mutually consistent", "statement": "creep_failure_time keeps the Larson-Miller parameter constant, is the identity at equal temperatures and inverts itself; acceleration_factor's three solution modes are mutually inverse; missing inputs raise ValueError.", "quantifier": "all temperatures, times, energies", "why_tests_cant": "Tests evaluate finitely many real parameter/argument combinations; the claim is over a continuum.", "anchors": ["reliability/PoF.py:creep_failure_time", "reliability/PoF.py:acceleration_factor"]}
{"id": "C63", "title": "creep_rupture_curves", "statement": "Each fitted line uses exactly the data of its own temperature, and the optional trace may be omitted.", "quantifier": "all data orders", "why_tests_cant": "Depends on row order.", "anchors": ["reliability/PoF.py:creep_rupture_curves"]}
{"id": "C64", "title": "Crack growth iteration", "statement": "In the iterative method crack length strictly increases each cycle by the Paris law, the reported stage counts add to the total, and the loop always ends, on the first cycle exceeding the critical (or final) length; the simplified method's cycle count is the exact integral of the Paris law from the initial to the final length; inconsistent inputs raise ValueError.", "quantifier": "all material parameters, any number of cycles", "why_tests_cant": "Iteration count is unbounded.", "anchors": ["reliability/PoF.py:fracture_mechanics_crack_growth"]}
{"id": "C65", "title": "Crow-AMSAA estimates are maximum-likelihood estimates", "statement": "No positive (Lambda, Beta) gives the observed failures a higher power-law-process likelihood, observed to the last failure, than those reliability_growth reports for the Crow-AMSAA model.", "quantifier": "all lists of positive failure times not all equal, all competing parameters", "why_tests_cant": "Optimality over a continuum of parameters and all data sets.", "anchors": ["reliability/Repairable_systems.py:reliability_growth"]}
{"id": "C66", "title": "ROCOF and reliability_growth agree", "statement": "For a failure-terminated test the Beta_hat and Lambda_hat ROCOF reports are the Crow-AMSAA Beta and Lambda of reliability_growth on the same failures; for a time-terminated test they maximise the power-law likelihood observed to test_end.", "quantifier": "all lists of positive times, all test ends", "why_tests_cant": "Agreement of two implementations on all data.", "anchors": ["reliability/Repairable_systems.py:ROCOF", "reliability/Repairable_systems.py:reliability_growth"]}
{"id": "C67", "title": "chi2test statistic and verdict", "statement": "The chi-squared statistic is the sum of (observed-expected)^2/expected with the fitted distribution's expected counts conditioned on the binned range (they add up to the sample size), it is non-negative and zero exactly when every bin holds its expected count, and the verdict is ACCEPT exactly when it is below the critical value with bins-k-1 degrees of freedom; too few bins raise ValueError.", "quantifier": "all bin edges, counts, CDFs and significances", "why_tests_cant": "Tests evaluate finitely many real parameter/argument combinations; the claim is over a continuum.", "anchors": ["reliability/Reliability_testing.py:chi2test"]}
{"id": "C68", "title": "Median attributes", "statement": "The median attribute is the point where the CDF equals 1/2, b5 and b95 those where it is 0.05 and 0.95, and b5<median<b95.", "quantifier": "all eight distributions, all valid parameters", "why_tests_cant": "Tests evaluate finitely many real parameter/argument combinations; the claim is over a continuum.", "anchors": ["reliability/Distributions.py:Gumbel_Distribution", "reliability/Distributions.py:Normal_Distribution", "reliability/Distributions.py:Weibull_Distribution"]}
{"id": "C69", "title": "Mean residual life", "statement": "mean_residual_life(t) of every distribution is E(X-t | X>t); before the support begins it is the mean less t; for an Exponential distribution it is 1/Lambda for every t>=gamma and (gamma-t)+1/Lambda before gamma.", "quantifier": "all parameters and times (Loglogistic: beta>1, otherwise the mean does not exist)", "why_tests_cant": "Tests evaluate finitely many real parameter/argument combinations; the claim is over a continuum.", "anchors": ["reliability/Distributions.py:Exponential_Distribution.mean_residual_life"]}
{"id": "C70", "title": "Quantiles of combined models", "statement": "quantile and inverse_SF of Competing_Risks_Model and Mixture_Model accept exactly lists of values in [0,1]; each answer lies between the two neighbouring internal grid points whose CDF values enclose q, never decreases as q increases, and inverse_SF(q)=quantile(1-q).", "quantifier": "all components, proportions >= 0, grids and lists of q", "why_tests_cant": "Tests evaluate finitely many real parameter/argument combinations; the claim is over a continuum.", "anchors": ["reliability/Distributions.py:Competing_Risks_Model.quantile", "reliability/Distributions.py:Mixture_Model.quantile", "reliability/Distributions.py:Mixture_Model.inverse_SF"]}
{"id": "C71", "title": "Confidence bounds on fitted parameters", "statement": "The reported lower and upper bounds of a positive parameter are positive, enclose the estimate and have it as their geometric mean; bounds of a proportion (DS, ZI, mixing proportion) stay strictly between 0 and 1; location bounds are symmetric; every interval widens as the confidence increases.", "quantifier": "all estimates, standard errors and confidence quantiles", "why_tests_cant": "Tests evaluate finitely many real parameter/argument combinations; the claim is over a continuum.", "anchors": ["reliability/Fitters.py:Fit_Weibull_2P", "reliability/Fitters.py:Fit_Weibull_Mixture", "reliability/Fitters.py:Fit_Weibull_DSZI"]}
{"id": "C72", "title": "Optimiser bounds keep parameters admissible", "statement": "Any parameter vector inside the bounds given to the optimiser has scale and shape >= 0, a location parameter that is non-negative and strictly below every positive failure and censoring time, DS in (0,1], ZI in [0,1) and mixing proportion in (0,1); an unknown family is a ValueError.", "quantifier": "all data sets of positive times, all families", "why_tests_cant": "A unit test fixes one data set; the claim ranges over every data set of every length, including every pattern of ties and censoring.", "anchors": ["reliability/Utils.py:MLE_optimization"]}
{"id": "C73", "title": "no_reverse", "statement": "no_reverse keeps an array up to its first extreme (minimum; maximum for time bounds on the CHF) and repeats that extreme afterwards, so an array monotone up to its extreme comes out monotone; it is idempotent, and arrays shorter than 2 raise ValueError.", "quantifier": "all arrays", "why_tests_cant": "A unit test fixes one data set; the claim ranges over every data set of every length, including every pattern of ties and censoring.", "anchors": ["reliability/Utils.py:no_reverse"]}
{"id": "C74", "title": "ALT fitter input checking", "statement": "The input check of the ALT fitters accepts exactly inputs with known distribution and model names, one positive time per stress (pair), at least two distinct stresses, enough distinct (stress, failure) pairs, known optimizer and CI in (0,1) and a use stress of the right shape; all refusals are ValueErrors; the groups it forms list each stress once with exactly the failures and the censored times recorded at that stress.", "quantifier": "all inputs", "why_tests_cant": "A unit test fixes one data set; the claim ranges over every data set of every length, including every pattern of ties and censoring.", "anchors": ["reliability/Utils.py:ALT_fitters_input_checking"]}
{"id": "C75", "title": "Stress-strength interference by integration", "statement": "stress_strength returns the trapezoidal rule for the integral of the strength density times the stress survival function between the extreme 1e-8 quantiles; it is non-negative, within (b-a)^3*M/(12 n^2) of the integral (M bounding the second derivative), and inputs a distribution refuses are ValueErrors.", "quantifier": "all pairs of distributions", "why_tests_cant": "Tests evaluate finitely many real parameter/argument combinations; the claim is over a continuum.", "anchors": ["reliability/Other_functions.py:stress_strength"]}
{"id": "C76", "title": "ALT parameter confidence bounds", "statement": "In each of the 24 ALT fitters the reported bounds enclose each estimate; a positive parameter has positive bounds with the estimate as geometric mean, a real parameter has symmetric bounds; if the Hessian is singular the bounds equal the estimate.", "quantifier": "all estimates, standard errors and confidence quantiles, all 24 fitters", "why_tests_cant": "Tests evaluate finitely many real parameter/argument combinations; the claim is over a continuum.", "anchors": ["reliability/ALT_fitters.py"]}
{"id": "C77", "title": "Fit_Everything_ALT", "statement": "The results of Fit_Everything_ALT hold every model of the right kind (single or dual stress) that was not excluded, once, with its own fitter's numbers; they are sorted by the chosen criterion (BIC instead of AICc when some AICc is missing), the best model is the first row, best_model_at_use_stress is that model's distribution at the use stress, and excluding everything or an unknown sort_by is a ValueError.", "quantifier": "all data, exclusion lists, sort orders, use stresses", "why_tests_cant": "A unit test fixes one data set; the claim ranges over every data set of every length, including every pattern of ties and censoring.", "anchors": ["reliability/ALT_fitters.py:Fit_Everything_ALT"]}
{"id": "C78", "title": "Crack initiation", "statement": "fracture_mechanics_crack_initiation reports the fully reversed stress and strain on the Ramberg-Osgood curve satisfying Neuber's rule for the nominal stress, and cycles satisfying the strain-life relation of the chosen mean-stress correction; that solution is unique, so it does not depend on the root finder; in the elastic regime every method gives Basquin's life; within a regime a larger load never lasts longer; an unknown method is a ValueError.", "quantifier": "all loads, areas, notch factors, material parameters and methods", "why_tests_cant": "Tests evaluate finitely many real parameter/argument combinations; the claim is over a continuum.", "anchors": ["reliability/PoF.py:fracture_mechanics_crack_initiation"]}
{"id": "C79", "title": "Grouped data and spreadsheets", "statement": "FNRN_to_FR lists each time as often as its quantity says and raises ValueError exactly for mismatched lengths, missing censored quantities or negative quantities; XCN_to_FNRN groups exactly what XCN_to_FR lists; xlsx_to_FR reports the non-blank cells in order; xlsx_to_FNRN reports each time once, ascending, with the sheet's total quantity, and raises ValueError exactly for mismatched or negative quantities; blank cells are ignored by all three readers.", "quantifier": "all tables, all patterns of blanks", "why_tests_cant": "A unit test fixes one data set; the claim ranges over every data set of every length, including every pattern of ties and censoring.", "anchors": ["reliability/Convert_data.py:FNRN_to_FR", "reliability/Convert_data.py:XCN_to_FNRN", "reliability/Convert_data.py:xlsx_to_FR", "reliability/Convert_data.py:xlsx_to_FNRN"]}
{"id": "C80", "title": "Descriptive attributes are the moments", "statement": "mean, variance, standard_deviation, skewness, kurtosis and excess_kurtosis of a distribution object are the moments of its PDF (Gumbel: mean, variance and standard deviation); a Loglogistic attribute is a text instead of a number exactly when the moment does not exist (beta <= 1, 2, 3, 4).", "quantifier": "all eight distributions, all valid parameters", "why_tests_cant": "Tests evaluate finitely many real parameter/argument combinations; the claim is over a continuum.", "anchors": ["reliability/Distributions.py:Weibull_Distribution", "reliability/Distributions.py:Normal_Distribution", "reliability/Distributions.py:Lognormal_Distribution", "reliability/Distributions.py:Exponential_Distribution", "reliability/Distributions.py:Gamma_Distribution", "reliability/Distributions.py:Beta_Distribution", "reliability/Distributions.py:Loglogistic_Distribution", "reliability/Distributions.py:Gumbel_Distribution"]}
{"id": "C81", "title": "Confidence intervals of CDF, SF and CHF contain the point estimate", "statement": "For a fitted Weibull, Gamma, Normal, Lognormal, Loglogistic or Gumbel distribution, CDF, SF and CHF with CI_x (bounds on reliability) or CI_y (bounds on time) return lower bound <= the distribution's own value <= upper bound for every requested value in the caller's order, the bounds being legal values of the function (or times in the support), or raise ValueError.", "quantifier": "all six families, parameters, standard errors, covariances, confidence levels and lists of values", "why_tests_cant": "Tests evaluate finitely many real parameter/argument combinations; the claim is over a continuum.", "anchors": ["reliability/Utils.py:distribution_confidence_intervals", "reliability/Utils.py:extract_CI", "reliability/Distributions.py:Weibull_Distribution.CDF"]}
{"id": "C82", "title": "Confidence bounds are the delta-method bounds", "statement": "On the family's scale (ln(-ln R), normal quantile or log odds of R; time or ln(t-gamma)) the bounds lie exactly z standard deviations from the point estimate, with z the two-sided normal quantile of CI and the variance of the delta method from the standard errors and covariance of the parameters; ValueError is raised exactly when a requested value has no bound (outside the support, or a reliability bound of at most 1e-50).", "quantifier": "all six families, parameters, standard errors, covariances, confidence levels and lists of values", "why_tests_cant": "Tests evaluate finitely many real parameter/argument combinations; the claim is over a continuum.", "anchors": ["reliability/Utils.py:distribution_confidence_intervals", "reliability/Utils.py:extract_CI"]}
{"id": "C83", "title": "Confidence intervals widen with the confidence level", "statement": "Raising CI never narrows an interval of CDF, SF or CHF at any x or y, and leaves the point estimates unchanged; bounds available at a level are available at every lower level.", "quantifier": "all fitted distributions of the six families, all pairs of levels", "why_tests_cant": "Tests evaluate finitely many real parameter/argument combinations; the claim is over a continuum.", "anchors": ["reliability/Utils.py:distribution_confidence_intervals"]}
{"id": "C84", "title": "Confidence bounds of CDF, SF and CHF agree", "statement": "At the same x-values the CDF bounds are one minus the exchanged SF bounds and the CHF bounds minus the logarithm of the exchanged SF bounds; the bounds on time of CDF at y, SF at 1-y and CHF at -ln(1-y) are identical.", "quantifier": "all fitted distributions of the six families", "why_tests_cant": "Tests evaluate finitely many real parameter/argument combinations; the claim is over a continuum.", "anchors": ["reliability/Utils.py:extract_CI"]}
{"id": "C85", "title": "Confidence bounds of the Exponential distribution", "statement": "The bounds of a fitted Exponential distribution are the Exponential distributions with rates Lambda*exp(-+z*SE/Lambda): they contain the point estimate and the bounds on time and on reliability are inverse to each other, for values given in any order, or ValueError is raised exactly when a value is outside the support or its reliability bound is at most 1e-50.", "quantifier": "all rates, thresholds, standard errors, confidence levels and lists of values", "why_tests_cant": "Tests evaluate finitely many real parameter/argument combinations; the claim is over a continuum.", "anchors": ["reliability/Utils.py:distribution_confidence_intervals.exponential_CI", "reliability/Utils.py:extract_CI"]}
{"id": "C86", "title": "Arguments of the confidence bounds", "statement": "CDF, SF and CHF accept exactly a CI that is a float in (0,1), True, False or None (then the level stored with the fit, or 0.95), any-case words for CI_type (default: the object's own), and non-empty CI_x of positive times (any for Normal, Gumbel) or CI_y of legal values; if both lists are given CI_x is used for bounds on reliability and CI_y otherwise; everything else is a ValueError, and on an unfitted distribution the arguments are ignored.", "quantifier": "all argument values and objects", "why_tests_cant": "A unit test fixes one data set; the claim ranges over every data set of every length, including every pattern of ties and censoring.", "anchors": ["reliability/Utils.py:distributions_input_checking", "reliability/Utils.py:extract_CI"]}
{"id": "C87", "title": "Rank regression minimises the residuals on probability paper", "statement": "For Weibull_2P, Normal_2P, Lognormal_2P, Loglogistic_2P, Gumbel_2P and Exponential_1P, least_squares returns legal parameters that are the only minimiser, among all legal parameters, of the squared residuals between the plotting positions and the fitted CDF on the distribution's probability paper: in the probability direction for RRY, in the time direction for RRX; with force_shape the shape is exactly the given one and the other parameter minimises; points lying on a CDF give back its parameters; bad arguments are ValueErrors.", "quantifier": "all failures in the support (not all equal), censored times, both methods, all forced shapes", "why_tests_cant": "Tests evaluate finitely many real parameter/argument combinations; the claim is over a continuum.", "anchors": ["reliability/Utils.py:least_squares", "reliability/Utils.py:linear_regression"]}
{"id": "C88", "title": "Rank regression does not depend on the unit of time", "statement": "Multiplying all times by k > 0 (for Normal and Gumbel also shifting them) changes the parameters fitted by rank regression so that the fitted distribution is the same in the new unit.", "quantifier": "all data, all k and shifts, both methods", "why_tests_cant": "Tests evaluate finitely many real parameter/argument combinations; the claim is over a continuum.", "anchors": ["reliability/Utils.py:least_squares", "reliability/Probability_plotting.py:plotting_positions"]}
{"id": "C89", "title": "Maximum likelihood does not depend on the unit of time", "statement": "For every fitter except Fit_Beta_2P, multiplying all times by k > 0 changes the log-likelihood of the correspondingly rescaled parameters by exactly -(number of failures)*ln k, so parameters are a maximum likelihood estimate exactly if the rescaled ones are for the rescaled data.", "quantifier": "all data, all legal parameters, all k, 17 fitters", "why_tests_cant": "Tests evaluate finitely many real parameter/argument combinations; the claim is over a continuum.", "anchors": ["reliability/Fitters.py"]}
{"id": "C90", "title": "Anderson-Darling statistic", "statement": "anderson_darling(fitted_cdf, empirical_cdf) of as many empirical as fitted values is n times the integral over 0 < z < 1-1e-12 of the squared distance of the empirical step function from z, weighted by 1/(z(1-z)); it is never negative, does not depend on the order of either input, and lists of different length raise ValueError.", "quantifier": "all arrays of fitted values in (0, 1-1e-12], all empirical values, all lengths", "why_tests_cant": "Tests evaluate finitely many real parameter/argument combinations; the claim is over a continuum.", "anchors": ["reliability/Utils.py:anderson_darling"]}
{"id": "C91", "title": "Parametric MCF", "statement": "MCF_parametric uses the repair times and MCF values of MCF_nonparametric whatever CI is asked for, rejects CI outside (0,1), its bounds are positive, bracket the (positive) estimates, are log-symmetric and nest as CI grows; data exactly on a power law give back that law; the verdict is IMPROVING/CONSTANT/WORSENING according to where the interval for beta lies relative to 1.", "quantifier": "all systems and repair times, all CI, every behaviour of curve_fit", "why_tests_cant": "Tests evaluate finitely many real parameter/argument combinations; the claim is over a continuum.", "anchors": ["reliability/Repairable_systems.py:MCF_parametric"]}
{"id": "C92", "title": "The MCF depends only on the order of the times", "statement": "Re-expressing all times of all systems by one strictly increasing function changes only the reported times: every MCF value, variance and bound is the same. For the parametric MCF multiplying times by k multiplies alpha by k and leaves beta.", "quantifier": "all systems, all strictly increasing functions, all CI", "why_tests_cant": "Tests evaluate finitely many real parameter/argument combinations; the claim is over a continuum.", "anchors": ["reliability/Repairable_systems.py:MCF_nonparametric", "reliability/Repairable_systems.py:MCF_parametric"]}
{"id": "C93", "title": "Stress-strain hysteresis loop", "statement": "stress_strain_diagram: with loading starting in tension the initial branch follows the Ramberg-Osgood curve from the origin, the unloading and reloading branches follow the doubled (Masing) curve from the tips, the loop closes and the reported extreme stresses are those of the tips; given a largest stress (or strain) only the loop is fully reversed; compression mirrors tension when 1/n is an odd integer; contradictory inputs raise ValueError.", "quantifier": "all E, K, n > 0, all largest/smallest stresses or strains, every root finder that finds a root when one exists", "why_tests_cant": "Tests evaluate finitely many real parameter/argument combinations; the claim is over a continuum.", "anchors": ["reliability/PoF.py:stress_strain_diagram"]}
{"id": "C94", "title": "Strain-life cycles to failure", "statement": "strain_life_diagram: cycles_to_failure satisfies the Coffin-Manson relation with the named mean-stress correction (Morrow, modified Morrow, SWT) for the amplitude between the two strains, strains follow the Ramberg-Osgood curve at the given stresses, a larger fully reversed stress gives fewer cycles, and at the transition life the elastic and plastic parts are equal; contradictory inputs raise ValueError.", "quantifier": "all material parameters, all stress or strain ranges with the mean stress below sigma_f and the smallest stress not negative or 1/n odd, every root finder that finds a root when one exists", "why_tests_cant": "Tests evaluate finitely many real parameter/argument combinations; the claim is over a continuum.", "anchors": ["reliability/PoF.py:strain_life_diagram"]}
{"id": "C95", "title": "Material parameters from data", "statement": "stress_strain_life_parameters_from_data: stresses and strains exactly on a Ramberg-Osgood curve (at least two stresses) give back K and n; data exactly on a strain-life curve give back sigma_f, b, epsilon_f, c and n = b/c, K = sigma_f/epsilon_f^n; lists of different lengths raise.", "quantifier": "all curves and all numbers of points, every polyfit that is a least-squares line", "why_tests_cant": "Tests evaluate finitely many real parameter/argument combinations; the claim is over a continuum.", "anchors": ["reliability/PoF.py:stress_strain_life_parameters_from_data"]}
{"id": "C96", "title": "S-N diagram", "statement": "SN_diagram: the line is the least-squares line of stress on log10 cycles, cut off at the endurance limit (the average run-out stress) if that is shown; life and strength traces read that line; residual bounds contain every failure at or above the limit; statistical bounds bracket the line.", "quantifier": "all failures, run-outs, traces and CI, every polyfit that is a least-squares line", "why_tests_cant": "Tests evaluate finitely many real parameter/argument combinations; the claim is over a continuum.", "anchors": ["reliability/PoF.py:SN_diagram"]}
{"id": "C97", "title": "Initial guess and bounds of the ALT fitters", "statement": "The least-squares guess of every life-stress model is the unique legal parameter list minimising the squared log residuals of the failures whenever the stresses determine it (two different stresses; scaled stress pairs not on one line); failures exactly on the model give back its parameters; the optimiser's bounds admit every legal parameter list with non-negative shape and no illegal one; dual-stress guesses are always legal, whatever the random noise, and for scaled stress pairs on one line they solve the normal equations with the noise added, or are the fixed dummy plane if these are singular too; unknown names and (single stress) equal stresses raise.", "quantifier": "all life-stress models, all data sets of every size, every noise matrix", "why_tests_cant": "Tests evaluate finitely many real parameter/argument combinations; the claim is over a continuum.", "anchors": ["reliability/Utils.py:ALT_least_squares", "reliability/Utils.py:ALT_MLE_optimization"]}
{"id": "C98", "title": "similar_distributions ranks the other families", "statement": "similar_distributions lists exactly the fitted families other than the input's own (location-shifted ones only if asked for and really shifted, Beta only if all samples are below 1), each once, by increasing BIC, most_similar_distribution being the first; every object has the parameters found by its own fitter (Exponential_2P excepted: finding); non-distributions, a number below 2 and inputs with three quarters of their area at or below 0 raise ValueError; other calls succeed.", "quantifier": "all inputs with an increasing quantile function, every outcome of the fitters, every tie order of the sort", "why_tests_cant": "A unit test fixes one data set; the claim ranges over every data set of every length, including every pattern of ties and censoring.", "anchors": ["reliability/Other_functions.py:similar_distributions"]}
{"id": "C99", "title": "The goodness of fit a fitter reports is that of the distribution it returns", "statement": "For every Fit_* object of the twelve standard classes (Weibull, Normal, Lognormal, Gumbel, Loglogistic, Gamma, Exponential, Beta; 2P/3P): loglik is the log-likelihood of the data it used under the distribution it returns, loglik2 is -2 times it, AICc and BIC are computed from it with the number of free parameters and the number of items, and AD is the Anderson-Darling distance of the same distribution from the plotting positions of the same data.", "quantifier": "all accepted failures and right censored data, all estimates the numerical optimisation may return (parameters in their range, data above the location), all methods and optimizers, forced shapes", "why_tests_cant": "Tests evaluate finitely many real parameter/argument combinations; the claim is over a continuum.", "anchors": ["Fitters.py: Fit_Weibull_2P, Fit_Weibull_3P, Fit_Normal_2P, Fit_Lognormal_2P, Fit_Lognormal_3P, Fit_Gumbel_2P, Fit_Loglogistic_2P, Fit_Loglogistic_3P, Fit_Gamma_2P, Fit_Gamma_3P, Fit_Exponential_1P, Fit_Exponential_2P, Fit_Beta_2P"]}
{"id": "C100", "title": "Standard errors and parameter bounds come from the inverse observed information", "statement": "The rows of a fitter's results have the documented names, the estimates of the returned distribution, standard errors that are the square roots of the diagonal of the inverse of the observed information of the data at the estimate, and bounds of the normal approximation at the requested level (log scale for positive parameters); the distribution object carries the same standard errors and covariance. For 3P fits the first two standard errors are those for a known location. A singular information matrix gives zero standard errors.", "quantifier": "all accepted data, all estimates in range, all confidence levels in (0,1)", "why_tests_cant": "Tests evaluate finitely many real parameter/argument combinations; the claim is over a continuum.", "anchors": ["Fitters.py: Fit_Weibull_2P ... Fit_Beta_2P, covariance_matrix, alpha_SE, beta_SE, Cov_alpha_beta, alpha_upper, alpha_lower"]}
{"id": "C101", "title": "A forced shape is kept and has no uncertainty", "statement": "With force_beta (Weibull) or force_sigma (Normal, Lognormal) the returned distribution has exactly the forced parameter, its row is reported with standard error 0 and bounds equal to it, the covariance is 0, the criteria count one parameter less and the standard error of the other parameter is that of the one-parameter model.", "quantifier": "all forced values accepted, all data, all answers of the optimizers", "why_tests_cant": "Tests evaluate finitely many real parameter/argument combinations; the claim is over a continuum.", "anchors": ["Fitters.py: Fit_Weibull_2P(force_beta), Fit_Normal_2P(force_sigma), Fit_Lognormal_2P(force_sigma)"]}
{"id": "C102", "title": "A fitter reports how it was fitted, and maximum likelihood fits of accepted data return", "statement": "The attributes method and optimizer say which estimation was used: 'Maximum Likelihood Estimation (MLE)' with the optimizer that succeeded, or 'Least Squares Estimation (...)' with the variant and no optimizer; a maximum likelihood fit of accepted data without quantiles returns if the optimizers succeed, even where the information is singular. (Findings: least squares with a singular information matrix raises TypeError; method=None raises.)", "quantifier": "all accepted inputs, all answers of the optimizers", "why_tests_cant": "Tests evaluate finitely many real parameter/argument combinations; the claim is over a continuum.", "anchors": ["Fitters.py: Fit_* __init__", "Utils.py: LS_optimization, MLE_optimization"]}
{"id": "C103", "title": "Exponential fits: standard error Lambda over the root of the number of failures", "statement": "Fit_Exponential_1P/2P report SE(Lambda) = Lambda/sqrt(number of failures) whatever the censoring, bounds of the log-normal approximation, and a row 1/Lambda with the reciprocal estimate, the reciprocal bounds in swapped order, and standard error 1/(Lambda sqrt(r)).", "quantifier": "all accepted data, all positive estimates, all confidence levels", "why_tests_cant": "Tests evaluate finitely many real parameter/argument combinations; the claim is over a continuum.", "anchors": ["Fitters.py: Fit_Exponential_1P, Fit_Exponential_2P"]}
{"id": "C104", "title": "The quantile table of a fitter", "statement": "With quantiles given, the table has one line per requested quantile in the requested order, with the time at which the CDF of the returned distribution equals it and lower/upper bounds on both sides of it; without quantiles there is no table; the Beta table has no bounds. (Findings: quantiles=False and unknown strings raise; Fit_Exponential_1P raises at high confidence for few failures.)", "quantifier": "all accepted inputs for which the fit returns", "why_tests_cant": "Tests evaluate finitely many real parameter/argument combinations; the claim is over a continuum.", "anchors": ["Fitters.py: quantiles branch of Fit_* __init__"]}
{"id": "C105", "title": "Three-parameter fits fall back to two parameters when the location is below 0.01", "statement": "The location of a 3P fit is 0 or at least 0.01; if it is 0, estimates, standard errors, covariance and distribution are those of the default 2P fit of the same data plus a Gamma row of zeros.", "quantifier": "all accepted inputs, all answers of the optimizers", "why_tests_cant": "Tests evaluate finitely many real parameter/argument combinations; the claim is over a continuum.", "anchors": ["Fitters.py: Fit_Weibull_3P, Fit_Lognormal_3P, Fit_Loglogistic_3P, Fit_Gamma_3P"]}
{"id": "C106", "title": "The goodness of fit of the special Weibull fits is that of the model they return", "statement": "Fit_Weibull_Mixture, Fit_Weibull_CR, Fit_Weibull_DSZI, Fit_Weibull_DS and Fit_Weibull_ZI return the model with exactly the reported estimates; loglik is the log-likelihood of the data used under that model (mixture density, minimum of two Weibull times, dead-on-arrival and immortal shares), loglik2 = -2 loglik, AICc and BIC count 5, 4, 4, 3, 3 parameters and all items including failures at 0, and AD is the Anderson-Darling distance of the model's CDF from the plotting positions (those at time 0 replaced by ZI).", "quantifier": "all accepted failures and right censored data, all estimates the optimisation may return in range, all places of the dividing line, all optimizers", "why_tests_cant": "Tests evaluate finitely many real parameter/argument combinations; the claim is over a continuum.", "anchors": ["Fitters.py: Fit_Weibull_Mixture, Fit_Weibull_CR, Fit_Weibull_DSZI, Fit_Weibull_DS, Fit_Weibull_ZI", "Distributions.py: Mixture_Model, Competing_Risks_Model, DSZI_Model"]}
{"id": "C107", "title": "Standard errors and bounds of the special Weibull fits", "statement": "The results of the five special Weibull fitters have the documented rows, the estimates of the returned model, standard errors from the inverse observed information of the likelihood of C106 at the estimate (0 when it is singular), bounds on the log scale for scales and shapes and on the scale of the log odds for Proportion 1, DS and ZI, always inside (0,1); an estimate DS = 1 or ZI = 0 is its own bounds.", "quantifier": "all accepted data, all estimates in range, all confidence levels in (0,1)", "why_tests_cant": "Tests evaluate finitely many real parameter/argument combinations; the claim is over a continuum.", "anchors": ["Fitters.py: Fit_Weibull_Mixture, Fit_Weibull_CR, Fit_Weibull_DSZI, Fit_Weibull_DS, Fit_Weibull_ZI: covariance_matrix, *_SE, *_upper, *_lower, results"]}
{"id": "C108", "title": "The special Weibull fits return on accepted data when the optimizers succeed", "statement": "Fit_Weibull_Mixture and Fit_Weibull_CR of at least four distinct failures return whenever the optimizers report success, wherever the kernel density estimate puts the dividing line (it is moved so that each group has two failures); Fit_Weibull_DS, Fit_Weibull_ZI and Fit_Weibull_DSZI return if the optimizers stay within their bounds; the optimizer attribute is None or one of the four names.", "quantifier": "all accepted data, all positions of the dividing line, all successful optimizers", "why_tests_cant": "Tests evaluate finitely many real parameter/argument combinations; the claim is over a continuum.", "anchors": ["Fitters.py: Fit_Weibull_Mixture (dividing_line), Fit_Weibull_CR, Fit_Weibull_DSZI, Fit_Weibull_DS, Fit_Weibull_ZI"]}
{"id": "C109", "title": "Fit_Weibull_2P_grouped is Fit_Weibull_2P on the ungrouped data", "statement": "On a dataframe with the three columns, categories F and C and non-negative quantities, Fit_Weibull_2P_grouped with a least squares method is in every attribute (and every exception) Fit_Weibull_2P of the data with each positive time repeated quantity times; with MLE it is Fit_Weibull_2P at the estimates obtained by restarting the optimizer from the better least squares estimate until the BIC settles (at most ten runs; the least squares estimate if the last run fails), and it returns whatever the optimizer does. Other dataframes are refused.", "quantifier": "all dataframes of any size, all methods, optimizers, forced shapes, confidence levels, all answers of the optimizer", "why_tests_cant": "Tests evaluate finitely many real parameter/argument combinations; the claim is over a continuum.", "anchors": ["Fitters.py: Fit_Weibull_2P_grouped"]}
{"id": "C110", "title": "An ALT fitter reports the fit of the caller's data", "statement": "Whenever one of the 24 ALT fitters returns: the rows of results are the parameters of the named life-stress model and life distribution in order, with estimates, standard errors from the inverse of the observed information of the caller's data, and bounds at the confidence level containing the estimate; loglik2 is -2 loglik; the log-likelihood, criteria and use level results are those of the model at these estimates; change_of_parameters has one row per distinct stress of the failures, with the scale of the model at that stress, the common shape, the acceleration factor life(use)/life(stress), and the parameters of the stand-alone fit of the units at that stress (missing for a single failure) with the relative change of shape; if no optimizer succeeded the estimates are the least squares line followed by the mean of the stand-alone shapes.", "quantifier": "all 24 classes, all arguments, all data of any size, all answers of the optimizers and of the stand-alone fits", "why_tests_cant": "Tests evaluate finitely many real parameter/argument combinations; the claim is over a continuum.", "anchors": ["ALT_fitters.py: Fit_Weibull_Exponential", "ALT_fitters.py: Fit_Exponential_Dual_Power", "Utils.py: ALT_fitters_input_checking", "Utils.py: ALT_least_squares", "Utils.py: ALT_MLE_optimization"]}
{"id": "C111", "title": "When an ALT fitter returns", "statement": "For data that satisfies the documented requirements, with positive stresses, censored units only at stresses that have failures, and at each stress either one failure or two different failure times, every ALT fitter returns an object provided the optimizers succeed; with two or more equal failures (and no other) at some stress it never returns.", "quantifier": "all 24 classes, all arguments meeting the requirements, data of any size", "why_tests_cant": "Tests evaluate finitely many real parameter/argument combinations; the claim is over a continuum.", "anchors": ["ALT_fitters.py: Fit_Weibull_Exponential", "Utils.py: ALT_fitters_input_checking", "Utils.py: fitters_input_checking"]}
{"id": "C112", "title": "The fit is the maximum likelihood fit", "statement": "If scipy's optimizer is exact (when it reports success, no point inside the bounds it was given has a lower objective), then for every fitter whose method is MLE and whose optimizer succeeded no admissible parameters give the caller's data a higher likelihood than the reported estimates: among all positive (scale, shape) or real (mu) values for the one and two parameter distributions, given the forced shape if one is forced; among locations more than 0.0001 below all the data for the three parameter ones; inside the program's fixed boxes for the special Weibull models; among all admissible parameters for the 24 ALT models. In particular Fit_Exponential_1P reports failures / total time and an uncensored Fit_Normal_2P the mean and the root mean square deviation.", "quantifier": "all fitters, all arguments, all data of any size, all exact optimizers", "why_tests_cant": "Tests evaluate finitely many real parameter/argument combinations; the claim is over a continuum.", "anchors": ["Fitters.py: Fit_Weibull_2P", "Fitters.py: Fit_Exponential_2P", "Fitters.py: Fit_Weibull_Mixture", "ALT_fitters.py: Fit_Weibull_Exponential", "Utils.py: MLE_optimization", "Utils.py: ALT_MLE_optimization"]}
{"id": "C113", "title": "Parametric QQ plot", "statement": "QQ_plot_parametric of two standard distributions returns the slope of the least-squares line through the origin and the slope and intercept of the least-squares line through the 100 points (time by which X has failed with probability p, time by which Y has failed with probability p), p evenly spaced from 1% to 99%; the lines are unique. If Y's times are a times X's plus b, exactly a and b are returned; a distribution against itself gives [1,1,0]. A missing distribution raises ValueError.", "quantifier": "all pairs of the eight distributions with all admissible parameters, all least-squares solvers", "why_tests_cant": "A unit test fixes one data set; the claim ranges over every data set of every length, including every pattern of ties and censoring.", "anchors": ["Probability_plotting.py: QQ_plot_parametric"]}
{"id": "C114", "title": "Semiparametric QQ plot", "statement": "QQ_plot_semiparametric plots each failure against the time at which the distribution reaches the failure's estimated probability of failure; it accepts any data the estimator accepts, rejects missing arguments and unknown methods, and for complete data the plotted probabilities are the known ones. (False under censoring: failures are paired with survival probabilities in reverse order.)", "quantifier": "all data, censoring, methods, distributions, downsampling flags", "why_tests_cant": "A unit test fixes one data set; the claim ranges over every data set of every length, including every pattern of ties and censoring.", "anchors": ["Probability_plotting.py: QQ_plot_semiparametric"]}
{"id": "C115", "title": "PP plots", "statement": "PP_plot_parametric draws 100 points (F_X(t), F_Y(t)) for evenly spaced t between the smaller 1% and the larger 99% quantile, exactly when both distributions accept those times, inside the unit square, ascending, and on the diagonal for identical distributions; PP_plot_semiparametric pairs each failure's estimated failure probability with the distribution's. (Quantile lines always raise ValueError.)", "quantifier": "all pairs of distributions and parameters, all data and methods", "why_tests_cant": "A unit test fixes one data set; the claim ranges over every data set of every length, including every pattern of ties and censoring.", "anchors": ["Probability_plotting.py: PP_plot_parametric", "Probability_plotting.py: PP_plot_semiparametric"]}
{"id": "C116", "title": "plot_points", "statement": "plot_points draws at every failure its plotting position F (CDF), 1 - F (SF), -ln(1 - F) (CHF); for distinct positive failures in ascending order the PDF and HF points are the increments of F and of -ln(1 - F) per unit of time since the previous failure, finite and non-negative; CDF, SF and CHF points do not depend on the order of the failures. (False for PDF/HF with unsorted or tied failures.) No failures or an unknown func raise ValueError.", "quantifier": "all failures, censored items, plotting constants and argsorts", "why_tests_cant": "A unit test fixes one data set; the claim ranges over every data set of every length, including every pattern of ties and censoring.", "anchors": ["Probability_plotting.py: plot_points"]}
{"id": "C117", "title": "Limits of probability plots", "statement": "The axis limits chosen for a probability plot are defined for every nonempty set of points (on a logarithmic x-axis: of positive times), every time lies strictly inside the x-limits and every plotting position inside the y-limits, and both intervals are proper. (A single point with F < 1/11 gets a negative lower y-limit; limits can be reversed for times that are not positive.)", "quantifier": "all eight papers, all lists of points with 0 < F < 1, all spacings between 0 and 1", "why_tests_cant": "A unit test fixes one data set; the claim ranges over every data set of every length, including every pattern of ties and censoring.", "anchors": ["Utils.py: probability_plot_xylims"]}
{"id": "C118", "title": "Probability plots", "statement": "Each *_probability_plot, called by a user or by a fitter with its result, returns with the plotting positions of the data as points at time minus location, the CDF of the fitted distribution drawn so that at the place of time t it shows the fitted probability of failure by t, on paper on which the CDF of the family is a straight line, with every point visible. Without the line no fit is made. Missing, empty, too few data, wrong containers and confidence levels outside (0,1) raise ValueError. (False for the Exponential on the Weibull scale with a location: its points are displaced by 0.009.)", "quantifier": "all nine plots, all data, censoring, plotting constants in [0,1), given or fitted parameters, all optimizers behind the fit", "why_tests_cant": "A unit test fixes one data set; the claim ranges over every data set of every length, including every pattern of ties and censoring.", "anchors": ["Probability_plotting.py: Weibull_probability_plot", "Probability_plotting.py: Loglogistic_probability_plot", "Probability_plotting.py: Exponential_probability_plot_Weibull_Scale", "Probability_plotting.py: Gumbel_probability_plot", "Probability_plotting.py: Normal_probability_plot", "Probability_plotting.py: Lognormal_probability_plot", "Probability_plotting.py: Beta_probability_plot", "Probability_plotting.py: Gamma_probability_plot", "Probability_plotting.py: Exponential_probability_plot"]}
{"id": "C119", "title": "Attributes of the combined models", "statement": "Competing_Risks_Model and Mixture_Model can be built for every nonempty list of distributions, except that a Beta component cannot be combined with a component whose 1-1e-10 quantile exceeds 1 (then ValueError). Mean, variance, standard deviation, skewness, kurtosis are the moments of the model's own PDF under one fixed quadrature rule with positive weights that is exact for quadratics on [smallest 1e-10 quantile, largest 1-1e-10 quantile]; median, b5, b95 are the grid points at which the model's CDF is nearest 0.5, 0.05, 0.95, with b5 <= median <= b95; the mode is a grid point of greatest PDF; skewness^2 <= kurtosis. b5 and b95 of a DSZI model likewise; if the zero inflated fraction is at least 0.05 its b5 is the base distribution's 1e-10 quantile instead of 0.", "quantifier": "all nonempty lists of the eight distributions with parameters in range, all proportions, all grid sizes from 3", "why_tests_cant": "Tests evaluate finitely many real parameter/argument combinations; the claim is over a continuum.", "anchors": ["Distributions.py: Competing_Risks_Model.__init__", "Distributions.py: Mixture_Model.__init__", "Distributions.py: DSZI_Model.__init__"]}
{"id": "C120", "title": "Mean residual life and samples of the combined models", "statement": "For every time t before the effective end of life b (the largest 1-1e-10 quantile of the components) mean_residual_life(t) of a Competing_Risks_Model or Mixture_Model is positive, at most b - t, and within one grid step of the integral of the model's survival function from t to b divided by its value at t. (After b it is negative.) random_samples(k) raises ValueError for k < 1 and otherwise returns k points of positive density, drawn with probabilities proportional to the model's PDF on its grid (never, if a negative proportion makes the PDF change sign: ValueError).", "quantifier": "all nonempty lists of the eight distributions, all non-negative proportions, all times, all sample sizes, all random draws", "why_tests_cant": "Tests evaluate finitely many real parameter/argument combinations; the claim is over a continuum.", "anchors": ["Distributions.py: Competing_Risks_Model.mean_residual_life", "Distributions.py: Mixture_Model.mean_residual_life", "Distributions.py: Competing_Risks_Model.random_samples", "Distributions.py: Mixture_Model.random_samples"]}
{"id": "C121", "title": "Fit_Everything agrees with the individual fitters", "statement": "When Fit_Everything returns, its table has exactly one row per distribution not left out, and each row shows exactly what the class of that distribution itself returns (log-likelihood, AICc, BIC, AD, optimizer and point estimates) for the same data, method (least squares for a rank regression) and optimizer; best_distribution is the distribution fitted by the class in the first row and no row has a smaller criterion. With maximum likelihood, valid arguments, successful optimizers and enough distinct failures it returns; if one class that is not left out raises, so does Fit_Everything. (With three failures it always raises unless Weibull_Mixture and Weibull_CR are excluded by name, although the documentation promises all distributions.)", "quantifier": "all data, all exclusions, all sort criteria, all methods and optimizers, all answers of the numerical routines", "why_tests_cant": "A unit test fixes one data set; the claim ranges over every data set of every length, including every pattern of ties and censoring.", "anchors": ["Fitters.py: Fit_Everything"]}
{"id": "C122", "title": "Likelihood plots show likelihood ratio regions", "statement": "When likelihood_plot returns, the axes are labelled with the parameters of the named family, there is one shaded band for each confidence level given, the widest first, and a grid point lies in the band of level ci exactly if the likelihood of the data there is between (1 - ci) times the likelihood at the estimates and the likelihood at the estimates; bands are nested when the estimates maximise the likelihood. The grid of every positive parameter extends beyond its reported confidence bounds; the axes show the first path of every contour and what an existing plot showed. An unknown name is a ValueError. (For a location with a negative lower bound the grid need not reach that bound, nor even the estimate.)", "quantifier": "all names, data, methods, confidence levels, existing axes, and all answers of the numerical routines and of matplotlib's contour", "why_tests_cant": "A unit test fixes one data set; the claim ranges over every data set of every length, including every pattern of ties and censoring.", "anchors": ["Reliability_testing.py: likelihood_plot"]}
{"id": "C123", "title": "Fit_Everything_ALT reports what the individual ALT fitters report", "statement": "When Fit_Everything_ALT returns, its table has exactly one row for each model of the right kind (single or dual stress) the caller did not exclude; each row shows the log-likelihood, AICc, BIC, optimizer and parameters which the class of that name returns when called directly with the caller's own arguments; the first row is the best by the chosen criterion; best_model_at_use_stress is distribution_at_use_stress of the best model's own class (false for the six dual-stress Lognormal and Exponential models); no class that is not excluded can have raised. It returns for every documented input when the optimizers succeed.", "quantifier": "all arguments, single and dual stress, all exclusions and criteria, and all answers of the numerical routines", "why_tests_cant": "A unit test fixes one data set; the claim ranges over every data set of every length, including every pattern of ties and censoring.", "anchors": ["ALT_fitters.py: Fit_Everything_ALT, Fit_Weibull_Exponential and the 23 other classes", "Utils.py: ALT_fitters_input_checking"]}
{"id": "C124", "title": "histogram shades the bins above white_above", "statement": "histogram refuses exactly non-sequences, non-numeric white_above and a white_above below every observation (ValueError); otherwise it makes one plt.hist call with the caller's data, density, cumulative, bins (default auto), colour (color, else c, else light grey), edge colour, line width (linewidth, else lw) and all other keywords unchanged; without white_above every bin keeps the colour; with it a bin is white exactly if white_above is at or below its middle, hence every bin wholly at or above it is white and every bin wholly at or below it is not.", "quantifier": "all data, thresholds, styles and every ascending list of bin edges matplotlib may answer", "why_tests_cant": "A unit test fixes one data set; the claim ranges over every data set of every length, including every pattern of ties and censoring.", "anchors": ["Other_functions.py: histogram"]}
{"id": "C125", "title": "round_and_string prints the number it is given", "statement": "round_and_string prints whole numbers exactly; other numbers between 1e-4 and 1e9 in size with an error of at most half a unit of the last of the requested decimals and at most that many decimals; numbers outside that range in scientific notation with one leading digit, the requested decimals and a relative error of at most half a unit of the last decimal; a minus sign exactly for negative numbers.", "quantifier": "all rational numbers (hence all finite floats) and all numbers of decimals", "why_tests_cant": "Tests evaluate finitely many real parameter/argument combinations; the claim is over a continuum.", "anchors": ["Utils.py: round_and_string"]}
{"id": "C126", "title": "Figures of Fit_Everything show the data and the fits", "statement": "The probability and P-P figures have a place for every fitted distribution (1 to 16); the histogram's bins divide the range of the failures equally, by the Freedman-Diaconis rule; the area of a PDF bar is the number of failures in its bin over the number of units (total area: the fraction failed) and the height of a CDF bar is the share of failures before its right edge times the largest plotting position; every P-P panel shows, under its distribution's name, the Kaplan-Meier fraction failed against the fitted CDF at each item, inside its limits, thinned only above 1000 items and then keeping the ends.", "quantifier": "all failure and censoring times, all sets of fitted CDFs, with or without downsampling", "why_tests_cant": "A unit test fixes one data set; the claim ranges over every data set of every length, including every pattern of ties and censoring.", "anchors": ["Fitters.py: Fit_Everything.__probplot_layout, Fit_Everything.__histogram_plot, Fit_Everything.__P_P_plot"]}
{"id": "C127", "title": "Plotting a distribution function sets limits that show it and keep what was plotted before", "statement": "PDF, CDF, SF, HF and CHF with a plot, on linear axes: on fresh axes the horizontal limits become the plot's window (the range of xvals; else from xmin to xmax in whichever order, with the distribution's own ends for those not given), on others the smallest interval that has both the window and the previous limits; the vertical limits show every point of a PDF, CDF or SF, every point of a monotone or peaked HF up to the right limit and every point of a CHF within its window; after any sequence of plots the windows of all of them and all previous limits are still visible; a plot is refused (ValueError) exactly for an unknown function, an empty xvals or an unknown distribution name.", "quantifier": "all axes, distributions (arbitrary quantile functions), curves and histories of plots of any length", "why_tests_cant": "A unit test fixes one data set; the claim ranges over every data set of every length, including every pattern of ties and censoring.", "anchors": ["Utils.py: get_axes_limits, restore_axes_limits", "Distributions.py: the plotting parts of PDF, CDF, SF, HF, CHF"]}
{"id": "C128", "title": "xy_transform converts between data and axes coordinates and back", "statement": "Values on the plot are converted to coordinates between 0 and 1 (the limits to 0 and 1), keeping their order, and the reverse direction undoes the conversion, for both axes; lists are converted number by number; other directions, axes and types are refused with a ValueError.", "quantifier": "all axes whose matplotlib transforms are increasing bijections between limits and pixels (linear, logarithmic, probability paper), all values and lists", "why_tests_cant": "Tests evaluate finitely many real parameter/argument combinations; the claim is over a continuum.", "anchors": ["Utils.py: xy_transform"]}
{"id": "C129", "title": "The ticks of probability plots are labelled with their values", "statement": "On every probability plot, the label of a tick of the y-axis is the percentage it is at, the label of a tick of the x-axis stands for its value (plain between 0.0001 and 10000 in size, otherwise a power of ten or a multiple between 1 and 10 of one); the default y ticks are ascending fractions between 0 and 1; the x locator that is applied leaves at most half of the axis without ticks or no more than the other one; minor ticks are labelled exactly if fewer than two major ones are shown and there are at most 10 (15) of them.", "quantifier": "all tick values, all limits, all tick lists of the two locators, every rounding of the float subtraction", "why_tests_cant": "Tests evaluate finitely many real parameter/argument combinations; the claim is over a continuum.", "anchors": ["Utils.py: probability_plot_xyticks (customFormatter, customPercentFormatter, get_edge_distances, get_tick_locations)"]}
{"id": "C130", "title": "chi2test tests the bins it reports", "statement": "chi2test either raises a ValueError-class error for inadmissible input or bins, or carries out the test on bins that contain every observation exactly once: the caller's bins if they cover the data, otherwise the automatic ones. The statistic, the degrees of freedom (bins minus parameters minus 1) and the verdict are those of exactly the reported bins.", "quantifier": "all distributions, all data, all significances, all bin specifications and all choices of automatic bins by numpy that are ascending and cover the data", "why_tests_cant": "Tests evaluate finitely many real parameter/argument combinations; the claim is over a continuum.", "anchors": ["Reliability_testing.py: chi2test"]}
{"id": "C131", "title": "Downsampling only selects which points are drawn", "statement": "The downsample_scatterplot option of QQ, PP and probability plots changes nothing but the points drawn: these are, in ascending order, the first, every s-th and the last of the points drawn without it (all of them with False or with fewer than 1000 points by default; between 500 and 1000 by default otherwise; s = floor of the factor given). Fitted lines, axes and papers are the same.", "quantifier": "all data, distributions, fitters, options, all values of the option (False, True, None, numbers from 1)", "why_tests_cant": "A unit test fixes one data set; the claim ranges over every data set of every length, including every pattern of ties and censoring.", "anchors": ["Probability_plotting.py: QQ_plot_parametric, QQ_plot_semiparametric, PP_plot_parametric, PP_plot_semiparametric, *_probability_plot", "Utils.py: xy_downsample"]}
{"id": "C132", "title": "Writing an xlsx file never loses a readable file without consent", "statement": "write_to_xlsx ends for every path, every sequence of answers and every set of existing files; it writes without asking only where no file can be opened, otherwise the first answer that is y or n (in either case) decides: y writes at the path, n writes at the first of the names made by adding (new) that cannot be opened; without a decision it raises EOFError. No other path changes. On Windows the new names are folder\\name(new).ext, folder\\name(new)(new).ext, ... in the same folder. pandas gets index=False unless given, and no excel_writer.", "quantifier": "all file systems, paths (Windows and POSIX), answer sequences, keyword arguments, dataframes", "why_tests_cant": "A unit test fixes one data set; the claim ranges over every data set of every length, including every pattern of ties and censoring.", "anchors": ["Utils.py: write_df_to_xlsx", "Convert_data.py: *.write_to_xlsx"]}
{"id": "C133", "title": "What a converter writes, the xlsx readers read back", "statement": "The dataframe of every converter can be built (columns of equal length), and a file with its cells is read by the reader of that format as the same data: FR in the same order with None for no censored data, FNRN as the same four arrays, XCN as the same rows (with the codes that were written named to the reader, or with the default codes).", "quantifier": "all failure and right censored data, all pairs of codes of one kind that differ and that pandas reads back unchanged", "why_tests_cant": "A unit test fixes one data set; the claim ranges over every data set of every length, including every pattern of ties and censoring.", "anchors": ["Convert_data.py: xlsx_to_FR, xlsx_to_FNRN, xlsx_to_XCN, FR_to_XCN, FNRN_to_XCN, XCN_to_FR, XCN_to_FNRN, FR_to_FNRN, FNRN_to_FR"]}
{"id": "C134", "title": "The probability plot of an ALT fit shows data, model and use level", "statement": "For each of the 24 ALT fitters, with admissible estimates, positive life at the use level and failures at every censored stress: probability_plot shows, for every stress in the change-of-parameters table, the plotting positions of exactly the units at this stress, the line of the life distribution at the life that the fitted life-stress model gives there, and dashed the fit to these units alone (none for a single failure); the life distribution at the use level; all points and the use line between them are inside the limits; every stress and the use level have a colour of their own. The figure is made exactly if there are enough colours, otherwise IndexError.", "quantifier": "all accepted data, all optimizer and group-fit results, all numbers of colours", "why_tests_cant": "Tests evaluate finitely many real parameter/argument combinations; the claim is over a continuum.", "anchors": ["Utils.py: ALT_prob_plot, make_fitted_dist_params_for_ALT_probplots", "ALT_fitters.py: Fit_*.__init__"]}
{"id": "C135", "title": "The life-stress plot shows failures, model and use level", "statement": "life_stress_plot draws nothing unless asked; ax in swap, swapped, flip, flipped (three capitalisations) exchanges the axes and nothing else. The figure of a fit shows the failures of every stress at that stress, the line or surface of the fitted life-stress model, and the use level; the stress axes are the range of the stresses (with the use stress) widened by a fifth on the log scale, all failures are inside the limits; where life does not increase with stress the line is visible over the whole stress axis, and so is the use level unless it is above all test stresses. It is made exactly if there is a colour for every stress and the use level, otherwise IndexError.", "quantifier": "all accepted data with positive stresses, all fits, all values of ax", "why_tests_cant": "Tests evaluate finitely many real parameter/argument combinations; the claim is over a continuum.", "anchors": ["Utils.py: life_stress_plot", "ALT_fitters.py: Fit_*.__init__"]}
{"id": "C136", "title": "The distribution explorer always shows the selected distribution", "statement": "After any history of dragged sliders and clicked buttons distribution_explorer has raised no error; the visible sliders are those of the parameters of the selected distribution, each within its range; the five plots and the title show that distribution with the values of the sliders and nothing else; the parameters are valid. A click shows the distribution with its first values whatever happened before; dragging a visible slider sets its parameter to the nearest value in its range and leaves everything else.", "quantifier": "all finite histories of events", "why_tests_cant": "A unit test fixes one data set; the claim ranges over every data set of every length, including every pattern of ties and censoring.", "anchors": ["Other_functions.py: distribution_explorer"]}
{"id": "C137", "title": "random_samples gives what was asked for", "statement": "random_samples(number_of_samples, seed) of each of the eight distributions accepts exactly an int of at least 1 and a seed of None or between 0 and 2^32-1, otherwise ValueError (and a refused number leaves the global generator as it was); it returns exactly that many samples, each a value the distribution can take (Beta: below 1); the samples are those of the standard member of the family, scaled and shifted by the parameters; the outcomes of any series of calls starting with a seeded accepted call do not depend on what was drawn before.", "quantifier": "all generators, all generator states, all parameters, all series of calls", "why_tests_cant": "A unit test fixes one data set; the claim ranges over every data set of every length, including every pattern of ties and censoring.", "anchors": ["Distributions.py: *_Distribution.random_samples"]}
{"id": "C138", "title": "plot() shows the five functions and the statistics", "statement": "dist.plot(xvals, xmin, xmax) of each of the eight distributions shows five plots in order PDF, CDF, SF, HF, CHF; each curve is exactly what the method of that name returns for these x-values, although plot computes it anew; the limits of each are those which the method leaves on new axes; the nine descriptive statistics are written in full, as numbers or as the message why there is none (Loglogistic moments, Beta mode); with x-values in the range of the distribution no error is raised.", "quantifier": "all distributions, all parameters, all x-values, all axes", "why_tests_cant": "A unit test fixes one data set; the claim ranges over every data set of every length, including every pattern of ties and censoring.", "anchors": ["Distributions.py: *_Distribution.plot", "Utils.py: restore_axes_limits"]}
{"id": "C139", "title": "The crosshairs follow the mouse and touch nothing else", "statement": "crosshairs() is accepted exactly with labels that are strings or None, an int for decimals and a string or None for dateformat, otherwise ValueError. After any history of mouse events (hovering over points of any axes, leaving axes, clicks, dismissals), what can be seen on every axes is what the user has drawn, unchanged, and exactly one pair of crosshairs through the point last hovered with its coordinates written on the axes; none after the mouse has left those axes. Each click adds an annotation with the labels and the coordinates.", "quantifier": "all figures (without a look-alike of the crosshair texts), all finite histories of mouse events, all settings (decimals other than 0 for annotations)", "why_tests_cant": "A unit test fixes one data set; the claim ranges over every data set of every length, including every pattern of ties and censoring.", "anchors": ["Other_functions.py: crosshairs"]}
{"id": "C140", "title": "The confidence bands on plots of CDF, SF and CHF contain the curve", "statement": "Plotting CDF, SF or CHF of a fitted distribution with plot_CI draws a band between exactly the bounds that the same function returns with CI_x (reliability) or CI_y (time), except that an edge is held at its first extreme value. Bounds on reliability: at those of 200 ascending times from the 1e-5 to the 0.99999 quantile (Gamma: from the 1e-7 quantile, or 0.0001 without threshold) at which CI_x does not raise; bounds on time: at 200 heights from 1e-8 to 1-1e-8, for the CHF up to 1.5 times the last value of the curve. At every one of these the curve lies between the two edges, the region is filled between the edges, and nothing raises. Without plot_CI, CI_type or usable standard errors nothing is drawn.", "quantifier": "all fitted distributions of the seven families with legal parameters and standard errors, all confidence levels in (0,1), the three functions, both CI types, any numerical derivatives of the Gamma functions; Gamma without threshold has its 0.99999 quantile at 0.0001 or above; for the CHF with bounds on time the last value of the curve is at least 1e-8/1.5", "why_tests_cant": "Tests evaluate finitely many real parameter/argument combinations; the claim is over a continuum.", "anchors": ["Utils.py: distribution_confidence_intervals", "Utils.py: fill_no_autoscale", "Utils.py: line_no_autoscale", "Utils.py: no_reverse", "Distributions.py: CDF, SF, CHF"]}
{"id": "C141", "title": "A call of PDF, CDF, SF, HF or CHF with its plot draws exactly what it returns", "statement": "For each of the eight distributions, a call with a plot returns the function's values at the x-values (the caller's list, or 200 points that are made up), adds exactly one curve to what is already on the axes, through the points (x, value), with the caller's label, sets the title and the vertical label to those of the function, and leaves the limits of property C127. Without a plot nothing is touched and the same values are returned. A number returns a number and draws nothing. Lists of two or more x-values in range are always plotted. Not so for a list with one x-value (an error with the default show_plot) and a number with xmin or xmax (a TypeError).", "quantifier": "all distributions, functions, x-values, limits, labels and previous contents of the axes", "why_tests_cant": "Tests evaluate finitely many real parameter/argument combinations; the claim is over a continuum.", "anchors": ["Distributions.py: Weibull_Distribution.PDF (and the other distributions and functions)", "Utils.py: restore_axes_limits", "Utils.py: get_axes_limits", "Utils.py: unpack_single_arrays", "Utils.py: generate_X_array"]}
{"id": "C142", "title": "Plots of competing risks and mixture models show the model's functions and its components", "statement": "The x-values are the caller's, or 1000 points at equal steps between the limits (by default the smallest 0.1% and largest 99.9% quantile of the components, the lower one pulled to 0 where near). With a plot the components are drawn first if asked for, each with its own function at the x-values in its range and its own label, then the model with the values that are returned, cut at 1e100 for PDF and HF; what was on the axes stays. Without a plot, and with a single x-value, nothing is drawn. plot() shows the five functions in order at the same x-values, and the nine statistics. Every x-list the model's functions accept is plotted.", "quantifier": "all models with library components, functions, x-values, limits, labels and previous contents of the axes", "why_tests_cant": "Tests evaluate finitely many real parameter/argument combinations; the claim is over a continuum.", "anchors": ["Distributions.py: Competing_Risks_Model.plot, PDF, CDF, SF, HF, CHF", "Distributions.py: Mixture_Model.plot, PDF, CDF, SF, HF, CHF"]}
{"id": "C143", "title": "Plots of DSZI models show the DSZI formula of the base distribution", "statement": "A call of PDF, CDF, SF, HF or CHF of a defective subpopulation, zero inflated model returns (DS-ZI)*pdf, ZI+(DS-ZI)*cdf, one minus that, their ratio, and minus the logarithm, at the x-values of the base distribution; with a plot it adds exactly one curve through these points, titled by which of DS, ZI, DSZI it is, with the limits of the base distribution; plot() shows all five, and the nine statistics of the model. Two or more x-values in range are always accepted. Not so for one x-value in a list, for points made up outside the range of the base (Beta with a negative xmin) and for plot() where a statistic of the base distribution is a message.", "quantifier": "all base distributions, DS, ZI, functions, x-values, limits, labels and previous contents of the axes", "why_tests_cant": "Tests evaluate finitely many real parameter/argument combinations; the claim is over a continuum.", "anchors": ["Distributions.py: DSZI_Model.plot, PDF, CDF, SF, HF, CHF"]}
{"id": "C144", "title": "Plots of KaplanMeier, NelsonAalen and RankAdjustment show the estimate in the results", "statement": "With a plot the results are the same as without; one curve is added to what is on the axes, the step array of the function plot_type names (SF, CDF or CHF) over the step array of times, and with plot_CI one band between the bounds in the results; title and label say what it is. Whatever data the estimator accepts it plots. The horizontal axis goes from 0 to the largest time or to where it ended before; the curve of SF and CDF is within the axes; of the CHF every point but the last is within, and for Kaplan-Meier every finite point. Not so for the last point of Nelson-Aalen and RankAdjustment.", "quantifier": "all data, plot types, confidence levels and previous contents of the axes; a in [0,1) for RankAdjustment", "why_tests_cant": "Tests evaluate finitely many real parameter/argument combinations; the claim is over a continuum.", "anchors": ["Nonparametric.py: KaplanMeier", "Nonparametric.py: NelsonAalen", "Nonparametric.py: RankAdjustment"]}
{"id": "C145", "title": "Plots of MCF_nonparametric and MCF_parametric show the mean cumulative function", "statement": "MCF_nonparametric adds one line, the graph of the mean cumulative function from 0 to the end of the last system, and with plot_CI one band between the graphs of the bounds in the results; MCF_parametric adds the curve (t/alpha)^beta of its results at 1000 times, the points of the non-parametric estimate, and with plot_CI a band whose edges are the curve times and divided by exp(Z SE/curve), SE by the delta method. The results are the same with and without a plot, and whatever is accepted is plotted. Line, band and points are within the axes if CI is at least 1/2.", "quantifier": "all systems with repair and end times, confidence levels, quantile functions, curve fits and previous contents of the axes", "why_tests_cant": "Tests evaluate finitely many real parameter/argument combinations; the claim is over a continuum.", "anchors": ["Repairable_systems.py: MCF_nonparametric", "Repairable_systems.py: MCF_parametric"]}
{"id": "C146", "title": "reliability_growth plots the observed MTBF, the fitted model and the target", "statement": "With a plot the results are the same as without; the observed cumulative MTBF is added as points; one curve is added which at every positive time shows the MTBF of the fitted model; with a target one more line, from the target on the vertical axis to the time to the target and down, and its corner is on the curve. All points are within the axes, and on a linear scale the target's line is too. After any number of calls on the same axes the legend has exactly one entry for targets if any call had a target, else none.", "quantifier": "all times, targets, models, scales, labels, previous contents of the axes, and histories of calls", "why_tests_cant": "Tests evaluate finitely many real parameter/argument combinations; the claim is over a continuum.", "anchors": ["Repairable_systems.py: reliability_growth"]}
{"id": "C147", "title": "Plots of optimal_replacement_time show the cost curve, its minimum, and the optimum for other cost ratios", "statement": "The results are the same with and without plots. The time plot adds the curve of cost per unit time on 10000 (q=0) or 100000 (q=1) times from 1 to 3 or 4 alpha and the point (optimal time, least cost), which no point of the curve is below; the vertical axis goes from 0 to twice the least cost. For q=0 and alpha of at least 1/3 the point and the times of the curve are within the axes; for q=1 the point is within them exactly if CM <= PM (beta-1) 4^beta. The ratio plot adds a line over 200 cost ratios which at each ratio shows the time the function itself returns for that ratio, and the point (CM/PM, optimal time), within the axes.", "quantifier": "all costs, Weibull parameters, q in {0,1}, integrators and previous contents of the axes", "why_tests_cant": "Tests evaluate finitely many real parameter/argument combinations; the claim is over a continuum.", "anchors": ["Repairable_systems.py: optimal_replacement_time"]}
{"id": "C148", "title": "How the optimal replacement time depends on the costs", "statement": "As good as new, with exact integrals and alpha of at least 1/3: if a failure costs more the optimal time is not later (for beta >= 1), and if planned maintenance costs more it is not earlier (for beta >= 0). For both values of q, both costs in another unit of money give the same optimal time and the least cost in that unit.", "quantifier": "all costs, Weibull parameters, factors; any integrator for the unit of money", "why_tests_cant": "Tests evaluate finitely many real parameter/argument combinations; the claim is over a continuum.", "anchors": ["Repairable_systems.py: optimal_replacement_time"]}
{"id": "C149", "title": "The plot of ROCOF shows the times between failures and the MTBF of the reported trend", "statement": "Whatever ROCOF accepts it plots, with the same results. The times between failures are points over 1, 2, ...; with a trend the line is the reciprocal of the derivative of Lambda_hat t^Beta_hat at the times of the failures the trend was estimated from, and above 0; with a constant trend it is flat at the reciprocal of the reported ROCOF, which without test_end is the mean of the points. Failure times in any order give the plot of the times between failures they accumulate from.", "quantifier": "all times, test ends, confidence levels and quantile functions", "why_tests_cant": "Tests evaluate finitely many real parameter/argument combinations; the claim is over a continuum.", "anchors": ["Repairable_systems.py: ROCOF"]}
{"id": "C150", "title": "The strain-life diagram shows the relation the reported life solves", "statement": "With a load, the red curve is the strain-life relation of the chosen mean stress correction at the mean stress of the load, at 1000 points from 10 to 10^8 reversals; the elastic and the plastic line are its parts and add up to it at every point. The marked point is the strain amplitude over the reported life in reversals and lies on that curve; it is within the axes exactly if the life is between 10 and 10^8 reversals, i.e. if the amplitude is between the ends of the curve. The transition line stands where the two parts are equal and ends on the curve. The axes go from 10 to 10^8 and between the nearest powers of ten around the plastic and the total strain; the elastic line is within them if it falls more slowly and the transition life is at most 10^8. The numbers written are the lives rounded down. Without a load the diagram is that of fully reversed loading without a point. The results do not depend on the plot.", "quantifier": "all material parameters, mean stress correction methods and loads; any solver that finds roots", "why_tests_cant": "Tests evaluate finitely many real parameter/argument combinations; the claim is over a continuum.", "anchors": ["PoF.py: strain_life_diagram"]}
{"id": "C151", "title": "The S-N diagram shows every failure, the fitted line across the whole axis, and traces that end on it", "statement": "Every failure is drawn within the axes; on a log axis the cycles run between the nearest powers of ten around them, on a linear one from 0 to 1.2 times the longest; the stresses from the smallest minus a fifth of the largest to 1.2 times the largest. The line is the least-squares line of stress on log cycles (not below the endurance limit if that is shown), drawn at 1000 numbers of cycles in equal ratios from 1 to 100 times the longest life, so it crosses the whole axis; bounds lie on either side of it at the same numbers of cycles. Each trace is a path from one axis to the fitted line and to the other axis. There is one mark per run-out, at its stress at the right end. Whatever passes the checks is drawn.", "quantifier": "all failures, run-outs, scales, traces and methods for bounds; any least-squares polyfit", "why_tests_cant": "Tests evaluate finitely many real parameter/argument combinations; the claim is over a continuum.", "anchors": ["PoF.py: SN_diagram"]}
{"id": "C152", "title": "The stress-strain diagram shows the material's loading curve and hysteresis loop with the reported tips", "statement": "Loading in tension: the red line is the first loading of the material (Ramberg-Osgood) from no stress to the largest, the blue lines are its unloading from the right tip and its reloading from the left tip (Masing), 1000 points each; the two labelled tips are the reported extreme strains and stresses. All of it is within the axes, which are symmetric about the origin and wider than the extremes by factors 2 and 1.4. Loading that starts in compression gives the mirrored diagram. The plot is drawn whenever the function returns.", "quantifier": "all materials, loads and directions; any solver that finds roots", "why_tests_cant": "Tests evaluate finitely many real parameter/argument combinations; the claim is over a continuum.", "anchors": ["PoF.py: stress_strain_diagram"]}
{"id": "C153", "title": "The figures of the parameter fit show all data and the curves of the fitted parameters", "statement": "The first figure shows all data within the axes and the Ramberg-Osgood curve of the fitted K and n at 10000 stresses from none to the largest; the second, drawn if cycles were given, the strain-life curve of the fitted parameters with its elastic and plastic part from 10 to 10^8 reversals and all data with at least a decade to spare on each side. Data exactly on a Ramberg-Osgood or strain-life curve lie on the curve drawn. The transition line stands where the two parts are equal and ends on the curve; its label is the number of reversals without the fraction. Without plots the results are the same.", "quantifier": "all positive stresses, strains and cycles; for exact data any least-squares polyfit", "why_tests_cant": "Tests evaluate finitely many real parameter/argument combinations; the claim is over a continuum.", "anchors": ["PoF.py: stress_strain_life_parameters_from_data"]}
{"id": "C154", "title": "The creep rupture plot shows every test, one line per temperature, and the trace on the line of its temperature", "statement": "If the rows of each temperature are contiguous and a trace is given, the plot has one set of points and one line per temperature: the points are the rows of that temperature, the line is the fit to them at 100 times in equal ratios from one end of the axis to the other. The trace goes from the left end at its stress to the line of its temperature and down to the bottom. All points are visible, with one to two decades to spare at the ends in time and a fifth of the range in stress.", "quantifier": "all tests, row orders with contiguous temperatures, traces and polyfits", "why_tests_cant": "Tests evaluate finitely many real parameter/argument combinations; the claim is over a continuum.", "anchors": ["PoF.py: creep_rupture_curves"]}
{"id": "C155", "title": "The crack growth plot shows the crack and the critical length cycle by cycle, crossing only in the last cycle", "statement": "The plot has one point per cycle 1, ..., N_f of the iterative method: the length of the crack after that cycle by the Paris law and the critical length for the crack before it. The crack is drawn at or below the critical length (and the final length asked for) until the last cycle and above one of them at the last. The dashed guide goes from the axis through the last point of the crack to N_f. All cycles, all critical lengths and the crack until the last cycle are within the axes.", "quantifier": "all accepted cracks whose iterative calculation ends", "why_tests_cant": "A unit test fixes one data set; the claim ranges over every data set of every length, including every pattern of ties and censoring.", "anchors": ["PoF.py: fracture_mechanics_crack_growth"]}
{"id": "C156", "title": "The probability plots of Fit_Everything show one panel per row of results, in their order, each with its data and its fit", "statement": "With show_probability_plot and show_best_distribution_probability_plot, if no failure coincides with a censoring time and the fits can be drawn (locations before the first failure, positive parameters where the paper depends on them), the figure has one panel for every row of results, in the same order, titled with the row's distribution, on a grid with a place for each and no empty row or column. Each panel shows the plotting positions of the failures given (zeros removed) at time minus the row's location (Exponential_2P with a location: 0.009 further right, see C118), all within the axes, and the CDF of the very distribution that the class of that name fits to these data; for Weibull_Mixture, Weibull_CR and Weibull_DS a curve of 1000 points of that CDF from a thousandth of the first failure to ten times the last. The plot of the best distribution is the first panel. The fits without a location can always be drawn, except that Gamma and Beta need positive parameters.", "quantifier": "all data, exclusions, methods, optimizers, criteria and downsampling arguments that draw all points; any numpy order and any answers of the optimizers", "why_tests_cant": "Tests evaluate finitely many real parameter/argument combinations; the claim is over a continuum.", "anchors": ["Fitters.py: Fit_Everything.__probability_plot", "Fitters.py: Fit_Everything.__probplot_layout", "Probability_plotting.py: Weibull_probability_plot"]}
{"id": "C157", "title": "The probability plots of Fit_Everything_ALT show one panel per row of results, each the model of that row fitted to the caller's data", "statement": "With show_probability_plot and show_best_distribution_probability_plot, if the estimates of the fitted models are admissible, the use level is positive, every stress with censored units has failures and matplotlib's colour cycle has a colour for every stress and the use level, the figure has one panel for every row of results, in the same order, titled with the row's model, on a grid with a place for each and no empty row or column. Each panel shows, for exactly the stresses in the data, each once, the plotting positions of its units, the life distribution that the class of that name predicts for this stress when it is called with the caller's arguments, and the fit to the units of this stress alone; and the predicted distribution at the use level; all within the axes. The plot of the best model is the first panel. With too few colours the figures raise IndexError.", "quantifier": "all data with one or two stresses, exclusions, optimizers and criteria; any numpy order and any answers of the optimizers", "why_tests_cant": "Tests evaluate finitely many real parameter/argument combinations; the claim is over a continuum.", "anchors": ["ALT_fitters.py: Fit_Everything_ALT.__probability_plot", "Utils.py: ALT_prob_plot"]}
{"id": "C158", "title": "The probability plot of a fitter class shows the data it was fitted to, on the paper of its family, with the CDF it returned", "statement": "If a class of Fitters.py (the thirteen 2P/3P/Exponential/Beta classes, Weibull_Mixture, Weibull_CR, Weibull_DS) returns with show_probability_plot True, then with no downsampling, no failure tied with a censored time and a drawable fit (location before the failures, positive parameters where the paper depends on them) it also draws the plot: on the paper of its family (for Gamma and Beta with the fitted shapes), the scatter points are exactly the Rank Adjustment plotting positions of the times that were used (shifted by the location on the paper of a located family), the drawn line is the CDF of the distribution that the class returned, and every point is inside the axes. Fit_Weibull_2P_grouped does this for the expanded table. Fit_Weibull_ZI and Fit_Weibull_DSZI show the positions of all failures, zeros included, and the CDF they return over a window around the non-zero failures; all points are visible if there are no zeros. With zeros they need not be: for ten failures at 0 and failures at 1 and 2 all twelve points are outside the axes.", "quantifier": "all failure and censoring data, arguments and answers of the optimizers for which the class returns", "why_tests_cant": "Tests evaluate finitely many real parameter/argument combinations; the claim is over a continuum.", "anchors": ["Fitters.py: show_probability_plot blocks of every Fit_ class", "Probability_plotting.py: *_probability_plot, plot_points"]}
{"id": "C159", "title": "The confidence band on the probability plot of a fitter class is the confidence bounds of the distribution it returned", "statement": "When a class of Fitters.py for a Weibull, Gamma, Normal, Lognormal, Loglogistic, Gumbel or Exponential distribution has returned, its probability plot draws a band. With CI_type 'time' its edges have 200 points each at heights from 1-1e-8 down to 1e-8, which are the bounds on time that CDF of the returned distribution gives with CI_y equal to those heights and the CI of the call (held at their first smallest value), shown at time less location; the line of the plot passes between them at each height. With CI_type 'reliability' the edges are the bounds that SF of the returned distribution gives with CI_x at the times of an ascending grid of 200 times, at exactly those where it does not raise, and the line lies between them. The Exponential classes draw such a band for every CI_type. With CI_type 'none' or None the others draw no band; nor do Beta, mixture, competing risks and defective subpopulation models.", "quantifier": "all data, arguments and answers of the optimizers for which the class returns a distribution with legal parameters and standard errors", "why_tests_cant": "Tests evaluate finitely many real parameter/argument combinations; the claim is over a continuum.", "anchors": ["Fitters.py: show_probability_plot blocks", "Probability_plotting.py: construction of the plotted distribution in each *_probability_plot", "Utils.py: distributions_input_checking, distribution_confidence_intervals"]}
{"id": "C160", "title": "colorprint shows the text in the style asked for and leaves the terminal plain", "statement": "For every string without escape characters, every text and background colour (None or one of the names of the seven colours in any letter case) and every combination of bold, italic and underline, colorprint prints on a terminal that is not in bold – whatever its other attributes – each character of the string in exactly the style asked for, then a newline, and leaves the terminal in its plain style, so that any sequence of calls is shown call by call. This holds whether the terminal takes escape code 21 for 'double underline' (ECMA-48) or 'bold off'. A colour argument that is neither None nor such a name is a ValueError and nothing is printed; nothing else is refused. bold=False does not turn off bold on an ECMA-48 terminal that is in bold.", "quantifier": "all strings without escape characters, all arguments, all sequences of calls, all terminal states", "why_tests_cant": "A unit test fixes one data set; the claim ranges over every data set of every length, including every pattern of ties and censoring.", "anchors": ["Utils.py: colorprint"]}
{"id": "C161", "title": "The maximum likelihood fit does not depend on the optimizer or the order of the data", "statement": "Two maximum likelihood runs of Fit_Weibull_2P, Fit_Normal_2P, Fit_Lognormal_2P (with the same forced shape, or none), Fit_Gumbel_2P, Fit_Loglogistic_2P or Fit_Exponential_1P on the same failures and right censored times, in any order, report the same parameters, whatever initial guesses, optimizer names, confidence levels and sorting routines were used, provided each optimizer that reported success was exact and the estimates are admissible (positive).", "quantifier": "all failures and right censored times, all orders, all exact optimizers, all other arguments", "why_tests_cant": "A unit test fixes one data set; the claim ranges over every data set of every length, including every pattern of ties and censoring.", "anchors": ["Fitters.py: Fit_Weibull_2P", "Fitters.py: Fit_Normal_2P", "Fitters.py: Fit_Lognormal_2P", "Fitters.py: Fit_Gumbel_2P", "Fitters.py: Fit_Loglogistic_2P", "Utils.py: MLE_optimization"]}
{"id": "C162", "title": "Fits of related distributions agree", "statement": "With exact optimizers, Fit_Lognormal_2P of positive times reports the mu and sigma that Fit_Normal_2P reports for their logarithms (with the same forced sigma or none); Fit_Weibull_2P reports exp(mu) and 1/sigma of the Fit_Gumbel_2P of the logarithms; and Fit_Weibull_2P with force_beta=1 reports beta = 1 and alpha = 1/Lambda of Fit_Exponential_1P.", "quantifier": "all positive failures and right censored times in any order, all exact optimizers", "why_tests_cant": "A unit test fixes one data set; the claim ranges over every data set of every length, including every pattern of ties and censoring.", "anchors": ["Fitters.py: Fit_Weibull_2P", "Fitters.py: Fit_Normal_2P", "Fitters.py: Fit_Lognormal_2P", "Fitters.py: Fit_Gumbel_2P", "Fitters.py: Fit_Loglogistic_2P", "Utils.py: MLE_optimization", "Fitters.py: Fit_Exponential_1P"]}
{"id": "C163", "title": "A change of units changes the fit accordingly", "statement": "With exact optimizers, the fits of times k times as large (k > 0, any order): Fit_Weibull_2P and Fit_Loglogistic_2P report k alpha and the same beta, Fit_Lognormal_2P mu + ln k and the same sigma, Fit_Exponential_1P Lambda/k; Fit_Normal_2P and Fit_Gumbel_2P of k t + s report k mu + s and k sigma (a forced sigma multiplied by k as well).", "quantifier": "all failures and right censored times, all k > 0 and s, all exact optimizers", "why_tests_cant": "A unit test fixes one data set; the claim ranges over every data set of every length, including every pattern of ties and censoring.", "anchors": ["Fitters.py: Fit_Weibull_2P", "Fitters.py: Fit_Normal_2P", "Fitters.py: Fit_Lognormal_2P", "Fitters.py: Fit_Gumbel_2P", "Fitters.py: Fit_Loglogistic_2P", "Utils.py: MLE_optimization", "Fitters.py: Fit_Exponential_1P"]}
{"id": "C164", "title": "Every accepted data set has a maximum likelihood fit", "statement": "For every data set Fit_Weibull_2P, Fit_Normal_2P, Fit_Lognormal_2P, Fit_Gumbel_2P or Fit_Loglogistic_2P accepts (with or without a forced shape), the likelihood has a maximum, so that with optimizers that are exact and find a minimum inside the bounds when there is one, a fit by maximum likelihood without quantiles returns, reports an optimizer and has admissible (positive) parameters; by C161 they are the only ones.", "quantifier": "all accepted arguments with method MLE and no quantiles", "why_tests_cant": "A unit test fixes one data set; the claim ranges over every data set of every length, including every pattern of ties and censoring.", "anchors": ["Fitters.py: Fit_Weibull_2P", "Fitters.py: Fit_Normal_2P", "Fitters.py: Fit_Lognormal_2P", "Fitters.py: Fit_Gumbel_2P", "Fitters.py: Fit_Loglogistic_2P", "Utils.py: MLE_optimization"]}
{"id": "C165", "title": "The fit of an ALT model does not depend on the optimizer or the order of the data", "statement": "Two runs of the same Weibull, Lognormal or Exponential ALT fitter on the same failures and right censored units (times and stresses, in any order) report the same estimates, whatever initial guesses, optimizer names and confidence levels were used, provided the optimizers that reported success were exact, the estimates are admissible and the stresses are positive. With two stresses this needs pairs of failure stresses that are not all on one line on the scale on which the model is linear.", "quantifier": "all failures, right censored units and stresses, all orders, all exact optimizers, all 18 classes", "why_tests_cant": "A unit test fixes one data set; the claim ranges over every data set of every length, including every pattern of ties and censoring.", "anchors": ["ALT_fitters.py: Fit_Weibull_Exponential", "ALT_fitters.py: Fit_Weibull_Eyring", "ALT_fitters.py: Fit_Weibull_Power", "ALT_fitters.py: Fit_Weibull_Dual_Exponential", "ALT_fitters.py: Fit_Weibull_Power_Exponential", "ALT_fitters.py: Fit_Weibull_Dual_Power", "ALT_fitters.py: Fit_Lognormal_Exponential", "ALT_fitters.py: Fit_Exponential_Exponential", "Utils.py: MLE_optimization"]}
{"id": "C166", "title": "A change of the units of time and stress changes the ALT fit accordingly", "statement": "With exact optimizers, multiplying all times by k > 0 and the stresses by k1 (and k2) > 0, in any order of the units, changes the estimates of the Weibull, Lognormal and Exponential ALT fitters exactly as the formula of the life-stress model demands (Exponential: a by k1, b by k; Eyring: a by k1, c by -ln k - ln k1; Power: a by k/k1^n, n unchanged; and so on), and leaves the shape unchanged.", "quantifier": "all data, all positive factors, all exact optimizers, all 18 classes", "why_tests_cant": "A unit test fixes one data set; the claim ranges over every data set of every length, including every pattern of ties and censoring.", "anchors": ["ALT_fitters.py: Fit_Weibull_Exponential", "ALT_fitters.py: Fit_Weibull_Eyring", "ALT_fitters.py: Fit_Weibull_Power", "ALT_fitters.py: Fit_Weibull_Dual_Exponential", "ALT_fitters.py: Fit_Weibull_Power_Exponential", "ALT_fitters.py: Fit_Weibull_Dual_Power", "ALT_fitters.py: Fit_Lognormal_Exponential", "ALT_fitters.py: Fit_Exponential_Exponential", "Utils.py: MLE_optimization"]}
{"id": "C167", "title": "An ALT fit exists unless a model goes through all the failures", "statement": "For every data set a Weibull, Lognormal or Exponential ALT fitter accepts with positive stresses (each stress with one failure or two different ones, censored stresses also with failures, and with two stresses pairs not all on one line), the likelihood has a maximum unless a model of the class goes exactly through all the failures (which is no obstacle for the Exponential classes): with optimizers that are exact and find a minimum inside the bounds when there is one, the fitter returns, reports an optimizer and has admissible estimates; by C165 they are the only ones.", "quantifier": "all accepted data, all exact optimizers that find minima, all 18 classes", "why_tests_cant": "A unit test fixes one data set; the claim ranges over every data set of every length, including every pattern of ties and censoring.", "anchors": ["ALT_fitters.py: Fit_Weibull_Exponential", "ALT_fitters.py: Fit_Weibull_Eyring", "ALT_fitters.py: Fit_Weibull_Power", "ALT_fitters.py: Fit_Weibull_Dual_Exponential", "ALT_fitters.py: Fit_Weibull_Power_Exponential", "ALT_fitters.py: Fit_Weibull_Dual_Power", "ALT_fitters.py: Fit_Lognormal_Exponential", "ALT_fitters.py: Fit_Exponential_Exponential", "Utils.py: MLE_optimization"]}
{"id": "C168", "title": "Log-likelihood, AICc and BIC do not depend on the run, and the comparison of distributions not on the unit of time", "statement": "Two maximum likelihood runs of a fitter, the second on the times of the first multiplied by k > 0 and in any order, with exact optimizers: the reported log-likelihood falls by ln k for every failure used, and AICc and BIC rise by twice that (AICc is reported by both or by neither). So for k = 1 the criteria are those of the data, whatever optimizer, guess and order were used, and for other k the differences between distributions, hence their ranking by log-likelihood, AICc or BIC, are the same in every unit of time.", "quantifier": "all failures and right censored times, all orders, all factors k > 0, all exact optimizers, all 13 distribution fitters (Beta: k = 1)", "why_tests_cant": "A unit test fixes one data set; the claim ranges over every data set of every length, including every pattern of ties and censoring.", "anchors": ["Fitters.py: Fit_Weibull_2P", "Fitters.py: Fit_Weibull_3P", "Fitters.py: Fit_Exponential_1P", "Fitters.py: Fit_Exponential_2P", "Fitters.py: Fit_Normal_2P", "Fitters.py: Fit_Gumbel_2P", "Fitters.py: Fit_Lognormal_2P", "Fitters.py: Fit_Lognormal_3P", "Fitters.py: Fit_Gamma_2P", "Fitters.py: Fit_Gamma_3P", "Fitters.py: Fit_Loglogistic_2P", "Fitters.py: Fit_Loglogistic_3P", "Fitters.py: Fit_Beta_2P", "Utils.py: MLE_optimization"]}
{"id": "C169", "title": "Fit_Everything picks the same distribution in every unit of time", "statement": "Two calls of Fit_Everything with the same distributions excluded, the second on the times of the first multiplied by k > 0 and in any order, both with exact optimizers: for each distribution without a location parameter (Weibull_2P, Gamma_2P, Lognormal_2P, Exponential_1P, Normal_2P, Gumbel_2P, Loglogistic_2P) the row of the second table has a log-likelihood lower by ln k for every nonzero failure, and AICc and BIC higher by twice that. If only such distributions are compared, the best distribution by BIC (or by AICc, when it exists for all) of the second call is a best distribution of the first, and it is the same one when no two of them tie.", "quantifier": "all failures and right censored times, all orders, all k > 0, all exclude lists, all exact optimizers", "why_tests_cant": "A unit test fixes one data set; the claim ranges over every data set of every length, including every pattern of ties and censoring.", "anchors": ["Fitters.py: Fit_Everything", "Utils.py: MLE_optimization", "Utils.py: LS_optimization"]}
{"id": "C170", "title": "The Anderson-Darling statistic does not depend on the unit of time", "statement": "Two maximum likelihood runs of Fit_Weibull_2P, Fit_Loglogistic_2P, Fit_Lognormal_2P, Fit_Normal_2P, Fit_Gumbel_2P or Fit_Exponential_1P with exact optimizers, the second on the times of the first multiplied by k > 0 (for Normal and Gumbel also shifted), report the same Anderson-Darling statistic. So Fit_Everything sorted by AD picks the same one of these distributions in every unit of time, if there are no ties.", "quantifier": "all failures and right censored times, all k > 0 and shifts, all exact optimizers, all comparison sorts", "why_tests_cant": "A unit test fixes one data set; the claim ranges over every data set of every length, including every pattern of ties and censoring.", "anchors": ["Fitters.py: Fit_Weibull_2P", "Fitters.py: Fit_Loglogistic_2P", "Fitters.py: Fit_Lognormal_2P", "Fitters.py: Fit_Normal_2P", "Fitters.py: Fit_Gumbel_2P", "Fitters.py: Fit_Exponential_1P", "Fitters.py: Fit_Everything", "Utils.py: anderson_darling", "Probability_plotting.py: plotting_positions"]}
{"id": "C171", "title": "ALT fits and the choice of model do not depend on the units of time and stress", "statement": "Two runs of any of the 24 ALT fitters with exact optimizers, the second on the same units in any order with all times multiplied by k > 0 and the stresses multiplied by positive factors: the log-likelihood falls by ln k for every failure and AICc and BIC rise by twice that, whatever the class (also the Normal ones) and also when the estimates themselves are not unique. So Fit_Everything_ALT sorted by BIC or AICc calls the same model the best one in all units, if there are no ties.", "quantifier": "all failures and right censored units with positive stresses, all positive factors for time and stresses, all orders, all exact optimizers, all excluded models", "why_tests_cant": "A unit test fixes one data set; the claim ranges over every data set of every length, including every pattern of ties and censoring.", "anchors": ["ALT_fitters.py: Fit_Everything_ALT", "ALT_fitters.py: Fit_Weibull_Power", "ALT_fitters.py: Fit_Normal_Dual_Power", "Utils.py: ALT_MLE_optimization"]}
{"id": "C172", "title": "The nonparametric estimates depend only on the order of the times", "statement": "Put a strictly increasing change g of the times with g(0) = 0 (another unit, another scale) in front of KaplanMeier, NelsonAalen or RankAdjustment: each raises the same error as before, or returns the same codes, estimates, bounds, SF, CDF and bounds of these, with the times in data and xvals changed by g. Typing the failures and the censored times in another order, or using another sort, changes nothing at all, unless an item is censored exactly at a failure time and the sort is not stable.", "quantifier": "all failures and right censored times, CI, plot_type, plotting heuristic, all strictly increasing g fixing 0, all permutations, all sorts", "why_tests_cant": "A unit test fixes one data set; the claim ranges over every data set of every length, including every pattern of ties and censoring.", "anchors": ["Nonparametric.py: KaplanMeier", "Nonparametric.py: NelsonAalen", "Nonparametric.py: RankAdjustment", "Probability_plotting.py: plotting_positions"]}
{"id": "C173", "title": "Growth models and replacement times in other units of time and money", "statement": "reliability_growth with all failure times and the target multiplied by k > 0 refuses the same inputs; Crow-AMSAA gives the same Beta and growth rate and the same expected number of failures at corresponding times, Duane the same Alpha and the corresponding cumulative MTBF line, and with both all MTBFs and (unless the fitted MTBF is constant) the time to the target are multiplied by k and the failure intensities divided by k. optimal_replacement_time with both costs multiplied by c > 0 gives the same time and c times the cost; with alpha multiplied by k, as good as old (q=1) gives k times the time and the cost divided by k; as good as new (q=0) does not.", "quantifier": "all failure times not all equal, positive targets, all k > 0, costs, shapes, both values of q", "why_tests_cant": "A unit test fixes one data set; the claim ranges over every data set of every length, including every pattern of ties and censoring.", "anchors": ["Repairable_systems.py: reliability_growth", "Repairable_systems.py: optimal_replacement_time"]}
{"id": "C174", "title": "Test plans, goodness-of-fit tests and stress-strength interference in other units", "statement": "reliability_test_planner and reliability_test_duration with all times multiplied by k > 0 return the same plan in the new unit (same failures, CI and refusals). KStest returns the same result after any increasing change of the times made to data and distribution, and for any order of the data. chi2test with data, bin edges and distribution in another unit refuses the same inputs and returns the same statistic, critical value and verdict, and the same edges in the new unit. stress_strength and stress_strength_normal return the same probability when stress and strength are both given in another unit.", "quantifier": "all test plans, data, increasing changes, units k > 0, all basic distributions but Beta", "why_tests_cant": "A unit test fixes one data set; the claim ranges over every data set of every length, including every pattern of ties and censoring.", "anchors": ["Reliability_testing.py: reliability_test_planner", "Reliability_testing.py: reliability_test_duration", "Reliability_testing.py: KStest", "Reliability_testing.py: chi2test", "Other_functions.py: stress_strength", "Other_functions.py: stress_strength_normal"]}
{"id": "C175", "title": "Names and titles of the distributions", "statement": "param_title of each of the eight distributions, read part by part, gives every parameter under its own letter in the order of the constructor, the location only if it is not zero, each off by at most half a unit of the fourth decimal (or of the fourth place of its mantissa). param_title_long is the family's name and the title in brackets; name2 is the name and the number of parameters shown. Two distributions with the same long title are of the same family and their parameters agree up to that rounding; they need not be equal.", "quantifier": "all distributions of the eight families, all finite parameters", "why_tests_cant": "Tests evaluate finitely many real parameter/argument combinations; the claim is over a continuum.", "anchors": ["Distributions.py: Weibull_Distribution", "Distributions.py: Normal_Distribution", "Distributions.py: Lognormal_Distribution", "Distributions.py: Exponential_Distribution", "Distributions.py: Gamma_Distribution", "Distributions.py: Beta_Distribution", "Distributions.py: Loglogistic_Distribution", "Distributions.py: Gumbel_Distribution", "Utils.py: round_and_string"]}
{"id": "C176", "title": "A fitter's result does not depend on the order of the data", "statement": "Typing the same failure times and the same right-censored times in another order changes nothing in the result of Fit_Weibull_2P/3P, Fit_Normal_2P, Fit_Lognormal_2P/3P, Fit_Gumbel_2P, Fit_Loglogistic_2P/3P, Fit_Gamma_2P/3P, Fit_Beta_2P, Fit_Exponential_1P/2P, Fit_Weibull_Mixture, Fit_Weibull_CR, Fit_Weibull_DS, Fit_Weibull_ZI, Fit_Weibull_DSZI and Fit_Everything (its table, the best distribution and the excluded ones): the same exceptions, the same estimates, standard errors, bounds, quantiles and goodness of fit; nor in the estimates of least_squares. This needs that no item is censored at the time of a failure, or that the sort of the plotting positions is stable; otherwise the plotting positions, and with them the goodness of fit, can depend on the order.", "quantifier": "all calls of these classes and every reordering of the two data arguments, for the same answers of scipy's optimizers to the same objective", "why_tests_cant": "A unit test fixes one data set; the claim ranges over every data set of every length, including every pattern of ties and censoring.", "anchors": ["Fitters.py: Fit_Weibull_2P", "Fitters.py: Fit_Weibull_3P", "Fitters.py: Fit_Gamma_2P", "Fitters.py: Fit_Gamma_3P", "Fitters.py: Fit_Exponential_1P", "Fitters.py: Fit_Exponential_2P", "Fitters.py: Fit_Normal_2P", "Fitters.py: Fit_Lognormal_2P", "Fitters.py: Fit_Lognormal_3P", "Fitters.py: Fit_Loglogistic_2P", "Fitters.py: Fit_Loglogistic_3P", "Fitters.py: Fit_Gumbel_2P", "Fitters.py: Fit_Beta_2P", "Utils.py: least_squares", "Utils.py: fitters_input_checking"]}
{"id": "C177", "title": "Grouped data: only the number of items at each time counts", "statement": "Two well-formed dataframes that have, at every positive time, the same number of failures and the same number of right-censored items (the quantities added up over all rows with that category and time) give the same result of Fit_Weibull_2P_grouped: the order of the rows and of the columns, the splitting of a group over several rows, rows with quantity 0 and rows whose time is not positive change nothing. As in C176 no item may be censored at the time of a failure unless the sort is stable.", "quantifier": "all pairs of well-formed dataframes and all other arguments, for the same answers of scipy's optimizer to the same objective", "why_tests_cant": "A unit test fixes one data set; the claim ranges over every data set of every length, including every pattern of ties and censoring.", "anchors": ["Fitters.py: Fit_Weibull_2P_grouped"]}
{"id": "C178", "title": "An ALT fitter's result does not depend on the order of the data", "statement": "Giving the failures (each with its stresses) and the right-censored items (each with its stresses) in another order changes nothing in the result of any of the 24 ALT fitters (parameters, standard errors, bounds, criteria, the table of changes of the shape with its acceleration factors, use-level distribution), nor the exception raised; and nothing in the table, the best model and the excluded models of Fit_Everything_ALT. As in C176 no item may be censored at the time of a failure unless the sort is stable.", "quantifier": "all data with one or two stresses, with or without censored items, all reorderings, and all other arguments; for the same answers of scipy's optimizers to the same objectives", "why_tests_cant": "A unit test fixes one data set; the claim ranges over every data set of every length, including every pattern of ties and censoring.", "anchors": ["ALT_fitters.py: Fit_Weibull_Exponential and the other 23 classes, Fit_Everything_ALT", "Utils.py: ALT_fitters_input_checking, ALT_least_squares, ALT_MLE_optimization"]}
{"id": "C179", "title": "Goodness-of-fit tests, QQ and PP plots do not depend on the order of the data", "statement": "Giving the same data in another order changes nothing in KStest and chi2test (statistic, critical value, hypothesis, bin edges), and nothing in QQ_plot_semiparametric and PP_plot_semiparametric (points drawn, slopes, intercept, exceptions), whatever the method. For the two plots no proviso about items censored at the time of a failure is needed, because the data are sorted first.", "quantifier": "all data, all reorderings of the failures and of the right-censored items, all distributions, methods, bins and other arguments", "why_tests_cant": "A unit test fixes one data set; the claim ranges over every data set of every length, including every pattern of ties and censoring.", "anchors": ["Reliability_testing.py: KStest, chi2test", "Probability_plotting.py: QQ_plot_semiparametric, PP_plot_semiparametric"]}
{"id": "C180", "title": "Entering every item several times leaves the maximum likelihood fit where it is", "statement": "If every failure and every right-censored item is entered k times instead of once (k at least 1, in any order), a maximum likelihood run of Fit_Weibull_2P, Fit_Normal_2P, Fit_Lognormal_2P, Fit_Gumbel_2P, Fit_Loglogistic_2P (with or without a forced shape) and Fit_Exponential_1P finds the same parameters, whatever optimizers and initial guesses; the standard errors are divided by the square root of k. The 18 ALT fitters of the Weibull, Lognormal and Exponential distributions find the same estimates, too, when every item is entered k times with its stresses (for two stresses: when their pairs are not all on one line).", "quantifier": "all data, all k at least 1, all arguments; optimizers that find the maximum of the objective they are given", "why_tests_cant": "A unit test fixes one data set; the claim ranges over every data set of every length, including every pattern of ties and censoring.", "anchors": ["Fitters.py: Fit_Weibull_2P, Fit_Normal_2P, Fit_Lognormal_2P, Fit_Gumbel_2P, Fit_Loglogistic_2P, Fit_Exponential_1P"]}
{"id": "C181", "title": "Kaplan-Meier and Nelson-Aalen when every item is entered several times", "statement": "Enter every failure and every right-censored item k times instead of once (k at least 1, in any order). KaplanMeier answers whenever it answers on the data, with k rows for every row of the results; the last of these k rows has the time and code of the row and reads the same estimate, and the half-width of its confidence interval, before it is cut at 0 and 1, is divided by the square root of k. NelsonAalen does change: the survival it reports is never higher, and is strictly lower from the first failure on when k is at least 2.", "quantifier": "all failures and right censored times, all k at least 1, all CI and plot types, all sorts that leave no choice between tied items", "why_tests_cant": "A unit test fixes one data set; the claim ranges over every data set of every length, including every pattern of ties and censoring.", "anchors": ["Nonparametric.py: KaplanMeier", "Nonparametric.py: NelsonAalen"]}
