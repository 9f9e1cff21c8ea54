
## 4. Findings (the code disagrees with the property; proved unless marked †)

* **Convert_data** — one numeric and one string code are stringified by numpy, so reading back with the same codes
  raises; `xlsx_to_XCN` ignores the meaning of custom output codes (swaps or raises); blanks are dropped per column, so
  values of different rows are paired silently.
* **Nonparametric** — KM differs from the product limit when an unstable sort puts a censored item before a tied
  failure; bounds are nan at CI=0 when the last observation is a failure; the last SF_lower step value can exceed SF.
* **plotting_positions** — n=1 with a=1 divides by zero.
* **MCF_nonparametric** — CI<0.5 gives inverted bounds; caller's lists are sorted in place; a 1-D ndarray of one system
  raises; MCF_parametric calls perfectly regular repairs (beta = 1, no error) IMPROVING; †the `max(end) < max(repair)` check never fires.
* **optimal_replacement_time** — q=1 charges cost_PM per failure and cost_CM per replacement; †q=0 grid starts at 1
  whatever the unit.
* **ROCOF** — constant ROCOF uses (n+1)/Σti, wrong when test_end is given; †a single failure without test_end divides by zero.
* **Reliability_testing** — `two_proportion_test` calls [0,0] significant; planner with an impossible MTBF answers 0
  failures without error; sequential chart regions overlap for invalid α+β; `reliability_test_duration` may exceed the
  requested producer's risk, or return nan.  †weibull_shape=0 accepted; †one_sample_proportion does not check CI;
  †chi2test's `min(bin_edges < 0)` check is wrong.
* **Distributions** — scalar HF/CHF with γ>0 raise TypeError; Exponential CHF is negative for negative scalars;
  Mixture accepts negative proportions (CDF>1); combined models misalign unsorted mixed-sign xvals and raise on
  all-negative xvals / Beta components with xvals>1 (a Beta component cannot be combined at all with one that can exceed 1); mean_residual_life of the combined models is negative after the largest 1-1e-10 quantile; mixtures with
  negative proportions are accepted but cannot be sampled; DSZI b5 is not 0 when 5% are zero inflated; Fit_Everything raises an OverflowError from its default histogram plot when the quartiles of the failures coincide (1, 2, 2, 2, 3; C126_overflow_finding), and its P-P plot has the nonparametric CDF on the x-axis although the title says the parametric one is; Fit_Everything with three failures always raises unless Weibull_Mixture and Weibull_CR are excluded by name; likelihood_plot starts the grid of a location at a quarter of its lower bound, which for a negative bound can leave the bound and even the estimate outside of the plot (C122); DSZI list quantiles unchecked, random_samples raises when nothing
  failed, median copied from the base distribution.
* **Confidence bounds** — Exponential: with three or more CI_x not ascending, every value after the largest gets the bounds
  of the largest (interval need not contain the point estimate); CI_y raises ValueError at every y once z·SE ≥ Λ·ln 10
  (one failure: CI ≥ 0.979); on an unfitted distribution a request for bounds raises TypeError although documented as
  ignored; †`plot_CI == True` (no-op) leaves plot_CI None.
* **Fitters** — Exponential_2P credits items censored before γ with SF>1; DSZI with ZI=0 ignores zeros;
  `sort_by="AICC"` with "Insufficient data" raises TypeError; log-likelihood sorting uses |LL|; caller's exclude list grows;
  MLE keeps the run minimising |2LL|; LS keeps the worse of two when the log-likelihood is positive.
  A least squares fit whose information matrix is singular raises TypeError (the warning concatenates the optimizer None);
  method=None passes the input check and then raises; quantiles=False or an unknown string raise ValueError;
  Fit_Exponential_1P with quantiles raises once z ≥ ln(10)·√n; a 3P fit that falls back to 2P keeps k = 3 and the
  Least Squares label although the fallback is the default MLE fit; the standard errors of the first two parameters of a 3P
  fit are those for a known location.
  Fit_Weibull_Mixture/CR accept tied failures but raise when the dividing line leaves one group with a single distinct time;
  Fit_Weibull_DSZI raises ValueError when the optimizer answers with ZI > DS, which its bounds allow; Fit_Weibull_CR does not
  hand its optimizer to the group fits.
  Fit_Weibull_2P_grouped discards the estimate of a successful first optimizer run when a later restart fails and returns the
  less likely least squares estimate; with method=None, which the checks accept, it raises AttributeError.
- C111 The ALT fitters never return when some stress has two or more failures all at the same time (e.g. failures 5, 5 at
  stress 1 and 10, 12 at stress 2): their input check accepts the data, the stand-alone fit of that stress, needed only for the
  initial guess and the table of changes, refuses it.
* **Confidence bands** — plotting a CHF with bounds on time raises ValueError when no x-value is above gamma (C140_chf_finding). The band of a Gamma
  distribution without threshold starts at time 0.0001 whatever its scale; if its 0.99999 quantile is smaller the times run backwards and the band lies
  below the survival function (C140_gamma_finding).
* **PDF, CDF, SF, HF, CHF of all distributions** — with xvals a list or array of one value and the default show_plot=True every call raises
  (IndexError, or TypeError for CDF and SF), because the value is unpacked before the axes limits are set (C141_one_value_finding); so does a number
  together with xmin or xmax (C141_number_limit_finding).
* **Competing_Risks_Model, Mixture_Model** — the x-array has 1000 elements, not the 200 documented (C142_points_finding); PDF and HF return other values
  with a plot than without (cut at 1e100, C142_cap_finding); plot_components raises when exactly one x-value is not negative
  (C142_components_finding); plot(xvals=number) raises a TypeError (C142_plot_number_finding).
* **DSZI_Model** — plot() raises a TypeError for every base distribution with a message among its statistics, e.g. Loglogistic with a small beta
  (C143_message_finding); with a Beta base a negative xmin raises a ValueError that the base distribution does not (C143_beta_finding); one x-value in a
  list raises (C143_one_value_finding, C143_plot_one_finding).
* **NelsonAalen, RankAdjustment** — plots of the CHF leave out the last point: the vertical axis is made from CHF[-2] (infinite CHF[-1] being a
  Kaplan-Meier matter only); with failures at 1 and 2 Nelson-Aalen ends at 1.5 and the axis at 1 (C144_na_chf_finding, C144_ra_chf_finding).
* **MCF_nonparametric** — with CI below 1/2 the "upper" bounds are below the estimate; the vertical axis is made from them and cuts the line
  (C145_np_low_CI_finding).
* **reliability_growth** — on log scale a target below the decade of the lowest observed MTBF is drawn below the axes, and the horizontal axis
  begins at the decade of the smaller of the first time and the target *MTBF* (a mix-up with the time to the target), so that an early time to
  the target is left of the axes (C146_low_target_finding, C146_early_target_finding).
* **optimal_replacement_time** — the time plot of q=1 ends at 4 alpha whatever the optimum is: with PM 1, CM 100, alpha 10 and beta 2 the optimum 100
  is outside the axes (C147_old_outside_finding); with alpha below 1/3 the grid of q=0 runs down from 1 and is outside the axes
  (C147_small_alpha_finding). With q=1 a dearer failure makes the optimal replacement later and dearer maintenance makes it earlier
  (C148_old_finding, from the exchanged costs of C24_cost_roles_finding).
* **ROCOF** — with test_end and a constant trend the plotted MTBF is below the mean of the plotted times (C149_time_terminated_finding).
* **strain_life_diagram** — a life below 10 reversals is drawn left of the axes (C150_short_life_finding); the line of the transition life
  starts at a strain of 1e-6 even if the axis goes lower (C150_dash_finding); the lower limit looks at the plastic line only, so the elastic
  line can be cut off (C150_elastic_finding); without a load and with show_plot=False the attribute cycles_to_failure does not exist
  (C150_unset_finding).
* **SN_diagram** — a trace at a stress below the endurance limit ends at a finite life off the line as drawn (C151_trace_finding); run-outs
  well below the failures, and the endurance limit, are drawn outside the axes (C151_runout_outside_finding); two or more run-out stresses
  without run-out cycles pass the checks if show_endurance_limit=False and then fail in plt.scatter (C151_runout_cycles_finding).
* **stress_strain_life_parameters_from_data** — the strain-life curve starts at 10 reversals whatever the data: a test of fewer than five
  cycles is left of it (C153_few_cycles_finding).
* **creep_rupture_curves** — a trace more than a fifth of the range outside the stresses is drawn outside the axes
  (C154_trace_outside_finding).
* **fracture_mechanics_crack_growth** — the length labelled in the plot is the crack's, the one in the results is the critical length; they
  differ (C155_final_length_finding). A crack that starts at more than 1.2 times its critical length is drawn above the axes
  (C155_outside_finding).
* **Fit_Weibull_ZI / Fit_Weibull_DSZI, show_probability_plot** — the limits of the axes come from Weibull_probability_plot of the non-zero failures alone (Fitters.py:4760-4767, 5430-5437), while the points are plotted at the positions of all failures. The zeros are left of the (logarithmic) axis and the positions of the others, raised by the zeros, can be above it: with ten zeros and failures at 1 and 2 no point is visible (`C158_hidden_finding`).
* **colorprint** — `bold=False` is written as code 21 (Utils.py:1420), which in ECMA-48 is "doubly underlined", not "bold off" (22); the underlining is overwritten by the next code, but a terminal in bold stays in bold (`C160_bold_finding`).
* **dual-stress ALT fitters** — the input checks accept two different pairs of stresses (or any pairs on one line on the scale of the model). The three parameters of the life-stress model are then not determined: other estimates make the data exactly as likely, and the life at the use level stress, which is usually off that line, is arbitrary. No warning is given (`C165_dual_collinear_finding`, with accepted data).
* **ALT fitters, Weibull and Lognormal** — if a model of the class goes exactly through all the failures (for example one failure at each of three stresses on a curve, which the checks accept) and nothing is censored, the likelihood is unbounded: there is no estimate, and what is reported depends on where the optimizer stops (`C167_single_through_finding`, `C167_dual_through_finding`).
* **Fit_Everything(sort_by='Log-likelihood')** — the choice depends on the unit of time: the rows are sorted by the absolute value of the log-likelihood, so when all are positive (small unit) the least likely distribution is called the best one (C169_loglik_finding: failures in the ratio 1:2:4, Normal against Lognormal).
* **crosshairs** — with decimals=0 every click raises a TypeError (C139_decimals_zero_finding) and coordinates are cut off, not rounded
  (C139_cut_off_finding). The crosshairs are recognised by the positions of the last two texts: texts of the user at x = 0 and y = 0 make
  his last two lines disappear when the mouse leaves the axes (C139_lookalike_finding); a line drawn later is hidden instead of a
  crosshair (C139_later_line_finding).
* **Beta_Distribution.random_samples** — replaces samples equal to 1 in a loop that never ends if the distribution is so skewed that
  scipy only returns ones (C137_beta_endless_finding).
* **plot(xvals=number)** — a single number, which PDF, CDF, SF, HF and CHF accept, raises a TypeError (C138_scalar_finding).
* **ALT figures** — both plots are drawn in `__init__` by default and take colours from the colour cycle (10 colours): with more than ten stresses,
  or ten and a use level, every ALT fitter raises IndexError after a successful fit (C134_single, C134_dual, C135_*: the second halves). The dashed
  "original" line of the Exponential fitters uses the Weibull scale (C134_exponential_original_finding). The stress axis ignores a use stress
  above the test stresses (C135_use_above_finding), the life axis cuts off a life that increases with stress
  (C135_increasing_finding), and any unknown string for `ax` silently draws nothing (C135_no_figure).
* **Fit_Everything_ALT** — best_model_at_use_stress wrong for six dual-stress models (Lognormal: mu=1/life;
  Exponential: Lambda=life); †non-string sort_by raises AttributeError before the type check.
* **Probability_plotting** — QQ_plot_semiparametric pairs the failures with survival probabilities in reverse order, wrong for
  every failure as soon as fewer than half of the items are estimated to fail by the last failure; PP_plot_parametric with any
  quantile line raises ValueError (`quantile` gives np.float64, which CDF refuses; so does the documented example), and so it
  does for a Normal with mean ≤ 0 against a positive family; plot_points gives wrong PDF/HF points for unsorted failures
  (as in its own example) and infinite ones for ties; Exponential_probability_plot_Weibull_Scale with a location moves the
  points but not the line by 0.009; a single point with F < 1/11 gets a negative lower limit on the probability axis.
* **Utils** — zeroise_below_gamma wrong for unsorted X; xy_downsample sorts x and y independently; transform_spaced
  swaps beta's parameters; generate_X_array corner cases; ALT input check files censored-only single stresses
  under a wrong stress; anderson_darling raises for a Python list (documented as accepted); round_and_string prints large whole
  numbers with all their digits (its documentation says 1e+20) and, with fewer than four decimals, prints 3e-4 as 0.0 but
  3e-5 as 3e-05.
* **Other_functions** — make_right_censored_data shuffles the caller's ndarray in place (even when it then raises) and
  can censor negative data above its value; †make_ALT_data dual model with scalar use level raises TypeError;
  similar_distributions gives Exponential_2P the rate fitted for Exponential_1P; stress_strength raises for Normal/Gumbel with a positive family when the 1e-8 quantile is negative.
  histogram also shades a bin that begins below white_above when its left edge is the nearer one.
* **Axes limits** — a shifted distribution below 0 gets a window from its 99.9% quantile to 0 (C127_negative_gamma_finding); a
  peak of a hazard function whose last value is larger is cut off (C127_hf_peak_finding); a CHF is cut off beyond its own window
  when the axes already reach further (C127_chf_cut_finding); limits that are exactly the unit square are forgotten
  (C127_unit_square_finding). Ticks of
  probability plots whose percentage falls just below a decimal in floats are labelled one percent too low (0.018 as 0.8%,
  0.29 as 28.0%; C129_percent_finding). chi2test does not reset
  bins of the caller that reach below 0, as it means to: it ends in a ValueError (C130_negative_edge_finding). xy_transform refuses every list of y data values and takes the axis "X" for y (C128).
* **Writing xlsx files** — after "N", on every system but Windows, the new file is not in the folder of the old one: the backslash becomes part
  of its name (C132_posix_finding); a path without folder goes to the root; a name with two dots loses its extension and a name without a
  dot raises IndexError (C132_dots_finding); a file that may be written but not read is replaced without asking
  (C132_unreadable_finding). Failure codes that pandas takes for missing values are written but can never be read
  (C133_NA_finding).
* **PoF** — acceleration_factor with all inputs given sets nothing; creep_rupture_curves always raises without a
  trace and slices interleaved temperatures wrongly; crack growth: default un-notched edge crack divides by zero,
  stage 1 reported as 0 if the transition is never passed, reported final length is the critical one even when stopped at
  a_final, the simplified method counts the notch depth as growth; crack initiation life jumps up across yield.
  stress_strain_diagram: a requested min_stress other than -max_stress is not honoured for n < 1 (the loop goes lower);
  min_stress/min_strain are silently ignored in the other control mode; starting in compression solves nothing unless 1/n is
  an integer.  strain_life_diagram raises for a negative min_stress and reports an arbitrary smallest stress in strain
  control unless 1/n is an integer.  SN_diagram: residual bounds raise NameError without an endurance limit; statistical
  bounds use raw cycles instead of log10 cycles.

## 5. Tests of the theorems against wrong programs

`tools/mutate.py` edits one token of one model definition in a scratch copy, rebuilds, and records which
theorems fail.  Results and the theorems tightened in response are in `seeded/LOG.jsonl`.  Surviving edits
were inspected by hand: each is either equivalent (unreachable branch, default value never used) or led to a stronger theorem.
