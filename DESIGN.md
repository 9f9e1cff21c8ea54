# Formal model of `reliability` (pinned commit) in Lean 4

## 1. Trusted base

* Lean 4.33.0's kernel, and the definitions of the Mathlib modules imported (reals, `Real.exp`,
  `Real.log`, `Real.rpow`, lists, permutations, measures/integrals for a few properties).
* Axioms: at most `propext`, `Classical.choice`, `Quot.sound` for every theorem.  No axiom is added,
  nothing rests on compiled code (no `native_decide`, `bv_decide`).
* The reading of the Python source.  Nothing is executed: every definition in `Verif/Model/*` cites
  the file and lines it models, and says where it simplifies.

### Conventions of the model

* **Numbers.** Loop/list algorithms (`Convert_data`, plotting positions, KM, NA hazard, MCF, linear
  regression, arrays in Utils) are modelled over an arbitrary linearly ordered field `K` (so the theorems
  hold for ℚ, which makes the model executable in the examples, and for ℝ).  Formulas with `exp/log/**`
  are modelled over Mathlib's `ℝ`.  **Not modelled:** IEEE-754 rounding and overflow.  `inf`/`nan` are
  modelled (`Verif/Model/Ext.lean`) where the code relies on them (Greenwood bounds, `-log(0)`, `1/0`
  slopes, NaN cells).
* **Sorting.** pandas/numpy default sorts are unstable.  The model takes *any* argsort/sorted
  permutation, so theorems hold for every tie order.
* **Exceptions** are values: `Except Err α` with the Python exception class.
* **External numerics** are parameters (oracles): scipy quantiles (`chi2.ppf`, `norm.ppf`, `f.ppf`,
  `beta`, `gamma`), optimisers (`scipy.optimize.minimize`, `fsolve`), quadrature, `np.polyfit`, random numbers,
  `quantile` of a sample.  The theorems state which facts about them are assumed (monotone,
  symmetric, returns a root, …) — as hypotheses, not axioms — and hold for every function with these facts;
  where no hypothesis is stated the oracle is arbitrary (adversarial).
* **Mutation** of caller's arguments is modelled by returning the argument's final value.
* **Plots** are modelled as data: the curves, points, limits and texts handed to matplotlib (what is drawn, on what axes). Rendering, colours,
  styles, printing to the console and docstrings are not modelled, nor is file I/O
  (spreadsheet readers are modelled from the columns pandas returns; a blank cell is `none`).

## 2. What is modelled

`Verif/Model/*.lean` – model of the code, definition by definition; `Verif/Spec/*.lean` – small independent
specifications (they import the model only for its input/output data types); `Verif/Props/*.lean` – the property theorems `Cxx_*`, with a concrete
`example` beside them; `Verif/Lemmas/*.lean` – helper lemmas.

| file in /repo/reliability | modelled | not modelled |
|---|---|---|
| Convert_data.py | all nine converters (results), incl. numpy's stringification of mixed code arrays ; the dataframes they print and write (Model/Frames.lean) | pandas' reading and writing of the xlsx file (which texts it takes for missing is a parameter) |
| Probability_plotting.py | `plotting_positions`, QQ_plot_parametric, QQ_plot_semiparametric, PP_plot_parametric, PP_plot_semiparametric, plot_points (points, lines and returned values), the nine `*_probability_plot` functions (points, line, paper, limits) ; the confidence band on the plots of the fitter classes (Model/ProbBand.lean) | colours, ticks, labels |
| Nonparametric.py | KaplanMeier, NelsonAalen, RankAdjustment: checks, tables, bounds, step arrays, plots | printing, colours |
| Repairable_systems.py | reliability_growth, optimal_replacement_time, ROCOF, MCF_nonparametric, MCF_parametric (curve_fit and polyfit arbitrary), plots | printing, colours |
| Reliability_testing.py | one_sample_proportion, two_proportion_test, sample_size_no_failures, sequential_sampling_chart, reliability_test_planner, reliability_test_duration, chi2test (from counts in Model/Testing; whole, with np.histogram's counting, in Model/ChiTest.lean), KStest, likelihood_plot (Model/LikelihoodPlot.lean; contour is an arbitrary function) | the automatic choice of bin edges by numpy (arbitrary ascending edges covering the data) |
| Distributions.py | the eight distributions (parameter checks, PDF, CDF, SF, HF, CHF, quantile, inverse_SF, mode/median, mean residual life; mean, variance, standard deviation, skewness, kurtosis, median, b5, b95 attributes – Gumbel skewness/kurtosis excepted), Competing_Risks_Model, Mixture_Model, DSZI_Model; `random_samples` of the eight distributions (Model/RandomSamples.lean, any generator) and `plot()` (Model/DistPlot.lean), names and titles (Model/Titles.lean), the five functions with their plots (Model/MethodPlot.lean) and the same of the three composite models (Model/CompositePlot.lean) | `stats()` |
| Fitters.py | all `logf`/`logR`/`LL` functions, parameter confidence bounds, AICc/BIC, Fit_Everything (exclusion, table, ranking, best; Model/FitEverythingFull.lean with the calls of the sixteen classes; histogram and P-P figures, Model/FitPlots.lean; probability plots, Model/FitProbPlots.lean; the probability plots of the classes themselves, Model/FitterPlots.lean), the whole `__init__` of the thirteen standard fitters (Model/FitGlue.lean: checks, estimates, standard errors, rows, quantile table, goodness of fit) and of the Mixture, CR, DSZI, DS, ZI (Model/FitSpecial.lean) and grouped (Model/FitGrouped.lean) fitters | the numerical least squares and `scipy.optimize.minimize` (arbitrary functions), autograd (exact derivatives), printing, plots |
| Utils.py | fitters_input_checking, ALT_fitters_input_checking, clean_CI_arrays, linear_regression, least_squares (the straight-line fits; curve_fit is an arbitrary parameter), MLE_optimization, LS_optimization selection, transform_spaced, axes_transforms, generate_X_array, no_reverse, zeroise_below_gamma, xy_downsample, removeNaNs, extract_CI, distribution_confidence_intervals (Model/FunctionCI.lean; the drawn bands, fill_no_autoscale, line_no_autoscale: Model/CIPlot.lean), validate_CI_params, anderson_darling, ALT_least_squares, ALT_MLE_optimization (bounds, selection of the optimizer), distributions_input_checking (arguments of the bounds), round_and_string, get_axes_limits, restore_axes_limits, xy_transform (Model/AxesLimits.lean), probability_plot_xyticks (Model/Ticks.lean), write_df_to_xlsx (Model/WriteXlsx.lean; UNC names and path normalisation not modelled) ; colorprint (Model/ColorPrint.lean) | plot helpers; reshow_figure (its first statement reads the undefined name `ax`, Utils.py:7515, so every call raises NameError) |
| ALT_fitters.py | the 24 fitters' `logf`/`logR`/`LL`, bounds, goodness of fit, use-level distribution, change of parameters, acceleration factor; the whole `__init__` of the 24 fitters (Model/ALTGlue.lean, Model/ALTClasses.lean; `minimize` and the numerics of the group fits arbitrary); Fit_Everything_ALT (Model/FitEverythingALT.lean; with the classes it calls, Model/FitEverythingALTFull.lean; its probability plots, Model/FitProbPlotsALT.lean); the probability and life-stress plots of the 24 fitters (Model/ALTPlots.lean) | printing |
| Other_functions.py | stress_strength, stress_strength_normal, make_right_censored_data, make_ALT_data, similar_distributions, histogram (Model/Histogram.lean; plt.hist is an arbitrary function), distribution_explorer (Model/Explorer.lean), crosshairs (Model/Crosshairs.lean) | colours and fonts |
| PoF.py | palmgren_miner_linear_damage, creep_rupture_curves (selection of points), creep_failure_time, acceleration_factor, fracture_mechanics_crack_growth, fracture_mechanics_crack_initiation, SN_diagram, stress_strain_life_parameters_from_data, stress_strain_diagram, strain_life_diagram (with an idealised fsolve / polyfit), what their plots show | printing, the equations in the legends |
| Datasets.py | – (literal tables) | all |


## 3. Per property: what is modelled and how it is proved

Status (proved / partial) and exact theorem names are in MANIFEST.json; `_finding`/`_counterexample`
theorems prove that the code violates something.

| id | title | model and method |
|----|-------|------------------|
| C01 | FR -> FNRN -> FR round trip | list model of FR/FNRN; `np.unique` = run-length encoding of the sorted list. Induction, permutations. |
| C02 | FR -> XCN -> FR round trip | FR→XCN→FR with numpy's homogeneous code arrays modelled (`npArrayCodes`). Induction; counterexample for mixed codes. |
| C03 | FNRN grouping is an exact histogram | histogram spec by `List.count`; induction on run-length encoding. |
| C04 | FNRN -> XCN -> FNRN round trip | totals per time (`Spec.totalAt`). |
| C05 | XCN censor codes are classified by a fixed precedence | if/elif chain as decision function; loop invariant; documented code tables as separate spec. |
| C06 | XCN conversion does not depend on row order | permutation argument. |
| C07 | xlsx_to_XCN: derived FR data agrees with the X, C, N it reports | composition model; partial + two counterexamples. |
| C08 | Plotting positions are the adjusted-rank estimator | both branches of `plotting_positions` over any ordered field; loop invariant on adjusted ranks. |
| C09 | Plotting positions are strictly increasing probabilities | as above / Probability_plotting.py:plotting_positions |
| C10 | Complete-data plotting positions are (i-a)/(n+1-2a) | as above / Probability_plotting.py:plotting_positions |
| C11 | plotting_positions sort option | as above / Probability_plotting.py:plotting_positions |
| C12 | Kaplan-Meier estimate is a survival curve | KM loop; product-limit spec by Finset product. |
| C13 | Kaplan-Meier is the product-limit estimator | as above / Nonparametric.py:KaplanMeier |
| C14 | Kaplan-Meier on complete data is the empirical survival | as above / Nonparametric.py:KaplanMeier |
| C15 | Kaplan-Meier confidence bounds bracket the estimate | as above / Nonparametric.py:KaplanMeier |
| C16 | Nelson-Aalen estimate | NA loop, exp as parameter / real exp. |
| C17 | Rank adjustment SF is the complement of the plotting positions | as above / Nonparametric.py:RankAdjustment, Probability_plotting.py:plotting_positions |
| C18 | Non-parametric step arrays are aligned and complementary | step-array loop; staircase spec (`Traces`), alignment, CHF. |
| C19 | MCF is the sum of reciprocal risk-set sizes | MCF event loop on sorted events of all systems; spec = sum over systems at risk. |
| C20 | MCF does not depend on system order | as above / Repairable_systems.py:MCF_nonparametric |
| C21 | MCF confidence bounds bracket the MCF | as above / Repairable_systems.py:MCF_nonparametric |
| C22 | MCF_nonparametric leaves the caller's data untouched | as above / Repairable_systems.py:MCF_nonparametric |
| C23 | Reliability growth: fitted model reproduces demonstrated MTBF | cost curve with exp/rpow over ℝ; minimality on the grid. |
| C24 | Optimal replacement time minimises cost per unit time | as above / Repairable_systems.py:optimal_replacement_time |
| C25 | ROCOF treats failure times and inter-arrival times alike | closed forms; Laplace statistic. |
| C26 | ROCOF trend decision | as above / Repairable_systems.py:ROCOF |
| C27 | sample_size_no_failures returns the least sufficient sample size | ceil formula; minimality of n. |
| C28 | reliability_test_planner solves each unknown consistently | planner with chi² quantile as an oracle obeying stated laws. |
| C29 | Proportion tests | `ss.f.ppf` as a parameter obeying only its defining law (F cdf = incomplete beta); binomial tail identity by calculus. |
| C30 | sequential_sampling_chart regions | as above / Reliability_testing.py:sequential_sampling_chart |
| C31 | reliability_test_duration stops at the right failure count | as above / Reliability_testing.py:reliability_test_duration |
| C32 | KStest statistic is the supremum distance | as above / Reliability_testing.py:KStest |
| C33 | CDF and SF are complementary survival laws | closed-form PDF/CDF/SF/HF/CHF over ℝ, scipy functions as integrals/parameters; calculus. |
| C34 | quantile and inverse_SF invert CDF and SF | as above / Distributions.py:Weibull_Distribution.quantile, Distributions.py:Weibull_Distribution.inverse_SF |
| C35 | Hazard identities | as above / Distributions.py |
| C36 | The stated mode maximises the PDF | as above / Distributions.py |
| C37 | Competing risks model | `__combiner` as list function incl. numpy slicing; spec = weighted sums/products pointwise. |
| C38 | Mixture model | as above / Distributions.py:Mixture_Model |
| C39 | Model arrays stay aligned with xvals | as above / Distributions.py:Mixture_Model, Distributions.py:Competing_Risks_Model |
| C40 | DSZI model | DSZI mixture; random choices as adversarial list. |
| C41 | Fitters' log-likelihood is the likelihood of the fitted distribution | logf/logR as real functions vs. log of PDF/SF; LL sums. |
| C42 | Grouped Weibull likelihood equals the ungrouped one | as above / Fitters.py:Fit_Weibull_2P_grouped.LL, Fitters.py:Fit_Weibull_2P.LL |
| C43 | AICc and BIC | as above / Fitters.py |
| C44 | Fit_Everything picks the best-ranked distribution | ranking with arbitrary (unstable) argsort; exclusion lists; mutation as returned value. |
| C45 | sort_by log-likelihood ranks the most likely distribution first | as above / Fitters.py:Fit_Everything |
| C46 | Fitters do not alter the caller's exclude list | as above / Fitters.py:Fit_Everything |
| C47 | MLE optimisation loop terminates and returns the best success | optimiser loop against an adversarial oracle; fuel + termination proof. |
| C48 | Least squares method selection | as above / Utils.py:LS_optimization |
| C49 | Regression used by rank regression is least squares | normal equations; sum of squares decomposition. |
| C50 | clean_CI_arrays | list functions, induction. |
| C51 | Fitter input checking | input checkers as decision functions; acceptance iff. |
| C52 | transform_spaced and axis transforms | as above / Utils.py:transform_spaced, Utils.py:axes_transforms |
| C53 | Default evaluation grid of a distribution plot | as above / Utils.py:generate_X_array |
| C54 | zeroise_below_gamma | as above / Utils.py:zeroise_below_gamma |
| C55 | xy_downsample | as above / Utils.py:xy_downsample |
| C56 | removeNaNs | as above / Utils.py:removeNaNs |
| C57 | make_right_censored_data | random draws as adversarial lists/permutations; caller's array returned. |
| C58 | make_ALT_data | as above / Other_functions.py:make_ALT_data |
| C59 | ALT likelihoods agree with the life-stress model | 24 fitters' formulas transcribed one by one; generic lemma per family. |
| C60 | Stress-strength interference for normals | gaussian measure on ℝ², Mathlib probability. |
| C61 | Palmgren-Miner damage | list sums. |
| C62 | Creep and Arrhenius relations are mutually consistent | real algebra with exp/log/rpow. |
| C63 | creep_rupture_curves | row slicing by first occurrence. |
| C64 | Crack growth iteration | iteration with fuel; strict increase, termination, Paris integral by FTC. |
| C65 | Crow-AMSAA estimates are maximum-likelihood estimates | as above / Repairable_systems.py:reliability_growth |
| C66 | ROCOF and reliability_growth agree | as above / Repairable_systems.py:ROCOF, Repairable_systems.py:reliability_growth |
| C67 | chi2test statistic and verdict | as above / Reliability_testing.py:chi2test |
| C68 | Median attributes | as above / Distributions.py:Gumbel_Distribution, Distributions.py:Normal_Distribution |
| C69 | Mean residual life | as above / Distributions.py:Exponential_Distribution.mean_residual_life |
| C70 | Quantiles of combined models | as above / Distributions.py:Competing_Risks_Model.quantile, Distributions.py:Mixture_Model.quantile |
| C71 | Confidence bounds on fitted parameters | as above / Fitters.py:Fit_Weibull_2P, Fitters.py:Fit_Weibull_Mixture |
| C72 | Optimiser bounds keep parameters admissible | as above / Utils.py:MLE_optimization |
| C73 | no_reverse | as above / Utils.py:no_reverse |
| C74 | ALT fitter input checking | as above / Utils.py:ALT_fitters_input_checking |
| C75 | Stress-strength interference by integration | as above / Other_functions.py:stress_strength |
| C76 | ALT parameter confidence bounds | as above / ALT_fitters.py |
| C77 | Fit_Everything_ALT | as above / ALT_fitters.py:Fit_Everything_ALT |
| C78 | Crack initiation | root finder as oracle; monotone equations, uniqueness, existence by IVT. |
| C79 | Grouped data and spreadsheets | as above / Convert_data.py:FNRN_to_FR, Convert_data.py:XCN_to_FNRN |
| C80 | Descriptive attributes are the moments | attributes transcribed; spec = integrability and values of the moment integrals of the PDF; Mathlib Gamma/Beta/Gaussian integrals, Gamma''(1). |
| C81 | Confidence intervals of CDF, SF and CHF contain the point estimate | funcCI transcribes extract_CI, the seven *_CI functions (plot_CI off) and the end of CDF/SF/CHF; derivatives exact except Gamma (arbitrary); spec = order, legality, C33 functions. |
| C82 | Confidence bounds are the delta-method bounds | spec = DeltaVariance (HasDerivAt of the family's scale of SF / inverse SF in both parameters), TwoSidedZ; Gamma under the hypothesis that autograd's numerical derivatives are exact. |
| C83 | Confidence intervals widen with the confidence level | monotonicity of zOf and of the back-transforms. |
| C84 | Confidence bounds of CDF, SF and CHF agree | equalities between the three calls of funcCI. |
| C85 | Confidence bounds of the Exponential distribution | exponential_CI incl. its 200-point grid and no_reverse; spec = explicit rates, ReportedFor; order and high-CI findings. |
| C86 | Arguments of the confidence bounds | distributions_input_checking (CI arguments) as a decision function; spec = relation Resolves; composition callCI with the bounds. |
| C87 | Rank regression minimises the residuals on probability paper | least_squares on top of plotting_positions (C08) and linear_regression (C49); spec = residuals between plotting positions and the distributions' own CDF / quantile on the paper scale; proof: the CDF is a straight line on the paper, positive covariance gives a legal slope, C49 minimality. |
| C88 | Rank regression does not depend on the unit of time | plotting_positions commute with increasing maps for a comparison sort; uniqueness of the minimiser (C87) transports the parameters. |
| C89 | Maximum likelihood does not depend on the unit of time | the LL functions of 17 fitters (C41); per-term scaling identities, then transport of minimisers. |
| C90 | Anderson-Darling statistic | the closed-form terms as written; each is the integral over one step (fundamental theorem), summed by induction over the sorted values. |
| C91 | Parametric MCF | MCF_parametric on top of the C19 model, polyfit/curve_fit/ppf arbitrary; theorems read off the result record; least-squares recovery via zero residual. |
| C92 | The MCF depends only on the order of the times | from C19's characterisation: sorting, maxima and at-risk counts commute with strictly increasing maps. |
| C93 | Stress-strain hysteresis loop | Model/Fatigue.stressStrain with fsolve an arbitrary idealised root finder, numpy's complex/nan powers as `none`; Lemmas: strict monotonicity of the two curves, intermediate value theorem for existence; tips by uniqueness; findings: C93_*_finding |
| C94 | Strain-life cycles to failure | Model/Fatigue.strainLife; Props/StrainLife: existence of the root by the intermediate value theorem, antitonicity of the strain-life curve; findings: C94_*_finding |
| C95 | Material parameters from data | Model/Fatigue.paramsFromData with polyfit any least-squares line (Spec.IsLine; existence: line_exists); a least-squares line through collinear points is the line |
| C96 | S-N diagram | Model/Fatigue.snDiagram; Props/SNDiagram; findings: C96_residual_finding (NameError without limit), C96_statistical_finding (bounds use raw cycles, not their logarithms) |
| C97 | Initial guess and bounds of the ALT fitters | Model/ALTLeastSquares (normal equations as a 3x3 matrix over R, noise an arbitrary matrix); Pythagoras identity for planes by induction on the data; singular Gram matrix iff collinear; single-stress case from C49 |
| C98 | similar_distributions ranks the other families | Model/SimilarDistributions on top of the model of Fit_Everything (C44); finding C98_exponential_finding |
| C99 | The goodness of fit a fitter reports is that of the distribution it returns | the whole __init__ of each class in Model/FitGlue.lean, with the numerical least squares and scipy.optimize.minimize arbitrary functions; combined with C36, C42, C88 (likelihood, criteria, AD) |
| C100 | Standard errors and parameter bounds come from the inverse observed information | exact second derivatives stand for autograd's hessian; npInv for numpy.linalg.inv; the specification quantifies over every function that is the log-likelihood in the sense of C36 |
| C101 | A forced shape is kept and has no uncertainty | same model; forced branches |
| C102 | A fitter reports how it was fitted, and maximum likelihood fits of accepted data return | same model; C46, C47 |
| C103 | Exponential fits: standard error Lambda over the root of the number of failures | the Hessian of the exponential likelihood is computed and inverted in the proof |
| C104 | The quantile table of a fitter | same model with C34 and C81/C85 |
| C105 | Three-parameter fits fall back to two parameters when the location is below 0.01 | same model; the fallback calls the modelled 2P class |
| C106 | The goodness of fit of the special Weibull fits is that of the model they return | the __init__ of the five classes in Model/FitSpecial.lean, scipy.optimize.minimize and the kernel density estimate arbitrary; likelihoods of Spec/FitSpecial.lean written with Weibull CDF, SF and PDF |
| C107 | Standard errors and bounds of the special Weibull fits | same model; the legal parameters form an open set on which the likelihood is positive, so the code's Hessian is the one of every log-likelihood |
| C108 | The special Weibull fits return on accepted data when the optimizers succeed | same model; findings: with tied failures a group can have a single distinct time and the inner Fit_Weibull_2P raises; nothing keeps ZI below DS, and DSZI_Model raises if the optimizer answers so |
| C109 | Fit_Weibull_2P_grouped is Fit_Weibull_2P on the ungrouped data | the whole __init__ in Model/FitGrouped.lean, least_squares and minimize arbitrary; the dataframe is a list of rows, Spec/FitGrouped.lean expands it; findings: an optimizer whose restart fails makes the class discard the better estimate of its first run; method=None raises AttributeError |
| C110 | An ALT fitter reports the fit of the caller's data | the whole __init__ of the 24 classes (Model/ALTGlue.lean, Model/ALTClasses.lean) on the models of the input check, the least squares guess, the group fits, the optimization and the likelihoods; Spec/ALTGlue.lean states the report |
| C111 | When an ALT fitter returns | progress of every step of fitALT from C74, C97 and C102; finding: tied failures at one stress |
| C112 | The fit is the maximum likelihood fit | the objective and bounds the models of the fitters hand to the optimizer, C41 (the objective is minus the log-likelihood), C47 (where the answer comes from); Spec/Optimizer.lean states exactness and likelihood; closed forms from log x ≤ x - 1 |
| C113 | Parametric QQ plot | Model/ProbPlots.lean; np.polyfit and np.linalg.lstsq are any minimisers of the sum of squares (Spec/ProbPlots.lean); uniqueness by strict convexity |
| C114 | Semiparametric QQ plot | Model/ProbPlots.lean on top of the nonparametric models; the pairing is characterised exactly (C114_correct_iff) and its failure under censoring proved |
| C115 | PP plots | Model/ProbPlots.lean; np.linspace as an exact grid; counterexamples for quantile lines and for negative times |
| C116 | plot_points | Model/ProbPlots.lean over the model of plotting_positions (C08-C11); np.diff as a fold |
| C117 | Limits of probability plots | Model/ProbPaper.lean; monotone inverse scales; case distinctions as in the code |
| C118 | Probability plots | Model/ProbPaper.lean on top of the models of plotting_positions, xy_downsample and of the fitters; Spec/ProbPaper.lean says what is seen; straightness by the scale functions of axes_transforms |
| C119 | Attributes of the combined models | Model/CombinedInit.lean with scipy's Simpson rule as weights; Spec/Quadrature.lean says what a quadrature rule is; exactness by induction over the weights |
| C120 | Mean residual life and samples of the combined models | Model/CombinedInit.lean; summation by parts with bounds on the partial sums of Simpson's weights, sum-integral comparison for antitone functions; random.choice an arbitrary function trusted to return indices of positive probability |
| C121 | Fit_Everything agrees with the individual fitters | Model/FitEverythingFull.lean calls the models of the sixteen classes; refinement to Model/Fitters.lean; the input check is shown to be idempotent, so a second check of checked data changes nothing |
| C122 | Likelihood plots show likelihood ratio regions | Model/LikelihoodPlot.lean calls the models of the seven classes; likelihoods are the specification's products of densities and survival functions; the chi-squared quantile is characterised by its integral |
| C123 | Fit_Everything_ALT reports what the individual ALT fitters report | Model/FitEverythingALTFull.lean calls the models of the 24 classes with the checked inputs; refinement to the model of C77; the checked inputs are shown to mean the same to a class as the caller's |
| C124 | histogram shades the bins above white_above | Model/Histogram.lean; plt.hist is an arbitrary function from the call to bin edges |
| C125 | round_and_string prints the number it is given | Model/RoundString.lean builds the text; Spec/RoundString.lean reads numerals; error bounds relate the two |
| C126 | Figures of Fit_Everything show the data and the fits | Model/FitPlots.lean; reuses the models of plotting positions (C10), KaplanMeier (C12) and xy_downsample (C55); the fitted CDFs are arbitrary monotone functions into [0,1] |
| C127 | Plotting a distribution function sets limits that show it and keep what was plotted before | Model/AxesLimits.lean, Spec/AxesLimits.lean (the window); the limits after drawing (autoscaling) are arbitrary; induction over the history |
| C128 | xy_transform converts between data and axes coordinates and back | Model/AxesLimits.lean; the transforms are arbitrary functions with the hypotheses of `Maps` |
| C129 | The ticks of probability plots are labelled with their values | Model/Ticks.lean: labels as numbers over the rationals, the locators' ticks and the coordinate transform arbitrary |
| C130 | chi2test tests the bins it reports | Model/ChiTest.lean: the checks, np.histogram's counting (last bin closed), the reset to automatic bins, the number of parameters, then the test of Model/Testing |
| C131 | Downsampling only selects which points are drawn | Spec/Downsample.lean states what is drawn; the plots of Model/ProbPlots and Model/ProbPaper are run with and without the option |
| C132 | Writing an xlsx file never loses a readable file without consent | Model/WriteXlsx.lean: paths as strings, os.path.split, a file system, the loop with its answers; induction on the loop, and a measure showing that renaming leaves every finite set of paths |
| C133 | What a converter writes, the xlsx readers read back | Model/Frames.lean: the dataframes with their filled up columns; composed with the readers of Model/Convert.lean |
| C134 | The probability plot of an ALT fit shows data, model and use level | Model/ALTPlots.lean: the loop over the stresses with the probability plots of Model/ProbPaper.lean, connected to the fit of Model/ALTGlue.lean; induction over the stresses, monotone quantiles for the limits |
| C135 | The life-stress plot shows failures, model and use level | Model/ALTPlots.lean: both figures as lists of points with limits; grid lemmas for linspace, logarithms for the window, connected to the fit |
| C136 | The distribution explorer always shows the selected distribution | Model/Explorer.lean: the window as a state machine (sliders, buttons, callbacks registered twice as in the code); an invariant by induction over the events, Spec/Explorer.lean has the parameter table |
| C137 | random_samples gives what was asked for | Model/RandomSamples.lean over an arbitrary generator (state machine of numpy); the Beta loop that replaces ones by induction over fuel |
| C138 | plot() shows the five functions and the statistics | Model/DistPlot.lean: the curves as plot computes them, compared with Model/Distributions.lean; the limits with Model/AxesLimits.lean |
| C139 | The crosshairs follow the mouse and touch nothing else | Model/Crosshairs.lean: the figure as a state machine with the lists of lines and texts; the invariant that the axes are the user's lists followed by the crosshairs of the current selection |
| C140 | The confidence bands on plots of CDF, SF and CHF contain the curve | Model/CIPlot.lean: the plotting branches of the seven functions; monotone curve plus pointwise bracketing survives holding at an extreme |
| C141 | A call of PDF, CDF, SF, HF or CHF with its plot draws exactly what it returns | Model/MethodPlot.lean: one model of the five methods with the curve, title and limits; Props/MethodPlot.lean |
| C142 | Plots of competing risks and mixture models show the model's functions and its components | Model/CompositePlot.lean; Props/CompositePlot.lean, over the models of C37, C38 and C141 |
| C143 | Plots of DSZI models show the DSZI formula of the base distribution | Model/CompositePlot.lean (second part); Props/DsziPlot.lean with the formulas as the specification |
| C144 | Plots of KaplanMeier, NelsonAalen and RankAdjustment show the estimate in the results | Model/NonparamPlot.lean over the models of C12-C17; Props/NonparamPlot.lean: the step arrays end with the last two estimates, which gives what CHF[-2] is |
| C145 | Plots of MCF_nonparametric and MCF_parametric show the mean cumulative function | Model/MCFPlot.lean over the models of C19-C20 and C58; Props/MCFPlot.lean: the step arrays are the graph of a step function (independent definition), the band's standard error is the gradient form with HasDerivAt |
| C146 | reliability_growth plots the observed MTBF, the fitted model and the target | Model/GrowthPlot.lean over the model of C23; Props/GrowthPlot.lean: induction over the history of calls for the legend, log-scale decades as integer powers of ten |
| C147 | Plots of optimal_replacement_time show the cost curve, its minimum, and the optimum for other cost ratios | Model/ReplacementPlot.lean over the model of C24; Props/ReplacementPlot.lean: uses the minimality theorems of C24 for the curve |
| C148 | How the optimal replacement time depends on the costs | Props/ReplacementCost.lean: the failures per unit time F/int S increase with the age by Cauchy's mean value theorem and the increasing hazard; exchange argument on the first minimiser |
| C149 | The plot of ROCOF shows the times between failures and the MTBF of the reported trend | Model/ReplacementPlot.lean over the model of C25-C26; Props/RocofPlot.lean: HasDerivAt of the power law, lengths of x and y by cases |
| C150 | The strain-life diagram shows the relation the reported life solves | Model/PoFPlot.lean over the model of C94; Props/StrainLifePlot.lean: all four forms are a sum of two falling powers |
| C151 | The S-N diagram shows every failure, the fitted line across the whole axis, and traces that end on it | Model/PoFPlot.lean over the model of C96; Props/SNPlot.lean |
| C152 | The stress-strain diagram shows the material's loading curve and hysteresis loop with the reported tips | Model/PoFPlot2.lean over the model of C93; Props/StressStrainPlot.lean |
| C153 | The figures of the parameter fit show all data and the curves of the fitted parameters | Model/PoFPlot2.lean over the model of C95; Props/ParamsPlot.lean |
| C154 | The creep rupture plot shows every test, one line per temperature, and the trace on the line of its temperature | Model/PoFPlot2.lean over the model of C63; Props/CreepPlot.lean |
| C155 | The crack growth plot shows the crack and the critical length cycle by cycle, crossing only in the last cycle | Model/PoFPlot2.lean over the model of C64; Props/CrackPlot.lean: by induction over the cycles |
| C156 | The probability plots of Fit_Everything show one panel per row of results, in their order, each with its data and its fit | Model/FitProbPlots.lean over the models of C118 and C121; Props/FitProbPlots.lean |
| C157 | The probability plots of Fit_Everything_ALT show one panel per row of results, each the model of that row fitted to the caller's data | Model/FitProbPlotsALT.lean (the 24 branches as a table) over the models of C123 and C134; Props/FitProbPlotsALT.lean |
| C158 | The probability plot of a fitter class shows the data it was fitted to, on the paper of its family, with the CDF it returned | Model/FitterPlots.lean (one block per class) over the models of the classes (C102-C112) and of the papers (C134, C156); Props/FitterPlots.lean |
| C159 | The confidence band on the probability plot of a fitter class is the confidence bounds of the distribution it returned | Model/ProbBand.lean builds the object without location that the plot makes and draws its band (C140) with the level recovered from its Z; Props/ProbBand.lean shows that bounds shift with the location |
| C160 | colorprint shows the text in the style asked for and leaves the terminal plain | Model/ColorPrint.lean gives the characters written; Spec/ColorPrint.lean is a terminal (state machine over characters) and the proof is by induction over the text |
| C161 | The maximum likelihood fit does not depend on the optimizer or the order of the data | Lemmas/LogConcave.lean, Lemmas/UniqueML.lean: in slope and intercept the likelihood is strictly log-concave (Mills' ratio for the normal survival function), so two maxima coincide; from C112 both runs are maxima |
| C162 | Fits of related distributions agree | the likelihoods differ by a factor without parameters, and the maximum is unique (C161) |
| C163 | A change of units changes the fit accordingly | as C162 |
| C164 | Every accepted data set has a maximum likelihood fit | Lemmas/ExistML.lean: the likelihood tends to 0 as the slope tends to 0 or infinity or the intercept to infinity (two different failures, or a forced shape), so it has a maximum on a compact set |
| C165 | The fit of an ALT model does not depend on the optimizer or the order of the data | Lemmas/UniqueALT.lean: geometric means of two models are models, the likelihood is strictly log-concave in slope and predictor, so two maxima (C112) have the same shape and the same life at every failure stress; two stresses (three pairs not on a line) identify the parameters |
| C166 | A change of the units of time and stress changes the ALT fit accordingly | the likelihood of the converted model on the converted data is the likelihood divided by k per failure; C165 |
| C167 | An ALT fit exists unless a model goes through all the failures | Lemmas/ExistALT.lean: the residuals are an injective linear function of slope and coefficients, hence grow at least linearly (antilipschitz), so the likelihood tends to 0 far away and has a maximum on a compact set; Props/ExistALT.lean runs the fitter |
| C168 | Log-likelihood, AICc and BIC do not depend on the run, and the comparison of distributions not on the unit of time | Props/UnitsReport.lean: the likelihood of the rescaled distribution for the rescaled data is the likelihood divided by k per failure (C89, C41); each run maximises (C112), so the maxima correspond; the criteria are functions of the log-likelihood (C99) |
| C169 | Fit_Everything picks the same distribution in every unit of time | Props/UnitsEverything.lean: each row is the result of the individual fitter on the nonzero times (C121), whose criteria shift by a common constant (C168); the best row minimises the criterion (C121) |
| C170 | The Anderson-Darling statistic does not depend on the unit of time | Props/UnitsAD.lean: the plotting positions do not change (C88), the fitted distribution is the same one in the new unit (C163), and the statistic is computed from the positions and the fitted probabilities at the failures; Fit_Everything by C121 |
| C171 | ALT fits and the choice of model do not depend on the units of time and stress | Props/UnitsALT.lean: changing the units maps the admissible models of a class onto themselves and multiplies every likelihood by k^-n (lik_convert_all), so both maxima correspond; the criteria by C110, the table by C123 |
| C172 | The nonparametric estimates depend only on the order of the times | Props/NonparametricOrder.lean: the times enter only through the sort and as positions of the steps; equality of the whole calls, errors included. Sorted tables of the same rows coincide if equal times carry equal codes (no shared time) or if failures come first (stable). C172_shared_time_finding: without the proviso the estimates can differ |
| C173 | Growth models and replacement times in other units of time and money | Props/UnitsRepairable.lean: sorting commutes with k; the logarithms shift, so the least squares line keeps its slope (solve2_shift); argmin of a scaled list. For q=0 the unit of time matters because the search starts at 1: C173_replacement_new_unit_finding |
| C174 | Test plans, goodness-of-fit tests and stress-strength interference in other units | Props/UnitsTesting.lean: equality of the whole calls, errors included; the searches compare scaled numbers; the quantiles, grid and densities of rescaled distributions scale (C174_rescaled: which parameters those are) |
| C175 | Names and titles of the distributions | Model/Titles.lean (the four strings, case by case); a reader of titles (split at commas, then at the equals sign) as specification; no numeral has a comma, an equals sign or a bracket (by the form of numerals, C125), hence the reader inverts the title |
| C176 | A fitter's result does not depend on the order of the data | Model/FitGlue.lean, Model/RankRegression.lean; the input checks keep the multisets, the likelihoods are sums over the data (equal as functions), the bounds of the optimizer use the least item, the plotting positions depend on the sorted table only (C172) |
| C177 | Grouped data: only the number of items at each time counts | Model/FitGrouped.lean; the ungrouped data of both tables are permutations of each other (by counting, C109_counts), the grouped likelihood is the likelihood of the ungrouped data (C42_grouped), then as C176 |
| C178 | An ALT fitter's result does not depend on the order of the data | Model/ALTGlue.lean, Model/ALTClasses.lean, Model/FitEverythingALTFull.lean; the checks, the least squares line and the log-likelihood are sums or sets over the items; the groups are permutations of each other group by group, so that the fits of the groups agree by C176 |
| C179 | Goodness-of-fit tests, QQ and PP plots do not depend on the order of the data | Model/Testing.lean, Model/ChiTest.lean, Model/ProbPlots.lean; sorting gives the same list for every order, the counts of the bins are counts over the items |
| C180 | Entering every item several times leaves the maximum likelihood fit where it is | Model/FitGlue.lean; the likelihood of the repeated data is the k-th power of the likelihood, the most likely line is unique (C161), the observed information is k times that of the data (C100) |
| C181 | Kaplan-Meier and Nelson-Aalen when every item is entered several times | Model/Nonparametric.lean; the sorted table of the repeated data is the sorted table with every row repeated; induction over the blocks of k rows; Greenwood's sum telescopes within a block |

## 4. Findings (the code disagrees with the property; proved unless marked †)

* **Convert_data** — one numeric and one string code are stringified by numpy, so reading back with the same codes
  raises; `xlsx_to_XCN` ignores the meaning of custom output codes (swaps or raises); blanks are dropped per column, so
  values of different rows are paired silently.
* **Nonparametric** — KM differs from the product limit when an unstable sort puts a censored item before a tied
  failure; bounds are nan at CI=0 when the last observation is a failure; the last SF_lower step value can exceed SF.
* **plotting_positions** — n=1 with a=1 divides by zero.
* **MCF_nonparametric** — CI<0.5 gives inverted bounds; caller's lists are sorted in place; a 1-D ndarray of one system
  raises; MCF_parametric calls perfectly regular repairs (beta = 1, no error) IMPROVING; †the `max(end) < max(repair)` check never fires.
* **optimal_replacement_time** — q=1 charges cost_PM per failure and cost_CM per replacement; †q=0 grid starts at 1
  whatever the unit.
* **ROCOF** — constant ROCOF uses (n+1)/Σti, wrong when test_end is given; †a single failure without test_end divides by zero.
* **Reliability_testing** — `two_proportion_test` calls [0,0] significant; planner with an impossible MTBF answers 0
  failures without error; sequential chart regions overlap for invalid α+β; `reliability_test_duration` may exceed the
  requested producer's risk, or return nan.  †weibull_shape=0 accepted; †one_sample_proportion does not check CI;
  †chi2test's `min(bin_edges < 0)` check is wrong.
* **Distributions** — scalar HF/CHF with γ>0 raise TypeError; Exponential CHF is negative for negative scalars;
  Mixture accepts negative proportions (CDF>1); combined models misalign unsorted mixed-sign xvals and raise on
  all-negative xvals / Beta components with xvals>1 (a Beta component cannot be combined at all with one that can exceed 1); mean_residual_life of the combined models is negative after the largest 1-1e-10 quantile; mixtures with
  negative proportions are accepted but cannot be sampled; DSZI b5 is not 0 when 5% are zero inflated; Fit_Everything raises an OverflowError from its default histogram plot when the quartiles of the failures coincide (1, 2, 2, 2, 3; C126_overflow_finding), and its P-P plot has the nonparametric CDF on the x-axis although the title says the parametric one is; Fit_Everything with three failures always raises unless Weibull_Mixture and Weibull_CR are excluded by name; likelihood_plot starts the grid of a location at a quarter of its lower bound, which for a negative bound can leave the bound and even the estimate outside of the plot (C122); DSZI list quantiles unchecked, random_samples raises when nothing
  failed, median copied from the base distribution.
* **Confidence bounds** — Exponential: with three or more CI_x not ascending, every value after the largest gets the bounds
  of the largest (interval need not contain the point estimate); CI_y raises ValueError at every y once z·SE ≥ Λ·ln 10
  (one failure: CI ≥ 0.979); on an unfitted distribution a request for bounds raises TypeError although documented as
  ignored; †`plot_CI == True` (no-op) leaves plot_CI None.
* **Fitters** — Exponential_2P credits items censored before γ with SF>1; DSZI with ZI=0 ignores zeros;
  `sort_by="AICC"` with "Insufficient data" raises TypeError; log-likelihood sorting uses |LL|; caller's exclude list grows;
  MLE keeps the run minimising |2LL|; LS keeps the worse of two when the log-likelihood is positive.
  A least squares fit whose information matrix is singular raises TypeError (the warning concatenates the optimizer None);
  method=None passes the input check and then raises; quantiles=False or an unknown string raise ValueError;
  Fit_Exponential_1P with quantiles raises once z ≥ ln(10)·√n; a 3P fit that falls back to 2P keeps k = 3 and the
  Least Squares label although the fallback is the default MLE fit; the standard errors of the first two parameters of a 3P
  fit are those for a known location.
  Fit_Weibull_Mixture/CR accept tied failures but raise when the dividing line leaves one group with a single distinct time;
  Fit_Weibull_DSZI raises ValueError when the optimizer answers with ZI > DS, which its bounds allow; Fit_Weibull_CR does not
  hand its optimizer to the group fits.
  Fit_Weibull_2P_grouped discards the estimate of a successful first optimizer run when a later restart fails and returns the
  less likely least squares estimate; with method=None, which the checks accept, it raises AttributeError.
- C111 The ALT fitters never return when some stress has two or more failures all at the same time (e.g. failures 5, 5 at
  stress 1 and 10, 12 at stress 2): their input check accepts the data, the stand-alone fit of that stress, needed only for the
  initial guess and the table of changes, refuses it.
* **Confidence bands** — plotting a CHF with bounds on time raises ValueError when no x-value is above gamma (C140_chf_finding). The band of a Gamma
  distribution without threshold starts at time 0.0001 whatever its scale; if its 0.99999 quantile is smaller the times run backwards and the band lies
  below the survival function (C140_gamma_finding).
* **PDF, CDF, SF, HF, CHF of all distributions** — with xvals a list or array of one value and the default show_plot=True every call raises
  (IndexError, or TypeError for CDF and SF), because the value is unpacked before the axes limits are set (C141_one_value_finding); so does a number
  together with xmin or xmax (C141_number_limit_finding).
* **Competing_Risks_Model, Mixture_Model** — the x-array has 1000 elements, not the 200 documented (C142_points_finding); PDF and HF return other values
  with a plot than without (cut at 1e100, C142_cap_finding); plot_components raises when exactly one x-value is not negative
  (C142_components_finding); plot(xvals=number) raises a TypeError (C142_plot_number_finding).
* **DSZI_Model** — plot() raises a TypeError for every base distribution with a message among its statistics, e.g. Loglogistic with a small beta
  (C143_message_finding); with a Beta base a negative xmin raises a ValueError that the base distribution does not (C143_beta_finding); one x-value in a
  list raises (C143_one_value_finding, C143_plot_one_finding).
* **NelsonAalen, RankAdjustment** — plots of the CHF leave out the last point: the vertical axis is made from CHF[-2] (infinite CHF[-1] being a
  Kaplan-Meier matter only); with failures at 1 and 2 Nelson-Aalen ends at 1.5 and the axis at 1 (C144_na_chf_finding, C144_ra_chf_finding).
* **MCF_nonparametric** — with CI below 1/2 the "upper" bounds are below the estimate; the vertical axis is made from them and cuts the line
  (C145_np_low_CI_finding).
* **reliability_growth** — on log scale a target below the decade of the lowest observed MTBF is drawn below the axes, and the horizontal axis
  begins at the decade of the smaller of the first time and the target *MTBF* (a mix-up with the time to the target), so that an early time to
  the target is left of the axes (C146_low_target_finding, C146_early_target_finding).
* **optimal_replacement_time** — the time plot of q=1 ends at 4 alpha whatever the optimum is: with PM 1, CM 100, alpha 10 and beta 2 the optimum 100
  is outside the axes (C147_old_outside_finding); with alpha below 1/3 the grid of q=0 runs down from 1 and is outside the axes
  (C147_small_alpha_finding). With q=1 a dearer failure makes the optimal replacement later and dearer maintenance makes it earlier
  (C148_old_finding, from the exchanged costs of C24_cost_roles_finding).
* **ROCOF** — with test_end and a constant trend the plotted MTBF is below the mean of the plotted times (C149_time_terminated_finding).
* **strain_life_diagram** — a life below 10 reversals is drawn left of the axes (C150_short_life_finding); the line of the transition life
  starts at a strain of 1e-6 even if the axis goes lower (C150_dash_finding); the lower limit looks at the plastic line only, so the elastic
  line can be cut off (C150_elastic_finding); without a load and with show_plot=False the attribute cycles_to_failure does not exist
  (C150_unset_finding).
* **SN_diagram** — a trace at a stress below the endurance limit ends at a finite life off the line as drawn (C151_trace_finding); run-outs
  well below the failures, and the endurance limit, are drawn outside the axes (C151_runout_outside_finding); two or more run-out stresses
  without run-out cycles pass the checks if show_endurance_limit=False and then fail in plt.scatter (C151_runout_cycles_finding).
* **stress_strain_life_parameters_from_data** — the strain-life curve starts at 10 reversals whatever the data: a test of fewer than five
  cycles is left of it (C153_few_cycles_finding).
* **creep_rupture_curves** — a trace more than a fifth of the range outside the stresses is drawn outside the axes
  (C154_trace_outside_finding).
* **fracture_mechanics_crack_growth** — the length labelled in the plot is the crack's, the one in the results is the critical length; they
  differ (C155_final_length_finding). A crack that starts at more than 1.2 times its critical length is drawn above the axes
  (C155_outside_finding).
* **Fit_Weibull_ZI / Fit_Weibull_DSZI, show_probability_plot** — the limits of the axes come from Weibull_probability_plot of the non-zero failures alone (Fitters.py:4760-4767, 5430-5437), while the points are plotted at the positions of all failures. The zeros are left of the (logarithmic) axis and the positions of the others, raised by the zeros, can be above it: with ten zeros and failures at 1 and 2 no point is visible (`C158_hidden_finding`).
* **colorprint** — `bold=False` is written as code 21 (Utils.py:1420), which in ECMA-48 is "doubly underlined", not "bold off" (22); the underlining is overwritten by the next code, but a terminal in bold stays in bold (`C160_bold_finding`).
* **dual-stress ALT fitters** — the input checks accept two different pairs of stresses (or any pairs on one line on the scale of the model). The three parameters of the life-stress model are then not determined: other estimates make the data exactly as likely, and the life at the use level stress, which is usually off that line, is arbitrary. No warning is given (`C165_dual_collinear_finding`, with accepted data).
* **ALT fitters, Weibull and Lognormal** — if a model of the class goes exactly through all the failures (for example one failure at each of three stresses on a curve, which the checks accept) and nothing is censored, the likelihood is unbounded: there is no estimate, and what is reported depends on where the optimizer stops (`C167_single_through_finding`, `C167_dual_through_finding`).
* **Fit_Everything(sort_by='Log-likelihood')** — the choice depends on the unit of time: the rows are sorted by the absolute value of the log-likelihood, so when all are positive (small unit) the least likely distribution is called the best one (C169_loglik_finding: failures in the ratio 1:2:4, Normal against Lognormal).
* **crosshairs** — with decimals=0 every click raises a TypeError (C139_decimals_zero_finding) and coordinates are cut off, not rounded
  (C139_cut_off_finding). The crosshairs are recognised by the positions of the last two texts: texts of the user at x = 0 and y = 0 make
  his last two lines disappear when the mouse leaves the axes (C139_lookalike_finding); a line drawn later is hidden instead of a
  crosshair (C139_later_line_finding).
* **Beta_Distribution.random_samples** — replaces samples equal to 1 in a loop that never ends if the distribution is so skewed that
  scipy only returns ones (C137_beta_endless_finding).
* **plot(xvals=number)** — a single number, which PDF, CDF, SF, HF and CHF accept, raises a TypeError (C138_scalar_finding).
* **ALT figures** — both plots are drawn in `__init__` by default and take colours from the colour cycle (10 colours): with more than ten stresses,
  or ten and a use level, every ALT fitter raises IndexError after a successful fit (C134_single, C134_dual, C135_*: the second halves). The dashed
  "original" line of the Exponential fitters uses the Weibull scale (C134_exponential_original_finding). The stress axis ignores a use stress
  above the test stresses (C135_use_above_finding), the life axis cuts off a life that increases with stress
  (C135_increasing_finding), and any unknown string for `ax` silently draws nothing (C135_no_figure).
* **Fit_Everything_ALT** — best_model_at_use_stress wrong for six dual-stress models (Lognormal: mu=1/life;
  Exponential: Lambda=life); †non-string sort_by raises AttributeError before the type check.
* **Probability_plotting** — QQ_plot_semiparametric pairs the failures with survival probabilities in reverse order, wrong for
  every failure as soon as fewer than half of the items are estimated to fail by the last failure; PP_plot_parametric with any
  quantile line raises ValueError (`quantile` gives np.float64, which CDF refuses; so does the documented example), and so it
  does for a Normal with mean ≤ 0 against a positive family; plot_points gives wrong PDF/HF points for unsorted failures
  (as in its own example) and infinite ones for ties; Exponential_probability_plot_Weibull_Scale with a location moves the
  points but not the line by 0.009; a single point with F < 1/11 gets a negative lower limit on the probability axis.
* **Utils** — zeroise_below_gamma wrong for unsorted X; xy_downsample sorts x and y independently; transform_spaced
  swaps beta's parameters; generate_X_array corner cases; ALT input check files censored-only single stresses
  under a wrong stress; anderson_darling raises for a Python list (documented as accepted); round_and_string prints large whole
  numbers with all their digits (its documentation says 1e+20) and, with fewer than four decimals, prints 3e-4 as 0.0 but
  3e-5 as 3e-05.
* **Other_functions** — make_right_censored_data shuffles the caller's ndarray in place (even when it then raises) and
  can censor negative data above its value; †make_ALT_data dual model with scalar use level raises TypeError;
  similar_distributions gives Exponential_2P the rate fitted for Exponential_1P; stress_strength raises for Normal/Gumbel with a positive family when the 1e-8 quantile is negative.
  histogram also shades a bin that begins below white_above when its left edge is the nearer one.
* **Axes limits** — a shifted distribution below 0 gets a window from its 99.9% quantile to 0 (C127_negative_gamma_finding); a
  peak of a hazard function whose last value is larger is cut off (C127_hf_peak_finding); a CHF is cut off beyond its own window
  when the axes already reach further (C127_chf_cut_finding); limits that are exactly the unit square are forgotten
  (C127_unit_square_finding). Ticks of
  probability plots whose percentage falls just below a decimal in floats are labelled one percent too low (0.018 as 0.8%,
  0.29 as 28.0%; C129_percent_finding). chi2test does not reset
  bins of the caller that reach below 0, as it means to: it ends in a ValueError (C130_negative_edge_finding). xy_transform refuses every list of y data values and takes the axis "X" for y (C128).
* **Writing xlsx files** — after "N", on every system but Windows, the new file is not in the folder of the old one: the backslash becomes part
  of its name (C132_posix_finding); a path without folder goes to the root; a name with two dots loses its extension and a name without a
  dot raises IndexError (C132_dots_finding); a file that may be written but not read is replaced without asking
  (C132_unreadable_finding). Failure codes that pandas takes for missing values are written but can never be read
  (C133_NA_finding).
* **PoF** — acceleration_factor with all inputs given sets nothing; creep_rupture_curves always raises without a
  trace and slices interleaved temperatures wrongly; crack growth: default un-notched edge crack divides by zero,
  stage 1 reported as 0 if the transition is never passed, reported final length is the critical one even when stopped at
  a_final, the simplified method counts the notch depth as growth; crack initiation life jumps up across yield.
  stress_strain_diagram: a requested min_stress other than -max_stress is not honoured for n < 1 (the loop goes lower);
  min_stress/min_strain are silently ignored in the other control mode; starting in compression solves nothing unless 1/n is
  an integer.  strain_life_diagram raises for a negative min_stress and reports an arbitrary smallest stress in strain
  control unless 1/n is an integer.  SN_diagram: residual bounds raise NameError without an endurance limit; statistical
  bounds use raw cycles instead of log10 cycles.

## 5. Tests of the theorems against wrong programs

`tools/mutate.py` edits one token of one model definition in a scratch copy, rebuilds, and records which
theorems fail.  Results and the theorems tightened in response are in `seeded/LOG.jsonl`.  Surviving edits
were inspected by hand: each is either equivalent (unreachable branch, default value never used) or led to a stronger theorem.
