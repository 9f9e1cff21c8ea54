# Formal model of `reliability` (pinned commit) in Lean 4

## 1. Trusted base

* Lean 4.33.0's kernel, and the definitions of the Mathlib modules imported (reals, `Real.exp`,
  `Real.log`, `Real.rpow`, lists, permutations, measures/integrals for a few properties).
* Axioms: at most `propext`, `Classical.choice`, `Quot.sound` for every theorem.  No axiom is added,
  nothing rests on compiled code (no `native_decide`, `bv_decide`).
* The reading of the Python source.  Nothing is executed: every definition in `Verif/Model/*` cites
  the file and lines it models, and says where it simplifies.

### Conventions of the model

* **Numbers.** Loop/list algorithms (`Convert_data`, plotting positions, KM, NA hazard, MCF, linear
  regression, arrays in Utils) are modelled over an arbitrary linearly ordered field `K` (so the theorems
  hold for ℚ, which makes the model executable in the examples, and for ℝ).  Formulas with `exp/log/**`
  are modelled over Mathlib's `ℝ`.  **Not modelled:** IEEE-754 rounding and overflow.  `inf`/`nan` are
  modelled (`Verif/Model/Ext.lean`) where the code relies on them (Greenwood bounds, `-log(0)`, `1/0`
  slopes, NaN cells).
* **Sorting.** pandas/numpy default sorts are unstable.  The model takes *any* argsort/sorted
  permutation, so theorems hold for every tie order.
* **Exceptions** are values: `Except Err α` with the Python exception class.
* **External numerics** are parameters (oracles): scipy quantiles (`chi2.ppf`, `norm.ppf`, `f.ppf`,
  `beta`, `gamma`), optimisers (`scipy.optimize.minimize`, `fsolve`), quadrature, `np.polyfit`, random numbers,
  `quantile` of a sample.  The theorems state which facts about them are assumed (monotone,
  symmetric, returns a root, …) — as hypotheses, not axioms — and hold for every function with these facts;
  where no hypothesis is stated the oracle is arbitrary (adversarial).
* **Mutation** of caller's arguments is modelled by returning the argument's final value.
* **Plots** are modelled as data: the curves, points, limits and texts handed to matplotlib (what is drawn, on what axes). Rendering, colours,
  styles, printing to the console and docstrings are not modelled, nor is file I/O
  (spreadsheet readers are modelled from the columns pandas returns; a blank cell is `none`).

## 2. What is modelled

`Verif/Model/*.lean` – model of the code, definition by definition; `Verif/Spec/*.lean` – small independent
specifications (they import the model only for its input/output data types); `Verif/Props/*.lean` – the property theorems `Cxx_*`, with a concrete
`example` beside them; `Verif/Lemmas/*.lean` – helper lemmas.

| file in /repo/reliability | modelled | not modelled |
|---|---|---|
| Convert_data.py | all nine converters (results), incl. numpy's stringification of mixed code arrays ; the dataframes they print and write (Model/Frames.lean) | pandas' reading and writing of the xlsx file (which texts it takes for missing is a parameter) |
| Probability_plotting.py | `plotting_positions`, QQ_plot_parametric, QQ_plot_semiparametric, PP_plot_parametric, PP_plot_semiparametric, plot_points (points, lines and returned values), the nine `*_probability_plot` functions (points, line, paper, limits) ; the confidence band on the plots of the fitter classes (Model/ProbBand.lean) | colours, ticks, labels |
| Nonparametric.py | KaplanMeier, NelsonAalen, RankAdjustment: checks, tables, bounds, step arrays, plots | printing, colours |
| Repairable_systems.py | reliability_growth, optimal_replacement_time, ROCOF, MCF_nonparametric, MCF_parametric (curve_fit and polyfit arbitrary), plots | printing, colours |
| Reliability_testing.py | one_sample_proportion, two_proportion_test, sample_size_no_failures, sequential_sampling_chart, reliability_test_planner, reliability_test_duration, chi2test (from counts in Model/Testing; whole, with np.histogram's counting, in Model/ChiTest.lean), KStest, likelihood_plot (Model/LikelihoodPlot.lean; contour is an arbitrary function) | the automatic choice of bin edges by numpy (arbitrary ascending edges covering the data) |
| Distributions.py | the eight distributions (parameter checks, PDF, CDF, SF, HF, CHF, quantile, inverse_SF, mode/median, mean residual life; mean, variance, standard deviation, skewness, kurtosis, median, b5, b95 attributes – Gumbel skewness/kurtosis excepted), Competing_Risks_Model, Mixture_Model, DSZI_Model; `random_samples` of the eight distributions (Model/RandomSamples.lean, any generator) and `plot()` (Model/DistPlot.lean), names and titles (Model/Titles.lean), the five functions with their plots (Model/MethodPlot.lean) and the same of the three composite models (Model/CompositePlot.lean) | `stats()` |
| Fitters.py | all `logf`/`logR`/`LL` functions, parameter confidence bounds, AICc/BIC, Fit_Everything (exclusion, table, ranking, best; Model/FitEverythingFull.lean with the calls of the sixteen classes; histogram and P-P figures, Model/FitPlots.lean; probability plots, Model/FitProbPlots.lean; the probability plots of the classes themselves, Model/FitterPlots.lean), the whole `__init__` of the thirteen standard fitters (Model/FitGlue.lean: checks, estimates, standard errors, rows, quantile table, goodness of fit) and of the Mixture, CR, DSZI, DS, ZI (Model/FitSpecial.lean) and grouped (Model/FitGrouped.lean) fitters | the numerical least squares and `scipy.optimize.minimize` (arbitrary functions), autograd (exact derivatives), printing, plots |
| Utils.py | fitters_input_checking, ALT_fitters_input_checking, clean_CI_arrays, linear_regression, least_squares (the straight-line fits; curve_fit is an arbitrary parameter), MLE_optimization, LS_optimization selection, transform_spaced, axes_transforms, generate_X_array, no_reverse, zeroise_below_gamma, xy_downsample, removeNaNs, extract_CI, distribution_confidence_intervals (Model/FunctionCI.lean; the drawn bands, fill_no_autoscale, line_no_autoscale: Model/CIPlot.lean), validate_CI_params, anderson_darling, ALT_least_squares, ALT_MLE_optimization (bounds, selection of the optimizer), distributions_input_checking (arguments of the bounds), round_and_string, get_axes_limits, restore_axes_limits, xy_transform (Model/AxesLimits.lean), probability_plot_xyticks (Model/Ticks.lean), write_df_to_xlsx (Model/WriteXlsx.lean; UNC names and path normalisation not modelled) ; colorprint (Model/ColorPrint.lean) | plot helpers; reshow_figure (its first statement reads the undefined name `ax`, Utils.py:7515, so every call raises NameError) |
| ALT_fitters.py | the 24 fitters' `logf`/`logR`/`LL`, bounds, goodness of fit, use-level distribution, change of parameters, acceleration factor; the whole `__init__` of the 24 fitters (Model/ALTGlue.lean, Model/ALTClasses.lean; `minimize` and the numerics of the group fits arbitrary); Fit_Everything_ALT (Model/FitEverythingALT.lean; with the classes it calls, Model/FitEverythingALTFull.lean; its probability plots, Model/FitProbPlotsALT.lean); the probability and life-stress plots of the 24 fitters (Model/ALTPlots.lean) | printing |
| Other_functions.py | stress_strength, stress_strength_normal, make_right_censored_data, make_ALT_data, similar_distributions, histogram (Model/Histogram.lean; plt.hist is an arbitrary function), distribution_explorer (Model/Explorer.lean), crosshairs (Model/Crosshairs.lean) | colours and fonts |
| PoF.py | palmgren_miner_linear_damage, creep_rupture_curves (selection of points), creep_failure_time, acceleration_factor, fracture_mechanics_crack_growth, fracture_mechanics_crack_initiation, SN_diagram, stress_strain_life_parameters_from_data, stress_strain_diagram, strain_life_diagram (with an idealised fsolve / polyfit), what their plots show | printing, the equations in the legends |
| Datasets.py | – (literal tables) | all |

