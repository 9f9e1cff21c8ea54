import json
props=[json.loads(l) for l in open('/verif/properties.jsonl')]
how={
"C01":"list model of FR/FNRN; `np.unique` = run-length encoding of the sorted list. Induction, permutations.",
"C02":"FR→XCN→FR with numpy's homogeneous code arrays modelled (`npArrayCodes`). Induction; counterexample for mixed codes.",
"C03":"histogram spec by `List.count`; induction on run-length encoding.",
"C04":"totals per time (`Spec.totalAt`).",
"C05":"if/elif chain as decision function; loop invariant; documented code tables as separate spec.",
"C06":"permutation argument.",
"C07":"composition model; partial + two counterexamples.",
"C08":"both branches of `plotting_positions` over any ordered field; loop invariant on adjusted ranks.",
"C12":"KM loop; product-limit spec by Finset product.","C16":"NA loop, exp as parameter / real exp.","C18":"step-array loop; staircase spec (`Traces`), alignment, CHF.",
"C19":"MCF event loop on sorted events of all systems; spec = sum over systems at risk.",
"C23":"cost curve with exp/rpow over ℝ; minimality on the grid.","C25":"closed forms; Laplace statistic.",
"C27":"ceil formula; minimality of n.","C28":"planner with chi² quantile as an oracle obeying stated laws.",
"C33":"closed-form PDF/CDF/SF/HF/CHF over ℝ, scipy functions as integrals/parameters; calculus.",
"C37":"`__combiner` as list function incl. numpy slicing; spec = weighted sums/products pointwise.",
"C40":"DSZI mixture; random choices as adversarial list.",
"C41":"logf/logR as real functions vs. log of PDF/SF; LL sums.",
"C44":"ranking with arbitrary (unstable) argsort; exclusion lists; mutation as returned value.",
"C47":"optimiser loop against an adversarial oracle; fuel + termination proof.",
"C49":"normal equations; sum of squares decomposition.",
"C50":"list functions, induction.","C51":"input checkers as decision functions; acceptance iff.",
"C57":"random draws as adversarial lists/permutations; caller's array returned.",
"C59":"24 fitters' formulas transcribed one by one; generic lemma per family.",
"C60":"gaussian measure on ℝ², Mathlib probability.",
"C61":"list sums.","C62":"real algebra with exp/log/rpow.","C63":"row slicing by first occurrence.","C64":"iteration with fuel; strict increase, termination, Paris integral by FTC.",
"C29":"`ss.f.ppf` as a parameter obeying only its defining law (F cdf = incomplete beta); binomial tail identity by calculus.",
"C80":"attributes transcribed; spec = integrability and values of the moment integrals of the PDF; Mathlib Gamma/Beta/Gaussian integrals, Gamma''(1).",
"C81":"funcCI transcribes extract_CI, the seven *_CI functions (plot_CI off) and the end of CDF/SF/CHF; derivatives exact except Gamma (arbitrary); spec = order, legality, C33 functions.",
"C82":"spec = DeltaVariance (HasDerivAt of the family's scale of SF / inverse SF in both parameters), TwoSidedZ; Gamma under the hypothesis that autograd's numerical derivatives are exact.",
"C83":"monotonicity of zOf and of the back-transforms.",
"C84":"equalities between the three calls of funcCI.",
"C85":"exponential_CI incl. its 200-point grid and no_reverse; spec = explicit rates, ReportedFor; order and high-CI findings.",
"C86":"distributions_input_checking (CI arguments) as a decision function; spec = relation Resolves; composition callCI with the bounds.",
"C87":"least_squares on top of plotting_positions (C08) and linear_regression (C49); spec = residuals between plotting positions and the distributions' own CDF / quantile on the paper scale; proof: the CDF is a straight line on the paper, positive covariance gives a legal slope, C49 minimality.",
"C88":"plotting_positions commute with increasing maps for a comparison sort; uniqueness of the minimiser (C87) transports the parameters.",
"C89":"the LL functions of 17 fitters (C41); per-term scaling identities, then transport of minimisers.",
"C90":"the closed-form terms as written; each is the integral over one step (fundamental theorem), summed by induction over the sorted values.",
"C91":"MCF_parametric on top of the C19 model, polyfit/curve_fit/ppf arbitrary; theorems read off the result record; least-squares recovery via zero residual.",
"C92":"from C19's characterisation: sorting, maxima and at-risk counts commute with strictly increasing maps.",
"C93":"Model/Fatigue.stressStrain with fsolve an arbitrary idealised root finder, numpy's complex/nan powers as `none`; Lemmas: strict monotonicity of the two curves, intermediate value theorem for existence; tips by uniqueness; findings: C93_*_finding",
"C94":"Model/Fatigue.strainLife; Props/StrainLife: existence of the root by the intermediate value theorem, antitonicity of the strain-life curve; findings: C94_*_finding",
"C95":"Model/Fatigue.paramsFromData with polyfit any least-squares line (Spec.IsLine; existence: line_exists); a least-squares line through collinear points is the line",
"C96":"Model/Fatigue.snDiagram; Props/SNDiagram; findings: C96_residual_finding (NameError without limit), C96_statistical_finding (bounds use raw cycles, not their logarithms)",
"C97":"Model/ALTLeastSquares (normal equations as a 3x3 matrix over R, noise an arbitrary matrix); Pythagoras identity for planes by induction on the data; singular Gram matrix iff collinear; single-stress case from C49",
"C98":"Model/SimilarDistributions on top of the model of Fit_Everything (C44); finding C98_exponential_finding",
"C99":"the whole __init__ of each class in Model/FitGlue.lean, with the numerical least squares and scipy.optimize.minimize arbitrary functions; combined with C36, C42, C88 (likelihood, criteria, AD)",
"C100":"exact second derivatives stand for autograd's hessian; npInv for numpy.linalg.inv; the specification quantifies over every function that is the log-likelihood in the sense of C36",
"C101":"same model; forced branches",
"C102":"same model; C46, C47",
"C103":"the Hessian of the exponential likelihood is computed and inverted in the proof",
"C104":"same model with C34 and C81/C85",
"C105":"same model; the fallback calls the modelled 2P class",
"C106":"the __init__ of the five classes in Model/FitSpecial.lean, scipy.optimize.minimize and the kernel density estimate arbitrary; likelihoods of Spec/FitSpecial.lean written with Weibull CDF, SF and PDF",
"C107":"same model; the legal parameters form an open set on which the likelihood is positive, so the code's Hessian is the one of every log-likelihood",
"C108":"same model; findings: with tied failures a group can have a single distinct time and the inner Fit_Weibull_2P raises; nothing keeps ZI below DS, and DSZI_Model raises if the optimizer answers so",
"C109":"the whole __init__ in Model/FitGrouped.lean, least_squares and minimize arbitrary; the dataframe is a list of rows, Spec/FitGrouped.lean expands it; findings: an optimizer whose restart fails makes the class discard the better estimate of its first run; method=None raises AttributeError",
"C110":"the whole __init__ of the 24 classes (Model/ALTGlue.lean, Model/ALTClasses.lean) on the models of the input check, the least squares guess, the group fits, the optimization and the likelihoods; Spec/ALTGlue.lean states the report",
"C111":"progress of every step of fitALT from C74, C97 and C102; finding: tied failures at one stress",
"C112":"the objective and bounds the models of the fitters hand to the optimizer, C41 (the objective is minus the log-likelihood), C47 (where the answer comes from); Spec/Optimizer.lean states exactness and likelihood; closed forms from log x \u2264 x - 1",
"C113":"Model/ProbPlots.lean; np.polyfit and np.linalg.lstsq are any minimisers of the sum of squares (Spec/ProbPlots.lean); uniqueness by strict convexity",
"C114":"Model/ProbPlots.lean on top of the nonparametric models; the pairing is characterised exactly (C114_correct_iff) and its failure under censoring proved",
"C115":"Model/ProbPlots.lean; np.linspace as an exact grid; counterexamples for quantile lines and for negative times",
"C116":"Model/ProbPlots.lean over the model of plotting_positions (C08-C11); np.diff as a fold",
"C117":"Model/ProbPaper.lean; monotone inverse scales; case distinctions as in the code",
"C118":"Model/ProbPaper.lean on top of the models of plotting_positions, xy_downsample and of the fitters; Spec/ProbPaper.lean says what is seen; straightness by the scale functions of axes_transforms",
"C119":"Model/CombinedInit.lean with scipy's Simpson rule as weights; Spec/Quadrature.lean says what a quadrature rule is; exactness by induction over the weights",
"C120":"Model/CombinedInit.lean; summation by parts with bounds on the partial sums of Simpson's weights, sum-integral comparison for antitone functions; random.choice an arbitrary function trusted to return indices of positive probability",
"C121":"Model/FitEverythingFull.lean calls the models of the sixteen classes; refinement to Model/Fitters.lean; the input check is shown to be idempotent, so a second check of checked data changes nothing",
"C122":"Model/LikelihoodPlot.lean calls the models of the seven classes; likelihoods are the specification's products of densities and survival functions; the chi-squared quantile is characterised by its integral",
"C123":"Model/FitEverythingALTFull.lean calls the models of the 24 classes with the checked inputs; refinement to the model of C77; the checked inputs are shown to mean the same to a class as the caller's",
"C124":"Model/Histogram.lean; plt.hist is an arbitrary function from the call to bin edges",
"C125":"Model/RoundString.lean builds the text; Spec/RoundString.lean reads numerals; error bounds relate the two",
"C126":"Model/FitPlots.lean; reuses the models of plotting positions (C10), KaplanMeier (C12) and xy_downsample (C55); the fitted CDFs are arbitrary monotone functions into [0,1]",
"C127":"Model/AxesLimits.lean, Spec/AxesLimits.lean (the window); the limits after drawing (autoscaling) are arbitrary; induction over the history",
"C128":"Model/AxesLimits.lean; the transforms are arbitrary functions with the hypotheses of `Maps`",
"C129":"Model/Ticks.lean: labels as numbers over the rationals, the locators' ticks and the coordinate transform arbitrary",
"C130":"Model/ChiTest.lean: the checks, np.histogram's counting (last bin closed), the reset to automatic bins, the number of parameters, then the test of Model/Testing",
"C131":"Spec/Downsample.lean states what is drawn; the plots of Model/ProbPlots and Model/ProbPaper are run with and without the option",
"C132":"Model/WriteXlsx.lean: paths as strings, os.path.split, a file system, the loop with its answers; induction on the loop, and a measure showing that renaming leaves every finite set of paths",
"C133":"Model/Frames.lean: the dataframes with their filled up columns; composed with the readers of Model/Convert.lean",
"C134":"Model/ALTPlots.lean: the loop over the stresses with the probability plots of Model/ProbPaper.lean, connected to the fit of Model/ALTGlue.lean; induction over the stresses, monotone quantiles for the limits",
"C135":"Model/ALTPlots.lean: both figures as lists of points with limits; grid lemmas for linspace, logarithms for the window, connected to the fit",
"C136":"Model/Explorer.lean: the window as a state machine (sliders, buttons, callbacks registered twice as in the code); an invariant by induction over the events, Spec/Explorer.lean has the parameter table",
"C137":"Model/RandomSamples.lean over an arbitrary generator (state machine of numpy); the Beta loop that replaces ones by induction over fuel",
"C138":"Model/DistPlot.lean: the curves as plot computes them, compared with Model/Distributions.lean; the limits with Model/AxesLimits.lean",
"C139":"Model/Crosshairs.lean: the figure as a state machine with the lists of lines and texts; the invariant that the axes are the user's lists followed by the crosshairs of the current selection",
"C140":"Model/CIPlot.lean: the plotting branches of the seven functions; monotone curve plus pointwise bracketing survives holding at an extreme",
"C141":"Model/MethodPlot.lean: one model of the five methods with the curve, title and limits; Props/MethodPlot.lean",
"C142":"Model/CompositePlot.lean; Props/CompositePlot.lean, over the models of C37, C38 and C141",
"C143":"Model/CompositePlot.lean (second part); Props/DsziPlot.lean with the formulas as the specification",
"C144":"Model/NonparamPlot.lean over the models of C12-C17; Props/NonparamPlot.lean: the step arrays end with the last two estimates, which gives what CHF[-2] is",
"C145":"Model/MCFPlot.lean over the models of C19-C20 and C58; Props/MCFPlot.lean: the step arrays are the graph of a step function (independent definition), the band's standard error is the gradient form with HasDerivAt",
"C146":"Model/GrowthPlot.lean over the model of C23; Props/GrowthPlot.lean: induction over the history of calls for the legend, log-scale decades as integer powers of ten",
"C147":"Model/ReplacementPlot.lean over the model of C24; Props/ReplacementPlot.lean: uses the minimality theorems of C24 for the curve",
"C148":"Props/ReplacementCost.lean: the failures per unit time F/int S increase with the age by Cauchy's mean value theorem and the increasing hazard; exchange argument on the first minimiser",
"C149":"Model/ReplacementPlot.lean over the model of C25-C26; Props/RocofPlot.lean: HasDerivAt of the power law, lengths of x and y by cases",
"C150":"Model/PoFPlot.lean over the model of C94; Props/StrainLifePlot.lean: all four forms are a sum of two falling powers",
"C151":"Model/PoFPlot.lean over the model of C96; Props/SNPlot.lean",
"C152":"Model/PoFPlot2.lean over the model of C93; Props/StressStrainPlot.lean",
"C153":"Model/PoFPlot2.lean over the model of C95; Props/ParamsPlot.lean",
"C154":"Model/PoFPlot2.lean over the model of C63; Props/CreepPlot.lean",
"C155":"Model/PoFPlot2.lean over the model of C64; Props/CrackPlot.lean: by induction over the cycles",
"C156":"Model/FitProbPlots.lean over the models of C118 and C121; Props/FitProbPlots.lean",
"C157":"Model/FitProbPlotsALT.lean (the 24 branches as a table) over the models of C123 and C134; Props/FitProbPlotsALT.lean",
"C158":"Model/FitterPlots.lean (one block per class) over the models of the classes (C102-C112) and of the papers (C134, C156); Props/FitterPlots.lean",
"C159":"Model/ProbBand.lean builds the object without location that the plot makes and draws its band (C140) with the level recovered from its Z; Props/ProbBand.lean shows that bounds shift with the location",
"C160":"Model/ColorPrint.lean gives the characters written; Spec/ColorPrint.lean is a terminal (state machine over characters) and the proof is by induction over the text",
"C161":"Lemmas/LogConcave.lean, Lemmas/UniqueML.lean: in slope and intercept the likelihood is strictly log-concave (Mills' ratio for the normal survival function), so two maxima coincide; from C112 both runs are maxima",
"C162":"the likelihoods differ by a factor without parameters, and the maximum is unique (C161)",
"C163":"as C162",
"C164":"Lemmas/ExistML.lean: the likelihood tends to 0 as the slope tends to 0 or infinity or the intercept to infinity (two different failures, or a forced shape), so it has a maximum on a compact set",
"C165":"Lemmas/UniqueALT.lean: geometric means of two models are models, the likelihood is strictly log-concave in slope and predictor, so two maxima (C112) have the same shape and the same life at every failure stress; two stresses (three pairs not on a line) identify the parameters",
"C166":"the likelihood of the converted model on the converted data is the likelihood divided by k per failure; C165",
"C167":"Lemmas/ExistALT.lean: the residuals are an injective linear function of slope and coefficients, hence grow at least linearly (antilipschitz), so the likelihood tends to 0 far away and has a maximum on a compact set; Props/ExistALT.lean runs the fitter",
"C168":"Props/UnitsReport.lean: the likelihood of the rescaled distribution for the rescaled data is the likelihood divided by k per failure (C89, C41); each run maximises (C112), so the maxima correspond; the criteria are functions of the log-likelihood (C99)",
"C169":"Props/UnitsEverything.lean: each row is the result of the individual fitter on the nonzero times (C121), whose criteria shift by a common constant (C168); the best row minimises the criterion (C121)",
"C170":"Props/UnitsAD.lean: the plotting positions do not change (C88), the fitted distribution is the same one in the new unit (C163), and the statistic is computed from the positions and the fitted probabilities at the failures; Fit_Everything by C121",
"C171":"Props/UnitsALT.lean: changing the units maps the admissible models of a class onto themselves and multiplies every likelihood by k^-n (lik_convert_all), so both maxima correspond; the criteria by C110, the table by C123",
"C172":"Props/NonparametricOrder.lean: the times enter only through the sort and as positions of the steps; equality of the whole calls, errors included. Sorted tables of the same rows coincide if equal times carry equal codes (no shared time) or if failures come first (stable). C172_shared_time_finding: without the proviso the estimates can differ",
"C173":"Props/UnitsRepairable.lean: sorting commutes with k; the logarithms shift, so the least squares line keeps its slope (solve2_shift); argmin of a scaled list. For q=0 the unit of time matters because the search starts at 1: C173_replacement_new_unit_finding",
"C174":"Props/UnitsTesting.lean: equality of the whole calls, errors included; the searches compare scaled numbers; the quantiles, grid and densities of rescaled distributions scale (C174_rescaled: which parameters those are)",
"C175":"Model/Titles.lean (the four strings, case by case); a reader of titles (split at commas, then at the equals sign) as specification; no numeral has a comma, an equals sign or a bracket (by the form of numerals, C125), hence the reader inverts the title",
"C176":"Model/FitGlue.lean, Model/RankRegression.lean; the input checks keep the multisets, the likelihoods are sums over the data (equal as functions), the bounds of the optimizer use the least item, the plotting positions depend on the sorted table only (C172)",
"C177":"Model/FitGrouped.lean; the ungrouped data of both tables are permutations of each other (by counting, C109_counts), the grouped likelihood is the likelihood of the ungrouped data (C42_grouped), then as C176",
"C178":"Model/ALTGlue.lean, Model/ALTClasses.lean, Model/FitEverythingALTFull.lean; the checks, the least squares line and the log-likelihood are sums or sets over the items; the groups are permutations of each other group by group, so that the fits of the groups agree by C176",
"C179":"Model/Testing.lean, Model/ChiTest.lean, Model/ProbPlots.lean; sorting gives the same list for every order, the counts of the bins are counts over the items",
"C180":"Model/FitGlue.lean; the likelihood of the repeated data is the k-th power of the likelihood, the most likely line is unique (C161), the observed information is k times that of the data (C100)",
"C181":"Model/Nonparametric.lean; the sorted table of the repeated data is the sorted table with every row repeated; induction over the blocks of k rows; Greenwood's sum telescopes within a block",
"C78":"root finder as oracle; monotone equations, uniqueness, existence by IVT.",
}
s=open('/verif/tools/design_head.md').read()
s+="\n## 3. Per property: what is modelled and how it is proved\n\n"
s+="Status (proved / partial) and exact theorem names are in MANIFEST.json; `_finding`/`_counterexample`\ntheorems prove that the code violates something.\n\n| id | title | model and method |\n|----|-------|------------------|\n"
last=""
for p in props:
    h=how.get(p['id'])
    if h is None: h=HOW2.get(p['id'],'') if 'HOW2' in globals() else ''
    if not h: h='as above / '+", ".join(a.split('/')[-1] for a in p['anchors'][:2])
    s+=f"| {p['id']} | {p['title']} | {h} |\n"
s+=open('/verif/tools/design_tail.md').read()
open('/verif/DESIGN.md','w').write(s)
