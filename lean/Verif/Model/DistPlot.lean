import Verif.Model.Distributions
import Verif.Model.AxesLimits
import Verif.Model.Explorer

/-!
# Model of `plot()` of the eight distributions (Distributions.py)

The method draws its own five curves (it does not call `PDF`, `CDF`, `SF`, `HF`, `CHF`) on five new axes and writes nine lines of
descriptive statistics on a sixth. What scipy returns is as in `Verif/Model/Distributions.lean`. The values of the curves are
reals: infinite values (a density at the end of its support) are not represented. Fonts and the arrangement are left out.
-/

namespace Reliability.DistPlot

open Reliability Reliability.Explorer

/-- The object: scipy's functions with the arguments that the methods pass. -/
noncomputable def objectOf : Made → Distributions.Dist
  | .weibull alpha beta gamma => Distributions.weibull alpha beta gamma
  | .normal mu sigma => Distributions.normal mu sigma
  | .lognormal mu sigma gamma => Distributions.lognormal mu sigma gamma
  | .exponential Lambda gamma => Distributions.exponential Lambda gamma
  | .gamma alpha beta gamma => Distributions.gammaDist alpha beta gamma
  | .beta alpha beta => Distributions.betaDist alpha beta
  | .loglogistic alpha beta gamma => Distributions.loglogistic alpha beta gamma
  | .gumbel mu sigma => Distributions.gumbel mu sigma

/-- The five curves of a figure. -/
structure Curves where
  pdf : List ℝ
  cdf : List ℝ
  sf : List ℝ
  hf : List ℝ
  chf : List ℝ

/-- `hf = pdf / sf; chf = -np.log(sf)` (Distributions.py:1201-1205 Normal, 2160-2164 Lognormal, 4104-4108 Gamma, 5029-5033
Beta). -/
noncomputable def quotientCurves (sp : Distributions.Scipy) (X : List ℝ) : Curves :=
  let pdf := X.map sp.pdf
  let cdf := X.map sp.cdf
  let sf := X.map sp.sf
  { pdf := pdf, cdf := cdf, sf := sf, hf := List.zipWith (fun a b => a / b) pdf sf, chf := sf.map fun s => -Real.log s }

/-- The curves with formulas for `hf` and `chf` of their own. -/
noncomputable def formulaCurves (sp : Distributions.Scipy) (X hf chf : List ℝ) : Curves :=
  { pdf := X.map sp.pdf, cdf := X.map sp.cdf, sf := X.map sp.sf, hf := hf, chf := chf }

/-- Distributions.py:240-248 Weibull, 1201-1205 Normal, 2160-2164 Lognormal, 3112-3118 Exponential, 4104-4108 Gamma,
5029-5033 Beta, 5830-5839 Loglogistic, 6826-6830 Gumbel. -/
noncomputable def curves (m : Made) (X : List ℝ) : Curves :=
  match m with
  | .weibull alpha beta gamma =>
    formulaCurves (objectOf m).sp X
      (Distributions.zeroise X (X.map fun x => beta / alpha * ((x - gamma) / alpha) ^ (beta - 1)) gamma)
      (Distributions.zeroise X (X.map fun x => ((x - gamma) / alpha) ^ beta) gamma)
  | .exponential Lambda gamma =>
    formulaCurves (objectOf m).sp X
      (Distributions.zeroise X (X.map fun _ => 1 * Lambda) gamma)
      (Distributions.zeroise X (X.map fun x => (x - gamma) * Lambda) gamma)
  | .loglogistic alpha beta gamma =>
    formulaCurves (objectOf m).sp X
      (Distributions.zeroise X
        (X.map fun x => (beta / alpha * ((x - gamma) / alpha) ^ (beta - 1)) / (1 + ((x - gamma) / alpha) ^ beta)) gamma)
      (Distributions.zeroise X (X.map fun x => Real.log (1 + ((x - gamma) / alpha) ^ beta)) gamma)
  | .gumbel mu sigma =>
    formulaCurves (objectOf m).sp X
      (X.map fun x => Real.exp ((x - mu) / sigma) / sigma)
      (X.map fun x => Real.exp ((x - mu) / sigma))
  | .normal _ _ => quotientCurves (objectOf m).sp X
  | .lognormal _ _ _ => quotientCurves (objectOf m).sp X
  | .gamma _ _ _ => quotientCurves (objectOf m).sp X
  | .beta _ _ => quotientCurves (objectOf m).sp X

/-- An attribute: a number, or a message why there is none (Distributions.py:4967, 5689-5713). -/
inductive Attr where
  | num (v : ℝ)
  | msg (s : String)

/-- The attributes that are written. -/
structure Attrs where
  mean : Attr
  median : Attr
  mode : Attr
  b5 : Attr
  b95 : Attr
  standard_deviation : Attr
  variance : Attr
  skewness : Attr
  excess_kurtosis : Attr

/-- `round_and_string(attribute, dec)` where the code does not check for a message: `round` of a string is a TypeError. `fmt` is
the formatting of a number (property C125). -/
def plain (fmt : ℝ → String) : Attr → Except Err String
  | .num v => .ok (fmt v)
  | .msg _ => .error .typeError

/-- With the check for a message (Distributions.py:5115-5118, 5926-5963). -/
def checked (fmt : ℝ → String) : Attr → Except Err String
  | .num v => .ok (fmt v)
  | .msg s => .ok s

/-- The text of a moment: only `Loglogistic_Distribution.plot` checks for a message (Distributions.py:5926-5963). -/
def momentText (fmt : ℝ → String) : Made → Attr → Except Err String
  | .loglogistic _ _ _, a => checked fmt a
  | _, a => plain fmt a

/-- The text of the mode: only `Beta_Distribution.plot` checks for a message (Distributions.py:5115-5118). -/
def modeText (fmt : ℝ → String) : Made → Attr → Except Err String
  | .beta _ _, a => checked fmt a
  | _, a => plain fmt a

/-- The nine lines (Distributions.py:320-351 and alike; Beta 5113-5140; Loglogistic 5921-5975). -/
def texts (fmt : ℝ → String) (m : Made) (a : Attrs) : Except Err (List String) := do
  let mean ← momentText fmt m a.mean
  let median ← plain fmt a.median
  let mode ← modeText fmt m a.mode
  let b5 ← plain fmt a.b5
  let b95 ← plain fmt a.b95
  let std ← momentText fmt m a.standard_deviation
  let var ← momentText fmt m a.variance
  let skew ← momentText fmt m a.skewness
  let kurt ← momentText fmt m a.excess_kurtosis
  .ok ["Mean = " ++ mean, "Median = " ++ median, "Mode = " ++ mode, "$5^{th}$ quantile = " ++ b5, "$95^{th}$ quantile = " ++ b95,
    "Standard deviation = " ++ std, "Variance = " ++ var, "Skewness = " ++ skew, "Excess kurtosis = " ++ kurt]

/-- One of the five plots. -/
structure Panel where
  title : String
  X : List ℝ
  Y : List ℝ
  axes : AxesLimits.Axes

/-- The x-values: a single number (which `distributions_input_checking` uses as it is), or `X` is what `generate_X_array` makes
of `xvals`, `xmin`, `xmax`. -/
inductive XArg where
  | scalar (x : ℝ)
  | array (X : List ℝ) (xvals : Option (List ℝ)) (xmin xmax : Option ℝ)

/-- `plt.subplot; plt.plot(X, Y); restore_axes_limits([(0, 1), (0, 1), False], ...)` (Distributions.py:254-265 and alike): `a` are the
new axes, and their limits after drawing. -/
noncomputable def panel (a : AxesLimits.Axes) (d : AxesLimits.Dist) (drawn : (ℝ × ℝ) × (ℝ × ℝ)) (title func : String) (X Y : List ℝ)
    (xvals : Option (List ℝ)) (xmin xmax : Option ℝ) : Except Err Panel := do
  let b ← AxesLimits.restoreAxesLimits ⟨(0, 1), (0, 1), false⟩ { a with xlim := drawn.1, ylim := drawn.2 } d func X (Y.map Real.toEReal)
    xvals xmin xmax
  .ok ⟨title, X, Y, b⟩

/-- The figure. -/
structure Figure where
  panels : List Panel
  texts : List String

/-- `dist.plot(xvals, xmin, xmax)` (Distributions.py:204-356 and alike). `drawn func` are the limits matplotlib sets when the curve is
drawn. -/
noncomputable def plot (fmt : ℝ → String) (a : AxesLimits.Axes) (d : AxesLimits.Dist) (drawn : String → (ℝ × ℝ) × (ℝ × ℝ)) (m : Made) (attrs : Attrs)
    (x : XArg) : Except Err Figure :=
  match x with
  | .scalar _ => .error .typeError
  | .array X xvals xmin xmax => do
    let c := curves m X
    let p1 ← panel a d (drawn "PDF") "Probability Density\nFunction" "PDF" X c.pdf xvals xmin xmax
    let p2 ← panel a d (drawn "CDF") "Cumulative Distribution\nFunction" "CDF" X c.cdf xvals xmin xmax
    let p3 ← panel a d (drawn "SF") "Survival Function" "SF" X c.sf xvals xmin xmax
    let p4 ← panel a d (drawn "HF") "Hazard Function" "HF" X c.hf xvals xmin xmax
    let p5 ← panel a d (drawn "CHF") "Cumulative Hazard\nFunction" "CHF" X c.chf xvals xmin xmax
    let t ← texts fmt m attrs
    .ok ⟨[p1, p2, p3, p4, p5], t⟩

end Reliability.DistPlot
