import Verif.Model.Distributions
import Mathlib.NumberTheory.Harmonic.EulerMascheroni

/-!
# Model of Distributions.py: the descriptive attributes (mean, variance, …, median, b5, b95)

The eight constructors take `mean, var, skew, kurt` from scipy's `stats(..., moments="mvsk")`, except Normal
which writes them down.  scipy is modelled by its documented closed formulas for the standard law
(`std*` below), shifted and scaled as `rv_continuous.stats` does: `mean*scale + loc`, `var*scale**2`, with
skewness and excess kurtosis unchanged.
-/

namespace Reliability.Distributions

/-- What `ss.<family>.stats(..., moments="mvsk")` returns. -/
structure Stats where
  mean : ℝ
  var : ℝ
  skew : ℝ
  kurt : ℝ

/-- `rv_continuous.stats(..., loc, scale)`. -/
noncomputable def Stats.locScale (s : Stats) (loc scale : ℝ) : Stats where
  mean := s.mean * scale + loc
  var := s.var * (scale * scale)
  skew := s.skew
  kurt := s.kurt

/-- The descriptive attributes of a distribution object (`none` for the string "no mean when …"). -/
structure Attrs where
  mean : Option ℝ
  variance : Option ℝ
  standard_deviation : Option ℝ
  skewness : Option ℝ
  kurtosis : Option ℝ
  excess_kurtosis : Option ℝ

/-- Distributions.py:110-118 (Weibull), 2040-2048 (Lognormal), 3018-3026 (Exponential), 3971-3979 (Gamma),
4960-4968 (Beta), 6735-6741 (Gumbel) — the six constructors that copy scipy's `mvsk`. -/
noncomputable def Attrs.ofStats (s : Stats) : Attrs where
  mean := some s.mean
  variance := some s.var
  standard_deviation := some (s.var ^ (0.5:ℝ))
  skewness := some s.skew
  kurtosis := some (s.kurt + 3)
  excess_kurtosis := some s.kurt

/-- scipy's generic `stats` from the raw moments `_munp(n)` of the standard law. -/
noncomputable def Stats.ofRaw (r1 r2 r3 r4 : ℝ) : Stats where
  mean := r1
  var := r2 - r1 * r1
  skew := (r3 - 3 * r1 * r2 + 2 * r1 ^ 3) / (r2 - r1 * r1) ^ (1.5:ℝ)
  kurt := (r4 - 4 * r1 * r3 + 6 * r1 ^ 2 * r2 - 3 * r1 ^ 4) / (r2 - r1 * r1) ^ 2 - 3

/-- `ss.weibull_min(c)`: `_munp(n) = gamma(1 + n/c)`. -/
noncomputable def weibullStats (c : ℝ) : Stats :=
  Stats.ofRaw (Real.Gamma (1 + 1 / c)) (Real.Gamma (1 + 2 / c)) (Real.Gamma (1 + 3 / c))
    (Real.Gamma (1 + 4 / c))

/-- Distributions.py:110-118 — `ss.weibull_min.stats(beta, scale=alpha, loc=gamma)`. -/
noncomputable def weibullAttrs (alpha beta gamma : ℝ) : Attrs :=
  Attrs.ofStats ((weibullStats beta).locScale gamma alpha)

/-- `ss.expon`. -/
def exponStats : Stats := ⟨1, 1, 2, 6⟩

/-- Distributions.py:3018-3026 — `ss.expon.stats(scale=1/Lambda, loc=gamma)`. -/
noncomputable def exponentialAttrs (Lambda gamma : ℝ) : Attrs :=
  Attrs.ofStats (exponStats.locScale gamma (1 / Lambda))

/-- Distributions.py:1111-1116 — Normal. -/
def normalAttrs (mu sigma : ℝ) : Attrs where
  mean := some mu
  variance := some (sigma ^ 2)
  standard_deviation := some sigma
  skewness := some 0
  kurtosis := some 3
  excess_kurtosis := some 0

/-- `ss.lognorm(s)`: with `p = exp(s*s)`, mean `sqrt(p)`, variance `p*(p-1)`,
`sqrt(p-1)*(2+p)`, `p^4 + 2p^3 + 3p^2 - 6`. -/
noncomputable def lognormStats (s : ℝ) : Stats :=
  let p := Real.exp (s * s)
  ⟨Real.sqrt p, p * (p - 1), Real.sqrt (p - 1) * (2 + p), p ^ 4 + 2 * p ^ 3 + 3 * p ^ 2 - 6⟩

/-- Distributions.py:2040-2048 — `ss.lognorm.stats(sigma, gamma, exp(mu))`. -/
noncomputable def lognormalAttrs (mu sigma gamma : ℝ) : Attrs :=
  Attrs.ofStats ((lognormStats sigma).locScale gamma (Real.exp mu))

/-- `ss.gamma(a)`. -/
noncomputable def gammaStats (a : ℝ) : Stats := ⟨a, a, 2 / Real.sqrt a, 6 / a⟩

/-- Distributions.py:3971-3979 — `ss.gamma.stats(beta, scale=alpha, loc=gamma)`. -/
noncomputable def gammaAttrs (alpha beta gamma : ℝ) : Attrs :=
  Attrs.ofStats ((gammaStats beta).locScale gamma alpha)

/-- `ss.beta(a, b)`. -/
noncomputable def betaStats (a b : ℝ) : Stats :=
  ⟨a / (a + b), a * b / ((a + b) ^ 2 * (a + b + 1)),
   2 * (b - a) * Real.sqrt (1 + a + b) / (Real.sqrt (a * b) * (2 + a + b)),
   6 * (a ^ 3 + a ^ 2 * (1 - 2 * b) + b ^ 2 * (1 + b) - 2 * a * b * (2 + b)) /
     (a * b * (a + b + 2) * (a + b + 3))⟩

/-- Distributions.py:4960-4968 — `ss.beta.stats(alpha, beta, 0, 1)`. -/
noncomputable def betaAttrs (alpha beta : ℝ) : Attrs :=
  Attrs.ofStats ((betaStats alpha beta).locScale 0 1)

/-- `sc.beta`. -/
noncomputable def betaFn (a b : ℝ) : ℝ := Real.Gamma a * Real.Gamma b / Real.Gamma (a + b)

/-- `ss.fisk(c)` = `burr(c, 1)`: raw moments `beta(1 + n/c, 1 - n/c)`. -/
noncomputable def fiskStats (c : ℝ) : Stats :=
  Stats.ofRaw (betaFn (1 + 1 / c) (1 - 1 / c)) (betaFn (1 + 2 / c) (1 - 2 / c))
    (betaFn (1 + 3 / c) (1 - 3 / c)) (betaFn (1 + 4 / c) (1 - 4 / c))

/-- Distributions.py:5687-5715 — Loglogistic: each moment is asked for only where it exists. -/
noncomputable def loglogisticAttrs (alpha beta gamma : ℝ) : Attrs :=
  let s := (fiskStats beta).locScale gamma alpha
  { mean := if beta > 1 then some s.mean else none
    variance := if beta > 2 then some s.var else none
    standard_deviation := if beta > 2 then some (s.var ^ (0.5:ℝ)) else none
    skewness := if beta > 3 then some s.skew else none
    kurtosis := if beta > 4 then some (s.kurt + 3) else none
    excess_kurtosis := if beta > 4 then some s.kurt else none }

/-- `ss.gumbel_l`: mean `-euler_gamma`, variance `pi**2/6`.  Skewness and kurtosis
(`-12*sqrt(6)/pi**3*zeta(3)` and `12/5`) are not modelled. -/
noncomputable def gumbelMeanVar : ℝ × ℝ := (-Real.eulerMascheroniConstant, Real.pi ^ 2 / 6)

/-- Distributions.py:6735-6736 — Gumbel `mean`. -/
noncomputable def gumbelMean (mu sigma : ℝ) : ℝ := gumbelMeanVar.1 * sigma + mu

/-- Distributions.py:6738 — Gumbel `variance`. -/
noncomputable def gumbelVariance (sigma : ℝ) : ℝ := gumbelMeanVar.2 * (sigma * sigma)

/-- Distributions.py:6737 — Gumbel `standard_deviation`. -/
noncomputable def gumbelSd (sigma : ℝ) : ℝ := (gumbelVariance sigma) ^ (0.5:ℝ)

/-- `ss.<family>.median(...)`, i.e. `ppf(0.5)` (Distributions.py:119, 2049, 3027, 3980, 4969, 5716). -/
noncomputable def medianOf (d : Dist) : ℝ := d.sp.ppf 0.5

/-- Distributions.py:160-161 and alike: `b5 = ppf(0.05)`. -/
noncomputable def b5Of (d : Dist) : ℝ := d.sp.ppf 0.05

/-- Distributions.py:160-161 and alike: `b95 = ppf(0.95)`. -/
noncomputable def b95Of (d : Dist) : ℝ := d.sp.ppf 0.95

end Reliability.Distributions
