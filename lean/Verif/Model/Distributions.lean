import Mathlib.Analysis.SpecialFunctions.Pow.Real
import Mathlib.Analysis.SpecialFunctions.Log.Basic
import Mathlib.Analysis.SpecialFunctions.Gamma.Basic
import Mathlib.Analysis.SpecialFunctions.Gaussian.GaussianIntegral
import Mathlib.MeasureTheory.Integral.Bochner.Set
import Verif.Model.Basic
import Verif.Model.Ext

/-!
# Model of Distributions.py: the eight probability distributions

Exact real arithmetic.  scipy's `pdf/cdf/sf/ppf/isf` are modelled by their documented formulas (weibull_min,
expon, fisk, gumbel_l, lognorm in terms of norm); for norm, gamma and beta by the integrals of the density
and their generalised inverses.  Parameters are assumed numeric
(`float(alpha)`), as the code does not check their sign.
-/

namespace Reliability.Distributions

open Reliability

/-- The families of /repo/reliability/Distributions.py (`self.name`). -/
inductive Fam where
  | weibull | normal | lognormal | exponential | gamma | beta | loglogistic | gumbel
deriving DecidableEq

/-- scipy's functions of one family with fixed parameters; `ppf` and `isf` on `(0,1)`. -/
structure Scipy where
  pdf : ℝ → ℝ
  cdf : ℝ → ℝ
  sf : ℝ → ℝ
  ppf : ℝ → ℝ
  isf : ℝ → ℝ

/-- scipy's `rv_continuous` with `loc` and `scale`: `pdf(x) = pdf_std((x-loc)/scale)/scale`,
`cdf(x) = cdf_std((x-loc)/scale)`, `ppf(q) = ppf_std(q)*scale + loc`. -/
noncomputable def locScale (s : Scipy) (loc scale : ℝ) : Scipy where
  pdf x := s.pdf ((x - loc) / scale) / scale
  cdf x := s.cdf ((x - loc) / scale)
  sf x := s.sf ((x - loc) / scale)
  ppf q := s.ppf q * scale + loc
  isf q := s.isf q * scale + loc

/-- scipy's families without elementary distribution function (norm, gamma, beta): `cdf` and `sf` are the
integrals of the density (in scipy special functions evaluate them), `ppf` and `isf` their generalised
inverses. -/
noncomputable def ofDensity (f : ℝ → ℝ) : Scipy where
  pdf := f
  cdf x := ∫ t in Set.Iic x, f t
  sf x := ∫ t in Set.Ioi x, f t
  ppf q := sInf {x | q ≤ ∫ t in Set.Iic x, f t}
  isf q := sInf {x | ∫ t in Set.Ioi x, f t ≤ q}

/-- A distribution object: scipy's functions, the formulas used by `HF` and `CHF` before zeroising,
the threshold for zeroising (for the families that do) and the ends of the support (`none` if infinite). -/
structure Dist where
  fam : Fam
  sp : Scipy
  hf : ℝ → ℝ
  chf : ℝ → ℝ
  zeroAt : Option ℝ
  lowerEnd : Option ℝ
  upperEnd : Option ℝ

/-- The four families whose `HF` and `CHF` are computed from scipy's density and survival function:
`hf = pdf / sf`, `chf = -log(sf)` (Distributions.py:1688, 1799; 2646, 2762; 4591, 4704; 5381, 5447). -/
noncomputable def ofScipy (fam : Fam) (sp : Scipy) (lowerEnd upperEnd : Option ℝ) : Dist where
  fam := fam
  sp := sp
  hf x := sp.pdf x / sp.sf x
  chf x := -Real.log (sp.sf x)
  zeroAt := none
  lowerEnd := lowerEnd
  upperEnd := upperEnd

/-! ## Weibull -/

/-- `ss.weibull_min(c)`.
(The density at `z = 0` is `inf` in scipy when `c < 1`; no theorem uses that point.) -/
noncomputable def weibullStd (c : ℝ) : Scipy where
  pdf z := if z < 0 then 0 else c * z ^ (c - 1) * Real.exp (-(z ^ c))
  cdf z := if z ≤ 0 then 0 else 1 - Real.exp (-(z ^ c))
  sf z := if z ≤ 0 then 1 else Real.exp (-(z ^ c))
  ppf q := (-Real.log (1 - q)) ^ (1 / c)
  isf q := (-Real.log q) ^ (1 / c)

/-- Distributions.py:100-202, 394 (PDF), 509 (CDF), 646 (SF), 736-739 (HF), 853-854 (CHF), 934, 959. -/
noncomputable def weibull (alpha beta gamma : ℝ) : Dist where
  fam := .weibull
  sp := locScale (weibullStd beta) gamma alpha
  hf x := (beta / alpha) * ((x - gamma) / alpha) ^ (beta - 1)
  chf x := ((x - gamma) / alpha) ^ beta
  zeroAt := some gamma
  lowerEnd := some gamma
  upperEnd := none

/-- Distributions.py:120-126. -/
noncomputable def weibullMode (alpha beta gamma : ℝ) : ℝ :=
  if beta ≥ 1 then alpha * ((beta - 1) / beta) ^ (1 / beta) + gamma else gamma

/-! ## Exponential -/

/-- `ss.expon`. -/
noncomputable def exponStd : Scipy where
  pdf z := if z < 0 then 0 else Real.exp (-z)
  cdf z := if z ≤ 0 then 0 else 1 - Real.exp (-z)
  sf z := if z ≤ 0 then 1 else Real.exp (-z)
  ppf q := -Real.log (1 - q)
  isf q := -Real.log q

/-- Distributions.py:3009-3080, 3266 (PDF), 3382 (CDF), 3517 (SF), 3603-3604 (HF), 3720-3721 (CHF),
3796, 3821; scipy is called with `scale=1/Lambda, loc=gamma`. -/
noncomputable def exponential (Lambda gamma : ℝ) : Dist where
  fam := .exponential
  sp := locScale exponStd gamma (1 / Lambda)
  hf _ := 1 * Lambda
  chf x := (x - gamma) * Lambda
  zeroAt := some gamma
  lowerEnd := some gamma
  upperEnd := none

/-- Distributions.py:3028. -/
def exponentialMode (gamma : ℝ) : ℝ := gamma

/-! ## Loglogistic -/

/-- `ss.fisk(c)`. -/
noncomputable def fiskStd (c : ℝ) : Scipy where
  pdf z := if z < 0 then 0 else c * z ^ (c - 1) / (1 + z ^ c) ^ 2
  cdf z := if z ≤ 0 then 0 else 1 / (1 + z ^ (-c))
  sf z := if z ≤ 0 then 1 else 1 / (1 + z ^ c)
  ppf q := (1 / q - 1) ^ (-1 / c)
  isf q := (1 / q - 1) ^ (1 / c)

/-- Distributions.py:5676-5800, 6019 (PDF), 6133 (CDF), 6270 (SF), 6358-6362 (HF), 6477-6478 (CHF), 6558,
6583. -/
noncomputable def loglogistic (alpha beta gamma : ℝ) : Dist where
  fam := .loglogistic
  sp := locScale (fiskStd beta) gamma alpha
  hf x := ((beta / alpha) * ((x - gamma) / alpha) ^ (beta - 1)) / (1 + ((x - gamma) / alpha) ^ beta)
  chf x := Real.log (1 + ((x - gamma) / alpha) ^ beta)
  zeroAt := some gamma
  lowerEnd := some gamma
  upperEnd := none

/-- Distributions.py:5717-5723. -/
noncomputable def loglogisticMode (alpha beta gamma : ℝ) : ℝ :=
  if beta ≥ 1 then alpha * ((beta - 1) / (beta + 1)) ^ (1 / beta) + gamma else gamma

/-! ## Gumbel -/

/-- `ss.gumbel_l`. -/
noncomputable def gumbelStd : Scipy where
  pdf z := Real.exp (z - Real.exp z)
  cdf z := 1 - Real.exp (-Real.exp z)
  sf z := Real.exp (-Real.exp z)
  ppf q := Real.log (-Real.log (1 - q))
  isf q := Real.log (-Real.log q)

/-- Distributions.py:6725-6800, 6979 (PDF), 7093 (CDF), 7227 (SF), 7314 (HF), 7425 (CHF), 7501, 7526. -/
noncomputable def gumbel (mu sigma : ℝ) : Dist where
  fam := .gumbel
  sp := locScale gumbelStd mu sigma
  hf x := Real.exp ((x - mu) / sigma) / sigma
  chf x := Real.exp ((x - mu) / sigma)
  zeroAt := none
  lowerEnd := none
  upperEnd := none

/-- Distributions.py:6743. -/
def gumbelMode (mu : ℝ) : ℝ := mu

/-- Distributions.py:6742. -/
noncomputable def gumbelMedian (mu sigma : ℝ) : ℝ := mu + sigma * Real.log (Real.log 2)

/-! ## Normal -/

/-- The density of `ss.norm`. -/
noncomputable def normStdPdf (z : ℝ) : ℝ := Real.exp (-(z ^ 2) / 2) / Real.sqrt (2 * Real.pi)

/-- `ss.norm`. -/
noncomputable def normStd : Scipy := ofDensity normStdPdf

/-- Distributions.py:1104-1180, 1353 (PDF), 1465 (CDF), 1600 (SF), 1688 (HF), 1799 (CHF). -/
noncomputable def normal (mu sigma : ℝ) : Dist :=
  ofScipy .normal (locScale normStd mu sigma) none none

/-- Distributions.py:1118. -/
def normalMode (mu : ℝ) : ℝ := mu

/-- Distributions.py:1117. -/
def normalMedian (mu : ℝ) : ℝ := mu

/-! ## Lognormal -/

/-- `ss.lognorm(s)`: scipy evaluates it through `norm` at `log(z)/s`. -/
noncomputable def lognormStd (s : ℝ) : Scipy where
  pdf z := if z ≤ 0 then 0 else normStdPdf (Real.log z / s) / (s * z)
  cdf z := if z ≤ 0 then 0 else normStd.cdf (Real.log z / s)
  sf z := if z ≤ 0 then 1 else normStd.sf (Real.log z / s)
  ppf q := Real.exp (s * normStd.ppf q)
  isf q := Real.exp (s * normStd.isf q)

/-- Distributions.py:2030-2140, 2311 (PDF), 2646 (HF), 2762 (CHF); scipy is called with `s=sigma`,
`loc=gamma`, `scale=exp(mu)`. -/
noncomputable def lognormal (mu sigma gamma : ℝ) : Dist :=
  ofScipy .lognormal (locScale (lognormStd sigma) gamma (Real.exp mu)) (some gamma) none

/-- Distributions.py:2050. -/
noncomputable def lognormalMode (mu sigma gamma : ℝ) : ℝ := Real.exp (mu - sigma ^ 2) + gamma

/-! ## Gamma -/

/-- The density of `ss.gamma(a)`. -/
noncomputable def gammaStdPdf (a z : ℝ) : ℝ :=
  if z < 0 then 0 else z ^ (a - 1) * Real.exp (-z) / Real.Gamma a

/-- Distributions.py:3960-4070, 4255 (PDF), 4591 (HF), 4704 (CHF); scipy is called with `a=beta`,
`scale=alpha`, `loc=gamma`. -/
noncomputable def gammaDist (alpha beta gamma : ℝ) : Dist :=
  ofScipy .gamma (locScale (ofDensity (gammaStdPdf beta)) gamma alpha) (some gamma) none

/-- Distributions.py:3981-3984. -/
noncomputable def gammaMode (alpha beta gamma : ℝ) : ℝ :=
  if beta ≥ 1 then (beta - 1) * alpha + gamma else gamma

/-! ## Beta -/

/-- The density of `ss.beta(alpha, beta)`; the beta function is `Γ(a)Γ(b)/Γ(a+b)`. -/
noncomputable def betaStdPdf (alpha beta x : ℝ) : ℝ :=
  if x < 0 ∨ 1 < x then 0
  else x ^ (alpha - 1) * (1 - x) ^ (beta - 1) /
    (Real.Gamma alpha * Real.Gamma beta / Real.Gamma (alpha + beta))

/-- Distributions.py:4945-5050, 5183 (PDF), 5381 (HF), 5447 (CHF); scipy is called with `loc=0, scale=1`. -/
noncomputable def betaDist (alpha beta : ℝ) : Dist :=
  ofScipy .beta (locScale (ofDensity (betaStdPdf alpha beta)) 0 1) (some 0) (some 1)

/-- Distributions.py:4970-4973; `none` is the string "No mode exists …". -/
noncomputable def betaMode (alpha beta : ℝ) : Option ℝ :=
  if alpha > 1 ∧ beta > 1 then some ((alpha - 1) / (beta + alpha - 2)) else none

/-! ## The array interface -/

/-- Utils.py:815-820 — `zeroise_below_gamma(X, Y, gamma)`. -/
noncomputable def zeroise (X Y : List ℝ) (gamma : ℝ) : List ℝ :=
  if gamma > 0 then
    match X.findIdx? (fun x => decide (gamma < x)) with
    | none => Y.map fun _ => 0
    | some k => Y.mapIdx fun i y => if i < k then 0 else y
  else Y

/-- Utils.py:543-574 (from `generate_X_array`, called by `distributions_input_checking`) — the check on a
list of xvals: `min` of an empty array raises ValueError too. -/
noncomputable def checkX (fam : Fam) (X : List ℝ) : Except Err Unit :=
  match X.min?, X.max? with
  | some lo, some hi =>
    if lo < 0 ∧ fam ≠ .normal ∧ fam ≠ .gumbel then valueErr
    else if hi > 1 ∧ fam = .beta then valueErr
    else .ok ()
  | _, _ => valueErr

/-- `dist.PDF(xvals=[...], show_plot=False)` (Distributions.py:390-395 and alike). -/
noncomputable def PDF (d : Dist) (X : List ℝ) : Except Err (List ℝ) :=
  match checkX d.fam X with | .error e => .error e | .ok _ => .ok (X.map d.sp.pdf)

/-- `dist.CDF(xvals=[...], show_plot=False)` (Distributions.py:493-510 and alike). -/
noncomputable def CDF (d : Dist) (X : List ℝ) : Except Err (List ℝ) :=
  match checkX d.fam X with | .error e => .error e | .ok _ => .ok (X.map d.sp.cdf)

/-- `dist.SF(xvals=[...], show_plot=False)` (Distributions.py:630-647 and alike). -/
noncomputable def SF (d : Dist) (X : List ℝ) : Except Err (List ℝ) :=
  match checkX d.fam X with | .error e => .error e | .ok _ => .ok (X.map d.sp.sf)

/-- `dist.HF(xvals=[...], show_plot=False)` (Distributions.py:732-740 and alike). -/
noncomputable def HF (d : Dist) (X : List ℝ) : Except Err (List ℝ) :=
  match checkX d.fam X with
  | .error e => .error e
  | .ok _ => .ok (match d.zeroAt with
    | some g => zeroise X (X.map d.hf) g
    | none => X.map d.hf)

/-- `dist.CHF(xvals=[...], show_plot=False)` (Distributions.py:837-855 and alike). -/
noncomputable def CHF (d : Dist) (X : List ℝ) : Except Err (List ℝ) :=
  match checkX d.fam X with
  | .error e => .error e
  | .ok _ => .ok (match d.zeroAt with
    | some g => zeroise X (X.map d.chf) g
    | none => X.map d.chf)

/-- `dist.HF(xvals=x)` for a Python int/float: `distributions_input_checking` uses it as it is
(Utils.py:7152-7158), and `zeroise_below_gamma` then assigns to a slice of a float, which raises
TypeError when `gamma > 0`. -/
noncomputable def HFscalar (d : Dist) (x : ℝ) : Except Err ℝ :=
  match d.zeroAt with
  | some g => if g > 0 then .error .typeError else .ok (d.hf x)
  | none => .ok (d.hf x)

/-- `dist.CHF(xvals=x)` for a Python int/float. -/
noncomputable def CHFscalar (d : Dist) (x : ℝ) : Except Err ℝ :=
  match d.zeroAt with
  | some g => if g > 0 then .error .typeError else .ok (d.chf x)
  | none => .ok (d.chf x)

/-- `dist.CDF(xvals=x)`, `dist.SF(xvals=x)` for a Python int/float: no check at all. -/
noncomputable def CDFscalar (d : Dist) (x : ℝ) : Except Err ℝ := .ok (d.sp.cdf x)

/-- see `CDFscalar` -/
noncomputable def SFscalar (d : Dist) (x : ℝ) : Except Err ℝ := .ok (d.sp.sf x)

/-- The lower end of the support as a float. -/
noncomputable def lowE (d : Dist) : Ext ℝ := match d.lowerEnd with | some x => .fin x | none => .ninf

/-- The upper end of the support as a float. -/
noncomputable def uppE (d : Dist) : Ext ℝ := match d.upperEnd with | some x => .fin x | none => .pinf

/-- scipy's `ppf` including the end points. -/
noncomputable def ppfE (d : Dist) (q : ℝ) : Ext ℝ :=
  if q = 0 then lowE d else if q = 1 then uppE d else .fin (d.sp.ppf q)

/-- scipy's `isf` including the end points. -/
noncomputable def isfE (d : Dist) (q : ℝ) : Ext ℝ :=
  if q = 1 then lowE d else if q = 0 then uppE d else .fin (d.sp.isf q)

/-- The range check shared by `quantile` and `inverse_SF` on a list (Distributions.py:929-931). -/
noncomputable def checkQ (qs : List ℝ) : Except Err Unit :=
  match qs.min?, qs.max? with
  | some lo, some hi => if lo < 0 ∨ hi > 1 then valueErr else .ok ()
  | _, _ => valueErr

/-- Distributions.py:911-935 — `quantile` (a scalar is a list of one). -/
noncomputable def quantile (d : Dist) (qs : List ℝ) : Except Err (List (Ext ℝ)) :=
  match checkQ qs with | .error e => .error e | .ok _ => .ok (qs.map (ppfE d))

/-- Distributions.py:937-960 — `inverse_SF`. -/
noncomputable def inverseSF (d : Dist) (qs : List ℝ) : Except Err (List (Ext ℝ)) :=
  match checkQ qs with | .error e => .error e | .ok _ => .ok (qs.map (isfE d))

/-- Distributions.py:962-980 — `mean_residual_life(t)`: `quad(R, t, inf) / R(t)`, the quadrature being
exact. -/
noncomputable def meanResidualLife (d : Dist) (t : ℝ) : ℝ := (∫ x in Set.Ioi t, d.sp.sf x) / d.sp.sf t

end Reliability.Distributions
