import Verif.Model.RoundString

/-!
# Names and titles of the distributions

Model of `name`, `name2`, `param_title` and `param_title_long` as set by the `__init__` of the eight distributions
(/repo/reliability/Distributions.py; `dec = 4`, line 51). The parameters are finite floats, that is the rational numbers they
represent.
-/

namespace Reliability.Titles

open Reliability.RoundString

/-- A distribution with its parameters in the order of the constructor. -/
inductive Dist where
  | weibull (alpha beta gamma : ℚ)
  | normal (mu sigma : ℚ)
  | lognormal (mu sigma gamma : ℚ)
  | exponential (Lambda gamma : ℚ)
  | gamma (alpha beta gamma : ℚ)
  | beta (alpha beta : ℚ)
  | loglogistic (alpha beta gamma : ℚ)
  | gumbel (mu sigma : ℚ)

/-- `round_and_string(x, dec)` (Distributions.py:51). -/
def num (q : ℚ) : String := roundAndString (.fin q) 4

/-- `self.name` (Distributions.py:101, 1102, 2031, 3010, 3962, 4951, 5677, 6726). -/
def name : Dist → String
  | .weibull .. => "Weibull"
  | .normal .. => "Normal"
  | .lognormal .. => "Lognormal"
  | .exponential .. => "Exponential"
  | .gamma .. => "Gamma"
  | .beta .. => "Beta"
  | .loglogistic .. => "Loglogistic"
  | .gumbel .. => "Gumbel"

/-- `self.name2` (Distributions.py:145, 160, 1103, 2069, 2084, 3043, 3051, 4003, 4018, 4952, 5742, 5757, 6727). -/
def name2 : Dist → String
  | .weibull _ _ g => if g ≠ 0 then "Weibull_3P" else "Weibull_2P"
  | .normal .. => "Normal_2P"
  | .lognormal _ _ g => if g ≠ 0 then "Lognormal_3P" else "Lognormal_2P"
  | .exponential _ g => if g ≠ 0 then "Exponential_2P" else "Exponential_1P"
  | .gamma _ _ g => if g ≠ 0 then "Gamma_3P" else "Gamma_2P"
  | .beta .. => "Beta_2P"
  | .loglogistic _ _ g => if g ≠ 0 then "Loglogistic_3P" else "Loglogistic_2P"
  | .gumbel .. => "Gumbel_2P"

/-- `self.param_title` (Distributions.py:127-135, 147-152, 1119-1124, 2051-2059, 2071-2076, 3029-3035, 3045, 3985-3993,
4005-4010, 4974-4979, 5724-5732, 5744-5749, 6744-6749). -/
def paramTitle : Dist → String
  | .weibull a b g =>
    if g ≠ 0 then "α=" ++ num a ++ ",β=" ++ num b ++ ",γ=" ++ num g else "α=" ++ num a ++ ",β=" ++ num b
  | .normal m s => "μ=" ++ num m ++ ",σ=" ++ num s
  | .lognormal m s g =>
    if g ≠ 0 then "μ=" ++ num m ++ ",σ=" ++ num s ++ ",γ=" ++ num g else "μ=" ++ num m ++ ",σ=" ++ num s
  | .exponential l g => if g ≠ 0 then "λ=" ++ num l ++ ",γ=" ++ num g else "λ=" ++ num l
  | .gamma a b g =>
    if g ≠ 0 then "α=" ++ num a ++ ",β=" ++ num b ++ ",γ=" ++ num g else "α=" ++ num a ++ ",β=" ++ num b
  | .beta a b => "α=" ++ num a ++ ",β=" ++ num b
  | .loglogistic a b g =>
    if g ≠ 0 then "α=" ++ num a ++ ",β=" ++ num b ++ ",γ=" ++ num g else "α=" ++ num a ++ ",β=" ++ num b
  | .gumbel m s => "μ=" ++ num m ++ ",σ=" ++ num s

/-- `self.param_title_long` (Distributions.py:136-144, 153-159, 1125-1131, 2060-2068, 2077-2083, 3036-3042, 3046-3050,
3994-4002, 4011-4017, 4980-4986, 5733-5741, 5750-5756, 6750-6756). The 2-parameter exponential takes `gamma` as passed, the same
number. -/
def paramTitleLong : Dist → String
  | .weibull a b g =>
    if g ≠ 0 then "Weibull Distribution (α=" ++ num a ++ ",β=" ++ num b ++ ",γ=" ++ num g ++ ")"
    else "Weibull Distribution (α=" ++ num a ++ ",β=" ++ num b ++ ")"
  | .normal m s => "Normal Distribution (μ=" ++ num m ++ ",σ=" ++ num s ++ ")"
  | .lognormal m s g =>
    if g ≠ 0 then "Lognormal Distribution (μ=" ++ num m ++ ",σ=" ++ num s ++ ",γ=" ++ num g ++ ")"
    else "Lognormal Distribution (μ=" ++ num m ++ ",σ=" ++ num s ++ ")"
  | .exponential l g =>
    if g ≠ 0 then "Exponential Distribution (λ=" ++ num l ++ ",γ=" ++ num g ++ ")"
    else "Exponential Distribution (λ=" ++ num l ++ ")"
  | .gamma a b g =>
    if g ≠ 0 then "Gamma Distribution (α=" ++ num a ++ ",β=" ++ num b ++ ",γ=" ++ num g ++ ")"
    else "Gamma Distribution (α=" ++ num a ++ ",β=" ++ num b ++ ")"
  | .beta a b => "Beta Distribution (α=" ++ num a ++ ",β=" ++ num b ++ ")"
  | .loglogistic a b g =>
    if g ≠ 0 then "Loglogistic Distribution (α=" ++ num a ++ ",β=" ++ num b ++ ",γ=" ++ num g ++ ")"
    else "Loglogistic Distribution (α=" ++ num a ++ ",β=" ++ num b ++ ")"
  | .gumbel m s => "Gumbel Distribution (μ=" ++ num m ++ ",σ=" ++ num s ++ ")"

end Reliability.Titles
