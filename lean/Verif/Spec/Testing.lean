import Mathlib.Analysis.SpecialFunctions.Pow.Real
import Mathlib.Algebra.BigOperators.Intervals
import Mathlib.Data.Nat.Choose.Basic

/-!
# Specifications for Reliability_testing (independent of the model)
-/

namespace Reliability.Spec

/-- Probability that at least one of `n` independent items fails within `L` lifetimes when each survives
one lifetime with probability `R` under Weibull ageing with shape `β`: the confidence demonstrated by a
test of `n` items without failures. -/
noncomputable def demonstrated (R L β n : ℝ) : ℝ := 1 - R ^ (n * L ^ β)

/-- Probability of at least `s` successes in `n` independent trials with success probability `p`. -/
noncomputable def binomGE (n s : ℕ) (p : ℝ) : ℝ :=
  ∑ k ∈ Finset.Icc s n, (n.choose k : ℝ) * p ^ k * (1 - p) ^ (n - k)

/-- Probability of at most `s` successes in `n` independent trials with success probability `p`. -/
noncomputable def binomLE (n s : ℕ) (p : ℝ) : ℝ :=
  ∑ k ∈ Finset.range (s + 1), (n.choose k : ℝ) * p ^ k * (1 - p) ^ (n - k)

/-- Likelihood ratio of `k` failures in `x` Bernoulli trials, `p2` against `p1`. -/
noncomputable def likelihoodRatio (p1 p2 : ℝ) (x k : Nat) : ℝ :=
  (p2 ^ k * (1 - p2) ^ (x - k)) / (p1 ^ k * (1 - p1) ^ (x - k))

/-- Empirical CDF: the fraction of observations `≤ x`. -/
noncomputable def ecdf (data : List ℝ) (x : ℝ) : ℝ :=
  (data.countP (fun d => decide (d ≤ x)) : ℝ) / (data.length : ℝ)

/-- Its left limit: the fraction of observations `< x`. -/
noncomputable def ecdfLeft (data : List ℝ) (x : ℝ) : ℝ :=
  (data.countP (fun d => decide (d < x)) : ℝ) / (data.length : ℝ)

/-- Expected counts per bin: the sample size times the share of the probability of the binned
range that falls into the bin. -/
noncomputable def expectedCounts (F : ℝ → ℝ) (n lo hi : ℝ) : List ℝ → List ℝ
  | a :: b :: edges => n * ((F b - F a) / (F hi - F lo)) :: expectedCounts F n lo hi (b :: edges)
  | _ => []

end Reliability.Spec
