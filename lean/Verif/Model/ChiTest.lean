import Verif.Model.Testing

/-!
# The whole of `chi2test`

Model of /repo/reliability/Reliability_testing.py:961-1090: the checks, the histogram, the resetting of the bins, the number of
parameters and the test.  (The statistic and the verdict from given counts are `Testing.chi2Test`.)  Data and bin edges are
exact finite reals; the edges that numpy chooses for a method are an arbitrary function; printing and the plot are not
modelled.
-/

namespace Reliability.ChiTest

open Reliability.Testing

/-- The values at which the CDF of a distribution can be evaluated (`generate_X_array`, Utils.py:547-575): all numbers (Normal,
Gumbel), numbers that are not negative, numbers between 0 and 1 (Beta). For a DSZI model, those of its base distribution. -/
inductive Support where
  | real
  | nonneg
  | unit

/-- The number of parameters: the `parameters` of a standard distribution, or the number that a special one has. -/
inductive Params where
  | standard (parameters : List ℝ)
  | special (number : ℕ)

/-- What is used of the distribution object. `normalOrGumbel` is its type. -/
structure Dist where
  normalOrGumbel : Bool
  support : Support
  F : ℝ → ℝ
  params : Params

/-- The argument `bins`. -/
inductive Bins where
  | default
  | method (name : String)
  | edges (l : List ℝ)
  | other

/-- `distribution.CDF(xvals=x, show_plot=False)` (Reliability_testing.py:1041, Utils.py:565-575). -/
noncomputable def cdfAt (d : Dist) (x : List ℝ) : Except Err (List ℝ) :=
  match d.support with
  | .real => .ok (x.map d.F)
  | .nonneg => if x.any (fun t => decide (t < 0)) then .error .valueError else .ok (x.map d.F)
  | .unit => if x.any (fun t => decide (t < 0)) then .error .valueError
    else if x.any (fun t => decide (t > 1)) then .error .valueError else .ok (x.map d.F)

/-- The counts of `np.histogram(data, bins=edges)`: every bin has its left edge but not its right one, except for the last. -/
noncomputable def counts (data : List ℝ) : List ℝ → List ℕ
  | [] => []
  | [_] => []
  | [a, b] => [data.countP fun x => decide (a ≤ x ∧ x ≤ b)]
  | a :: b :: c :: l => (data.countP fun x => decide (a ≤ x ∧ x < b)) :: counts data (b :: c :: l)

/-- `np.histogram`: a ValueError for edges that do not ascend; `choose` are the edges numpy chooses for a method (an error for an
unknown one). -/
noncomputable def histogram (choose : String → List ℝ → Except Err (List ℝ)) (data : List ℝ) : Bins → Except Err (List ℕ × List ℝ)
  | .default => do
    let e ← choose "auto" data
    .ok (counts data e, e)
  | .method s => do
    let e ← choose s data
    .ok (counts data e, e)
  | .edges e =>
    if (List.zipWith (fun a b => decide (a > b)) e e.tail).any id then .error .valueError else .ok (counts data e, e)
  | .other => .error .valueError

/-- The number of parameters `k` (Reliability_testing.py:1046-1060). -/
noncomputable def numParams : Params → ℕ
  | .standard p => if p.getLast? = some 0 then p.length - 1 else p.length
  | .special n => n

/-- What the object has: the edges, and the statistic, critical value and hypothesis. -/
structure Result where
  bin_edges : List ℝ
  test : ChiSq

/-- `chi2test` (Reliability_testing.py:988-1090), for a distribution object and data that are a list or an array.  The TypeError
is that of `str + array` in line 1039. -/
noncomputable def chi2test (chi2ppf : ℝ → ℕ → ℝ) (choose : String → List ℝ → Except Err (List ℝ)) (d : Dist) (data : List ℝ)
    (significance : ℝ) (bins : Bins) : Except Err Result := do
  if data = [] then .error .valueError
  else if data.any (fun x => decide (x < 0)) && !d.normalOrGumbel then .error .valueError
  else if significance ≤ 0 ∨ significance > 1 / 2 then .error .valueError
  else do
    let h ← histogram choose data bins
    let h ← (if h.1.sum ≠ data.length then histogram choose data (.method "auto") else .ok h)
    if h.2.all (fun t => decide (t < 0)) && !d.normalOrGumbel then .error .typeError
    else do
      let cdf ← cdfAt d h.2
      let t ← chi2Test chi2ppf (h.1.map (Nat.cast : ℕ → ℝ)) cdf data.length (numParams d.params) significance
      .ok ⟨h.2, t⟩

end Reliability.ChiTest
