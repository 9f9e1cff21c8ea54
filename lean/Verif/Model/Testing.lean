import Mathlib.Analysis.SpecialFunctions.Pow.Real
import Mathlib.Analysis.SpecialFunctions.Log.Basic
import Mathlib.Analysis.Real.Sqrt
import Mathlib.Algebra.Order.Floor.Ring
import Verif.Model.Basic
import Verif.Model.Ext
import Verif.Model.NumPy

/-!
# Model of Reliability_testing.py (all but `likelihood_plot`, which is in Model/LikelihoodPlot.lean)

Exact real arithmetic.  scipy's quantile and distribution functions are parameters.  Printing and
plotting are not modelled.
-/

namespace Reliability.Testing

open Reliability

/-! ## one_sample_proportion (Reliability_testing.py:60-136) -/

/-- A Python number that is or is not of type `int`. -/
inductive PyNum where
  | int (n : ℤ)
  | float (x : ℝ)

/-- its value -/
def PyNum.val : PyNum → ℝ
  | .int n => n
  | .float x => x

/-- `np.nan_to_num(x, nan=d)` on a value that is finite or nan; scipy's F quantile gives `inf` only for
probability 1, for which `inf/inf` is nan. -/
def nanTo (d : ℝ) : Ext ℝ → ℝ
  | .fin x => x
  | .nan => d
  | .pinf => 0   -- not reachable: the quotients below are finite or nan
  | .ninf => 0

/-- Reliability_testing.py:103-104, 112-113 — `(V1 * F) / (V2 + V1 * F)`. -/
noncomputable def ratio (V1 V2 : ℤ) (F : Ext ℝ) : Ext ℝ :=
  match F with
  | .fin f => Ext.divFin ((V1 : ℝ) * f) ((V2 : ℝ) + (V1 : ℝ) * f)
  | _ => .nan

/-- Reliability_testing.py:84-136 — `one_sample_proportion(trials, successes, CI)`; `fppf q d1 d2` is
`ss.f.ppf` (nan unless both degrees of freedom are positive and `0 ≤ q ≤ 1`). -/
noncomputable def oneSampleProportion (fppf : ℝ → ℤ → ℤ → Ext ℝ) (trials successes : Option PyNum) (CI : ℝ) :
    Except Err (ℝ × ℝ) :=
  match trials, successes with
  | some t, some s =>
    if s.val > t.val then valueErr
    else
      let n : ℝ := if s.val = 0 ∨ s.val = t.val then 1 else 2
      match t, s with
      | .int trials, .int successes =>
        let V1_lower := 2 * successes
        let V2_lower := 2 * (trials - successes + 1)
        let alpha_lower := (1 - CI) / n
        let LOWER := nanTo 0 (ratio V1_lower V2_lower (fppf alpha_lower V1_lower V2_lower))
        let V1_upper := 2 * (successes + 1)
        let V2_upper := 2 * (trials - successes)
        let alpha_upper := 1 - alpha_lower
        let UPPER := nanTo 1 (ratio V1_upper V2_upper (fppf alpha_upper V1_upper V2_upper))
        .ok (LOWER, UPPER)
      | _, _ => valueErr
  | _, _ => valueErr

/-! ## two_proportion_test (Reliability_testing.py:139-238) -/

/-- Result of `two_proportion_test`. -/
structure TwoProp where
  lower : ℝ
  upper : ℝ
  significant : Bool

/-- Reliability_testing.py:178-204.  A trial count of zero divides by zero; a negative variance makes
`** 0.5` complex, and the comparison raises TypeError. -/
noncomputable def twoProportionTest (ppf : ℝ → ℝ) (t1 s1 t2 s2 : Option ℝ) (CI : ℝ) : Except Err TwoProp :=
  if CI < 1 / 2 ∨ CI ≥ 1 then valueErr
  else match t1, s1, t2, s2 with
  | some t1, some s1, some t2, some s2 =>
    if s1 > t1 ∨ s2 > t2 then valueErr
    else if t1 = 0 ∨ t2 = 0 then .error .zeroDivision
    else
      let p1 := s1 / t1
      let p2 := s2 / t2
      let diff := p1 - p2
      let Z := ppf (1 - ((1 - CI) / 2))
      let var := (p1 * (1 - p1) / t1) + (p2 * (1 - p2) / t2)
      if var < 0 then .error .typeError
      else
        let k := Z * Real.sqrt var
        let lower := diff - k
        let upper := diff + k
        .ok ⟨lower, upper, !(decide (lower < 0) && decide (upper > 0))⟩
  | _, _, _, _ => valueErr

/-! ## sample_size_no_failures (Reliability_testing.py:241-328) -/

/-- Reliability_testing.py:275-294. -/
noncomputable def sampleSizeNoFailures (reliability CI lifetimes weibull_shape : ℝ) : Except Err ℤ :=
  if CI < 1 / 2 ∨ CI ≥ 1 then valueErr
  else if reliability ≤ 0 ∨ reliability ≥ 1 then valueErr
  else if weibull_shape < 0 then valueErr
  else if lifetimes ≤ 0 then valueErr
  else .ok ⌈Real.log (1 - CI) / (lifetimes ^ weibull_shape * Real.log reliability)⌉

/-! ## sequential_sampling_chart (Reliability_testing.py:331-452) -/

/-- One row of the decision table; `none` is `"x"`. -/
structure SeqRow where
  samples : Nat
  accept : Option ℤ
  reject : Option ℤ

/-- `df.loc[col < 0] = "x"` (Reliability_testing.py:451-452). -/
def orX (v : ℤ) : Option ℤ := if v < 0 then none else some v

/-- Reliability_testing.py:410-452 — the row for `x` samples. -/
noncomputable def seqRow (p1 p2 alpha beta : ℝ) (x : Nat) : SeqRow :=
  let a := 1 - alpha
  let b := 1 - beta
  let d := Real.log (p2 / p1) + Real.log ((1 - p1) / (1 - p2))
  let h1 := Real.log ((1 - a) / b) / d
  let h2 := Real.log ((1 - b) / a) / d
  let s := Real.log ((1 - p1) / (1 - p2)) / d
  let acc := ⌊s * (x : ℝ) + h2⌋
  let rej := ⌈s * (x : ℝ) - h1⌉
  let rej := if rej > (x : ℤ) then -1 else rej
  ⟨x, orX acc, orX rej⟩

/-- Reliability_testing.py:401-452 — `sequential_sampling_chart(p1, p2, alpha, beta, max_samples)`, the
returned table.  (`p1 = p2` makes `d = 0` and numpy yields nan/inf; theorems exclude it.) -/
noncomputable def sequentialSampling (p1 p2 alpha beta : ℝ) (max_samples : Nat) : Except Err (List SeqRow) :=
  if alpha ≤ 0 ∨ alpha ≥ 1 then valueErr
  else if beta ≤ 0 ∨ beta ≥ 1 then valueErr
  else if p1 ≤ 0 ∨ p1 ≥ 1 then valueErr
  else if p2 ≤ 0 ∨ p2 ≥ 1 then valueErr
  else .ok ((List.range (max_samples + 1)).map fun x : Nat => seqRow p1 p2 alpha beta x)

/-! ## reliability_test_planner (Reliability_testing.py:592-720) -/

/-- scipy's chi-squared quantile and distribution function for positive degrees of freedom; with zero
degrees of freedom scipy returns nan. -/
structure Chi2 where
  ppf : ℝ → Nat → ℝ
  cdf : ℝ → Nat → ℝ

/-- `ss.chi2.ppf` -/
noncomputable def Chi2.ppfE (c : Chi2) (q : ℝ) (df : Nat) : Ext ℝ := if df = 0 then .nan else .fin (c.ppf q df)

/-- `ss.chi2.cdf` -/
noncomputable def Chi2.cdfE (c : Chi2) (x : ℝ) (df : Nat) : Ext ℝ := if df = 0 then .nan else .fin (c.cdf x df)

/-- `a / b` with a finite numerator and a denominator that is finite or nan. -/
noncomputable def divE (a : ℝ) : Ext ℝ → Ext ℝ
  | .fin b => Ext.divFin a b
  | _ => .nan

/-- numpy `x < y` for a finite `y`, false on nan. -/
noncomputable def ltE (x : Ext ℝ) (y : ℝ) : Bool :=
  match x with
  | .fin a => decide (a < y)
  | .ninf => true
  | _ => false

/-- What the planner sets: test_duration, MTBF, number_of_failures, CI. -/
structure Plan where
  test_duration : Ext ℝ
  MTBF : Ext ℝ
  number_of_failures : ℤ
  CI : Ext ℝ

/-- Reliability_testing.py:656-668 — the search loop from count `f`, with fuel; `none` is still
searching. -/
noncomputable def failuresLoop (bound : Nat → Ext ℝ) (MTBF : ℝ) : Nat → Nat → Option Nat
  | 0, _ => none
  | fuel + 1, f => if ltE (bound f) MTBF then some f else failuresLoop bound MTBF fuel (f + 1)

/-- Reliability_testing.py:603-719 — the planner with both flags proper booleans, and the number of
failures an integer (a fractional one is rejected like a negative one).  `fuel` bounds the search for
the number of failures; `none` means it has not ended within the fuel. -/
noncomputable def planner (c : Chi2) (MTBF : Option ℝ) (failures : Option ℤ) (CI test_duration : Option ℝ)
    (one_sided time_terminated : Bool) (fuel : Nat) : Option (Except Err Plan) :=
  if CI.any (fun CI => decide (CI < 1 / 2 ∨ CI ≥ 1)) then some valueErr
  else if failures.any (fun f => decide (f < 0)) then some valueErr
  else
    let p : Nat := if time_terminated then 2 else 0
    let adj := fun CI : ℝ => if one_sided then CI else 1 - ((1 - CI) / 2)
    match MTBF, failures, CI, test_duration with
    | none, some f, some CI, some T =>
      some (.ok ⟨.fin T, divE (2 * T) (c.ppfE (adj CI) (2 * f.toNat + p)), f, .fin CI⟩)
    | some M, none, some CI, some T =>
      let bound := fun f : Nat => divE (2 * T) (c.ppfE (adj CI) (2 * f + p))
      match failuresLoop bound M fuel 0 with
      | none => none
      | some f =>
        if ltE (bound 0) M then some valueErr
        else some (.ok ⟨.fin T, .fin M, (f : ℤ) - 1, .fin CI⟩)
    | some M, some f, none, some T =>
      let CI_calc := c.cdfE (T / (M * (1 / 2))) (2 * f.toNat + p)
      let CI' : Ext ℝ := if one_sided then CI_calc
        else Ext.sub (.fin 1) (Ext.mul (.fin 2) (Ext.sub (.fin 1) CI_calc))
      some (.ok ⟨.fin T, .fin M, f, CI'⟩)
    | some M, some f, some CI, none =>
      some (.ok ⟨Ext.mul (c.ppfE (adj CI) (2 * f.toNat + p)) (.fin (M / 2)), .fin M, f, .fin CI⟩)
    | _, _, _, _ => some valueErr

/-! ## reliability_test_duration (Reliability_testing.py:748-905) -/

/-- State of the while loop. -/
structure DurSt where
  durations : List (Ext ℝ)
  failures : Nat
  solution_index : ℤ      -- False is 0
  max_failures : ℚ
  event : Bool

/-- Reliability_testing.py:815-822 — initial values. -/
def DurSt.init : DurSt := ⟨[], 0, 0, 10 ^ 10, false⟩

/-- Reliability_testing.py:823-853 — the loop, `duration f` and `risk f` being what the two planner
calls return for `f` failures; with fuel. -/
noncomputable def durLoop (duration risk : Nat → Ext ℝ) (producer_risk : ℝ) : Nat → DurSt → Option DurSt
  | 0, _ => none
  | fuel + 1, st =>
    let st := { st with durations := st.durations ++ [duration st.failures] }
    let st := if ltE (risk st.failures) producer_risk && !st.event then
        { st with solution_index := (st.failures : ℤ) - 1
                  max_failures := (((st.failures : ℤ) - 1 : ℤ) : ℚ) * (3 / 2), event := true }
      else st
    if (st.failures : ℚ) > st.max_failures then some st
    else durLoop duration risk producer_risk fuel { st with failures := st.failures + 1 }

/-- Python indexing with a possibly negative index. -/
def pyIdx {α : Type _} (l : List α) (k : ℤ) : Option α :=
  if 0 ≤ k then l[k.toNat]? else if 0 ≤ (l.length : ℤ) + k then l[((l.length : ℤ) + k).toNat]? else none

/-- Reliability_testing.py:824-831 — duration from the planner for `f` failures. -/
noncomputable def durationOf (c : Chi2) (MTBF_required consumer_risk : ℝ) (one_sided time_terminated : Bool)
    (f : Nat) : Ext ℝ :=
  match planner c (some MTBF_required) (some f) (some (1 - consumer_risk)) none one_sided time_terminated 0 with
  | some (.ok plan) => plan.test_duration
  | _ => .nan

/-- Reliability_testing.py:832-841 — producer's risk from the planner for `f` failures
(`chi2.cdf(nan)` is nan). -/
noncomputable def riskOf (c : Chi2) (MTBF_required MTBF_design consumer_risk : ℝ) (one_sided time_terminated : Bool)
    (f : Nat) : Ext ℝ :=
  match durationOf c MTBF_required consumer_risk one_sided time_terminated f with
  | .fin T => match planner c (some MTBF_design) (some f) none (some T) one_sided time_terminated 0 with
    | some (.ok plan) => plan.CI
    | _ => .nan
  | _ => .nan

/-- Reliability_testing.py:800-866 — `reliability_test_duration`; the planner calls are those of
lines 824-839. -/
noncomputable def testDuration (c : Chi2) (MTBF_required MTBF_design consumer_risk producer_risk : ℝ)
    (one_sided time_terminated : Bool) (fuel : Nat) : Option (Except Err (Ext ℝ)) :=
  if consumer_risk ≤ 0 ∨ consumer_risk > 1 / 2 then some valueErr
  else if producer_risk ≤ 0 ∨ producer_risk > 1 / 2 then some valueErr
  else if MTBF_design ≤ MTBF_required then some valueErr
  else
    let duration := durationOf c MTBF_required consumer_risk one_sided time_terminated
    let risk := riskOf c MTBF_required MTBF_design consumer_risk one_sided time_terminated
    match durLoop duration risk producer_risk fuel DurSt.init with
    | none => none
    | some st => match pyIdx st.durations st.solution_index with
      | none => some (.error .indexError)
      | some d => some (.ok d)

/-! ## KStest (Reliability_testing.py:1181-1250) -/

/-- Result of `KStest`. -/
structure KS where
  statistic : ℝ
  critical : ℝ
  accept : Bool

/-- Reliability_testing.py:1215-1245 — `KStest(distribution, data, significance)` for a distribution
whose `CDF(xvals)` evaluates `F` at each point; `kstwo q n` is `ss.kstwo.ppf`. -/
noncomputable def ksTest (F : ℝ → ℝ) (kstwo : ℝ → Nat → ℝ) (data : List ℝ) (significance : ℝ) : Except Err KS :=
  if significance ≤ 0 ∨ significance > 1 / 2 then valueErr
  else
    let data := Np.sort data
    let n := data.length
    let fitted := data.map F
    let Sn := (List.range n).map fun i : Nat => ((i : ℝ) + 1) / (n : ℝ)
    let Sn_1 := (List.range n).map fun i : Nat => (((i : ℝ) + 1) - 1) / (n : ℝ)
    let all := List.zipWith (fun a b => |a - b|) fitted Sn ++ List.zipWith (fun a b => |a - b|) fitted Sn_1
    match all.max? with
    | none => valueErr
    | some D =>
      let crit := kstwo (1 - significance) n
      .ok ⟨D, crit, decide (D < crit)⟩

/-! ## chi2test (Reliability_testing.py:961-1075) -/

/-- Result of `chi2test`. -/
structure ChiSq where
  statistic : ℝ
  critical : ℝ
  accept : Bool

/-- Reliability_testing.py:1044-1087 — from the observed counts per bin and the distribution's CDF at
the bin edges, with `k` parameters: expected counts, statistic `∑ (o-e)²/e` (`ss.chisquare`; its
internal tolerance check on the totals is not modelled) and verdict.  The histogram itself (`np.histogram`) is a parameter. -/
noncomputable def chi2Stat (observed : List ℝ) (cdf : List ℝ) (nData : ℝ) : ℝ :=
  let diffs := List.zipWith (fun a b => b - a) cdf cdf.tail
  let expected := diffs.map fun d => nData * (d / diffs.sum)
  (List.zipWith (fun o e => (o - e) ^ 2 / e) observed expected).sum

/-- Reliability_testing.py:1061-1090. -/
noncomputable def chi2Test (chi2ppf : ℝ → Nat → ℝ) (observed cdf : List ℝ) (nData : ℝ) (k : Nat)
    (significance : ℝ) : Except Err ChiSq :=
  if significance ≤ 0 ∨ significance > 1 / 2 then valueErr
  else
    let n := observed.length
    if (n : ℤ) - k - 1 ≤ 0 then valueErr
    else
      let stat := chi2Stat observed cdf nData
      let crit := chi2ppf (1 - significance) (n - k - 1)
      .ok ⟨stat, crit, decide (stat < crit)⟩

end Reliability.Testing
