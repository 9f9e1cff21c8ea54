import Mathlib.Analysis.SpecialFunctions.Exp
import Verif.Model.Explorer

/-!
# Model of `random_samples` of the eight distributions (Distributions.py)

numpy's global generator is a state that every call takes and leaves. scipy's `rvs` of a family with location and scale draws
from the standard family and returns `x * scale + loc`; it refuses shapes that are not positive and negative scales, and does
not draw at all if the scale is 0. The numbers drawn are an arbitrary function of the family, of how many are asked for and of
the state.
-/

namespace Reliability.RandomSamples

open Reliability Reliability.Explorer

/-- scipy's standard families, with their shape parameters. -/
inductive Std where
  | weibull_min (c : ℝ)
  | norm
  | lognorm (s : ℝ)
  | expon
  | gamma (a : ℝ)
  | beta (a b : ℝ)
  | fisk (c : ℝ)
  | gumbel_l

/-- numpy's generator: the state after `np.random.seed`, and the numbers that are drawn. -/
structure Rng where
  State : Type
  seed : ℕ → State
  draw : Std → ℕ → State → List ℝ × State

/-- scipy's `_argcheck`: every shape is positive. -/
def Std.shapesOk : Std → Prop
  | .weibull_min c => 0 < c
  | .norm => True
  | .lognorm s => 0 < s
  | .expon => True
  | .gamma a => 0 < a
  | .beta a b => 0 < a ∧ 0 < b
  | .fisk c => 0 < c
  | .gumbel_l => True

/-- scipy's `rvs(shapes, loc, scale, size)`. -/
noncomputable def rvs (g : Rng) (f : Std) (loc scale : ℝ) (size : ℕ) (s : g.State) : Except Err (List ℝ × g.State) :=
  open scoped Classical in
  if ¬ (f.shapesOk ∧ 0 ≤ scale) then .error .valueError
  else if scale = 0 then .ok (List.replicate size loc, s)
  else .ok ((g.draw f size s).1.map (fun x => x * scale + loc), (g.draw f size s).2)

/-- The argument `number_of_samples`; `other` is anything whose type is not exactly `int` (a bool, a float, a numpy integer). -/
inductive Number where
  | int (n : ℤ)
  | other

/-- `type(number_of_samples) != int or number_of_samples < 1` (Distributions.py:1050, 1975 and the like). -/
def sampleCount : Number → Except Err ℕ
  | .int n => if n < 1 then .error .valueError else .ok n.toNat
  | .other => .error .valueError

/-- `if seed is not None: np.random.seed(seed)` (Distributions.py:1052-1053 and the like); numpy refuses a seed that is not
between 0 and 2³² - 1. -/
def reseed (g : Rng) (seed : Option ℤ) (s : g.State) : Except Err g.State :=
  match seed with
  | none => .ok s
  | some k => if 0 ≤ k ∧ k < 2 ^ 32 then .ok (g.seed k.toNat) else .error .valueError

/-- The loop of the Beta distribution (Distributions.py:5616-5627): ones are removed and drawn again until there are enough;
`none` if `fuel` rounds do not suffice. -/
noncomputable def resample (g : Rng) (alpha beta : ℝ) (n : ℕ) : ℕ → List ℝ → g.State → Option (Except Err (List ℝ × g.State))
  | 0, _, _ => none
  | fuel + 1, l, s =>
    let l := l.filter (fun x => decide (x < 1))
    if l.length < n then
      match rvs g (.beta alpha beta) 0 1 (n - l.length) s with
      | .error e => some (.error e)
      | .ok (m, s) => resample g alpha beta n fuel (l ++ m) s
    else some (.ok (l, s))

/-- The call of scipy's `rvs` in `random_samples`: family, location and scale (Distributions.py:1054-1056 Weibull, 1981 Normal,
2960-2962 Lognormal, 3912 Exponential, 4902-4904 Gamma, 5609 Beta, 6678-6680 Loglogistic, 7607 Gumbel). -/
noncomputable def callOf : Made → Std × ℝ × ℝ
  | .weibull alpha beta gamma => (.weibull_min beta, gamma, alpha)
  | .normal mu sigma => (.norm, mu, sigma)
  | .lognormal mu sigma gamma => (.lognorm sigma, gamma, Real.exp mu)
  | .exponential Lambda gamma => (.expon, gamma, 1 / Lambda)
  | .gamma alpha beta gamma => (.gamma beta, gamma, alpha)
  | .beta alpha beta => (.beta alpha beta, 0, 1)
  | .loglogistic alpha beta gamma => (.fisk beta, gamma, alpha)
  | .gumbel mu sigma => (.gumbel_l, mu, sigma)

/-- `dist.random_samples(number_of_samples, seed)`: the samples and the state of the generator afterwards; `none` if the loop of
the Beta distribution has not ended after `fuel` rounds. -/
noncomputable def randomSamples (g : Rng) (fuel : ℕ) (d : Made) (number : Number) (seed : Option ℤ) (s : g.State) :
    Option (Except Err (List ℝ × g.State)) :=
  match sampleCount number with
  | .error e => some (.error e)
  | .ok n =>
    match reseed g seed s with
    | .error e => some (.error e)
    | .ok s =>
      let (f, loc, scale) := callOf d
      match rvs g f loc scale n s with
      | .error e => some (.error e)
      | .ok (l, s) =>
        match d with
        | .beta alpha beta => resample g alpha beta n fuel l s
        | _ => some (.ok (l, s))

/-- A call: the distribution and the arguments. -/
structure Call where
  dist : Made
  number : Number
  seed : Option ℤ

/-- Calls one after the other; an error is caught by the caller and leaves the generator as it was when it was raised: after
`np.random.seed`. The outcomes, and the state afterwards; `none` if a loop does not end. -/
noncomputable def session (g : Rng) (fuel : ℕ) : List Call → g.State → Option (List (Except Err (List ℝ)) × g.State)
  | [], s => some ([], s)
  | c :: cs, s =>
    match randomSamples g fuel c.dist c.number c.seed s with
    | none => none
    | some r =>
      let s' := match r with
        | .ok (_, s') => s'
        | .error _ =>
          match sampleCount c.number, reseed g c.seed s with
          | .ok _, .ok s' => s'
          | _, _ => s
      (session g fuel cs s').map fun (rs, t) => ((r.map Prod.fst) :: rs, t)

end Reliability.RandomSamples
