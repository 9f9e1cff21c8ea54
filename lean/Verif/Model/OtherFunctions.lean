import Mathlib.Analysis.SpecialFunctions.Pow.Real
import Mathlib.Analysis.SpecialFunctions.Log.Basic
import Mathlib.Algebra.Order.Floor.Defs
import Mathlib.Data.List.Perm.Basic
import Verif.Model.Basic
import Verif.Model.Distributions
import Verif.Model.NumPy

/-!
# Model of Other_functions.py: censoring and ALT data generation, stress-strength interference

Exact real arithmetic.  Random numbers are explicit arguments (`Draws`): the theorems quantify over all of them.
-/

namespace Reliability.OtherFunctions

open Reliability

/-- The argument `data`: a list, a numpy array, or something else. -/
inductive Data where
  | list (l : List ℝ)
  | ndarray (l : List ℝ)
  | other

/-- The values an argument holds. -/
def Data.values : Data → List ℝ
  | .list l => l
  | .ndarray l => l
  | .other => []

structure Censored where
  failures : List ℝ
  rightCensored : List ℝ

/-- Other_functions.py:951-985 — `make_right_censored_data(data, threshold, fraction_censored, seed)`.  `shuffle` is
what `np.random.shuffle` does to the array, `rand k` is `np.random.rand(k)`.  Returns the result and what the
caller's `data` holds afterwards: `np.asarray` of an ndarray is the same object, so the shuffle reaches it.
Simplified: the type check of `fraction_censored` (970-974) is not modelled, it is a number here. -/
noncomputable def makeRightCensored (data : Data) (threshold fraction : Option ℝ) (shuffle : List ℝ → List ℝ)
    (rand : ℕ → List ℝ) : Except Err Censored × Data :=
  match data with
  | .other => (valueErr, data)
  | _ =>
    match threshold, fraction with
    | some _, some _ => (valueErr, data)
    | some th, none =>
      (.ok ⟨data.values.filter fun x => x ≤ th, (data.values.filter fun x => th < x).map fun _ => 1 * th⟩, data)
    | none, fr? =>
      let fr := fr?.getD (1 / 2)
      let d := shuffle data.values
      let after := match data with | .ndarray _ => .ndarray d | x => x
      if fr < 0 ∨ fr ≥ 1 then (valueErr, after)
      else
        let k := ⌊(d.length : ℝ) * fr⌋₊
        (.ok ⟨d.drop k, List.zipWith (· * ·) (d.take k) (rand k)⟩, after)

/-! ## make_ALT_data -/

/-- Python's `str.title()` on ASCII text: a letter is upper-cased after a non-letter and lower-cased after a letter. -/
def titleAux : Bool → List Char → List Char
  | _, [] => []
  | prev, c :: cs => (if c.isAlpha then (if prev then c.toLower else c.toUpper) else c) :: titleAux c.isAlpha cs

def title (s : String) : String := String.ofList (titleAux false s.toList)

inductive Model where
  | exponential | eyring | power | dualExponential | powerExponential | dualPower
deriving DecidableEq

/-- Other_functions.py:1087-1101. -/
def parseModel (s : String) : Option Model :=
  let t := title s
  if t = "Exponential" then some .exponential
  else if t = "Eyring" then some .eyring
  else if t = "Power" then some .power
  else if t = "Dual_Exponential" then some .dualExponential
  else if t = "Power_Exponential" then some .powerExponential
  else if t = "Dual_Power" then some .dualPower
  else none

def Model.dual : Model → Bool
  | .exponential => false
  | .eyring => false
  | .power => false
  | .dualExponential => true
  | .powerExponential => true
  | .dualPower => true

structure Params where
  a : Option ℝ := none
  b : Option ℝ := none
  c : Option ℝ := none
  n : Option ℝ := none
  m : Option ℝ := none

/-- Other_functions.py:1134-1184 — the life-stress model: the checks of its parameters and the life at one stress
(pair).  Simplified: exact arithmetic at nonzero stresses; a zero stress or a fractional power of a negative stress
(inf or nan in numpy) is outside the theorems' hypotheses. -/
noncomputable def lifeModel (mod : Model) (p : Params) : Except Err (ℝ → ℝ → ℝ) :=
  match mod with
  | .exponential =>
    match p.a, p.b with
    | some a, some b => if b ≤ 0 then valueErr else .ok fun s1 _ => b * Real.exp (a / s1)
    | _, _ => valueErr
  | .eyring =>
    match p.a, p.c with
    | some a, some c => .ok fun s1 _ => (1 / s1) * Real.exp (-(c - a / s1))
    | _, _ => valueErr
  | .power =>
    match p.a, p.n with
    | some a, some n => if a ≤ 0 then valueErr else .ok fun s1 _ => a * s1 ^ n
    | _, _ => valueErr
  | .dualExponential =>
    match p.a, p.b, p.c with
    | some a, some b, some c => if c ≤ 0 then valueErr else .ok fun s1 s2 => c * Real.exp (a / s1 + b / s2)
    | _, _, _ => valueErr
  | .powerExponential =>
    match p.a, p.c, p.n with
    | some a, some c, some n => if c ≤ 0 then valueErr else .ok fun s1 s2 => c * (s2 ^ n) * Real.exp (a / s1)
    | _, _, _ => valueErr
  | .dualPower =>
    match p.c, p.n, p.m with
    | some c, some n, some m => if c ≤ 0 then valueErr else .ok fun s1 s2 => c * (s1 ^ m) * (s2 ^ n)
    | _, _, _ => valueErr

/-- Other_functions.py:1198-1224 — `__make_dist(life)`. -/
noncomputable def makeDist (distribution : String) (beta sigma : Option ℝ) (life : ℝ) : Except Err Distributions.Dist :=
  if distribution = "Weibull" then
    match beta with
    | some b => .ok (Distributions.weibull life b 0)
    | none => valueErr
  else if distribution = "Lognormal" then
    match sigma with
    | some s => .ok (Distributions.lognormal (Real.log life) s 0)
    | none => valueErr
  else if distribution = "Normal" then
    match sigma with
    | some s => .ok (Distributions.normal life s)
    | none => valueErr
  else if distribution = "Exponential" then .ok (Distributions.exponential (1 / life) 0)
  else valueErr

/-- `use_level_stress`. -/
inductive Use where
  | scalar (x : ℝ)
  | list (l : List ℝ)

/-- The random numbers: `sample d i` is `dist.random_samples(number_of_samples, seed=seeds[i])`, `shuffle i` and
`rand i k` are the shuffle and the uniforms inside `make_right_censored_data(…, seed=seeds[i])`. -/
structure Draws where
  sample : Distributions.Dist → ℕ → List ℝ
  shuffle : ℕ → List ℝ → List ℝ
  rand : ℕ → ℕ → List ℝ

/-- The result object: `stresses2` lists are only set for dual-stress models, the censored ones only if
`fraction_censored > 0`.  `useDist` is the distribution whose mean is `mean_life_at_use_stress`. -/
structure ALTData where
  failures : List ℝ
  failureStresses1 : List ℝ
  failureStresses2 : Option (List ℝ)
  rightCensored : Option (List ℝ)
  rightCensoredStresses1 : Option (List ℝ)
  rightCensoredStresses2 : Option (List ℝ)
  useDist : Option Distributions.Dist

/-- The six lists filled by the loop. -/
structure Acc where
  f : List ℝ := []
  rc : List ℝ := []
  fs1 : List ℝ := []
  rs1 : List ℝ := []
  fs2 : List ℝ := []
  rs2 : List ℝ := []

/-- Other_functions.py:1226-1261 — one pass of the loop over the stress levels. -/
noncomputable def step (mk : ℝ → Except Err Distributions.Dist) (life : ℝ → ℝ → ℝ) (dual : Bool) (frac : ℝ)
    (dr : Draws) (i : ℕ) (s1 s2 : ℝ) (acc : Acc) : Except Err Acc :=
  match mk (life s1 s2) with
  | .error e => .error e
  | .ok dist =>
    let raw := dr.sample dist i
    match raw.min? with
    | none => valueErr
    | some lo =>
      if lo ≤ 0 then valueErr
      else if frac = 0 then
        .ok { acc with
          f := acc.f ++ raw
          fs1 := acc.fs1 ++ raw.map fun _ => 1 * s1
          fs2 := if dual then acc.fs2 ++ raw.map (fun _ => 1 * s2) else acc.fs2 }
      else
        match (makeRightCensored (.ndarray raw) none (some frac) (dr.shuffle i) (dr.rand i)).1 with
        | .error e => .error e
        | .ok d =>
          .ok {
            f := acc.f ++ d.failures
            rc := acc.rc ++ d.rightCensored
            fs1 := acc.fs1 ++ d.failures.map fun _ => 1 * s1
            rs1 := acc.rs1 ++ d.rightCensored.map fun _ => 1 * s1
            fs2 := if dual then acc.fs2 ++ d.failures.map (fun _ => 1 * s2) else acc.fs2
            rs2 := if dual then acc.rs2 ++ d.rightCensored.map (fun _ => 1 * s2) else acc.rs2 }

/-- The loop `for i in range(num_stresses)`, from index `i` on. -/
noncomputable def loop (mk : ℝ → Except Err Distributions.Dist) (life : ℝ → ℝ → ℝ) (dual : Bool) (frac : ℝ)
    (dr : Draws) : ℕ → List (ℝ × ℝ) → Acc → Except Err Acc
  | _, [], acc => .ok acc
  | i, (s1, s2) :: rest, acc =>
    match step mk life dual frac dr i s1 s2 acc with
    | .error e => .error e
    | .ok acc' => loop mk life dual frac dr (i + 1) rest acc'

/-- Other_functions.py:1103-1127 — the stress levels and the use level, as lists of pairs (the second component is
unused by single-stress models). -/
noncomputable def stresses (dual : Bool) (stress1 : List ℝ) (stress2 : Option (List ℝ)) (use : Option Use) :
    Except Err (List (ℝ × ℝ) × Option (ℝ × ℝ)) :=
  if dual = false then
    match use with
    | none => .ok (stress1.map fun s => (s, 0), none)
    | some (.scalar u) => .ok (stress1.map fun s => (s, 0), some (u, 0))
    | some (.list l) =>
      -- `np.append` of a list: the last element of the whole array is the use level
      match (stress1 ++ l).getLast? with
      | some u => .ok (stress1.map fun s => (s, 0), some (u, 0))
      | none => .error .indexError
  else
    match use with
    | none =>
      match stress2 with
      | none => valueErr
      | some l2 => if l2.length ≠ stress1.length then valueErr else .ok (stress1.zip l2, none)
    | some (.scalar _) => .error .typeError
    | some (.list l) =>
      match l with
      | [] => .error .indexError
      | u1 :: rest =>
        match stress2 with
        | none => valueErr
        | some l2 =>
          match rest with
          | [u2] => if l2.length ≠ stress1.length then valueErr else .ok (stress1.zip l2, some (u1, u2))
          | _ => valueErr

/-- Other_functions.py:1069-1275 — `make_ALT_data(...)`; `stress1` is a list or array, `stress2 = none` if it is
neither.  Simplified: in the single-stress model with an empty list as `use_level_stress` and no stresses the
IndexError comes before the other checks here. -/
noncomputable def makeALTData (distribution lifeStressModel : String) (stress1 : List ℝ) (stress2 : Option (List ℝ))
    (p : Params) (beta sigma : Option ℝ) (use : Option Use) (frac : ℝ) (dr : Draws) : Except Err ALTData :=
  match parseModel lifeStressModel with
  | none => valueErr
  | some mod =>
    match stresses mod.dual stress1 stress2 use with
    | .error e => .error e
    | .ok (levels, useLevel) =>
      if frac < 0 ∨ frac ≥ 1 then valueErr
      else
        match lifeModel mod p with
        | .error e => .error e
        | .ok life =>
          match loop (makeDist distribution beta sigma) life mod.dual frac dr 0 levels {} with
          | .error e => .error e
          | .ok acc =>
            let res : ALTData :=
              { failures := acc.f
                failureStresses1 := acc.fs1
                failureStresses2 := if mod.dual then some acc.fs2 else none
                rightCensored := if frac > 0 then some acc.rc else none
                rightCensoredStresses1 := if frac > 0 then some acc.rs1 else none
                rightCensoredStresses2 := if mod.dual then (if frac > 0 then some acc.rs2 else none) else none
                useDist := none }
            match useLevel with
            | none => .ok res
            | some (u1, u2) =>
              match makeDist distribution beta sigma (life u1 u2) with
              | .error e => .error e
              | .ok d => .ok { res with useDist := some d }

/-! ## Stress-strength interference -/

/-- Other_functions.py:293-299 — `stress_strength_normal`: the probability of failure from the parameters of the two
Normal_Distributions. -/
noncomputable def stressStrengthNormal (muStress sigmaStress muStrength sigmaStrength : ℝ) : ℝ :=
  Distributions.normStd.cdf
    (-(muStrength - muStress) / (sigmaStrength ^ 2 + sigmaStress ^ 2) ^ ((1:ℝ) / 2))

/-- `np.trapezoid(y, x)`. -/
noncomputable def trapezoid : List ℝ → List ℝ → ℝ
  | x0 :: x1 :: xs, y0 :: y1 :: ys => (x1 - x0) * (y0 + y1) / 2 + trapezoid (x1 :: xs) (y1 :: ys)
  | _, _ => 0

/-- Other_functions.py:131-140 — `stress_strength`: the integral over `n` (1000000) equally spaced points.
Simplified: both are basic distributions (not mixtures or competing risks). -/
noncomputable def stressStrength (n : ℕ) (stress strength : Distributions.Dist) : Except Err ℝ :=
  let x := Np.linspace (min (stress.sp.ppf (1 / 10 ^ 8)) (strength.sp.ppf (1 / 10 ^ 8)))
    (max (strength.sp.ppf (1 - 1 / 10 ^ 8)) (stress.sp.ppf (1 - 1 / 10 ^ 8))) n
  match Distributions.PDF strength x with
  | .error e => .error e
  | .ok f =>
    match Distributions.SF stress x with
    | .error e => .error e
    | .ok S => .ok (trapezoid x (List.zipWith (· * ·) f S))

end Reliability.OtherFunctions
