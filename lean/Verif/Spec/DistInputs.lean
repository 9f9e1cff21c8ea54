import Verif.Model.DistInputs
import Verif.Spec.FunctionCI

/-! # Specification of the arguments of CDF, SF, CHF that concern confidence bounds -/

namespace Reliability.Spec

open Reliability.Distributions Reliability.FunctionCI

/-- The confidence level meant by the argument `CI` for an object with attribute `Z`: the number given (which must lie in
(0,1)); 0.95 for True and False; without argument the level with two-sided normal quantile `Z`, or 0.95. -/
def LevelMeant (Z : Option ℝ) (a : CIArg) (c : ℝ) : Prop :=
  match a with
  | .float r => 0 < r ∧ r < 1 ∧ c = r
  | .bool _ => c = 95 / 100
  | .none => (Z = none ∧ c = 95 / 100) ∨ ∃ z, Z = some z ∧ c = normStd.cdf z - normStd.cdf (-z)
  | .other => False

/-- The kind of bounds a word asks for. -/
def WordMeans (s : String) (t : Option String) : Prop :=
  (t = some "time" ∧ Fitters.up s ∈ ["T", "TIME"]) ∨ (t = some "reliability" ∧ Fitters.up s ∈ ["R", "REL", "RELIABILITY"]) ∨
    (t = none ∧ Fitters.up s ∉ ["T", "TIME", "R", "REL", "RELIABILITY"])

/-- The kind of bounds meant: none for Exponential and Beta; otherwise the word given, or without one the object's own. -/
def TypeMeant (name : String) (own : Option String) (a : StrArg) (t : Option String) : Prop :=
  match a with
  | .other => False
  | .str s => if name = "Exponential" ∨ name = "Beta" then t = none else WordMeans s t
  | .none => if name = "Exponential" ∨ name = "Beta" then t = none else
      (own = none ∧ t = none) ∨ ∃ s, own = some s ∧ WordMeans s t

/-- The list of values given by an argument. -/
def Given (a : ValArg) (l : Option (List ℝ)) : Prop :=
  match a with
  | .none => l = none
  | .num r => l = some [r]
  | .arr xs => l = some xs
  | .other => False

/-- The arguments `a` are legal and mean `r`: if both lists are given, `CI_x` is used for bounds on reliability and `CI_y`
otherwise; the list used is not empty and holds positive times (any for Normal and Gumbel) or legal values. -/
def Resolves (self : SelfAttr) (fn : Func) (a : CIArgs) (r : Resolved) : Prop :=
  LevelMeant self.Z a.CI r.CI ∧ TypeMeant self.name self.CI_type a.CI_type r.CI_type ∧
  (∃ gx gy, Given a.CI_x gx ∧ Given a.CI_y gy ∧
    ((gx ≠ none ∧ gy ≠ none → (r.CI_type = some "reliability" → r.CI_x = gx ∧ r.CI_y = none) ∧
      (r.CI_type ≠ some "reliability" → r.CI_x = none ∧ r.CI_y = gy)) ∧
     (¬ (gx ≠ none ∧ gy ≠ none) → r.CI_x = gx ∧ r.CI_y = gy))) ∧
  (∀ l, r.CI_x = some l → l ≠ [] ∧ (self.name ≠ "Normal" → self.name ≠ "Gumbel" → ∀ x ∈ l, 0 < x)) ∧
  (∀ l, r.CI_y = some l → l ≠ [] ∧ ∀ y ∈ l, LegalValue fn y)

end Reliability.Spec
