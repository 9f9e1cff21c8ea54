import Mathlib.Data.List.SplitOn
import Verif.Model.Titles
import Verif.Spec.RoundString

/-! # Specification for C175: what a title says -/

namespace Reliability.Spec

open Reliability.Titles (Dist)

/-- The parameters with their usual letters; a location is a parameter only if it is not zero. -/
def letters : Dist → List (Char × ℚ)
  | .weibull α β γ => [('α', α), ('β', β)] ++ location γ
  | .normal μ σ => [('μ', μ), ('σ', σ)]
  | .lognormal μ σ γ => [('μ', μ), ('σ', σ)] ++ location γ
  | .exponential l γ => ('λ', l) :: location γ
  | .gamma α β γ => [('α', α), ('β', β)] ++ location γ
  | .beta α β => [('α', α), ('β', β)]
  | .loglogistic α β γ => [('α', α), ('β', β)] ++ location γ
  | .gumbel μ σ => [('μ', μ), ('σ', σ)]
where
  location (γ : ℚ) : List (Char × ℚ) := if γ = 0 then [] else [('γ', γ)]

/-- The name of the family. -/
def family : Dist → String
  | .weibull .. => "Weibull"
  | .normal .. => "Normal"
  | .lognormal .. => "Lognormal"
  | .exponential .. => "Exponential"
  | .gamma .. => "Gamma"
  | .beta .. => "Beta"
  | .loglogistic .. => "Loglogistic"
  | .gumbel .. => "Gumbel"

/-- Reading a title: the parts between commas, each a name, an equals sign and a numeral. -/
def readTitle (s : String) : List (String × ℚ) :=
  (s.toList.splitOn ',').map fun part =>
    (String.ofList (part.takeWhile (· ≠ '=')), RoundString.value (String.ofList ((part.dropWhile (· ≠ '=')).drop 1)))

end Reliability.Spec
