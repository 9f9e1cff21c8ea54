import Verif.Model.CompositePlot

/-! # What the plots of the methods show, written out (C141, C142, C143) -/

namespace Reliability.Spec.MethodPlot

open Reliability Reliability.MethodPlot

/-- The full names of the functions. -/
def Heading : Func → String
  | .PDF => "Probability Density Function"
  | .CDF => "Cumulative Distribution Function"
  | .SF => "Survival Function"
  | .HF => "Hazard Function"
  | .CHF => "Cumulative Hazard Function"

/-- What the vertical axis shows. -/
def Vertical : Func → String
  | .PDF => "Probability density"
  | .CDF => "Fraction failing"
  | .SF => "Fraction surviving"
  | .HF => "Hazard"
  | .CHF => "Cumulative hazard"

/-- The short names. -/
def Name : Func → String
  | .PDF => "PDF"
  | .CDF => "CDF"
  | .SF => "SF"
  | .HF => "HF"
  | .CHF => "CHF"

/-- The headings of the plots in a figure, in two lines where they are long. -/
def Panel : Func → String
  | .PDF => "Probability Density\nFunction"
  | .CDF => "Cumulative Distribution\nFunction"
  | .SF => "Survival Function"
  | .HF => "Hazard Function"
  | .CHF => "Cumulative Hazard\nFunction"

/-- The function `f` of a competing risks or mixture model (properties C37, C38). -/
def Column (A : Combined.Arrays) : Func → List ℝ
  | .PDF => A.pdf
  | .CDF => A.cdf
  | .SF => A.sf
  | .HF => A.hf
  | .CHF => A.chf

/-- Values of PDF and HF are cut at 1e100 in plots. -/
noncomputable def Cut : Func → ℝ → ℝ
  | .PDF, y => min y (10 ^ 100)
  | .HF, y => min y (10 ^ 100)
  | _, y => y

/-- What the vertical axis shows for these models: as for the distributions, with a capital in one place. -/
def Vertical' : Func → String
  | .CHF => "Cumulative Hazard"
  | f => Vertical f

/-- The title of a plot of a competing risks or mixture model. -/
def Title (competing : Bool) (f : Func) : String :=
  (if competing then "Competing Risks Model\n " else "Mixture Model\n ") ++ Heading f

/-- Its label. -/
def Label (competing : Bool) : String := if competing then "Competing risks model" else "Mixture model"

end Reliability.Spec.MethodPlot
