import Verif.Model.FitEverythingALTFull

/-! # Specification of `Fit_Everything_ALT` as a whole (documentation of the class, ALT_fitters.py:31-166) -/

namespace Reliability.Spec.FEAFull

open Reliability Reliability.ALTGlue

/-- The column of the table for the parameter `name`. -/
def cell (p : ALT.Params) (name : String) : Option ℝ :=
  if name = "a" then some p.a
  else if name = "b" then some p.b
  else if name = "c" then some p.c
  else if name = "m" then some p.m
  else if name = "n" then some p.n
  else if name = "beta" then some p.beta
  else if name = "sigma" then some p.sigma
  else none

/-- The row of the table shows the fit `r`: log-likelihood, AICc, BIC, optimizer and the point estimate of every parameter. -/
structure Shows {σ : Type} (row : ALT.Row) (r : ALTRes σ) : Prop where
  loglik : row.loglik = r.fit.loglik
  AICc : row.AICc = r.fit.AICc
  BIC : row.BIC = r.fit.BIC
  optimizer : row.optimizer = r.optimizer
  params : ∀ w ∈ r.rows, cell row.params w.name = some w.point

end Reliability.Spec.FEAFull
