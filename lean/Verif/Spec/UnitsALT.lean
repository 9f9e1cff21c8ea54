import Verif.Spec.UniqueALT
import Verif.Spec.FitEverythingALTFull

/-! # Specification of the criteria of an ALT fit in other units (C171) -/

namespace Reliability.Spec.ALTGlue

open Reliability Reliability.ALTGlue Reliability.Spec Reliability.Spec.FitGlue

/-- The log-likelihood and the criteria after `n` failure times were multiplied by `k`: each density is divided by `k`, so the
log-likelihood falls by `n ln k` and the criteria rise by `2 n ln k`.  (`AICc` is reported for both or for neither.) -/
structure ShiftedALT {σ : Type} (n : ℕ) (k : ℝ) (r r' : ALTRes σ) : Prop where
  loglik : r'.fit.loglik = r.fit.loglik - n * Real.log k
  loglik2 : r'.loglik2 = r.loglik2 + 2 * n * Real.log k
  AICc : r'.fit.AICc = r.fit.AICc.map (· + 2 * n * Real.log k)
  BIC : r'.fit.BIC = r.fit.BIC + 2 * n * Real.log k

/-- The same for rows of the table of `Fit_Everything_ALT`. -/
structure ShiftedRow (n : ℕ) (k : ℝ) (r r' : ALT.Row) : Prop where
  loglik : r'.loglik = r.loglik - n * Real.log k
  AICc : r'.AICc = r.AICc.map (· + 2 * n * Real.log k)
  BIC : r'.BIC = r.BIC + 2 * n * Real.log k

/-- The row shows estimates found by an optimizer, and those that have to be positive (the ones with intervals on the log scale)
are. -/
def AdmissibleRow (r : ALT.Row) : Prop := r.optimizer ≠ none ∧
  ∀ dist ∈ ["Weibull", "Lognormal", "Normal", "Exponential"],
    ∀ model ∈ ["Exponential", "Eyring", "Power", "Dual_Exponential", "Power_Exponential", "Dual_Power"],
      r.model = dist ++ "_" ++ model → ∀ p ∈ parameters dist model, p.2 = Scale.log →
        ∃ v, FEAFull.cell r.params p.1 = some v ∧ 0 < v

end Reliability.Spec.ALTGlue
