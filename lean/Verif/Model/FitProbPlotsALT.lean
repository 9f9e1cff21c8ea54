import Verif.Model.FitEverythingALTFull
import Verif.Model.ALTPlots

/-!
# Model of the probability plots of `Fit_Everything_ALT` (/repo/reliability/ALT_fitters.py:1834-1847, 1849-2782)

The panels with their places, titles and contents.  Labels, legends and the size of the figure are left out.  The groups that a branch
reads from the object it kept (`self.__<name>_params`) are computed again from the arguments of the call that made the object (the answers
of the optimizers being functions, they are the same); the attributes `self.<name>_a` and so on are the cells of the row of that name.
-/

namespace Reliability.FitProbPlotsALT

open Reliability Reliability.InputCheck Reliability.FitGlue Reliability.ALTGlue Reliability.FEAFull Reliability.ALTPlots
open Reliability.FunctionCI (Jac)

/-- One branch: the item, the arguments `dist` and `model`, the object whose groups are read, `life_func` and `shape`. -/
structure Branch (σ : Type) where
  item : String
  dist : String
  model : String
  obj : Cls σ
  life : ALT.Params → σ → ℝ
  shape : ALT.Params → ℝ

/-- The branches for one stress (ALT_fitters.py:1883-2310; the `None` that the Exponential branches pass as shape is not read). -/
noncomputable def singleBranches : List (Branch ℝ) :=
  [⟨"Weibull_Exponential", "Weibull", "Exponential", weibullExponential, fun p s => p.b * Real.exp (p.a / s), fun p => p.beta⟩, -- 1883
   ⟨"Weibull_Eyring", "Weibull", "Eyring", weibullEyring, fun p s => 1 / s * Real.exp (-(p.c - p.a / s)), fun p => p.beta⟩, -- 1918
   ⟨"Weibull_Power", "Weibull", "Power", weibullPower, fun p s => p.a * s ^ p.n, fun p => p.beta⟩, -- 1955
   ⟨"Lognormal_Exponential", "Lognormal", "Exponential", lognormalExponential, fun p s => p.b * Real.exp (p.a / s), fun p => p.sigma⟩, -- 1988
   ⟨"Lognormal_Eyring", "Lognormal", "Eyring", lognormalEyring, fun p s => 1 / s * Real.exp (-(p.c - p.a / s)), fun p => p.sigma⟩, -- 2023
   ⟨"Lognormal_Power", "Lognormal", "Power", lognormalPower, fun p s => p.a * s ^ p.n, fun p => p.sigma⟩, -- 2062
   ⟨"Normal_Exponential", "Normal", "Exponential", normalExponential, fun p s => p.b * Real.exp (p.a / s), fun p => p.sigma⟩, -- 2095
   ⟨"Normal_Eyring", "Normal", "Eyring", normalEyring, fun p s => 1 / s * Real.exp (-(p.c - p.a / s)), fun p => p.sigma⟩, -- 2131
   ⟨"Normal_Power", "Normal", "Power", normalPower, fun p s => p.a * s ^ p.n, fun p => p.sigma⟩, -- 2168
   ⟨"Exponential_Exponential", "Exponential", "Exponential", exponentialExponential, fun p s => p.b * Real.exp (p.a / s), fun _ => 1⟩, -- 2201
   ⟨"Exponential_Eyring", "Exponential", "Eyring", exponentialEyring, fun p s => 1 / s * Real.exp (-(p.c - p.a / s)), fun _ => 1⟩, -- 2236
   ⟨"Exponential_Power", "Exponential", "Power", exponentialPower, fun p s => p.a * s ^ p.n, fun _ => 1⟩] -- 2278

/-- The branches for two stresses (ALT_fitters.py:2312-2762). -/
noncomputable def dualBranches : List (Branch (ℝ × ℝ)) :=
  [⟨"Weibull_Dual_Exponential", "Weibull", "Dual_Exponential", weibullDualExponential, fun p s => p.c * Real.exp (p.a / s.1 + p.b / s.2), fun p => p.beta⟩, -- 2312
   ⟨"Weibull_Power_Exponential", "Weibull", "Power_Exponential", weibullPowerExponential, fun p s => p.c * s.2 ^ p.n * Real.exp (p.a / s.1), fun p => p.beta⟩, -- 2349
   ⟨"Weibull_Dual_Power", "Weibull", "Dual_Power", weibullDualPower, fun p s => p.c * s.1 ^ p.m * s.2 ^ p.n, fun p => p.beta⟩, -- 2387
   ⟨"Lognormal_Dual_Exponential", "Lognormal", "Dual_Exponential", lognormalDualExponential, fun p s => p.c * Real.exp (p.a / s.1 + p.b / s.2), fun p => p.sigma⟩, -- 2425
   ⟨"Lognormal_Power_Exponential", "Lognormal", "Power_Exponential", lognormalPowerExponential, fun p s => p.c * s.2 ^ p.n * Real.exp (p.a / s.1), fun p => p.sigma⟩, -- 2462
   ⟨"Lognormal_Dual_Power", "Lognormal", "Dual_Power", lognormalDualPower, fun p s => p.c * s.1 ^ p.m * s.2 ^ p.n, fun p => p.sigma⟩, -- 2500
   ⟨"Normal_Dual_Exponential", "Normal", "Dual_Exponential", normalDualExponential, fun p s => p.c * Real.exp (p.a / s.1 + p.b / s.2), fun p => p.sigma⟩, -- 2538
   ⟨"Normal_Power_Exponential", "Normal", "Power_Exponential", normalPowerExponential, fun p s => p.c * s.2 ^ p.n * Real.exp (p.a / s.1), fun p => p.sigma⟩, -- 2575
   ⟨"Normal_Dual_Power", "Normal", "Dual_Power", normalDualPower, fun p s => p.c * s.1 ^ p.m * s.2 ^ p.n, fun p => p.sigma⟩, -- 2613
   ⟨"Exponential_Dual_Exponential", "Exponential", "Dual_Exponential", exponentialDualExponential, fun p s => p.c * Real.exp (p.a / s.1 + p.b / s.2), fun _ => 1⟩, -- 2651
   ⟨"Exponential_Power_Exponential", "Exponential", "Power_Exponential", exponentialPowerExponential, fun p s => p.c * s.2 ^ p.n * Real.exp (p.a / s.1), fun _ => 1⟩, -- 2688
   ⟨"Exponential_Dual_Power", "Exponential", "Dual_Power", exponentialDualPower, fun p s => p.c * s.1 ^ p.m * s.2 ^ p.n, fun _ => 1⟩] -- 2726

/-- `cols, rows` (ALT_fitters.py:1856-1870); no branch for another number of items. -/
def layout (items : ℕ) : Option (ℕ × ℕ) :=
  if items = 10 ∨ items = 11 ∨ items = 12 then some (4, 3)
  else if items = 7 ∨ items = 8 ∨ items = 9 then some (3, 3)
  else if items = 5 ∨ items = 6 then some (3, 2)
  else if items = 4 then some (2, 2)
  else if items = 3 then some (3, 1)
  else if items = 2 then some (2, 1)
  else if items = 1 then some (1, 1)
  else none

/-- The call of `ALT_prob_plot` for a row (ALT_fitters.py:1883-2765). -/
noncomputable def panelPlot {σ κ : Type} [LinearOrder κ] (k : Kind σ κ) (bs : List (Branch σ)) (argsort : List ℝ → List ℕ) (J : Jac)
    (O : Oracle σ) (colours : ℕ) (x : ALTArgs) (row : ALT.Row) : Except Err (Figure σ) :=
  match bs.find? (fun b => b.item = row.model) with
  | none => valueErr
  | some b => do
    let inp ← altCheck k.key b.obj.dist b.obj.model x.failures x.failure_stress_1 x.failure_stress_2 x.right_censored
      x.right_censored_stress_1 x.right_censored_stress_2 x.CI x.use_level_stress x.optimizer
    let gs ← groupFits b.obj.dist argsort J (O.num b.obj) 0 (groupsOf inp.failure_groups inp.right_censored_groups)
    altProbPlot argsort colours b.dist b.model
      (itemsOf (inp.stresses_for_groups.map k.stress) (groupsOf inp.failure_groups inp.right_censored_groups) gs)
      (b.life row.params) (b.shape row.params) (k.use x.use_level_stress)

/-- One panel. -/
structure Panel (σ : Type) where
  rows : ℕ
  cols : ℕ
  place : ℕ
  title : String
  plot : Figure σ

/-- The loop (ALT_fitters.py:1880-2777). -/
noncomputable def panels {σ κ : Type} [LinearOrder κ] (k : Kind σ κ) (bs : List (Branch σ)) (argsort : List ℝ → List ℕ) (J : Jac)
    (O : Oracle σ) (colours : ℕ) (x : ALTArgs) (rows cols : ℕ) : ℕ → List ALT.Row → Except Err (List (Panel σ))
  | _, [] => .ok []
  | place, r :: rs => do
    let p ← panelPlot k bs argsort J O colours x r
    let rest ← panels k bs argsort J O colours x rows cols (place + 1) rs
    pure (⟨rows, cols, place, r.model, p⟩ :: rest)

/-- `__probability_plot(self)` (ALT_fitters.py:1854-1875); NameError if `cols` was not set. -/
noncomputable def allPlots {σ κ : Type} [LinearOrder κ] (k : Kind σ κ) (bs : List (Branch σ)) (argsort : List ℝ → List ℕ) (J : Jac)
    (O : Oracle σ) (colours : ℕ) (x : ALTArgs) (results : List ALT.Row) : Except Err (List (Panel σ)) :=
  match layout results.length with
  | none => .error .nameError
  | some g => panels k bs argsort J O colours x g.2 g.1 1 results

/-- `__probability_plot(self, best_only=True)` (ALT_fitters.py:1876-1879). -/
noncomputable def bestPlot {σ κ : Type} [LinearOrder κ] (k : Kind σ κ) (bs : List (Branch σ)) (argsort : List ℝ → List ℕ) (J : Jac)
    (O : Oracle σ) (colours : ℕ) (x : ALTArgs) (results : List ALT.Row) : Except Err (List (Panel σ)) :=
  panels k bs argsort J O colours x 1 1 1 (results.take 1)

/-- `Fit_Everything_ALT(..., show_probability_plot=True, show_best_distribution_probability_plot=True)` for stresses of one kind: the
result and the two figures (ALT_fitters.py:168-1847). -/
noncomputable def everythingPlots {σ κ : Type} [LinearOrder κ] (k : Kind σ κ) (cs : List (Cls σ)) (bs : List (Branch σ)) (dual : Bool)
    (argsort : List ℝ → List ℕ) (J : Jac) (O : Oracle σ) (colours : ℕ) (x : FEAArgs) :
    Except Err (ALT.FEAResult × List (Panel σ) × List (Panel σ)) := do
  let res ← everything k cs dual argsort J O x
  let inp ← altCheck k.key "Everything" "Everything" x.failures x.failure_stress_1 x.failure_stress_2 x.right_censored
    x.right_censored_stress_1 x.right_censored_stress_2 x.CI x.use_level_stress x.optimizer
  let ps ← allPlots k bs argsort J O colours (checkedArgs dual inp) res.results
  let b ← bestPlot k bs argsort J O colours (checkedArgs dual inp) res.results
  pure (res, ps, b)

/-- The figures for one stress and for two (whether there are two stresses is decided as in `fitEverythingALT`). -/
noncomputable def fitEverythingALTPlots {κ : Type} [LinearOrder κ] (key : ℝ → Option ℝ → κ) (stress : κ → ℝ × ℝ)
    (argsort : List ℝ → List ℕ) (J : Jac) (O₁ : Oracle ℝ) (O₂ : Oracle (ℝ × ℝ)) (colours : ℕ) (x : FEAArgs) :
    Except Err (ALT.FEAResult × ((List (Panel ℝ) × List (Panel ℝ)) ⊕ (List (Panel (ℝ × ℝ)) × List (Panel (ℝ × ℝ))))) :=
  if isDual "Everything" x.failure_stress_2 then
    (everythingPlots (dualKind key stress) dualClasses dualBranches true argsort J O₂ colours x).map fun r => (r.1, .inr r.2)
  else (everythingPlots singleKind singleClasses singleBranches false argsort J O₁ colours x).map fun r => (r.1, .inl r.2)

end Reliability.FitProbPlotsALT
