import Mathlib.Analysis.SpecialFunctions.Pow.Real
import Mathlib.Analysis.SpecialFunctions.Log.Basic
import Mathlib.Analysis.Real.Sqrt
import Verif.Model.Basic
import Verif.Model.NumPy
import Verif.Model.LinReg

/-!
# Model of `reliability_growth`, `optimal_replacement_time` and `ROCOF`
(reliability/Repairable_systems.py:16-700)

Exact real arithmetic.  numpy's `x/0 = inf` is not represented here: Lean's `x/0` is `0`, so theorems
about quotients assume (or prove) the denominators are non-zero.  Plotting and printing are not
modelled.
-/

namespace Reliability.Repairable

open Reliability

/-! ## reliability_growth -/

/-- The two models, after name normalisation. -/
inductive GrowthModel where
  | duane
  | crowAMSAA
deriving DecidableEq, Repr

/-- Repairable_systems.py:107-121 — `model.upper()` looked up in the two name lists. -/
def growthModel (upperName : String) : Option GrowthModel :=
  if upperName ∈ ["DUANE", "D"] then some .duane
  else if upperName ∈ ["CROW AMSAA", "CROW-AMSAA", "CROWAMSAA", "CROW", "AMSAA", "CA", "C"] then some .crowAMSAA
  else none

/-- Attributes set by the Crow-AMSAA branch. -/
structure Crow where
  Beta : ℝ
  Lambda : ℝ
  growth_rate : ℝ
  DMTBF_I : ℝ
  DFI_I : ℝ
  DMTBF_C : ℝ
  DFI_C : ℝ
  time_to_target : Option ℝ

/-- Attributes set by the Duane branch (`b` is the local variable; `A = 1/b`). -/
structure Duane where
  Alpha : ℝ
  b : ℝ
  A : ℝ
  DMTBF_C : ℝ
  DFI_C : ℝ
  DFI_I : ℝ
  DMTBF_I : ℝ
  time_to_target : Option ℝ

/-- Repairable_systems.py:128-135, 151-154 — Crow-AMSAA, from the sorted times and their maximum. -/
noncomputable def crow (times : List ℝ) (max_time : ℝ) (target : Option ℝ) : Crow :=
  let n : ℝ := times.length
  let Beta := n / (n * Real.log max_time - (times.map Real.log).sum)
  let Lambda := n / max_time ^ Beta
  let DMTBF_I := 1 / (Lambda * Beta * max_time ^ (Beta - 1))
  let DMTBF_C := (1 / Lambda) * max_time ^ (1 - Beta)
  { Beta := Beta, Lambda := Lambda, growth_rate := 1 - Beta, DMTBF_I := DMTBF_I, DFI_I := 1 / DMTBF_I
    DMTBF_C := DMTBF_C, DFI_C := 1 / DMTBF_C
    time_to_target := target.map fun M => (1 / (Lambda * M)) ^ (1 / (Beta - 1)) }

/-- Repairable_systems.py:126 — `times / failure_numbers`. -/
noncomputable def mtbfC (times : List ℝ) : List ℝ :=
  List.zipWith (fun t i : ℝ => t / i) times ((List.range times.length).map fun i : Nat => (i : ℝ) + 1)

/-- Repairable_systems.py:136-148, 155-156 — Duane.  `np.polyfit(x, y, 1)` is the exact least-squares
line (`solve2`, the unique minimiser by C49); with fewer than two distinct times numpy returns a
minimum-norm solution with a RankWarning, which is not modelled (`none`). -/
noncomputable def duane (times : List ℝ) (max_time : ℝ) (target : Option ℝ) : Option Duane :=
  let x := times.map Real.log
  let y := (mtbfC times).map Real.log
  match LinReg.solve2 x y with
  | none => none
  | some (z0, z1) =>
    let b := Real.exp z1
    let DMTBF_C := b * max_time ^ z0
    let DFI_C := 1 / DMTBF_C
    let DFI_I := (1 - z0) * DFI_C
    some { Alpha := z0, b := b, A := 1 / b, DMTBF_C := DMTBF_C, DFI_C := DFI_C, DFI_I := DFI_I
           DMTBF_I := 1 / DFI_I, time_to_target := target.map fun M => (M / b) ^ (1 / z0) }

/-- Repairable_systems.py:98-160 — `reliability_growth`.  `none` in the Duane result is the
rank-deficient case. -/
noncomputable def reliabilityGrowth (times : List ℝ) (target : Option ℝ) (upperName : String) :
    Except Err (Crow ⊕ Option Duane) :=
  let times := Np.sort times
  match times.min?, times.max? with
  | some mn, some mx =>
    if mn ≤ 0 then valueErr
    else match growthModel upperName with
      | none => valueErr
      | some .crowAMSAA => .ok (.inl (crow times mx target))
      | some .duane => .ok (.inr (duane times mx target))
  | _, _ => valueErr

/-! ## optimal_replacement_time -/

/-- Result of `optimal_replacement_time`. -/
structure Replacement where
  ORT : ℝ
  min_cost : ℝ

/-- Repairable_systems.py:365-376 — cost per unit time, as good as new; `quad f x` stands for
`integrate.quad(f, 0, x)[0]`. -/
noncomputable def cputNew (quad : (ℝ → ℝ) → ℝ → ℝ) (cost_PM cost_CM α β t : ℝ) : ℝ :=
  let sf := Real.exp (-((t / α) ^ β))
  (cost_PM * sf + cost_CM * (1 - sf)) / quad (fun x => Real.exp (-((x / α) ^ β))) t

/-- Repairable_systems.py:333-386 — `optimal_replacement_time` (`q` is compared with 1 and 0). -/
noncomputable def optimalReplacementTime (quad : (ℝ → ℝ) → ℝ → ℝ) (cost_PM cost_CM α β q : ℝ) :
    Except Err Replacement :=
  if cost_PM > cost_CM then valueErr
  else if q = 1 then
    let ORT := α * (cost_CM / (cost_PM * (β - 1))) ^ (1 / β)
    .ok ⟨ORT, ((cost_PM * (ORT / α) ^ β) + cost_CM) / ORT⟩
  else if q = 0 then
    let t := Np.linspace 1 (α * 3) 10000
    let CPUT := t.map (cputNew quad cost_PM cost_CM α β)
    match Np.argmin CPUT with
    | none => valueErr
    | some idx => .ok ⟨t.getD idx 0, CPUT.getD idx 0⟩
  else valueErr

/-! ## ROCOF -/

/-- The trend and what is reported with it. -/
inductive Trend where
  | improving (Beta_hat Lambda_hat : ℝ)
  | worsening (Beta_hat Lambda_hat : ℝ)
  | constant (rocof : ℝ)

/-- Result of `ROCOF`. -/
structure RocofResult where
  U : ℝ
  z_crit : ℝ
  trend : Trend

/-- `failure_times[1:] -= failure_times[:-1]` on a sorted copy (Repairable_systems.py:577-585). -/
noncomputable def diffs : ℝ → List ℝ → List ℝ
  | _, [] => []
  | prev, t :: ts => (t - prev) :: diffs t ts

/-- Repairable_systems.py:590-660 — the analysis, from the inter-arrival times. -/
noncomputable def rocofTi (ppf : ℝ → ℝ) (ti : List ℝ) (CI : ℝ) (test_end : Option ℝ) :
    Except Err RocofResult :=
  if CI ≤ 0 ∨ CI ≥ 1 then valueErr
  else
    let tn := test_end.getD ti.sum
    let n := if test_end.isSome then ti.length else ti.length - 1
    if test_end.isSome ∧ tn < ti.sum then valueErr
    else if n = 0 then .error .zeroDivision
    else
      let tc := Np.cumsum 0 (ti.take n)
      let z_crit := ppf ((1 - CI) / 2)
      let U := (tc.sum / (n : ℝ) - tn / 2) / (tn * Real.sqrt (1 / (12 * (n : ℝ))))
      let B := (ti.length : ℝ) / (tc.map fun t => Real.log (tn / t)).sum
      let L := (ti.length : ℝ) / tn ^ B
      if U < z_crit then .ok ⟨U, z_crit, .improving B L⟩
      else if U > -z_crit then .ok ⟨U, z_crit, .worsening B L⟩
      else .ok ⟨U, z_crit, .constant (((n : ℝ) + 1) / ti.sum)⟩

/-- Repairable_systems.py:559-660 — `ROCOF(times_between_failures, failure_times, CI, test_end)`, each
given as a list or array of numbers or `None`.  With neither given `ti` is unbound (NameError). -/
noncomputable def rocof (ppf : ℝ → ℝ) (tbf failure_times : Option (List ℝ)) (CI : ℝ)
    (test_end : Option ℝ) : Except Err RocofResult :=
  match tbf, failure_times with
  | some _, some _ => valueErr
  | some l, none => if l.any (fun t => decide (t ≤ 0)) then valueErr else rocofTi ppf l CI test_end
  | none, some f =>
    if f.any (fun t => decide (t ≤ 0)) then valueErr else rocofTi ppf (diffs 0 (Np.sort f)) CI test_end
  | none, none => if CI ≤ 0 ∨ CI ≥ 1 then valueErr else .error .nameError

end Reliability.Repairable
