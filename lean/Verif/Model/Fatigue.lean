import Mathlib.Analysis.SpecialFunctions.Pow.Real
import Mathlib.Analysis.SpecialFunctions.Log.Base
import Mathlib.Data.List.MinMax
import Verif.Model.Basic

/-!
# Model of the fatigue functions of PoF.py:
SN_diagram (26-322), stress_strain_life_parameters_from_data (323-548), stress_strain_diagram (550-784), strain_life_diagram (787-1300)

Exact real arithmetic.  `fsolve`, `np.polyfit` and `ss.t.ppf` are arbitrary functions.  Only values are modelled, not how
they are drawn.
-/

namespace Reliability.Fatigue

open Reliability

/-- numpy's `x ** y` for floats: a negative base with an exponent that is not an integer gives nan (`none`; Python floats
give a complex number instead).  `0 ** y` for negative `y` (inf) is outside the theorems' hypotheses. -/
noncomputable def npPow (x y : ℝ) : Option ℝ :=
  open Classical in if 0 ≤ x ∨ ∃ k : ℤ, (k : ℝ) = y then some (x ^ y) else none

/-- scipy's `fsolve(f, x0)[0]`; `f` may be nan. -/
abbrev Solver := (ℝ → Option ℝ) → ℝ → ℝ

/-- `np.linspace(a, b, 1000)`. -/
noncomputable def linspace (a b : ℝ) : List ℝ := (List.range 1000).map fun i : ℕ => a + (i : ℝ) * ((b - a) / 999)

/-! ## stress_strain_diagram -/

/-- The arguments of `stress_strain_diagram` (PoF.py:592-605). -/
structure SSIn where
  K : ℝ
  n : ℝ
  E : ℝ
  max_strain : Option ℝ
  max_stress : Option ℝ
  min_stress : Option ℝ
  min_strain : Option ℝ
  direction : String

/-- What is plotted (three curves) and the attributes. -/
structure SSOut where
  strain1 : List ℝ
  stress1 : List ℝ
  strain2 : List ℝ
  stress2 : List ℝ
  strain3 : List ℝ
  stress3 : List ℝ
  max_stress : ℝ
  min_stress : ℝ
  max_strain : ℝ
  min_strain : ℝ

/-- PoF.py:630-631 — `ramberg_osgood`. -/
noncomputable def rambergOsgood (E K n epsilon sigma : ℝ) : Option ℝ :=
  (npPow (sigma / K) (1 / n)).map fun p => sigma / E + p - epsilon

/-- PoF.py:633-638 — `ramberg_osgood_delta`. -/
noncomputable def rambergOsgoodDelta (E K n delta_epsilon delta_sigma : ℝ) : Option ℝ :=
  (npPow (delta_sigma / (2 * K)) (1 / n)).map fun p => delta_sigma / E + 2 * p - delta_epsilon

/-- The loops PoF.py:671-678, 689-702, 713-725: solve at each strain, starting from the previous solution. -/
def chain (fsolve : Solver) (f : ℝ → ℝ → Option ℝ) : ℝ → List ℝ → List ℝ
  | _, [] => []
  | guess, e :: es => fsolve (f e) guess :: chain fsolve f (fsolve (f e) guess) es

/-- PoF.py:640-661 — (max_strain, min_strain).  A complex strain (negative base, see `npPow`) makes `fsolve` raise (the
exception class is not modelled). -/
noncomputable def ssStrains (p : SSIn) : Except Err (ℝ × ℝ) :=
  match p.max_stress, p.max_strain with
  | some ms, _ =>
    match npPow (ms / p.K) (1 / p.n) with
    | none => .error .runtimeError
    | some pw =>
      let max_strain := ms / p.E + pw
      match p.min_stress with
      | none => .ok (max_strain, -max_strain)
      | some m =>
        match npPow (-m / p.K) (1 / p.n) with
        | none => .error .runtimeError
        | some pw' => .ok (max_strain, -(-m / p.E + pw'))
  | none, some e => .ok (e, match p.min_strain with | none => -e | some m => m)
  | none, none => valueErr

/-- PoF.py:606-784 — `stress_strain_diagram`. -/
noncomputable def stressStrain (fsolve : Solver) (p : SSIn) : Except Err SSOut :=
  if p.max_stress.isSome ∧ p.max_strain.isSome then valueErr
  else if p.min_stress.isSome ∧ p.min_strain.isSome then valueErr
  else if p.max_stress = none ∧ p.max_strain = none then valueErr
  else if p.direction ∉ ["tension", "compression"] then valueErr
  else match ssStrains p with
  | .error e => .error e
  | .ok (max_strain, min_strain) =>
    let strain_range := max_strain - min_strain
    let tension := p.direction == "tension"
    let strain1 := if tension then linspace 0 max_strain else linspace 0 min_strain
    let stress1 := chain fsolve (rambergOsgood p.E p.K p.n) 10 strain1
    let delta2 := chain fsolve (rambergOsgoodDelta p.E p.K p.n) 10 (linspace 0 strain_range)
    let strain2 := if tension then linspace max_strain min_strain else linspace min_strain max_strain
    let initial2 := stress1.getLast?.getD 0
    let stress2 := delta2.map fun d => if tension then initial2 - d else initial2 + d
    let strain3 := if tension then linspace min_strain max_strain else linspace max_strain min_strain
    let initial3 := stress2.getLast?.getD 0
    let delta3 := chain fsolve (rambergOsgoodDelta p.E p.K p.n) (delta2.getLast?.getD 0) (linspace 0 strain_range)
    let stress3 := delta3.map fun d => if tension then initial3 + d else initial3 - d
    .ok { strain1, stress1, strain2, stress2, strain3, stress3, max_strain, min_strain
          max_stress := if tension then stress1.max?.getD 0 else stress2.max?.getD 0
          min_stress := if tension then stress2.min?.getD 0 else stress1.min?.getD 0 }

/-! ## strain_life_diagram -/

/-- The arguments of `strain_life_diagram` (PoF.py:852-867). -/
structure SLIn where
  E : ℝ
  sigma_f : ℝ
  epsilon_f : ℝ
  b : ℝ
  c : ℝ
  K : Option ℝ
  n : Option ℝ
  method : String
  max_strain : Option ℝ
  min_strain : Option ℝ
  max_stress : Option ℝ
  min_stress : Option ℝ

/-- The attributes, and the plotted transition life `cycles_2Nt`; a complex `min_strain` is `none`. -/
structure SLOut where
  max_stress : ℝ
  min_stress : ℝ
  max_strain : ℝ
  min_strain : Option ℝ
  cycles_to_failure : ℝ
  cycles_2Nt : ℝ

/-- PoF.py:941-946 (`coffin_manson`; `morrow` 984-991 has the same form). -/
noncomputable def coffinManson (elastic plastic b c eps_tot : ℝ) (x : ℝ) : Option ℝ :=
  match npPow x b, npPow x c with
  | some u, some v => some (elastic * u + plastic * v - eps_tot)
  | _, _ => none

/-- PoF.py:1111-1117 — `SWT`. -/
noncomputable def swt (sigma_f E epsilon_f b c sigma_max eps_tot : ℝ) (x : ℝ) : Option ℝ :=
  match npPow x (2 * b), npPow x (b + c) with
  | some u, some v => some ((sigma_f ^ 2 / E * u + sigma_f * epsilon_f * v) / sigma_max - eps_tot)
  | _, _ => none

/-- PoF.py:934-1165 — the number of reversals and the transition life.  `ms` is the mean stress, `half` the strain amplitude
(`none` if complex: `fsolve` raises).  For ms ≥ sigma_f Python's powers may be complex: outside the theorems' hypotheses. -/
noncomputable def reversals (fsolve : Solver) (p : SLIn) (max_stress max_strain ms : ℝ) (half : Option ℝ) :
    Except Err (ℝ × ℝ) :=
  if ms = 0 then
    .ok (fsolve (coffinManson (p.sigma_f / p.E) p.epsilon_f p.b p.c max_strain) 10,
      (p.epsilon_f * p.E / p.sigma_f) ^ (1 / (p.b - p.c)))
  else match half with
  | none => .error .runtimeError
  | some half =>
    if p.method = "morrow" then
      .ok (fsolve (coffinManson ((p.sigma_f - ms) / p.E) p.epsilon_f p.b p.c half) 10,
        (p.epsilon_f * p.E / (p.sigma_f - ms)) ^ (1 / (p.b - p.c)))
    else if p.method = "modified_morrow" ∨ p.method = "modified morrow" then
      .ok (fsolve (coffinManson ((p.sigma_f - ms) / p.E)
          (p.epsilon_f * ((p.sigma_f - ms) / p.sigma_f) ^ (p.c / p.b)) p.b p.c half) 10,
        (p.epsilon_f * p.E * ((p.sigma_f - ms) / p.sigma_f) ^ (p.c / p.b) / (p.sigma_f - ms)) ^ (1 / (p.b - p.c)))
    else
      .ok (fsolve (swt p.sigma_f p.E p.epsilon_f p.b p.c max_stress half) 10,
        (p.epsilon_f * p.E / p.sigma_f) ^ (1 / (p.b - p.c)))

/-- PoF.py:892-933 — (max_stress, min_stress, max_strain, min_strain); only called if a maximum was given. -/
noncomputable def slLoading (fsolve : Solver) (p : SLIn) (K n : ℝ) : Except Err (ℝ × ℝ × ℝ × Option ℝ) :=
  match p.max_stress, p.max_strain with
  | some ms, _ =>
    match npPow (ms / K) (1 / n) with
    | none => .error .runtimeError
    | some pw =>
      let max_strain := ms / p.E + pw
      match p.min_stress with
      | none => .ok (ms, -ms, max_strain, some (-max_strain))
      | some m => .ok (ms, m, max_strain, (npPow (m / K) (1 / n)).map fun q => m / p.E + q)
  | none, some e =>
    let min_strain := match p.min_strain with | none => -e | some m => m
    .ok (fsolve (rambergOsgood p.E K n e) 100, fsolve (rambergOsgood p.E K n min_strain) (-100), e, some min_strain)
  | none, none => valueErr

/-- PoF.py:868-1167 — `strain_life_diagram`; `none`: neither maximum was given, no life is calculated (only a plot is made,
1320-1400). -/
noncomputable def strainLife (fsolve : Solver) (p : SLIn) : Except Err (Option SLOut) :=
  if p.max_stress.isSome ∧ p.max_strain.isSome then valueErr
  else if p.min_stress.isSome ∧ p.min_strain.isSome then valueErr
  else if (p.max_stress.isSome ∨ p.max_strain.isSome) ∧ (p.K = none ∨ p.n = none) then valueErr
  else if p.method ∉ ["morrow", "modified_morrow", "modified morrow", "SWT"] then valueErr
  else if p.max_stress.isSome ∨ p.max_strain.isSome then
    match slLoading fsolve p (p.K.getD 0) (p.n.getD 0) with
    | .error e => .error e
    | .ok (max_stress, min_stress, max_strain, min_strain) =>
      let mean_stress := min_stress + (max_stress - min_stress) / 2
      match reversals fsolve p max_stress max_strain mean_stress (min_strain.map fun m => (max_strain - m) / 2) with
      | .error e => .error e
      | .ok (n2, nt) => .ok (some ⟨max_stress, min_stress, max_strain, min_strain, n2 / 2, nt⟩)
  else .ok none

/-! ## stress_strain_life_parameters_from_data -/

/-- The attributes; the strain-life ones only if cycles were given. -/
structure ParamsOut where
  K : ℝ
  n : ℝ
  life : Option (ℝ × ℝ × ℝ × ℝ)   -- sigma_f, b, epsilon_f, c

/-- PoF.py:369-402, 441-449 for lists (or arrays) of numbers with stress/strain/cycles positive and plastic strain positive
(otherwise the logarithms are nan).  `polyfit x y` = (slope, intercept).  numpy raises ValueError for lengths that do not
broadcast (length-1 lists are not modelled) and polyfit TypeError for lengths that differ. -/
noncomputable def paramsFromData (polyfit : List ℝ → List ℝ → ℝ × ℝ) (stress strain : List ℝ) (E : ℝ)
    (cycles : Option (List ℝ)) : Except Err ParamsOut :=
  if strain.length ≠ stress.length then valueErr
  else
    let log10 := fun x : ℝ => Real.logb 10 x
    let elastic := stress.map (· / E)
    let plastic := List.zipWith (· - ·) strain elastic
    let fit := polyfit (plastic.map log10) (stress.map log10)
    match cycles with
    | none => .ok ⟨(10 : ℝ) ^ fit.2, fit.1, none⟩
    | some cycles =>
      if cycles.length ≠ stress.length then .error .typeError
      else
        let cycles_2Nf := cycles.map (2 * ·)
        let fit2 := polyfit (cycles_2Nf.map log10) (elastic.map log10)
        let fit3 := polyfit (cycles_2Nf.map log10) (plastic.map log10)
        .ok ⟨(10 : ℝ) ^ fit.2, fit.1, some (E * (10 : ℝ) ^ fit2.2, fit2.1, (10 : ℝ) ^ fit3.2, fit3.1)⟩

/-! ## SN_diagram -/

/-- The arguments of `SN_diagram` that matter for its values: lists (or arrays) of numbers. -/
structure SNIn where
  stress : List ℝ
  cycles : List ℝ
  stress_runout : Option (List ℝ)
  cycles_runout : Option (List ℝ)
  xscale : String
  stress_trace : Option (List ℝ)
  cycles_trace : Option (List ℝ)
  show_endurance_limit : Option Bool
  method_for_bounds : Option String
  CI : ℝ

/-- What is plotted: the line (as a function of the number of cycles), the bounds, the endurance limit, the lives at
`stress_trace`, the strengths at `cycles_trace`. -/
structure SNOut where
  line : ℝ → ℝ
  bounds : Option ((ℝ → ℝ) × (ℝ → ℝ))   -- lower, upper
  endurance_limit : Option ℝ
  lives : List ℝ
  strengths : List ℝ

/-- PoF.py:133-146 — whether the endurance limit is shown. -/
def showLimit (p : SNIn) : Bool :=
  match p.stress_runout, p.show_endurance_limit with
  | none, none => false
  | none, some b => if b then false else b
  | some _, none => true
  | some _, some b => b

/-- PoF.py:107-120 — the lengths of the run-out lists are compared if both are given. -/
def runoutMismatch (p : SNIn) : Bool :=
  match p.stress_runout, p.cycles_runout with
  | some s, some c => decide (c.length ≠ s.length)
  | _, _ => false

/-- PoF.py:102-321 — `SN_diagram`.  `cycles` positive; at least two points (three for statistical bounds).  With the limit
shown but `cycles_runout` missing `np.hstack([cycles, None])`, `max` raises TypeError (222). -/
noncomputable def snDiagram (polyfit : List ℝ → List ℝ → ℝ × ℝ) (tppf : ℝ → ℕ → ℝ) (p : SNIn) : Except Err SNOut :=
  if p.cycles.length ≠ p.stress.length then valueErr
  else if runoutMismatch p then valueErr
  else if p.method_for_bounds ∉ [some "statistical", some "residual", none] then valueErr
  else if p.CI ≤ 0 ∨ p.CI ≥ 1 then valueErr
  else if p.xscale ∉ ["log", "linear"] then valueErr
  else
    let log10 := fun x : ℝ => Real.logb 10 x
    let log10_cycles := p.cycles.map log10
    let fit := polyfit log10_cycles p.stress
    let m := fit.1
    let c := fit.2
    let y_pred := log10_cycles.map fun x => m * x + c
    let residual := ((List.zipWith (fun a b => |a - b|) y_pred p.stress).max?).getD 0
    let lim := (p.stress_runout.getD []).sum / ((p.stress_runout.getD []).length : ℝ)
    let shown := showLimit p
    if shown ∧ p.cycles_runout = none then .error .typeError
    else
      let line := fun N => let y := m * log10 N + c; if shown ∧ y < lim then lim else y
      let lives := (p.stress_trace.getD []).map fun s => (10 : ℝ) ^ ((s - c) / m)
      let strengths := (p.cycles_trace.getD []).map fun N => m * log10 N + c
      let endurance_limit := if shown then some lim else none
      if p.method_for_bounds = some "residual" then
        if shown then
          let upper := fun N => let y := m * log10 N + c + residual; if y < lim + residual then lim + residual else y
          let lower := fun N => let y := m * log10 N + c - residual; if y < lim - residual then lim - residual else y
          .ok ⟨line, some (lower, upper), endurance_limit, lives, strengths⟩
        else .error .nameError
      else if p.method_for_bounds = some "statistical" then
        let n := p.cycles.length
        let x_av := p.cycles.sum / (n : ℝ)
        let STEYX := Real.sqrt ((List.zipWith (fun s y => (s - y) ^ 2) p.stress y_pred).sum / ((n : ℝ) - 2))
        let tinv := tppf ((p.CI + 1) / 2) (n - 2)
        let DEVSQ := (p.cycles.map fun x => (x - x_av) ^ 2).sum
        let CL := fun N => tinv * STEYX * Real.sqrt (1 / (n : ℝ) + (N - x_av) ^ 2 / DEVSQ)
        .ok ⟨line, some (fun N => line N - CL N, fun N => line N + CL N), endurance_limit, lives, strengths⟩
      else .ok ⟨line, none, endurance_limit, lives, strengths⟩

end Reliability.Fatigue
