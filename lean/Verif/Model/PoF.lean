import Mathlib.Analysis.SpecialFunctions.Log.Base
import Mathlib.Analysis.SpecialFunctions.Pow.Real
import Mathlib.Analysis.SpecialFunctions.Trigonometric.Basic
import Verif.Model.Basic

/-!
# PoF.py: Palmgren-Miner, creep, Arrhenius acceleration factor, crack initiation and crack growth

Numbers are real; printing and plotting are not modelled (the values printed are those before rounding).
-/

namespace Reliability.PoF

open List

/-! ## palmgren_miner_linear_damage (PoF.py:1375-1448) -/

/-- The printed results. -/
structure Miner where
  consumed : ℝ
  service_life : ℝ
  damage_frac : List ℝ

/-- PoF.py:1425-1433 (`stress` is only used for its length and for printing). -/
noncomputable def palmgrenMiner (rated_life time_at_stress stress : List ℝ) : Except Err Miner :=
  if rated_life.length ≠ time_at_stress.length ∨ rated_life.length ≠ stress.length then valueErr
  else if (0 : ℝ) ∈ rated_life then .error .zeroDivision
  else
    let life_frac := zipWith (fun x r => x / r) time_at_stress rated_life
    let consumed := life_frac.sum
    if consumed = 0 then .error .zeroDivision
    else
      let service_life := 1 / consumed
      .ok ⟨consumed, service_life, life_frac.map fun x => service_life * x⟩

/-! ## creep_failure_time (PoF.py:2283-2328) -/

/-- PoF.py:2319-2322, for `time_low > 0`. -/
noncomputable def creepFailureTime (temp_low temp_high time_low C : ℝ) : Except Err ℝ :=
  let LMP := (temp_low + 459.67) * (C + Real.logb 10 time_low)
  if temp_high + 459.67 = 0 then .error .zeroDivision
  else .ok ((10 : ℝ) ^ (LMP / (temp_high + 459.67) - C))

/-! ## acceleration_factor (PoF.py:2331-2424) -/

/-- The attributes of the object. -/
structure Arrhenius where
  AF : ℝ
  T_use : ℝ
  T_acc : ℝ
  Ea : ℝ

/-- The constant written in PoF.py:2384 (Boltzmann's constant in eV/K). -/
noncomputable def kB : ℝ := 8.617333262145e-5

/-- PoF.py:2370-2424.  `ok none` is an object on which no attribute was set (all three optional inputs given,
`print_results=False`); with `print_results=True` printing such an object fails.  Division by zero (temperatures of
-273.15, equal temperatures, `Ea = 0`) is not modelled. -/
noncomputable def accelerationFactor (AF T_use T_acc Ea : Option ℝ) (print_results : Bool) :
    Except Err (Option Arrhenius) :=
  match T_use with
  | none => valueErr
  | some Tu =>
    match AF, T_acc, Ea with
    | none, some Ta, some E =>
      let a := E / kB
      .ok (some ⟨Real.exp (a / (Tu + 273.15) - a / (Ta + 273.15)), Tu, Ta, E⟩)
    | some A, some Ta, none =>
      .ok (some ⟨A, Tu, Ta, Real.log A * kB / (1 / (Tu + 273.15) - 1 / (Ta + 273.15))⟩)
    | some A, none, some E =>
      .ok (some ⟨A, Tu, 1 / (1 / (Tu + 273.15) - Real.log A * kB / E) - 273.15, E⟩)
    | some _, some _, some _ => if print_results then .error .attributeError else .ok none
    | _, _, _ => valueErr

/-! ## creep_rupture_curves (PoF.py:2169-2280) -/

/-- The loop at PoF.py:2240-2248: the temperatures in order of first appearance, each with the index of its first row. -/
def firstRows {α : Type} [DecidableEq α] : List α → List α → ℕ → List (α × ℕ)
  | [], _, _ => []
  | T :: rest, seen, i =>
    if T ∈ seen then firstRows rest seen (i + 1) else (T, i) :: firstRows rest (seen ++ [T]) (i + 1)

/-- `xs[i:j]`. -/
def slice {α : Type} (xs : List α) (i j : ℕ) : List α := (xs.take j).drop i

/-- PoF.py:2255-2257: the rows used for each temperature run from its first row to the first row of the next new
temperature. -/
def curves {α β : Type} (rows : List β) : List (α × ℕ) → List (α × List β)
  | [] => []
  | [(T, i)] => [(T, slice rows i rows.length)]
  | (T, i) :: (T', j) :: rest => (T, slice rows i j) :: curves rows ((T', j) :: rest)

/-- The data shown: for each temperature the (time to failure, stress) points with their fitted line `(m, c)`, and the time
to failure read off for the trace. -/
structure Creep where
  lines : List (ℝ × List (ℝ × ℝ) × (ℝ × ℝ))
  trace : List ℝ

/-- PoF.py:2217-2273.  `polyfit` is numpy's least squares line through the points (log10 of the time, stress), an oracle. -/
noncomputable def creepRuptureCurves (polyfit : List (ℝ × ℝ) → ℝ × ℝ) (temp_array stress_array TTF_array : List ℝ)
    (stress_trace temp_trace : Option ℝ) : Except Err Creep :=
  if (stress_trace.isSome ∧ temp_trace.isNone) ∨ (stress_trace.isNone ∧ temp_trace.isSome) then valueErr
  else if temp_array.length < 2 ∨ stress_array.length < 2 ∨ TTF_array.length < 2 then valueErr
  else if temp_array.length ≠ stress_array.length ∨ temp_array.length ≠ TTF_array.length then valueErr
  else
    let uniq := firstRows temp_array [] 0
    -- `temp_trace not in unique_temps`: None is never in the list
    open Classical in
    if ¬ ∃ T, temp_trace = some T ∧ T ∈ uniq.map Prod.fst then valueErr
    else
      let groups := curves (zip TTF_array stress_array) uniq
      let lines := groups.map fun g => (g.1, g.2, polyfit (g.2.map fun r => (Real.logb 10 r.1, r.2)))
      .ok ⟨lines, (lines.filter fun l => temp_trace = some l.1).filterMap fun l =>
        stress_trace.map fun y => (10 : ℝ) ^ ((y - l.2.2.2) / l.2.2.1)⟩

/-! ## fracture_mechanics_crack_growth (PoF.py:1738-2167) -/

/-- The arguments (PoF.py:1868-1883). -/
structure CrackIn where
  Kc : ℝ
  C : ℝ
  m : ℝ
  P : ℝ
  W : ℝ
  t : ℝ
  Kt : ℝ
  a_initial : ℝ
  D : Option ℝ
  a_final : Option ℝ
  crack_type : String

/-- PoF.py:1890-1893. -/
def CrackIn.d (p : CrackIn) : ℝ := p.D.getD 0

/-- The geometry factor as a function of `x = length / W` (PoF.py:2012-2021, 2036-2046, 2049-2058). -/
noncomputable def CrackIn.fg (p : CrackIn) (x : ℝ) : ℝ :=
  if p.crack_type = "edge" then 1.12 - 0.231 * x + 10.55 * x ^ 2 - 21.72 * x ^ 3 + 30.39 * x ^ 4
  else (1 / Real.cos (Real.pi * x)) ^ (0.5 : ℝ)

/-- The local variables of the loop (PoF.py:2010-2029). -/
structure CrackState where
  a : ℝ
  a_effective : ℝ
  N : ℕ
  a_array : List ℝ
  a_crit : ℝ
  a_crit_array : List ℝ
  stage1 : ℕ
  finished : Bool

/-- PoF.py:2010-2011, 2024-2029 (`a_crit` is overwritten before it is read). -/
def CrackIn.start (p : CrackIn) : CrackState :=
  ⟨p.a_initial, p.a_initial + p.d, 0, [], 0, [], 0, false⟩

/-- PoF.py:2022. -/
noncomputable def CrackIn.lt2 (p : CrackIn) : ℝ :=
  p.d / ((1.12 * p.Kt / p.fg ((p.a_initial + p.d) / p.W)) ^ 2 - 1)

/-- One pass through the loop (PoF.py:2030-2075).  `a_array[N - 2]` at `N = 1` is `a_array[-1]`, the only element.
Division by zero and negative stresses (crack longer than the net width) are not modelled: the theorems are about cracks
within the net width. -/
noncomputable def CrackIn.step (p : CrackIn) (s : CrackState) : CrackState :=
  let area := p.t * (p.W - 2 * p.d - s.a)
  let S := p.P / area * 10 ^ 6
  let f_g := p.fg (s.a / p.W)
  let delta_K :=
    if s.a < p.lt2 then f_g * S * (Real.pi * s.a / 1000) ^ (0.5 : ℝ)
    else f_g * S * (Real.pi * s.a_effective / 1000) ^ (0.5 : ℝ)
  let da := p.C * delta_K ^ p.m * 1000
  let a_crit := 1 / Real.pi * (p.Kc / (f_g * S)) ^ 2 + p.d / 1000
  let a_effective := s.a_effective + da
  let a := s.a + da
  let N := s.N + 1
  let a_array := s.a_array ++ [a]
  let stage1 := if a_array.getD (N - 2) 0 < p.lt2 ∧ a_array.getD (N - 1) 0 > p.lt2 then N - 1 else s.stage1
  let fin1 := if a_effective > a_crit * 1000 then true else s.finished
  let fin2 := match p.a_final with
    | none => fin1
    | some af => if a_effective > af + p.d then true else fin1
  ⟨a, a_effective, N, a_array, a_crit, s.a_crit_array ++ [a_crit * 1000 - p.d], stage1, fin2⟩

/-- `while growth_finished is False`; `none`: not finished within `fuel` passes. -/
noncomputable def CrackIn.loop (p : CrackIn) : ℕ → CrackState → Option CrackState
  | 0, s => if s.finished then some s else none
  | fuel + 1, s => if s.finished then some s else p.loop fuel (p.step s)

/-- The results of the simplified method (PoF.py:1905-1955). -/
structure Simplified where
  Nf_stage_1 : ℝ
  Nf_stage_2 : ℝ
  Nf_total : ℝ
  final_crack_length : ℝ
  transition_length : ℝ

/-- PoF.py:1906-1909. -/
noncomputable def CrackIn.fgFixed (p : CrackIn) : ℝ := if p.crack_type = "edge" then 1.12 else 1.0

/-- PoF.py:1905. -/
noncomputable def CrackIn.Smax (p : CrackIn) : ℝ := p.P / (p.t * (p.W - 2 * p.d)) * 10 ^ 6

/-- PoF.py:1911-1913. -/
noncomputable def CrackIn.acrit (p : CrackIn) : ℝ := 1 / Real.pi * (p.Kc / (p.Smax * p.fgFixed)) ^ 2 + p.d / 1000

/-- PoF.py:1914-1934: the final length (m, including the notch). -/
noncomputable def CrackIn.af (p : CrackIn) : ℝ :=
  match p.a_final with
  | none => p.acrit
  | some af => if af < p.acrit * 1000 - p.d then (af + p.d) / 1000 else p.acrit

/-- PoF.py:1910-1955; `lt` divides by zero when `1.12*Kt = f_g_fixed`. -/
noncomputable def CrackIn.simplified (p : CrackIn) : Except Err Simplified :=
  let m_exp := -0.5 * p.m + 1
  let a_f := p.af
  if (1.12 * p.Kt / p.fgFixed) ^ 2 - 1 = 0 then .error .zeroDivision
  else
    let lt := p.d / ((1.12 * p.Kt / p.fgFixed) ^ 2 - 1) / 1000
    let den := m_exp * p.C * p.Smax ^ p.m * Real.pi ^ (0.5 * p.m) * p.fgFixed ^ p.m
    let Nf_1 := if lt > p.a_initial / 1000 then (lt ^ m_exp - (p.a_initial / 1000) ^ m_exp) / den else 0
    let a_i := if lt > p.a_initial / 1000 then lt + p.d / 1000 else p.a_initial / 1000
    let Nf_2 := (a_f ^ m_exp - a_i ^ m_exp) / den
    .ok ⟨Nf_1, Nf_2, Nf_1 + Nf_2, a_f * 1000 - p.d, lt * 1000⟩

/-- The attributes of the object. -/
structure CrackOut where
  simplified : Simplified
  Nf_stage_1 : ℕ
  Nf_stage_2 : ℕ
  Nf_total : ℕ
  final_crack_length : ℝ
  transition_length : ℝ

/-- PoF.py:1885-2078; `ok none`: the loop has not finished within `fuel` cycles. -/
noncomputable def CrackIn.grow (p : CrackIn) (fuel : ℕ) : Except Err (Option CrackOut) :=
  if p.m = 2 then valueErr
  else if p.crack_type ∉ ["center", "edge", "centre"] then valueErr
  else if p.W - 2 * p.d < 0 then valueErr
  else
    match p.simplified with
    | .error e => .error e
    | .ok simp =>
      if (1.12 * p.Kt / p.fg ((p.a_initial + p.d) / p.W)) ^ 2 - 1 = 0 then .error .zeroDivision
      else
        .ok ((p.loop fuel p.start).map fun s =>
          ⟨simp, s.stage1, s.N - s.stage1, s.N, s.a_crit * 1000 - p.d, p.lt2⟩)

/-! ## fracture_mechanics_crack_initiation (PoF.py:1450-1735) -/

/-- The arguments (PoF.py:1540-1556). -/
structure InitIn where
  P : ℝ
  A : ℝ
  Sy : ℝ
  E : ℝ
  K : ℝ
  n : ℝ
  b : ℝ
  c : ℝ
  sigma_f : ℝ
  epsilon_f : ℝ
  Kt : ℝ
  q : ℝ
  method : String

/-- The attributes of the object. -/
structure InitOut where
  sigma_min : ℝ
  sigma_max : ℝ
  sigma_mean : ℝ
  epsilon_min : ℝ
  epsilon_max : ℝ
  epsilon_mean : ℝ
  cycles_to_failure : ℝ

/-- PoF.py:1560. -/
noncomputable def InitIn.Snet (p : InitIn) : ℝ := 10 ^ 6 * p.P / p.A

/-- PoF.py:1561. -/
noncomputable def InitIn.Kf (p : InitIn) : ℝ := 1 + p.q * (p.Kt - 1)

/-- PoF.py:1556-1700; `fsolve f x0` is scipy's root finder, an oracle. -/
noncomputable def crackInitiation (fsolve : (ℝ → ℝ) → ℝ → ℝ) (p : InitIn) : Except Err InitOut :=
  if p.method ∉ ["morrow", "modified_morrow", "SWT"] then valueErr
  else
    let sigma_epsilon := (p.Kf * p.Snet) ^ 2 / p.E
    let dede := (p.Kf * p.Snet * 2) ^ 2 / p.E
    if p.Kt * p.Snet > p.Sy then
      let sigma := fsolve (fun s => s / p.E + (s / p.K) ^ (1 / p.n) - sigma_epsilon / s) 100
      let epsilon := sigma_epsilon / sigma
      let delta_sigma := fsolve (fun x => x / (2 * p.E) + (x / (2 * p.K)) ^ (1 / p.n) - dede / (2 * x)) 100
      let delta_epsilon := dede / delta_sigma
      if delta_epsilon > 1 then valueErr
      else
        let sigma_mean := sigma - delta_sigma + delta_sigma * 0.5
        let Nf2 :=
          if p.method = "morrow" then
            fsolve (fun x => (p.sigma_f - sigma_mean) / p.E * x ^ p.b + p.epsilon_f * x ^ p.c - delta_epsilon * 0.5) 100
          else if p.method = "modified_morrow" then
            fsolve (fun x => (p.sigma_f - sigma_mean) / p.E * x ^ p.b +
              p.epsilon_f * ((p.sigma_f - sigma_mean) / p.sigma_f) ^ (p.c / p.b) * x ^ p.c - delta_epsilon * 0.5) 100
          else
            fsolve (fun x => p.sigma_f ^ 2 / p.E * x ^ (2 * p.b) + p.sigma_f * p.epsilon_f * x ^ (p.b + p.c) -
              sigma * delta_epsilon * 0.5) 100
        .ok ⟨sigma - delta_sigma, sigma, sigma_mean, epsilon - delta_epsilon, epsilon,
          epsilon - delta_epsilon + delta_epsilon * 0.5, Nf2 / 2⟩
    else
      let sigma := fsolve (fun s => s / p.E - sigma_epsilon / s) 100
      let epsilon := sigma_epsilon / sigma
      let delta_sigma := fsolve (fun x => x / (2 * p.E) - dede / (2 * x)) 100
      let delta_epsilon := dede / delta_sigma
      let sigma_mean := sigma - delta_sigma + delta_sigma * 0.5
      let Nf2 :=
        if p.method = "morrow" then
          fsolve (fun x => (p.sigma_f - sigma_mean) / p.E * x ^ p.b - delta_epsilon * 0.5) 1000
        else if p.method = "modified_morrow" then
          fsolve (fun x => (p.sigma_f - sigma_mean) / p.E * x ^ p.b - delta_epsilon * 0.5) 1000
        else
          fsolve (fun x => p.sigma_f ^ 2 / p.E * x ^ (2 * p.b) - sigma * delta_epsilon * 0.5) 1000
      .ok ⟨sigma - delta_sigma, sigma, sigma_mean, epsilon - delta_epsilon, epsilon,
        epsilon - delta_epsilon + delta_epsilon * 0.5, Nf2 / 2⟩

end Reliability.PoF
