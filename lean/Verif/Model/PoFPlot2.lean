import Verif.Model.PoFPlot
import Verif.Model.PoF

/-!
# Model of further plots of PoF.py: stress_strain_diagram (720-777), stress_strain_life_parameters_from_data (405-530),
creep_rupture_curves (2231-2280), fracture_mechanics_crack_growth (2143-2166)

What is drawn and the limits of the axes.  Colours, styles, the legend and the equations printed in it are left out; numbers written into the
plot are not rounded.
-/

namespace Reliability.Fatigue

open Reliability
open Reliability.Repairable (decadeUp decadeDown minmax)

/-! ## stress_strain_diagram -/

/-- What `stress_strain_diagram` draws: initial loading, the two branches of the loop, the two tips that are labelled. -/
structure SSPlot where
  loading : List ℝ × List ℝ
  branch1 : List ℝ × List ℝ
  branch2 : List ℝ × List ℝ
  left : ℝ × ℝ
  right : ℝ × ℝ
  xlim : ℝ × ℝ
  ylim : ℝ × ℝ

/-- `(xs[-1], ys[-1])`. -/
def tip (xs ys : List ℝ) : ℝ × ℝ := (xs.getLast?.getD 0, ys.getLast?.getD 0)

/-- PoF.py:721-774. -/
noncomputable def ssDraw (p : SSIn) (r : SSOut) : SSPlot :=
  let tension := p.direction == "tension"
  let xmax := max |r.max_strain| |r.min_strain| * 2
  let ymax := max |r.max_stress| |r.min_stress| * (14 / 10)
  { loading := (r.strain1, r.stress1), branch1 := (r.strain2, r.stress2), branch2 := (r.strain3, r.stress3)
    left := if tension then tip r.strain2 r.stress2 else tip r.strain3 r.stress3
    right := if tension then tip r.strain3 r.stress3 else tip r.strain2 r.stress2
    xlim := (-xmax, xmax), ylim := (-ymax, ymax) }

/-- `stress_strain_diagram` with its plot (PoF.py:606-784). -/
noncomputable def stressStrainPlot (fsolve : Solver) (p : SSIn) : Except Err (SSOut × SSPlot) :=
  (stressStrain fsolve p).map fun r => (r, ssDraw p r)

/-! ## stress_strain_life_parameters_from_data -/

/-- The first figure: the fitted curve, the data, the limits. -/
structure StressStrainFig where
  strain : List ℝ
  stress : List ℝ
  points : List (ℝ × ℝ)
  xlim : ℝ × ℝ
  ylim : ℝ × ℝ

/-- The second figure: the fitted curves, the data, the transition, the limits. -/
structure StrainLifeFig where
  xs : List ℝ
  total : List ℝ
  plastic : List ℝ
  elastic : List ℝ
  points : List (ℝ × ℝ)
  transition : List (ℝ × ℝ)
  note : Note
  xlim : ℝ × ℝ
  ylim : ℝ × ℝ

/-- PoF.py:405-440. -/
noncomputable def stressStrainFig (q : ParamsOut) (E : ℝ) (stress strain : List ℝ) : Except Err StressStrainFig := do
  let s ← minmax stress
  let e ← minmax strain
  let stress_array := Np.linspace 0 s.2 10000
  .ok { stress := stress_array
        strain := stress_array.map fun x => x / E + (x / q.K) ^ (1 / q.n)
        points := List.zip strain stress
        xlim := (0, e.2 * (12 / 10)), ylim := (0, s.2 * (12 / 10)) }

/-- `10 ** (int(np.floor(np.log10(x))) - 1)`. -/
noncomputable def decadeBelow (x : ℝ) : ℝ := (10 : ℝ) ^ (⌊Real.logb 10 x⌋ - 1 : ℤ)

/-- `10 ** (int(np.ceil(np.log10(x))) + 1)`. -/
noncomputable def decadeAbove (x : ℝ) : ℝ := (10 : ℝ) ^ (⌈Real.logb 10 x⌉ + 1 : ℤ)

/-- PoF.py:452-530; `life` = (sigma_f, b, epsilon_f, c). -/
noncomputable def strainLifeFig (E sigma_f b epsilon_f c : ℝ) (strain cycles : List ℝ) : Except Err StrainLifeFig := do
  let cycles_2Nf := cycles.map (2 * ·)
  let n ← minmax cycles_2Nf
  let e ← minmax strain
  let nt := (epsilon_f * E / sigma_f) ^ (1 / (b - c))
  let total := fun x : ℝ => sigma_f / E * x ^ b + epsilon_f * x ^ c
  .ok { xs := reversalGrid, total := reversalGrid.map total
        plastic := reversalGrid.map fun x => epsilon_f * x ^ c
        elastic := reversalGrid.map fun x => sigma_f / E * x ^ b
        points := List.zip cycles_2Nf strain
        transition := [(nt, (10 : ℝ) ^ (-6 : ℤ)), (nt, total nt)]
        note := ⟨nt, decadeBelow e.1, "2N_t", (⌊nt⌋ : ℤ), true⟩
        xlim := (decadeBelow n.1, decadeAbove n.2)
        ylim := (decadeBelow e.1, decadeAbove e.2) }

/-- The second figure if cycles were given. -/
noncomputable def lifeFig? (q : ParamsOut) (E : ℝ) (strain : List ℝ) : Option (List ℝ) → Except Err (Option StrainLifeFig)
  | none => .ok none
  | some cycles =>
    match q.life with
    | none => .ok none
    | some (sigma_f, b, epsilon_f, c) => (strainLifeFig E sigma_f b epsilon_f c strain cycles).map some

/-- Both figures, if shown. -/
noncomputable def paramsFigs (q : ParamsOut) (E : ℝ) (stress strain : List ℝ) (cycles : Option (List ℝ)) :
    Bool → Except Err (Option (StressStrainFig × Option StrainLifeFig))
  | false => .ok none
  | true => do
    let f ← stressStrainFig q E stress strain
    let g ← lifeFig? q E strain cycles
    .ok (some (f, g))

/-- `stress_strain_life_parameters_from_data` with its plots (PoF.py:376-548). -/
noncomputable def paramsPlot (polyfit : List ℝ → List ℝ → ℝ × ℝ) (stress strain : List ℝ) (E : ℝ) (cycles : Option (List ℝ))
    (show_plot : Bool) : Except Err (ParamsOut × Option (StressStrainFig × Option StrainLifeFig)) := do
  let q ← paramsFromData polyfit stress strain E cycles
  let f ← paramsFigs q E stress strain cycles show_plot
  .ok (q, f)

end Reliability.Fatigue

namespace Reliability.PoF

open Reliability Reliability.Fatigue
open Reliability.Repairable (minmax)

/-! ## creep_rupture_curves -/

/-- One temperature: its points and its line. -/
structure CreepCurve where
  temp : ℝ
  points : List (ℝ × ℝ)
  ys : List ℝ

/-- What `creep_rupture_curves` draws; the lines share their times `xs`. -/
structure CreepPlot where
  xs : List ℝ
  curves : List CreepCurve
  traces : List (List (ℝ × ℝ))
  xlim : ℝ × ℝ
  ylim : ℝ × ℝ

/-- `np.logspace(np.log10(a), np.log10(b), 100)`. -/
noncomputable def creepGrid (a b : ℝ) : List ℝ :=
  (Np.linspace (Real.logb 10 a) (Real.logb 10 b) 100).map fun u => (10 : ℝ) ^ u

/-- PoF.py:2231-2280. -/
noncomputable def creepDraw (out : Creep) (stress_array TTF_array : List ℝ) (stress_trace : Option ℝ) : Except Err CreepPlot := do
  let t ← minmax TTF_array
  let s ← minmax stress_array
  let xmin := decadeBelow t.1
  let xmax := decadeAbove t.2
  let delta := (s.2 - s.1) * (2 / 10)
  let ymin := s.1 - delta
  let ymax := s.2 + delta
  let xvals := creepGrid xmin xmax
  .ok { xs := xvals
        curves := out.lines.map fun l => ⟨l.1, l.2.1, xvals.map fun x => l.2.2.1 * Real.logb 10 x + l.2.2.2⟩
        traces := out.trace.map fun x => [(xmin, stress_trace.getD 0), (x, stress_trace.getD 0), (x, ymin)]
        xlim := (xmin, xmax), ylim := (ymin, ymax) }

/-- `creep_rupture_curves` (PoF.py:2217-2280). -/
noncomputable def creepPlot (polyfit : List (ℝ × ℝ) → ℝ × ℝ) (temp_array stress_array TTF_array : List ℝ)
    (stress_trace temp_trace : Option ℝ) : Except Err (Creep × CreepPlot) := do
  let out ← creepRuptureCurves polyfit temp_array stress_array TTF_array stress_trace temp_trace
  let d ← creepDraw out stress_array TTF_array stress_trace
  .ok (out, d)

/-! ## fracture_mechanics_crack_growth -/

/-- What the plot of the iterative method shows. -/
structure CrackPlot where
  N : List ℝ
  critical : List ℝ
  crack : List ℝ
  guide : List (ℝ × ℝ)
  xlim : ℝ × ℝ
  ylim : ℝ × ℝ

/-- PoF.py:2143-2166 at the end of the loop; `N_array` = 1, …, N (2029, 2068). -/
noncomputable def crackDraw (s : CrackState) : Except Err CrackPlot := do
  let a ← minmax s.a_array
  let k ← minmax s.a_crit_array
  .ok { N := (List.range s.N).map fun i : ℕ => ((i + 1 : ℕ) : ℝ)
        critical := s.a_crit_array, crack := s.a_array
        guide := [(0, a.2), (s.N, a.2), (s.N, 0)]
        xlim := (0, s.N * (11 / 10)), ylim := (0, k.2 * (12 / 10)) }

/-- The plot of `fracture_mechanics_crack_growth`; `none`: the loop has not finished within `fuel` cycles. -/
noncomputable def crackPlot (p : CrackIn) (fuel : ℕ) : Except Err (Option CrackPlot) := do
  let out ← p.grow fuel
  match p.loop fuel p.start with
  | none => .ok none
  | some s => if out.isSome then (crackDraw s).map some else .ok none

end Reliability.PoF
