import Verif.Model.Fatigue
import Verif.Model.GrowthPlot

/-!
# Model of the plots of PoF.py: strain_life_diagram (928-1165, 1190-1400), SN_diagram (172-322)

What is drawn and the limits of the axes.  Colours, styles, the legend and the equation printed in it are left out.
-/

namespace Reliability.Fatigue

open Reliability
open Reliability.Repairable (decadeUp decadeDown)

/-- `np.logspace(1, 8, 1000)` (PoF.py:928, 1323). -/
noncomputable def reversalGrid : List ℝ := (linspace 1 8).map fun u => (10 : ℝ) ^ u

/-- A number written into the plot: where, what, the value, and whether it stands to the right of its position. -/
structure Note where
  x : ℝ
  y : ℝ
  name : String
  value : ℝ
  toRight : Bool

/-- What `strain_life_diagram` draws. -/
structure SLPlot where
  xs : List ℝ
  total : List ℝ
  plastic : List ℝ
  elastic : List ℝ
  transition : List (ℝ × ℝ)
  xlim : ℝ × ℝ
  ylim : ℝ × ℝ
  point : Option (ℝ × ℝ)
  guide : List (ℝ × ℝ)
  notes : List Note

/-- `epsilon_total`, `plastic_strain_line`, `elastic_strain_line` as functions of the reversals (PoF.py:949-971, 1001-1027, 1053-1098,
1130-1162, 1324-1358).  `ms` is the mean stress. -/
noncomputable def slTotal (p : SLIn) (max_stress ms : ℝ) (x : ℝ) : ℝ :=
  if ms = 0 then p.sigma_f / p.E * x ^ p.b + p.epsilon_f * x ^ p.c
  else if p.method = "morrow" then (p.sigma_f - ms) / p.E * x ^ p.b + p.epsilon_f * x ^ p.c
  else if p.method = "modified_morrow" ∨ p.method = "modified morrow" then
    (p.sigma_f - ms) / p.E * x ^ p.b + p.epsilon_f * ((p.sigma_f - ms) / p.sigma_f) ^ (p.c / p.b) * x ^ p.c
  else (p.sigma_f ^ 2 / p.E * x ^ (2 * p.b) + p.sigma_f * p.epsilon_f * x ^ (p.b + p.c)) / max_stress

@[inherit_doc slTotal]
noncomputable def slPlastic (p : SLIn) (max_stress ms : ℝ) (x : ℝ) : ℝ :=
  if ms = 0 then p.epsilon_f * x ^ p.c
  else if p.method = "morrow" then p.epsilon_f * x ^ p.c
  else if p.method = "modified_morrow" ∨ p.method = "modified morrow" then
    p.epsilon_f * ((p.sigma_f - ms) / p.sigma_f) ^ (p.c / p.b) * x ^ p.c
  else p.sigma_f * p.epsilon_f * x ^ (p.b + p.c) / max_stress

@[inherit_doc slTotal]
noncomputable def slElastic (p : SLIn) (max_stress ms : ℝ) (x : ℝ) : ℝ :=
  if ms = 0 then p.sigma_f / p.E * x ^ p.b
  else if p.method = "morrow" then (p.sigma_f - ms) / p.E * x ^ p.b
  else if p.method = "modified_morrow" ∨ p.method = "modified morrow" then (p.sigma_f - ms) / p.E * x ^ p.b
  else p.sigma_f ^ 2 / p.E * x ^ (2 * p.b) / max_stress

/-- `strain_min_log`, `strain_max_log` (PoF.py:1225-1229, 1371-1375). -/
noncomputable def slYlim (plastic total : List ℝ) : ℝ × ℝ :=
  (decadeDown (plastic.min?.getD 0), decadeUp (total.max?.getD 0))

/-- The part of the diagram that does not depend on the load: the curves, the transition, the limits. -/
noncomputable def slBase (p : SLIn) (max_stress ms nt : ℝ) : SLPlot :=
  let total := reversalGrid.map (slTotal p max_stress ms)
  let plastic := reversalGrid.map (slPlastic p max_stress ms)
  { xs := reversalGrid, total, plastic, elastic := reversalGrid.map (slElastic p max_stress ms)
    transition := [(nt, (10 : ℝ) ^ (-6 : ℤ)), (nt, slTotal p max_stress ms nt)]
    xlim := (reversalGrid.min?.getD 0, reversalGrid.max?.getD 0)
    ylim := slYlim plastic total
    point := none, guide := [], notes := [] }

/-- PoF.py:1190-1299 — the plot with a load: `half` is the strain amplitude.  `int` of a positive number is its floor. -/
noncomputable def slDraw (p : SLIn) (r : SLOut) (half : ℝ) : SLPlot :=
  let ms := r.min_stress + (r.max_stress - r.min_stress) / 2
  let base := slBase p r.max_stress ms r.cycles_2Nt
  let n2 := r.cycles_to_failure * 2
  let shorter := n2 < r.cycles_2Nt
  open Classical in
  { base with
    point := some (n2, half)
    guide := [(1, half), (n2, half), (n2, 0)]
    notes := [⟨r.cycles_2Nt, base.ylim.1, "2N_t", (⌊r.cycles_2Nt⌋ : ℤ), decide shorter⟩,
              ⟨n2, base.ylim.1, "Life", (⌊n2⌋ : ℤ), !decide shorter⟩,
              ⟨10, half, "e_a", half, true⟩] }

/-- PoF.py:1320-1390 — the plot without a load. -/
noncomputable def slDrawUnloaded (p : SLIn) : SLPlot :=
  let nt := (p.epsilon_f * p.E / p.sigma_f) ^ (1 / (p.b - p.c))
  let base := slBase p 0 0 nt
  { base with notes := [⟨nt, base.ylim.1, "2N_t", (⌊nt⌋ : ℤ), true⟩] }

/-- The attribute `cycles_to_failure` and with it the others. -/
inductive SLAttr where
  | unset
  | notCalculated
  | life (r : SLOut)

/-- The attributes and the plot given the life. -/
noncomputable def slFinish (p : SLIn) (show_plot : Bool) : Option SLOut → SLAttr × Option SLPlot
  | none => if show_plot then (.notCalculated, some (slDrawUnloaded p)) else (.unset, none)
  | some r =>
    (.life r, if show_plot then r.min_strain.map fun m => slDraw p r ((r.max_strain - m) / 2) else none)

/-- `strain_life_diagram` with its plot (PoF.py:868-1400).  The plot of a complex strain amplitude is not modelled (`none`). -/
noncomputable def strainLifePlot (fsolve : Solver) (p : SLIn) (show_plot : Bool) : Except Err (SLAttr × Option SLPlot) :=
  (strainLife fsolve p).map (slFinish p show_plot)

/-! ## SN_diagram -/

/-- What `SN_diagram` draws: failures, the line, the bounds (lower, upper), the endurance limit, the traces, the run-outs. -/
structure SNPlot where
  points : List (ℝ × ℝ)
  xs : List ℝ
  line : List ℝ
  bounds : Option (List ℝ × List ℝ)
  limit : Option ((ℝ × ℝ) × (ℝ × ℝ))
  stressTraces : List (List (ℝ × ℝ))
  cyclesTraces : List (List (ℝ × ℝ))
  runouts : List (ℝ × ℝ)
  log : Bool
  xlim : ℝ × ℝ
  ylim : ℝ × ℝ

/-- `xvals` (PoF.py:178): `np.logspace(0, max(log10_cycles) + 2, 1000)`. -/
noncomputable def snGrid (logMax : ℝ) : List ℝ := (linspace 0 (logMax + 2)).map fun u => (10 : ℝ) ^ u

/-- The limits of the horizontal axis (PoF.py:185-186, 264, 275); `lo`, `hi` are the fewest and the most cycles of a failure. -/
noncomputable def snXlim (log : Bool) (lo hi : ℝ) : ℝ × ℝ :=
  if log then (decadeDown lo, decadeUp hi) else (0, hi * (12 / 10))

/-- Where the run-outs are drawn (PoF.py:265-272, 276-283): at the right end.  Without `cycles_runout` `np.ones_like(None)` is a single
value, so `plt.scatter` raises ValueError unless there is one run-out. -/
noncomputable def snRunouts (p : SNIn) (right : ℝ) : Except Err (List (ℝ × ℝ)) :=
  match p.stress_runout, p.cycles_runout with
  | none, _ => .ok []
  | some s, some _ => .ok (s.map fun y => (right, y))
  | some s, none => if s.length = 1 then .ok (s.map fun y => (right, y)) else valueErr

/-- The dashed orange line (PoF.py:219-229). -/
noncomputable def snLimitLine (p : SNIn) (r : SNOut) : Option ((ℝ × ℝ) × (ℝ × ℝ)) :=
  r.endurance_limit.map fun L => ((0, L), (((p.cycles ++ p.cycles_runout.getD []).max?.getD 0) * 10, L))

/-- PoF.py:178-322 — the drawing, without the texts. -/
noncomputable def snDraw (p : SNIn) (r : SNOut) : Except Err SNPlot := do
  let n ← Repairable.minmax p.cycles
  let s ← Repairable.minmax p.stress
  let xvals := snGrid (((p.cycles.map fun x => Real.logb 10 x).max?).getD 0)
  let xlim := snXlim (p.xscale == "log") n.1 n.2
  let runouts ← snRunouts p xlim.2
  .ok { points := List.zip p.cycles p.stress
        xs := xvals
        line := xvals.map r.line
        bounds := r.bounds.map fun b => (xvals.map b.1, xvals.map b.2)
        limit := snLimitLine p r
        stressTraces := List.zipWith (fun sv N => [(0, sv), (N, sv), (N, 0)]) (p.stress_trace.getD []) r.lives
        cyclesTraces := List.zipWith (fun N y => [(N, 0), (N, y), (0, y)]) (p.cycles_trace.getD []) r.strengths
        runouts := runouts
        log := p.xscale == "log"
        xlim := xlim
        ylim := (s.1 - s.2 * (2 / 10), s.2 * (12 / 10)) }

/-- `SN_diagram` (PoF.py:102-322). -/
noncomputable def snPlot (polyfit : List ℝ → List ℝ → ℝ × ℝ) (tppf : ℝ → ℕ → ℝ) (p : SNIn) : Except Err (SNOut × SNPlot) := do
  let r ← snDiagram polyfit tppf p
  let d ← snDraw p r
  .ok (r, d)

end Reliability.Fatigue
