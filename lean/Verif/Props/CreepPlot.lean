import Verif.Model.PoFPlot2
import Verif.Props.Creep
import Verif.Props.StrainLifePlot
import Verif.Props.GrowthPlot

/-! # C154: the plot of creep_rupture_curves -/

namespace Reliability.Props.CreepPlot

open Reliability Reliability.PoF Reliability.Fatigue Reliability.Props.Creep List
open Reliability.Repairable (minmax)
open Reliability.Props (bind_ok)

theorem below_pos (x : ℝ) : 0 < decadeBelow x := by unfold decadeBelow; positivity
theorem above_pos (x : ℝ) : 0 < decadeAbove x := by unfold decadeAbove; positivity

/-- A decade to spare on the left, less than two. -/
theorem below_spec {x : ℝ} (hx : 0 < x) : 10 * decadeBelow x ≤ x ∧ x < 100 * decadeBelow x := by
  unfold decadeBelow
  have h1 := Repairable.GPlot.decadeDown_le hx
  have h2 := SLP.decadeDown_next hx
  unfold Repairable.decadeDown at h1
  rw [zpow_sub₀ (by norm_num), zpow_one]
  rw [zpow_add₀ (by norm_num), zpow_one] at h2
  constructor <;> linarith

/-- A decade to spare on the right, less than two. -/
theorem above_spec {x : ℝ} (hx : 0 < x) : 10 * x ≤ decadeAbove x ∧ decadeAbove x < 100 * x := by
  unfold decadeAbove
  have h1 := Repairable.GPlot.decadeUp_ge hx
  have h2 := SLP.decadeUp_prev hx
  unfold Repairable.decadeUp at h1
  rw [zpow_add₀ (by norm_num), zpow_one]
  rw [zpow_sub₀ (by norm_num), zpow_one] at h2
  constructor <;> linarith

theorem creepGrid_get {a b : ℝ} (ha : 0 < a) (hb : 0 < b) {i : ℕ} (hi : i < 100) :
    (creepGrid a b)[i]? = some (a * (b / a) ^ ((i : ℝ) / 99)) := by
  unfold creepGrid Np.linspace
  rw [getElem?_map, getElem?_map, getElem?_range hi]
  simp only [Option.map_some, Option.some.injEq]
  have e : Real.logb 10 a + (i : ℝ) * ((Real.logb 10 b - Real.logb 10 a) / ((100 - 1 : ℕ) : ℝ)) =
      Real.logb 10 a + Real.logb 10 (b / a) * ((i : ℝ) / 99) := by
    rw [Real.logb_div hb.ne' ha.ne']; push_cast; ring
  rw [e, Real.rpow_add (by norm_num), Real.rpow_mul (by norm_num), Real.rpow_logb (by norm_num) (by norm_num) ha,
    Real.rpow_logb (by norm_num) (by norm_num) (by positivity)]

theorem creepGrid_length (a b : ℝ) : (creepGrid a b).length = 100 := by
  simp [creepGrid, Np.linspace]

attribute [local irreducible] creepGrid

/-- **C154 (lines).** If the rows of each temperature are contiguous, with positive times, and a trace is given: the plot has one set of points and one
line per temperature.  The points are the rows of that temperature; the line is the fit to them, drawn at 100 times evenly spaced on the log scale from one
end of the axis to the other. -/
theorem C154_lines (polyfit : List (ℝ × ℝ) → ℝ × ℝ) (rows : List (ℝ × ℝ × ℝ)) (h2 : 2 ≤ rows.length)
    (hc : Contiguous (rows.map fun r => r.1)) (y T : ℝ) (hT : T ∈ rows.map fun r => r.1) :
    ∃ out d, creepPlot polyfit (rows.map fun r => r.1) (rows.map fun r => r.2.1) (rows.map fun r => r.2.2)
        (some y) (some T) = .ok (out, d) ∧
      (d.curves.map fun l => l.temp).Nodup ∧
      (∀ t, t ∈ d.curves.map (fun l => l.temp) ↔ t ∈ rows.map fun r => r.1) ∧
      d.xs.length = 100 ∧
      (∀ i : ℕ, i < 100 → d.xs[i]? = some (d.xlim.1 * (d.xlim.2 / d.xlim.1) ^ ((i : ℝ) / 99))) ∧
      (∀ l ∈ d.curves, l.points = (rows.filter fun r => r.1 = l.temp).map (fun r => (r.2.2, r.2.1)) ∧
        l.ys.length = 100 ∧
        ∃ m c, polyfit ((rows.filter fun r => r.1 = l.temp).map fun r => (Real.logb 10 r.2.2, r.2.1)) = (m, c) ∧
          ∀ (i : ℕ) (x : ℝ), d.xs[i]? = some x → l.ys[i]? = some (m * Real.logb 10 x + c)) ∧
      ∃ m c x, polyfit ((rows.filter fun r => r.1 = T).map fun r => (Real.logb 10 r.2.2, r.2.1)) = (m, c) ∧
        d.traces = [[(d.xlim.1, y), (x, y), (x, d.ylim.1)]] ∧ (m ≠ 0 → m * Real.logb 10 x + c = y) := by
  obtain ⟨out, ho, o1, o2, o3, l0, hl0, hlT, x, hx, hxy⟩ := C63_lines_partial polyfit rows h2 hc y T hT
  have hne : rows ≠ [] := by rintro rfl; simp at h2
  obtain ⟨t0, t1, et, -, -, -⟩ := Repairable.GPlot.minmax_ok (l := rows.map fun r => r.2.2) (by simpa using hne)
  obtain ⟨s0, s1, es, -, -, -⟩ := Repairable.GPlot.minmax_ok (l := rows.map fun r => r.2.1) (by simpa using hne)
  refine ⟨out, _, by unfold creepPlot; rw [ho]; simp only [bind, Except.bind, creepDraw, et, es]; exact rfl, ?_, ?_, ?_, ?_, ?_, ?_⟩
  · simpa [map_map, Function.comp_def] using o1
  · intro t; rw [← o2 t]; simp [map_map, Function.comp_def]
  · exact creepGrid_length _ _
  · intro i hi
    exact creepGrid_get (below_pos _) (above_pos _) hi
  · intro l hl
    obtain ⟨g, hg, rfl⟩ := mem_map.1 hl
    obtain ⟨g1, g2⟩ := o3 g hg
    refine ⟨g1, by simp [creepGrid_length], g.2.2.1, g.2.2.2, by rw [← g2], fun i x hx => ?_⟩
    simp only [getElem?_map]
    simp only [] at hx
    rw [hx]; rfl
  · obtain ⟨-, g2⟩ := o3 l0 hl0
    rw [hlT] at g2
    refine ⟨l0.2.2.1, l0.2.2.2, x, by rw [← g2], ?_, hxy⟩
    simp only [hx, map_cons, map_nil, Option.getD_some]

/-- **C154 (axes).** Whenever a plot is drawn for positive times: every time has between one and two decades to spare on the side it is extreme on, every stress
a fifth of the range of the stresses; so all points are visible. -/
theorem C154_axes (polyfit : List (ℝ × ℝ) → ℝ × ℝ) (temps stresses times : List ℝ) (y T : Option ℝ) (out : Creep) (d : CreepPlot)
    (hpos : ∀ t ∈ times, 0 < t) (h : creepPlot polyfit temps stresses times y T = .ok (out, d)) :
    (∀ t ∈ times, 10 * d.xlim.1 ≤ t ∧ 10 * t ≤ d.xlim.2) ∧
    (∃ t ∈ times, t < 100 * d.xlim.1) ∧ (∃ t ∈ times, d.xlim.2 < 100 * t) ∧
    ∃ lo ∈ stresses, ∃ hi ∈ stresses, (∀ s ∈ stresses, lo ≤ s ∧ s ≤ hi) ∧
      d.ylim = (lo - (hi - lo) / 5, hi + (hi - lo) / 5) ∧ ∀ s ∈ stresses, d.ylim.1 ≤ s ∧ s ≤ d.ylim.2 := by
  unfold creepPlot at h
  obtain ⟨o, ho, h⟩ := bind_ok.1 h
  obtain ⟨d', hd, h⟩ := bind_ok.1 h
  obtain ⟨rfl, rfl⟩ := Prod.mk.inj (Except.ok.inj h)
  unfold creepDraw at hd
  obtain ⟨t, ht, hd⟩ := bind_ok.1 hd
  obtain ⟨s, hs, hd⟩ := bind_ok.1 hd
  have hnt : times ≠ [] := by rintro rfl; simp [minmax] at ht
  have hns : stresses ≠ [] := by rintro rfl; simp [minmax] at hs
  obtain ⟨t0, t1, et, t2, t3, t4⟩ := Repairable.GPlot.minmax_ok hnt
  obtain ⟨s0, s1, es, s2, s3, s4⟩ := Repairable.GPlot.minmax_ok hns
  rw [et] at ht; rw [es] at hs
  obtain rfl := Except.ok.inj ht
  obtain rfl := Except.ok.inj hs
  obtain rfl := Except.ok.inj hd
  have b0 := below_spec (hpos _ t2)
  have b1 := above_spec (hpos _ t3)
  have hle : s0 ≤ s1 := (s4 _ s2).2
  refine ⟨fun t ht => ?_, ⟨t0, t2, b0.2⟩, ⟨t1, t3, b1.2⟩, s0, s2, s1, s3, s4, ?_, fun s hs => ?_⟩
  · have := t4 t ht
    exact ⟨by simp only; linarith, by simp only; linarith⟩
  · ext <;> simp only <;> ring
  · have := s4 s hs
    exact ⟨by simp only; linarith, by simp only; linarith⟩

/-- **C154, finding.** A trace stress more than a fifth of the range outside the data is drawn outside the axes. -/
theorem C154_trace_outside_finding (polyfit : List (ℝ × ℝ) → ℝ × ℝ) (rows : List (ℝ × ℝ × ℝ)) (h2 : 2 ≤ rows.length)
    (hc : Contiguous (rows.map fun r => r.1)) (hpos : ∀ r ∈ rows, 0 < r.2.2) (y T : ℝ) (hT : T ∈ rows.map fun r => r.1)
    (lo hi : ℝ) (hlo : ∀ r ∈ rows, lo ≤ r.2.1) (hhi : ∀ r ∈ rows, r.2.1 ≤ hi) (hy : hi + (hi - lo) / 5 < y) :
    ∃ out d, creepPlot polyfit (rows.map fun r => r.1) (rows.map fun r => r.2.1) (rows.map fun r => r.2.2)
        (some y) (some T) = .ok (out, d) ∧ ∃ tr ∈ d.traces, ∃ q ∈ tr, d.ylim.2 < q.2 := by
  obtain ⟨out, d, h, -, -, -, -, -, m, c, x, -, ht, -⟩ := C154_lines polyfit rows h2 hc y T hT
  refine ⟨out, d, h, _, by rw [ht]; exact mem_singleton_self _, (x, y), by simp, ?_⟩
  obtain ⟨-, -, -, s0, h0, s1, h1, -, hyl, -⟩ := C154_axes polyfit _ _ _ _ _ out d (by
    intro t ht; obtain ⟨r, hr, rfl⟩ := mem_map.1 ht; exact hpos r hr) h
  obtain ⟨r0, hr0, rfl⟩ := mem_map.1 h0
  obtain ⟨r1, hr1, rfl⟩ := mem_map.1 h1
  have := hlo _ hr0; have := hhi _ hr1
  rw [hyl]
  simp only
  linarith

/-- Two temperatures, two rows each; the fit at 650 degrees falls by 100 MPa per decade. -/
example : ∃ out d, creepPlot (fun _ => (-100, 400)) [600, 600, 650, 650] [300, 200, 200, 100] [10, 100, 100, 1000] (some 150) (some 650) =
    .ok (out, d) ∧ d.curves.length = 2 ∧ ∃ x, d.traces = [[(d.xlim.1, 150), (x, 150), (x, d.ylim.1)]] ∧ Real.logb 10 x = 5 / 2 := by
  have hc : Contiguous ([(600, 300, 10), (600, 200, 100), (650, 200, 100), (650, 100, 1000)].map fun r : ℝ × ℝ × ℝ => r.1) := by
    apply contiguous_of_sorted
    simp; norm_num
  obtain ⟨out, d, h, h1, h2, -, -, -, m, c, x, hm, ht, hx⟩ := C154_lines (fun _ => (-100, 400))
    [(600, 300, 10), (600, 200, 100), (650, 200, 100), (650, 100, 1000)] (by simp) hc 150 650 (by simp)
  obtain ⟨rfl, rfl⟩ := Prod.mk.inj hm
  have hx := hx (by norm_num)
  refine ⟨out, d, h, ?_, x, ht, by linarith⟩
  have hp : (d.curves.map fun l => l.temp).Perm [600, 650] := by
    rw [perm_ext_iff_of_nodup h1 (by norm_num)]
    intro t
    rw [h2 t]
    simp
  have := hp.length_eq
  simpa using this

end Reliability.Props.CreepPlot
