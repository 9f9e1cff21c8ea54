import Verif.Model.ReplacementPlot
import Verif.Props.Repairable
import Verif.Props.InputCheck
import Mathlib.Analysis.SpecialFunctions.Pow.Deriv

/-! # C149: the plot of ROCOF -/

namespace Reliability.Repairable

open Reliability List
open Reliability.Props (bind_ok)

theorem range_dropLast (k : Nat) (f : Nat → ℝ) : ((range k).map f).dropLast = (range (k - 1)).map f := by
  cases k with
  | zero => rfl
  | succ k => rw [range_succ, map_append]; simp

theorem trendTimes_eq (ti : List ℝ) (te : Option ℝ) :
    trendTimes ti te = (Np.cumsum 0 ti).take (if te.isSome then ti.length else ti.length - 1) := by
  unfold trendTimes
  rw [Np.cumsum_take]

theorem rocofDraw_ok (ti : List ℝ) (te : Option ℝ) (label : Option String) (ci : String) (tr : Trend) : ∃ d, rocofDraw ti te label ci tr = .ok d := by
  unfold rocofDraw
  dsimp only
  rw [if_pos]
  · exact ⟨_, rfl⟩
  · unfold trendTimes
    match tr, te with
    | .improving B L, some e => simp [mtbfLine, Np.cumsum_length]
    | .worsening B L, some e => simp [mtbfLine, Np.cumsum_length]
    | .constant _, _ => simp [mtbfLine]
    | .improving B L, none => simp [mtbfLine, Np.cumsum_length]
    | .worsening B L, none => simp [mtbfLine, Np.cumsum_length]

theorem tiPlot_accepts {ppf : ℝ → ℝ} {ti : List ℝ} {CI : ℝ} {te : Option ℝ} {show_plot : Bool} {label : Option String} {ci : String} {r : RocofResult}
    (h : rocofTi ppf ti CI te = .ok r) : ∃ d, rocofTiPlot ppf ti CI te show_plot label ci = .ok (r, d) ∧ d.isSome = show_plot := by
  unfold rocofTiPlot
  simp only [h, bind, Except.bind]
  cases show_plot
  · exact ⟨none, rfl, rfl⟩
  · obtain ⟨d, hd⟩ := rocofDraw_ok ti te label ci r.trend
    simp only [if_true, hd]
    exact ⟨_, rfl, rfl⟩

theorem tiPlot_results {ppf : ℝ → ℝ} {ti : List ℝ} {CI : ℝ} {te : Option ℝ} {show_plot : Bool} {label : Option String} {ci : String} {r : RocofResult}
    {d : Option RocofDrawing} (h : rocofTiPlot ppf ti CI te show_plot label ci = .ok (r, d)) : rocofTi ppf ti CI te = .ok r := by
  unfold rocofTiPlot at h
  rw [bind_ok] at h
  obtain ⟨r', h1, h2⟩ := h
  rw [h1]
  split at h2
  · rw [bind_ok] at h2
    obtain ⟨d', -, h2⟩ := h2
    cases h2; rfl
  · cases h2; rfl

/-- **C149 (accepted).** Whatever ROCOF accepts it plots (x and y of the line always have the same length), and the results are the same with and
without a plot. -/
theorem C149_accepts (ppf : ℝ → ℝ) (tbf ft : Option (List ℝ)) (CI : ℝ) (te : Option ℝ) (show_plot : Bool) (label : Option String) (ci : String)
    (r : RocofResult) : rocof ppf tbf ft CI te = .ok r ↔ ∃ d, rocofPlot ppf tbf ft CI te show_plot label ci = .ok (r, d) ∧ d.isSome = show_plot := by
  match tbf, ft with
  | some _, some _ => simp [rocof, rocofPlot]
  | some l, none =>
    simp only [rocof, rocofPlot]
    split
    · simp
    · exact ⟨fun h => tiPlot_accepts h, fun ⟨d, h, _⟩ => tiPlot_results h⟩
  | none, some f =>
    simp only [rocof, rocofPlot]
    split
    · simp
    · exact ⟨fun h => tiPlot_accepts h, fun ⟨d, h, _⟩ => tiPlot_results h⟩
  | none, none =>
    simp only [rocof, rocofPlot]
    split
    · simp
    · simp

/-- **C149 (either kind of times).** Failure times in any order give the plot of the times between failures they accumulate from. -/
theorem C149_failure_times (ppf : ℝ → ℝ) (tbf failure_times : List ℝ) (hpos : ∀ t ∈ tbf, 0 < t)
    (hperm : failure_times ~ Np.cumsum 0 tbf) (CI : ℝ) (te : Option ℝ) (show_plot : Bool) (label : Option String) (ci : String) :
    rocofPlot ppf none (some failure_times) CI te show_plot label ci = rocofPlot ppf (some tbf) none CI te show_plot label ci := by
  have h1 : ¬ failure_times.any (fun t => decide (t ≤ 0)) = true := by
    rw [any_eq_true]
    rintro ⟨t, ht, h0⟩
    have := Np.cumsum_gt 0 tbf hpos t (hperm.mem_iff.1 ht)
    simp only [decide_eq_true_eq] at h0
    linarith
  have h2 : ¬ tbf.any (fun t => decide (t ≤ 0)) = true := by
    rw [any_eq_true]
    rintro ⟨t, ht, h0⟩
    have := hpos t ht
    simp only [decide_eq_true_eq] at h0
    linarith
  unfold rocofPlot
  simp only [if_neg h1, if_neg h2]
  rw [Np.sort_congr hperm, Np.sort_eq_self (Np.cumsum_sorted 0 tbf hpos), diffs_cumsum]

theorem cumsum_get (s : ℝ) (l : List ℝ) (i : Nat) (hi : i < l.length) : (Np.cumsum s l)[i]? = some (s + (l.take (i + 1)).sum) := by
  induction l generalizing s i with
  | nil => simp at hi
  | cons a l ih =>
    cases i with
    | zero => simp [Np.cumsum]
    | succ i =>
      simp only [Np.cumsum, getElem?_cons_succ, take_succ_cons, sum_cons]
      rw [ih (s + a) i (by simpa using hi), add_assoc]

theorem sum_log_pos' {tn : ℝ} {l : List ℝ} (hl : ∀ t ∈ l, 0 < t ∧ t ≤ tn) (hs : ∃ t ∈ l, t < tn) : 0 < (l.map fun t => Real.log (tn / t)).sum := by
  have hnn : ∀ l : List ℝ, (∀ t ∈ l, 0 < t ∧ t ≤ tn) → 0 ≤ (l.map fun t => Real.log (tn / t)).sum := by
    intro l hl
    refine List.sum_nonneg fun x hx => ?_
    obtain ⟨t, ht, rfl⟩ := mem_map.1 hx
    exact Real.log_nonneg ((one_le_div (hl t ht).1).2 (hl t ht).2)
  induction l with
  | nil => obtain ⟨t, ht, -⟩ := hs; cases ht
  | cons a l ih =>
    rw [map_cons, sum_cons]
    have ha := hl a (by simp)
    have hl' : ∀ t ∈ l, 0 < t ∧ t ≤ tn := fun t ht => hl t (by simp [ht])
    obtain ⟨t, ht, hlt⟩ := hs
    rcases mem_cons.1 ht with rfl | ht
    · exact add_pos_of_pos_of_nonneg (Real.log_pos ((one_lt_div ha.1).2 hlt)) (hnn l hl')
    · exact add_pos_of_nonneg_of_pos (Real.log_nonneg ((one_le_div ha.1).2 ha.2)) (ih hl' ⟨t, ht, hlt⟩)

/-- The reported parameters of a trend. -/
def Trend.params : Trend → Option (ℝ × ℝ)
  | .improving B L => some (B, L)
  | .worsening B L => some (B, L)
  | .constant _ => none

theorem tiPlot_draws {ppf : ℝ → ℝ} {ti : List ℝ} {CI : ℝ} {te : Option ℝ} {label : Option String} {ci : String} {r : RocofResult}
    {d : RocofDrawing} (h : rocofTiPlot ppf ti CI te true label ci = .ok (r, some d)) :
    rocofTi ppf ti CI te = .ok r ∧
    d = ⟨mtbfLine ((range ti.length).map fun i => ((i + 1 : Nat) : ℝ)) ((Np.cumsum 0 ti).take (if te.isSome then ti.length else ti.length - 1)) te.isSome r.trend,
      ((range ti.length).map fun i => ((i + 1 : Nat) : ℝ), ti), label.getD "Failure interarrival times",
      "Failure interarrival times vs failure number\nAt " ++ ci ++ "% confidence level the ROCOF is " ++ trendUpper r.trend⟩ := by
  unfold rocofTiPlot at h
  rw [bind_ok] at h
  obtain ⟨r', h1, h2⟩ := h
  rw [if_pos rfl, bind_ok] at h2
  obtain ⟨d', h2, h3⟩ := h2
  simp only [pure, Except.pure, Except.ok.injEq, Prod.mk.injEq, Option.some.injEq] at h3
  obtain ⟨rfl, rfl⟩ := h3
  refine ⟨h1, ?_⟩
  unfold rocofDraw at h2
  dsimp only at h2
  split at h2
  · rw [Except.ok.injEq] at h2
    rw [← h2, trendTimes_eq]
  · cases h2

/-- **C149 (what is drawn).** The times between failures are drawn as points over 1, 2, …, with the caller's or the default label. With a trend the line
shows, over the numbers of the failures that the trend was estimated from (without test_end: all but the last), the reciprocal of the rate of
occurrence of failures at the time of that failure: the derivative of the reported Lambda_hat t^Beta_hat at the sum of the times up to it; it is
above 0. With a constant trend the line is flat at the reciprocal of the reported ROCOF, over all failures. The title says which trend it is.
(A single failure at the end of the test, for which Beta_hat is infinite, is left out.) -/
theorem C149_draws (ppf : ℝ → ℝ) (ti : List ℝ) (CI : ℝ) (te : Option ℝ) (hd : 2 ≤ ti.length ∨ te ≠ some ti.sum) (label : Option String) (ci : String)
    (r : RocofResult) (d : RocofDrawing) (h : rocofPlot ppf (some ti) none CI te true label ci = .ok (r, some d)) :
    d.points.2 = ti ∧ d.points.1.length = ti.length ∧ (∀ i : Nat, i < ti.length → d.points.1[i]? = some ((i : ℝ) + 1)) ∧
    d.pointsLabel = label.getD "Failure interarrival times" ∧
    (∀ B L, r.trend.params = some (B, L) →
      d.line.1.length = (if te.isSome then ti.length else ti.length - 1) ∧ d.line.2.length = d.line.1.length ∧
      ∀ i : Nat, i < d.line.1.length → d.line.1[i]? = some ((i : ℝ) + 1) ∧
        ∃ rate, HasDerivAt (fun t => L * t ^ B) rate (ti.take (i + 1)).sum ∧ 0 < rate ∧ d.line.2[i]? = some (1 / rate)) ∧
    (∀ c, r.trend = .constant c → d.line.1 = d.points.1 ∧ d.line.2.length = ti.length ∧ ∀ y ∈ d.line.2, y = 1 / c) ∧
    d.title = "Failure interarrival times vs failure number\nAt " ++ ci ++ "% confidence level the ROCOF is " ++ (match r.trend with
      | .improving .. => "IMPROVING"
      | .worsening .. => "WORSENING"
      | .constant .. => "CONSTANT") := by
  unfold rocofPlot at h
  simp only at h
  split at h
  · cases h
  next hany =>
  have hpos : ∀ t ∈ ti, 0 < t := by
    intro t ht
    by_contra hc
    exact hany (any_eq_true.2 ⟨t, ht, by simpa using hc⟩)
  obtain ⟨hr, rfl⟩ := tiPlot_draws h
  have hok := rocofTi_ok hr
  simp only at hok
  set n := (if te.isSome then ti.length else ti.length - 1) with hn
  set tn := te.getD ti.sum with htn
  obtain ⟨-, -, hn0, hlen, hsum, -, -, htr⟩ := hok
  have hnle : n ≤ ti.length := by rw [hn]; split <;> omega
  have hget : ∀ k i : Nat, i < k → ((range k).map fun i => ((i + 1 : Nat) : ℝ))[i]? = some ((i : ℝ) + 1) := by
    intro k i hi
    rw [getElem?_map, getElem?_range hi]
    simp
  have hne : ti ≠ [] := by
    rintro rfl
    rw [hn] at hn0
    simp at hn0
  -- the parameters
  have hpar : ∀ B L, r.trend.params = some (B, L) → 0 < B ∧ 0 < L := by
    intro B L hBL
    have hlog : 0 < (((Np.cumsum 0 ti).take n).map fun t => Real.log (tn / t)).sum := by
      refine sum_log_pos' (fun t ht => ?_) ?_
      · have ht' := mem_of_mem_take ht
        have h1 := Np.cumsum_gt 0 ti hpos t ht'
        have h2 := Np.cumsum_le 0 ti hpos t ht'
        exact ⟨h1, by linarith⟩
      · obtain ⟨a, l, rfl⟩ := exists_cons_of_ne_nil hne
        refine ⟨a, ?_, ?_⟩
        · obtain ⟨m, hm⟩ := Nat.exists_eq_succ_of_ne_zero hn0
          rw [hm]
          simp [Np.cumsum]
        · have hl0 : l ≠ [] → a < (a :: l).sum := by
            intro hl
            obtain ⟨b, l', rfl⟩ := exists_cons_of_ne_nil hl
            have hb := hpos b (by simp)
            have h2 : 0 ≤ l'.sum := List.sum_nonneg fun x hx => (hpos x (by simp [hx])).le
            simp only [sum_cons]
            linarith
          cases l with
          | cons b l => exact lt_of_lt_of_le (hl0 (by simp)) hsum
          | nil =>
            cases te with
            | none => simp [hn] at hn0
            | some e =>
              rcases hd with hd | hd
              · simp at hd
              · have : (a :: ([] : List ℝ)).sum ≠ e := fun hc => hd (by rw [hc])
                have h1 : a ≠ e := by simpa using this
                have h2 : a ≤ e := by simpa [htn] using hsum
                exact lt_of_le_of_ne h2 h1
    have hlenpos : (0 : ℝ) < ti.length := by exact_mod_cast length_pos_of_ne_nil hne
    have hspos : 0 < ti.sum := by
      obtain ⟨a, l, rfl⟩ := exists_cons_of_ne_nil hne
      rw [sum_cons]
      have h1 := hpos a (by simp)
      have h2 : 0 ≤ l.sum := List.sum_nonneg fun x hx => (hpos x (by simp [hx])).le
      linarith
    have htnpos : 0 < tn := lt_of_lt_of_le hspos hsum
    rw [htr] at hBL
    split at hBL
    · cases hBL
      exact ⟨div_pos hlenpos hlog, div_pos hlenpos (Real.rpow_pos_of_pos htnpos _)⟩
    · split at hBL
      · cases hBL
        exact ⟨div_pos hlenpos hlog, div_pos hlenpos (Real.rpow_pos_of_pos htnpos _)⟩
      · cases hBL
  have key : ∀ B L, r.trend.params = some (B, L) →
      mtbfLine ((range ti.length).map fun i => ((i + 1 : Nat) : ℝ)) ((Np.cumsum 0 ti).take n) te.isSome r.trend =
      ((range n).map fun i => ((i + 1 : Nat) : ℝ), ((Np.cumsum 0 ti).take n).map fun t => 1 / (L * B * t ^ (B - 1))) := by
    intro B L hBL
    have hx : (if te.isSome then (range ti.length).map fun i => ((i + 1 : Nat) : ℝ) else ((range ti.length).map fun i => ((i + 1 : Nat) : ℝ)).dropLast) =
        (range n).map fun i => ((i + 1 : Nat) : ℝ) := by
      rw [hn]
      split
      · rfl
      · rw [range_dropLast]
    match r.trend, hBL with
    | .improving B L, hBL => cases hBL; simp only [mtbfLine, hx]
    | .worsening B L, hBL => cases hBL; simp only [mtbfLine, hx]
  refine ⟨rfl, by simp, fun i hi => hget _ i hi, rfl, ?_, ?_, rfl⟩
  · intro B L hBL
    obtain ⟨hB, hL⟩ := hpar B L hBL
    have hk := key B L hBL
    simp only [hk, length_map, length_range, hlen]
    refine ⟨trivial, trivial, fun i hi => ⟨hget n i hi, ?_⟩⟩
    have hg := cumsum_get 0 ti i (lt_of_lt_of_le hi hnle)
    rw [zero_add] at hg
    have hTpos : 0 < (ti.take (i + 1)).sum := Np.cumsum_gt 0 ti hpos _ (mem_of_getElem? hg)
    refine ⟨L * B * (ti.take (i + 1)).sum ^ (B - 1), ?_, by positivity, ?_⟩
    · have := (Real.hasDerivAt_rpow_const (p := B) (Or.inl hTpos.ne')).const_mul L
      rw [mul_assoc]
      exact this
    · rw [getElem?_map, getElem?_take, if_pos hi, hg]
      rfl
  · intro c hc
    rw [hc]
    refine ⟨rfl, by simp [mtbfLine], ?_⟩
    intro y hy
    simp only [mtbfLine, mem_map] at hy
    obtain ⟨_, _, rfl⟩ := hy
    rfl

/-- **C149 (constant trend).** Without test_end the flat line is at the mean of the times between failures. -/
theorem C149_constant_mean_partial (ppf : ℝ → ℝ) (ti : List ℝ) (CI : ℝ) (label : Option String) (ci : String) (r : RocofResult) (d : RocofDrawing)
    (c : ℝ) (hc : r.trend = .constant c) (h : rocofPlot ppf (some ti) none CI none true label ci = .ok (r, some d)) :
    ∀ y ∈ d.line.2, y = ti.sum / ti.length := by
  have hr : rocof ppf (some ti) none CI none = .ok r := (C149_accepts ppf (some ti) none CI none true label ci r).2 ⟨_, h, rfl⟩
  intro y hy
  rw [(C149_draws ppf ti CI none (Or.inr (by simp)) label ci r d h).2.2.2.2.2.1 c hc |>.2.2 y hy, C26_constant_rate_partial ppf ti CI c r hr hc, one_div_div]

/-- **Finding (C149).** With test_end and a constant trend the line is at the time of the last failure over one more than the number of failures: below the mean
of the times drawn as points. -/
theorem C149_time_terminated_finding (ppf : ℝ → ℝ) (ti : List ℝ) (CI e : ℝ) (label : Option String) (ci : String) (r : RocofResult)
    (d : RocofDrawing) (c : ℝ) (hc : r.trend = .constant c) (h : rocofPlot ppf (some ti) none CI (some e) true label ci = .ok (r, some d)) :
    ∀ y ∈ d.line.2, y = ti.sum / (ti.length + 1) ∧ y < ti.sum / ti.length := by
  have hr : rocof ppf (some ti) none CI (some e) = .ok r := (C149_accepts ppf (some ti) none CI (some e) true label ci r).2 ⟨_, h, rfl⟩
  have hpos : ∀ t ∈ ti, 0 < t := by
    intro t ht
    by_contra hc
    have := ((C25_rejects ppf ti CI (some e)).2.1 ⟨t, ht, not_lt.1 hc⟩).1
    rw [hr] at this
    cases this
  have h1 := (C26_constant_time_terminated ppf ti hpos CI c e r hr hc).1
  intro y hy
  unfold rocofPlot at h
  simp only at h
  split at h
  · cases h
  obtain ⟨hr', rfl⟩ := tiPlot_draws h
  obtain ⟨-, -, hn, -⟩ := rocofTi_ok hr'
  rw [hc] at hy
  simp only [mtbfLine, mem_map] at hy
  obtain ⟨_, _, rfl⟩ := hy
  rw [h1, one_div_div]
  refine ⟨rfl, ?_⟩
  have hne : ti ≠ [] := by rintro rfl; simp at hn
  have hs : 0 < ti.sum := by
    obtain ⟨a, l, rfl⟩ := exists_cons_of_ne_nil hne
    rw [sum_cons]
    have h1 := hpos a (by simp)
    have h2 : 0 ≤ l.sum := List.sum_nonneg fun x hx => (hpos x (by simp [hx])).le
    linarith
  have hl : (0 : ℝ) < ti.length := by exact_mod_cast length_pos_of_ne_nil hne
  exact div_lt_div_of_pos_left hs hl (by linarith)

/-- A constant trend that meets the hypotheses: one failure at 5 of a test run to 10. -/
example (label : Option String) (ci : String) : ∃ r d c, rocofPlot (fun p => p - 1) (some [5]) none (9/10) (some 10) true label ci = .ok (r, some d) ∧
    r.trend = .constant c := by
  have hr : rocof (fun p => p - 1) (some [5]) none (9/10) (some 10) = .ok ⟨0, (1 - 9/10) / 2 - 1, .constant (2 / 5)⟩ := by
    unfold rocof rocofTi
    norm_num [Np.cumsum]
  obtain ⟨d, h, hs⟩ := (C149_accepts _ _ _ _ _ true label ci _).1 hr
  obtain ⟨d, rfl⟩ := Option.isSome_iff_exists.1 hs
  exact ⟨_, d, _, h, rfl⟩

/-- A trend that meets the hypotheses: failures 1 and 9 apart with a narrow critical region. -/
example (label : Option String) (ci : String) : ∃ r d B L, rocofPlot (fun p => (p - 1 / 2) / 1000) (some [1, 9]) none (1/10) none true label ci = .ok (r, some d) ∧
    r.trend.params = some (B, L) := by
  have hr : ∃ r, rocof (fun p => (p - 1 / 2) / 1000) (some [1, 9]) none (1/10) none = .ok r ∧ ∃ B L, r.trend.params = some (B, L) := by
    unfold rocof rocofTi
    norm_num [Np.cumsum]
    rw [if_pos]
    · exact ⟨_, rfl, _, _, rfl⟩
    · have h1 : (1 : ℝ) ≤ Real.sqrt 12 := Real.one_le_sqrt.2 (by norm_num)
      rw [show (-4 : ℝ) / (10 * (√12)⁻¹) = -(2 / 5) * √12 by field_simp; norm_num]
      linarith
  obtain ⟨r, hr, B, L, hB⟩ := hr
  obtain ⟨d, h, hs⟩ := (C149_accepts _ _ _ _ _ true label ci _).1 hr
  obtain ⟨d, rfl⟩ := Option.isSome_iff_exists.1 hs
  exact ⟨_, d, _, _, h, hB⟩

end Reliability.Repairable
