import Verif.Model.GrowthPlot
import Verif.Props.Growth
import Verif.Props.InputCheck
import Verif.Lemmas.ExpoCI
import Mathlib.Analysis.Complex.ExponentialBounds

/-! # C146: the plot of reliability_growth -/

namespace Reliability.Repairable.GPlot

open Reliability Reliability.Repairable List
open Reliability.Props (bind_ok)

/-! ## The specification -/

/-- The cumulative MTBF of the fitted model at a time: `b t^Alpha` for Duane, `t^(1-Beta)/Lambda` for Crow-AMSAA. -/
noncomputable def mtbf (m : Crow ⊕ Duane) (t : ℝ) : ℝ :=
  match m with
  | .inl r => t ^ (1 - r.Beta) / r.Lambda
  | .inr r => r.b * t ^ r.Alpha

/-- The model is not flat. -/
def NotFlat (m : Crow ⊕ Duane) : Prop :=
  match m with
  | .inl r => r.Beta ≠ 1
  | .inr r => r.Alpha ≠ 0

/-- The observed cumulative MTBF: the times in order, each divided by the number of failures so far. -/
def Observed (times : List ℝ) (p : List ℝ × List ℝ) : Prop :=
  p.1 ~ times ∧ p.1.Pairwise (· ≤ ·) ∧ p.2.length = p.1.length ∧ ∀ (i : Nat) t y, p.1[i]? = some t → p.2[i]? = some y → y = t / ((i : ℝ) + 1)

/-! ## Lemmas -/

theorem mtbfC_get (l : List ℝ) (i : Nat) : (mtbfC l)[i]? = l[i]?.map fun t => t / ((i : ℝ) + 1) := by
  unfold mtbfC
  rw [getElem?_zipWith, getElem?_map]
  by_cases hi : i < l.length
  · rw [getElem?_eq_getElem hi, getElem?_range hi]
    rfl
  · rw [getElem?_eq_none (by omega), getElem?_eq_none (by simp; omega)]
    rfl

theorem mtbfC_length (l : List ℝ) : (mtbfC l).length = l.length := by
  simp [mtbfC]

theorem observed (times : List ℝ) : Observed times (Np.sort times, mtbfC (Np.sort times)) := by
  refine ⟨Np.sort_perm times, sortedLE_insertionSort.pairwise, mtbfC_length _, ?_⟩
  intro i t y ht hy
  rw [mtbfC_get, ht, Option.map_some, Option.some.injEq] at hy
  exact hy.symm

theorem observed_unique {times : List ℝ} {p : List ℝ × List ℝ} (h : Observed times p) : p.2 = mtbfC (Np.sort times) := by
  obtain ⟨h1, h2, h3, h4⟩ := h
  have he : p.1 = Np.sort times :=
    (h1.trans (Np.sort_perm times).symm).eq_of_pairwise (fun a b _ _ hab hba => le_antisymm hab hba) h2
      sortedLE_insertionSort.pairwise
  apply List.ext_getElem?
  intro i
  rw [mtbfC_get, ← he]
  by_cases hi : i < p.1.length
  · rw [getElem?_eq_getElem hi, getElem?_eq_getElem (h3 ▸ hi), Option.map_some]
    exact congrArg some (h4 i _ _ (getElem?_eq_getElem hi) (getElem?_eq_getElem (h3 ▸ hi)))
  · rw [getElem?_eq_none (by omega), getElem?_eq_none (by omega)]
    rfl

theorem mtbfC_pos {l : List ℝ} (h : ∀ t ∈ l, 0 < t) : ∀ y ∈ mtbfC l, 0 < y := by
  intro y hy
  obtain ⟨i, hi⟩ := mem_iff_getElem?.1 hy
  rw [mtbfC_get, Option.map_eq_some_iff] at hi
  obtain ⟨t, ht, rfl⟩ := hi
  exact div_pos (h t (mem_iff_getElem?.2 ⟨i, ht⟩)) (by positivity)

theorem minmax_ok {l : List ℝ} (h : l ≠ []) :
    ∃ a b, minmax l = .ok (a, b) ∧ a ∈ l ∧ b ∈ l ∧ ∀ x ∈ l, a ≤ x ∧ x ≤ b := by
  cases hm : l.min? with
  | none => exact absurd (by simpa using hm) h
  | some a =>
    cases hx : l.max? with
    | none => exact absurd (by simpa using hx) h
    | some b =>
      have h1 := (Np.min?_iff _ _).1 hm
      have h2 := (Np.max?_iff _ _).1 hx
      exact ⟨a, b, by simp only [minmax, hm, hx], h1.1, h2.1, fun x hxl => ⟨h1.2 x hxl, h2.2 x hxl⟩⟩

theorem decadeUp_ge {x : ℝ} (hx : 0 < x) : x ≤ decadeUp x := by
  unfold decadeUp
  rw [← Real.rpow_intCast]
  calc x = (10 : ℝ) ^ (Real.logb 10 x) := (Real.rpow_logb (by norm_num) (by norm_num) hx).symm
    _ ≤ _ := Real.rpow_le_rpow_of_exponent_le (by norm_num) (Int.le_ceil _)

theorem decadeDown_le {x : ℝ} (hx : 0 < x) : decadeDown x ≤ x := by
  unfold decadeDown
  rw [← Real.rpow_intCast]
  calc (10 : ℝ) ^ ((⌊Real.logb 10 x⌋ : ℤ) : ℝ) ≤ (10 : ℝ) ^ (Real.logb 10 x) := Real.rpow_le_rpow_of_exponent_le (by norm_num) (Int.floor_le _)
    _ = x := Real.rpow_logb (by norm_num) (by norm_num) hx

theorem decadeUp_pos (x : ℝ) : 0 < decadeUp x := by unfold decadeUp; positivity

theorem decadeDown_pos (x : ℝ) : 0 < decadeDown x := by unfold decadeDown; positivity

/-- What an accepted call has computed. -/
theorem growth_pos {times : List ℝ} {target : Option ℝ} {name : String} {r : Crow ⊕ Option Duane}
    (h : reliabilityGrowth times target name = .ok r) : (∀ t ∈ times, 0 < t) ∧ times ≠ [] := by
  cases r with
  | inl r =>
    obtain ⟨T, hT, hp, -⟩ := growth_crow_inv h
    exact ⟨hp, ne_nil_of_mem hT.1⟩
  | inr r =>
    obtain ⟨T, hT, hp, -⟩ := growth_duane_inv h
    exact ⟨hp, ne_nil_of_mem hT.1⟩

/-- The scale of the model is positive. -/
def ScalePos (m : Crow ⊕ Duane) : Prop :=
  match m with
  | .inl r => 0 < r.Lambda
  | .inr r => 0 < r.b

theorem scale_pos {times : List ℝ} {target : Option ℝ} {name : String} {r : Crow ⊕ Option Duane}
    (h : reliabilityGrowth times target name = .ok r) (hne : ∃ s ∈ times, ∃ t ∈ times, s ≠ t) {m : Crow ⊕ Duane} (hm : fitted r = some m) :
    ScalePos m := by
  match r, hm with
  | .inl r, hm =>
    cases hm
    obtain ⟨T, -, -, h2, -⟩ := C23_crow_demonstrated times target name r h hne
    exact h2
  | .inr (some r), hm =>
    cases hm
    obtain ⟨T, -, h2, -⟩ := C23_duane times target name r h
    exact h2
  | .inr none, hm => cases hm

theorem curve_at {m : Crow ⊕ Duane} (hs : ScalePos m) {x : ℝ} (hx : 0 < x) :
    mtbfCurve m x = .fin (mtbf m x) := by
  cases m with
  | inl r =>
    have h1 : 0 < x ^ (r.Beta - 1) := Real.rpow_pos_of_pos hx _
    have h2 : r.Lambda * x ^ (r.Beta - 1) ≠ 0 := (mul_pos hs h1).ne'
    simp only [mtbfCurve, npPow, if_neg hx.ne', scale, recip, if_neg h2, mtbf]
    congr 1
    rw [show 1 - r.Beta = -(r.Beta - 1) by ring, Real.rpow_neg hx.le]
    field_simp
  | inr r =>
    simp only [mtbfCurve, npPow, if_neg hx.ne', scale, mtbf]

/-- Everything `growthDraw` computes. -/
theorem growthDraw_ok {m : Crow ⊕ Duane} {times : List ℝ} (hne : times ≠ []) (hpos : ∀ t ∈ times, 0 < t) {target : Option ℝ} {log_scale : Bool}
    {label : Option String} {c : GCanvas} :
    ∃ t0 t1 k0 k1 xs, (t0 ∈ times ∧ t1 ∈ times ∧ ∀ t ∈ times, t0 ≤ t ∧ t ≤ t1) ∧
      (k0 ∈ mtbfC times ∧ k1 ∈ mtbfC times ∧ ∀ y ∈ mtbfC times, k0 ≤ y ∧ y ≤ k1) ∧
      growthX log_scale (growthXmax log_scale t1 ((targetTime m).getD 0)) = .ok xs ∧
      growthDraw m times target log_scale label c = .ok
        { xlim := (growthLimits log_scale t0 k0 k1 target (growthXmax log_scale t1 ((targetTime m).getD 0))).1
          ylim := (growthLimits log_scale t0 k0 k1 target (growthXmax log_scale t1 ((targetTime m).getD 0))).2
          log := log_scale || c.log
          lines := c.lines ++ [⟨xs, xs.map (mtbfCurve m), some (label.getD (curveLabel m))⟩] ++ targetLines target ((targetTime m).getD 0) c.legend
          points := c.points ++ [(times, mtbfC times)]
          legend := some ((c.lines ++ [GLine.mk xs (xs.map (mtbfCurve m)) (some (label.getD (curveLabel m)))] ++
            targetLines target ((targetTime m).getD 0) c.legend).filterMap GLine.label)
          title := "MTBF vs Time" } := by
  obtain ⟨t0, t1, ht, h1, h2, h3⟩ := minmax_ok hne
  obtain ⟨k0, k1, hk, h4, h5, h6⟩ := minmax_ok (l := mtbfC times) (by
    intro h0
    exact hne (length_eq_zero_iff.1 (by rw [← mtbfC_length, h0]; rfl)))
  have hx : ∃ xs, growthX log_scale (growthXmax log_scale t1 ((targetTime m).getD 0)) = .ok xs := by
    cases log_scale
    · exact ⟨_, rfl⟩
    · simp only [growthX, growthXmax, if_true, Utils.geomspace]
      rw [if_neg (by
        push Not
        exact ⟨by norm_num, (mul_pos (decadeUp_pos _) (by norm_num)).ne'⟩)]
      exact ⟨_, rfl⟩
  obtain ⟨xs, hx⟩ := hx
  refine ⟨t0, t1, k0, k1, xs, ⟨h1, h2, h3⟩, ⟨h4, h5, h6⟩, hx, ?_⟩
  simp only [growthDraw, ht, hk, hx, bind, Except.bind]

theorem growthPlot_inv {times : List ℝ} {target : Option ℝ} {name : String} {log_scale : Bool} {label : Option String} {c c' : GCanvas}
    {r : Crow ⊕ Option Duane} (h : growthPlot times target name true log_scale label c = .ok (r, some c')) :
    reliabilityGrowth times target name = .ok r ∧ ∃ m, fitted r = some m ∧ growthDraw m (Np.sort times) target log_scale label c = .ok c' := by
  simp only [growthPlot, bind_ok, if_true] at h
  obtain ⟨r', hr, c1, hd, h⟩ := h
  cases h
  refine ⟨hr, ?_⟩
  unfold growthDraw? at hd
  split at hd
  · cases hd
  · next m hm =>
    refine ⟨m, hm, ?_⟩
    cases hg : growthDraw m (Np.sort times) target log_scale label c with
    | error e => rw [hg] at hd; cases hd
    | ok c2 => rw [hg] at hd; cases hd; rfl

theorem sort_ne {times : List ℝ} (h : times ≠ []) : Np.sort times ≠ [] := by
  intro h0
  have := (Np.sort_perm times).length_eq
  rw [h0] at this
  exact h (length_eq_zero_iff.1 this.symm)

/-! ## The theorems -/

/-- **C146 (accepted).** What is accepted is plotted (the rank-deficient Duane case apart). -/
theorem C146_accepts (times : List ℝ) (target : Option ℝ) (name : String) (show_plot log_scale : Bool) (label : Option String) (c : GCanvas)
    (r : Crow ⊕ Option Duane) (h : reliabilityGrowth times target name = .ok r) (hr : r ≠ .inr none) :
    ∃ c', growthPlot times target name show_plot log_scale label c = .ok (r, some c') := by
  obtain ⟨hp, hne⟩ := growth_pos h
  have hm : ∃ m, fitted r = some m := by
    match r, hr with
    | .inl r, _ => exact ⟨_, rfl⟩
    | .inr (some r), _ => exact ⟨_, rfl⟩
    | .inr none, hr => exact absurd rfl hr
  obtain ⟨m, hm⟩ := hm
  cases show_plot
  · exact ⟨c, by simp only [growthPlot, h, bind, Except.bind]; rfl⟩
  · obtain ⟨t0, t1, k0, k1, xs, -, -, -, hd⟩ := growthDraw_ok (m := m) (sort_ne hne)
      (fun t ht => hp t ((Np.sort_perm times).mem_iff.1 ht)) (target := target) (log_scale := log_scale) (label := label) (c := c)
    simp only [growthPlot, h, growthDraw?, hm, hd, bind, Except.bind, if_true]
    exact ⟨_, rfl⟩

/-- **C146 (what is drawn).** For times that are not all equal: with a plot the results are the same as without; the observed cumulative MTBF is
added as points; one curve with the caller's or the default label is added, at 1000 times from 0 to twice the last failure or the time to
the target (on log scale: from 0.00001 to a hundred times the end of the axis), and at every positive time it shows the MTBF of the
fitted model; with a target one more line is added, from the target on the vertical axis to the time to the target and down. -/
theorem C146_draws (times : List ℝ) (target : Option ℝ) (name : String) (log_scale : Bool) (label : Option String) (c c' : GCanvas)
    (r : Crow ⊕ Option Duane) (hne : ∃ s ∈ times, ∃ t ∈ times, s ≠ t)
    (h : growthPlot times target name true log_scale label c = .ok (r, some c')) :
    growthPlot times target name false log_scale label c = .ok (r, some c) ∧ c'.title = "MTBF vs Time" ∧
    ∃ m T p line targets, fitted r = some m ∧ IsLast times T ∧ Observed times p ∧ c'.points = c.points ++ [p] ∧
      c'.lines = c.lines ++ [line] ++ targets ∧ line.label = some (label.getD (match m with
        | .inl _ => "Crow-AMSAA reliability growth curve"
        | .inr _ => "Duane reliability growth curve")) ∧ line.ys.length = 1000 ∧
      (∀ (i : Nat) x y, line.xs[i]? = some x → line.ys[i]? = some y → 0 < x → y = .fin (mtbf m x)) ∧
      (∀ i : Nat, i < 1000 → line.xs[i]? = some (if log_scale then 1 / 100000 * (c'.xlim.2 * 100 / (1 / 100000)) ^ ((i : ℝ) / 999)
        else (i : ℝ) / 999 * (2 * max T ((targetTime m).getD 0)))) ∧
      (target = none → targets = []) ∧
      (∀ M, target = some M → ∃ t lab, targetTime m = some t ∧ targets = [⟨[0, t, t], [.fin M, .fin M, .fin 0], lab⟩]) := by
  obtain ⟨hr, m, hm, hd⟩ := growthPlot_inv h
  obtain ⟨hp, hn⟩ := growth_pos hr
  obtain ⟨t0, t1, k0, k1, xs, ht, hk, hx, hdr⟩ := growthDraw_ok (m := m) (sort_ne hn)
    (fun t ht => hp t ((Np.sort_perm times).mem_iff.1 ht)) (target := target) (log_scale := log_scale) (label := label) (c := c)
  rw [hdr] at hd
  cases hd
  have hs := scale_pos hr hne hm
  have hT : IsLast times t1 := isLast_perm (Np.sort_perm times) ⟨ht.2.1, fun t h => (ht.2.2 t h).2⟩
  have hxl : ∀ i : Nat, i < 1000 → xs[i]? = some (if log_scale then 1 / 100000 *
      (growthXmax log_scale t1 ((targetTime m).getD 0) * 100 / (1 / 100000)) ^ ((i : ℝ) / 999)
        else (i : ℝ) / 999 * (2 * max t1 ((targetTime m).getD 0))) := by
    intro i hi
    cases log_scale
    · simp only [growthX, Bool.false_eq_true, if_false, Except.ok.injEq] at hx ⊢
      rw [← hx, Np.linspace_get _ _ _ _ hi]
      simp only [growthXmax, Bool.false_eq_true, if_false]
      refine congrArg some ?_
      norm_num
      ring
    · simp only [growthX, if_true, Utils.geomspace] at hx ⊢
      rw [if_neg (by
        push Not
        exact ⟨by norm_num, by simp only [growthXmax, if_true]; exact (mul_pos (decadeUp_pos _) (by norm_num)).ne'⟩), Except.ok.injEq] at hx
      rw [← hx, getElem?_map, getElem?_range hi]
      norm_num
  have hlen : xs.length = 1000 := by
    cases log_scale
    · simp only [growthX, Bool.false_eq_true, if_false, Except.ok.injEq] at hx
      rw [← hx, Np.linspace_length]
    · simp only [growthX, if_true, Utils.geomspace] at hx
      rw [if_neg (by
        push Not
        exact ⟨by norm_num, by simp only [growthXmax, if_true]; exact (mul_pos (decadeUp_pos _) (by norm_num)).ne'⟩), Except.ok.injEq] at hx
      rw [← hx, length_map, length_range]
  refine ⟨by simp only [growthPlot, hr, bind, Except.bind]; rfl, rfl, m, t1, _, _, _, hm, hT, observed times, rfl, rfl, rfl, ?_, ?_, ?_, ?_, ?_⟩
  · rw [length_map, hlen]
  · intro i x y hx' hy hx0
    simp only at hx' hy
    rw [getElem?_map, hx', Option.map_some, Option.some.injEq] at hy
    rw [← hy, curve_at hs hx0]
  · intro i hi
    have := hxl i hi
    rw [this]
    cases log_scale
    · rfl
    · cases target <;> rfl
  · rintro rfl
    rfl
  · rintro M rfl
    have ht' : ∃ t, targetTime m = some t := by
      match r, hm with
      | .inl r, hm =>
        cases hm
        obtain ⟨T, -, -, rfl⟩ := growth_crow_inv hr
        exact ⟨_, rfl⟩
      | .inr (some r), hm =>
        cases hm
        obtain ⟨T, -, -, hd⟩ := growth_duane_inv hr
        unfold duane at hd
        simp only at hd
        split at hd
        · cases hd
        · cases hd
          exact ⟨_, rfl⟩
      | .inr none, hm => cases hm
    obtain ⟨t, ht'⟩ := ht'
    refine ⟨t, targetLabel c.legend, ht', ?_⟩
    rw [ht']
    rfl

/-- What the curve shows at time 0: the limit of the model's MTBF as the time goes to 0. -/
inductive AtZero : Crow ⊕ Duane → Ext ℝ → Prop
  | crow_growing {r : Crow} : r.Beta < 1 → AtZero (.inl r) (.fin 0)
  | crow_constant {r : Crow} : r.Beta = 1 → AtZero (.inl r) (.fin (1 / r.Lambda))
  | crow_wearing {r : Crow} : 1 < r.Beta → AtZero (.inl r) .pinf
  | duane_growing {r : Duane} : 0 < r.Alpha → AtZero (.inr r) (.fin 0)
  | duane_constant {r : Duane} : r.Alpha = 0 → AtZero (.inr r) (.fin r.b)
  | duane_wearing {r : Duane} : r.Alpha < 0 → AtZero (.inr r) .pinf

theorem at_zero {m : Crow ⊕ Duane} (hs : ScalePos m) : AtZero m (mtbfCurve m 0) := by
  match m, hs with
  | .inl r, hs =>
    have hL : 0 < r.Lambda := hs
    rcases lt_trichotomy r.Beta 1 with hb | hb | hb
    · have e : mtbfCurve (.inl r) 0 = .fin 0 := by
        simp only [mtbfCurve, npPow, if_true]
        rw [if_neg (by linarith), if_pos (by linarith)]
        rfl
      rw [e]; exact .crow_growing hb
    · have e : mtbfCurve (.inl r) 0 = .fin (1 / r.Lambda) := by
        simp only [mtbfCurve, npPow, if_true]
        rw [if_pos (by linarith)]
        simp only [scale, recip, mul_one]
        rw [if_neg hL.ne']
      rw [e]; exact .crow_constant hb
    · have e : mtbfCurve (.inl r) 0 = .pinf := by
        simp only [mtbfCurve, npPow, if_true]
        rw [if_neg (by linarith), if_neg (by linarith)]
        simp only [scale, recip, mul_zero, if_true]
      rw [e]; exact .crow_wearing hb
  | .inr r, hs =>
    rcases lt_trichotomy r.Alpha 0 with hb | hb | hb
    · have e : mtbfCurve (.inr r) 0 = .pinf := by
        simp only [mtbfCurve, npPow, if_true]
        rw [if_neg (by linarith), if_pos (by linarith)]
        rfl
      rw [e]; exact .duane_wearing hb
    · have e : mtbfCurve (.inr r) 0 = .fin r.b := by
        simp only [mtbfCurve, npPow, if_true]
        rw [if_pos hb]
        simp only [scale, mul_one]
      rw [e]; exact .duane_constant hb
    · have e : mtbfCurve (.inr r) 0 = .fin 0 := by
        simp only [mtbfCurve, npPow, if_true]
        rw [if_neg (by linarith), if_neg (by linarith)]
        simp only [scale, mul_zero]
      rw [e]; exact .duane_growing hb

/-- **C146 (the start of the curve).** On linear scale the first point of the curve is at time 0; it shows 0 for a growing MTBF, the MTBF itself for a
constant one and infinity for a falling one. On log scale no point is at time 0. -/
theorem C146_start (times : List ℝ) (target : Option ℝ) (name : String) (log_scale : Bool) (label : Option String) (c c' : GCanvas)
    (r : Crow ⊕ Option Duane) (hne : ∃ s ∈ times, ∃ t ∈ times, s ≠ t)
    (h : growthPlot times target name true log_scale label c = .ok (r, some c')) :
    ∃ m line targets, fitted r = some m ∧ c'.lines = c.lines ++ [line] ++ targets ∧
      (log_scale = false → line.xs[0]? = some 0 ∧ ∃ y, line.ys[0]? = some y ∧ AtZero m y) ∧
      (log_scale = true → ∀ x ∈ line.xs, 0 < x) := by
  obtain ⟨hr, m, hm, hd⟩ := growthPlot_inv h
  obtain ⟨hp, hn⟩ := growth_pos hr
  obtain ⟨t0, t1, k0, k1, xs, ht, hk, hx, hdr⟩ := growthDraw_ok (m := m) (sort_ne hn)
    (fun t ht => hp t ((Np.sort_perm times).mem_iff.1 ht)) (target := target) (log_scale := log_scale) (label := label) (c := c)
  rw [hdr] at hd
  cases hd
  have hs := scale_pos hr hne hm
  refine ⟨m, _, _, hm, rfl, ?_, ?_⟩
  · rintro rfl
    simp only [growthX, Bool.false_eq_true, if_false, Except.ok.injEq] at hx
    have h0 : xs[0]? = some 0 := by
      rw [← hx, Np.linspace_get _ _ _ _ (by norm_num)]
      norm_num
    refine ⟨h0, mtbfCurve m 0, by simp only; rw [getElem?_map, h0, Option.map_some], ?_⟩
    exact at_zero hs
  · rintro rfl x hx'
    simp only [growthX, if_true, Utils.geomspace] at hx
    have hd := decadeUp_pos (max t1 ((targetTime m).getD 0))
    rw [if_neg (by
      push Not
      exact ⟨by norm_num, by simp only [growthXmax, if_true]; exact (mul_pos (decadeUp_pos _) (by norm_num)).ne'⟩), Except.ok.injEq] at hx
    have hx'' : x ∈ xs := hx'
    rw [← hx] at hx''
    obtain ⟨i, -, rfl⟩ := mem_map.1 hx''
    have hq : 0 < growthXmax true t1 ((targetTime m).getD 0) * 100 / (1 / 100000) :=
      div_pos (mul_pos (by simp only [growthXmax, if_true]; exact hd) (by norm_num)) (by norm_num)
    exact mul_pos (by norm_num) (Real.rpow_pos_of_pos hq _)

/-- **C146 (the target).** For a positive target and a model that is not flat, the corner of the target's line is on the curve: the model's MTBF at
the time to the target is the target. -/
theorem C146_target (times : List ℝ) (M : ℝ) (hM : 0 < M) (name : String) (r : Crow ⊕ Option Duane) (hne : ∃ s ∈ times, ∃ t ∈ times, s ≠ t)
    (h : reliabilityGrowth times (some M) name = .ok r) (m : Crow ⊕ Duane) (hm : fitted r = some m) (hf : NotFlat m) :
    ∃ t, targetTime m = some t ∧ 0 < t ∧ mtbf m t = M ∧ mtbfCurve m t = .fin M := by
  have hs := scale_pos h hne hm
  have key : ∃ t, targetTime m = some t ∧ 0 < t ∧ mtbf m t = M := by
    match r, hm with
    | .inl r, hm =>
      cases hm
      obtain ⟨T, -, -, hr⟩ := growth_crow_inv h
      have ht : ∃ t, r.time_to_target = some t := by rw [hr]; exact ⟨_, rfl⟩
      obtain ⟨t, ht⟩ := ht
      obtain ⟨h1, h2, -⟩ := C23_crow_time_to_target times M t hM name r h hne hf ht
      refine ⟨t, ht, h1, ?_⟩
      rw [← h2]
      simp only [mtbf]
      ring
    | .inr (some r), hm =>
      cases hm
      obtain ⟨T, -, -, hd⟩ := growth_duane_inv h
      have ht : ∃ t, r.time_to_target = some t := by
        unfold duane at hd
        simp only at hd
        split at hd
        · cases hd
        · cases hd
          exact ⟨_, rfl⟩
      obtain ⟨t, ht⟩ := ht
      obtain ⟨T, -, -, -, -, -, -, -, h2⟩ := C23_duane times (some M) name r h
      obtain ⟨h3, h4⟩ := h2 M t rfl hM hf ht
      exact ⟨t, ht, h3, h4⟩
    | .inr none, hm => cases hm
  obtain ⟨t, h1, h2, h3⟩ := key
  exact ⟨t, h1, h2, h3, by rw [curve_at hs h2, h3]⟩

/-- **C146 (limits).** All points are within the axes. On a linear scale the axes begin at 0 and contain the target's line; on log scale they contain
its upper and right end: the target is not above, the time to the target not to the right of the axes. -/
theorem C146_limits (times : List ℝ) (target : Option ℝ) (hM : ∀ M, target = some M → 0 < M) (name : String) (log_scale : Bool)
    (label : Option String) (c c' : GCanvas) (r : Crow ⊕ Option Duane)
    (h : growthPlot times target name true log_scale label c = .ok (r, some c')) :
    (∀ t ∈ times, c'.xlim.1 ≤ t ∧ t ≤ c'.xlim.2) ∧ (∀ p, Observed times p → ∀ y ∈ p.2, c'.ylim.1 ≤ y ∧ y ≤ c'.ylim.2) ∧
    (log_scale = false → c'.xlim.1 = 0 ∧ c'.ylim.1 = 0) ∧ (log_scale = true → 0 < c'.xlim.1 ∧ 0 < c'.ylim.1 ∧ c'.log = true) ∧
    (∀ M, target = some M → M ≤ c'.ylim.2) ∧ (∀ m t, fitted r = some m → targetTime m = some t → t ≤ c'.xlim.2) := by
  obtain ⟨hr, m, hm, hd⟩ := growthPlot_inv h
  obtain ⟨hp, hn⟩ := growth_pos hr
  have hp' : ∀ t ∈ Np.sort times, 0 < t := fun t ht => hp t ((Np.sort_perm times).mem_iff.1 ht)
  obtain ⟨t0, t1, k0, k1, xs, ht, hk, hx, hdr⟩ := growthDraw_ok (m := m) (sort_ne hn) hp' (target := target) (log_scale := log_scale)
    (label := label) (c := c)
  rw [hdr] at hd
  cases hd
  have h0 := hp' t0 ht.1
  have h1 := hp' t1 ht.2.1
  have hk0 := mtbfC_pos hp' k0 hk.1
  have hk1 := mtbfC_pos hp' k1 hk.2.1
  have hmx : 0 < max t1 ((targetTime m).getD 0) := lt_of_lt_of_le h1 (le_max_left _ _)
  have hxm : max t1 ((targetTime m).getD 0) ≤ growthXmax log_scale t1 ((targetTime m).getD 0) := by
    cases log_scale
    · simp only [growthXmax, Bool.false_eq_true, if_false]; linarith
    · simp only [growthXmax, if_true]; exact decadeUp_ge hmx
  have hxl : (growthLimits log_scale t0 k0 k1 target (growthXmax log_scale t1 ((targetTime m).getD 0))).1.2 =
      growthXmax log_scale t1 ((targetTime m).getD 0) := by
    cases log_scale <;> cases target <;> rfl
  have hx0 : (growthLimits log_scale t0 k0 k1 target (growthXmax log_scale t1 ((targetTime m).getD 0))).1.1 ≤ t0 := by
    cases log_scale
    · cases target <;> exact h0.le
    · cases htg : target with
      | none => exact decadeDown_le h0
      | some M => exact (decadeDown_le (lt_min h0 (hM M htg))).trans (min_le_left _ _)
  have hy0 : (growthLimits log_scale t0 k0 k1 target (growthXmax log_scale t1 ((targetTime m).getD 0))).2.1 ≤ k0 := by
    cases log_scale
    · cases target <;> exact hk0.le
    · cases target <;> exact decadeDown_le hk0
  have hy1 : k1 ≤ (growthLimits log_scale t0 k0 k1 target (growthXmax log_scale t1 ((targetTime m).getD 0))).2.2 ∧
      ∀ M, target = some M → M ≤ (growthLimits log_scale t0 k0 k1 target (growthXmax log_scale t1 ((targetTime m).getD 0))).2.2 := by
    cases htg : target with
    | none =>
      refine ⟨?_, by simp⟩
      cases log_scale
      · change k1 ≤ k1 * (12 / 10); linarith
      · exact le_trans (by linarith) (decadeUp_ge (x := k1 * (12 / 10)) (by linarith))
    | some M =>
      have hmk : 0 < max k1 M := lt_of_lt_of_le hk1 (le_max_left _ _)
      have hle : max k1 M ≤ (growthLimits log_scale t0 k0 k1 (some M) (growthXmax log_scale t1 ((targetTime m).getD 0))).2.2 := by
        cases log_scale
        · change max k1 M ≤ max k1 M * (12 / 10); linarith
        · exact le_trans (by linarith) (decadeUp_ge (x := max k1 M * (12 / 10)) (by linarith))
      refine ⟨(le_max_left _ _).trans hle, ?_⟩
      intro M' hM'
      cases hM'
      exact (le_max_right _ _).trans hle
  refine ⟨?_, ?_, ?_, ?_, hy1.2, ?_⟩
  · intro t htm
    have := ht.2.2 t ((Np.sort_perm times).mem_iff.2 htm)
    refine ⟨hx0.trans this.1, ?_⟩
    change t ≤ (growthLimits _ _ _ _ _ _).1.2
    rw [hxl]
    exact this.2.trans ((le_max_left _ _).trans hxm)
  · intro p hp y hy
    have hy : y ∈ mtbfC (Np.sort times) := observed_unique hp ▸ hy
    have := hk.2.2 y hy
    exact ⟨hy0.trans this.1, this.2.trans hy1.1⟩
  · rintro rfl
    cases target <;> exact ⟨rfl, rfl⟩
  · rintro rfl
    cases target <;> exact ⟨decadeDown_pos _, decadeDown_pos _, rfl⟩
  · intro m' t hm' ht'
    rw [hm] at hm'
    cases hm'
    change t ≤ (growthLimits _ _ _ _ _ _).1.2
    rw [hxl]
    refine le_trans ?_ hxm
    rw [ht']
    exact le_max_right _ _

/-! ## The legend -/

/-- A call. -/
structure Call where
  times : List ℝ
  target : Option ℝ
  name : String
  log_scale : Bool
  label : Option String

/-- A history of calls on the same axes. -/
noncomputable def plotAll : List Call → GCanvas → Except Err (Option GCanvas)
  | [], c => .ok (some c)
  | k :: ks, c => do
    let q ← growthPlot k.times k.target k.name true k.log_scale k.label c
    match q.2 with
    | none => .ok none
    | some c1 => plotAll ks c1

/-- The number of entries "Target MTBF" in the legend. -/
def entries (c : GCanvas) : Nat := ((c.legend.getD []).filter fun s => s = "Target MTBF").length

/-- The legend shows the labels of the lines; without a legend there are no lines. -/
def Legend (c : GCanvas) : Prop :=
  (c.legend = none → c.lines = []) ∧ ∀ L, c.legend = some L → L = c.lines.filterMap GLine.label

theorem one_call {k : Call} (hk : k.label ≠ some "Target MTBF") {c c' : GCanvas} {r : Crow ⊕ Option Duane} (hL : Legend c) (he : entries c ≤ 1)
    (h : growthPlot k.times k.target k.name true k.log_scale k.label c = .ok (r, some c')) :
    Legend c' ∧ entries c' = if k.target.isSome then 1 else entries c := by
  obtain ⟨hr, m, hm, hd⟩ := growthPlot_inv h
  obtain ⟨hp, hn⟩ := growth_pos hr
  have hp' : ∀ t ∈ Np.sort k.times, 0 < t := fun t ht => hp t ((Np.sort_perm k.times).mem_iff.1 ht)
  obtain ⟨t0, t1, k0, k1, xs, -, -, -, hdr⟩ := growthDraw_ok (m := m) (sort_ne hn) hp' (target := k.target) (log_scale := k.log_scale)
    (label := k.label) (c := c)
  rw [hdr] at hd
  cases hd
  have hlab : k.label.getD (curveLabel m) ≠ "Target MTBF" := by
    cases hl : k.label with
    | none =>
      cases m
      · exact (by decide : "Crow-AMSAA reliability growth curve" ≠ "Target MTBF")
      · exact (by decide : "Duane reliability growth curve" ≠ "Target MTBF")
    | some s => rintro rfl; exact hk hl
  have hle : (c.lines.filterMap GLine.label).filter (fun s => s = "Target MTBF") = (c.legend.getD []).filter fun s => s = "Target MTBF" := by
    cases hlg : c.legend with
    | none => rw [hL.1 hlg]; rfl
    | some L => rw [hL.2 L hlg]; rfl
  refine ⟨⟨fun h => (by cases h), fun L h => (by cases h; rfl)⟩, ?_⟩
  simp only [entries, Option.getD_some, filterMap_append, filter_append, hle, length_append]
  have e1 : (filter (fun s => decide (s = "Target MTBF"))
      (filterMap GLine.label [⟨xs, xs.map (mtbfCurve m), some (k.label.getD (curveLabel m))⟩])).length = 0 := by
    simp only [filterMap_cons, filterMap_nil]
    rw [filter_cons_of_neg (by simpa using hlab)]
    rfl
  rw [e1]
  cases htg : k.target with
  | none => simp [targetLines]
  | some M =>
    simp only [targetLines, Option.isSome_some, if_true, filterMap_cons, filterMap_nil]
    unfold entries at he
    cases hlg : c.legend with
    | none =>
      simp only [targetLabel]
      rfl
    | some L =>
      rw [hlg] at he
      simp only [Option.getD_some] at he ⊢
      simp only [targetLabel]
      by_cases hmem : "Target MTBF" ∈ L
      · rw [if_pos hmem]
        have : 0 < (L.filter fun s => decide (s = "Target MTBF")).length :=
          length_pos_of_mem (mem_filter.2 ⟨hmem, by simp⟩)
        simp only [filter_nil, length_nil]
        omega
      · rw [if_neg hmem]
        have : L.filter (fun s => decide (s = "Target MTBF")) = [] := by
          rw [filter_eq_nil_iff]
          intro s hs
          rw [decide_eq_true_eq]
          rintro rfl
          exact hmem hs
        rw [this]
        simp

/-- **C146 (legend).** After any number of calls on the same axes the legend has exactly one entry for the target if any of the calls had one, and none
otherwise (callers do not label their curves "Target MTBF"). -/
theorem C146_legend (ks : List Call) (hk : ∀ k ∈ ks, k.label ≠ some "Target MTBF") (c c' : GCanvas) (hl : c.legend = none) (hn : c.lines = [])
    (h : plotAll ks c = .ok (some c')) :
    ((c'.legend.getD []).filter fun s => s = "Target MTBF").length = if ks.any fun k => k.target.isSome then 1 else 0 := by
  have key : ∀ (ks : List Call), (∀ k ∈ ks, k.label ≠ some "Target MTBF") → ∀ c, Legend c → entries c ≤ 1 → plotAll ks c = .ok (some c') →
      entries c' = if ks.any fun k => k.target.isSome then 1 else entries c := by
    intro ks
    induction ks with
    | nil =>
      intro _ c _ _ h
      cases h
      rfl
    | cons k ks ih =>
      intro hk c hL he h
      simp only [plotAll, bind_ok] at h
      obtain ⟨⟨r, c1⟩, h1, h2⟩ := h
      cases c1 with
      | none => cases h2
      | some c1 =>
        obtain ⟨g1, g2⟩ := one_call (hk k mem_cons_self) hL he h1
        have he1 : entries c1 ≤ 1 := by rw [g2]; split_ifs <;> omega
        rw [ih (fun k' hk' => hk k' (mem_cons_of_mem _ hk')) c1 g1 he1 h2, g2, any_cons]
        cases k.target.isSome
        · simp
        · simp
  have h0 : entries c = 0 := by rw [entries, hl]; rfl
  have := key ks hk c ⟨fun _ => hn, by rw [hl]; simp⟩ (by omega) h
  rw [h0] at this
  exact this

/-! ## Findings -/

/-- Failures at 1 and e. -/
noncomputable def oneE : List ℝ := [1, Real.exp 1]

theorem sortE : Np.sort oneE = oneE := by
  have : (1 : ℝ) ≤ Real.exp 1 := Real.one_le_exp (by norm_num)
  simp [Np.sort, oneE, insertionSort, orderedInsert, this]

theorem e_gt : (2 : ℝ) < Real.exp 1 := Real.exp_one_gt_two

theorem oneE_ok (M : ℝ) : ∃ r, reliabilityGrowth oneE (some M) "CROW" = .ok (.inl r) ∧ r.Beta = 2 ∧ r.Lambda = 2 / Real.exp 1 ^ 2 ∧
    r.time_to_target = some (1 / (2 / Real.exp 1 ^ 2 * M)) := by
  have h1 : (1 : ℝ) ≤ Real.exp 1 := Real.one_le_exp (by norm_num)
  have hmin : oneE.min? = some 1 := by simp [oneE, List.min?, h1]
  have hmax : oneE.max? = some (Real.exp 1) := by simp [oneE, List.max?, h1]
  have hg : growthModel "CROW" = some .crowAMSAA := by decide
  have hB : (crow oneE (Real.exp 1) (some M)).Beta = 2 := by
    simp [crow, oneE, Real.log_exp]
    norm_num
  have hΛ : (crow oneE (Real.exp 1) (some M)).Lambda = 2 / Real.exp 1 ^ 2 := by
    have : (crow oneE (Real.exp 1) (some M)).Lambda = 2 / Real.exp 1 ^ (crow oneE (Real.exp 1) (some M)).Beta := by
      simp [crow, oneE]
    rw [this, hB]
    norm_num
  have hT : (crow oneE (Real.exp 1) (some M)).time_to_target =
      some ((1 / ((crow oneE (Real.exp 1) (some M)).Lambda * M)) ^ (1 / ((crow oneE (Real.exp 1) (some M)).Beta - 1))) := rfl
  refine ⟨crow oneE (Real.exp 1) (some M), ?_, hB, hΛ, ?_⟩
  · simp only [reliabilityGrowth, sortE, hmin, hmax, hg]
    rw [if_neg (by norm_num)]
  · rw [hT, hB, hΛ]
    norm_num

theorem decadeDown_one : decadeDown 1 = 1 := by simp [decadeDown]

theorem oneE_minmax : minmax oneE = .ok (1, Real.exp 1) ∧ minmax (mtbfC oneE) = .ok (1, Real.exp 1 / 2) := by
  have h1 : (1 : ℝ) ≤ Real.exp 1 := Real.one_le_exp (by norm_num)
  have hc : mtbfC oneE = [1, Real.exp 1 / 2] := by
    simp [mtbfC, oneE, List.range_succ]
    norm_num
  have h2 : (1 : ℝ) ≤ Real.exp 1 / 2 := by linarith [e_gt]
  refine ⟨?_, ?_⟩
  · simp [minmax, oneE, List.min?, List.max?, h1]
  · rw [hc]
    simp [minmax, List.min?, List.max?, h2]

/-- The plot of these failures on log scale. -/
theorem oneE_plot (M : ℝ) (hM : 0 < M) (label : Option String) (c : GCanvas) :
    ∃ r c', growthPlot oneE (some M) "CROW" true true label c = .ok (.inl r, some c') ∧ r.time_to_target = some (1 / (2 / Real.exp 1 ^ 2 * M)) ∧
      c'.ylim.1 = 1 ∧ c'.xlim.1 = decadeDown (min 1 M) := by
  obtain ⟨r, hr, hB, hL, ht⟩ := oneE_ok M
  obtain ⟨c', h⟩ := C146_accepts oneE (some M) "CROW" true true label c _ hr (by simp)
  obtain ⟨-, m, hm, hd⟩ := growthPlot_inv h
  refine ⟨r, c', h, ht, ?_⟩
  rw [sortE] at hd
  simp only [growthDraw, oneE_minmax.1, oneE_minmax.2, bind_ok] at hd
  obtain ⟨t, h1, k, h2, x, -, h3⟩ := hd
  cases h1
  cases h2
  cases h3
  exact ⟨decadeDown_one, rfl⟩

/-- **Finding (C146).** On log scale the vertical axis does not take the target into account at its lower end: for failures at 1 and e and the target
1/2 it begins at 1, and the line of the target is below the axes. -/
theorem C146_low_target_finding (label : Option String) (c : GCanvas) :
    ∃ r c', growthPlot oneE (some (1 / 2)) "CROW" true true label c = .ok (r, some c') ∧ 1 / 2 < c'.ylim.1 := by
  obtain ⟨r, c', h, -, h1, -⟩ := oneE_plot (1 / 2) (by norm_num) label c
  exact ⟨_, c', h, by rw [h1]; norm_num⟩

/-- **Finding (C146).** On log scale the horizontal axis begins at the decade of the smaller of the first failure and the target MTBF, which is not a
time, instead of the time to the target: for failures at 1 and e and the target 100 the time to the target is e^2/200, less than 0.05,
and the axis begins at 1. -/
theorem C146_early_target_finding (label : Option String) (c : GCanvas) :
    ∃ r t c', growthPlot oneE (some 100) "CROW" true true label c = .ok (.inl r, some c') ∧ r.time_to_target = some t ∧ t < 1 / 20 ∧ c'.xlim.1 = 1 := by
  obtain ⟨r, c', h, h1, -, h2⟩ := oneE_plot 100 (by norm_num) label c
  refine ⟨r, _, c', h, h1, ?_, ?_⟩
  · have h3 := Real.exp_one_lt_three
    have h0 := Real.exp_pos 1
    have : Real.exp 1 ^ 2 < 10 := by nlinarith
    have e : 1 / (2 / Real.exp 1 ^ 2 * 100) = Real.exp 1 ^ 2 / 200 := by field_simp; norm_num
    rw [e]
    linarith
  · rw [h2, min_eq_left (by norm_num), decadeDown_one]

/-- Non-vacuity: two calls on the same axes, both with a target. -/
example (c : GCanvas) : ∃ c', plotAll [⟨oneE, some 1, "CROW", true, none⟩, ⟨oneE, some 1, "CROW", true, none⟩] c = .ok (some c') := by
  obtain ⟨r, c1, h1, -⟩ := oneE_plot 1 (by norm_num) none c
  obtain ⟨r2, c2, h2, -⟩ := oneE_plot 1 (by norm_num) none c1
  exact ⟨c2, by simp only [plotAll, h1, h2, bind, Except.bind]⟩

end Reliability.Repairable.GPlot
