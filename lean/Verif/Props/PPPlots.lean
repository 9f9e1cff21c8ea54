import Verif.Props.ProbPlotsSemi

/-!
# C115: PP_plot_parametric and PP_plot_semiparametric
-/

namespace Reliability.ProbPlots

open Reliability Reliability.Distributions Reliability.Utils Reliability.Spec Spec List Reliability.Props.Distributions

theorem quantileOne_inside (d : Dist) {q : ℝ} (h0 : 0 < q) (h1 : q < 1) :
    quantileOne d q = .ok (.fin (d.sp.ppf q)) := by
  simp [quantileOne, quantile, checkQ, ppfE, h0.ne', h1.ne, not_lt.2 h0.le, not_lt.2 h1.le]

/-- The smallest and the largest time of the plot. -/
noncomputable def tLow (X Y : Dist) : ℝ := min (X.sp.ppf (1 / 100)) (Y.sp.ppf (1 / 100))
noncomputable def tHigh (X Y : Dist) : ℝ := max (X.sp.ppf (99 / 100)) (Y.sp.ppf (99 / 100))

theorem ppf_le {X : Dist} (hX : Standard X) : X.sp.ppf (1 / 100) ≤ X.sp.ppf (99 / 100) := by
  obtain ⟨h, -⟩ := standard_laws hX
  by_contra hc
  have := h.mono (not_le.1 hc).le
  rw [cdf_ppf hX (by norm_num) (by norm_num), cdf_ppf hX (by norm_num) (by norm_num)] at this
  norm_num at this

theorem tLow_le {X Y : Dist} (hX : Standard X) : tLow X Y ≤ tHigh X Y :=
  (min_le_left _ _).trans ((ppf_le hX).trans (le_max_left _ _))

/-- The times of the plot. -/
noncomputable def tGrid (X Y : Dist) : List ℝ := Np.linspace (tLow X Y) (tHigh X Y) 100

theorem tGrid_getElem (X Y : Dist) {i : ℕ} (h : i < 100) :
    (tGrid X Y)[i]? = some (tLow X Y + (i : ℝ) * ((tHigh X Y - tLow X Y) / 99)) := by
  simp [tGrid, Np.linspace, h]

theorem tGrid_mem {X Y : Dist} (hle : tLow X Y ≤ tHigh X Y) : tLow X Y ∈ tGrid X Y ∧ tHigh X Y ∈ tGrid X Y ∧
    ∀ t ∈ tGrid X Y, tLow X Y ≤ t ∧ t ≤ tHigh X Y := by
  refine ⟨?_, ?_, ?_⟩
  · have := mem_of_getElem? (tGrid_getElem X Y (i := 0) (by norm_num))
    simpa using this
  · have := mem_of_getElem? (tGrid_getElem X Y (i := 99) (by norm_num))
    have e : tLow X Y + ((99 : ℕ) : ℝ) * ((tHigh X Y - tLow X Y) / 99) = tHigh X Y := by push_cast; ring
    rwa [e] at this
  · intro t ht
    obtain ⟨i, hi, rfl⟩ := mem_map.1 ht
    have hi' : (i : ℝ) ≤ 99 := by exact_mod_cast Nat.lt_succ_iff.1 (mem_range.1 hi)
    have h0 : (0 : ℝ) ≤ i := by positivity
    have e : ((100 - 1 : ℕ) : ℝ) = 99 := by norm_num
    rw [e]
    constructor
    · have : 0 ≤ (i : ℝ) * ((tHigh X Y - tLow X Y) / 99) := mul_nonneg h0 (by linarith)
      linarith
    · have : (i : ℝ) * ((tHigh X Y - tLow X Y) / 99) ≤ 99 * ((tHigh X Y - tLow X Y) / 99) :=
        mul_le_mul_of_nonneg_right hi' (by linarith)
      linarith

theorem CDF_cases (d : Dist) (X : List ℝ) (hX : X ≠ []) :
    ((CDF d X = .ok (X.map d.sp.cdf)) ∧ (d.fam ≠ .normal → d.fam ≠ .gumbel → ∀ x ∈ X, 0 ≤ x) ∧
      (d.fam = .beta → ∀ x ∈ X, x ≤ 1)) ∨
    (CDF d X = valueErr ∧ ¬ ((d.fam ≠ .normal → d.fam ≠ .gumbel → ∀ x ∈ X, 0 ≤ x) ∧
      (d.fam = .beta → ∀ x ∈ X, x ≤ 1))) := by
  obtain ⟨lo, hlo⟩ : ∃ lo, X.min? = some lo := by
    cases h : X.min? with
    | none => exact absurd (List.min?_eq_none_iff.1 h) hX
    | some v => exact ⟨v, rfl⟩
  obtain ⟨hi, hhi⟩ : ∃ hi, X.max? = some hi := by
    cases h : X.max? with
    | none => exact absurd (List.max?_eq_none_iff.1 h) hX
    | some v => exact ⟨v, rfl⟩
  have hlo' := List.min?_eq_some_iff.1 hlo
  have hhi' := List.max?_eq_some_iff.1 hhi
  by_cases h1 : lo < 0 ∧ d.fam ≠ .normal ∧ d.fam ≠ .gumbel
  · right
    refine ⟨by simp only [CDF, checkX, hlo, hhi, if_pos h1], fun h => ?_⟩
    have := h.1 h1.2.1 h1.2.2 lo hlo'.1
    linarith [h1.1]
  by_cases h2 : hi > 1 ∧ d.fam = .beta
  · right
    refine ⟨by simp only [CDF, checkX, hlo, hhi, if_neg h1, if_pos h2], fun h => ?_⟩
    have := h.2 h2.2 hi hhi'.1
    linarith [h2.1]
  · left
    refine ⟨by simp only [CDF, checkX, hlo, hhi, if_neg h1, if_neg h2], ?_, ?_⟩
    · intro n1 n2 x hx
      by_contra hc
      exact h1 ⟨lt_of_le_of_lt (hlo'.2 x hx) (not_le.1 hc), n1, n2⟩
    · intro n x hx
      by_contra hc
      exact h2 ⟨lt_of_lt_of_le (not_le.1 hc) (hhi'.2 x hx), n⟩

theorem CDF_grid {X Y : Dist} (hle : tLow X Y ≤ tHigh X Y) (d : Dist) :
    (Accepts d (tLow X Y) (tHigh X Y) → CDF d (tGrid X Y) = .ok ((tGrid X Y).map d.sp.cdf)) ∧
    (¬ Accepts d (tLow X Y) (tHigh X Y) → CDF d (tGrid X Y) = valueErr) := by
  obtain ⟨m1, m2, m3⟩ := tGrid_mem hle
  rcases CDF_cases d (tGrid X Y) (ne_nil_of_mem m1) with ⟨h, h1, h2⟩ | ⟨h, hn⟩
  · refine ⟨fun _ => h, fun hna => absurd ⟨fun n1 n2 => h1 n1 n2 _ m1, fun n => h2 n _ m2⟩ hna⟩
  · refine ⟨fun ha => absurd ?_ hn, fun _ => h⟩
    exact ⟨fun n1 n2 x hx => (ha.1 n1 n2).trans (m3 x hx).1, fun n x hx => (m3 x hx).2.trans (ha.2 n)⟩

theorem pp_eq (X Y : Dist) (yl xl : Option (List ℝ)) (ds : Factor) :
    ppParametric (some X) (some Y) yl xl ds = (do
      let cx ← CDF X (tGrid X Y)
      let cy ← CDF Y (tGrid X Y)
      let (xs, ys) ← scatter cx cy ds
      let l1 ← quantileLines X Y (yl.getD [])
      let l2 ← quantileLines Y X (xl.getD [])
      return ⟨xs, ys, l1 ++ l2.map fun p => (p.2, p.1)⟩) := by
  simp only [ppParametric, quantileOne_inside _ (by norm_num : (0 : ℝ) < 1 / 100) (by norm_num : (1 / 100 : ℝ) < 1),
    quantileOne_inside _ (by norm_num : (0 : ℝ) < 99 / 100) (by norm_num : (99 / 100 : ℝ) < 1), bind, Except.bind,
    asNumber]
  rfl

/-- **C115 (parametric: points).** When no quantile lines are asked for, the plot is drawn exactly when both
distributions accept all times between the smaller of the two 1% quantiles and the larger of the two 99%
quantiles (no negative time unless Normal or Gumbel; none above 1 for Beta); otherwise ValueError.  Its 100
points are `(F_X(t), F_Y(t))` for evenly spaced times `t` between those quantiles. -/
theorem C115_parametric {X Y : Dist} (hX : Standard X) (hY : Standard Y) {xa xb ya yb : ℝ}
    (hxa : xa = X.sp.ppf (1 / 100)) (hxb : xb = X.sp.ppf (99 / 100)) (hya : ya = Y.sp.ppf (1 / 100))
    (hyb : yb = Y.sp.ppf (99 / 100)) :
    (X.sp.cdf xa = 1 / 100 ∧ Y.sp.cdf ya = 1 / 100 ∧ X.sp.cdf xb = 99 / 100 ∧ Y.sp.cdf yb = 99 / 100) ∧
    ((Accepts X (min xa ya) (max xb yb) ∧ Accepts Y (min xa ya) (max xb yb)) →
      ∃ r, ppParametric (some X) (some Y) none none (.bool false) = .ok r ∧
        r.x_scatter.length = 100 ∧ r.y_scatter.length = 100 ∧ r.lines = [] ∧
        ∀ i : ℕ, i < 100 → ∃ t, t = min xa ya + (i : ℝ) * ((max xb yb - min xa ya) / 99) ∧
          r.x_scatter[i]? = some (X.sp.cdf t) ∧ r.y_scatter[i]? = some (Y.sp.cdf t)) ∧
    (¬ (Accepts X (min xa ya) (max xb yb) ∧ Accepts Y (min xa ya) (max xb yb)) →
      ∀ yl xl ds, ppParametric (some X) (some Y) yl xl ds = valueErr) := by
  have hle := tLow_le (Y := Y) hX
  have elo : min xa ya = tLow X Y := by rw [hxa, hya]; rfl
  have ehi : max xb yb = tHigh X Y := by rw [hxb, hyb]; rfl
  refine ⟨⟨by rw [hxa, cdf_ppf hX (by norm_num) (by norm_num)], by rw [hya, cdf_ppf hY (by norm_num) (by norm_num)],
    by rw [hxb, cdf_ppf hX (by norm_num) (by norm_num)], by rw [hyb, cdf_ppf hY (by norm_num) (by norm_num)]⟩, ?_, ?_⟩
  · rintro ⟨h1, h2⟩
    rw [elo, ehi] at h1 h2
    rw [pp_eq, (CDF_grid hle X).1 h1, (CDF_grid hle Y).1 h2]
    refine ⟨_, rfl, by simp [tGrid, Np.linspace], by simp [tGrid, Np.linspace], rfl, ?_⟩
    intro i hi
    refine ⟨_, rfl, ?_, ?_⟩ <;> simp only [getElem?_map, tGrid_getElem X Y hi, elo, ehi, Option.map_some]
  · intro hn yl xl ds
    rw [elo, ehi] at hn
    rw [pp_eq]
    by_cases h1 : Accepts X (tLow X Y) (tHigh X Y)
    · have h2 : ¬ Accepts Y (tLow X Y) (tHigh X Y) := fun h => hn ⟨h1, h⟩
      rw [(CDF_grid hle X).1 h1, (CDF_grid hle Y).2 h2]; rfl
    · rw [(CDF_grid hle X).2 h1]; rfl

/-- **C115 (parametric: a distribution against itself).** All points are on the diagonal. -/
theorem C115_same {X : Dist} {r : PPPlot}
    (hr : ppParametric (some X) (some X) none none (.bool false) = .ok r) : r.x_scatter = r.y_scatter := by
  rw [pp_eq] at hr
  cases h : CDF X (tGrid X X) with
  | error e => rw [h] at hr; cases hr
  | ok c => rw [h] at hr; cases hr; rfl

/-- **C115 (parametric: probabilities).** Every point lies in the unit square, and the points ascend in both
coordinates. -/
theorem C115_square {X Y : Dist} (hX : Standard X) (hY : Standard Y) {r : PPPlot}
    (hr : ppParametric (some X) (some Y) none none (.bool false) = .ok r) :
    (∀ p ∈ r.x_scatter, 0 ≤ p ∧ p ≤ 1) ∧ (∀ p ∈ r.y_scatter, 0 ≤ p ∧ p ≤ 1) ∧
    ∀ (i j : ℕ) (x x' y y' : ℝ), i ≤ j → r.x_scatter[i]? = some x → r.x_scatter[j]? = some x' →
      r.y_scatter[i]? = some y → r.y_scatter[j]? = some y' → x ≤ x' ∧ y ≤ y' := by
  obtain ⟨-, hok, hno⟩ := C115_parametric hX hY rfl rfl rfl rfl
  obtain ⟨r', hr', hlx, hly, -, hp⟩ := hok (by
    by_contra hc
    rw [hno hc] at hr
    cases hr)
  rw [hr] at hr'
  cases hr'
  have hX' := (standard_laws hX).1
  have hY' := (standard_laws hY).1
  refine ⟨?_, ?_, ?_⟩
  · intro p hp'
    obtain ⟨i, hi, rfl⟩ := getElem_of_mem hp'
    obtain ⟨t, -, h1, -⟩ := hp i (by omega)
    rw [getElem?_eq_getElem hi] at h1
    rw [Option.some.inj h1]
    exact hX'.range t
  · intro p hp'
    obtain ⟨i, hi, rfl⟩ := getElem_of_mem hp'
    obtain ⟨t, -, -, h1⟩ := hp i (by omega)
    rw [getElem?_eq_getElem hi] at h1
    rw [Option.some.inj h1]
    exact hY'.range t
  · intro i j x x' y y' hij h1 h2 h3 h4
    have hj : j < 100 := by
      by_contra hc
      rw [getElem?_eq_none (by omega)] at h2
      cases h2
    obtain ⟨t, ht, g1, g2⟩ := hp i (by omega)
    obtain ⟨t', ht', g3, g4⟩ := hp j hj
    rw [h1] at g1
    rw [h3] at g2
    rw [h2] at g3
    rw [h4] at g4
    cases g1; cases g2; cases g3; cases g4
    have hle := tLow_le (Y := Y) hX
    have htt : t ≤ t' := by
      rw [ht, ht']
      have : (i : ℝ) ≤ j := by exact_mod_cast hij
      have := mul_le_mul_of_nonneg_right this (by
        have : tLow X Y ≤ tHigh X Y := hle
        unfold tLow tHigh at this
        linarith : 0 ≤ ((max (X.sp.ppf (99 / 100)) (Y.sp.ppf (99 / 100)) -
          min (X.sp.ppf (1 / 100)) (Y.sp.ppf (1 / 100))) / 99))
      linarith
    exact ⟨hX'.mono htt, hY'.mono htt⟩

/-- **C115, what is false (quantile lines).** Asking for any quantile line makes the plot raise ValueError, for every
pair of distributions and every `q`: `quantile` returns a `np.float64`, which `CDF` refuses. -/
theorem C115_quantile_lines_finding {X Y : Dist} (hX : Standard X) (hY : Standard Y) (q : ℝ) (qs : List ℝ)
    (other : Option (List ℝ)) :
    ppParametric (some X) (some Y) (some (q :: qs)) other (.bool false) = valueErr ∧
    ppParametric (some X) (some Y) none (some (q :: qs)) (.bool false) = valueErr := by
  have hline : ∀ A B : Dist, quantileLines A B (q :: qs) = valueErr := by
    intro A B
    unfold quantileLines quantileOne quantile checkQ
    simp only [List.min?_singleton, List.max?_singleton]
    by_cases h : q < 0 ∨ q > 1
    · rw [if_pos h]; rfl
    · rw [if_neg h]; rfl
  obtain ⟨-, hok, hno⟩ := C115_parametric hX hY rfl rfl rfl rfl
  by_cases h : Accepts X (min (X.sp.ppf (1 / 100)) (Y.sp.ppf (1 / 100)))
      (max (X.sp.ppf (99 / 100)) (Y.sp.ppf (99 / 100))) ∧ Accepts Y (min (X.sp.ppf (1 / 100)) (Y.sp.ppf (1 / 100)))
      (max (X.sp.ppf (99 / 100)) (Y.sp.ppf (99 / 100)))
  · have hle := tLow_le (Y := Y) hX
    rw [pp_eq, pp_eq, (CDF_grid hle X).1 h.1, (CDF_grid hle Y).1 h.2]
    constructor
    · simp only [Option.getD_some, hline]; rfl
    · simp only [Option.getD_some, Option.getD_none, hline]; rfl
  · exact ⟨hno h _ _ _, hno h _ _ _⟩

/-- **C115, what is false (unbounded support).** A Normal distribution whose mean is not positive cannot be plotted
against a Weibull distribution: the times below zero make the Weibull CDF raise ValueError. -/
theorem C115_negative_finding (mu sigma alpha beta gamma : ℝ) (hs : 0 < sigma) (hmu : mu ≤ 0) (ha : 0 < alpha)
    (hb : 0 < beta) (yl xl : Option (List ℝ)) (ds : Factor) :
    ppParametric (some (normal mu sigma)) (some (weibull alpha beta gamma)) yl xl ds = valueErr := by
  have hN : Standard (normal mu sigma) := .normal mu sigma hs
  refine (C115_parametric hN (.weibull alpha beta gamma ha hb) rfl rfl rfl rfl).2.2 ?_ yl xl ds
  rintro ⟨-, h⟩
  have h0 := h.1 (by simp [weibull]) (by simp [weibull])
  have h1 : 0 ≤ (normal mu sigma).sp.ppf (1 / 100) := h0.trans (min_le_left _ _)
  have h2 := (standard_laws hN).1.mono (hmu.trans h1)
  rw [cdf_ppf hN (by norm_num) (by norm_num), show (normal mu sigma).sp.cdf mu = 1 / 2 from (C68_median mu sigma hs).2] at h2
  norm_num at h2

/-- Non-vacuity: two Weibull distributions are accepted. -/
example : ∃ r, ppParametric (some (weibull 100 2 0)) (some (weibull 300 3 0)) none none (.bool false) = .ok r := by
  have hX : Standard (weibull 100 2 0) := .weibull _ _ _ (by norm_num) (by norm_num)
  have hY : Standard (weibull 300 3 0) := .weibull _ _ _ (by norm_num) (by norm_num)
  have h1 := (C34_weibull 100 2 0 (by norm_num) (by norm_num)).mem (1 / 100) (by norm_num) (by norm_num)
  have h2 := (C34_weibull 300 3 0 (by norm_num) (by norm_num)).mem (1 / 100) (by norm_num) (by norm_num)
  have h3 : 0 ≤ min ((weibull 100 2 0).sp.ppf (1 / 100)) ((weibull 300 3 0).sp.ppf (1 / 100)) :=
    le_min (le_of_lt h1) (le_of_lt h2)
  obtain ⟨r, hr, -⟩ := (C115_parametric hX hY rfl rfl rfl rfl).2.1
    ⟨⟨fun _ _ => h3, fun h => by simp [weibull] at h⟩, ⟨fun _ _ => h3, fun h => by simp [weibull] at h⟩⟩
  exact ⟨r, hr⟩

/-! ## semiparametric -/

/-- **C115 (semiparametric).** Whenever the estimator accepts the data and the distribution accepts the failure
times, the plot is drawn, and the point of each failure is its own estimated failure probability against the
failure probability of the distribution at that time.  Otherwise ValueError. -/
theorem C115_semiparametric {np : Numerics} (hs : IsArgsort np.argsort) (hexp : np.exp = Real.exp)
    {f : List ℝ} {rc : Option (List ℝ)} {a : Option ℝ} (ha : 0 ≤ a.getD (3 / 10)) (ha1 : a.getD (3 / 10) < 1)
    {method : String} {S : List ℝ}
    (h : SurvivalAtFailures np (f.insertionSort (· ≤ ·)) (rc.map (·.insertionSort (· ≤ ·))) a method S) (Y : Dist) :
    (((Y.fam ≠ .normal → Y.fam ≠ .gumbel → ∀ t ∈ f, 0 ≤ t) ∧ (Y.fam = .beta → ∀ t ∈ f, t ≤ 1)) →
      ∃ r, ppSemiparametric np (some f) rc (some Y) method a (.bool false) = .ok r ∧
        r.x_scatter.length = f.length ∧ r.y_scatter.length = f.length ∧
        ∀ i < f.length, ∃ s t, S[i]? = some s ∧ (f.insertionSort (· ≤ ·))[i]? = some t ∧
          r.x_scatter[i]? = some (1 - s) ∧ r.y_scatter[i]? = some (Y.sp.cdf t)) ∧
    (¬ ((Y.fam ≠ .normal → Y.fam ≠ .gumbel → ∀ t ∈ f, 0 ≤ t) ∧ (Y.fam = .beta → ∀ t ∈ f, t ≤ 1)) →
      ppSemiparametric np (some f) rc (some Y) method a (.bool false) = valueErr) := by
  obtain ⟨hl, h2, -⟩ := survival_range hs hexp ha ha1 h
  rw [length_insertionSort] at hl h2
  have hne : Np.sort f ≠ [] := by
    intro e; have := congrArg length e; simp [Np.sort] at this; simp [this] at h2
  have hmem : ∀ P : ℝ → Prop, (∀ t ∈ Np.sort f, P t) ↔ ∀ t ∈ f, P t := by
    intro P
    simp [Np.sort, mem_insertionSort]
  have he : ecdfOf np method (Np.sort f) (rc.map Np.sort) a = .ok (S.map fun s => 1 - s) := ecdfOf_eq h
  rcases CDF_cases Y (Np.sort f) hne with ⟨hc, hc1, hc2⟩ | ⟨hc, hn⟩
  · refine ⟨fun _ => ?_, fun hn => absurd ⟨fun n1 n2 => (hmem _).1 (hc1 n1 n2), fun n => (hmem _).1 (hc2 n)⟩ hn⟩
    have e : ppSemiparametric np (some f) rc (some Y) method a (.bool false) =
        .ok ⟨S.map fun s => 1 - s, (Np.sort f).map Y.sp.cdf, []⟩ := by
      unfold ppSemiparametric
      simp only [he, hc, bind, Except.bind, scatter, if_true]
      rfl
    refine ⟨_, e, by simp [hl], by simp [Np.sort], ?_⟩
    intro i hi
    have h1 : i < S.length := by omega
    have h2 : i < (f.insertionSort (· ≤ ·)).length := by simpa using hi
    exact ⟨S[i], _, getElem?_eq_getElem h1, getElem?_eq_getElem h2,
      by simp only [getElem?_map, getElem?_eq_getElem h1, Option.map_some],
      by simp only [Np.sort, getElem?_map, getElem?_eq_getElem h2, Option.map_some]⟩
  · refine ⟨fun ⟨g1, g2⟩ => absurd ⟨fun n1 n2 => (hmem _).2 (g1 n1 n2), fun n => (hmem _).2 (g2 n)⟩ hn, fun _ => ?_⟩
    unfold ppSemiparametric
    simp only [he, hc, bind, Except.bind]

/-- **C115 (semiparametric, complete data).** With `n` uncensored failures and Kaplan-Meier, failure `i` (counted
from 0) is at abscissa `(i + 1)/n`. -/
theorem C115_complete_KM {np : Numerics} (hs : IsArgsort np.argsort) (hexp : np.exp = Real.exp)
    {f : List ℝ} (hf : 2 ≤ f.length) {Y : Dist} {r : PPPlot}
    (hr : ppSemiparametric np (some f) none (some Y) "KM" none (.bool false) = .ok r) (i : ℕ) (hi : i < f.length) :
    r.x_scatter[i]? = some (((i : ℝ) + 1) / f.length) := by
  obtain ⟨S, hS⟩ := C114_accepts (np := np) hs (f := f.insertionSort (· ≤ ·)) (by simpa using hf) none
    (a := none) (by norm_num) (by norm_num) (method := "KM") (by simp)
  have hh := C115_semiparametric hs hexp (f := f) (rc := none) (a := none) (by norm_num) (by norm_num) hS Y
  by_cases hc : ((Y.fam ≠ .normal → Y.fam ≠ .gumbel → ∀ t ∈ f, 0 ≤ t) ∧ (Y.fam = .beta → ∀ t ∈ f, t ≤ 1))
  · obtain ⟨r', hr', -, -, hp⟩ := hh.1 hc
    rw [hr] at hr'
    cases hr'
    obtain ⟨s, t, h1, -, h3, -⟩ := hp i hi
    have hSv := survival_KM_complete hs rfl hS
    rw [length_insertionSort] at hSv
    rw [h3]
    rw [hSv, getElem?_map, getElem?_eq_getElem (by simpa using hi)] at h1
    simp only [Option.map_some, getElem_range'] at h1
    rw [← Option.some.inj h1]
    congr 1
    have hn : (0 : ℝ) < f.length := by exact_mod_cast (by omega : 0 < f.length)
    rw [eq_div_iff hn.ne', sub_mul, div_mul_cancel₀ _ hn.ne', Nat.cast_sub (by omega)]
    push_cast
    ring
  · rw [hh.2 hc] at hr
    cases hr

end Reliability.ProbPlots
