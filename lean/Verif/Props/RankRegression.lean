import Verif.Lemmas.RankRegression

/-! # C87: rank regression (`least_squares`) -/

namespace Reliability.Props

open Reliability Reliability.Distributions Reliability.LinReg Reliability.PP Reliability.FunctionCI Reliability.RankReg List
open Reliability.Spec (ParamsOK InSupport timeScale relScale fitterName paperScale paperResidual expoResidual)

/-! ### the scales are increasing -/

theorem timeScale_strict (f : CFam) {s t : ℝ} (hs : InSupport f 0 s) (h : s < t) :
    timeScale f 0 s < timeScale f 0 t := by
  cases f <;> simp only [timeScale, InSupport] at * <;> first | exact h | exact Real.log_lt_log (by linarith) (by linarith)

theorem paperScale_strict (f : CFam) {p q : ℝ} (h0 : 0 < p) (h : p < q) (h1 : q < 1) :
    paperScale f p < paperScale f q := by
  have hw : Real.log (-Real.log (1 - p)) < Real.log (-Real.log (1 - q)) := by
    have a1 : Real.log (1 - q) < Real.log (1 - p) := Real.log_lt_log (by linarith) (by linarith)
    have a2 : Real.log (1 - p) < 0 := Real.log_neg (by linarith) (by linarith)
    exact Real.log_lt_log (by linarith) (by linarith)
  have hn : normStd.ppf p < normStd.ppf q := by
    rw [← norm_cdf_strictMono.lt_iff_lt]
    have e1 : normStd.cdf (normStd.ppf p) = p := normStd_density.cdf_ppf h0 (by linarith)
    have e2 : normStd.cdf (normStd.ppf q) = q := normStd_density.cdf_ppf (by linarith) h1
    rw [e1, e2]; exact h
  have hl : Real.log (p / (1 - p)) < Real.log (q / (1 - q)) := by
    have a1 : 0 < 1 - p := by linarith
    have a2 : 0 < 1 - q := by linarith
    apply Real.log_lt_log (by positivity)
    rw [div_lt_div_iff₀ a1 a2]; nlinarith
  cases f <;> simp only [paperScale] <;> assumption

/-- covariance of two increasing transforms of the points -/
theorem cov_points {x y : List ℝ} {F G : ℝ → ℝ} (hx : x.Pairwise (· ≤ ·)) (hy : y.Pairwise (· < ·))
    (hF : ∀ s ∈ x, ∀ t ∈ x, s < t → F s < F t) (hG : ∀ s ∈ y, ∀ t ∈ y, s < t → G s < G t)
    (hl : x.length = y.length) (hd : ∃ s ∈ x, ∃ t ∈ x, s ≠ t) :
    0 < cov ((x.map F).zip (y.map G)) ∧ 0 < cov ((x.map F).zip (x.map F)) ∧ 0 < cov ((y.map G).zip (y.map G)) := by
  have key : ∀ (i j : ℕ) (hi : i < x.length) (hj : j < x.length), i < j → F x[i] ≤ F x[j] ∧
      (x[i] ≠ x[j] → F x[i] < F x[j]) := by
    intro i j hi hj hij
    have h1 := pairwise_iff_getElem.1 hx i j hi hj hij
    rcases h1.lt_or_eq with h | h
    · have := hF _ (getElem_mem hi) _ (getElem_mem hj) h
      exact ⟨this.le, fun _ => this⟩
    · rw [h]; exact ⟨le_refl _, fun h' => absurd rfl h'⟩
  have keyy : ∀ (i j : ℕ) (hi : i < y.length) (hj : j < y.length), i < j → G y[i] < G y[j] := by
    intro i j hi hj hij
    exact hG _ (getElem_mem hi) _ (getElem_mem hj) (pairwise_iff_getElem.1 hy i j hi hj hij)
  obtain ⟨s, hs, t, ht, hst⟩ := hd
  obtain ⟨i, hi, rfl⟩ := getElem_of_mem hs
  obtain ⟨j, hj, rfl⟩ := getElem_of_mem ht
  have hij : i ≠ j := by rintro rfl; exact hst rfl
  refine ⟨?_, ?_, ?_⟩
  · apply cov_pos
    · intro p hp q hq
      obtain ⟨k, hk, rfl⟩ := getElem_of_mem hp
      obtain ⟨l, hlq, rfl⟩ := getElem_of_mem hq
      simp only [length_zip, length_map, lt_min_iff] at hk hlq
      simp only [getElem_zip, getElem_map]
      rcases lt_trichotomy k l with h | rfl | h
      · have a := (key k l hk.1 hlq.1 h).1
        have b := keyy k l hk.2 hlq.2 h
        nlinarith
      · simp
      · have a := (key l k hlq.1 hk.1 h).1
        have b := keyy l k hlq.2 hk.2 h
        nlinarith
    · refine ⟨(F x[i], G y[i]), ?_, (F x[j], G y[j]), ?_, ?_⟩
      · apply mem_iff_getElem.2
        exact ⟨i, by simp only [length_zip, length_map, lt_min_iff]; omega, by simp⟩
      · apply mem_iff_getElem.2
        exact ⟨j, by simp only [length_zip, length_map, lt_min_iff]; omega, by simp⟩
      · rcases Nat.lt_or_gt_of_ne hij with h | h
        · have a := (key i j hi hj h).2 hst
          have b := keyy i j (by omega) (by omega) h
          simp only
          nlinarith
        · have a := (key j i hj hi h).2 hst.symm
          have b := keyy j i (by omega) (by omega) h
          simp only
          nlinarith
  · apply cov_pos
    · intro p hp q hq
      obtain ⟨k, hk, rfl⟩ := getElem_of_mem hp
      obtain ⟨l, hlq, rfl⟩ := getElem_of_mem hq
      simp only [getElem_zip, getElem_map]
      exact mul_self_nonneg _
    · refine ⟨(F x[i], F x[i]), ?_, (F x[j], F x[j]), ?_, ?_⟩
      · apply mem_iff_getElem.2
        exact ⟨i, by simpa using hi, by simp⟩
      · apply mem_iff_getElem.2
        exact ⟨j, by simpa using hj, by simp⟩
      · apply mul_self_pos.2
        rcases Nat.lt_or_gt_of_ne hij with h | h
        · have a := (key i j hi hj h).2 hst
          simp only; intro h0; linarith
        · have a := (key j i hj hi h).2 hst.symm
          simp only; intro h0; linarith
  · apply cov_pos
    · intro p hp q hq
      obtain ⟨k, hk, rfl⟩ := getElem_of_mem hp
      obtain ⟨l, hlq, rfl⟩ := getElem_of_mem hq
      simp only [getElem_zip, getElem_map]
      exact mul_self_nonneg _
    · refine ⟨(G y[i], G y[i]), ?_, (G y[j], G y[j]), ?_, ?_⟩
      · apply mem_iff_getElem.2
        exact ⟨i, by simp; omega, by simp⟩
      · apply mem_iff_getElem.2
        exact ⟨j, by simp; omega, by simp⟩
      · apply mul_self_pos.2
        rcases Nat.lt_or_gt_of_ne hij with h | h
        · have a := keyy i j (by omega) (by omega) h
          simp only; intro h0; linarith
        · have a := keyy j i (by omega) (by omega) h
          simp only; intro h0; linarith

/-- the plotting positions used by `least_squares` -/
theorem ls_points {argsort : List ℝ → List Nat} (h : IsArgsort argsort) (failures rc : List ℝ) (hne : failures ≠ []) :
    ∃ x y, plottingPositions argsort failures (some rc) none true = .ok (x, y) ∧ x ~ failures ∧
      x.Pairwise (· ≤ ·) ∧ x.length = y.length ∧ y.Pairwise (· < ·) ∧ ∀ p ∈ y, 0 < p ∧ p < 1 := by
  obtain ⟨x, y, h1, h2, h3, h4, h5, -, h7⟩ := C09_strictly_increasing_probabilities h failures (some rc) none hne
    (by norm_num) (by norm_num) (by norm_num)
  exact ⟨x, y, h1, h2, h3, by rw [h4, h2.length_eq], h5, h7 (by norm_num)⟩

theorem ls_min {failures : List ℝ} (hne : failures ≠ []) :
    ∃ lo hi, failures.min? = some lo ∧ failures.max? = some hi ∧ lo ∈ failures := by
  cases hmin : failures.min? with
  | none => rw [min?_eq_none_iff] at hmin; exact absurd hmin hne
  | some lo =>
    cases hmax : failures.max? with
    | none => rw [max?_eq_none_iff] at hmax; exact absurd hmax hne
    | some hi => exact ⟨lo, hi, rfl, rfl, min?_mem hmin⟩

theorem ls_eval {argsort : List ℝ → List Nat} {nlls} {f : CFam} (hf : f ≠ .gamma) {failures rc : List ℝ} {side : Side}
    (hside : side ≠ .other) (hne : failures ≠ []) (hs : ∀ t ∈ failures, InSupport f 0 t) {x y : List ℝ} {m c : ℝ}
    (hpp : plottingPositions argsort failures (some rc) none true = .ok (x, y)) (hy : ∀ p ∈ y, 0 < p ∧ p < 1)
    (h1 : linearRegression (x.map (timeScale f 0)) (y.map (paperScale f)) none none none side = .ok (.fin m, .fin c))
    (h2 : linearRegression (x.map (timeScale f 0)) ((y.map (paperScale f)).map fun v => -v) none none none side =
      .ok (.fin (-m), .fin (-c))) :
    leastSquares argsort nlls (fitterName f) failures rc side none =
      .ok (some [(paramsOf f m c).1, (paramsOf f m c).2]) := by
  obtain ⟨lo, hi, hmin, hmax, hmem⟩ := ls_min hne
  have hlo := hs lo hmem
  have elog : (timeScale .weibull 0 : ℝ → ℝ) = Real.log := by funext t; simp [timeScale]
  have elogn : (timeScale .lognormal 0 : ℝ → ℝ) = Real.log := by funext t; simp [timeScale]
  have elogl : (timeScale .loglogistic 0 : ℝ → ℝ) = Real.log := by funext t; simp [timeScale]
  have eid : x.map (timeScale .normal 0 : ℝ → ℝ) = x := map_id x
  have eidg : x.map (timeScale .gumbel 0 : ℝ → ℝ) = x := map_id x
  unfold leastSquares
  rw [hmin, hmax, hpp]
  cases f
  · have hlo' : ¬ lo ≤ 0 := not_le.2 hlo
    rw [elog] at h1
    have h1' : linearRegression (x.map Real.log) (y.map fun p => Real.log (-Real.log (1 - p))) none none none side =
      .ok (.fin m, .fin c) := h1
    simp [fitterName, hlo', hside, h1', fromLine, inverted, paramsOf, -Real.log_neg_eq_log]
  · exact absurd rfl hf
  · rw [eid] at h1
    have h1' : linearRegression x (y.map normStd.ppf) none none none side = .ok (.fin m, .fin c) := h1
    simp [fitterName, hside, h1', fromLine, inverted, paramsOf]
  · have hlo' : ¬ lo ≤ 0 := not_le.2 hlo
    rw [elogn] at h1
    have h1' : linearRegression (x.map Real.log) (y.map normStd.ppf) none none none side = .ok (.fin m, .fin c) := h1
    simp [fitterName, hlo', hside, h1', fromLine, inverted, paramsOf, -Real.log_neg_eq_log]
  · have hlo' : ¬ lo ≤ 0 := not_le.2 hlo
    rw [elogl] at h2
    have e : (y.map (paperScale .loglogistic)).map (fun v => -v) = y.map fun p => Real.log (1 / p - 1) := by
      rw [map_map]
      apply map_congr_left
      intro p hp
      obtain ⟨a, b⟩ := hy p hp
      simp only [Function.comp_apply, paperScale]
      rw [← Real.log_inv, inv_div]
      congr 1
      field_simp
    rw [e] at h2
    simp [fitterName, hlo', hside, fromLine, paramsOf]
    simp at h2
    rw [h2]
    simp
  · rw [eidg] at h1
    have h1' : linearRegression x (y.map fun p => Real.log (-Real.log (1 - p))) none none none side =
      .ok (.fin m, .fin c) := h1
    simp [fitterName, hside, h1', fromLine, paramsOf, -Real.log_neg_eq_log]

/-- **C87.** For Weibull_2P, Normal_2P, Lognormal_2P, Loglogistic_2P and Gumbel_2P, any failures (in the support, not
all equal) and right censored times, `least_squares` returns legal parameters, and among all legal parameters they are
the only ones that minimise the squared residuals of the plotting positions on the probability paper: in the direction
of the probability for RRY, of time for RRX. -/
theorem C87_rank_regression {argsort : List ℝ → List Nat} (h : IsArgsort argsort) (nlls) (f : CFam) (hf : f ≠ .gamma)
    (failures rc : List ℝ) (side : Side) (hside : side ≠ .other) (hs : ∀ t ∈ failures, InSupport f 0 t)
    (hd : ∃ s ∈ failures, ∃ t ∈ failures, s ≠ t) :
    ∃ a b xs ps, leastSquares argsort nlls (fitterName f) failures rc side none = .ok (some [a, b]) ∧ ParamsOK f a b ∧
      plottingPositions argsort failures (some rc) none true = .ok (xs, ps) ∧
      ∀ a' b', ParamsOK f a' b' → paperResidual side f a b xs ps ≤ paperResidual side f a' b' xs ps ∧
        ((a', b') ≠ (a, b) → paperResidual side f a b xs ps < paperResidual side f a' b' xs ps) := by
  have hne : failures ≠ [] := by rintro rfl; simp at hd
  obtain ⟨x, y, hpp, hperm, hx, hl, hy, hy01⟩ := ls_points h failures rc hne
  have hsx : ∀ t ∈ x, InSupport f 0 t := fun t ht => hs t (hperm.mem_iff.1 ht)
  have hdx : ∃ s ∈ x, ∃ t ∈ x, s ≠ t := by
    obtain ⟨s, h1, t, h2, h3⟩ := hd
    exact ⟨s, hperm.mem_iff.2 h1, t, hperm.mem_iff.2 h2, h3⟩
  obtain ⟨c1, c2, c3⟩ := cov_points hx hy (fun s hs' t _ => timeScale_strict f (hsx s hs'))
    (fun s hs' t ht h => paperScale_strict f (hy01 s hs').1 h (hy01 t ht).2) hl hdx
  have hlen : 2 ≤ (x.map (timeScale f 0)).length := by
    obtain ⟨s, h1, t, h2, h3⟩ := hdx
    rw [length_map]
    rcases x with _ | ⟨u, _ | ⟨v, x⟩⟩
    · simp at h1
    · simp at h1 h2; exact absurd (h1.trans h2.symm) h3
    · simp
  obtain ⟨m, c, hm, r1, r2, hmin⟩ := regress side hside _ _ (by simpa using hl) hlen c2 c3 c1
  have hok := paramsOf_ok f c hm
  refine ⟨_, _, x, y, ls_eval hf hside hne hs hpp hy01 r1 r2, hok, hpp, fun a' b' hp' => ?_⟩
  rw [residual_eq hside hf hok hsx hy01, residual_eq hside hf hp' hsx hy01, (line_params f c hm).1, (line_params f c hm).2]
  obtain ⟨m1, m2⟩ := hmin (slopeOf f b') (icptOf f a' b') (slopeOf_pos hp').ne'
  refine ⟨m1, fun hne' => m2 fun heq => hne' ?_⟩
  have := params_line hp'
  rw [Prod.mk.injEq] at heq
  rw [heq.1, heq.2] at this
  rw [← this]

/-- **C87.** If the plotting positions lie exactly on the CDF of some legal parameters, both methods return these
parameters. -/
theorem C87_exact {argsort : List ℝ → List Nat} (h : IsArgsort argsort) (nlls) (f : CFam) (hf : f ≠ .gamma)
    (failures rc : List ℝ) (side : Side) (hside : side ≠ .other) (hs : ∀ t ∈ failures, InSupport f 0 t)
    (hd : ∃ s ∈ failures, ∃ t ∈ failures, s ≠ t) (a b : ℝ) (hp : ParamsOK f a b) (xs ps : List ℝ)
    (hpp : plottingPositions argsort failures (some rc) none true = .ok (xs, ps))
    (hon : ps = xs.map (distOf f a b 0).sp.cdf) :
    leastSquares argsort nlls (fitterName f) failures rc side none = .ok (some [a, b]) := by
  obtain ⟨a', b', xs', ps', h1, h2, h3, h4⟩ := C87_rank_regression h nlls f hf failures rc side hside hs hd
  rw [hpp] at h3
  cases h3
  have hne : failures ≠ [] := by rintro rfl; simp at hd
  obtain ⟨x, y, hpp', hperm, -, -, -, hy01⟩ := ls_points h failures rc hne
  rw [hpp] at hpp'
  cases hpp'
  have hsx : ∀ t ∈ xs, InSupport f 0 t := fun t ht => hs t (hperm.mem_iff.1 ht)
  have hz : paperResidual side f a b xs ps = 0 := by
    rw [residual_eq hside hf hp hsx hy01]
    have hY : ps.map (paperScale f) = (xs.map (timeScale f 0)).map fun t => slopeOf f b * t + icptOf f a b := by
      rw [hon, map_map, map_map]
      apply map_congr_left
      intro t ht
      simp only [Function.comp_apply]
      rw [paper_cdf hf hp (hsx t ht)]
    rw [hY]
    generalize xs.map (timeScale f 0) = X
    have hm := (slopeOf_pos hp).ne'
    cases side
    · simp only [sse, reduceCtorEq, if_false, LinReg.Spec.sseX, zipWith_map_right, zipWith_self]
      rw [show (fun a_1 => (a_1 - (slopeOf f b * a_1 + icptOf f a b - icptOf f a b) / slopeOf f b) ^ 2) =
        fun _ : ℝ => (0 : ℝ) by funext t; field_simp; ring]
      simp
    · simp [sse, LinReg.Spec.sseY, zipWith_map_right, zipWith_self]
    · exact absurd rfl hside
  have hnn : 0 ≤ paperResidual side f a' b' xs ps := by
    rw [residual_eq hside hf h2 hsx hy01]
    unfold sse
    split
    · exact sum_nonneg fun v hv => by
        obtain ⟨i, hi, rfl⟩ := getElem_of_mem hv
        rw [getElem_zipWith]; positivity
    · exact sum_nonneg fun v hv => by
        obtain ⟨i, hi, rfl⟩ := getElem_of_mem hv
        rw [getElem_zipWith]; positivity
  by_cases he : (a, b) = (a', b')
  · rw [Prod.mk.injEq] at he
    rw [he.1, he.2]
    exact h1
  · have := (h4 a b hp).2 he
    rw [hz] at this
    linarith

/-- **C87.** With `force_shape`, Weibull_2P, Normal_2P and Lognormal_2P get this shape exactly, and the other parameter
is the only minimiser of the squared residuals among the distributions of this shape.  One failure suffices. -/
theorem C87_forced {argsort : List ℝ → List Nat} (h : IsArgsort argsort) (nlls) (f : CFam)
    (hf : f = .weibull ∨ f = .normal ∨ f = .lognormal) (failures rc : List ℝ) (side : Side) (hside : side ≠ .other)
    (hs : ∀ t ∈ failures, InSupport f 0 t) (hne : failures ≠ []) (s : ℝ) (hs0 : 0 < s) :
    ∃ a xs ps, leastSquares argsort nlls (fitterName f) failures rc side (some s) = .ok (some [a, s]) ∧
      ParamsOK f a s ∧ plottingPositions argsort failures (some rc) none true = .ok (xs, ps) ∧
      ∀ a', ParamsOK f a' s → paperResidual side f a s xs ps ≤ paperResidual side f a' s xs ps ∧
        (a' ≠ a → paperResidual side f a s xs ps < paperResidual side f a' s xs ps) := by
  have hfg : f ≠ .gamma := by rintro rfl; simp at hf
  obtain ⟨x, y, hpp, hperm, hx, hl, hy, hy01⟩ := ls_points h failures rc hne
  have hsx : ∀ t ∈ x, InSupport f 0 t := fun t ht => hs t (hperm.mem_iff.1 ht)
  have hm : 0 < slopeOf f s := by rcases hf with rfl | rfl | rfl <;> simp [slopeOf, hs0]
  have hxn : x.map (timeScale f 0) ≠ [] := by
    intro h0
    rw [map_eq_nil_iff] at h0
    rw [h0] at hperm
    exact hne hperm.symm.eq_nil
  obtain ⟨c, r1, hmin⟩ := regress_slope side hside (x.map (timeScale f 0)) (y.map (paperScale f)) (by simpa using hl)
    hxn (slopeOf f s) hm
  have hok := paramsOf_ok f c hm
  have e2 : (paramsOf f (slopeOf f s) c).2 = s := by rcases hf with rfl | rfl | rfl <;> simp [slopeOf, paramsOf]
  refine ⟨(paramsOf f (slopeOf f s) c).1, x, y, ?_, by rw [e2] at hok; exact hok, hpp, fun a' hp' => ?_⟩
  · obtain ⟨lo, hi, hmin, hmax, hmem⟩ := ls_min hne
    have hlo := hs lo hmem
    unfold leastSquares
    rw [hmin, hmax, hpp]
    rcases hf with rfl | rfl | rfl
    · have hlo' : ¬ lo ≤ 0 := not_le.2 hlo
      have elog : (timeScale .weibull 0 : ℝ → ℝ) = Real.log := by funext t; simp [timeScale]
      rw [elog] at r1
      have r1' : linearRegression (x.map Real.log) (y.map fun p => Real.log (-Real.log (1 - p)))
        (some (if side = .RRX then 1 / s else s)) none none side = .ok (.fin s, .fin c) := r1
      cases side
      · rw [if_pos rfl] at r1'
        simp only [one_div] at r1'
        simp [fitterName, hlo', r1', fromLine, inverted, paramsOf, slopeOf, hs0.ne', -Real.log_neg_eq_log]
      · rw [if_neg (by decide)] at r1'
        simp [fitterName, hlo', r1', fromLine, paramsOf, slopeOf, -Real.log_neg_eq_log]
      · exact absurd rfl hside
    · have eid : x.map (timeScale .normal 0 : ℝ → ℝ) = x := map_id x
      rw [eid] at r1
      have r1' : linearRegression x (y.map normStd.ppf)
        (some (if side = .RRX then 1 / (1 / s) else 1 / s)) none none side = .ok (.fin (1 / s), .fin c) := r1
      rw [one_div_one_div] at r1'
      cases side
      · rw [if_pos rfl] at r1'
        simp only [one_div] at r1'
        simp [fitterName, r1', fromLine, paramsOf, slopeOf]
      · rw [if_neg (by decide)] at r1'
        simp only [one_div] at r1'
        simp [fitterName, r1', fromLine, inverted, paramsOf, slopeOf, hs0.ne']
      · exact absurd rfl hside
    · have hlo' : ¬ lo ≤ 0 := not_le.2 hlo
      have elog : (timeScale .lognormal 0 : ℝ → ℝ) = Real.log := by funext t; simp [timeScale]
      rw [elog] at r1
      have r1' : linearRegression (x.map Real.log) (y.map normStd.ppf)
        (some (if side = .RRX then 1 / (1 / s) else 1 / s)) none none side = .ok (.fin (1 / s), .fin c) := r1
      rw [one_div_one_div] at r1'
      cases side
      · rw [if_pos rfl] at r1'
        simp only [one_div] at r1'
        simp [fitterName, hlo', r1', fromLine, paramsOf, slopeOf]
      · rw [if_neg (by decide)] at r1'
        simp only [one_div] at r1'
        simp [fitterName, hlo', r1', fromLine, inverted, paramsOf, slopeOf, hs0.ne']
      · exact absurd rfl hside
  · have hl1 := line_params f c hm
    rw [e2] at hok hl1
    rw [residual_eq hside hfg hok hsx hy01, residual_eq hside hfg hp' hsx hy01, hl1.2]
    obtain ⟨m1, m2⟩ := hmin (icptOf f a' s)
    refine ⟨m1, fun hne' => m2 fun heq => hne' ?_⟩
    have := params_line hp'
    rw [heq] at this
    rw [this]

/-- **C87.** Exponential_1P: the returned rate is positive and the only minimiser of the squared residuals. -/
theorem C87_exponential {argsort : List ℝ → List Nat} (h : IsArgsort argsort) (nlls) (failures rc : List ℝ) (side : Side)
    (hside : side ≠ .other) (hs : ∀ t ∈ failures, 0 < t) (hne : failures ≠ []) :
    ∃ L xs ps, leastSquares argsort nlls "Exponential_1P" failures rc side none = .ok (some [L]) ∧ 0 < L ∧
      plottingPositions argsort failures (some rc) none true = .ok (xs, ps) ∧
      ∀ L', 0 < L' → expoResidual side L xs ps ≤ expoResidual side L' xs ps ∧
        (L' ≠ L → expoResidual side L xs ps < expoResidual side L' xs ps) := by
  obtain ⟨x, y, hpp, hperm, hx, hl, hy, hy01⟩ := ls_points h failures rc hne
  have hsx : ∀ t ∈ x, 0 < t := fun t ht => hs t (hperm.mem_iff.1 ht)
  have hxn : x ≠ [] := by rintro rfl; exact hne hperm.symm.eq_nil
  obtain ⟨m, hm, r1, hmin⟩ := regress_origin side hside x (y.map fun p => -Real.log (1 - p)) (by simpa using hl) hxn hsx
    (by
      intro b hb
      obtain ⟨p, hp, rfl⟩ := mem_map.1 hb
      have := Real.log_neg (x := 1 - p) (by linarith [hy01 p hp]) (by linarith [hy01 p hp])
      linarith)
  have key : ∀ L, 0 < L → expoResidual side L x y = sse side x (y.map fun p => -Real.log (1 - p)) L 0 := by
    intro L hL
    cases side
    · simp only [expoResidual, sse, reduceCtorEq, if_false, LinReg.Spec.sseX, zipWith_map_right]
      congr 1
      apply zipWith_congr'
      intro t _ p _
      simp only [exponential, locScale, exponStd]
      congr 2
      ring
    · simp only [expoResidual, sse, if_true, LinReg.Spec.sseY, zipWith_map_right]
      congr 1
      apply zipWith_congr'
      intro t ht p _
      have := hsx t ht
      simp only [exponential, locScale, exponStd]
      rw [if_neg (not_le.2 (by simp; positivity)), sub_sub_cancel, Real.log_exp]
      congr 2
      simp; ring
    · exact absurd rfl hside
  refine ⟨m, x, y, ?_, hm, hpp, fun L' hL' => ?_⟩
  · obtain ⟨lo, hi, hmin, hmax, hmem⟩ := ls_min hne
    have hlo' : ¬ lo ≤ 0 := not_le.2 (hs lo hmem)
    unfold leastSquares
    rw [hmin, hmax, hpp]
    simp [hlo', hside, r1, fromLine]
  · rw [key m hm, key L' hL']
    exact hmin L' hL'.ne'

/-- **C87.** Arguments: no failures, failures outside the support, a forced shape for another distribution, a method
other than RRX and RRY, and an unknown distribution are ValueErrors. -/
theorem C87_errors (argsort : List ℝ → List Nat) (nlls) (dist : String) (failures rc : List ℝ) (side : Side)
    (s : Option ℝ)
    (h : failures = [] ∨ ((∃ t ∈ failures, t ≤ 0) ∧ dist ≠ "Normal_2P" ∧ dist ≠ "Gumbel_2P") ∨
      ((∃ t ∈ failures, 1 ≤ t) ∧ dist = "Beta_2P") ∨
      (s ≠ none ∧ dist ≠ "Weibull_2P" ∧ dist ≠ "Normal_2P" ∧ dist ≠ "Lognormal_2P") ∨ side = .other) :
    leastSquares argsort nlls dist failures rc side s = .error .valueError := by
  unfold leastSquares
  cases hmin : failures.min? with
  | none => rfl
  | some lo =>
    cases hmax : failures.max? with
    | none => rfl
    | some hi =>
      simp only
      rw [min?_eq_some_iff] at hmin
      rw [max?_eq_some_iff] at hmax
      by_cases c1 : lo ≤ 0 ∧ dist ∉ ["Normal_2P", "Gumbel_2P"]
      · rw [if_pos c1]
      by_cases c2 : 1 ≤ hi ∧ dist = "Beta_2P"
      · rw [if_neg c1, if_pos c2]
      by_cases c3 : s.isSome ∧ dist ∉ ["Weibull_2P", "Normal_2P", "Lognormal_2P"]
      · rw [if_neg c1, if_neg c2, if_pos c3]
      rw [if_neg c1, if_neg c2, if_neg c3, if_pos ?_]
      rcases h with rfl | ⟨⟨t, ht, h0⟩, h1, h2⟩ | ⟨⟨t, ht, h0⟩, h1⟩ | ⟨h1, h2, h3, h4⟩ | h1
      · simp at hmin
      · exact absurd ⟨le_trans (hmin.2 t ht) h0, by simp [h1, h2]⟩ c1
      · exact absurd ⟨le_trans h0 (hmax.2 t ht), h1⟩ c2
      · exact absurd ⟨Option.isSome_iff_ne_none.2 h1, by simp [h2, h3, h4]⟩ c3
      · exact h1

/-- **C87.** An unknown distribution is a ValueError. -/
theorem C87_unknown {argsort : List ℝ → List Nat} (h : IsArgsort argsort) (nlls) (dist : String) (failures rc : List ℝ)
    (side : Side) (s : Option ℝ) (hd : dist ∉ ["Weibull_2P", "Weibull_3P", "Exponential_1P", "Exponential_2P", "Normal_2P",
      "Gumbel_2P", "Lognormal_2P", "Lognormal_3P", "Loglogistic_2P", "Loglogistic_3P", "Gamma_2P", "Gamma_3P", "Beta_2P"]) :
    leastSquares argsort nlls dist failures rc side s = .error .valueError := by
  by_cases hne : failures = []
  · exact C87_errors argsort nlls dist failures rc side s (Or.inl hne)
  obtain ⟨x, y, hpp, -⟩ := ls_points h failures rc hne
  obtain ⟨lo, hi, hmin, hmax, -⟩ := ls_min hne
  simp only [mem_cons, not_mem_nil, or_false, not_or] at hd
  unfold leastSquares
  rw [hmin, hmax, hpp]
  simp only [nllsNames, mem_cons, hd, not_mem_nil, or_false, if_false]
  split
  · rfl
  · split
    · rename_i h1; exact absurd h1.2 (by simp)
    · split
      · rfl
      · split <;> rfl

/-- The hypotheses of C87 are met, for example, by failures at 1, 2 and 4. -/
example : ∀ f : CFam, (∀ t ∈ [(1 : ℝ), 2, 4], InSupport f 0 t) ∧ ∃ s ∈ [(1 : ℝ), 2, 4], ∃ t ∈ [(1 : ℝ), 2, 4], s ≠ t := by
  intro f
  refine ⟨?_, 1, by simp, 2, by simp, by norm_num⟩
  intro t ht
  have : 0 < t := by
    simp only [mem_cons, not_mem_nil, or_false] at ht
    rcases ht with rfl | rfl | rfl <;> norm_num
  cases f <;> simp [InSupport, this]

/-- The hypothesis of `C87_exact` is met by a single pair of failures whose plotting positions are on a line, for every
two distinct failures: two points always are. -/
example {argsort : List ℝ → List Nat} (h : IsArgsort argsort) : ∃ a b xs ps, ParamsOK .normal a b ∧
    plottingPositions argsort [1, 2] (some []) none true = .ok (xs, ps) ∧
      ps = xs.map (distOf .normal a b 0).sp.cdf := by
  obtain ⟨x, y, hpp, hperm, hx, hl, hy, hy01⟩ := ls_points h [1, 2] [] (by simp)
  have e : x = [1, 2] := by
    apply hperm.eq_of_pairwise (le := (· ≤ ·)) (fun a b _ _ => le_antisymm) hx
    simp
  subst e
  obtain ⟨p, q, rfl⟩ : ∃ p q, y = [p, q] := by
    rcases y with _ | ⟨p, _ | ⟨q, _ | ⟨r, y⟩⟩⟩ <;> simp at hl ⊢
  have hpq : p < q := by simpa using hy
  have hp := hy01 p (by simp)
  have hq := hy01 q (by simp)
  have hz : normStd.ppf p < normStd.ppf q := paperScale_strict .normal hp.1 hpq hq.2
  set u := normStd.ppf p with hu
  set v := normStd.ppf q with hv
  have e1 : normStd.cdf u = p := normStd_density.cdf_ppf hp.1 hp.2
  have e2 : normStd.cdf v = q := normStd_density.cdf_ppf hq.1 hq.2
  have hvu : 0 < v - u := by linarith
  refine ⟨1 - u / (v - u), 1 / (v - u), [1, 2], [p, q], ⟨by positivity, by simp⟩, hpp, ?_⟩
  have c1 : (distOf .normal (1 - u / (v - u)) (1 / (v - u)) 0).sp.cdf 1 = normStd.cdf u := by
    change normStd.cdf ((1 - (1 - u / (v - u))) / (1 / (v - u))) = _
    congr 1
    field_simp
    ring
  have c2 : (distOf .normal (1 - u / (v - u)) (1 / (v - u)) 0).sp.cdf 2 = normStd.cdf v := by
    change normStd.cdf ((2 - (1 - u / (v - u))) / (1 / (v - u))) = _
    congr 1
    field_simp
    ring
  simp only [map_cons, map_nil, c1, c2, e1, e2]

end Reliability.Props
