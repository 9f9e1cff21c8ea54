import Verif.Model.ProbPlots
import Verif.Spec.ProbPlots
import Verif.Props.Distributions
import Verif.Props.LinReg
import Verif.Props.Nonparametric2

/-!
# C113: QQ_plot_parametric
-/

namespace Reliability.ProbPlots

open Reliability Reliability.Distributions Reliability.Utils Reliability.Spec Spec List Reliability.Props.Distributions

/-! ## the distributions -/

theorem standard_laws {d : Dist} (h : Standard d) :
    SurvivalLaw d.sp.cdf d.sp.sf ∧ ∃ D, QuantileLaw D d.sp.cdf d.sp.sf d.sp.ppf d.sp.isf := by
  cases h with
  | weibull a b g ha hb => exact ⟨(C33_weibull a b g ha hb).1, _, C34_weibull a b g ha hb⟩
  | exponential l g hl => exact ⟨(C33_exponential l g hl).1, _, C34_exponential l g hl⟩
  | loglogistic a b g ha hb => exact ⟨(C33_loglogistic a b g ha hb).1, _, C34_loglogistic a b g ha hb⟩
  | gumbel m s hs => exact ⟨C33_gumbel m s hs, _, C34_gumbel m s hs⟩
  | normal m s hs => exact ⟨C33_normal m s hs, _, C34_normal m s hs⟩
  | lognormal m s g hs => exact ⟨(C33_lognormal m s g hs).1, _, C34_lognormal m s g hs⟩
  | gamma a b g ha hb => exact ⟨(C33_gamma a b g ha hb).1, _, C34_gamma a b g ha hb⟩
  | beta a b ha hb => exact ⟨(C33_beta a b ha hb).1, _, C34_beta a b ha hb⟩

theorem cdf_isf {d : Dist} (h : Standard d) {q : ℝ} (h0 : 0 < q) (h1 : q < 1) :
    d.sp.cdf (d.sp.isf q) = 1 - q := by
  obtain ⟨-, D, hD⟩ := standard_laws h
  rw [(hD.isf q h0 h1).1]
  exact hD.cdf_quantile _ (by linarith) (by linarith)

theorem cdf_ppf {d : Dist} (h : Standard d) {q : ℝ} (h0 : 0 < q) (h1 : q < 1) :
    d.sp.cdf (d.sp.ppf q) = q := by
  obtain ⟨-, D, hD⟩ := standard_laws h
  exact hD.cdf_quantile _ h0 h1

theorem isfOne_inside (d : Dist) {q : ℝ} (h0 : 0 < q) (h1 : q < 1) :
    isfOne d q = .ok (.fin (d.sp.isf q)) := by
  simp [isfOne, inverseSF, checkQ, isfE, h0.ne', h1.ne, not_lt.2 h0.le, not_lt.2 h1.le]

theorem isfAll_inside (d : Dist) : ∀ qs : List ℝ, (∀ q ∈ qs, 0 < q ∧ q < 1) →
    isfAll d qs = .ok (qs.map fun q => .fin (d.sp.isf q))
  | [], _ => rfl
  | q :: qs, h => by
    have hq := h q (by simp)
    rw [isfAll, isfOne_inside d hq.1 hq.2, isfAll_inside d qs fun r hr => h r (by simp [hr])]
    rfl

theorem allFinite_fin : ∀ l : List ℝ, allFinite (l.map .fin) = .ok l
  | [] => rfl
  | x :: l => by rw [map_cons, allFinite, allFinite_fin l]; rfl

theorem allFinite_ok : ∀ (l : List (Ext ℝ)) (r : List ℝ), allFinite l = .ok r → l = r.map .fin
  | [], r, h => by cases h; rfl
  | .fin v :: vs, r, h => by
    rw [allFinite] at h
    cases hv : allFinite vs with
    | error e => rw [hv] at h; cases h
    | ok ws =>
      rw [hv] at h
      cases h
      rw [allFinite_ok vs ws hv]; rfl
  | .pinf :: _, _, h => by cases h
  | .ninf :: _, _, h => by cases h
  | .nan :: _, _, h => by cases h

/-! ## least squares -/

theorem sse_nonneg (x y : List ℝ) (m c : ℝ) : 0 ≤ sse x y m c :=
  List.sum_nonneg fun v hv => by
    obtain ⟨p, -, rfl⟩ := mem_map.1 hv
    positivity

theorem sse_zero {x y : List ℝ} {m c : ℝ} (h : sse x y m c = 0) : ∀ p ∈ x.zip y, p.2 = m * p.1 + c := by
  intro p hp
  have h' := List.single_le_sum (l := (x.zip y).map fun p => (p.2 - (m * p.1 + c)) ^ 2)
    (fun v hv => by obtain ⟨p, -, rfl⟩ := mem_map.1 hv; positivity) _ (mem_map.2 ⟨p, hp, rfl⟩)
  have h0 : (p.2 - (m * p.1 + c)) ^ 2 = 0 := le_antisymm (h'.trans_eq h) (sq_nonneg _)
  have := pow_eq_zero_iff (two_ne_zero) |>.1 h0
  linarith

theorem sse_exact {x y : List ℝ} {m c : ℝ} (h : ∀ p ∈ x.zip y, p.2 = m * p.1 + c) : sse x y m c = 0 := by
  unfold sse
  apply List.sum_eq_zero
  intro v hv
  obtain ⟨p, hp, rfl⟩ := mem_map.1 hv
  rw [h p hp]; ring

theorem sse_mid (L : List (ℝ × ℝ)) (m c m' c' : ℝ) :
    (L.map fun p => (p.2 - ((m + m') / 2 * p.1 + (c + c') / 2)) ^ 2).sum +
      (L.map fun p => ((m - m') / 2 * p.1 + (c - c') / 2) ^ 2).sum =
      ((L.map fun p => (p.2 - (m * p.1 + c)) ^ 2).sum + (L.map fun p => (p.2 - (m' * p.1 + c')) ^ 2).sum) / 2 := by
  induction L with
  | nil => simp
  | cons p L ih =>
    simp only [map_cons, sum_cons]
    linear_combination ih

/-- If the points have two different abscissas, there is only one least-squares line. -/
theorem line_unique {x y : List ℝ} {m c : ℝ} (hmin : ∀ m' c', sse x y m c ≤ sse x y m' c')
    (hx : ∃ p ∈ x.zip y, ∃ q ∈ x.zip y, p.1 ≠ q.1) (m' c' : ℝ) (hne : (m', c') ≠ (m, c)) :
    sse x y m c < sse x y m' c' := by
  refine lt_of_le_of_ne (hmin m' c') fun heq => hne ?_
  have hmid := sse_mid (x.zip y) m c m' c'
  have h1 := hmin ((m + m') / 2) ((c + c') / 2)
  simp only [sse] at heq h1 hmin
  have hnn : ∀ v ∈ (x.zip y).map fun p => ((m - m') / 2 * p.1 + (c - c') / 2) ^ 2, 0 ≤ v := by
    intro v hv
    obtain ⟨p, -, rfl⟩ := mem_map.1 hv
    positivity
  have hz : ∀ p ∈ x.zip y, (m - m') / 2 * p.1 + (c - c') / 2 = 0 := by
    intro p hp
    have h' := List.single_le_sum hnn _ (mem_map.2 ⟨p, hp, rfl⟩)
    have h0 : ((m - m') / 2 * p.1 + (c - c') / 2) ^ 2 = 0 := le_antisymm (by linarith) (sq_nonneg _)
    exact pow_eq_zero_iff (two_ne_zero) |>.1 h0
  obtain ⟨p, hp, q, hq, hpq⟩ := hx
  have e1 := hz p hp
  have e2 := hz q hq
  have e3 : (m - m') * (p.1 - q.1) = 0 := by linarith
  have hm : m - m' = 0 := (mul_eq_zero.1 e3).resolve_right (sub_ne_zero.2 hpq)
  have hm' : m' = m := by linarith
  subst hm'
  have hc : c' = c := by linarith
  rw [hc]

theorem origin_unique {x y : List ℝ} {m : ℝ} (hmin : ∀ m', sse x y m 0 ≤ sse x y m' 0)
    (hx : ∃ p ∈ x.zip y, p.1 ≠ 0) (m' : ℝ) (hne : m' ≠ m) : sse x y m 0 < sse x y m' 0 := by
  refine lt_of_le_of_ne (hmin m') fun heq => hne ?_
  have hmid := sse_mid (x.zip y) m 0 m' 0
  have h1 := hmin ((m + m') / 2)
  simp only [sse] at heq h1 hmin
  simp only [add_zero, sub_zero, zero_div] at hmid heq h1
  obtain ⟨p, hp, hp0⟩ := hx
  have h' := List.single_le_sum (l := (x.zip y).map fun p => ((m - m') / 2 * p.1) ^ 2)
    (fun v hv => by obtain ⟨p, -, rfl⟩ := mem_map.1 hv; positivity) _ (mem_map.2 ⟨p, hp, rfl⟩)
  have h0 : ((m - m') / 2 * p.1) ^ 2 = 0 := le_antisymm (by linarith) (sq_nonneg _)
  have := (mul_eq_zero.1 (pow_eq_zero_iff (two_ne_zero) |>.1 h0)).resolve_right hp0
  linarith

/-- Functions with this property exist: `LeastSquares` is satisfiable. -/
theorem leastSquares_exists : ∃ polyfit lstsq, LeastSquares polyfit lstsq := by
  have key : ∀ x y : List ℝ, ∃ p : (ℝ × ℝ) × ℝ, x ≠ [] → x.length = y.length →
      (∀ m c, sse x y p.1.1 p.1.2 ≤ sse x y m c) ∧ ∀ m, sse x y p.2 0 ≤ sse x y m 0 := by
    intro x y
    by_cases hl : x.length = y.length
    · have e : ∀ m c, sse x y m c = LinReg.Spec.sseY x y m c := by
        intro m c
        unfold sse LinReg.Spec.sseY
        rw [List.zip, map_zipWith]
      by_cases hx : x = []
      · exact ⟨((0, 0), 0), fun h => absurd hx h⟩
      obtain ⟨s1, s2, s3, -⟩ := LinReg.C49_succeeds x y hl hx
      have h1 : ∃ m c, ∀ m' c', sse x y m c ≤ sse x y m' c' := by
        by_cases hab : ∃ a ∈ x, ∃ b ∈ x, a ≠ b
        · obtain ⟨⟨m, c⟩, hr⟩ := s1 hab
          obtain ⟨m₀, c₀, -, -, h⟩ := LinReg.C49_RRY _ _ _ _ hr
          exact ⟨m₀, c₀, fun m' c' => by rw [e, e]; exact (h m' c').1⟩
        · push Not at hab
          obtain ⟨v, hv⟩ : ∃ v, v ∈ x := exists_mem_of_ne_nil x hx
          have hdep : ∀ m c, sse x y m c = sse x y 0 (m * v + c) := by
            intro m c
            unfold sse
            congr 1
            apply map_congr_left
            intro p hp
            rw [hab p.1 (of_mem_zip hp).1 v hv]
            ring
          obtain ⟨⟨m, c⟩, hr⟩ := s3 0
          obtain ⟨-, c₀, -, h⟩ := LinReg.C49_RRY_forced_slope _ _ _ _ _ hr
          exact ⟨0, c₀, fun m' c' => by rw [hdep m' c', e, e]; exact (h _).1⟩
      have h2 : ∃ m, ∀ m', sse x y m 0 ≤ sse x y m' 0 := by
        by_cases hz : ∃ a ∈ x, a ≠ 0
        · obtain ⟨⟨m, c⟩, hr⟩ := s2 0 hz
          obtain ⟨-, m₀, -, h⟩ := LinReg.C49_RRY_forced_intercept _ _ _ _ _ hr
          exact ⟨m₀, fun m' => by rw [e, e]; exact (h _).1⟩
        · push Not at hz
          refine ⟨0, fun m' => le_of_eq ?_⟩
          unfold sse
          congr 1
          apply map_congr_left
          intro p hp
          rw [hz p.1 (of_mem_zip hp).1]
          ring
      obtain ⟨m, c, h1⟩ := h1
      obtain ⟨m2, h2⟩ := h2
      exact ⟨((m, c), m2), fun _ _ => ⟨h1, h2⟩⟩
    · exact ⟨((0, 0), 0), fun _ h => absurd h hl⟩
  choose p hp using key
  exact ⟨fun x y => (p x y).1, fun x y => (p x y).2, fun x y h1 h2 => hp x y h1 h2⟩

/-! ## C113 -/

theorem linspace_frac : Np.linspace (1 / 100 : ℝ) (99 / 100) 100 = (List.range 100).map frac := by
  unfold Np.linspace frac
  apply map_congr_left
  intro i _
  norm_num

theorem frac_range {i : ℕ} (h : i < 100) : 0 < frac i ∧ frac i < 1 := by
  have : (i : ℝ) ≤ 99 := by exact_mod_cast Nat.lt_succ_iff.1 h
  unfold frac
  constructor
  · positivity
  · nlinarith

theorem frac_inj {i j : ℕ} (h : frac i = frac j) : i = j := by
  unfold frac at h
  have : (i : ℝ) = j := by linarith
  exact_mod_cast this

/-- The points of the plot. -/
noncomputable def qpoints (d : Dist) : List ℝ := (List.range 100).map fun i => d.sp.isf (frac i)

theorem qq_eq (polyfit : List ℝ → List ℝ → ℝ × ℝ) (lstsq : List ℝ → List ℝ → ℝ) (X Y : Dist)
    {ds : Factor} (hds : ds ∈ [Factor.bool false, .bool true, .none]) :
    qqParametric polyfit lstsq (some X) (some Y) ds =
      .ok ⟨qpoints X, qpoints Y, lstsq (qpoints X) (qpoints Y), (polyfit (qpoints X) (qpoints Y)).1,
        (polyfit (qpoints X) (qpoints Y)).2⟩ := by
  have key : ∀ d : Dist, isfAll d (Np.linspace (1 / 100 : ℝ) (99 / 100) 100) = .ok ((qpoints d).map .fin) := by
    intro d
    rw [linspace_frac, isfAll_inside]
    · simp [qpoints]
    · intro q hq
      obtain ⟨i, hi, rfl⟩ := mem_map.1 hq
      exact frac_range (mem_range.1 hi)
  have hs : scatter (qpoints X) (qpoints Y) ds = .ok (qpoints X, qpoints Y) := by
    have hl : (qpoints X).length = 100 := by simp [qpoints]
    simp only [mem_cons, not_mem_nil, or_false] at hds
    rcases hds with rfl | rfl | rfl <;> simp [scatter, xyDownsample, isDefault, hl]
  simp only [qqParametric, key, fitLines, bind, Except.bind, allFinite_fin, hs]
  rfl

theorem qpoints_getElem (d : Dist) {i : ℕ} (h : i < 100) : (qpoints d)[i]? = some (d.sp.isf (frac i)) := by
  simp [qpoints, h]

theorem qpoints_ne {X : Dist} (hX : Standard X) {i j : ℕ} (hi : i < 100) (hj : j < 100) (hij : i ≠ j) :
    X.sp.isf (frac i) ≠ X.sp.isf (frac j) := by
  intro h
  have h1 := cdf_isf hX (frac_range hi).1 (frac_range hi).2
  have h2 := cdf_isf hX (frac_range hj).1 (frac_range hj).2
  rw [h, h2] at h1
  exact hij (frac_inj (by linarith)).symm

theorem mem_zip_q (X Y : Dist) {i : ℕ} (hi : i < 100) :
    (X.sp.isf (frac i), Y.sp.isf (frac i)) ∈ (qpoints X).zip (qpoints Y) := by
  rw [qpoints, qpoints, zip_map', mem_map]
  exact ⟨i, mem_range.2 hi, rfl⟩

/-- **C113 (points and lines).** For any two of the eight standard distributions the QQ plot has 100 points; the
`i`-th has for abscissa the time by which X has failed with probability `1 - frac i` and for ordinate the
time by which Y has failed with the same probability (the fractions run evenly from 99% down to 1%).  The
returned `m1, c1` are the unique line of least squares through the points, and `m` the unique line of
least squares through the origin.  The default downsampling changes nothing. -/
theorem C113_points {polyfit : List ℝ → List ℝ → ℝ × ℝ} {lstsq : List ℝ → List ℝ → ℝ}
    (hls : LeastSquares polyfit lstsq) {X Y : Dist} (hX : Standard X) (hY : Standard Y)
    {ds : Factor} (hds : ds ∈ [Factor.bool false, .bool true, .none]) :
    ∃ r, qqParametric polyfit lstsq (some X) (some Y) ds = .ok r ∧
      r.x_scatter.length = 100 ∧ r.y_scatter.length = 100 ∧
      (∀ i < 100, ∃ x y, r.x_scatter[i]? = some x ∧ r.y_scatter[i]? = some y ∧
        X.sp.cdf x = 1 - frac i ∧ Y.sp.cdf y = 1 - frac i) ∧
      (∀ m c, (m, c) ≠ (r.m1, r.c1) →
        sse r.x_scatter r.y_scatter r.m1 r.c1 < sse r.x_scatter r.y_scatter m c) ∧
      (∀ m, m ≠ r.m → sse r.x_scatter r.y_scatter r.m 0 < sse r.x_scatter r.y_scatter m 0) := by
  refine ⟨_, qq_eq polyfit lstsq X Y hds, by simp [qpoints], by simp [qpoints], ?_, ?_, ?_⟩
  · intro i hi
    exact ⟨_, _, qpoints_getElem X hi, qpoints_getElem Y hi,
      cdf_isf hX (frac_range hi).1 (frac_range hi).2, cdf_isf hY (frac_range hi).1 (frac_range hi).2⟩
  · have h := (hls (qpoints X) (qpoints Y) (by simp [qpoints]) (by simp [qpoints])).1
    refine fun m c hne => line_unique h ?_ m c hne
    exact ⟨_, mem_zip_q X Y (i := 0) (by norm_num), _, mem_zip_q X Y (i := 1) (by norm_num),
      qpoints_ne hX (by norm_num) (by norm_num) (by norm_num)⟩
  · have h := (hls (qpoints X) (qpoints Y) (by simp [qpoints]) (by simp [qpoints])).2
    have hne : ∃ i < 100, X.sp.isf (frac i) ≠ 0 := by
      by_contra hc
      push Not at hc
      exact qpoints_ne hX (i := 0) (j := 1) (by norm_num) (by norm_num) (by norm_num)
        ((hc 0 (by norm_num)).trans (hc 1 (by norm_num)).symm)
    obtain ⟨i, hi, hne⟩ := hne
    intro m hm
    exact origin_unique h ⟨_, mem_zip_q X Y hi, hne⟩ m hm

/-- **C113 (conversion).** If the times of Y are `a` times those of X plus `b` at every survival probability, the
returned line is exactly that conversion: `m1 = a`, `c1 = b`, and without offset also `m = a`. -/
theorem C113_conversion {polyfit : List ℝ → List ℝ → ℝ × ℝ} {lstsq : List ℝ → List ℝ → ℝ}
    (hls : LeastSquares polyfit lstsq) {X Y : Dist} (hX : Standard X) {a b : ℝ}
    (hab : ∀ q, 0 < q → q < 1 → Y.sp.isf q = a * X.sp.isf q + b) {ds : Factor}
    (hds : ds ∈ [Factor.bool false, .bool true, .none]) {r : QQ}
    (hr : qqParametric polyfit lstsq (some X) (some Y) ds = .ok r) :
    r.m1 = a ∧ r.c1 = b ∧ (b = 0 → r.m = a) := by
  rw [qq_eq polyfit lstsq X Y hds] at hr
  cases hr
  dsimp only
  have hls' := hls (qpoints X) (qpoints Y) (by simp [qpoints]) (by simp [qpoints])
  have hex : ∀ p ∈ (qpoints X).zip (qpoints Y), p.2 = a * p.1 + b := by
    intro p hp
    rw [qpoints, qpoints, zip_map', mem_map] at hp
    obtain ⟨i, hi, rfl⟩ := hp
    have := frac_range (mem_range.1 hi)
    exact hab _ this.1 this.2
  have h0 := sse_zero (le_antisymm ((hls'.1 a b).trans_eq (sse_exact hex)) (sse_nonneg _ _ _ _))
  have p0 := mem_zip_q X Y (i := 0) (by norm_num)
  have p1 := mem_zip_q X Y (i := 1) (by norm_num)
  have hne := qpoints_ne hX (i := 0) (j := 1) (by norm_num) (by norm_num) (by norm_num)
  have e0 := h0 _ p0
  have e1 := h0 _ p1
  have f0 := hex _ p0
  have f1 := hex _ p1
  simp only at e0 e1 f0 f1
  have hm : (polyfit (qpoints X) (qpoints Y)).1 = a := by
    have : ((polyfit (qpoints X) (qpoints Y)).1 - a) * (X.sp.isf (frac 0) - X.sp.isf (frac 1)) = 0 := by
      linear_combination f0 - f1 - e0 + e1
    have := (mul_eq_zero.1 this).resolve_right (sub_ne_zero.2 hne)
    linarith
  refine ⟨hm, by rw [hm] at e0; linarith, fun hb => ?_⟩
  subst hb
  have h0' := sse_zero (le_antisymm ((hls'.2 a).trans_eq (sse_exact hex)) (sse_nonneg _ _ _ _))
  have g0 := h0' _ p0
  have g1 := h0' _ p1
  simp only at g0 g1
  have : (lstsq (qpoints X) (qpoints Y) - a) * (X.sp.isf (frac 0) - X.sp.isf (frac 1)) = 0 := by
    linear_combination f0 - f1 - g0 + g1
  have := (mul_eq_zero.1 this).resolve_right (sub_ne_zero.2 hne)
  linarith

/-- **C113 (a distribution against itself).** `[1, 1, 0]`. -/
theorem C113_same {polyfit : List ℝ → List ℝ → ℝ × ℝ} {lstsq : List ℝ → List ℝ → ℝ}
    (hls : LeastSquares polyfit lstsq) {X : Dist} (hX : Standard X) {ds : Factor}
    (hds : ds ∈ [Factor.bool false, .bool true, .none]) :
    ∃ r, qqParametric polyfit lstsq (some X) (some X) ds = .ok r ∧ r.m = 1 ∧ r.m1 = 1 ∧ r.c1 = 0 := by
  have h := C113_conversion hls hX (Y := X) (a := 1) (b := 0) (fun q _ _ => by ring) hds
    (qq_eq polyfit lstsq X X hds)
  exact ⟨_, qq_eq polyfit lstsq X X hds, h.2.2 rfl, h.1, h.2.1⟩

/-- **C113 (missing distributions).** -/
theorem C113_missing (polyfit : List ℝ → List ℝ → ℝ × ℝ) (lstsq : List ℝ → List ℝ → ℝ) (X Y : Option Dist)
    (ds : Factor) (h : X = none ∨ Y = none) : qqParametric polyfit lstsq X Y ds = valueErr := by
  rcases h with rfl | rfl
  · rfl
  · cases X <;> rfl

/-- **C113 (Weibull, same shape).** The conversion between the two is read off exactly. -/
theorem C113_weibull {polyfit : List ℝ → List ℝ → ℝ × ℝ} {lstsq : List ℝ → List ℝ → ℝ}
    (hls : LeastSquares polyfit lstsq) (alpha beta gamma alpha' gamma' : ℝ) (ha : 0 < alpha) (hb : 0 < beta) :
    ∃ r, qqParametric polyfit lstsq (some (weibull alpha beta gamma)) (some (weibull alpha' beta gamma')) (.bool false) = .ok r ∧
      r.m1 = alpha' / alpha ∧ r.c1 = gamma' - alpha' / alpha * gamma ∧
      (gamma' - alpha' / alpha * gamma = 0 → r.m = alpha' / alpha) :=
  ⟨_, qq_eq polyfit lstsq _ _ (ds := .bool false) (by simp), C113_conversion hls (.weibull _ _ _ ha hb) (fun q _ _ => by
    simp only [weibull, locScale]
    field_simp
    try ring) (ds := .bool false) (by simp)
    (qq_eq polyfit lstsq _ _ (ds := .bool false) (by simp))⟩

/-- **C113 (Exponential).** The conversion between the two is read off exactly. -/
theorem C113_exponential {polyfit : List ℝ → List ℝ → ℝ × ℝ} {lstsq : List ℝ → List ℝ → ℝ}
    (hls : LeastSquares polyfit lstsq) (Lambda gamma Lambda' gamma' : ℝ) (hl : 0 < Lambda) (hl' : 0 < Lambda') :
    ∃ r, qqParametric polyfit lstsq (some (exponential Lambda gamma)) (some (exponential Lambda' gamma')) (.bool false) = .ok r ∧
      r.m1 = Lambda / Lambda' ∧ r.c1 = gamma' - Lambda / Lambda' * gamma ∧
      (gamma' - Lambda / Lambda' * gamma = 0 → r.m = Lambda / Lambda') :=
  ⟨_, qq_eq polyfit lstsq _ _ (ds := .bool false) (by simp), C113_conversion hls (.exponential _ _ hl) (fun q _ _ => by
    simp only [exponential, locScale]
    field_simp
    try ring) (ds := .bool false) (by simp)
    (qq_eq polyfit lstsq _ _ (ds := .bool false) (by simp))⟩

/-- **C113 (Loglogistic, same shape).** The conversion between the two is read off exactly. -/
theorem C113_loglogistic {polyfit : List ℝ → List ℝ → ℝ × ℝ} {lstsq : List ℝ → List ℝ → ℝ}
    (hls : LeastSquares polyfit lstsq) (alpha beta gamma alpha' gamma' : ℝ) (ha : 0 < alpha) (hb : 0 < beta) :
    ∃ r, qqParametric polyfit lstsq (some (loglogistic alpha beta gamma)) (some (loglogistic alpha' beta gamma')) (.bool false) = .ok r ∧
      r.m1 = alpha' / alpha ∧ r.c1 = gamma' - alpha' / alpha * gamma ∧
      (gamma' - alpha' / alpha * gamma = 0 → r.m = alpha' / alpha) :=
  ⟨_, qq_eq polyfit lstsq _ _ (ds := .bool false) (by simp), C113_conversion hls (.loglogistic _ _ _ ha hb) (fun q _ _ => by
    simp only [loglogistic, locScale]
    field_simp
    try ring) (ds := .bool false) (by simp)
    (qq_eq polyfit lstsq _ _ (ds := .bool false) (by simp))⟩

/-- **C113 (Gumbel).** The conversion between the two is read off exactly. -/
theorem C113_gumbel {polyfit : List ℝ → List ℝ → ℝ × ℝ} {lstsq : List ℝ → List ℝ → ℝ}
    (hls : LeastSquares polyfit lstsq) (mu sigma mu' sigma' : ℝ) (hs : 0 < sigma) :
    ∃ r, qqParametric polyfit lstsq (some (gumbel mu sigma)) (some (gumbel mu' sigma')) (.bool false) = .ok r ∧
      r.m1 = sigma' / sigma ∧ r.c1 = mu' - sigma' / sigma * mu ∧
      (mu' - sigma' / sigma * mu = 0 → r.m = sigma' / sigma) :=
  ⟨_, qq_eq polyfit lstsq _ _ (ds := .bool false) (by simp), C113_conversion hls (.gumbel _ _ hs) (fun q _ _ => by
    simp only [gumbel, locScale]
    field_simp
    try ring) (ds := .bool false) (by simp)
    (qq_eq polyfit lstsq _ _ (ds := .bool false) (by simp))⟩

/-- **C113 (Normal).** The conversion between the two is read off exactly. -/
theorem C113_normal {polyfit : List ℝ → List ℝ → ℝ × ℝ} {lstsq : List ℝ → List ℝ → ℝ}
    (hls : LeastSquares polyfit lstsq) (mu sigma mu' sigma' : ℝ) (hs : 0 < sigma) :
    ∃ r, qqParametric polyfit lstsq (some (normal mu sigma)) (some (normal mu' sigma')) (.bool false) = .ok r ∧
      r.m1 = sigma' / sigma ∧ r.c1 = mu' - sigma' / sigma * mu ∧
      (mu' - sigma' / sigma * mu = 0 → r.m = sigma' / sigma) :=
  ⟨_, qq_eq polyfit lstsq _ _ (ds := .bool false) (by simp), C113_conversion hls (.normal _ _ hs) (fun q _ _ => by
    simp only [normal, ofScipy, locScale]
    field_simp
    try ring) (ds := .bool false) (by simp)
    (qq_eq polyfit lstsq _ _ (ds := .bool false) (by simp))⟩

/-- **C113 (Lognormal, same sigma).** The conversion between the two is read off exactly. -/
theorem C113_lognormal {polyfit : List ℝ → List ℝ → ℝ × ℝ} {lstsq : List ℝ → List ℝ → ℝ}
    (hls : LeastSquares polyfit lstsq) (mu sigma gamma mu' gamma' : ℝ) (hs : 0 < sigma) :
    ∃ r, qqParametric polyfit lstsq (some (lognormal mu sigma gamma)) (some (lognormal mu' sigma gamma')) (.bool false) = .ok r ∧
      r.m1 = Real.exp (mu' - mu) ∧ r.c1 = gamma' - Real.exp (mu' - mu) * gamma ∧
      (gamma' - Real.exp (mu' - mu) * gamma = 0 → r.m = Real.exp (mu' - mu)) :=
  ⟨_, qq_eq polyfit lstsq _ _ (ds := .bool false) (by simp), C113_conversion hls (.lognormal _ _ _ hs) (fun q _ _ => by
    simp only [lognormal, ofScipy, Real.exp_sub, locScale]
    field_simp
    try ring) (ds := .bool false) (by simp)
    (qq_eq polyfit lstsq _ _ (ds := .bool false) (by simp))⟩

/-- **C113 (Gamma, same shape).** The conversion between the two is read off exactly. -/
theorem C113_gamma {polyfit : List ℝ → List ℝ → ℝ × ℝ} {lstsq : List ℝ → List ℝ → ℝ}
    (hls : LeastSquares polyfit lstsq) (alpha beta gamma alpha' gamma' : ℝ) (ha : 0 < alpha) (hb : 0 < beta) :
    ∃ r, qqParametric polyfit lstsq (some (gammaDist alpha beta gamma)) (some (gammaDist alpha' beta gamma')) (.bool false) = .ok r ∧
      r.m1 = alpha' / alpha ∧ r.c1 = gamma' - alpha' / alpha * gamma ∧
      (gamma' - alpha' / alpha * gamma = 0 → r.m = alpha' / alpha) :=
  ⟨_, qq_eq polyfit lstsq _ _ (ds := .bool false) (by simp), C113_conversion hls (.gamma _ _ _ ha hb) (fun q _ _ => by
    simp only [gammaDist, ofScipy, locScale]
    field_simp
    try ring) (ds := .bool false) (by simp)
    (qq_eq polyfit lstsq _ _ (ds := .bool false) (by simp))⟩

/-- Non-vacuity: a concrete pair, with least-squares functions that exist. -/
example : ∃ polyfit lstsq, LeastSquares polyfit lstsq ∧
    ∃ r, qqParametric polyfit lstsq (some (weibull 100 2 0)) (some (weibull 300 2 0)) (.bool false) = .ok r ∧
      r.m1 = 3 ∧ r.c1 = 0 ∧ r.m = 3 := by
  obtain ⟨p, l, h⟩ := leastSquares_exists
  obtain ⟨r, hr, h1, h2, h3⟩ := C113_weibull h 100 2 0 300 0 (by norm_num) (by norm_num)
  exact ⟨p, l, h, r, hr, by rw [h1]; norm_num, by rw [h2]; norm_num, by rw [h3 (by norm_num)]; norm_num⟩

end Reliability.ProbPlots
