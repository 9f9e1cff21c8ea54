import Verif.Props.RankRegression
import Verif.Lemmas.Sorting

/-! # C88: change of time unit -/

namespace Reliability.Props

open Reliability Reliability.Distributions Reliability.LinReg Reliability.PP Reliability.FunctionCI Reliability.RankReg List
open Reliability.Spec (ParamsOK InSupport timeScale relScale fitterName paperScale paperResidual expoResidual inUnits
  ComparisonSort)

theorem adjRows_map (g : ℝ → ℝ) (f rc : List ℝ) :
    allRows (f.map g) (rc.map g) = (allRows f rc).map fun r => ((g r.1.1, r.1.2), r.2) := by
  unfold allRows
  have : (map (fun t => (t, true)) (f.map g) ++ map (fun t => (t, false)) (rc.map g)) =
      (map (fun t => (t, true)) f ++ map (fun t => (t, false)) rc).map fun p : ℝ × Bool => (g p.1, p.2) := by
    simp [map_append, Function.comp_def]
  rw [this, zipIdx_map]
  rfl

theorem zip_map_left' {α β γ : Type _} (g : α → γ) (u : List α) (v : List β) :
    (u.map g).zip v = (u.zip v).map fun p => (g p.1, p.2) := by
  rw [zip_map_left]; rfl

/-- Plotting positions after an increasing change of the times: the same probabilities at the changed times. -/
theorem positions_map {argsort : List ℝ → List Nat} (hc : ComparisonSort argsort) (g : ℝ → ℝ) (hg : StrictMono g)
    (f rc : List ℝ) (a : Option ℝ) {x y : List ℝ}
    (h : plottingPositions argsort f (some rc) a true = .ok (x, y)) :
    plottingPositions argsort (f.map g) (some (rc.map g)) a true = .ok (x.map g, y) := by
  unfold plottingPositions at h ⊢
  simp only [Option.getD_some, if_true] at h ⊢
  split at h
  · cases h
  · rename_i ha
    rw [if_neg ha]
    rw [adjRows_map]
    have hsv : sortValues argsort (fun r : (ℝ × Bool) × ℕ => r.1.1) ((allRows f rc).map fun r => ((g r.1.1, r.1.2), r.2)) =
        (sortValues argsort (fun r : (ℝ × Bool) × ℕ => r.1.1) (allRows f rc)).map fun r => ((g r.1.1, r.1.2), r.2) := by
      unfold sortValues
      rw [takeRows_map, map_map]
      congr 1
      have : map ((fun r : (ℝ × Bool) × ℕ => r.1.1) ∘ fun r => ((g r.1.1, r.1.2), r.2)) (allRows f rc) =
          ((allRows f rc).map fun r => r.1.1).map g := by rw [map_map]; rfl
      rw [this, hc g hg]
    rw [hsv, length_map, findIdx?_map, zip_map_left', filter_map]
    simp only [Function.comp_def]
    cases hi : findIdx? (fun r : (ℝ × Bool) × ℕ => r.1.2)
        (sortValues argsort (fun r => r.1.1) (allRows f rc)) with
    | none => rw [hi] at h; cases h
    | some i =>
      rw [hi] at h
      simp only at h ⊢
      split at h
      · cases h
      · rename_i h0
        rw [if_neg h0]
        simp only [Except.ok.injEq, Prod.mk.injEq] at h
        rw [← h.1, ← h.2]
        simp only [map_map, Function.comp_def]

/-- `s` is a legal shift: 0 unless the support is the real line. -/
def shiftOK (f : CFam) (s : ℝ) : Prop := s = 0 ∨ f = .normal ∨ f = .gumbel

theorem inUnits_ok {f : CFam} {k s a b : ℝ} (hk : 0 < k) (hp : ParamsOK f a b) :
    ParamsOK f (inUnits f k s a b).1 (inUnits f k s a b).2 := by
  obtain ⟨hb, ha⟩ := hp
  cases f <;> simp [ParamsOK, inUnits] at * <;> first | exact hb | exact ⟨hb, by positivity⟩ | positivity

theorem inUnits_inv {f : CFam} {k s a b : ℝ} (hk : 0 < k) (hs : shiftOK f s) :
    ∃ a' b', inUnits f k s a' b' = (a, b) := by
  cases f
  · exact ⟨a / k, b, by simp [inUnits]; field_simp⟩
  · exact ⟨a - Real.log k, b, by simp [inUnits]⟩
  · exact ⟨(a - s) / k, b / k, by simp [inUnits]; constructor <;> field_simp <;> ring⟩
  · exact ⟨a - Real.log k, b, by simp [inUnits]⟩
  · exact ⟨a / k, b, by simp [inUnits]; field_simp⟩
  · exact ⟨(a - s) / k, b / k, by simp [inUnits]; constructor <;> field_simp <;> ring⟩

theorem inUnits_ok' {f : CFam} {k s a b : ℝ} (hk : 0 < k) (hp : ParamsOK f (inUnits f k s a b).1 (inUnits f k s a b).2) :
    ParamsOK f a b := by
  obtain ⟨hb, ha⟩ := hp
  cases f <;> simp [ParamsOK, inUnits, hk] at * <;> first | exact hb | exact ⟨hb, ha⟩

theorem cdf_units {f : CFam} {k s : ℝ} (a b : ℝ) (hk : 0 < k) (hs : shiftOK f s) (hb : b ≠ 0) (x : ℝ) :
    (distOf f (inUnits f k s a b).1 (inUnits f k s a b).2 0).sp.cdf (k * x + s) = (distOf f a b 0).sp.cdf x := by
  cases f
  · have : s = 0 := by simpa [shiftOK] using hs
    subst this
    change (weibullStd b).cdf ((k * x + 0 - 0) / (k * a)) = (weibullStd b).cdf ((x - 0) / a)
    rw [add_zero, sub_zero, sub_zero, mul_div_mul_left _ _ hk.ne']
  · have : s = 0 := by simpa [shiftOK] using hs
    subst this
    change (ofDensity (gammaStdPdf b)).cdf ((k * x + 0 - 0) / Real.exp (a + Real.log k)) =
      (ofDensity (gammaStdPdf b)).cdf ((x - 0) / Real.exp a)
    rw [add_zero, sub_zero, sub_zero, Real.exp_add, Real.exp_log hk, mul_comm (Real.exp a), mul_div_mul_left _ _ hk.ne']
  · change normStd.cdf ((k * x + s - (k * a + s)) / (k * b)) = normStd.cdf ((x - a) / b)
    congr 1
    field_simp
    ring
  · have : s = 0 := by simpa [shiftOK] using hs
    subst this
    change (lognormStd b).cdf ((k * x + 0 - 0) / Real.exp (a + Real.log k)) = (lognormStd b).cdf ((x - 0) / Real.exp a)
    rw [add_zero, sub_zero, sub_zero, Real.exp_add, Real.exp_log hk, mul_comm (Real.exp a), mul_div_mul_left _ _ hk.ne']
  · have : s = 0 := by simpa [shiftOK] using hs
    subst this
    change (fiskStd b).cdf ((k * x + 0 - 0) / (k * a)) = (fiskStd b).cdf ((x - 0) / a)
    rw [add_zero, sub_zero, sub_zero, mul_div_mul_left _ _ hk.ne']
  · change gumbelStd.cdf ((k * x + s - (k * a + s)) / (k * b)) = gumbelStd.cdf ((x - a) / b)
    congr 1
    field_simp
    ring

theorem ppf_units {f : CFam} {k s : ℝ} (a b : ℝ) (hk : 0 < k) (hs : shiftOK f s) (p : ℝ) :
    (distOf f (inUnits f k s a b).1 (inUnits f k s a b).2 0).sp.ppf p = k * (distOf f a b 0).sp.ppf p + s := by
  cases f
  · have : s = 0 := by simpa [shiftOK] using hs
    subst this
    change (weibullStd b).ppf p * (k * a) + 0 = k * ((weibullStd b).ppf p * a + 0) + 0
    ring
  · have : s = 0 := by simpa [shiftOK] using hs
    subst this
    change (ofDensity (gammaStdPdf b)).ppf p * Real.exp (a + Real.log k) + 0 =
      k * ((ofDensity (gammaStdPdf b)).ppf p * Real.exp a + 0) + 0
    rw [Real.exp_add, Real.exp_log hk]; ring
  · change normStd.ppf p * (k * b) + (k * a + s) = k * (normStd.ppf p * b + a) + s
    ring
  · have : s = 0 := by simpa [shiftOK] using hs
    subst this
    change (lognormStd b).ppf p * Real.exp (a + Real.log k) + 0 = k * ((lognormStd b).ppf p * Real.exp a + 0) + 0
    rw [Real.exp_add, Real.exp_log hk]; ring
  · have : s = 0 := by simpa [shiftOK] using hs
    subst this
    change (fiskStd b).ppf p * (k * a) + 0 = k * ((fiskStd b).ppf p * a + 0) + 0
    ring
  · change gumbelStd.ppf p * (k * b) + (k * a + s) = k * (gumbelStd.ppf p * b + a) + s
    ring

theorem support_units {f : CFam} {k s t : ℝ} (hk : 0 < k) (hs : shiftOK f s) (ht : InSupport f 0 t) :
    InSupport f 0 (k * t + s) := by
  rcases hs with rfl | rfl | rfl
  · cases f <;> simp only [InSupport, add_zero] at * <;> first | trivial | positivity
  · trivial
  · trivial

/-- factor by which residuals change -/
noncomputable def resFactor (side : Side) (f : CFam) (k : ℝ) : ℝ :=
  match side, f with
  | .RRX, .normal => k ^ 2
  | .RRX, .gumbel => k ^ 2
  | _, _ => 1

theorem resFactor_pos (side : Side) (f : CFam) {k : ℝ} (hk : 0 < k) : 0 < resFactor side f k := by
  cases side <;> cases f <;> simp [resFactor] <;> positivity

theorem timeScale_units {f : CFam} {k s t u : ℝ} (hk : 0 < k) (hs : shiftOK f s) (ht : InSupport f 0 t)
    (hu : InSupport f 0 u) : (timeScale f 0 (k * t + s) - timeScale f 0 (k * u + s)) ^ 2 =
      resFactor .RRX f k * (timeScale f 0 t - timeScale f 0 u) ^ 2 := by
  have hlog : ∀ {t u : ℝ}, 0 < t → 0 < u → Real.log (k * t + 0 - 0) - Real.log (k * u + 0 - 0) =
      Real.log (t - 0) - Real.log (u - 0) := by
    intro t u ht hu
    simp only [add_zero, sub_zero]
    rw [Real.log_mul hk.ne' ht.ne', Real.log_mul hk.ne' hu.ne']
    ring
  cases f
  case normal => simp only [timeScale, resFactor]; ring
  case gumbel => simp only [timeScale, resFactor]; ring
  all_goals
    have : s = 0 := by simpa [shiftOK] using hs
    subst this
    simp only [timeScale, resFactor, one_mul]
    rw [hlog ht hu]

theorem zipWith_sum_mul {F G : ℝ → ℝ → ℝ} {κ : ℝ} {xs ps : List ℝ} (h : ∀ x ∈ xs, ∀ p ∈ ps, F x p = κ * G x p) :
    (zipWith F xs ps).sum = κ * (zipWith G xs ps).sum := by
  induction xs generalizing ps with
  | nil => simp
  | cons x xs ih =>
    cases ps with
    | nil => simp
    | cons p ps =>
      simp only [zipWith_cons_cons, sum_cons]
      rw [h x mem_cons_self p mem_cons_self,
        ih fun x hx y hy => h x (mem_cons_of_mem _ hx) y (mem_cons_of_mem _ hy)]
      ring

theorem residual_units {side : Side} (hside : side ≠ .other) {f : CFam} {k s a b : ℝ} (hk : 0 < k) (hs : shiftOK f s)
    (hp : ParamsOK f a b) {xs ps : List ℝ} (hx : ∀ x ∈ xs, InSupport f 0 x) (hy : ∀ p ∈ ps, 0 < p ∧ p < 1) :
    paperResidual side f (inUnits f k s a b).1 (inUnits f k s a b).2 (xs.map fun t => k * t + s) ps =
      resFactor side f k * paperResidual side f a b xs ps := by
  cases side
  · simp only [paperResidual, zipWith_map_left]
    apply zipWith_sum_mul
    intro x hx' p hp'
    obtain ⟨h0, h1⟩ := hy p hp'
    rw [ppf_units a b hk hs, timeScale_units hk hs (hx x hx')]
    rw [ppf_isf hp h0 h1]
    exact (isf_scale hp (by linarith) (by linarith)).1
  · have : resFactor .RRY f k = 1 := by cases f <;> rfl
    rw [this, one_mul]
    simp only [paperResidual, zipWith_map_left]
    congr 1
    apply zipWith_congr'
    intro x hx' p hp'
    rw [cdf_units a b hk hs hp.1.ne']
  · exact absurd rfl hside

/-- **C88.** Rank regression does not depend on the unit of time: if all times are multiplied by `k > 0` (and for
Normal_2P and Gumbel_2P also shifted by `s`), the fitted parameters change accordingly, and the fitted distribution is
the same one in the new unit. -/
theorem C88_rank_regression {argsort : List ℝ → List Nat} (h : IsArgsort argsort) (hc : ComparisonSort argsort) (nlls)
    (f : CFam) (hf : f ≠ .gamma) (failures rc : List ℝ) (side : Side) (hside : side ≠ .other)
    (hsup : ∀ t ∈ failures, InSupport f 0 t) (hd : ∃ s ∈ failures, ∃ t ∈ failures, s ≠ t)
    (k s : ℝ) (hk : 0 < k) (hs : s = 0 ∨ f = .normal ∨ f = .gumbel) :
    ∃ a b a' b', leastSquares argsort nlls (fitterName f) failures rc side none = .ok (some [a, b]) ∧
      leastSquares argsort nlls (fitterName f) (failures.map fun t => k * t + s) (rc.map fun t => k * t + s) side none =
        .ok (some [a', b']) ∧ (a', b') = inUnits f k s a b ∧
      ∀ t, (distOf f a' b' 0).sp.cdf (k * t + s) = (distOf f a b 0).sp.cdf t := by
  have hg : StrictMono fun t : ℝ => k * t + s := fun u v huv => by
    have := mul_lt_mul_of_pos_left huv hk
    simp only; linarith
  have hne : failures ≠ [] := by rintro rfl; simp at hd
  obtain ⟨a, b, x, y, h1, h2, h3, h4⟩ := C87_rank_regression h nlls f hf failures rc side hside hsup hd
  obtain ⟨x0, y0, hpp, hperm, -, -, -, hy01⟩ := ls_points h failures rc hne
  rw [h3] at hpp
  cases hpp
  have hsx : ∀ t ∈ x, InSupport f 0 t := fun t ht => hsup t (hperm.mem_iff.1 ht)
  obtain ⟨a', b', x', y', h1', h2', h3', h4'⟩ := C87_rank_regression h nlls f hf (failures.map fun t => k * t + s)
    (rc.map fun t => k * t + s) side hside
    (by
      intro t ht
      obtain ⟨u, hu, rfl⟩ := mem_map.1 ht
      exact support_units hk hs (hsup u hu))
    (by
      obtain ⟨u, hu, v, hv, huv⟩ := hd
      exact ⟨_, mem_map_of_mem hu, _, mem_map_of_mem hv, fun he => huv (hg.injective he)⟩)
  rw [positions_map hc _ hg failures rc none h3] at h3'
  cases h3'
  have key : (a', b') = inUnits f k s a b := by
    by_contra hne'
    obtain ⟨a0, b0, he⟩ := inUnits_inv (f := f) (a := a') (b := b') hk hs
    have e1 : (inUnits f k s a0 b0).1 = a' := by rw [he]
    have e2 : (inUnits f k s a0 b0).2 = b' := by rw [he]
    have hok0 : ParamsOK f a0 b0 := inUnits_ok' hk (by rw [e1, e2]; exact h2')
    have m1 := (h4' _ _ (inUnits_ok (s := s) hk h2)).2 fun h0 => hne' h0.symm
    rw [residual_units hside hk hs h2 hsx hy01] at m1
    have m2 := residual_units hside hk hs hok0 hsx hy01
    rw [e1, e2] at m2
    rw [m2] at m1
    have m3 := (h4 a0 b0 hok0).1
    have := mul_le_mul_of_nonneg_left m3 (resFactor_pos side f hk).le
    linarith
  refine ⟨a, b, a', b', h1, h1', key, fun t => ?_⟩
  have := cdf_units (f := f) a b hk hs h2.1.ne' t
  rw [← key] at this
  exact this

/-- **C88.** Exponential_1P: times multiplied by `k` divide the fitted rate by `k`. -/
theorem C88_exponential {argsort : List ℝ → List Nat} (h : IsArgsort argsort) (hc : ComparisonSort argsort) (nlls)
    (failures rc : List ℝ) (side : Side) (hside : side ≠ .other) (hs : ∀ t ∈ failures, 0 < t) (hne : failures ≠ [])
    (k : ℝ) (hk : 0 < k) :
    ∃ L, leastSquares argsort nlls "Exponential_1P" failures rc side none = .ok (some [L]) ∧
      leastSquares argsort nlls "Exponential_1P" (failures.map fun t => k * t) (rc.map fun t => k * t) side none =
        .ok (some [L / k]) := by
  have hg : StrictMono fun t : ℝ => k * t := fun u v huv => mul_lt_mul_of_pos_left huv hk
  obtain ⟨L, x, y, h1, h2, h3, h4⟩ := C87_exponential h nlls failures rc side hside hs hne
  obtain ⟨L', x', y', h1', h2', h3', h4'⟩ := C87_exponential h nlls (failures.map fun t => k * t)
    (rc.map fun t => k * t) side hside
    (by
      intro t ht
      obtain ⟨u, hu, rfl⟩ := mem_map.1 ht
      have := hs u hu
      positivity) (by simpa using hne)
  rw [positions_map hc _ hg failures rc none h3] at h3'
  cases h3'
  refine ⟨L, h1, ?_⟩
  rw [h1']
  have hres : ∀ M, 0 < M → expoResidual side (M / k) (x.map fun t => k * t) y =
      (if side = .RRX then k ^ 2 else 1) * expoResidual side M x y := by
    intro M hM
    cases side
    · simp only [expoResidual, if_true, zipWith_map_left]
      apply zipWith_sum_mul
      intro t _ p _
      simp only [exponential, locScale]
      field_simp
      ring
    · simp only [expoResidual, reduceCtorEq, if_false, one_mul, zipWith_map_left]
      congr 1
      apply zipWith_congr'
      intro t _ p _
      simp only [exponential, locScale, sub_zero]
      rw [show k * t / (1 / (M / k)) = t / (1 / M) by field_simp]
    · exact absurd rfl hside
  by_contra hne'
  have hLk : L / k ≠ L' := by rintro rfl; exact hne' rfl
  have m1 := (h4' (L / k) (by positivity)).2 hLk
  have m2 := (h4 (k * L') (by positivity)).1
  have e : L' = k * L' / k := by field_simp
  rw [hres L h2, e, hres (k * L') (by positivity)] at m1
  have hpos : (0 : ℝ) < if side = .RRX then k ^ 2 else 1 := by split <;> positivity
  have := mul_le_mul_of_nonneg_left m2 hpos.le
  linarith

/-- A sort that depends only on comparisons exists: the stable one. -/
example : IsArgsort (refArgsort (K := ℝ)) ∧ ComparisonSort (refArgsort (K := ℝ)) := by
  refine ⟨refArgsort_isArgsort, fun g hg keys => ?_⟩
  unfold refArgsort
  rw [zipIdx_map, ← map_insertionSort (r := fun p q : ℝ × ℕ => p.1 < q.1 ∨ (p.1 = q.1 ∧ p.2 ≤ q.2)), map_map]
  · rfl
  · rintro ⟨a, i⟩ - ⟨b, j⟩ -
    simp [hg.lt_iff_lt, hg.injective.eq_iff]

end Reliability.Props
