import Mathlib.Tactic.Ring
import Mathlib.Tactic.Linarith
import Mathlib.Tactic.FieldSimp
import Verif.Model.RankRegression
import Verif.Spec.RankRegression
import Verif.Lemmas.FunctionCI
import Verif.Props.LinReg
import Verif.Props.PlottingPositions

/-! # Lemmas for rank regression -/

namespace Reliability.RankReg

open Reliability Reliability.Distributions Reliability.LinReg Reliability.PP Reliability.FunctionCI List
open Reliability.Spec (ParamsOK InSupport timeScale relScale fitterName paperScale paperResidual expoResidual)

/-! ### positive covariance -/

/-- `n ∑ab - ∑a ∑b` -/
noncomputable def cov (L : List (ℝ × ℝ)) : ℝ :=
  L.length * (L.map fun p => p.1 * p.2).sum - (L.map Prod.fst).sum * (L.map Prod.snd).sum

theorem cov_cons (p : ℝ × ℝ) (L : List (ℝ × ℝ)) :
    cov (p :: L) = cov L + (L.map fun q => (q.1 - p.1) * (q.2 - p.2)).sum := by
  have : (L.map fun q => (q.1 - p.1) * (q.2 - p.2)).sum = (L.map fun p => p.1 * p.2).sum -
      p.1 * (L.map Prod.snd).sum - p.2 * (L.map Prod.fst).sum + L.length * (p.1 * p.2) := by
    induction L with
    | nil => simp
    | cons q L ih =>
      simp only [map_cons, sum_cons, ih, length_cons]
      push_cast
      ring
  rw [this]
  unfold cov
  simp only [map_cons, sum_cons, length_cons]
  push_cast
  ring

theorem cov_nonneg (L : List (ℝ × ℝ)) (h : ∀ p ∈ L, ∀ q ∈ L, 0 ≤ (q.1 - p.1) * (q.2 - p.2)) : 0 ≤ cov L := by
  induction L with
  | nil => simp [cov]
  | cons p L ih =>
    rw [cov_cons]
    have h1 := ih fun a ha b hb => h a (mem_cons_of_mem _ ha) b (mem_cons_of_mem _ hb)
    have h2 : 0 ≤ (L.map fun q => (q.1 - p.1) * (q.2 - p.2)).sum := by
      apply sum_nonneg
      intro v hv
      obtain ⟨q, hq, rfl⟩ := mem_map.1 hv
      exact h p mem_cons_self q (mem_cons_of_mem _ hq)
    linarith

theorem sum_pos_of_mem {α : Type _} (L : List α) (F : α → ℝ) (h : ∀ a ∈ L, 0 ≤ F a) (a : α) (ha : a ∈ L) (hp : 0 < F a) :
    0 < (L.map F).sum := by
  induction L with
  | nil => simp at ha
  | cons b L ih =>
    simp only [map_cons, sum_cons]
    have h0 := h b mem_cons_self
    rcases mem_cons.1 ha with rfl | hm
    · have : 0 ≤ (L.map F).sum := sum_nonneg fun v hv => by
        obtain ⟨q, hq, rfl⟩ := mem_map.1 hv
        exact h q (mem_cons_of_mem _ hq)
      linarith
    · have := ih (fun q hq => h q (mem_cons_of_mem _ hq)) hm
      linarith

theorem cov_pos (L : List (ℝ × ℝ)) (h : ∀ p ∈ L, ∀ q ∈ L, 0 ≤ (q.1 - p.1) * (q.2 - p.2))
    (hs : ∃ p ∈ L, ∃ q ∈ L, 0 < (q.1 - p.1) * (q.2 - p.2)) : 0 < cov L := by
  induction L with
  | nil => simp at hs
  | cons r L ih =>
    rw [cov_cons]
    have hL : ∀ a ∈ L, ∀ b ∈ L, 0 ≤ (b.1 - a.1) * (b.2 - a.2) :=
      fun a ha b hb => h a (mem_cons_of_mem _ ha) b (mem_cons_of_mem _ hb)
    have h0 : ∀ q ∈ L, 0 ≤ (q.1 - r.1) * (q.2 - r.2) := fun q hq => h r mem_cons_self q (mem_cons_of_mem _ hq)
    have h1 := cov_nonneg L hL
    have h2 : 0 ≤ (L.map fun q => (q.1 - r.1) * (q.2 - r.2)).sum := sum_nonneg fun v hv => by
      obtain ⟨q, hq, rfl⟩ := mem_map.1 hv
      exact h0 q hq
    obtain ⟨p, hp, q, hq, hpq⟩ := hs
    rcases mem_cons.1 hp with rfl | hpL
    · rcases mem_cons.1 hq with rfl | hq
      · simp at hpq
      · have := sum_pos_of_mem L (fun q => (q.1 - p.1) * (q.2 - p.2)) h0 q hq hpq
        linarith
    · rcases mem_cons.1 hq with rfl | hq
      · have := sum_pos_of_mem L (fun r => (r.1 - q.1) * (r.2 - q.2)) h0 p hpL (by nlinarith)
        linarith
      · have := ih hL ⟨p, hpL, q, hq, hpq⟩
        linarith

theorem cov_zip (u v : List ℝ) (h : u.length = v.length) : cov (u.zip v) = cnt u * dot u v - u.sum * v.sum := by
  unfold cov
  rw [cnt_eq, length_zip, ← h, min_self]
  have h1 : (u.zip v).map Prod.fst = u := map_fst_zip (by omega)
  have h2 : (u.zip v).map Prod.snd = v := map_snd_zip (by omega)
  have h3 : (u.zip v).map (fun p => p.1 * p.2) = zipWith (· * ·) u v := by
    rw [zip_eq_zipWith, map_zipWith]
  rw [h1, h2, h3]
  rfl

/-! ### the regression line -/

theorem solve2_eq (u v : List ℝ) (h : u.length = v.length) (hD : sq u * cnt u - u.sum * u.sum ≠ 0) :
    solve2 u v = some ((cnt u * dot u v - u.sum * v.sum) / (sq u * cnt u - u.sum * u.sum),
      (sq u * v.sum - u.sum * dot u v) / (sq u * cnt u - u.sum * u.sum)) := by
  unfold solve2
  simp only
  rw [show (u.map fun x => x * x).sum = sq u from rfl, show (u.map fun _ => (1 : ℝ)).sum = cnt u from rfl]
  rw [if_neg hD, dot_affine u v h, dot_affine u v h]
  congr 2 <;> field_simp <;> ring

/-- the residual that is minimised, for the line `Y = mX + c` -/
noncomputable def sse (side : Side) (X Y : List ℝ) (m c : ℝ) : ℝ :=
  if side = .RRY then LinReg.Spec.sseY X Y m c else LinReg.Spec.sseX X Y m c

theorem regress (side : Side) (hside : side ≠ .other) (X Y : List ℝ) (hl : X.length = Y.length) (h2 : 2 ≤ X.length)
    (hX : 0 < cov (X.zip X)) (hY : 0 < cov (Y.zip Y)) (hXY : 0 < cov (X.zip Y)) :
    ∃ m c, 0 < m ∧ linearRegression X Y none none none side = .ok (.fin m, .fin c) ∧
      linearRegression X (Y.map fun v => -v) none none none side = .ok (.fin (-m), .fin (-c)) ∧
      ∀ m' c', m' ≠ 0 → sse side X Y m c ≤ sse side X Y m' c' ∧
        ((m', c') ≠ (m, c) → sse side X Y m c < sse side X Y m' c') := by
  rw [cov_zip _ _ rfl] at hX hY
  rw [cov_zip _ _ hl] at hXY
  have eX : ∀ u : List ℝ, dot u u = sq u := fun u => by simp [dot, LinReg.sq, zipWith_self]
  rw [eX] at hX hY
  have hX' : sq X * cnt X - X.sum * X.sum ≠ 0 := by nlinarith
  have hY' : sq Y * cnt Y - Y.sum * Y.sum ≠ 0 := by nlinarith
  have hlt : ¬ X.length < 2 := by omega
  have hnl : X.length = (Y.map fun v => -v).length := by simp [hl]
  have n1 : (Y.map fun v => -v).sum = -Y.sum := by
    clear * -
    induction Y with
    | nil => simp
    | cons a Y ih => simp [ih]; ring
  have n2 : sq (Y.map fun v => -v) = sq Y := by simp [LinReg.sq, Function.comp_def]
  have n3 : cnt (Y.map fun v => -v) = cnt Y := by rw [cnt_eq, cnt_eq, length_map]
  have n4 : dot X (Y.map fun v => -v) = -dot X Y := by
    clear * - hl
    unfold dot
    induction X generalizing Y with
    | nil => simp
    | cons a X ih =>
      cases Y with
      | nil => simp at hl
      | cons b Y =>
        simp only [map_cons, zipWith_cons_cons, sum_cons, ih Y (by simpa using hl)]
        ring
  have dc : ∀ u v : List ℝ, dot u v = dot v u := fun u v => by
    unfold dot
    exact zipWith_swap_sum u v _ _ fun a b => mul_comm a b
  have n5 : dot (Y.map fun v => -v) X = -dot Y X := by rw [dc, n4, dc X Y]
  have hcnt : cnt X = cnt Y := by rw [cnt_eq, cnt_eq, hl]
  cases side with
  | other => exact absurd rfl hside
  | RRY =>
    have hs := solve2_eq X Y hl hX'
    have hsn := solve2_eq X (Y.map fun v => -v) hnl hX'
    refine ⟨(cnt X * dot X Y - X.sum * Y.sum) / (LinReg.sq X * cnt X - X.sum * X.sum),
      (LinReg.sq X * Y.sum - X.sum * dot X Y) / (LinReg.sq X * cnt X - X.sum * X.sum), ?_, ?_, ?_, fun m' c' _ => ?_⟩
    · apply div_pos hXY
      nlinarith
    · unfold linearRegression
      simp only [hl, ne_eq, not_true_eq_false, if_false, reduceCtorEq, Option.isSome_none,
        Bool.false_eq_true, false_and, or_self, and_false, if_true]
      rw [if_neg (by omega), hs]
    · unfold linearRegression
      simp only [hnl, ne_eq, not_true_eq_false, if_false, reduceCtorEq, Option.isSome_none,
        Bool.false_eq_true, false_and, or_self, and_false, if_true]
      rw [if_neg (by omega), hsn, n1, n4]
      simp only
      congr 3 <;> ring
    · simp only [sse, if_true]
      exact solve2_min hl hs m' c'
  | RRX =>
    have hs := solve2_eq Y X hl.symm hY'
    have hsn := solve2_eq (Y.map fun v => -v) X hnl.symm (by rw [n1, n2, n3]; simpa using hY')
    have hp : 0 < (cnt Y * dot Y X - Y.sum * X.sum) / (sq Y * cnt Y - Y.sum * Y.sum) := by
      apply div_pos
      · rw [dc Y X, ← hcnt]; nlinarith
      · nlinarith
    refine ⟨_, -((LinReg.sq Y * X.sum - Y.sum * dot Y X) / (LinReg.sq Y * cnt Y - Y.sum * Y.sum)) /
        ((cnt Y * dot Y X - Y.sum * X.sum) / (LinReg.sq Y * cnt Y - Y.sum * Y.sum)), one_div_pos.2 hp, ?_, ?_, ?_⟩
    · unfold linearRegression
      simp only [hl, ne_eq, not_true_eq_false, if_false, reduceCtorEq, Option.isSome_none,
        Bool.false_eq_true, false_and, or_self, and_false, if_true]
      rw [if_neg (by omega), hs]
      simp only [Ext.divFin, if_neg hp.ne']
    · unfold linearRegression
      simp only [hnl, ne_eq, not_true_eq_false, if_false, reduceCtorEq, Option.isSome_none,
        Bool.false_eq_true, false_and, or_self, and_false, if_true]
      rw [if_neg (by simp; omega), hsn, n1, n2, n3, n5]
      have e1 : (cnt Y * -dot Y X - -Y.sum * X.sum) / (sq Y * cnt Y - -Y.sum * -Y.sum) =
          -((cnt Y * dot Y X - Y.sum * X.sum) / (sq Y * cnt Y - Y.sum * Y.sum)) := by
        rw [neg_mul_neg, ← neg_div]; congr 1; ring
      have e2 : (sq Y * X.sum - -Y.sum * -dot Y X) / (sq Y * cnt Y - -Y.sum * -Y.sum) =
          (sq Y * X.sum - Y.sum * dot Y X) / (sq Y * cnt Y - Y.sum * Y.sum) := by
        rw [neg_mul_neg, neg_mul_neg]
      rw [e1, e2]
      simp only [Ext.divFin, if_neg (neg_ne_zero.2 hp.ne')]
      congr 3
      · rw [div_neg]
      · rw [div_neg]
    · have hlr : linearRegression X Y none none none .RRX = .ok
        (.fin (1 / ((cnt Y * dot Y X - Y.sum * X.sum) / (sq Y * cnt Y - Y.sum * Y.sum))),
          .fin (-((sq Y * X.sum - Y.sum * dot Y X) / (sq Y * cnt Y - Y.sum * Y.sum)) /
        ((cnt Y * dot Y X - Y.sum * X.sum) / (sq Y * cnt Y - Y.sum * Y.sum)))) := by
        unfold linearRegression
        simp only [hl, ne_eq, not_true_eq_false, if_false, reduceCtorEq, Option.isSome_none,
          Bool.false_eq_true, false_and, or_self, and_false, if_true]
        rw [if_neg (by omega), hs]
        simp only [Ext.divFin, if_neg hp.ne']
      simp only [sse, reduceCtorEq, if_false]
      exact fun m' c' => (C49_RRX X Y _ _ hlr).2 m' c'

/-! ### the line of a distribution -/

/-- slope on the paper -/
noncomputable def slopeOf (f : CFam) (b : ℝ) : ℝ :=
  match f with
  | .weibull => b
  | .loglogistic => b
  | _ => 1 / b

/-- intercept on the paper -/
noncomputable def icptOf (f : CFam) (a b : ℝ) : ℝ :=
  match f with
  | .weibull => -(b * Real.log a)
  | .loglogistic => -(b * Real.log a)
  | _ => -(a / b)

/-- parameters of a line -/
noncomputable def paramsOf (f : CFam) (m c : ℝ) : ℝ × ℝ :=
  match f with
  | .weibull => (Real.exp (-c / m), m)
  | .loglogistic => (Real.exp (-c / m), m)
  | _ => (-c * (1 / m), 1 / m)

theorem paramsOf_ok (f : CFam) {m : ℝ} (c : ℝ) (hm : 0 < m) :
    ParamsOK f (paramsOf f m c).1 (paramsOf f m c).2 := by
  cases f <;> simp [ParamsOK, paramsOf, hm, Real.exp_pos]

theorem slopeOf_pos {f : CFam} {a b : ℝ} (h : ParamsOK f a b) : 0 < slopeOf f b := by
  have := h.1
  cases f <;> simp [slopeOf, this]

theorem line_params (f : CFam) {m : ℝ} (c : ℝ) (hm : 0 < m) :
    slopeOf f (paramsOf f m c).2 = m ∧ icptOf f (paramsOf f m c).1 (paramsOf f m c).2 = c := by
  cases f <;> simp [slopeOf, icptOf, paramsOf] <;> field_simp

theorem params_line {f : CFam} {a b : ℝ} (h : ParamsOK f a b) : paramsOf f (slopeOf f b) (icptOf f a b) = (a, b) := by
  have hb := h.1
  cases f
  case weibull => 
    have ha := h.2 (Or.inl rfl)
    simp only [slopeOf, icptOf, paramsOf, neg_neg, mul_div_cancel_left₀ _ hb.ne', Real.exp_log ha]
  case loglogistic => 
    have ha := h.2 (Or.inr rfl)
    simp only [slopeOf, icptOf, paramsOf, neg_neg, mul_div_cancel_left₀ _ hb.ne', Real.exp_log ha]
  all_goals
    simp only [slopeOf, icptOf, paramsOf]
    rw [Prod.mk.injEq]
    constructor <;> field_simp

theorem paper_cdf {f : CFam} {a b x : ℝ} (hf : f ≠ .gamma) (hp : ParamsOK f a b) (hs : InSupport f 0 x) :
    paperScale f ((distOf f a b 0).sp.cdf x) = slopeOf f b * timeScale f 0 x + icptOf f a b := by
  have hr := sf_range (g := 0) hp hs
  have hsc := sf_scale hf hp hs
  rw [cdf_compl hp]
  have hb := hp.1
  generalize (distOf f a b 0).sp.sf x = R at *
  cases f
  · simp only [paperScale, sub_sub_cancel, relScale, FunctionCI.u, sh, positive, slopeOf, icptOf, timeScale] at *
    simp at hsc ⊢
    rw [hsc]; ring
  · exact absurd rfl hf
  · simp only [paperScale, relScale, FunctionCI.u, sh, positive, slopeOf, icptOf, timeScale] at *
    simp at hsc ⊢
    have := norm_isf_eq hr.1 hr.2
    have e1 : normStd.isf R = normStd.ppf (1 - R) := normStd_density.isf_eq R
    rw [← e1, this, hsc]; field_simp; ring
  · simp only [paperScale, relScale, FunctionCI.u, sh, positive, slopeOf, icptOf, timeScale] at *
    simp at hsc ⊢
    have := norm_isf_eq hr.1 hr.2
    have e1 : normStd.isf R = normStd.ppf (1 - R) := normStd_density.isf_eq R
    rw [← e1, this, hsc]; field_simp; ring
  · simp only [paperScale, sub_sub_cancel, relScale, FunctionCI.u, sh, positive, slopeOf, icptOf, timeScale] at *
    simp at hsc ⊢
    rw [hsc]; ring
  · simp only [paperScale, sub_sub_cancel, relScale, FunctionCI.u, sh, positive, slopeOf, icptOf, timeScale] at *
    simp at hsc ⊢
    rw [hsc]; field_simp; ring

theorem ppf_isf {f : CFam} {a b g p : ℝ} (hp : ParamsOK f a b) (h0 : 0 < p) (h1 : p < 1) :
    (distOf f a b g).sp.ppf p = (distOf f a b g).sp.isf (1 - p) := by
  obtain ⟨hb, ha⟩ := hp
  have key : ∀ {D : Set ℝ} {F S Q R : ℝ → ℝ} (_ : Spec.QuantileLaw D F S Q R), Q p = R (1 - p) := by
    intro D F S Q R h
    rw [(h.isf (1 - p) (by linarith) (by linarith)).1, sub_sub_cancel]
  cases f
  · exact key (Props.Distributions.C34_weibull a b g (ha (Or.inl rfl)) hb)
  · exact key (Props.Distributions.C34_gamma _ b g (Real.exp_pos a) hb)
  · exact key (Props.Distributions.C34_normal a b hb)
  · exact key (Props.Distributions.C34_lognormal a b g hb)
  · exact key (Props.Distributions.C34_loglogistic a b g (ha (Or.inr rfl)) hb)
  · exact key (Props.Distributions.C34_gumbel a b hb)

theorem paper_ppf {f : CFam} {a b p : ℝ} (hf : f ≠ .gamma) (hp : ParamsOK f a b) (h0 : 0 < p) (h1 : p < 1) :
    timeScale f 0 ((distOf f a b 0).sp.ppf p) = (paperScale f p - icptOf f a b) / slopeOf f b := by
  have hq0 : (0 : ℝ) < 1 - p := by linarith
  have hq1 : (1 : ℝ) - p < 1 := by linarith
  rw [ppf_isf hp h0 h1, (isf_scale hp hq0 hq1).2]
  have hb := hp.1
  cases f
  · simp only [FunctionCI.v, paperScale, slopeOf, icptOf]; field_simp; ring
  · exact absurd rfl hf
  · simp only [FunctionCI.v, paperScale, slopeOf, icptOf]
    have := norm_isf_eq h0 h1
    have e1 : normStd.isf p = normStd.ppf (1 - p) := normStd_density.isf_eq p
    rw [← e1, this]; field_simp; ring
  · simp only [FunctionCI.v, paperScale, slopeOf, icptOf]
    have := norm_isf_eq h0 h1
    have e1 : normStd.isf p = normStd.ppf (1 - p) := normStd_density.isf_eq p
    rw [← e1, this]; field_simp; ring
  · simp only [FunctionCI.v, paperScale, slopeOf, icptOf]
    rw [show 1 / (1 - p) - 1 = p / (1 - p) by field_simp; ring]
    field_simp; ring
  · simp only [FunctionCI.v, paperScale, slopeOf, icptOf]; field_simp; ring

theorem zipWith_congr' {α β γ : Type _} {F G : α → β → γ} {xs : List α} {ys : List β}
    (h : ∀ x ∈ xs, ∀ y ∈ ys, F x y = G x y) : zipWith F xs ys = zipWith G xs ys := by
  induction xs generalizing ys with
  | nil => simp
  | cons a xs ih =>
    cases ys with
    | nil => simp
    | cons b ys =>
      simp only [zipWith_cons_cons]
      rw [h a mem_cons_self b mem_cons_self,
        ih fun x hx y hy => h x (mem_cons_of_mem _ hx) y (mem_cons_of_mem _ hy)]

theorem residual_eq {side : Side} (hside : side ≠ .other) {f : CFam} {a b : ℝ} (hf : f ≠ .gamma) (hp : ParamsOK f a b)
    {xs ps : List ℝ} (hx : ∀ x ∈ xs, InSupport f 0 x) (hy : ∀ p ∈ ps, 0 < p ∧ p < 1) :
    paperResidual side f a b xs ps =
      sse side (xs.map (timeScale f 0)) (ps.map (paperScale f)) (slopeOf f b) (icptOf f a b) := by
  cases side
  · simp only [paperResidual, sse, reduceCtorEq, if_false, LinReg.Spec.sseX, zipWith_map]
    congr 1
    apply zipWith_congr'
    intro x _ p hp'
    rw [paper_ppf hf hp (hy p hp').1 (hy p hp').2]
  · simp only [paperResidual, sse, if_true, LinReg.Spec.sseY, zipWith_map]
    congr 1
    apply zipWith_congr'
    intro x hx' p _
    rw [paper_cdf hf hp (hx x hx')]
  · exact absurd rfl hside

/-! ### forced slope, line through the origin -/

theorem solve1_eq (u v : List ℝ) (h : u.length = v.length) (hD : LinReg.sq u ≠ 0) :
    solve1 u v = some (dot u v / LinReg.sq u) := by
  unfold solve1
  simp only
  rw [show (u.map fun x => x * x).sum = LinReg.sq u from rfl, if_neg hD, dot_scale u v h]
  congr 1
  field_simp

theorem regress_slope (side : Side) (hside : side ≠ .other) (X Y : List ℝ) (hl : X.length = Y.length) (hn : X ≠ [])
    (m : ℝ) (hm : 0 < m) :
    ∃ c, linearRegression X Y (some (if side = .RRX then 1 / m else m)) none none side = .ok (.fin m, .fin c) ∧
      ∀ c', sse side X Y m c ≤ sse side X Y m c' ∧ (c' ≠ c → sse side X Y m c < sse side X Y m c') := by
  have h1 : 1 ≤ X.length := by
    have := length_pos_iff.2 hn
    omega
  have hq : ∀ u : List ℝ, u ≠ [] → LinReg.sq (u.map fun _ => (1 : ℝ)) ≠ 0 := by
    intro u hu
    have : LinReg.sq (u.map fun _ => (1 : ℝ)) = u.length := by simp [LinReg.sq, Function.comp_def]
    rw [this]
    simpa using hu
  have hnY : Y ≠ [] := by rintro rfl; simp at hl; exact hn hl
  cases side with
  | other => exact absurd rfl hside
  | RRY =>
    have hs := solve1_eq (X.map fun _ => (1 : ℝ)) (zipWith (fun a b => b - m * a) X Y) (by simp [hl]) (hq X hn)
    have hlr : linearRegression X Y (some m) none none .RRY = .ok (.fin m, .fin (dot (X.map fun _ => (1 : ℝ))
        (zipWith (fun a b => b - m * a) X Y) / LinReg.sq (X.map fun _ => (1 : ℝ)))) := by
      unfold linearRegression
      simp only [hl, ne_eq, not_true_eq_false, if_false, reduceCtorEq, Option.isSome_none,
        Bool.false_eq_true, or_self, false_and, and_false, if_true]
      rw [if_neg (by omega), hs]
    refine ⟨_, by rw [if_neg (by decide)]; exact hlr, ?_⟩
    obtain ⟨-, c₀, e, hmin⟩ := C49_RRY_forced_slope X Y m _ _ hlr
    rw [Ext.fin.injEq] at e
    rw [e]
    simpa [sse] using hmin
  | RRX =>
    have hs := solve1_eq (Y.map fun _ => (1 : ℝ)) (zipWith (fun a b => a - (1 / m) * b) X Y) (by simp [hl]) (hq Y hnY)
    set cx := dot (Y.map fun _ => (1 : ℝ)) (zipWith (fun a b => a - (1 / m) * b) X Y) /
      LinReg.sq (Y.map fun _ => (1 : ℝ)) with hcx
    have hlr : linearRegression X Y (some (1 / m)) none none .RRX = .ok (.fin m, .fin (-(m * cx))) := by
      unfold linearRegression
      simp only [hl, ne_eq, not_true_eq_false, if_false, reduceCtorEq, Option.isSome_none,
        Bool.false_eq_true, or_self, false_and, and_false]
      rw [if_neg (by omega), hs]
      simp only
      rw [if_neg (by positivity)]
      congr 3
      · field_simp
      · field_simp
    refine ⟨-(m * cx), by simpa using hlr, fun c' => ?_⟩
    have e : ∀ k, Spec.sseY (Y.map fun _ => (1 : ℝ)) (zipWith (fun a b => a - (1 / m) * b) X Y) k 0 =
        Spec.sseX X Y m (-(m * k)) := by
      intro k
      rw [sseY_ones _ _ (by simp [hl]), sseX_eq]
      unfold Spec.sseY
      clear * - hl hm
      induction X generalizing Y with
      | nil => simp
      | cons a X ih =>
        cases Y with
        | nil => simp at hl
        | cons b Y =>
          simp only [zipWith_cons_cons, sum_cons]
          rw [ih Y (by simpa using hl)]
          congr 1
          field_simp
          ring
    have := solve1_min (by simp [hl]) hs (-(c' / m))
    rw [e, e] at this
    have e' : -(m * -(c' / m)) = c' := by field_simp
    rw [e'] at this
    simp only [sse, reduceCtorEq, if_false]
    refine ⟨this.1, fun hne => this.2 fun heq => hne ?_⟩
    rw [← heq]; field_simp

theorem regress_origin (side : Side) (hside : side ≠ .other) (X Y : List ℝ) (hl : X.length = Y.length) (hn : X ≠ [])
    (hX : ∀ a ∈ X, 0 < a) (hY : ∀ b ∈ Y, 0 < b) :
    ∃ m, 0 < m ∧ linearRegression X Y none (if side = .RRX then some 0 else none) (if side = .RRX then none else some 0)
        side = .ok (.fin m, .fin 0) ∧
      ∀ m', m' ≠ 0 → sse side X Y m 0 ≤ sse side X Y m' 0 ∧ (m' ≠ m → sse side X Y m 0 < sse side X Y m' 0) := by
  have h1 : 1 ≤ X.length := by
    have := length_pos_iff.2 hn
    omega
  have hq : ∀ u : List ℝ, u ≠ [] → (∀ a ∈ u, 0 < a) → 0 < LinReg.sq u := by
    intro u hu hp
    obtain ⟨a, u, rfl⟩ := exists_cons_of_ne_nil hu
    exact sum_pos_of_mem (a :: u) (fun a => a * a) (fun b _ => mul_self_nonneg b) a mem_cons_self
      (by have := hp a mem_cons_self; positivity)
  have hdot : ∀ (u v : List ℝ), u.length = v.length → u ≠ [] → (∀ a ∈ u, 0 < a) → (∀ a ∈ v, 0 < a) → 0 < dot u v := by
    intro u v hlu hu hp hp'
    have : dot u v = ((u.zip v).map fun p => p.1 * p.2).sum := by
      unfold dot
      rw [zip_eq_zipWith, map_zipWith]
    rw [this]
    obtain ⟨a, u, rfl⟩ := exists_cons_of_ne_nil hu
    cases v with
    | nil => simp at hlu
    | cons b v =>
      apply sum_pos_of_mem _ _ _ (a, b) (by simp)
      · have := hp a mem_cons_self
        have := hp' b mem_cons_self
        simp only; positivity
      · rintro ⟨c, d⟩ hcd
        have := hp c (of_mem_zip hcd).1
        have := hp' d (of_mem_zip hcd).2
        simp only; positivity
  have hnY : Y ≠ [] := by rintro rfl; simp at hl; exact hn hl
  have ez : ∀ u : List ℝ, (u.map fun b => b - 0) = u := fun u => by simp
  cases side with
  | other => exact absurd rfl hside
  | RRY =>
    have hs := solve1_eq X Y hl (hq X hn hX).ne'
    refine ⟨_, div_pos (hdot X Y hl hn hX hY) (hq X hn hX), ?_, fun m' _ => ?_⟩
    · unfold linearRegression
      simp only [hl, ne_eq, not_true_eq_false, if_false, reduceCtorEq, Option.isSome_none,
        Bool.false_eq_true, false_and, and_false, if_true, ez]
      rw [if_neg (by omega), hs]
    · simpa [sse] using solve1_min hl hs m'
  | RRX =>
    have hs := solve1_eq Y X hl.symm (hq Y hnY hY).ne'
    have hp : 0 < dot Y X / LinReg.sq Y := div_pos (hdot Y X hl.symm hnY hY hX) (hq Y hnY hY)
    refine ⟨1 / (dot Y X / LinReg.sq Y), by positivity, ?_, fun m' hm' => ?_⟩
    · unfold linearRegression
      simp only [hl, ne_eq, not_true_eq_false, if_false, reduceCtorEq, Option.isSome_none,
        Bool.false_eq_true, false_and, and_false, if_true, ez]
      rw [if_neg (by omega), hs]
      simp only [Ext.divFin, if_neg hp.ne']
      simp
    · have := solve1_min hl.symm hs (1 / m')
      have e1 : (1 : ℝ) / (1 / (dot Y X / LinReg.sq Y)) = dot Y X / LinReg.sq Y := one_div_one_div _
      simp only [sse, reduceCtorEq, if_false, sseX_eq, e1, neg_zero, zero_div]
      refine ⟨this.1, fun hne => this.2 fun heq => hne ?_⟩
      rw [← heq, one_div_one_div]

end Reliability.RankReg
