import Verif.Model.ProbPaper
import Verif.Props.Transforms

/-!
# C117: the limits of a probability plot show every point
-/

namespace Reliability.ProbPaper

open Reliability Reliability.Utils List

/-- The parameters in the y-axis are admissible. -/
def Paper.Ok : Paper → Prop
  | .gamma b => 0 < b
  | .beta a b => 0 < a ∧ 0 < b
  | _ => True

/-- What the limits need of the y-axis. -/
structure Scale (t : Transform) : Prop where
  mono : Monotone t.inv
  nonneg : ∀ x, 0 ≤ t.inv x
  le_one : ∀ x, t.inv x ≤ 1
  inv_fwd : ∀ p, 0 < p → p < 1 → t.inv (t.fwd p) = p
  fwd_mono : ∀ p q, 0 < p → q < 1 → p ≤ q → t.fwd p ≤ t.fwd q

theorem Scale.of_axis {t : Transform} {D : Set ℝ} (h : Props.AxisLaw t D) (hm : Monotone t.inv)
    (h0 : ∀ x, 0 ≤ t.inv x ∧ t.inv x ≤ 1) : Scale t where
  mono := hm
  nonneg x := (h0 x).1
  le_one x := (h0 x).2
  inv_fwd := h.inv_fwd
  fwd_mono p q hp hq hpq := h.fwd_mono.monotoneOn ⟨hp, by linarith⟩ ⟨by linarith, hq⟩ hpq

theorem Scale.of_univ {t : Transform} (h : Props.AxisLaw t Set.univ) : Scale t :=
  .of_axis h (strictMonoOn_univ.1 h.inv_mono).monotone fun x =>
    ⟨(h.inv_mem x trivial).1.le, (h.inv_mem x trivial).2.le⟩

theorem Paper.scale {p : Paper} (hp : p.Ok) : Scale p.axis := by
  cases p with
  | weibull => exact .of_univ Props.C52_axis_weibull
  | lognormal => exact .of_univ Props.C52_axis_normal
  | loglogistic => exact .of_univ Props.C52_axis_loglogistic
  | normal => exact .of_univ Props.C52_axis_normal
  | gumbel => exact .of_univ Props.C52_axis_gumbel
  | exponential =>
    have := Distributions.weibullStd_survival (c := 1) one_pos
    refine .of_axis Props.C52_axis_exponential ?_ ?_
    · simp only [Paper.axis, axisExponential, Distributions.exponStd_eq]; exact this.mono
    · simp only [Paper.axis, axisExponential, Distributions.exponStd_eq]; exact this.range
  | gamma b =>
    have := (Distributions.gammaStd_density (a := b) hp).survival
    exact .of_axis (Props.C52_axis_gamma b hp) this.mono this.range
  | beta a b =>
    have := (Distributions.betaStd_density hp.1 hp.2).survival
    exact .of_axis (Props.C52_axis_beta a b hp.1 hp.2) this.mono this.range

theorem foldl_min_le : ∀ (l : List ℝ) (a : ℝ), l.foldl min a ≤ a ∧ (∀ v ∈ l, l.foldl min a ≤ v) ∧ l.foldl min a ∈ a :: l
  | [], a => by simp
  | b :: l, a => by
    obtain ⟨h1, h2, h3⟩ := foldl_min_le l (min a b)
    simp only [foldl_cons]
    refine ⟨h1.trans (min_le_left _ _), ?_, ?_⟩
    · intro v hv
      rcases mem_cons.1 hv with rfl | hv
      · exact h1.trans (min_le_right _ _)
      · exact h2 v hv
    · rcases mem_cons.1 h3 with h | h
      · rcases min_choice a b with e | e <;> rw [h, e] <;> simp
      · simp [h]

theorem foldl_max_ge : ∀ (l : List ℝ) (a : ℝ), a ≤ l.foldl max a ∧ (∀ v ∈ l, v ≤ l.foldl max a) ∧ l.foldl max a ∈ a :: l
  | [], a => by simp
  | b :: l, a => by
    obtain ⟨h1, h2, h3⟩ := foldl_max_ge l (max a b)
    simp only [foldl_cons]
    refine ⟨(le_max_left _ _).trans h1, ?_, ?_⟩
    · intro v hv
      rcases mem_cons.1 hv with rfl | hv
      · exact (le_max_right _ _).trans h1
      · exact h2 v hv
    · rcases mem_cons.1 h3 with h | h
      · rcases max_choice a b with e | e <;> rw [h, e] <;> simp
      · simp [h]

theorem range_spec {l : List ℝ} (h : l ≠ []) : ∃ lo hi, range l = .ok (lo, hi) ∧ lo ∈ l ∧ hi ∈ l ∧
    ∀ v ∈ l, lo ≤ v ∧ v ≤ hi := by
  cases l with
  | nil => exact absurd rfl h
  | cons a l =>
    obtain ⟨h1, h2, h3⟩ := foldl_min_le l a
    obtain ⟨g1, g2, g3⟩ := foldl_max_ge l a
    refine ⟨_, _, rfl, h3, g3, ?_⟩
    intro v hv
    rcases mem_cons.1 hv with rfl | hv
    · exact ⟨h1, g1⟩
    · exact ⟨h2 v hv, g2 v hv⟩

theorem ylims_spec {p : Paper} (hp : p.Ok) {lo hi s : ℝ} (h0 : 0 < lo) (hl : lo ≤ hi) (h1 : hi < 1) (hs : 0 < s) (hs1 : s < 1) :
    (ylims p lo hi s).1 ≤ lo ∧ hi ≤ (ylims p lo hi s).2 ∧ (ylims p lo hi s).1 < (ylims p lo hi s).2 ∧
    (ylims p lo hi s).2 < 1 ∧ (lo < hi → 0 < (ylims p lo hi s).1) ∧
    (lo = hi → lo ≠ s * (1 - lo) → (ylims p lo hi s).1 = lo - s * (1 - lo)) := by
  have S := p.scale hp
  have hab := S.fwd_mono lo hi h0 h1 hl
  set a := p.axis.fwd lo with ha
  set b := p.axis.fwd hi with hb
  have ea : p.axis.inv a = lo := S.inv_fwd lo h0 (by linarith)
  have eb : p.axis.inv b = hi := S.inv_fwd hi (by linarith) h1
  have hd : 0 ≤ (b - a) * s := mul_nonneg (by linarith) hs.le
  have hL : p.axis.inv (a - (b - a) * s) ≤ lo := by
    rw [← ea]; exact S.mono (by linarith)
  have hU : hi ≤ p.axis.inv (b + (b - a) * s) := by
    conv_lhs => rw [← eb]
    exact S.mono (by linarith)
  have hL0 := S.nonneg (a - (b - a) * s)
  have hU1 := S.le_one (b + (b - a) * s)
  have heq : lo = hi → p.axis.inv (a - (b - a) * s) = lo ∧ p.axis.inv (b + (b - a) * s) = lo := by
    intro h
    have e : b = a := by rw [ha, hb, h]
    rw [e]
    simp [ea]
  unfold ylims
  simp only [← ha, ← hb]
  set l := p.axis.inv (a - (b - a) * s) with hl'
  set u := p.axis.inv (b + (b - a) * s) with hu'
  by_cases h : lo = hi
  · obtain ⟨e1, e2⟩ := heq h
    rw [e1, e2]
    simp only [if_true]
    have hm : min (1 - lo) (lo - 1) = lo - 1 := min_eq_right (by linarith)
    rw [hm]
    have hs' : 0 < s * (1 - lo) := mul_pos hs (by linarith)
    have hs'' : s * (1 - lo) < 1 - lo := by nlinarith
    have hne : lo - s * (lo - 1) ≠ 1 := by nlinarith
    rw [if_neg hne, ← h]
    have hsimp : lo + s * (lo - 1) = lo - s * (1 - lo) := by ring
    rw [hsimp]
    by_cases hz : lo - s * (1 - lo) = 0
    · rw [if_pos hz, if_pos h0]
      refine ⟨le_refl _, by nlinarith, by nlinarith, by nlinarith, fun h => absurd h (lt_irrefl _), fun _ hne => ?_⟩
      exact absurd (by linarith) hne
    · rw [if_neg hz]
      refine ⟨by linarith, by nlinarith, by nlinarith, by nlinarith, fun h => absurd h (lt_irrefl _), fun _ _ => rfl⟩
  · have hlt : lo < hi := lt_of_le_of_ne hl h
    have hul : u ≠ l := by intro e; linarith
    rw [if_neg hul, if_neg hul]
    have c1 : (if l = 0 then (if 0 < lo then lo else 1 / 100000) else l) ≤ lo ∧
        0 < (if l = 0 then (if 0 < lo then lo else 1 / 100000) else l) := by
      split_ifs with h2
      · exact ⟨le_refl _, h0⟩
      · exact ⟨hL, lt_of_le_of_ne hL0 (Ne.symm h2)⟩
    have c2 : hi ≤ (if u = 1 then (if hi < 1 then hi else 99999 / 100000) else u) ∧
        (if u = 1 then (if hi < 1 then hi else 99999 / 100000) else u) < 1 := by
      split_ifs with h2
      · exact ⟨le_refl _, h1⟩
      · exact ⟨hU, lt_of_le_of_ne hU1 h2⟩
    exact ⟨c1.1, c2.1, by linarith, c2.2, fun _ => c1.2, fun e => absurd e h⟩

theorem log10_pow {x : ℝ} (hx : 0 < x) : (10 : ℝ) ^ log10 x = x := by
  rw [Real.rpow_def_of_pos (by norm_num), log10, mul_div_cancel₀ _ (Real.log_pos (by norm_num)).ne', Real.exp_log hx]

theorem log10_mono {x y : ℝ} (hx : 0 < x) (h : x ≤ y) : log10 x ≤ log10 y :=
  div_le_div_of_nonneg_right (Real.log_le_log hx h) (Real.log_pos (by norm_num)).le

theorem pow_lt {x y : ℝ} (h : x < y) : (10 : ℝ) ^ x < (10 : ℝ) ^ y := Real.rpow_lt_rpow_of_exponent_lt (by norm_num) h

theorem xlims_log {p : Paper} (hp : p.logx = true) {lo hi s : ℝ} (hl : lo ≤ hi) (hs : 0 < s) (h0 : 0 < lo) :
    ∃ L, xlims p lo hi s = .ok L ∧ 0 < L.1 ∧ L.1 < lo ∧ hi < L.2 := by
  have hhi : 0 < hi := by linarith
  have hm := log10_mono h0 hl
  rcases hl.lt_or_eq with h | h
  · have hlt : log10 lo < log10 hi :=
      div_lt_div_of_pos_right (Real.log_lt_log h0 h) (Real.log_pos (by norm_num))
    have hd : 0 < (log10 hi - log10 lo) * s := mul_pos (by linarith) hs
    have e1 : (10 : ℝ) ^ (log10 lo - (log10 hi - log10 lo) * s) < lo := by
      conv_rhs => rw [← log10_pow h0]
      exact pow_lt (by linarith)
    have e2 : hi < (10 : ℝ) ^ (log10 hi + (log10 hi - log10 lo) * s) := by
      conv_lhs => rw [← log10_pow hhi]
      exact pow_lt (by linarith)
    refine ⟨(_, _), ?_, ?_, e1, e2⟩
    · unfold xlims
      simp only [hp, if_true, if_neg (not_le.2 h0)]
      rw [if_neg (by linarith)]
    · exact Real.rpow_pos_of_pos (by norm_num) _
  · subst h
    have e : (10 : ℝ) ^ (log10 lo - (log10 lo - log10 lo) * s) = lo := by simp [log10_pow h0]
    have e' : (10 : ℝ) ^ (log10 lo + (log10 lo - log10 lo) * s) = lo := by simp [log10_pow h0]
    refine ⟨((10 : ℝ) ^ (log10 lo - 10 * s), (10 : ℝ) ^ (log10 lo + 10 * s)), ?_, ?_, ?_, ?_⟩
    · unfold xlims
      simp only [hp, if_true, if_neg (not_le.2 h0), e, e']
    · exact Real.rpow_pos_of_pos (by norm_num) _
    · conv_rhs => rw [← log10_pow h0]
      exact pow_lt (by linarith)
    · conv_lhs => rw [← log10_pow h0]
      exact pow_lt (by linarith)

theorem xlims_lin {p : Paper} (hp : p.logx = false) {lo hi s : ℝ} (hl : lo < hi) (hs : 0 < s) :
    xlims p lo hi s = .ok (if lo - (hi - lo) * s < 0 ∧ p.negative = false then 0 else lo - (hi - lo) * s,
      hi + (hi - lo) * s) := by
  have hd : 0 < (hi - lo) * s := mul_pos (by linarith) hs
  have hne : ¬ lo - (hi - lo) * s = hi + (hi - lo) * s := by intro h; linarith
  unfold xlims
  simp only [hp, Bool.false_eq_true, if_false, if_neg hne]
  cases p.negative
  · simp only [Bool.not_false, and_true]
    split_ifs <;> rfl
  · simp

theorem xlims_lin_one {p : Paper} (hp : p.logx = false) {lo s : ℝ} : xlims p lo lo s = .ok (0, lo * 2) := by
  unfold xlims
  simp [hp]

/-- **C117 (when the limits exist).** The limits are set exactly when there are points and, on a logarithmic axis, all times
are positive; otherwise ValueError. -/
theorem C117_defined (p : Paper) (x y : List ℝ) {s : ℝ} (hs : 0 < s) :
    ((∃ L, xylims p x y s = .ok L) ↔ x ≠ [] ∧ y ≠ [] ∧ (p.logx = true → ∀ v ∈ x, 0 < v)) ∧
    ((¬ ∃ L, xylims p x y s = .ok L) → xylims p x y s = valueErr) := by
  by_cases hx : x = []
  · subst hx
    refine ⟨⟨fun ⟨L, h⟩ => ?_, fun h => absurd rfl h.1⟩, fun _ => rfl⟩
    cases h
  by_cases hy : y = []
  · subst hy
    obtain ⟨lo, hi, h1, -⟩ := range_spec hx
    have e : xylims p x [] s = valueErr := by
      unfold xylims
      rw [h1]
      rfl
    rw [e]
    exact ⟨⟨fun ⟨L, h⟩ => (by cases h), fun h => absurd rfl h.2.1⟩, fun _ => rfl⟩
  obtain ⟨lo, hi, h1, hm, hM, hb⟩ := range_spec hx
  obtain ⟨lo', hi', h1', -, -, -⟩ := range_spec hy
  have e : xylims p x y s = (xlims p lo hi s).map fun L => (L, ylims p lo' hi' s) := by
    unfold xylims
    rw [h1, h1']
    simp only [bind, Except.bind]
    cases xlims p lo hi s <;> rfl
  rw [e]
  have hlh : lo ≤ hi := (hb lo hm).2
  by_cases hp : p.logx = true
  · by_cases h0 : 0 < lo
    · obtain ⟨L, hL, -⟩ := xlims_log hp hlh hs h0
      rw [hL]
      refine ⟨⟨fun _ => ⟨hx, hy, fun _ v hv => by linarith [(hb v hv).1]⟩, fun _ => ⟨_, rfl⟩⟩, fun h => absurd ⟨_, rfl⟩ h⟩
    · have e2 : xlims p lo hi s = valueErr := by
        unfold xlims
        rw [if_pos hp, if_pos (not_lt.1 h0)]
      rw [e2]
      refine ⟨⟨fun ⟨L, h⟩ => (by cases h), fun h => absurd (h.2.2 hp lo hm) h0⟩, fun _ => rfl⟩
  · have hp' : p.logx = false := by simpa using hp
    have : ∃ L, xlims p lo hi s = .ok L := by
      rcases hlh.lt_or_eq with h | h
      · exact ⟨_, xlims_lin hp' h hs⟩
      · rw [h]; exact ⟨_, xlims_lin_one hp'⟩
    obtain ⟨L, hL⟩ := this
    rw [hL]
    refine ⟨⟨fun _ => ⟨hx, hy, fun h => absurd h hp⟩, fun _ => ⟨_, rfl⟩⟩, fun h => absurd ⟨_, rfl⟩ h⟩

/-- **C117 (x-axis).** With positive times, or with at least two different times on Normal or Gumbel paper, the limits
are in order and every point is strictly inside or, at the left end only, on the edge; on a logarithmic axis the left limit
is positive, and only Normal and Gumbel papers show negative times. -/
theorem C117_x {p : Paper} {x y : List ℝ} {s : ℝ} (hs : 0 < s) {X Y : ℝ × ℝ} (h : xylims p x y s = .ok (X, Y))
    (hd : (∀ v ∈ x, 0 < v) ∨ p.negative = true ∧ ∃ v ∈ x, ∃ w ∈ x, v ≠ w) :
    X.1 < X.2 ∧ (∀ v ∈ x, X.1 ≤ v ∧ v < X.2) ∧ (p.logx = true → 0 < X.1) ∧ (p.negative = false → 0 ≤ X.1) := by
  have hx : x ≠ [] := (((C117_defined p x y hs).1).1 ⟨_, h⟩).1
  have hy : y ≠ [] := (((C117_defined p x y hs).1).1 ⟨_, h⟩).2.1
  obtain ⟨lo, hi, h1, hm, hM, hb⟩ := range_spec hx
  obtain ⟨lo', hi', h1', -, -, -⟩ := range_spec hy
  have hlh : lo ≤ hi := (hb lo hm).2
  have key : ∀ L, xlims p lo hi s = .ok L → X = L := by
    intro L hL
    unfold xylims at h
    rw [h1, h1'] at h
    simp only [bind, Except.bind, hL] at h
    cases h
    rfl
  suffices hh : X.1 ≤ lo ∧ hi < X.2 ∧ (p.logx = true → 0 < X.1) ∧ (p.negative = false → 0 ≤ X.1) by
    obtain ⟨a1, a2, a3, a4⟩ := hh
    exact ⟨by linarith, fun v hv => ⟨by linarith [(hb v hv).1], by linarith [(hb v hv).2]⟩, a3, a4⟩
  by_cases hp : p.logx = true
  · have h0 : 0 < lo := by
      rcases hd with hd | hd
      · exact hd lo hm
      · cases p <;> simp_all [Paper.logx, Paper.negative]
    obtain ⟨L, hL, g1, g2, g3⟩ := xlims_log hp hlh hs h0
    rw [key L hL]
    exact ⟨g2.le, g3, fun _ => g1, fun _ => g1.le⟩
  · have hp' : p.logx = false := by simpa using hp
    rcases hlh.lt_or_eq with hlt | heq
    · have := key _ (xlims_lin hp' hlt hs)
      rw [this]
      have hd' : 0 < (hi - lo) * s := mul_pos (by linarith) hs
      refine ⟨?_, by simp only; linarith, fun h => absurd h hp, ?_⟩
      · simp only
        split_ifs with h2
        · rcases hd with hd | hd
          · exact (hd lo hm).le
          · rw [hd.1] at h2; simp at h2
        · linarith
      · intro hn
        simp only [hn, and_true]
        split_ifs with h2
        · exact le_refl _
        · exact not_lt.1 h2
    · have hpos : 0 < lo := by
        rcases hd with hd | ⟨-, v, hv, w, hw, hvw⟩
        · exact hd lo hm
        · exact absurd (by linarith [(hb v hv).1, (hb v hv).2, (hb w hw).1, (hb w hw).2] : v = w) hvw
      rw [← heq] at key ⊢
      rw [key _ (xlims_lin_one hp')]
      exact ⟨hpos.le, by simp only; linarith, fun h => absurd h hp, fun _ => le_refl _⟩

/-- **C117 (y-axis).** For points with probabilities strictly between 0 and 1 the limits are in order, below 1, every point
is inside them, and the lower limit is positive as soon as two probabilities differ. -/
theorem C117_y {p : Paper} (hp : p.Ok) {x y : List ℝ} {s : ℝ} (hs : 0 < s) (hs1 : s < 1) {X Y : ℝ × ℝ}
    (h : xylims p x y s = .ok (X, Y)) (hy : ∀ v ∈ y, 0 < v ∧ v < 1) :
    Y.1 < Y.2 ∧ Y.2 < 1 ∧ (∀ v ∈ y, Y.1 ≤ v ∧ v ≤ Y.2) ∧ ((∃ v ∈ y, ∃ w ∈ y, v ≠ w) → 0 < Y.1) := by
  have hx : x ≠ [] := (((C117_defined p x y hs).1).1 ⟨_, h⟩).1
  have hy' : y ≠ [] := (((C117_defined p x y hs).1).1 ⟨_, h⟩).2.1
  obtain ⟨lo', hi', h1', -, -, -⟩ := range_spec hx
  obtain ⟨lo, hi, h1, hm, hM, hb⟩ := range_spec hy'
  have e : Y = ylims p lo hi s := by
    unfold xylims at h
    rw [h1, h1'] at h
    simp only [bind, Except.bind] at h
    cases hq : xlims p lo' hi' s with
    | error e => rw [hq] at h; cases h
    | ok L => rw [hq] at h; cases h; rfl
  obtain ⟨g1, g2, g3, g4, g5, -⟩ := ylims_spec hp (hy lo hm).1 (hb lo hm).2 (hy hi hM).2 hs hs1
  rw [e]
  refine ⟨g3, g4, fun v hv => ⟨g1.trans (hb v hv).1, (hb v hv).2.trans g2⟩, ?_⟩
  rintro ⟨v, hv, w, hw, hvw⟩
  apply g5
  refine lt_of_le_of_ne (hb lo hm).2 fun e => hvw ?_
  linarith [(hb v hv).1, (hb v hv).2, (hb w hw).1, (hb w hw).2]

/-- **C117 (finding).** A single point with a small probability gets a negative lower limit, which is not a probability: with
the spacing used by all the plots, as soon as the probability is below 1/11 (one failure among eight items or more). -/
theorem C117_single_finding {p : Paper} (hp : p.Ok) {x v : ℝ} {X Y : ℝ × ℝ} (h : xylims p [x] [v] (1 / 10) = .ok (X, Y))
    (h0 : 0 < v) (hv : v < 1 / 11) : Y.1 < 0 := by
  have e : Y = ylims p v v (1 / 10) := by
    unfold xylims at h
    simp only [range, bind, Except.bind, foldl_nil] at h
    cases hq : xlims p x x (1 / 10) with
    | error e => rw [hq] at h; cases h
    | ok L => rw [hq] at h; cases h; rfl
  have := (ylims_spec hp h0 (le_refl v) (by linarith) (s := 1 / 10) (by norm_num) (by norm_num)).2.2.2.2.2 rfl
    (by intro h; linarith)
  rw [e, this]
  linarith

/-- **C117 (finding).** A single time that is not positive on Normal or Gumbel paper gets limits from 0 to twice the time:
not in order. -/
theorem C117_reversed_finding {p : Paper} (hp : p.negative = true) {x v s : ℝ} {X Y : ℝ × ℝ}
    (h : xylims p [x] [v] s = .ok (X, Y)) (hx : x ≤ 0) : X.2 ≤ X.1 := by
  have hp' : p.logx = false := by cases p <;> simp_all [Paper.negative, Paper.logx]
  unfold xylims at h
  simp only [range, bind, Except.bind, foldl_nil, xlims_lin_one hp'] at h
  cases h
  simp only
  linarith

example : ∃ X Y, xylims .weibull [3, 1, 2] [1 / 5, 3 / 5, 2 / 5] (1 / 10) = .ok (X, Y) ∧ 0 < X.1 ∧ X.1 ≤ 1 ∧ 3 < X.2 ∧
    0 < Y.1 ∧ Y.1 ≤ 1 / 5 ∧ 3 / 5 ≤ Y.2 ∧ Y.2 < 1 := by
  obtain ⟨⟨X, Y⟩, h⟩ := (C117_defined .weibull [3, 1, 2] [1 / 5, 3 / 5, 2 / 5] (s := 1 / 10) (by norm_num)).1.2
    ⟨by simp, by simp, by norm_num⟩
  obtain ⟨-, h1, h2, -⟩ := C117_x (by norm_num) h (.inl (by norm_num))
  obtain ⟨-, h4, h5, h6⟩ := C117_y (p := .weibull) trivial (by norm_num) (by norm_num) h (by norm_num)
  exact ⟨X, Y, h, h2 rfl, (h1 1 (by simp)).1, (h1 3 (by simp)).2, h6 ⟨1 / 5, by simp, 3 / 5, by simp, by norm_num⟩,
    (h5 (1 / 5) (by simp)).1, (h5 (3 / 5) (by simp)).2, h4⟩

end Reliability.ProbPaper
