import Verif.Lemmas.FunctionCI

/-! # C81–C84: confidence bounds on CDF, SF and CHF -/

namespace Reliability.Props

open Reliability.Spec Reliability.Distributions Reliability.FunctionCI Reliability.Props.Distributions

theorem toQ_eq (fn : Func) (y : ℝ) : toQ fn y = toReliability fn y := by cases fn <;> rfl

theorem lower_upper (fn : Func) {l u : ℝ} (h0 : 0 < l) (h : l ≤ u) :
    (lowerOf fn l u = match fn with | .SF => l | .CDF => 1 - u | .CHF => -Real.log u) ∧
    (upperOf fn l u = match fn with | .SF => u | .CDF => 1 - l | .CHF => -Real.log l) := by
  have hl := Real.log_le_log h0 h
  cases fn <;> simp only [lowerOf, upperOf, ofReliability]
  · exact ⟨min_eq_right (by linarith), max_eq_left (by linarith)⟩
  · exact ⟨min_eq_left h, max_eq_right h⟩
  · exact ⟨min_eq_right (by linarith), max_eq_left (by linarith)⟩

theorem rel_ok (J : Jac) (d : Two) {sa sb c CI : ℝ} (fn : Func) (xs : List ℝ) (hp : ParamsOK d.fam d.a d.b)
    (he : ErrorsOK d sa sb c) (h0 : 0 < CI) (h1 : CI < 1)
    (hx : ∀ x ∈ xs, InSupport d.fam d.gamma x ∧ 1 / 10 ^ 50 < loSF J d sa sb c (zOf CI) x) :
    funcCI J (.two d) fn (some "reliability") CI none (some xs) = .ok (some
      (xs.map fun x => .fin (lowerOf fn (loSF J d sa sb c (zOf CI) x) (upSF J d sa sb c (zOf CI) x)),
       xs.map fun x => .fin (ofReliability fn ((distOf d.fam d.a d.b d.gamma).sp.sf x)),
       xs.map fun x => .fin (upperOf fn (loSF J d sa sb c (zOf CI) x) (upSF J d sa sb c (zOf CI) x)))) := by
  obtain ⟨f, g, hr, hf, hg⟩ := twoRel_ok J d xs hp he h0 h1 hx
  have hlu := fun x hx' => lower_upper fn (bounds_order J d hp (hx x hx').1 (zOf_spec h0 h1).1.le
    (sa := sa) (sb := sb) (c := c)).1 (by
      have := bounds_order J d hp (hx x hx').1 (zOf_spec h0 h1).1.le (sa := sa) (sb := sb) (c := c)
      linarith)
  unfold funcCI extractCI
  simp only [if_pos, hr, subscript]
  rw [relOut_map]
  have hpt := pointRel_eq (g := d.gamma) fn xs hp (fun x h => (hx x h).1)
  simp only [Fitted.dist]
  rw [hpt]
  cases fn <;> simp only [Except.ok.injEq, Option.some.injEq, Prod.mk.injEq] <;>
    refine ⟨List.map_congr_left fun x hx' => ?_, trivial, List.map_congr_left fun x hx' => ?_⟩ <;>
    have e := hlu x hx' <;> dsimp only at e <;>
    first
      | rw [e.1, hf x hx'] | rw [e.1, hg x hx'] | rw [e.2, hf x hx'] | rw [e.2, hg x hx']

theorem rel_err (J : Jac) (d : Two) {sa sb c CI : ℝ} (fn : Func) (xs : List ℝ) (hp : ParamsOK d.fam d.a d.b)
    (he : ErrorsOK d sa sb c) (h0 : 0 < CI) (h1 : CI < 1)
    (hx : ∃ x ∈ xs, ¬ (InSupport d.fam d.gamma x ∧ 1 / 10 ^ 50 < loSF J d sa sb c (zOf CI) x)) :
    funcCI J (.two d) fn (some "reliability") CI none (some xs) = valueErr := by
  unfold funcCI extractCI
  simp only [if_pos, twoRel_err J d xs hp he h0 h1 hx, subscript]

/-- **C81 (bounds on reliability).** For a fitted Weibull, Gamma, Normal, Lognormal, Loglogistic or Gumbel distribution
with legal parameters and standard errors, any confidence level in (0,1) and any list of x-values, `CDF`, `SF` and
`CHF` with `CI_x` either raise ValueError or return, for every x in the caller's order, a lower bound, the distribution's
own value and an upper bound with lower ≤ value ≤ upper, the bounds being legal values of the function; whatever the
numerical derivatives of the Gamma distribution are. -/
theorem C81_reliability (J : Jac) (d : Two) (sa sb c CI : ℝ) (fn : Func) (xs : List ℝ)
    (hp : ParamsOK d.fam d.a d.b) (he : ErrorsOK d sa sb c) (h0 : 0 < CI) (h1 : CI < 1) :
    funcCI J (.two d) fn (some "reliability") CI none (some xs) = valueErr ∨
    ∃ lo up : ℝ → ℝ, funcCI J (.two d) fn (some "reliability") CI none (some xs) = .ok (some
        (xs.map fun x => .fin (lo x), xs.map fun x => .fin (ofReliability fn ((Fitted.two d).dist.sp.sf x)),
         xs.map fun x => .fin (up x))) ∧
      ∀ x ∈ xs, InSupport d.fam d.gamma x ∧ lo x ≤ ofReliability fn ((Fitted.two d).dist.sp.sf x) ∧
        ofReliability fn ((Fitted.two d).dist.sp.sf x) ≤ up x ∧ LegalValue fn (lo x) ∧ LegalValue fn (up x) := by
  by_cases hx : ∀ x ∈ xs, InSupport d.fam d.gamma x ∧ 1 / 10 ^ 50 < loSF J d sa sb c (zOf CI) x
  · right
    refine ⟨_, _, rel_ok J d fn xs hp he h0 h1 hx, fun x hx' => ⟨(hx x hx').1, ?_⟩⟩
    obtain ⟨b0, b1, b2, b3⟩ := bounds_order J d hp (hx x hx').1 (zOf_spec h0 h1).1.le (sa := sa) (sb := sb) (c := c)
    have hlu := lower_upper fn b0 (b1.trans b2)
    rw [hlu.1, hlu.2]
    simp only [Fitted.dist]
    set l := loSF J d sa sb c (zOf CI) x
    set u := upSF J d sa sb c (zOf CI) x
    set R := (distOf d.fam d.a d.b d.gamma).sp.sf x
    have hl1 := Real.log_le_log b0 b1
    have hl2 := Real.log_le_log (b0.trans_le b1) b2
    have hu := Real.log_neg (b0.trans_le (b1.trans b2)) b3
    cases fn <;> simp only [ofReliability, LegalValue]
    · exact ⟨by linarith, by linarith, ⟨by linarith, Or.inr (by linarith)⟩, ⟨by linarith, Or.inr (by linarith)⟩⟩
    · exact ⟨b1, b2, ⟨b0, Or.inr (by linarith)⟩, ⟨by linarith, Or.inr b3⟩⟩
    · exact ⟨by linarith, by linarith, ⟨by linarith, Or.inl trivial⟩, ⟨by linarith, Or.inl trivial⟩⟩
  · left
    push Not at hx
    obtain ⟨x, hx', h⟩ := hx
    exact rel_err J d fn xs hp he h0 h1 ⟨x, hx', fun hc => absurd hc.2 (not_lt.2 (h hc.1))⟩

/-- **C82 (bounds on reliability).** There are reliabilities `Rlo ≤ R ≤ Rup` at every x of the support, on the scale of the
family (ln(-ln R), normal quantile, log odds) exactly `z` delta-method standard deviations away from R, `z` being the
two-sided normal quantile of the confidence level, such that for every function and list of x-values: `CI_x` returns
the interval of the function that corresponds to [Rlo, Rup] at each x, or raises ValueError – the latter exactly when
some x is not inside the support or its `Rlo` is not above 1e-50. -/
theorem C82_reliability (J : Jac) (d : Two) (sa sb c CI : ℝ) (hp : ParamsOK d.fam d.a d.b) (he : ErrorsOK d sa sb c)
    (h0 : 0 < CI) (h1 : CI < 1) :
    ∃ z, TwoSidedZ CI z ∧ ∃ Rlo Rup : ℝ → ℝ,
      (∀ x, InSupport d.fam d.gamma x → GammaJacSF J d x →
        0 < Rlo x ∧ Rlo x ≤ (Fitted.two d).dist.sp.sf x ∧ (Fitted.two d).dist.sp.sf x ≤ Rup x ∧ Rup x < 1 ∧
        ∃ V, DeltaVariance (fun a b => relScale d.fam ((distOf d.fam a b d.gamma).sp.sf x)) d.a d.b sa sb c V ∧
          |relScale d.fam (Rlo x) - relScale d.fam ((Fitted.two d).dist.sp.sf x)| = z * Real.sqrt V ∧
          |relScale d.fam (Rup x) - relScale d.fam ((Fitted.two d).dist.sp.sf x)| = z * Real.sqrt V) ∧
      ∀ fn xs,
        ((∀ x ∈ xs, InSupport d.fam d.gamma x ∧ 1 / 10 ^ 50 < Rlo x) →
          funcCI J (.two d) fn (some "reliability") CI none (some xs) = .ok (some
            (xs.map fun x => .fin (lowerOf fn (Rlo x) (Rup x)),
             xs.map fun x => .fin (ofReliability fn ((Fitted.two d).dist.sp.sf x)),
             xs.map fun x => .fin (upperOf fn (Rlo x) (Rup x))))) ∧
        ((∃ x ∈ xs, ¬ (InSupport d.fam d.gamma x ∧ 1 / 10 ^ 50 < Rlo x)) →
          funcCI J (.two d) fn (some "reliability") CI none (some xs) = valueErr) := by
  have hz := zOf_spec h0 h1
  refine ⟨zOf CI, hz, loSF J d sa sb c (zOf CI), upSF J d sa sb c (zOf CI), fun x hs hJ => ?_, fun fn xs =>
    ⟨rel_ok J d fn xs hp he h0 h1, rel_err J d fn xs hp he h0 h1⟩⟩
  obtain ⟨b0, b1, b2, b3⟩ := bounds_order J d hp hs hz.1.le (sa := sa) (sb := sb) (c := c)
  refine ⟨b0, b1, b2, b3, ?_⟩
  obtain ⟨V, hV, hk⟩ := rel_delta J sa sb c (zOf CI) hp hs (g := d.gamma) (x := x) (fun h => hJ h)
  obtain ⟨e1, e2⟩ := lo_up_scale J d hp hs hz.1.le (sa := sa) (sb := sb) (c := c)
  exact ⟨V, hV, by rw [← hk]; exact e1, by rw [← hk]; exact e2⟩

/-! ## bounds on time -/

theorem dist_quantile {f : CFam} {a b : ℝ} (g : ℝ) (hp : ParamsOK f a b) :
    ∃ D, QuantileLaw D (distOf f a b g).sp.cdf (distOf f a b g).sp.sf (distOf f a b g).sp.ppf
      (distOf f a b g).sp.isf := by
  obtain ⟨hb, ha⟩ := hp
  cases f
  · exact ⟨_, C34_weibull a b g (ha (Or.inl rfl)) hb⟩
  · exact ⟨_, C34_gamma _ b g (Real.exp_pos a) hb⟩
  · exact ⟨_, C34_normal a b hb⟩
  · exact ⟨_, C34_lognormal a b g hb⟩
  · exact ⟨_, C34_loglogistic a b g (ha (Or.inr rfl)) hb⟩
  · exact ⟨_, C34_gumbel a b hb⟩

theorem pointTime_eq {d : Dist} (fn : Func) (ys : List ℝ) (hne : ys ≠ []) {D : Set ℝ}
    (hd : QuantileLaw D d.sp.cdf d.sp.sf d.sp.ppf d.sp.isf) (hy : ∀ y ∈ ys, 0 < toReliability fn y ∧ toReliability fn y < 1) :
    pointTime d fn ys = .ok (ys.map fun y => .fin (d.sp.isf (toReliability fn y))) := by
  have hok : ∀ qs : List ℝ, qs ≠ [] → (∀ q ∈ qs, 0 < q ∧ q < 1) → checkQ qs = .ok () := by
    intro qs h1 h2
    rcases checkQ_cases qs with h | h
    · exact h.1
    · exact absurd ⟨h1, fun q hq => ⟨(h2 q hq).1.le, (h2 q hq).2.le⟩⟩ h.2
  cases fn
  · have hy' : ∀ y ∈ ys, 0 < y ∧ y < 1 := fun y h => by
      have := hy y h; simp only [toReliability] at this; constructor <;> linarith
    simp only [pointTime, quantile, hok ys hne hy', Except.ok.injEq]
    refine List.map_congr_left fun y h => ?_
    obtain ⟨a, b⟩ := hy' y h
    have e := (hd.isf (1 - y) (by linarith) (by linarith)).1
    simp only [ppfE, if_neg a.ne', if_neg b.ne, toReliability, e, sub_sub_cancel]
  · simp only [pointTime, inverseSF, hok ys hne hy, Except.ok.injEq]
    refine List.map_congr_left fun y h => ?_
    obtain ⟨a, b⟩ := hy y h
    simp only [toReliability] at a b
    simp only [isfE, if_neg a.ne', if_neg b.ne, toReliability]
  · have hy' : ∀ q ∈ ys.map (fun c => Real.exp (-c)), 0 < q ∧ q < 1 := by
      intro q hq
      obtain ⟨y, h, rfl⟩ := List.mem_map.1 hq
      exact hy y h
    simp only [pointTime, inverseSF, hok _ (by simpa using hne) hy', Except.ok.injEq, List.map_map]
    refine List.map_congr_left fun y h => ?_
    obtain ⟨a, b⟩ := hy y h
    simp only [toReliability] at a b
    simp only [isfE, if_neg a.ne', if_neg b.ne, toReliability, Function.comp]

theorem time_ok (J : Jac) (d : Two) {sa sb c CI : ℝ} (fn : Func) (ys : List ℝ) (hne : ys ≠ [])
    (hp : ParamsOK d.fam d.a d.b) (he : ErrorsOK d sa sb c)
    (hy : ∀ y ∈ ys, 1 / 10 ^ 50 < toReliability fn y ∧ toReliability fn y < 1) :
    funcCI J (.two d) fn (some "time") CI (some ys) none = .ok (some
      (ys.map fun y => .fin (loT J d sa sb c (zOf CI) (toReliability fn y)),
       ys.map fun y => .fin ((distOf d.fam d.a d.b d.gamma).sp.isf (toReliability fn y)),
       ys.map fun y => .fin (upT J d sa sb c (zOf CI) (toReliability fn y)))) := by
  have hq : ∀ R ∈ ys.map (toQ fn), 1 / 10 ^ 50 < R ∧ R < 1 := by
    intro R hR
    obtain ⟨y, h, rfl⟩ := List.mem_map.1 hR
    rw [toQ_eq]; exact hy y h
  obtain ⟨D, hD⟩ := dist_quantile d.gamma hp
  unfold funcCI extractCI
  simp only [if_pos, twoTime_ok J d _ he hq, subscript, Fitted.dist, List.map_map]
  rw [pointTime_eq fn ys hne hD fun y h => ⟨lt_trans (by positivity) (hy y h).1, (hy y h).2⟩]
  simp only [Except.ok.injEq, Option.some.injEq, Prod.mk.injEq]
  refine ⟨List.map_congr_left fun y h => ?_, trivial, List.map_congr_left fun y h => ?_⟩ <;>
    simp only [Function.comp, toQ_eq]

theorem time_err (J : Jac) (d : Two) {sa sb c CI : ℝ} (fn : Func) (ys : List ℝ) (he : ErrorsOK d sa sb c)
    (hy : ∃ y ∈ ys, ¬ (1 / 10 ^ 50 < toReliability fn y ∧ toReliability fn y < 1)) :
    funcCI J (.two d) fn (some "time") CI (some ys) none = valueErr := by
  have hq : ∃ R ∈ ys.map (toQ fn), ¬ (1 / 10 ^ 50 < R ∧ R < 1) := by
    obtain ⟨y, h, h'⟩ := hy
    exact ⟨_, List.mem_map.2 ⟨y, h, rfl⟩, by rw [toQ_eq]; exact h'⟩
  unfold funcCI extractCI
  simp only [if_pos, twoTime_err J d _ he hq, subscript]

/-- **C81 (bounds on time).** With `CI_y` the same functions return, for every y in the caller's order, a lower bound, the
time at which the distribution's CDF, SF or CHF has the value y, and an upper bound, with lower ≤ time ≤ upper and all
inside the support. -/
theorem C81_time (J : Jac) (d : Two) (sa sb c CI : ℝ) (fn : Func) (ys : List ℝ) (hne : ys ≠ [])
    (hp : ParamsOK d.fam d.a d.b) (he : ErrorsOK d sa sb c) (h0 : 0 < CI) (h1 : CI < 1)
    (hy : ∀ y ∈ ys, 1 / 10 ^ 50 < toReliability fn y ∧ toReliability fn y < 1) :
    ∃ lo t up : ℝ → ℝ, funcCI J (.two d) fn (some "time") CI (some ys) none = .ok (some
        (ys.map fun y => .fin (lo y), ys.map fun y => .fin (t y), ys.map fun y => .fin (up y))) ∧
      ∀ y ∈ ys, ofReliability fn ((Fitted.two d).dist.sp.sf (t y)) = y ∧ lo y ≤ t y ∧ t y ≤ up y ∧
        InSupport d.fam d.gamma (lo y) ∧ InSupport d.fam d.gamma (up y) := by
  refine ⟨_, _, _, time_ok J d fn ys hne hp he hy, fun y h => ?_⟩
  have hR0 : 0 < toReliability fn y := lt_trans (by positivity) (hy y h).1
  have hR1 := (hy y h).2
  obtain ⟨o1, o2, o3, o4⟩ := time_order J d hp hR0 hR1 (zOf_spec h0 h1).1.le (sa := sa) (sb := sb) (c := c)
  obtain ⟨D, hD⟩ := dist_quantile d.gamma hp
  refine ⟨?_, o1, o2, o3, o4⟩
  have := (hD.isf _ hR0 hR1).2
  simp only [Fitted.dist, this]
  cases fn <;> simp [ofReliability, toReliability]

/-- **C82 (bounds on time).** There are times `Tlo ≤ T ≤ Tup` for every reliability R in (0,1) – T being the time at which
the survival function is R – exactly `z` delta-method standard deviations below and above T on the scale of the
family (time, or its logarithm above gamma), such that `CI_y` returns these at the reliability belonging to each y, or
raises ValueError – the latter exactly when the list is empty or one of these reliabilities is not in (1e-50, 1). -/
theorem C82_time (J : Jac) (d : Two) (sa sb c CI : ℝ) (hp : ParamsOK d.fam d.a d.b) (he : ErrorsOK d sa sb c)
    (h0 : 0 < CI) (h1 : CI < 1) :
    ∃ z, TwoSidedZ CI z ∧ ∃ Tlo T Tup : ℝ → ℝ,
      (∀ R, 0 < R → R < 1 → (Fitted.two d).dist.sp.sf (T R) = R ∧ (GammaJacTime J d R →
        ∃ V, DeltaVariance (fun a b => timeScale d.fam d.gamma ((distOf d.fam a b d.gamma).sp.isf R)) d.a d.b sa sb c V ∧
          timeScale d.fam d.gamma (Tlo R) = timeScale d.fam d.gamma (T R) - z * Real.sqrt V ∧
          timeScale d.fam d.gamma (Tup R) = timeScale d.fam d.gamma (T R) + z * Real.sqrt V)) ∧
      ∀ fn ys,
        (ys ≠ [] ∧ (∀ y ∈ ys, 1 / 10 ^ 50 < toReliability fn y ∧ toReliability fn y < 1) →
          funcCI J (.two d) fn (some "time") CI (some ys) none = .ok (some
            (ys.map fun y => .fin (Tlo (toReliability fn y)), ys.map fun y => .fin (T (toReliability fn y)),
             ys.map fun y => .fin (Tup (toReliability fn y))))) ∧
        (¬ (ys ≠ [] ∧ ∀ y ∈ ys, 1 / 10 ^ 50 < toReliability fn y ∧ toReliability fn y < 1) →
          funcCI J (.two d) fn (some "time") CI (some ys) none = valueErr) := by
  have hz := zOf_spec h0 h1
  obtain ⟨D, hD⟩ := dist_quantile d.gamma hp
  refine ⟨zOf CI, hz, loT J d sa sb c (zOf CI), (distOf d.fam d.a d.b d.gamma).sp.isf, upT J d sa sb c (zOf CI),
    fun R hR0 hR1 => ⟨(hD.isf R hR0 hR1).2, fun hJ => ?_⟩, fun fn ys => ⟨fun h => time_ok J d fn ys h.1 hp he h.2, fun h => ?_⟩⟩
  · obtain ⟨V, hV, hk⟩ := time_delta J sa sb c (zOf CI) hp hR0 hR1 (g := d.gamma) (fun h => hJ h)
    obtain ⟨e1, e2⟩ := loT_scale J d hp hR0 hR1 (sa := sa) (sb := sb) (c := c) (Z := zOf CI)
    exact ⟨V, hV, by rw [← hk]; exact e1, by rw [← hk]; exact e2⟩
  · by_cases hne : ys = []
    · subst hne
      unfold funcCI extractCI
      simp only [if_pos, List.map_nil]
      rw [twoTime_ok J d [] he (by simp)]
      cases fn <;> simp [subscript, pointTime, quantile, inverseSF, checkQ]
    · apply time_err J d fn ys he
      by_contra hcon
      push Not at hcon
      exact h ⟨hne, hcon⟩

/-! ## C83: monotone in the confidence level -/

theorem relHalf_mono (J : Jac) {f : CFam} {a b g x sa sb c Z Z' : ℝ} (hp : ParamsOK f a b) (hs : InSupport f g x)
    (h : Z ≤ Z') : relHalf J f a b sa sb c Z (sh f g x) ≤ relHalf J f a b sa sb c Z' (sh f g x) := by
  have hpos : (0:ℝ) < (if f = .gamma then u f (sh f g x) a b * (1 - u f (sh f g x) a b) else 1) := by
    split
    · next hf =>
      subst hf
      have := sf_range hp hs
      rw [sf_gamma] at this
      exact mul_pos this.1 (by linarith [this.2])
    · norm_num
  unfold relHalf
  exact div_le_div_of_nonneg_right (mul_le_mul_of_nonneg_right h (Real.sqrt_nonneg _)) hpos.le

theorem lo_up_mono (J : Jac) (d : Two) {sa sb c Z Z' x : ℝ} (hp : ParamsOK d.fam d.a d.b)
    (hs : InSupport d.fam d.gamma x) (h : Z ≤ Z') :
    loSF J d sa sb c Z' x ≤ loSF J d sa sb c Z x ∧ upSF J d sa sb c Z x ≤ upSF J d sa sb c Z' x := by
  have hk := relHalf_mono J hp hs h (sa := sa) (sb := sb) (c := c)
  unfold loSF upSF
  simp only
  cases hsf : smallFirst d.fam <;> simp only [Bool.false_eq_true, if_false, if_true]
  · have hm := inv_mono _ hsf
    exact ⟨hm (by linarith), hm (by linarith)⟩
  · have hm := inv_anti _ hsf
    exact ⟨hm (by linarith), hm (by linarith)⟩

/-- **C83 (bounds on reliability).** A higher confidence level gives wider intervals around the same values: whenever the
bounds can be returned at level `CI₂`, they can at every lower level `CI₁`, with the same point estimates and every
interval inside the one for `CI₂`. -/
theorem C83_reliability (J : Jac) (d : Two) (sa sb c CI₁ CI₂ : ℝ) (fn : Func) (xs : List ℝ)
    (hp : ParamsOK d.fam d.a d.b) (he : ErrorsOK d sa sb c) (h0 : 0 < CI₁) (h : CI₁ ≤ CI₂) (h1 : CI₂ < 1)
    (hok : funcCI J (.two d) fn (some "reliability") CI₂ none (some xs) ≠ valueErr) :
    ∃ lo₁ up₁ lo₂ up₂ p : ℝ → ℝ,
      funcCI J (.two d) fn (some "reliability") CI₁ none (some xs) = .ok (some
        (xs.map fun x => .fin (lo₁ x), xs.map fun x => .fin (p x), xs.map fun x => .fin (up₁ x))) ∧
      funcCI J (.two d) fn (some "reliability") CI₂ none (some xs) = .ok (some
        (xs.map fun x => .fin (lo₂ x), xs.map fun x => .fin (p x), xs.map fun x => .fin (up₂ x))) ∧
      ∀ x ∈ xs, lo₂ x ≤ lo₁ x ∧ up₁ x ≤ up₂ x := by
  have g0 : 0 < CI₂ := h0.trans_le h
  have g1 : CI₁ < 1 := h.trans_lt h1
  have hz := zOf_mono h0 h h1
  have hx : ∀ x ∈ xs, InSupport d.fam d.gamma x ∧ 1 / 10 ^ 50 < loSF J d sa sb c (zOf CI₂) x := by
    by_contra hcon
    push Not at hcon
    obtain ⟨x, hx', h'⟩ := hcon
    exact hok (rel_err J d fn xs hp he g0 h1 ⟨x, hx', fun hc => absurd hc.2 (not_lt.2 (h' hc.1))⟩)
  have hx1 : ∀ x ∈ xs, InSupport d.fam d.gamma x ∧ 1 / 10 ^ 50 < loSF J d sa sb c (zOf CI₁) x := fun x hx' =>
    ⟨(hx x hx').1, (hx x hx').2.trans_le (lo_up_mono J d hp (hx x hx').1 hz).1⟩
  refine ⟨_, _, _, _, _, rel_ok J d fn xs hp he h0 g1 hx1, rel_ok J d fn xs hp he g0 h1 hx, fun x hx' => ?_⟩
  have hs := (hx x hx').1
  obtain ⟨m1, m2⟩ := lo_up_mono J d hp hs hz (sa := sa) (sb := sb) (c := c)
  obtain ⟨b0, b1, b2, b3⟩ := bounds_order J d hp hs (zOf_spec h0 g1).1.le (sa := sa) (sb := sb) (c := c)
  obtain ⟨c0, c1, c2, c3⟩ := bounds_order J d hp hs (zOf_spec g0 h1).1.le (sa := sa) (sb := sb) (c := c)
  rw [(lower_upper fn b0 (b1.trans b2)).1, (lower_upper fn b0 (b1.trans b2)).2,
    (lower_upper fn c0 (c1.trans c2)).1, (lower_upper fn c0 (c1.trans c2)).2]
  have l1 := Real.log_le_log c0 m1
  have l2 := Real.log_le_log (b0.trans_le (b1.trans b2)) m2
  cases fn <;> simp only
  · constructor <;> linarith
  · exact ⟨m1, m2⟩
  · constructor <;> linarith

/-- **C83 (bounds on time).** -/
theorem C83_time (J : Jac) (d : Two) (sa sb c CI₁ CI₂ : ℝ) (fn : Func) (ys : List ℝ) (hne : ys ≠ [])
    (hp : ParamsOK d.fam d.a d.b) (he : ErrorsOK d sa sb c) (h0 : 0 < CI₁) (h : CI₁ ≤ CI₂) (h1 : CI₂ < 1)
    (hy : ∀ y ∈ ys, 1 / 10 ^ 50 < toReliability fn y ∧ toReliability fn y < 1) :
    ∃ lo₁ up₁ lo₂ up₂ p : ℝ → ℝ,
      funcCI J (.two d) fn (some "time") CI₁ (some ys) none = .ok (some
        (ys.map fun y => .fin (lo₁ y), ys.map fun y => .fin (p y), ys.map fun y => .fin (up₁ y))) ∧
      funcCI J (.two d) fn (some "time") CI₂ (some ys) none = .ok (some
        (ys.map fun y => .fin (lo₂ y), ys.map fun y => .fin (p y), ys.map fun y => .fin (up₂ y))) ∧
      ∀ y ∈ ys, lo₂ y ≤ lo₁ y ∧ up₁ y ≤ up₂ y := by
  have hz := zOf_mono h0 h h1
  refine ⟨_, _, _, _, _, time_ok J d fn ys hne hp he hy, time_ok J d fn ys hne hp he hy, fun y _ => ?_⟩
  have hk : timeHalf J d.fam d.a d.b sa sb c (zOf CI₁) (toReliability fn y) ≤
      timeHalf J d.fam d.a d.b sa sb c (zOf CI₂) (toReliability fn y) :=
    mul_le_mul_of_nonneg_right hz (Real.sqrt_nonneg _)
  exact ⟨tinv_mono _ _ (by linarith), tinv_mono _ _ (by linarith)⟩

/-! ## C84: the three functions agree -/

/-- **C84.** The bounds of `CDF`, `SF` and `CHF` at the same x-values agree: when `SF` returns bounds, `CDF` returns one minus
the exchanged bounds and `CHF` minus the logarithm of the exchanged bounds. -/
theorem C84_reliability (J : Jac) (d : Two) (sa sb c CI : ℝ) (xs : List ℝ)
    (hp : ParamsOK d.fam d.a d.b) (he : ErrorsOK d sa sb c) (h0 : 0 < CI) (h1 : CI < 1)
    (hok : funcCI J (.two d) .SF (some "reliability") CI none (some xs) ≠ valueErr) :
    ∃ lo p up : ℝ → ℝ,
      funcCI J (.two d) .SF (some "reliability") CI none (some xs) = .ok (some
        (xs.map fun x => .fin (lo x), xs.map fun x => .fin (p x), xs.map fun x => .fin (up x))) ∧
      funcCI J (.two d) .CDF (some "reliability") CI none (some xs) = .ok (some
        (xs.map fun x => .fin (1 - up x), xs.map fun x => .fin (1 - p x), xs.map fun x => .fin (1 - lo x))) ∧
      funcCI J (.two d) .CHF (some "reliability") CI none (some xs) = .ok (some
        (xs.map fun x => .fin (-Real.log (up x)), xs.map fun x => .fin (-Real.log (p x)),
         xs.map fun x => .fin (-Real.log (lo x)))) := by
  have hx : ∀ x ∈ xs, InSupport d.fam d.gamma x ∧ 1 / 10 ^ 50 < loSF J d sa sb c (zOf CI) x := by
    by_contra hcon
    push Not at hcon
    obtain ⟨x, hx', h'⟩ := hcon
    exact hok (rel_err J d _ xs hp he h0 h1 ⟨x, hx', fun hc => absurd hc.2 (not_lt.2 (h' hc.1))⟩)
  have hb := fun x hx' => bounds_order J d hp (hx x hx').1 (zOf_spec h0 h1).1.le (sa := sa) (sb := sb) (c := c)
  refine ⟨loSF J d sa sb c (zOf CI), (distOf d.fam d.a d.b d.gamma).sp.sf, upSF J d sa sb c (zOf CI), ?_, ?_, ?_⟩ <;>
    rw [rel_ok J d _ xs hp he h0 h1 hx] <;> simp only [Except.ok.injEq, Option.some.injEq, Prod.mk.injEq] <;>
    refine ⟨List.map_congr_left fun x hx' => ?_, rfl, List.map_congr_left fun x hx' => ?_⟩ <;>
    simp only [lower_upper _ (hb x hx').1 ((hb x hx').2.1.trans (hb x hx').2.2.1)]

/-- **C84 (time).** The bounds on time of `CDF` at y, `SF` at 1 - y and `CHF` at -ln(1 - y) are the same. -/
theorem C84_time (J : Jac) (d : Two) (sa sb c CI : ℝ) (ys : List ℝ) (hne : ys ≠ [])
    (hp : ParamsOK d.fam d.a d.b) (he : ErrorsOK d sa sb c) (hy : ∀ y ∈ ys, 0 < y ∧ y < 1 - 1 / 10 ^ 50) :
    funcCI J (.two d) .SF (some "time") CI (some (ys.map fun y => 1 - y)) none =
      funcCI J (.two d) .CDF (some "time") CI (some ys) none ∧
    funcCI J (.two d) .CHF (some "time") CI (some (ys.map fun y => -Real.log (1 - y))) none =
      funcCI J (.two d) .CDF (some "time") CI (some ys) none := by
  have hne' : ∀ f : ℝ → ℝ, ys.map f ≠ [] := fun f => by simpa using hne
  have hC : ∀ y ∈ ys, 1 / 10 ^ 50 < toReliability .CDF y ∧ toReliability .CDF y < 1 := fun y h => by
    have := hy y h
    simp only [toReliability]
    constructor <;> linarith
  have hS : ∀ y ∈ ys.map fun y => 1 - y, 1 / 10 ^ 50 < toReliability .SF y ∧ toReliability .SF y < 1 := by
    intro z hz
    obtain ⟨y, h, rfl⟩ := List.mem_map.1 hz
    exact hC y h
  have hlog : ∀ y ∈ ys, toReliability .CHF (-Real.log (1 - y)) = 1 - y := by
    intro y h
    have h' : 0 < 1 - y := by have := (hC y h).1; simp only [toReliability] at this; linarith [show (0:ℝ) < 1 / 10 ^ 50 by positivity]
    simp only [toReliability, neg_neg, Real.exp_log h']
  have hH : ∀ y ∈ ys.map fun y => -Real.log (1 - y), 1 / 10 ^ 50 < toReliability .CHF y ∧ toReliability .CHF y < 1 := by
    intro z hz
    obtain ⟨y, h, rfl⟩ := List.mem_map.1 hz
    rw [hlog y h]
    exact hC y h
  rw [time_ok J d .CDF ys hne hp he hC, time_ok J d .SF _ (hne' _) hp he hS, time_ok J d .CHF _ (hne' _) hp he hH]
  simp only [List.map_map]
  constructor
  · rfl
  · simp only [Except.ok.injEq, Option.some.injEq, Prod.mk.injEq]
    refine ⟨List.map_congr_left fun y h => ?_, List.map_congr_left fun y h => ?_, List.map_congr_left fun y h => ?_⟩ <;>
      simp only [Function.comp, hlog y h] <;> rfl

/-! ### a concrete case -/

/-- A fitted Weibull with alpha 10, beta 2, standard errors 1 and 1/2 and covariance 1/4. -/
noncomputable def exWeibull : Two := ⟨.weibull, 10, 2, 0, some (.fin 1), some (.fin (1/2)), some (.fin (1/4)), some (.fin 2)⟩

theorem exWeibull_ok : ParamsOK exWeibull.fam exWeibull.a exWeibull.b ∧ ErrorsOK exWeibull 1 (1/2) (1/4) := by
  refine ⟨⟨by norm_num [exWeibull], fun _ => by norm_num [exWeibull]⟩, rfl, rfl, rfl, ⟨2, rfl⟩, by norm_num⟩

example (J : Jac) : ∃ lo t up : ℝ → ℝ, funcCI J (.two exWeibull) .CDF (some "time") (95/100) (some [1/2, 1/10]) none =
    .ok (some ([.fin (lo (1/2)), .fin (lo (1/10))], [.fin (t (1/2)), .fin (t (1/10))],
      [.fin (up (1/2)), .fin (up (1/10))])) ∧ lo (1/10) ≤ t (1/10) := by
  obtain ⟨lo, t, up, h, h2⟩ := C81_time J exWeibull 1 (1/2) (1/4) (95/100) .CDF [1/2, 1/10] (by simp) exWeibull_ok.1
    exWeibull_ok.2 (by norm_num) (by norm_num) (by
      intro y hy
      simp only [List.mem_cons, List.not_mem_nil, or_false] at hy
      rcases hy with rfl | rfl <;> norm_num [toReliability])
  exact ⟨lo, t, up, h, (h2 (1/10) (by simp)).2.1⟩

end Reliability.Props
