import Verif.Lemmas.ExpoCI
import Verif.Props.FunctionCI

/-! # C85: confidence bounds of the Exponential distribution -/

namespace Reliability.Props

open Reliability.Spec Reliability.Distributions Reliability.FunctionCI Reliability.Props.Distributions

theorem lam_log {d : Expo} (hL : 0 < d.Lambda) (se Z : ℝ) :
    Real.log (lamLower d se Z) = Real.log d.Lambda - Z * se / d.Lambda ∧
    Real.log (lamUpper d se Z) = Real.log d.Lambda + Z * se / d.Lambda := by
  unfold lamLower lamUpper
  rw [Real.log_mul hL.ne' (Real.exp_pos _).ne', Real.log_mul hL.ne' (Real.exp_pos _).ne', Real.log_exp, Real.log_exp]
  constructor <;> ring

theorem expoSF_pos (L g x : ℝ) : 0 < expoSF L g x := Real.exp_pos _

theorem expoSF_anti {a b g x : ℝ} (h : a ≤ b) (hx : g ≤ x) : expoSF b g x ≤ expoSF a g x :=
  Real.exp_le_exp.2 (by nlinarith)

/-- The result of `CI_x` in terms of the reported times. -/
theorem expo_rel_ok (J : Jac) {d : Expo} {se CI : ℝ} (hd : ExpoOK d se) (h0 : 0 < CI) (h1 : CI < 1) (ct : Option String)
    (fn : Func) (xs xs' : List ℝ) (hr : ReportedFor xs xs')
    (hx : ∀ x ∈ xs, d.gamma < x ∧ 1 / 10 ^ 50 < expoSF (lamUpper d se (zOf CI)) d.gamma x) :
    funcCI J (.expo d) fn ct CI none (some xs) = .ok (some
      (xs'.map fun x => .fin (lowerOf fn (expoSF (lamUpper d se (zOf CI)) d.gamma x) (expoSF (lamLower d se (zOf CI)) d.gamma x)),
       xs.map fun x => .fin (ofReliability fn ((Fitted.expo d).dist.sp.sf x)),
       xs'.map fun x => .fin (upperOf fn (expoSF (lamUpper d se (zOf CI)) d.gamma x)
        (expoSF (lamLower d se (zOf CI)) d.gamma x)))) := by
  have hle : lamLower d se (zOf CI) ≤ lamUpper d se (zOf CI) := by
    have := lam_le d se (zOf CI) hd.1 hd.2.1 (zOf_spec h0 h1).1.le
    linarith
  have hlu := fun x hx' => lower_upper fn (expoSF_pos (lamUpper d se (zOf CI)) d.gamma x)
    (expoSF_anti hle (le_of_lt (hx x (reported_mem hr x hx')).1))
  unfold funcCI extractCI
  simp only [expoRel_ok hd h0 h1 xs hr hx, subscript]
  rw [relOut_map]
  have hpt := expo_pointRel hd.1 fn xs (fun x h => (hx x h).1)
  simp only [Fitted.dist]
  rw [hpt]
  cases fn <;> simp only [Except.ok.injEq, Option.some.injEq, Prod.mk.injEq] <;>
    refine ⟨List.map_congr_left fun x hx' => ?_, trivial, List.map_congr_left fun x hx' => ?_⟩ <;>
    have e := hlu x hx' <;> dsimp only at e <;> simp [e.1, e.2]

/-- **C85 (bounds on reliability).** For every fitted Exponential distribution and confidence level there are rates
`Llo ≤ Lambda ≤ Lup` with ln Llo, ln Lup exactly `z·SE/Lambda` below and above ln Lambda (`z` the two-sided normal
quantile), such that `CDF`, `SF` and `CHF` with any list `CI_x` return the interval between the Exponential
distributions with these rates and the same gamma – at each x if there are at most two, otherwise at the list held at
its first largest value (`ReportedFor`) – and raise ValueError exactly when some x is not above gamma or has a lower
reliability bound of at most 1e-50. -/
theorem C85_reliability (d : Expo) (se CI : ℝ) (hd : ExpoOK d se) (h0 : 0 < CI) (h1 : CI < 1) :
    ∃ z, TwoSidedZ CI z ∧ ∃ Llo Lup, 0 < Llo ∧ Llo ≤ d.Lambda ∧ d.Lambda ≤ Lup ∧
      Real.log Llo = Real.log d.Lambda - z * se / d.Lambda ∧ Real.log Lup = Real.log d.Lambda + z * se / d.Lambda ∧
      ∀ J fn ct xs xs', ReportedFor xs xs' →
        ((∀ x ∈ xs, d.gamma < x ∧ 1 / 10 ^ 50 < expoSF Lup d.gamma x) →
          funcCI J (.expo d) fn ct CI none (some xs) = .ok (some
            (xs'.map fun x => .fin (lowerOf fn (expoSF Lup d.gamma x) (expoSF Llo d.gamma x)),
             xs.map fun x => .fin (ofReliability fn ((Fitted.expo d).dist.sp.sf x)),
             xs'.map fun x => .fin (upperOf fn (expoSF Lup d.gamma x) (expoSF Llo d.gamma x))))) ∧
        ((∃ x ∈ xs, ¬ (d.gamma < x ∧ 1 / 10 ^ 50 < expoSF Lup d.gamma x)) →
          funcCI J (.expo d) fn ct CI none (some xs) = valueErr) := by
  have hz := zOf_spec h0 h1
  obtain ⟨l1, l2⟩ := lam_le d se (zOf CI) hd.1 hd.2.1 hz.1.le
  obtain ⟨e1, e2⟩ := lam_log hd.1 se (zOf CI)
  refine ⟨zOf CI, hz, lamLower d se (zOf CI), lamUpper d se (zOf CI), (lam_pos d se (zOf CI) hd.1).1, l1, l2, e1, e2,
    fun J fn ct xs xs' hr => ⟨expo_rel_ok J hd h0 h1 ct fn xs xs' hr, fun hx => ?_⟩⟩
  unfold funcCI extractCI
  simp only [expoRel_err hd xs hx, subscript]

/-- The held list of C85 exists for every list and is the list itself if it is ascending. -/
theorem C85_reported (xs : List ℝ) : ∃ xs', ReportedFor xs xs' ∧ (xs.Pairwise (· ≤ ·) ∨ xs.length ≤ 2 → xs' = xs) := by
  obtain ⟨xs', h⟩ := reported_exists xs
  refine ⟨xs', h, ?_⟩
  rintro (hs | hl)
  · exact reported_sorted hs h
  · rcases h with ⟨-, rfl⟩ | ⟨h, -⟩
    · rfl
    · omega

/-- **C85 (order).** So for x-values in ascending order, or at most two, `CI_x` raises ValueError or returns at every x
lower bound ≤ value ≤ upper bound. -/
theorem C85_bracket_partial (J : Jac) (d : Expo) (se CI : ℝ) (fn : Func) (ct : Option String) (xs : List ℝ) (hd : ExpoOK d se)
    (h0 : 0 < CI) (h1 : CI < 1) (hs : xs.Pairwise (· ≤ ·) ∨ xs.length ≤ 2) :
    funcCI J (.expo d) fn ct CI none (some xs) = valueErr ∨
    ∃ lo up : ℝ → ℝ, funcCI J (.expo d) fn ct CI none (some xs) = .ok (some
        (xs.map fun x => .fin (lo x), xs.map fun x => .fin (ofReliability fn ((Fitted.expo d).dist.sp.sf x)),
         xs.map fun x => .fin (up x))) ∧
      ∀ x ∈ xs, d.gamma < x ∧ lo x ≤ ofReliability fn ((Fitted.expo d).dist.sp.sf x) ∧
        ofReliability fn ((Fitted.expo d).dist.sp.sf x) ≤ up x ∧ LegalValue fn (lo x) ∧ LegalValue fn (up x) := by
  obtain ⟨xs', hr, he⟩ := C85_reported xs
  rw [he hs] at hr
  obtain ⟨z, -, Llo, Lup, p0, p1, p2, -, -, H⟩ := C85_reliability d se CI hd h0 h1
  obtain ⟨H1, H2⟩ := H J fn ct xs xs hr
  by_cases hx : ∀ x ∈ xs, d.gamma < x ∧ 1 / 10 ^ 50 < expoSF Lup d.gamma x
  · right
    refine ⟨_, _, H1 hx, fun x hx' => ⟨(hx x hx').1, ?_⟩⟩
    have hg := (hx x hx').1
    have hsf : (Fitted.expo d).dist.sp.sf x = expoSF d.Lambda d.gamma x := Likelihood.exponential_sf hd.1 hg.le
    rw [hsf]
    have b0 : 0 < expoSF Lup d.gamma x := Real.exp_pos _
    have b1 := expoSF_anti p2 hg.le
    have b2 := expoSF_anti p1 hg.le
    have b3 : expoSF Llo d.gamma x < 1 := Real.exp_lt_one_iff.2 (by nlinarith)
    have hlu := lower_upper fn b0 (b1.trans b2)
    rw [hlu.1, hlu.2]
    have hl1 := Real.log_le_log b0 b1
    have hl2 := Real.log_le_log (b0.trans_le b1) b2
    have hu := Real.log_neg (b0.trans_le (b1.trans b2)) b3
    cases fn <;> simp only [ofReliability, LegalValue]
    · exact ⟨by linarith, by linarith, ⟨by linarith, Or.inr (by linarith)⟩, ⟨by linarith, Or.inr (by linarith)⟩⟩
    · exact ⟨b1, b2, ⟨b0, Or.inr (by linarith)⟩, ⟨by linarith, Or.inr b3⟩⟩
    · exact ⟨by linarith, by linarith, ⟨by linarith, Or.inl trivial⟩, ⟨by linarith, Or.inl trivial⟩⟩
  · left
    push Not at hx
    obtain ⟨x, hx', h⟩ := hx
    exact H2 ⟨x, hx', fun hc => absurd hc.2 (not_lt.2 (h hc.1))⟩

/-- **C85 (finding).** For three x-values in descending order the bounds returned at all of them are those at the first:
the survival function's upper bound returned for the third lies below its own value whenever the first is far enough
out, so the interval does not contain the point estimate it is returned with. -/
theorem C85_order_finding (J : Jac) (d : Expo) (se CI : ℝ) (ct : Option String) (hd : ExpoOK d se) (h0 : 0 < CI)
    (h1 : CI < 1) : ∃ Llo Lup, 0 < Llo ∧ Llo ≤ d.Lambda ∧ d.Lambda ≤ Lup ∧ ∀ x₁ x₂ x₃, d.gamma < x₃ → x₃ < x₂ → x₂ < x₁ →
      1 / 10 ^ 50 < expoSF Lup d.gamma x₁ →
      ∃ lo up p₁ p₂ p₃, funcCI J (.expo d) .SF ct CI none (some [x₁, x₂, x₃]) =
        .ok (some ([.fin lo, .fin lo, .fin lo], [.fin p₁, .fin p₂, .fin p₃], [.fin up, .fin up, .fin up])) ∧
      (d.Lambda * (x₃ - d.gamma) < Llo * (x₁ - d.gamma) → up < p₃) := by
  obtain ⟨z, -, Llo, Lup, p0, p1, p2, -, -, H⟩ := C85_reliability d se CI hd h0 h1
  refine ⟨Llo, Lup, p0, p1, p2, fun x₁ x₂ x₃ g3 g2 g1 hl => ?_⟩
  have hr : ReportedFor [x₁, x₂, x₃] [x₁, x₁, x₁] := by
    refine Or.inr ⟨by simp, 0, x₁, rfl, ?_, by simp, rfl⟩
    intro v hv
    simp only [List.mem_cons, List.not_mem_nil, or_false] at hv
    rcases hv with rfl | rfl | rfl <;> linarith
  have hx : ∀ x ∈ [x₁, x₂, x₃], d.gamma < x ∧ 1 / 10 ^ 50 < expoSF Lup d.gamma x := by
    have hLup : 0 < Lup := by linarith
    intro v hv
    simp only [List.mem_cons, List.not_mem_nil, or_false] at hv
    have : d.gamma < v ∧ v ≤ x₁ := by rcases hv with rfl | rfl | rfl <;> constructor <;> linarith
    exact ⟨this.1, hl.trans_le (Real.exp_le_exp.2 (by nlinarith))⟩
  have h := (H J .SF ct _ _ hr).1 hx
  refine ⟨_, _, _, _, _, h, fun hlt => ?_⟩
  have hsf : (Fitted.expo d).dist.sp.sf x₃ = expoSF d.Lambda d.gamma x₃ := Likelihood.exponential_sf hd.1 g3.le
  have hup := (lower_upper .SF (expoSF_pos Lup d.gamma x₁)
    (expoSF_anti (p1.trans p2) (by linarith : d.gamma ≤ x₁))).2
  dsimp only at hup
  rw [hup, ofReliability, hsf]
  exact Real.exp_lt_exp.2 (neg_lt_neg hlt)

/-! ## bounds on time -/

theorem expo_isf {L g R : ℝ} : (Distributions.exponential L g).sp.isf R = expoTimeAt L g R := by
  simp only [Distributions.exponential, locScale, exponStd, expoTimeAt]
  ring

theorem expoT_eq {L g R : ℝ} (h : 0 < R) : expoT L g R = .fin (expoTimeAt L g R) := by
  unfold expoT negLogE
  rw [if_neg (not_lt.2 h.le), if_neg h.ne']
  simp only [expoTimeAt]
  rw [add_comm]

/-- **C85 (bounds on time).** With the same rates, `CI_y` with legal values returns for each y, in the caller's order, the
times at which the two outer Exponential distributions and the distribution itself have the reliability belonging to
y: lower ≤ time ≤ upper, each being above gamma and inverse to the bound on reliability – provided `z·SE < Lambda·ln 10`;
otherwise it raises ValueError, whatever the y-values. -/
theorem C85_time_partial (d : Expo) (se CI : ℝ) (hd : ExpoOK d se) (h0 : 0 < CI) (h1 : CI < 1) :
    ∃ z, TwoSidedZ CI z ∧ ∃ Llo Lup, 0 < Llo ∧ Llo ≤ d.Lambda ∧ d.Lambda ≤ Lup ∧
      Real.log Llo = Real.log d.Lambda - z * se / d.Lambda ∧ Real.log Lup = Real.log d.Lambda + z * se / d.Lambda ∧
      (z * se < d.Lambda * Real.log 10 → ∀ J fn ct ys, ys ≠ [] → (∀ y ∈ ys, LegalValue fn y) →
        ∃ lo t up : ℝ → ℝ, funcCI J (.expo d) fn ct CI (some ys) none = .ok (some
            (ys.map fun y => .fin (lo y), ys.map fun y => .fin (t y), ys.map fun y => .fin (up y))) ∧
          ∀ y ∈ ys, d.gamma < lo y ∧ lo y ≤ t y ∧ t y ≤ up y ∧ ofReliability fn ((Fitted.expo d).dist.sp.sf (t y)) = y ∧
            ofReliability fn (expoSF Lup d.gamma (lo y)) = y ∧ ofReliability fn (expoSF Llo d.gamma (up y)) = y) ∧
      (d.Lambda * Real.log 10 ≤ z * se → ∀ J fn ct ys, funcCI J (.expo d) fn ct CI (some ys) none = valueErr) := by
  have hz := zOf_spec h0 h1
  obtain ⟨l1, l2⟩ := lam_le d se (zOf CI) hd.1 hd.2.1 hz.1.le
  obtain ⟨q1, q2⟩ := lam_pos d se (zOf CI) hd.1
  obtain ⟨e1, e2⟩ := lam_log hd.1 se (zOf CI)
  refine ⟨zOf CI, hz, lamLower d se (zOf CI), lamUpper d se (zOf CI), q1, l1, l2, e1, e2,
    fun hc J fn ct ys hne hy => ?_, fun hc J fn ct ys => ?_⟩
  · have hR : ∀ y ∈ ys, 0 < toReliability fn y ∧ toReliability fn y < 1 := by
      intro y hy'
      obtain ⟨a, b⟩ := hy y hy'
      cases fn <;> simp only [toReliability]
      · rcases b with b | b
        · cases b
        · constructor <;> linarith
      · rcases b with b | b
        · cases b
        · exact ⟨a, b⟩
      · exact ⟨Real.exp_pos _, Real.exp_lt_one_iff.2 (by linarith)⟩
    refine ⟨fun y => expoTimeAt (lamUpper d se (zOf CI)) d.gamma (toReliability fn y),
      fun y => expoTimeAt d.Lambda d.gamma (toReliability fn y),
      fun y => expoTimeAt (lamLower d se (zOf CI)) d.gamma (toReliability fn y), ?_, fun y hy' => ?_⟩
    · unfold funcCI extractCI
      simp only [expoTime_ok hd h0 h1 _ hc, subscript, Fitted.dist]
      rw [pointTime_eq fn ys hne (C34_exponential d.Lambda d.gamma hd.1) hR]
      simp only [Except.ok.injEq, Option.some.injEq, Prod.mk.injEq, List.map_map]
      refine ⟨List.map_congr_left fun y h => ?_, List.map_congr_left fun y _ => by rw [expo_isf],
        List.map_congr_left fun y h => ?_⟩ <;> simp only [Function.comp, toQ_eq, expoT_eq (hR y h).1]
    · obtain ⟨r0, r1⟩ := hR y hy'
      have hlog : 0 < -Real.log (toReliability fn y) := by have := Real.log_neg r0 r1; linarith
      have hback : ofReliability fn (toReliability fn y) = y := by cases fn <;> simp [ofReliability, toReliability]
      have hinv : ∀ L, 0 < L → expoSF L d.gamma (expoTimeAt L d.gamma (toReliability fn y)) = toReliability fn y := by
        intro L hL
        simp only [expoSF, expoTimeAt, add_sub_cancel_left]
        rw [mul_div_cancel₀ _ hL.ne', neg_neg, Real.exp_log r0]
      have hgt : d.gamma < expoTimeAt d.Lambda d.gamma (toReliability fn y) := by
        simp only [expoTimeAt]; linarith [div_pos hlog hd.1]
      have hsf := Likelihood.exponential_sf hd.1 hgt.le
      refine ⟨?_, ?_, ?_, ?_, by rw [hinv _ q2, hback], by rw [hinv _ q1, hback]⟩
      · simp only [expoTimeAt]; linarith [div_pos hlog q2]
      · simp only [expoTimeAt]; linarith [div_le_div_of_nonneg_left hlog.le hd.1 l2]
      · simp only [expoTimeAt]; linarith [div_le_div_of_nonneg_left hlog.le q1 l1]
      · simp only [Fitted.dist]
        rw [hsf, ← expoSF, hinv _ hd.1, hback]
  · unfold funcCI extractCI
    simp only [expoTime_err hd _ hc, subscript]

/-- **C85 (finding).** So for every fitted Exponential distribution with a positive standard error there is a confidence
level below 1 from which on `CI_y` always raises ValueError, although the bounds on reliability (C85) and the formula
for the bounds on time exist at every level. -/
theorem C85_time_finding (d : Expo) (se : ℝ) (hd : ExpoOK d se) (hs : 0 < se) :
    ∃ c, 0 < c ∧ c < 1 ∧ c = normStd.cdf (d.Lambda * Real.log 10 / se) - normStd.cdf (-(d.Lambda * Real.log 10 / se)) ∧
      ∀ CI, c ≤ CI → CI < 1 → ∀ J fn ct ys, funcCI J (.expo d) fn ct CI (some ys) none = valueErr := by
  set k := d.Lambda * Real.log 10 / se with hk
  have hkp : 0 < k := div_pos (mul_pos hd.1 (Real.log_pos (by norm_num))) hs
  have hm := norm_cdf_strictMono (show -k < k by linarith)
  have hm2 := norm_cdf_strictMono (show k < k + 1 by linarith)
  have hr : ∀ x, 0 ≤ normStd.cdf x ∧ normStd.cdf x ≤ 1 := normStd_density.survival.range
  refine ⟨normStd.cdf k - normStd.cdf (-k), by linarith, by linarith [(hr (k + 1)).2, (hr (-k)).1], rfl, fun CI h h1 => ?_⟩
  have h0 : 0 < CI := by linarith
  obtain ⟨z, hz, Llo, Lup, -, -, -, -, -, -, H⟩ := C85_time_partial d se CI hd h0 h1
  apply H
  have : k ≤ z := by
    by_contra hcon
    push Not at hcon
    have a := norm_cdf_strictMono hcon
    have b := norm_cdf_strictMono (neg_lt_neg hcon)
    have := hz.2
    linarith
  rw [hk, div_le_iff₀ hs] at this
  exact this

/-- A fitted Exponential distribution: one failure, so the standard error equals Lambda. -/
noncomputable def exExpo : Expo := ⟨1/10, 0, some (.fin (1/10)), some (.fin 2)⟩

theorem exExpo_ok : ExpoOK exExpo (1/10) := ⟨by norm_num [exExpo], by norm_num, rfl, _, rfl⟩

example : ReportedFor [1, 2, 3] [1, 2, 3] ∧ ReportedFor [2, 3, 1, 4, 4, 2, 1] [2, 3, 1, 4, 4, 4, 4] := by
  constructor
  · refine Or.inr ⟨by simp, 2, 3, rfl, by simp; norm_num, ?_, rfl⟩
    intro j v hj hv
    have : j = 0 ∨ j = 1 := by omega
    rcases this with rfl | rfl <;> simp at hv <;> subst hv <;> norm_num
  · refine Or.inr ⟨by simp, 3, 4, rfl, by simp; norm_num, ?_, rfl⟩
    intro j v hj hv
    have : j = 0 ∨ j = 1 ∨ j = 2 := by omega
    rcases this with rfl | rfl | rfl <;> simp at hv <;> subst hv <;> norm_num

end Reliability.Props
