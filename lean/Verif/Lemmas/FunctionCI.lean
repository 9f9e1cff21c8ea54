import Mathlib.Analysis.Calculus.Deriv.Mul
import Mathlib.Analysis.Calculus.Deriv.Inv
import Mathlib.Analysis.SpecialFunctions.Log.Deriv
import Verif.Spec.FunctionCI
import Verif.Props.StressStrength
import Verif.Props.Distributions
import Verif.Props.Arrays

namespace Reliability.FunctionCI

open Reliability.Spec Reliability.Distributions Reliability.Utils Reliability.Props Reliability.Props.Distributions

/-! ### back-transform -/

/-- the back-transform of the code -/
noncomputable def inv (f : CFam) (y : ℝ) : ℝ :=
  match f with
  | .weibull => Real.exp (-Real.exp y)
  | .gumbel => Real.exp (-Real.exp y)
  | .normal => normStd.cdf y
  | .lognormal => normStd.cdf y
  | .loglogistic => 1 / (Real.exp y + 1)
  | .gamma => 1 / (Real.exp y + 1)

theorem ee_range (y : ℝ) : 0 < Real.exp (-Real.exp y) ∧ Real.exp (-Real.exp y) < 1 :=
  ⟨Real.exp_pos _, by rw [Real.exp_lt_one_iff]; linarith [Real.exp_pos y]⟩

theorem lo_range (y : ℝ) : 0 < 1 / (Real.exp y + 1) ∧ 1 / (Real.exp y + 1) < 1 := by
  have := Real.exp_pos y
  exact ⟨by positivity, by rw [div_lt_one (by positivity)]; linarith⟩

theorem inv_range (f : CFam) (y : ℝ) : 0 < inv f y ∧ inv f y < 1 := by
  cases f
  · exact ee_range y
  · exact lo_range y
  · exact normStd_density.range y (Set.mem_univ _)
  · exact normStd_density.range y (Set.mem_univ _)
  · exact lo_range y
  · exact ee_range y

theorem lo_scale (y : ℝ) : Real.log ((1 - 1 / (Real.exp y + 1)) / (1 / (Real.exp y + 1))) = y := by
  have := Real.exp_pos y
  rw [show (1 - 1 / (Real.exp y + 1)) / (1 / (Real.exp y + 1)) = Real.exp y by field_simp; ring, Real.log_exp]

theorem ee_scale (y : ℝ) : Real.log (-Real.log (Real.exp (-Real.exp y))) = y := by
  rw [Real.log_exp, neg_neg, Real.log_exp]

theorem scale_inv (f : CFam) (y : ℝ) : relScale f (inv f y) = y := by
  cases f
  · exact ee_scale y
  · exact lo_scale y
  · exact normStd_density.ppf_cdf y (Set.mem_univ _)
  · exact normStd_density.ppf_cdf y (Set.mem_univ _)
  · exact lo_scale y
  · exact ee_scale y

theorem ee_inv {R : ℝ} (h0 : 0 < R) (h1 : R < 1) : Real.exp (-Real.exp (Real.log (-Real.log R))) = R := by
  rw [Real.exp_log (by linarith [Real.log_neg h0 h1]), neg_neg, Real.exp_log h0]

theorem lo_inv {R : ℝ} (h0 : 0 < R) (h1 : R < 1) : 1 / (Real.exp (Real.log ((1 - R) / R)) + 1) = R := by
  rw [Real.exp_log (div_pos (by linarith) h0)]; field_simp; ring

theorem inv_scale (f : CFam) {R : ℝ} (h0 : 0 < R) (h1 : R < 1) : inv f (relScale f R) = R := by
  cases f
  · exact ee_inv h0 h1
  · exact lo_inv h0 h1
  · exact normStd_density.cdf_ppf h0 h1
  · exact normStd_density.cdf_ppf h0 h1
  · exact lo_inv h0 h1
  · exact ee_inv h0 h1

theorem ee_anti : Antitone fun y : ℝ => Real.exp (-Real.exp y) := fun x y h =>
  Real.exp_le_exp.2 (neg_le_neg (Real.exp_le_exp.2 h))

theorem lo_anti : Antitone fun y : ℝ => 1 / (Real.exp y + 1) := fun x y h =>
  one_div_le_one_div_of_le (by have := Real.exp_pos x; positivity) (by linarith [Real.exp_le_exp.2 h])

theorem inv_anti (f : CFam) (h : smallFirst f = true) : Antitone (inv f) := by
  cases f
  · exact ee_anti
  · exact lo_anti
  · simp [smallFirst] at h
  · simp [smallFirst] at h
  · exact lo_anti
  · exact ee_anti

theorem inv_mono (f : CFam) (h : smallFirst f = false) : Monotone (inv f) := by
  cases f
  · simp [smallFirst] at h
  · simp [smallFirst] at h
  · exact normStd_density.mono
  · exact normStd_density.mono
  · simp [smallFirst] at h
  · simp [smallFirst] at h

/-! ### the survival function on the scale -/

theorem support_pos {f : CFam} {g x : ℝ} (h : InSupport f g x) (hp : positive f = true) : 0 < x - g := by
  cases f <;> simp_all [InSupport, positive]

/-- the shifted time -/
noncomputable def sh (f : CFam) (g x : ℝ) : ℝ := if positive f = true then x - g else x

theorem sf_range {f : CFam} {a b g x : ℝ} (hp : ParamsOK f a b) (hs : InSupport f g x) :
    0 < (distOf f a b g).sp.sf x ∧ (distOf f a b g).sp.sf x < 1 := by
  obtain ⟨hb, ha⟩ := hp
  have key : ∀ {D : Set ℝ} {F S Q R : ℝ → ℝ} (_ : SurvivalLaw F S) (_ : QuantileLaw D F S Q R), x ∈ D →
      0 < S x ∧ S x < 1 := by
    intro D F S Q R h1 h2 hx
    have := h2.range x hx
    have := h1.compl x
    constructor <;> linarith
  cases f
  · exact key (C33_weibull a b g (ha (Or.inl rfl)) hb).1 (C34_weibull a b g (ha (Or.inl rfl)) hb) hs
  · exact key (C33_gamma _ b g (Real.exp_pos a) hb).1 (C34_gamma _ b g (Real.exp_pos a) hb) hs
  · exact key (C33_normal a b hb) (C34_normal a b hb) (Set.mem_univ _)
  · exact key (C33_lognormal a b g hb).1 (C34_lognormal a b g hb) hs
  · exact key (C33_loglogistic a b g (ha (Or.inr rfl)) hb).1 (C34_loglogistic a b g (ha (Or.inr rfl)) hb) hs
  · exact key (C33_gumbel a b hb) (C34_gumbel a b hb) (Set.mem_univ _)

theorem sf_gamma (a b g x : ℝ) : (distOf .gamma a b g).sp.sf x = u .gamma (sh .gamma g x) a b := rfl

theorem norm_sf_eq (z : ℝ) : normStd.sf z = normStd.cdf (-z) := by
  have := normStd_density.compl z
  rw [norm_cdf_neg]
  have h : normStd.cdf z + normStd.sf z = 1 := this
  linarith

theorem sf_scale {f : CFam} {a b g x : ℝ} (hf : f ≠ .gamma) (hp : ParamsOK f a b) (hs : InSupport f g x) :
    relScale f ((distOf f a b g).sp.sf x) = u f (sh f g x) a b := by
  obtain ⟨hb, ha⟩ := hp
  cases f
  · have ha := ha (Or.inl rfl)
    have ht : 0 < x - g := support_pos hs rfl
    change Real.log (-Real.log (if (x - g) / a ≤ 0 then 1 else Real.exp (-(((x - g) / a) ^ b)))) =
      b * (Real.log (x - g) - Real.log a)
    rw [if_neg (not_le.2 (by positivity)), Real.log_exp, neg_neg, Real.log_rpow (by positivity),
      Real.log_div ht.ne' ha.ne']
  · exact absurd rfl hf
  · change normStd.ppf (normStd.sf ((x - a) / b)) = (a - x) / b
    rw [norm_sf_eq, show -((x - a) / b) = (a - x) / b by ring]
    exact normStd_density.ppf_cdf _ (Set.mem_univ _)
  · have ht : 0 < x - g := support_pos hs rfl
    have he := Real.exp_pos a
    change normStd.ppf (if (x - g) / Real.exp a ≤ 0 then 1 else normStd.sf (Real.log ((x - g) / Real.exp a) / b)) =
      (a - Real.log (x - g)) / b
    rw [if_neg (not_le.2 (by positivity)), norm_sf_eq, Real.log_div ht.ne' he.ne', Real.log_exp,
      show -((Real.log (x - g) - a) / b) = (a - Real.log (x - g)) / b by ring]
    exact normStd_density.ppf_cdf _ (Set.mem_univ _)
  · have ha := ha (Or.inr rfl)
    have ht : 0 < x - g := support_pos hs rfl
    have hq : 0 < (x - g) / a := by positivity
    change Real.log ((1 - (if (x - g) / a ≤ 0 then 1 else 1 / (1 + ((x - g) / a) ^ b))) /
      (if (x - g) / a ≤ 0 then 1 else 1 / (1 + ((x - g) / a) ^ b))) = b * (Real.log (x - g) - Real.log a)
    rw [if_neg (not_le.2 hq)]
    have h1 : 0 < ((x - g) / a) ^ b := Real.rpow_pos_of_pos hq b
    rw [show (1 - 1 / (1 + ((x - g) / a) ^ b)) / (1 / (1 + ((x - g) / a) ^ b)) = ((x - g) / a) ^ b by
      field_simp; ring, Real.log_rpow hq, Real.log_div ht.ne' ha.ne']
  · change Real.log (-Real.log (Real.exp (-Real.exp ((x - a) / b)))) = (x - a) / b
    exact ee_scale _

/-! ### variance -/

theorem varOf_nonneg (p : ℝ × ℝ) {sa sb c : ℝ} (h : c ^ 2 ≤ sa ^ 2 * sb ^ 2) : 0 ≤ varOf p sa sb c := by
  obtain ⟨g, k⟩ := p
  unfold varOf
  have h1 : |c| ≤ |sa * sb| := sq_le_sq.1 (by rw [mul_pow]; exact h)
  have h2 : -(2 * (|g * sa| * |k * sb|)) ≤ 2 * g * k * c := by
    have : |2 * g * k * c| ≤ 2 * (|g * sa| * |k * sb|) := by
      rw [show 2 * g * k * c = 2 * (g * k * c) by ring, abs_mul, abs_of_pos (two_pos (α := ℝ)),
        show |g * sa| * |k * sb| = |g * k| * |sa * sb| by simp only [abs_mul]; ring]
      rw [abs_mul (g * k) c]
      have := mul_le_mul_of_nonneg_left h1 (abs_nonneg (g * k))
      linarith
    exact (abs_le.1 this).1
  have h3 : g ^ 2 * sa ^ 2 + k ^ 2 * sb ^ 2 = |g * sa| ^ 2 + |k * sb| ^ 2 := by rw [sq_abs, sq_abs]; ring
  simp only
  nlinarith [sq_nonneg (|g * sa| - |k * sb|)]

/-- half width on the scale -/
noncomputable def relHalf (J : Jac) (f : CFam) (a b sa sb c Z t : ℝ) : ℝ :=
  Z * Real.sqrt (varOf (gradU J f t a b) sa sb c) / (if f = .gamma then u f t a b * (1 - u f t a b) else 1)

theorem relRow_eq (J : Jac) {f : CFam} {a b g x sa sb c Z : ℝ} (hp : ParamsOK f a b) (hs : InSupport f g x)
    (hc : c ^ 2 ≤ sa ^ 2 * sb ^ 2) :
    relRow J f a b sa sb c Z (sh f g x) =
      (.fin (inv f (relScale f ((distOf f a b g).sp.sf x) + relHalf J f a b sa sb c Z (sh f g x))),
       .fin (inv f (relScale f ((distOf f a b g).sp.sf x) - relHalf J f a b sa sb c Z (sh f g x)))) := by
  have hnot : ¬ ((positive f = true ∧ sh f g x ≤ 0) ∨ varOf (gradU J f (sh f g x) a b) sa sb c < 0) := by
    rintro (⟨h, h'⟩ | h)
    · have := support_pos hs h
      unfold sh at h'; rw [if_pos h] at h'; linarith
    · exact absurd h (not_lt.2 (varOf_nonneg _ hc))
  unfold relRow
  simp only [if_neg hnot]
  by_cases hf : f = .gamma
  · subst hf
    have hr := sf_range hp hs
    rw [sf_gamma] at hr ⊢
    simp only [relHalf, if_pos, relScale, inv]
    set R := u .gamma (sh .gamma g x) a b with hR
    set k := Z * Real.sqrt (varOf (gradU J .gamma (sh .gamma g x) a b) sa sb c) with hk
    have h0 : 0 < R := hr.1
    have h1 : 0 < 1 - R := by linarith [hr.2]
    have aux : ∀ y : ℝ, R / (R + (1 - R) * Real.exp y) = 1 / (Real.exp (Real.log ((1 - R) / R) + y) + 1) := by
      intro y
      have := Real.exp_pos y
      rw [Real.exp_add, Real.exp_log (by positivity)]
      field_simp
      ring
    rw [aux, aux, neg_div, ← sub_eq_add_neg]
  · rw [sf_scale hf hp hs]
    have hh : relHalf J f a b sa sb c Z (sh f g x) = Z * Real.sqrt (varOf (gradU J f (sh f g x) a b) sa sb c) := by
      unfold relHalf; rw [if_neg hf, div_one]
    rw [hh]
    cases f
    · rfl
    · exact absurd rfl hf
    · rfl
    · rfl
    · rfl
    · rfl

/-- smaller and larger bound on reliability -/
noncomputable def loSF (J : Jac) (d : Two) (sa sb c Z x : ℝ) : ℝ :=
  let L := relScale d.fam ((distOf d.fam d.a d.b d.gamma).sp.sf x)
  let k := relHalf J d.fam d.a d.b sa sb c Z (sh d.fam d.gamma x)
  if smallFirst d.fam = true then inv d.fam (L + k) else inv d.fam (L - k)

/-- see `loSF` -/
noncomputable def upSF (J : Jac) (d : Two) (sa sb c Z x : ℝ) : ℝ :=
  let L := relScale d.fam ((distOf d.fam d.a d.b d.gamma).sp.sf x)
  let k := relHalf J d.fam d.a d.b sa sb c Z (sh d.fam d.gamma x)
  if smallFirst d.fam = true then inv d.fam (L - k) else inv d.fam (L + k)

theorem relHalf_nonneg (J : Jac) {f : CFam} {a b g x sa sb c Z : ℝ} (hp : ParamsOK f a b) (hs : InSupport f g x)
    (hZ : 0 ≤ Z) : 0 ≤ relHalf J f a b sa sb c Z (sh f g x) := by
  unfold relHalf
  apply div_nonneg (mul_nonneg hZ (Real.sqrt_nonneg _))
  split
  · next h =>
    subst h
    have := sf_range hp hs
    rw [sf_gamma] at this
    exact mul_nonneg this.1.le (by linarith [this.2])
  · norm_num

theorem bounds_order (J : Jac) (d : Two) {sa sb c Z x : ℝ} (hp : ParamsOK d.fam d.a d.b)
    (hs : InSupport d.fam d.gamma x) (hZ : 0 ≤ Z) :
    0 < loSF J d sa sb c Z x ∧ loSF J d sa sb c Z x ≤ (distOf d.fam d.a d.b d.gamma).sp.sf x ∧
    (distOf d.fam d.a d.b d.gamma).sp.sf x ≤ upSF J d sa sb c Z x ∧ upSF J d sa sb c Z x < 1 := by
  have hk := relHalf_nonneg J hp hs hZ (sa := sa) (sb := sb) (c := c)
  obtain ⟨h0, h1⟩ := sf_range hp hs
  have hi := inv_scale d.fam h0 h1
  unfold loSF upSF
  simp only
  cases hsf : smallFirst d.fam
  · rw [if_neg (by simp), if_neg (by simp)]
    have hm := inv_mono d.fam hsf
    refine ⟨(inv_range _ _).1, ?_, ?_, (inv_range _ _).2⟩
    · conv_rhs => rw [← hi]
      exact hm (by linarith)
    · conv_lhs => rw [← hi]
      exact hm (by linarith)
  · rw [if_pos rfl, if_pos rfl]
    have hm := inv_anti d.fam hsf
    refine ⟨(inv_range _ _).1, ?_, ?_, (inv_range _ _).2⟩
    · conv_rhs => rw [← hi]
      exact hm (by linarith)
    · conv_lhs => rw [← hi]
      exact hm (by linarith)

end Reliability.FunctionCI

namespace Reliability.FunctionCI

open Reliability.Spec Reliability.Distributions Reliability.Utils Reliability.Props Reliability.Props.Distributions

/-! ### the normal quantile of the level -/

theorem zOf_cdf {CI : ℝ} (h0 : 0 < CI) (h1 : CI < 1) : normStd.cdf (-zOf CI) = (1 - CI) / 2 := by
  unfold zOf
  rw [neg_neg]
  exact normStd_density.cdf_ppf (by linarith) (by linarith)

theorem norm_cdf_zero : normStd.cdf 0 = 1 / 2 := by
  have := norm_cdf_neg 0
  rw [neg_zero] at this
  linarith

theorem zOf_spec {CI : ℝ} (h0 : 0 < CI) (h1 : CI < 1) : TwoSidedZ CI (zOf CI) := by
  have h := zOf_cdf h0 h1
  have h2 := norm_cdf_neg (zOf CI)
  refine ⟨?_, by linarith⟩
  have : normStd.cdf (-zOf CI) < normStd.cdf 0 := by rw [h, norm_cdf_zero]; linarith
  have := norm_cdf_strictMono.lt_iff_lt.1 this
  linarith

theorem zOf_mono {c1 c2 : ℝ} (h0 : 0 < c1) (h : c1 ≤ c2) (h1 : c2 < 1) : zOf c1 ≤ zOf c2 := by
  have e1 := zOf_cdf h0 (lt_of_le_of_lt h h1)
  have e2 := zOf_cdf (lt_of_lt_of_le h0 h) h1
  have : normStd.cdf (-zOf c2) ≤ normStd.cdf (-zOf c1) := by rw [e1, e2]; linarith
  have := norm_cdf_strictMono.le_iff_le.1 this
  linarith

/-! ### cleaning of mapped arrays -/

theorem sideBySide_map {α : Type _} (xs : List α) (f1 f2 f3 f4 : α → Ext ℝ) :
    sideBySide (xs.map f1) (xs.map f2) (xs.map f3) (xs.map f4) = xs.map fun x => (f1 x, f2 x, f3 x, f4 x) := by
  induction xs with
  | nil => rfl
  | cons a l ih =>
    unfold sideBySide at ih ⊢
    simp only [List.map_cons, List.zip_cons_cons, ih]

theorem clean_map_ok {α : Type _} (xs : List α) (f1 f2 f3 f4 : α → Ext ℝ) (xG qG : Bool) (hg : xG = true ∨ qG = true)
    (h : ∀ x ∈ xs, ValidPair "CDF" (f1 x, f2 x, f3 x, f4 x)) :
    cleanCI (xs.map f1) (xs.map f2) (xs.map f3) (xs.map f4) "CDF" xG qG =
      .ok (xs.map f1, xs.map f2, xs.map f3, xs.map f4) := by
  refine (C50_given _ _ _ _ "CDF" xG qG (by simp) (by simp) (by simp) hg).1 fun r hr => ?_
  rw [sideBySide_map, List.mem_map] at hr
  obtain ⟨x, hx, rfl⟩ := hr
  exact h x hx

theorem clean_map_err {α : Type _} (xs : List α) (f1 f2 f3 f4 : α → Ext ℝ) (xG qG : Bool) (hg : xG = true ∨ qG = true)
    (h : ∃ x ∈ xs, ¬ ValidPair "CDF" (f1 x, f2 x, f3 x, f4 x)) :
    cleanCI (xs.map f1) (xs.map f2) (xs.map f3) (xs.map f4) "CDF" xG qG = .error .valueError := by
  refine (C50_given _ _ _ _ "CDF" xG qG (by simp) (by simp) (by simp) hg).2 ?_
  obtain ⟨x, hx, h⟩ := h
  exact ⟨_, by rw [sideBySide_map]; exact List.mem_map.2 ⟨x, hx, rfl⟩, h⟩

theorem up_cdf : Fitters.up "CDF" ∈ ["CDF", "SF"] := by decide +kernel

/-! ### bounds on reliability: the arrays -/

theorem validParams_of {d : Two} {sa sb c : ℝ} (h : ErrorsOK d sa sb c) : validParams d = some (sa, sb, c) := by
  obtain ⟨h1, h2, h3, ⟨z, h4⟩, -⟩ := h
  unfold validParams
  rw [h1, h2, h3, h4]
  rfl

theorem shifted_eq (d : Two) (x : ℝ) : shifted d x = sh d.fam d.gamma x := rfl

theorem relOut_map (b : Bool) (fn : Func) (xs : List ℝ) (f g : ℝ → ℝ) :
    relOut b fn (xs.map fun x => .fin (f x), xs.map fun x => .fin (g x)) =
      (match fn with
        | .SF => (xs.map fun x => .fin (if b = true then f x else g x), xs.map fun x => .fin (if b = true then g x else f x))
        | .CDF => (xs.map fun x => .fin (1 - (if b = true then g x else f x)),
            xs.map fun x => .fin (1 - (if b = true then f x else g x)))
        | .CHF => (xs.map fun x => .fin (-Real.log (if b = true then g x else f x)),
            xs.map fun x => .fin (-Real.log (if b = true then f x else g x)))) := by
  cases b <;> cases fn <;> simp [relOut, oneMinus, minusLog, Ext.sub, Ext.add, Ext.neg, sub_eq_add_neg]

theorem out_support {f : CFam} {g x : ℝ} (h : ¬ InSupport f g x) : positive f = true ∧ sh f g x ≤ 0 := by
  cases f <;> simp_all [InSupport, positive, sh]

theorem twoRel_err (J : Jac) (d : Two) {sa sb c CI : ℝ} (xs : List ℝ) (hp : ParamsOK d.fam d.a d.b)
    (he : ErrorsOK d sa sb c) (h0 : 0 < CI) (h1 : CI < 1)
    (hx : ∃ x ∈ xs, ¬ (InSupport d.fam d.gamma x ∧ 1 / 10 ^ 50 < loSF J d sa sb c (zOf CI) x)) :
    twoRel J d CI xs = valueErr := by
  unfold twoRel
  rw [validParams_of he]
  simp only [List.map_map]
  rw [clean_map_err xs _ _ _ _ true false (Or.inl rfl) ?_]
  obtain ⟨x, hx, h⟩ := hx
  refine ⟨x, hx, ?_⟩
  rintro ⟨p, q, r, s, hr, hr1, hs1, -⟩
  simp only [Function.comp, Prod.mk.injEq, shifted_eq] at hr
  obtain ⟨-, -, hr2, hs2⟩ := hr
  by_cases hs : InSupport d.fam d.gamma x
  · rw [relRow_eq J hp hs he.2.2.2.2] at hr2 hs2
    simp only [Ext.fin.injEq] at hr2 hs2
    apply h
    refine ⟨hs, ?_⟩
    unfold loSF
    simp only
    split
    · rw [hr2]; exact hr1
    · rw [hs2]; exact hs1
  · unfold relRow at hr2
    simp only [if_pos (Or.inl (out_support hs))] at hr2
    cases hr2

theorem twoRel_ok (J : Jac) (d : Two) {sa sb c CI : ℝ} (xs : List ℝ) (hp : ParamsOK d.fam d.a d.b)
    (he : ErrorsOK d sa sb c) (h0 : 0 < CI) (h1 : CI < 1)
    (hx : ∀ x ∈ xs, InSupport d.fam d.gamma x ∧ 1 / 10 ^ 50 < loSF J d sa sb c (zOf CI) x) :
    ∃ f g : ℝ → ℝ, twoRel J d CI xs = .ok (some (xs.map fun x => .fin (f x), xs.map fun x => .fin (g x))) ∧
      (∀ x ∈ xs, loSF J d sa sb c (zOf CI) x = if smallFirst d.fam = true then f x else g x) ∧
      (∀ x ∈ xs, upSF J d sa sb c (zOf CI) x = if smallFirst d.fam = true then g x else f x) := by
  refine ⟨fun x => inv d.fam (relScale d.fam ((distOf d.fam d.a d.b d.gamma).sp.sf x) +
      relHalf J d.fam d.a d.b sa sb c (zOf CI) (sh d.fam d.gamma x)),
    fun x => inv d.fam (relScale d.fam ((distOf d.fam d.a d.b d.gamma).sp.sf x) -
      relHalf J d.fam d.a d.b sa sb c (zOf CI) (sh d.fam d.gamma x)), ?_, fun x _ => rfl, fun x _ => rfl⟩
  unfold twoRel
  rw [validParams_of he]
  simp only [List.map_map]
  have hrow := fun x hx' => relRow_eq J hp (hx x hx').1 he.2.2.2.2 (Z := zOf CI)
  rw [clean_map_ok xs _ _ _ _ true false (Or.inl rfl) ?_]
  · simp only [Except.ok.injEq, Option.some.injEq, Prod.mk.injEq]
    constructor <;> apply List.map_congr_left <;> intro x hx' <;> simp only [Function.comp, shifted_eq, hrow x hx']
  · intro x hx'
    obtain ⟨hs, hl⟩ := hx x hx'
    have ho := bounds_order J d hp hs (zOf_spec h0 h1).1.le (sa := sa) (sb := sb) (c := c)
    have hup : 1 / 10 ^ 50 < upSF J d sa sb c (zOf CI) x := by linarith [ho.2.1, ho.2.2.1]
    have hl1 : loSF J d sa sb c (zOf CI) x < 1 := by linarith [ho.2.1, ho.2.2.1]
    have hu1 := ho.2.2.2
    unfold loSF at hl hl1
    unfold upSF at hup hu1
    simp only at hl hl1 hup hu1
    refine ⟨sh d.fam d.gamma x, sh d.fam d.gamma x,
      inv d.fam (relScale d.fam ((distOf d.fam d.a d.b d.gamma).sp.sf x) +
        relHalf J d.fam d.a d.b sa sb c (zOf CI) (sh d.fam d.gamma x)),
      inv d.fam (relScale d.fam ((distOf d.fam d.a d.b d.gamma).sp.sf x) -
        relHalf J d.fam d.a d.b sa sb c (zOf CI) (sh d.fam d.gamma x)),
      by simp only [Function.comp, shifted_eq, hrow x hx'], ?_⟩
    cases hsf : smallFirst d.fam <;> rw [hsf] at hl hl1 hup hu1 <;>
      simp only [Bool.false_eq_true, if_false, if_true] at hl hl1 hup hu1
    · exact ⟨hup, hl, fun _ => ⟨hu1, hl1⟩⟩
    · exact ⟨hl, hup, fun _ => ⟨hl1, hu1⟩⟩

/-! ### point estimates -/

theorem zeroise_above {X Y : List ℝ} {g : ℝ} (h : ∀ x ∈ X, g < x) (hl : Y.length = X.length) : zeroise X Y g = Y := by
  unfold zeroise
  split
  · cases X with
    | nil => cases Y with | nil => rfl | cons => simp at hl
    | cons a l =>
      rw [List.findIdx?_cons, if_pos (by simpa using h a (by simp))]
      simp only [not_lt_zero', if_false]
      exact List.ext_getElem (by simp) (by simp)
  · rfl

theorem chf_eq {f : CFam} {a b g x : ℝ} (hp : ParamsOK f a b) (hs : InSupport f g x) :
    (distOf f a b g).chf x = -Real.log ((distOf f a b g).sp.sf x) := by
  obtain ⟨hb, ha⟩ := hp
  have key : ∀ {D : Set ℝ} {p F S h H : ℝ → ℝ} (_ : HazardLaw D p F S h H), x ∈ D → H x = -Real.log (S x) := by
    intro D p F S h H hl hx
    rw [← hl.cumhazard x hx, Real.log_exp, neg_neg]
  cases f
  · exact key (C35_weibull a b g (ha (Or.inl rfl))) hs
  · exact rfl
  · exact rfl
  · exact rfl
  · exact key (C35_loglogistic a b g (ha (Or.inr rfl))) hs
  · exact key (C35_gumbel a b) (Set.mem_univ _)

theorem zeroAt_support {f : CFam} {a b g x g' : ℝ} (h : (distOf f a b g).zeroAt = some g') (hs : InSupport f g x) :
    g' < x := by
  cases f
  · exact (Option.some.inj h) ▸ hs
  · cases h
  · cases h
  · cases h
  · exact (Option.some.inj h) ▸ hs
  · cases h

theorem cdf_compl {f : CFam} {a b g x : ℝ} (hp : ParamsOK f a b) :
    (distOf f a b g).sp.cdf x = 1 - (distOf f a b g).sp.sf x := by
  obtain ⟨hb, ha⟩ := hp
  have key : ∀ {F S : ℝ → ℝ} (_ : SurvivalLaw F S), F x = 1 - S x := fun h => by linarith [h.compl x]
  cases f
  · exact key (C33_weibull a b g (ha (Or.inl rfl)) hb).1
  · exact key (C33_gamma _ b g (Real.exp_pos a) hb).1
  · exact key (C33_normal a b hb)
  · exact key (C33_lognormal a b g hb).1
  · exact key (C33_loglogistic a b g (ha (Or.inr rfl)) hb).1
  · exact key (C33_gumbel a b hb)

theorem pointRel_eq {f : CFam} {a b g : ℝ} (fn : Func) (xs : List ℝ) (hp : ParamsOK f a b)
    (hx : ∀ x ∈ xs, InSupport f g x) :
    pointRel (distOf f a b g) fn xs = xs.map fun x => .fin (ofReliability fn ((distOf f a b g).sp.sf x)) := by
  cases fn
  · simp only [pointRel, List.map_map]
    exact List.map_congr_left fun x _ => by simp only [Function.comp, cdf_compl hp, ofReliability]
  · simp only [pointRel, List.map_map]
    exact List.map_congr_left fun x _ => by simp only [Function.comp, ofReliability]
  · have hc : xs.map (distOf f a b g).chf = xs.map fun x => ofReliability .CHF ((distOf f a b g).sp.sf x) :=
      List.map_congr_left fun x h => chf_eq hp (hx x h)
    unfold pointRel
    simp only
    split
    · next g' hg' =>
      rw [zeroise_above (fun x h => zeroAt_support hg' (hx x h)) (by simp), hc, List.map_map]
      rfl
    · rw [hc, List.map_map]; rfl

end Reliability.FunctionCI

namespace Reliability.FunctionCI

open Reliability.Spec Reliability.Distributions Reliability.Utils Reliability.Props Reliability.Props.Distributions
open Filter Topology

/-! ### delta method -/

theorem params_near_a {f : CFam} {a b : ℝ} (hp : ParamsOK f a b) : ∀ᶠ a' in 𝓝 a, ParamsOK f a' b := by
  by_cases h : f = .weibull ∨ f = .loglogistic
  · filter_upwards [lt_mem_nhds (hp.2 h)] with a' ha'
    exact ⟨hp.1, fun _ => ha'⟩
  · exact Eventually.of_forall fun a' => ⟨hp.1, fun h' => absurd h' h⟩

theorem params_near_b {f : CFam} {a b : ℝ} (hp : ParamsOK f a b) : ∀ᶠ b' in 𝓝 b, ParamsOK f a b' := by
  filter_upwards [lt_mem_nhds hp.1] with b' hb'
  exact ⟨hb', hp.2⟩

theorem u_diff {f : CFam} (hf : f ≠ .gamma) {a b : ℝ} (hp : ParamsOK f a b) (t : ℝ) :
    DifferentiableAt ℝ (fun a' => u f t a' b) a ∧ DifferentiableAt ℝ (fun b' => u f t a b') b := by
  obtain ⟨hb, ha⟩ := hp
  have hb' : b ≠ 0 := hb.ne'
  cases f
  · have ha : a ≠ 0 := (ha (Or.inl rfl)).ne'
    simp only [u]
    constructor <;> fun_prop (disch := assumption)
  · exact absurd rfl hf
  · simp only [u]
    constructor <;> fun_prop (disch := assumption)
  · simp only [u]
    constructor <;> fun_prop (disch := assumption)
  · have ha : a ≠ 0 := (ha (Or.inr rfl)).ne'
    simp only [u]
    constructor <;> fun_prop (disch := assumption)
  · simp only [u]
    constructor <;> fun_prop (disch := assumption)

theorem v_diff {f : CFam} (hf : f ≠ .gamma) {a b : ℝ} (hp : ParamsOK f a b) (R : ℝ) :
    DifferentiableAt ℝ (fun a' => v f R a' b) a ∧ DifferentiableAt ℝ (fun b' => v f R a b') b := by
  obtain ⟨hb, ha⟩ := hp
  have hb' : b ≠ 0 := hb.ne'
  cases f
  · have ha : a ≠ 0 := (ha (Or.inl rfl)).ne'
    simp only [v]
    constructor <;> fun_prop (disch := assumption)
  · exact absurd rfl hf
  · simp only [v]
    constructor <;> fun_prop (disch := assumption)
  · simp only [v]
    constructor <;> fun_prop (disch := assumption)
  · have ha : a ≠ 0 := (ha (Or.inr rfl)).ne'
    simp only [v]
    constructor <;> fun_prop (disch := assumption)
  · simp only [v]
    constructor <;> fun_prop (disch := assumption)

/-- autograd's derivatives are exact for the Gamma distribution at the times / reliabilities used -/
def JacU (J : Jac) (f : CFam) (a b g x : ℝ) : Prop :=
  f = .gamma → HasDerivAt (fun a' => (distOf .gamma a' b g).sp.sf x) (J.du (x - g) a b).1 a ∧
    HasDerivAt (fun b' => (distOf .gamma a b' g).sp.sf x) (J.du (x - g) a b).2 b

theorem logodds_deriv {F : ℝ → ℝ} {F' y : ℝ} (h : HasDerivAt F F' y) (h0 : 0 < F y) (h1 : F y < 1) :
    HasDerivAt (fun z => Real.log ((1 - F z) / F z)) (-(F' / (F y * (1 - F y)))) y := by
  have h2 : 0 < 1 - F y := by linarith
  have hd : HasDerivAt (fun z => (1 - F z) / F z) ((-F' * F y - (1 - F y) * F') / F y ^ 2) y :=
    (h.const_sub 1).div h h0.ne'
  have := hd.log (div_pos h2 h0).ne'
  have e : -(F' / (F y * (1 - F y))) = (-F' * F y - (1 - F y) * F') / F y ^ 2 / ((1 - F y) / F y) := by
    field_simp; ring
  rw [e]
  exact this

theorem rel_delta (J : Jac) {f : CFam} {a b g x : ℝ} (sa sb c Z : ℝ) (hp : ParamsOK f a b) (hs : InSupport f g x)
    (hJ : JacU J f a b g x) :
    ∃ V, DeltaVariance (fun a b => relScale f ((distOf f a b g).sp.sf x)) a b sa sb c V ∧
      relHalf J f a b sa sb c Z (sh f g x) = Z * Real.sqrt V := by
  by_cases hf : f = .gamma
  · subst hf
    obtain ⟨j1, j2⟩ := hJ rfl
    obtain ⟨h0, h1⟩ := sf_range hp hs
    set R := (distOf .gamma a b g).sp.sf x with hR
    refine ⟨_, ⟨_, _, logodds_deriv j1 h0 h1, logodds_deriv j2 h0 h1, rfl⟩, ?_⟩
    have hR' : u .gamma (sh .gamma g x) a b = R := rfl
    unfold relHalf
    rw [if_pos rfl, hR']
    have hgu : gradU J .gamma (sh .gamma g x) a b = J.du (x - g) a b := rfl
    rw [hgu]
    simp only [← hR]
    have hk : 0 < R * (1 - R) := mul_pos h0 (by linarith)
    rw [show (-((J.du (x - g) a b).1 / (R * (1 - R))) * sa) ^ 2 + (-((J.du (x - g) a b).2 / (R * (1 - R))) * sb) ^ 2 +
      2 * c * (-((J.du (x - g) a b).1 / (R * (1 - R))) * -((J.du (x - g) a b).2 / (R * (1 - R)))) =
      varOf (J.du (x - g) a b) sa sb c / (R * (1 - R)) ^ 2 by unfold varOf; field_simp]
    rw [Real.sqrt_div' _ (sq_nonneg _), Real.sqrt_sq hk.le]
    ring
  · obtain ⟨d1, d2⟩ := u_diff hf hp (sh f g x)
    refine ⟨varOf (gradU J f (sh f g x) a b) sa sb c, ⟨deriv (fun a' => u f (sh f g x) a' b) a,
      deriv (fun b' => u f (sh f g x) a b') b, ?_, ?_, ?_⟩, ?_⟩
    · refine d1.hasDerivAt.congr_of_eventuallyEq ?_
      filter_upwards [params_near_a hp] with a' ha'
      exact sf_scale hf ha' hs
    · refine d2.hasDerivAt.congr_of_eventuallyEq ?_
      filter_upwards [params_near_b hp] with b' hb'
      exact sf_scale hf hb' hs
    · unfold gradU varOf
      rw [if_neg hf]
      ring
    · unfold relHalf; rw [if_neg hf, div_one]

theorem lo_up_scale (J : Jac) (d : Two) {sa sb c Z x : ℝ} (hp : ParamsOK d.fam d.a d.b)
    (hs : InSupport d.fam d.gamma x) (hZ : 0 ≤ Z) :
    |relScale d.fam (loSF J d sa sb c Z x) - relScale d.fam ((distOf d.fam d.a d.b d.gamma).sp.sf x)| =
      relHalf J d.fam d.a d.b sa sb c Z (sh d.fam d.gamma x) ∧
    |relScale d.fam (upSF J d sa sb c Z x) - relScale d.fam ((distOf d.fam d.a d.b d.gamma).sp.sf x)| =
      relHalf J d.fam d.a d.b sa sb c Z (sh d.fam d.gamma x) := by
  have hk := relHalf_nonneg J hp hs hZ (sa := sa) (sb := sb) (c := c)
  unfold loSF upSF
  simp only
  cases smallFirst d.fam <;> simp only [Bool.false_eq_true, if_false, if_true, scale_inv] <;>
    constructor <;> simp [abs_of_nonneg hk]

/-! ### bounds on time -/

/-- back-transform of time -/
noncomputable def tinv (f : CFam) (g y : ℝ) : ℝ :=
  match f with
  | .normal => y
  | .gumbel => y
  | _ => Real.exp y + g

theorem tinv_mono (f : CFam) (g : ℝ) : Monotone (tinv f g) := by
  cases f
  case normal => exact fun _ _ h => h
  case gumbel => exact fun _ _ h => h
  all_goals exact fun _ _ h => by simp only [tinv]; linarith [Real.exp_le_exp.2 h]

theorem tscale_inv (f : CFam) (g y : ℝ) : timeScale f g (tinv f g y) = y := by
  cases f
  case normal => rfl
  case gumbel => rfl
  all_goals simp [timeScale, tinv]

theorem tinv_scale (f : CFam) {g t : ℝ} (h : InSupport f g t) : tinv f g (timeScale f g t) = t := by
  cases f
  case normal => rfl
  case gumbel => rfl
  all_goals
    have h' : 0 < t - g := sub_pos.2 h
    simp only [timeScale, tinv]
    rw [Real.exp_log h']
    ring

theorem tinv_support (f : CFam) (g y : ℝ) : InSupport f g (tinv f g y) := by
  cases f
  case normal => trivial
  case gumbel => trivial
  all_goals simp [InSupport, tinv, Real.exp_pos]

theorem norm_isf_eq {q : ℝ} (h0 : 0 < q) (h1 : q < 1) : normStd.isf q = -normStd.ppf q := by
  have e1 : normStd.isf q = normStd.ppf (1 - q) := normStd_density.isf_eq q
  apply norm_cdf_strictMono.injective
  rw [norm_cdf_neg, e1]
  have a1 : normStd.cdf (normStd.ppf (1 - q)) = 1 - q := normStd_density.cdf_ppf (by linarith) (by linarith)
  have a2 : normStd.cdf (normStd.ppf q) = q := normStd_density.cdf_ppf h0 h1
  rw [a1, a2]

theorem isf_scale {f : CFam} {a b g R : ℝ} (hp : ParamsOK f a b) (h0 : 0 < R) (h1 : R < 1) :
    InSupport f g ((distOf f a b g).sp.isf R) ∧ timeScale f g ((distOf f a b g).sp.isf R) = v f R a b := by
  obtain ⟨hb, ha⟩ := hp
  have hn := neglog_pos h0 h1
  cases f
  · have ha := ha (Or.inl rfl)
    have hr := Real.rpow_pos_of_pos hn (1 / b)
    have e : (distOf .weibull a b g).sp.isf R = (-Real.log R) ^ (1 / b) * a + g := rfl
    rw [e]
    refine ⟨show g < _ by nlinarith [mul_pos hr ha], ?_⟩
    simp only [timeScale, v, add_sub_cancel_right]
    rw [Real.log_mul hr.ne' ha.ne', Real.log_rpow hn]
  · have hd := gammaStd_density hb
    have e : (distOf .gamma a b g).sp.isf R = (ofDensity (gammaStdPdf b)).isf R * Real.exp a + g := rfl
    have hi : 0 < (ofDensity (gammaStdPdf b)).isf R := by
      have h2 := (hd.quantile.isf R h0 h1).1
      rw [h2]; exact hd.quantile.mem (1 - R) (by linarith) (by linarith)
    have := Real.exp_pos a
    rw [e]
    refine ⟨show g < _ by nlinarith [mul_pos hi this], ?_⟩
    simp only [timeScale, v, add_sub_cancel_right]
    rw [Real.log_mul hi.ne' this.ne', Real.log_exp]
  · refine ⟨trivial, ?_⟩
    change normStd.isf R * b + a = a - b * normStd.ppf R
    rw [norm_isf_eq h0 h1]; ring
  · have e : (distOf .lognormal a b g).sp.isf R = Real.exp (b * normStd.isf R) * Real.exp a + g := rfl
    rw [e]
    have h2 := Real.exp_pos (b * normStd.isf R)
    have h3 := Real.exp_pos a
    refine ⟨show g < _ by nlinarith [mul_pos h2 h3], ?_⟩
    simp only [timeScale, v, add_sub_cancel_right]
    rw [← Real.exp_add, Real.log_exp, norm_isf_eq h0 h1]
    ring
  · have ha := ha (Or.inr rfl)
    have ho := odds_pos h0 h1
    have hr := Real.rpow_pos_of_pos ho (1 / b)
    have e : (distOf .loglogistic a b g).sp.isf R = (1 / R - 1) ^ (1 / b) * a + g := rfl
    rw [e]
    refine ⟨show g < _ by nlinarith [mul_pos hr ha], ?_⟩
    simp only [timeScale, v, add_sub_cancel_right]
    rw [Real.log_mul hr.ne' ha.ne', Real.log_rpow ho]
  · refine ⟨trivial, ?_⟩
    change Real.log (-Real.log R) * b + a = a + b * Real.log (-Real.log R)
    ring

/-- half width on the time scale -/
noncomputable def timeHalf (J : Jac) (f : CFam) (a b sa sb c Z R : ℝ) : ℝ :=
  Z * Real.sqrt (varOf (gradV J f R a b) sa sb c)

/-- lower and upper bound on time -/
noncomputable def loT (J : Jac) (d : Two) (sa sb c Z R : ℝ) : ℝ :=
  tinv d.fam d.gamma (v d.fam R d.a d.b - timeHalf J d.fam d.a d.b sa sb c Z R)
/-- see `loT` -/
noncomputable def upT (J : Jac) (d : Two) (sa sb c Z R : ℝ) : ℝ :=
  tinv d.fam d.gamma (v d.fam R d.a d.b + timeHalf J d.fam d.a d.b sa sb c Z R)

theorem timeRow_eq (J : Jac) (d : Two) {sa sb c Z R : ℝ} (hc : c ^ 2 ≤ sa ^ 2 * sb ^ 2) :
    timeRow J d.fam d.a d.b d.gamma sa sb c Z R = (.fin (loT J d sa sb c Z R), .fin (upT J d sa sb c Z R)) := by
  unfold timeRow
  simp only [if_neg (not_lt.2 (varOf_nonneg (gradV J d.fam R d.a d.b) hc))]
  unfold loT upT timeHalf
  cases d.fam <;> rfl

theorem time_order (J : Jac) (d : Two) {sa sb c Z R : ℝ} (hp : ParamsOK d.fam d.a d.b) (h0 : 0 < R) (h1 : R < 1)
    (hZ : 0 ≤ Z) :
    loT J d sa sb c Z R ≤ (distOf d.fam d.a d.b d.gamma).sp.isf R ∧
    (distOf d.fam d.a d.b d.gamma).sp.isf R ≤ upT J d sa sb c Z R ∧
    InSupport d.fam d.gamma (loT J d sa sb c Z R) ∧ InSupport d.fam d.gamma (upT J d sa sb c Z R) := by
  obtain ⟨hs, he⟩ := isf_scale (g := d.gamma) hp h0 h1
  have hk : 0 ≤ timeHalf J d.fam d.a d.b sa sb c Z R := mul_nonneg hZ (Real.sqrt_nonneg _)
  have hi := tinv_scale d.fam hs
  rw [he] at hi
  refine ⟨?_, ?_, tinv_support _ _ _, tinv_support _ _ _⟩
  · rw [← hi]; exact tinv_mono _ _ (by linarith)
  · rw [← hi]; exact tinv_mono _ _ (by linarith)

/-- autograd's derivatives of the Gamma quantile are exact -/
def JacV (J : Jac) (f : CFam) (a b R : ℝ) : Prop :=
  f = .gamma → HasDerivAt (fun a' => Real.log ((distOf .gamma a' b 0).sp.isf R)) (J.dv R a b).1 a ∧
    HasDerivAt (fun b' => Real.log ((distOf .gamma a b' 0).sp.isf R)) (J.dv R a b).2 b

theorem time_delta (J : Jac) {f : CFam} {a b g R : ℝ} (sa sb c Z : ℝ) (hp : ParamsOK f a b) (h0 : 0 < R) (h1 : R < 1)
    (hJ : JacV J f a b R) :
    ∃ V, DeltaVariance (fun a b => timeScale f g ((distOf f a b g).sp.isf R)) a b sa sb c V ∧
      timeHalf J f a b sa sb c Z R = Z * Real.sqrt V := by
  refine ⟨varOf (gradV J f R a b) sa sb c, ⟨(gradV J f R a b).1, (gradV J f R a b).2, ?_, ?_, ?_⟩, rfl⟩
  · by_cases hf : f = .gamma
    · subst hf
      refine (hJ rfl).1.congr_of_eventuallyEq (Eventually.of_forall fun a' => ?_)
      have e1 := (isf_scale (f := .gamma) (g := g) (a := a') (b := b) ⟨hp.1, by simp⟩ h0 h1).2
      have e2 := (isf_scale (f := .gamma) (g := 0) (a := a') (b := b) ⟨hp.1, by simp⟩ h0 h1).2
      simp only [timeScale, sub_zero] at e1 e2 ⊢
      rw [e1, e2]
    · have d1 := (v_diff hf hp R).1.hasDerivAt
      unfold gradV
      rw [if_neg hf]
      refine d1.congr_of_eventuallyEq ?_
      filter_upwards [params_near_a hp] with a' ha'
      exact (isf_scale ha' h0 h1).2
  · by_cases hf : f = .gamma
    · subst hf
      refine (hJ rfl).2.congr_of_eventuallyEq ?_
      filter_upwards [params_near_b hp] with b' hb'
      have e1 := (isf_scale (f := .gamma) (g := g) hb' h0 h1).2
      have e2 := (isf_scale (f := .gamma) (g := 0) hb' h0 h1).2
      simp only [timeScale, sub_zero] at e1 e2 ⊢
      rw [e1, e2]
    · have d1 := (v_diff hf hp R).2.hasDerivAt
      unfold gradV
      rw [if_neg hf]
      refine d1.congr_of_eventuallyEq ?_
      filter_upwards [params_near_b hp] with b' hb'
      exact (isf_scale hb' h0 h1).2
  · unfold varOf
    ring

theorem loT_scale (J : Jac) (d : Two) {sa sb c Z R : ℝ} (hp : ParamsOK d.fam d.a d.b) (h0 : 0 < R) (h1 : R < 1) :
    timeScale d.fam d.gamma (loT J d sa sb c Z R) =
      timeScale d.fam d.gamma ((distOf d.fam d.a d.b d.gamma).sp.isf R) - timeHalf J d.fam d.a d.b sa sb c Z R ∧
    timeScale d.fam d.gamma (upT J d sa sb c Z R) =
      timeScale d.fam d.gamma ((distOf d.fam d.a d.b d.gamma).sp.isf R) + timeHalf J d.fam d.a d.b sa sb c Z R := by
  unfold loT upT
  rw [tscale_inv, tscale_inv, (isf_scale hp h0 h1).2]
  exact ⟨rfl, rfl⟩

theorem twoTime_ok (J : Jac) (d : Two) {sa sb c CI : ℝ} (q : List ℝ) (he : ErrorsOK d sa sb c)
    (hq : ∀ R ∈ q, 1 / 10 ^ 50 < R ∧ R < 1) :
    twoTime J d CI q = .ok (some (q.map fun R => .fin (loT J d sa sb c (zOf CI) R),
      q.map fun R => .fin (upT J d sa sb c (zOf CI) R))) := by
  unfold twoTime
  rw [validParams_of he]
  simp only [List.map_map]
  rw [clean_map_ok q _ _ _ _ false true (Or.inr rfl) ?_]
  · simp only [Except.ok.injEq, Option.some.injEq, Prod.mk.injEq]
    constructor <;> apply List.map_congr_left <;> intro x _ <;>
      simp only [Function.comp, timeRow_eq J d he.2.2.2.2]
  · intro R hR
    refine ⟨_, _, R, R, by simp only [Function.comp, timeRow_eq J d he.2.2.2.2]; exact rfl, (hq R hR).1, (hq R hR).1,
      fun _ => ⟨(hq R hR).2, (hq R hR).2⟩⟩

theorem twoTime_err (J : Jac) (d : Two) {sa sb c CI : ℝ} (q : List ℝ) (he : ErrorsOK d sa sb c)
    (hq : ∃ R ∈ q, ¬ (1 / 10 ^ 50 < R ∧ R < 1)) : twoTime J d CI q = valueErr := by
  unfold twoTime
  rw [validParams_of he]
  simp only [List.map_map]
  rw [clean_map_err q _ _ _ _ false true (Or.inr rfl) ?_]
  obtain ⟨R, hR, h⟩ := hq
  refine ⟨R, hR, ?_⟩
  rintro ⟨p, s, r, t, hr, hr1, -, hu⟩
  simp only [Prod.mk.injEq, Ext.fin.injEq] at hr
  obtain ⟨-, -, rfl, rfl⟩ := hr
  exact h ⟨hr1, (hu up_cdf).1⟩

end Reliability.FunctionCI
