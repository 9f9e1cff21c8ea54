import Verif.Model.Moments
import Verif.Spec.Moments
import Verif.Lemmas.Density
import Mathlib.MeasureTheory.Function.JacobianOneDim
import Mathlib.MeasureTheory.Integral.Gamma
import Mathlib.MeasureTheory.Group.Integral
import Mathlib.MeasureTheory.Measure.Haar.NormedSpace
import Mathlib.MeasureTheory.Measure.Lebesgue.Integral

/-!
# Lemmas on moments
-/

namespace Reliability.Distributions

open Reliability Spec Filter Topology MeasureTheory

theorem _root_.Reliability.Spec.HasInt.add {f g : ℝ → ℝ} {a b : ℝ} (hf : HasInt f a) (hg : HasInt g b) :
    HasInt (fun x => f x + g x) (a + b) :=
  ⟨hf.1.add hg.1, by rw [integral_add hf.1 hg.1, hf.2, hg.2]⟩

theorem _root_.Reliability.Spec.HasInt.smul {f : ℝ → ℝ} {a : ℝ} (c : ℝ) (hf : HasInt f a) :
    HasInt (fun x => c * f x) (c * a) :=
  ⟨hf.1.const_mul c, by rw [integral_const_mul, hf.2]⟩

theorem _root_.Reliability.Spec.HasInt.congr {f g : ℝ → ℝ} {a b : ℝ} (hf : HasInt f a) (h : ∀ x, g x = f x) (hab : b = a) :
    HasInt g b := by
  have : g = f := funext h
  rw [this, hab]; exact hf

theorem _root_.Reliability.Spec.HasInt.congr_ae {f g : ℝ → ℝ} {a : ℝ} (hf : HasInt f a) (h : f =ᵐ[volume] g) : HasInt g a :=
  ⟨hf.1.congr h, by rw [← integral_congr_ae h, hf.2]⟩

/-- affine change of variable -/
theorem _root_.Reliability.Spec.HasInt.affine {g : ℝ → ℝ} {a : ℝ} (hg : HasInt g a) (loc scale : ℝ) (hs : 0 < scale) :
    HasInt (fun x => g ((x - loc) / scale)) (scale * a) := by
  have h1 : Integrable (fun x => g (x / scale)) := hg.1.comp_div hs.ne'
  refine ⟨h1.comp_sub_right loc, ?_⟩
  have h2 : ∫ x, (fun y => g (y / scale)) (x - loc) = ∫ y, g (y / scale) :=
    integral_sub_right_eq_self (fun y => g (y / scale)) loc
  rw [show (∫ x, g ((x - loc) / scale)) = ∫ y, g (y / scale) from h2,
    Measure.integral_comp_div, hg.2, abs_of_pos hs, smul_eq_mul]

/-- Raw moments up to order `n`. -/
def Raw (f : ℝ → ℝ) (r : ℕ → ℝ) (n : ℕ) : Prop := ∀ k ≤ n, HasInt (fun x => x ^ k * f x) (r k)

theorem Raw.meanVar {f : ℝ → ℝ} {r : ℕ → ℝ} {n : ℕ} (h : Raw f r n) (hn : 2 ≤ n) (h0 : r 0 = 1)
    (hv : 0 < r 2 - r 1 * r 1) :
    MeanVar f (r 1) (r 2 - r 1 * r 1) where
  total := (h 0 (by omega)).congr (by simp) h0.symm
  mean := (h 1 (by omega)).congr (by simp) rfl
  var := ((((h 2 (by omega)).add ((h 1 (by omega)).smul (-2 * r 1))).add
    ((h 0 (by omega)).smul (r 1 ^ 2)))).congr (fun x => by ring) (by rw [h0]; ring)
  var_pos := hv

theorem Raw.central3 {f : ℝ → ℝ} {r : ℕ → ℝ} {n : ℕ} (h : Raw f r n) (hn : 3 ≤ n) (h0 : r 0 = 1) :
    HasInt (fun x => (x - r 1) ^ 3 * f x) (r 3 - 3 * r 1 * r 2 + 2 * r 1 ^ 3) :=
  (((((h 3 (by omega)).add ((h 2 (by omega)).smul (-3 * r 1))).add
    ((h 1 (by omega)).smul (3 * r 1 ^ 2)))).add ((h 0 (by omega)).smul (-r 1 ^ 3))).congr
    (fun x => by ring) (by rw [h0]; ring)

theorem Raw.central4 {f : ℝ → ℝ} {r : ℕ → ℝ} {n : ℕ} (h : Raw f r n) (hn : 4 ≤ n) (h0 : r 0 = 1) :
    HasInt (fun x => (x - r 1) ^ 4 * f x) (r 4 - 4 * r 1 * r 3 + 6 * r 1 ^ 2 * r 2 - 3 * r 1 ^ 4) :=
  (((((h 4 (by omega)).add ((h 3 (by omega)).smul (-4 * r 1))).add
    ((h 2 (by omega)).smul (6 * r 1 ^ 2)))).add ((h 1 (by omega)).smul (-4 * r 1 ^ 3))
    |>.add ((h 0 (by omega)).smul (r 1 ^ 4))).congr
    (fun x => by ring) (by rw [h0]; ring)

theorem _root_.Reliability.Spec.MeanVar.locScale {s : Scipy} {m v : ℝ} (h : MeanVar s.pdf m v) (loc scale : ℝ) (hs : 0 < scale) :
    MeanVar (locScale s loc scale).pdf (m * scale + loc) (v * (scale * scale)) where
  total := ((HasInt.affine h.total loc scale hs).smul (1 / scale)).congr
    (fun x => by simp [Distributions.locScale]; ring) (by field_simp)
  mean := by
    have h1 : HasInt (fun z => scale * (z * s.pdf z) + loc * s.pdf z) (scale * m + loc * 1) :=
      (h.mean.smul scale).add (h.total.smul loc)
    refine ((h1.affine loc scale hs).smul (1 / scale)).congr (fun x => ?_) (by field_simp)
    simp only [Distributions.locScale]; field_simp; ring
  var := by
    refine (((h.var.smul (scale ^ 2)).affine loc scale hs).smul (1 / scale)).congr (fun x => ?_)
      (by field_simp)
    simp only [Distributions.locScale]; field_simp; ring
  var_pos := by have := h.var_pos; positivity

theorem skew_locScale {s : Scipy} {m v sk : ℝ} (hv : 0 < v)
    (h : ∃ c, HasInt (fun x => (x - m) ^ 3 * s.pdf x) c ∧ sk = c / v ^ ((3:ℝ) / 2))
    (loc scale : ℝ) (hs : 0 < scale) :
    ∃ c, HasInt (fun x => (x - (m * scale + loc)) ^ 3 * (locScale s loc scale).pdf x) c ∧
      sk = c / (v * (scale * scale)) ^ ((3:ℝ) / 2) := by
  obtain ⟨c, hc, e⟩ := h
  refine ⟨scale ^ 3 * c, ?_, ?_⟩
  · refine (((hc.smul (scale ^ 3)).affine loc scale hs).smul (1 / scale)).congr (fun x => ?_)
      (by field_simp)
    simp only [Distributions.locScale]; field_simp; ring
  · rw [e, Real.mul_rpow hv.le (by positivity), ← pow_two, ← Real.rpow_natCast scale 2,
      ← Real.rpow_mul hs.le, show ((2:ℕ):ℝ) * (3 / 2) = (3:ℕ) by norm_num, Real.rpow_natCast]
    have := (Real.rpow_pos_of_pos hv (3/2)).ne'
    field_simp

theorem _root_.Reliability.Spec.SkewKurt.locScale {s : Scipy} {m v sk k : ℝ} (hv : 0 < v) (h : SkewKurt s.pdf m v sk k)
    (loc scale : ℝ) (hs : 0 < scale) :
    SkewKurt (locScale s loc scale).pdf (m * scale + loc) (v * (scale * scale)) sk k where
  third := skew_locScale hv h.third loc scale hs
  fourth := by
    obtain ⟨c, hc, e⟩ := h.fourth
    refine ⟨scale ^ 4 * c, ?_, ?_⟩
    · refine (((hc.smul (scale ^ 4)).affine loc scale hs).smul (1 / scale)).congr (fun x => ?_)
        (by field_simp)
      simp only [Distributions.locScale]; field_simp; ring
    · rw [e]; field_simp

/-- integrals of functions that vanish on the negative axis -/
theorem hasInt_of_Ioi {g h : ℝ → ℝ} {a : ℝ} (h0 : ∀ x < 0, g x = 0) (he : ∀ x, 0 < x → g x = h x)
    (hi : IntegrableOn h (Set.Ioi 0)) (ha : ∫ x in Set.Ioi 0, h x = a) : HasInt g a := by
  have h1 : IntegrableOn g (Set.Ioi 0) := hi.congr_fun (fun x hx => (he x hx).symm) measurableSet_Ioi
  have h2 : IntegrableOn g (Set.Ici 0) := (integrableOn_Ici_iff_integrableOn_Ioi (by simp)).2 h1
  have hsupp : ∀ x, x ∉ Set.Ici (0:ℝ) → g x = 0 := fun x hx => h0 x (not_le.1 hx)
  refine ⟨?_, ?_⟩
  · rw [← integrableOn_univ]
    exact h2.of_forall_sdiff_eq_zero MeasurableSet.univ (fun x hx => hsupp x hx.2)
  · rw [← setIntegral_eq_integral_of_forall_compl_eq_zero hsupp, integral_Ici_eq_integral_Ioi,
      setIntegral_congr_fun measurableSet_Ioi (fun x hx => he x hx), ha]

theorem hasInt_of_Ioi_ne {g h : ℝ → ℝ} {a : ℝ} (h0 : ∀ x < 0, g x = 0) (he : ∀ x, 0 < x → g x = h x)
    (ha : ∫ x in Set.Ioi 0, h x = a) (hne : a ≠ 0) : HasInt g a :=
  hasInt_of_Ioi h0 he (Integrable.of_integral_ne_zero (by rw [ha]; exact hne)) ha

/-! ## Weibull -/

theorem weibull_raw {c : ℝ} (hc : 0 < c) (n : ℕ) :
    Raw (weibullStd c).pdf (fun k => Real.Gamma (1 + k / c)) n := by
  intro k _
  have hk : (0:ℝ) ≤ k := Nat.cast_nonneg k
  refine hasInt_of_Ioi_ne (h := fun x => c * (x ^ (c - 1 + k) * Real.exp (-(x ^ c)))) ?_ ?_ ?_
    (Real.Gamma_pos_of_pos (by positivity)).ne'
  · intro x hx; simp [weibullStd, hx]
  · intro x hx
    simp only [weibullStd, if_neg (not_lt.2 hx.le)]
    rw [Real.rpow_add hx, Real.rpow_natCast]; ring
  · rw [integral_const_mul, integral_rpow_mul_exp_neg_rpow hc (by linarith)]
    rw [show (c - 1 + k + 1) / c = 1 + k / c by field_simp; ring]
    field_simp

/-! ## Gamma -/

theorem gamma_raw {a : ℝ} (ha : 0 < a) (n : ℕ) :
    Raw (gammaStdPdf a) (fun k => Real.Gamma (a + k) / Real.Gamma a) n := by
  intro k _
  have hk : (0:ℝ) ≤ k := Nat.cast_nonneg k
  have hG := Real.Gamma_pos_of_pos ha
  refine hasInt_of_Ioi (h := fun x => (1 / Real.Gamma a) * (Real.exp (-x) * x ^ (a + k - 1))) ?_ ?_ ?_ ?_
  · intro x hx; simp [gammaStdPdf, hx]
  · intro x hx
    simp only [gammaStdPdf, if_neg (not_lt.2 hx.le)]
    rw [show a + k - 1 = a - 1 + k by ring, Real.rpow_add hx, Real.rpow_natCast]; field_simp
  · exact (Real.GammaIntegral_convergent (by linarith)).const_mul _
  · rw [integral_const_mul, ← Real.Gamma_eq_integral (by linarith)]; field_simp

/-! ## Beta -/

theorem beta_raw {a b : ℝ} (ha : 0 < a) (hb : 0 < b) (n : ℕ) :
    Raw (betaStdPdf a b) (fun k => betaFn (a + k) b / betaFn a b) n := by
  intro k _
  have hk : (0:ℝ) ≤ k := Nat.cast_nonneg k
  have hd := betaStd_density (a := a + k) (b := b) (by linarith) hb
  have hB : 0 < betaFn a b := div_pos (mul_pos (Real.Gamma_pos_of_pos ha) (Real.Gamma_pos_of_pos hb))
    (Real.Gamma_pos_of_pos (by linarith))
  have hB' : 0 < betaFn (a + k) b := div_pos (mul_pos (Real.Gamma_pos_of_pos (by linarith))
    (Real.Gamma_pos_of_pos hb)) (Real.Gamma_pos_of_pos (by linarith))
  have h1 : HasInt (betaStdPdf (a + k) b) 1 := ⟨hd.int, hd.total⟩
  have h2 := h1.smul (betaFn (a + k) b / betaFn a b)
  rw [mul_one] at h2
  refine h2.congr (fun x => ?_) rfl
  simp only [betaStdPdf]
  by_cases hx : x < 0 ∨ 1 < x
  · rw [if_pos hx, if_pos hx]; ring
  · rw [if_neg hx, if_neg hx]
    push Not at hx
    have e : x ^ (a + k - 1) = x ^ k * x ^ (a - 1) := by
      rcases hx.1.eq_or_lt with h | h
      · rcases Nat.eq_zero_or_pos k with hk0 | hk0
        · subst hk0; simp
        · have : (1:ℝ) ≤ k := by exact_mod_cast hk0
          rw [← h, Real.zero_rpow (by linarith), zero_pow (by omega), zero_mul]
      · rw [show a + k - 1 = a - 1 + k by ring, Real.rpow_add h, Real.rpow_natCast]; ring
    rw [e]
    change _ = betaFn (a + k) b / betaFn a b * (x ^ k * x ^ (a - 1) * (1 - x) ^ (b - 1) / betaFn (a + k) b)
    change x ^ k * (x ^ (a - 1) * (1 - x) ^ (b - 1) / betaFn a b) = _
    field_simp

end Reliability.Distributions
