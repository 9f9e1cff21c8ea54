import Verif.Lemmas.Moments3
import Verif.Props.Distributions

/-!
# C80: descriptive attributes (mean, variance, standard deviation, skewness, kurtosis) and
C68: median, b5 and b95
-/

namespace Reliability.Props.Distributions

open Reliability Spec Distributions Filter Topology MeasureTheory

/-- The attributes `A` are all numbers and describe the law with density `f`: `mean` and `variance` are its
mean and variance, `standard_deviation` is the square root of the variance, `skewness` and `kurtosis` are the
standardised third and fourth central moments, and `excess_kurtosis = kurtosis - 3`. -/
def Describes (f : ℝ → ℝ) (A : Attrs) : Prop :=
  ∃ m v s k, A.mean = some m ∧ A.variance = some v ∧ A.standard_deviation = some (Real.sqrt v) ∧
    A.skewness = some s ∧ A.kurtosis = some k ∧ A.excess_kurtosis = some (k - 3) ∧
    MeanVar f m v ∧ SkewKurt f m v s k

/-! ### helper lemmas -/

theorem var_pos_of {f : ℝ → ℝ} {m v : ℝ} (hf : ∀ x, 0 ≤ f x) (h1 : HasInt f 1)
    (hv : HasInt (fun x => (x - m) ^ 2 * f x) v) : 0 < v := by
  have hnn : ∀ x, 0 ≤ (x - m) ^ 2 * f x := fun x => mul_nonneg (sq_nonneg _) (hf x)
  have h0 : 0 ≤ v := by rw [← hv.2]; exact integral_nonneg hnn
  rcases h0.eq_or_lt with h | h
  · exfalso
    have hz := (integral_eq_zero_iff_of_nonneg hnn hv.1).1 (hv.2.trans h.symm)
    have hne : ∀ᵐ x : ℝ, x ≠ m := by
      simp [ae_iff]
    have hf0 : f =ᵐ[volume] 0 := by
      filter_upwards [hz, hne] with x hx hx2
      have : (x - m) ^ 2 ≠ 0 := pow_ne_zero 2 (sub_ne_zero.2 hx2)
      exact (mul_eq_zero.1 hx).resolve_left this
    have := integral_congr_ae hf0
    rw [h1.2] at this
    simp at this
  · exact h

theorem raw_meanVar {f : ℝ → ℝ} {r : ℕ → ℝ} {n : ℕ} (hf : ∀ x, 0 ≤ f x) (h : Raw f r n) (hn : 2 ≤ n)
    (h0 : r 0 = 1) : MeanVar f (r 1) (r 2 - r 1 * r 1) := by
  refine h.meanVar hn h0 (var_pos_of (f := f) (m := r 1) hf ((h 0 (by omega)).congr (by simp) h0.symm) ?_)
  exact ((((h 2 (by omega)).add ((h 1 (by omega)).smul (-2 * r 1))).add
    ((h 0 (by omega)).smul (r 1 ^ 2)))).congr (fun x => by ring) (by rw [h0]; ring)

theorem rpow_three_half {v : ℝ} (hv : 0 < v) : v ^ ((3:ℝ) / 2) = v * Real.sqrt v := by
  rw [show (3:ℝ)/2 = 1 + 1/2 by norm_num, Real.rpow_add hv, Real.rpow_one, Real.sqrt_eq_rpow]

/-- scipy's `stats` of a standard law shifted and scaled. -/
theorem describes_locScale {sc : Scipy} {st : Stats} {loc scale : ℝ} (hs : 0 < scale)
    (hmv : MeanVar sc.pdf st.mean st.var) (hsk : SkewKurt sc.pdf st.mean st.var st.skew (st.kurt + 3)) :
    Describes (locScale sc loc scale).pdf (Attrs.ofStats (st.locScale loc scale)) := by
  refine ⟨_, _, _, _, rfl, rfl, ?_, rfl, rfl, ?_, hmv.locScale loc scale hs,
    hsk.locScale hmv.var_pos loc scale hs⟩
  · simp only [Attrs.ofStats]; rw [Real.sqrt_eq_rpow]; norm_num
  · simp [Attrs.ofStats]

theorem ofRaw_skew {f : ℝ → ℝ} {r : ℕ → ℝ} (h : Raw f r 3) (h0 : r 0 = 1) :
    ∃ c, HasInt (fun x => (x - r 1) ^ 3 * f x) c ∧
      (Stats.ofRaw (r 1) (r 2) (r 3) (r 4)).skew = c / (r 2 - r 1 * r 1) ^ ((3:ℝ)/2) :=
  ⟨_, h.central3 (by omega) h0, by simp only [Stats.ofRaw]; norm_num⟩

theorem ofRaw_kurt {f : ℝ → ℝ} {r : ℕ → ℝ} (h : Raw f r 4) (h0 : r 0 = 1) :
    ∃ c, HasInt (fun x => (x - r 1) ^ 4 * f x) c ∧
      (Stats.ofRaw (r 1) (r 2) (r 3) (r 4)).kurt + 3 = c / (r 2 - r 1 * r 1) ^ 2 :=
  ⟨_, h.central4 (by omega) h0, by simp only [Stats.ofRaw]; ring⟩

theorem Raw.mono {f : ℝ → ℝ} {r : ℕ → ℝ} {m n : ℕ} (h : Raw f r n) (hmn : m ≤ n) : Raw f r m :=
  fun k hk => h k (hk.trans hmn)

/-! ### the eight families -/

/-- **C80.** Weibull. -/
theorem C80_weibull (alpha beta gamma : ℝ) (ha : 0 < alpha) (hb : 0 < beta) :
    Describes (weibull alpha beta gamma).sp.pdf (weibullAttrs alpha beta gamma) := by
  have hr := weibull_raw hb 4
  have hnn : ∀ x, 0 ≤ (weibullStd beta).pdf x := by
    intro x; simp only [weibullStd]; split_ifs with h
    · exact le_rfl
    · have := Real.rpow_nonneg (not_lt.1 h) (beta - 1); positivity
  have h0 : Real.Gamma (1 + ((0:ℕ):ℝ) / beta) = 1 := by simp
  refine describes_locScale ha ?_ ⟨?_, ?_⟩
  · have := raw_meanVar hnn hr (by norm_num) h0
    simpa [weibullStats, Stats.ofRaw] using this
  · have := ofRaw_skew (Raw.mono hr (by norm_num : 3 ≤ 4)) h0
    simpa [weibullStats, Stats.ofRaw] using this
  · have := ofRaw_kurt hr h0
    simpa [weibullStats, Stats.ofRaw] using this

/-- **C80.** Exponential. -/
theorem C80_exponential (Lambda gamma : ℝ) (hl : 0 < Lambda) :
    Describes (exponential Lambda gamma).sp.pdf (exponentialAttrs Lambda gamma) := by
  have hr := weibull_raw one_pos 4
  have hr : Raw exponStd.pdf (fun k => (k.factorial : ℝ)) 4 := by
    rw [exponStd_eq]
    intro k hk
    refine (hr k hk).congr (fun _ => rfl) ?_
    simp only [div_one]; rw [add_comm, Real.Gamma_nat_eq_factorial]
  have hnn : ∀ x, 0 ≤ exponStd.pdf x := by
    intro x; simp only [exponStd]; split_ifs
    · exact le_rfl
    · positivity
  refine describes_locScale (st := exponStats) (by positivity) ?_ ⟨?_, ?_⟩
  · have := raw_meanVar hnn hr (by norm_num) (by simp)
    simp only [exponStats]
    norm_num [Nat.factorial] at this ⊢
    exact this
  · refine ⟨_, Raw.central3 hr (by norm_num) (by simp) |>.congr (fun x => ?_) rfl, ?_⟩
    · simp [exponStats]
    · simp [exponStats]; norm_num [Nat.factorial]
  · refine ⟨_, Raw.central4 hr (by norm_num) (by simp) |>.congr (fun x => ?_) rfl, ?_⟩
    · simp [exponStats]
    · simp [exponStats]; norm_num [Nat.factorial]

/-- **C80.** Normal. -/
theorem C80_normal (mu sigma : ℝ) (hs : 0 < sigma) :
    Describes (normal mu sigma).sp.pdf (normalAttrs mu sigma) := by
  have hr := norm_raw
  have hmv : MeanVar normStd.pdf 0 1 := by
    have := raw_meanVar normStd_density.nonneg hr (by norm_num) (by simp)
    simpa [normStd, ofDensity] using this
  have hsk : SkewKurt normStd.pdf 0 1 0 3 := by
    constructor
    · exact ⟨_, (Raw.central3 hr (by norm_num) (by simp)).congr (fun x => by simp [normStd, ofDensity]) rfl,
        by simp⟩
    · exact ⟨_, (Raw.central4 hr (by norm_num) (by simp)).congr (fun x => by simp [normStd, ofDensity]) rfl,
        by simp⟩
  refine ⟨mu, sigma ^ 2, 0, 3, rfl, rfl, ?_, rfl, rfl, ?_, ?_, ?_⟩
  · simp [normalAttrs, Real.sqrt_sq hs.le]
  · simp [normalAttrs]
  · have := hmv.locScale mu sigma hs
    rw [show 0 * sigma + mu = mu by ring, show 1 * (sigma * sigma) = sigma ^ 2 by ring] at this
    exact this
  · have := hsk.locScale one_pos mu sigma hs
    rw [show 0 * sigma + mu = mu by ring, show 1 * (sigma * sigma) = sigma ^ 2 by ring] at this
    exact this

/-- **C80.** Lognormal. -/
theorem C80_lognormal (mu sigma gamma : ℝ) (hs : 0 < sigma) :
    Describes (lognormal mu sigma gamma).sp.pdf (lognormalAttrs mu sigma gamma) := by
  set q := Real.exp (sigma ^ 2 / 2) with hq
  have hq1 : 1 < q := by rw [hq]; exact Real.one_lt_exp_iff.2 (by positivity)
  have hr : Raw (lognormStd sigma).pdf (fun k => q ^ (k ^ 2)) 4 := by
    intro k hk
    refine (lognorm_raw hs 4 k hk).congr (fun _ => rfl) ?_
    simp only [hq]; rw [← Real.exp_nat_mul]; congr 1; push_cast; ring
  have hp : Real.exp (sigma * sigma) = q ^ 2 := by
    rw [hq, ← Real.exp_nat_mul]; congr 1; push_cast; ring
  have hnn : ∀ x, 0 ≤ (lognormStd sigma).pdf x := by
    intro x; simp only [lognormStd]; split_ifs with h
    · exact le_rfl
    · have := not_le.1 h; have := normStd_density.nonneg (Real.log x / sigma); positivity
  have hstat : lognormStats sigma =
      ⟨q, q ^ 2 * (q ^ 2 - 1), Real.sqrt (q ^ 2 - 1) * (2 + q ^ 2),
        (q ^ 2) ^ 4 + 2 * (q ^ 2) ^ 3 + 3 * (q ^ 2) ^ 2 - 6⟩ := by
    simp only [lognormStats, hp]; rw [Real.sqrt_sq (by linarith)]
  have hv : 0 < q ^ 2 - 1 := by nlinarith
  refine describes_locScale (st := lognormStats sigma) (Real.exp_pos mu) ?_ ⟨?_, ?_⟩ <;> rw [hstat]
  · have := raw_meanVar hnn hr (by norm_num) (by simp)
    simp only at this ⊢
    norm_num at this
    rw [show q ^ 2 * (q ^ 2 - 1) = q ^ 4 - q * q by ring]; exact this
  · refine ⟨_, (Raw.central3 hr (by norm_num) (by simp)).congr (fun x => by simp) rfl, ?_⟩
    simp only
    rw [rpow_three_half (by positivity), Real.sqrt_mul (by positivity), Real.sqrt_sq (by linarith)]
    have h1 := Real.sqrt_pos.2 hv
    have h2 := Real.sq_sqrt hv.le
    rw [eq_div_iff (by positivity)]
    norm_num
    calc Real.sqrt (q ^ 2 - 1) * (2 + q ^ 2) * (q ^ 2 * (q ^ 2 - 1) * (q * Real.sqrt (q ^ 2 - 1)))
        = (Real.sqrt (q ^ 2 - 1)) ^ 2 * ((2 + q ^ 2) * (q ^ 2 * (q ^ 2 - 1) * q)) := by ring
      _ = _ := by rw [h2]; ring
  · refine ⟨_, (Raw.central4 hr (by norm_num) (by simp)).congr (fun x => by simp) rfl, ?_⟩
    simp only
    rw [eq_div_iff (by positivity)]
    norm_num
    ring

/-- **C80.** Gamma. -/
theorem C80_gamma (alpha beta gamma : ℝ) (ha : 0 < alpha) (hb : 0 < beta) :
    Describes (gammaDist alpha beta gamma).sp.pdf (gammaAttrs alpha beta gamma) := by
  have hG := Real.Gamma_pos_of_pos hb
  have e1 : Real.Gamma (beta + 1) = beta * Real.Gamma beta := Real.Gamma_add_one hb.ne'
  have e2 : Real.Gamma (beta + 2) = (beta + 1) * (beta * Real.Gamma beta) := by
    rw [show beta + 2 = (beta + 1) + 1 by ring, Real.Gamma_add_one (by linarith), e1]
  have e3 : Real.Gamma (beta + 3) = (beta + 2) * ((beta + 1) * (beta * Real.Gamma beta)) := by
    rw [show beta + 3 = (beta + 2) + 1 by ring, Real.Gamma_add_one (by linarith), e2]
  have e4 : Real.Gamma (beta + 4) = (beta + 3) * ((beta + 2) * ((beta + 1) * (beta * Real.Gamma beta))) := by
    rw [show beta + 4 = (beta + 3) + 1 by ring, Real.Gamma_add_one (by linarith), e3]
  have hr := gamma_raw hb 4
  have h0 : Real.Gamma (beta + ((0:ℕ):ℝ)) / Real.Gamma beta = 1 := by simp [hG.ne']
  have hm1 : Real.Gamma (beta + ((1:ℕ):ℝ)) / Real.Gamma beta = beta := by
    push_cast; rw [e1]; field_simp
  have hd := gammaStd_density hb
  refine describes_locScale (st := gammaStats beta) ha ?_ ⟨?_, ?_⟩
  · have := raw_meanVar hd.nonneg hr (by norm_num) h0
    simp only [hm1] at this
    simp only [gammaStats, ofDensity]
    convert this using 1
    push_cast; rw [e2]; field_simp; ring
  · refine ⟨_, (Raw.central3 hr (by norm_num) h0).congr (fun x => by simp only [gammaStats, ofDensity, hm1]) rfl, ?_⟩
    simp only [gammaStats, hm1]
    push_cast; rw [e2, e3, rpow_three_half hb]
    have := Real.sqrt_pos.2 hb
    field_simp; ring
  · refine ⟨_, (Raw.central4 hr (by norm_num) h0).congr (fun x => by simp only [gammaStats, ofDensity, hm1]) rfl, ?_⟩
    simp only [gammaStats, hm1]
    push_cast; rw [e2, e3, e4]
    field_simp; ring

/-- **C80.** Beta. -/
theorem C80_beta (alpha beta : ℝ) (ha : 0 < alpha) (hb : 0 < beta) :
    Describes (betaDist alpha beta).sp.pdf (betaAttrs alpha beta) := by
  have hGa := Real.Gamma_pos_of_pos ha
  have hGb := Real.Gamma_pos_of_pos hb
  have hGs := Real.Gamma_pos_of_pos (add_pos ha hb)
  have step : ∀ x, 0 < x → betaFn (x + 1) beta = x / (x + beta) * betaFn x beta := by
    intro x hx
    have h1 := Real.Gamma_pos_of_pos (add_pos hx hb)
    simp only [betaFn]
    rw [Real.Gamma_add_one hx.ne', show x + 1 + beta = x + beta + 1 by ring,
      Real.Gamma_add_one (by positivity)]
    field_simp
  have hB : 0 < betaFn alpha beta := by simp only [betaFn]; positivity
  have e1 := step alpha ha
  have e2 : betaFn (alpha + 2) beta = (alpha + 1) / (alpha + 1 + beta) * (alpha / (alpha + beta) * betaFn alpha beta) := by
    rw [show alpha + 2 = alpha + 1 + 1 by ring, step _ (by linarith), e1]
  have e3 : betaFn (alpha + 3) beta = (alpha + 2) / (alpha + 2 + beta) *
      ((alpha + 1) / (alpha + 1 + beta) * (alpha / (alpha + beta) * betaFn alpha beta)) := by
    rw [show alpha + 3 = alpha + 2 + 1 by ring, step _ (by linarith), e2]
  have e4 : betaFn (alpha + 4) beta = (alpha + 3) / (alpha + 3 + beta) * ((alpha + 2) / (alpha + 2 + beta) *
      ((alpha + 1) / (alpha + 1 + beta) * (alpha / (alpha + beta) * betaFn alpha beta))) := by
    rw [show alpha + 4 = alpha + 3 + 1 by ring, step _ (by linarith), e3]
  have hr := beta_raw ha hb 4
  have h0 : betaFn (alpha + ((0:ℕ):ℝ)) beta / betaFn alpha beta = 1 := by simp [hB.ne']
  have hm1 : betaFn (alpha + ((1:ℕ):ℝ)) beta / betaFn alpha beta = alpha / (alpha + beta) := by
    push_cast; rw [e1]; field_simp
  have hd := betaStd_density ha hb
  have p1 : 0 < alpha + beta := by linarith
  have p2 : 0 < alpha + 1 + beta := by linarith
  have p2' : 0 < alpha + beta + 1 := by linarith
  have p3 : 0 < alpha + 2 + beta := by linarith
  have p4 : 0 < alpha + 3 + beta := by linarith
  have hvar : betaFn (alpha + ((2:ℕ):ℝ)) beta / betaFn alpha beta -
      alpha / (alpha + beta) * (alpha / (alpha + beta)) =
      alpha * beta / ((alpha + beta) ^ 2 * (alpha + beta + 1)) := by
    push_cast; rw [e2]; field_simp; ring
  refine describes_locScale (st := betaStats alpha beta) one_pos ?_ ⟨?_, ?_⟩
  · have := raw_meanVar hd.nonneg hr (by norm_num) h0
    simp only [hm1, hvar] at this
    simpa only [betaStats, ofDensity] using this
  · refine ⟨_, (Raw.central3 hr (by norm_num) h0).congr (fun x => by simp only [betaStats, ofDensity, hm1]) rfl, ?_⟩
    simp only [betaStats, hm1]
    rw [rpow_three_half (by positivity), Real.sqrt_div (by positivity), Real.sqrt_mul (x := (alpha + beta) ^ 2) (by positivity),
      Real.sqrt_sq p1.le, show 1 + alpha + beta = alpha + beta + 1 by ring]
    push_cast; rw [e2, e3]
    have h1 := Real.sqrt_pos.2 (mul_pos ha hb)
    have h2 := Real.sqrt_pos.2 p2'
    have h3 := Real.sq_sqrt p2'.le
    have h4 : 0 < 2 + alpha + beta := by linarith
    field_simp
    ring
  · refine ⟨_, (Raw.central4 hr (by norm_num) h0).congr (fun x => by simp only [betaStats, ofDensity, hm1]) rfl, ?_⟩
    simp only [betaStats, hm1]
    push_cast; rw [e2, e3, e4]
    have p5 : 0 < alpha + beta + 2 := by linarith
    have p6 : 0 < alpha + beta + 3 := by linarith
    field_simp
    ring

/-- **C80.** Gumbel (mean, variance, standard deviation). -/
theorem C80_gumbel (mu sigma : ℝ) (hs : 0 < sigma) :
    MeanVar (gumbel mu sigma).sp.pdf (gumbelMean mu sigma) (gumbelVariance sigma) ∧
    gumbelSd sigma = Real.sqrt (gumbelVariance sigma) := by
  have hnn : ∀ x, 0 ≤ gumbelStd.pdf x := by intro x; simp only [gumbelStd]; positivity
  have h := raw_meanVar hnn gumbel_raw (by norm_num) (by simp)
  have h2 : MeanVar gumbelStd.pdf gumbelMeanVar.1 gumbelMeanVar.2 := by
    simp only [gumbelMeanVar]
    norm_num [GD_one_one, GD_two_one] at h
    rw [show Real.pi ^ 2 / 6 = Real.eulerMascheroniConstant ^ 2 + Real.pi ^ 2 / 6 -
      Real.eulerMascheroniConstant * Real.eulerMascheroniConstant by ring]
    exact h
  refine ⟨h2.locScale mu sigma hs, ?_⟩
  rw [gumbelSd, Real.sqrt_eq_rpow]; norm_num

/-! ### Loglogistic: which moments exist -/

theorem int_raw_of_central {f : ℝ → ℝ} (hf : Integrable f) (m : ℝ) (k : ℕ)
    (h : Integrable (fun x => (x - m) ^ k * f x)) : Integrable (fun x => x ^ k * f x) := by
  refine Integrable.mono' ((h.norm.add (hf.norm.const_mul (|m| ^ k))).const_mul (2 ^ k)) ?_ (ae_of_all _ fun x => ?_)
  · exact (Continuous.aestronglyMeasurable (by fun_prop)).mul hf.aestronglyMeasurable
  · simp only [Pi.add_apply, norm_mul, norm_pow, Real.norm_eq_abs]
    have h1 : |x| ^ k ≤ 2 ^ k * (|x - m| ^ k + |m| ^ k) := by
      have h2 : |x| ≤ 2 * max |x - m| |m| := by
        have : |x| ≤ |x - m| + |m| := by
          have := abs_add_le (x - m) m; simpa using this
        linarith [le_max_left |x - m| |m|, le_max_right |x - m| |m|]
      calc |x| ^ k ≤ (2 * max |x - m| |m|) ^ k := pow_le_pow_left₀ (abs_nonneg _) h2 k
        _ = 2 ^ k * (max |x - m| |m|) ^ k := mul_pow _ _ _
        _ ≤ _ := by
            refine mul_le_mul_of_nonneg_left ?_ (by positivity)
            rcases max_choice |x - m| |m| with h3 | h3 <;> rw [h3]
            · have := pow_nonneg (abs_nonneg m) k; linarith
            · have := pow_nonneg (abs_nonneg (x - m)) k; linarith
    calc |x| ^ k * |f x| ≤ 2 ^ k * (|x - m| ^ k + |m| ^ k) * |f x| :=
          mul_le_mul_of_nonneg_right h1 (abs_nonneg _)
      _ = _ := by ring

theorem fisk_pdf_nonneg {c : ℝ} (hc : 0 < c) (x : ℝ) : 0 ≤ (fiskStd c).pdf x := by
  simp only [fiskStd]; split_ifs with h
  · exact le_rfl
  · have h1 := Real.rpow_nonneg (not_lt.1 h) (c - 1)
    have h2 := Real.rpow_nonneg (not_lt.1 h) c
    positivity

theorem loglogistic_no_moment {alpha beta : ℝ} (gamma : ℝ) (ha : 0 < alpha) (hb : 0 < beta) (k : ℕ)
    (hk : beta ≤ k) (m : ℝ) :
    ¬ Integrable (fun x => (x - m) ^ k * (loglogistic alpha beta gamma).sp.pdf x) := by
  intro h
  refine fisk_not_int hb k hk (int_raw_of_central ?_ ((m - gamma) / alpha) k ?_)
  · have := (fisk_hasInt hb 0 (by simpa using hb)).1
    simpa using this
  · have h1 : Integrable (fun z => (fun x => (x - m) ^ k * (loglogistic alpha beta gamma).sp.pdf x) (z + gamma)) :=
      h.comp_add_right gamma
    have h2 : Integrable (fun z => (fun x => (x - m) ^ k * (loglogistic alpha beta gamma).sp.pdf x) (z * alpha + gamma)) :=
      h1.comp_mul_right' ha.ne'
    refine (h2.const_mul (alpha / alpha ^ k)).congr (ae_of_all _ fun z => ?_)
    simp only [loglogistic, locScale]
    rw [show z * alpha + gamma - gamma = z * alpha by ring, mul_div_assoc, div_self ha.ne', mul_one,
      show z * alpha + gamma - m = alpha * (z - (m - gamma) / alpha) by field_simp; ring, mul_pow]
    field_simp

theorem fisk_raw {c : ℝ} (hc : 0 < c) (n : ℕ) (hn : (n:ℝ) < c) :
    Raw (fiskStd c).pdf (fun k => betaFn (1 + k / c) (1 - k / c)) n := by
  intro k hk
  have : (k:ℝ) ≤ n := by exact_mod_cast hk
  exact fisk_hasInt hc k (by linarith)

/-- **C80.** Loglogistic: each attribute is the moment it names when that moment exists, and is the text
"no mean…" (modelled `none`) exactly when the integral diverges. -/
theorem C80_loglogistic (alpha beta gamma : ℝ) (ha : 0 < alpha) (hb : 0 < beta) :
    let f := (loglogistic alpha beta gamma).sp.pdf
    let A := loglogisticAttrs alpha beta gamma
    (1 < beta → ∃ m, A.mean = some m ∧ HasInt f 1 ∧ HasInt (fun x => x * f x) m) ∧
    (2 < beta → ∃ m v, A.mean = some m ∧ A.variance = some v ∧
      A.standard_deviation = some (Real.sqrt v) ∧ MeanVar f m v) ∧
    (3 < beta → ∃ m v s c, A.mean = some m ∧ A.variance = some v ∧ A.skewness = some s ∧
      HasInt (fun x => (x - m) ^ 3 * f x) c ∧ s = c / v ^ ((3:ℝ) / 2)) ∧
    (4 < beta → Describes f A) ∧
    (beta ≤ 1 → A.mean = none ∧ ¬ Integrable (fun x => x * f x)) ∧
    (beta ≤ 2 → A.variance = none ∧ A.standard_deviation = none ∧
      ∀ m, ¬ Integrable (fun x => (x - m) ^ 2 * f x)) ∧
    (beta ≤ 3 → A.skewness = none ∧ ∀ m, ¬ Integrable (fun x => (x - m) ^ 3 * f x)) ∧
    (beta ≤ 4 → A.kurtosis = none ∧ A.excess_kurtosis = none ∧
      ∀ m, ¬ Integrable (fun x => (x - m) ^ 4 * f x)) := by
  intro f A
  have h0 : betaFn (1 + ((0:ℕ):ℝ) / beta) (1 - ((0:ℕ):ℝ) / beta) = 1 := by
    simp [betaFn]; rw [one_add_one_eq_two, Real.Gamma_two]
  have hno := loglogistic_no_moment gamma ha hb
  have hmv : 2 < beta → MeanVar (fiskStd beta).pdf (fiskStats beta).mean (fiskStats beta).var := by
    intro h
    have := raw_meanVar (fisk_pdf_nonneg hb) (fisk_raw hb 2 (by exact_mod_cast h)) le_rfl h0
    simpa [fiskStats, Stats.ofRaw] using this
  have hsk : 3 < beta → ∃ c, HasInt (fun x => (x - (fiskStats beta).mean) ^ 3 * (fiskStd beta).pdf x) c ∧
      (fiskStats beta).skew = c / (fiskStats beta).var ^ ((3:ℝ)/2) := by
    intro h
    have := ofRaw_skew (fisk_raw hb 3 (by exact_mod_cast h)) h0
    simpa [fiskStats, Stats.ofRaw] using this
  have hku : 4 < beta → ∃ c, HasInt (fun x => (x - (fiskStats beta).mean) ^ 4 * (fiskStd beta).pdf x) c ∧
      (fiskStats beta).kurt + 3 = c / (fiskStats beta).var ^ 2 := by
    intro h
    have := ofRaw_kurt (fisk_raw hb 4 (by exact_mod_cast h)) h0
    simpa [fiskStats, Stats.ofRaw] using this
  have sqrt_eq : ∀ v : ℝ, v ^ (0.5:ℝ) = Real.sqrt v := by
    intro v; rw [Real.sqrt_eq_rpow]; norm_num
  refine ⟨fun h => ?_, fun h => ?_, fun h => ?_, fun h => ?_, fun h => ?_, fun h => ?_, fun h => ?_, fun h => ?_⟩
  · refine ⟨((fiskStats beta).locScale gamma alpha).mean, by simp [A, loglogisticAttrs, h], ?_, ?_⟩
    · have t : HasInt (fiskStd beta).pdf 1 := by
        refine (fisk_hasInt hb 0 (by simpa using hb)).congr (fun x => by simp) ?_
        rw [h0]
      exact ((t.affine gamma alpha ha).smul (1 / alpha)).congr
        (fun x => by simp [f, loglogistic, Distributions.locScale]; ring) (by field_simp)
    · have t : HasInt (fiskStd beta).pdf 1 := by
        refine (fisk_hasInt hb 0 (by simpa using hb)).congr (fun x => by simp) ?_
        rw [h0]
      have t1 : HasInt (fun z => z * (fiskStd beta).pdf z) (fiskStats beta).mean := by
        refine (fisk_hasInt hb 1 (by simpa using h)).congr (fun x => by simp) ?_
        simp [fiskStats, Stats.ofRaw]
      refine ((((t1.smul alpha).add (t.smul gamma)).affine gamma alpha ha).smul (1 / alpha)).congr
        (fun x => ?_) ?_
      · simp only [f, loglogistic, Distributions.locScale]; field_simp; ring
      · simp only [Stats.locScale]; field_simp
  · exact ⟨_, _, by simp [A, loglogisticAttrs, show 1 < beta by linarith]; rfl,
      by simp [A, loglogisticAttrs, h]; rfl, by simp only [A, loglogisticAttrs, if_pos h, sqrt_eq]; rfl,
      (hmv h).locScale gamma alpha ha⟩
  · have h2 := hmv (by linarith)
    obtain ⟨c, hc, e⟩ := skew_locScale h2.var_pos (hsk h) gamma alpha ha
    exact ⟨_, _, _, c, by simp [A, loglogisticAttrs, show 1 < beta by linarith]; rfl,
      by simp [A, loglogisticAttrs, show 2 < beta by linarith]; rfl,
      by simp [A, loglogisticAttrs, h]; rfl, hc, e⟩
  · have h2 := hmv (by linarith)
    have h3 := SkewKurt.locScale h2.var_pos ⟨hsk (by linarith), hku h⟩ gamma alpha ha
    refine ⟨_, _, _, _, by simp [A, loglogisticAttrs, show 1 < beta by linarith]; rfl,
      by simp [A, loglogisticAttrs, show 2 < beta by linarith]; rfl,
      by simp only [A, loglogisticAttrs, if_pos (show beta > 2 by linarith), sqrt_eq]; rfl,
      by simp [A, loglogisticAttrs, show 3 < beta by linarith]; rfl,
      by simp [A, loglogisticAttrs, h]; rfl, by simp [A, loglogisticAttrs, h]; rfl,
      h2.locScale gamma alpha ha, h3⟩
  · refine ⟨by simp [A, loglogisticAttrs, not_lt.2 h], ?_⟩
    have := hno 1 (by simpa using h) 0
    simpa using this
  · exact ⟨by simp [A, loglogisticAttrs, not_lt.2 h], by simp [A, loglogisticAttrs, not_lt.2 h],
      hno 2 (by exact_mod_cast h)⟩
  · exact ⟨by simp [A, loglogisticAttrs, not_lt.2 h], hno 3 (by exact_mod_cast h)⟩
  · exact ⟨by simp [A, loglogisticAttrs, not_lt.2 h], by simp [A, loglogisticAttrs, not_lt.2 h],
      hno 4 (by exact_mod_cast h)⟩

example : Describes (weibull 50 2 10).sp.pdf (weibullAttrs 50 2 10) :=
  C80_weibull 50 2 10 (by norm_num) (by norm_num)

example : (exponentialAttrs 0.1 5).mean = some 15 := by
  simp [exponentialAttrs, Attrs.ofStats, Stats.locScale, exponStats]; norm_num

/-! ## C68: median, b5, b95 of all eight families -/

/-- **C68.** For any family whose `quantile` inverts its `CDF` (C34, all eight): `median`, `b5` and `b95` are
the points where the CDF is 0.5, 0.05 and 0.95, and `b5 < median < b95`. -/
theorem C68_percentiles (d : Dist) (D : Set ℝ) (law : QuantileLaw D d.sp.cdf d.sp.sf d.sp.ppf d.sp.isf)
    (hm : Monotone d.sp.cdf) :
    d.sp.cdf (medianOf d) = 1 / 2 ∧ d.sp.cdf (b5Of d) = 5 / 100 ∧ d.sp.cdf (b95Of d) = 95 / 100 ∧
    b5Of d < medianOf d ∧ medianOf d < b95Of d := by
  have h1 := law.cdf_quantile 0.5 (by norm_num) (by norm_num)
  have h2 := law.cdf_quantile 0.05 (by norm_num) (by norm_num)
  have h3 := law.cdf_quantile 0.95 (by norm_num) (by norm_num)
  refine ⟨by rw [medianOf, h1]; norm_num, by rw [b5Of, h2]; norm_num, by rw [b95Of, h3]; norm_num, ?_, ?_⟩
  · refine lt_of_not_ge fun h => ?_
    have := hm h; simp only [medianOf, b5Of, h1, h2] at this; norm_num at this
  · refine lt_of_not_ge fun h => ?_
    have := hm h; simp only [medianOf, b95Of, h1, h3] at this; norm_num at this

example : (weibull 50 2 10).sp.cdf (medianOf (weibull 50 2 10)) = 1 / 2 :=
  (C68_percentiles _ _ (C34_weibull 50 2 10 (by norm_num) (by norm_num))
    (C33_weibull 50 2 10 (by norm_num) (by norm_num)).1.mono).1

/-! ## C69: mean residual life -/

/-- Tail integration: for a density `f ≥ 0` with tail function `S` and finite mean,
`∫_t^∞ S = ∫_t^∞ (x - t) f(x) dx`. -/
theorem tail_integral {f S : ℝ → ℝ} (hf : ∀ x, 0 ≤ f x) (hi : Integrable f)
    (hS : ∀ x, S x = ∫ y in Set.Ioi x, f y) (t : ℝ) (hx : IntegrableOn (fun x => x * f x) (Set.Ioi t)) :
    ∫ x in Set.Ioi t, S x = ∫ x in Set.Ioi t, (x - t) * f x := by
  set μ : Measure ℝ := volume.withDensity (fun x => ENNReal.ofReal (f x)) with hμ
  have hfm : AEMeasurable (fun x => ENNReal.ofReal (f x)) := hi.aestronglyMeasurable.aemeasurable.ennreal_ofReal
  haveI : IsFiniteMeasure μ := by
    refine isFiniteMeasure_withDensity ?_
    exact (hi.lintegral_lt_top).ne
  have hint : ∀ g : ℝ → ℝ, ∫ x, g x ∂μ = ∫ x, f x * g x := by
    intro g
    rw [hμ, integral_withDensity_eq_integral_toReal_smul₀ hfm (ae_of_all _ fun _ => ENNReal.ofReal_lt_top)]
    refine integral_congr_ae (ae_of_all _ fun x => ?_)
    simp [ENNReal.toReal_ofReal (hf x)]
  set g : ℝ → ℝ := (Set.Ioi t).indicator (fun x => x - t) with hg
  have hg0 : ∀ x, 0 ≤ g x := by
    intro x; simp only [hg, Set.indicator]; split_ifs with h
    · exact (sub_pos.2 h).le
    · exact le_rfl
  have hgi : Integrable g μ := by
    rw [hμ, integrable_withDensity_iff_integrable_smul₀' hfm (ae_of_all _ fun _ => ENNReal.ofReal_lt_top)]
    have h1 : IntegrableOn (fun x => x * f x - t * f x) (Set.Ioi t) := hx.sub (hi.integrableOn.const_mul t)
    refine ((integrable_indicator_iff measurableSet_Ioi).2 h1).congr (ae_of_all _ fun x => ?_)
    simp only [hg, Set.indicator, ENNReal.toReal_ofReal (hf x), smul_eq_mul]
    split_ifs <;> ring
  have hlay := hgi.integral_eq_integral_meas_lt (ae_of_all _ hg0)
  rw [hint] at hlay
  have hl : ∫ x, f x * g x = ∫ x in Set.Ioi t, (x - t) * f x := by
    rw [← integral_indicator measurableSet_Ioi]
    congr 1; funext x
    simp only [hg, Set.indicator]; split_ifs <;> ring
  have hset : ∀ s ∈ Set.Ioi (0:ℝ), μ.real {a | s < g a} = S (s + t) := by
    intro s hs
    have hs' : (0:ℝ) < s := hs
    have e : {a | s < g a} = Set.Ioi (s + t) := by
      ext a
      simp only [hg, Set.indicator, Set.mem_setOf_eq, Set.mem_Ioi]
      split_ifs with h
      · constructor <;> intro h' <;> linarith
      · constructor <;> intro h' <;> linarith
    rw [e, hS, Measure.real, hμ, withDensity_apply _ measurableSet_Ioi,
      ← integral_eq_lintegral_of_nonneg_ae (ae_of_all _ hf) hi.aestronglyMeasurable.restrict]
  rw [setIntegral_congr_fun measurableSet_Ioi hset] at hlay
  rw [← hl, hlay]
  have h1 := integral_add_right_eq_self ((Set.Ioi t).indicator S) t (μ := (volume : Measure ℝ))
  rw [integral_indicator measurableSet_Ioi] at h1
  rw [← h1, ← integral_indicator measurableSet_Ioi]
  congr 1; funext x
  simp only [Set.indicator, Set.mem_Ioi]
  by_cases hx0 : 0 < x
  · rw [if_pos hx0, if_pos (by linarith)]
  · rw [if_neg hx0, if_neg (by linarith)]

theorem tail_locScale {s : Scipy} (h : ∀ z, s.sf z = ∫ y in Set.Ioi z, s.pdf y) (loc scale : ℝ)
    (hs : 0 < scale) (x : ℝ) :
    (locScale s loc scale).sf x = ∫ y in Set.Ioi x, (locScale s loc scale).pdf y := by
  simp only [locScale]
  rw [h, ← integral_indicator measurableSet_Ioi, ← integral_indicator measurableSet_Ioi]
  have e : (fun y => (Set.Ioi x).indicator (fun y => s.pdf ((y - loc) / scale) / scale) y) =
      fun y => (fun w => (Set.Ioi ((x - loc) / scale)).indicator s.pdf (w / scale) / scale) (y - loc) := by
    funext y
    simp only [Set.indicator, Set.mem_Ioi]
    by_cases hy : x < y
    · rw [if_pos hy, if_pos (by gcongr)]
    · rw [if_neg hy, if_neg (by rw [not_lt] at hy ⊢; gcongr)]; simp
  rw [e, integral_sub_right_eq_self (fun w => (Set.Ioi ((x - loc) / scale)).indicator s.pdf (w / scale) / scale) loc,
    integral_div, Measure.integral_comp_div, abs_of_pos hs, smul_eq_mul]
  field_simp

theorem tail_of_laws {f F S : ℝ → ℝ} (law : SurvivalLaw F S) (hd : ∀ x, 0 < x → HasDerivAt F (f x) x)
    (hf : ∀ x, 0 ≤ f x) (hF : ∀ x ≤ 0, F x = 0) (hf0 : ∀ x < 0, f x = 0) (x : ℝ) :
    S x = ∫ y in Set.Ioi x, f y := by
  have hpos : ∀ a, 0 ≤ a → IntegrableOn f (Set.Ioi a) ∧ ∫ y in Set.Ioi a, f y = 1 - F a := by
    intro a ha
    exact ⟨integrableOn_Ioi_deriv_of_nonneg law.cont.continuousWithinAt
      (fun y hy => hd y (lt_of_le_of_lt ha hy)) (fun y _ => hf y) law.top,
      integral_Ioi_of_hasDerivAt_of_nonneg law.cont.continuousWithinAt
      (fun y hy => hd y (lt_of_le_of_lt ha hy)) (fun y _ => hf y) law.top⟩
  have hc := law.compl x
  rcases le_or_gt 0 x with h | h
  · rw [(hpos x h).2]; linarith
  · have hz : ∀ᵐ y ∂(volume.restrict (Set.Ioc x 0)), f y = 0 := by
      have hne : ∀ᵐ y : ℝ, y ≠ 0 := by simp [ae_iff]
      refine (ae_restrict_iff' measurableSet_Ioc).2 ?_
      filter_upwards [hne] with y hy hmem
      exact hf0 y (lt_of_le_of_ne hmem.2 hy)
    have hi1 : IntegrableOn f (Set.Ioc x 0) := (integrable_zero _ _ _).congr (by
      filter_upwards [hz] with y hy using hy.symm)
    rw [← Set.Ioc_union_Ioi_eq_Ioi h.le, setIntegral_union (Set.Ioc_disjoint_Ioi le_rfl) measurableSet_Ioi hi1
      (hpos 0 le_rfl).1, integral_eq_zero_of_ae hz, (hpos 0 le_rfl).2, hF 0 le_rfl]
    have := hF x h.le; linarith

theorem weibullStd_tail {c : ℝ} (hc : 0 < c) (z : ℝ) :
    (weibullStd c).sf z = ∫ y in Set.Ioi z, (weibullStd c).pdf y := by
  refine tail_of_laws (weibullStd_survival hc) (fun x hx => (weibullStd_hazard c).density x hx) ?_ ?_ ?_ z
  · intro x; simp only [weibullStd]; split_ifs with h
    · exact le_rfl
    · have := Real.rpow_nonneg (not_lt.1 h) (c - 1); positivity
  · intro x hx; simp [weibullStd, hx]
  · intro x hx; simp [weibullStd, hx]

theorem fiskStd_tail {c : ℝ} (hc : 0 < c) (z : ℝ) :
    (fiskStd c).sf z = ∫ y in Set.Ioi z, (fiskStd c).pdf y := by
  refine tail_of_laws (fiskStd_survival hc) (fun x hx => (fiskStd_hazard c).density x hx)
    (fisk_pdf_nonneg hc) ?_ ?_ z
  · intro x hx; simp [fiskStd, hx]
  · intro x hx; simp [fiskStd, hx]

theorem lognormStd_tail {s : ℝ} (hs : 0 < s) (z : ℝ) :
    (lognormStd s).sf z = ∫ y in Set.Ioi z, (lognormStd s).pdf y := by
  refine tail_of_laws (lognormStd_survival hs) (fun x hx => lognormStd_density x hx) ?_ ?_ ?_ z
  · intro x; simp only [lognormStd]; split_ifs with h
    · exact le_rfl
    · have := not_le.1 h; have := normStd_density.nonneg (Real.log x / s); positivity
  · intro x hx; simp [lognormStd, hx]
  · intro x hx; simp [lognormStd, hx.le]

theorem gumbelStd_tail (z : ℝ) : gumbelStd.sf z = ∫ y in Set.Ioi z, gumbelStd.pdf y := by
  have law := gumbelStd_survival
  rw [integral_Ioi_of_hasDerivAt_of_nonneg (g := gumbelStd.cdf) (l := 1) law.cont.continuousWithinAt
      (fun y _ => gumbelStd_hazard.density y trivial) (fun y _ => by simp only [gumbelStd]; positivity) law.top]
  have := law.compl z; linarith

/-- **C69.** `mean_residual_life(t)` is the conditional expectation of the remaining life,
`E(X - t | X > t) = ∫_t^∞ (x-t) f(x) dx / ∫_t^∞ f(x) dx`. -/
def IsMeanResidualLife (d : Dist) : Prop :=
  ∀ t, meanResidualLife d t = (∫ x in Set.Ioi t, (x - t) * d.sp.pdf x) / (∫ x in Set.Ioi t, d.sp.pdf x)

theorem mrl_of {d : Dist} {m : ℝ} (hf : ∀ x, 0 ≤ d.sp.pdf x) (hmv : HasInt d.sp.pdf 1)
    (hm : HasInt (fun x => x * d.sp.pdf x) m) (hS : ∀ x, d.sp.sf x = ∫ y in Set.Ioi x, d.sp.pdf y) :
    IsMeanResidualLife d := by
  intro t
  rw [meanResidualLife, tail_integral hf hmv.1 hS t hm.1.integrableOn, hS t]

theorem locScale_nonneg {s : Scipy} (h : ∀ z, 0 ≤ s.pdf z) (loc scale : ℝ) (hs : 0 < scale) (x : ℝ) :
    0 ≤ (locScale s loc scale).pdf x := div_nonneg (h _) hs.le

/-- **C69.** `mean_residual_life` of all eight distributions (Loglogistic: when the mean exists). -/
theorem C69_mean_residual_life (a b g mu : ℝ) (ha : 0 < a) (hb : 0 < b) :
    IsMeanResidualLife (weibull a b g) ∧ IsMeanResidualLife (exponential a g) ∧
    IsMeanResidualLife (normal mu a) ∧ IsMeanResidualLife (lognormal mu a g) ∧
    IsMeanResidualLife (gammaDist a b g) ∧ IsMeanResidualLife (betaDist a b) ∧
    IsMeanResidualLife (gumbel mu a) ∧ (1 < b → IsMeanResidualLife (loglogistic a b g)) := by
  refine ⟨?_, ?_, ?_, ?_, ?_, ?_, ?_, fun h1 => ?_⟩
  · obtain ⟨m, v, s, k, -, -, -, -, -, -, h, -⟩ := C80_weibull a b g ha hb
    refine mrl_of (locScale_nonneg (fun z => ?_) _ _ ha) h.total h.mean (tail_locScale (weibullStd_tail hb) _ _ ha)
    simp only [weibullStd]; split_ifs with h
    · exact le_rfl
    · have := Real.rpow_nonneg (not_lt.1 h) (b - 1); positivity
  · obtain ⟨m, v, s, k, -, -, -, -, -, -, h, -⟩ := C80_exponential a g ha
    refine mrl_of (locScale_nonneg (fun z => ?_) _ _ (by positivity)) h.total h.mean
      (tail_locScale (fun z => ?_) _ _ (by positivity))
    · simp only [exponStd]; split_ifs
      · exact le_rfl
      · positivity
    · rw [exponStd_eq]; exact weibullStd_tail one_pos z
  · obtain ⟨m, v, s, k, -, -, -, -, -, -, h, -⟩ := C80_normal mu a ha
    exact mrl_of (locScale_nonneg normStd_density.nonneg _ _ ha) h.total h.mean
      (tail_locScale (fun _ => rfl) _ _ ha)
  · obtain ⟨m, v, s, k, -, -, -, -, -, -, h, -⟩ := C80_lognormal mu a g ha
    refine mrl_of (locScale_nonneg (fun x => ?_) _ _ (Real.exp_pos _)) h.total h.mean
      (tail_locScale (lognormStd_tail ha) _ _ (Real.exp_pos _))
    simp only [lognormStd]; split_ifs with h
    · exact le_rfl
    · have := not_le.1 h; have := normStd_density.nonneg (Real.log x / a); positivity
  · obtain ⟨m, v, s, k, -, -, -, -, -, -, h, -⟩ := C80_gamma a b g ha hb
    exact mrl_of (locScale_nonneg (gammaStd_density hb).nonneg _ _ ha) h.total h.mean
      (tail_locScale (fun _ => rfl) _ _ ha)
  · obtain ⟨m, v, s, k, -, -, -, -, -, -, h, -⟩ := C80_beta a b ha hb
    exact mrl_of (locScale_nonneg (betaStd_density ha hb).nonneg _ _ one_pos) h.total h.mean
      (tail_locScale (fun _ => rfl) _ _ one_pos)
  · have h := (C80_gumbel mu a ha).1
    exact mrl_of (locScale_nonneg (fun z => by simp only [gumbelStd]; positivity) _ _ ha) h.total h.mean
      (tail_locScale gumbelStd_tail _ _ ha)
  · obtain ⟨m, -, ht, hm⟩ := (C80_loglogistic a b g ha hb).1 h1
    exact mrl_of (locScale_nonneg (fisk_pdf_nonneg hb) _ _ ha) ht hm (tail_locScale (fiskStd_tail hb) _ _ ha)

/-- **C69.** Before the support begins (in particular at `t = 0` for an unshifted distribution) the mean
residual life is the mean less the time already passed. -/
theorem C69_from_start (d : Dist) (m t : ℝ) (law : IsMeanResidualLife d) (ht : HasInt d.sp.pdf 1)
    (hm : HasInt (fun x => x * d.sp.pdf x) m) (h0 : ∀ x < t, d.sp.pdf x = 0) :
    meanResidualLife d t = m - t := by
  have hc : ∀ (g : ℝ → ℝ), (∀ x < t, g x = 0) → ∫ x in Set.Ioi t, g x = ∫ x, g x := by
    intro g hg
    rw [← integral_Ici_eq_integral_Ioi]
    exact setIntegral_eq_integral_of_forall_compl_eq_zero (fun x hx => hg x (not_le.1 hx))
  rw [law t, hc _ h0, hc _ (fun x hx => by rw [h0 x hx, mul_zero]), ht.2, div_one]
  have : (fun x => (x - t) * d.sp.pdf x) = fun x => x * d.sp.pdf x - t * d.sp.pdf x := by funext x; ring
  rw [this, integral_sub hm.1 (ht.1.const_mul t), hm.2, integral_const_mul, ht.2, mul_one]

example : meanResidualLife (weibull 50 2 10) 4 = (Real.Gamma (1 + 1 / 2) * 50 + 10) - 4 := by
  obtain ⟨m, v, s, k, e, -, -, -, -, -, h, -⟩ := C80_weibull 50 2 10 (by norm_num) (by norm_num)
  simp only [weibullAttrs, Attrs.ofStats, Stats.locScale, weibullStats, Stats.ofRaw, Option.some.injEq] at e
  rw [e]
  refine C69_from_start _ m 4 (C69_mean_residual_life 50 2 10 0 (by norm_num) (by norm_num)).1 h.total h.mean ?_
  intro x hx
  simp only [weibull, locScale, weibullStd]
  rw [if_pos (by have : x - 10 < 0 := by linarith
                 exact div_neg_of_neg_of_pos this (by norm_num))]
  simp

end Reliability.Props.Distributions
