import Mathlib.Analysis.SpecialFunctions.Pow.NNReal
import Mathlib.Analysis.SpecialFunctions.ImproperIntegrals
import Verif.Lemmas.Density
import Verif.Lemmas.NumPy

/-!
# Properties of the eight distributions (C33–C36, C68, C69)
-/

namespace Reliability.Props.Distributions

open Reliability Reliability.Distributions Spec Filter Topology MeasureTheory

/-! ## C33: CDF and SF -/

theorem below_loc {s : Scipy} (h : ∀ z ≤ 0, s.cdf z = 0 ∧ s.sf z = 1) {loc scale : ℝ} (hs : 0 < scale)
    (x : ℝ) (hx : x ≤ loc) : (locScale s loc scale).cdf x = 0 ∧ (locScale s loc scale).sf x = 1 := by
  apply h
  exact div_nonpos_of_nonpos_of_nonneg (by linarith) hs.le

/-- **C33 (Weibull).** -/
theorem C33_weibull (alpha beta gamma : ℝ) (ha : 0 < alpha) (hb : 0 < beta) :
    SurvivalLaw (weibull alpha beta gamma).sp.cdf (weibull alpha beta gamma).sp.sf ∧
    ∀ x ≤ gamma, (weibull alpha beta gamma).sp.cdf x = 0 ∧ (weibull alpha beta gamma).sp.sf x = 1 :=
  ⟨(weibullStd_survival hb).locScale gamma alpha ha,
    below_loc (fun z hz => by simp [weibullStd, hz]) ha⟩

/-- **C33 (Exponential).** -/
theorem C33_exponential (Lambda gamma : ℝ) (hl : 0 < Lambda) :
    SurvivalLaw (exponential Lambda gamma).sp.cdf (exponential Lambda gamma).sp.sf ∧
    ∀ x ≤ gamma, (exponential Lambda gamma).sp.cdf x = 0 ∧ (exponential Lambda gamma).sp.sf x = 1 := by
  have h : SurvivalLaw exponStd.cdf exponStd.sf := by rw [exponStd_eq]; exact weibullStd_survival one_pos
  exact ⟨h.locScale gamma (1 / Lambda) (by positivity),
    below_loc (fun z hz => by simp [exponStd, hz]) (by positivity)⟩

/-- **C33 (Loglogistic).** -/
theorem C33_loglogistic (alpha beta gamma : ℝ) (ha : 0 < alpha) (hb : 0 < beta) :
    SurvivalLaw (loglogistic alpha beta gamma).sp.cdf (loglogistic alpha beta gamma).sp.sf ∧
    ∀ x ≤ gamma, (loglogistic alpha beta gamma).sp.cdf x = 0 ∧
      (loglogistic alpha beta gamma).sp.sf x = 1 :=
  ⟨(fiskStd_survival hb).locScale gamma alpha ha,
    below_loc (fun z hz => by simp [fiskStd, hz]) ha⟩

/-- **C33 (Gumbel).** -/
theorem C33_gumbel (mu sigma : ℝ) (hs : 0 < sigma) :
    SurvivalLaw (gumbel mu sigma).sp.cdf (gumbel mu sigma).sp.sf :=
  gumbelStd_survival.locScale mu sigma hs

/-- **C33 (Normal).** -/
theorem C33_normal (mu sigma : ℝ) (hs : 0 < sigma) :
    SurvivalLaw (normal mu sigma).sp.cdf (normal mu sigma).sp.sf :=
  SurvivalLaw.locScale (s := normStd) normStd_density.survival mu sigma hs

/-- **C33 (Lognormal).** -/
theorem C33_lognormal (mu sigma gamma : ℝ) (hs : 0 < sigma) :
    SurvivalLaw (lognormal mu sigma gamma).sp.cdf (lognormal mu sigma gamma).sp.sf ∧
    ∀ x ≤ gamma, (lognormal mu sigma gamma).sp.cdf x = 0 ∧ (lognormal mu sigma gamma).sp.sf x = 1 :=
  ⟨(lognormStd_survival hs).locScale gamma _ (Real.exp_pos mu),
    below_loc (fun z hz => by simp [lognormStd, hz]) (Real.exp_pos mu)⟩

theorem density_below {f : ℝ → ℝ} {D : Set ℝ} (h : DensityOn D f) {a : ℝ} (hD : ∀ x ∈ D, a < x) (z : ℝ)
    (hz : z ≤ a) : (ofDensity f).cdf z = 0 ∧ (ofDensity f).sf z = 1 := by
  have h0 : (ofDensity f).cdf z = 0 := by
    simp only [ofDensity]
    refine integral_eq_zero_of_ae ?_
    filter_upwards [ae_restrict_mem measurableSet_Iic, ae_restrict_of_ae h.null] with y hy hn
    exact hn fun hyD => absurd (hD y hyD) (not_lt.2 (le_trans hy hz))
  exact ⟨h0, by have := h.compl z; linarith⟩

/-- **C33 (Gamma).** -/
theorem C33_gamma (alpha beta gamma : ℝ) (ha : 0 < alpha) (hb : 0 < beta) :
    SurvivalLaw (gammaDist alpha beta gamma).sp.cdf (gammaDist alpha beta gamma).sp.sf ∧
    ∀ x ≤ gamma, (gammaDist alpha beta gamma).sp.cdf x = 0 ∧ (gammaDist alpha beta gamma).sp.sf x = 1 :=
  ⟨(gammaStd_density hb).survival.locScale gamma alpha ha,
    below_loc (density_below (gammaStd_density hb) fun _ h => h) ha⟩

/-- **C33 (Beta).** -/
theorem C33_beta (alpha beta : ℝ) (ha : 0 < alpha) (hb : 0 < beta) :
    SurvivalLaw (betaDist alpha beta).sp.cdf (betaDist alpha beta).sp.sf ∧
    (∀ x ≤ 0, (betaDist alpha beta).sp.cdf x = 0 ∧ (betaDist alpha beta).sp.sf x = 1) ∧
    ∀ x, 1 ≤ x → (betaDist alpha beta).sp.cdf x = 1 ∧ (betaDist alpha beta).sp.sf x = 0 := by
  have hd := betaStd_density ha hb
  have h := hd.survival.locScale 0 1 one_pos
  refine ⟨h, below_loc (density_below hd fun _ h => h.1) one_pos, fun x hx => ?_⟩
  have h0 : (betaDist alpha beta).sp.sf x = 0 := by
    simp only [betaDist, ofScipy, locScale, ofDensity, sub_zero, div_one]
    refine integral_eq_zero_of_ae ?_
    filter_upwards [ae_restrict_mem measurableSet_Ioi, ae_restrict_of_ae hd.null] with y hy hn
    exact hn fun hyD => absurd hyD.2 (not_lt.2 (le_trans hx (le_of_lt hy)))
  refine ⟨?_, h0⟩
  have := h.compl x
  have e : (betaDist alpha beta).sp.cdf x + (betaDist alpha beta).sp.sf x = 1 := this
  linarith

/-- Which xvals are accepted: not empty, not negative except for Normal and Gumbel, at most 1 for Beta. -/
def TakesX (fam : Fam) (X : List ℝ) : Prop :=
  X ≠ [] ∧ (fam ≠ .normal → fam ≠ .gumbel → ∀ x ∈ X, 0 ≤ x) ∧ (fam = .beta → ∀ x ∈ X, x ≤ 1)

theorem checkX_ok (fam : Fam) (X : List ℝ) : checkX fam X = .ok () ↔ TakesX fam X := by
  unfold TakesX
  simp only [checkX]
  cases hlo : X.min? with
  | none => rw [List.min?_eq_none_iff] at hlo; subst hlo; simp [valueErr]
  | some lo =>
    cases hhi : X.max? with
    | none => rw [List.max?_eq_none_iff] at hhi; subst hhi; simp at hlo
    | some hi =>
      have hne : X ≠ [] := by rintro rfl; simp at hlo
      obtain ⟨lom, lob⟩ := (Np.min?_iff X lo).1 hlo
      obtain ⟨him, hib⟩ := (Np.max?_iff X hi).1 hhi
      dsimp only
      by_cases h1 : lo < 0 ∧ fam ≠ .normal ∧ fam ≠ .gumbel
      · rw [if_pos h1]
        simp only [valueErr]
        constructor
        · intro h; cases h
        · rintro ⟨_, h, _⟩
          exact absurd (h h1.2.1 h1.2.2 lo lom) (not_le.2 h1.1)
      · rw [if_neg h1]
        by_cases h2 : hi > 1 ∧ fam = .beta
        · rw [if_pos h2]
          simp only [valueErr]
          constructor
          · intro h; cases h
          · rintro ⟨_, _, h⟩
            exact absurd (h h2.2 hi him) (not_le.2 h2.1)
        · rw [if_neg h2]
          refine ⟨fun _ => ⟨hne, ?_, ?_⟩, fun _ => rfl⟩
          · intro hn hg x hx
            have : ¬ lo < 0 := fun hl => h1 ⟨hl, hn, hg⟩
            exact (not_lt.1 this).trans (lob x hx)
          · intro hb x hx
            have : ¬ hi > 1 := fun hl => h2 ⟨hl, hb⟩
            exact (hib x hx).trans (not_lt.1 this)

theorem checkX_err (fam : Fam) (X : List ℝ) (h : checkX fam X ≠ .ok ()) : checkX fam X = valueErr := by
  simp only [checkX] at h ⊢
  cases hlo : X.min? with
  | none => rfl
  | some lo =>
    cases hhi : X.max? with
    | none => rfl
    | some hi =>
      rw [hlo, hhi] at h
      dsimp only at h ⊢
      by_cases h1 : lo < 0 ∧ fam ≠ .normal ∧ fam ≠ .gumbel
      · rw [if_pos h1]
      · rw [if_neg h1] at h ⊢
        by_cases h2 : hi > 1 ∧ fam = .beta
        · rw [if_pos h2]
        · rw [if_neg h2] at h
          exact absurd rfl h

/-- **C33 (vectors).** `CDF(xvals)` and `SF(xvals)` accept the same vectors (others raise ValueError), and then
the entries correspond to the xvals one by one, lie in [0,1] and sum to one; the CDF entries ascend with
the xvals. -/
theorem C33_vectors (d : Dist) (law : SurvivalLaw d.sp.cdf d.sp.sf) (X : List ℝ) :
    (CDF d X = valueErr ∧ SF d X = valueErr ∧ ¬ (X ≠ [] ∧
      (d.fam ≠ .normal → d.fam ≠ .gumbel → ∀ x ∈ X, 0 ≤ x) ∧ (d.fam = .beta → ∀ x ∈ X, x ≤ 1))) ∨
    ∃ c s, CDF d X = .ok c ∧ SF d X = .ok s ∧ c.length = X.length ∧ s.length = X.length ∧
      (∀ (i : ℕ) u v, c[i]? = some u → s[i]? = some v → 0 ≤ u ∧ u ≤ 1 ∧ u + v = 1) ∧
      (∀ (i j : ℕ) x y u v, X[i]? = some x → X[j]? = some y → c[i]? = some u → c[j]? = some v →
        x ≤ y → u ≤ v) := by
  by_cases h : checkX d.fam X = .ok ()
  · right
    refine ⟨X.map d.sp.cdf, X.map d.sp.sf, by simp only [CDF, h], by simp only [SF, h], by simp, by simp,
      ?_, ?_⟩
    · intro i u v hu hv
      rw [List.getElem?_map] at hu hv
      cases hx : X[i]? with
      | none => simp [hx] at hu
      | some x =>
        simp only [hx, Option.map_some, Option.some.injEq] at hu hv
        subst hu hv
        exact ⟨(law.range x).1, (law.range x).2, law.compl x⟩
    · intro i j x y u v hx hy hu hv hxy
      rw [List.getElem?_map, hx] at hu
      rw [List.getElem?_map, hy] at hv
      simp only [Option.map_some, Option.some.injEq] at hu hv
      subst hu hv
      exact law.mono hxy
  · left
    have e := checkX_err d.fam X h
    rw [checkX_ok] at h
    exact ⟨by simp only [CDF, e, valueErr], by simp only [SF, e, valueErr], h⟩

example : (weibull 2 3 1).sp.cdf 1 = 0 := ((C33_weibull 2 3 1 (by norm_num) (by norm_num)).2 1 le_rfl).1
example : ∃ c, CDF (normal 5 2) [-1, 4, 3] = .ok c := by
  rcases C33_vectors (normal 5 2) (C33_normal 5 2 (by norm_num)) [-1, 4, 3] with h | ⟨c, _, h, _⟩
  · exact absurd ⟨by simp, fun h' => absurd rfl h', fun h' => by cases h'⟩ h.2.2
  · exact ⟨c, h⟩

/-! ## C34: quantile and inverse_SF -/

/-- **C34 (Weibull).** -/
theorem C34_weibull (alpha beta gamma : ℝ) (ha : 0 < alpha) (hb : 0 < beta) :
    QuantileLaw (Set.Ioi gamma) (weibull alpha beta gamma).sp.cdf (weibull alpha beta gamma).sp.sf
      (weibull alpha beta gamma).sp.ppf (weibull alpha beta gamma).sp.isf :=
  (weibullStd_quantile hb).locScale gamma alpha ha (mem_Ioi_affine ha)

/-- **C34 (Exponential).** -/
theorem C34_exponential (Lambda gamma : ℝ) (hl : 0 < Lambda) :
    QuantileLaw (Set.Ioi gamma) (exponential Lambda gamma).sp.cdf (exponential Lambda gamma).sp.sf
      (exponential Lambda gamma).sp.ppf (exponential Lambda gamma).sp.isf := by
  have h : QuantileLaw (Set.Ioi 0) exponStd.cdf exponStd.sf exponStd.ppf exponStd.isf := by
    rw [exponStd_eq]; exact weibullStd_quantile one_pos
  exact h.locScale gamma (1 / Lambda) (by positivity) (mem_Ioi_affine (by positivity))

/-- **C34 (Loglogistic).** -/
theorem C34_loglogistic (alpha beta gamma : ℝ) (ha : 0 < alpha) (hb : 0 < beta) :
    QuantileLaw (Set.Ioi gamma) (loglogistic alpha beta gamma).sp.cdf (loglogistic alpha beta gamma).sp.sf
      (loglogistic alpha beta gamma).sp.ppf (loglogistic alpha beta gamma).sp.isf :=
  (fiskStd_quantile hb).locScale gamma alpha ha (mem_Ioi_affine ha)

/-- **C34 (Gumbel).** -/
theorem C34_gumbel (mu sigma : ℝ) (hs : 0 < sigma) :
    QuantileLaw Set.univ (gumbel mu sigma).sp.cdf (gumbel mu sigma).sp.sf
      (gumbel mu sigma).sp.ppf (gumbel mu sigma).sp.isf :=
  gumbelStd_quantile.locScale mu sigma hs fun _ => Iff.rfl

/-- **C34 (Normal).** -/
theorem C34_normal (mu sigma : ℝ) (hs : 0 < sigma) :
    QuantileLaw Set.univ (normal mu sigma).sp.cdf (normal mu sigma).sp.sf
      (normal mu sigma).sp.ppf (normal mu sigma).sp.isf :=
  QuantileLaw.locScale (s := normStd) normStd_density.quantile mu sigma hs fun _ => Iff.rfl

/-- **C34 (Lognormal).** -/
theorem C34_lognormal (mu sigma gamma : ℝ) (hs : 0 < sigma) :
    QuantileLaw (Set.Ioi gamma) (lognormal mu sigma gamma).sp.cdf (lognormal mu sigma gamma).sp.sf
      (lognormal mu sigma gamma).sp.ppf (lognormal mu sigma gamma).sp.isf :=
  (lognormStd_quantile hs).locScale gamma _ (Real.exp_pos mu) (mem_Ioi_affine (Real.exp_pos mu))

/-- **C34 (Gamma).** -/
theorem C34_gamma (alpha beta gamma : ℝ) (ha : 0 < alpha) (hb : 0 < beta) :
    QuantileLaw (Set.Ioi gamma) (gammaDist alpha beta gamma).sp.cdf (gammaDist alpha beta gamma).sp.sf
      (gammaDist alpha beta gamma).sp.ppf (gammaDist alpha beta gamma).sp.isf :=
  (gammaStd_density hb).quantile.locScale gamma alpha ha (mem_Ioi_affine ha)

/-- **C34 (Beta).** -/
theorem C34_beta (alpha beta : ℝ) (ha : 0 < alpha) (hb : 0 < beta) :
    QuantileLaw (Set.Ioo 0 1) (betaDist alpha beta).sp.cdf (betaDist alpha beta).sp.sf
      (betaDist alpha beta).sp.ppf (betaDist alpha beta).sp.isf :=
  (betaStd_density ha hb).quantile.locScale 0 1 one_pos fun x => by simp

theorem checkQ_cases (qs : List ℝ) :
    (checkQ qs = .ok () ∧ qs ≠ [] ∧ ∀ q ∈ qs, 0 ≤ q ∧ q ≤ 1) ∨
    (checkQ qs = valueErr ∧ ¬ (qs ≠ [] ∧ ∀ q ∈ qs, 0 ≤ q ∧ q ≤ 1)) := by
  simp only [checkQ]
  cases hlo : qs.min? with
  | none => rw [List.min?_eq_none_iff] at hlo; subst hlo; simp
  | some lo =>
    cases hhi : qs.max? with
    | none => rw [List.max?_eq_none_iff] at hhi; subst hhi; simp at hlo
    | some hi =>
      have hne : qs ≠ [] := by rintro rfl; simp at hlo
      obtain ⟨lom, lob⟩ := (Np.min?_iff qs lo).1 hlo
      obtain ⟨him, hib⟩ := (Np.max?_iff qs hi).1 hhi
      dsimp only
      by_cases h : lo < 0 ∨ hi > 1
      · right
        rw [if_pos h]
        refine ⟨rfl, fun hc => ?_⟩
        rcases h with h | h
        · exact absurd (hc.2 lo lom).1 (not_le.2 h)
        · exact absurd (hc.2 hi him).2 (not_le.2 h)
      · left
        rw [if_neg h]
        rw [not_or] at h
        exact ⟨rfl, hne, fun q hq => ⟨(not_lt.1 h.1).trans (lob q hq), (hib q hq).trans (not_lt.1 h.2)⟩⟩

/-- **C34 (vectors).** `quantile` raises ValueError exactly when the vector is empty or some entry is outside
[0,1]; otherwise it has one entry per q: the point at which the CDF is q for 0<q<1 and the ends of the
support for 0 and 1. -/
theorem C34_quantile_vectors (d : Dist) (D : Set ℝ)
    (law : QuantileLaw D d.sp.cdf d.sp.sf d.sp.ppf d.sp.isf) (qs : List ℝ) :
    (quantile d qs = valueErr ∧ ¬ (qs ≠ [] ∧ ∀ q ∈ qs, 0 ≤ q ∧ q ≤ 1)) ∨
    ∃ r, quantile d qs = .ok r ∧ (qs ≠ [] ∧ ∀ q ∈ qs, 0 ≤ q ∧ q ≤ 1) ∧ r.length = qs.length ∧
      ∀ (i : ℕ) q, qs[i]? = some q →
        (q = 0 → r[i]? = some (lowE d)) ∧ (q = 1 → r[i]? = some (uppE d)) ∧
        (0 < q → q < 1 → ∃ x ∈ D, r[i]? = some (.fin x) ∧ d.sp.cdf x = q) := by
  rcases checkQ_cases qs with ⟨h, hn⟩ | ⟨h, hn⟩
  · right
    refine ⟨qs.map (ppfE d), by simp only [quantile, h], hn, by simp, fun i q hq => ?_⟩
    rw [List.getElem?_map, hq]
    refine ⟨fun e => ?_, fun e => ?_, fun h0 h1 => ?_⟩
    · subst e; simp [ppfE]
    · subst e; simp [ppfE]
    · refine ⟨d.sp.ppf q, law.mem q h0 h1, ?_, law.cdf_quantile q h0 h1⟩
      simp [ppfE, h0.ne', h1.ne]
  · left
    exact ⟨by simp only [quantile, h, valueErr], hn⟩

/-- **C34 (ends of the support).** For each of the eight families and every parameter vector, `quantile` at
probability 0 is the location shift (`-inf` for Normal and Gumbel, 0 for Beta) and at probability 1 it is
`+inf` (1 for Beta); `inverse_SF` gives the same two values swapped. -/
theorem C34_support_ends (a b c : ℝ) :
    (∀ d ∈ [weibull a b c, exponential a c, loglogistic a b c, lognormal a b c, gammaDist a b c],
      quantile d [0, 1] = .ok [.fin c, .pinf] ∧ inverseSF d [0, 1] = .ok [.pinf, .fin c]) ∧
    (∀ d ∈ [normal a b, gumbel a b],
      quantile d [0, 1] = .ok [.ninf, .pinf] ∧ inverseSF d [0, 1] = .ok [.pinf, .ninf]) ∧
    (quantile (betaDist a b) [0, 1] = .ok [.fin 0, .fin 1] ∧
      inverseSF (betaDist a b) [0, 1] = .ok [.fin 1, .fin 0]) := by
  have hq : ∀ d : Dist, quantile d [0, 1] = .ok [lowE d, uppE d] ∧
      inverseSF d [0, 1] = .ok [uppE d, lowE d] := by
    intro d
    have hc : checkQ [0, 1] = .ok () := by
      rcases checkQ_cases [0, 1] with h | h
      · exact h.1
      · exact absurd ⟨by simp, by simp⟩ h.2
    simp only [quantile, inverseSF, hc]
    simp [ppfE, isfE]
  refine ⟨?_, ?_, ?_⟩
  · intro d hd
    rw [(hq d).1, (hq d).2]
    simp only [List.mem_cons, List.not_mem_nil, or_false] at hd
    rcases hd with rfl | rfl | rfl | rfl | rfl <;> exact ⟨rfl, rfl⟩
  · intro d hd
    rw [(hq d).1, (hq d).2]
    simp only [List.mem_cons, List.not_mem_nil, or_false] at hd
    rcases hd with rfl | rfl <;> exact ⟨rfl, rfl⟩
  · rw [(hq _).1, (hq _).2]
    exact ⟨rfl, rfl⟩

/-- **C34 (inverse_SF).** `inverse_SF(q) = quantile(1 - q)`, errors included. -/
theorem C34_inverse_sf (d : Dist) (D : Set ℝ)
    (law : QuantileLaw D d.sp.cdf d.sp.sf d.sp.ppf d.sp.isf) (qs : List ℝ) :
    inverseSF d qs = quantile d (qs.map fun q => 1 - q) := by
  have hiff : (qs ≠ [] ∧ ∀ q ∈ qs, 0 ≤ q ∧ q ≤ 1) ↔
      (qs.map (fun q => 1 - q) ≠ [] ∧ ∀ q ∈ qs.map (fun q => 1 - q), 0 ≤ q ∧ q ≤ 1) := by
    simp only [ne_eq, List.map_eq_nil_iff, List.mem_map, forall_exists_index, and_imp,
      forall_apply_eq_imp_iff₂]
    refine and_congr_right fun _ => forall₂_congr fun q _ => ?_
    constructor <;> rintro ⟨h1, h2⟩ <;> constructor <;> linarith
  rcases checkQ_cases qs with ⟨h, hn⟩ | ⟨h, hn⟩ <;>
    rcases checkQ_cases (qs.map fun q => 1 - q) with ⟨h', hn'⟩ | ⟨h', hn'⟩
  · simp only [inverseSF, quantile, h, h', List.map_map]
    congr 1
    refine List.map_congr_left fun q hq => ?_
    obtain ⟨q0, q1⟩ := hn.2 q hq
    simp only [Function.comp, isfE, ppfE]
    rcases q0.eq_or_lt with rfl | q0
    · simp
    · rcases q1.eq_or_lt with rfl | q1
      · simp
      · have e1 : (1 - q) ≠ 0 := by linarith
        have e2 : (1 - q) ≠ 1 := by linarith
        rw [if_neg q1.ne, if_neg q0.ne', if_neg e1, if_neg e2, (law.isf q q0 q1).1]
  · exact absurd (hiff.1 hn) hn'
  · exact absurd (hiff.2 hn') hn
  · simp only [inverseSF, quantile, h, h', valueErr]

example : quantile (weibull 2 3 1) [0.5, 1.5] = valueErr := by
  rcases C34_quantile_vectors (weibull 2 3 1) _ (C34_weibull 2 3 1 (by norm_num) (by norm_num)) [0.5, 1.5]
    with h | ⟨r, _, h, _⟩
  · exact h.1
  · have := h.2 1.5 (by simp); norm_num at this

/-! ## C35: hazard identities -/

/-- **C35 (Weibull).** -/
theorem C35_weibull (alpha beta gamma : ℝ) (ha : 0 < alpha) :
    HazardLaw (Set.Ioi gamma) (weibull alpha beta gamma).sp.pdf (weibull alpha beta gamma).sp.cdf
      (weibull alpha beta gamma).sp.sf (weibull alpha beta gamma).hf (weibull alpha beta gamma).chf :=
  (weibullStd_hazard beta).locScale gamma alpha (fun x hx => (mem_Ioi_affine ha x).1 hx)
    (fun x _ => by simp only [weibull]; ring) (fun x => rfl)

/-- **C35 (Exponential).** -/
theorem C35_exponential (Lambda gamma : ℝ) (hl : 0 < Lambda) :
    HazardLaw (Set.Ioi gamma) (exponential Lambda gamma).sp.pdf (exponential Lambda gamma).sp.cdf
      (exponential Lambda gamma).sp.sf (exponential Lambda gamma).hf (exponential Lambda gamma).chf := by
  have h : HazardLaw (Set.Ioi 0) exponStd.pdf exponStd.cdf exponStd.sf
      (fun z => 1 * z ^ ((1:ℝ) - 1)) (fun z => z ^ (1:ℝ)) := by
    rw [exponStd_eq]; exact weibullStd_hazard 1
  refine h.locScale gamma (1 / Lambda) (fun x hx => (mem_Ioi_affine (by positivity) x).1 hx)
    (fun x hx => ?_) (fun x => ?_)
  · simp [exponential]
  · simp only [exponential, Real.rpow_one]; field_simp

/-- **C35 (Loglogistic).** -/
theorem C35_loglogistic (alpha beta gamma : ℝ) (ha : 0 < alpha) :
    HazardLaw (Set.Ioi gamma) (loglogistic alpha beta gamma).sp.pdf (loglogistic alpha beta gamma).sp.cdf
      (loglogistic alpha beta gamma).sp.sf (loglogistic alpha beta gamma).hf
      (loglogistic alpha beta gamma).chf :=
  (fiskStd_hazard beta).locScale gamma alpha (fun x hx => (mem_Ioi_affine ha x).1 hx)
    (fun x _ => by simp only [loglogistic]; ring) (fun x => rfl)

/-- **C35 (Gumbel).** -/
theorem C35_gumbel (mu sigma : ℝ) :
    HazardLaw Set.univ (gumbel mu sigma).sp.pdf (gumbel mu sigma).sp.cdf
      (gumbel mu sigma).sp.sf (gumbel mu sigma).hf (gumbel mu sigma).chf :=
  gumbelStd_hazard.locScale mu sigma (fun _ _ => trivial) (fun x _ => rfl) (fun x => rfl)

theorem density_locScale {s : Scipy} {loc scale x : ℝ}
    (h : HasDerivAt s.cdf (s.pdf ((x - loc) / scale)) ((x - loc) / scale)) :
    HasDerivAt (locScale s loc scale).cdf ((locScale s loc scale).pdf x) x := by
  have := h.comp x (affine_hasDerivAt loc scale x)
  refine this.congr_deriv ?_
  simp [locScale, div_eq_mul_inv]

/-- **C35 (Normal).** -/
theorem C35_normal (mu sigma : ℝ) (hs : 0 < sigma) :
    HazardLaw Set.univ (normal mu sigma).sp.pdf (normal mu sigma).sp.cdf
      (normal mu sigma).sp.sf (normal mu sigma).hf (normal mu sigma).chf :=
  HazardLaw.ofScipy (C33_normal mu sigma hs).compl
    (fun _ _ => density_locScale (s := normStd) (normStd_density.hasDerivAt _ trivial))
    (fun _ _ => normStd_density.sf_pos _ trivial)

/-- **C35 (Lognormal).** -/
theorem C35_lognormal (mu sigma gamma : ℝ) (hs : 0 < sigma) :
    HazardLaw (Set.Ioi gamma) (lognormal mu sigma gamma).sp.pdf (lognormal mu sigma gamma).sp.cdf
      (lognormal mu sigma gamma).sp.sf (lognormal mu sigma gamma).hf (lognormal mu sigma gamma).chf :=
  HazardLaw.ofScipy (C33_lognormal mu sigma gamma hs).1.compl
    (fun x hx => density_locScale (lognormStd_density _ ((mem_Ioi_affine (Real.exp_pos mu) x).1 hx)))
    (fun x hx => lognormStd_sf_pos _ ((mem_Ioi_affine (Real.exp_pos mu) x).1 hx))

/-- **C35 (Gamma).** -/
theorem C35_gamma (alpha beta gamma : ℝ) (ha : 0 < alpha) (hb : 0 < beta) :
    HazardLaw (Set.Ioi gamma) (gammaDist alpha beta gamma).sp.pdf (gammaDist alpha beta gamma).sp.cdf
      (gammaDist alpha beta gamma).sp.sf (gammaDist alpha beta gamma).hf
      (gammaDist alpha beta gamma).chf :=
  HazardLaw.ofScipy (C33_gamma alpha beta gamma ha hb).1.compl
    (fun x hx => density_locScale ((gammaStd_density hb).hasDerivAt _ ((mem_Ioi_affine ha x).1 hx)))
    (fun x hx => (gammaStd_density hb).sf_pos _ ((mem_Ioi_affine ha x).1 hx))

/-- **C35 (Beta).** -/
theorem C35_beta (alpha beta : ℝ) (ha : 0 < alpha) (hb : 0 < beta) :
    HazardLaw (Set.Ioo 0 1) (betaDist alpha beta).sp.pdf (betaDist alpha beta).sp.cdf
      (betaDist alpha beta).sp.sf (betaDist alpha beta).hf (betaDist alpha beta).chf :=
  HazardLaw.ofScipy (C33_beta alpha beta ha hb).1.compl
    (fun x hx => density_locScale ((betaStd_density ha hb).hasDerivAt _ (by simpa using hx)))
    (fun x hx => (betaStd_density ha hb).sf_pos _ (by simpa using hx))

theorem zeroise_get (X Y : List ℝ) (g : ℝ) (hX : X.Pairwise (· ≤ ·)) (hl : Y.length = X.length) (i : ℕ)
    (x y : ℝ) (hx : X[i]? = some x) (hy : Y[i]? = some y) :
    (zeroise X Y g)[i]? = some (if 0 < g ∧ x ≤ g then 0 else y) := by
  simp only [zeroise]
  by_cases hg : g > 0
  · rw [if_pos hg]
    cases hf : X.findIdx? (fun x => decide (g < x)) with
    | none =>
      rw [List.findIdx?_eq_none_iff] at hf
      have := hf x (List.mem_of_getElem? hx)
      simp only [decide_eq_false_iff_not, not_lt] at this
      rw [if_pos ⟨hg, this⟩]
      dsimp only
      rw [List.getElem?_map, hy]; rfl
    | some k =>
      rw [List.findIdx?_eq_some_iff_getElem] at hf
      obtain ⟨hk, hkx, hbelow⟩ := hf
      obtain ⟨hi, rfl⟩ := List.getElem?_eq_some_iff.1 hx
      simp only [List.getElem?_mapIdx, hy, Option.map_some, Option.some.injEq]
      by_cases hik : i < k
      · have := hbelow i hik
        simp only [decide_eq_true_eq, not_lt] at this
        rw [if_pos hik, if_pos ⟨hg, this⟩]
      · rw [if_neg hik, if_neg]
        rintro ⟨_, h⟩
        have h2 : g < X[k] := by simpa using hkx
        have h3 : X[k] ≤ X[i] := by
          rcases (not_lt.1 hik).lt_or_eq with hlt | heq
          · exact List.pairwise_iff_getElem.1 hX k i hk hi hlt
          · simp [heq]
        exact absurd (h2.trans_le h3) (not_lt.2 h)
  · rw [if_neg hg, hy, if_neg (fun h => hg h.1)]

/-- **C35 (vectors).** For ascending accepted xvals, each entry of `HF` and `CHF` is PDF/SF and -ln SF at that
x when x is in the support; below a positive location shift both are 0. -/
theorem C35_vectors (d : Dist) (D : Set ℝ) (law : HazardLaw D d.sp.pdf d.sp.cdf d.sp.sf d.hf d.chf)
    (hz : ∀ g, d.zeroAt = some g → D = Set.Ioi g) (X : List ℝ) (hX : X.Pairwise (· ≤ ·))
    (hX' : TakesX d.fam X) :
    ∃ h c, HF d X = .ok h ∧ CHF d X = .ok c ∧ h.length = X.length ∧ c.length = X.length ∧
      ∀ (i : ℕ) x, X[i]? = some x →
        (x ∈ D → h[i]? = some (d.sp.pdf x / d.sp.sf x) ∧ c[i]? = some (-Real.log (d.sp.sf x))) ∧
        (∀ g, d.zeroAt = some g → 0 < g → x ≤ g → h[i]? = some 0 ∧ c[i]? = some 0) := by
  have hok := (checkX_ok _ _).2 hX'
  have hchf : ∀ x ∈ D, d.chf x = -Real.log (d.sp.sf x) := by
    intro x hx
    rw [← law.cumhazard x hx, Real.log_exp, neg_neg]
  cases hza : d.zeroAt with
  | none =>
    refine ⟨X.map d.hf, X.map d.chf, by simp only [HF, hok, hza], by simp only [CHF, hok, hza], by simp,
      by simp, fun i x hx => ⟨fun hxD => ?_, fun g hg => by cases hg⟩⟩
    simp [hx, law.hazard x hxD, hchf x hxD]
  | some g =>
    have hlen : ∀ Y : List ℝ, Y.length = X.length → (zeroise X Y g).length = X.length := by
      intro Y hY
      simp only [zeroise]
      by_cases hg : g > 0
      · rw [if_pos hg]; cases X.findIdx? (fun x => decide (g < x)) <;> simp [hY]
      · rw [if_neg hg, hY]
    refine ⟨zeroise X (X.map d.hf) g, zeroise X (X.map d.chf) g, by simp only [HF, hok, hza],
      by simp only [CHF, hok, hza], hlen _ (by simp), hlen _ (by simp), fun i x hx => ⟨fun hxD => ?_, ?_⟩⟩
    · rw [zeroise_get X _ g hX (by simp) i x (d.hf x) hx (by simp [hx]),
        zeroise_get X _ g hX (by simp) i x (d.chf x) hx (by simp [hx])]
      have hgx : g < x := by have := hxD; rw [hz g hza] at this; exact this
      rw [if_neg (fun h => absurd h.2 (not_le.2 hgx)), if_neg (fun h => absurd h.2 (not_le.2 hgx)),
        law.hazard x hxD, hchf x hxD]
      exact ⟨rfl, rfl⟩
    · intro g' hg' hpos hle
      rw [Option.some.injEq] at hg'
      subst hg'
      rw [zeroise_get X _ g hX (by simp) i x (d.hf x) hx (by simp [hx]),
        zeroise_get X _ g hX (by simp) i x (d.chf x) hx (by simp [hx]), if_pos ⟨hpos, hle⟩,
        if_pos ⟨hpos, hle⟩]
      exact ⟨rfl, rfl⟩

/-- The hypotheses of `C35_vectors` are met by a shifted Weibull. -/
example : ∃ h c, HF (weibull 2 3 1) [0, 1, 4] = .ok h ∧ CHF (weibull 2 3 1) [0, 1, 4] = .ok c ∧
    h[1]? = some 0 := by
  obtain ⟨h, c, e1, e2, _, _, e⟩ := C35_vectors (weibull 2 3 1) (Set.Ioi 1)
    (C35_weibull 2 3 1 (by norm_num)) (by intro g hg; simp [weibull] at hg; rw [hg]) [0, 1, 4]
    (by simp) ⟨by simp, fun _ _ => by simp, fun h => by cases h⟩
  exact ⟨h, c, e1, e2, ((e 1 1 rfl).2 1 rfl (by norm_num) le_rfl).1⟩

/-- **C35 (finding).** With a positive location shift a scalar `xvals` makes `HF` and `CHF` raise TypeError
although `CDF` and `SF` accept it. -/
theorem C35_scalar_shift_finding (alpha beta gamma x : ℝ) (hg : 0 < gamma) :
    HFscalar (weibull alpha beta gamma) x = .error .typeError ∧
    CHFscalar (weibull alpha beta gamma) x = .error .typeError ∧
    CDFscalar (weibull alpha beta gamma) x = .ok ((weibull alpha beta gamma).sp.cdf x) ∧
    SFscalar (weibull alpha beta gamma) x = .ok ((weibull alpha beta gamma).sp.sf x) := by
  refine ⟨?_, ?_, rfl, rfl⟩
  · simp only [HFscalar, weibull]; rw [if_pos hg]
  · simp only [CHFscalar, weibull]; rw [if_pos hg]

/-- **C35 (finding).** A negative scalar is not rejected: the Exponential cumulative hazard comes out negative,
so it is not `-ln(SF)` (which is 0). -/
theorem C35_scalar_negative_finding (Lambda x : ℝ) (hl : 0 < Lambda) (hx : x < 0) :
    ∃ c, CHFscalar (exponential Lambda 0) x = .ok c ∧ c < 0 ∧
      -Real.log ((exponential Lambda 0).sp.sf x) = 0 := by
  refine ⟨(x - 0) * Lambda, by simp [CHFscalar, exponential], by rw [sub_zero]; exact mul_neg_of_neg_of_pos hx hl, ?_⟩
  rw [((C33_exponential Lambda 0 hl).2 x hx.le).2]; simp

/-! ## C36: the mode -/

theorem rpow_le_tangent {t m c : ℝ} (ht : 0 ≤ t) (hm : 0 < m) (hc : 0 ≤ c) :
    t ^ c ≤ m ^ c * Real.exp (c * (t / m - 1)) := by
  have h1 : t / m ≤ Real.exp (t / m - 1) := by have := Real.add_one_le_exp (t / m - 1); linarith
  have h2 := Real.rpow_le_rpow (div_nonneg ht hm.le) h1 hc
  rw [Real.div_rpow ht hm.le, ← Real.exp_mul, div_le_iff₀ (Real.rpow_pos_of_pos hm c)] at h2
  calc t ^ c ≤ Real.exp ((t / m - 1) * c) * m ^ c := h2
    _ = _ := by rw [mul_comm, mul_comm c]

theorem rpow_mul_exp_le {u c : ℝ} (hu : 0 ≤ u) (hc : 0 ≤ c) :
    u ^ c * Real.exp (-u) ≤ c ^ c * Real.exp (-c) := by
  rcases hc.eq_or_lt with rfl | hc
  · simp only [Real.rpow_zero, one_mul]
    exact Real.exp_le_exp.2 (by linarith)
  · have h := mul_le_mul_of_nonneg_right (rpow_le_tangent hu hc hc.le) (Real.exp_pos (-u)).le
    refine h.trans (le_of_eq ?_)
    rw [mul_assoc, ← Real.exp_add]
    congr 2
    field_simp
    ring

theorem rpow_mul_rpow_le {p a b : ℝ} (h0 : 0 ≤ p) (h1 : p ≤ 1) (ha : 0 ≤ a) (hb : 0 < b) :
    p ^ a * (1 - p) ^ b ≤ (a / (a + b)) ^ a * (b / (a + b)) ^ b := by
  have hq : 0 ≤ 1 - p := by linarith
  have hs : 0 < a + b := by linarith
  rcases ha.eq_or_lt with rfl | ha
  · simp only [Real.rpow_zero, one_mul, zero_add, div_self hb.ne', Real.one_rpow]
    exact Real.rpow_le_one hq (by linarith) hb.le
  · have e1 := rpow_le_tangent h0 (div_pos ha hs) ha.le
    have e2 := rpow_le_tangent hq (div_pos hb hs) hb.le
    have h := mul_le_mul e1 e2 (Real.rpow_nonneg hq b) (by positivity)
    refine h.trans (le_of_eq ?_)
    have : a * (p / (a / (a + b)) - 1) + b * ((1 - p) / (b / (a + b)) - 1) = 0 := by field_simp; ring
    rw [mul_mul_mul_comm, ← Real.exp_add, this, Real.exp_zero, mul_one]

theorem locScale_mode {s : Scipy} {m loc scale : ℝ} (hs : 0 < scale) (h : ∀ z, s.pdf z ≤ s.pdf m)
    {m' : ℝ} (hm : m' = scale * m + loc) (x : ℝ) :
    (locScale s loc scale).pdf x ≤ (locScale s loc scale).pdf m' := by
  simp only [locScale]
  have : (m' - loc) / scale = m := by rw [hm]; field_simp; ring
  rw [this]
  exact div_le_div_of_nonneg_right (h _) hs.le

/-- **C36 (Weibull, shape at least 1).** -/
theorem C36_weibull (alpha beta gamma : ℝ) (ha : 0 < alpha) (hb : 1 ≤ beta) (x : ℝ) :
    (weibull alpha beta gamma).sp.pdf x ≤
      (weibull alpha beta gamma).sp.pdf (weibullMode alpha beta gamma) := by
  have hb0 : 0 < beta := by linarith
  have hc : 0 ≤ (beta - 1) / beta := div_nonneg (by linarith) hb0.le
  have hpow : ∀ z : ℝ, 0 ≤ z → z ^ (beta - 1) = (z ^ beta) ^ ((beta - 1) / beta) := by
    intro z hz
    rw [← Real.rpow_mul hz]; congr 1; field_simp
  refine locScale_mode (s := weibullStd beta) (m := ((beta - 1) / beta) ^ (1 / beta)) ha (fun z => ?_)
    (by simp only [weibullMode]; rw [if_pos hb]) x
  have hm : 0 ≤ ((beta - 1) / beta) ^ (1 / beta) := Real.rpow_nonneg hc _
  have hmb : (((beta - 1) / beta) ^ (1 / beta)) ^ beta = (beta - 1) / beta := by
    rw [← Real.rpow_mul hc, one_div_mul_cancel hb0.ne', Real.rpow_one]
  simp only [weibullStd]
  rw [if_neg (not_lt.2 hm)]
  by_cases hz : z < 0
  · rw [if_pos hz]; positivity
  · rw [if_neg hz, hpow z (not_lt.1 hz), hpow _ hm, hmb, mul_assoc, mul_assoc]
    exact mul_le_mul_of_nonneg_left (rpow_mul_exp_le (Real.rpow_nonneg (not_lt.1 hz) _) hc) hb0.le

/-- **C36 (Exponential).** -/
theorem C36_exponential (Lambda gamma : ℝ) (hl : 0 < Lambda) (x : ℝ) :
    (exponential Lambda gamma).sp.pdf x ≤
      (exponential Lambda gamma).sp.pdf (exponentialMode gamma) := by
  refine locScale_mode (s := exponStd) (m := 0) (by positivity) (fun z => ?_)
    (by simp [exponentialMode]) x
  simp only [exponStd, lt_irrefl, if_false, neg_zero, Real.exp_zero]
  by_cases hz : z < 0
  · rw [if_pos hz]; exact zero_le_one
  · rw [if_neg hz]; exact Real.exp_le_one_iff.2 (by linarith)

/-- **C36 (Loglogistic, shape at least 1).** -/
theorem C36_loglogistic (alpha beta gamma : ℝ) (ha : 0 < alpha) (hb : 1 ≤ beta) (x : ℝ) :
    (loglogistic alpha beta gamma).sp.pdf x ≤
      (loglogistic alpha beta gamma).sp.pdf (loglogisticMode alpha beta gamma) := by
  have hb0 : 0 < beta := by linarith
  have hc : 0 ≤ (beta - 1) / (beta + 1) := div_nonneg (by linarith) (by linarith)
  -- the density is β p^a (1-p)^b with p = z^β/(1+z^β), a = (β-1)/β, b = (β+1)/β
  have form : ∀ z : ℝ, 0 ≤ z → beta * z ^ (beta - 1) / (1 + z ^ beta) ^ 2 =
      beta * ((z ^ beta / (1 + z ^ beta)) ^ ((beta - 1) / beta) *
        (1 - z ^ beta / (1 + z ^ beta)) ^ ((beta + 1) / beta)) := by
    intro z hz
    have hu : 0 ≤ z ^ beta := Real.rpow_nonneg hz _
    have h1 : 0 < 1 + z ^ beta := by linarith
    have e1 : 1 - z ^ beta / (1 + z ^ beta) = 1 / (1 + z ^ beta) := by field_simp; ring
    rw [e1, Real.div_rpow hu h1.le, Real.div_rpow zero_le_one h1.le, Real.one_rpow, div_mul_div_comm,
      mul_one, ← Real.rpow_add h1, ← Real.rpow_mul hz]
    have e2 : (beta - 1) / beta + (beta + 1) / beta = (2 : ℕ) := by push_cast; field_simp; ring
    have e3 : beta * ((beta - 1) / beta) = beta - 1 := by field_simp
    rw [e2, e3, Real.rpow_natCast, mul_div_assoc]
  refine locScale_mode (s := fiskStd beta) (m := ((beta - 1) / (beta + 1)) ^ (1 / beta)) ha (fun z => ?_)
    (by simp only [loglogisticMode]; rw [if_pos hb]) x
  have hm : 0 ≤ ((beta - 1) / (beta + 1)) ^ (1 / beta) := Real.rpow_nonneg hc _
  have hmb : (((beta - 1) / (beta + 1)) ^ (1 / beta)) ^ beta = (beta - 1) / (beta + 1) := by
    rw [← Real.rpow_mul hc, one_div_mul_cancel hb0.ne', Real.rpow_one]
  simp only [fiskStd]
  rw [if_neg (not_lt.2 hm)]
  by_cases hz : z < 0
  · rw [if_pos hz]; positivity
  · rw [if_neg hz, form z (not_lt.1 hz), form _ hm, hmb]
    refine mul_le_mul_of_nonneg_left ?_ hb0.le
    have hu : 0 ≤ z ^ beta := Real.rpow_nonneg (not_lt.1 hz) _
    have hp0 : 0 ≤ z ^ beta / (1 + z ^ beta) := by positivity
    have hp1 : z ^ beta / (1 + z ^ beta) ≤ 1 := by rw [div_le_one (by linarith)]; linarith
    have h := rpow_mul_rpow_le hp0 hp1 (a := (beta - 1) / beta) (b := (beta + 1) / beta)
      (div_nonneg (by linarith) hb0.le) (by positivity)
    refine h.trans (le_of_eq ?_)
    have hb1 : beta + 1 ≠ 0 := by linarith
    have e1 : (beta - 1) / beta / ((beta - 1) / beta + (beta + 1) / beta) =
        (beta - 1) / (beta + 1) / (1 + (beta - 1) / (beta + 1)) := by
      have x1 : (beta - 1) / beta + (beta + 1) / beta = 2 := by field_simp; ring
      have x2 : 1 + (beta - 1) / (beta + 1) = 2 * beta / (beta + 1) := by field_simp; ring
      rw [x1, x2]; field_simp
    have e2 : (beta + 1) / beta / ((beta - 1) / beta + (beta + 1) / beta) =
        1 - (beta - 1) / (beta + 1) / (1 + (beta - 1) / (beta + 1)) := by
      have x1 : (beta - 1) / beta + (beta + 1) / beta = 2 := by field_simp; ring
      have x2 : 1 + (beta - 1) / (beta + 1) = 2 * beta / (beta + 1) := by field_simp; ring
      rw [x1, x2]; field_simp; ring
    rw [e1, e2]

/-- **C36 (Gumbel).** -/
theorem C36_gumbel (mu sigma : ℝ) (hs : 0 < sigma) (x : ℝ) :
    (gumbel mu sigma).sp.pdf x ≤ (gumbel mu sigma).sp.pdf (gumbelMode mu) := by
  refine locScale_mode (s := gumbelStd) (m := 0) hs (fun z => ?_) (by simp [gumbelMode]) x
  simp only [gumbelStd, Real.exp_zero]
  exact Real.exp_le_exp.2 (by have := Real.add_one_le_exp z; linarith)

/-- **C36 (Normal).** -/
theorem C36_normal (mu sigma : ℝ) (hs : 0 < sigma) (x : ℝ) :
    (normal mu sigma).sp.pdf x ≤ (normal mu sigma).sp.pdf (normalMode mu) := by
  refine locScale_mode (s := normStd) (m := 0) hs (fun z => ?_) (by simp [normalMode]) x
  simp only [normStd, ofDensity, normStdPdf]
  refine div_le_div_of_nonneg_right (Real.exp_le_exp.2 ?_) (Real.sqrt_nonneg _)
  have := sq_nonneg z
  norm_num
  linarith

/-- **C36 (Lognormal).** -/
theorem C36_lognormal (mu sigma gamma : ℝ) (hs : 0 < sigma) (x : ℝ) :
    (lognormal mu sigma gamma).sp.pdf x ≤
      (lognormal mu sigma gamma).sp.pdf (lognormalMode mu sigma gamma) := by
  refine locScale_mode (s := lognormStd sigma) (m := Real.exp (-sigma ^ 2)) (Real.exp_pos mu) (fun z => ?_)
    (by simp only [lognormalMode]; rw [← Real.exp_add]; congr 2) x
  have hpi : 0 < Real.sqrt (2 * Real.pi) := Real.sqrt_pos.2 (by positivity)
  have form : ∀ z : ℝ, 0 < z → (lognormStd sigma).pdf z =
      Real.exp (-(Real.log z / sigma) ^ 2 / 2 - Real.log z) / (sigma * Real.sqrt (2 * Real.pi)) := by
    intro z hz
    simp only [lognormStd, if_neg (not_le.2 hz), normStdPdf]
    rw [Real.exp_sub, Real.exp_log hz, neg_div]
    field_simp
  rw [form _ (Real.exp_pos _)]
  by_cases hz : z ≤ 0
  · have : (lognormStd sigma).pdf z = 0 := by simp [lognormStd, hz]
    rw [this]; positivity
  · rw [form z (not_le.1 hz)]
    refine div_le_div_of_nonneg_right (Real.exp_le_exp.2 ?_) (by positivity)
    rw [Real.log_exp]
    have h := sq_nonneg (Real.log z / sigma + sigma)
    have e : Real.log z = sigma * (Real.log z / sigma) := by field_simp
    have e2 : -sigma ^ 2 / sigma = -sigma := by field_simp
    rw [e2]
    generalize Real.log z / sigma = w at h e ⊢
    rw [e]
    nlinarith

/-- **C36 (Gamma, shape at least 1).** -/
theorem C36_gamma (alpha beta gamma : ℝ) (ha : 0 < alpha) (hb : 1 ≤ beta) (x : ℝ) :
    (gammaDist alpha beta gamma).sp.pdf x ≤
      (gammaDist alpha beta gamma).sp.pdf (gammaMode alpha beta gamma) := by
  have hb0 : 0 < beta := by linarith
  have hc : 0 ≤ beta - 1 := by linarith
  have hG := Real.Gamma_pos_of_pos hb0
  refine locScale_mode (s := ofDensity (gammaStdPdf beta)) (m := beta - 1) ha (fun z => ?_)
    (by simp only [gammaMode]; rw [if_pos hb]; ring) x
  simp only [ofDensity, gammaStdPdf]
  rw [if_neg (not_lt.2 hc)]
  by_cases hz : z < 0
  · rw [if_pos hz]; positivity
  · rw [if_neg hz]
    exact div_le_div_of_nonneg_right (rpow_mul_exp_le (not_lt.1 hz) hc) hG.le

/-- **C36 (Beta).** A mode is reported exactly when both shapes exceed 1, and it maximises the density. -/
theorem C36_beta (alpha beta : ℝ) :
    (betaMode alpha beta = none ↔ ¬ (1 < alpha ∧ 1 < beta)) ∧
    ∀ m, betaMode alpha beta = some m → 0 < m ∧ m < 1 ∧
      ∀ x, (betaDist alpha beta).sp.pdf x ≤ (betaDist alpha beta).sp.pdf m := by
  constructor
  · simp only [betaMode]
    by_cases h : alpha > 1 ∧ beta > 1
    · rw [if_pos h]; simp; exact h
    · rw [if_neg h]; simp only [true_iff]; exact h
  · intro m hm
    simp only [betaMode] at hm
    by_cases h : alpha > 1 ∧ beta > 1
    · rw [if_pos h, Option.some.injEq] at hm
      obtain ⟨ha, hb⟩ := h
      have hs : 0 < beta + alpha - 2 := by linarith
      have m0 : 0 < m := by rw [← hm]; exact div_pos (by linarith) hs
      have m1 : m < 1 := by rw [← hm, div_lt_one hs]; linarith
      refine ⟨m0, m1, locScale_mode (s := ofDensity (betaStdPdf alpha beta)) one_pos (fun z => ?_) (by ring)⟩
      have hB : 0 < Real.Gamma alpha * Real.Gamma beta / Real.Gamma (alpha + beta) :=
        ProbabilityTheory.beta_pos (by linarith) (by linarith)
      have hm0 : 0 ≤ 1 - m := by linarith
      simp only [ofDensity, betaStdPdf]
      rw [if_neg (show ¬ (m < 0 ∨ 1 < m) by rw [not_or]; exact ⟨not_lt.2 m0.le, not_lt.2 m1.le⟩)]
      by_cases hz : z < 0 ∨ 1 < z
      · rw [if_pos hz]; positivity
      · rw [if_neg hz]
        rw [not_or] at hz
        refine div_le_div_of_nonneg_right ?_ hB.le
        refine (rpow_mul_rpow_le (not_lt.1 hz.1) (not_lt.1 hz.2) (by linarith) (by linarith)).trans
          (le_of_eq ?_)
        have hs' : alpha - 1 + (beta - 1) ≠ 0 := by linarith
        have e1 : (alpha - 1) / (alpha - 1 + (beta - 1)) = m := by rw [← hm]; congr 1; ring
        have e2 : (beta - 1) / (alpha - 1 + (beta - 1)) = 1 - m := by rw [← e1]; field_simp; ring
        rw [e1, e2]
    · rw [if_neg h] at hm; cases hm

/-- **C36 (shape below 1).** For Weibull, Loglogistic and Gamma with shape below 1 the reported mode is the
location `gamma`, and the density grows without bound towards it. -/
theorem C36_shape_below_one (alpha beta gamma : ℝ) (ha : 0 < alpha) (hb : 0 < beta) (hb1 : beta < 1) :
    weibullMode alpha beta gamma = gamma ∧ loglogisticMode alpha beta gamma = gamma ∧
    gammaMode alpha beta gamma = gamma ∧
    Tendsto (weibull alpha beta gamma).sp.pdf (𝓝[>] gamma) atTop ∧
    Tendsto (loglogistic alpha beta gamma).sp.pdf (𝓝[>] gamma) atTop ∧
    Tendsto (gammaDist alpha beta gamma).sp.pdf (𝓝[>] gamma) atTop := by
  have hn : ¬ beta ≥ 1 := not_le.2 hb1
  have hG := Real.Gamma_pos_of_pos hb
  have hpow : Tendsto (fun z : ℝ => z ^ (beta - 1)) (𝓝[>] 0) atTop := by
    have h1 : Tendsto (fun z : ℝ => (z⁻¹) ^ (1 - beta)) (𝓝[>] 0) atTop :=
      (tendsto_rpow_atTop (by linarith)).comp tendsto_inv_nhdsGT_zero
    refine h1.congr' ?_
    filter_upwards [eventually_mem_nhdsWithin] with z hz
    have hz' : (0:ℝ) < z := hz
    rw [Real.inv_rpow hz'.le, ← Real.rpow_neg hz'.le]; congr 1; ring
  have haff : Tendsto (fun x => (x - gamma) / alpha) (𝓝[>] gamma) (𝓝[>] 0) := by
    refine tendsto_nhdsWithin_iff.2 ⟨?_, ?_⟩
    · have : Tendsto (fun x => (x - gamma) / alpha) (𝓝 gamma) (𝓝 ((gamma - gamma) / alpha)) :=
        Continuous.tendsto (by fun_prop) _
      rw [sub_self, zero_div] at this
      exact this.mono_left nhdsWithin_le_nhds
    · filter_upwards [eventually_mem_nhdsWithin] with x hx
      exact (mem_Ioi_affine ha x).1 hx
  have hu : Tendsto (fun z : ℝ => z ^ beta) (𝓝[>] 0) (𝓝 0) := by
    have := (Real.continuous_rpow_const hb.le).tendsto 0
    rw [Real.zero_rpow hb.ne'] at this
    exact this.mono_left nhdsWithin_le_nhds
  have key : ∀ (s : Scipy) (g : ℝ → ℝ) (l : ℝ), 0 < l → Tendsto g (𝓝[>] 0) (𝓝 l) →
      (∀ z, 0 < z → s.pdf z = z ^ (beta - 1) * g z) →
      Tendsto (locScale s gamma alpha).pdf (𝓝[>] gamma) atTop := by
    intro s g l hl hg hs
    have h1 : Tendsto s.pdf (𝓝[>] 0) atTop := by
      refine (hpow.atTop_mul_pos hl hg).congr' ?_
      filter_upwards [eventually_mem_nhdsWithin] with z hz
      exact (hs z hz).symm
    exact (h1.comp haff).atTop_div_const ha
  refine ⟨if_neg hn, if_neg hn, if_neg hn, ?_, ?_, ?_⟩
  · refine key (weibullStd beta) (fun z => beta * Real.exp (-(z ^ beta))) beta hb ?_ ?_
    · have := ((Real.continuous_exp.tendsto _).comp hu.neg).const_mul beta
      simpa using this
    · intro z hz
      simp only [weibullStd, if_neg (not_lt.2 hz.le)]; ring
  · refine key (fiskStd beta) (fun z => beta / (1 + z ^ beta) ^ 2) beta hb ?_ ?_
    · have h2 : Tendsto (fun z : ℝ => (1 + z ^ beta) ^ 2) (𝓝[>] 0) (𝓝 ((1 + 0) ^ 2)) :=
        (hu.const_add 1).pow 2
      have := (tendsto_const_nhds (x := beta) (f := 𝓝[>] (0:ℝ))).div h2 (by norm_num)
      simp only [add_zero, one_pow, div_one] at this
      exact this
    · intro z hz
      simp only [fiskStd, if_neg (not_lt.2 hz.le)]; ring
  · refine key (ofDensity (gammaStdPdf beta)) (fun z => Real.exp (-z) / Real.Gamma beta)
      (1 / Real.Gamma beta) (by positivity) ?_ ?_
    · have h2 : Tendsto (fun z : ℝ => Real.exp (-z) / Real.Gamma beta) (𝓝 0)
          (𝓝 (Real.exp (-0) / Real.Gamma beta)) := Continuous.tendsto (by fun_prop) _
      rw [neg_zero, Real.exp_zero] at h2
      exact h2.mono_left nhdsWithin_le_nhds
    · intro z hz
      simp only [ofDensity, gammaStdPdf, if_neg (not_lt.2 hz.le)]; ring

example : weibullMode 2 3 1 = 2 * ((3 - 1) / 3) ^ ((1:ℝ) / 3) + 1 := by
  rw [weibullMode, if_pos (by norm_num)]

/-! ## C68: median -/

/-- **C68.** The closed-form medians (Gumbel, Normal) are the points at which the CDF is 1/2. -/
theorem C68_median (mu sigma : ℝ) (hs : 0 < sigma) :
    (gumbel mu sigma).sp.cdf (gumbelMedian mu sigma) = 1 / 2 ∧
    (normal mu sigma).sp.cdf (normalMedian mu) = 1 / 2 := by
  constructor
  · simp only [gumbel, locScale, gumbelMedian, gumbelStd]
    have e : (mu + sigma * Real.log (Real.log 2) - mu) / sigma = Real.log (Real.log 2) := by
      field_simp; ring
    rw [e, Real.exp_log (Real.log_pos (by norm_num)), Real.exp_neg, Real.exp_log (by norm_num)]
    norm_num
  · have e : (normal mu sigma).sp.cdf (normalMedian mu) = (ofDensity normStdPdf).cdf 0 := by
      simp [normal, ofScipy, locScale, normalMedian, normStd]
    rw [e]
    have hc := normStd_density.compl 0
    have hsym : (ofDensity normStdPdf).sf 0 = (ofDensity normStdPdf).cdf 0 := by
      simp only [ofDensity]
      have hneg : ∀ t, normStdPdf (-t) = normStdPdf t := by intro t; simp [normStdPdf]
      have := integral_comp_neg_Iic 0 normStdPdf
      simp only [hneg, neg_zero] at this
      exact this.symm
    linarith

/-! ## C69: mean residual life of the Exponential -/

/-- **C69.** The Exponential distribution is memoryless: from any time at or after `gamma` the mean residual
life is `1/Lambda`; before `gamma` it is the remaining time to `gamma` plus `1/Lambda`. -/
theorem C69_exponential_mrl (Lambda gamma t : ℝ) (hl : 0 < Lambda) :
    meanResidualLife (exponential Lambda gamma) t = max 0 (gamma - t) + 1 / Lambda := by
  have hsf : ∀ x, gamma < x → (exponential Lambda gamma).sp.sf x =
      Real.exp (Lambda * gamma) * Real.exp (-Lambda * x) := by
    intro x hx
    have hpos : 0 < (x - gamma) / (1 / Lambda) := (mem_Ioi_affine (by positivity) x).1 hx
    simp only [exponential, locScale, exponStd]
    rw [if_neg (not_le.2 hpos), ← Real.exp_add]
    congr 1; field_simp; ring
  have hint : ∀ a, gamma ≤ a → ∫ x in Set.Ioi a, (exponential Lambda gamma).sp.sf x =
      Real.exp (Lambda * gamma) * (Real.exp (-Lambda * a) / Lambda) := by
    intro a ha
    rw [setIntegral_congr_fun measurableSet_Ioi (fun x hx => hsf x (lt_of_le_of_lt ha hx)),
      integral_const_mul, integral_exp_mul_Ioi (by linarith)]
    congr 1
    rw [neg_div_neg_eq]
  have hbase : ∫ x in Set.Ioi gamma, (exponential Lambda gamma).sp.sf x = 1 / Lambda := by
    rw [hint gamma le_rfl, ← mul_div_assoc, ← Real.exp_add]
    have : Lambda * gamma + -Lambda * gamma = 0 := by ring
    rw [this, Real.exp_zero]
  simp only [meanResidualLife]
  rcases le_or_gt t gamma with ht | ht
  · rw [((C33_exponential Lambda gamma hl).2 t ht).2, div_one, max_eq_right (by linarith)]
    have hi1 : IntegrableOn (exponential Lambda gamma).sp.sf (Set.Ioc t gamma) := by
      have : IntegrableOn (fun _ : ℝ => (1:ℝ)) (Set.Ioc t gamma) := by
        exact integrableOn_const (by simp)
      refine this.congr_fun (fun x hx => ?_) measurableSet_Ioc
      exact (((C33_exponential Lambda gamma hl).2 x hx.2).2).symm
    have hi2 : IntegrableOn (exponential Lambda gamma).sp.sf (Set.Ioi gamma) := by
      have : IntegrableOn (fun x : ℝ => Real.exp (Lambda * gamma) * Real.exp (-Lambda * x))
          (Set.Ioi gamma) := (integrableOn_exp_mul_Ioi (by linarith) gamma).const_mul _
      exact this.congr_fun (fun x hx => (hsf x hx).symm) measurableSet_Ioi
    have hu : Set.Ioi t = Set.Ioc t gamma ∪ Set.Ioi gamma := (Set.Ioc_union_Ioi_eq_Ioi ht).symm
    rw [hu, setIntegral_union (Set.Ioc_disjoint_Ioi le_rfl) measurableSet_Ioi hi1 hi2, hbase]
    congr 1
    rw [setIntegral_congr_fun measurableSet_Ioc
      (fun x hx => ((C33_exponential Lambda gamma hl).2 x hx.2).2)]
    simp [ht]
  · rw [hint t ht.le, hsf t ht, max_eq_left (by linarith), zero_add]
    have h1 := (Real.exp_pos (Lambda * gamma)).ne'
    have h2 := (Real.exp_pos (-Lambda * t)).ne'
    field_simp

example : meanResidualLife (exponential 2 1) 5 = 1 / 2 := by
  rw [C69_exponential_mrl 2 1 5 (by norm_num)]; norm_num

end Reliability.Props.Distributions
