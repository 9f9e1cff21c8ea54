import Mathlib.Tactic.Linarith
import Mathlib.Tactic.NormNum
import Mathlib.Tactic.FieldSimp
import Mathlib.Order.Interval.Set.OrdConnected
import Verif.Model.Utils
import Verif.Lemmas.NumPy
import Verif.Lemmas.Density
import Verif.Props.Distributions

/-! # C52: transform_spaced and the axis transforms -/

namespace Reliability.Props

open List Reliability.Utils Reliability.Distributions Reliability.Spec

/-- Specification: `fwd` maps probabilities in (0,1) onto the interval `D` and `inv` maps `D` back, each undoing the
other. -/
structure Inverses (t : Transform) (D : Set ℝ) : Prop where
  interval : D.OrdConnected
  fwd_mem : ∀ p, 0 < p → p < 1 → t.fwd p ∈ D
  inv_mem : ∀ x ∈ D, 0 < t.inv x ∧ t.inv x < 1
  inv_fwd : ∀ p, 0 < p → p < 1 → t.inv (t.fwd p) = p
  fwd_inv : ∀ x ∈ D, t.fwd (t.inv x) = x

/-- Specification: a usable axis scale: mutually inverse and both strictly increasing. -/
structure AxisLaw (t : Transform) (D : Set ℝ) : Prop extends Inverses t D where
  fwd_mono : StrictMonoOn t.fwd (Set.Ioo 0 1)
  inv_mono : StrictMonoOn t.inv D

theorem axis_of_quantile {D : Set ℝ} {F S Q R : ℝ → ℝ} (hD : D.OrdConnected) (hS : SurvivalLaw F S)
    (hQ : QuantileLaw D F S Q R) : AxisLaw ⟨Q, F⟩ D where
  interval := hD
  fwd_mem := hQ.mem
  inv_mem := hQ.range
  inv_fwd := hQ.cdf_quantile
  fwd_inv := hQ.quantile_cdf
  fwd_mono := by
    intro p hp q hq hpq
    simp only
    by_contra h
    have := hS.mono (not_lt.1 h)
    rw [hQ.cdf_quantile p hp.1 hp.2, hQ.cdf_quantile q hq.1 hq.2] at this
    linarith
  inv_mono := by
    intro x hx y hy hxy
    simp only
    refine lt_of_le_of_ne (hS.mono hxy.le) fun he => ?_
    have := hQ.quantile_cdf x hx
    rw [he, hQ.quantile_cdf y hy] at this
    exact hxy.ne this.symm

theorem gumbel_wei (p : ℝ) : (1 : ℝ) - Real.exp (-Real.exp p) = gumbelStd.cdf p := rfl

/-- **C52 (Weibull axis).** -/
theorem C52_axis_weibull : AxisLaw axisWeibull Set.univ := by
  have hlt : ∀ p : ℝ, 0 < p → p < 1 → 0 < -Real.log (1 - p) := fun p h0 h1 => by
    have := Real.log_neg (by linarith : 0 < 1 - p) (by linarith); linarith
  have hfi : ∀ p : ℝ, 0 < p → p < 1 → 1 - Real.exp (-Real.exp (Real.log (-Real.log (1 - p)))) = p := by
    intro p h0 h1
    rw [Real.exp_log (hlt p h0 h1), neg_neg, Real.exp_log (by linarith)]; ring
  have hif : ∀ x : ℝ, Real.log (-Real.log (1 - (1 - Real.exp (-Real.exp x)))) = x := by
    intro x
    rw [sub_sub_cancel, Real.log_exp, neg_neg, Real.log_exp]
  have hmono : StrictMono fun x : ℝ => 1 - Real.exp (-Real.exp x) := by
    intro x y h
    have := Real.exp_lt_exp.2 (neg_lt_neg (Real.exp_lt_exp.2 h))
    simp only; linarith
  refine ⟨⟨Set.ordConnected_univ, fun _ _ _ => trivial, fun x _ => ?_, hfi, fun x _ => hif x⟩, ?_, ?_⟩
  · simp only [axisWeibull]
    have h1 := Real.exp_pos (-Real.exp x)
    have h2 : Real.exp (-Real.exp x) < 1 := by
      rw [Real.exp_lt_one_iff]; linarith [Real.exp_pos x]
    constructor <;> linarith
  · intro p hp q hq hpq
    rw [← hmono.lt_iff_lt]
    simp only [axisWeibull]
    rw [hfi p hp.1 hp.2, hfi q hq.1 hq.2]; exact hpq
  · exact hmono.strictMonoOn _

/-- **C52 (Loglogistic axis).** -/
theorem C52_axis_loglogistic : AxisLaw axisLoglogistic Set.univ := by
  have hpos : ∀ p : ℝ, 0 < p → p < 1 → 0 < 1 / (1 - p) - 1 := by
    intro p h0 h1
    rw [sub_pos, lt_div_iff₀ (by linarith)]; linarith
  have hfi : ∀ p : ℝ, 0 < p → p < 1 → 1 - 1 / (Real.exp (Real.log (1 / (1 - p) - 1)) + 1) = p := by
    intro p h0 h1
    rw [Real.exp_log (hpos p h0 h1)]
    have : (1 - p) ≠ 0 := by linarith
    field_simp; ring
  have hif : ∀ x : ℝ, Real.log (1 / (1 - (1 - 1 / (Real.exp x + 1))) - 1) = x := by
    intro x
    have : 1 / (1 - (1 - 1 / (Real.exp x + 1))) - 1 = Real.exp x := by
      have := Real.exp_pos x
      rw [sub_sub_cancel, one_div_one_div]; ring
    rw [this, Real.log_exp]
  have hmono : StrictMono fun x : ℝ => 1 - 1 / (Real.exp x + 1) := by
    intro x y h
    have h1 := Real.exp_pos x
    have := one_div_lt_one_div_of_lt (by linarith : 0 < Real.exp x + 1)
      (by linarith [Real.exp_lt_exp.2 h] : Real.exp x + 1 < Real.exp y + 1)
    simp only; linarith
  refine ⟨⟨Set.ordConnected_univ, fun _ _ _ => trivial, fun x _ => ?_, hfi, fun x _ => hif x⟩, ?_, ?_⟩
  · simp only [axisLoglogistic]
    have h1 := Real.exp_pos x
    have h2 : 0 < 1 / (Real.exp x + 1) := by positivity
    have h3 : 1 / (Real.exp x + 1) < 1 := by rw [div_lt_one (by linarith)]; linarith
    constructor <;> linarith
  · intro p hp q hq hpq
    rw [← hmono.lt_iff_lt]
    simp only [axisLoglogistic]
    rw [hfi p hp.1 hp.2, hfi q hq.1 hq.2]; exact hpq
  · exact hmono.strictMonoOn _

/-- **C52 (Exponential axis).** -/
theorem C52_axis_exponential : AxisLaw axisExponential (Set.Ioi 0) := by
  unfold axisExponential
  rw [exponStd_eq]
  exact axis_of_quantile Set.ordConnected_Ioi (weibullStd_survival one_pos) (weibullStd_quantile one_pos)

/-- **C52 (Normal axis).** -/
theorem C52_axis_normal : AxisLaw axisNormal Set.univ :=
  axis_of_quantile Set.ordConnected_univ normStd_density.survival normStd_density.quantile

/-- **C52 (Gumbel axis).** -/
theorem C52_axis_gumbel : AxisLaw axisGumbel Set.univ :=
  axis_of_quantile Set.ordConnected_univ gumbelStd_survival gumbelStd_quantile

/-- **C52 (Gamma axis).** -/
theorem C52_axis_gamma (beta : ℝ) (hb : 0 < beta) : AxisLaw (axisGamma beta) (Set.Ioi 0) :=
  axis_of_quantile Set.ordConnected_Ioi (gammaStd_density hb).survival (gammaStd_density hb).quantile

/-- **C52 (Beta axis).** -/
theorem C52_axis_beta (alpha beta : ℝ) (ha : 0 < alpha) (hb : 0 < beta) :
    AxisLaw (axisBeta alpha beta) (Set.Ioo 0 1) :=
  axis_of_quantile Set.ordConnected_Ioo (betaStd_density ha hb).survival (betaStd_density ha hb).quantile

/-! ## transform_spaced -/

/-- The accepted names, with the parameters each needs. -/
inductive Named : String → Option ℝ → Option ℝ → Prop
  | normal {n a b} (h : n = "normal" ∨ n = "Normal" ∨ n = "norm" ∨ n = "Norm") : Named n a b
  | gumbel {n a b} (h : n = "gumbel" ∨ n = "Gumbel" ∨ n = "gbl" ∨ n = "gum" ∨ n = "Gum" ∨ n = "Gbl") : Named n a b
  | weibull {n a b} (h : n = "weibull" ∨ n = "Weibull" ∨ n = "weib" ∨ n = "Weib" ∨ n = "wbl") : Named n a b
  | loglogistic {n a b} (h : n = "loglogistic" ∨ n = "Loglogistic" ∨ n = "LL" ∨ n = "ll" ∨ n = "loglog") : Named n a b
  | exponential {n a b} (h : n = "exponential" ∨ n = "Exponential" ∨ n = "expon" ∨ n = "Expon" ∨ n = "exp" ∨ n = "Exp") :
      Named n a b
  | gamma {n a b} (h : n = "gamma" ∨ n = "Gamma" ∨ n = "gam" ∨ n = "Gam") (hb : 0 < b) : Named n a (some b)
  | beta {n a b} (h : n = "beta" ∨ n = "Beta") (ha : 0 < a) (hb : 0 < b) : Named n (some a) (some b)

/-- The loglogistic transform used here runs downwards; it is the axis transform with the sign changed. -/
theorem loglogistic_rev : Inverses ⟨fun x => Real.log (1 / x - 1), fun x => 1 / (Real.exp x + 1)⟩ Set.univ ∧
    StrictAntiOn (fun x : ℝ => Real.log (1 / x - 1)) (Set.Ioo 0 1) ∧
    StrictAntiOn (fun x : ℝ => 1 / (Real.exp x + 1)) Set.univ := by
  have hpos : ∀ p : ℝ, 0 < p → p < 1 → 0 < 1 / p - 1 := by
    intro p h0 h1
    rw [sub_pos, lt_div_iff₀ h0]; linarith
  have hfi : ∀ p : ℝ, 0 < p → p < 1 → 1 / (Real.exp (Real.log (1 / p - 1)) + 1) = p := by
    intro p h0 h1
    rw [Real.exp_log (hpos p h0 h1), sub_add_cancel, one_div_one_div]
  have hif : ∀ x : ℝ, Real.log (1 / (1 / (Real.exp x + 1)) - 1) = x := by
    intro x
    rw [one_div_one_div, add_sub_cancel_right, Real.log_exp]
  have hanti : StrictAnti fun x : ℝ => 1 / (Real.exp x + 1) := by
    intro x y h
    have h1 := Real.exp_pos x
    exact one_div_lt_one_div_of_lt (by linarith) (by linarith [Real.exp_lt_exp.2 h])
  refine ⟨⟨Set.ordConnected_univ, fun _ _ _ => trivial, fun x _ => ?_, hfi, fun x _ => hif x⟩, ?_,
    hanti.strictAntiOn _⟩
  · have h1 := Real.exp_pos x
    refine ⟨by simp only; positivity, ?_⟩
    simp only; rw [div_lt_one (by linarith)]; linarith
  · intro p hp q hq hpq
    rw [← hanti.lt_iff_gt]
    simp only
    rw [hfi p hp.1 hp.2, hfi q hq.1 hq.2]; exact hpq

theorem transformOf_named {n : String} {a b : Option ℝ} (h : Named n a b) :
    ∃ t D, transformOf n a b = .ok t ∧ Inverses t D ∧
      ((StrictMonoOn t.fwd (Set.Ioo 0 1) ∧ StrictMonoOn t.inv D) ∨
       (StrictAntiOn t.fwd (Set.Ioo 0 1) ∧ StrictAntiOn t.inv D)) := by
  cases h with
  | normal h =>
    refine ⟨axisNormal, _, ?_, C52_axis_normal.toInverses, .inl ⟨C52_axis_normal.fwd_mono, C52_axis_normal.inv_mono⟩⟩
    rcases h with rfl | rfl | rfl | rfl <;> (unfold transformOf; simp [axisNormal])
  | gumbel h =>
    refine ⟨axisGumbel, _, ?_, C52_axis_gumbel.toInverses, .inl ⟨C52_axis_gumbel.fwd_mono, C52_axis_gumbel.inv_mono⟩⟩
    rcases h with rfl | rfl | rfl | rfl | rfl | rfl <;> (unfold transformOf; simp [axisGumbel])
  | weibull h =>
    refine ⟨axisWeibull, _, ?_, C52_axis_weibull.toInverses,
      .inl ⟨C52_axis_weibull.fwd_mono, C52_axis_weibull.inv_mono⟩⟩
    rcases h with rfl | rfl | rfl | rfl | rfl <;> (unfold transformOf; simp [axisWeibull])
  | loglogistic h =>
    refine ⟨_, _, ?_, loglogistic_rev.1, .inr loglogistic_rev.2⟩
    rcases h with rfl | rfl | rfl | rfl | rfl <;> (unfold transformOf; simp)
  | exponential h =>
    refine ⟨axisExponential, _, ?_, C52_axis_exponential.toInverses,
      .inl ⟨C52_axis_exponential.fwd_mono, C52_axis_exponential.inv_mono⟩⟩
    rcases h with rfl | rfl | rfl | rfl | rfl | rfl <;> (unfold transformOf; simp [axisExponential])
  | @gamma a b h hb =>
    have ax := C52_axis_gamma b hb
    refine ⟨axisGamma b, _, ?_, ax.toInverses, .inl ⟨ax.fwd_mono, ax.inv_mono⟩⟩
    rcases h with rfl | rfl | rfl | rfl <;> (unfold transformOf; simp [axisGamma])
  | @beta a b h ha hb =>
    have ax := C52_axis_beta b a hb ha
    refine ⟨axisBeta b a, _, ?_, ax.toInverses, .inl ⟨ax.fwd_mono, ax.inv_mono⟩⟩
    rcases h with rfl | rfl <;> (unfold transformOf; simp [axisBeta])

theorem linspace_strictAnti {a b : ℝ} {n : Nat} (hab : b < a) : (Np.linspace a b n).Pairwise (· > ·) := by
  have h : Np.linspace a b n = (Np.linspace (-a) (-b) n).map fun x => -x := by
    unfold Np.linspace
    rw [map_map]
    apply map_congr_left
    intro i _
    simp only [Function.comp_apply]; ring
  rw [h, pairwise_map]
  exact (Np.linspace_strictMono (neg_lt_neg hab)).imp fun h => neg_lt_neg h

theorem linspace_mem' {a b : ℝ} {n : Nat} {x : ℝ} (hx : x ∈ Np.linspace a b n) : x ∈ Set.uIcc a b := by
  rcases le_total a b with hab | hab
  · rw [Set.uIcc_of_le hab]; exact Np.linspace_mem hab hx
  · rw [Set.uIcc_of_ge hab]
    have h : Np.linspace a b n = (Np.linspace (-a) (-b) n).map fun x => -x := by
      unfold Np.linspace
      rw [map_map]
      apply map_congr_left
      intro i _
      simp only [Function.comp_apply]; ring
    rw [h] at hx
    obtain ⟨y, hy, rfl⟩ := mem_map.1 hx
    have := Np.linspace_mem (neg_le_neg hab) hy
    constructor <;> linarith [this.1, this.2]

/-- `transform_spaced`, with the scale as the code names it. -/
theorem transform_spaced_scale (name : String) (y1 y2 : ℝ) (num : Nat) (alpha beta : Option ℝ)
    (hn : Named name alpha beta) (h1 : 0 < y1 ∧ y1 < 1) (h2 : 0 < y2 ∧ y2 < 1) (hnum : 2 < num) :
    ∃ t l, transformOf name alpha beta = .ok t ∧ transformSpaced name y1 y2 num alpha beta = .ok l ∧
      l.length = num ∧ l[0]? = some (min y1 y2) ∧ l[num - 1]? = some (max y1 y2) ∧
      (y1 ≠ y2 → l.Pairwise (· < ·)) ∧ (∀ p ∈ l, 0 < p ∧ p < 1 ∧ min y1 y2 ≤ p ∧ p ≤ max y1 y2) ∧
      (∃ step, ∀ (i : ℕ) (p q : ℝ), l[i]? = some p → l[i + 1]? = some q → t.fwd q - t.fwd p = step) := by
  obtain ⟨t, D, ht, hI, hm⟩ := transformOf_named hn
  have hlo : (if y1 > y2 then y2 else y1) = min y1 y2 := by
    split
    · rw [min_eq_right (by linarith)]
    · rw [min_eq_left (by linarith)]
  have hhi : (if y1 > y2 then y1 else y2) = max y1 y2 := by
    split
    · rw [max_eq_left (by linarith)]
    · rw [max_eq_right (by linarith)]
  have l0 : 0 < min y1 y2 := lt_min h1.1 h2.1
  have l1 : min y1 y2 < 1 := lt_of_le_of_lt (min_le_left _ _) h1.2
  have u1 : max y1 y2 < 1 := max_lt h1.2 h2.2
  have u0 : 0 < max y1 y2 := lt_of_lt_of_le h1.1 (le_max_left _ _)
  have hD : ∀ x ∈ Np.linspace (t.fwd (min y1 y2)) (t.fwd (max y1 y2)) num, x ∈ D := by
    intro x hx
    have := linspace_mem' hx
    exact hI.interval.uIcc_subset (hI.fwd_mem _ l0 l1) (hI.fwd_mem _ u0 u1) this
  have hsorted : y1 ≠ y2 → ((Np.linspace (t.fwd (min y1 y2)) (t.fwd (max y1 y2)) num).map t.inv).Pairwise (· < ·) := by
    intro hne
    have hlt : min y1 y2 < max y1 y2 := by
      rcases lt_or_gt_of_ne hne with h | h
      · rw [min_eq_left h.le, max_eq_right h.le]; exact h
      · rw [min_eq_right h.le, max_eq_left h.le]; exact h
    rw [pairwise_map]
    rcases hm with hm | hm
    · have hf := hm.1 ⟨l0, l1⟩ ⟨u0, u1⟩ hlt
      exact (Np.linspace_strictMono hf).imp_of_mem fun hx hy h => hm.2 (hD _ hx) (hD _ hy) h
    · have hf := hm.1 ⟨l0, l1⟩ ⟨u0, u1⟩ hlt
      exact (linspace_strictAnti hf).imp_of_mem fun hx hy h => hm.2 (hD _ hy) (hD _ hx) h
  refine ⟨t, (Np.linspace (t.fwd (min y1 y2)) (t.fwd (max y1 y2)) num).map t.inv, ht, ?_, ?_, ?_, ?_, hsorted, ?_, ?_⟩
  · unfold transformSpaced
    simp only [hlo, hhi, ht]
    rw [if_neg (by push Not; exact ⟨l0, u1⟩), if_neg (by omega)]
  · rw [length_map, Np.linspace_length]
  · rw [getElem?_map, Np.linspace_first _ _ _ (by omega), Option.map_some, hI.inv_fwd _ l0 l1]
  · rw [getElem?_map, Np.linspace_last _ _ _ (by omega), Option.map_some, hI.inv_fwd _ u0 u1]
  · intro p hp
    obtain ⟨x, hx, rfl⟩ := mem_map.1 hp
    have hr := hI.inv_mem x (hD x hx)
    refine ⟨hr.1, hr.2, ?_⟩
    have hb := linspace_mem' hx
    have hlt : min y1 y2 ≤ max y1 y2 := min_le_max
    rcases hm with hm | hm
    · have hf := hm.1.monotoneOn ⟨l0, l1⟩ ⟨u0, u1⟩ hlt
      rw [Set.uIcc_of_le hf] at hb
      have e1 := hm.2.monotoneOn (hI.fwd_mem _ l0 l1) (hD x hx) hb.1
      have e2 := hm.2.monotoneOn (hD x hx) (hI.fwd_mem _ u0 u1) hb.2
      rw [hI.inv_fwd _ l0 l1] at e1
      rw [hI.inv_fwd _ u0 u1] at e2
      exact ⟨e1, e2⟩
    · have hf := hm.1.antitoneOn ⟨l0, l1⟩ ⟨u0, u1⟩ hlt
      rw [Set.uIcc_of_ge hf] at hb
      have e1 := hm.2.antitoneOn (hI.fwd_mem _ u0 u1) (hD x hx) hb.1
      have e2 := hm.2.antitoneOn (hD x hx) (hI.fwd_mem _ l0 l1) hb.2
      rw [hI.inv_fwd _ u0 u1] at e1
      rw [hI.inv_fwd _ l0 l1] at e2
      exact ⟨e2, e1⟩
  · refine ⟨(t.fwd (max y1 y2) - t.fwd (min y1 y2)) / ((num - 1 : Nat) : ℝ), fun i p q hp hq => ?_⟩
    rw [getElem?_map] at hp hq
    obtain ⟨x, hx, rfl⟩ := Option.map_eq_some_iff.1 hp
    obtain ⟨y, hy, rfl⟩ := Option.map_eq_some_iff.1 hq
    rw [hI.fwd_inv x (hD x (mem_of_getElem? hx)), hI.fwd_inv y (hD y (mem_of_getElem? hy))]
    have hi : i + 1 < num := by
      have := (List.getElem?_eq_some_iff.1 hy).1
      rwa [Np.linspace_length] at this
    rw [Np.linspace_get _ _ _ _ (by omega)] at hx hy
    · have hx := Option.some.inj hx
      have hy := Option.some.inj hy
      rw [← hx, ← hy]; push_cast; ring

/-- The scale on which the points are evenly spaced, by name.  (For the Beta distribution the code passes its two parameters
in the wrong order, see `C52_beta_swapped_finding`.) -/
inductive ScaleOf : String → Option ℝ → Option ℝ → (ℝ → ℝ) → Prop
  | normal {n a b} (h : n ∈ ["normal", "Normal", "norm", "Norm"]) : ScaleOf n a b (normal 0 1).sp.ppf
  | gumbel {n a b} (h : n ∈ ["gumbel", "Gumbel", "gbl", "gum", "Gum", "Gbl"]) :
      ScaleOf n a b fun p => Real.log (-Real.log (1 - p))
  | weibull {n a b} (h : n ∈ ["weibull", "Weibull", "weib", "Weib", "wbl"]) :
      ScaleOf n a b fun p => Real.log (-Real.log (1 - p))
  | loglogistic {n a b} (h : n ∈ ["loglogistic", "Loglogistic", "LL", "ll", "loglog"]) :
      ScaleOf n a b fun p => Real.log (p / (1 - p))
  | exponential {n a b} (h : n ∈ ["exponential", "Exponential", "expon", "Expon", "exp", "Exp"]) :
      ScaleOf n a b fun p => -Real.log (1 - p)
  | gamma {n a b} (h : n ∈ ["gamma", "Gamma", "gam", "Gam"]) (hb : 0 < b) : ScaleOf n a (some b) (gammaDist 1 b 0).sp.ppf
  | beta {n a b} (h : n ∈ ["beta", "Beta"]) (ha : 0 < a) (hb : 0 < b) :
      ScaleOf n (some a) (some b) (betaDist b a).sp.ppf

theorem ScaleOf.named {n : String} {a b : Option ℝ} {S : ℝ → ℝ} (h : ScaleOf n a b S) : Named n a b := by
  cases h with
  | normal h => exact .normal (by simpa using h)
  | gumbel h => exact .gumbel (by simpa using h)
  | weibull h => exact .weibull (by simpa using h)
  | loglogistic h => exact .loglogistic (by simpa using h)
  | exponential h => exact .exponential (by simpa using h)
  | gamma h hb => exact .gamma (by simpa using h) hb
  | beta h ha hb => exact .beta (by simpa using h) ha hb

theorem ScaleOf.fwd {n : String} {a b : Option ℝ} {S : ℝ → ℝ} (h : ScaleOf n a b S) {t : Transform}
    (ht : transformOf n a b = .ok t) :
    (∀ p, 0 < p → p < 1 → t.fwd p = S p) ∨ ∀ p, 0 < p → p < 1 → t.fwd p = -S p := by
  cases h with
  | normal h =>
    left
    simp only [List.mem_cons, List.not_mem_nil, or_false] at h
    have : transformOf n a b = .ok ⟨normStd.ppf, normStd.cdf⟩ := by
      rcases h with rfl | rfl | rfl | rfl <;> (unfold transformOf; simp)
    rw [this] at ht; cases ht
    intro p _ _
    simp [Distributions.normal, ofScipy, locScale]
  | gumbel h =>
    left
    simp only [List.mem_cons, List.not_mem_nil, or_false] at h
    have : transformOf n a b = .ok ⟨gumbelStd.ppf, gumbelStd.cdf⟩ := by
      rcases h with rfl | rfl | rfl | rfl | rfl | rfl <;> (unfold transformOf; simp)
    rw [this] at ht; cases ht
    intro p _ _
    rfl
  | weibull h =>
    left
    simp only [List.mem_cons, List.not_mem_nil, or_false] at h
    have : transformOf n a b = .ok ⟨fun x => Real.log (-Real.log (1 - x)), fun x => 1 - Real.exp (-Real.exp x)⟩ := by
      rcases h with rfl | rfl | rfl | rfl | rfl <;> (unfold transformOf; simp)
    rw [this] at ht; cases ht
    intro p _ _
    rfl
  | loglogistic h =>
    right
    simp only [List.mem_cons, List.not_mem_nil, or_false] at h
    have : transformOf n a b = .ok ⟨fun x => Real.log (1 / x - 1), fun x => 1 / (Real.exp x + 1)⟩ := by
      rcases h with rfl | rfl | rfl | rfl | rfl <;> (unfold transformOf; simp)
    rw [this] at ht; cases ht
    intro p h0 h1
    show Real.log (1 / p - 1) = -Real.log (p / (1 - p))
    rw [← Real.log_inv]
    congr 1
    have : 1 - p ≠ 0 := by linarith
    field_simp
  | exponential h =>
    left
    simp only [List.mem_cons, List.not_mem_nil, or_false] at h
    have : transformOf n a b = .ok ⟨exponStd.ppf, exponStd.cdf⟩ := by
      rcases h with rfl | rfl | rfl | rfl | rfl | rfl <;> (unfold transformOf; simp)
    rw [this] at ht; cases ht
    intro p _ _
    rfl
  | @gamma _ b h hb =>
    left
    simp only [List.mem_cons, List.not_mem_nil, or_false] at h
    have : transformOf n a (some b) = .ok ⟨(ofDensity (gammaStdPdf b)).ppf, (ofDensity (gammaStdPdf b)).cdf⟩ := by
      rcases h with rfl | rfl | rfl | rfl <;> (unfold transformOf; simp)
    rw [this] at ht; cases ht
    intro p _ _
    simp [gammaDist, ofScipy, locScale]
  | @beta a b h ha hb =>
    left
    simp only [List.mem_cons, List.not_mem_nil, or_false] at h
    have : transformOf n (some a) (some b) = .ok ⟨(ofDensity (betaStdPdf b a)).ppf, (ofDensity (betaStdPdf b a)).cdf⟩ := by
      rcases h with rfl | rfl <;> (unfold transformOf; simp)
    rw [this] at ht; cases ht
    intro p _ _
    simp [betaDist, ofScipy, locScale]

/-- **C52 (transform_spaced).** For bounds in (0,1), in either order, and more than two points: `num` probabilities,
the first the lower bound and the last the upper bound, strictly increasing when the bounds differ, and equally spaced
on the scale of the distribution. -/
theorem C52_transform_spaced {name : String} {y1 y2 : ℝ} {num : Nat} {alpha beta : Option ℝ} {S : ℝ → ℝ}
    (hn : ScaleOf name alpha beta S) (h1 : 0 < y1 ∧ y1 < 1) (h2 : 0 < y2 ∧ y2 < 1) (hnum : 2 < num) :
    ∃ l, transformSpaced name y1 y2 num alpha beta = .ok l ∧
      l.length = num ∧ l[0]? = some (min y1 y2) ∧ l[num - 1]? = some (max y1 y2) ∧
      (y1 ≠ y2 → l.Pairwise (· < ·)) ∧ (∀ p ∈ l, 0 < p ∧ p < 1 ∧ min y1 y2 ≤ p ∧ p ≤ max y1 y2) ∧
      (∃ step, ∀ (i : ℕ) (p q : ℝ), l[i]? = some p → l[i + 1]? = some q → S q - S p = step) := by
  obtain ⟨t, l, k1, k2, k3, k4, k5, k6, k7, step, k8⟩ := transform_spaced_scale name y1 y2 num alpha beta hn.named h1 h2 hnum
  refine ⟨l, k2, k3, k4, k5, k6, k7, ?_⟩
  rcases hn.fwd k1 with h | h
  · refine ⟨step, fun i p q hp hq => ?_⟩
    have ep := k7 p (mem_of_getElem? hp)
    have eq := k7 q (mem_of_getElem? hq)
    rw [← h p ep.1 ep.2.1, ← h q eq.1 eq.2.1]
    exact k8 i p q hp hq
  · refine ⟨-step, fun i p q hp hq => ?_⟩
    have ep := k7 p (mem_of_getElem? hp)
    have eq := k7 q (mem_of_getElem? hq)
    have := k8 i p q hp hq
    rw [h p ep.1 ep.2.1, h q eq.1 eq.2.1] at this
    linarith

/-- **C52 (order of the bounds).** -/
theorem C52_bounds_either_way (name : String) (y1 y2 : ℝ) (num : Nat) (alpha beta : Option ℝ) :
    transformSpaced name y1 y2 num alpha beta = transformSpaced name y2 y1 num alpha beta := by
  unfold transformSpaced
  rcases lt_trichotomy y1 y2 with h | h | h
  · simp only [gt_iff_lt, if_neg (not_lt.2 h.le), if_pos h]
  · rw [h]
  · simp only [gt_iff_lt, if_neg (not_lt.2 h.le), if_pos h]

/-- **C52 (refusals).** Bounds outside (0,1), two points or fewer, missing parameters, and unknown names (including
the lognormal ones) are ValueErrors. -/
theorem C52_errors (name : String) (y1 y2 : ℝ) (num : Nat) (alpha beta : Option ℝ) :
    ((y1 ≤ 0 ∨ y2 ≤ 0 ∨ 1 ≤ y1 ∨ 1 ≤ y2) → transformSpaced name y1 y2 num alpha beta = .error .valueError) ∧
    (num ≤ 2 → transformSpaced name y1 y2 num alpha beta = .error .valueError) ∧
    (name ∈ ["gamma", "Gamma", "gam", "Gam"] → beta = none →
      transformSpaced name y1 y2 num alpha beta = .error .valueError) ∧
    (name ∈ ["beta", "Beta"] → alpha = none ∨ beta = none →
      transformSpaced name y1 y2 num alpha beta = .error .valueError) ∧
    (name ∈ ["lognormal", "Lognormal", "LN", "ln", "lognorm", "Lognorm"] →
      transformSpaced name y1 y2 num alpha beta = .error .valueError) := by
  have key : transformOf name alpha beta = .error .valueError →
      transformSpaced name y1 y2 num alpha beta = .error .valueError := by
    intro h
    unfold transformSpaced
    simp only [h]
    repeat' split
    all_goals rfl
  refine ⟨fun h => ?_, fun h => ?_, fun h hb => key ?_, fun h hb => key ?_, fun h => key ?_⟩
  · unfold transformSpaced
    simp only
    rw [if_pos]
    rcases h with h | h | h | h
    · left; split <;> linarith
    · left; split <;> linarith
    · right; split <;> linarith
    · right; split <;> linarith
  · unfold transformSpaced
    simp only
    rw [if_pos h]
    rw [ite_self]
  · subst hb
    simp only [mem_cons, not_mem_nil, or_false] at h
    rcases h with rfl | rfl | rfl | rfl <;> (unfold transformOf; simp)
  · simp only [mem_cons, not_mem_nil, or_false] at h
    rcases h with rfl | rfl <;> rcases hb with rfl | rfl <;> first | (cases alpha <;> (unfold transformOf; simp); done) | (unfold transformOf; simp)
  · simp only [mem_cons, not_mem_nil, or_false] at h
    rcases h with rfl | rfl | rfl | rfl | rfl | rfl <;> (unfold transformOf; simp)

/-- **C52, finding.** transform_spaced's beta transform has its two parameters the other way round from the beta axis:
it spaces on the scale of Beta(beta, alpha). -/
theorem C52_beta_swapped_finding (a b : ℝ) : transformOf "beta" (some a) (some b) = .ok (axisBeta b a) := by
  (unfold transformOf; simp [axisBeta])

example : ∃ l, transformSpaced "ll" (9/10) (1/10) 5 none none = .ok l ∧
    l.length = 5 ∧ l[0]? = some (1/10) ∧ l[4]? = some (9/10) := by
  obtain ⟨l, h2, h3, h4, h5, -⟩ := C52_transform_spaced (name := "ll") (y1 := 9/10) (y2 := 1/10) (num := 5) (alpha := none)
    (beta := none) (.loglogistic (by simp)) (by norm_num) (by norm_num) (by norm_num)
  refine ⟨l, h2, h3, ?_, ?_⟩
  · rw [h4]; norm_num
  · rw [show (4 : ℕ) = 5 - 1 from rfl, h5]; norm_num

end Reliability.Props
