import Verif.Model.PoF
import Mathlib.Analysis.SpecialFunctions.Pow.Continuity
import Mathlib.Topology.Order.IntermediateValue
import Mathlib.Tactic.NormNum
import Mathlib.Tactic.Linarith
import Mathlib.Tactic.Positivity
import Mathlib.Tactic.FieldSimp

/-! # C78: fracture_mechanics_crack_initiation -/

namespace Reliability.Props.CrackInit

open Reliability Reliability.PoF

/-- What is assumed of the root finder: if the function has a positive root, it returns one. -/
def PosSolver (fsolve : (ℝ → ℝ) → ℝ → ℝ) : Prop :=
  ∀ f x0, (∃ x > 0, f x = 0) → 0 < fsolve f x0 ∧ f (fsolve f x0) = 0

/-- Physically meaningful input. -/
structure ValidInit (p : InitIn) : Prop where
  P : 0 < p.P
  A : 0 < p.A
  E : 0 < p.E
  K : 0 < p.K
  n : 0 < p.n
  b : p.b < 0
  c : p.c < 0
  sigma_f : 0 < p.sigma_f
  epsilon_f : 0 < p.epsilon_f
  Kt : 1 ≤ p.Kt
  q : 0 ≤ p.q
  method : p.method ∈ ["morrow", "modified_morrow", "SWT"]

/-- Neuber's constant: the product of local stress and strain for a notch-corrected elastic stress. -/
noncomputable def neuber (p : InitIn) : ℝ := ((1 + p.q * (p.Kt - 1)) * (10 ^ 6 * p.P / p.A)) ^ 2 / p.E

theorem neuber_pos {p : InitIn} (h : ValidInit p) : 0 < neuber p := by
  unfold neuber
  have := h.P; have := h.A; have := h.E
  have : 0 < 1 + p.q * (p.Kt - 1) := by nlinarith [h.q, h.Kt]
  positivity

/-! ### uniqueness and existence of the roots -/

theorem ro_strict {E K r s s' : ℝ} (hE : 0 < E) (hK : 0 < K) (hr : 0 < r) (hs : 0 < s) (h : s < s') :
    s * (s / E + (s / K) ^ r) < s' * (s' / E + (s' / K) ^ r) := by
  have h1 : s / E < s' / E := div_lt_div_of_pos_right h hE
  have h2 : (s / K) ^ r < (s' / K) ^ r :=
    Real.rpow_lt_rpow (div_pos hs hK).le (div_lt_div_of_pos_right h hK) hr
  have h3 : 0 < (s / K) ^ r := Real.rpow_pos_of_pos (div_pos hs hK) _
  have h4 : 0 < s / E := div_pos hs hE
  nlinarith

theorem ro_unique {E K r A s s' : ℝ} (hE : 0 < E) (hK : 0 < K) (hr : 0 < r) (hs : 0 < s) (hs' : 0 < s')
    (h : s / E + (s / K) ^ r = A / s) (h' : s' / E + (s' / K) ^ r = A / s') : s = s' := by
  have e : s * (s / E + (s / K) ^ r) = s' * (s' / E + (s' / K) ^ r) := by
    rw [h, h']; field_simp
  rcases lt_trichotomy s s' with hlt | rfl | hlt
  · exact absurd e (ro_strict hE hK hr hs hlt).ne
  · rfl
  · exact absurd e (ro_strict hE hK hr hs' hlt).ne'

theorem ro_exists {E K r A : ℝ} (hE : 0 < E) (hK : 0 < K) (hr : 0 < r) (hA : 0 < A) :
    ∃ s > 0, s / E + (s / K) ^ r - A / s = 0 := by
  have hcont : ContinuousOn (fun s : ℝ => s * (s / E + (s / K) ^ r)) (Set.Icc 0 (Real.sqrt (A * E))) := by
    apply Continuous.continuousOn
    have : Continuous fun s : ℝ => (s / K) ^ r := by
      apply Continuous.rpow_const (by fun_prop)
      intro x; right; exact hr.le
    fun_prop
  have hX : 0 ≤ Real.sqrt (A * E) := Real.sqrt_nonneg _
  have hmem : A ∈ Set.Icc ((fun s : ℝ => s * (s / E + (s / K) ^ r)) 0)
      ((fun s : ℝ => s * (s / E + (s / K) ^ r)) (Real.sqrt (A * E))) := by
    refine ⟨by simpa using hA.le, ?_⟩
    simp only
    have h1 : Real.sqrt (A * E) * (Real.sqrt (A * E) / E) = A := by
      rw [← mul_div_assoc, Real.mul_self_sqrt (by positivity)]; field_simp
    have h2 : 0 ≤ (Real.sqrt (A * E) / K) ^ r := Real.rpow_nonneg (by positivity) _
    nlinarith [mul_nonneg hX h2]
  obtain ⟨s, hs, he⟩ := intermediate_value_Icc hX hcont hmem
  simp only at he
  have hs0 : 0 < s := by
    rcases hs.1.lt_or_eq with h | h
    · exact h
    · rw [← h] at he; simp at he; linarith
  refine ⟨s, hs0, ?_⟩
  rw [sub_eq_zero, eq_div_iff hs0.ne']; linarith

/-- Strain-life curve. -/
theorem life_strict {α β b c x y : ℝ} (hα : 0 < α) (hβ : 0 ≤ β) (hb : b < 0) (hc : c < 0) (hx : 0 < x) (h : x < y) :
    α * y ^ b + β * y ^ c < α * x ^ b + β * x ^ c := by
  have h1 : y ^ b < x ^ b := Real.rpow_lt_rpow_of_neg hx h hb
  have h2 : y ^ c < x ^ c := Real.rpow_lt_rpow_of_neg hx h hc
  nlinarith

theorem life_unique {α β b c x y : ℝ} (hα : 0 < α) (hβ : 0 ≤ β) (hb : b < 0) (hc : c < 0) (hx : 0 < x) (hy : 0 < y)
    (h : α * x ^ b + β * x ^ c = α * y ^ b + β * y ^ c) : x = y := by
  rcases lt_trichotomy x y with hlt | rfl | hlt
  · exact absurd h (life_strict hα hβ hb hc hx hlt).ne'
  · rfl
  · exact absurd h (life_strict hα hβ hb hc hy hlt).ne

theorem pow_root {α b e : ℝ} (hα : 0 < α) (hb : b < 0) (he : 0 < e) : ∃ x > 0, α * x ^ b = e := by
  refine ⟨(e / α) ^ (1 / b), Real.rpow_pos_of_pos (div_pos he hα) _, ?_⟩
  rw [← Real.rpow_mul (div_pos he hα).le, one_div_mul_cancel hb.ne, Real.rpow_one]
  field_simp

theorem life_exists {α β b c e : ℝ} (hα : 0 < α) (hβ : 0 ≤ β) (hb : b < 0) (hc : c < 0) (he : 0 < e) :
    ∃ x > 0, α * x ^ b + β * x ^ c - e = 0 := by
  obtain ⟨x1, hx1, e1⟩ := pow_root hα hb he
  obtain ⟨x2, hx2, e2⟩ := pow_root hα hb (half_pos he)
  obtain ⟨x3, hx3, e3⟩ : ∃ x > 0, β * x ^ c ≤ e / 2 := by
    rcases hβ.lt_or_eq with h | h
    · obtain ⟨x, hx, e⟩ := pow_root h hc (half_pos he)
      exact ⟨x, hx, e.le⟩
    · exact ⟨1, one_pos, by rw [← h]; linarith⟩
  set X := max x1 (max x2 x3) with hX
  have hXpos : 0 < X := lt_of_lt_of_le hx1 (le_max_left _ _)
  have hle1 : x1 ≤ X := le_max_left _ _
  have hle2 : x2 ≤ X := le_trans (le_max_left _ _) (le_max_right _ _)
  have hle3 : x3 ≤ X := le_trans (le_max_right _ _) (le_max_right _ _)
  have hcont : ContinuousOn (fun x : ℝ => α * x ^ b + β * x ^ c) (Set.Icc x1 X) := by
    intro x hx
    have hx0 : x ≠ 0 := (lt_of_lt_of_le hx1 hx.1).ne'
    apply ContinuousAt.continuousWithinAt
    exact ((Real.continuousAt_rpow_const x b (.inl hx0)).const_mul α).add
      ((Real.continuousAt_rpow_const x c (.inl hx0)).const_mul β)
  have hmem : e ∈ Set.Icc ((fun x : ℝ => α * x ^ b + β * x ^ c) X) ((fun x : ℝ => α * x ^ b + β * x ^ c) x1) := by
    constructor
    · simp only
      have h2 : X ^ b ≤ x2 ^ b := Real.rpow_le_rpow_of_nonpos hx2 hle2 hb.le
      have h3 : X ^ c ≤ x3 ^ c := Real.rpow_le_rpow_of_nonpos hx3 hle3 hc.le
      nlinarith
    · simp only
      have : 0 ≤ x1 ^ c := (Real.rpow_pos_of_pos hx1 c).le
      nlinarith
  obtain ⟨x, hx, hxe⟩ := intermediate_value_Icc' hle1 hcont hmem
  exact ⟨x, lt_of_lt_of_le hx1 hx.1, by simp only at hxe; linarith⟩

/-! ### the property -/

/-- The strain-life relation of the chosen method at zero mean stress: Basquin's elastic term and (beyond yield) the
Coffin-Manson plastic term; SWT multiplies by the maximum stress. `plastic` is 1 or 0. -/
noncomputable def lifeRelation (p : InitIn) (plastic sigma epsilon twoN : ℝ) : Prop :=
  if p.method = "SWT" then
    sigma * epsilon = p.sigma_f ^ 2 / p.E * twoN ^ (2 * p.b) + plastic * (p.sigma_f * p.epsilon_f * twoN ^ (p.b + p.c))
  else epsilon = p.sigma_f / p.E * twoN ^ p.b + plastic * (p.epsilon_f * twoN ^ p.c)

/-- The local stress and strain (`sigma`, `epsilon`) of fully reversed loading, with `N` cycles to initiation. -/
structure IsInitiation (p : InitIn) (plastic : ℝ) (out : InitOut) : Prop where
  /-- local stress and strain: on the material's curve and on Neuber's hyperbola -/
  sigma_pos : 0 < out.sigma_max
  curve : out.epsilon_max = out.sigma_max / p.E + plastic * (out.sigma_max / p.K) ^ (1 / p.n)
  neuber : out.sigma_max * out.epsilon_max = neuber p
  /-- fully reversed: symmetric about zero -/
  sigma_min : out.sigma_min = -out.sigma_max
  epsilon_min : out.epsilon_min = -out.epsilon_max
  sigma_mean : out.sigma_mean = 0
  epsilon_mean : out.epsilon_mean = 0
  /-- the number of reversals satisfies the strain-life relation -/
  cycles_pos : 0 < out.cycles_to_failure
  life : lifeRelation p plastic out.sigma_max out.epsilon_max (2 * out.cycles_to_failure)

theorem method_cases {p : InitIn} (h : ValidInit p) : p.method = "morrow" ∨ p.method = "modified_morrow" ∨ p.method = "SWT" := by
  have := h.method
  simpa using this

/-- The local stress the code finds. -/
theorem plastic_roots {fsolve : (ℝ → ℝ) → ℝ → ℝ} (hf : PosSolver fsolve) {p : InitIn} (h : ValidInit p) :
    let s := fsolve (fun s => s / p.E + (s / p.K) ^ (1 / p.n) - neuber p / s) 100
    let ds := fsolve (fun x => x / (2 * p.E) + (x / (2 * p.K)) ^ (1 / p.n) - (4 * neuber p) / (2 * x)) 100
    0 < s ∧ s / p.E + (s / p.K) ^ (1 / p.n) = neuber p / s ∧ ds = 2 * s := by
  intro s ds
  have hr : 0 < 1 / p.n := one_div_pos.2 h.n
  have hA := neuber_pos h
  obtain ⟨h1, h2⟩ := hf (fun s => s / p.E + (s / p.K) ^ (1 / p.n) - neuber p / s) 100 (ro_exists h.E h.K hr hA)
  have h2 : s / p.E + (s / p.K) ^ (1 / p.n) = neuber p / s := by
    have : s / p.E + (s / p.K) ^ (1 / p.n) - neuber p / s = 0 := h2
    linarith
  have hred : ∀ x : ℝ, x / (2 * p.E) + (x / (2 * p.K)) ^ (1 / p.n) - (4 * neuber p) / (2 * x) =
      (x / 2) / p.E + ((x / 2) / p.K) ^ (1 / p.n) - neuber p / (x / 2) := by
    intro x
    rw [show x / (2 * p.E) = x / 2 / p.E by rw [div_div], show x / (2 * p.K) = x / 2 / p.K by rw [div_div]]
    congr 1
    rcases eq_or_ne x 0 with rfl | hx
    · simp
    · field_simp; ring
  obtain ⟨h3, h4⟩ := hf (fun x => x / (2 * p.E) + (x / (2 * p.K)) ^ (1 / p.n) - (4 * neuber p) / (2 * x)) 100 (by
    refine ⟨2 * s, by positivity, ?_⟩
    have h1' : 0 < s := h1
    rw [hred, mul_div_cancel_left₀ _ (by norm_num : (2:ℝ) ≠ 0)]
    linarith)
  have h4 : (ds / 2) / p.E + ((ds / 2) / p.K) ^ (1 / p.n) = neuber p / (ds / 2) := by
    have : ds / (2 * p.E) + (ds / (2 * p.K)) ^ (1 / p.n) - (4 * neuber p) / (2 * ds) = 0 := h4
    rw [hred] at this; linarith
  have h3 : 0 < ds := h3
  refine ⟨h1, h2, ?_⟩
  have := ro_unique h.E h.K hr (by positivity) h1 h4 h2
  linarith

theorem elastic_root {fsolve : (ℝ → ℝ) → ℝ → ℝ} (hf : PosSolver fsolve) {E B : ℝ} (hE : 0 < E) (hB : 0 < B) (x0 : ℝ) :
    fsolve (fun s => s / E - B ^ 2 / E / s) x0 = B := by
  obtain ⟨h1, h2⟩ := hf (fun s => s / E - B ^ 2 / E / s) x0 ⟨B, hB, by field_simp; ring⟩
  generalize fsolve (fun s => s / E - B ^ 2 / E / s) x0 = s at h1 h2
  have : s ^ 2 = B ^ 2 := by field_simp at h2; linarith
  exact (pow_left_inj₀ h1.le hB.le (by norm_num)).1 this

theorem sigma_eps_eq (p : InitIn) : (p.Kf * p.Snet) ^ 2 / p.E = neuber p ∧ (p.Kf * p.Snet * 2) ^ 2 / p.E = 4 * neuber p := by
  unfold neuber InitIn.Kf InitIn.Snet
  exact ⟨rfl, by ring⟩

theorem nf_plastic {fsolve : (ℝ → ℝ) → ℝ → ℝ} (hf : PosSolver fsolve) {p : InitIn} (h : ValidInit p) {s e : ℝ}
    (hs : 0 < s) (he : 0 < e) :
    let N2 := if p.method = "morrow" then
            fsolve (fun x => (p.sigma_f - 0) / p.E * x ^ p.b + p.epsilon_f * x ^ p.c - 2 * e * 0.5) 100
          else if p.method = "modified_morrow" then
            fsolve (fun x => (p.sigma_f - 0) / p.E * x ^ p.b +
              p.epsilon_f * ((p.sigma_f - 0) / p.sigma_f) ^ (p.c / p.b) * x ^ p.c - 2 * e * 0.5) 100
          else
            fsolve (fun x => p.sigma_f ^ 2 / p.E * x ^ (2 * p.b) + p.sigma_f * p.epsilon_f * x ^ (p.b + p.c) -
              s * (2 * e) * 0.5) 100
    0 < N2 ∧ lifeRelation p 1 s e N2 := by
  intro N2
  have hE := h.E; have hσ := h.sigma_f; have hε := h.epsilon_f; have hb := h.b; have hc := h.c
  have hα : 0 < p.sigma_f / p.E := div_pos hσ hE
  unfold lifeRelation
  rcases method_cases h with hm | hm | hm
  · obtain ⟨h1, h2⟩ := hf (fun x => (p.sigma_f - 0) / p.E * x ^ p.b + p.epsilon_f * x ^ p.c - 2 * e * 0.5) 100 (by
      obtain ⟨x, hx, hx'⟩ := life_exists hα hε.le hb hc he
      exact ⟨x, hx, by rw [sub_zero]; linarith⟩)
    have hN : N2 = fsolve (fun x => (p.sigma_f - 0) / p.E * x ^ p.b + p.epsilon_f * x ^ p.c - 2 * e * 0.5) 100 :=
      if_pos hm
    rw [if_neg (by rw [hm]; decide), hN]
    refine ⟨h1, ?_⟩
    simp only [sub_zero] at h2 ⊢
    linarith
  · have hone : (p.sigma_f / p.sigma_f) ^ (p.c / p.b) = 1 := by rw [div_self hσ.ne', Real.one_rpow]
    obtain ⟨h1, h2⟩ := hf (fun x => (p.sigma_f - 0) / p.E * x ^ p.b +
              p.epsilon_f * ((p.sigma_f - 0) / p.sigma_f) ^ (p.c / p.b) * x ^ p.c - 2 * e * 0.5) 100 (by
      obtain ⟨x, hx, hx'⟩ := life_exists hα hε.le hb hc he
      exact ⟨x, hx, by rw [sub_zero, hone]; linarith⟩)
    have hN : N2 = fsolve (fun x => (p.sigma_f - 0) / p.E * x ^ p.b +
              p.epsilon_f * ((p.sigma_f - 0) / p.sigma_f) ^ (p.c / p.b) * x ^ p.c - 2 * e * 0.5) 100 := by
      show ite _ _ _ = _
      rw [if_neg (by rw [hm]; decide), if_pos hm]
    rw [if_neg (by rw [hm]; decide), hN]
    refine ⟨h1, ?_⟩
    simp only [sub_zero, hone, mul_one] at h2 ⊢
    linarith
  · obtain ⟨h1, h2⟩ := hf (fun x => p.sigma_f ^ 2 / p.E * x ^ (2 * p.b) + p.sigma_f * p.epsilon_f * x ^ (p.b + p.c) -
              s * (2 * e) * 0.5) 100 (by
      obtain ⟨x, hx, hx'⟩ := life_exists (α := p.sigma_f ^ 2 / p.E) (β := p.sigma_f * p.epsilon_f) (b := 2 * p.b)
        (c := p.b + p.c) (e := s * e) (by positivity) (by positivity) (by linarith) (by linarith) (by positivity)
      exact ⟨x, hx, by linarith⟩)
    have hN : N2 = fsolve (fun x => p.sigma_f ^ 2 / p.E * x ^ (2 * p.b) + p.sigma_f * p.epsilon_f * x ^ (p.b + p.c) -
              s * (2 * e) * 0.5) 100 := by
      show ite _ _ _ = _
      rw [if_neg (by rw [hm]; decide), if_neg (by rw [hm]; decide)]
    rw [if_pos hm, hN]
    refine ⟨h1, ?_⟩
    linarith

/-- **C78 (beyond yield).** Whatever the root finder's path, the result is the fully reversed state on the Ramberg-Osgood
curve satisfying Neuber's rule, with the number of cycles given by the chosen strain-life relation; if the strain range
of that state exceeds 1 it is a ValueError instead. -/
theorem C78_plastic (fsolve : (ℝ → ℝ) → ℝ → ℝ) (hf : PosSolver fsolve) (p : InitIn) (h : ValidInit p)
    (hy : p.Sy < p.Kt * (10 ^ 6 * p.P / p.A)) :
    ∃ s > 0, s / p.E + (s / p.K) ^ (1 / p.n) = neuber p / s ∧
      if 1 < 2 * (neuber p / s) then crackInitiation fsolve p = .error .valueError
      else ∃ out, crackInitiation fsolve p = .ok out ∧ out.sigma_max = s ∧ IsInitiation p 1 out := by
  obtain ⟨h1, h2, h3⟩ := plastic_roots hf h
  set s := fsolve (fun s => s / p.E + (s / p.K) ^ (1 / p.n) - neuber p / s) 100 with hs
  set ds := fsolve (fun x => x / (2 * p.E) + (x / (2 * p.K)) ^ (1 / p.n) - (4 * neuber p) / (2 * x)) 100 with hds
  refine ⟨s, h1, h2, ?_⟩
  have hA := neuber_pos h
  have hde : 4 * neuber p / ds = 2 * (neuber p / s) := by rw [h3]; field_simp; ring
  have hmean : s - ds + ds * 0.5 = 0 := by rw [h3]; ring
  have he : 0 < neuber p / s := div_pos hA h1
  have hmeth : ¬ p.method ∉ ["morrow", "modified_morrow", "SWT"] := fun hm => hm h.method
  unfold crackInitiation
  rw [if_neg hmeth]
  simp only [(sigma_eps_eq p).1, (sigma_eps_eq p).2]
  rw [if_pos (show p.Kt * p.Snet > p.Sy from hy), ← hs, ← hds, hde, hmean]
  by_cases hgt : 1 < 2 * (neuber p / s)
  · rw [if_pos hgt, if_pos hgt]
  · rw [if_neg hgt, if_neg hgt]
    obtain ⟨hN, hlife⟩ := nf_plastic hf h h1 he
    refine ⟨_, rfl, rfl, ⟨h1, ?_, ?_, ?_, ?_, rfl, ?_, half_pos hN, ?_⟩⟩
    · simp only; rw [one_mul, h2]
    · simp only; field_simp
    · simp only; rw [h3]; ring
    · simp only; ring
    · simp only; ring
    · simp only
      rw [mul_div_cancel₀ _ (two_ne_zero)]
      exact hlife

/-- **C78 (below yield).** The local stress is the notch-corrected elastic stress, and the three mean stress methods give
the same number of cycles: the Basquin life of that stress. -/
theorem C78_elastic (fsolve : (ℝ → ℝ) → ℝ → ℝ) (hf : PosSolver fsolve) (p : InitIn) (h : ValidInit p)
    (hy : p.Kt * (10 ^ 6 * p.P / p.A) ≤ p.Sy) :
    ∃ out, crackInitiation fsolve p = .ok out ∧ IsInitiation p 0 out ∧
      out.sigma_max = (1 + p.q * (p.Kt - 1)) * (10 ^ 6 * p.P / p.A) ∧
      p.sigma_f * (2 * out.cycles_to_failure) ^ p.b = out.sigma_max := by
  set B := (1 + p.q * (p.Kt - 1)) * (10 ^ 6 * p.P / p.A) with hB
  have hB0 : 0 < B := by
    have := h.P; have := h.A
    have : 0 < 1 + p.q * (p.Kt - 1) := by nlinarith [h.q, h.Kt]
    positivity
  have hE := h.E; have hσ := h.sigma_f; have hb := h.b
  have hα : 0 < p.sigma_f / p.E := div_pos hσ hE
  have hn : neuber p = B ^ 2 / p.E := rfl
  have hs : fsolve (fun s => s / p.E - neuber p / s) 100 = B := elastic_root hf hE hB0 100
  have hds : fsolve (fun x => x / (2 * p.E) - (4 * neuber p) / (2 * x)) 100 = 2 * B := by
    have := elastic_root hf (E := 2 * p.E) (B := 2 * B) (by linarith) (by linarith) 100
    rw [← this]
    congr 1
    funext x
    rw [hn]
    congr 1
    rcases eq_or_ne x 0 with rfl | hx
    · simp
    · field_simp; ring
  have hde : 4 * neuber p / (2 * B) = 2 * (B / p.E) := by rw [hn]; field_simp; ring
  have hmean : B - 2 * B + 2 * B * 0.5 = 0 := by ring
  have hN : ∃ N2, N2 > 0 ∧ p.sigma_f * N2 ^ p.b = B ∧ (if p.method = "morrow" then
          fsolve (fun x => (p.sigma_f - 0) / p.E * x ^ p.b - 2 * (B / p.E) * 0.5) 1000
        else if p.method = "modified_morrow" then
          fsolve (fun x => (p.sigma_f - 0) / p.E * x ^ p.b - 2 * (B / p.E) * 0.5) 1000
        else
          fsolve (fun x => p.sigma_f ^ 2 / p.E * x ^ (2 * p.b) - B * (2 * (B / p.E)) * 0.5) 1000) = N2 := by
    obtain ⟨x, hx, hxe⟩ := pow_root hσ hb hB0
    have hm1 := hf (fun x => (p.sigma_f - 0) / p.E * x ^ p.b - 2 * (B / p.E) * 0.5) 1000 ⟨x, hx, by
      simp only [sub_zero]; rw [← hxe]; ring⟩
    have hm2 := hf (fun x => p.sigma_f ^ 2 / p.E * x ^ (2 * p.b) - B * (2 * (B / p.E)) * 0.5) 1000 ⟨x, hx, by
      rw [show 2 * p.b = p.b * 2 by ring, Real.rpow_mul hx.le, show (2:ℝ) = ((2:ℕ):ℝ) by norm_num, Real.rpow_natCast,
        ← hxe]
      push_cast
      ring⟩
    refine ⟨_, ?_, ?_, rfl⟩
    · rcases method_cases h with hm | hm | hm
      · rw [if_pos hm]; exact hm1.1
      · rw [if_neg (by rw [hm]; decide), if_pos hm]; exact hm1.1
      · rw [if_neg (by rw [hm]; decide), if_neg (by rw [hm]; decide)]; exact hm2.1
    · have key1 : p.sigma_f * (fsolve (fun x => (p.sigma_f - 0) / p.E * x ^ p.b - 2 * (B / p.E) * 0.5) 1000) ^ p.b = B := by
        have := hm1.2
        simp only [sub_zero] at this ⊢
        have h3 : p.sigma_f / p.E * (fsolve (fun x => p.sigma_f / p.E * x ^ p.b - 2 * (B / p.E) * 0.5) 1000) ^ p.b =
          B / p.E := by linarith
        rw [div_mul_eq_mul_div, div_left_inj' hE.ne'] at h3
        exact h3
      rcases method_cases h with hm | hm | hm
      · rw [if_pos hm]; exact key1
      · rw [if_neg (by rw [hm]; decide), if_pos hm]; exact key1
      · rw [if_neg (by rw [hm]; decide), if_neg (by rw [hm]; decide)]
        obtain ⟨g1, g2⟩ := hm2
        generalize fsolve (fun x => p.sigma_f ^ 2 / p.E * x ^ (2 * p.b) - B * (2 * (B / p.E)) * 0.5) 1000 = y at g1 g2 ⊢
        rw [show 2 * p.b = p.b * 2 by ring, Real.rpow_mul g1.le, show (2:ℝ) = ((2:ℕ):ℝ) by norm_num,
          Real.rpow_natCast] at g2
        push_cast at g2
        have hpw : 0 < y ^ p.b := Real.rpow_pos_of_pos g1 _
        have : (p.sigma_f * y ^ p.b) ^ 2 = B ^ 2 := by
          field_simp at g2; nlinarith
        exact (pow_left_inj₀ (by positivity) hB0.le (by norm_num)).1 this
  obtain ⟨N2, hN0, hNe, hNeq⟩ := hN
  have hmeth : ¬ p.method ∉ ["morrow", "modified_morrow", "SWT"] := fun hm => hm h.method
  unfold crackInitiation
  rw [if_neg hmeth]
  simp only [(sigma_eps_eq p).1, (sigma_eps_eq p).2]
  rw [if_neg (show ¬ p.Kt * p.Snet > p.Sy from not_lt.2 hy), hs, hds, hde, hmean, hNeq]
  have heps : neuber p / B = B / p.E := by rw [hn]; field_simp
  rw [heps]
  refine ⟨_, rfl, ⟨hB0, ?_, ?_, ?_, ?_, rfl, ?_, half_pos hN0, ?_⟩, rfl, ?_⟩
  · simp only; ring
  · simp only; rw [hn]; field_simp
  · simp only; ring
  · simp only; ring
  · simp only; ring
  · unfold lifeRelation
    simp only
    rw [mul_div_cancel₀ _ (two_ne_zero)]
    by_cases hm : p.method = "SWT"
    · rw [if_pos hm, show 2 * p.b = p.b * 2 by ring, Real.rpow_mul hN0.le, show (2:ℝ) = ((2:ℕ):ℝ) by norm_num,
        Real.rpow_natCast, ← hNe]
      push_cast
      ring
    · rw [if_neg hm, ← hNe]; ring
  · simp only
    rw [mul_div_cancel₀ _ (two_ne_zero)]; exact hNe

theorem lifeRelation_unique {p : InitIn} (h : ValidInit p) {pl s e x y : ℝ} (hpl : pl = 0 ∨ pl = 1) (hx : 0 < x)
    (hy : 0 < y) (h1 : lifeRelation p pl s e x) (h2 : lifeRelation p pl s e y) : x = y := by
  have hE := h.E; have hσ := h.sigma_f; have hε := h.epsilon_f; have hb := h.b; have hc := h.c
  have hpl0 : 0 ≤ pl := by rcases hpl with rfl | rfl <;> norm_num
  unfold lifeRelation at h1 h2
  by_cases hm : p.method = "SWT"
  · rw [if_pos hm] at h1 h2
    refine life_unique (α := p.sigma_f ^ 2 / p.E) (β := pl * (p.sigma_f * p.epsilon_f)) (b := 2 * p.b) (c := p.b + p.c)
      (by positivity) (by positivity) (by linarith) (by linarith) hx hy ?_
    linarith
  · rw [if_neg hm] at h1 h2
    refine life_unique (α := p.sigma_f / p.E) (β := pl * p.epsilon_f) (b := p.b) (c := p.c) (by positivity)
      (by positivity) hb hc hx hy ?_
    linarith

/-- **C78 (methods).** "morrow" and "modified_morrow" always give the same result, because the loading modelled is fully
reversed; and the answer does not depend on which root finder (or start value) is used. -/
theorem C78_methods_agree (f1 f2 : (ℝ → ℝ) → ℝ → ℝ) (hf1 : PosSolver f1) (hf2 : PosSolver f2) (p : InitIn)
    (h : ValidInit p) :
    crackInitiation f1 p = crackInitiation f2 p ∧
    crackInitiation f1 { p with method := "morrow" } = crackInitiation f2 { p with method := "modified_morrow" } := by
  have det : ∀ (p q : InitIn), ValidInit p → ValidInit q → q = { p with method := q.method } →
      (p.method = "SWT" ↔ q.method = "SWT") → crackInitiation f1 p = crackInitiation f2 q := by
    intro p q hp hq e hiff
    have eP : q.P = p.P := by rw [e]
    have eA : q.A = p.A := by rw [e]
    have eS : q.Sy = p.Sy := by rw [e]
    have eE : q.E = p.E := by rw [e]
    have eK : q.K = p.K := by rw [e]
    have en : q.n = p.n := by rw [e]
    have eb : q.b = p.b := by rw [e]
    have ec : q.c = p.c := by rw [e]
    have es : q.sigma_f = p.sigma_f := by rw [e]
    have ee : q.epsilon_f = p.epsilon_f := by rw [e]
    have eKt : q.Kt = p.Kt := by rw [e]
    have eq : q.q = p.q := by rw [e]
    have eneu : neuber q = neuber p := by unfold neuber; rw [eP, eA, eE, eKt, eq]
    have hlr : ∀ pl s ε x, lifeRelation q pl s ε x ↔ lifeRelation p pl s ε x := by
      intro pl s ε x
      unfold lifeRelation
      rw [eE, es, ee, eb, ec]
      by_cases hm : p.method = "SWT"
      · rw [if_pos hm, if_pos (hiff.1 hm)]
      · rw [if_neg hm, if_neg (fun h => hm (hiff.2 h))]
    have same : ∀ pl, (pl = 0 ∨ pl = 1) → ∀ o1 o2, IsInitiation p pl o1 → IsInitiation q pl o2 →
        o1.sigma_max = o2.sigma_max → o1 = o2 := by
      intro pl hpl o1 o2 h1 h2 hs
      have heps : o1.epsilon_max = o2.epsilon_max := by rw [h1.curve, h2.curve, hs, eE, eK, en]
      have hc : o1.cycles_to_failure = o2.cycles_to_failure := by
        have l1 := h1.life
        have l2 := (hlr _ _ _ _).1 h2.life
        rw [← hs, ← heps] at l2
        have := lifeRelation_unique hp hpl (by linarith [h1.cycles_pos]) (by linarith [h2.cycles_pos]) l1 l2
        linarith
      have a1 := h1.sigma_min; have a2 := h2.sigma_min; have b1 := h1.epsilon_min; have b2 := h2.epsilon_min
      have c1 := h1.sigma_mean; have c2 := h2.sigma_mean; have d1 := h1.epsilon_mean; have d2 := h2.epsilon_mean
      cases o1; cases o2
      simp only at *
      subst hs heps hc a1 a2 b1 b2 c1 c2 d1 d2
      rfl
    by_cases hy : p.Sy < p.Kt * (10 ^ 6 * p.P / p.A)
    · obtain ⟨s1, hs1, r1, h1⟩ := C78_plastic f1 hf1 p hp hy
      obtain ⟨s2, hs2, r2, h2⟩ := C78_plastic f2 hf2 q hq (by rw [eS, eKt, eP, eA]; exact hy)
      rw [eE, eK, en, eneu] at r2
      rw [eneu] at h2
      have hs : s1 = s2 := ro_unique hp.E hp.K (one_div_pos.2 hp.n) hs1 hs2 r1 r2
      subst hs
      by_cases hgt : 1 < 2 * (neuber p / s1)
      · rw [if_pos hgt] at h1 h2; rw [h1, h2]
      · rw [if_neg hgt] at h1 h2
        obtain ⟨o1, e1, m1, i1⟩ := h1
        obtain ⟨o2, e2, m2, i2⟩ := h2
        rw [e1, e2, same 1 (.inr rfl) o1 o2 i1 i2 (by rw [m1, m2])]
    · obtain ⟨o1, e1, i1, m1, -⟩ := C78_elastic f1 hf1 p hp (not_lt.1 hy)
      obtain ⟨o2, e2, i2, m2, -⟩ := C78_elastic f2 hf2 q hq (by rw [eS, eKt, eP, eA]; exact not_lt.1 hy)
      rw [e1, e2, same 0 (.inl rfl) o1 o2 i1 i2 (by rw [m1, m2, eq, eKt, eP, eA])]
  refine ⟨det p p h h rfl Iff.rfl, det _ _ ?_ ?_ rfl (by simp)⟩
  · exact ⟨h.P, h.A, h.E, h.K, h.n, h.b, h.c, h.sigma_f, h.epsilon_f, h.Kt, h.q, by simp⟩
  · exact ⟨h.P, h.A, h.E, h.K, h.n, h.b, h.c, h.sigma_f, h.epsilon_f, h.Kt, h.q, by simp⟩

/-- **C78 (more load, shorter life).** Two loads on the same component, both beyond yield or both below it: the larger load
gives larger local stress and strain and fewer cycles. -/
theorem C78_monotone (fsolve : (ℝ → ℝ) → ℝ → ℝ) (hf : PosSolver fsolve) (p : InitIn) (h : ValidInit p) (P' : ℝ)
    (hP : p.P < P')
    (hreg : p.Sy < p.Kt * (10 ^ 6 * p.P / p.A) ∨ p.Kt * (10 ^ 6 * P' / p.A) ≤ p.Sy) (o o' : InitOut)
    (ho : crackInitiation fsolve p = .ok o) (ho' : crackInitiation fsolve { p with P := P' } = .ok o') :
    o.sigma_max < o'.sigma_max ∧ o.epsilon_max < o'.epsilon_max ∧ o'.cycles_to_failure < o.cycles_to_failure := by
  have h' : ValidInit { p with P := P' } :=
    ⟨h.P.trans hP, h.A, h.E, h.K, h.n, h.b, h.c, h.sigma_f, h.epsilon_f, h.Kt, h.q, h.method⟩
  have hE := h.E; have hσ := h.sigma_f; have hε := h.epsilon_f; have hb := h.b; have hc := h.c
  have hA := h.A
  have hload : 10 ^ 6 * p.P / p.A < 10 ^ 6 * P' / p.A := by
    apply div_lt_div_of_pos_right _ hA; linarith
  have hkf : 0 < 1 + p.q * (p.Kt - 1) := by nlinarith [h.q, h.Kt]
  have hS0 : 0 < 10 ^ 6 * p.P / p.A := by have := h.P; positivity
  have hneu : neuber p < neuber { p with P := P' } := by
    unfold neuber
    apply div_lt_div_of_pos_right _ hE
    apply pow_lt_pow_left₀ _ (by positivity) (by norm_num)
    exact mul_lt_mul_of_pos_left hload hkf
  have hsig : ∃ pl, (pl = 0 ∨ pl = 1) ∧ IsInitiation p pl o ∧ IsInitiation { p with P := P' } pl o' := by
    rcases hreg with hy | hy
    · have hy' : p.Sy < p.Kt * (10 ^ 6 * P' / p.A) := by nlinarith [h.Kt]
      obtain ⟨s, -, -, h1⟩ := C78_plastic fsolve hf p h hy
      obtain ⟨s', -, -, h2⟩ := C78_plastic fsolve hf _ h' hy'
      refine ⟨1, .inr rfl, ?_, ?_⟩
      · split at h1
        · rw [ho] at h1; cases h1
        · obtain ⟨q, e, -, i⟩ := h1; rw [ho] at e; cases e; exact i
      · split at h2
        · rw [ho'] at h2; cases h2
        · obtain ⟨q, e, -, i⟩ := h2; rw [ho'] at e; cases e; exact i
    · have hy' : p.Kt * (10 ^ 6 * p.P / p.A) ≤ p.Sy := by nlinarith [h.Kt]
      obtain ⟨q, e, i, -⟩ := C78_elastic fsolve hf p h hy'
      obtain ⟨q', e', i', -⟩ := C78_elastic fsolve hf _ h' hy
      rw [ho] at e; cases e
      rw [ho'] at e'; cases e'
      exact ⟨0, .inl rfl, i, i'⟩
  obtain ⟨pl, hpl, i, i'⟩ := hsig
  have hpl0 : 0 ≤ pl := by rcases hpl with rfl | rfl <;> norm_num
  have hr : 0 < 1 / p.n := one_div_pos.2 h.n
  have c1 := i.curve; have c2 := i'.curve
  simp only at c2
  have hmono : ∀ {x y : ℝ}, 0 < x → x ≤ y → x / p.E + pl * (x / p.K) ^ (1 / p.n) ≤ y / p.E + pl * (y / p.K) ^ (1 / p.n) := by
    intro x y hx hxy
    have e1 : x / p.E ≤ y / p.E := div_le_div_of_nonneg_right hxy hE.le
    have e2 : (x / p.K) ^ (1 / p.n) ≤ (y / p.K) ^ (1 / p.n) :=
      Real.rpow_le_rpow (div_pos hx h.K).le (div_le_div_of_nonneg_right hxy h.K.le) hr.le
    nlinarith
  have hepos : ∀ {x : ℝ}, 0 < x → 0 < x / p.E + pl * (x / p.K) ^ (1 / p.n) := by
    intro x hx
    have e1 : 0 < x / p.E := div_pos hx hE
    have e2 : 0 < (x / p.K) ^ (1 / p.n) := Real.rpow_pos_of_pos (div_pos hx h.K) _
    nlinarith
  have hs : o.sigma_max < o'.sigma_max := by
    by_contra hn
    have hn := not_lt.1 hn
    have n1 := i.neuber; have n2 := i'.neuber
    have hm := hmono i'.sigma_pos hn
    have := hepos i'.sigma_pos
    rw [c1] at n1; rw [c2] at n2
    nlinarith [i.sigma_pos, i'.sigma_pos]
  have he : o.epsilon_max < o'.epsilon_max := by
    have e1 : o.sigma_max / p.E < o'.sigma_max / p.E := div_lt_div_of_pos_right hs hE
    have e2 : (o.sigma_max / p.K) ^ (1 / p.n) ≤ (o'.sigma_max / p.K) ^ (1 / p.n) :=
      Real.rpow_le_rpow (div_pos i.sigma_pos h.K).le (div_le_div_of_nonneg_right hs.le h.K.le) hr.le
    rw [c1, c2]; nlinarith
  refine ⟨hs, he, ?_⟩
  have he0 : 0 < o.epsilon_max := by rw [c1]; exact hepos i.sigma_pos
  by_contra hn
  have hn := not_lt.1 hn
  have l1 := i.life; have l2 := i'.life
  unfold lifeRelation at l1 l2
  simp only at l2
  have hN := i.cycles_pos; have hN' := i'.cycles_pos
  have hle : ∀ {α β b c : ℝ}, 0 < α → 0 ≤ β → b < 0 → c < 0 → α * (2 * o'.cycles_to_failure) ^ b +
      β * (2 * o'.cycles_to_failure) ^ c ≤ α * (2 * o.cycles_to_failure) ^ b + β * (2 * o.cycles_to_failure) ^ c := by
    intro α β b c hα hβ hb hc
    rcases hn.lt_or_eq with hlt | heq
    · exact (life_strict hα hβ hb hc (by linarith) (by linarith)).le
    · rw [heq]
  by_cases hm : p.method = "SWT"
  · rw [if_pos hm] at l1 l2
    have := hle (α := p.sigma_f ^ 2 / p.E) (β := pl * (p.sigma_f * p.epsilon_f)) (b := 2 * p.b) (c := p.b + p.c)
      (by positivity) (by positivity) (by linarith) (by linarith)
    nlinarith [i.sigma_pos]
  · rw [if_neg hm] at l1 l2
    have := hle (α := p.sigma_f / p.E) (β := pl * p.epsilon_f) (b := p.b) (c := p.c) (by positivity) (by positivity) hb hc
    linarith

/-- A component with round numbers: load `P` on 1000 mm², yield at 500 MPa. -/
noncomputable def comp (P : ℝ) : InitIn := ⟨P, 1000, 500, 200000, 1000, 1 / 5, -1 / 10, -1 / 2, 1000, 1, 1, 1, "morrow"⟩

theorem comp_valid {P : ℝ} (hP : 0 < P) : ValidInit (comp P) := by
  refine ⟨hP, ?_, ?_, ?_, ?_, ?_, ?_, ?_, ?_, ?_, ?_, ?_⟩ <;> norm_num [comp]

/-- **C78, finding.** Across yield the life jumps up: for this component a stress of 500 MPa is predicted to initiate a crack
after 512 cycles, but a stress of 510 MPa only later (the elastic branch drops the plastic term of the strain-life
relation). -/
theorem C78_yield_jump_finding (fsolve : (ℝ → ℝ) → ℝ → ℝ) (hf : PosSolver fsolve) :
    ∃ o o', crackInitiation fsolve (comp 0.5) = .ok o ∧ crackInitiation fsolve (comp 0.51) = .ok o' ∧
      o.cycles_to_failure = 512 ∧ 512 < o'.cycles_to_failure := by
  obtain ⟨o, ho, i, hs, hb⟩ := C78_elastic fsolve hf (comp 0.5) (comp_valid (by norm_num)) (by norm_num [comp])
  obtain ⟨s, hs0, hroot, h2⟩ := C78_plastic fsolve hf (comp 0.51) (comp_valid (by norm_num)) (by norm_num [comp])
  have hneu : neuber (comp 0.51) = 1.3005 := by norm_num [neuber, comp]
  have hp5 : ∀ x : ℝ, x ^ (1 / (1 / 5) : ℝ) = x ^ 5 := by
    intro x
    rw [show (1 / (1 / 5) : ℝ) = ((5 : ℕ) : ℝ) by norm_num, Real.rpow_natCast]
  have hroot' : s * (s / 200000 + (s / 1000) ^ 5) = 1.3005 := by
    have : s / 200000 + (s / 1000) ^ (1 / (1 / 5) : ℝ) = neuber (comp 0.51) / s := hroot
    rw [hp5, hneu] at this
    rw [this]; field_simp
  have hs200 : 200 < s := by
    by_contra hn
    have hn := not_lt.1 hn
    have e1 : s / 200000 ≤ 0.001 := by rw [div_le_iff₀ (by norm_num)]; linarith
    have e2 : (s / 1000) ^ 5 ≤ 0.2 ^ 5 := by
      apply pow_le_pow_left₀ (by positivity)
      rw [div_le_iff₀ (by norm_num)]; linarith
    have e3 : 0 < s / 200000 + (s / 1000) ^ 5 := by positivity
    norm_num at e2
    nlinarith
  have heps : neuber (comp 0.51) / s < 0.0066 := by
    rw [hneu, div_lt_iff₀ hs0]; linarith
  rw [if_neg (by linarith)] at h2
  obtain ⟨o', ho', hs', i'⟩ := h2
  have pw : ∀ {x : ℝ}, 0 < x → x ^ (-1 / 10 : ℝ) = 1 / 2 → x = 1024 := by
    intro x hx e
    have : (x ^ (-1 / 10 : ℝ)) ^ (-10 : ℝ) = x := by
      rw [← Real.rpow_mul hx.le]; norm_num
    rw [← this, e, show (-10 : ℝ) = ((-10 : ℤ) : ℝ) by norm_num, Real.rpow_intCast]; norm_num
  have h1024 : (1024 : ℝ) ^ (-1 / 10 : ℝ) = 1 / 2 := by
    rw [show (1024 : ℝ) = (2 : ℝ) ^ (10 : ℝ) by
      rw [show (10 : ℝ) = ((10 : ℕ) : ℝ) by norm_num, Real.rpow_natCast]; norm_num, ← Real.rpow_mul (by norm_num)]
    rw [show (10 * (-1 / 10) : ℝ) = -1 by norm_num, Real.rpow_neg_one]; norm_num
  have h1024c : (1024 : ℝ) ^ (-1 / 2 : ℝ) = 1 / 32 := by
    rw [show (1024 : ℝ) = (32 : ℝ) ^ (2 : ℝ) by
      rw [show (2 : ℝ) = ((2 : ℕ) : ℝ) by norm_num, Real.rpow_natCast]; norm_num, ← Real.rpow_mul (by norm_num)]
    rw [show (2 * (-1 / 2) : ℝ) = -1 by norm_num, Real.rpow_neg_one]; norm_num
  refine ⟨o, o', ho, ho', ?_, ?_⟩
  · rw [hs] at hb
    have hb' : (1000 : ℝ) * (2 * o.cycles_to_failure) ^ (-1 / 10 : ℝ) = 500 := by
      have e : (1 + (comp 0.5).q * ((comp 0.5).Kt - 1)) * (10 ^ 6 * (comp 0.5).P / (comp 0.5).A) = 500 := by
        norm_num [comp]
      rw [e] at hb; exact hb
    have := pw (x := 2 * o.cycles_to_failure) (by linarith [i.cycles_pos]) (by linarith)
    linarith
  · by_contra hn
    have hn := not_lt.1 hn
    have hl := i'.life
    unfold lifeRelation at hl
    rw [if_neg (by decide)] at hl
    have hl : o'.epsilon_max = 1000 / 200000 * (2 * o'.cycles_to_failure) ^ (-1 / 10 : ℝ) +
      1 * (1 * (2 * o'.cycles_to_failure) ^ (-1 / 2 : ℝ)) := hl
    have he : o'.epsilon_max = neuber (comp 0.51) / s := by
      have := i'.neuber
      rw [hs'] at this
      rw [eq_div_iff hs0.ne']; linarith
    have hN := i'.cycles_pos
    have m1 : (1024 : ℝ) ^ (-1 / 2 : ℝ) ≤ (2 * o'.cycles_to_failure) ^ (-1 / 2 : ℝ) :=
      Real.rpow_le_rpow_of_nonpos (by linarith) (by linarith) (by norm_num)
    have m2 : 0 < (2 * o'.cycles_to_failure) ^ (-1 / 10 : ℝ) := Real.rpow_pos_of_pos (by linarith) _
    rw [h1024c] at m1
    rw [he] at hl
    linarith

/-- **C78 (refusals).** An unknown mean stress method is a ValueError. -/
theorem C78_method (fsolve : (ℝ → ℝ) → ℝ → ℝ) (p : InitIn) (h : p.method ∉ ["morrow", "modified_morrow", "SWT"]) :
    crackInitiation fsolve p = .error .valueError := by
  unfold crackInitiation; rw [if_pos h]

/-- A positive-root solver exists (so the theorems are about something), and the example component is valid input. -/
example : (∃ f, PosSolver f) ∧ ValidInit (comp 0.5) := by
  classical
  refine ⟨⟨fun f _ => if h : ∃ x > 0, f x = 0 then h.choose else 0, fun f x0 h => ?_⟩, comp_valid (by norm_num)⟩
  simp only [dif_pos h]
  exact h.choose_spec

end Reliability.Props.CrackInit
