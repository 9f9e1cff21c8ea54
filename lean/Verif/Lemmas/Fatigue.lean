import Mathlib.Analysis.SpecialFunctions.Pow.Continuity
import Mathlib.Topology.Order.IntermediateValue
import Mathlib.Analysis.Convex.SpecificFunctions.Basic
import Mathlib.Tactic.Ring
import Mathlib.Tactic.FieldSimp
import Mathlib.Tactic.Linarith
import Mathlib.Tactic.Positivity
import Verif.Model.Fatigue

/-! Helper lemmas for the fatigue properties (C93–C96). -/

namespace Reliability.Fatigue

open Reliability List

theorem npPow_nonneg {x y : ℝ} (h : 0 ≤ x) : npPow x y = some (x ^ y) := by
  unfold npPow; rw [if_pos (Or.inl h)]

theorem npPow_int {x y : ℝ} (k : ℤ) (h : (k : ℝ) = y) : npPow x y = some (x ^ y) := by
  unfold npPow; rw [if_pos (Or.inr ⟨k, h⟩)]

theorem npPow_none {x y : ℝ} (h : x < 0) (hy : ∀ k : ℤ, (k : ℝ) ≠ y) : npPow x y = none := by
  unfold npPow
  rw [if_neg]
  rintro (h' | ⟨k, hk⟩)
  · linarith
  · exact hy k hk

/-- `σ/E + A (σ/B)^p` -/
noncomputable def curve (E A B p s : ℝ) : ℝ := s / E + A * (s / B) ^ p

theorem curve_strictMono {E A B p : ℝ} (hE : 0 < E) (hA : 0 ≤ A) (hB : 0 < B) (hp : 0 ≤ p) {s t : ℝ} (hs : 0 ≤ s)
    (hst : s < t) : curve E A B p s < curve E A B p t := by
  unfold curve
  have h1 : s / E < t / E := div_lt_div_of_pos_right hst hE
  have h2 : (s / B) ^ p ≤ (t / B) ^ p :=
    Real.rpow_le_rpow (by positivity) (div_le_div_of_nonneg_right hst.le hB.le) hp
  nlinarith [mul_le_mul_of_nonneg_left h2 hA]

theorem curve_inj {E A B p : ℝ} (hE : 0 < E) (hA : 0 ≤ A) (hB : 0 < B) (hp : 0 ≤ p) {s t : ℝ} (hs : 0 ≤ s) (ht : 0 ≤ t)
    (h : curve E A B p s = curve E A B p t) : s = t := by
  rcases lt_trichotomy s t with h' | h' | h'
  · exact absurd h (curve_strictMono hE hA hB hp hs h').ne
  · exact h'
  · exact absurd h.symm (curve_strictMono hE hA hB hp ht h').ne

theorem curve_lt_iff {E A B p : ℝ} (hE : 0 < E) (hA : 0 ≤ A) (hB : 0 < B) (hp : 0 ≤ p) {s t : ℝ} (hs : 0 ≤ s) (ht : 0 ≤ t) :
    curve E A B p s < curve E A B p t ↔ s < t := by
  constructor
  · intro h
    by_contra h'
    push Not at h'
    rcases h'.lt_or_eq with h'' | h''
    · exact absurd (curve_strictMono hE hA hB hp ht h'') (not_lt.2 h.le)
    · rw [h''] at h; exact lt_irrefl _ h
  · exact curve_strictMono hE hA hB hp hs

theorem curve_root {E A B p : ℝ} (hE : 0 < E) (hA : 0 ≤ A) (hB : 0 < B) (hp : 0 < p) {e : ℝ} (he : 0 ≤ e) :
    ∃ s, 0 ≤ s ∧ curve E A B p s = e := by
  have hc : ContinuousOn (curve E A B p) (Set.Icc 0 (e * E)) := by
    unfold curve
    apply ContinuousOn.add (by fun_prop)
    apply ContinuousOn.mul (by fun_prop)
    exact (Real.continuous_rpow_const hp.le |>.comp (by fun_prop : Continuous fun s : ℝ => s / B)).continuousOn
  have h0 : curve E A B p 0 = 0 := by simp [curve, Real.zero_rpow hp.ne']
  have h1 : e ≤ curve E A B p (e * E) := by
    unfold curve
    rw [mul_div_cancel_right₀ _ hE.ne']
    have : 0 ≤ (e * E / B) ^ p := by positivity
    nlinarith [mul_nonneg hA this]
  obtain ⟨s, hs, hse⟩ := intermediate_value_Icc (mul_nonneg he hE.le) hc ⟨h0.le.trans he, h1⟩
  exact ⟨s, hs.1, hse⟩

theorem chain_length (fs : Solver) (f : ℝ → ℝ → Option ℝ) (es : List ℝ) : ∀ g, (chain fs f g es).length = es.length := by
  induction es with
  | nil => intro g; rfl
  | cons e es ih => intro g; simp [chain, ih]

/-- If the solution at `e` is `S e` whatever the starting point, the loop gives `S` of every element. -/
theorem chain_eq (fs : Solver) (f : ℝ → ℝ → Option ℝ) (S : ℝ → ℝ) (es : List ℝ) (h : ∀ e ∈ es, ∀ g, fs (f e) g = S e) :
    ∀ g, chain fs f g es = es.map S := by
  induction es with
  | nil => intro g; rfl
  | cons e es ih =>
    intro g
    rw [chain, h e mem_cons_self g, ih (fun e he => h e (mem_cons_of_mem _ he))]
    rfl

theorem linspace_length (a b : ℝ) : (linspace a b).length = 1000 := by
  unfold linspace; rw [length_map, length_range]

theorem linspace_last (a b : ℝ) : (linspace a b).getLast? = some b := by
  unfold linspace
  rw [getLast?_map, getLast?_range, if_neg (by norm_num)]
  simp only [Option.map_some, Option.some.injEq]
  push_cast
  ring

theorem linspace_mem {a b x : ℝ} (h : x ∈ linspace a b) : ∃ u : ℝ, 0 ≤ u ∧ u ≤ 1 ∧ x = a + u * (b - a) := by
  unfold linspace at h
  obtain ⟨i, hi, rfl⟩ := mem_map.1 h
  have hi' : i ≤ 999 := by have := mem_range.1 hi; omega
  refine ⟨(i : ℝ) / 999, by positivity, ?_, by ring⟩
  rw [div_le_one (by norm_num)]
  exact_mod_cast hi'

theorem linspace_map (g : ℝ → ℝ) (a b c d : ℝ) (h : ∀ u : ℝ, g (a + u * ((b - a) / 999)) = c + u * ((d - c) / 999)) :
    (linspace a b).map g = linspace c d := by
  unfold linspace
  rw [map_map]
  apply map_congr_left
  intro i _
  exact h i

theorem max?_of_last {l : List ℝ} {m : ℝ} (hl : l.getLast? = some m) (h : ∀ x ∈ l, x ≤ m) : l.max? = some m := by
  rw [List.max?_eq_some_iff]
  exact ⟨mem_of_getLast? hl, h⟩

theorem min?_of_last {l : List ℝ} {m : ℝ} (hl : l.getLast? = some m) (h : ∀ x ∈ l, m ≤ x) : l.min? = some m := by
  rw [List.min?_eq_some_iff]
  exact ⟨mem_of_getLast? hl, h⟩



end Reliability.Fatigue
