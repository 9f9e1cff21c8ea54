import Verif.Props.Testing
import Mathlib.Order.Bounds.Basic
import Mathlib.Algebra.Order.BigOperators.Group.List

/-!
# C31, C32, C67: test duration, Kolmogorov–Smirnov and chi-squared tests
-/

namespace Reliability.Testing

open Reliability Spec

/-! ## C31 reliability_test_duration -/

/-- Invariant of the loop after `n` iterations. -/
structure LoopInv (duration : Nat → Ext ℝ) (low : Nat → Prop) (n : Nat) (st : DurSt) : Prop where
  failures : st.failures = n
  durs : st.durations = (List.range n).map duration
  before : st.event = false → st.solution_index = 0 ∧ st.max_failures = 10 ^ 10 ∧ ∀ g, g < n → ¬ low g
  after : st.event = true → ∃ f0, f0 < n ∧ low f0 ∧ (∀ g, g < f0 → ¬ low g) ∧
    st.solution_index = (f0 : ℤ) - 1 ∧ st.max_failures = (((f0 : ℤ) - 1 : ℤ) : ℚ) * (3 / 2)

/-- what the loop has computed when it ends: like `LoopInv` but the last count is `m` -/
theorem durLoop_end (duration risk : Nat → Ext ℝ) (pr : ℝ) :
    ∀ (fuel : Nat) (n : Nat) (st out : DurSt), LoopInv duration (fun f => ltE (risk f) pr = true) n st →
      durLoop duration risk pr fuel st = some out →
      ∃ m, out.durations = (List.range (m + 1)).map duration ∧ (m : ℚ) > out.max_failures ∧
        (out.event = false → out.solution_index = 0 ∧ out.max_failures = 10 ^ 10 ∧
          ∀ g, g ≤ m → ¬ ltE (risk g) pr = true) ∧
        (out.event = true → ∃ f0, f0 ≤ m ∧ ltE (risk f0) pr = true ∧ (∀ g, g < f0 → ¬ ltE (risk g) pr = true) ∧
          out.solution_index = (f0 : ℤ) - 1) := by
  intro fuel
  induction fuel with
  | zero => intro n st out _ h; simp [durLoop] at h
  | succ fuel ih =>
    intro n st out hinv h
    have hdur : st.durations ++ [duration st.failures] = (List.range (n + 1)).map duration := by
      rw [hinv.failures, hinv.durs, List.range_succ, List.map_append]; rfl
    rw [durLoop] at h
    simp only [] at h
    by_cases hc : (ltE (risk st.failures) pr && !st.event) = true
    · rw [if_pos hc] at h
      simp only [Bool.and_eq_true, Bool.not_eq_true'] at hc
      obtain ⟨hlow, hev⟩ := hc
      obtain ⟨_, _, hbef⟩ := hinv.before hev
      simp only [hinv.failures] at h hlow
      by_cases hx : (n : ℚ) > (((n : ℤ) - 1 : ℤ) : ℚ) * (3 / 2)
      · rw [if_pos hx] at h
        injection h with h
        rw [hinv.failures] at hdur
        refine ⟨n, ?_, ?_, ?_, ?_⟩
        · rw [← h]; exact hdur
        · rw [← h]; exact hx
        · rw [← h]; intro hh; simp at hh
        · rw [← h]; intro _
          exact ⟨n, le_rfl, hlow, hbef, rfl⟩
      · rw [if_neg hx] at h
        refine ih (n + 1) _ out ⟨by simp, ?_, ?_, ?_⟩ h
        · rw [hinv.failures] at hdur; exact hdur
        · intro hh; simp at hh
        · intro _
          exact ⟨n, by omega, hlow, hbef, rfl, rfl⟩
    · rw [if_neg hc] at h
      simp only [hinv.failures] at h hc
      rw [hinv.failures] at hdur
      by_cases hx : (n : ℚ) > st.max_failures
      · rw [if_pos hx] at h
        injection h with h
        refine ⟨n, ?_, ?_, ?_, ?_⟩
        · rw [← h]; exact hdur
        · rw [← h]; exact hx
        · rw [← h]
          intro hh
          simp only at hh
          obtain ⟨a, b, c⟩ := hinv.before hh
          refine ⟨a, b, fun g hg => ?_⟩
          rcases hg.eq_or_lt with rfl | hlt
          · rw [hh] at hc; simpa using hc
          · exact c g hlt
        · rw [← h]
          intro hh
          obtain ⟨f0, a, b, c, d, _⟩ := hinv.after hh
          exact ⟨f0, by omega, b, c, d⟩
      · rw [if_neg hx] at h
        refine ih (n + 1) _ out ⟨by simp, hdur, ?_, ?_⟩ h
        · intro hh
          simp only at hh
          obtain ⟨a, b, c⟩ := hinv.before hh
          refine ⟨a, b, fun g hg => ?_⟩
          rcases Nat.lt_succ_iff_lt_or_eq.1 hg with hlt | rfl
          · exact c g hlt
          · rw [hh] at hc; simpa using hc
        · intro hh
          obtain ⟨f0, a, b, c, d, e⟩ := hinv.after hh
          exact ⟨f0, by omega, b, c, d, e⟩

/-- the loop ends: the cap of 10^10 counts before a drop, half as many again after it -/
theorem durLoop_terminates (duration risk : Nat → Ext ℝ) (pr : ℝ) :
    ∀ (fuel : Nat) (st : DurSt), (st.failures : ℚ) ≤ st.max_failures + 1 → st.max_failures ≤ 15000000000 →
      (st.event = false → st.max_failures = 10000000000) → 15000000001 < st.failures + fuel →
      ∃ out, durLoop duration risk pr fuel st = some out := by
  intro fuel
  induction fuel with
  | zero =>
    intro st h1 h2 _ h
    have h' : (15000000001 : ℚ) < (st.failures : ℚ) := by
      have : 15000000001 < st.failures := by omega
      exact_mod_cast this
    linarith
  | succ fuel ih =>
    intro st h1 h2 h3 h
    rw [durLoop]
    simp only []
    by_cases hc : (ltE (risk st.failures) pr && !st.event) = true
    · rw [if_pos hc]
      simp only [Bool.and_eq_true, Bool.not_eq_true'] at hc
      have hm := h3 hc.2
      rw [hm] at h1
      simp only []
      by_cases hx : (st.failures : ℚ) > (((st.failures : ℤ) - 1 : ℤ) : ℚ) * (3 / 2)
      · rw [if_pos hx]; exact ⟨_, rfl⟩
      · rw [if_neg hx]
        push Not at hx
        apply ih
        · simp only []; push_cast at hx ⊢; linarith
        · simp only []; push_cast; linarith
        · intro hh; simp at hh
        · simp only []; omega
    · rw [if_neg hc]
      simp only []
      by_cases hx : (st.failures : ℚ) > st.max_failures
      · rw [if_pos hx]; exact ⟨_, rfl⟩
      · rw [if_neg hx]
        push Not at hx
        apply ih
        · simp only []; push_cast; linarith
        · simpa using h2
        · simpa using h3
        · simp only []; omega

theorem init_inv (duration : Nat → Ext ℝ) (low : Nat → Prop) : LoopInv duration low 0 DurSt.init where
  failures := rfl
  durs := rfl
  before := fun _ => ⟨rfl, rfl, fun g hg => by omega⟩
  after := fun h => by simp [DurSt.init] at h

/-- the whole search -/
theorem durLoop_result (duration risk : Nat → Ext ℝ) (pr : ℝ) {f0 : Nat} (hlow : ltE (risk f0) pr = true)
    (hfirst : ∀ g, g < f0 → ¬ ltE (risk g) pr = true) (hcap : f0 ≤ 10000000000) {fuel : Nat}
    (hfuel : 15000000001 < fuel) :
    ∃ out, durLoop duration risk pr fuel DurSt.init = some out ∧
      pyIdx out.durations out.solution_index = some (duration (f0 - 1)) := by
  obtain ⟨out, hout⟩ := durLoop_terminates duration risk pr fuel DurSt.init
    (by simp only [DurSt.init]; norm_num) (by simp only [DurSt.init]; norm_num)
    (by intro _; simp only [DurSt.init]; norm_num) (by simpa [DurSt.init] using hfuel)
  refine ⟨out, hout, ?_⟩
  obtain ⟨m, hd, hm, hev0, hev1⟩ := durLoop_end duration risk pr fuel 0 DurSt.init out (init_inv _ _) hout
  have hev : out.event = true := by
    by_contra hne
    have hne : out.event = false := by simpa using hne
    obtain ⟨_, hmax, hno⟩ := hev0 hne
    rw [hmax] at hm
    have : (f0 : ℚ) ≤ m := by
      have h1 : (f0 : ℚ) ≤ 10000000000 := by exact_mod_cast hcap
      have h2 : ((10 : ℚ) ^ 10) = 10000000000 := by norm_num
      rw [h2] at hm
      linarith
    exact hno f0 (by exact_mod_cast this) hlow
  obtain ⟨g, hgm, hg, hgf, hsol⟩ := hev1 hev
  obtain rfl : g = f0 := by
    rcases lt_trichotomy g f0 with h | h | h
    · exact absurd hg (hfirst g h)
    · exact h
    · exact absurd hlow (hgf f0 h)
  rw [hsol, hd]
  unfold pyIdx
  rcases Nat.eq_zero_or_pos g with rfl | hpos
  · have hm0 : m = 0 ∨ 0 < m := by omega
    -- with the drop at zero failures the loop ends at once
    have hm0' : (List.map duration (List.range (m + 1))).length = m + 1 := by simp
    rw [if_neg (by simp), hm0', if_pos (by push_cast; omega)]
    have : ((((m + 1 : Nat) : ℤ) + (((0 : Nat) : ℤ) - 1))).toNat = m := by omega
    rw [this]
    have hm1 : m = 0 := by
      have h := hout
      obtain ⟨k, rfl⟩ : ∃ k, fuel = k + 1 := ⟨fuel - 1, by omega⟩
      rw [durLoop] at h
      simp only [DurSt.init, hlow, Bool.not_false, Bool.and_true, if_true] at h
      rw [if_pos (by norm_num)] at h
      injection h with h
      have h4 : out.durations.length = 1 := by rw [← h]; rfl
      rw [hd, hm0'] at h4
      omega
    subst hm1
    rfl
  · rw [if_pos (by omega)]
    have : ((g : ℤ) - 1).toNat = g - 1 := by omega
    rw [this, List.getElem?_map, List.getElem?_range (by omega)]
    rfl

/-- Test duration planned for `f` failures at the consumer's risk (`none`: no degrees of freedom). -/
noncomputable def plannedDuration (c : Chi2) (os tt : Bool) (Mreq cr : ℝ) (f : Nat) : Option ℝ :=
  if dof tt f = 0 then none else some (c.ppf (sideCI os (1 - cr)) (dof tt f) * (Mreq / 2))

/-- Producer's risk of that test: the confidence with which the design MTBF would be refuted. -/
noncomputable def producersRisk (c : Chi2) (os tt : Bool) (Mreq Mdes cr : ℝ) (f : Nat) : Option ℝ :=
  (plannedDuration c os tt Mreq cr f).map fun T =>
    let x := c.cdf (T / (Mdes * (1 / 2))) (dof tt f)
    if os then x else 1 - 2 * (1 - x)

/-- read an optional value as a float: `none` is nan -/
noncomputable def orNan : Option ℝ → Ext ℝ
  | some x => .fin x
  | none => .nan

theorem planner_duration_all (c : Chi2) (os tt : Bool) {cr M : ℝ} (h0 : 0 < cr) (h1 : cr ≤ 1 / 2) (f : Nat) :
    durationOf c M cr os tt f = orNan (plannedDuration c os tt M cr f) := by
  unfold durationOf
  by_cases hd : dof tt f = 0
  · have h : planner c (some M) (some (f : ℤ)) (some (1 - cr)) none os tt 0 =
        some (.ok ⟨.nan, .fin M, f, .fin (1 - cr)⟩) := by
      unfold planner
      have hn : ¬ (1 - cr < 1 / 2 ∨ 1 - cr ≥ 1) := by push Not; constructor <;> linarith
      have hf : ¬ ((f : ℤ) < 0) := by omega
      simp only [Option.any_some, decide_eq_true_eq, hn, hf, if_false, Int.toNat_natCast]
      have hd' : (2 * f + if tt then 2 else 0) = 0 := hd
      simp only [Chi2.ppfE, if_pos hd', Ext.mul]
    rw [h]; simp only [plannedDuration, if_pos hd, orNan]
  · rw [planner_duration c os tt 0 (by linarith) (by linarith) (Nat.pos_of_ne_zero hd)]
    simp only [plannedDuration, if_neg hd, orNan]

/-- **C31** The duration returned is the one planned for the last failure count before the producer's risk
first drops below the required level (for zero failures if it is below there already): whenever the
risk is below the level at `f0 ≤ 10^10` failures and at no smaller count, the search ends and answers
with the duration for `f0 - 1`.  (`reliability_test_planner` is called for every count.) -/
theorem C31_duration (c : Chi2) (os tt : Bool) {Mreq Mdes cr pr : ℝ} (hcr0 : 0 < cr) (hcr1 : cr ≤ 1 / 2)
    (hpr0 : 0 < pr) (hpr1 : pr ≤ 1 / 2) (hM : Mreq < Mdes) {f0 : Nat}
    (hlow : ∃ ρ, producersRisk c os tt Mreq Mdes cr f0 = some ρ ∧ ρ < pr)
    (hfirst : ∀ g, g < f0 → ∀ ρ, producersRisk c os tt Mreq Mdes cr g = some ρ → pr ≤ ρ)
    (hcap : f0 ≤ 10000000000) {fuel : Nat} (hfuel : 15000000001 < fuel) :
    testDuration c Mreq Mdes cr pr os tt fuel = some (.ok (orNan (plannedDuration c os tt Mreq cr (f0 - 1)))) := by
  unfold testDuration
  rw [if_neg (by push Not; exact ⟨hcr0, hcr1⟩), if_neg (by push Not; exact ⟨hpr0, hpr1⟩), if_neg (not_le.2 hM)]
  have hdurE : durationOf c Mreq cr os tt = fun f => orNan (plannedDuration c os tt Mreq cr f) := by
    funext f; exact planner_duration_all c os tt hcr0 hcr1 f
  have hriskE : riskOf c Mreq Mdes cr os tt = fun f => orNan (producersRisk c os tt Mreq Mdes cr f) := by
    funext f
    unfold riskOf
    rw [planner_duration_all c os tt hcr0 hcr1 f]
    unfold producersRisk
    by_cases hd : dof tt f = 0
    · simp [plannedDuration, hd, orNan]
    · simp only [plannedDuration, if_neg hd, orNan, Option.map_some]
      rw [planner_CI c os tt 0 (Nat.pos_of_ne_zero hd)]
  simp only []
  obtain ⟨out, hout, hidx⟩ := durLoop_result (fun f => orNan (plannedDuration c os tt Mreq cr f))
    (fun f => orNan (producersRisk c os tt Mreq Mdes cr f)) pr (f0 := f0)
    (by obtain ⟨ρ, h, h'⟩ := hlow; simp only [h, orNan, ltE, decide_eq_true_eq]; exact h')
    (by
      intro g hg
      cases hr : producersRisk c os tt Mreq Mdes cr g with
      | none => simp [orNan, ltE]
      | some ρ => simp only [orNan, ltE, decide_eq_true_eq, not_lt]; exact hfirst g hg ρ hr)
    hcap hfuel
  rw [hdurE, hriskE, hout]
  simp only []
  rw [hidx]

/-- **C31** Finding: unless the very first count already meets it, the answered duration belongs to a test
whose producer's risk is *not* below the required level. -/
theorem C31_risk_not_met_finding (c : Chi2) (os : Bool) {Mreq Mdes cr pr : ℝ} (hcr0 : 0 < cr) (hcr1 : cr ≤ 1 / 2)
    (hpr0 : 0 < pr) (hpr1 : pr ≤ 1 / 2) (hM : Mreq < Mdes) {f0 : Nat} (hpos : 0 < f0)
    (hlow : ∃ ρ, producersRisk c os true Mreq Mdes cr f0 = some ρ ∧ ρ < pr)
    (hfirst : ∀ g, g < f0 → ∀ ρ, producersRisk c os true Mreq Mdes cr g = some ρ → pr ≤ ρ)
    (hcap : f0 ≤ 10000000000) {fuel : Nat} (hfuel : 15000000001 < fuel) :
    ∃ T, testDuration c Mreq Mdes cr pr os true fuel = some (.ok (.fin T)) ∧
      ∃ f ρ, plannedDuration c os true Mreq cr f = some T ∧ producersRisk c os true Mreq Mdes cr f = some ρ ∧
        pr ≤ ρ := by
  have hd : dof true (f0 - 1) ≠ 0 := by unfold dof; simp
  refine ⟨_, ?_, f0 - 1, _, by rw [plannedDuration, if_neg hd], rfl, ?_⟩
  · rw [C31_duration c os true hcr0 hcr1 hpr0 hpr1 hM hlow hfirst hcap hfuel, plannedDuration, if_neg hd, orNan]
  · exact hfirst (f0 - 1) (by omega) _ (by simp [producersRisk, plannedDuration, hd])

/-- **C31** Finding: a failure-terminated plan whose risk first drops at one failure answers nan. -/
theorem C31_failure_terminated_finding (c : Chi2) (os : Bool) {Mreq Mdes cr pr : ℝ} (hcr0 : 0 < cr) (hcr1 : cr ≤ 1 / 2)
    (hpr0 : 0 < pr) (hpr1 : pr ≤ 1 / 2) (hM : Mreq < Mdes)
    (hlow : ∃ ρ, producersRisk c os false Mreq Mdes cr 1 = some ρ ∧ ρ < pr) {fuel : Nat} (hfuel : 15000000001 < fuel) :
    testDuration c Mreq Mdes cr pr os false fuel = some (.ok .nan) := by
  rw [C31_duration c os false hcr0 hcr1 hpr0 hpr1 hM hlow _ (by norm_num) hfuel]
  · rfl
  · intro g hg ρ hρ
    obtain rfl : g = 0 := by omega
    simp [producersRisk, plannedDuration, dof] at hρ

/-- **C31** Arguments out of range are refused before any search. -/
theorem C31_rejects (c : Chi2) (os tt : Bool) {Mreq Mdes cr pr : ℝ} (fuel : Nat)
    (h : ¬ (0 < cr ∧ cr ≤ 1 / 2 ∧ 0 < pr ∧ pr ≤ 1 / 2 ∧ Mreq < Mdes)) :
    testDuration c Mreq Mdes cr pr os tt fuel = some (.error .valueError) := by
  unfold testDuration
  by_cases h1 : cr ≤ 0 ∨ cr > 1 / 2
  · rw [if_pos h1, valueErr]
  rw [if_neg h1]
  by_cases h2 : pr ≤ 0 ∨ pr > 1 / 2
  · rw [if_pos h2, valueErr]
  rw [if_neg h2]
  by_cases h3 : Mdes ≤ Mreq
  · rw [if_pos h3, valueErr]
  push Not at h1 h2 h3
  exact absurd ⟨h1.1, h1.2, h2.1, h2.2, h3⟩ h

/-- The hypotheses can be met: with the example family the risk does not depend on the count. -/
example : (∃ ρ, producersRisk exampleChi2 true true 1 10 (1 / 2) 0 = some ρ ∧ ρ < 1 / 5) := by
  refine ⟨1 / 11, ?_, by norm_num⟩
  simp [producersRisk, plannedDuration, dof, sideCI, exampleChi2]
  norm_num

/-- A family and a level for which the first drop is at five failures, as in
`C31_risk_not_met_finding`. -/
example : ∃ c : Chi2, (∃ ρ, producersRisk c true true 1 10 (1 / 2) 5 = some ρ ∧ ρ < 1 / 10) ∧
    ∀ g, g < 5 → ∀ ρ, producersRisk c true true 1 10 (1 / 2) g = some ρ → 1 / 10 ≤ ρ := by
  refine ⟨⟨fun _ _ => 0, fun _ df => 1 / df⟩, ⟨1 / 12, ?_, by norm_num⟩, ?_⟩
  · simp [producersRisk, plannedDuration, dof]
  · intro g hg ρ hρ
    simp only [producersRisk, plannedDuration, dof, if_true] at hρ
    rw [if_neg (by omega)] at hρ
    simp only [Option.map_some, Option.some.injEq] at hρ
    rw [← hρ]
    have : ((2 * g + 2 : ℕ) : ℝ) ≤ 10 := by exact_mod_cast (by omega : 2 * g + 2 ≤ 10)
    apply one_div_le_one_div_of_le _ this
    exact_mod_cast (by omega : 0 < 2 * g + 2)

/-! ## C32 KStest -/

/-- in a sorted list, the positions below the count of a downward closed predicate are those satisfying it -/
theorem countP_sorted {P : ℝ → Bool} (hP : ∀ a b, a ≤ b → P b = true → P a = true) :
    ∀ (l : List ℝ), l.Pairwise (· ≤ ·) → ∀ (i : Nat) a, l[i]? = some a → (P a = true ↔ i < l.countP P) := by
  intro l
  induction l with
  | nil => intro _ i a h; simp at h
  | cons b l ih =>
    intro hs i a h
    rw [List.pairwise_cons] at hs
    by_cases hb : P b = true
    · rw [List.countP_cons_of_pos hb]
      cases i with
      | zero =>
        simp only [List.getElem?_cons_zero, Option.some.injEq] at h
        rw [← h]; simp [hb]
      | succ i =>
        rw [List.getElem?_cons_succ] at h
        rw [ih hs.2 i a h]; omega
    · have hnone : ∀ x ∈ l, ¬ P x = true := fun x hx hPx => hb (hP b x (hs.1 x hx) hPx)
      rw [List.countP_cons_of_neg hb, List.countP_eq_zero.2 hnone]
      have ha : a ∈ b :: l := List.mem_of_getElem? h
      rcases List.mem_cons.1 ha with rfl | ha
      · simp [hb]
      · simp [hnone a ha]

/-- between two points of a line segment the distance to a point is largest at an end -/
theorem abs_sub_le_max {a b y x : ℝ} (h1 : a ≤ y) (h2 : y ≤ b) : |y - x| ≤ max |a - x| |b - x| := by
  rcases le_total x y with h | h
  · refine le_max_of_le_right ?_
    rw [abs_of_nonneg (by linarith), abs_of_nonneg (by linarith)]; linarith
  · refine le_max_of_le_left ?_
    rw [abs_of_nonpos (by linarith), abs_of_nonpos (by linarith)]; linarith

/-- **C32** The KS statistic is the greatest distance between the fitted CDF and the empirical CDF over
all real points, both sides of each jump: an upper bound everywhere, and attained. -/
theorem C32_statistic {F : ℝ → ℝ} (hmono : Monotone F) (h0 : ∀ x, 0 ≤ F x) (h1 : ∀ x, F x ≤ 1)
    {kstwo : ℝ → Nat → ℝ} {data : List ℝ} {sig : ℝ} {r : KS} (h : ksTest F kstwo data sig = .ok r) :
    IsGreatest ({d | ∃ x, d = |F x - ecdf data x|} ∪ {d | ∃ x, d = |F x - ecdfLeft data x|}) r.statistic := by
  unfold ksTest at h
  by_cases hs : sig ≤ 0 ∨ sig > 1 / 2
  · rw [if_pos hs] at h; exact absurd h (by simp [valueErr])
  rw [if_neg hs] at h
  simp only [] at h
  set s := Np.sort data with hsd
  have hsorted : s.Pairwise (· ≤ ·) := Np.sort_sorted data
  have hperm : s.Perm data := Np.sort_perm data
  set A := List.zipWith (fun a b => |a - b|) (s.map F) ((List.range s.length).map fun i : Nat => ((i : ℝ) + 1) / (s.length : ℝ)) with hA
  set B := List.zipWith (fun a b => |a - b|) (s.map F) ((List.range s.length).map fun i : Nat => (((i : ℝ) + 1) - 1) / (s.length : ℝ)) with hB
  have hAi : ∀ (i : Nat) a, s[i]? = some a → |F a - ((i : ℝ) + 1) / s.length| ∈ A := by
    intro i a hi
    have hlt : i < s.length := (List.getElem?_eq_some_iff.1 hi).1
    apply List.mem_of_getElem? (i := i)
    rw [hA, List.getElem?_zipWith, List.getElem?_map, hi, List.getElem?_map, List.getElem?_range hlt]
    rfl
  have hBi : ∀ (i : Nat) a, s[i]? = some a → |F a - (i : ℝ) / s.length| ∈ B := by
    intro i a hi
    have hlt : i < s.length := (List.getElem?_eq_some_iff.1 hi).1
    apply List.mem_of_getElem? (i := i)
    rw [hB, List.getElem?_zipWith, List.getElem?_map, hi, List.getElem?_map, List.getElem?_range hlt]
    simp
  have hmem : ∀ d ∈ A ++ B, ∃ (i : Nat) (a : ℝ), s[i]? = some a ∧
      (d = |F a - ((i : ℝ) + 1) / s.length| ∨ d = |F a - (i : ℝ) / s.length|) := by
    intro d hd
    rcases List.mem_append.1 hd with hd | hd
    · obtain ⟨i, hi⟩ := List.mem_iff_getElem?.1 hd
      rw [hA, List.getElem?_zipWith, List.getElem?_map, List.getElem?_map] at hi
      cases hsi : s[i]? with
      | none => simp [hsi] at hi
      | some a =>
        have hlt : i < s.length := (List.getElem?_eq_some_iff.1 hsi).1
        rw [hsi, List.getElem?_range hlt] at hi
        simp only [Option.map_some, Option.some.injEq] at hi
        exact ⟨i, a, hsi, Or.inl hi.symm⟩
    · obtain ⟨i, hi⟩ := List.mem_iff_getElem?.1 hd
      rw [hB, List.getElem?_zipWith, List.getElem?_map, List.getElem?_map] at hi
      cases hsi : s[i]? with
      | none => simp [hsi] at hi
      | some a =>
        have hlt : i < s.length := (List.getElem?_eq_some_iff.1 hsi).1
        rw [hsi, List.getElem?_range hlt] at hi
        simp only [Option.map_some, Option.some.injEq, add_sub_cancel_right] at hi
        exact ⟨i, a, hsi, Or.inr hi.symm⟩
  cases hmax : (A ++ B).max? with
  | none => rw [hmax] at h; exact absurd h (by simp [valueErr])
  | some D =>
  rw [hmax] at h
  simp only [] at h
  injection h with h
  have hD : r.statistic = D := by rw [← h]
  rw [hD]
  obtain ⟨hDmem, hDle⟩ := (Np.max?_iff _ _).1 hmax
  -- the distance at a count k that splits the sample at x
  have hn : s ≠ [] := by
    intro hnil
    obtain ⟨i, a, hi, _⟩ := hmem D hDmem
    rw [hnil] at hi; simp at hi
  have hn' : (0 : ℝ) < s.length := by exact_mod_cast List.length_pos_iff.2 hn
  have hbound : ∀ (x : ℝ) (k : Nat), k ≤ s.length → (∀ (i : Nat) a, s[i]? = some a → i < k → a ≤ x) →
      (∀ (i : Nat) a, s[i]? = some a → k ≤ i → x ≤ a) → |F x - (k : ℝ) / s.length| ≤ D := by
    intro x k hk hlo hhi
    -- a value not below in the list on the right
    have hup : F x - (k : ℝ) / s.length ≤ D := by
      rcases hk.eq_or_lt with he | hlt
      · rw [he, div_self hn'.ne']
        obtain ⟨a, ha⟩ : ∃ a, s[0]? = some a := ⟨s[0]'(List.length_pos_iff.2 hn), by simp⟩
        have : 0 ≤ D := le_trans (abs_nonneg _) (hDle _ (List.mem_append_right _ (hBi 0 a ha)))
        have := h1 x
        linarith
      · have hi : s[k]? = some s[k] := by simp [hlt]
        have h3 := hDle _ (List.mem_append_right _ (hBi k _ hi))
        have h4 := hmono (hhi k _ hi le_rfl)
        have h5 := le_abs_self (F s[k] - (k : ℝ) / s.length)
        linarith
    have hdown : (k : ℝ) / s.length - F x ≤ D := by
      rcases Nat.eq_zero_or_pos k with he | hpos
      · rw [he]
        obtain ⟨a, ha⟩ : ∃ a, s[0]? = some a := ⟨s[0]'(List.length_pos_iff.2 hn), by simp⟩
        have : 0 ≤ D := le_trans (abs_nonneg _) (hDle _ (List.mem_append_right _ (hBi 0 a ha)))
        have := h0 x
        simp only [Nat.cast_zero, zero_div]
        linarith
      · have hlt : k - 1 < s.length := by omega
        have hi : s[k - 1]? = some s[k - 1] := by simp [hlt]
        have h3 := hDle _ (List.mem_append_left _ (hAi (k - 1) _ hi))
        have h4 := hmono (hlo (k - 1) _ hi (by omega))
        have h5 := neg_abs_le (F s[k - 1] - (((k - 1 : Nat) : ℝ) + 1) / s.length)
        have h6 : (((k - 1 : Nat) : ℝ) + 1) = k := by
          rw [Nat.cast_sub (by omega)]; push_cast; ring
        rw [h6] at h3 h5
        linarith
    rw [abs_le]; constructor <;> linarith
  have hle : ∀ x, |F x - ecdf data x| ≤ D := by
    intro x
    have he : ecdf data x = (s.countP (fun d => decide (d ≤ x)) : ℝ) / s.length := by
      unfold ecdf; rw [hperm.countP_eq, hperm.length_eq]
    rw [he]
    have hc := countP_sorted (P := fun d => decide (d ≤ x))
      (fun a b hab hb => by simp only [decide_eq_true_eq] at hb ⊢; linarith) s hsorted
    apply hbound
    · exact List.countP_le_length
    · intro i a hi hlt; simpa using (hc i a hi).2 hlt
    · intro i a hi hge
      by_contra hcon
      have := (hc i a hi).1 (by simp; linarith)
      omega
  have hlt : ∀ x, |F x - ecdfLeft data x| ≤ D := by
    intro x
    have he : ecdfLeft data x = (s.countP (fun d => decide (d < x)) : ℝ) / s.length := by
      unfold ecdfLeft; rw [hperm.countP_eq, hperm.length_eq]
    rw [he]
    have hc := countP_sorted (P := fun d => decide (d < x))
      (fun a b hab hb => by simp only [decide_eq_true_eq] at hb ⊢; linarith) s hsorted
    apply hbound
    · exact List.countP_le_length
    · intro i a hi hlt; have := (hc i a hi).2 hlt; simp only [decide_eq_true_eq] at this; exact this.le
    · intro i a hi hge
      by_contra hcon
      have := (hc i a hi).1 (by simpa using hcon)
      omega
  constructor
  · -- attained
    obtain ⟨i, a, hi, hd⟩ := hmem D hDmem
    have hca := (countP_sorted (P := fun d => decide (d ≤ a))
      (fun x y hxy hy => by simp only [decide_eq_true_eq] at hy ⊢; linarith) s hsorted i a hi).1 (by simp)
    have hcb : s.countP (fun d => decide (d < a)) ≤ i := by
      by_contra hcon
      have := (countP_sorted (P := fun d => decide (d < a))
        (fun x y hxy hy => by simp only [decide_eq_true_eq] at hy ⊢; linarith) s hsorted i a hi).2 (by omega)
      simp at this
    have he : ecdf data a = (s.countP (fun d => decide (d ≤ a)) : ℝ) / s.length := by
      unfold ecdf; rw [hperm.countP_eq, hperm.length_eq]
    have he' : ecdfLeft data a = (s.countP (fun d => decide (d < a)) : ℝ) / s.length := by
      unfold ecdfLeft; rw [hperm.countP_eq, hperm.length_eq]
    have hr1 : ecdfLeft data a ≤ (i : ℝ) / s.length := by
      rw [he']; apply div_le_div_of_nonneg_right _ hn'.le; exact_mod_cast hcb
    have hr2 : ((i : ℝ) + 1) / s.length ≤ ecdf data a := by
      rw [he]; apply div_le_div_of_nonneg_right _ hn'.le; exact_mod_cast hca
    have hr3 : (i : ℝ) / s.length ≤ ((i : ℝ) + 1) / s.length := div_le_div_of_nonneg_right (by linarith) hn'.le
    have hmaxle : D ≤ max |F a - ecdfLeft data a| |F a - ecdf data a| := by
      rcases hd with hd | hd
      · rw [hd]
        have := abs_sub_le_max (x := F a) (hr1.trans hr3) hr2
        rwa [abs_sub_comm _ (F a), abs_sub_comm _ (F a), abs_sub_comm _ (F a)] at this
      · rw [hd]
        have := abs_sub_le_max (x := F a) hr1 (hr3.trans hr2)
        rwa [abs_sub_comm _ (F a), abs_sub_comm _ (F a), abs_sub_comm _ (F a)] at this
    rcases le_max_iff.1 hmaxle with hc | hc
    · exact Or.inr ⟨a, le_antisymm hc (hlt a)⟩
    · exact Or.inl ⟨a, le_antisymm hc (hle a)⟩
  · rintro d (⟨x, rfl⟩ | ⟨x, rfl⟩)
    · exact hle x
    · exact hlt x

/-- **C32** The verdict is "accept" exactly when the statistic is below the critical value, the
two-sided KS quantile at `1 - significance` for the sample size; the statistic does not depend on the
order of the data. -/
theorem C32_verdict {F : ℝ → ℝ} {kstwo : ℝ → Nat → ℝ} {data : List ℝ} {sig : ℝ} {r : KS}
    (h : ksTest F kstwo data sig = .ok r) :
    (r.accept = true ↔ r.statistic < kstwo (1 - sig) data.length) ∧ r.critical = kstwo (1 - sig) data.length ∧
      ∀ data', data'.Perm data → ksTest F kstwo data' sig = .ok r := by
  refine ⟨?_, ?_, fun data' hp => ?_⟩
  · unfold ksTest at h
    by_cases hs : sig ≤ 0 ∨ sig > 1 / 2
    · rw [if_pos hs] at h; exact absurd h (by simp [valueErr])
    rw [if_neg hs] at h
    simp only [(Np.sort_perm data).length_eq] at h
    split at h
    · exact absurd h (by simp [valueErr])
    · injection h with h
      rw [← h]; simp
  · unfold ksTest at h
    by_cases hs : sig ≤ 0 ∨ sig > 1 / 2
    · rw [if_pos hs] at h; exact absurd h (by simp [valueErr])
    rw [if_neg hs] at h
    simp only [(Np.sort_perm data).length_eq] at h
    split at h
    · exact absurd h (by simp [valueErr])
    · injection h with h
      rw [← h]
  · rw [← h]
    unfold ksTest
    rw [Np.sort_congr hp]

/-- **C32** Any non-empty sample with a valid significance is answered. -/
theorem C32_answers (F : ℝ → ℝ) (kstwo : ℝ → Nat → ℝ) {data : List ℝ} {sig : ℝ} (hd : data ≠ [])
    (h0 : 0 < sig) (h1 : sig ≤ 1 / 2) : ∃ r, ksTest F kstwo data sig = .ok r := by
  unfold ksTest
  rw [if_neg (by push Not; exact ⟨h0, h1⟩)]
  simp only []
  split
  · next hnone =>
    exfalso
    rw [List.max?_eq_none_iff, List.append_eq_nil_iff] at hnone
    have hl := congrArg List.length hnone.1
    simp only [List.length_zipWith, List.length_map, List.length_range, min_self, List.length_nil] at hl
    exact hd (by
      have := (Np.sort_perm data).length_eq
      exact List.eq_nil_of_length_eq_zero (by omega))
  · exact ⟨_, rfl⟩

/-- A monotone function into [0,1] for which `C32_statistic` applies. -/
example : Monotone (fun x : ℝ => max 0 (min x 1)) ∧ (∀ x : ℝ, 0 ≤ max 0 (min x 1)) ∧
    ∀ x : ℝ, max 0 (min x 1) ≤ 1 :=
  ⟨fun _ _ h => max_le_max le_rfl (min_le_min h le_rfl), fun _ => le_max_left _ _,
    fun _ => max_le zero_le_one (min_le_right _ _)⟩

/-! ## C67 chi2test -/

/-- successive differences telescope -/
theorem sum_diffs : ∀ (l : List ℝ) (a : ℝ), (List.zipWith (fun a b => b - a) (a :: l) l).sum = (a :: l).getLast (by simp) - a := by
  intro l
  induction l with
  | nil => intro a; simp
  | cons b l ih =>
    intro a
    rw [List.zipWith_cons_cons, List.sum_cons, ih b]
    rw [List.getLast_cons (a := a) (l := b :: l) (by simp)]
    ring

theorem expectedCounts_eq (F : ℝ → ℝ) (n lo hi : ℝ) : ∀ edges : List ℝ,
    (List.zipWith (fun a b => b - a) (edges.map F) (edges.map F).tail).map (fun d => n * (d / (F hi - F lo))) =
      expectedCounts F n lo hi edges := by
  intro edges
  induction edges with
  | nil => rfl
  | cons a l ih =>
    cases l with
    | nil => rfl
    | cons b l =>
      simp only [List.map_cons, List.tail_cons, List.zipWith_cons_cons, expectedCounts] at ih ⊢
      rw [ih]

/-- The statistic. -/
theorem chi2Stat_eq (F : ℝ → ℝ) {observed : List ℝ} {a b : ℝ} {edges : List ℝ} {n : ℝ}
    {hi : ℝ} (hhi : (a :: b :: edges).getLast (by simp) = hi) :
    chi2Stat observed ((a :: b :: edges).map F) n =
      (List.zipWith (fun o e => (o - e) ^ 2 / e) observed (expectedCounts F n a hi (a :: b :: edges))).sum := by
  unfold chi2Stat
  simp only []
  have hsum : (List.zipWith (fun a b => b - a) ((a :: b :: edges).map F) ((a :: b :: edges).map F).tail).sum = F hi - F a := by
    have := sum_diffs ((b :: edges).map F) (F a)
    rw [List.map_cons, List.tail_cons, this]
    congr 1
    rw [← hhi]
    exact List.getLast_map (f := F) (l := a :: b :: edges) (by simp)
  rw [hsum, expectedCounts_eq]

/-- **C67** The expected counts add up to the sample size, and are all positive for a strictly increasing CDF
over increasing edges; the statistic is then non-negative, and zero exactly when every bin holds its
expected count. -/
theorem C67_expected_total (F : ℝ → ℝ) (hF : StrictMono F) {n : ℝ} (hn : 0 < n) {lo hi : ℝ} (hlh : lo < hi) :
    ∀ (edges : List ℝ) (h : edges ≠ []), edges.Pairwise (· < ·) →
      (expectedCounts F n lo hi edges).sum = n * ((F (edges.getLast h) - F (edges.head h)) / (F hi - F lo)) ∧
      ∀ e ∈ expectedCounts F n lo hi edges, 0 < e := by
  intro edges
  have hd : 0 < F hi - F lo := by have := hF hlh; linarith
  induction edges with
  | nil => intro h; exact absurd rfl h
  | cons a l ih =>
    intro _ hp
    cases l with
    | nil => simp [expectedCounts]
    | cons b l =>
      rw [List.pairwise_cons] at hp
      obtain ⟨hs, hpos⟩ := ih (by simp) hp.2
      have hab : F a < F b := hF (hp.1 b (by simp))
      constructor
      · rw [expectedCounts, List.sum_cons, hs, List.getLast_cons (a := a) (l := b :: l) (by simp)]
        simp only [List.head_cons]
        field_simp
        ring
      · intro e he
        rw [expectedCounts, List.mem_cons] at he
        rcases he with rfl | he
        · apply mul_pos hn (div_pos (by linarith) hd)
        · exact hpos e he

/-- **C67** -/
theorem C67_statistic_nonneg {observed expected : List ℝ} (hlen : observed.length = expected.length)
    (hpos : ∀ e ∈ expected, 0 < e) :
    0 ≤ (List.zipWith (fun o e => (o - e) ^ 2 / e) observed expected).sum ∧
      ((List.zipWith (fun o e => (o - e) ^ 2 / e) observed expected).sum = 0 ↔ observed = expected) := by
  induction expected generalizing observed with
  | nil =>
    rw [List.length_nil] at hlen
    have := List.eq_nil_of_length_eq_zero hlen
    subst this; simp
  | cons e l ih =>
    cases observed with
    | nil => simp at hlen
    | cons o os =>
      obtain ⟨h0, hz⟩ := ih (observed := os) (by simpa using hlen) (fun x hx => hpos x (by simp [hx]))
      have he : 0 < e := hpos e (by simp)
      have hterm : 0 ≤ (o - e) ^ 2 / e := by positivity
      simp only [List.zipWith_cons_cons, List.sum_cons]
      refine ⟨by linarith, ?_⟩
      constructor
      · intro h
        have h1 : (o - e) ^ 2 / e = 0 := by linarith
        have h2 := hz.1 (by linarith)
        rw [div_eq_zero_iff] at h1
        rcases h1 with h1 | h1
        · have : o - e = 0 := by simpa using h1
          rw [h2, show o = e by linarith]
        · exact absurd h1 he.ne'
      · intro h
        injection h with h1 h2
        rw [hz.2 h2, h1]; simp

/-- Refusal and verdict. -/
theorem chi2_verdict (chi2ppf : ℝ → Nat → ℝ) (observed cdf : List ℝ) (nData : ℝ) (k : Nat) {sig : ℝ}
    (h0 : 0 < sig) (h1 : sig ≤ 1 / 2) :
    (chi2Test chi2ppf observed cdf nData k sig = .error .valueError ↔ observed.length ≤ k + 1) ∧
    ∀ r, chi2Test chi2ppf observed cdf nData k sig = .ok r →
      r.statistic = chi2Stat observed cdf nData ∧
      (r.accept = true ↔ r.statistic < chi2ppf (1 - sig) (observed.length - k - 1)) := by
  unfold chi2Test
  rw [if_neg (by push Not; exact ⟨h0, h1⟩)]
  simp only []
  by_cases hk : (observed.length : ℤ) - k - 1 ≤ 0
  · rw [if_pos hk]
    refine ⟨by simp only [valueErr, true_iff]; omega, fun r hr => ?_⟩
    exact absurd hr (by simp [valueErr])
  · rw [if_neg hk]
    refine ⟨by simp only [reduceCtorEq, false_iff]; omega, fun r hr => ?_⟩
    injection hr with hr
    rw [← hr]; simp

/-- **C67** For bins with edges `a < b < …` and a fitted distribution function `F`: the test refuses when there are too few
bins for the number of parameters; otherwise the statistic is `∑ (observed - expected)² / expected` with the expected counts
of the fitted distribution conditioned on the binned range, and the test accepts exactly when it is below the chi-squared
quantile with `bins - k - 1` degrees of freedom. -/
theorem C67_verdict (chi2ppf : ℝ → Nat → ℝ) (F : ℝ → ℝ) (observed : List ℝ) {a b : ℝ} {edges : List ℝ} (nData : ℝ) (k : Nat)
    {sig hi : ℝ} (hhi : (a :: b :: edges).getLast (by simp) = hi) (h0 : 0 < sig) (h1 : sig ≤ 1 / 2) :
    (chi2Test chi2ppf observed ((a :: b :: edges).map F) nData k sig = .error .valueError ↔ observed.length ≤ k + 1) ∧
    ∀ r, chi2Test chi2ppf observed ((a :: b :: edges).map F) nData k sig = .ok r →
      r.statistic = (List.zipWith (fun o e => (o - e) ^ 2 / e) observed
        (expectedCounts F nData a hi (a :: b :: edges))).sum ∧
      (r.accept = true ↔ r.statistic < chi2ppf (1 - sig) (observed.length - k - 1)) := by
  obtain ⟨e1, e2⟩ := chi2_verdict chi2ppf observed ((a :: b :: edges).map F) nData k h0 h1
  refine ⟨e1, fun r hr => ⟨?_, (e2 r hr).2⟩⟩
  rw [(e2 r hr).1]
  exact chi2Stat_eq F hhi

/-- A concrete use with three bins. -/
example (q : ℝ → Nat → ℝ) : ∃ r, chi2Test q [2, 3, 5] ([0, 1, 2, 3].map (fun x : ℝ => x)) 10 1 (5 / 100) = .ok r := by
  cases h : chi2Test q [2, 3, 5] ([0, 1, 2, 3].map (fun x : ℝ => x)) 10 1 (5 / 100) with
  | ok r => exact ⟨r, rfl⟩
  | error e =>
    have hv := (C67_verdict q (fun x : ℝ => x) [2, 3, 5] (a := 0) (b := 1) (edges := [2, 3]) 10 1 (sig := 5 / 100) rfl
      (by norm_num) (by norm_num)).1
    have : e = .valueError := by
      unfold chi2Test at h
      simp only at h
      split_ifs at h <;> cases h <;> rfl
    subst this
    have := hv.1 h
    simp at this

end Reliability.Testing
