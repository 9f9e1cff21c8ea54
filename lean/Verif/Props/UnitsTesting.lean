import Verif.Spec.UnitsTesting
import Verif.Props.Testing2
import Verif.Props.StressStrength
import Verif.Props.UnitsRepairable

/-!
# C174: test plans, the Kolmogorov-Smirnov test and stress-strength interference in other units
-/

namespace Reliability.Testing

open Reliability List
open Reliability.Spec (scaleE planInUnits Rescaled binsInUnits RescaledTest)

theorem divE_scale {k : ℝ} (hk : 0 < k) (a : ℝ) (x : Ext ℝ) : divE (k * a) x = scaleE k (divE a x) := by
  cases x with
  | fin b =>
    unfold divE Ext.divFin
    simp only
    split
    · unfold Ext.infMul
      have h1 : (k * a < 0) ↔ a < 0 := by
        constructor
        · intro h; by_contra hc; push Not at hc; nlinarith
        · intro h; nlinarith
      have h2 : (0 < k * a) ↔ 0 < a := mul_pos_iff_of_pos_left hk
      simp only [h1, h2]
      split
      · rfl
      · split <;> rfl
    · simp only [scaleE, mul_div_assoc]
  | _ => rfl

theorem ltE_scale {k : ℝ} (hk : 0 < k) (x : Ext ℝ) (y : ℝ) : ltE (scaleE k x) (k * y) = ltE x y := by
  cases x with
  | fin a => simp only [scaleE, ltE]; simp [mul_lt_mul_iff_of_pos_left hk]
  | _ => rfl

theorem failuresLoop_scale {k : ℝ} (hk : 0 < k) (bound : ℕ → Ext ℝ) (M : ℝ) (fuel f : ℕ) :
    failuresLoop (fun f => scaleE k (bound f)) (k * M) fuel f = failuresLoop bound M fuel f := by
  induction fuel generalizing f with
  | zero => rfl
  | succ fuel ih => simp only [failuresLoop, ltE_scale hk, ih]

/-- **C174 (planner).** `reliability_test_planner` with the MTBF and the test duration in another unit: the same number of
failures, the same CI, the same refusals, and the MTBF or duration it finds in the new unit. -/
theorem C174_planner (c : Chi2) (MTBF : Option ℝ) (failures : Option ℤ) (CI T : Option ℝ) (os tt : Bool) (fuel : ℕ) (k : ℝ)
    (hk : 0 < k) :
    planner c (MTBF.map (k * ·)) failures CI (T.map (k * ·)) os tt fuel =
      (planner c MTBF failures CI T os tt fuel).map fun r => r.map (planInUnits k) := by
  unfold planner
  split
  · rfl
  split
  · rfl
  cases MTBF with
  | none =>
    cases failures <;> cases CI <;> cases T <;> try rfl
    simp only [Option.map_none, Option.map_some, Except.map, planInUnits, scaleE]
    rename_i f CI T
    rw [show 2 * (k * T) = k * (2 * T) by ring, divE_scale hk]
    rfl
  | some M =>
    cases failures with
    | none =>
      cases T with
      | none => cases CI <;> rfl
      | some T =>
      cases CI with
      | none => rfl
      | some CI =>
      simp only [Option.map_some]
      have e : ∀ q df, divE (2 * (k * T)) (c.ppfE q df) = scaleE k (divE (2 * T) (c.ppfE q df)) := by
        intro q df; rw [show 2 * (k * T) = k * (2 * T) by ring, divE_scale hk]
      simp only [e, failuresLoop_scale hk (fun f : ℕ => divE (2 * T) (c.ppfE _ (2 * f + _))), ltE_scale hk]
      cases failuresLoop (fun f : ℕ => divE (2 * T) (c.ppfE (if os = true then CI else 1 - (1 - CI) / 2)
          (2 * f + if tt = true then 2 else 0))) M fuel 0 with
      | none => rfl
      | some f =>
        simp only
        by_cases hl : ltE (divE (2 * T) (c.ppfE (if os = true then CI else 1 - (1 - CI) / 2) (2 * 0 + if tt = true then 2 else 0))) M = true
        · simp only [if_pos hl]; rfl
        · simp only [if_neg hl]; rfl
    | some f =>
      cases CI with
      | none =>
        cases T with
        | none => rfl
        | some T =>
          simp only [Option.map_some, Except.map, planInUnits, scaleE]
          have e : k * T / (k * M * (1 / 2)) = T / (M * (1 / 2)) := by
            rw [mul_assoc, mul_div_mul_left _ _ hk.ne']
          rw [e]
      | some CI =>
        cases T with
        | some T => rfl
        | none =>
          simp only [Option.map_none, Option.map_some, Except.map, planInUnits]
          congr 3
          generalize 2 * f.toNat + (if tt = true then 2 else 0) = df
          unfold Chi2.ppfE
          by_cases hdf : df = 0
          · rw [if_pos hdf]; rfl
          · rw [if_neg hdf]; simp only [Ext.mul, scaleE]; congr 1; ring

theorem durationOf_scale (c : Chi2) (M cr : ℝ) (os tt : Bool) (f : ℕ) {k : ℝ} (hk : 0 < k) :
    durationOf c (k * M) cr os tt f = scaleE k (durationOf c M cr os tt f) := by
  unfold durationOf
  have := C174_planner c (some M) (some f) (some (1 - cr)) none os tt 0 k hk
  simp only [Option.map_some, Option.map_none] at this
  rw [this]
  cases planner c (some M) (some f) (some (1 - cr)) none os tt 0 with
  | none => rfl
  | some r => cases r <;> rfl

theorem riskOf_scale (c : Chi2) (M D cr : ℝ) (os tt : Bool) (f : ℕ) {k : ℝ} (hk : 0 < k) :
    riskOf c (k * M) (k * D) cr os tt f = riskOf c M D cr os tt f := by
  unfold riskOf
  rw [durationOf_scale c M cr os tt f hk]
  cases durationOf c M cr os tt f with
  | fin T =>
    simp only [scaleE]
    have := C174_planner c (some D) (some f) none (some T) os tt 0 k hk
    simp only [Option.map_some] at this
    rw [this]
    cases planner c (some D) (some f) none (some T) os tt 0 with
    | none => rfl
    | some r => cases r <;> rfl
  | _ => rfl

theorem durLoop_scale (g : Ext ℝ → Ext ℝ) (duration risk : ℕ → Ext ℝ) (pr : ℝ) (fuel : ℕ) (st : DurSt) :
    durLoop (fun f => g (duration f)) risk pr fuel { st with durations := st.durations.map g } =
      (durLoop duration risk pr fuel st).map fun st => { st with durations := st.durations.map g } := by
  induction fuel generalizing st with
  | zero => rfl
  | succ fuel ih =>
    simp only [durLoop]
    by_cases h1 : (ltE (risk st.failures) pr && !st.event) = true
    · simp only [h1, if_true]
      split
      · simp
      · rw [← ih]; simp
    · simp only [h1, if_false, Bool.false_eq_true]
      split
      · simp
      · rw [← ih]; simp

theorem pyIdx_map {α β : Type _} (g : α → β) (l : List α) (i : ℤ) : pyIdx (l.map g) i = (pyIdx l i).map g := by
  unfold pyIdx
  simp only [length_map, getElem?_map]
  split
  · rfl
  · split <;> rfl

/-- **C174 (test duration).** `reliability_test_duration` with both MTBFs in another unit returns the same duration in that
unit, and refuses the same inputs. -/
theorem C174_duration (c : Chi2) (Mreq Mdes cr pr : ℝ) (os tt : Bool) (fuel : ℕ) (k : ℝ) (hk : 0 < k) :
    testDuration c (k * Mreq) (k * Mdes) cr pr os tt fuel =
      (testDuration c Mreq Mdes cr pr os tt fuel).map fun r => r.map (scaleE k) := by
  unfold testDuration
  split
  · rfl
  split
  · rfl
  have : (k * Mdes ≤ k * Mreq) ↔ Mdes ≤ Mreq := mul_le_mul_iff_of_pos_left hk
  simp only [this]
  split
  · rfl
  have e1 : durationOf c (k * Mreq) cr os tt = fun f => scaleE k (durationOf c Mreq cr os tt f) := by
    funext f; exact durationOf_scale c Mreq cr os tt f hk
  have e2 : riskOf c (k * Mreq) (k * Mdes) cr os tt = riskOf c Mreq Mdes cr os tt := by
    funext f; exact riskOf_scale c Mreq Mdes cr os tt f hk
  rw [e1, e2]
  have := durLoop_scale (scaleE k) (durationOf c Mreq cr os tt) (riskOf c Mreq Mdes cr os tt) pr fuel DurSt.init
  simp only [DurSt.init, map_nil] at this ⊢
  rw [this]
  cases durLoop (durationOf c Mreq cr os tt) (riskOf c Mreq Mdes cr os tt) pr fuel ⟨[], 0, 0, 10 ^ 10, false⟩ with
  | none => rfl
  | some st =>
    simp only [Option.map_some, pyIdx_map]
    cases pyIdx st.durations st.solution_index <;> rfl

/-! ## Kolmogorov-Smirnov -/

/-- **C174 (KStest).** The test looks at the data only through the distribution's CDF: after any increasing change `g` of the
times, made to the data and to the distribution, statistic, critical value, verdict and refusals are the same — in
particular in another unit of time. The order of the data does not matter either. -/
theorem C174_ks (F F' : ℝ → ℝ) (kstwo : ℝ → ℕ → ℝ) (data data' : List ℝ) (sig : ℝ) (g : ℝ → ℝ) (hg : StrictMono g)
    (hF : ∀ x, F' (g x) = F x) (hd : data' ~ data.map g) : ksTest F' kstwo data' sig = ksTest F kstwo data sig := by
  have hs : Np.sort data' = (Np.sort data).map g := by
    rw [Np.sort_congr (hd.trans ((Np.sort_perm data).symm.map g))]
    apply Np.sort_eq_self
    rw [pairwise_map]
    exact (Np.sort_sorted data).imp fun h => hg.monotone h
  unfold ksTest
  rw [hs]
  have : ((Np.sort data).map g).map F' = (Np.sort data).map F := by
    rw [map_map]; exact map_congr_left fun x _ => hF x
  simp only [this, length_map]

/-! ## The chi-squared test -/

section chi
open Reliability.ChiTest

theorem counts_scale {k : ℝ} (hk : 0 < k) (data : List ℝ) : ∀ e : List ℝ,
    counts (data.map (k * ·)) (e.map (k * ·)) = counts data e
  | [] => rfl
  | [_] => rfl
  | [a, b] => by
    simp only [map_cons, map_nil, counts, countP_map, Function.comp_def, mul_le_mul_iff_right₀ hk]
  | a :: b :: c :: l => by
    have ih := counts_scale hk data (b :: c :: l)
    simp only [map_cons] at ih ⊢
    simp only [counts, ih, countP_map, Function.comp_def, mul_le_mul_iff_right₀ hk, mul_lt_mul_iff_right₀ hk]

theorem descends_scale {k : ℝ} (hk : 0 < k) : ∀ e : List ℝ,
    List.zipWith (fun a b => decide (a > b)) (e.map (k * ·)) (e.map (k * ·)).tail =
      List.zipWith (fun a b => decide (a > b)) e e.tail
  | [] => rfl
  | [_] => rfl
  | a :: b :: l => by
    have ih := descends_scale hk (b :: l)
    simp only [map_cons, tail_cons, zipWith_cons_cons] at ih ⊢
    rw [ih]
    simp only [gt_iff_lt, mul_lt_mul_iff_right₀ hk]

theorem any_neg_scale {k : ℝ} (hk : 0 < k) (l : List ℝ) :
    (l.map (k * ·)).any (fun x => decide (x < 0)) = l.any (fun x => decide (x < 0)) := by
  rw [any_map]
  congr 1
  funext x
  simp [Function.comp, mul_neg_iff, hk, hk.not_gt]

theorem all_neg_scale {k : ℝ} (hk : 0 < k) (l : List ℝ) :
    (l.map (k * ·)).all (fun x => decide (x < 0)) = l.all (fun x => decide (x < 0)) := by
  rw [all_map]
  congr 1
  funext x
  simp [Function.comp, mul_neg_iff, hk, hk.not_gt]

theorem histogram_scale {k : ℝ} (hk : 0 < k) {choose : String → List ℝ → Except Err (List ℝ)} {data : List ℝ}
    (hc : ∀ s, choose s (data.map (k * ·)) = (choose s data).map fun e => e.map (k * ·)) (bins : Bins) :
    histogram choose (data.map (k * ·)) (binsInUnits k bins) =
      (histogram choose data bins).map fun h => (h.1, h.2.map (k * ·)) := by
  cases bins with
  | default =>
    simp only [binsInUnits, histogram, hc]
    cases choose "auto" data with
    | error e => rfl
    | ok e => simp [Except.map, bind, Except.bind, counts_scale hk]
  | method s =>
    simp only [binsInUnits, histogram, hc]
    cases choose s data with
    | error e => rfl
    | ok e => simp [Except.map, bind, Except.bind, counts_scale hk]
  | edges e =>
    simp only [binsInUnits, histogram, descends_scale hk, counts_scale hk]
    split <;> rfl
  | other => rfl

theorem cdfAt_scale {k : ℝ} (hk : 0 < k) {d d' : ChiTest.Dist} (h : RescaledTest k d d') (e : List ℝ) :
    cdfAt d' (e.map (k * ·)) = cdfAt d e := by
  have hm : (e.map (k * ·)).map d'.F = e.map d.F := by
    rw [map_map]; exact map_congr_left fun x _ => h.cdf x
  unfold cdfAt
  rw [h.support]
  have := h.notBeta
  cases hs : d.support with
  | real => simp only [hm]
  | nonneg => simp only [hm, any_neg_scale hk]
  | unit => exact absurd hs this

theorem numParams_scale {k : ℝ} {d d' : ChiTest.Dist} (h : RescaledTest k d d') : numParams d'.params = numParams d.params := by
  rcases h.params with ⟨n, h1, h2⟩ | ⟨p, p', h1, h2, h3, h4⟩
  · rw [h1, h2]
  · rw [h1, h2]
    simp only [numParams, h3, h4]

/-- **C174 (chi2test).** Data, bin edges and distribution in another unit: the same refusals; otherwise the edges used are those
of the old unit converted, and statistic, critical value and verdict are the same. For edges chosen by numpy this needs that its
choice follows the unit. -/
theorem C174_chi2 (chi2ppf : ℝ → ℕ → ℝ) {k : ℝ} (hk : 0 < k) {choose : String → List ℝ → Except Err (List ℝ)} {data : List ℝ}
    (hc : ∀ s, choose s (data.map (k * ·)) = (choose s data).map fun e => e.map (k * ·)) {d d' : ChiTest.Dist}
    (h : RescaledTest k d d') (sig : ℝ) (bins : Bins) :
    chi2test chi2ppf choose d' (data.map (k * ·)) sig (binsInUnits k bins) =
      (chi2test chi2ppf choose d data sig bins).map fun r => ⟨r.bin_edges.map (k * ·), r.test⟩ := by
  unfold chi2test
  rw [any_neg_scale hk, h.type, numParams_scale h, histogram_scale hk hc]
  simp only [map_eq_nil_iff, length_map]
  split
  · rfl
  split
  · rfl
  split
  · rfl
  cases histogram choose data bins with
  | error e => rfl
  | ok a =>
    simp only [Except.map, bind, Except.bind]
    have hm := histogram_scale hk hc (.method "auto")
    simp only [binsInUnits] at hm
    rw [hm]
    have key : ∀ b : List ℕ × List ℝ,
        (if (b.2.map (k * ·)).all (fun t => decide (t < 0)) && !d.normalOrGumbel then (.error .typeError : Except Err Result)
          else (cdfAt d' (b.2.map (k * ·))).bind fun cdf =>
            (chi2Test chi2ppf (b.1.map (Nat.cast : ℕ → ℝ)) cdf data.length (numParams d.params) sig).bind fun t =>
              .ok ⟨b.2.map (k * ·), t⟩) =
        (if b.2.all (fun t => decide (t < 0)) && !d.normalOrGumbel then (.error .typeError : Except Err Result)
          else (cdfAt d b.2).bind fun cdf =>
            (chi2Test chi2ppf (b.1.map (Nat.cast : ℕ → ℝ)) cdf data.length (numParams d.params) sig).bind fun t =>
              .ok ⟨b.2, t⟩).map fun r => (⟨r.bin_edges.map (k * ·), r.test⟩ : Result) := by
      intro b
      rw [all_neg_scale hk, cdfAt_scale hk h]
      split
      · rfl
      cases cdfAt d b.2 with
      | error e => rfl
      | ok cdf =>
        simp only [Except.bind]
        cases chi2Test chi2ppf (b.1.map (Nat.cast : ℕ → ℝ)) cdf data.length (numParams d.params) sig <;> rfl
    by_cases hsum : a.1.sum ≠ data.length
    · simp only [if_pos hsum]
      cases histogram choose data (.method "auto") with
      | error e => rfl
      | ok b => exact key b
    · simp only [if_neg hsum]
      exact key a

/-- Days and hours: an exponential distribution with mean 5 days, edges 0, 2, 9 days. -/
example (chi2ppf : ℝ → ℕ → ℝ) :
    let days : ChiTest.Dist := ⟨false, .nonneg, fun x => 1 - Real.exp (-(x / 5)), .standard [1 / 5, 0]⟩
    let hours : ChiTest.Dist := ⟨false, .nonneg, fun x => 1 - Real.exp (-(x / 120)), .standard [1 / 120, 0]⟩
    let data : List ℝ := [1, 3, 8]
    chi2test chi2ppf (fun _ l => .ok l) hours (data.map (24 * ·)) (1 / 20) (.edges [24 * 0, 24 * 2, 24 * 9]) =
      (chi2test chi2ppf (fun _ l => .ok l) days data (1 / 20) (.edges [0, 2, 9])).map
        fun r => ⟨r.bin_edges.map (24 * ·), r.test⟩ := by
  intro days hours data
  refine C174_chi2 chi2ppf (by norm_num : (0 : ℝ) < 24) (data := data) (fun s => rfl) (d := days) (d' := hours) ⟨rfl, rfl, by simp [days], ?_, ?_⟩
    (1 / 20) (.edges [0, 2, 9])
  · intro x
    simp only [days, hours]
    congr 3
    ring
  · exact Or.inr ⟨_, _, rfl, rfl, rfl, by simp⟩

end chi

/-! ## Rescaled distributions -/

open Distributions in
theorem rescaled_locScale (fam : Fam) {k loc scale : ℝ} (hk : 0 < k) (s : Scipy) (d d' : Dist) (h1 : d.fam = fam) (h2 : d'.fam = fam)
    (h3 : d.sp = locScale s loc scale) (h4 : d'.sp = locScale s (k * loc) (k * scale)) : Rescaled k d d' := by
  have e : ∀ x, (k * x - k * loc) / (k * scale) = (x - loc) / scale := by
    intro x; rw [← mul_sub, mul_div_mul_left _ _ hk.ne']
  constructor
  · rw [h1, h2]
  · intro p; rw [h3, h4]; simp only [locScale]; ring
  · intro x; rw [h3, h4]; simp only [locScale, e]
  · intro x; rw [h3, h4]; simp only [locScale, e]
  · intro x; rw [h3, h4]; simp only [locScale, e]; rw [div_div, mul_comm scale]

open Distributions in
/-- The distribution of `k` times a Weibull, Exponential, Loglogistic, Gumbel, Normal, Gamma or Lognormal quantity: the parameters
that the other theorems about units call the same distribution in other units. -/
theorem C174_rescaled {k : ℝ} (hk : 0 < k) (a b g : ℝ) :
    Rescaled k (weibull a b g) (weibull (k * a) b (k * g)) ∧
    Rescaled k (exponential a g) (exponential (a / k) (k * g)) ∧
    Rescaled k (loglogistic a b g) (loglogistic (k * a) b (k * g)) ∧
    Rescaled k (gumbel a b) (gumbel (k * a) (k * b)) ∧
    Rescaled k (normal a b) (normal (k * a) (k * b)) ∧
    Rescaled k (gammaDist a b g) (gammaDist (k * a) b (k * g)) ∧
    Rescaled k (lognormal a b g) (lognormal (a + Real.log k) b (k * g)) := by
  refine ⟨rescaled_locScale _ hk _ _ _ rfl rfl rfl rfl, rescaled_locScale _ hk exponStd _ _ rfl rfl rfl ?_,
    rescaled_locScale _ hk _ _ _ rfl rfl rfl rfl, rescaled_locScale _ hk _ _ _ rfl rfl rfl rfl,
    rescaled_locScale _ hk _ _ _ rfl rfl rfl rfl, rescaled_locScale _ hk _ _ _ rfl rfl rfl rfl,
    rescaled_locScale _ hk (lognormStd b) _ _ rfl rfl rfl ?_⟩
  · show locScale exponStd (k * g) (1 / (a / k)) = _
    congr 1; rw [one_div_div, mul_one_div]
  · show locScale (lognormStd b) (k * g) (Real.exp (a + Real.log k)) = _
    rw [Real.exp_add, Real.exp_log hk, mul_comm (Real.exp a)]

end Reliability.Testing

namespace Reliability.OtherFunctions

open Reliability List Distributions
open Reliability.Spec (Rescaled)

theorem trapezoid_scale {k : ℝ} (hk : 0 < k) : ∀ x y : List ℝ, trapezoid (x.map (k * ·)) (y.map (· / k)) = trapezoid x y
  | [], _ => by simp [trapezoid]
  | [_], _ => by simp [trapezoid]
  | _ :: _ :: _, [] => by simp [trapezoid]
  | _ :: _ :: _, [_] => by simp [trapezoid]
  | x0 :: x1 :: xs, y0 :: y1 :: ys => by
    have := trapezoid_scale hk (x1 :: xs) (y1 :: ys)
    simp only [map_cons, trapezoid] at this ⊢
    rw [this]
    congr 1
    field_simp

theorem checkX_scale (fam : Fam) (hb : fam ≠ .beta) {k : ℝ} (hk : 0 < k) (X : List ℝ) : checkX fam (X.map (k * ·)) = checkX fam X := by
  unfold checkX
  rw [Repairable.min?_scale hk, Repairable.max?_scale hk]
  cases X.min? with
  | none => rfl
  | some lo =>
    cases X.max? with
    | none => rfl
    | some hi =>
      simp only [Option.map_some]
      have h1 : (k * lo < 0) ↔ lo < 0 := by
        constructor
        · intro h; by_contra hc; push Not at hc; nlinarith
        · intro h; nlinarith
      simp only [h1, hb, and_false, if_false]

theorem linspace_scale (k a b : ℝ) (n : ℕ) : Np.linspace (k * a) (k * b) n = (Np.linspace a b n).map (k * ·) := by
  unfold Np.linspace
  rw [map_map]
  apply map_congr_left
  intro i _
  simp only [Function.comp_apply]
  ring

theorem zip_scale (k : ℝ) : ∀ f S : List ℝ, zipWith (· * ·) (f.map (· / k)) S = (zipWith (· * ·) f S).map (· / k)
  | [], _ => by simp
  | _ :: _, [] => by simp
  | a :: f, b :: S => by
    have := zip_scale k f S
    simp only [map_cons, zipWith_cons_cons, this]
    congr 1
    ring

/-- **C174 (stress-strength).** With stress and strength both in another unit, `stress_strength` returns the same probability
and refuses the same pairs. -/
theorem C174_stress_strength (n : ℕ) (stress stress' strength strength' : Dist) (k : ℝ) (hk : 0 < k)
    (h1 : Rescaled k stress stress') (h2 : Rescaled k strength strength') (hb1 : stress.fam ≠ .beta) (hb2 : strength.fam ≠ .beta) :
    stressStrength n stress' strength' = stressStrength n stress strength := by
  unfold stressStrength
  simp only [h1.ppf, h2.ppf]
  rw [← mul_min_of_nonneg _ _ hk.le, ← mul_max_of_nonneg _ _ hk.le, linspace_scale]
  generalize Np.linspace (min (stress.sp.ppf (1 / 10 ^ 8)) (strength.sp.ppf (1 / 10 ^ 8)))
    (max (strength.sp.ppf (1 - 1 / 10 ^ 8)) (stress.sp.ppf (1 - 1 / 10 ^ 8))) n = X
  unfold PDF SF
  rw [h1.fam, h2.fam, checkX_scale _ hb1 hk, checkX_scale _ hb2 hk]
  cases checkX strength.fam X with
  | error e => rfl
  | ok u =>
    cases checkX stress.fam X with
    | error e => rfl
    | ok u' =>
      simp only
      have e1 : (X.map (k * ·)).map strength'.sp.pdf = (X.map strength.sp.pdf).map (· / k) := by
        rw [map_map, map_map]; exact map_congr_left fun x _ => h2.pdf x
      have e2 : (X.map (k * ·)).map stress'.sp.sf = X.map stress.sp.sf := by
        rw [map_map]; exact map_congr_left fun x _ => h1.sf x
      rw [e1, e2, zip_scale, trapezoid_scale hk]

/-- **C174 (stress-strength, Normal).** `stress_strength_normal` gives the same probability in every unit, also after a shift
of the zero point (degrees Celsius and kelvin). -/
theorem C174_stress_strength_normal (m1 s1 m2 s2 k s : ℝ) (hk : 0 < k) (h1 : 0 < s1) :
    stressStrengthNormal (k * m1 + s) (k * s1) (k * m2 + s) (k * s2) = stressStrengthNormal m1 s1 m2 s2 := by
  unfold stressStrengthNormal
  congr 1
  have hpos : 0 < s2 ^ 2 + s1 ^ 2 := by positivity
  have e : (k * s2) ^ 2 + (k * s1) ^ 2 = k ^ 2 * (s2 ^ 2 + s1 ^ 2) := by ring
  rw [e, Real.mul_rpow (by positivity) hpos.le, ← Real.sqrt_eq_rpow (k ^ 2), Real.sqrt_sq hk.le]
  rw [show -(k * m2 + s - (k * m1 + s)) = k * -(m2 - m1) by ring, mul_div_mul_left _ _ hk.ne']

/-- Megapascals and pascals: the two distributions meet the hypotheses. -/
example : Rescaled (10 ^ 6) (weibull 40 4 0) (weibull (10 ^ 6 * 40) 4 (10 ^ 6 * 0)) ∧ (weibull 40 4 0).fam ≠ .beta :=
  ⟨(Testing.C174_rescaled (by norm_num) 40 4 0).1, by decide⟩

end Reliability.OtherFunctions
