import Verif.Spec.FitQuantiles
import Verif.Props.FitGlue3
import Verif.Props.ExpoCI

/-! # The table of quantiles of a fit (C104) -/

namespace Reliability.Props

open Reliability Reliability.Distributions Reliability.Likelihood Reliability.InputCheck Reliability.Props.Likelihood Reliability.FunctionCI
open Reliability.Fitters (MLEOut OptResult lsOptimization mleOptimization mleForced)
open Reliability.FitGlue Reliability.Spec Reliability.Spec.InputCheck Reliability.Spec.FitGlue

theorem quantileTable_cases {J : Jac} {d : Fitted} {CI : ℝ} {l : List ℝ}
    {t : Option (List ℝ × List (Ext ℝ) × List (Ext ℝ) × List (Ext ℝ))} (h : quantileTable J d CI (.array l) = .ok t) :
    (∃ lo p up, t = some (l, lo, p, up) ∧ funcCI J d .CDF (some "time") CI (some l) none = .ok (some (lo, p, up))) ∨
      extractCI J d .CDF (some "time") CI (some l) none = .ok none := by
  unfold quantileTable at h
  simp only [bind_ok] at h
  obtain ⟨p, hp, h⟩ := h
  cases he : extractCI J d .CDF (some "time") CI (some l) none with
  | error e => rw [he] at h; cases h
  | ok b =>
    rw [he] at h
    cases b with
    | none => exact .inr rfl
    | some b =>
      cases h
      refine .inl ⟨b.1, p, b.2, rfl, ?_⟩
      unfold funcCI
      rw [he]
      simp only [pointTime, hp]

theorem subscript_some {α : Type} {x : Except Err (Option α)} {r : α} (h : subscript x = .ok r) : x = .ok (some r) := by
  unfold subscript at h
  split at h
  · cases h
  · cases h
  · cases h; rfl

theorem extract_some (J : Jac) (d : Fitted) (CI : ℝ) (l : List ℝ) :
    extractCI J d .CDF (some "time") CI (some l) none ≠ .ok none := by
  unfold extractCI
  cases d with
  | two d =>
    simp only [if_pos]
    split <;> simp
  | expo d =>
    simp only
    split <;> simp

theorem survival_two {f : CFam} {a b : ℝ} (g : ℝ) (hp : ParamsOK f a b) (x : ℝ) :
    (distOf f a b g).sp.cdf x + (distOf f a b g).sp.sf x = 1 := by
  obtain ⟨hb, ha⟩ := hp
  cases f
  · exact (Reliability.Props.Distributions.C33_weibull a b g (ha (Or.inl rfl)) hb).1.compl x
  · exact (Reliability.Props.Distributions.C33_gamma _ b g (Real.exp_pos a) hb).1.compl x
  · exact (Reliability.Props.Distributions.C33_normal a b hb).compl x
  · exact (Reliability.Props.Distributions.C33_lognormal a b g hb).1.compl x
  · exact (Reliability.Props.Distributions.C33_loglogistic a b g (ha (Or.inr rfl)) hb).1.compl x
  · exact (Reliability.Props.Distributions.C33_gumbel a b hb).compl x

theorem table_none {d : Distributions.Dist} {arg : QArg ℝ} (hq : QMeans arg .none) : IsTable d arg none := by
  refine ⟨fun _ => rfl, fun hn => ?_⟩
  rcases hq with h | ⟨-, h⟩ | ⟨-, h⟩ | ⟨s, -, -, -, -, h⟩ | ⟨l, -, -, -, h⟩ <;> first | exact absurd h.1 hn | cases h

theorem array_ne {arg : QArg ℝ} {l : List ℝ} (hq : QMeans arg (.array l)) :
    l ≠ [] ∧ arg ≠ .none ∧ ∀ q ∈ l, 0 < q ∧ q < 1 := by
  rcases hq with ⟨-, h⟩ | ⟨h', h⟩ | ⟨-, h⟩ | ⟨s, -, -, -, -, h⟩ | ⟨l, h, hb, ha, h'⟩
  · cases h
  · cases h
    refine ⟨by simp [standardPercents], ?_, ?_⟩
    · rcases h' with h | h | h | h <;> rw [h] <;> simp
    · intro q hq
      simp only [List.mem_map] at hq
      obtain ⟨k, hk, rfl⟩ := hq
      have : ∀ k ∈ standardPercents, 0 < k ∧ k < 100 := by decide
      obtain ⟨h1, h2⟩ := this k hk
      have h1' : (0 : ℝ) < k := by exact_mod_cast h1
      have h2' : (k : ℝ) < 100 := by exact_mod_cast h2
      constructor
      · positivity
      · linarith
  · cases h
  · cases h
  · cases h'; exact ⟨h, by rw [ha]; simp, hb⟩

theorem table_two {J : Jac} {d : Two} {CI : ℝ} {arg q : QArg ℝ} (hq : QMeans arg q)
    {t : Option (List ℝ × List (Ext ℝ) × List (Ext ℝ) × List (Ext ℝ))} (h : quantileTable J (.two d) CI q = .ok t)
    (h0 : 0 < CI) (h1 : CI < 1) {sa sb c : ℝ} (hp : ParamsOK d.fam d.a d.b) (he : ErrorsOK d sa sb c) :
    IsTable (distOf d.fam d.a d.b d.gamma) arg t := by
  cases q with
  | none =>
    cases h
    exact table_none hq
  | bool b => cases h
  | str s => cases h
  | other => cases h
  | array l =>
    obtain ⟨hl, hn, -⟩ := array_ne hq
    refine ⟨fun h => absurd h hn, fun _ => ⟨l, hl, hq, ?_⟩⟩
    · rcases quantileTable_cases h with ⟨lo, p, up, rfl, hf⟩ | h
      · by_cases hy : ∀ y ∈ l, 1 / 10 ^ 50 < toReliability .CDF y ∧ toReliability .CDF y < 1
        · obtain ⟨lo', t', up', e, hb⟩ := C81_time J d sa sb c CI .CDF l hl hp he h0 h1 hy
          rw [e] at hf
          cases hf
          refine ⟨lo', t', up', rfl, fun q hq => ?_⟩
          obtain ⟨b1, b2, b3, -⟩ := hb q hq
          refine ⟨?_, b2, b3⟩
          have hs := survival_two d.gamma hp (t' q)
          simp only [ofReliability, Fitted.dist] at b1
          linarith
        · push Not at hy
          have : ∃ y ∈ l, ¬ (1 / 10 ^ 50 < toReliability .CDF y ∧ toReliability .CDF y < 1) := by
            obtain ⟨y, h1, h2⟩ := hy
            exact ⟨y, h1, fun ⟨a, b⟩ => absurd b (not_lt.2 (h2 a))⟩
          rw [time_err J d .CDF l he this] at hf
          cases hf
      · exact absurd h (extract_some J _ CI l)

theorem table_expo {J : Jac} {d : Expo} {CI : ℝ} {arg q : QArg ℝ} (hq : QMeans arg q)
    {t : Option (List ℝ × List (Ext ℝ) × List (Ext ℝ) × List (Ext ℝ))} (h : quantileTable J (.expo d) CI q = .ok t)
    (h0 : 0 < CI) (h1 : CI < 1) {se : ℝ} (he : ExpoOK d se) :
    IsTable (exponential d.Lambda d.gamma) arg t := by
  cases q with
  | none =>
    cases h
    exact table_none hq
  | bool b => cases h
  | str s => cases h
  | other => cases h
  | array l =>
    obtain ⟨hl, hn, hq01⟩ := array_ne hq
    refine ⟨fun h => absurd h hn, fun _ => ⟨l, hl, hq, ?_⟩⟩
    rcases quantileTable_cases h with ⟨lo, p, up, rfl, hf⟩ | h
    · obtain ⟨z, hz, Llo, Lup, -, -, -, -, -, H1, H2⟩ := C85_time_partial d se CI he h0 h1
      rcases lt_or_ge (z * se) (d.Lambda * Real.log 10) with hc | hc
      · obtain ⟨lo', t', up', e, hb⟩ := H1 hc J .CDF (some "time") l hl (fun y hy => ⟨(hq01 y hy).1, .inr (hq01 y hy).2⟩)
        rw [e] at hf
        cases hf
        refine ⟨lo', t', up', rfl, fun q hq => ?_⟩
        obtain ⟨-, b1, b2, b3, -⟩ := hb q hq
        refine ⟨?_, b1, b2⟩
        have hs := (Reliability.Props.Distributions.C33_exponential d.Lambda d.gamma he.1).1.compl (t' q)
        simp only [ofReliability, Fitted.dist] at b3
        linarith
      · rw [H2 hc] at hf
        cases hf
    · exact absurd h (extract_some J _ CI l)

/-- The checked arguments behind a table. -/
def TableOf (J : Jac) (x : Args) (d : Fitted) (t : Option (List ℝ × List (Ext ℝ) × List (Ext ℝ) × List (Ext ℝ))) : Prop :=
  ∃ CI q, 0 < CI ∧ CI < 1 ∧ QMeans x.quantiles q ∧ x.CI = .float CI ∧ quantileTable J d CI q = .ok t

theorem tableOf_accepts {dist : String} {x : Args} {fb fs : Option ℝ} {ct : StrArg} {inp : Checked ℝ} {J : Jac} {d : Fitted}
    {t : Option (List ℝ × List (Ext ℝ) × List (Ext ℝ) × List (Ext ℝ))}
    (h : fittersCheck dist x.failures x.right_censored x.method x.optimizer x.CI x.quantiles fb fs ct = .ok inp)
    (ht : quantileTable J d inp.CI inp.quantiles = .ok t) : TableOf J x d t := by
  rw [C51_ok_iff] at h
  exact ⟨_, _, h.ci.2.1, h.ci.2.2, h.quantiles_ok, h.ci.1, ht⟩

theorem fit2_table {argsort : List ℝ → List ℕ} {F : Fam2} {J : Jac} {num : Option ℝ → Num2} {inp : Checked ℝ}
    {force : Option ℝ} {r : FitRes Two} (h : fit2 F argsort J num inp force = .ok r) :
    quantileTable J (.two r.dist) inp.CI inp.quantiles = .ok r.quantiles := by
  unfold fit2 at h
  simp only [bind_ok] at h
  obtain ⟨e, he, s, hs, q, hq, g, hg, h⟩ := h
  cases h
  exact hq

theorem fit3_table {argsort : List ℝ → List ℕ} {F : Fam3} {J : Jac} {num : Num (ℝ × ℝ × ℝ)}
    {fallback : Args → Except Err (FitRes Two)} {inp : Checked ℝ} {r : FitRes Two}
    (h : fit3 F argsort J num fallback inp = .ok r) :
    quantileTable J (.two r.dist) inp.CI inp.quantiles = .ok r.quantiles := by
  unfold fit3 at h
  simp only [bind_ok] at h
  obtain ⟨e, he, h⟩ := h
  split_ifs at h
  · simp only [bind_ok] at h
    obtain ⟨r2, hr2, q, hq, g, hg, h⟩ := h
    cases h
    exact hq
  · simp only [bind_ok] at h
    obtain ⟨s, hs, q, hq, g, hg, h⟩ := h
    cases h
    exact hq

/-- The classes whose object has two standard errors. -/
noncomputable def TwoFits (argsort : List ℝ → List ℕ) (J : Jac) (num : Option ℝ → Num2) (numG : Num (ℝ × ℝ)) (num3 : Num (ℝ × ℝ × ℝ)) :
    List (Args → Except Err (FitRes Two)) :=
  [fitWeibull2P argsort J num, fitNormal2P argsort J num, fitLognormal2P argsort J num, fitGumbel2P argsort J num,
    fitLoglogistic2P argsort J num, fitGamma2P argsort J numG, fitWeibull3P argsort J num3 num,
    fitLognormal3P argsort J num3 num, fitLoglogistic3P argsort J num3 num, fitGamma3P argsort J num3 numG]

theorem twoFits_table {argsort : List ℝ → List ℕ} {J : Jac} {num : Option ℝ → Num2} {numG : Num (ℝ × ℝ)}
    {num3 : Num (ℝ × ℝ × ℝ)} {fit : Args → Except Err (FitRes Two)} (hfit : fit ∈ TwoFits argsort J num numG num3) {x : Args}
    {r : FitRes Two} (h : fit x = .ok r) : TableOf J x (.two r.dist) r.quantiles := by
  simp only [TwoFits, List.mem_cons, List.not_mem_nil, or_false] at hfit
  rcases hfit with rfl | rfl | rfl | rfl | rfl | rfl | rfl | rfl | rfl | rfl
  · simp only [fitWeibull2P, bind_ok] at h
    obtain ⟨inp, h1, h2⟩ := h
    exact tableOf_accepts h1 (fit2_table h2)
  · simp only [fitNormal2P, bind_ok] at h
    obtain ⟨inp, h1, h2⟩ := h
    exact tableOf_accepts h1 (fit2_table h2)
  · simp only [fitLognormal2P, bind_ok] at h
    obtain ⟨inp, h1, h2⟩ := h
    exact tableOf_accepts h1 (fit2_table h2)
  · simp only [fitGumbel2P, bind_ok] at h
    obtain ⟨inp, h1, h2⟩ := h
    exact tableOf_accepts h1 (fit2_table h2)
  · simp only [fitLoglogistic2P, bind_ok] at h
    obtain ⟨inp, h1, h2⟩ := h
    exact tableOf_accepts h1 (fit2_table h2)
  · simp only [fitGamma2P, bind_ok] at h
    obtain ⟨inp, h1, e, he, s, hs, q, hq, g, hg, h⟩ := h
    cases h
    exact tableOf_accepts h1 hq
  · simp only [fitWeibull3P, bind_ok] at h
    obtain ⟨inp, h1, h2⟩ := h
    exact tableOf_accepts h1 (fit3_table h2)
  · simp only [fitLognormal3P, bind_ok] at h
    obtain ⟨inp, h1, h2⟩ := h
    exact tableOf_accepts h1 (fit3_table h2)
  · simp only [fitLoglogistic3P, bind_ok] at h
    obtain ⟨inp, h1, h2⟩ := h
    exact tableOf_accepts h1 (fit3_table h2)
  · simp only [fitGamma3P, bind_ok] at h
    obtain ⟨inp, h1, e, he, h⟩ := h
    split_ifs at h
    · simp only [bind_ok] at h
      obtain ⟨r2, hr2, q, hq, g, hg, h⟩ := h
      cases h
      exact tableOf_accepts h1 hq
    · simp only [bind_ok] at h
      obtain ⟨s, hs, q, hq, g, hg, h⟩ := h
      cases h
      exact tableOf_accepts h1 hq

/-- **C104.** For every class except Beta and Exponential (for which see below): if the fit returns, the table of quantiles is
that of the fitted distribution, with bounds on both sides, for estimates in their range and a covariance the standard errors
allow. -/
theorem C104_table {argsort : List ℝ → List ℕ} {J : Jac} {num : Option ℝ → Num2} {numG : Num (ℝ × ℝ)}
    {num3 : Num (ℝ × ℝ × ℝ)} {fit : Args → Except Err (FitRes Two)} (hfit : fit ∈
      [fitWeibull2P argsort J num, fitNormal2P argsort J num, fitLognormal2P argsort J num, fitGumbel2P argsort J num,
        fitLoglogistic2P argsort J num, fitGamma2P argsort J numG, fitWeibull3P argsort J num3 num,
        fitLognormal3P argsort J num3 num, fitLoglogistic3P argsort J num3 num, fitGamma3P argsort J num3 numG])
    (x : Args) (r : FitRes Two) (h : fit x = .ok r) (sa sb c : ℝ) (hp : ParamsOK r.dist.fam r.dist.a r.dist.b)
    (he : ErrorsOK r.dist sa sb c) :
    IsTable (distOf r.dist.fam r.dist.a r.dist.b r.dist.gamma) x.quantiles r.quantiles := by
  obtain ⟨CI, q, h0, h1, hq, -, ht⟩ := twoFits_table (num := num) (numG := numG) (num3 := num3) hfit h
  exact table_two hq ht h0 h1 hp he

/-- **C104 (finding).** `quantiles=False` and unknown strings are not "no table", they end every fit in ValueError (for the
classes of C104_table, provided the rest of the fit succeeds, no result is returned). -/
theorem C104_false_finding {argsort : List ℝ → List ℕ} {J : Jac} {num : Option ℝ → Num2} {numG : Num (ℝ × ℝ)}
    {num3 : Num (ℝ × ℝ × ℝ)} {fit : Args → Except Err (FitRes Two)} (hfit : fit ∈
      [fitWeibull2P argsort J num, fitNormal2P argsort J num, fitLognormal2P argsort J num, fitGumbel2P argsort J num,
        fitLoglogistic2P argsort J num, fitGamma2P argsort J numG, fitWeibull3P argsort J num3 num,
        fitLognormal3P argsort J num3 num, fitLoglogistic3P argsort J num3 num, fitGamma3P argsort J num3 numG])
    (x : Args) (hx : x.quantiles = .bool false ∨
      ∃ s, s ≠ "auto" ∧ s ≠ "default" ∧ s ≠ "on" ∧ x.quantiles = .str s) (r : FitRes Two) : fit x ≠ .ok r := by
  intro h
  obtain ⟨CI, q, h0, h1, hq, -, ht⟩ := twoFits_table (num := num) (numG := numG) (num3 := num3) hfit h
  rcases hx with hx | ⟨s, n1, n2, n3, hx⟩
  · rw [hx] at hq
    rcases hq with ⟨h, -⟩ | ⟨h, -⟩ | ⟨-, rfl⟩ | ⟨s, -, -, -, h, -⟩ | ⟨l, -, -, h, -⟩
    · cases h
    · rcases h with h | h | h | h <;> cases h
    · cases ht
    · cases h
    · cases h
  · rw [hx] at hq
    rcases hq with ⟨h, -⟩ | ⟨h, -⟩ | ⟨h, -⟩ | ⟨s, -, -, -, -, rfl⟩ | ⟨l, -, -, h, -⟩
    · cases h
    · rcases h with h | h | h | h <;> simp_all
    · cases h
    · cases ht
    · cases h

/-! ### Exponential and Beta -/

/-- **C104 (Exponential).** If a fit with a positive rate returns, the table is that of the fitted distribution, with bounds on
both sides. -/
theorem C104_exponential_1P {argsort : List ℝ → List ℕ} (J : Jac) (num : Num ℝ) (x : Args) (r : FitRes Expo)
    (h : fitExponential1P argsort J num x = .ok r) (hL : 0 < r.dist.Lambda) :
    IsTable (exponential r.dist.Lambda r.dist.gamma) x.quantiles r.quantiles := by
  obtain ⟨inp, hacc, -, -, s, hs, -, hd, hz, hq, -⟩ := exp1_run h
  rw [seExp_eq hL (failures_ne hacc)] at hs
  cases hs
  rw [Option.getD_some] at hd
  exact table_expo hacc.quantiles_ok hq hacc.ci.2.1 hacc.ci.2.2 ⟨hL, by positivity, hd, _, hz⟩

/-- **C104 (Fit_Exponential_2P).** -/
theorem C104_exponential_2P {argsort : List ℝ → List ℕ} (J : Jac) (num : Num (ℝ × ℝ))
    (x : Args) (r : FitRes Expo)
    (h : fitExponential2P argsort J num x = .ok r) (hL : 0 < r.dist.Lambda) :
    IsTable (exponential r.dist.Lambda r.dist.gamma) x.quantiles r.quantiles := by
  obtain ⟨inp, hacc, -, s, hs, -, hd, hz, hq, -⟩ := exp2_run h
  rw [seExp_eq hL (by simpa using failures_ne hacc)] at hs
  cases hs
  rw [Option.getD_some] at hd
  exact table_expo hacc.quantiles_ok hq hacc.ci.2.1 hacc.ci.2.2 ⟨hL, by positivity, hd, _, hz⟩

/-- **C104 (Fit_Beta_2P).** The table has the point estimates and no bounds. -/
theorem C104_beta_2P {argsort : List ℝ → List ℕ} (num : Num (ℝ × ℝ)) (x : Args) (r : FitRes Distributions.Dist)
    (h : fitBeta2P argsort num x = .ok r) (a b : ℝ) (hd : r.dist = betaDist a b) (ha : 0 < a) (hb : 0 < b) :
    (x.quantiles = .none → r.quantiles = none) ∧
    (x.quantiles ≠ .none → ∃ l, l ≠ [] ∧ QMeans x.quantiles (.array l) ∧ ∃ t : ℝ → ℝ,
      r.quantiles = some (l, [], l.map fun q => .fin (t q), []) ∧ ∀ q ∈ l, r.dist.sp.cdf (t q) = q) := by
  simp only [fitBeta2P, bind_ok] at h
  obtain ⟨inp, h1, e, he, s, hs, q, hq, g, hg, h⟩ := h
  have hqm := ((C51_ok_iff ..).1 h1).quantiles_ok
  cases h
  dsimp only at hd ⊢
  cases hqa : inp.quantiles with
  | none =>
    rw [hqa] at hq hqm
    cases hq
    have := table_none (d := betaDist a b) hqm
    refine ⟨fun _ => rfl, fun hn => ?_⟩
    obtain ⟨l, -, -, lo, t, up, h, -⟩ := this.present hn
    cases h
  | bool b => rw [hqa] at hq; cases hq
  | str b => rw [hqa] at hq; cases hq
  | other => rw [hqa] at hq; cases hq
  | array l =>
    rw [hqa] at hq hqm
    obtain ⟨hl, hn, hq01⟩ := array_ne hqm
    refine ⟨fun h => absurd h hn, fun _ => ⟨l, hl, hqm, (betaDist a b).sp.ppf, ?_, fun q hq => ?_⟩⟩
    · rw [hd] at hq
      have hp := pointTime_eq (d := betaDist a b) .CDF l hl (Reliability.Props.Distributions.C34_beta a b ha hb)
        (fun y hy => by have := hq01 y hy; simp only [toReliability]; constructor <;> linarith)
      simp only [pointTime, toReliability] at hp
      simp only [quantileTableBeta, hp] at hq
      cases hq
      simp only [Option.some.injEq, Prod.mk.injEq, true_and, and_true]
      refine List.map_congr_left fun y hy => ?_
      rw [((Reliability.Props.Distributions.C34_beta a b ha hb).isf (1 - y) (by linarith [hq01 y hy])
        (by linarith [hq01 y hy])).1, sub_sub_cancel]
    · rw [hd]
      exact (Reliability.Props.Distributions.C34_beta a b ha hb).cdf_quantile q (hq01 q hq).1 (hq01 q hq).2

/-- **C104 (finding).** Fit_Exponential_1P with a table of quantiles returns nothing at all when the confidence level is high
for the number `n` of failures: `ln(10)·√n ≤ z` (for one failure: from 98% on). -/
theorem C104_exponential_finding {argsort : List ℝ → List ℕ} (J : Jac) (num : Num ℝ) (x : Args) (r : FitRes Expo)
    (h : fitExponential1P argsort J num x = .ok r) (hL : 0 < r.dist.Lambda) (hx : x.quantiles ≠ .none) :
    ∃ f rc CI z, Used "Exponential_1P" x f rc ∧ x.CI = .float CI ∧ TwoSidedZ CI z ∧ z < Real.log 10 * Real.sqrt f.length := by
  obtain ⟨inp, hacc, -, -, s, hs, -, hd, hz, hq, -⟩ := exp1_run h
  rw [seExp_eq hL (failures_ne hacc)] at hs
  cases hs
  rw [Option.getD_some] at hd
  have hn : (0 : ℝ) < inp.failures.length := by exact_mod_cast List.length_pos_iff.2 (failures_ne hacc)
  have hsq := Real.sqrt_pos.2 hn
  obtain ⟨z, hz2, Llo, Lup, -, -, -, -, -, -, H⟩ := C85_time_partial r.dist _ inp.CI ⟨hL, by positivity, hd, _, hz⟩
    hacc.ci.2.1 hacc.ci.2.2
  refine ⟨_, _, _, z, used_of_accepts hacc, hacc.ci.1, hz2, ?_⟩
  by_contra hcon
  push Not at hcon
  have hf := H (by
    rw [← mul_div_assoc, le_div_iff₀ hsq]
    nlinarith)
  cases hqa : inp.quantiles with
  | none =>
    rcases hacc.quantiles_ok with h | ⟨-, h⟩ | ⟨-, h⟩ | ⟨s, -, -, -, -, h⟩ | ⟨l, -, -, -, h⟩
    · exact hx h.1
    all_goals (rw [hqa] at h; cases h)
  | bool b => rw [hqa] at hq; cases hq
  | str b => rw [hqa] at hq; cases hq
  | other => rw [hqa] at hq; cases hq
  | array l =>
    rw [hqa] at hq
    rcases quantileTable_cases hq with ⟨lo, p, up, -, hf'⟩ | h
    · rw [hf] at hf'; cases hf'
    · exact absurd h (extract_some J _ _ l)

end Reliability.Props
