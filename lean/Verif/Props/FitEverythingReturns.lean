import Verif.Props.FitEverythingFull
import Verif.Props.FitSpecialReturns
import Verif.Props.FitGlueExamples2

/-! # C121: when Fit_Everything returns, and when it cannot -/

namespace Reliability.Props.FitEverythingFull

open Reliability Reliability.InputCheck Reliability.FitGlue Reliability.FitSpecial Reliability.FitEverythingFull
open Reliability.Spec Reliability.Spec.FitEverythingFull Reliability.Spec.InputCheck
open Reliability.Fitters (Dist up fitOrder Exclude Item excludedDists resolveAll workingExclude)
open Reliability.FunctionCI (Jac Fitted Two Expo)
open Reliability.Props (bind_ok)

/-! ## The CDF at the data -/

theorem cdf_one {d : Distributions.Dist} {X : List ℝ} (hne : X ≠ []) (h0 : ∀ t ∈ X, 0 ≤ t)
    (h1 : d.fam = .beta → ∀ t ∈ X, t ≤ 1) : ∃ Y, (AnyDist.one d).cdf X = .ok Y := by
  have hc : Distributions.checkX d.fam X = .ok () := by
    unfold Distributions.checkX
    cases hlo : X.min? with
    | none => exact absurd (List.min?_eq_none_iff.1 hlo) hne
    | some lo =>
      cases hhi : X.max? with
      | none => exact absurd (List.max?_eq_none_iff.1 hhi) hne
      | some hi =>
        dsimp only
        rw [if_neg (fun hc => absurd hc.1 (not_lt.2 (h0 lo (List.min?_mem hlo)))),
          if_neg (fun hc => absurd hc.1 (not_lt.2 (h1 hc.2 hi (List.max?_mem hhi))))]
  exact ⟨X.map d.sp.cdf, by simp only [AnyDist.cdf, Distributions.CDF, hc]⟩

theorem individual_cdf {A : Answers} {d : Dist} {f rc : DataArg ℝ} {m o : StrArg} {out : Outcome}
    (h : individual A d f rc m o = .ok out) {X : List ℝ} (hne : X ≠ []) (h0 : ∀ t ∈ X, 0 ≤ t)
    (hX : X.Pairwise (· ≤ ·)) (h1 : d = .Beta_2P → ∀ t ∈ X, t ≤ 1) : ∃ Y, out.dist.cdf X = .ok Y := by
  have nb : ∀ (cf : FunctionCI.CFam) (a b c : ℝ), (FunctionCI.distOf cf a b c).fam = .beta → ∀ t ∈ X, t ≤ 1 :=
    fun cf a b c hc => absurd hc (distOf_not_beta cf a b c)
  have two : ∀ {F : Fam2} {num : Option ℝ → Num2} {inp : Checked ℝ} {fo : Option ℝ} {r : FitRes Two},
      fit2 F A.argsort A.J num inp fo = .ok r → ∃ Y, (ofTwo r).dist.cdf X = .ok Y := by
    intro F num inp fo r h
    obtain ⟨a, b, -, h2⟩ := fit2_shape h
    simp only [ofTwo]
    rw [h2]
    exact cdf_one hne h0 (nb _ _ _ _)
  have three : ∀ {F : Fam3} {num : Num (ℝ × ℝ × ℝ)} {inp : Checked ℝ} {fb} {r : FitRes Two},
      (∀ x r, fb x = .ok r → ∃ a b, r.rows.map (fun w => (w.name, w.point)) = [(F.F2.nameA, a), (F.F2.nameB, b)] ∧
        (Fitted.two r.dist).dist = FunctionCI.distOf F.F2.cfam a b 0) →
      fit3 F A.argsort A.J num fb inp = .ok r → ∃ Y, (ofTwo r).dist.cdf X = .ok Y := by
    intro F num inp fb r hfb h
    obtain ⟨a, b, c, -, h2⟩ := fit3_shape hfb h
    simp only [ofTwo]
    rw [h2]
    exact cdf_one hne h0 (nb _ _ _ _)
  cases d <;> obtain ⟨r, hr, rfl⟩ := map_ok h
  case Weibull_2P =>
    simp only [fitWeibull2P, bind_ok] at hr
    obtain ⟨inp, -, hr⟩ := hr
    exact two hr
  case Normal_2P =>
    simp only [fitNormal2P, bind_ok] at hr
    obtain ⟨inp, -, hr⟩ := hr
    exact two hr
  case Lognormal_2P =>
    simp only [fitLognormal2P, bind_ok] at hr
    obtain ⟨inp, -, hr⟩ := hr
    exact two hr
  case Gumbel_2P =>
    simp only [fitGumbel2P, bind_ok] at hr
    obtain ⟨inp, -, hr⟩ := hr
    exact two hr
  case Loglogistic_2P =>
    simp only [fitLoglogistic2P, bind_ok] at hr
    obtain ⟨inp, -, hr⟩ := hr
    exact two hr
  case Weibull_3P =>
    simp only [fitWeibull3P, bind_ok] at hr
    obtain ⟨inp, -, hr⟩ := hr
    exact three (fun x r hx => by
      simp only [fitWeibull2P, bind_ok] at hx
      obtain ⟨inp, -, hx⟩ := hx
      exact fit2_shape hx) hr
  case Lognormal_3P =>
    simp only [fitLognormal3P, bind_ok] at hr
    obtain ⟨inp, -, hr⟩ := hr
    exact three (fun x r hx => by
      simp only [fitLognormal2P, bind_ok] at hx
      obtain ⟨inp, -, hx⟩ := hx
      exact fit2_shape hx) hr
  case Loglogistic_3P =>
    simp only [fitLoglogistic3P, bind_ok] at hr
    obtain ⟨inp, -, hr⟩ := hr
    exact three (fun x r hx => by
      simp only [fitLoglogistic2P, bind_ok] at hx
      obtain ⟨inp, -, hx⟩ := hx
      exact fit2_shape hx) hr
  case Gamma_2P =>
    obtain ⟨a, b, -, h2⟩ := gamma2_shape hr
    simp only [ofTwo]
    rw [h2]
    exact cdf_one hne h0 (fun hc => by cases hc)
  case Gamma_3P =>
    obtain ⟨a, b, c, -, h2⟩ := gamma3_shape hr
    simp only [ofTwo]
    rw [h2]
    exact cdf_one hne h0 (fun hc => by cases hc)
  case Exponential_1P =>
    obtain ⟨a, -, h2⟩ := exp1_shape hr
    simp only [ofExpo]
    rw [h2]
    exact cdf_one hne h0 (fun hc => by cases hc)
  case Exponential_2P =>
    obtain ⟨a, c, -, h2⟩ := exp2_shape hr
    simp only [ofExpo]
    rw [h2]
    exact cdf_one hne h0 (fun hc => by cases hc)
  case Beta_2P =>
    obtain ⟨a, b, -, h2⟩ := beta_shape hr
    simp only [ofBeta]
    rw [h2]
    exact cdf_one hne h0 (fun _ => h1 rfl)
  case Weibull_Mixture =>
    simp only [fitMixture, bind_ok] at hr
    obtain ⟨inp, -, line, -, r1, -, r2, -, ou, -, props, hpr, V, -, g, -, hr⟩ := hr
    cases hr
    have e : props = [ou.params 4, 1 - ou.params 4] := by
      unfold Combined.mixtureInit at hpr
      dsimp only at hpr
      split_ifs at hpr
      cases hpr; rfl
    subst e
    obtain ⟨Y, hY, -⟩ := mixture_exists (a := ou.params 0) (b := ou.params 1) (c := ou.params 2) (d := ou.params 3)
      (p := ou.params 4) (q := 1 - ou.params 4) hne h0 hX
    exact ⟨Y, hY⟩
  case Weibull_CR =>
    simp only [fitCR, bind_ok] at hr
    obtain ⟨inp, -, line, -, r1, -, r2, -, ou, -, V, -, g, -, hr⟩ := hr
    cases hr
    obtain ⟨Y, hY, -⟩ := competing_exists (a := ou.params 0) (b := ou.params 1) (c := ou.params 2) (d := ou.params 3) hne h0 hX
    exact ⟨Y, hY⟩
  case Weibull_DS =>
    simp only [fitDS, bind_ok] at hr
    obtain ⟨inp, -, xy, -, DS0, -, r1, -, ou, -, V, -, mm, hmm, g, -, hr⟩ := hr
    cases hr
    obtain ⟨rfl, -⟩ := dsziInit_ok hmm
    obtain ⟨Y, hY, -⟩ := dsziCDF_exists (a := ou.params 0) (b := ou.params 1) (ds := (some (ou.params 2)).getD 1)
      (zi := (none : Option ℝ).getD 0) hne h0
    exact ⟨Y, hY⟩

theorem build_exists {d : Dist} {out : Outcome} {A : Answers} {f rc : DataArg ℝ} {m o : StrArg}
    (h : individual A d f rc m o = .ok out) :
    ∃ b, build d ((columns d).map fun c => (c, valueOf out.params c)) = .ok b := by
  by_cases hg : d = .Gamma_2P ∨ d = .Gamma_3P
  · rcases hg with rfl | rfl <;> exact ⟨_, rfl⟩
  · exact ⟨_, (individual_shape h).2.2 (fun hc => absurd hc hg)⟩

/-! ## The classes accept the data -/

/-- The data without zeros, the optimizer and the method are accepted by a class that finds enough distinct failures. -/
theorem accepts_class {dist : String} (hd : dist ∈ ["Everything", "Weibull_2P", "Weibull_3P", "Gamma_2P", "Gamma_3P",
      "Exponential_1P", "Exponential_2P", "Gumbel_2P", "Normal_2P", "Lognormal_2P", "Lognormal_3P", "Loglogistic_2P",
      "Loglogistic_3P", "Beta_2P", "Weibull_Mixture", "Weibull_CR", "Weibull_DSZI", "Weibull_DS", "Weibull_ZI"])
    {f rc : List ℝ} (hf : ∀ t ∈ f, 0 < t) (hrc : ∀ t ∈ rc, 0 < t) (hb : dist = "Beta_2P" → ∀ t ∈ f ++ rc, t < 1)
    {m o ct : StrArg} {m' o' ct' : Option String} (ho : Means optimizerNames o o') (hm : Means methodNames m m')
    (hct : Means ciTypeNames ct ct') (hn : required dist false ≤ f.toFinset.card) :
    Accepts dist (.array f) (.array rc) m o (.float 0.95) .none none none ct
      ⟨f, rc, 0.95, m', o', .none, none, none, ct'⟩ := by
  have u1 : ∀ t ∈ f, Usable dist t := fun t ht => .inr ⟨hf t ht, fun h => hb h t (List.mem_append_left _ ht)⟩
  have u2 : ∀ t ∈ rc, Usable dist t := fun t ht => .inr ⟨hrc t ht, fun h => hb h t (List.mem_append_right _ ht)⟩
  refine ⟨hd, ⟨f, rc, rfl, .inr rfl, ?_, ?_, ?_, ?_⟩, ⟨rfl, by norm_num, by norm_num⟩, ho, hm, .inl ⟨rfl, rfl⟩,
    ⟨rfl, by simp⟩, ⟨rfl, by simp⟩, hn, hct⟩
  · exact fun t ht => .inr ⟨(hf t ht).le, fun h => (hb h t (List.mem_append_left _ ht)).le⟩
  · exact fun t ht => .inr ⟨(hrc t ht).le, fun h => (hb h t (List.mem_append_right _ ht)).le⟩
  · symm; rw [List.filter_eq_self]; exact fun t ht => decide_eq_true (u1 t ht)
  · symm; rw [List.filter_eq_self]; exact fun t ht => decide_eq_true (u2 t ht)

theorem time_means : Means ciTypeNames (.str "time") (some "time") :=
  .inr ⟨"time", "time", ["T", "TIME"], rfl, rfl, by simp [ciTypeNames], by decide +kernel⟩

/-- A class returns for accepted data when the optimizers succeed. -/
theorem individual_exists {A : Answers} (ha : IsArgsort A.argsort) (hs : OptimizersSucceed A) (hr : Respects A.ds)
    {f rc : List ℝ} (hf : ∀ t ∈ f, 0 < t) (hrc : ∀ t ∈ rc, 0 < t) {m o : StrArg} {o' : Option String}
    (ho : Means optimizerNames o o') (hm : Means methodNames m (some "MLE")) (h2 : 2 ≤ f.toFinset.card) (d : Dist)
    (h3 : d ∈ [Dist.Weibull_3P, .Gamma_3P, .Lognormal_3P, .Loglogistic_3P] → 3 ≤ f.toFinset.card)
    (h4 : d ∈ [Dist.Weibull_Mixture, .Weibull_CR] → 4 ≤ f.toFinset.card ∧ f.Nodup)
    (h1 : d = .Beta_2P → ∀ t ∈ f ++ rc, t < 1) :
    ∃ out, individual A d (.array f) (.array rc) m o = .ok out := by
  have lift : ∀ {α : Type} {g : α → Outcome} {y : Except Err α}, (∃ r, y = .ok r) → ∃ out, y.map g = .ok out := by
    rintro α g y ⟨r, rfl⟩; exact ⟨g r, rfl⟩
  have nm : Means methodNames StrArg.none none := .inl ⟨rfl, rfl⟩
  have nc : Means ciTypeNames StrArg.none none := .inl ⟨rfl, rfl⟩
  have two := fun num (hnum : num ∈ [A.w2, A.n2, A.l2, A.gu2, A.lo2]) => C102_mle_returns_partial ha A.J num
    (fun fo ob b n p => (hs.two num hnum fo ob b n p).1)
    (fun fo ob b n p => (hs.two num hnum fo (fun _ => 0) [] n (0, 0)).2 ob b p)
    { failures := .array f, right_censored := .array rc, method := m, optimizer := o }
    ⟨f, rc, 0.95, some "MLE", o', .none, none, none, some "time"⟩ rfl rfl
  have pair := fun num (hnum : num ∈ [A.ga2, A.be2, A.e2]) ct => C102_mle_returns_one_two_partial ha A.J A.e1 num
    hs.one (hs.pair num hnum)
    { failures := .array f, right_censored := .array rc, method := m, optimizer := o }
    ⟨f, rc, 0.95, some "MLE", o', .none, none, none, ct⟩ rfl rfl
  have three := fun num2 (hnum2 : num2 ∈ [A.w2, A.n2, A.l2, A.gu2, A.lo2]) num (hnum : num ∈ [A.w3, A.l3, A.lo3, A.ga3]) =>
    C102_mle_returns_three_partial ha A.J num2 A.ga2 num
    (fun fo ob b n p => (hs.two num2 hnum2 fo ob b n p).1)
    (fun fo ob b n p => (hs.two num2 hnum2 fo (fun _ => 0) [] n (0, 0)).2 ob b p) (hs.pair A.ga2 (by simp)) (hs.three num hnum)
    { failures := .array f, right_censored := .array rc, method := m, optimizer := o }
    ⟨f, rc, 0.95, some "MLE", o', .none, none, none, some "time"⟩ rfl rfl
  have groups := fun hd => C108_two_groups_return ha A.J A.kde A.wPart A.mix A.cr (fun F C fo ob b n p => (hs.part F C fo ob b n p).1)
    (fun F C fo ob b n p => (hs.part F C fo (fun _ => 0) [] n (0, 0)).2 ob b p) hs.mixture hs.competing (.array f)
    { right_censored := .array rc, optimizer := o } ⟨f, rc, 0.95, none, o', .none, none, none, none⟩ hd
  cases d <;> refine lift ?_
  case Weibull_2P => exact (two A.w2 (by simp)).1 (accepts_class (by decide) hf hrc (by simp) ho hm time_means h2)
  case Normal_2P => exact (two A.n2 (by simp)).2.1 (accepts_class (by decide) hf hrc (by simp) ho hm time_means h2)
  case Lognormal_2P => exact (two A.l2 (by simp)).2.2.1 (accepts_class (by decide) hf hrc (by simp) ho hm time_means h2)
  case Gumbel_2P => exact (two A.gu2 (by simp)).2.2.2.1 (accepts_class (by decide) hf hrc (by simp) ho hm time_means h2)
  case Loglogistic_2P => exact (two A.lo2 (by simp)).2.2.2.2 (accepts_class (by decide) hf hrc (by simp) ho hm time_means h2)
  case Weibull_3P =>
    exact (three A.w2 (by simp) A.w3 (by simp)).1 (accepts_class (by decide) hf hrc (by simp) ho hm time_means (h3 (by simp)))
  case Lognormal_3P =>
    exact (three A.l2 (by simp) A.l3 (by simp)).2.1
      (accepts_class (by decide) hf hrc (by simp) ho hm time_means (h3 (by simp)))
  case Loglogistic_3P =>
    exact (three A.lo2 (by simp) A.lo3 (by simp)).2.2.1
      (accepts_class (by decide) hf hrc (by simp) ho hm time_means (h3 (by simp)))
  case Gamma_3P =>
    exact (three A.w2 (by simp) A.ga3 (by simp)).2.2.2
      (accepts_class (by decide) hf hrc (by simp) ho hm time_means (h3 (by simp)))
  case Gamma_2P =>
    exact (pair A.ga2 (by simp) _).2.2.2 (accepts_class (by decide) hf hrc (by simp) ho hm time_means h2)
  case Exponential_1P =>
    exact (pair A.e2 (by simp) _).1 (accepts_class (by decide) hf hrc (by simp) ho hm nc (le_trans (by decide) h2))
  case Exponential_2P => exact (pair A.e2 (by simp) _).2.1 (accepts_class (by decide) hf hrc (by simp) ho hm nc h2)
  case Beta_2P => exact (pair A.be2 (by simp) _).2.2.1 (accepts_class (by decide) hf hrc (fun _ => h1 rfl) ho hm nc h2)
  case Weibull_Mixture =>
    exact (groups (h4 (by simp)).2).1 (accepts_class (by decide) hf hrc (by simp) ho nm nc (h4 (by simp)).1)
  case Weibull_CR =>
    exact (groups (h4 (by simp)).2).2 (accepts_class (by decide) hf hrc (by simp) ho nm nc (h4 (by simp)).1)
  case Weibull_DS =>
    exact C108_DS_returns ha A.J A.wPart A.ds (fun F C fo ob b n p => (hs.part F C fo ob b n p).1)
      (fun F C fo ob b n p => (hs.part F C fo (fun _ => 0) [] n (0, 0)).2 ob b p) hs.defective hr (.array f)
      { right_censored := .array rc, optimizer := o } ⟨f, rc, 0.95, none, o', .none, none, none, none⟩
      (accepts_class (by decide) hf hrc (by simp) ho nm nc h2)

theorem resolveAll_exists {l : List Item} (h : Item.other ∉ l) : ∃ ds, resolveAll l = .ok ds := by
  rcases resolveAll_error (l := l) with h' | ⟨h', -⟩
  · exact h'
  · exact absurd h' h

theorem excludedDists_exists {nf : ℕ} {allData : List ℝ} {e : Exclude} (he : e ≠ .other) (hl : Item.other ∉ listed e)
    (hne : allData ≠ []) : ∃ ex, excludedDists nf allData e = .ok ex := by
  have h3 : Item.other ∉ Fitters.threeP := by decide
  have hw : ∃ l, workingExclude nf e = .ok l ∧ Item.other ∉ l := by
    cases e with
    | other => exact absurd rfl he
    | none => exact ⟨_, rfl, by split_ifs <;> simp [h3]⟩
    | list l =>
      refine ⟨_, rfl, ?_⟩
      split_ifs
      · exact fun h => (List.mem_append.1 h).elim hl h3
      · exact hl
    | ndarray l =>
      refine ⟨_, rfl, ?_⟩
      split_ifs
      · exact fun h => (List.mem_append.1 h).elim hl h3
      · exact hl
  obtain ⟨l, hw, hl'⟩ := hw
  obtain ⟨ds, hds⟩ := resolveAll_exists hl'
  unfold excludedDists
  rw [hw]
  dsimp only
  rw [hds]
  dsimp only
  by_cases hb : Dist.Beta_2P ∉ ds
  · rw [if_pos hb]
    cases hm : allData.max? with
    | none => exact absurd (List.max?_eq_none_iff.1 hm) hne
    | some m => exact ⟨_, rfl⟩
  · rw [if_neg hb]; exact ⟨_, rfl⟩

/-- The values of `sort_by` that are always honoured. -/
def SortBy (s : String) : Prop :=
  up s ∈ ["BIC", "AD", "LOGLIK", "LOG LIK", "LOG-LIKELIHOOD", "LL", "LOGLIKELIHOOD", "LOG LIKELIHOOD"] ∨
    s ∈ ["AIC", "aic", "aicc", "AICc"]

theorem sortFrame_exists {argsort : List ℝ → List ℕ} {s : String} (h : SortBy s) (rows : List FRow) :
    ∃ l, sortFrame argsort (some s) rows = .ok l := by
  unfold sortFrame
  rcases h with h | h
  · have hna : ∀ u ∈ ["BIC", "AD", "LOGLIK", "LOG LIK", "LOG-LIKELIHOOD", "LL", "LOGLIKELIHOOD", "LOG LIKELIHOOD"],
        u ∉ ["AICC", "AIC"] := by decide
    have upne : ∀ t ∈ ["AIC", "aic", "aicc", "AICc"], up t ∈ ["AICC", "AIC"] := by decide
    have hef : Fitters.effectiveSort (some s) (rows.map FRow.toRow) = some s := by
      unfold Fitters.effectiveSort
      rw [if_neg]
      rintro ⟨hc, -⟩
      refine hna _ h (upne s ?_)
      simp only [Option.some.injEq] at hc
      simpa using hc
    rw [hef]
    dsimp only
    rw [if_neg (hna _ h)]
    split_ifs with h1 h2 h3
    · exact ⟨_, rfl⟩
    · exact ⟨_, rfl⟩
    · exact ⟨_, rfl⟩
    · exfalso
      generalize up s = u at h h1 h2 h3
      revert h h1 h2 h3
      simp only [List.mem_cons, List.not_mem_nil, or_false]
      rintro (h | h | h) h1 h2 h3
      · exact h1 h
      · exact h2 h
      · exact h3 h
  · unfold Fitters.effectiveSort
    by_cases hc : (some s = some "AIC" ∨ some s = some "aic" ∨ some s = some "aicc" ∨ some s = some "AICc") ∧
      ((rows.map FRow.toRow).any fun r => r.AICc.isNone) = true
    · rw [if_pos hc]
      dsimp only
      rw [if_pos (by decide)]
      exact ⟨_, rfl⟩
    · rw [if_neg hc]
      have hall : rows.all (fun r => r.gof.AICc.isSome) = true := by
        by_contra hn
        refine hc ⟨by simpa using h, ?_⟩
        rw [List.any_map, List.any_eq_true]
        rw [List.all_eq_true] at hn
        push Not at hn
        obtain ⟨r, hr, hr'⟩ := hn
        refine ⟨r, hr, ?_⟩
        cases hA : r.gof.AICc with
        | some v => rw [hA] at hr'; simp at hr'
        | none => simp [FRow.toRow, hA]
      dsimp only
      have upne : ∀ t ∈ ["AIC", "aic", "aicc", "AICc"], up t ≠ "BIC" ∧ up t ∈ ["AICC", "AIC"] := by decide
      rw [if_neg (upne s h).1, if_pos (upne s h).2, if_pos (.inl hall)]
      exact ⟨_, rfl⟩

theorem sortFrame_perm {argsort : List ℝ → List ℕ} (ha : IsArgsort argsort) {sb : Option String} {rows l : List FRow}
    (hs : sortFrame argsort sb rows = .ok l) : l.Perm rows := by
  unfold sortFrame at hs
  split at hs
  · cases hs
  · split_ifs at hs
    all_goals first
      | (cases hs; exact sortValues_perm ha _ _)
      | (cases hs)

/-- The data are accepted by the check at the start of `Fit_Everything`. -/
theorem everything_accepts {x : FEArgs} {F C : List ℝ} (hg : Given x.failures x.right_censored F C)
    (h0 : ∀ t ∈ F ++ C, 0 ≤ t) {m' o' : Option String} (hm : Means methodNames x.method m')
    (ho : Means optimizerNames x.optimizer o') (h2 : 2 ≤ (withoutZeros F).toFinset.card) :
    fittersCheck "Everything" x.failures x.right_censored x.method x.optimizer (.float 0.95) .none none none .none =
      .ok ⟨withoutZeros F, withoutZeros C, 0.95, m', o', .none, none, none, none⟩ := by
  rw [C51_ok_iff]
  have hu : ∀ t : ℝ, 0 ≤ t → (decide (t ≠ 0) = decide (Usable "Everything" t)) := by
    intro t ht
    have : Usable "Everything" t ↔ t ≠ 0 := by
      unfold Usable
      constructor
      · rintro (h | h)
        · unfold RealLine at h; simp at h
        · exact h.1.ne'
      · exact fun h => .inr ⟨lt_of_le_of_ne ht (Ne.symm h), by simp⟩
    rw [decide_eq_decide, this]
  have hal : ∀ t : ℝ, 0 ≤ t → Allowed "Everything" t := fun t ht => .inr ⟨ht, by simp⟩
  refine ⟨by decide, ⟨F, C, hg.1, hg.2, fun t ht => hal t (h0 t (by simp [ht])), fun t ht => hal t (h0 t (by simp [ht])), ?_, ?_⟩,
    ⟨rfl, by norm_num, by norm_num⟩, ho, hm, .inl ⟨rfl, rfl⟩, ⟨rfl, by simp⟩, ⟨rfl, by simp⟩, h2, .inl ⟨rfl, rfl⟩⟩
  · exact List.filter_congr fun t ht => hu t (h0 t (by simp [ht]))
  · exact List.filter_congr fun t ht => hu t (h0 t (by simp [ht]))

/-- **C121 (it returns if each class does).** Non-negative times, a proper list of distributions to exclude, a proper `sort_by`:
if the class of every distribution that is not left out returns for the nonzero times, with the same method and optimizer, then
`Fit_Everything` returns. -/
theorem C121_returns_if_each_does {A : Answers} (ha : IsArgsort A.argsort) {x : FEArgs}
    {F C : List ℝ} (hg : Given x.failures x.right_censored F C) (h0 : ∀ t ∈ F ++ C, 0 ≤ t)
    {m' o' : Option String} (hm : Means methodNames x.method m') (ho : Means optimizerNames x.optimizer o')
    (he : x.exclude ≠ .other ∧ Item.other ∉ listed x.exclude) {s : String} (hsb : x.sort_by = some s) (hsort : SortBy s)
    (h2 : 2 ≤ (withoutZeros F).toFinset.card)
    (heach : ∀ d, ¬ LeftOut (withoutZeros F).length (withoutZeros F ++ withoutZeros C) x.exclude d →
      ∃ out, individual A d (.array (withoutZeros F)) (.array (withoutZeros C)) (fitMethod x.method) x.optimizer = .ok out)
    (hd : ∃ d, ¬ LeftOut (withoutZeros F).length (withoutZeros F ++ withoutZeros C) x.exclude d) :
    ∃ res, fitEverything A x = .ok res := by
  have hi := everything_accepts hg h0 hm ho h2
  have hpos : ∀ l : List ℝ, (∀ t ∈ l, 0 ≤ t) → ∀ t ∈ withoutZeros l, 0 < t := by
    intro l hl t ht
    simp only [withoutZeros, List.mem_filter, decide_eq_true_eq] at ht
    exact lt_of_le_of_ne (hl t ht.1) (Ne.symm ht.2)
  have pF := hpos F fun t ht => h0 t (by simp [ht])
  have pC := hpos C fun t ht => h0 t (by simp [ht])
  have hFne : withoutZeros F ≠ [] := by
    intro h; rw [h] at h2; simp at h2
  obtain ⟨ex, hex⟩ := excludedDists_exists (nf := (withoutZeros F).length) (allData := withoutZeros F ++ withoutZeros C)
    he.1 he.2 (List.append_ne_nil_of_left_ne_nil hFne _)
  have hexm := excludedDists_ok hex
  have hall : ∀ d ∈ fitOrder.filter (fun d => d ∉ ex), ∃ r, fitOne A (withoutZeros F) (withoutZeros C)
      (optArg (feMethod m')) (optArg o') d = .ok r := by
    intro d hd
    rw [List.mem_filter, decide_eq_true_eq, hexm] at hd
    have hbeta : d = .Beta_2P → ∀ t ∈ withoutZeros F ++ withoutZeros C, t < 1 := by
      rintro rfl t ht
      by_contra hc
      exact hd.2 (.inr (.inr ⟨rfl, t, ht, not_lt.1 hc⟩))
    obtain ⟨out, hout⟩ := heach d hd.2
    have hiz := individual_without_zeros (A := A) hi hg d
    rw [hout] at hiz
    obtain ⟨Y, hY⟩ := individual_cdf hiz (X := Np.sort (withoutZeros F ++ withoutZeros C)) (by
        intro h
        have := congrArg List.length h
        rw [(Np.sort_perm _).length_eq] at this
        simp at this
        exact hFne this.1)
      (fun t ht => by
        rw [(Np.sort_perm _).mem_iff, List.mem_append] at ht
        rcases ht with ht | ht
        · exact (pF t ht).le
        · exact (pC t ht).le) (Np.sort_sorted _)
      (fun h t ht => by
        rw [(Np.sort_perm _).mem_iff] at ht
        exact (hbeta h t ht).le)
    refine ⟨⟨d, (columns d).map fun c => (c, valueOf out.params c), out.gof, out.optimizer⟩, ?_⟩
    · simp only [fitOne, bind_ok]
      exact ⟨out, hiz, Y, hY, rfl⟩
  obtain ⟨rows, hrows⟩ := fitAll_exists hall
  obtain ⟨k1, k2⟩ := fitAll_ok hrows
  obtain ⟨l, hl⟩ := sortFrame_exists (argsort := A.argsort) hsort rows
  have hperm := sortFrame_perm ha hl
  obtain ⟨d, hd⟩ := hd
  rw [← hexm] at hd
  have hdm : d ∈ rows.map FRow.dist := by
    rw [k1, List.mem_filter]
    exact ⟨by cases d <;> decide, decide_eq_true hd⟩
  cases l with
  | nil =>
    have := hperm.length_eq
    simp only [List.length_nil] at this
    rw [List.length_eq_zero_iff.1 this.symm] at hdm
    cases hdm
  | cons r rs =>
    have hrm : r ∈ rows := hperm.mem_iff.1 (by simp)
    have hone := k2 r hrm
    simp only [fitOne, bind_ok] at hone
    obtain ⟨o, hind, u, -, heq⟩ := hone
    obtain ⟨b, hb⟩ := build_exists hind
    have hp : r.params = (columns r.dist).map fun c => (c, valueOf o.params c) := by
      have := congrArg FRow.params (Except.ok.inj heq); exact this.symm
    refine ⟨⟨r :: rs, r.dist, b, ex⟩, ?_⟩
    simp only [fitEverything, bind_ok, hsb]
    refine ⟨_, hi, ex, hex, rows, hrows, _, hl, ?_⟩
    simp only [bind_ok]
    exact ⟨b, by rw [hp]; exact hb, rfl⟩

/-- **C121 (it returns).** Maximum likelihood, non-negative times, a proper list of distributions to exclude and a proper
`sort_by`: if the optimizers report success (and the one for the defective subpopulation answers within its bounds), every
three-parameter class that is not left out finds three distinct failures, and Weibull_Mixture and Weibull_CR, unless they are
left out, find four failures and no two equal, then `Fit_Everything` returns. -/
theorem C121_returns {A : Answers} (ha : IsArgsort A.argsort) (hs : OptimizersSucceed A) (hr : Respects A.ds) {x : FEArgs}
    {F C : List ℝ} (hg : Given x.failures x.right_censored F C) (h0 : ∀ t ∈ F ++ C, 0 ≤ t)
    (hm : Means methodNames x.method (some "MLE")) {o' : Option String} (ho : Means optimizerNames x.optimizer o')
    (he : x.exclude ≠ .other ∧ Item.other ∉ listed x.exclude) {s : String} (hsb : x.sort_by = some s) (hsort : SortBy s)
    (h2 : 2 ≤ (withoutZeros F).toFinset.card)
    (h3 : ∀ d ∈ [Dist.Weibull_3P, .Gamma_3P, .Lognormal_3P, .Loglogistic_3P],
      ¬ LeftOut (withoutZeros F).length (withoutZeros F ++ withoutZeros C) x.exclude d → 3 ≤ (withoutZeros F).toFinset.card)
    (h4 : ∀ d ∈ [Dist.Weibull_Mixture, .Weibull_CR],
      ¬ LeftOut (withoutZeros F).length (withoutZeros F ++ withoutZeros C) x.exclude d →
        4 ≤ (withoutZeros F).toFinset.card ∧ (withoutZeros F).Nodup)
    (hd : ∃ d, ¬ LeftOut (withoutZeros F).length (withoutZeros F ++ withoutZeros C) x.exclude d) :
    ∃ res, fitEverything A x = .ok res := by
  have hpos : ∀ l : List ℝ, (∀ t ∈ l, 0 ≤ t) → ∀ t ∈ withoutZeros l, 0 < t := by
    intro l hl t ht
    simp only [withoutZeros, List.mem_filter, decide_eq_true_eq] at ht
    exact lt_of_le_of_ne (hl t ht.1) (Ne.symm ht.2)
  have pF := hpos F fun t ht => h0 t (by simp [ht])
  have pC := hpos C fun t ht => h0 t (by simp [ht])
  refine C121_returns_if_each_does ha hg h0 hm ho he hsb hsort h2 (fun d hd => ?_) hd
  have hbeta : d = .Beta_2P → ∀ t ∈ withoutZeros F ++ withoutZeros C, t < 1 := by
    rintro rfl t ht
    by_contra hc
    exact hd (.inr (.inr ⟨rfl, t, ht, not_lt.1 hc⟩))
  obtain ⟨out, hout⟩ := individual_exists ha hs hr pF pC ho hm h2 d (fun h => h3 d h hd) (fun h => h4 d h hd) hbeta
  have hfm : fitMethod x.method = x.method := by
    rcases hm with ⟨-, h⟩ | ⟨s, c, sp, h1, h2', h3', h4'⟩
    · cases h
    · rw [h1]
      have : ∀ sp, ("MLE", sp) ∈ methodNames → ∀ u ∈ sp, ¬ (u = "RRX" ∨ u = "RRY") := by
        intro sp hsp
        simp only [methodNames, List.mem_cons, Prod.mk.injEq, List.not_mem_nil, or_false] at hsp
        rcases hsp with ⟨h, -⟩ | ⟨h, -⟩ | ⟨h, -⟩ | ⟨-, rfl⟩
        · exact absurd h (by decide)
        · exact absurd h (by decide)
        · exact absurd h (by decide)
        · decide
      cases h2'
      simp only [fitMethod]
      rw [if_neg (this sp h3' _ h4')]
  rw [hfm]
  exact ⟨out, hout⟩

/-- **C121 (all or nothing).** If the class of a distribution that is not left out raises, so does `Fit_Everything`. -/
theorem C121_all_or_nothing {A : Answers} (ha : IsArgsort A.argsort) {x : FEArgs} {F C : List ℝ}
    (hg : Given x.failures x.right_censored F C) {d : Dist}
    (hd : ¬ LeftOut (withoutZeros F).length (withoutZeros F ++ withoutZeros C) x.exclude d)
    (hr : ¬ ∃ o, individual A d (.array (withoutZeros F)) (.array (withoutZeros C)) (fitMethod x.method) x.optimizer = .ok o) :
    ¬ ∃ res, fitEverything A x = .ok res := by
  rintro ⟨res, h⟩
  obtain ⟨F', C', hg', -, h2, h3⟩ := C121_rows ha h
  have hF : F' = F := by have := hg'.1.symm.trans hg.1; cases this; rfl
  have hC : C' = C := by
    rcases hg'.2 with ⟨e2, rfl⟩ | e2 <;> rcases hg.2 with ⟨g2, rfl⟩ | g2
    · rfl
    · rw [e2] at g2; cases g2
    · rw [e2] at g2; cases g2
    · rw [e2] at g2; cases g2; rfl
  subst hF hC
  have hm := (h2 d).2 hd
  rw [List.mem_map] at hm
  obtain ⟨r, hr', rfl⟩ := hm
  obtain ⟨o, ho, -⟩ := h3 r hr'
  exact hr ⟨o, ho⟩

theorem two_groups_need_four {A : Answers} {d : Dist} (hd : d = .Weibull_Mixture ∨ d = .Weibull_CR) {f rc : List ℝ}
    (hf : (0 : ℝ) ∉ f) (h4 : f.toFinset.card < 4) {m o : StrArg} :
    ¬ ∃ out, individual A d (.array f) (.array rc) m o = .ok out := by
  rintro ⟨out, h⟩
  have key : ∀ dist ∈ ["Weibull_Mixture", "Weibull_CR"], ∀ inp : Checked ℝ,
      fittersCheck dist (.array f) (.array rc) .none o (.float 0.95) .none none none .none ≠ .ok inp := by
    intro dist hdist inp hi
    rw [C51_ok_iff] at hi
    obtain ⟨F, C, e1, -, a1, -, e3, -⟩ := hi.data
    cases e1
    have := hi.enough
    rw [e3] at this
    have hle : (f.filter fun t => decide (Usable dist t)).toFinset.card ≤ f.toFinset.card :=
      Finset.card_le_card fun t ht => by
        rw [List.mem_toFinset] at ht ⊢
        exact (List.mem_filter.1 ht).1
    have h4' : required dist ((none : Option ℝ).isSome || (none : Option ℝ).isSome) = 4 := by
      rcases List.mem_cons.1 hdist with rfl | h
      · decide
      · rw [List.mem_singleton] at h; subst h; decide
    rw [h4'] at this
    omega
  rcases hd with rfl | rfl
  · obtain ⟨r, hr, -⟩ := map_ok h
    simp only [fitMixture, bind_ok] at hr
    obtain ⟨inp, hi, -⟩ := hr
    exact key _ (by simp) inp hi
  · obtain ⟨r, hr, -⟩ := map_ok h
    simp only [fitCR, bind_ok] at hr
    obtain ⟨inp, hi, -⟩ := hr
    exact key _ (by simp) inp hi

/-- **C121 (finding).** The documentation promises all distributions for three failures.  With three failures (or more, but
fewer than four distinct ones) `Fit_Everything` always raises, unless both Weibull_Mixture and Weibull_CR are excluded by name:
they need four distinct failures and are only left out automatically below three. -/
theorem C121_three_failures_finding {A : Answers} (ha : IsArgsort A.argsort) {x : FEArgs} {F C : List ℝ}
    (hg : Given x.failures x.right_censored F C) (h3 : 3 ≤ (withoutZeros F).length)
    (h4 : (withoutZeros F).toFinset.card < 4) {d : Dist} (hd : d = .Weibull_Mixture ∨ d = .Weibull_CR)
    (hn : ∀ s, Item.str s ∈ listed x.exclude → up s ∉ Spec.aliases d) :
    ¬ ∃ res, fitEverything A x = .ok res := by
  refine C121_all_or_nothing ha hg (d := d) ?_ (two_groups_need_four hd ?_ h4)
  · rintro (⟨s, h, h'⟩ | ⟨h, -⟩ | ⟨rfl, -⟩)
    · exact hn s h h'
    · omega
    · rcases hd with h | h <;> cases h
  · simp [withoutZeros]

/-! ## Examples -/

/-- Answers of well-behaved numerical routines. -/
noncomputable def exAnswers (argsort : List ℝ → List ℕ) (J : Jac) : Answers :=
  ⟨argsort, J, fun _ => 0, exNum2, exNum2, exNum2, exNum2, exNum2, exNumG, exNumG, exNum1, exNumG, exNum3 0, exNum3 0, exNum3 0,
    exNum3 0, fun _ _ => exNum2, fun _ _ _ p => ⟨true, p⟩, fun _ _ _ p => ⟨true, p⟩, exBoxMin ![2, 1, 0.5]⟩

theorem ex_succeed (argsort : List ℝ → List ℕ) (J : Jac) : OptimizersSucceed (exAnswers argsort J) := by
  refine ⟨?_, ?_, ?_, ?_, ?_, ?_, ?_, ?_⟩
  · intro num hn fo ob b n p
    simp only [exAnswers, List.mem_cons, List.not_mem_nil, or_false] at hn
    rcases hn with rfl | rfl | rfl | rfl | rfl <;> exact ⟨rfl, fun _ _ _ => rfl⟩
  · intro num hn ob b n p
    simp only [exAnswers, List.mem_cons, List.not_mem_nil, or_false] at hn
    rcases hn with rfl | rfl | rfl <;> rfl
  · intros; rfl
  · intro num hn ob b n p
    simp only [exAnswers, List.mem_cons, List.not_mem_nil, or_false] at hn
    rcases hn with rfl | rfl | rfl | rfl <;> rfl
  · exact fun _ _ _ _ _ _ _ => ⟨rfl, fun _ _ _ => rfl⟩
  · intros; rfl
  · intros; rfl
  · intros; rfl

theorem withoutZeros_pos {l : List ℝ} (h : ∀ t ∈ l, 0 < t) : withoutZeros l = l := by
  unfold withoutZeros
  rw [List.filter_eq_self]
  exact fun t ht => decide_eq_true (h t ht).ne'

/-- The hypotheses of C121_returns (hence of C121_rows, C121_direct and C121_best) are met: failures 0, 1, 2, 3, 4 and the
censored time 5, Gumbel_2P excluded, the results by AICc. -/
theorem ex_returns {argsort : List ℝ → List ℕ} (ha : IsArgsort argsort) (J : Jac) :
    ∃ res, fitEverything (exAnswers argsort J)
      { failures := .array (0 :: exFour), right_censored := .array [5], exclude := .list [.str "gumbel_2p"],
        sort_by := some "AICc" } = .ok res := by
  have hw : withoutZeros (0 :: exFour) = exFour := by
    have := withoutZeros_pos exFour_pos
    unfold withoutZeros at this ⊢
    rw [List.filter_cons_of_neg (by simp)]
    exact this
  have hw5 : withoutZeros [5] = [5] := withoutZeros_pos (by simp)
  refine C121_returns (A := exAnswers argsort J) ha (ex_succeed argsort J) (exBoxMin_respects _) (F := 0 :: exFour) (C := [5]) ⟨rfl, .inr rfl⟩ ?_
    (.inr ⟨"MLE", "MLE", ["MLE", "ML", "MAXIMUM LIKELIHOOD ESTIMATION", "MAXIMUM LIKELIHOOD", "MAX LIKELIHOOD"], rfl,
      rfl, by simp [methodNames], by decide +kernel⟩) (o' := none) (.inl ⟨rfl, rfl⟩) ⟨by simp, by decide⟩ rfl
    (.inr (by simp)) ?_ ?_ ?_ ⟨.Normal_2P, ?_⟩
  · intro t ht
    simp only [List.cons_append, List.mem_cons, List.mem_append, List.not_mem_nil, or_false] at ht
    rcases ht with rfl | ht | rfl
    · exact le_refl _
    · exact (exFour_pos t ht).le
    · norm_num
  · rw [hw]; exact le_trans (by norm_num) exFour_card
  · rw [hw]; exact fun _ _ _ => le_trans (by norm_num) exFour_card
  · rw [hw]; exact fun _ _ _ => ⟨exFour_card, exFour_nodup⟩
  · rintro (⟨s, h, h'⟩ | ⟨-, h⟩ | ⟨h, -⟩)
    · simp only [listed, List.mem_singleton, Item.str.injEq] at h
      subst h
      exact absurd h' (by decide +kernel)
    · simp at h
    · cases h

/-- Three failures: always an error, whatever the numerical routines answer. -/
example {A : Answers} (ha : IsArgsort A.argsort) : ¬ ∃ res, fitEverything A { failures := .array [1, 2, 3] } = .ok res := by
  have hw : withoutZeros [1, 2, 3] = [1, 2, 3] := withoutZeros_pos (by
    intro t ht; simp at ht; rcases ht with rfl | rfl | rfl <;> norm_num)
  refine C121_three_failures_finding ha (F := [1, 2, 3]) (C := []) ⟨rfl, .inl ⟨rfl, rfl⟩⟩ (by rw [hw]; simp) ?_ (.inl rfl)
    (by simp [listed])
  rw [hw]
  exact lt_of_le_of_lt (List.toFinset_card_le _) (by norm_num)

/-- Two failures are enough. -/
example {argsort : List ℝ → List ℕ} (ha : IsArgsort argsort) (J : Jac) :
    ∃ res, fitEverything (exAnswers argsort J) { failures := .array [1, 2] } = .ok res := by
  have hw : withoutZeros [1, 2] = [1, 2] := withoutZeros_pos (by
    intro t ht; simp at ht; rcases ht with rfl | rfl <;> norm_num)
  have hlo : ∀ d ∈ [Dist.Weibull_3P, .Gamma_3P, .Loglogistic_3P, .Lognormal_3P, .Weibull_Mixture, .Weibull_CR],
      LeftOut (withoutZeros [1, 2]).length (withoutZeros [1, 2] ++ withoutZeros []) .none d :=
    fun d hd => .inr (.inl ⟨by rw [hw]; simp, hd⟩)
  refine C121_returns (A := exAnswers argsort J) ha (ex_succeed argsort J) (exBoxMin_respects _) (F := [1, 2]) (C := []) ⟨rfl, .inl ⟨rfl, rfl⟩⟩ ?_
    (.inr ⟨"MLE", "MLE", ["MLE", "ML", "MAXIMUM LIKELIHOOD ESTIMATION", "MAXIMUM LIKELIHOOD", "MAX LIKELIHOOD"], rfl,
      rfl, by simp [methodNames], by decide +kernel⟩) (o' := none) (.inl ⟨rfl, rfl⟩) ⟨by simp, by simp [listed]⟩ rfl
    (.inl (by decide +kernel)) ?_ ?_ ?_ ⟨.Normal_2P, ?_⟩
  · intro t ht
    simp at ht
    rcases ht with rfl | rfl <;> norm_num
  · rw [hw, List.toFinset_card_of_nodup (by norm_num)]; simp
  · exact fun d hd h => absurd (hlo d (by revert hd; cases d <;> simp)) h
  · exact fun d hd h => absurd (hlo d (by revert hd; cases d <;> simp)) h
  · rintro (⟨s, h, h'⟩ | ⟨-, h⟩ | ⟨h, -⟩)
    · simp [listed] at h
    · simp at h
    · cases h

end Reliability.Props.FitEverythingFull
