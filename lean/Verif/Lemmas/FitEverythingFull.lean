import Verif.Model.FitEverythingFull
import Verif.Props.FitSpecialReturns
import Verif.Spec.FitEverythingFull

/-! # Lemmas on `Fit_Everything` and the classes it calls -/

namespace Reliability.FitEverythingFull

open Reliability Reliability.InputCheck Reliability.FitGlue Reliability.FitSpecial
open Reliability.Fitters (Dist up fitOrder)
open Reliability.Props (bind_ok)
open Reliability.Spec.FitEverythingFull (tableColumns)
open Reliability.FunctionCI (Jac Fitted Two Expo)
open List

/-- The checked optimizer means itself. -/
theorem checkOptimizer_idem {a : StrArg} {o : Option String} (h : checkOptimizer a = .ok o) :
    checkOptimizer (optArg o) = .ok o := by
  cases a with
  | none => cases h; rfl
  | other => cases h
  | str s =>
    unfold checkOptimizer at h
    dsimp only at h
    split_ifs at h <;> first | (cases h; decide) | cases h

/-- The checked method means itself. -/
theorem checkMethod_idem {a : StrArg} {o : Option String} (h : checkMethod a = .ok o) :
    checkMethod (optArg o) = .ok o := by
  cases a with
  | none => cases h; rfl
  | other => cases h
  | str s =>
    unfold checkMethod at h
    dsimp only at h
    split_ifs at h <;> first | (cases h; decide) | cases h

theorem max?_filter {L : List ℝ} (h0 : ∀ x ∈ L, 0 ≤ x) (hne : L.filter (fun x => decide (x ≠ 0)) ≠ []) :
    (L.filter fun x => decide (x ≠ 0)).max? = L.max? := by
  cases hm : (L.filter fun x => decide (x ≠ 0)).max? with
  | none => exact absurd (List.max?_eq_none_iff.1 hm) hne
  | some m =>
    rw [List.max?_eq_some_iff] at hm
    symm
    rw [List.max?_eq_some_iff]
    obtain ⟨h1, h2⟩ := hm
    rw [List.mem_filter] at h1
    refine ⟨h1.1, fun b hb => ?_⟩
    by_cases hb0 : b = 0
    · rw [hb0]; exact h0 m h1.1
    · exact h2 b (List.mem_filter.2 ⟨hb, by simpa using hb0⟩)

/-- Checking the ranges again, after the zeros were removed, gives what checking them at first gives. -/
theorem checkRange_again {d : String} {F C : List ℝ} (hd : d ∉ ["Normal_2P", "Gumbel_2P"])
    (h0 : ∀ x ∈ F ++ C, 0 ≤ x) (hne : (F.filter fun x => decide (x ≠ 0)) ≠ []) :
    checkRange d (F.filter fun x => decide (x ≠ 0)) (C.filter fun x => decide (x ≠ 0)) = checkRange d F C := by
  have hne' : ((F ++ C).filter fun x => decide (x ≠ 0)) ≠ [] := by
    rw [List.filter_append]; exact List.append_ne_nil_of_left_ne_nil hne _
  have hLne : F ++ C ≠ [] := by
    intro h; rw [h] at hne'; exact hne' rfl
  unfold checkRange
  rw [if_neg hd, if_neg hd, ← List.filter_append, max?_filter h0 hne']
  cases hlo : (F ++ C).min? with
  | none => exact absurd (List.min?_eq_none_iff.1 hlo) hLne
  | some lo =>
    cases hlo' : ((F ++ C).filter fun x => decide (x ≠ 0)).min? with
    | none => exact absurd (List.min?_eq_none_iff.1 hlo') hne'
    | some lo' =>
      have p : 0 ≤ lo := h0 lo (List.min?_mem hlo)
      have p' : 0 ≤ lo' := h0 lo' (List.mem_of_mem_filter (List.min?_mem hlo'))
      cases hhi : (F ++ C).max? with
      | none => rfl
      | some hi =>
        dsimp only
        simp only [not_lt.2 p, not_lt.2 p', false_or, List.filter_filter, Bool.and_self]

/-- What a successful check of "Everything" says. -/
theorem everything_ok {failures rc : DataArg ℝ} {m o : StrArg} {CI : CIArg ℝ} {inp : Checked ℝ}
    (h : fittersCheck "Everything" failures rc m o CI .none none none .none = .ok inp) :
    ∃ F C, failures = .array F ∧ (rc = .none ∧ C = [] ∨ rc = .array C) ∧ (∀ x ∈ F ++ C, 0 ≤ x) ∧
      inp.failures = F.filter (fun x => decide (x ≠ 0)) ∧ inp.right_censored = C.filter (fun x => decide (x ≠ 0)) ∧
      2 ≤ inp.failures.dedup.length ∧ checkMethod m = .ok inp.method ∧ checkOptimizer o = .ok inp.optimizer := by
  unfold fittersCheck at h
  rw [if_neg (by decide)] at h
  simp only [bind_ok] at h
  obtain ⟨fc, h1, fc', h2, ci, -, opt, h4, met, h5, q, -, fb, h7, fs, h8, u, h9, ct, -, he⟩ := h
  cases he
  dsimp only
  cases h7
  cases h8
  have hcount : 2 ≤ fc'.1.dedup.length := by
    unfold checkCount at h9
    have : minFailures "Everything" (none : Option ℝ) none = some 2 := by decide
    rw [this] at h9
    dsimp only at h9
    split_ifs at h9 with hlt
    · exact not_lt.1 hlt
  have hF : ∃ F C, failures = .array F ∧ (rc = .none ∧ C = [] ∨ rc = .array C) ∧ fc = (F, C) := by
    unfold checkTypes at h1
    split at h1
    · cases h1; exact ⟨_, _, rfl, .inl ⟨rfl, rfl⟩, rfl⟩
    · cases h1; exact ⟨_, _, rfl, .inr rfl, rfl⟩
    · cases h1
  obtain ⟨F, C, e1, e2, rfl⟩ := hF
  unfold checkRange at h2
  rw [if_neg (by decide)] at h2
  cases hlo : (F ++ C).min? with
  | none => simp only [hlo] at h2; cases h2
  | some lo =>
    cases hhi : (F ++ C).max? with
    | none => simp only [hlo, hhi] at h2; cases h2
    | some hi =>
      simp only [hlo, hhi] at h2
      have hb : ¬ (("Everything" : String) = "Beta_2P") := by decide
      rw [if_neg (fun hc => hb hc.1), if_neg hb] at h2
      by_cases hneg : lo < 0
      · rw [if_pos hneg] at h2; cases h2
      · rw [if_neg hneg] at h2
        refine ⟨F, C, e1, e2, ?_, ?_, ?_, hcount, h5, h4⟩
        · intro x hx
          exact (not_lt.1 hneg).trans ((List.min?_eq_some_iff.1 hlo).2 x hx)
        · cases h2; rfl
        · cases h2; rfl

/-- The input checks of a class see the same, whether it is called with the user's own arguments or with the checked ones. -/
theorem check_again {failures rc : DataArg ℝ} {m o : StrArg} {CI' : CIArg ℝ} {inp : Checked ℝ}
    (h : fittersCheck "Everything" failures rc m o CI' .none none none .none = .ok inp) (d : String)
    (hd : d ∉ ["Normal_2P", "Gumbel_2P"] ∨ (∀ F, failures = .array F → (0 : ℝ) ∉ F) ∧ (∀ C, rc = .array C → (0 : ℝ) ∉ C))
    {m1 m2 : StrArg} (hm : checkMethod m1 = checkMethod m2) (CI : CIArg ℝ) (q : QArg ℝ) (fb fs : Option ℝ) (ct : StrArg) :
    fittersCheck d (.array inp.failures) (.array inp.right_censored) m1 (optArg inp.optimizer) CI q fb fs ct =
      fittersCheck d failures rc m2 o CI q fb fs ct := by
  obtain ⟨F, C, e1, e2, h0, e3, e4, h2, -, ho⟩ := everything_ok h
  have hr : checkRange d inp.failures inp.right_censored = checkRange d F C := by
    by_cases hdn : d ∈ ["Normal_2P", "Gumbel_2P"]
    · rcases hd with hd | ⟨hz1, hz2⟩
      · exact absurd hdn hd
      · have k1 : inp.failures = F := by
          rw [e3, List.filter_eq_self]
          intro a ha
          have : a ≠ 0 := by rintro rfl; exact hz1 F e1 ha
          simpa using this
        have k2 : inp.right_censored = C := by
          rw [e4, List.filter_eq_self]
          intro a ha
          have : a ≠ 0 := by
            rintro rfl
            rcases e2 with ⟨-, rfl⟩ | e2
            · cases ha
            · exact hz2 C e2 ha
          simpa using this
        rw [k1, k2]
    · rw [e3, e4]
      refine checkRange_again hdn h0 ?_
      intro hnil
      rw [← e3] at hnil
      rw [hnil] at h2
      simp at h2
  have ht : checkTypes failures rc = .ok (F, C) := by
    rcases e2 with ⟨rfl, rfl⟩ | rfl <;> rw [e1] <;> rfl
  have ht' : checkTypes (.array inp.failures) (.array inp.right_censored) = .ok (inp.failures, inp.right_censored) := rfl
  unfold fittersCheck
  rw [ht, ht', hm, ho, checkOptimizer_idem ho]
  refine if_congr Iff.rfl rfl ?_
  change (checkRange d inp.failures inp.right_censored >>= _) = (checkRange d F C >>= _)
  rw [hr]

/-- A class answers the same, whether it is called with the user's own arguments or with the checked ones. -/
theorem individual_again {A : Answers} {failures rc : DataArg ℝ} {m o : StrArg} {CI' : CIArg ℝ} {inp : Checked ℝ}
    (h : fittersCheck "Everything" failures rc m o CI' .none none none .none = .ok inp) (d : Dist)
    (hd : d ∉ [Dist.Normal_2P, Dist.Gumbel_2P] ∨
      (∀ F, failures = .array F → (0 : ℝ) ∉ F) ∧ (∀ C, rc = .array C → (0 : ℝ) ∉ C))
    {m1 m2 : StrArg} (hm : checkMethod m1 = checkMethod m2) :
    individual A d (.array inp.failures) (.array inp.right_censored) m1 (optArg inp.optimizer) =
      individual A d failures rc m2 o := by
  have k := fun (name : String) (hn) => @check_again failures rc m o CI' inp h name hn m1 m2 hm
  have k' := fun (name : String) (hn) => @check_again failures rc m o CI' inp h name hn .none .none rfl
  have hz : ∀ name : String, d ∈ [Dist.Normal_2P, Dist.Gumbel_2P] → name ∉ ["Normal_2P", "Gumbel_2P"] ∨
      (∀ F, failures = .array F → (0 : ℝ) ∉ F) ∧ (∀ C, rc = .array C → (0 : ℝ) ∉ C) :=
    fun _ hm => .inr (hd.resolve_left (fun hc => hc hm))
  cases d
  case Normal_2P => simp only [individual, fitNormal2P]; rw [k _ (hz _ (by decide))]
  case Gumbel_2P => simp only [individual, fitGumbel2P]; rw [k _ (hz _ (by decide))]
  case Weibull_2P => simp only [individual, fitWeibull2P]; rw [k _ (.inl (by decide))]
  case Weibull_3P => simp only [individual, fitWeibull3P]; rw [k _ (.inl (by decide))]
  case Gamma_2P => simp only [individual, fitGamma2P]; rw [k _ (.inl (by decide))]
  case Gamma_3P => simp only [individual, fitGamma3P]; rw [k _ (.inl (by decide))]
  case Lognormal_2P => simp only [individual, fitLognormal2P]; rw [k _ (.inl (by decide))]
  case Lognormal_3P => simp only [individual, fitLognormal3P]; rw [k _ (.inl (by decide))]
  case Exponential_1P => simp only [individual, fitExponential1P]; rw [k _ (.inl (by decide))]
  case Exponential_2P => simp only [individual, fitExponential2P]; rw [k _ (.inl (by decide))]
  case Loglogistic_2P => simp only [individual, fitLoglogistic2P]; rw [k _ (.inl (by decide))]
  case Loglogistic_3P => simp only [individual, fitLoglogistic3P]; rw [k _ (.inl (by decide))]
  case Beta_2P => simp only [individual, fitBeta2P]; rw [k _ (.inl (by decide))]
  case Weibull_Mixture => simp only [individual, fitMixture]; rw [k' _ (.inl (by decide))]
  case Weibull_CR => simp only [individual, fitCR]; rw [k' _ (.inl (by decide))]
  case Weibull_DS => simp only [individual, fitDS]; rw [k' _ (.inl (by decide))]

/-! ## The frame -/

theorem fitAll_ok {A : Answers} {f rc : List ℝ} {m o : StrArg} : ∀ {l : List Dist} {rows : List FRow},
    fitAll A f rc m o l = .ok rows → rows.map FRow.dist = l ∧ ∀ r ∈ rows, fitOne A f rc m o r.dist = .ok r
  | [], rows, h => by cases h; exact ⟨rfl, by simp⟩
  | d :: l, rows, h => by
    simp only [fitAll, bind_ok] at h
    obtain ⟨r, h1, rs, h2, h3⟩ := h
    cases h3
    obtain ⟨k1, k2⟩ := fitAll_ok h2
    have hd : r.dist = d := by
      simp only [fitOne, bind_ok] at h1
      obtain ⟨o', -, u, -, he⟩ := h1
      cases he; rfl
    refine ⟨by rw [List.map_cons, hd, k1], ?_⟩
    intro r' hr'
    rcases List.mem_cons.1 hr' with rfl | hr'
    · rw [hd]; exact h1
    · exact k2 r' hr'

theorem fitAll_exists {A : Answers} {f rc : List ℝ} {m o : StrArg} : ∀ {l : List Dist},
    (∀ d ∈ l, ∃ r, fitOne A f rc m o d = .ok r) → ∃ rows, fitAll A f rc m o l = .ok rows
  | [], _ => ⟨[], rfl⟩
  | d :: l, h => by
    obtain ⟨r, hr⟩ := h d (by simp)
    obtain ⟨rs, hrs⟩ := fitAll_exists (l := l) (fun d' hd' => h d' (by simp [hd']))
    refine ⟨r :: rs, ?_⟩
    simp only [fitAll, bind_ok]
    exact ⟨r, hr, rs, hrs, rfl⟩

theorem fitAll_error {A : Answers} {f rc : List ℝ} {m o : StrArg} {l : List Dist} {d : Dist} (hd : d ∈ l)
    (h : ¬ ∃ r, fitOne A f rc m o d = .ok r) : ¬ ∃ rows, fitAll A f rc m o l = .ok rows := by
  rintro ⟨rows, hr⟩
  obtain ⟨k1, k2⟩ := fitAll_ok hr
  rw [← k1, List.mem_map] at hd
  obtain ⟨r, hr, rfl⟩ := hd
  exact h ⟨r, k2 r hr⟩

theorem takeRows_map {α β : Type} (g : α → β) (idx : List ℕ) (rows : List α) :
    (takeRows idx rows).map g = takeRows idx (rows.map g) := by
  unfold takeRows
  rw [List.map_filterMap]
  congr 1
  funext i
  simp

theorem sortFrame_map {argsort : List ℝ → List Nat} {sb : Option String} {rows : List FRow} :
    (sortFrame argsort sb rows).map (List.map FRow.toRow) = Fitters.sortRows argsort sb (rows.map FRow.toRow) := by
  have hv : ∀ (k : Fitters.Row → ℝ), (sortValues argsort (fun r : FRow => k r.toRow) rows).map FRow.toRow =
      sortValues argsort k (rows.map FRow.toRow) := by
    intro k
    unfold sortValues
    rw [takeRows_map, List.map_map]
    rfl
  unfold sortFrame Fitters.sortRows
  cases Fitters.effectiveSort sb (rows.map FRow.toRow) with
  | none => rfl
  | some s =>
    dsimp only
    have e1 : (rows.map FRow.toRow).all (fun r => r.AICc.isSome) = rows.all (fun r => r.gof.AICc.isSome) := by
      rw [List.all_map]; rfl
    have e2 : (rows.map FRow.toRow).all (fun r => r.AICc.isNone) = rows.all (fun r => r.gof.AICc.isNone) := by
      rw [List.all_map]; rfl
    rw [e1, e2]
    split_ifs
    · exact congrArg Except.ok (hv Fitters.Row.BIC)
    · exact congrArg Except.ok (hv fun r => r.AICc.getD 0)
    · rfl
    · exact congrArg Except.ok (hv Fitters.Row.AD)
    · exact congrArg Except.ok (hv fun r => |r.loglik|)
    · rfl

/-! ## The parameters and the distribution of each class -/

/-- Name and point estimate of a row. -/
theorem rows2_np (F : Fam2) (a b Z : ℝ) (fo : Bool) (s : Option (ℝ × ℝ × ℝ)) :
    (rows2 F a b Z fo s).map (fun w => (w.name, w.point)) = [(F.nameA, a), (F.nameB, b)] := by
  cases s <;> cases fo <;> rfl

theorem fit2_shape {argsort : List ℝ → List ℕ} {F : Fam2} {J : Jac} {num : Option ℝ → Num2} {inp : Checked ℝ}
    {force : Option ℝ} {r : FitRes Two} (h : fit2 F argsort J num inp force = .ok r) :
    ∃ a b, r.rows.map (fun w => (w.name, w.point)) = [(F.nameA, a), (F.nameB, b)] ∧
      (Fitted.two r.dist).dist = FunctionCI.distOf F.cfam a b 0 := by
  unfold fit2 at h
  simp only [bind_ok] at h
  obtain ⟨e, he, s, hs, q, hq, g, hg, h⟩ := h
  cases h
  exact ⟨e.1.1, e.1.2, rows2_np .., rfl⟩

theorem fit3_shape {argsort : List ℝ → List ℕ} {F : Fam3} {J : Jac} {num : Num (ℝ × ℝ × ℝ)}
    {fallback : Args → Except Err (FitRes Two)} {inp : Checked ℝ} {r : FitRes Two}
    (hfb : ∀ x r, fallback x = .ok r → ∃ a b, r.rows.map (fun w => (w.name, w.point)) = [(F.F2.nameA, a), (F.F2.nameB, b)] ∧
      (Fitted.two r.dist).dist = FunctionCI.distOf F.F2.cfam a b 0)
    (h : fit3 F argsort J num fallback inp = .ok r) :
    ∃ a b c, r.rows.map (fun w => (w.name, w.point)) = [(F.F2.nameA, a), (F.F2.nameB, b), ("Gamma", c)] ∧
      (Fitted.two r.dist).dist = FunctionCI.distOf F.F2.cfam a b c := by
  unfold fit3 at h
  simp only [bind_ok] at h
  obtain ⟨e, he, h⟩ := h
  split_ifs at h with hγ
  · simp only [bind_ok] at h
    obtain ⟨r', hr', q, hq, g, hg, h⟩ := h
    cases h
    obtain ⟨a, b, h1, h2⟩ := hfb _ _ hr'
    refine ⟨a, b, 0, ?_, h2⟩
    dsimp only
    rw [List.map_append, h1]
    rfl
  · simp only [bind_ok] at h
    obtain ⟨s, hs, q, hq, g, hg, h⟩ := h
    cases h
    refine ⟨e.1.1, e.1.2.1, e.1.2.2, ?_, rfl⟩
    cases s <;> rfl

theorem gamma2_shape {argsort : List ℝ → List ℕ} {J : Jac} {num : Num (ℝ × ℝ)} {x : Args} {r : FitRes Two}
    (h : fitGamma2P argsort J num x = .ok r) :
    ∃ a b, r.rows.map (fun w => (w.name, w.point)) = [("Alpha", a), ("Beta", b)] ∧
      (Fitted.two r.dist).dist = Distributions.gammaDist (Real.exp (Real.log a)) b 0 := by
  simp only [fitGamma2P, bind_ok] at h
  obtain ⟨inp, hi, e, he, s, hs, q, hq, g, hg, h⟩ := h
  cases h
  refine ⟨e.1.1, e.1.2, ?_, rfl⟩
  cases s <;> rfl

theorem gamma3_shape {argsort : List ℝ → List ℕ} {J : Jac} {num : Num (ℝ × ℝ × ℝ)} {num2 : Num (ℝ × ℝ)} {x : Args}
    {r : FitRes Two} (h : fitGamma3P argsort J num num2 x = .ok r) :
    ∃ a b c, r.rows.map (fun w => (w.name, w.point)) = [("Alpha", a), ("Beta", b), ("Gamma", c)] ∧
      (Fitted.two r.dist).dist = Distributions.gammaDist (Real.exp (Real.log a)) b c := by
  simp only [fitGamma3P, bind_ok] at h
  obtain ⟨inp, hi, e, he, h⟩ := h
  split_ifs at h with hγ
  · simp only [bind_ok] at h
    obtain ⟨r', hr', q, hq, g, hg, h⟩ := h
    cases h
    obtain ⟨a, b, h1, h2⟩ := gamma2_shape hr'
    refine ⟨a, b, 0, ?_, h2⟩
    dsimp only
    rw [List.map_append, h1]
    rfl
  · simp only [bind_ok] at h
    obtain ⟨s, hs, q, hq, g, hg, h⟩ := h
    cases h
    refine ⟨e.1.1, e.1.2.1, e.1.2.2, ?_, rfl⟩
    cases s <;> rfl

theorem exp1_shape {argsort : List ℝ → List ℕ} {J : Jac} {num : Num ℝ} {x : Args} {r : FitRes Expo}
    (h : fitExponential1P argsort J num x = .ok r) :
    ∃ L, r.rows.map (fun w => (w.name, w.point)) = [("Lambda", L), ("1/Lambda", 1 / L)] ∧
      (Fitted.expo r.dist).dist = Distributions.exponential L 0 := by
  simp only [fitExponential1P, bind_ok] at h
  obtain ⟨inp, hi, e, he, s, hs, q, hq, g, hg, h⟩ := h
  cases h
  refine ⟨e.1, ?_, rfl⟩
  cases s <;> rfl

theorem exp2_shape {argsort : List ℝ → List ℕ} {J : Jac} {num : Num (ℝ × ℝ)} {x : Args} {r : FitRes Expo}
    (h : fitExponential2P argsort J num x = .ok r) :
    ∃ L c, r.rows.map (fun w => (w.name, w.point)) = [("Lambda", L), ("1/Lambda", 1 / L), ("Gamma", c)] ∧
      (Fitted.expo r.dist).dist = Distributions.exponential L c := by
  simp only [fitExponential2P, bind_ok] at h
  obtain ⟨inp, hi, e, he, s, hs, q, hq, g, hg, h⟩ := h
  cases h
  refine ⟨e.1.1, e.1.2, ?_, rfl⟩
  cases s <;> rfl

theorem beta_shape {argsort : List ℝ → List ℕ} {num : Num (ℝ × ℝ)} {x : Args} {r : FitRes Distributions.Dist}
    (h : fitBeta2P argsort num x = .ok r) :
    ∃ a b, r.rows.map (fun w => (w.name, w.point)) = [("Alpha", a), ("Beta", b)] ∧ r.dist = Distributions.betaDist a b := by
  simp only [fitBeta2P, bind_ok] at h
  obtain ⟨inp, hi, e, he, s, hs, q, hq, g, hg, h⟩ := h
  cases h
  refine ⟨e.1.1, e.1.2, ?_, rfl⟩
  cases s <;> rfl

theorem map_ok {α β : Type} {x : Except Err α} {g : α → β} {b : β} (h : x.map g = .ok b) : ∃ a, x = .ok a ∧ b = g a := by
  cases x with
  | error e => cases h
  | ok a => cases h; exact ⟨a, rfl, rfl⟩


/-- `Fit_Everything` finds every parameter it reads, and the distribution it builds from them is that of the fit.  The Gamma
classes describe their distribution by `mu = log(alpha)` in this model, hence the condition. -/
theorem individual_shape {A : Answers} {d : Dist} {f rc : DataArg ℝ} {m o : StrArg} {out : Outcome}
    (h : individual A d f rc m o = .ok out) :
    (∀ c ∈ columns d, (c, valueOf out.params c) ∈ out.params) ∧
    (tableColumns.filter fun c => decide (c ∈ out.params.map Prod.fst)) = columns d ∧
    ((d = .Gamma_2P ∨ d = .Gamma_3P → ∀ a, ("Alpha", a) ∈ out.params → 0 < a) →
      build d ((columns d).map fun c => (c, valueOf out.params c)) = .ok out.dist) := by
  have two : ∀ {F : Fam2} {num : Option ℝ → Num2} {inp : Checked ℝ} {fo : Option ℝ} {r : FitRes Two},
      fit2 F A.argsort A.J num inp fo = .ok r → ∃ a b, (ofTwo r).params = [(F.nameA, a), (F.nameB, b)] ∧
        (ofTwo r).dist = .one (FunctionCI.distOf F.cfam a b 0) := by
    intro F num inp fo r h
    obtain ⟨a, b, h1, h2⟩ := fit2_shape h
    exact ⟨a, b, h1, by simp only [ofTwo]; rw [h2]⟩
  have three : ∀ {F : Fam3} {num : Num (ℝ × ℝ × ℝ)} {inp : Checked ℝ} {fb} {r : FitRes Two},
      (∀ x r, fb x = .ok r → ∃ a b, r.rows.map (fun w => (w.name, w.point)) = [(F.F2.nameA, a), (F.F2.nameB, b)] ∧
        (Fitted.two r.dist).dist = FunctionCI.distOf F.F2.cfam a b 0) →
      fit3 F A.argsort A.J num fb inp = .ok r → ∃ a b c,
        (ofTwo r).params = [(F.F2.nameA, a), (F.F2.nameB, b), ("Gamma", c)] ∧
        (ofTwo r).dist = .one (FunctionCI.distOf F.F2.cfam a b c) := by
    intro F num inp fb r hfb h
    obtain ⟨a, b, c, h1, h2⟩ := fit3_shape hfb h
    exact ⟨a, b, c, h1, by simp only [ofTwo]; rw [h2]⟩
  cases d
  case Weibull_2P =>
    obtain ⟨r, hr, rfl⟩ := map_ok h
    simp only [fitWeibull2P, bind_ok] at hr
    obtain ⟨inp, -, hr⟩ := hr
    obtain ⟨a, b, h1, h2⟩ := two hr
    rw [h1, h2]
    simp [columns, build, valueOf, weibull2, FunctionCI.distOf, List.lookup, tableColumns, List.filter]
  case Normal_2P =>
    obtain ⟨r, hr, rfl⟩ := map_ok h
    simp only [fitNormal2P, bind_ok] at hr
    obtain ⟨inp, -, hr⟩ := hr
    obtain ⟨a, b, h1, h2⟩ := two hr
    rw [h1, h2]
    simp [columns, build, valueOf, normal2, FunctionCI.distOf, List.lookup, tableColumns, List.filter]
  case Lognormal_2P =>
    obtain ⟨r, hr, rfl⟩ := map_ok h
    simp only [fitLognormal2P, bind_ok] at hr
    obtain ⟨inp, -, hr⟩ := hr
    obtain ⟨a, b, h1, h2⟩ := two hr
    rw [h1, h2]
    simp [columns, build, valueOf, lognormal2, FunctionCI.distOf, List.lookup, tableColumns, List.filter]
  case Gumbel_2P =>
    obtain ⟨r, hr, rfl⟩ := map_ok h
    simp only [fitGumbel2P, bind_ok] at hr
    obtain ⟨inp, -, hr⟩ := hr
    obtain ⟨a, b, h1, h2⟩ := two hr
    rw [h1, h2]
    simp [columns, build, valueOf, gumbel2, FunctionCI.distOf, List.lookup, tableColumns, List.filter]
  case Loglogistic_2P =>
    obtain ⟨r, hr, rfl⟩ := map_ok h
    simp only [fitLoglogistic2P, bind_ok] at hr
    obtain ⟨inp, -, hr⟩ := hr
    obtain ⟨a, b, h1, h2⟩ := two hr
    rw [h1, h2]
    simp [columns, build, valueOf, loglogistic2, FunctionCI.distOf, List.lookup, tableColumns, List.filter]
  case Weibull_3P =>
    obtain ⟨r, hr, rfl⟩ := map_ok h
    simp only [fitWeibull3P, bind_ok] at hr
    obtain ⟨inp, -, hr⟩ := hr
    obtain ⟨a, b, c, h1, h2⟩ := three (fun x r hx => by
      simp only [fitWeibull2P, bind_ok] at hx
      obtain ⟨inp, -, hx⟩ := hx
      exact fit2_shape hx) hr
    rw [h1, h2]
    simp [columns, build, valueOf, weibull3, weibull2, FunctionCI.distOf, List.lookup, tableColumns, List.filter]
  case Lognormal_3P =>
    obtain ⟨r, hr, rfl⟩ := map_ok h
    simp only [fitLognormal3P, bind_ok] at hr
    obtain ⟨inp, -, hr⟩ := hr
    obtain ⟨a, b, c, h1, h2⟩ := three (fun x r hx => by
      simp only [fitLognormal2P, bind_ok] at hx
      obtain ⟨inp, -, hx⟩ := hx
      exact fit2_shape hx) hr
    rw [h1, h2]
    simp [columns, build, valueOf, lognormal3, lognormal2, FunctionCI.distOf, List.lookup, tableColumns, List.filter]
  case Loglogistic_3P =>
    obtain ⟨r, hr, rfl⟩ := map_ok h
    simp only [fitLoglogistic3P, bind_ok] at hr
    obtain ⟨inp, -, hr⟩ := hr
    obtain ⟨a, b, c, h1, h2⟩ := three (fun x r hx => by
      simp only [fitLoglogistic2P, bind_ok] at hx
      obtain ⟨inp, -, hx⟩ := hx
      exact fit2_shape hx) hr
    rw [h1, h2]
    simp [columns, build, valueOf, loglogistic3, loglogistic2, FunctionCI.distOf, List.lookup, tableColumns, List.filter]
  case Gamma_2P =>
    obtain ⟨r, hr, rfl⟩ := map_ok h
    obtain ⟨a, b, h1, h2⟩ := gamma2_shape hr
    rw [show (ofTwo r).params = _ from h1, show (ofTwo r).dist = .one _ from congrArg AnyDist.one h2]
    refine ⟨by simp [columns, valueOf, List.lookup], by simp [tableColumns, columns, List.filter], fun hp => ?_⟩
    rw [Real.exp_log (hp (.inl rfl) a (by simp))]
    simp [columns, build, valueOf, List.lookup, tableColumns, List.filter]
  case Gamma_3P =>
    obtain ⟨r, hr, rfl⟩ := map_ok h
    obtain ⟨a, b, c, h1, h2⟩ := gamma3_shape hr
    rw [show (ofTwo r).params = _ from h1, show (ofTwo r).dist = .one _ from congrArg AnyDist.one h2]
    refine ⟨by simp [columns, valueOf, List.lookup], by simp [tableColumns, columns, List.filter], fun hp => ?_⟩
    rw [Real.exp_log (hp (.inr rfl) a (by simp))]
    simp [columns, build, valueOf, List.lookup, tableColumns, List.filter]
  case Exponential_1P =>
    obtain ⟨r, hr, rfl⟩ := map_ok h
    obtain ⟨a, h1, h2⟩ := exp1_shape hr
    rw [show (ofExpo r).params = _ from h1, show (ofExpo r).dist = .one _ from congrArg AnyDist.one h2]
    simp [columns, build, valueOf, List.lookup, tableColumns, List.filter]
  case Exponential_2P =>
    obtain ⟨r, hr, rfl⟩ := map_ok h
    obtain ⟨a, c, h1, h2⟩ := exp2_shape hr
    rw [show (ofExpo r).params = _ from h1, show (ofExpo r).dist = .one _ from congrArg AnyDist.one h2]
    simp [columns, build, valueOf, List.lookup, tableColumns, List.filter]
  case Beta_2P =>
    obtain ⟨r, hr, rfl⟩ := map_ok h
    obtain ⟨a, b, h1, h2⟩ := beta_shape hr
    rw [show (ofBeta r).params = _ from h1, show (ofBeta r).dist = .one _ from congrArg AnyDist.one h2]
    simp [columns, build, valueOf, List.lookup, tableColumns, List.filter]
  case Weibull_Mixture =>
    obtain ⟨r, hr, rfl⟩ := map_ok h
    simp only [fitMixture, bind_ok] at hr
    obtain ⟨inp, -, line, -, r1, -, r2, -, ou, -, props, hpr, V, -, g, -, hr⟩ := hr
    cases hr
    have e : props = [ou.params 4, 1 - ou.params 4] := by
      unfold Combined.mixtureInit at hpr
      dsimp only at hpr
      split_ifs at hpr
      cases hpr; rfl
    subst e
    simp [columns, build, valueOf, List.lookup, ofSpecial, ciRow, hpr, Except.map, tableColumns, List.filter]
  case Weibull_CR =>
    obtain ⟨r, hr, rfl⟩ := map_ok h
    simp only [fitCR, bind_ok] at hr
    obtain ⟨inp, -, line, -, r1, -, r2, -, ou, -, V, -, g, -, hr⟩ := hr
    cases hr
    simp [columns, build, valueOf, List.lookup, ofSpecial, ciRow, tableColumns, List.filter]
  case Weibull_DS =>
    obtain ⟨r, hr, rfl⟩ := map_ok h
    simp only [fitDS, bind_ok] at hr
    obtain ⟨inp, -, xy, -, DS0, -, r1, -, ou, -, V, -, mm, hmm, g, -, hr⟩ := hr
    cases hr
    simp [columns, build, valueOf, List.lookup, ofSpecial, ciRow, hmm, Except.map, tableColumns, List.filter]

end Reliability.FitEverythingFull
