import Verif.Lemmas.FitEverythingFull
import Verif.Props.FitEverything
import Verif.Props.FitGlueReturns

/-! # C121: Fit_Everything together with the classes it calls -/

namespace Reliability.Props.FitEverythingFull

open Reliability Reliability.InputCheck Reliability.FitGlue Reliability.FitSpecial Reliability.FitEverythingFull
open Reliability.Spec Reliability.Spec.FitEverythingFull Reliability.Spec.InputCheck
open Reliability.Fitters (Dist up fitOrder Exclude Item excludedDists)
open Reliability.Props (bind_ok)

theorem checkMethod_fit {a : StrArg} {o : Option String} (h : checkMethod a = .ok o) :
    checkMethod (optArg (feMethod o)) = checkMethod (fitMethod a) := by
  cases a with
  | none => cases h; rfl
  | other => cases h
  | str s =>
    have h' := h
    unfold checkMethod at h
    dsimp only at h
    simp only [fitMethod]
    split_ifs at h with h1 h2 h3 h4
    · cases h; rw [if_pos (.inl h1)]; decide
    · cases h; rw [if_pos (.inr h2)]; decide
    · cases h; rw [if_neg (by rw [not_or]; exact ⟨h1, h2⟩), h']; decide
    · cases h; rw [if_neg (by rw [not_or]; exact ⟨h1, h2⟩), h']; decide

theorem checkOptimizer_norm {a : StrArg} {o : Option String} (h : checkOptimizer a = .ok o) :
    checkOptimizer (optArg o) = checkOptimizer a := by rw [h, checkOptimizer_idem h]

/-- The pieces of a successful call. -/
theorem run {A : Answers} {x : FEArgs} {res : FERes} (h : fitEverything A x = .ok res) :
    ∃ inp rows, fittersCheck "Everything" x.failures x.right_censored x.method x.optimizer (.float 0.95) .none none none
        .none = .ok inp ∧
      excludedDists inp.failures.length (inp.failures ++ inp.right_censored) x.exclude = .ok res.excluded ∧
      fitAll A inp.failures inp.right_censored (optArg (feMethod inp.method)) (optArg inp.optimizer)
        (fitOrder.filter fun d => d ∉ res.excluded) = .ok rows ∧
      sortFrame A.argsort x.sort_by rows = .ok res.results ∧
      ∃ r, res.results.head? = some r ∧ r.dist = res.best_name ∧ build r.dist r.params = .ok res.best := by
  simp only [fitEverything, bind_ok] at h
  obtain ⟨inp, hi, ex, hex, rows, hr, sorted, hs, h⟩ := h
  cases sorted with
  | nil => cases h
  | cons r rs =>
    simp only [bind_ok] at h
    obtain ⟨b, hb, h⟩ := h
    cases h
    exact ⟨inp, rows, hi, hex, hr, hs, r, rfl, rfl, hb⟩

/-- The call as Model/Fitters.lean has it, with the rows of the classes. -/
theorem refines {A : Answers} {x : FEArgs} {res : FERes} (h : fitEverything A x = .ok res) :
    ∃ fit inp, fittersCheck "Everything" x.failures x.right_censored x.method x.optimizer (.float 0.95) .none none none
        .none = .ok inp ∧
      Fitters.fitEverything A.argsort fit inp.failures.length (inp.failures ++ inp.right_censored) x.exclude x.sort_by =
        .ok ⟨res.results.map FRow.toRow, res.best_name, res.excluded⟩ := by
  obtain ⟨inp, rows, hi, hex, hr, hs, r, h1, h2, -⟩ := run h
  obtain ⟨k1, k2⟩ := fitAll_ok hr
  refine ⟨fun d => match fitOne A inp.failures inp.right_censored (optArg (feMethod inp.method)) (optArg inp.optimizer) d with
    | .ok r => r.toRow
    | .error _ => ⟨d, 0, none, 0, 0⟩, inp, hi, ?_⟩
  have hframe : ∀ l : List FRow, (∀ r ∈ l, fitOne A inp.failures inp.right_censored (optArg (feMethod inp.method))
      (optArg inp.optimizer) r.dist = .ok r) → (l.map FRow.dist).map (fun d =>
        { (match fitOne A inp.failures inp.right_censored (optArg (feMethod inp.method)) (optArg inp.optimizer) d with
          | .ok r => r.toRow
          | .error _ => (⟨d, 0, none, 0, 0⟩ : Fitters.Row)) with dist := d }) = l.map FRow.toRow := by
    intro l hl
    rw [List.map_map]
    refine List.map_congr_left fun r hr => ?_
    simp only [Function.comp, hl r hr]
    rfl
  unfold Fitters.fitEverything
  rw [hex]
  dsimp only
  unfold Fitters.frame
  rw [← k1, hframe rows k2, ← sortFrame_map, hs]
  simp only [Except.map]
  cases hres : res.results with
  | nil => rw [hres] at h1; simp at h1
  | cons a l =>
    rw [hres] at h1
    simp only [List.head?_cons, Option.some.injEq] at h1
    subst h1
    simp only [List.map_cons]
    rw [← h2]
    rfl

theorem sortFrame_mem {argsort : List ℝ → List ℕ} {sb : Option String} {rows l : List FRow} {r : FRow}
    (hs : sortFrame argsort sb rows = .ok l) (hr : r ∈ l) : r ∈ rows := by
  unfold sortFrame at hs
  have hsub : ∀ (k : FRow → ℝ) l, sortValues argsort k rows = l → r ∈ l → r ∈ rows := by
    rintro k l rfl hl
    unfold sortValues takeRows at hl
    rw [List.mem_filterMap] at hl
    obtain ⟨i, -, hi⟩ := hl
    exact List.mem_of_getElem? hi
  split at hs
  · cases hs
  · split_ifs at hs
    all_goals first
      | (exact hsub _ _ (Except.ok.inj hs) hr)
      | (cases hs)

/-- What a row is. -/
theorem row_call {A : Answers} {x : FEArgs} {res : FERes} (h : fitEverything A x = .ok res) {inp : Checked ℝ}
    (hi : fittersCheck "Everything" x.failures x.right_censored x.method x.optimizer (.float 0.95) .none none none .none =
      .ok inp) {r : FRow} (hr : r ∈ res.results) :
    ∃ o, individual A r.dist (.array inp.failures) (.array inp.right_censored) (optArg (feMethod inp.method))
        (optArg inp.optimizer) = .ok o ∧
      r.gof = o.gof ∧ r.optimizer = o.optimizer ∧
      r.params.map Prod.fst = tableColumns.filter (fun c => decide (c ∈ o.params.map Prod.fst)) ∧
      (∀ p ∈ r.params, p ∈ o.params) ∧
      ((r.dist = .Gamma_2P ∨ r.dist = .Gamma_3P → ∀ a, ("Alpha", a) ∈ o.params → 0 < a) →
        build r.dist r.params = .ok o.dist) := by
  obtain ⟨inp', rows, hi', -, hrow, hs, -⟩ := run h
  rw [hi] at hi'
  cases hi'
  obtain ⟨-, k2⟩ := fitAll_ok hrow
  have hone := k2 r (sortFrame_mem hs hr)
  simp only [fitOne, bind_ok] at hone
  obtain ⟨o, hind, u, -, he⟩ := hone
  have hp : r.params = (columns r.dist).map fun c => (c, valueOf o.params c) := by
    have := congrArg FRow.params (Except.ok.inj he); exact this.symm
  obtain ⟨s1, s2, s3⟩ := individual_shape hind
  refine ⟨o, hind, ?_, ?_, ?_, ?_, ?_⟩
  · have := congrArg FRow.gof (Except.ok.inj he); exact this.symm
  · have := congrArg FRow.optimizer (Except.ok.inj he); exact this.symm
  · rw [hp, s2, List.map_map]
    exact List.map_id _
  · intro p hpm
    rw [hp, List.mem_map] at hpm
    obtain ⟨c, hc, rfl⟩ := hpm
    exact s1 c hc
  · rw [hp]; exact s3

/-- The class called with the checked arguments and with the data without the zeros. -/
theorem individual_without_zeros {A : Answers} {x : FEArgs} {inp : Checked ℝ}
    (hi : fittersCheck "Everything" x.failures x.right_censored x.method x.optimizer (.float 0.95) .none none none .none =
      .ok inp) {F C : List ℝ} (hg : Given x.failures x.right_censored F C) (d : Dist) :
    individual A d (.array inp.failures) (.array inp.right_censored) (optArg (feMethod inp.method)) (optArg inp.optimizer) =
      individual A d (.array (withoutZeros F)) (.array (withoutZeros C)) (fitMethod x.method) x.optimizer := by
  obtain ⟨F', C', e1, e2, h0, e3, e4, h2, hm, ho⟩ := everything_ok hi
  have hFF : F' = F := by
    have := e1.symm.trans hg.1
    cases this; rfl
  have hCC : C' = C := by
    rcases e2 with ⟨e2, rfl⟩ | e2 <;> rcases hg.2 with ⟨g2, rfl⟩ | g2
    · rfl
    · rw [e2] at g2; cases g2
    · rw [e2] at g2; cases g2
    · rw [e2] at g2; cases g2; rfl
  subst hFF hCC
  have hi2 : fittersCheck "Everything" (.array inp.failures) (.array inp.right_censored) (.str "MLE") x.optimizer
      (.float 0.95) .none none none .none = .ok { inp with method := some "MLE" } := by
    have hch := @check_again _ _ _ _ _ inp hi "Everything" (.inl (by decide)) (.str "MLE") (.str "MLE") rfl (.float 0.95)
      .none none none .none
    unfold fittersCheck at hi hch ⊢
    rw [if_neg (by decide)] at hi hch ⊢
    rw [if_neg (by decide)] at hch
    rw [checkOptimizer_norm ho] at hch
    rw [hch]
    simp only [bind_ok] at hi ⊢
    obtain ⟨fc, g1, fc', g2, ci, g3, opt, g4, met, g5, q, g6, fb, g7, fs, g8, u, g9, ct, g10, he⟩ := hi
    cases he
    exact ⟨fc, g1, fc', g2, ci, g3, opt, g4, _, rfl, q, g6, fb, g7, fs, g8, u, g9, ct, g10, rfl⟩
  have hz : ∀ l : List ℝ, (0 : ℝ) ∉ l.filter fun t => decide (t ≠ 0) := by
    intro l hl
    have := (List.mem_filter.1 hl).2
    simp at this
  have := individual_again (A := A) hi2 d (.inr ⟨fun F' hF' => ?_, fun C' hC' => ?_⟩)
    (m1 := optArg (feMethod inp.method)) (m2 := fitMethod x.method) (checkMethod_fit hm)
  · rw [this, show withoutZeros F' = inp.failures from e3.symm, show withoutZeros C' = inp.right_censored from e4.symm]
  · cases hF'; rw [e3]; exact hz _
  · cases hC'; rw [e4]; exact hz _

/-- **C121 (rows).** When `Fit_Everything` returns, its table has exactly one row for every distribution that is not to be left
out (`LeftOut`, see C44), and each row shows what the class of that distribution itself returns when it is called with the
same data without the zeros, the same optimizer and the same method (least squares for a rank regression): the log-likelihood,
AICc, BIC, AD, the optimizer, and the point estimate of every parameter that has a column. -/
theorem C121_rows {A : Answers} (ha : IsArgsort A.argsort) {x : FEArgs} {res : FERes} (h : fitEverything A x = .ok res) :
    ∃ F C, Given x.failures x.right_censored F C ∧ (res.results.map FRow.dist).Nodup ∧
      (∀ d, d ∈ res.results.map FRow.dist ↔
        ¬ LeftOut (withoutZeros F).length (withoutZeros F ++ withoutZeros C) x.exclude d) ∧
      ∀ r ∈ res.results, ∃ o,
        individual A r.dist (.array (withoutZeros F)) (.array (withoutZeros C)) (fitMethod x.method) x.optimizer = .ok o ∧
        r.gof = o.gof ∧ r.optimizer = o.optimizer ∧
        r.params.map Prod.fst = tableColumns.filter (fun c => decide (c ∈ o.params.map Prod.fst)) ∧
        ∀ p ∈ r.params, p ∈ o.params := by
  obtain ⟨fit, inp, hi, href⟩ := refines h
  obtain ⟨c1, c2, -, -⟩ := C44_contents ha href
  obtain ⟨F, C, e1, e2, h0, e3, e4, h2, hm, ho⟩ := everything_ok hi
  rw [e3, e4] at c2
  rw [List.map_map] at c1 c2
  refine ⟨F, C, ⟨e1, e2⟩, c1, c2, fun r hr => ?_⟩
  obtain ⟨o, k0, k1, k2, k3, k4, -⟩ := row_call h hi hr
  exact ⟨o, by rw [← individual_without_zeros hi ⟨e1, e2⟩]; exact k0, k1, k2, k3, k4⟩

/-- **C121 (direct fits).** The row is also what the user gets by calling the class directly with his own data, zeros included,
unless the class is that of the Normal or Gumbel distribution, which keep zeros. -/
theorem C121_direct {A : Answers} {x : FEArgs} {res : FERes} (h : fitEverything A x = .ok res) {F C : List ℝ}
    (hg : Given x.failures x.right_censored F C) {r : FRow} (hr : r ∈ res.results)
    (hz : r.dist ≠ .Normal_2P ∧ r.dist ≠ .Gumbel_2P ∨ (0 : ℝ) ∉ F ∧ (0 : ℝ) ∉ C) :
    ∃ o, individual A r.dist x.failures x.right_censored (fitMethod x.method) x.optimizer = .ok o ∧
      r.gof = o.gof ∧ r.optimizer = o.optimizer ∧
      r.params.map Prod.fst = tableColumns.filter (fun c => decide (c ∈ o.params.map Prod.fst)) ∧
      ∀ p ∈ r.params, p ∈ o.params := by
  obtain ⟨inp, -, hi, -⟩ := run h
  obtain ⟨-, -, -, -, -, -, -, -, hm, -⟩ := everything_ok hi
  obtain ⟨o, k0, k1, k2, k3, k4, -⟩ := row_call h hi hr
  refine ⟨o, ?_, k1, k2, k3, k4⟩
  rw [← individual_again hi r.dist ?_ (checkMethod_fit hm)]
  · exact k0
  · rcases hz with ⟨z1, z2⟩ | ⟨z1, z2⟩
    · left
      simp [z1, z2]
    · right
      refine ⟨fun F' hF' => ?_, fun C' hC' => ?_⟩
      · rw [hg.1] at hF'; cases hF'; exact z1
      · rcases hg.2 with ⟨g2, rfl⟩ | g2
        · rw [g2] at hC'; cases hC'
        · rw [g2] at hC'; cases hC'; exact z2

theorem sortFrame_loglik {argsort : List ℝ → List ℕ} {s : String} {rows : List FRow}
    (hu : up s ∈ ["LOGLIK", "LOG LIK", "LOG-LIKELIHOOD", "LL", "LOGLIKELIHOOD", "LOG LIKELIHOOD"]) :
    sortFrame argsort (some s) rows = .ok (sortValues argsort (fun r => |r.gof.loglik|) rows) := by
  have hall : ∀ u ∈ ["LOGLIK", "LOG LIK", "LOG-LIKELIHOOD", "LL", "LOGLIKELIHOOD", "LOG LIKELIHOOD"],
      u ≠ "BIC" ∧ u ∉ ["AICC", "AIC"] ∧ u ≠ "AD" := by decide
  have hne := hall _ hu
  have hse : s ∉ ["AIC", "aic", "aicc", "AICc"] := by
    intro hm
    have upne : ∀ t ∈ ["AIC", "aic", "aicc", "AICc"], up t ∈ ["AICC", "AIC"] := by decide
    exact hne.2.1 (upne s hm)
  have hef : Fitters.effectiveSort (some s) (rows.map FRow.toRow) = some s := by
    unfold Fitters.effectiveSort
    rw [if_neg]
    rintro ⟨hc, -⟩
    refine hse ?_
    simp only [Option.some.injEq] at hc
    simpa using hc
  unfold sortFrame
  rw [hef]
  dsimp only
  rw [if_neg hne.1, if_neg hne.2.1, if_neg hne.2.2, if_pos hu]

/-- **C121 (best distribution).** `best_distribution_name` is the first row, no row has a smaller value of the criterion, and
`best_distribution` is the distribution fitted by the class of that name.  (The condition on alpha is only needed because this
model describes the distribution of a Gamma fit by log(alpha).) -/
theorem C121_best {A : Answers} (ha : IsArgsort A.argsort) {x : FEArgs} {res : FERes} (h : fitEverything A x = .ok res)
    {s : String} (hsb : x.sort_by = some s) :
    ∃ best F C o, Given x.failures x.right_censored F C ∧
      res.results.head? = some best ∧ best.dist = res.best_name ∧
      individual A res.best_name (.array (withoutZeros F)) (.array (withoutZeros C)) (fitMethod x.method) x.optimizer =
        .ok o ∧ best.gof = o.gof ∧
      ((res.best_name = .Gamma_2P ∨ res.best_name = .Gamma_3P → ∀ a, ("Alpha", a) ∈ o.params → 0 < a) →
        res.best = o.dist) ∧
      (up s = "BIC" → ∀ r ∈ res.results, best.gof.BIC ≤ r.gof.BIC) ∧
      (up s = "AD" → ∀ r ∈ res.results, best.gof.AD ≤ r.gof.AD) ∧
      (s ∈ ["AIC", "aic", "aicc", "AICc"] → (∃ r ∈ res.results, r.gof.AICc = none) →
        ∀ r ∈ res.results, best.gof.BIC ≤ r.gof.BIC) ∧
      (up s ∈ ["AIC", "AICC"] → (∀ r ∈ res.results, r.gof.AICc ≠ none) →
        ∀ r ∈ res.results, ∃ u v, best.gof.AICc = some u ∧ r.gof.AICc = some v ∧ u ≤ v) ∧
      (up s ∈ ["LOGLIK", "LOG LIK", "LOG-LIKELIHOOD", "LL", "LOGLIKELIHOOD", "LOG LIKELIHOOD"] →
        ∀ r ∈ res.results, |best.gof.loglik| ≤ |r.gof.loglik|) := by
  obtain ⟨fit, inp, hi, href⟩ := refines h
  rw [hsb] at href
  obtain ⟨F, C, e1, e2, -⟩ := everything_ok hi
  obtain ⟨inp', rows, hi', -, -, hsort, best, b1, b2, b3⟩ := run h
  have hbm : best ∈ res.results := List.mem_of_mem_head? (by rw [b1]; rfl)
  obtain ⟨o, k0, k1, -, -, -, k5⟩ := row_call h hi hbm
  rw [individual_without_zeros hi ⟨e1, e2⟩] at k0
  obtain ⟨bt, -, t1, -, q1, q2, q3, q4⟩ := C44_sorted ha href
  have hbt : bt = best.toRow := by
    simp only [List.head?_map, b1, Option.map_some, Option.some.injEq] at t1
    exact t1.symm
  subst hbt
  have tr : ∀ {P : Fitters.Row → Prop}, (∀ r ∈ res.results.map FRow.toRow, P r) → ∀ r ∈ res.results, P r.toRow :=
    fun hP r hr => hP _ (List.mem_map_of_mem hr)
  refine ⟨best, F, C, o, ⟨e1, e2⟩, b1, b2, by rw [← b2]; exact k0, k1, fun hgam => ?_, fun hu => ?_, fun hu => ?_,
    fun hu hn => ?_, fun hu hn => ?_, fun hu r hr => ?_⟩
  · rw [← b2] at hgam
    have := k5 hgam
    rw [b3] at this
    exact Except.ok.inj this
  · exact tr (P := fun r => best.gof.BIC ≤ r.BIC) (q1 hu).2
  · exact tr (P := fun r => best.gof.AD ≤ r.AD) (q2 hu).2
  · obtain ⟨r, hr, hn⟩ := hn
    exact tr (P := fun r => best.gof.BIC ≤ r.BIC) (q3 hu ⟨r.toRow, List.mem_map_of_mem hr, hn⟩).2
  · refine tr (P := fun r => ∃ u v, best.gof.AICc = some u ∧ r.AICc = some v ∧ u ≤ v) (q4 hu ?_)
    intro r hr
    rw [List.mem_map] at hr
    obtain ⟨r', hr', rfl⟩ := hr
    exact hn r' hr'
  · have hs' := sortFrame_loglik (argsort := A.argsort) (rows := rows) hu
    rw [← hsb] at hs'
    rw [hsort] at hs'
    have hsorted := sortValues_sorted ha (fun r : FRow => |r.gof.loglik|) rows
    rw [← Except.ok.inj hs'] at hsorted
    cases hl : res.results with
    | nil => rw [hl] at hr; cases hr
    | cons c l =>
      rw [hl] at hsorted b1 hr
      simp only [List.head?_cons, Option.some.injEq] at b1
      subst b1
      rcases List.mem_cons.1 hr with rfl | hr
      · exact le_refl _
      · exact List.rel_of_pairwise_cons hsorted hr

end Reliability.Props.FitEverythingFull
