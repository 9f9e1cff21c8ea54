import Verif.Spec.FitGrouped
import Verif.Props.FitGlueReturns

/-! # C109: Fit_Weibull_2P_grouped -/

namespace Reliability.Props

open Reliability Reliability.Distributions Reliability.Likelihood Reliability.InputCheck Reliability.Props.Likelihood Reliability.FunctionCI
open Reliability.Fitters (MLEOut OptResult lsOptimization mleOptimization mleForced)
open Reliability.FitGlue Reliability.Spec Reliability.Spec.InputCheck Reliability.Spec.FitGlue
open Reliability.FitGrouped Reliability.Spec.FitGrouped

theorem groupedData_ok {cols : List String} {rows : List GRow} (h : WellFormed cols rows) :
    groupedData (.frame cols rows) =
      .ok ((rows.filter fun r => r.category = "F" ∧ 0 < r.time).map fun r => (r.time, r.quantity),
        (rows.filter fun r => r.category = "C" ∧ 0 < r.time).map fun r => (r.time, r.quantity)) := by
  unfold groupedData; dsimp only
  rw [if_neg, if_neg, if_neg, if_neg]
  · rw [if_neg]
    · rw [List.filter_filter, List.filter_filter]
      congr 3 <;> (congr 1; funext r; simp)
    · rw [not_not, h.columns]; simp
  · rw [not_not, h.columns]; simp
  · rw [List.any_eq_true]
    rintro ⟨r, hr, hx⟩
    rcases h.categories r hr with e | e <;> simp [e] at hx
  · rw [not_not, h.columns]; simp
  · rw [List.any_eq_true]
    rintro ⟨c, hc, hx⟩
    rcases (h.columns c).1 hc with e | e | e <;> simp [e] at hx

theorem npRepeat_ok {rows : List GRow} (c : String) (h : ∀ r ∈ rows, 0 < r.time → 0 ≤ r.quantity) :
    npRepeat ((rows.filter fun r => r.category = c ∧ 0 < r.time).map fun r => (r.time, r.quantity)) =
      .ok (expand c rows) := by
  unfold npRepeat
  rw [if_neg]
  · rw [List.flatMap_map]; rfl
  · rw [List.any_eq_true]
    rintro ⟨tq, htq, hx⟩
    rw [List.mem_map] at htq
    obtain ⟨r, hr, rfl⟩ := htq
    rw [List.mem_filter] at hr
    have h2 := hr.2
    simp only [decide_eq_true_eq] at h2 hx
    exact absurd hx (not_lt.2 (h r hr.1 h2.2))

theorem expand_counts (c : String) (rows : List GRow) :
    (counts ((rows.filter fun r => r.category = c ∧ 0 < r.time).map fun r => (r.time, r.quantity))).flatMap
      (fun tq => List.replicate tq.2 tq.1) = expand c rows := by
  unfold counts expand
  rw [List.map_map, List.flatMap_map]
  rfl

theorem expand_pos {c : String} {rows : List GRow} {t : ℝ} (h : t ∈ expand c rows) : 0 < t := by
  unfold expand at h
  rw [List.mem_flatMap] at h
  obtain ⟨r, hr, ht⟩ := h
  rw [List.mem_filter] at hr
  rw [List.eq_of_mem_replicate ht]
  have := hr.2
  simp only [decide_eq_true_eq] at this
  exact this.2

/-- **C109 (the data).** In the ungrouped data a positive time occurs as often as the quantities of its rows say in total,
and a time that is not positive does not occur. -/
theorem C109_counts (c : String) (rows : List GRow) (t : ℝ) :
    (0 < t → (expand c rows).count t =
      ((rows.filter fun r => r.category = c ∧ r.time = t).map fun r => r.quantity.toNat).sum) ∧
    (t ≤ 0 → (expand c rows).count t = 0) := by
  refine ⟨fun ht => ?_, fun ht => List.count_eq_zero.2 fun h => absurd (expand_pos h) (not_lt.2 ht)⟩
  unfold expand
  induction rows with
  | nil => rfl
  | cons r rs ih =>
    rw [List.filter_cons, List.filter_cons]
    by_cases hc : r.category = c
    · by_cases hr : r.time = t
      · rw [if_pos (by simp [hc, hr, ht]), if_pos (by simp [hc, hr]), List.flatMap_cons, List.count_append, ih,
          List.map_cons, List.sum_cons, hr, List.count_replicate_self]
      · rw [if_neg (c := (decide (r.category = c ∧ r.time = t)) = true) (by simp [hr]), ← ih]
        split_ifs
        · rw [List.flatMap_cons, List.count_append, List.count_replicate, if_neg (by simpa using hr), zero_add]
        · rfl
    · rw [if_neg (by simp [hc]), if_neg (by simp [hc]), ih]

/-- What a call on a well-formed dataframe does. -/
theorem grouped_unfold {cols : List String} {rows : List GRow} (h : WellFormed cols rows) (argsort : List ℝ → List ℕ) (J : Jac)
    (num : Option ℝ → Num2) (x : GArgs) :
    fitWeibull2PGrouped argsort J num (.frame cols rows) x =
      fittersCheck "Weibull_2P" (.array (expand "F" rows)) (.array (expand "C" rows)) x.method x.optimizer x.CI x.quantiles
        x.force_beta none x.CI_type >>= fun inp => fitGroupedData argsort J num
          (counts ((rows.filter fun r => r.category = "F" ∧ 0 < r.time).map fun r => (r.time, r.quantity)))
          (counts ((rows.filter fun r => r.category = "C" ∧ 0 < r.time).map fun r => (r.time, r.quantity))) inp := by
  unfold fitWeibull2PGrouped
  rw [groupedData_ok h]
  simp only [Bind.bind, Except.bind, npRepeat_ok _ h.quantities]

/-- A bad dataframe is refused. -/
theorem C109_refused (argsort : List ℝ → List ℕ) (J : Jac) (num : Option ℝ → Num2) (x : GArgs) :
    fitWeibull2PGrouped argsort J num .other x = .error .valueError ∧
    (∀ cols rows, (∃ c ∈ cols, c ≠ "category" ∧ c ≠ "time" ∧ c ≠ "quantity") →
      fitWeibull2PGrouped argsort J num (.frame cols rows) x = .error .valueError) ∧
    (∀ cols rows, "category" ∈ cols → (∃ r ∈ rows, r.category ≠ "F" ∧ r.category ≠ "C") →
      fitWeibull2PGrouped argsort J num (.frame cols rows) x = .error .valueError) ∧
    (∀ cols rows, (∃ r ∈ rows, 0 < r.time ∧ r.quantity < 0) → (∀ c ∈ ["category", "time", "quantity"], c ∈ cols) →
      fitWeibull2PGrouped argsort J num (.frame cols rows) x = .error .valueError) ∧
    (∀ cols rows, (∃ c ∈ ["category", "time", "quantity"], c ∉ cols) →
      ∃ e, fitWeibull2PGrouped argsort J num (.frame cols rows) x = .error e) := by
  have key : ∀ df e, groupedData df = .error e → fitWeibull2PGrouped argsort J num df x = .error e := by
    intro df e h
    unfold fitWeibull2PGrouped
    rw [h]; rfl
  refine ⟨key _ _ rfl, ?_, ?_, ?_, ?_⟩
  · rintro cols rows ⟨c, hc, h1, h2, h3⟩
    apply key
    unfold groupedData; dsimp only
    rw [if_pos]
    exact List.any_eq_true.2 ⟨c, hc, by simp [h1, h2, h3]⟩
  · rintro cols rows hcol ⟨r, hr, h1, h2⟩
    apply key
    unfold groupedData; dsimp only
    have hany : (rows.any fun r => decide (r.category ∉ ["F", "C"])) = true :=
      List.any_eq_true.2 ⟨r, hr, by simp [h1, h2]⟩
    rw [if_neg (c := "category" ∉ cols) (not_not.2 hcol), if_pos hany]
    split_ifs <;> rfl
  · rintro cols rows ⟨r, hr, h1, h2⟩ hcols
    cases hg : groupedData (.frame cols rows) with
    | error e =>
      rw [key _ _ hg]
      unfold groupedData at hg; dsimp only at hg
      rw [if_neg (c := "category" ∉ cols) (not_not.2 (hcols _ (by simp))),
        if_neg (c := "time" ∉ cols) (not_not.2 (hcols _ (by simp))),
        if_neg (c := "quantity" ∉ cols) (not_not.2 (hcols _ (by simp)))] at hg
      split_ifs at hg
      · cases hg; rfl
      · cases hg; rfl
    | ok d =>
      have hd : r.category = "F" ∧ (r.time, r.quantity) ∈ d.1 ∨ (r.time, r.quantity) ∈ d.2 := by
        unfold groupedData at hg; dsimp only at hg
        split_ifs at hg with a b c
        cases hg
        have hcat : r.category = "F" ∨ r.category = "C" := by
          by_contra hn
          rw [not_or] at hn
          exact c (List.any_eq_true.2 ⟨r, hr, by simp [hn.1, hn.2]⟩)
        rcases hcat with e | e
        · left
          exact ⟨e, List.mem_map.2 ⟨r, by simp [hr, h1, e], rfl⟩⟩
        · right
          exact List.mem_map.2 ⟨r, by simp [hr, h1, e], rfl⟩
      have hbad : ∀ l : List (ℝ × ℤ), (r.time, r.quantity) ∈ l → npRepeat l = .error .valueError := by
        intro l hl
        unfold npRepeat
        rw [if_pos]
        exact List.any_eq_true.2 ⟨_, hl, by simpa using h2⟩
      have hv : ∀ (l : List (ℝ × ℤ)) e, npRepeat l = .error e → e = .valueError := by
        intro l e h
        unfold npRepeat at h
        split_ifs at h
        cases h; rfl
      unfold fitWeibull2PGrouped
      rw [hg]
      simp only [Bind.bind, Except.bind]
      rcases hd with ⟨-, hd⟩ | hd
      · rw [hbad _ hd]
      · cases h1 : npRepeat d.1 with
        | error e => rw [hv _ _ h1]
        | ok f => simp only [hbad _ hd]
  · rintro cols rows ⟨c, hc, hn⟩
    cases hg : groupedData (.frame cols rows) with
    | error e => exact ⟨e, key _ _ hg⟩
    | ok d =>
      exfalso
      unfold groupedData at hg; dsimp only at hg
      split_ifs at hg
      simp only [List.mem_cons, List.not_mem_nil, or_false] at hc
      rcases hc with rfl | rfl | rfl <;> exact hn ‹_›


/-! ### The estimates -/

theorem LLg_eq (F C : List (ℝ × ℕ)) (force : Option ℝ) (p : ℝ × ℝ) :
    LLg F C force p = LLf2 weibull2 force (F.flatMap fun tq => List.replicate tq.2 tq.1)
      (C.flatMap fun tq => List.replicate tq.2 tq.1) p := by
  cases force with
  | none => exact (C42_grouped _ _ F C).1
  | some s => exact (C42_grouped _ _ F C).1

theorem LL_eq (F C : List (ℝ × ℕ)) :
    (fun a b => weibull2P_grouped_LL a b F C) = fun a b => weibull2.LL a b (F.flatMap fun tq => List.replicate tq.2 tq.1)
      (C.flatMap fun tq => List.replicate tq.2 tq.1) := by
  funext a b
  exact (C42_grouped a b F C).1

theorem lsOpt_better (LLf : ℝ × ℝ → ℝ) (num : Num2) :
    lsOptimization "Weibull_2P" LLf num.ls num.nlls "LS" = .ok (betterLS LLf num) := by
  unfold lsOptimization betterLS
  rw [if_neg (by decide), if_neg (by decide), if_neg (by decide)]
  dsimp only
  split_ifs <;> rfl

theorem estimate_LS {LLf : ℝ × ℝ → ℝ} {LL : ℝ → ℝ → ℝ} {n : ℕ} {num : Num2} {o m : String} {force : Option ℝ}
    {mle : ℝ × ℝ → Except Err (MLEOut (ℝ × ℝ))} (hm : m ∈ ["LS", "RRX", "RRY"]) :
    estimate "Weibull_2P" LLf num.toNum mle (some m) (lsMethod (some m)) = estimateG LL LLf n num o force (some m) := by
  simp only [List.mem_cons, List.not_mem_nil, or_false] at hm
  rcases hm with rfl | rfl | rfl
  · simp only [estimate, lsMethod]
    rw [if_neg (by decide)]
    dsimp only
    rw [lsOpt_better]
    rfl
  · rfl
  · rfl

theorem mle_const {P : Type} (p : P) (obj : P → ℝ) (g : P) {o : String} (ho : o ∈ ["L-BFGS-B", "TNC", "powell", "nelder-mead"]) :
    mleOptimization (fun _ _ => ⟨true, p⟩) obj g (some o) = .ok ⟨true, some o, p⟩ := by
  have hos : Fitters.optimizersToTry (some o) = .ok ([o], false) := by
    revert ho; revert o; decide +kernel
  have hans : ∀ o, answer (fun (_ : String) (_ : P) => (⟨true, p⟩ : OptResult P)) obj g o = ⟨true, p⟩ := by
    intro o
    obtain ⟨n, -, -, -, h, -⟩ := C47_loop_terminates (fun _ : P => (⟨true, p⟩ : OptResult P)) obj g
    have := (answer_spec (fun (_ : String) (_ : P) => (⟨true, p⟩ : OptResult P)) obj g o).1
    rw [h] at this
    exact (Option.some.inj this).symm
  obtain ⟨o', ho', h, -⟩ := best_of_successes (fun (_ : String) (_ : P) => (⟨true, p⟩ : OptResult P)) obj g o [o] hos
    ⟨o, by simp, by rw [hans]⟩
  rw [List.mem_singleton] at ho'
  subst ho'
  rw [h, hans]

theorem estimate_MLE {LLf : ℝ × ℝ → ℝ} {LL : ℝ → ℝ → ℝ} {bs : List (Fitters.Bound ℝ)} {num : Num2} {o : String} {force : Option ℝ} (p : ℝ × ℝ)
    (hp : ∀ s, force = some s → p.2 = s) (ho : o ∈ ["L-BFGS-B", "TNC", "powell", "nelder-mead"]) :
    estimate "Weibull_2P" LLf (answering num p).toNum (mle2 LL bs (answering num p) (some o) force) (some "MLE")
      (lsMethod (some "MLE")) = .ok (p, "Maximum Likelihood Estimation (MLE)", some o) := by
  have hm : ∀ g, mle2 LL bs (answering num p) (some o) force g = .ok ⟨true, some o, p⟩ := by
    intro g
    unfold mle2
    cases force with
    | none => exact mle_const p _ g ho
    | some s =>
      dsimp only
      unfold mleForced
      rw [show (answering num p).minimize1 (fun a => LL a s) (bs.take 1) = fun _ _ => ⟨true, p.1⟩ from rfl, mle_const p.1 _ g.1 ho]
      simp only
      rw [← hp s rfl]
  simp only [estimate, lsMethod, if_true, bind_ok]
  exact ⟨_, lsOpt_better LLf (answering num p), by rw [if_neg (by decide)]; simp only [hm, bind_ok]; exact ⟨_, rfl, rfl⟩⟩

theorem fitData_LS {argsort : List ℝ → List ℕ} {J : Jac} {num : Option ℝ → Num2} {F C : List (ℝ × ℕ)} {inp : Checked ℝ}
    (hf : inp.failures = F.flatMap fun tq => List.replicate tq.2 tq.1)
    (hc : inp.right_censored = C.flatMap fun tq => List.replicate tq.2 tq.1) {m : String} (hm : inp.method = some m)
    (hm' : m ∈ ["LS", "RRX", "RRY"]) :
    fitGroupedData argsort J num F C inp = fit2 weibull2 argsort J num inp inp.force_beta := by
  have h3 : (F.map Prod.snd).sum + (C.map Prod.snd).sum = inp.failures.length + inp.right_censored.length := by
    rw [hf, hc]; exact (C42_grouped 0 0 F C).2
  have hLf : LLg F C inp.force_beta = LLf2 weibull2 inp.force_beta inp.failures inp.right_censored := by
    funext p; rw [LLg_eq, hf, hc]
  have hL := LL_eq F C
  rw [← hf, ← hc] at hL
  unfold fitGroupedData fit2
  simp only [h3, hLf, hL, hm]
  rw [show weibull2.name = "Weibull_2P" from rfl, estimate_LS (LL := fun a b => weibull2.LL a b inp.failures inp.right_censored)
    (n := inp.failures.length + inp.right_censored.length) (o := optimizerG inp.optimizer) (force := inp.force_beta) hm']
  rfl


theorem bicLoop_refined {P : Type} (minimize : P → OptResult P) (bic : P → ℝ) (start : P) :
    Refined minimize bic start (if (bicLoop minimize bic 9 1000000 start).success = true
      then (bicLoop minimize bic 9 1000000 start).x else start) := by
  have key : ∀ (left k : ℕ) (prev : ℝ), k + left = 9 →
      prev = (if k = 0 then 1000000 else bic (guesses minimize start k)) →
      ∃ runs, k + 1 ≤ runs ∧ runs ≤ 10 ∧
        bicLoop minimize bic left prev (guesses minimize start k) = minimize (guesses minimize start (runs - 1)) ∧
        (∀ j, k + 1 ≤ j → j < runs → 0.001 < |bic (guesses minimize start j) -
          if j = 1 then 1000000 else bic (guesses minimize start (j - 1))|) ∧
        (runs = 10 ∨ |bic (guesses minimize start runs) -
          if runs = 1 then 1000000 else bic (guesses minimize start (runs - 1))| ≤ 0.001) := by
    intro left
    induction left with
    | zero =>
      intro k prev hk hp
      obtain rfl : k = 9 := by omega
      exact ⟨10, by omega, le_refl _, rfl, fun j h1 h2 => by omega, .inl rfl⟩
    | succ left ih =>
      intro k prev hk hp
      rw [bicLoop, ← guesses_succ]
      have hp' : prev = if k + 1 = 1 then 1000000 else bic (guesses minimize start (k + 1 - 1)) := by
        rw [hp]
        by_cases h0 : k = 0
        · subst h0; simp
        · rw [if_neg h0, if_neg (by omega), Nat.add_sub_cancel]
      by_cases hd : |bic (guesses minimize start (k + 1)) - prev| > 0.001
      · rw [if_pos hd]
        obtain ⟨runs, h1, h2, h3, h4, h5⟩ := ih (k + 1) _ (by omega) (by rw [if_neg (by omega)])
        refine ⟨runs, by omega, h2, h3, fun j hj1 hj2 => ?_, h5⟩
        by_cases hj : j = k + 1
        · subst hj; rw [← hp']; exact hd
        · exact h4 j (by omega) hj2
      · rw [if_neg hd]
        refine ⟨k + 1, le_refl _, by omega, by simp, fun j h1 h2 => by omega, .inr ?_⟩
        rw [← hp']; exact not_lt.1 hd
  obtain ⟨runs, h1, h2, h3, h4, h5⟩ := key 9 0 1000000 rfl rfl
  refine ⟨runs, guesses minimize start, h1, h2, rfl, guesses_succ minimize start, h4, h5, ?_⟩
  change bicLoop minimize bic 9 1000000 start = _ at h3
  rw [h3, ← guesses_succ, Nat.sub_add_cancel h1]

theorem optimizerG_mem (o : Option String) : optimizerG o ∈ ["L-BFGS-B", "TNC", "powell", "nelder-mead"] := by
  cases o with
  | none => decide
  | some o =>
    unfold optimizerG
    dsimp only
    split_ifs with h
    · exact h
    · decide

theorem fitData_MLE {argsort : List ℝ → List ℕ} {J : Jac} {num : Option ℝ → Num2} {F C : List (ℝ × ℕ)} {inp : Checked ℝ}
    (hf : inp.failures = F.flatMap fun tq => List.replicate tq.2 tq.1)
    (hc : inp.right_censored = C.flatMap fun tq => List.replicate tq.2 tq.1) (hm : inp.method = some "MLE") (p : ℝ × ℝ)
    (hp : p = mleGrouped (fun a b => weibull2P_grouped_LL a b F C) ((F.map Prod.snd).sum + (C.map Prod.snd).sum)
      (num inp.force_beta) (optimizerG inp.optimizer) inp.force_beta (betterLS (LLg F C inp.force_beta) (num inp.force_beta)).1) :
    fitGroupedData argsort J num F C inp = fit2 weibull2 argsort J (fun fo => answering (num fo) p)
      { inp with optimizer := some (optimizerG inp.optimizer) } inp.force_beta := by
  have h3 : (F.map Prod.snd).sum + (C.map Prod.snd).sum = inp.failures.length + inp.right_censored.length := by
    rw [hf, hc]; exact (C42_grouped 0 0 F C).2
  have hLf : LLg F C inp.force_beta = LLf2 weibull2 inp.force_beta inp.failures inp.right_censored := by
    funext p; rw [LLg_eq, hf, hc]
  have hL := LL_eq F C
  rw [← hf, ← hc] at hL
  have hp2 : ∀ s, inp.force_beta = some s → p.2 = s := by
    intro s hs
    rw [hp, hs]; rfl
  have he : estimateG (fun a b => weibull2P_grouped_LL a b F C) (LLg F C inp.force_beta)
      ((F.map Prod.snd).sum + (C.map Prod.snd).sum) (num inp.force_beta) (optimizerG inp.optimizer) inp.force_beta
      (some "MLE") = .ok (p, "Maximum Likelihood Estimation (MLE)", some (optimizerG inp.optimizer)) := by
    rw [hp]; rfl
  unfold fitGroupedData fit2
  simp only [hm]
  rw [he, show weibull2.name = "Weibull_2P" from rfl, estimate_MLE p hp2 (optimizerG_mem _)]
  simp only [h3, hLf, hL]
  rfl

theorem fittersCheck_optimizer {dist : String} {F C : DataArg ℝ} {m a a' : StrArg} {ci : CIArg ℝ} {q : QArg ℝ}
    {fb fs : Option ℝ} {ct : StrArg} {o o' : Option String} (h : checkOptimizer a = .ok o) (h' : checkOptimizer a' = .ok o') :
    fittersCheck dist F C m a' ci q fb fs ct =
      fittersCheck dist F C m a ci q fb fs ct >>= fun inp => .ok { inp with optimizer := o' } := by
  unfold fittersCheck
  rw [h, h']
  by_cases hd : dist ∉ distNames
  · rw [if_pos hd, if_pos hd]; rfl
  · rw [if_neg hd, if_neg hd]
    simp only [Bind.bind, Except.bind]
    cases checkTypes F C with
    | error e => rfl
    | ok fc =>
    dsimp only
    cases checkRange dist fc.1 fc.2 with
    | error e => rfl
    | ok fc' =>
    dsimp only
    cases checkCI ci with
    | error e => rfl
    | ok c =>
    dsimp only
    cases checkMethod m with
    | error e => rfl
    | ok c =>
    dsimp only
    cases checkQuantiles q with
    | error e => rfl
    | ok c =>
    dsimp only
    cases checkForce fb with
    | error e => rfl
    | ok fb' =>
    dsimp only
    cases checkForce fs with
    | error e => rfl
    | ok fs' =>
    dsimp only
    cases checkCount dist fs' fb' fc'.1 with
    | error e => rfl
    | ok c =>
    dsimp only
    cases checkCIType ct with
    | error e => rfl
    | ok c => rfl

theorem used_expand {rows : List GRow} {x : GArgs} {inp : Checked ℝ}
    (h : Accepts "Weibull_2P" (.array (expand "F" rows)) (.array (expand "C" rows)) x.method x.optimizer x.CI x.quantiles
      x.force_beta none x.CI_type inp) : inp.failures = expand "F" rows ∧ inp.right_censored = expand "C" rows := by
  obtain ⟨F, C, h1, h2, -, -, h3, h4⟩ := h.data
  have hfil : ∀ c, (expand c rows).filter (fun t => decide (Usable "Weibull_2P" t)) = expand c rows := by
    intro c
    rw [List.filter_eq_self]
    intro t ht
    exact decide_eq_true (.inr ⟨expand_pos ht, fun h => absurd h (by decide)⟩)
  cases h1
  rcases h2 with ⟨h2, -⟩ | h2
  · cases h2
  · cases h2
    exact ⟨h3.trans (hfil _), h4.trans (hfil _)⟩

/-- **C109 (least squares).** On a well-formed dataframe a least squares fit is, in every attribute and also when it
raises, the fit of Fit_Weibull_2P to the ungrouped data. -/
theorem C109_least_squares (argsort : List ℝ → List ℕ) (J : Jac) (num : Option ℝ → Num2) {cols : List String}
    {rows : List GRow} (h : WellFormed cols rows) (x : GArgs) {m : String} (hm : Means methodNames x.method (some m))
    (hm' : m ≠ "MLE") :
    fitWeibull2PGrouped argsort J num (.frame cols rows) x = fitWeibull2P argsort J num (ungrouped rows x) := by
  rw [grouped_unfold h]
  unfold fitWeibull2P
  simp only [ungrouped]
  cases hc : fittersCheck "Weibull_2P" (.array (expand "F" rows)) (.array (expand "C" rows)) x.method x.optimizer x.CI
      x.quantiles x.force_beta none x.CI_type with
  | error e => rfl
  | ok inp =>
    simp only [Bind.bind, Except.bind]
    have ha := (C51_ok_iff ..).1 hc
    obtain ⟨h1, h2⟩ := used_expand ha
    have hmm : inp.method = some m := by
      have h1 := (checkMethod_iff _ _).2 ha.method_ok
      rw [(checkMethod_iff _ _).2 hm] at h1
      exact (Except.ok.inj h1).symm
    refine fitData_LS (h1.trans (expand_counts _ _).symm) (h2.trans (expand_counts _ _).symm) hmm ?_
    rcases hm with ⟨-, hm⟩ | ⟨s, c, sp, -, hm, hm2, -⟩
    · cases hm
    · cases hm
      simp only [methodNames, List.mem_cons, Prod.mk.injEq, List.not_mem_nil, or_false] at hm2
      rcases hm2 with ⟨rfl, -⟩ | ⟨rfl, -⟩ | ⟨rfl, -⟩ | ⟨rfl, -⟩
      · simp
      · simp
      · simp
      · exact absurd rfl hm'

/-- The optimizer a grouped fit uses: the one named, and TNC if none is named or "best" is asked for. -/
def UsesOptimizer (arg : StrArg) (o : String) : Prop :=
  (Means optimizerNames arg none ∨ Means optimizerNames arg (some "best")) ∧ o = "TNC" ∨
    Means optimizerNames arg (some o) ∧ o ≠ "best"

theorem usesOptimizer_iff {a : StrArg} {o : Option String} (h : Means optimizerNames a o) (o' : String) :
    UsesOptimizer a o' ↔ o' = optimizerG o := by
  have hu : ∀ o₂, Means optimizerNames a o₂ ↔ o₂ = o := by
    intro o₂
    constructor
    · intro h2
      have h1 := (checkOptimizer_iff _ _).2 h2
      rw [(checkOptimizer_iff _ _).2 h] at h1
      exact (Except.ok.inj h1).symm
    · rintro rfl; exact h
  unfold UsesOptimizer
  rw [hu, hu, hu]
  rcases h with ⟨-, rfl⟩ | ⟨s, c, sp, -, rfl, hmem, -⟩
  · simp [optimizerG]
  · simp only [optimizerNames, List.mem_cons, Prod.mk.injEq, List.not_mem_nil, or_false] at hmem
    rcases hmem with ⟨rfl, -⟩ | ⟨rfl, -⟩ | ⟨rfl, -⟩ | ⟨rfl, -⟩ | ⟨rfl, -⟩ <;> simp [optimizerG, eq_comm] <;>
      (rintro rfl; decide)

theorem mleGrouped_spec {LL : ℝ → ℝ → ℝ} {n : ℕ} {num : Num2} {o : String} {force : Option ℝ} {guess p : ℝ × ℝ}
    (hp : p = mleGrouped LL n num o force guess) :
    (force = none → Refined (num.minimize (fun q => LL q.1 q.2) [(some 0, none), (some 0, none)] o) (fun q => Real.log n * 2 + 2 * LL q.1 q.2) guess p) ∧
    ∀ s, force = some s → p.2 = s ∧ Refined (num.minimize1 (fun a => LL a s) [(some 0, none)] o) (fun a => Real.log n * 1 + 2 * LL a s) guess.1 p.1 := by
  constructor
  · rintro rfl
    subst hp
    have := bicLoop_refined (num.minimize (fun q => LL q.1 q.2) [(some 0, none), (some 0, none)] o) (fun q => BIC n 2 (2 * LL q.1 q.2)) guess
    simpa [mleGrouped, BIC] using this
  · rintro s rfl
    subst hp
    have := bicLoop_refined (num.minimize1 (fun a => LL a s) [(some 0, none)] o) (fun a => BIC n 1 (2 * LL a s)) guess.1
    exact ⟨rfl, by simpa [mleGrouped, BIC] using this⟩

/-- **C109 (maximum likelihood).** On a well-formed dataframe there are estimates `p` with which the fit is, in every
attribute and also when it raises, that of Fit_Weibull_2P to the ungrouped data with the chosen optimizer, had that
answered `p`.  These estimates come from restarting the optimizer from the better of the two least squares estimates until
the BIC of the ungrouped data settles, ten times at most; if the last run fails they are the least squares estimates. -/
theorem C109_maximum_likelihood (argsort : List ℝ → List ℕ) (J : Jac) (num : Option ℝ → Num2) {cols : List String}
    {rows : List GRow} (h : WellFormed cols rows) (x : GArgs) (hm : Means methodNames x.method (some "MLE")) {o : String}
    (ho : UsesOptimizer x.optimizer o) :
    ∃ p start : ℝ × ℝ,
      fitWeibull2PGrouped argsort J num (.frame cols rows) x =
        fitWeibull2P argsort J (fun fo => answering (num fo) p) { ungrouped rows x with optimizer := .str o } ∧
      (∃ a ∈ ["RRX", "RRY"], start = (num x.force_beta).ls a ∧ ∀ b ∈ ["RRX", "RRY"],
        |weibull2P_LL start.1 (x.force_beta.getD start.2) (expand "F" rows) (expand "C" rows)| ≤
        |weibull2P_LL ((num x.force_beta).ls b).1 (x.force_beta.getD ((num x.force_beta).ls b).2) (expand "F" rows)
          (expand "C" rows)|) ∧
      (x.force_beta = none → Refined ((num none).minimize (fun q => weibull2P_LL q.1 q.2 (expand "F" rows) (expand "C" rows))
          [(some 0, none), (some 0, none)] o) (fun q =>
        Real.log ((expand "F" rows).length + (expand "C" rows).length : ℕ) * 2 +
          2 * weibull2P_LL q.1 q.2 (expand "F" rows) (expand "C" rows)) start p) ∧
      (∀ s, x.force_beta = some s → p.2 = s ∧ Refined ((num (some s)).minimize1
          (fun a => weibull2P_LL a s (expand "F" rows) (expand "C" rows)) [(some 0, none)] o) (fun a =>
        Real.log ((expand "F" rows).length + (expand "C" rows).length : ℕ) * 1 +
          2 * weibull2P_LL a s (expand "F" rows) (expand "C" rows)) start.1 p.1) := by
  obtain ⟨oc, hoc⟩ : ∃ oc, Means optimizerNames x.optimizer oc := by
    rcases ho with ⟨ho | ho, -⟩ | ⟨ho, -⟩ <;> exact ⟨_, ho⟩
  have hou := (usesOptimizer_iff hoc o).1 ho
  set Fg := counts ((rows.filter fun r => r.category = "F" ∧ 0 < r.time).map fun r => (r.time, r.quantity)) with hFg
  set Cg := counts ((rows.filter fun r => r.category = "C" ∧ 0 < r.time).map fun r => (r.time, r.quantity)) with hCg
  have eF := expand_counts "F" rows
  have eC := expand_counts "C" rows
  rw [← hFg] at eF
  rw [← hCg] at eC
  have hn : (Fg.map Prod.snd).sum + (Cg.map Prod.snd).sum = (expand "F" rows).length + (expand "C" rows).length := by
    rw [← eF, ← eC]; exact (C42_grouped 0 0 Fg Cg).2
  have hLL : ∀ a b, weibull2P_grouped_LL a b Fg Cg = weibull2P_LL a b (expand "F" rows) (expand "C" rows) := by
    intro a b
    rw [← eF, ← eC]; exact (C42_grouped a b Fg Cg).1
  have hLg : ∀ q, LLg Fg Cg x.force_beta q = weibull2P_LL q.1 (x.force_beta.getD q.2) (expand "F" rows) (expand "C" rows) := by
    intro q
    unfold LLg
    cases x.force_beta <;> exact hLL _ _
  set start := (betterLS (LLg Fg Cg x.force_beta) (num x.force_beta)).1 with hst
  obtain ⟨p, hp⟩ : ∃ p, p = mleGrouped (fun a b => weibull2P_grouped_LL a b Fg Cg) ((Fg.map Prod.snd).sum + (Cg.map Prod.snd).sum)
    (num x.force_beta) o x.force_beta start := ⟨_, rfl⟩
  refine ⟨p, start, ?_, ?_, ?_, ?_⟩
  · rw [grouped_unfold h]
    unfold fitWeibull2P
    simp only [ungrouped]
    have hmem : optimizerG oc ∈ ["L-BFGS-B", "TNC", "powell", "nelder-mead"] := optimizerG_mem oc
    have hco : checkOptimizer (.str o) = .ok (some o) := by
      rw [hou]
      revert hmem
      generalize optimizerG oc = o'
      revert o'
      decide +kernel
    rw [fittersCheck_optimizer ((checkOptimizer_iff _ _).2 hoc) hco]
    cases hc : fittersCheck "Weibull_2P" (.array (expand "F" rows)) (.array (expand "C" rows)) x.method x.optimizer x.CI
        x.quantiles x.force_beta none x.CI_type with
    | error e => rfl
    | ok inp =>
      simp only [Bind.bind, Except.bind]
      have ha := (C51_ok_iff ..).1 hc
      obtain ⟨h1, h2⟩ := used_expand ha
      have hmm : inp.method = some "MLE" := by
        have h1 := (checkMethod_iff _ _).2 ha.method_ok
        rw [(checkMethod_iff _ _).2 hm] at h1
        exact (Except.ok.inj h1).symm
      have hio : inp.optimizer = oc := by
        have h1 := (checkOptimizer_iff _ _).2 ha.optimizer_ok
        rw [(checkOptimizer_iff _ _).2 hoc] at h1
        exact (Except.ok.inj h1).symm
      have hfb := ha.beta_ok.1
      rw [fitData_MLE (h1.trans eF.symm) (h2.trans eC.symm) hmm p (by rw [hfb, hio, ← hou]; exact hp), hio, ← hou]
  · by_cases hb : |-LLg Fg Cg x.force_beta ((num x.force_beta).ls "RRX")| < |-LLg Fg Cg x.force_beta ((num x.force_beta).ls "RRY")|
    · have e : start = (num x.force_beta).ls "RRX" := by rw [hst]; unfold betterLS; rw [if_pos hb]
      refine ⟨"RRX", by simp, e, fun b hbm => ?_⟩
      rw [abs_neg, abs_neg, hLg, hLg] at hb
      rw [e]
      simp only [List.mem_cons, List.not_mem_nil, or_false] at hbm
      rcases hbm with rfl | rfl
      · exact le_refl _
      · exact hb.le
    · have e : start = (num x.force_beta).ls "RRY" := by rw [hst]; unfold betterLS; rw [if_neg hb]
      refine ⟨"RRY", by simp, e, fun b hbm => ?_⟩
      rw [abs_neg, abs_neg, hLg, hLg] at hb
      rw [e]
      simp only [List.mem_cons, List.not_mem_nil, or_false] at hbm
      rcases hbm with rfl | rfl
      · exact not_lt.1 hb
      · exact le_refl _
  · intro hf
    have := (mleGrouped_spec hp).1 hf
    rw [hf] at this
    simp only [hn, hLL] at this
    exact this
  · intro s hf
    have := (mleGrouped_spec hp).2 s hf
    rw [hf] at this
    simp only [hn, hLL] at this
    exact this

/-- What an accepted maximum likelihood fit without quantiles holds: its estimates are those of the loop. -/
theorem fitGroupedData_returns {argsort : List ℝ → List ℕ} (harg : IsArgsort argsort) (J : Jac) (num : Option ℝ → Num2)
    {F C : List (ℝ × ℕ)} {inp : Checked ℝ} (hm : inp.method = some "MLE") (hq : inp.quantiles = .none)
    (hne : inp.failures ≠ []) (h0 : ∀ t ∈ inp.failures, 0 < t) :
    ∃ r, fitGroupedData argsort J num F C inp = .ok r ∧ (r.dist.a, r.dist.b) =
      mleGrouped (fun a b => weibull2P_grouped_LL a b F C) ((F.map Prod.snd).sum + (C.map Prod.snd).sum)
        (num inp.force_beta) (optimizerG inp.optimizer) inp.force_beta (betterLS (LLg F C inp.force_beta) (num inp.force_beta)).1 := by
  set e := mleGrouped (fun a b => weibull2P_grouped_LL a b F C) ((F.map Prod.snd).sum + (C.map Prod.snd).sum)
        (num inp.force_beta) (optimizerG inp.optimizer) inp.force_beta (betterLS (LLg F C inp.force_beta) (num inp.force_beta)).1 with he
  obtain ⟨s, hs⟩ : ∃ s, se2 (fun a b => weibull2P_grouped_LL a b F C) e.1 e.2 inp.force_beta (some (optimizerG inp.optimizer)) = .ok s := by
    unfold se2
    cases inp.force_beta <;> dsimp only <;> split <;> exact ⟨_, rfl⟩
  obtain ⟨g, hg⟩ := gof_nonneg harg (d := (Fitted.two (two .weibull e.1 e.2 0 inp.CI s)).dist) (C := inp.right_censored)
    (n := (F.map Prod.snd).sum + (C.map Prod.snd).sum) (k := kForced 2 inp.force_beta.isSome)
    (LL := LLg F C inp.force_beta (e.1, e.2)) hne h0 (fun h => absurd h (distOf_not_beta _ _ _ _))
  have hE : estimateG (fun a b => weibull2P_grouped_LL a b F C) (LLg F C inp.force_beta)
      ((F.map Prod.snd).sum + (C.map Prod.snd).sum) (num inp.force_beta) (optimizerG inp.optimizer) inp.force_beta
      inp.method = .ok (e, "Maximum Likelihood Estimation (MLE)", some (optimizerG inp.optimizer)) := by
    rw [hm]; rfl
  refine ⟨⟨rows2 weibull2 e.1 e.2 (zOf inp.CI) inp.force_beta.isSome s, [], (s.getD (0, 0, 0)).2.2, two .weibull e.1 e.2 0 inp.CI s,
    "Maximum Likelihood Estimation (MLE)", some (optimizerG inp.optimizer), g, none⟩, ?_, rfl⟩
  simp only [fitGroupedData, bind_ok]
  exact ⟨_, hE, s, hs, none, by rw [hq]; rfl, g, hg, rfl⟩

/-- **C109 (the fit returns).** Whatever the optimizer does (it may fail in every run), an accepted maximum likelihood fit
of a well-formed dataframe without quantiles returns. -/
theorem C109_mle_returns {argsort : List ℝ → List ℕ} (harg : IsArgsort argsort) (J : Jac) (num : Option ℝ → Num2)
    {cols : List String} {rows : List GRow} (h : WellFormed cols rows) (x : GArgs) (inp : Checked ℝ)
    (ha : Accepts "Weibull_2P" (.array (expand "F" rows)) (.array (expand "C" rows)) x.method x.optimizer x.CI x.quantiles
      x.force_beta none x.CI_type inp) (hm : inp.method = some "MLE") (hq : inp.quantiles = .none) :
    ∃ r, fitWeibull2PGrouped argsort J num (.frame cols rows) x = .ok r := by
  rw [grouped_unfold h, (C51_ok_iff ..).2 ha]
  obtain ⟨r, hr, -⟩ := fitGroupedData_returns harg J num (F := _) (C := _) hm hq (failures_ne (x := ungrouped rows x) ha)
    (fun t ht => usable_pos (by decide) ((usable_failures (x := ungrouped rows x) ha).1 t ht))
  exact ⟨r, hr⟩

/-- The dataframe of the example: one failure at 1, one at 2, three units censored at 1/2, and a row that is dropped. -/
noncomputable def exampleRows : List GRow := [⟨"F", 1, 1⟩, ⟨"C", 1 / 2, 3⟩, ⟨"F", 2, 1⟩, ⟨"C", 0, -4⟩]

theorem exampleRows_wf : WellFormed ["category", "time", "quantity"] exampleRows where
  columns := by simp
  categories := by simp [exampleRows]
  quantities := by simp [exampleRows]

theorem exampleRows_expand : expand "F" exampleRows = [1, 2] ∧ expand "C" exampleRows = [1 / 2, 1 / 2, 1 / 2] := by
  constructor
  · simp [expand, exampleRows]
  · simp [expand, exampleRows, List.replicate]

/-- What the checks make of the example. -/
noncomputable def exampleInp : Checked ℝ :=
  ⟨[1, 2], [1 / 2, 1 / 2, 1 / 2], 0.95, some "MLE", none, .none, none, none, some "time"⟩

theorem example_accepted : Accepts "Weibull_2P" (.array (expand "F" exampleRows)) (.array (expand "C" exampleRows))
    (.str "MLE") .none (.float 0.95) .none none none (.str "time") exampleInp := by
  rw [exampleRows_expand.1, exampleRows_expand.2]
  have hU : ∀ t : ℝ, 0 < t → Usable "Weibull_2P" t := fun t ht => .inr ⟨ht, fun h => absurd h (by decide)⟩
  refine ⟨by decide, ⟨[1, 2], [1 / 2, 1 / 2, 1 / 2], rfl, .inr rfl, ?_, ?_, ?_, ?_⟩, ⟨rfl, by norm_num [exampleInp], by norm_num [exampleInp]⟩,
    .inl ⟨rfl, rfl⟩, ?_, .inl ⟨rfl, rfl⟩, ⟨rfl, by simp⟩, ⟨rfl, by simp⟩, ?_, ?_⟩
  · intro t ht; simp at ht; rcases ht with rfl | rfl <;> exact .inr ⟨by norm_num, by decide⟩
  · intro t ht; simp at ht; subst ht; exact .inr ⟨by norm_num, by decide⟩
  · simp [exampleInp, hU 1 (by norm_num), hU 2 (by norm_num)]
  · have := hU 2⁻¹ (by norm_num)
    simp [exampleInp, this]
  · exact .inr ⟨"MLE", "MLE", ["MLE", "ML", "MAXIMUM LIKELIHOOD ESTIMATION", "MAXIMUM LIKELIHOOD", "MAX LIKELIHOOD"], rfl,
      rfl, by simp [methodNames], by decide +kernel⟩
  · simp [exampleInp, required]
  · exact .inr ⟨"time", "time", ["T", "TIME"], rfl, rfl, by simp [ciTypeNames], by decide +kernel⟩

/-- The hypotheses of C109_mle_returns are met, also by an optimizer that always fails. -/
example {argsort : List ℝ → List ℕ} (harg : IsArgsort argsort) (J : Jac) : ∃ r, fitWeibull2PGrouped argsort J
    (fun _ => ⟨⟨fun _ => (2, 1), (2, 1), fun _ _ _ p => ⟨false, p⟩⟩, fun _ _ _ a => ⟨false, a⟩⟩)
    (.frame ["category", "time", "quantity"] exampleRows) {} = .ok r :=
  C109_mle_returns harg J _ exampleRows_wf {} exampleInp example_accepted rfl rfl

/-- **C109 (finding).** That the grouped fit keeps the best estimate the optimizer found is false: the first
run of the optimizer succeeds and improves the likelihood, the restart fails, and the fit returns the less likely least
squares estimate. -/
theorem C109_discards_finding {argsort : List ℝ → List ℕ} (harg : IsArgsort argsort) (J : Jac) :
    ∃ (num : Option ℝ → Num2) (r : FitRes Two), fitWeibull2PGrouped argsort J num
        (.frame ["category", "time", "quantity"] exampleRows) {} = .ok r ∧
      ∃ start minimize, minimize = (num none).minimize (fun q => weibull2P_LL q.1 q.2 [1, 2] [1 / 2, 1 / 2, 1 / 2])
          [(some 0, none), (some 0, none)] ∧ (∀ m, (num none).ls m = start) ∧ (minimize "TNC" start).success = true ∧
        (r.dist.a, r.dist.b) = start ∧
        weibull2P_LL (minimize "TNC" start).x.1 (minimize "TNC" start).x.2 [1, 2] [1 / 2, 1 / 2, 1 / 2] <
          weibull2P_LL start.1 start.2 [1, 2] [1 / 2, 1 / 2, 1 / 2] := by
  classical
  let num : Option ℝ → Num2 := fun _ => ⟨⟨fun _ => (1, 1), (1, 1),
    fun _ _ _ p => if p = ((1 : ℝ), (1 : ℝ)) then ⟨true, (2, 1)⟩ else ⟨false, p⟩⟩, fun _ _ _ a => ⟨true, a⟩⟩
  have hm1 : ∀ ob b o, (num none).minimize ob b o (1, 1) = ⟨true, (2, 1)⟩ := fun _ _ _ => if_pos rfl
  have hm2 : ∀ ob b o, (num none).minimize ob b o (2, 1) = ⟨false, (2, 1)⟩ := fun _ _ _ => if_neg (by norm_num)
  obtain ⟨r, hr, hp⟩ := fitGroupedData_returns harg J num
    (F := counts ((exampleRows.filter fun r => r.category = "F" ∧ 0 < r.time).map fun r => (r.time, r.quantity)))
    (C := counts ((exampleRows.filter fun r => r.category = "C" ∧ 0 < r.time).map fun r => (r.time, r.quantity)))
    (inp := exampleInp) rfl rfl (by simp [exampleInp])
    (by intro t ht; simp [exampleInp] at ht; rcases ht with rfl | rfl <;> norm_num)
  have hF : counts ((exampleRows.filter fun r => r.category = "F" ∧ 0 < r.time).map fun r => (r.time, r.quantity)) =
      [(1, 1), (2, 1)] := by simp [counts, exampleRows]
  have hC : counts ((exampleRows.filter fun r => r.category = "C" ∧ 0 < r.time).map fun r => (r.time, r.quantity)) =
      [(1 / 2, 3)] := by simp [counts, exampleRows]
  have hst : (betterLS (LLg [(1, 1), (2, 1)] [(1 / 2, 3)] exampleInp.force_beta) (num exampleInp.force_beta)).1 = (1, 1) := by
    unfold betterLS; split_ifs <;> rfl
  have hlog2 : Real.log 2 ≤ 1 := by
    have := Real.log_le_sub_one_of_pos (show (0 : ℝ) < 2 by norm_num); linarith
  have hlog5 : Real.log 5 ≤ 4 := by
    have := Real.log_le_sub_one_of_pos (show (0 : ℝ) < 5 by norm_num); linarith
  have hlog5' : 0 ≤ Real.log 5 := Real.log_nonneg (by norm_num)
  have hlog2' : 0 ≤ Real.log 2 := Real.log_nonneg (by norm_num)
  have hL2 : weibull2P_grouped_LL 2 1 [(1, 1), (2, 1)] [(1 / 2, 3)] = 2 * Real.log 2 + 9 / 4 := by
    simp [weibull2P_grouped_LL, weibull2P_logf, weibull2P_logR]
    ring
  have hb : 0.001 < |BIC 5 2 (2 * weibull2P_grouped_LL 2 1 [(1, 1), (2, 1)] [(1 / 2, 3)]) - 1000000| := by
    rw [hL2, lt_abs]
    right
    simp only [BIC]
    push_cast
    norm_num
    linarith
  refine ⟨num, r, ?_, (1, 1), _, rfl, fun _ => rfl, by rw [hm1], ?_, ?_⟩
  · rw [grouped_unfold exampleRows_wf, (C51_ok_iff ..).2 example_accepted]
    exact hr
  · rw [hp, hF, hC, hst]
    have hn : ([((1 : ℝ), 1), (2, 1)].map Prod.snd).sum + ([((1 : ℝ) / 2, 3)].map Prod.snd).sum = 5 := rfl
    rw [hn]
    change (if (bicLoop ((num none).minimize _ _ _) _ 9 1000000 (1, 1)).success = true then _ else _) = _
    have : ∀ ob b, bicLoop ((num none).minimize ob b (optimizerG exampleInp.optimizer))
        (fun p => BIC 5 2 (2 * weibull2P_grouped_LL p.1 p.2 [(1, 1), (2, 1)] [(1 / 2, 3)])) 9 1000000 (1, 1) = ⟨false, (2, 1)⟩ := by
      intro ob b
      rw [bicLoop]
      simp only [hm1]
      rw [if_pos hb, bicLoop]
      simp only [hm2, sub_self, abs_zero]
      rw [if_neg (by norm_num)]
    rw [this]
    rfl
  · rw [hm1]
    simp [weibull2P_LL, LL, weibull2P_logf, weibull2P_logR]
    norm_num
    linarith

/-- **C109 (finding).** `method=None`, which the checks accept, is not a way to call the class: AttributeError. -/
theorem C109_no_method_finding (argsort : List ℝ → List ℕ) (J : Jac) (num : Option ℝ → Num2) {cols : List String}
    {rows : List GRow} (h : WellFormed cols rows) (x : GArgs) (inp : Checked ℝ)
    (ha : Accepts "Weibull_2P" (.array (expand "F" rows)) (.array (expand "C" rows)) x.method x.optimizer x.CI x.quantiles
      x.force_beta none x.CI_type inp) (hm : inp.method = none) :
    fitWeibull2PGrouped argsort J num (.frame cols rows) x = .error .attributeError := by
  rw [grouped_unfold h, (C51_ok_iff ..).2 ha]
  change fitGroupedData argsort J num _ _ inp = _
  unfold fitGroupedData
  rw [hm]
  rfl

end Reliability.Props
