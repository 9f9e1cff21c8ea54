import Verif.Spec.DataOrder
import Verif.Model.RankRegression
import Verif.Props.NonparametricOrder

/-! # C176: a fitter's result does not depend on the order of the data -/

namespace Reliability.Props

open Reliability List InputCheck Fitters FitGlue Likelihood Spec RankReg

variable {argsort argsort' : List ℝ → List ℕ}

theorem _root_.Reliability.Spec.NoChoice.sub {f c f₁ c₁ : List ℝ} (h : NoChoice argsort argsort' f c) (hf : f₁ ⊆ f) (hc : c₁ ⊆ c) :
    NoChoice argsort argsort' f₁ c₁ := by
  rcases h with h | ⟨a, b, h⟩
  · exact .inl h
  · exact .inr ⟨a, b, fun t ht hc' => h t (hf ht) (hc hc')⟩

theorem plottingPositions_order {f f' c c' : List ℝ} (h : NoChoice argsort argsort' f c) (hf : f ~ f') (hc : c ~ c')
    (a : Option ℝ) :
    PP.plottingPositions argsort f (some c) a true = PP.plottingPositions argsort' f' (some c') a true := by
  rcases h with ⟨h1, h2⟩ | ⟨h1, h2, hn⟩
  · rw [plottingPositions_eq_ppOf h1.1, plottingPositions_eq_ppOf h2.1, sortedData_perm_stable h1 h2 hf hc]
  · rw [plottingPositions_eq_ppOf h1, plottingPositions_eq_ppOf h2, sortedData_perm_noTies h1 h2 hf hc hn]

theorem min?_order {l l' : List ℝ} (h : l ~ l') : l.min? = l'.min? := by
  rcases hm : l'.min? with _ | m
  · rw [List.min?_eq_none_iff] at hm ⊢
    subst hm
    exact h.eq_nil
  · rw [List.min?_eq_some_iff] at hm ⊢
    exact ⟨h.mem_iff.2 hm.1, fun b hb => hm.2 b (h.mem_iff.1 hb)⟩

theorem max?_order {l l' : List ℝ} (h : l ~ l') : l.max? = l'.max? := by
  rcases hm : l'.max? with _ | m
  · rw [List.max?_eq_none_iff] at hm ⊢
    subst hm
    exact h.eq_nil
  · rw [List.max?_eq_some_iff] at hm ⊢
    exact ⟨h.mem_iff.2 hm.1, fun b hb => hm.2 b (h.mem_iff.1 hb)⟩

/-- `least_squares` gives the same estimates for the same data in another order. -/
theorem C176_least_squares (nlls : String → List ℝ → List ℝ → Except Err (Option (List ℝ))) (dist : String)
    {f f' c c' : List ℝ} (method : LinReg.Side) (force_shape : Option ℝ) (h : NoChoice argsort argsort' f c)
    (hf : f ~ f') (hc : c ~ c') :
    leastSquares argsort nlls dist f c method force_shape = leastSquares argsort' nlls dist f' c' method force_shape := by
  unfold leastSquares
  rw [min?_order hf, max?_order hf, plottingPositions_order h hf hc]

theorem gof_order {f f' c c' : List ℝ} (h : NoChoice argsort argsort' f c) (hf : f ~ f') (hc : c ~ c')
    (F : List ℝ → Except Err (List ℝ)) (n k : ℕ) (L : ℝ) :
    gof argsort F f c n k L = gof argsort' F f' c' n k L := by
  unfold gof
  rw [plottingPositions_order h hf hc]

theorem boundsOf_order {f f' c c' : List ℝ} (hf : f ~ f') (hc : c ~ c') (name : String) :
    boundsOf name f c = boundsOf name f' c' := by
  unfold boundsOf mleBounds gamma0
  rw [min?_order (hf.append hc)]

theorem LL_order {f f' c c' : List ℝ} (hf : f ~ f') (hc : c ~ c') (g r : ℝ → ℝ) : LL g r f c = LL g r f' c' := by
  unfold LL
  rw [(hf.map g).sum_eq, (hc.map r).sum_eq]

/-- Both checks fail alike, or both pass on the same data up to order. -/
def PassAlike (F C : List ℝ) (a b : Except Err (List ℝ × List ℝ)) : Prop :=
  (∃ e, a = .error e ∧ b = .error e) ∨
    ∃ f f' c c', a = .ok (f, c) ∧ b = .ok (f', c') ∧ f ~ f' ∧ c ~ c' ∧ f ⊆ F ∧ c ⊆ C

theorem checkTypes_order {d d' e e' : DataArg ℝ} (h : SameItems d d') (h' : SameItems e e') :
    PassAlike (timesIn d) (timesIn e) (checkTypes d e) (checkTypes d' e') := by
  cases h with
  | same d =>
    cases h' with
    | same e =>
      cases d <;> cases e <;> simp [PassAlike, checkTypes, timesIn, valueErr]
    | reordered p =>
      cases d <;> simp [PassAlike, checkTypes, timesIn, valueErr, p]
  | reordered q =>
    cases h' with
    | same e =>
      cases e <;> simp [PassAlike, checkTypes, timesIn, valueErr, q]
    | reordered p =>
      simp [PassAlike, checkTypes, timesIn, q, p]

theorem checkRange_order {f f' c c' : List ℝ} (hf : f ~ f') (hc : c ~ c') (dist : String) :
    PassAlike f c (checkRange dist f c) (checkRange dist f' c') := by
  unfold checkRange
  rw [min?_order (hf.append hc), max?_order (hf.append hc)]
  by_cases h1 : dist ∈ ["Normal_2P", "Gumbel_2P"]
  · rw [if_pos h1, if_pos h1]
    exact .inr ⟨_, _, _, _, rfl, rfl, hf, hc, fun _ h => h, fun _ h => h⟩
  · rw [if_neg h1, if_neg h1]
    rcases (f' ++ c').min? with _ | lo
    · exact .inl ⟨_, rfl, rfl⟩
    rcases (f' ++ c').max? with _ | hi
    · exact .inl ⟨_, rfl, rfl⟩
    dsimp only
    by_cases h2 : dist = "Beta_2P" ∧ (lo < 0 ∨ hi > 1)
    · rw [if_pos h2, if_pos h2]; exact .inl ⟨_, rfl, rfl⟩
    rw [if_neg h2, if_neg h2]
    by_cases h3 : lo < 0
    · rw [if_pos h3, if_pos h3]; exact .inl ⟨_, rfl, rfl⟩
    rw [if_neg h3, if_neg h3]
    by_cases h4 : dist = "Beta_2P"
    · rw [if_pos h4, if_pos h4]
      exact .inr ⟨_, _, _, _, rfl, rfl, (hf.filter _).filter _, (hc.filter _).filter _,
              fun _ h => (mem_filter.1 (mem_filter.1 h).1).1, fun _ h => (mem_filter.1 (mem_filter.1 h).1).1⟩
    · rw [if_neg h4, if_neg h4]
      exact .inr ⟨_, _, _, _, rfl, rfl, hf.filter _, hc.filter _,
              fun _ h => (mem_filter.1 h).1, fun _ h => (mem_filter.1 h).1⟩

theorem checkCount_order {f f' : List ℝ} (hf : f ~ f') (dist : String) (fs fb : Option ℝ) :
    checkCount dist fs fb f = checkCount dist fs fb f' := by
  unfold checkCount
  rw [hf.dedup.length_eq]

theorem bind_alike {α β γ : Type} (m : Except Err α) (n n' : α → Except Err β) (k k' : β → Except Err γ)
    (h : ∀ a, (n a >>= k) = (n' a >>= k')) : ((m >>= n) >>= k) = ((m >>= n') >>= k') := by
  cases m with
  | error e => rfl
  | ok a => exact h a

/-- The checks of the input pass on the same data, reordered, and everything else unchanged. -/
theorem check_order {x x' : Args} (hx : SameCall x x') (dist : String) (m o t : StrArg) (fb fs : Option ℝ) {β : Type}
    (k k' : Checked ℝ → Except Err β)
    (hk : ∀ i i' : Checked ℝ, i.failures ~ i'.failures → i.right_censored ~ i'.right_censored →
      i.failures ⊆ timesIn x.failures → i.right_censored ⊆ timesIn x.right_censored →
      i' = { i with failures := i'.failures, right_censored := i'.right_censored } → k i = k' i') :
    (fittersCheck dist x.failures x.right_censored m o x.CI x.quantiles fb fs t >>= k) =
      (fittersCheck dist x'.failures x'.right_censored m o x'.CI x'.quantiles fb fs t >>= k') := by
  have hr := hx.rest
  have hCI : x'.CI = x.CI := by rw [hr]
  have hq : x'.quantiles = x.quantiles := by rw [hr]
  rw [hCI, hq]
  unfold fittersCheck
  split
  · rfl
  · rcases checkTypes_order hx.failures hx.right_censored with ⟨e, h1, h2⟩ | ⟨f, f', c, c', h1, h2, pf, pc, sf, sc⟩
    · rw [h1, h2]; rfl
    · rw [h1, h2]
      rcases checkRange_order pf pc dist with ⟨e, g1, g2⟩ | ⟨f₁, f₁', c₁, c₁', g1, g2, pf₁, pc₁, sf₁, sc₁⟩
      · change ((checkRange dist f c >>= _) >>= k) = ((checkRange dist f' c' >>= _) >>= k')
        rw [g1, g2]; rfl
      · change ((checkRange dist f c >>= _) >>= k) = ((checkRange dist f' c' >>= _) >>= k')
        rw [g1, g2]
        change ((checkCI x.CI >>= _) >>= k) = ((checkCI x.CI >>= _) >>= k')
        refine bind_alike _ _ _ k k' fun ci => ?_
        refine bind_alike _ _ _ k k' fun opt => ?_
        refine bind_alike _ _ _ k k' fun met => ?_
        refine bind_alike _ _ _ k k' fun q => ?_
        refine bind_alike _ _ _ k k' fun fb' => ?_
        refine bind_alike _ _ _ k k' fun fs' => ?_
        rw [checkCount_order pf₁]
        refine bind_alike _ _ _ k k' fun _ => ?_
        refine bind_alike _ _ _ k k' fun ct => ?_
        exact hk _ _ pf₁ pc₁ (fun _ h => sf (sf₁ h)) (fun _ h => sc (sc₁ h)) rfl

theorem _root_.Reliability.Spec.SameCall.other {x x' : Args} (hx : SameCall x x') :
    x'.method = x.method ∧ x'.optimizer = x.optimizer ∧ x'.CI_type = x.CI_type ∧ x'.force = x.force := by
  rw [hx.rest]; exact ⟨rfl, rfl, rfl, rfl⟩

/-- A two-parameter class after the checks. -/
theorem fit2_order (F : Fam2) (hF : ∀ a b f f' c c', f ~ f' → c ~ c' → F.LL a b f c = F.LL a b f' c') (J : FunctionCI.Jac)
    (num : Option ℝ → Num2) (i i' : Checked ℝ) (force : Option ℝ) (hf : i.failures ~ i'.failures)
    (hc : i.right_censored ~ i'.right_censored) (h : NoChoice argsort argsort' i.failures i.right_censored)
    (hr : i' = { i with failures := i'.failures, right_censored := i'.right_censored }) :
    fit2 F argsort J num i force = fit2 F argsort' J num i' force := by
  obtain ⟨f, c, CI, met, opt, q, fb, fs, ct⟩ := i
  obtain ⟨f', c', CI', met', opt', q', fb', fs', ct'⟩ := i'
  simp only [Checked.mk.injEq, true_and] at hr
  obtain ⟨rfl, rfl, rfl, rfl, rfl, rfl, rfl⟩ := hr
  dsimp only at hf hc h
  have hL : ∀ a b, F.LL a b f c = F.LL a b f' c' := fun a b => hF a b _ _ _ _ hf hc
  have hL2 : ∀ p, LLf2 F force f c p = LLf2 F force f' c' p := by
    intro p; unfold LLf2; cases force <;> simp only [hL]
  have hL2' : LLf2 F force f c = LLf2 F force f' c' := funext hL2
  unfold fit2
  simp only [hL, hL2', boundsOf_order hf hc, gof_order h hf hc, hf.length_eq, hc.length_eq]

/-- The two-parameter fitters. -/
theorem C176_two_parameter (J : FunctionCI.Jac) (num : Option ℝ → Num2) {x x' : Args} (hx : SameCall x x')
    (h : NoChoice argsort argsort' (timesIn x.failures) (timesIn x.right_censored)) :
    fitWeibull2P argsort J num x = fitWeibull2P argsort' J num x' ∧
    fitNormal2P argsort J num x = fitNormal2P argsort' J num x' ∧
    fitLognormal2P argsort J num x = fitLognormal2P argsort' J num x' ∧
    fitGumbel2P argsort J num x = fitGumbel2P argsort' J num x' ∧
    fitLoglogistic2P argsort J num x = fitLoglogistic2P argsort' J num x' := by
  obtain ⟨h1, h2, h3, h4⟩ := hx.other
  unfold fitWeibull2P fitNormal2P fitLognormal2P fitGumbel2P fitLoglogistic2P
  rw [h1, h2, h3, h4]
  refine ⟨?_, ?_, ?_, ?_, ?_⟩ <;>
    refine check_order hx _ _ _ _ _ _ _ _ fun i i' hf hc sf sc hr => ?_
  · have e : i'.force_beta = i.force_beta := by rw [hr]
    rw [e]
    exact fit2_order _ (fun a b _ _ _ _ hf hc => LL_order hf hc _ _) J num i i' _ hf hc (h.sub sf sc) hr
  · have e : i'.force_sigma = i.force_sigma := by rw [hr]
    rw [e]
    exact fit2_order _ (fun a b _ _ _ _ hf hc => LL_order hf hc _ _) J num i i' _ hf hc (h.sub sf sc) hr
  · have e : i'.force_sigma = i.force_sigma := by rw [hr]
    rw [e]
    exact fit2_order _ (fun a b _ _ _ _ hf hc => LL_order hf hc _ _) J num i i' _ hf hc (h.sub sf sc) hr
  · exact fit2_order _ (fun a b _ _ _ _ hf hc => LL_order hf hc _ _) J num i i' _ hf hc (h.sub sf sc) hr
  · exact fit2_order _ (fun a b _ _ _ _ hf hc => LL_order hf hc _ _) J num i i' _ hf hc (h.sub sf sc) hr

/-- Fit_Gamma_2P. -/
theorem C176_gamma2 (J : FunctionCI.Jac) (num : Num (ℝ × ℝ)) {x x' : Args} (hx : SameCall x x')
    (h : NoChoice argsort argsort' (timesIn x.failures) (timesIn x.right_censored)) :
    fitGamma2P argsort J num x = fitGamma2P argsort' J num x' := by
  obtain ⟨h1, h2, h3, h4⟩ := hx.other
  unfold fitGamma2P
  rw [h1, h2, h3]
  refine check_order hx _ _ _ _ _ _ _ _ fun i i' hf hc sf sc hr => ?_
  have h := h.sub sf sc
  obtain ⟨f, c, CI, met, opt, q, fb, fs, ct⟩ := i
  obtain ⟨f', c', CI', met', opt', q', fb', fs', ct'⟩ := i'
  simp only [Checked.mk.injEq, true_and] at hr
  obtain ⟨rfl, rfl, rfl, rfl, rfl, rfl, rfl⟩ := hr
  dsimp only at hf hc h
  have hL : ∀ a b g, gamma_LL_ab a b g f c = gamma_LL_ab a b g f' c' := fun a b g => LL_order hf hc _ _
  have hM : ∀ a b g, gamma_LL_mb a b g f c = gamma_LL_mb a b g f' c' := fun a b g => LL_order hf hc _ _
  simp only [seGamma, hL, hM, boundsOf_order hf hc, gof_order h hf hc, hf.length_eq, hc.length_eq]

/-- Fit_Beta_2P. -/
theorem C176_beta2 (num : Num (ℝ × ℝ)) {x x' : Args} (hx : SameCall x x')
    (h : NoChoice argsort argsort' (timesIn x.failures) (timesIn x.right_censored)) :
    fitBeta2P argsort num x = fitBeta2P argsort' num x' := by
  obtain ⟨h1, h2, h3, h4⟩ := hx.other
  unfold fitBeta2P
  rw [h1, h2]
  refine check_order hx _ _ _ _ _ _ _ _ fun i i' hf hc sf sc hr => ?_
  have h := h.sub sf sc
  obtain ⟨f, c, CI, met, opt, q, fb, fs, ct⟩ := i
  obtain ⟨f', c', CI', met', opt', q', fb', fs', ct'⟩ := i'
  simp only [Checked.mk.injEq, true_and] at hr
  obtain ⟨rfl, rfl, rfl, rfl, rfl, rfl, rfl⟩ := hr
  dsimp only at hf hc h
  have hL : ∀ a b, beta2P_LL a b f c = beta2P_LL a b f' c' := fun a b => LL_order hf hc _ _
  simp only [hL, boundsOf_order hf hc, gof_order h hf hc, hf.length_eq, hc.length_eq]

/-- Fit_Exponential_1P. -/
theorem C176_exponential1 (J : FunctionCI.Jac) (num : Num ℝ) {x x' : Args} (hx : SameCall x x')
    (h : NoChoice argsort argsort' (timesIn x.failures) (timesIn x.right_censored)) :
    fitExponential1P argsort J num x = fitExponential1P argsort' J num x' := by
  obtain ⟨h1, h2, h3, h4⟩ := hx.other
  unfold fitExponential1P
  rw [h1, h2]
  refine check_order hx _ _ _ _ _ _ _ _ fun i i' hf hc sf sc hr => ?_
  have h := h.sub sf sc
  obtain ⟨f, c, CI, met, opt, q, fb, fs, ct⟩ := i
  obtain ⟨f', c', CI', met', opt', q', fb', fs', ct'⟩ := i'
  simp only [Checked.mk.injEq, true_and] at hr
  obtain ⟨rfl, rfl, rfl, rfl, rfl, rfl, rfl⟩ := hr
  dsimp only at hf hc h
  have hL : ∀ a, exponential1P_LL a f c = exponential1P_LL a f' c' := fun a => LL_order hf hc _ _
  simp only [seExp, hL, boundsOf_order hf hc, gof_order h hf hc, hf.length_eq, hc.length_eq]

/-- Fit_Exponential_2P. -/
theorem C176_exponential2 (J : FunctionCI.Jac) (num : Num (ℝ × ℝ)) {x x' : Args} (hx : SameCall x x')
    (h : NoChoice argsort argsort' (timesIn x.failures) (timesIn x.right_censored)) :
    fitExponential2P argsort J num x = fitExponential2P argsort' J num x' := by
  obtain ⟨h1, h2, h3, h4⟩ := hx.other
  unfold fitExponential2P
  rw [h1, h2]
  refine check_order hx _ _ _ _ _ _ _ _ fun i i' hf hc sf sc hr => ?_
  have h := h.sub sf sc
  obtain ⟨f, c, CI, met, opt, q, fb, fs, ct⟩ := i
  obtain ⟨f', c', CI', met', opt', q', fb', fs', ct'⟩ := i'
  simp only [Checked.mk.injEq, true_and] at hr
  obtain ⟨rfl, rfl, rfl, rfl, rfl, rfl, rfl⟩ := hr
  dsimp only at hf hc h
  have hL : ∀ a g, exponential2P_LL a g f c = exponential2P_LL a g f' c' := fun a g => LL_order hf hc _ _
  have hI : ∀ a g, exponential2P_LL_inv a g f c = exponential2P_LL_inv a g f' c' := fun a g => LL_order hf hc _ _
  have hS : ∀ a g, exponential1P_LL a (f.map (· - g)) (c.map (· - g)) = exponential1P_LL a (f'.map (· - g)) (c'.map (· - g)) :=
    fun a g => LL_order (hf.map _) (hc.map _) _ _
  simp only [seExp, hL, hI, hS, boundsOf_order hf hc, gof_order h hf hc, hf.length_eq, hc.length_eq]

/-- A three-parameter class after the checks. -/
theorem fit3_order (F : Fam3) (hF : ∀ a b g f f' c c', f ~ f' → c ~ c' → F.LL a b g f c = F.LL a b g f' c')
    (hF2 : ∀ a b f f' c c', f ~ f' → c ~ c' → F.F2.LL a b f c = F.F2.LL a b f' c') (J : FunctionCI.Jac)
    (num : Num (ℝ × ℝ × ℝ)) (fallback fallback' : Args → Except Err (FitRes FunctionCI.Two))
    (hfb : ∀ y y', SameCall y y' → NoChoice argsort argsort' (timesIn y.failures) (timesIn y.right_censored) →
      fallback y = fallback' y')
    (i i' : Checked ℝ) (hf : i.failures ~ i'.failures)
    (hc : i.right_censored ~ i'.right_censored) (h : NoChoice argsort argsort' i.failures i.right_censored)
    (hr : i' = { i with failures := i'.failures, right_censored := i'.right_censored }) :
    fit3 F argsort J num fallback i = fit3 F argsort' J num fallback' i' := by
  obtain ⟨f, c, CI, met, opt, q, fb, fs, ct⟩ := i
  obtain ⟨f', c', CI', met', opt', q', fb', fs', ct'⟩ := i'
  simp only [Checked.mk.injEq, true_and] at hr
  obtain ⟨rfl, rfl, rfl, rfl, rfl, rfl, rfl⟩ := hr
  dsimp only at hf hc h
  have hL : ∀ a b g, F.LL a b g f c = F.LL a b g f' c' := fun a b g => hF a b g _ _ _ _ hf hc
  have hS : ∀ a b g, F.F2.LL a b (f.map (· - g)) (c.map (· - g)) = F.F2.LL a b (f'.map (· - g)) (c'.map (· - g)) :=
    fun a b g => hF2 a b _ _ _ _ (hf.map _) (hc.map _)
  have hb := hfb { failures := .array f, right_censored := .array c, CI := .float CI' }
    { failures := .array f', right_censored := .array c', CI := .float CI' } ⟨.reordered hf, .reordered hc, rfl⟩ h
  unfold fit3
  simp only [se3, hL, hS, hb, boundsOf_order hf hc, gof_order h hf hc, hf.length_eq, hc.length_eq]

/-- The three-parameter fitters. -/
theorem C176_three_parameter (J : FunctionCI.Jac) (num : Num (ℝ × ℝ × ℝ)) (num2 : Option ℝ → Num2) {x x' : Args}
    (hx : SameCall x x') (h : NoChoice argsort argsort' (timesIn x.failures) (timesIn x.right_censored)) :
    fitWeibull3P argsort J num num2 x = fitWeibull3P argsort' J num num2 x' ∧
    fitLognormal3P argsort J num num2 x = fitLognormal3P argsort' J num num2 x' ∧
    fitLoglogistic3P argsort J num num2 x = fitLoglogistic3P argsort' J num num2 x' := by
  obtain ⟨h1, h2, h3, h4⟩ := hx.other
  unfold fitWeibull3P fitLognormal3P fitLoglogistic3P
  rw [h1, h2, h3]
  refine ⟨?_, ?_, ?_⟩ <;>
    refine check_order hx _ _ _ _ _ _ _ _ fun i i' hf hc sf sc hr => ?_
  · exact fit3_order _ (fun _ _ _ _ _ _ _ hf hc => LL_order hf hc _ _) (fun _ _ _ _ _ _ hf hc => LL_order hf hc _ _) J num _ _
      (fun y y' hy hn => (C176_two_parameter J num2 hy hn).1) i i' hf hc (h.sub sf sc) hr
  · exact fit3_order _ (fun _ _ _ _ _ _ _ hf hc => LL_order hf hc _ _) (fun _ _ _ _ _ _ hf hc => LL_order hf hc _ _) J num _ _
      (fun y y' hy hn => (C176_two_parameter J num2 hy hn).2.2.1) i i' hf hc (h.sub sf sc) hr
  · exact fit3_order _ (fun _ _ _ _ _ _ _ hf hc => LL_order hf hc _ _) (fun _ _ _ _ _ _ hf hc => LL_order hf hc _ _) J num _ _
      (fun y y' hy hn => (C176_two_parameter J num2 hy hn).2.2.2.2) i i' hf hc (h.sub sf sc) hr

/-- Fit_Gamma_3P. -/
theorem C176_gamma3 (J : FunctionCI.Jac) (num : Num (ℝ × ℝ × ℝ)) (num2 : Num (ℝ × ℝ)) {x x' : Args} (hx : SameCall x x')
    (h : NoChoice argsort argsort' (timesIn x.failures) (timesIn x.right_censored)) :
    fitGamma3P argsort J num num2 x = fitGamma3P argsort' J num num2 x' := by
  obtain ⟨h1, h2, h3, h4⟩ := hx.other
  unfold fitGamma3P
  rw [h1, h2, h3]
  refine check_order hx _ _ _ _ _ _ _ _ fun i i' hf hc sf sc hr => ?_
  have h := h.sub sf sc
  obtain ⟨f, c, CI, met, opt, q, fb, fs, ct⟩ := i
  obtain ⟨f', c', CI', met', opt', q', fb', fs', ct'⟩ := i'
  simp only [Checked.mk.injEq, true_and] at hr
  obtain ⟨rfl, rfl, rfl, rfl, rfl, rfl, rfl⟩ := hr
  dsimp only at hf hc h
  have hL : ∀ a b g, gamma_LL_ab a b g f c = gamma_LL_ab a b g f' c' := fun a b g => LL_order hf hc _ _
  have hS : ∀ a b g t, gamma_LL_ab a b t (f.map (· - g)) (c.map (· - g)) = gamma_LL_ab a b t (f'.map (· - g)) (c'.map (· - g)) :=
    fun a b g t => LL_order (hf.map _) (hc.map _) _ _
  have hM : ∀ a b g t, gamma_LL_mb a b t (f.map (· - g)) (c.map (· - g)) = gamma_LL_mb a b t (f'.map (· - g)) (c'.map (· - g)) :=
    fun a b g t => LL_order (hf.map _) (hc.map _) _ _
  have hb := C176_gamma2 J num2 (x := { failures := .array f, right_censored := .array c, CI := .float CI' })
    (x' := { failures := .array f', right_censored := .array c', CI := .float CI' }) ⟨.reordered hf, .reordered hc, rfl⟩ h
  simp only [seGamma3, seGamma, hL, hS, hM, hb, boundsOf_order hf hc, gof_order h hf hc, hf.length_eq, hc.length_eq]

/-- **C176 (finding).** Without that proviso the order can matter: for two failures and a censored item at time 1 two
correct sorts give different plotting positions, the values the least squares fit and the goodness of fit are computed from. -/
theorem C176_shared_time_finding :
    ∃ (A A' : List ℚ → List Nat), IsArgsort A ∧ IsArgsort A' ∧
      (PP.plottingPositions A [1, 1] (some [1]) none true).toOption.map Prod.snd ≠
        (PP.plottingPositions A' [1, 1] (some [1]) none true).toOption.map Prod.snd :=
  ⟨NP.revArgsort, refArgsort, NP.revArgsort_isArgsort, refArgsort_isArgsort, by decide +kernel⟩

/-- The hypotheses of the C176 theorems hold of a call with five failures, one of them repeated, and two censored items. -/
example : ∃ x x' : Args, SameCall x x' ∧ x ≠ x' ∧
    NoChoice (refArgsort (K := ℝ)) refArgsort (timesIn x.failures) (timesIn x.right_censored) := by
  refine ⟨{ failures := .array [5, 3, 9, 3, 7], right_censored := .array [4, 8] },
    { failures := .array [3, 3, 5, 7, 9], right_censored := .array [8, 4] }, ⟨.reordered ?_, .reordered ?_, rfl⟩, ?_,
    .inr ⟨refArgsort_isArgsort, refArgsort_isArgsort, ?_⟩⟩
  · exact ((Perm.swap 3 5 [9, 3, 7]).trans (.cons _ (((Perm.swap 3 9 [7]).cons 5).trans (.trans (.swap 3 5 [9, 7])
      (((Perm.swap 7 9 []).cons 5).cons 3)))))
  · exact .swap 8 4 []
  · intro h
    injection h with h1
    injection h1 with h2
    norm_num at h2
  · intro t ht hc
    simp only [timesIn, mem_cons, not_mem_nil, or_false] at ht hc
    rcases ht with rfl | rfl | rfl | rfl | rfl <;> norm_num at hc

end Reliability.Props
