import Verif.Props.DataOrder
import Verif.Model.FitSpecial

/-! # C176, continued: the mixture, competing risks, defective subpopulation and zero inflated fitters -/

namespace Reliability.Props

open Reliability List InputCheck Fitters FitGlue FitSpecial Likelihood Spec

variable {argsort argsort' : List ℝ → List ℕ}

theorem sort_order {f f' : List ℝ} (hf : f ~ f') : Np.sort f = Np.sort f' := by
  unfold Np.sort
  exact ((perm_insertionSort _ f).trans (hf.trans (perm_insertionSort _ f').symm)).eq_of_pairwise (le := (· ≤ ·))
    (fun _ _ _ _ h h' => le_antisymm h h') (pairwise_insertionSort _ f) (pairwise_insertionSort _ f')

theorem dividingLine_order {f f' : List ℝ} (hf : f ~ f') (line : ℝ) : dividingLine f line = dividingLine f' line := by
  unfold dividingLine
  rw [(hf.filter _).length_eq, sort_order hf, hf.length_eq]

theorem special_other {d d' : DataArg ℝ} {x x' : SArgs} (hd : SameItems d d') (hr : SameItems x.right_censored x'.right_censored)
    (hx : x' = { x with right_censored := x'.right_censored }) :
    SameCall { failures := d, right_censored := x.right_censored, CI := x.CI }
      { failures := d', right_censored := x'.right_censored, CI := x'.CI } := by
  refine ⟨hd, hr, ?_⟩
  have : x'.CI = x.CI := by rw [hx]
  rw [this]

/-- Fit_Weibull_Mixture. -/
theorem C176_mixture (J : FunctionCI.Jac) (kde : List ℝ → ℝ) (hk : ∀ f f' : List ℝ, f ~ f' → kde f = kde f')
    (num2 : List ℝ → List ℝ → Option ℝ → Num2) (hn : DataOnly num2) (minimize : Minimizer (Fin 5 → ℝ)) {d d' : DataArg ℝ}
    {x x' : SArgs} (hd : SameItems d d') (hr : SameItems x.right_censored x'.right_censored)
    (hx : x' = { x with right_censored := x'.right_censored })
    (h : NoChoice argsort argsort' (timesIn d) (timesIn x.right_censored)) :
    fitMixture argsort J kde num2 minimize d x = fitMixture argsort' J kde num2 minimize d' x' := by
  have ho : x'.optimizer = x.optimizer := by rw [hx]
  unfold fitMixture
  rw [ho]
  refine check_order (special_other hd hr hx) _ _ _ _ _ _ _ _ fun i i' hf hc sf sc hr => ?_
  have h := h.sub sf sc
  obtain ⟨f, c, CI, met, opt, q, fb, fs, ct⟩ := i
  obtain ⟨f', c', CI', met', opt', q', fb', fs', ct'⟩ := i'
  simp only [Checked.mk.injEq, true_and] at hr
  obtain ⟨rfl, rfl, rfl, rfl, rfl, rfl, rfl⟩ := hr
  dsimp only at hf hc h
  have hL : ∀ a b a' b' p, mixture_LL a b a' b' p f c = mixture_LL a b a' b' p f' c' := fun _ _ _ _ _ => LL_order hf hc _ _
  have hb : ∀ line l l', l ~ l' → below line l ~ below line l' := fun _ _ _ h => h.filter _
  have hnb : ∀ line l l', l ~ l' → notBelow line l ~ notBelow line l' := fun _ _ _ h => h.filter _
  have hw : ∀ line o, fitWeibull2P argsort J (num2 (below line f) (below line c))
        { failures := .array (below line f), right_censored := .array (below line c), optimizer := o } =
      fitWeibull2P argsort' J (num2 (below line f') (below line c'))
        { failures := .array (below line f'), right_censored := .array (below line c'), optimizer := o } := fun line o => by
    rw [hn _ _ _ _ (hb line _ _ hf) (hb line _ _ hc)]
    exact (C176_two_parameter J _ ⟨.reordered (hb line _ _ hf), .reordered (hb line _ _ hc), rfl⟩
      (h.sub (fun _ h => (mem_filter.1 h).1) (fun _ h => (mem_filter.1 h).1))).1
  have hw' : ∀ line o, fitWeibull2P argsort J (num2 (notBelow line f) (notBelow line c))
        { failures := .array (notBelow line f), right_censored := .array (notBelow line c), optimizer := o } =
      fitWeibull2P argsort' J (num2 (notBelow line f') (notBelow line c'))
        { failures := .array (notBelow line f'), right_censored := .array (notBelow line c'), optimizer := o } := fun line o => by
    rw [hn _ _ _ _ (hnb line _ _ hf) (hnb line _ _ hc)]
    exact (C176_two_parameter J _ ⟨.reordered (hnb line _ _ hf), .reordered (hnb line _ _ hc), rfl⟩
      (h.sub (fun _ h => (mem_filter.1 h).1) (fun _ h => (mem_filter.1 h).1))).1
  have l1 : ∀ line, (below line f).length = (below line f').length := fun line => (hb line _ _ hf).length_eq
  have l2 : ∀ line, (below line c).length = (below line c').length := fun line => (hb line _ _ hc).length_eq
  simp only [hk _ _ hf, dividingLine_order hf, hw, hw', l1, l2, hL, boundsOf_order hf hc, gof_order h hf hc, hf.length_eq,
    hc.length_eq]

/-- Fit_Weibull_CR. -/
theorem C176_competing_risks (J : FunctionCI.Jac) (kde : List ℝ → ℝ) (hk : ∀ f f' : List ℝ, f ~ f' → kde f = kde f')
    (num2 : List ℝ → List ℝ → Option ℝ → Num2) (hn : DataOnly num2) (minimize : Minimizer (Fin 4 → ℝ)) {d d' : DataArg ℝ}
    {x x' : SArgs} (hd : SameItems d d') (hr : SameItems x.right_censored x'.right_censored)
    (hx : x' = { x with right_censored := x'.right_censored })
    (h : NoChoice argsort argsort' (timesIn d) (timesIn x.right_censored)) :
    fitCR argsort J kde num2 minimize d x = fitCR argsort' J kde num2 minimize d' x' := by
  have ho : x'.optimizer = x.optimizer := by rw [hx]
  unfold fitCR
  rw [ho]
  refine check_order (special_other hd hr hx) _ _ _ _ _ _ _ _ fun i i' hf hc sf sc hr => ?_
  have h := h.sub sf sc
  obtain ⟨f, c, CI, met, opt, q, fb, fs, ct⟩ := i
  obtain ⟨f', c', CI', met', opt', q', fb', fs', ct'⟩ := i'
  simp only [Checked.mk.injEq, true_and] at hr
  obtain ⟨rfl, rfl, rfl, rfl, rfl, rfl, rfl⟩ := hr
  dsimp only at hf hc h
  have hL : ∀ a b a' b', CR_LL a b a' b' f c = CR_LL a b a' b' f' c' := fun _ _ _ _ => LL_order hf hc _ _
  have hb : ∀ line l l', l ~ l' → below line l ~ below line l' := fun _ _ _ h => h.filter _
  have hnb : ∀ line l l', l ~ l' → notBelow line l ~ notBelow line l' := fun _ _ _ h => h.filter _
  have hw : ∀ line, fitWeibull2P argsort J (num2 (below line f) (below line c))
        { failures := .array (below line f), right_censored := .array (below line c) } =
      fitWeibull2P argsort' J (num2 (below line f') (below line c'))
        { failures := .array (below line f'), right_censored := .array (below line c') } := fun line => by
    rw [hn _ _ _ _ (hb line _ _ hf) (hb line _ _ hc)]
    exact (C176_two_parameter J _ ⟨.reordered (hb line _ _ hf), .reordered (hb line _ _ hc), rfl⟩
      (h.sub (fun _ h => (mem_filter.1 h).1) (fun _ h => (mem_filter.1 h).1))).1
  have hw' : ∀ line, fitWeibull2P argsort J (num2 (notBelow line f) (notBelow line c))
        { failures := .array (notBelow line f), right_censored := .array (notBelow line c) } =
      fitWeibull2P argsort' J (num2 (notBelow line f') (notBelow line c'))
        { failures := .array (notBelow line f'), right_censored := .array (notBelow line c') } := fun line => by
    rw [hn _ _ _ _ (hnb line _ _ hf) (hnb line _ _ hc)]
    exact (C176_two_parameter J _ ⟨.reordered (hnb line _ _ hf), .reordered (hnb line _ _ hc), rfl⟩
      (h.sub (fun _ h => (mem_filter.1 h).1) (fun _ h => (mem_filter.1 h).1))).1
  simp only [hk _ _ hf, dividingLine_order hf, hw, hw', hL, boundsOf_order hf hc, gof_order h hf hc, hf.length_eq,
    hc.length_eq]

theorem gofZI_order {f f' c c' : List ℝ} (h : NoChoice argsort argsort' f c) (hf : f ~ f') (hc : c ~ c')
    (m : Combined.DSZI) (k : ℕ) (L : ℝ) : gofZI argsort m f c k L = gofZI argsort' m f' c' k L := by
  unfold gofZI
  rw [plottingPositions_order h hf hc, hf.length_eq, hc.length_eq]

/-- Fit_Weibull_DS. -/
theorem C176_defective (J : FunctionCI.Jac) (num2 : List ℝ → List ℝ → Option ℝ → Num2) (hn : DataOnly num2)
    (minimize : Minimizer (Fin 3 → ℝ)) {d d' : DataArg ℝ} {x x' : SArgs} (hd : SameItems d d')
    (hr : SameItems x.right_censored x'.right_censored) (hx : x' = { x with right_censored := x'.right_censored })
    (h : NoChoice argsort argsort' (timesIn d) (timesIn x.right_censored)) :
    fitDS argsort J num2 minimize d x = fitDS argsort' J num2 minimize d' x' := by
  have ho : x'.optimizer = x.optimizer := by rw [hx]
  unfold fitDS
  rw [ho]
  refine check_order (special_other hd hr hx) _ _ _ _ _ _ _ _ fun i i' hf hc sf sc hr => ?_
  have h := h.sub sf sc
  obtain ⟨f, c, CI, met, opt, q, fb, fs, ct⟩ := i
  obtain ⟨f', c', CI', met', opt', q', fb', fs', ct'⟩ := i'
  simp only [Checked.mk.injEq, true_and] at hr
  obtain ⟨rfl, rfl, rfl, rfl, rfl, rfl, rfl⟩ := hr
  dsimp only at hf hc h
  have hL : ∀ a b e, DS_LL a b e f c = DS_LL a b e f' c' := fun _ _ _ => LL_order hf hc _ _
  have hw : ∀ o, fitWeibull2P argsort J (num2 f []) { failures := .array f, optimizer := o } =
      fitWeibull2P argsort' J (num2 f' []) { failures := .array f', optimizer := o } := fun o => by
    rw [hn _ _ _ _ hf (Perm.refl [])]
    have h0 : NoChoice argsort argsort' f [] := h.sub (fun _ h => h) (fun _ h => absurd h not_mem_nil)
    exact (C176_two_parameter J _ (x := { failures := .array f, optimizer := o }) (x' := { failures := .array f', optimizer := o })
      ⟨.reordered hf, .same _, rfl⟩ h0).1
  simp only [hw, hL, plottingPositions_order h hf hc, boundsOf_order hf hc, gof_order h hf hc, hf.length_eq, hc.length_eq]

/-- Fit_Weibull_DSZI. -/
theorem C176_defective_inflated (J : FunctionCI.Jac) (num2 : List ℝ → List ℝ → Option ℝ → Num2) (hn : DataOnly num2)
    (minimize : Minimizer (Fin 4 → ℝ)) {F F' : List ℝ} {x x' : SArgs} (hF : F ~ F')
    (hr : SameItems x.right_censored x'.right_censored) (hx : x' = { x with right_censored := x'.right_censored })
    (h : NoChoice argsort argsort' F (timesIn x.right_censored)) :
    fitDSZI argsort J num2 minimize F x = fitDSZI argsort' J num2 minimize F' x' := by
  have ho : x'.optimizer = x.optimizer := by rw [hx]
  unfold fitDSZI
  rw [ho]
  refine check_order (special_other (.reordered (hF.filter _)) hr hx) _ _ _ _ _ _ _ _ fun i i' hf hc sf sc hr => ?_
  have h' := h.sub (fun t ht => (mem_filter.1 (sf ht)).1) sc
  have hs := h.sub (fun _ h => h) sc
  obtain ⟨f, c, CI, met, opt, q, fb, fs, ct⟩ := i
  obtain ⟨f', c', CI', met', opt', q', fb', fs', ct'⟩ := i'
  simp only [Checked.mk.injEq, true_and] at hr
  obtain ⟨rfl, rfl, rfl, rfl, rfl, rfl, rfl⟩ := hr
  dsimp only at hf hc h' hs
  have hz : (F.filter fun t => decide (t = 0)).length = (F'.filter fun t => decide (t = 0)).length := (hF.filter _).length_eq
  have hL : ∀ a b e z, DSZI_LL a b e z (F.filter fun t => decide (t = 0)) f c =
      DSZI_LL a b e z (F'.filter fun t => decide (t = 0)) f' c' := fun a b e z => by
    unfold DSZI_LL
    rw [hz, (hf.map _).sum_eq, (hc.map _).sum_eq]
  have hw : ∀ o, fitWeibull2P argsort J (num2 f []) { failures := .array f, optimizer := o } =
      fitWeibull2P argsort' J (num2 f' []) { failures := .array f', optimizer := o } := fun o => by
    rw [hn _ _ _ _ hf (Perm.refl [])]
    have h0 : NoChoice argsort argsort' f [] := h'.sub (fun _ h => h) (fun _ h => absurd h not_mem_nil)
    exact (C176_two_parameter J _ (x := { failures := .array f, optimizer := o }) (x' := { failures := .array f', optimizer := o })
      ⟨.reordered hf, .same _, rfl⟩ h0).1
  simp only [hw, hL, hz, plottingPositions_order hs hF hc, boundsOf_order hF hc, gofZI_order hs hF hc, hF.length_eq,
    hc.length_eq]

/-- Fit_Weibull_ZI. -/
theorem C176_inflated (J : FunctionCI.Jac) (num2 : List ℝ → List ℝ → Option ℝ → Num2) (hn : DataOnly num2)
    (minimize : Minimizer (Fin 3 → ℝ)) {F F' : List ℝ} {x x' : SArgs} (hF : F ~ F')
    (hr : SameItems x.right_censored x'.right_censored) (hx : x' = { x with right_censored := x'.right_censored })
    (h : NoChoice argsort argsort' F (timesIn x.right_censored)) :
    fitZI argsort J num2 minimize F x = fitZI argsort' J num2 minimize F' x' := by
  have ho : x'.optimizer = x.optimizer := by rw [hx]
  unfold fitZI
  rw [ho]
  refine check_order (special_other (.reordered (hF.filter _)) hr hx) _ _ _ _ _ _ _ _ fun i i' hf hc sf sc hr => ?_
  have h' := h.sub (fun t ht => (mem_filter.1 (sf ht)).1) sc
  have hs := h.sub (fun _ h => h) sc
  obtain ⟨f, c, CI, met, opt, q, fb, fs, ct⟩ := i
  obtain ⟨f', c', CI', met', opt', q', fb', fs', ct'⟩ := i'
  simp only [Checked.mk.injEq, true_and] at hr
  obtain ⟨rfl, rfl, rfl, rfl, rfl, rfl, rfl⟩ := hr
  dsimp only at hf hc h' hs
  have hz : (F.filter fun t => decide (t = 0)).length = (F'.filter fun t => decide (t = 0)).length := (hF.filter _).length_eq
  have hL : ∀ a b z, ZI_LL a b z (F.filter fun t => decide (t = 0)) f c =
      ZI_LL a b z (F'.filter fun t => decide (t = 0)) f' c' := fun a b z => by
    unfold ZI_LL
    rw [hz, (hf.map _).sum_eq, (hc.map _).sum_eq]
  have hw : ∀ C o, fitWeibull2P argsort J (num2 f c) { failures := .array f, right_censored := .array c, CI := .float C, optimizer := o } =
      fitWeibull2P argsort' J (num2 f' c') { failures := .array f', right_censored := .array c', CI := .float C, optimizer := o } := fun C o => by
    rw [hn _ _ _ _ hf hc]
    exact (C176_two_parameter J _ ⟨.reordered hf, .reordered hc, rfl⟩ h').1
  simp only [hw, hL, hz, boundsOf_order hF hc, gofZI_order hs hF hc, hF.length_eq, hc.length_eq]

/-- `DataOnly` holds for example of routines that use the number of items. -/
example : DataOnly fun f c _ => ⟨⟨fun _ => (1, f.length), (1, c.length), fun _ _ _ g => ⟨true, g⟩⟩, fun _ _ _ g => ⟨true, g⟩⟩ := by
  intro f f' c c' hf hc
  simp only [hf.length_eq, hc.length_eq]

end Reliability.Props
