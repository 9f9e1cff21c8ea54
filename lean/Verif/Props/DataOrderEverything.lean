import Verif.Props.DataOrderSpecial
import Verif.Model.FitEverythingFull

/-! # C176, continued: Fit_Everything -/

namespace Reliability.Props

open Reliability List InputCheck Fitters FitGlue FitSpecial FitEverythingFull Spec

theorem individual_order (A : Answers) (hk : ∀ f f' : List ℝ, f ~ f' → A.kde f = A.kde f') (hn : DataOnly A.wPart)
    {f f' c c' : List ℝ} (hf : f ~ f') (hc : c ~ c') (h : NoChoice A.argsort A.argsort f c) (d : Fitters.Dist)
    (m o : StrArg) :
    individual A d (.array f) (.array c) m o = individual A d (.array f') (.array c') m o := by
  have hx : SameCall { failures := .array f, right_censored := .array c, method := m, optimizer := o }
    { failures := .array f', right_censored := .array c', method := m, optimizer := o } :=
    ⟨.reordered hf, .reordered hc, rfl⟩
  have h2 := fun num => C176_two_parameter A.J num hx h
  have h3 := fun num num2 => C176_three_parameter A.J num num2 hx h
  have hs : SameItems (SArgs.right_censored { right_censored := .array c, optimizer := o })
      (SArgs.right_censored { right_censored := .array c', optimizer := o }) := .reordered hc
  have hd : SameItems (.array f) (.array f') := .reordered hf
  unfold individual
  cases d <;> dsimp only
  · rw [(h2 _).1]
  · rw [(h3 _ _).1]
  · rw [C176_gamma2 A.J _ hx h]
  · rw [C176_gamma3 A.J _ _ hx h]
  · rw [(h2 _).2.2.1]
  · rw [(h3 _ _).2.1]
  · rw [C176_exponential1 A.J _ hx h]
  · rw [C176_exponential2 A.J _ hx h]
  · rw [(h2 _).2.1]
  · rw [(h2 _).2.2.2.1]
  · rw [(h2 _).2.2.2.2]
  · rw [(h3 _ _).2.2]
  · rw [C176_beta2 _ hx h]
  · rw [C176_mixture A.J _ hk _ hn _ hd hs rfl h]
  · rw [C176_competing_risks A.J _ hk _ hn _ hd hs rfl h]
  · rw [C176_defective A.J _ hn _ hd hs rfl h]

theorem fitAll_order (A : Answers) (hk : ∀ f f' : List ℝ, f ~ f' → A.kde f = A.kde f') (hn : DataOnly A.wPart)
    {f f' c c' : List ℝ} (hf : f ~ f') (hc : c ~ c') (h : NoChoice A.argsort A.argsort f c) (m o : StrArg)
    (l : List Fitters.Dist) : fitAll A f c m o l = fitAll A f' c' m o l := by
  induction l with
  | nil => rfl
  | cons d l ih =>
    unfold fitAll fitOne
    rw [ih, individual_order A hk hn hf hc h, sort_order (hf.append hc)]

/-- Fit_Everything: the table of all fits, the best of them and the excluded distributions. -/
theorem C176_everything (A : Answers) (hk : ∀ f f' : List ℝ, f ~ f' → A.kde f = A.kde f') (hn : DataOnly A.wPart)
    {x x' : FEArgs} (hf : SameItems x.failures x'.failures) (hc : SameItems x.right_censored x'.right_censored)
    (hx : x' = { x with failures := x'.failures, right_censored := x'.right_censored })
    (h : NoChoice A.argsort A.argsort (timesIn x.failures) (timesIn x.right_censored)) :
    FitEverythingFull.fitEverything A x = FitEverythingFull.fitEverything A x' := by
  have h1 : x'.method = x.method := by rw [hx]
  have h2 : x'.optimizer = x.optimizer := by rw [hx]
  have h3 : x'.exclude = x.exclude := by rw [hx]
  have h4 : x'.sort_by = x.sort_by := by rw [hx]
  unfold FitEverythingFull.fitEverything
  rw [h1, h2, h3, h4]
  refine check_order (x := { failures := x.failures, right_censored := x.right_censored })
    (x' := { failures := x'.failures, right_censored := x'.right_censored }) ⟨hf, hc, rfl⟩ _ _ _ _ _ _ _ _
    fun i i' hf hc sf sc hr => ?_
  have h := h.sub sf sc
  obtain ⟨f, c, CI, met, opt, q, fb, fs, ct⟩ := i
  obtain ⟨f', c', CI', met', opt', q', fb', fs', ct'⟩ := i'
  simp only [Checked.mk.injEq, true_and] at hr
  obtain ⟨rfl, rfl, rfl, rfl, rfl, rfl, rfl⟩ := hr
  dsimp only at hf hc h
  have he : excludedDists f.length (f ++ c) x.exclude = excludedDists f'.length (f' ++ c') x.exclude := by
    unfold excludedDists
    rw [hf.length_eq, max?_order (hf.append hc)]
  simp only [he, fitAll_order A hk hn hf hc h]

end Reliability.Props
