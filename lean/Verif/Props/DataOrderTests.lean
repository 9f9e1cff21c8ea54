import Verif.Props.DataOrderSpecial
import Verif.Model.Testing
import Verif.Model.ChiTest
import Verif.Model.ProbPlots

/-! # C179: goodness-of-fit tests and QQ and PP plots do not depend on the order of the data -/

namespace Reliability.Props

open Reliability List

/-- `KStest`. -/
theorem C179_KS (F : ℝ → ℝ) (kstwo : ℝ → ℕ → ℝ) (data data' : List ℝ) (significance : ℝ) (h : data ~ data') :
    Testing.ksTest F kstwo data significance = Testing.ksTest F kstwo data' significance := by
  unfold Testing.ksTest
  rw [sort_order h]

theorem counts_order {data data' : List ℝ} (h : data ~ data') (e : List ℝ) : ChiTest.counts data e = ChiTest.counts data' e := by
  induction e with
  | nil => rfl
  | cons a l ih =>
    match l, ih with
    | [], _ => rfl
    | [b], _ => unfold ChiTest.counts; rw [h.countP_eq]
    | b :: c :: l, ih => unfold ChiTest.counts; rw [h.countP_eq, ih]

/-- `chi2test`, with given edges and with those numpy chooses (from the items, whatever their order). -/
theorem C179_chi2 (chi2ppf : ℝ → ℕ → ℝ) (choose : String → List ℝ → Except Err (List ℝ))
    (hch : ∀ s (l l' : List ℝ), l ~ l' → choose s l = choose s l') (d : ChiTest.Dist) (data data' : List ℝ) (significance : ℝ)
    (bins : ChiTest.Bins) (h : data ~ data') :
    ChiTest.chi2test chi2ppf choose d data significance bins = ChiTest.chi2test chi2ppf choose d data' significance bins := by
  have hh : ∀ b, ChiTest.histogram choose data b = ChiTest.histogram choose data' b := by
    intro b
    unfold ChiTest.histogram
    simp only [hch _ _ _ h, counts_order h]
  have hn : data = [] ↔ data' = [] := by rw [← length_eq_zero_iff, h.length_eq, length_eq_zero_iff]
  have ha : (data.any fun x => decide (x < 0)) = data'.any fun x => decide (x < 0) := by
    rw [Bool.eq_iff_iff, any_eq_true, any_eq_true]
    simp only [h.mem_iff]
  unfold ChiTest.chi2test
  simp only [hh, hn, ha, h.length_eq]

/-- No right censored data in both calls, or the same in some order. -/
def SameOptional : Option (List ℝ) → Option (List ℝ) → Prop
  | none, none => True
  | some l, some l' => l ~ l'
  | _, _ => False

theorem map_sort_order {r r' : Option (List ℝ)} (h : SameOptional r r') : r.map Np.sort = r'.map Np.sort := by
  unfold SameOptional at h
  rcases r with _ | r <;> rcases r' with _ | r'
  · rfl
  · exact h.elim
  · exact h.elim
  · exact congrArg some (sort_order h)

/-- `QQ_plot_semiparametric`: the points, their order, and the fitted lines, whatever the method; items censored at the time of a
failure make no difference here, because the plot sorts the data before the estimators see them. -/
theorem C179_QQ (np : ProbPlots.Numerics) (polyfit : List ℝ → List ℝ → ℝ × ℝ) (lstsq : List ℝ → List ℝ → ℝ)
    (f f' : List ℝ) (r r' : Option (List ℝ)) (Y : Option Distributions.Dist) (method : String) (a : Option ℝ) (downsample : Utils.Factor)
    (hf : f ~ f') (hr : SameOptional r r') :
    ProbPlots.qqSemiparametric np polyfit lstsq (some f) r Y method a downsample =
      ProbPlots.qqSemiparametric np polyfit lstsq (some f') r' Y method a downsample := by
  unfold ProbPlots.qqSemiparametric
  cases Y with
  | none => rfl
  | some Y => simp only [sort_order hf, map_sort_order hr]

/-- `PP_plot_semiparametric`, likewise. -/
theorem C179_PP (np : ProbPlots.Numerics) (f f' : List ℝ) (r r' : Option (List ℝ)) (Y : Option Distributions.Dist) (method : String)
    (a : Option ℝ) (downsample : Utils.Factor) (hf : f ~ f') (hr : SameOptional r r') :
    ProbPlots.ppSemiparametric np (some f) r Y method a downsample =
      ProbPlots.ppSemiparametric np (some f') r' Y method a downsample := by
  unfold ProbPlots.ppSemiparametric
  cases Y with
  | none => rfl
  | some Y => simp only [sort_order hf, map_sort_order hr]

/-- The hypotheses hold of data in two orders, and of the rule for the edges that takes the smallest and the largest item. -/
example : ([5, 3, 9, 3] : List ℝ) ~ [3, 3, 5, 9] ∧ ([5, 3, 9, 3] : List ℝ) ≠ [3, 3, 5, 9] ∧ SameOptional (some [3, 7]) (some [7, 3]) ∧
    ∀ (_s : String) (l l' : List ℝ), l ~ l' →
      (Except.ok [l.min?.getD 0, l.max?.getD 1] : Except Err (List ℝ)) = .ok [l'.min?.getD 0, l'.max?.getD 1] := by
  refine ⟨?_, by norm_num, .swap _ _ _, fun _ l l' h => by rw [min?_order h, max?_order h]⟩
  exact (Perm.swap 3 5 [9, 3]).trans (.cons _ (((Perm.swap 3 9 []).cons 5).trans (.swap 3 5 [9])))

end Reliability.Props
