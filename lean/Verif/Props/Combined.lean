import Mathlib.Algebra.Order.BigOperators.GroupWithZero.List
import Mathlib.Algebra.Order.BigOperators.Group.List
import Mathlib.Analysis.Calculus.Deriv.Mul
import Mathlib.Tactic.LinearCombination
import Verif.Model.Combined
import Verif.Props.Distributions

/-!
# Properties of the combined models (C37–C39)
-/

namespace Reliability.Props.Combined

open Reliability Reliability.Distributions Reliability.Combined Spec Filter Topology
open Reliability.Props.Distributions

/-! ## Specification: the value a component has at one x -/

/-- Distributions that live on the positive half line: all but Normal and Gumbel. -/
def Half (d : Dist) : Prop := d.fam ≠ .normal ∧ d.fam ≠ .gumbel

theorem half_iff {d : Dist} : twoSided d = false ↔ Half d := by simp [twoSided, Half]

theorem Half.two {d : Dist} (h : Half d) : twoSided d = false := half_iff.2 h

/-- A component's survival probability at `x`; the positive families are certain to survive before time 0. -/
noncomputable def sfValue (d : Dist) (x : ℝ) : ℝ := if twoSided d ∨ 0 ≤ x then d.sp.sf x else 1

/-- A component's failure probability at `x`. -/
noncomputable def cdfValue (d : Dist) (x : ℝ) : ℝ := if twoSided d ∨ 0 ≤ x then d.sp.cdf x else 0

/-- A component's density at `x`. -/
noncomputable def pdfValue (d : Dist) (x : ℝ) : ℝ := if twoSided d ∨ 0 ≤ x then d.sp.pdf x else 0

/-- What `HF` of a component gives at an `x` it accepts: 0 up to a positive location shift. -/
noncomputable def hfOwn (d : Dist) (x : ℝ) : ℝ :=
  match d.zeroAt with
  | some g => if 0 < g ∧ x ≤ g then 0 else d.hf x
  | none => d.hf x

/-- A component's hazard at `x`. -/
noncomputable def hfValue (d : Dist) (x : ℝ) : ℝ := if twoSided d ∨ 0 ≤ x then hfOwn d x else 0

/-- A component as created by the library: a survival law, without mass before 0 unless Normal or Gumbel. -/
structure Proper (d : Dist) : Prop where
  law : SurvivalLaw d.sp.cdf d.sp.sf
  pos : Half d → ∀ x < 0, d.sp.sf x = 1

theorem Proper.sfValue {d : Dist} (h : Proper d) (x : ℝ) : sfValue d x = d.sp.sf x := by
  simp only [Combined.sfValue]
  by_cases hx : twoSided d ∨ 0 ≤ x
  · rw [if_pos hx]
  · rw [if_neg hx]
    rw [not_or] at hx
    exact (h.pos (half_iff.1 (by simpa using hx.1)) x (not_le.1 hx.2)).symm

theorem Proper.cdfValue {d : Dist} (h : Proper d) (x : ℝ) : cdfValue d x = d.sp.cdf x := by
  simp only [Combined.cdfValue]
  by_cases hx : twoSided d ∨ 0 ≤ x
  · rw [if_pos hx]
  · rw [if_neg hx]
    rw [not_or] at hx
    have h1 := h.pos (half_iff.1 (by simpa using hx.1)) x (not_le.1 hx.2)
    have := h.law.compl x
    linarith

theorem proper_weibull (a b g : ℝ) (ha : 0 < a) (hb : 0 < b) (hg : 0 ≤ g) : Proper (weibull a b g) :=
  ⟨(C33_weibull a b g ha hb).1, fun _ x hx => ((C33_weibull a b g ha hb).2 x (by linarith)).2⟩

theorem proper_exponential (l g : ℝ) (hl : 0 < l) (hg : 0 ≤ g) : Proper (exponential l g) :=
  ⟨(C33_exponential l g hl).1, fun _ x hx => ((C33_exponential l g hl).2 x (by linarith)).2⟩

theorem proper_normal (m s : ℝ) (hs : 0 < s) : Proper (normal m s) :=
  ⟨C33_normal m s hs, fun h => by simp [Half, normal, ofScipy] at h⟩

/-! ## Lemmas on the accumulation loop -/

theorem collect_ok {α : Type} {f : α → Except Err (List ℝ)} : ∀ {as : List α} {Ys : List (List ℝ)},
    collect f as = .ok Ys → ∀ g : α → List ℝ, (∀ a ∈ as, ∀ Y, f a = .ok Y → Y = g a) → Ys = as.map g := by
  intro as
  induction as with
  | nil => intro Ys h g _; simp only [collect, Except.ok.injEq] at h; simp [← h]
  | cons a as ih =>
    intro Ys h g hg
    simp only [collect] at h
    cases hf : f a with
    | error e => simp [hf] at h
    | ok Y =>
      cases hc : collect f as with
      | error e => simp [hf, hc] at h
      | ok Ys' =>
        simp only [hf, hc, Except.ok.injEq] at h
        rw [← h, List.map_cons, ← hg a (by simp) Y hf,
          ih hc g (fun b hb => hg b (by simp [hb]))]

theorem collect_isOk {α : Type} (f : α → Except Err (List ℝ)) (herr : ∀ a e, f a = .error e → e = .valueError) :
    ∀ as : List α, ((∀ a ∈ as, ∃ Y, f a = .ok Y) ∧ ∃ Ys, collect f as = .ok Ys) ∨
      ((∃ a ∈ as, f a = valueErr) ∧ collect f as = valueErr) := by
  intro as
  induction as with
  | nil => left; simp [collect]
  | cons a as ih =>
    cases hf : f a with
    | error e =>
      right
      have := herr a e hf; subst this
      exact ⟨⟨a, by simp, hf⟩, by simp [collect, hf, valueErr]⟩
    | ok Y =>
      rcases ih with ⟨h1, Ys, h2⟩ | ⟨⟨b, hb, hb'⟩, h2⟩
      · left
        refine ⟨?_, Y :: Ys, by simp [collect, hf, h2]⟩
        intro b hb
        rcases List.mem_cons.1 hb with rfl | hb
        · exact ⟨Y, hf⟩
        · exact h1 b hb
      · right
        exact ⟨⟨b, by simp [hb], hb'⟩, by simp [collect, hf, h2, valueErr]⟩

theorem zipWith_map_map {ι : Type} (op : ℝ → ℝ → ℝ) (a b : ι → ℝ) (I : List ι) :
    List.zipWith op (I.map a) (I.map b) = I.map fun i => op (a i) (b i) := by
  induction I with
  | nil => rfl
  | cons i I ih => simp [ih]

theorem foldl_zipWith {ι α : Type} (op : ℝ → ℝ → ℝ) (I : List ι) (g : α → ι → ℝ) : ∀ (as : List α) (a : ι → ℝ),
    (as.map fun x => I.map (g x)).foldl (List.zipWith op) (I.map a) =
      I.map fun i => (as.map fun x => g x i).foldl op (a i) := by
  intro as
  induction as with
  | nil => intro a; simp
  | cons x as ih =>
    intro a
    simp only [List.map_cons, List.foldl_cons]
    rw [zipWith_map_map, ih]

theorem foldl_mul (l : List ℝ) (c : ℝ) : l.foldl (· * ·) c = c * l.prod := by
  induction l generalizing c with
  | nil => simp
  | cons x l ih => rw [List.foldl_cons, ih, List.prod_cons, mul_assoc]

theorem foldl_add (l : List ℝ) (c : ℝ) : l.foldl (· + ·) c = c + l.sum := by
  induction l generalizing c with
  | nil => simp
  | cons x l ih => rw [List.foldl_cons, ih, List.sum_cons, add_assoc]

/-! ## Splitting at zero -/

theorem split_sorted {X : List ℝ} (hX : X.Pairwise (· ≤ ·)) :
    (X.filter fun x => decide (x < 0)) ++ (X.filter fun x => decide (0 ≤ x)) = X := by
  induction X with
  | nil => rfl
  | cons x X ih =>
    rw [List.pairwise_cons] at hX
    rcases lt_or_ge x 0 with h | h
    · rw [List.filter_cons_of_pos (by simpa using h), List.filter_cons_of_neg (by simpa using h),
        List.cons_append, ih hX.2]
    · have h1 : (X.filter fun x => decide (x < 0)) = [] := by
        rw [List.filter_eq_nil_iff]
        intro y hy
        have := hX.1 y hy
        simp only [decide_eq_true_eq, not_lt]; linarith
      have h2 : (X.filter fun x => decide (0 ≤ x)) = X := by
        rw [List.filter_eq_self]
        intro y hy
        have := hX.1 y hy
        simp only [decide_eq_true_eq]; linarith
      rw [List.filter_cons_of_neg (by simpa using h), List.filter_cons_of_pos (by simpa using h), h1, h2]
      rfl

theorem hstack_sorted {X : List ℝ} (hX : X.Pairwise (· ≤ ·)) (neg : ℝ) (g : ℝ → ℝ) :
    (X.filter fun x => decide (x < 0)).map (fun _ => neg) ++ (X.filter fun x => decide (0 ≤ x)).map g =
      X.map fun x => if 0 ≤ x then g x else neg := by
  conv_rhs => rw [← split_sorted hX, List.map_append]
  congr 1
  · refine List.map_congr_left fun x hx => ?_
    have := (List.mem_filter.1 hx).2
    simp only [decide_eq_true_eq] at this
    rw [if_neg (not_le.2 this)]
  · refine List.map_congr_left fun x hx => ?_
    have := (List.mem_filter.1 hx).2
    simp only [decide_eq_true_eq] at this
    rw [if_pos this]

theorem HF_sorted {d : Dist} {X Y : List ℝ} (hX : X.Pairwise (· ≤ ·)) (h : HF d X = .ok Y) :
    Y = X.map (hfOwn d) := by
  simp only [HF] at h
  cases hc : checkX d.fam X with
  | error e => simp [hc] at h
  | ok u =>
    simp only [hc, Except.ok.injEq] at h
    subst h
    cases hz : d.zeroAt with
    | none =>
      dsimp only
      refine List.map_congr_left fun x _ => ?_
      simp only [hfOwn, hz]
    | some g =>
      dsimp only
      apply List.ext_getElem?
      intro i
      cases hx : X[i]? with
      | none =>
        have hlen : X.length ≤ i := List.getElem?_eq_none_iff.1 hx
        rw [List.getElem?_eq_none, List.getElem?_eq_none]
        · simpa using hlen
        · simp only [zeroise]
          by_cases hg : g > 0
          · rw [if_pos hg]
            cases X.findIdx? (fun x => decide (g < x)) <;> simpa using hlen
          · rw [if_neg hg]; simpa using hlen
      | some x =>
        rw [zeroise_get X _ g hX (by simp) i x (d.hf x) hx (by simp [hx]), List.getElem?_map, hx]
        simp only [hfOwn, hz, Option.map_some]

theorem filter_sorted {X : List ℝ} (hX : X.Pairwise (· ≤ ·)) (p : ℝ → Bool) :
    (X.filter p).Pairwise (· ≤ ·) := hX.filter p

theorem contribution_sf {d : Dist} {X Y : List ℝ} (hX : X.Pairwise (· ≤ ·))
    (h : contribution SF 1 X d = .ok Y) : Y = X.map (sfValue d) := by
  simp only [contribution] at h
  by_cases ht : twoSided d
  · rw [if_pos ht] at h
    simp only [SF] at h
    cases hc : checkX d.fam X with
    | error e => simp [hc] at h
    | ok u =>
      simp only [hc, Except.ok.injEq] at h
      rw [← h]
      exact List.map_congr_left fun x _ => by simp [sfValue, ht]
  · rw [if_neg ht] at h
    simp only [SF] at h
    cases hc : checkX d.fam (X.filter fun x => decide (0 ≤ x)) with
    | error e => simp [hc] at h
    | ok u =>
      simp only [hc, Except.ok.injEq] at h
      rw [← h, hstack_sorted hX]
      exact List.map_congr_left fun x _ => by simp [sfValue, ht]

theorem contribution_hf {d : Dist} {X Y : List ℝ} (hX : X.Pairwise (· ≤ ·))
    (h : contribution HF 0 X d = .ok Y) : Y = X.map (hfValue d) := by
  simp only [contribution] at h
  by_cases ht : twoSided d
  · rw [if_pos ht] at h
    rw [HF_sorted hX h]
    exact List.map_congr_left fun x _ => by simp [hfValue, ht]
  · rw [if_neg ht] at h
    cases hc : HF d (X.filter fun x => decide (0 ≤ x)) with
    | error e => simp [hc] at h
    | ok Z =>
      simp only [hc, Except.ok.injEq] at h
      rw [← h, HF_sorted (filter_sorted hX _) hc, hstack_sorted hX]
      exact List.map_congr_left fun x _ => by simp [hfValue, ht]

theorem competing_sorted {ds : List Dist} {X : List ℝ} {A : Arrays} (hX : X.Pairwise (· ≤ ·))
    (h : competing ds X = .ok A) :
    A.sf = X.map (fun x => (ds.map fun d => sfValue d x).prod) ∧
    A.hf = X.map (fun x => (ds.map fun d => hfValue d x).sum) ∧
    A.pdf = X.map (fun x => (ds.map fun d => sfValue d x).prod * (ds.map fun d => hfValue d x).sum) ∧
    A.cdf = X.map (fun x => 1 - (ds.map fun d => sfValue d x).prod) ∧
    A.chf = X.map (fun x => -Real.log (ds.map fun d => sfValue d x).prod) := by
  simp only [competing] at h
  cases hn : checkNeg ds X with
  | error e => simp [hn] at h
  | ok u =>
    cases hs : collect (contribution SF 1 X) ds with
    | error e => simp [hn, hs] at h
    | ok ss =>
      cases hh : collect (contribution HF 0 X) ds with
      | error e => simp [hn, hs, hh] at h
      | ok hs' =>
        simp only [hn, hs, hh, Except.ok.injEq] at h
        have e1 := collect_ok hs (fun d => X.map (sfValue d)) (fun d _ Y hY => contribution_sf hX hY)
        have e2 := collect_ok hh (fun d => X.map (hfValue d)) (fun d _ Y hY => contribution_hf hX hY)
        rw [e1, e2, foldl_zipWith, foldl_zipWith] at h
        simp only [foldl_mul, foldl_add, one_mul, zero_add] at h
        rw [← h]
        refine ⟨rfl, rfl, ?_, ?_, ?_⟩
        · dsimp only; rw [zipWith_map_map]
        · simp
        · simp

/-! ## C37: competing risks -/

theorem prod_le_mem {l : List ℝ} (h : ∀ y ∈ l, 0 ≤ y ∧ y ≤ 1) : (0 ≤ l.prod ∧ l.prod ≤ 1) ∧ ∀ y ∈ l, l.prod ≤ y := by
  induction l with
  | nil => simp
  | cons a l ih =>
    obtain ⟨⟨h0, h1⟩, h2⟩ := ih fun y hy => h y (by simp [hy])
    obtain ⟨a0, a1⟩ := h a (by simp)
    rw [List.prod_cons]
    refine ⟨⟨mul_nonneg a0 h0, mul_le_one₀ a1 h0 h1⟩, fun y hy => ?_⟩
    rcases List.mem_cons.1 hy with rfl | hy
    · exact mul_le_of_le_one_right a0 h1
    · exact (mul_le_of_le_one_left h0 a1).trans (h2 y hy)

/-- **C37 (SF, CDF).** At every xval the survival probability is the product of the components' survival
probabilities, CDF = 1 - SF, CHF = -ln SF, and the model fails at least as early as every component. -/
theorem C37_sf_product (ds : List Dist) (hd : ∀ d ∈ ds, Proper d) (X : List ℝ) (hX : X.Pairwise (· ≤ ·))
    (A : Arrays) (h : competing ds X = .ok A) (i : ℕ) (x : ℝ) (hx : X[i]? = some x) :
    A.sf[i]? = some (ds.map fun d => d.sp.sf x).prod ∧
    A.cdf[i]? = some (1 - (ds.map fun d => d.sp.sf x).prod) ∧
    A.chf[i]? = some (-Real.log (ds.map fun d => d.sp.sf x).prod) ∧
    (∀ d ∈ ds, (ds.map fun d => d.sp.sf x).prod ≤ d.sp.sf x ∧
      d.sp.cdf x ≤ 1 - (ds.map fun d => d.sp.sf x).prod) ∧
    0 ≤ (ds.map fun d => d.sp.sf x).prod ∧ (ds.map fun d => d.sp.sf x).prod ≤ 1 := by
  obtain ⟨e1, _, _, e4, e5⟩ := competing_sorted hX h
  have e : (ds.map fun d => sfValue d x) = ds.map fun d => d.sp.sf x :=
    List.map_congr_left fun d hd' => (hd d hd').sfValue x
  have hr : ∀ y ∈ ds.map fun d => d.sp.sf x, 0 ≤ y ∧ y ≤ 1 := by
    intro y hy
    obtain ⟨d, hd', rfl⟩ := List.mem_map.1 hy
    have h1 := (hd d hd').law.range x
    have h2 := (hd d hd').law.compl x
    constructor <;> linarith
  obtain ⟨⟨p0, p1⟩, pm⟩ := prod_le_mem hr
  refine ⟨by rw [e1, List.getElem?_map, hx, Option.map_some, e],
    by rw [e4, List.getElem?_map, hx, Option.map_some, e],
    by rw [e5, List.getElem?_map, hx, Option.map_some, e], fun d hd' => ?_, p0, p1⟩
  have h1 := pm _ (List.mem_map_of_mem hd')
  have h2 := (hd d hd').law.compl x
  exact ⟨h1, by linarith⟩

theorem competing_deriv {ds : List Dist} {x : ℝ} {h : Dist → ℝ}
    (hS : ∀ d ∈ ds, HasDerivAt d.sp.sf (-(h d * d.sp.sf x)) x) :
    HasDerivAt (fun x => (ds.map fun d => d.sp.sf x).prod)
      (-((ds.map h).sum * (ds.map fun d => d.sp.sf x).prod)) x := by
  induction ds with
  | nil => simpa using hasDerivAt_const x (1 : ℝ)
  | cons d ds ih =>
    have h1 := hS d (by simp)
    have h2 := ih fun d' hd' => hS d' (by simp [hd'])
    simp only [List.map_cons, List.prod_cons, List.sum_cons]
    refine (h1.mul h2).congr_deriv ?_
    ring

theorem log_prod {l : List ℝ} (h : ∀ y ∈ l, 0 < y) : 0 < l.prod ∧ Real.log l.prod = (l.map Real.log).sum := by
  induction l with
  | nil => simp
  | cons a l ih =>
    obtain ⟨h1, h2⟩ := ih fun y hy => h y (by simp [hy])
    have ha := h a (by simp)
    exact ⟨by rw [List.prod_cons]; exact mul_pos ha h1,
      by rw [List.prod_cons, List.map_cons, List.sum_cons, Real.log_mul ha.ne' h1.ne', h2]⟩

/-- **C37 (HF, PDF, CHF).** Where the xval is inside every component's support, HF is the sum of the components'
PDF/SF, CHF is the sum of their cumulative hazards, PDF = HF·SF, and the PDF is the derivative of the model's
own CDF. -/
theorem C37_hazard_sum (ds : List Dist) (hd : ∀ d ∈ ds, Proper d) (D : Dist → Set ℝ)
    (haz : ∀ d ∈ ds, HazardLaw (D d) d.sp.pdf d.sp.cdf d.sp.sf d.hf d.chf)
    (hz : ∀ d ∈ ds, ∀ g, d.zeroAt = some g → D d = Set.Ioi g)
    (X : List ℝ) (hX : X.Pairwise (· ≤ ·)) (A : Arrays) (h : competing ds X = .ok A) (i : ℕ) (x : ℝ)
    (hx : X[i]? = some x) (hpos : ∀ d ∈ ds, Half d → 0 ≤ x) (hD : ∀ d ∈ ds, x ∈ D d) :
    A.hf[i]? = some (ds.map fun d => d.sp.pdf x / d.sp.sf x).sum ∧
    A.chf[i]? = some (ds.map fun d => d.chf x).sum ∧
    (∀ s, A.sf[i]? = some s → 0 < s ∧
      A.pdf[i]? = some ((ds.map fun d => d.sp.pdf x / d.sp.sf x).sum * s)) ∧
    ∀ p, A.pdf[i]? = some p →
      HasDerivAt (fun y => 1 - (ds.map fun d => d.sp.sf y).prod) p x := by
  obtain ⟨e1, e2, e3, _, e5⟩ := competing_sorted hX h
  have es : (ds.map fun d => sfValue d x) = ds.map fun d => d.sp.sf x :=
    List.map_congr_left fun d hd' => (hd d hd').sfValue x
  have eh : (ds.map fun d => hfValue d x) = ds.map fun d => d.sp.pdf x / d.sp.sf x := by
    refine List.map_congr_left fun d hd' => ?_
    have hc : twoSided d ∨ 0 ≤ x := by
      by_cases ht : twoSided d
      · exact Or.inl ht
      · exact Or.inr (hpos d hd' (half_iff.1 (by simpa using ht)))
    rw [hfValue, if_pos hc, ← (haz d hd').hazard x (hD d hd')]
    cases hza : d.zeroAt with
    | none => simp only [hfOwn, hza]
    | some g =>
      simp only [hfOwn, hza]
      have := hD d hd'
      rw [hz d hd' g hza] at this
      rw [if_neg (fun hc => absurd hc.2 (not_le.2 this))]
  have hpp : ∀ y ∈ ds.map fun d => d.sp.sf x, 0 < y := by
    intro y hy
    obtain ⟨d, hd', rfl⟩ := List.mem_map.1 hy
    exact (haz d hd').sf_pos x (hD d hd')
  refine ⟨by rw [e2, List.getElem?_map, hx, Option.map_some, eh], ?_, ?_, ?_⟩
  · rw [e5, List.getElem?_map, hx, Option.map_some, es, (log_prod hpp).2, List.map_map]
    have hl : ds.map (Real.log ∘ fun d => d.sp.sf x) = (ds.map fun d => d.chf x).map fun y => -y := by
      rw [List.map_map]
      refine List.map_congr_left fun d hd' => ?_
      simp only [Function.comp]
      rw [← (haz d hd').cumhazard x (hD d hd'), Real.log_exp]
    have hneg : ∀ L : List ℝ, (L.map fun y => -y).sum = -L.sum := by
      intro L
      induction L with
      | nil => simp
      | cons a L ih => simp only [List.map_cons, List.sum_cons, ih]; ring
    rw [hl, hneg, neg_neg]
  · intro s hs
    rw [e1, List.getElem?_map, hx, Option.map_some, es, Option.some.injEq] at hs
    subst hs
    refine ⟨(log_prod hpp).1, ?_⟩
    rw [e3, List.getElem?_map, hx, Option.map_some, es, eh, mul_comm]
  · intro p hp
    rw [e3, List.getElem?_map, hx, Option.map_some, es, eh, Option.some.injEq] at hp
    subst hp
    have hS : ∀ d ∈ ds, HasDerivAt d.sp.sf (-(d.sp.pdf x / d.sp.sf x * d.sp.sf x)) x := by
      intro d hd'
      have hSe : d.sp.sf = fun y => 1 - d.sp.cdf y := by
        funext y; have := (hd d hd').law.compl y; linarith
      have h1 := ((haz d hd').density x (hD d hd')).const_sub 1
      rw [div_mul_cancel₀ _ ((haz d hd').sf_pos x (hD d hd')).ne']
      rw [hSe]; exact h1
    have := (competing_deriv (h := fun d => d.sp.pdf x / d.sp.sf x) hS).const_sub 1
    refine this.congr_deriv ?_
    ring

theorem checkX_error {fam : Fam} {X : List ℝ} {e : Err} (h : checkX fam X = .error e) : e = .valueError := by
  have := checkX_err fam X (by rw [h]; intro h'; cases h')
  rw [this, valueErr] at h
  cases h; rfl

theorem SF_error {d : Dist} {X : List ℝ} {e : Err} (h : SF d X = .error e) : e = .valueError := by
  simp only [SF] at h
  cases hc : checkX d.fam X with
  | error e' => simp only [hc, Except.error.injEq] at h; exact h ▸ checkX_error hc
  | ok u => simp [hc] at h

theorem HF_error {d : Dist} {X : List ℝ} {e : Err} (h : HF d X = .error e) : e = .valueError := by
  simp only [HF] at h
  cases hc : checkX d.fam X with
  | error e' => simp only [hc, Except.error.injEq] at h; exact h ▸ checkX_error hc
  | ok u => simp [hc] at h

theorem contribution_error {f : Dist → List ℝ → Except Err (List ℝ)}
    (hf : ∀ d X e, f d X = .error e → e = .valueError) (neg : ℝ) (X : List ℝ) (d : Dist) (e : Err)
    (h : contribution f neg X d = .error e) : e = .valueError := by
  simp only [contribution] at h
  by_cases ht : twoSided d
  · rw [if_pos ht] at h; exact hf _ _ _ h
  · rw [if_neg ht] at h
    cases hc : f d (X.filter fun x => decide (0 ≤ x)) with
    | error e' => simp only [hc, Except.error.injEq] at h; exact h ▸ hf _ _ _ hc
    | ok Y => simp [hc] at h

/-- the list a component contributes (`[]` if it raises) -/
noncomputable def contribVal (f : Dist → List ℝ → Except Err (List ℝ)) (neg : ℝ) (X : List ℝ) (d : Dist) : List ℝ :=
  match contribution f neg X d with | .ok Y => Y | .error _ => []

theorem collect_contrib {f : Dist → List ℝ → Except Err (List ℝ)} {neg : ℝ} {X : List ℝ} {ds : List Dist}
    {Ys : List (List ℝ)} (h : collect (contribution f neg X) ds = .ok Ys) :
    Ys = ds.map (contribVal f neg X) :=
  collect_ok h _ fun d _ Y hY => by simp only [contribVal, hY]

theorem foldl_perm {α : Type} (op : ℝ → ℝ → ℝ) (hc : ∀ a b c, op (op a b) c = op (op a c) b) (g : α → List ℝ)
    {as bs : List α} (hp : as.Perm bs) : ∀ init : List ℝ,
    (as.map g).foldl (List.zipWith op) init = (bs.map g).foldl (List.zipWith op) init := by
  have hzip : ∀ a b c : List ℝ, List.zipWith op (List.zipWith op a b) c =
      List.zipWith op (List.zipWith op a c) b := by
    intro a
    induction a with
    | nil => intro b c; simp
    | cons x a ih =>
      intro b c
      cases b with
      | nil => cases c <;> simp
      | cons y b =>
        cases c with
        | nil => simp
        | cons z c => simp [ih, hc x y z]
  intro init
  haveI : RightCommutative (List.zipWith op) := ⟨hzip⟩
  exact (hp.map g).foldl_eq init

theorem collect_perm {f : Dist → List ℝ → Except Err (List ℝ)}
    (hf : ∀ d X e, f d X = .error e → e = .valueError) (neg : ℝ) (X : List ℝ) {ds ds' : List Dist}
    (hp : ds.Perm ds') :
    (∃ Ys, collect (contribution f neg X) ds = .ok Ys) ∧ (∃ Ys, collect (contribution f neg X) ds' = .ok Ys) ∨
    collect (contribution f neg X) ds = valueErr ∧ collect (contribution f neg X) ds' = valueErr := by
  have herr : ∀ d e, contribution f neg X d = .error e → e = .valueError :=
    fun d e h => contribution_error hf neg X d e h
  rcases collect_isOk _ herr ds with ⟨h1, h2⟩ | ⟨⟨d, hd, hd'⟩, h2⟩ <;>
    rcases collect_isOk _ herr ds' with ⟨h1', h2'⟩ | ⟨⟨d', hd2, hd2'⟩, h2'⟩
  · exact Or.inl ⟨h2, h2'⟩
  · obtain ⟨Y, hY⟩ := h1 d' (hp.mem_iff.2 hd2)
    rw [hY, valueErr] at hd2'; cases hd2'
  · obtain ⟨Y, hY⟩ := h1' d (hp.mem_iff.1 hd)
    rw [hY, valueErr] at hd'; cases hd'
  · exact Or.inr ⟨h2, h2'⟩

/-- **C37 (order of components).** The model does not depend on the order in which the components are given,
for any xvals. -/
theorem C37_order (ds ds' : List Dist) (hp : ds.Perm ds') (X : List ℝ) : competing ds X = competing ds' X := by
  have hchk : checkNeg ds X = checkNeg ds' X := by
    simp only [checkNeg]
    have : ds.any twoSided = ds'.any twoSided := by
      rw [Bool.eq_iff_iff, List.any_eq_true, List.any_eq_true]
      exact ⟨fun ⟨d, h1, h2⟩ => ⟨d, hp.mem_iff.1 h1, h2⟩, fun ⟨d, h1, h2⟩ => ⟨d, hp.mem_iff.2 h1, h2⟩⟩
    rw [this]
  simp only [competing, hchk]
  cases checkNeg ds' X with
  | error e => rfl
  | ok u =>
    dsimp only
    rcases collect_perm (f := SF) (fun d X e h => SF_error h) 1 X hp with ⟨⟨s, hs⟩, ⟨s', hs'⟩⟩ | ⟨hs, hs'⟩ <;>
      rcases collect_perm (f := HF) (fun d X e h => HF_error h) 0 X hp with ⟨⟨k, hk⟩, ⟨k', hk'⟩⟩ | ⟨hk, hk'⟩
    · rw [hs, hs', hk, hk']
      dsimp only
      have e1 := collect_contrib hs
      have e2 := collect_contrib hs'
      have e3 := collect_contrib hk
      have e4 := collect_contrib hk'
      rw [e1, e2, e3, e4, foldl_perm (· * ·) (by intros; ring) _ hp, foldl_perm (· + ·) (by intros; ring) _ hp]
    · simp only [hs, hs', hk, hk', valueErr]
    · simp only [hs, hs', hk, hk', valueErr]
    · simp only [hs, hs', hk, hk', valueErr]

theorem SF_isOk (d : Dist) (X : List ℝ) : (∃ Y, SF d X = .ok Y) ↔ checkX d.fam X = .ok () := by
  simp only [SF]
  cases hc : checkX d.fam X with
  | error e => simp
  | ok u => simp

theorem HF_isOk (d : Dist) (X : List ℝ) : (∃ Y, HF d X = .ok Y) ↔ checkX d.fam X = .ok () := by
  simp only [HF]
  cases hc : checkX d.fam X with
  | error e => simp
  | ok u => simp

/-- Each component gets xvals it accepts. -/
def Accepts (ds : List Dist) (X : List ℝ) : Prop :=
  X ≠ [] ∧ ((∀ d ∈ ds, Half d) → ∀ x ∈ X, 0 ≤ x) ∧
  ∀ d ∈ ds, Half d → (∃ x ∈ X, 0 ≤ x) ∧ (d.fam = .beta → ∀ x ∈ X, x ≤ 1)

theorem checkNeg_ok (ds : List Dist) (X : List ℝ) : (checkNeg ds X = .ok () ∧ X ≠ [] ∧
      ((∀ d ∈ ds, Half d) → ∀ x ∈ X, 0 ≤ x)) ∨
    (checkNeg ds X = valueErr ∧ ¬ (X ≠ [] ∧ ((∀ d ∈ ds, Half d) → ∀ x ∈ X, 0 ≤ x))) := by
  simp only [← half_iff]
  simp only [checkNeg]
  cases hlo : X.min? with
  | none => rw [List.min?_eq_none_iff] at hlo; subst hlo; simp
  | some lo =>
    have hne : X ≠ [] := by rintro rfl; simp at hlo
    obtain ⟨lom, lob⟩ := (Np.min?_iff X lo).1 hlo
    dsimp only
    have hany : ds.any twoSided = false ↔ ∀ d ∈ ds, twoSided d = false := by simp
    by_cases h : lo < 0 ∧ ds.any twoSided = false
    · right
      rw [if_pos h]
      exact ⟨rfl, fun hc => absurd (hc.2 (hany.1 h.2) lo lom) (not_le.2 h.1)⟩
    · left
      rw [if_neg h]
      refine ⟨rfl, hne, fun ha x hx => ?_⟩
      by_contra hneg
      exact h ⟨lt_of_le_of_lt (lob x hx) (not_le.1 hneg), hany.2 ha⟩

theorem contribution_isOk {f : Dist → List ℝ → Except Err (List ℝ)}
    (hf : ∀ d X, (∃ Y, f d X = .ok Y) ↔ checkX d.fam X = .ok ()) (neg : ℝ) (X : List ℝ) (hX : X ≠ [])
    (d : Dist) : (∃ Y, contribution f neg X d = .ok Y) ↔
      (Half d → (∃ x ∈ X, 0 ≤ x) ∧ (d.fam = .beta → ∀ x ∈ X, x ≤ 1)) := by
  simp only [← half_iff]
  by_cases ht : twoSided d
  · have e : contribution f neg X d = f d X := by simp only [contribution]; rw [if_pos ht]
    rw [e, hf, checkX_ok]
    have hfam : d.fam = .normal ∨ d.fam = .gumbel := by simpa [twoSided] using ht
    simp only [ht, Bool.true_eq_false, false_imp_iff, iff_true]
    refine ⟨hX, fun h1 h2 => ?_, fun h => ?_⟩
    · rcases hfam with h | h
      · exact absurd h h1
      · exact absurd h h2
    · rcases hfam with h' | h' <;> rw [h'] at h <;> cases h
  · have ht' : twoSided d = false := by simpa using ht
    have hfam : d.fam ≠ .normal ∧ d.fam ≠ .gumbel := by simpa [twoSided] using ht
    have e : (∃ Y, contribution f neg X d = .ok Y) ↔ ∃ Y, f d (X.filter fun x => decide (0 ≤ x)) = .ok Y := by
      simp only [contribution]
      rw [if_neg ht]
      cases f d (X.filter fun x => decide (0 ≤ x)) <;> simp
    rw [e, hf, checkX_ok, TakesX]
    simp only [ht', forall_const]
    have hne : (X.filter fun x => decide (0 ≤ x)) ≠ [] ↔ ∃ x ∈ X, 0 ≤ x := by
      rw [ne_eq, List.filter_eq_nil_iff]; simp
    rw [hne]
    refine and_congr_right fun _ => ?_
    constructor
    · rintro ⟨_, h⟩ hb x hx
      rcases le_or_gt 0 x with h0 | h0
      · exact h hb x (by simp [hx, h0])
      · linarith
    · intro h
      refine ⟨fun _ _ x hx => by simpa using (List.mem_filter.1 hx).2, fun hb x hx => h hb x (List.mem_of_mem_filter hx)⟩

/-- **C37 (which xvals are accepted).** The Competing risks model accepts xvals exactly when: there is at least
one; none is negative unless some component is Normal or Gumbel; and if some component is neither, at least
one xval is non-negative and all are at most 1 in case it is a Beta.  Otherwise it raises ValueError. -/
theorem C37_accepts (ds : List Dist) (X : List ℝ) :
    ((∃ A, competing ds X = .ok A) ∧ Accepts ds X) ∨ (competing ds X = valueErr ∧ ¬ Accepts ds X) := by
  rcases checkNeg_ok ds X with ⟨hc, hne, hneg⟩ | ⟨hc, hno⟩
  · have herr1 : ∀ d e, contribution SF 1 X d = .error e → e = .valueError :=
      fun d e h => contribution_error (fun d X e => SF_error) 1 X d e h
    have herr2 : ∀ d e, contribution HF 0 X d = .error e → e = .valueError :=
      fun d e h => contribution_error (fun d X e => HF_error) 0 X d e h
    rcases collect_isOk _ herr1 ds with ⟨h1, s, h2⟩ | ⟨⟨d, hd, hd'⟩, h2⟩
    · rcases collect_isOk _ herr2 ds with ⟨k1, k, k2⟩ | ⟨⟨d, hd, hd'⟩, k2⟩
      · left
        refine ⟨by simp only [competing, hc, h2, k2]; exact ⟨_, rfl⟩, hne, hneg, fun d hd => ?_⟩
        exact (contribution_isOk SF_isOk 1 X hne d).1 (h1 d hd)
      · exfalso
        have := (contribution_isOk HF_isOk 0 X hne d).2 ((contribution_isOk SF_isOk 1 X hne d).1 (h1 d hd))
        obtain ⟨Y, hY⟩ := this
        rw [hY, valueErr] at hd'; cases hd'
    · right
      refine ⟨by simp only [competing, hc, h2, valueErr], fun hA => ?_⟩
      obtain ⟨Y, hY⟩ := (contribution_isOk SF_isOk 1 X hne d).2 (hA.2.2 d hd)
      rw [hY, valueErr] at hd'; cases hd'
  · right
    exact ⟨by simp only [competing, hc, valueErr], fun hA => hno ⟨hA.1, hA.2.1⟩⟩

/-- A Normal and a shifted Weibull at a negative and two positive times: the hypotheses of C37 are met. -/
example : ∃ A, competing [normal 5 2, weibull 2 3 1] [-1, 2, 4] = .ok A ∧
    A.sf[0]? = some (((normal 5 2).sp.sf (-1)) * ((weibull 2 3 1).sp.sf (-1) * 1)) := by
  rcases C37_accepts [normal 5 2, weibull 2 3 1] [-1, 2, 4] with ⟨⟨A, hA⟩, _⟩ | ⟨_, h⟩
  · refine ⟨A, hA, ?_⟩
    have hp : ∀ d ∈ [normal 5 2, weibull 2 3 1], Proper d := by
      intro d hd
      simp only [List.mem_cons, List.not_mem_nil, or_false] at hd
      rcases hd with rfl | rfl
      · exact proper_normal 5 2 (by norm_num)
      · exact proper_weibull 2 3 1 (by norm_num) (by norm_num) (by norm_num)
    have := (C37_sf_product _ hp [-1, 2, 4] (by simp; norm_num) A hA 0 (-1) rfl).1
    simpa using this
  · exfalso
    apply h
    refine ⟨by simp, fun h => ?_, fun d hd ht => ?_⟩
    · have := h (normal 5 2) (by simp)
      simp [Half, normal, ofScipy] at this
    · simp only [List.mem_cons, List.not_mem_nil, or_false] at hd
      rcases hd with rfl | rfl
      · simp [Half, normal, ofScipy] at ht
      · exact ⟨⟨2, by simp, by norm_num⟩, fun h => by simp [weibull] at h⟩

/-! ## C38: mixture -/

theorem weighted_eq {f : Dist → List ℝ → Except Err (List ℝ)} {g : Dist → ℝ → ℝ} {X Y : List ℝ}
    (hf : ∀ d X Y, f d X = .ok Y → Y = X.map (g d)) (hX : X.Pairwise (· ≤ ·)) {dp : Dist × ℝ}
    (h : weighted f X dp = .ok Y) :
    Y = X.map fun x => (if twoSided dp.1 ∨ 0 ≤ x then g dp.1 x else 0) * dp.2 := by
  simp only [weighted] at h
  by_cases ht : twoSided dp.1
  · rw [if_pos ht] at h
    cases hc : f dp.1 X with
    | error e => simp [hc] at h
    | ok Z =>
      simp only [hc, Except.ok.injEq] at h
      rw [← h, hf _ _ _ hc, List.map_map]
      exact List.map_congr_left fun x _ => by simp [ht]
  · rw [if_neg ht] at h
    cases hc : f dp.1 (X.filter fun x => decide (0 ≤ x)) with
    | error e => simp [hc] at h
    | ok Z =>
      simp only [hc, Except.ok.injEq] at h
      rw [← h, hf _ _ _ hc, List.map_map, hstack_sorted hX]
      refine List.map_congr_left fun x _ => ?_
      by_cases hx : 0 ≤ x
      · simp [hx]
      · simp [hx, ht]

theorem CDF_map (d : Dist) (X Y : List ℝ) (h : CDF d X = .ok Y) : Y = X.map d.sp.cdf := by
  simp only [CDF] at h
  cases hc : checkX d.fam X with
  | error e => simp [hc] at h
  | ok u => simp only [hc, Except.ok.injEq] at h; exact h.symm

theorem PDF_map (d : Dist) (X Y : List ℝ) (h : PDF d X = .ok Y) : Y = X.map d.sp.pdf := by
  simp only [PDF] at h
  cases hc : checkX d.fam X with
  | error e => simp [hc] at h
  | ok u => simp only [hc, Except.ok.injEq] at h; exact h.symm

/-- the proportion-weighted sum of one quantity over the components -/
noncomputable def wsum (ds : List Dist) (p : List ℝ) (v : Dist → ℝ) : ℝ := ((ds.zip p).map fun dp => v dp.1 * dp.2).sum

theorem mixture_sorted {ds : List Dist} {p X : List ℝ} {A : Arrays} (hX : X.Pairwise (· ≤ ·))
    (h : mixture ds p X = .ok A) :
    A.cdf = X.map (fun x => wsum ds p fun d => cdfValue d x) ∧
    A.pdf = X.map (fun x => wsum ds p fun d => pdfValue d x) ∧
    A.sf = X.map (fun x => 1 - wsum ds p fun d => cdfValue d x) ∧
    A.hf = X.map (fun x => (wsum ds p fun d => pdfValue d x) / (1 - wsum ds p fun d => cdfValue d x)) ∧
    A.chf = X.map (fun x => -Real.log (1 - wsum ds p fun d => cdfValue d x)) := by
  simp only [mixture] at h
  cases hn : checkNeg ds X with
  | error e => simp [hn] at h
  | ok u =>
    cases hs : collect (weighted CDF X) (ds.zip p) with
    | error e => simp [hn, hs] at h
    | ok cs =>
      cases hh : collect (weighted PDF X) (ds.zip p) with
      | error e => simp [hn, hs, hh] at h
      | ok ps =>
        simp only [hn, hs, hh, Except.ok.injEq] at h
        have e1 := collect_ok hs (fun dp => X.map fun x => cdfValue dp.1 x * dp.2)
          (fun dp _ Y hY => weighted_eq (g := fun d => d.sp.cdf) CDF_map hX hY)
        have e2 := collect_ok hh (fun dp => X.map fun x => pdfValue dp.1 x * dp.2)
          (fun dp _ Y hY => weighted_eq (g := fun d => d.sp.pdf) PDF_map hX hY)
        rw [e1, e2, foldl_zipWith _ _ (fun (dp : Dist × ℝ) x => cdfValue dp.1 x * dp.2),
          foldl_zipWith _ _ (fun (dp : Dist × ℝ) x => pdfValue dp.1 x * dp.2)] at h
        simp only [foldl_add, zero_add] at h
        rw [← h]
        refine ⟨rfl, rfl, ?_, ?_, ?_⟩
        · simp [wsum]
        · dsimp only; rw [zipWith_map_map]; rfl
        · simp [wsum]

theorem wsum_nil_left (p : List ℝ) (v : Dist → ℝ) : wsum [] p v = 0 := by simp [wsum]

theorem wsum_cons (d : Dist) (ds : List Dist) (a : ℝ) (p : List ℝ) (v : Dist → ℝ) :
    wsum (d :: ds) (a :: p) v = v d * a + wsum ds p v := by simp [wsum]

theorem wsum_compl {ds : List Dist} {p : List ℝ} {v w : Dist → ℝ} (hl : p.length = ds.length)
    (h : ∀ d ∈ ds, v d + w d = 1) : wsum ds p v + wsum ds p w = p.sum := by
  induction ds generalizing p with
  | nil => simp at hl; subst hl; simp [wsum]
  | cons d ds ih =>
    cases p with
    | nil => simp at hl
    | cons a p =>
      rw [wsum_cons, wsum_cons, List.sum_cons]
      have := ih (p := p) (by simpa using hl) fun d' hd' => h d' (by simp [hd'])
      have h1 := h d (by simp)
      linear_combination this + a * h1

theorem wsum_bounds {ds : List Dist} {p : List ℝ} {v : Dist → ℝ} (hl : p.length = ds.length)
    (hp : ∀ a ∈ p, 0 ≤ a) {lo hi : ℝ} (h : ∀ d ∈ ds, lo ≤ v d ∧ v d ≤ hi) :
    lo * p.sum ≤ wsum ds p v ∧ wsum ds p v ≤ hi * p.sum := by
  induction ds generalizing p with
  | nil => simp at hl; subst hl; simp [wsum]
  | cons d ds ih =>
    cases p with
    | nil => simp at hl
    | cons a p =>
      rw [wsum_cons, List.sum_cons]
      obtain ⟨h1, h2⟩ := ih (p := p) (by simpa using hl) (fun b hb => hp b (by simp [hb]))
        fun d' hd' => h d' (by simp [hd'])
      have ha := hp a (by simp)
      obtain ⟨h3, h4⟩ := h d (by simp)
      have h5 := mul_le_mul_of_nonneg_right h3 ha
      have h6 := mul_le_mul_of_nonneg_right h4 ha
      constructor <;> nlinarith

theorem wsum_congr {ds : List Dist} {p : List ℝ} {v w : Dist → ℝ} (h : ∀ d ∈ ds, v d = w d) :
    wsum ds p v = wsum ds p w := by
  simp only [wsum]
  congr 1
  refine List.map_congr_left fun dp hdp => ?_
  rw [h dp.1 (List.of_mem_zip hdp).1]

/-- **C38 (proportions).** Proportions that do not sum to 1 or differ in number from the components raise
ValueError; omitted proportions are equal weights; in every accepted case there is one weight per component
and the weights sum to 1. -/
theorem C38_proportions (ds : List Dist) (hds : ds ≠ []) (p : List ℝ) :
    (p.sum ≠ 1 → mixtureInit ds (some p) = valueErr) ∧
    (p.length ≠ ds.length → mixtureInit ds (some p) = valueErr) ∧
    (p.sum = 1 → p.length = ds.length → mixtureInit ds (some p) = .ok p) ∧
    (∃ w, mixtureInit ds none = .ok w ∧ w.length = ds.length ∧ (∀ a ∈ w, a = 1 / (ds.length : ℝ)) ∧
      w.sum = 1) := by
  refine ⟨fun h => by simp only [mixtureInit]; rw [if_pos h], fun h => ?_, fun h1 h2 => ?_, ?_⟩
  · simp only [mixtureInit]
    by_cases h1 : p.sum ≠ 1
    · rw [if_pos h1]
    · rw [if_neg h1, if_pos h]
  · simp only [mixtureInit]
    rw [if_neg (not_not.2 h1), if_neg (not_not.2 h2)]
  · refine ⟨_, rfl, by simp, by simp, ?_⟩
    have : (ds.length : ℝ) ≠ 0 := by
      have := List.length_pos_of_ne_nil hds
      positivity
    simp [this]

/-- **C38.** At every xval, with proportions summing to 1: CDF, SF and PDF are the proportion-weighted sums of
those of the components, HF = PDF/SF, CHF = -ln SF; with non-negative proportions the CDF lies between any
bounds on the components' CDFs, in particular in [0,1]. -/
theorem C38_mixture (ds : List Dist) (hd : ∀ d ∈ ds, Proper d) (p : List ℝ) (hl : p.length = ds.length)
    (hsum : p.sum = 1) (X : List ℝ) (hX : X.Pairwise (· ≤ ·)) (A : Arrays) (h : mixture ds p X = .ok A)
    (i : ℕ) (x : ℝ) (hx : X[i]? = some x) :
    A.cdf[i]? = some (wsum ds p fun d => d.sp.cdf x) ∧
    A.sf[i]? = some (wsum ds p fun d => d.sp.sf x) ∧
    A.pdf[i]? = some (wsum ds p fun d => pdfValue d x) ∧
    A.hf[i]? = some ((wsum ds p fun d => pdfValue d x) / wsum ds p fun d => d.sp.sf x) ∧
    A.chf[i]? = some (-Real.log (wsum ds p fun d => d.sp.sf x)) ∧
    ((∀ a ∈ p, 0 ≤ a) → ∀ lo hi, (∀ d ∈ ds, lo ≤ d.sp.cdf x ∧ d.sp.cdf x ≤ hi) →
      lo ≤ (wsum ds p fun d => d.sp.cdf x) ∧ (wsum ds p fun d => d.sp.cdf x) ≤ hi) := by
  obtain ⟨e1, e2, e3, e4, e5⟩ := mixture_sorted hX h
  have ec : (wsum ds p fun d => cdfValue d x) = wsum ds p fun d => d.sp.cdf x :=
    wsum_congr fun d hd' => (hd d hd').cdfValue x
  have es : 1 - (wsum ds p fun d => d.sp.cdf x) = wsum ds p fun d => d.sp.sf x := by
    have := wsum_compl hl (v := fun d => d.sp.cdf x) (w := fun d => d.sp.sf x)
      fun d hd' => (hd d hd').law.compl x
    rw [hsum] at this; linarith
  refine ⟨?_, ?_, ?_, ?_, ?_, ?_⟩
  · rw [e1, List.getElem?_map, hx, Option.map_some, ec]
  · rw [e3, List.getElem?_map, hx, Option.map_some, ec, es]
  · rw [e2, List.getElem?_map, hx, Option.map_some]
  · rw [e4, List.getElem?_map, hx, Option.map_some, ec, es]
  · rw [e5, List.getElem?_map, hx, Option.map_some, ec, es]
  · intro hp lo hi hb
    have := wsum_bounds hl hp hb
    rwa [hsum, mul_one, mul_one] at this

/-- **C38 (PDF).** Inside every component's support the reported PDF is the derivative of the mixture CDF. -/
theorem C38_density (ds : List Dist) (p : List ℝ) (D : Dist → Set ℝ)
    (haz : ∀ d ∈ ds, HazardLaw (D d) d.sp.pdf d.sp.cdf d.sp.sf d.hf d.chf)
    (X : List ℝ) (hX : X.Pairwise (· ≤ ·)) (A : Arrays) (h : mixture ds p X = .ok A)
    (i : ℕ) (x : ℝ) (hx : X[i]? = some x) (hpos : ∀ d ∈ ds, Half d → 0 ≤ x)
    (hD : ∀ d ∈ ds, x ∈ D d) :
    ∃ q, A.pdf[i]? = some q ∧ HasDerivAt (fun y => wsum ds p fun d => d.sp.cdf y) q x := by
  obtain ⟨-, e2, -⟩ := mixture_sorted hX h
  refine ⟨_, by rw [e2, List.getElem?_map, hx, Option.map_some], ?_⟩
  have ec : (wsum ds p fun d => pdfValue d x) = wsum ds p fun d => d.sp.pdf x := by
    refine wsum_congr fun d hd' => ?_
    have hc : twoSided d ∨ 0 ≤ x := by
      by_cases ht : twoSided d
      · exact Or.inl ht
      · exact Or.inr (hpos d hd' (half_iff.1 (by simpa using ht)))
    rw [pdfValue, if_pos hc]
  rw [ec]
  clear e2 ec h hpos
  induction ds generalizing p with
  | nil => simpa [wsum] using hasDerivAt_const x (0 : ℝ)
  | cons d ds ih =>
    cases p with
    | nil => simpa [wsum] using hasDerivAt_const x (0 : ℝ)
    | cons a p =>
      simp only [wsum_cons]
      exact (((haz d (by simp)).density x (hD d (by simp))).mul_const a).add
        (ih p (fun d' h' => haz d' (by simp [h'])) (fun d' h' => hD d' (by simp [h'])))

/-- **C38 (finding).** Negative proportions are accepted as long as they sum to 1, and the CDF can then
exceed 1. -/
theorem C38_negative_finding :
    mixtureInit [exponential 2 0, exponential 1 0] (some [2, -1]) = .ok [2, -1] ∧
    ∃ A c, mixture [exponential 2 0, exponential 1 0] [2, -1] [1] = .ok A ∧ A.cdf[0]? = some c ∧ 1 < c := by
  constructor
  · simp only [mixtureInit]
    rw [if_neg (by norm_num), if_neg (by simp)]
  · have hchk : checkX Fam.exponential [(1:ℝ)] = .ok () :=
      (checkX_ok _ _).2 ⟨by simp, fun _ _ => by simp, fun h => by cases h⟩
    have hf : ([(1:ℝ)].filter fun x => decide (0 ≤ x)) = [1] := by simp
    have hw : ∀ l a : ℝ, ∃ Y, weighted CDF [1] (exponential l 0, a) = .ok Y := fun l a => by
      simp only [weighted]
      rw [if_neg (by simp [twoSided, exponential]), hf]
      simp only [CDF, exponential, hchk]
      exact ⟨_, rfl⟩
    have hw' : ∀ l a : ℝ, ∃ Y, weighted PDF [1] (exponential l 0, a) = .ok Y := fun l a => by
      simp only [weighted]
      rw [if_neg (by simp [twoSided, exponential]), hf]
      simp only [PDF, exponential, hchk]
      exact ⟨_, rfl⟩
    obtain ⟨Y1, h1⟩ := hw 2 2
    obtain ⟨Y2, h2⟩ := hw 1 (-1)
    obtain ⟨Z1, k1⟩ := hw' 2 2
    obtain ⟨Z2, k2⟩ := hw' 1 (-1)
    have hn : checkNeg [exponential 2 0, exponential 1 0] [1] = .ok () := by
      rcases checkNeg_ok [exponential 2 0, exponential 1 0] [1] with h | h
      · exact h.1
      · exact absurd ⟨by simp, fun _ => by simp⟩ h.2
    obtain ⟨A, hA⟩ : ∃ A, mixture [exponential 2 0, exponential 1 0] [2, -1] [1] = .ok A := by
      simp only [mixture, hn, List.zip_cons_cons, List.zip_nil_right, collect, h1, h2, k1, k2]
      exact ⟨_, rfl⟩
    have hp : ∀ d ∈ [exponential 2 0, exponential 1 0], Proper d := by
      intro d hd
      simp only [List.mem_cons, List.not_mem_nil, or_false] at hd
      rcases hd with rfl | rfl
      · exact proper_exponential 2 0 (by norm_num) le_rfl
      · exact proper_exponential 1 0 (by norm_num) le_rfl
    have := (C38_mixture _ hp [2, -1] (by simp) (by norm_num) [1] (by simp) A hA 0 1 rfl).1
    refine ⟨A, _, hA, this, ?_⟩
    rw [wsum_cons, wsum_cons, wsum_nil_left]
    have e : ∀ l : ℝ, 0 < l → (exponential l 0).sp.cdf 1 = 1 - Real.exp (-l) := by
      intro l hl
      simp only [exponential, locScale, exponStd, sub_zero]
      rw [if_neg (by rw [not_le]; positivity)]
      congr 3; field_simp
    rw [e 2 (by norm_num), e 1 (by norm_num)]
    have h2 : Real.exp (-2) = Real.exp (-1) * Real.exp (-1) := by rw [← Real.exp_add]; norm_num
    have h1 : Real.exp (-1) * 2 < 1 := by
      rw [Real.exp_neg, inv_mul_lt_iff₀ (Real.exp_pos 1)]
      have := Real.add_one_lt_exp (one_ne_zero (α := ℝ))
      linarith
    have h0 := Real.exp_pos (-1)
    rw [h2]
    nlinarith

/-! ## C39: alignment of the arrays with xvals -/

/-- **C39.** For ascending xvals every array of both models has one entry per xval, computed from that xval
alone: evaluating the models at the single point `x` gives the same numbers. -/
theorem C39_aligned (ds : List Dist) (p : List ℝ) (X : List ℝ) (hX : X.Pairwise (· ≤ ·)) :
    (∀ A, competing ds X = .ok A →
      A.pdf.length = X.length ∧ A.cdf.length = X.length ∧ A.sf.length = X.length ∧ A.hf.length = X.length ∧
      A.chf.length = X.length ∧
      ∀ (i : ℕ) x B, X[i]? = some x → competing ds [x] = .ok B →
        A.pdf[i]? = B.pdf[0]? ∧ A.cdf[i]? = B.cdf[0]? ∧ A.sf[i]? = B.sf[0]? ∧ A.hf[i]? = B.hf[0]? ∧
        A.chf[i]? = B.chf[0]?) ∧
    (∀ A, mixture ds p X = .ok A →
      A.pdf.length = X.length ∧ A.cdf.length = X.length ∧ A.sf.length = X.length ∧ A.hf.length = X.length ∧
      A.chf.length = X.length ∧
      ∀ (i : ℕ) x B, X[i]? = some x → mixture ds p [x] = .ok B →
        A.pdf[i]? = B.pdf[0]? ∧ A.cdf[i]? = B.cdf[0]? ∧ A.sf[i]? = B.sf[0]? ∧ A.hf[i]? = B.hf[0]? ∧
        A.chf[i]? = B.chf[0]?) := by
  constructor
  · intro A hA
    obtain ⟨e1, e2, e3, e4, e5⟩ := competing_sorted hX hA
    refine ⟨by simp [e3], by simp [e4], by simp [e1], by simp [e2], by simp [e5], fun i x B hx hB => ?_⟩
    obtain ⟨f1, f2, f3, f4, f5⟩ := competing_sorted (X := [x]) (by simp) hB
    rw [e1, e2, e3, e4, e5, f1, f2, f3, f4, f5]
    simp [hx]
  · intro A hA
    obtain ⟨e1, e2, e3, e4, e5⟩ := mixture_sorted hX hA
    refine ⟨by simp [e2], by simp [e1], by simp [e3], by simp [e4], by simp [e5], fun i x B hx hB => ?_⟩
    obtain ⟨f1, f2, f3, f4, f5⟩ := mixture_sorted (X := [x]) (by simp) hB
    rw [e1, e2, e3, e4, e5, f1, f2, f3, f4, f5]
    simp [hx]

/-- **C39 (finding).** For xvals in which a non-negative value precedes a negative one the arrays are not aligned:
the survival probability of a Normal–Exponential competing risks model reported for the second xval (`-b`)
contains the Exponential's survival to the *first* xval (`a`), and vice versa. -/
theorem C39_misaligned_finding (mu sigma lam a b : ℝ) (hl : 0 < lam) (ha : 0 < a) (hb : 0 < b) :
    ∃ A, competing [normal mu sigma, exponential lam 0] [a, -b] = .ok A ∧
      A.sf[1]? = some ((normal mu sigma).sp.sf (-b) * (exponential lam 0).sp.sf a) ∧
      (exponential lam 0).sp.sf (-b) = 1 ∧ (exponential lam 0).sp.sf a < 1 := by
  have hn : checkNeg [normal mu sigma, exponential lam 0] [a, -b] = .ok () := by
    rcases checkNeg_ok [normal mu sigma, exponential lam 0] [a, -b] with h | h
    · exact h.1
    · refine absurd ⟨by simp, fun hc => ?_⟩ h.2
      have := hc (normal mu sigma) (by simp)
      simp [Half, normal, ofScipy] at this
  have hN : checkX Fam.normal [a, -b] = .ok () :=
    (checkX_ok _ _).2 ⟨by simp, fun h => absurd rfl h, fun h => by cases h⟩
  have hE : checkX Fam.exponential [a] = .ok () :=
    (checkX_ok _ _).2 ⟨by simp, fun _ _ => by simp [ha.le], fun h => by cases h⟩
  have f1 : ([a, -b].filter fun x => decide (0 ≤ x)) = [a] := by
    rw [List.filter_cons_of_pos (by simpa using ha.le), List.filter_cons_of_neg (by simpa using hb)]
    rfl
  have f2 : ([a, -b].filter fun x => decide (x < 0)) = [-b] := by
    rw [List.filter_cons_of_neg (by simpa using ha.le), List.filter_cons_of_pos (by simpa using hb)]
    rfl
  have tN : twoSided (normal mu sigma) = true := by simp [twoSided, normal, ofScipy]
  have tE : twoSided (exponential lam 0) = false := by simp [twoSided, exponential]
  have c1 : contribution SF 1 [a, -b] (normal mu sigma) = .ok ([a, -b].map (normal mu sigma).sp.sf) := by
    have hN' : checkX (normal mu sigma).fam [a, -b] = .ok () := hN
    simp only [contribution, tN, if_true, SF, hN']
  have c2 : contribution SF 1 [a, -b] (exponential lam 0) = .ok [1, (exponential lam 0).sp.sf a] := by
    have hE' : checkX (exponential lam 0).fam [a] = .ok () := hE
    simp only [contribution, tE, f1, f2, SF, hE']
    rfl
  obtain ⟨h1, k1⟩ : ∃ Y, contribution HF 0 [a, -b] (normal mu sigma) = .ok Y :=
    (contribution_isOk HF_isOk 0 [a, -b] (by simp) _).2 (by rw [← half_iff, tN]; simp)
  obtain ⟨h2, k2⟩ : ∃ Y, contribution HF 0 [a, -b] (exponential lam 0) = .ok Y :=
    (contribution_isOk HF_isOk 0 [a, -b] (by simp) _).2
      fun _ => ⟨⟨a, by simp, ha.le⟩, fun h => by simp [exponential] at h⟩
  have hex := (C34_exponential lam 0 hl).range a ha
  have hcm := (C33_exponential lam 0 hl).1.compl a
  refine ⟨_, by simp only [competing, hn, collect, c1, c2, k1, k2]; rfl, ?_,
    ((C33_exponential lam 0 hl).2 (-b) (by linarith)).2, by linarith⟩
  simp

/-- **C39 (finding).** If all xvals are negative, a model with a Normal component and a positive-support component
raises ValueError instead of evaluating. -/
theorem C39_all_negative_finding (ds : List Dist) (X : List ℝ) (hX : ∀ x ∈ X, x < 0) (d : Dist) (hd : d ∈ ds)
    (ht : Half d) : competing ds X = valueErr := by
  rcases C37_accepts ds X with ⟨_, h⟩ | ⟨h, _⟩
  · obtain ⟨⟨x, hx, h0⟩, _⟩ := h.2.2 d hd ht
    have := hX x hx
    linarith
  · exact h

/-- **C39 (finding).** A Beta component makes the model raise ValueError at any xval above 1, whatever the other
components. -/
theorem C39_beta_finding (ds : List Dist) (X : List ℝ) (d : Dist) (hd : d ∈ ds) (hb : d.fam = .beta) (x : ℝ)
    (hx : x ∈ X) (h1 : 1 < x) : competing ds X = valueErr := by
  rcases C37_accepts ds X with ⟨_, h⟩ | ⟨h, _⟩
  · have := (h.2.2 d hd (by simp [Half, hb])).2 hb x hx
    linarith
  · exact h

end Reliability.Props.Combined
