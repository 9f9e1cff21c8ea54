import Mathlib.Analysis.SpecialFunctions.Integrals.Basic
import Verif.Spec.LikelihoodPlot
import Verif.Props.FitGlue2
import Verif.Props.FitGlue
import Verif.Props.FitGlueExamples
import Verif.Props.Likelihood
import Verif.Lemmas.NumPy

/-! # C122: likelihood contour plots -/

namespace Reliability.Props.LikelihoodPlot

open Reliability Reliability.InputCheck Reliability.FitGlue Reliability.Likelihood Reliability.LikelihoodPlot
open Reliability.Distributions (weibull gammaDist loglogistic betaDist normal lognormal gumbel)
open Reliability.Spec Reliability.Spec.LikelihoodPlot Reliability.Spec.FitGlue
open Reliability.Fitters (up)
open Reliability.FunctionCI (Jac Two)
open Reliability.Props (bind_ok)
open Reliability.Props.Likelihood

/-! ## The fit -/

/-- The same answers where no shape is forced. -/
noncomputable def unforced (num : Option ℝ → Num2) : Option ℝ → Num2
  | none => num none
  | some s => ⟨⟨fun _ => (0, s), (0, s), (num none).minimize⟩, (num none).minimize1⟩

theorem unforced_fit2 (F : Fam2) (argsort : List ℝ → List ℕ) (J : Jac) (num : Option ℝ → Num2) (inp : Checked ℝ) :
    fit2 F argsort J num inp none = fit2 F argsort J (unforced num) inp none := rfl

theorem map_rows {D : Type} {y : Except Err (FitRes D)} {rows : List Row} (h : y.map FitRes.rows = .ok rows) :
    ∃ r, y = .ok r ∧ r.rows = rows := by
  cases y with
  | error e => cases h
  | ok r => cases h; exact ⟨r, rfl, rfl⟩

def scaleOf : LFam → Scale
  | .weibull | .gamma | .loglogistic | .beta => .log
  | .normal | .lognormal | .gumbel => .linear

theorem two_rows {rows : List Row} {f : Row → String × ℝ} {a b : String × ℝ} (h : rows.map f = [a, b]) :
    ∃ w1 w2, rows = [w1, w2] := by
  match rows, h with
  | [w1, w2], _ => exact ⟨w1, w2, rfl⟩

theorem used_given {dist : String} {x : Args} {F C : List ℝ} (h : Used dist x F C) :
    ∃ F₀ C₀, Given x.failures x.right_censored F₀ C₀ := by
  obtain ⟨F₀, C₀, h1, h2, -⟩ := h
  exact ⟨F₀, C₀, h1, h2⟩

/-- The rows of the fit. -/
theorem fitRows_ok {N : Numerics} (ha : IsArgsort N.argsort) {fam : LFam} {failures rc : DataArg ℝ} {m : StrArg}
    {rows : List Row} (h : fitRows N fam failures rc m = .ok rows) :
    ∃ w1 w2 z, rows = [w1, w2] ∧ 0 < z ∧ Interval z w1 (scaleOf fam) ∧ Interval z w2 .log ∧
      ∃ F C, Given failures rc F C := by
  have fin : ∀ {a b : String × ℝ} {z : ℝ} {sc : Scale}, rows.map (fun w => (w.name, w.point)) = [a, b] → 0 < z →
      List.Forall₂ (Interval z) rows [sc, .log] → (∃ F C, Given failures rc F C) →
      ∃ w1 w2 z, rows = [w1, w2] ∧ 0 < z ∧ Interval z w1 sc ∧ Interval z w2 .log ∧ ∃ F C, Given failures rc F C := by
    intro a b z sc h1 hz h2 hg
    obtain ⟨w1, w2, rfl⟩ := two_rows h1
    cases h2 with
    | cons i1 h2 => cases h2 with
      | cons i2 _ => exact ⟨w1, w2, z, rfl, hz, i1, i2, hg⟩
  cases fam <;> simp only [fitRows] at h <;> obtain ⟨r, hr, rfl⟩ := map_rows h
  · have hr' : fitWeibull2P N.argsort N.J (unforced N.num2) { failures := failures, right_censored := rc, method := m } =
        .ok r := by
      simp only [fitWeibull2P, bind_ok] at hr ⊢
      obtain ⟨inp, h1, h2⟩ := hr
      have hfb : inp.force_beta = none := ((C51_ok_iff ..).1 h1).beta_ok.1
      refine ⟨inp, h1, ?_⟩
      rw [hfb] at h2 ⊢
      exact h2
    obtain ⟨f, c, CI, hu, -, h1, ⟨z, hz, -, h2⟩, -⟩ := C100_weibull_2P ha N.J (unforced N.num2) (fun _ _ => rfl) _ r hr'
    exact fin h1 hz.1 h2 (used_given hu)
  · obtain ⟨f, c, CI, α, hu, -, h1, -, ⟨z, hz, -, h2, -⟩, -⟩ := C100_gamma_2P ha N.J N.num _ r hr
    exact fin h1 hz.1 h2 (used_given hu)
  · obtain ⟨f, c, CI, hu, -, h1, ⟨z, hz, -, h2⟩, -⟩ := C100_loglogistic_2P ha N.J N.num2 _ r hr
    exact fin h1 hz.1 h2 (used_given hu)
  · obtain ⟨f, c, CI, a, b, hu, -, -, h1, ⟨z, hz, h2⟩, -⟩ := C100_beta_2P ha N.num _ r hr
    exact fin h1 hz.1 h2 (used_given hu)
  · have hr' : fitNormal2P N.argsort N.J (unforced N.num2) { failures := failures, right_censored := rc, method := m } =
        .ok r := by
      simp only [fitNormal2P, bind_ok] at hr ⊢
      obtain ⟨inp, h1, h2⟩ := hr
      have hfb : inp.force_sigma = none := ((C51_ok_iff ..).1 h1).sigma_ok.1
      refine ⟨inp, h1, ?_⟩
      rw [hfb] at h2 ⊢
      exact h2
    obtain ⟨f, c, CI, hu, -, h1, ⟨z, hz, -, h2⟩, -⟩ := C100_normal_2P ha N.J (unforced N.num2) (fun _ _ => rfl) _ r hr'
    exact fin h1 hz.1 h2 (used_given hu)
  · have hr' : fitLognormal2P N.argsort N.J (unforced N.num2) { failures := failures, right_censored := rc, method := m } =
        .ok r := by
      simp only [fitLognormal2P, bind_ok] at hr ⊢
      obtain ⟨inp, h1, h2⟩ := hr
      have hfb : inp.force_sigma = none := ((C51_ok_iff ..).1 h1).sigma_ok.1
      refine ⟨inp, h1, ?_⟩
      rw [hfb] at h2 ⊢
      exact h2
    obtain ⟨f, c, CI, hu, -, h1, ⟨z, hz, -, h2⟩, -⟩ := C100_lognormal_2P ha N.J (unforced N.num2) (fun _ _ => rfl) _ r hr'
    exact fin h1 hz.1 h2 (used_given hu)
  · obtain ⟨f, c, CI, hu, -, h1, ⟨z, hz, -, h2⟩, -⟩ := C100_gumbel_2P ha N.J N.num2 _ r hr
    exact fin h1 hz.1 h2 (used_given hu)

/-! ## The pieces of the plot -/

attribute [local irreducible] grid

theorem run {N : Numerics} {s : String} {failures rc : DataArg ℝ} {CI : CIL} {m : StrArg} {axes : (ℝ × ℝ) × (ℝ × ℝ)}
    {p : LPlot} (h : likelihoodPlot N s failures rc CI m axes = .ok p) :
    ∃ fam w1 w2, family s = some fam ∧ fitRows N fam failures rc m = .ok [w1, w2] ∧
      p.xlabel = (labels fam).1 ∧ p.ylabel = (labels fam).2 ∧ p.point = (w1.point, w2.point) ∧
      p.xs = grid w1 ∧ p.ys = grid w2 ∧
      p.mesh = p.ys.map (fun y => p.xs.map fun x => LLfunction fam x y (times failures) (times rc)) ∧
      p.bands = CI.sorted.map (fun ci => (ci, level N (LLfunction fam w1.point w2.point (times failures) (times rc)) ci,
        LLfunction fam w1.point w2.point (times failures) (times rc))) ∧
      ∃ v, allVertices (N.contour p.xs p.ys p.mesh) (CI.sorted.map (level N
          (LLfunction fam w1.point w2.point (times failures) (times rc)))) = .ok v ∧
        limits (open Classical in if ¬ (axes.1 = (0, 1) ∧ axes.2 = (0, 1)) then some axes.1 else none) (v.map Prod.fst) =
          .ok p.xlim ∧
        limits (open Classical in if ¬ (axes.1 = (0, 1) ∧ axes.2 = (0, 1)) then some axes.2 else none) (v.map Prod.snd) =
          .ok p.ylim := by
  unfold likelihoodPlot at h
  cases hf : family s with
  | none => rw [hf] at h; cases h
  | some fam =>
    rw [hf] at h
    simp only [bind_ok] at h
    obtain ⟨rows, hr, h⟩ := h
    match rows, hr, h with
    | [w1, w2], hr, h =>
      simp only [bind_ok] at h
      obtain ⟨v, hv, xl, hx, yl, hy, h⟩ := h
      cases h
      exact ⟨fam, w1, w2, rfl, hr, rfl, rfl, rfl, rfl, rfl, rfl, rfl, v, hv, hx, hy⟩
    | [], _, h => cases h
    | [_], _, h => cases h
    | _ :: _ :: _ :: _, _, h => cases h

/-- The distribution of a branch. -/
noncomputable def lawOf : LFam → ℝ → ℝ → Distributions.Dist
  | .weibull => fun a b => weibull a b 0
  | .gamma => fun a b => gammaDist a b 0
  | .loglogistic => fun a b => loglogistic a b 0
  | .beta => betaDist
  | .normal => normal
  | .lognormal => fun m s => lognormal m s 0
  | .gumbel => gumbel

def timesOf : LFam → ℝ → Prop
  | .weibull | .gamma | .loglogistic | .lognormal => fun t => 0 < t
  | .beta => fun t => 0 < t ∧ t < 1
  | .normal | .gumbel => fun _ => True

theorem family_names {s : String} {fam : LFam} (h : family s = some fam) :
    Names s (lawOf fam) (labels fam).1 (labels fam).2 (timesOf fam) := by
  unfold family at h
  unfold Names
  split_ifs at h with h1 h2 h3 h4 h5 h6 h7 <;> cases h
  · exact .inl ⟨h1, rfl, rfl, rfl, rfl⟩
  · exact .inr (.inl ⟨h2, rfl, rfl, rfl, rfl⟩)
  · exact .inr (.inr (.inl ⟨h3, rfl, rfl, rfl, rfl⟩))
  · exact .inr (.inr (.inr (.inl ⟨h4, rfl, rfl, rfl, rfl⟩)))
  · exact .inr (.inr (.inr (.inr (.inl ⟨h5, rfl, rfl, rfl, rfl⟩))))
  · exact .inr (.inr (.inr (.inr (.inr (.inl ⟨h6, rfl, rfl, rfl, rfl⟩)))))
  · exact .inr (.inr (.inr (.inr (.inr (.inr ⟨h7, rfl, rfl, rfl, rfl⟩)))))

/-- `LLfunction` is the logarithm of the likelihood. -/
theorem LLfunction_exp {fam : LFam} {x y : ℝ} {F C : List ℝ} (hl : Legal (labels fam).1 (x, y))
    (hF : ∀ t ∈ F, timesOf fam t) (hC : ∀ t ∈ C, timesOf fam t) :
    Real.exp (LLfunction fam x y F C) = lik (lawOf fam x y) F C := by
  have key : ∀ {L : ℝ}, LLfunction fam x y F C = loglik L → IsLogLik (lawOf fam x y).sp.pdf (lawOf fam x y).sp.sf F C (loglik L) →
      Real.exp (LLfunction fam x y F C) = lik (lawOf fam x y) F C := by
    intro L h1 h2
    rw [h1]
    exact h2
  have e : ∀ g r : ℝ → ℝ, (F.map g).sum + (C.map r).sum = loglik (LL g r F C) := by
    intro g r
    unfold loglik LL
    ring
  obtain ⟨l1, l2⟩ := hl
  cases fam
  · exact key (e _ _) (C41_weibull_2P x y (l1 rfl) l2 F C hF fun t ht => (hC t ht).le)
  · exact key (e _ _) (C41_gamma x y 0 (l1 rfl) l2 F C hF fun t ht => (hC t ht).le)
  · exact key (e _ _) (C41_loglogistic x y 0 (l1 rfl) l2 F C hF fun t ht => (hC t ht).le)
  · exact key (e _ _) (C41_beta_2P x y (l1 rfl) l2 F C hF hC)
  · exact key (e _ _) (C41_normal_2P x y l2 F C)
  · exact key (e _ _) (C41_lognormal x y 0 l2 F C hF hC)
  · exact key (e _ _) (C41_gumbel_2P x y l2 F C)

theorem chi2_integral (q : ℝ) : ∫ t in (0 : ℝ)..q, Real.exp (-t / 2) / 2 = 1 - Real.exp (-q / 2) := by
  have hd : ∀ t ∈ Set.uIcc (0 : ℝ) q, HasDerivAt (fun t : ℝ => -Real.exp (-t / 2)) (Real.exp (-t / 2) / 2) t := by
    intro t _
    have h1 : HasDerivAt (fun t : ℝ => -t / 2) (-1 / 2) t := ((hasDerivAt_id t).neg).div_const 2
    have h2 := h1.exp.fun_neg
    have e2 : -(Real.exp (-t / 2) * (-1 / 2)) = Real.exp (-t / 2) / 2 := by ring
    rw [e2] at h2
    exact h2
  rw [intervalIntegral.integral_eq_sub_of_hasDerivAt hd (by
    apply Continuous.intervalIntegrable; fun_prop)]
  simp
  ring

theorem chi2_two {c : Testing.Chi2} (h : Chi2Two c) {p : ℝ} (h0 : 0 < p) (h1 : p < 1) :
    -(0.5 * c.ppf p 2) = Real.log (1 - p) := by
  obtain ⟨hn, hi⟩ := h p h0 h1
  rw [chi2_integral] at hi
  have he : Real.exp (-(c.ppf p 2) / 2) = 1 - p := by linarith
  rw [← he, Real.log_exp]
  ring

theorem level_exp {N : Numerics} (hc : Chi2Two N.chi2) {ci : ℝ} (h0 : 0 < ci) (h1 : ci < 1) (M : ℝ) :
    Real.exp (level N M ci) = (1 - ci) * Real.exp M := by
  unfold level
  rw [sub_eq_add_neg, chi2_two hc h0 h1, Real.exp_add, Real.exp_log (by linarith), mul_comm]

theorem log_bounds {z : ℝ} {w : Row} (hi : Interval z w .log) (hp : 0 < w.point) :
    0 < w.lower ∧ w.lower ≤ w.point ∧ w.point ≤ w.upper := by
  obtain ⟨h1, -, h3, h4⟩ := hi hp.ne'
  refine ⟨?_, h3, h4⟩
  rw [h1]; positivity

theorem grid_pos {w : Row} (h0 : 0 < w.lower) (h1 : w.lower ≤ w.upper) {x : ℝ} (hx : x ∈ grid w) : 0 < x := by
  unfold grid at hx
  have := (Np.linspace_mem (by linarith) hx).1
  linarith

theorem sorted_perm (CI : CIL) : CI.sorted.Pairwise (fun a b => b ≤ a) := by
  cases CI with
  | one c => simp [CIL.sorted]
  | many l => simp only [CIL.sorted, List.pairwise_reverse]; exact Np.sort_sorted l

theorem times_given {failures rc : DataArg ℝ} {F C : List ℝ} (h : Given failures rc F C) :
    times failures = F ∧ times rc = C := by
  obtain ⟨h1, ⟨h2, h3⟩ | h2⟩ := h
  · rw [h1, h2, h3]; exact ⟨rfl, rfl⟩
  · rw [h1, h2]; exact ⟨rfl, rfl⟩

theorem point_legal {N : Numerics} (ha : IsArgsort N.argsort) {fam : LFam} {failures rc : DataArg ℝ} {m : StrArg} {w1 w2 : Row}
    (h : fitRows N fam failures rc m = .ok [w1, w2]) (hl : Legal (labels fam).1 (w1.point, w2.point)) {x y : ℝ}
    (hx : x ∈ grid w1) (hy : y ∈ grid w2) : Legal (labels fam).1 (x, y) := by
  obtain ⟨u1, u2, z, e, -, i1, i2, -⟩ := fitRows_ok ha h
  cases e
  obtain ⟨b1, b2, b3⟩ := log_bounds i2 hl.2
  refine ⟨fun hA => ?_, grid_pos b1 (b2.trans b3) hy⟩
  have hsc : scaleOf fam = .log := by
    cases fam <;> first | rfl | (exact absurd hA (by decide))
  rw [hsc] at i1
  obtain ⟨c1, c2, c3⟩ := log_bounds i1 (hl.1 hA)
  exact grid_pos c1 (c2.trans c3) hx

/-- **C122 (the contours).** The name given decides the family and the labels of the axes.  For data inside the support and
legal estimates: the plot has one band for every confidence level, the widest first; every grid point is a legal pair of
parameters; and a grid point lies in the band of level `ci` exactly if the likelihood of the caller's data there is at least
`1 - ci` times that at the estimates, and not more than that at the estimates. -/
theorem C122_contours {N : Numerics} (ha : IsArgsort N.argsort) (hc : Chi2Two N.chi2) {s : String}
    {failures rc : DataArg ℝ} {CI : CIL} {m : StrArg} {axes : (ℝ × ℝ) × (ℝ × ℝ)} {p : LPlot}
    (h : likelihoodPlot N s failures rc CI m axes = .ok p) :
    ∃ D T F C, Names s D p.xlabel p.ylabel T ∧ Given failures rc F C ∧
      (p.bands.map Prod.fst).Pairwise (fun a b => b ≤ a) ∧
      (∀ c, c ∈ p.bands.map Prod.fst ↔ CI = .one c ∨ ∃ l, CI = .many l ∧ c ∈ l) ∧
      ((∀ t ∈ F, T t) → (∀ t ∈ C, T t) → Legal p.xlabel p.point →
        0 < lik (D p.point.1 p.point.2) F C ∧
        ∀ (i j : ℕ) (x y : ℝ), p.xs[i]? = some x → p.ys[j]? = some y → Legal p.xlabel (x, y) ∧
          ∃ (row : List ℝ) (v : ℝ), p.mesh[j]? = some row ∧ row[i]? = some v ∧
            ∀ b ∈ p.bands, 0 < b.1 → b.1 < 1 → (b.2.1 ≤ v ∧ v ≤ b.2.2 ↔
              (1 - b.1) * lik (D p.point.1 p.point.2) F C ≤ lik (D x y) F C ∧
                lik (D x y) F C ≤ lik (D p.point.1 p.point.2) F C)) := by
  obtain ⟨fam, w1, w2, hf, hr, e1, e2, e3, e4, e5, e6, e7, -⟩ := run h
  obtain ⟨-, -, -, -, -, -, -, F, C, hg⟩ := fitRows_ok ha hr
  obtain ⟨t1, t2⟩ := times_given hg
  have hbm : p.bands.map Prod.fst = CI.sorted := by
    rw [e7, List.map_map]; exact List.map_id _
  refine ⟨lawOf fam, timesOf fam, F, C, ?_, hg, ?_, ?_, ?_⟩
  · rw [e1, e2]; exact family_names hf
  · rw [hbm]; exact sorted_perm CI
  · intro c
    rw [hbm]
    cases CI with
    | one d => simp [CIL.sorted, eq_comm]
    | many l => simp [CIL.sorted, (Np.sort_perm l).mem_iff]
  · intro hF hC hl
    rw [e1, e3] at hl
    refine ⟨by rw [e3, ← LLfunction_exp hl hF hC]; exact Real.exp_pos _, fun i j x y hx hy => ?_⟩
    have hxm : x ∈ grid w1 := by rw [← e4]; exact List.mem_of_getElem? hx
    have hym : y ∈ grid w2 := by rw [← e5]; exact List.mem_of_getElem? hy
    have hlxy := point_legal ha hr hl hxm hym
    refine ⟨by rw [e1]; exact hlxy, p.xs.map fun x => LLfunction fam x y (times failures) (times rc),
      LLfunction fam x y (times failures) (times rc), ?_, ?_, ?_⟩
    · rw [e6, List.getElem?_map, hy]; rfl
    · rw [List.getElem?_map, hx]; rfl
    · intro b hb h0 h1
      rw [e7, List.mem_map] at hb
      obtain ⟨ci, -, rfl⟩ := hb
      dsimp only at h0 h1 ⊢
      rw [e3, ← LLfunction_exp hl hF hC, ← LLfunction_exp hlxy hF hC, ← level_exp hc h0 h1, Real.exp_le_exp, Real.exp_le_exp,
        t1, t2]

/-- The spellings of each family. -/
def spellings : List (List String) :=
  [["WEIBULL", "WEIBULL_2P", "WEIBULL2P"], ["GAMMA", "GAMMA_2P", "GAMMA2P"],
   ["LOGLOGISTIC", "LOGLOGISTIC_2P", "LOGLOGISTIC2P"], ["BETA", "BETA_2P", "BETA2P"],
   ["NORMAL", "NORMAL_2P", "NORMAL2P"], ["LOGNORMAL", "LOGNORMAL_2P", "LOGNORMAL2P"],
   ["GUMBEL", "GUMBEL_2P", "GUMBEL2P"]]

theorem names_unique {s : String} {D D' : ℝ → ℝ → Distributions.Dist} {p q p' q' : String} {T T' : ℝ → Prop}
    (h : Names s D p q T) (h' : Names s D' p' q' T') : D' = D ∧ T' = T := by
  have dis : ∀ A ∈ spellings, ∀ u ∈ A, ∀ B ∈ spellings, u ∈ B → A = B := by decide
  unfold Names at h h'
  rcases h with ⟨a, rfl, -, -, rfl⟩ | ⟨a, rfl, -, -, rfl⟩ | ⟨a, rfl, -, -, rfl⟩ | ⟨a, rfl, -, -, rfl⟩ | ⟨a, rfl, -, -, rfl⟩ |
      ⟨a, rfl, -, -, rfl⟩ | ⟨a, rfl, -, -, rfl⟩ <;>
    rcases h' with ⟨a', rfl, -, -, rfl⟩ | ⟨a', rfl, -, -, rfl⟩ | ⟨a', rfl, -, -, rfl⟩ | ⟨a', rfl, -, -, rfl⟩ |
      ⟨a', rfl, -, -, rfl⟩ | ⟨a', rfl, -, -, rfl⟩ | ⟨a', rfl, -, -, rfl⟩ <;>
    first
      | exact ⟨rfl, rfl⟩
      | exact absurd (dis _ (by simp [spellings]) _ a _ (by simp [spellings]) a') (by decide)

/-- **C122 (maximum likelihood).** If no parameters on the grid have a larger likelihood than the estimates, the band of level
`ci` is the likelihood ratio region at `1 - ci`, and the band of a smaller level lies inside that of a larger one. -/
theorem C122_regions {N : Numerics} (ha : IsArgsort N.argsort) (hc : Chi2Two N.chi2) {s : String}
    {failures rc : DataArg ℝ} {CI : CIL} {m : StrArg} {axes : (ℝ × ℝ) × (ℝ × ℝ)} {p : LPlot}
    (h : likelihoodPlot N s failures rc CI m axes = .ok p) {D : ℝ → ℝ → Distributions.Dist} {T : ℝ → Prop} {F C : List ℝ}
    (hn : Names s D p.xlabel p.ylabel T) (hg : Given failures rc F C) (hF : ∀ t ∈ F, T t) (hC : ∀ t ∈ C, T t)
    (hl : Legal p.xlabel p.point)
    (hmax : ∀ x ∈ p.xs, ∀ y ∈ p.ys, lik (D x y) F C ≤ lik (D p.point.1 p.point.2) F C)
    {i j : ℕ} {x y v : ℝ} {row : List ℝ} (hx : p.xs[i]? = some x) (hy : p.ys[j]? = some y) (hrow : p.mesh[j]? = some row)
    (hv : row[i]? = some v) :
    (∀ b ∈ p.bands, 0 < b.1 → b.1 < 1 → (b.2.1 ≤ v ∧ v ≤ b.2.2 ↔
      (1 - b.1) * lik (D p.point.1 p.point.2) F C ≤ lik (D x y) F C)) ∧
    (∀ b ∈ p.bands, ∀ b' ∈ p.bands, 0 < b.1 → b.1 ≤ b'.1 → b'.1 < 1 → b.2.1 ≤ v ∧ v ≤ b.2.2 → b'.2.1 ≤ v ∧ v ≤ b'.2.2) := by
  obtain ⟨D', T', F', C', hn', hg', -, -, hmain⟩ := C122_contours ha hc h
  have hD := names_unique hn hn'
  have hFC : F' = F ∧ C' = C := by
    obtain ⟨t1, t2⟩ := times_given hg
    obtain ⟨u1, u2⟩ := times_given hg'
    exact ⟨u1.symm.trans t1, u2.symm.trans t2⟩
  obtain ⟨rfl, rfl⟩ := hD
  obtain ⟨rfl, rfl⟩ := hFC
  obtain ⟨hpos, hmain⟩ := hmain hF hC hl
  obtain ⟨hlxy, row', v', hr', hv', hb⟩ := hmain i j x y hx hy
  rw [hrow] at hr'
  cases hr'
  rw [hv] at hv'
  cases hv'
  have hm := hmax x (List.mem_of_getElem? hx) y (List.mem_of_getElem? hy)
  have h1 : ∀ b ∈ p.bands, 0 < b.1 → b.1 < 1 → (b.2.1 ≤ v ∧ v ≤ b.2.2 ↔
      (1 - b.1) * lik (D' p.point.1 p.point.2) F' C' ≤ lik (D' x y) F' C') := by
    intro b hbm h0 h1
    rw [hb b hbm h0 h1]
    exact and_iff_left hm
  refine ⟨h1, fun b hbm b' hbm' h0 hle hlt hin => ?_⟩
  rw [h1 b' hbm' (h0.trans_le hle) hlt]
  rw [h1 b hbm h0 (hle.trans_lt hlt)] at hin
  refine le_trans (mul_le_mul_of_nonneg_right (by linarith) ?_) hin
  exact hpos.le

theorem grid_first (w : Row) : (grid w).head? = some (w.lower / 4) := by
  unfold grid
  rw [List.head?_eq_getElem?, Np.linspace_first _ _ _ (by norm_num)]
  norm_num
  ring

theorem grid_last (w : Row) : (grid w).getLast? = some (4 * w.upper) := by
  unfold grid
  rw [List.getLast?_eq_getElem?, Np.linspace_length, Np.linspace_last _ _ _ (by norm_num), mul_comm]

theorem grid_length (w : Row) : (grid w).length = 500 := by
  unfold grid; rw [Np.linspace_length]

theorem grid_between {w : Row} {x : ℝ} (h : x ∈ grid w) : min (w.lower / 4) (4 * w.upper) ≤ x := by
  unfold grid Np.linspace at h
  rw [List.mem_map] at h
  obtain ⟨i, hi, rfl⟩ := h
  rw [List.mem_range] at hi
  have hi' : (i : ℝ) ≤ 499 := by exact_mod_cast Nat.lt_succ_iff.1 hi
  have h0 : (0 : ℝ) ≤ i := Nat.cast_nonneg i
  have e : w.lower * 0.25 + (i : ℝ) * ((w.upper * 4 - w.lower * 0.25) / ((500 - 1 : ℕ) : ℝ)) =
      (1 - i / 499) * (w.lower / 4) + (i / 499) * (4 * w.upper) := by
    norm_num; ring
  rw [e]
  have u0 : (0 : ℝ) ≤ i / 499 := by positivity
  have u1 : (i : ℝ) / 499 ≤ 1 := by rw [div_le_one (by norm_num)]; exact hi'
  nlinarith [min_le_left (w.lower / 4) (4 * w.upper), min_le_right (w.lower / 4) (4 * w.upper)]

/-- **C122 (the grid).** Each parameter has a grid of 500 values from a quarter of the lower to four times the upper confidence
bound that the class reports.  For legal estimates of positive parameters it extends beyond both bounds. -/
theorem C122_grid {N : Numerics} (ha : IsArgsort N.argsort) {s : String} {failures rc : DataArg ℝ} {CI : CIL} {m : StrArg}
    {axes : (ℝ × ℝ) × (ℝ × ℝ)} {p : LPlot} (h : likelihoodPlot N s failures rc CI m axes = .ok p) :
    ∃ fam w1 w2, family s = some fam ∧ fitRows N fam failures rc m = .ok [w1, w2] ∧ p.point = (w1.point, w2.point) ∧
      p.xs.length = 500 ∧ p.xs.head? = some (w1.lower / 4) ∧ p.xs.getLast? = some (4 * w1.upper) ∧
      p.ys.length = 500 ∧ p.ys.head? = some (w2.lower / 4) ∧ p.ys.getLast? = some (4 * w2.upper) ∧
      (0 < w2.point → w2.lower / 4 < w2.lower ∧ w2.lower ≤ w2.point ∧ w2.point ≤ w2.upper ∧ w2.upper < 4 * w2.upper) ∧
      (p.xlabel = "Alpha" → 0 < w1.point →
        w1.lower / 4 < w1.lower ∧ w1.lower ≤ w1.point ∧ w1.point ≤ w1.upper ∧ w1.upper < 4 * w1.upper) := by
  obtain ⟨fam, w1, w2, hf, hr, e1, -, e3, e4, e5, -⟩ := run h
  obtain ⟨u1, u2, z, e, -, i1, i2, -⟩ := fitRows_ok ha hr
  cases e
  refine ⟨fam, w1, w2, hf, hr, e3, by rw [e4, grid_length], by rw [e4, grid_first], by rw [e4, grid_last],
    by rw [e5, grid_length], by rw [e5, grid_first], by rw [e5, grid_last], fun hp => ?_, fun hA hp => ?_⟩
  · obtain ⟨b1, b2, b3⟩ := log_bounds i2 hp
    exact ⟨by linarith, b2, b3, by linarith⟩
  · have hsc : scaleOf fam = .log := by
      rw [e1] at hA
      cases fam <;> first | rfl | (exact absurd hA (by decide))
    rw [hsc] at i1
    obtain ⟨b1, b2, b3⟩ := log_bounds i1 hp
    exact ⟨by linarith, b2, b3, by linarith⟩

/-- **C122 (finding).** For a location (Normal, Lognormal, Gumbel) with a negative lower confidence bound that is less than
four times the upper one, the grid does not reach that bound, so the contour is cut off; if also the estimate is less than a
quarter of the lower bound and four times the upper bound, even the estimate lies outside of the grid. -/
theorem C122_location_finding {N : Numerics} (ha : IsArgsort N.argsort) {s : String} {failures rc : DataArg ℝ} {CI : CIL}
    {m : StrArg} {axes : (ℝ × ℝ) × (ℝ × ℝ)} {p : LPlot} (h : likelihoodPlot N s failures rc CI m axes = .ok p)
    (hmu : p.xlabel = "Mu") :
    ∃ fam w1 w2, family s = some fam ∧ fitRows N fam failures rc m = .ok [w1, w2] ∧ p.point = (w1.point, w2.point) ∧
      (∃ z, 0 < z ∧ w1.lower = w1.point - z * w1.SE ∧ w1.upper = w1.point + z * w1.SE) ∧
      (w1.lower < 0 → w1.lower < 4 * w1.upper → ∀ x ∈ p.xs, w1.lower < x) ∧
      (w1.point < w1.lower / 4 → w1.point < 4 * w1.upper → ∀ x ∈ p.xs, p.point.1 < x) := by
  obtain ⟨fam, w1, w2, hf, hr, e1, -, e3, e4, -⟩ := run h
  obtain ⟨u1, u2, z, e, hz, i1, -, -⟩ := fitRows_ok ha hr
  cases e
  have hsc : scaleOf fam = .linear := by
    rw [e1] at hmu
    cases fam <;> first | rfl | (exact absurd hmu (by decide))
  rw [hsc] at i1
  refine ⟨fam, w1, w2, hf, hr, e3, ⟨z, hz, i1.1, i1.2.1⟩, fun h1 h2 x hx => ?_, fun h1 h2 x hx => ?_⟩
  · rw [e4] at hx
    exact lt_of_lt_of_le (lt_min (by linarith) h2) (grid_between hx)
  · rw [e4] at hx
    rw [e3]
    exact lt_of_lt_of_le (lt_min h1 h2) (grid_between hx)

/-- **C122 (refusals).** A name that is not one of the seven families is a ValueError. -/
theorem C122_unknown (N : Numerics) {s : String} (hs : ∀ D p q T, ¬ Names s D p q T) (failures rc : DataArg ℝ) (CI : CIL)
    (m : StrArg) (axes : (ℝ × ℝ) × (ℝ × ℝ)) : likelihoodPlot N s failures rc CI m axes = .error .valueError := by
  unfold likelihoodPlot
  cases hf : family s with
  | none => rfl
  | some fam => exact absurd (family_names hf) (hs _ _ _ _)

theorem allVertices_ok {paths : ℝ → List (List (ℝ × ℝ))} : ∀ {ls : List ℝ} {v : List (ℝ × ℝ)}, allVertices paths ls = .ok v →
    ∀ l ∈ ls, ∃ c, (paths l).head? = some c ∧ ∀ q ∈ c, q ∈ v
  | [], _, _ => by simp
  | l :: ls, v, h => by
    simp only [allVertices, bind_ok] at h
    obtain ⟨c, hc, vs, hvs, h⟩ := h
    cases h
    intro l' hl'
    rcases List.mem_cons.1 hl' with rfl | hl'
    · unfold firstPath at hc
      split at hc
      · cases hc
      · rename_i heq
        split_ifs at hc
        cases hc
        exact ⟨_, by rw [heq]; rfl, fun q hq => List.mem_append_left _ hq⟩
    · obtain ⟨c', h1, h2⟩ := allVertices_ok hvs l' hl'
      exact ⟨c', h1, fun q hq => List.mem_append_right _ (h2 q hq)⟩

theorem limits_ok {prev : Option (ℝ × ℝ)} {v : List ℝ} {o : ℝ × ℝ} (h : limits prev v = .ok o) :
    (∀ q ∈ v, o.1 ≤ q ∧ q ≤ o.2) ∧ ∀ l r, prev = some (l, r) → o.1 ≤ l ∧ r ≤ o.2 := by
  unfold limits at h
  split at h
  · rename_i lo hi hlo hhi
    rw [Np.max?_iff] at hhi
    have hlo' := List.min?_eq_some_iff.1 hlo
    have hle : lo ≤ hi := hhi.2 _ hlo'.1
    cases prev with
    | none =>
      cases h
      refine ⟨fun q hq => ⟨?_, ?_⟩, by simp⟩
      · have := hlo'.2 q hq
        dsimp only; nlinarith
      · have := hhi.2 q hq
        dsimp only; nlinarith
    | some lr =>
      obtain ⟨l, r⟩ := lr
      cases h
      refine ⟨fun q hq => ⟨min_le_of_right_le ?_, le_max_of_le_right ?_⟩, ?_⟩
      · have := hlo'.2 q hq
        nlinarith
      · have := hhi.2 q hq
        nlinarith
      · rintro l' r' e
        cases e
        exact ⟨min_le_left _ _, le_max_left _ _⟩
  · cases h

/-- **C122 (the axes).** The axes show the first path of every contour, and everything an existing plot showed (a plot whose
axes are not both 0 to 1). -/
theorem C122_axes {N : Numerics} {s : String} {failures rc : DataArg ℝ} {CI : CIL} {m : StrArg}
    {axes : (ℝ × ℝ) × (ℝ × ℝ)} {p : LPlot} (h : likelihoodPlot N s failures rc CI m axes = .ok p) :
    (∀ b ∈ p.bands, ∃ c, (N.contour p.xs p.ys p.mesh b.2.1).head? = some c ∧
      ∀ q ∈ c, p.xlim.1 ≤ q.1 ∧ q.1 ≤ p.xlim.2 ∧ p.ylim.1 ≤ q.2 ∧ q.2 ≤ p.ylim.2) ∧
    (axes ≠ ((0, 1), (0, 1)) → p.xlim.1 ≤ axes.1.1 ∧ axes.1.2 ≤ p.xlim.2 ∧ p.ylim.1 ≤ axes.2.1 ∧ axes.2.2 ≤ p.ylim.2) := by
  obtain ⟨fam, w1, w2, hf, hr, e1, -, e3, e4, e5, e6, e7, v, hv, hx, hy⟩ := run h
  obtain ⟨x1, x2⟩ := limits_ok hx
  obtain ⟨y1, y2⟩ := limits_ok hy
  refine ⟨fun b hb => ?_, fun hne => ?_⟩
  · rw [e7, List.mem_map] at hb
    obtain ⟨ci, hci, rfl⟩ := hb
    obtain ⟨c, hc, hq⟩ := allVertices_ok hv _ (List.mem_map_of_mem hci)
    refine ⟨c, hc, fun q hqc => ?_⟩
    have a1 := x1 q.1 (List.mem_map_of_mem (hq q hqc))
    have a2 := y1 q.2 (List.mem_map_of_mem (hq q hqc))
    exact ⟨a1.1, a1.2, a2.1, a2.2⟩
  · have hn : ¬ (axes.1 = (0, 1) ∧ axes.2 = (0, 1)) := by
      rintro ⟨h1, h2⟩
      exact hne (Prod.ext h1 h2)
    rw [if_pos hn] at x2 y2
    have a1 := x2 axes.1.1 axes.1.2 rfl
    have a2 := y2 axes.2.1 axes.2.2 rfl
    exact ⟨a1.1, a1.2, a2.1, a2.2⟩

theorem allVertices_mem {paths : ℝ → List (List (ℝ × ℝ))} : ∀ {ls : List ℝ} {v : List (ℝ × ℝ)}, allVertices paths ls = .ok v →
    ∀ q, q ∈ v ↔ ∃ l ∈ ls, ∃ c, (paths l).head? = some c ∧ q ∈ c
  | [], v, h => by cases h; simp
  | l :: ls, v, h => by
    unfold allVertices at h
    simp only [bind_ok] at h
    obtain ⟨a, ha, b, hb, h⟩ := h
    cases h
    have hh : (paths l).head? = some a := by
      unfold firstPath at ha
      split at ha
      · cases ha
      · rename_i c cs e
        split at ha
        · cases ha
        · cases ha; rw [e]; rfl
    intro q
    rw [List.mem_append, allVertices_mem hb q]
    constructor
    · rintro (h | ⟨l', hl, h⟩)
      · exact ⟨l, List.mem_cons_self, a, hh, h⟩
      · exact ⟨l', List.mem_cons_of_mem _ hl, h⟩
    · rintro ⟨l', hl, c, hc, h⟩
      rcases List.mem_cons.1 hl with rfl | hl
      · rw [hh] at hc; cases hc; exact .inl h
      · exact .inr ⟨l', hl, c, hc, h⟩

theorem limits_exact {prev : Option (ℝ × ℝ)} {v : List ℝ} {o : ℝ × ℝ} (h : limits prev v = .ok o) :
    ∃ lo hi, IsLeast {q | q ∈ v} lo ∧ IsGreatest {q | q ∈ v} hi ∧
      (prev = none → o = (lo - (hi - lo) / 5, hi + (hi - lo) / 5)) ∧
      ∀ l r, prev = some (l, r) → o = (min l (lo - (hi - lo) / 5), max r (hi + (hi - lo) / 5)) := by
  unfold limits at h
  split at h
  · rename_i lo hi hlo hhi
    rw [Np.max?_iff] at hhi
    have hlo' := List.min?_eq_some_iff.1 hlo
    have hm : (hi - lo) * 0.2 = (hi - lo) / 5 := by ring
    refine ⟨lo, hi, ⟨hlo'.1, fun q hq => hlo'.2 q hq⟩, ⟨hhi.1, fun q hq => hhi.2 q hq⟩, ?_, ?_⟩
    · rintro rfl
      simp only [hm] at h
      cases h; rfl
    · rintro l r rfl
      simp only [hm] at h
      cases h; rfl
  · cases h

/-- **C122 (margins).** Let V be the points of the first paths of all contours.  On a new plot the axes run from the least to the
greatest coordinate of V with a margin of 20% of that distance on either side; on an existing plot they are the smallest ones
that show this and what was shown before. -/
theorem C122_margins {N : Numerics} {s : String} {failures rc : DataArg ℝ} {CI : CIL} {m : StrArg}
    {axes : (ℝ × ℝ) × (ℝ × ℝ)} {p : LPlot} (h : likelihoodPlot N s failures rc CI m axes = .ok p) :
    ∃ V : List (ℝ × ℝ), (∀ q, q ∈ V ↔ ∃ b ∈ p.bands, ∃ c, (N.contour p.xs p.ys p.mesh b.2.1).head? = some c ∧ q ∈ c) ∧
      ∃ x0 x1 y0 y1, IsLeast {x | ∃ q ∈ V, q.1 = x} x0 ∧ IsGreatest {x | ∃ q ∈ V, q.1 = x} x1 ∧
        IsLeast {y | ∃ q ∈ V, q.2 = y} y0 ∧ IsGreatest {y | ∃ q ∈ V, q.2 = y} y1 ∧
        (axes = ((0, 1), (0, 1)) → p.xlim = (x0 - (x1 - x0) / 5, x1 + (x1 - x0) / 5) ∧
          p.ylim = (y0 - (y1 - y0) / 5, y1 + (y1 - y0) / 5)) ∧
        (axes ≠ ((0, 1), (0, 1)) →
          p.xlim = (min axes.1.1 (x0 - (x1 - x0) / 5), max axes.1.2 (x1 + (x1 - x0) / 5)) ∧
          p.ylim = (min axes.2.1 (y0 - (y1 - y0) / 5), max axes.2.2 (y1 + (y1 - y0) / 5))) := by
  obtain ⟨fam, w1, w2, hf, hr, e1, -, e3, e4, e5, e6, e7, v, hv, hx, hy⟩ := run h
  obtain ⟨x0, x1, a1, a2, a3, a4⟩ := limits_exact hx
  obtain ⟨y0, y1, b1, b2, b3, b4⟩ := limits_exact hy
  have hset : ∀ (g : ℝ × ℝ → ℝ), {q | q ∈ v.map g} = {x | ∃ q ∈ v, g q = x} := by
    intro g; ext x; simp
  rw [hset] at a1 a2 b1 b2
  refine ⟨v, ?_, x0, x1, y0, y1, a1, a2, b1, b2, ?_, ?_⟩
  · intro q
    rw [allVertices_mem hv q, e7]
    simp
  · rintro rfl
    exact ⟨a3 (by simp), b3 (by simp)⟩
  · intro hne
    have hn : ¬ (axes.1 = (0, 1) ∧ axes.2 = (0, 1)) := by
      rintro ⟨h1, h2⟩
      exact hne (Prod.ext h1 h2)
    exact ⟨a4 _ _ (if_pos hn), b4 _ _ (if_pos hn)⟩

theorem limits_returns (prev : Option (ℝ × ℝ)) {v : List ℝ} (h : v ≠ []) : ∃ o, limits prev v = .ok o := by
  obtain ⟨lo, hlo⟩ := Option.ne_none_iff_exists'.1 (mt List.min?_eq_none_iff.1 h)
  obtain ⟨hi, hhi⟩ := Option.ne_none_iff_exists'.1 (mt List.max?_eq_none_iff.1 h)
  unfold limits
  rw [hlo, hhi]
  cases prev with
  | none => exact ⟨_, rfl⟩
  | some lr => exact ⟨_, rfl⟩

theorem vertices_return {paths : ℝ → List (List (ℝ × ℝ))} (h : ∀ l, ∃ q c cs, paths l = (q :: c) :: cs) :
    ∀ ls : List ℝ, ∃ v, allVertices paths ls = .ok v ∧ (ls ≠ [] → v ≠ [])
  | [] => ⟨[], rfl, by simp⟩
  | l :: ls => by
    obtain ⟨v, hv, -⟩ := vertices_return h ls
    obtain ⟨q, c, cs, e⟩ := h l
    refine ⟨(q :: c) ++ v, ?_, by simp⟩
    simp only [allVertices, bind_ok]
    exact ⟨q :: c, by rw [e]; rfl, v, hv, rfl⟩

/-- **C122 (success).** A plot is drawn if the name is one of the families, the class returns, a level is given and matplotlib
finds a contour at every level. -/
theorem C122_returns {N : Numerics} (ha : IsArgsort N.argsort) {s : String} {fam : LFam} (hs : family s = some fam)
    {failures rc : DataArg ℝ} {m : StrArg} {rows : List Row} (hr : fitRows N fam failures rc m = .ok rows) {CI : CIL}
    (hCI : CI ≠ .many []) (hp : ∀ xs ys mesh l, ∃ q c cs, N.contour xs ys mesh l = (q :: c) :: cs)
    (axes : (ℝ × ℝ) × (ℝ × ℝ)) : ∃ p, likelihoodPlot N s failures rc CI m axes = .ok p := by
  obtain ⟨w1, w2, -, rfl, -⟩ := fitRows_ok ha hr
  have hne : CI.sorted ≠ [] := by
    cases CI with
    | one c => simp [CIL.sorted]
    | many l =>
      intro h
      simp only [CIL.sorted, List.reverse_eq_nil_iff] at h
      have := (Np.sort_perm l).length_eq
      rw [h] at this
      exact hCI (by rw [List.eq_nil_of_length_eq_zero this.symm])
  obtain ⟨v, hv, hvn⟩ := vertices_return (fun l => hp (grid w1) (grid w2) ((grid w2).map fun y => (grid w1).map fun x =>
    LLfunction fam x y (times failures) (times rc)) l) (CI.sorted.map (level N (LLfunction fam w1.point w2.point
      (times failures) (times rc))))
  have hvn := hvn (by simpa using hne)
  obtain ⟨xl, hx⟩ := limits_returns (open Classical in if ¬ (axes.1 = (0, 1) ∧ axes.2 = (0, 1)) then some axes.1 else none)
    (v := v.map Prod.fst) (by simpa using hvn)
  obtain ⟨yl, hy⟩ := limits_returns (open Classical in if ¬ (axes.1 = (0, 1) ∧ axes.2 = (0, 1)) then some axes.2 else none)
    (v := v.map Prod.snd) (by simpa using hvn)
  unfold likelihoodPlot
  rw [hs]
  simp only [bind_ok]
  rw [exists_comm]
  refine ⟨[w1, w2], ?_⟩
  simp only [bind_ok, hr, true_and]
  exact ⟨_, v, hv, xl, hx, yl, hy, rfl⟩

/-- Numerical routines for the example: C102's, exact chi-squared quantiles, a contour with two vertices. -/
noncomputable def exN (argsort : List ℝ → List ℕ) (J : Jac) : Numerics where
  argsort := argsort
  J := J
  num2 := exNum2
  num := (exNum2 none).1
  chi2 := ⟨fun p _ => -2 * Real.log (1 - p), fun _ _ => 0⟩
  contour := fun _ _ _ _ => [[(1, 1), (2, 2)]]

theorem exN_chi2 (argsort : List ℝ → List ℕ) (J : Jac) : Chi2Two (exN argsort J).chi2 := by
  intro p h0 h1
  have hl : Real.log (1 - p) ≤ 0 := Real.log_nonpos (by linarith) (by linarith)
  refine ⟨by show (0 : ℝ) ≤ -2 * Real.log (1 - p); linarith, ?_⟩
  have : ∫ t in (0 : ℝ)..(-2 * Real.log (1 - p)), Real.exp (-t / 2) / 2 = 1 - Real.exp (-(-2 * Real.log (1 - p)) / 2) := by
    rw [chi2_integral]
  show ∫ t in (0 : ℝ)..(-2 * Real.log (1 - p)), Real.exp (-t / 2) / 2 = p
  rw [this]
  have e : -(-2 * Real.log (1 - p)) / 2 = Real.log (1 - p) := by ring
  rw [e, Real.exp_log (by linarith)]
  ring

/-- The hypotheses of C122 are met: a Weibull plot of three failures and a censored time at two levels. -/
example {argsort : List ℝ → List ℕ} (ha : IsArgsort argsort) (J : Jac) :
    ∃ p, likelihoodPlot (exN argsort J) "weibull" (.array [0.1, 0.2, 0.3]) (.array [0.4]) (.many [0.5, 0.95]) (.str "MLE")
      ((0, 1), (0, 1)) = .ok p ∧ p.xlabel = "Alpha" ∧ p.xs.length = 500 ∧ p.bands.length = 2 := by
  obtain ⟨r, hr⟩ := ex_weibull_returns ha J
  have hf : family "weibull" = some .weibull := by decide +kernel
  obtain ⟨p, hp⟩ := C122_returns (N := exN argsort J) ha hf (failures := .array [0.1, 0.2, 0.3]) (rc := .array [0.4])
    (m := .str "MLE") (rows := r.rows) (by
      show (fitWeibull2P argsort J exNum2 exArgs).map FitRes.rows = _
      rw [hr]; rfl) (CI := .many [0.5, 0.95]) (by simp) (fun _ _ _ _ => ⟨_, _, _, rfl⟩) ((0, 1), (0, 1))
  obtain ⟨fam, w1, w2, hf', -, e1, -, -, e4, -, -, e7, -⟩ := run hp
  rw [hf] at hf'
  cases hf'
  refine ⟨p, hp, e1, by rw [e4, grid_length], ?_⟩
  rw [e7, List.length_map, CIL.sorted, List.length_reverse, (Np.sort_perm _).length_eq]
  rfl

end Reliability.Props.LikelihoodPlot
