import Verif.Spec.ProbPaper
import Verif.Props.ProbPaperLimits
import Verif.Props.PlotPoints
import Verif.Props.Arrays

/-!
# C118: the probability plots
-/

namespace Reliability.ProbPaper

open Reliability Reliability.Distributions Reliability.Utils List

/-! ## straight lines -/

theorem weibull_cdf {alpha beta t : ℝ} (ha : 0 < alpha) (ht : 0 < t) :
    (weibull alpha beta 0).sp.cdf t = 1 - Real.exp (-((t / alpha) ^ beta)) := by
  simp only [weibull, locScale, weibullStd, sub_zero]
  rw [if_neg (not_le.2 (div_pos ht ha))]

/-- **C118 (Weibull paper).** A Weibull CDF is the straight line of slope beta that reaches 63.2% at alpha. -/
theorem C118_straight_weibull {alpha beta : ℝ} (ha : 0 < alpha) :
    Straight .weibull (Set.Ioi 0) (weibull alpha beta 0).sp.cdf beta (-(beta * Real.log alpha)) := by
  intro t ht
  have ht : 0 < t := ht
  rw [weibull_cdf ha ht]
  simp only [Paper.vertical, Paper.axis, axisWeibull, Paper.horizontal, Paper.logx, if_true]
  rw [sub_sub_cancel, Real.log_exp, neg_neg, Real.log_rpow (div_pos ht ha), Real.log_div ht.ne' ha.ne']
  ring

/-- **C118 (Weibull paper).** An Exponential CDF is the straight line of slope 1. -/
theorem C118_straight_exponential_weibull_scale {Lambda : ℝ} (hl : 0 < Lambda) :
    Straight .weibull (Set.Ioi 0) (exponential Lambda 0).sp.cdf 1 (Real.log Lambda) := by
  intro t ht
  have ht : 0 < t := ht
  have hz : 0 < t / (1 / Lambda) := by positivity
  simp only [Paper.vertical, Paper.axis, axisWeibull, Paper.horizontal, Paper.logx, if_true, exponential, locScale, exponStd,
    sub_zero]
  rw [if_neg (not_le.2 hz), sub_sub_cancel, Real.log_exp, neg_neg, div_div_eq_mul_div, div_one,
    Real.log_mul ht.ne' hl.ne']
  ring

theorem horizontal_lin {p : Paper} (h : p.logx = false) (t : ℝ) : p.horizontal t = t := by
  simp [Paper.horizontal, h]

theorem horizontal_log {p : Paper} (h : p.logx = true) (t : ℝ) : p.horizontal t = Real.log t := by
  simp [Paper.horizontal, h]

/-- **C118 (Exponential paper).** An Exponential CDF is the straight line through the origin of slope Lambda. -/
theorem C118_straight_exponential {Lambda : ℝ} (hl : 0 < Lambda) :
    Straight .exponential (Set.Ioi 0) (exponential Lambda 0).sp.cdf Lambda 0 := by
  intro t ht
  have ht : 0 < t := ht
  have hz : 0 < (t - 0) / (1 / Lambda) := by rw [sub_zero]; positivity
  have e : Paper.vertical .exponential ((exponential Lambda 0).sp.cdf t) = (t - 0) / (1 / Lambda) :=
    Props.C52_axis_exponential.fwd_inv _ hz
  rw [e, horizontal_lin rfl, sub_zero, add_zero, div_div_eq_mul_div, div_one, mul_comm]

/-- **C118 (Loglogistic paper).** A Loglogistic CDF is the straight line of slope beta that reaches 50% at alpha. -/
theorem C118_straight_loglogistic {alpha beta : ℝ} (ha : 0 < alpha) :
    Straight .loglogistic (Set.Ioi 0) (loglogistic alpha beta 0).sp.cdf beta (-(beta * Real.log alpha)) := by
  intro t ht
  have ht : 0 < t := ht
  have hz : 0 < t / alpha := div_pos ht ha
  rw [horizontal_log rfl]
  simp only [Paper.vertical, Paper.axis, axisLoglogistic, loglogistic, locScale, sub_zero, fiskStd]
  rw [if_neg (not_le.2 hz), Real.rpow_neg hz.le]
  have hw : 0 < (t / alpha) ^ beta := Real.rpow_pos_of_pos hz _
  have e : 1 / (1 - 1 / (1 + ((t / alpha) ^ beta)⁻¹)) - 1 = (t / alpha) ^ beta := by
    have : 1 - 1 / (1 + ((t / alpha) ^ beta)⁻¹) = 1 / (1 + (t / alpha) ^ beta) := by
      field_simp
      ring
    rw [this]
    field_simp
    ring
  rw [e, Real.log_rpow hz, Real.log_div ht.ne' ha.ne']
  ring

/-- **C118 (Normal paper).** A Normal CDF is the straight line of slope 1/sigma that reaches 50% at mu. -/
theorem C118_straight_normal {mu sigma : ℝ} :
    Straight .normal Set.univ (normal mu sigma).sp.cdf (1 / sigma) (-(mu / sigma)) := by
  intro t _
  have e : Paper.vertical .normal ((normal mu sigma).sp.cdf t) = (t - mu) / sigma :=
    Props.C52_axis_normal.fwd_inv _ trivial
  rw [e, horizontal_lin rfl]
  ring

/-- **C118 (Lognormal paper).** A Lognormal CDF is the straight line of slope 1/sigma that reaches 50% at exp(mu). -/
theorem C118_straight_lognormal {mu sigma : ℝ} :
    Straight .lognormal (Set.Ioi 0) (lognormal mu sigma 0).sp.cdf (1 / sigma) (-(mu / sigma)) := by
  intro t ht
  have ht : 0 < t := ht
  have hz : 0 < t / Real.exp mu := div_pos ht (Real.exp_pos _)
  have hc : (lognormal mu sigma 0).sp.cdf t = normStd.cdf (Real.log (t / Real.exp mu) / sigma) := by
    simp only [lognormal, ofScipy, locScale, lognormStd, sub_zero]
    rw [if_neg (not_le.2 hz)]
  have e : Paper.vertical .lognormal (normStd.cdf (Real.log (t / Real.exp mu) / sigma)) =
    Real.log (t / Real.exp mu) / sigma := Props.C52_axis_normal.fwd_inv _ trivial
  rw [hc, e, horizontal_log rfl, Real.log_div ht.ne' (Real.exp_pos _).ne', Real.log_exp]
  ring

/-- **C118 (Gumbel paper).** A Gumbel CDF is the straight line of slope 1/sigma that reaches 63.2% at mu. -/
theorem C118_straight_gumbel {mu sigma : ℝ} :
    Straight .gumbel Set.univ (gumbel mu sigma).sp.cdf (1 / sigma) (-(mu / sigma)) := by
  intro t _
  have e : Paper.vertical .gumbel ((gumbel mu sigma).sp.cdf t) = (t - mu) / sigma :=
    Props.C52_axis_gumbel.fwd_inv _ trivial
  rw [e, horizontal_lin rfl]
  ring

/-- **C118 (Gamma paper).** On the paper of its own beta, a Gamma CDF is the straight line of slope 1/alpha through the
origin. -/
theorem C118_straight_gamma {alpha beta : ℝ} (ha : 0 < alpha) (hb : 0 < beta) :
    Straight (.gamma beta) (Set.Ioi 0) (gammaDist alpha beta 0).sp.cdf (1 / alpha) 0 := by
  intro t ht
  have ht : 0 < t := ht
  have hz : 0 < (t - 0) / alpha := by rw [sub_zero]; exact div_pos ht ha
  have e : Paper.vertical (.gamma beta) ((gammaDist alpha beta 0).sp.cdf t) = (t - 0) / alpha :=
    (Props.C52_axis_gamma beta hb).fwd_inv _ hz
  rw [e, horizontal_lin rfl]
  ring

/-- **C118 (Beta paper).** On the paper of its own parameters, a Beta CDF is the diagonal. -/
theorem C118_straight_beta {alpha beta : ℝ} (ha : 0 < alpha) (hb : 0 < beta) :
    Straight (.beta alpha beta) (Set.Ioo 0 1) (betaDist alpha beta).sp.cdf 1 0 := by
  intro t ht
  have e : Paper.vertical (.beta alpha beta) ((betaDist alpha beta).sp.cdf t) = (t - 0) / 1 :=
    (Props.C52_axis_beta alpha beta ha hb).fwd_inv _ (by simpa using ht)
  rw [e, horizontal_lin rfl]
  ring

/-! ## the points -/

variable {argsort : List ℝ → List Nat}

/-- Shifting all times does not change the plotting positions. -/
theorem positions_shift (hs : IsArgsort argsort) {f : List ℝ} {rc : Option (List ℝ)} {a : Option ℝ} (hf : f ≠ [])
    (ha : 0 ≤ a.getD (3 / 10)) (ha1 : a.getD (3 / 10) < 1) (ht : ∀ t ∈ f, t ∉ rc.getD []) (g : ℝ → ℝ)
    (hg : StrictMono g) :
    ∃ x y F, PP.plottingPositions argsort f rc a true = .ok (x, y) ∧
      PP.plottingPositions argsort (f.map g) (rc.map (List.map g)) a false = .ok (f.map g, F) ∧ F.length = f.length ∧
      (f.map g).zip F ~ (x.zip y).map (fun p => (g p.1, p.2)) ∧ ∀ p ∈ F, 0 < p ∧ p < 1 := by
  have hf' : f.map g ≠ [] := by simpa using hf
  obtain ⟨x', y', F, h1, h2, h3, h4, h5, h6⟩ := ProbPlots.positions_of hs (rc := rc.map (List.map g)) hf' ha ha1
  obtain ⟨x, y, F0, k1, k2, k3, k4, k5, k6⟩ := ProbPlots.positions_of hs (rc := rc) hf ha ha1
  have hd : ∀ (f : List ℝ) (rc : Option (List ℝ)), f ≠ [] →
      ((f.length + (rc.getD []).length : Nat) : ℝ) + 1 - 2 * a.getD (3 / 10) ≠ 0 := by
    intro f rc hg
    have : (1 : ℝ) ≤ ((f.length + (rc.getD []).length : ℕ) : ℝ) := by
      exact_mod_cast (by have : f.length ≠ 0 := by simpa using hg
                         omega)
    linarith
  have hrc : (rc.map (List.map g)).getD [] = (rc.getD []).map g := by cases rc <;> rfl
  set m : ℝ × Bool → ℝ × Bool := fun p => (g p.1, p.2) with hm
  have ho : PP.ordered argsort (f.map g) ((rc.getD []).map g) = (PP.ordered argsort f (rc.getD [])).map m := by
    have q := (PP.ordered_perm hs f (rc.getD [])).map m
    have q' := PP.ordered_perm hs (f.map g) ((rc.getD []).map g)
    have e : (f.map (fun t => (t, true)) ++ (rc.getD []).map (fun t => (t, false))).map m =
        (f.map g).map (fun t => (t, true)) ++ ((rc.getD []).map g).map (fun t => (t, false)) := by
      simp [hm, Function.comp_def]
    rw [e] at q
    have qq := q'.trans q.symm
    refine qq.eq_of_pairwise ?_ (PP.ordered_sorted hs _ _) ?_
    · rintro ⟨u, b⟩ ⟨v, c⟩ hu hv huv hvu
      have e : u = v := le_antisymm huv hvu
      subst e
      rw [q'.mem_iff] at hu
      rw [q.mem_iff] at hv
      simp only [mem_append, mem_map, Prod.mk.injEq] at hu hv
      rcases hu with ⟨_, ⟨w, hw, rfl⟩, rfl, rfl⟩ | ⟨_, ⟨w, hw, rfl⟩, rfl, rfl⟩ <;>
        rcases hv with ⟨_, ⟨z, hz, e⟩, rfl, rfl⟩ | ⟨_, ⟨z, hz, e⟩, rfl, rfl⟩
      · rfl
      · exact absurd (hg.injective e ▸ hz) (ht _ hw)
      · exact absurd hw (hg.injective e ▸ ht _ hz)
      · rfl
    · rw [pairwise_map]
      exact (PP.ordered_sorted hs f (rc.getD [])).imp fun h => hg.monotone h
  rw [PP.plottingPositions_sorted hs _ _ a hf' ha ha1.le (hd _ _ hf'), hrc, ho] at h1
  have k1' := k1
  rw [PP.plottingPositions_sorted hs _ _ a hf ha ha1.le (hd _ _ hf)] at k1
  cases h1
  cases k1
  set S := PP.ordered argsort f (rc.getD []) with hS
  have hpos : PP.Spec.positions (a.getD (3 / 10)) (S.map m) = PP.Spec.positions (a.getD (3 / 10)) S := by
    have hi : PP.Spec.isFail (S.map m) = PP.Spec.isFail S := by
      funext i
      simp only [PP.Spec.isFail, getElem?_map, Option.map_map]
      rfl
    simp only [PP.Spec.positions, PP.Spec.failPositions, PP.Spec.rank, hi, length_map]
  have hx : ((S.map m).filter fun x => x.2).map Prod.fst = ((S.filter fun x => x.2).map Prod.fst).map g := by
    rw [filter_map, map_map, map_map]
    rfl
  have hz : ∀ A B : List ℝ, (A.map g).zip B = (A.zip B).map fun p => (g p.1, p.2) := by
    intro A B
    rw [zip_map_left]
    rfl
  rw [hpos, hx, hz _ (PP.Spec.positions _ _)] at h5
  refine ⟨_, _, F, k1', h2, by simpa using h4.symm, h5, h6⟩

/-- The order of the options under which the points are drawn without downsampling. -/
theorem draw_spec (hs : IsArgsort argsort) {f : List ℝ} {rc : Option (List ℝ)} {o : Opts} (hf : f ≠ [])
    (ha : 0 ≤ o.a.getD (3 / 10)) (ha1 : o.a.getD (3 / 10) < 1) (ht : ∀ t ∈ f, t ∉ rc.getD []) (k : ℝ)
    (hsc : o.show_scatter = true) (hds : Undownsampled o.downsample f.length) {p : Paper} (hp : p.Ok)
    (hpos : (∀ t ∈ f, 0 < t + k) ∨ p.negative = true ∧ ∃ v ∈ f, ∃ w ∈ f, v ≠ w) (sh : Bool)
    (line : Option Distributions.Dist) :
    ∃ r, draw argsort o p sh line (f.map (· + k)) (rc.map (List.map (· + k))) = .ok r ∧
      r.line = (if o.show_fit then line else none) ∧ r.paper = p ∧ r.shifted = sh ∧ ShowsData argsort o.a f rc k r ∧
      AllVisible r := by
  obtain ⟨x, y, F, h1, h2, h3, h4, h5⟩ := positions_shift hs hf ha ha1 ht (· + k) (fun a b h => by simpa using h)
  have hF : F ≠ [] := by
    rw [← length_pos_iff_ne_nil, h3, length_pos_iff_ne_nil]
    exact hf
  have hlog : p.logx = true → ∀ v ∈ f.map (· + k), 0 < v := by
    intro hl v hv
    obtain ⟨t, ht, rfl⟩ := mem_map.1 hv
    rcases hpos with h | h
    · exact h t ht
    · cases p <;> simp_all [Paper.logx, Paper.negative]
  obtain ⟨⟨X, Y⟩, hL⟩ := (C117_defined p (f.map (· + k)) F (s := 1 / 10) (by norm_num)).1.2 ⟨by simpa using hf, hF, hlog⟩
  have hx := C117_x (by norm_num) hL (by
    rcases hpos with h | ⟨h, v, hv, w, hw, hne⟩
    · left
      intro v hv
      obtain ⟨t, ht, rfl⟩ := mem_map.1 hv
      exact h t ht
    · exact .inr ⟨h, v + k, mem_map_of_mem (f := (· + k)) hv, w + k, mem_map_of_mem (f := (· + k)) hw, by simpa using hne⟩)
  have hy := C117_y hp (by norm_num) (by norm_num) hL h5
  refine ⟨⟨some (f.map (· + k), F), if o.show_fit then line else none, p, sh, (X, Y)⟩, ?_, rfl, rfl, rfl, ?_, ?_⟩
  · have hd : xyDownsample (f.map (· + k)) F o.downsample 1000 = .ok (f.map (· + k), F) := by
      obtain ⟨u1, u2, -⟩ := Props.C55_unchanged (f.map (· + k)) F 1000
      rcases hds with h | ⟨h | h, hn⟩
      · rw [h]; exact u1
      · rw [h]; exact (u2 (by simpa using hn)).1
      · rw [h]; exact (u2 (by simpa using hn)).2
    simp only [draw, h2, bind, Except.bind, hsc, if_true, hd, Except.map, hL]
    rfl
  · exact ⟨x, y, _, h1, rfl, by simpa using h3.symm, h4⟩
  · rintro P hP q hq
    simp only [Option.some.injEq] at hP
    subst hP
    obtain ⟨q1, q2⟩ := of_mem_zip hq
    exact ⟨(hx.2.1 _ q1).1, (hx.2.1 _ q1).2.le, (hy.2.2.1 _ q2).1, (hy.2.2.1 _ q2).2⟩

theorem shiftAll_eq (g c : ℝ) (f : List ℝ) : shiftAll g c f = f.map (· + (-g + c)) := by
  unfold shiftAll
  apply map_congr_left
  intros
  ring

theorem map_add_zero (f : List ℝ) : f.map (· + 0) = f := by simp

/-- The common part of the plots, with the line shown. -/
theorem body_spec (hs : IsArgsort argsort) {f : List ℝ} {rc : Option (List ℝ)} {o : Opts} (hf : f ≠ [])
    (ha : 0 ≤ o.a.getD (3 / 10)) (ha1 : o.a.getD (3 / 10) < 1) (ht : ∀ t ∈ f, t ∉ rc.getD [])
    (hfit : o.show_fit = true) (hsc : o.show_scatter = true) (hds : Undownsampled o.downsample f.length)
    (hCI : 0 < o.CI ∧ o.CI < 1) {fixed : Option Paper} {c : ℝ} {given : Option Read} {fit2 fit3 : Except Err Read} {d : Read}
    {g : Bool}
    (hd : (given = some d ∧ g = (decide (0 < d.gamma) || o.fit_gamma)) ∨
      (given = none ∧ g = o.fit_gamma ∧ (if o.fit_gamma then fit3 else fit2) = .ok d)) (hp : d.paper.Ok)
    {k : ℝ} (hk : k = if g then -d.gamma + c else 0)
    (hpos : (∀ t ∈ f, 0 < t + k) ∨ d.paper.negative = true ∧ ∃ v ∈ f, ∃ w ∈ f, v ≠ w) :
    ∃ r, body argsort fixed c given fit2 fit3 o f rc = .ok r ∧ r.line = some d.line ∧ r.paper = d.paper ∧ r.shifted = g ∧
      ShowsData argsort o.a f rc k r ∧ AllVisible r := by
  obtain ⟨r, h1, h2, h3, h4, h5, h6⟩ := draw_spec hs hf ha ha1 ht k hsc hds hp hpos g (some d.line)
  rw [hfit, if_pos rfl] at h2
  refine ⟨r, ?_, h2, h3, h4, h5, h6⟩
  have hci : ¬ (o.CI ≤ 0 ∨ o.CI ≥ 1) := by
    rintro (h | h) <;> linarith [hCI.1, hCI.2]
  have hrc : rc.map (shiftAll d.gamma c) = rc.map (List.map (· + (-d.gamma + c))) := by
    cases rc with
    | none => rfl
    | some l => simp only [Option.map_some, shiftAll_eq]
  have hrc0 : rc.map (List.map fun x : ℝ => x + 0) = rc := by cases rc <;> simp
  have hmain : (if g then draw argsort o d.paper true (some d.line) (shiftAll d.gamma c f) (rc.map (shiftAll d.gamma c))
      else draw argsort o d.paper false (some d.line) f rc) = .ok r := by
    cases g with
    | true =>
      rw [if_pos rfl] at hk ⊢
      rw [shiftAll_eq, hrc, ← hk]
      exact h1
    | false =>
      simp only [Bool.false_eq_true, if_false] at hk ⊢
      rw [hk, map_add_zero, hrc0] at h1
      exact h1
  unfold body
  rw [hfit]
  rcases hd with ⟨rfl, rfl⟩ | ⟨rfl, rfl, h⟩
  · by_cases h : 0 < d.gamma
    · simpa [hci, bind, Except.bind, h] using hmain
    · simpa [hci, bind, Except.bind, h] using hmain
  · cases hfg : o.fit_gamma with
    | true =>
      rw [hfg] at h hmain
      simp only [if_true] at h
      subst h
      simpa [hci, bind, Except.bind] using hmain
    | false =>
      rw [hfg] at h hmain
      simp only [Bool.false_eq_true, if_false] at h
      subst h
      simpa [hci, bind, Except.bind] using hmain

end Reliability.ProbPaper
