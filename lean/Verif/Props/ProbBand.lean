import Verif.Spec.ProbBand
import Verif.Model.ProbBand
import Verif.Props.CIPlot
import Verif.Props.ExpoCI
import Verif.Props.FitterPlots
import Verif.Props.FitGlueExamples2

/-! # C159: the confidence bands on the probability plots of the fitter classes -/

namespace Reliability.Props.ProbBand

open Reliability Reliability.InputCheck Reliability.FitGlue Reliability.FitEverythingFull Reliability.FitterPlots Reliability.CIPlot
open Reliability.ProbBand Reliability.Spec Reliability.Spec.ProbBand Reliability.Distributions Reliability.FunctionCI
open Reliability.Props (bind_ok)
open Reliability.Props.FitterPlots (step)
open Reliability.Props.CIPlot

variable {A : Answers} {d : Fitters.Dist} {x : Args} {CI : ℝ}

/-! ## the checked arguments -/

theorem checked_CI {name : String} {fa ra : DataArg ℝ} {m op ct : InputCheck.StrArg} {ci : InputCheck.CIArg ℝ} {q : QArg ℝ} {fb fs : Option ℝ}
    {inp : Checked ℝ} (h : fittersCheck name fa ra m op ci q fb fs ct = .ok inp) :
    ci = .float inp.CI ∧ 0 < inp.CI ∧ inp.CI < 1 ∧ checkCIType ct = .ok inp.CI_type := by
  unfold fittersCheck at h
  split_ifs at h
  simp only [bind_ok] at h
  obtain ⟨fc, h1, fc', h2, c, h3, opt, -, met, -, q', -, fb', h7, fs', h8, u, h9, ct', h10, he⟩ := h
  cases he
  dsimp only
  cases ci with
  | other => cases h3
  | float c' =>
    unfold checkCI at h3
    dsimp only at h3
    split_ifs at h3 with hc
    cases h3
    push Not at hc
    exact ⟨rfl, hc.1, hc.2, h10⟩

theorem object_inp {D : Fitted} {inp : Checked ℝ} (h : objectOf A d x = .ok (some (D, inp))) :
    x.CI = .float inp.CI ∧ 0 < inp.CI ∧ inp.CI < 1 ∧ (∀ T, D = .two T → checkCIType x.CI_type = .ok inp.CI_type) := by
  have key : ∀ {α : Type} {name : String} {fb fs : Option ℝ} {P : Except Err (FitRes α)} {f : α → Fitted} {ct : InputCheck.StrArg},
      (some <$> (do let r ← P; let inp ← checked name x fb fs ct; pure (f r.dist, inp)) : Except Err _) = .ok (some (D, inp)) →
      (∀ T r, f r = .two T → ct = x.CI_type) →
      x.CI = .float inp.CI ∧ 0 < inp.CI ∧ inp.CI < 1 ∧ (∀ T, D = .two T → checkCIType x.CI_type = .ok inp.CI_type) := by
    intro α name fb fs P f ct h hf
    obtain ⟨p, h, e⟩ := map_ok h
    simp only [bind_ok] at h
    obtain ⟨r, hr, i, hi, h⟩ := h
    cases h
    cases e
    obtain ⟨a, b, c, e⟩ := checked_CI hi
    exact ⟨a, b, c, fun T hT => by rw [← hf T _ hT]; exact e⟩
  cases d
  case Beta_2P => obtain ⟨_, _, e⟩ := map_ok h; cases e
  case Weibull_Mixture => obtain ⟨_, _, e⟩ := map_ok h; cases e
  case Weibull_CR => obtain ⟨_, _, e⟩ := map_ok h; cases e
  case Weibull_DS => obtain ⟨_, _, e⟩ := map_ok h; cases e
  case Exponential_1P => exact key h fun T r e => by cases e
  case Exponential_2P => exact key h fun T r e => by cases e
  all_goals exact key h fun T r e => rfl

theorem level_eq {s : SelfAttr} (h0 : 0 < CI) (h1 : CI < 1) (hs : s.Z = some (zOf CI)) : ciLevel s none = .ok CI := by
  unfold ciLevel
  rw [hs]
  simp only [zOf_cdf h0 h1, Except.ok.injEq]
  ring

theorem type_time {t : InputCheck.StrArg} {o : Option String} (ht : AsksTime t) (h : checkCIType t = .ok o) : o = some "time" := by
  obtain ⟨s, rfl, hs⟩ := ht
  unfold checkCIType at h
  dsimp only at h
  rw [if_pos hs] at h
  cases h; rfl

theorem type_rel {t : InputCheck.StrArg} {o : Option String} (ht : AsksReliability t) (h : checkCIType t = .ok o) : o = some "reliability" := by
  obtain ⟨s, rfl, hs⟩ := ht
  unfold checkCIType at h
  dsimp only at h
  rw [if_neg, if_pos hs] at h
  · cases h; rfl
  · intro h'
    simp only [List.mem_cons, List.not_mem_nil, or_false] at hs h'
    rcases hs with e | e | e <;> rw [e] at h' <;> revert h' <;> decide

theorem type_none {t : InputCheck.StrArg} {o : Option String} (ht : AsksNone t) (h : checkCIType t = .ok o) : o = none ∨ o = some "none" := by
  rcases ht with rfl | ⟨s, rfl, hs⟩
  · cases h; exact .inl rfl
  unfold checkCIType at h
  dsimp only at h
  rw [if_neg, if_neg, if_pos hs] at h
  · cases h; exact .inr rfl
  all_goals
    intro h'
    simp only [List.mem_cons, List.not_mem_nil, or_false] at hs h'
    rcases hs with e | e <;> rw [e] at h' <;> revert h' <;> decide

theorem name_two (T : Two) : nameOf (.two T) ≠ "Exponential" ∧ nameOf (.two T) ≠ "Beta" := by
  unfold nameOf
  cases h : T.fam <;> simp [h]

theorem band_two {T : Two} {inp : Checked ℝ} {t : Option String} (h : objectOf A d x = .ok (some (.two T, inp)))
    (ht : inp.CI_type = t) {t' : Option String} (ht' : ∀ n, n ≠ "Exponential" → n ≠ "Beta" → ciType ⟨n, some (zOf inp.CI), t⟩ none = t') :
    fitterBand A d x = plotCI A.J true (.two { T with gamma := 0, Z := some (.fin (zOf inp.CI)) }) .CDF true t' inp.CI 0 := by
  obtain ⟨-, h0, h1, -⟩ := object_inp h
  unfold fitterBand
  rw [step h]
  dsimp only
  unfold plotBand
  dsimp only
  rw [step (level_eq h0 h1 rfl), ht, ht' _ (name_two T).1 (name_two T).2]
  rfl

/-! ## shifting by the location -/

theorem loc_two (T : Two) : loc (.two T) = if T.fam = .normal ∨ T.fam = .gumbel then 0 else T.gamma := rfl

theorem sf_shift (f : CFam) (a b g t : ℝ) :
    (distOf f a b g).sp.sf (t + if f = .normal ∨ f = .gumbel then 0 else g) = (distOf f a b 0).sp.sf t := by
  cases f <;> simp [distOf, weibull, gammaDist, lognormal, loglogistic, normal, gumbel, ofScipy, locScale]

theorem isf_shift (f : CFam) (a b g R : ℝ) :
    (distOf f a b g).sp.isf R = (distOf f a b 0).sp.isf R + if f = .normal ∨ f = .gumbel then 0 else g := by
  cases f <;> simp [distOf, weibull, gammaDist, lognormal, loglogistic, normal, gumbel, ofScipy, locScale]

theorem ppf_shift (f : CFam) (a b g R : ℝ) :
    (distOf f a b g).sp.ppf R = (distOf f a b 0).sp.ppf R + if f = .normal ∨ f = .gumbel then 0 else g := by
  cases f <;> simp [distOf, weibull, gammaDist, lognormal, loglogistic, normal, gumbel, ofScipy, locScale]

theorem loT_shift (J : Jac) (T : Two) (z : Option (Ext ℝ)) (sa sb c Z R : ℝ) :
    loT J T sa sb c Z R = loT J { T with gamma := 0, Z := z } sa sb c Z R + loc (.two T) ∧
    upT J T sa sb c Z R = upT J { T with gamma := 0, Z := z } sa sb c Z R + loc (.two T) := by
  rw [loc_two]
  unfold loT upT
  cases hf : T.fam <;> simp [tinv]

theorem loSF_shift (J : Jac) (T : Two) (z : Option (Ext ℝ)) (sa sb c Z t : ℝ) :
    loSF J T sa sb c Z (t + loc (.two T)) = loSF J { T with gamma := 0, Z := z } sa sb c Z t ∧
    upSF J T sa sb c Z (t + loc (.two T)) = upSF J { T with gamma := 0, Z := z } sa sb c Z t := by
  have e : sh T.fam T.gamma (t + loc (.two T)) = sh T.fam 0 t := by
    rw [loc_two]
    unfold sh
    cases T.fam <;> simp [positive]
  unfold loSF upSF
  rw [e]
  rw [loc_two, sf_shift]
  exact ⟨rfl, rfl⟩

theorem errors_plain {T : Two} {sa sb c z : ℝ} (he : ErrorsOK T sa sb c) : ErrorsOK { T with gamma := 0, Z := some (.fin z) } sa sb c :=
  ⟨he.1, he.2.1, he.2.2.1, ⟨z, rfl⟩, he.2.2.2.2⟩

theorem held_map {up : Bool} {v v' : List ℝ} (h : Held up v v') (g : ℝ) : Held up (v.map (· + g)) (v'.map (· + g)) := by
  rcases h with ⟨a, rfl⟩ | ⟨a, i, m, b, c, e, rfl⟩
  · exact .inl ⟨by simpa using a, rfl⟩
  · refine .inr ⟨by simpa using a, i, m + g, by simp [b], ?_, ?_, by simp⟩
    · intro w hw
      obtain ⟨w', hw', rfl⟩ := List.mem_map.1 hw
      have := c w' hw'
      cases up <;> simpa using this
    · intro j w hj hw
      rw [List.getElem?_map, Option.map_eq_some_iff] at hw
      obtain ⟨w', hw', rfl⟩ := hw
      have := e j w' hj hw'
      simpa using this

theorem zip_shown (g : ℝ) (l : List ℝ) (ys : List ℝ) : ((l.map (· + g)).zip ys).map (shown g) = l.zip ys := by
  rw [List.zip_map_left, List.map_map]
  conv_rhs => rw [← List.map_id (l.zip ys)]
  apply List.map_congr_left
  intro p _
  simp [shown]

/-- **C159 (bounds on time).** On the probability plot of a fitter class called with a confidence level `CI` and `CI_type` "time" (the default) a band is drawn. Its edges have 200 points each, at
heights descending from 1 - 1e-8 to 1e-8. They are the lower and upper bounds on time that the CDF of the distribution in the results returns for `CI_y` equal to those heights
and this `CI` – held at their first smallest value – each shown on the paper at its time less the location. At each height the line of the plot (the CDF, shown at times less the location) passes between them. -/
theorem C159_time {T : Two} {inp : Checked ℝ} (h : objectOf A d x = .ok (some (.two T, inp))) (hCI : x.CI = .float CI)
    (ht : AsksTime x.CI_type) {sa sb c : ℝ} (hp : ParamsOK T.fam T.a T.b) (he : ErrorsOK T sa sb c) :
    ∃ (ys lo up lo' up' : List ℝ) (b : Band), Grid ys.reverse 200 (1 / 10 ^ 8) (1 - 1 / 10 ^ 8) ∧
      funcCI A.J (.two T) .CDF (some "time") CI (some ys) none =
        .ok (some (lo.map .fin, ys.map fun y => .fin ((Fitted.two T).dist.sp.isf (1 - y)), up.map .fin)) ∧
      Held false lo lo' ∧ Held false up up' ∧ fitterBand A d x = .ok (some b) ∧
      b.lower = (lo'.zip ys).map (shown (loc (.two T))) ∧ b.upper = (up'.zip ys).map (shown (loc (.two T))) ∧ FilledBetween b ∧
      ∀ (k : ℕ) y, ys[k]? = some y → ∃ l u t, lo'[k]? = some l ∧ up'[k]? = some u ∧ l ≤ t ∧ t ≤ u ∧
        (Fitted.two T).dist.sp.sf t = 1 - y := by
  obtain ⟨e1, h0, h1, e2⟩ := object_inp h
  rw [hCI] at e1
  cases e1
  have e3 := type_time ht (e2 T rfl)
  have hb := band_two h e3 (t' := some "time") (by
    intro n hn1 hn2
    unfold ciType
    rw [if_neg hn1, if_neg hn2]
    simp only [noCI]
    decide)
  have he' := errors_plain (z := zOf inp.CI) he
  obtain ⟨ys, lo, up, lo', up', b, k1, k2, k3, k4, k5, k6, k7, k8, k9⟩ := C140_time A.J true { T with gamma := 0, Z := some (.fin (zOf inp.CI)) }
    sa sb c inp.CI 0 .CDF (by simp) hp he' h0 h1
  have k1' : Grid ys.reverse 200 (1 / 10 ^ 8) (1 - 1 / 10 ^ 8) := by simpa using k1
  have hne : ys ≠ [] := by intro e; have := k1'.length; simp [e] at this
  have hy : ∀ y ∈ ys, 1 / 10 ^ 50 < toReliability .CDF y ∧ toReliability .CDF y < 1 := by
    intro y hy
    have := k1'.within y (List.mem_reverse.2 hy)
    unfold toReliability
    dsimp only
    constructor
    · have : (1 : ℝ) / 10 ^ 50 < 1 / 10 ^ 8 := by norm_num
      linarith
    · have : (0 : ℝ) < 1 / 10 ^ 8 := by norm_num
      linarith
  have t1 := time_ok (CI := inp.CI) A.J { T with gamma := 0, Z := some (.fin (zOf inp.CI)) } .CDF ys hne hp he' hy
  rw [t1] at k2
  have k2 := Option.some.inj (Except.ok.inj k2)
  simp only [Prod.mk.injEq] at k2
  have fin_inj : ∀ {l l' : List ℝ}, l.map Ext.fin = l'.map Ext.fin → l = l' := fun h =>
    List.map_injective_iff.2 (fun a b e => by cases e; rfl) h
  have q1 : lo = ys.map fun y => loT A.J { T with gamma := 0, Z := some (.fin (zOf inp.CI)) } sa sb c (zOf inp.CI) (toReliability .CDF y) :=
    fin_inj (by rw [List.map_map]; exact k2.1.symm)
  have q2 : up = ys.map fun y => upT A.J { T with gamma := 0, Z := some (.fin (zOf inp.CI)) } sa sb c (zOf inp.CI) (toReliability .CDF y) :=
    fin_inj (by rw [List.map_map]; exact k2.2.2.symm)
  refine ⟨ys, lo.map (· + loc (.two T)), up.map (· + loc (.two T)), lo'.map (· + loc (.two T)), up'.map (· + loc (.two T)), b, k1', ?_,
    held_map k3 _, held_map k4 _, hb.trans k5, ?_, ?_, k8, ?_⟩
  · rw [time_ok (CI := inp.CI) A.J T .CDF ys hne hp he hy, q1, q2]
    simp only [List.map_map]
    congr 3
    · exact List.map_congr_left fun y _ => by
        simp only [Function.comp, (loT_shift A.J T (some (.fin (zOf inp.CI))) sa sb c (zOf inp.CI) (toReliability .CDF y)).1]
    · congr 1
      exact List.map_congr_left fun y _ => by
        simp only [Function.comp, (loT_shift A.J T (some (.fin (zOf inp.CI))) sa sb c (zOf inp.CI) (toReliability .CDF y)).2]
  · rw [k6, zip_shown]
  · rw [k7, zip_shown]
  · intro k y hk
    obtain ⟨l, u, t, p1, p2, p3, p4, p5, -, -⟩ := k9 k y hk
    refine ⟨l + loc (.two T), u + loc (.two T), t + loc (.two T), by simp [p1], by simp [p2], by linarith, by linarith, ?_⟩
    rw [loc_two]
    show (distOf T.fam T.a T.b T.gamma).sp.sf _ = _
    rw [sf_shift]
    have : 1 - (distOf T.fam T.a T.b 0).sp.sf t = y := p5
    linarith


theorem rel_shift (J : Jac) {T : Two} {sa sb c z : ℝ} (he : ErrorsOK T sa sb c) (CI : ℝ) (xs : List ℝ) :
    funcCI J (.two T) .SF (some "reliability") CI none (some (xs.map (· + loc (.two T)))) =
      funcCI J (.two { T with gamma := 0, Z := some (.fin z) }) .SF (some "reliability") CI none (some xs) := by
  have hv : validParams T = some (sa, sb, c) := by
    obtain ⟨h1, h2, h3, ⟨w, h4⟩, -⟩ := he
    simp [validParams, h1, h2, h3, h4, finiteArg]
  have hv' : validParams { T with gamma := 0, Z := some (.fin z) } = some (sa, sb, c) := by
    obtain ⟨h1, h2, h3, ⟨w, h4⟩, -⟩ := he
    simp [validParams, h1, h2, h3, finiteArg]
  have e1 : (xs.map (· + loc (.two T))).map (shifted T) = xs.map (shifted { T with gamma := 0, Z := some (.fin z) }) := by
    rw [List.map_map]
    refine List.map_congr_left fun t _ => ?_
    simp only [Function.comp, shifted, loc_two]
    cases T.fam <;> simp [positive]
  have e2 : twoRel J T CI (xs.map (· + loc (.two T))) = twoRel J { T with gamma := 0, Z := some (.fin z) } CI xs := by
    unfold twoRel
    rw [hv, hv', e1]
  have e3 : pointRel (Fitted.two T).dist .SF (xs.map (· + loc (.two T))) =
      pointRel (Fitted.two { T with gamma := 0, Z := some (.fin z) }).dist .SF xs := by
    simp only [pointRel, List.map_map]
    refine List.map_congr_left fun t _ => ?_
    simp only [Function.comp, loc_two]
    exact congrArg Ext.fin (sf_shift T.fam T.a T.b T.gamma t)
  unfold funcCI extractCI
  simp only [e2, e3]

theorem mem_map_add {l : List ℝ} {g t : ℝ} : t ∈ l.map (· + g) ↔ t - g ∈ l := by
  rw [List.mem_map]
  constructor
  · rintro ⟨a, ha, rfl⟩
    simpa using ha
  · exact fun h => ⟨t - g, h, by ring⟩

theorem sub_sublist {xs l : List ℝ} (h : xs.Sublist l) (g : ℝ) : (xs.map (· + g)).Sublist (l.map (· + g)) := h.map _

/-- **C159 (bounds on reliability).** With `CI_type` "reliability" a band is drawn whose times are, of an ascending grid of 200 times from the 1e-5 quantile (Gamma: 0.0001 after the location) to the
0.99999 quantile of the fitted distribution, exactly those at which its `SF` with `CI_x` does not raise. The edges are one less the bounds that `SF` of the distribution in the results returns for `CI_x` equal to those times
and this `CI` – held at their first smallest value – each shown on the paper at its time less the location; the line of the plot lies between them. -/
theorem C159_reliability {T : Two} {inp : Checked ℝ} (h : objectOf A d x = .ok (some (.two T, inp))) (hCI : x.CI = .float CI)
    (ht : AsksReliability x.CI_type) {sa sb c : ℝ} (hp : ParamsOK T.fam T.a T.b) (he : ErrorsOK T sa sb c)
    (hg : T.fam = .gamma → 1 / 10 ^ 4 + T.gamma ≤ (Fitted.two T).dist.sp.ppf (99999 / 10 ^ 5)) :
    ∃ (grid xs lo up lo' up' : List ℝ) (b : Band),
      Grid grid 200 (if T.fam = .gamma then 1 / 10 ^ 4 + T.gamma else (Fitted.two T).dist.sp.ppf (1 / 10 ^ 5))
        ((Fitted.two T).dist.sp.ppf (99999 / 10 ^ 5)) ∧ xs.Sublist grid ∧
      (∀ t ∈ grid, t ∈ xs ↔ funcCI A.J (.two T) .SF (some "reliability") CI none (some [t]) ≠ valueErr) ∧
      funcCI A.J (.two T) .SF (some "reliability") CI none (some xs) =
        .ok (some (lo.map .fin, xs.map fun t => .fin ((Fitted.two T).dist.sp.sf t), up.map .fin)) ∧
      Held false lo lo' ∧ Held false up up' ∧ fitterBand A d x = .ok (some b) ∧
      EdgesOf b ((xs.zip (lo'.map (1 - ·))).map (shown (loc (.two T)))) ((xs.zip (up'.map (1 - ·))).map (shown (loc (.two T)))) ∧
      FilledBetween b ∧
      ∀ (k : ℕ) t, xs[k]? = some t → ∃ l u, lo'[k]? = some l ∧ up'[k]? = some u ∧ 0 < l ∧ l ≤ (Fitted.two T).dist.sp.sf t ∧
        (Fitted.two T).dist.sp.sf t ≤ u ∧ u < 1 := by
  obtain ⟨e1, h0, h1, e2⟩ := object_inp h
  rw [hCI] at e1
  cases e1
  have e3 := type_rel ht (e2 T rfl)
  have hb := band_two h e3 (t' := some "reliability") (by
    intro n hn1 hn2
    unfold ciType
    rw [if_neg hn1, if_neg hn2]
    simp only [noCI]
    decide)
  have he' := errors_plain (z := zOf inp.CI) he
  have hQ : ∀ R, (Fitted.two T).dist.sp.ppf R =
      (Fitted.two { T with gamma := 0, Z := some (.fin (zOf inp.CI)) }).dist.sp.ppf R + loc (.two T) :=
    fun R => ppf_shift T.fam T.a T.b T.gamma R
  have hloc : T.fam = .gamma → loc (.two T) = T.gamma := fun hf => by rw [loc_two, hf]; simp
  obtain ⟨grid, xs, lo, up, lo', up', b, k1, k2, k3, k4, k5, k6, k7, k8, k9, k10⟩ := C140_reliability A.J true
    { T with gamma := 0, Z := some (.fin (zOf inp.CI)) } sa sb c inp.CI 0 .CDF hp he' h0 h1 (fun hf _ => by
      have := hg hf
      rw [hQ, hloc hf] at this
      linarith)
  have hsh := rel_shift A.J (z := zOf inp.CI) he inp.CI
  have hz : ∀ v : List ℝ, (xs.zip v) = ((xs.map (· + loc (.two T))).zip v).map (shown (loc (.two T))) := fun v => (zip_shown _ _ _).symm
  refine ⟨grid.map (· + loc (.two T)), xs.map (· + loc (.two T)), lo, up, lo', up', b, ?_, k2.map _, ?_, ?_, k5, k6, hb.trans k7, ?_, k9 (.inr (by simp)), ?_⟩
  · have := grid_add k1 (loc (.two T))
    rw [← hQ] at this
    convert this using 1
    unfold firstTime
    by_cases hf : T.fam = .gamma
    · simp [hf, hloc hf]
    · simp only [hf, if_false]
      exact hQ _
  · intro t ht
    have := k3 _ (mem_map_add.1 ht)
    rw [mem_map_add, this, ← hsh [t - loc (.two T)]]
    simp
  · rw [hsh, k4]
    simp only [List.map_map]
    congr 3
    congr 1
    refine List.map_congr_left fun t _ => ?_
    simp only [Function.comp, loc_two]
    exact congrArg Ext.fin (sf_shift T.fam T.a T.b T.gamma t).symm
  · rw [← hz, ← hz]; exact k8
  · intro k t hk
    rw [List.getElem?_map, Option.map_eq_some_iff] at hk
    obtain ⟨s, hs, rfl⟩ := hk
    obtain ⟨l, u, p1, p2, p3, p4, p5, p6, -⟩ := k10 k s hs
    have : (Fitted.two T).dist.sp.sf (s + loc (.two T)) = (Fitted.two { T with gamma := 0, Z := some (.fin (zOf inp.CI)) }).dist.sp.sf s := by
      rw [loc_two]; exact sf_shift T.fam T.a T.b T.gamma s
    rw [this]
    exact ⟨l, u, p1, p2, p3, p4, p5, p6⟩

/-- **C159 (Exponential).** The probability plot of `Fit_Exponential_1P` and `Fit_Exponential_2P` has a band for every confidence level. -/
theorem C159_exponential {E : Expo} {inp : Checked ℝ} (h : objectOf A d x = .ok (some (.expo E, inp))) (hCI : x.CI = .float CI)
    {se : ℝ} (hE : ExpoOK E se) :
    ∃ (grid xs lo up : List ℝ) (b : Band),
      Grid grid 200 ((Fitted.expo E).dist.sp.ppf (1 / 10 ^ 5)) ((Fitted.expo E).dist.sp.ppf (99999 / 10 ^ 5)) ∧ xs.Sublist grid ∧
      (∀ t ∈ grid, t ∈ xs ↔ funcCI A.J (.expo E) .SF none CI none (some [t]) ≠ valueErr) ∧
      funcCI A.J (.expo E) .SF none CI none (some xs) =
        .ok (some (lo.map .fin, xs.map fun t => .fin ((Fitted.expo E).dist.sp.sf t), up.map .fin)) ∧
      fitterBand A d x = .ok (some b) ∧
      EdgesOf b ((xs.zip (lo.map (1 - ·))).map (shown (loc (.expo E)))) ((xs.zip (up.map (1 - ·))).map (shown (loc (.expo E)))) ∧
      FilledBetween b ∧
      ∀ (k : ℕ) t, xs[k]? = some t → ∃ l u, lo[k]? = some l ∧ up[k]? = some u ∧ 0 < l ∧ l ≤ (Fitted.expo E).dist.sp.sf t ∧
        (Fitted.expo E).dist.sp.sf t ≤ u ∧ u < 1 := by
  obtain ⟨e1, h0, h1, -⟩ := object_inp h
  rw [hCI] at e1
  cases e1
  set E' : Expo := { E with gamma := 0, Z := some (.fin (zOf inp.CI)) } with hE'
  have hb : fitterBand A d x = plotCI A.J true (.expo E') .CDF true none inp.CI 0 := by
    unfold fitterBand
    rw [step h]
    dsimp only
    unfold plotBand
    dsimp only
    rw [step (level_eq h0 h1 rfl)]
    rfl
  have hQ : ∀ R, (Fitted.expo E).dist.sp.ppf R = (Fitted.expo E').dist.sp.ppf R + loc (.expo E) := fun R => by
    simp [Fitted.dist, exponential, ofScipy, locScale, loc, hE']
  have hS : ∀ t, (Fitted.expo E).dist.sp.sf (t + loc (.expo E)) = (Fitted.expo E').dist.sp.sf t := fun t => by
    simp [Fitted.dist, exponential, ofScipy, locScale, loc, hE']
  have hsh : ∀ xs : List ℝ, funcCI A.J (.expo E) .SF none inp.CI none (some (xs.map (· + loc (.expo E)))) =
      funcCI A.J (.expo E') .SF none inp.CI none (some xs) := by
    intro xs
    have e2 : expoRel E inp.CI (xs.map (· + loc (.expo E))) = expoRel E' inp.CI xs := by
      unfold expoRel
      obtain ⟨-, -, s1, z, s2⟩ := hE
      have s1' : E'.SE = some (.fin se) := s1
      have s2' : E'.Z = some (.fin (zOf inp.CI)) := rfl
      rw [s1', s2', s2]
      dsimp only
      have : (xs.map (· + loc (.expo E))).map (· - E.gamma) = xs.map (· - E'.gamma) := by
        rw [List.map_map]
        exact List.map_congr_left fun t _ => by simp [loc, hE']
      rw [this]
      rfl
    have e3 : pointRel (Fitted.expo E).dist .SF (xs.map (· + loc (.expo E))) = pointRel (Fitted.expo E').dist .SF xs := by
      simp only [pointRel, List.map_map]
      refine List.map_congr_left fun t _ => ?_
      simp only [Function.comp, hS]
    unfold funcCI extractCI
    simp only [e2, e3]
  obtain ⟨grid, xs, lo, up, b, k1, k2, k3, k4, k7, k8, k9, k10⟩ := C140_exponential A.J true E' se inp.CI 0 .CDF none
    ⟨hE.1, hE.2.1, hE.2.2.1, _, rfl⟩ h0 h1
  have hz : ∀ v : List ℝ, (xs.zip v) = ((xs.map (· + loc (.expo E))).zip v).map (shown (loc (.expo E))) := fun v => (zip_shown _ _ _).symm
  refine ⟨grid.map (· + loc (.expo E)), xs.map (· + loc (.expo E)), lo, up, b, ?_, k2.map _, ?_, ?_, hb.trans k7, ?_, k9 (.inr (by simp)), ?_⟩
  · rw [hQ, hQ]
    exact grid_add k1 (loc (.expo E))
  · intro t ht
    have := k3 _ (mem_map_add.1 ht)
    rw [mem_map_add, this, ← hsh [t - loc (.expo E)]]
    simp
  · rw [hsh, k4]
    simp only [List.map_map]
    congr 3
    congr 1
    exact List.map_congr_left fun t _ => by simp only [Function.comp, hS]
  · rw [← hz, ← hz]; exact k8
  · intro k t hk
    rw [List.getElem?_map, Option.map_eq_some_iff] at hk
    obtain ⟨s, hs, rfl⟩ := hk
    obtain ⟨l, u, p1, p2, p3, p4, p5, p6, -⟩ := k10 k s hs
    rw [hS]
    exact ⟨l, u, p1, p2, p3, p4, p5, p6⟩

/-- **C159 (no band).** With `CI_type` "none" no band is drawn, except by the Exponential classes; nor is one for the Beta distribution, mixtures, competing risks and defective subpopulations. -/
theorem C159_none {T : Two} {inp : Checked ℝ} :
    (objectOf A d x = .ok (some (.two T, inp)) → AsksNone x.CI_type → fitterBand A d x = .ok none) ∧
    (d ∈ [.Beta_2P, .Weibull_Mixture, .Weibull_CR, .Weibull_DS] → ∀ o, fitWith A d x = .ok o → fitterBand A d x = .ok none) := by
  refine ⟨fun h ht => ?_, fun hd o ho => ?_⟩
  · have e3 := type_none ht ((object_inp h).2.2.2 T rfl)
    rw [band_two h rfl (t' := none) (by
      intro n hn1 hn2
      unfold ciType
      rw [if_neg hn1, if_neg hn2]
      rcases e3 with e | e <;> rw [e] <;> simp [noCI])]
    exact (C140_nothing A.J true .CDF none inp.CI 0 (.two T) _ ⟨0, 0, none, none⟩).2.1
  · have : objectOf A d x = .ok none := by
      simp only [List.mem_cons, List.not_mem_nil, or_false] at hd
      rcases hd with rfl | rfl | rfl | rfl <;> simp only [objectOf, ho] <;> rfl
    unfold fitterBand
    rw [step this]
    rfl

/-- **C159 (whose bounds).** The distribution of the theorems above is the one in the results of the fit: whenever the fit returns, there is one, with the distribution functions of the
attribute `distribution`. -/
theorem C159_object (hd : d ∉ [.Beta_2P, .Weibull_Mixture, .Weibull_CR, .Weibull_DS]) {o : Outcome} (h : fitWith A d x = .ok o) :
    ∃ D inp, objectOf A d x = .ok (some (D, inp)) ∧ o.dist = .one D.dist ∧
      ((∃ E, D = .expo E) ↔ d = .Exponential_1P ∨ d = .Exponential_2P) := by
  simp only [List.mem_cons, List.not_mem_nil, or_false, not_or] at hd
  obtain ⟨d1, d2, d3, d4⟩ := hd
  cases d
  case Beta_2P => exact absurd rfl d1
  case Weibull_Mixture => exact absurd rfl d2
  case Weibull_CR => exact absurd rfl d3
  case Weibull_DS => exact absurd rfl d4
  all_goals
    obtain ⟨r, hr, rfl⟩ := map_ok h
    have hr' := hr
    simp only [fitWeibull2P, fitWeibull3P, fitGamma2P, fitGamma3P, fitLognormal2P, fitLognormal3P, fitExponential1P, fitExponential2P,
      fitNormal2P, fitGumbel2P, fitLoglogistic2P, fitLoglogistic3P, bind_ok] at hr'
    obtain ⟨inp, hi, -⟩ := hr'
    refine ⟨_, inp, ?_, rfl, by simp⟩
    simp only [objectOf, objectWeibull_2P, objectWeibull_3P, objectGamma_2P, objectGamma_3P, objectLognormal_2P, objectLognormal_3P,
      objectExponential_1P, objectExponential_2P, objectNormal_2P, objectGumbel_2P, objectLoglogistic_2P, objectLoglogistic_3P, checked, hr]
    rw [step rfl, step hi]
    rfl

/-! ## Example -/

/-- One failure at 1 with a forced shape: the plot has a band, whose edges have 200 points. -/
example {argsort : List ℝ → List ℕ} (ha : IsArgsort argsort) (A : Answers) (h1 : A.argsort = argsort) (h2 : A.w2 = exNumC) :
    ∃ b, fitterBand A .Weibull_2P exQ = .ok (some b) ∧ b.lower.length = 200 := by
  obtain ⟨r, sa, hr, k1, k2, k3, k4, k5⟩ := exQ_returns ha A.J
  have hf : fitWith A .Weibull_2P exQ = .ok (ofTwo r) := by
    simp only [fitWith, h1, h2, hr]; rfl
  obtain ⟨D, inp, ho, -, -⟩ := C159_object (by simp) hf
  have ho' := ho
  simp only [objectOf, objectWeibull_2P, h1, h2] at ho'
  obtain ⟨p, ho', e⟩ := map_ok ho'
  rw [step hr] at ho'
  obtain ⟨i, -, ho'⟩ := bind_ok.1 ho'
  cases ho'
  cases e
  obtain ⟨ys, lo, up, lo', up', b, g1, g2, g3, g4, g5, g6, -⟩ := C159_time ho (CI := 0.95) rfl ⟨"time", rfl, by decide⟩
    ⟨by rw [k3]; norm_num, fun _ => by rw [k2]; norm_num⟩ k5
  refine ⟨b, g5, ?_⟩
  have l1 : ys.length = 200 := by simpa using g1.length
  have l2 : lo.length = ys.length := by
    have := time_ok (CI := 0.95) A.J r.dist .CDF ys (by intro h; simp [h] at l1) ⟨by rw [k3]; norm_num, fun _ => by rw [k2]; norm_num⟩ k5
      (fun y hy => by
        have := g1.within y (List.mem_reverse.2 hy)
        unfold toReliability
        dsimp only
        constructor
        · have : (1 : ℝ) / 10 ^ 50 < 1 / 10 ^ 8 := by norm_num
          linarith
        · have : (0 : ℝ) < 1 / 10 ^ 8 := by norm_num
          linarith)
    rw [this] at g2
    have := congrArg Prod.fst (Option.some.inj (Except.ok.inj g2))
    simpa using (congrArg List.length this).symm
  have l3 : lo'.length = lo.length := by
    rcases g3 with ⟨-, rfl⟩ | ⟨-, i, m, hi, -, -, rfl⟩
    · rfl
    · have := (List.getElem?_eq_some_iff.1 hi).1
      simp; omega
  rw [g6]
  simp [l1, l2, l3]

end Reliability.Props.ProbBand
