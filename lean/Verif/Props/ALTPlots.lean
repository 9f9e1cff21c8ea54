import Verif.Spec.ALTPlots
import Verif.Props.ALTGlue
import Verif.Props.ProbPaperPlots
import Verif.Props.Distributions

/-! # The probability plots of the ALT fitters (C134) -/

namespace Reliability.ALTPlots

open Reliability Reliability.Spec Reliability.Spec.ALTGlue Reliability.FitGlue Reliability.ALTGlue Reliability.InputCheck
open Reliability.Spec.InputCheck
open Reliability.FunctionCI (Two Jac distOf)
open Reliability.Distributions (Dist)
open Reliability.ProbPaper (Plot Paper Paper.horizontal Paper.logx Read body draw xylims C117_defined C117_x C117_y checkData_ok dataArg)
open Reliability.Props (bind_ok DualStress ALTRequirements C74_groups KeyInj stressRows)
open List

variable {σ : Type}

theorem rcArg_eq (rc : Option (List ℝ)) : rcArg rc = dataArg rc := by cases rc <;> rfl

/-- Points and limits of a plot with given parameters. -/
theorem draw_given {argsort : List ℝ → List ℕ} (hs : IsArgsort argsort) {f : List ℝ} {rc : Option (List ℝ)} (hf : f ≠ [])
    (hpos : ∀ t ∈ f, 0 < t) (p : Paper) (line : Dist) {y : List ℝ}
    (hy : PP.plottingPositions argsort f rc none false = .ok (f, y)) (hl : f.length = y.length) :
    ∃ L, draw argsort {} p false (some line) f rc = .ok ⟨some (f, y), some line, p, false, L⟩ := by
  have hy0 : y ≠ [] := by
    rw [← length_pos_iff_ne_nil, ← hl]
    exact length_pos_iff_ne_nil.2 hf
  obtain ⟨L, hL⟩ := (C117_defined p f y (s := 1 / 10) (by norm_num)).1.2 ⟨hf, hy0, fun _ => hpos⟩
  refine ⟨L, ?_⟩
  simp only [draw, hy, bind, Except.bind, if_true, Utils.xyDownsample, Except.map, hL]
  rfl

theorem body_given {argsort : List ℝ → List ℕ} (p : Paper) (c : ℝ) {d : Read} (h0 : d.gamma = 0) (fit2 fit3 : Except Err Read)
    (f : List ℝ) (rc : Option (List ℝ)) :
    body argsort (some p) c (some d) fit2 fit3 {} f rc = draw argsort {} d.paper false (some d.line) f rc := by
  unfold body
  have : ¬ ((95 / 100 : ℝ) ≤ 0 ∨ (95 / 100 : ℝ) ≥ 1) := by norm_num
  simp only [this, if_false, h0, gt_iff_lt, lt_irrefl, Bool.false_eq_true, bind, Except.bind]

/-- What the probability plot of one stress shows. -/
theorem probplot_spec {argsort : List ℝ → List ℕ} (hs : IsArgsort argsort) {dist : String} {shape : ℝ} {d : LifeDist}
    (hd : LifeOf dist shape d) (life : ℝ) {f : List ℝ} {rc : Option (List ℝ)} (hf : f ≠ []) (hpos : ∀ t ∈ f, 0 < t) {y : List ℝ}
    (hy : PP.plottingPositions argsort f rc none false = .ok (f, y)) (hl : f.length = y.length) :
    ∃ p, probplot argsort dist life shape f rc = .ok p ∧ p.scatter = some (f, y) ∧ p.line = some (d.dist life) := by
  have hc : ∀ n, ProbPaper.checkData n true (.array f) (dataArg rc) = .ok (f, rc) := fun n => checkData_ok hf (.inl rfl)
  cases d with
  | weibull beta =>
    obtain ⟨rfl, rfl⟩ := hd
    obtain ⟨L, hL⟩ := draw_given hs hf hpos .weibull (Distributions.weibull life shape 0) hy hl
    refine ⟨⟨some (f, y), some _, .weibull, false, L⟩, ?_, rfl, rfl⟩
    simp only [probplot, if_true, rcArg_eq, ProbPaper.weibullPlot, Option.isSome_some, hc, bind, Except.bind, Option.map_some]
    rw [body_given _ _ rfl]
    exact hL
  | lognormal sigma =>
    obtain ⟨rfl, rfl⟩ := hd
    obtain ⟨L, hL⟩ := draw_given hs hf hpos .lognormal (Distributions.lognormal (Real.log life) shape 0) hy hl
    refine ⟨⟨some (f, y), some _, .lognormal, false, L⟩, ?_, rfl, rfl⟩
    simp only [probplot, if_true, String.reduceEq, if_false, rcArg_eq, ProbPaper.lognormalPlot, Option.isSome_some, hc, bind,
      Except.bind, Option.map_some]
    rw [body_given _ _ rfl]
    exact hL
  | normal sigma =>
    obtain ⟨rfl, rfl⟩ := hd
    obtain ⟨L, hL⟩ := draw_given hs hf hpos .normal (Distributions.normal life shape) hy hl
    refine ⟨⟨some (f, y), some _, .normal, false, L⟩, ?_, rfl, rfl⟩
    simp only [probplot, if_true, String.reduceEq, if_false, rcArg_eq, ProbPaper.plainPlot, Option.isSome_some, hc, bind,
      Except.bind, Option.map_some]
    rw [body_given _ _ rfl]
    exact hL
  | exponential =>
    obtain rfl := hd
    obtain ⟨L, hL⟩ := draw_given hs hf hpos .weibull (Distributions.exponential (1 / life) 0) hy hl
    refine ⟨⟨some (f, y), some _, .weibull, false, L⟩, ?_, rfl, rfl⟩
    simp only [probplot, if_true, String.reduceEq, if_false, rcArg_eq, ProbPaper.exponentialPlot, Option.isSome_some, hc, bind,
      Except.bind, Option.map_some]
    rw [body_given _ _ rfl]
    exact hL

/-- What the loop draws for an item. -/
def Drawn (argsort : List ℝ → List ℕ) (dist : String) (d : LifeDist) (life : σ → ℝ) (it : Item σ) (g : Group σ) : Prop :=
  g.stress = it.stress ∧ (∃ y, PP.plottingPositions argsort it.failures it.right_censored none false = .ok (it.failures, y) ∧
    g.scatter = some (it.failures, y) ∧ it.failures.length = y.length ∧ (∀ v ∈ y, 0 < v ∧ v < 1)) ∧
  g.line = some (d.dist (life it.stress)) ∧ g.original = originalLine dist it.original

theorem groups_spec {argsort : List ℝ → List ℕ} (hs : IsArgsort argsort) {colours : ℕ} {dist : String} {shape : ℝ} {d : LifeDist}
    (hd : LifeOf dist shape d) (life : σ → ℝ) (items : List (Item σ)) (i : ℕ)
    (hit : ∀ it ∈ items, it.failures ≠ [] ∧ ∀ t ∈ it.failures, 0 < t) (hi : i ≤ colours) :
    (i + items.length ≤ colours → ∃ gs ys, groups argsort colours dist life shape i items =
        .ok (gs, items.flatMap Item.failures, ys) ∧ Forall₂ (Drawn argsort dist d life) items gs ∧
      (∀ v, v ∈ ys ↔ ∃ g ∈ gs, ∃ S, g.scatter = some S ∧ v ∈ S.2) ∧ gs.map Group.colour = List.range' i items.length) ∧
    (colours < i + items.length → groups argsort colours dist life shape i items = .error .indexError) := by
  induction items generalizing i with
  | nil =>
    refine ⟨fun _ => ⟨[], [], rfl, .nil, by simp, rfl⟩, fun h => ?_⟩
    simp only [length_nil, add_zero] at h
    omega
  | cons it its ih =>
    obtain ⟨hf, hp⟩ := hit it mem_cons_self
    obtain ⟨x, y', y, h1, h2, h3, h4, h5, h6⟩ := ProbPlots.positions_of hs (rc := it.right_censored) (a := none) hf (by norm_num)
      (by norm_num)
    obtain ⟨p, hp1, hp2, hp3⟩ := probplot_spec hs hd (life it.stress) hf hp h2 h4
    by_cases hc : i < colours
    · obtain ⟨ih1, ih2⟩ := ih (i + 1) (fun a ha => hit a (mem_cons_of_mem _ ha)) hc
      constructor
      · intro hle
        rw [length_cons] at hle
        obtain ⟨gs, ys, g1, g2, g3, g4⟩ := ih1 (by omega)
        refine ⟨⟨it.stress, p.scatter, p.line, originalLine dist it.original, i⟩ :: gs, y ++ ys, ?_, .cons ?_ g2, ?_, ?_⟩
        · simp only [groups, h2, bind, Except.bind, colour, hc, if_true, hp1, g1]
          rfl
        · exact ⟨rfl, ⟨y, h2, hp2, h4, h6⟩, hp3, rfl⟩
        · intro v
          rw [mem_append, g3]
          simp only [mem_cons, exists_eq_or_imp, hp2, Option.some.injEq]
          constructor
          · rintro (h | h)
            · exact .inl ⟨_, rfl, h⟩
            · exact .inr h
          · rintro (⟨_, rfl, h⟩ | h)
            · exact .inl h
            · exact .inr h
        · rw [map_cons, g4]
          rfl
      · intro hlt
        rw [length_cons] at hlt
        simp only [groups, h2, bind, Except.bind, colour, hc, if_true, hp1, ih2 (by omega)]
    · constructor
      · intro hle
        rw [length_cons] at hle
        omega
      · intro _
        simp only [groups, h2, bind, Except.bind, colour, hc, if_false]

/-! ## The figure -/

theorem lifeOf_dist {dist : String} {shape : ℝ} {d : LifeDist} (h : LifeOf dist shape d) :
    dist ∈ ["Weibull", "Lognormal", "Normal", "Exponential"] := by
  cases d <;> simp only [LifeOf] at h <;> simp [h]

theorem useLine_eq {dist : String} {shape : ℝ} {d : LifeDist} (h : LifeOf dist shape d) (life : ℝ) :
    useLine dist life shape = d.dist life := by
  cases d <;> simp only [LifeOf] at h <;> simp [h, useLine, distribution, LifeDist.dist]

theorem paperOf_ok (dist : String) : (paperOf dist).Ok := by
  unfold paperOf
  split_ifs <;> trivial

/-- Quantiles of a life distribution. -/
theorem life_quantile {d : LifeDist} (hd : d.Valid) {life : ℝ} (hl : 0 < life) :
    (∀ v w, 0 < v → v ≤ w → w < 1 → (d.dist life).sp.ppf v ≤ (d.dist life).sp.ppf w) ∧
    ((∀ s, d ≠ .normal s) → ∀ v, 0 < v → v < 1 → 0 < (d.dist life).sp.ppf v) := by
  have mono : ∀ {D : Set ℝ} {e : Dist}, SurvivalLaw e.sp.cdf e.sp.sf → QuantileLaw D e.sp.cdf e.sp.sf e.sp.ppf e.sp.isf →
      ∀ v w, 0 < v → v ≤ w → w < 1 → e.sp.ppf v ≤ e.sp.ppf w := by
    intro D e h1 h2 v w hv hvw hw
    by_contra hlt
    push Not at hlt
    have := h1.mono hlt.le
    rw [h2.cdf_quantile w (by linarith) hw, h2.cdf_quantile v hv (by linarith)] at this
    have : v = w := le_antisymm hvw this
    subst this
    exact lt_irrefl _ hlt
  cases d with
  | weibull b =>
    have q := Reliability.Props.Distributions.C34_weibull life b 0 hl hd
    exact ⟨mono (Reliability.Props.Distributions.C33_weibull life b 0 hl hd).1 q, fun _ v h0 h1 => q.mem v h0 h1⟩
  | lognormal s =>
    have q := Reliability.Props.Distributions.C34_lognormal (Real.log life) s 0 hd
    exact ⟨mono (Reliability.Props.Distributions.C33_lognormal (Real.log life) s 0 hd).1 q, fun _ v h0 h1 => q.mem v h0 h1⟩
  | normal s =>
    exact ⟨mono (Reliability.Props.Distributions.C33_normal life s hd) (Reliability.Props.Distributions.C34_normal life s hd), fun h => absurd rfl (h s)⟩
  | exponential =>
    have q := Reliability.Props.Distributions.C34_exponential (1 / life) 0 (one_div_pos.2 hl)
    exact ⟨mono (Reliability.Props.Distributions.C33_exponential (1 / life) 0 (one_div_pos.2 hl)).1 q, fun _ v h0 h1 => q.mem v h0 h1⟩

/-- On Normal paper times of any sign are shown, on the others the quantiles are positive. -/
theorem xs_ok {dist : String} {shape : ℝ} {d : LifeDist} (hd : LifeOf dist shape d) (hv : d.Valid) {life : ℝ} (hl : 0 < life)
    {xs : List ℝ} (hx : xs ≠ []) (hxs : ∀ t ∈ xs, 0 < t) {v w : ℝ} (hv0 : 0 < v) (hv1 : v < 1) (hw0 : 0 < w) (hw1 : w < 1) :
    ((paperOf dist).logx = true → ∀ t ∈ xs ++ [(d.dist life).sp.ppf v, (d.dist life).sp.ppf w], 0 < t) ∧
    ((∀ t ∈ xs ++ [(d.dist life).sp.ppf v, (d.dist life).sp.ppf w], 0 < t) ∨ (paperOf dist).negative = true ∧
      ∃ a ∈ xs ++ [(d.dist life).sp.ppf v, (d.dist life).sp.ppf w],
        ∃ b ∈ xs ++ [(d.dist life).sp.ppf v, (d.dist life).sp.ppf w], a ≠ b) := by
  have hq := (life_quantile hv hl).2
  by_cases hn : ∃ s, d = .normal s
  · obtain ⟨s, rfl⟩ := hn
    obtain ⟨rfl, rfl⟩ := hd
    refine ⟨fun h => absurd h (by simp [paperOf, Paper.logx]), ?_⟩
    by_cases hp : ∀ t ∈ xs ++ [((LifeDist.normal shape).dist life).sp.ppf v, ((LifeDist.normal shape).dist life).sp.ppf w], 0 < t
    · exact .inl hp
    · push Not at hp
      obtain ⟨t, ht, ht0⟩ := hp
      obtain ⟨x, hx⟩ := exists_mem_of_ne_nil _ hx
      refine .inr ⟨by simp [paperOf, Paper.negative], t, ht, x, mem_append_left _ hx, ?_⟩
      have := hxs x hx
      intro e
      linarith
  · push Not at hn
    have : ∀ t ∈ xs ++ [(d.dist life).sp.ppf v, (d.dist life).sp.ppf w], 0 < t := by
      intro t ht
      rcases mem_append.1 ht with h | h
      · exact hxs t h
      · simp only [mem_cons, not_mem_nil, or_false] at h
        rcases h with rfl | rfl
        · exact hq hn v hv0 hv1
        · exact hq hn w hw0 hw1
    exact ⟨fun _ => this, .inl this⟩

/-- **C134 (the function).** `ALT_prob_plot` with data at every stress, an admissible life distribution and a positive life
at the use level: if the colour cycle has a colour for every stress and one for the use level, then it returns; for every
stress, in order, it shows the plotting positions of the data, the life distribution at the life of that stress, and the
original fit; it shows the life distribution at the use level; and everything is visible.  If the colour cycle is too short it
raises IndexError. -/
theorem C134_alt_prob_plot {argsort : List ℝ → List ℕ} (hs : IsArgsort argsort) (colours : ℕ) {dist model : String} {shape : ℝ}
    {d : LifeDist} (hd : LifeOf dist shape d) (hv : d.Valid)
    (hm : model ∈ ["Exponential", "Eyring", "Power", "Dual_Exponential", "Power_Exponential", "Dual_Power"])
    (life : σ → ℝ) (items : List (Item σ)) (h0 : items ≠ [])
    (hit : ∀ it ∈ items, it.failures ≠ [] ∧ ∀ t ∈ it.failures, 0 < t) (use : Option σ) (hu : ∀ u, use = some u → 0 < life u) :
    (items.length + (if use.isSome then 1 else 0) ≤ colours →
      ∃ P, altProbPlot argsort colours dist model items life shape use = .ok P ∧
        Forall₂ (fun it g => g.stress = it.stress ∧ ShowsPositions argsort it.failures it.right_censored g ∧
          g.line = some (d.dist (life it.stress)) ∧ g.original = originalLine dist it.original) items P.groups ∧
        P.groups.map Group.colour = List.range items.length ∧
        P.use = use.map (fun u => (d.dist (life u), items.length)) ∧ P.Complete ∧ P.Coloured) ∧
    (colours < items.length + (if use.isSome then 1 else 0) →
      altProbPlot argsort colours dist model items life shape use = .error .indexError) := by
  have hdm := lifeOf_dist hd
  have hmm : model ∈ ["Dual_Exponential", "Power_Exponential", "Dual_Power", "Exponential", "Eyring", "Power"] := by
    simp only [mem_cons, not_mem_nil, or_false] at hm ⊢
    tauto
  obtain ⟨k1, k2⟩ := groups_spec hs hd life items 0 hit (Nat.zero_le colours)
  simp only [zero_add] at k1 k2
  have hxs : ∀ t ∈ items.flatMap Item.failures, 0 < t := by
    intro t ht
    obtain ⟨it, h, ht⟩ := mem_flatMap.1 ht
    exact (hit it h).2 t ht
  have hx0 : items.flatMap Item.failures ≠ [] := by
    obtain ⟨it, h⟩ := exists_mem_of_ne_nil _ h0
    obtain ⟨t, ht⟩ := exists_mem_of_ne_nil _ (hit it h).1
    exact ne_nil_of_mem (mem_flatMap.2 ⟨it, h, ht⟩)
  -- the groups
  have shows : ∀ {gs : List (Group σ)}, Forall₂ (Drawn argsort dist d life) items gs →
      Forall₂ (fun it g => g.stress = it.stress ∧ ShowsPositions argsort it.failures it.right_censored g ∧
          g.line = some (d.dist (life it.stress)) ∧ g.original = originalLine dist it.original) items gs := by
    intro gs h
    have h := (forall₂_iff_get.1 h)
    refine forall₂_iff_get.2 ⟨h.1, fun i h1 h2 => ?_⟩
    obtain ⟨e1, ⟨y, p1, p2, p3, p4⟩, e2, e3⟩ := h.2 i h1 h2
    obtain ⟨x, y', y0, q1, q2, q3, q4, q5, -⟩ := ProbPlots.positions_of hs (rc := (items.get ⟨i, h1⟩).right_censored) (a := none)
      (hit _ (get_mem _ _)).1 (by norm_num) (by norm_num)
    rw [p1] at q2
    cases q2
    exact ⟨e1, ⟨x, y', _, q1, p2, p3, q5⟩, e2, e3⟩
  have pts : ∀ {gs : List (Group σ)} {ys : List ℝ}, Forall₂ (Drawn argsort dist d life) items gs →
      (∀ v, v ∈ ys ↔ ∃ g ∈ gs, ∃ S, g.scatter = some S ∧ v ∈ S.2) →
      (∀ g ∈ gs, ∀ S, g.scatter = some S → ∀ q ∈ S.1.zip S.2, q.1 ∈ items.flatMap Item.failures ∧ q.2 ∈ ys) ∧
      (∀ v ∈ ys, 0 < v ∧ v < 1) ∧ ys ≠ [] := by
    intro gs ys h hy
    have h' := (forall₂_iff_get.1 h)
    have each : ∀ g ∈ gs, ∃ it ∈ items, Drawn argsort dist d life it g := by
      intro g hg
      obtain ⟨⟨j, hj⟩, rfl⟩ := mem_iff_get.1 hg
      exact ⟨_, get_mem _ ⟨j, h'.1 ▸ hj⟩, h'.2 j (h'.1 ▸ hj) hj⟩
    refine ⟨fun g hg S hS q hq => ?_, fun v hv => ?_, ?_⟩
    · obtain ⟨it, hi, -, ⟨y, -, p2, -⟩, -⟩ := each g hg
      rw [hS] at p2
      cases p2
      obtain ⟨q1, q2⟩ := of_mem_zip hq
      exact ⟨mem_flatMap.2 ⟨it, hi, q1⟩, (hy _).2 ⟨g, hg, _, hS, q2⟩⟩
    · obtain ⟨g, hg, S, hS, hv⟩ := (hy v).1 hv
      obtain ⟨it, hi, -, ⟨y, -, p2, -, p4⟩, -⟩ := each g hg
      rw [hS] at p2
      cases p2
      exact p4 v hv
    · obtain ⟨it, hi⟩ := exists_mem_of_ne_nil _ h0
      obtain ⟨⟨j, hj⟩, rfl⟩ := mem_iff_get.1 hi
      obtain ⟨-, ⟨y, -, p2, p3, -⟩, -⟩ := h'.2 j hj (h'.1 ▸ hj)
      have : y ≠ [] := by
        rw [← length_pos_iff_ne_nil, ← p3]
        exact length_pos_iff_ne_nil.2 (hit _ hi).1
      obtain ⟨v, hv⟩ := exists_mem_of_ne_nil _ this
      exact ne_nil_of_mem ((hy v).2 ⟨_, get_mem _ ⟨j, h'.1 ▸ hj⟩, _, p2, hv⟩)
  cases use with
  | none =>
    simp only [Option.isSome_none, Bool.false_eq_true, if_false, add_zero]
    refine ⟨fun hle => ?_, fun hlt => ?_⟩
    · obtain ⟨gs, ys, g1, g2, g3, g4⟩ := k1 hle
      obtain ⟨t1, t2, t3⟩ := pts g2 g3
      obtain ⟨⟨X, Y⟩, hL⟩ := (C117_defined (paperOf dist) _ ys (s := 1 / 10) (by norm_num)).1.2 ⟨hx0, t3, fun _ => hxs⟩
      refine ⟨⟨gs, none, paperOf dist, (X, Y)⟩, ?_, shows g2, by rw [List.range_eq_range']; exact g4, rfl, ⟨?_, nofun⟩,
        by simp only [Figure.Coloured, g4]; simp [nodup_range']⟩
      · simp only [altProbPlot, hdm, not_true_eq_false, if_false, hmm, bind, Except.bind, g1, hL]
        rfl
      · rintro q ⟨g, hg, S, hS, hq⟩
        obtain ⟨a1, a2⟩ := t1 g hg S hS q hq
        have hx := (C117_x (by norm_num) hL (.inl hxs)).2.1 _ a1
        have hy := (C117_y (paperOf_ok dist) (by norm_num) (by norm_num) hL t2).2.2.1 _ a2
        exact ⟨hx.1, hx.2.le, hy.1, hy.2⟩
    · simp only [altProbPlot, hdm, not_true_eq_false, if_false, hmm, bind, Except.bind, k2 hlt]
  | some u =>
    simp only [Option.isSome_some, if_true]
    have hlu := hu u rfl
    refine ⟨fun hle => ?_, fun hlt => ?_⟩
    · obtain ⟨gs, ys, g1, g2, g3, g4⟩ := k1 (by omega)
      obtain ⟨t1, t2, t3⟩ := pts g2 g3
      obtain ⟨lo, hi, r1, r2, r3, r4⟩ := ProbPaper.range_spec t3
      obtain ⟨x1, x2⟩ := xs_ok hd hv hlu hx0 hxs (t2 lo r2).1 (t2 lo r2).2 (t2 hi r3).1 (t2 hi r3).2
      obtain ⟨⟨X, Y⟩, hL⟩ := (C117_defined (paperOf dist) (items.flatMap Item.failures ++
        [(d.dist (life u)).sp.ppf lo, (d.dist (life u)).sp.ppf hi]) ys (s := 1 / 10) (by norm_num)).1.2
        ⟨by simp, t3, x1⟩
      have hX := (C117_x (by norm_num) hL x2).2.1
      refine ⟨⟨gs, some (d.dist (life u), items.length), paperOf dist, (X, Y)⟩, ?_, shows g2,
        by rw [List.range_eq_range']; exact g4, rfl, ⟨?_, ?_⟩, by
          simp only [Figure.Coloured, g4, Option.toList_some, map_cons, map_nil, nodup_append, nodup_range', nodup_singleton,
            mem_range'_1, mem_singleton]
          exact ⟨by simp [nodup_range'], trivial, fun a ha b hb => by omega⟩⟩
      · simp only [altProbPlot, hdm, not_true_eq_false, if_false, hmm, bind, Except.bind, g1, colour,
          show items.length < colours by omega, if_true, r1, useLine_eq hd, hL]
        rfl
      · rintro q ⟨g, hg, S, hS, hq⟩
        obtain ⟨a1, a2⟩ := t1 g hg S hS q hq
        have hx := hX _ (mem_append_left _ a1)
        have hy := (C117_y (paperOf_ok dist) (by norm_num) (by norm_num) hL t2).2.2.1 _ a2
        exact ⟨hx.1, hx.2.le, hy.1, hy.2⟩
      · rintro e c he q q' ⟨g, hg, S, hS, hq⟩ ⟨g', hg', S', hS', hq'⟩ v hqv hvq
        cases he
        have b1 := (t1 g hg S hS q hq).2
        have b2 := (t1 g' hg' S' hS' q' hq').2
        have m1 := (life_quantile hv hlu).1 lo v (t2 lo r2).1 ((r4 _ b1).1.trans hqv)
          (lt_of_le_of_lt (hvq.trans (r4 _ b2).2) (t2 hi r3).2)
        have m2 := (life_quantile hv hlu).1 v hi (lt_of_lt_of_le (t2 lo r2).1 ((r4 _ b1).1.trans hqv))
          (hvq.trans (r4 _ b2).2) (t2 hi r3).2
        have c1 := hX ((d.dist (life u)).sp.ppf lo) (by simp)
        have c2 := hX ((d.dist (life u)).sp.ppf hi) (by simp)
        exact ⟨c1.1.trans m1, m2.trans c2.2.le⟩
    · by_cases hlen : items.length ≤ colours
      · obtain ⟨gs, ys, g1, g2, g3, g4⟩ := k1 hlen
        simp only [altProbPlot, hdm, not_true_eq_false, if_false, hmm, bind, Except.bind, g1, colour,
          show ¬ items.length < colours by omega]
      · simp only [altProbPlot, hdm, not_true_eq_false, if_false, hmm, bind, Except.bind, k2 (by omega)]

/-! ## The figure of a fit -/

theorem lifeOf_altModel {dist model : String} {ps : List ℝ} {m : LifeStress} {d : LifeDist}
    (h : altModel dist model ps = some (m, d)) : LifeOf dist (shapeOf d) d := by
  unfold altModel at h
  split at h
  · next hm hd =>
    cases h
    unfold lifeDist at hd
    split at hd <;> cases hd
    · exact ⟨rfl, rfl⟩
    · exact ⟨rfl, rfl⟩
    · exact ⟨rfl, rfl⟩
    · exact rfl
  · cases h

theorem pointAt_rows {n : ℕ} (names : List String) (p : Fin n → ℝ) (SE : Option (List ℝ)) (bounds : List (ℝ × ℝ)) (i : Fin n) :
    ProbPaper.pointAt (resultRows names p SE bounds) i = p i := by
  simp [ProbPaper.pointAt, resultRows]

theorem groupFit_original {dist : String} (hd : dist ∈ ["Weibull", "Lognormal", "Normal", "Exponential"]) (r : Two) :
    originalLine dist (some (r.a, r.b)) = some (originalOf dist r) := by
  simp only [mem_cons, not_mem_nil, or_false] at hd
  rcases hd with rfl | rfl | rfl | rfl <;> simp [originalLine, distribution, originalOf]

theorem forall2_itemsOf {α β : Type} {R : List ℝ × Option (List ℝ) → β → Prop} (t : α → σ) (u : α → List ℝ × Option (List ℝ))
    (o : β → Option (ℝ × ℝ)) {S : List α} {os : List β} (h : Forall₂ R (S.map u) os) :
    (itemsOf (S.map t) (S.map u) (os.map o)).length = S.length ∧
    Forall₂ (fun s it => it.stress = t s ∧ it.failures = (u s).1 ∧ it.right_censored = (u s).2 ∧
      ∃ b, it.original = o b ∧ R (u s) b) S (itemsOf (S.map t) (S.map u) (os.map o)) := by
  induction S generalizing os with
  | nil => exact ⟨rfl, .nil⟩
  | cons s S ih =>
    cases os with
    | nil => cases h
    | cons b os =>
      obtain ⟨h1, h2⟩ := forall₂_cons.1 h
      obtain ⟨i1, i2⟩ := ih h2
      refine ⟨by simp [itemsOf, i1], ?_⟩
      exact .cons ⟨rfl, rfl, rfl, b, rfl, h1⟩ i2

open Reliability.Props.ALTGlue in
/-- C134 for any lawful class. -/
theorem plot_of_fit {κ : Type} [LinearOrder κ] [DecidableEq σ] {c : Cls σ} {k : Kind σ κ} {lifeAt : LifeStress → σ → ℝ}
    {pos : σ → Prop} (hc : Lawful c lifeAt pos)
    (hlife : ∀ p m d s, altModel c.dist c.model (List.ofFn p) = some (m, d) → c.life p s = lifeAt m s)
    (hmod : c.model ∈ ["Exponential", "Eyring", "Power", "Dual_Exponential", "Power_Exponential", "Dual_Power"])
    {dual : Bool} {tos : ℝ × Option ℝ → σ} (hk : KindLaw k dual tos)
    {argsort : List ℝ → List ℕ} (hs : IsArgsort argsort) (J : Jac) (num : ℕ → Option ℝ → Num2) (noise : Matrix (Fin 3) (Fin 3) ℝ)
    (minimize : Minimizer (Fin c.n → ℝ)) (x : ALTArgs)
    (hdual : dual = true ↔ DualStress c.model x.failure_stress_2) (res : ALTRes σ)
    (h : fitALT c k argsort J num noise minimize x = .ok res) (colours : ℕ) :
    ∃ F A B C D E m d, ALTRequirements c.dist c.model x.failures x.failure_stress_1 x.failure_stress_2 x.right_censored
        x.right_censored_stress_1 x.right_censored_stress_2 x.CI x.use_level_stress x.optimizer dual F A B C D E ∧
      altModel c.dist c.model (res.rows.map Row.point) = some (m, d) ∧
      (d.Valid → (∀ u, k.use x.use_level_stress = some u → 0 < lifeAt m u) →
        (∀ i ∈ C.zip (k.join D E), ∃ t, (t, i.2) ∈ F.zip (k.join A B)) →
        (res.change.length + (if (k.use x.use_level_stress).isSome then 1 else 0) ≤ colours →
          ∃ P, probPlotOf c k argsort J num colours x res = .ok P ∧
            P.Shows c.dist argsort J num (F.zip (k.join A B)) (C.zip (k.join D E)) (fun s => d.dist (lifeAt m s))
              (res.change.map Change.stress) (k.use x.use_level_stress)) ∧
        (colours < res.change.length + (if (k.use x.use_level_stress).isSome then 1 else 0) →
          probPlotOf c k argsort J num colours x res = .error .indexError)) := by
  unfold fitALT at h
  simp only [bind_ok] at h
  obtain ⟨inp, h1, ls, h2, gs, h3, bounds, h4, o, h5, SE, h6, h7⟩ := h
  have h7 := (Except.ok.inj h7).symm
  have hkey : ∀ dual, (dual = true ↔ DualStress c.model x.failure_stress_2) → KeyInj dual k.key := by
    intro d hd
    have : d = dual := by
      have := hd.trans hdual.symm
      cases d <;> cases dual <;> simp_all
    rw [this]; exact hk.keyInj
  obtain ⟨dual', q, hCI, hopt, huse, hgr⟩ := C74_groups k.key c.dist c.model _ _ _ _ _ _ hkey _ _ _ _ h1
  have hdd : dual' = dual := by
    have := q.is_dual.trans hdual.symm
    cases dual' <;> cases dual <;> simp_all
  subst hdd
  obtain ⟨m, d, hm1, hm2, hm3, -⟩ := hc.model o.params
  refine ⟨_, _, _, _, _, _, m, d, q, ?_, ?_⟩
  · rw [h7]
    have hnl : c.names.length = c.n := by rw [hc.names, hc.count, List.length_map]
    have := congrArg (List.map Prod.snd) (rows_points c.names hnl o.params SE
      (c.fit o.params SE (FunctionCI.zOf inp.CI) inp.failures inp.right_censored (k.join inp.failure_stress_1 inp.failure_stress_2)
        (k.join inp.right_censored_stress_1 inp.right_censored_stress_2) (k.use inp.use_level_stress)
        (inp.stresses_for_groups.map k.stress)).bounds)
    rw [List.map_map, List.map_snd_zip (by simp [hnl])] at this
    rw [← hm1]
    exact congrArg _ this
  intro hdv hu hCF
  obtain ⟨hA, hD, hBE⟩ := q.one_stress_each
  obtain ⟨S, hS1, hS2, hS3, hS4, -⟩ := groups_eq hk hA hD hBE hgr hCF
  obtain ⟨os, hgs, hos⟩ := groupFits_spec h3
  have hstress : inp.stresses_for_groups.map k.stress = S.map tos := by
    rw [hS2, List.map_map]
    apply List.map_congr_left
    intro s hs
    exact hk.stress s (hS1 s hs)
  have hglen : S.length = gs.length := by
    rw [hgs, List.length_map, ← hos.length_eq, hS4, List.length_map]
  -- the table of changes
  have hch : res.change.map Change.stress = S.map tos := by
    have f := hm3 SE (FunctionCI.zOf inp.CI) inp.failures inp.right_censored (k.join inp.failure_stress_1 inp.failure_stress_2)
      (k.join inp.right_censored_stress_1 inp.right_censored_stress_2) (k.use inp.use_level_stress)
      (inp.stresses_for_groups.map k.stress)
    have e := changeTable_eq (inp.stresses_for_groups.map k.stress) gs _ (c.shape o.params) (by rw [hstress]; simp [hglen])
      (fun s => d.scale (lifeAt m s)) (fun s => (k.use inp.use_level_stress).map fun u => lifeAt m u / lifeAt m s) f.2.2.1 (by
        intro i hi
        cases hu : k.use inp.use_level_stress with
        | none => rw [hu] at f; rw [f.2.2.2.2 rfl]; rfl
        | some u => rw [hu] at f; rw [f.2.2.2.1 u rfl, List.getElem?_map, List.getElem?_eq_getElem hi]; rfl)
    rw [h7]
    dsimp only
    rw [e, hstress]
    apply List.ext_getElem
    · simp [hglen]
    · intro i _ _
      simp [changeRow]
  have hcl : res.change.length = S.length := by
    have := congrArg List.length hch
    simpa using this
  -- the items
  obtain ⟨il, hitems⟩ := forall2_itemsOf tos (fun s =>
          (unitsAt (inp.failures.zip (k.join inp.failure_stress_1 inp.failure_stress_2)) (tos s),
            if inp.right_censored = [] then none
            else some (unitsAt (inp.right_censored.zip (k.join inp.right_censored_stress_1 inp.right_censored_stress_2))
              (tos s)))) (fun o : Option (FitRes Two) => o.map fun r => (r.dist.a, r.dist.b)) (hS4 ▸ hos)
  have hjF := hk.join inp.failure_stress_1 inp.failure_stress_2 inp.failures hA fun hd => (hBE hd).1
  have hjC := hk.join inp.right_censored_stress_1 inp.right_censored_stress_2 inp.right_censored hD fun hd => (hBE hd).2
  have hCnil : inp.right_censored.zip (k.join inp.right_censored_stress_1 inp.right_censored_stress_2) = [] ↔
      inp.right_censored = [] := by
    rw [← List.length_eq_zero_iff, ← List.length_eq_zero_iff, List.length_zip, hjC.2, min_self]
  set Fz := inp.failures.zip (k.join inp.failure_stress_1 inp.failure_stress_2) with hFz
  set Cz := inp.right_censored.zip (k.join inp.right_censored_stress_1 inp.right_censored_stress_2) with hCz
  have hplot : probPlotOf c k argsort J num colours x res = altProbPlot argsort colours c.dist c.model
      (itemsOf (S.map tos) (S.map fun s => (unitsAt Fz (tos s), if inp.right_censored = [] then none else some (unitsAt Cz (tos s))))
        (os.map fun o => o.map fun r => (r.dist.a, r.dist.b))) (lifeAt m) (shapeOf d) (k.use x.use_level_stress) := by
    unfold probPlotOf
    simp only [h1, bind, Except.bind, h3]
    rw [hstress, hS4, hgs]
    have hp : (fun i : Fin c.n => ProbPaper.pointAt res.rows i) = o.params := by
      funext i
      rw [h7]
      exact pointAt_rows _ _ _ _ i
    rw [hp, funext fun s => hlife o.params m d s hm1, hm2, huse]
  set items := itemsOf (S.map tos) (S.map fun s => (unitsAt Fz (tos s), if inp.right_censored = [] then none
    else some (unitsAt Cz (tos s)))) (os.map fun o => o.map fun r => (r.dist.a, r.dist.b)) with hitemsdef
  have hitems' := forall₂_iff_get.1 hitems
  have hmemS : ∀ s ∈ S, unitsAt Fz (tos s) ≠ [] ∧ ∀ t ∈ unitsAt Fz (tos s), 0 < t := by
    intro s hs
    constructor
    · obtain ⟨y, hy⟩ := (hS3 s).1 hs
      have := (mem_rows hk hA (fun hd => (hBE hd).1) s (hS1 s hs) y).1 hy
      apply List.ne_nil_of_mem (a := y)
      unfold unitsAt
      rw [List.mem_map]
      exact ⟨(y, tos s), List.mem_filter.2 ⟨this, by simp⟩, rfl⟩
    · intro t ht
      unfold unitsAt at ht
      obtain ⟨i, hi, rfl⟩ := List.mem_map.1 ht
      exact q.positive.1 _ (List.of_mem_zip (List.mem_filter.1 hi).1).1
  have hitok : ∀ it ∈ items, it.failures ≠ [] ∧ ∀ t ∈ it.failures, 0 < t := by
    intro it hi
    obtain ⟨⟨j, hj⟩, rfl⟩ := mem_iff_get.1 hi
    obtain ⟨-, e, -⟩ := hitems'.2 j (hitems'.1 ▸ hj) hj
    rw [e]
    exact hmemS _ (get_mem _ _)
  have h0 : items ≠ [] := by
    rw [← length_pos_iff_ne_nil, il, length_pos_iff_ne_nil]
    have he := q.enough
    have : (stressRows dual' inp.failure_stress_1 inp.failure_stress_2 inp.failures).toFinset.Nonempty := by
      rw [← Finset.card_pos]
      split_ifs at he <;> omega
    obtain ⟨r, hr⟩ := this
    rw [List.mem_toFinset] at hr
    exact List.ne_nil_of_mem ((hS3 r.1).2 ⟨r.2, hr⟩)
  have main := C134_alt_prob_plot hs colours (lifeOf_altModel hm1) hdv hmod (lifeAt m) items h0 hitok
    (k.use x.use_level_stress) hu
  rw [hplot, hcl, ← il]
  refine ⟨fun hle => ?_, main.2⟩
  obtain ⟨P, p1, p2, p3, p4, p5, p6⟩ := main.1 hle
  have p2' := forall₂_iff_get.1 p2
  refine ⟨P, p1, ?_, ?_, ?_, p5, p6⟩
  · rw [hch]
    apply List.ext_getElem
    · simp [← p2'.1, il]
    · intro i hi hi'
      simp only [List.length_map] at hi hi'
      rw [List.getElem_map, List.getElem_map]
      have a := (p2'.2 i (p2'.1 ▸ hi) hi).1
      have b := (hitems'.2 i hi' (p2'.1 ▸ hi)).1
      exact a.trans b
  · intro g hg
    obtain ⟨⟨j, hj⟩, rfl⟩ := mem_iff_get.1 hg
    have hj1 : j < items.length := p2'.1 ▸ hj
    have hj2 : j < S.length := hitems'.1 ▸ hj1
    obtain ⟨a1, a2, a3, a4⟩ := p2'.2 j hj1 hj
    obtain ⟨b1, b2, b3, b, b4, b5⟩ := hitems'.2 j hj2 hj1
    rw [b1] at a1 a3
    rw [b2, b3] at a2
    have hrc : (if inp.right_censored = [] then none else some (unitsAt Cz (tos (S.get ⟨j, hj2⟩)))) =
        if Cz = [] then none else some (unitsAt Cz (tos (S.get ⟨j, hj2⟩))) := by
      simp only [hCnil]
    have hrc' : rcArg (if Cz = [] then none else some (unitsAt Cz (tos (S.get ⟨j, hj2⟩)))) =
        if Cz = [] then .none else .array (unitsAt Cz (tos (S.get ⟨j, hj2⟩))) := by
      split_ifs <;> rfl
    dsimp only at b5 a2
    rw [hrc] at b5 a2
    rw [b4] at a4
    refine ⟨by rw [a1]; exact a2, by rw [a1]; exact a3, fun hl => ?_, fun hl => ?_⟩
    · rw [a1] at hl
      rw [a4, b5.1 (by rw [hl]; decide)]
      rfl
    · rw [a1] at hl ⊢
      have : 0 < (unitsAt Fz (tos (S.get ⟨j, hj2⟩))).length := length_pos_iff_ne_nil.2 (hmemS _ (get_mem _ _)).1
      obtain ⟨i, r, rfl, hr⟩ := b5.2 (by omega)
      refine ⟨i, r, ?_, ?_⟩
      · have := groupFit_fitOf hr
        rw [hrc'] at this
        exact this
      · rw [a4]
        exact groupFit_original (lifeOf_dist (lifeOf_altModel hm1)) _
  · rw [p4]
    cases k.use x.use_level_stress <;> rfl

theorem life_single (c : Cls ℝ) (hc : c ∈ singleClasses) (p : Fin c.n → ℝ) (m : LifeStress) (d : LifeDist) (s : ℝ)
    (h : altModel c.dist c.model (List.ofFn p) = some (m, d)) : c.life p s = lifeAt1 m s := by
  simp only [singleClasses, List.mem_cons, List.not_mem_nil, or_false] at hc
  rcases hc with rfl | rfl | rfl | rfl | rfl | rfl | rfl | rfl | rfl | rfl | rfl | rfl <;>
    (injection h with h; injection h with h1 h2; subst h1
     first | rfl | exact Reliability.Props.ALT.eyring_life_eq _ _ _)

theorem life_dual (c : Cls (ℝ × ℝ)) (hc : c ∈ dualClasses) (p : Fin c.n → ℝ) (m : LifeStress) (d : LifeDist) (s : ℝ × ℝ)
    (h : altModel c.dist c.model (List.ofFn p) = some (m, d)) : c.life p s = lifeAt2 m s := by
  simp only [dualClasses, List.mem_cons, List.not_mem_nil, or_false] at hc
  rcases hc with rfl | rfl | rfl | rfl | rfl | rfl | rfl | rfl | rfl | rfl | rfl | rfl <;>
    (injection h with h; injection h with h1 h2; subst h1
     rfl)

open Reliability.Props.ALTGlue in
/-- **C134, one stress.** The probability plot of a single-stress fit, when the estimates are admissible and every censored
stress has failures.  If the colour cycle is long enough the plot is made, and it shows, for every stress in the table of
changes, the plotting positions of its data, the life distribution at the life that the fitted model gives for this stress,
and the fit to its data alone; and the life distribution at the use level; all of it visible.  Otherwise: IndexError. -/
theorem C134_single (c : Cls ℝ) (hc : c ∈ singleClasses) {argsort : List ℝ → List ℕ} (hs : IsArgsort argsort) (J : Jac)
    (num : ℕ → Option ℝ → Num2) (noise : Matrix (Fin 3) (Fin 3) ℝ) (minimize : Minimizer (Fin c.n → ℝ)) (x : ALTArgs)
    (res : ALTRes ℝ) (h : fitALT c singleKind argsort J num noise minimize x = .ok res) (colours : ℕ) :
    ∃ F C use m d, UsedSingle x F C ∧ UseSingle x use ∧ altModel c.dist c.model (res.rows.map Row.point) = some (m, d) ∧
      (m.Valid → d.Valid → (∀ u, use = some u → 0 < u) → (∀ i ∈ C, ∃ t, (t, i.2) ∈ F) →
        (res.change.length + (if use.isSome then 1 else 0) ≤ colours →
          ∃ P, probPlotOf c singleKind argsort J num colours x res = .ok P ∧
            P.Shows c.dist argsort J num F C (fun s => d.dist (lifeAt1 m s)) (res.change.map Change.stress) use) ∧
        (colours < res.change.length + (if use.isSome then 1 else 0) →
          probPlotOf c singleKind argsort J num colours x res = .error .indexError)) := by
  obtain ⟨F, A, B, C, D, E, m, d, q, h1, h2⟩ := plot_of_fit (lawful_single c hc) (life_single c hc) (by
    have := (models_single hc).1
    simp only [mem_cons, not_mem_nil, or_false] at this ⊢
    tauto) singleLaw hs J num noise minimize x (single_not_dual hc _) res h colours
  refine ⟨_, _, _, m, d, used_single q, ?_, h1, fun hm hd hu hC => h2 hd (fun u hu' => ?_) hC⟩
  · rcases q.use_ok with hu | ⟨-, u, hu⟩ | ⟨hd, -⟩
    · left; rw [hu]; exact ⟨rfl, rfl⟩
    · right; rw [hu]; exact ⟨u, rfl, rfl⟩
    · cases hd
  · exact m.life_pos hm (hu u hu') one_pos

open Reliability.Props.ALTGlue in
/-- **C134, two stresses.** The same for the dual-stress fitters; `key` is any representation of the pairs of stresses from
which they can be read back. -/
theorem C134_dual {κ : Type} [LinearOrder κ] (key : ℝ → Option ℝ → κ) (stress : κ → ℝ × ℝ)
    (hkey : ∀ a b, stress (key a (some b)) = (a, b)) (c : Cls (ℝ × ℝ)) (hc : c ∈ dualClasses)
    {argsort : List ℝ → List ℕ} (hs : IsArgsort argsort) (J : Jac) (num : ℕ → Option ℝ → Num2) (noise : Matrix (Fin 3) (Fin 3) ℝ)
    (minimize : Minimizer (Fin c.n → ℝ)) (x : ALTArgs) (res : ALTRes (ℝ × ℝ))
    (h : fitALT c (dualKind key stress) argsort J num noise minimize x = .ok res) (colours : ℕ) :
    ∃ F C use m d, UsedDual x F C ∧ UseDual x use ∧ altModel c.dist c.model (res.rows.map Row.point) = some (m, d) ∧
      (m.Valid → d.Valid → (∀ u v, use = some (u, v) → 0 < u ∧ 0 < v) → (∀ i ∈ C, ∃ t, (t, i.2) ∈ F) →
        (res.change.length + (if use.isSome then 1 else 0) ≤ colours →
          ∃ P, probPlotOf c (dualKind key stress) argsort J num colours x res = .ok P ∧
            P.Shows c.dist argsort J num F C (fun s => d.dist (lifeAt2 m s)) (res.change.map Change.stress) use) ∧
        (colours < res.change.length + (if use.isSome then 1 else 0) →
          probPlotOf c (dualKind key stress) argsort J num colours x res = .error .indexError)) := by
  obtain ⟨F, A, B, C, D, E, m, d, q, h1, h2⟩ := plot_of_fit (lawful_dual c hc) (life_dual c hc) (by
    have := (models_dual hc).1
    simp only [mem_cons, not_mem_nil, or_false] at this ⊢
    tauto) (dualLaw hkey) hs J num noise minimize x (dual_dual hc _) res h colours
  refine ⟨_, _, _, m, d, used_dual hkey q, ?_, h1, fun hm hd hu hC => h2 hd (fun u hu' => ?_) hC⟩
  · rcases q.use_ok with hu | ⟨hd, -⟩ | ⟨-, u, v, hu⟩
    · left; rw [hu]; exact ⟨rfl, rfl⟩
    · cases hd
    · right; rw [hu]; exact ⟨u, v, rfl, rfl⟩
  · exact m.life_pos hm (hu u.1 u.2 hu').1 (hu u.1 u.2 hu').2

/-- **C134 (finding).** In the figure of an Exponential class the dashed line of a stress is the Exponential distribution with the
scale of the Weibull distribution fitted to its data: unless the fitted shape is 1 it is not the fitted distribution, at any time
other than the scale itself. -/
theorem C134_exponential_original_finding {r : Two} (ha : 0 < r.a) (hb : r.b ≠ 1) {t : ℝ} (ht : 0 < t) (hta : t ≠ r.a) :
    (originalOf "Exponential" r).sp.cdf t ≠ (Distributions.weibull r.a r.b 0).sp.cdf t := by
  intro e
  have h1 := ProbPaper.C118_straight_exponential_weibull_scale (one_div_pos.2 ha) t ht
  have h2 := ProbPaper.C118_straight_weibull (beta := r.b) ha t ht
  change (Distributions.exponential (1 / r.a) 0).sp.cdf t = _ at e
  rw [e, h2, Real.log_div one_ne_zero ha.ne', Real.log_one] at h1
  simp only [Paper.horizontal, Paper.logx, if_true] at h1
  have h3 : (r.b - 1) * (Real.log t - Real.log r.a) = 0 := by linarith
  rcases mul_eq_zero.1 h3 with h | h
  · exact hb (by linarith)
  · exact hta (Real.log_injOn_pos ht ha (by linarith))

end Reliability.ALTPlots
