import Verif.Props.ProbPaper
import Verif.Props.FitGlue

/-!
# C118: the probability plots show the data and the fit
-/

namespace Reliability.ProbPaper

open Reliability Reliability.Distributions Reliability.Utils Reliability.FitGlue Reliability.InputCheck List
open Reliability.FunctionCI (Two Expo Fitted Jac distOf CFam)
open Reliability.Props (bind_ok)

variable {argsort : List ℝ → List Nat}

/-- An optional array as an argument. -/
def dataArg : Option (List ℝ) → DataArg ℝ
  | none => .none
  | some c => .array c

theorem fitArgs_eq (f : List ℝ) (rc : Option (List ℝ)) (CI : Option ℝ) :
    fitArgs f rc CI = { failures := .array f, right_censored := dataArg rc, CI := .float (CI.getD 0.95) } := by
  cases rc <;> rfl

theorem checkData_ok {least : ℕ} {given : Bool} {f : List ℝ} {rc : Option (List ℝ)} (hf : f ≠ [])
    (h : given = true ∨ least ≤ f.length) : checkData least given (.array f) (dataArg rc) = .ok (f, rc) := by
  have h0 : f.length ≠ 0 := by simpa using hf
  have h1 : ¬ (f.length < least ∧ (!given) = true) := by
    rintro ⟨h1, h2⟩
    rcases h with h | h
    · rw [h] at h2; cases h2
    · omega
  unfold checkData
  simp only [if_neg h0]
  rw [if_neg h1]
  cases rc <;> rfl

theorem fit2_dist {F : Fam2} {J : Jac} {num : Option ℝ → Num2} {inp : Checked ℝ} {force : Option ℝ} {r : FitRes Two}
    (h : fit2 F argsort J num inp force = .ok r) : r.dist.fam = F.cfam ∧ r.dist.gamma = 0 := by
  unfold fit2 at h
  simp only [bind_ok] at h
  obtain ⟨e, he, s, hs, q, hq, g, hg, h⟩ := h
  cases h
  exact ⟨rfl, rfl⟩

theorem fit3_dist {F : Fam3} {J : Jac} {num : Num (ℝ × ℝ × ℝ)} {fb : Args → Except Err (FitRes Two)} {inp : Checked ℝ}
    {r : FitRes Two} (hfb : ∀ x r, fb x = .ok r → r.dist.fam = F.F2.cfam) (h : fit3 F argsort J num fb inp = .ok r) :
    r.dist.fam = F.F2.cfam := by
  unfold fit3 at h
  simp only [bind_ok] at h
  obtain ⟨e, he, h⟩ := h
  split_ifs at h
  · simp only [bind_ok] at h
    obtain ⟨r', hr', q, hq, g, hg, h⟩ := h
    cases h
    have := hfb _ _ hr'
    exact this
  · simp only [bind_ok] at h
    obtain ⟨s, hs, q, hq, g, hg, h⟩ := h
    cases h
    rfl

theorem fitWeibull2P_dist {J : Jac} {num : Option ℝ → Num2} {x : Args} {r : FitRes Two}
    (h : fitWeibull2P argsort J num x = .ok r) : r.dist.fam = .weibull ∧ r.dist.gamma = 0 := by
  simp only [fitWeibull2P, bind_ok] at h
  obtain ⟨inp, -, h2⟩ := h
  exact fit2_dist h2

theorem fitLognormal2P_dist {J : Jac} {num : Option ℝ → Num2} {x : Args} {r : FitRes Two}
    (h : fitLognormal2P argsort J num x = .ok r) : r.dist.fam = .lognormal ∧ r.dist.gamma = 0 := by
  simp only [fitLognormal2P, bind_ok] at h
  obtain ⟨inp, -, h2⟩ := h
  exact fit2_dist h2

theorem fitLoglogistic2P_dist {J : Jac} {num : Option ℝ → Num2} {x : Args} {r : FitRes Two}
    (h : fitLoglogistic2P argsort J num x = .ok r) : r.dist.fam = .loglogistic ∧ r.dist.gamma = 0 := by
  simp only [fitLoglogistic2P, bind_ok] at h
  obtain ⟨inp, -, h2⟩ := h
  exact fit2_dist h2

theorem fitNormal2P_dist {J : Jac} {num : Option ℝ → Num2} {x : Args} {r : FitRes Two}
    (h : fitNormal2P argsort J num x = .ok r) : r.dist.fam = .normal ∧ r.dist.gamma = 0 := by
  simp only [fitNormal2P, bind_ok] at h
  obtain ⟨inp, -, h2⟩ := h
  exact fit2_dist h2

theorem fitGumbel2P_dist {J : Jac} {num : Option ℝ → Num2} {x : Args} {r : FitRes Two}
    (h : fitGumbel2P argsort J num x = .ok r) : r.dist.fam = .gumbel ∧ r.dist.gamma = 0 := by
  simp only [fitGumbel2P, bind_ok] at h
  obtain ⟨inp, -, h2⟩ := h
  exact fit2_dist h2

theorem fitWeibull3P_dist {J : Jac} {num : Num (ℝ × ℝ × ℝ)} {num2 : Option ℝ → Num2} {x : Args} {r : FitRes Two}
    (h : fitWeibull3P argsort J num num2 x = .ok r) : r.dist.fam = .weibull := by
  simp only [fitWeibull3P, bind_ok] at h
  obtain ⟨inp, -, h2⟩ := h
  exact fit3_dist (fun x r h => (fitWeibull2P_dist h).1) h2

theorem fitLognormal3P_dist {J : Jac} {num : Num (ℝ × ℝ × ℝ)} {num2 : Option ℝ → Num2} {x : Args} {r : FitRes Two}
    (h : fitLognormal3P argsort J num num2 x = .ok r) : r.dist.fam = .lognormal := by
  simp only [fitLognormal3P, bind_ok] at h
  obtain ⟨inp, -, h2⟩ := h
  exact fit3_dist (fun x r h => (fitLognormal2P_dist h).1) h2

theorem fitLoglogistic3P_dist {J : Jac} {num : Num (ℝ × ℝ × ℝ)} {num2 : Option ℝ → Num2} {x : Args} {r : FitRes Two}
    (h : fitLoglogistic3P argsort J num num2 x = .ok r) : r.dist.fam = .loglogistic := by
  simp only [fitLoglogistic3P, bind_ok] at h
  obtain ⟨inp, -, h2⟩ := h
  exact fit3_dist (fun x r h => (fitLoglogistic2P_dist h).1) h2

theorem fitGamma2P_dist {J : Jac} {num : Num (ℝ × ℝ)} {x : Args} {r : FitRes Two}
    (h : fitGamma2P argsort J num x = .ok r) : r.dist.fam = .gamma ∧ r.dist.gamma = 0 := by
  simp only [fitGamma2P, bind_ok] at h
  obtain ⟨inp, -, e, he, s, hs, q, hq, g, hg, h⟩ := h
  cases h
  exact ⟨rfl, rfl⟩

theorem fitGamma3P_dist {J : Jac} {num : Num (ℝ × ℝ × ℝ)} {num2 : Num (ℝ × ℝ)} {x : Args} {r : FitRes Two}
    (h : fitGamma3P argsort J num num2 x = .ok r) : r.dist.fam = .gamma := by
  simp only [fitGamma3P, bind_ok] at h
  obtain ⟨inp, -, e, he, h⟩ := h
  split_ifs at h
  · simp only [bind_ok] at h
    obtain ⟨r', hr', q, hq, g, hg, h⟩ := h
    cases h
    exact (fitGamma2P_dist hr').1
  · simp only [bind_ok] at h
    obtain ⟨s, hs, q, hq, g, hg, h⟩ := h
    cases h
    rfl

theorem fitExponential1P_dist {J : Jac} {num : Num ℝ} {x : Args} {r : FitRes Expo}
    (h : fitExponential1P argsort J num x = .ok r) : r.dist.gamma = 0 := by
  simp only [fitExponential1P, bind_ok] at h
  obtain ⟨inp, -, e, he, s, hs, q, hq, g, hg, h⟩ := h
  cases h
  rfl

theorem distOf_shift {fam : CFam} (h : fam = .weibull ∨ fam = .gamma ∨ fam = .lognormal ∨ fam = .loglogistic) (a b g t : ℝ) :
    (distOf fam a b 0).sp.cdf (t + -g) = (distOf fam a b g).sp.cdf t := by
  rcases h with rfl | rfl | rfl | rfl <;>
    simp only [distOf, weibull, gammaDist, lognormal, loglogistic, ofScipy, locScale, sub_zero] <;> simp only [sub_eq_add_neg]

/-- What the caller of the plots may vary, for the theorems below: the plotting constant in `[0, 1)`, the confidence level
inside `(0, 1)`, `fit_gamma`; the line is shown and all `n` points. -/
structure Shown (o : Opts) (n : ℕ) : Prop where
  a_nonneg : 0 ≤ o.a.getD (3 / 10)
  a_lt : o.a.getD (3 / 10) < 1
  CI_pos : 0 < o.CI
  CI_lt : o.CI < 1
  fit : o.show_fit = true
  scatter : o.show_scatter = true
  downsample : Undownsampled o.downsample n

/-- The common part of the four plots with a location. -/
theorem plot_two (hs : IsArgsort argsort) {f : List ℝ} {rc : Option (List ℝ)} {o : Opts} (ho : Shown o f.length) (hf : f ≠ [])
    (ht : ∀ t ∈ f, t ∉ rc.getD []) {fixed : Option Paper} {paper : ℝ → Paper} {given : Option Two}
    {fit2 fit3 : Except Err (FitRes Two)} {d : Two} {fam : CFam}
    (hfam : fam = .weibull ∨ fam = .gamma ∨ fam = .lognormal ∨ fam = .loglogistic)
    (h2 : ∀ r, fit2 = .ok r → r.dist.fam = fam ∧ r.dist.gamma = 0) (h3 : ∀ r, fit3 = .ok r → r.dist.fam = fam)
    (hd : (given = some d ∧ d.fam = fam ∧ 0 ≤ d.gamma) ∨
      (given = none ∧ ∃ fit, (if o.fit_gamma then fit3 else fit2) = .ok fit ∧ fit.dist = d))
    (hp : (paper d.b).Ok) (hpos : ∀ t ∈ f, d.gamma < t) :
    ∃ r, body argsort fixed 0 (given.map (readTwo paper)) (fit2.map fun r => readTwo paper r.dist)
        (fit3.map fun r => readTwo paper r.dist) o f rc = .ok r ∧ r.paper = paper d.b ∧
      ShowsData argsort o.a f rc (-d.gamma) r ∧ DrawsCDF (Fitted.two d).dist.sp.cdf (-d.gamma) r ∧ AllVisible r := by
  have hpos' : ∀ t ∈ f, 0 < t + -d.gamma := fun t ht => by linarith [hpos t ht]
  have hdf : d.fam = fam := by
    rcases hd with ⟨-, h, -⟩ | ⟨-, fit, hfit, rfl⟩
    · exact h
    · cases hg : o.fit_gamma with
      | true => rw [hg] at hfit; exact h3 _ hfit
      | false => rw [hg] at hfit; exact (h2 _ hfit).1
  have hdr : ∀ t, (readTwo paper d).line.sp.cdf (t + -d.gamma) = (Fitted.two d).dist.sp.cdf t := fun t =>
    distOf_shift (hdf ▸ hfam) d.a d.b d.gamma t
  rcases hd with ⟨rfl, -, h0⟩ | ⟨rfl, fit, hfit, rfl⟩
  · obtain ⟨r, g1, g2, g3, -, g5, g6⟩ := body_spec hs hf ho.a_nonneg ho.a_lt ht ho.fit ho.scatter ho.downsample
      ⟨ho.CI_pos, ho.CI_lt⟩ (fixed := fixed) (c := 0) (given := some (readTwo paper d)) (d := readTwo paper d)
      (fit2 := fit2.map fun r => readTwo paper r.dist) (fit3 := fit3.map fun r => readTwo paper r.dist)
      (.inl ⟨rfl, rfl⟩) hp (k := -d.gamma) (by
        show -d.gamma = if _ then -d.gamma + 0 else 0
        rcases h0.lt_or_eq with h | h
        · simp [readTwo, h]
        · simp [readTwo, ← h]) (.inl hpos')
    exact ⟨r, g1, g3, g5, ⟨_, g2, hdr⟩, g6⟩
  · obtain ⟨r, g1, g2, g3, -, g5, g6⟩ := body_spec hs hf ho.a_nonneg ho.a_lt ht ho.fit ho.scatter ho.downsample
      ⟨ho.CI_pos, ho.CI_lt⟩ (fixed := fixed) (c := 0) (given := none) (d := readTwo paper fit.dist) (g := o.fit_gamma)
      (fit2 := fit2.map fun r => readTwo paper r.dist) (fit3 := fit3.map fun r => readTwo paper r.dist)
      (.inr ⟨rfl, rfl, by
        cases hg : o.fit_gamma with
        | true => rw [hg] at hfit; simp only [if_true] at hfit ⊢; rw [hfit]; rfl
        | false =>
          rw [hg] at hfit; simp only [Bool.false_eq_true, if_false] at hfit ⊢; rw [hfit]; rfl⟩) hp (k := -fit.dist.gamma) (by
        cases hg : o.fit_gamma with
        | true => simp [readTwo]
        | false =>
          rw [hg] at hfit
          simp [(h2 _ hfit).2]) (.inl hpos')
    exact ⟨r, g1, g3, g5, ⟨_, g2, hdr⟩, g6⟩

/-- **C118 (Weibull).** `Weibull_probability_plot`, called by a fitter with its own result (`given`) or by a user (then it makes the
default MLE fit, with the location if `fit_gamma`): it returns; its points are the plotting positions of the data at time
minus location; at each of these places the line drawn is the fitted distribution's probability of failure; every point is
inside the axes. -/
theorem C118_weibull (hs : IsArgsort argsort) (J : Jac) (num2 : Option ℝ → Num2) (num3 : Num (ℝ × ℝ × ℝ)) {f : List ℝ}
    {rc : Option (List ℝ)} {o : Opts} (ho : Shown o f.length) (hf : f ≠ []) (ht : ∀ t ∈ f, t ∉ rc.getD []) {given : Option Two} {d : Two}
    (hd : (given = some d ∧ d.fam = .weibull ∧ 0 ≤ d.gamma) ∨
      (given = none ∧ 2 ≤ f.length ∧ ∃ fit, (if o.fit_gamma then
          fitWeibull3P argsort J num3 num2 { failures := .array f, right_censored := dataArg rc, CI := .float (o.CI) }
        else fitWeibull2P argsort J num2 { failures := .array f, right_censored := dataArg rc, CI := .float (o.CI) }) = .ok fit ∧
        fit.dist = d))
    (hpos : ∀ t ∈ f, d.gamma < t) :
    ∃ r, weibullPlot argsort (fitWeibull2P argsort J num2) (fitWeibull3P argsort J num3 num2) (.array f) (dataArg rc) given o = .ok r ∧
      r.paper = .weibull ∧ ShowsData argsort o.a f rc (-d.gamma) r ∧
      DrawsCDF (Fitted.two d).dist.sp.cdf (-d.gamma) r ∧ AllVisible r := by
  have hc : checkData 2 given.isSome (.array f) (dataArg rc) = .ok (f, rc) := checkData_ok hf (by
    rcases hd with ⟨rfl, -⟩ | ⟨-, h, -⟩
    · exact .inl rfl
    · exact .inr h)
  unfold weibullPlot
  simp only [hc, bind, Except.bind, fitArgs_eq, Option.getD_some, Option.getD_none]
  refine plot_two hs ho hf ht (d := d) (fam := .weibull) (by simp) (fun r h => fitWeibull2P_dist h)
    (fun r h => fitWeibull3P_dist h) ?_ trivial hpos
  rcases hd with h | ⟨h, -, h'⟩
  · exact .inl h
  · exact .inr ⟨h, h'⟩

/-- **C118 (Loglogistic).** `Loglogistic_probability_plot`, called by a fitter with its own result (`given`) or by a user (then it makes the
default MLE fit, with the location if `fit_gamma`): it returns; its points are the plotting positions of the data at time
minus location; at each of these places the line drawn is the fitted distribution's probability of failure; every point is
inside the axes. -/
theorem C118_loglogistic (hs : IsArgsort argsort) (J : Jac) (num2 : Option ℝ → Num2) (num3 : Num (ℝ × ℝ × ℝ)) {f : List ℝ}
    {rc : Option (List ℝ)} {o : Opts} (ho : Shown o f.length) (hf : f ≠ []) (ht : ∀ t ∈ f, t ∉ rc.getD []) {given : Option Two} {d : Two}
    (hd : (given = some d ∧ d.fam = .loglogistic ∧ 0 ≤ d.gamma) ∨
      (given = none ∧ 2 ≤ f.length ∧ ∃ fit, (if o.fit_gamma then
          fitLoglogistic3P argsort J num3 num2 { failures := .array f, right_censored := dataArg rc, CI := .float (o.CI) }
        else fitLoglogistic2P argsort J num2 { failures := .array f, right_censored := dataArg rc, CI := .float (o.CI) }) = .ok fit ∧
        fit.dist = d))
    (hpos : ∀ t ∈ f, d.gamma < t) :
    ∃ r, loglogisticPlot argsort (fitLoglogistic2P argsort J num2) (fitLoglogistic3P argsort J num3 num2) (.array f) (dataArg rc) given o = .ok r ∧
      r.paper = .loglogistic ∧ ShowsData argsort o.a f rc (-d.gamma) r ∧
      DrawsCDF (Fitted.two d).dist.sp.cdf (-d.gamma) r ∧ AllVisible r := by
  have hc : checkData 2 given.isSome (.array f) (dataArg rc) = .ok (f, rc) := checkData_ok hf (by
    rcases hd with ⟨rfl, -⟩ | ⟨-, h, -⟩
    · exact .inl rfl
    · exact .inr h)
  unfold loglogisticPlot
  simp only [hc, bind, Except.bind, fitArgs_eq, Option.getD_some, Option.getD_none]
  refine plot_two hs ho hf ht (d := d) (fam := .loglogistic) (by simp) (fun r h => fitLoglogistic2P_dist h)
    (fun r h => fitLoglogistic3P_dist h) ?_ trivial hpos
  rcases hd with h | ⟨h, -, h'⟩
  · exact .inl h
  · exact .inr ⟨h, h'⟩

/-- **C118 (Lognormal).** `Lognormal_probability_plot`, called by a fitter with its own result (`given`) or by a user (then it makes the
default MLE fit, with the location if `fit_gamma`): it returns; its points are the plotting positions of the data at time
minus location; at each of these places the line drawn is the fitted distribution's probability of failure; every point is
inside the axes. -/
theorem C118_lognormal (hs : IsArgsort argsort) (J : Jac) (num2 : Option ℝ → Num2) (num3 : Num (ℝ × ℝ × ℝ)) {f : List ℝ}
    {rc : Option (List ℝ)} {o : Opts} (ho : Shown o f.length) (hf : f ≠ []) (ht : ∀ t ∈ f, t ∉ rc.getD []) {given : Option Two} {d : Two}
    (hd : (given = some d ∧ d.fam = .lognormal ∧ 0 ≤ d.gamma) ∨
      (given = none ∧ 2 ≤ f.length ∧ ∃ fit, (if o.fit_gamma then
          fitLognormal3P argsort J num3 num2 { failures := .array f, right_censored := dataArg rc, CI := .float (0.95) }
        else fitLognormal2P argsort J num2 { failures := .array f, right_censored := dataArg rc, CI := .float (0.95) }) = .ok fit ∧
        fit.dist = d))
    (hpos : ∀ t ∈ f, d.gamma < t) :
    ∃ r, lognormalPlot argsort (fitLognormal2P argsort J num2) (fitLognormal3P argsort J num3 num2) (.array f) (dataArg rc) given o = .ok r ∧
      r.paper = .lognormal ∧ ShowsData argsort o.a f rc (-d.gamma) r ∧
      DrawsCDF (Fitted.two d).dist.sp.cdf (-d.gamma) r ∧ AllVisible r := by
  have hc : checkData 2 given.isSome (.array f) (dataArg rc) = .ok (f, rc) := checkData_ok hf (by
    rcases hd with ⟨rfl, -⟩ | ⟨-, h, -⟩
    · exact .inl rfl
    · exact .inr h)
  unfold lognormalPlot
  simp only [hc, bind, Except.bind, fitArgs_eq, Option.getD_some, Option.getD_none]
  refine plot_two hs ho hf ht (d := d) (fam := .lognormal) (by simp) (fun r h => fitLognormal2P_dist h)
    (fun r h => fitLognormal3P_dist h) ?_ trivial hpos
  rcases hd with h | ⟨h, -, h'⟩
  · exact .inl h
  · exact .inr ⟨h, h'⟩

/-- **C118 (Gamma).** `Gamma_probability_plot`, called by a fitter with its own result (`given`) or by a user (then it makes the
default MLE fit, with the location if `fit_gamma`): it returns; its points are the plotting positions of the data at time
minus location; at each of these places the line drawn is the fitted distribution's probability of failure; every point is
inside the axes. -/
theorem C118_gamma (hs : IsArgsort argsort) (J : Jac) (num2 : Num (ℝ × ℝ)) (num3 : Num (ℝ × ℝ × ℝ)) {f : List ℝ}
    {rc : Option (List ℝ)} {o : Opts} (ho : Shown o f.length) (hf : f ≠ []) (ht : ∀ t ∈ f, t ∉ rc.getD []) {given : Option Two} {d : Two}
    (hd : (given = some d ∧ d.fam = .gamma ∧ 0 ≤ d.gamma) ∨
      (given = none ∧ 2 ≤ f.length ∧ ∃ fit, (if o.fit_gamma then
          fitGamma3P argsort J num3 num2 { failures := .array f, right_censored := dataArg rc, CI := .float (0.95) }
        else fitGamma2P argsort J num2 { failures := .array f, right_censored := dataArg rc, CI := .float (0.95) }) = .ok fit ∧
        fit.dist = d)) (hb : 0 < d.b)
    (hpos : ∀ t ∈ f, d.gamma < t) :
    ∃ r, gammaPlot argsort (fitGamma2P argsort J num2) (fitGamma3P argsort J num3 num2) (.array f) (dataArg rc) given o = .ok r ∧
      r.paper = .gamma d.b ∧ ShowsData argsort o.a f rc (-d.gamma) r ∧
      DrawsCDF (Fitted.two d).dist.sp.cdf (-d.gamma) r ∧ AllVisible r := by
  have hc : checkData 2 given.isSome (.array f) (dataArg rc) = .ok (f, rc) := checkData_ok hf (by
    rcases hd with ⟨rfl, -⟩ | ⟨-, h, -⟩
    · exact .inl rfl
    · exact .inr h)
  unfold gammaPlot
  simp only [hc, bind, Except.bind, fitArgs_eq, Option.getD_some, Option.getD_none]
  refine plot_two hs ho hf ht (d := d) (fam := .gamma) (by simp) (fun r h => fitGamma2P_dist h)
    (fun r h => fitGamma3P_dist h) ?_ hb hpos
  rcases hd with h | ⟨h, -, h'⟩
  · exact .inl h
  · exact .inr ⟨h, h'⟩

/-- **C118 (Normal).** As for Weibull, without a location. -/
theorem C118_normal (hs : IsArgsort argsort) (J : Jac) (num : Option ℝ → Num2) {f : List ℝ} {rc : Option (List ℝ)} {o : Opts}
    (ho : Shown o f.length) (hf : f ≠ []) (ht : ∀ t ∈ f, t ∉ rc.getD []) {given : Option Two} {d : Two}
    (hd : (given = some d ∧ d.fam = .normal) ∨
      (given = none ∧ 2 ≤ f.length ∧ ∃ fit, fitNormal2P argsort J num
        { failures := .array f, right_censored := dataArg rc, CI := .float 0.95 } = .ok fit ∧ fit.dist = d))
    (hpos : (∀ t ∈ f, 0 < t) ∨ ∃ v ∈ f, ∃ w ∈ f, v ≠ w) :
    ∃ r, plainPlot .normal argsort (fitNormal2P argsort J num) (.array f) (dataArg rc) given o = .ok r ∧
      r.paper = .normal ∧ ShowsData argsort o.a f rc 0 r ∧ DrawsCDF (Fitted.two d).dist.sp.cdf 0 r ∧ AllVisible r := by
  have hc : checkData 2 given.isSome (.array f) (dataArg rc) = .ok (f, rc) := checkData_ok hf (by
    rcases hd with ⟨rfl, -⟩ | ⟨-, h, -⟩
    · exact .inl rfl
    · exact .inr h)
  have hdf : d.fam = .normal := by
    rcases hd with ⟨-, h⟩ | ⟨-, -, fit, hfit, rfl⟩
    · exact h
    · exact (fitNormal2P_dist hfit).1
  have hdr : ∀ t, (distOf d.fam d.a d.b 0).sp.cdf (t + 0) = (Fitted.two d).dist.sp.cdf t := by
    intro t
    rw [add_zero, Fitted.dist, hdf]
    rfl
  have hpos' : (∀ t ∈ f, 0 < t + 0) ∨ Paper.normal.negative = true ∧ ∃ v ∈ f, ∃ w ∈ f, v ≠ w := by
    rcases hpos with h | h
    · exact .inl fun t ht => by simpa using h t ht
    · exact .inr ⟨rfl, h⟩
  unfold plainPlot
  simp only [hc, bind, Except.bind, fitArgs_eq, Option.getD_none]
  obtain ⟨r, g1, g2, g3, -, g5, g6⟩ := body_spec hs hf ho.a_nonneg ho.a_lt ht (o := { o with fit_gamma := false }) ho.fit
    ho.scatter ho.downsample ⟨ho.CI_pos, ho.CI_lt⟩ (fixed := some .normal) (c := 0)
    (given := given.map fun t : Two => (⟨distOf t.fam t.a t.b 0, 0, .normal⟩ : Read)) (d := ⟨distOf d.fam d.a d.b 0, 0, .normal⟩)
    (g := false)
    (fit2 := (fitNormal2P argsort J num { failures := .array f, right_censored := dataArg rc, CI := .float 0.95 }).map
      fun r => ⟨distOf r.dist.fam r.dist.a r.dist.b 0, 0, .normal⟩)
    (fit3 := (fitNormal2P argsort J num { failures := .array f, right_censored := dataArg rc, CI := .float 0.95 }).map
      fun r => ⟨distOf r.dist.fam r.dist.a r.dist.b 0, 0, .normal⟩) (by
      rcases hd with ⟨rfl, -⟩ | ⟨rfl, -, fit, hfit, rfl⟩
      · exact .inl ⟨rfl, by simp⟩
      · exact .inr ⟨rfl, rfl, by rw [hfit]; rfl⟩) trivial (k := 0) (by simp) hpos'
  exact ⟨r, g1, g3, g5, ⟨_, g2, hdr⟩, g6⟩

/-- **C118 (Gumbel).** As for Normal. -/
theorem C118_gumbel (hs : IsArgsort argsort) (J : Jac) (num : Option ℝ → Num2) {f : List ℝ} {rc : Option (List ℝ)} {o : Opts}
    (ho : Shown o f.length) (hf : f ≠ []) (ht : ∀ t ∈ f, t ∉ rc.getD []) {given : Option Two} {d : Two}
    (hd : (given = some d ∧ d.fam = .gumbel) ∨
      (given = none ∧ 2 ≤ f.length ∧ ∃ fit, fitGumbel2P argsort J num
        { failures := .array f, right_censored := dataArg rc, CI := .float 0.95 } = .ok fit ∧ fit.dist = d))
    (hpos : (∀ t ∈ f, 0 < t) ∨ ∃ v ∈ f, ∃ w ∈ f, v ≠ w) :
    ∃ r, plainPlot .gumbel argsort (fitGumbel2P argsort J num) (.array f) (dataArg rc) given o = .ok r ∧
      r.paper = .gumbel ∧ ShowsData argsort o.a f rc 0 r ∧ DrawsCDF (Fitted.two d).dist.sp.cdf 0 r ∧ AllVisible r := by
  have hc : checkData 2 given.isSome (.array f) (dataArg rc) = .ok (f, rc) := checkData_ok hf (by
    rcases hd with ⟨rfl, -⟩ | ⟨-, h, -⟩
    · exact .inl rfl
    · exact .inr h)
  have hdf : d.fam = .gumbel := by
    rcases hd with ⟨-, h⟩ | ⟨-, -, fit, hfit, rfl⟩
    · exact h
    · exact (fitGumbel2P_dist hfit).1
  have hdr : ∀ t, (distOf d.fam d.a d.b 0).sp.cdf (t + 0) = (Fitted.two d).dist.sp.cdf t := by
    intro t
    rw [add_zero, Fitted.dist, hdf]
    rfl
  have hpos' : (∀ t ∈ f, 0 < t + 0) ∨ Paper.gumbel.negative = true ∧ ∃ v ∈ f, ∃ w ∈ f, v ≠ w := by
    rcases hpos with h | h
    · exact .inl fun t ht => by simpa using h t ht
    · exact .inr ⟨rfl, h⟩
  unfold plainPlot
  simp only [hc, bind, Except.bind, fitArgs_eq, Option.getD_none]
  obtain ⟨r, g1, g2, g3, -, g5, g6⟩ := body_spec hs hf ho.a_nonneg ho.a_lt ht (o := { o with fit_gamma := false }) ho.fit
    ho.scatter ho.downsample ⟨ho.CI_pos, ho.CI_lt⟩ (fixed := some .gumbel) (c := 0)
    (given := given.map fun t : Two => (⟨distOf t.fam t.a t.b 0, 0, .gumbel⟩ : Read)) (d := ⟨distOf d.fam d.a d.b 0, 0, .gumbel⟩)
    (g := false)
    (fit2 := (fitGumbel2P argsort J num { failures := .array f, right_censored := dataArg rc, CI := .float 0.95 }).map
      fun r => ⟨distOf r.dist.fam r.dist.a r.dist.b 0, 0, .gumbel⟩)
    (fit3 := (fitGumbel2P argsort J num { failures := .array f, right_censored := dataArg rc, CI := .float 0.95 }).map
      fun r => ⟨distOf r.dist.fam r.dist.a r.dist.b 0, 0, .gumbel⟩) (by
      rcases hd with ⟨rfl, -⟩ | ⟨rfl, -, fit, hfit, rfl⟩
      · exact .inl ⟨rfl, by simp⟩
      · exact .inr ⟨rfl, rfl, by rw [hfit]; rfl⟩) trivial (k := 0) (by simp) hpos'
  exact ⟨r, g1, g3, g5, ⟨_, g2, hdr⟩, g6⟩

/-- **C118 (Exponential).** `Exponential_probability_plot` (`ws = false`) and `Exponential_probability_plot_Weibull_Scale`
(`ws = true`): as for Weibull, except that on the Weibull scale the points (not the line) are moved by a further 0.009 when a
location is fitted or given. One failure is enough. -/
theorem C118_exponential (ws : Bool) (hs : IsArgsort argsort) (J : Jac) (num1 : Num ℝ) (num2 : Num (ℝ × ℝ)) {f : List ℝ}
    {rc : Option (List ℝ)} {o : Opts} (ho : Shown o f.length) (hf : f ≠ []) (ht : ∀ t ∈ f, t ∉ rc.getD []) {given : Option Expo}
    {d : Expo}
    (hd : (given = some d ∧ 0 ≤ d.gamma ∧ (d.gamma = 0 → o.fit_gamma = false)) ∨
      (given = none ∧ ∃ fit, (if o.fit_gamma then
          fitExponential2P argsort J num2 { failures := .array f, right_censored := dataArg rc, CI := .float o.CI }
        else fitExponential1P argsort J num1 { failures := .array f, right_censored := dataArg rc, CI := .float o.CI }) = .ok fit ∧
        fit.dist = d))
    {k : ℝ} (hk : k = if ws ∧ (o.fit_gamma ∨ 0 < d.gamma) then -d.gamma + 0.009 else -d.gamma) (hpos : ∀ t ∈ f, 0 < t + k) :
    ∃ r, exponentialPlot ws argsort (fitExponential1P argsort J num1) (fitExponential2P argsort J num2) (.array f) (dataArg rc)
        given o = .ok r ∧
      r.paper = (if ws then .weibull else .exponential) ∧ ShowsData argsort o.a f rc k r ∧
      DrawsCDF (Fitted.expo d).dist.sp.cdf (-d.gamma) r ∧ AllVisible r := by
  have hc : checkData 1 given.isSome (.array f) (dataArg rc) = .ok (f, rc) := checkData_ok hf
    (.inr (Nat.one_le_iff_ne_zero.2 (by simpa using hf)))
  have hdr : ∀ t, (Distributions.exponential d.Lambda 0).sp.cdf (t + -d.gamma) = (Fitted.expo d).dist.sp.cdf t := by
    intro t
    simp only [Fitted.dist, Distributions.exponential, locScale, sub_zero]
    simp only [sub_eq_add_neg]
  have hp : (if ws then Paper.weibull else .exponential).Ok := by cases ws <;> trivial
  have hfit0 : given = none → o.fit_gamma = false → d.gamma = 0 := by
    intro hg hf
    rcases hd with ⟨h, -⟩ | ⟨-, fit, hfit, rfl⟩
    · rw [hg] at h; cases h
    · rw [hf] at hfit
      exact fitExponential1P_dist hfit
  unfold exponentialPlot
  simp only [hc, bind, Except.bind, fitArgs_eq, Option.getD_some]
  obtain ⟨r, g1, g2, g3, -, g5, g6⟩ := body_spec hs hf ho.a_nonneg ho.a_lt ht ho.fit ho.scatter ho.downsample
    ⟨ho.CI_pos, ho.CI_lt⟩ (fixed := some (if ws then .weibull else .exponential)) (c := if ws then 0.009 else 0)
    (given := given.map (readExpo (if ws then .weibull else .exponential)))
    (d := readExpo (if ws then .weibull else .exponential) d)
    (g := (given.any fun d : Expo => decide (0 < d.gamma)) || o.fit_gamma)
    (fit2 := (fitExponential1P argsort J num1
      { failures := .array f, right_censored := dataArg rc, CI := .float o.CI }).map
      fun r : FitRes Expo => readExpo (if ws then .weibull else .exponential) r.dist)
    (fit3 := (fitExponential2P argsort J num2
      { failures := .array f, right_censored := dataArg rc, CI := .float o.CI }).map
      fun r : FitRes Expo => readExpo (if ws then .weibull else .exponential) r.dist) (by
      rcases hd with ⟨rfl, -⟩ | ⟨rfl, fit, hfit, rfl⟩
      · exact .inl ⟨rfl, rfl⟩
      · refine .inr ⟨rfl, by simp, ?_⟩
        cases hg : o.fit_gamma with
        | true => rw [hg] at hfit; simp only [if_true] at hfit ⊢; rw [hfit]; rfl
        | false =>
          rw [hg] at hfit; simp only [Bool.false_eq_true, if_false] at hfit ⊢; rw [hfit]; rfl) hp (k := k) (by
      rw [hk]
      show _ = if _ then -d.gamma + _ else 0
      rcases hd with ⟨rfl, h0, h1⟩ | ⟨rfl, fit, hfit, rfl⟩
      · rcases h0.lt_or_eq with h | h
        · cases ws <;> simp [h]
        · have := h1 h.symm
          cases ws <;> simp [← h, this]
      · cases hg : o.fit_gamma with
        | true => cases ws <;> simp
        | false =>
          have := hfit0 rfl hg
          cases ws <;> simp [this]) (.inl hpos)
  exact ⟨r, g1, g3, g5, ⟨_, g2, hdr⟩, g6⟩

/-- On the Weibull scale with a location the line passes 0.009 to the right of where the fitted probabilities belong: at the
place where the failure at time `t` is shown, the line shows the probability of failure by `t + 0.009`, which is larger. -/
theorem C118_exponential_weibull_scale_finding {d : Expo} (hl : 0 < d.Lambda) {t : ℝ} (ht : d.gamma ≤ t) :
    (Distributions.exponential d.Lambda 0).sp.cdf (t + (-d.gamma + 0.009)) = (Fitted.expo d).dist.sp.cdf (t + 0.009) ∧
    (Fitted.expo d).dist.sp.cdf t < (Fitted.expo d).dist.sp.cdf (t + 0.009) := by
  have hi : (0 : ℝ) < 1 / d.Lambda := by positivity
  constructor
  · simp only [Fitted.dist, Distributions.exponential, locScale, sub_zero]
    congr 1
    ring
  · simp only [Fitted.dist, Distributions.exponential, locScale, exponStd]
    have e1 : 0 ≤ (t - d.gamma) / (1 / d.Lambda) := div_nonneg (by linarith) hi.le
    have e2 : (t - d.gamma) / (1 / d.Lambda) < (t + 0.009 - d.gamma) / (1 / d.Lambda) :=
      div_lt_div_of_pos_right (by norm_num) hi
    have e4 := Real.exp_lt_exp.2 (neg_lt_zero.2 (e1.trans_lt e2))
    rw [Real.exp_zero] at e4
    have e3 := Real.exp_lt_exp.2 (neg_lt_neg e2)
    split_ifs <;> linarith

theorem fitBeta2P_dist {num : Num (ℝ × ℝ)} {x : Args} {r : FitRes Distributions.Dist}
    (h : fitBeta2P argsort num x = .ok r) : ∃ a b, r.dist = betaDist a b ∧ r.rows.map Row.point = [a, b] := by
  simp only [fitBeta2P, bind_ok] at h
  obtain ⟨inp, -, e, he, s, hs, q, hq, g, hg, h⟩ := h
  cases h
  refine ⟨_, _, rfl, ?_⟩
  cases s <;> rfl

/-- **C118 (Beta).** As for Normal; both parameters shape the paper. -/
theorem C118_beta (hs : IsArgsort argsort) (num : Num (ℝ × ℝ)) {f : List ℝ} {rc : Option (List ℝ)} {o : Opts}
    (ho : Shown o f.length) (hf : f ≠ []) (ht : ∀ t ∈ f, t ∉ rc.getD []) {given : Option (ℝ × ℝ)} {D : Distributions.Dist} {a b : ℝ}
    (hd : (given = some (a, b) ∧ D = betaDist a b) ∨
      (given = none ∧ 2 ≤ f.length ∧ ∃ fit, fitBeta2P argsort num
        { failures := .array f, right_censored := dataArg rc, CI := .float 0.95 } = .ok fit ∧
        fit.dist = D ∧ fit.rows.map Row.point = [a, b]))
    (ha : 0 < a) (hb : 0 < b) (hpos : ∀ t ∈ f, 0 < t) :
    ∃ r, betaPlot argsort (fitBeta2P argsort num) (.array f) (dataArg rc) given o = .ok r ∧
      r.paper = .beta a b ∧ ShowsData argsort o.a f rc 0 r ∧ DrawsCDF D.sp.cdf 0 r ∧ AllVisible r := by
  have hD : D = betaDist a b := by
    rcases hd with ⟨-, h⟩ | ⟨-, -, fit, hfit, rfl, hrows⟩
    · exact h
    · obtain ⟨a', b', k1, k2⟩ := fitBeta2P_dist hfit
      rw [hrows] at k2
      simp only [cons.injEq, and_true] at k2
      rw [k1, k2.1, k2.2]
  have hc : checkData 2 given.isSome (.array f) (dataArg rc) = .ok (f, rc) := checkData_ok hf (by
    rcases hd with ⟨rfl, -⟩ | ⟨-, h, -⟩
    · exact .inl rfl
    · exact .inr h)
  have hdr : ∀ t, (betaDist a b).sp.cdf (t + 0) = D.sp.cdf t := by
    intro t
    rw [add_zero, hD]
  unfold betaPlot
  simp only [hc, bind, Except.bind, fitArgs_eq, Option.getD_none]
  obtain ⟨r, g1, g2, g3, -, g5, g6⟩ := body_spec hs hf ho.a_nonneg ho.a_lt ht (o := { o with fit_gamma := false }) ho.fit
    ho.scatter ho.downsample ⟨ho.CI_pos, ho.CI_lt⟩ (fixed := none) (c := 0)
    (given := given.map fun p : ℝ × ℝ => (⟨betaDist p.1 p.2, 0, .beta p.1 p.2⟩ : Read)) (d := ⟨betaDist a b, 0, .beta a b⟩)
    (g := false)
    (fit2 := (fitBeta2P argsort num { failures := .array f, right_censored := dataArg rc, CI := .float 0.95 }).map
      fun r => ⟨betaDist (pointAt r.rows 0) (pointAt r.rows 1), 0, .beta (pointAt r.rows 0) (pointAt r.rows 1)⟩)
    (fit3 := (fitBeta2P argsort num { failures := .array f, right_censored := dataArg rc, CI := .float 0.95 }).map
      fun r => ⟨betaDist (pointAt r.rows 0) (pointAt r.rows 1), 0, .beta (pointAt r.rows 0) (pointAt r.rows 1)⟩) (by
      rcases hd with ⟨rfl, -⟩ | ⟨rfl, -, fit, hfit, -, hrows⟩
      · exact .inl ⟨rfl, by simp⟩
      · refine .inr ⟨rfl, rfl, ?_⟩
        have e0 : pointAt fit.rows 0 = a := by
          have := congrArg (fun l : List ℝ => l[0]?) hrows
          simp only [getElem?_map] at this
          simp [pointAt, this]
        have e1 : pointAt fit.rows 1 = b := by
          have := congrArg (fun l : List ℝ => l[1]?) hrows
          simp only [getElem?_map] at this
          simp [pointAt, this]
        rw [hfit]
        simp only [Except.map, e0, e1]
        rfl) ⟨ha, hb⟩ (k := 0) (by simp) (.inl fun t ht => by simpa using hpos t ht)
  exact ⟨r, g1, g3, g5, ⟨_, g2, hdr⟩, g6⟩

/-- **C118 (without the line).** With `show_fitted_distribution=False` no fit is made (whatever it would do): the plots on a
fixed paper show the data at their own times and draw no line. -/
theorem C118_scatter_only (hs : IsArgsort argsort) {f : List ℝ} {rc : Option (List ℝ)} {o : Opts} (hf : 2 ≤ f.length)
    (ha : 0 ≤ o.a.getD (3 / 10)) (ha1 : o.a.getD (3 / 10) < 1) (ht : ∀ t ∈ f, t ∉ rc.getD []) (hpos : ∀ t ∈ f, 0 < t)
    (hfit : o.show_fit = false) (hsc : o.show_scatter = true) (hds : Undownsampled o.downsample f.length)
    (fit2 fit3 : Args → Except Err (FitRes Two)) (fitE1 fitE2 : Args → Except Err (FitRes Expo)) {plot : Except Err Plot}
    (hplot : plot ∈ [weibullPlot argsort fit2 fit3 (.array f) (dataArg rc) none o,
      loglogisticPlot argsort fit2 fit3 (.array f) (dataArg rc) none o,
      lognormalPlot argsort fit2 fit3 (.array f) (dataArg rc) none o,
      plainPlot .normal argsort fit2 (.array f) (dataArg rc) none o,
      plainPlot .gumbel argsort fit2 (.array f) (dataArg rc) none o,
      exponentialPlot true argsort fitE1 fitE2 (.array f) (dataArg rc) none o,
      exponentialPlot false argsort fitE1 fitE2 (.array f) (dataArg rc) none o]) :
    ∃ r, plot = .ok r ∧ ShowsData argsort o.a f rc 0 r ∧ r.line = none ∧ AllVisible r := by
  have hne : f ≠ [] := by rintro rfl; simp at hf
  have hc : checkData 2 false (.array f) (dataArg rc) = .ok (f, rc) := checkData_ok hne (.inr hf)
  have hc1 : checkData 1 false (.array f) (dataArg rc) = .ok (f, rc) := checkData_ok hne (.inr (by omega))
  have hrc0 : rc.map (List.map fun x : ℝ => x + 0) = rc := by cases rc <;> simp
  have key : ∀ p : Paper, p.Ok → ∀ fg, ∃ r, draw argsort { o with fit_gamma := fg } p false none f rc = .ok r ∧
      ShowsData argsort o.a f rc 0 r ∧ r.line = none ∧ AllVisible r := by
    intro p hp fg
    obtain ⟨r, h1, h2, -, -, h5, h6⟩ := draw_spec hs hne ha ha1 ht 0 (o := { o with fit_gamma := fg }) hsc hds hp
      (.inl fun t h => by simpa using hpos t h) false none
    rw [map_add_zero, hrc0] at h1
    exact ⟨r, h1, h5, by simpa using h2, h6⟩
  simp only [List.mem_cons, List.not_mem_nil, or_false] at hplot
  rcases hplot with rfl | rfl | rfl | rfl | rfl | rfl | rfl
  · simp only [weibullPlot, Option.isSome_none, hc, bind, Except.bind, body, hfit]
    exact key .weibull trivial o.fit_gamma
  · simp only [loglogisticPlot, Option.isSome_none, hc, bind, Except.bind, body, hfit]
    exact key .loglogistic trivial o.fit_gamma
  · simp only [lognormalPlot, Option.isSome_none, hc, bind, Except.bind, body, hfit]
    exact key .lognormal trivial o.fit_gamma
  · simp only [plainPlot, Option.isSome_none, hc, bind, Except.bind, body, hfit]
    simpa only [hfit] using key .normal trivial false
  · simp only [plainPlot, Option.isSome_none, hc, bind, Except.bind, body, hfit]
    simpa only [hfit] using key .gumbel trivial false
  · simp only [exponentialPlot, Option.isSome_none, hc1, bind, Except.bind, body, hfit]
    exact key .weibull trivial o.fit_gamma
  · simp only [exponentialPlot, Option.isSome_none, hc1, bind, Except.bind, body, hfit]
    exact key .exponential trivial o.fit_gamma

/-- **C118 (refused data).** No failures, an empty list of failures, one failure without given parameters (except for the
Exponential), or containers other than lists and arrays: ValueError from every plot. -/
theorem C118_errors {failures rc : DataArg ℝ} (fit2 fit3 : Args → Except Err (FitRes Two))
    (fitE1 fitE2 : Args → Except Err (FitRes Expo)) (fitB : Args → Except Err (FitRes Distributions.Dist)) (o : Opts)
    (given : Option Two) (givenE : Option Expo) (givenB : Option (ℝ × ℝ))
    (h : failures = .none ∨ failures = .other ∨ failures = .array [] ∨ rc = .other) (p : Paper) (ws : Bool) :
    weibullPlot argsort fit2 fit3 failures rc given o = valueErr ∧
    loglogisticPlot argsort fit2 fit3 failures rc given o = valueErr ∧
    lognormalPlot argsort fit2 fit3 failures rc given o = valueErr ∧
    gammaPlot argsort fit2 fit3 failures rc given o = valueErr ∧
    plainPlot p argsort fit2 failures rc given o = valueErr ∧
    exponentialPlot ws argsort fitE1 fitE2 failures rc givenE o = valueErr ∧
    betaPlot argsort fitB failures rc givenB o = valueErr := by
  have key : ∀ (n : ℕ) (g : Bool), checkData n g failures rc = valueErr := by
    intro n g
    rcases h with rfl | rfl | rfl | rfl
    · rfl
    · rfl
    · simp [checkData]
    · cases failures with
      | none => rfl
      | other => rfl
      | array f => simp only [checkData]; split_ifs <;> rfl
  simp only [weibullPlot, loglogisticPlot, lognormalPlot, gammaPlot, plainPlot, exponentialPlot, betaPlot, key]
  exact ⟨rfl, rfl, rfl, rfl, rfl, rfl, rfl⟩

/-- **C118 (too few failures).** One failure and no parameters: ValueError, except for the Exponential. -/
theorem C118_one_failure {t : ℝ} {rc : DataArg ℝ} (fit2 fit3 : Args → Except Err (FitRes Two))
    (fitB : Args → Except Err (FitRes Distributions.Dist)) (o : Opts) (p : Paper) :
    weibullPlot argsort fit2 fit3 (.array [t]) rc none o = valueErr ∧
    loglogisticPlot argsort fit2 fit3 (.array [t]) rc none o = valueErr ∧
    lognormalPlot argsort fit2 fit3 (.array [t]) rc none o = valueErr ∧
    gammaPlot argsort fit2 fit3 (.array [t]) rc none o = valueErr ∧
    plainPlot p argsort fit2 (.array [t]) rc none o = valueErr ∧
    betaPlot argsort fitB (.array [t]) rc none o = valueErr := by
  have key : checkData 2 false (.array [t]) rc = valueErr := by simp [checkData]
  simp only [weibullPlot, loglogisticPlot, lognormalPlot, gammaPlot, plainPlot, betaPlot, Option.isSome_none, key]
  exact ⟨rfl, rfl, rfl, rfl, rfl, rfl⟩

/-- **C118 (confidence level).** A level outside `(0, 1)` is refused whenever the line is drawn, and always by the plots whose
paper depends on the fit. -/
theorem C118_CI {f : List ℝ} {rc : Option (List ℝ)} (hf : 2 ≤ f.length) (fit2 fit3 : Args → Except Err (FitRes Two))
    (fitE1 fitE2 : Args → Except Err (FitRes Expo)) (fitB : Args → Except Err (FitRes Distributions.Dist)) {o : Opts}
    (given : Option Two) (givenE : Option Expo) (givenB : Option (ℝ × ℝ)) (hCI : o.CI ≤ 0 ∨ 1 ≤ o.CI) (p : Paper) (ws : Bool) :
    gammaPlot argsort fit2 fit3 (.array f) (dataArg rc) given o = valueErr ∧
    betaPlot argsort fitB (.array f) (dataArg rc) givenB o = valueErr ∧
    (o.show_fit = true →
      weibullPlot argsort fit2 fit3 (.array f) (dataArg rc) given o = valueErr ∧
      loglogisticPlot argsort fit2 fit3 (.array f) (dataArg rc) given o = valueErr ∧
      lognormalPlot argsort fit2 fit3 (.array f) (dataArg rc) given o = valueErr ∧
      plainPlot p argsort fit2 (.array f) (dataArg rc) given o = valueErr ∧
      exponentialPlot ws argsort fitE1 fitE2 (.array f) (dataArg rc) givenE o = valueErr) := by
  have hne : f ≠ [] := by rintro rfl; simp at hf
  have hc : ∀ g, checkData 2 g (.array f) (dataArg rc) = .ok (f, rc) := fun g => checkData_ok hne (.inr hf)
  have hc1 : ∀ g, checkData 1 g (.array f) (dataArg rc) = .ok (f, rc) := fun g => checkData_ok hne (.inr (by omega))
  have hCI' : o.CI ≤ 0 ∨ o.CI ≥ 1 := hCI
  refine ⟨?_, ?_, fun hfit => ⟨?_, ?_, ?_, ?_, ?_⟩⟩
  · cases hs : o.show_fit <;> simp only [gammaPlot, hc, bind, Except.bind, body, hs, if_pos hCI']
  · cases hs : o.show_fit <;> simp only [betaPlot, hc, bind, Except.bind, body, hs, if_pos hCI']
  · simp only [weibullPlot, hc, bind, Except.bind, body, hfit, if_pos hCI']
  · simp only [loglogisticPlot, hc, bind, Except.bind, body, hfit, if_pos hCI']
  · simp only [lognormalPlot, hc, bind, Except.bind, body, hfit, if_pos hCI']
  · simp only [plainPlot, hc, bind, Except.bind, body, hfit, if_pos hCI']
  · simp only [exponentialPlot, hc1, bind, Except.bind, body, hfit, if_pos hCI']

/-- Non-vacuity: a Weibull plot of two failures and a censored time, with a location, in the order given. -/
example (hs : IsArgsort argsort) (J : Jac) (num2 : Option ℝ → Num2) (num3 : Num (ℝ × ℝ × ℝ)) :
    ∃ r, weibullPlot argsort (fitWeibull2P argsort J num2) (fitWeibull3P argsort J num3 num2) (.array [30, 12])
        (dataArg (some [20])) (some ⟨.weibull, 25, 2, 5, none, none, none, none⟩) {} = .ok r ∧
      r.paper = .weibull ∧ ShowsData argsort none [30, 12] (some [20]) (-5) r ∧
      DrawsCDF (Distributions.weibull 25 2 5).sp.cdf (-5) r ∧ AllVisible r :=
  C118_weibull hs J num2 num3 (o := {}) ⟨by norm_num, by norm_num, by norm_num, by norm_num, rfl, rfl, .inl rfl⟩ (by simp)
    (by norm_num) (.inl ⟨rfl, rfl, by norm_num⟩) (by norm_num)

end Reliability.ProbPaper
