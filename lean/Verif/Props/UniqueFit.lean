import Verif.Lemmas.UniqueML
import Verif.Spec.UniqueFit
import Verif.Props.MaxLikelihoodClosed

/-! # C161-C163: the maximum likelihood fit is unique -/

namespace Reliability.Props.UniqueFit

open Reliability Reliability.Distributions Reliability.Likelihood Reliability.InputCheck Reliability.Props.Likelihood Reliability.FunctionCI
open Reliability.Fitters (MLEOut OptResult Bound lsOptimization mleOptimization mleForced)
open Reliability.FitGlue Reliability.Spec Reliability.Spec.InputCheck Reliability.Spec.FitGlue Reliability.Props
open Reliability.UniqueML Reliability.RankReg

/-! ## The most likely line of a fit -/

theorem fit2_forced {F : Fam2} {argsort : List ℝ → List ℕ} {J : Jac} {num : Option ℝ → Num2} {inp : Checked ℝ} {force : Option ℝ}
    {r : FitRes Two} (h : fit2 F argsort J num inp force = .ok r) (hn : r.optimizer ≠ none) : ∀ s, force = some s → r.dist.b = s := by
  rintro s rfl
  unfold fit2 at h
  simp only [bind_ok] at h
  obtain ⟨e, he, s', hs, q, hq, g, hg, h⟩ := h
  cases h
  obtain ⟨m, r', -, -, ⟨-, rfl⟩ | ⟨-, o, h3, rfl⟩⟩ := estimate_ok he
  · exact absurd rfl hn
  · simp only [mle2, mleForced] at h3
    split at h3
    · cases h3
    · cases h3
      rfl

theorem line_of_fit2 {F : Fam2} (hF : F ∈ fams2) {argsort : List ℝ → List ℕ} {J : Jac} {num : Option ℝ → Num2}
    {inp : Checked ℝ} {force : Option ℝ} (hE : Exact (num force).minimize) (hE1 : Exact (num force).minimize1) {r : FitRes Two}
    (hne : inp.failures ≠ []) (hf : ∀ t ∈ inp.failures, InSupport F.cfam 0 t)
    (hr : ∀ t ∈ inp.right_censored, InSupport F.cfam 0 t) (h : fit2 F argsort J num inp force = .ok r)
    (hn : r.optimizer ≠ none) (hp : ParamsOK F.cfam r.dist.a r.dist.b) :
    LineMax F.cfam (force.map (slopeOf F.cfam)) inp.failures inp.right_censored (slopeOf F.cfam r.dist.b)
      (icptOf F.cfam r.dist.a r.dist.b) := by
  refine .of_params ?_ hp hf hr hne (fit2_forced h hn) fun α β hok hs =>
    fit2_most_likely hF hE hE1 hne hf hr h hn hp hok hs
  simp only [fams2, List.mem_cons, List.not_mem_nil, or_false] at hF
  rcases hF with rfl | rfl | rfl | rfl | rfl <;> exact fun h => by cases h

/-- The times the fit uses. -/
noncomputable def keep (dist : String) (l : List ℝ) : List ℝ := l.filter fun t => decide (Usable dist t)

theorem used_units {dist : String} {x : Args} {F C F' C' : List ℝ} (h : Used dist x F C) (h' : Units x F' C') :
    F = keep dist F' ∧ C = keep dist C' :=
  used_unique h ⟨F', C', h'.1, h'.2, rfl, rfl⟩

theorem line_weibull {x : Args} {r : FitRes Two} {F C : List ℝ} (h : ExactML fitWeibull2P x r) (hu : Units x F C)
    (ha : 0 < r.dist.a) (hb : 0 < r.dist.b) : LineMax .weibull (x.force.map (slopeOf .weibull)) (keep "Weibull_2P" F)
      (keep "Weibull_2P" C) (slopeOf .weibull r.dist.b) (icptOf .weibull r.dist.a r.dist.b) := by
  obtain ⟨hn, argsort, J, num, hE, hE1, h⟩ := h
  simp only [fitWeibull2P, bind_ok] at h
  obtain ⟨inp, h1, h2⟩ := h
  have hacc := (C51_ok_iff ..).1 h1
  rw [hacc.beta_ok.1] at h2
  obtain ⟨u1, u2⟩ := usable_failures hacc
  obtain ⟨e1, e2⟩ := used_units (used_of_accepts hacc) hu
  rw [← e1, ← e2]
  exact line_of_fit2 (F := weibull2) (by simp [fams2]) (hE _) (hE1 _) (failures_ne hacc)
    (fun t ht => usable_pos (by decide) (u1 t ht)) (fun t ht => usable_pos (by decide) (u2 t ht)) h2 hn ⟨hb, fun _ => ha⟩

theorem line_normal {x : Args} {r : FitRes Two} {F C : List ℝ} (h : ExactML fitNormal2P x r) (hu : Units x F C)
    (hb : 0 < r.dist.b) : LineMax .normal (x.force.map (slopeOf .normal)) (keep "Normal_2P" F) (keep "Normal_2P" C)
      (slopeOf .normal r.dist.b) (icptOf .normal r.dist.a r.dist.b) := by
  obtain ⟨hn, argsort, J, num, hE, hE1, h⟩ := h
  simp only [fitNormal2P, bind_ok] at h
  obtain ⟨inp, h1, h2⟩ := h
  have hacc := (C51_ok_iff ..).1 h1
  rw [hacc.sigma_ok.1] at h2
  obtain ⟨e1, e2⟩ := used_units (used_of_accepts hacc) hu
  rw [← e1, ← e2]
  have hno : ∀ a : ℝ, CFam.normal = .weibull ∨ CFam.normal = .loglogistic → 0 < a := fun a h => by rcases h with h | h <;> cases h
  exact line_of_fit2 (F := normal2) (by simp [fams2]) (hE _) (hE1 _) (failures_ne hacc)
    (fun t ht => trivial) (fun t ht => trivial) h2 hn ⟨hb, hno _⟩

theorem line_lognormal {x : Args} {r : FitRes Two} {F C : List ℝ} (h : ExactML fitLognormal2P x r) (hu : Units x F C)
    (hb : 0 < r.dist.b) : LineMax .lognormal (x.force.map (slopeOf .lognormal)) (keep "Lognormal_2P" F) (keep "Lognormal_2P" C)
      (slopeOf .lognormal r.dist.b) (icptOf .lognormal r.dist.a r.dist.b) := by
  obtain ⟨hn, argsort, J, num, hE, hE1, h⟩ := h
  simp only [fitLognormal2P, bind_ok] at h
  obtain ⟨inp, h1, h2⟩ := h
  have hacc := (C51_ok_iff ..).1 h1
  rw [hacc.sigma_ok.1] at h2
  obtain ⟨u1, u2⟩ := usable_failures hacc
  obtain ⟨e1, e2⟩ := used_units (used_of_accepts hacc) hu
  rw [← e1, ← e2]
  have hno : ∀ a : ℝ, CFam.lognormal = .weibull ∨ CFam.lognormal = .loglogistic → 0 < a := fun a h => by
    rcases h with h | h <;> cases h
  exact line_of_fit2 (F := lognormal2) (by simp [fams2]) (hE _) (hE1 _) (failures_ne hacc)
    (fun t ht => usable_pos (by decide) (u1 t ht)) (fun t ht => usable_pos (by decide) (u2 t ht)) h2 hn ⟨hb, hno _⟩

theorem line_gumbel {x : Args} {r : FitRes Two} {F C : List ℝ} (h : ExactML fitGumbel2P x r) (hu : Units x F C)
    (hb : 0 < r.dist.b) : LineMax .gumbel none (keep "Gumbel_2P" F) (keep "Gumbel_2P" C)
      (slopeOf .gumbel r.dist.b) (icptOf .gumbel r.dist.a r.dist.b) := by
  obtain ⟨hn, argsort, J, num, hE, hE1, h⟩ := h
  simp only [fitGumbel2P, bind_ok] at h
  obtain ⟨inp, h1, h2⟩ := h
  have hacc := (C51_ok_iff ..).1 h1
  obtain ⟨e1, e2⟩ := used_units (used_of_accepts hacc) hu
  rw [← e1, ← e2]
  have hno : ∀ a : ℝ, CFam.gumbel = .weibull ∨ CFam.gumbel = .loglogistic → 0 < a := fun a h => by rcases h with h | h <;> cases h
  exact line_of_fit2 (F := gumbel2) (by simp [fams2]) (hE _) (hE1 _) (failures_ne hacc)
    (fun t ht => trivial) (fun t ht => trivial) h2 hn ⟨hb, hno _⟩

theorem line_loglogistic {x : Args} {r : FitRes Two} {F C : List ℝ} (h : ExactML fitLoglogistic2P x r) (hu : Units x F C)
    (ha : 0 < r.dist.a) (hb : 0 < r.dist.b) : LineMax .loglogistic none (keep "Loglogistic_2P" F)
      (keep "Loglogistic_2P" C) (slopeOf .loglogistic r.dist.b) (icptOf .loglogistic r.dist.a r.dist.b) := by
  obtain ⟨hn, argsort, J, num, hE, hE1, h⟩ := h
  simp only [fitLoglogistic2P, bind_ok] at h
  obtain ⟨inp, h1, h2⟩ := h
  have hacc := (C51_ok_iff ..).1 h1
  obtain ⟨u1, u2⟩ := usable_failures hacc
  obtain ⟨e1, e2⟩ := used_units (used_of_accepts hacc) hu
  rw [← e1, ← e2]
  exact line_of_fit2 (F := loglogistic2) (by simp [fams2]) (hE _) (hE1 _) (failures_ne hacc)
    (fun t ht => usable_pos (by decide) (u1 t ht)) (fun t ht => usable_pos (by decide) (u2 t ht)) h2 hn ⟨hb, fun _ => ha⟩

/-! ## Data that correspond -/

theorem keep_perm {d d' : String} {l l' : List ℝ} {τ : ℝ → ℝ} (h : l'.Perm (l.map τ))
    (hu : ∀ t ∈ l, (Usable d' (τ t) ↔ Usable d t)) : (keep d' l').Perm ((keep d l).map τ) := by
  unfold keep
  refine (h.filter _).trans (.of_eq ?_)
  rw [List.filter_map]
  congr 1
  refine List.filter_congr fun t ht => ?_
  simp [hu t ht]

theorem mem_keep {d : String} {l : List ℝ} {t : ℝ} : t ∈ keep d l ↔ t ∈ l ∧ Usable d t := by simp [keep]

/-- The lines of two fits of corresponding data correspond. -/
theorem lines_correspond {f f' : CFam} {d d' : String} (h1 : stdPdf f = stdPdf f') (h2 : stdSf f = stdSf f') {F C F' C' : List ℝ}
    {τ : ℝ → ℝ} (hF : F'.Perm (F.map τ)) (hC : C'.Perm (C.map τ)) {c s : ℝ} (hc : 0 < c)
    (hu : ∀ t, t ∈ F ∨ t ∈ C → (Usable d' (τ t) ↔ Usable d t))
    (hτ : ∀ t, t ∈ F ∨ t ∈ C → Usable d t → InSupport f' 0 (τ t) ∧ timeScale f' 0 (τ t) = c * timeScale f 0 t + s)
    {fo fo' : Option ℝ} (hfo : fo' = fo.map fun s => s / c) {q p q' p' : ℝ} (h : LineMax f fo (keep d F) (keep d C) q p)
    (h' : LineMax f' fo' (keep d' F') (keep d' C') q' p') : q' = q / c ∧ p' = p - q * s / c :=
  h'.unique (h.transport h1 h2 (keep_perm hF fun t ht => hu t (.inl ht)) (keep_perm hC fun t ht => hu t (.inr ht)) hc
    (fun t ht => hτ t (.inl (mem_keep.1 ht).1) (mem_keep.1 ht).2)
    (fun t ht => hτ t (.inr (mem_keep.1 ht).1) (mem_keep.1 ht).2) hfo)

theorem perm_id {l l' : List ℝ} (h : l'.Perm l) : l'.Perm (l.map id) := by rwa [List.map_id]

theorem force_id {fo fo' : Option ℝ} (h : fo = fo') (g : ℝ → ℝ) : fo'.map g = (fo.map g).map fun s => s / 1 := by
  subst h; cases fo <;> simp

theorem params_eq {f : CFam} {a b a' b' : ℝ} (hp : ParamsOK f a b) (hp' : ParamsOK f a' b')
    (h : slopeOf f b' = slopeOf f b / 1 ∧ icptOf f a' b' = icptOf f a b - slopeOf f b * 0 / 1) : a' = a ∧ b' = b := by
  obtain ⟨h1, h2⟩ := h
  rw [div_one] at h1
  rw [mul_zero, zero_div, sub_zero] at h2
  have := params_line hp'
  rw [h1, h2, params_line hp] at this
  cases this
  exact ⟨rfl, rfl⟩

/-! ## C161: one fit -/

/-- **C161 (Fit_Weibull_2P).** Two maximum likelihood runs on the same units, in any order, with the same forced beta (or none):
the estimates are the same, whatever optimizers, methods of the initial guess and other arguments were used. -/
theorem C161_weibull_2P {x x' : Args} {r r' : FitRes Two} (h : ExactML fitWeibull2P x r) (h' : ExactML fitWeibull2P x' r')
    (ha : 0 < r.dist.a) (hb : 0 < r.dist.b) (ha' : 0 < r'.dist.a) (hb' : 0 < r'.dist.b) {F C F' C' : List ℝ} (hu : Units x F C)
    (hu' : Units x' F' C') (hF : F'.Perm F) (hC : C'.Perm C) (hfo : x.force = x'.force) :
    r'.dist.a = r.dist.a ∧ r'.dist.b = r.dist.b :=
  params_eq (f := .weibull) ⟨hb, fun _ => ha⟩ ⟨hb', fun _ => ha'⟩
    (lines_correspond (f := .weibull) (f' := .weibull) (d := "Weibull_2P") (d' := "Weibull_2P") rfl rfl (perm_id hF) (perm_id hC) one_pos (fun t _ => Iff.rfl)
      (fun t _ hs => ⟨usable_pos (by decide) hs, by simp⟩) (force_id hfo _) (line_weibull h hu ha hb) (line_weibull h' hu' ha' hb'))

/-- **C161 (Fit_Loglogistic_2P).** -/
theorem C161_loglogistic_2P {x x' : Args} {r r' : FitRes Two} (h : ExactML fitLoglogistic2P x r) (h' : ExactML fitLoglogistic2P x' r')
    (ha : 0 < r.dist.a) (hb : 0 < r.dist.b) (ha' : 0 < r'.dist.a) (hb' : 0 < r'.dist.b) {F C F' C' : List ℝ} (hu : Units x F C)
    (hu' : Units x' F' C') (hF : F'.Perm F) (hC : C'.Perm C) :
    r'.dist.a = r.dist.a ∧ r'.dist.b = r.dist.b :=
  params_eq (f := .loglogistic) ⟨hb, fun _ => ha⟩ ⟨hb', fun _ => ha'⟩
    (lines_correspond (f := .loglogistic) (f' := .loglogistic) (d := "Loglogistic_2P") (d' := "Loglogistic_2P") rfl rfl (perm_id hF) (perm_id hC) one_pos (fun t _ => Iff.rfl)
      (fun t _ hs => ⟨usable_pos (by decide) hs, by simp⟩) (fo := none) rfl (line_loglogistic h hu ha hb)
      (line_loglogistic h' hu' ha' hb'))

/-- **C161 (Fit_Normal_2P).** -/
theorem C161_normal_2P {x x' : Args} {r r' : FitRes Two} (h : ExactML fitNormal2P x r) (h' : ExactML fitNormal2P x' r')
    (hb : 0 < r.dist.b) (hb' : 0 < r'.dist.b) {F C F' C' : List ℝ} (hu : Units x F C)
    (hu' : Units x' F' C') (hF : F'.Perm F) (hC : C'.Perm C) (hfo : x.force = x'.force) :
    r'.dist.a = r.dist.a ∧ r'.dist.b = r.dist.b :=
  params_eq (f := .normal) ⟨hb, fun h => by rcases h with h | h <;> cases h⟩ ⟨hb', fun h => by rcases h with h | h <;> cases h⟩
    (lines_correspond (f := .normal) (f' := .normal) (d := "Normal_2P") (d' := "Normal_2P") rfl rfl (perm_id hF) (perm_id hC) one_pos (fun t _ => Iff.rfl)
      (fun t _ hs => ⟨trivial, by simp⟩) (force_id hfo _) (line_normal h hu hb) (line_normal h' hu' hb'))

/-- **C161 (Fit_Lognormal_2P).** -/
theorem C161_lognormal_2P {x x' : Args} {r r' : FitRes Two} (h : ExactML fitLognormal2P x r) (h' : ExactML fitLognormal2P x' r')
    (hb : 0 < r.dist.b) (hb' : 0 < r'.dist.b) {F C F' C' : List ℝ} (hu : Units x F C)
    (hu' : Units x' F' C') (hF : F'.Perm F) (hC : C'.Perm C) (hfo : x.force = x'.force) :
    r'.dist.a = r.dist.a ∧ r'.dist.b = r.dist.b :=
  params_eq (f := .lognormal) ⟨hb, fun h => by rcases h with h | h <;> cases h⟩ ⟨hb', fun h => by rcases h with h | h <;> cases h⟩
    (lines_correspond (f := .lognormal) (f' := .lognormal) (d := "Lognormal_2P") (d' := "Lognormal_2P") rfl rfl (perm_id hF) (perm_id hC) one_pos (fun t _ => Iff.rfl)
      (fun t _ hs => ⟨usable_pos (by decide) hs, by simp⟩) (force_id hfo _) (line_lognormal h hu hb) (line_lognormal h' hu' hb'))

/-- **C161 (Fit_Gumbel_2P).** -/
theorem C161_gumbel_2P {x x' : Args} {r r' : FitRes Two} (h : ExactML fitGumbel2P x r) (h' : ExactML fitGumbel2P x' r')
    (hb : 0 < r.dist.b) (hb' : 0 < r'.dist.b) {F C F' C' : List ℝ} (hu : Units x F C)
    (hu' : Units x' F' C') (hF : F'.Perm F) (hC : C'.Perm C) :
    r'.dist.a = r.dist.a ∧ r'.dist.b = r.dist.b :=
  params_eq (f := .gumbel) ⟨hb, fun h => by rcases h with h | h <;> cases h⟩ ⟨hb', fun h => by rcases h with h | h <;> cases h⟩
    (lines_correspond (f := .gumbel) (f' := .gumbel) (d := "Gumbel_2P") (d' := "Gumbel_2P") rfl rfl (perm_id hF) (perm_id hC) one_pos (fun t _ => Iff.rfl)
      (fun t _ hs => ⟨trivial, by simp⟩) (fo := none) rfl (line_gumbel h hu hb) (line_gumbel h' hu' hb'))

/-! ## C162: the fits of related distributions -/

theorem usable_of_pos {d : String} (hd : d ≠ "Beta_2P") {t : ℝ} (ht : 0 < t) : Usable d t := .inr ⟨ht, fun h => absurd h hd⟩

theorem usable_line {d : String} (hd : RealLine d) (t : ℝ) : Usable d t := .inl hd

/-- **C162 (Lognormal and Normal).** The Lognormal fit of positive times is the Normal fit of their logarithms. -/
theorem C162_lognormal_normal {x x' : Args} {r r' : FitRes Two} (h : ExactML fitLognormal2P x r) (h' : ExactML fitNormal2P x' r')
    (hb : 0 < r.dist.b) (hb' : 0 < r'.dist.b) {F C F' C' : List ℝ} (hu : Units x F C) (hu' : Units x' F' C')
    (hpos : ∀ t, t ∈ F ∨ t ∈ C → 0 < t) (hF : F'.Perm (F.map Real.log)) (hC : C'.Perm (C.map Real.log)) (hfo : x.force = x'.force) :
    r'.dist.a = r.dist.a ∧ r'.dist.b = r.dist.b := by
  obtain ⟨e1, e2⟩ := lines_correspond (f := .lognormal) (f' := .normal) (d := "Lognormal_2P") (d' := "Normal_2P") rfl rfl hF hC one_pos
    (s := 0) (fun t ht => ⟨fun _ => usable_of_pos (by decide) (hpos t ht), fun _ => usable_line (by decide) _⟩)
    (fun t ht hs => ⟨trivial, by simp [timeScale]⟩) (force_id hfo _) (line_lognormal h hu hb) (line_normal h' hu' hb')
  exact params_eq (f := .normal) ⟨hb, fun h => by rcases h with h | h <;> cases h⟩ ⟨hb', fun h => by rcases h with h | h <;> cases h⟩
    ⟨e1, e2⟩

/-- **C162 (Weibull and Gumbel).** The Weibull fit of positive times is the Gumbel fit of their logarithms: mu is the logarithm
of alpha and sigma is one over beta. -/
theorem C162_weibull_gumbel {x x' : Args} {r r' : FitRes Two} (h : ExactML fitWeibull2P x r) (h' : ExactML fitGumbel2P x' r')
    (ha : 0 < r.dist.a) (hb : 0 < r.dist.b) (hb' : 0 < r'.dist.b) {F C F' C' : List ℝ} (hu : Units x F C) (hu' : Units x' F' C')
    (hpos : ∀ t, t ∈ F ∨ t ∈ C → 0 < t) (hF : F'.Perm (F.map Real.log)) (hC : C'.Perm (C.map Real.log)) (hfo : x.force = none) :
    r'.dist.a = Real.log r.dist.a ∧ r'.dist.b = 1 / r.dist.b := by
  obtain ⟨e1, e2⟩ := lines_correspond (f := .weibull) (f' := .gumbel) (d := "Weibull_2P") (d' := "Gumbel_2P") rfl rfl hF hC one_pos
    (s := 0) (fun t ht => ⟨fun _ => usable_of_pos (by decide) (hpos t ht), fun _ => usable_line (by decide) _⟩)
    (fun t ht hs => ⟨trivial, by simp [timeScale]⟩) (by rw [hfo]; rfl) (line_weibull h hu ha hb) (line_gumbel h' hu' hb')
  simp only [slopeOf, icptOf, div_one, mul_zero, sub_zero] at e1 e2
  have e3 : r'.dist.b = 1 / r.dist.b := by rw [← e1, one_div_one_div]
  refine ⟨?_, e3⟩
  rw [e3] at e2
  field_simp at e2
  linarith

/-- **C162 (Weibull and Exponential).** The Weibull fit with beta forced to 1 is the Exponential fit: alpha is one over Lambda. -/
theorem C162_weibull_exponential {x x' : Args} {r : FitRes Two} (h : ExactML fitWeibull2P x r) (ha : 0 < r.dist.a)
    (hfo : x.force = some 1) (argsort : List ℝ → List ℕ) (J : Jac) (num : Num ℝ) (hE : Exact num.minimize) {r' : FitRes Expo}
    (h' : fitExponential1P argsort J num x' = .ok r') (hn' : r'.optimizer ≠ none) (hL : 0 < r'.dist.Lambda)
    {F C F' C' : List ℝ} (hu : Units x F C) (hu' : Units x' F' C') (hF : F'.Perm F) (hC : C'.Perm C) :
    r.dist.a = 1 / r'.dist.Lambda ∧ r.dist.b = 1 := by
  obtain ⟨hn, as, J₁, num₁, hE₁, hE₂, hr⟩ := h
  have hb : r.dist.b = 1 := by
    have hr' := hr
    simp only [fitWeibull2P, bind_ok] at hr'
    obtain ⟨inp, h1, h2⟩ := hr'
    have hacc := (C51_ok_iff ..).1 h1
    rw [hacc.beta_ok.1] at h2
    exact fit2_forced h2 hn 1 hfo
  refine ⟨?_, hb⟩
  have hline := line_weibull ⟨hn, as, J₁, num₁, hE₁, hE₂, hr⟩ hu ha (by rw [hb]; exact one_pos)
  obtain ⟨f, rc, hu1, hmax⟩ := C112_weibull_2P as J₁ num₁ hE₁ hE₂ x r hr hn ha (by rw [hb]; exact one_pos)
  obtain ⟨rfl, rfl⟩ := used_units hu1 hu
  obtain ⟨f', rc', hu2, hcl⟩ := C112_exponential_closed_form argsort J num hE x' r' h' hn' hL
  obtain ⟨rfl, rfl⟩ := used_units hu2 hu'
  have hk : ∀ l : List ℝ, keep "Exponential_1P" l = keep "Weibull_2P" l := fun l => by
    unfold keep
    refine List.filter_congr fun t _ => ?_
    have : Usable "Exponential_1P" t ↔ Usable "Weibull_2P" t := by
      constructor <;> intro h <;> exact usable_of_pos (by decide) (usable_pos (by decide) h)
    simp [this]
  have pF : (keep "Exponential_1P" F').Perm (keep "Weibull_2P" F) := by rw [hk]; exact hF.filter _
  have pC : (keep "Exponential_1P" C').Perm (keep "Weibull_2P" C) := by rw [hk]; exact hC.filter _
  rw [pF.length_eq, pF.sum_eq, pC.sum_eq] at hcl
  generalize keep "Weibull_2P" F = f at *
  generalize keep "Weibull_2P" C = rc at *
  have hf : ∀ t ∈ f, 0 < t := hline.F_in
  have hc : ∀ t ∈ rc, 0 < t := hline.C_in
  have hw : ∀ a, 0 < a → likelihoodOf (weibull a 1 0) f rc = likelihoodOf (exponential (1 / a) 0) f rc := by
    intro a _
    have : (weibull a 1 0).sp = (exponential (1 / a) 0).sp := by
      simp only [Distributions.weibull, exponential, exponStd_eq, one_div_one_div]
    unfold likelihoodOf
    rw [this]
  have hs1 := sum_pos_of hline.ne hf
  have hs2 : 0 ≤ rc.sum := List.sum_nonneg fun t ht => (hc t ht).le
  have hlen : (0 : ℝ) < f.length := by exact_mod_cast List.length_pos_iff.2 hline.ne
  have hT : 0 < f.sum + rc.sum := by linarith
  have hm := hmax ((f.sum + rc.sum) / f.length) 1 (by positivity) one_pos (fun s hs => by rw [hfo] at hs; cases hs; rfl)
  rw [hb, hw _ (by positivity), hw _ ha, exp_likelihood_le (by positivity) (by positivity) hf hc, exponential_LL_eq,
    exponential_LL_eq, one_div_div] at hm
  have := exponential_max hlen hT (by positivity) hm
  rw [hcl, ← this, one_div_one_div]

/-! ## C163: units -/

theorem usable_mul {d : String} (hd : d ≠ "Beta_2P") {k : ℝ} (hk : 0 < k) (t : ℝ) : Usable d (k * t) ↔ Usable d t := by
  unfold Usable
  constructor
  · rintro (h | h)
    · exact .inl h
    · exact .inr ⟨pos_of_mul_pos_right h.1 hk.le, fun e => absurd e hd⟩
  · rintro (h | h)
    · exact .inl h
    · exact .inr ⟨mul_pos hk h.1, fun e => absurd e hd⟩

/-- **C163 (Fit_Weibull_2P).** Times `k` times as large (another unit) make alpha `k` times as large and leave beta. -/
theorem C163_weibull_2P {x x' : Args} {r r' : FitRes Two} (h : ExactML fitWeibull2P x r) (h' : ExactML fitWeibull2P x' r')
    (ha : 0 < r.dist.a) (hb : 0 < r.dist.b) (ha' : 0 < r'.dist.a) (hb' : 0 < r'.dist.b) {F C F' C' : List ℝ} (hu : Units x F C)
    (hu' : Units x' F' C') {k : ℝ} (hk : 0 < k) (hF : F'.Perm (F.map (k * ·))) (hC : C'.Perm (C.map (k * ·)))
    (hfo : x.force = x'.force) : r'.dist.a = k * r.dist.a ∧ r'.dist.b = r.dist.b := by
  obtain ⟨e1, e2⟩ := lines_correspond (f := .weibull) (f' := .weibull) (d := "Weibull_2P") (d' := "Weibull_2P") rfl rfl hF hC one_pos
    (s := Real.log k) (fun t ht => usable_mul (by decide) hk t)
    (fun t ht hs => ⟨mul_pos hk (usable_pos (by decide) hs), by
      have := usable_pos (by decide) hs
      simp only [timeScale, sub_zero]
      rw [Real.log_mul hk.ne' this.ne']; ring⟩) (force_id hfo _) (line_weibull h hu ha hb) (line_weibull h' hu' ha' hb')
  simp only [slopeOf, icptOf, div_one] at e1 e2
  refine ⟨?_, e1⟩
  rw [e1] at e2
  have : Real.log r'.dist.a = Real.log (k * r.dist.a) := by
    rw [Real.log_mul hk.ne' ha.ne']
    have := mul_left_cancel₀ hb.ne' (show r.dist.b * Real.log r'.dist.a = r.dist.b * (Real.log k + Real.log r.dist.a) by linarith)
    exact this
  exact Real.log_injOn_pos ha' (mul_pos hk ha) this

/-- **C163 (Fit_Loglogistic_2P).** -/
theorem C163_loglogistic_2P {x x' : Args} {r r' : FitRes Two} (h : ExactML fitLoglogistic2P x r) (h' : ExactML fitLoglogistic2P x' r')
    (ha : 0 < r.dist.a) (hb : 0 < r.dist.b) (ha' : 0 < r'.dist.a) (hb' : 0 < r'.dist.b) {F C F' C' : List ℝ} (hu : Units x F C)
    (hu' : Units x' F' C') {k : ℝ} (hk : 0 < k) (hF : F'.Perm (F.map (k * ·))) (hC : C'.Perm (C.map (k * ·))) :
    r'.dist.a = k * r.dist.a ∧ r'.dist.b = r.dist.b := by
  obtain ⟨e1, e2⟩ := lines_correspond (f := .loglogistic) (f' := .loglogistic) (d := "Loglogistic_2P") (d' := "Loglogistic_2P")
    rfl rfl hF hC one_pos
    (s := Real.log k) (fun t ht => usable_mul (by decide) hk t)
    (fun t ht hs => ⟨mul_pos hk (usable_pos (by decide) hs), by
      have := usable_pos (by decide) hs
      simp only [timeScale, sub_zero]
      rw [Real.log_mul hk.ne' this.ne']; ring⟩) (fo := none) rfl (line_loglogistic h hu ha hb) (line_loglogistic h' hu' ha' hb')
  simp only [slopeOf, icptOf, div_one] at e1 e2
  refine ⟨?_, e1⟩
  rw [e1] at e2
  have : Real.log r'.dist.a = Real.log (k * r.dist.a) := by
    rw [Real.log_mul hk.ne' ha.ne']
    have := mul_left_cancel₀ hb.ne' (show r.dist.b * Real.log r'.dist.a = r.dist.b * (Real.log k + Real.log r.dist.a) by linarith)
    exact this
  exact Real.log_injOn_pos ha' (mul_pos hk ha) this

/-- **C163 (Fit_Lognormal_2P).** mu grows by the logarithm of `k`, sigma is left. -/
theorem C163_lognormal_2P {x x' : Args} {r r' : FitRes Two} (h : ExactML fitLognormal2P x r) (h' : ExactML fitLognormal2P x' r')
    (hb : 0 < r.dist.b) (hb' : 0 < r'.dist.b) {F C F' C' : List ℝ} (hu : Units x F C)
    (hu' : Units x' F' C') {k : ℝ} (hk : 0 < k) (hF : F'.Perm (F.map (k * ·))) (hC : C'.Perm (C.map (k * ·)))
    (hfo : x.force = x'.force) : r'.dist.a = r.dist.a + Real.log k ∧ r'.dist.b = r.dist.b := by
  obtain ⟨e1, e2⟩ := lines_correspond (f := .lognormal) (f' := .lognormal) (d := "Lognormal_2P") (d' := "Lognormal_2P") rfl rfl hF hC
    one_pos (s := Real.log k) (fun t ht => usable_mul (by decide) hk t)
    (fun t ht hs => ⟨mul_pos hk (usable_pos (by decide) hs), by
      have := usable_pos (by decide) hs
      simp only [timeScale, sub_zero]
      rw [Real.log_mul hk.ne' this.ne']; ring⟩) (force_id hfo _) (line_lognormal h hu hb) (line_lognormal h' hu' hb')
  simp only [slopeOf, icptOf, div_one] at e1 e2
  have e3 : r'.dist.b = r.dist.b := by
    have := congrArg (fun z => 1 / z) e1
    simpa using this
  refine ⟨?_, e3⟩
  rw [e3] at e2
  field_simp at e2
  linarith

/-- **C163 (Fit_Normal_2P).** Another unit and another origin: mu goes along with the times, sigma with the unit. -/
theorem C163_normal_2P {x x' : Args} {r r' : FitRes Two} (h : ExactML fitNormal2P x r) (h' : ExactML fitNormal2P x' r')
    (hb : 0 < r.dist.b) (hb' : 0 < r'.dist.b) {F C F' C' : List ℝ} (hu : Units x F C)
    (hu' : Units x' F' C') {k s : ℝ} (hk : 0 < k) (hF : F'.Perm (F.map fun t => k * t + s)) (hC : C'.Perm (C.map fun t => k * t + s))
    (hfo : x'.force = x.force.map (k * ·)) : r'.dist.a = k * r.dist.a + s ∧ r'.dist.b = k * r.dist.b := by
  obtain ⟨e1, e2⟩ := lines_correspond (f := .normal) (f' := .normal) (d := "Normal_2P") (d' := "Normal_2P") rfl rfl hF hC hk
    (s := s) (fun t ht => ⟨fun _ => usable_line (by decide) _, fun _ => usable_line (by decide) _⟩)
    (fun t ht hs => ⟨trivial, rfl⟩) (by
      rw [hfo]
      cases x.force with
      | none => rfl
      | some s => simp [slopeOf]; ring) (line_normal h hu hb) (line_normal h' hu' hb')
  simp only [slopeOf, icptOf] at e1 e2
  have e3 : r'.dist.b = k * r.dist.b := by
    field_simp at e1
    linarith
  refine ⟨?_, e3⟩
  rw [e3] at e2
  field_simp at e2
  linarith

/-- **C163 (Fit_Gumbel_2P).** -/
theorem C163_gumbel_2P {x x' : Args} {r r' : FitRes Two} (h : ExactML fitGumbel2P x r) (h' : ExactML fitGumbel2P x' r')
    (hb : 0 < r.dist.b) (hb' : 0 < r'.dist.b) {F C F' C' : List ℝ} (hu : Units x F C)
    (hu' : Units x' F' C') {k s : ℝ} (hk : 0 < k) (hF : F'.Perm (F.map fun t => k * t + s)) (hC : C'.Perm (C.map fun t => k * t + s)) :
    r'.dist.a = k * r.dist.a + s ∧ r'.dist.b = k * r.dist.b := by
  obtain ⟨e1, e2⟩ := lines_correspond (f := .gumbel) (f' := .gumbel) (d := "Gumbel_2P") (d' := "Gumbel_2P") rfl rfl hF hC hk
    (s := s) (fun t ht => ⟨fun _ => usable_line (by decide) _, fun _ => usable_line (by decide) _⟩)
    (fun t ht hs => ⟨trivial, rfl⟩) (fo := none) rfl (line_gumbel h hu hb) (line_gumbel h' hu' hb')
  simp only [slopeOf, icptOf] at e1 e2
  have e3 : r'.dist.b = k * r.dist.b := by
    field_simp at e1
    linarith
  refine ⟨?_, e3⟩
  rw [e3] at e2
  field_simp at e2
  linarith

/-- **C161 and C163 (Fit_Exponential_1P).** Times `k` times as large, in any order, divide Lambda by `k`; for `k = 1` the estimates of
two runs are the same. -/
theorem C163_exponential_1P {x x' : Args} {r r' : FitRes Expo} (argsort argsort' : List ℝ → List ℕ) (J J' : Jac) (num num' : Num ℝ)
    (hE : Exact num.minimize) (hE' : Exact num'.minimize) (h : fitExponential1P argsort J num x = .ok r)
    (h' : fitExponential1P argsort' J' num' x' = .ok r') (hn : r.optimizer ≠ none) (hn' : r'.optimizer ≠ none)
    (hL : 0 < r.dist.Lambda) (hL' : 0 < r'.dist.Lambda) {F C F' C' : List ℝ} (hu : Units x F C) (hu' : Units x' F' C') {k : ℝ}
    (hk : 0 < k) (hF : F'.Perm (F.map (k * ·))) (hC : C'.Perm (C.map (k * ·))) : r'.dist.Lambda = r.dist.Lambda / k := by
  obtain ⟨f, rc, hu1, e1⟩ := C112_exponential_closed_form argsort J num hE x r h hn hL
  obtain ⟨f', rc', hu2, e2⟩ := C112_exponential_closed_form argsort' J' num' hE' x' r' h' hn' hL'
  obtain ⟨rfl, rfl⟩ := used_units hu1 hu
  obtain ⟨rfl, rfl⟩ := used_units hu2 hu'
  have pF := keep_perm hF fun t (_ : t ∈ F) => usable_mul (d := "Exponential_1P") (by decide) hk t
  have pC := keep_perm hC fun t (_ : t ∈ C) => usable_mul (d := "Exponential_1P") (by decide) hk t
  rw [e1, e2, pF.length_eq, pF.sum_eq, pC.sum_eq, List.length_map, List.sum_map_mul_left, List.sum_map_mul_left]
  simp only [List.map_id']
  rw [← mul_add, div_div, mul_comm k]

end Reliability.Props.UniqueFit
