import Verif.Lemmas.ALT

/-! # C59 and C76 for the 24 ALT fitters (generated by tools/gen_alt.py; the lemmas are in Verif/Lemmas/ALT.lean) -/

namespace Reliability.Props.ALT

open Reliability ALT Spec Likelihood Distributions

/-- **C59, Fit_Weibull_Exponential** (ALT_fitters.py:2785). -/
theorem C59_Weibull_Exponential (a b beta : ℝ) (hb : 0 < b) (hbeta : 0 < beta) (SE : Option (List ℝ)) (Z : ℝ)
    (F C : List (ℝ × ℝ)) (use : Option (ℝ)) (groups : List (ℝ))
    (hF : ∀ i ∈ F, 0 < i.1 ∧ 0 < i.2) (hC : ∀ i ∈ C, 0 < i.1 ∧ 0 < i.2)
    (hG : ∀ s ∈ groups, 0 < s) :
    IsALTFit (.weibull beta) 3 (fun s => (LifeStress.exponential a b).life s 1) F C use groups
      (Weibull_Exponential.fit a b beta SE Z (F.map Prod.fst) (C.map Prod.fst) (F.map Prod.snd) (C.map Prod.snd) use groups) := by
  refine isALTFit_single (ls := .exponential a b) (ld := .weibull beta) hb
    hbeta (Weibull_Exponential.logf · · a b beta)
    (Weibull_Exponential.logR · · a b beta) (Weibull_Exponential.life_func a b) F C use groups hF hC hG ?_ ?_ ?_ _ ?_ ?_ ?_ ?_ ?_ ?_
  · intro t S1
    simp only [Weibull_Exponential.logf, baseLogf, LifeStress.life, weibull2P_logf]
  · intro t S1
    simp only [Weibull_Exponential.logR, baseLogR, LifeStress.life, weibull2P_logR]
  · intro S1
    simp only [Weibull_Exponential.life_func, LifeStress.life]
  · rfl
  · simp only [Weibull_Exponential.fit, List.length_map]; rfl
  · simp only [Weibull_Exponential.fit, List.length_map]; rfl
  · rfl
  · rfl
  · rintro u rfl; rfl

/-- **C76, Fit_Weibull_Exponential**. -/
theorem C76_Weibull_Exponential (a b beta : ℝ) (hb : 0 < b) (hbeta : 0 < beta) (SE : Option (List ℝ))
    (hSE : ∀ se, SE = some se → se.length = 3 ∧ ∀ s ∈ se, 0 ≤ s) (Z : ℝ) (hZ : 0 ≤ Z)
    (failures censored failure_stress right_censored_stress : List ℝ) (use : Option (ℝ)) (groups : List (ℝ)) :
    EnclosedBy [(.real, a), (.positive, b), (.positive, beta)]
      (Weibull_Exponential.fit a b beta SE Z failures censored failure_stress right_censored_stress use groups).bounds := by
  refine ciBounds_enclosed [(.real, a), (.positive, b), (.positive, beta)] ?_ SE hSE Z hZ
  simp only [List.forall_mem_cons, ParamKind.Ok, *]; simp

/-- **C59, Fit_Weibull_Eyring** (ALT_fitters.py:3247). -/
theorem C59_Weibull_Eyring (a c beta : ℝ) (hbeta : 0 < beta) (SE : Option (List ℝ)) (Z : ℝ)
    (F C : List (ℝ × ℝ)) (use : Option (ℝ)) (groups : List (ℝ))
    (hF : ∀ i ∈ F, 0 < i.1 ∧ 0 < i.2) (hC : ∀ i ∈ C, 0 < i.1 ∧ 0 < i.2)
    (hG : ∀ s ∈ groups, 0 < s) :
    IsALTFit (.weibull beta) 3 (fun s => (LifeStress.eyring a c).life s 1) F C use groups
      (Weibull_Eyring.fit a c beta SE Z (F.map Prod.fst) (C.map Prod.fst) (F.map Prod.snd) (C.map Prod.snd) use groups) := by
  refine isALTFit_single (ls := .eyring a c) (ld := .weibull beta) trivial
    hbeta (Weibull_Eyring.logf · · a c beta)
    (Weibull_Eyring.logR · · a c beta) (Weibull_Eyring.life_func a c) F C use groups hF hC hG ?_ ?_ ?_ _ ?_ ?_ ?_ ?_ ?_ ?_
  · intro t S1
    simp only [Weibull_Eyring.logf, baseLogf, LifeStress.life, weibull2P_logf, eyring_life_eq]
  · intro t S1
    simp only [Weibull_Eyring.logR, baseLogR, LifeStress.life, weibull2P_logR, eyring_life_eq]
  · intro S1
    simp only [Weibull_Eyring.life_func, LifeStress.life, eyring_life_eq]
  · rfl
  · simp only [Weibull_Eyring.fit, List.length_map]; rfl
  · simp only [Weibull_Eyring.fit, List.length_map]; rfl
  · rfl
  · rfl
  · rintro u rfl; rfl

/-- **C76, Fit_Weibull_Eyring**. -/
theorem C76_Weibull_Eyring (a c beta : ℝ) (hbeta : 0 < beta) (SE : Option (List ℝ))
    (hSE : ∀ se, SE = some se → se.length = 3 ∧ ∀ s ∈ se, 0 ≤ s) (Z : ℝ) (hZ : 0 ≤ Z)
    (failures censored failure_stress right_censored_stress : List ℝ) (use : Option (ℝ)) (groups : List (ℝ)) :
    EnclosedBy [(.real, a), (.real, c), (.positive, beta)]
      (Weibull_Eyring.fit a c beta SE Z failures censored failure_stress right_censored_stress use groups).bounds := by
  refine ciBounds_enclosed [(.real, a), (.real, c), (.positive, beta)] ?_ SE hSE Z hZ
  simp only [List.forall_mem_cons, ParamKind.Ok, *]; simp

/-- **C59, Fit_Weibull_Power** (ALT_fitters.py:3695). -/
theorem C59_Weibull_Power (a n beta : ℝ) (ha : 0 < a) (hbeta : 0 < beta) (SE : Option (List ℝ)) (Z : ℝ)
    (F C : List (ℝ × ℝ)) (use : Option (ℝ)) (groups : List (ℝ))
    (hF : ∀ i ∈ F, 0 < i.1 ∧ 0 < i.2) (hC : ∀ i ∈ C, 0 < i.1 ∧ 0 < i.2)
    (hG : ∀ s ∈ groups, 0 < s) :
    IsALTFit (.weibull beta) 3 (fun s => (LifeStress.power a n).life s 1) F C use groups
      (Weibull_Power.fit a n beta SE Z (F.map Prod.fst) (C.map Prod.fst) (F.map Prod.snd) (C.map Prod.snd) use groups) := by
  refine isALTFit_single (ls := .power a n) (ld := .weibull beta) ha
    hbeta (Weibull_Power.logf · · a n beta)
    (Weibull_Power.logR · · a n beta) (Weibull_Power.life_func a n) F C use groups hF hC hG ?_ ?_ ?_ _ ?_ ?_ ?_ ?_ ?_ ?_
  · intro t S1
    simp only [Weibull_Power.logf, baseLogf, LifeStress.life, weibull2P_logf]
  · intro t S1
    simp only [Weibull_Power.logR, baseLogR, LifeStress.life, weibull2P_logR]
  · intro S1
    simp only [Weibull_Power.life_func, LifeStress.life]
  · rfl
  · simp only [Weibull_Power.fit, List.length_map]; rfl
  · simp only [Weibull_Power.fit, List.length_map]; rfl
  · rfl
  · rfl
  · rintro u rfl; rfl

/-- **C76, Fit_Weibull_Power**. -/
theorem C76_Weibull_Power (a n beta : ℝ) (ha : 0 < a) (hbeta : 0 < beta) (SE : Option (List ℝ))
    (hSE : ∀ se, SE = some se → se.length = 3 ∧ ∀ s ∈ se, 0 ≤ s) (Z : ℝ) (hZ : 0 ≤ Z)
    (failures censored failure_stress right_censored_stress : List ℝ) (use : Option (ℝ)) (groups : List (ℝ)) :
    EnclosedBy [(.positive, a), (.real, n), (.positive, beta)]
      (Weibull_Power.fit a n beta SE Z failures censored failure_stress right_censored_stress use groups).bounds := by
  refine ciBounds_enclosed [(.positive, a), (.real, n), (.positive, beta)] ?_ SE hSE Z hZ
  simp only [List.forall_mem_cons, ParamKind.Ok, *]; simp

/-- **C59, Fit_Weibull_Dual_Exponential** (ALT_fitters.py:4142). -/
theorem C59_Weibull_Dual_Exponential (a b c beta : ℝ) (hc : 0 < c) (hbeta : 0 < beta) (SE : Option (List ℝ)) (Z : ℝ)
    (F C : List (ℝ × ℝ × ℝ)) (use : Option (ℝ × ℝ)) (groups : List (ℝ × ℝ))
    (hF : ∀ i ∈ F, 0 < i.1 ∧ 0 < i.2.1 ∧ 0 < i.2.2) (hC : ∀ i ∈ C, 0 < i.1 ∧ 0 < i.2.1 ∧ 0 < i.2.2)
    (hG : ∀ s ∈ groups, 0 < s.1 ∧ 0 < s.2) :
    IsALTFit (.weibull beta) 4 (fun s => (LifeStress.dualExponential a b c).life s.1 s.2) F C use groups
      (Weibull_Dual_Exponential.fit a b c beta SE Z (F.map Prod.fst) (C.map Prod.fst) (F.map fun i => i.2.1) (F.map fun i => i.2.2) (C.map fun i => i.2.1) (C.map fun i => i.2.2) use groups) := by
  refine isALTFit_dual (ls := .dualExponential a b c) (ld := .weibull beta) hc
    hbeta (Weibull_Dual_Exponential.logf · · · a b c beta)
    (Weibull_Dual_Exponential.logR · · · a b c beta) (Weibull_Dual_Exponential.life_func a b c) F C use groups hF hC hG ?_ ?_ ?_ _ ?_ ?_ ?_ ?_ ?_ ?_
  · intro t S1 S2
    simp only [Weibull_Dual_Exponential.logf, baseLogf, LifeStress.life, weibull2P_logf]
  · intro t S1 S2
    simp only [Weibull_Dual_Exponential.logR, baseLogR, LifeStress.life, weibull2P_logR]
  · intro S1 S2
    simp only [Weibull_Dual_Exponential.life_func, LifeStress.life]
  · rfl
  · simp only [Weibull_Dual_Exponential.fit, List.length_map]; rfl
  · simp only [Weibull_Dual_Exponential.fit, List.length_map]; rfl
  · rfl
  · rfl
  · rintro u rfl; rfl

/-- **C76, Fit_Weibull_Dual_Exponential**. -/
theorem C76_Weibull_Dual_Exponential (a b c beta : ℝ) (hc : 0 < c) (hbeta : 0 < beta) (SE : Option (List ℝ))
    (hSE : ∀ se, SE = some se → se.length = 4 ∧ ∀ s ∈ se, 0 ≤ s) (Z : ℝ) (hZ : 0 ≤ Z)
    (failures censored failure_stress_1 failure_stress_2 right_censored_stress_1 right_censored_stress_2 : List ℝ) (use : Option (ℝ × ℝ)) (groups : List (ℝ × ℝ)) :
    EnclosedBy [(.real, a), (.real, b), (.positive, c), (.positive, beta)]
      (Weibull_Dual_Exponential.fit a b c beta SE Z failures censored failure_stress_1 failure_stress_2 right_censored_stress_1 right_censored_stress_2 use groups).bounds := by
  refine ciBounds_enclosed [(.real, a), (.real, b), (.positive, c), (.positive, beta)] ?_ SE hSE Z hZ
  simp only [List.forall_mem_cons, ParamKind.Ok, *]; simp

/-- **C59, Fit_Weibull_Power_Exponential** (ALT_fitters.py:4663). -/
theorem C59_Weibull_Power_Exponential (a c n beta : ℝ) (hc : 0 < c) (hbeta : 0 < beta) (SE : Option (List ℝ)) (Z : ℝ)
    (F C : List (ℝ × ℝ × ℝ)) (use : Option (ℝ × ℝ)) (groups : List (ℝ × ℝ))
    (hF : ∀ i ∈ F, 0 < i.1 ∧ 0 < i.2.1 ∧ 0 < i.2.2) (hC : ∀ i ∈ C, 0 < i.1 ∧ 0 < i.2.1 ∧ 0 < i.2.2)
    (hG : ∀ s ∈ groups, 0 < s.1 ∧ 0 < s.2) :
    IsALTFit (.weibull beta) 4 (fun s => (LifeStress.powerExponential a c n).life s.1 s.2) F C use groups
      (Weibull_Power_Exponential.fit a c n beta SE Z (F.map Prod.fst) (C.map Prod.fst) (F.map fun i => i.2.1) (F.map fun i => i.2.2) (C.map fun i => i.2.1) (C.map fun i => i.2.2) use groups) := by
  refine isALTFit_dual (ls := .powerExponential a c n) (ld := .weibull beta) hc
    hbeta (Weibull_Power_Exponential.logf · · · a c n beta)
    (Weibull_Power_Exponential.logR · · · a c n beta) (Weibull_Power_Exponential.life_func a c n) F C use groups hF hC hG ?_ ?_ ?_ _ ?_ ?_ ?_ ?_ ?_ ?_
  · intro t S1 S2
    simp only [Weibull_Power_Exponential.logf, baseLogf, LifeStress.life, weibull2P_logf]
  · intro t S1 S2
    simp only [Weibull_Power_Exponential.logR, baseLogR, LifeStress.life, weibull2P_logR]
  · intro S1 S2
    simp only [Weibull_Power_Exponential.life_func, LifeStress.life]
  · rfl
  · simp only [Weibull_Power_Exponential.fit, List.length_map]; rfl
  · simp only [Weibull_Power_Exponential.fit, List.length_map]; rfl
  · rfl
  · rfl
  · rintro u rfl; rfl

/-- **C76, Fit_Weibull_Power_Exponential**. -/
theorem C76_Weibull_Power_Exponential (a c n beta : ℝ) (hc : 0 < c) (hbeta : 0 < beta) (SE : Option (List ℝ))
    (hSE : ∀ se, SE = some se → se.length = 4 ∧ ∀ s ∈ se, 0 ≤ s) (Z : ℝ) (hZ : 0 ≤ Z)
    (failures censored failure_stress_1 failure_stress_2 right_censored_stress_1 right_censored_stress_2 : List ℝ) (use : Option (ℝ × ℝ)) (groups : List (ℝ × ℝ)) :
    EnclosedBy [(.real, a), (.positive, c), (.real, n), (.positive, beta)]
      (Weibull_Power_Exponential.fit a c n beta SE Z failures censored failure_stress_1 failure_stress_2 right_censored_stress_1 right_censored_stress_2 use groups).bounds := by
  refine ciBounds_enclosed [(.real, a), (.positive, c), (.real, n), (.positive, beta)] ?_ SE hSE Z hZ
  simp only [List.forall_mem_cons, ParamKind.Ok, *]; simp

/-- **C59, Fit_Weibull_Dual_Power** (ALT_fitters.py:5183). -/
theorem C59_Weibull_Dual_Power (c m n beta : ℝ) (hc : 0 < c) (hbeta : 0 < beta) (SE : Option (List ℝ)) (Z : ℝ)
    (F C : List (ℝ × ℝ × ℝ)) (use : Option (ℝ × ℝ)) (groups : List (ℝ × ℝ))
    (hF : ∀ i ∈ F, 0 < i.1 ∧ 0 < i.2.1 ∧ 0 < i.2.2) (hC : ∀ i ∈ C, 0 < i.1 ∧ 0 < i.2.1 ∧ 0 < i.2.2)
    (hG : ∀ s ∈ groups, 0 < s.1 ∧ 0 < s.2) :
    IsALTFit (.weibull beta) 4 (fun s => (LifeStress.dualPower c m n).life s.1 s.2) F C use groups
      (Weibull_Dual_Power.fit c m n beta SE Z (F.map Prod.fst) (C.map Prod.fst) (F.map fun i => i.2.1) (F.map fun i => i.2.2) (C.map fun i => i.2.1) (C.map fun i => i.2.2) use groups) := by
  refine isALTFit_dual (ls := .dualPower c m n) (ld := .weibull beta) hc
    hbeta (Weibull_Dual_Power.logf · · · c m n beta)
    (Weibull_Dual_Power.logR · · · c m n beta) (Weibull_Dual_Power.life_func c m n) F C use groups hF hC hG ?_ ?_ ?_ _ ?_ ?_ ?_ ?_ ?_ ?_
  · intro t S1 S2
    simp only [Weibull_Dual_Power.logf, baseLogf, LifeStress.life, weibull2P_logf]
  · intro t S1 S2
    simp only [Weibull_Dual_Power.logR, baseLogR, LifeStress.life, weibull2P_logR]
  · intro S1 S2
    simp only [Weibull_Dual_Power.life_func, LifeStress.life]
  · rfl
  · simp only [Weibull_Dual_Power.fit, List.length_map]; rfl
  · simp only [Weibull_Dual_Power.fit, List.length_map]; rfl
  · rfl
  · rfl
  · rintro u rfl; rfl

/-- **C76, Fit_Weibull_Dual_Power**. -/
theorem C76_Weibull_Dual_Power (c m n beta : ℝ) (hc : 0 < c) (hbeta : 0 < beta) (SE : Option (List ℝ))
    (hSE : ∀ se, SE = some se → se.length = 4 ∧ ∀ s ∈ se, 0 ≤ s) (Z : ℝ) (hZ : 0 ≤ Z)
    (failures censored failure_stress_1 failure_stress_2 right_censored_stress_1 right_censored_stress_2 : List ℝ) (use : Option (ℝ × ℝ)) (groups : List (ℝ × ℝ)) :
    EnclosedBy [(.positive, c), (.real, m), (.real, n), (.positive, beta)]
      (Weibull_Dual_Power.fit c m n beta SE Z failures censored failure_stress_1 failure_stress_2 right_censored_stress_1 right_censored_stress_2 use groups).bounds := by
  refine ciBounds_enclosed [(.positive, c), (.real, m), (.real, n), (.positive, beta)] ?_ SE hSE Z hZ
  simp only [List.forall_mem_cons, ParamKind.Ok, *]; simp

/-- **C59, Fit_Lognormal_Exponential** (ALT_fitters.py:5702). -/
theorem C59_Lognormal_Exponential (a b sigma : ℝ) (hb : 0 < b) (hsigma : 0 < sigma) (SE : Option (List ℝ)) (Z : ℝ)
    (F C : List (ℝ × ℝ)) (use : Option (ℝ)) (groups : List (ℝ))
    (hF : ∀ i ∈ F, 0 < i.1 ∧ 0 < i.2) (hC : ∀ i ∈ C, 0 < i.1 ∧ 0 < i.2)
    (hG : ∀ s ∈ groups, 0 < s) :
    IsALTFit (.lognormal sigma) 3 (fun s => (LifeStress.exponential a b).life s 1) F C use groups
      (Lognormal_Exponential.fit a b sigma SE Z (F.map Prod.fst) (C.map Prod.fst) (F.map Prod.snd) (C.map Prod.snd) use groups) := by
  refine isALTFit_single (ls := .exponential a b) (ld := .lognormal sigma) hb
    hsigma (Lognormal_Exponential.logf · · a b sigma)
    (Lognormal_Exponential.logR · · a b sigma) (Lognormal_Exponential.life_func a b) F C use groups hF hC hG ?_ ?_ ?_ _ ?_ ?_ ?_ ?_ ?_ ?_
  · intro t S1
    simp only [Lognormal_Exponential.logf, baseLogf, LifeStress.life, lognormal_logf, sub_zero]
  · intro t S1
    simp only [Lognormal_Exponential.logR, baseLogR, LifeStress.life, lognormal_logR, sub_zero]
  · intro S1
    simp only [Lognormal_Exponential.life_func, LifeStress.life]
  · rfl
  · simp only [Lognormal_Exponential.fit, List.length_map]; rfl
  · simp only [Lognormal_Exponential.fit, List.length_map]; rfl
  · rfl
  · rfl
  · rintro u rfl; rfl

/-- **C76, Fit_Lognormal_Exponential**. -/
theorem C76_Lognormal_Exponential (a b sigma : ℝ) (hb : 0 < b) (hsigma : 0 < sigma) (SE : Option (List ℝ))
    (hSE : ∀ se, SE = some se → se.length = 3 ∧ ∀ s ∈ se, 0 ≤ s) (Z : ℝ) (hZ : 0 ≤ Z)
    (failures censored failure_stress right_censored_stress : List ℝ) (use : Option (ℝ)) (groups : List (ℝ)) :
    EnclosedBy [(.real, a), (.positive, b), (.positive, sigma)]
      (Lognormal_Exponential.fit a b sigma SE Z failures censored failure_stress right_censored_stress use groups).bounds := by
  refine ciBounds_enclosed [(.real, a), (.positive, b), (.positive, sigma)] ?_ SE hSE Z hZ
  simp only [List.forall_mem_cons, ParamKind.Ok, *]; simp

/-- **C59, Fit_Lognormal_Eyring** (ALT_fitters.py:6171). -/
theorem C59_Lognormal_Eyring (a c sigma : ℝ) (hsigma : 0 < sigma) (SE : Option (List ℝ)) (Z : ℝ)
    (F C : List (ℝ × ℝ)) (use : Option (ℝ)) (groups : List (ℝ))
    (hF : ∀ i ∈ F, 0 < i.1 ∧ 0 < i.2) (hC : ∀ i ∈ C, 0 < i.1 ∧ 0 < i.2)
    (hG : ∀ s ∈ groups, 0 < s) :
    IsALTFit (.lognormal sigma) 3 (fun s => (LifeStress.eyring a c).life s 1) F C use groups
      (Lognormal_Eyring.fit a c sigma SE Z (F.map Prod.fst) (C.map Prod.fst) (F.map Prod.snd) (C.map Prod.snd) use groups) := by
  refine isALTFit_single (ls := .eyring a c) (ld := .lognormal sigma) trivial
    hsigma (Lognormal_Eyring.logf · · a c sigma)
    (Lognormal_Eyring.logR · · a c sigma) (Lognormal_Eyring.life_func a c) F C use groups hF hC hG ?_ ?_ ?_ _ ?_ ?_ ?_ ?_ ?_ ?_
  · intro t S1
    simp only [Lognormal_Eyring.logf, baseLogf, LifeStress.life, lognormal_logf, sub_zero, eyring_life_eq]
  · intro t S1
    simp only [Lognormal_Eyring.logR, baseLogR, LifeStress.life, lognormal_logR, sub_zero, eyring_life_eq]
  · intro S1
    simp only [Lognormal_Eyring.life_func, LifeStress.life, eyring_life_eq]
  · rfl
  · simp only [Lognormal_Eyring.fit, List.length_map]; rfl
  · simp only [Lognormal_Eyring.fit, List.length_map]; rfl
  · rfl
  · rfl
  · rintro u rfl; rfl

/-- **C76, Fit_Lognormal_Eyring**. -/
theorem C76_Lognormal_Eyring (a c sigma : ℝ) (hsigma : 0 < sigma) (SE : Option (List ℝ))
    (hSE : ∀ se, SE = some se → se.length = 3 ∧ ∀ s ∈ se, 0 ≤ s) (Z : ℝ) (hZ : 0 ≤ Z)
    (failures censored failure_stress right_censored_stress : List ℝ) (use : Option (ℝ)) (groups : List (ℝ)) :
    EnclosedBy [(.real, a), (.real, c), (.positive, sigma)]
      (Lognormal_Eyring.fit a c sigma SE Z failures censored failure_stress right_censored_stress use groups).bounds := by
  refine ciBounds_enclosed [(.real, a), (.real, c), (.positive, sigma)] ?_ SE hSE Z hZ
  simp only [List.forall_mem_cons, ParamKind.Ok, *]; simp

/-- **C59, Fit_Lognormal_Power** (ALT_fitters.py:6628). -/
theorem C59_Lognormal_Power (a n sigma : ℝ) (ha : 0 < a) (hsigma : 0 < sigma) (SE : Option (List ℝ)) (Z : ℝ)
    (F C : List (ℝ × ℝ)) (use : Option (ℝ)) (groups : List (ℝ))
    (hF : ∀ i ∈ F, 0 < i.1 ∧ 0 < i.2) (hC : ∀ i ∈ C, 0 < i.1 ∧ 0 < i.2)
    (hG : ∀ s ∈ groups, 0 < s) :
    IsALTFit (.lognormal sigma) 3 (fun s => (LifeStress.power a n).life s 1) F C use groups
      (Lognormal_Power.fit a n sigma SE Z (F.map Prod.fst) (C.map Prod.fst) (F.map Prod.snd) (C.map Prod.snd) use groups) := by
  refine isALTFit_single (ls := .power a n) (ld := .lognormal sigma) ha
    hsigma (Lognormal_Power.logf · · a n sigma)
    (Lognormal_Power.logR · · a n sigma) (Lognormal_Power.life_func a n) F C use groups hF hC hG ?_ ?_ ?_ _ ?_ ?_ ?_ ?_ ?_ ?_
  · intro t S1
    simp only [Lognormal_Power.logf, baseLogf, LifeStress.life, lognormal_logf, sub_zero]
  · intro t S1
    simp only [Lognormal_Power.logR, baseLogR, LifeStress.life, lognormal_logR, sub_zero]
  · intro S1
    simp only [Lognormal_Power.life_func, LifeStress.life]
  · rfl
  · simp only [Lognormal_Power.fit, List.length_map]; rfl
  · simp only [Lognormal_Power.fit, List.length_map]; rfl
  · rfl
  · rfl
  · rintro u rfl; rfl

/-- **C76, Fit_Lognormal_Power**. -/
theorem C76_Lognormal_Power (a n sigma : ℝ) (ha : 0 < a) (hsigma : 0 < sigma) (SE : Option (List ℝ))
    (hSE : ∀ se, SE = some se → se.length = 3 ∧ ∀ s ∈ se, 0 ≤ s) (Z : ℝ) (hZ : 0 ≤ Z)
    (failures censored failure_stress right_censored_stress : List ℝ) (use : Option (ℝ)) (groups : List (ℝ)) :
    EnclosedBy [(.positive, a), (.real, n), (.positive, sigma)]
      (Lognormal_Power.fit a n sigma SE Z failures censored failure_stress right_censored_stress use groups).bounds := by
  refine ciBounds_enclosed [(.positive, a), (.real, n), (.positive, sigma)] ?_ SE hSE Z hZ
  simp only [List.forall_mem_cons, ParamKind.Ok, *]; simp

/-- **C59, Fit_Lognormal_Dual_Exponential** (ALT_fitters.py:7082). -/
theorem C59_Lognormal_Dual_Exponential (a b c sigma : ℝ) (hc : 0 < c) (hsigma : 0 < sigma) (SE : Option (List ℝ)) (Z : ℝ)
    (F C : List (ℝ × ℝ × ℝ)) (use : Option (ℝ × ℝ)) (groups : List (ℝ × ℝ))
    (hF : ∀ i ∈ F, 0 < i.1 ∧ 0 < i.2.1 ∧ 0 < i.2.2) (hC : ∀ i ∈ C, 0 < i.1 ∧ 0 < i.2.1 ∧ 0 < i.2.2)
    (hG : ∀ s ∈ groups, 0 < s.1 ∧ 0 < s.2) :
    IsALTFit (.lognormal sigma) 4 (fun s => (LifeStress.dualExponential a b c).life s.1 s.2) F C use groups
      (Lognormal_Dual_Exponential.fit a b c sigma SE Z (F.map Prod.fst) (C.map Prod.fst) (F.map fun i => i.2.1) (F.map fun i => i.2.2) (C.map fun i => i.2.1) (C.map fun i => i.2.2) use groups) := by
  refine isALTFit_dual (ls := .dualExponential a b c) (ld := .lognormal sigma) hc
    hsigma (Lognormal_Dual_Exponential.logf · · · a b c sigma)
    (Lognormal_Dual_Exponential.logR · · · a b c sigma) (Lognormal_Dual_Exponential.life_func a b c) F C use groups hF hC hG ?_ ?_ ?_ _ ?_ ?_ ?_ ?_ ?_ ?_
  · intro t S1 S2
    simp only [Lognormal_Dual_Exponential.logf, baseLogf, LifeStress.life, lognormal_logf, sub_zero]
  · intro t S1 S2
    simp only [Lognormal_Dual_Exponential.logR, baseLogR, LifeStress.life, lognormal_logR, sub_zero]
  · intro S1 S2
    simp only [Lognormal_Dual_Exponential.life_func, LifeStress.life]
  · rfl
  · simp only [Lognormal_Dual_Exponential.fit, List.length_map]; rfl
  · simp only [Lognormal_Dual_Exponential.fit, List.length_map]; rfl
  · rfl
  · rfl
  · rintro u rfl; rfl

/-- **C76, Fit_Lognormal_Dual_Exponential**. -/
theorem C76_Lognormal_Dual_Exponential (a b c sigma : ℝ) (hc : 0 < c) (hsigma : 0 < sigma) (SE : Option (List ℝ))
    (hSE : ∀ se, SE = some se → se.length = 4 ∧ ∀ s ∈ se, 0 ≤ s) (Z : ℝ) (hZ : 0 ≤ Z)
    (failures censored failure_stress_1 failure_stress_2 right_censored_stress_1 right_censored_stress_2 : List ℝ) (use : Option (ℝ × ℝ)) (groups : List (ℝ × ℝ)) :
    EnclosedBy [(.real, a), (.real, b), (.positive, c), (.positive, sigma)]
      (Lognormal_Dual_Exponential.fit a b c sigma SE Z failures censored failure_stress_1 failure_stress_2 right_censored_stress_1 right_censored_stress_2 use groups).bounds := by
  refine ciBounds_enclosed [(.real, a), (.real, b), (.positive, c), (.positive, sigma)] ?_ SE hSE Z hZ
  simp only [List.forall_mem_cons, ParamKind.Ok, *]; simp

/-- **C59, Fit_Lognormal_Power_Exponential** (ALT_fitters.py:7604). -/
theorem C59_Lognormal_Power_Exponential (a c n sigma : ℝ) (hc : 0 < c) (hsigma : 0 < sigma) (SE : Option (List ℝ)) (Z : ℝ)
    (F C : List (ℝ × ℝ × ℝ)) (use : Option (ℝ × ℝ)) (groups : List (ℝ × ℝ))
    (hF : ∀ i ∈ F, 0 < i.1 ∧ 0 < i.2.1 ∧ 0 < i.2.2) (hC : ∀ i ∈ C, 0 < i.1 ∧ 0 < i.2.1 ∧ 0 < i.2.2)
    (hG : ∀ s ∈ groups, 0 < s.1 ∧ 0 < s.2) :
    IsALTFit (.lognormal sigma) 4 (fun s => (LifeStress.powerExponential a c n).life s.1 s.2) F C use groups
      (Lognormal_Power_Exponential.fit a c n sigma SE Z (F.map Prod.fst) (C.map Prod.fst) (F.map fun i => i.2.1) (F.map fun i => i.2.2) (C.map fun i => i.2.1) (C.map fun i => i.2.2) use groups) := by
  refine isALTFit_dual (ls := .powerExponential a c n) (ld := .lognormal sigma) hc
    hsigma (Lognormal_Power_Exponential.logf · · · a c n sigma)
    (Lognormal_Power_Exponential.logR · · · a c n sigma) (Lognormal_Power_Exponential.life_func a c n) F C use groups hF hC hG ?_ ?_ ?_ _ ?_ ?_ ?_ ?_ ?_ ?_
  · intro t S1 S2
    simp only [Lognormal_Power_Exponential.logf, baseLogf, LifeStress.life, lognormal_logf, sub_zero]
  · intro t S1 S2
    simp only [Lognormal_Power_Exponential.logR, baseLogR, LifeStress.life, lognormal_logR, sub_zero]
  · intro S1 S2
    simp only [Lognormal_Power_Exponential.life_func, LifeStress.life]
  · rfl
  · simp only [Lognormal_Power_Exponential.fit, List.length_map]; rfl
  · simp only [Lognormal_Power_Exponential.fit, List.length_map]; rfl
  · rfl
  · rfl
  · rintro u rfl; rfl

/-- **C76, Fit_Lognormal_Power_Exponential**. -/
theorem C76_Lognormal_Power_Exponential (a c n sigma : ℝ) (hc : 0 < c) (hsigma : 0 < sigma) (SE : Option (List ℝ))
    (hSE : ∀ se, SE = some se → se.length = 4 ∧ ∀ s ∈ se, 0 ≤ s) (Z : ℝ) (hZ : 0 ≤ Z)
    (failures censored failure_stress_1 failure_stress_2 right_censored_stress_1 right_censored_stress_2 : List ℝ) (use : Option (ℝ × ℝ)) (groups : List (ℝ × ℝ)) :
    EnclosedBy [(.real, a), (.positive, c), (.real, n), (.positive, sigma)]
      (Lognormal_Power_Exponential.fit a c n sigma SE Z failures censored failure_stress_1 failure_stress_2 right_censored_stress_1 right_censored_stress_2 use groups).bounds := by
  refine ciBounds_enclosed [(.real, a), (.positive, c), (.real, n), (.positive, sigma)] ?_ SE hSE Z hZ
  simp only [List.forall_mem_cons, ParamKind.Ok, *]; simp

/-- **C59, Fit_Lognormal_Dual_Power** (ALT_fitters.py:8127). -/
theorem C59_Lognormal_Dual_Power (c m n sigma : ℝ) (hc : 0 < c) (hsigma : 0 < sigma) (SE : Option (List ℝ)) (Z : ℝ)
    (F C : List (ℝ × ℝ × ℝ)) (use : Option (ℝ × ℝ)) (groups : List (ℝ × ℝ))
    (hF : ∀ i ∈ F, 0 < i.1 ∧ 0 < i.2.1 ∧ 0 < i.2.2) (hC : ∀ i ∈ C, 0 < i.1 ∧ 0 < i.2.1 ∧ 0 < i.2.2)
    (hG : ∀ s ∈ groups, 0 < s.1 ∧ 0 < s.2) :
    IsALTFit (.lognormal sigma) 4 (fun s => (LifeStress.dualPower c m n).life s.1 s.2) F C use groups
      (Lognormal_Dual_Power.fit c m n sigma SE Z (F.map Prod.fst) (C.map Prod.fst) (F.map fun i => i.2.1) (F.map fun i => i.2.2) (C.map fun i => i.2.1) (C.map fun i => i.2.2) use groups) := by
  refine isALTFit_dual (ls := .dualPower c m n) (ld := .lognormal sigma) hc
    hsigma (Lognormal_Dual_Power.logf · · · c m n sigma)
    (Lognormal_Dual_Power.logR · · · c m n sigma) (Lognormal_Dual_Power.life_func c m n) F C use groups hF hC hG ?_ ?_ ?_ _ ?_ ?_ ?_ ?_ ?_ ?_
  · intro t S1 S2
    simp only [Lognormal_Dual_Power.logf, baseLogf, LifeStress.life, lognormal_logf, sub_zero]
  · intro t S1 S2
    simp only [Lognormal_Dual_Power.logR, baseLogR, LifeStress.life, lognormal_logR, sub_zero]
  · intro S1 S2
    simp only [Lognormal_Dual_Power.life_func, LifeStress.life]
  · rfl
  · simp only [Lognormal_Dual_Power.fit, List.length_map]; rfl
  · simp only [Lognormal_Dual_Power.fit, List.length_map]; rfl
  · rfl
  · rfl
  · rintro u rfl; rfl

/-- **C76, Fit_Lognormal_Dual_Power**. -/
theorem C76_Lognormal_Dual_Power (c m n sigma : ℝ) (hc : 0 < c) (hsigma : 0 < sigma) (SE : Option (List ℝ))
    (hSE : ∀ se, SE = some se → se.length = 4 ∧ ∀ s ∈ se, 0 ≤ s) (Z : ℝ) (hZ : 0 ≤ Z)
    (failures censored failure_stress_1 failure_stress_2 right_censored_stress_1 right_censored_stress_2 : List ℝ) (use : Option (ℝ × ℝ)) (groups : List (ℝ × ℝ)) :
    EnclosedBy [(.positive, c), (.real, m), (.real, n), (.positive, sigma)]
      (Lognormal_Dual_Power.fit c m n sigma SE Z failures censored failure_stress_1 failure_stress_2 right_censored_stress_1 right_censored_stress_2 use groups).bounds := by
  refine ciBounds_enclosed [(.positive, c), (.real, m), (.real, n), (.positive, sigma)] ?_ SE hSE Z hZ
  simp only [List.forall_mem_cons, ParamKind.Ok, *]; simp

/-- **C59, Fit_Normal_Exponential** (ALT_fitters.py:8649). -/
theorem C59_Normal_Exponential (a b sigma : ℝ) (hb : 0 < b) (hsigma : 0 < sigma) (SE : Option (List ℝ)) (Z : ℝ)
    (F C : List (ℝ × ℝ)) (use : Option (ℝ)) (groups : List (ℝ))
    (hF : ∀ i ∈ F, 0 < i.1 ∧ 0 < i.2) (hC : ∀ i ∈ C, 0 < i.1 ∧ 0 < i.2)
    (hG : ∀ s ∈ groups, 0 < s) :
    IsALTFit (.normal sigma) 3 (fun s => (LifeStress.exponential a b).life s 1) F C use groups
      (Normal_Exponential.fit a b sigma SE Z (F.map Prod.fst) (C.map Prod.fst) (F.map Prod.snd) (C.map Prod.snd) use groups) := by
  refine isALTFit_single (ls := .exponential a b) (ld := .normal sigma) hb
    hsigma (Normal_Exponential.logf · · a b sigma)
    (Normal_Exponential.logR · · a b sigma) (Normal_Exponential.life_func a b) F C use groups hF hC hG ?_ ?_ ?_ _ ?_ ?_ ?_ ?_ ?_ ?_
  · intro t S1
    simp only [Normal_Exponential.logf, baseLogf, LifeStress.life, normal2P_logf]
  · intro t S1
    simp only [Normal_Exponential.logR, baseLogR, LifeStress.life, normal2P_logR]
  · intro S1
    simp only [Normal_Exponential.life_func, LifeStress.life]
  · rfl
  · simp only [Normal_Exponential.fit, List.length_map]; rfl
  · simp only [Normal_Exponential.fit, List.length_map]; rfl
  · rfl
  · rfl
  · rintro u rfl; rfl

/-- **C76, Fit_Normal_Exponential**. -/
theorem C76_Normal_Exponential (a b sigma : ℝ) (hb : 0 < b) (hsigma : 0 < sigma) (SE : Option (List ℝ))
    (hSE : ∀ se, SE = some se → se.length = 3 ∧ ∀ s ∈ se, 0 ≤ s) (Z : ℝ) (hZ : 0 ≤ Z)
    (failures censored failure_stress right_censored_stress : List ℝ) (use : Option (ℝ)) (groups : List (ℝ)) :
    EnclosedBy [(.real, a), (.positive, b), (.positive, sigma)]
      (Normal_Exponential.fit a b sigma SE Z failures censored failure_stress right_censored_stress use groups).bounds := by
  refine ciBounds_enclosed [(.real, a), (.positive, b), (.positive, sigma)] ?_ SE hSE Z hZ
  simp only [List.forall_mem_cons, ParamKind.Ok, *]; simp

/-- **C59, Fit_Normal_Eyring** (ALT_fitters.py:9113). -/
theorem C59_Normal_Eyring (a c sigma : ℝ) (hsigma : 0 < sigma) (SE : Option (List ℝ)) (Z : ℝ)
    (F C : List (ℝ × ℝ)) (use : Option (ℝ)) (groups : List (ℝ))
    (hF : ∀ i ∈ F, 0 < i.1 ∧ 0 < i.2) (hC : ∀ i ∈ C, 0 < i.1 ∧ 0 < i.2)
    (hG : ∀ s ∈ groups, 0 < s) :
    IsALTFit (.normal sigma) 3 (fun s => (LifeStress.eyring a c).life s 1) F C use groups
      (Normal_Eyring.fit a c sigma SE Z (F.map Prod.fst) (C.map Prod.fst) (F.map Prod.snd) (C.map Prod.snd) use groups) := by
  refine isALTFit_single (ls := .eyring a c) (ld := .normal sigma) trivial
    hsigma (Normal_Eyring.logf · · a c sigma)
    (Normal_Eyring.logR · · a c sigma) (Normal_Eyring.life_func a c) F C use groups hF hC hG ?_ ?_ ?_ _ ?_ ?_ ?_ ?_ ?_ ?_
  · intro t S1
    simp only [Normal_Eyring.logf, baseLogf, LifeStress.life, normal2P_logf, eyring_life_eq]
  · intro t S1
    simp only [Normal_Eyring.logR, baseLogR, LifeStress.life, normal2P_logR, eyring_life_eq]
  · intro S1
    simp only [Normal_Eyring.life_func, LifeStress.life, eyring_life_eq]
  · rfl
  · simp only [Normal_Eyring.fit, List.length_map]; rfl
  · simp only [Normal_Eyring.fit, List.length_map]; rfl
  · rfl
  · rfl
  · rintro u rfl; rfl

/-- **C76, Fit_Normal_Eyring**. -/
theorem C76_Normal_Eyring (a c sigma : ℝ) (hsigma : 0 < sigma) (SE : Option (List ℝ))
    (hSE : ∀ se, SE = some se → se.length = 3 ∧ ∀ s ∈ se, 0 ≤ s) (Z : ℝ) (hZ : 0 ≤ Z)
    (failures censored failure_stress right_censored_stress : List ℝ) (use : Option (ℝ)) (groups : List (ℝ)) :
    EnclosedBy [(.real, a), (.real, c), (.positive, sigma)]
      (Normal_Eyring.fit a c sigma SE Z failures censored failure_stress right_censored_stress use groups).bounds := by
  refine ciBounds_enclosed [(.real, a), (.real, c), (.positive, sigma)] ?_ SE hSE Z hZ
  simp only [List.forall_mem_cons, ParamKind.Ok, *]; simp

/-- **C59, Fit_Normal_Power** (ALT_fitters.py:9565). -/
theorem C59_Normal_Power (a n sigma : ℝ) (ha : 0 < a) (hsigma : 0 < sigma) (SE : Option (List ℝ)) (Z : ℝ)
    (F C : List (ℝ × ℝ)) (use : Option (ℝ)) (groups : List (ℝ))
    (hF : ∀ i ∈ F, 0 < i.1 ∧ 0 < i.2) (hC : ∀ i ∈ C, 0 < i.1 ∧ 0 < i.2)
    (hG : ∀ s ∈ groups, 0 < s) :
    IsALTFit (.normal sigma) 3 (fun s => (LifeStress.power a n).life s 1) F C use groups
      (Normal_Power.fit a n sigma SE Z (F.map Prod.fst) (C.map Prod.fst) (F.map Prod.snd) (C.map Prod.snd) use groups) := by
  refine isALTFit_single (ls := .power a n) (ld := .normal sigma) ha
    hsigma (Normal_Power.logf · · a n sigma)
    (Normal_Power.logR · · a n sigma) (Normal_Power.life_func a n) F C use groups hF hC hG ?_ ?_ ?_ _ ?_ ?_ ?_ ?_ ?_ ?_
  · intro t S1
    simp only [Normal_Power.logf, baseLogf, LifeStress.life, normal2P_logf]
  · intro t S1
    simp only [Normal_Power.logR, baseLogR, LifeStress.life, normal2P_logR]
  · intro S1
    simp only [Normal_Power.life_func, LifeStress.life]
  · rfl
  · simp only [Normal_Power.fit, List.length_map]; rfl
  · simp only [Normal_Power.fit, List.length_map]; rfl
  · rfl
  · rfl
  · rintro u rfl; rfl

/-- **C76, Fit_Normal_Power**. -/
theorem C76_Normal_Power (a n sigma : ℝ) (ha : 0 < a) (hsigma : 0 < sigma) (SE : Option (List ℝ))
    (hSE : ∀ se, SE = some se → se.length = 3 ∧ ∀ s ∈ se, 0 ≤ s) (Z : ℝ) (hZ : 0 ≤ Z)
    (failures censored failure_stress right_censored_stress : List ℝ) (use : Option (ℝ)) (groups : List (ℝ)) :
    EnclosedBy [(.positive, a), (.real, n), (.positive, sigma)]
      (Normal_Power.fit a n sigma SE Z failures censored failure_stress right_censored_stress use groups).bounds := by
  refine ciBounds_enclosed [(.positive, a), (.real, n), (.positive, sigma)] ?_ SE hSE Z hZ
  simp only [List.forall_mem_cons, ParamKind.Ok, *]; simp

/-- **C59, Fit_Normal_Dual_Exponential** (ALT_fitters.py:10014). -/
theorem C59_Normal_Dual_Exponential (a b c sigma : ℝ) (hc : 0 < c) (hsigma : 0 < sigma) (SE : Option (List ℝ)) (Z : ℝ)
    (F C : List (ℝ × ℝ × ℝ)) (use : Option (ℝ × ℝ)) (groups : List (ℝ × ℝ))
    (hF : ∀ i ∈ F, 0 < i.1 ∧ 0 < i.2.1 ∧ 0 < i.2.2) (hC : ∀ i ∈ C, 0 < i.1 ∧ 0 < i.2.1 ∧ 0 < i.2.2)
    (hG : ∀ s ∈ groups, 0 < s.1 ∧ 0 < s.2) :
    IsALTFit (.normal sigma) 4 (fun s => (LifeStress.dualExponential a b c).life s.1 s.2) F C use groups
      (Normal_Dual_Exponential.fit a b c sigma SE Z (F.map Prod.fst) (C.map Prod.fst) (F.map fun i => i.2.1) (F.map fun i => i.2.2) (C.map fun i => i.2.1) (C.map fun i => i.2.2) use groups) := by
  refine isALTFit_dual (ls := .dualExponential a b c) (ld := .normal sigma) hc
    hsigma (Normal_Dual_Exponential.logf · · · a b c sigma)
    (Normal_Dual_Exponential.logR · · · a b c sigma) (Normal_Dual_Exponential.life_func a b c) F C use groups hF hC hG ?_ ?_ ?_ _ ?_ ?_ ?_ ?_ ?_ ?_
  · intro t S1 S2
    simp only [Normal_Dual_Exponential.logf, baseLogf, LifeStress.life, normal2P_logf]
  · intro t S1 S2
    simp only [Normal_Dual_Exponential.logR, baseLogR, LifeStress.life, normal2P_logR]
  · intro S1 S2
    simp only [Normal_Dual_Exponential.life_func, LifeStress.life]
  · rfl
  · simp only [Normal_Dual_Exponential.fit, List.length_map]; rfl
  · simp only [Normal_Dual_Exponential.fit, List.length_map]; rfl
  · rfl
  · rfl
  · rintro u rfl; rfl

/-- **C76, Fit_Normal_Dual_Exponential**. -/
theorem C76_Normal_Dual_Exponential (a b c sigma : ℝ) (hc : 0 < c) (hsigma : 0 < sigma) (SE : Option (List ℝ))
    (hSE : ∀ se, SE = some se → se.length = 4 ∧ ∀ s ∈ se, 0 ≤ s) (Z : ℝ) (hZ : 0 ≤ Z)
    (failures censored failure_stress_1 failure_stress_2 right_censored_stress_1 right_censored_stress_2 : List ℝ) (use : Option (ℝ × ℝ)) (groups : List (ℝ × ℝ)) :
    EnclosedBy [(.real, a), (.real, b), (.positive, c), (.positive, sigma)]
      (Normal_Dual_Exponential.fit a b c sigma SE Z failures censored failure_stress_1 failure_stress_2 right_censored_stress_1 right_censored_stress_2 use groups).bounds := by
  refine ciBounds_enclosed [(.real, a), (.real, b), (.positive, c), (.positive, sigma)] ?_ SE hSE Z hZ
  simp only [List.forall_mem_cons, ParamKind.Ok, *]; simp

/-- **C59, Fit_Normal_Power_Exponential** (ALT_fitters.py:10535). -/
theorem C59_Normal_Power_Exponential (a c n sigma : ℝ) (hc : 0 < c) (hsigma : 0 < sigma) (SE : Option (List ℝ)) (Z : ℝ)
    (F C : List (ℝ × ℝ × ℝ)) (use : Option (ℝ × ℝ)) (groups : List (ℝ × ℝ))
    (hF : ∀ i ∈ F, 0 < i.1 ∧ 0 < i.2.1 ∧ 0 < i.2.2) (hC : ∀ i ∈ C, 0 < i.1 ∧ 0 < i.2.1 ∧ 0 < i.2.2)
    (hG : ∀ s ∈ groups, 0 < s.1 ∧ 0 < s.2) :
    IsALTFit (.normal sigma) 4 (fun s => (LifeStress.powerExponential a c n).life s.1 s.2) F C use groups
      (Normal_Power_Exponential.fit a c n sigma SE Z (F.map Prod.fst) (C.map Prod.fst) (F.map fun i => i.2.1) (F.map fun i => i.2.2) (C.map fun i => i.2.1) (C.map fun i => i.2.2) use groups) := by
  refine isALTFit_dual (ls := .powerExponential a c n) (ld := .normal sigma) hc
    hsigma (Normal_Power_Exponential.logf · · · a c n sigma)
    (Normal_Power_Exponential.logR · · · a c n sigma) (Normal_Power_Exponential.life_func a c n) F C use groups hF hC hG ?_ ?_ ?_ _ ?_ ?_ ?_ ?_ ?_ ?_
  · intro t S1 S2
    simp only [Normal_Power_Exponential.logf, baseLogf, LifeStress.life, normal2P_logf]
  · intro t S1 S2
    simp only [Normal_Power_Exponential.logR, baseLogR, LifeStress.life, normal2P_logR]
  · intro S1 S2
    simp only [Normal_Power_Exponential.life_func, LifeStress.life]
  · rfl
  · simp only [Normal_Power_Exponential.fit, List.length_map]; rfl
  · simp only [Normal_Power_Exponential.fit, List.length_map]; rfl
  · rfl
  · rfl
  · rintro u rfl; rfl

/-- **C76, Fit_Normal_Power_Exponential**. -/
theorem C76_Normal_Power_Exponential (a c n sigma : ℝ) (hc : 0 < c) (hsigma : 0 < sigma) (SE : Option (List ℝ))
    (hSE : ∀ se, SE = some se → se.length = 4 ∧ ∀ s ∈ se, 0 ≤ s) (Z : ℝ) (hZ : 0 ≤ Z)
    (failures censored failure_stress_1 failure_stress_2 right_censored_stress_1 right_censored_stress_2 : List ℝ) (use : Option (ℝ × ℝ)) (groups : List (ℝ × ℝ)) :
    EnclosedBy [(.real, a), (.positive, c), (.real, n), (.positive, sigma)]
      (Normal_Power_Exponential.fit a c n sigma SE Z failures censored failure_stress_1 failure_stress_2 right_censored_stress_1 right_censored_stress_2 use groups).bounds := by
  refine ciBounds_enclosed [(.real, a), (.positive, c), (.real, n), (.positive, sigma)] ?_ SE hSE Z hZ
  simp only [List.forall_mem_cons, ParamKind.Ok, *]; simp

/-- **C59, Fit_Normal_Dual_Power** (ALT_fitters.py:11057). -/
theorem C59_Normal_Dual_Power (c m n sigma : ℝ) (hc : 0 < c) (hsigma : 0 < sigma) (SE : Option (List ℝ)) (Z : ℝ)
    (F C : List (ℝ × ℝ × ℝ)) (use : Option (ℝ × ℝ)) (groups : List (ℝ × ℝ))
    (hF : ∀ i ∈ F, 0 < i.1 ∧ 0 < i.2.1 ∧ 0 < i.2.2) (hC : ∀ i ∈ C, 0 < i.1 ∧ 0 < i.2.1 ∧ 0 < i.2.2)
    (hG : ∀ s ∈ groups, 0 < s.1 ∧ 0 < s.2) :
    IsALTFit (.normal sigma) 4 (fun s => (LifeStress.dualPower c m n).life s.1 s.2) F C use groups
      (Normal_Dual_Power.fit c m n sigma SE Z (F.map Prod.fst) (C.map Prod.fst) (F.map fun i => i.2.1) (F.map fun i => i.2.2) (C.map fun i => i.2.1) (C.map fun i => i.2.2) use groups) := by
  refine isALTFit_dual (ls := .dualPower c m n) (ld := .normal sigma) hc
    hsigma (Normal_Dual_Power.logf · · · c m n sigma)
    (Normal_Dual_Power.logR · · · c m n sigma) (Normal_Dual_Power.life_func c m n) F C use groups hF hC hG ?_ ?_ ?_ _ ?_ ?_ ?_ ?_ ?_ ?_
  · intro t S1 S2
    simp only [Normal_Dual_Power.logf, baseLogf, LifeStress.life, normal2P_logf]
  · intro t S1 S2
    simp only [Normal_Dual_Power.logR, baseLogR, LifeStress.life, normal2P_logR]
  · intro S1 S2
    simp only [Normal_Dual_Power.life_func, LifeStress.life]
  · rfl
  · simp only [Normal_Dual_Power.fit, List.length_map]; rfl
  · simp only [Normal_Dual_Power.fit, List.length_map]; rfl
  · rfl
  · rfl
  · rintro u rfl; rfl

/-- **C76, Fit_Normal_Dual_Power**. -/
theorem C76_Normal_Dual_Power (c m n sigma : ℝ) (hc : 0 < c) (hsigma : 0 < sigma) (SE : Option (List ℝ))
    (hSE : ∀ se, SE = some se → se.length = 4 ∧ ∀ s ∈ se, 0 ≤ s) (Z : ℝ) (hZ : 0 ≤ Z)
    (failures censored failure_stress_1 failure_stress_2 right_censored_stress_1 right_censored_stress_2 : List ℝ) (use : Option (ℝ × ℝ)) (groups : List (ℝ × ℝ)) :
    EnclosedBy [(.positive, c), (.real, m), (.real, n), (.positive, sigma)]
      (Normal_Dual_Power.fit c m n sigma SE Z failures censored failure_stress_1 failure_stress_2 right_censored_stress_1 right_censored_stress_2 use groups).bounds := by
  refine ciBounds_enclosed [(.positive, c), (.real, m), (.real, n), (.positive, sigma)] ?_ SE hSE Z hZ
  simp only [List.forall_mem_cons, ParamKind.Ok, *]; simp

/-- **C59, Fit_Exponential_Exponential** (ALT_fitters.py:11572). -/
theorem C59_Exponential_Exponential (a b : ℝ) (hb : 0 < b) (SE : Option (List ℝ)) (Z : ℝ)
    (F C : List (ℝ × ℝ)) (use : Option (ℝ)) (groups : List (ℝ))
    (hF : ∀ i ∈ F, 0 < i.1 ∧ 0 < i.2) (hC : ∀ i ∈ C, 0 < i.1 ∧ 0 < i.2)
    (hG : ∀ s ∈ groups, 0 < s) :
    IsALTFit (.exponential) 2 (fun s => (LifeStress.exponential a b).life s 1) F C use groups
      (Exponential_Exponential.fit a b SE Z (F.map Prod.fst) (C.map Prod.fst) (F.map Prod.snd) (C.map Prod.snd) use groups) := by
  refine isALTFit_single (ls := .exponential a b) (ld := .exponential) hb
    trivial (Exponential_Exponential.logf · · a b)
    (Exponential_Exponential.logR · · a b) (Exponential_Exponential.life_func a b) F C use groups hF hC hG ?_ ?_ ?_ _ ?_ ?_ ?_ ?_ ?_ ?_
  · intro t S1
    simp only [Exponential_Exponential.logf, baseLogf, LifeStress.life, exponential1P_logf]
  · intro t S1
    simp only [Exponential_Exponential.logR, baseLogR, LifeStress.life, exponential1P_logR]
  · intro S1
    simp only [Exponential_Exponential.life_func, LifeStress.life]
  · rfl
  · simp only [Exponential_Exponential.fit, List.length_map]; rfl
  · simp only [Exponential_Exponential.fit, List.length_map]; rfl
  · rfl
  · rfl
  · rintro u rfl; rfl

/-- **C76, Fit_Exponential_Exponential**. -/
theorem C76_Exponential_Exponential (a b : ℝ) (hb : 0 < b) (SE : Option (List ℝ))
    (hSE : ∀ se, SE = some se → se.length = 2 ∧ ∀ s ∈ se, 0 ≤ s) (Z : ℝ) (hZ : 0 ≤ Z)
    (failures censored failure_stress right_censored_stress : List ℝ) (use : Option (ℝ)) (groups : List (ℝ)) :
    EnclosedBy [(.real, a), (.positive, b)]
      (Exponential_Exponential.fit a b SE Z failures censored failure_stress right_censored_stress use groups).bounds := by
  refine ciBounds_enclosed [(.real, a), (.positive, b)] ?_ SE hSE Z hZ
  simp only [List.forall_mem_cons, ParamKind.Ok, *]; simp

/-- **C59, Fit_Exponential_Eyring** (ALT_fitters.py:12008). -/
theorem C59_Exponential_Eyring (a c : ℝ)  (SE : Option (List ℝ)) (Z : ℝ)
    (F C : List (ℝ × ℝ)) (use : Option (ℝ)) (groups : List (ℝ))
    (hF : ∀ i ∈ F, 0 < i.1 ∧ 0 < i.2) (hC : ∀ i ∈ C, 0 < i.1 ∧ 0 < i.2)
    (hG : ∀ s ∈ groups, 0 < s) :
    IsALTFit (.exponential) 2 (fun s => (LifeStress.eyring a c).life s 1) F C use groups
      (Exponential_Eyring.fit a c SE Z (F.map Prod.fst) (C.map Prod.fst) (F.map Prod.snd) (C.map Prod.snd) use groups) := by
  refine isALTFit_single (ls := .eyring a c) (ld := .exponential) trivial
    trivial (Exponential_Eyring.logf · · a c)
    (Exponential_Eyring.logR · · a c) (Exponential_Eyring.life_func a c) F C use groups hF hC hG ?_ ?_ ?_ _ ?_ ?_ ?_ ?_ ?_ ?_
  · intro t S1
    simp only [Exponential_Eyring.logf, baseLogf, LifeStress.life, exponential1P_logf, eyring_life_eq]
  · intro t S1
    simp only [Exponential_Eyring.logR, baseLogR, LifeStress.life, exponential1P_logR, eyring_life_eq]
  · intro S1
    simp only [Exponential_Eyring.life_func, LifeStress.life, eyring_life_eq]
  · rfl
  · simp only [Exponential_Eyring.fit, List.length_map]; rfl
  · simp only [Exponential_Eyring.fit, List.length_map]; rfl
  · rfl
  · rfl
  · rintro u rfl; rfl

/-- **C76, Fit_Exponential_Eyring**. -/
theorem C76_Exponential_Eyring (a c : ℝ)  (SE : Option (List ℝ))
    (hSE : ∀ se, SE = some se → se.length = 2 ∧ ∀ s ∈ se, 0 ≤ s) (Z : ℝ) (hZ : 0 ≤ Z)
    (failures censored failure_stress right_censored_stress : List ℝ) (use : Option (ℝ)) (groups : List (ℝ)) :
    EnclosedBy [(.real, a), (.real, c)]
      (Exponential_Eyring.fit a c SE Z failures censored failure_stress right_censored_stress use groups).bounds := by
  refine ciBounds_enclosed [(.real, a), (.real, c)] ?_ SE hSE Z hZ
  simp only [List.forall_mem_cons, ParamKind.Ok]; simp

/-- **C59, Fit_Exponential_Power** (ALT_fitters.py:12434). -/
theorem C59_Exponential_Power (a n : ℝ) (ha : 0 < a) (SE : Option (List ℝ)) (Z : ℝ)
    (F C : List (ℝ × ℝ)) (use : Option (ℝ)) (groups : List (ℝ))
    (hF : ∀ i ∈ F, 0 < i.1 ∧ 0 < i.2) (hC : ∀ i ∈ C, 0 < i.1 ∧ 0 < i.2)
    (hG : ∀ s ∈ groups, 0 < s) :
    IsALTFit (.exponential) 2 (fun s => (LifeStress.power a n).life s 1) F C use groups
      (Exponential_Power.fit a n SE Z (F.map Prod.fst) (C.map Prod.fst) (F.map Prod.snd) (C.map Prod.snd) use groups) := by
  refine isALTFit_single (ls := .power a n) (ld := .exponential) ha
    trivial (Exponential_Power.logf · · a n)
    (Exponential_Power.logR · · a n) (Exponential_Power.life_func a n) F C use groups hF hC hG ?_ ?_ ?_ _ ?_ ?_ ?_ ?_ ?_ ?_
  · intro t S1
    simp only [Exponential_Power.logf, baseLogf, LifeStress.life, exponential1P_logf]
  · intro t S1
    simp only [Exponential_Power.logR, baseLogR, LifeStress.life, exponential1P_logR]
  · intro S1
    simp only [Exponential_Power.life_func, LifeStress.life]
  · rfl
  · simp only [Exponential_Power.fit, List.length_map]; rfl
  · simp only [Exponential_Power.fit, List.length_map]; rfl
  · rfl
  · rfl
  · rintro u rfl; rfl

/-- **C76, Fit_Exponential_Power**. -/
theorem C76_Exponential_Power (a n : ℝ) (ha : 0 < a) (SE : Option (List ℝ))
    (hSE : ∀ se, SE = some se → se.length = 2 ∧ ∀ s ∈ se, 0 ≤ s) (Z : ℝ) (hZ : 0 ≤ Z)
    (failures censored failure_stress right_censored_stress : List ℝ) (use : Option (ℝ)) (groups : List (ℝ)) :
    EnclosedBy [(.positive, a), (.real, n)]
      (Exponential_Power.fit a n SE Z failures censored failure_stress right_censored_stress use groups).bounds := by
  refine ciBounds_enclosed [(.positive, a), (.real, n)] ?_ SE hSE Z hZ
  simp only [List.forall_mem_cons, ParamKind.Ok, *]; simp

/-- **C59, Fit_Exponential_Dual_Exponential** (ALT_fitters.py:12859). -/
theorem C59_Exponential_Dual_Exponential (a b c : ℝ) (hc : 0 < c) (SE : Option (List ℝ)) (Z : ℝ)
    (F C : List (ℝ × ℝ × ℝ)) (use : Option (ℝ × ℝ)) (groups : List (ℝ × ℝ))
    (hF : ∀ i ∈ F, 0 < i.1 ∧ 0 < i.2.1 ∧ 0 < i.2.2) (hC : ∀ i ∈ C, 0 < i.1 ∧ 0 < i.2.1 ∧ 0 < i.2.2)
    (hG : ∀ s ∈ groups, 0 < s.1 ∧ 0 < s.2) :
    IsALTFit (.exponential) 3 (fun s => (LifeStress.dualExponential a b c).life s.1 s.2) F C use groups
      (Exponential_Dual_Exponential.fit a b c SE Z (F.map Prod.fst) (C.map Prod.fst) (F.map fun i => i.2.1) (F.map fun i => i.2.2) (C.map fun i => i.2.1) (C.map fun i => i.2.2) use groups) := by
  refine isALTFit_dual (ls := .dualExponential a b c) (ld := .exponential) hc
    trivial (Exponential_Dual_Exponential.logf · · · a b c)
    (Exponential_Dual_Exponential.logR · · · a b c) (Exponential_Dual_Exponential.life_func a b c) F C use groups hF hC hG ?_ ?_ ?_ _ ?_ ?_ ?_ ?_ ?_ ?_
  · intro t S1 S2
    simp only [Exponential_Dual_Exponential.logf, baseLogf, LifeStress.life, exponential1P_logf]
  · intro t S1 S2
    simp only [Exponential_Dual_Exponential.logR, baseLogR, LifeStress.life, exponential1P_logR]
  · intro S1 S2
    simp only [Exponential_Dual_Exponential.life_func, LifeStress.life]
  · rfl
  · simp only [Exponential_Dual_Exponential.fit, List.length_map]; rfl
  · simp only [Exponential_Dual_Exponential.fit, List.length_map]; rfl
  · rfl
  · rfl
  · rintro u rfl; rfl

/-- **C76, Fit_Exponential_Dual_Exponential**. -/
theorem C76_Exponential_Dual_Exponential (a b c : ℝ) (hc : 0 < c) (SE : Option (List ℝ))
    (hSE : ∀ se, SE = some se → se.length = 3 ∧ ∀ s ∈ se, 0 ≤ s) (Z : ℝ) (hZ : 0 ≤ Z)
    (failures censored failure_stress_1 failure_stress_2 right_censored_stress_1 right_censored_stress_2 : List ℝ) (use : Option (ℝ × ℝ)) (groups : List (ℝ × ℝ)) :
    EnclosedBy [(.real, a), (.real, b), (.positive, c)]
      (Exponential_Dual_Exponential.fit a b c SE Z failures censored failure_stress_1 failure_stress_2 right_censored_stress_1 right_censored_stress_2 use groups).bounds := by
  refine ciBounds_enclosed [(.real, a), (.real, b), (.positive, c)] ?_ SE hSE Z hZ
  simp only [List.forall_mem_cons, ParamKind.Ok, *]; simp

/-- **C59, Fit_Exponential_Power_Exponential** (ALT_fitters.py:13357). -/
theorem C59_Exponential_Power_Exponential (a c n : ℝ) (hc : 0 < c) (SE : Option (List ℝ)) (Z : ℝ)
    (F C : List (ℝ × ℝ × ℝ)) (use : Option (ℝ × ℝ)) (groups : List (ℝ × ℝ))
    (hF : ∀ i ∈ F, 0 < i.1 ∧ 0 < i.2.1 ∧ 0 < i.2.2) (hC : ∀ i ∈ C, 0 < i.1 ∧ 0 < i.2.1 ∧ 0 < i.2.2)
    (hG : ∀ s ∈ groups, 0 < s.1 ∧ 0 < s.2) :
    IsALTFit (.exponential) 3 (fun s => (LifeStress.powerExponential a c n).life s.1 s.2) F C use groups
      (Exponential_Power_Exponential.fit a c n SE Z (F.map Prod.fst) (C.map Prod.fst) (F.map fun i => i.2.1) (F.map fun i => i.2.2) (C.map fun i => i.2.1) (C.map fun i => i.2.2) use groups) := by
  refine isALTFit_dual (ls := .powerExponential a c n) (ld := .exponential) hc
    trivial (Exponential_Power_Exponential.logf · · · a c n)
    (Exponential_Power_Exponential.logR · · · a c n) (Exponential_Power_Exponential.life_func a c n) F C use groups hF hC hG ?_ ?_ ?_ _ ?_ ?_ ?_ ?_ ?_ ?_
  · intro t S1 S2
    simp only [Exponential_Power_Exponential.logf, baseLogf, LifeStress.life, exponential1P_logf]
  · intro t S1 S2
    simp only [Exponential_Power_Exponential.logR, baseLogR, LifeStress.life, exponential1P_logR]
  · intro S1 S2
    simp only [Exponential_Power_Exponential.life_func, LifeStress.life]
  · rfl
  · simp only [Exponential_Power_Exponential.fit, List.length_map]; rfl
  · simp only [Exponential_Power_Exponential.fit, List.length_map]; rfl
  · rfl
  · rfl
  · rintro u rfl; rfl

/-- **C76, Fit_Exponential_Power_Exponential**. -/
theorem C76_Exponential_Power_Exponential (a c n : ℝ) (hc : 0 < c) (SE : Option (List ℝ))
    (hSE : ∀ se, SE = some se → se.length = 3 ∧ ∀ s ∈ se, 0 ≤ s) (Z : ℝ) (hZ : 0 ≤ Z)
    (failures censored failure_stress_1 failure_stress_2 right_censored_stress_1 right_censored_stress_2 : List ℝ) (use : Option (ℝ × ℝ)) (groups : List (ℝ × ℝ)) :
    EnclosedBy [(.real, a), (.positive, c), (.real, n)]
      (Exponential_Power_Exponential.fit a c n SE Z failures censored failure_stress_1 failure_stress_2 right_censored_stress_1 right_censored_stress_2 use groups).bounds := by
  refine ciBounds_enclosed [(.real, a), (.positive, c), (.real, n)] ?_ SE hSE Z hZ
  simp only [List.forall_mem_cons, ParamKind.Ok, *]; simp

/-- **C59, Fit_Exponential_Dual_Power** (ALT_fitters.py:13856). -/
theorem C59_Exponential_Dual_Power (c m n : ℝ) (hc : 0 < c) (SE : Option (List ℝ)) (Z : ℝ)
    (F C : List (ℝ × ℝ × ℝ)) (use : Option (ℝ × ℝ)) (groups : List (ℝ × ℝ))
    (hF : ∀ i ∈ F, 0 < i.1 ∧ 0 < i.2.1 ∧ 0 < i.2.2) (hC : ∀ i ∈ C, 0 < i.1 ∧ 0 < i.2.1 ∧ 0 < i.2.2)
    (hG : ∀ s ∈ groups, 0 < s.1 ∧ 0 < s.2) :
    IsALTFit (.exponential) 3 (fun s => (LifeStress.dualPower c m n).life s.1 s.2) F C use groups
      (Exponential_Dual_Power.fit c m n SE Z (F.map Prod.fst) (C.map Prod.fst) (F.map fun i => i.2.1) (F.map fun i => i.2.2) (C.map fun i => i.2.1) (C.map fun i => i.2.2) use groups) := by
  refine isALTFit_dual (ls := .dualPower c m n) (ld := .exponential) hc
    trivial (Exponential_Dual_Power.logf · · · c m n)
    (Exponential_Dual_Power.logR · · · c m n) (Exponential_Dual_Power.life_func c m n) F C use groups hF hC hG ?_ ?_ ?_ _ ?_ ?_ ?_ ?_ ?_ ?_
  · intro t S1 S2
    simp only [Exponential_Dual_Power.logf, baseLogf, LifeStress.life, exponential1P_logf]
  · intro t S1 S2
    simp only [Exponential_Dual_Power.logR, baseLogR, LifeStress.life, exponential1P_logR]
  · intro S1 S2
    simp only [Exponential_Dual_Power.life_func, LifeStress.life]
  · rfl
  · simp only [Exponential_Dual_Power.fit, List.length_map]; rfl
  · simp only [Exponential_Dual_Power.fit, List.length_map]; rfl
  · rfl
  · rfl
  · rintro u rfl; rfl

/-- **C76, Fit_Exponential_Dual_Power**. -/
theorem C76_Exponential_Dual_Power (c m n : ℝ) (hc : 0 < c) (SE : Option (List ℝ))
    (hSE : ∀ se, SE = some se → se.length = 3 ∧ ∀ s ∈ se, 0 ≤ s) (Z : ℝ) (hZ : 0 ≤ Z)
    (failures censored failure_stress_1 failure_stress_2 right_censored_stress_1 right_censored_stress_2 : List ℝ) (use : Option (ℝ × ℝ)) (groups : List (ℝ × ℝ)) :
    EnclosedBy [(.positive, c), (.real, m), (.real, n)]
      (Exponential_Dual_Power.fit c m n SE Z failures censored failure_stress_1 failure_stress_2 right_censored_stress_1 right_censored_stress_2 use groups).bounds := by
  refine ciBounds_enclosed [(.positive, c), (.real, m), (.real, n)] ?_ SE hSE Z hZ
  simp only [List.forall_mem_cons, ParamKind.Ok, *]; simp

/-! ## Concrete, non-trivial instances -/

/-- Weibull_Exponential (Arrhenius) on three failures and a censored unit at two temperatures, used at 300 K. -/
example : IsALTFit (.weibull 2) 3 (fun s => (LifeStress.exponential 3000 (1 / 50)).life s 1)
    [(500, 350), (620, 350), (150, 400)] [(200, 400)] (some 300) [350, 400]
    (Weibull_Exponential.fit 3000 (1 / 50) 2 none 1.96 [500, 620, 150] [200] [350, 350, 400] [400] (some 300)
      [350, 400]) := by
  have h := C59_Weibull_Exponential 3000 (1 / 50) 2 (by norm_num) (by norm_num) none 1.96
    [(500, 350), (620, 350), (150, 400)] [(200, 400)] (some 300) [350, 400] (by norm_num) (by norm_num) (by norm_num)
  simpa using h

/-- A dual-stress model. -/
example : IsALTFit (.lognormal (1 / 2)) 4 (fun s => (LifeStress.dualPower 500 (-1) (-2)).life s.1 s.2)
    [(100, 2, 3), (40, 3, 4)] [] (some (1, 1)) [(2, 3), (3, 4)]
    (Lognormal_Dual_Power.fit 500 (-1) (-2) (1 / 2) none 1.96 [100, 40] [] [2, 3] [3, 4] [] [] (some (1, 1))
      [(2, 3), (3, 4)]) := by
  have h := C59_Lognormal_Dual_Power 500 (-1) (-2) (1 / 2) (by norm_num) (by norm_num) none 1.96
    [(100, 2, 3), (40, 3, 4)] [] (some (1, 1)) [(2, 3), (3, 4)] (by norm_num) (by norm_num) (by norm_num)
  simpa using h

/-- Standard errors for every parameter. -/
example : EnclosedBy [(.real, 3000), (.positive, 1 / 50), (.positive, 2)]
    (Weibull_Exponential.fit 3000 (1 / 50) 2 (some [100, 1 / 100, 1 / 5]) 1.96 [] [] [] [] none []).bounds :=
  C76_Weibull_Exponential 3000 (1 / 50) 2 (by norm_num) (by norm_num) _
    (fun se h => by cases h; norm_num) 1.96 (by norm_num) [] [] [] [] none []

end Reliability.Props.ALT
