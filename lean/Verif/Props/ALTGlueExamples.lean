import Verif.Props.ALTGlueReturns
import Verif.Props.FitGlueExamples
import Mathlib.Data.Prod.Lex

/-! # C110/C111: the hypotheses are met -/

namespace Reliability.Props.ALTGlue

open Reliability Reliability.ALT Reliability.ALTGlue Reliability.InputCheck Reliability.FitGlue
open Reliability.Fitters (OptResult mleOptimization Bound MLEOut)
open Reliability.FunctionCI (Jac zOf Two)
open Reliability.Spec Reliability.Spec.InputCheck Reliability.Spec.ALTGlue

/-- Failures with their stresses, and a censored unit. -/
noncomputable def exF : List (ℝ × ℝ) := [(5, 1), (6, 1), (10, 2), (12, 2), (30, 3)]
noncomputable def exC : List (ℝ × ℝ) := [(7, 1)]

noncomputable def exALT : ALTArgs :=
  { failures := .array (exF.map Prod.fst), failure_stress_1 := .array (exF.map Prod.snd),
    right_censored := .array (exC.map Prod.fst), right_censored_stress_1 := .array (exC.map Prod.snd),
    use_level_stress := .num 0.5 }

/-- The data satisfy the requirements of every single-stress class. -/
theorem exALT_ok (c : Cls ℝ) (hc : c ∈ singleClasses) :
    ALTRequirements c.dist c.model exALT.failures exALT.failure_stress_1 exALT.failure_stress_2 exALT.right_censored
        exALT.right_censored_stress_1 exALT.right_censored_stress_2 exALT.CI exALT.use_level_stress exALT.optimizer false
        (exF.map Prod.fst) (exF.map Prod.snd) [] (exC.map Prod.fst) (exC.map Prod.snd) [] := by
  obtain ⟨hm, hd⟩ := models_single hc
  refine ⟨?_, ?_, single_not_dual hc _, ⟨rfl, rfl, by simp, fun _ => rfl⟩, .inr ⟨rfl, rfl, by simp, fun _ => rfl⟩,
    ⟨by simp, by simp, by simp⟩, ⟨?_, ?_⟩, ⟨0.95, rfl, by norm_num, by norm_num⟩, ⟨none, .inl ⟨rfl, rfl⟩⟩, ⟨?_, by simp⟩, ?_,
    by simp, .inr (.inl ⟨rfl, _, rfl⟩)⟩
  · simp only [List.mem_cons, List.not_mem_nil, or_false] at hd; tauto
  · simp only [List.mem_cons, List.not_mem_nil, or_false] at hm; tauto
  · simp [exF]
  · simp [exC]
  · refine Finset.one_lt_card.2 ⟨1, by simp [exF], 2, by simp [exF], by norm_num⟩
  · simp only [Bool.false_eq_true, if_false]
    refine Finset.two_lt_card.2 ⟨((1, none), 5), ?_, ((2, none), 10), ?_, ((2, none), 12), ?_, ?_, ?_, ?_⟩ <;>
      simp [exF, stressRows]

/-- Every stress has one failure, or two different ones. -/
theorem exALT_distinct : ∀ i ∈ exF, (unitsAt exF i.2).length = 1 ∨ 1 < (unitsAt exF i.2).toFinset.card := by
  intro i hi
  simp only [exF, List.mem_cons, List.not_mem_nil, or_false] at hi
  rcases hi with rfl | rfl | rfl | rfl | rfl
  · right; refine Finset.one_lt_card.2 ⟨5, ?_, 6, ?_, by norm_num⟩ <;> simp [unitsAt, exF]
  · right; refine Finset.one_lt_card.2 ⟨5, ?_, 6, ?_, by norm_num⟩ <;> simp [unitsAt, exF]
  · right; refine Finset.one_lt_card.2 ⟨10, ?_, 12, ?_, by norm_num⟩ <;> simp [unitsAt, exF]
  · right; refine Finset.one_lt_card.2 ⟨10, ?_, 12, ?_, by norm_num⟩ <;> simp [unitsAt, exF]
  · left; simp [unitsAt, exF]

/-- C111_single_partial applies, and so does C110_single. -/
example {argsort : List ℝ → List ℕ} (harg : IsArgsort argsort) (J : Jac) (noise : Matrix (Fin 3) (Fin 3) ℝ) (c : Cls ℝ)
    (hc : c ∈ singleClasses) : ∃ res ls, fitALT c singleKind argsort J (fun _ => exNum2) noise (fun _ _ _ p => ⟨true, p⟩) exALT = .ok res ∧
      ALTReport c.dist c.model lifeAt1 (fun s => 0 < s) argsort J (fun _ => exNum2) ls exF exC (some 0.5) 0.95 res := by
  have hq := exALT_ok c hc
  obtain ⟨res, hres⟩ := C111_single_partial c hc harg J (num := fun _ => exNum2) (by intros; rfl) (by intros; rfl) noise
    (minimize := fun _ _ _ p => ⟨true, p⟩) (by intros; rfl) exALT exF exC hq (by simp [exF]) (by
      intro i hi
      simp only [exC, List.mem_cons, List.not_mem_nil, or_false] at hi
      subst hi
      exact ⟨5, by simp [exF]⟩) exALT_distinct
  obtain ⟨F, C, use, CI, ls, ⟨u1, u2, u3⟩, hu, hCI, -, hr⟩ := C110_single c hc _ _ _ _ _ _ res hres
  have eF : F = exF := by
    injection u1 with u1; injection u2 with u2
    rw [← zip_maps F, ← zip_maps exF, u1, u2]
  have eC : C = exC := by
    rcases u3 with ⟨a1, a2⟩ | ⟨a1, a2⟩
    · cases a1
    · injection a1 with a1; injection a2 with a2
      rw [← zip_maps C, ← zip_maps exC, a1, a2]
  have eu : use = some 0.5 := by
    rcases hu with ⟨h, -⟩ | ⟨u, h, e⟩
    · cases h
    · cases h; exact e
  have eCI : CI = 0.95 := by cases hCI; rfl
  exact ⟨res, ls, hres, by rw [← eF, ← eC, ← eu, ← eCI]; exact hr⟩

/-- Four units at two pairs of stresses. -/
noncomputable def exF2 : List (ℝ × ℝ × ℝ) := [(5, 1, 10), (6, 1, 10), (8, 2, 20), (12, 2, 20)]

noncomputable def exALT2 : ALTArgs :=
  { failures := .array (exF2.map Prod.fst), failure_stress_1 := .array (exF2.map fun i => i.2.1),
    failure_stress_2 := .array (exF2.map fun i => i.2.2) }

/-- C111_dual_partial applies; pairs as keys in lexicographic order. -/
example {argsort : List ℝ → List ℕ} (harg : IsArgsort argsort) (J : Jac) (noise : Matrix (Fin 3) (Fin 3) ℝ) (c : Cls (ℝ × ℝ))
    (hc : c ∈ dualClasses) : ∃ res, fitALT c (dualKind (κ := ℝ ×ₗ ℝ) (fun a b => toLex (a, b.getD 0)) ofLex) argsort J
      (fun _ => exNum2) noise (fun _ _ _ p => ⟨true, p⟩) exALT2 = .ok res := by
  refine C111_dual_partial _ _ (by intros; rfl) c hc harg J (num := fun _ => exNum2) (by intros; rfl) (by intros; rfl)
    noise (minimize := fun _ _ _ p => ⟨true, p⟩) (by intros; rfl) exALT2 exF2 [] ?_ ?_
  · obtain ⟨hm, hd⟩ := models_dual hc
    refine ⟨?_, ?_, dual_dual hc _, ⟨rfl, rfl, fun _ => rfl, by simp⟩, .inl ⟨rfl, rfl, rfl, rfl⟩,
      ⟨by simp, by simp, by simp⟩, ⟨?_, by simp⟩, ⟨0.95, rfl, by norm_num, by norm_num⟩, ⟨none, .inl ⟨rfl, rfl⟩⟩, ⟨?_, fun _ => ?_⟩, ?_,
      by simp [stressRows], .inl rfl⟩
    · simp only [List.mem_cons, List.not_mem_nil, or_false] at hd; tauto
    · simp only [List.mem_cons, List.not_mem_nil, or_false] at hm; tauto
    · simp [exF2]
    · refine Finset.one_lt_card.2 ⟨1, by simp [exF2], 2, by simp [exF2], by norm_num⟩
    · refine Finset.one_lt_card.2 ⟨10, by simp [exF2], 20, by simp [exF2], by norm_num⟩
    · simp only [if_true]
      have : List.Nodup (stressRows true (exF2.map fun i => i.2.1) (exF2.map fun i => i.2.2) (exF2.map Prod.fst)) := by
        simp [stressRows, exF2]
      rw [List.toFinset_card_of_nodup this]
      simp [stressRows, exF2]
  · intro i hi
    simp only [exF2, List.mem_cons, List.not_mem_nil, or_false] at hi
    rcases hi with rfl | rfl | rfl | rfl
    · right; refine Finset.one_lt_card.2 ⟨5, ?_, 6, ?_, by norm_num⟩ <;> simp [unitsAt, exF2]
    · right; refine Finset.one_lt_card.2 ⟨5, ?_, 6, ?_, by norm_num⟩ <;> simp [unitsAt, exF2]
    · right; refine Finset.one_lt_card.2 ⟨8, ?_, 12, ?_, by norm_num⟩ <;> simp [unitsAt, exF2]
    · right; refine Finset.one_lt_card.2 ⟨8, ?_, 12, ?_, by norm_num⟩ <;> simp [unitsAt, exF2]

/-- The failures 5, 5 at stress 1 and 10, 12 at stress 2. -/
noncomputable def exTied : List (ℝ × ℝ) := [(5, 1), (5, 1), (10, 2), (12, 2)]

noncomputable def exTiedArgs : ALTArgs :=
  { failures := .array (exTied.map Prod.fst), failure_stress_1 := .array (exTied.map Prod.snd) }

/-- C111_tied_failures_finding: this data is accepted by the check, and no fitter returns. -/
example (argsort : List ℝ → List ℕ) (J : Jac) (num : ℕ → Option ℝ → Num2) (noise : Matrix (Fin 3) (Fin 3) ℝ) (c : Cls ℝ)
    (hc : c ∈ singleClasses) (minimize : Minimizer (Fin c.n → ℝ)) :
    (∃ inp, altCheck (fun x _ => x) c.dist c.model exTiedArgs.failures exTiedArgs.failure_stress_1 .none .none .none .none
      exTiedArgs.CI exTiedArgs.use_level_stress exTiedArgs.optimizer = .ok inp) ∧
    ∀ res, fitALT c singleKind argsort J num noise minimize exTiedArgs ≠ .ok res := by
  constructor
  · refine (C74_accepts_iff _ c.dist c.model _ _ _ _ _ _ (fun d hd => ?_) _ _ _).2
      ⟨false, exTied.map Prod.fst, exTied.map Prod.snd, [], [], [], [], ?_⟩
    · have : d = false := by
        have := hd.trans (single_not_dual hc _).symm
        simpa using this
      subst this
      exact singleLaw.keyInj
    · obtain ⟨hm, hd⟩ := models_single hc
      refine ⟨?_, ?_, single_not_dual hc _, ⟨rfl, rfl, by simp, fun _ => rfl⟩, .inl ⟨rfl, rfl, rfl, rfl⟩,
        ⟨by simp, by simp, by simp⟩, ⟨?_, by simp⟩, ⟨0.95, rfl, by norm_num, by norm_num⟩, ⟨none, .inl ⟨rfl, rfl⟩⟩, ⟨?_, by simp⟩, ?_,
        by simp, .inl rfl⟩
      · simp only [List.mem_cons, List.not_mem_nil, or_false] at hd; tauto
      · simp only [List.mem_cons, List.not_mem_nil, or_false] at hm; tauto
      · simp [exTied]
      · refine Finset.one_lt_card.2 ⟨1, by simp [exTied], 2, by simp [exTied], by norm_num⟩
      · simp only [Bool.false_eq_true, if_false]
        refine Finset.two_lt_card.2 ⟨((1, none), 5), ?_, ((2, none), 10), ?_, ((2, none), 12), ?_, ?_, ?_, ?_⟩ <;>
          simp [exTied, stressRows]
  · intro res
    refine C111_tied_failures_finding c hc argsort J num noise minimize exTiedArgs exTied [] ⟨rfl, rfl, .inl ⟨rfl, rfl⟩⟩ (by simp)
      1 5 ?_ ?_ res
    · simp [unitsAt, exTied]
    · simp [unitsAt, exTied]

end Reliability.Props.ALTGlue
