import Verif.Props.ALTPlots
import Verif.Props.ALTGlueExamples
import Verif.Props.FitGrouped

/-! # C134: the hypotheses are met -/

namespace Reliability.ALTPlots

open Reliability Reliability.ALT Reliability.ALTGlue Reliability.InputCheck Reliability.FitGlue
open Reliability.Fitters (OptResult mleOptimization Bound MLEOut)
open Reliability.FunctionCI (Jac)
open Reliability.Spec Reliability.Spec.InputCheck Reliability.Spec.ALTGlue
open Reliability.Props.ALTGlue (exF exC exALT models_single single_not_dual C111_single_partial)
open Reliability.Props (bind_ok answer C47_loop_terminates C47_default_first_success C74_groups DualStress ALTRequirements KeyInj stressRows)
open Reliability.Props.ALTGlue (rows_points)

/-- C134_alt_prob_plot: two stresses with data, a use level. -/
example {argsort : List ℝ → List ℕ} (hs : IsArgsort argsort) :
    ∃ P, altProbPlot argsort 10 "Weibull" "Power"
        [⟨2, [10, 12], some [13], some (11, 3)⟩, ⟨4, [5], none, none⟩] (fun s : ℝ => 20 / s) 2 (some 1) = .ok P ∧
      P.Complete ∧ P.Coloured := by
  obtain ⟨P, h, -, -, -, h5, h6⟩ := (C134_alt_prob_plot hs 10 (dist := "Weibull") (model := "Power") (shape := 2) (d := .weibull 2)
    ⟨rfl, rfl⟩ two_pos (by decide) (fun s : ℝ => 20 / s) [⟨2, [10, 12], some [13], some (11, 3)⟩, ⟨4, [5], none, none⟩] (by simp) (by
      intro it h
      simp only [List.mem_cons, List.not_mem_nil, or_false] at h
      rcases h with rfl | rfl <;> simp) (some 1) (by intro u h; cases h; norm_num)).1 (by decide)
  exact ⟨P, h, h5, h6⟩

/-- The admissible estimates: all parameters 1. -/
theorem ones_valid {c : Cls ℝ} (hc : c ∈ singleClasses) {m : LifeStress} {d : LifeDist}
    (h : altModel c.dist c.model (List.ofFn fun _ : Fin c.n => (1 : ℝ)) = some (m, d)) : m.Valid ∧ d.Valid := by
  simp only [singleClasses, List.mem_cons, List.not_mem_nil, or_false] at hc
  rcases hc with rfl | rfl | rfl | rfl | rfl | rfl | rfl | rfl | rfl | rfl | rfl | rfl <;>
    (injection h with h; injection h with h1 h2; subst h1; subst h2
     refine ⟨?_, ?_⟩ <;> first | exact one_pos | trivial)

theorem fit_ones {σ κ : Type} [LinearOrder κ] {c : Cls σ} {k : Kind σ κ}
    (hkey : ∀ dual (x : DataArg ℝ), (dual = true ↔ DualStress c.model x) → KeyInj dual k.key) (hn : c.names.length = c.n)
    {argsort : List ℝ → List ℕ} {J : Jac} {num : ℕ → Option ℝ → Num2}
    {noise : Matrix (Fin 3) (Fin 3) ℝ} {x : ALTArgs} (hx : x.optimizer = .none) {res : ALTRes σ}
    (h : fitALT c k argsort J num noise (fun _ _ _ _ => ⟨true, fun _ => 1⟩) x = .ok res) :
    res.rows.map Row.point = List.ofFn fun _ : Fin c.n => (1 : ℝ) := by
  unfold fitALT at h
  simp only [bind_ok] at h
  obtain ⟨inp, h1, ls, h2, gs, h3, bounds, h4, o, h5, SE, h6, h7⟩ := h
  have h7 := (Except.ok.inj h7).symm
  obtain ⟨dual', q, hCI, hopt, -⟩ := C74_groups k.key c.dist c.model _ _ _ _ _ _ (fun d => hkey d _) _ _ _ _ h1
  have ho : inp.optimizer = none := by
    rw [hx] at hopt
    rcases hopt with ⟨-, h⟩ | ⟨a, b, c, h, -⟩
    · exact h
    · cases h
  rw [ho] at h5
  have hans : ∀ (obj : (Fin c.n → ℝ) → ℝ) g n, answer (fun (_ : String) (_ : Fin c.n → ℝ) => (⟨true, fun _ => 1⟩ : OptResult (Fin c.n → ℝ))) obj g n =
      ⟨true, fun _ => 1⟩ := by
    intro obj g n
    obtain ⟨k, -, -, -, h, -⟩ := C47_loop_terminates (fun _ : Fin c.n → ℝ => (⟨true, fun _ => 1⟩ : OptResult (Fin c.n → ℝ))) obj g
    unfold answer
    rw [h]
    rfl
  rw [C47_default_first_success _ _ _ [] _ "TNC" rfl (by simp) (by rw [hans]), hans] at h5
  cases h5
  rw [h7]
  have := congrArg (List.map Prod.snd) (rows_points c.names hn (fun _ => (1 : ℝ)) SE
      (c.fit (fun _ => 1) SE (FunctionCI.zOf inp.CI) inp.failures inp.right_censored (k.join inp.failure_stress_1 inp.failure_stress_2)
        (k.join inp.right_censored_stress_1 inp.right_censored_stress_2) (k.use inp.use_level_stress)
        (inp.stresses_for_groups.map k.stress)).bounds)
  rw [List.map_map, List.map_snd_zip (by simp [hn])] at this
  exact this

theorem exALT_used {F C : List (ℝ × ℝ)} {use : Option ℝ} (u : UsedSingle exALT F C) (hu : UseSingle exALT use) :
    F = exF ∧ C = exC ∧ use = some 0.5 := by
  obtain ⟨u1, u2, u3⟩ := u
  refine ⟨?_, ?_, ?_⟩
  · injection u1 with u1; injection u2 with u2
    rw [← Reliability.Props.ALTGlue.zip_maps F, ← Reliability.Props.ALTGlue.zip_maps exF, u1, u2]
  · rcases u3 with ⟨a1, a2⟩ | ⟨a1, a2⟩
    · cases a1
    · injection a1 with a1; injection a2 with a2
      rw [← Reliability.Props.ALTGlue.zip_maps C, ← Reliability.Props.ALTGlue.zip_maps exC, a1, a2]
  · rcases hu with ⟨h, -⟩ | ⟨u, h, e⟩
    · cases h
    · cases h; exact e

/-- C134_single: for every single-stress class the fit to this data returns, the estimates are admissible, and the plot is made
exactly if the colour cycle has one colour more than there are stresses. -/
theorem exALT_fit {argsort : List ℝ → List ℕ} (harg : IsArgsort argsort) (J : Jac) (noise : Matrix (Fin 3) (Fin 3) ℝ) (c : Cls ℝ)
    (hc : c ∈ singleClasses) : ∃ (res : _) (m : LifeStress) (d : LifeDist), fitALT c singleKind argsort J (fun _ => Reliability.Props.exNum2) noise
        (fun _ _ _ _ => ⟨true, fun _ => 1⟩) exALT = .ok res ∧
      (∃ P, probPlotOf c singleKind argsort J (fun _ => Reliability.Props.exNum2) (res.change.length + 1) exALT res = .ok P ∧
        P.Shows c.dist argsort J (fun _ => Reliability.Props.exNum2) exF exC (fun s => d.dist (lifeAt1 m s))
          (res.change.map Change.stress) (some 0.5)) ∧
      probPlotOf c singleKind argsort J (fun _ => Reliability.Props.exNum2) res.change.length exALT res =
        .error .indexError := by
  have hq : ALTRequirements c.dist c.model exALT.failures exALT.failure_stress_1 exALT.failure_stress_2 exALT.right_censored
        exALT.right_censored_stress_1 exALT.right_censored_stress_2 exALT.CI exALT.use_level_stress exALT.optimizer false
        (exF.map Prod.fst) (exF.map Prod.snd) [] (exC.map Prod.fst) (exC.map Prod.snd) [] :=
    Reliability.Props.ALTGlue.exALT_ok c hc
  obtain ⟨res, hres⟩ := C111_single_partial c hc harg J (num := fun _ => Reliability.Props.exNum2) (by intros; rfl) (by intros; rfl) noise
    (minimize := fun _ _ _ _ => ⟨true, fun _ => 1⟩) (by intros; rfl) exALT exF exC hq (by simp [exF]) (by
      intro i hi
      simp only [exC, List.mem_cons, List.not_mem_nil, or_false] at hi
      subst hi
      exact ⟨5, by simp [exF]⟩) Reliability.Props.ALTGlue.exALT_distinct
  obtain ⟨F, C, use, m, d, hused, hu, hmd, hP⟩ := C134_single c hc harg J _ _ _ _ res hres (res.change.length + 1)
  obtain ⟨F', C', use', m', d', hused', hu', hmd', hP'⟩ := C134_single c hc harg J _ _ _ _ res hres res.change.length
  have law := Reliability.Props.ALTGlue.lawful_single c hc
  rw [fit_ones (k := singleKind) (fun d x hd => by
    have : d = false := by
      have := hd.trans (single_not_dual hc _).symm
      simpa using this
    subst this
    exact Reliability.Props.ALTGlue.singleLaw.keyInj) (by rw [law.names, law.count, List.length_map]) rfl hres] at hmd hmd'
  obtain ⟨vm, vd⟩ := ones_valid hc hmd
  rw [hmd] at hmd'
  cases hmd'
  obtain ⟨rfl, rfl, rfl⟩ := exALT_used hused hu
  obtain ⟨rfl, rfl, rfl⟩ := exALT_used hused' hu'
  have hC : ∀ i ∈ exC, ∃ t, (t, i.2) ∈ exF := by
    intro i hi
    simp only [exC, List.mem_cons, List.not_mem_nil, or_false] at hi
    subst hi
    exact ⟨5, by simp [exF]⟩
  have hpos : ∀ u, some (0.5 : ℝ) = some u → 0 < u := by intro u h; cases h; norm_num
  exact ⟨res, m, d, hres, (hP vm vd hpos hC).1 (by simp), (hP' vm vd hpos hC).2 (by simp)⟩

end Reliability.ALTPlots
