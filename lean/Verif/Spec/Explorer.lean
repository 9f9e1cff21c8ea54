import Verif.Model.Explorer

/-!
# Specification of the distribution explorer

What the window should show: the distribution that is selected, with the values of the sliders that can be seen.
-/

namespace Reliability.Spec.Explorer

open Reliability.Explorer

/-- A parameter of a distribution: its name, the range in which it can be chosen, and the first value. -/
structure Param where
  label : String
  lo : ℝ
  hi : ℝ
  start : ℝ

/-- The parameters of the eight distributions. -/
noncomputable def params : String → List Param
  | "Weibull" => [⟨"Alpha", 1 / 10, 500, 100⟩, ⟨"Beta", 1 / 5, 25, 2⟩, ⟨"Gamma", 0, 500, 0⟩]
  | "Gamma" => [⟨"Alpha", 1 / 10, 500, 100⟩, ⟨"Beta", 1 / 5, 25, 5⟩, ⟨"Gamma", 0, 500, 0⟩]
  | "Loglogistic" => [⟨"Alpha", 1 / 10, 500, 100⟩, ⟨"Beta", 1 / 5, 50, 8⟩, ⟨"Gamma", 0, 500, 0⟩]
  | "Lognormal" => [⟨"Mu", 0, 5, 5 / 2⟩, ⟨"Sigma", 1 / 100, 2, 1 / 2⟩, ⟨"Gamma", 0, 500, 0⟩]
  | "Normal" => [⟨"Mu", -100, 100, 0⟩, ⟨"Sigma", 1 / 100, 20, 10⟩]
  | "Gumbel" => [⟨"Mu", -100, 100, 0⟩, ⟨"Sigma", 1 / 100, 20, 10⟩]
  | "Exponential" => [⟨"Lambda", 1 / 1000, 5, 1⟩, ⟨"Gamma", 0, 500, 0⟩]
  | "Beta" => [⟨"Alpha", 1 / 100, 5, 2⟩, ⟨"Beta", 1 / 100, 5, 2⟩]
  | _ => []

/-- `d` is the distribution with that name and the parameters in the given order. -/
def Is : String → List ℝ → Made → Prop
  | "Weibull", [a, b, g], d => d = .weibull a b g
  | "Gamma", [a, b, g], d => d = .gamma a b g
  | "Loglogistic", [a, b, g], d => d = .loglogistic a b g
  | "Lognormal", [m, s, g], d => d = .lognormal m s g
  | "Normal", [m, s], d => d = .normal m s
  | "Gumbel", [m, s], d => d = .gumbel m s
  | "Exponential", [l, g], d => d = .exponential l g
  | "Beta", [a, b], d => d = .beta a b
  | _, _, _ => False

/-- The parameters are in the range in which the distribution is defined. -/
def Valid : Made → Prop
  | .weibull a b g => 0 < a ∧ 0 < b ∧ 0 ≤ g
  | .gamma a b g => 0 < a ∧ 0 < b ∧ 0 ≤ g
  | .loglogistic a b g => 0 < a ∧ 0 < b ∧ 0 ≤ g
  | .lognormal _ s g => 0 < s ∧ 0 ≤ g
  | .normal _ s => 0 < s
  | .gumbel _ s => 0 < s
  | .exponential l g => 0 < l ∧ 0 ≤ g
  | .beta a b => 0 < a ∧ 0 < b

/-- The sliders that can be seen, with the axes they are on. -/
def sliders (s : State) : List (Panel × Slider) :=
  [(.ax0, s.s0), (.ax1, s.s1)] ++ if s.ax2visible then [(.ax2, s.s2)] else []

/-- The values of the sliders that can be seen. -/
def values (s : State) : List ℝ := (sliders s).map fun t => t.2.val

/-- The five plots and the title show the distribution `d`, and nothing else is on the plots. -/
def Shows (s : State) (d : Made) : Prop :=
  s.title = d ∧ s.content .pdf = [.curve "PDF" d] ∧ s.content .cdf = [.curve "CDF" d] ∧ s.content .sf = [.curve "SF" d] ∧
  s.content .hf = [.curve "HF" d] ∧ s.content .chf = [.curve "CHF" d]

/-- The sliders are those of the parameters `ps`: their names and ranges, each alone on its axes. -/
def Controls (s : State) (ps : List Param) : Prop :=
  List.Forall₂ (fun (t : Panel × Slider) p => t.2.label = p.label ∧ t.2.valmin = p.lo ∧ t.2.valmax = p.hi ∧
    p.lo ≤ t.2.val ∧ t.2.val ≤ p.hi ∧ s.content t.1 = [.bar p.label]) (sliders s) ps

/-- The window is consistent: the plots show the selected distribution with the values of the sliders. -/
def Consistent (s : State) : Prop :=
  s.selected ∈ ["Weibull", "Gamma", "Normal", "Lognormal", "Beta", "Exponential", "Loglogistic", "Gumbel"] ∧
  Controls s (params s.selected) ∧ ∃ d, Is s.selected (values s) d ∧ Valid d ∧ Shows s d

end Reliability.Spec.Explorer
