import Verif.Lemmas.ALTGlue

/-! # The 24 ALT classes are lawful (generated by tools/gen_altlawful.py) -/

namespace Reliability.Props.ALTGlue

open Reliability Reliability.ALT Reliability.ALTGlue Reliability.Spec Reliability.Spec.ALTGlue

theorem lawful_weibullExponential : Lawful weibullExponential lifeAt1 (fun s : ℝ => 0 < s) where
  names := rfl
  count := rfl
  model := by
    intro (p : Fin 3 → ℝ)
    have hl : ∀ s : ℝ, Weibull_Exponential.life_func (p 0) (p 1) s = lifeAt1 (.exponential (p 0) (p 1)) s := by
      intro s
      simp only [Weibull_Exponential.life_func, lifeAt1, LifeStress.life]
    refine ⟨(.exponential (p 0) (p 1)), (.weibull (p 2)), rfl, rfl, ?_, ?_⟩
    · intro SE Z F C Fs Cs use groups
      refine ⟨rfl, rfl, ?_, ?_, ?_⟩
      · change (groups.map fun g => LifeDist.scale (.weibull (p 2)) (Weibull_Exponential.life_func (p 0) (p 1) g)) = _
        simp only [hl]
      · rintro u rfl
        change (groups.map fun g => Weibull_Exponential.life_func (p 0) (p 1) u / Weibull_Exponential.life_func (p 0) (p 1) g) = _
        simp only [hl]
      · rintro rfl; rfl
    · intro hm hd SE Z F C use groups hF hC hG
      exact Reliability.Props.ALT.C59_Weibull_Exponential (p 0) (p 1) (p 2) hm hd SE Z F C use groups hF hC hG
  isOpen := by
    have : {v : Fin 3 → ℝ | Legal "Weibull" "Exponential" v} = {v : Fin 3 → ℝ | 0 < v 1} ∩ {v : Fin 3 → ℝ | 0 < v 2} := by
      ext v
      constructor
      · rintro ⟨m, d, h, hm, hd⟩
        have h : some ((.exponential (v 0) (v 1)), (.weibull (v 2))) = some (m, d) := h
        cases h
        exact ⟨hm, hd⟩
      · rintro ⟨hm, hd⟩
        exact ⟨(.exponential (v 0) (v 1)), (.weibull (v 2)), rfl, hm, hd⟩
    change IsOpen {v : Fin 3 → ℝ | Legal "Weibull" "Exponential" v}
    rw [this]
    exact (isOpen_pos (1 : Fin 3)).inter (isOpen_pos (2 : Fin 3))
  guess := by
    intro ls s h
    match ls, h with
    | [x, y], _ => rfl

theorem lawful_weibullEyring : Lawful weibullEyring lifeAt1 (fun s : ℝ => 0 < s) where
  names := rfl
  count := rfl
  model := by
    intro (p : Fin 3 → ℝ)
    have hl : ∀ s : ℝ, Weibull_Eyring.life_func (p 0) (p 1) s = lifeAt1 (.eyring (p 0) (p 1)) s := by
      intro s
      simp only [Weibull_Eyring.life_func, lifeAt1, LifeStress.life, Reliability.Props.ALT.eyring_life_eq]
    refine ⟨(.eyring (p 0) (p 1)), (.weibull (p 2)), rfl, rfl, ?_, ?_⟩
    · intro SE Z F C Fs Cs use groups
      refine ⟨rfl, rfl, ?_, ?_, ?_⟩
      · change (groups.map fun g => LifeDist.scale (.weibull (p 2)) (Weibull_Eyring.life_func (p 0) (p 1) g)) = _
        simp only [hl]
      · rintro u rfl
        change (groups.map fun g => Weibull_Eyring.life_func (p 0) (p 1) u / Weibull_Eyring.life_func (p 0) (p 1) g) = _
        simp only [hl]
      · rintro rfl; rfl
    · intro hm hd SE Z F C use groups hF hC hG
      exact Reliability.Props.ALT.C59_Weibull_Eyring (p 0) (p 1) (p 2)  hd SE Z F C use groups hF hC hG
  isOpen := by
    have : {v : Fin 3 → ℝ | Legal "Weibull" "Eyring" v} = {v : Fin 3 → ℝ | 0 < v 2} := by
      ext v
      constructor
      · rintro ⟨m, d, h, hm, hd⟩
        have h : some ((.eyring (v 0) (v 1)), (.weibull (v 2))) = some (m, d) := h
        cases h
        exact hd
      · rintro hd
        exact ⟨(.eyring (v 0) (v 1)), (.weibull (v 2)), rfl, trivial, hd⟩
    change IsOpen {v : Fin 3 → ℝ | Legal "Weibull" "Eyring" v}
    rw [this]
    exact isOpen_pos (2 : Fin 3)
  guess := by
    intro ls s h
    match ls, h with
    | [x, y], _ => rfl

theorem lawful_weibullPower : Lawful weibullPower lifeAt1 (fun s : ℝ => 0 < s) where
  names := rfl
  count := rfl
  model := by
    intro (p : Fin 3 → ℝ)
    have hl : ∀ s : ℝ, Weibull_Power.life_func (p 0) (p 1) s = lifeAt1 (.power (p 0) (p 1)) s := by
      intro s
      simp only [Weibull_Power.life_func, lifeAt1, LifeStress.life]
    refine ⟨(.power (p 0) (p 1)), (.weibull (p 2)), rfl, rfl, ?_, ?_⟩
    · intro SE Z F C Fs Cs use groups
      refine ⟨rfl, rfl, ?_, ?_, ?_⟩
      · change (groups.map fun g => LifeDist.scale (.weibull (p 2)) (Weibull_Power.life_func (p 0) (p 1) g)) = _
        simp only [hl]
      · rintro u rfl
        change (groups.map fun g => Weibull_Power.life_func (p 0) (p 1) u / Weibull_Power.life_func (p 0) (p 1) g) = _
        simp only [hl]
      · rintro rfl; rfl
    · intro hm hd SE Z F C use groups hF hC hG
      exact Reliability.Props.ALT.C59_Weibull_Power (p 0) (p 1) (p 2) hm hd SE Z F C use groups hF hC hG
  isOpen := by
    have : {v : Fin 3 → ℝ | Legal "Weibull" "Power" v} = {v : Fin 3 → ℝ | 0 < v 0} ∩ {v : Fin 3 → ℝ | 0 < v 2} := by
      ext v
      constructor
      · rintro ⟨m, d, h, hm, hd⟩
        have h : some ((.power (v 0) (v 1)), (.weibull (v 2))) = some (m, d) := h
        cases h
        exact ⟨hm, hd⟩
      · rintro ⟨hm, hd⟩
        exact ⟨(.power (v 0) (v 1)), (.weibull (v 2)), rfl, hm, hd⟩
    change IsOpen {v : Fin 3 → ℝ | Legal "Weibull" "Power" v}
    rw [this]
    exact (isOpen_pos (0 : Fin 3)).inter (isOpen_pos (2 : Fin 3))
  guess := by
    intro ls s h
    match ls, h with
    | [x, y], _ => rfl

theorem lawful_weibullDualExponential : Lawful weibullDualExponential lifeAt2 (fun s : ℝ × ℝ => 0 < s.1 ∧ 0 < s.2) where
  names := rfl
  count := rfl
  model := by
    intro (p : Fin 4 → ℝ)
    have hl : ∀ s : ℝ × ℝ, Weibull_Dual_Exponential.life_func (p 0) (p 1) (p 2) s.1 s.2 = lifeAt2 (.dualExponential (p 0) (p 1) (p 2)) s := by
      intro s
      simp only [Weibull_Dual_Exponential.life_func, lifeAt2, LifeStress.life]
    refine ⟨(.dualExponential (p 0) (p 1) (p 2)), (.weibull (p 3)), rfl, rfl, ?_, ?_⟩
    · intro SE Z F C Fs Cs use groups
      refine ⟨rfl, rfl, ?_, ?_, ?_⟩
      · change (groups.map fun g => LifeDist.scale (.weibull (p 3)) (Weibull_Dual_Exponential.life_func (p 0) (p 1) (p 2) g.1 g.2)) = _
        simp only [hl]
      · rintro u rfl
        change (groups.map fun g => Weibull_Dual_Exponential.life_func (p 0) (p 1) (p 2) u.1 u.2 / Weibull_Dual_Exponential.life_func (p 0) (p 1) (p 2) g.1 g.2) = _
        simp only [hl]
      · rintro rfl; rfl
    · intro hm hd SE Z F C use groups hF hC hG
      have := Reliability.Props.ALT.C59_Weibull_Dual_Exponential (p 0) (p 1) (p 2) (p 3) hm hd SE Z F C use groups hF hC hG
      rw [← map_snd1, ← map_snd2, ← map_snd1, ← map_snd2] at this
      exact this
  isOpen := by
    have : {v : Fin 4 → ℝ | Legal "Weibull" "Dual_Exponential" v} = {v : Fin 4 → ℝ | 0 < v 2} ∩ {v : Fin 4 → ℝ | 0 < v 3} := by
      ext v
      constructor
      · rintro ⟨m, d, h, hm, hd⟩
        have h : some ((.dualExponential (v 0) (v 1) (v 2)), (.weibull (v 3))) = some (m, d) := h
        cases h
        exact ⟨hm, hd⟩
      · rintro ⟨hm, hd⟩
        exact ⟨(.dualExponential (v 0) (v 1) (v 2)), (.weibull (v 3)), rfl, hm, hd⟩
    change IsOpen {v : Fin 4 → ℝ | Legal "Weibull" "Dual_Exponential" v}
    rw [this]
    exact (isOpen_pos (2 : Fin 4)).inter (isOpen_pos (3 : Fin 4))
  guess := by
    intro ls s h
    match ls, h with
    | [x, y, z], _ => rfl

theorem lawful_weibullPowerExponential : Lawful weibullPowerExponential lifeAt2 (fun s : ℝ × ℝ => 0 < s.1 ∧ 0 < s.2) where
  names := rfl
  count := rfl
  model := by
    intro (p : Fin 4 → ℝ)
    have hl : ∀ s : ℝ × ℝ, Weibull_Power_Exponential.life_func (p 0) (p 1) (p 2) s.1 s.2 = lifeAt2 (.powerExponential (p 0) (p 1) (p 2)) s := by
      intro s
      simp only [Weibull_Power_Exponential.life_func, lifeAt2, LifeStress.life]
    refine ⟨(.powerExponential (p 0) (p 1) (p 2)), (.weibull (p 3)), rfl, rfl, ?_, ?_⟩
    · intro SE Z F C Fs Cs use groups
      refine ⟨rfl, rfl, ?_, ?_, ?_⟩
      · change (groups.map fun g => LifeDist.scale (.weibull (p 3)) (Weibull_Power_Exponential.life_func (p 0) (p 1) (p 2) g.1 g.2)) = _
        simp only [hl]
      · rintro u rfl
        change (groups.map fun g => Weibull_Power_Exponential.life_func (p 0) (p 1) (p 2) u.1 u.2 / Weibull_Power_Exponential.life_func (p 0) (p 1) (p 2) g.1 g.2) = _
        simp only [hl]
      · rintro rfl; rfl
    · intro hm hd SE Z F C use groups hF hC hG
      have := Reliability.Props.ALT.C59_Weibull_Power_Exponential (p 0) (p 1) (p 2) (p 3) hm hd SE Z F C use groups hF hC hG
      rw [← map_snd1, ← map_snd2, ← map_snd1, ← map_snd2] at this
      exact this
  isOpen := by
    have : {v : Fin 4 → ℝ | Legal "Weibull" "Power_Exponential" v} = {v : Fin 4 → ℝ | 0 < v 1} ∩ {v : Fin 4 → ℝ | 0 < v 3} := by
      ext v
      constructor
      · rintro ⟨m, d, h, hm, hd⟩
        have h : some ((.powerExponential (v 0) (v 1) (v 2)), (.weibull (v 3))) = some (m, d) := h
        cases h
        exact ⟨hm, hd⟩
      · rintro ⟨hm, hd⟩
        exact ⟨(.powerExponential (v 0) (v 1) (v 2)), (.weibull (v 3)), rfl, hm, hd⟩
    change IsOpen {v : Fin 4 → ℝ | Legal "Weibull" "Power_Exponential" v}
    rw [this]
    exact (isOpen_pos (1 : Fin 4)).inter (isOpen_pos (3 : Fin 4))
  guess := by
    intro ls s h
    match ls, h with
    | [x, y, z], _ => rfl

theorem lawful_weibullDualPower : Lawful weibullDualPower lifeAt2 (fun s : ℝ × ℝ => 0 < s.1 ∧ 0 < s.2) where
  names := rfl
  count := rfl
  model := by
    intro (p : Fin 4 → ℝ)
    have hl : ∀ s : ℝ × ℝ, Weibull_Dual_Power.life_func (p 0) (p 1) (p 2) s.1 s.2 = lifeAt2 (.dualPower (p 0) (p 1) (p 2)) s := by
      intro s
      simp only [Weibull_Dual_Power.life_func, lifeAt2, LifeStress.life]
    refine ⟨(.dualPower (p 0) (p 1) (p 2)), (.weibull (p 3)), rfl, rfl, ?_, ?_⟩
    · intro SE Z F C Fs Cs use groups
      refine ⟨rfl, rfl, ?_, ?_, ?_⟩
      · change (groups.map fun g => LifeDist.scale (.weibull (p 3)) (Weibull_Dual_Power.life_func (p 0) (p 1) (p 2) g.1 g.2)) = _
        simp only [hl]
      · rintro u rfl
        change (groups.map fun g => Weibull_Dual_Power.life_func (p 0) (p 1) (p 2) u.1 u.2 / Weibull_Dual_Power.life_func (p 0) (p 1) (p 2) g.1 g.2) = _
        simp only [hl]
      · rintro rfl; rfl
    · intro hm hd SE Z F C use groups hF hC hG
      have := Reliability.Props.ALT.C59_Weibull_Dual_Power (p 0) (p 1) (p 2) (p 3) hm hd SE Z F C use groups hF hC hG
      rw [← map_snd1, ← map_snd2, ← map_snd1, ← map_snd2] at this
      exact this
  isOpen := by
    have : {v : Fin 4 → ℝ | Legal "Weibull" "Dual_Power" v} = {v : Fin 4 → ℝ | 0 < v 0} ∩ {v : Fin 4 → ℝ | 0 < v 3} := by
      ext v
      constructor
      · rintro ⟨m, d, h, hm, hd⟩
        have h : some ((.dualPower (v 0) (v 1) (v 2)), (.weibull (v 3))) = some (m, d) := h
        cases h
        exact ⟨hm, hd⟩
      · rintro ⟨hm, hd⟩
        exact ⟨(.dualPower (v 0) (v 1) (v 2)), (.weibull (v 3)), rfl, hm, hd⟩
    change IsOpen {v : Fin 4 → ℝ | Legal "Weibull" "Dual_Power" v}
    rw [this]
    exact (isOpen_pos (0 : Fin 4)).inter (isOpen_pos (3 : Fin 4))
  guess := by
    intro ls s h
    match ls, h with
    | [x, y, z], _ => rfl

theorem lawful_lognormalExponential : Lawful lognormalExponential lifeAt1 (fun s : ℝ => 0 < s) where
  names := rfl
  count := rfl
  model := by
    intro (p : Fin 3 → ℝ)
    have hl : ∀ s : ℝ, Lognormal_Exponential.life_func (p 0) (p 1) s = lifeAt1 (.exponential (p 0) (p 1)) s := by
      intro s
      simp only [Lognormal_Exponential.life_func, lifeAt1, LifeStress.life]
    refine ⟨(.exponential (p 0) (p 1)), (.lognormal (p 2)), rfl, rfl, ?_, ?_⟩
    · intro SE Z F C Fs Cs use groups
      refine ⟨rfl, rfl, ?_, ?_, ?_⟩
      · change (groups.map fun g => LifeDist.scale (.lognormal (p 2)) (Lognormal_Exponential.life_func (p 0) (p 1) g)) = _
        simp only [hl]
      · rintro u rfl
        change (groups.map fun g => Lognormal_Exponential.life_func (p 0) (p 1) u / Lognormal_Exponential.life_func (p 0) (p 1) g) = _
        simp only [hl]
      · rintro rfl; rfl
    · intro hm hd SE Z F C use groups hF hC hG
      exact Reliability.Props.ALT.C59_Lognormal_Exponential (p 0) (p 1) (p 2) hm hd SE Z F C use groups hF hC hG
  isOpen := by
    have : {v : Fin 3 → ℝ | Legal "Lognormal" "Exponential" v} = {v : Fin 3 → ℝ | 0 < v 1} ∩ {v : Fin 3 → ℝ | 0 < v 2} := by
      ext v
      constructor
      · rintro ⟨m, d, h, hm, hd⟩
        have h : some ((.exponential (v 0) (v 1)), (.lognormal (v 2))) = some (m, d) := h
        cases h
        exact ⟨hm, hd⟩
      · rintro ⟨hm, hd⟩
        exact ⟨(.exponential (v 0) (v 1)), (.lognormal (v 2)), rfl, hm, hd⟩
    change IsOpen {v : Fin 3 → ℝ | Legal "Lognormal" "Exponential" v}
    rw [this]
    exact (isOpen_pos (1 : Fin 3)).inter (isOpen_pos (2 : Fin 3))
  guess := by
    intro ls s h
    match ls, h with
    | [x, y], _ => rfl

theorem lawful_lognormalEyring : Lawful lognormalEyring lifeAt1 (fun s : ℝ => 0 < s) where
  names := rfl
  count := rfl
  model := by
    intro (p : Fin 3 → ℝ)
    have hl : ∀ s : ℝ, Lognormal_Eyring.life_func (p 0) (p 1) s = lifeAt1 (.eyring (p 0) (p 1)) s := by
      intro s
      simp only [Lognormal_Eyring.life_func, lifeAt1, LifeStress.life, Reliability.Props.ALT.eyring_life_eq]
    refine ⟨(.eyring (p 0) (p 1)), (.lognormal (p 2)), rfl, rfl, ?_, ?_⟩
    · intro SE Z F C Fs Cs use groups
      refine ⟨rfl, rfl, ?_, ?_, ?_⟩
      · change (groups.map fun g => LifeDist.scale (.lognormal (p 2)) (Lognormal_Eyring.life_func (p 0) (p 1) g)) = _
        simp only [hl]
      · rintro u rfl
        change (groups.map fun g => Lognormal_Eyring.life_func (p 0) (p 1) u / Lognormal_Eyring.life_func (p 0) (p 1) g) = _
        simp only [hl]
      · rintro rfl; rfl
    · intro hm hd SE Z F C use groups hF hC hG
      exact Reliability.Props.ALT.C59_Lognormal_Eyring (p 0) (p 1) (p 2)  hd SE Z F C use groups hF hC hG
  isOpen := by
    have : {v : Fin 3 → ℝ | Legal "Lognormal" "Eyring" v} = {v : Fin 3 → ℝ | 0 < v 2} := by
      ext v
      constructor
      · rintro ⟨m, d, h, hm, hd⟩
        have h : some ((.eyring (v 0) (v 1)), (.lognormal (v 2))) = some (m, d) := h
        cases h
        exact hd
      · rintro hd
        exact ⟨(.eyring (v 0) (v 1)), (.lognormal (v 2)), rfl, trivial, hd⟩
    change IsOpen {v : Fin 3 → ℝ | Legal "Lognormal" "Eyring" v}
    rw [this]
    exact isOpen_pos (2 : Fin 3)
  guess := by
    intro ls s h
    match ls, h with
    | [x, y], _ => rfl

theorem lawful_lognormalPower : Lawful lognormalPower lifeAt1 (fun s : ℝ => 0 < s) where
  names := rfl
  count := rfl
  model := by
    intro (p : Fin 3 → ℝ)
    have hl : ∀ s : ℝ, Lognormal_Power.life_func (p 0) (p 1) s = lifeAt1 (.power (p 0) (p 1)) s := by
      intro s
      simp only [Lognormal_Power.life_func, lifeAt1, LifeStress.life]
    refine ⟨(.power (p 0) (p 1)), (.lognormal (p 2)), rfl, rfl, ?_, ?_⟩
    · intro SE Z F C Fs Cs use groups
      refine ⟨rfl, rfl, ?_, ?_, ?_⟩
      · change (groups.map fun g => LifeDist.scale (.lognormal (p 2)) (Lognormal_Power.life_func (p 0) (p 1) g)) = _
        simp only [hl]
      · rintro u rfl
        change (groups.map fun g => Lognormal_Power.life_func (p 0) (p 1) u / Lognormal_Power.life_func (p 0) (p 1) g) = _
        simp only [hl]
      · rintro rfl; rfl
    · intro hm hd SE Z F C use groups hF hC hG
      exact Reliability.Props.ALT.C59_Lognormal_Power (p 0) (p 1) (p 2) hm hd SE Z F C use groups hF hC hG
  isOpen := by
    have : {v : Fin 3 → ℝ | Legal "Lognormal" "Power" v} = {v : Fin 3 → ℝ | 0 < v 0} ∩ {v : Fin 3 → ℝ | 0 < v 2} := by
      ext v
      constructor
      · rintro ⟨m, d, h, hm, hd⟩
        have h : some ((.power (v 0) (v 1)), (.lognormal (v 2))) = some (m, d) := h
        cases h
        exact ⟨hm, hd⟩
      · rintro ⟨hm, hd⟩
        exact ⟨(.power (v 0) (v 1)), (.lognormal (v 2)), rfl, hm, hd⟩
    change IsOpen {v : Fin 3 → ℝ | Legal "Lognormal" "Power" v}
    rw [this]
    exact (isOpen_pos (0 : Fin 3)).inter (isOpen_pos (2 : Fin 3))
  guess := by
    intro ls s h
    match ls, h with
    | [x, y], _ => rfl

theorem lawful_lognormalDualExponential : Lawful lognormalDualExponential lifeAt2 (fun s : ℝ × ℝ => 0 < s.1 ∧ 0 < s.2) where
  names := rfl
  count := rfl
  model := by
    intro (p : Fin 4 → ℝ)
    have hl : ∀ s : ℝ × ℝ, Lognormal_Dual_Exponential.life_func (p 0) (p 1) (p 2) s.1 s.2 = lifeAt2 (.dualExponential (p 0) (p 1) (p 2)) s := by
      intro s
      simp only [Lognormal_Dual_Exponential.life_func, lifeAt2, LifeStress.life]
    refine ⟨(.dualExponential (p 0) (p 1) (p 2)), (.lognormal (p 3)), rfl, rfl, ?_, ?_⟩
    · intro SE Z F C Fs Cs use groups
      refine ⟨rfl, rfl, ?_, ?_, ?_⟩
      · change (groups.map fun g => LifeDist.scale (.lognormal (p 3)) (Lognormal_Dual_Exponential.life_func (p 0) (p 1) (p 2) g.1 g.2)) = _
        simp only [hl]
      · rintro u rfl
        change (groups.map fun g => Lognormal_Dual_Exponential.life_func (p 0) (p 1) (p 2) u.1 u.2 / Lognormal_Dual_Exponential.life_func (p 0) (p 1) (p 2) g.1 g.2) = _
        simp only [hl]
      · rintro rfl; rfl
    · intro hm hd SE Z F C use groups hF hC hG
      have := Reliability.Props.ALT.C59_Lognormal_Dual_Exponential (p 0) (p 1) (p 2) (p 3) hm hd SE Z F C use groups hF hC hG
      rw [← map_snd1, ← map_snd2, ← map_snd1, ← map_snd2] at this
      exact this
  isOpen := by
    have : {v : Fin 4 → ℝ | Legal "Lognormal" "Dual_Exponential" v} = {v : Fin 4 → ℝ | 0 < v 2} ∩ {v : Fin 4 → ℝ | 0 < v 3} := by
      ext v
      constructor
      · rintro ⟨m, d, h, hm, hd⟩
        have h : some ((.dualExponential (v 0) (v 1) (v 2)), (.lognormal (v 3))) = some (m, d) := h
        cases h
        exact ⟨hm, hd⟩
      · rintro ⟨hm, hd⟩
        exact ⟨(.dualExponential (v 0) (v 1) (v 2)), (.lognormal (v 3)), rfl, hm, hd⟩
    change IsOpen {v : Fin 4 → ℝ | Legal "Lognormal" "Dual_Exponential" v}
    rw [this]
    exact (isOpen_pos (2 : Fin 4)).inter (isOpen_pos (3 : Fin 4))
  guess := by
    intro ls s h
    match ls, h with
    | [x, y, z], _ => rfl

theorem lawful_lognormalPowerExponential : Lawful lognormalPowerExponential lifeAt2 (fun s : ℝ × ℝ => 0 < s.1 ∧ 0 < s.2) where
  names := rfl
  count := rfl
  model := by
    intro (p : Fin 4 → ℝ)
    have hl : ∀ s : ℝ × ℝ, Lognormal_Power_Exponential.life_func (p 0) (p 1) (p 2) s.1 s.2 = lifeAt2 (.powerExponential (p 0) (p 1) (p 2)) s := by
      intro s
      simp only [Lognormal_Power_Exponential.life_func, lifeAt2, LifeStress.life]
    refine ⟨(.powerExponential (p 0) (p 1) (p 2)), (.lognormal (p 3)), rfl, rfl, ?_, ?_⟩
    · intro SE Z F C Fs Cs use groups
      refine ⟨rfl, rfl, ?_, ?_, ?_⟩
      · change (groups.map fun g => LifeDist.scale (.lognormal (p 3)) (Lognormal_Power_Exponential.life_func (p 0) (p 1) (p 2) g.1 g.2)) = _
        simp only [hl]
      · rintro u rfl
        change (groups.map fun g => Lognormal_Power_Exponential.life_func (p 0) (p 1) (p 2) u.1 u.2 / Lognormal_Power_Exponential.life_func (p 0) (p 1) (p 2) g.1 g.2) = _
        simp only [hl]
      · rintro rfl; rfl
    · intro hm hd SE Z F C use groups hF hC hG
      have := Reliability.Props.ALT.C59_Lognormal_Power_Exponential (p 0) (p 1) (p 2) (p 3) hm hd SE Z F C use groups hF hC hG
      rw [← map_snd1, ← map_snd2, ← map_snd1, ← map_snd2] at this
      exact this
  isOpen := by
    have : {v : Fin 4 → ℝ | Legal "Lognormal" "Power_Exponential" v} = {v : Fin 4 → ℝ | 0 < v 1} ∩ {v : Fin 4 → ℝ | 0 < v 3} := by
      ext v
      constructor
      · rintro ⟨m, d, h, hm, hd⟩
        have h : some ((.powerExponential (v 0) (v 1) (v 2)), (.lognormal (v 3))) = some (m, d) := h
        cases h
        exact ⟨hm, hd⟩
      · rintro ⟨hm, hd⟩
        exact ⟨(.powerExponential (v 0) (v 1) (v 2)), (.lognormal (v 3)), rfl, hm, hd⟩
    change IsOpen {v : Fin 4 → ℝ | Legal "Lognormal" "Power_Exponential" v}
    rw [this]
    exact (isOpen_pos (1 : Fin 4)).inter (isOpen_pos (3 : Fin 4))
  guess := by
    intro ls s h
    match ls, h with
    | [x, y, z], _ => rfl

theorem lawful_lognormalDualPower : Lawful lognormalDualPower lifeAt2 (fun s : ℝ × ℝ => 0 < s.1 ∧ 0 < s.2) where
  names := rfl
  count := rfl
  model := by
    intro (p : Fin 4 → ℝ)
    have hl : ∀ s : ℝ × ℝ, Lognormal_Dual_Power.life_func (p 0) (p 1) (p 2) s.1 s.2 = lifeAt2 (.dualPower (p 0) (p 1) (p 2)) s := by
      intro s
      simp only [Lognormal_Dual_Power.life_func, lifeAt2, LifeStress.life]
    refine ⟨(.dualPower (p 0) (p 1) (p 2)), (.lognormal (p 3)), rfl, rfl, ?_, ?_⟩
    · intro SE Z F C Fs Cs use groups
      refine ⟨rfl, rfl, ?_, ?_, ?_⟩
      · change (groups.map fun g => LifeDist.scale (.lognormal (p 3)) (Lognormal_Dual_Power.life_func (p 0) (p 1) (p 2) g.1 g.2)) = _
        simp only [hl]
      · rintro u rfl
        change (groups.map fun g => Lognormal_Dual_Power.life_func (p 0) (p 1) (p 2) u.1 u.2 / Lognormal_Dual_Power.life_func (p 0) (p 1) (p 2) g.1 g.2) = _
        simp only [hl]
      · rintro rfl; rfl
    · intro hm hd SE Z F C use groups hF hC hG
      have := Reliability.Props.ALT.C59_Lognormal_Dual_Power (p 0) (p 1) (p 2) (p 3) hm hd SE Z F C use groups hF hC hG
      rw [← map_snd1, ← map_snd2, ← map_snd1, ← map_snd2] at this
      exact this
  isOpen := by
    have : {v : Fin 4 → ℝ | Legal "Lognormal" "Dual_Power" v} = {v : Fin 4 → ℝ | 0 < v 0} ∩ {v : Fin 4 → ℝ | 0 < v 3} := by
      ext v
      constructor
      · rintro ⟨m, d, h, hm, hd⟩
        have h : some ((.dualPower (v 0) (v 1) (v 2)), (.lognormal (v 3))) = some (m, d) := h
        cases h
        exact ⟨hm, hd⟩
      · rintro ⟨hm, hd⟩
        exact ⟨(.dualPower (v 0) (v 1) (v 2)), (.lognormal (v 3)), rfl, hm, hd⟩
    change IsOpen {v : Fin 4 → ℝ | Legal "Lognormal" "Dual_Power" v}
    rw [this]
    exact (isOpen_pos (0 : Fin 4)).inter (isOpen_pos (3 : Fin 4))
  guess := by
    intro ls s h
    match ls, h with
    | [x, y, z], _ => rfl

theorem lawful_normalExponential : Lawful normalExponential lifeAt1 (fun s : ℝ => 0 < s) where
  names := rfl
  count := rfl
  model := by
    intro (p : Fin 3 → ℝ)
    have hl : ∀ s : ℝ, Normal_Exponential.life_func (p 0) (p 1) s = lifeAt1 (.exponential (p 0) (p 1)) s := by
      intro s
      simp only [Normal_Exponential.life_func, lifeAt1, LifeStress.life]
    refine ⟨(.exponential (p 0) (p 1)), (.normal (p 2)), rfl, rfl, ?_, ?_⟩
    · intro SE Z F C Fs Cs use groups
      refine ⟨rfl, rfl, ?_, ?_, ?_⟩
      · change (groups.map fun g => LifeDist.scale (.normal (p 2)) (Normal_Exponential.life_func (p 0) (p 1) g)) = _
        simp only [hl]
      · rintro u rfl
        change (groups.map fun g => Normal_Exponential.life_func (p 0) (p 1) u / Normal_Exponential.life_func (p 0) (p 1) g) = _
        simp only [hl]
      · rintro rfl; rfl
    · intro hm hd SE Z F C use groups hF hC hG
      exact Reliability.Props.ALT.C59_Normal_Exponential (p 0) (p 1) (p 2) hm hd SE Z F C use groups hF hC hG
  isOpen := by
    have : {v : Fin 3 → ℝ | Legal "Normal" "Exponential" v} = {v : Fin 3 → ℝ | 0 < v 1} ∩ {v : Fin 3 → ℝ | 0 < v 2} := by
      ext v
      constructor
      · rintro ⟨m, d, h, hm, hd⟩
        have h : some ((.exponential (v 0) (v 1)), (.normal (v 2))) = some (m, d) := h
        cases h
        exact ⟨hm, hd⟩
      · rintro ⟨hm, hd⟩
        exact ⟨(.exponential (v 0) (v 1)), (.normal (v 2)), rfl, hm, hd⟩
    change IsOpen {v : Fin 3 → ℝ | Legal "Normal" "Exponential" v}
    rw [this]
    exact (isOpen_pos (1 : Fin 3)).inter (isOpen_pos (2 : Fin 3))
  guess := by
    intro ls s h
    match ls, h with
    | [x, y], _ => rfl

theorem lawful_normalEyring : Lawful normalEyring lifeAt1 (fun s : ℝ => 0 < s) where
  names := rfl
  count := rfl
  model := by
    intro (p : Fin 3 → ℝ)
    have hl : ∀ s : ℝ, Normal_Eyring.life_func (p 0) (p 1) s = lifeAt1 (.eyring (p 0) (p 1)) s := by
      intro s
      simp only [Normal_Eyring.life_func, lifeAt1, LifeStress.life, Reliability.Props.ALT.eyring_life_eq]
    refine ⟨(.eyring (p 0) (p 1)), (.normal (p 2)), rfl, rfl, ?_, ?_⟩
    · intro SE Z F C Fs Cs use groups
      refine ⟨rfl, rfl, ?_, ?_, ?_⟩
      · change (groups.map fun g => LifeDist.scale (.normal (p 2)) (Normal_Eyring.life_func (p 0) (p 1) g)) = _
        simp only [hl]
      · rintro u rfl
        change (groups.map fun g => Normal_Eyring.life_func (p 0) (p 1) u / Normal_Eyring.life_func (p 0) (p 1) g) = _
        simp only [hl]
      · rintro rfl; rfl
    · intro hm hd SE Z F C use groups hF hC hG
      exact Reliability.Props.ALT.C59_Normal_Eyring (p 0) (p 1) (p 2)  hd SE Z F C use groups hF hC hG
  isOpen := by
    have : {v : Fin 3 → ℝ | Legal "Normal" "Eyring" v} = {v : Fin 3 → ℝ | 0 < v 2} := by
      ext v
      constructor
      · rintro ⟨m, d, h, hm, hd⟩
        have h : some ((.eyring (v 0) (v 1)), (.normal (v 2))) = some (m, d) := h
        cases h
        exact hd
      · rintro hd
        exact ⟨(.eyring (v 0) (v 1)), (.normal (v 2)), rfl, trivial, hd⟩
    change IsOpen {v : Fin 3 → ℝ | Legal "Normal" "Eyring" v}
    rw [this]
    exact isOpen_pos (2 : Fin 3)
  guess := by
    intro ls s h
    match ls, h with
    | [x, y], _ => rfl

theorem lawful_normalPower : Lawful normalPower lifeAt1 (fun s : ℝ => 0 < s) where
  names := rfl
  count := rfl
  model := by
    intro (p : Fin 3 → ℝ)
    have hl : ∀ s : ℝ, Normal_Power.life_func (p 0) (p 1) s = lifeAt1 (.power (p 0) (p 1)) s := by
      intro s
      simp only [Normal_Power.life_func, lifeAt1, LifeStress.life]
    refine ⟨(.power (p 0) (p 1)), (.normal (p 2)), rfl, rfl, ?_, ?_⟩
    · intro SE Z F C Fs Cs use groups
      refine ⟨rfl, rfl, ?_, ?_, ?_⟩
      · change (groups.map fun g => LifeDist.scale (.normal (p 2)) (Normal_Power.life_func (p 0) (p 1) g)) = _
        simp only [hl]
      · rintro u rfl
        change (groups.map fun g => Normal_Power.life_func (p 0) (p 1) u / Normal_Power.life_func (p 0) (p 1) g) = _
        simp only [hl]
      · rintro rfl; rfl
    · intro hm hd SE Z F C use groups hF hC hG
      exact Reliability.Props.ALT.C59_Normal_Power (p 0) (p 1) (p 2) hm hd SE Z F C use groups hF hC hG
  isOpen := by
    have : {v : Fin 3 → ℝ | Legal "Normal" "Power" v} = {v : Fin 3 → ℝ | 0 < v 0} ∩ {v : Fin 3 → ℝ | 0 < v 2} := by
      ext v
      constructor
      · rintro ⟨m, d, h, hm, hd⟩
        have h : some ((.power (v 0) (v 1)), (.normal (v 2))) = some (m, d) := h
        cases h
        exact ⟨hm, hd⟩
      · rintro ⟨hm, hd⟩
        exact ⟨(.power (v 0) (v 1)), (.normal (v 2)), rfl, hm, hd⟩
    change IsOpen {v : Fin 3 → ℝ | Legal "Normal" "Power" v}
    rw [this]
    exact (isOpen_pos (0 : Fin 3)).inter (isOpen_pos (2 : Fin 3))
  guess := by
    intro ls s h
    match ls, h with
    | [x, y], _ => rfl

theorem lawful_normalDualExponential : Lawful normalDualExponential lifeAt2 (fun s : ℝ × ℝ => 0 < s.1 ∧ 0 < s.2) where
  names := rfl
  count := rfl
  model := by
    intro (p : Fin 4 → ℝ)
    have hl : ∀ s : ℝ × ℝ, Normal_Dual_Exponential.life_func (p 0) (p 1) (p 2) s.1 s.2 = lifeAt2 (.dualExponential (p 0) (p 1) (p 2)) s := by
      intro s
      simp only [Normal_Dual_Exponential.life_func, lifeAt2, LifeStress.life]
    refine ⟨(.dualExponential (p 0) (p 1) (p 2)), (.normal (p 3)), rfl, rfl, ?_, ?_⟩
    · intro SE Z F C Fs Cs use groups
      refine ⟨rfl, rfl, ?_, ?_, ?_⟩
      · change (groups.map fun g => LifeDist.scale (.normal (p 3)) (Normal_Dual_Exponential.life_func (p 0) (p 1) (p 2) g.1 g.2)) = _
        simp only [hl]
      · rintro u rfl
        change (groups.map fun g => Normal_Dual_Exponential.life_func (p 0) (p 1) (p 2) u.1 u.2 / Normal_Dual_Exponential.life_func (p 0) (p 1) (p 2) g.1 g.2) = _
        simp only [hl]
      · rintro rfl; rfl
    · intro hm hd SE Z F C use groups hF hC hG
      have := Reliability.Props.ALT.C59_Normal_Dual_Exponential (p 0) (p 1) (p 2) (p 3) hm hd SE Z F C use groups hF hC hG
      rw [← map_snd1, ← map_snd2, ← map_snd1, ← map_snd2] at this
      exact this
  isOpen := by
    have : {v : Fin 4 → ℝ | Legal "Normal" "Dual_Exponential" v} = {v : Fin 4 → ℝ | 0 < v 2} ∩ {v : Fin 4 → ℝ | 0 < v 3} := by
      ext v
      constructor
      · rintro ⟨m, d, h, hm, hd⟩
        have h : some ((.dualExponential (v 0) (v 1) (v 2)), (.normal (v 3))) = some (m, d) := h
        cases h
        exact ⟨hm, hd⟩
      · rintro ⟨hm, hd⟩
        exact ⟨(.dualExponential (v 0) (v 1) (v 2)), (.normal (v 3)), rfl, hm, hd⟩
    change IsOpen {v : Fin 4 → ℝ | Legal "Normal" "Dual_Exponential" v}
    rw [this]
    exact (isOpen_pos (2 : Fin 4)).inter (isOpen_pos (3 : Fin 4))
  guess := by
    intro ls s h
    match ls, h with
    | [x, y, z], _ => rfl

theorem lawful_normalPowerExponential : Lawful normalPowerExponential lifeAt2 (fun s : ℝ × ℝ => 0 < s.1 ∧ 0 < s.2) where
  names := rfl
  count := rfl
  model := by
    intro (p : Fin 4 → ℝ)
    have hl : ∀ s : ℝ × ℝ, Normal_Power_Exponential.life_func (p 0) (p 1) (p 2) s.1 s.2 = lifeAt2 (.powerExponential (p 0) (p 1) (p 2)) s := by
      intro s
      simp only [Normal_Power_Exponential.life_func, lifeAt2, LifeStress.life]
    refine ⟨(.powerExponential (p 0) (p 1) (p 2)), (.normal (p 3)), rfl, rfl, ?_, ?_⟩
    · intro SE Z F C Fs Cs use groups
      refine ⟨rfl, rfl, ?_, ?_, ?_⟩
      · change (groups.map fun g => LifeDist.scale (.normal (p 3)) (Normal_Power_Exponential.life_func (p 0) (p 1) (p 2) g.1 g.2)) = _
        simp only [hl]
      · rintro u rfl
        change (groups.map fun g => Normal_Power_Exponential.life_func (p 0) (p 1) (p 2) u.1 u.2 / Normal_Power_Exponential.life_func (p 0) (p 1) (p 2) g.1 g.2) = _
        simp only [hl]
      · rintro rfl; rfl
    · intro hm hd SE Z F C use groups hF hC hG
      have := Reliability.Props.ALT.C59_Normal_Power_Exponential (p 0) (p 1) (p 2) (p 3) hm hd SE Z F C use groups hF hC hG
      rw [← map_snd1, ← map_snd2, ← map_snd1, ← map_snd2] at this
      exact this
  isOpen := by
    have : {v : Fin 4 → ℝ | Legal "Normal" "Power_Exponential" v} = {v : Fin 4 → ℝ | 0 < v 1} ∩ {v : Fin 4 → ℝ | 0 < v 3} := by
      ext v
      constructor
      · rintro ⟨m, d, h, hm, hd⟩
        have h : some ((.powerExponential (v 0) (v 1) (v 2)), (.normal (v 3))) = some (m, d) := h
        cases h
        exact ⟨hm, hd⟩
      · rintro ⟨hm, hd⟩
        exact ⟨(.powerExponential (v 0) (v 1) (v 2)), (.normal (v 3)), rfl, hm, hd⟩
    change IsOpen {v : Fin 4 → ℝ | Legal "Normal" "Power_Exponential" v}
    rw [this]
    exact (isOpen_pos (1 : Fin 4)).inter (isOpen_pos (3 : Fin 4))
  guess := by
    intro ls s h
    match ls, h with
    | [x, y, z], _ => rfl

theorem lawful_normalDualPower : Lawful normalDualPower lifeAt2 (fun s : ℝ × ℝ => 0 < s.1 ∧ 0 < s.2) where
  names := rfl
  count := rfl
  model := by
    intro (p : Fin 4 → ℝ)
    have hl : ∀ s : ℝ × ℝ, Normal_Dual_Power.life_func (p 0) (p 1) (p 2) s.1 s.2 = lifeAt2 (.dualPower (p 0) (p 1) (p 2)) s := by
      intro s
      simp only [Normal_Dual_Power.life_func, lifeAt2, LifeStress.life]
    refine ⟨(.dualPower (p 0) (p 1) (p 2)), (.normal (p 3)), rfl, rfl, ?_, ?_⟩
    · intro SE Z F C Fs Cs use groups
      refine ⟨rfl, rfl, ?_, ?_, ?_⟩
      · change (groups.map fun g => LifeDist.scale (.normal (p 3)) (Normal_Dual_Power.life_func (p 0) (p 1) (p 2) g.1 g.2)) = _
        simp only [hl]
      · rintro u rfl
        change (groups.map fun g => Normal_Dual_Power.life_func (p 0) (p 1) (p 2) u.1 u.2 / Normal_Dual_Power.life_func (p 0) (p 1) (p 2) g.1 g.2) = _
        simp only [hl]
      · rintro rfl; rfl
    · intro hm hd SE Z F C use groups hF hC hG
      have := Reliability.Props.ALT.C59_Normal_Dual_Power (p 0) (p 1) (p 2) (p 3) hm hd SE Z F C use groups hF hC hG
      rw [← map_snd1, ← map_snd2, ← map_snd1, ← map_snd2] at this
      exact this
  isOpen := by
    have : {v : Fin 4 → ℝ | Legal "Normal" "Dual_Power" v} = {v : Fin 4 → ℝ | 0 < v 0} ∩ {v : Fin 4 → ℝ | 0 < v 3} := by
      ext v
      constructor
      · rintro ⟨m, d, h, hm, hd⟩
        have h : some ((.dualPower (v 0) (v 1) (v 2)), (.normal (v 3))) = some (m, d) := h
        cases h
        exact ⟨hm, hd⟩
      · rintro ⟨hm, hd⟩
        exact ⟨(.dualPower (v 0) (v 1) (v 2)), (.normal (v 3)), rfl, hm, hd⟩
    change IsOpen {v : Fin 4 → ℝ | Legal "Normal" "Dual_Power" v}
    rw [this]
    exact (isOpen_pos (0 : Fin 4)).inter (isOpen_pos (3 : Fin 4))
  guess := by
    intro ls s h
    match ls, h with
    | [x, y, z], _ => rfl

theorem lawful_exponentialExponential : Lawful exponentialExponential lifeAt1 (fun s : ℝ => 0 < s) where
  names := rfl
  count := rfl
  model := by
    intro (p : Fin 2 → ℝ)
    have hl : ∀ s : ℝ, Exponential_Exponential.life_func (p 0) (p 1) s = lifeAt1 (.exponential (p 0) (p 1)) s := by
      intro s
      simp only [Exponential_Exponential.life_func, lifeAt1, LifeStress.life]
    refine ⟨(.exponential (p 0) (p 1)), .exponential, rfl, rfl, ?_, ?_⟩
    · intro SE Z F C Fs Cs use groups
      refine ⟨rfl, rfl, ?_, ?_, ?_⟩
      · change (groups.map fun g => LifeDist.scale .exponential (Exponential_Exponential.life_func (p 0) (p 1) g)) = _
        simp only [hl]
      · rintro u rfl
        change (groups.map fun g => Exponential_Exponential.life_func (p 0) (p 1) u / Exponential_Exponential.life_func (p 0) (p 1) g) = _
        simp only [hl]
      · rintro rfl; rfl
    · intro hm hd SE Z F C use groups hF hC hG
      exact Reliability.Props.ALT.C59_Exponential_Exponential (p 0) (p 1) hm SE Z F C use groups hF hC hG
  isOpen := by
    have : {v : Fin 2 → ℝ | Legal "Exponential" "Exponential" v} = {v : Fin 2 → ℝ | 0 < v 1} := by
      ext v
      constructor
      · rintro ⟨m, d, h, hm, hd⟩
        have h : some ((.exponential (v 0) (v 1)), .exponential) = some (m, d) := h
        cases h
        exact hm
      · rintro hm
        exact ⟨(.exponential (v 0) (v 1)), .exponential, rfl, hm, trivial⟩
    change IsOpen {v : Fin 2 → ℝ | Legal "Exponential" "Exponential" v}
    rw [this]
    exact isOpen_pos (1 : Fin 2)
  guess := by
    intro ls s h
    match ls, h with
    | [x, y], _ => rfl

theorem lawful_exponentialEyring : Lawful exponentialEyring lifeAt1 (fun s : ℝ => 0 < s) where
  names := rfl
  count := rfl
  model := by
    intro (p : Fin 2 → ℝ)
    have hl : ∀ s : ℝ, Exponential_Eyring.life_func (p 0) (p 1) s = lifeAt1 (.eyring (p 0) (p 1)) s := by
      intro s
      simp only [Exponential_Eyring.life_func, lifeAt1, LifeStress.life, Reliability.Props.ALT.eyring_life_eq]
    refine ⟨(.eyring (p 0) (p 1)), .exponential, rfl, rfl, ?_, ?_⟩
    · intro SE Z F C Fs Cs use groups
      refine ⟨rfl, rfl, ?_, ?_, ?_⟩
      · change (groups.map fun g => LifeDist.scale .exponential (Exponential_Eyring.life_func (p 0) (p 1) g)) = _
        simp only [hl]
      · rintro u rfl
        change (groups.map fun g => Exponential_Eyring.life_func (p 0) (p 1) u / Exponential_Eyring.life_func (p 0) (p 1) g) = _
        simp only [hl]
      · rintro rfl; rfl
    · intro hm hd SE Z F C use groups hF hC hG
      exact Reliability.Props.ALT.C59_Exponential_Eyring (p 0) (p 1)  SE Z F C use groups hF hC hG
  isOpen := by
    have : {v : Fin 2 → ℝ | Legal "Exponential" "Eyring" v} = Set.univ := by
      ext v
      constructor
      · rintro ⟨m, d, h, hm, hd⟩
        have h : some ((.eyring (v 0) (v 1)), .exponential) = some (m, d) := h
        cases h
        exact trivial
      · intro _
        exact ⟨(.eyring (v 0) (v 1)), .exponential, rfl, trivial, trivial⟩
    change IsOpen {v : Fin 2 → ℝ | Legal "Exponential" "Eyring" v}
    rw [this]
    exact isOpen_univ
  guess := by
    intro ls s h
    match ls, h with
    | [x, y], _ => rfl

theorem lawful_exponentialPower : Lawful exponentialPower lifeAt1 (fun s : ℝ => 0 < s) where
  names := rfl
  count := rfl
  model := by
    intro (p : Fin 2 → ℝ)
    have hl : ∀ s : ℝ, Exponential_Power.life_func (p 0) (p 1) s = lifeAt1 (.power (p 0) (p 1)) s := by
      intro s
      simp only [Exponential_Power.life_func, lifeAt1, LifeStress.life]
    refine ⟨(.power (p 0) (p 1)), .exponential, rfl, rfl, ?_, ?_⟩
    · intro SE Z F C Fs Cs use groups
      refine ⟨rfl, rfl, ?_, ?_, ?_⟩
      · change (groups.map fun g => LifeDist.scale .exponential (Exponential_Power.life_func (p 0) (p 1) g)) = _
        simp only [hl]
      · rintro u rfl
        change (groups.map fun g => Exponential_Power.life_func (p 0) (p 1) u / Exponential_Power.life_func (p 0) (p 1) g) = _
        simp only [hl]
      · rintro rfl; rfl
    · intro hm hd SE Z F C use groups hF hC hG
      exact Reliability.Props.ALT.C59_Exponential_Power (p 0) (p 1) hm SE Z F C use groups hF hC hG
  isOpen := by
    have : {v : Fin 2 → ℝ | Legal "Exponential" "Power" v} = {v : Fin 2 → ℝ | 0 < v 0} := by
      ext v
      constructor
      · rintro ⟨m, d, h, hm, hd⟩
        have h : some ((.power (v 0) (v 1)), .exponential) = some (m, d) := h
        cases h
        exact hm
      · rintro hm
        exact ⟨(.power (v 0) (v 1)), .exponential, rfl, hm, trivial⟩
    change IsOpen {v : Fin 2 → ℝ | Legal "Exponential" "Power" v}
    rw [this]
    exact isOpen_pos (0 : Fin 2)
  guess := by
    intro ls s h
    match ls, h with
    | [x, y], _ => rfl

theorem lawful_exponentialDualExponential : Lawful exponentialDualExponential lifeAt2 (fun s : ℝ × ℝ => 0 < s.1 ∧ 0 < s.2) where
  names := rfl
  count := rfl
  model := by
    intro (p : Fin 3 → ℝ)
    have hl : ∀ s : ℝ × ℝ, Exponential_Dual_Exponential.life_func (p 0) (p 1) (p 2) s.1 s.2 = lifeAt2 (.dualExponential (p 0) (p 1) (p 2)) s := by
      intro s
      simp only [Exponential_Dual_Exponential.life_func, lifeAt2, LifeStress.life]
    refine ⟨(.dualExponential (p 0) (p 1) (p 2)), .exponential, rfl, rfl, ?_, ?_⟩
    · intro SE Z F C Fs Cs use groups
      refine ⟨rfl, rfl, ?_, ?_, ?_⟩
      · change (groups.map fun g => LifeDist.scale .exponential (Exponential_Dual_Exponential.life_func (p 0) (p 1) (p 2) g.1 g.2)) = _
        simp only [hl]
      · rintro u rfl
        change (groups.map fun g => Exponential_Dual_Exponential.life_func (p 0) (p 1) (p 2) u.1 u.2 / Exponential_Dual_Exponential.life_func (p 0) (p 1) (p 2) g.1 g.2) = _
        simp only [hl]
      · rintro rfl; rfl
    · intro hm hd SE Z F C use groups hF hC hG
      have := Reliability.Props.ALT.C59_Exponential_Dual_Exponential (p 0) (p 1) (p 2) hm SE Z F C use groups hF hC hG
      rw [← map_snd1, ← map_snd2, ← map_snd1, ← map_snd2] at this
      exact this
  isOpen := by
    have : {v : Fin 3 → ℝ | Legal "Exponential" "Dual_Exponential" v} = {v : Fin 3 → ℝ | 0 < v 2} := by
      ext v
      constructor
      · rintro ⟨m, d, h, hm, hd⟩
        have h : some ((.dualExponential (v 0) (v 1) (v 2)), .exponential) = some (m, d) := h
        cases h
        exact hm
      · rintro hm
        exact ⟨(.dualExponential (v 0) (v 1) (v 2)), .exponential, rfl, hm, trivial⟩
    change IsOpen {v : Fin 3 → ℝ | Legal "Exponential" "Dual_Exponential" v}
    rw [this]
    exact isOpen_pos (2 : Fin 3)
  guess := by
    intro ls s h
    match ls, h with
    | [x, y, z], _ => rfl

theorem lawful_exponentialPowerExponential : Lawful exponentialPowerExponential lifeAt2 (fun s : ℝ × ℝ => 0 < s.1 ∧ 0 < s.2) where
  names := rfl
  count := rfl
  model := by
    intro (p : Fin 3 → ℝ)
    have hl : ∀ s : ℝ × ℝ, Exponential_Power_Exponential.life_func (p 0) (p 1) (p 2) s.1 s.2 = lifeAt2 (.powerExponential (p 0) (p 1) (p 2)) s := by
      intro s
      simp only [Exponential_Power_Exponential.life_func, lifeAt2, LifeStress.life]
    refine ⟨(.powerExponential (p 0) (p 1) (p 2)), .exponential, rfl, rfl, ?_, ?_⟩
    · intro SE Z F C Fs Cs use groups
      refine ⟨rfl, rfl, ?_, ?_, ?_⟩
      · change (groups.map fun g => LifeDist.scale .exponential (Exponential_Power_Exponential.life_func (p 0) (p 1) (p 2) g.1 g.2)) = _
        simp only [hl]
      · rintro u rfl
        change (groups.map fun g => Exponential_Power_Exponential.life_func (p 0) (p 1) (p 2) u.1 u.2 / Exponential_Power_Exponential.life_func (p 0) (p 1) (p 2) g.1 g.2) = _
        simp only [hl]
      · rintro rfl; rfl
    · intro hm hd SE Z F C use groups hF hC hG
      have := Reliability.Props.ALT.C59_Exponential_Power_Exponential (p 0) (p 1) (p 2) hm SE Z F C use groups hF hC hG
      rw [← map_snd1, ← map_snd2, ← map_snd1, ← map_snd2] at this
      exact this
  isOpen := by
    have : {v : Fin 3 → ℝ | Legal "Exponential" "Power_Exponential" v} = {v : Fin 3 → ℝ | 0 < v 1} := by
      ext v
      constructor
      · rintro ⟨m, d, h, hm, hd⟩
        have h : some ((.powerExponential (v 0) (v 1) (v 2)), .exponential) = some (m, d) := h
        cases h
        exact hm
      · rintro hm
        exact ⟨(.powerExponential (v 0) (v 1) (v 2)), .exponential, rfl, hm, trivial⟩
    change IsOpen {v : Fin 3 → ℝ | Legal "Exponential" "Power_Exponential" v}
    rw [this]
    exact isOpen_pos (1 : Fin 3)
  guess := by
    intro ls s h
    match ls, h with
    | [x, y, z], _ => rfl

theorem lawful_exponentialDualPower : Lawful exponentialDualPower lifeAt2 (fun s : ℝ × ℝ => 0 < s.1 ∧ 0 < s.2) where
  names := rfl
  count := rfl
  model := by
    intro (p : Fin 3 → ℝ)
    have hl : ∀ s : ℝ × ℝ, Exponential_Dual_Power.life_func (p 0) (p 1) (p 2) s.1 s.2 = lifeAt2 (.dualPower (p 0) (p 1) (p 2)) s := by
      intro s
      simp only [Exponential_Dual_Power.life_func, lifeAt2, LifeStress.life]
    refine ⟨(.dualPower (p 0) (p 1) (p 2)), .exponential, rfl, rfl, ?_, ?_⟩
    · intro SE Z F C Fs Cs use groups
      refine ⟨rfl, rfl, ?_, ?_, ?_⟩
      · change (groups.map fun g => LifeDist.scale .exponential (Exponential_Dual_Power.life_func (p 0) (p 1) (p 2) g.1 g.2)) = _
        simp only [hl]
      · rintro u rfl
        change (groups.map fun g => Exponential_Dual_Power.life_func (p 0) (p 1) (p 2) u.1 u.2 / Exponential_Dual_Power.life_func (p 0) (p 1) (p 2) g.1 g.2) = _
        simp only [hl]
      · rintro rfl; rfl
    · intro hm hd SE Z F C use groups hF hC hG
      have := Reliability.Props.ALT.C59_Exponential_Dual_Power (p 0) (p 1) (p 2) hm SE Z F C use groups hF hC hG
      rw [← map_snd1, ← map_snd2, ← map_snd1, ← map_snd2] at this
      exact this
  isOpen := by
    have : {v : Fin 3 → ℝ | Legal "Exponential" "Dual_Power" v} = {v : Fin 3 → ℝ | 0 < v 0} := by
      ext v
      constructor
      · rintro ⟨m, d, h, hm, hd⟩
        have h : some ((.dualPower (v 0) (v 1) (v 2)), .exponential) = some (m, d) := h
        cases h
        exact hm
      · rintro hm
        exact ⟨(.dualPower (v 0) (v 1) (v 2)), .exponential, rfl, hm, trivial⟩
    change IsOpen {v : Fin 3 → ℝ | Legal "Exponential" "Dual_Power" v}
    rw [this]
    exact isOpen_pos (0 : Fin 3)
  guess := by
    intro ls s h
    match ls, h with
    | [x, y, z], _ => rfl

theorem lawful_single : ∀ c ∈ singleClasses, Lawful c lifeAt1 (fun s : ℝ => 0 < s) := by
  intro c hc
  simp only [singleClasses, List.mem_cons, List.not_mem_nil, or_false] at hc
  rcases hc with rfl | rfl | rfl | rfl | rfl | rfl | rfl | rfl | rfl | rfl | rfl | rfl
  · exact lawful_weibullExponential
  · exact lawful_weibullEyring
  · exact lawful_weibullPower
  · exact lawful_lognormalExponential
  · exact lawful_lognormalEyring
  · exact lawful_lognormalPower
  · exact lawful_normalExponential
  · exact lawful_normalEyring
  · exact lawful_normalPower
  · exact lawful_exponentialExponential
  · exact lawful_exponentialEyring
  · exact lawful_exponentialPower

theorem lawful_dual : ∀ c ∈ dualClasses, Lawful c lifeAt2 (fun s : ℝ × ℝ => 0 < s.1 ∧ 0 < s.2) := by
  intro c hc
  simp only [dualClasses, List.mem_cons, List.not_mem_nil, or_false] at hc
  rcases hc with rfl | rfl | rfl | rfl | rfl | rfl | rfl | rfl | rfl | rfl | rfl | rfl
  · exact lawful_weibullDualExponential
  · exact lawful_weibullPowerExponential
  · exact lawful_weibullDualPower
  · exact lawful_lognormalDualExponential
  · exact lawful_lognormalPowerExponential
  · exact lawful_lognormalDualPower
  · exact lawful_normalDualExponential
  · exact lawful_normalPowerExponential
  · exact lawful_normalDualPower
  · exact lawful_exponentialDualExponential
  · exact lawful_exponentialPowerExponential
  · exact lawful_exponentialDualPower

end Reliability.Props.ALTGlue
