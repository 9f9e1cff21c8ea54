import Verif.Spec.ALTGlue
import Verif.Props.ALT
import Verif.Model.ALTClasses

/-! # What the proofs about the ALT fitters use of a class -/

namespace Reliability.Props.ALTGlue

open Reliability Reliability.ALT Reliability.ALTGlue Reliability.Spec Reliability.Spec.ALTGlue
open Reliability.Spec.FitGlue (Scale)

/-- The flag of a parameter in `ciBounds`. -/
def isLog : Scale → Bool
  | .log => true
  | .linear => false

/-- The parameters are admissible. -/
def Legal {n : ℕ} (dist model : String) (v : Fin n → ℝ) : Prop :=
  ∃ m d, altModel dist model (List.ofFn v) = some (m, d) ∧ m.Valid ∧ d.Valid

/-- Facts about a class. -/
structure Lawful {σ : Type} (c : Cls σ) (lifeAt : LifeStress → σ → ℝ) (pos : σ → Prop) : Prop where
  names : c.names = (parameters c.dist c.model).map Prod.fst
  count : c.n = (parameters c.dist c.model).length
  model : ∀ p : Fin c.n → ℝ, ∃ m d, altModel c.dist c.model (List.ofFn p) = some (m, d) ∧ c.shape p = shapeOf d ∧
    (∀ SE Z F C Fs Cs use groups,
      (c.fit p SE Z F C Fs Cs use groups).loglik = 2 * c.LL p F C Fs Cs * (-0.5) ∧
      (c.fit p SE Z F C Fs Cs use groups).bounds =
        ciBounds ((parameters c.dist c.model).map fun x => isLog x.2) (List.ofFn p) SE Z ∧
      (c.fit p SE Z F C Fs Cs use groups).newScale = groups.map (fun g => d.scale (lifeAt m g)) ∧
      (∀ u, use = some u → (c.fit p SE Z F C Fs Cs use groups).AF = groups.map (fun g => lifeAt m u / lifeAt m g)) ∧
      (use = none → (c.fit p SE Z F C Fs Cs use groups).AF = [])) ∧
    (m.Valid → d.Valid → ∀ SE Z F C use groups, (∀ i ∈ F, 0 < i.1 ∧ pos i.2) → (∀ i ∈ C, 0 < i.1 ∧ pos i.2) →
      (∀ g ∈ groups, pos g) →
      IsALTFit d c.n (lifeAt m) F C use groups
        (c.fit p SE Z (F.map Prod.fst) (C.map Prod.fst) (F.map Prod.snd) (C.map Prod.snd) use groups))
  isOpen : IsOpen {v : Fin c.n → ℝ | Legal c.dist c.model v}
  guess : ∀ ls s, ls.length = (stressParameters c.model).length →
    List.ofFn (c.guess ls s) = ls ++ if c.dist = "Exponential" then [] else [s]

theorem map_snd1 (F : List (ℝ × ℝ × ℝ)) : (F.map Prod.snd).map (fun s : ℝ × ℝ => s.1) = F.map fun i => i.2.1 := by
  rw [List.map_map]; rfl

theorem map_snd2 (F : List (ℝ × ℝ × ℝ)) : (F.map Prod.snd).map (fun s : ℝ × ℝ => s.2) = F.map fun i => i.2.2 := by
  rw [List.map_map]; rfl

theorem isOpen_pos {n : ℕ} (i : Fin n) : IsOpen {v : Fin n → ℝ | 0 < v i} := isOpen_lt continuous_const (continuous_apply i)

end Reliability.Props.ALTGlue
