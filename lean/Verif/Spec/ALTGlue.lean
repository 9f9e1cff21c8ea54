import Verif.Model.ALTGlue
import Verif.Spec.ALT
import Verif.Spec.ALTLeastSquares
import Verif.Spec.FitGlue

/-!
# Specification of what an ALT fitter object reports (C110, C111)

Only the attributes of the object (`ALTRes`), the arguments (`ALTArgs`), the fitters of single distributions, the distribution
functions and the specifications of earlier properties are used.  `σ` is the type of a stress: a number, or a pair for the
dual-stress models; `lifeAt` is the life at a stress.
-/

namespace Reliability.Spec.ALTGlue

open Reliability Reliability.ALT Reliability.InputCheck Reliability.FitGlue Reliability.ALTGlue
open Reliability.FunctionCI (Two Jac)
open Reliability.ALTLeastSquares (altLeastSquares)
open Reliability.Spec Reliability.Spec.FitGlue

/-- Parameters of the life-stress model, in the documented order, and the scale of their intervals: positive parameters have
intervals on the log scale. -/
def stressParameters : String → List (String × Scale)
  | "Exponential" => [("a", .linear), ("b", .log)]
  | "Eyring" => [("a", .linear), ("c", .linear)]
  | "Power" => [("a", .log), ("n", .linear)]
  | "Dual_Exponential" => [("a", .linear), ("b", .linear), ("c", .log)]
  | "Power_Exponential" => [("a", .linear), ("c", .log), ("n", .linear)]
  | "Dual_Power" => [("c", .log), ("m", .linear), ("n", .linear)]
  | _ => []

/-- The shape parameter of the life distribution. -/
def shapeParameters : String → List (String × Scale)
  | "Weibull" => [("beta", .log)]
  | "Lognormal" => [("sigma", .log)]
  | "Normal" => [("sigma", .log)]
  | _ => []

/-- All the parameters of a class. -/
def parameters (dist model : String) : List (String × Scale) := stressParameters model ++ shapeParameters dist

/-- The life distribution with the given shape. -/
def lifeDist : String → List ℝ → Option LifeDist
  | "Weibull", [beta] => some (.weibull beta)
  | "Lognormal", [sigma] => some (.lognormal sigma)
  | "Normal", [sigma] => some (.normal sigma)
  | "Exponential", [] => some .exponential
  | _, _ => none

/-- The model with parameters `ps`, in the order of `parameters`. -/
def altModel (dist model : String) (ps : List ℝ) : Option (LifeStress × LifeDist) :=
  match stressModel model (ps.take (stressParameters model).length), lifeDist dist (ps.drop (stressParameters model).length) with
  | some m, some d => some (m, d)
  | _, _ => none

/-- The shape shown in the table of changes; an Exponential distribution is a Weibull distribution of shape 1. -/
def shapeOf : LifeDist → ℝ
  | .weibull beta => beta
  | .lognormal sigma => sigma
  | .normal sigma => sigma
  | .exponential => 1

/-- The likelihood of the failures `F` and right censored units `C`. -/
noncomputable def altLikelihood {σ : Type} (lifeAt : LifeStress → σ → ℝ) (m : LifeStress) (d : LifeDist) (F C : List (ℝ × σ)) :
    ℝ :=
  (F.map fun i => (d.dist (lifeAt m i.2)).sp.pdf i.1).prod * (C.map fun i => (d.dist (lifeAt m i.2)).sp.sf i.1).prod

/-- `ℓ` is the log-likelihood of the failures `F` and right censored units `C` (time and stress) as a function of the
parameters, where these are admissible. -/
def IsALTLogLik {σ : Type} {n : ℕ} (dist model : String) (lifeAt : LifeStress → σ → ℝ) (F C : List (ℝ × σ))
    (ℓ : (Fin n → ℝ) → ℝ) : Prop :=
  ∀ v m d, altModel dist model (List.ofFn v) = some (m, d) → m.Valid → d.Valid →
    Real.exp (ℓ v) = altLikelihood lifeAt m d F C

/-- `V` is the inverse of the observed information at `p` (`none`: it is singular). -/
def ALTInverseInformation {σ : Type} {n : ℕ} (dist model : String) (lifeAt : LifeStress → σ → ℝ) (F C : List (ℝ × σ))
    (p : Fin n → ℝ) (V : Option (Matrix (Fin n) (Fin n) ℝ)) : Prop :=
  ∀ ℓ, IsALTLogLik dist model lifeAt F C ℓ →
    match V with
    | some V => secondPartials (fun v => -ℓ v) p * V = 1
    | none => ¬ ∃ V, secondPartials (fun v => -ℓ v) p * V = 1

/-- The units at stress `s`. -/
def unitsAt {σ : Type} [DecidableEq σ] (l : List (ℝ × σ)) (s : σ) : List ℝ := (l.filter fun i => decide (i.2 = s)).map Prod.fst

/-- The fit of one stress on its own: `Fit_Lognormal_2P`, `Fit_Normal_2P`, and `Fit_Weibull_2P` for both Weibull and
Exponential, with default settings. -/
def FitOf (dist : String) (argsort : List ℝ → List ℕ) (J : Jac) (num : Option ℝ → Num2) (f : List ℝ) (rc : DataArg ℝ)
    (r : FitRes Two) : Prop :=
  match dist with
  | "Lognormal" => fitLognormal2P argsort J num { failures := .array f, right_censored := rc } = .ok r
  | "Normal" => fitNormal2P argsort J num { failures := .array f, right_censored := rc } = .ok r
  | _ => fitWeibull2P argsort J num { failures := .array f, right_censored := rc } = .ok r

/-- The mean of a non-empty list, 1 for the empty list. -/
noncomputable def meanOr1 (l : List ℝ) : ℝ := if l = [] then 1 else l.sum / l.length

/-- The object `res` reports the fit of `dist` at the life of `model` to the failures `F` and right censored units `C`; `ls` is
the least squares estimate of the life-stress model. -/
def ALTReport {σ : Type} [DecidableEq σ] (dist model : String) (lifeAt : LifeStress → σ → ℝ) (pos : σ → Prop)
    (argsort : List ℝ → List ℕ) (J : Jac) (num : ℕ → Option ℝ → Num2) (ls : List ℝ)
    (F C : List (ℝ × σ)) (use : Option σ) (CI : ℝ) (res : ALTRes σ) : Prop :=
  ∃ (n : ℕ) (p : Fin n → ℝ) (m : LifeStress) (d : LifeDist) (V : Option (Matrix (Fin n) (Fin n) ℝ)),
    -- the estimates and the model they stand for
    altModel dist model (List.ofFn p) = some (m, d) ∧
    res.rows.map (fun w => (w.name, w.point)) = ((parameters dist model).map Prod.fst).zip (List.ofFn p) ∧
    n = (parameters dist model).length ∧
    -- bounds at the confidence level, standard errors from the information
    (∃ z, TwoSidedZ CI z ∧ List.Forall₂ (Interval z) res.rows ((parameters dist model).map Prod.snd)) ∧
    res.rows.map Row.SE = List.ofFn (fun i => stdErr V i) ∧
    res.loglik2 = -2 * res.fit.loglik ∧
    -- for admissible estimates and positive stresses: information, likelihood, criteria, use level
    (m.Valid → d.Valid → (∀ i ∈ F, pos i.2) → (∀ i ∈ C, pos i.2) → ALTInverseInformation dist model lifeAt F C p V ∧
      IsALTFit d n (lifeAt m) F C use (res.change.map Change.stress) res.fit) ∧
    -- one row per stress in the table of changes: the model, and the acceleration factor
    (res.change.map Change.stress).Nodup ∧ (∀ i ∈ F, i.2 ∈ res.change.map Change.stress) ∧
    (∀ w ∈ res.change, (∃ t, (t, w.stress) ∈ F) ∧ w.newScale = d.scale (lifeAt m w.stress) ∧ w.commonShape = shapeOf d ∧
      w.AF = use.map fun u => lifeAt m u / lifeAt m w.stress) ∧
    -- the columns of the original fits: missing for a single failure
    ((∀ i ∈ C, ∃ t, (t, i.2) ∈ F) → ∃ originals : List (Option (FitRes Two)),
      List.Forall₂ (fun w o =>
        ((unitsAt F w.stress).length = 1 → o = none) ∧
        ((unitsAt F w.stress).length ≠ 1 → ∃ i r, o = some r ∧ FitOf dist argsort J (num i) (unitsAt F w.stress)
            (if C = [] then .none else .array (unitsAt C w.stress)) r) ∧
        w.scale = o.map (fun r => r.dist.a) ∧
        (∀ r, o = some r → r.dist.b ≠ 0 → w.shape = some r.dist.b ∧
          w.change = some ((w.commonShape - r.dist.b) / r.dist.b)) ∧
        (o = none → w.shape = none ∧ w.change = none)) res.change originals ∧
      -- if no optimizer succeeded the estimates are the initial guess
      (res.success = false → res.optimizer = none ∧ List.ofFn p = ls ++
        if dist = "Exponential" then [] else [meanOr1 (originals.filterMap fun o => o.map fun r => r.dist.b)])) ∧
    (res.success = true → ∃ o ∈ ["TNC", "L-BFGS-B", "nelder-mead", "powell"], res.optimizer = some o)

/-- The units given to a single-stress fitter. -/
def UsedSingle (x : ALTArgs) (F C : List (ℝ × ℝ)) : Prop :=
  x.failures = .array (F.map Prod.fst) ∧ x.failure_stress_1 = .array (F.map Prod.snd) ∧
  (x.right_censored = .none ∧ C = [] ∨
    x.right_censored = .array (C.map Prod.fst) ∧ x.right_censored_stress_1 = .array (C.map Prod.snd))

/-- The units given to a dual-stress fitter. -/
def UsedDual (x : ALTArgs) (F C : List (ℝ × ℝ × ℝ)) : Prop :=
  x.failures = .array (F.map Prod.fst) ∧ x.failure_stress_1 = .array (F.map fun i => i.2.1) ∧
  x.failure_stress_2 = .array (F.map fun i => i.2.2) ∧
  (x.right_censored = .none ∧ C = [] ∨
    x.right_censored = .array (C.map Prod.fst) ∧ x.right_censored_stress_1 = .array (C.map fun i => i.2.1) ∧
    x.right_censored_stress_2 = .array (C.map fun i => i.2.2))

/-- The use level stress of a single-stress fitter. -/
def UseSingle (x : ALTArgs) (use : Option ℝ) : Prop :=
  x.use_level_stress = .none ∧ use = none ∨ ∃ u, x.use_level_stress = .num u ∧ use = some u

/-- The use level stress of a dual-stress fitter. -/
def UseDual (x : ALTArgs) (use : Option (ℝ × ℝ)) : Prop :=
  x.use_level_stress = .none ∧ use = none ∨ ∃ u v, x.use_level_stress = .array [u, v] ∧ use = some (u, v)

/-- Life at a stress, one or two stresses. -/
noncomputable def lifeAt1 (m : LifeStress) (s : ℝ) : ℝ := m.life s 1
/-- Life at a stress, two stresses. -/
noncomputable def lifeAt2 (m : LifeStress) (s : ℝ × ℝ) : ℝ := m.life s.1 s.2

end Reliability.Spec.ALTGlue
