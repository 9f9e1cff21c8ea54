import Mathlib.Algebra.BigOperators.Group.List.Basic
import Verif.Model.Distributions
import Verif.Model.NumPy

/-!
# Model of Competing_Risks_Model, Mixture_Model and DSZI_Model (Distributions.py:7612-10425)

Exact real arithmetic; a point where a survival function is 0 (floating `nan`/`inf` in `hf`, `chf`) is outside
the theorems' hypotheses where it matters.
-/

namespace Reliability.Combined

open Reliability Reliability.Distributions

/-- The families for which negative xvals are passed on (Distributions.py:7820, 8806). -/
def twoSided (d : Dist) : Bool := decide (d.fam = .normal) || decide (d.fam = .gumbel)

/-- One component's contribution to the accumulated array: the whole of `X` for Normal and Gumbel, otherwise
`np.hstack([Y_negative, f(X_positive)])` (Distributions.py:7814-7830, 8799-8826).  Errors are those of the
component's own function. -/
noncomputable def contribution (f : Dist → List ℝ → Except Err (List ℝ)) (neg : ℝ) (X : List ℝ) (d : Dist) :
    Except Err (List ℝ) :=
  if twoSided d then f d X
  else match f d (X.filter fun x => decide (0 ≤ x)) with
    | .error e => .error e
    | .ok Y => .ok ((X.filter fun x => decide (x < 0)).map (fun _ => neg) ++ Y)

/-- All contributions, stopping at the first error (the loop over `distributions`).  All errors are ValueErrors,
so it does not matter that the code evaluates the two functions of a component before the next component. -/
def collect {α : Type} (f : α → Except Err (List ℝ)) : List α → Except Err (List (List ℝ))
  | [] => .ok []
  | a :: as => match f a with
    | .error e => .error e
    | .ok Y => match collect f as with
      | .error e => .error e
      | .ok Ys => .ok (Y :: Ys)

/-- The arrays kept by `__combiner`. -/
structure Arrays where
  pdf : List ℝ
  cdf : List ℝ
  sf : List ℝ
  hf : List ℝ
  chf : List ℝ

/-- Distributions.py:7804-7808, 8787-8790 — the check on xvals (`min` of an empty array raises ValueError). -/
noncomputable def checkNeg (ds : List Dist) (X : List ℝ) : Except Err Unit :=
  match X.min? with
  | none => valueErr
  | some lo => if lo < 0 ∧ ds.any twoSided = false then valueErr else .ok ()

/-- Distributions.py:7775-7848 — `Competing_Risks_Model.__combiner(xvals)`; a scalar xvals is a list of one. -/
noncomputable def competing (ds : List Dist) (X : List ℝ) : Except Err Arrays :=
  match checkNeg ds X with
  | .error e => .error e
  | .ok _ =>
    match collect (contribution SF 1 X) ds, collect (contribution HF 0 X) ds with
    | .ok ss, .ok hs =>
      let sf := ss.foldl (List.zipWith (· * ·)) (X.map fun _ => 1)
      let hf := hs.foldl (List.zipWith (· + ·)) (X.map fun _ => 0)
      .ok { pdf := List.zipWith (· * ·) sf hf, cdf := sf.map fun s => 1 - s, sf := sf, hf := hf,
            chf := sf.map fun s => -Real.log s }
    | .error e, _ => .error e
    | _, .error e => .error e

/-- Distributions.py:8674-8686 — the proportions kept by `Mixture_Model`. -/
noncomputable def mixtureInit (ds : List Dist) (proportions : Option (List ℝ)) : Except Err (List ℝ) :=
  match proportions with
  | some p => if p.sum ≠ 1 then valueErr else if p.length ≠ ds.length then valueErr else .ok p
  | none => .ok (ds.map fun _ => 1 / (ds.length : ℝ))

/-- A component's contribution times its proportion (Distributions.py:8803-8826). -/
noncomputable def weighted (f : Dist → List ℝ → Except Err (List ℝ)) (X : List ℝ) (dp : Dist × ℝ) :
    Except Err (List ℝ) :=
  if twoSided dp.1 then
    match f dp.1 X with
    | .error e => .error e
    | .ok Y => .ok (Y.map fun y => y * dp.2)
  else match f dp.1 (X.filter fun x => decide (0 ≤ x)) with
    | .error e => .error e
    | .ok Y => .ok ((X.filter fun x => decide (x < 0)).map (fun _ => (0 : ℝ)) ++ Y.map fun y => y * dp.2)

/-- Distributions.py:8762-8840 — `Mixture_Model.__combiner(xvals)`. -/
noncomputable def mixture (ds : List Dist) (props : List ℝ) (X : List ℝ) : Except Err Arrays :=
  match checkNeg ds X with
  | .error e => .error e
  | .ok _ =>
    match collect (weighted CDF X) (ds.zip props), collect (weighted PDF X) (ds.zip props) with
    | .ok cs, .ok ps =>
      let cdf := cs.foldl (List.zipWith (· + ·)) (X.map fun _ => 0)
      let pdf := ps.foldl (List.zipWith (· + ·)) (X.map fun _ => 0)
      .ok { pdf := pdf, cdf := cdf, sf := cdf.map fun c => 1 - c,
            hf := List.zipWith (fun p c => p / (1 - c)) pdf cdf, chf := cdf.map fun c => -Real.log (1 - c) }
    | .error e, _ => .error e
    | _, .error e => .error e

/-! ## np.interp -/

/-- `np.interp(q, xp, fp)` past the first node `(x0, y0)` (`q ≥ x0`): linear between the last node not above `q`
and the next one, constant after the last node. -/
noncomputable def interpAux (q x0 y0 : ℝ) : List (ℝ × ℝ) → ℝ
  | [] => y0
  | (x1, y1) :: rest =>
    if q < x1 then (y1 - y0) / (x1 - x0) * (q - x0) + y0 else interpAux q x1 y1 rest

/-- `np.interp(q, xp, fp)` on the nodes `zip(xp, fp)`. -/
noncomputable def interp (q : ℝ) : List (ℝ × ℝ) → ℝ
  | [] => 0
  | (x0, y0) :: rest => if q < x0 then y0 else interpAux q x0 y0 rest

/-- Distributions.py:8426-8438, 9416-9428 — `quantile` of the Competing risks and Mixture models on a list;
`nodes` are `zip(cdf_init, xvals_init)`. -/
noncomputable def modelQuantile (nodes : List (ℝ × ℝ)) (qs : List ℝ) : Except Err (List ℝ) :=
  match checkQ qs with
  | .error e => .error e
  | .ok _ => .ok (qs.map fun q => interp q nodes)

/-- Distributions.py:8454-8467 — `inverse_SF`. -/
noncomputable def modelInverseSF (nodes : List (ℝ × ℝ)) (qs : List ℝ) : Except Err (List ℝ) :=
  match checkQ qs with
  | .error e => .error e
  | .ok _ => .ok (qs.map fun q => interp (1 - q) nodes)

/-! ## DSZI -/

/-- The parameters of a DSZI model. -/
structure DSZI where
  base : Dist
  DS : ℝ
  ZI : ℝ

/-- Distributions.py:9636-9656, 9672-9674 — the constructor's defaults and checks. -/
noncomputable def dsziInit (base : Dist) (DS ZI : Option ℝ) : Except Err DSZI :=
  if DS = none ∧ ZI = none then valueErr
  else
    let ds := DS.getD 1
    let zi := ZI.getD 0
    if zi > ds then valueErr
    else if zi ≥ 1 ∨ zi < 0 then valueErr
    else if ds > 1 ∨ ds ≤ 0 then valueErr
    else .ok ⟨base, ds, zi⟩

/-- `pdf0 * (DS - ZI)` (Distributions.py:9910). -/
def DSZI.pdfAt (m : DSZI) (x : ℝ) : ℝ := m.base.sp.pdf x * (m.DS - m.ZI)

/-- `cdf0 * (DS - ZI) + ZI` (Distributions.py:9979). -/
def DSZI.cdfAt (m : DSZI) (x : ℝ) : ℝ := m.base.sp.cdf x * (m.DS - m.ZI) + m.ZI

/-- Distributions.py:9897-9911 — `DSZI_Model.PDF(xvals)`. -/
noncomputable def dsziPDF (m : DSZI) (X : List ℝ) : Except Err (List ℝ) :=
  match PDF m.base X with
  | .error e => .error e
  | .ok Y => .ok (Y.map fun y => y * (m.DS - m.ZI))

/-- Distributions.py:9966-9980 — `DSZI_Model.CDF(xvals)`. -/
noncomputable def dsziCDF (m : DSZI) (X : List ℝ) : Except Err (List ℝ) :=
  match CDF m.base X with
  | .error e => .error e
  | .ok Y => .ok (Y.map fun y => y * (m.DS - m.ZI) + m.ZI)

/-- `DSZI_Model.SF(xvals)`: `1 - cdf` (Distributions.py:10036-10050). -/
noncomputable def dsziSF (m : DSZI) (X : List ℝ) : Except Err (List ℝ) :=
  match dsziCDF m X with
  | .error e => .error e
  | .ok Y => .ok (Y.map fun y => 1 - y)

/-- `DSZI_Model.HF(xvals)`: `pdf / (1 - cdf)` (Distributions.py:10105-10125). -/
noncomputable def dsziHF (m : DSZI) (X : List ℝ) : Except Err (List ℝ) :=
  match dsziPDF m X, dsziCDF m X with
  | .ok p, .ok c => .ok (List.zipWith (fun a b => a / (1 - b)) p c)
  | .error e, _ => .error e
  | _, .error e => .error e

/-- `DSZI_Model.CHF(xvals)`: `-log(1 - cdf)` (Distributions.py:10180-10200). -/
noncomputable def dsziCHF (m : DSZI) (X : List ℝ) : Except Err (List ℝ) :=
  match dsziCDF m X with
  | .error e => .error e
  | .ok Y => .ok (Y.map fun y => -Real.log (1 - y))

/-- The nodes `(cdf_init, xvals_init)` (Distributions.py:9697-9707) for the grid `X`. -/
noncomputable def dsziNodes (m : DSZI) (X : List ℝ) : List (ℝ × ℝ) := X.map fun x => (m.cdfAt x, x)

/-- Distributions.py:9697-9699 — the internal grid, from the base distribution's quantile at 1e-10 to that at
1 - 1e-10 (`n` is 1000000). -/
noncomputable def dsziGrid (base : Dist) (n : ℕ) : List ℝ :=
  Np.linspace (base.sp.ppf (1 / 10 ^ 10)) (base.sp.ppf (1 - 1 / 10 ^ 10)) n

/-- Distributions.py:10245-10254, 10267 — `quantile` of a scalar. -/
noncomputable def dsziQuantile (m : DSZI) (X : List ℝ) (q : ℝ) : Except Err ℝ :=
  if q < m.ZI ∨ q > m.DS then valueErr else .ok (interp q (dsziNodes m X))

/-- Distributions.py:10255-10268 — `quantile` of a list: only checked against [0,1]. -/
noncomputable def dsziQuantileList (m : DSZI) (X : List ℝ) (qs : List ℝ) : Except Err (List ℝ) :=
  match checkQ qs with
  | .error e => .error e
  | .ok _ => .ok (qs.map fun q => interp q (dsziNodes m X))

/-- Distributions.py:10297-10320 — `mean_residual_life`. -/
noncomputable def dsziMRL (m : DSZI) (t : ℝ) : Ext ℝ :=
  if m.DS < 1 then .pinf else .fin (meanResidualLife m.base t)

/-- Distributions.py:10380-10425 — `random_samples`.  `choices` is the outcome of `np.random.choice` (0: zero
inflated, 1: failure, 2: never fails), one per sample; `draws n` the outcome of the base distribution's
`random_samples(n)`, which raises ValueError for `n < 1`. -/
noncomputable def dsziSamples (m : DSZI) (choices : List (Fin 3)) (draws : ℕ → List ℝ) (n : ℕ)
    (rct : Option ℝ) : Except Err (List ℝ × List ℝ) :=
  if rct = none ∧ m.DS < 1 then valueErr
  else if n < 1 then valueErr
  else
    let r := rct.getD 1
    let numZI := choices.count 0
    let numF := choices.count 1
    let numDS := choices.count 2
    if numF < 1 then valueErr
    else
      let failures := List.replicate numZI 0 ++ draws numF
      let rc := List.replicate numDS r
      if m.DS < 1 ∧ failures.any (fun f => decide (f > r)) then
        .ok (failures.filter (fun f => ! decide (f > r)),
          rc ++ List.replicate (failures.countP fun f => decide (f > r)) r)
      else .ok (failures, rc)

end Reliability.Combined
