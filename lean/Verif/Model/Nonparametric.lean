import Verif.Model.Ext
import Verif.Model.Sorting
import Verif.Model.PlottingPositions
import Mathlib.Analysis.SpecialFunctions.Log.Basic

/-!
# Model of the non-parametric estimators (reliability/Nonparametric.py)

`KaplanMeier.__init__` (102-255), `NelsonAalen.__init__` (427-579), `RankAdjustment.__init__`
(760-905).  Plotting and printing are not modelled.  The single loop of the code that appends to
`KM`, `KM_upper`, `KM_lower` is split in two passes (estimate column, then bounds column): the first
does not read anything the second writes.  Numbers are exact (`K` is an ordered field); `sqrt` and the
normal quantile `ppf` are parameters.
-/

namespace Reliability.NP

open Reliability

variable {K : Type _} [Field K] [LinearOrder K]

/-- Nonparametric.py:139-147 (KM), 464-472 (NA), 795-803 (RA) — times and censoring codes (1 =
failure = `true`) side by side, `df.sort_values(by="times")`. -/
def sortedData (argsort : List K → List Nat) (failures right_censored : List K) : List (K × Bool) :=
  sortValues argsort Prod.fst
    (failures.map (fun t => (t, true)) ++ right_censored.map (fun t => (t, false)))

/-- The censoring code as a number. -/
def code (c : Bool) : K := if c then 1 else 0

/-- Nonparametric.py:161-168 — the KM column. `remaining_array[i-1]` is `n-i+1`, the length of the
list from row `i` on.  `prev` is `KM[i-2]` (absent when `i == 1`). -/
def kmLoop : Option K → List Bool → List K
  | _, [] => []
  | prev, c :: cs =>
    let rem : K := ((cs.length + 1 : Nat) : K)
    let v := match prev with
      | none => (rem - code c) / rem
      | some p => ((rem - code c) / rem) * p
    v :: kmLoop (some v) cs

/-- Nonparametric.py:170-181 (= 494-505, 849-859) — Greenwood bounds.  `sumfrac` is the running
`sum(frac)` (Python's `sum` adds left to right, so appending adds at the end), `delta` the value left
from the previous iteration.  `risk_set = n - i + 1` is the length of the list from row `i` on.
Returns `(lower, upper)` before clipping. -/
def gwLoop (sqrt : K → K) (z : Ext K) : Ext K → Ext K → List (Bool × K) → List (Ext K × Ext K)
  | _, _, [] => []
  | sumfrac, delta, (c, est) :: rest =>
    let risk_set : K := ((rest.length + 1 : Nat) : K)
    let sumfrac' := if c then Ext.add sumfrac (Ext.divFin 1 (risk_set * (risk_set - 1))) else sumfrac
    let R2 := est ^ 2
    let delta' := if c then
        (if R2 > 0 then Ext.mul (Ext.rpowHalf sqrt (Ext.mul sumfrac' (Ext.fin R2))) z else Ext.fin 0)
      else delta
    (Ext.sub (Ext.fin est) delta', Ext.add (Ext.fin est) delta') :: gwLoop sqrt z sumfrac' delta' rest

/-- Nonparametric.py:170-186 — bounds columns after clipping. -/
def greenwood (sqrt : K → K) (z : Ext K) (c : List Bool) (est : List K) : List (Ext K × Ext K) :=
  (gwLoop sqrt z (Ext.fin 0) (Ext.fin 0) (c.zip est)).map fun p => (Ext.clipLo p.1, Ext.clipHi p.2)

/-- One row of the results table that the step-plot loop reads: time, estimate, lower, upper. -/
structure Row (K : Type _) where
  t : K
  est : K
  lo : Ext K
  up : Ext K

/-- One simultaneous append to the four step-plot lists. -/
structure Entry (K : Type _) where
  x : K
  y : K
  lo : Ext K
  up : Ext K

/-- Nonparametric.py:228-243 (= 553-567) — the `else` part (i > 1) of the step-plot loop;
`prev` is row `i-2`. -/
def stepRest (prev : Row K) : List (Row K) → List (Entry K)
  | [] => []
  | r :: rs =>
    if prev.est = r.est then
      ⟨r.t, r.est, prev.lo, prev.up⟩ :: stepRest r rs
    else
      ⟨r.t, prev.est, prev.lo, prev.up⟩ :: ⟨r.t, r.est, prev.lo, prev.up⟩ :: stepRest r rs

/-- Nonparametric.py:212-243 (= 537-567) — the whole step-plot loop; `c0` is the code of the first
row. -/
def stepEntries (c0 : Bool) : List (Row K) → List (Entry K)
  | [] => []
  | r :: rs =>
    (if c0 then [⟨r.t, 1, .fin 1, .fin 1⟩, ⟨r.t, r.est, .fin 1, .fin 1⟩]
     else [⟨r.t, 1, .fin 1, .fin 1⟩]) ++ stepRest r rs

/-- What the estimators leave on `self`. -/
structure Result (K : Type _) where
  data : List K
  censor_codes : List Bool
  est : List K
  lower : List (Ext K)
  upper : List (Ext K)
  xvals : List K
  SF : List K
  SF_lower : List (Ext K)
  SF_upper : List (Ext K)
  CDF : List K
  CDF_lower : List (Ext K)
  CDF_upper : List (Ext K)

/-- Nonparametric.py:253-255 (= 577-579, 896-898) — `-np.log(SF)`; numpy gives `inf` at 0. -/
def negLog (log : K → K) (s : K) : Ext K := if s = 0 then .pinf else .fin (-(log s))

/-- `self.CHF = -np.log(self.SF)`. -/
def Result.CHF (log : K → K) (r : Result K) : List (Ext K) := r.SF.map (negLog log)

/-- Nonparametric.py:188-252 (= 513-576) — columns and step arrays from the sorted data, the estimate
column and the bounds.  `KM_y_lower.append(KM_y_lower[-1])` repeats the last bound. -/
def assemble (S : List (K × Bool)) (est : List K) (b : List (Ext K × Ext K)) : Result K :=
  let d := S.map Prod.fst
  let c := S.map Prod.snd
  let rows : List (Row K) := (d.zip (est.zip b)).map fun p => ⟨p.1, p.2.1, p.2.2.1, p.2.2.2⟩
  let es := stepEntries (c.headD false) rows
  let lo := es.map Entry.lo
  let up := es.map Entry.up
  let ylo := lo ++ lo.getLast?.toList
  let yup := up ++ up.getLast?.toList
  let SF := 1 :: es.map Entry.y
  { data := d, censor_codes := c, est := est
    lower := b.map Prod.fst, upper := b.map Prod.snd
    xvals := 0 :: es.map Entry.x
    SF := SF, SF_lower := ylo, SF_upper := yup
    CDF := SF.map (fun s => 1 - s)
    CDF_lower := yup.map (fun s => Ext.sub (.fin 1) s)
    CDF_upper := ylo.map (fun s => Ext.sub (.fin 1) s) }

/-- Nonparametric.py:117-136 (= 442-461, 773-792) — input checks shared by the three estimators. -/
def checkInputs (failures : Option (List K)) (plot_type : String) (CI : K) : Except Err (List K) :=
  match failures with
  | none => valueErr
  | some f =>
    if plot_type ∉ ["CDF", "SF", "CHF", "cdf", "sf", "chf"] then valueErr
    else if CI < 0 ∨ CI > 1 then valueErr
    else if f.length < 2 then valueErr
    else .ok f

/-- Nonparametric.py:102-255 — `KaplanMeier(failures, right_censored, CI, plot_type)`;
`z = ss.norm.ppf(1 - (1 - CI) / 2)`. -/
def kaplanMeier (argsort : List K → List Nat) (sqrt : K → K) (ppf : K → Ext K)
    (failures right_censored : Option (List K)) (CI : K) (plot_type : String) :
    Except Err (Result K) := do
  let f ← checkInputs failures plot_type CI
  let S := sortedData argsort f (right_censored.getD [])
  let c := S.map Prod.snd
  let KM := kmLoop none c
  let z := ppf (1 - (1 - CI) / 2)
  return assemble S KM (greenwood sqrt z c KM)

/-- Nonparametric.py:488-491 — the CHF column `H` (`h = c/remaining`, `H = sum(h)`). -/
def naCHF : K → List Bool → List K
  | _, [] => []
  | acc, c :: cs =>
    let H := acc + code c / ((cs.length + 1 : Nat) : K)
    H :: naCHF H cs

/-- Nonparametric.py:427-579 — `NelsonAalen`, with numpy's `exp` as parameter. -/
def nelsonAalen (exp : K → K) (argsort : List K → List Nat) (sqrt : K → K) (ppf : K → Ext K)
    (failures right_censored : Option (List K)) (CI : K) (plot_type : String) :
    Except Err (Result K) := do
  let f ← checkInputs failures plot_type CI
  let S := sortedData argsort f (right_censored.getD [])
  let c := S.map Prod.snd
  let NA := (naCHF 0 c).map fun H => exp (-H)
  let z := ppf (1 - (1 - CI) / 2)
  return assemble S NA (greenwood sqrt z c NA)

/-- Nonparametric.py:829-846 — the RA column: `y_extended[failure_counter]`. -/
def raLoop (y_extended : List K) : Nat → List Bool → Except Err (List K)
  | _, [] => .ok []
  | counter, c :: cs => do
    let counter' := if c then counter + 1 else counter
    match y_extended[counter']? with
    | none => .error .indexError
    | some y =>
      let rest ← raLoop y_extended counter' cs
      return (1 - y) :: rest

/-- Nonparametric.py:815-823 — the step arrays `x_array`, `y_array` after the initial `[0]`;
`prev` is `y[i-1]` (0 for the first). -/
def raSteps : K → List (K × K) → List (K × K)
  | _, [] => []
  | prev, (x, y) :: rest => (x, prev) :: (x, y) :: raSteps y rest

/-- Nonparametric.py:760-905 — `RankAdjustment`. -/
def rankAdjustment (argsort : List K → List Nat) (sqrt : K → K) (ppf : K → Ext K)
    (failures right_censored : Option (List K)) (a : Option K) (CI : K) (plot_type : String) :
    Except Err (Result K) := do
  let f ← checkInputs failures plot_type CI
  let S := sortedData argsort f (right_censored.getD [])
  let d := S.map Prod.fst
  let c := S.map Prod.snd
  let (x, y) ← PP.plottingPositions argsort f (some (right_censored.getD [])) a true
  let steps := (0, 0) :: raSteps 0 (x.zip y)
  let lastCens := c.getLast? == some false
  let steps' := if lastCens then steps ++ [(d.getLastD 0, (steps.getLastD (0, 0)).2)] else steps
  let RA ← raLoop (0 :: y) 0 c
  let z := ppf (1 - (1 - CI) / 2)
  let b := greenwood sqrt z c RA
  -- 866-888: keep the failures' bounds, repeat each twice, drop the last if the last row failed
  let down := (Ext.fin 1, Ext.fin 1) :: ((c.zip b).filter (fun p => p.1)).map Prod.snd
  let dbl := down.flatMap fun p => [p, p]
  let dbl' := if c.getLast? == some true then dbl.dropLast else dbl
  let SF := steps'.map fun p => 1 - p.2
  return { data := d, censor_codes := c, est := RA
           lower := b.map Prod.fst, upper := b.map Prod.snd
           xvals := steps'.map Prod.fst
           SF := SF, SF_lower := dbl'.map Prod.fst, SF_upper := dbl'.map Prod.snd
           CDF := steps'.map Prod.snd
           CDF_lower := dbl'.map (fun p => Ext.sub (.fin 1) p.2)
           CDF_upper := dbl'.map (fun p => Ext.sub (.fin 1) p.1) }

end Reliability.NP
