import Verif.Model.RoundString
import Mathlib.Data.Int.Log
import Mathlib.Analysis.SpecialFunctions.Log.Base

/-!
# The ticks of probability plots

Model of `probability_plot_xyticks` (/repo/reliability/Utils.py:1063-1309): the labels of the ticks, the choice of the locator of
the ticks of the x-axis, and whether its minor ticks are labelled.
-/

namespace Reliability.Ticks

open Reliability.RoundString

/-- Python's `int` of a float: towards zero. -/
def trunc (q : ℚ) : ℤ := if 0 ≤ q then ⌊q⌋ else ⌈q⌉

/-- `round(value100 % 1, 8)` (Utils.py:1185). -/
def decimals (v : ℚ) : ℚ := (nearest ((v - ⌊v⌋) * 10 ^ 8) : ℚ) / 10 ^ 8

/-- `customPercentFormatter` (Utils.py:1165-1194): the number before the percent sign, for the float `value * 100`. `fl` is the
rounding of the float subtraction. (Simplified: the other operations are exact, `str` prints the number.) -/
def percentLabel (fl : ℚ → ℚ) (value100 : ℚ) : ℚ :=
  let dec := decimals value100
  let whole := trunc (fl (value100 - dec))
  dec + whole

/-- A label of the x-axis: `0`, a number in plain notation (`%g`), plus or minus a power of ten, or plus or minus a multiple of
one. -/
inductive Label where
  | zero
  | plain (v : ℚ)
  | power (neg : Bool) (e : ℤ)
  | times (neg : Bool) (m : ℚ) (e : ℤ)

/-- `customFormatter` (Utils.py:1130-1163). (Simplified: `%g`, which prints six significant digits, is not modelled; logarithm and
division are exact.) -/
def xLabel (value : ℚ) : Label :=
  if value = 0 then .zero
  else if 10000 ≤ |value| ∨ |value| ≤ 1 / 10000 then
    let neg := decide (value < 0)
    let v := if value < 0 then -value else value
    let e := Int.log 10 v
    let m := v / 10 ^ e
    let m' := if m - ⌊m⌋ < 1 / 10000000 then (⌊m⌋ : ℚ) else m
    if m' = 1 then .power neg e else .times neg m' e
  else .plain value

/-- The two kinds of locators. -/
inductive Loc where
  | maxN
  | log
deriving DecidableEq

/-- The locator that is tried first (Utils.py:1227-1243). -/
noncomputable def firstLoc (xlower xupper : ℝ) : Loc :=
  if xlower ≤ 0 then .maxN
  else if xupper < 0.1 then .log
  else if xupper < 1000 ∨ Real.logb 10 xupper - Real.logb 10 xlower < 1.5 then .maxN
  else .log

/-- `get_tick_locations` (Utils.py:1122-1128): those within the limits. -/
noncomputable def inLims (lim : ℝ × ℝ) (ticks : List ℝ) : List ℝ := ticks.filter fun t => decide (t ≥ lim.1 ∧ t ≤ lim.2)

/-- `get_edge_distances` (Utils.py:1196-1226); `coord` is `xy_transform(..., direction="forward", axis="x")`. -/
noncomputable def edgeDistances (coord : ℝ → ℝ) (lim : ℝ × ℝ) (ticks : List ℝ) : ℝ :=
  let shown := inLims lim ticks
  if shown.length < 2 then 1
  else (coord (shown.headD 0) - coord lim.1) + (coord lim.2 - coord (shown.getLastD 0))

/-- The locator of the major ticks of the x-axis (Utils.py:1227-1259); `ticks` are the ticks that a locator has. -/
noncomputable def locator (coord : ℝ → ℝ) (lim : ℝ × ℝ) (ticks : Loc → List ℝ) : Loc :=
  let loc := firstLoc lim.1 lim.2
  if edgeDistances coord lim (ticks loc) > 0.5 then
    let edgesMaxN := edgeDistances coord lim (ticks .maxN)
    let edgesLog := edgeDistances coord lim (ticks .log)
    if edgesLog < edgesMaxN then .log else .maxN
  else loc

/-- Whether the minor ticks are labelled (Utils.py:1264-1274). -/
noncomputable def minorLabelled (lim : ℝ × ℝ) (major minor : List ℝ) : Bool :=
  let most := if max |lim.1| |lim.2| < 1000 ∧ min |lim.1| |lim.2| > 0.001 then 15 else 10
  decide ((inLims lim major).length < 2 ∧ (inLims lim minor).length ≤ most)

/-- The ticks of the y-axis (Utils.py:1277-1301). -/
def yTicks (yticks : Option (List ℚ)) : List ℚ :=
  match yticks with
  | some l => l
  | none => [0.0001, 0.001, 0.002, 0.005, 0.01, 0.02, 0.03, 0.05, 0.1, 0.2, 0.3, 0.4, 0.5, 0.6, 0.7, 0.8, 0.9, 0.95, 0.99, 0.999,
      0.9999, 0.999999]

end Reliability.Ticks
