import Mathlib.Data.Rat.Floor
import Verif.Model.Convert

/-!
# Specification vocabulary for the data-format conversions (C01–C07)

Nothing here refers to how the code loops; only to the documented meaning of the formats
(docstrings at Convert_data.py:548-600, 716-760, 821-870, 961-1005, 1076-1125).
-/

namespace Reliability.Convert.Spec

open Reliability.Convert

/-- A number without its fractional part (what `int` does). -/
def trunc (q : ℚ) : ℤ := if 0 ≤ q then ⌊q⌋ else ⌈q⌉

/-- The codes documented (Convert_data.py:561-563) as meaning "failed". -/
def documentedFailure : List Code :=
  ["F", "FAIL", "FAILED", "FAILURE"].map Code.str ++ [Code.num 0]

/-- The codes documented (Convert_data.py:557-561) as meaning "right censored". -/
def documentedCensored : List Code :=
  ["R", "RC", "RIGHT CENS", "RIGHT CENSORED", "C", "CENSORED", "CENS", "S", "SUSP", "SUSPENSION",
    "SUSPENDED", "UF", "UNFAILED", "UNFAIL", "NF", "NO FAIL", "NO FAILURE", "NOT FAILED"].map Code.str
  ++ [Code.num 1]

/-- A row with (upper-cased) code `c` means "failed": it is the user's failure code, or it is a
documented failure code not overridden by the user's censor code. -/
def MeansFailed (userF userC : Option Code) (c : Code) : Prop :=
  userF = some c ∨ (userC ≠ some c ∧ c ∈ documentedFailure)

/-- A row with (upper-cased) code `c` means "right censored". -/
def MeansCensored (userF userC : Option Code) (c : Code) : Prop :=
  userF ≠ some c ∧ (userC = some c ∨ (c ∉ documentedFailure ∧ c ∈ documentedCensored))

instance (f c : Option Code) (x : Code) : Decidable (MeansFailed f c x) := by
  unfold MeansFailed; infer_instance

instance (f c : Option Code) (x : Code) : Decidable (MeansCensored f c x) := by
  unfold MeansCensored; infer_instance

/-- Total quantity listed for time `t` in a grouped table. -/
def totalAt {T : Type _} [DecidableEq T] (table : List (T × Nat)) (t : T) : Nat :=
  ((table.filter (fun p => p.1 = t)).map Prod.snd).sum

/-- `k` copies of every time, in table order (what a grouped table stands for). -/
def expand {T : Type _} (table : List (T × Nat)) : List T :=
  table.flatMap fun p => List.replicate p.2 p.1

end Reliability.Convert.Spec
