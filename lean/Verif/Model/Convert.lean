import Mathlib.Data.List.Sort
import Mathlib.Data.Rat.Floor
import Verif.Model.Basic

/-!
# Model of `reliability/Convert_data.py`

Event times have an arbitrary linearly ordered type `T` (the code only compares and copies them;
`np.ones(k) * x` is modelled as `k` copies of `x`, i.e. the int→float cast is ignored).
`type(...)` checks ("must be a list or array") are discharged by the typing of the model.
The dataframes built only for printing are not modelled.
-/

namespace Reliability.Convert

open Reliability

/-- A censoring code: a string or a number.  Simplification: numeric codes are integers
(the code allows floats too). -/
inductive Code where
  | str (s : String)
  | num (z : Int)
  deriving DecidableEq, Repr

/-- Python `str.upper()` (ASCII letters only). -/
def upperStr (s : String) : String := String.ofList (s.toList.map Char.toUpper)

/-- Convert_data.py:617-622 — `item.upper()` for strings, numbers unchanged.  Also 634-640. -/
def Code.upper : Code → Code
  | .str s => .str (upperStr s)
  | .num z => .num z

/-- Convert_data.py:648 — the default failure codes `["F","FAIL","FAILED","FAILURE",0]`. -/
def defaultFailureCodes : List Code :=
  [.str "F", .str "FAIL", .str "FAILED", .str "FAILURE", .num 0]

/-- Convert_data.py:650-670 — the default censor codes. -/
def defaultCensorCodes : List Code :=
  [.str "R", .str "RC", .str "RIGHT CENS", .str "RIGHT CENSORED", .str "C", .str "CENSORED",
   .str "CENS", .str "S", .str "SUSP", .str "SUSPENSION", .str "SUSPENDED", .str "UF",
   .str "UNFAILED", .str "UNFAIL", .str "NF", .str "NO FAIL", .str "NO FAILURE",
   .str "NOT FAILED", .num 1]

/-- Is the code a string? -/
def Code.isStr : Code → Bool
  | .str _ => true
  | .num _ => false

/-- numpy's conversion of a number to a string element. -/
def Code.stringify : Code → Code
  | .str s => .str s
  | .num z => .str (toString z)

/-- `np.array`/`np.hstack`/`np.unique` of a Python list of codes: if at least one element is a
string, numpy makes a string array, turning numbers into strings
(Convert_data.py:623 `np.unique(C_upper)`, 785 and 921 `np.hstack([F_cens, C_cens])`, 156 `np.array(C_out)`). -/
def npArrayCodes (l : List Code) : List Code :=
  if l.any Code.isStr then l.map Code.stringify else l

/-- Convert_data.py:623-631 — number of distinct censoring codes `len(np.unique(C_upper))`. -/
def uniqueCodeCount (cUpper : List Code) : Nat := (npArrayCodes cUpper).dedup.length

/-- Python `int(x)` on a number: truncation toward zero (Convert_data.py:645 `int(N[i])`). -/
def pyInt (q : ℚ) : ℤ := q.num.tdiv q.den

/-- `np.ones(int(n)) * x` : `int(n)` copies of `x`; a negative dimension makes numpy raise
`ValueError` (Convert_data.py:645, 647, 649, 671, 1141, 1156). -/
def onesTimes {T : Type _} (n : ℚ) (x : T) : Except Err (List T) :=
  if pyInt n < 0 then valueErr else .ok (List.replicate (pyInt n).toNat x)

/-- FR format: failure times and optional right-censored times. -/
structure FR (T : Type _) where
  failures : List T
  right_censored : Option (List T)
  deriving DecidableEq, Repr

/-- FNRN format: distinct times with quantities. -/
structure FNRN (T : Type _) where
  failures : List T
  num_failures : List Nat
  right_censored : Option (List T)
  num_right_censored : Option (List Nat)
  deriving DecidableEq, Repr

/-- XCN format: event time, censoring code, quantity. -/
structure XCN (T : Type _) where
  X : List T
  C : List Code
  N : List Nat
  deriving DecidableEq, Repr

/-- Which list a row of an XCN table is appended to. -/
inductive Side where
  | failure
  | censored
  deriving DecidableEq, Repr

/-- Convert_data.py:643-675 (and identically 123-155 in `xlsx_to_XCN`) — the if/elif chain deciding
on which side a row with upper-cased code `c` goes; `none` is the final `else: raise ValueError`.
`failureCode`/`censorCode` are the (upper-cased) user codes, `none` when the argument is `None`
(`c == None` is `False` for every code). -/
def classify (failureCode censorCode : Option Code) (c : Code) : Option Side :=
  if some c = failureCode then some .failure
  else if some c = censorCode then some .censored
  else if c ∈ defaultFailureCodes then some .failure
  else if c ∈ defaultCensorCodes then some .censored
  else none

/-- Convert_data.py:643-675 — the `for i, c in enumerate(C_upper)` loop.  The accumulators are the
arrays `failures`, `right_censored`. -/
def xcnLoop {T : Type _} (failureCode censorCode : Option Code) :
    List (T × Code × ℚ) → List T → List T → Except Err (List T × List T)
  | [], fs, cs => .ok (fs, cs)
  | (x, c, n) :: rows, fs, cs =>
    match classify failureCode censorCode c with
    | some .failure => do
        let new ← onesTimes n x
        xcnLoop failureCode censorCode rows (fs ++ new) cs
    | some .censored => do
        let new ← onesTimes n x
        xcnLoop failureCode censorCode rows fs (cs ++ new)
    | none => valueErr

/-- Convert_data.py:603-678 — `XCN_to_FR.__init__` (result attributes only).
`N = none` is the default `None` → all ones (604-605). -/
def XCN_to_FR {T : Type _} (X : List T) (C : List Code) (N : Option (List ℚ))
    (censor_code failure_code : Option Code) : Except Err (FR T) :=
  let N' := N.getD (X.map fun _ => 1)
  if X.length ≠ C.length then valueErr
  else if X.length ≠ N'.length then valueErr
  else
    let cUpper := C.map Code.upper
    if uniqueCodeCount cUpper > 2 then valueErr
    else do
      let fc := failure_code.map Code.upper
      let cc := censor_code.map Code.upper
      let (fs, cs) ← xcnLoop fc cc (X.zip (cUpper.zip N')) [] []
      -- 676-677: right_censored = None when empty
      .ok ⟨fs, if cs.length = 0 then none else some cs⟩

/-- Run-length encoding of a list: numpy's `np.unique(..., return_counts=True)` counts runs of equal
neighbours in the sorted array. -/
def runLength {T : Type _} [DecidableEq T] : List T → List (T × Nat)
  | [] => []
  | x :: xs =>
    match runLength xs with
    | [] => [(x, 1)]
    | (y, c) :: r => if x = y then (y, c + 1) :: r else (x, 1) :: (y, c) :: r

/-- `np.unique(l, return_counts=True)` (Convert_data.py:1010, 1014). -/
def npUnique {T : Type _} [LinearOrder T] (l : List T) : List T × List Nat :=
  (runLength (l.insertionSort (· ≤ ·))).unzip

/-- Convert_data.py:1007-1019 — `FR_to_FNRN.__init__`. -/
def FR_to_FNRN {T : Type _} [LinearOrder T] (failures : List T) (right_censored : Option (List T)) :
    FNRN T :=
  let u := npUnique failures
  match right_censored with
  | some rc =>
    let v := npUnique rc
    ⟨u.1, u.2, some v.1, some v.2⟩
  | none => ⟨u.1, u.2, none, none⟩

/-- Convert_data.py:483-493 — `XCN_to_FNRN.__init__` : `XCN_to_FR` then `FR_to_FNRN`. -/
def XCN_to_FNRN {T : Type _} [LinearOrder T] (X : List T) (C : List Code) (N : Option (List ℚ))
    (censor_code failure_code : Option Code) : Except Err (FNRN T) := do
  let fr ← XCN_to_FR X C N censor_code failure_code
  .ok (FR_to_FNRN fr.failures fr.right_censored)

/-- Convert_data.py:1139-1142 (and 1153-1158) — the loop appending `int(num[i])` copies. -/
def expandLoop {T : Type _} : List (T × ℚ) → List T → Except Err (List T)
  | [], acc => .ok acc
  | (x, n) :: rest, acc => do
      let new ← onesTimes n x
      expandLoop rest (acc ++ new)

/-- Convert_data.py:1129-1172 — `FNRN_to_FR.__init__`. -/
def FNRN_to_FR {T : Type _} (failures : List T) (num_failures : List ℚ)
    (right_censored : Option (List T)) (num_right_censored : Option (List ℚ)) :
    Except Err (FR T) :=
  if failures.length ≠ num_failures.length then valueErr
  else do
    let fs ← expandLoop (failures.zip num_failures) []
    match right_censored with
    | none => .ok ⟨fs, none⟩
    | some rc =>
      match num_right_censored with
      | none => valueErr        -- "num_right_censored must be a list or array."
      | some nrc =>
        if rc.length ≠ nrc.length then valueErr
        else do
          let cs ← expandLoop (rc.zip nrc) []
          .ok ⟨fs, some cs⟩

/-- Convert_data.py:764-794 — `FR_to_XCN.__init__` (default codes "C" and "F" at 765). -/
def FR_to_XCN {T : Type _} [LinearOrder T] (failures : List T) (right_censored : Option (List T))
    (censor_code : Code := .str "C") (failure_code : Code := .str "F") : XCN T :=
  let g := FR_to_FNRN failures right_censored
  match g.right_censored, g.num_right_censored with
  | some rc, some nrc =>
    ⟨g.failures ++ rc,
     npArrayCodes (g.failures.map (fun _ => failure_code) ++ rc.map (fun _ => censor_code)),
     g.num_failures ++ nrc⟩
  | _, _ => ⟨g.failures, g.failures.map (fun _ => failure_code), g.num_failures⟩

/-- Convert_data.py:875-933 — `FNRN_to_XCN.__init__`. -/
def FNRN_to_XCN {T : Type _} [LinearOrder T] (failures : List T) (num_failures : List ℚ)
    (right_censored : Option (List T)) (num_right_censored : Option (List ℚ))
    (censor_code : Code := .str "C") (failure_code : Code := .str "F") : Except Err (XCN T) := do
  let fr ← FNRN_to_FR failures num_failures right_censored num_right_censored
  .ok (FR_to_XCN fr.failures fr.right_censored censor_code failure_code)

/-- A spreadsheet cell that may be missing (NaN). Utils.py:6328-6361 `removeNaNs` keeps the
non-missing entries in order.  Simplification: the special case of the *string* `"nan"` is modelled
by the `Option`-valued reading of the cell. -/
def removeNaNs {α : Type _} (l : List (Option α)) : List α := l.filterMap id

/-- Convert_data.py:115-155 — translation of each code of the spreadsheet to the user's output
code; unrecognised codes raise. -/
def translateCodes (fIn cIn : Option Code) (fOut cOut : Code) : List Code → Except Err (List Code)
  | [] => .ok []
  | c :: cs =>
    match classify fIn cIn c with
    | some .failure => do .ok (fOut :: (← translateCodes fIn cIn fOut cOut cs))
    | some .censored => do .ok (cOut :: (← translateCodes fIn cIn fOut cOut cs))
    | none => valueErr

/-- Convert_data.py:85-184 — `xlsx_to_XCN.__init__`, on the columns read from the sheet
(`N = none` when there is no third column).  Line 173-175 calls `XCN_to_FR(X=X, C=C, N=N)`
*without* passing the codes chosen for the output. -/
def xlsx_to_XCN {T : Type _} [LinearOrder T] (Xcol : List (Option T)) (Ccol : List (Option Code))
    (Ncol : Option (List (Option ℚ)))
    (censor_code_in_xlsx failure_code_in_xlsx : Option Code)
    (censor_code_in_XCN : Code := .str "C") (failure_code_in_XCN : Code := .str "F") :
    Except Err (XCN T) :=
  let X := removeNaNs Xcol
  let cUpper := (removeNaNs Ccol).map Code.upper
  if uniqueCodeCount cUpper > 2 then valueErr
  else do
    let cOut ← translateCodes (failure_code_in_xlsx.map Code.upper)
      (censor_code_in_xlsx.map Code.upper) failure_code_in_XCN censor_code_in_XCN cUpper
    let C := npArrayCodes cOut
    let N := match Ncol with
      | some col => removeNaNs col
      | none => X.map fun _ => 1
    if X.length ≠ C.length ∨ X.length ≠ N.length then valueErr
    else do
      let fr ← XCN_to_FR X C (some N) none none
      .ok (FR_to_XCN fr.failures fr.right_censored censor_code_in_XCN failure_code_in_XCN)

/-- Convert_data.py:241-267 — `xlsx_to_FR.__init__`. -/
def xlsx_to_FR {T : Type _} (Fcol : List (Option T)) (Rcol : Option (List (Option T))) : FR T :=
  ⟨removeNaNs Fcol, Rcol.map removeNaNs⟩

/-- Convert_data.py:324-368 — `xlsx_to_FNRN.__init__` (`RC = none` when the sheet has 2 columns). -/
def xlsx_to_FNRN {T : Type _} [LinearOrder T] (Fcol : List (Option T)) (NFcol : List (Option ℚ))
    (RC : Option (List (Option T) × List (Option ℚ))) : Except Err (FNRN T) :=
  let f := removeNaNs Fcol
  let nf := removeNaNs NFcol
  if f.length ≠ nf.length then valueErr
  else do
    let fr ← match RC with
      | none => FNRN_to_FR f nf none none
      | some (rc, nrc) =>
        if (removeNaNs rc).length ≠ (removeNaNs nrc).length then valueErr
        else FNRN_to_FR f nf (some (removeNaNs rc)) (some (removeNaNs nrc))
    .ok (FR_to_FNRN fr.failures fr.right_censored)

end Reliability.Convert
