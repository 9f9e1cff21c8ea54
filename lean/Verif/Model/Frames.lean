import Verif.Model.Convert

/-!
# Model of the dataframes that the converters print and write to xlsx files (Convert_data.py)

`none` is the empty string `""` with which shorter columns are filled up; in the file it is an empty cell.
-/

namespace Reliability.Convert

open Reliability

/-- A list as it is extended in place: `l.extend([""] * (max_len - len))` if `max_len` is not `len` (e.g. 683-686). -/
def extendTo {α : Type _} (l : List α) (len maxLen : ℕ) : List (Option α) :=
  l.map some ++ (if maxLen ≠ len then List.replicate (maxLen - len) none else [])

/-- The dataframe of a converter to FR format; `pd.DataFrame` of a dictionary raises `ValueError` when the columns have different
lengths. -/
structure FrameFR (T : Type _) where
  failures : List (Option T)
  right_censored : Option (List (Option T))

/-- Convert_data.py:246-262, 680-693, 1160-1172 (the same code three times). -/
def frameFR {T : Type _} (d : FR T) : Except Err (FrameFR T) :=
  match d.right_censored with
  | none => .ok ⟨d.failures.map some, none⟩
  | some rc =>
    let lenF := d.failures.length
    let lenR := rc.length
    let m := max lenF lenR
    let f' := extendTo d.failures lenF m
    let rc' := extendTo rc lenR m
    if f'.length ≠ rc'.length then valueErr else .ok ⟨f', some rc'⟩

/-- The dataframe of a converter to FNRN format: two or four columns. -/
structure FrameFNRN (T : Type _) where
  failures : List (Option T)
  num_failures : List (Option ℚ)
  censored : Option (List (Option T) × List (Option ℚ))

/-- Convert_data.py:368-403, 493-525, 1020-1055 (the same code three times).  A missing `num_right_censored` next to a
`right_censored` would be a `TypeError` in `list(None)`; it cannot happen (`FR_to_FNRN` sets both or none) and is modelled as
an empty list. -/
def frameFNRN {T : Type _} (d : FNRN T) : Except Err (FrameFNRN T) :=
  match d.right_censored with
  | none =>
    if d.failures.length ≠ d.num_failures.length then valueErr
    else .ok ⟨d.failures.map some, d.num_failures.map fun k : ℕ => some (k : ℚ), none⟩
  | some rc =>
    let nrc := d.num_right_censored.getD []
    let lenF := d.failures.length
    let lenR := rc.length
    let m := max lenF lenR
    let f' := extendTo d.failures lenF m
    let nf' := extendTo (d.num_failures.map fun k : ℕ => (k : ℚ)) lenF m
    let rc' := extendTo rc lenR m
    let nrc' := extendTo (nrc.map fun k : ℕ => (k : ℚ)) lenR m
    if f'.length ≠ nf'.length ∨ f'.length ≠ rc'.length ∨ f'.length ≠ nrc'.length then valueErr
    else .ok ⟨f', nf', some (rc', nrc')⟩

/-- The dataframe of a converter to XCN format. -/
structure FrameXCN (T : Type _) where
  X : List T
  C : List Code
  N : List ℕ

/-- Convert_data.py:185-188, 795-798, 935-938. -/
def frameXCN {T : Type _} (d : XCN T) : Except Err (FrameXCN T) :=
  if d.X.length ≠ d.C.length ∨ d.X.length ≠ d.N.length then valueErr else .ok ⟨d.X, d.C, d.N⟩

/-- `pd.read_excel` of a file written from that dataframe, then `xlsx_to_XCN`.  `readCode` is what pandas makes of the text of a code:
`none` for the texts it takes for missing values (`"NA"`, `"nan"`, `"None"`, `""`, ...). -/
def readXCN {T : Type _} [LinearOrder T] (readCode : Code → Option Code) (F : FrameXCN T) (cIn fIn : Option Code) (cOut fOut : Code) :
    Except Err (XCN T) :=
  xlsx_to_XCN (F.X.map some) (F.C.map readCode) (some (F.N.map fun k : ℕ => some (k : ℚ))) cIn fIn cOut fOut

end Reliability.Convert
