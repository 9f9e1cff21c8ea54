import Verif.Model.WriteXlsx

/-!
# Specification for `write_df_to_xlsx`

What the user decided, and the names that are tried.
-/

namespace Reliability.WriteXlsx.Spec

open Reliability.WriteXlsx

/-- What an answer to "Do you want to overwrite the existing file (Y/N)" means: `some true` for yes, `some false` for no. -/
def answer (s : String) : Option Bool :=
  if s = "y" ∨ s = "Y" then some true else if s = "n" ∨ s = "N" then some false else none

/-- The user's decision: the first answer that means something. -/
def decision (answers : List String) : Option Bool := answers.findSome? answer

/-- A file that may be read is at the path. -/
def Readable {S : Type} (fs : FS S) (p : Path) : Prop := ∃ writable content, fs p = .file true writable content

/-- `(new)` written `k` times. -/
def news : ℕ → Path
  | 0 => []
  | k + 1 => "(new)".toList ++ news k

end Reliability.WriteXlsx.Spec
