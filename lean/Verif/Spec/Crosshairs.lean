import Verif.Model.Crosshairs

/-!
# Specification of the crosshairs

Where the crosshairs should be after a history of the mouse, and what should be written.
-/

namespace Reliability.Spec.Crosshairs

open Reliability.Crosshairs

/-- The position of the crosshairs (number of the axes, x, y) after another event. -/
def move (p : Option (ℕ × ℚ × ℚ)) : Event → Option (ℕ × ℚ × ℚ)
  | .hover i x y => some (i, x, y)
  | .leave j => match p with
    | some (i, x, y) => if j = i then none else some (i, x, y)
    | none => none
  | .dismiss => none
  | _ => p

/-- The position of the crosshairs after the events: the last point the mouse was over, unless it has left the axes since or the
crosshairs have been dismissed. -/
def position (es : List Event) : Option (ℕ × ℚ × ℚ) := es.foldl move none

/-- Only the mouse. -/
def Mouse (es : List Event) : Prop := ∀ e ∈ es, (∀ i n, e ≠ .plotLine i n) ∧ ∀ i s p, e ≠ .plotText i s p

/-- The whole part of a number, without its fraction. -/
def whole (v : ℚ) : ℤ := if 0 ≤ v then ⌊v⌋ else ⌈v⌉

/-- A coordinate as text: rounded (property C125) to the number of decimals; for `decimals=0` the whole part. -/
def numberText (decimals : ℤ) (v : ℚ) : String :=
  RoundString.roundAndString (.fin (if decimals = 0 then (whole v : ℚ) else v)) decimals

/-- The text of the x-coordinate: a date if a format is given (`x` in days since 1970). -/
def xText (strftime : String → ℚ → String) (c : Settings) (x : ℚ) : String :=
  match c.dateformat with
  | some f => strftime f (86400 * x)
  | none => numberText c.decimals x

/-- The lines that can be seen on an axes. -/
def seenLines (a : Axes) : List LineData := (a.lines.filter (·.visible)).map (·.data)

/-- The texts that can be seen on an axes, with their positions. -/
def seenTexts (a : Axes) : List (String × (ℚ × ℚ)) := (a.texts.filter (·.visible)).map fun t => (t.s, t.position)

/-- What the user has drawn on an axes. -/
def userLines (a : Axes) : List Line := a.lines.filter (·.owner = .user)

/-- What the user has written on an axes. -/
def userTexts (a : Axes) : List Text := a.texts.filter (·.owner = .user)

/-- The figure before `crosshairs()` is called. -/
def UserFigure (axes : ℕ → Axes) : Prop := ∀ i, (∀ l ∈ (axes i).lines, l.owner = .user) ∧ ∀ t ∈ (axes i).texts, t.owner = .user

/-- No axes has as its last text one with y = 0 after one with x = 0. -/
def NoLookalike (axes : ℕ → Axes) : Prop :=
  ∀ i, ¬ ∃ ts t2 t1, (axes i).texts = ts ++ [t2, t1] ∧ t2.position.1 = 0 ∧ t1.position.2 = 0

/-- The clicked points. -/
def clicks : List Event → List (ℚ × ℚ)
  | [] => []
  | .click x y :: es => (x, y) :: clicks es
  | _ :: es => clicks es

end Reliability.Spec.Crosshairs
