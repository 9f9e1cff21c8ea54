import Verif.Model.ColorPrint

/-!
# Specification for `colorprint`: a terminal

A terminal that understands "select graphic rendition" (ECMA-48, 8.3.117, with the bright colours 90–97 and 100–107). Code 21 is "doubly
underlined" in ECMA-48; some terminals take it for "bold off".
-/

namespace Reliability.Spec.ColorPrint

open Reliability.ColorPrint (Key ColorArg Args esc)

/-- How text is underlined. -/
inductive Underline where
  | no | single | double
  deriving DecidableEq

/-- How a character is shown; `none` is the terminal's own colour. -/
structure Style where
  bold : Bool
  italic : Bool
  underline : Underline
  text : Option Key
  background : Option Key
  deriving DecidableEq

/-- The style of a fresh terminal. -/
def plain : Style := ⟨false, false, .no, none, none⟩

/-- The bright colours (xterm): 0 black (grey), 1 red, 2 green, 3 yellow, 4 blue, 5 magenta, 6 cyan. -/
def bright : ℕ → Option Key
  | 0 => some .grey
  | 1 => some .red
  | 2 => some .green
  | 3 => some .yellow
  | 4 => some .blue
  | 5 => some .pink
  | 6 => some .turquoise
  | _ => none

/-- The effect of a code. `standard`: the terminal follows ECMA-48 for code 21. Codes that the specification does not need are ignored. -/
def sgr (standard : Bool) (code : ℕ) (s : Style) : Style :=
  if code = 0 then plain
  else if code = 1 then { s with bold := true }
  else if code = 3 then { s with italic := true }
  else if code = 4 then { s with underline := .single }
  else if code = 21 then (if standard = true then { s with underline := .double } else { s with bold := false })
  else if code = 22 then { s with bold := false }
  else if code = 23 then { s with italic := false }
  else if code = 24 then { s with underline := .no }
  else if code = 39 then { s with text := none }
  else if code = 49 then { s with background := none }
  else if 90 ≤ code ∧ code ≤ 96 then { s with text := bright (code - 90) }
  else if 100 ≤ code ∧ code ≤ 106 then { s with background := bright (code - 100) }
  else s

/-- Where the terminal is in its input. -/
inductive Mode where
  | text
  | escape
  | control (code : ℕ)
  deriving DecidableEq

/-- The terminal's state. -/
structure Terminal where
  style : Style
  mode : Mode

/-- One character arrives: the new state and what is shown. -/
def receive (standard : Bool) (t : Terminal) (c : Char) : Terminal × List (Char × Style) :=
  match t.mode with
  | .text => if c = esc then ({ t with mode := .escape }, []) else (t, [(c, t.style)])
  | .escape => ({ t with mode := if c = '[' then .control 0 else .text }, [])
  | .control n =>
    if c.isDigit = true then ({ t with mode := .control (10 * n + (c.toNat - '0'.toNat)) }, [])
    else if c = 'm' then (⟨sgr standard n t.style, .text⟩, [])
    else ({ t with mode := .text }, [])

/-- A text arrives. -/
def receiveAll (standard : Bool) : Terminal → List Char → Terminal × List (Char × Style)
  | t, [] => (t, [])
  | t, c :: cs =>
    let r := receive standard t c
    let rest := receiveAll standard r.1 cs
    (rest.1, r.2 ++ rest.2)

/-- The names of the colours. -/
def names : Key → List String
  | .grey => ["grey", "gray", "gr"]
  | .red => ["red", "r"]
  | .green => ["green", "g"]
  | .yellow => ["yellow", "y"]
  | .blue => ["blue", "b", "darkblue", "dark blue"]
  | .pink => ["pink", "p", "purple"]
  | .turquoise => ["turquoise", "turq", "t", "cyan", "c", "lightblue", "light blue", "lb"]

/-- The argument asks for this colour: None for the terminal's own, or a name of the colour in any letter case. -/
def Asks (a : ColorArg) (k : Option Key) : Prop :=
  (a = .none ∧ k = none) ∨ ∃ s key, a = .str s ∧ k = some key ∧ ∃ n ∈ names key, s.toList.map Char.toUpper = n.toList.map Char.toUpper

/-- The style asked for. -/
def wanted (x : Args) (text background : Option Key) : Style :=
  ⟨x.bold, x.italic, if x.underline = true then .single else .no, text, background⟩

end Reliability.Spec.ColorPrint
