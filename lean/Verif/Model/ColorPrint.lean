import Verif.Model.Fitters
import Verif.Model.Basic

/-!
# Model of `colorprint` (Utils.py:1353-1504)

The characters that are written to the console. `string` is a str (anything else is a TypeError of `+`), `bold`, `underline` and `italic` are bools.
Upper case is that of ASCII letters.
-/

namespace Reliability.ColorPrint

open Reliability

/-- The arguments `text_color` and `background_color`: None, a str, or anything else. -/
inductive ColorArg where
  | none
  | str (s : String)
  | other

/-- The seven colour names, the keys of `text_colors` and `background_colors` (Utils.py:1395-1415). -/
inductive Key where
  | grey | red | green | yellow | blue | pink | turquoise
  deriving DecidableEq

/-- The escape character, `"\033"`. -/
def esc : Char := Char.ofNat 27

/-- An escape sequence: `"\033[" + code + "m"`. -/
def seq (code : String) : List Char := esc :: '[' :: code.toList ++ ['m']

/-- `text_colors` (Utils.py:1395-1404). -/
def textColors : Option Key → List Char
  | some .grey => seq "90"
  | some .red => seq "91"
  | some .green => seq "92"
  | some .yellow => seq "93"
  | some .blue => seq "94"
  | some .pink => seq "95"
  | some .turquoise => seq "96"
  | none => seq "39"

/-- `background_colors` (Utils.py:1406-1415). -/
def backgroundColors : Option Key → List Char
  | some .grey => seq "100"
  | some .red => seq "101"
  | some .green => seq "102"
  | some .yellow => seq "103"
  | some .blue => seq "104"
  | some .pink => seq "105"
  | some .turquoise => seq "106"
  | none => seq "49"

/-- The chain of accepted names (Utils.py:1432-1462 for the text, 1464-1494 for the background). -/
def colorKey : ColorArg → Except Err (Option Key)
  | .other => valueErr
  | .none => .ok none
  | .str s =>
    let u := Fitters.up s
    if u ∈ ["GREY", "GRAY", "GR"] then .ok (some .grey)
    else if u ∈ ["RED", "R"] then .ok (some .red)
    else if u ∈ ["GREEN", "G"] then .ok (some .green)
    else if u ∈ ["YELLOW", "Y"] then .ok (some .yellow)
    else if u ∈ ["BLUE", "B", "DARKBLUE", "DARK BLUE"] then .ok (some .blue)
    else if u ∈ ["PINK", "P", "PURPLE"] then .ok (some .pink)
    else if u ∈ ["TURQUOISE", "TURQ", "T", "CYAN", "C", "LIGHTBLUE", "LIGHT BLUE", "LB"] then .ok (some .turquoise)
    else valueErr

/-- The arguments. -/
structure Args where
  string : String
  text_color : ColorArg := .none
  background_color : ColorArg := .none
  bold : Bool := false
  underline : Bool := false
  italic : Bool := false

/-- What `print` writes (Utils.py:1417-1430, 1496-1504), with the final newline. -/
def colorprint (x : Args) : Except Err (List Char) :=
  let BOLD := if x.bold = true then seq "1" else seq "21"
  let UNDERLINE := if x.underline = true then seq "4" else seq "24"
  let ITALIC := if x.italic = true then seq "3" else seq "23"
  match colorKey x.text_color with
  | .error e => .error e
  | .ok t =>
    match colorKey x.background_color with
    | .error e => .error e
    | .ok b => .ok (BOLD ++ ITALIC ++ UNDERLINE ++ backgroundColors b ++ textColors t ++ x.string.toList ++ seq "0" ++ ['\n'])

end Reliability.ColorPrint
