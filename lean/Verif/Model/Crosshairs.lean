import Verif.Model.Basic
import Verif.Model.RoundString

/-!
# Model of `crosshairs` (Other_functions.py:1278-1498)

The figure is a state machine driven by the mouse. mplcursors' part of it: `cursor(hover=True)` keeps one selection; when the mouse is
over a point of an artist it first runs the "add" callback for the new selection and then removes the artists that were
registered in `extras` of the old one; a right click removes the selection in the same way; the annotations of the second
cursor belong to the figure, not to the axes. A callback of matplotlib that raises has no effect beyond what it did before it
raised. Colours and fonts (`**kwargs`) are left out. Coordinates are the rational numbers that the floats are.
-/

namespace Reliability.Crosshairs

open Reliability

/-- The type of an argument of the constructor, as far as it is checked. -/
inductive Arg where
  | str (s : String)
  | int (n : ℤ)
  | none
  | other

/-- Who drew an artist: the user, or the callback for the selection with that number. -/
inductive Owner where
  | user
  | sel (n : ℕ)
deriving DecidableEq

/-- What a line is: one of the user, or a crosshair through an x- or a y-coordinate over the full height or width of the axes. -/
inductive LineData where
  | curve (name : String)
  | vertical (x : ℚ)
  | horizontal (y : ℚ)
deriving DecidableEq

/-- `Line2D`. -/
structure Line where
  owner : Owner
  data : LineData
  visible : Bool
deriving DecidableEq

/-- `Text`; `position` is what `get_position()` returns. -/
structure Text where
  owner : Owner
  s : String
  position : ℚ × ℚ
  visible : Bool
deriving DecidableEq

/-- `ax.lines`, `ax.texts`. -/
structure Axes where
  lines : List Line
  texts : List Text

/-- The settings: `decimals`, `dateformat`, and the labels. -/
structure Settings where
  decimals : ℤ
  dateformat : Option String
  xlabel : String
  ylabel : String

/-- The figure with its axes, the selection of the first cursor (axes and number), the number of selections so far, and the
annotations. -/
structure State where
  axes : ℕ → Axes
  selection : Option ℕ
  count : ℕ
  annotations : List String

/-- `crosshairs(xlabel, ylabel, decimals, dateformat)` (Other_functions.py:1310-1348): the checks and the defaults. -/
def make (xlabel ylabel decimals dateformat : Arg) : Except Err Settings := do
  let dateformat ← match dateformat with
    | .str s => .ok (some s)
    | .none => .ok Option.none
    | _ => valueErr
  let decimals ← match decimals with
    | .int n => .ok n
    | _ => valueErr
  let xlabel ← match xlabel with
    | .str s => .ok s
    | .none => .ok "x"
    | _ => valueErr
  let ylabel ← match ylabel with
    | .str s => .ok s
    | .none => .ok "y"
    | _ => valueErr
  .ok ⟨decimals, dateformat, xlabel, ylabel⟩

/-- A string, or the integer that `int(x)` leaves (it is not turned into a string). -/
inductive Label where
  | str (s : String)
  | int (n : ℤ)

/-- `int(x)`: towards zero. -/
def pyInt (q : ℚ) : ℤ := q.num.tdiv q.den

/-- Other_functions.py:1426-1429, 1477-1480. -/
def numberLabel (decimals : ℤ) (v : ℚ) : Label :=
  if decimals = 0 then .int (pyInt v) else .str (RoundString.roundAndString (.fin v) decimals)

/-- Other_functions.py:1418-1424, 1469-1475. `strftime` is `time.strftime(dateformat, time.gmtime(seconds))`. -/
def xString (strftime : String → ℚ → String) (c : Settings) (x : ℚ) : Label :=
  match c.dateformat with
  | some f => .str (strftime f (x * 24 * 3600))
  | none => numberLabel c.decimals x

/-- What matplotlib shows for the argument `s`: `str(s)`. -/
def shown : Label → String
  | .str s => s
  | .int n => String.ofList (RoundString.strInt n)

/-- `str + label` in Python. -/
def plus (s : String) : Label → Except Err String
  | .str t => .ok (s ++ t)
  | .int _ => .error .typeError

/-- `f` applied to the axes with number `i`. -/
def atAxes (axes : ℕ → Axes) (i : ℕ) (f : Axes → Axes) : ℕ → Axes := fun j => if j = i then f (axes j) else axes j

/-- `__add_lines_and_text_to_crosshairs` (Other_functions.py:1351-1462): the texts are created in the order y, x; then the lines are
added; all of them are registered with the selection `n`. -/
def addCrosshair (strftime : String → ℚ → String) (c : Settings) (n : ℕ) (x y : ℚ) (a : Axes) : Axes :=
  let xs := shown (xString strftime c x)
  let ys := shown (numberLabel c.decimals y)
  { lines := a.lines ++ [⟨.sel n, .vertical x, true⟩, ⟨.sel n, .horizontal y, true⟩]
    texts := a.texts ++ [⟨.sel n, ys, (0, y), true⟩, ⟨.sel n, xs, (x, 0), true⟩] }

/-- The artists in `extras` of the selection `n` removed (mplcursors, `remove_selection`). -/
def removeSelection (n : ℕ) (a : Axes) : Axes :=
  { lines := a.lines.filter fun l => l.owner ≠ .sel n
    texts := a.texts.filter fun t => t.owner ≠ .sel n }

/-- `l[-k].set_visible(False)`; `none`: IndexError. -/
def hideAt {α : Type} (hide : α → α) (l : List α) (k : ℕ) : Option (List α) :=
  if k ≤ l.length then some (l.modify (l.length - k) hide) else none

/-- `line.set_visible(False)`. -/
def Line.hide (l : Line) : Line := { l with visible := false }

/-- `text.set_visible(False)`. -/
def Text.hide (t : Text) : Text := { t with visible := false }

/-- `ax.texts[-1].get_position()[1] == 0 and ax.texts[-2].get_position()[0] == 0` (Other_functions.py:1490-1493). -/
def looksLikeCrosshair (texts : List Text) : Bool :=
  match texts.reverse with
  | t1 :: t2 :: _ => t1.position.2 == 0 && t2.position.1 == 0
  | _ => false

/-- `__hide_crosshairs` (Other_functions.py:1487-1498), with what has been done when an exception is raised. -/
def hideCrosshairs (a : Axes) : Axes × Option Err :=
  if looksLikeCrosshair a.texts then
    match hideAt Line.hide a.lines 1 with
    | none => (a, some .indexError)
    | some l1 =>
      match hideAt Line.hide l1 2 with
      | none => ({ a with lines := l1 }, some .indexError)
      | some l2 =>
        match hideAt Text.hide a.texts 1 with
        | none => ({ a with lines := l2 }, some .indexError)
        | some t1 =>
          match hideAt Text.hide t1 2 with
          | none => (⟨l2, t1⟩, some .indexError)
          | some t2 => (⟨l2, t2⟩, none)
  else (a, none)

/-- `__format_annotation` (Other_functions.py:1465-1484). -/
def annotation (strftime : String → ℚ → String) (c : Settings) (x y : ℚ) : Except Err String := do
  let s ← plus (c.xlabel ++ " = ") (xString strftime c x)
  plus (s ++ "\n" ++ c.ylabel ++ " = ") (numberLabel c.decimals y)

/-- What can happen: the mouse is over a point of the axes `i`; it leaves these axes; a left click on a point; a right click on the
crosshairs; or the program draws another line or text. -/
inductive Event where
  | hover (i : ℕ) (x y : ℚ)
  | leave (i : ℕ)
  | click (x y : ℚ)
  | dismiss
  | plotLine (i : ℕ) (name : String)
  | plotText (i : ℕ) (s : String) (position : ℚ × ℚ)

/-- The callbacks, with the exception that is raised. -/
def step (strftime : String → ℚ → String) (c : Settings) (s : State) : Event → State × Option Err
  | .hover i x y =>
    let n := s.count
    let axes := atAxes s.axes i (addCrosshair strftime c n x y)
    let axes := match s.selection with
      | some m => fun j => removeSelection m (axes j)
      | none => axes
    ({ s with axes := axes, selection := some n, count := n + 1 }, none)
  | .leave i =>
    let r := hideCrosshairs (s.axes i)
    ({ s with axes := atAxes s.axes i fun _ => r.1 }, r.2)
  | .click x y =>
    match annotation strftime c x y with
    | .ok t => ({ s with annotations := s.annotations ++ [t] }, none)
    | .error e => (s, some e)
  | .dismiss =>
    match s.selection with
    | some m => ({ s with axes := fun j => removeSelection m (s.axes j), selection := none }, none)
    | none => (s, none)
  | .plotLine i name => ({ s with axes := atAxes s.axes i fun a => { a with lines := a.lines ++ [⟨.user, .curve name, true⟩] } }, none)
  | .plotText i t p => ({ s with axes := atAxes s.axes i fun a => { a with texts := a.texts ++ [⟨.user, t, p, true⟩] } }, none)

/-- The state after the events, and the exceptions that were raised. -/
def run (strftime : String → ℚ → String) (c : Settings) (s : State) : List Event → State × List Err
  | [] => (s, [])
  | e :: es =>
    let r := step strftime c s e
    let t := run strftime c r.1 es
    (t.1, r.2.toList ++ t.2)

/-- The figure when `crosshairs()` has been called. -/
def start (axes : ℕ → Axes) : State := ⟨axes, none, 0, []⟩

end Reliability.Crosshairs
