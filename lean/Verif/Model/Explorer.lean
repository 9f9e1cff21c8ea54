import Mathlib.Data.Real.Basic
import Verif.Model.Basic

/-!
# Model of `distribution_explorer` (Other_functions.py:1501-1834)

The window is a state machine: matplotlib calls the observers of a slider when the user has moved it, and those of the radio
buttons when one has been clicked. The state is the explorer's attributes and what is on each of the axes. matplotlib's part of
it: `Slider(...)` clips `valinit` to the range and has no observers; `set_val` calls the observers in the order in which they
were registered; an axes that is not visible receives no mouse events; a slider that has been replaced is gone (nothing
refers to it); a click on a radio button, the selected one included, calls the observer with its label.
Layout, colours and `plt.draw` are left out.
-/

namespace Reliability.Explorer

open Reliability

/-- A call of one of the eight distribution classes, with its arguments. -/
inductive Made where
  | weibull (alpha beta gamma : ℝ)
  | gamma (alpha beta gamma : ℝ)
  | loglogistic (alpha beta gamma : ℝ)
  | lognormal (mu sigma gamma : ℝ)
  | normal (mu sigma : ℝ)
  | gumbel (mu sigma : ℝ)
  | exponential (Lambda gamma : ℝ)
  | beta (alpha beta : ℝ)

/-- The axes of the figure (without those of the radio buttons, on which nothing changes). -/
inductive Panel where
  | pdf | cdf | sf | hf | chf | ax0 | ax1 | ax2
deriving DecidableEq

/-- What is on an axes: the curve that a method of a distribution has drawn, or the bar of a slider with its label. -/
inductive Item where
  | curve (func : String) (dist : Made)
  | bar (label : String)

/-- A matplotlib slider; `observers` are the registered calls of `__update_params`. -/
structure Slider where
  label : String
  valmin : ℝ
  valmax : ℝ
  val : ℝ
  observers : ℕ

/-- The explorer and its figure. -/
structure State where
  name : String
  s0 : Slider
  s1 : Slider
  s2 : Slider
  current : Panel
  content : Panel → List Item
  title : Made
  ax2visible : Bool
  /-- The observers of the radio buttons. -/
  clickers : ℕ
  /-- The selected radio button. -/
  selected : String

/-- `plt.sca`. -/
def sca (p : Panel) (s : State) : State := { s with current := p }

/-- Add something to one of the axes. -/
def addTo (p : Panel) (i : Item) (s : State) : State :=
  { s with content := fun q => if q = p then s.content q ++ [i] else s.content q }

/-- `plt.cla`: clears the current axes. -/
def cla (s : State) : State := { s with content := fun q => if q = s.current then [] else s.content q }

/-- `dist.PDF()` and so on: the curve is drawn on the current axes. -/
def drawCurve (func : String) (d : Made) (s : State) : State := addTo s.current (.curve func d) s

/-- `Slider(ax, label, valmin, valmax, valinit)` (without its effect on the axes). -/
noncomputable def newSlider (label : String) (valmin valmax valinit : ℝ) : Slider :=
  { label := label, valmin := valmin, valmax := valmax, val := max valmin (min valinit valmax), observers := 0 }

/-- Other_functions.py:1625-1629 and the like: clear the first slider's axes and put a new slider on it. -/
noncomputable def reset0 (label : String) (valmin valmax valinit : ℝ) (s : State) : State :=
  let s := cla (sca .ax0 s)
  addTo .ax0 (.bar label) { s with s0 := newSlider label valmin valmax valinit }

/-- Other_functions.py:1630-1634 and the like. -/
noncomputable def reset1 (label : String) (valmin valmax valinit : ℝ) (s : State) : State :=
  let s := cla (sca .ax1 s)
  addTo .ax1 (.bar label) { s with s1 := newSlider label valmin valmax valinit }

/-- Other_functions.py:1635-1640 and the like: the third slider is also made visible. -/
noncomputable def reset2 (label : String) (valmin valmax valinit : ℝ) (s : State) : State :=
  let s := cla (sca .ax2 s)
  addTo .ax2 (.bar label) { s with s2 := newSlider label valmin valmax valinit, ax2visible := true }

/-- `self.ax2.set_visible(False)` (Other_functions.py:1706, 1719, 1732, 1745). -/
def hide2 (s : State) : State := { s with ax2visible := false }

/-- Other_functions.py:1763-1786: the distribution of `__update_params`. -/
def distOf (s : State) : Except Err Made :=
  let value1 := s.s0.val
  let value2 := s.s1.val
  let value3 := s.s2.val
  if s.name = "Weibull" then .ok (.weibull value1 value2 value3)
  else if s.name = "Loglogistic" then .ok (.loglogistic value1 value2 value3)
  else if s.name = "Gamma" then .ok (.gamma value1 value2 value3)
  else if s.name = "Lognormal" then .ok (.lognormal value1 value2 value3)
  else if s.name = "Beta" then .ok (.beta value1 value2)
  else if s.name = "Normal" then .ok (.normal value1 value2)
  else if s.name = "Gumbel" then .ok (.gumbel value1 value2)
  else if s.name = "Exponential" then .ok (.exponential value1 value2)
  else .error .valueError

/-- Other_functions.py:1787-1816: the five plots are cleared and drawn again. -/
def redraw (d : Made) (s : State) : State :=
  let s := drawCurve "PDF" d (cla (sca .pdf s))
  let s := drawCurve "CDF" d (cla (sca .cdf s))
  let s := drawCurve "SF" d (cla (sca .sf s))
  let s := drawCurve "HF" d (cla (sca .hf s))
  drawCurve "CHF" d (cla (sca .chf s))

/-- `__update_params` (Other_functions.py:1761-1820). -/
def updateParams (s : State) : Except Err State := do
  let d ← distOf s
  let s := redraw d s
  .ok { s with title := d }

/-- `__interactive` (Other_functions.py:1822-1834): one more observer on every slider, and one on the radio buttons at the
first run. -/
def interactive (initial : Bool) (s : State) : State :=
  let s := { s with s0 := { s.s0 with observers := s.s0.observers + 1 } }
  let s := { s with s1 := { s.s1 with observers := s.s1.observers + 1 } }
  let s := { s with s2 := { s.s2 with observers := s.s2.observers + 1 } }
  if initial then { s with clickers := s.clickers + 1 } else s

/-- Other_functions.py:1621-1748: the sliders and the title of `__update_distribution`. -/
noncomputable def switch (name : String) (s : State) : Except Err State :=
  let s := { s with name := name }
  if name = "Weibull" then
    .ok { reset2 "Gamma" 0 500 0 (reset1 "Beta" 0.2 25 2 (reset0 "Alpha" 0.1 500 100 s)) with title := .weibull 100 2 0 }
  else if name = "Gamma" then
    .ok { reset2 "Gamma" 0 500 0 (reset1 "Beta" 0.2 25 5 (reset0 "Alpha" 0.1 500 100 s)) with title := .gamma 100 5 0 }
  else if name = "Loglogistic" then
    .ok { reset2 "Gamma" 0 500 0 (reset1 "Beta" 0.2 50 8 (reset0 "Alpha" 0.1 500 100 s)) with title := .loglogistic 100 8 0 }
  else if name = "Lognormal" then
    .ok { reset2 "Gamma" 0 500 0 (reset1 "Sigma" 0.01 2 0.5 (reset0 "Mu" 0 5 2.5 s)) with title := .lognormal 2.5 0.5 0 }
  else if name = "Normal" then
    .ok { hide2 (reset1 "Sigma" 0.01 20 10 (reset0 "Mu" (-100) 100 0 s)) with title := .normal 0 10 }
  else if name = "Gumbel" then
    .ok { hide2 (reset1 "Sigma" 0.01 20 10 (reset0 "Mu" (-100) 100 0 s)) with title := .gumbel 0 10 }
  else if name = "Exponential" then
    .ok { hide2 (reset1 "Gamma" 0 500 0 (reset0 "Lambda" 0.001 5 1 s)) with title := .exponential 1 0 }
  else if name = "Beta" then
    .ok { hide2 (reset1 "Beta" 0.01 5 2 (reset0 "Alpha" 0.01 5 2 s)) with title := .beta 2 2 }
  else .error .valueError

/-- `__update_distribution` (Other_functions.py:1619-1759). -/
noncomputable def updateDistribution (name : String) (s : State) : Except Err State := do
  let s ← switch name s
  let s ← updateParams s
  .ok (interactive false s)

/-- The labels of the radio buttons (Other_functions.py:1600-1609). -/
def labels : List String :=
  ["Weibull", "Gamma", "Normal", "Lognormal", "Beta", "Exponential", "Loglogistic", "Gumbel"]

/-- `__init__` (Other_functions.py:1525-1617), up to `plt.show()`. -/
noncomputable def init : State :=
  let dist := Made.weibull 100 2 0
  let s : State :=
    { name := "Weibull", s0 := newSlider "Alpha" 0.1 500 100, s1 := newSlider "Beta" 0.2 25 2, s2 := newSlider "Gamma" 0 500 0,
      current := .pdf, content := fun _ => [], title := dist, ax2visible := true, clickers := 0, selected := "Weibull" }
  let s := drawCurve "PDF" dist (sca .pdf s)
  let s := drawCurve "CDF" dist (sca .cdf s)
  let s := drawCurve "SF" dist (sca .sf s)
  let s := drawCurve "HF" dist (sca .hf s)
  let s := drawCurve "CHF" dist (sca .chf s)
  let s := addTo .ax0 (.bar "Alpha") s
  let s := addTo .ax1 (.bar "Beta") s
  let s := addTo .ax2 (.bar "Gamma") s
  interactive true s

/-- Call an observer `n` times. -/
def times (n : ℕ) (f : State → Except Err State) (s : State) : Except Err State :=
  match n with
  | 0 => .ok s
  | n + 1 => do
    let s ← f s
    times n f s

/-- What the user does: drag the slider 0, 1 or 2 to a position, or click on the radio button with a label. -/
inductive Event where
  | drag (i : Fin 3) (position : ℝ)
  | click (label : String)

/-- matplotlib's `Slider._update` and `set_val`: the position is clipped to the range; nothing happens if the value does not
change or if the slider is not visible. -/
noncomputable def drag (i : Fin 3) (x : ℝ) (s : State) : Except Err State :=
  let clip (t : Slider) : ℝ := max t.valmin (min x t.valmax)
  match i with
  | 0 => if clip s.s0 = s.s0.val then .ok s else times s.s0.observers updateParams { s with s0 := { s.s0 with val := clip s.s0 } }
  | 1 => if clip s.s1 = s.s1.val then .ok s else times s.s1.observers updateParams { s with s1 := { s.s1 with val := clip s.s1 } }
  | 2 =>
    if s.ax2visible = false then .ok s
    else if clip s.s2 = s.s2.val then .ok s
    else times s.s2.observers updateParams { s with s2 := { s.s2 with val := clip s.s2 } }

/-- One event; there are no buttons with other labels. -/
noncomputable def step (s : State) : Event → Except Err State
  | .drag i x => drag i x s
  | .click l => if l ∈ labels then times s.clickers (updateDistribution l) { s with selected := l } else .ok s

/-- A history of events. -/
noncomputable def run (s : State) : List Event → Except Err State
  | [] => .ok s
  | e :: es => do
    let s ← step s e
    run s es

end Reliability.Explorer
