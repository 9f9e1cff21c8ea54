import Verif.Model.Basic
import Verif.Model.NumPy
import Mathlib.Data.Real.Basic

/-!
# `Other_functions.histogram`

Model of /repo/reliability/Other_functions.py:824-906.  Matplotlib's `plt.hist` is a parameter: it receives the call that the
code makes and answers the edges of the bins it drew (one patch between each two).  Numbers are exact reals.
-/

namespace Reliability.Histogram

/-- The argument `data`: an array or a list of numbers, or something else (Other_functions.py:860). -/
inductive DataArg where
  | array (l : List ℝ)
  | list (l : List ℝ)
  | other

/-- The argument `white_above`: None, an int or float, or something else (863-865). -/
inductive WhiteArg where
  | none
  | num (w : ℝ)
  | other

/-- Values of keyword arguments. -/
inductive Val where
  | str (s : String)
  | num (x : ℝ)
  | other (n : ℕ)

/-- The call of `plt.hist` (890-899). -/
structure HistCall where
  data : List ℝ
  density : Bool
  cumulative : Bool
  color : Val
  bins : Val
  edgecolor : Val
  linewidth : Val
  kwargs : List (String × Val)

/-- What is drawn: the call, the edges matplotlib chose, and the colour of the face of each patch. -/
structure Drawn where
  call : HistCall
  edges : List ℝ
  faces : List Val

/-- `kwargs.pop(key)` for the first of the keys that is present, else the default (872-888). -/
def popFirst (keys : List String) (default : Val) (kwargs : List (String × Val)) : Val × List (String × Val) :=
  match keys with
  | [] => (default, kwargs)
  | k :: ks =>
    match kwargs.lookup k with
    | some v => (v, kwargs.filter fun p => p.1 != k)
    | none => popFirst ks default kwargs

/-- Python's `min(data)`; the built-in raises ValueError on an empty sequence. -/
noncomputable def minimum : List ℝ → Except Err ℝ
  | [] => valueErr
  | x :: xs => .ok (xs.foldl min x)

/-- The check of `white_above` (863-867). -/
noncomputable def checkWhite (data : List ℝ) : WhiteArg → Except Err (Option ℝ)
  | .none => .ok none
  | .other => valueErr
  | .num w => do
    let m ← minimum data
    if w < m then valueErr else pure (some w)

/-- The loop that turns patches white (901-904): from `np.argmin(abs(edges - white_above))` to the last patch. -/
noncomputable def shade (color : Val) (edges : List ℝ) : Option ℝ → Except Err (List Val)
  | none => .ok (List.replicate (edges.length - 1) color)
  | some w =>
    match Np.argmin (edges.map fun e => |e - w|) with
    | none => valueErr
    | some k => .ok ((List.range (edges.length - 1)).map fun i => if k ≤ i then .str "white" else color)

/-- The type check of `data` (860-861). -/
def asList : DataArg → Except Err (List ℝ)
  | .array l => .ok l
  | .list l => .ok l
  | .other => valueErr

/-- The call of `plt.hist` that is made (869-899). -/
noncomputable def callOf (l : List ℝ) (bins : Option Val) (density cumulative : Bool) (kwargs : List (String × Val)) : HistCall :=
  let c := popFirst ["color", "c"] (.str "lightgrey") kwargs
  let e := popFirst ["edgecolor"] (.str "k") c.2
  let w := popFirst ["linewidth", "lw"] (.num 0.5) e.2
  ⟨l, density, cumulative, c.1, bins.getD (.str "auto"), e.1, w.1, w.2⟩

/-- `histogram(data, white_above, bins, density, cumulative, **kwargs)` (Other_functions.py:824-906). -/
noncomputable def histogram (hist : HistCall → List ℝ) (data : DataArg) (white : WhiteArg) (bins : Option Val)
    (density cumulative : Bool) (kwargs : List (String × Val)) : Except Err Drawn := do
  let l ← asList data
  let w ← checkWhite l white
  let call := callOf l bins density cumulative kwargs
  let faces ← shade call.color (hist call) w
  pure ⟨call, hist call, faces⟩

end Reliability.Histogram
