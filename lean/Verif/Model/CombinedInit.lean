import Mathlib.Analysis.SpecialFunctions.Sqrt
import Verif.Model.Combined

/-!
# Model of the constructors of Competing_Risks_Model and Mixture_Model, of their mean residual life and random samples,
# and of the attributes of DSZI_Model (Distributions.py:7675-7773, 8496-8580, 8648-8760, 9484-9578, 9668-9713)

Exact real arithmetic.  `n` is the number of grid points (1000000 in the code).  Entries of `distributions` are assumed to
be distribution objects (otherwise the code raises ValueError).
-/

namespace Reliability.Combined

open Reliability Reliability.Distributions

/-! ## scipy.integrate.simpson on an equally spaced grid -/

/-- The weights of Simpson's 1/3 rule on `2 k + 1` points, in units of the step: 1/3, 4/3, 2/3, ..., 4/3, 1/3
(scipy's `_basic_simpson` on equally spaced points). -/
noncomputable def simpsonOdd : ℕ → List ℝ
  | 0 => [0]
  | k + 1 => match simpsonOdd k with
    | [] => []
    | w :: ws => 1 / 3 :: 4 / 3 :: (w + 1 / 3) :: ws

/-- The weights of `scipy.integrate.simpson` on `n` equally spaced points, in units of the step.  For an even number of
points scipy (since 1.11) uses the rule on all but the last point, which the parabola through the last three points
extends: 5/12, 2/3 and -1/12 are added to the last three weights.  (The rule is symmetric, so it is written here from the
last point to the first and then reversed.  Earlier versions of scipy average two other extensions.) -/
noncomputable def simpsonWeights (n : ℕ) : List ℝ :=
  if n % 2 = 1 then simpsonOdd ((n - 1) / 2)
  else match simpsonOdd ((n - 2) / 2) with
    | w0 :: w1 :: ws => (5 / 12 :: (w0 + 2 / 3) :: (w1 - 1 / 12) :: ws).reverse
    | _ => [1 / 2, 1 / 2]

/-- `integrate.simpson(y, x=np.linspace(a, b, n))`. -/
noncomputable def simpson (a b : ℝ) (n : ℕ) (y : List ℝ) : ℝ :=
  (b - a) / ((n - 1 : ℕ) : ℝ) * (List.zipWith (· * ·) (simpsonWeights n) y).sum

/-! ## The constructors -/

/-- Distributions.py:7706-7722, 8694-8710 — `xmin` and `xmax`: the extremes of the components' quantiles at 1e-10 and at
1 - 1e-10, starting from 1e100 and -1e100. -/
noncomputable def gridEnds (ds : List Dist) : ℝ × ℝ :=
  (ds.foldl (fun m d => min m (d.sp.ppf (1 / 10 ^ 10))) (10 ^ 100),
    ds.foldl (fun m d => max m (d.sp.ppf (1 - 1 / 10 ^ 10))) (-10 ^ 100))

/-- `X[np.argmin(l)]`. -/
noncomputable def atArgmin (X l : List ℝ) : ℝ := ((Np.argmin l).bind fun i => X[i]?).getD 0

/-- The attributes set by the constructors. -/
structure Summary where
  mean : ℝ
  standard_deviation : ℝ
  variance : ℝ
  skewness : ℝ
  kurtosis : ℝ
  mode : ℝ
  median : ℝ
  excess_kurtosis : ℝ
  b5 : ℝ
  b95 : ℝ

/-- Distributions.py:7758-7773, 8745-8760 — the attributes from the arrays on the grid.  (A negative argument of the square
root, which needs a negative PDF, is `nan` in the code and gives 0 here.  `argmax(pdf)` is the `argmin` of `-pdf`.) -/
noncomputable def summarise (a b : ℝ) (n : ℕ) (pdf cdf sf : List ℝ) : Summary :=
  let X := Np.linspace a b n
  let mean := simpson a b n (List.zipWith (· * ·) pdf X)
  let sd := Real.sqrt (simpson a b n (List.zipWith (fun p x => p * (x - mean) ^ 2) pdf X))
  let kurtosis := simpson a b n (List.zipWith (fun p x => p * ((x - mean) / sd) ^ 4) pdf X)
  { mean := mean
    standard_deviation := sd
    variance := sd ^ 2
    skewness := simpson a b n (List.zipWith (fun p x => p * ((x - mean) / sd) ^ 3) pdf X)
    kurtosis := kurtosis
    mode := atArgmin X (pdf.map fun p => -p)
    median := atArgmin X (sf.map fun s => |s - 1 / 2|)
    excess_kurtosis := kurtosis - 3
    b5 := atArgmin X (cdf.map fun c => |c - 5 / 100|)
    b95 := atArgmin X (cdf.map fun c => |c - 95 / 100|) }

/-- A combined model as constructed: the grid arrays (`xvals_init`, `pdf_init`, `cdf_init`), the attributes and the
effective infinity used by `mean_residual_life`. -/
structure Built where
  X : List ℝ
  pdf : List ℝ
  cdf : List ℝ
  xmax_inf : ℝ
  attrs : Summary

/-- Distributions.py:7701-7773 — `Competing_Risks_Model(distributions)`.  `hf` is `nan` or `inf` in the code where `sf` is 0,
and the `nan` products are replaced by 0 (7750-7752); here `x / 0 = 0` gives the same product. -/
noncomputable def competingInit (n : ℕ) (ds : List Dist) : Except Err Built :=
  let e := gridEnds ds
  let X := Np.linspace e.1 e.2 n
  match collect (contribution SF 1 X) ds, collect (contribution HF 0 X) ds with
  | .ok ss, .ok hs =>
    let sf := ss.foldl (List.zipWith (· * ·)) (X.map fun _ => 1)
    let hf := hs.foldl (List.zipWith (· + ·)) (X.map fun _ => 0)
    let pdf := List.zipWith (· * ·) hf sf
    let cdf := sf.map fun s => 1 - s
    .ok ⟨X, pdf, cdf, e.2, summarise e.1 e.2 n pdf cdf sf⟩
  | .error e, _ => .error e
  | _, .error e => .error e

/-- Distributions.py:8672-8760 — `Mixture_Model(distributions, proportions)`, with the proportions kept. -/
noncomputable def mixtureBuild (n : ℕ) (ds : List Dist) (proportions : Option (List ℝ)) : Except Err (List ℝ × Built) :=
  match mixtureInit ds proportions with
  | .error e => .error e
  | .ok p =>
    let e := gridEnds ds
    let X := Np.linspace e.1 e.2 n
    match collect (weighted CDF X) (ds.zip p), collect (weighted PDF X) (ds.zip p) with
    | .ok cs, .ok ps =>
      let cdf := cs.foldl (List.zipWith (· + ·)) (X.map fun _ => 0)
      let pdf := ps.foldl (List.zipWith (· + ·)) (X.map fun _ => 0)
      .ok (p, ⟨X, pdf, cdf, e.2, summarise e.1 e.2 n pdf cdf (cdf.map fun c => 1 - c)⟩)
    | .error e, _ => .error e
    | _, .error e => .error e

/-- Distributions.py:9708-9712 — `b5` and `b95` of a DSZI model. -/
noncomputable def dsziB (n : ℕ) (m : DSZI) : ℝ × ℝ :=
  let X := dsziGrid m.base n
  (atArgmin X (X.map fun x => |m.cdfAt x - 5 / 100|), atArgmin X (X.map fun x => |m.cdfAt x - 95 / 100|))

/-! ## Mean residual life -/

/-- Distributions.py:8526-8543 — `__subcombiner` on an array, the survival function of the competing risks. -/
noncomputable def competingSF (ds : List Dist) (X : List ℝ) : Except Err (List ℝ) :=
  match collect (contribution SF 1 X) ds with
  | .error e => .error e
  | .ok ss => .ok (ss.foldl (List.zipWith (· * ·)) (X.map fun _ => 1))

/-- One value of a component's function (`xvals` a number); the result for a list of one has one entry. -/
noncomputable def single (f : Dist → List ℝ → Except Err (List ℝ)) (d : Dist) (t : ℝ) : Except Err ℝ :=
  match f d [t] with
  | .error e => .error e
  | .ok l => .ok (l.headD 0)

/-- Distributions.py:8544-8555 — `__subcombiner` on a number. -/
noncomputable def competingSF1 (t : ℝ) : List Dist → ℝ → Except Err ℝ
  | [], acc => .ok acc
  | d :: ds, acc =>
    if twoSided d ∨ 0 < t then
      match single SF d t with
      | .error e => .error e
      | .ok s => competingSF1 t ds (acc * s)
    else competingSF1 t ds acc

/-- Distributions.py:8546-8550 — `Competing_Risks_Model.mean_residual_life(t)`. -/
noncomputable def competingMRL (n : ℕ) (ds : List Dist) (m : Built) (t : ℝ) : Except Err ℝ :=
  match competingSF ds (Np.linspace t m.xmax_inf n) with
  | .error e => .error e
  | .ok sf => match competingSF1 t ds 1 with
    | .error e => .error e
    | .ok s => .ok (simpson t m.xmax_inf n sf / s)

/-- Distributions.py:9504-9526 — `__subcombiner` on an array for the mixture: `1 - cdf`. -/
noncomputable def mixtureSF (ds : List Dist) (p : List ℝ) (X : List ℝ) : Except Err (List ℝ) :=
  match collect (weighted CDF X) (ds.zip p) with
  | .error e => .error e
  | .ok cs => .ok ((cs.foldl (List.zipWith (· + ·)) (X.map fun _ => 0)).map fun c => 1 - c)

/-- Distributions.py:9527-9543 — `__subcombiner` on a number for the mixture (the cdf accumulated so far is `acc`). -/
noncomputable def mixtureSF1 (t : ℝ) : List (Dist × ℝ) → ℝ → Except Err ℝ
  | [], acc => .ok (1 - acc)
  | dp :: dps, acc =>
    if twoSided dp.1 ∨ 0 < t then
      match single CDF dp.1 t with
      | .error e => .error e
      | .ok c => mixtureSF1 t dps (acc + c * dp.2)
    else mixtureSF1 t dps acc

/-- Distributions.py:9544-9548 — `Mixture_Model.mean_residual_life(t)`. -/
noncomputable def mixtureMRL (n : ℕ) (ds : List Dist) (p : List ℝ) (m : Built) (t : ℝ) : Except Err ℝ :=
  match mixtureSF ds p (Np.linspace t m.xmax_inf n) with
  | .error e => .error e
  | .ok sf => match mixtureSF1 t (ds.zip p) 0 with
    | .error e => .error e
    | .ok s => .ok (simpson t m.xmax_inf n sf / s)

/-! ## Random samples -/

/-- The check numpy's `random.choice(a, size, p=p)` makes on probabilities: none negative and summing to 1 (up to rounding;
0/0 gives `nan`, which it rejects too). -/
noncomputable def badProbabilities (p : List ℝ) : Prop := (∃ x ∈ p, x < 0) ∨ p.sum ≠ 1

/-- Distributions.py:8573-8580, 9571-9578 — `random_samples(number_of_samples)`.  `choice size p` are the indices drawn by
numpy's generator (an arbitrary function). -/
noncomputable def modelSamples (choice : ℕ → List ℝ → List ℕ) (m : Built) (number : ℤ) : Except Err (List ℝ) :=
  open scoped Classical in
  if number < 1 then valueErr
  else
    let p := m.pdf.map fun f => f / m.pdf.sum
    if badProbabilities p then valueErr
    else .ok ((choice number.toNat p).map fun i => m.X.getD i 0)

end Reliability.Combined
