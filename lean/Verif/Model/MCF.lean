import Mathlib.Algebra.Order.Field.Basic
import Mathlib.Data.List.Sort
import Verif.Model.Basic

/-!
# Model of `MCF_nonparametric` (reliability/Repairable_systems.py:726-1000)

Numbers are exact; numpy's `exp`, `** 0.5` and `norm.ppf` are parameters (finite quantile, i.e.
`0 < CI < 1` as far as the bounds are concerned).  Printing and plotting are not modelled.  Python
lists are mutable: the model returns, beside the result, the contents of the caller's `data` after
the call.
-/

namespace Reliability.MCF

open Reliability

variable {K : Type _} [Field K] [LinearOrder K]

/-- An element of the `data` argument, by Python type: a list of times, a 1-D numpy array, a Python
`int`/`float`, or anything else (including numpy scalars, whose `type` is not `int` or `float`). -/
inductive Item (K : Type _) where
  | list (times : List K)
  | arr (times : List K)
  | num (t : K)
  | other
deriving DecidableEq

/-- The `data` argument: a list of items, a numpy array (of rows or of numpy scalars), or anything
else. -/
inductive Data (K : Type _) where
  | list (items : List (Item K))
  | array2 (rows : List (List K))
  | array1 (times : List K)
  | other

/-- Repairable_systems.py:836-851 — the type-check loop, which replaces ndarray items by lists in
place.  Returns the (possibly modified) items, and the `test_for_single_system` flags or the error
raised part-way. -/
def checkItems : List (Item K) → List (Item K) × Except Err (List Bool)
  | [] => ([], .ok [])
  | .list l :: rest =>
    let (its, r) := checkItems rest
    (.list l :: its, r.map (false :: ·))
  | .arr l :: rest =>
    let (its, r) := checkItems rest
    (.list l :: its, r.map (false :: ·))
  | .num t :: rest =>
    let (its, r) := checkItems rest
    (.num t :: its, r.map (true :: ·))
  | .other :: rest => (.other :: rest, valueErr)

/-- Python `list.sort()`. -/
def pySort (l : List K) : List K := l.insertionSort (· ≤ ·)

/-- Repairable_systems.py:864-872 — `repair_times` and `end_times` from the (sorted) systems. -/
def splitTimes (systems : List (List K)) : List K × List K :=
  (systems.flatMap (fun s => (pySort s).dropLast), systems.flatMap (fun s => (pySort s).getLast?.toList))

/-- Python indexing, negative indices counting from the end; `none` is IndexError. -/
def pyGet {α : Type _} (l : List α) (k : Int) : Option α :=
  if 0 ≤ k then l[k.toNat]? else if 0 ≤ (l.length : Int) + k then l[((l.length : Int) + k).toNat]? else none

/-- State of the MCF loop: `MCF_array` and `Var_array` side by side (`""` is `none`), `r`, `C_seq`. -/
structure St (K : Type _) where
  arr : List (Option (K × K))
  r : Nat
  C_seq : Int

/-- Repairable_systems.py:914-916 — the variance term. -/
def varTerm (r : Nat) : K :=
  let r_inv : K := 1 / (r : K)
  (r_inv ^ 2) * ((1 - r_inv) ^ 2 + ((r : K) - 1) * (0 - r_inv) ^ 2)

/-- Repairable_systems.py:909-981 — one iteration; a row is (time, is it "F"?).  `r` is decremented
once per "C" row, of which there are `len(end_times)`, so it never goes negative. -/
def step (end_times : List K) (st : St K) (row : K × Bool) : Except Err (St K) :=
  let i := st.arr.length
  if i = 0 then
    if row.2 then
      if st.r = 0 then .error .zeroDivision
      else .ok { st with arr := [some (1 / (st.r : K), varTerm st.r)] }
    else
      .ok { arr := [none], r := st.r - 1
            C_seq := if row.1 ∈ end_times then st.C_seq else st.C_seq + 1 }
  else if row.2 then
    let i_adj : Int := (i : Int) - st.C_seq
    if st.r = 0 then .error .zeroDivision
    else match pyGet st.arr (i_adj - 1) with
      | none => .error .indexError
      | some none =>
        .ok { arr := st.arr ++ [some (1 / (st.r : K), varTerm st.r)], r := st.r, C_seq := 0 }
      | some (some (m, v)) =>
        .ok { arr := st.arr ++ [some (1 / (st.r : K) + m, varTerm st.r + v)], r := st.r, C_seq := 0 }
  else
    .ok { arr := st.arr ++ [none], r := st.r - 1, C_seq := st.C_seq + 1 }

/-- The loop over the sorted rows. -/
def loop (end_times : List K) : St K → List (K × Bool) → Except Err (St K)
  | st, [] => .ok st
  | st, row :: rows =>
    match step end_times st row with
    | .error e => .error e
    | .ok st' => loop end_times st' rows

/-- Repairable_systems.py:893-897 — `sort_values(by=["times","states"], ascending=[True, False])`:
by time, and "F" before "C" at equal times.  Rows with equal time and state are identical, so the
result is unique whatever the sorting algorithm. -/
def rowLe (p q : K × Bool) : Prop := p.1 < q.1 ∨ (p.1 = q.1 ∧ (q.2 = true → p.2 = true))

instance : DecidableRel (rowLe (K := K)) := fun _ _ => inferInstanceAs (Decidable (_ ∨ _))

/-- The sorted rows. -/
def sortedRows (repair_times end_times : List K) : List (K × Bool) :=
  (repair_times.map (fun t => (t, true)) ++ end_times.map (fun t => (t, false))).insertionSort rowLe

/-- One row of the output for a repair: time, MCF, variance, lower, upper. -/
structure OutRow (K : Type _) where
  time : K
  MCF : K
  variance : K
  lower : K
  upper : K
deriving DecidableEq

/-- Repairable_systems.py:917-922 — bounds from MCF and variance. -/
def outRow (exp sqrt : K → K) (Z : K) (t : K) (m v : K) : OutRow K :=
  ⟨t, m, v, m / exp ((Z * sqrt v) / m), m * exp ((Z * sqrt v) / m)⟩

/-- Repairable_systems.py:862-1000 — the calculation on a list of systems. -/
def mcfSystems (exp sqrt ppf : K → K) (systems : List (List K)) (CI : K) :
    Except Err (List (OutRow K)) :=
  let (repair_times, end_times) := splitTimes systems
  if CI < 0 ∨ CI > 1 then valueErr
  else match end_times.max?, repair_times.max? with
  | none, _ => valueErr          -- max() of an empty list
  | _, none => valueErr
  | some e, some t =>
    if e < t then valueErr
    else
      let Z := -(ppf (1 - CI))
      let rows := sortedRows repair_times end_times
      match loop end_times ⟨[], end_times.length, 0⟩ rows with
      | .error err => .error err
      | .ok st => .ok ((rows.zip st.arr).filterMap fun p =>
          p.2.map fun mv => outRow exp sqrt Z p.1.1 mv.1 mv.2)

/-- `system.sort()` on an item the caller owns. -/
def sortItem : Item K → Item K
  | .list l => .list (pySort l)
  | x => x

/-- The times of a list item (numbers and others contribute nothing). -/
def itemTimes : Item K → List K
  | .list l => l
  | .arr l => l
  | _ => []

/-- The number in a `num` item. -/
def itemNum : Item K → List K
  | .num t => [t]
  | _ => []

/-- Repairable_systems.py:825-1000 — `MCF_nonparametric(data, CI)`: the caller's `data` list after
the call (if `data` was a list), and the result.  `all([])` is true, so an empty list is wrapped. -/
def mcfNonparametric (exp sqrt ppf : K → K) (data : Data K) (CI : K) :
    Data K × Except Err (List (OutRow K)) :=
  match data with
  | .other => (.other, valueErr)
  | .array2 rows => (.array2 rows, mcfSystems exp sqrt ppf rows CI)
  | .array1 ts =>
    (.array1 ts, if ts = [] then mcfSystems exp sqrt ppf [[]] CI else valueErr)
  | .list items =>
    match checkItems items with
    | (its, .error e) => (.list its, .error e)
    | (its, .ok flags) =>
      if flags.all id then
        -- data = [data]; data[0].sort() sorts the caller's own list of numbers
        let ts := its.flatMap itemNum
        (.list ((pySort ts).map .num), mcfSystems exp sqrt ppf [ts] CI)
      else if !(flags.any id) then
        (.list (its.map sortItem), mcfSystems exp sqrt ppf (its.map itemTimes) CI)
      else (.list its, valueErr)

end Reliability.MCF
