import Mathlib.Tactic.Ring
import Mathlib.Tactic.FieldSimp
import Mathlib.Tactic.Linarith
import Mathlib.Tactic.Positivity
import Mathlib.Tactic.Push
import Mathlib.Order.Lattice
import Verif.Model.MCF
import Verif.Spec.MCF

/-! Helper lemmas for the MCF properties. -/

set_option linter.unusedSectionVars false

namespace Reliability.MCF

open Reliability List

variable {K : Type _} [Field K] [LinearOrder K] [IsStrictOrderedRing K]

theorem max?_iff {K : Type _} [LinearOrder K] (l : List K) (a : K) :
    l.max? = some a ↔ a ∈ l ∧ ∀ b ∈ l, b ≤ a := by
  have : Std.LawfulOrderMax K :=
    { max_le_iff := fun a b c => max_le_iff, max_eq_or := fun a b => max_choice a b }
  exact List.max?_eq_some_iff

theorem pySort_perm (l : List K) : pySort l ~ l := perm_insertionSort _ _

theorem pySort_sorted (l : List K) : (pySort l).Pairwise (· ≤ ·) := pairwise_insertionSort _ _

theorem pySort_congr {l l' : List K} (h : l ~ l') : pySort l = pySort l' := by
  apply Perm.eq_of_pairwise (le := (· ≤ ·))
  · intro a b _ _ h1 h2; exact le_antisymm h1 h2
  · exact pySort_sorted _
  · exact pySort_sorted _
  · exact (pySort_perm l).trans (h.trans (pySort_perm l').symm)

theorem pySort_getLast? (l : List K) : (pySort l).getLast? = l.max? := by
  cases hl : (pySort l).getLast? with
  | none =>
    rw [getLast?_eq_none_iff] at hl
    have : l = [] := by
      have := (pySort_perm l).length_eq
      rw [hl] at this
      exact length_eq_zero_iff.1 this.symm
    subst this; rfl
  | some a =>
    symm
    rw [max?_iff]
    have hmem : a ∈ pySort l := mem_of_getLast? hl
    refine ⟨(pySort_perm l).mem_iff.1 hmem, ?_⟩
    intro b hb
    have hb' := (pySort_perm l).mem_iff.2 hb
    have hd := dropLast_append_getLast? a hl
    rw [← hd] at hb'
    have hs := pySort_sorted l
    rw [← hd, pairwise_append] at hs
    rcases mem_append.1 hb' with h | h
    · exact hs.2.2 b h a (by simp)
    · simp at h; exact h.le

theorem pySort_dropLast (l : List K) (m : K) (hm : l.max? = some m) :
    (pySort l).dropLast ~ l.erase m := by
  have hl : (pySort l).getLast? = some m := by rw [pySort_getLast?, hm]
  have hd := dropLast_append_getLast? m hl
  have h1 : m :: (pySort l).dropLast ~ l := by
    refine Perm.trans ?_ (pySort_perm l)
    conv_rhs => rw [← hd]
    exact (perm_append_singleton _ _).symm
  have hmem : m ∈ l := ((max?_iff l m).1 hm).1
  exact (perm_cons m).1 (h1.trans (perm_cons_erase hmem))

theorem splitTimes_ends (systems : List (List K)) : (splitTimes systems).2 = Spec.ends systems := by
  unfold splitTimes Spec.ends
  simp only
  induction systems with
  | nil => rfl
  | cons s ss ih =>
    rw [flatMap_cons, ih, pySort_getLast?, filterMap_cons]
    cases s.max? <;> rfl

theorem splitTimes_repairs (systems : List (List K)) :
    (splitTimes systems).1 ~ Spec.repairs systems := by
  unfold splitTimes Spec.repairs
  simp only
  induction systems with
  | nil => exact Perm.refl _
  | cons s ss ih =>
    rw [flatMap_cons, flatMap_cons]
    apply Perm.append _ ih
    cases hm : s.max? with
    | none =>
      have : s = [] := by simpa using hm
      subst this; exact Perm.refl _
    | some m => exact pySort_dropLast s m hm

/-! ### the loop -/

/-- The loop's output from the current accumulated value and number at risk. -/
def vals : Option (K × K) → Nat → List (K × Bool) → List (Option (K × K))
  | _, _, [] => []
  | acc, r, (_, true) :: rows =>
    let v : K × K := match acc with
      | none => (1 / (r : K), varTerm r)
      | some (m, w) => (1 / (r : K) + m, varTerm r + w)
    some v :: vals (some v) r rows
  | acc, r, (_, false) :: rows => none :: vals acc (r - 1) rows

theorem vals_true (acc : Option (K × K)) (r : Nat) (t : K) (rows : List (K × Bool)) :
    vals acc r ((t, true) :: rows) =
      (let v : K × K := match acc with
        | none => (1 / (r : K), varTerm r)
        | some (m, w) => (1 / (r : K) + m, varTerm r + w)
      some v :: vals (some v) r rows) := by
  cases acc <;> rfl

/-- Loop invariant: where the previous value is to be found. -/
def Inv (st : St K) (acc : Option (K × K)) : Prop :=
  match acc with
  | none => st.arr = replicate st.arr.length none ∧
      st.C_seq = if st.arr.length = 0 then 0 else (st.arr.length : Int) - 1
  | some m => ∃ A c, st.arr = A ++ [some m] ++ replicate c none ∧ st.C_seq = (c : Int)

theorem pyGet_nonneg {α : Type _} (l : List α) (k : Nat) : pyGet l (k : Int) = l[k]? := by
  simp [pyGet]

theorem loop_vals (ends : List K) (rows : List (K × Bool)) (st : St K) (acc : Option (K × K))
    (hinv : Inv st acc) (hmem : ∀ p ∈ rows, p.2 = false → p.1 ∈ ends)
    (hr : st.r = rows.countP (fun p => !p.2)) (hlast : ∀ p, rows.getLast? = some p → p.2 = false) :
    ∃ st', loop ends st rows = .ok st' ∧ st'.arr = st.arr ++ vals acc st.r rows := by
  induction rows generalizing st acc with
  | nil => exact ⟨st, rfl, by simp [vals]⟩
  | cons p rows ih =>
    obtain ⟨t, b⟩ := p
    have hmem' : ∀ p ∈ rows, p.2 = false → p.1 ∈ ends := fun p hp => hmem p (by simp [hp])
    have hlast' : ∀ p, rows.getLast? = some p → p.2 = false := by
      intro p hp
      apply hlast p
      rw [getLast?_cons, hp]; rfl
    cases b with
    | false =>
      have hr' : st.r - 1 = rows.countP (fun p => !p.2) := by
        rw [hr, countP_cons]; simp
      have ht : t ∈ ends := hmem (t, false) (by simp) rfl
      rw [vals]
      by_cases hi : st.arr.length = 0
      · have hnil : st.arr = [] := by simpa using hi
        have haccn : acc = none := by
          cases acc with
          | none => rfl
          | some m =>
            obtain ⟨A, c, hA, -⟩ := hinv
            rw [hnil] at hA
            have := congrArg length hA
            simp at this
        subst haccn
        have hcs : st.C_seq = 0 := by rw [hinv.2, if_pos hi]
        obtain ⟨st', h1, h2⟩ := ih ⟨[none], st.r - 1, st.C_seq⟩ none
          ⟨by simp, by simp [hcs]⟩ hmem' hr' hlast'
        refine ⟨st', ?_, ?_⟩
        · rw [loop]
          simp only [step, hi, if_true, Bool.false_eq_true, if_false, if_pos ht]
          exact h1
        · rw [h2, hnil]; simp
      · obtain ⟨st', h1, h2⟩ := ih ⟨st.arr ++ [none], st.r - 1, st.C_seq + 1⟩ acc
          (by
            cases acc with
            | none =>
              refine ⟨?_, ?_⟩
              · simp only [length_append, length_cons, length_nil]
                rw [show st.arr.length + (0 + 1) = st.arr.length + 1 by omega, replicate_succ', ← hinv.1]
              · simp only [length_append, length_cons, length_nil]
                rw [hinv.2, if_neg hi, if_neg (by omega)]
                push_cast; ring
            | some m =>
              obtain ⟨A, c, hA, hc⟩ := hinv
              exact ⟨A, c + 1, by simp only [hA, append_assoc, replicate_succ'], by simp [hc]⟩)
          hmem' hr' hlast'
        refine ⟨st', ?_, ?_⟩
        · rw [loop]
          simp only [step, hi, if_false, Bool.false_eq_true]
          exact h1
        · rw [h2]; simp
    | true =>
      have hne : rows ≠ [] := by
        rintro rfl
        have := hlast (t, true) (by simp)
        simp at this
      have hrpos : st.r ≠ 0 := by
        rw [hr, countP_cons]
        obtain ⟨q, hq⟩ : ∃ q, rows.getLast? = some q := ⟨_, getLast?_eq_some_getLast hne⟩
        have hq2 := hlast' q hq
        have : 0 < rows.countP (fun p => !p.2) := by
          rw [countP_pos_iff]
          exact ⟨q, mem_of_getLast? hq, by simp [hq2]⟩
        omega
      have hr' : st.r = rows.countP (fun p => !p.2) := by
        rw [hr, countP_cons]; simp
      rw [vals_true]
      by_cases hi : st.arr.length = 0
      · have hnil : st.arr = [] := by simpa using hi
        have haccn : acc = none := by
          cases acc with
          | none => rfl
          | some m =>
            obtain ⟨A, c, hA, -⟩ := hinv
            rw [hnil] at hA
            have := congrArg length hA
            simp at this
        subst haccn
        have hcs : st.C_seq = 0 := by rw [hinv.2, if_pos hi]
        obtain ⟨st', h1, h2⟩ := ih ⟨[some (1 / (st.r : K), varTerm st.r)], st.r, st.C_seq⟩
          (some (1 / (st.r : K), varTerm st.r)) ⟨[], 0, by simp, by simp [hcs]⟩ hmem' hr' hlast'
        refine ⟨st', ?_, ?_⟩
        · rw [loop]
          simp only [step, hi, if_true, hrpos, if_false]
          exact h1
        · rw [h2, hnil]; simp
      · -- the previous value is found at the adjusted index
        have hget : pyGet st.arr ((st.arr.length : Int) - st.C_seq - 1) = some acc := by
          cases acc with
          | none =>
            rw [hinv.2, if_neg hi]
            have : (st.arr.length : Int) - ((st.arr.length : Int) - 1) - 1 = ((0 : Nat) : Int) := by
              push_cast; ring
            rw [this, pyGet_nonneg, hinv.1]
            rw [getElem?_replicate, if_pos (by omega)]
          | some m =>
            obtain ⟨A, c, hA, hc⟩ := hinv
            have hl : (st.arr.length : Int) - st.C_seq - 1 = ((A.length : Nat) : Int) := by
              rw [hc, hA]; simp; ring
            rw [hl, pyGet_nonneg, hA, append_assoc, getElem?_append_right le_rfl]
            simp
        cases acc with
        | none =>
          obtain ⟨st', h1, h2⟩ := ih ⟨st.arr ++ [some (1 / (st.r : K), varTerm st.r)], st.r, 0⟩
            (some (1 / (st.r : K), varTerm st.r)) ⟨st.arr, 0, by simp, by simp⟩ hmem' hr' hlast'
          refine ⟨st', ?_, ?_⟩
          · rw [loop]
            simp only [step, hi, if_true, hrpos, if_false, hget]
            exact h1
          · rw [h2]; simp
        | some mw =>
          obtain ⟨m, w⟩ := mw
          obtain ⟨st', h1, h2⟩ := ih
            ⟨st.arr ++ [some (1 / (st.r : K) + m, varTerm st.r + w)], st.r, 0⟩
            (some (1 / (st.r : K) + m, varTerm st.r + w)) ⟨st.arr, 0, by simp, by simp⟩ hmem' hr' hlast'
          refine ⟨st', ?_, ?_⟩
          · rw [loop]
            simp only [step, hi, if_true, hrpos, if_false, hget]
            exact h1
          · rw [h2]; simp

/-- Running totals over the repair times, given the number at risk at each time. -/
def cum (ρ : K → Nat) : K → K → List K → List (K × K × K)
  | _, _, [] => []
  | m, v, t :: ts =>
    (t, m + 1 / (ρ t : K), v + varTerm (ρ t)) :: cum ρ (m + 1 / (ρ t : K)) (v + varTerm (ρ t)) ts

/-- The value carried by `acc`. -/
def accVal (acc : Option (K × K)) : K × K := acc.getD (0, 0)

theorem vals_cum (ρ : K → Nat) (rows : List (K × Bool)) (acc : Option (K × K)) (r : Nat)
    (hr : r = rows.countP (fun p => !p.2))
    (hρ : ∀ L t rest, rows = L ++ (t, true) :: rest → rest.countP (fun p => !p.2) = ρ t) :
    (rows.zip (vals acc r rows)).filterMap (fun p => p.2.map fun mv => (p.1.1, mv.1, mv.2)) =
      cum ρ (accVal acc).1 (accVal acc).2 ((rows.filter (fun p => p.2)).map Prod.fst) := by
  induction rows generalizing acc r with
  | nil => simp [vals, cum]
  | cons p rows ih =>
    obtain ⟨t, b⟩ := p
    have hρ' : ∀ L t rest, rows = L ++ (t, true) :: rest → rest.countP (fun p => !p.2) = ρ t := by
      intro L s rest h
      exact hρ ((t, b) :: L) s rest (by rw [h]; rfl)
    cases b with
    | false =>
      rw [vals]
      have := ih acc (r - 1) (by rw [hr, countP_cons]; simp) hρ'
      simpa using this
    | true =>
      have hr1 : r = rows.countP (fun p => !p.2) := by rw [hr, countP_cons]; simp
      have hrt : r = ρ t := by rw [hr1]; exact hρ [] t rows rfl
      rw [vals_true]
      have hv : ((match acc with
        | none => (1 / (r : K), varTerm r)
        | some (m, w) => (1 / (r : K) + m, varTerm r + w)) : K × K) =
          ((accVal acc).1 + 1 / (ρ t : K), (accVal acc).2 + varTerm (ρ t)) := by
        rw [hrt]
        cases acc with
        | none => simp [accVal]
        | some mw => simp [accVal, add_comm]
      simp only [hv]
      have := ih (some ((accVal acc).1 + 1 / (ρ t : K), (accVal acc).2 + varTerm (ρ t))) r hr1 hρ'
      rw [filter_cons]
      simp only [zip_cons_cons, filterMap_cons, Option.map_some, if_true, map_cons, cum]
      rw [this]
      rfl

theorem cum_map_time (ρ : K → Nat) (m v : K) (ts : List K) : (cum ρ m v ts).map (fun p => p.1) = ts := by
  induction ts generalizing m v with
  | nil => rfl
  | cons t ts ih => simp [cum, ih]

theorem cum_get (ρ : K → Nat) (m v : K) (ts : List K) (k : Nat) (hk : k < ts.length) :
    (cum ρ m v ts)[k]? = some (ts[k], m + ((ts.take (k + 1)).map fun t => 1 / (ρ t : K)).sum,
      v + ((ts.take (k + 1)).map fun t => varTerm (ρ t)).sum) := by
  induction ts generalizing m v k with
  | nil => simp at hk
  | cons t ts ih =>
    rw [cum]
    cases k with
    | zero => simp
    | succ k =>
      simp only [getElem?_cons_succ]
      rw [ih _ _ k (by simpa using hk)]
      simp [add_assoc]

theorem cum_length (ρ : K → Nat) (m v : K) (ts : List K) : (cum ρ m v ts).length = ts.length := by
  rw [← length_map (f := fun p => p.1), cum_map_time]

theorem varTerm_eq (r : Nat) (hr : 0 < r) :
    varTerm (K := K) r = (1 / (r : K)) ^ 2 * (1 - 1 / (r : K)) := by
  unfold varTerm
  have : (r : K) ≠ 0 := by exact_mod_cast hr.ne'
  field_simp
  ring

/-! ### the sorted rows -/

theorem rowLe_trans : ∀ {a b c : K × Bool}, rowLe a b → rowLe b c → rowLe a c := by
  rintro ⟨a1, a2⟩ ⟨b1, b2⟩ ⟨c1, c2⟩ h1 h2
  unfold rowLe at *
  simp only at *
  rcases h1 with h1 | ⟨h1, h1'⟩ <;> rcases h2 with h2 | ⟨h2, h2'⟩
  · left; exact h1.trans h2
  · left; rw [← h2]; exact h1
  · left; rw [h1]; exact h2
  · right; exact ⟨h1.trans h2, fun h => h1' (h2' h)⟩

theorem rowLe_total (a b : K × Bool) : rowLe a b ∨ rowLe b a := by
  obtain ⟨a1, a2⟩ := a
  obtain ⟨b1, b2⟩ := b
  unfold rowLe
  simp only
  rcases lt_trichotomy a1 b1 with h | h | h
  · left; left; exact h
  · subst h
    cases a2 <;> cases b2 <;> simp
  · right; left; exact h

theorem rowLe_antisymm (a b : K × Bool) (h1 : rowLe a b) (h2 : rowLe b a) : a = b := by
  obtain ⟨a1, a2⟩ := a
  obtain ⟨b1, b2⟩ := b
  unfold rowLe at *
  simp only at *
  rcases h1 with h1 | ⟨h1, h1'⟩ <;> rcases h2 with h2 | ⟨h2, h2'⟩
  · exact absurd (h1.trans h2) (lt_irrefl _)
  · rw [h2] at h1; exact absurd h1 (lt_irrefl _)
  · rw [h1] at h2; exact absurd h2 (lt_irrefl _)
  · subst h1
    cases a2 <;> cases b2 <;> simp_all

instance : Std.Total (rowLe (K := K)) := ⟨rowLe_total⟩
instance : IsTrans (K × Bool) (rowLe (K := K)) := ⟨fun _ _ _ => rowLe_trans⟩

theorem sortedRows_perm (rt et : List K) :
    sortedRows rt et ~ rt.map (fun t => (t, true)) ++ et.map (fun t => (t, false)) :=
  perm_insertionSort _ _

theorem sortedRows_sorted (rt et : List K) : (sortedRows rt et).Pairwise rowLe :=
  pairwise_insertionSort _ _

theorem sortedRows_congr {rt rt' et et' : List K} (h1 : rt ~ rt') (h2 : et ~ et') :
    sortedRows rt et = sortedRows rt' et' := by
  apply Perm.eq_of_pairwise (le := rowLe)
  · intro a b _ _; exact rowLe_antisymm a b
  · exact sortedRows_sorted _ _
  · exact sortedRows_sorted _ _
  · exact (sortedRows_perm rt et).trans
      (((h1.map _).append (h2.map _)).trans (sortedRows_perm rt' et').symm)

theorem sortedRows_repairs (rt et : List K) :
    ((sortedRows rt et).filter (fun p => p.2)).map Prod.fst = rt.insertionSort (· ≤ ·) := by
  apply Perm.eq_of_pairwise (le := (· ≤ ·))
  · intro a b _ _ h1 h2; exact le_antisymm h1 h2
  · rw [pairwise_map]
    refine ((sortedRows_sorted rt et).filter _).imp ?_
    rintro a b (h | ⟨h, -⟩)
    · exact h.le
    · exact h.le
  · exact pairwise_insertionSort _ _
  · refine Perm.trans ?_ (perm_insertionSort _ _).symm
    have := ((sortedRows_perm rt et).filter (fun p => p.2)).map Prod.fst
    simpa [filter_append, filter_map, Function.comp_def] using this

theorem sortedRows_count (rt et : List K) :
    (sortedRows rt et).countP (fun p => !p.2) = et.length := by
  rw [(sortedRows_perm rt et).countP_eq, countP_append, countP_map, countP_map]
  simp [Function.comp_def]

theorem sortedRows_atRisk (rt et : List K) (L : List (K × Bool)) (t : K) (rest : List (K × Bool))
    (h : sortedRows rt et = L ++ (t, true) :: rest) :
    rest.countP (fun p => !p.2) = et.countP (fun e => decide (t ≤ e)) := by
  have hs := sortedRows_sorted rt et
  rw [h] at hs
  have hp := sortedRows_perm rt et
  rw [h] at hp
  -- count the "C" rows with time ≥ t in the whole table
  have hcount := hp.countP_eq (fun p => !p.2 && decide (t ≤ p.1))
  rw [countP_append, countP_cons, countP_append, countP_map, countP_map] at hcount
  have hL : L.countP (fun p => !p.2 && decide (t ≤ p.1)) = 0 := by
    rw [countP_eq_zero]
    rintro ⟨u, b⟩ hu hc
    rw [pairwise_append] at hs
    have := hs.2.2 (u, b) hu (t, true) (by simp)
    simp only [Bool.and_eq_true, Bool.not_eq_true', decide_eq_true_eq] at hc
    obtain ⟨hb, htu⟩ := hc
    rcases this with h1 | ⟨h1, h2⟩
    · exact absurd htu (not_le.2 h1)
    · have := h2 rfl
      simp only at this
      rw [hb] at this; simp at this
  have hrest : rest.countP (fun p => !p.2 && decide (t ≤ p.1)) = rest.countP (fun p => !p.2) := by
    apply countP_congr
    intro p hp
    rw [pairwise_append] at hs
    have := (pairwise_cons.1 hs.2.1).1 p hp
    have htp : t ≤ p.1 := by
      rcases this with h1 | ⟨h1, -⟩
      · exact h1.le
      · exact h1.le
    simp [htp]
  rw [hL, hrest] at hcount
  simpa [Function.comp_def] using hcount

end Reliability.MCF
