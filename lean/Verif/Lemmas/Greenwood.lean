import Verif.Lemmas.Nonparametric
import Mathlib.Analysis.SpecialFunctions.Pow.Real

/-! Helper lemmas: running sums and Greenwood bounds. -/

set_option linter.unusedSectionVars false

namespace Reliability.NP

open Reliability List

variable {K : Type _} [Field K] [LinearOrder K] [IsStrictOrderedRing K]

/-- Running sum over the failures; `f m` is added at a failure followed by `m` rows. -/
def acc (f : Nat → K) : K → List Bool → List K
  | _, [] => []
  | a, c :: cs =>
    let a' := if c then a + f cs.length else a
    a' :: acc f a' cs

theorem acc_length (f : Nat → K) (a : K) (cs : List Bool) : (acc f a cs).length = cs.length := by
  induction cs generalizing a with
  | nil => rfl
  | cons c cs ih => simp [acc, ih]

theorem acc_spec (f : Nat → K) (a : K) (S : List (K × Bool)) (i : Nat) (hi : i < S.length) :
    (acc f a (S.map Prod.snd))[i]? =
      some (a + ∑ j ∈ Spec.failsUpTo S i, f (S.length - j - 1)) := by
  induction S generalizing a i with
  | nil => simp at hi
  | cons x R ih =>
    have key : ∀ k, ∑ j ∈ Spec.failsUpTo (x :: R) k, f ((x :: R).length - j - 1) =
        (∑ j ∈ (Finset.range k).filter (fun j => PP.Spec.isFail R j = true), f (R.length - j - 1)) +
          (if x.2 then f R.length else 0) := by
      intro k
      unfold Spec.failsUpTo
      rw [Finset.sum_filter, Finset.sum_range_succ', Finset.sum_filter]
      congr 1
      apply Finset.sum_congr rfl
      intro j _
      have h1 : PP.Spec.isFail (x :: R) (j + 1) = PP.Spec.isFail R j := by
        simp [PP.Spec.isFail]
      have h2 : (x :: R).length - (j + 1) - 1 = R.length - j - 1 := by simp
      rw [h1, h2]
    rw [map_cons, acc]
    simp only [length_map]
    cases i with
    | zero =>
      rw [key]
      simp only [getElem?_cons_zero, Finset.range_zero, Finset.filter_empty, Finset.sum_empty, zero_add]
      congr 1
      split <;> simp
    | succ i =>
      simp only [getElem?_cons_succ]
      rw [ih _ i (by simpa using hi), key]
      unfold Spec.failsUpTo
      congr 1
      split <;> ring

theorem acc_mono (f : Nat → K) (hf : ∀ m, 0 ≤ f m) (a : K) (cs : List Bool) :
    (acc f a cs).Pairwise (· ≤ ·) ∧ ∀ v ∈ acc f a cs, a ≤ v := by
  induction cs generalizing a with
  | nil => simp [acc]
  | cons c cs ih =>
    have h := ih (if c then a + f cs.length else a)
    have ha : a ≤ (if c then a + f cs.length else a) := by
      split
      · have := hf cs.length; linarith
      · exact le_rfl
    simp only [acc]
    refine ⟨pairwise_cons.2 ⟨h.2, h.1⟩, ?_⟩
    intro v hv
    rcases mem_cons.1 hv with rfl | hv
    · exact ha
    · exact ha.trans (h.2 v hv)

theorem naCHF_eq (a : K) (cs : List Bool) :
    naCHF a cs = acc (fun m => 1 / ((m + 1 : Nat) : K)) a cs := by
  induction cs generalizing a with
  | nil => rfl
  | cons c cs ih =>
    have : a + code c / ((cs.length + 1 : Nat) : K) =
        if c then a + 1 / ((cs.length + 1 : Nat) : K) else a := by
      cases c <;> simp [code]
    simp only [naCHF, acc, this, ih]

/-! ### bracketing -/

/-- finite and non-negative, or `+inf` -/
def Ext.NN (e : Ext K) : Prop := (∃ x, 0 ≤ x ∧ e = .fin x) ∨ e = .pinf

/-- positive (possibly `+inf`) -/
def Ext.Pos (e : Ext K) : Prop := (∃ x, 0 < x ∧ e = .fin x) ∨ e = .pinf

theorem clip_bracket (e : K) (he0 : 0 ≤ e) (he1 : e ≤ 1) (d : Ext K) (hd : Ext.NN d) :
    ∃ l u, Ext.clipLo (Ext.sub (.fin e) d) = .fin l ∧ Ext.clipHi (Ext.add (.fin e) d) = .fin u ∧
      0 ≤ l ∧ l ≤ e ∧ e ≤ u ∧ u ≤ 1 := by
  rcases hd with ⟨x, hx, rfl⟩ | rfl
  · refine ⟨max 0 (e - x), min 1 (e + x), ?_, ?_, le_max_left _ _, max_le he0 (by linarith),
      le_min he1 (by linarith), min_le_left _ _⟩
    · simp only [Ext.clipLo, Ext.sub, Ext.neg, Ext.add, Ext.gt, decide_eq_true_eq]
      split
      · next h => rw [max_eq_left (by linarith)]
      · next h => rw [max_eq_right (by linarith)]; congr 1; ring
    · simp only [Ext.clipHi, Ext.add, Ext.gt, decide_eq_true_eq]
      split
      · next h => rw [min_eq_left h.le]
      · next h => rw [min_eq_right (by linarith)]
  · exact ⟨0, 1, by simp [Ext.clipLo, Ext.sub, Ext.neg, Ext.add, Ext.gt],
      by simp [Ext.clipHi, Ext.add, Ext.gt], le_rfl, he0, he1, le_rfl⟩

/-- Greenwood's new term is non-negative, and infinite only in the last row. -/
theorem gwTerm (m : Nat) :
    (m = 0 ∧ Ext.divFin (K := K) 1 (((m + 1 : Nat) : K) * (((m + 1 : Nat) : K) - 1)) = .pinf) ∨
    (0 < m ∧ ∃ x, 0 < x ∧ x = 1 / ((((m + 1 : Nat) : K)) * (((m + 1 : Nat) : K) - 1)) ∧
      Ext.divFin (K := K) 1 (((m + 1 : Nat) : K) * (((m + 1 : Nat) : K) - 1)) = .fin x) := by
  rcases Nat.eq_zero_or_pos m with rfl | hm
  · left; simp [Ext.divFin, Ext.infMul, not_lt.2 (zero_le_one (α := K))]
  · right
    have h1 : (0 : K) < ((m + 1 : Nat) : K) * (((m + 1 : Nat) : K) - 1) := by
      have : (0 : K) < (m : K) := by exact_mod_cast hm
      push_cast
      rw [add_sub_cancel_right]; positivity
    refine ⟨hm, _, ?_, rfl, ?_⟩
    · positivity
    · unfold Ext.divFin; rw [if_neg h1.ne']

/-- All Greenwood bounds bracket the estimate, provided the half-width is never `inf * 0`. -/
theorem gwLoop_bracket (sqrt : K → K) (hsq : ∀ x, 0 < x → 0 < sqrt x) (z : Ext K) (hz : Ext.NN z)
    (L : List (Bool × K)) (s d : Ext K) (hd : Ext.NN d) (hs : ∃ x, 0 ≤ x ∧ s = .fin x)
    (hrange : ∀ p ∈ L, 0 ≤ p.2 ∧ p.2 ≤ 1)
    (hlast : Ext.Pos z ∨ ∀ e, L.getLast? = some (true, e) → e = 0) (i : Nat) (hi : i < L.length) :
    ∃ l u, ((gwLoop sqrt z s d L).map fun p => (Ext.clipLo p.1, Ext.clipHi p.2))[i]? =
        some (.fin l, .fin u) ∧ 0 ≤ l ∧ l ≤ (L[i]).2 ∧ (L[i]).2 ≤ u ∧ u ≤ 1 := by
  induction L generalizing s d i with
  | nil => simp at hi
  | cons p rest ih =>
    obtain ⟨c, e⟩ := p
    have he := hrange (c, e) (by simp)
    obtain ⟨s0, hs0, rfl⟩ := hs
    -- the new half-width
    have hd' : Ext.NN (if c then
        (if e ^ 2 > 0 then Ext.mul (Ext.rpowHalf sqrt (Ext.mul (if c then Ext.add (.fin s0)
          (Ext.divFin 1 (((rest.length + 1 : Nat) : K) * (((rest.length + 1 : Nat) : K) - 1))) else .fin s0)
          (Ext.fin (e ^ 2)))) z else Ext.fin 0) else d) := by
      cases c with
      | false => simpa using hd
      | true =>
        simp only [if_true]
        split
        · next hR =>
          rcases gwTerm (K := K) rest.length with ⟨h0, hinf⟩ | ⟨h0, x, hx, -, hfin⟩
          · rw [hinf]
            simp only [Ext.add, Ext.mul, Ext.infMul, not_lt.2 hR.le, if_false, if_pos hR, Ext.rpowHalf]
            rcases hlast with hzp | hl
            · right
              rcases hzp with ⟨w, hw, rfl⟩ | rfl
              · simp [Ext.infMul, Ext.mul, hw, not_lt.2 hw.le]
              · rfl
            · have hnil : rest = [] := by simpa using h0
              subst hnil
              have := hl e (by simp)
              subst this
              simp at hR
          · rw [hfin]
            simp only [Ext.add, Ext.mul, Ext.rpowHalf]
            have hpos : 0 < (s0 + x) * e ^ 2 := mul_pos (by linarith) hR
            have hsp := hsq _ hpos
            rw [if_neg (not_lt.2 hpos.le)]
            rcases hz with ⟨w, hw, rfl⟩ | rfl
            · left; exact ⟨_, mul_nonneg hsp.le hw, rfl⟩
            · right; simp [Ext.infMul, Ext.mul, hsp, not_lt.2 hsp.le]
        · left; exact ⟨0, le_rfl, rfl⟩
    cases i with
    | zero =>
      obtain ⟨l, u, hl, hu, h⟩ := clip_bracket e he.1 he.2 _ hd'
      refine ⟨l, u, ?_, h⟩
      simp only [gwLoop, map_cons, getElem?_cons_zero]
      rw [hl, hu]
    | succ i =>
      have hi' : i < rest.length := by simpa using hi
      have hne : rest ≠ [] := by rintro rfl; simp at hi'
      simp only [gwLoop, map_cons, getElem?_cons_succ, getElem_cons_succ]
      refine ih _ _ hd' ?_ (fun p hp => hrange p (by simp [hp])) ?_ i hi'
      · cases c with
        | false => exact ⟨s0, hs0, rfl⟩
        | true =>
          simp only [if_true]
          rcases gwTerm (K := K) rest.length with ⟨h0, -⟩ | ⟨-, x, hx, -, hfin⟩
          · exact absurd (by simpa using h0) hne
          · rw [hfin]; exact ⟨s0 + x, by linarith, rfl⟩
      · refine hlast.imp id fun h e he => h e ?_
        rw [getLast?_cons, he]; rfl

/-- Estimates do not change at censored rows (`e0` is the estimate before the first row). -/
def ConstCens : K → List (Bool × K) → Prop
  | _, [] => True
  | e0, (c, e) :: rest => (c = false → e = e0) ∧ ConstCens e rest

/-- Exact value of the unclipped bounds: `est ± z·est·√(running Greenwood sum)`. -/
theorem gwLoop_exact (z : ℝ) (L : List (Bool × ℝ)) (s e0 : ℝ) (hs : 0 ≤ s)
    (hc : ConstCens e0 L) (hrange : ∀ p ∈ L, 0 ≤ p.2) (i : Nat) (hi : i < L.length)
    (hlast : i + 1 = L.length → (L[i]).1 = true → (L[i]).2 = 0) :
    (gwLoop Real.sqrt (.fin z) (.fin s) (.fin (Real.sqrt s * e0 * z)) L)[i]? =
      (let g := (acc (fun m => 1 / (((m + 1 : Nat) : ℝ) * (((m + 1 : Nat) : ℝ) - 1))) s
        (L.map Prod.fst)).getD i 0
       some (.fin ((L[i]).2 - Real.sqrt g * (L[i]).2 * z), .fin ((L[i]).2 + Real.sqrt g * (L[i]).2 * z))) := by
  induction L generalizing s e0 i with
  | nil => simp at hi
  | cons p rest ih =>
    obtain ⟨c, e⟩ := p
    have he := hrange (c, e) (by simp)
    have hcc := hc.1
    cases c with
    | false =>
      have he' : e = e0 := hcc rfl
      subst he'
      cases i with
      | zero =>
        simp [gwLoop, acc, Ext.sub, Ext.neg, Ext.add, sub_eq_add_neg]
      | succ i =>
        have := ih s e hs hc.2 (fun p hp => hrange p (by simp [hp])) i (by simpa using hi)
          (by simpa using hlast)
        simpa [gwLoop, acc] using this
    | true =>
      rcases gwTerm (K := ℝ) rest.length with ⟨h0, hinf⟩ | ⟨h0, x, hx, hxe, hfin⟩
      · have hnil : rest = [] := by simpa using h0
        subst hnil
        have hi0 : i = 0 := by simp at hi; omega
        subst hi0
        have : e = 0 := by simpa using hlast (by simp) (by simp)
        subst this
        simp [gwLoop, Ext.sub, Ext.neg, Ext.add]
      · have hsx : 0 ≤ s + x := by linarith
        have hdelta : (if e ^ 2 > 0 then Ext.mul (Ext.rpowHalf Real.sqrt (Ext.mul (Ext.add (.fin s) (.fin x))
          (Ext.fin (e ^ 2)))) (.fin z) else Ext.fin 0) = .fin (Real.sqrt (s + x) * e * z) := by
          split
          · next h =>
            simp only [Ext.add, Ext.mul, Ext.rpowHalf]
            rw [if_neg (not_lt.2 (mul_nonneg hsx h.le))]
            simp only [Ext.mul]
            rw [Real.sqrt_mul hsx, Real.sqrt_sq he]
          · next h =>
            have : e = 0 := by
              by_contra hne
              exact h (by positivity)
            simp [this]
        cases i with
        | zero =>
          simp only [gwLoop, if_true, hfin, hdelta, getElem?_cons_zero, getElem_cons_zero, map_cons, acc,
            length_map, ← hxe]
          simp [Ext.sub, Ext.neg, Ext.add, sub_eq_add_neg]
        | succ i =>
          have := ih (s + x) e hsx hc.2 (fun p hp => hrange p (by simp [hp])) i (by simpa using hi)
            (by simpa using hlast)
          simp only [gwLoop, if_true, hfin, hdelta, getElem?_cons_succ, getElem_cons_succ, map_cons, acc,
            length_map, ← hxe, getD_cons_succ]
          exact this

end Reliability.NP
