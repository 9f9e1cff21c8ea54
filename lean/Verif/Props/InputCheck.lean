import Mathlib.Tactic.Linarith
import Mathlib.Tactic.NormNum
import Mathlib.Algebra.Order.Field.Rat
import Verif.Spec.InputCheck
import Verif.Lemmas.NumPy

/-! # C51: fitters_input_checking -/

namespace Reliability.Props

open List Reliability.InputCheck Reliability.Spec.InputCheck

section

variable {K : Type _} [Field K] [LinearOrder K]

theorem bind_ok {α β : Type _} {x : Except Err α} {f : α → Except Err β} {r : β} :
    (x >>= f) = .ok r ↔ ∃ a, x = .ok a ∧ f a = .ok r := by
  cases x with
  | error e =>
    constructor
    · intro h; cases h
    · rintro ⟨a, h, -⟩; cases h
  | ok a =>
    constructor
    · intro h; exact ⟨a, rfl, h⟩
    · rintro ⟨b, h, h2⟩; cases h; exact h2

/-- Only ValueErrors. -/
def OnlyVE {α : Type _} (x : Except Err α) : Prop := ∀ e, x = .error e → e = .valueError

theorem OnlyVE.bind {α β : Type _} {x : Except Err α} {f : α → Except Err β} (hx : OnlyVE x)
    (hf : ∀ a, x = .ok a → OnlyVE (f a)) : OnlyVE (x >>= f) := by
  intro e he
  cases x with
  | error e' => cases he; exact hx _ rfl
  | ok a => exact hf a rfl e he

theorem OnlyVE.ok {α : Type _} (a : α) : OnlyVE (.ok a : Except Err α) := by intro e h; cases h
theorem OnlyVE.ve {α : Type _} : OnlyVE (valueErr : Except Err α) := by intro e h; cases h; rfl

theorem onlyVE_ite {α : Type _} {p : Prop} [Decidable p] {x y : Except Err α} (hx : OnlyVE x) (hy : OnlyVE y) :
    OnlyVE (if p then x else y) := by split <;> assumption

theorem checkOptimizer_iff (a : StrArg) (o : Option String) :
    checkOptimizer a = .ok o ↔ Means optimizerNames a o := by
  unfold Means checkOptimizer
  cases a with
  | none => simp [eq_comm]
  | other => simp [valueErr]
  | str s =>
    simp only [StrArg.str.injEq, reduceCtorEq, false_and, false_or]
    constructor
    · intro h
      refine ⟨s, ?_⟩
      split at h
      · cases h; exact ⟨"TNC", ["TNC"], rfl, rfl, by decide, by simp [*]⟩
      split at h
      · cases h; exact ⟨"powell", ["POWELL"], rfl, rfl, by decide, by simp [*]⟩
      split at h
      · cases h; exact ⟨_, ["L-BFGS-B", "LBFGSB"], rfl, rfl, by decide, ‹_›⟩
      split at h
      · cases h; exact ⟨_, ["NELDER-MEAD", "NELDERMEAD", "NM"], rfl, rfl, by decide, ‹_›⟩
      split at h
      · cases h; exact ⟨_, ["ALL", "BEST"], rfl, rfl, by decide, ‹_›⟩
      · cases h
    · rintro ⟨_, c, sp, rfl, rfl, hm, hs⟩
      simp only [optimizerNames, mem_cons, Prod.mk.injEq, not_mem_nil, or_false] at hm
      rcases hm with ⟨rfl, rfl⟩ | ⟨rfl, rfl⟩ | ⟨rfl, rfl⟩ | ⟨rfl, rfl⟩ | ⟨rfl, rfl⟩ <;>
        simp only [mem_cons, not_mem_nil, or_false] at hs
      · simp [hs]
      · simp [hs]
      · rcases hs with h | h <;> simp [h]
      · rcases hs with h | h | h <;> simp [h]
      · rcases hs with h | h <;> simp [h]

theorem checkMethod_iff (a : StrArg) (o : Option String) :
    checkMethod a = .ok o ↔ Means methodNames a o := by
  unfold Means checkMethod
  cases a with
  | none => simp [eq_comm]
  | other => simp [valueErr]
  | str s =>
    simp only [StrArg.str.injEq, reduceCtorEq, false_and, false_or]
    constructor
    · intro h
      refine ⟨s, ?_⟩
      split at h
      · cases h; exact ⟨"RRX", ["RRX"], rfl, rfl, by decide, by simp [*]⟩
      split at h
      · cases h; exact ⟨"RRY", ["RRY"], rfl, rfl, by decide, by simp [*]⟩
      split at h
      · cases h; exact ⟨_, ["LS", "LEAST SQUARES", "LSQ", "NLRR", "NLLS"], rfl, rfl, by decide, ‹_›⟩
      split at h
      · cases h; exact ⟨_, ["MLE", "ML", "MAXIMUM LIKELIHOOD ESTIMATION", "MAXIMUM LIKELIHOOD", "MAX LIKELIHOOD"], rfl, rfl, by decide, ‹_›⟩
      · cases h
    · rintro ⟨_, c, sp, rfl, rfl, hm, hs⟩
      simp only [methodNames, mem_cons, Prod.mk.injEq, not_mem_nil, or_false] at hm
      rcases hm with ⟨rfl, rfl⟩ | ⟨rfl, rfl⟩ | ⟨rfl, rfl⟩ | ⟨rfl, rfl⟩ <;>
        simp only [mem_cons, not_mem_nil, or_false] at hs
      · simp [hs]
      · simp [hs]
      · rcases hs with h | h | h | h | h <;> simp [h]
      · rcases hs with h | h | h | h | h <;> simp [h]

theorem checkCIType_iff (a : StrArg) (o : Option String) :
    checkCIType a = .ok o ↔ Means ciTypeNames a o := by
  unfold Means checkCIType
  cases a with
  | none => simp [eq_comm]
  | other => simp [valueErr]
  | str s =>
    simp only [StrArg.str.injEq, reduceCtorEq, false_and, false_or]
    constructor
    · intro h
      refine ⟨s, ?_⟩
      split at h
      · cases h; exact ⟨_, ["T", "TIME"], rfl, rfl, by decide, ‹_›⟩
      split at h
      · cases h; exact ⟨_, ["R", "REL", "RELIABILITY"], rfl, rfl, by decide, ‹_›⟩
      split at h
      · cases h; exact ⟨_, ["NONE", "OFF"], rfl, rfl, by decide, ‹_›⟩
      · cases h
    · rintro ⟨_, c, sp, rfl, rfl, hm, hs⟩
      simp only [ciTypeNames, mem_cons, Prod.mk.injEq, not_mem_nil, or_false] at hm
      rcases hm with ⟨rfl, rfl⟩ | ⟨rfl, rfl⟩ | ⟨rfl, rfl⟩ <;>
        simp only [mem_cons, not_mem_nil, or_false] at hs
      · rcases hs with h | h <;> simp [h]
      · rcases hs with h | h | h <;> simp [h]
      · rcases hs with h | h <;> simp [h]

theorem checkCI_iff (a : CIArg K) (c : K) : checkCI a = .ok c ↔ a = .float c ∧ 0 < c ∧ c < 1 := by
  cases a with
  | other => simp [checkCI, valueErr]
  | float x =>
    simp only [checkCI]
    by_cases h : x ≤ 0 ∨ x ≥ 1
    · rw [if_pos h]
      constructor
      · intro h'; cases h'
      · rintro ⟨h1, h2, h3⟩; cases h1
        rcases h with h | h
        · exact absurd h2 (not_lt.2 h)
        · exact absurd h3 (not_lt.2 h)
    · rw [if_neg h]
      push Not at h
      constructor
      · intro h'; cases h'; exact ⟨rfl, h.1, h.2⟩
      · rintro ⟨h1, -⟩; cases h1; rfl

theorem checkForce_iff (a o : Option K) : checkForce a = .ok o ↔ o = a ∧ ∀ b, a = some b → 0 < b := by
  cases a with
  | none => simp [checkForce, eq_comm]
  | some b =>
    simp only [checkForce]
    by_cases h : b ≤ 0
    · rw [if_pos h]
      constructor
      · intro h'; cases h'
      · rintro ⟨-, h2⟩; exact absurd (h2 b rfl) (not_lt.2 h)
    · rw [if_neg h]
      constructor
      · intro h'; cases h'; exact ⟨rfl, fun c hc => by cases hc; exact not_le.1 h⟩
      · rintro ⟨rfl, -⟩; rfl

theorem minmax_some {l : List K} (h : l ≠ []) : ∃ a b, l.min? = some a ∧ l.max? = some b := by
  cases h1 : l.min? with
  | none => rw [min?_eq_none_iff] at h1; exact absurd h1 h
  | some a =>
    cases h2 : l.max? with
    | none => rw [max?_eq_none_iff] at h2; exact absurd h2 h
    | some b => exact ⟨a, b, rfl, rfl⟩

theorem standard_eq [IsStrictOrderedRing K] : (standardPercents.map fun k : ℕ => (k : K) / 100) = defaultQuantiles := by
  simp only [standardPercents, defaultQuantiles, List.map_cons, List.map_nil]
  norm_num

theorem checkQuantiles_iff [IsStrictOrderedRing K] (a o : QArg K) : checkQuantiles a = .ok o ↔ QMeans a o := by
  unfold QMeans
  rw [standard_eq]
  cases a with
  | none => simp [checkQuantiles, eq_comm]
  | other => simp [checkQuantiles, valueErr]
  | bool b => cases b <;> simp [checkQuantiles, eq_comm]
  | str s =>
    simp only [checkQuantiles]
    by_cases h : s ∈ ["auto", "default", "on"]
    · rw [if_pos h]
      simp only [mem_cons, not_mem_nil, or_false] at h
      simp only [Except.ok.injEq, reduceCtorEq, false_and, QArg.str.injEq, false_or, exists_and_left]
      constructor
      · rintro rfl; left; exact ⟨h, rfl⟩
      · rintro (h' | h' | h')
        · exact h'.2.symm
        · obtain ⟨s', h1, h2, h3, rfl, -⟩ := h'
          rcases h with h | h | h <;> contradiction
        · obtain ⟨_, _, _, h'⟩ := h'; exact h'.elim
    · rw [if_neg h]
      simp only [mem_cons, not_mem_nil, or_false, not_or] at h
      simp only [Except.ok.injEq, reduceCtorEq, false_and, QArg.str.injEq, false_or]
      constructor
      · rintro rfl; right; left; exact ⟨s, h.1, h.2.1, h.2.2, rfl, rfl⟩
      · rintro (h' | ⟨s', -, -, -, rfl, rfl⟩ | h')
        · rcases h'.1 with rfl | rfl | rfl <;> simp at h
        · rfl
        · obtain ⟨_, _, _, h'⟩ := h'; exact h'.elim
  | array l =>
    simp only [checkQuantiles]
    by_cases hl : l = []
    · subst hl
      constructor
      · intro h; cases h
      · rintro (h | h | h | h | h)
        · cases h.1
        · rcases h.1 with h | h | h | h <;> cases h
        · cases h.1
        · obtain ⟨s, -, -, -, h, -⟩ := h; cases h
        · obtain ⟨l, h, -, h', -⟩ := h; cases h'; exact absurd rfl h
    · obtain ⟨lo, hi, h1, h2⟩ := minmax_some hl
      rw [h1, h2]
      have e1 := (Np.min?_iff l lo).1 h1
      have e2 := (Np.max?_iff l hi).1 h2
      simp only
      constructor
      · intro h
        right; right; right; right
        by_cases hc : hi ≥ 1 ∨ lo ≤ 0
        · rw [if_pos hc] at h; cases h
        · rw [if_neg hc] at h; cases h
          push Not at hc
          exact ⟨l, hl, fun q hq => ⟨lt_of_lt_of_le hc.2 (e1.2 q hq), lt_of_le_of_lt (e2.2 q hq) hc.1⟩, rfl, rfl⟩
      · rintro (h | h | h | h | h)
        · cases h.1
        · rcases h.1 with h | h | h | h <;> cases h
        · cases h.1
        · obtain ⟨s, -, -, -, h, -⟩ := h; cases h
        · obtain ⟨l', -, hq, h', rfl⟩ := h
          cases h'
          rw [if_neg]
          push Not
          exact ⟨(hq _ e2.1).2, (hq _ e1.1).1⟩

end

variable {K : Type _} [Field K] [LinearOrder K] [IsStrictOrderedRing K]

theorem checkTypes_iff (f c : DataArg K) (F C : List K) :
    checkTypes f c = .ok (F, C) ↔ f = .array F ∧ (c = .none ∧ C = [] ∨ c = .array C) := by
  cases f <;> cases c <;> simp [checkTypes, valueErr, eq_comm]

theorem usable_filter (dist : String) (hn : ¬ RealLine dist) (l : List K) (h : ∀ x ∈ l, 0 ≤ x)
    (h1 : dist = "Beta_2P" → ∀ x ∈ l, x ≤ 1) :
    l.filter (fun x => decide (Usable dist x)) =
      if dist = "Beta_2P" then (l.filter fun x => decide (x ≠ 0)).filter fun x => decide (x ≠ 1)
      else l.filter fun x => decide (x ≠ 0) := by
  by_cases hb : dist = "Beta_2P"
  · rw [if_pos hb, filter_filter]
    apply filter_congr
    intro x hx
    have := h x hx
    have h1 := h1 hb x hx
    unfold Usable
    rw [← Bool.decide_and]
    congr 1
    rw [hb] at hn
    simp only [hb, hn, false_or, true_imp_iff, eq_iff_iff]
    exact ⟨fun ⟨a, b⟩ => ⟨b.ne, a.ne'⟩, fun ⟨a, b⟩ => ⟨lt_of_le_of_ne this (Ne.symm b), lt_of_le_of_ne h1 a⟩⟩
  · rw [if_neg hb]
    apply filter_congr
    intro x hx
    have := h x hx
    unfold Usable
    congr 1
    simp only [hn, false_or, hb, false_imp_iff, and_true, eq_iff_iff]
    exact ⟨fun a => a.ne', fun a => lt_of_le_of_ne this (Ne.symm a)⟩

theorem checkRange_iff (dist : String) (F C F' C' : List K) :
    checkRange dist F C = .ok (F', C') ↔
      (¬ RealLine dist → F ++ C ≠ []) ∧ (∀ x ∈ F, Allowed dist x) ∧ (∀ x ∈ C, Allowed dist x) ∧
      F' = F.filter (fun x => decide (Usable dist x)) ∧ C' = C.filter (fun x => decide (Usable dist x)) := by
  unfold checkRange
  by_cases hr : dist ∈ ["Normal_2P", "Gumbel_2P"]
  · have hR : RealLine dist := by unfold RealLine; simpa using hr
    rw [if_pos hr]
    have e : ∀ l : List K, l.filter (fun x => decide (Usable dist x)) = l := by
      intro l; rw [filter_eq_self]; intro x _; simp [Usable, hR]
    rw [e, e]
    simp only [Except.ok.injEq, Prod.mk.injEq]
    constructor
    · rintro ⟨rfl, rfl⟩
      exact ⟨fun h => absurd hR h, fun x _ => .inl hR, fun x _ => .inl hR, rfl, rfl⟩
    · rintro ⟨-, -, -, rfl, rfl⟩; exact ⟨rfl, rfl⟩
  · have hR : ¬ RealLine dist := by unfold RealLine; simpa using hr
    rw [if_neg hr]
    by_cases hne : F ++ C = []
    · rw [hne]
      constructor
      · intro h; cases h
      · rintro ⟨h, -⟩; exact absurd rfl (h hR)
    · obtain ⟨lo, hi, h1, h2⟩ := minmax_some hne
      rw [h1, h2]
      have e1 := (Np.min?_iff _ lo).1 h1
      have e2 := (Np.max?_iff _ hi).1 h2
      simp only
      have hall : (∀ x ∈ F, Allowed dist x) ∧ (∀ x ∈ C, Allowed dist x) ↔
          ∀ x ∈ F ++ C, 0 ≤ x ∧ (dist = "Beta_2P" → x ≤ 1) := by
        simp only [Allowed, hR, false_or, mem_append]
        constructor
        · rintro ⟨a, b⟩ x (hx | hx)
          · exact a x hx
          · exact b x hx
        · intro h; exact ⟨fun x hx => h x (.inl hx), fun x hx => h x (.inr hx)⟩
      by_cases hc1 : dist = "Beta_2P" ∧ (lo < 0 ∨ hi > 1)
      · rw [if_pos hc1]
        constructor
        · intro h; cases h
        · rintro ⟨-, a, b, -⟩
          have := hall.1 ⟨a, b⟩
          rcases hc1.2 with h | h
          · exact absurd h (not_lt.2 (this lo e1.1).1)
          · exact absurd h (not_lt.2 ((this hi e2.1).2 hc1.1))
      · rw [if_neg hc1]
        by_cases hc2 : lo < 0
        · rw [if_pos hc2]
          constructor
          · intro h; cases h
          · rintro ⟨-, a, b, -⟩
            exact absurd hc2 (not_lt.2 ((hall.1 ⟨a, b⟩) lo e1.1).1)
        · rw [if_neg hc2]
          have hlo : 0 ≤ lo := not_lt.1 hc2
          have hA : ∀ x ∈ F ++ C, 0 ≤ x ∧ (dist = "Beta_2P" → x ≤ 1) := by
            intro x hx
            refine ⟨le_trans hlo (e1.2 x hx), fun hb => ?_⟩
            have : ¬ (lo < 0 ∨ hi > 1) := fun h => hc1 ⟨hb, h⟩
            push Not at this
            exact le_trans (e2.2 x hx) this.2
          have hF := usable_filter dist hR F (fun x hx => (hA x (mem_append_left _ hx)).1)
            (fun hb x hx => (hA x (mem_append_left _ hx)).2 hb)
          have hC := usable_filter dist hR C (fun x hx => (hA x (mem_append_right _ hx)).1)
            (fun hb x hx => (hA x (mem_append_right _ hx)).2 hb)
          rw [hF, hC]
          have hAl := hall.2 hA
          by_cases hb : dist = "Beta_2P"
          · simp only [if_pos hb, Except.ok.injEq, Prod.mk.injEq]
            constructor
            · rintro ⟨rfl, rfl⟩; exact ⟨fun _ => hne, hAl.1, hAl.2, rfl, rfl⟩
            · rintro ⟨-, -, -, rfl, rfl⟩; exact ⟨rfl, rfl⟩
          · simp only [if_neg hb, Except.ok.injEq, Prod.mk.injEq]
            constructor
            · rintro ⟨rfl, rfl⟩; exact ⟨fun _ => hne, hAl.1, hAl.2, rfl, rfl⟩
            · rintro ⟨-, -, -, rfl, rfl⟩; exact ⟨rfl, rfl⟩

omit [IsStrictOrderedRing K] in
theorem minFailures_eq (dist : String) (fs fb : Option K) (hd : dist ∈ distNames) :
    minFailures dist fs fb = some (required dist (fb.isSome || fs.isSome)) := by
  have key : ∀ P : Nat → Nat → Prop, True := fun _ => trivial
  simp only [distNames, mem_cons, not_mem_nil, or_false] at hd
  unfold minFailures required
  rcases hd with rfl | rfl | rfl | rfl | rfl | rfl | rfl | rfl | rfl | rfl | rfl | rfl | rfl | rfl | rfl | rfl | rfl |
    rfl | rfl <;> cases fs <;> cases fb <;> simp

omit [IsStrictOrderedRing K] in
theorem checkCount_iff (dist : String) (fs fb : Option K) (F : List K) (hd : dist ∈ distNames) (u : Unit) :
    checkCount dist fs fb F = .ok u ↔ required dist (fb.isSome || fs.isSome) ≤ F.toFinset.card := by
  unfold checkCount
  rw [minFailures_eq dist fs fb hd, List.card_toFinset]
  simp only
  split <;> simp_all [valueErr]

theorem required_pos (dist : String) (b : Bool) : 1 ≤ required dist b := by
  unfold required
  repeat' split
  all_goals omega

/-- **C51.** `fitters_input_checking` succeeds with result `r` exactly when the documented requirements hold, and
`r` is then what they say. -/
theorem C51_ok_iff (dist : String) (failures right_censored : DataArg K) (method optimizer : StrArg) (CI : CIArg K)
    (quantiles : QArg K) (force_beta force_sigma : Option K) (CI_type : StrArg) (r : Checked K) :
    fittersCheck dist failures right_censored method optimizer CI quantiles force_beta force_sigma CI_type = .ok r ↔
      Accepts dist failures right_censored method optimizer CI quantiles force_beta force_sigma CI_type r := by
  unfold fittersCheck
  by_cases hd : dist ∈ distNames
  swap
  · rw [if_pos hd]
    constructor
    · intro h; cases h
    · intro h; exact absurd h.dist_known hd
  rw [if_neg (not_not.2 hd)]
  simp only [bind_ok]
  constructor
  · rintro ⟨⟨F, C⟩, h1, ⟨F', C'⟩, h2, ci, h3, opt, h4, met, h5, q, h6, fb, h7, fs, h8, u, h9, ct, h10, h11⟩
    rw [checkTypes_iff] at h1
    simp only at h2 h9 h11
    rw [checkRange_iff] at h2
    rw [checkCI_iff] at h3
    rw [checkOptimizer_iff] at h4
    rw [checkMethod_iff] at h5
    rw [checkQuantiles_iff] at h6
    rw [checkForce_iff] at h7 h8
    obtain ⟨rfl, h7⟩ := h7
    obtain ⟨rfl, h8⟩ := h8
    rw [checkCount_iff _ _ _ _ hd] at h9
    rw [checkCIType_iff] at h10
    have h11 := Except.ok.inj h11
    subst h11
    exact ⟨hd, ⟨F, C, h1.1, h1.2, h2.2.1, h2.2.2.1, h2.2.2.2.1, h2.2.2.2.2⟩, h3, h4, h5, h6, ⟨rfl, h7⟩, ⟨rfl, h8⟩, h9,
      h10⟩
  · rintro ⟨-, ⟨F, C, hF, hC, aF, aC, rF, rC⟩, h3, h4, h5, h6, ⟨e7, h7⟩, ⟨e8, h8⟩, h9, h10⟩
    refine ⟨(F, C), (checkTypes_iff _ _ _ _).2 ⟨hF, hC⟩, (r.failures, r.right_censored),
      (checkRange_iff _ _ _ _ _).2 ⟨fun _ hne => ?_, aF, aC, rF, rC⟩, r.CI, (checkCI_iff _ _).2 h3, r.optimizer,
      (checkOptimizer_iff _ _).2 h4, r.method, (checkMethod_iff _ _).2 h5, r.quantiles, (checkQuantiles_iff _ _).2 h6,
      r.force_beta, (checkForce_iff _ _).2 ⟨e7, h7⟩, r.force_sigma, (checkForce_iff _ _).2 ⟨e8, h8⟩, (), ?_,
      r.CI_type, (checkCIType_iff _ _).2 h10, rfl⟩
    · have : F = [] := (append_eq_nil_iff.1 hne).1
      subst this
      rw [rF] at h9
      have := required_pos dist (force_beta.isSome || force_sigma.isSome)
      simp at h9
      omega
    · rw [checkCount_iff _ _ _ _ hd, e7, e8]; exact h9

/-- **C51 (refusals).** Every refusal is a ValueError. -/
theorem C51_refusals (dist : String) (failures right_censored : DataArg K) (method optimizer : StrArg) (CI : CIArg K)
    (quantiles : QArg K) (force_beta force_sigma : Option K) (CI_type : StrArg) (e : Err)
    (h : fittersCheck dist failures right_censored method optimizer CI quantiles force_beta force_sigma CI_type =
      .error e) : e = .valueError := by
  revert e
  change OnlyVE _
  unfold fittersCheck
  by_cases hd : dist ∈ distNames
  swap
  · rw [if_pos hd]; exact OnlyVE.ve
  rw [if_neg (not_not.2 hd)]
  refine OnlyVE.bind ?_ fun fc _ => OnlyVE.bind ?_ fun fc' _ => OnlyVE.bind ?_ fun _ _ => OnlyVE.bind ?_ fun _ _ =>
    OnlyVE.bind ?_ fun _ _ => OnlyVE.bind ?_ fun _ _ => OnlyVE.bind ?_ fun fb _ => OnlyVE.bind ?_ fun fs _ =>
    OnlyVE.bind ?_ fun _ _ => OnlyVE.bind ?_ fun _ _ => OnlyVE.ok _
  · unfold checkTypes; split <;> first | exact OnlyVE.ok _ | exact OnlyVE.ve
  · unfold checkRange
    simp only
    repeat' split
    all_goals first | exact OnlyVE.ok _ | exact OnlyVE.ve
  · unfold checkCI; repeat' split
    all_goals first | exact OnlyVE.ok _ | exact OnlyVE.ve
  · unfold checkOptimizer; repeat' split
    all_goals first | exact OnlyVE.ok _ | exact OnlyVE.ve
  · unfold checkMethod; repeat' split
    all_goals first | exact OnlyVE.ok _ | exact OnlyVE.ve
  · unfold checkQuantiles; repeat' split
    all_goals first | exact OnlyVE.ok _ | exact OnlyVE.ve
  · unfold checkForce; repeat' split
    all_goals first | exact OnlyVE.ok _ | exact OnlyVE.ve
  · unfold checkForce; repeat' split
    all_goals first | exact OnlyVE.ok _ | exact OnlyVE.ve
  · unfold checkCount
    rw [minFailures_eq dist fs fb hd]
    simp only
    split <;> first | exact OnlyVE.ok _ | exact OnlyVE.ve
  · unfold checkCIType; repeat' split
    all_goals first | exact OnlyVE.ok _ | exact OnlyVE.ve

/-- **C51 (case).** Optimizer, method and CI_type are read ignoring case. -/
theorem C51_case_insensitive (dist : String) (failures right_censored : DataArg K) (m m' o o' t t' : String)
    (CI : CIArg K) (quantiles : QArg K) (force_beta force_sigma : Option K) (hm : Fitters.up m = Fitters.up m')
    (ho : Fitters.up o = Fitters.up o') (ht : Fitters.up t = Fitters.up t') :
    fittersCheck dist failures right_censored (.str m) (.str o) CI quantiles force_beta force_sigma (.str t) =
    fittersCheck dist failures right_censored (.str m') (.str o') CI quantiles force_beta force_sigma (.str t') := by
  unfold fittersCheck checkMethod checkOptimizer checkCIType
  simp only [hm, ho, ht]

/-- An optional name as an argument. -/
def toArg : Option String → StrArg
  | none => .none
  | some s => .str s

/-- **C51 (stability).** Checking a checked input again changes nothing (Fit_Everything hands its checked input to the
individual fitters, which check it again). -/
theorem C51_idempotent (dist : String) (failures right_censored : DataArg K) (method optimizer : StrArg)
    (CI : CIArg K) (quantiles : QArg K) (force_beta force_sigma : Option K) (CI_type : StrArg) (r : Checked K)
    (h : fittersCheck dist failures right_censored method optimizer CI quantiles force_beta force_sigma CI_type =
      .ok r) :
    fittersCheck dist (.array r.failures) (.array r.right_censored) (toArg r.method) (toArg r.optimizer) (.float r.CI)
      r.quantiles r.force_beta r.force_sigma (toArg r.CI_type) = .ok r := by
  rw [C51_ok_iff] at h ⊢
  obtain ⟨hd, ⟨F, C, hF, hC, aF, aC, rF, rC⟩, h3, h4, h5, h6, ⟨e7, h7⟩, ⟨e8, h8⟩, h9, h10⟩ := h
  have al : ∀ l : List K, ∀ x ∈ l.filter (fun x => decide (Usable dist x)), Usable dist x := by
    intro l x hx; simpa using (mem_filter.1 hx).2
  have ual : ∀ x : K, Usable dist x → Allowed dist x := by
    rintro x (h | h)
    · exact .inl h
    · exact .inr ⟨h.1.le, fun hb => (h.2 hb).le⟩
  have ff : ∀ l : List K, (l.filter (fun x => decide (Usable dist x))).filter (fun x => decide (Usable dist x)) =
      l.filter (fun x => decide (Usable dist x)) := by
    intro l; rw [filter_filter]; simp
  refine ⟨hd, ⟨r.failures, r.right_censored, rfl, .inr rfl, ?_, ?_, ?_, ?_⟩, ⟨rfl, h3.2⟩, ?_, ?_, ?_, ⟨rfl, ?_⟩,
    ⟨rfl, ?_⟩, ?_, ?_⟩
  · rw [rF]; exact fun x hx => ual x (al _ x hx)
  · rw [rC]; exact fun x hx => ual x (al _ x hx)
  · rw [rF, ff]
  · rw [rC, ff]
  · rcases h4 with ⟨-, h⟩ | ⟨s, c, sp, -, h, hm, hs⟩
    · rw [h]; exact .inl ⟨rfl, rfl⟩
    · rw [h]; right
      refine ⟨c, c, sp, rfl, rfl, hm, ?_⟩
      have : ∀ p ∈ optimizerNames, Fitters.up p.1 ∈ p.2 := by decide +kernel
      exact this _ hm
  · rcases h5 with ⟨-, h⟩ | ⟨s, c, sp, -, h, hm, hs⟩
    · rw [h]; exact .inl ⟨rfl, rfl⟩
    · rw [h]; right
      refine ⟨c, c, sp, rfl, rfl, hm, ?_⟩
      have : ∀ p ∈ methodNames, Fitters.up p.1 ∈ p.2 := by decide +kernel
      exact this _ hm
  · rcases h6 with ⟨-, h⟩ | ⟨-, h⟩ | ⟨-, h⟩ | ⟨s, h1, h2, h3, -, h⟩ | ⟨l, h1, h2, -, h⟩ <;> rw [h]
    · exact .inl ⟨rfl, rfl⟩
    · right; right; right; right
      rw [standard_eq]
      refine ⟨defaultQuantiles, by simp [defaultQuantiles], ?_, rfl, rfl⟩
      intro q hq
      simp only [defaultQuantiles, mem_cons, not_mem_nil, or_false] at hq
      rcases hq with rfl | rfl | rfl | rfl | rfl | rfl | rfl | rfl | rfl | rfl | rfl <;> constructor <;> norm_num
    · right; right; left; exact ⟨rfl, rfl⟩
    · right; right; right; left; exact ⟨s, h1, h2, h3, rfl, rfl⟩
    · right; right; right; right; exact ⟨l, h1, h2, rfl, rfl⟩
  · rw [e7]; exact h7
  · rw [e8]; exact h8
  · rw [e7, e8]; exact h9
  · rcases h10 with ⟨-, h⟩ | ⟨s, c, sp, -, h, hm, hs⟩
    · rw [h]; exact .inl ⟨rfl, rfl⟩
    · rw [h]; right
      refine ⟨c, c, sp, rfl, rfl, hm, ?_⟩
      have : ∀ p ∈ ciTypeNames, Fitters.up p.1 ∈ p.2 := by decide +kernel
      exact this _ hm

example : ∃ r, fittersCheck "Weibull_2P" (.array [(0 : ℚ), 5, 3]) .none (.str "mle") (.str "nm") (.float (9/10))
    (.bool true) none none (.str "Rel") = .ok r ∧ r.failures = [5, 3] ∧ r.optimizer = some "nelder-mead" := by
  refine ⟨⟨[5, 3], [], 9/10, some "MLE", some "nelder-mead", .array defaultQuantiles, none, none,
    some "reliability"⟩, ?_, rfl, rfl⟩
  rw [C51_ok_iff]
  refine ⟨by decide, ⟨_, [], rfl, .inl ⟨rfl, rfl⟩, ?_, by simp, ?_, rfl⟩, ⟨rfl, by norm_num, by norm_num⟩,
    .inr ⟨_, _, ["NELDER-MEAD", "NELDERMEAD", "NM"], rfl, rfl, by decide, by decide +kernel⟩,
    .inr ⟨_, _, ["MLE", "ML", "MAXIMUM LIKELIHOOD ESTIMATION", "MAXIMUM LIKELIHOOD", "MAX LIKELIHOOD"], rfl, rfl,
      by decide, by decide +kernel⟩,
    .inr (.inl ⟨.inl rfl, by rw [standard_eq]⟩), ⟨rfl, by simp⟩, ⟨rfl, by simp⟩, by decide +kernel,
    .inr ⟨_, _, ["R", "REL", "RELIABILITY"], rfl, rfl, by decide, by decide +kernel⟩⟩
  · intro x hx
    simp only [mem_cons, not_mem_nil, or_false] at hx
    right
    refine ⟨?_, fun h => absurd h (by decide)⟩
    rcases hx with rfl | rfl | rfl <;> norm_num
  · decide +kernel

end Reliability.Props
