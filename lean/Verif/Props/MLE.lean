import Mathlib.Tactic.Linarith
import Mathlib.Tactic.NormNum
import Mathlib.Tactic.Positivity
import Mathlib.Tactic.FieldSimp
import Mathlib.Tactic.Ring
import Mathlib.Logic.Function.Iterate
import Verif.Model.Fitters
import Verif.Spec.Fitters
import Verif.Model.Likelihood
import Verif.Lemmas.NumPy

/-! # C43, C47, C48, C71, C72: information criteria, optimisation loops, least-squares choice, parameter bounds -/

namespace Reliability.Props

open List Reliability.Fitters

section loop

variable {K : Type _} [Field K] [LinearOrder K] {P : Type _}

/-- The sequence of guesses produced by feeding the optimizer's answer back in. -/
def guesses (minimize : P → OptResult P) (g : P) (k : Nat) : P := (fun x => (minimize x).x)^[k] g

theorem guesses_succ (minimize : P → OptResult P) (g : P) (k : Nat) :
    guesses minimize g (k + 1) = (minimize (guesses minimize g k)).x := by
  unfold guesses
  rw [Function.iterate_succ_apply']

theorem mleLoop_spec (minimize : P → OptResult P) (obj : P → K) (g : P) (m : Nat) :
    ∀ k, 1 ≤ k → k + m = 5 → ∀ delta,
    ∃ n, k ≤ n ∧ n ≤ 5 ∧
      mleLoop minimize obj k delta (obj (guesses minimize g k)) (guesses minimize g k)
        (some (minimize (guesses minimize g (k - 1)))) =
      ⟨n, obj (guesses minimize g n), some (minimize (guesses minimize g (n - 1)))⟩ ∧
      (n = 5 ∨ (n = k ∧ delta ≤ 1 / 1000) ∨
        (k < n ∧ |obj (guesses minimize g n) - obj (guesses minimize g (n - 1))| ≤ 1 / 1000)) := by
  induction m with
  | zero =>
    intro k hk hkm delta
    have h5 : k = 5 := by omega
    refine ⟨k, le_refl _, by omega, ?_, .inl h5⟩
    rw [mleLoop, if_neg (by omega)]
  | succ m ih =>
    intro k hk hkm delta
    by_cases hd : (1 / 1000 : K) < delta
    · obtain ⟨n, h1, h2, h3, h4⟩ := ih (k + 1) (by omega) (by omega)
        |obj (guesses minimize g (k + 1)) - obj (guesses minimize g k)|
      refine ⟨n, by omega, h2, ?_, ?_⟩
      · rw [mleLoop, if_pos ⟨hd, by omega⟩]
        simp only [← guesses_succ]
        rw [Nat.add_sub_cancel] at h3
        exact h3
      · rcases h4 with h4 | ⟨rfl, h4⟩ | ⟨h, h4⟩
        · exact .inl h4
        · exact .inr (.inr ⟨by omega, h4⟩)
        · exact .inr (.inr ⟨by omega, h4⟩)
    · refine ⟨k, le_refl _, by omega, ?_, .inr (.inl ⟨rfl, not_lt.1 hd⟩)⟩
      rw [mleLoop, if_neg (fun h => hd h.1)]

variable [IsStrictOrderedRing K]

/-- **C47 (the loop).** Whatever the optimizer answers, the refinement loop stops after between one and five
runs; the result is that of its last run, started from the answer of the run before; the value reported is the
objective at the parameters returned; and it stopped early only because the last two values differ by at most
0.001 (the first being compared with 1000000). -/
theorem C47_loop_terminates (minimize : P → OptResult P) (obj : P → K) (g : P) :
    ∃ n, 1 ≤ n ∧ n ≤ 5 ∧ (loglikOptimizer minimize obj g).runs = n ∧
      (loglikOptimizer minimize obj g).result = some (minimize (guesses minimize g (n - 1))) ∧
      (loglikOptimizer minimize obj g).LL = obj (minimize (guesses minimize g (n - 1))).x ∧
      (n = 5 ∨ (n = 1 ∧ |obj (guesses minimize g 1) - 1000000| ≤ 1 / 1000) ∨
        (2 ≤ n ∧ |obj (guesses minimize g n) - obj (guesses minimize g (n - 1))| ≤ 1 / 1000)) := by
  obtain ⟨n, h1, h2, h3, h4⟩ := mleLoop_spec minimize obj g 4 1 (le_refl _) (by omega)
    |obj (guesses minimize g 1) - 1000000|
  have hrun : loglikOptimizer minimize obj g =
      ⟨n, obj (guesses minimize g n), some (minimize (guesses minimize g (n - 1)))⟩ := by
    unfold loglikOptimizer
    rw [mleLoop, if_pos ⟨by norm_num, by omega⟩]
    exact h3
  refine ⟨n, h1, h2, by rw [hrun], by rw [hrun], ?_, ?_⟩
  · rw [hrun]
    conv_lhs => rw [show n = (n - 1) + 1 by omega]
    rw [guesses_succ]
  · rcases h4 with h | ⟨h, h'⟩ | ⟨h, h'⟩
    · exact .inl h
    · exact .inr (.inl ⟨h, h'⟩)
    · exact .inr (.inr ⟨by omega, h'⟩)

/-- The final answer of one optimizer. -/
def answer (minimize : String → P → OptResult P) (obj : P → K) (g : P) (opt : String) : OptResult P :=
  (loglikOptimizer (minimize opt) obj g).result.getD ⟨false, g⟩

theorem answer_spec (minimize : String → P → OptResult P) (obj : P → K) (g : P) (opt : String) :
    (loglikOptimizer (minimize opt) obj g).result = some (answer minimize obj g opt) ∧
    (loglikOptimizer (minimize opt) obj g).LL = obj (answer minimize obj g opt).x := by
  obtain ⟨n, -, -, -, h1, h2, -⟩ := C47_loop_terminates (minimize opt) obj g
  unfold answer
  rw [h1]
  exact ⟨rfl, h2⟩

/-- The record of one optimizer. -/
def tried (minimize : String → P → OptResult P) (obj : P → K) (g : P) (opt : String) : Tried K P :=
  ⟨opt, (answer minimize obj g opt).success, obj (answer minimize obj g opt).x, (answer minimize obj g opt).x⟩

theorem tryAll_cons (minimize : String → P → OptResult P) (obj : P → K) (g : P) (stop : Bool) (o : String)
    (os : List String) : tryAll minimize obj g stop (o :: os) =
      if (answer minimize obj g o).success = true ∧ stop = true then [tried minimize obj g o]
      else tried minimize obj g o :: tryAll minimize obj g stop os := by
  rw [tryAll]
  obtain ⟨h1, h2⟩ := answer_spec minimize obj g o
  simp only [h1, h2]
  rfl

theorem tryAll_nostop (minimize : String → P → OptResult P) (obj : P → K) (g : P) (os : List String) :
    tryAll minimize obj g false os = os.map (tried minimize obj g) := by
  induction os with
  | nil => rfl
  | cons o os ih => rw [tryAll_cons, if_neg (by simp), ih]; rfl

omit [Field K] [IsStrictOrderedRing K] in
theorem firstMin_some {l : List (Tried K P)} {t : Tried K P} (h : firstMin l = some t) :
    t ∈ l ∧ ∀ u ∈ l, t.LL ≤ u.LL := by
  induction l generalizing t with
  | nil => simp [firstMin] at h
  | cons a l ih =>
    rw [firstMin] at h
    cases hf : firstMin l with
    | none =>
      rw [hf] at h
      have hl : l = [] := by
        cases l with
        | nil => rfl
        | cons b l =>
          rw [firstMin] at hf
          cases hg : firstMin l with
          | none => rw [hg] at hf; simp at hf
          | some c => rw [hg] at hf; simp only at hf; split at hf <;> simp at hf
      simp only [Option.some.injEq] at h
      subst hl h
      simp
    | some b =>
      rw [hf] at h
      obtain ⟨hb, hmin⟩ := ih hf
      simp only at h
      by_cases hlt : b.LL < a.LL
      · rw [if_pos hlt] at h
        simp only [Option.some.injEq] at h
        subst h
        refine ⟨mem_cons_of_mem _ hb, fun u hu => ?_⟩
        rcases mem_cons.1 hu with rfl | hu
        · exact hlt.le
        · exact hmin u hu
      · rw [if_neg hlt] at h
        simp only [Option.some.injEq] at h
        subst h
        refine ⟨mem_cons_self, fun u hu => ?_⟩
        rcases mem_cons.1 hu with rfl | hu
        · exact le_refl _
        · exact (not_lt.1 hlt).trans (hmin u hu)

omit [Field K] [IsStrictOrderedRing K] in
theorem firstMin_none {l : List (Tried K P)} (h : firstMin l = none) : l = [] := by
  cases l with
  | nil => rfl
  | cons b l =>
    rw [firstMin] at h
    cases hg : firstMin l with
    | none => rw [hg] at h; simp at h
    | some c => rw [hg] at h; simp only at h; split at h <;> simp at h

/-- Which optimizers are tried. -/
theorem optimizers_cases (o : Option String) :
    (∃ os stop, optimizersToTry o = .ok (os, stop) ∧ os ≠ [] ∧
      (stop = true ↔ o = none) ∧
      (∀ x ∈ os, x ∈ ["TNC", "L-BFGS-B", "nelder-mead", "powell"]) ∧
      ((o = none ∨ ∃ s, o = some s ∧ s ∈ ["best", "BEST", "all", "ALL"]) → os = ["TNC", "L-BFGS-B", "nelder-mead", "powell"]) ∧
      (∀ s, o = some s → s ∉ ["best", "BEST", "all", "ALL"] → ∃ x, os = [x] ∧ (up s = up x ∨ (up s = "LBFGSB" ∧ x = "L-BFGS-B") ∨
        (up s = "NELDERMEAD" ∧ x = "nelder-mead")))) ∨
    (optimizersToTry o = .error .valueError ∧ ∃ s, o = some s ∧ s ∉ ["best", "BEST", "all", "ALL"] ∧
      up s ∉ ["TNC", "L-BFGS-B", "LBFGSB", "POWELL", "NELDER-MEAD", "NELDERMEAD"]) := by
  cases o with
  | none => left; exact ⟨_, _, rfl, by simp, by simp, by simp, by simp, by simp⟩
  | some s =>
    unfold optimizersToTry
    simp only
    by_cases h0 : s ∈ ["best", "BEST", "all", "ALL"]
    · left; rw [if_pos h0]
      refine ⟨_, _, rfl, by simp, by simp, by simp, by simp, ?_⟩
      rintro t ht; cases ht; exact fun h => absurd h0 h
    rw [if_neg h0]
    by_cases h1 : up s = "TNC"
    · left; rw [if_pos h1]
      refine ⟨_, _, rfl, by simp, by simp, by simp, ?_, fun t ht _ => ⟨_, rfl, .inl ?_⟩⟩
      · rintro (h | ⟨t, ht, h⟩)
        · cases h
        · cases ht; exact absurd h h0
      · cases ht; rw [h1]; decide
    rw [if_neg h1]
    by_cases h2 : up s ∈ ["L-BFGS-B", "LBFGSB"]
    · left; rw [if_pos h2]
      refine ⟨_, _, rfl, by simp, by simp, by simp, ?_, fun t ht _ => ⟨_, rfl, ?_⟩⟩
      · rintro (h | ⟨t, ht, h⟩)
        · cases h
        · cases ht; exact absurd h h0
      · cases ht
        simp only [mem_cons, not_mem_nil, or_false] at h2
        rcases h2 with h2 | h2
        · rw [h2]; exact .inl (by decide)
        · exact .inr (.inl ⟨h2, rfl⟩)
    rw [if_neg h2]
    by_cases h3 : up s = "POWELL"
    · left; rw [if_pos h3]
      refine ⟨_, _, rfl, by simp, by simp, by simp, ?_, fun t ht _ => ⟨_, rfl, .inl ?_⟩⟩
      · rintro (h | ⟨t, ht, h⟩)
        · cases h
        · cases ht; exact absurd h h0
      · cases ht; rw [h3]; decide
    rw [if_neg h3]
    by_cases h4 : up s ∈ ["NELDER-MEAD", "NELDERMEAD"]
    · left; rw [if_pos h4]
      refine ⟨_, _, rfl, by simp, by simp, by simp, ?_, fun t ht _ => ⟨_, rfl, ?_⟩⟩
      · rintro (h | ⟨t, ht, h⟩)
        · cases h
        · cases ht; exact absurd h h0
      · cases ht
        simp only [mem_cons, not_mem_nil, or_false] at h4
        rcases h4 with h4 | h4
        · rw [h4]; exact .inl (by decide)
        · exact .inr (.inr ⟨h4, rfl⟩)
    rw [if_neg h4]
    right
    refine ⟨rfl, s, rfl, h0, ?_⟩
    simp only [mem_cons, not_mem_nil, or_false, not_or] at h2 h4 ⊢
    exact ⟨h1, h2.1, h2.2, h3, h4.1, h4.2⟩

theorem tries_ok {o : Option String} {os : List String} (h : Spec.Tries o os) : optimizersToTry o = .ok (os, o.isNone) := by
  cases h with
  | none => rfl
  | best h => simp only [optimizersToTry, if_pos h]; rfl
  | @TNC s h =>
    have h0 : s ∉ ["best", "BEST", "all", "ALL"] := by
      intro hb
      simp only [mem_cons, not_mem_nil, or_false] at hb
      rcases hb with rfl | rfl | rfl | rfl <;> exact absurd h (by decide +kernel)
    simp only [optimizersToTry, if_neg h0, if_pos h]; rfl
  | @LBFGSB s h =>
    have h0 : s ∉ ["best", "BEST", "all", "ALL"] := by
      intro hb
      simp only [mem_cons, not_mem_nil, or_false] at hb
      rcases hb with rfl | rfl | rfl | rfl <;> exact absurd h (by decide +kernel)
    have h1 : up s ≠ "TNC" := by rcases h with h | h <;> rw [h] <;> decide
    simp only [optimizersToTry, if_neg h0, if_neg h1]
    rw [if_pos (by simpa using h)]; rfl
  | @powell s h =>
    have h0 : s ∉ ["best", "BEST", "all", "ALL"] := by
      intro hb
      simp only [mem_cons, not_mem_nil, or_false] at hb
      rcases hb with rfl | rfl | rfl | rfl <;> exact absurd h (by decide +kernel)
    simp only [optimizersToTry, if_neg h0, h]; rfl
  | @neldermead s h =>
    have h0 : s ∉ ["best", "BEST", "all", "ALL"] := by
      intro hb
      simp only [mem_cons, not_mem_nil, or_false] at hb
      rcases hb with rfl | rfl | rfl | rfl <;> exact absurd h (by decide +kernel)
    simp only [optimizersToTry, if_neg h0]
    rcases h with h | h <;> rw [h] <;> rfl

theorem tries_of_ok {o : Option String} {os : List String} {stop : Bool} (h : optimizersToTry o = .ok (os, stop)) :
    Spec.Tries o os := by
  cases o with
  | none => cases h; exact .none
  | some s =>
    unfold optimizersToTry at h
    simp only at h
    split_ifs at h with h0 h1 h2 h3 h4 <;> cases h
    · exact .best h0
    · exact .TNC h1
    · exact .LBFGSB (by simpa using h2)
    · exact .powell h3
    · exact .neldermead (by simpa using h4)

/-- The reported optimizer among those tried. -/
theorem best_of_successes (minimize : String → P → OptResult P) (obj : P → K) (g : P) (s : String)
    (os : List String) (hos : optimizersToTry (some s) = .ok (os, false))
    (hsome : ∃ o ∈ os, (answer minimize obj g o).success = true) :
    ∃ o ∈ os, mleOptimization minimize obj g (some s) = .ok ⟨true, some o, (answer minimize obj g o).x⟩ ∧
      (answer minimize obj g o).success = true ∧
      ∀ o' ∈ os, (answer minimize obj g o').success = true →
        obj (answer minimize obj g o).x ≤ obj (answer minimize obj g o').x := by
  unfold mleOptimization
  simp only [hos, tryAll_nostop]
  cases hf : firstMin ((os.map (tried minimize obj g)).filter fun t => t.success) with
  | none =>
    have := firstMin_none hf
    rw [filter_eq_nil_iff] at this
    obtain ⟨o, ho, h⟩ := hsome
    exact absurd h (this _ (mem_map.2 ⟨o, ho, rfl⟩))
  | some t =>
    obtain ⟨hm, hmin⟩ := firstMin_some hf
    obtain ⟨hm, hs⟩ := mem_filter.1 hm
    obtain ⟨o, ho, rfl⟩ := mem_map.1 hm
    refine ⟨o, ho, rfl, hs, fun o' ho' hs' => ?_⟩
    exact hmin (tried minimize obj g o') (mem_filter.2 ⟨mem_map.2 ⟨o', ho', rfl⟩, hs'⟩)

theorem tryAll_stop (minimize : String → P → OptResult P) (obj : P → K) (g : P) (os : List String) :
    (tryAll minimize obj g true os).filter (fun t => t.success) =
      ((os.find? fun o => (answer minimize obj g o).success).map (tried minimize obj g)).toList := by
  induction os with
  | nil => rfl
  | cons o os ih =>
    rw [tryAll_cons]
    cases h : (answer minimize obj g o).success with
    | true =>
      rw [if_pos ⟨rfl, rfl⟩, find?_cons]
      simp [tried, h]
    | false =>
      rw [if_neg (by simp), find?_cons]
      simp only [h]
      rw [filter_cons, if_neg (by simp [tried, h])]
      exact ih

/-- **C47 (default).** With `optimizer=None` the optimizers are tried in the order TNC, L-BFGS-B, nelder-mead,
powell and the first that succeeds is the one reported. -/
theorem C47_default_first_success (minimize : String → P → OptResult P) (obj : P → K) (g : P)
    (pre post : List String) (o : String)
    (horder : ["TNC", "L-BFGS-B", "nelder-mead", "powell"] = pre ++ o :: post)
    (hfail : ∀ o' ∈ pre, (answer minimize obj g o').success = false)
    (hsucc : (answer minimize obj g o).success = true) :
    mleOptimization minimize obj g none = .ok ⟨true, some o, (answer minimize obj g o).x⟩ := by
  unfold mleOptimization optimizersToTry
  simp only
  rw [tryAll_stop, horder]
  have : (pre ++ o :: post).find? (fun o => (answer minimize obj g o).success) = some o := by
    rw [find?_append, find?_eq_none.2 (by simpa using hfail)]
    simp [hsucc]
  rw [this]
  rfl

/-- Nothing succeeds. -/
theorem all_fail (minimize : String → P → OptResult P) (obj : P → K) (g : P) (s : Option String)
    (os : List String) (stop : Bool) (hos : optimizersToTry s = .ok (os, stop))
    (hfail : ∀ o ∈ os, (answer minimize obj g o).success = false) :
    mleOptimization minimize obj g s = .ok ⟨false, none, g⟩ := by
  unfold mleOptimization
  simp only [hos]
  have : (tryAll minimize obj g stop os).filter (fun t => t.success) = [] := by
    cases stop with
    | false =>
      rw [tryAll_nostop, filter_eq_nil_iff]
      intro t ht
      obtain ⟨o, ho, rfl⟩ := mem_map.1 ht
      simpa [tried] using hfail o ho
    | true =>
      rw [tryAll_stop, find?_eq_none.2 (by simpa using hfail)]
      rfl
  rw [this]
  rfl

/-- **C47 (several optimizers).** When every listed optimizer is tried ("best"/"all", or one by name) and at
least one succeeds, the one reported succeeded, its parameters are its own, and no successful one has a smaller
objective `|2 LL|`. -/
theorem C47_best_of_successes (minimize : String → P → OptResult P) (obj : P → K) (g : P) {s : String}
    {os : List String} (hos : Spec.Tries (some s) os) (hsome : ∃ o ∈ os, (answer minimize obj g o).success = true) :
    ∃ o ∈ os, mleOptimization minimize obj g (some s) = .ok ⟨true, some o, (answer minimize obj g o).x⟩ ∧
      (answer minimize obj g o).success = true ∧
      ∀ o' ∈ os, (answer minimize obj g o').success = true →
        obj (answer minimize obj g o).x ≤ obj (answer minimize obj g o').x :=
  best_of_successes minimize obj g s os (tries_ok hos) hsome

/-- **C47 (nothing succeeds).** If no optimizer succeeds the initial guess is returned with `optimizer=None` and
`success=False`. -/
theorem C47_all_fail (minimize : String → P → OptResult P) (obj : P → K) (g : P) {s : Option String}
    {os : List String} (hos : Spec.Tries s os) (hfail : ∀ o ∈ os, (answer minimize obj g o).success = false) :
    mleOptimization minimize obj g s = .ok ⟨false, none, g⟩ :=
  all_fail minimize obj g s os _ (tries_ok hos) hfail

/-- **C47 (refusal).** ValueError exactly for an argument that asks for no known optimizer. -/
theorem C47_optimizers (minimize : String → P → OptResult P) (obj : P → K) (g : P) (o : Option String) :
    mleOptimization minimize obj g o = .error .valueError ↔ ¬ ∃ os, Spec.Tries o os := by
  constructor
  · rintro h ⟨os, hos⟩
    unfold mleOptimization at h
    simp only [tries_ok hos] at h
    split at h <;> cases h
  · intro h
    rcases optimizers_cases o with ⟨os, stop, h1, -⟩ | ⟨h1, -⟩
    · exact absurd ⟨os, tries_of_ok h1⟩ h
    · unfold mleOptimization
      simp only [h1]

/-- **C47 (likelihood).** When the log-likelihoods reached are not positive, `optimizer="best"` returns a
successful solution of maximal log-likelihood (`LL` is the negative log-likelihood).
`C47_positive_loglik_finding` shows that the sign condition is needed. -/
theorem C47_best_is_most_likely_partial (minimize : String → P → OptResult P) (LL : P → K) (g : P) (s : String)
    (hs : s ∈ ["best", "BEST", "all", "ALL"])
    (hneg : ∀ o, 0 ≤ LL (answer minimize (fun x => |2 * LL x|) g o).x) {out : MLEOut P}
    (hout : mleOptimization minimize (fun x => |2 * LL x|) g (some s) = .ok out) (hsuc : out.success = true) :
    ∀ o ∈ ["TNC", "L-BFGS-B", "nelder-mead", "powell"],
      (answer minimize (fun x => |2 * LL x|) g o).success = true →
      LL out.params ≤ LL (answer minimize (fun x => |2 * LL x|) g o).x := by
  have hos : optimizersToTry (some s) = .ok (["TNC", "L-BFGS-B", "nelder-mead", "powell"], false) := by
    unfold optimizersToTry; simp only; rw [if_pos hs]
  intro o ho hsu
  obtain ⟨o', ho', h1, h2, h3⟩ := best_of_successes minimize (fun x => |2 * LL x|) g s _ hos ⟨o, ho, hsu⟩
  rw [h1] at hout
  cases hout
  have := h3 o ho hsu
  rw [abs_of_nonneg (by have := hneg o'; linarith), abs_of_nonneg (by have := hneg o; linarith)] at this
  simp only
  linarith

end loop

/-- The two-point minimizer of the finding: TNC answers 1, the others answer 2. -/
def exMin : String → ℚ → OptResult ℚ := fun o _ => if o = "TNC" then ⟨true, 1⟩ else ⟨true, 2⟩

theorem exMin_answer (obj : ℚ → ℚ) (g : ℚ) (o : String) :
    answer exMin obj g o = if o = "TNC" then ⟨true, 1⟩ else ⟨true, 2⟩ := by
  obtain ⟨n, -, -, -, h, -⟩ := C47_loop_terminates (exMin o) obj g
  unfold answer
  rw [h]
  rfl

/-- **C47, finding.** Log-likelihoods can be positive.  Two optimizers succeed, one at log-likelihood 1 and one
at log-likelihood 2; `optimizer="best"` reports the one with 1, because it minimises `|2 LL|`. -/
theorem C47_positive_loglik_finding :
    let LL : ℚ → ℚ := fun x => -x
    mleOptimization exMin (fun x => |2 * LL x|) 0 (some "best") = .ok ⟨true, some "TNC", 1⟩ ∧
    (answer exMin (fun x => |2 * LL x|) 0 "powell").success = true ∧
    LL (answer exMin (fun x => |2 * LL x|) 0 "powell").x < LL 1 := by
  intro LL
  have hos : optimizersToTry (some "best") = .ok (["TNC", "L-BFGS-B", "nelder-mead", "powell"], false) := by
    unfold optimizersToTry; simp only; rw [if_pos (by decide)]
  obtain ⟨o, ho, h1, h2, h3⟩ := best_of_successes exMin (fun x => |2 * LL x|) 0 "best" _ hos
    ⟨"TNC", by decide, by rw [exMin_answer]; rfl⟩
  refine ⟨?_, by rw [exMin_answer]; rfl, by rw [exMin_answer, if_neg (by decide)]; simp [LL]⟩
  have := h3 "TNC" (by decide) (by rw [exMin_answer]; rfl)
  rw [exMin_answer, exMin_answer, if_pos rfl] at this
  by_cases ho' : o = "TNC"
  · subst ho'
    rw [h1, exMin_answer, if_pos rfl]
  · rw [if_neg ho'] at this
    norm_num [LL] at this

/-- **C47 (forced shape).** With a forced shape the shape reported is the forced one, whatever happens. -/
theorem C47_forced_shape {K : Type _} [Field K] [LinearOrder K] (minimize : String → K → OptResult K) (obj : K → K)
    (guess : K × K) (force : K) (o : Option String) {out : MLEOut (K × K)}
    (h : mleForced minimize obj guess force o = .ok out) : out.params.2 = force := by
  unfold mleForced at h
  cases hm : mleOptimization minimize obj guess.1 o with
  | error e => rw [hm] at h; simp at h
  | ok a => rw [hm] at h; cases h; rfl

/-- Hypotheses met: an optimizer that fails under TNC and succeeds under powell only. -/
example : mleOptimization (K := ℚ) (fun o (_ : ℚ) => ⟨o == "powell", 3⟩) (fun x => |2 * x|) 0 none =
    .ok ⟨true, some "powell", 3⟩ := by
  have ha : ∀ o, answer (K := ℚ) (fun o (_ : ℚ) => (⟨o == "powell", 3⟩ : OptResult ℚ)) (fun x => |2 * x|) 0 o =
      ⟨o == "powell", 3⟩ := by
    intro o
    obtain ⟨n, -, -, -, h, -⟩ := C47_loop_terminates (K := ℚ) (fun (_ : ℚ) => (⟨o == "powell", 3⟩ : OptResult ℚ))
      (fun x => |2 * x|) 0
    unfold answer
    rw [h]
    rfl
  rw [C47_default_first_success _ _ _ ["TNC", "L-BFGS-B", "nelder-mead"] [] "powell" rfl]
  · rw [ha]
  · intro o ho
    rw [ha]
    revert o; decide
  · rw [ha]; decide

/-! ## C72: bounds on the location parameter -/

section bounds

variable {K : Type _} [Field K] [LinearOrder K] [IsStrictOrderedRing K]

/-- `x` respects a list of bounds. -/
def Within (x : List K) (b : List (Bound K)) : Prop :=
  x.length = b.length ∧ ∀ p ∈ x.zip b, (∀ l, p.2.1 = some l → l ≤ p.1) ∧ (∀ u, p.2.2 = some u → p.1 ≤ u)

/-- **C72.** For the three-parameter families and Exponential_2P, any parameter vector within the bounds handed
to the optimizer has a location parameter `γ` with `0 ≤ γ`, and strictly below every failure and every censoring
time when all of these are positive. -/
theorem C72_location_bound {name : String} {failures rc : List K} {b : List (Bound K)} {x : List K}
    (hn : name ∈ ["Weibull_3P", "Gamma_3P", "Loglogistic_3P", "Lognormal_3P", "Exponential_2P"])
    (hb : mleBounds name failures rc = .ok b) (hx : Within x b) :
    ∃ g, x.getLast? = some g ∧ 0 ≤ g ∧ ((∀ t ∈ failures ++ rc, 0 < t) → ∀ t ∈ failures ++ rc, g < t) := by
  unfold mleBounds at hb
  cases hg : gamma0 failures rc with
  | error e => rw [hg] at hb; simp at hb
  | ok g0 =>
    simp only [hg] at hb
    have hlast : b.getLast? = some (some 0, some g0) := by
      simp only [mem_cons, not_mem_nil, or_false] at hn
      rcases hn with rfl | rfl | rfl | rfl | rfl <;> simp at hb <;> subst hb <;> rfl
    have hg0 : ∀ y, y ≤ g0 → (∀ t ∈ failures ++ rc, 0 < t) → ∀ t ∈ failures ++ rc, y < t := by
      intro y hy hpos t ht
      unfold gamma0 at hg
      cases hm : (failures ++ rc).min? with
      | none => rw [hm] at hg; simp [valueErr] at hg
      | some m =>
        simp only [hm, Except.ok.injEq] at hg
        have hmin := (Np.min?_iff (failures ++ rc) m).1 hm
        have hmt := hmin.2 t ht
        have hm0 := hpos m hmin.1
        subst hg
        have : max 0 (m - 1 / 10000) < m := max_lt hm0 (by linarith [show (0:K) < 1 / 10000 by positivity])
        linarith
    obtain ⟨hlen, hall⟩ := hx
    rcases eq_nil_or_concat' x with rfl | ⟨xs, y, rfl⟩
    · have : b = [] := by simpa using hlen.symm
      subst this; simp at hlast
    · rcases eq_nil_or_concat' b with rfl | ⟨bs, c, rfl⟩
      · simp at hlast
      · rw [getLast?_concat] at hlast
        cases hlast
        have hl : xs.length = bs.length := by simpa using hlen
        have hmem : (y, ((some 0, some g0) : Bound K)) ∈ (xs ++ [y]).zip (bs ++ [(some 0, some g0)]) := by
          rw [zip_append hl]; simp
        obtain ⟨h1, h2⟩ := hall _ hmem
        exact ⟨y, by simp, h1 0 rfl, hg0 y (h2 g0 rfl)⟩

/-- **C72 (support of the rest).** The bounds keep scale and shape parameters non-negative for every family, the
DS fraction in (0, 1], the ZI fraction in [0, 1) and the mixing proportion inside (0, 1); an unknown family name
is a ValueError. -/
theorem C72_other_bounds (failures rc : List K) (h : failures ++ rc ≠ []) (x : List K) :
    (∀ n ∈ ["Weibull_2P", "Gamma_2P", "Beta_2P", "Loglogistic_2P"], ∃ b, mleBounds n failures rc = .ok b ∧
      (Within x b → ∃ a c, x = [a, c] ∧ 0 ≤ a ∧ 0 ≤ c)) ∧
    (∀ n ∈ ["Normal_2P", "Gumbel_2P", "Lognormal_2P"], ∃ b, mleBounds n failures rc = .ok b ∧
      (Within x b → ∃ mu sigma, x = [mu, sigma] ∧ 0 ≤ sigma)) ∧
    (∃ b, mleBounds "Weibull_mixture" failures rc = .ok b ∧
      (Within x b → ∃ a1 b1 a2 b2 p, x = [a1, b1, a2, b2, p] ∧ 0 < a1 ∧ 0 < b1 ∧ 0 < a2 ∧ 0 < b2 ∧ 0 < p ∧ p < 1)) ∧
    (∃ b, mleBounds "Weibull_DSZI" failures rc = .ok b ∧
      (Within x b → ∃ a c DS ZI, x = [a, c, DS, ZI] ∧ 0 < a ∧ 0 < c ∧ 0 < DS ∧ DS ≤ 1 ∧ 0 ≤ ZI ∧ ZI < 1)) ∧
    mleBounds "Rayleigh" failures rc = .error .valueError := by
  have hg : ∃ g, gamma0 failures rc = .ok g := by
    unfold gamma0
    cases hm : (failures ++ rc).min? with
    | none => rw [min?_eq_none_iff] at hm; exact absurd hm h
    | some m => exact ⟨_, rfl⟩
  obtain ⟨g, hg⟩ := hg
  have w2 : ∀ p q : Bound K, Within x [p, q] → ∃ a c, x = [a, c] ∧
      ((∀ l, p.1 = some l → l ≤ a) ∧ (∀ u, p.2 = some u → a ≤ u)) ∧
      ((∀ l, q.1 = some l → l ≤ c) ∧ (∀ u, q.2 = some u → c ≤ u)) := by
    rintro p q ⟨hl, hall⟩
    match x, hl, hall with
    | [a, c], _, hall => exact ⟨a, c, rfl, hall (a, p) (by simp), hall (c, q) (by simp)⟩
  refine ⟨fun n hn => ⟨_, by unfold mleBounds; simp only [hg]; rw [if_pos hn], fun hw => ?_⟩,
    fun n hn => ⟨[(none, none), (some 0, none)], ?_, fun hw => ?_⟩, ⟨_, by
      unfold mleBounds; simp only [hg]; simp only [mem_cons, not_mem_nil]; rfl, fun hw => ?_⟩, ⟨_, by
      unfold mleBounds; simp only [hg]; simp only [mem_cons, not_mem_nil]; rfl, fun hw => ?_⟩, ?_⟩
  · obtain ⟨a, c, hx, h1, h2⟩ := w2 _ _ hw
    exact ⟨a, c, hx, h1.1 0 rfl, h2.1 0 rfl⟩
  · unfold mleBounds; simp only [hg]
    simp only [mem_cons, not_mem_nil, or_false] at hn
    rcases hn with rfl | rfl | rfl <;> rfl
  · obtain ⟨a, c, hx, h1, h2⟩ := w2 _ _ hw
    exact ⟨a, c, hx, h2.1 0 rfl⟩
  · obtain ⟨hl, hall⟩ := hw
    match x, hl, hall with
    | [a1, b1, a2, b2, p], _, hall =>
      have e : (0 : K) < 1 / 10000 := by positivity
      have e' : (9999 / 10000 : K) < 1 := by norm_num
      exact ⟨a1, b1, a2, b2, p, rfl,
        e.trans_le ((hall (a1, (some (1 / 10000), none)) (by simp)).1 _ rfl),
        e.trans_le ((hall (b1, (some (1 / 10000), none)) (by simp)).1 _ rfl),
        e.trans_le ((hall (a2, (some (1 / 10000), none)) (by simp)).1 _ rfl),
        e.trans_le ((hall (b2, (some (1 / 10000), none)) (by simp)).1 _ rfl),
        e.trans_le ((hall (p, (some (1 / 10000), some (9999 / 10000))) (by simp)).1 _ rfl),
        ((hall (p, (some (1 / 10000), some (9999 / 10000))) (by simp)).2 _ rfl).trans_lt e'⟩
  · obtain ⟨hl, hall⟩ := hw
    match x, hl, hall with
    | [a, c, DS, ZI], _, hall =>
      have e : (0 : K) < 1 / 10000 := by positivity
      have e2 : (0 : K) < 1 / 100000 := by positivity
      have e' : (99999 / 100000 : K) < 1 := by norm_num
      exact ⟨a, c, DS, ZI, rfl,
        e.trans_le ((hall (a, (some (1 / 10000), none)) (by simp)).1 _ rfl),
        e.trans_le ((hall (c, (some (1 / 10000), none)) (by simp)).1 _ rfl),
        e2.trans_le ((hall (DS, (some (1 / 100000), some 1)) (by simp)).1 _ rfl),
        (hall (DS, (some (1 / 100000), some 1)) (by simp)).2 _ rfl,
        (hall (ZI, (some 0, some (99999 / 100000))) (by simp)).1 _ rfl,
        ((hall (ZI, (some 0, some (99999 / 100000))) (by simp)).2 _ rfl).trans_lt e'⟩
  · unfold mleBounds; simp only [hg]; simp [valueErr]

/-- **C72 (the remaining families).** Scale and shape of the three-parameter families are kept non-negative, those of the
competing risks and defective subpopulation / zero inflated models positive, the rate of the Exponential non-negative; every
other family name is a ValueError. -/
theorem C72_more_bounds (failures rc : List K) (h : failures ++ rc ≠ []) (x : List K) :
    (∀ n ∈ ["Weibull_3P", "Gamma_3P", "Loglogistic_3P"], ∃ b, mleBounds n failures rc = .ok b ∧
      (Within x b → ∃ a c g, x = [a, c, g] ∧ 0 ≤ a ∧ 0 ≤ c)) ∧
    (∃ b, mleBounds "Lognormal_3P" failures rc = .ok b ∧ (Within x b → ∃ mu sigma g, x = [mu, sigma, g] ∧ 0 ≤ sigma)) ∧
    (∃ b, mleBounds "Exponential_1P" failures rc = .ok b ∧ (Within x b → ∃ l, x = [l] ∧ 0 ≤ l)) ∧
    (∃ b, mleBounds "Exponential_2P" failures rc = .ok b ∧ (Within x b → ∃ l g, x = [l, g] ∧ 0 ≤ l)) ∧
    (∃ b, mleBounds "Weibull_CR" failures rc = .ok b ∧
      (Within x b → ∃ a1 b1 a2 b2, x = [a1, b1, a2, b2] ∧ 0 < a1 ∧ 0 < b1 ∧ 0 < a2 ∧ 0 < b2)) ∧
    (∃ b, mleBounds "Weibull_DS" failures rc = .ok b ∧
      (Within x b → ∃ a c DS, x = [a, c, DS] ∧ 0 < a ∧ 0 < c ∧ 0 < DS ∧ DS ≤ 1)) ∧
    (∃ b, mleBounds "Weibull_ZI" failures rc = .ok b ∧
      (Within x b → ∃ a c ZI, x = [a, c, ZI] ∧ 0 < a ∧ 0 < c ∧ 0 ≤ ZI ∧ ZI < 1)) ∧
    (∀ n ∉ ["Weibull_2P", "Gamma_2P", "Beta_2P", "Loglogistic_2P", "Weibull_3P", "Gamma_3P", "Loglogistic_3P", "Normal_2P",
        "Gumbel_2P", "Lognormal_2P", "Lognormal_3P", "Exponential_1P", "Exponential_2P", "Weibull_mixture", "Weibull_CR",
        "Weibull_DSZI", "Weibull_DS", "Weibull_ZI"], mleBounds n failures rc = .error .valueError) := by
  have hg : ∃ g, gamma0 failures rc = .ok g := by
    unfold gamma0
    cases hm : (failures ++ rc).min? with
    | none => rw [min?_eq_none_iff] at hm; exact absurd hm h
    | some m => exact ⟨_, rfl⟩
  obtain ⟨g, hg⟩ := hg
  have e : (0 : K) < 1 / 10000 := by positivity
  have e2 : (0 : K) < 1 / 100000 := by positivity
  have e' : (99999 / 100000 : K) < 1 := by norm_num
  have w1 : ∀ p : Bound K, Within x [p] → ∃ a, x = [a] ∧ ((∀ l, p.1 = some l → l ≤ a) ∧ (∀ u, p.2 = some u → a ≤ u)) := by
    rintro p ⟨hl, hall⟩
    match x, hl, hall with
    | [a], _, hall => exact ⟨a, rfl, hall (a, p) (by simp)⟩
  have w2 : ∀ p q : Bound K, Within x [p, q] → ∃ a c, x = [a, c] ∧
      ((∀ l, p.1 = some l → l ≤ a) ∧ (∀ u, p.2 = some u → a ≤ u)) ∧
      ((∀ l, q.1 = some l → l ≤ c) ∧ (∀ u, q.2 = some u → c ≤ u)) := by
    rintro p q ⟨hl, hall⟩
    match x, hl, hall with
    | [a, c], _, hall => exact ⟨a, c, rfl, hall (a, p) (by simp), hall (c, q) (by simp)⟩
  have w3 : ∀ p q r : Bound K, Within x [p, q, r] → ∃ a c d, x = [a, c, d] ∧
      ((∀ l, p.1 = some l → l ≤ a) ∧ (∀ u, p.2 = some u → a ≤ u)) ∧
      ((∀ l, q.1 = some l → l ≤ c) ∧ (∀ u, q.2 = some u → c ≤ u)) ∧
      ((∀ l, r.1 = some l → l ≤ d) ∧ (∀ u, r.2 = some u → d ≤ u)) := by
    rintro p q r ⟨hl, hall⟩
    match x, hl, hall with
    | [a, c, d], _, hall => exact ⟨a, c, d, rfl, hall (a, p) (by simp), hall (c, q) (by simp), hall (d, r) (by simp)⟩
  have w4 : ∀ p q r s : Bound K, Within x [p, q, r, s] → ∃ a c d f, x = [a, c, d, f] ∧
      (∀ l, p.1 = some l → l ≤ a) ∧ (∀ l, q.1 = some l → l ≤ c) ∧ (∀ l, r.1 = some l → l ≤ d) ∧
      (∀ l, s.1 = some l → l ≤ f) := by
    rintro p q r s ⟨hl, hall⟩
    match x, hl, hall with
    | [a, c, d, f], _, hall =>
      exact ⟨a, c, d, f, rfl, (hall (a, p) (by simp)).1, (hall (c, q) (by simp)).1, (hall (d, r) (by simp)).1,
        (hall (f, s) (by simp)).1⟩
  refine ⟨?_, ⟨[(none, none), (some 0, none), (some 0, some g)], by unfold mleBounds; simp only [hg]; rfl, ?_⟩,
    ⟨[(some 0, none)], by unfold mleBounds; simp only [hg]; rfl, ?_⟩,
    ⟨[(some 0, none), (some 0, some g)], by unfold mleBounds; simp only [hg]; rfl, ?_⟩,
    ⟨_, by unfold mleBounds; simp only [hg]; rfl, ?_⟩, ⟨_, by unfold mleBounds; simp only [hg]; rfl, ?_⟩,
    ⟨_, by unfold mleBounds; simp only [hg]; rfl, ?_⟩, ?_⟩
  · intro n hn
    refine ⟨[(some 0, none), (some 0, none), (some 0, some g)], ?_, ?_⟩
    · simp only [mem_cons, not_mem_nil, or_false] at hn
      rcases hn with rfl | rfl | rfl <;> unfold mleBounds <;> simp only [hg] <;> rfl
    · intro hw
      obtain ⟨a, c, d, hx, h1, h2, -⟩ := w3 _ _ _ hw
      exact ⟨a, c, d, hx, h1.1 0 rfl, h2.1 0 rfl⟩
  · intro hw
    obtain ⟨a, c, d, hx, -, h2, -⟩ := w3 _ _ _ hw
    exact ⟨a, c, d, hx, h2.1 0 rfl⟩
  · intro hw
    obtain ⟨a, hx, h1⟩ := w1 _ hw
    exact ⟨a, hx, h1.1 0 rfl⟩
  · intro hw
    obtain ⟨a, c, hx, h1, -⟩ := w2 _ _ hw
    exact ⟨a, c, hx, h1.1 0 rfl⟩
  · intro hw
    obtain ⟨a, c, d, f, hx, h1, h2, h3, h4⟩ := w4 _ _ _ _ hw
    exact ⟨a, c, d, f, hx, e.trans_le (h1 _ rfl), e.trans_le (h2 _ rfl), e.trans_le (h3 _ rfl), e.trans_le (h4 _ rfl)⟩
  · intro hw
    obtain ⟨a, c, d, hx, h1, h2, h3⟩ := w3 _ _ _ hw
    exact ⟨a, c, d, hx, e.trans_le (h1.1 _ rfl), e.trans_le (h2.1 _ rfl), e2.trans_le (h3.1 _ rfl), h3.2 _ rfl⟩
  · intro hw
    obtain ⟨a, c, d, hx, h1, h2, h3⟩ := w3 _ _ _ hw
    exact ⟨a, c, d, hx, e.trans_le (h1.1 _ rfl), e.trans_le (h2.1 _ rfl), h3.1 _ rfl, (h3.2 _ rfl).trans_lt e'⟩
  · intro n hn
    simp only [mem_cons, not_mem_nil, or_false, not_or] at hn
    unfold mleBounds
    simp only [hg]
    simp [hn, valueErr]

example : ∃ b, mleBounds "Weibull_3P" [5, 7] [(6 : ℚ)] = .ok b ∧ Within [1, 2, 3] b := by
  have hg : gamma0 [5, 7] [(6 : ℚ)] = .ok (49999 / 10000) := by
    have : ([5, 7] ++ [(6 : ℚ)]).min? = some 5 := by decide +kernel
    unfold gamma0
    simp only [this]
    norm_num
  refine ⟨[(some 0, none), (some 0, none), (some 0, some (49999 / 10000))], ?_, rfl, ?_⟩
  · unfold mleBounds
    simp only [hg]
    rfl
  · intro p hp
    simp only [zip_cons_cons, zip_nil_right, mem_cons, not_mem_nil, or_false] at hp
    rcases hp with rfl | rfl | rfl <;> simp <;> norm_num

end bounds

/-! ## C48: least squares -/

/-- **C48 (dispatch).** An unknown method is a ValueError; the families without a linear form always use
non-linear least squares; RRX and RRY give that regression's estimate. -/
theorem C48_dispatch {P : Type _} (name : String) (LL : P → ℝ) (ls : String → P) (nlls : P) (m : String) :
    (m ∉ ["RRX", "RRY", "LS", "NLLS"] → lsOptimization name LL ls nlls m = .error .valueError) ∧
    (m ∈ ["RRX", "RRY", "LS", "NLLS"] → name ∈ ["Weibull_3P", "Gamma_2P", "Gamma_3P", "Beta_2P", "Lognormal_3P",
      "Loglogistic_3P", "Exponential_2P"] → lsOptimization name LL ls nlls m = .ok (nlls, "NLLS")) ∧
    (m ∈ ["RRX", "RRY"] → name ∉ ["Weibull_3P", "Gamma_2P", "Gamma_3P", "Beta_2P", "Lognormal_3P",
      "Loglogistic_3P", "Exponential_2P"] → lsOptimization name LL ls nlls m = .ok (ls m, m)) := by
  unfold lsOptimization
  refine ⟨fun h => by rw [if_pos h], fun h hn => by rw [if_neg (not_not.2 h), if_pos hn], fun h hn => ?_⟩
  rw [if_neg (not_not.2 (by revert h; simp only [mem_cons, not_mem_nil, or_false]; tauto)), if_neg hn, if_pos h]

/-- **C48.** `method="LS"` returns the estimate of whichever of RRX and RRY has the larger log-likelihood, under
that method's name, when neither log-likelihood is positive.  (`LL` is the negative log-likelihood.) -/
theorem C48_LS_picks_better_partial {P : Type _} (name : String) (LL : P → ℝ) (ls : String → P) (nlls : P)
    (hn : name ∉ ["Weibull_3P", "Gamma_2P", "Gamma_3P", "Beta_2P", "Lognormal_3P", "Loglogistic_3P", "Exponential_2P"])
    (hX : 0 ≤ LL (ls "RRX")) (hY : 0 ≤ LL (ls "RRY")) :
    ∃ m ∈ ["RRX", "RRY"], lsOptimization name LL ls nlls "LS" = .ok (ls m, m) ∧
      ∀ m' ∈ ["RRX", "RRY"], -LL (ls m') ≤ -LL (ls m) := by
  unfold lsOptimization
  rw [if_neg (by decide), if_neg hn, if_neg (by decide)]
  simp only [abs_neg, abs_of_nonneg hX, abs_of_nonneg hY]
  by_cases h : LL (ls "RRX") < LL (ls "RRY")
  · rw [if_pos h]
    refine ⟨"RRX", by decide, rfl, ?_⟩
    simp only [mem_cons, not_mem_nil, or_false, forall_eq_or_imp, forall_eq]
    constructor <;> linarith
  · rw [if_neg h]
    refine ⟨"RRY", by decide, rfl, ?_⟩
    simp only [mem_cons, not_mem_nil, or_false, forall_eq_or_imp, forall_eq]
    constructor <;> linarith

/-- **C48, finding.** With positive log-likelihoods the worse of the two is returned, for any data. -/
theorem C48_positive_loglik_finding {P : Type _} (LL : P → ℝ) (ls : String → P) (nlls : P)
    (hX : LL (ls "RRX") < LL (ls "RRY")) (hY : LL (ls "RRY") < 0) :
    lsOptimization "Weibull_2P" LL ls nlls "LS" = .ok (ls "RRY", "RRY") ∧ -LL (ls "RRY") < -LL (ls "RRX") := by
  unfold lsOptimization
  rw [if_neg (by decide), if_neg (by decide), if_neg (by decide)]
  simp only [abs_neg, abs_of_neg hY, abs_of_neg (hX.trans hY)]
  rw [if_neg (by linarith)]
  exact ⟨rfl, by linarith⟩

example : ∃ LL : ℝ → ℝ, LL 3 < LL 2 ∧ LL 2 < 0 := ⟨fun x => -x, by norm_num, by norm_num⟩

/-! ## C43: AICc and BIC -/

open Reliability.Likelihood

/-- **C43 (values).** With `LL` the negative log-likelihood (the code passes `2 * LL`). -/
theorem C43_values (n k : ℕ) (loglik : ℝ) :
    (k + 1 < n → AICc n k (2 * -loglik) =
      some (2 * k - 2 * loglik + (2 * (k : ℝ) ^ 2 + 2 * k) / ((n : ℝ) - k - 1))) ∧
    (n ≤ k + 1 → AICc n k (2 * -loglik) = none) ∧
    BIC n k (2 * -loglik) = k * Real.log n - 2 * loglik := by
  refine ⟨fun h => ?_, fun h => ?_, ?_⟩
  · unfold AICc
    rw [if_pos (by omega)]
    congr 1; ring
  · unfold AICc
    rw [if_neg (by omega)]
  · unfold BIC; ring

/-- **C43 (forced parameter).** Forcing a parameter removes exactly one from `k`, and at equal log-likelihood the
fit with the forced parameter ranks strictly better on both criteria. -/
theorem C43_forced (n k : ℕ) (LL2 : ℝ) (hk : 1 ≤ k) (hn : 1 < n) :
    kForced k true + 1 = k ∧ kForced k false = k ∧
    BIC n (kForced k true) LL2 < BIC n (kForced k false) LL2 ∧
    (∀ x y, AICc n (kForced k true) LL2 = some x → AICc n (kForced k false) LL2 = some y → x < y) := by
  have hk' : kForced k true = k - 1 := rfl
  have hlog : 0 < Real.log n := Real.log_pos (by exact_mod_cast hn)
  obtain ⟨j, rfl⟩ : ∃ j, k = j + 1 := ⟨k - 1, by omega⟩
  refine ⟨by simp [kForced], rfl, ?_, ?_⟩
  · simp only [kForced, if_true, BIC, Nat.add_sub_cancel, Bool.false_eq_true, if_false]
    push_cast
    nlinarith
  · intro x y hx hy
    simp only [kForced, if_true, AICc, Nat.add_sub_cancel, Bool.false_eq_true, if_false] at hx hy
    by_cases h2 : (n : ℤ) - ((j + 1 : ℕ) : ℤ) - 1 > 0
    · rw [if_pos h2] at hy
      rw [if_pos (by push_cast at h2; omega)] at hx
      simp only [Option.some.injEq] at hx hy
      have hd : (0 : ℝ) < (n : ℝ) - ((j + 1 : ℕ) : ℝ) - 1 := by exact_mod_cast h2
      push_cast at hd hx hy
      have hd' : (0 : ℝ) < (n : ℝ) - j - 1 := by linarith
      have h1 : (2 * (j : ℝ) ^ 2 + 2 * j) / ((n : ℝ) - j - 1) ≤
          (2 * ((j : ℝ) + 1) ^ 2 + 2 * (j + 1)) / ((n : ℝ) - (j + 1) - 1) := by
        apply div_le_div₀ <;> first | positivity | nlinarith [show (0 : ℝ) ≤ j by positivity]
      linarith
    · rw [if_neg h2] at hy
      simp at hy

/-- **C43 (fewer parameters).** At equal log-likelihood fewer parameters rank strictly better. -/
theorem C43_fewer_parameters (n k k' : ℕ) (LL2 : ℝ) (hk : k < k') (hn : 1 < n) :
    BIC n k LL2 < BIC n k' LL2 ∧
    (∀ x y, AICc n k LL2 = some x → AICc n k' LL2 = some y → x < y) ∧
    (∀ y, AICc n k' LL2 = some y → ∃ x, AICc n k LL2 = some x) := by
  have hlog : 0 < Real.log n := Real.log_pos (by exact_mod_cast hn)
  have hkR : (k : ℝ) < k' := by exact_mod_cast hk
  have hk0 : (0 : ℝ) ≤ k := by positivity
  refine ⟨?_, ?_, ?_⟩
  · unfold BIC; nlinarith
  · intro x y hx hy
    unfold AICc at hx hy
    by_cases h2 : (n : ℤ) - k' - 1 > 0
    · rw [if_pos h2] at hy
      rw [if_pos (by omega)] at hx
      simp only [Option.some.injEq] at hx hy
      have hd : (0 : ℝ) < (n : ℝ) - k' - 1 := by exact_mod_cast h2
      have h1 : (2 * (k : ℝ) ^ 2 + 2 * k) / ((n : ℝ) - k - 1) ≤
          (2 * (k' : ℝ) ^ 2 + 2 * k') / ((n : ℝ) - k' - 1) := by
        apply div_le_div₀ <;> first | positivity | nlinarith
      linarith
    · rw [if_neg h2] at hy; simp at hy
  · intro y hy
    unfold AICc at hy ⊢
    by_cases h2 : (n : ℤ) - k' - 1 > 0
    · rw [if_pos (by omega)]; exact ⟨_, rfl⟩
    · rw [if_neg h2] at hy; simp at hy

example : AICc 10 2 (2 * -(-5)) = some (2 * 2 - 2 * (-5) + (2 * 2 ^ 2 + 2 * 2) / (10 - 2 - 1)) := by
  have := (C43_values 10 2 (-5)).1 (by norm_num)
  rw [this]; norm_num

/-! ## C71: confidence bounds on fitted parameters -/

/-- **C71 (positive parameters).** For a positive estimate, a non-negative standard error and a non-negative
normal quantile `Z` the bounds are positive, enclose the estimate, have it as geometric mean, and widen with
`Z`; with `Z, SE > 0` they enclose it strictly. -/
theorem C71_positive_parameter (x SE Z : ℝ) (hx : 0 < x) (hSE : 0 ≤ SE) (hZ : 0 ≤ Z) :
    0 < (ciPositive x SE Z).1 ∧ (ciPositive x SE Z).1 ≤ x ∧ x ≤ (ciPositive x SE Z).2 ∧
    (ciPositive x SE Z).1 * (ciPositive x SE Z).2 = x ^ 2 ∧
    (0 < SE → 0 < Z → (ciPositive x SE Z).1 < x ∧ x < (ciPositive x SE Z).2) ∧
    (∀ Z', Z ≤ Z' → (ciPositive x SE Z').1 ≤ (ciPositive x SE Z).1 ∧
      (ciPositive x SE Z).2 ≤ (ciPositive x SE Z').2) := by
  unfold ciPositive
  have hr : 0 ≤ SE / x := by positivity
  refine ⟨by positivity, ?_, ?_, ?_, fun hS hZ' => ⟨?_, ?_⟩, fun Z' h => ⟨?_, ?_⟩⟩
  · have : Real.exp (-Z * (SE / x)) ≤ 1 := Real.exp_le_one_iff.2 (by nlinarith)
    nlinarith
  · have : 1 ≤ Real.exp (Z * (SE / x)) := Real.one_le_exp (by positivity)
    nlinarith
  · simp only
    rw [show x * Real.exp (-Z * (SE / x)) * (x * Real.exp (Z * (SE / x))) =
      x ^ 2 * (Real.exp (-Z * (SE / x)) * Real.exp (Z * (SE / x))) by ring, ← Real.exp_add]
    simp
  · have : Real.exp (-Z * (SE / x)) < 1 := Real.exp_lt_one_iff.2 (by
      have : 0 < Z * (SE / x) := by positivity
      linarith)
    nlinarith
  · have : 1 < Real.exp (Z * (SE / x)) := Real.one_lt_exp_iff.2 (by positivity)
    nlinarith
  · have : Real.exp (-Z' * (SE / x)) ≤ Real.exp (-Z * (SE / x)) := Real.exp_le_exp.2 (by nlinarith)
    nlinarith
  · have : Real.exp (Z * (SE / x)) ≤ Real.exp (Z' * (SE / x)) := Real.exp_le_exp.2 (by nlinarith)
    nlinarith

/-- **C71 (location parameters).** `x ± Z SE` is symmetric about the estimate and widens with `Z`. -/
theorem C71_location_parameter (x SE Z : ℝ) (hSE : 0 ≤ SE) (hZ : 0 ≤ Z) :
    (ciReal x SE Z).1 ≤ x ∧ x ≤ (ciReal x SE Z).2 ∧ x - (ciReal x SE Z).1 = (ciReal x SE Z).2 - x ∧
    (∀ Z', Z ≤ Z' → (ciReal x SE Z').1 ≤ (ciReal x SE Z).1 ∧ (ciReal x SE Z).2 ≤ (ciReal x SE Z').2) := by
  unfold ciReal
  refine ⟨by simp only; nlinarith, by simp only; nlinarith, by ring, fun Z' h => ⟨by simp only; nlinarith,
    by simp only; nlinarith⟩⟩

/-- **C71 (proportions).** For an estimate strictly between 0 and 1 (DS, ZI, mixture proportion) the bounds are
strictly between 0 and 1 and enclose the estimate. -/
theorem C71_proportion (x SE Z : ℝ) (h0 : 0 < x) (h1 : x < 1) (hSE : 0 ≤ SE) (hZ : 0 ≤ Z) :
    0 < (ciProportion x SE Z).1 ∧ (ciProportion x SE Z).1 ≤ x ∧ x ≤ (ciProportion x SE Z).2 ∧
    (ciProportion x SE Z).2 < 1 ∧
    (∀ Z', Z ≤ Z' → (ciProportion x SE Z').1 ≤ (ciProportion x SE Z).1 ∧
      (ciProportion x SE Z).2 ≤ (ciProportion x SE Z').2) := by
  unfold ciProportion
  have hq : 0 < 1 - x := by linarith
  have hv : 0 < x * (1 - x) := by positivity
  have hpos : ∀ t : ℝ, 0 < x + (1 - x) * Real.exp t := fun t => by positivity
  refine ⟨div_pos h0 (hpos _), ?_, ?_, ?_, fun Z' h => ⟨?_, ?_⟩⟩
  · rw [div_le_iff₀ (hpos _)]
    have : 1 ≤ Real.exp (Z * SE / (x * (1 - x))) := Real.one_le_exp (by positivity)
    nlinarith [mul_pos h0 hq]
  · simp only
    rw [le_div_iff₀ (hpos _)]
    have : Real.exp (-Z * SE / (x * (1 - x))) ≤ 1 := Real.exp_le_one_iff.2
      (div_nonpos_of_nonpos_of_nonneg (by nlinarith) hv.le)
    nlinarith [mul_pos h0 hq]
  · rw [div_lt_one (hpos _)]
    have := Real.exp_pos (-Z * SE / (x * (1 - x)))
    nlinarith
  · apply div_le_div_of_nonneg_left h0.le (hpos _)
    have : Real.exp (Z * SE / (x * (1 - x))) ≤ Real.exp (Z' * SE / (x * (1 - x))) :=
      Real.exp_le_exp.2 (div_le_div_of_nonneg_right (by nlinarith) hv.le)
    nlinarith
  · apply div_le_div_of_nonneg_left h0.le (hpos _)
    have : Real.exp (-Z' * SE / (x * (1 - x))) ≤ Real.exp (-Z * SE / (x * (1 - x))) :=
      Real.exp_le_exp.2 (div_le_div_of_nonneg_right (by nlinarith) hv.le)
    nlinarith

example : (0 : ℝ) < 1 / 2 ∧ (1 / 2 : ℝ) < 1 ∧ (ciReal 3 2 1).1 = 1 := by norm_num [ciReal]

end Reliability.Props
