import Verif.Spec.Titles
import Verif.Props.RoundString
import Mathlib.Tactic.FinCases

/-!
# C175: names and titles of the distributions
-/

namespace Reliability.Titles

open Reliability List
open Reliability.Spec (letters family readTitle)
open Reliability.Spec.RoundString (value)

theorem digit_ne {c : Char} (h : c.isDigit = true) : c ≠ ',' ∧ c ≠ '=' ∧ c ≠ ')' :=
  ⟨fun e => by subst e; revert h; decide, fun e => by subst e; revert h; decide, fun e => by subst e; revert h; decide⟩

/-- No numeral has a comma, an equals sign or a bracket. -/
theorem num_chars (q : ℚ) : ∀ c ∈ (num q).toList, c ≠ ',' ∧ c ≠ '=' ∧ c ≠ ')' := by
  unfold num
  by_cases hw : ∃ z : ℤ, q = z
  · obtain ⟨z, rfl⟩ := hw
    obtain ⟨-, ds, -, hd, he⟩ := Props.RoundString.C125_whole z 4
    rw [he]
    intro c hc
    split at hc
    · rcases mem_cons.1 hc with rfl | hc
      · decide
      · exact digit_ne (hd c hc)
    · exact digit_ne (hd c hc)
  · push Not at hw
    obtain ⟨h1, h2⟩ := Props.RoundString.C125_form q 4 hw
    have hs : ∀ c ∈ (if q < 0 then ['-'] else []), c ≠ ',' ∧ c ≠ '=' ∧ c ≠ ')' := by
      intro c hc
      split at hc
      · rw [mem_singleton.1 hc]; decide
      · simp at hc
    by_cases hb : 1 / 10 ^ 4 < |q| ∧ |q| < 10 ^ 9
    · obtain ⟨ip, fp, -, hd, -, -, he⟩ := h1 hb.1 hb.2
      rw [he]
      intro c hc
      rcases mem_append.1 hc with hc | hc
      · rcases mem_append.1 hc with hc | hc
        · exact hs c hc
        · exact digit_ne (hd c (mem_append.2 (Or.inl hc)))
      · rcases mem_cons.1 hc with rfl | hc
        · decide
        · exact digit_ne (hd c (mem_append.2 (Or.inr hc)))
    · obtain ⟨a, fp, ds, es, hd, -, -, hes, -, he⟩ := h2 (by
        by_contra hc
        push Not at hc
        exact hb hc)
      rw [he]
      intro c hc
      rcases mem_append.1 hc with hc | hc
      · exact hs c hc
      rcases mem_cons.1 hc with rfl | hc
      · exact digit_ne (hd c (by simp))
      rcases mem_append.1 hc with hc | hc
      · split at hc
        · simp at hc
        · rcases mem_cons.1 hc with rfl | hc
          · decide
          · exact digit_ne (hd c (by simp [hc]))
      · rcases mem_cons.1 hc with rfl | hc
        · decide
        rcases mem_cons.1 hc with rfl | hc
        · rcases hes with rfl | rfl <;> decide
        · exact digit_ne (hd c (by simp [hc]))

/-- The numeral is off by at most half a unit of the fourth place, or relatively so. -/
theorem num_value (q : ℚ) : |value (num q) - q| ≤ 1 / 2 / 10 ^ 4 * max 1 |q| := by
  unfold num
  by_cases hb : 1 / 10 ^ 4 < |q| ∧ |q| < 10 ^ 9
  · have := Props.RoundString.C125_ordinary q 4 hb.1 hb.2
    have e : (4 : ℤ).toNat = 4 := rfl
    rw [e] at this
    refine this.trans ?_
    have h1 : (1 : ℚ) ≤ max 1 |q| := le_max_left _ _
    nlinarith
  · have := Props.RoundString.C125_scientific q 4 (by
      by_contra hc
      push Not at hc
      exact hb hc)
    have e : (4 : ℤ).toNat = 4 := rfl
    rw [e] at this
    refine this.trans ?_
    have h1 : |q| ≤ max 1 |q| := le_max_right _ _
    nlinarith

/-- One part of a title. -/
def part (p : Char × ℚ) : List Char := p.1 :: '=' :: (num p.2).toList

theorem title_parts (d : Dist) : (paramTitle d).toList = [','].intercalate ((letters d).map part) := by
  cases d with
  | weibull a b g =>
    by_cases h : g = 0 <;>
      simp [paramTitle, letters, letters.location, h, part, String.toList_append, List.intercalate]
  | normal m s => simp [paramTitle, letters, part, String.toList_append, List.intercalate]
  | lognormal m s g =>
    by_cases h : g = 0 <;>
      simp [paramTitle, letters, letters.location, h, part, String.toList_append, List.intercalate]
  | exponential l g =>
    by_cases h : g = 0 <;>
      simp [paramTitle, letters, letters.location, h, part, String.toList_append, List.intercalate]
  | gamma a b g =>
    by_cases h : g = 0 <;>
      simp [paramTitle, letters, letters.location, h, part, String.toList_append, List.intercalate]
  | beta a b => simp [paramTitle, letters, part, String.toList_append, List.intercalate]
  | loglogistic a b g =>
    by_cases h : g = 0 <;>
      simp [paramTitle, letters, letters.location, h, part, String.toList_append, List.intercalate]
  | gumbel m s => simp [paramTitle, letters, part, String.toList_append, List.intercalate]

theorem letters_ne (d : Dist) : letters d ≠ [] ∧ ∀ p ∈ letters d, p.1 ≠ ',' ∧ p.1 ≠ '=' := by
  have hl : ∀ g : ℚ, ∀ p ∈ letters.location g, p.1 ≠ ',' ∧ p.1 ≠ '=' := by
    intro g p hp
    unfold letters.location at hp
    split at hp
    · simp at hp
    · rw [mem_singleton.1 hp]; constructor <;> simp
  have hx : ∀ (c : Char) (x : ℚ) (p : Char × ℚ), p = (c, x) → c ≠ ',' ∧ c ≠ '=' → p.1 ≠ ',' ∧ p.1 ≠ '=' := by
    rintro c x p rfl h
    exact h
  cases d <;> refine ⟨by simp [letters], ?_⟩ <;>
  · intro p hp
    simp only [letters, mem_append, mem_cons, not_mem_nil, or_false] at hp
    first
    | rcases hp with (h | h) | hp
      · exact hx _ _ _ h (by decide)
      · exact hx _ _ _ h (by decide)
      · exact hl _ p hp
    | rcases hp with h | h
      · exact hx _ _ _ h (by decide)
      · exact hx _ _ _ h (by decide)
    | rcases hp with h | hp
      · exact hx _ _ _ h (by decide)
      · exact hl _ p hp

/-- What is read from a title. -/
theorem read (d : Dist) : readTitle (paramTitle d) = (letters d).map fun p => (String.ofList [p.1], value (num p.2)) := by
  obtain ⟨hne, hc⟩ := letters_ne d
  unfold readTitle
  rw [title_parts, splitOn_intercalate ',' (by
      intro l hl
      obtain ⟨p, hp, rfl⟩ := mem_map.1 hl
      unfold part
      simp only [mem_cons, not_or]
      exact ⟨(hc p hp).1.symm, by decide, fun h => (num_chars p.2 ',' h).1 rfl⟩) (by simpa using hne), map_map]
  apply map_congr_left
  intro p hp
  have h1 : (fun x : Char => decide (x ≠ '=')) p.1 = true := by simpa using (hc p hp).2
  have h2 : ¬ (fun x : Char => decide (x ≠ '=')) '=' = true := by decide
  simp only [Function.comp, part]
  rw [takeWhile_cons_of_pos (p := fun x : Char => decide (x ≠ '=')) h1, takeWhile_cons_of_neg (p := fun x : Char => decide (x ≠ '=')) h2,
    dropWhile_cons_of_pos (p := fun x : Char => decide (x ≠ '=')) h1, dropWhile_cons_of_neg (p := fun x : Char => decide (x ≠ '=')) h2,
    drop_one, tail_cons, String.ofList_toList]

/-- **C175 (title).** Read part by part, `param_title` gives every parameter of the distribution under its letter, in the order
of the constructor, the location only if it is not zero; each number is off by at most half a unit of the fourth decimal, or of
the fourth place of its mantissa. -/
theorem C175_title (d : Dist) :
    Forall₂ (fun r p => r.1 = String.ofList [p.1] ∧ |r.2 - p.2| ≤ 1 / 2 / 10 ^ 4 * max 1 |p.2|)
      (readTitle (paramTitle d)) (letters d) := by
  rw [read, forall₂_map_left_iff, forall₂_same]
  exact fun p _ => ⟨rfl, num_value p.2⟩

theorem glue1 (a b c : String) (h : a = b ++ " Distribution (" ++ c) (u0 : String) :
    a ++ u0 ++ ")" = b ++ " Distribution (" ++ (c ++ u0) ++ ")" := by
  subst h
  simp only [String.append_assoc]

theorem glue3 (a b c : String) (h : a = b ++ " Distribution (" ++ c) (u0 u1 u2 : String) :
    a ++ u0 ++ u1 ++ u2 ++ ")" = b ++ " Distribution (" ++ (c ++ u0 ++ u1 ++ u2) ++ ")" := by
  subst h
  simp only [String.append_assoc]

theorem glue5 (a b c : String) (h : a = b ++ " Distribution (" ++ c) (u0 u1 u2 u3 u4 : String) :
    a ++ u0 ++ u1 ++ u2 ++ u3 ++ u4 ++ ")" = b ++ " Distribution (" ++ (c ++ u0 ++ u1 ++ u2 ++ u3 ++ u4) ++ ")" := by
  subst h
  simp only [String.append_assoc]

/-- **C175 (long title).** The long title is the name of the family and the title in brackets. -/
theorem C175_long (d : Dist) : paramTitleLong d = family d ++ " Distribution (" ++ paramTitle d ++ ")" ∧ name d = family d := by
  refine ⟨?_, by cases d <;> rfl⟩
  cases d with
  | weibull a b g =>
    by_cases h : g = 0
    · have e1 : paramTitleLong (.weibull a b g) = _ := if_neg (not_not.2 h)
      have e2 : paramTitle (.weibull a b g) = _ := if_neg (not_not.2 h)
      rewrite [e1, e2]
      exact glue3 _ _ _ (by decide +kernel : "Weibull Distribution (α=" = "Weibull" ++ " Distribution (" ++ "α=") _ _ _ 
    · have e1 : paramTitleLong (.weibull a b g) = _ := if_pos h
      have e2 : paramTitle (.weibull a b g) = _ := if_pos h
      rewrite [e1, e2]
      exact glue5 _ _ _ (by decide +kernel : "Weibull Distribution (α=" = "Weibull" ++ " Distribution (" ++ "α=") _ _ _ _ _ 
  | normal m s => exact glue3 _ _ _ (by decide +kernel : "Normal Distribution (μ=" = "Normal" ++ " Distribution (" ++ "μ=") _ _ _
  | lognormal m s g =>
    by_cases h : g = 0
    · have e1 : paramTitleLong (.lognormal m s g) = _ := if_neg (not_not.2 h)
      have e2 : paramTitle (.lognormal m s g) = _ := if_neg (not_not.2 h)
      rewrite [e1, e2]
      exact glue3 _ _ _ (by decide +kernel : "Lognormal Distribution (μ=" = "Lognormal" ++ " Distribution (" ++ "μ=") _ _ _ 
    · have e1 : paramTitleLong (.lognormal m s g) = _ := if_pos h
      have e2 : paramTitle (.lognormal m s g) = _ := if_pos h
      rewrite [e1, e2]
      exact glue5 _ _ _ (by decide +kernel : "Lognormal Distribution (μ=" = "Lognormal" ++ " Distribution (" ++ "μ=") _ _ _ _ _ 
  | exponential l g =>
    by_cases h : g = 0
    · have e1 : paramTitleLong (.exponential l g) = _ := if_neg (not_not.2 h)
      have e2 : paramTitle (.exponential l g) = _ := if_neg (not_not.2 h)
      rewrite [e1, e2]
      exact glue1 _ _ _ (by decide +kernel : "Exponential Distribution (λ=" = "Exponential" ++ " Distribution (" ++ "λ=") _ 
    · have e1 : paramTitleLong (.exponential l g) = _ := if_pos h
      have e2 : paramTitle (.exponential l g) = _ := if_pos h
      rewrite [e1, e2]
      exact glue3 _ _ _ (by decide +kernel : "Exponential Distribution (λ=" = "Exponential" ++ " Distribution (" ++ "λ=") _ _ _ 
  | gamma a b g =>
    by_cases h : g = 0
    · have e1 : paramTitleLong (.gamma a b g) = _ := if_neg (not_not.2 h)
      have e2 : paramTitle (.gamma a b g) = _ := if_neg (not_not.2 h)
      rewrite [e1, e2]
      exact glue3 _ _ _ (by decide +kernel : "Gamma Distribution (α=" = "Gamma" ++ " Distribution (" ++ "α=") _ _ _ 
    · have e1 : paramTitleLong (.gamma a b g) = _ := if_pos h
      have e2 : paramTitle (.gamma a b g) = _ := if_pos h
      rewrite [e1, e2]
      exact glue5 _ _ _ (by decide +kernel : "Gamma Distribution (α=" = "Gamma" ++ " Distribution (" ++ "α=") _ _ _ _ _ 
  | beta a b => exact glue3 _ _ _ (by decide +kernel : "Beta Distribution (α=" = "Beta" ++ " Distribution (" ++ "α=") _ _ _
  | loglogistic a b g =>
    by_cases h : g = 0
    · have e1 : paramTitleLong (.loglogistic a b g) = _ := if_neg (not_not.2 h)
      have e2 : paramTitle (.loglogistic a b g) = _ := if_neg (not_not.2 h)
      rewrite [e1, e2]
      exact glue3 _ _ _ (by decide +kernel : "Loglogistic Distribution (α=" = "Loglogistic" ++ " Distribution (" ++ "α=") _ _ _ 
    · have e1 : paramTitleLong (.loglogistic a b g) = _ := if_pos h
      have e2 : paramTitle (.loglogistic a b g) = _ := if_pos h
      rewrite [e1, e2]
      exact glue5 _ _ _ (by decide +kernel : "Loglogistic Distribution (α=" = "Loglogistic" ++ " Distribution (" ++ "α=") _ _ _ _ _ 
  | gumbel m s => exact glue3 _ _ _ (by decide +kernel : "Gumbel Distribution (μ=" = "Gumbel" ++ " Distribution (" ++ "μ=") _ _ _

/-- **C175 (name2).** `name2` is the family and the number of parameters in the title. -/
theorem C175_name2 (d : Dist) : name2 d = family d ++ "_" ++ toString (letters d).length ++ "P" := by
  cases d with
  | weibull a b g => by_cases h : g = 0 <;> simp [name2, letters, letters.location, h, family] <;> rfl
  | normal m s => simp [name2, letters, family] <;> rfl
  | lognormal a b g => by_cases h : g = 0 <;> simp [name2, letters, letters.location, h, family] <;> rfl
  | exponential l g => by_cases h : g = 0 <;> simp [name2, letters, letters.location, h, family] <;> rfl
  | gamma a b g => by_cases h : g = 0 <;> simp [name2, letters, letters.location, h, family] <;> rfl
  | beta a b => simp [name2, letters, family] <;> rfl
  | loglogistic a b g => by_cases h : g = 0 <;> simp [name2, letters, letters.location, h, family] <;> rfl
  | gumbel m s => simp [name2, letters, family] <;> rfl

/-- **C175 (titles distinguish).** Two distributions with the same long title are of the same family, have the same parameters
and these differ by at most a unit of the fourth decimal or of the fourth place of the mantissa. -/
theorem C175_distinguishes (d d' : Dist) (h : paramTitleLong d = paramTitleLong d') :
    family d = family d' ∧
      Forall₂ (fun p p' => p.1 = p'.1 ∧ |p.2 - p'.2| ≤ 1 / 10 ^ 4 * max 1 (max |p.2| |p'.2|)) (letters d) (letters d') := by
  have hf : ∀ d, (paramTitleLong d).toList.takeWhile (· ≠ ' ') = (family d).toList := by
    intro d
    rw [(C175_long d).1]
    cases d <;> simp [family, String.toList_append, takeWhile_cons]
  have hfam : family d = family d' := by
    apply String.toList_injective
    rw [← hf, ← hf, h]
  have ht : paramTitle d = paramTitle d' := by
    have h' := congrArg String.toList h
    rw [(C175_long d).1, (C175_long d').1, hfam] at h'
    simp only [String.toList_append, append_assoc, append_cancel_left_eq] at h'
    rw [append_cancel_right_eq] at h'
    exact String.toList_injective h'
  refine ⟨hfam, ?_⟩
  have hr := read d
  rw [ht, read d'] at hr
  have key : ∀ l l' : List (Char × ℚ),
      (l'.map fun p => (String.ofList [p.1], value (num p.2))) = (l.map fun p => (String.ofList [p.1], value (num p.2))) →
      Forall₂ (fun p p' => p.1 = p'.1 ∧ |p.2 - p'.2| ≤ 1 / 10 ^ 4 * max 1 (max |p.2| |p'.2|)) l l' := by
    intro l
    induction l with
    | nil =>
      intro l' h
      rw [map_nil, map_eq_nil_iff] at h
      subst h
      exact Forall₂.nil
    | cons p l ih =>
      intro l' h
      cases l' with
      | nil => simp at h
      | cons p' l' =>
        simp only [map_cons, cons.injEq, Prod.mk.injEq] at h
        refine Forall₂.cons ⟨?_, ?_⟩ (ih l' h.2)
        · have := congrArg String.toList h.1.1
          rw [String.toList_ofList, String.toList_ofList] at this
          exact (cons.inj this).1.symm
        · have h1 := num_value p.2
          have h2 := num_value p'.2
          rw [h.1.2] at h2
          have e1 : max 1 |p.2| ≤ max 1 (max |p.2| |p'.2|) := max_le_max_left _ (le_max_left _ _)
          have e2 : max 1 |p'.2| ≤ max 1 (max |p.2| |p'.2|) := max_le_max_left _ (le_max_right _ _)
          rw [abs_le] at h1 h2 ⊢
          constructor <;> nlinarith [h1.1, h1.2, h2.1, h2.2]
  exact key _ _ hr

/-- **C175 (titles do not identify).** Different distributions may have the same title. -/
theorem C175_same_title_finding : ∃ d d' : Dist, d ≠ d' ∧ paramTitleLong d = paramTitleLong d' := by
  refine ⟨.normal (10 + 1 / 10 ^ 5) 1, .normal (10 + 2 / 10 ^ 5) 1, by simp; norm_num, ?_⟩
  decide +kernel

/-- A title. -/
example : paramTitle (.weibull 50 (5 / 2) 0) = "α=50,β=2.5" ∧ name2 (.weibull 50 (5 / 2) 0) = "Weibull_2P" := by
  decide +kernel

end Reliability.Titles
