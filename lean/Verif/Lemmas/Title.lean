import Batteries.Data.Char.AsciiCasing
import Verif.Model.OtherFunctions
import Verif.Spec.OtherFunctions

/-!
# Title-casing and comparing names without regard to case
-/

namespace Reliability.OtherFunctions

open Spec

theorem titleAux_lower (b : Bool) (l : List Char) : (titleAux b l).map Char.toLower = l.map Char.toLower := by
  induction l generalizing b with
  | nil => rfl
  | cons c cs ih =>
    rw [titleAux, List.map_cons, List.map_cons, ih]
    congr 1
    by_cases h : c.isAlpha
    · rw [if_pos h]
      cases b
      · simp
      · simp
    · rw [if_neg h]

theorem titleAux_congr (b : Bool) (l l' : List Char) (h : l.map Char.toLower = l'.map Char.toLower) :
    titleAux b l = titleAux b l' := by
  induction l generalizing b l' with
  | nil =>
    cases l' with
    | nil => rfl
    | cons c cs => simp at h
  | cons c cs ih =>
    cases l' with
    | nil => simp at h
    | cons d ds =>
      rw [List.map_cons, List.map_cons, List.cons.injEq] at h
      obtain ⟨h1, h2⟩ := h
      have ha : c.isAlpha = d.isAlpha := by
        rw [← Char.isAlpha_toLower_eq_isAlpha c, h1, Char.isAlpha_toLower_eq_isAlpha]
      have hu : c.toUpper = d.toUpper := by
        rw [← Char.toUpper_toLower_eq_toUpper c, h1, Char.toUpper_toLower_eq_toUpper]
      rw [titleAux, titleAux, ih _ _ h2, ← ha]
      congr 1
      by_cases hc : c.isAlpha
      · rw [if_pos hc, if_pos hc, h1, hu]
      · rw [if_neg hc, if_neg hc]
        have hn : ∀ e : Char, ¬ e.isAlpha → e.toLower = e := fun e he =>
          Char.toLower_eq_of_not_isUpper fun hx => he (by simp [Char.isAlpha, hx])
        rw [← hn c hc, ← hn d (ha ▸ hc), h1]

/-- Title-casing sends two strings to the same string exactly if they differ only in case. -/
theorem title_eq_title (s t : String) : title s = title t ↔ SameName s t := by
  unfold title SameName
  rw [String.ofList_inj]
  refine ⟨fun h => ?_, titleAux_congr _ _ _⟩
  rw [← titleAux_lower false s.toList, h, titleAux_lower]

theorem title_eq_iff {t : String} (ht : title t = t) (s : String) : title s = t ↔ SameName s t := by
  conv_lhs => rw [← ht]
  exact title_eq_title s t

end Reliability.OtherFunctions
