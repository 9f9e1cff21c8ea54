import Verif.Spec.ColorPrint

/-! # C160: colorprint -/

namespace Reliability.Props.ColorPrint

open Reliability Reliability.ColorPrint Reliability.Spec.ColorPrint

theorem receiveAll_append (st : Bool) (t : Terminal) (a b : List Char) :
    receiveAll st t (a ++ b) = ((receiveAll st (receiveAll st t a).1 b).1, (receiveAll st t a).2 ++ (receiveAll st (receiveAll st t a).1 b).2) := by
  induction a generalizing t with
  | nil => simp [receiveAll]
  | cons c cs ih => simp only [List.cons_append, receiveAll, ih, List.append_assoc]

theorem receiveAll_text (st : Bool) (s : Style) (l : List Char) (h : esc ∉ l) :
    receiveAll st ⟨s, .text⟩ l = (⟨s, .text⟩, l.map fun c => (c, s)) := by
  induction l with
  | nil => rfl
  | cons c cs ih =>
    have hc : c ≠ esc := fun e => h (e ▸ List.mem_cons_self ..)
    have := ih fun e => h (List.mem_cons_of_mem _ e)
    simp only [receiveAll, receive, if_neg hc, this, List.map_cons, List.singleton_append]

theorem seq_bold (st : Bool) (s : Style) (b : Bool) : receiveAll st ⟨s, .text⟩ (if b = true then seq "1" else seq "21") =
    (⟨if b = true then { s with bold := true } else sgr st 21 s, .text⟩, []) := by
  cases b <;> rfl

theorem seq_italic (st : Bool) (s : Style) (b : Bool) : receiveAll st ⟨s, .text⟩ (if b = true then seq "3" else seq "23") =
    (⟨{ s with italic := b }, .text⟩, []) := by
  cases b <;> rfl

theorem seq_underline (st : Bool) (s : Style) (b : Bool) : receiveAll st ⟨s, .text⟩ (if b = true then seq "4" else seq "24") =
    (⟨{ s with underline := if b = true then .single else .no }, .text⟩, []) := by
  cases b <;> rfl

theorem seq_background (st : Bool) (s : Style) (k : Option Key) : receiveAll st ⟨s, .text⟩ (backgroundColors k) =
    (⟨{ s with background := k }, .text⟩, []) := by
  rcases k with _ | k
  · rfl
  · cases k <;> rfl

theorem seq_text (st : Bool) (s : Style) (k : Option Key) : receiveAll st ⟨s, .text⟩ (textColors k) = (⟨{ s with text := k }, .text⟩, []) := by
  rcases k with _ | k
  · rfl
  · cases k <;> rfl

theorem seq_reset (st : Bool) (s : Style) : receiveAll st ⟨s, .text⟩ (seq "0") = (⟨plain, .text⟩, []) := rfl

theorem up_eq (s n : String) : Fitters.up s = Fitters.up n ↔ s.toList.map Char.toUpper = n.toList.map Char.toUpper := by
  unfold Fitters.up
  exact ⟨fun h => by simpa using congrArg String.toList h, fun h => by rw [h]⟩

theorem colorKey_iff (a : ColorArg) (k : Option Key) : colorKey a = .ok k ↔ Asks a k := by
  cases a with
  | none =>
    constructor
    · intro h; cases h; exact .inl ⟨rfl, rfl⟩
    · rintro (⟨-, rfl⟩ | ⟨s, key, h, -⟩)
      · rfl
      · cases h
  | other =>
    constructor
    · intro h; cases h
    · rintro (⟨h, -⟩ | ⟨s, key, h, -⟩) <;> cases h
  | str s =>
    have e : ∀ key, (∃ n ∈ names key, s.toList.map Char.toUpper = n.toList.map Char.toUpper) ↔ Fitters.up s ∈ (names key).map Fitters.up := by
      intro key
      simp only [List.mem_map, ← up_eq]
      exact ⟨fun ⟨n, h, e⟩ => ⟨n, h, e.symm⟩, fun ⟨n, h, e⟩ => ⟨n, h, e.symm⟩⟩
    have hA : Asks (.str s) k ↔ ∃ key, k = some key ∧ Fitters.up s ∈ (names key).map Fitters.up := by
      unfold Asks
      constructor
      · rintro (⟨h, -⟩ | ⟨s', key, h, rfl, h'⟩)
        · cases h
        · cases h; exact ⟨key, rfl, (e key).1 h'⟩
      · rintro ⟨key, rfl, h⟩; exact .inr ⟨s, key, rfl, rfl, (e key).2 h⟩
    rw [hA]
    have n1 : (names .grey).map Fitters.up = ["GREY", "GRAY", "GR"] := by decide
    have n2 : (names .red).map Fitters.up = ["RED", "R"] := by decide
    have n3 : (names .green).map Fitters.up = ["GREEN", "G"] := by decide
    have n4 : (names .yellow).map Fitters.up = ["YELLOW", "Y"] := by decide
    have n5 : (names .blue).map Fitters.up = ["BLUE", "B", "DARKBLUE", "DARK BLUE"] := by decide
    have n6 : (names .pink).map Fitters.up = ["PINK", "P", "PURPLE"] := by decide
    have n7 : (names .turquoise).map Fitters.up = ["TURQUOISE", "TURQ", "T", "CYAN", "C", "LIGHTBLUE", "LIGHT BLUE", "LB"] := by decide
    unfold colorKey
    dsimp only
    generalize Fitters.up s = u
    constructor
    · intro h
      split_ifs at h with h1 h2 h3 h4 h5 h6 h7 <;> cases h
      · exact ⟨_, rfl, n1 ▸ h1⟩
      · exact ⟨_, rfl, n2 ▸ h2⟩
      · exact ⟨_, rfl, n3 ▸ h3⟩
      · exact ⟨_, rfl, n4 ▸ h4⟩
      · exact ⟨_, rfl, n5 ▸ h5⟩
      · exact ⟨_, rfl, n6 ▸ h6⟩
      · exact ⟨_, rfl, n7 ▸ h7⟩
    · rintro ⟨key, rfl, h⟩
      cases key
      · rw [n1] at h; simp only [List.mem_cons, List.not_mem_nil, or_false] at h; rcases h with rfl | rfl | rfl <;> rfl
      · rw [n2] at h; simp only [List.mem_cons, List.not_mem_nil, or_false] at h; rcases h with rfl | rfl <;> rfl
      · rw [n3] at h; simp only [List.mem_cons, List.not_mem_nil, or_false] at h; rcases h with rfl | rfl <;> rfl
      · rw [n4] at h; simp only [List.mem_cons, List.not_mem_nil, or_false] at h; rcases h with rfl | rfl <;> rfl
      · rw [n5] at h; simp only [List.mem_cons, List.not_mem_nil, or_false] at h; rcases h with rfl | rfl | rfl | rfl <;> rfl
      · rw [n6] at h; simp only [List.mem_cons, List.not_mem_nil, or_false] at h; rcases h with rfl | rfl | rfl <;> rfl
      · rw [n7] at h; simp only [List.mem_cons, List.not_mem_nil, or_false] at h
        rcases h with rfl | rfl | rfl | rfl | rfl | rfl | rfl | rfl <;> rfl

theorem output (st : Bool) {x : Args} {t b : Option Key} (ht : Asks x.text_color t) (hb : Asks x.background_color b) (hs : esc ∉ x.string.toList)
    (s : Style) : ∃ out, colorprint x = .ok out ∧
      receiveAll st ⟨s, .text⟩ out = (⟨plain, .text⟩, (x.string.toList.map fun c =>
        (c, { wanted x t b with bold := if x.bold = true then true else (sgr st 21 s).bold })) ++ [('\n', plain)]) := by
  have h1 : colorprint x = .ok ((if x.bold = true then seq "1" else seq "21") ++ (if x.italic = true then seq "3" else seq "23") ++
      (if x.underline = true then seq "4" else seq "24") ++ backgroundColors b ++ textColors t ++ x.string.toList ++ seq "0" ++ ['\n']) := by
    unfold colorprint
    rw [(colorKey_iff _ _).2 ht, (colorKey_iff _ _).2 hb]
  refine ⟨_, h1, ?_⟩
  · rw [receiveAll_append, receiveAll_append, receiveAll_append, receiveAll_append, receiveAll_append, receiveAll_append, receiveAll_append]
    simp only [seq_bold, seq_italic, seq_underline, seq_background, seq_text, receiveAll_text _ _ _ hs, seq_reset, List.nil_append, List.append_nil]
    rw [receiveAll_text _ _ _ (by decide)]
    simp only [List.map_cons, List.map_nil, Prod.mk.injEq, true_and]
    congr 2
    funext c
    cases hx : x.bold <;> simp [wanted, hx]

/-- **C160.** `colorprint` with colours the caller can ask for (None, or a name in any letter case) prints on a terminal that is not in bold, whatever its other attributes, the string – character by
character, for every string without escape characters – in exactly the style asked for, then a newline, and leaves the terminal in its plain style. It does not matter whether the terminal takes code 21 for "double
underline" or "bold off"; in the latter case it may also be in bold. -/
theorem C160_shows (standard : Bool) (x : Args) (t b : Option Key) (ht : Asks x.text_color t) (hb : Asks x.background_color b)
    (hs : Char.ofNat 27 ∉ x.string.toList) (s : Style) (hbold : s.bold = false ∨ standard = false) :
    ∃ out, colorprint x = .ok out ∧ receiveAll standard ⟨s, .text⟩ out =
      (⟨plain, .text⟩, (x.string.toList.map fun c => (c, wanted x t b)) ++ [('\n', plain)]) := by
  obtain ⟨out, h1, h2⟩ := output standard ht hb hs s
  refine ⟨out, h1, ?_⟩
  rw [h2]
  congr 2
  refine List.map_congr_left fun c _ => ?_
  have : (if x.bold = true then true else (sgr standard 21 s).bold) = x.bold := by
    cases hx : x.bold
    · rcases hbold with h | h <;> cases standard <;> simp_all [sgr]
    · rfl
  rw [this]
  rfl

/-- **C160 (many calls).** Successive calls do not disturb each other: from a plain terminal every one of them is shown as by itself. -/
theorem C160_sequence (standard : Bool) (l : List (Args × Option Key × Option Key))
    (h : ∀ y ∈ l, Asks y.1.text_color y.2.1 ∧ Asks y.1.background_color y.2.2 ∧ Char.ofNat 27 ∉ y.1.string.toList) :
    ∃ outs, l.mapM (fun y => colorprint y.1) = .ok outs ∧ receiveAll standard ⟨plain, .text⟩ outs.flatten =
      (⟨plain, .text⟩, (l.map fun y => (y.1.string.toList.map fun c => (c, wanted y.1 y.2.1 y.2.2)) ++ [('\n', plain)]).flatten) := by
  induction l with
  | nil => exact ⟨[], rfl, rfl⟩
  | cons y ys ih =>
    obtain ⟨a, b, c⟩ := h y (List.mem_cons_self ..)
    obtain ⟨out, h1, h2⟩ := C160_shows standard y.1 y.2.1 y.2.2 a b c plain (.inl rfl)
    obtain ⟨outs, h3, h4⟩ := ih fun z hz => h z (List.mem_cons_of_mem _ hz)
    refine ⟨out :: outs, by rw [List.mapM_cons, h1, h3]; rfl, ?_⟩
    rw [List.flatten_cons, receiveAll_append, h2]
    simp only [h4, List.map_cons, List.flatten_cons]

/-- **C160 (refusals).** A colour argument that is neither None nor a name of a colour is a ValueError, and nothing is printed; nothing else is refused. -/
theorem C160_refuses (x : Args) :
    ((¬ (∃ t, Asks x.text_color t) ∨ ¬ ∃ b, Asks x.background_color b) → colorprint x = valueErr) ∧
      ((∃ out, colorprint x = .ok out) ↔ (∃ t, Asks x.text_color t) ∧ ∃ b, Asks x.background_color b) := by
  have key : ∀ a, (∃ k, Asks a k) ∨ colorKey a = valueErr := by
    intro a
    cases h : colorKey a with
    | ok k => exact .inl ⟨k, (colorKey_iff a k).1 h⟩
    | error e =>
      right
      cases a with
      | none => cases h
      | other => exact h.symm ▸ rfl
      | str s =>
        unfold colorKey at h
        dsimp only at h
        split_ifs at h
        cases h
        rfl
  have h1 : (¬ (∃ t, Asks x.text_color t) ∨ ¬ ∃ b, Asks x.background_color b) → colorprint x = valueErr := by
    intro h
    unfold colorprint
    rcases key x.text_color with ⟨t, ht⟩ | ht
    · rw [(colorKey_iff _ _).2 ht]
      rcases key x.background_color with ⟨b, hb⟩ | hb
      · exact absurd h (by push Not; exact ⟨⟨t, ht⟩, b, hb⟩)
      · rw [hb]
    · rw [ht]
  refine ⟨h1, fun ⟨out, h⟩ => ?_, fun ⟨⟨t, ht⟩, b, hb⟩ => ?_⟩
  · by_contra hc
    rw [h1 (by tauto)] at h
    cases h
  · unfold colorprint
    rw [(colorKey_iff _ _).2 ht, (colorKey_iff _ _).2 hb]
    exact ⟨_, rfl⟩

/-- **C160 (finding).** On a terminal that follows ECMA-48 `bold=False` does not turn bold off: if the terminal is in bold, so is the text. -/
theorem C160_bold_finding (x : Args) (t b : Option Key) (ht : Asks x.text_color t) (hb : Asks x.background_color b)
    (hs : Char.ofNat 27 ∉ x.string.toList) (s : Style) (hbold : s.bold = true) :
    ∃ out, colorprint x = .ok out ∧ receiveAll true ⟨s, .text⟩ out =
      (⟨plain, .text⟩, (x.string.toList.map fun c => (c, { wanted x t b with bold := true })) ++ [('\n', plain)]) := by
  obtain ⟨out, h1, h2⟩ := output true ht hb hs s
  refine ⟨out, h1, ?_⟩
  rw [h2]
  congr 2
  refine List.map_congr_left fun c _ => ?_
  have : (if x.bold = true then true else (sgr true 21 s).bold) = true := by simp [sgr, hbold]
  rw [this]

/-- A warning in red on a yellow ground, asked for with other spellings. -/
example : ∃ out, colorprint { string := "WARNING", text_color := .str "Red", background_color := .str "y", underline := true } = .ok out ∧
    (receiveAll true ⟨plain, .text⟩ out).2 =
      ("WARNING".toList.map fun c => (c, (⟨false, false, .single, some .red, some .yellow⟩ : Style))) ++ [('\n', plain)] := by
  obtain ⟨out, h1, h2⟩ := C160_shows true { string := "WARNING", text_color := .str "Red", background_color := .str "y", underline := true }
    (some .red) (some .yellow) (.inr ⟨"Red", .red, rfl, rfl, "red", by simp [names], by decide⟩)
    (.inr ⟨"y", .yellow, rfl, rfl, "y", by simp [names], rfl⟩) (by decide) plain (.inl rfl)
  exact ⟨out, h1, congrArg Prod.snd h2⟩

/-- A colour that is refused. -/
example : colorprint { string := "text", text_color := .str "orange" } = valueErr := by
  refine (C160_refuses _).1 (.inl ?_)
  rintro ⟨t, ht⟩
  have h := (colorKey_iff _ _).2 ht
  have h' : colorKey (.str "orange") = valueErr := rfl
  rw [h'] at h
  cases h

end Reliability.Props.ColorPrint
