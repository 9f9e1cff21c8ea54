import Verif.Spec.Crosshairs
import Verif.Props.InputCheck
import Mathlib.Data.Rat.Floor
import Mathlib.Tactic.Linarith
import Mathlib.Tactic.NormNum
import Mathlib.Tactic.FieldSimp

namespace Reliability.Props.Crosshairs

open Reliability Reliability.Crosshairs Reliability.Spec.Crosshairs
open Reliability.Props (bind_ok)

theorem pyInt_eq (q : ℚ) : pyInt q = whole q := by
  unfold pyInt whole
  split_ifs with h
  · rw [Rat.floor_def', Int.tdiv_eq_ediv_of_nonneg (Rat.num_nonneg.2 h)]
  · have h' : 0 ≤ -q := by linarith [not_le.1 h]
    have : ⌈q⌉ = -⌊-q⌋ := by rw [Int.floor_neg, neg_neg]
    rw [this, Rat.floor_def']
    have e : q.num.tdiv q.den = -((-q.num).tdiv q.den) := by rw [Int.neg_tdiv, neg_neg]
    rw [e, Int.tdiv_eq_ediv_of_nonneg (by simpa using Rat.num_nonneg.2 h')]
    simp

theorem round_int (z : ℤ) (d : ℤ) : RoundString.roundAndString (.fin (z : ℚ)) d = String.ofList (RoundString.strInt z) := by
  simp [RoundString.roundAndString]

theorem shown_number (d : ℤ) (v : ℚ) : shown (numberLabel d v) = numberText d v := by
  unfold numberLabel numberText
  split_ifs with h
  · rw [round_int, shown, pyInt_eq]
  · rfl

theorem shown_x (strftime : String → ℚ → String) (c : Settings) (x : ℚ) : shown (xString strftime c x) = xText strftime c x := by
  unfold xString xText
  cases c.dateformat with
  | none => exact shown_number _ _
  | some f =>
    show strftime f (x * 24 * 3600) = strftime f (86400 * x)
    congr 1
    ring

/-- The crosshairs on the axes they are on. -/
def withCross (strftime : String → ℚ → String) (c : Settings) (n : ℕ) (x y : ℚ) (b : Bool) (a : Axes) : Axes :=
  { lines := a.lines ++ [⟨.sel n, .vertical x, b⟩, ⟨.sel n, .horizontal y, b⟩]
    texts := a.texts ++ [⟨.sel n, numberText c.decimals y, (0, y), b⟩, ⟨.sel n, xText strftime c x, (x, 0), b⟩] }

/-- The invariant. -/
inductive Inv (strftime : String → ℚ → String) (c : Settings) (axes : ℕ → Axes) (s : State) : Option (ℕ × ℚ × ℚ) → Prop
  | none (h : s.selection = none) (ha : ∀ j, s.axes j = axes j) : Inv strftime c axes s none
  | some (i : ℕ) (x y : ℚ) (b : Bool) (n : ℕ) (h : s.selection = some n) (hn : n < s.count)
      (ha : ∀ j, s.axes j = if j = i then withCross strftime c n x y b (axes j) else axes j) :
      Inv strftime c axes s (if b then some (i, x, y) else Option.none)

theorem add_cross (strftime : String → ℚ → String) (c : Settings) (n : ℕ) (x y : ℚ) (a : Axes) :
    addCrosshair strftime c n x y a = withCross strftime c n x y true a := by
  simp only [addCrosshair, withCross, shown_number, shown_x]

theorem filter_user_lines {l : List Line} (h : ∀ t ∈ l, t.owner = .user) (n : ℕ) : (l.filter fun t => t.owner ≠ .sel n) = l := by
  rw [List.filter_eq_self]
  intro t ht
  simp [h t ht]

theorem filter_user_texts {l : List Text} (h : ∀ t ∈ l, t.owner = .user) (n : ℕ) : (l.filter fun t => t.owner ≠ .sel n) = l := by
  rw [List.filter_eq_self]
  intro t ht
  simp [h t ht]

theorem remove_user {a : Axes} (h : (∀ l ∈ a.lines, l.owner = .user) ∧ ∀ t ∈ a.texts, t.owner = .user) (n : ℕ) : removeSelection n a = a := by
  unfold removeSelection
  rw [filter_user_lines h.1, filter_user_texts h.2]

theorem remove_cross {strftime : String → ℚ → String} {c : Settings} {a : Axes}
    (h : (∀ l ∈ a.lines, l.owner = .user) ∧ ∀ t ∈ a.texts, t.owner = .user) (n m : ℕ) (x y : ℚ) (b : Bool) :
    removeSelection m (withCross strftime c n x y b a) = if n = m then a else withCross strftime c n x y b a := by
  unfold removeSelection withCross
  simp only [List.filter_append, filter_user_lines h.1, filter_user_texts h.2]
  by_cases hnm : n = m
  · subst hnm; simp
  · simp [hnm]

theorem modify_end {α : Type} (f : α → α) (l : List α) (p q : α) :
    hideAt f (l ++ [p, q]) 1 = some (l ++ [p, f q]) ∧ hideAt f (l ++ [p, q]) 2 = some (l ++ [f p, q]) := by
  have h1 : ∀ l : List α, (l ++ [p, q]).modify (l.length + 1) f = l ++ [p, f q] := by
    intro l; induction l with
    | nil => rfl
    | cons a l ih => simpa using ih
  have h2 : ∀ l : List α, (l ++ [p, q]).modify l.length f = l ++ [f p, q] := by
    intro l; induction l with
    | nil => rfl
    | cons a l ih => simpa using ih
  constructor <;> unfold hideAt <;> simp [h1, h2]

theorem hide_cross {strftime : String → ℚ → String} {c : Settings} (a : Axes) (n : ℕ) (x y : ℚ) (b : Bool) :
    hideCrosshairs (withCross strftime c n x y b a) = (withCross strftime c n x y false a, none) := by
  have hl : looksLikeCrosshair (withCross strftime c n x y b a).texts = true := by
    simp [looksLikeCrosshair, withCross]
  unfold hideCrosshairs
  rw [if_pos hl]
  simp only [withCross, (modify_end _ _ _ _).1, (modify_end _ _ _ _).2, Line.hide, Text.hide]

theorem looks_iff (texts : List Text) :
    looksLikeCrosshair texts = true ↔ ∃ ts t2 t1, texts = ts ++ [t2, t1] ∧ t2.position.1 = 0 ∧ t1.position.2 = 0 := by
  unfold looksLikeCrosshair
  constructor
  · intro h
    split at h
    · next t1 t2 r hr =>
      refine ⟨r.reverse, t2, t1, ?_, ?_, ?_⟩
      · have := congrArg List.reverse hr
        simpa using this
      · simp at h; exact h.2
      · simp at h; exact h.1
    · cases h
  · rintro ⟨ts, t2, t1, rfl, h2, h1⟩
    simp [h1, h2]

theorem hide_user {axes : ℕ → Axes} (h : NoLookalike axes) (i : ℕ) : hideCrosshairs (axes i) = (axes i, none) := by
  have : ¬ looksLikeCrosshair (axes i).texts = true := fun hh => h i ((looks_iff _).1 hh)
  unfold hideCrosshairs
  rw [if_neg this]

variable {strftime : String → ℚ → String} {c : Settings} {axes : ℕ → Axes}

theorem step_inv (hu : UserFigure axes) (hs : NoLookalike axes) {s : State} {p : Option (ℕ × ℚ × ℚ)} (h : Inv strftime c axes s p) (e : Event)
    (he : (∀ i n, e ≠ .plotLine i n) ∧ ∀ i t q, e ≠ .plotText i t q) :
    Inv strftime c axes (step strftime c s e).1 (move p e) := by
  cases e with
  | hover i x y =>
    have key : ∀ j, (step strftime c s (.hover i x y)).1.axes j = if j = i then withCross strftime c s.count x y true (axes j) else axes j := by
      intro j
      cases h with
      | none h ha =>
        simp only [step, h, atAxes, add_cross, ha]
      | some i' x' y' b n h hn ha =>
        have hne : s.count ≠ n := by omega
        simp only [step, h, atAxes, add_cross, ha]
        by_cases h1 : j = i <;> by_cases h2 : j = i'
        · rw [if_pos h1, if_pos h2, if_pos h1]
          unfold removeSelection withCross
          simp only [List.filter_append, filter_user_lines (hu j).1, filter_user_texts (hu j).2]
          simp [hne]
        · rw [if_pos h1, if_neg h2, if_pos h1, remove_cross (hu j), if_neg hne]
        · rw [if_neg h1, if_pos h2, if_neg h1, remove_cross (hu j), if_pos rfl]
        · rw [if_neg h1, if_neg h2, if_neg h1, remove_user (hu j)]
    have := Inv.some (strftime := strftime) (c := c) (axes := axes) (s := (step strftime c s (.hover i x y)).1) i x y true s.count rfl
      (Nat.lt_succ_self _) key
    simpa [move] using this
  | leave i =>
    cases h with
    | none h ha =>
      refine .none h ?_
      intro j
      simp only [step, atAxes, ha, hide_user hs]
      split_ifs with hj
      · rw [hj]
      · rfl
    | some i' x y b n h hn ha =>
      by_cases hi : i = i'
      · have key : ∀ j, (step strftime c s (.leave i)).1.axes j = if j = i' then withCross strftime c n x y false (axes j) else axes j := by
          intro j
          simp only [step, atAxes, ha, hi, if_true, hide_cross]
          split_ifs with hj
          · rw [hj]
          · rfl
        have hm : move (if b then some (i', x, y) else none) (.leave i) = none := by
          cases b <;> simp [move, hi]
        rw [hm]
        exact Inv.some i' x y false n h hn key
      · have key : ∀ j, (step strftime c s (.leave i)).1.axes j = if j = i' then withCross strftime c n x y b (axes j) else axes j := by
          intro j
          have : s.axes i = axes i := by rw [ha, if_neg hi]
          simp only [step, atAxes, this, hide_user hs]
          split_ifs with hj hj' hj'
          · exact absurd (hj.symm.trans hj') hi
          · rw [hj]
          · rw [ha, if_pos hj']
          · rw [ha, if_neg hj']
        have hm : move (if b then some (i', x, y) else none) (.leave i) = if b then some (i', x, y) else none := by
          cases b <;> simp [move, hi]
        rw [hm]
        exact Inv.some i' x y b n h hn key
  | click x y =>
    have e1 : ((step strftime c s (.click x y)).1.axes = s.axes ∧ (step strftime c s (.click x y)).1.selection = s.selection) ∧
        (step strftime c s (.click x y)).1.count = s.count := by
      simp only [step]
      cases annotation strftime c x y <;> exact ⟨⟨rfl, rfl⟩, rfl⟩
    cases h with
    | none h ha => exact .none (e1.1.2.trans h) fun j => by rw [e1.1.1, ha]
    | some i' x' y' b n h hn ha => exact .some i' x' y' b n (e1.1.2.trans h) (by rw [e1.2]; exact hn) fun j => by rw [e1.1.1, ha]
  | dismiss =>
    cases h with
    | none h ha =>
      refine .none ?_ ?_
      · simp only [step, h]
      · intro j; simp only [step, h, ha]
    | some i' x' y' b n h hn ha =>
      refine .none ?_ ?_
      · simp only [step, h]
      · intro j
        simp only [step, h, ha]
        split_ifs with hj
        · rw [remove_cross (hu j), if_pos rfl]
        · rw [remove_user (hu j)]
  | plotLine i n => exact absurd rfl (he.1 i n)
  | plotText i t q => exact absurd rfl (he.2 i t q)

theorem run_inv (hu : UserFigure axes) (hs : NoLookalike axes) (es : List Event) (he : Mouse es) :
    ∀ (s : State) (p : Option (ℕ × ℚ × ℚ)), Inv strftime c axes s p → Inv strftime c axes (run strftime c s es).1 (es.foldl move p) := by
  induction es with
  | nil => intro s p h; exact h
  | cons e es ih =>
    intro s p h
    have := step_inv hu hs h e (he e (by simp))
    exact ih (fun e' h' => he e' (by simp [h'])) _ _ this

theorem start_inv : Inv strftime c axes (start axes) none := .none rfl fun _ => rfl

/-- **C139 (crosshairs).** After any history of the mouse, on any figure without a look-alike of the texts: what can be seen on each
axes is what could be seen before, and exactly one pair of crosshairs through the point last hovered (none if it has left those
axes or they have been dismissed) with its coordinates on the axes; nothing of the user is changed. -/
theorem C139_crosshairs (strftime : String → ℚ → String) (c : Settings) (axes : ℕ → Axes) (hu : UserFigure axes) (hs : NoLookalike axes)
    (es : List Event) (he : Mouse es) (j : ℕ) :
    (∀ x y, position es = some (j, x, y) →
      seenLines ((run strftime c (start axes) es).1.axes j) = seenLines (axes j) ++ [.vertical x, .horizontal y] ∧
      seenTexts ((run strftime c (start axes) es).1.axes j) =
        seenTexts (axes j) ++ [(numberText c.decimals y, (0, y)), (xText strftime c x, (x, 0))]) ∧
    ((∀ x y, position es ≠ some (j, x, y)) →
      seenLines ((run strftime c (start axes) es).1.axes j) = seenLines (axes j) ∧
      seenTexts ((run strftime c (start axes) es).1.axes j) = seenTexts (axes j)) ∧
    userLines ((run strftime c (start axes) es).1.axes j) = (axes j).lines ∧
    userTexts ((run strftime c (start axes) es).1.axes j) = (axes j).texts := by
  have ul : ∀ a : Axes, (∀ l ∈ a.lines, l.owner = .user) → userLines a = a.lines := by
    intro a h
    unfold userLines
    rw [List.filter_eq_self]
    intro l hl; simp [h l hl]
  have ut : ∀ a : Axes, (∀ l ∈ a.texts, l.owner = .user) → userTexts a = a.texts := by
    intro a h
    unfold userTexts
    rw [List.filter_eq_self]
    intro l hl; simp [h l hl]
  have ul' := ul _ (hu j).1
  have ut' := ut _ (hu j).2
  have h := run_inv (strftime := strftime) (c := c) hu hs es he (start axes) none start_inv
  change Inv _ _ _ _ (position es) at h
  generalize (run strftime c (start axes) es).1 = s at h ⊢
  generalize position es = p at h ⊢
  cases h with
  | none h ha =>
    rw [ha]
    exact ⟨nofun, fun _ => ⟨rfl, rfl⟩, ul', ut'⟩
  | some i x y b n h hn ha =>
    rw [ha]
    by_cases hj : j = i
    · subst hj
      rw [if_pos rfl]
      refine ⟨?_, ?_, ?_, ?_⟩
      · intro x' y' hp
        cases b with
        | false => simp at hp
        | true =>
          simp only [if_true, Option.some.injEq, Prod.mk.injEq, true_and] at hp
          obtain ⟨rfl, rfl⟩ := hp
          simp [seenLines, seenTexts, withCross, List.filter_append]
      · intro hp
        cases b with
        | true => exact absurd rfl (hp x y)
        | false => simp [seenLines, seenTexts, withCross, List.filter_append]
      · rw [← ul']; simp [userLines, withCross, List.filter_append]
      · rw [← ut']; simp [userTexts, withCross, List.filter_append]
    · rw [if_neg hj]
      refine ⟨?_, fun _ => ⟨rfl, rfl⟩, ul', ut'⟩
      intro x' y' hp
      cases b <;> simp at hp
      exact absurd hp.1.symm hj

theorem annotation_eq (strftime : String → ℚ → String) (c : Settings) (x y : ℚ) : annotation strftime c x y =
    if c.decimals = 0 then .error .typeError
    else .ok (c.xlabel ++ " = " ++ xText strftime c x ++ "\n" ++ c.ylabel ++ " = " ++ numberText c.decimals y) := by
  rw [← shown_x, ← shown_number]
  unfold annotation xString numberLabel
  by_cases hd : c.decimals = 0 <;> cases c.dateformat <;> simp [hd, plus, shown, bind, Except.bind]

theorem run_clicks (hu : UserFigure axes) (hs : NoLookalike axes) (es : List Event) (he : Mouse es) :
    ∀ (s : State) (p : Option (ℕ × ℚ × ℚ)), Inv strftime c axes s p →
      if c.decimals = 0 then
        (run strftime c s es).1.annotations = s.annotations ∧ (run strftime c s es).2 = (clicks es).map fun _ => Err.typeError
      else
        (run strftime c s es).1.annotations = s.annotations ++
          (clicks es).map (fun q => c.xlabel ++ " = " ++ xText strftime c q.1 ++ "\n" ++ c.ylabel ++ " = " ++ numberText c.decimals q.2) ∧
        (run strftime c s es).2 = [] := by
  induction es with
  | nil => intro s p _; simp [run, clicks]
  | cons e es ih =>
    intro s p h
    have h' := step_inv hu hs h e (he e (by simp))
    have hi := ih (fun e' h' => he e' (by simp [h'])) _ _ h'
    have hother : (step strftime c s e).1.annotations = s.annotations ∧ (step strftime c s e).2 = none ∨ ∃ x y, e = .click x y := by
      cases e with
      | hover i x y => exact .inl ⟨rfl, rfl⟩
      | leave i =>
        refine .inl ⟨rfl, ?_⟩
        show (hideCrosshairs (s.axes i)).2 = none
        cases h with
        | none h ha => rw [ha, hide_user hs]
        | some i' x y b n h hn ha =>
          rw [ha]
          split_ifs
          · rw [hide_cross]
          · rw [hide_user hs]
      | click x y => exact .inr ⟨x, y, rfl⟩
      | dismiss =>
        refine .inl ?_
        simp only [step]
        cases s.selection <;> exact ⟨rfl, rfl⟩
      | plotLine i n => exact .inl ⟨rfl, rfl⟩
      | plotText i t q => exact .inl ⟨rfl, rfl⟩
    rcases hother with ⟨ha, hb⟩ | ⟨x, y, rfl⟩
    · have hc : clicks (e :: es) = clicks es ∨ ∃ x y, e = .click x y := by
        cases e with
        | click x y => exact .inr ⟨x, y, rfl⟩
        | _ => exact .inl rfl
      rcases hc with hc | ⟨x, y, rfl⟩
      · rw [ha] at hi
        simp only [run, hb, hc, Option.toList_none, List.nil_append]
        exact hi
      · exfalso
        simp only [step, annotation_eq] at ha hb
        split_ifs at ha hb with hd <;> simp at ha hb
    · by_cases hd : c.decimals = 0
      · have e1 : step strftime c s (.click x y) = (s, some .typeError) := by
          simp only [step, annotation_eq, hd, if_true]
        rw [if_pos hd] at hi ⊢
        rw [e1] at hi
        simp only [run, e1, clicks, List.map_cons, Option.toList_some, hi]
        exact ⟨trivial, rfl⟩
      · have e1 := annotation_eq strftime c x y
        rw [if_neg hd] at e1 hi ⊢
        simp only [step, e1] at hi
        simp only [run, step, e1, clicks, List.map_cons, Option.toList_none, hi, List.append_assoc]
        simp

/-- **C139 (annotations).** Unless `decimals=0`: no event raises an error, and each click adds an annotation with the labels and the
coordinates of the point, in the order of the clicks. -/
theorem C139_annotations (strftime : String → ℚ → String) (c : Settings) (hd : c.decimals ≠ 0) (axes : ℕ → Axes) (hu : UserFigure axes)
    (hs : NoLookalike axes) (es : List Event) (he : Mouse es) :
    (run strftime c (start axes) es).2 = [] ∧
    (run strftime c (start axes) es).1.annotations =
      (clicks es).map fun q => c.xlabel ++ " = " ++ xText strftime c q.1 ++ "\n" ++ c.ylabel ++ " = " ++ numberText c.decimals q.2 := by
  have := run_clicks (strftime := strftime) (c := c) hu hs es he (start axes) none start_inv
  rw [if_neg hd] at this
  exact ⟨this.2, by rw [this.1]; rfl⟩

/-- **C139 (finding).** With `decimals=0` every click raises a TypeError (the integer is added to a string), and no annotation gets its
text. -/
theorem C139_decimals_zero_finding (strftime : String → ℚ → String) (c : Settings) (hd : c.decimals = 0) (axes : ℕ → Axes)
    (hu : UserFigure axes) (hs : NoLookalike axes) (es : List Event) (he : Mouse es) :
    (run strftime c (start axes) es).2 = (clicks es).map (fun _ => Err.typeError) ∧
    (run strftime c (start axes) es).1.annotations = [] := by
  have := run_clicks (strftime := strftime) (c := c) hu hs es he (start axes) none start_inv
  rw [if_pos hd] at this
  exact ⟨this.2, this.1⟩

/-- **C139 (finding).** With `decimals=0` a coordinate is cut off, not rounded: 2.9 is shown as 2. -/
theorem C139_cut_off_finding : numberText 0 (29 / 10) = "2" ∧ RoundString.roundAndString (.fin 3) 0 = "3" := by
  have : whole (29 / 10) = 2 := by
    unfold whole
    rw [if_pos (by norm_num), Int.floor_eq_iff]
    norm_num
  constructor
  · unfold numberText
    rw [if_pos rfl, this, round_int]
    decide
  · have := round_int 3 0
    push_cast at this
    rw [this]
    decide

/-- **C139 (constructor).** The call is accepted exactly if the labels are strings or None, `decimals` is an int, and `dateformat` a
string or None; otherwise it raises a ValueError. The labels are "x" and "y" by default. -/
theorem C139_accepts (xlabel ylabel decimals dateformat : Arg) :
    (∀ c, make xlabel ylabel decimals dateformat = .ok c ↔
      (xlabel = .str c.xlabel ∨ xlabel = .none ∧ c.xlabel = "x") ∧ (ylabel = .str c.ylabel ∨ ylabel = .none ∧ c.ylabel = "y") ∧
      decimals = .int c.decimals ∧ dateformat = (match c.dateformat with | some f => .str f | none => .none)) ∧
    (∀ e, make xlabel ylabel decimals dateformat = .error e → e = .valueError) := by
  constructor
  · rintro ⟨d, f, xl, yl⟩
    cases xlabel <;> cases ylabel <;> cases decimals <;> cases dateformat <;> cases f <;>
      simp [make, bind, Except.bind, eq_comm] <;> tauto
  · intro e
    cases xlabel <;> cases ylabel <;> cases decimals <;> cases dateformat <;> simp [make, bind, Except.bind, eq_comm]

/-- A figure with one axes with the given lines and texts. -/
def one (a : Axes) : ℕ → Axes := fun i => if i = 0 then a else ⟨[], []⟩

/-- **C139 (finding).** If the last two texts of the user are at x = 0 and at y = 0, they and the last two lines of the user
disappear when the mouse leaves the axes, although no crosshairs were shown. -/
theorem C139_lookalike_finding (strftime : String → ℚ → String) (c : Settings) :
    let a : Axes := ⟨[⟨.user, .curve "data", true⟩, ⟨.user, .curve "fit", true⟩], [⟨.user, "A", (0, 5), true⟩, ⟨.user, "B", (3, 0), true⟩]⟩
    let s := (run strftime c (start (one a)) [.leave 0]).1
    seenLines (one a 0) = [.curve "data", .curve "fit"] ∧ seenLines (s.axes 0) = [] ∧ seenTexts (s.axes 0) = [] := by
  refine ⟨?_, ?_, ?_⟩ <;>
    simp [one, run, step, start, atAxes, hideCrosshairs, looksLikeCrosshair, hideAt, Line.hide, Text.hide, seenLines, seenTexts, List.modify, List.modifyTailIdx, List.modifyTailIdx.go]

/-- **C139 (finding).** A line and a text drawn while crosshairs are shown are seen; when the mouse leaves the axes, the line is hidden in place of one
of the crosshairs. -/
theorem C139_later_line_finding (strftime : String → ℚ → String) (c : Settings) (x y : ℚ) :
    let before := (run strftime c (start (one ⟨[], []⟩)) [.hover 0 x y, .plotLine 0 "new", .plotText 0 "note" (5, 0)]).1
    let s := (run strftime c (start (one ⟨[], []⟩)) [.hover 0 x y, .plotLine 0 "new", .leave 0]).1
    seenLines (before.axes 0) = [.vertical x, .horizontal y, .curve "new"] ∧ seenLines (s.axes 0) = [.vertical x] ∧
    ∃ a b, seenTexts (before.axes 0) = [a, b, ("note", (5, 0))] := by
  refine ⟨?_, ?_, ?_⟩ <;>
  simp [one, run, step, start, atAxes, addCrosshair, hideCrosshairs, looksLikeCrosshair, hideAt, Line.hide, Text.hide, seenLines, seenTexts, List.modify, List.modifyTailIdx, List.modifyTailIdx.go]

/-- The hypotheses are met: two axes with data; the crosshairs go from one to the other, and disappear with the mouse. -/
example (strftime : String → ℚ → String) :
    let axes : ℕ → Axes := fun _ => ⟨[⟨.user, .curve "data", true⟩], [⟨.user, "note", (0, 0), true⟩]⟩
    let c : Settings := ⟨2, none, "x", "y"⟩
    let es : List Event := [.hover 0 1 2, .leave 0, .hover 1 3 4, .click 3 4]
    UserFigure axes ∧ NoLookalike axes ∧ Mouse es ∧ position es = some (1, 3, 4) ∧
    seenLines ((run strftime c (start axes) es).1.axes 0) = [.curve "data"] ∧
    seenLines ((run strftime c (start axes) es).1.axes 1) = [.curve "data", .vertical 3, .horizontal 4] ∧
    position (es ++ [.leave 1]) = none := by
  intro axes c es
  have h1 : UserFigure axes := by intro i; simp [axes]
  have h2 : NoLookalike axes := by
    rintro i ⟨ts, t2, t1, h, -⟩
    have := congrArg List.length h
    simp [axes] at this
  have h3 : Mouse es := by intro e he; simp [es] at he; rcases he with rfl | rfl | rfl | rfl <;> simp
  have h4 : position es = some (1, 3, 4) := rfl
  refine ⟨h1, h2, h3, h4, ?_, ?_, rfl⟩
  · rw [((C139_crosshairs strftime c axes h1 h2 es h3 0).2.1 (by rw [h4]; simp)).1]; rfl
  · rw [((C139_crosshairs strftime c axes h1 h2 es h3 1).1 3 4 h4).1]; rfl

end Reliability.Props.Crosshairs
