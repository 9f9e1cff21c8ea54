import Mathlib.Data.List.Forall2
import Mathlib.Tactic.Linarith
import Mathlib.Tactic.NormNum
import Verif.Spec.Explorer

namespace Reliability.Props.Explorer

open Reliability Reliability.Explorer Reliability.Spec.Explorer

/-- The content after the five plots have been drawn. -/
def drawn (d : Made) (c : Panel → List Item) : Panel → List Item
  | .pdf => [.curve "PDF" d]
  | .cdf => [.curve "CDF" d]
  | .sf => [.curve "SF" d]
  | .hf => [.curve "HF" d]
  | .chf => [.curve "CHF" d]
  | .ax0 => c .ax0
  | .ax1 => c .ax1
  | .ax2 => c .ax2

theorem updateParams_eq {s : State} {d : Made} (h : distOf s = .ok d) :
    updateParams s = .ok { s with content := drawn d s.content, current := .chf, title := d } := by
  unfold updateParams
  rw [h]
  simp only [bind, Except.bind, Except.ok.injEq]
  simp only [redraw, drawCurve, cla, sca, addTo, State.mk.injEq, true_and, and_true]
  funext p
  cases p <;> simp [drawn]

theorem distOf_congr {s t : State} (h : s.name = t.name) (h0 : s.s0.val = t.s0.val) (h1 : s.s1.val = t.s1.val)
    (h2 : s.s2.val = t.s2.val) : distOf s = distOf t := by
  simp only [distOf, h, h0, h1, h2]

theorem times_updateParams {s : State} {d : Made} (h : distOf s = .ok d) (n : ℕ) :
    times (n + 1) updateParams s = .ok { s with content := drawn d s.content, current := .chf, title := d } := by
  induction n generalizing s with
  | zero => simp only [times, updateParams_eq h]; rfl
  | succ n ih =>
    rw [times, updateParams_eq h]
    show times (n + 1) updateParams { s with content := drawn d s.content, current := .chf, title := d } = _
    rw [ih (s := { s with content := drawn d s.content, current := .chf, title := d }) ((distOf_congr rfl rfl rfl rfl).trans h)]
    rw [Except.ok.injEq]
    simp only [State.mk.injEq, true_and, and_true]
    funext p
    cases p <;> rfl

/-- What holds of the window at all times. -/
structure Inv (s : State) : Prop where
  con : Consistent s
  name : s.name = s.selected
  clickers : s.clickers = 1
  o0 : s.s0.observers ≠ 0
  o1 : s.s1.observers ≠ 0
  o2 : s.s2.observers ≠ 0

theorem mem_labels {l : String} (h : l ∈ labels) :
    l = "Weibull" ∨ l = "Gamma" ∨ l = "Normal" ∨ l = "Lognormal" ∨ l = "Beta" ∨ l = "Exponential" ∨ l = "Loglogistic" ∨ l = "Gumbel" := by
  simpa [labels] using h

/-- A click: the window afterwards. -/
theorem click_spec (s : State) {l : String} (hl : l ∈ labels) (hs : s.selected = l) (o2 : s.s2.observers ≠ 0) (hc : s.clickers = 1) :
    ∃ t, updateDistribution l s = .ok t ∧ Inv t ∧ t.selected = l ∧ values t = (params l).map (·.start) := by
  rcases mem_labels hl with rfl | rfl | rfl | rfl | rfl | rfl | rfl | rfl
  all_goals
    unfold updateDistribution switch
    simp (config := { decide := true }) only [if_true, if_false]
    simp only [bind, Except.bind]
    rw [updateParams_eq (by simp (config := { decide := true }) only [distOf, reset0, reset1, reset2, hide2, cla, sca, addTo, if_true, if_false]; rfl)]
    refine ⟨_, rfl, ⟨⟨by simp [interactive, hs, reset0, reset1, reset2, hide2, cla, sca, addTo], ?_, ?_⟩, ?_, ?_, ?_, ?_, ?_⟩, ?_, ?_⟩
    · simp [Controls, sliders, interactive, hs, params, reset0, reset1, reset2, hide2, cla, sca, addTo, newSlider, drawn]
      norm_num
    · simp [interactive, hs, values, sliders, params, reset0, reset1, reset2, hide2, cla, sca, addTo, newSlider, drawn, Is, Shows, Valid] <;> norm_num
    all_goals simp [interactive, hs, hc, values, sliders, params, reset0, reset1, reset2, hide2, cla, sca, addTo, newSlider]
  all_goals norm_num

/-- `__update_params` after a slider has moved: the window afterwards. -/
theorem moved_spec (s : State) (h : Inv s) (s' : State) (hn : s'.name = s.name) (hsel : s'.selected = s.selected)
    (hv : s'.ax2visible = s.ax2visible) (hcl : s'.clickers = s.clickers) (hct : s'.content = s.content)
    (e0 : s'.s0.label = s.s0.label ∧ s'.s0.valmin = s.s0.valmin ∧ s'.s0.valmax = s.s0.valmax ∧ s'.s0.observers = s.s0.observers ∧
      (s.s0.valmin ≤ s'.s0.val ∧ s'.s0.val ≤ s.s0.valmax))
    (e1 : s'.s1.label = s.s1.label ∧ s'.s1.valmin = s.s1.valmin ∧ s'.s1.valmax = s.s1.valmax ∧ s'.s1.observers = s.s1.observers ∧
      (s.s1.valmin ≤ s'.s1.val ∧ s'.s1.val ≤ s.s1.valmax))
    (e2 : s'.s2.label = s.s2.label ∧ s'.s2.valmin = s.s2.valmin ∧ s'.s2.valmax = s.s2.valmax ∧ s'.s2.observers = s.s2.observers ∧
      (s.ax2visible = true → s.s2.valmin ≤ s'.s2.val ∧ s'.s2.val ≤ s.s2.valmax))
    (n : ℕ) (hn0 : n ≠ 0) : ∃ t, times n updateParams s' = .ok t ∧ Inv t ∧ t.selected = s.selected ∧ values t = values s' := by
  obtain ⟨n, rfl⟩ := Nat.exists_eq_succ_of_ne_zero hn0
  obtain ⟨⟨hl, hc, -⟩, hname, hcli, o0, o1, o2⟩ := h
  obtain ⟨a0, b0, c0, d0, f0⟩ := e0
  obtain ⟨a1, b1, c1, d1, f1⟩ := e1
  obtain ⟨a2, b2, c2, d2, f2⟩ := e2
  have hl' : s.selected ∈ labels := hl
  have key : ∃ d, distOf s' = .ok d ∧ Controls { s' with content := drawn d s'.content, current := .chf, title := d } (params s.selected) ∧
      Is s.selected (values s') d ∧ Valid d := by
    rw [hname] at hn
    unfold Controls sliders at hc ⊢
    rw [← hv] at hc
    rw [← hv] at f2
    rcases mem_labels hl' with e | e | e | e | e | e | e | e <;> rw [e] at hc hn ⊢ <;> cases hvis : s'.ax2visible <;>
      simp only [hvis, params, List.cons_append, List.nil_append, if_true, if_false, Bool.false_eq_true, List.forall₂_cons,
        List.forall₂_nil_left_iff, List.forall₂_nil_right_iff, reduceCtorEq, and_false, and_true, forall_const, forall_false] at hc f2 <;>
      simp (config := { decide := true }) only [distOf, hn, if_true, if_false, Except.ok.injEq, exists_eq_left'] <;>
      simp only [hvis, params, values, sliders, Is, Valid, a0, b0, c0, a1, b1, c1, a2, b2, c2, hct, drawn, hc,
        List.cons_append, List.nil_append, if_true, if_false, Bool.false_eq_true, List.forall₂_cons,
        List.Forall₂.nil, and_true, true_and, List.map_cons, List.map_nil] <;>
      simp only [hc] at f0 f1 f2 <;>
      norm_num at f0 f1 f2 ⊢ <;> refine ⟨?_, ?_⟩ <;> (try refine ⟨⟨?_, ?_⟩, ?_, ?_⟩) <;> (try refine ⟨?_, ?_, ?_⟩) <;> (try refine ⟨?_, ?_⟩) <;> (try constructor) <;> linarith [f0.1, f0.2, f1.1, f1.2]
  obtain ⟨d, hd, hctl, his, hval⟩ := key
  refine ⟨_, times_updateParams hd n, ⟨⟨?_, ?_, d, ?_, hval, ?_⟩, ?_, ?_, ?_, ?_, ?_⟩, hsel, rfl⟩
  · show s'.selected ∈ _
    rw [hsel]; exact hl
  · show Controls _ (params s'.selected)
    rw [hsel]; exact hctl
  · show Is s'.selected _ d
    rw [hsel]; exact his
  · exact ⟨rfl, rfl, rfl, rfl, rfl, rfl⟩
  · show s'.name = s'.selected
    rw [hn, hsel, hname]
  · exact hcl.trans hcli
  · show s'.s0.observers ≠ 0
    rw [d0]; exact o0
  · show s'.s1.observers ≠ 0
    rw [d1]; exact o1
  · show s'.s2.observers ≠ 0
    rw [d2]; exact o2

/-- The position to which a slider goes if the mouse is at `x`: the nearest one in its range. -/
noncomputable def nearest (lo hi x : ℝ) : ℝ := max lo (min x hi)

theorem nearest_mem {lo hi v : ℝ} (x : ℝ) (h1 : lo ≤ v) (h2 : v ≤ hi) : lo ≤ nearest lo hi x ∧ nearest lo hi x ≤ hi :=
  ⟨le_max_left _ _, max_le (h1.trans h2) (min_le_right _ _)⟩

theorem forall2_mem {α β : Type} {R : α → β → Prop} {l : List α} {m : List β} (h : List.Forall₂ R l m) :
    ∀ a ∈ l, ∃ b ∈ m, R a b := by
  induction h with
  | nil => simp
  | cons hr _ ih =>
    intro a ha
    rcases List.mem_cons.1 ha with rfl | ha
    · exact ⟨_, by simp, hr⟩
    · obtain ⟨b, hb, h⟩ := ih a ha; exact ⟨b, by simp [hb], h⟩

theorem forall2_get {α β : Type} {R : α → β → Prop} {l : List α} {m : List β} (h : List.Forall₂ R l m) :
    ∀ (i : ℕ) a b, l[i]? = some a → m[i]? = some b → R a b := by
  induction h with
  | nil => simp
  | cons hr _ ih =>
    intro i a b ha hb
    cases i with
    | zero =>
      simp only [List.getElem?_cons_zero, Option.some.injEq] at ha hb
      subst ha hb; exact hr
    | succ i => exact ih i a b (by simpa using ha) (by simpa using hb)

theorem ranges {s : State} (h : Inv s) : (s.s0.valmin ≤ s.s0.val ∧ s.s0.val ≤ s.s0.valmax) ∧
    (s.s1.valmin ≤ s.s1.val ∧ s.s1.val ≤ s.s1.valmax) ∧
    (s.ax2visible = true → s.s2.valmin ≤ s.s2.val ∧ s.s2.val ≤ s.s2.valmax) := by
  have hc := h.con.2.1
  unfold Controls at hc
  have all : ∀ t ∈ sliders s, t.2.valmin ≤ t.2.val ∧ t.2.val ≤ t.2.valmax := by
    intro t ht
    obtain ⟨p, -, hp⟩ := forall2_mem hc t ht
    rw [hp.2.1, hp.2.2.1]
    exact ⟨hp.2.2.2.1, hp.2.2.2.2.1⟩
  refine ⟨all (.ax0, s.s0) (by simp [sliders]), all (.ax1, s.s1) (by simp [sliders]), fun hv => all (.ax2, s.s2) (by simp [sliders, hv])⟩

theorem drag_step {s : State} (h : Inv s) (i : Fin 3) (x : ℝ) :
    ∃ t, drag i x s = .ok t ∧ Inv t ∧ t.selected = s.selected ∧
      (∀ p, i.1 < (values s).length → (params s.selected)[i.1]? = some p → values t = (values s).set i.1 (nearest p.lo p.hi x)) ∧
      ((values s).length ≤ i.1 → t = s) := by
  have hc := h.con.2.1
  unfold Controls at hc
  obtain ⟨r0, r1, r2⟩ := ranges h
  match i with
  | 0 =>
    have hp : ∀ p, (params s.selected)[0]? = some p → s.s0.valmin = p.lo ∧ s.s0.valmax = p.hi := fun p hp =>
      have := forall2_get hc 0 (.ax0, s.s0) p rfl hp
      ⟨this.2.1, this.2.2.1⟩
    show ∃ t, (if nearest s.s0.valmin s.s0.valmax x = s.s0.val then .ok s else times s.s0.observers updateParams { s with s0 := { s.s0 with val := nearest s.s0.valmin s.s0.valmax x } }) = Except.ok t ∧ _
    by_cases hx : nearest s.s0.valmin s.s0.valmax x = s.s0.val
    · rw [if_pos hx]
      refine ⟨s, rfl, h, rfl, fun p _ hp' => ?_, fun _ => rfl⟩
      rw [← (hp p hp').1, ← (hp p hp').2, hx]
      rfl
    · rw [if_neg hx]
      obtain ⟨t, ht, hi, hsel, hval⟩ := moved_spec s h { s with s0 := { s.s0 with val := nearest s.s0.valmin s.s0.valmax x } } rfl rfl rfl rfl rfl
        ⟨rfl, rfl, rfl, rfl, nearest_mem x r0.1 r0.2⟩ ⟨rfl, rfl, rfl, rfl, r1⟩ ⟨rfl, rfl, rfl, rfl, r2⟩ s.s0.observers h.o0
      refine ⟨t, ht, hi, hsel, fun p _ hp' => ?_, fun hlen => absurd hlen (by simp [values, sliders])⟩
      rw [hval, ← (hp p hp').1, ← (hp p hp').2]
      rfl
  | 1 =>
    have hp : ∀ p, (params s.selected)[1]? = some p → s.s1.valmin = p.lo ∧ s.s1.valmax = p.hi := fun p hp =>
      have := forall2_get hc 1 (.ax1, s.s1) p rfl hp
      ⟨this.2.1, this.2.2.1⟩
    show ∃ t, (if nearest s.s1.valmin s.s1.valmax x = s.s1.val then .ok s else times s.s1.observers updateParams { s with s1 := { s.s1 with val := nearest s.s1.valmin s.s1.valmax x } }) = Except.ok t ∧ _
    by_cases hx : nearest s.s1.valmin s.s1.valmax x = s.s1.val
    · rw [if_pos hx]
      refine ⟨s, rfl, h, rfl, fun p _ hp' => ?_, fun _ => rfl⟩
      rw [← (hp p hp').1, ← (hp p hp').2, hx]
      rfl
    · rw [if_neg hx]
      obtain ⟨t, ht, hi, hsel, hval⟩ := moved_spec s h { s with s1 := { s.s1 with val := nearest s.s1.valmin s.s1.valmax x } } rfl rfl rfl rfl rfl
        ⟨rfl, rfl, rfl, rfl, r0⟩ ⟨rfl, rfl, rfl, rfl, nearest_mem x r1.1 r1.2⟩ ⟨rfl, rfl, rfl, rfl, r2⟩ s.s1.observers h.o1
      refine ⟨t, ht, hi, hsel, fun p _ hp' => ?_, fun hlen => absurd hlen (by simp [values, sliders])⟩
      rw [hval, ← (hp p hp').1, ← (hp p hp').2]
      rfl
  | 2 =>
    show ∃ t, (if s.ax2visible = false then .ok s else if nearest s.s2.valmin s.s2.valmax x = s.s2.val then .ok s else times s.s2.observers updateParams { s with s2 := { s.s2 with val := nearest s.s2.valmin s.s2.valmax x } }) = Except.ok t ∧ _
    by_cases hv : s.ax2visible = false
    · rw [if_pos hv]
      exact ⟨s, rfl, h, rfl, fun p hlen _ => absurd hlen (by simp [values, sliders, hv]), fun _ => rfl⟩
    · rw [if_neg hv]
      have hv' : s.ax2visible = true := by simpa using hv
      have hs : sliders s = [(.ax0, s.s0), (.ax1, s.s1), (.ax2, s.s2)] := by simp [sliders, hv']
      have hp : ∀ p, (params s.selected)[2]? = some p → s.s2.valmin = p.lo ∧ s.s2.valmax = p.hi := fun p hp =>
        have := forall2_get hc 2 (.ax2, s.s2) p (by rw [hs]; rfl) hp
        ⟨this.2.1, this.2.2.1⟩
      by_cases hx : nearest s.s2.valmin s.s2.valmax x = s.s2.val
      · rw [if_pos hx]
        refine ⟨s, rfl, h, rfl, fun p _ hp' => ?_, fun _ => rfl⟩
        rw [← (hp p hp').1, ← (hp p hp').2, hx]
        unfold values
        rw [hs]
        rfl
      · rw [if_neg hx]
        obtain ⟨t, ht, hi, hsel, hval⟩ := moved_spec s h { s with s2 := { s.s2 with val := nearest s.s2.valmin s.s2.valmax x } } rfl rfl rfl rfl rfl
          ⟨rfl, rfl, rfl, rfl, r0⟩ ⟨rfl, rfl, rfl, rfl, r1⟩ ⟨rfl, rfl, rfl, rfl, fun hv => nearest_mem x (r2 hv).1 (r2 hv).2⟩ s.s2.observers h.o2
        refine ⟨t, ht, hi, hsel, fun p _ hp' => ?_, fun hlen => absurd hlen (by simp [values, hs])⟩
        rw [hval, ← (hp p hp').1, ← (hp p hp').2]
        unfold values
        rw [hs]
        simp [sliders, hv']

theorem click_step {s : State} (h : Inv s) {l : String} (hl : l ∈ labels) :
    ∃ t, step s (.click l) = .ok t ∧ Inv t ∧ t.selected = l ∧ values t = (params l).map (·.start) := by
  obtain ⟨t, ht, hi, h1, h2⟩ := click_spec { s with selected := l } hl rfl h.o2 h.clickers
  refine ⟨t, ?_, hi, h1, h2⟩
  have : step s (.click l) = times s.clickers (updateDistribution l) { s with selected := l } := if_pos hl
  rw [this]
  have h1 : ∀ n, n = 1 → times n (updateDistribution l) { s with selected := l } = .ok t := by
    rintro n rfl
    rw [times, ht]
    rfl
  exact h1 _ h.clickers

theorem step_inv {s : State} (h : Inv s) (e : Event) : ∃ t, step s e = .ok t ∧ Inv t := by
  cases e with
  | drag i x => obtain ⟨t, ht, hi, -⟩ := drag_step h i x; exact ⟨t, ht, hi⟩
  | click l =>
    by_cases hl : l ∈ labels
    · obtain ⟨t, ht, hi, -⟩ := click_step h hl; exact ⟨t, ht, hi⟩
    · exact ⟨s, by simp only [step, if_neg hl], h⟩

theorem init_inv : Inv init := by
  refine ⟨⟨by simp [init, interactive, drawCurve, addTo, sca], ?_, .weibull 100 2 0, ?_, ?_, ?_⟩, ?_, ?_, ?_, ?_, ?_⟩
  · simp [init, Controls, sliders, interactive, params, sca, addTo, newSlider, drawCurve]
    norm_num
  · simp [init, Is, values, sliders, interactive, params, sca, addTo, newSlider, drawCurve]
    norm_num
  · simp [Valid]
  · simp [init, Shows, sliders, interactive, params, sca, addTo, newSlider, drawCurve]
  all_goals simp [init, interactive, drawCurve, addTo, sca]

theorem run_inv (es : List Event) {s : State} (h : Inv s) : ∃ t, run s es = .ok t ∧ Inv t := by
  induction es generalizing s with
  | nil => exact ⟨s, rfl, h⟩
  | cons e es ih =>
    obtain ⟨t, ht, hi⟩ := step_inv h e
    obtain ⟨u, hu, hj⟩ := ih hi
    exact ⟨u, by simp only [run, ht]; exact hu, hj⟩

theorem run_append (es fs : List Event) (s : State) : run s (es ++ fs) = (do let t ← run s es; run t fs) := by
  induction es generalizing s with
  | nil => rfl
  | cons e es ih =>
    simp only [List.cons_append, run]
    cases step s e with
    | error e => rfl
    | ok t => exact ih t

/-- **C136 (consistency).** After any history of dragged sliders and clicked buttons, and never with an error: the sliders are
those of the parameters of the selected distribution, each within its range; the five plots and the title show that
distribution with the values of the sliders, and nothing else; and the parameters are valid. -/
theorem C136_consistent (es : List Event) : ∃ s, run init es = .ok s ∧ Consistent s := by
  obtain ⟨s, hs, h⟩ := run_inv es init_inv
  exact ⟨s, hs, h.con⟩

/-- **C136 (selecting).** A click on a distribution shows it with its first values, whatever has happened before. -/
theorem C136_click (es : List Event) (l : String)
    (hl : l ∈ ["Weibull", "Gamma", "Normal", "Lognormal", "Beta", "Exponential", "Loglogistic", "Gumbel"]) :
    ∃ s, run init (es ++ [.click l]) = .ok s ∧ s.selected = l ∧
      ∃ d, Is l ((params l).map (·.start)) d ∧ Shows s d := by
  obtain ⟨s, hs, h⟩ := run_inv es init_inv
  obtain ⟨t, ht, hi, h1, h2⟩ := click_step h hl
  obtain ⟨-, -, d, hd, -, hsh⟩ := hi.con
  refine ⟨t, ?_, h1, d, by rw [← h2, ← h1]; exact hd, hsh⟩
  rw [run_append, hs]
  show run s [.click l] = _
  simp only [run, ht]
  rfl

/-- **C136 (dragging).** After any history: dragging a slider that can be seen sets its parameter to the nearest value in its
range, and leaves the selected distribution and the other parameters as they are; dragging where no slider can be seen
changes nothing. -/
theorem C136_drag (es : List Event) (i : Fin 3) (x : ℝ) (s : State) (hs : run init es = .ok s) :
    ∃ t, run init (es ++ [.drag i x]) = .ok t ∧ t.selected = s.selected ∧
      (∀ p, (params s.selected)[i.1]? = some p →
        ∃ d, Is s.selected ((values s).set i.1 (max p.lo (min x p.hi))) d ∧ Shows t d ∧
          values t = (values s).set i.1 (max p.lo (min x p.hi))) ∧
      ((params s.selected).length ≤ i.1 → t = s) := by
  obtain ⟨s', hs', h⟩ := run_inv es init_inv
  rw [hs, Except.ok.injEq] at hs'
  subst hs'
  obtain ⟨t, ht, hi, h1, h2, h3⟩ := drag_step h i x
  have hlen : (values s).length = (params s.selected).length := by
    have := h.con.2.1.length_eq
    simpa [values] using this
  refine ⟨t, ?_, h1, fun p hp => ?_, fun hl => h3 (hlen ▸ hl)⟩
  · rw [run_append, hs]
    show run s [.drag i x] = _
    simp only [run, step, ht]
    rfl
  · obtain ⟨-, -, d, hd, -, hsh⟩ := hi.con
    have hv := h2 p (by rw [hlen]; exact (List.getElem?_eq_some_iff.1 hp).1) hp
    refine ⟨d, ?_, hsh, hv⟩
    rw [show (values s).set i.1 (max p.lo (min x p.hi)) = values t from hv.symm, ← h1]
    exact hd

/-- A history: the Lognormal is selected, its sigma dragged to the right end, and its gamma to 7; then the Normal is selected
and the place of the slider that is now hidden dragged: the Normal with its first values is shown. -/
example : (∃ s, run init [.click "Lognormal", .drag 1 99, .drag 2 7] = .ok s ∧ Shows s (.lognormal 2.5 2 7)) ∧
    ∃ s, run init [.click "Lognormal", .drag 1 99, .drag 2 7, .click "Normal", .drag 2 300] = .ok s ∧ Shows s (.normal 0 10) := by
  have lo : "Lognormal" ∈ ["Weibull", "Gamma", "Normal", "Lognormal", "Beta", "Exponential", "Loglogistic", "Gumbel"] := by simp
  have no : "Normal" ∈ ["Weibull", "Gamma", "Normal", "Lognormal", "Beta", "Exponential", "Loglogistic", "Gumbel"] := by simp
  constructor
  · obtain ⟨s, hs, hsel, d, hd, hsh⟩ := C136_click [] "Lognormal" lo
    obtain ⟨s', hs', h⟩ := run_inv ([] ++ [.click "Lognormal"]) init_inv
    rw [hs, Except.ok.injEq] at hs'
    subst hs'
    have hv : values s = [5 / 2, 1 / 2, 0] := by
      obtain ⟨t, ht, -, h1, h2⟩ := click_step init_inv lo
      have : run init ([] ++ [.click "Lognormal"]) = .ok t := by simp only [List.nil_append, run, ht]; rfl
      rw [hs, Except.ok.injEq] at this
      subst this
      rw [h2]; rfl
    obtain ⟨t, ht, ts, t1, -⟩ := C136_drag _ 1 99 s hs
    obtain ⟨-, -, -, hvt⟩ := t1 ⟨"Sigma", 1 / 100, 2, 1 / 2⟩ (by rw [hsel]; rfl)
    obtain ⟨u, hu, us, u1, -⟩ := C136_drag _ 2 7 t ht
    obtain ⟨d, hd, hsh, hvu⟩ := u1 ⟨"Gamma", 0, 500, 0⟩ (by rw [ts, hsel]; rfl)
    refine ⟨u, hu, ?_⟩
    rw [ts, hsel, hvt, hv] at hd
    have : (([5 / 2, 1 / 2, 0] : List ℝ).set (1 : Fin 3).1 (max (1 / 100) (min 99 2))).set (2 : Fin 3).1 (max 0 (min 7 500)) = [5 / 2, 2, 7] := by
      norm_num
    rw [this] at hd
    have e : d = .lognormal (5 / 2) 2 7 := hd
    rw [e] at hsh
    norm_num at hsh ⊢
    exact hsh
  · obtain ⟨s, hs, hsel, d, hd, hsh⟩ := C136_click [.click "Lognormal", .drag 1 99, .drag 2 7] "Normal" no
    obtain ⟨t, ht, -, -, h⟩ := C136_drag _ 2 300 s hs
    refine ⟨t, ht, ?_⟩
    rw [h (by rw [hsel]; simp [params])]
    have e : d = .normal 0 10 := hd
    rw [← e]; exact hsh

end Reliability.Props.Explorer
