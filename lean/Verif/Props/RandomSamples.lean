import Mathlib.Tactic.Linarith
import Mathlib.Tactic.Positivity
import Mathlib.Tactic.NormNum
import Mathlib.Analysis.SpecialFunctions.Exp
import Verif.Model.RandomSamples
import Verif.Spec.Explorer

namespace Reliability.Props.RandomSamples

open Reliability Reliability.Explorer Reliability.RandomSamples Reliability.Spec.Explorer

/-! ## Specification -/

/-- What is assumed of numpy's and scipy's generator: it draws as many numbers as it is asked for, from the support of the
standard family. -/
structure Draws (g : Rng) : Prop where
  length : ∀ f n s, (g.draw f n s).1.length = n
  weibull : ∀ c n s, ∀ x ∈ (g.draw (.weibull_min c) n s).1, 0 ≤ x
  lognorm : ∀ c n s, ∀ x ∈ (g.draw (.lognorm c) n s).1, 0 ≤ x
  expon : ∀ n s, ∀ x ∈ (g.draw .expon n s).1, 0 ≤ x
  gamma : ∀ c n s, ∀ x ∈ (g.draw (.gamma c) n s).1, 0 ≤ x
  fisk : ∀ c n s, ∀ x ∈ (g.draw (.fisk c) n s).1, 0 ≤ x
  beta : ∀ a b n s, ∀ x ∈ (g.draw (.beta a b) n s).1, 0 ≤ x ∧ x ≤ 1

/-- The values a distribution can take (for Beta without 1, which the fitters do not accept). -/
def Support : Made → ℝ → Prop
  | .weibull _ _ g, x => g ≤ x
  | .gamma _ _ g, x => g ≤ x
  | .loglogistic _ _ g, x => g ≤ x
  | .lognormal _ _ g, x => g ≤ x
  | .exponential _ g, x => g ≤ x
  | .beta _ _, x => 0 ≤ x ∧ x < 1
  | .normal _ _, _ => True
  | .gumbel _ _, _ => True

/-- The standard member of the family of a distribution. -/
def standard : Made → Made
  | .weibull _ b _ => .weibull 1 b 0
  | .gamma _ b _ => .gamma 1 b 0
  | .loglogistic _ b _ => .loglogistic 1 b 0
  | .lognormal _ s _ => .lognormal 0 s 0
  | .exponential _ _ => .exponential 1 0
  | .beta a b => .beta a b
  | .normal _ _ => .normal 0 1
  | .gumbel _ _ => .gumbel 0 1

/-- How a value of the standard member becomes one of the distribution: scaled and shifted. -/
noncomputable def place : Made → ℝ → ℝ
  | .weibull a _ g, x => g + a * x
  | .gamma a _ g, x => g + a * x
  | .loglogistic a _ g, x => g + a * x
  | .lognormal m _ g, x => g + Real.exp m * x
  | .exponential l g, x => g + x / l
  | .beta _ _, x => x
  | .normal m s, x => m + s * x
  | .gumbel m s, x => m + s * x

/-- The arguments are accepted: at least one sample, and a seed that numpy takes. -/
def Accepted (number : Number) (seed : Option ℤ) : Prop :=
  (∃ n, number = .int n ∧ 1 ≤ n) ∧ ∀ k, seed = some k → 0 ≤ k ∧ k < 2 ^ 32

/-! ## Lemmas -/

theorem callOf_ok {d : Made} (h : Valid d) : (callOf d).1.shapesOk ∧ 0 < (callOf d).2.2 := by
  cases d with
  | weibull a b g => exact ⟨h.2.1, h.1⟩
  | gamma a b g => exact ⟨h.2.1, h.1⟩
  | loglogistic a b g => exact ⟨h.2.1, h.1⟩
  | lognormal m s g => exact ⟨h.1, Real.exp_pos m⟩
  | normal m s => exact ⟨trivial, h⟩
  | gumbel m s => exact ⟨trivial, h⟩
  | exponential l g => exact ⟨trivial, one_div_pos.2 h.1⟩
  | beta a b => exact ⟨h, one_pos⟩

theorem rvs_ok (g : Rng) {f : Std} {loc scale : ℝ} (hf : f.shapesOk) (hs : 0 < scale) (n : ℕ) (s : g.State) :
    rvs g f loc scale n s = .ok ((g.draw f n s).1.map (fun x => x * scale + loc), (g.draw f n s).2) := by
  unfold rvs
  rw [if_neg (not_not.2 ⟨hf, hs.le⟩), if_neg hs.ne']

theorem rvs_beta (g : Rng) {a b : ℝ} (h : 0 < a ∧ 0 < b) (n : ℕ) (s : g.State) :
    rvs g (.beta a b) 0 1 n s = .ok (g.draw (.beta a b) n s) := by
  rw [rvs_ok g (f := .beta a b) h one_pos]
  simp

theorem sampleCount_cases (number : Number) : (∃ n : ℕ, 1 ≤ n ∧ number = .int n ∧ sampleCount number = .ok n) ∨
    ((¬ ∃ n, number = .int n ∧ 1 ≤ n) ∧ sampleCount number = .error .valueError) := by
  cases number with
  | other => exact .inr ⟨(by rintro ⟨n, h, -⟩; cases h), rfl⟩
  | int n =>
    by_cases h : n < 1
    · refine .inr ⟨?_, if_pos h⟩
      rintro ⟨m, hm, h1⟩
      cases hm
      omega
    · exact .inl ⟨n.toNat, by omega, by rw [Int.toNat_of_nonneg (by omega)], if_neg h⟩

theorem reseed_cases (g : Rng) (seed : Option ℤ) (s : g.State) :
    ((∀ k, seed = some k → 0 ≤ k ∧ k < 2 ^ 32) ∧ ∃ t, reseed g seed s = .ok t) ∨
    ((¬ ∀ k, seed = some k → 0 ≤ k ∧ k < 2 ^ 32) ∧ reseed g seed s = .error .valueError) := by
  cases seed with
  | none => exact .inl ⟨nofun, s, rfl⟩
  | some k =>
    by_cases h : 0 ≤ k ∧ k < 2 ^ 32
    · exact .inl ⟨by rintro _ ⟨⟩; exact h, _, if_pos h⟩
    · exact .inr ⟨fun hh => h (hh k rfl), if_neg h⟩

theorem reseed_some (g : Rng) {k : ℤ} (h : 0 ≤ k ∧ k < 2 ^ 32) (s : g.State) : reseed g (some k) s = .ok (g.seed k.toNat) := if_pos h

/-- The result of an accepted call, but for the loop of Beta. -/
theorem samples_eq (g : Rng) (fuel : ℕ) {d : Made} (hd : Valid d) {number : Number} {n : ℕ} (hn : sampleCount number = .ok n)
    {seed : Option ℤ} {s t : g.State} (ht : reseed g seed s = .ok t) :
    randomSamples g fuel d number seed s =
      match d with
      | .beta a b => resample g a b n fuel (g.draw (.beta a b) n t).1 (g.draw (.beta a b) n t).2
      | _ => some (.ok ((g.draw (callOf d).1 n t).1.map (fun x => x * (callOf d).2.2 + (callOf d).2.1), (g.draw (callOf d).1 n t).2)) := by
  obtain ⟨h1, h2⟩ := callOf_ok hd
  have hr := rvs_ok g (loc := (callOf d).2.1) h1 h2 n t
  unfold randomSamples
  simp only [hn, ht, hr]
  cases d <;> first | rfl | skip
  simp [callOf]

theorem resample_spec (g : Rng) (hg : Draws g) {a b : ℝ} (hab : 0 < a ∧ 0 < b) (n : ℕ) :
    ∀ (fuel : ℕ) (l : List ℝ) (s : g.State) r, l.length = n → (∀ x ∈ l, 0 ≤ x ∧ x ≤ 1) →
      resample g a b n fuel l s = some r → ∃ m t, r = .ok (m, t) ∧ m.length = n ∧ (∀ x ∈ m, 0 ≤ x ∧ x < 1) ∧
        l.filter (fun x => decide (x < 1)) <+: m := by
  intro fuel
  induction fuel with
  | zero => intro l s r _ _ h; cases h
  | succ fuel ih =>
    intro l s r hl hx h
    have hle : (l.filter (fun x => decide (x < 1))).length ≤ n := hl ▸ List.length_filter_le _ _
    rw [resample] at h
    split_ifs at h with hlt
    · rw [rvs_beta g hab] at h
      obtain ⟨m, t, e, h1, h2, h3⟩ := ih _ _ r (by rw [List.length_append, hg.length]; omega) (by
        intro x hx'
        rcases List.mem_append.1 hx' with h' | h'
        · exact hx x (List.mem_filter.1 h').1
        · exact hg.beta _ _ _ _ x h') h
      refine ⟨m, t, e, h1, h2, ?_⟩
      rw [List.filter_append, List.filter_filter] at h3
      simp only [Bool.and_self] at h3
      exact (List.prefix_append _ _).trans h3
    · cases h
      refine ⟨_, _, rfl, by omega, fun x hx' => ?_, List.prefix_rfl⟩
      rw [List.mem_filter, decide_eq_true_eq] at hx'
      exact ⟨(hx x hx'.1).1, hx'.2⟩

theorem resample_more (g : Rng) (a b : ℝ) (n : ℕ) : ∀ (fuel : ℕ) (l : List ℝ) (s : g.State) r,
    resample g a b n fuel l s = some r → ∀ more, resample g a b n (fuel + more) l s = some r := by
  intro fuel
  induction fuel with
  | zero => intro l s r h; cases h
  | succ fuel ih =>
    intro l s r h more
    rw [resample] at h
    rw [Nat.add_right_comm, resample]
    split_ifs at h ⊢ with hlt
    · cases hr : rvs g (.beta a b) 0 1 (n - (l.filter (fun x => decide (x < 1))).length) s with
      | error e => rw [hr] at h; exact h
      | ok p => rw [hr] at h; exact ih _ _ r h more
    · exact h

theorem resample_ends (g : Rng) {a b : ℝ} (hab : 0 < a ∧ 0 < b)
    (hone : ∀ m s, 1 ≤ m → ∃ x ∈ (g.draw (.beta a b) m s).1, x < 1) (n : ℕ) :
    ∀ (k : ℕ) (l : List ℝ) (s : g.State), n ≤ (l.filter (fun x => decide (x < 1))).length + k →
      resample g a b n (k + 1) l s ≠ none := by
  intro k
  induction k with
  | zero =>
    intro l s h
    rw [resample]
    rw [if_neg (by omega)]
    nofun
  | succ k ih =>
    intro l s h
    rw [resample]
    split_ifs with hlt
    · rw [rvs_beta g hab]
      apply ih
      rw [List.filter_append, List.filter_filter, List.length_append]
      simp only [Bool.and_self]
      obtain ⟨x, hx, hx1⟩ := hone (n - (l.filter (fun x => decide (x < 1))).length) s (by omega)
      have : 0 < ((g.draw (.beta a b) (n - (l.filter (fun x => decide (x < 1))).length) s).1.filter (fun x => decide (x < 1))).length :=
        List.length_pos_of_mem (List.mem_filter.2 ⟨hx, by simpa using hx1⟩)
      refine le_trans ?_ (Nat.add_le_add_right (Nat.add_le_add_left this _) k)
      omega
    · nofun

/-! ## C137 -/

/-- **C137 (accepted).** A distribution with valid parameters gives samples exactly if at least one is asked for by an `int`, and
the seed (if there is one) is between 0 and 2³² - 1; otherwise it raises a ValueError. For Beta: if the loop that replaces
the ones ends. -/
theorem C137_accepts (g : Rng) (hg : Draws g) (fuel : ℕ) (d : Made) (hd : Valid d) (number : Number) (seed : Option ℤ) (s : g.State)
    (r : Except Err (List ℝ × g.State)) (h : randomSamples g fuel d number seed s = some r) :
    ((∃ l t, r = .ok (l, t)) ↔ Accepted number seed) ∧ (∀ e, r = .error e → e = .valueError) := by
  rcases sampleCount_cases number with ⟨n, h1, hn, hs⟩ | ⟨hno, hs⟩
  · rcases reseed_cases g seed s with ⟨ha, t, ht⟩ | ⟨ha, ht⟩
    · have hacc : Accepted number seed := ⟨⟨n, hn, by exact_mod_cast h1⟩, ha⟩
      rw [samples_eq g fuel hd hs ht] at h
      have key : ∃ l t, r = .ok (l, t) := by
        cases d with
        | beta a b =>
          obtain ⟨m, t', e, -⟩ := resample_spec g hg hd n fuel _ _ r (hg.length _ _ _) (fun x hx => hg.beta _ _ _ _ x hx) h
          exact ⟨m, t', e⟩
        | _ => cases h; exact ⟨_, _, rfl⟩
      refine ⟨⟨fun _ => hacc, fun _ => key⟩, ?_⟩
      obtain ⟨l, t, rfl⟩ := key
      nofun
    · have : r = .error .valueError := by
        unfold randomSamples at h
        simp only [hs, ht] at h
        cases h; rfl
      subst this
      refine ⟨⟨(by rintro ⟨_, _, h⟩; cases h), fun hh => absurd hh.2 ha⟩, ?_⟩
      rintro e ⟨⟩; rfl
  · have : r = .error .valueError := by
      unfold randomSamples at h
      simp only [hs] at h
      cases h; rfl
    subst this
    refine ⟨⟨(by rintro ⟨_, _, h⟩; cases h), fun hh => absurd hh.1 hno⟩, ?_⟩
    rintro e ⟨⟩; rfl

/-- **C137 (number and range).** There are exactly as many samples as asked for, and each is a value the distribution can take;
of a Beta distribution each is below 1. -/
theorem C137_samples (g : Rng) (hg : Draws g) (fuel : ℕ) (d : Made) (hd : Valid d) (number : Number) (seed : Option ℤ) (s t : g.State)
    (l : List ℝ) (h : randomSamples g fuel d number seed s = some (.ok (l, t))) :
    number = .int l.length ∧ ∀ x ∈ l, Support d x := by
  obtain ⟨⟨n', hn', h1⟩, -⟩ := (C137_accepts g hg fuel d hd number seed s _ h).1.1 ⟨l, t, rfl⟩
  rcases sampleCount_cases number with ⟨n, h1, hn, hs⟩ | ⟨hno, -⟩
  swap
  · exact absurd ⟨n', hn', h1⟩ hno
  rcases reseed_cases g seed s with ⟨ha, t0, ht⟩ | ⟨-, ht⟩
  swap
  · unfold randomSamples at h
    simp only [hs, ht] at h
    cases h
  rw [samples_eq g fuel hd hs ht] at h
  obtain ⟨-, hpos⟩ := callOf_ok hd
  have gen : ∀ {f : Std} {loc scale : ℝ}, 0 < scale → (∀ x ∈ (g.draw f n t0).1, 0 ≤ x) →
      ∀ y ∈ (g.draw f n t0).1.map (fun x => x * scale + loc), loc ≤ y := by
    intro f loc scale hp h0 y hy
    obtain ⟨x, hx, rfl⟩ := List.mem_map.1 hy
    have := mul_nonneg (h0 x hx) hp.le
    linarith
  cases d with
  | beta a b =>
    obtain ⟨m, t', e, hl, hb, -⟩ := resample_spec g hg hd n fuel _ _ _ (hg.length _ _ _) (fun x hx => hg.beta _ _ _ _ x hx) h
    cases e
    exact ⟨by rw [hl]; exact hn, hb⟩
  | weibull a b c => cases h; exact ⟨by rw [List.length_map, hg.length]; exact hn, gen hpos (hg.weibull b n t0)⟩
  | gamma a b c => cases h; exact ⟨by rw [List.length_map, hg.length]; exact hn, gen hpos (hg.gamma b n t0)⟩
  | loglogistic a b c => cases h; exact ⟨by rw [List.length_map, hg.length]; exact hn, gen hpos (hg.fisk b n t0)⟩
  | lognormal a b c => cases h; exact ⟨by rw [List.length_map, hg.length]; exact hn, gen hpos (hg.lognorm b n t0)⟩
  | exponential a c => cases h; exact ⟨by rw [List.length_map, hg.length]; exact hn, gen hpos (hg.expon n t0)⟩
  | normal a b => cases h; exact ⟨by rw [List.length_map, hg.length]; exact hn, fun _ _ => trivial⟩
  | gumbel a b => cases h; exact ⟨by rw [List.length_map, hg.length]; exact hn, fun _ _ => trivial⟩

/-- **C137 (parameters).** The samples are those that the standard member of the family gives with the same arguments, scaled and
shifted as the parameters say. -/
theorem C137_parameters (g : Rng) (fuel : ℕ) (d : Made) (hd : Valid d) (number : Number) (seed : Option ℤ) (s : g.State) :
    randomSamples g fuel d number seed s =
      (randomSamples g fuel (standard d) number seed s).map (fun r => r.map fun p => (p.1.map (place d), p.2)) := by
  have hst : Valid (standard d) := by
    cases d with
    | beta a b => exact hd
    | weibull a b c => exact ⟨one_pos, hd.2.1, le_rfl⟩
    | gamma a b c => exact ⟨one_pos, hd.2.1, le_rfl⟩
    | loglogistic a b c => exact ⟨one_pos, hd.2.1, le_rfl⟩
    | lognormal a b c => exact ⟨hd.1, le_rfl⟩
    | exponential a c => exact ⟨one_pos, le_rfl⟩
    | normal a b => exact one_pos
    | gumbel a b => exact one_pos
  rcases sampleCount_cases number with ⟨n, h1, hn, hs⟩ | ⟨hno, hs⟩
  · rcases reseed_cases g seed s with ⟨ha, t, ht⟩ | ⟨ha, ht⟩
    · rw [samples_eq g fuel hd hs ht, samples_eq g fuel hst hs ht]
      cases d with
      | beta a b =>
        show _ = Option.map (fun r : Except Err (List ℝ × g.State) => r.map fun p => (p.1.map id, p.2))
          (resample g a b n fuel (g.draw (.beta a b) n t).1 (g.draw (.beta a b) n t).2)
        simp only [List.map_id]
        cases resample g a b n fuel (g.draw (.beta a b) n t).1 (g.draw (.beta a b) n t).2 with
        | none => rfl
        | some r => cases r <;> rfl
      | _ =>
        simp only [standard, Option.map_some, Except.map, callOf, Option.some.injEq, Except.ok.injEq, Prod.mk.injEq, and_true, List.map_map]
        apply List.map_congr_left
        intro x _
        simp [place, Real.exp_zero, div_eq_mul_inv, mul_comm, add_comm]
    · unfold randomSamples
      simp only [hs, ht]
      rfl
  · unfold randomSamples
    simp only [hs]
    rfl

theorem samples_seeded (g : Rng) (fuel : ℕ) (d : Made) (number : Number) (k : ℤ) (s s' : g.State) :
    randomSamples g fuel d number (some k) s = randomSamples g fuel d number (some k) s' := by
  unfold randomSamples reseed
  rfl

theorem session_append (g : Rng) (fuel : ℕ) : ∀ (h cs : List Call) (s : g.State) rs t, session g fuel h s = some (rs, t) →
    session g fuel (h ++ cs) s = (session g fuel cs t).map fun p => (rs ++ p.1, p.2) := by
  intro h
  induction h with
  | nil =>
    intro cs s rs t e
    cases e
    show session g fuel cs s = _
    cases session g fuel cs s <;> rfl
  | cons c h ih =>
    intro cs s rs t e
    rw [List.cons_append]
    rw [session] at e ⊢
    cases hr : randomSamples g fuel c.dist c.number c.seed s with
    | none => rw [hr] at e; cases e
    | some r =>
      rw [hr] at e
      simp only at e ⊢
      rw [Option.map_eq_some_iff] at e
      obtain ⟨⟨rs', t'⟩, e1, e2⟩ := e
      simp only [Prod.mk.injEq] at e2
      obtain ⟨rfl, rfl⟩ := e2
      rw [ih cs _ rs' t' e1]
      cases session g fuel cs t' <;> rfl

/-- **C137 (reproducible).** The outcomes of a series of calls of which the first is accepted and has a seed (the later ones, of
any distributions, with or without), do not depend on what has been drawn before: after any history they are the same. -/
theorem C137_reproducible (g : Rng) (fuel : ℕ) (c : Call) (cs : List Call) (k : ℤ) (hk : c.seed = some k)
    (hacc : Accepted c.number c.seed) (h h' : List Call) (s s' : g.State) (rs rs' : List (Except Err (List ℝ))) (t t' : g.State)
    (h1 : session g fuel (h ++ c :: cs) s = some (rs, t)) (h2 : session g fuel (h' ++ c :: cs) s' = some (rs', t'))
    (e1 : ∃ p, session g fuel h s = some p) (e2 : ∃ p, session g fuel h' s' = some p) :
    rs.drop h.length = rs'.drop h'.length ∧ t = t' := by
  have len : ∀ (h : List Call) (s : g.State) rs t, session g fuel h s = some (rs, t) → rs.length = h.length := by
    intro h
    induction h with
    | nil => intro s rs t e; cases e; rfl
    | cons c h ih =>
      intro s rs t e
      unfold session at e
      cases hr : randomSamples g fuel c.dist c.number c.seed s with
      | none => rw [hr] at e; cases e
      | some r =>
        rw [hr] at e
        simp only [Option.map_eq_some_iff] at e
        obtain ⟨⟨rs', t'⟩, e1, e2⟩ := e
        simp only [Prod.mk.injEq] at e2
        rw [← e2.1, List.length_cons, ih _ _ _ e1, List.length_cons]
  have same : ∀ a b : g.State, session g fuel (c :: cs) a = session g fuel (c :: cs) b := by
    intro a b
    unfold session
    rw [hk, samples_seeded g fuel c.dist c.number k a b]
    cases randomSamples g fuel c.dist c.number (some k) b with
    | none => rfl
    | some r =>
      cases r with
      | ok p => rfl
      | error e =>
        rcases sampleCount_cases c.number with ⟨n, -, -, hs⟩ | ⟨hno, -⟩
        · simp only [hs, reseed_some g (hacc.2 k hk)]
        · exact absurd hacc.1 hno
  obtain ⟨⟨q, u⟩, e1⟩ := e1
  obtain ⟨⟨q', u'⟩, e2⟩ := e2
  rw [session_append g fuel h _ s q u e1] at h1
  rw [session_append g fuel h' _ s' q' u' e2, same u' u] at h2
  cases hc : session g fuel (c :: cs) u with
  | none => rw [hc] at h1; cases h1
  | some p =>
    rw [hc] at h1 h2
    simp only [Option.map_some, Option.some.injEq, Prod.mk.injEq] at h1 h2
    obtain ⟨rfl, rfl⟩ := h1
    obtain ⟨rfl, rfl⟩ := h2
    rw [← len h s q u e1, ← len h' s' q' u' e2, List.drop_left, List.drop_left]
    exact ⟨rfl, rfl⟩

/-- **C137 (refused calls).** A call that is refused because of the number of samples leaves the generator as it was, whatever the
seed. -/
theorem C137_refused (g : Rng) (fuel : ℕ) (c : Call) (s : g.State) (h : ¬ ∃ n, c.number = .int n ∧ 1 ≤ n) :
    session g fuel [c] s = some ([.error .valueError], s) := by
  rcases sampleCount_cases c.number with ⟨n, h1, hn, -⟩ | ⟨-, hs⟩
  · exact absurd ⟨n, hn, by exact_mod_cast h1⟩ h
  · unfold session randomSamples
    simp only [hs, session]
    rfl

/-- **C137 (Beta).** If every draw contains a number below 1, the loop ends: `n + 1` rounds suffice for `n` samples. The numbers
below 1 of the first draw are the first samples; and further rounds would not change the result. -/
theorem C137_beta (g : Rng) (hg : Draws g) (a b : ℝ) (hd : Valid (.beta a b)) (n : ℕ) (seed : Option ℤ) (s : g.State) :
    ((∀ m s, 1 ≤ m → ∃ x ∈ (g.draw (.beta a b) m s).1, x < 1) →
      ∃ r, randomSamples g (n + 1) (.beta a b) (.int n) seed s = some r) ∧
    ∀ fuel r, randomSamples g fuel (.beta a b) (.int n) seed s = some r →
      (∀ more, randomSamples g (fuel + more) (.beta a b) (.int n) seed s = some r) ∧
      ∀ l t u, r = .ok (l, t) → reseed g seed s = .ok u →
        ((g.draw (.beta a b) n u).1.filter fun x => decide (x < 1)) <+: l := by
  rcases sampleCount_cases (.int n) with ⟨m, h1, hm, hs⟩ | ⟨hno, hs⟩
  · cases hm
    rcases reseed_cases g seed s with ⟨ha, u, hu⟩ | ⟨ha, hu⟩
    · constructor
      · intro hone
        rw [samples_eq g _ hd hs hu]
        have := resample_ends g hd hone n n (g.draw (.beta a b) n u).1 (g.draw (.beta a b) n u).2 (by omega)
        exact Option.ne_none_iff_exists'.1 this
      · intro fuel r h
        rw [samples_eq g _ hd hs hu] at h
        refine ⟨fun more => ?_, ?_⟩
        · rw [samples_eq g _ hd hs hu]
          exact resample_more g a b n fuel _ _ r h more
        · rintro l t u' rfl hu'
          rw [hu, Except.ok.injEq] at hu'
          subst hu'
          obtain ⟨m, t', e, -, -, hp⟩ := resample_spec g hg hd n fuel _ _ _ (hg.length _ _ _) (fun x hx => hg.beta _ _ _ _ x hx) h
          cases e
          exact hp
    · have : ∀ fuel, randomSamples g fuel (.beta a b) (.int n) seed s = some (.error .valueError) := by
        intro fuel
        unfold randomSamples
        simp only [hs, hu]
      exact ⟨fun _ => ⟨_, this _⟩, fun fuel r h => ⟨fun more => (this _).trans ((this fuel).symm.trans h), fun l t u e hu' => by
        rw [hu] at hu'; cases hu'⟩⟩
  · have : ∀ fuel, randomSamples g fuel (.beta a b) (.int n) seed s = some (.error .valueError) := by
      intro fuel
      unfold randomSamples
      simp only [hs]
    exact ⟨fun _ => ⟨_, this _⟩, fun fuel r h => ⟨fun more => (this _).trans ((this fuel).symm.trans h), fun l t u e hu' => by
      rw [this, Option.some.injEq] at h
      rw [← h] at e; cases e⟩⟩

/-- **C137 (finding).** If a Beta distribution is so skewed that the generator only draws ones (scipy rounds to 1), the call never
returns. -/
theorem C137_beta_endless_finding (g : Rng) (a b : ℝ) (hd : Valid (.beta a b)) (h : ∀ m s, (g.draw (.beta a b) m s).1 = List.replicate m 1)
    (n : ℕ) (hn : 1 ≤ n) (seed : Option ℤ) (hacc : Accepted (.int n) seed) (s : g.State) (fuel : ℕ) :
    randomSamples g fuel (.beta a b) (.int n) seed s = none := by
  have loop : ∀ fuel (l : List ℝ) (s : g.State), (∀ x ∈ l, x = 1) → resample g a b n fuel l s = none := by
    intro fuel
    induction fuel with
    | zero => intro l s _; rfl
    | succ fuel ih =>
      intro l s hl
      have : l.filter (fun x => decide (x < 1)) = [] := by
        rw [List.filter_eq_nil_iff]
        intro x hx
        rw [hl x hx]; simp
      rw [resample]
      simp only [this, List.length_nil]
      rw [if_pos (by omega), rvs_beta g hd]
      apply ih
      intro x hx
      rw [List.nil_append, h] at hx
      exact List.eq_of_mem_replicate hx
  rcases sampleCount_cases (.int n) with ⟨m, -, hm, hs⟩ | ⟨hno, -⟩
  swap
  · exact absurd hacc.1 hno
  cases hm
  rcases reseed_cases g seed s with ⟨-, t, ht⟩ | ⟨ha, -⟩
  swap
  · exact absurd hacc.2 ha
  rw [samples_eq g fuel hd hs ht]
  exact loop _ _ _ fun x hx => List.eq_of_mem_replicate (h n t ▸ hx)

/-- A generator: the state is a counter, and the numbers drawn are 1 at the state 0 and 1/2 otherwise. -/
noncomputable def counter : Rng where
  State := ℕ
  seed k := k
  draw _ n s := (List.replicate n (if s = 0 then 1 else 1 / 2), s + 1)

theorem counter_draws : Draws counter := by
  have h : ∀ f n (s : counter.State), ∀ x ∈ (counter.draw f n s).1, 0 ≤ x ∧ x ≤ 1 := by
    intro f n s x hx
    have hx := List.eq_of_mem_replicate hx
    rw [hx]
    split_ifs <;> norm_num
  exact ⟨fun f n s => List.length_replicate, fun c n s x hx => (h _ n s x hx).1, fun c n s x hx => (h _ n s x hx).1,
    fun n s x hx => (h _ n s x hx).1, fun c n s x hx => (h _ n s x hx).1, fun c n s x hx => (h _ n s x hx).1,
    fun a b n s x hx => h _ n s x hx⟩

/-- Two samples of a Beta distribution with the seed 0: the first draw gives two ones, which are drawn again. And after any
history of that generator a Weibull with the seed 3 gives the same. -/
example (s : counter.State) : randomSamples counter 2 (.beta 2 3) (.int 2) (some 0) s = some (.ok ([1 / 2, 1 / 2], counter.seed 2)) ∧
    randomSamples counter 0 (.weibull 10 2 5) (.int 2) (some 3) s = some (.ok ([10, 10], counter.seed 4)) ∧
    Accepted (.int 2) (some 3) ∧ Valid (.weibull 10 2 5) := by
  refine ⟨?_, ?_, ⟨⟨2, rfl, by norm_num⟩, by rintro k ⟨⟩; norm_num⟩, by norm_num [Valid]⟩
  · rw [samples_eq counter 2 (d := .beta 2 3) (by norm_num [Valid]) (n := 2) rfl (reseed_some counter (by norm_num) s)]
    have h1 : counter.draw (.beta 2 3) 2 (counter.seed (Int.toNat 0)) = ([1, 1], counter.seed 1) := rfl
    have h2 : rvs counter (.beta 2 3) 0 1 2 (counter.seed 1) = .ok ([1 / 2, 1 / 2], counter.seed 2) := by
      rw [rvs_beta counter (a := 2) (b := 3) (by norm_num)]; rfl
    show resample counter 2 3 2 2 (counter.draw (.beta 2 3) 2 (counter.seed (Int.toNat 0))).1 (counter.draw (.beta 2 3) 2 (counter.seed (Int.toNat 0))).2 = _
    rw [h1, resample]
    simp only [lt_self_iff_false, decide_false, List.filter_cons_of_neg, Bool.false_eq_true, not_false_eq_true, List.filter_nil, List.length_nil]
    rw [if_pos (by norm_num), h2]
    simp only [List.nil_append, resample]
    norm_num
  · rw [samples_eq counter 0 (d := .weibull 10 2 5) (by norm_num [Valid]) (n := 2) rfl (reseed_some counter (by norm_num) s)]
    have h1 : counter.draw (.weibull_min 2) 2 (counter.seed (Int.toNat 3)) = ([1 / 2, 1 / 2], counter.seed 4) := rfl
    simp only [callOf, h1, List.map_cons, List.map_nil]
    norm_num

end Reliability.Props.RandomSamples
