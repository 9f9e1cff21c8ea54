import Verif.Spec.DistInputs
import Verif.Props.FunctionCI
import Verif.Props.ExpoCI

/-! # C86: the arguments of CDF, SF and CHF that concern confidence bounds -/

namespace Reliability.Props

open Reliability.Spec Reliability.Distributions Reliability.FunctionCI Reliability.Props.Distributions

theorem ciTypeName_spec (s : String) (t : Option String) : ciTypeName s = t ↔ WordMeans s t := by
  unfold ciTypeName WordMeans
  by_cases h1 : Fitters.up s ∈ ["T", "TIME"]
  · rw [if_pos h1]
    have h2 : Fitters.up s ∉ ["R", "REL", "RELIABILITY"] := by
      simp only [List.mem_cons, List.not_mem_nil, or_false] at h1
      rcases h1 with h | h <;> rw [h] <;> decide +kernel
    have h3 : Fitters.up s ∈ ["T", "TIME", "R", "REL", "RELIABILITY"] := by
      simp only [List.mem_cons, List.not_mem_nil, or_false] at h1 ⊢; tauto
    constructor
    · rintro rfl; exact Or.inl ⟨rfl, h1⟩
    · rintro (⟨h, -⟩ | ⟨-, h⟩ | ⟨-, h⟩)
      · exact h.symm
      · exact absurd h h2
      · exact absurd h3 h
  · rw [if_neg h1]
    by_cases h2 : Fitters.up s ∈ ["R", "REL", "RELIABILITY"]
    · rw [if_pos h2]
      have h3 : Fitters.up s ∈ ["T", "TIME", "R", "REL", "RELIABILITY"] := by
        simp only [List.mem_cons, List.not_mem_nil, or_false] at h2 ⊢; tauto
      constructor
      · rintro rfl; exact Or.inr (Or.inl ⟨rfl, h2⟩)
      · rintro (⟨-, h⟩ | ⟨h, -⟩ | ⟨-, h⟩)
        · exact absurd h h1
        · exact h.symm
        · exact absurd h3 h
    · rw [if_neg h2]
      have h3 : Fitters.up s ∉ ["T", "TIME", "R", "REL", "RELIABILITY"] := by
        simp only [List.mem_cons, List.not_mem_nil, or_false] at h1 h2 ⊢; tauto
      constructor
      · rintro rfl; exact Or.inr (Or.inr ⟨rfl, h3⟩)
      · rintro (⟨-, h⟩ | ⟨-, h⟩ | ⟨h, -⟩)
        · exact absurd h h1
        · exact absurd h h2
        · exact h.symm

/-- The words that switch the bounds off are not words for time or reliability. -/
theorem noCI_word {s : String} (h : s ∈ noCI) : ciTypeName s = none := by
  simp only [noCI, List.mem_cons, List.not_mem_nil, or_false] at h
  rcases h with rfl | rfl | rfl | rfl | rfl | rfl <;> decide +kernel

theorem ciType_str (self : SelfAttr) (s : String) :
    ciType self (some s) = if self.name = "Exponential" ∨ self.name = "Beta" then none else ciTypeName s := by
  unfold ciType
  by_cases h1 : self.name = "Exponential"
  · rw [if_pos h1, if_pos (Or.inl h1)]
  · by_cases h2 : self.name = "Beta"
    · rw [if_neg h1, if_pos h2, if_pos (Or.inr h2)]
    · rw [if_neg h1, if_neg h2, if_neg (by tauto)]
      by_cases h : s ∈ noCI
      · simp only [if_pos h, noCI_word h]
      · simp only [if_neg h]

theorem ciType_none (self : SelfAttr) :
    ciType self none = if self.name = "Exponential" ∨ self.name = "Beta" then none
      else match self.CI_type with | none => none | some s => ciTypeName s := by
  unfold ciType
  by_cases h1 : self.name = "Exponential"
  · rw [if_pos h1, if_pos (Or.inl h1)]
  · by_cases h2 : self.name = "Beta"
    · rw [if_neg h1, if_pos h2, if_pos (Or.inr h2)]
    · rw [if_neg h1, if_neg h2, if_neg (by tauto)]
      cases self.CI_type with
      | none => rfl
      | some s =>
        by_cases h : s ∈ noCI
        · simp only [if_pos h, noCI_word h]
        · simp only [if_neg h]

/-- The word of the argument `CI_type`. -/
def strOf : StrArg → Option String
  | .str s => some s
  | _ => none

theorem ciType_spec (self : SelfAttr) (a : StrArg) (t : Option String) (ha : a ≠ .other) :
    ciType self (strOf a) = t ↔ TypeMeant self.name self.CI_type a t := by
  cases a with
  | other => exact absurd rfl ha
  | str s =>
    simp only [strOf, ciType_str, TypeMeant]
    split
    · exact eq_comm
    · exact ciTypeName_spec s t
  | none =>
    simp only [strOf, ciType_none, TypeMeant]
    split
    · exact eq_comm
    · cases self.CI_type with
      | none => simp only [true_and]; constructor
                · rintro rfl; exact Or.inl rfl
                · rintro (rfl | ⟨s, h, -⟩)
                  · rfl
                  · cases h
      | some s =>
        simp only [ciTypeName_spec]
        constructor
        · intro h; exact Or.inr ⟨s, rfl, h⟩
        · rintro (⟨h, -⟩ | ⟨s', h, h'⟩)
          · cases h
          · cases h; exact h'

theorem level_spec (self : SelfAttr) (a : CIArg) (c : ℝ) :
    (∃ n, ciNumber a = .ok n ∧ ciLevel self n = .ok c) ↔ LevelMeant self.Z a c := by
  cases a with
  | other => simp [ciNumber, LevelMeant]
  | bool b =>
    simp only [ciNumber, LevelMeant, Except.ok.injEq]
    constructor
    · rintro ⟨n, rfl, h⟩
      unfold ciLevel at h
      simp only [] at h
      rw [if_neg (by norm_num)] at h
      cases h; rfl
    · rintro rfl
      refine ⟨_, rfl, ?_⟩
      unfold ciLevel
      simp only []
      rw [if_neg (by norm_num)]
  | float r =>
    simp only [ciNumber, LevelMeant, Except.ok.injEq]
    constructor
    · rintro ⟨n, rfl, h⟩
      unfold ciLevel at h
      simp only [] at h
      by_cases hr : r ≤ 0 ∨ 1 ≤ r
      · rw [if_pos hr] at h; cases h
      · rw [if_neg hr] at h
        push Not at hr
        cases h
        exact ⟨hr.1, hr.2, rfl⟩
    · rintro ⟨h1, h2, rfl⟩
      refine ⟨_, rfl, ?_⟩
      unfold ciLevel
      simp only []
      rw [if_neg (by push Not; exact ⟨h1, h2⟩)]
  | none =>
    simp only [ciNumber, LevelMeant, Except.ok.injEq]
    have key : ∀ z, 1 - normStd.cdf (-z) * 2 = normStd.cdf z - normStd.cdf (-z) := fun z => by
      have := norm_cdf_neg z; linarith
    constructor
    · rintro ⟨n, rfl, h⟩
      unfold ciLevel at h
      cases hz : self.Z with
      | none => rw [hz] at h; cases h; exact Or.inl ⟨rfl, rfl⟩
      | some z => rw [hz] at h; cases h; exact Or.inr ⟨z, rfl, key z⟩
    · intro h
      refine ⟨_, rfl, ?_⟩
      unfold ciLevel
      rcases h with ⟨hz, rfl⟩ | ⟨z, hz, rfl⟩ <;> rw [hz]
      simp only [key]

theorem ciNumber_err {a : CIArg} {e : Err} (h : ciNumber a = .error e) : e = .valueError := by
  cases a <;> simp [ciNumber] at h <;> exact h.symm

theorem ciLevel_err {self : SelfAttr} {n : Option ℝ} {e : Err} (h : ciLevel self n = .error e) : e = .valueError := by
  unfold ciLevel at h
  split at h
  · cases h
  · split at h <;> cases h; rfl
  · cases h

theorem x_spec (name : String) (v : ValArg) :
    (∃ o, checkCIx name v = .ok o ∧ Given v o ∧
      ∀ l, o = some l → l ≠ [] ∧ (name ≠ "Normal" → name ≠ "Gumbel" → ∀ x ∈ l, 0 < x)) ∨
    (checkCIx name v = valueErr ∧ ¬ ∃ o, Given v o ∧
      ∀ l, o = some l → l ≠ [] ∧ (name ≠ "Normal" → name ≠ "Gumbel" → ∀ x ∈ l, 0 < x)) := by
  have hn : name ∉ ["Normal", "Gumbel"] ↔ name ≠ "Normal" ∧ name ≠ "Gumbel" := by simp
  cases v with
  | none => exact Or.inl ⟨none, rfl, rfl, by simp⟩
  | other => exact Or.inr ⟨rfl, by simp [Given]⟩
  | num r =>
    simp only [checkCIx, Given, hn]
    by_cases h : r ≤ 0 ∧ name ≠ "Normal" ∧ name ≠ "Gumbel"
    · right
      rw [if_pos h]
      refine ⟨rfl, ?_⟩
      rintro ⟨o, rfl, ho⟩
      have := (ho [r] rfl).2 h.2.1 h.2.2 r (by simp)
      linarith [h.1]
    · left
      rw [if_neg h]
      refine ⟨_, rfl, rfl, ?_⟩
      rintro l hl
      cases hl
      refine ⟨by simp, fun a b x hx => ?_⟩
      rw [List.mem_singleton] at hx
      subst hx
      by_contra hc
      exact h ⟨not_lt.1 hc, a, b⟩
  | arr l =>
    simp only [checkCIx, Given]
    cases hm : l.min? with
    | none =>
      right
      refine ⟨rfl, ?_⟩
      rintro ⟨o, rfl, ho⟩
      exact (ho l rfl).1 (List.min?_eq_none_iff.1 hm)
    | some m =>
      have hmin := (Np.min?_iff l m).1 hm
      have hne : l ≠ [] := by rintro rfl; simp at hm
      simp only [hn]
      by_cases h : m ≤ 0 ∧ name ≠ "Normal" ∧ name ≠ "Gumbel"
      · right
        rw [if_pos h]
        refine ⟨rfl, ?_⟩
        rintro ⟨o, rfl, ho⟩
        have := (ho l rfl).2 h.2.1 h.2.2 m hmin.1
        linarith [h.1]
      · left
        rw [if_neg h]
        refine ⟨_, rfl, rfl, ?_⟩
        rintro l' hl
        cases hl
        refine ⟨hne, fun a b x hx => ?_⟩
        by_contra hc
        exact h ⟨(hmin.2 x hx).trans (not_lt.1 hc), a, b⟩

theorem y_spec (fn : Func) (v : ValArg) :
    (∃ o, checkCIy fn.str v = .ok o ∧ Given v o ∧ ∀ l, o = some l → l ≠ [] ∧ ∀ y ∈ l, LegalValue fn y) ∨
    (checkCIy fn.str v = valueErr ∧ ¬ ∃ o, Given v o ∧ ∀ l, o = some l → l ≠ [] ∧ ∀ y ∈ l, LegalValue fn y) := by
  have hn : fn.str ∈ ["CDF", "SF"] ↔ fn ≠ .CHF := by cases fn <;> simp [Func.str]
  have key : ∀ m M : ℝ, ¬ m ≤ 0 → ¬ (1 ≤ M ∧ fn ≠ .CHF) → ∀ y, m ≤ y → y ≤ M → LegalValue fn y := by
    intro m M h1 h2 y h3 h4
    refine ⟨by linarith [not_le.1 h1], ?_⟩
    by_cases h : fn = .CHF
    · exact Or.inl h
    · right
      by_contra hc
      exact h2 ⟨by linarith [not_lt.1 hc], h⟩
  cases v with
  | none => exact Or.inl ⟨none, rfl, rfl, by simp⟩
  | other => exact Or.inr ⟨rfl, by simp [Given]⟩
  | num r =>
    simp only [checkCIy, Given, hn]
    by_cases h : r ≤ 0
    · right
      rw [if_pos h]
      refine ⟨rfl, ?_⟩
      rintro ⟨o, rfl, ho⟩
      have := ((ho [r] rfl).2 r (by simp)).1
      linarith
    · rw [if_neg h]
      by_cases h' : 1 ≤ r ∧ fn ≠ .CHF
      · right
        rw [if_pos h']
        refine ⟨rfl, ?_⟩
        rintro ⟨o, rfl, ho⟩
        rcases ((ho [r] rfl).2 r (by simp)).2 with h2 | h2
        · exact h'.2 h2
        · linarith [h'.1]
      · left
        rw [if_neg h']
        refine ⟨_, rfl, rfl, ?_⟩
        rintro l hl
        cases hl
        refine ⟨by simp, fun x hx => ?_⟩
        rw [List.mem_singleton] at hx
        subst hx
        exact key x x h h' x le_rfl le_rfl
  | arr l =>
    simp only [checkCIy, Given]
    cases hm : l.min? with
    | none =>
      right
      refine ⟨rfl, ?_⟩
      rintro ⟨o, rfl, ho⟩
      exact (ho l rfl).1 (List.min?_eq_none_iff.1 hm)
    | some m =>
      have hmin := (Np.min?_iff l m).1 hm
      have hne : l ≠ [] := by rintro rfl; simp at hm
      cases hM : l.max? with
      | none => exact absurd (List.max?_eq_none_iff.1 hM) hne
      | some M =>
        have hmax := (Np.max?_iff l M).1 hM
        simp only [hn]
        by_cases h : m ≤ 0
        · right
          rw [if_pos h]
          refine ⟨rfl, ?_⟩
          rintro ⟨o, rfl, ho⟩
          have := ((ho l rfl).2 m hmin.1).1
          linarith
        · rw [if_neg h]
          by_cases h' : 1 ≤ M ∧ fn ≠ .CHF
          · right
            rw [if_pos h']
            refine ⟨rfl, ?_⟩
            rintro ⟨o, rfl, ho⟩
            rcases ((ho l rfl).2 M hmax.1).2 with h2 | h2
            · exact h'.2 h2
            · linarith [h'.1]
          · left
            rw [if_neg h']
            refine ⟨_, rfl, rfl, ?_⟩
            rintro l' hl
            cases hl
            exact ⟨hne, fun x hx => key m M h h' x (hmin.2 x hx) (hmax.2 x hx)⟩

theorem oneOf_spec (ct : Option String) (vx vy : ValArg) (ox oy : Option (List ℝ)) :
    (Given (oneOf ct vx vy).1 ox ∧ Given (oneOf ct vx vy).2 oy ∧ vx ≠ .other ∧ vy ≠ .other) ↔
    ∃ gx gy, Given vx gx ∧ Given vy gy ∧
    ((gx ≠ none ∧ gy ≠ none → (ct = some "reliability" → ox = gx ∧ oy = none) ∧
      (ct ≠ some "reliability" → ox = none ∧ oy = gy)) ∧
     (¬ (gx ≠ none ∧ gy ≠ none) → ox = gx ∧ oy = gy)) := by
  by_cases h : ct = some "reliability"
  · subst h
    cases vx <;> cases vy <;> simp [oneOf, Given]
  · cases vx <;> cases vy <;> simp [oneOf, Given, h]

theorem typeOK_iff (v : ValArg) : v.typeOK = false ↔ v = .other := by cases v <;> simp [ValArg.typeOK]

theorem given_unique {v : ValArg} {a b : Option (List ℝ)} (ha : Given v a) (hb : Given v b) : a = b := by
  cases v <;> simp only [Given] at ha hb
  · rw [ha, hb]
  · rw [ha, hb]
  · rw [ha, hb]

theorem resolve_core (self : SelfAttr) (fn : Func) (a : CIArgs) :
    (∃ r, resolve self fn.str (.ok ()) a = .ok r ∧ Resolves self fn a r ∧ ∀ r', Resolves self fn a r' → r' = r) ∨
    (resolve self fn.str (.ok ()) a = valueErr ∧ ¬ ∃ r, Resolves self fn a r) := by
  have hf : fn.str ∈ ["PDF", "CDF", "SF", "HF", "CHF", "ALL"] := by cases fn <;> decide +kernel
  by_cases ht : a.CI_type = .other
  · right
    refine ⟨by unfold resolve; rw [if_neg (not_not.2 hf)]; simp only [ht], ?_⟩
    rintro ⟨r, -, h, -⟩
    rw [ht] at h
    exact h
  have e0 : resolve self fn.str (.ok ()) a =
      match ciNumber a.CI with
      | .error e => .error e
      | .ok c =>
        if a.CI_y.typeOK = false then valueErr
        else if a.CI_x.typeOK = false then valueErr
        else
            match ciLevel self c with
            | .error e => .error e
            | .ok CI =>
              match checkCIx self.name (oneOf (ciType self (strOf a.CI_type)) a.CI_x a.CI_y).1 with
              | .error e => .error e
              | .ok x =>
                match checkCIy fn.str (oneOf (ciType self (strOf a.CI_type)) a.CI_x a.CI_y).2 with
                | .error e => .error e
                | .ok y => .ok ⟨ciType self (strOf a.CI_type), CI, y, x⟩ := by
    unfold resolve
    rw [if_neg (not_not.2 hf)]
    cases hh : a.CI_type with
    | other => exact absurd hh ht
    | none => rfl
    | str s => rfl
  rw [e0]
  have hlev := level_spec self a.CI
  cases hc : ciNumber a.CI with
  | error e =>
    right
    refine ⟨by rw [ciNumber_err hc], ?_⟩
    rintro ⟨r, h, -⟩
    obtain ⟨n, hn, -⟩ := (hlev r.CI).2 h
    rw [hc] at hn; cases hn
  | ok c =>
    simp only
    by_cases hy : a.CI_y = .other
    · right
      rw [if_pos ((typeOK_iff _).2 hy)]
      refine ⟨rfl, ?_⟩
      rintro ⟨r, -, -, ⟨gx, gy, -, h, -⟩, -⟩
      rw [hy] at h; exact h
    rw [if_neg (by rw [typeOK_iff]; exact hy)]
    by_cases hx : a.CI_x = .other
    · right
      rw [if_pos ((typeOK_iff _).2 hx)]
      refine ⟨rfl, ?_⟩
      rintro ⟨r, -, -, ⟨gx, gy, h, -, -⟩, -⟩
      rw [hx] at h; exact h
    rw [if_neg (by rw [typeOK_iff]; exact hx)]
    cases hL : ciLevel self c with
    | error e =>
      right
      refine ⟨by rw [ciLevel_err hL], ?_⟩
      rintro ⟨r, h, -⟩
      obtain ⟨n, hn, hn'⟩ := (hlev r.CI).2 h
      rw [hc] at hn; cases hn
      rw [hL] at hn'; cases hn'
    | ok CI =>
      simp only
      set ct := ciType self (strOf a.CI_type) with hct
      have htype := fun t => ciType_spec self a.CI_type t ht
      have split : ∀ r, Resolves self fn a r → r.CI = CI ∧ r.CI_type = ct ∧ Given (oneOf ct a.CI_x a.CI_y).1 r.CI_x ∧
          Given (oneOf ct a.CI_x a.CI_y).2 r.CI_y := by
        rintro r ⟨h1, h2, h3, -⟩
        obtain ⟨n, hn, hn'⟩ := (hlev r.CI).2 h1
        rw [hc] at hn; cases hn
        rw [hL] at hn'
        have e2 : ct = r.CI_type := (htype r.CI_type).2 h2
        rw [← e2] at h3
        have := (oneOf_spec ct a.CI_x a.CI_y r.CI_x r.CI_y).2 h3
        exact ⟨by cases hn'; rfl, e2.symm, this.1, this.2.1⟩
      rcases x_spec self.name (oneOf ct a.CI_x a.CI_y).1 with ⟨ox, hox, gx, px⟩ | ⟨hox, nx⟩
      · rw [hox]
        simp only
        rcases y_spec fn (oneOf ct a.CI_x a.CI_y).2 with ⟨oy, hoy, gy, py⟩ | ⟨hoy, ny⟩
        · rw [hoy]
          left
          refine ⟨_, rfl, ⟨(hlev CI).1 ⟨c, hc, hL⟩, (htype ct).1 hct.symm,
            (oneOf_spec ct a.CI_x a.CI_y ox oy).1 ⟨gx, gy, hx, hy⟩, px, py⟩, fun r' hr' => ?_⟩
          obtain ⟨a1, a2, a3, a4⟩ := split r' hr'
          cases r'
          simp only at a1 a2 a3 a4
          rw [a1, a2, given_unique a3 gx, given_unique a4 gy]
        · rw [hoy]
          right
          refine ⟨rfl, ?_⟩
          rintro ⟨r, hr⟩
          exact ny ⟨r.CI_y, (split r hr).2.2.2, hr.2.2.2.2⟩
      · rw [hox]
        right
        refine ⟨rfl, ?_⟩
        rintro ⟨r, hr⟩
        exact nx ⟨r.CI_x, (split r hr).2.2.1, hr.2.2.2.1⟩

/-- **C86.** For every object and all arguments: the check of the arguments accepts exactly the legal ones and passes on
exactly what they mean (`Resolves`); everything else is a ValueError. -/
theorem C86_resolves_partial (self : SelfAttr) (fn : Func) (a : CIArgs) :
    (∀ r, resolve self fn.str (.ok ()) a = .ok r ↔ Resolves self fn a r) ∧
    ((¬ ∃ r, Resolves self fn a r) → resolve self fn.str (.ok ()) a = valueErr) := by
  rcases resolve_core self fn a with ⟨r, h, hr, hu⟩ | ⟨h, hn⟩
  · refine ⟨fun r' => ⟨fun h' => ?_, fun h' => ?_⟩, fun hn => absurd ⟨r, hr⟩ hn⟩
    · rw [h] at h'; cases h'; exact hr
    · rw [hu r' h', h]
  · refine ⟨fun r' => ⟨fun h' => ?_, fun h' => absurd ⟨r', h'⟩ hn⟩, fun _ => h⟩
    rw [h] at h'; cases h'

/-- **C86 (level).** Without the argument `CI` the bounds of a fitted distribution are those at the level whose two-sided
normal quantile is the `Z` stored with the fit. -/
theorem C86_fitted_level (J : Jac) (d : Fitted) (own : Option String) (fn : Func) (a : CIArgs) (z : ℝ)
    (hZ : d.Z = some z) (hz : 0 < z) (hc : a.CI = .none) :
    ∃ c, 0 < c ∧ c < 1 ∧ TwoSidedZ c z ∧ ∀ r, Resolves ⟨d.name, d.Z, own⟩ fn a r →
      callCI J d own fn (.ok ()) a = funcCI J d fn r.CI_type c r.CI_y r.CI_x := by
  have hm := norm_cdf_strictMono (show -z < z by linarith)
  have hm2 := norm_cdf_strictMono (show z < z + 1 by linarith)
  have hrg : ∀ x, 0 ≤ normStd.cdf x ∧ normStd.cdf x ≤ 1 := normStd_density.survival.range
  refine ⟨normStd.cdf z - normStd.cdf (-z), by linarith, by linarith [(hrg (z + 1)).2, (hrg (-z)).1], ⟨hz, rfl⟩,
    fun r hr => ?_⟩
  unfold callCI
  rw [((C86_resolves_partial ⟨d.name, d.Z, own⟩ fn a).1 r).2 hr]
  have h1 := hr.1
  rw [hc] at h1
  simp only [LevelMeant] at h1
  rcases h1 with ⟨h, -⟩ | ⟨z', h, h'⟩
  · rw [hZ] at h; cases h
  · rw [hZ] at h
    cases h
    simp only [h']

/-- **C86 (finding).** The documentation says the arguments are only used if the object was created by Fitters, but on an
object without standard errors a legal request for bounds raises TypeError. -/
theorem C86_unfitted_finding (J : Jac) (fn : Func) (y : ℝ) (hy : LegalValue fn y) :
    (∀ f a b g, callCI J (.two ⟨f, a, b, g, none, none, none, none⟩) none fn (.ok ())
      ⟨.str "time", .none, .num y, .none⟩ = .error .typeError) ∧
    (∀ L g, callCI J (.expo ⟨L, g, none, none⟩) none fn (.ok ()) ⟨.none, .none, .num y, .none⟩ = .error .typeError) := by
  have w : WordMeans "time" (some "time") := Or.inl ⟨rfl, by decide +kernel⟩
  constructor
  · intro f a b g
    have hr : Resolves ⟨(Fitted.two ⟨f, a, b, g, none, none, none, none⟩).name, none, none⟩ fn
        ⟨.str "time", .none, .num y, .none⟩ ⟨some "time", 95 / 100, some [y], none⟩ := by
      refine ⟨Or.inl ⟨rfl, rfl⟩, ?_, ⟨none, some [y], rfl, rfl, by simp, by simp⟩, by simp, ?_⟩
      · simp only [TypeMeant]
        rw [if_neg (by cases f <;> simp [Fitted.name])]
        exact w
      · intro l hl; cases hl; exact ⟨by simp, by simpa using hy⟩
    have e := ((C86_resolves_partial _ fn _).1 _).2 hr
    unfold callCI
    simp only [Fitted.Z, finiteArg, e]
    unfold funcCI extractCI twoTime validParams
    simp [finiteArg, subscript]
  · intro L g
    have hr : Resolves ⟨(Fitted.expo ⟨L, g, none, none⟩).name, none, none⟩ fn
        ⟨.none, .none, .num y, .none⟩ ⟨none, 95 / 100, some [y], none⟩ := by
      refine ⟨Or.inl ⟨rfl, rfl⟩, ?_, ⟨none, some [y], rfl, rfl, by simp, by simp⟩, by simp, ?_⟩
      · simp [TypeMeant, Fitted.name]
      · intro l hl; cases hl; exact ⟨by simp, by simpa using hy⟩
    have e := ((C86_resolves_partial _ fn _).1 _).2 hr
    unfold callCI
    simp only [Fitted.Z, finiteArg, e]
    unfold funcCI extractCI expoTime
    simp [subscript]

example : Resolves ⟨"Weibull", some 2, some "time"⟩ .SF ⟨.str "Rel", .none, .arr [1/2], .arr [5, 10]⟩
    ⟨some "reliability", normStd.cdf 2 - normStd.cdf (-2), none, some [5, 10]⟩ := by
  refine ⟨Or.inr ⟨2, rfl, rfl⟩, ?_, ⟨some [5, 10], some [1/2], rfl, rfl, by simp, by simp⟩, ?_, by simp⟩
  · simp only [TypeMeant]
    rw [if_neg (by decide +kernel)]
    exact Or.inr (Or.inl ⟨rfl, by decide +kernel⟩)
  · intro l hl; cases hl; exact ⟨by simp, fun _ _ => by simp⟩

end Reliability.Props
