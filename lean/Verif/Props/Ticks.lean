import Verif.Model.Ticks
import Verif.Props.RoundString

/-!
# C129: the labels and ticks of probability plots
-/

namespace Reliability.Props.Ticks

open Reliability.Ticks Reliability.RoundString Reliability.Props.RoundString

/-! ## Percentages -/

/-- A rounding of differences that keeps their order, whole numbers, and is never off by a quarter or more (floats of the size
of percentages are far better). -/
structure Rounding (fl : ℚ → ℚ) : Prop where
  mono : Monotone fl
  whole : ∀ z : ℤ, fl z = z
  close : ∀ q, |q| ≤ 101 → |fl q - q| < 1 / 4

theorem decimals_close (v : ℚ) : |decimals v - (v - ⌊v⌋)| ≤ 1 / 2 / 10 ^ 8 := by
  unfold decimals
  have := nearest_close ((v - ⌊v⌋) * 10 ^ 8)
  rw [abs_le] at this ⊢
  constructor <;> linarith [this.1, this.2]

theorem decimals_nonneg (v : ℚ) : 0 ≤ decimals v := by
  unfold decimals
  have h : (0 : ℤ) ≤ nearest ((v - ⌊v⌋) * 10 ^ 8) := nearest_mono_int (by
    have := Int.floor_le v
    push_cast
    have : 0 ≤ v - ⌊v⌋ := by linarith
    positivity)
  have h' : (0 : ℚ) ≤ nearest ((v - ⌊v⌋) * 10 ^ 8) := by exact_mod_cast h
  positivity

/-- **C129 (percentages).** For a percentage between 0 and 100 (as a float), the label is within half a unit of the eighth decimal
of it; except if the percentage is at least 1, its decimals are rounded up, and the float subtraction of the rounded decimals
does not give a whole number: then the label is that much away from the percentage minus one. -/
theorem C129_percent_partial (fl : ℚ → ℚ) (hfl : Rounding fl) (v : ℚ) (h0 : 0 ≤ v) (h100 : v ≤ 100) :
    (¬ (1 ≤ v ∧ v - ⌊v⌋ < decimals v ∧ fl (v - decimals v) < ⌊v⌋) → |percentLabel fl v - v| ≤ 1 / 2 / 10 ^ 8) ∧
    (1 ≤ v ∧ v - ⌊v⌋ < decimals v ∧ fl (v - decimals v) < ⌊v⌋ → |percentLabel fl v - (v - 1)| ≤ 1 / 2 / 10 ^ 8) := by
  have hd := decimals_close v
  have hd0 := decimals_nonneg v
  have f1 := Int.floor_le v
  have f2 := Int.lt_floor_add_one v
  have hz0 : (0 : ℤ) ≤ ⌊v⌋ := Int.floor_nonneg.2 h0
  have hz0' : (0 : ℚ) ≤ ⌊v⌋ := by exact_mod_cast hz0
  rw [abs_le] at hd
  have hd : -(1 / 200000000) ≤ decimals v - (v - ⌊v⌋) ∧ decimals v - (v - ⌊v⌋) ≤ 1 / 200000000 :=
    ⟨by linarith [hd.1], by linarith [hd.2]⟩
  have hc := hfl.close (v - decimals v) (by rw [abs_le]; constructor <;> linarith)
  rw [abs_lt] at hc
  have key : ∀ w : ℤ, trunc (fl (v - decimals v)) = w → percentLabel fl v = decimals v + w := fun w hw => by
    unfold percentLabel; simp only [hw]
  constructor
  · intro h
    have : trunc (fl (v - decimals v)) = ⌊v⌋ := by
      by_cases hup : v - ⌊v⌋ < decimals v
      · by_cases h1 : 1 ≤ v
        · have h3 : (⌊v⌋ : ℚ) ≤ fl (v - decimals v) := by
            by_contra h3; exact h ⟨h1, hup, not_le.1 h3⟩
          have h4 : fl (v - decimals v) ≤ ⌊v⌋ := by
            have := hfl.mono (show v - decimals v ≤ (⌊v⌋ : ℚ) by linarith)
            rwa [hfl.whole] at this
          rw [le_antisymm h4 h3, trunc, if_pos hz0', Int.floor_intCast]
        · have hz : ⌊v⌋ = 0 := Int.floor_eq_iff.2 ⟨by exact_mod_cast h0, by push_cast; linarith⟩
          rw [hz] at hup hd ⊢
          have h4 : fl (v - decimals v) ≤ 0 := by
            have := hfl.mono (show v - decimals v ≤ ((0 : ℤ) : ℚ) by push_cast at *; linarith)
            rw [hfl.whole] at this; exact_mod_cast this
          unfold trunc
          split_ifs with h5
          · rw [le_antisymm h4 h5]; rfl
          · rw [Int.ceil_eq_iff]
            push_cast at *
            constructor <;> linarith
      · have h3 : (⌊v⌋ : ℚ) ≤ fl (v - decimals v) := by
          have := hfl.mono (show (⌊v⌋ : ℚ) ≤ v - decimals v by linarith)
          rwa [hfl.whole] at this
        rw [trunc, if_pos (hz0'.trans h3), Int.floor_eq_iff]
        refine ⟨h3, ?_⟩
        linarith
    rw [key _ this, abs_le]
    constructor <;> linarith
  · rintro ⟨h1, hup, h2⟩
    have hz1 : (1 : ℤ) ≤ ⌊v⌋ := Int.le_floor.2 (by exact_mod_cast h1)
    have hz1' : (1 : ℚ) ≤ ⌊v⌋ := by exact_mod_cast hz1
    have : trunc (fl (v - decimals v)) = ⌊v⌋ - 1 := by
      rw [trunc, if_pos (by linarith), Int.floor_eq_iff]
      push_cast
      constructor <;> linarith
    rw [key _ this, abs_le]
    push_cast
    constructor <;> linarith

/-- A percentage with at most eight decimals, known exactly, is its label. -/
theorem C129_percent_exact (fl : ℚ → ℚ) (hfl : Rounding fl) (v : ℚ) (h0 : 0 ≤ v) (h100 : v ≤ 100) (n : ℤ) (hn : v * 10 ^ 8 = n) :
    percentLabel fl v = v := by
  have hd : decimals v = v - ⌊v⌋ := by
    unfold decimals
    have he : (v - ⌊v⌋) * 10 ^ 8 = ((n - ⌊v⌋ * 10 ^ 8 : ℤ) : ℚ) := by push_cast; rw [← hn]; ring
    rw [he, le_antisymm (nearest_le_int (z := n - ⌊v⌋ * 10 ^ 8) le_rfl) (nearest_mono_int le_rfl), ← he]
    field_simp
  have hz0 : (0 : ℚ) ≤ ⌊v⌋ := by exact_mod_cast Int.floor_nonneg.2 h0
  unfold percentLabel
  simp only
  rw [hd, show v - (v - ⌊v⌋) = (⌊v⌋ : ℚ) by ring, hfl.whole, trunc, if_pos hz0, Int.floor_intCast]
  ring

/-- **C129 (finding).** The float 0.018 times 100 is a little less than 1.8 (it is 1.8 - 8/45035996273704960), and the label of
that tick is 0.8%: for every percentage of at least 1 that is a little less than a whole number of thousandths, the label is a
whole percent too low if the subtraction is exact. -/
theorem C129_percent_finding :
    percentLabel id (1.8 - 8 / 45035996273704960) = 0.8 ∧
    ∀ (n k : ℕ) (e : ℚ), 1 ≤ n → 1 ≤ k → k ≤ 1000 → 0 < e → e < 1 / 2 / 10 ^ 8 →
      percentLabel id (n + k / 1000 - e) = n - 1 + k / 1000 := by
  have key : ∀ (n k : ℕ) (e : ℚ), 1 ≤ n → 1 ≤ k → k ≤ 1000 → 0 < e → e < 1 / 2 / 10 ^ 8 →
      percentLabel id (n + k / 1000 - e) = n - 1 + k / 1000 := by
    intro n k e hn hk1 hk he1 he2
    have hk1' : (1 : ℚ) ≤ k := by exact_mod_cast hk1
    have hk' : (k : ℚ) ≤ 1000 := by exact_mod_cast hk
    have hn' : (1 : ℚ) ≤ n := by exact_mod_cast hn
    norm_num at he2
    have hfl : ⌊(n + k / 1000 - e : ℚ)⌋ = n := by
      rw [Int.floor_eq_iff]; push_cast; constructor <;> linarith
    have hnear : nearest (((n + k / 1000 - e : ℚ) - (n : ℤ)) * 10 ^ 8) = k * 100000 := by
      have h := nearest_close (((n + k / 1000 - e : ℚ) - (n : ℤ)) * 10 ^ 8)
      rw [abs_le] at h
      push_cast at h
      have h1 : ((k * 100000 : ℤ) : ℚ) - 1 < nearest (((n + k / 1000 - e : ℚ) - (n : ℤ)) * 10 ^ 8) := by
        push_cast; linarith [h.1]
      have h2 : (nearest (((n + k / 1000 - e : ℚ) - (n : ℤ)) * 10 ^ 8) : ℚ) < ((k * 100000 : ℤ) : ℚ) + 1 := by
        push_cast; linarith [h.2]
      have h1' : (k * 100000 : ℤ) - 1 < nearest (((n + k / 1000 - e : ℚ) - (n : ℤ)) * 10 ^ 8) := by exact_mod_cast h1
      have h2' : nearest (((n + k / 1000 - e : ℚ) - (n : ℤ)) * 10 ^ 8) < (k * 100000 : ℤ) + 1 := by exact_mod_cast h2
      omega
    have hd : decimals (n + k / 1000 - e) = k / 1000 := by
      unfold decimals
      rw [hfl, hnear]
      push_cast
      ring
    unfold percentLabel
    simp only [hd, id]
    have : trunc ((n : ℚ) + k / 1000 - e - k / 1000) = n - 1 := by
      rw [trunc, if_pos (by linarith), Int.floor_eq_iff]
      push_cast
      constructor <;> linarith
    rw [this]
    push_cast
    ring
  refine ⟨?_, key⟩
  have := key 1 800 (8 / 45035996273704960) le_rfl (by norm_num) (by norm_num) (by norm_num) (by norm_num)
  norm_num at this ⊢
  exact this

/-! ## The x-axis -/

/-- The number that a label stands for. -/
def denotes : Label → ℚ
  | .zero => 0
  | .plain v => v
  | .power neg e => (if neg then -1 else 1) * 10 ^ e
  | .times neg m e => (if neg then -1 else 1) * m * 10 ^ e

/-- **C129 (x labels).** The label of a tick stands for its value, with a relative error of less than a tenth of a millionth; a
plain number for values whose size is between 0.0001 and 10000, otherwise a power of ten or a multiple between one and ten of
one. -/
theorem C129_xlabel (v : ℚ) :
    |denotes (xLabel v) - v| ≤ |v| / 10000000 ∧
    (v ≠ 0 → (1 / 10000 < |v| ∧ |v| < 10000 ↔ xLabel v = .plain v)) ∧
    (∀ neg m e, xLabel v = .times neg m e → 1 < m ∧ m < 10 ∧ (neg = true ↔ v < 0)) ∧
    (∀ neg e, xLabel v = .power neg e → (neg = true ↔ v < 0)) := by
  by_cases h0 : v = 0
  · subst h0
    simp [xLabel, denotes]
  by_cases hp : 10000 ≤ |v| ∨ |v| ≤ 1 / 10000
  · have habs : (if v < 0 then -v else v) = |v| := by
      split_ifs with h
      · exact (abs_of_neg h).symm
      · exact (abs_of_nonneg (not_lt.1 h)).symm
    have hpos : 0 < |v| := abs_pos.2 h0
    set e := Int.log 10 |v| with he
    have e1 : (10 : ℚ) ^ e ≤ |v| := by
      have := Int.zpow_log_le_self (b := 10) (by norm_num) hpos; exact_mod_cast this
    have e2 : |v| < (10 : ℚ) ^ (e + 1) := by
      have := Int.lt_zpow_succ_log_self (b := 10) (by norm_num) |v|; exact_mod_cast this
    have hE : (0 : ℚ) < 10 ^ e := by positivity
    set m := |v| / 10 ^ e with hm
    have m1 : 1 ≤ m := (one_le_div hE).2 e1
    have m2 : m < 10 := by rw [hm, div_lt_iff₀ hE, mul_comm, ← zpow_add_one₀ (by norm_num)]; exact e2
    have hmv : m * 10 ^ e = |v| := by rw [hm]; field_simp
    set m' := if m - ⌊m⌋ < 1 / 10000000 then (⌊m⌋ : ℚ) else m with hm'
    have hl : xLabel v = if m' = 1 then .power (decide (v < 0)) e else .times (decide (v < 0)) m' e := by
      unfold xLabel
      rw [if_neg h0, if_pos hp]
      simp only [habs]
      rw [← he, ← hm, ← hm']
    have f1 := Int.floor_le m
    have fl1 : (1 : ℚ) ≤ ⌊m⌋ := by exact_mod_cast Int.le_floor.2 (by exact_mod_cast m1)
    have c1 : m' ≤ m ∧ m - 1 / 10000000 ≤ m' ∧ 1 ≤ m' := by
      rw [hm']; split_ifs with h
      · exact ⟨f1, by linarith, fl1⟩
      · exact ⟨le_rfl, by linarith, m1⟩
    have hden : denotes (xLabel v) = (if decide (v < 0) = true then -1 else 1) * m' * 10 ^ e := by
      rw [hl]
      by_cases h : m' = 1
      · rw [if_pos h, h, mul_one]; rfl
      · rw [if_neg h]; rfl
    have hden2 : |denotes (xLabel v) - v| = |(m' * 10 ^ e - |v|)| := by
      rw [hden]
      by_cases hneg : v < 0
      · rw [if_pos (by simpa using hneg), abs_of_neg hneg, ← abs_neg]; congr 1; ring
      · rw [if_neg (by simpa using hneg), abs_of_nonneg (not_lt.1 hneg)]; congr 1; ring
    refine ⟨?_, fun _ => ⟨fun ⟨h1, h2⟩ => ?_, fun h => ?_⟩, fun neg m'' e'' h => ?_, fun neg e'' h => ?_⟩
    · rw [hden2, ← hmv, show m' * 10 ^ e - m * 10 ^ e = -((m - m') * 10 ^ e) by ring, abs_neg,
        abs_of_nonneg (mul_nonneg (by linarith [c1.1]) hE.le)]
      have : (m - m') * 10 ^ e ≤ (m / 10000000) * 10 ^ e := mul_le_mul_of_nonneg_right (by linarith [c1.2.1]) hE.le
      linarith
    · rcases hp with hp | hp <;> linarith
    · rw [hl] at h; split_ifs at h
    · rw [hl] at h
      split_ifs at h with h1
      cases h
      exact ⟨lt_of_le_of_ne c1.2.2 (Ne.symm h1), c1.1.trans_lt m2, by simp⟩
    · rw [hl] at h
      split_ifs at h with h1
      cases h
      simp
  · have hl : xLabel v = .plain v := by
      unfold xLabel
      rw [if_neg h0, if_neg hp]
    push Not at hp
    rw [hl]
    refine ⟨by simp [denotes]; positivity, fun _ => ⟨fun _ => rfl, fun _ => ⟨hp.2, hp.1⟩⟩, by simp, by simp⟩

/-- **C129 (locator).** Whatever the ticks of the two kinds of locators: the one that is applied leaves at most half of the axis
without ticks at its ends, or no more than the other. -/
theorem C129_locator (coord : ℝ → ℝ) (lim : ℝ × ℝ) (ticks : Loc → List ℝ) (other : Loc) :
    edgeDistances coord lim (ticks (locator coord lim ticks)) ≤ 1 / 2 ∨
    edgeDistances coord lim (ticks (locator coord lim ticks)) ≤ edgeDistances coord lim (ticks other) := by
  unfold locator
  simp only
  split_ifs with h1 h2
  · right
    cases other
    · exact h2.le
    · exact le_rfl
  · right
    cases other
    · exact le_rfl
    · exact not_lt.1 h2
  · left
    norm_num at h1 ⊢
    exact h1

/-- Two ticks or more within the limits, ascending, and coordinates that ascend from 0 to 1: what `edgeDistances` computes is one
minus the distance between the outermost ticks that are shown; it is between 0 and 1. -/
theorem C129_edges (coord : ℝ → ℝ) (lim : ℝ × ℝ) (ticks : List ℝ) (hs : ticks.Pairwise (· < ·)) (hm : MonotoneOn coord (Set.Icc lim.1 lim.2))
    (h0 : coord lim.1 = 0) (h1 : coord lim.2 = 1) (a b : ℝ) (ha : a ∈ ticks) (hb : b ∈ ticks) (hab : a < b) (hla : lim.1 ≤ a)
    (hub : b ≤ lim.2) (hfirst : ∀ t ∈ ticks, lim.1 ≤ t → a ≤ t) (hlast : ∀ t ∈ ticks, t ≤ lim.2 → t ≤ b) :
    edgeDistances coord lim ticks = 1 - (coord b - coord a) ∧ 0 ≤ edgeDistances coord lim ticks ∧ edgeDistances coord lim ticks ≤ 1 := by
  set s := inLims lim ticks with hsdef
  have hmem : ∀ t, t ∈ s ↔ t ∈ ticks ∧ lim.1 ≤ t ∧ t ≤ lim.2 := by intro t; simp [hsdef, inLims]
  have hss : s.Pairwise (· < ·) := hs.filter _
  have has : a ∈ s := (hmem a).2 ⟨ha, hla, hab.le.trans hub⟩
  have hbs : b ∈ s := (hmem b).2 ⟨hb, hla.trans hab.le, hub⟩
  have hlen : ¬ s.length < 2 := by
    intro h
    match s, h, has, hbs with
    | [], _, h, _ => simp at h
    | [x], _, h, h' => simp at h h'; linarith
    | _ :: _ :: _, h, _, _ => simp at h
  have hhead : s.headD 0 = a := by
    cases hc : s with
    | nil => rw [hc] at has; simp at has
    | cons x l =>
      rw [hc] at hss has
      simp only [List.headD_cons]
      rcases List.mem_cons.1 has with h | h
      · exact h.symm
      · have h2 := (List.pairwise_cons.1 hss).1 a h
        have hx := (hmem x).1 (by rw [hc]; simp)
        have := hfirst x hx.1 hx.2.1
        linarith
  have hlst : s.getLastD 0 = b := by
    have hne : s ≠ [] := List.ne_nil_of_mem has
    rw [List.getLastD_eq_getLast?, List.getLast?_eq_getLast_of_ne_nil hne, Option.getD_some]
    have hx := (hmem _).1 (List.getLast_mem hne)
    refine le_antisymm (hlast _ hx.1 hx.2.2) ?_
    obtain ⟨i, hi, rfl⟩ := List.getElem_of_mem hbs
    rw [List.getLast_eq_getElem]
    rcases (show i ≤ s.length - 1 by omega).lt_or_eq with h | h
    · exact (List.pairwise_iff_getElem.1 hss _ _ hi (by omega) h).le
    · simp [h]
  have he : edgeDistances coord lim ticks = 1 - (coord b - coord a) := by
    unfold edgeDistances
    simp only
    rw [← hsdef, if_neg hlen, hhead, hlst, h0, h1]
    ring
  have m1 : coord a ≤ coord b := hm ⟨hla, hab.le.trans hub⟩ ⟨hla.trans hab.le, hub⟩ hab.le
  have m2 : coord lim.1 ≤ coord a := hm ⟨le_rfl, hla.trans (hab.le.trans hub)⟩ ⟨hla, hab.le.trans hub⟩ hla
  have m3 : coord b ≤ coord lim.2 := hm ⟨hla.trans hab.le, hub⟩ ⟨hla.trans (hab.le.trans hub), le_rfl⟩ hub
  refine ⟨he, ?_, ?_⟩ <;> rw [he] <;> linarith

/-- **C129 (first choice).** Ticks at regular intervals are tried first for an axis that reaches 0 or less, or that ends
between 0.1 and 1000, or that spans less than one and a half decades; powers of ten for the others. -/
theorem C129_first (lo hi : ℝ) (h : lo < hi) :
    firstLoc lo hi = .maxN ↔ lo ≤ 0 ∨ (1 / 10 ≤ hi ∧ (hi < 1000 ∨ hi < lo * 10 ^ (3 / 2 : ℝ))) := by
  unfold firstLoc
  split_ifs with h1 h2 h3
  · simp [h1]
  · simp only [reduceCtorEq, false_iff, not_or, not_and_or]
    norm_num at h2
    exact ⟨h1, .inl (by linarith)⟩
  · simp only [true_iff]
    right
    norm_num at h2 h3
    push Not at h1
    refine ⟨by linarith, ?_⟩
    rcases h3 with h3 | h3
    · exact .inl h3
    · right
      have : Real.logb 10 hi < Real.logb 10 (lo * 10 ^ (3 / 2 : ℝ)) := by
        rw [Real.logb_mul h1.ne' (by positivity), Real.logb_rpow (by norm_num) (by norm_num)]
        linarith
      exact (Real.logb_lt_logb_iff (by norm_num) (by linarith) (by positivity)).1 this
  · simp only [reduceCtorEq, false_iff, not_or, not_and_or]
    push Not at h1 h2 h3
    refine ⟨not_le.2 h1, .inr ⟨not_lt.2 h3.1, ?_⟩⟩
    intro hlt
    have := (Real.logb_lt_logb_iff (b := 10) (by norm_num) (by linarith) (by positivity)).2 hlt
    rw [Real.logb_mul h1.ne' (by positivity), Real.logb_rpow (by norm_num) (by norm_num)] at this
    have := h3.2
    norm_num at this
    linarith

/-- **C129 (preferred locator).** If the ticks of the first choice leave no more than half of the axis empty at its ends, it is
kept. -/
theorem C129_preferred (coord : ℝ → ℝ) (lim : ℝ × ℝ) (ticks : Loc → List ℝ) (h : lim.1 < lim.2) :
    ((lim.1 ≤ 0 ∨ (1 / 10 ≤ lim.2 ∧ (lim.2 < 1000 ∨ lim.2 < lim.1 * 10 ^ (3 / 2 : ℝ)))) →
      edgeDistances coord lim (ticks .maxN) ≤ 1 / 2 → locator coord lim ticks = .maxN) ∧
    (¬ (lim.1 ≤ 0 ∨ (1 / 10 ≤ lim.2 ∧ (lim.2 < 1000 ∨ lim.2 < lim.1 * 10 ^ (3 / 2 : ℝ)))) →
      edgeDistances coord lim (ticks .log) ≤ 1 / 2 → locator coord lim ticks = .log) := by
  rw [← C129_first lim.1 lim.2 h]
  unfold locator
  constructor
  · intro e hle
    rw [e]
    dsimp only
    rw [if_neg (by norm_num; linarith)]
  · intro e hle
    have e : firstLoc lim.1 lim.2 = .log := by
      cases hl : firstLoc lim.1 lim.2 with
      | maxN => exact absurd hl e
      | log => rfl
    rw [e]
    dsimp only
    rw [if_neg (by norm_num; linarith)]

/-- **C129 (minor labels).** The minor ticks are labelled exactly if fewer than two major ones are shown and there are no more
than 10 of them, or 15 if the limits are between 0.001 and 1000 in size. -/
theorem C129_minor (lim : ℝ × ℝ) (major minor : List ℝ) :
    minorLabelled lim major minor = true ↔
      major.countP (fun t => decide (lim.1 ≤ t ∧ t ≤ lim.2)) ≤ 1 ∧
      (minor.countP (fun t => decide (lim.1 ≤ t ∧ t ≤ lim.2)) ≤ 10 ∨
        minor.countP (fun t => decide (lim.1 ≤ t ∧ t ≤ lim.2)) ≤ 15 ∧
        ∀ x ∈ [lim.1, lim.2], 1 / 1000 < |x| ∧ |x| < 1000) := by
  unfold minorLabelled inLims
  simp only [decide_eq_true_eq, ← List.countP_eq_length_filter, ge_iff_le, List.mem_cons, List.not_mem_nil, or_false, forall_eq_or_imp,
    forall_eq]
  have : (0.001 : ℝ) = 1 / 1000 := by norm_num
  rw [this]
  split_ifs with h
  · rw [max_lt_iff, gt_iff_lt, lt_min_iff] at h
    constructor
    · rintro ⟨h1, h2⟩
      exact ⟨by omega, .inr ⟨h2, ⟨h.2.1, h.1.1⟩, h.2.2, h.1.2⟩⟩
    · rintro ⟨h1, h2 | h2⟩ <;> exact ⟨by omega, by omega⟩
  · rw [max_lt_iff, gt_iff_lt, lt_min_iff] at h
    constructor
    · rintro ⟨h1, h2⟩
      exact ⟨by omega, .inl h2⟩
    · rintro ⟨h1, h2 | ⟨-, h2, h3⟩⟩
      · exact ⟨by omega, h2⟩
      · exact absurd ⟨⟨h2.2, h3.2⟩, h2.1, h3.1⟩ h

/-- **C129 (y ticks).** The ticks of the y-axis are those of the caller; if there are none, fractions between 0 and 1 in ascending
order that are labelled with the percentage they are. -/
theorem C129_yticks :
    (∀ l, yTicks (some l) = l) ∧ (yTicks none).Pairwise (· < ·) ∧
    ∀ t ∈ yTicks none, 0 < t ∧ t < 1 ∧ ∀ fl, Rounding fl → percentLabel fl (t * 100) = t * 100 := by
  refine ⟨fun _ => rfl, ?_, fun t ht => ?_⟩
  · norm_num [yTicks]
  · have h : 0 < t ∧ t < 1 ∧ ∃ n : ℤ, t * 100 * 10 ^ 8 = n := by
      simp only [yTicks, List.mem_cons, List.not_mem_nil, or_false] at ht
      rcases ht with rfl | rfl | rfl | rfl | rfl | rfl | rfl | rfl | rfl | rfl | rfl | rfl | rfl | rfl | rfl | rfl | rfl | rfl |
        rfl | rfl | rfl | rfl
      · exact ⟨by norm_num, by norm_num, 1000000, by norm_num⟩
      · exact ⟨by norm_num, by norm_num, 10000000, by norm_num⟩
      · exact ⟨by norm_num, by norm_num, 20000000, by norm_num⟩
      · exact ⟨by norm_num, by norm_num, 50000000, by norm_num⟩
      · exact ⟨by norm_num, by norm_num, 100000000, by norm_num⟩
      · exact ⟨by norm_num, by norm_num, 200000000, by norm_num⟩
      · exact ⟨by norm_num, by norm_num, 300000000, by norm_num⟩
      · exact ⟨by norm_num, by norm_num, 500000000, by norm_num⟩
      · exact ⟨by norm_num, by norm_num, 1000000000, by norm_num⟩
      · exact ⟨by norm_num, by norm_num, 2000000000, by norm_num⟩
      · exact ⟨by norm_num, by norm_num, 3000000000, by norm_num⟩
      · exact ⟨by norm_num, by norm_num, 4000000000, by norm_num⟩
      · exact ⟨by norm_num, by norm_num, 5000000000, by norm_num⟩
      · exact ⟨by norm_num, by norm_num, 6000000000, by norm_num⟩
      · exact ⟨by norm_num, by norm_num, 7000000000, by norm_num⟩
      · exact ⟨by norm_num, by norm_num, 8000000000, by norm_num⟩
      · exact ⟨by norm_num, by norm_num, 9000000000, by norm_num⟩
      · exact ⟨by norm_num, by norm_num, 9500000000, by norm_num⟩
      · exact ⟨by norm_num, by norm_num, 9900000000, by norm_num⟩
      · exact ⟨by norm_num, by norm_num, 9990000000, by norm_num⟩
      · exact ⟨by norm_num, by norm_num, 9999000000, by norm_num⟩
      · exact ⟨by norm_num, by norm_num, 9999990000, by norm_num⟩
    obtain ⟨h1, h2, n, hn⟩ := h
    exact ⟨h1, h2, fun fl hfl => C129_percent_exact fl hfl _ (by linarith) (by linarith) n hn⟩

/-- Exact subtraction is a rounding; 99.99% is labelled 99.99%. -/
example : Rounding id ∧ percentLabel id 99.99 = 99.99 := by
  have h : Rounding id := ⟨monotone_id, fun _ => rfl, fun q _ => by simp⟩
  exact ⟨h, C129_percent_exact id h _ (by norm_num) (by norm_num) 9999000000 (by norm_num)⟩

end Reliability.Props.Ticks
