import Verif.Model.RoundString
import Verif.Spec.RoundString
import Mathlib.Data.Nat.Digits.Lemmas
import Mathlib.Tactic.Linarith
import Mathlib.Tactic.Ring
import Mathlib.Data.List.TakeWhile
import Mathlib.Tactic.LinearCombination
import Mathlib.Tactic.FieldSimp
import Mathlib.Tactic.NormNum
import Mathlib.Tactic.IntervalCases

/-! # C125: round_and_string -/

namespace Reliability.Props.RoundString

open Reliability.RoundString Reliability.Spec.RoundString

/-! ## Digits -/

theorem natOf_append (a b : List Char) : natOf (a ++ b) = natOf a * 10 ^ b.length + natOf b := by
  have key : ∀ (b : List Char) (x : ℕ), b.foldl (fun a c => 10 * a + (c.toNat - 48)) x = x * 10 ^ b.length + natOf b := by
    intro b
    induction b with
    | nil => intro x; simp [natOf]
    | cons c b ih =>
      intro x
      unfold natOf
      simp only [List.foldl_cons, List.length_cons]
      rw [ih, ih (10 * 0 + _)]
      ring
  unfold natOf
  rw [List.foldl_append, key]
  rfl

theorem digitChar_val {n : ℕ} (h : n < 10) : (Nat.digitChar n).toNat - 48 = n ∧ (Nat.digitChar n).isDigit = true := by
  interval_cases n <;> decide

theorem natOf_digits (n : ℕ) : natOf (digits n) = n := by
  unfold digits
  split_ifs with h
  · subst h; decide
  · have key : ∀ l : List ℕ, (∀ x ∈ l, x < 10) → natOf (l.reverse.map Nat.digitChar) = Nat.ofDigits 10 l := by
      intro l hl
      induction l with
      | nil => rfl
      | cons a l ih =>
        rw [List.reverse_cons, List.map_append, natOf_append, ih fun x hx => hl x (List.mem_cons_of_mem _ hx),
          Nat.ofDigits_cons]
        have : natOf ([a].map Nat.digitChar) = a := by
          simp only [natOf, List.map_cons, List.map_nil, List.foldl_cons, List.foldl_nil, Nat.mul_zero, Nat.zero_add]
          exact (digitChar_val (hl a List.mem_cons_self)).1
        rw [this]
        simp
        ring
    rw [key _ fun x hx => Nat.digits_lt_base (by norm_num) hx, Nat.ofDigits_digits]

theorem digits_isDigit (n : ℕ) : ∀ c ∈ digits n, c.isDigit = true := by
  unfold digits
  split_ifs with h
  · simp
  · intro c hc
    obtain ⟨x, hx, rfl⟩ := List.mem_map.1 hc
    exact (digitChar_val (Nat.digits_lt_base (by norm_num) (List.mem_reverse.1 hx))).2

theorem digits_length_le {n k : ℕ} (h : n < 10 ^ k) (hk : 0 < k) : (digits n).length ≤ k := by
  unfold digits
  split_ifs with h0
  · exact hk
  · simp only [List.length_map, List.length_reverse]
    exact Nat.digits_length_le_iff (by norm_num) _ |>.2 h

theorem natOf_zeros (k : ℕ) : natOf (List.replicate k '0') = 0 := by
  induction k with
  | zero => rfl
  | succ k ih =>
    rw [List.replicate_succ, ← List.singleton_append, natOf_append, ih]
    have : natOf ['0'] = 0 := by decide
    rw [this]; simp

theorem natOf_pad (k : ℕ) (l : List Char) : natOf (pad k l) = natOf l := by
  unfold pad
  rw [natOf_append, natOf_zeros]; simp

theorem pad_isDigit {k : ℕ} {l : List Char} (h : ∀ c ∈ l, c.isDigit = true) : ∀ c ∈ pad k l, c.isDigit = true := by
  intro c hc
  rcases List.mem_append.1 hc with hc | hc
  · rw [List.eq_of_mem_replicate hc]; decide
  · exact h c hc

theorem pad_length {k : ℕ} {l : List Char} (h : l.length ≤ k) : (pad k l).length = k := by
  unfold pad
  simp; omega

theorem rstrip_spec (l : List Char) : ∃ k, l = rstrip l ++ List.replicate k '0' := by
  refine ⟨(l.reverse.takeWhile (· == '0')).length, ?_⟩
  unfold rstrip
  have h1 : l.reverse.takeWhile (· == '0') = List.replicate (l.reverse.takeWhile (· == '0')).length '0' := by
    rw [List.eq_replicate_iff]
    exact ⟨rfl, fun b hb => by simpa using List.mem_takeWhile_imp hb⟩
  have h2 := List.takeWhile_append_dropWhile (p := (· == '0')) (l := l.reverse)
  conv_lhs => rw [← List.reverse_reverse l, ← h2, List.reverse_append, h1, List.reverse_replicate]

theorem takeWhile_digits {a r : List Char} (ha : ∀ c ∈ a, c.isDigit = true) (hr : ∀ c ∈ r.head?, c.isDigit = false) :
    (a ++ r).takeWhile Char.isDigit = a ∧ (a ++ r).dropWhile Char.isDigit = r := by
  rw [List.takeWhile_append_of_pos ha, List.dropWhile_append_of_pos ha]
  cases r with
  | nil => simp
  | cons c r =>
    have := hr c (by simp)
    simp [this]

theorem expOf_strExp (e : ℤ) : expOf (strExp e) = e := by
  unfold strExp
  split_ifs with h
  · simp only [expOf, natOf_pad, natOf_digits]; omega
  · simp only [expOf, natOf_pad, natOf_digits]; omega

theorem unsigned_plain {ip r : List Char} (hi : ∀ c ∈ ip, c.isDigit = true) (hr : r = [] ∨ ∃ e, r = strExp e) :
    unsigned (ip ++ r) = natOf ip * 10 ^ expOf r := by
  have h : (ip ++ r).takeWhile Char.isDigit = ip ∧ (ip ++ r).dropWhile Char.isDigit = r := by
    refine takeWhile_digits hi ?_
    rcases hr with rfl | ⟨e, rfl⟩ <;> simp [strExp]
  unfold unsigned
  rw [h.1, h.2]
  rcases hr with rfl | ⟨e, rfl⟩ <;> rfl

theorem unsigned_point {ip fp r : List Char} (hi : ∀ c ∈ ip, c.isDigit = true) (hf : ∀ c ∈ fp, c.isDigit = true)
    (hr : r = [] ∨ ∃ e, r = strExp e) :
    unsigned (ip ++ '.' :: (fp ++ r)) = natOf (ip ++ fp) * 10 ^ (expOf r - fp.length) := by
  have h : (ip ++ '.' :: (fp ++ r)).takeWhile Char.isDigit = ip ∧
      (ip ++ '.' :: (fp ++ r)).dropWhile Char.isDigit = '.' :: (fp ++ r) := takeWhile_digits hi (by simp)
  have h' : (fp ++ r).takeWhile Char.isDigit = fp ∧ (fp ++ r).dropWhile Char.isDigit = r := by
    refine takeWhile_digits hf ?_
    rcases hr with rfl | ⟨e, rfl⟩ <;> simp [strExp]
  unfold unsigned
  rw [h.1, h.2]
  simp only [h'.1, h'.2]

theorem digits_ne (n : ℕ) : ∃ c r, digits n = c :: r := by
  cases h : digits n with
  | nil =>
    unfold digits at h
    split_ifs at h with h0
    rw [List.map_eq_nil_iff, List.reverse_eq_nil_iff, Nat.digits_eq_nil_iff_eq_zero] at h
    exact absurd h h0
  | cons c r => exact ⟨c, r, rfl⟩

theorem value_sign (neg : Bool) (n : ℕ) (r : List Char) :
    value (String.ofList (sign neg ++ (digits n ++ r))) = if neg then -unsigned (digits n ++ r) else unsigned (digits n ++ r) := by
  obtain ⟨c, l, h⟩ := digits_ne n
  have hc : c ≠ '-' := by
    rintro rfl
    have := digits_isDigit n '-' (by rw [h]; simp)
    revert this; decide
  unfold value
  rw [String.toList_ofList]
  cases neg with
  | true => simp [sign]
  | false =>
    simp only [sign, Bool.false_eq_true, if_false, List.nil_append]
    rw [h]
    simp only [List.cons_append]
    split
    · rename_i heq
      exact absurd (List.cons.inj heq).1 hc
    · rfl

/-! ## Rounding -/

theorem nearest_close (q : ℚ) : |(nearest q : ℚ) - q| ≤ 1 / 2 := by
  have h1 := Int.floor_le q
  have h2 := Int.lt_floor_add_one q
  unfold nearest
  simp only
  split_ifs <;> push_cast <;> rw [abs_le] <;> constructor <;> linarith

theorem nearest_mono_int {q : ℚ} {z : ℤ} (h : (z : ℚ) ≤ q) : z ≤ nearest q := by
  have := Int.le_floor.2 h
  unfold nearest
  simp only
  split_ifs <;> omega

theorem nearest_le_int {q : ℚ} {z : ℤ} (h : q ≤ z) : nearest q ≤ z := by
  have h1 : ⌊q⌋ ≤ z := by
    have := (Int.floor_le q).trans h
    exact_mod_cast this
  rcases h1.lt_or_eq with h1 | h1
  · unfold nearest
    simp only
    split_ifs <;> omega
  · have : q - ⌊q⌋ = 0 := by
      have := Int.floor_le q
      rw [h1] at this ⊢
      linarith
    unfold nearest
    simp only [this]
    norm_num
    exact h1.le

theorem nearest_nat {q : ℚ} (h : 0 ≤ q) : ((nearest q).natAbs : ℚ) = nearest q := by
  have : 0 ≤ nearest q := nearest_mono_int (by exact_mod_cast h)
  rw [← Int.cast_natCast, Int.natAbs_of_nonneg this]

theorem sgn_abs (q v : ℚ) : |(if decide (q < 0) = true then -v else v) - q| = |v - abs q| := by
  by_cases h : q < 0
  · simp only [h, decide_true, if_true]
    rw [abs_of_neg h, ← abs_neg]
    congr 1; ring
  · simp only [h, decide_false, Bool.false_eq_true, if_false]
    rw [abs_of_nonneg (not_lt.1 h)]

theorem strRound_exact (q : ℚ) (d : ℕ) : value (String.ofList (strRound q d)) =
    if decide (q < 0) then -(((nearest (|q| * 10 ^ d)).natAbs : ℚ) / 10 ^ d) else ((nearest (|q| * 10 ^ d)).natAbs : ℚ) / 10 ^ d := by
  set m := (nearest (|q| * 10 ^ d)).natAbs with hm
  have hu : ∀ fp : List Char, (∀ c ∈ fp, c.isDigit = true) → (natOf fp : ℚ) * 10 ^ d = (m % 10 ^ d : ℕ) * 10 ^ fp.length →
      unsigned (digits (m / 10 ^ d) ++ '.' :: fp) = (m : ℚ) / 10 ^ d := by
    intro fp hf hv
    have := unsigned_point (digits_isDigit (m / 10 ^ d)) hf (.inl rfl : ([] : List Char) = [] ∨ _)
    rw [List.append_nil] at this
    rw [this, natOf_append, natOf_digits]
    have he : expOf [] = 0 := rfl
    rw [he, zero_sub, zpow_neg, zpow_natCast]
    have h10 : (10 : ℚ) ^ fp.length ≠ 0 := by positivity
    have h10' : (10 : ℚ) ^ d ≠ 0 := by positivity
    have hdiv : (m : ℚ) = (m / 10 ^ d : ℕ) * 10 ^ d + (m % 10 ^ d : ℕ) := by
      have := Nat.div_add_mod' m (10 ^ d)
      exact_mod_cast this.symm
    rw [← div_eq_mul_inv, div_eq_div_iff h10 h10']
    push_cast at hv hdiv ⊢
    rw [hdiv]
    linear_combination hv
  unfold strRound
  simp only [← hm, List.append_assoc]
  rw [value_sign]
  by_cases h0 : m % 10 ^ d = 0
  · rw [if_pos h0, hu ['0'] (by decide) (by rw [h0, show natOf ['0'] = 0 by decide]; simp)]
  · rw [if_neg h0]
    have hd : 0 < d := by
      rcases Nat.eq_zero_or_pos d with rfl | h
      · simp [Nat.mod_one] at h0
      · exact h
    set fp0 := pad d (digits (m % 10 ^ d)) with hfp0
    have hlen : fp0.length = d := pad_length (digits_length_le (Nat.mod_lt _ (by positivity)) hd)
    obtain ⟨k, hk⟩ := rstrip_spec fp0
    have hdig : ∀ c ∈ rstrip fp0, c.isDigit = true := by
      intro c hc
      refine pad_isDigit (digits_isDigit (m % 10 ^ d)) (k := d) c ?_
      rw [← hfp0, hk]
      exact List.mem_append_left _ hc
    rw [hu (rstrip fp0) hdig]
    have h1 : natOf fp0 = m % 10 ^ d := by rw [hfp0, natOf_pad, natOf_digits]
    rw [hk, natOf_append, natOf_zeros, List.length_replicate] at h1
    have h2 : (rstrip fp0).length + k = d := by rw [← hlen]; conv_rhs => rw [hk]; simp
    rw [← h1, ← h2, pow_add]
    push_cast
    ring

theorem strRound_value (q : ℚ) (d : ℕ) : |value (String.ofList (strRound q d)) - q| ≤ 1 / 2 / 10 ^ d := by
  rw [strRound_exact, sgn_abs, nearest_nat (by positivity)]
  have := nearest_close (|q| * 10 ^ d)
  have h10 : (0 : ℚ) < 10 ^ d := by positivity
  have e : (nearest (|q| * 10 ^ d) : ℚ) / 10 ^ d - |q| = ((nearest (|q| * 10 ^ d) : ℚ) - |q| * 10 ^ d) / 10 ^ d := by
    field_simp
  rw [e, abs_div, abs_of_pos h10]
  exact div_le_div_of_nonneg_right this h10.le

theorem mantissa_spec {q : ℚ} (hq : q ≠ 0) (d : ℕ) :
    10 ^ d ≤ (mantissa q d).1 ∧ (mantissa q d).1 < 10 ^ (d + 1) ∧
      |((mantissa q d).1 : ℚ) / 10 ^ d * 10 ^ (mantissa q d).2 - abs q| ≤ 1 / 2 / 10 ^ d * |q| := by
  have hpos : 0 < |q| := abs_pos.2 hq
  set e := Int.log 10 |q| with he
  set m := (nearest (|q| / 10 ^ e * 10 ^ d)).natAbs with hm
  have h1 : (10 : ℚ) ^ e ≤ |q| := by exact_mod_cast Int.zpow_log_le_self (b := 10) (by norm_num) hpos
  have h2 : |q| < (10 : ℚ) ^ (e + 1) := by exact_mod_cast Int.lt_zpow_succ_log_self (b := 10) (by norm_num) |q|
  have hE : (0 : ℚ) < 10 ^ e := zpow_pos (by norm_num) _
  have hD : (0 : ℚ) < 10 ^ d := by positivity
  have h3 : 1 ≤ |q| / 10 ^ e := by rwa [one_le_div hE]
  have h4 : |q| / 10 ^ e ≤ 10 := by
    rw [div_le_iff₀ hE]
    rw [zpow_add_one₀ (by norm_num)] at h2
    linarith
  have hnat : (m : ℤ) = nearest (|q| / 10 ^ e * 10 ^ d) :=
    Int.natAbs_of_nonneg (nearest_mono_int (by push_cast; positivity))
  have hlo : (10 : ℕ) ^ d ≤ m := by
    have : (((10 ^ d : ℕ) : ℤ)) ≤ nearest (|q| / 10 ^ e * 10 ^ d) := nearest_mono_int (by
      push_cast
      nlinarith)
    rw [← hnat] at this
    exact_mod_cast this
  have hhi : m ≤ 10 ^ (d + 1) := by
    have : nearest (|q| / 10 ^ e * 10 ^ d) ≤ ((10 ^ (d + 1) : ℕ) : ℤ) := nearest_le_int (by
      push_cast
      rw [pow_succ]
      nlinarith)
    rw [← hnat] at this
    exact_mod_cast this
  have herr : |(m : ℚ) / 10 ^ d * 10 ^ e - abs q| ≤ 1 / 2 / 10 ^ d * |q| := by
    have hc := nearest_close (|q| / 10 ^ e * 10 ^ d)
    have hmq : (m : ℚ) = nearest (|q| / 10 ^ e * 10 ^ d) := by rw [← hnat, Int.cast_natCast]
    rw [← hmq] at hc
    have e1 : (m : ℚ) / 10 ^ d * 10 ^ e - |q| = ((m : ℚ) - |q| / 10 ^ e * 10 ^ d) * (10 ^ e / 10 ^ d) := by
      field_simp
    rw [e1, abs_mul, abs_of_pos (div_pos hE hD)]
    calc _ ≤ 1 / 2 * (10 ^ e / 10 ^ d) := mul_le_mul_of_nonneg_right hc (by positivity)
      _ = 1 / 2 / 10 ^ d * 10 ^ e := by ring
      _ ≤ _ := mul_le_mul_of_nonneg_left h1 (by positivity)
  unfold mantissa
  simp only [← he, ← hm]
  split_ifs with hif
  · refine ⟨le_rfl, Nat.pow_lt_pow_right (by norm_num) (Nat.lt_succ_self _), ?_⟩
    rw [hif] at herr
    convert herr using 3
    push_cast
    rw [zpow_add_one₀ (by norm_num), pow_succ]
    field_simp
  · exact ⟨hlo, lt_of_le_of_ne hhi hif, herr⟩

theorem strSci_value {q : ℚ} (hq : q ≠ 0) (d : ℕ) : |value (String.ofList (strSci q d)) - q| ≤ 1 / 2 / 10 ^ d * |q| := by
  obtain ⟨h1, h2, h3⟩ := mantissa_spec hq d
  set M := mantissa q d with hM
  have hval : value (String.ofList (strSci q d)) =
      if decide (q < 0) then -((M.1 : ℚ) / 10 ^ d * 10 ^ M.2) else (M.1 : ℚ) / 10 ^ d * 10 ^ M.2 := by
    have hdiv : (M.1 : ℚ) = (M.1 / 10 ^ d : ℕ) * 10 ^ d + (M.1 % 10 ^ d : ℕ) := by
      have := Nat.div_add_mod' M.1 (10 ^ d)
      exact_mod_cast this.symm
    have h10' : (10 : ℚ) ^ d ≠ 0 := by positivity
    unfold strSci
    simp only [← hM, List.append_assoc]
    rw [value_sign]
    by_cases h0 : M.1 % 10 ^ d = 0
    · rw [if_pos h0, List.nil_append, unsigned_plain (digits_isDigit _) (.inr ⟨_, rfl⟩), natOf_digits, expOf_strExp]
      rw [h0] at hdiv
      have : (M.1 : ℚ) / 10 ^ d = (M.1 / 10 ^ d : ℕ) := by
        rw [hdiv]
        push_cast
        field_simp
        simp
      rw [this]
    · rw [if_neg h0]
      have hd : 0 < d := by
        rcases Nat.eq_zero_or_pos d with h | h
        · rw [h] at h0; simp [Nat.mod_one] at h0
        · exact h
      have hlen : (pad d (digits (M.1 % 10 ^ d))).length = d := pad_length (digits_length_le (Nat.mod_lt _ (by positivity)) hd)
      rw [List.cons_append, unsigned_point (digits_isDigit _) (pad_isDigit (digits_isDigit _)) (.inr ⟨_, rfl⟩), natOf_append,
        natOf_pad, natOf_digits, natOf_digits, expOf_strExp, hlen, zpow_sub₀ (by norm_num), zpow_natCast]
      have : ((M.1 / 10 ^ d * 10 ^ d + M.1 % 10 ^ d : ℕ) : ℚ) = M.1 := by
        rw [Nat.div_add_mod']
      rw [this]
      ring_nf
  rw [hval, sgn_abs]
  exact h3

/-! ## The property -/

/-- **C125 (whole numbers).** A whole number is printed exactly, as an optional minus and its digits. -/
theorem C125_whole (z : ℤ) (decimals : ℤ) :
    value (roundAndString (.fin z) decimals) = z ∧
    ∃ ds : List Char, ds ≠ [] ∧ (∀ c ∈ ds, c.isDigit = true) ∧
      (roundAndString (.fin z) decimals).toList = if z < 0 then '-' :: ds else ds := by
  have e : roundAndString (.fin z) decimals = String.ofList (strInt z) := by
    simp [roundAndString]
  rw [e]
  constructor
  · unfold strInt
    have := value_sign (decide (z < 0)) z.natAbs []
    rw [List.append_nil] at this
    rw [this]
    have h := unsigned_plain (digits_isDigit z.natAbs) (.inl rfl : ([] : List Char) = [] ∨ _)
    rw [List.append_nil] at h
    rw [h, natOf_digits]
    have he : expOf [] = 0 := rfl
    rw [he]
    by_cases hz : z < 0
    · simp only [hz, decide_true, if_true, zpow_zero, mul_one]
      have : (z.natAbs : ℚ) = -z := by
        rw [← Int.cast_natCast, Int.ofNat_natAbs_of_nonpos hz.le, Int.cast_neg]
      rw [this]; ring
    · simp only [hz, decide_false, Bool.false_eq_true, if_false, zpow_zero, mul_one]
      rw [← Int.cast_natCast, Int.natAbs_of_nonneg (not_lt.1 hz)]
  · refine ⟨digits z.natAbs, ?_, digits_isDigit _, ?_⟩
    · obtain ⟨c, r, h⟩ := digits_ne z.natAbs
      rw [h]; simp
    · rw [String.toList_ofList]
      unfold strInt sign
      by_cases hz : z < 0 <;> simp [hz]

theorem not_whole {q : ℚ} (h : ∀ z : ℤ, q ≠ z) : q - ⌊q⌋ ≠ 0 := fun h0 => h ⌊q⌋ (sub_eq_zero.1 h0)

/-- **C125 (ordinary numbers).** Between 1e-4 and 1e9 in size the printed number is off by at most half a unit of the last of
the `decimals` places (negative `decimals` count as 0). -/
theorem C125_ordinary (q : ℚ) (decimals : ℤ) (h1 : 1 / 10 ^ 4 < |q|) (h2 : |q| < 10 ^ 9) :
    |value (roundAndString (.fin q) decimals) - q| ≤ 1 / 2 / 10 ^ decimals.toNat := by
  by_cases hw : ∃ z : ℤ, q = z
  · obtain ⟨z, rfl⟩ := hw
    rw [(C125_whole z decimals).1, sub_self, abs_zero]
    positivity
  · push Not at hw
    have e : roundAndString (.fin q) decimals = String.ofList (strRound q decimals.toNat) := by
      unfold roundAndString
      simp only
      rw [if_neg (not_whole hw), if_neg (by rw [not_or]; exact ⟨not_le.2 h2, not_le.2 h1⟩)]
    rw [e]
    exact strRound_value q _

theorem nearest_even {q : ℚ} (h : q - ⌊q⌋ = 1 / 2) : Even (nearest q) := by
  unfold nearest
  simp only
  rw [if_neg (by rw [h]; norm_num), if_neg (by rw [h]; norm_num)]
  split_ifs with h2
  · exact Int.even_iff.2 h2
  · rw [Int.even_iff]; omega

/-- **C125 (ties).** In that range a number exactly halfway between two numbers with `decimals` places is printed as the one whose
last place is even. -/
theorem C125_ties (q : ℚ) (decimals n : ℤ) (h1 : 1 / 10 ^ 4 < |q|) (h2 : |q| < 10 ^ 9)
    (hq : q * 10 ^ decimals.toNat = n + 1 / 2) :
    ∃ m : ℤ, Even m ∧ (m = n ∨ m = n + 1) ∧ value (roundAndString (.fin q) decimals) * 10 ^ decimals.toNat = m := by
  set d := decimals.toNat with hd
  have hw : ∀ z : ℤ, q ≠ z := by
    rintro z rfl
    have : ((2 * (z * 10 ^ d - n) : ℤ) : ℚ) = (1 : ℤ) := by push_cast; linarith
    have := Int.cast_injective this
    omega
  have e : roundAndString (.fin q) decimals = String.ofList (strRound q d) := by
    unfold roundAndString
    simp only
    rw [if_neg (not_whole hw), if_neg (by rw [not_or]; exact ⟨not_le.2 h2, not_le.2 h1⟩)]
  have hfl : |q| * 10 ^ d - ⌊|q| * 10 ^ d⌋ = 1 / 2 := by
    rcases le_or_gt 0 q with h | h
    · rw [abs_of_nonneg h, hq, show ⌊(n : ℚ) + 1 / 2⌋ = n from Int.floor_eq_iff.2 ⟨by linarith, by linarith⟩]; ring
    · rw [abs_of_neg h, neg_mul, hq, show ⌊-((n : ℚ) + 1 / 2)⌋ = -n - 1 from Int.floor_eq_iff.2 ⟨by push_cast; linarith, by push_cast; linarith⟩]
      push_cast; ring
  have hev := nearest_even hfl
  have hc := nearest_close (|q| * 10 ^ d)
  rw [abs_le] at hc
  have h10 : (10 : ℚ) ^ d ≠ 0 := by positivity
  rw [e, strRound_exact, nearest_nat (by positivity)]
  rcases le_or_gt 0 q with h | h
  · refine ⟨nearest (|q| * 10 ^ d), hev, ?_, ?_⟩
    · rw [abs_of_nonneg h, hq] at hc ⊢
      have a1 : n ≤ nearest ((n : ℚ) + 1 / 2) := by
        have : (n : ℚ) ≤ nearest ((n : ℚ) + 1 / 2) := by linarith
        exact_mod_cast this
      have a2 : nearest ((n : ℚ) + 1 / 2) ≤ n + 1 := by
        have : (nearest ((n : ℚ) + 1 / 2) : ℚ) ≤ n + 1 := by linarith
        exact_mod_cast this
      omega
    · rw [decide_eq_false (not_lt.2 h)]
      simp only [Bool.false_eq_true, if_false]
      field_simp
  · refine ⟨-nearest (|q| * 10 ^ d), hev.neg, ?_, ?_⟩
    · rw [abs_of_neg h, neg_mul, hq] at hc ⊢
      set k := nearest (-((n : ℚ) + 1 / 2))
      have a1 : n ≤ -k := by
        have : (n : ℚ) ≤ -k := by linarith
        exact_mod_cast this
      have a2 : -k ≤ n + 1 := by
        have : (-k : ℚ) ≤ n + 1 := by linarith
        exact_mod_cast this
      omega
    · rw [decide_eq_true h]
      simp only [if_true]
      push_cast
      field_simp

/-- 0.125 to two places is 0.12. -/
example : value (roundAndString (.fin (1 / 8)) 2) = 12 / 100 := by
  obtain ⟨m, h1, h2, h3⟩ := C125_ties (1 / 8) 2 12 (by norm_num) (by norm_num)
    (by rw [show Int.toNat 2 = 2 from rfl]; norm_num)
  rw [show Int.toNat 2 = 2 from rfl] at h3
  rcases h2 with rfl | rfl
  · norm_num at h3 ⊢; linarith
  · exact absurd h1 (by decide)

/-- **C125 (large and small numbers).** Outside that range the relative error is at most half a unit of the last of the
`decimals` places of the mantissa. -/
theorem C125_scientific (q : ℚ) (decimals : ℤ) (h : |q| ≤ 1 / 10 ^ 4 ∨ 10 ^ 9 ≤ |q|) :
    |value (roundAndString (.fin q) decimals) - q| ≤ 1 / 2 / 10 ^ decimals.toNat * |q| := by
  by_cases hw : ∃ z : ℤ, q = z
  · obtain ⟨z, rfl⟩ := hw
    rw [(C125_whole z decimals).1, sub_self, abs_zero]
    positivity
  · push Not at hw
    have e : roundAndString (.fin q) decimals = String.ofList (strSci q decimals.toNat) := by
      unfold roundAndString
      simp only
      rw [if_neg (not_whole hw), if_pos h.symm]
    rw [e]
    refine strSci_value ?_ _
    rintro rfl
    exact hw 0 (by simp)

/-- **C125 (sign and infinities).** The text starts with a minus exactly if the number is negative; infinities and nan are
printed as such. -/
theorem C125_sign (q : ℚ) (decimals : ℤ) : (roundAndString (.fin q) decimals).toList.head? = some '-' ↔ q < 0 := by
  have key : ∀ (n : ℕ) (r : List Char) (neg : Bool), (sign neg ++ (digits n ++ r)).head? = some '-' ↔ neg = true := by
    intro n r neg
    obtain ⟨c, l, h⟩ := digits_ne n
    have hc : c ≠ '-' := by
      rintro rfl
      have := digits_isDigit n '-' (by rw [h]; simp)
      revert this; decide
    cases neg <;> simp [sign, h, hc]
  unfold roundAndString
  simp only [String.toList_ofList]
  split_ifs with h1 h2
  · have := key (⌊q⌋.natAbs) [] (decide (⌊q⌋ < 0))
    rw [List.append_nil] at this
    unfold strInt
    rw [this, decide_eq_true_iff]
    exact Int.floor_lt_zero
  · unfold strSci
    simp only [List.append_assoc]
    rw [key, decide_eq_true_iff]
  · unfold strRound
    simp only [List.append_assoc]
    rw [key, decide_eq_true_iff]

/-- **C125 (form).** A number that is not whole is printed, in the ordinary range, with a point, at least one digit before it
and between one and `decimals` digits after it (one if `decimals` is less); outside it, in scientific notation with one digit
other than 0 before the point, no or exactly `decimals` digits after it, and an exponent of at least two digits. -/
theorem C125_form (q : ℚ) (decimals : ℤ) (hw : ∀ z : ℤ, q ≠ z) :
    (1 / 10 ^ 4 < |q| → |q| < 10 ^ 9 → ∃ ip fp : List Char, ip ≠ [] ∧ (∀ c ∈ ip ++ fp, c.isDigit = true) ∧
      0 < fp.length ∧ fp.length ≤ max 1 decimals.toNat ∧
      (roundAndString (.fin q) decimals).toList = (if q < 0 then ['-'] else []) ++ ip ++ '.' :: fp) ∧
    (|q| ≤ 1 / 10 ^ 4 ∨ 10 ^ 9 ≤ |q| → ∃ (c : Char) (fp ds : List Char) (esign : Char),
      (∀ x ∈ c :: (fp ++ ds), x.isDigit = true) ∧ c ≠ '0' ∧ 2 ≤ ds.length ∧ (esign = '+' ∨ esign = '-') ∧
      (fp = [] ∨ fp.length = decimals.toNat) ∧
      (roundAndString (.fin q) decimals).toList = (if q < 0 then ['-'] else []) ++ c :: ((if fp = [] then [] else '.' :: fp) ++
        'e' :: esign :: ds)) := by
  have hq0 : q ≠ 0 := by rintro rfl; exact hw 0 (by simp)
  set d := decimals.toNat with hd
  have hsign : sign (decide (q < 0)) = if q < 0 then ['-'] else [] := by
    unfold sign
    by_cases h : q < 0 <;> simp [h]
  constructor
  · intro h1 h2
    have e : roundAndString (.fin q) decimals = String.ofList (strRound q d) := by
      unfold roundAndString
      simp only
      rw [if_neg (not_whole hw), if_neg (by rw [not_or]; exact ⟨not_le.2 h2, not_le.2 h1⟩)]
    rw [e, String.toList_ofList]
    unfold strRound
    simp only
    set m := (nearest (|q| * 10 ^ d)).natAbs with hm
    obtain ⟨c, l, hc⟩ := digits_ne (m / 10 ^ d)
    rw [hsign]
    by_cases h0 : m % 10 ^ d = 0
    · rw [if_pos h0]
      refine ⟨_, ['0'], by rw [hc]; simp, ?_, by simp, by simp, rfl⟩
      intro x hx
      rcases List.mem_append.1 hx with hx | hx
      · exact digits_isDigit _ x hx
      · rw [List.mem_singleton.1 hx]; decide
    · rw [if_neg h0]
      have hdp : 0 < d := by
        rcases Nat.eq_zero_or_pos d with h | h
        · rw [h] at h0; simp [Nat.mod_one] at h0
        · exact h
      set fp0 := pad d (digits (m % 10 ^ d)) with hfp0
      have hlen : fp0.length = d := pad_length (digits_length_le (Nat.mod_lt _ (by positivity)) hdp)
      obtain ⟨k, hk⟩ := rstrip_spec fp0
      have h2 : (rstrip fp0).length + k = d := by rw [← hlen]; conv_rhs => rw [hk]; simp
      refine ⟨_, rstrip fp0, by rw [hc]; simp, ?_, ?_, by omega, rfl⟩
      · intro x hx
        rcases List.mem_append.1 hx with hx | hx
        · exact digits_isDigit _ x hx
        · refine pad_isDigit (digits_isDigit (m % 10 ^ d)) (k := d) x ?_
          rw [← hfp0, hk]
          exact List.mem_append_left _ hx
      · rcases Nat.eq_zero_or_pos (rstrip fp0).length with h | h
        · exfalso
          rw [List.length_eq_zero_iff] at h
          rw [h, List.nil_append] at hk
          have h1 : natOf fp0 = m % 10 ^ d := by rw [hfp0, natOf_pad, natOf_digits]
          rw [hk, natOf_zeros] at h1
          exact h0 h1.symm
        · exact h
  · intro h
    have e : roundAndString (.fin q) decimals = String.ofList (strSci q d) := by
      unfold roundAndString
      simp only
      rw [if_neg (not_whole hw), if_pos h.symm]
    rw [e, String.toList_ofList]
    obtain ⟨h1, h2, -⟩ := mantissa_spec hq0 d
    unfold strSci
    simp only
    set M := mantissa q d with hM
    rw [hsign]
    have hlt : M.1 / 10 ^ d < 10 := by
      rw [Nat.div_lt_iff_lt_mul (by positivity), mul_comm, ← pow_succ]; exact h2
    have hpos : 0 < M.1 / 10 ^ d := Nat.div_pos h1 (by positivity)
    have hlead : ∃ c, digits (M.1 / 10 ^ d) = [c] ∧ c.isDigit = true ∧ c ≠ '0' := by
      generalize M.1 / 10 ^ d = n at hlt hpos
      interval_cases n <;> exact ⟨_, rfl, by decide, by decide⟩
    obtain ⟨c, hc, hcd, hc0⟩ := hlead
    have hexp : (strExp M.2) = 'e' :: (if M.2 < 0 then '-' else '+') :: pad 2 (digits M.2.natAbs) := rfl
    have h2le : 2 ≤ (pad 2 (digits M.2.natAbs)).length := by
      unfold pad
      simp; omega
    have hes : (if M.2 < 0 then '-' else '+') = '+' ∨ (if M.2 < 0 then '-' else '+') = '-' := by
      by_cases h : M.2 < 0 <;> simp [h]
    by_cases h0 : M.1 % 10 ^ d = 0
    · refine ⟨c, [], _, _, ?_, hc0, h2le, hes, .inl rfl, ?_⟩
      · intro x hx
        rcases List.mem_cons.1 hx with rfl | hx
        · exact hcd
        · exact pad_isDigit (digits_isDigit _) _ hx
      · rw [if_pos h0, hc, hexp]
        simp
    · have hdp : 0 < d := by
        rcases Nat.eq_zero_or_pos d with h | h
        · rw [h] at h0; simp [Nat.mod_one] at h0
        · exact h
      have hlen : (pad d (digits (M.1 % 10 ^ d))).length = d :=
        pad_length (digits_length_le (Nat.mod_lt _ (by positivity)) hdp)
      refine ⟨c, pad d (digits (M.1 % 10 ^ d)), _, _, ?_, hc0, h2le, hes, .inr hlen, ?_⟩
      · intro x hx
        rcases List.mem_cons.1 hx with rfl | hx
        · exact hcd
        · rcases List.mem_append.1 hx with hx | hx <;> exact pad_isDigit (digits_isDigit _) _ hx
      · have hne : pad d (digits (M.1 % 10 ^ d)) ≠ [] := by
          intro h; rw [h] at hlen; simp at hlen; omega
        rw [if_neg h0, hc, hexp, if_neg hne]
        simp

/-- **C125 (finding).** The examples of the documentation include "original: 1e+20 // new: 1e+20"; whole numbers are never
printed in scientific notation, this one is printed with all its digits. -/
theorem C125_large_whole_finding :
    roundAndString (.fin (10 ^ 20)) 5 = "100000000000000000000" ∧ roundAndString (.fin (-10 ^ 20)) 5 = "-100000000000000000000" := by
  decide +kernel

/-- **C125 (finding).** With fewer than four decimals a number is printed as zero although a ten times smaller one is printed
correctly: the order of printed numbers is not that of the numbers. -/
theorem C125_vanishes_finding :
    roundAndString (.fin (3 / 10 ^ 4)) 3 = "0.0" ∧ roundAndString (.fin (3 / 10 ^ 5)) 3 = "3e-05" := by
  decide +kernel

/-- Other examples of the documentation come out as stated. -/
example : roundAndString (.fin (-54857485 / 10 ^ 12)) 5 = "-5.48575e-05" ∧ roundAndString (.fin (254875415 / 10 ^ 24)) 5 = "2.54875e-16" ∧
    roundAndString (.fin 0) 5 = "0" ∧ roundAndString (.fin (-10 ^ 8)) 5 = "-100000000" ∧
    roundAndString (.fin (123456789 / 10 ^ 7)) 5 = "12.34568" := by
  decide +kernel

end Reliability.Props.RoundString
