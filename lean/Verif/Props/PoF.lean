import Verif.Lemmas.PoF
import Mathlib.Analysis.SpecialFunctions.Integrals.Basic
import Mathlib.Tactic.NormNum

/-! # C61, C62, C64: Palmgren-Miner, creep and Arrhenius relations, crack growth -/

namespace Reliability.Props.PoF

open Reliability Reliability.PoF Spec

/-! ## C61 -/

theorem zip_scale (rows : List (ℝ × ℝ)) (k : ℝ) :
    List.zipWith (fun x r => x / r) ((rows.map Prod.snd).map (k * ·)) (rows.map Prod.fst) =
      (rows.map fun r => r.2 / r.1).map (k * ·) := by
  induction rows with
  | nil => rfl
  | cons r rows ih =>
    simp only [List.map_cons, List.zipWith_cons_cons]
    rw [ih]; congr 1; ring

theorem sum_scale (l : List ℝ) (k : ℝ) : (l.map (k * ·)).sum = k * l.sum := by
  induction l with
  | nil => simp
  | cons a l ih => simp [ih, mul_add]

theorem sum_pos {l : List ℝ} (h : ∀ x ∈ l, 0 ≤ x) (hp : ∃ x ∈ l, 0 < x) : 0 < l.sum := by
  induction l with
  | nil => simp at hp
  | cons a l ih =>
    have hl : 0 ≤ l.sum := List.sum_nonneg fun x hx => h x (List.mem_cons_of_mem _ hx)
    have ha := h a List.mem_cons_self
    obtain ⟨x, hx, hx0⟩ := hp
    rw [List.sum_cons]
    rcases List.mem_cons.1 hx with rfl | hx
    · linarith
    · have := ih (fun x hx => h x (List.mem_cons_of_mem _ hx)) ⟨x, hx, hx0⟩
      linarith

theorem miner_scale (rows : List (ℝ × ℝ)) (stress : List ℝ) (hs : stress.length = rows.length)
    (hr : ∀ r ∈ rows, 0 < r.1 ∧ 0 ≤ r.2) (hpos : ∃ r ∈ rows, 0 < r.2) (k : ℝ) (hk : 0 < k) :
    0 < (rows.map fun r => r.2 / r.1).sum ∧
    palmgrenMiner (rows.map Prod.fst) ((rows.map Prod.snd).map (k * ·)) stress =
      .ok ⟨k * (rows.map fun r => r.2 / r.1).sum, 1 / (k * (rows.map fun r => r.2 / r.1).sum),
        rows.map fun r => r.2 / r.1 / (rows.map fun r => r.2 / r.1).sum⟩ := by
  have hsum : 0 < (rows.map fun r => r.2 / r.1).sum := by
    apply sum_pos
    · intro x hx
      obtain ⟨r, h, rfl⟩ := List.mem_map.1 hx
      exact div_nonneg (hr r h).2 (hr r h).1.le
    · obtain ⟨r, h, h0⟩ := hpos
      exact ⟨_, List.mem_map_of_mem h, div_pos h0 (hr r h).1⟩
  refine ⟨hsum, ?_⟩
  unfold palmgrenMiner
  rw [if_neg (by simp [hs]), if_neg]
  · simp only [zip_scale, sum_scale]
    rw [if_neg (by positivity), List.map_map, List.map_map]
    congr 2
    apply List.map_congr_left
    intro r _
    simp only [Function.comp]
    field_simp
  · intro h
    obtain ⟨r, h, h0⟩ := List.mem_map.1 h
    exact absurd h0 (hr r h).1.ne'

/-- **C61.** Damage per cycle is the sum of time/rated life; service life times damage per cycle is 1; the damage
fractions are proportional to time/rated life, non-negative and sum to 1; scaling every time at stress by `k` leaves the
fractions and divides the service life by `k`. -/
theorem C61_palmgren_miner (rows : List (ℝ × ℝ)) (stress : List ℝ) (hs : stress.length = rows.length)
    (hr : ∀ r ∈ rows, 0 < r.1 ∧ 0 ≤ r.2) (hpos : ∃ r ∈ rows, 0 < r.2) :
    ∃ out, palmgrenMiner (rows.map Prod.fst) (rows.map Prod.snd) stress = .ok out ∧
      out.consumed = (rows.map fun r => r.2 / r.1).sum ∧ 0 < out.consumed ∧
      out.service_life * out.consumed = 1 ∧
      out.damage_frac = rows.map (fun r => r.2 / r.1 / out.consumed) ∧
      (∀ x ∈ out.damage_frac, 0 ≤ x) ∧ out.damage_frac.sum = 1 ∧
      ∀ k > 0, ∃ out', palmgrenMiner (rows.map Prod.fst) ((rows.map Prod.snd).map (k * ·)) stress = .ok out' ∧
        out'.service_life = out.service_life / k ∧ out'.damage_frac = out.damage_frac := by
  obtain ⟨hsum, h1⟩ := miner_scale rows stress hs hr hpos 1 one_pos
  simp only [one_mul, List.map_id'] at h1
  refine ⟨_, h1, rfl, hsum, by field_simp, rfl, ?_, ?_, ?_⟩
  · intro x hx
    obtain ⟨r, h, rfl⟩ := List.mem_map.1 hx
    exact div_nonneg (div_nonneg (hr r h).2 (hr r h).1.le) hsum.le
  · have : (rows.map fun r => r.2 / r.1 / (rows.map fun r => r.2 / r.1).sum) =
        (rows.map fun r => r.2 / r.1).map ((1 / (rows.map fun r => r.2 / r.1).sum) * ·) := by
      rw [List.map_map]
      apply List.map_congr_left
      intro r _
      simp only [Function.comp]; ring
    simp only
    rw [this, sum_scale]
    field_simp
  · intro k hk
    refine ⟨_, (miner_scale rows stress hs hr hpos k hk).2, ?_, rfl⟩
    simp only
    field_simp

/-- **C61 (refusals).** Lists of different lengths are a ValueError. -/
theorem C61_lengths (rated time stress : List ℝ) :
    palmgrenMiner rated time stress = .error .valueError ↔
      ¬ (rated.length = time.length ∧ rated.length = stress.length) := by
  unfold palmgrenMiner
  constructor
  · intro h hl
    rw [if_neg (by simp [hl.1]; omega)] at h
    split at h
    · cases h
    · dsimp only at h
      split at h <;> cases h
  · intro h
    rw [if_pos (by tauto)]

/-- The documentation's bearing: 40, 15 and 5 minutes at three loads. -/
example : ∃ out, palmgrenMiner [50000, 6500, 1000] [40 / 60, 15 / 60, 5 / 60] [1, 2, 4] = .ok out ∧
    out.damage_frac.sum = 1 := by
  obtain ⟨out, h, -, -, -, -, -, h1, -⟩ := C61_palmgren_miner [(50000, 40 / 60), (6500, 15 / 60), (1000, 5 / 60)]
    [1, 2, 4] rfl (by intro r hr; fin_cases hr <;> norm_num) ⟨_, List.mem_cons_self, by norm_num⟩
  exact ⟨out, by simpa using h, h1⟩

/-! ## C62 -/

theorem creep_ok {tl th t C : ℝ} (hth : th + 459.67 ≠ 0) : creepFailureTime tl th t C =
    .ok ((10 : ℝ) ^ ((tl + 459.67) * (C + Real.logb 10 t) / (th + 459.67) - C)) := by
  unfold creepFailureTime
  rw [if_neg hth]

/-- **C62 (Larson-Miller).** Above absolute zero the failure time at the new temperature is the one positive time with the
same Larson-Miller parameter. -/
theorem C62_larson_miller (tl th t C : ℝ) (hth : -459.67 < th) :
    ∃ r, creepFailureTime tl th t C = .ok r ∧ 0 < r ∧
      (th + 459.67) * (C + Real.logb 10 r) = (tl + 459.67) * (C + Real.logb 10 t) ∧
      ∀ r' > 0, (th + 459.67) * (C + Real.logb 10 r') = (tl + 459.67) * (C + Real.logb 10 t) → r' = r := by
  have h0 : 0 < th + 459.67 := by linarith
  have hlog : ∀ y : ℝ, Real.logb 10 ((10 : ℝ) ^ y) = y := fun y => Real.logb_rpow (by norm_num) (by norm_num)
  refine ⟨_, creep_ok h0.ne', by positivity, ?_, fun r' hr' h => ?_⟩
  · rw [hlog]; field_simp; ring
  · have : Real.logb 10 r' = (tl + 459.67) * (C + Real.logb 10 t) / (th + 459.67) - C := by
      rw [← h]; field_simp; ring
    rw [← this, Real.rpow_logb (by norm_num) (by norm_num) hr']

/-- **C62 (creep).** At the same temperature the failure time is unchanged; going to another temperature and back returns
the original time; going through an intermediate temperature makes no difference; and hotter means sooner (as long as
`C + log10 time > 0`). -/
theorem C62_creep (t1 t2 t3 t C : ℝ) (h1 : -459.67 < t1) (h2 : -459.67 < t2) (h3 : -459.67 < t3) (ht : 0 < t) :
    creepFailureTime t1 t1 t C = .ok t ∧
    (∀ r, creepFailureTime t1 t2 t C = .ok r → creepFailureTime t2 t1 r C = .ok t ∧
      creepFailureTime t2 t3 r C = creepFailureTime t1 t3 t C ∧
      (0 < C + Real.logb 10 t → (r < t ↔ t1 < t2))) := by
  have p1 : 0 < t1 + 459.67 := by linarith
  have p2 : 0 < t2 + 459.67 := by linarith
  have p3 : 0 < t3 + 459.67 := by linarith
  have hb : Real.logb 10 ((10 : ℝ) ^ ((t1 + 459.67) * (C + Real.logb 10 t) / (t2 + 459.67) - C)) =
    (t1 + 459.67) * (C + Real.logb 10 t) / (t2 + 459.67) - C := Real.logb_rpow (by norm_num) (by norm_num)
  have hid : ∀ x : ℝ, 0 < x → (10 : ℝ) ^ Real.logb 10 x = x := fun x hx =>
    Real.rpow_logb (by norm_num) (by norm_num) hx
  refine ⟨?_, fun r hr => ?_⟩
  · rw [creep_ok p1.ne', mul_div_cancel_left₀ _ p1.ne', add_sub_cancel_left, hid t ht]
  · rw [creep_ok p2.ne'] at hr
    have hr := Except.ok.inj hr
    subst hr
    refine ⟨?_, ?_, fun hC => ?_⟩
    · rw [creep_ok p1.ne', hb]
      have e : (t2 + 459.67) * (C + ((t1 + 459.67) * (C + Real.logb 10 t) / (t2 + 459.67) - C)) / (t1 + 459.67) - C =
        Real.logb 10 t := by field_simp; ring
      rw [e, hid t ht]
    · rw [creep_ok p3.ne', creep_ok p3.ne', hb]
      have e : (t2 + 459.67) * (C + ((t1 + 459.67) * (C + Real.logb 10 t) / (t2 + 459.67) - C)) =
        (t1 + 459.67) * (C + Real.logb 10 t) := by field_simp; ring
      rw [e]
    · have h10 : ∀ x y : ℝ, (10 : ℝ) ^ x < 10 ^ y ↔ x < y := fun x y => Real.rpow_lt_rpow_left_iff (by norm_num)
      conv_lhs => rhs; rw [← hid t ht]
      rw [h10, sub_lt_iff_lt_add, div_lt_iff₀ p2]
      constructor
      · intro h; by_contra hn; nlinarith
      · intro h; nlinarith

/-- **C62 (Arrhenius).** The acceleration factor found from a temperature and an activation energy, fed back with either of
them, gives the other one. -/
theorem C62_arrhenius (Tu Ta Ea : ℝ) (pr : Bool) (hu : -273.15 < Tu) (ha : -273.15 < Ta) (hne : Ta ≠ Tu) (hE : Ea ≠ 0) :
    ∃ o, accelerationFactor none (some Tu) (some Ta) (some Ea) pr = .ok (some o) ∧
      o.T_use = Tu ∧ o.T_acc = Ta ∧ o.Ea = Ea ∧
      o.AF = Real.exp (Ea / 8.617333262145e-5 * (1 / (Tu + 273.15) - 1 / (Ta + 273.15))) ∧
      accelerationFactor (some o.AF) (some Tu) (some Ta) none pr = .ok (some o) ∧
      accelerationFactor (some o.AF) (some Tu) none (some Ea) pr = .ok (some o) ∧
      (0 < Ea → (1 < o.AF ↔ Tu < Ta)) := by
  have pu : 0 < Tu + 273.15 := by linarith
  have pa : 0 < Ta + 273.15 := by linarith
  have hk : (kB : ℝ) ≠ 0 := by unfold kB; norm_num
  have hkp : (0 : ℝ) < kB := by unfold kB; norm_num
  have hsub : 1 / (Tu + 273.15) - 1 / (Ta + 273.15) ≠ 0 := by
    rw [sub_ne_zero, ne_eq, one_div, one_div, inv_inj]
    intro h; apply hne; linarith
  have hexp : Ea / kB / (Tu + 273.15) - Ea / kB / (Ta + 273.15) =
      Ea / kB * (1 / (Tu + 273.15) - 1 / (Ta + 273.15)) := by ring
  refine ⟨_, rfl, rfl, rfl, rfl, ?_, ?_, ?_, fun hE0 => ?_⟩
  · simp only; rw [hexp]; rfl
  · simp only [accelerationFactor, Real.log_exp]
    rw [hexp]
    congr 3
    generalize 1 / (Tu + 273.15) - 1 / (Ta + 273.15) = e at hsub
    field_simp
  · simp only [accelerationFactor, Real.log_exp]
    rw [hexp]
    congr 3
    have : 1 / (Tu + 273.15) - Ea / kB * (1 / (Tu + 273.15) - 1 / (Ta + 273.15)) * kB / Ea = 1 / (Ta + 273.15) := by
      field_simp; ring
    rw [this, one_div_one_div]; ring
  · simp only
    rw [Real.one_lt_exp_iff, hexp]
    have hq : 0 < Ea / kB := div_pos hE0 hkp
    rw [mul_pos_iff_of_pos_left hq, sub_pos, one_div_lt_one_div pa pu]
    constructor <;> intro h <;> linarith

/-- **C62 (Arrhenius, the other directions).** The activation energy found from a factor and a temperature reproduces the
factor; so does the temperature found from a factor and an activation energy, whenever it is above absolute zero. -/
theorem C62_arrhenius_inverse (AF Tu : ℝ) (pr : Bool) (hAF : 0 < AF) (hu : -273.15 < Tu) :
    (∀ Ta, -273.15 < Ta → Ta ≠ Tu → ∃ o, accelerationFactor (some AF) (some Tu) (some Ta) none pr = .ok (some o) ∧
      accelerationFactor none (some Tu) (some Ta) (some o.Ea) pr = .ok (some o)) ∧
    (∀ Ea, Ea ≠ 0 → ∃ o, accelerationFactor (some AF) (some Tu) none (some Ea) pr = .ok (some o) ∧
      (-273.15 < o.T_acc → accelerationFactor none (some Tu) (some o.T_acc) (some Ea) pr = .ok (some o))) := by
  have pu : 0 < Tu + 273.15 := by linarith
  have hk : (kB : ℝ) ≠ 0 := by unfold kB; norm_num
  refine ⟨fun Ta ha hne => ⟨_, rfl, ?_⟩, fun Ea hE => ⟨_, rfl, fun hT => ?_⟩⟩
  · have pa : 0 < Ta + 273.15 := by linarith
    have hsub : 1 / (Tu + 273.15) - 1 / (Ta + 273.15) ≠ 0 := by
      rw [sub_ne_zero, ne_eq, one_div, one_div, inv_inj]
      intro h; apply hne; linarith
    simp only [accelerationFactor]
    congr 3
    generalize hL : Real.log AF = L
    have : L * kB / (1 / (Tu + 273.15) - 1 / (Ta + 273.15)) / kB / (Tu + 273.15) -
        L * kB / (1 / (Tu + 273.15) - 1 / (Ta + 273.15)) / kB / (Ta + 273.15) = L := by
      generalize he : 1 / (Tu + 273.15) - 1 / (Ta + 273.15) = e at *
      have : L * kB / e / kB / (Tu + 273.15) - L * kB / e / kB / (Ta + 273.15) =
        L / e * (1 / (Tu + 273.15) - 1 / (Ta + 273.15)) := by field_simp
      rw [this, he]; field_simp
    rw [this, ← hL, Real.exp_log hAF]
  · simp only [accelerationFactor] at hT ⊢
    congr 3
    generalize hL : Real.log AF = L at *
    have hne : 1 / (Tu + 273.15) - L * kB / Ea ≠ 0 := by
      intro h; rw [h] at hT; norm_num at hT
    rw [sub_add_cancel, div_div_eq_mul_div, div_one]
    have : Ea / kB / (Tu + 273.15) - Ea / kB * (1 / (Tu + 273.15) - L * kB / Ea) = L := by
      field_simp; ring
    rw [this, ← hL, Real.exp_log hAF]

/-- **C62 (refusals).** T_use missing, or two or more of the other three missing, is a ValueError. -/
theorem C62_missing (AF T_use T_acc Ea : Option ℝ) (pr : Bool) :
    accelerationFactor AF T_use T_acc Ea pr = .error .valueError ↔
      T_use = none ∨ (AF = none ∧ T_acc = none) ∨ (AF = none ∧ Ea = none) ∨ (T_acc = none ∧ Ea = none) := by
  cases AF <;> cases T_use <;> cases T_acc <;> cases Ea <;> cases pr <;> simp [accelerationFactor]

/-- **C62, finding.** Giving all three optional inputs is not refused: with printing it ends in an AttributeError, without
it no result is stored. -/
theorem C62_all_given_finding (AF Tu Ta Ea : ℝ) :
    accelerationFactor (some AF) (some Tu) (some Ta) (some Ea) true = .error .attributeError ∧
    accelerationFactor (some AF) (some Tu) (some Ta) (some Ea) false = .ok none := ⟨rfl, rfl⟩

/-- Concrete case: 60 °C use, 100 °C test, 1.2 eV. -/
example : ∃ o, accelerationFactor none (some 60) (some 100) (some 1.2) true = .ok (some o) ∧ 1 < o.AF := by
  obtain ⟨o, h, -, -, -, -, -, -, h1⟩ :=
    C62_arrhenius 60 100 1.2 true (by norm_num) (by norm_num) (by norm_num) (by norm_num)
  exact ⟨o, h, (h1 (by norm_num)).2 (by norm_num)⟩

/-- Concrete case: 9000 hours at 900 °F becomes less at 1100 °F. -/
example : ∃ r, creepFailureTime 900 1100 9000 20 = .ok r ∧ r < 9000 := by
  obtain ⟨r, h, -⟩ := C62_larson_miller 900 1100 9000 20 (by norm_num)
  refine ⟨r, h, (((C62_creep 900 1100 0 9000 20 (by norm_num) (by norm_num) (by norm_num) (by norm_num)).2 r h).2.2
    ?_).2 (by norm_num)⟩
  have : 0 ≤ Real.logb 10 9000 := Real.logb_nonneg (by norm_num) (by norm_num)
  linarith

end Reliability.Props.PoF
