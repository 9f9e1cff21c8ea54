import Mathlib.MeasureTheory.Integral.IntervalIntegral.FundThmCalculus
import Mathlib.Analysis.SpecialFunctions.Log.Deriv
import Mathlib.Tactic.Ring
import Mathlib.Tactic.FieldSimp
import Mathlib.Tactic.Linarith
import Mathlib.Tactic.Positivity
import Verif.Model.AndersonDarling
import Verif.Spec.AndersonDarling

/-! # C90: the Anderson–Darling statistic -/

namespace Reliability.Props

open Reliability Reliability.AD Reliability.Spec List MeasureTheory

/-- integrand -/
noncomputable def adF (F z : ℝ) : ℝ := (F - z) ^ 2 / (z * (1 - z))

theorem ad_piece {F a b : ℝ} (_ha : 0 ≤ a) (hab : a ≤ b) (hb : b < 1) (h : 0 < a ∨ F = 0) :
    IntervalIntegrable (adF F) volume a b ∧
      ∫ z in a..b, adF F z = term b a F (Real.log b) (Real.log a) := by
  rcases h with ha | rfl
  · have hc : ContinuousOn (adF F) (Set.uIcc a b) := by
      rw [Set.uIcc_of_le hab]
      apply ContinuousOn.div (by fun_prop) (by fun_prop)
      intro z hz
      have h1 : 0 < z := by linarith [hz.1]
      have h2 : 0 < 1 - z := by linarith [hz.2]
      positivity
    refine ⟨hc.intervalIntegrable, ?_⟩
    rw [intervalIntegral.integral_eq_sub_of_hasDerivAt
      (f := fun z => F ^ 2 * (Real.log z - Real.log (1 - z)) + 2 * F * Real.log (1 - z) - z - Real.log (1 - z)) ?_
      hc.intervalIntegrable]
    · simp only [term]; ring
    · intro z hz
      rw [Set.uIcc_of_le hab] at hz
      have h1 : 0 < z := by linarith [hz.1]
      have h2 : 0 < 1 - z := by linarith [hz.2]
      have d1 := Real.hasDerivAt_log h1.ne'
      have d2 : HasDerivAt (fun z : ℝ => Real.log (1 - z)) (-1 / (1 - z)) z :=
        ((hasDerivAt_id z).const_sub 1).log h2.ne'
      have := (((((d1.sub d2).const_mul (F ^ 2)).add (d2.const_mul (2 * F))).sub (hasDerivAt_id z)).sub d2)
      refine this.congr_deriv ?_
      unfold adF
      field_simp
      ring
  · have e : ∀ z : ℝ, adF 0 z = z / (1 - z) := by
      intro z
      unfold adF
      rcases eq_or_ne z 0 with rfl | hz
      · simp
      · rw [zero_sub, neg_sq, pow_two, mul_div_mul_left _ _ hz]
    have hc : ContinuousOn (adF 0) (Set.uIcc a b) := by
      rw [Set.uIcc_of_le hab]
      have : adF 0 = fun z => z / (1 - z) := funext e
      rw [this]
      apply ContinuousOn.div (by fun_prop) (by fun_prop)
      intro z hz
      linarith [hz.2]
    refine ⟨hc.intervalIntegrable, ?_⟩
    rw [intervalIntegral.integral_eq_sub_of_hasDerivAt (f := fun z => -z - Real.log (1 - z)) ?_ hc.intervalIntegrable]
    · simp only [term]; ring
    · intro z hz
      rw [Set.uIcc_of_le hab] at hz
      have h2 : 0 < 1 - z := by linarith [hz.2]
      have d2 : HasDerivAt (fun z : ℝ => Real.log (1 - z)) (-1 / (1 - z)) z :=
        ((hasDerivAt_id z).const_sub 1).log h2.ne'
      have := (hasDerivAt_id z).neg.sub d2
      refine this.congr_deriv ?_
      rw [e]
      field_simp
      ring

/-- the pieces between the sorted values `zs`, from `a` to `c`; `Fs` are the heights -/
noncomputable def pieces (c : ℝ) : ℝ → List ℝ → List ℝ → ℝ
  | a, F :: _, [] => term c a F (Real.log c) (Real.log a)
  | a, F :: Fs, z :: zs => term z a F (Real.log z) (Real.log a) + pieces c z Fs zs
  | _, [], _ => 0

theorem step_integral (c : ℝ) (hc : c < 1) (zs : List ℝ) : ∀ (a : ℝ) (Fs : List ℝ), Fs.length = zs.length + 1 → 0 ≤ a →
    (0 < a ∨ Fs.head? = some 0) → zs.Pairwise (· ≤ ·) → (∀ z ∈ zs, 0 < z ∧ a ≤ z ∧ z ≤ c) → a ≤ c →
    IntervalIntegrable (fun z => adF (Fs.getD (zs.countP fun x => x ≤ z) 0) z) volume a c ∧
      ∫ z in a..c, adF (Fs.getD (zs.countP fun x => x ≤ z) 0) z = pieces c a Fs zs := by
  induction zs with
  | nil =>
    intro a Fs hl ha h0 _ _ hac
    obtain ⟨F, rfl⟩ : ∃ F, Fs = [F] := by
      rcases Fs with _ | ⟨F, _ | ⟨G, Fs⟩⟩ <;> simp at hl
      exact ⟨F, rfl⟩
    simp only [countP_nil, getD_cons_zero, pieces]
    exact ad_piece ha hac hc (by simpa using h0)
  | cons z zs ih =>
    intro a Fs hl ha h0 hs hz hac
    obtain ⟨F, Fs, rfl⟩ : ∃ F Fs', Fs = F :: Fs' := by
      rcases Fs with _ | ⟨F, Fs⟩
      · simp at hl
      · exact ⟨F, Fs, rfl⟩
    rw [pairwise_cons] at hs
    obtain ⟨hz0, haz, hzc⟩ := hz z mem_cons_self
    obtain ⟨i1, e1⟩ := ad_piece (F := F) ha haz (by linarith) (by simpa using h0)
    obtain ⟨i2, e2⟩ := ih z Fs (by simpa using hl) hz0.le (Or.inl hz0) hs.2
      (fun x hx => ⟨(hz x (mem_cons_of_mem _ hx)).1, hs.1 x hx, (hz x (mem_cons_of_mem _ hx)).2.2⟩) hzc
    have c1 : ∀ᵐ x : ℝ, x ∈ Set.uIoc a z → adF F x =
        adF ((F :: Fs).getD ((z :: zs).countP fun y => y ≤ x) 0) x := by
      have : ∀ᵐ x : ℝ, x ≠ z := by simp [ae_iff]
      filter_upwards [this] with x hx hm
      rw [Set.uIoc_of_le haz] at hm
      have hlt : x < z := lt_of_le_of_ne hm.2 hx
      have : (z :: zs).countP (fun y => y ≤ x) = 0 := by
        rw [countP_eq_zero]
        intro y hy
        simp only [decide_eq_true_eq, not_le]
        rcases mem_cons.1 hy with rfl | hy
        · exact hlt
        · exact lt_of_lt_of_le hlt (hs.1 y hy)
      rw [this]
      rfl
    have c2 : ∀ x ∈ Set.uIoc z c, adF (Fs.getD (zs.countP fun y => y ≤ x) 0) x =
        adF ((F :: Fs).getD ((z :: zs).countP fun y => y ≤ x) 0) x := by
      intro x hm
      rw [Set.uIoc_of_le hzc] at hm
      have : (z :: zs).countP (fun y => y ≤ x) = zs.countP (fun y => y ≤ x) + 1 := by
        rw [countP_cons_of_pos]
        simpa using hm.1.le
      rw [this, getD_cons_succ]
    have c2' : ∀ᵐ x : ℝ, x ∈ Set.uIoc z c → adF (Fs.getD (zs.countP fun y => y ≤ x) 0) x =
        adF ((F :: Fs).getD ((z :: zs).countP fun y => y ≤ x) 0) x := Filter.Eventually.of_forall c2
    have j1 : IntervalIntegrable (fun x => adF ((F :: Fs).getD ((z :: zs).countP fun y => y ≤ x) 0) x) volume a z :=
      i1.congr_ae ((ae_restrict_iff' measurableSet_uIoc).2 c1)
    have j2 : IntervalIntegrable (fun x => adF ((F :: Fs).getD ((z :: zs).countP fun y => y ≤ x) 0) x) volume z c :=
      i2.congr_ae ((ae_restrict_iff' measurableSet_uIoc).2 c2')
    refine ⟨j1.trans j2, ?_⟩
    rw [← intervalIntegral.integral_add_adjacent_intervals j1 j2, ← intervalIntegral.integral_congr_ae c1,
      ← intervalIntegral.integral_congr_ae c2', e1, e2]
    rfl

theorem zip_pieces (c : ℝ) (zs : List ℝ) : ∀ (a : ℝ) (la : ℝ) (Fs : List ℝ), Fs.length = zs.length + 1 → (la = Real.log a) →
    ((zipWith (fun (p : ℝ × ℝ) (q : ℝ × ℝ × ℝ) => term p.1 p.2 q.1 q.2.1 q.2.2)
      ((zs ++ [c]).zip (a :: (zs ++ [c])).dropLast)
      (Fs.zip (((zs ++ [c]).map Real.log).zip (la :: (zs ++ [c]).map Real.log).dropLast))).sum) = pieces c a Fs zs := by
  induction zs with
  | nil =>
    intro a la Fs hl hla
    obtain ⟨F, rfl⟩ : ∃ F, Fs = [F] := by
      rcases Fs with _ | ⟨F, _ | ⟨G, Fs⟩⟩ <;> simp at hl
      exact ⟨F, rfl⟩
    simp [pieces, hla]
  | cons z zs ih =>
    intro a la Fs hl hla
    obtain ⟨F, Fs, rfl⟩ : ∃ F Fs', Fs = F :: Fs' := by
      rcases Fs with _ | ⟨F, Fs⟩
      · simp at hl
      · exact ⟨F, Fs, rfl⟩
    have := ih z (Real.log z) Fs (by simpa using hl) rfl
    simp only [cons_append, map_cons, dropLast_cons_cons, zip_cons_cons, zipWith_cons_cons, sum_cons, pieces]
    rw [this, hla]

theorem empiricalStep_sort (fitted empirical : List ℝ) (z : ℝ) : empiricalStep fitted empirical z =
    (0 :: empirical.insertionSort (· ≤ ·)).getD ((fitted.insertionSort (· ≤ ·)).countP fun c => c ≤ z) 0 := by
  unfold empiricalStep
  rw [(perm_insertionSort (· ≤ ·) fitted).countP_eq]

/-- **C90.** For an array of fitted CDF values strictly between 0 and 1 - 1e-12 and as many empirical values, in any order,
the result is the Anderson–Darling integral: n times the squared distance of the empirical from the fitted distribution,
weighted by 1/(z(1-z)). -/
theorem C90_integral (fitted empirical : List ℝ) (hf : ∀ z ∈ fitted, 0 < z ∧ z ≤ 1 - 1e-12)
    (hl : empirical.length = fitted.length) :
    andersonDarling (.array fitted) empirical = .ok (adIntegral fitted empirical (1 - 1e-12)) := by
  have hc1 : (1 - 1e-12 : ℝ) < 1 := by norm_num
  have hc0 : (0 : ℝ) ≤ 1 - 1e-12 := by norm_num
  set c : ℝ := 1 - 1e-12 with hc
  have hlz : (fitted.insertionSort (· ≤ ·)).length = fitted.length := length_insertionSort ..
  have hle : (empirical.insertionSort (· ≤ ·)).length = empirical.length := length_insertionSort ..
  obtain ⟨-, hint⟩ := step_integral c hc1 (fitted.insertionSort (· ≤ ·)) 0 (0 :: empirical.insertionSort (· ≤ ·))
    (by simp [hl]) le_rfl (Or.inr rfl) (pairwise_insertionSort _ _)
    (fun z hz => by
      have := hf z ((mem_insertionSort _).1 hz)
      exact ⟨this.1, this.1.le, this.2⟩) hc0
  have hAD : adIntegral fitted empirical c = fitted.length * pieces c 0 (0 :: empirical.insertionSort (· ≤ ·))
      (fitted.insertionSort (· ≤ ·)) := by
    rw [← hint]
    unfold adIntegral
    simp only [empiricalStep_sort, adF]
  rw [hAD]
  obtain ⟨Z, hZ⟩ : ∃ Z, Np.sort fitted = Z := ⟨_, rfl⟩
  obtain ⟨E, hE⟩ : ∃ E, Np.sort empirical = E := ⟨_, rfl⟩
  have hZ' : fitted.insertionSort (· ≤ ·) = Z := hZ
  have hE' : empirical.insertionSort (· ≤ ·) = E := hE
  rw [hZ'] at hlz ⊢
  rw [hE'] at hle ⊢
  unfold andersonDarling statistic
  simp only [hZ, hE]
  rw [← hc]
  rcases eq_or_ne fitted [] with rfl | hne
  · have : Z = [] := by simpa using hlz
    subst this
    simp
  have hpos : 0 < fitted.length := length_pos_iff.2 hne
  have hE1 : ¬ (0 :: E).length = 1 := by simp only [length_cons]; omega
  simp only [if_neg hE1]
  rw [if_neg (by simp only [length_append, length_cons, length_nil]; omega),
    if_neg (by simp only [length_append, length_cons, length_nil]; omega),
    zip_pieces c _ 0 0 _ (by simp only [length_cons]; omega) (by simp)]

/-- The result is never negative. -/
theorem C90_nonneg (fitted empirical : List ℝ) (hf : ∀ z ∈ fitted, 0 < z ∧ z ≤ 1 - 1e-12)
    (hl : empirical.length = fitted.length) :
    ∃ v, andersonDarling (.array fitted) empirical = .ok v ∧ 0 ≤ v := by
  refine ⟨_, C90_integral fitted empirical hf hl, ?_⟩
  unfold adIntegral
  apply mul_nonneg (Nat.cast_nonneg _)
  apply intervalIntegral.integral_nonneg (by norm_num)
  intro z hz
  have h1 : 0 ≤ z := hz.1
  have h2 : 0 ≤ 1 - z := by
    have := hz.2
    have : (1 - 1e-12 : ℝ) ≤ 1 := by norm_num
    linarith
  positivity

/-- Neither the order of the fitted values nor that of the empirical ones matters (whatever the values). -/
theorem C90_order (fitted fitted' empirical empirical' : List ℝ) (h : fitted.Perm fitted') (h' : empirical.Perm empirical') :
    andersonDarling (.array fitted) empirical = andersonDarling (.array fitted') empirical' := by
  have e : ∀ {a b : List ℝ}, a.Perm b → Np.sort a = Np.sort b := fun {a b} hab =>
    ((perm_insertionSort _ a).trans (hab.trans (perm_insertionSort _ b).symm)).eq_of_pairwise
      (fun _ _ _ _ => le_antisymm) (pairwise_insertionSort _ _) (pairwise_insertionSort _ _)
  unfold andersonDarling statistic
  simp only [e h, e h', h.length_eq]

/-- A single number is treated as the array that holds it. -/
theorem C90_number (x : ℝ) (empirical : List ℝ) :
    andersonDarling (.number x) empirical = andersonDarling (.array [x]) empirical := rfl

/-- A different number of fitted and of empirical values (at least one each) raises ValueError. -/
theorem C90_lengths (fitted empirical : List ℝ) (h1 : fitted ≠ []) (h2 : empirical ≠ [])
    (h : empirical.length ≠ fitted.length) : andersonDarling (.array fitted) empirical = valueErr := by
  have hlz : (Np.sort fitted).length = fitted.length := length_insertionSort ..
  have hle : (Np.sort empirical).length = empirical.length := length_insertionSort ..
  have p1 := length_pos_iff.2 h1
  have p2 := length_pos_iff.2 h2
  unfold andersonDarling statistic
  have hE1 : ¬ (0 :: Np.sort empirical).length = 1 := by simp only [length_cons]; omega
  simp only [if_neg hE1]
  rw [if_neg (by simp only [length_append, length_cons, length_nil]; omega),
    if_pos (by simp only [length_append, length_cons, length_nil]; omega)]

/-- Finding: a Python list of fitted values always raises ValueError, although the test for "not an array" exists to
accept more kinds of input. -/
theorem C90_list_finding (fitted empirical : List ℝ) : andersonDarling (.list fitted) empirical = valueErr := rfl

/-- The hypotheses can be met. -/
example : ∃ v, andersonDarling (.array [0.7, 0.2, 0.5]) [0.25, 0.5, 0.75] = .ok v ∧ 0 ≤ v :=
  C90_nonneg _ _ (by intro z hz; simp at hz; rcases hz with rfl | rfl | rfl <;> norm_num) rfl

end Reliability.Props
