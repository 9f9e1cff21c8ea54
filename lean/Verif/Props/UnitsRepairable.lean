import Verif.Props.Growth
import Verif.Props.Repairable
import Verif.Props.LinReg
import Verif.Props.MCFParametric
import Mathlib.MeasureTheory.Integral.IntervalIntegral.Basic
import Mathlib.Analysis.SpecialFunctions.Pow.Continuity

/-!
# C173: growth models and replacement times in other units of time and of money
-/

namespace Reliability.Repairable

open Reliability Reliability.LinReg List

theorem sort_scale (k : ℝ) (hk : 0 < k) (l : List ℝ) : Np.sort (l.map (k * ·)) = (Np.sort l).map (k * ·) := by
  rw [Np.sort_congr ((Np.sort_perm l).symm.map (k * ·))]
  apply Np.sort_eq_self
  rw [pairwise_map]
  exact (Np.sort_sorted l).imp fun h => mul_le_mul_of_nonneg_left h hk.le

theorem max?_scale {l : List ℝ} {k : ℝ} (hk : 0 < k) : (l.map (k * ·)).max? = l.max?.map (k * ·) :=
  MCF.max?_map_mono _ (fun _ _ h => mul_lt_mul_of_pos_left h hk) l

theorem min?_scale {l : List ℝ} {k : ℝ} (hk : 0 < k) : (l.map (k * ·)).min? = l.min?.map (k * ·) := by
  cases hs : l.min? with
  | none =>
    have : l = [] := by simpa using hs
    subst this
    rfl
  | some m =>
    rw [Np.min?_iff] at hs
    simp only [Option.map_some]
    rw [Np.min?_iff]
    refine ⟨mem_map_of_mem hs.1, ?_⟩
    intro b hb
    obtain ⟨c, hc, rfl⟩ := mem_map.1 hb
    exact mul_le_mul_of_nonneg_left (hs.2 c hc) hk.le

/-- The call on rescaled times: same decision, the branch on the rescaled sorted times. -/
theorem growth_scaled {times : List ℝ} {target target' : Option ℝ} {name : String} {k : ℝ} (hk : 0 < k) :
    (∀ e, reliabilityGrowth times target name = .error e → reliabilityGrowth (times.map (k * ·)) target' name = .error e) ∧
    (∀ r, reliabilityGrowth times target name = .ok (.inl r) → ∃ T, IsLast times T ∧ (∀ t ∈ times, 0 < t) ∧
      r = crow (Np.sort times) T target ∧
      reliabilityGrowth (times.map (k * ·)) target' name = .ok (.inl (crow ((Np.sort times).map (k * ·)) (k * T) target'))) ∧
    (∀ r, reliabilityGrowth times target name = .ok (.inr r) → ∃ T, IsLast times T ∧ (∀ t ∈ times, 0 < t) ∧
      r = duane (Np.sort times) T target ∧
      reliabilityGrowth (times.map (k * ·)) target' name = .ok (.inr (duane ((Np.sort times).map (k * ·)) (k * T) target'))) := by
  unfold reliabilityGrowth
  simp only [sort_scale k hk, max?_scale hk, min?_scale hk]
  cases hmn : (Np.sort times).min? with
  | none => simp [valueErr]
  | some mn =>
    cases hmx : (Np.sort times).max? with
    | none => simp [valueErr]
    | some mx =>
      simp only [Option.map_some]
      have e : (k * mn ≤ 0) ↔ mn ≤ 0 := by
        constructor
        · intro h; by_contra hc; push Not at hc; nlinarith
        · intro h; nlinarith
      simp only [e]
      by_cases hp : mn ≤ 0
      · simp [hp, valueErr]
      · simp only [if_neg hp]
        have h1 := (Np.max?_iff _ _).1 hmx
        have h2 := (Np.min?_iff _ _).1 hmn
        have hL : IsLast times mx := isLast_perm (Np.sort_perm times) h1
        have hpos : ∀ t ∈ times, 0 < t := fun t ht =>
          lt_of_lt_of_le (not_le.1 hp) (h2.2 t ((Np.sort_perm times).mem_iff.2 ht))
        cases growthModel name with
        | none => simp [valueErr]
        | some m =>
          cases m with
          | duane =>
            refine ⟨by simp, by simp, ?_⟩
            intro r hr
            cases hr
            exact ⟨mx, hL, hpos, rfl, rfl⟩
          | crowAMSAA =>
            refine ⟨by simp, ?_, by simp⟩
            intro r hr
            cases hr
            exact ⟨mx, hL, hpos, rfl, rfl⟩

/-- **C173 (growth, refusals).** Times in another unit are refused exactly like the original ones. -/
theorem C173_growth_rejects (times : List ℝ) (target : Option ℝ) (name : String) (k : ℝ) (hk : 0 < k) (e : Err) :
    reliabilityGrowth times target name = .error e ↔
      reliabilityGrowth (times.map (k * ·)) (target.map (k * ·)) name = .error e := by
  refine ⟨(growth_scaled hk).1 e, ?_⟩
  intro h
  have := (growth_scaled (times := times.map (k * ·)) (target := target.map (k * ·)) (target' := target) (name := name)
    (inv_pos.2 hk)).1 e h
  rw [map_map] at this
  have e1 : ((fun x => k⁻¹ * x) ∘ fun x => k * x) = (id : ℝ → ℝ) := by
    funext x; simp only [Function.comp_apply, id]; field_simp
  rwa [e1, map_id] at this

theorem sum_log_scale {k : ℝ} (hk : 0 < k) : ∀ (l : List ℝ), (∀ t ∈ l, 0 < t) →
    ((l.map (k * ·)).map Real.log).sum = l.length * Real.log k + (l.map Real.log).sum
  | [], _ => by simp
  | t :: l, h => by
    have ht := h t (by simp)
    have := sum_log_scale hk l fun s hs => h s (by simp [hs])
    simp only [map_cons, sum_cons, length_cons, Nat.cast_succ, this, Real.log_mul hk.ne' ht.ne']
    ring

/-- **C173 (Crow-AMSAA).** With all failure times and the target multiplied by `k > 0`: the same Beta and growth rate, the
same expected number of failures at corresponding times, MTBFs and the time to the target multiplied by `k`, failure
intensities divided by `k`. -/
theorem C173_crow (times : List ℝ) (target : Option ℝ) (htgt : ∀ M ∈ target, 0 < M) (name : String) (k : ℝ) (hk : 0 < k)
    (hne : ∃ s ∈ times, ∃ t ∈ times, s ≠ t) (r : Crow) (h : reliabilityGrowth times target name = .ok (.inl r)) :
    ∃ r', reliabilityGrowth (times.map (k * ·)) (target.map (k * ·)) name = .ok (.inl r') ∧
      r'.Beta = r.Beta ∧ r'.growth_rate = r.growth_rate ∧
      (∀ t, 0 < t → r'.Lambda * (k * t) ^ r'.Beta = r.Lambda * t ^ r.Beta) ∧
      r'.DMTBF_I = k * r.DMTBF_I ∧ r'.DMTBF_C = k * r.DMTBF_C ∧ r'.DFI_I = r.DFI_I / k ∧ r'.DFI_C = r.DFI_C / k ∧
      (r.Beta ≠ 1 → r'.time_to_target = r.time_to_target.map (k * ·)) := by
  obtain ⟨-, -, hB0, hL0, -⟩ := C23_crow_demonstrated times target name r h hne
  obtain ⟨T, hT, hpos, rfl, h'⟩ := (growth_scaled (target' := target.map (k * ·)) hk).2.1 r h
  refine ⟨_, h', ?_⟩
  have hTp : 0 < T := hpos T hT.1
  have hps : ∀ t ∈ Np.sort times, 0 < t := fun t ht => hpos t ((Np.sort_perm times).mem_iff.1 ht)
  have hden : ((Np.sort times).map (k * ·)).length * Real.log (k * T) - (((Np.sort times).map (k * ·)).map Real.log).sum =
      (Np.sort times).length * Real.log T - ((Np.sort times).map Real.log).sum := by
    rw [sum_log_scale hk _ hps, length_map, Real.log_mul hk.ne' hTp.ne']
    ring
  have hBe : (crow ((Np.sort times).map (k * ·)) (k * T) (target.map (k * ·))).Beta = (crow (Np.sort times) T target).Beta := by
    simp only [crow]
    rw [hden, length_map]
  set B := (crow (Np.sort times) T target).Beta with hB
  set L := (crow (Np.sort times) T target).Lambda with hL
  have hLe : (crow ((Np.sort times).map (k * ·)) (k * T) (target.map (k * ·))).Lambda = L / k ^ B := by
    have : (crow ((Np.sort times).map (k * ·)) (k * T) (target.map (k * ·))).Lambda =
      ((Np.sort times).map (k * ·)).length / (k * T) ^ (crow ((Np.sort times).map (k * ·)) (k * T) (target.map (k * ·))).Beta := rfl
    rw [this, hBe, length_map, Real.mul_rpow hk.le hTp.le]
    have : L = (Np.sort times).length / T ^ B := rfl
    rw [this]
    have h1 := Real.rpow_pos_of_pos hk B
    have h2 := Real.rpow_pos_of_pos hTp B
    field_simp
  have hkB := Real.rpow_pos_of_pos hk B
  have hTB := Real.rpow_pos_of_pos hTp (B - 1)
  have hI : (crow ((Np.sort times).map (k * ·)) (k * T) (target.map (k * ·))).DMTBF_I =
      k * (crow (Np.sort times) T target).DMTBF_I := by
    have e1 : (crow ((Np.sort times).map (k * ·)) (k * T) (target.map (k * ·))).DMTBF_I =
      1 / ((crow ((Np.sort times).map (k * ·)) (k * T) (target.map (k * ·))).Lambda *
        (crow ((Np.sort times).map (k * ·)) (k * T) (target.map (k * ·))).Beta *
        (k * T) ^ ((crow ((Np.sort times).map (k * ·)) (k * T) (target.map (k * ·))).Beta - 1)) := rfl
    have e2 : (crow (Np.sort times) T target).DMTBF_I = 1 / (L * B * T ^ (B - 1)) := rfl
    rw [e1, e2, hBe, hLe, Real.mul_rpow hk.le hTp.le, Real.rpow_sub hk, Real.rpow_one]
    field_simp
  have hC : (crow ((Np.sort times).map (k * ·)) (k * T) (target.map (k * ·))).DMTBF_C =
      k * (crow (Np.sort times) T target).DMTBF_C := by
    have e1 : (crow ((Np.sort times).map (k * ·)) (k * T) (target.map (k * ·))).DMTBF_C =
      (1 / (crow ((Np.sort times).map (k * ·)) (k * T) (target.map (k * ·))).Lambda) *
        (k * T) ^ (1 - (crow ((Np.sort times).map (k * ·)) (k * T) (target.map (k * ·))).Beta) := rfl
    have e2 : (crow (Np.sort times) T target).DMTBF_C = (1 / L) * T ^ (1 - B) := rfl
    rw [e1, e2, hBe, hLe, Real.mul_rpow hk.le hTp.le, Real.rpow_sub hk, Real.rpow_one]
    field_simp
  refine ⟨hBe, ?_, ?_, hI, hC, ?_, ?_, ?_⟩
  · show 1 - (crow ((Np.sort times).map (k * ·)) (k * T) (target.map (k * ·))).Beta = 1 - B
    rw [hBe]
  · intro t ht
    rw [hBe, hLe, Real.mul_rpow hk.le ht.le]
    field_simp
  · show 1 / (crow ((Np.sort times).map (k * ·)) (k * T) (target.map (k * ·))).DMTBF_I = 1 / (crow (Np.sort times) T target).DMTBF_I / k
    rw [hI, div_div, mul_comm]
  · show 1 / (crow ((Np.sort times).map (k * ·)) (k * T) (target.map (k * ·))).DMTBF_C = 1 / (crow (Np.sort times) T target).DMTBF_C / k
    rw [hC, div_div, mul_comm]
  · intro hB1
    have hB1' : B - 1 ≠ 0 := sub_ne_zero.2 hB1
    cases target with
    | none => rfl
    | some M =>
      have hM := htgt M rfl
      show some ((1 / ((crow ((Np.sort times).map (k * ·)) (k * T) (some (k * M))).Lambda * (k * M))) ^
        (1 / ((crow ((Np.sort times).map (k * ·)) (k * T) (some (k * M))).Beta - 1))) = some (k * (1 / (L * M)) ^ (1 / (B - 1)))
      rw [Option.some.injEq]
      have hBe' : (crow ((Np.sort times).map (k * ·)) (k * T) (some (k * M))).Beta = B := hBe
      have hLe' : (crow ((Np.sort times).map (k * ·)) (k * T) (some (k * M))).Lambda = L / k ^ B := hLe
      rw [hBe', hLe']
      have e1 : 1 / (L / k ^ B * (k * M)) = k ^ (B - 1) * (1 / (L * M)) := by
        rw [Real.rpow_sub hk, Real.rpow_one]
        field_simp
      rw [e1, Real.mul_rpow (Real.rpow_nonneg hk.le _) (by positivity), ← Real.rpow_mul hk.le, mul_one_div, div_self hB1',
        Real.rpow_one]

theorem sum_shift (s : ℝ) : ∀ u : List ℝ, (u.map (· + s)).sum = u.sum + u.length * s
  | [] => by simp
  | a :: u => by simp [sum_shift s u]; ring

theorem sq_shift (s : ℝ) : ∀ u : List ℝ, ((u.map (· + s)).map fun x => x * x).sum =
    (u.map fun x => x * x).sum + 2 * s * u.sum + u.length * (s * s)
  | [] => by simp
  | a :: u => by
    have := sq_shift s u
    simp only [map_cons, sum_cons, length_cons, Nat.cast_succ, this]
    ring

theorem sseY_shift (s w m c : ℝ) : ∀ u v : List ℝ, Spec.sseY (u.map (· + s)) (v.map (· + w)) m c = Spec.sseY u v m (c - w + m * s)
  | [], v => by simp [Spec.sseY]
  | _ :: _, [] => by simp [Spec.sseY]
  | a :: u, b :: v => by
    have := sseY_shift s w m c u v
    simp only [Spec.sseY, map_cons, zipWith_cons_cons, sum_cons] at this ⊢
    rw [this]
    congr 1
    ring

/-- The least squares line after a shift of both axes. -/
theorem solve2_shift {u v : List ℝ} (hl : u.length = v.length) {p q : ℝ} (h : solve2 u v = some (p, q)) (s w : ℝ) :
    solve2 (u.map (· + s)) (v.map (· + w)) = some (p, q + w - p * s) := by
  have hl' : (u.map (· + s)).length = (v.map (· + w)).length := by simp [hl]
  cases h' : solve2 (u.map (· + s)) (v.map (· + w)) with
  | none =>
    unfold solve2 at h h'
    simp only at h h'
    split at h
    · cases h
    · rename_i hD
      rw [if_neg] at h'
      · cases h'
      · have e : ((u.map (· + s)).map fun _ => (1 : ℝ)).sum = u.length := by simp [Function.comp_def]
        have e' : (u.map fun _ => (1 : ℝ)).sum = u.length := by simp
        rw [sq_shift, sum_shift, e]
        rw [e'] at hD
        intro h0
        apply hD
        linarith
  | some pq =>
    obtain ⟨p', q'⟩ := pq
    rw [Option.some.injEq]
    by_contra hne
    have h1 := (solve2_min hl' h' p (q + w - p * s)).2 fun e => hne e.symm
    have h2 := (solve2_min hl h p' (q' - w + p' * s)).1
    rw [sseY_shift, sseY_shift] at h1
    rw [show q + w - p * s - w + p * s = q by ring] at h1
    linarith

theorem mtbfC_scale (k : ℝ) (l : List ℝ) : mtbfC (l.map (k * ·)) = (mtbfC l).map (k * ·) := by
  unfold mtbfC
  rw [length_map]
  generalize (List.range l.length).map (fun i : ℕ => (i : ℝ) + 1) = n
  induction l generalizing n with
  | nil => simp
  | cons a l ih =>
    cases n with
    | nil => simp
    | cons b n => simp only [map_cons, zipWith_cons_cons, ih]; rw [mul_div_assoc]

theorem map_log_scale {k : ℝ} (hk : 0 < k) {l : List ℝ} (h : ∀ t ∈ l, 0 < t) :
    (l.map (k * ·)).map Real.log = (l.map Real.log).map (· + Real.log k) := by
  rw [map_map, map_map]
  apply map_congr_left
  intro t ht
  simp only [Function.comp_apply]
  rw [Real.log_mul hk.ne' (h t ht).ne', add_comm]

theorem mtbfC_pos {l : List ℝ} (h : ∀ t ∈ l, 0 < t) : ∀ t ∈ mtbfC l, 0 < t := by
  intro t ht
  unfold mtbfC at ht
  rw [← map_uncurry_zip_eq_zipWith] at ht
  obtain ⟨⟨a, b⟩, hab, rfl⟩ := mem_map.1 ht
  obtain ⟨h1, h2⟩ := of_mem_zip hab
  obtain ⟨i, -, rfl⟩ := mem_map.1 h2
  have := h a h1
  simp only [Function.uncurry]
  positivity

/-- **C173 (Duane).** With all failure times and the target multiplied by `k > 0`: the same Alpha, the cumulative MTBF line
multiplied by `k` at corresponding times, MTBFs and the time to the target multiplied by `k`, failure intensities divided. -/
theorem C173_duane (times : List ℝ) (target : Option ℝ) (htgt : ∀ M ∈ target, 0 < M) (name : String) (k : ℝ) (hk : 0 < k)
    (r : Duane) (h : reliabilityGrowth times target name = .ok (.inr (some r))) :
    ∃ r', reliabilityGrowth (times.map (k * ·)) (target.map (k * ·)) name = .ok (.inr (some r')) ∧
      r'.Alpha = r.Alpha ∧ (∀ t, 0 < t → r'.b * (k * t) ^ r'.Alpha = k * (r.b * t ^ r.Alpha)) ∧ r'.A = 1 / r'.b ∧
      r'.DMTBF_I = k * r.DMTBF_I ∧ r'.DMTBF_C = k * r.DMTBF_C ∧ r'.DFI_I = r.DFI_I / k ∧ r'.DFI_C = r.DFI_C / k ∧
      (r.Alpha ≠ 0 → r'.time_to_target = r.time_to_target.map (k * ·)) := by
  obtain ⟨T, hT, hpos, hr, h'⟩ := (growth_scaled (target' := target.map (k * ·)) hk).2.2 _ h
  have hTp : 0 < T := hpos T hT.1
  have hps : ∀ t ∈ Np.sort times, 0 < t := fun t ht => hpos t ((Np.sort_perm times).mem_iff.1 ht)
  rw [h']
  unfold duane at hr ⊢
  simp only at hr ⊢
  rw [mtbfC_scale, map_log_scale hk hps, map_log_scale hk (mtbfC_pos hps)]
  cases hz : solve2 ((Np.sort times).map Real.log) ((mtbfC (Np.sort times)).map Real.log) with
  | none => rw [hz] at hr; cases hr
  | some z =>
    obtain ⟨p, q⟩ := z
    rw [hz] at hr
    rw [solve2_shift (by simp [mtbfC]) hz]
    simp only [Option.some.injEq] at hr
    subst hr
    have hkp := Real.rpow_pos_of_pos hk p
    have hTq := Real.rpow_pos_of_pos hTp p
    have hb : Real.exp (q + Real.log k - p * Real.log k) = Real.exp q * k / k ^ p := by
      rw [Real.exp_sub, Real.exp_add, Real.exp_log hk, Real.rpow_def_of_pos hk, mul_comm (Real.log k)]
    have hq := Real.exp_pos q
    refine ⟨_, rfl, rfl, ?_, rfl, ?_, ?_, ?_, ?_, ?_⟩
    · intro t ht
      simp only
      rw [hb, Real.mul_rpow hk.le ht.le]
      field_simp
    · simp only
      rw [hb, Real.mul_rpow hk.le hTp.le]
      field_simp
    · simp only
      rw [hb, Real.mul_rpow hk.le hTp.le]
      field_simp
    · simp only
      rw [hb, Real.mul_rpow hk.le hTp.le]
      field_simp
    · simp only
      rw [hb, Real.mul_rpow hk.le hTp.le]
      field_simp
    · intro ha
      simp only at ha ⊢
      cases target with
      | none => rfl
      | some M =>
        have hM := htgt M rfl
        simp only [Option.map_some, Option.some.injEq]
        rw [hb]
        have e : k * M / (Real.exp q * k / k ^ p) = k ^ p * (M / Real.exp q) := by field_simp
        rw [e, Real.mul_rpow hkp.le (by positivity), ← Real.rpow_mul hk.le, mul_one_div, div_self ha, Real.rpow_one]

/-! ## Optimal replacement times -/

/-- **C173 (replacement, unit of time).** As good as old: `alpha` in another unit gives the same time in that unit, and the
same cost per time. -/
theorem C173_replacement_old (quad : (ℝ → ℝ) → ℝ → ℝ) (PM CM α β k : ℝ) (hPM : 0 < PM) (hα : 0 < α) (hβ : 1 < β) (hk : 0 < k)
    (r : Replacement) (h : optimalReplacementTime quad PM CM α β 1 = .ok r) :
    ∃ r', optimalReplacementTime quad PM CM (k * α) β 1 = .ok r' ∧ r'.ORT = k * r.ORT ∧ r'.min_cost = r.min_cost / k := by
  unfold optimalReplacementTime at h ⊢
  split at h
  · cases h
  · rename_i hle
    rw [if_neg hle]
    rw [if_pos rfl] at h ⊢
    cases h
    refine ⟨_, rfl, ?_, ?_⟩
    · simp only; ring
    · simp only
      have hle := not_lt.1 hle
      have hCM : 0 < CM := by linarith
      have hb : 0 < β - 1 := by linarith
      have hx : 0 < (CM / (PM * (β - 1))) ^ (1 / β) := Real.rpow_pos_of_pos (by positivity) _
      have e1 : k * α * (CM / (PM * (β - 1))) ^ (1 / β) / (k * α) = α * (CM / (PM * (β - 1))) ^ (1 / β) / α := by
        field_simp
      rw [e1, mul_assoc k α, div_div, mul_comm k]

theorem argminFrom_scale {c : ℝ} (hc : 0 < c) (l : List ℝ) (i : ℕ) (b : ℕ × ℝ) :
    Np.argminFrom i (b.1, c * b.2) (l.map (c * ·)) = ((Np.argminFrom i b l).1, c * (Np.argminFrom i b l).2) := by
  induction l generalizing i b with
  | nil => rfl
  | cons x l ih =>
    simp only [map_cons, Np.argminFrom]
    have : (c * x < c * b.2) ↔ x < b.2 := mul_lt_mul_iff_of_pos_left hc
    by_cases hx : x < b.2
    · rw [if_pos (this.2 hx), if_pos hx]; exact ih (i + 1) (i, x)
    · rw [if_neg (fun h => hx (this.1 h)), if_neg hx]; exact ih (i + 1) b

theorem argmin_scale {c : ℝ} (hc : 0 < c) (l : List ℝ) : Np.argmin (l.map (c * ·)) = Np.argmin l := by
  cases l with
  | nil => rfl
  | cons x l =>
    simp only [map_cons, Np.argmin]
    rw [argminFrom_scale hc l 1 (0, x)]

/-- **C173 (replacement, currency).** Both costs in another currency: the same replacement time, the same refusals, and the
minimal cost converted — for both values of `q` and any numerical integrator. -/
theorem C173_replacement_currency (quad : (ℝ → ℝ) → ℝ → ℝ) (PM CM α β q c : ℝ) (hc : 0 < c) :
    optimalReplacementTime quad (c * PM) (c * CM) α β q =
      (optimalReplacementTime quad PM CM α β q).map fun r => ⟨r.ORT, c * r.min_cost⟩ := by
  unfold optimalReplacementTime
  have h1 : (c * PM > c * CM) ↔ PM > CM := mul_lt_mul_iff_of_pos_left hc
  simp only [h1]
  split
  · rfl
  split
  · simp only [Except.map]
    have e : c * CM / (c * PM * (β - 1)) = CM / (PM * (β - 1)) := by
      rw [mul_assoc, mul_div_mul_left _ _ hc.ne']
    rw [e]
    congr 2
    ring
  split
  · generalize Np.linspace 1 (α * 3) 10000 = G
    have e : (cputNew quad (c * PM) (c * CM) α β) = fun t => c * cputNew quad PM CM α β t := by
      funext t; unfold cputNew; simp only; ring
    rw [e]
    have em : G.map (fun t => c * cputNew quad PM CM α β t) =
        (G.map (cputNew quad PM CM α β)).map (c * ·) := by rw [map_map]; rfl
    rw [em, argmin_scale hc]
    cases Np.argmin (G.map (cputNew quad PM CM α β)) with
    | none => rfl
    | some i =>
      simp only [Except.map]
      congr 2
      rw [getD_eq_getElem?_getD, getD_eq_getElem?_getD, getElem?_map]
      cases (G.map (cputNew quad PM CM α β))[i]? <;> simp
  · rfl

/-- Exact integration from 0. -/
def ExactQuad (quad : (ℝ → ℝ) → ℝ → ℝ) : Prop := ∀ f x, quad f x = ∫ t in (0 : ℝ)..x, f t

/-- **C173 (finding).** As good as new, the answer depends on the unit of time: times below 1 are never considered. A part
with `alpha` of 8 hours is reported to be replaced at some time before 24 hours; the same part with `alpha` written as a
third of a day is reported to be replaced after exactly 1 day. -/
theorem C173_replacement_new_unit_finding (quad : (ℝ → ℝ) → ℝ → ℝ) (hq : ExactQuad quad) :
    ∃ r r', optimalReplacementTime quad 1 1000 (1 / 3) 2 0 = .ok r ∧ optimalReplacementTime quad 1 1000 (24 * (1 / 3)) 2 0 = .ok r' ∧
      r.ORT = 1 ∧ r'.ORT < 24 * r.ORT := by
  obtain ⟨r, i, hr, -, hi, -, -⟩ := C24_as_good_as_new quad 1 1000 (1 / 3) 2 (by norm_num)
  obtain ⟨r', i', hr', hi', ho, hc, hm⟩ := C24_as_good_as_new quad 1 1000 (24 * (1 / 3)) 2 (by norm_num)
  refine ⟨r, r', hr, hr', ?_, ?_⟩
  · rw [hi]; unfold gridPoint; norm_num
  have h1 : r.ORT = 1 := by rw [hi]; unfold gridPoint; norm_num
  rw [h1]
  have hle : r'.ORT ≤ 24 := by
    rw [ho]; unfold gridPoint
    have : (i' : ℝ) ≤ 9999 := by exact_mod_cast Nat.le_of_lt_succ hi'
    norm_num; linarith
  rcases lt_or_eq_of_le hle with hlt | heq
  · linarith
  exfalso
  have hcost := (hm 0 (by norm_num)).1
  rw [hc, heq] at hcost
  have g0 : gridPoint (24 * (1 / 3)) 0 = 1 := by unfold gridPoint; norm_num
  rw [g0] at hcost
  set S : ℝ → ℝ := fun x => Real.exp (-((x / (24 * (1 / 3))) ^ (2 : ℝ))) with hS
  have hcont : Continuous S := by
    rw [hS]
    exact Real.continuous_exp.comp ((Continuous.rpow_const (continuous_id.div_const _) fun _ => Or.inr (by norm_num)).neg)
  have e1 : renewalCost quad 1 1000 (24 * (1 / 3)) 2 1 = (1 * S 1 + 1000 * (1 - S 1)) / ∫ t in (0 : ℝ)..1, S t := by
    unfold renewalCost; simp only; rw [hq]
  have e24 : renewalCost quad 1 1000 (24 * (1 / 3)) 2 24 = (1 * S 24 + 1000 * (1 - S 24)) / ∫ t in (0 : ℝ)..24, S t := by
    unfold renewalCost; simp only; rw [hq]
  have hS1 : 63 / 64 ≤ S 1 := by
    have : S 1 = Real.exp (-(1 / 64)) := by
      rw [hS]; simp only; congr 2
      rw [Real.rpow_two]; norm_num
    rw [this]
    have := Real.add_one_le_exp (-(1 / 64) : ℝ)
    linarith
  have hS1' : S 1 ≤ 1 := by
    rw [hS]; simp only
    rw [Real.exp_le_one_iff]
    have : (0 : ℝ) ≤ (1 / (24 * (1 / 3))) ^ (2 : ℝ) := Real.rpow_nonneg (by norm_num) _
    linarith
  have hS24 : S 24 ≤ 1 / 10 := by
    have : S 24 = (Real.exp 9)⁻¹ := by
      rw [hS]; simp only
      rw [← Real.exp_neg]; congr 2
      rw [Real.rpow_two]; norm_num
    rw [this, inv_le_comm₀ (Real.exp_pos _) (by norm_num)]
    have := Real.add_one_le_exp (9 : ℝ)
    norm_num at this ⊢; linarith
  have hS24' : 0 < S 24 := Real.exp_pos _
  have hI1 : 63 / 64 ≤ ∫ t in (0 : ℝ)..1, S t := by
    have hm := intervalIntegral.integral_mono_on (μ := MeasureTheory.volume) (a := 0) (b := 1) (f := fun _ => S 1) (g := S) zero_le_one
      (continuous_const.intervalIntegrable _ _) (hcont.intervalIntegrable _ _) (by
        intro x hx
        rw [hS]; simp only
        rw [Real.exp_le_exp, neg_le_neg_iff]
        apply Real.rpow_le_rpow
        · exact div_nonneg hx.1 (by norm_num)
        · exact div_le_div_of_nonneg_right hx.2 (by norm_num)
        · norm_num)
    simp only [intervalIntegral.integral_const, sub_zero, one_smul] at hm
    linarith
  have hI24 : ∫ t in (0 : ℝ)..24, S t ≤ 24 := by
    have hm := intervalIntegral.integral_mono_on (μ := MeasureTheory.volume) (a := 0) (b := 24) (f := S) (g := fun _ => (1 : ℝ)) (by norm_num)
      (hcont.intervalIntegrable _ _) (continuous_const.intervalIntegrable _ _) (by
        intro x hx
        rw [hS]; simp only
        rw [Real.exp_le_one_iff]
        have : (0 : ℝ) ≤ (x / (24 * (1 / 3))) ^ (2 : ℝ) := Real.rpow_nonneg (div_nonneg hx.1 (by norm_num)) _
        linarith)
    simpa using hm
  have hI24' : 0 < ∫ t in (0 : ℝ)..24, S t :=
    intervalIntegral.intervalIntegral_pos_of_pos (hcont.intervalIntegrable _ _) (fun x => Real.exp_pos _) (by norm_num)
  rw [e1, e24, div_le_div_iff₀ hI24' (by linarith)] at hcost
  have a1 : 900 ≤ 1 * S 24 + 1000 * (1 - S 24) := by linarith
  have a2 : 1 * S 1 + 1000 * (1 - S 1) ≤ 1064 / 64 := by linarith
  have a3 : 0 ≤ 1 * S 1 + 1000 * (1 - S 1) := by linarith
  nlinarith

/-- Two different data sets for which the hypotheses of the theorems on growth hold: days and hours. -/
example : ∃ r, reliabilityGrowth [3, 1, 7] (some 4) "CROW-AMSAA" = .ok (.inl r) ∧
    ∃ s ∈ [(3 : ℝ), 1, 7], ∃ t ∈ [(3 : ℝ), 1, 7], s ≠ t := by
  have hs : Np.sort [(3 : ℝ), 1, 7] = [1, 3, 7] := by
    simp [Np.sort, insertionSort, orderedInsert]
    norm_num [orderedInsert]
  refine ⟨crow [1, 3, 7] 7 (some 4), ?_, 3, by simp, 1, by simp, by norm_num⟩
  · unfold reliabilityGrowth
    rw [hs]
    have h1 : [(1 : ℝ), 3, 7].min? = some 1 := by rw [Np.min?_iff]; norm_num
    have h2 : [(1 : ℝ), 3, 7].max? = some 7 := by rw [Np.max?_iff]; norm_num
    simp only [h1, h2]
    rw [if_neg (by norm_num)]
    have h3 : growthModel "CROW-AMSAA" = some .crowAMSAA := by decide
    rw [h3]

end Reliability.Repairable
