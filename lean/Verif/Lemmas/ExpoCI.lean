import Verif.Lemmas.FunctionCI
import Verif.Props.Likelihood

/-! # Lemmas for the confidence bounds of the Exponential distribution -/

namespace Reliability.FunctionCI

open Reliability.Spec Reliability.Distributions Reliability.Utils Reliability.Props Reliability.Props.Distributions

theorem held_unique {xs a b : List ℝ} (ha : HeldAtMax xs a) (hb : HeldAtMax xs b) : a = b := by
  obtain ⟨i, m, h1, h2, h3, rfl⟩ := ha
  obtain ⟨j, n, k1, k2, k3, rfl⟩ := hb
  have e : m = n := le_antisymm (k2 m (List.mem_of_getElem? h1)) (h2 n (List.mem_of_getElem? k1))
  subst e
  have : i = j := by
    rcases lt_trichotomy i j with h | h | h
    · exact absurd rfl (k3 i m h h1)
    · exact h
    · exact absurd rfl (h3 j m h k1)
  rw [this]

theorem held_exists {xs : List ℝ} (h : 2 < xs.length) {f : ℝ → ℝ} (hf : StrictAnti f) :
    ∃ xs', HeldAtMax xs xs' ∧ noReverse (xs.map f) "None" "CDF" = .ok (xs'.map f) := by
  obtain ⟨m, i, h1, h2, h3, h4⟩ := noReverse_cases (xs.map f) "None" "CDF" (by rw [List.length_map]; omega)
  rw [if_neg (by decide +kernel)] at h4
  rw [List.getElem?_map, Option.map_eq_some_iff] at h1
  obtain ⟨x, hx, rfl⟩ := h1
  refine ⟨_, ⟨i, x, hx, fun v hv => ?_, fun j v hj hv hc => ?_, rfl⟩, ?_⟩
  · exact hf.le_iff_ge.1 (h4 _ (List.mem_map.2 ⟨v, hv, rfl⟩))
  · exact h2 j (f v) hj (by rw [List.getElem?_map, hv]; rfl) (by rw [hc])
  · rw [h3]; simp [List.map_take]

theorem held_mem {xs xs' : List ℝ} (h : HeldAtMax xs xs') : ∀ x ∈ xs', x ∈ xs := by
  obtain ⟨i, m, h1, h2, h3, rfl⟩ := h
  intro x hx
  rcases List.mem_append.1 hx with h | h
  · exact List.mem_of_mem_take h
  · rw [(List.mem_replicate.1 h).2]; exact List.mem_of_getElem? h1

theorem reported_mem {xs xs' : List ℝ} (h : ReportedFor xs xs') : ∀ x ∈ xs', x ∈ xs := by
  rcases h with ⟨-, rfl⟩ | ⟨-, h⟩
  · exact fun x h => h
  · exact held_mem h

/-- Ascending lists are reported as they are. -/
theorem reported_sorted {xs xs' : List ℝ} (hs : xs.Pairwise (· ≤ ·)) (h : ReportedFor xs xs') : xs' = xs := by
  rcases h with ⟨-, rfl⟩ | ⟨-, i, m, h1, h2, h3, rfl⟩
  · rfl
  · have hi : i < xs.length := (List.getElem?_eq_some_iff.1 h1).1
    have hm := (List.getElem?_eq_some_iff.1 h1).2
    apply List.ext_getElem
    · simp; omega
    · intro k hk hk'
      by_cases hki : k < i
      · rw [List.getElem_append_left (by simp; omega), List.getElem_take]
      · rw [List.getElem_append_right (by simp; omega), List.getElem_replicate]
        have hle : m ≤ xs[k] := by
          rcases (not_lt.1 hki).eq_or_lt with h | h
          · subst h; exact hm.ge
          · rw [← hm]; exact List.pairwise_iff_getElem.1 hs i k hi hk' h
        exact le_antisymm hle (h2 _ (List.getElem_mem hk'))

theorem reported_exists (xs : List ℝ) : ∃ xs', ReportedFor xs xs' := by
  by_cases h : 2 < xs.length
  · obtain ⟨xs', h', -⟩ := held_exists h (f := fun x => -x) (fun a b h => neg_lt_neg h)
    exact ⟨xs', Or.inr ⟨h, h'⟩⟩
  · exact ⟨xs, Or.inl ⟨by omega, rfl⟩⟩

theorem finVals_map {α : Type _} (xs : List α) (f : α → ℝ) : finVals (xs.map fun x => .fin (f x)) = xs.map f := by
  induction xs with
  | nil => rfl
  | cons a l ih =>
    unfold finVals at ih ⊢
    simp [ih]

theorem noRev_map {xs xs' : List ℝ} (h2 : 2 < xs.length) (h : HeldAtMax xs xs') {f : ℝ → ℝ} (hf : StrictAnti f) :
    noRev (xs.map fun x => .fin (f x)) = .ok (xs'.map fun x => .fin (f x)) := by
  obtain ⟨ys, hy, hn⟩ := held_exists h2 hf
  rw [held_unique h hy]
  unfold noRev
  rw [finVals_map, hn]
  simp

section

variable (d : Expo) (se Z : ℝ)

theorem lam_pos (hL : 0 < d.Lambda) : 0 < lamLower d se Z ∧ 0 < lamUpper d se Z :=
  ⟨mul_pos hL (Real.exp_pos _), mul_pos hL (Real.exp_pos _)⟩

theorem lam_le (hL : 0 < d.Lambda) (hs : 0 ≤ se) (hZ : 0 ≤ Z) : lamLower d se Z ≤ d.Lambda ∧ d.Lambda ≤ lamUpper d se Z := by
  have h : 0 ≤ Z * (se / d.Lambda) := mul_nonneg hZ (div_nonneg hs hL.le)
  unfold lamLower lamUpper
  constructor
  · have := Real.exp_le_one_iff.2 (show -Z * (se / d.Lambda) ≤ 0 by linarith)
    nlinarith
  · have := Real.one_le_exp h
    nlinarith

theorem expo_strictAnti {L : ℝ} (hL : 0 < L) {h : ℝ → ℝ} (hh : StrictMono h) : StrictAnti fun x => Real.exp (-L * h x) := by
  intro a b hab
  have := hh hab
  exact Real.exp_lt_exp.2 (by nlinarith)

/-- The arrays of `exponential_CI` on times `h x`. -/
theorem expoY_ok (hL : 0 < d.Lambda) (hs : 0 ≤ se) (hZ : 0 ≤ Z) {h : ℝ → ℝ} (hh : StrictMono h) (xs : List ℝ)
    {xs' : List ℝ} (hr : ReportedFor xs xs') (xG qG : Bool) (hg : xG = true ∨ qG = true)
    (hx : ∀ x ∈ xs, 0 < h x ∧ 1 / 10 ^ 50 < Real.exp (-(lamUpper d se Z) * h x)) :
    expoY d se Z (xs.map h) xG qG = .ok (xs'.map fun x => .fin (Real.exp (-(lamLower d se Z) * h x)),
      xs'.map fun x => .fin (Real.exp (-(lamUpper d se Z) * h x))) := by
  obtain ⟨l1, l2⟩ := lam_pos d se Z hL
  obtain ⟨l3, l4⟩ := lam_le d se Z hL hs hZ
  unfold expoY
  simp only [List.map_map]
  rw [clean_map_ok xs _ _ _ _ xG qG hg]
  · simp only [List.length_map]
    rcases hr with ⟨hl, rfl⟩ | ⟨hl, hr⟩
    · rw [if_neg (by omega)]; rfl
    · rw [if_pos ⟨hl, hl⟩]
      have e1 := noRev_map hl hr (expo_strictAnti l1 hh)
      have e2 := noRev_map hl hr (expo_strictAnti l2 hh)
      change (match noRev (xs.map fun x => .fin (Real.exp (-(lamLower d se Z) * h x))) with
        | .error e => _
        | .ok yl' => match noRev (xs.map fun x => .fin (Real.exp (-(lamUpper d se Z) * h x))) with
          | .error e => _
          | .ok yu' => _) = _
      rw [e1, e2]
  · intro x hx'
    obtain ⟨p, q⟩ := hx x hx'
    refine ⟨h x, h x, _, _, rfl, ?_, q, fun _ => ⟨Real.exp_lt_one_iff.2 (by nlinarith), Real.exp_lt_one_iff.2 (by nlinarith)⟩⟩
    exact q.trans_le (Real.exp_le_exp.2 (by nlinarith))

theorem expoY_err (hL : 0 < d.Lambda) {h : ℝ → ℝ} (xs : List ℝ)
    (xG qG : Bool) (hg : xG = true ∨ qG = true)
    (hx : ∃ x ∈ xs, ¬ (0 < h x ∧ 1 / 10 ^ 50 < Real.exp (-(lamUpper d se Z) * h x))) :
    expoY d se Z (xs.map h) xG qG = valueErr := by
  obtain ⟨l1, l2⟩ := lam_pos d se Z hL
  unfold expoY
  simp only [List.map_map]
  rw [clean_map_err xs _ _ _ _ xG qG hg]
  obtain ⟨x, hx', hn⟩ := hx
  refine ⟨x, hx', ?_⟩
  rintro ⟨a, b, c, e, hr, h1, h2, h3⟩
  simp only [Function.comp, Prod.mk.injEq, Ext.fin.injEq] at hr
  obtain ⟨-, -, rfl, rfl⟩ := hr
  have := (h3 up_cdf).2
  have := Real.exp_lt_one_iff.1 this
  exact hn ⟨by nlinarith, h2⟩

end

/-! ### the grid used for bounds on time -/

theorem expo_ppf {L g q : ℝ} (hL : 0 < L) (h0 : 0 < q) (h1 : q < 1) :
    (Distributions.exponential L g).sp.ppf q - g = -Real.log (1 - q) / L := by
  simp only [Distributions.exponential, locScale, exponStd]
  field_simp
  ring

theorem geom_props {a b : ℝ} (ha : 0 < a) (hab : a ≤ b) {n : ℕ} (hn : 2 ≤ n) :
    ∃ l, geomspace a b n = .ok l ∧ (∀ s ∈ l, 0 < s ∧ s ≤ b) ∧ b ∈ l := by
  have hb : 0 < b := ha.trans_le hab
  refine ⟨_, by unfold geomspace; rw [if_neg (by push Not; exact ⟨ha.ne', hb.ne'⟩)], fun s hs => ?_, ?_⟩
  · obtain ⟨i, hi, rfl⟩ := List.mem_map.1 hs
    rw [List.mem_range] at hi
    have hr : 1 ≤ b / a := (one_le_div ha).2 hab
    refine ⟨mul_pos ha (Real.rpow_pos_of_pos (by positivity) _), ?_⟩
    have hle : (i : ℝ) / ((n - 1 : ℕ) : ℝ) ≤ 1 := by
      apply div_le_one_of_le₀ _ (Nat.cast_nonneg _)
      exact_mod_cast (by omega : i ≤ n - 1)
    have := Real.rpow_le_rpow_of_exponent_le hr hle
    rw [Real.rpow_one] at this
    calc a * (b / a) ^ ((i : ℝ) / ((n - 1 : ℕ) : ℝ)) ≤ a * (b / a) := mul_le_mul_of_nonneg_left this ha.le
      _ = b := by field_simp
  · refine List.mem_map.2 ⟨n - 1, List.mem_range.2 (by omega), ?_⟩
    have : ((n - 1 : ℕ) : ℝ) ≠ 0 := by exact_mod_cast (by omega : n - 1 ≠ 0)
    rw [div_self this, Real.rpow_one]
    field_simp

theorem expoGrid_props {d : Expo} (hL : 0 < d.Lambda) :
    ∃ l, expoGrid d = .ok l ∧ (∀ s ∈ l, 0 < s ∧ s ≤ 5 * Real.log 10 / d.Lambda) ∧ 5 * Real.log 10 / d.Lambda ∈ l := by
  have e1 := expo_ppf (g := d.gamma) hL (q := 1 / 100000) (by norm_num) (by norm_num)
  have e2 := expo_ppf (g := d.gamma) hL (q := 99999 / 100000) (by norm_num) (by norm_num)
  have hb : -Real.log (1 - 99999 / 100000) / d.Lambda = 5 * Real.log 10 / d.Lambda := by
    rw [show (1 - 99999 / 100000 : ℝ) = (10 ^ 5)⁻¹ by norm_num, Real.log_inv, Real.log_pow]
    push_cast; ring
  have ha : 0 < -Real.log (1 - 1 / 100000) / d.Lambda := by
    apply div_pos _ hL
    have := Real.log_neg (show (0:ℝ) < 1 - 1 / 100000 by norm_num) (by norm_num)
    linarith
  have hab : -Real.log (1 - 1 / 100000) / d.Lambda ≤ -Real.log (1 - 99999 / 100000) / d.Lambda := by
    apply div_le_div_of_nonneg_right _ hL.le
    have := Real.log_le_log (show (0:ℝ) < 1 - 99999 / 100000 by norm_num) (show (1 - 99999 / 100000 : ℝ) ≤ 1 - 1 / 100000 by norm_num)
    linarith
  unfold expoGrid
  simp only [e1, e2]
  rw [if_neg (not_le.2 ha), ← hb]
  exact geom_props ha hab (by norm_num)

/-- The check of the grid. -/
theorem grid_check {d : Expo} (hL : 0 < d.Lambda) (se Z : ℝ) :
    1 / 10 ^ 50 < Real.exp (-(lamUpper d se Z) * (5 * Real.log 10 / d.Lambda)) ↔ Z * se < d.Lambda * Real.log 10 := by
  have h10 : 0 < Real.log 10 := Real.log_pos (by norm_num)
  rw [show (1 / 10 ^ 50 : ℝ) = Real.exp (-(50 * Real.log 10)) by
    rw [Real.exp_neg, show 50 * Real.log 10 = Real.log (10 ^ 50) by rw [Real.log_pow]; norm_num,
      Real.exp_log (by positivity)]; norm_num]
  rw [Real.exp_lt_exp]
  have e : -(lamUpper d se Z) * (5 * Real.log 10 / d.Lambda) = -(5 * Real.log 10 * Real.exp (Z * (se / d.Lambda))) := by
    unfold lamUpper; field_simp
  rw [e, neg_lt_neg_iff]
  constructor
  · intro h
    have : Real.exp (Z * (se / d.Lambda)) < 10 := by nlinarith
    have := (Real.lt_log_iff_exp_lt (by norm_num : (0:ℝ) < 10)).2 this
    rw [← mul_div_assoc, div_lt_iff₀ hL] at this
    linarith
  · intro h
    have : Z * (se / d.Lambda) < Real.log 10 := by rw [← mul_div_assoc, div_lt_iff₀ hL]; linarith
    have := (Real.lt_log_iff_exp_lt (by norm_num : (0:ℝ) < 10)).1 this
    nlinarith

theorem expoTime_ok {d : Expo} {se CI : ℝ} (hd : ExpoOK d se) (h0 : 0 < CI) (h1 : CI < 1) (q : List ℝ)
    (hc : zOf CI * se < d.Lambda * Real.log 10) :
    expoTime d CI q = .ok (some (q.map (expoT (lamUpper d se (zOf CI)) d.gamma),
      q.map (expoT (lamLower d se (zOf CI)) d.gamma))) := by
  obtain ⟨hL, hs, hSE, z, hz⟩ := hd
  obtain ⟨l, hl, hg, -⟩ := expoGrid_props hL
  obtain ⟨l', hr⟩ := reported_exists l
  have hZ := (zOf_spec h0 h1).1.le
  have hlu := (lam_pos d se (zOf CI) hL).2
  have hy := expoY_ok d se (zOf CI) hL hs hZ strictMono_id l hr false true (Or.inr rfl) fun x hx => by
    refine ⟨(hg x hx).1, ((grid_check hL se (zOf CI)).2 hc).trans_le (Real.exp_le_exp.2 ?_)⟩
    have := (hg x hx).2
    simp only [id]
    nlinarith
  unfold expoTime
  rw [List.map_id] at hy
  simp only [hSE, hz, hl, hy]

theorem expoTime_err {d : Expo} {se CI : ℝ} (hd : ExpoOK d se) (q : List ℝ)
    (hc : d.Lambda * Real.log 10 ≤ zOf CI * se) : expoTime d CI q = valueErr := by
  obtain ⟨hL, hs, hSE, z, hz⟩ := hd
  obtain ⟨l, hl, -, hg⟩ := expoGrid_props hL
  have hy := expoY_err d se (zOf CI) hL (h := id) l false true (Or.inr rfl)
    ⟨_, hg, fun h => absurd ((grid_check hL se (zOf CI)).1 h.2) (not_lt.2 hc)⟩
  unfold expoTime
  rw [List.map_id] at hy
  simp only [hSE, hz, hl, hy]

theorem expoRel_ok {d : Expo} {se CI : ℝ} (hd : ExpoOK d se) (h0 : 0 < CI) (h1 : CI < 1) (xs : List ℝ)
    {xs' : List ℝ} (hr : ReportedFor xs xs')
    (hx : ∀ x ∈ xs, d.gamma < x ∧ 1 / 10 ^ 50 < expoSF (lamUpper d se (zOf CI)) d.gamma x) :
    expoRel d CI xs = .ok (some (xs'.map fun x => .fin (expoSF (lamLower d se (zOf CI)) d.gamma x),
      xs'.map fun x => .fin (expoSF (lamUpper d se (zOf CI)) d.gamma x))) := by
  obtain ⟨hL, hs, hSE, z, hz⟩ := hd
  have hy := expoY_ok d se (zOf CI) hL hs (zOf_spec h0 h1).1.le (h := fun x => x - d.gamma)
    (fun a b h => sub_lt_sub_right h _) xs hr true false (Or.inl rfl) fun x hx' => by
      refine ⟨sub_pos.2 (hx x hx').1, ?_⟩
      have := (hx x hx').2
      rwa [expoSF, ← neg_mul] at this
  unfold expoRel
  simp only [hSE, hz, hy, expoSF, neg_mul]

theorem expoRel_err {d : Expo} {se CI : ℝ} (hd : ExpoOK d se) (xs : List ℝ)
    (hx : ∃ x ∈ xs, ¬ (d.gamma < x ∧ 1 / 10 ^ 50 < expoSF (lamUpper d se (zOf CI)) d.gamma x)) :
    expoRel d CI xs = valueErr := by
  obtain ⟨hL, hs, hSE, z, hz⟩ := hd
  obtain ⟨x, hx', hn⟩ := hx
  have hy := expoY_err d se (zOf CI) hL (h := fun x => x - d.gamma) xs true false (Or.inl rfl)
    ⟨x, hx', fun h => hn ⟨sub_pos.1 h.1, by rw [expoSF, ← neg_mul]; exact h.2⟩⟩
  unfold expoRel
  simp only [hSE, hz, hy]

theorem expo_pointRel {d : Expo} (hL : 0 < d.Lambda) (fn : Func) (xs : List ℝ) (hx : ∀ x ∈ xs, d.gamma < x) :
    pointRel (Distributions.exponential d.Lambda d.gamma) fn xs =
      xs.map fun x => .fin (ofReliability fn ((Distributions.exponential d.Lambda d.gamma).sp.sf x)) := by
  have hsf := fun x hx' => Likelihood.exponential_sf hL (le_of_lt (hx x hx'))
  have hc := (C33_exponential d.Lambda d.gamma hL).1.compl
  cases fn
  · simp only [pointRel, List.map_map, ofReliability]
    refine List.map_congr_left fun x _ => ?_
    simp only [Function.comp, Ext.fin.injEq]
    linarith [hc x]
  · simp only [pointRel, List.map_map, ofReliability]; rfl
  · have hz : (Distributions.exponential d.Lambda d.gamma).zeroAt = some d.gamma := rfl
    simp only [pointRel, hz]
    rw [zeroise_above hx (by simp)]
    simp only [List.map_map, ofReliability]
    refine List.map_congr_left fun x hx' => ?_
    simp only [Function.comp]
    rw [hsf x hx', Real.log_exp]
    simp only [Distributions.exponential, Ext.fin.injEq]
    ring

end Reliability.FunctionCI
