import Verif.Lemmas.Simpson
import Verif.Props.Combined

/-!
# Lemmas on the constructors of the combined models
-/

namespace Reliability.Combined

open Reliability Reliability.Distributions Spec List
open Reliability.Props.Combined

theorem quadSum_nonneg {w X : List ℝ} {g : ℝ → ℝ} (hw : ∀ v ∈ w, 0 ≤ v) (hg : ∀ x ∈ X, 0 ≤ g x) : 0 ≤ quadSum w X g := by
  unfold quadSum
  apply List.sum_nonneg
  intro y hy
  rw [List.mem_iff_getElem] at hy
  obtain ⟨i, hi, rfl⟩ := hy
  simp only [List.getElem_zipWith]
  exact mul_nonneg (hw _ (List.getElem_mem _)) (hg _ (List.getElem_mem _))

theorem quadSum_mul (w X : List ℝ) (c : ℝ) (g : ℝ → ℝ) : quadSum w X (fun x => c * g x) = c * quadSum w X g := by
  unfold quadSum
  induction w generalizing X with
  | nil => simp
  | cons v w ih =>
    cases X with
    | nil => simp
    | cons x X => simp only [zipWith_cons_cons, sum_cons, ih]; ring

theorem quadSum_add (w X : List ℝ) (f g : ℝ → ℝ) : quadSum w X (fun x => f x + g x) = quadSum w X f + quadSum w X g := by
  unfold quadSum
  induction w generalizing X with
  | nil => simp
  | cons v w ih =>
    cases X with
    | nil => simp
    | cons x X => simp only [zipWith_cons_cons, sum_cons, ih]; ring

theorem quadSum_congr {w X : List ℝ} {f g : ℝ → ℝ} (h : ∀ x ∈ X, f x = g x) : quadSum w X f = quadSum w X g := by
  unfold quadSum
  induction w generalizing X with
  | nil => simp
  | cons v w ih =>
    cases X with
    | nil => simp
    | cons x X =>
      simp only [zipWith_cons_cons, sum_cons]
      rw [h x (by simp), ih fun y hy => h y (by simp [hy])]

/-- The Cauchy-Schwarz inequality for a quadrature. -/
theorem quadSum_cs {w X : List ℝ} {m f g : ℝ → ℝ} (hw : ∀ v ∈ w, 0 ≤ v) (hm : ∀ x ∈ X, 0 ≤ m x) :
    (quadSum w X fun x => m x * (f x * g x)) ^ 2 ≤
      (quadSum w X fun x => m x * f x ^ 2) * quadSum w X fun x => m x * g x ^ 2 := by
  set A := quadSum w X fun x => m x * f x ^ 2
  set B := quadSum w X fun x => m x * (f x * g x)
  set C := quadSum w X fun x => m x * g x ^ 2
  have key : ∀ s t : ℝ, 0 ≤ s ^ 2 * A + 2 * s * t * B + t ^ 2 * C := by
    intro s t
    have h0 : 0 ≤ quadSum w X fun x => m x * (s * f x + t * g x) ^ 2 :=
      quadSum_nonneg hw fun x hx => mul_nonneg (hm x hx) (sq_nonneg _)
    have e : (quadSum w X fun x => m x * (s * f x + t * g x) ^ 2) = s ^ 2 * A + 2 * s * t * B + t ^ 2 * C := by
      rw [← quadSum_mul, ← quadSum_mul, ← quadSum_mul, ← quadSum_add, ← quadSum_add]
      exact quadSum_congr fun x _ => by ring
    rwa [e] at h0
  have hA : 0 ≤ A := by simpa using key 1 0
  have hC : 0 ≤ C := by simpa using key 0 1
  rcases hC.eq_or_lt with hC0 | hC0
  · have hB : B = 0 := by
      by_contra hB
      have h1 := key (1) (-(A + 1) / (2 * B))
      rw [← hC0] at h1
      have : 1 ^ 2 * A + 2 * 1 * (-(A + 1) / (2 * B)) * B + (-(A + 1) / (2 * B)) ^ 2 * 0 = -1 := by field_simp; ring
      linarith
    rw [hB, ← hC0]; simp
  · have h1 := key C (-B)
    have : C * (A * C - B ^ 2) ≥ 0 := by nlinarith
    have := nonneg_of_mul_nonneg_right (by linarith : 0 ≤ C * (A * C - B ^ 2)) hC0
    linarith

/-- `X[argmin(X.map g)]` is the first grid point at which `g` is least. -/
theorem atArgmin_spec {X : List ℝ} (hX : X.Pairwise (· < ·)) (hne : X ≠ []) (g : ℝ → ℝ) :
    atArgmin X (X.map g) ∈ X ∧ (∀ x ∈ X, g (atArgmin X (X.map g)) ≤ g x) ∧
      ∀ x ∈ X, x < atArgmin X (X.map g) → g (atArgmin X (X.map g)) < g x := by
  obtain ⟨i, hi⟩ := Np.argmin_isSome (l := X.map g) (by simpa using hne)
  obtain ⟨m, h1, h2, h3⟩ := Np.argmin_spec hi
  rw [List.getElem?_map] at h1
  obtain ⟨y, hy, hm⟩ := Option.map_eq_some_iff.1 h1
  have e : atArgmin X (X.map g) = y := by simp [atArgmin, hi, hy]
  rw [e, hm]
  refine ⟨List.mem_of_getElem? hy, fun x hx => h2 _ (List.mem_map_of_mem hx), fun x hx hlt => ?_⟩
  obtain ⟨j, hj, rfl⟩ := List.mem_iff_getElem.1 hx
  apply h3 j _ (by simp [hj])
  by_contra hc
  rw [not_lt] at hc
  obtain ⟨hi', rfl⟩ := List.getElem?_eq_some_iff.1 hy
  rcases hc.eq_or_lt with h | h
  · subst h; exact lt_irrefl _ hlt
  · have := List.pairwise_iff_getElem.1 hX i j hi' hj h
    linarith

/-- Points nearest to two levels of a monotone function come in the order of the levels. -/
theorem nearest_order {X : List ℝ} (hX : X.Pairwise (· < ·)) (hne : X ≠ []) {F : ℝ → ℝ} (hF : Monotone F) {p q : ℝ} (hpq : p < q) :
    atArgmin X (X.map fun x => |F x - p|) ≤ atArgmin X (X.map fun x => |F x - q|) := by
  obtain ⟨a1, -, a3⟩ := atArgmin_spec hX hne fun x => |F x - p|
  obtain ⟨b1, b2, -⟩ := atArgmin_spec hX hne fun x => |F x - q|
  set a := atArgmin X (X.map fun x => |F x - p|)
  set b := atArgmin X (X.map fun x => |F x - q|)
  by_contra hc
  rw [not_le] at hc
  have h1 := a3 b b1 hc
  have h2 := b2 a a1
  have h3 := hF hc.le
  rcases abs_cases (F a - p) with ⟨e1, _⟩ | ⟨e1, _⟩ <;> rcases abs_cases (F b - p) with ⟨e2, _⟩ | ⟨e2, _⟩ <;>
    rcases abs_cases (F a - q) with ⟨e3, _⟩ | ⟨e3, _⟩ <;> rcases abs_cases (F b - q) with ⟨e4, _⟩ | ⟨e4, _⟩ <;>
    rw [e1, e2] at h1 <;> rw [e3, e4] at h2 <;> linarith

theorem foldl_min {α : Type} (f : α → ℝ) (l : List α) (s : ℝ) (h : ∀ x ∈ l, f x ≤ s) (hne : l ≠ []) :
    (∃ x ∈ l, l.foldl (fun m d => min m (f d)) s = f x) ∧ ∀ x ∈ l, l.foldl (fun m d => min m (f d)) s ≤ f x := by
  have gen : ∀ (l : List α) (s : ℝ), (l.foldl (fun m d => min m (f d)) s = s ∨ ∃ x ∈ l, l.foldl (fun m d => min m (f d)) s = f x) ∧
      l.foldl (fun m d => min m (f d)) s ≤ s ∧ ∀ x ∈ l, l.foldl (fun m d => min m (f d)) s ≤ f x := by
    intro l
    induction l with
    | nil => intro s; simp
    | cons a l ih =>
      intro s
      obtain ⟨h1, h2, h3⟩ := ih (min s (f a))
      simp only [List.foldl_cons]
      refine ⟨?_, h2.trans (min_le_left _ _), ?_⟩
      · rcases h1 with h1 | ⟨x, hx, h1⟩
        · rcases min_choice s (f a) with hm | hm
          · left; rw [h1, hm]
          · right; exact ⟨a, by simp, by rw [h1, hm]⟩
        · right; exact ⟨x, by simp [hx], h1⟩
      · intro x hx
        rcases List.mem_cons.1 hx with rfl | hx
        · exact h2.trans (min_le_right _ _)
        · exact h3 x hx
  obtain ⟨h1, h2, h3⟩ := gen l s
  refine ⟨?_, h3⟩
  rcases h1 with h1 | h1
  · obtain ⟨a, ha⟩ := List.exists_mem_of_ne_nil l hne
    exact ⟨a, ha, le_antisymm (h3 a ha) (by rw [h1]; exact h a ha)⟩
  · exact h1

theorem foldl_max {α : Type} (f : α → ℝ) (l : List α) (s : ℝ) (h : ∀ x ∈ l, s ≤ f x) (hne : l ≠ []) :
    (∃ x ∈ l, l.foldl (fun m d => max m (f d)) s = f x) ∧ ∀ x ∈ l, f x ≤ l.foldl (fun m d => max m (f d)) s := by
  have e : ∀ (l : List α) (s : ℝ), l.foldl (fun m d => max m (f d)) s = -l.foldl (fun m d => min m (-f d)) (-s) := by
    intro l
    induction l with
    | nil => intro s; simp
    | cons a l ih => intro s; simp only [List.foldl_cons]; rw [ih, max_def, min_def]; split <;> split <;> grind
  obtain ⟨⟨x, hx, h1⟩, h2⟩ := foldl_min (fun d => -f d) l (-s) (fun x hx => by linarith [h x hx]) hne
  rw [e]
  refine ⟨⟨x, hx, by rw [h1]; ring⟩, fun x hx => by linarith [h2 x hx]⟩

end Reliability.Combined
