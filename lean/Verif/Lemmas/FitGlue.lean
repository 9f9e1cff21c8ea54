import Mathlib.Topology.Algebra.Module.Basic
import Verif.Spec.FitGlue
import Verif.Lemmas.FunctionCI
import Verif.Props.InputCheck
import Verif.Props.Likelihood
import Verif.Props.MLE
import Verif.Props.AndersonDarling
import Verif.Props.RankRegression

/-! # Lemmas for C99-C105 -/

namespace Reliability.Props

open Reliability Reliability.Distributions Reliability.Likelihood Reliability.InputCheck
open Reliability.Fitters (MLEOut OptResult lsOptimization mleOptimization mleForced)
open Reliability.FitGlue Reliability.Spec Reliability.Spec.InputCheck Reliability.Spec.FitGlue
open Reliability.FunctionCI (CFam Two Expo Fitted Jac extractCI zOf distOf)

/-! ### The information matrix -/

theorem hessian_congr {n : ℕ} {f g : (Fin n → ℝ) → ℝ} {p : Fin n → ℝ} {U : Set (Fin n → ℝ)} (hU : IsOpen U) (hp : p ∈ U)
    (h : ∀ v ∈ U, f v = g v) : hessian f p = secondPartials g p := by
  ext i j
  simp only [hessian, secondPartials, Matrix.of_apply]
  apply Filter.EventuallyEq.deriv_eq
  have c1 : Continuous fun x : ℝ => Function.update p i x := continuous_const.update i continuous_id
  have e1 : ∀ᶠ x in nhds (p i), Function.update p i x ∈ U := by
    apply c1.continuousAt.eventually_mem
    rw [Function.update_eq_self]
    exact hU.mem_nhds hp
  filter_upwards [e1] with x hx
  apply Filter.EventuallyEq.deriv_eq
  have c2 : Continuous fun y : ℝ => Function.update (Function.update p i x) j y := continuous_const.update j continuous_id
  have e2 : ∀ᶠ y in nhds (Function.update p i x j), Function.update (Function.update p i x) j y ∈ U := by
    apply c2.continuousAt.eventually_mem
    rw [Function.update_eq_self]
    exact hU.mem_nhds hx
  filter_upwards [e2] with y hy
  exact h _ hy

theorem npInv_some {n : ℕ} {M V : Matrix (Fin n) (Fin n) ℝ} (h : npInv M = some V) : M * V = 1 := by
  unfold npInv at h
  split at h
  · cases h
  · cases h
    exact Matrix.mul_nonsing_inv _ (isUnit_iff_ne_zero.2 (by assumption))

theorem npInv_none {n : ℕ} {M : Matrix (Fin n) (Fin n) ℝ} (h : npInv M = none) : ¬ ∃ V, M * V = 1 := by
  unfold npInv at h
  split at h
  · rintro ⟨V, hV⟩
    have := congrArg Matrix.det hV
    rw [Matrix.det_mul, Matrix.det_one] at this
    simp_all
  · cases h

/-- The model's inverse is the inverse information, whenever the model's likelihood is a likelihood of the family. -/
theorem npInv_information {n : ℕ} {legal : (Fin n → ℝ) → Prop} {D : (Fin n → ℝ) → Distributions.Dist} {F C : List ℝ} {p : Fin n → ℝ}
    {NL : (Fin n → ℝ) → ℝ} (hopen : IsOpen {v | legal v}) (hp : legal p)
    (hNL : ∀ v, legal v → IsLogLik (D v).sp.pdf (D v).sp.sf F C (-NL v)) :
    InverseInformation legal D F C p (npInv (hessian NL p)) := by
  intro ℓ hℓ
  have e : hessian NL p = secondPartials (fun v => -ℓ v) p := by
    apply hessian_congr hopen hp
    intro v hv
    have h1 := hNL v hv
    have h2 := hℓ v hv
    unfold IsLogLik at h1 h2
    have := Real.exp_injective (h1.trans h2.symm)
    linarith
  cases h : npInv (hessian NL p) with
  | none => simpa only [e] using npInv_none h
  | some V => simpa only [e] using npInv_some h

theorem isOpen_params (f : CFam) : IsOpen {v : Fin 2 → ℝ | ParamsOK f (v 0) (v 1)} := by
  have h0 : IsOpen {v : Fin 2 → ℝ | 0 < v 0} := isOpen_lt continuous_const (continuous_apply 0)
  have h1 : IsOpen {v : Fin 2 → ℝ | 0 < v 1} := isOpen_lt continuous_const (continuous_apply 1)
  by_cases hf : f = .weibull ∨ f = .loglogistic
  · convert h1.inter h0 using 1
    ext v; simp [ParamsOK, hf]
  · convert h1 using 1
    ext v; simp [ParamsOK, hf]

theorem isOpen_params1 (f : CFam) (s : ℝ) : IsOpen {v : Fin 1 → ℝ | ParamsOK f (v 0) s} := by
  have h0 : IsOpen {v : Fin 1 → ℝ | 0 < v 0} := isOpen_lt continuous_const (continuous_apply 0)
  by_cases hs : 0 < s
  · by_cases hf : f = .weibull ∨ f = .loglogistic
    · convert h0 using 1
      ext v; simp [ParamsOK, hf, hs]
    · convert isOpen_univ using 1
      ext v; simp [ParamsOK, hf, hs]
  · convert isOpen_empty using 1
    ext v; simp [ParamsOK, hs]

theorem isOpen_params3 (f : CFam) : IsOpen {v : Fin 3 → ℝ | ParamsOK f (v 0) (v 1)} := by
  have h0 : IsOpen {v : Fin 3 → ℝ | 0 < v 0} := isOpen_lt continuous_const (continuous_apply 0)
  have h1 : IsOpen {v : Fin 3 → ℝ | 0 < v 1} := isOpen_lt continuous_const (continuous_apply 1)
  by_cases hf : f = .weibull ∨ f = .loglogistic
  · convert h1.inter h0 using 1
    ext v; simp [ParamsOK, hf]
  · convert h1 using 1
    ext v; simp [ParamsOK, hf]

theorem isOpen_above {n : ℕ} (F C : List ℝ) (i : Fin n) : IsOpen {v : Fin n → ℝ | Above F C (v i)} := by
  have : ∀ l : List ℝ, IsOpen {v : Fin n → ℝ | ∀ t ∈ l, v i < t} := by
    intro l
    induction l with
    | nil => simp
    | cons a l ih =>
      have : IsOpen {v : Fin n → ℝ | v i < a} := isOpen_lt (continuous_apply i) continuous_const
      convert this.inter ih using 1
      ext v; simp
  exact (this F).inter (this C)

/-! ### Rows -/

theorem interval_log {Z x SE : ℝ} (name : String) (hZ : 0 ≤ Z) (hS : 0 ≤ SE) :
    Interval Z (ciRow ciPositive name x SE Z) .log := by
  intro hx
  simp only [ciRow, ciPositive] at hx ⊢
  have e1 : -Z * (SE / x) = -(Z * SE / x) := by ring
  have e2 : Z * (SE / x) = Z * SE / x := by ring
  refine ⟨by rw [e1], by rw [e2], ?_, ?_⟩
  · rw [e1]
    have hq : x * (Z * SE / x) = Z * SE := by field_simp
    have hZS : 0 ≤ Z * SE := mul_nonneg hZ hS
    rcases lt_or_gt_of_ne hx with h | h
    · have h0 : Z * SE / x ≤ 0 := div_nonpos_of_nonneg_of_nonpos hZS h.le
      have := Real.one_le_exp (x := -(Z * SE / x)) (by linarith)
      nlinarith
    · have h0 : 0 ≤ Z * SE / x := by positivity
      have := Real.exp_le_one_iff.2 (show -(Z * SE / x) ≤ 0 by linarith)
      nlinarith
  · rw [e2]
    have hZS : 0 ≤ Z * SE := mul_nonneg hZ hS
    rcases lt_or_gt_of_ne hx with h | h
    · have h0 : Z * SE / x ≤ 0 := div_nonpos_of_nonneg_of_nonpos hZS h.le
      have := Real.exp_le_one_iff.2 h0
      nlinarith
    · have h0 : 0 ≤ Z * SE / x := by positivity
      have := Real.one_le_exp h0
      nlinarith

theorem interval_linear {Z x SE : ℝ} (name : String) (hZ : 0 ≤ Z) (hS : 0 ≤ SE) :
    Interval Z (ciRow ciReal name x SE Z) .linear := by
  have := mul_nonneg hZ hS
  unfold Interval ciRow ciReal
  dsimp only
  exact ⟨by ring, rfl, by linarith, by linarith⟩

theorem interval_fixed (Z x : ℝ) (name : String) (s : Scale) : Interval Z (fixedRow name x) s := by
  cases s <;> simp [Interval, fixedRow]

theorem seOf_nonneg (c : ℝ) : 0 ≤ seOf c := Real.sqrt_nonneg _

/-! ### Goodness of fit -/

theorem CDF_ok_map {d : Distributions.Dist} {X Y : List ℝ} (h : CDF d X = .ok Y) : Y = X.map d.sp.cdf := by
  unfold CDF at h
  split at h
  · cases h
  · cases h; rfl

theorem ad_single (l : List ℝ) (ps : List ℝ) :
    AD.andersonDarling (cdfArg l) ps = AD.andersonDarling (.array l) ps := by
  unfold cdfArg
  split <;> rfl

theorem loglik_eq (LL : ℝ) : loglik LL = -LL := by unfold loglik; ring

theorem gof_describes {argsort : List ℝ → List ℕ} (harg : IsArgsort argsort) {d : Distributions.Dist} {F C : List ℝ} {k : ℕ} {LL : ℝ}
    {g : GoF} (h : gof argsort (CDF d) F C (F.length + C.length) k LL = .ok g) (hne : F ≠ [])
    (hLL : IsLogLik d.sp.pdf d.sp.sf F C (loglik LL)) : Describes argsort d F C k g := by
  simp only [gof, bind_ok] at h
  obtain ⟨xy, h1, Y, h2, ad, h3, h4⟩ := h
  cases h4
  have hY := CDF_ok_map h2
  subst hY
  rw [ad_single] at h3
  obtain ⟨x, y, e1, e2, -, e4, -, -⟩ := ls_points harg F C hne
  rw [h1] at e1
  cases e1
  refine ⟨hLL, ?_, ?_, ?_, ?_, x, y, h1, e2, ?_⟩
  · simp only [loglik_eq]; ring
  · intro hk
    simp only [AICc, loglik_eq]
    rw [if_pos (by push_cast; omega)]
    push_cast
    congr 1
    ring
  · intro hk
    simp only [AICc]
    rw [if_neg (by push_cast; omega)]
  · simp only [BIC, loglik_eq]; push_cast; ring
  · intro hz
    rw [C90_integral (x.map d.sp.cdf) y] at h3
    · cases h3; rfl
    · intro z hzz
      obtain ⟨t, ht, rfl⟩ := List.mem_map.1 hzz
      exact hz t (e2.mem_iff.1 ht)
    · simp [e4]

theorem gof_ok {argsort : List ℝ → List ℕ} (harg : IsArgsort argsort) {d : Distributions.Dist} {F C : List ℝ} {n k : ℕ} {LL : ℝ}
    (hne : F ≠ []) (h0 : d.fam ≠ .normal → d.fam ≠ .gumbel → ∀ x ∈ F, 0 ≤ x) (h1 : d.fam = .beta → ∀ x ∈ F, x ≤ 1) :
    ∃ g, gof argsort (CDF d) F C n k LL = .ok g := by
  obtain ⟨x, y, e1, e2, -, e4, -, -⟩ := ls_points harg F C hne
  have hx : checkX d.fam x = .ok () := by
    rw [Distributions.checkX_ok]
    refine ⟨?_, ?_, ?_⟩
    · rintro rfl; exact hne (List.Perm.nil_eq e2).symm
    · exact fun ha hb t ht => h0 ha hb t (e2.mem_iff.1 ht)
    · exact fun ha t ht => h1 ha t (e2.mem_iff.1 ht)
  have hc : CDF d x = .ok (x.map d.sp.cdf) := by unfold CDF; rw [hx]
  have had : ∃ v, AD.andersonDarling (.array (x.map d.sp.cdf)) y = .ok v := by
    have hlz : (Np.sort (x.map d.sp.cdf)).length = x.length := by
      rw [Np.sort, List.length_insertionSort, List.length_map]
    have hle : (Np.sort y).length = y.length := List.length_insertionSort ..
    have hx0 : 0 < x.length := by rw [e2.length_eq]; exact List.length_pos_iff.2 hne
    unfold AD.andersonDarling AD.statistic
    have hE1 : ¬ (0 :: Np.sort y).length = 1 := by simp only [List.length_cons]; omega
    simp only [if_neg hE1]
    rw [if_neg (by simp only [List.length_append, List.length_cons, List.length_nil]; omega),
      if_neg (by simp only [List.length_append, List.length_cons, List.length_nil]; omega)]
    exact ⟨_, rfl⟩
  obtain ⟨v, hv⟩ := had
  refine ⟨⟨2 * LL, loglik LL, AICc n k (2 * LL), BIC n k (2 * LL), v⟩, ?_⟩
  simp only [gof, bind_ok]
  exact ⟨(x, y), e1, _, hc, v, by rw [ad_single]; exact hv, rfl⟩

/-! ### The input -/

theorem used_of_accepts {dist : String} {x : Args} {fb fs : Option ℝ} {m o ct : StrArg} {ci : CIArg ℝ} {q : QArg ℝ} {inp : Checked ℝ}
    (h : Accepts dist x.failures x.right_censored m o ci q fb fs ct inp) :
    Used dist x inp.failures inp.right_censored := by
  obtain ⟨F, C, h1, h2, -, -, h3, h4⟩ := h.data
  exact ⟨F, C, h1, h2, h3, h4⟩

theorem usable_failures {dist : String} {x : Args} {fb fs : Option ℝ} {m o ct : StrArg} {ci : CIArg ℝ} {q : QArg ℝ} {inp : Checked ℝ}
    (h : Accepts dist x.failures x.right_censored m o ci q fb fs ct inp) :
    (∀ t ∈ inp.failures, Usable dist t) ∧ (∀ t ∈ inp.right_censored, Usable dist t) := by
  obtain ⟨F, C, h1, h2, -, -, h3, h4⟩ := h.data
  rw [h3, h4]
  constructor <;> · intro t ht; simpa using (List.mem_filter.1 ht).2

theorem failures_ne {dist : String} {x : Args} {fb fs : Option ℝ} {m o ct : StrArg} {ci : CIArg ℝ} {q : QArg ℝ} {inp : Checked ℝ}
    (h : Accepts dist x.failures x.right_censored m o ci q fb fs ct inp) : inp.failures ≠ [] := by
  intro h0
  have := h.enough
  rw [h0] at this
  simp only [List.toFinset_nil, Finset.card_empty, nonpos_iff_eq_zero] at this
  unfold required at this
  split_ifs at this

/-! ### The estimates -/

theorem estimate_ok {P : Type} {name : String} {LL : P → ℝ} {num : Num P} {mle : P → Except Err (MLEOut P)}
    {method lsArg : Option String} {e : P × String × Option String} (h : estimate name LL num mle method lsArg = .ok e) :
    ∃ m r, lsArg = some m ∧ lsOptimization name LL num.ls num.nlls m = .ok r ∧
      ((method = some "LS" ∨ method = some "RRX" ∨ method = some "RRY") ∧
          e = (r.1, "Least Squares Estimation (" ++ r.2 ++ ")", none) ∨
        method = some "MLE" ∧ ∃ o, mle r.1 = .ok o ∧ e = (o.params, "Maximum Likelihood Estimation (MLE)", o.optimizer)) := by
  unfold estimate at h
  cases lsArg with
  | none => cases h
  | some m =>
    simp only [bind_ok] at h
    obtain ⟨r, h1, h2⟩ := h
    refine ⟨m, r, rfl, h1, ?_⟩
    split_ifs at h2 with ha hb
    · cases h2; exact .inl ⟨ha, rfl⟩
    · simp only [bind_ok] at h2
      obtain ⟨o, h3, h4⟩ := h2
      cases h4
      exact .inr ⟨hb, o, h3, rfl⟩

theorem tryAll_names {P : Type} {minimize : String → P → OptResult P} {obj : P → ℝ} {g : P} {stop : Bool} {os : List String}
    {t : Fitters.Tried ℝ P} (h : t ∈ Fitters.tryAll minimize obj g stop os) : t.name ∈ os := by
  induction os with
  | nil => simp [Fitters.tryAll] at h
  | cons o os ih =>
    rw [tryAll_cons] at h
    split_ifs at h
    · rw [List.mem_singleton] at h; subst h; simp [tried]
    · rcases List.mem_cons.1 h with rfl | h
      · simp [tried]
      · exact List.mem_cons_of_mem _ (ih h)

theorem mle_optimizer {P : Type} {minimize : String → P → OptResult P} {obj : P → ℝ} {g : P}
    {o : Option String} {r : MLEOut P} (h : mleOptimization minimize obj g o = .ok r) :
    r.optimizer = none ∨ ∃ n ∈ ["TNC", "L-BFGS-B", "nelder-mead", "powell"], r.optimizer = some n := by
  rcases optimizers_cases o with ⟨os, stop, h1, -, -, h2, -⟩ | ⟨h1, -⟩
  · unfold mleOptimization at h
    rw [h1] at h
    dsimp only at h
    split at h
    · cases h; exact .inl rfl
    · rename_i t ht
      cases h
      refine .inr ⟨t.name, h2 _ ?_, rfl⟩
      exact tryAll_names (List.mem_filter.1 (firstMin_some ht).1).1
  · unfold mleOptimization at h
    rw [h1] at h
    cases h

/-- The optimizer names that `fitters_input_checking` hands on are understood. -/
theorem optimizers_accepted {a : StrArg} {o : Option String} (h : Means optimizerNames a o) :
    ∃ os stop, Fitters.optimizersToTry o = .ok (os, stop) ∧ os ≠ [] ∧ (stop = true ↔ o = none) := by
  rcases optimizers_cases o with ⟨os, stop, h1, h2, h3, -⟩ | ⟨-, s, rfl, h2, h3⟩
  · exact ⟨os, stop, h1, h2, h3⟩
  · exfalso
    rcases h with ⟨-, h⟩ | ⟨s', c, sp, -, e, hm, -⟩
    · cases h
    · cases e
      simp only [optimizerNames, List.mem_cons, Prod.mk.injEq, List.not_mem_nil, or_false] at hm
      rcases hm with ⟨rfl, -⟩ | ⟨rfl, -⟩ | ⟨rfl, -⟩ | ⟨rfl, -⟩ | ⟨rfl, -⟩
      all_goals first
        | exact h2 (by decide)
        | exact h3 (by decide +kernel)

/-- If every run of every optimizer reports success, one of them is chosen. -/
theorem mle_success {P : Type} {minimize : String → P → OptResult P} (obj : P → ℝ) (g : P) {a : StrArg}
    {o : Option String} (ho : Means optimizerNames a o) (hs : ∀ n p, (minimize n p).success = true) :
    ∃ n x, mleOptimization minimize obj g o = .ok ⟨true, some n, x⟩ := by
  obtain ⟨os, stop, h1, h2, h3⟩ := optimizers_accepted ho
  have hans : ∀ n, (answer minimize obj g n).success = true := by
    intro n
    obtain ⟨k, -, -, -, h, -⟩ := C47_loop_terminates (minimize n) obj g
    unfold answer
    rw [h]
    exact hs _ _
  cases o with
  | none => exact ⟨_, _, C47_default_first_success minimize obj g [] _ "TNC" rfl (by simp) (hans _)⟩
  | some s =>
    have : stop = false := by
      cases stop with
      | false => rfl
      | true => simp at h3
    subst this
    obtain ⟨n, hn⟩ := List.exists_mem_of_ne_nil _ h2
    obtain ⟨n', -, h, -⟩ := best_of_successes minimize obj g s os h1 ⟨n, hn, hans n⟩
    exact ⟨_, _, h⟩

/-- A property of every answer of the optimizers and of the guess is one of the result. -/
theorem mle_all {P : Type} {p : P → Prop} {minimize : String → P → OptResult P} {obj : P → ℝ} {g : P}
    {o : Option String} {r : MLEOut P} (hg : p g) (hm : ∀ n q, p (minimize n q).x)
    (h : mleOptimization minimize obj g o = .ok r) : p r.params := by
  have hans : ∀ n, p (answer minimize obj g n).x := by
    intro n
    obtain ⟨k, -, -, -, h, -⟩ := C47_loop_terminates (minimize n) obj g
    unfold answer
    rw [h]
    exact hm _ _
  have ht : ∀ stop os, ∀ t ∈ Fitters.tryAll minimize obj g stop os, p t.x := by
    intro stop os
    induction os with
    | nil => simp [Fitters.tryAll]
    | cons o os ih =>
      intro t h
      rw [tryAll_cons] at h
      split_ifs at h
      · rw [List.mem_singleton] at h; subst h; exact hans _
      · rcases List.mem_cons.1 h with rfl | h
        · exact hans _
        · exact ih t h
  unfold mleOptimization at h
  split at h
  · cases h
  · split at h
    · cases h; exact hg
    · rename_i t' ht'
      cases h
      exact ht _ _ _ (List.mem_filter.1 (firstMin_some ht').1).1

/-- A property of every answer of `least_squares` kept by the optimisation is one of the estimates. -/
theorem estimate_all {P : Type} {p : P → Prop} {name : String} {LL : P → ℝ} {num : Num P} {mle : P → Except Err (MLEOut P)}
    {method lsArg : Option String} {e : P × String × Option String} (h1 : ∀ m, p (num.ls m)) (h2 : p num.nlls)
    (h3 : ∀ g o, p g → mle g = .ok o → p o.params) (h : estimate name LL num mle method lsArg = .ok e) : p e.1 := by
  obtain ⟨m, r, -, h4, h5⟩ := estimate_ok h
  have hr : p r.1 := by
    unfold lsOptimization at h4
    dsimp only at h4
    split_ifs at h4 <;> cases h4 <;> first | exact h1 _ | exact h2
  rcases h5 with ⟨-, rfl⟩ | ⟨-, o, h6, rfl⟩
  · exact hr
  · exact h3 _ _ hr h6

theorem estimate_labels {P : Type} {name : String} {LL : P → ℝ} {num : Num P} {mle : P → Except Err (MLEOut P)}
    {method lsArg : Option String} {asked : StrArg} {e : P × String × Option String} (nlls : Bool)
    (hn : nlls = true ↔ name ∈ ["Weibull_3P", "Gamma_2P", "Gamma_3P", "Beta_2P", "Lognormal_3P",
      "Loglogistic_3P", "Exponential_2P"])
    (hmle : ∀ g o, mle g = .ok o → o.optimizer = none ∨
      ∃ n ∈ ["TNC", "L-BFGS-B", "nelder-mead", "powell"], o.optimizer = some n)
    (hm : Means methodNames asked method) (hls : lsArg = lsMethod method ∨ (nlls = true ∧ lsArg = some "LS"))
    (h : estimate name LL num mle method lsArg = .ok e) : Labels nlls asked e.2.1 e.2.2 := by
  obtain ⟨m, r, h1, h2, ⟨h3, rfl⟩ | ⟨rfl, o, h3, rfl⟩⟩ := estimate_ok h
  · have hr : (nlls = true ∧ r.2 = "NLLS") ∨ (nlls = false ∧ (r.2 = m ∧ m ∈ ["RRX", "RRY"] ∨ m ∉ ["RRX", "RRY"] ∧
        (r.2 = "RRX" ∨ r.2 = "RRY"))) := by
      unfold lsOptimization at h2
      by_cases hnn : name ∈ ["Weibull_3P", "Gamma_2P", "Gamma_3P", "Beta_2P", "Lognormal_3P", "Loglogistic_3P",
        "Exponential_2P"]
      · rw [if_pos hnn] at h2
        split_ifs at h2
        cases h2
        exact .inl ⟨hn.2 hnn, rfl⟩
      · rw [if_neg hnn] at h2
        right
        refine ⟨by rw [← Bool.not_eq_true, hn]; exact hnn, ?_⟩
        dsimp only at h2
        split_ifs at h2 with ha hb hc
        · cases h2; exact .inl ⟨rfl, hb⟩
        · cases h2; exact .inr ⟨hb, .inl rfl⟩
        · cases h2; exact .inr ⟨hb, .inr rfl⟩
    rcases hr with ⟨hr1, hr2⟩ | ⟨hr1, hr2⟩
    · rcases h3 with rfl | rfl | rfl <;>
        exact ⟨_, hm, .inr (.inl ⟨hr1, by decide, by rw [hr2]; rfl, rfl⟩)⟩
    · have hls' : lsArg = lsMethod method := by
        rcases hls with h | ⟨h, -⟩
        · exact h
        · rw [hr1] at h; cases h
      rcases h3 with rfl | rfl | rfl
      · have : m = "LS" := by
          rw [hls'] at h1; simpa [lsMethod] using h1.symm
        subst this
        rcases hr2 with ⟨-, h⟩ | ⟨-, h⟩
        · simp at h
        · exact ⟨_, hm, .inr (.inr (.inr ⟨hr1, rfl, by rcases h with h | h <;> rw [h] <;> simp, rfl⟩))⟩
      · have : m = "RRX" := by
          rw [hls'] at h1; simpa [lsMethod] using h1.symm
        subst this
        rcases hr2 with ⟨h, -⟩ | ⟨h, -⟩
        · exact ⟨_, hm, .inr (.inr (.inl ⟨hr1, by decide, by rw [h], rfl⟩))⟩
        · simp at h
      · have : m = "RRY" := by
          rw [hls'] at h1; simpa [lsMethod] using h1.symm
        subst this
        rcases hr2 with ⟨h, -⟩ | ⟨h, -⟩
        · exact ⟨_, hm, .inr (.inr (.inl ⟨hr1, by decide, by rw [h], rfl⟩))⟩
        · simp at h
  · exact ⟨_, hm, .inl ⟨rfl, rfl, hmle _ _ h3⟩⟩

end Reliability.Props
