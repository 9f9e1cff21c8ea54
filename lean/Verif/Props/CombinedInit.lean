import Verif.Lemmas.Combined
import Verif.Spec.CombinedInit
import Verif.Props.DSZI

/-!
# C119, C120: the attributes, mean residual life and random samples of the combined models
-/

namespace Reliability.Props.Combined

open Reliability Reliability.Distributions Reliability.Combined Spec List
open Reliability.Props.Distributions

theorem zipWith_map_self (g : ℝ → ℝ → ℝ) (f : ℝ → ℝ) (X : List ℝ) :
    zipWith g (X.map f) X = X.map fun x => g (f x) x := by
  rw [zipWith_map_left, zipWith_self]

/-- The attributes computed from arrays of a density and a distribution function. -/
theorem summarise_attrs {a b : ℝ} (hab : a < b) {n : ℕ} (hn : 3 ≤ n) {f F S : ℝ → ℝ}
    (hf : ∀ x ∈ Np.linspace a b n, 0 ≤ f x) (hS : ∀ x, S x = 1 - F x) :
    AttrsOf (Np.linspace a b n) (simpsonRule a b n) f F
      (summarise a b n ((Np.linspace a b n).map f) ((Np.linspace a b n).map F) ((Np.linspace a b n).map S)) := by
  have hX := Np.linspace_strictMono (n := n) hab
  have hne : Np.linspace a b n ≠ [] := by
    rw [← length_pos_iff_ne_nil, Np.linspace_length]; omega
  have hw : ∀ v ∈ simpsonRule a b n, 0 ≤ v := fun v hv => ((simpsonRule_quadrature hab hn).pos v hv).le
  have eS : ((Np.linspace a b n).map S).map (fun s => |s - 1 / 2|) = (Np.linspace a b n).map fun x => |F x - 1 / 2| := by
    rw [map_map]
    refine map_congr_left fun x _ => ?_
    simp only [Function.comp, hS]
    rw [← abs_neg]
    congr 1
    ring
  unfold summarise
  simp only [zipWith_map_self, simpson_eq, eS, map_map, Function.comp_def]
  set X := Np.linspace a b n
  set w := simpsonRule a b n
  set mean := quadSum w X fun x => f x * x
  have hV : 0 ≤ quadSum w X fun x => f x * (x - mean) ^ 2 :=
    quadSum_nonneg hw fun x hx => mul_nonneg (hf x hx) (sq_nonneg _)
  set sd := √(quadSum w X fun x => f x * (x - mean) ^ 2) with hsd
  refine ⟨rfl, ?_, ⟨Real.sqrt_nonneg _, rfl⟩, ?_, ?_, rfl, ?_, ?_, ?_, ?_⟩
  · exact Real.sq_sqrt hV
  · intro h
    dsimp only at h ⊢
    rw [mul_comm, ← quadSum_mul]
    refine quadSum_congr fun x _ => ?_
    field_simp
  · intro h
    dsimp only at h ⊢
    rw [mul_comm, ← quadSum_mul]
    refine quadSum_congr fun x _ => ?_
    field_simp
  · obtain ⟨h1, h2, -⟩ := atArgmin_spec hX hne fun x => -f x
    exact ⟨h1, fun x hx => by have := h2 x hx; linarith⟩
  · obtain ⟨h1, h2, -⟩ := atArgmin_spec hX hne fun x => |F x - 1 / 2|
    exact ⟨h1, h2⟩
  · obtain ⟨h1, h2, -⟩ := atArgmin_spec hX hne fun x => |F x - 5 / 100|
    exact ⟨h1, h2⟩
  · obtain ⟨h1, h2, -⟩ := atArgmin_spec hX hne fun x => |F x - 95 / 100|
    exact ⟨h1, h2⟩

theorem summarise_order {a b : ℝ} (hab : a < b) {n : ℕ} (hn : 3 ≤ n) {f F S : ℝ → ℝ} (hF : Monotone F) (hS : ∀ x, S x = 1 - F x) :
    let s := summarise a b n ((Np.linspace a b n).map f) ((Np.linspace a b n).map F) ((Np.linspace a b n).map S)
    s.b5 ≤ s.median ∧ s.median ≤ s.b95 := by
  have hX := Np.linspace_strictMono (n := n) hab
  have hne : Np.linspace a b n ≠ [] := by
    rw [← length_pos_iff_ne_nil, Np.linspace_length]; omega
  have eS : ((Np.linspace a b n).map S).map (fun s => |s - 1 / 2|) = (Np.linspace a b n).map fun x => |F x - 1 / 2| := by
    rw [map_map]
    refine map_congr_left fun x _ => ?_
    simp only [Function.comp, hS]
    rw [← abs_neg]
    congr 1
    ring
  unfold summarise
  simp only [eS, map_map, Function.comp_def]
  exact ⟨nearest_order hX hne hF (by norm_num), nearest_order hX hne hF (by norm_num)⟩

/-- Skewness and kurtosis of any such attributes satisfy the moment inequality. -/
theorem attrs_moment {X w : List ℝ} {f F : ℝ → ℝ} {s : Summary} (hw : ∀ v ∈ w, 0 ≤ v) (hf : ∀ x ∈ X, 0 ≤ f x)
    (h : AttrsOf X w f F s) (hs : s.standard_deviation ≠ 0) : s.skewness ^ 2 ≤ s.kurtosis := by
  have hcs := quadSum_cs (w := w) (X := X) (m := f) (f := fun x => x - s.mean) (g := fun x => (x - s.mean) ^ 2) hw hf
  have e3 : (quadSum w X fun x => f x * ((x - s.mean) * (x - s.mean) ^ 2)) = s.skewness * s.standard_deviation ^ 3 := by
    rw [h.skewness hs]; exact quadSum_congr fun x _ => by ring
  have e4 : (quadSum w X fun x => f x * ((x - s.mean) ^ 2) ^ 2) = s.kurtosis * s.standard_deviation ^ 4 := by
    rw [h.kurtosis hs]; exact quadSum_congr fun x _ => by ring
  rw [e3, e4, ← h.variance, ← h.sd.2] at hcs
  have hp : 0 < s.standard_deviation ^ 6 := by
    have := h.sd.1.lt_of_ne' hs
    positivity
  have : s.standard_deviation ^ 6 * s.skewness ^ 2 ≤ s.standard_deviation ^ 6 * s.kurtosis := by nlinarith
  exact le_of_mul_le_mul_left this hp

/-! ## Components -/

/-- One of the library's eight distributions, with positive scale and shape and a location that is not negative. -/
inductive Lib : Dist → Prop
  | weibull (a b g : ℝ) : 0 < a → 0 < b → 0 ≤ g → Lib (weibull a b g)
  | exponential (l g : ℝ) : 0 < l → 0 ≤ g → Lib (exponential l g)
  | normal (m s : ℝ) : 0 < s → Lib (normal m s)
  | lognormal (m s g : ℝ) : 0 < s → 0 ≤ g → Lib (lognormal m s g)
  | gamma (a b g : ℝ) : 0 < a → 0 < b → 0 ≤ g → Lib (gammaDist a b g)
  | beta (a b : ℝ) : 0 < a → 0 < b → Lib (betaDist a b)
  | loglogistic (a b g : ℝ) : 0 < a → 0 < b → 0 ≤ g → Lib (loglogistic a b g)
  | gumbel (m s : ℝ) : 0 < s → Lib (gumbel m s)

/-- What the theorems use of a component. -/
structure Component (d : Dist) : Prop where
  proper : Proper d
  quant : ∀ q, 0 < q → q < 1 → d.sp.cdf (d.sp.ppf q) = q
  pdf_nonneg : ∀ x, 0 ≤ d.sp.pdf x
  hf_nonneg : ∀ x, 0 ≤ hfValue d x
  sf_pos : d.fam ≠ .beta → ∀ x, 0 < d.sp.sf x
  beta_le : d.fam = .beta → ∀ q, 0 < q → q < 1 → d.sp.ppf q ≤ 1

theorem sf_pos_of {F S Q R : ℝ → ℝ} {g : ℝ} (law : SurvivalLaw F S) (hq : QuantileLaw (Set.Ioi g) F S Q R)
    (h1 : ∀ x ≤ g, F x = 0 ∧ S x = 1) (x : ℝ) : 0 < S x := by
  rcases le_or_gt x g with h | h
  · rw [(h1 x h).2]; exact one_pos
  · have h2 := (hq.range x h).2
    have := law.compl x
    linarith

theorem sf_pos_univ {F S Q R : ℝ → ℝ} (law : SurvivalLaw F S) (hq : QuantileLaw Set.univ F S Q R) (x : ℝ) : 0 < S x := by
  have h2 := (hq.range x trivial).2
  have := law.compl x
  linarith

theorem hfValue_shift {d : Dist} {g : ℝ} (hg : 0 ≤ g) (hz : d.zeroAt = some g) (ht : Half d) (h : ∀ x, g ≤ x → 0 ≤ d.hf x) (x : ℝ) :
    0 ≤ hfValue d x := by
  unfold hfValue
  split
  · rename_i hc
    have h0 : 0 ≤ x := by simpa [ht.two] using hc
    simp only [hfOwn, hz]
    split
    · exact le_rfl
    · rename_i hx
      apply h
      by_contra hlt
      rw [not_le] at hlt
      exact hx ⟨by linarith, hlt.le⟩
  · exact le_rfl

theorem hfValue_ratio {d : Dist} (hz : d.zeroAt = none) (h : ∀ x, 0 ≤ d.hf x) (x : ℝ) : 0 ≤ hfValue d x := by
  unfold hfValue
  split
  · simp only [hfOwn, hz]; exact h x
  · exact le_rfl

theorem Component.of_ratio {fam : Fam} {sp : Scipy} {lo up : Option ℝ} (law : SurvivalLaw sp.cdf sp.sf) (hp : ∀ x, 0 ≤ sp.pdf x)
    (x : ℝ) : 0 ≤ hfValue (ofScipy fam sp lo up) x := by
  refine hfValue_ratio rfl (fun x => ?_) x
  have h1 := law.compl x
  have h2 := (law.range x).2
  exact div_nonneg (hp x) (by linarith)

theorem Lib.component {d : Dist} (h : Lib d) : Component d := by
  cases h with
  | weibull a b g ha hb hg =>
    refine ⟨proper_weibull a b g ha hb hg, (C34_weibull a b g ha hb).cdf_quantile, ?_, ?_,
      fun _ => sf_pos_of (C33_weibull a b g ha hb).1 (C34_weibull a b g ha hb) (C33_weibull a b g ha hb).2, fun h => by cases h⟩
    · intro x
      simp only [Distributions.weibull, locScale, weibullStd]
      split
      · simp
      · rename_i h
        rw [not_lt] at h
        positivity
    · refine hfValue_shift hg rfl (by simp [Half, Distributions.weibull]) fun x hx => ?_
      simp only [Distributions.weibull]
      have : 0 ≤ x - g := by linarith
      positivity
  | exponential l g hl hg =>
    refine ⟨proper_exponential l g hl hg, (C34_exponential l g hl).cdf_quantile, ?_, ?_,
      fun _ => sf_pos_of (C33_exponential l g hl).1 (C34_exponential l g hl) (C33_exponential l g hl).2, fun h => by cases h⟩
    · intro x
      simp only [Distributions.exponential, locScale, exponStd]
      split
      · simp
      · positivity
    · refine hfValue_shift hg rfl (by simp [Half, Distributions.exponential]) fun x hx => ?_
      simp only [Distributions.exponential]
      linarith
  | normal m s hs =>
    have hp : ∀ x, 0 ≤ (locScale normStd m s).pdf x := by
      intro x
      simp only [locScale, normStd, ofDensity, normStdPdf]
      positivity
    exact ⟨proper_normal m s hs, (C34_normal m s hs).cdf_quantile, hp, Component.of_ratio (C33_normal m s hs) hp,
      fun _ => sf_pos_univ (C33_normal m s hs) (C34_normal m s hs), fun h => by cases h⟩
  | lognormal m s g hs hg =>
    have hp : ∀ x, 0 ≤ (locScale (lognormStd s) g (Real.exp m)).pdf x := by
      intro x
      simp only [locScale, lognormStd, normStdPdf]
      split
      · simp
      · rename_i h
        rw [not_le] at h
        positivity
    refine ⟨⟨(C33_lognormal m s g hs).1, fun _ x hx => ((C33_lognormal m s g hs).2 x (by linarith)).2⟩,
      (C34_lognormal m s g hs).cdf_quantile, hp, Component.of_ratio (C33_lognormal m s g hs).1 hp,
      fun _ => sf_pos_of (C33_lognormal m s g hs).1 (C34_lognormal m s g hs) (C33_lognormal m s g hs).2, fun h => by cases h⟩
  | gamma a b g ha hb hg =>
    have hp : ∀ x, 0 ≤ (locScale (ofDensity (gammaStdPdf b)) g a).pdf x := by
      intro x
      simp only [locScale, ofDensity, gammaStdPdf]
      have := Real.Gamma_pos_of_pos hb
      split
      · simp
      · rename_i h
        rw [not_lt] at h
        positivity
    refine ⟨⟨(C33_gamma a b g ha hb).1, fun _ x hx => ((C33_gamma a b g ha hb).2 x (by linarith)).2⟩,
      (C34_gamma a b g ha hb).cdf_quantile, hp, Component.of_ratio (C33_gamma a b g ha hb).1 hp,
      fun _ => sf_pos_of (C33_gamma a b g ha hb).1 (C34_gamma a b g ha hb) (C33_gamma a b g ha hb).2, fun h => by cases h⟩
  | beta a b ha hb =>
    have hp : ∀ x, 0 ≤ (locScale (ofDensity (betaStdPdf a b)) 0 1).pdf x := by
      intro x
      simp only [locScale, ofDensity, betaStdPdf]
      have h1 := Real.Gamma_pos_of_pos ha
      have h2 := Real.Gamma_pos_of_pos hb
      have h3 := Real.Gamma_pos_of_pos (by linarith : 0 < a + b)
      split
      · simp
      · rename_i h
        push Not at h
        have h4 : 0 ≤ 1 - (x - 0) / 1 := by linarith [h.2]
        have h5 := h.1
        have := Real.rpow_nonneg h4 (b - 1)
        have := Real.rpow_nonneg h5 (a - 1)
        positivity
    refine ⟨⟨(C33_beta a b ha hb).1, fun _ x hx => ((C33_beta a b ha hb).2.1 x (by linarith)).2⟩,
      (C34_beta a b ha hb).cdf_quantile, hp, Component.of_ratio (C33_beta a b ha hb).1 hp, fun h => absurd rfl h,
      fun _ q h0 h1 => ((C34_beta a b ha hb).mem q h0 h1).2.le⟩
  | loglogistic a b g ha hb hg =>
    refine ⟨⟨(C33_loglogistic a b g ha hb).1, fun _ x hx => ((C33_loglogistic a b g ha hb).2 x (by linarith)).2⟩,
      (C34_loglogistic a b g ha hb).cdf_quantile, ?_, ?_,
      fun _ => sf_pos_of (C33_loglogistic a b g ha hb).1 (C34_loglogistic a b g ha hb) (C33_loglogistic a b g ha hb).2,
      fun h => by cases h⟩
    · intro x
      simp only [Distributions.loglogistic, locScale, fiskStd]
      split
      · simp
      · rename_i h
        rw [not_lt] at h
        positivity
    · refine hfValue_shift hg rfl (by simp [Half, Distributions.loglogistic]) fun x hx => ?_
      simp only [Distributions.loglogistic]
      have : 0 ≤ x - g := by linarith
      positivity
  | gumbel m s hs =>
    refine ⟨⟨C33_gumbel m s hs, fun h => by simp [Half, Distributions.gumbel] at h⟩, (C34_gumbel m s hs).cdf_quantile, ?_, ?_,
      fun _ => sf_pos_univ (C33_gumbel m s hs) (C34_gumbel m s hs), fun h => by cases h⟩
    · intro x
      simp only [Distributions.gumbel, locScale, gumbelStd]
      positivity
    · refine hfValue_ratio rfl fun x => ?_
      simp only [Distributions.gumbel]
      positivity

/-! ## The grid -/

/-- `a` and `b` are the smallest 1e-10 quantile and the largest 1 - 1e-10 quantile of the components. -/
def Ends (ds : List Dist) (a b : ℝ) : Prop :=
  IsLeast {x | ∃ d ∈ ds, x = d.sp.ppf (1 / 10 ^ 10)} a ∧ IsGreatest {x | ∃ d ∈ ds, x = d.sp.ppf (1 - 1 / 10 ^ 10)} b

/-- The quantiles are within the values -1e100 and 1e100 the constructors start from. -/
def InRange (ds : List Dist) : Prop :=
  ∀ d ∈ ds, d.sp.ppf (1 / 10 ^ 10) ≤ 10 ^ 100 ∧ -10 ^ 100 ≤ d.sp.ppf (1 - 1 / 10 ^ 10)

theorem quant_lt {d : Dist} (h : Component d) : d.sp.ppf (1 / 10 ^ 10) < d.sp.ppf (1 - 1 / 10 ^ 10) := by
  by_contra hc
  rw [not_lt] at hc
  have h1 := h.proper.law.mono hc
  rw [h.quant _ (by norm_num) (by norm_num), h.quant _ (by norm_num) (by norm_num)] at h1
  norm_num at h1

theorem quant_nonneg {d : Dist} (h : Component d) (ht : Half d) {q : ℝ} (h0 : 0 < q) (h1 : q < 1) : 0 ≤ d.sp.ppf q := by
  by_contra hc
  rw [not_le] at hc
  have h2 := h.proper.pos ht _ hc
  have h3 := h.proper.law.compl (d.sp.ppf q)
  rw [h.quant q h0 h1] at h3
  linarith

theorem gridEnds_spec {ds : List Dist} (hne : ds ≠ []) (hd : ∀ d ∈ ds, Component d) (hr : InRange ds) :
    Ends ds (gridEnds ds).1 (gridEnds ds).2 ∧ (gridEnds ds).1 < (gridEnds ds).2 ∧
      ((∀ d ∈ ds, Half d) → 0 ≤ (gridEnds ds).1) ∧ ((∃ d ∈ ds, Half d) → 0 ≤ (gridEnds ds).2) := by
  obtain ⟨⟨d1, m1, e1⟩, l1⟩ := foldl_min (fun d : Dist => d.sp.ppf (1 / 10 ^ 10)) ds (10 ^ 100) (fun d h => (hr d h).1) hne
  obtain ⟨⟨d2, m2, e2⟩, l2⟩ := foldl_max (fun d : Dist => d.sp.ppf (1 - 1 / 10 ^ 10)) ds (-10 ^ 100) (fun d h => (hr d h).2) hne
  refine ⟨⟨⟨⟨d1, m1, e1⟩, ?_⟩, ⟨d2, m2, e2⟩, ?_⟩, ?_, ?_, ?_⟩
  · rintro x ⟨d, h, rfl⟩; exact l1 d h
  · rintro x ⟨d, h, rfl⟩; exact l2 d h
  · exact (l1 d1 m1).trans_lt ((quant_lt (hd d1 m1)).trans_le (l2 d1 m1))
  · intro hh
    have := quant_nonneg (q := 1 / 10 ^ 10) (hd d1 m1) (hh d1 m1) (by norm_num) (by norm_num)
    simp only [gridEnds, e1]
    exact this
  · rintro ⟨d, h, hh⟩
    exact (quant_nonneg (hd d h) hh (by norm_num) (by norm_num)).trans (l2 d h)

theorem linspace_ne {a b : ℝ} {n : ℕ} (hn : 3 ≤ n) : Np.linspace a b n ≠ [] := by
  rw [← length_pos_iff_ne_nil, Np.linspace_length]; omega

theorem linspace_le {a b : ℝ} (hab : a < b) (n : ℕ) : (Np.linspace a b n).Pairwise (· ≤ ·) :=
  (Np.linspace_strictMono hab).imp le_of_lt

theorem mem_linspace_first {a b : ℝ} {n : ℕ} (hn : 3 ≤ n) : a ∈ Np.linspace a b n :=
  mem_of_getElem? (Np.linspace_first a b n (by omega))

theorem mem_linspace_last {a b : ℝ} {n : ℕ} (hn : 3 ≤ n) : b ∈ Np.linspace a b n :=
  mem_of_getElem? (Np.linspace_last a b n (by omega))

/-- The constructor of the competing risks model against a call with the grid as xvals. -/
theorem competingInit_eq {ds : List Dist} {n : ℕ} (hn : 3 ≤ n) (hne : ds ≠ []) (hd : ∀ d ∈ ds, Component d) (hr : InRange ds) :
    let X := Np.linspace (gridEnds ds).1 (gridEnds ds).2 n
    (∃ A, competing ds X = .ok A ∧ competingInit n ds = .ok ⟨X, A.pdf, A.cdf, (gridEnds ds).2,
        summarise (gridEnds ds).1 (gridEnds ds).2 n A.pdf A.cdf A.sf⟩) ∨
    (competing ds X = valueErr ∧ competingInit n ds = valueErr) := by
  intro X
  obtain ⟨-, hab, ha, -⟩ := gridEnds_spec hne hd hr
  have hc : checkNeg ds X = .ok () := by
    rcases checkNeg_ok ds X with h | h
    · exact h.1
    · exact absurd ⟨linspace_ne hn, fun hh x hx => (ha hh).trans (Np.linspace_mem hab.le hx).1⟩ h.2
  have herr1 : ∀ d e, contribution SF 1 X d = .error e → e = .valueError :=
    fun d e h => contribution_error (fun d X e => SF_error) 1 X d e h
  have herr2 : ∀ d e, contribution HF 0 X d = .error e → e = .valueError :=
    fun d e h => contribution_error (fun d X e => HF_error) 0 X d e h
  have hI : competingInit n ds = match collect (contribution SF 1 X) ds, collect (contribution HF 0 X) ds with
      | .ok ss, .ok hs =>
        let sf := ss.foldl (List.zipWith (· * ·)) (X.map fun _ => 1)
        let hf := hs.foldl (List.zipWith (· + ·)) (X.map fun _ => 0)
        let pdf := List.zipWith (· * ·) hf sf
        let cdf := sf.map fun s => 1 - s
        .ok ⟨X, pdf, cdf, (gridEnds ds).2, summarise (gridEnds ds).1 (gridEnds ds).2 n pdf cdf sf⟩
      | .error e, _ => .error e
      | _, .error e => .error e := rfl
  rw [hI]
  simp only [competing, hc]
  rcases collect_isOk _ herr1 ds with ⟨-, s, h2⟩ | ⟨-, h2⟩
  · rcases collect_isOk _ herr2 ds with ⟨-, k, k2⟩ | ⟨-, k2⟩
    · left
      rw [h2, k2]
      refine ⟨_, rfl, ?_⟩
      have : ∀ l l' : List ℝ, zipWith (· * ·) l l' = zipWith (· * ·) l' l := fun l l' => by
        rw [zipWith_comm]; simp only [mul_comm]
      dsimp only
      rw [this]
    · right
      rw [h2, k2]
      exact ⟨rfl, rfl⟩
  · right
    rw [h2]
    exact ⟨rfl, rfl⟩

theorem prod_antitone {ds : List Dist} (hd : ∀ d ∈ ds, Proper d) : Monotone fun x => 1 - (ds.map fun d => d.sp.sf x).prod := by
  intro x y hxy
  have key : ∀ ds : List Dist, (∀ d ∈ ds, Proper d) → 0 ≤ (ds.map fun d => d.sp.sf y).prod ∧
      (ds.map fun d => d.sp.sf y).prod ≤ (ds.map fun d => d.sp.sf x).prod := by
    intro ds hd
    induction ds with
    | nil => simp
    | cons d ds ih =>
      obtain ⟨h1, h2⟩ := ih fun d' h' => hd d' (by simp [h'])
      have hp := (hd d (by simp)).law
      have a1 := hp.compl x
      have a2 := hp.compl y
      have a3 := hp.mono hxy
      have a4 := (hp.range y).2
      simp only [map_cons, prod_cons]
      exact ⟨mul_nonneg (by linarith) h1, mul_le_mul (by linarith) h2 h1 (by linarith)⟩
  have := (key ds hd).2
  simp only
  linarith

/-- **C119 (Competing risks: when it can be built).** The constructor succeeds unless a Beta component is combined with a
component whose 1 - 1e-10 quantile is above 1; then it raises ValueError. -/
theorem C119_competing_builds (n : ℕ) (hn : 3 ≤ n) (ds : List Dist) (hne : ds ≠ []) (hd : ∀ d ∈ ds, Lib d) (hr : InRange ds) :
    ((∃ m, competingInit n ds = .ok m) ↔ ∀ d ∈ ds, d.fam = .beta → ∀ d' ∈ ds, d'.sp.ppf (1 - 1 / 10 ^ 10) ≤ 1) ∧
    ((¬ ∃ m, competingInit n ds = .ok m) → competingInit n ds = valueErr) := by
  have hd' := fun d h => (hd d h).component
  obtain ⟨⟨-, hb⟩, hab, ha, hb0⟩ := gridEnds_spec hne hd' hr
  have hbeta : (∀ d ∈ ds, d.fam = .beta → ∀ d' ∈ ds, d'.sp.ppf (1 - 1 / 10 ^ 10) ≤ 1) ↔
      ∀ d ∈ ds, d.fam = .beta → (gridEnds ds).2 ≤ 1 := by
    refine forall₂_congr fun d _ => imp_congr_right fun _ => ⟨fun h => ?_, fun h d' m' => (hb.2 ⟨d', m', rfl⟩).trans h⟩
    obtain ⟨d', m', e⟩ := hb.1
    rw [e]; exact h d' m'
  rw [hbeta]
  have hacc : Accepts ds (Np.linspace (gridEnds ds).1 (gridEnds ds).2 n) ↔ ∀ d ∈ ds, d.fam = .beta → (gridEnds ds).2 ≤ 1 := by
    constructor
    · intro h d m hf
      exact (h.2.2 d m (by simp [Half, hf])).2 hf _ (mem_linspace_last hn)
    · intro h
      refine ⟨linspace_ne hn, fun hh x hx => (ha hh).trans (Np.linspace_mem hab.le hx).1, fun d m hh => ?_⟩
      exact ⟨⟨_, mem_linspace_last hn, hb0 ⟨d, m, hh⟩⟩, fun hf x hx => (Np.linspace_mem hab.le hx).2.trans (h d m hf)⟩
  rw [← hacc]
  rcases competingInit_eq hn hne hd' hr with ⟨A, hA, hI⟩ | ⟨hA, hI⟩
  · refine ⟨⟨fun _ => ?_, fun _ => ⟨_, hI⟩⟩, fun h => absurd ⟨_, hI⟩ h⟩
    rcases C37_accepts ds (Np.linspace (gridEnds ds).1 (gridEnds ds).2 n) with h | h
    · exact h.2
    · rw [hA] at h; cases h.1
  · refine ⟨⟨fun ⟨m, hm⟩ => (by rw [hI] at hm; cases hm), fun h => ?_⟩, fun _ => hI⟩
    rcases C37_accepts ds (Np.linspace (gridEnds ds).1 (gridEnds ds).2 n) with h' | h'
    · obtain ⟨A, hA'⟩ := h'.1
      rw [hA] at hA'; cases hA'
    · exact absurd h h'.2

/-- **C119 (Competing risks).** The attributes are those of the PDF and CDF the model itself reports on the grid: mean,
variance, skewness and kurtosis are its moments by Simpson's rule, the mode has the greatest PDF on the grid, and median, b5
and b95 are the grid points whose CDF is nearest to 0.5, 0.05 and 0.95, in that order; skewness squared is at most kurtosis. -/
theorem C119_competing (n : ℕ) (hn : 3 ≤ n) (ds : List Dist) (hne : ds ≠ []) (hd : ∀ d ∈ ds, Lib d) (hr : InRange ds)
    (m : Built) (h : competingInit n ds = .ok m) :
    ∃ a b w f A, Ends ds a b ∧ a < b ∧ m.X = Np.linspace a b n ∧ Quadrature a b m.X w ∧
      competing ds m.X = .ok A ∧ A.pdf = m.X.map f ∧ (∀ x, 0 ≤ f x) ∧ m.pdf = A.pdf ∧ m.cdf = A.cdf ∧ m.xmax_inf = b ∧
      AttrsOf m.X w f (fun x => 1 - (ds.map fun d => d.sp.sf x).prod) m.attrs ∧
      m.attrs.b5 ≤ m.attrs.median ∧ m.attrs.median ≤ m.attrs.b95 ∧
      (m.attrs.standard_deviation ≠ 0 → m.attrs.skewness ^ 2 ≤ m.attrs.kurtosis) := by
  have hd' := fun d h => (hd d h).component
  obtain ⟨hE, hab, -, -⟩ := gridEnds_spec hne hd' hr
  rcases competingInit_eq hn hne hd' hr with ⟨A, hA, hI⟩ | ⟨hA, hI⟩
  swap
  · rw [hI] at h; cases h
  rw [hI] at h
  cases h
  obtain ⟨e1, e2, e3, e4, e5⟩ := competing_sorted (linspace_le hab n) hA
  have eS : ∀ x, (ds.map fun d => sfValue d x) = ds.map fun d => d.sp.sf x := fun x =>
    List.map_congr_left fun d m => (hd' d m).proper.sfValue x
  simp only [eS] at e1 e3 e4
  have hf : ∀ x, 0 ≤ (ds.map fun d => d.sp.sf x).prod * (ds.map fun d => hfValue d x).sum := by
    intro x
    refine mul_nonneg (List.prod_nonneg ?_) (List.sum_nonneg ?_)
    · intro y hy
      obtain ⟨d, m, rfl⟩ := mem_map.1 hy
      have h1 := (hd' d m).proper.law.compl x
      have h2 := ((hd' d m).proper.law.range x).2
      linarith
    · intro y hy
      obtain ⟨d, m, rfl⟩ := mem_map.1 hy
      exact (hd' d m).hf_nonneg x
  have hS : ∀ x, (ds.map fun d => d.sp.sf x).prod = 1 - (1 - (ds.map fun d => d.sp.sf x).prod) := fun x => by ring
  have hat := summarise_attrs hab hn (f := fun x => (ds.map fun d => d.sp.sf x).prod * (ds.map fun d => hfValue d x).sum)
    (fun x _ => hf x) hS
  have hor := summarise_order hab hn (f := fun x => (ds.map fun d => d.sp.sf x).prod * (ds.map fun d => hfValue d x).sum)
    (prod_antitone fun d m => (hd' d m).proper) hS
  have hq := simpsonRule_quadrature hab hn
  rw [← e1, ← e3, ← e4] at hat hor
  exact ⟨_, _, _, _, A, hE, hab, rfl, hq, hA, e3, hf, rfl, rfl, rfl, hat, hor.1, hor.2,
    attrs_moment (fun v hv => (hq.pos v hv).le) (fun x _ => hf x) hat⟩

/-! ## Mixture -/

theorem weighted_isOk {f : Dist → List ℝ → Except Err (List ℝ)} (X : List ℝ) (dp : Dist × ℝ) :
    (∃ Y, weighted f X dp = .ok Y) ↔ ∃ Y, contribution f 0 X dp.1 = .ok Y := by
  simp only [weighted, contribution]
  by_cases ht : twoSided dp.1
  · rw [if_pos ht, if_pos ht]
    cases f dp.1 X <;> simp
  · rw [if_neg ht, if_neg ht]
    cases f dp.1 (X.filter fun x => decide (0 ≤ x)) <;> simp

theorem weighted_error {f : Dist → List ℝ → Except Err (List ℝ)} (hf : ∀ d X e, f d X = .error e → e = .valueError)
    (X : List ℝ) (dp : Dist × ℝ) (e : Err) (h : weighted f X dp = .error e) : e = .valueError := by
  simp only [weighted] at h
  by_cases ht : twoSided dp.1
  · rw [if_pos ht] at h
    cases hc : f dp.1 X with
    | error e' => simp only [hc, Except.error.injEq] at h; subst h; exact hf _ _ _ hc
    | ok Y => simp [hc] at h
  · rw [if_neg ht] at h
    cases hc : f dp.1 (X.filter fun x => decide (0 ≤ x)) with
    | error e' => simp only [hc, Except.error.injEq] at h; subst h; exact hf _ _ _ hc
    | ok Y => simp [hc] at h

theorem CDF_isOk (d : Dist) (X : List ℝ) : (∃ Y, CDF d X = .ok Y) ↔ checkX d.fam X = .ok () := by
  simp only [CDF]
  cases hc : checkX d.fam X with
  | error e => simp
  | ok u => simp

theorem PDF_isOk (d : Dist) (X : List ℝ) : (∃ Y, PDF d X = .ok Y) ↔ checkX d.fam X = .ok () := by
  simp only [PDF]
  cases hc : checkX d.fam X with
  | error e => simp
  | ok u => simp

theorem CDF_error (d : Dist) (X : List ℝ) (e : Err) (h : CDF d X = .error e) : e = .valueError := by
  simp only [CDF] at h
  apply SF_error (d := d) (X := X) (e := e)
  simp only [SF]
  cases hc : checkX d.fam X with
  | error e' => simpa [hc] using h
  | ok u => simp [hc] at h

theorem PDF_error (d : Dist) (X : List ℝ) (e : Err) (h : PDF d X = .error e) : e = .valueError := by
  simp only [PDF] at h
  apply SF_error (d := d) (X := X) (e := e)
  simp only [SF]
  cases hc : checkX d.fam X with
  | error e' => simpa [hc] using h
  | ok u => simp [hc] at h

theorem zip_mem {ds : List Dist} {p : List ℝ} (hl : p.length = ds.length) {d : Dist} (h : d ∈ ds) : ∃ dp ∈ ds.zip p, dp.1 = d := by
  obtain ⟨i, hi, rfl⟩ := List.mem_iff_getElem.1 h
  refine ⟨(ds[i], p[i]'(by omega)), ?_, rfl⟩
  rw [List.mem_iff_getElem]
  exact ⟨i, by simp [hi, hl], by simp⟩

theorem collect_weighted {f : Dist → List ℝ → Except Err (List ℝ)}
    (hok : ∀ d X, (∃ Y, f d X = .ok Y) ↔ checkX d.fam X = .ok ()) (herr : ∀ d X e, f d X = .error e → e = .valueError)
    (ds : List Dist) (p X : List ℝ) (hl : p.length = ds.length) (hX : X ≠ []) :
    ((∃ Ys, collect (weighted f X) (ds.zip p) = .ok Ys) ∧
      ∀ d ∈ ds, Half d → (∃ x ∈ X, 0 ≤ x) ∧ (d.fam = .beta → ∀ x ∈ X, x ≤ 1)) ∨
    (collect (weighted f X) (ds.zip p) = valueErr ∧
      ¬ ∀ d ∈ ds, Half d → (∃ x ∈ X, 0 ≤ x) ∧ (d.fam = .beta → ∀ x ∈ X, x ≤ 1)) := by
  rcases collect_isOk (weighted f X) (weighted_error herr X) (ds.zip p) with ⟨h1, h2⟩ | ⟨⟨dp, hm, hv⟩, h2⟩
  · left
    refine ⟨h2, fun d hd => ?_⟩
    obtain ⟨dp, hm, rfl⟩ := zip_mem hl hd
    exact (contribution_isOk hok 0 X hX dp.1).1 ((weighted_isOk X dp).1 (h1 dp hm))
  · right
    refine ⟨h2, fun h => ?_⟩
    obtain ⟨Y, hY⟩ := (weighted_isOk X dp).2 ((contribution_isOk hok 0 X hX dp.1).2 (h dp.1 (List.of_mem_zip hm).1))
    rw [hY] at hv; cases hv

/-- **C38 (which xvals are accepted).** As for the competing risks model (C37_accepts). -/
theorem C38_accepts (ds : List Dist) (p : List ℝ) (hl : p.length = ds.length) (X : List ℝ) :
    ((∃ A, mixture ds p X = .ok A) ∧ Accepts ds X) ∨ (mixture ds p X = valueErr ∧ ¬ Accepts ds X) := by
  rcases checkNeg_ok ds X with ⟨hc, hne, hneg⟩ | ⟨hc, hno⟩
  · rcases collect_weighted CDF_isOk CDF_error ds p X hl hne with ⟨⟨c, h1⟩, h2⟩ | ⟨h1, h2⟩
    · rcases collect_weighted PDF_isOk PDF_error ds p X hl hne with ⟨⟨q, k1⟩, k2⟩ | ⟨k1, k2⟩
      · left
        exact ⟨by simp only [mixture, hc, h1, k1]; exact ⟨_, rfl⟩, hne, hneg, h2⟩
      · exact absurd h2 k2
    · right
      exact ⟨by simp only [mixture, hc, h1, valueErr], fun h => h2 h.2.2⟩
  · right
    exact ⟨by simp only [mixture, hc, valueErr], fun hA => hno ⟨hA.1, hA.2.1⟩⟩

theorem mixtureBuild_eq {ds : List Dist} {n : ℕ} (hn : 3 ≤ n) (hne : ds ≠ []) (hd : ∀ d ∈ ds, Component d) (hr : InRange ds)
    {pr : Option (List ℝ)} {p : List ℝ} (hp : mixtureInit ds pr = .ok p) :
    let X := Np.linspace (gridEnds ds).1 (gridEnds ds).2 n
    p.length = ds.length ∧ p.sum = 1 ∧
    ((∃ A, mixture ds p X = .ok A ∧ mixtureBuild n ds pr = .ok (p, ⟨X, A.pdf, A.cdf, (gridEnds ds).2,
        summarise (gridEnds ds).1 (gridEnds ds).2 n A.pdf A.cdf A.sf⟩)) ∨
    (mixture ds p X = valueErr ∧ mixtureBuild n ds pr = valueErr)) := by
  intro X
  obtain ⟨-, hab, ha, -⟩ := gridEnds_spec hne hd hr
  have hc : checkNeg ds X = .ok () := by
    rcases checkNeg_ok ds X with h | h
    · exact h.1
    · exact absurd ⟨linspace_ne hn, fun hh x hx => (ha hh).trans (Np.linspace_mem hab.le hx).1⟩ h.2
  have hlp : p.length = ds.length ∧ p.sum = 1 := by
    cases pr with
    | none =>
      obtain ⟨w, e, h1, -, h3⟩ := (C38_proportions ds hne []).2.2.2
      rw [e] at hp; cases hp; exact ⟨h1, h3⟩
    | some q =>
      obtain ⟨h1, h2, h3, -⟩ := C38_proportions ds hne q
      by_cases a1 : q.sum = 1
      · by_cases a2 : q.length = ds.length
        · rw [h3 a1 a2] at hp; cases hp; exact ⟨a2, a1⟩
        · rw [h2 a2] at hp; cases hp
      · rw [h1 a1] at hp; cases hp
  refine ⟨hlp.1, hlp.2, ?_⟩
  have hI : mixtureBuild n ds pr = match collect (weighted CDF X) (ds.zip p), collect (weighted PDF X) (ds.zip p) with
      | .ok cs, .ok ps =>
        let cdf := cs.foldl (List.zipWith (· + ·)) (X.map fun _ => 0)
        let pdf := ps.foldl (List.zipWith (· + ·)) (X.map fun _ => 0)
        .ok (p, ⟨X, pdf, cdf, (gridEnds ds).2, summarise (gridEnds ds).1 (gridEnds ds).2 n pdf cdf (cdf.map fun c => 1 - c)⟩)
      | .error e, _ => .error e
      | _, .error e => .error e := by
    unfold mixtureBuild
    rw [hp]
    rfl
  rw [hI]
  simp only [mixture, hc]
  rcases collect_weighted CDF_isOk CDF_error ds p X hlp.1 (linspace_ne hn) with ⟨⟨c, h1⟩, h2⟩ | ⟨h1, h2⟩
  · rcases collect_weighted PDF_isOk PDF_error ds p X hlp.1 (linspace_ne hn) with ⟨⟨q, k1⟩, k2⟩ | ⟨k1, k2⟩
    · left
      rw [h1, k1]
      exact ⟨_, rfl, rfl⟩
    · exact absurd h2 k2
  · right
    rw [h1]
    exact ⟨rfl, rfl⟩

/-- **C119 (Mixture: when it can be built).** With accepted proportions, as for the competing risks model. -/
theorem C119_mixture_builds (n : ℕ) (hn : 3 ≤ n) (ds : List Dist) (hne : ds ≠ []) (hd : ∀ d ∈ ds, Lib d) (hr : InRange ds)
    (pr : Option (List ℝ)) (p : List ℝ) (hp : mixtureInit ds pr = .ok p) :
    ((∃ m, mixtureBuild n ds pr = .ok m) ↔ ∀ d ∈ ds, d.fam = .beta → ∀ d' ∈ ds, d'.sp.ppf (1 - 1 / 10 ^ 10) ≤ 1) ∧
    ((¬ ∃ m, mixtureBuild n ds pr = .ok m) → mixtureBuild n ds pr = valueErr) := by
  have hd' := fun d h => (hd d h).component
  obtain ⟨hl, -, hB⟩ := mixtureBuild_eq hn hne hd' hr hp
  obtain ⟨hc, -⟩ := C119_competing_builds n hn ds hne hd hr
  rw [← hc]
  have hcm : (∃ m, competingInit n ds = .ok m) ↔ Accepts ds (Np.linspace (gridEnds ds).1 (gridEnds ds).2 n) := by
    rcases competingInit_eq hn hne hd' hr with ⟨A, hA, hI⟩ | ⟨hA, hI⟩ <;>
      rcases C37_accepts ds (Np.linspace (gridEnds ds).1 (gridEnds ds).2 n) with ⟨⟨B, hB⟩, h⟩ | ⟨hB, h⟩
    · exact ⟨fun _ => h, fun _ => ⟨_, hI⟩⟩
    · rw [hA] at hB; cases hB
    · rw [hA] at hB; cases hB
    · exact ⟨fun ⟨m, hm⟩ => (by rw [hI] at hm; cases hm), fun h' => absurd h' h⟩
  rw [hcm]
  rcases hB with ⟨A, hA, hI⟩ | ⟨hA, hI⟩ <;>
    rcases C38_accepts ds p hl (Np.linspace (gridEnds ds).1 (gridEnds ds).2 n) with ⟨⟨B, hB⟩, h⟩ | ⟨hB, h⟩
  · exact ⟨⟨fun _ => h, fun _ => ⟨_, hI⟩⟩, fun h' => absurd ⟨_, hI⟩ h'⟩
  · rw [hA] at hB; cases hB
  · rw [hA] at hB; cases hB
  · exact ⟨⟨fun ⟨m, hm⟩ => (by rw [hI] at hm; cases hm), fun h' => absurd h' h⟩, fun _ => hI⟩

theorem wsum_mono {ds : List Dist} {p : List ℝ} (hp : ∀ a ∈ p, 0 ≤ a) (hd : ∀ d ∈ ds, Proper d) :
    Monotone fun x => wsum ds p fun d => d.sp.cdf x := by
  intro x y hxy
  simp only [wsum]
  apply List.sum_le_sum
  intro dp hm
  exact mul_le_mul_of_nonneg_right ((hd dp.1 (List.of_mem_zip hm).1).law.mono hxy) (hp dp.2 (List.of_mem_zip hm).2)

/-- **C119 (Mixture).** With proportions that are not negative, the same for the mixture. -/
theorem C119_mixture (n : ℕ) (hn : 3 ≤ n) (ds : List Dist) (hne : ds ≠ []) (hd : ∀ d ∈ ds, Lib d) (hr : InRange ds)
    (pr : Option (List ℝ)) (p : List ℝ) (m : Built) (h : mixtureBuild n ds pr = .ok (p, m)) (h0 : ∀ a ∈ p, 0 ≤ a) :
    ∃ a b w f A, Ends ds a b ∧ a < b ∧ m.X = Np.linspace a b n ∧ Quadrature a b m.X w ∧
      mixture ds p m.X = .ok A ∧ A.pdf = m.X.map f ∧ (∀ x, 0 ≤ f x) ∧ m.pdf = A.pdf ∧ m.cdf = A.cdf ∧ m.xmax_inf = b ∧
      AttrsOf m.X w f (fun x => ((ds.zip p).map fun dp => dp.1.sp.cdf x * dp.2).sum) m.attrs ∧
      m.attrs.b5 ≤ m.attrs.median ∧ m.attrs.median ≤ m.attrs.b95 ∧
      (m.attrs.standard_deviation ≠ 0 → m.attrs.skewness ^ 2 ≤ m.attrs.kurtosis) := by
  have hd' := fun d h => (hd d h).component
  obtain ⟨hE, hab, -, -⟩ := gridEnds_spec hne hd' hr
  cases hp : mixtureInit ds pr with
  | error e => simp only [mixtureBuild, hp] at h; cases h
  | ok p' =>
    obtain ⟨hl, -, hB⟩ := mixtureBuild_eq hn hne hd' hr hp
    rcases hB with ⟨A, hA, hI⟩ | ⟨hA, hI⟩
    swap
    · rw [hI] at h; cases h
    rw [hI] at h
    cases h
    obtain ⟨e1, e2, e3, -, -⟩ := mixture_sorted (linspace_le hab n) hA
    have eC : ∀ x, (wsum ds p fun d => cdfValue d x) = wsum ds p fun d => d.sp.cdf x := fun x =>
      wsum_congr fun d m => (hd' d m).proper.cdfValue x
    simp only [eC] at e1 e3
    have hf : ∀ x, 0 ≤ wsum ds p fun d => pdfValue d x := by
      intro x
      refine List.sum_nonneg fun y hy => ?_
      obtain ⟨dp, m, rfl⟩ := mem_map.1 hy
      refine mul_nonneg ?_ (h0 _ (List.of_mem_zip m).2)
      unfold pdfValue
      dsimp only
      split
      · exact (hd' _ (List.of_mem_zip m).1).pdf_nonneg x
      · exact le_rfl
    have hat := summarise_attrs hab hn (f := fun x => wsum ds p fun d => pdfValue d x) (F := fun x => wsum ds p fun d => d.sp.cdf x)
      (fun x _ => hf x) (fun x => rfl)
    have hor := summarise_order hab hn (f := fun x => wsum ds p fun d => pdfValue d x)
      (wsum_mono h0 fun d m => (hd' d m).proper) (fun x => rfl)
    have hq := simpsonRule_quadrature hab hn
    rw [← e1, ← e2, ← e3] at hat hor
    exact ⟨_, _, _, _, A, hE, hab, rfl, hq, hA, e2, hf, rfl, rfl, rfl, hat, hor.1, hor.2,
      attrs_moment (fun v hv => (hq.pos v hv).le) (fun x _ => hf x) hat⟩

/-- **C119 (finding).** A Beta component cannot be combined with a component that may exceed 1: neither model can be built. -/
theorem C119_beta_finding (n : ℕ) (hn : 3 ≤ n) (ds : List Dist) (hd : ∀ d ∈ ds, Lib d) (hr : InRange ds)
    (d d' : Dist) (hm : d ∈ ds) (hb : d.fam = .beta) (hm' : d' ∈ ds) (h1 : 1 < d'.sp.ppf (1 - 1 / 10 ^ 10)) :
    competingInit n ds = valueErr ∧ mixtureBuild n ds none = valueErr := by
  have hne : ds ≠ [] := by rintro rfl; simp at hm
  obtain ⟨w, hw, -⟩ := (C38_proportions ds hne []).2.2.2
  have hno : ¬ ∀ d ∈ ds, d.fam = .beta → ∀ d' ∈ ds, d'.sp.ppf (1 - 1 / 10 ^ 10) ≤ 1 := fun h => by
    have := h d hm hb d' hm'
    linarith
  obtain ⟨a1, a2⟩ := C119_competing_builds n hn ds hne hd hr
  obtain ⟨b1, b2⟩ := C119_mixture_builds n hn ds hne hd hr none w hw
  exact ⟨a2 fun h => hno (a1.1 h), b2 fun h => hno (b1.1 h)⟩

/-- **C119 (DSZI).** `b5` and `b95` of a DSZI model are the points of the grid, from the base distribution's 1e-10 quantile to
its 1 - 1e-10 quantile, whose CDF (ZI plus DS - ZI times the base CDF) is nearest to 0.05 and 0.95, and `b5 ≤ b95`. -/
theorem C119_dszi (n : ℕ) (hn : 3 ≤ n) (m : DSZI) (hd : Lib m.base) (h : m.ZI ≤ m.DS) :
    ∃ X, X = Np.linspace (m.base.sp.ppf (1 / 10 ^ 10)) (m.base.sp.ppf (1 - 1 / 10 ^ 10)) n ∧
      NearestTo X (fun x => m.base.sp.cdf x * (m.DS - m.ZI) + m.ZI) (5 / 100) (dsziB n m).1 ∧
      NearestTo X (fun x => m.base.sp.cdf x * (m.DS - m.ZI) + m.ZI) (95 / 100) (dsziB n m).2 ∧
      (dsziB n m).1 ≤ (dsziB n m).2 := by
  have hab := quant_lt hd.component
  refine ⟨_, rfl, ?_⟩
  have hX := Np.linspace_strictMono (n := n) hab
  have hne : Np.linspace (m.base.sp.ppf (1 / 10 ^ 10)) (m.base.sp.ppf (1 - 1 / 10 ^ 10)) n ≠ [] := linspace_ne hn
  have hF : Monotone fun x => m.base.sp.cdf x * (m.DS - m.ZI) + m.ZI := by
    intro x y hxy
    have := hd.component.proper.law.mono hxy
    have := mul_le_mul_of_nonneg_right this (by linarith : 0 ≤ m.DS - m.ZI)
    simp only
    linarith
  obtain ⟨h1, h2, -⟩ := atArgmin_spec hX hne fun x => |m.base.sp.cdf x * (m.DS - m.ZI) + m.ZI - 5 / 100|
  obtain ⟨k1, k2, -⟩ := atArgmin_spec hX hne fun x => |m.base.sp.cdf x * (m.DS - m.ZI) + m.ZI - 95 / 100|
  exact ⟨⟨h1, h2⟩, ⟨k1, k2⟩, nearest_order hX hne hF (by norm_num)⟩

/-- **C119 (DSZI, degenerate).** If the zero-inflated fraction is already at least 0.05, `b5` is the base distribution's 1e-10
quantile (not 0, by when that fraction has failed). -/
theorem C119_dszi_degenerate (n : ℕ) (hn : 3 ≤ n) (m : DSZI) (hd : Lib m.base) (h : m.ZI < m.DS) :
    5 / 100 ≤ m.ZI → (dsziB n m).1 = m.base.sp.ppf (1 / 10 ^ 10) := by
  have hab := quant_lt hd.component
  have hX := Np.linspace_strictMono (n := n) hab
  have hne : Np.linspace (m.base.sp.ppf (1 / 10 ^ 10)) (m.base.sp.ppf (1 - 1 / 10 ^ 10)) n ≠ [] := linspace_ne hn
  intro hz
  obtain ⟨h1, h2, h3⟩ := atArgmin_spec hX hne fun x => |m.base.sp.cdf x * (m.DS - m.ZI) + m.ZI - 5 / 100|
  change atArgmin _ _ = _
  by_contra hc
  have hlt := lt_of_le_of_ne (Np.linspace_mem hab.le h1).1 (Ne.symm hc)
  have := h3 _ (mem_linspace_first hn) hlt
  have hpos : ∀ x, 0 ≤ m.base.sp.cdf x * (m.DS - m.ZI) + m.ZI - 5 / 100 := fun x => by
    have := mul_nonneg (hd.component.proper.law.range x).1 (by linarith : 0 ≤ m.DS - m.ZI)
    linarith
  rw [abs_of_nonneg (hpos _), abs_of_nonneg (hpos _)] at this
  have hm := mul_le_mul_of_nonneg_right (hd.component.proper.law.mono hlt.le) (by linarith : 0 ≤ m.DS - m.ZI)
  linarith

/-! ## A case -/

theorem inRange_example : InRange [exponential 1 0, weibull 2 1 0] := by
  have hlog : ∀ y : ℝ, 1 / 10 ^ 10 ≤ y → y ≤ 1 → 0 ≤ -Real.log y ∧ -Real.log y ≤ 10 ^ 10 := by
    intro y h1 h2
    have h0 : 0 < y := lt_of_lt_of_le (by norm_num) h1
    refine ⟨by linarith [Real.log_nonpos h0.le h2], ?_⟩
    rw [← Real.log_inv]
    refine (Real.log_le_self (by positivity)).trans ?_
    rw [inv_le_comm₀ h0 (by norm_num)]
    simpa using h1
  obtain ⟨a1, a2⟩ := hlog (1 - 1 / 10 ^ 10) (by norm_num) (by norm_num)
  obtain ⟨b1, b2⟩ := hlog (1 - (1 - 1 / 10 ^ 10)) (by norm_num) (by norm_num)
  intro d hd
  simp only [mem_cons, not_mem_nil, or_false] at hd
  rcases hd with rfl | rfl
  · simp only [exponential, locScale, exponStd]
    constructor
    · have : (10 : ℝ) ^ 10 ≤ 10 ^ 100 := by norm_num
      linarith
    · have : (0 : ℝ) ≤ 10 ^ 100 := by positivity
      linarith
  · simp only [weibull, locScale, weibullStd, one_div_one, Real.rpow_one]
    constructor
    · have : (10 : ℝ) ^ 10 * 2 ≤ 10 ^ 100 := by norm_num
      linarith
    · have : (0 : ℝ) ≤ 10 ^ 100 := by positivity
      linarith

theorem lib_example : ∀ d ∈ [exponential 1 0, weibull 2 1 0], Lib d := by
  intro d hd
  simp only [mem_cons, not_mem_nil, or_false] at hd
  rcases hd with rfl | rfl
  · exact .exponential 1 0 one_pos le_rfl
  · exact .weibull 2 1 0 (by norm_num) one_pos le_rfl

/-- An Exponential and a Weibull can be combined either way on the million-point grid, so C119 applies. -/
example : (∃ m, competingInit 1000000 [exponential 1 0, weibull 2 1 0] = .ok m) ∧
    ∃ m, mixtureBuild 1000000 [exponential 1 0, weibull 2 1 0] (some [1 / 4, 3 / 4]) = .ok m := by
  have hb : ∀ d ∈ [exponential 1 0, weibull 2 1 0], d.fam = .beta →
      ∀ d' ∈ [exponential 1 0, weibull 2 1 0], d'.sp.ppf (1 - 1 / 10 ^ 10) ≤ 1 := by
    intro d hd h
    simp only [mem_cons, not_mem_nil, or_false] at hd
    rcases hd with rfl | rfl <;> cases h
  refine ⟨(C119_competing_builds _ (by norm_num) _ (by simp) lib_example inRange_example).1.2 hb,
    (C119_mixture_builds _ (by norm_num) _ (by simp) lib_example inRange_example _ [1 / 4, 3 / 4] ?_).1.2 hb⟩
  exact (C38_proportions _ (by simp) [1 / 4, 3 / 4]).2.2.1 (by norm_num) rfl

end Reliability.Props.Combined
