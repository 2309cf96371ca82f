import Verif.Model.Poisson
import Verif.Spec.Fields
import Mathlib.Analysis.SpecialFunctions.Sqrt
import Mathlib.Analysis.Calculus.DerivativeTest
import Mathlib.Topology.MetricSpace.Bounded
import Mathlib.Topology.MetricSpace.ProperSpace
/-!
C82, the continuous problem: the field that Poisson0 compares its answer with is the one and only solution of the problem
that the program discretises.
-/
namespace Elliptica.Poisson
open Real Set Filter Topology Elliptica.Fields

/-- u solves, in U: ∂²u/∂x² + ∂²u/∂y² + ∂²u/∂z² = -3 (1 + r²)^(-5/2); all derivatives written here exist -/
def SolvesIn (U : Set Pt) (u : Pt → ℝ) : Prop :=
  ∀ p ∈ U, Diff u p ∧ (∀ i, Diff (pd u i) p) ∧ ∑ i, pd (pd u i) i p = -3 * rho p ^ (-2.5 : ℝ)

/-- u has the value (1 + r²)^(-1/2) at every point of B -/
def ValueOn (B : Set Pt) (u : Pt → ℝ) : Prop := ∀ p ∈ B, u p = rho p ^ (-0.5 : ℝ)

theorem rho_pos (p : Pt) : 0 < rho p := by unfold rho; positivity

theorem rho_update (p : Pt) (i : Fin 3) (t : ℝ) : rho (Function.update p i t) = rho p - p i ^ 2 + t ^ 2 := by
  unfold rho
  match i with
  | 0 => simp [Function.update_of_ne]; ring
  | 1 => simp [Function.update_of_ne]; ring
  | 2 => simp [Function.update_of_ne]; ring

theorem rest_pos (p : Pt) (i : Fin 3) (t : ℝ) : 0 < rho p - p i ^ 2 + t ^ 2 := by
  rw [← rho_update]; exact rho_pos _

theorem real_eq (p : Pt) : real p = 1 / √(rho p) := rfl

/-- first and second derivative of 1/√(a + t²) -/
theorem line_d (a t : ℝ) (h : ∀ s : ℝ, 0 < a + s ^ 2) : HasDerivAt (fun t => 1 / √(a + t ^ 2)) (-t / √(a + t ^ 2) ^ 3) t ∧
    HasDerivAt (fun t => -t / √(a + t ^ 2) ^ 3) (-1 / √(a + t ^ 2) ^ 3 + 3 * t ^ 2 / √(a + t ^ 2) ^ 5) t := by
  have h1 : HasDerivAt (fun t : ℝ => a + t ^ 2) (2 * t) t := by
    have := (hasDerivAt_pow 2 t).const_add a
    simpa using this
  have hS : HasDerivAt (fun t : ℝ => √(a + t ^ 2)) (t / √(a + t ^ 2)) t := by
    refine (h1.sqrt (h t).ne').congr_deriv ?_
    rw [mul_div_mul_left _ _ (by norm_num)]
  have hp := Real.sqrt_pos.2 (h t)
  have hp3 : √(a + t ^ 2) ^ 3 ≠ 0 := by positivity
  constructor
  · have := hS.inv hp.ne'
    simp only [one_div]
    refine this.congr_deriv ?_
    generalize √(a + t ^ 2) = S at hp ⊢
    field_simp
  · have := (hasDerivAt_id t).neg.div (hS.pow 3) hp3
    refine this.congr_deriv ?_
    simp only [Pi.pow_apply, Pi.neg_apply, id]
    generalize √(a + t ^ 2) = S at hp ⊢
    field_simp
    push_cast
    ring

theorem line_real (p : Pt) (i : Fin 3) : line real i p = fun t => 1 / √(rho p - p i ^ 2 + t ^ 2) := by
  funext t
  unfold line
  rw [real_eq, rho_update]

theorem pd_real (i : Fin 3) (p : Pt) : pd real i p = -p i / √(rho p) ^ 3 := by
  unfold pd
  rw [line_real, ((line_d (rho p - p i ^ 2) (p i) (rest_pos p i)).1).deriv]
  rw [sub_add_cancel]

theorem line_pd_real (p : Pt) (i : Fin 3) : line (pd real i) i p = fun t => -t / √(rho p - p i ^ 2 + t ^ 2) ^ 3 := by
  funext t
  unfold line
  rw [pd_real, rho_update, Function.update_self]

theorem rho_pow (p : Pt) : rho p ^ (-2.5 : ℝ) = 1 / √(rho p) ^ 5 ∧ rho p ^ (-0.5 : ℝ) = 1 / √(rho p) := by
  have h := rho_pos p
  constructor
  · rw [Real.sqrt_eq_rpow, ← Real.rpow_natCast, ← Real.rpow_mul h.le, one_div, ← Real.rpow_neg h.le]
    norm_num
  · rw [Real.sqrt_eq_rpow, one_div, ← Real.rpow_neg h.le]
    norm_num

/-- **C82 (the reference field is a solution).** The field with which the program compares its answer satisfies the
equation and the boundary condition at every point of space. -/
theorem C82_exact : SolvesIn univ real ∧ ValueOn univ real := by
  refine ⟨fun p _ => ⟨fun i => ?_, fun i => fun j => ?_, ?_⟩, fun p _ => ?_⟩
  · rw [line_real]
    exact (line_d _ (p i) (rest_pos p i)).1.differentiableAt
  · by_cases h : j = i
    · subst h
      rw [line_pd_real]
      exact (line_d _ (p j) (rest_pos p j)).2.differentiableAt
    · have : line (pd real i) j p = fun t => -p i / √(rho p - p j ^ 2 + t ^ 2) ^ 3 := by
        funext t
        unfold line
        rw [pd_real, rho_update, Function.update_of_ne (Ne.symm h)]
      rw [this]
      have hp := Real.sqrt_pos.2 (rest_pos p j (p j))
      have hq : DifferentiableAt ℝ (fun t : ℝ => rho p - p j ^ 2 + t ^ 2) (p j) := by fun_prop
      exact DifferentiableAt.fun_div (differentiableAt_const _) ((hq.sqrt (rest_pos p j (p j)).ne').fun_pow 3) (by positivity)
  · have : ∀ i, pd (pd real i) i p = -1 / √(rho p) ^ 3 + 3 * p i ^ 2 / √(rho p) ^ 5 := by
      intro i
      unfold pd
      have := line_pd_real p i
      unfold pd at this
      rw [this, ((line_d (rho p - p i ^ 2) (p i) (rest_pos p i)).2).deriv, sub_add_cancel]
    simp only [this, Fin.sum_univ_three]
    rw [(rho_pow p).1]
    have hp := Real.sqrt_pos.2 (rho_pos p)
    have hq := Real.sq_sqrt (rho_pos p).le
    have hr : p 0 ^ 2 + p 1 ^ 2 + p 2 ^ 2 = √(rho p) ^ 2 - 1 := by rw [hq]; unfold rho; ring
    generalize √(rho p) = S at hp hr ⊢
    field_simp
    linear_combination 3 * hr
  · rw [(rho_pow p).2, real_eq]

/-! ### uniqueness -/

theorem line_pd (f : Pt → ℝ) (i : Fin 3) (p : Pt) : line (pd f i) i p = deriv (line f i p) := by
  funext t
  unfold line pd line
  simp

/-- A function without a positive second derivative sum has no interior maximum: if the three second derivatives along the
coordinate lines add up to a positive number at an interior point, the point is no maximum. -/
theorem no_max (U : Set Pt) (hU : IsOpen U) (w : Pt → ℝ) (p : Pt) (hp : p ∈ U) (hd : Diff w p)
    (hs : 0 < ∑ i, deriv (deriv (line w i p)) (p i)) : ¬ ∀ q ∈ U, w q ≤ w p := by
  intro hm
  obtain ⟨i, -, hi⟩ := Finset.exists_lt_of_sum_lt (s := Finset.univ) (f := fun _ : Fin 3 => (0 : ℝ)) (by simpa using hs)
  have hcont : Continuous fun t => Function.update p i t := continuous_const.update i continuous_id
  have hn : ∀ᶠ t in 𝓝 (p i), Function.update p i t ∈ U :=
    hcont.continuousAt.eventually (by simp only [Function.update_eq_self]; exact hU.mem_nhds hp)
  have hmax : IsLocalMax (line w i p) (p i) := by
    filter_upwards [hn] with t ht
    rw [line_at]
    exact hm _ ht
  have hmin : IsLocalMin (line w i p) (p i) :=
    isLocalMin_of_deriv_deriv_pos hi hmax.deriv_eq_zero (hd i).continuousAt
  have hc : line w i p =ᶠ[𝓝 (p i)] fun _ => line w i p (p i) := by
    filter_upwards [hmax, hmin] with t a b
    exact le_antisymm a b
  have h2 : deriv (line w i p) =ᶠ[𝓝 (p i)] fun _ => 0 := by
    have := hc.deriv
    simpa using this
  have h3 := h2.deriv_eq
  rw [deriv_const] at h3
  rw [h3] at hi
  exact lt_irrefl _ hi

theorem line_sub (p : Pt) (i : Fin 3) (f : Pt → ℝ) (t : ℝ) : line f i (Function.update p i t) = line f i p := by
  funext s
  unfold line
  simp

/-- the second derivative of c (u - v) + ε r² along a coordinate line -/
theorem second (U : Set Pt) (hU : IsOpen U) (u v : Pt → ℝ) (hu : SolvesIn U u) (hv : SolvesIn U v) (c ε : ℝ) (p : Pt) (hp : p ∈ U) :
    Diff (fun q => c * (u q - v q) + ε * rho q) p ∧
    ∀ i, deriv (deriv (line (fun q => c * (u q - v q) + ε * rho q) i p)) (p i) = c * (pd (pd u i) i p - pd (pd v i) i p) + 2 * ε := by
  have hrho : ∀ (i : Fin 3) (t : ℝ), HasDerivAt (line rho i p) (2 * t) t := by
    intro i t
    have : line rho i p = fun t => rho p - p i ^ 2 + t ^ 2 := by
      funext t; unfold line; rw [rho_update]
    rw [this]
    have := (hasDerivAt_pow 2 t).const_add (rho p - p i ^ 2)
    simpa using this
  have hl : ∀ i, line (fun q => c * (u q - v q) + ε * rho q) i p = fun t => c * (line u i p t - line v i p t) + ε * line rho i p t :=
    fun i => rfl
  have hn : ∀ i, ∀ᶠ t in 𝓝 (p i), Function.update p i t ∈ U := by
    intro i
    have hcont : Continuous fun t => Function.update p i t := continuous_const.update i continuous_id
    exact hcont.continuousAt.eventually (by simp only [Function.update_eq_self]; exact hU.mem_nhds hp)
  have hat : ∀ i t, Function.update p i t ∈ U → HasDerivAt (line (fun q => c * (u q - v q) + ε * rho q) i p)
      (c * (deriv (line u i p) t - deriv (line v i p) t) + ε * (2 * t)) t := by
    intro i t ht
    have a := (hu _ ht).1 i
    have b := (hv _ ht).1 i
    rw [line_sub, Function.update_self] at a b
    rw [hl]
    exact ((a.hasDerivAt.sub b.hasDerivAt).const_mul c).add ((hrho i t).const_mul ε)
  refine ⟨fun i => (hat i (p i) (by rw [Function.update_eq_self]; exact hp)).differentiableAt, fun i => ?_⟩
  have hev : deriv (line (fun q => c * (u q - v q) + ε * rho q) i p) =ᶠ[𝓝 (p i)]
      fun t => c * (deriv (line u i p) t - deriv (line v i p) t) + ε * (2 * t) := by
    filter_upwards [hn i] with t ht
    exact (hat i t ht).deriv
  rw [hev.deriv_eq]
  have a := (hu _ hp).2.1 i i
  have b := (hv _ hp).2.1 i i
  have ea : pd (pd u i) i p = deriv (deriv (line u i p)) (p i) := by
    show deriv (line (pd u i) i p) (p i) = _
    rw [line_pd]
  have eb : pd (pd v i) i p = deriv (deriv (line v i p)) (p i) := by
    show deriv (line (pd v i) i p) (p i) = _
    rw [line_pd]
  rw [line_pd] at a b
  rw [ea, eb]
  have h2 : HasDerivAt (fun t : ℝ => ε * (2 * t)) (ε * (2 * 1)) (p i) := ((hasDerivAt_id (p i)).const_mul 2).const_mul ε
  have hd : HasDerivAt (fun t => c * (deriv (line u i p) t - deriv (line v i p) t) + ε * (2 * t)) _ (p i) :=
    ((a.hasDerivAt.sub b.hasDerivAt).const_mul c).add h2
  rw [hd.deriv]
  ring

/-- the difference of two solutions with the same boundary values is not positive -/
theorem le_of_solves (U : Set Pt) (hU : IsOpen U) (hb : Bornology.IsBounded U) (u v : Pt → ℝ) (hu : SolvesIn U u) (hv : SolvesIn U v)
    (cu : ContinuousOn u (closure U)) (cv : ContinuousOn v (closure U)) (hbd : ∀ p ∈ frontier U, u p = v p) (c : ℝ)
    (p : Pt) (hp : p ∈ U) : c * (u p - v p) ≤ 0 := by
  have hK : IsCompact (closure U) := hb.isCompact_closure
  have crho : Continuous rho := by unfold rho; fun_prop
  obtain ⟨R, hR⟩ : ∃ R, ∀ q ∈ closure U, rho q ≤ R := by
    obtain ⟨q, -, hq⟩ := hK.exists_isMaxOn ⟨p, subset_closure hp⟩ crho.continuousOn
    exact ⟨rho q, fun x hx => hq hx⟩
  have key : ∀ ε : ℝ, 0 < ε → c * (u p - v p) ≤ ε * R := by
    intro ε hε
    have cw : ContinuousOn (fun q => c * (u q - v q) + ε * rho q) (closure U) :=
      ((cu.sub cv).const_mul c |>.add (crho.continuousOn.const_mul ε))
    obtain ⟨q, hq, hmax⟩ := hK.exists_isMaxOn ⟨p, subset_closure hp⟩ cw
    have hqU : q ∉ U := by
      intro hqU
      obtain ⟨s1, s2⟩ := second U hU u v hu hv c ε q hqU
      refine no_max U hU _ q hqU s1 ?_ (fun x hx => hmax (subset_closure hx))
      simp only [s2, Finset.sum_add_distrib, ← Finset.mul_sum, Finset.sum_sub_distrib]
      rw [(hu q hqU).2.2, (hv q hqU).2.2]
      simp
      exact hε
    have hf : q ∈ frontier U := by
      rw [hU.frontier_eq]; exact ⟨hq, hqU⟩
    have h1 := hmax (subset_closure hp)
    simp only [mem_ofPred_eq] at h1
    rw [hbd q hf] at h1
    have h2 := mul_le_mul_of_nonneg_left (hR q hq) hε.le
    have h3 := mul_pos hε (rho_pos p)
    linarith
  by_contra hc
  push Not at hc
  have hRp : 0 < R := lt_of_lt_of_le (rho_pos p) (hR p (subset_closure hp))
  have := key (c * (u p - v p) / (2 * R)) (by positivity)
  have e : c * (u p - v p) / (2 * R) * R = c * (u p - v p) / 2 := by field_simp
  rw [e] at this
  linarith

/-- **C82 (the reference field is the only solution).** On every bounded open region, a continuous field that satisfies the
equation inside and has the boundary value on the boundary is the reference field. -/
theorem C82_unique (U : Set Pt) (hU : IsOpen U) (hb : Bornology.IsBounded U) (u : Pt → ℝ) (cu : ContinuousOn u (closure U))
    (hu : SolvesIn U u) (hbd : ValueOn (frontier U) u) : ∀ p ∈ closure U, u p = real p := by
  intro p hp
  have hv : SolvesIn U real := fun q _ => C82_exact.1 q (mem_univ _)
  have cv : ContinuousOn real (closure U) := by
    have : Continuous real := by
      have c : Continuous rho := by unfold rho; fun_prop
      have : real = fun q => 1 / √(rho q) := by funext q; exact real_eq q
      rw [this]
      exact continuous_const.div (c.sqrt) (fun q => (Real.sqrt_pos.2 (rho_pos q)).ne')
    exact this.continuousOn
  have hbd' : ∀ q ∈ frontier U, u q = real q := fun q hq => by rw [hbd q hq, C82_exact.2 q (mem_univ _)]
  by_cases hpU : p ∈ U
  · have a := le_of_solves U hU hb u real hu hv cu cv hbd' 1 p hpU
    have b := le_of_solves U hU hb u real hu hv cu cv hbd' (-1) p hpU
    linarith
  · exact hbd' p (by rw [hU.frontier_eq]; exact ⟨hp, hpU⟩)

/-- the region of a unit ball, and a field that meets the hypotheses -/
example : IsOpen (Metric.ball (0 : Pt) 1) ∧ Bornology.IsBounded (Metric.ball (0 : Pt) 1) ∧ SolvesIn (Metric.ball 0 1) real ∧
    ValueOn (frontier (Metric.ball 0 1)) real :=
  ⟨Metric.isOpen_ball, Metric.isBounded_ball, fun q _ => C82_exact.1 q (mem_univ _), fun q _ => C82_exact.2 q (mem_univ _)⟩

/-- the initial guess is not the solution -/
example : ¬ ValueOn univ guess := by
  intro h
  have := h 0 (mem_univ _)
  rw [(rho_pow 0).2] at this
  simp [guess, rho] at this
  norm_num at this

end Elliptica.Poisson
