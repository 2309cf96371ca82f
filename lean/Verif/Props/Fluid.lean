import Verif.Model.Fluid
import Verif.Spec.Fluid
import Verif.Props.EoS
import Verif.Spec.Adm
import Mathlib.Data.Fin.VecNotation
import Mathlib.Tactic.Ring
import Mathlib.Tactic.Linarith
import Mathlib.Tactic.LinearCombination
import Mathlib.Tactic.FieldSimp
import Mathlib.Tactic.FinCases
import Mathlib.Tactic.Positivity
import Mathlib.Tactic.NormNum
import Mathlib.Algebra.Order.Field.Basic
import Mathlib.Analysis.Calculus.Deriv.Inv
import Mathlib.Analysis.Calculus.Deriv.Add
import Mathlib.Analysis.Calculus.Deriv.Mul
import Mathlib.Analysis.SpecialFunctions.Sqrt
/-!
C67 the stress-energy tensor of the fluid and the constant of the Euler equation.
-/
namespace Elliptica.Fluid
open Elliptica.Gen.Fluid Elliptica.Fluid4 Elliptica.Adm

/-- the lapse at a node: alphaPsi / psi -/
noncomputable def lapse (x : In) : ℝ := x.alphaPsi / x.psi

/-- the physical spatial metric ψ⁴ g_ij -/
noncomputable def gam (x : In) (i j : Fin 3) : ℝ := x.psi ^ 4 * x.gConf_DD i j

/-- the inverse physical spatial metric g^ij/ψ⁴ -/
noncomputable def gamI (x : In) (i j : Fin 3) : ℝ := x.igConf_UU i j / x.psi ^ 4

/-- the four-metric at a node -/
noncomputable def g4 (x : In) : Fin 4 → Fin 4 → ℝ := metric (lapse x) x.beta_U (gam x)

/-- the inverse four-metric at a node -/
noncomputable def gI4 (x : In) : Fin 4 → Fin 4 → ℝ := inverseMetric (lapse x) x.beta_U (gamI x)

/-- a node with non-degenerate geometry: symmetric conformal metric with its inverse, ψ ≠ 0, positive lapse and enthalpy -/
structure Good (x : In) : Prop where
  psi : x.psi ≠ 0
  lapse : 0 < lapse x
  enthalpy : 0 < x.enthalpy
  g : Symm x.gConf_DD
  h : Symm x.igConf_UU
  inv : Inverse x.gConf_DD x.igConf_UU

/-- the motion of the fluid at a node: h u_i = ∂_iφ + W_i, i.e. the spatial part of the enthalpy current is the gradient of
the velocity potential plus the spin vector -/
def Moves (x : In) (v : Fin 4 → ℝ) : Prop :=
  ∀ i : Fin 3, x.enthalpy * lower (g4 x) v i.succ = x.dphi_D i + ∑ j, gam x i j * x.W_U j

/-- P^i = γ^ij ∂_jφ + W^i -/
noncomputable def P (x : In) (i : Fin 3) : ℝ := (∑ j, gamI x i j * x.dphi_D j) + x.W_U i

/-- the inverse in the other order -/
theorem Good.inv' {x : In} (G : Good x) (i j : Fin 3) : ∑ k, x.gConf_DD i k * x.igConf_UU k j = if i = j then 1 else 0 := by
  have e : ∑ k, x.gConf_DD i k * x.igConf_UU k j = ∑ k, x.igConf_UU j k * x.gConf_DD k i :=
    Finset.sum_congr rfl fun k _ => by rw [G.g i k, G.h k j, mul_comm]
  rw [e, G.inv j i]
  simp [eq_comm]

theorem Good.psi4 {x : In} (G : Good x) : x.psi ^ 4 ≠ 0 := pow_ne_zero _ G.psi

/-- sanity of the specification: the two four-metrics are inverse to each other -/
theorem metric_inverse {x : In} (G : Good x) (m n : Fin 4) : ∑ k, gI4 x m k * g4 x k n = if m = n then 1 else 0 := by
  have hp := G.psi
  have hl := G.lapse.ne'
  refine Fin.cases ?_ (fun i => ?_) m <;> refine Fin.cases ?_ (fun j => ?_) n
  · simp only [gI4, g4, metric, inverseMetric, Fin.sum_univ_succ, Fin.cons_zero, Fin.cons_succ, Finset.univ_eq_empty, Finset.sum_empty,
      gam, gamI, if_true]
    simp only [Fin.succ_zero_eq_one, Fin.succ_one_eq_two]
    field_simp
    ring
  · simp only [gI4, g4, metric, inverseMetric, Fin.sum_univ_succ, Fin.cons_zero, Fin.cons_succ, Finset.univ_eq_empty, Finset.sum_empty,
      gam, gamI, (Fin.succ_ne_zero j).symm, if_false]
    simp only [Fin.succ_zero_eq_one, Fin.succ_one_eq_two]
    field_simp
    ring
  · have c : x.igConf_UU i 0 * x.gConf_DD 0 0 + x.igConf_UU i 1 * x.gConf_DD 1 0 + x.igConf_UU i 2 * x.gConf_DD 2 0 = if i = 0 then 1 else 0 := by
      have := G.inv i 0; simpa only [Fin.sum_univ_three] using this
    have c1 : x.igConf_UU i 0 * x.gConf_DD 0 1 + x.igConf_UU i 1 * x.gConf_DD 1 1 + x.igConf_UU i 2 * x.gConf_DD 2 1 = if i = 1 then 1 else 0 := by
      have := G.inv i 1; simpa only [Fin.sum_univ_three] using this
    have c2 : x.igConf_UU i 0 * x.gConf_DD 0 2 + x.igConf_UU i 1 * x.gConf_DD 1 2 + x.igConf_UU i 2 * x.gConf_DD 2 2 = if i = 2 then 1 else 0 := by
      have := G.inv i 2; simpa only [Fin.sum_univ_three] using this
    have e : x.beta_U i = (if i = 0 then 1 else 0) * x.beta_U 0 + (if i = 1 then 1 else 0) * x.beta_U 1 + (if i = 2 then 1 else 0) * x.beta_U 2 := by
      fin_cases i <;> simp
    rw [← c, ← c1, ← c2] at e
    simp only [gI4, g4, metric, inverseMetric, Fin.sum_univ_succ, Fin.cons_zero, Fin.cons_succ, Finset.univ_eq_empty, Finset.sum_empty,
      gam, gamI, Fin.succ_ne_zero i, if_false]
    simp only [Fin.succ_zero_eq_one, Fin.succ_one_eq_two]
    field_simp
    linear_combination x.psi ^ 4 * lapse x ^ 2 * (-e)
  · have c : x.igConf_UU i 0 * x.gConf_DD 0 j + x.igConf_UU i 1 * x.gConf_DD 1 j + x.igConf_UU i 2 * x.gConf_DD 2 j = if i = j then 1 else 0 := by
      have := G.inv i j; simpa only [Fin.sum_univ_three] using this
    simp only [gI4, g4, metric, inverseMetric, Fin.sum_univ_succ, Fin.cons_zero, Fin.cons_succ, Finset.univ_eq_empty, Finset.sum_empty,
      gam, gamI, Fin.succ_inj]
    rw [← c]
    simp only [Fin.succ_zero_eq_one, Fin.succ_one_eq_two]
    field_simp
    ring

/-- lowering the spatial index of a four-vector -/
theorem lower_succ (x : In) (v : Fin 4 → ℝ) (i : Fin 3) :
    lower (g4 x) v i.succ = ∑ j, gam x i j * (x.beta_U j * v 0 + v j.succ) := by
  simp only [lower, g4, metric, Fin.sum_univ_succ, Fin.cons_zero, Fin.cons_succ, Finset.univ_eq_empty, Finset.sum_empty]
  ring

/-- raising: γ^ij γ_jk w^k = w^i -/
theorem raise {x : In} (G : Good x) (w : Fin 3 → ℝ) (i : Fin 3) : ∑ j, gamI x i j * ∑ k, gam x j k * w k = w i := by
  have hp := G.psi
  have e : ∑ j, gamI x i j * ∑ k, gam x j k * w k = ∑ k, (∑ j, x.igConf_UU i j * x.gConf_DD j k) * w k := by
    simp only [Fin.sum_univ_three, gam, gamI]
    field_simp
    ring
  have I : ∀ k, ∑ j, x.igConf_UU i j * x.gConf_DD j k = if i = k then 1 else 0 := G.inv i
  rw [e]
  simp only [I]
  simp

/-- lowering after raising: γ_ij γ^jk w_k = w_i -/
theorem lowerRaise {x : In} (G : Good x) (w : Fin 3 → ℝ) (i : Fin 3) : ∑ j, gam x i j * ∑ k, gamI x j k * w k = w i := by
  have hp := G.psi
  have e : ∑ j, gam x i j * ∑ k, gamI x j k * w k = ∑ k, (∑ j, x.gConf_DD i j * x.igConf_UU j k) * w k := by
    simp only [Fin.sum_univ_three, gam, gamI]
    field_simp
    ring
  rw [e]
  simp only [G.inv']
  simp

/-- the motion in contravariant form: u^i = P^i/h - β^i u⁰ -/
theorem moves_iff {x : In} (G : Good x) (v : Fin 4 → ℝ) :
    Moves x v ↔ ∀ i : Fin 3, x.beta_U i * v 0 + v i.succ = P x i / x.enthalpy := by
  have hh := G.enthalpy.ne'
  have low : ∀ i, ∑ j, gam x i j * P x j = x.dphi_D i + ∑ j, gam x i j * x.W_U j := by
    intro i
    simp only [P, mul_add, Finset.sum_add_distrib]
    rw [lowerRaise G]
  unfold Moves
  simp only [lower_succ]
  constructor
  · intro h i
    have h' : ∀ j, ∑ k, gam x j k * (x.beta_U k * v 0 + v k.succ) = ∑ k, gam x j k * (P x k / x.enthalpy) := by
      intro j
      have a := h j
      rw [← low j] at a
      have b : ∑ k, gam x j k * (P x k / x.enthalpy) = (∑ k, gam x j k * P x k) / x.enthalpy := by
        simp only [Fin.sum_univ_three]; ring
      rw [b, ← a, mul_div_cancel_left₀ _ hh]
    rw [← raise G (fun k => x.beta_U k * v 0 + v k.succ) i, ← raise G (fun k => P x k / x.enthalpy) i]
    simp only [h']
  · intro h i
    simp only [h]
    rw [← low i]
    simp only [Fin.sum_univ_three]
    field_simp

/-- P² = γ_ij P^i P^j is the number the routines compute -/
theorem P2_eq {x : In} (G : Good x) : U0.P2 x = ∑ i, ∑ j, gam x i j * P x i * P x j := by
  have low : ∀ i, ∑ j, gam x i j * P x j = x.dphi_D i + ∑ j, gam x i j * x.W_U j := by
    intro i
    simp only [P, mul_add, Finset.sum_add_distrib]
    rw [lowerRaise G]
  have a : ∑ i, ∑ j, gam x i j * P x i * P x j = ∑ i, P x i * (x.dphi_D i + ∑ j, gam x i j * x.W_U j) := by
    refine Finset.sum_congr rfl fun i _ => ?_
    rw [← low i, Finset.mul_sum]
    exact Finset.sum_congr rfl fun j _ => by ring
  have b : ∑ i, P x i * ∑ j, gam x i j * x.W_U j = ∑ j, x.W_U j * ∑ i, gam x j i * P x i := by
    have g := G.g
    simp only [Fin.sum_univ_three, gam, g 1 0, g 2 0, g 2 1]
    ring
  rw [a]
  simp only [mul_add, Finset.sum_add_distrib]
  rw [b]
  simp only [low]
  have g := G.g
  have h := G.h
  simp only [U0.P2, U0.psi4, U0.psim4, P, gamI, gam, Fin.sum_univ_three, g 1 0, g 2 0, g 2 1, h 1 0, h 2 0, h 2 1]
  ring

/-- the square of a four-velocity -/
theorem square_eq (x : In) (g : Symm x.gConf_DD) (v : Fin 4 → ℝ) : square (g4 x) v =
    -lapse x ^ 2 * v 0 ^ 2 + ∑ i, ∑ j, gam x i j * (x.beta_U i * v 0 + v i.succ) * (x.beta_U j * v 0 + v j.succ) := by
  simp only [square, g4, metric, gam, Fin.sum_univ_succ, Fin.cons_zero, Fin.cons_succ, Finset.univ_eq_empty, Finset.sum_empty]
  simp only [Fin.succ_zero_eq_one, Fin.succ_one_eq_two, g 1 0, g 2 0, g 2 1]
  ring

/-- C67: the time component of the four-velocity that is computed is the one that makes the velocity a unit vector: of the
four-vectors with the given spatial motion and a positive time component, exactly the one with this time component has
square -1 -/
theorem C67_u0 (x : In) (G : Good x) (v : Fin 4 → ℝ) (hv : Moves x v) (h0 : 0 < v 0) :
    square (g4 x) v = -1 ↔ v 0 = U0.out_u0 x := by
  have hh := G.enthalpy
  have hl := G.lapse
  rw [moves_iff G] at hv
  have e : square (g4 x) v = -lapse x ^ 2 * v 0 ^ 2 + U0.P2 x / x.enthalpy ^ 2 := by
    rw [square_eq x G.g, P2_eq G]
    simp only [hv, Fin.sum_univ_three]
    field_simp
  rw [e]
  have o : U0.out_u0 x = Real.sqrt (U0.P2 x + x.enthalpy ^ 2) / (lapse x * x.enthalpy) := rfl
  rw [o, eq_div_iff (by positivity)]
  have key : -lapse x ^ 2 * v 0 ^ 2 + U0.P2 x / x.enthalpy ^ 2 = -1 ↔
      (v 0 * (lapse x * x.enthalpy)) ^ 2 = U0.P2 x + x.enthalpy ^ 2 := by
    constructor
    · intro h
      field_simp at h
      linear_combination -h
    · intro h
      field_simp
      linear_combination -h
  rw [key]
  constructor
  · intro h
    rw [← h, Real.sqrt_sq (by positivity)]
  · intro h
    have : 0 < Real.sqrt (U0.P2 x + x.enthalpy ^ 2) := by rw [← h]; positivity
    rw [h, Real.sq_sqrt (Real.sqrt_pos.1 this).le]

/-- P² is not negative for a metric that is not negative -/
theorem P2_nonneg {x : In} (G : Good x) (pos : ∀ w : Fin 3 → ℝ, 0 ≤ ∑ i, ∑ j, gam x i j * w i * w j) : 0 ≤ U0.P2 x := by
  rw [P2_eq G]; exact pos _

/-- C67: on a positive metric the time component is positive, so the velocity the code uses is the future-directed one -/
theorem C67_future (x : In) (G : Good x) (pos : ∀ w : Fin 3 → ℝ, 0 ≤ ∑ i, ∑ j, gam x i j * w i * w j) : 0 < U0.out_u0 x := by
  have hh := G.enthalpy
  have hl := G.lapse
  have := P2_nonneg G pos
  have o : U0.out_u0 x = Real.sqrt (U0.P2 x + x.enthalpy ^ 2) / (lapse x * x.enthalpy) := rfl
  rw [o]
  have : 0 < U0.P2 x + x.enthalpy ^ 2 := by positivity
  exact div_pos (Real.sqrt_pos.2 this) (by positivity)

/-- the stress-energy tensor of the fluid at a node, moving with v -/
noncomputable def T4 (x : In) (v : Fin 4 → ℝ) : Fin 4 → Fin 4 → ℝ := stress (gI4 x) x.rho0 x.enthalpy x.eos_p v

/-- C67: the energy source is ψ⁶ times the energy density the normal observer measures -/
theorem C67_energy (x : In) (G : Good x) (v : Fin 4 → ℝ) (h0 : v 0 = x.u0) :
    E.out_EConf x = x.psi ^ 6 * energy (lapse x) (T4 x v) := by
  have hl := G.lapse.ne'
  simp only [energy, T4, stress, gI4, inverseMetric, normalD, Fin.sum_univ_succ, Fin.cons_zero, Fin.cons_succ, Finset.univ_eq_empty,
    Finset.sum_empty, h0, E.out_EConf, E.Ebar, E.psi6, show E.alpha x = lapse x from rfl]
  field_simp
  ring

/-- C67: the momentum source is ψ⁶ times the momentum density the normal observer measures -/
theorem C67_momentum (x : In) (G : Good x) (v : Fin 4 → ℝ) (h0 : v 0 = x.u0) (hv : Moves x v) (i : Fin 3) :
    J.out_JConf_U x i = some (x.psi ^ 6 * Fluid4.momentum (lapse x) x.beta_U (T4 x v) i) := by
  have hl := G.lapse.ne'
  have hh := G.enthalpy.ne'
  have hp := G.psi
  have m : Fluid4.momentum (lapse x) x.beta_U (T4 x v) i = lapse x * x.rho0 * x.enthalpy * v 0 * (x.beta_U i * v 0 + v i.succ) := by
    have e : ∀ m : Fin 4, ∑ n, ((if m = i.succ then 1 else 0) + normalU (lapse x) x.beta_U i.succ * normalD (lapse x) m) *
        T4 x v m n * normalD (lapse x) n = -lapse x * (((if m = i.succ then 1 else 0) +
          normalU (lapse x) x.beta_U i.succ * normalD (lapse x) m) * T4 x v m 0) := by
      intro m
      simp only [normalD, Fin.sum_univ_succ, Fin.cons_zero, Fin.cons_succ, Finset.univ_eq_empty, Finset.sum_empty]
      ring
    have t : T4 x v i.succ 0 = x.rho0 * x.enthalpy * v i.succ * v 0 + x.eos_p * (x.beta_U i / lapse x ^ 2) := rfl
    have t0 : T4 x v 0 0 = x.rho0 * x.enthalpy * v 0 * v 0 + x.eos_p * (-1 / lapse x ^ 2) := rfl
    have s : ∑ m, ((if m = i.succ then 1 else 0) + normalU (lapse x) x.beta_U i.succ * normalD (lapse x) m) * T4 x v m 0 =
        T4 x v i.succ 0 + x.beta_U i * T4 x v 0 0 := by
      simp only [add_mul, Finset.sum_add_distrib]
      congr 1
      · simp
      · simp only [normalD, normalU, Fin.sum_univ_succ, Fin.cons_zero, Fin.cons_succ, Finset.univ_eq_empty, Finset.sum_empty]
        field_simp
        ring
    unfold Fluid4.momentum
    simp only [e]
    rw [← Finset.mul_sum, s, t, t0]
    field_simp
    ring
  rw [moves_iff G] at hv
  rw [m, hv i]
  have h := G.h
  have c : J.alpha x = lapse x := rfl
  fin_cases i <;> simp only [Fin.zero_eta, Fin.mk_one, Fin.reduceFinMk, J.out_JConf_U, J.j_u_U0, J.j_u_U1, J.j_u_U2, J.psi6, J.psim4, c, P, gamI,
    Fin.sum_univ_three, h 1 0, h 2 0, h 2 1, Option.some.injEq, h0] <;> field_simp <;> ring

/-- C67: the source of the lapse equation is ψ⁶ times the trace of the stress the normal observer measures -/
theorem C67_stress (x : In) (G : Good x) (v : Fin 4 → ℝ) (hv : Moves x v) :
    S.out_SConf x = x.psi ^ 6 * stressTrace (lapse x) (g4 x) (T4 x v) := by
  have hl := G.lapse.ne'
  have hh := G.enthalpy.ne'
  have hp := G.psi
  have tr : ∑ i, ∑ j, gam x i j * gamI x i j = 3 := by
    have e : ∑ i, ∑ j, gam x i j * gamI x i j = ∑ i, ∑ j, x.gConf_DD i j * x.igConf_UU j i := by
      refine Finset.sum_congr rfl fun i _ => Finset.sum_congr rfl fun j _ => ?_
      rw [gam, gamI, G.h i j]
      field_simp
    rw [e]
    simp only [G.inv']
    norm_num
  have m : stressTrace (lapse x) (g4 x) (T4 x v) = x.rho0 * x.enthalpy * (∑ i, ∑ j, gam x i j * (x.beta_U i * v 0 + v i.succ) *
      (x.beta_U j * v 0 + v j.succ)) + x.eos_p * ∑ i, ∑ j, gam x i j * gamI x i j := by
    have g := G.g
    simp only [stressTrace, T4, stress, g4, gI4, metric, inverseMetric, normalD, Fin.sum_univ_succ, Fin.cons_zero, Fin.cons_succ,
      Finset.univ_eq_empty, Finset.sum_empty, gam]
    simp only [Fin.succ_zero_eq_one, Fin.succ_one_eq_two, g 1 0, g 2 0, g 2 1]
    field_simp
    ring
  rw [moves_iff G] at hv
  rw [m, tr]
  simp only [hv]
  have e : ∑ i, ∑ j, gam x i j * (P x i / x.enthalpy) * (P x j / x.enthalpy) = U0.P2 x / x.enthalpy ^ 2 := by
    rw [P2_eq G]
    simp only [Fin.sum_univ_three]
    field_simp
  rw [e, show S.out_SConf x = S.psi6 x * (U0.P2 x * x.rho0 / x.enthalpy + 3 * x.eos_p) from rfl, S.psi6]
  field_simp

/-! ### the pre-factor of the sources -/

/-- C67: where the equation of state satisfies the definition of the enthalpy, p = ρ0 (h - 1 - e0), the scaled sources are the
sources times the pre-factor p/ρ0 that is stored with them -/
theorem C67_prefactor (x : In) (eos : x.eos_p = x.rho0 * (x.enthalpy - 1 - x.eos_e0)) (e0 : x.e0 = x.eos_e0) :
    E.out_EConfP x = E.out_EConfC x * E.out_EConf x ∧ (∀ i, J.out_JConfP_U x i = (J.out_JConf_U x i).map (J.out_JConfC x * ·)) ∧
    S.out_SConfP x = S.out_SConfC x * S.out_SConf x ∧ E.out_EConfC x = J.out_JConfC x ∧ E.out_EConfC x = S.out_SConfC x ∧
    (x.rho0 ≠ 0 → E.out_EConfC x = x.eos_p / x.rho0) := by
  refine ⟨?_, ?_, ?_, ?_, ?_, ?_⟩
  · simp only [E.out_EConfP, E.EbarP, E.out_EConfC, E.out_EConf, E.Ebar, E.p_o_rho0, e0, eos]
    ring
  · intro i
    fin_cases i <;> simp only [Fin.zero_eta, Fin.mk_one, Fin.reduceFinMk, J.out_JConfP_U, J.out_JConf_U, J.out_JConfC, J.p_o_rho0,
      J.jp_u_U0, J.jp_u_U1, J.jp_u_U2, J.j_u_U0, J.j_u_U1, J.j_u_U2, eos, Option.map_some, Option.some.injEq] <;> ring
  · simp only [S.out_SConfP, S.SbarP, S.out_SConfC, S.out_SConf, S.Sbar, S.p_o_rho0, eos]
    ring
  · simp only [E.out_EConfC, E.p_o_rho0, J.out_JConfC, J.p_o_rho0, e0]
    ring
  · simp only [E.out_EConfC, E.p_o_rho0, S.out_SConfC, S.p_o_rho0, e0]
    ring
  · intro h
    rw [eos, mul_div_cancel_left₀ _ h]
    simp only [E.out_EConfC, E.p_o_rho0, e0]
    ring

/-! ### the constant of the Euler equation -/

/-- the square of a four-vector from its lowered components -/
theorem square_lower (x : In) (v : Fin 4 → ℝ) :
    square (g4 x) v = v 0 * lower (g4 x) v 0 + ∑ i : Fin 3, v i.succ * lower (g4 x) v i.succ := by
  unfold square lower
  rw [Fin.sum_univ_succ]
  simp only [Finset.mul_sum]
  congr 1
  · exact Finset.sum_congr rfl fun n _ => by ring
  · exact Finset.sum_congr rfl fun m _ => Finset.sum_congr rfl fun n _ => by ring

/-- ∂_iφ P^i is the number the Euler constant uses -/
theorem dphiP_eq {x : In} (G : Good x) : Euler.dphiP x = ∑ i, x.dphi_D i * P x i := by
  have h := G.h
  simp only [Euler.dphiP, Euler.psim4, P, gamI, Fin.sum_univ_three, h 1 0, h 2 0, h 2 1]
  ring

/-- C67: the constant of the Euler equation is h u_t + W_i u^i/u⁰ with the unit four-velocity of the fluid -/
theorem C67_euler (x : In) (G : Good x) (v : Fin 4 → ℝ) (h0 : v 0 = x.u0) (hu : 0 < x.u0) (hv : Moves x v)
    (unit : square (g4 x) v = -1) :
    Euler.Euler_C x = x.enthalpy * lower (g4 x) v 0 + (∑ i : Fin 3, (∑ j, gam x i j * x.W_U j) * v i.succ) / x.u0 := by
  have hh := G.enthalpy.ne'
  have hu' := hu.ne'
  have m := (moves_iff G v).1 hv
  rw [square_lower] at unit
  have a : x.u0 * (x.enthalpy * lower (g4 x) v 0) = -x.enthalpy - ∑ i : Fin 3, v i.succ * (x.dphi_D i + ∑ j, gam x i j * x.W_U j) := by
    have b : ∑ i : Fin 3, v i.succ * (x.dphi_D i + ∑ j, gam x i j * x.W_U j) = x.enthalpy * ∑ i : Fin 3, v i.succ * lower (g4 x) v i.succ := by
      rw [Finset.mul_sum]
      exact Finset.sum_congr rfl fun i _ => by rw [← hv i]; ring
    rw [b, ← h0]
    linear_combination x.enthalpy * unit
  have c : ∀ i : Fin 3, v i.succ = P x i / x.enthalpy - x.beta_U i * x.u0 := fun i => by
    rw [← m i, h0]; ring
  have d : x.u0 * (Euler.Euler_C x) = -x.enthalpy - ∑ i : Fin 3, v i.succ * x.dphi_D i := by
    simp only [c]
    rw [Euler.Euler_C, dphiP_eq G]
    simp only [Fin.sum_univ_three]
    field_simp
    ring
  have e : x.u0 * Euler.Euler_C x = x.u0 * (x.enthalpy * lower (g4 x) v 0 + (∑ i : Fin 3, (∑ j, gam x i j * x.W_U j) * v i.succ) / x.u0) := by
    rw [d, mul_add, a, mul_div_cancel₀ _ hu']
    simp only [mul_add, Finset.sum_add_distrib]
    have : ∑ i : Fin 3, v i.succ * ∑ j, gam x i j * x.W_U j = ∑ i : Fin 3, (∑ j, gam x i j * x.W_U j) * v i.succ :=
      Finset.sum_congr rfl fun i _ => by ring
    rw [this]
    ring
  exact mul_left_cancel₀ hu' e

/-- C67: without spin it is h u_t: the Bernoulli constant of a stationary flow -/
theorem C67_bernoulli (x : In) (G : Good x) (v : Fin 4 → ℝ) (h0 : v 0 = x.u0) (hu : 0 < x.u0) (hv : Moves x v)
    (unit : square (g4 x) v = -1) (noSpin : ∀ i, x.W_U i = 0) : Euler.Euler_C x = x.enthalpy * lower (g4 x) v 0 := by
  rw [C67_euler x G v h0 hu hv unit]
  simp [noSpin]

/-! ### the enthalpy from the Euler constant and back -/

/-- the state of a node after the enthalpy and u⁰ have been recomputed from the Euler constant -/
noncomputable def updated (x : In) : In :=
  let y := { x with enthalpy := enthalpyOf x }
  { y with u0 := U0.out_u0 y }

/-- algebra of L² -/
theorem L2_spec (x : In) (ha : 0 < lapse x) (disc : 0 ≤ -4 * (Enth.alpha x) ^ 4 * (Enth.uW x) ^ 2 + (Enth.b x) ^ 2) :
    lapse x ^ 2 * (Enth.L2 x - Enth.uW x) ^ 2 = (Enth.Bdphi x - x.Euler_C) ^ 2 * Enth.L2 x ∧
    (0 ≤ (Enth.Bdphi x - x.Euler_C) ^ 2 + 4 * lapse x ^ 2 * Enth.uW x → |Enth.uW x| ≤ Enth.L2 x) := by
  have A : Enth.alpha x = lapse x := rfl
  obtain ⟨s, hs, hs0⟩ : ∃ s, Real.sqrt (-4 * (Enth.alpha x) ^ 4 * (Enth.uW x) ^ 2 + (Enth.b x) ^ 2) = s ∧ 0 ≤ s := ⟨_, rfl, Real.sqrt_nonneg _⟩
  have hsq : s ^ 2 = -4 * (Enth.alpha x) ^ 4 * (Enth.uW x) ^ 2 + (Enth.b x) ^ 2 := by rw [← hs, Real.sq_sqrt disc]
  have L : Enth.L2 x = (1 / 2) * (Enth.b x + s) / lapse x ^ 2 := by rw [Enth.L2, hs, A]
  have B : Enth.b x = 2 * lapse x ^ 2 * Enth.uW x + (Enth.Bdphi x - x.Euler_C) ^ 2 := by rw [Enth.b, A]
  rw [A, B] at hsq
  rw [B] at L
  generalize Enth.Bdphi x - x.Euler_C = D at *
  generalize Enth.uW x = w at *
  generalize lapse x = a at *
  have ha' := ha.ne'
  constructor
  · rw [L]
    field_simp
    linear_combination hsq
  · intro h
    rw [L, le_div_iff₀ (by positivity)]
    have h2 : (0 : ℝ) < a ^ 2 := by positivity
    have hD : 0 ≤ D ^ 2 := sq_nonneg D
    rcases abs_cases w with ⟨hw, _⟩ | ⟨hw, _⟩ <;> rw [hw] <;> nlinarith

/-- C67: the enthalpy computed from a constant C satisfies the Euler equation with that constant: recomputing the constant
from the new enthalpy and velocity gives C back, provided C ≤ β^i ∂_iφ; `_partial`: not for the other C, see the violation -/
theorem C67_enthalpy_partial (x : In) (hpsi : x.psi ≠ 0) (ha : 0 < lapse x)
    (disc : 0 ≤ -4 * (Enth.alpha x) ^ 4 * (Enth.uW x) ^ 2 + (Enth.b x) ^ 2)
    (real : 0 ≤ (Enth.Bdphi x - x.Euler_C) ^ 2 + 4 * lapse x ^ 2 * Enth.uW x)
    (h2 : 0 < Enth.h2 x) (P2 : 0 ≤ U0.P2 x) :
    Euler.Euler_C (updated x) = if x.Euler_C ≤ Enth.Bdphi x then x.Euler_C else 2 * Enth.Bdphi x - x.Euler_C := by
  obtain ⟨l1, l2⟩ := L2_spec x ha disc
  have l2 := l2 real
  have hE : enthalpyOf x = Enth.h x := by
    unfold enthalpyOf
    rw [if_neg]
    push Not
    exact ⟨hpsi, ha.ne', disc, h2.le⟩
  have hpos : 0 < Enth.h x := Real.sqrt_pos.2 h2
  have hsq : Enth.h x ^ 2 = Enth.L2 x - U0.P2 x := Real.sq_sqrt h2.le
  have Lpos : 0 < Enth.L2 x := by
    have : Enth.h2 x = Enth.L2 x - U0.P2 x := rfl
    linarith
  obtain ⟨s, hs, hs0⟩ : ∃ s, Real.sqrt (Enth.L2 x) = s ∧ 0 < s := ⟨_, rfl, Real.sqrt_pos.2 Lpos⟩
  have hs2 : s ^ 2 = Enth.L2 x := by rw [← hs, Real.sq_sqrt Lpos.le]
  have u : U0.out_u0 { x with enthalpy := Enth.h x } = s / (lapse x * Enth.h x) := by
    show Real.sqrt (U0.P2 x + Enth.h x ^ 2) / (lapse x * Enth.h x) = _
    rw [hsq, ← hs]
    congr 2
    ring
  have c : Euler.Euler_C (updated x) = (-Euler.dphiP x - Enth.h x ^ 2 + Enth.h x * (s / (lapse x * Enth.h x)) * Enth.Bdphi x) /
      (Enth.h x * (s / (lapse x * Enth.h x))) := by
    unfold updated
    rw [hE]
    simp only [u]
    rfl
  have d : U0.P2 x = Euler.dphiP x + Enth.uW x := by
    simp only [U0.P2, Euler.dphiP, Enth.uW, U0.psi4, U0.psim4, Euler.psim4, Enth.psi4]
    ring
  rw [c, hsq, d, show Enth.h x * (s / (lapse x * Enth.h x)) = s / lapse x by field_simp]
  have n : -Euler.dphiP x - (Enth.L2 x - (Euler.dphiP x + Enth.uW x)) + s / lapse x * Enth.Bdphi x =
      s / lapse x * Enth.Bdphi x - (Enth.L2 x - Enth.uW x) := by ring
  rw [n]
  have key : lapse x * (Enth.L2 x - Enth.uW x) = s * |Enth.Bdphi x - x.Euler_C| := by
    have q : (lapse x * (Enth.L2 x - Enth.uW x)) ^ 2 = (s * |Enth.Bdphi x - x.Euler_C|) ^ 2 := by
      rw [mul_pow, mul_pow, sq_abs, hs2, l1]; ring
    have w := le_abs_self (Enth.uW x)
    exact (pow_left_inj₀ (mul_nonneg ha.le (by linarith)) (by positivity) two_ne_zero).1 q
  have hs0' := hs0.ne'
  have ha' := ha.ne'
  have r : (s / lapse x * Enth.Bdphi x - (Enth.L2 x - Enth.uW x)) / (s / lapse x) = Enth.Bdphi x - |Enth.Bdphi x - x.Euler_C| := by
    field_simp
    linear_combination -key
  rw [r]
  split
  · rw [abs_of_nonneg (by linarith)]; ring
  · rw [abs_of_nonpos (by linarith)]; ring

/-! ### the baryonic mass -/

/-- the formulas of the mass integrand are those of the enthalpy and of u⁰ -/
theorem mass_same (x : In) : Mass.h x = Enth.h x ∧ Mass.alpha x = lapse x ∧
    (Enth.h2 x > 0 → Mass.u0 x = U0.out_u0 { x with enthalpy := Enth.h x }) := by
  refine ⟨rfl, rfl, fun h2 => ?_⟩
  show Real.sqrt (Enth.L2 x) / (lapse x * Enth.h x) = Real.sqrt (U0.P2 x + Enth.h x ^ 2) / (lapse x * Enth.h x)
  have hsq : Enth.h x ^ 2 = Enth.L2 x - U0.P2 x := Real.sq_sqrt h2.le
  rw [hsq]
  congr 2
  ring

/-- C67: the integrand of the baryonic mass is ψ⁶ times the baryon density the normal observer measures, -ρ u^μ n_μ, with the
density, enthalpy and velocity that a full update of the node from the Euler constant gives, where that enthalpy is above one;
it is zero where it is not (ψ⁶ √g = √γ is the physical volume element, g the metric the integration uses) -/
theorem C67_mass (e : ℝ) (he : 0 < e) (dens : ℝ → ℝ) (x : In) (v : Fin 4 → ℝ) (h0 : v 0 = (updated x).u0) :
    (1 + e ≤ enthalpyOf x → massIntegrand e dens x =
      x.psi ^ 6 * -∑ m, dens (updated x).enthalpy * v m * normalD (lapse x) m) ∧
    (enthalpyOf x ≤ 1 → enthalpyOf x ≠ 1 - e → massIntegrand e dens x = 0) := by
  have cond : ∀ q : Prop, (x.psi = 0 ∨ Mass.alpha x = 0 ∨ -4 * (Mass.alpha x) ^ 4 * (Mass.uW x) ^ 2 + (Mass.b x) ^ 2 < 0 ∨ Mass.h2 x < 0 ∨ q) ↔
      ((x.psi = 0 ∨ Enth.alpha x = 0 ∨ -4 * (Enth.alpha x) ^ 4 * (Enth.uW x) ^ 2 + (Enth.b x) ^ 2 < 0 ∨ Enth.h2 x < 0) ∨ q) := by
    intro q
    rw [show Mass.alpha x = Enth.alpha x from rfl, show Mass.uW x = Enth.uW x from rfl, show Mass.b x = Enth.b x from rfl,
      show Mass.h2 x = Enth.h2 x from rfl]
    simp only [or_assoc]
  unfold massIntegrand
  simp only [cond]
  by_cases bad : x.psi = 0 ∨ Enth.alpha x = 0 ∨ -4 * (Enth.alpha x) ^ 4 * (Enth.uW x) ^ 2 + (Enth.b x) ^ 2 < 0 ∨ Enth.h2 x < 0
  · have h1 : enthalpyOf x = 1 := by unfold enthalpyOf; rw [if_pos bad]
    rw [h1, if_pos (Or.inl bad)]
    exact ⟨fun h => absurd h (by linarith), fun _ _ => by ring⟩
  · have h1 : enthalpyOf x = Enth.h x := by unfold enthalpyOf; rw [if_neg bad]
    rw [show Mass.h x = enthalpyOf x from h1.symm]
    constructor
    · intro h
      have hq : ¬ Tol.lssEql e (enthalpyOf x) 1 = true := by
        simp only [Tol.lssEql, Tol.lss, Tol.eql, Bool.or_eq_true, Bool.and_eq_true, decide_eq_true_eq]
        rintro (a | ⟨a, _⟩) <;> linarith
      rw [if_neg (by rintro (a | a); exacts [bad a, hq a])]
      have hu : Mass.u0 x = v 0 := by
        rw [h0]
        have h2 : Enth.h2 x > 0 := by
          rw [h1] at h
          exact Real.sqrt_pos.1 (lt_of_lt_of_le (by linarith) h)
        rw [(mass_same x).2.2 h2]
        unfold updated
        rw [h1]
      rw [hu]
      simp only [normalD, Fin.sum_univ_succ, Fin.cons_zero, Fin.cons_succ, Finset.univ_eq_empty, Finset.sum_empty,
        show Mass.alpha x = lapse x from rfl, Mass.psi6, show (updated x).enthalpy = enthalpyOf x from rfl]
      ring
    · intro h hne
      have hq : Tol.lssEql e (enthalpyOf x) 1 = true := by
        simp only [Tol.lssEql, Tol.lss, Tol.eql, Bool.or_eq_true, Bool.and_eq_true, decide_eq_true_eq]
        rcases lt_or_gt_of_ne hne with a | a
        · exact Or.inl a
        · exact Or.inr ⟨by linarith, a⟩
      rw [if_pos (Or.inr hq)]
      ring

/-! ### the update of the enthalpy and of the density -/

/-- C67: after the clean-up an enthalpy is at least one, or is the number 1 - e itself; above 1 + e nothing changes -/
theorem C67_neat (e h : ℝ) (he : 0 < e) : (1 ≤ neat e h ∨ h = 1 - e) ∧ (1 + e ≤ h → neat e h = h) ∧ (h ≤ 1 → h ≠ 1 - e → neat e h = 1) := by
  have c : (Tol.lssEql e h 1 = true) ↔ h < 1 - e ∨ (h < 1 + e ∧ h > 1 - e) := by
    simp only [Tol.lssEql, Tol.lss, Tol.eql, Bool.or_eq_true, Bool.and_eq_true, decide_eq_true_eq]
  unfold neat
  simp only [c]
  refine ⟨?_, fun h1 => ?_, fun h1 h2 => ?_⟩
  · split_ifs with q
    · exact Or.inl le_rfl
    · push Not at q
      rcases lt_or_ge h (1 + e) with a | a
      · exact Or.inr (le_antisymm (q.2 a) q.1)
      · exact Or.inl (by linarith)
  · rw [if_neg]
    rintro (a | ⟨a, _⟩) <;> linarith
  · rw [if_pos]
    rcases lt_or_gt_of_ne h2 with a | a
    · exact Or.inl a
    · exact Or.inr ⟨by linarith, a⟩

/-- C67: a node of the clean-up keeps its enthalpy whatever the weight says; otherwise the new enthalpy is the weighted mean,
which keeps its fixed point and with weight one is the value computed from the Euler constant -/
theorem C67_update (e : ℝ) (he : 0 < e) (w : ℝ) (x : In) : newEnthalpy e true w x = neat e x.enthalpy ∧
    (e ≤ |w| → newEnthalpy e false w x = w * enthalpyOf x + (1 - w) * x.enthalpy) ∧
    (enthalpyOf x = x.enthalpy → newEnthalpy e false w x = x.enthalpy) ∧ (newEnthalpy e false 0 x = x.enthalpy) := by
  have z : Tol.eql e (0 : ℝ) 0 = true := by simp [Tol.eql, he]
  refine ⟨?_, fun hw => ?_, fun h => ?_, ?_⟩
  · simp [newEnthalpy, z]
  · have : Tol.eql e w 0 = false := by
      simp only [Tol.eql, Bool.and_eq_false_iff, decide_eq_false_iff_not]
      by_contra q
      push Not at q
      have : |w| < e := abs_lt.2 ⟨by linarith [q.2], by linarith [q.1]⟩
      linarith
    simp [newEnthalpy, this]
  · unfold newEnthalpy
    simp only [Bool.false_eq_true, if_false, h]
    split <;> ring
  · simp [newEnthalpy, z]

/-- C67: the density field of a polytrope is never negative after the clean-up of the enthalpy -/
theorem C67_density (e : ℝ) (he : 0 < e) (Q : EoS.Eos) (hK : 0 < Q.K 0) (hn : 0 < Q.n 0) (h : ℝ) (hne : h ≠ 1 - e) :
    ∃ r, fromEos (EoS.rhoP e Q (neat e h)) = .ok r ∧ 0 ≤ r := by
  have h1 : 1 ≤ EoS.snap e (neat e h) := by
    unfold EoS.snap
    split
    · exact le_rfl
    · rcases (C67_neat e h he).1 with a | a
      · exact a
      · exact absurd a hne
  have b : 0 ≤ (EoS.snap e (neat e h) - 1 - 0) / (Q.n 0 + 1) := div_nonneg (by linarith) (by linarith)
  have c : EoS.cpow ((EoS.snap e (neat e h) - 1 - 0) / (Q.n 0 + 1)) (Q.n 0) = .ok (((EoS.snap e (neat e h) - 1 - 0) / (Q.n 0 + 1)) ^ Q.n 0) := by
    unfold EoS.cpow
    rw [if_neg (fun q => absurd q.1 (not_lt.2 b)), if_neg (fun q => absurd q.2 (not_lt.2 hn.le))]
  refine ⟨((EoS.snap e (neat e h) - 1 - 0) / (Q.n 0 + 1)) ^ Q.n 0 * Q.K 0 ^ (-Q.n 0), ?_, ?_⟩
  · unfold EoS.rhoP EoS.powTerm
    rw [c, EoS.cpow_pos hK]
    rfl
  · exact mul_nonneg (Real.rpow_nonneg b _) (Real.rpow_nonneg hK.le _)

example : (0 : ℝ) < (⟨1, fun _ => 2, fun _ => 1, fun _ => 1, fun _ => 0, fun _ => 0, fun _ => 0⟩ : EoS.Eos).K 0 ∧
    (0 : ℝ) < (⟨1, fun _ => 2, fun _ => 1, fun _ => 1, fun _ => 0, fun _ => 0, fun _ => 0⟩ : EoS.Eos).n 0 := ⟨one_pos, one_pos⟩

/-- C67, a violation: without the clean-up an enthalpy below one gives a negative density where the exponent is an integer: only
values that are not finite are replaced -/
theorem C67_density_violation (e : ℝ) (he : 0 < e) (he1 : e ≤ 1) : ∃ Q, EoS.populateP e [2] [1] = .ok Q ∧
    fromEos (EoS.rhoP e Q 0) = .ok (-1 / 2) := by
  obtain ⟨Q, h1, h2, -⟩ := EoS.C58_below_one_violation he he1
  exact ⟨Q, h1, by rw [h2]; rfl⟩

/-- C67: a field filled from the equation of state holds the value where it is finite, and 0 where it is not: for an
enthalpy below one and a polytrope whose exponent is not an integer -/
theorem C67_not_finite (e : ℝ) (Q : EoS.Eos) (h : ℝ) (h1 : EoS.snap e h < 1) (hn : 0 < Q.n 0) (hi : ¬ ∃ k : ℤ, Q.n 0 = k) :
    EoS.rhoP e Q h = .ub ∧ fromEos (EoS.rhoP e Q h) = .ok 0 ∧ ∀ v : ℝ, fromEos (.ok v) = .ok v := by
  have a : EoS.rhoP e Q h = .ub := by
    unfold EoS.rhoP EoS.powTerm EoS.cpow
    rw [if_pos ⟨div_neg_of_neg_of_pos (by linarith) (by linarith), hi⟩]
    rfl
  exact ⟨a, by rw [a]; rfl, fun _ => rfl⟩

example : EoS.snap 1e-12 (1 / 2 : ℝ) < 1 ∧ ¬ ∃ k : ℤ, (3 / 2 : ℝ) = k := by
  constructor
  · rw [EoS.snap, if_neg]
    · norm_num
    · simp [Tol.eql]; norm_num
  · rintro ⟨k, hk⟩
    have : (3 : ℝ) = ((2 * k : ℤ) : ℝ) := by push_cast; linarith
    have : (3 : ℤ) = 2 * k := by exact_mod_cast this
    omega

/-! ### the force balance -/

/-- C67: with the velocity and the shift of the node, h √(α² - t²) Γ is minus the Euler constant -/
theorem C67_gamma (x : In) (hpsi : x.psi ≠ 0) (ha : 0 < lapse x) (hh : 0 < x.enthalpy) (hP : 0 ≤ U0.P2 x) (hu : x.u0 = U0.out_u0 x)
    (shift : x.beta_U 0 = Force.beta_U0 x ∧ x.beta_U 1 = Force.beta_U1 x ∧ x.beta_U 2 = Force.beta_U2 x) (ht : 0 < Force.Gtilda x) :
    x.enthalpy * Real.sqrt (Force.Gtilda x) * DLnGamma.G x = -Euler.Euler_C x := by
  have hpos : 0 < U0.P2 x + x.enthalpy ^ 2 := by positivity
  have o : U0.out_u0 x = Real.sqrt (U0.P2 x + x.enthalpy ^ 2) / (lapse x * x.enthalpy) := rfl
  have hu0 : 0 < x.u0 := by rw [hu, o]; exact div_pos (Real.sqrt_pos.2 hpos) (by positivity)
  have husq : (lapse x * x.enthalpy * x.u0) ^ 2 = U0.P2 x + x.enthalpy ^ 2 := by
    rw [hu, o, mul_div_cancel₀ _ (by positivity), Real.sq_sqrt hpos.le]
  have t0 : DLnGamma.t_U0 x = Force.t_U0 x := by rw [DLnGamma.t_U0, Force.t_U0, shift.1]
  have t1 : DLnGamma.t_U1 x = Force.t_U1 x := by rw [DLnGamma.t_U1, Force.t_U1, shift.2.1]
  have t2 : DLnGamma.t_U2 x = Force.t_U2 x := by rw [DLnGamma.t_U2, Force.t_U2, shift.2.2]
  have tt : DLnGamma.t2 x = Force.t2 x := by rw [DLnGamma.t2, Force.t2, t0, t1, t2]; rfl
  have gg : DLnGamma.alpha2 x - DLnGamma.t2 x = Force.Gtilda x := by rw [tt]; rfl
  have sd : Real.sqrt (Force.Gtilda x / lapse x ^ 2) = Real.sqrt (Force.Gtilda x) / lapse x := by
    rw [Real.sqrt_div ht.le, Real.sqrt_sq ha.le]
  have s0 : Real.sqrt (Force.Gtilda x) ≠ 0 := (Real.sqrt_pos.2 ht).ne'
  have G : DLnGamma.G x = -lapse x * x.u0 * (Real.sqrt (Force.Gtilda x) / lapse x)⁻¹ * (DLnGamma.v x - 1) := by
    rw [← sd, DLnGamma.G, gg]; rfl
  have hh' := hh.ne'
  have hu' := hu0.ne'
  have ha' := ha.ne'
  have w : (x.W_U 0 * x.dphi_D 0 + x.W_U 1 * x.dphi_D 1 + x.W_U 2 * x.dphi_D 2) + x.psi ^ 4 * ((x.W_U 0) ^ 2 * x.gConf_DD 0 0 + 2
      * x.W_U 0 * x.W_U 1 * x.gConf_DD 0 1 + 2 * x.W_U 0 * x.W_U 2 * x.gConf_DD 0 2 + (x.W_U 1) ^ 2 * x.gConf_DD 1 1 + 2 *
      x.W_U 1 * x.W_U 2 * x.gConf_DD 1 2 + (x.W_U 2) ^ 2 * x.gConf_DD 2 2) = U0.P2 x - Euler.dphiP x := by
    simp only [U0.P2, U0.psi4, U0.psim4, Euler.dphiP, Euler.psim4]
    ring
  have v : DLnGamma.v x * (lapse x ^ 2 * x.enthalpy ^ 2 * x.u0 ^ 2) = U0.P2 x - Euler.dphiP x +
      x.enthalpy * x.u0 * (x.beta_U 0 * x.dphi_D 0 + x.beta_U 1 * x.dphi_D 1 + x.beta_U 2 * x.dphi_D 2) := by
    rw [← w, DLnGamma.v]
    simp only [DLnGamma.t_U0, DLnGamma.t_U1, DLnGamma.t_U2, DLnGamma.alpha2, DLnGamma.psi4, show DLnGamma.alpha x = lapse x from rfl]
    field_simp
    ring
  rw [G, Euler.Euler_C]
  field_simp
  linear_combination -v + husq

/-- C67: the root function of the force balance along a line through the centre of the star: with Γ and α² - t² differentiated
along the line, where the Euler constant is constant it is -2 h'/h: it vanishes exactly at the parameters for which the
enthalpy is stationary at the centre -/
theorem C67_force_balance (x : ℝ → In) (hpsi : ∀ t, (x t).psi ≠ 0) (ha : ∀ t, 0 < lapse (x t)) (hh : ∀ t, 0 < (x t).enthalpy)
    (hP : ∀ t, 0 ≤ U0.P2 (x t)) (hu : ∀ t, (x t).u0 = U0.out_u0 (x t))
    (shift : ∀ t, (x t).beta_U 0 = Force.beta_U0 (x t) ∧ (x t).beta_U 1 = Force.beta_U1 (x t) ∧ (x t).beta_U 2 = Force.beta_U2 (x t))
    (ht : ∀ t, 0 < Force.Gtilda (x t)) (C dG dgt dh : ℝ) (hC : ∀ t, Euler.Euler_C (x t) = C) (C0 : C ≠ 0)
    (hG : HasDerivAt (fun t => DLnGamma.G (x t)) dG 0) (hgt : HasDerivAt (fun t => Force.Gtilda (x t)) dgt 0)
    (hdh : HasDerivAt (fun t => (x t).enthalpy) dh 0) :
    forceBalance (DLnGamma.G (x 0)) dG (Force.Gtilda (x 0)) dgt = -2 * dh / (x 0).enthalpy ∧
    (forceBalance (DLnGamma.G (x 0)) dG (Force.Gtilda (x 0)) dgt = 0 ↔ dh = 0) := by
  have key : ∀ t, (x t).enthalpy * Real.sqrt (Force.Gtilda (x t)) * DLnGamma.G (x t) = -C := fun t => by
    rw [C67_gamma (x t) (hpsi t) (ha t) (hh t) (hP t) (hu t) (shift t) (ht t), hC t]
  have d := (hdh.mul (hgt.sqrt (ht 0).ne')).mul hG
  have d2 := d.congr_of_eventuallyEq (f₁ := fun _ => -C) (Filter.Eventually.of_forall fun t => by
    simp only [Pi.mul_apply]; exact (key t).symm)
  have z := d2.unique (hasDerivAt_const (0 : ℝ) (-C))
  simp only [Pi.mul_apply] at z
  have k0 := key 0
  have h0 := hh 0
  have s0 := Real.sqrt_pos.2 (ht 0)
  have ssq := Real.sq_sqrt (ht 0).le
  have g0 : DLnGamma.G (x 0) ≠ 0 := by
    intro h
    rw [h, mul_zero] at k0
    exact C0 (by linarith)
  have fb : forceBalance (DLnGamma.G (x 0)) dG (Force.Gtilda (x 0)) dgt = -2 * dh / (x 0).enthalpy := by
    unfold forceBalance
    have ht0 := (ht 0).ne'
    generalize Force.Gtilda (x 0) = F at *
    generalize DLnGamma.G (x 0) = g at *
    generalize (x 0).enthalpy = h at *
    generalize Real.sqrt F = s at *
    rw [← ssq] at ht0 ⊢
    have hs : s ≠ 0 := s0.ne'
    have hh0 : h ≠ 0 := h0.ne'
    field_simp at z ⊢
    linear_combination z
  refine ⟨fb, ?_⟩
  rw [fb, div_eq_zero_iff]
  constructor
  · rintro (a | a)
    · linarith
    · exact absurd a h0.ne'
  · intro a
    left
    rw [a]; ring

/-! ### a concrete node -/

/-- a node in flat space: h = 6, dφ = (3/2,0,0), W = (0,0,2), β = (1/3,0,0), u⁰ = 13/12, and the Euler constant of that motion -/
noncomputable def demo : In where
  alphaPsi := 1
  psi := 1
  W_U := ![0, 0, 2]
  dphi_D := ![3 / 2, 0, 0]
  gConf_DD i j := if i = j then 1 else 0
  igConf_UU i j := if i = j then 1 else 0
  enthalpy := 6
  beta_U := ![1 / 3, 0, 0]
  Euler_C := 1 / 2 - 153 / 26
  rho0 := 1
  u0 := 13 / 12
  eos_p := 4
  e0 := 1
  eos_e0 := 1
  Omega := 0
  y0 := 0
  y_CM := 0
  Vr := 0
  x0 := 0
  x_CM := 0
  D := 1
  B0_U := ![1 / 3, 0, 0]

/-- its four-velocity -/
noncomputable def demoV : Fin 4 → ℝ := ![13 / 12, 1 / 4 - 13 / 36, 0, 1 / 3]

theorem demo_good : Good demo where
  psi := by simp [demo]
  lapse := by simp [demo, lapse]
  enthalpy := by simp [demo]
  g i j := by simp [demo, eq_comm]
  h i j := by simp [demo, eq_comm]
  inv i j := by simp [demo]

theorem demo_P2 : U0.P2 demo = 25 / 4 := by
  simp [U0.P2, U0.psi4, U0.psim4, demo]
  norm_num

theorem demo_u0 : U0.out_u0 demo = 13 / 12 := by
  show Real.sqrt (U0.P2 demo + demo.enthalpy ^ 2) / (lapse demo * demo.enthalpy) = _
  rw [demo_P2, show (25 / 4 + demo.enthalpy ^ 2 : ℝ) = (13 / 2) ^ 2 by simp only [demo]; norm_num, Real.sqrt_sq (by norm_num)]
  simp [demo, lapse]
  norm_num

theorem demo_moves : Moves demo demoV := by
  rw [moves_iff demo_good]
  intro i
  fin_cases i <;> simp [demoV, demo, P, gamI, Fin.sum_univ_three] <;> norm_num

theorem demo_unit : square (g4 demo) demoV = -1 :=
  (C67_u0 demo demo_good demoV demo_moves (by simp [demoV])).2 (by rw [demo_u0]; simp [demoV])

theorem demo_pos (w : Fin 3 → ℝ) : 0 ≤ ∑ i, ∑ j, gam demo i j * w i * w j := by
  have : ∑ i, ∑ j, gam demo i j * w i * w j = w 0 ^ 2 + w 1 ^ 2 + w 2 ^ 2 := by
    simp [gam, demo, Fin.sum_univ_three]
    ring
  rw [this]; positivity

example : Good demo ∧ Moves demo demoV ∧ 0 < demoV 0 ∧ square (g4 demo) demoV = -1 ∧ demoV 0 = U0.out_u0 demo ∧ demoV 0 = demo.u0 ∧
    0 < demo.u0 ∧ (∀ w : Fin 3 → ℝ, 0 ≤ ∑ i, ∑ j, gam demo i j * w i * w j) ∧ demo.e0 = demo.eos_e0 ∧
    demo.eos_p = demo.rho0 * (demo.enthalpy - 1 - demo.eos_e0) := by
  refine ⟨demo_good, demo_moves, ?_, demo_unit, ?_, ?_, ?_, demo_pos, ?_, ?_⟩
  · simp [demoV]
  · rw [demo_u0]; simp [demoV]
  · simp [demoV, demo]
  · simp [demo]
  · simp [demo]
  · simp [demo]; norm_num

/-- without spin: the same node with W = 0 moves with another velocity -/
example : ∃ x v, Good x ∧ Moves x v ∧ v 0 = x.u0 ∧ 0 < x.u0 ∧ square (g4 x) v = -1 ∧ (∀ i, x.W_U i = 0) ∧ x.dphi_D 0 ≠ 0 := by
  have G : Good { demo with W_U := fun _ => 0, enthalpy := 2, u0 := 5 / 4 } :=
    ⟨demo_good.psi, demo_good.lapse, by norm_num, demo_good.g, demo_good.h, demo_good.inv⟩
  have P2 : U0.P2 { demo with W_U := fun _ => 0, enthalpy := 2, u0 := 5 / 4 } = 9 / 4 := by
    simp [U0.P2, U0.psi4, U0.psim4, demo]
    norm_num
  have M : Moves { demo with W_U := fun _ => 0, enthalpy := 2, u0 := 5 / 4 } ![5 / 4, 3 / 4 - 5 / 12, 0, 0] := by
    rw [moves_iff G]
    intro i
    fin_cases i <;> simp [demo, P, gamI, Fin.sum_univ_three]
    norm_num
  refine ⟨_, _, G, M, by simp, by norm_num, ?_, fun _ => rfl, by simp [demo]⟩
  refine (C67_u0 _ G _ M (by simp)).2 ?_
  show _ = Real.sqrt (U0.P2 _ + (2 : ℝ) ^ 2) / (lapse demo * 2)
  rw [P2, show (9 / 4 + 2 ^ 2 : ℝ) = (5 / 2) ^ 2 by norm_num, Real.sqrt_sq (by norm_num)]
  simp [demo, lapse]
  norm_num

theorem demo_B : Enth.Bdphi demo - demo.Euler_C = 153 / 26 := by
  simp [Enth.Bdphi, demo]
  norm_num

theorem demo_uW : Enth.uW demo = 4 := by
  simp [Enth.uW, Enth.psi4, demo]
  norm_num

theorem demo_lapse : Enth.alpha demo = 1 := by simp [Enth.alpha, demo]

theorem demo_b : Enth.b demo = 28817 / 676 := by
  rw [Enth.b, demo_B, demo_uW, demo_lapse]; norm_num

theorem demo_h2 : Enth.h2 demo = 36 := by
  have a : Enth.P2 demo = 25 / 4 := demo_P2
  rw [Enth.h2, a, Enth.L2, demo_b, demo_uW, demo_lapse,
    show (-4 * 1 ^ 4 * 4 ^ 2 + (28817 / 676) ^ 2 : ℝ) = (28305 / 676) ^ 2 by norm_num, Real.sqrt_sq (by norm_num)]
  norm_num

/-- the hypotheses of `C67_enthalpy_partial` and of `C67_mass`: the enthalpy computed from the constant is 6 again -/
example : demo.psi ≠ 0 ∧ 0 < lapse demo ∧ 0 ≤ -4 * (Enth.alpha demo) ^ 4 * (Enth.uW demo) ^ 2 + (Enth.b demo) ^ 2 ∧
    0 ≤ (Enth.Bdphi demo - demo.Euler_C) ^ 2 + 4 * lapse demo ^ 2 * Enth.uW demo ∧ 0 < Enth.h2 demo ∧ 0 ≤ U0.P2 demo ∧
    demo.Euler_C ≤ Enth.Bdphi demo ∧ enthalpyOf demo = 6 ∧ enthalpyOf { demo with psi := 0 } ≤ 1 := by
  have d : 0 ≤ -4 * (Enth.alpha demo) ^ 4 * (Enth.uW demo) ^ 2 + (Enth.b demo) ^ 2 := by
    rw [demo_b, demo_uW, demo_lapse]; norm_num
  refine ⟨demo_good.psi, demo_good.lapse, d, ?_, ?_, ?_, ?_, ?_, ?_⟩
  · rw [demo_B, demo_uW]; positivity
  · rw [demo_h2]; norm_num
  · rw [demo_P2]; norm_num
  · have := demo_B; linarith
  · unfold enthalpyOf
    rw [if_neg]
    · rw [Enth.h, demo_h2, show (36 : ℝ) = 6 ^ 2 by norm_num, Real.sqrt_sq (by norm_num)]
    · push Not
      exact ⟨demo_good.psi, by rw [demo_lapse]; norm_num, d, by rw [demo_h2]; norm_num⟩
  · unfold enthalpyOf
    rw [if_pos (Or.inl rfl)]

/-- a constant on the other side of β^i ∂_iφ -/
noncomputable def demoHigh : In := { demo with Euler_C := 1 / 2 + 153 / 26 }

/-- C67, a violation: for a constant above β^i ∂_iφ the enthalpy that is computed satisfies the Euler equation with another constant -/
theorem C67_enthalpy_violation : Euler.Euler_C (updated demoHigh) = 1 / 2 - 153 / 26 ∧ demoHigh.Euler_C = 1 / 2 + 153 / 26 ∧
    enthalpyOf demoHigh = 6 := by
  have B : Enth.Bdphi demoHigh - demoHigh.Euler_C = -(153 / 26) := by
    simp [Enth.Bdphi, demoHigh, demo]
    norm_num
  have w : Enth.uW demoHigh = 4 := demo_uW
  have al : Enth.alpha demoHigh = 1 := demo_lapse
  have b : Enth.b demoHigh = 28817 / 676 := by rw [Enth.b, B, w, al]; norm_num
  have P : Enth.P2 demoHigh = 25 / 4 := demo_P2
  have h2 : Enth.h2 demoHigh = 36 := by
    rw [Enth.h2, P, Enth.L2, b, w, al,
      show (-4 * 1 ^ 4 * 4 ^ 2 + (28817 / 676) ^ 2 : ℝ) = (28305 / 676) ^ 2 by norm_num, Real.sqrt_sq (by norm_num)]
    norm_num
  have d : 0 ≤ -4 * (Enth.alpha demoHigh) ^ 4 * (Enth.uW demoHigh) ^ 2 + (Enth.b demoHigh) ^ 2 := by
    rw [b, w, al]; norm_num
  have Bd : Enth.Bdphi demoHigh = 1 / 2 := by simp [Enth.Bdphi, demoHigh, demo]; norm_num
  refine ⟨?_, rfl, ?_⟩
  · rw [C67_enthalpy_partial demoHigh demo_good.psi demo_good.lapse d (by rw [B, w]; positivity) (by rw [h2]; norm_num)
      (by rw [show U0.P2 demoHigh = 25 / 4 from demo_P2]; norm_num), if_neg, Bd, show demoHigh.Euler_C = 1 / 2 + 153 / 26 from rfl]
    · norm_num
    · rw [Bd, show demoHigh.Euler_C = 1 / 2 + 153 / 26 from rfl]; norm_num
  · unfold enthalpyOf
    rw [if_neg]
    · rw [Enth.h, h2, show (36 : ℝ) = 6 ^ 2 by norm_num, Real.sqrt_sq (by norm_num)]
    · push Not
      exact ⟨demo_good.psi, by rw [al]; norm_num, d, by rw [h2]; norm_num⟩

/-- the hypotheses of `C67_gamma` and, on a line along which nothing changes, of `C67_force_balance` -/
theorem demo_force : demo.u0 = U0.out_u0 demo ∧ (demo.beta_U 0 = Force.beta_U0 demo ∧ demo.beta_U 1 = Force.beta_U1 demo ∧
    demo.beta_U 2 = Force.beta_U2 demo) ∧ 0 < Force.Gtilda demo ∧ Euler.Euler_C demo ≠ 0 := by
  refine ⟨by rw [demo_u0]; rfl, ⟨?_, ?_, ?_⟩, ?_, ?_⟩
  · simp [Force.beta_U0, Force.B1_U0, demo]
  · simp [Force.beta_U1, Force.B1_U1, demo]
  · simp [Force.beta_U2, Force.B1_U2, demo]
  · simp [Force.Gtilda, Force.alpha2, Force.alpha, Force.t2, Force.psi4, Force.t_U0, Force.t_U1, Force.t_U2, Force.beta_U0,
      Force.beta_U1, Force.beta_U2, Force.B1_U0, Force.B1_U1, Force.B1_U2, demo]
    norm_num
  · simp [Euler.Euler_C, Euler.dphiP, Euler.psim4, demo]
    norm_num

example : forceBalance (DLnGamma.G demo) 0 (Force.Gtilda demo) 0 = -2 * 0 / demo.enthalpy :=
  (C67_force_balance (fun _ => demo) (fun _ => demo_good.psi) (fun _ => demo_good.lapse) (fun _ => demo_good.enthalpy)
    (fun _ => P2_nonneg demo_good demo_pos) (fun _ => demo_force.1) (fun _ => demo_force.2.1) (fun _ => demo_force.2.2.1) _ 0 0 0
    (fun _ => rfl) demo_force.2.2.2 (hasDerivAt_const _ _) (hasDerivAt_const _ _) (hasDerivAt_const _ _)).1

end Elliptica.Fluid
