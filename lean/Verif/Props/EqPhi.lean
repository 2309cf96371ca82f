import Verif.Model.Gen.EqPhi
import Verif.Spec.Xcts
import Mathlib.Tactic.LinearCombination
import Mathlib.Tactic.FinCases
/-!
C63, C64 the equation of the velocity potential φ.
-/
namespace Elliptica.Equation.Phi
open Elliptica.Gen.Phi Elliptica.Xcts

/-- the symmetries of the fields at a node; the code keeps only the components in order -/
structure Sym (x : In) : Prop where
  h : ∀ i j, x.igConf_UU i j = x.igConf_UU j i
  c : ∀ i j k, x.ChrisConf_UDD i j k = x.ChrisConf_UDD i k j
  d : ∀ i j, x.ddphi_DD i j = x.ddphi_DD j i
  J : ∀ i j, x.JJphi_DD i j = x.JJphi_DD j i
  g : ∀ i j, x.gConf_DD i j = x.gConf_DD j i

/-- the fields when the value of φ at the node `lmn` is raised by `t` -/
noncomputable def move (x : In) (t : ℝ) : In :=
  { x with dphi_D := fun i => x.dphi_D i + t * x.Jphi_D i
           ddphi_DD := fun i j => x.ddphi_DD i j + t * x.JJphi_DD i j }

/-- C64: the Jacobian entry for a pair of nodes is the change of the residual, for both types of the equation -/
theorem C64_phi (x : In) (t : ℝ) :
    Eq.out_schur_F (move x t) = Eq.out_schur_F x + t * JacEq.out_schur_B x ∧
    Eq2.out_schur_F (move x t) = Eq2.out_schur_F x + t * JacEq.out_schur_B x ∧
    JacEq.out_schur_Et x = JacEq.out_schur_B x := by
  refine ⟨?_, ?_, rfl⟩
  · simp only [Eq.out_schur_F, Eq.F_eq, Eq.t0, Eq.t1, Eq.t2, Eq.t3, Eq.t4, Eq.t5, Eq.t6_U0, Eq.t6_U1, Eq.t6_U2, Eq.polish, Eq.att,
      Eq.hxu0xpsi4, Eq.psi4, Eq.DiBi, Eq.alpha, Eq.dLn_of_psi_U0, Eq.dLn_of_psi_U1, Eq.dLn_of_psi_U2, Eq.dLn_of_alpha_U0,
      Eq.dLn_of_alpha_U1, Eq.dLn_of_alpha_U2, Eq.dLn_of_enthalpy_U0, Eq.dLn_of_enthalpy_U1, Eq.dLn_of_enthalpy_U2,
      Eq.dLn_of_u0_U0, Eq.dLn_of_u0_U1, Eq.dLn_of_u0_U2, move,
      JacEq.out_schur_B, JacEq.Bpart_, JacEq.t0_b, JacEq.t1_b, JacEq.t2_b, JacEq.polish_b, JacEq.att,
      JacEq.dLn_of_psi_b_U0, JacEq.dLn_of_psi_b_U1, JacEq.dLn_of_psi_b_U2, JacEq.dLn_of_alpha_b_U0,
      JacEq.dLn_of_alpha_b_U1, JacEq.dLn_of_alpha_b_U2, JacEq.dLn_of_enthalpy_b_U0, JacEq.dLn_of_enthalpy_b_U1, JacEq.dLn_of_enthalpy_b_U2]
    ring
  · simp only [Eq2.out_schur_F, Eq2.F_eq, Eq2.t0, Eq2.t1, Eq2.t2, Eq2.t3, Eq2.t4, Eq2.t5, Eq2.t6_U0, Eq2.t6_U1, Eq2.t6_U2, Eq2.polish, Eq2.att,
      Eq2.hxu0xpsi4, Eq2.psi4, Eq2.DiBi, Eq2.dLn_of_psi_U0, Eq2.dLn_of_psi_U1, Eq2.dLn_of_psi_U2, Eq2.dLn_of_alpha_U0,
      Eq2.dLn_of_alpha_U1, Eq2.dLn_of_alpha_U2, Eq2.dLn_of_enthalpy_U0, Eq2.dLn_of_enthalpy_U1, Eq2.dLn_of_enthalpy_U2,
      Eq2.dLn_of_u0_U0, Eq2.dLn_of_u0_U1, Eq2.dLn_of_u0_U2, move,
      JacEq.out_schur_B, JacEq.Bpart_, JacEq.t0_b, JacEq.t1_b, JacEq.t2_b, JacEq.polish_b, JacEq.att,
      JacEq.dLn_of_psi_b_U0, JacEq.dLn_of_psi_b_U1, JacEq.dLn_of_psi_b_U2, JacEq.dLn_of_alpha_b_U0,
      JacEq.dLn_of_alpha_b_U1, JacEq.dLn_of_alpha_b_U2, JacEq.dLn_of_enthalpy_b_U0, JacEq.dLn_of_enthalpy_b_U1, JacEq.dLn_of_enthalpy_b_U2]
    ring

/-- C64: the surface condition of type 1 -/
theorem C64_phi_bc (x : In) (t : ℝ) :
    Bc.out_schur_F_0 (move x t) = Bc.out_schur_F_0 x + t * JacBc.out_schur_B_0 x ∧ JacBc.out_schur_Et_0 x = JacBc.out_schur_B_0 x := by
  refine ⟨?_, rfl⟩
  simp only [Bc.out_schur_F_0, Bc.outerB_F, JacBc.out_schur_B_0, JacBc.outerB_Bpart, move, Bc.psi4]
  ring

/-- C64: the surface condition of type 3: the entry is the change of the residual if lowering the normal with the conformal metric
leaves it unchanged.  Missing: any other metric, see the violation. -/
theorem C64_phi_bc3_partial (x : In) (t : ℝ) (S : Sym x) (flat : ∀ i, ∑ j, x.gConf_DD i j * x.n_U j = x.n_U i) :
    Bc3.out_schur_F_0 (move x t) = Bc3.out_schur_F_0 x + t * JacBc3.out_schur_B_0 x ∧ JacBc3.out_schur_Et_0 x = JacBc3.out_schur_B_0 x := by
  refine ⟨?_, rfl⟩
  have f0 := flat 0
  have f1 := flat 1
  have f2 := flat 2
  simp only [Fin.sum_univ_three, S.g 1 0, S.g 2 0, S.g 2 1] at f0 f1 f2
  simp only [Bc3.out_schur_F_0, Bc3.outerB_F, JacBc3.out_schur_B_0, JacBc3.outerB_Bpart, move, Bc3.psi4, Bc3.s_U0, Bc3.s_U1, Bc3.s_U2,
    Bc3.Norm, JacBc3.Norm_b, JacBc3.s_b_U0, JacBc3.s_b_U1, JacBc3.s_b_U2]
  generalize (Real.sqrt _)⁻¹ = q
  linear_combination (-t * q) * (x.Jphi_D 0 * f0 + x.Jphi_D 1 * f1 + x.Jphi_D 2 * f2)

/-- fields at a surface node with conformal metric diag(2,1,1) and outward direction (1,0,0) -/
noncomputable def tilted : In :=
  { e := 0, rhoc := 1, dpsi_D := fun _ => 0, psi := 1, dalphaPsi_D := fun _ => 0, alphaPsi := 1, denthalpy_D := fun _ => 0, enthalpy := 1
    du0_D := fun _ => 0, u0 := 1, rho0 := 0, trK := 0, ddphi_DD := fun _ _ => 0, igConf_UU := fun i j => if i = j then (if i = 0 then 1 / 2 else 1) else 0
    ChrisConf_UDD := fun _ _ _ => 0, dphi_D := fun _ => 0, W_U := fun _ => 0, beta_U := fun _ => 0, drho0_D := fun i => if i = 0 then -1 else 0
    JJphi_DD := fun _ _ => 0, Jphi_D := fun i => if i = 0 then 1 else 0, dbeta_UD := fun _ _ => 0
    gConf_DD := fun i j => if i = j then (if i = 0 then 2 else 1) else 0, n_U := fun i => if i = 0 then 1 else 0 }

/-- C64 violation: with the surface condition of type 3 the entry of the Jacobian is not the derivative of the residual when the
conformal metric is not flat: the residual contracts the gradient of φ with the normal s^i directly, the Jacobian lowers the normal
with the metric once more.  Here the entry is twice the derivative. -/
theorem C64_phi_bc3_violation (t : ℝ) :
    Bc3.out_schur_F_0 (move tilted t) = Bc3.out_schur_F_0 tilted + t * (JacBc3.out_schur_B_0 tilted / 2) ∧
    JacBc3.out_schur_B_0 tilted ≠ 0 := by
  constructor
  · simp [Bc3.out_schur_F_0, Bc3.outerB_F, JacBc3.out_schur_B_0, JacBc3.outerB_Bpart, move, Bc3.psi4, Bc3.s_U0, Bc3.s_U1, Bc3.s_U2,
      Bc3.Norm, JacBc3.Norm_b, JacBc3.s_b_U0, JacBc3.s_b_U1, JacBc3.s_b_U2, tilted]
  · simp [JacBc3.out_schur_B_0, JacBc3.outerB_Bpart, JacBc3.Norm_b, JacBc3.s_b_U0, JacBc3.s_b_U1, JacBc3.s_b_U2, tilted]

/-- C64: an inner boundary in a star patch is not supported: both types write a zero row, so the linear system is singular -/
theorem C64_phi_inner_violation (x : In) :
    Bc.out_schur_F_1 x = 0 ∧ JacBc.out_schur_B_1 x = 0 ∧ JacBc.out_schur_Et_1 x = 0 ∧
    Bc3.out_schur_F_1 x = 0 ∧ JacBc3.out_schur_B_1 x = 0 ∧ JacBc3.out_schur_Et_1 x = 0 := ⟨rfl, rfl, rfl, rfl, rfl, rfl⟩

/-- C63: the surface condition of type 1 is ψ⁴ (h u^i) ∂_i ρ₀ with h u^i = ψ⁻⁴ γ̃^{ij} ∂_j φ + W^i - h u⁰ β^i: no flow through the surfaces of
constant density -/
theorem C63_phi_bc (x : In) (S : Sym x) (hp : x.psi ≠ 0) :
    Bc.out_schur_F_0 x = x.psi ^ 4 *
      ∑ i, ((x.psi ^ 4)⁻¹ * (∑ j, x.igConf_UU i j * x.dphi_D j) + x.W_U i - x.enthalpy * x.u0 * x.beta_U i) * x.drho0_D i := by
  unfold Bc.out_schur_F_0 Bc.outerB_F Bc.psi4
  simp only [Fin.sum_univ_three, S.h 1 0, S.h 2 0, S.h 2 1]
  field_simp
  ring

/-- C63: the surface condition of type 3 in a conformally flat metric: the same flow, the factor h of the shift term left out, through the
coordinate surface with unit normal n/|n|.  Missing: any other metric (the index of the normal is lowered in one term only). -/
theorem C63_phi_bc3_partial (x : In) (flat : ∀ i j, x.gConf_DD i j = if i = j then 1 else 0) (hp : x.psi ≠ 0) :
    Bc3.out_schur_F_0 x = x.psi ^ 4 *
      ∑ i, ((x.psi ^ 4)⁻¹ * x.dphi_D i + x.W_U i - x.u0 * x.beta_U i) * (x.n_U i / Real.sqrt (∑ j, x.n_U j ^ 2)) := by
  have e : Bc3.Norm x = ∑ j, x.n_U j ^ 2 := by
    unfold Bc3.Norm
    simp only [Fin.sum_univ_three, flat]
    simp
  rw [← e]
  unfold Bc3.out_schur_F_0 Bc3.outerB_F Bc3.psi4 Bc3.s_U0 Bc3.s_U1 Bc3.s_U2
  simp only [Fin.sum_univ_three, flat]
  simp
  field_simp
  ring

/-- C63 violation: the shift term of the type 3 condition lacks the enthalpy of the type 1 condition -/
theorem C63_phi_bc3_violation (x : In) (h : ℝ) : Bc3.out_schur_F_0 { x with enthalpy := h } = Bc3.out_schur_F_0 x := rfl

/-- fields at a surface node in the flat metric -/
noncomputable def upright : In :=
  { tilted with gConf_DD := fun i j => if i = j then 1 else 0, igConf_UU := fun i j => if i = j then 1 else 0
                dphi_D := fun i => if i = 0 then 3 else 1, W_U := fun i => if i = 1 then 2 else 0 }

example : Sym tilted ∧ Sym upright ∧ upright.psi ≠ 0 ∧ (∀ i j, upright.gConf_DD i j = if i = j then 1 else 0) ∧
    (∀ i, ∑ j, upright.gConf_DD i j * upright.n_U j = upright.n_U i) := by
  refine ⟨⟨?_, ?_, ?_, ?_, ?_⟩, ⟨?_, ?_, ?_, ?_, ?_⟩, ?_, ?_, ?_⟩ <;> intros <;> simp [tilted, upright, eq_comm] <;> (try (split_ifs <;> simp_all))

end Elliptica.Equation.Phi
