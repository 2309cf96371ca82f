import Mathlib.Analysis.Real.Sqrt
import Mathlib.Analysis.SpecialFunctions.Trigonometric.Basic
/-!
Generated by /verif/tools/gen_tensor.py from Src/Main/Modules/Physics/StressEnergy_Tensor/Tij_NS_ifluid_xcts_gConf_u0.c, Src/Main/Modules/Physics/StressEnergy_Tensor/Tij_NS_ifluid_xcts_gConf_enthalpy.c, Src/Main/Modules/Physics/StressEnergy_Tensor/Tij_NS_ifluid_xcts_gConf_psi6E.c, Src/Main/Modules/Physics/StressEnergy_Tensor/Tij_NS_ifluid_xcts_gConf_psi6J_Ui.c, Src/Main/Modules/Physics/StressEnergy_Tensor/Tij_NS_ifluid_xcts_gConf_psi6S.c, Src/Main/Modules/Physics/Star/star_NS_Euler_eq_const_current.c, Src/Main/Modules/Physics/Star/star_NS_baryonic_gConf_mass.c, Src/Main/Modules/Physics/Star/star_NS_ifluid_gConf_dLnGamma.c, Src/Main/Modules/Physics/Star/star_NS_ifluid_gConf_force_bal.c: the arithmetic done at one node, over `ℝ`;
rounding is not modelled, neither that of the operations nor that of decimal literals such as 0.66666666666666663 (= 2/3).
`eos_p`, `eos_e0`: pressure and specific internal energy returned by the equation of state at the enthalpy of the node.
-/
set_option linter.style.longLine false
set_option linter.unusedVariables false

namespace Elliptica.Gen.Fluid

/-- values at one node (`kd`, `J…`, `JJ…`: the Kronecker delta and the two Jacobian functions at the pair of nodes) read by Src/Main/Modules/Physics/StressEnergy_Tensor/Tij_NS_ifluid_xcts_gConf_u0.c, Src/Main/Modules/Physics/StressEnergy_Tensor/Tij_NS_ifluid_xcts_gConf_enthalpy.c, Src/Main/Modules/Physics/StressEnergy_Tensor/Tij_NS_ifluid_xcts_gConf_psi6E.c, Src/Main/Modules/Physics/StressEnergy_Tensor/Tij_NS_ifluid_xcts_gConf_psi6J_Ui.c, Src/Main/Modules/Physics/StressEnergy_Tensor/Tij_NS_ifluid_xcts_gConf_psi6S.c, Src/Main/Modules/Physics/Star/star_NS_Euler_eq_const_current.c, Src/Main/Modules/Physics/Star/star_NS_baryonic_gConf_mass.c, Src/Main/Modules/Physics/Star/star_NS_ifluid_gConf_dLnGamma.c, Src/Main/Modules/Physics/Star/star_NS_ifluid_gConf_force_bal.c -/
structure In where
  alphaPsi : ℝ
  psi : ℝ
  W_U : Fin 3 → ℝ
  dphi_D : Fin 3 → ℝ
  gConf_DD : Fin 3 → Fin 3 → ℝ
  igConf_UU : Fin 3 → Fin 3 → ℝ
  enthalpy : ℝ
  beta_U : Fin 3 → ℝ
  Euler_C : ℝ
  rho0 : ℝ
  u0 : ℝ
  eos_p : ℝ
  e0 : ℝ
  eos_e0 : ℝ
  Omega : ℝ
  y0 : ℝ
  y_CM : ℝ
  Vr : ℝ
  x0 : ℝ
  x_CM : ℝ
  D : ℝ
  B0_U : Fin 3 → ℝ

end Elliptica.Gen.Fluid

namespace Elliptica.Gen.Fluid.U0

/-- Tij_NS_ifluid_xcts_gConf_u0.c:42-43 -/
noncomputable def alpha (x : In) : ℝ :=
  x.alphaPsi / x.psi

/-- Tij_NS_ifluid_xcts_gConf_u0.c:45-46 -/
noncomputable def psim4 (x : In) : ℝ :=
  (x.psi ^ 4)⁻¹

/-- Tij_NS_ifluid_xcts_gConf_u0.c:48-49 -/
noncomputable def psi4 (x : In) : ℝ :=
  x.psi ^ 4

/-- Tij_NS_ifluid_xcts_gConf_u0.c:51-60 -/
noncomputable def P2 (x : In) : ℝ :=
  2 * x.W_U 0 * x.dphi_D 0 + 2 * x.W_U 1 * x.dphi_D 1 + 2 * x.W_U 2 * x.dphi_D 2 + psi4 x * ((x.W_U 0) ^ 2 * x.gConf_DD 0 0 + 2
      * x.W_U 0 * x.W_U 1 * x.gConf_DD 0 1 + 2 * x.W_U 0 * x.W_U 2 * x.gConf_DD 0 2 + (x.W_U 1) ^ 2 * x.gConf_DD 1 1 + 2 *
      x.W_U 1 * x.W_U 2 * x.gConf_DD 1 2 + (x.W_U 2) ^ 2 * x.gConf_DD 2 2) + psim4 x * ((x.dphi_D 0) ^ 2 * x.igConf_UU 0 0 + 2
      * x.dphi_D 0 * x.dphi_D 1 * x.igConf_UU 0 1 + 2 * x.dphi_D 0 * x.dphi_D 2 * x.igConf_UU 0 2 + (x.dphi_D 1) ^ 2 *
      x.igConf_UU 1 1 + 2 * x.dphi_D 1 * x.dphi_D 2 * x.igConf_UU 1 2 + (x.dphi_D 2) ^ 2 * x.igConf_UU 2 2)

/-- Tij_NS_ifluid_xcts_gConf_u0.c:62-63 -/
noncomputable def u_mu0 (x : In) : ℝ :=
  Real.sqrt (P2 x + x.enthalpy ^ 2) / (alpha x * x.enthalpy)

/-- Tij_NS_ifluid_xcts_gConf_u0.c:65 the value written to u0 -/
noncomputable def out_u0 (x : In) : ℝ :=
  u_mu0 x

end Elliptica.Gen.Fluid.U0

namespace Elliptica.Gen.Fluid.Enth

/-- Tij_NS_ifluid_xcts_gConf_enthalpy.c:44-45 -/
noncomputable def alpha (x : In) : ℝ :=
  x.alphaPsi / x.psi

/-- Tij_NS_ifluid_xcts_gConf_enthalpy.c:47-48 -/
noncomputable def psim4 (x : In) : ℝ :=
  (x.psi ^ 4)⁻¹

/-- Tij_NS_ifluid_xcts_gConf_enthalpy.c:50-51 -/
noncomputable def psi4 (x : In) : ℝ :=
  x.psi ^ 4

/-- Tij_NS_ifluid_xcts_gConf_enthalpy.c:53-62 -/
noncomputable def P2 (x : In) : ℝ :=
  2 * x.W_U 0 * x.dphi_D 0 + 2 * x.W_U 1 * x.dphi_D 1 + 2 * x.W_U 2 * x.dphi_D 2 + psi4 x * ((x.W_U 0) ^ 2 * x.gConf_DD 0 0 + 2
      * x.W_U 0 * x.W_U 1 * x.gConf_DD 0 1 + 2 * x.W_U 0 * x.W_U 2 * x.gConf_DD 0 2 + (x.W_U 1) ^ 2 * x.gConf_DD 1 1 + 2 *
      x.W_U 1 * x.W_U 2 * x.gConf_DD 1 2 + (x.W_U 2) ^ 2 * x.gConf_DD 2 2) + psim4 x * ((x.dphi_D 0) ^ 2 * x.igConf_UU 0 0 + 2
      * x.dphi_D 0 * x.dphi_D 1 * x.igConf_UU 0 1 + 2 * x.dphi_D 0 * x.dphi_D 2 * x.igConf_UU 0 2 + (x.dphi_D 1) ^ 2 *
      x.igConf_UU 1 1 + 2 * x.dphi_D 1 * x.dphi_D 2 * x.igConf_UU 1 2 + (x.dphi_D 2) ^ 2 * x.igConf_UU 2 2)

/-- Tij_NS_ifluid_xcts_gConf_enthalpy.c:64-69 -/
noncomputable def uW (x : In) : ℝ :=
  x.W_U 0 * x.dphi_D 0 + x.W_U 1 * x.dphi_D 1 + x.W_U 2 * x.dphi_D 2 + psi4 x * ((x.W_U 0) ^ 2 * x.gConf_DD 0 0 + 2 * x.W_U 0 *
      x.W_U 1 * x.gConf_DD 0 1 + 2 * x.W_U 0 * x.W_U 2 * x.gConf_DD 0 2 + (x.W_U 1) ^ 2 * x.gConf_DD 1 1 + 2 * x.W_U 1 * x.W_U
      2 * x.gConf_DD 1 2 + (x.W_U 2) ^ 2 * x.gConf_DD 2 2)

/-- Tij_NS_ifluid_xcts_gConf_enthalpy.c:71-73 -/
noncomputable def Bdphi (x : In) : ℝ :=
  x.beta_U 0 * x.dphi_D 0 + x.beta_U 1 * x.dphi_D 1 + x.beta_U 2 * x.dphi_D 2

/-- Tij_NS_ifluid_xcts_gConf_enthalpy.c:75-76 -/
noncomputable def b (x : In) : ℝ :=
  2 * (alpha x) ^ 2 * uW x + (Bdphi x - x.Euler_C) ^ 2

/-- Tij_NS_ifluid_xcts_gConf_enthalpy.c:78-80 -/
noncomputable def L2 (x : In) : ℝ :=
  (1 / 2) * (b x + Real.sqrt (-4 * (alpha x) ^ 4 * (uW x) ^ 2 + (b x) ^ 2)) / (alpha x) ^ 2

/-- Tij_NS_ifluid_xcts_gConf_enthalpy.c:82-83 -/
noncomputable def h2 (x : In) : ℝ :=
  L2 x - P2 x

/-- Tij_NS_ifluid_xcts_gConf_enthalpy.c:85-86 -/
noncomputable def h (x : In) : ℝ :=
  Real.sqrt (h2 x)

end Elliptica.Gen.Fluid.Enth

namespace Elliptica.Gen.Fluid.E

/-- Tij_NS_ifluid_xcts_gConf_psi6E.c:25-26 -/
noncomputable def alpha (x : In) : ℝ :=
  x.alphaPsi / x.psi

/-- Tij_NS_ifluid_xcts_gConf_psi6E.c:28-29 -/
noncomputable def psi6 (x : In) : ℝ :=
  x.psi ^ 6

/-- Tij_NS_ifluid_xcts_gConf_psi6E.c:31-33 -/
noncomputable def Ebar (x : In) : ℝ :=
  psi6 x * ((alpha x) ^ 2 * x.enthalpy * x.rho0 * x.u0 ^ 2 - x.eos_p)

/-- Tij_NS_ifluid_xcts_gConf_psi6E.c:36-37 -/
noncomputable def p_o_rho0 (x : In) : ℝ :=
  -x.e0 + x.enthalpy - 1

/-- Tij_NS_ifluid_xcts_gConf_psi6E.c:39-41 -/
noncomputable def EbarP (x : In) : ℝ :=
  x.eos_p * psi6 x * ((alpha x) ^ 2 * x.enthalpy * x.u0 ^ 2 - p_o_rho0 x)

/-- Tij_NS_ifluid_xcts_gConf_psi6E.c:35 the value written to EConf -/
noncomputable def out_EConf (x : In) : ℝ :=
  Ebar x

/-- Tij_NS_ifluid_xcts_gConf_psi6E.c:43 the value written to EConfP -/
noncomputable def out_EConfP (x : In) : ℝ :=
  EbarP x

/-- Tij_NS_ifluid_xcts_gConf_psi6E.c:44 the value written to EConfC -/
noncomputable def out_EConfC (x : In) : ℝ :=
  p_o_rho0 x

end Elliptica.Gen.Fluid.E

namespace Elliptica.Gen.Fluid.J

/-- Tij_NS_ifluid_xcts_gConf_psi6J_Ui.c:41-42 -/
noncomputable def alpha (x : In) : ℝ :=
  x.alphaPsi / x.psi

/-- Tij_NS_ifluid_xcts_gConf_psi6J_Ui.c:44-45 -/
noncomputable def psim4 (x : In) : ℝ :=
  (x.psi ^ 4)⁻¹

/-- Tij_NS_ifluid_xcts_gConf_psi6J_Ui.c:47-48 -/
noncomputable def psi6 (x : In) : ℝ :=
  x.psi ^ 6

/-- Tij_NS_ifluid_xcts_gConf_psi6J_Ui.c:50-53 -/
noncomputable def j_u_U0 (x : In) : ℝ :=
  alpha x * psi6 x * x.rho0 * x.u0 * (x.W_U 0 + psim4 x * (x.dphi_D 0 * x.igConf_UU 0 0 + x.dphi_D 1 * x.igConf_UU 0 1 +
      x.dphi_D 2 * x.igConf_UU 0 2))

/-- Tij_NS_ifluid_xcts_gConf_psi6J_Ui.c:55-58 -/
noncomputable def j_u_U1 (x : In) : ℝ :=
  alpha x * psi6 x * x.rho0 * x.u0 * (x.W_U 1 + psim4 x * (x.dphi_D 0 * x.igConf_UU 0 1 + x.dphi_D 1 * x.igConf_UU 1 1 +
      x.dphi_D 2 * x.igConf_UU 1 2))

/-- Tij_NS_ifluid_xcts_gConf_psi6J_Ui.c:60-63 -/
noncomputable def j_u_U2 (x : In) : ℝ :=
  alpha x * psi6 x * x.rho0 * x.u0 * (x.W_U 2 + psim4 x * (x.dphi_D 0 * x.igConf_UU 0 2 + x.dphi_D 1 * x.igConf_UU 1 2 +
      x.dphi_D 2 * x.igConf_UU 2 2))

/-- Tij_NS_ifluid_xcts_gConf_psi6J_Ui.c:69 -/
noncomputable def p_o_rho0 (x : In) : ℝ :=
  x.enthalpy - 1 - x.eos_e0

/-- Tij_NS_ifluid_xcts_gConf_psi6J_Ui.c:70-72 -/
noncomputable def jp_u_U0 (x : In) : ℝ :=
  alpha x * x.eos_p * psi6 x * x.u0 * (x.W_U 0 + psim4 x * (x.dphi_D 0 * x.igConf_UU 0 0 + x.dphi_D 1 * x.igConf_UU 0 1 +
      x.dphi_D 2 * x.igConf_UU 0 2))

/-- Tij_NS_ifluid_xcts_gConf_psi6J_Ui.c:74-76 -/
noncomputable def jp_u_U1 (x : In) : ℝ :=
  alpha x * x.eos_p * psi6 x * x.u0 * (x.W_U 1 + psim4 x * (x.dphi_D 0 * x.igConf_UU 0 1 + x.dphi_D 1 * x.igConf_UU 1 1 +
      x.dphi_D 2 * x.igConf_UU 1 2))

/-- Tij_NS_ifluid_xcts_gConf_psi6J_Ui.c:78-80 -/
noncomputable def jp_u_U2 (x : In) : ℝ :=
  alpha x * x.eos_p * psi6 x * x.u0 * (x.W_U 2 + psim4 x * (x.dphi_D 0 * x.igConf_UU 0 2 + x.dphi_D 1 * x.igConf_UU 1 2 +
      x.dphi_D 2 * x.igConf_UU 2 2))

/-- Tij_NS_ifluid_xcts_gConf_psi6J_Ui.c:66-68 the values written to JConf_U; `none`: not stored -/
noncomputable def out_JConf_U (x : In) : Fin 3 → Option ℝ
  | 0 => some (j_u_U0 x)
  | 1 => some (j_u_U1 x)
  | 2 => some (j_u_U2 x)

/-- Tij_NS_ifluid_xcts_gConf_psi6J_Ui.c:83-85 the values written to JConfP_U; `none`: not stored -/
noncomputable def out_JConfP_U (x : In) : Fin 3 → Option ℝ
  | 0 => some (jp_u_U0 x)
  | 1 => some (jp_u_U1 x)
  | 2 => some (jp_u_U2 x)

/-- Tij_NS_ifluid_xcts_gConf_psi6J_Ui.c:86 the value written to JConfC -/
noncomputable def out_JConfC (x : In) : ℝ :=
  p_o_rho0 x

end Elliptica.Gen.Fluid.J

namespace Elliptica.Gen.Fluid.S

/-- Tij_NS_ifluid_xcts_gConf_psi6S.c:41-42 -/
noncomputable def psim4 (x : In) : ℝ :=
  (x.psi ^ 4)⁻¹

/-- Tij_NS_ifluid_xcts_gConf_psi6S.c:44-45 -/
noncomputable def psi4 (x : In) : ℝ :=
  x.psi ^ 4

/-- Tij_NS_ifluid_xcts_gConf_psi6S.c:47-48 -/
noncomputable def psi6 (x : In) : ℝ :=
  x.psi ^ 6

/-- Tij_NS_ifluid_xcts_gConf_psi6S.c:50-59 -/
noncomputable def P2 (x : In) : ℝ :=
  2 * x.W_U 0 * x.dphi_D 0 + 2 * x.W_U 1 * x.dphi_D 1 + 2 * x.W_U 2 * x.dphi_D 2 + psi4 x * ((x.W_U 0) ^ 2 * x.gConf_DD 0 0 + 2
      * x.W_U 0 * x.W_U 1 * x.gConf_DD 0 1 + 2 * x.W_U 0 * x.W_U 2 * x.gConf_DD 0 2 + (x.W_U 1) ^ 2 * x.gConf_DD 1 1 + 2 *
      x.W_U 1 * x.W_U 2 * x.gConf_DD 1 2 + (x.W_U 2) ^ 2 * x.gConf_DD 2 2) + psim4 x * ((x.dphi_D 0) ^ 2 * x.igConf_UU 0 0 + 2
      * x.dphi_D 0 * x.dphi_D 1 * x.igConf_UU 0 1 + 2 * x.dphi_D 0 * x.dphi_D 2 * x.igConf_UU 0 2 + (x.dphi_D 1) ^ 2 *
      x.igConf_UU 1 1 + 2 * x.dphi_D 1 * x.dphi_D 2 * x.igConf_UU 1 2 + (x.dphi_D 2) ^ 2 * x.igConf_UU 2 2)

/-- Tij_NS_ifluid_xcts_gConf_psi6S.c:61-62 -/
noncomputable def Sbar (x : In) : ℝ :=
  psi6 x * (P2 x * x.rho0 / x.enthalpy + 3 * x.eos_p)

/-- Tij_NS_ifluid_xcts_gConf_psi6S.c:65 -/
noncomputable def p_o_rho0 (x : In) : ℝ :=
  x.enthalpy - 1 - x.eos_e0

/-- Tij_NS_ifluid_xcts_gConf_psi6S.c:66-67 -/
noncomputable def SbarP (x : In) : ℝ :=
  x.eos_p * psi6 x * (P2 x / x.enthalpy + 3 * p_o_rho0 x)

/-- Tij_NS_ifluid_xcts_gConf_psi6S.c:64 the value written to SConf -/
noncomputable def out_SConf (x : In) : ℝ :=
  Sbar x

/-- Tij_NS_ifluid_xcts_gConf_psi6S.c:69 the value written to SConfP -/
noncomputable def out_SConfP (x : In) : ℝ :=
  SbarP x

/-- Tij_NS_ifluid_xcts_gConf_psi6S.c:70 the value written to SConfC -/
noncomputable def out_SConfC (x : In) : ℝ :=
  p_o_rho0 x

end Elliptica.Gen.Fluid.S

namespace Elliptica.Gen.Fluid.Euler

/-- star_NS_Euler_eq_const_current.c:51-52 -/
noncomputable def psim4 (x : In) : ℝ :=
  (x.psi ^ 4)⁻¹

/-- star_NS_Euler_eq_const_current.c:54-60 -/
noncomputable def dphiP (x : In) : ℝ :=
  x.W_U 0 * x.dphi_D 0 + x.W_U 1 * x.dphi_D 1 + x.W_U 2 * x.dphi_D 2 + psim4 x * ((x.dphi_D 0) ^ 2 * x.igConf_UU 0 0 + 2 *
      x.dphi_D 0 * x.dphi_D 1 * x.igConf_UU 0 1 + 2 * x.dphi_D 0 * x.dphi_D 2 * x.igConf_UU 0 2 + (x.dphi_D 1) ^ 2 *
      x.igConf_UU 1 1 + 2 * x.dphi_D 1 * x.dphi_D 2 * x.igConf_UU 1 2 + (x.dphi_D 2) ^ 2 * x.igConf_UU 2 2)

/-- star_NS_Euler_eq_const_current.c:62-65 -/
noncomputable def Euler_C (x : In) : ℝ :=
  (-dphiP x - x.enthalpy ^ 2 + x.enthalpy * x.u0 * (x.beta_U 0 * x.dphi_D 0 + x.beta_U 1 * x.dphi_D 1 + x.beta_U 2 * x.dphi_D
      2)) / (x.enthalpy * x.u0)

end Elliptica.Gen.Fluid.Euler

namespace Elliptica.Gen.Fluid.Mass

/-- star_NS_baryonic_gConf_mass.c:49-50 -/
noncomputable def alpha (x : In) : ℝ :=
  x.alphaPsi / x.psi

/-- star_NS_baryonic_gConf_mass.c:52-53 -/
noncomputable def psim4 (x : In) : ℝ :=
  (x.psi ^ 4)⁻¹

/-- star_NS_baryonic_gConf_mass.c:55-56 -/
noncomputable def psi4 (x : In) : ℝ :=
  x.psi ^ 4

/-- star_NS_baryonic_gConf_mass.c:58-59 -/
noncomputable def psi6 (x : In) : ℝ :=
  x.psi ^ 6

/-- star_NS_baryonic_gConf_mass.c:61-70 -/
noncomputable def P2 (x : In) : ℝ :=
  2 * x.W_U 0 * x.dphi_D 0 + 2 * x.W_U 1 * x.dphi_D 1 + 2 * x.W_U 2 * x.dphi_D 2 + psi4 x * ((x.W_U 0) ^ 2 * x.gConf_DD 0 0 + 2
      * x.W_U 0 * x.W_U 1 * x.gConf_DD 0 1 + 2 * x.W_U 0 * x.W_U 2 * x.gConf_DD 0 2 + (x.W_U 1) ^ 2 * x.gConf_DD 1 1 + 2 *
      x.W_U 1 * x.W_U 2 * x.gConf_DD 1 2 + (x.W_U 2) ^ 2 * x.gConf_DD 2 2) + psim4 x * ((x.dphi_D 0) ^ 2 * x.igConf_UU 0 0 + 2
      * x.dphi_D 0 * x.dphi_D 1 * x.igConf_UU 0 1 + 2 * x.dphi_D 0 * x.dphi_D 2 * x.igConf_UU 0 2 + (x.dphi_D 1) ^ 2 *
      x.igConf_UU 1 1 + 2 * x.dphi_D 1 * x.dphi_D 2 * x.igConf_UU 1 2 + (x.dphi_D 2) ^ 2 * x.igConf_UU 2 2)

/-- star_NS_baryonic_gConf_mass.c:72-77 -/
noncomputable def uW (x : In) : ℝ :=
  x.W_U 0 * x.dphi_D 0 + x.W_U 1 * x.dphi_D 1 + x.W_U 2 * x.dphi_D 2 + psi4 x * ((x.W_U 0) ^ 2 * x.gConf_DD 0 0 + 2 * x.W_U 0 *
      x.W_U 1 * x.gConf_DD 0 1 + 2 * x.W_U 0 * x.W_U 2 * x.gConf_DD 0 2 + (x.W_U 1) ^ 2 * x.gConf_DD 1 1 + 2 * x.W_U 1 * x.W_U
      2 * x.gConf_DD 1 2 + (x.W_U 2) ^ 2 * x.gConf_DD 2 2)

/-- star_NS_baryonic_gConf_mass.c:79-81 -/
noncomputable def Bdphi (x : In) : ℝ :=
  x.beta_U 0 * x.dphi_D 0 + x.beta_U 1 * x.dphi_D 1 + x.beta_U 2 * x.dphi_D 2

/-- star_NS_baryonic_gConf_mass.c:83-84 -/
noncomputable def b (x : In) : ℝ :=
  2 * (alpha x) ^ 2 * uW x + (Bdphi x - x.Euler_C) ^ 2

/-- star_NS_baryonic_gConf_mass.c:86-88 -/
noncomputable def L2 (x : In) : ℝ :=
  (1 / 2) * (b x + Real.sqrt (-4 * (alpha x) ^ 4 * (uW x) ^ 2 + (b x) ^ 2)) / (alpha x) ^ 2

/-- star_NS_baryonic_gConf_mass.c:90-91 -/
noncomputable def h2 (x : In) : ℝ :=
  L2 x - P2 x

/-- star_NS_baryonic_gConf_mass.c:93-94 -/
noncomputable def h (x : In) : ℝ :=
  Real.sqrt (h2 x)

/-- star_NS_baryonic_gConf_mass.c:96-97 -/
noncomputable def u0 (x : In) : ℝ :=
  Real.sqrt (L2 x) / (alpha x * h x)

end Elliptica.Gen.Fluid.Mass

namespace Elliptica.Gen.Fluid.DLnGamma

/-- star_NS_ifluid_gConf_dLnGamma.c:43-44 -/
noncomputable def alpha (x : In) : ℝ :=
  x.alphaPsi / x.psi

/-- star_NS_ifluid_gConf_dLnGamma.c:46-47 -/
noncomputable def alpha2 (x : In) : ℝ :=
  (alpha x) ^ 2

/-- star_NS_ifluid_gConf_dLnGamma.c:49-50 -/
noncomputable def psi4 (x : In) : ℝ :=
  x.psi ^ 4

/-- star_NS_ifluid_gConf_dLnGamma.c:52-53 -/
noncomputable def t_U0 (x : In) : ℝ :=
  x.W_U 0 / (x.enthalpy * x.u0) + x.beta_U 0

/-- star_NS_ifluid_gConf_dLnGamma.c:55-56 -/
noncomputable def t_U1 (x : In) : ℝ :=
  x.W_U 1 / (x.enthalpy * x.u0) + x.beta_U 1

/-- star_NS_ifluid_gConf_dLnGamma.c:58-59 -/
noncomputable def t_U2 (x : In) : ℝ :=
  x.W_U 2 / (x.enthalpy * x.u0) + x.beta_U 2

/-- star_NS_ifluid_gConf_dLnGamma.c:61-64 -/
noncomputable def t2 (x : In) : ℝ :=
  psi4 x * (x.gConf_DD 0 0 * (t_U0 x) ^ 2 + 2 * x.gConf_DD 0 1 * t_U0 x * t_U1 x + 2 * x.gConf_DD 0 2 * t_U0 x * t_U2 x +
      x.gConf_DD 1 1 * (t_U1 x) ^ 2 + 2 * x.gConf_DD 1 2 * t_U1 x * t_U2 x + x.gConf_DD 2 2 * (t_U2 x) ^ 2)

/-- star_NS_ifluid_gConf_dLnGamma.c:66-72 -/
noncomputable def v (x : In) : ℝ :=
  (x.dphi_D 0 * t_U0 x + x.dphi_D 1 * t_U1 x + x.dphi_D 2 * t_U2 x) / (alpha2 x * x.enthalpy * x.u0) + psi4 x * ((x.W_U 0) ^ 2
      * x.gConf_DD 0 0 + 2 * x.W_U 0 * x.W_U 1 * x.gConf_DD 0 1 + 2 * x.W_U 0 * x.W_U 2 * x.gConf_DD 0 2 + (x.W_U 1) ^ 2 *
      x.gConf_DD 1 1 + 2 * x.W_U 1 * x.W_U 2 * x.gConf_DD 1 2 + (x.W_U 2) ^ 2 * x.gConf_DD 2 2) / ((alpha x) ^ 2 * x.enthalpy ^
      2 * x.u0 ^ 2)

/-- star_NS_ifluid_gConf_dLnGamma.c:74-75 -/
noncomputable def G (x : In) : ℝ :=
  -alpha x * x.u0 * (Real.sqrt ((alpha2 x - t2 x) / alpha2 x))⁻¹ * (v x - 1)

end Elliptica.Gen.Fluid.DLnGamma

namespace Elliptica.Gen.Fluid.Force

/-- star_NS_ifluid_gConf_force_bal.c:76 -/
noncomputable def B1_U0 (x : In) : ℝ :=
  x.Omega * (-x.y0 + x.y_CM) + x.Vr * (x.x0 - x.x_CM) / x.D

/-- star_NS_ifluid_gConf_force_bal.c:77 -/
noncomputable def B1_U1 (x : In) : ℝ :=
  x.Omega * (x.x0 - x.x_CM) + x.Vr * (x.y0 - x.y_CM) / x.D

/-- star_NS_ifluid_gConf_force_bal.c:78 -/
noncomputable def B1_U2 (x : In) : ℝ :=
  0

/-- star_NS_ifluid_gConf_force_bal.c:79-80 -/
noncomputable def beta_U1 (x : In) : ℝ :=
  x.B0_U 1 + B1_U1 x

/-- star_NS_ifluid_gConf_force_bal.c:82-83 -/
noncomputable def beta_U0 (x : In) : ℝ :=
  x.B0_U 0 + B1_U0 x

/-- star_NS_ifluid_gConf_force_bal.c:85-86 -/
noncomputable def beta_U2 (x : In) : ℝ :=
  x.B0_U 2 + B1_U2 x

/-- star_NS_ifluid_gConf_force_bal.c:88-89 -/
noncomputable def alpha (x : In) : ℝ :=
  x.alphaPsi / x.psi

/-- star_NS_ifluid_gConf_force_bal.c:91-92 -/
noncomputable def alpha2 (x : In) : ℝ :=
  (alpha x) ^ 2

/-- star_NS_ifluid_gConf_force_bal.c:94-95 -/
noncomputable def psi4 (x : In) : ℝ :=
  x.psi ^ 4

/-- star_NS_ifluid_gConf_force_bal.c:97-98 -/
noncomputable def t_U0 (x : In) : ℝ :=
  x.W_U 0 / (x.enthalpy * x.u0) + beta_U0 x

/-- star_NS_ifluid_gConf_force_bal.c:100-101 -/
noncomputable def t_U1 (x : In) : ℝ :=
  x.W_U 1 / (x.enthalpy * x.u0) + beta_U1 x

/-- star_NS_ifluid_gConf_force_bal.c:103-104 -/
noncomputable def t_U2 (x : In) : ℝ :=
  x.W_U 2 / (x.enthalpy * x.u0) + beta_U2 x

/-- star_NS_ifluid_gConf_force_bal.c:106-109 -/
noncomputable def t2 (x : In) : ℝ :=
  psi4 x * (x.gConf_DD 0 0 * (t_U0 x) ^ 2 + 2 * x.gConf_DD 0 1 * t_U0 x * t_U1 x + 2 * x.gConf_DD 0 2 * t_U0 x * t_U2 x +
      x.gConf_DD 1 1 * (t_U1 x) ^ 2 + 2 * x.gConf_DD 1 2 * t_U1 x * t_U2 x + x.gConf_DD 2 2 * (t_U2 x) ^ 2)

/-- star_NS_ifluid_gConf_force_bal.c:111-112 -/
noncomputable def Gtilda (x : In) : ℝ :=
  alpha2 x - t2 x

end Elliptica.Gen.Fluid.Force
