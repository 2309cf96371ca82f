import Mathlib.Analysis.Real.Sqrt
import Mathlib.Analysis.SpecialFunctions.Trigonometric.Basic
/-!
Generated by /verif/tools/gen_tensor.py from Src/Main/Modules/Physics/Equation/eq_XCTS_crv_T1_ddm_eq_phi.c, Src/Main/Modules/Physics/Equation/eq_XCTS_crv_T1_ddm_Jac_eq_phi.c, Src/Main/Modules/Physics/Equation/eq_XCTS_crv_T1_ddm_bc_phi.c, Src/Main/Modules/Physics/Equation/eq_XCTS_crv_T1_ddm_Jac_bc_phi.c, Src/Main/Modules/Physics/Equation/eq_XCTS_crv_T2_ddm_eq_phi.c, Src/Main/Modules/Physics/Equation/eq_XCTS_crv_T3_ddm_bc_phi.c, Src/Main/Modules/Physics/Equation/eq_XCTS_crv_T3_ddm_Jac_bc_phi.c: the arithmetic done at one node, over `ℝ`;
rounding is not modelled, neither that of the operations nor that of decimal literals such as 0.66666666666666663 (= 2/3).
-/
set_option linter.style.longLine false
set_option linter.unusedVariables false

namespace Elliptica.Gen.Phi

/-- values at one node (`kd`, `J…`, `JJ…`: the Kronecker delta and the two Jacobian functions at the pair of nodes) read by Src/Main/Modules/Physics/Equation/eq_XCTS_crv_T1_ddm_eq_phi.c, Src/Main/Modules/Physics/Equation/eq_XCTS_crv_T1_ddm_Jac_eq_phi.c, Src/Main/Modules/Physics/Equation/eq_XCTS_crv_T1_ddm_bc_phi.c, Src/Main/Modules/Physics/Equation/eq_XCTS_crv_T1_ddm_Jac_bc_phi.c, Src/Main/Modules/Physics/Equation/eq_XCTS_crv_T2_ddm_eq_phi.c, Src/Main/Modules/Physics/Equation/eq_XCTS_crv_T3_ddm_bc_phi.c, Src/Main/Modules/Physics/Equation/eq_XCTS_crv_T3_ddm_Jac_bc_phi.c -/
structure In where
  e : ℝ
  rhoc : ℝ
  dpsi_D : Fin 3 → ℝ
  psi : ℝ
  dalphaPsi_D : Fin 3 → ℝ
  alphaPsi : ℝ
  denthalpy_D : Fin 3 → ℝ
  enthalpy : ℝ
  du0_D : Fin 3 → ℝ
  u0 : ℝ
  rho0 : ℝ
  trK : ℝ
  ddphi_DD : Fin 3 → Fin 3 → ℝ
  igConf_UU : Fin 3 → Fin 3 → ℝ
  ChrisConf_UDD : Fin 3 → Fin 3 → Fin 3 → ℝ
  dphi_D : Fin 3 → ℝ
  W_U : Fin 3 → ℝ
  beta_U : Fin 3 → ℝ
  drho0_D : Fin 3 → ℝ
  JJphi_DD : Fin 3 → Fin 3 → ℝ
  Jphi_D : Fin 3 → ℝ
  dbeta_UD : Fin 3 → Fin 3 → ℝ
  gConf_DD : Fin 3 → Fin 3 → ℝ
  n_U : Fin 3 → ℝ

end Elliptica.Gen.Phi

namespace Elliptica.Gen.Phi.Eq

/-- eq_XCTS_crv_T1_ddm_eq_phi.c:81 -/
noncomputable def att (x : In) : ℝ :=
  x.e * x.rhoc

/-- eq_XCTS_crv_T1_ddm_eq_phi.c:84-85 -/
noncomputable def dLn_of_psi_U0 (x : In) : ℝ :=
  x.dpsi_D 0 / x.psi

/-- eq_XCTS_crv_T1_ddm_eq_phi.c:87-88 -/
noncomputable def dLn_of_psi_U1 (x : In) : ℝ :=
  x.dpsi_D 1 / x.psi

/-- eq_XCTS_crv_T1_ddm_eq_phi.c:90-91 -/
noncomputable def dLn_of_psi_U2 (x : In) : ℝ :=
  x.dpsi_D 2 / x.psi

/-- eq_XCTS_crv_T1_ddm_eq_phi.c:93-94 -/
noncomputable def dLn_of_alpha_U0 (x : In) : ℝ :=
  -dLn_of_psi_U0 x + x.dalphaPsi_D 0 / x.alphaPsi

/-- eq_XCTS_crv_T1_ddm_eq_phi.c:96-97 -/
noncomputable def dLn_of_alpha_U1 (x : In) : ℝ :=
  -dLn_of_psi_U1 x + x.dalphaPsi_D 1 / x.alphaPsi

/-- eq_XCTS_crv_T1_ddm_eq_phi.c:99-100 -/
noncomputable def dLn_of_alpha_U2 (x : In) : ℝ :=
  -dLn_of_psi_U2 x + x.dalphaPsi_D 2 / x.alphaPsi

/-- eq_XCTS_crv_T1_ddm_eq_phi.c:102-103 -/
noncomputable def dLn_of_enthalpy_U0 (x : In) : ℝ :=
  x.denthalpy_D 0 / x.enthalpy

/-- eq_XCTS_crv_T1_ddm_eq_phi.c:105-106 -/
noncomputable def dLn_of_enthalpy_U1 (x : In) : ℝ :=
  x.denthalpy_D 1 / x.enthalpy

/-- eq_XCTS_crv_T1_ddm_eq_phi.c:108-109 -/
noncomputable def dLn_of_enthalpy_U2 (x : In) : ℝ :=
  x.denthalpy_D 2 / x.enthalpy

/-- eq_XCTS_crv_T1_ddm_eq_phi.c:111-112 -/
noncomputable def dLn_of_u0_U0 (x : In) : ℝ :=
  x.du0_D 0 / x.u0

/-- eq_XCTS_crv_T1_ddm_eq_phi.c:114-115 -/
noncomputable def dLn_of_u0_U1 (x : In) : ℝ :=
  x.du0_D 1 / x.u0

/-- eq_XCTS_crv_T1_ddm_eq_phi.c:117-118 -/
noncomputable def dLn_of_u0_U2 (x : In) : ℝ :=
  x.du0_D 2 / x.u0

/-- eq_XCTS_crv_T1_ddm_eq_phi.c:120-121 -/
noncomputable def psi4 (x : In) : ℝ :=
  x.psi ^ 4

/-- eq_XCTS_crv_T1_ddm_eq_phi.c:123-124 -/
noncomputable def alpha (x : In) : ℝ :=
  x.alphaPsi / x.psi

/-- eq_XCTS_crv_T1_ddm_eq_phi.c:126-127 -/
noncomputable def polish (x : In) : ℝ :=
  att x * (x.rho0 / x.rhoc - 1) ^ 4

/-- eq_XCTS_crv_T1_ddm_eq_phi.c:129-130 -/
noncomputable def hxu0xpsi4 (x : In) : ℝ :=
  x.enthalpy * psi4 x * x.u0

/-- eq_XCTS_crv_T1_ddm_eq_phi.c:132-133 -/
noncomputable def DiBi (x : In) : ℝ :=
  alpha x * x.trK

/-- eq_XCTS_crv_T1_ddm_eq_phi.c:135-139 -/
noncomputable def t0 (x : In) : ℝ :=
  x.ddphi_DD 0 0 * x.igConf_UU 0 0 + 2 * x.ddphi_DD 0 1 * x.igConf_UU 0 1 + 2 * x.ddphi_DD 0 2 * x.igConf_UU 0 2 + x.ddphi_DD 1
      1 * x.igConf_UU 1 1 + 2 * x.ddphi_DD 1 2 * x.igConf_UU 1 2 + x.ddphi_DD 2 2 * x.igConf_UU 2 2

/-- eq_XCTS_crv_T1_ddm_eq_phi.c:141-159 -/
noncomputable def t1 (x : In) : ℝ :=
  -x.ChrisConf_UDD 0 0 0 * x.dphi_D 0 * x.igConf_UU 0 0 - 2 * x.ChrisConf_UDD 0 0 1 * x.dphi_D 0 * x.igConf_UU 0 1 - 2 *
      x.ChrisConf_UDD 0 0 2 * x.dphi_D 0 * x.igConf_UU 0 2 - x.ChrisConf_UDD 0 1 1 * x.dphi_D 0 * x.igConf_UU 1 1 - 2 *
      x.ChrisConf_UDD 0 1 2 * x.dphi_D 0 * x.igConf_UU 1 2 - x.ChrisConf_UDD 0 2 2 * x.dphi_D 0 * x.igConf_UU 2 2 -
      x.ChrisConf_UDD 1 0 0 * x.dphi_D 1 * x.igConf_UU 0 0 - 2 * x.ChrisConf_UDD 1 0 1 * x.dphi_D 1 * x.igConf_UU 0 1 - 2 *
      x.ChrisConf_UDD 1 0 2 * x.dphi_D 1 * x.igConf_UU 0 2 - x.ChrisConf_UDD 1 1 1 * x.dphi_D 1 * x.igConf_UU 1 1 - 2 *
      x.ChrisConf_UDD 1 1 2 * x.dphi_D 1 * x.igConf_UU 1 2 - x.ChrisConf_UDD 1 2 2 * x.dphi_D 1 * x.igConf_UU 2 2 -
      x.ChrisConf_UDD 2 0 0 * x.dphi_D 2 * x.igConf_UU 0 0 - 2 * x.ChrisConf_UDD 2 0 1 * x.dphi_D 2 * x.igConf_UU 0 1 - 2 *
      x.ChrisConf_UDD 2 0 2 * x.dphi_D 2 * x.igConf_UU 0 2 - x.ChrisConf_UDD 2 1 1 * x.dphi_D 2 * x.igConf_UU 1 1 - 2 *
      x.ChrisConf_UDD 2 1 2 * x.dphi_D 2 * x.igConf_UU 1 2 - x.ChrisConf_UDD 2 2 2 * x.dphi_D 2 * x.igConf_UU 2 2

/-- eq_XCTS_crv_T1_ddm_eq_phi.c:161-173 -/
noncomputable def t2 (x : In) : ℝ :=
  x.dphi_D 0 * x.igConf_UU 0 0 * (dLn_of_alpha_U0 x - dLn_of_enthalpy_U0 x + 2 * dLn_of_psi_U0 x) + x.dphi_D 0 * x.igConf_UU 0
      1 * (dLn_of_alpha_U1 x - dLn_of_enthalpy_U1 x + 2 * dLn_of_psi_U1 x) + x.dphi_D 0 * x.igConf_UU 0 2 * (dLn_of_alpha_U2 x
      - dLn_of_enthalpy_U2 x + 2 * dLn_of_psi_U2 x) + x.dphi_D 1 * x.igConf_UU 0 1 * (dLn_of_alpha_U0 x - dLn_of_enthalpy_U0 x
      + 2 * dLn_of_psi_U0 x) + x.dphi_D 1 * x.igConf_UU 1 1 * (dLn_of_alpha_U1 x - dLn_of_enthalpy_U1 x + 2 * dLn_of_psi_U1 x)
      + x.dphi_D 1 * x.igConf_UU 1 2 * (dLn_of_alpha_U2 x - dLn_of_enthalpy_U2 x + 2 * dLn_of_psi_U2 x) + x.dphi_D 2 *
      x.igConf_UU 0 2 * (dLn_of_alpha_U0 x - dLn_of_enthalpy_U0 x + 2 * dLn_of_psi_U0 x) + x.dphi_D 2 * x.igConf_UU 1 2 *
      (dLn_of_alpha_U1 x - dLn_of_enthalpy_U1 x + 2 * dLn_of_psi_U1 x) + x.dphi_D 2 * x.igConf_UU 2 2 * (dLn_of_alpha_U2 x -
      dLn_of_enthalpy_U2 x + 2 * dLn_of_psi_U2 x)

/-- eq_XCTS_crv_T1_ddm_eq_phi.c:175-182 -/
noncomputable def t3 (x : In) : ℝ :=
  psi4 x * (x.W_U 0 * (x.ChrisConf_UDD 0 0 0 + x.ChrisConf_UDD 1 0 1 + x.ChrisConf_UDD 2 0 2 + dLn_of_alpha_U0 x -
      dLn_of_enthalpy_U0 x + 6 * dLn_of_psi_U0 x) + x.W_U 1 * (x.ChrisConf_UDD 0 0 1 + x.ChrisConf_UDD 1 1 1 + x.ChrisConf_UDD
      2 1 2 + dLn_of_alpha_U1 x - dLn_of_enthalpy_U1 x + 6 * dLn_of_psi_U1 x) + x.W_U 2 * (x.ChrisConf_UDD 0 0 2 +
      x.ChrisConf_UDD 1 1 2 + x.ChrisConf_UDD 2 2 2 + dLn_of_alpha_U2 x - dLn_of_enthalpy_U2 x + 6 * dLn_of_psi_U2 x))

/-- eq_XCTS_crv_T1_ddm_eq_phi.c:184-187 -/
noncomputable def t4 (x : In) : ℝ :=
  -hxu0xpsi4 x * (x.beta_U 0 * (dLn_of_alpha_U0 x + dLn_of_u0_U0 x) + x.beta_U 1 * (dLn_of_alpha_U1 x + dLn_of_u0_U1 x) +
      x.beta_U 2 * (dLn_of_alpha_U2 x + dLn_of_u0_U2 x))

/-- eq_XCTS_crv_T1_ddm_eq_phi.c:189-190 -/
noncomputable def t5 (x : In) : ℝ :=
  -DiBi x * hxu0xpsi4 x

/-- eq_XCTS_crv_T1_ddm_eq_phi.c:192-195 -/
noncomputable def t6_U0 (x : In) : ℝ :=
  x.W_U 0 * psi4 x - x.beta_U 0 * hxu0xpsi4 x + x.dphi_D 0 * x.igConf_UU 0 0 + x.dphi_D 1 * x.igConf_UU 0 1 + x.dphi_D 2 *
      x.igConf_UU 0 2

/-- eq_XCTS_crv_T1_ddm_eq_phi.c:197-200 -/
noncomputable def t6_U1 (x : In) : ℝ :=
  x.W_U 1 * psi4 x - x.beta_U 1 * hxu0xpsi4 x + x.dphi_D 0 * x.igConf_UU 0 1 + x.dphi_D 1 * x.igConf_UU 1 1 + x.dphi_D 2 *
      x.igConf_UU 1 2

/-- eq_XCTS_crv_T1_ddm_eq_phi.c:202-205 -/
noncomputable def t6_U2 (x : In) : ℝ :=
  x.W_U 2 * psi4 x - x.beta_U 2 * hxu0xpsi4 x + x.dphi_D 0 * x.igConf_UU 0 2 + x.dphi_D 1 * x.igConf_UU 1 2 + x.dphi_D 2 *
      x.igConf_UU 2 2

/-- eq_XCTS_crv_T1_ddm_eq_phi.c:207-209 -/
noncomputable def F_eq (x : In) : ℝ :=
  x.drho0_D 0 * t6_U0 x + x.drho0_D 1 * t6_U1 x + x.drho0_D 2 * t6_U2 x + polish x * t0 x + x.rho0 * (t0 x + t1 x + t2 x + t3 x
      + t4 x + t5 x)

/-- eq_XCTS_crv_T1_ddm_eq_phi.c:223 -/
noncomputable def Att_Con_Num (x : In) : ℝ :=
  (1 / 100000)

/-- eq_XCTS_crv_T1_ddm_eq_phi.c:211 the value written to schur_F -/
noncomputable def out_schur_F (x : In) : ℝ :=
  F_eq x

end Elliptica.Gen.Phi.Eq

namespace Elliptica.Gen.Phi.JacEq

/-- eq_XCTS_crv_T1_ddm_Jac_eq_phi.c:72 -/
noncomputable def att (x : In) : ℝ :=
  x.e * x.rhoc

/-- eq_XCTS_crv_T1_ddm_Jac_eq_phi.c:84-85 -/
noncomputable def dLn_of_psi_b_U0 (x : In) : ℝ :=
  x.dpsi_D 0 / x.psi

/-- eq_XCTS_crv_T1_ddm_Jac_eq_phi.c:87-88 -/
noncomputable def dLn_of_psi_b_U1 (x : In) : ℝ :=
  x.dpsi_D 1 / x.psi

/-- eq_XCTS_crv_T1_ddm_Jac_eq_phi.c:90-91 -/
noncomputable def dLn_of_psi_b_U2 (x : In) : ℝ :=
  x.dpsi_D 2 / x.psi

/-- eq_XCTS_crv_T1_ddm_Jac_eq_phi.c:93-94 -/
noncomputable def dLn_of_alpha_b_U0 (x : In) : ℝ :=
  -dLn_of_psi_b_U0 x + x.dalphaPsi_D 0 / x.alphaPsi

/-- eq_XCTS_crv_T1_ddm_Jac_eq_phi.c:96-97 -/
noncomputable def dLn_of_alpha_b_U1 (x : In) : ℝ :=
  -dLn_of_psi_b_U1 x + x.dalphaPsi_D 1 / x.alphaPsi

/-- eq_XCTS_crv_T1_ddm_Jac_eq_phi.c:99-100 -/
noncomputable def dLn_of_alpha_b_U2 (x : In) : ℝ :=
  -dLn_of_psi_b_U2 x + x.dalphaPsi_D 2 / x.alphaPsi

/-- eq_XCTS_crv_T1_ddm_Jac_eq_phi.c:102-103 -/
noncomputable def dLn_of_enthalpy_b_U0 (x : In) : ℝ :=
  x.denthalpy_D 0 / x.enthalpy

/-- eq_XCTS_crv_T1_ddm_Jac_eq_phi.c:105-106 -/
noncomputable def dLn_of_enthalpy_b_U1 (x : In) : ℝ :=
  x.denthalpy_D 1 / x.enthalpy

/-- eq_XCTS_crv_T1_ddm_Jac_eq_phi.c:108-109 -/
noncomputable def dLn_of_enthalpy_b_U2 (x : In) : ℝ :=
  x.denthalpy_D 2 / x.enthalpy

/-- eq_XCTS_crv_T1_ddm_Jac_eq_phi.c:111-112 -/
noncomputable def polish_b (x : In) : ℝ :=
  att x * (x.rho0 / x.rhoc - 1) ^ 4

/-- eq_XCTS_crv_T1_ddm_Jac_eq_phi.c:114-118 -/
noncomputable def t0_b (x : In) : ℝ :=
  (polish_b x + x.rho0) * (x.JJphi_DD 0 0 * x.igConf_UU 0 0 + 2 * x.JJphi_DD 0 1 * x.igConf_UU 0 1 + 2 * x.JJphi_DD 0 2 *
      x.igConf_UU 0 2 + x.JJphi_DD 1 1 * x.igConf_UU 1 1 + 2 * x.JJphi_DD 1 2 * x.igConf_UU 1 2 + x.JJphi_DD 2 2 * x.igConf_UU
      2 2)

/-- eq_XCTS_crv_T1_ddm_Jac_eq_phi.c:120-135 -/
noncomputable def t1_b (x : In) : ℝ :=
  -x.rho0 * (x.ChrisConf_UDD 0 0 0 * x.Jphi_D 0 * x.igConf_UU 0 0 + 2 * x.ChrisConf_UDD 0 0 1 * x.Jphi_D 0 * x.igConf_UU 0 1 +
      2 * x.ChrisConf_UDD 0 0 2 * x.Jphi_D 0 * x.igConf_UU 0 2 + x.ChrisConf_UDD 0 1 1 * x.Jphi_D 0 * x.igConf_UU 1 1 + 2 *
      x.ChrisConf_UDD 0 1 2 * x.Jphi_D 0 * x.igConf_UU 1 2 + x.ChrisConf_UDD 0 2 2 * x.Jphi_D 0 * x.igConf_UU 2 2 +
      x.ChrisConf_UDD 1 0 0 * x.Jphi_D 1 * x.igConf_UU 0 0 + 2 * x.ChrisConf_UDD 1 0 1 * x.Jphi_D 1 * x.igConf_UU 0 1 + 2 *
      x.ChrisConf_UDD 1 0 2 * x.Jphi_D 1 * x.igConf_UU 0 2 + x.ChrisConf_UDD 1 1 1 * x.Jphi_D 1 * x.igConf_UU 1 1 + 2 *
      x.ChrisConf_UDD 1 1 2 * x.Jphi_D 1 * x.igConf_UU 1 2 + x.ChrisConf_UDD 1 2 2 * x.Jphi_D 1 * x.igConf_UU 2 2 +
      x.ChrisConf_UDD 2 0 0 * x.Jphi_D 2 * x.igConf_UU 0 0 + 2 * x.ChrisConf_UDD 2 0 1 * x.Jphi_D 2 * x.igConf_UU 0 1 + 2 *
      x.ChrisConf_UDD 2 0 2 * x.Jphi_D 2 * x.igConf_UU 0 2 + x.ChrisConf_UDD 2 1 1 * x.Jphi_D 2 * x.igConf_UU 1 1 + 2 *
      x.ChrisConf_UDD 2 1 2 * x.Jphi_D 2 * x.igConf_UU 1 2 + x.ChrisConf_UDD 2 2 2 * x.Jphi_D 2 * x.igConf_UU 2 2)

/-- eq_XCTS_crv_T1_ddm_Jac_eq_phi.c:137-153 -/
noncomputable def t2_b (x : In) : ℝ :=
  x.Jphi_D 0 * x.igConf_UU 0 0 * (x.drho0_D 0 + x.rho0 * (dLn_of_alpha_b_U0 x - dLn_of_enthalpy_b_U0 x + 2 * dLn_of_psi_b_U0
      x)) + x.Jphi_D 0 * x.igConf_UU 0 1 * (x.drho0_D 1 + x.rho0 * (dLn_of_alpha_b_U1 x - dLn_of_enthalpy_b_U1 x + 2 *
      dLn_of_psi_b_U1 x)) + x.Jphi_D 0 * x.igConf_UU 0 2 * (x.drho0_D 2 + x.rho0 * (dLn_of_alpha_b_U2 x - dLn_of_enthalpy_b_U2
      x + 2 * dLn_of_psi_b_U2 x)) + x.Jphi_D 1 * x.igConf_UU 0 1 * (x.drho0_D 0 + x.rho0 * (dLn_of_alpha_b_U0 x -
      dLn_of_enthalpy_b_U0 x + 2 * dLn_of_psi_b_U0 x)) + x.Jphi_D 1 * x.igConf_UU 1 1 * (x.drho0_D 1 + x.rho0 *
      (dLn_of_alpha_b_U1 x - dLn_of_enthalpy_b_U1 x + 2 * dLn_of_psi_b_U1 x)) + x.Jphi_D 1 * x.igConf_UU 1 2 * (x.drho0_D 2 +
      x.rho0 * (dLn_of_alpha_b_U2 x - dLn_of_enthalpy_b_U2 x + 2 * dLn_of_psi_b_U2 x)) + x.Jphi_D 2 * x.igConf_UU 0 2 *
      (x.drho0_D 0 + x.rho0 * (dLn_of_alpha_b_U0 x - dLn_of_enthalpy_b_U0 x + 2 * dLn_of_psi_b_U0 x)) + x.Jphi_D 2 *
      x.igConf_UU 1 2 * (x.drho0_D 1 + x.rho0 * (dLn_of_alpha_b_U1 x - dLn_of_enthalpy_b_U1 x + 2 * dLn_of_psi_b_U1 x)) +
      x.Jphi_D 2 * x.igConf_UU 2 2 * (x.drho0_D 2 + x.rho0 * (dLn_of_alpha_b_U2 x - dLn_of_enthalpy_b_U2 x + 2 *
      dLn_of_psi_b_U2 x))

/-- eq_XCTS_crv_T1_ddm_Jac_eq_phi.c:155-156 -/
noncomputable def Bpart_ (x : In) : ℝ :=
  t0_b x + t1_b x + t2_b x

/-- eq_XCTS_crv_T1_ddm_Jac_eq_phi.c:173-174 -/
noncomputable def dLn_of_psi_e_U0 (x : In) : ℝ :=
  x.dpsi_D 0 / x.psi

/-- eq_XCTS_crv_T1_ddm_Jac_eq_phi.c:176-177 -/
noncomputable def dLn_of_psi_e_U1 (x : In) : ℝ :=
  x.dpsi_D 1 / x.psi

/-- eq_XCTS_crv_T1_ddm_Jac_eq_phi.c:179-180 -/
noncomputable def dLn_of_psi_e_U2 (x : In) : ℝ :=
  x.dpsi_D 2 / x.psi

/-- eq_XCTS_crv_T1_ddm_Jac_eq_phi.c:182-183 -/
noncomputable def dLn_of_alpha_e_U0 (x : In) : ℝ :=
  -dLn_of_psi_e_U0 x + x.dalphaPsi_D 0 / x.alphaPsi

/-- eq_XCTS_crv_T1_ddm_Jac_eq_phi.c:185-186 -/
noncomputable def dLn_of_alpha_e_U1 (x : In) : ℝ :=
  -dLn_of_psi_e_U1 x + x.dalphaPsi_D 1 / x.alphaPsi

/-- eq_XCTS_crv_T1_ddm_Jac_eq_phi.c:188-189 -/
noncomputable def dLn_of_alpha_e_U2 (x : In) : ℝ :=
  -dLn_of_psi_e_U2 x + x.dalphaPsi_D 2 / x.alphaPsi

/-- eq_XCTS_crv_T1_ddm_Jac_eq_phi.c:191-192 -/
noncomputable def dLn_of_enthalpy_e_U0 (x : In) : ℝ :=
  x.denthalpy_D 0 / x.enthalpy

/-- eq_XCTS_crv_T1_ddm_Jac_eq_phi.c:194-195 -/
noncomputable def dLn_of_enthalpy_e_U1 (x : In) : ℝ :=
  x.denthalpy_D 1 / x.enthalpy

/-- eq_XCTS_crv_T1_ddm_Jac_eq_phi.c:197-198 -/
noncomputable def dLn_of_enthalpy_e_U2 (x : In) : ℝ :=
  x.denthalpy_D 2 / x.enthalpy

/-- eq_XCTS_crv_T1_ddm_Jac_eq_phi.c:200-201 -/
noncomputable def polish_e (x : In) : ℝ :=
  att x * (x.rho0 / x.rhoc - 1) ^ 4

/-- eq_XCTS_crv_T1_ddm_Jac_eq_phi.c:203-207 -/
noncomputable def t0_e (x : In) : ℝ :=
  (polish_e x + x.rho0) * (x.JJphi_DD 0 0 * x.igConf_UU 0 0 + 2 * x.JJphi_DD 0 1 * x.igConf_UU 0 1 + 2 * x.JJphi_DD 0 2 *
      x.igConf_UU 0 2 + x.JJphi_DD 1 1 * x.igConf_UU 1 1 + 2 * x.JJphi_DD 1 2 * x.igConf_UU 1 2 + x.JJphi_DD 2 2 * x.igConf_UU
      2 2)

/-- eq_XCTS_crv_T1_ddm_Jac_eq_phi.c:209-224 -/
noncomputable def t1_e (x : In) : ℝ :=
  -x.rho0 * (x.ChrisConf_UDD 0 0 0 * x.Jphi_D 0 * x.igConf_UU 0 0 + 2 * x.ChrisConf_UDD 0 0 1 * x.Jphi_D 0 * x.igConf_UU 0 1 +
      2 * x.ChrisConf_UDD 0 0 2 * x.Jphi_D 0 * x.igConf_UU 0 2 + x.ChrisConf_UDD 0 1 1 * x.Jphi_D 0 * x.igConf_UU 1 1 + 2 *
      x.ChrisConf_UDD 0 1 2 * x.Jphi_D 0 * x.igConf_UU 1 2 + x.ChrisConf_UDD 0 2 2 * x.Jphi_D 0 * x.igConf_UU 2 2 +
      x.ChrisConf_UDD 1 0 0 * x.Jphi_D 1 * x.igConf_UU 0 0 + 2 * x.ChrisConf_UDD 1 0 1 * x.Jphi_D 1 * x.igConf_UU 0 1 + 2 *
      x.ChrisConf_UDD 1 0 2 * x.Jphi_D 1 * x.igConf_UU 0 2 + x.ChrisConf_UDD 1 1 1 * x.Jphi_D 1 * x.igConf_UU 1 1 + 2 *
      x.ChrisConf_UDD 1 1 2 * x.Jphi_D 1 * x.igConf_UU 1 2 + x.ChrisConf_UDD 1 2 2 * x.Jphi_D 1 * x.igConf_UU 2 2 +
      x.ChrisConf_UDD 2 0 0 * x.Jphi_D 2 * x.igConf_UU 0 0 + 2 * x.ChrisConf_UDD 2 0 1 * x.Jphi_D 2 * x.igConf_UU 0 1 + 2 *
      x.ChrisConf_UDD 2 0 2 * x.Jphi_D 2 * x.igConf_UU 0 2 + x.ChrisConf_UDD 2 1 1 * x.Jphi_D 2 * x.igConf_UU 1 1 + 2 *
      x.ChrisConf_UDD 2 1 2 * x.Jphi_D 2 * x.igConf_UU 1 2 + x.ChrisConf_UDD 2 2 2 * x.Jphi_D 2 * x.igConf_UU 2 2)

/-- eq_XCTS_crv_T1_ddm_Jac_eq_phi.c:226-242 -/
noncomputable def t2_e (x : In) : ℝ :=
  x.Jphi_D 0 * x.igConf_UU 0 0 * (x.drho0_D 0 + x.rho0 * (dLn_of_alpha_e_U0 x - dLn_of_enthalpy_e_U0 x + 2 * dLn_of_psi_e_U0
      x)) + x.Jphi_D 0 * x.igConf_UU 0 1 * (x.drho0_D 1 + x.rho0 * (dLn_of_alpha_e_U1 x - dLn_of_enthalpy_e_U1 x + 2 *
      dLn_of_psi_e_U1 x)) + x.Jphi_D 0 * x.igConf_UU 0 2 * (x.drho0_D 2 + x.rho0 * (dLn_of_alpha_e_U2 x - dLn_of_enthalpy_e_U2
      x + 2 * dLn_of_psi_e_U2 x)) + x.Jphi_D 1 * x.igConf_UU 0 1 * (x.drho0_D 0 + x.rho0 * (dLn_of_alpha_e_U0 x -
      dLn_of_enthalpy_e_U0 x + 2 * dLn_of_psi_e_U0 x)) + x.Jphi_D 1 * x.igConf_UU 1 1 * (x.drho0_D 1 + x.rho0 *
      (dLn_of_alpha_e_U1 x - dLn_of_enthalpy_e_U1 x + 2 * dLn_of_psi_e_U1 x)) + x.Jphi_D 1 * x.igConf_UU 1 2 * (x.drho0_D 2 +
      x.rho0 * (dLn_of_alpha_e_U2 x - dLn_of_enthalpy_e_U2 x + 2 * dLn_of_psi_e_U2 x)) + x.Jphi_D 2 * x.igConf_UU 0 2 *
      (x.drho0_D 0 + x.rho0 * (dLn_of_alpha_e_U0 x - dLn_of_enthalpy_e_U0 x + 2 * dLn_of_psi_e_U0 x)) + x.Jphi_D 2 *
      x.igConf_UU 1 2 * (x.drho0_D 1 + x.rho0 * (dLn_of_alpha_e_U1 x - dLn_of_enthalpy_e_U1 x + 2 * dLn_of_psi_e_U1 x)) +
      x.Jphi_D 2 * x.igConf_UU 2 2 * (x.drho0_D 2 + x.rho0 * (dLn_of_alpha_e_U2 x - dLn_of_enthalpy_e_U2 x + 2 *
      dLn_of_psi_e_U2 x))

/-- eq_XCTS_crv_T1_ddm_Jac_eq_phi.c:244-245 -/
noncomputable def Epart_ (x : In) : ℝ :=
  t0_e x + t1_e x + t2_e x

/-- eq_XCTS_crv_T1_ddm_Jac_eq_phi.c:259 -/
noncomputable def Att_Con_Num (x : In) : ℝ :=
  (1 / 100000)

/-- eq_XCTS_crv_T1_ddm_Jac_eq_phi.c:158 the value written to schur_B -/
noncomputable def out_schur_B (x : In) : ℝ :=
  Bpart_ x

/-- eq_XCTS_crv_T1_ddm_Jac_eq_phi.c:247 the value written to schur_Et -/
noncomputable def out_schur_Et (x : In) : ℝ :=
  Epart_ x

end Elliptica.Gen.Phi.JacEq

namespace Elliptica.Gen.Phi.Bc

/-- eq_XCTS_crv_T1_ddm_bc_phi.c:44-45 -/
noncomputable def psi4 (x : In) : ℝ :=
  x.psi ^ 4

/-- eq_XCTS_crv_T1_ddm_bc_phi.c:47-57 -/
noncomputable def outerB_F (x : In) : ℝ :=
  x.dphi_D 0 * x.drho0_D 0 * x.igConf_UU 0 0 + x.dphi_D 0 * x.drho0_D 1 * x.igConf_UU 0 1 + x.dphi_D 0 * x.drho0_D 2 *
      x.igConf_UU 0 2 + x.dphi_D 1 * x.drho0_D 0 * x.igConf_UU 0 1 + x.dphi_D 1 * x.drho0_D 1 * x.igConf_UU 1 1 + x.dphi_D 1 *
      x.drho0_D 2 * x.igConf_UU 1 2 + x.dphi_D 2 * x.drho0_D 0 * x.igConf_UU 0 2 + x.dphi_D 2 * x.drho0_D 1 * x.igConf_UU 1 2 +
      x.dphi_D 2 * x.drho0_D 2 * x.igConf_UU 2 2 + psi4 x * (x.drho0_D 0 * (x.W_U 0 - x.beta_U 0 * x.enthalpy * x.u0) +
      x.drho0_D 1 * (x.W_U 1 - x.beta_U 1 * x.enthalpy * x.u0) + x.drho0_D 2 * (x.W_U 2 - x.beta_U 2 * x.enthalpy * x.u0))

/-- eq_XCTS_crv_T1_ddm_bc_phi.c:67-68 -/
noncomputable def innerB_F (x : In) : ℝ :=
  0

/-- eq_XCTS_crv_T1_ddm_bc_phi.c:59 the value written to schur_F -/
noncomputable def out_schur_F_0 (x : In) : ℝ :=
  outerB_F x

/-- eq_XCTS_crv_T1_ddm_bc_phi.c:70 the value written to schur_F -/
noncomputable def out_schur_F_1 (x : In) : ℝ :=
  innerB_F x

end Elliptica.Gen.Phi.Bc

namespace Elliptica.Gen.Phi.JacBc

/-- eq_XCTS_crv_T1_ddm_Jac_bc_phi.c:36-42 -/
noncomputable def outerB_Bpart (x : In) : ℝ :=
  x.Jphi_D 0 * x.drho0_D 0 * x.igConf_UU 0 0 + x.Jphi_D 0 * x.drho0_D 1 * x.igConf_UU 0 1 + x.Jphi_D 0 * x.drho0_D 2 *
      x.igConf_UU 0 2 + x.Jphi_D 1 * x.drho0_D 0 * x.igConf_UU 0 1 + x.Jphi_D 1 * x.drho0_D 1 * x.igConf_UU 1 1 + x.Jphi_D 1 *
      x.drho0_D 2 * x.igConf_UU 1 2 + x.Jphi_D 2 * x.drho0_D 0 * x.igConf_UU 0 2 + x.Jphi_D 2 * x.drho0_D 1 * x.igConf_UU 1 2 +
      x.Jphi_D 2 * x.drho0_D 2 * x.igConf_UU 2 2

/-- eq_XCTS_crv_T1_ddm_Jac_bc_phi.c:53-59 -/
noncomputable def outerB_Epart (x : In) : ℝ :=
  x.Jphi_D 0 * x.drho0_D 0 * x.igConf_UU 0 0 + x.Jphi_D 0 * x.drho0_D 1 * x.igConf_UU 0 1 + x.Jphi_D 0 * x.drho0_D 2 *
      x.igConf_UU 0 2 + x.Jphi_D 1 * x.drho0_D 0 * x.igConf_UU 0 1 + x.Jphi_D 1 * x.drho0_D 1 * x.igConf_UU 1 1 + x.Jphi_D 1 *
      x.drho0_D 2 * x.igConf_UU 1 2 + x.Jphi_D 2 * x.drho0_D 0 * x.igConf_UU 0 2 + x.Jphi_D 2 * x.drho0_D 1 * x.igConf_UU 1 2 +
      x.Jphi_D 2 * x.drho0_D 2 * x.igConf_UU 2 2

/-- eq_XCTS_crv_T1_ddm_Jac_bc_phi.c:69-70 -/
noncomputable def innerB_Bpart (x : In) : ℝ :=
  0

/-- eq_XCTS_crv_T1_ddm_Jac_bc_phi.c:78-79 -/
noncomputable def innerB_Epart (x : In) : ℝ :=
  0

/-- eq_XCTS_crv_T1_ddm_Jac_bc_phi.c:44 the value written to schur_B -/
noncomputable def out_schur_B_0 (x : In) : ℝ :=
  outerB_Bpart x

/-- eq_XCTS_crv_T1_ddm_Jac_bc_phi.c:72 the value written to schur_B -/
noncomputable def out_schur_B_1 (x : In) : ℝ :=
  innerB_Bpart x

/-- eq_XCTS_crv_T1_ddm_Jac_bc_phi.c:61 the value written to schur_Et -/
noncomputable def out_schur_Et_0 (x : In) : ℝ :=
  outerB_Epart x

/-- eq_XCTS_crv_T1_ddm_Jac_bc_phi.c:81 the value written to schur_Et -/
noncomputable def out_schur_Et_1 (x : In) : ℝ :=
  innerB_Epart x

end Elliptica.Gen.Phi.JacBc

namespace Elliptica.Gen.Phi.Eq2

/-- eq_XCTS_crv_T2_ddm_eq_phi.c:94 -/
noncomputable def att (x : In) : ℝ :=
  x.e * x.rhoc

/-- eq_XCTS_crv_T2_ddm_eq_phi.c:97-98 -/
noncomputable def dLn_of_psi_U0 (x : In) : ℝ :=
  x.dpsi_D 0 / x.psi

/-- eq_XCTS_crv_T2_ddm_eq_phi.c:100-101 -/
noncomputable def dLn_of_psi_U1 (x : In) : ℝ :=
  x.dpsi_D 1 / x.psi

/-- eq_XCTS_crv_T2_ddm_eq_phi.c:103-104 -/
noncomputable def dLn_of_psi_U2 (x : In) : ℝ :=
  x.dpsi_D 2 / x.psi

/-- eq_XCTS_crv_T2_ddm_eq_phi.c:106-107 -/
noncomputable def dLn_of_alpha_U0 (x : In) : ℝ :=
  -dLn_of_psi_U0 x + x.dalphaPsi_D 0 / x.alphaPsi

/-- eq_XCTS_crv_T2_ddm_eq_phi.c:109-110 -/
noncomputable def dLn_of_alpha_U1 (x : In) : ℝ :=
  -dLn_of_psi_U1 x + x.dalphaPsi_D 1 / x.alphaPsi

/-- eq_XCTS_crv_T2_ddm_eq_phi.c:112-113 -/
noncomputable def dLn_of_alpha_U2 (x : In) : ℝ :=
  -dLn_of_psi_U2 x + x.dalphaPsi_D 2 / x.alphaPsi

/-- eq_XCTS_crv_T2_ddm_eq_phi.c:115-116 -/
noncomputable def dLn_of_enthalpy_U0 (x : In) : ℝ :=
  x.denthalpy_D 0 / x.enthalpy

/-- eq_XCTS_crv_T2_ddm_eq_phi.c:118-119 -/
noncomputable def dLn_of_enthalpy_U1 (x : In) : ℝ :=
  x.denthalpy_D 1 / x.enthalpy

/-- eq_XCTS_crv_T2_ddm_eq_phi.c:121-122 -/
noncomputable def dLn_of_enthalpy_U2 (x : In) : ℝ :=
  x.denthalpy_D 2 / x.enthalpy

/-- eq_XCTS_crv_T2_ddm_eq_phi.c:124-125 -/
noncomputable def dLn_of_u0_U0 (x : In) : ℝ :=
  x.du0_D 0 / x.u0

/-- eq_XCTS_crv_T2_ddm_eq_phi.c:127-128 -/
noncomputable def dLn_of_u0_U1 (x : In) : ℝ :=
  x.du0_D 1 / x.u0

/-- eq_XCTS_crv_T2_ddm_eq_phi.c:130-131 -/
noncomputable def dLn_of_u0_U2 (x : In) : ℝ :=
  x.du0_D 2 / x.u0

/-- eq_XCTS_crv_T2_ddm_eq_phi.c:133-134 -/
noncomputable def psi4 (x : In) : ℝ :=
  x.psi ^ 4

/-- eq_XCTS_crv_T2_ddm_eq_phi.c:136-137 -/
noncomputable def polish (x : In) : ℝ :=
  att x * (x.rho0 / x.rhoc - 1) ^ 4

/-- eq_XCTS_crv_T2_ddm_eq_phi.c:139-140 -/
noncomputable def hxu0xpsi4 (x : In) : ℝ :=
  x.enthalpy * psi4 x * x.u0

/-- eq_XCTS_crv_T2_ddm_eq_phi.c:142-149 -/
noncomputable def DiBi (x : In) : ℝ :=
  x.ChrisConf_UDD 0 0 0 * x.beta_U 0 + x.ChrisConf_UDD 0 0 1 * x.beta_U 1 + x.ChrisConf_UDD 0 0 2 * x.beta_U 2 +
      x.ChrisConf_UDD 1 0 1 * x.beta_U 0 + x.ChrisConf_UDD 1 1 1 * x.beta_U 1 + x.ChrisConf_UDD 1 1 2 * x.beta_U 2 +
      x.ChrisConf_UDD 2 0 2 * x.beta_U 0 + x.ChrisConf_UDD 2 1 2 * x.beta_U 1 + x.ChrisConf_UDD 2 2 2 * x.beta_U 2 + 6 *
      x.beta_U 0 * dLn_of_psi_U0 x + 6 * x.beta_U 1 * dLn_of_psi_U1 x + 6 * x.beta_U 2 * dLn_of_psi_U2 x + x.dbeta_UD 0 0 +
      x.dbeta_UD 1 1 + x.dbeta_UD 2 2

/-- eq_XCTS_crv_T2_ddm_eq_phi.c:151-155 -/
noncomputable def t0 (x : In) : ℝ :=
  x.ddphi_DD 0 0 * x.igConf_UU 0 0 + 2 * x.ddphi_DD 0 1 * x.igConf_UU 0 1 + 2 * x.ddphi_DD 0 2 * x.igConf_UU 0 2 + x.ddphi_DD 1
      1 * x.igConf_UU 1 1 + 2 * x.ddphi_DD 1 2 * x.igConf_UU 1 2 + x.ddphi_DD 2 2 * x.igConf_UU 2 2

/-- eq_XCTS_crv_T2_ddm_eq_phi.c:157-175 -/
noncomputable def t1 (x : In) : ℝ :=
  -x.ChrisConf_UDD 0 0 0 * x.dphi_D 0 * x.igConf_UU 0 0 - 2 * x.ChrisConf_UDD 0 0 1 * x.dphi_D 0 * x.igConf_UU 0 1 - 2 *
      x.ChrisConf_UDD 0 0 2 * x.dphi_D 0 * x.igConf_UU 0 2 - x.ChrisConf_UDD 0 1 1 * x.dphi_D 0 * x.igConf_UU 1 1 - 2 *
      x.ChrisConf_UDD 0 1 2 * x.dphi_D 0 * x.igConf_UU 1 2 - x.ChrisConf_UDD 0 2 2 * x.dphi_D 0 * x.igConf_UU 2 2 -
      x.ChrisConf_UDD 1 0 0 * x.dphi_D 1 * x.igConf_UU 0 0 - 2 * x.ChrisConf_UDD 1 0 1 * x.dphi_D 1 * x.igConf_UU 0 1 - 2 *
      x.ChrisConf_UDD 1 0 2 * x.dphi_D 1 * x.igConf_UU 0 2 - x.ChrisConf_UDD 1 1 1 * x.dphi_D 1 * x.igConf_UU 1 1 - 2 *
      x.ChrisConf_UDD 1 1 2 * x.dphi_D 1 * x.igConf_UU 1 2 - x.ChrisConf_UDD 1 2 2 * x.dphi_D 1 * x.igConf_UU 2 2 -
      x.ChrisConf_UDD 2 0 0 * x.dphi_D 2 * x.igConf_UU 0 0 - 2 * x.ChrisConf_UDD 2 0 1 * x.dphi_D 2 * x.igConf_UU 0 1 - 2 *
      x.ChrisConf_UDD 2 0 2 * x.dphi_D 2 * x.igConf_UU 0 2 - x.ChrisConf_UDD 2 1 1 * x.dphi_D 2 * x.igConf_UU 1 1 - 2 *
      x.ChrisConf_UDD 2 1 2 * x.dphi_D 2 * x.igConf_UU 1 2 - x.ChrisConf_UDD 2 2 2 * x.dphi_D 2 * x.igConf_UU 2 2

/-- eq_XCTS_crv_T2_ddm_eq_phi.c:177-189 -/
noncomputable def t2 (x : In) : ℝ :=
  x.dphi_D 0 * x.igConf_UU 0 0 * (dLn_of_alpha_U0 x - dLn_of_enthalpy_U0 x + 2 * dLn_of_psi_U0 x) + x.dphi_D 0 * x.igConf_UU 0
      1 * (dLn_of_alpha_U1 x - dLn_of_enthalpy_U1 x + 2 * dLn_of_psi_U1 x) + x.dphi_D 0 * x.igConf_UU 0 2 * (dLn_of_alpha_U2 x
      - dLn_of_enthalpy_U2 x + 2 * dLn_of_psi_U2 x) + x.dphi_D 1 * x.igConf_UU 0 1 * (dLn_of_alpha_U0 x - dLn_of_enthalpy_U0 x
      + 2 * dLn_of_psi_U0 x) + x.dphi_D 1 * x.igConf_UU 1 1 * (dLn_of_alpha_U1 x - dLn_of_enthalpy_U1 x + 2 * dLn_of_psi_U1 x)
      + x.dphi_D 1 * x.igConf_UU 1 2 * (dLn_of_alpha_U2 x - dLn_of_enthalpy_U2 x + 2 * dLn_of_psi_U2 x) + x.dphi_D 2 *
      x.igConf_UU 0 2 * (dLn_of_alpha_U0 x - dLn_of_enthalpy_U0 x + 2 * dLn_of_psi_U0 x) + x.dphi_D 2 * x.igConf_UU 1 2 *
      (dLn_of_alpha_U1 x - dLn_of_enthalpy_U1 x + 2 * dLn_of_psi_U1 x) + x.dphi_D 2 * x.igConf_UU 2 2 * (dLn_of_alpha_U2 x -
      dLn_of_enthalpy_U2 x + 2 * dLn_of_psi_U2 x)

/-- eq_XCTS_crv_T2_ddm_eq_phi.c:191-198 -/
noncomputable def t3 (x : In) : ℝ :=
  psi4 x * (x.W_U 0 * (x.ChrisConf_UDD 0 0 0 + x.ChrisConf_UDD 1 0 1 + x.ChrisConf_UDD 2 0 2 + dLn_of_alpha_U0 x -
      dLn_of_enthalpy_U0 x + 6 * dLn_of_psi_U0 x) + x.W_U 1 * (x.ChrisConf_UDD 0 0 1 + x.ChrisConf_UDD 1 1 1 + x.ChrisConf_UDD
      2 1 2 + dLn_of_alpha_U1 x - dLn_of_enthalpy_U1 x + 6 * dLn_of_psi_U1 x) + x.W_U 2 * (x.ChrisConf_UDD 0 0 2 +
      x.ChrisConf_UDD 1 1 2 + x.ChrisConf_UDD 2 2 2 + dLn_of_alpha_U2 x - dLn_of_enthalpy_U2 x + 6 * dLn_of_psi_U2 x))

/-- eq_XCTS_crv_T2_ddm_eq_phi.c:200-203 -/
noncomputable def t4 (x : In) : ℝ :=
  -hxu0xpsi4 x * (x.beta_U 0 * (dLn_of_alpha_U0 x + dLn_of_u0_U0 x) + x.beta_U 1 * (dLn_of_alpha_U1 x + dLn_of_u0_U1 x) +
      x.beta_U 2 * (dLn_of_alpha_U2 x + dLn_of_u0_U2 x))

/-- eq_XCTS_crv_T2_ddm_eq_phi.c:205-206 -/
noncomputable def t5 (x : In) : ℝ :=
  -DiBi x * hxu0xpsi4 x

/-- eq_XCTS_crv_T2_ddm_eq_phi.c:208-211 -/
noncomputable def t6_U0 (x : In) : ℝ :=
  x.W_U 0 * psi4 x - x.beta_U 0 * hxu0xpsi4 x + x.dphi_D 0 * x.igConf_UU 0 0 + x.dphi_D 1 * x.igConf_UU 0 1 + x.dphi_D 2 *
      x.igConf_UU 0 2

/-- eq_XCTS_crv_T2_ddm_eq_phi.c:213-216 -/
noncomputable def t6_U1 (x : In) : ℝ :=
  x.W_U 1 * psi4 x - x.beta_U 1 * hxu0xpsi4 x + x.dphi_D 0 * x.igConf_UU 0 1 + x.dphi_D 1 * x.igConf_UU 1 1 + x.dphi_D 2 *
      x.igConf_UU 1 2

/-- eq_XCTS_crv_T2_ddm_eq_phi.c:218-221 -/
noncomputable def t6_U2 (x : In) : ℝ :=
  x.W_U 2 * psi4 x - x.beta_U 2 * hxu0xpsi4 x + x.dphi_D 0 * x.igConf_UU 0 2 + x.dphi_D 1 * x.igConf_UU 1 2 + x.dphi_D 2 *
      x.igConf_UU 2 2

/-- eq_XCTS_crv_T2_ddm_eq_phi.c:223-225 -/
noncomputable def F_eq (x : In) : ℝ :=
  x.drho0_D 0 * t6_U0 x + x.drho0_D 1 * t6_U1 x + x.drho0_D 2 * t6_U2 x + polish x * t0 x + x.rho0 * (t0 x + t1 x + t2 x + t3 x
      + t4 x + t5 x)

/-- eq_XCTS_crv_T2_ddm_eq_phi.c:239 -/
noncomputable def Att_Con_Num (x : In) : ℝ :=
  (1 / 100000)

/-- eq_XCTS_crv_T2_ddm_eq_phi.c:227 the value written to schur_F -/
noncomputable def out_schur_F (x : In) : ℝ :=
  F_eq x

end Elliptica.Gen.Phi.Eq2

namespace Elliptica.Gen.Phi.Bc3

/-- eq_XCTS_crv_T3_ddm_bc_phi.c:43-46 -/
noncomputable def Norm (x : In) : ℝ :=
  x.gConf_DD 0 0 * (x.n_U 0) ^ 2 + 2 * x.gConf_DD 0 1 * x.n_U 0 * x.n_U 1 + 2 * x.gConf_DD 0 2 * x.n_U 0 * x.n_U 2 + x.gConf_DD
      1 1 * (x.n_U 1) ^ 2 + 2 * x.gConf_DD 1 2 * x.n_U 1 * x.n_U 2 + x.gConf_DD 2 2 * (x.n_U 2) ^ 2

/-- eq_XCTS_crv_T3_ddm_bc_phi.c:48-49 -/
noncomputable def s_U1 (x : In) : ℝ :=
  (Real.sqrt (Norm x))⁻¹ * x.n_U 1

/-- eq_XCTS_crv_T3_ddm_bc_phi.c:51-52 -/
noncomputable def s_U0 (x : In) : ℝ :=
  (Real.sqrt (Norm x))⁻¹ * x.n_U 0

/-- eq_XCTS_crv_T3_ddm_bc_phi.c:54-55 -/
noncomputable def s_U2 (x : In) : ℝ :=
  (Real.sqrt (Norm x))⁻¹ * x.n_U 2

/-- eq_XCTS_crv_T3_ddm_bc_phi.c:57-58 -/
noncomputable def psi4 (x : In) : ℝ :=
  x.psi ^ 4

/-- eq_XCTS_crv_T3_ddm_bc_phi.c:60-70 -/
noncomputable def outerB_F (x : In) : ℝ :=
  x.dphi_D 0 * s_U0 x + x.dphi_D 1 * s_U1 x + x.dphi_D 2 * s_U2 x + psi4 x * (x.gConf_DD 0 0 * s_U0 x * (x.W_U 0 - x.beta_U 0 *
      x.u0) + x.gConf_DD 0 1 * s_U0 x * (x.W_U 1 - x.beta_U 1 * x.u0) + x.gConf_DD 0 1 * s_U1 x * (x.W_U 0 - x.beta_U 0 * x.u0)
      + x.gConf_DD 0 2 * s_U0 x * (x.W_U 2 - x.beta_U 2 * x.u0) + x.gConf_DD 0 2 * s_U2 x * (x.W_U 0 - x.beta_U 0 * x.u0) +
      x.gConf_DD 1 1 * s_U1 x * (x.W_U 1 - x.beta_U 1 * x.u0) + x.gConf_DD 1 2 * s_U1 x * (x.W_U 2 - x.beta_U 2 * x.u0) +
      x.gConf_DD 1 2 * s_U2 x * (x.W_U 1 - x.beta_U 1 * x.u0) + x.gConf_DD 2 2 * s_U2 x * (x.W_U 2 - x.beta_U 2 * x.u0))

/-- eq_XCTS_crv_T3_ddm_bc_phi.c:80-81 -/
noncomputable def innerB_F (x : In) : ℝ :=
  0

/-- eq_XCTS_crv_T3_ddm_bc_phi.c:72 the value written to schur_F -/
noncomputable def out_schur_F_0 (x : In) : ℝ :=
  outerB_F x

/-- eq_XCTS_crv_T3_ddm_bc_phi.c:83 the value written to schur_F -/
noncomputable def out_schur_F_1 (x : In) : ℝ :=
  innerB_F x

end Elliptica.Gen.Phi.Bc3

namespace Elliptica.Gen.Phi.JacBc3

/-- eq_XCTS_crv_T3_ddm_Jac_bc_phi.c:36-39 -/
noncomputable def Norm_b (x : In) : ℝ :=
  x.gConf_DD 0 0 * (x.n_U 0) ^ 2 + 2 * x.gConf_DD 0 1 * x.n_U 0 * x.n_U 1 + 2 * x.gConf_DD 0 2 * x.n_U 0 * x.n_U 2 + x.gConf_DD
      1 1 * (x.n_U 1) ^ 2 + 2 * x.gConf_DD 1 2 * x.n_U 1 * x.n_U 2 + x.gConf_DD 2 2 * (x.n_U 2) ^ 2

/-- eq_XCTS_crv_T3_ddm_Jac_bc_phi.c:41-42 -/
noncomputable def s_b_U0 (x : In) : ℝ :=
  (Real.sqrt (Norm_b x))⁻¹ * x.n_U 0

/-- eq_XCTS_crv_T3_ddm_Jac_bc_phi.c:44-45 -/
noncomputable def s_b_U1 (x : In) : ℝ :=
  (Real.sqrt (Norm_b x))⁻¹ * x.n_U 1

/-- eq_XCTS_crv_T3_ddm_Jac_bc_phi.c:47-48 -/
noncomputable def s_b_U2 (x : In) : ℝ :=
  (Real.sqrt (Norm_b x))⁻¹ * x.n_U 2

/-- eq_XCTS_crv_T3_ddm_Jac_bc_phi.c:50-55 -/
noncomputable def outerB_Bpart (x : In) : ℝ :=
  x.Jphi_D 0 * x.gConf_DD 0 0 * s_b_U0 x + x.Jphi_D 0 * x.gConf_DD 0 1 * s_b_U1 x + x.Jphi_D 0 * x.gConf_DD 0 2 * s_b_U2 x +
      x.Jphi_D 1 * x.gConf_DD 0 1 * s_b_U0 x + x.Jphi_D 1 * x.gConf_DD 1 1 * s_b_U1 x + x.Jphi_D 1 * x.gConf_DD 1 2 * s_b_U2 x
      + x.Jphi_D 2 * x.gConf_DD 0 2 * s_b_U0 x + x.Jphi_D 2 * x.gConf_DD 1 2 * s_b_U1 x + x.Jphi_D 2 * x.gConf_DD 2 2 * s_b_U2 x

/-- eq_XCTS_crv_T3_ddm_Jac_bc_phi.c:69-72 -/
noncomputable def Norm_e (x : In) : ℝ :=
  x.gConf_DD 0 0 * (x.n_U 0) ^ 2 + 2 * x.gConf_DD 0 1 * x.n_U 0 * x.n_U 1 + 2 * x.gConf_DD 0 2 * x.n_U 0 * x.n_U 2 + x.gConf_DD
      1 1 * (x.n_U 1) ^ 2 + 2 * x.gConf_DD 1 2 * x.n_U 1 * x.n_U 2 + x.gConf_DD 2 2 * (x.n_U 2) ^ 2

/-- eq_XCTS_crv_T3_ddm_Jac_bc_phi.c:74-75 -/
noncomputable def s_e_U0 (x : In) : ℝ :=
  (Real.sqrt (Norm_e x))⁻¹ * x.n_U 0

/-- eq_XCTS_crv_T3_ddm_Jac_bc_phi.c:77-78 -/
noncomputable def s_e_U1 (x : In) : ℝ :=
  (Real.sqrt (Norm_e x))⁻¹ * x.n_U 1

/-- eq_XCTS_crv_T3_ddm_Jac_bc_phi.c:80-81 -/
noncomputable def s_e_U2 (x : In) : ℝ :=
  (Real.sqrt (Norm_e x))⁻¹ * x.n_U 2

/-- eq_XCTS_crv_T3_ddm_Jac_bc_phi.c:83-88 -/
noncomputable def outerB_Epart (x : In) : ℝ :=
  x.Jphi_D 0 * x.gConf_DD 0 0 * s_e_U0 x + x.Jphi_D 0 * x.gConf_DD 0 1 * s_e_U1 x + x.Jphi_D 0 * x.gConf_DD 0 2 * s_e_U2 x +
      x.Jphi_D 1 * x.gConf_DD 0 1 * s_e_U0 x + x.Jphi_D 1 * x.gConf_DD 1 1 * s_e_U1 x + x.Jphi_D 1 * x.gConf_DD 1 2 * s_e_U2 x
      + x.Jphi_D 2 * x.gConf_DD 0 2 * s_e_U0 x + x.Jphi_D 2 * x.gConf_DD 1 2 * s_e_U1 x + x.Jphi_D 2 * x.gConf_DD 2 2 * s_e_U2 x

/-- eq_XCTS_crv_T3_ddm_Jac_bc_phi.c:98-99 -/
noncomputable def innerB_Bpart (x : In) : ℝ :=
  0

/-- eq_XCTS_crv_T3_ddm_Jac_bc_phi.c:107-108 -/
noncomputable def innerB_Epart (x : In) : ℝ :=
  0

/-- eq_XCTS_crv_T3_ddm_Jac_bc_phi.c:57 the value written to schur_B -/
noncomputable def out_schur_B_0 (x : In) : ℝ :=
  outerB_Bpart x

/-- eq_XCTS_crv_T3_ddm_Jac_bc_phi.c:101 the value written to schur_B -/
noncomputable def out_schur_B_1 (x : In) : ℝ :=
  innerB_Bpart x

/-- eq_XCTS_crv_T3_ddm_Jac_bc_phi.c:90 the value written to schur_Et -/
noncomputable def out_schur_Et_0 (x : In) : ℝ :=
  outerB_Epart x

/-- eq_XCTS_crv_T3_ddm_Jac_bc_phi.c:110 the value written to schur_Et -/
noncomputable def out_schur_Et_1 (x : In) : ℝ :=
  innerB_Epart x

end Elliptica.Gen.Phi.JacBc3
