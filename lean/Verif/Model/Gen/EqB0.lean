import Mathlib.Analysis.Real.Sqrt
import Mathlib.Analysis.SpecialFunctions.Trigonometric.Basic
/-!
Generated by /verif/tools/gen_tensor.py from Src/Main/Modules/Physics/Equation/eq_XCTS_crv_ex_T1_ddm_eq_B0_U0.c, Src/Main/Modules/Physics/Equation/eq_XCTS_crv_ex_T1_ddm_Jac_eq_B0_U0.c, Src/Main/Modules/Physics/Equation/eq_XCTS_crv_ex_T1_ddm_bc_B0_U0.c, Src/Main/Modules/Physics/Equation/eq_XCTS_crv_ex_T1_ddm_Jac_bc_B0_U0.c, Src/Main/Modules/Physics/Equation/eq_XCTS_flt_ex_T1_ddm_Jac_eq_B0_U0.c, Src/Main/Modules/Physics/Equation/eq_XCTS_crv_ex_T1_ddm_eq_B0_U1.c, Src/Main/Modules/Physics/Equation/eq_XCTS_crv_ex_T1_ddm_Jac_eq_B0_U1.c, Src/Main/Modules/Physics/Equation/eq_XCTS_crv_ex_T1_ddm_bc_B0_U1.c, Src/Main/Modules/Physics/Equation/eq_XCTS_crv_ex_T1_ddm_Jac_bc_B0_U1.c, Src/Main/Modules/Physics/Equation/eq_XCTS_flt_ex_T1_ddm_Jac_eq_B0_U1.c, Src/Main/Modules/Physics/Equation/eq_XCTS_crv_ex_T1_ddm_eq_B0_U2.c, Src/Main/Modules/Physics/Equation/eq_XCTS_crv_ex_T1_ddm_Jac_eq_B0_U2.c, Src/Main/Modules/Physics/Equation/eq_XCTS_crv_ex_T1_ddm_bc_B0_U2.c, Src/Main/Modules/Physics/Equation/eq_XCTS_crv_ex_T1_ddm_Jac_bc_B0_U2.c, Src/Main/Modules/Physics/Equation/eq_XCTS_flt_ex_T1_ddm_Jac_eq_B0_U2.c: the arithmetic done at one node, over `ℝ`;
rounding is not modelled, neither that of the operations nor that of decimal literals such as 0.66666666666666663 (= 2/3).
-/
set_option linter.style.longLine false
set_option linter.unusedVariables false

namespace Elliptica.Gen.Shift

/-- values at one node (`kd`, `J…`, `JJ…`: the Kronecker delta and the two Jacobian functions at the pair of nodes) read by Src/Main/Modules/Physics/Equation/eq_XCTS_crv_ex_T1_ddm_eq_B0_U0.c, Src/Main/Modules/Physics/Equation/eq_XCTS_crv_ex_T1_ddm_Jac_eq_B0_U0.c, Src/Main/Modules/Physics/Equation/eq_XCTS_crv_ex_T1_ddm_bc_B0_U0.c, Src/Main/Modules/Physics/Equation/eq_XCTS_crv_ex_T1_ddm_Jac_bc_B0_U0.c, Src/Main/Modules/Physics/Equation/eq_XCTS_flt_ex_T1_ddm_Jac_eq_B0_U0.c, Src/Main/Modules/Physics/Equation/eq_XCTS_crv_ex_T1_ddm_eq_B0_U1.c, Src/Main/Modules/Physics/Equation/eq_XCTS_crv_ex_T1_ddm_Jac_eq_B0_U1.c, Src/Main/Modules/Physics/Equation/eq_XCTS_crv_ex_T1_ddm_bc_B0_U1.c, Src/Main/Modules/Physics/Equation/eq_XCTS_crv_ex_T1_ddm_Jac_bc_B0_U1.c, Src/Main/Modules/Physics/Equation/eq_XCTS_flt_ex_T1_ddm_Jac_eq_B0_U1.c, Src/Main/Modules/Physics/Equation/eq_XCTS_crv_ex_T1_ddm_eq_B0_U2.c, Src/Main/Modules/Physics/Equation/eq_XCTS_crv_ex_T1_ddm_Jac_eq_B0_U2.c, Src/Main/Modules/Physics/Equation/eq_XCTS_crv_ex_T1_ddm_bc_B0_U2.c, Src/Main/Modules/Physics/Equation/eq_XCTS_crv_ex_T1_ddm_Jac_bc_B0_U2.c, Src/Main/Modules/Physics/Equation/eq_XCTS_flt_ex_T1_ddm_Jac_eq_B0_U2.c -/
structure In where
  AConfIJ_UU : Fin 3 → Fin 3 → ℝ
  ChrisConf_UDD : Fin 3 → Fin 3 → Fin 3 → ℝ
  dAConfIJ_UUD : Fin 3 → Fin 3 → Fin 3 → ℝ
  psi : ℝ
  dtrK_D : Fin 3 → ℝ
  igConf_UU : Fin 3 → Fin 3 → ℝ
  JConfP_U : Fin 3 → ℝ
  JConfC : ℝ
  alphaPsi : ℝ
  dpsi_D : Fin 3 → ℝ
  dalphaPsi_D : Fin 3 → ℝ
  JJB0_DD : Fin 3 → Fin 3 → ℝ
  dChrisConf_UDDD : Fin 3 → Fin 3 → Fin 3 → Fin 3 → ℝ
  kd : ℝ
  JB0_D : Fin 3 → ℝ
  RicciConf_DD : Fin 3 → Fin 3 → ℝ
  B0_U : Fin 3 → ℝ
  v0_boost : ℝ
  B1_U : Fin 3 → ℝ
  ibc_beta_U : Fin 3 → ℝ
  v1_boost : ℝ
  v2_boost : ℝ

end Elliptica.Gen.Shift

namespace Elliptica.Gen.Shift.Eq0

/-- eq_XCTS_crv_ex_T1_ddm_eq_B0_U0.c:74-84 -/
noncomputable def F00_U0 (x : In) : ℝ :=
  (2 * x.AConfIJ_UU 0 0 * x.ChrisConf_UDD 0 0 0 + x.AConfIJ_UU 0 0 * x.ChrisConf_UDD 1 0 1 + x.AConfIJ_UU 0 0 * x.ChrisConf_UDD
      2 0 2 + 3 * x.AConfIJ_UU 0 1 * x.ChrisConf_UDD 0 0 1 + x.AConfIJ_UU 0 1 * x.ChrisConf_UDD 1 1 1 + x.AConfIJ_UU 0 1 *
      x.ChrisConf_UDD 2 1 2 + 3 * x.AConfIJ_UU 0 2 * x.ChrisConf_UDD 0 0 2 + x.AConfIJ_UU 0 2 * x.ChrisConf_UDD 1 1 2 +
      x.AConfIJ_UU 0 2 * x.ChrisConf_UDD 2 2 2 + x.AConfIJ_UU 1 1 * x.ChrisConf_UDD 0 1 1 + 2 * x.AConfIJ_UU 1 2 *
      x.ChrisConf_UDD 0 1 2 + x.AConfIJ_UU 2 2 * x.ChrisConf_UDD 0 2 2 + x.dAConfIJ_UUD 0 0 0 + x.dAConfIJ_UUD 0 1 1 +
      x.dAConfIJ_UUD 0 2 2) / x.psi ^ 3

/-- eq_XCTS_crv_ex_T1_ddm_eq_B0_U0.c:88-89 -/
noncomputable def F0_U0 (x : In) : ℝ :=
  F00_U0 x / x.psi ^ 4

/-- eq_XCTS_crv_ex_T1_ddm_eq_B0_U0.c:93-95 -/
noncomputable def F1_U0 (x : In) : ℝ :=
  (2 / 3) * (-x.dtrK_D 0 * x.igConf_UU 0 0 - x.dtrK_D 1 * x.igConf_UU 0 1 - x.dtrK_D 2 * x.igConf_UU 0 2) / x.psi

/-- eq_XCTS_crv_ex_T1_ddm_eq_B0_U0.c:99-100 -/
noncomputable def s_U0 (x : In) : ℝ :=
  -8 * Real.pi * x.JConfP_U 0 / x.psi ^ 3

/-- eq_XCTS_crv_ex_T1_ddm_eq_B0_U0.c:104-105 -/
noncomputable def ell_U0 (x : In) : ℝ :=
  x.JConfC * (F0_U0 x + F1_U0 x)

/-- eq_XCTS_crv_ex_T1_ddm_eq_B0_U0.c:109-110 -/
noncomputable def F_eq_U0 (x : In) : ℝ :=
  2 * x.alphaPsi * (ell_U0 x + s_U0 x)

/-- eq_XCTS_crv_ex_T1_ddm_eq_B0_U0.c:114 the value written to schur_F -/
noncomputable def out_schur_F (x : In) : ℝ :=
  F_eq_U0 x

end Elliptica.Gen.Shift.Eq0

namespace Elliptica.Gen.Shift.JacEq0

/-- eq_XCTS_crv_ex_T1_ddm_Jac_eq_B0_U0.c:131-132 -/
noncomputable def dLnOf_alpha_B_U0 (x : In) : ℝ :=
  -7 * x.dpsi_D 0 / x.psi + x.dalphaPsi_D 0 / x.alphaPsi

/-- eq_XCTS_crv_ex_T1_ddm_Jac_eq_B0_U0.c:134-135 -/
noncomputable def dLnOf_alpha_B_U1 (x : In) : ℝ :=
  -7 * x.dpsi_D 1 / x.psi + x.dalphaPsi_D 1 / x.alphaPsi

/-- eq_XCTS_crv_ex_T1_ddm_Jac_eq_B0_U0.c:137-138 -/
noncomputable def dLnOf_alpha_B_U2 (x : In) : ℝ :=
  -7 * x.dpsi_D 2 / x.psi + x.dalphaPsi_D 2 / x.alphaPsi

/-- eq_XCTS_crv_ex_T1_ddm_Jac_eq_B0_U0.c:140-150 -/
noncomputable def t1_B_U0 (x : In) : ℝ :=
  x.igConf_UU 0 0 * (x.JJB0_DD 0 0 + x.dChrisConf_UDDD 0 0 0 0 * x.kd) + x.igConf_UU 0 1 * (x.JJB0_DD 0 1 + x.dChrisConf_UDDD 0
      0 0 1 * x.kd) + x.igConf_UU 0 1 * (x.JJB0_DD 0 1 + x.dChrisConf_UDDD 0 0 1 0 * x.kd) + x.igConf_UU 0 2 * (x.JJB0_DD 0 2 +
      x.dChrisConf_UDDD 0 0 0 2 * x.kd) + x.igConf_UU 0 2 * (x.JJB0_DD 0 2 + x.dChrisConf_UDDD 0 0 2 0 * x.kd) + x.igConf_UU 1
      1 * (x.JJB0_DD 1 1 + x.dChrisConf_UDDD 0 0 1 1 * x.kd) + x.igConf_UU 1 2 * (x.JJB0_DD 1 2 + x.dChrisConf_UDDD 0 0 1 2 *
      x.kd) + x.igConf_UU 1 2 * (x.JJB0_DD 1 2 + x.dChrisConf_UDDD 0 0 2 1 * x.kd) + x.igConf_UU 2 2 * (x.JJB0_DD 2 2 +
      x.dChrisConf_UDDD 0 0 2 2 * x.kd)

/-- eq_XCTS_crv_ex_T1_ddm_Jac_eq_B0_U0.c:154-161 -/
noncomputable def t2_B_U0 (x : In) : ℝ :=
  2 * x.ChrisConf_UDD 0 0 0 * x.JB0_D 0 * x.igConf_UU 0 0 + 2 * x.ChrisConf_UDD 0 0 1 * x.JB0_D 1 * x.igConf_UU 1 1 + 2 *
      x.ChrisConf_UDD 0 0 2 * x.JB0_D 2 * x.igConf_UU 2 2 + 2 * x.igConf_UU 0 1 * (x.ChrisConf_UDD 0 0 0 * x.JB0_D 1 +
      x.ChrisConf_UDD 0 0 1 * x.JB0_D 0) + 2 * x.igConf_UU 0 2 * (x.ChrisConf_UDD 0 0 0 * x.JB0_D 2 + x.ChrisConf_UDD 0 0 2 *
      x.JB0_D 0) + 2 * x.igConf_UU 1 2 * (x.ChrisConf_UDD 0 0 1 * x.JB0_D 2 + x.ChrisConf_UDD 0 0 2 * x.JB0_D 1)

/-- eq_XCTS_crv_ex_T1_ddm_Jac_eq_B0_U0.c:165-189 -/
noncomputable def t3_B_U0 (x : In) : ℝ :=
  x.kd * ((x.ChrisConf_UDD 0 0 0) ^ 2 * x.igConf_UU 0 0 + 2 * x.ChrisConf_UDD 0 0 0 * x.ChrisConf_UDD 0 0 1 * x.igConf_UU 0 1 +
      2 * x.ChrisConf_UDD 0 0 0 * x.ChrisConf_UDD 0 0 2 * x.igConf_UU 0 2 + (x.ChrisConf_UDD 0 0 1) ^ 2 * x.igConf_UU 1 1 + 2 *
      x.ChrisConf_UDD 0 0 1 * x.ChrisConf_UDD 0 0 2 * x.igConf_UU 1 2 + x.ChrisConf_UDD 0 0 1 * x.ChrisConf_UDD 1 0 0 *
      x.igConf_UU 0 0 + x.ChrisConf_UDD 0 0 1 * x.ChrisConf_UDD 1 0 1 * x.igConf_UU 0 1 + x.ChrisConf_UDD 0 0 1 *
      x.ChrisConf_UDD 1 0 2 * x.igConf_UU 0 2 + (x.ChrisConf_UDD 0 0 2) ^ 2 * x.igConf_UU 2 2 + x.ChrisConf_UDD 0 0 2 *
      x.ChrisConf_UDD 2 0 0 * x.igConf_UU 0 0 + x.ChrisConf_UDD 0 0 2 * x.ChrisConf_UDD 2 0 1 * x.igConf_UU 0 1 +
      x.ChrisConf_UDD 0 0 2 * x.ChrisConf_UDD 2 0 2 * x.igConf_UU 0 2 + x.ChrisConf_UDD 0 1 1 * x.ChrisConf_UDD 1 0 0 *
      x.igConf_UU 0 1 + x.ChrisConf_UDD 0 1 1 * x.ChrisConf_UDD 1 0 1 * x.igConf_UU 1 1 + x.ChrisConf_UDD 0 1 1 *
      x.ChrisConf_UDD 1 0 2 * x.igConf_UU 1 2 + x.ChrisConf_UDD 0 1 2 * x.ChrisConf_UDD 1 0 0 * x.igConf_UU 0 2 +
      x.ChrisConf_UDD 0 1 2 * x.ChrisConf_UDD 1 0 1 * x.igConf_UU 1 2 + x.ChrisConf_UDD 0 1 2 * x.ChrisConf_UDD 1 0 2 *
      x.igConf_UU 2 2 + x.ChrisConf_UDD 0 1 2 * x.ChrisConf_UDD 2 0 0 * x.igConf_UU 0 1 + x.ChrisConf_UDD 0 1 2 *
      x.ChrisConf_UDD 2 0 1 * x.igConf_UU 1 1 + x.ChrisConf_UDD 0 1 2 * x.ChrisConf_UDD 2 0 2 * x.igConf_UU 1 2 +
      x.ChrisConf_UDD 0 2 2 * x.ChrisConf_UDD 2 0 0 * x.igConf_UU 0 2 + x.ChrisConf_UDD 0 2 2 * x.ChrisConf_UDD 2 0 1 *
      x.igConf_UU 1 2 + x.ChrisConf_UDD 0 2 2 * x.ChrisConf_UDD 2 0 2 * x.igConf_UU 2 2)

/-- eq_XCTS_crv_ex_T1_ddm_Jac_eq_B0_U0.c:193-218 -/
noncomputable def t4_B_U0 (x : In) : ℝ :=
  -x.igConf_UU 0 0 * (x.ChrisConf_UDD 0 0 0 * x.JB0_D 0 + x.ChrisConf_UDD 1 0 0 * x.JB0_D 1 + x.ChrisConf_UDD 2 0 0 * x.JB0_D 2
      + x.kd * ((x.ChrisConf_UDD 0 0 0) ^ 2 + x.ChrisConf_UDD 0 0 1 * x.ChrisConf_UDD 1 0 0 + x.ChrisConf_UDD 0 0 2 *
      x.ChrisConf_UDD 2 0 0)) - 2 * x.igConf_UU 0 1 * (x.ChrisConf_UDD 0 0 1 * x.JB0_D 0 + x.ChrisConf_UDD 1 0 1 * x.JB0_D 1 +
      x.ChrisConf_UDD 2 0 1 * x.JB0_D 2 + x.kd * (x.ChrisConf_UDD 0 0 0 * x.ChrisConf_UDD 0 0 1 + x.ChrisConf_UDD 0 0 1 *
      x.ChrisConf_UDD 1 0 1 + x.ChrisConf_UDD 0 0 2 * x.ChrisConf_UDD 2 0 1)) - 2 * x.igConf_UU 0 2 * (x.ChrisConf_UDD 0 0 2 *
      x.JB0_D 0 + x.ChrisConf_UDD 1 0 2 * x.JB0_D 1 + x.ChrisConf_UDD 2 0 2 * x.JB0_D 2 + x.kd * (x.ChrisConf_UDD 0 0 0 *
      x.ChrisConf_UDD 0 0 2 + x.ChrisConf_UDD 0 0 1 * x.ChrisConf_UDD 1 0 2 + x.ChrisConf_UDD 0 0 2 * x.ChrisConf_UDD 2 0 2)) -
      x.igConf_UU 1 1 * (x.ChrisConf_UDD 0 1 1 * x.JB0_D 0 + x.ChrisConf_UDD 1 1 1 * x.JB0_D 1 + x.ChrisConf_UDD 2 1 1 *
      x.JB0_D 2 + x.kd * (x.ChrisConf_UDD 0 0 0 * x.ChrisConf_UDD 0 1 1 + x.ChrisConf_UDD 0 0 1 * x.ChrisConf_UDD 1 1 1 +
      x.ChrisConf_UDD 0 0 2 * x.ChrisConf_UDD 2 1 1)) - 2 * x.igConf_UU 1 2 * (x.ChrisConf_UDD 0 1 2 * x.JB0_D 0 +
      x.ChrisConf_UDD 1 1 2 * x.JB0_D 1 + x.ChrisConf_UDD 2 1 2 * x.JB0_D 2 + x.kd * (x.ChrisConf_UDD 0 0 0 * x.ChrisConf_UDD 0
      1 2 + x.ChrisConf_UDD 0 0 1 * x.ChrisConf_UDD 1 1 2 + x.ChrisConf_UDD 0 0 2 * x.ChrisConf_UDD 2 1 2)) - x.igConf_UU 2 2 *
      (x.ChrisConf_UDD 0 2 2 * x.JB0_D 0 + x.ChrisConf_UDD 1 2 2 * x.JB0_D 1 + x.ChrisConf_UDD 2 2 2 * x.JB0_D 2 + x.kd *
      (x.ChrisConf_UDD 0 0 0 * x.ChrisConf_UDD 0 2 2 + x.ChrisConf_UDD 0 0 1 * x.ChrisConf_UDD 1 2 2 + x.ChrisConf_UDD 0 0 2 *
      x.ChrisConf_UDD 2 2 2))

/-- eq_XCTS_crv_ex_T1_ddm_Jac_eq_B0_U0.c:222-230 -/
noncomputable def t5_B_U0 (x : In) : ℝ :=
  (1 / 3) * x.igConf_UU 0 0 * (x.JJB0_DD 0 0 + x.kd * (x.dChrisConf_UDDD 0 0 0 0 + x.dChrisConf_UDDD 1 0 1 0 +
      x.dChrisConf_UDDD 2 0 2 0)) + (1 / 3) * x.igConf_UU 0 1 * (x.JJB0_DD 0 1 + x.kd * (x.dChrisConf_UDDD 0 0 0 1 +
      x.dChrisConf_UDDD 1 0 1 1 + x.dChrisConf_UDDD 2 0 2 1)) + (1 / 3) * x.igConf_UU 0 2 * (x.JJB0_DD 0 2 + x.kd *
      (x.dChrisConf_UDDD 0 0 0 2 + x.dChrisConf_UDDD 1 0 1 2 + x.dChrisConf_UDDD 2 0 2 2))

/-- eq_XCTS_crv_ex_T1_ddm_Jac_eq_B0_U0.c:234-244 -/
noncomputable def t6_B_U0 (x : In) : ℝ :=
  (1 / 3) * x.igConf_UU 0 0 * (2 * x.ChrisConf_UDD 0 0 0 * x.JB0_D 0 + x.ChrisConf_UDD 1 0 0 * x.JB0_D 1 + x.ChrisConf_UDD 1 0
      1 * x.JB0_D 0 + x.ChrisConf_UDD 2 0 0 * x.JB0_D 2 + x.ChrisConf_UDD 2 0 2 * x.JB0_D 0) + (1 / 3) * x.igConf_UU 0 1 *
      (x.ChrisConf_UDD 0 0 0 * x.JB0_D 1 + x.ChrisConf_UDD 0 0 1 * x.JB0_D 0 + 2 * x.ChrisConf_UDD 1 0 1 * x.JB0_D 1 +
      x.ChrisConf_UDD 2 0 1 * x.JB0_D 2 + x.ChrisConf_UDD 2 0 2 * x.JB0_D 1) + (1 / 3) * x.igConf_UU 0 2 * (x.ChrisConf_UDD 0 0
      0 * x.JB0_D 2 + x.ChrisConf_UDD 0 0 2 * x.JB0_D 0 + x.ChrisConf_UDD 1 0 1 * x.JB0_D 2 + x.ChrisConf_UDD 1 0 2 * x.JB0_D 1
      + 2 * x.ChrisConf_UDD 2 0 2 * x.JB0_D 2)

/-- eq_XCTS_crv_ex_T1_ddm_Jac_eq_B0_U0.c:248-280 -/
noncomputable def t7_B_U0 (x : In) : ℝ :=
  x.kd * ((1 / 3) * (x.ChrisConf_UDD 0 0 0) ^ 2 * x.igConf_UU 0 0 + (1 / 3) * x.ChrisConf_UDD 0 0 0 * x.ChrisConf_UDD 0 0 1 *
      x.igConf_UU 0 1 + (1 / 3) * x.ChrisConf_UDD 0 0 0 * x.ChrisConf_UDD 0 0 2 * x.igConf_UU 0 2 + (2 / 3) * x.ChrisConf_UDD 0
      0 1 * x.ChrisConf_UDD 1 0 0 * x.igConf_UU 0 0 + (1 / 3) * x.ChrisConf_UDD 0 0 1 * x.ChrisConf_UDD 1 0 1 * x.igConf_UU 0 1
      + (1 / 3) * x.ChrisConf_UDD 0 0 1 * x.ChrisConf_UDD 1 0 2 * x.igConf_UU 0 2 + (2 / 3) * x.ChrisConf_UDD 0 0 2 *
      x.ChrisConf_UDD 2 0 0 * x.igConf_UU 0 0 + (1 / 3) * x.ChrisConf_UDD 0 0 2 * x.ChrisConf_UDD 2 0 1 * x.igConf_UU 0 1 + (1
      / 3) * x.ChrisConf_UDD 0 0 2 * x.ChrisConf_UDD 2 0 2 * x.igConf_UU 0 2 + (1 / 3) * x.ChrisConf_UDD 0 1 1 *
      x.ChrisConf_UDD 1 0 0 * x.igConf_UU 0 1 + (1 / 3) * x.ChrisConf_UDD 0 1 2 * x.ChrisConf_UDD 1 0 0 * x.igConf_UU 0 2 + (1
      / 3) * x.ChrisConf_UDD 0 1 2 * x.ChrisConf_UDD 2 0 0 * x.igConf_UU 0 1 + (1 / 3) * x.ChrisConf_UDD 0 2 2 *
      x.ChrisConf_UDD 2 0 0 * x.igConf_UU 0 2 + (1 / 3) * (x.ChrisConf_UDD 1 0 1) ^ 2 * x.igConf_UU 0 0 + (1 / 3) *
      x.ChrisConf_UDD 1 0 1 * x.ChrisConf_UDD 1 1 1 * x.igConf_UU 0 1 + (1 / 3) * x.ChrisConf_UDD 1 0 1 * x.ChrisConf_UDD 1 1 2
      * x.igConf_UU 0 2 + (2 / 3) * x.ChrisConf_UDD 1 0 2 * x.ChrisConf_UDD 2 0 1 * x.igConf_UU 0 0 + (1 / 3) * x.ChrisConf_UDD
      1 0 2 * x.ChrisConf_UDD 2 1 1 * x.igConf_UU 0 1 + (1 / 3) * x.ChrisConf_UDD 1 0 2 * x.ChrisConf_UDD 2 1 2 * x.igConf_UU 0
      2 + (1 / 3) * x.ChrisConf_UDD 1 1 2 * x.ChrisConf_UDD 2 0 1 * x.igConf_UU 0 1 + (1 / 3) * x.ChrisConf_UDD 1 2 2 *
      x.ChrisConf_UDD 2 0 1 * x.igConf_UU 0 2 + (1 / 3) * (x.ChrisConf_UDD 2 0 2) ^ 2 * x.igConf_UU 0 0 + (1 / 3) *
      x.ChrisConf_UDD 2 0 2 * x.ChrisConf_UDD 2 1 2 * x.igConf_UU 0 1 + (1 / 3) * x.ChrisConf_UDD 2 0 2 * x.ChrisConf_UDD 2 2 2
      * x.igConf_UU 0 2)

/-- eq_XCTS_crv_ex_T1_ddm_Jac_eq_B0_U0.c:284-307 -/
noncomputable def t8_B_U0 (x : In) : ℝ :=
  -(1 / 3) * x.igConf_UU 0 0 * (x.ChrisConf_UDD 0 0 0 * x.JB0_D 0 + x.ChrisConf_UDD 1 0 0 * x.JB0_D 1 + x.ChrisConf_UDD 2 0 0 *
      x.JB0_D 2 + x.kd * ((x.ChrisConf_UDD 0 0 0) ^ 2 + 2 * x.ChrisConf_UDD 0 0 1 * x.ChrisConf_UDD 1 0 0 + 2 * x.ChrisConf_UDD
      0 0 2 * x.ChrisConf_UDD 2 0 0 + (x.ChrisConf_UDD 1 0 1) ^ 2 + 2 * x.ChrisConf_UDD 1 0 2 * x.ChrisConf_UDD 2 0 1 +
      (x.ChrisConf_UDD 2 0 2) ^ 2)) - (1 / 3) * x.igConf_UU 0 1 * (x.ChrisConf_UDD 0 0 1 * x.JB0_D 0 + x.ChrisConf_UDD 1 0 1 *
      x.JB0_D 1 + x.ChrisConf_UDD 2 0 1 * x.JB0_D 2 + x.kd * (x.ChrisConf_UDD 0 0 0 * x.ChrisConf_UDD 0 0 1 + x.ChrisConf_UDD 0
      0 1 * x.ChrisConf_UDD 1 0 1 + x.ChrisConf_UDD 0 0 2 * x.ChrisConf_UDD 2 0 1 + x.ChrisConf_UDD 0 1 1 * x.ChrisConf_UDD 1 0
      0 + x.ChrisConf_UDD 0 1 2 * x.ChrisConf_UDD 2 0 0 + x.ChrisConf_UDD 1 0 1 * x.ChrisConf_UDD 1 1 1 + x.ChrisConf_UDD 1 0 2
      * x.ChrisConf_UDD 2 1 1 + x.ChrisConf_UDD 1 1 2 * x.ChrisConf_UDD 2 0 1 + x.ChrisConf_UDD 2 0 2 * x.ChrisConf_UDD 2 1 2))
      - (1 / 3) * x.igConf_UU 0 2 * (x.ChrisConf_UDD 0 0 2 * x.JB0_D 0 + x.ChrisConf_UDD 1 0 2 * x.JB0_D 1 + x.ChrisConf_UDD 2
      0 2 * x.JB0_D 2 + x.kd * (x.ChrisConf_UDD 0 0 0 * x.ChrisConf_UDD 0 0 2 + x.ChrisConf_UDD 0 0 1 * x.ChrisConf_UDD 1 0 2 +
      x.ChrisConf_UDD 0 0 2 * x.ChrisConf_UDD 2 0 2 + x.ChrisConf_UDD 0 1 2 * x.ChrisConf_UDD 1 0 0 + x.ChrisConf_UDD 0 2 2 *
      x.ChrisConf_UDD 2 0 0 + x.ChrisConf_UDD 1 0 1 * x.ChrisConf_UDD 1 1 2 + x.ChrisConf_UDD 1 0 2 * x.ChrisConf_UDD 2 1 2 +
      x.ChrisConf_UDD 1 2 2 * x.ChrisConf_UDD 2 0 1 + x.ChrisConf_UDD 2 0 2 * x.ChrisConf_UDD 2 2 2))

/-- eq_XCTS_crv_ex_T1_ddm_Jac_eq_B0_U0.c:311-314 -/
noncomputable def t9_B_U0 (x : In) : ℝ :=
  x.kd * (x.RicciConf_DD 0 0 * x.igConf_UU 0 0 + x.RicciConf_DD 0 1 * x.igConf_UU 0 1 + x.RicciConf_DD 0 2 * x.igConf_UU 0 2)

/-- eq_XCTS_crv_ex_T1_ddm_Jac_eq_B0_U0.c:318-320 -/
noncomputable def contB (x : In) : ℝ :=
  x.JB0_D 0 + x.kd * (x.ChrisConf_UDD 0 0 0 + x.ChrisConf_UDD 1 0 1 + x.ChrisConf_UDD 2 0 2)

/-- eq_XCTS_crv_ex_T1_ddm_Jac_eq_B0_U0.c:322-325 -/
noncomputable def t1p10_B_U0 (x : In) : ℝ :=
  (2 / 3) * contB x * (dLnOf_alpha_B_U0 x * x.igConf_UU 0 0 + dLnOf_alpha_B_U1 x * x.igConf_UU 0 1 + dLnOf_alpha_B_U2 x *
      x.igConf_UU 0 2)

/-- eq_XCTS_crv_ex_T1_ddm_Jac_eq_B0_U0.c:329-341 -/
noncomputable def t2p10_B_U0 (x : In) : ℝ :=
  -dLnOf_alpha_B_U0 x * x.igConf_UU 0 0 * (x.ChrisConf_UDD 0 0 0 * x.kd + x.JB0_D 0) - dLnOf_alpha_B_U0 x * x.igConf_UU 0 1 *
      (x.ChrisConf_UDD 0 0 1 * x.kd + x.JB0_D 1) - dLnOf_alpha_B_U0 x * x.igConf_UU 0 2 * (x.ChrisConf_UDD 0 0 2 * x.kd +
      x.JB0_D 2) - dLnOf_alpha_B_U1 x * x.igConf_UU 0 1 * (x.ChrisConf_UDD 0 0 0 * x.kd + x.JB0_D 0) - dLnOf_alpha_B_U1 x *
      x.igConf_UU 1 1 * (x.ChrisConf_UDD 0 0 1 * x.kd + x.JB0_D 1) - dLnOf_alpha_B_U1 x * x.igConf_UU 1 2 * (x.ChrisConf_UDD 0
      0 2 * x.kd + x.JB0_D 2) - dLnOf_alpha_B_U2 x * x.igConf_UU 0 2 * (x.ChrisConf_UDD 0 0 0 * x.kd + x.JB0_D 0) -
      dLnOf_alpha_B_U2 x * x.igConf_UU 1 2 * (x.ChrisConf_UDD 0 0 1 * x.kd + x.JB0_D 1) - dLnOf_alpha_B_U2 x * x.igConf_UU 2 2
      * (x.ChrisConf_UDD 0 0 2 * x.kd + x.JB0_D 2)

/-- eq_XCTS_crv_ex_T1_ddm_Jac_eq_B0_U0.c:345-355 -/
noncomputable def t3p10_B_U0 (x : In) : ℝ :=
  -x.ChrisConf_UDD 1 0 0 * dLnOf_alpha_B_U1 x * x.igConf_UU 0 0 * x.kd - x.ChrisConf_UDD 1 0 1 * dLnOf_alpha_B_U1 x *
      x.igConf_UU 0 1 * x.kd - x.ChrisConf_UDD 1 0 2 * dLnOf_alpha_B_U1 x * x.igConf_UU 0 2 * x.kd - x.ChrisConf_UDD 2 0 0 *
      dLnOf_alpha_B_U2 x * x.igConf_UU 0 0 * x.kd - x.ChrisConf_UDD 2 0 1 * dLnOf_alpha_B_U2 x * x.igConf_UU 0 1 * x.kd -
      x.ChrisConf_UDD 2 0 2 * dLnOf_alpha_B_U2 x * x.igConf_UU 0 2 * x.kd - dLnOf_alpha_B_U0 x * x.igConf_UU 0 0 *
      (x.ChrisConf_UDD 0 0 0 * x.kd + x.JB0_D 0) - dLnOf_alpha_B_U0 x * x.igConf_UU 0 1 * (x.ChrisConf_UDD 0 0 1 * x.kd +
      x.JB0_D 1) - dLnOf_alpha_B_U0 x * x.igConf_UU 0 2 * (x.ChrisConf_UDD 0 0 2 * x.kd + x.JB0_D 2)

/-- eq_XCTS_crv_ex_T1_ddm_Jac_eq_B0_U0.c:359-360 -/
noncomputable def t10_B_U0 (x : In) : ℝ :=
  t1p10_B_U0 x + t2p10_B_U0 x + t3p10_B_U0 x

/-- eq_XCTS_crv_ex_T1_ddm_Jac_eq_B0_U0.c:364-366 -/
noncomputable def Bpart_U0 (x : In) : ℝ :=
  t10_B_U0 x + t1_B_U0 x + t2_B_U0 x + t3_B_U0 x + t4_B_U0 x + t5_B_U0 x + t6_B_U0 x + t7_B_U0 x + t8_B_U0 x + t9_B_U0 x

/-- eq_XCTS_crv_ex_T1_ddm_Jac_eq_B0_U0.c:370 -/
noncomputable def Bpart_U0_mul (x : In) : ℝ :=
  Bpart_U0 x * (x.JConfC)

/-- eq_XCTS_crv_ex_T1_ddm_Jac_eq_B0_U0.c:386-387 -/
noncomputable def dLnOf_alpha_E_U0 (x : In) : ℝ :=
  -7 * x.dpsi_D 0 / x.psi + x.dalphaPsi_D 0 / x.alphaPsi

/-- eq_XCTS_crv_ex_T1_ddm_Jac_eq_B0_U0.c:389-390 -/
noncomputable def dLnOf_alpha_E_U1 (x : In) : ℝ :=
  -7 * x.dpsi_D 1 / x.psi + x.dalphaPsi_D 1 / x.alphaPsi

/-- eq_XCTS_crv_ex_T1_ddm_Jac_eq_B0_U0.c:392-393 -/
noncomputable def dLnOf_alpha_E_U2 (x : In) : ℝ :=
  -7 * x.dpsi_D 2 / x.psi + x.dalphaPsi_D 2 / x.alphaPsi

/-- eq_XCTS_crv_ex_T1_ddm_Jac_eq_B0_U0.c:395-405 -/
noncomputable def t1_E_U0 (x : In) : ℝ :=
  x.igConf_UU 0 0 * (x.JJB0_DD 0 0 + x.dChrisConf_UDDD 0 0 0 0 * x.kd) + x.igConf_UU 0 1 * (x.JJB0_DD 0 1 + x.dChrisConf_UDDD 0
      0 0 1 * x.kd) + x.igConf_UU 0 1 * (x.JJB0_DD 0 1 + x.dChrisConf_UDDD 0 0 1 0 * x.kd) + x.igConf_UU 0 2 * (x.JJB0_DD 0 2 +
      x.dChrisConf_UDDD 0 0 0 2 * x.kd) + x.igConf_UU 0 2 * (x.JJB0_DD 0 2 + x.dChrisConf_UDDD 0 0 2 0 * x.kd) + x.igConf_UU 1
      1 * (x.JJB0_DD 1 1 + x.dChrisConf_UDDD 0 0 1 1 * x.kd) + x.igConf_UU 1 2 * (x.JJB0_DD 1 2 + x.dChrisConf_UDDD 0 0 1 2 *
      x.kd) + x.igConf_UU 1 2 * (x.JJB0_DD 1 2 + x.dChrisConf_UDDD 0 0 2 1 * x.kd) + x.igConf_UU 2 2 * (x.JJB0_DD 2 2 +
      x.dChrisConf_UDDD 0 0 2 2 * x.kd)

/-- eq_XCTS_crv_ex_T1_ddm_Jac_eq_B0_U0.c:409-416 -/
noncomputable def t2_E_U0 (x : In) : ℝ :=
  2 * x.ChrisConf_UDD 0 0 0 * x.JB0_D 0 * x.igConf_UU 0 0 + 2 * x.ChrisConf_UDD 0 0 1 * x.JB0_D 1 * x.igConf_UU 1 1 + 2 *
      x.ChrisConf_UDD 0 0 2 * x.JB0_D 2 * x.igConf_UU 2 2 + 2 * x.igConf_UU 0 1 * (x.ChrisConf_UDD 0 0 0 * x.JB0_D 1 +
      x.ChrisConf_UDD 0 0 1 * x.JB0_D 0) + 2 * x.igConf_UU 0 2 * (x.ChrisConf_UDD 0 0 0 * x.JB0_D 2 + x.ChrisConf_UDD 0 0 2 *
      x.JB0_D 0) + 2 * x.igConf_UU 1 2 * (x.ChrisConf_UDD 0 0 1 * x.JB0_D 2 + x.ChrisConf_UDD 0 0 2 * x.JB0_D 1)

/-- eq_XCTS_crv_ex_T1_ddm_Jac_eq_B0_U0.c:420-444 -/
noncomputable def t3_E_U0 (x : In) : ℝ :=
  x.kd * ((x.ChrisConf_UDD 0 0 0) ^ 2 * x.igConf_UU 0 0 + 2 * x.ChrisConf_UDD 0 0 0 * x.ChrisConf_UDD 0 0 1 * x.igConf_UU 0 1 +
      2 * x.ChrisConf_UDD 0 0 0 * x.ChrisConf_UDD 0 0 2 * x.igConf_UU 0 2 + (x.ChrisConf_UDD 0 0 1) ^ 2 * x.igConf_UU 1 1 + 2 *
      x.ChrisConf_UDD 0 0 1 * x.ChrisConf_UDD 0 0 2 * x.igConf_UU 1 2 + x.ChrisConf_UDD 0 0 1 * x.ChrisConf_UDD 1 0 0 *
      x.igConf_UU 0 0 + x.ChrisConf_UDD 0 0 1 * x.ChrisConf_UDD 1 0 1 * x.igConf_UU 0 1 + x.ChrisConf_UDD 0 0 1 *
      x.ChrisConf_UDD 1 0 2 * x.igConf_UU 0 2 + (x.ChrisConf_UDD 0 0 2) ^ 2 * x.igConf_UU 2 2 + x.ChrisConf_UDD 0 0 2 *
      x.ChrisConf_UDD 2 0 0 * x.igConf_UU 0 0 + x.ChrisConf_UDD 0 0 2 * x.ChrisConf_UDD 2 0 1 * x.igConf_UU 0 1 +
      x.ChrisConf_UDD 0 0 2 * x.ChrisConf_UDD 2 0 2 * x.igConf_UU 0 2 + x.ChrisConf_UDD 0 1 1 * x.ChrisConf_UDD 1 0 0 *
      x.igConf_UU 0 1 + x.ChrisConf_UDD 0 1 1 * x.ChrisConf_UDD 1 0 1 * x.igConf_UU 1 1 + x.ChrisConf_UDD 0 1 1 *
      x.ChrisConf_UDD 1 0 2 * x.igConf_UU 1 2 + x.ChrisConf_UDD 0 1 2 * x.ChrisConf_UDD 1 0 0 * x.igConf_UU 0 2 +
      x.ChrisConf_UDD 0 1 2 * x.ChrisConf_UDD 1 0 1 * x.igConf_UU 1 2 + x.ChrisConf_UDD 0 1 2 * x.ChrisConf_UDD 1 0 2 *
      x.igConf_UU 2 2 + x.ChrisConf_UDD 0 1 2 * x.ChrisConf_UDD 2 0 0 * x.igConf_UU 0 1 + x.ChrisConf_UDD 0 1 2 *
      x.ChrisConf_UDD 2 0 1 * x.igConf_UU 1 1 + x.ChrisConf_UDD 0 1 2 * x.ChrisConf_UDD 2 0 2 * x.igConf_UU 1 2 +
      x.ChrisConf_UDD 0 2 2 * x.ChrisConf_UDD 2 0 0 * x.igConf_UU 0 2 + x.ChrisConf_UDD 0 2 2 * x.ChrisConf_UDD 2 0 1 *
      x.igConf_UU 1 2 + x.ChrisConf_UDD 0 2 2 * x.ChrisConf_UDD 2 0 2 * x.igConf_UU 2 2)

/-- eq_XCTS_crv_ex_T1_ddm_Jac_eq_B0_U0.c:448-473 -/
noncomputable def t4_E_U0 (x : In) : ℝ :=
  -x.igConf_UU 0 0 * (x.ChrisConf_UDD 0 0 0 * x.JB0_D 0 + x.ChrisConf_UDD 1 0 0 * x.JB0_D 1 + x.ChrisConf_UDD 2 0 0 * x.JB0_D 2
      + x.kd * ((x.ChrisConf_UDD 0 0 0) ^ 2 + x.ChrisConf_UDD 0 0 1 * x.ChrisConf_UDD 1 0 0 + x.ChrisConf_UDD 0 0 2 *
      x.ChrisConf_UDD 2 0 0)) - 2 * x.igConf_UU 0 1 * (x.ChrisConf_UDD 0 0 1 * x.JB0_D 0 + x.ChrisConf_UDD 1 0 1 * x.JB0_D 1 +
      x.ChrisConf_UDD 2 0 1 * x.JB0_D 2 + x.kd * (x.ChrisConf_UDD 0 0 0 * x.ChrisConf_UDD 0 0 1 + x.ChrisConf_UDD 0 0 1 *
      x.ChrisConf_UDD 1 0 1 + x.ChrisConf_UDD 0 0 2 * x.ChrisConf_UDD 2 0 1)) - 2 * x.igConf_UU 0 2 * (x.ChrisConf_UDD 0 0 2 *
      x.JB0_D 0 + x.ChrisConf_UDD 1 0 2 * x.JB0_D 1 + x.ChrisConf_UDD 2 0 2 * x.JB0_D 2 + x.kd * (x.ChrisConf_UDD 0 0 0 *
      x.ChrisConf_UDD 0 0 2 + x.ChrisConf_UDD 0 0 1 * x.ChrisConf_UDD 1 0 2 + x.ChrisConf_UDD 0 0 2 * x.ChrisConf_UDD 2 0 2)) -
      x.igConf_UU 1 1 * (x.ChrisConf_UDD 0 1 1 * x.JB0_D 0 + x.ChrisConf_UDD 1 1 1 * x.JB0_D 1 + x.ChrisConf_UDD 2 1 1 *
      x.JB0_D 2 + x.kd * (x.ChrisConf_UDD 0 0 0 * x.ChrisConf_UDD 0 1 1 + x.ChrisConf_UDD 0 0 1 * x.ChrisConf_UDD 1 1 1 +
      x.ChrisConf_UDD 0 0 2 * x.ChrisConf_UDD 2 1 1)) - 2 * x.igConf_UU 1 2 * (x.ChrisConf_UDD 0 1 2 * x.JB0_D 0 +
      x.ChrisConf_UDD 1 1 2 * x.JB0_D 1 + x.ChrisConf_UDD 2 1 2 * x.JB0_D 2 + x.kd * (x.ChrisConf_UDD 0 0 0 * x.ChrisConf_UDD 0
      1 2 + x.ChrisConf_UDD 0 0 1 * x.ChrisConf_UDD 1 1 2 + x.ChrisConf_UDD 0 0 2 * x.ChrisConf_UDD 2 1 2)) - x.igConf_UU 2 2 *
      (x.ChrisConf_UDD 0 2 2 * x.JB0_D 0 + x.ChrisConf_UDD 1 2 2 * x.JB0_D 1 + x.ChrisConf_UDD 2 2 2 * x.JB0_D 2 + x.kd *
      (x.ChrisConf_UDD 0 0 0 * x.ChrisConf_UDD 0 2 2 + x.ChrisConf_UDD 0 0 1 * x.ChrisConf_UDD 1 2 2 + x.ChrisConf_UDD 0 0 2 *
      x.ChrisConf_UDD 2 2 2))

/-- eq_XCTS_crv_ex_T1_ddm_Jac_eq_B0_U0.c:477-485 -/
noncomputable def t5_E_U0 (x : In) : ℝ :=
  (1 / 3) * x.igConf_UU 0 0 * (x.JJB0_DD 0 0 + x.kd * (x.dChrisConf_UDDD 0 0 0 0 + x.dChrisConf_UDDD 1 0 1 0 +
      x.dChrisConf_UDDD 2 0 2 0)) + (1 / 3) * x.igConf_UU 0 1 * (x.JJB0_DD 0 1 + x.kd * (x.dChrisConf_UDDD 0 0 0 1 +
      x.dChrisConf_UDDD 1 0 1 1 + x.dChrisConf_UDDD 2 0 2 1)) + (1 / 3) * x.igConf_UU 0 2 * (x.JJB0_DD 0 2 + x.kd *
      (x.dChrisConf_UDDD 0 0 0 2 + x.dChrisConf_UDDD 1 0 1 2 + x.dChrisConf_UDDD 2 0 2 2))

/-- eq_XCTS_crv_ex_T1_ddm_Jac_eq_B0_U0.c:489-499 -/
noncomputable def t6_E_U0 (x : In) : ℝ :=
  (1 / 3) * x.igConf_UU 0 0 * (2 * x.ChrisConf_UDD 0 0 0 * x.JB0_D 0 + x.ChrisConf_UDD 1 0 0 * x.JB0_D 1 + x.ChrisConf_UDD 1 0
      1 * x.JB0_D 0 + x.ChrisConf_UDD 2 0 0 * x.JB0_D 2 + x.ChrisConf_UDD 2 0 2 * x.JB0_D 0) + (1 / 3) * x.igConf_UU 0 1 *
      (x.ChrisConf_UDD 0 0 0 * x.JB0_D 1 + x.ChrisConf_UDD 0 0 1 * x.JB0_D 0 + 2 * x.ChrisConf_UDD 1 0 1 * x.JB0_D 1 +
      x.ChrisConf_UDD 2 0 1 * x.JB0_D 2 + x.ChrisConf_UDD 2 0 2 * x.JB0_D 1) + (1 / 3) * x.igConf_UU 0 2 * (x.ChrisConf_UDD 0 0
      0 * x.JB0_D 2 + x.ChrisConf_UDD 0 0 2 * x.JB0_D 0 + x.ChrisConf_UDD 1 0 1 * x.JB0_D 2 + x.ChrisConf_UDD 1 0 2 * x.JB0_D 1
      + 2 * x.ChrisConf_UDD 2 0 2 * x.JB0_D 2)

/-- eq_XCTS_crv_ex_T1_ddm_Jac_eq_B0_U0.c:503-535 -/
noncomputable def t7_E_U0 (x : In) : ℝ :=
  x.kd * ((1 / 3) * (x.ChrisConf_UDD 0 0 0) ^ 2 * x.igConf_UU 0 0 + (1 / 3) * x.ChrisConf_UDD 0 0 0 * x.ChrisConf_UDD 0 0 1 *
      x.igConf_UU 0 1 + (1 / 3) * x.ChrisConf_UDD 0 0 0 * x.ChrisConf_UDD 0 0 2 * x.igConf_UU 0 2 + (2 / 3) * x.ChrisConf_UDD 0
      0 1 * x.ChrisConf_UDD 1 0 0 * x.igConf_UU 0 0 + (1 / 3) * x.ChrisConf_UDD 0 0 1 * x.ChrisConf_UDD 1 0 1 * x.igConf_UU 0 1
      + (1 / 3) * x.ChrisConf_UDD 0 0 1 * x.ChrisConf_UDD 1 0 2 * x.igConf_UU 0 2 + (2 / 3) * x.ChrisConf_UDD 0 0 2 *
      x.ChrisConf_UDD 2 0 0 * x.igConf_UU 0 0 + (1 / 3) * x.ChrisConf_UDD 0 0 2 * x.ChrisConf_UDD 2 0 1 * x.igConf_UU 0 1 + (1
      / 3) * x.ChrisConf_UDD 0 0 2 * x.ChrisConf_UDD 2 0 2 * x.igConf_UU 0 2 + (1 / 3) * x.ChrisConf_UDD 0 1 1 *
      x.ChrisConf_UDD 1 0 0 * x.igConf_UU 0 1 + (1 / 3) * x.ChrisConf_UDD 0 1 2 * x.ChrisConf_UDD 1 0 0 * x.igConf_UU 0 2 + (1
      / 3) * x.ChrisConf_UDD 0 1 2 * x.ChrisConf_UDD 2 0 0 * x.igConf_UU 0 1 + (1 / 3) * x.ChrisConf_UDD 0 2 2 *
      x.ChrisConf_UDD 2 0 0 * x.igConf_UU 0 2 + (1 / 3) * (x.ChrisConf_UDD 1 0 1) ^ 2 * x.igConf_UU 0 0 + (1 / 3) *
      x.ChrisConf_UDD 1 0 1 * x.ChrisConf_UDD 1 1 1 * x.igConf_UU 0 1 + (1 / 3) * x.ChrisConf_UDD 1 0 1 * x.ChrisConf_UDD 1 1 2
      * x.igConf_UU 0 2 + (2 / 3) * x.ChrisConf_UDD 1 0 2 * x.ChrisConf_UDD 2 0 1 * x.igConf_UU 0 0 + (1 / 3) * x.ChrisConf_UDD
      1 0 2 * x.ChrisConf_UDD 2 1 1 * x.igConf_UU 0 1 + (1 / 3) * x.ChrisConf_UDD 1 0 2 * x.ChrisConf_UDD 2 1 2 * x.igConf_UU 0
      2 + (1 / 3) * x.ChrisConf_UDD 1 1 2 * x.ChrisConf_UDD 2 0 1 * x.igConf_UU 0 1 + (1 / 3) * x.ChrisConf_UDD 1 2 2 *
      x.ChrisConf_UDD 2 0 1 * x.igConf_UU 0 2 + (1 / 3) * (x.ChrisConf_UDD 2 0 2) ^ 2 * x.igConf_UU 0 0 + (1 / 3) *
      x.ChrisConf_UDD 2 0 2 * x.ChrisConf_UDD 2 1 2 * x.igConf_UU 0 1 + (1 / 3) * x.ChrisConf_UDD 2 0 2 * x.ChrisConf_UDD 2 2 2
      * x.igConf_UU 0 2)

/-- eq_XCTS_crv_ex_T1_ddm_Jac_eq_B0_U0.c:539-562 -/
noncomputable def t8_E_U0 (x : In) : ℝ :=
  -(1 / 3) * x.igConf_UU 0 0 * (x.ChrisConf_UDD 0 0 0 * x.JB0_D 0 + x.ChrisConf_UDD 1 0 0 * x.JB0_D 1 + x.ChrisConf_UDD 2 0 0 *
      x.JB0_D 2 + x.kd * ((x.ChrisConf_UDD 0 0 0) ^ 2 + 2 * x.ChrisConf_UDD 0 0 1 * x.ChrisConf_UDD 1 0 0 + 2 * x.ChrisConf_UDD
      0 0 2 * x.ChrisConf_UDD 2 0 0 + (x.ChrisConf_UDD 1 0 1) ^ 2 + 2 * x.ChrisConf_UDD 1 0 2 * x.ChrisConf_UDD 2 0 1 +
      (x.ChrisConf_UDD 2 0 2) ^ 2)) - (1 / 3) * x.igConf_UU 0 1 * (x.ChrisConf_UDD 0 0 1 * x.JB0_D 0 + x.ChrisConf_UDD 1 0 1 *
      x.JB0_D 1 + x.ChrisConf_UDD 2 0 1 * x.JB0_D 2 + x.kd * (x.ChrisConf_UDD 0 0 0 * x.ChrisConf_UDD 0 0 1 + x.ChrisConf_UDD 0
      0 1 * x.ChrisConf_UDD 1 0 1 + x.ChrisConf_UDD 0 0 2 * x.ChrisConf_UDD 2 0 1 + x.ChrisConf_UDD 0 1 1 * x.ChrisConf_UDD 1 0
      0 + x.ChrisConf_UDD 0 1 2 * x.ChrisConf_UDD 2 0 0 + x.ChrisConf_UDD 1 0 1 * x.ChrisConf_UDD 1 1 1 + x.ChrisConf_UDD 1 0 2
      * x.ChrisConf_UDD 2 1 1 + x.ChrisConf_UDD 1 1 2 * x.ChrisConf_UDD 2 0 1 + x.ChrisConf_UDD 2 0 2 * x.ChrisConf_UDD 2 1 2))
      - (1 / 3) * x.igConf_UU 0 2 * (x.ChrisConf_UDD 0 0 2 * x.JB0_D 0 + x.ChrisConf_UDD 1 0 2 * x.JB0_D 1 + x.ChrisConf_UDD 2
      0 2 * x.JB0_D 2 + x.kd * (x.ChrisConf_UDD 0 0 0 * x.ChrisConf_UDD 0 0 2 + x.ChrisConf_UDD 0 0 1 * x.ChrisConf_UDD 1 0 2 +
      x.ChrisConf_UDD 0 0 2 * x.ChrisConf_UDD 2 0 2 + x.ChrisConf_UDD 0 1 2 * x.ChrisConf_UDD 1 0 0 + x.ChrisConf_UDD 0 2 2 *
      x.ChrisConf_UDD 2 0 0 + x.ChrisConf_UDD 1 0 1 * x.ChrisConf_UDD 1 1 2 + x.ChrisConf_UDD 1 0 2 * x.ChrisConf_UDD 2 1 2 +
      x.ChrisConf_UDD 1 2 2 * x.ChrisConf_UDD 2 0 1 + x.ChrisConf_UDD 2 0 2 * x.ChrisConf_UDD 2 2 2))

/-- eq_XCTS_crv_ex_T1_ddm_Jac_eq_B0_U0.c:566-569 -/
noncomputable def t9_E_U0 (x : In) : ℝ :=
  x.kd * (x.RicciConf_DD 0 0 * x.igConf_UU 0 0 + x.RicciConf_DD 0 1 * x.igConf_UU 0 1 + x.RicciConf_DD 0 2 * x.igConf_UU 0 2)

/-- eq_XCTS_crv_ex_T1_ddm_Jac_eq_B0_U0.c:573-575 -/
noncomputable def contE (x : In) : ℝ :=
  x.JB0_D 0 + x.kd * (x.ChrisConf_UDD 0 0 0 + x.ChrisConf_UDD 1 0 1 + x.ChrisConf_UDD 2 0 2)

/-- eq_XCTS_crv_ex_T1_ddm_Jac_eq_B0_U0.c:577-580 -/
noncomputable def t1p10_E_U0 (x : In) : ℝ :=
  (2 / 3) * contE x * (dLnOf_alpha_E_U0 x * x.igConf_UU 0 0 + dLnOf_alpha_E_U1 x * x.igConf_UU 0 1 + dLnOf_alpha_E_U2 x *
      x.igConf_UU 0 2)

/-- eq_XCTS_crv_ex_T1_ddm_Jac_eq_B0_U0.c:584-596 -/
noncomputable def t2p10_E_U0 (x : In) : ℝ :=
  -dLnOf_alpha_E_U0 x * x.igConf_UU 0 0 * (x.ChrisConf_UDD 0 0 0 * x.kd + x.JB0_D 0) - dLnOf_alpha_E_U0 x * x.igConf_UU 0 1 *
      (x.ChrisConf_UDD 0 0 1 * x.kd + x.JB0_D 1) - dLnOf_alpha_E_U0 x * x.igConf_UU 0 2 * (x.ChrisConf_UDD 0 0 2 * x.kd +
      x.JB0_D 2) - dLnOf_alpha_E_U1 x * x.igConf_UU 0 1 * (x.ChrisConf_UDD 0 0 0 * x.kd + x.JB0_D 0) - dLnOf_alpha_E_U1 x *
      x.igConf_UU 1 1 * (x.ChrisConf_UDD 0 0 1 * x.kd + x.JB0_D 1) - dLnOf_alpha_E_U1 x * x.igConf_UU 1 2 * (x.ChrisConf_UDD 0
      0 2 * x.kd + x.JB0_D 2) - dLnOf_alpha_E_U2 x * x.igConf_UU 0 2 * (x.ChrisConf_UDD 0 0 0 * x.kd + x.JB0_D 0) -
      dLnOf_alpha_E_U2 x * x.igConf_UU 1 2 * (x.ChrisConf_UDD 0 0 1 * x.kd + x.JB0_D 1) - dLnOf_alpha_E_U2 x * x.igConf_UU 2 2
      * (x.ChrisConf_UDD 0 0 2 * x.kd + x.JB0_D 2)

/-- eq_XCTS_crv_ex_T1_ddm_Jac_eq_B0_U0.c:600-610 -/
noncomputable def t3p10_E_U0 (x : In) : ℝ :=
  -x.ChrisConf_UDD 1 0 0 * dLnOf_alpha_E_U1 x * x.igConf_UU 0 0 * x.kd - x.ChrisConf_UDD 1 0 1 * dLnOf_alpha_E_U1 x *
      x.igConf_UU 0 1 * x.kd - x.ChrisConf_UDD 1 0 2 * dLnOf_alpha_E_U1 x * x.igConf_UU 0 2 * x.kd - x.ChrisConf_UDD 2 0 0 *
      dLnOf_alpha_E_U2 x * x.igConf_UU 0 0 * x.kd - x.ChrisConf_UDD 2 0 1 * dLnOf_alpha_E_U2 x * x.igConf_UU 0 1 * x.kd -
      x.ChrisConf_UDD 2 0 2 * dLnOf_alpha_E_U2 x * x.igConf_UU 0 2 * x.kd - dLnOf_alpha_E_U0 x * x.igConf_UU 0 0 *
      (x.ChrisConf_UDD 0 0 0 * x.kd + x.JB0_D 0) - dLnOf_alpha_E_U0 x * x.igConf_UU 0 1 * (x.ChrisConf_UDD 0 0 1 * x.kd +
      x.JB0_D 1) - dLnOf_alpha_E_U0 x * x.igConf_UU 0 2 * (x.ChrisConf_UDD 0 0 2 * x.kd + x.JB0_D 2)

/-- eq_XCTS_crv_ex_T1_ddm_Jac_eq_B0_U0.c:614-615 -/
noncomputable def t10_E_U0 (x : In) : ℝ :=
  t1p10_E_U0 x + t2p10_E_U0 x + t3p10_E_U0 x

/-- eq_XCTS_crv_ex_T1_ddm_Jac_eq_B0_U0.c:619-621 -/
noncomputable def Epart_U0 (x : In) : ℝ :=
  t10_E_U0 x + t1_E_U0 x + t2_E_U0 x + t3_E_U0 x + t4_E_U0 x + t5_E_U0 x + t6_E_U0 x + t7_E_U0 x + t8_E_U0 x + t9_E_U0 x

/-- eq_XCTS_crv_ex_T1_ddm_Jac_eq_B0_U0.c:625 -/
noncomputable def Epart_U0_mul (x : In) : ℝ :=
  Epart_U0 x * (x.JConfC)

/-- eq_XCTS_crv_ex_T1_ddm_Jac_eq_B0_U0.c:371 the value written to schur_B -/
noncomputable def out_schur_B (x : In) : ℝ :=
  Bpart_U0_mul x

/-- eq_XCTS_crv_ex_T1_ddm_Jac_eq_B0_U0.c:626 the value written to schur_Et -/
noncomputable def out_schur_Et (x : In) : ℝ :=
  Epart_U0_mul x

end Elliptica.Gen.Shift.JacEq0

namespace Elliptica.Gen.Shift.Bc0

/-- eq_XCTS_crv_ex_T1_ddm_bc_B0_U0.c:26-27 -/
noncomputable def outerB_F (x : In) : ℝ :=
  x.B0_U 0 - x.v0_boost

/-- eq_XCTS_crv_ex_T1_ddm_bc_B0_U0.c:38-39 -/
noncomputable def innerB_F (x : In) : ℝ :=
  x.B0_U 0 + x.B1_U 0 - x.ibc_beta_U 0

/-- eq_XCTS_crv_ex_T1_ddm_bc_B0_U0.c:29 the value written to schur_F -/
noncomputable def out_schur_F_0 (x : In) : ℝ :=
  outerB_F x

/-- eq_XCTS_crv_ex_T1_ddm_bc_B0_U0.c:41 the value written to schur_F -/
noncomputable def out_schur_F_1 (x : In) : ℝ :=
  innerB_F x

end Elliptica.Gen.Shift.Bc0

namespace Elliptica.Gen.Shift.JacBc0

/-- eq_XCTS_crv_ex_T1_ddm_Jac_bc_B0_U0.c:22-23 -/
noncomputable def outerB_Bpart (x : In) : ℝ :=
  x.kd

/-- eq_XCTS_crv_ex_T1_ddm_Jac_bc_B0_U0.c:31-32 -/
noncomputable def outerB_Epart (x : In) : ℝ :=
  0

/-- eq_XCTS_crv_ex_T1_ddm_Jac_bc_B0_U0.c:42-43 -/
noncomputable def innerB_Bpart (x : In) : ℝ :=
  x.kd

/-- eq_XCTS_crv_ex_T1_ddm_Jac_bc_B0_U0.c:51-52 -/
noncomputable def innerB_Epart (x : In) : ℝ :=
  0

/-- eq_XCTS_crv_ex_T1_ddm_Jac_bc_B0_U0.c:25 the value written to schur_B -/
noncomputable def out_schur_B_0 (x : In) : ℝ :=
  outerB_Bpart x

/-- eq_XCTS_crv_ex_T1_ddm_Jac_bc_B0_U0.c:45 the value written to schur_B -/
noncomputable def out_schur_B_1 (x : In) : ℝ :=
  innerB_Bpart x

/-- eq_XCTS_crv_ex_T1_ddm_Jac_bc_B0_U0.c:34 the value written to schur_Et -/
noncomputable def out_schur_Et_0 (x : In) : ℝ :=
  outerB_Epart x

/-- eq_XCTS_crv_ex_T1_ddm_Jac_bc_B0_U0.c:54 the value written to schur_Et -/
noncomputable def out_schur_Et_1 (x : In) : ℝ :=
  innerB_Epart x

end Elliptica.Gen.Shift.JacBc0

namespace Elliptica.Gen.Shift.JacFlat0

/-- eq_XCTS_flt_ex_T1_ddm_Jac_eq_B0_U0.c:52-53 -/
noncomputable def dLnOf_alpha_B_U0 (x : In) : ℝ :=
  -7 * x.dpsi_D 0 / x.psi + x.dalphaPsi_D 0 / x.alphaPsi

/-- eq_XCTS_flt_ex_T1_ddm_Jac_eq_B0_U0.c:55-56 -/
noncomputable def dLnOf_alpha_B_U1 (x : In) : ℝ :=
  -7 * x.dpsi_D 1 / x.psi + x.dalphaPsi_D 1 / x.alphaPsi

/-- eq_XCTS_flt_ex_T1_ddm_Jac_eq_B0_U0.c:58-59 -/
noncomputable def dLnOf_alpha_B_U2 (x : In) : ℝ :=
  -7 * x.dpsi_D 2 / x.psi + x.dalphaPsi_D 2 / x.alphaPsi

/-- eq_XCTS_flt_ex_T1_ddm_Jac_eq_B0_U0.c:61-64 -/
noncomputable def t1_B_U0 (x : In) : ℝ :=
  x.JJB0_DD 0 0 * x.igConf_UU 0 0 + 2 * x.JJB0_DD 0 1 * x.igConf_UU 0 1 + 2 * x.JJB0_DD 0 2 * x.igConf_UU 0 2 + x.JJB0_DD 1 1 *
      x.igConf_UU 1 1 + 2 * x.JJB0_DD 1 2 * x.igConf_UU 1 2 + x.JJB0_DD 2 2 * x.igConf_UU 2 2

/-- eq_XCTS_flt_ex_T1_ddm_Jac_eq_B0_U0.c:68-71 -/
noncomputable def t2_B_U0 (x : In) : ℝ :=
  (1 / 3) * x.JJB0_DD 0 0 * x.igConf_UU 0 0 + (1 / 3) * x.JJB0_DD 0 1 * x.igConf_UU 0 1 + (1 / 3) * x.JJB0_DD 0 2 * x.igConf_UU
      0 2

/-- eq_XCTS_flt_ex_T1_ddm_Jac_eq_B0_U0.c:75-78 -/
noncomputable def t3_B_U0 (x : In) : ℝ :=
  (2 / 3) * x.JB0_D 0 * (dLnOf_alpha_B_U0 x * x.igConf_UU 0 0 + dLnOf_alpha_B_U1 x * x.igConf_UU 0 1 + dLnOf_alpha_B_U2 x *
      x.igConf_UU 0 2)

/-- eq_XCTS_flt_ex_T1_ddm_Jac_eq_B0_U0.c:82-88 -/
noncomputable def t4_B_U0 (x : In) : ℝ :=
  -x.JB0_D 0 * dLnOf_alpha_B_U0 x * x.igConf_UU 0 0 - x.JB0_D 0 * dLnOf_alpha_B_U1 x * x.igConf_UU 0 1 - x.JB0_D 0 *
      dLnOf_alpha_B_U2 x * x.igConf_UU 0 2 - x.JB0_D 1 * dLnOf_alpha_B_U0 x * x.igConf_UU 0 1 - x.JB0_D 1 * dLnOf_alpha_B_U1 x
      * x.igConf_UU 1 1 - x.JB0_D 1 * dLnOf_alpha_B_U2 x * x.igConf_UU 1 2 - x.JB0_D 2 * dLnOf_alpha_B_U0 x * x.igConf_UU 0 2 -
      x.JB0_D 2 * dLnOf_alpha_B_U1 x * x.igConf_UU 1 2 - x.JB0_D 2 * dLnOf_alpha_B_U2 x * x.igConf_UU 2 2

/-- eq_XCTS_flt_ex_T1_ddm_Jac_eq_B0_U0.c:92-94 -/
noncomputable def t5_B_U0 (x : In) : ℝ :=
  dLnOf_alpha_B_U0 x * (-x.JB0_D 0 * x.igConf_UU 0 0 - x.JB0_D 1 * x.igConf_UU 0 1 - x.JB0_D 2 * x.igConf_UU 0 2)

/-- eq_XCTS_flt_ex_T1_ddm_Jac_eq_B0_U0.c:98-99 -/
noncomputable def Bpart_U0 (x : In) : ℝ :=
  t1_B_U0 x + t2_B_U0 x + t3_B_U0 x + t4_B_U0 x + t5_B_U0 x

/-- eq_XCTS_flt_ex_T1_ddm_Jac_eq_B0_U0.c:103 -/
noncomputable def Bpart_U0_mul (x : In) : ℝ :=
  Bpart_U0 x * (x.JConfC)

/-- eq_XCTS_flt_ex_T1_ddm_Jac_eq_B0_U0.c:119-120 -/
noncomputable def dLnOf_alpha_E_U0 (x : In) : ℝ :=
  -7 * x.dpsi_D 0 / x.psi + x.dalphaPsi_D 0 / x.alphaPsi

/-- eq_XCTS_flt_ex_T1_ddm_Jac_eq_B0_U0.c:122-123 -/
noncomputable def dLnOf_alpha_E_U1 (x : In) : ℝ :=
  -7 * x.dpsi_D 1 / x.psi + x.dalphaPsi_D 1 / x.alphaPsi

/-- eq_XCTS_flt_ex_T1_ddm_Jac_eq_B0_U0.c:125-126 -/
noncomputable def dLnOf_alpha_E_U2 (x : In) : ℝ :=
  -7 * x.dpsi_D 2 / x.psi + x.dalphaPsi_D 2 / x.alphaPsi

/-- eq_XCTS_flt_ex_T1_ddm_Jac_eq_B0_U0.c:128-131 -/
noncomputable def t1_E_U0 (x : In) : ℝ :=
  x.JJB0_DD 0 0 * x.igConf_UU 0 0 + 2 * x.JJB0_DD 0 1 * x.igConf_UU 0 1 + 2 * x.JJB0_DD 0 2 * x.igConf_UU 0 2 + x.JJB0_DD 1 1 *
      x.igConf_UU 1 1 + 2 * x.JJB0_DD 1 2 * x.igConf_UU 1 2 + x.JJB0_DD 2 2 * x.igConf_UU 2 2

/-- eq_XCTS_flt_ex_T1_ddm_Jac_eq_B0_U0.c:135-138 -/
noncomputable def t2_E_U0 (x : In) : ℝ :=
  (1 / 3) * x.JJB0_DD 0 0 * x.igConf_UU 0 0 + (1 / 3) * x.JJB0_DD 0 1 * x.igConf_UU 0 1 + (1 / 3) * x.JJB0_DD 0 2 * x.igConf_UU
      0 2

/-- eq_XCTS_flt_ex_T1_ddm_Jac_eq_B0_U0.c:142-145 -/
noncomputable def t3_E_U0 (x : In) : ℝ :=
  (2 / 3) * x.JB0_D 0 * (dLnOf_alpha_E_U0 x * x.igConf_UU 0 0 + dLnOf_alpha_E_U1 x * x.igConf_UU 0 1 + dLnOf_alpha_E_U2 x *
      x.igConf_UU 0 2)

/-- eq_XCTS_flt_ex_T1_ddm_Jac_eq_B0_U0.c:149-155 -/
noncomputable def t4_E_U0 (x : In) : ℝ :=
  -x.JB0_D 0 * dLnOf_alpha_E_U0 x * x.igConf_UU 0 0 - x.JB0_D 0 * dLnOf_alpha_E_U1 x * x.igConf_UU 0 1 - x.JB0_D 0 *
      dLnOf_alpha_E_U2 x * x.igConf_UU 0 2 - x.JB0_D 1 * dLnOf_alpha_E_U0 x * x.igConf_UU 0 1 - x.JB0_D 1 * dLnOf_alpha_E_U1 x
      * x.igConf_UU 1 1 - x.JB0_D 1 * dLnOf_alpha_E_U2 x * x.igConf_UU 1 2 - x.JB0_D 2 * dLnOf_alpha_E_U0 x * x.igConf_UU 0 2 -
      x.JB0_D 2 * dLnOf_alpha_E_U1 x * x.igConf_UU 1 2 - x.JB0_D 2 * dLnOf_alpha_E_U2 x * x.igConf_UU 2 2

/-- eq_XCTS_flt_ex_T1_ddm_Jac_eq_B0_U0.c:159-161 -/
noncomputable def t5_E_U0 (x : In) : ℝ :=
  dLnOf_alpha_E_U0 x * (-x.JB0_D 0 * x.igConf_UU 0 0 - x.JB0_D 1 * x.igConf_UU 0 1 - x.JB0_D 2 * x.igConf_UU 0 2)

/-- eq_XCTS_flt_ex_T1_ddm_Jac_eq_B0_U0.c:165-166 -/
noncomputable def Epart_U0 (x : In) : ℝ :=
  t1_E_U0 x + t2_E_U0 x + t3_E_U0 x + t4_E_U0 x + t5_E_U0 x

/-- eq_XCTS_flt_ex_T1_ddm_Jac_eq_B0_U0.c:170 -/
noncomputable def Epart_U0_mul (x : In) : ℝ :=
  Epart_U0 x * (x.JConfC)

/-- eq_XCTS_flt_ex_T1_ddm_Jac_eq_B0_U0.c:104 the value written to schur_B -/
noncomputable def out_schur_B (x : In) : ℝ :=
  Bpart_U0_mul x

/-- eq_XCTS_flt_ex_T1_ddm_Jac_eq_B0_U0.c:171 the value written to schur_Et -/
noncomputable def out_schur_Et (x : In) : ℝ :=
  Epart_U0_mul x

end Elliptica.Gen.Shift.JacFlat0

namespace Elliptica.Gen.Shift.Eq1

/-- eq_XCTS_crv_ex_T1_ddm_eq_B0_U1.c:75-85 -/
noncomputable def F00_U1 (x : In) : ℝ :=
  (x.AConfIJ_UU 0 0 * x.ChrisConf_UDD 1 0 0 + x.AConfIJ_UU 0 1 * x.ChrisConf_UDD 0 0 0 + 3 * x.AConfIJ_UU 0 1 * x.ChrisConf_UDD
      1 0 1 + x.AConfIJ_UU 0 1 * x.ChrisConf_UDD 2 0 2 + 2 * x.AConfIJ_UU 0 2 * x.ChrisConf_UDD 1 0 2 + x.AConfIJ_UU 1 1 *
      x.ChrisConf_UDD 0 0 1 + 2 * x.AConfIJ_UU 1 1 * x.ChrisConf_UDD 1 1 1 + x.AConfIJ_UU 1 1 * x.ChrisConf_UDD 2 1 2 +
      x.AConfIJ_UU 1 2 * x.ChrisConf_UDD 0 0 2 + 3 * x.AConfIJ_UU 1 2 * x.ChrisConf_UDD 1 1 2 + x.AConfIJ_UU 1 2 *
      x.ChrisConf_UDD 2 2 2 + x.AConfIJ_UU 2 2 * x.ChrisConf_UDD 1 2 2 + x.dAConfIJ_UUD 0 1 0 + x.dAConfIJ_UUD 1 1 1 +
      x.dAConfIJ_UUD 1 2 2) / x.psi ^ 3

/-- eq_XCTS_crv_ex_T1_ddm_eq_B0_U1.c:89-90 -/
noncomputable def F0_U1 (x : In) : ℝ :=
  F00_U1 x / x.psi ^ 4

/-- eq_XCTS_crv_ex_T1_ddm_eq_B0_U1.c:94-96 -/
noncomputable def F1_U1 (x : In) : ℝ :=
  (2 / 3) * (-x.dtrK_D 0 * x.igConf_UU 0 1 - x.dtrK_D 1 * x.igConf_UU 1 1 - x.dtrK_D 2 * x.igConf_UU 1 2) / x.psi

/-- eq_XCTS_crv_ex_T1_ddm_eq_B0_U1.c:100-101 -/
noncomputable def s_U1 (x : In) : ℝ :=
  -8 * Real.pi * x.JConfP_U 1 / x.psi ^ 3

/-- eq_XCTS_crv_ex_T1_ddm_eq_B0_U1.c:105-106 -/
noncomputable def ell_U1 (x : In) : ℝ :=
  x.JConfC * (F0_U1 x + F1_U1 x)

/-- eq_XCTS_crv_ex_T1_ddm_eq_B0_U1.c:110-111 -/
noncomputable def F_eq_U1 (x : In) : ℝ :=
  2 * x.alphaPsi * (ell_U1 x + s_U1 x)

/-- eq_XCTS_crv_ex_T1_ddm_eq_B0_U1.c:114 the value written to schur_F -/
noncomputable def out_schur_F (x : In) : ℝ :=
  F_eq_U1 x

end Elliptica.Gen.Shift.Eq1

namespace Elliptica.Gen.Shift.JacEq1

/-- eq_XCTS_crv_ex_T1_ddm_Jac_eq_B0_U1.c:131-132 -/
noncomputable def dLnOf_alpha_B_U0 (x : In) : ℝ :=
  -7 * x.dpsi_D 0 / x.psi + x.dalphaPsi_D 0 / x.alphaPsi

/-- eq_XCTS_crv_ex_T1_ddm_Jac_eq_B0_U1.c:134-135 -/
noncomputable def dLnOf_alpha_B_U1 (x : In) : ℝ :=
  -7 * x.dpsi_D 1 / x.psi + x.dalphaPsi_D 1 / x.alphaPsi

/-- eq_XCTS_crv_ex_T1_ddm_Jac_eq_B0_U1.c:137-138 -/
noncomputable def dLnOf_alpha_B_U2 (x : In) : ℝ :=
  -7 * x.dpsi_D 2 / x.psi + x.dalphaPsi_D 2 / x.alphaPsi

/-- eq_XCTS_crv_ex_T1_ddm_Jac_eq_B0_U1.c:141-151 -/
noncomputable def t1_B_U1 (x : In) : ℝ :=
  x.igConf_UU 0 0 * (x.JJB0_DD 0 0 + x.dChrisConf_UDDD 1 0 1 0 * x.kd) + x.igConf_UU 0 1 * (x.JJB0_DD 0 1 + x.dChrisConf_UDDD 1
      0 1 1 * x.kd) + x.igConf_UU 0 1 * (x.JJB0_DD 0 1 + x.dChrisConf_UDDD 1 1 1 0 * x.kd) + x.igConf_UU 0 2 * (x.JJB0_DD 0 2 +
      x.dChrisConf_UDDD 1 0 1 2 * x.kd) + x.igConf_UU 0 2 * (x.JJB0_DD 0 2 + x.dChrisConf_UDDD 1 1 2 0 * x.kd) + x.igConf_UU 1
      1 * (x.JJB0_DD 1 1 + x.dChrisConf_UDDD 1 1 1 1 * x.kd) + x.igConf_UU 1 2 * (x.JJB0_DD 1 2 + x.dChrisConf_UDDD 1 1 1 2 *
      x.kd) + x.igConf_UU 1 2 * (x.JJB0_DD 1 2 + x.dChrisConf_UDDD 1 1 2 1 * x.kd) + x.igConf_UU 2 2 * (x.JJB0_DD 2 2 +
      x.dChrisConf_UDDD 1 1 2 2 * x.kd)

/-- eq_XCTS_crv_ex_T1_ddm_Jac_eq_B0_U1.c:155-162 -/
noncomputable def t2_B_U1 (x : In) : ℝ :=
  2 * x.ChrisConf_UDD 1 0 1 * x.JB0_D 0 * x.igConf_UU 0 0 + 2 * x.ChrisConf_UDD 1 1 1 * x.JB0_D 1 * x.igConf_UU 1 1 + 2 *
      x.ChrisConf_UDD 1 1 2 * x.JB0_D 2 * x.igConf_UU 2 2 + 2 * x.igConf_UU 0 1 * (x.ChrisConf_UDD 1 0 1 * x.JB0_D 1 +
      x.ChrisConf_UDD 1 1 1 * x.JB0_D 0) + 2 * x.igConf_UU 0 2 * (x.ChrisConf_UDD 1 0 1 * x.JB0_D 2 + x.ChrisConf_UDD 1 1 2 *
      x.JB0_D 0) + 2 * x.igConf_UU 1 2 * (x.ChrisConf_UDD 1 1 1 * x.JB0_D 2 + x.ChrisConf_UDD 1 1 2 * x.JB0_D 1)

/-- eq_XCTS_crv_ex_T1_ddm_Jac_eq_B0_U1.c:166-190 -/
noncomputable def t3_B_U1 (x : In) : ℝ :=
  x.kd * (x.ChrisConf_UDD 0 0 1 * x.ChrisConf_UDD 1 0 0 * x.igConf_UU 0 0 + x.ChrisConf_UDD 0 0 1 * x.ChrisConf_UDD 1 0 1 *
      x.igConf_UU 0 1 + x.ChrisConf_UDD 0 0 1 * x.ChrisConf_UDD 1 0 2 * x.igConf_UU 0 2 + x.ChrisConf_UDD 0 1 1 *
      x.ChrisConf_UDD 1 0 0 * x.igConf_UU 0 1 + x.ChrisConf_UDD 0 1 1 * x.ChrisConf_UDD 1 0 1 * x.igConf_UU 1 1 +
      x.ChrisConf_UDD 0 1 1 * x.ChrisConf_UDD 1 0 2 * x.igConf_UU 1 2 + x.ChrisConf_UDD 0 1 2 * x.ChrisConf_UDD 1 0 0 *
      x.igConf_UU 0 2 + x.ChrisConf_UDD 0 1 2 * x.ChrisConf_UDD 1 0 1 * x.igConf_UU 1 2 + x.ChrisConf_UDD 0 1 2 *
      x.ChrisConf_UDD 1 0 2 * x.igConf_UU 2 2 + (x.ChrisConf_UDD 1 0 1) ^ 2 * x.igConf_UU 0 0 + 2 * x.ChrisConf_UDD 1 0 1 *
      x.ChrisConf_UDD 1 1 1 * x.igConf_UU 0 1 + 2 * x.ChrisConf_UDD 1 0 1 * x.ChrisConf_UDD 1 1 2 * x.igConf_UU 0 2 +
      x.ChrisConf_UDD 1 0 2 * x.ChrisConf_UDD 2 0 1 * x.igConf_UU 0 0 + x.ChrisConf_UDD 1 0 2 * x.ChrisConf_UDD 2 1 1 *
      x.igConf_UU 0 1 + x.ChrisConf_UDD 1 0 2 * x.ChrisConf_UDD 2 1 2 * x.igConf_UU 0 2 + (x.ChrisConf_UDD 1 1 1) ^ 2 *
      x.igConf_UU 1 1 + 2 * x.ChrisConf_UDD 1 1 1 * x.ChrisConf_UDD 1 1 2 * x.igConf_UU 1 2 + (x.ChrisConf_UDD 1 1 2) ^ 2 *
      x.igConf_UU 2 2 + x.ChrisConf_UDD 1 1 2 * x.ChrisConf_UDD 2 0 1 * x.igConf_UU 0 1 + x.ChrisConf_UDD 1 1 2 *
      x.ChrisConf_UDD 2 1 1 * x.igConf_UU 1 1 + x.ChrisConf_UDD 1 1 2 * x.ChrisConf_UDD 2 1 2 * x.igConf_UU 1 2 +
      x.ChrisConf_UDD 1 2 2 * x.ChrisConf_UDD 2 0 1 * x.igConf_UU 0 2 + x.ChrisConf_UDD 1 2 2 * x.ChrisConf_UDD 2 1 1 *
      x.igConf_UU 1 2 + x.ChrisConf_UDD 1 2 2 * x.ChrisConf_UDD 2 1 2 * x.igConf_UU 2 2)

/-- eq_XCTS_crv_ex_T1_ddm_Jac_eq_B0_U1.c:194-219 -/
noncomputable def t4_B_U1 (x : In) : ℝ :=
  -x.igConf_UU 0 0 * (x.ChrisConf_UDD 0 0 0 * x.JB0_D 0 + x.ChrisConf_UDD 1 0 0 * x.JB0_D 1 + x.ChrisConf_UDD 2 0 0 * x.JB0_D 2
      + x.kd * (x.ChrisConf_UDD 0 0 0 * x.ChrisConf_UDD 1 0 1 + x.ChrisConf_UDD 1 0 0 * x.ChrisConf_UDD 1 1 1 + x.ChrisConf_UDD
      1 1 2 * x.ChrisConf_UDD 2 0 0)) - 2 * x.igConf_UU 0 1 * (x.ChrisConf_UDD 0 0 1 * x.JB0_D 0 + x.ChrisConf_UDD 1 0 1 *
      x.JB0_D 1 + x.ChrisConf_UDD 2 0 1 * x.JB0_D 2 + x.kd * (x.ChrisConf_UDD 0 0 1 * x.ChrisConf_UDD 1 0 1 + x.ChrisConf_UDD 1
      0 1 * x.ChrisConf_UDD 1 1 1 + x.ChrisConf_UDD 1 1 2 * x.ChrisConf_UDD 2 0 1)) - 2 * x.igConf_UU 0 2 * (x.ChrisConf_UDD 0
      0 2 * x.JB0_D 0 + x.ChrisConf_UDD 1 0 2 * x.JB0_D 1 + x.ChrisConf_UDD 2 0 2 * x.JB0_D 2 + x.kd * (x.ChrisConf_UDD 0 0 2 *
      x.ChrisConf_UDD 1 0 1 + x.ChrisConf_UDD 1 0 2 * x.ChrisConf_UDD 1 1 1 + x.ChrisConf_UDD 1 1 2 * x.ChrisConf_UDD 2 0 2)) -
      x.igConf_UU 1 1 * (x.ChrisConf_UDD 0 1 1 * x.JB0_D 0 + x.ChrisConf_UDD 1 1 1 * x.JB0_D 1 + x.ChrisConf_UDD 2 1 1 *
      x.JB0_D 2 + x.kd * (x.ChrisConf_UDD 0 1 1 * x.ChrisConf_UDD 1 0 1 + (x.ChrisConf_UDD 1 1 1) ^ 2 + x.ChrisConf_UDD 1 1 2 *
      x.ChrisConf_UDD 2 1 1)) - 2 * x.igConf_UU 1 2 * (x.ChrisConf_UDD 0 1 2 * x.JB0_D 0 + x.ChrisConf_UDD 1 1 2 * x.JB0_D 1 +
      x.ChrisConf_UDD 2 1 2 * x.JB0_D 2 + x.kd * (x.ChrisConf_UDD 0 1 2 * x.ChrisConf_UDD 1 0 1 + x.ChrisConf_UDD 1 1 1 *
      x.ChrisConf_UDD 1 1 2 + x.ChrisConf_UDD 1 1 2 * x.ChrisConf_UDD 2 1 2)) - x.igConf_UU 2 2 * (x.ChrisConf_UDD 0 2 2 *
      x.JB0_D 0 + x.ChrisConf_UDD 1 2 2 * x.JB0_D 1 + x.ChrisConf_UDD 2 2 2 * x.JB0_D 2 + x.kd * (x.ChrisConf_UDD 0 2 2 *
      x.ChrisConf_UDD 1 0 1 + x.ChrisConf_UDD 1 1 1 * x.ChrisConf_UDD 1 2 2 + x.ChrisConf_UDD 1 1 2 * x.ChrisConf_UDD 2 2 2))

/-- eq_XCTS_crv_ex_T1_ddm_Jac_eq_B0_U1.c:223-231 -/
noncomputable def t5_B_U1 (x : In) : ℝ :=
  (1 / 3) * x.igConf_UU 0 1 * (x.JJB0_DD 0 1 + x.kd * (x.dChrisConf_UDDD 0 0 1 0 + x.dChrisConf_UDDD 1 1 1 0 +
      x.dChrisConf_UDDD 2 1 2 0)) + (1 / 3) * x.igConf_UU 1 1 * (x.JJB0_DD 1 1 + x.kd * (x.dChrisConf_UDDD 0 0 1 1 +
      x.dChrisConf_UDDD 1 1 1 1 + x.dChrisConf_UDDD 2 1 2 1)) + (1 / 3) * x.igConf_UU 1 2 * (x.JJB0_DD 1 2 + x.kd *
      (x.dChrisConf_UDDD 0 0 1 2 + x.dChrisConf_UDDD 1 1 1 2 + x.dChrisConf_UDDD 2 1 2 2))

/-- eq_XCTS_crv_ex_T1_ddm_Jac_eq_B0_U1.c:235-245 -/
noncomputable def t6_B_U1 (x : In) : ℝ :=
  (1 / 3) * x.igConf_UU 0 1 * (2 * x.ChrisConf_UDD 0 0 1 * x.JB0_D 0 + x.ChrisConf_UDD 1 0 1 * x.JB0_D 1 + x.ChrisConf_UDD 1 1
      1 * x.JB0_D 0 + x.ChrisConf_UDD 2 0 1 * x.JB0_D 2 + x.ChrisConf_UDD 2 1 2 * x.JB0_D 0) + (1 / 3) * x.igConf_UU 1 1 *
      (x.ChrisConf_UDD 0 0 1 * x.JB0_D 1 + x.ChrisConf_UDD 0 1 1 * x.JB0_D 0 + 2 * x.ChrisConf_UDD 1 1 1 * x.JB0_D 1 +
      x.ChrisConf_UDD 2 1 1 * x.JB0_D 2 + x.ChrisConf_UDD 2 1 2 * x.JB0_D 1) + (1 / 3) * x.igConf_UU 1 2 * (x.ChrisConf_UDD 0 0
      1 * x.JB0_D 2 + x.ChrisConf_UDD 0 1 2 * x.JB0_D 0 + x.ChrisConf_UDD 1 1 1 * x.JB0_D 2 + x.ChrisConf_UDD 1 1 2 * x.JB0_D 1
      + 2 * x.ChrisConf_UDD 2 1 2 * x.JB0_D 2)

/-- eq_XCTS_crv_ex_T1_ddm_Jac_eq_B0_U1.c:249-281 -/
noncomputable def t7_B_U1 (x : In) : ℝ :=
  x.kd * ((1 / 3) * x.ChrisConf_UDD 0 0 0 * x.ChrisConf_UDD 0 0 1 * x.igConf_UU 0 1 + (1 / 3) * (x.ChrisConf_UDD 0 0 1) ^ 2 *
      x.igConf_UU 1 1 + (1 / 3) * x.ChrisConf_UDD 0 0 1 * x.ChrisConf_UDD 0 0 2 * x.igConf_UU 1 2 + (1 / 3) * x.ChrisConf_UDD 0
      0 1 * x.ChrisConf_UDD 1 0 1 * x.igConf_UU 0 1 + (1 / 3) * x.ChrisConf_UDD 0 0 2 * x.ChrisConf_UDD 2 0 1 * x.igConf_UU 0 1
      + (1 / 3) * x.ChrisConf_UDD 0 1 1 * x.ChrisConf_UDD 1 0 0 * x.igConf_UU 0 1 + (2 / 3) * x.ChrisConf_UDD 0 1 1 *
      x.ChrisConf_UDD 1 0 1 * x.igConf_UU 1 1 + (1 / 3) * x.ChrisConf_UDD 0 1 1 * x.ChrisConf_UDD 1 0 2 * x.igConf_UU 1 2 + (1
      / 3) * x.ChrisConf_UDD 0 1 2 * x.ChrisConf_UDD 1 0 1 * x.igConf_UU 1 2 + (1 / 3) * x.ChrisConf_UDD 0 1 2 *
      x.ChrisConf_UDD 2 0 0 * x.igConf_UU 0 1 + (2 / 3) * x.ChrisConf_UDD 0 1 2 * x.ChrisConf_UDD 2 0 1 * x.igConf_UU 1 1 + (1
      / 3) * x.ChrisConf_UDD 0 1 2 * x.ChrisConf_UDD 2 0 2 * x.igConf_UU 1 2 + (1 / 3) * x.ChrisConf_UDD 0 2 2 *
      x.ChrisConf_UDD 2 0 1 * x.igConf_UU 1 2 + (1 / 3) * x.ChrisConf_UDD 1 0 1 * x.ChrisConf_UDD 1 1 1 * x.igConf_UU 0 1 + (1
      / 3) * x.ChrisConf_UDD 1 0 2 * x.ChrisConf_UDD 2 1 1 * x.igConf_UU 0 1 + (1 / 3) * (x.ChrisConf_UDD 1 1 1) ^ 2 *
      x.igConf_UU 1 1 + (1 / 3) * x.ChrisConf_UDD 1 1 1 * x.ChrisConf_UDD 1 1 2 * x.igConf_UU 1 2 + (1 / 3) * x.ChrisConf_UDD 1
      1 2 * x.ChrisConf_UDD 2 0 1 * x.igConf_UU 0 1 + (2 / 3) * x.ChrisConf_UDD 1 1 2 * x.ChrisConf_UDD 2 1 1 * x.igConf_UU 1 1
      + (1 / 3) * x.ChrisConf_UDD 1 1 2 * x.ChrisConf_UDD 2 1 2 * x.igConf_UU 1 2 + (1 / 3) * x.ChrisConf_UDD 1 2 2 *
      x.ChrisConf_UDD 2 1 1 * x.igConf_UU 1 2 + (1 / 3) * x.ChrisConf_UDD 2 0 2 * x.ChrisConf_UDD 2 1 2 * x.igConf_UU 0 1 + (1
      / 3) * (x.ChrisConf_UDD 2 1 2) ^ 2 * x.igConf_UU 1 1 + (1 / 3) * x.ChrisConf_UDD 2 1 2 * x.ChrisConf_UDD 2 2 2 *
      x.igConf_UU 1 2)

/-- eq_XCTS_crv_ex_T1_ddm_Jac_eq_B0_U1.c:285-308 -/
noncomputable def t8_B_U1 (x : In) : ℝ :=
  -(1 / 3) * x.igConf_UU 0 1 * (x.ChrisConf_UDD 0 0 1 * x.JB0_D 0 + x.ChrisConf_UDD 1 0 1 * x.JB0_D 1 + x.ChrisConf_UDD 2 0 1 *
      x.JB0_D 2 + x.kd * (x.ChrisConf_UDD 0 0 0 * x.ChrisConf_UDD 0 0 1 + x.ChrisConf_UDD 0 0 1 * x.ChrisConf_UDD 1 0 1 +
      x.ChrisConf_UDD 0 0 2 * x.ChrisConf_UDD 2 0 1 + x.ChrisConf_UDD 0 1 1 * x.ChrisConf_UDD 1 0 0 + x.ChrisConf_UDD 0 1 2 *
      x.ChrisConf_UDD 2 0 0 + x.ChrisConf_UDD 1 0 1 * x.ChrisConf_UDD 1 1 1 + x.ChrisConf_UDD 1 0 2 * x.ChrisConf_UDD 2 1 1 +
      x.ChrisConf_UDD 1 1 2 * x.ChrisConf_UDD 2 0 1 + x.ChrisConf_UDD 2 0 2 * x.ChrisConf_UDD 2 1 2)) - (1 / 3) * x.igConf_UU 1
      1 * (x.ChrisConf_UDD 0 1 1 * x.JB0_D 0 + x.ChrisConf_UDD 1 1 1 * x.JB0_D 1 + x.ChrisConf_UDD 2 1 1 * x.JB0_D 2 + x.kd *
      ((x.ChrisConf_UDD 0 0 1) ^ 2 + 2 * x.ChrisConf_UDD 0 1 1 * x.ChrisConf_UDD 1 0 1 + 2 * x.ChrisConf_UDD 0 1 2 *
      x.ChrisConf_UDD 2 0 1 + (x.ChrisConf_UDD 1 1 1) ^ 2 + 2 * x.ChrisConf_UDD 1 1 2 * x.ChrisConf_UDD 2 1 1 +
      (x.ChrisConf_UDD 2 1 2) ^ 2)) - (1 / 3) * x.igConf_UU 1 2 * (x.ChrisConf_UDD 0 1 2 * x.JB0_D 0 + x.ChrisConf_UDD 1 1 2 *
      x.JB0_D 1 + x.ChrisConf_UDD 2 1 2 * x.JB0_D 2 + x.kd * (x.ChrisConf_UDD 0 0 1 * x.ChrisConf_UDD 0 0 2 + x.ChrisConf_UDD 0
      1 1 * x.ChrisConf_UDD 1 0 2 + x.ChrisConf_UDD 0 1 2 * x.ChrisConf_UDD 1 0 1 + x.ChrisConf_UDD 0 1 2 * x.ChrisConf_UDD 2 0
      2 + x.ChrisConf_UDD 0 2 2 * x.ChrisConf_UDD 2 0 1 + x.ChrisConf_UDD 1 1 1 * x.ChrisConf_UDD 1 1 2 + x.ChrisConf_UDD 1 1 2
      * x.ChrisConf_UDD 2 1 2 + x.ChrisConf_UDD 1 2 2 * x.ChrisConf_UDD 2 1 1 + x.ChrisConf_UDD 2 1 2 * x.ChrisConf_UDD 2 2 2))

/-- eq_XCTS_crv_ex_T1_ddm_Jac_eq_B0_U1.c:312-315 -/
noncomputable def t9_B_U1 (x : In) : ℝ :=
  x.kd * (x.RicciConf_DD 0 1 * x.igConf_UU 0 1 + x.RicciConf_DD 1 1 * x.igConf_UU 1 1 + x.RicciConf_DD 1 2 * x.igConf_UU 1 2)

/-- eq_XCTS_crv_ex_T1_ddm_Jac_eq_B0_U1.c:318-320 -/
noncomputable def contB (x : In) : ℝ :=
  x.JB0_D 1 + x.kd * (x.ChrisConf_UDD 0 0 1 + x.ChrisConf_UDD 1 1 1 + x.ChrisConf_UDD 2 1 2)

/-- eq_XCTS_crv_ex_T1_ddm_Jac_eq_B0_U1.c:323-326 -/
noncomputable def t1p10_B_U1 (x : In) : ℝ :=
  (2 / 3) * contB x * (dLnOf_alpha_B_U0 x * x.igConf_UU 0 1 + dLnOf_alpha_B_U1 x * x.igConf_UU 1 1 + dLnOf_alpha_B_U2 x *
      x.igConf_UU 1 2)

/-- eq_XCTS_crv_ex_T1_ddm_Jac_eq_B0_U1.c:330-342 -/
noncomputable def t2p10_B_U1 (x : In) : ℝ :=
  -dLnOf_alpha_B_U0 x * x.igConf_UU 0 0 * (x.ChrisConf_UDD 1 0 1 * x.kd + x.JB0_D 0) - dLnOf_alpha_B_U0 x * x.igConf_UU 0 1 *
      (x.ChrisConf_UDD 1 1 1 * x.kd + x.JB0_D 1) - dLnOf_alpha_B_U0 x * x.igConf_UU 0 2 * (x.ChrisConf_UDD 1 1 2 * x.kd +
      x.JB0_D 2) - dLnOf_alpha_B_U1 x * x.igConf_UU 0 1 * (x.ChrisConf_UDD 1 0 1 * x.kd + x.JB0_D 0) - dLnOf_alpha_B_U1 x *
      x.igConf_UU 1 1 * (x.ChrisConf_UDD 1 1 1 * x.kd + x.JB0_D 1) - dLnOf_alpha_B_U1 x * x.igConf_UU 1 2 * (x.ChrisConf_UDD 1
      1 2 * x.kd + x.JB0_D 2) - dLnOf_alpha_B_U2 x * x.igConf_UU 0 2 * (x.ChrisConf_UDD 1 0 1 * x.kd + x.JB0_D 0) -
      dLnOf_alpha_B_U2 x * x.igConf_UU 1 2 * (x.ChrisConf_UDD 1 1 1 * x.kd + x.JB0_D 1) - dLnOf_alpha_B_U2 x * x.igConf_UU 2 2
      * (x.ChrisConf_UDD 1 1 2 * x.kd + x.JB0_D 2)

/-- eq_XCTS_crv_ex_T1_ddm_Jac_eq_B0_U1.c:346-356 -/
noncomputable def t3p10_B_U1 (x : In) : ℝ :=
  -x.ChrisConf_UDD 0 0 1 * dLnOf_alpha_B_U0 x * x.igConf_UU 0 1 * x.kd - x.ChrisConf_UDD 0 1 1 * dLnOf_alpha_B_U0 x *
      x.igConf_UU 1 1 * x.kd - x.ChrisConf_UDD 0 1 2 * dLnOf_alpha_B_U0 x * x.igConf_UU 1 2 * x.kd - x.ChrisConf_UDD 2 0 1 *
      dLnOf_alpha_B_U2 x * x.igConf_UU 0 1 * x.kd - x.ChrisConf_UDD 2 1 1 * dLnOf_alpha_B_U2 x * x.igConf_UU 1 1 * x.kd -
      x.ChrisConf_UDD 2 1 2 * dLnOf_alpha_B_U2 x * x.igConf_UU 1 2 * x.kd - dLnOf_alpha_B_U1 x * x.igConf_UU 0 1 *
      (x.ChrisConf_UDD 1 0 1 * x.kd + x.JB0_D 0) - dLnOf_alpha_B_U1 x * x.igConf_UU 1 1 * (x.ChrisConf_UDD 1 1 1 * x.kd +
      x.JB0_D 1) - dLnOf_alpha_B_U1 x * x.igConf_UU 1 2 * (x.ChrisConf_UDD 1 1 2 * x.kd + x.JB0_D 2)

/-- eq_XCTS_crv_ex_T1_ddm_Jac_eq_B0_U1.c:360-361 -/
noncomputable def t10_B_U1 (x : In) : ℝ :=
  t1p10_B_U1 x + t2p10_B_U1 x + t3p10_B_U1 x

/-- eq_XCTS_crv_ex_T1_ddm_Jac_eq_B0_U1.c:365-367 -/
noncomputable def Bpart_U1 (x : In) : ℝ :=
  t10_B_U1 x + t1_B_U1 x + t2_B_U1 x + t3_B_U1 x + t4_B_U1 x + t5_B_U1 x + t6_B_U1 x + t7_B_U1 x + t8_B_U1 x + t9_B_U1 x

/-- eq_XCTS_crv_ex_T1_ddm_Jac_eq_B0_U1.c:370 -/
noncomputable def Bpart_U1_mul (x : In) : ℝ :=
  Bpart_U1 x * (x.JConfC)

/-- eq_XCTS_crv_ex_T1_ddm_Jac_eq_B0_U1.c:386-387 -/
noncomputable def dLnOf_alpha_E_U0 (x : In) : ℝ :=
  -7 * x.dpsi_D 0 / x.psi + x.dalphaPsi_D 0 / x.alphaPsi

/-- eq_XCTS_crv_ex_T1_ddm_Jac_eq_B0_U1.c:389-390 -/
noncomputable def dLnOf_alpha_E_U1 (x : In) : ℝ :=
  -7 * x.dpsi_D 1 / x.psi + x.dalphaPsi_D 1 / x.alphaPsi

/-- eq_XCTS_crv_ex_T1_ddm_Jac_eq_B0_U1.c:392-393 -/
noncomputable def dLnOf_alpha_E_U2 (x : In) : ℝ :=
  -7 * x.dpsi_D 2 / x.psi + x.dalphaPsi_D 2 / x.alphaPsi

/-- eq_XCTS_crv_ex_T1_ddm_Jac_eq_B0_U1.c:396-406 -/
noncomputable def t1_E_U1 (x : In) : ℝ :=
  x.igConf_UU 0 0 * (x.JJB0_DD 0 0 + x.dChrisConf_UDDD 1 0 1 0 * x.kd) + x.igConf_UU 0 1 * (x.JJB0_DD 0 1 + x.dChrisConf_UDDD 1
      0 1 1 * x.kd) + x.igConf_UU 0 1 * (x.JJB0_DD 0 1 + x.dChrisConf_UDDD 1 1 1 0 * x.kd) + x.igConf_UU 0 2 * (x.JJB0_DD 0 2 +
      x.dChrisConf_UDDD 1 0 1 2 * x.kd) + x.igConf_UU 0 2 * (x.JJB0_DD 0 2 + x.dChrisConf_UDDD 1 1 2 0 * x.kd) + x.igConf_UU 1
      1 * (x.JJB0_DD 1 1 + x.dChrisConf_UDDD 1 1 1 1 * x.kd) + x.igConf_UU 1 2 * (x.JJB0_DD 1 2 + x.dChrisConf_UDDD 1 1 1 2 *
      x.kd) + x.igConf_UU 1 2 * (x.JJB0_DD 1 2 + x.dChrisConf_UDDD 1 1 2 1 * x.kd) + x.igConf_UU 2 2 * (x.JJB0_DD 2 2 +
      x.dChrisConf_UDDD 1 1 2 2 * x.kd)

/-- eq_XCTS_crv_ex_T1_ddm_Jac_eq_B0_U1.c:410-417 -/
noncomputable def t2_E_U1 (x : In) : ℝ :=
  2 * x.ChrisConf_UDD 1 0 1 * x.JB0_D 0 * x.igConf_UU 0 0 + 2 * x.ChrisConf_UDD 1 1 1 * x.JB0_D 1 * x.igConf_UU 1 1 + 2 *
      x.ChrisConf_UDD 1 1 2 * x.JB0_D 2 * x.igConf_UU 2 2 + 2 * x.igConf_UU 0 1 * (x.ChrisConf_UDD 1 0 1 * x.JB0_D 1 +
      x.ChrisConf_UDD 1 1 1 * x.JB0_D 0) + 2 * x.igConf_UU 0 2 * (x.ChrisConf_UDD 1 0 1 * x.JB0_D 2 + x.ChrisConf_UDD 1 1 2 *
      x.JB0_D 0) + 2 * x.igConf_UU 1 2 * (x.ChrisConf_UDD 1 1 1 * x.JB0_D 2 + x.ChrisConf_UDD 1 1 2 * x.JB0_D 1)

/-- eq_XCTS_crv_ex_T1_ddm_Jac_eq_B0_U1.c:421-445 -/
noncomputable def t3_E_U1 (x : In) : ℝ :=
  x.kd * (x.ChrisConf_UDD 0 0 1 * x.ChrisConf_UDD 1 0 0 * x.igConf_UU 0 0 + x.ChrisConf_UDD 0 0 1 * x.ChrisConf_UDD 1 0 1 *
      x.igConf_UU 0 1 + x.ChrisConf_UDD 0 0 1 * x.ChrisConf_UDD 1 0 2 * x.igConf_UU 0 2 + x.ChrisConf_UDD 0 1 1 *
      x.ChrisConf_UDD 1 0 0 * x.igConf_UU 0 1 + x.ChrisConf_UDD 0 1 1 * x.ChrisConf_UDD 1 0 1 * x.igConf_UU 1 1 +
      x.ChrisConf_UDD 0 1 1 * x.ChrisConf_UDD 1 0 2 * x.igConf_UU 1 2 + x.ChrisConf_UDD 0 1 2 * x.ChrisConf_UDD 1 0 0 *
      x.igConf_UU 0 2 + x.ChrisConf_UDD 0 1 2 * x.ChrisConf_UDD 1 0 1 * x.igConf_UU 1 2 + x.ChrisConf_UDD 0 1 2 *
      x.ChrisConf_UDD 1 0 2 * x.igConf_UU 2 2 + (x.ChrisConf_UDD 1 0 1) ^ 2 * x.igConf_UU 0 0 + 2 * x.ChrisConf_UDD 1 0 1 *
      x.ChrisConf_UDD 1 1 1 * x.igConf_UU 0 1 + 2 * x.ChrisConf_UDD 1 0 1 * x.ChrisConf_UDD 1 1 2 * x.igConf_UU 0 2 +
      x.ChrisConf_UDD 1 0 2 * x.ChrisConf_UDD 2 0 1 * x.igConf_UU 0 0 + x.ChrisConf_UDD 1 0 2 * x.ChrisConf_UDD 2 1 1 *
      x.igConf_UU 0 1 + x.ChrisConf_UDD 1 0 2 * x.ChrisConf_UDD 2 1 2 * x.igConf_UU 0 2 + (x.ChrisConf_UDD 1 1 1) ^ 2 *
      x.igConf_UU 1 1 + 2 * x.ChrisConf_UDD 1 1 1 * x.ChrisConf_UDD 1 1 2 * x.igConf_UU 1 2 + (x.ChrisConf_UDD 1 1 2) ^ 2 *
      x.igConf_UU 2 2 + x.ChrisConf_UDD 1 1 2 * x.ChrisConf_UDD 2 0 1 * x.igConf_UU 0 1 + x.ChrisConf_UDD 1 1 2 *
      x.ChrisConf_UDD 2 1 1 * x.igConf_UU 1 1 + x.ChrisConf_UDD 1 1 2 * x.ChrisConf_UDD 2 1 2 * x.igConf_UU 1 2 +
      x.ChrisConf_UDD 1 2 2 * x.ChrisConf_UDD 2 0 1 * x.igConf_UU 0 2 + x.ChrisConf_UDD 1 2 2 * x.ChrisConf_UDD 2 1 1 *
      x.igConf_UU 1 2 + x.ChrisConf_UDD 1 2 2 * x.ChrisConf_UDD 2 1 2 * x.igConf_UU 2 2)

/-- eq_XCTS_crv_ex_T1_ddm_Jac_eq_B0_U1.c:449-474 -/
noncomputable def t4_E_U1 (x : In) : ℝ :=
  -x.igConf_UU 0 0 * (x.ChrisConf_UDD 0 0 0 * x.JB0_D 0 + x.ChrisConf_UDD 1 0 0 * x.JB0_D 1 + x.ChrisConf_UDD 2 0 0 * x.JB0_D 2
      + x.kd * (x.ChrisConf_UDD 0 0 0 * x.ChrisConf_UDD 1 0 1 + x.ChrisConf_UDD 1 0 0 * x.ChrisConf_UDD 1 1 1 + x.ChrisConf_UDD
      1 1 2 * x.ChrisConf_UDD 2 0 0)) - 2 * x.igConf_UU 0 1 * (x.ChrisConf_UDD 0 0 1 * x.JB0_D 0 + x.ChrisConf_UDD 1 0 1 *
      x.JB0_D 1 + x.ChrisConf_UDD 2 0 1 * x.JB0_D 2 + x.kd * (x.ChrisConf_UDD 0 0 1 * x.ChrisConf_UDD 1 0 1 + x.ChrisConf_UDD 1
      0 1 * x.ChrisConf_UDD 1 1 1 + x.ChrisConf_UDD 1 1 2 * x.ChrisConf_UDD 2 0 1)) - 2 * x.igConf_UU 0 2 * (x.ChrisConf_UDD 0
      0 2 * x.JB0_D 0 + x.ChrisConf_UDD 1 0 2 * x.JB0_D 1 + x.ChrisConf_UDD 2 0 2 * x.JB0_D 2 + x.kd * (x.ChrisConf_UDD 0 0 2 *
      x.ChrisConf_UDD 1 0 1 + x.ChrisConf_UDD 1 0 2 * x.ChrisConf_UDD 1 1 1 + x.ChrisConf_UDD 1 1 2 * x.ChrisConf_UDD 2 0 2)) -
      x.igConf_UU 1 1 * (x.ChrisConf_UDD 0 1 1 * x.JB0_D 0 + x.ChrisConf_UDD 1 1 1 * x.JB0_D 1 + x.ChrisConf_UDD 2 1 1 *
      x.JB0_D 2 + x.kd * (x.ChrisConf_UDD 0 1 1 * x.ChrisConf_UDD 1 0 1 + (x.ChrisConf_UDD 1 1 1) ^ 2 + x.ChrisConf_UDD 1 1 2 *
      x.ChrisConf_UDD 2 1 1)) - 2 * x.igConf_UU 1 2 * (x.ChrisConf_UDD 0 1 2 * x.JB0_D 0 + x.ChrisConf_UDD 1 1 2 * x.JB0_D 1 +
      x.ChrisConf_UDD 2 1 2 * x.JB0_D 2 + x.kd * (x.ChrisConf_UDD 0 1 2 * x.ChrisConf_UDD 1 0 1 + x.ChrisConf_UDD 1 1 1 *
      x.ChrisConf_UDD 1 1 2 + x.ChrisConf_UDD 1 1 2 * x.ChrisConf_UDD 2 1 2)) - x.igConf_UU 2 2 * (x.ChrisConf_UDD 0 2 2 *
      x.JB0_D 0 + x.ChrisConf_UDD 1 2 2 * x.JB0_D 1 + x.ChrisConf_UDD 2 2 2 * x.JB0_D 2 + x.kd * (x.ChrisConf_UDD 0 2 2 *
      x.ChrisConf_UDD 1 0 1 + x.ChrisConf_UDD 1 1 1 * x.ChrisConf_UDD 1 2 2 + x.ChrisConf_UDD 1 1 2 * x.ChrisConf_UDD 2 2 2))

/-- eq_XCTS_crv_ex_T1_ddm_Jac_eq_B0_U1.c:478-486 -/
noncomputable def t5_E_U1 (x : In) : ℝ :=
  (1 / 3) * x.igConf_UU 0 1 * (x.JJB0_DD 0 1 + x.kd * (x.dChrisConf_UDDD 0 0 1 0 + x.dChrisConf_UDDD 1 1 1 0 +
      x.dChrisConf_UDDD 2 1 2 0)) + (1 / 3) * x.igConf_UU 1 1 * (x.JJB0_DD 1 1 + x.kd * (x.dChrisConf_UDDD 0 0 1 1 +
      x.dChrisConf_UDDD 1 1 1 1 + x.dChrisConf_UDDD 2 1 2 1)) + (1 / 3) * x.igConf_UU 1 2 * (x.JJB0_DD 1 2 + x.kd *
      (x.dChrisConf_UDDD 0 0 1 2 + x.dChrisConf_UDDD 1 1 1 2 + x.dChrisConf_UDDD 2 1 2 2))

/-- eq_XCTS_crv_ex_T1_ddm_Jac_eq_B0_U1.c:490-500 -/
noncomputable def t6_E_U1 (x : In) : ℝ :=
  (1 / 3) * x.igConf_UU 0 1 * (2 * x.ChrisConf_UDD 0 0 1 * x.JB0_D 0 + x.ChrisConf_UDD 1 0 1 * x.JB0_D 1 + x.ChrisConf_UDD 1 1
      1 * x.JB0_D 0 + x.ChrisConf_UDD 2 0 1 * x.JB0_D 2 + x.ChrisConf_UDD 2 1 2 * x.JB0_D 0) + (1 / 3) * x.igConf_UU 1 1 *
      (x.ChrisConf_UDD 0 0 1 * x.JB0_D 1 + x.ChrisConf_UDD 0 1 1 * x.JB0_D 0 + 2 * x.ChrisConf_UDD 1 1 1 * x.JB0_D 1 +
      x.ChrisConf_UDD 2 1 1 * x.JB0_D 2 + x.ChrisConf_UDD 2 1 2 * x.JB0_D 1) + (1 / 3) * x.igConf_UU 1 2 * (x.ChrisConf_UDD 0 0
      1 * x.JB0_D 2 + x.ChrisConf_UDD 0 1 2 * x.JB0_D 0 + x.ChrisConf_UDD 1 1 1 * x.JB0_D 2 + x.ChrisConf_UDD 1 1 2 * x.JB0_D 1
      + 2 * x.ChrisConf_UDD 2 1 2 * x.JB0_D 2)

/-- eq_XCTS_crv_ex_T1_ddm_Jac_eq_B0_U1.c:504-536 -/
noncomputable def t7_E_U1 (x : In) : ℝ :=
  x.kd * ((1 / 3) * x.ChrisConf_UDD 0 0 0 * x.ChrisConf_UDD 0 0 1 * x.igConf_UU 0 1 + (1 / 3) * (x.ChrisConf_UDD 0 0 1) ^ 2 *
      x.igConf_UU 1 1 + (1 / 3) * x.ChrisConf_UDD 0 0 1 * x.ChrisConf_UDD 0 0 2 * x.igConf_UU 1 2 + (1 / 3) * x.ChrisConf_UDD 0
      0 1 * x.ChrisConf_UDD 1 0 1 * x.igConf_UU 0 1 + (1 / 3) * x.ChrisConf_UDD 0 0 2 * x.ChrisConf_UDD 2 0 1 * x.igConf_UU 0 1
      + (1 / 3) * x.ChrisConf_UDD 0 1 1 * x.ChrisConf_UDD 1 0 0 * x.igConf_UU 0 1 + (2 / 3) * x.ChrisConf_UDD 0 1 1 *
      x.ChrisConf_UDD 1 0 1 * x.igConf_UU 1 1 + (1 / 3) * x.ChrisConf_UDD 0 1 1 * x.ChrisConf_UDD 1 0 2 * x.igConf_UU 1 2 + (1
      / 3) * x.ChrisConf_UDD 0 1 2 * x.ChrisConf_UDD 1 0 1 * x.igConf_UU 1 2 + (1 / 3) * x.ChrisConf_UDD 0 1 2 *
      x.ChrisConf_UDD 2 0 0 * x.igConf_UU 0 1 + (2 / 3) * x.ChrisConf_UDD 0 1 2 * x.ChrisConf_UDD 2 0 1 * x.igConf_UU 1 1 + (1
      / 3) * x.ChrisConf_UDD 0 1 2 * x.ChrisConf_UDD 2 0 2 * x.igConf_UU 1 2 + (1 / 3) * x.ChrisConf_UDD 0 2 2 *
      x.ChrisConf_UDD 2 0 1 * x.igConf_UU 1 2 + (1 / 3) * x.ChrisConf_UDD 1 0 1 * x.ChrisConf_UDD 1 1 1 * x.igConf_UU 0 1 + (1
      / 3) * x.ChrisConf_UDD 1 0 2 * x.ChrisConf_UDD 2 1 1 * x.igConf_UU 0 1 + (1 / 3) * (x.ChrisConf_UDD 1 1 1) ^ 2 *
      x.igConf_UU 1 1 + (1 / 3) * x.ChrisConf_UDD 1 1 1 * x.ChrisConf_UDD 1 1 2 * x.igConf_UU 1 2 + (1 / 3) * x.ChrisConf_UDD 1
      1 2 * x.ChrisConf_UDD 2 0 1 * x.igConf_UU 0 1 + (2 / 3) * x.ChrisConf_UDD 1 1 2 * x.ChrisConf_UDD 2 1 1 * x.igConf_UU 1 1
      + (1 / 3) * x.ChrisConf_UDD 1 1 2 * x.ChrisConf_UDD 2 1 2 * x.igConf_UU 1 2 + (1 / 3) * x.ChrisConf_UDD 1 2 2 *
      x.ChrisConf_UDD 2 1 1 * x.igConf_UU 1 2 + (1 / 3) * x.ChrisConf_UDD 2 0 2 * x.ChrisConf_UDD 2 1 2 * x.igConf_UU 0 1 + (1
      / 3) * (x.ChrisConf_UDD 2 1 2) ^ 2 * x.igConf_UU 1 1 + (1 / 3) * x.ChrisConf_UDD 2 1 2 * x.ChrisConf_UDD 2 2 2 *
      x.igConf_UU 1 2)

/-- eq_XCTS_crv_ex_T1_ddm_Jac_eq_B0_U1.c:540-563 -/
noncomputable def t8_E_U1 (x : In) : ℝ :=
  -(1 / 3) * x.igConf_UU 0 1 * (x.ChrisConf_UDD 0 0 1 * x.JB0_D 0 + x.ChrisConf_UDD 1 0 1 * x.JB0_D 1 + x.ChrisConf_UDD 2 0 1 *
      x.JB0_D 2 + x.kd * (x.ChrisConf_UDD 0 0 0 * x.ChrisConf_UDD 0 0 1 + x.ChrisConf_UDD 0 0 1 * x.ChrisConf_UDD 1 0 1 +
      x.ChrisConf_UDD 0 0 2 * x.ChrisConf_UDD 2 0 1 + x.ChrisConf_UDD 0 1 1 * x.ChrisConf_UDD 1 0 0 + x.ChrisConf_UDD 0 1 2 *
      x.ChrisConf_UDD 2 0 0 + x.ChrisConf_UDD 1 0 1 * x.ChrisConf_UDD 1 1 1 + x.ChrisConf_UDD 1 0 2 * x.ChrisConf_UDD 2 1 1 +
      x.ChrisConf_UDD 1 1 2 * x.ChrisConf_UDD 2 0 1 + x.ChrisConf_UDD 2 0 2 * x.ChrisConf_UDD 2 1 2)) - (1 / 3) * x.igConf_UU 1
      1 * (x.ChrisConf_UDD 0 1 1 * x.JB0_D 0 + x.ChrisConf_UDD 1 1 1 * x.JB0_D 1 + x.ChrisConf_UDD 2 1 1 * x.JB0_D 2 + x.kd *
      ((x.ChrisConf_UDD 0 0 1) ^ 2 + 2 * x.ChrisConf_UDD 0 1 1 * x.ChrisConf_UDD 1 0 1 + 2 * x.ChrisConf_UDD 0 1 2 *
      x.ChrisConf_UDD 2 0 1 + (x.ChrisConf_UDD 1 1 1) ^ 2 + 2 * x.ChrisConf_UDD 1 1 2 * x.ChrisConf_UDD 2 1 1 +
      (x.ChrisConf_UDD 2 1 2) ^ 2)) - (1 / 3) * x.igConf_UU 1 2 * (x.ChrisConf_UDD 0 1 2 * x.JB0_D 0 + x.ChrisConf_UDD 1 1 2 *
      x.JB0_D 1 + x.ChrisConf_UDD 2 1 2 * x.JB0_D 2 + x.kd * (x.ChrisConf_UDD 0 0 1 * x.ChrisConf_UDD 0 0 2 + x.ChrisConf_UDD 0
      1 1 * x.ChrisConf_UDD 1 0 2 + x.ChrisConf_UDD 0 1 2 * x.ChrisConf_UDD 1 0 1 + x.ChrisConf_UDD 0 1 2 * x.ChrisConf_UDD 2 0
      2 + x.ChrisConf_UDD 0 2 2 * x.ChrisConf_UDD 2 0 1 + x.ChrisConf_UDD 1 1 1 * x.ChrisConf_UDD 1 1 2 + x.ChrisConf_UDD 1 1 2
      * x.ChrisConf_UDD 2 1 2 + x.ChrisConf_UDD 1 2 2 * x.ChrisConf_UDD 2 1 1 + x.ChrisConf_UDD 2 1 2 * x.ChrisConf_UDD 2 2 2))

/-- eq_XCTS_crv_ex_T1_ddm_Jac_eq_B0_U1.c:567-570 -/
noncomputable def t9_E_U1 (x : In) : ℝ :=
  x.kd * (x.RicciConf_DD 0 1 * x.igConf_UU 0 1 + x.RicciConf_DD 1 1 * x.igConf_UU 1 1 + x.RicciConf_DD 1 2 * x.igConf_UU 1 2)

/-- eq_XCTS_crv_ex_T1_ddm_Jac_eq_B0_U1.c:573-575 -/
noncomputable def contE (x : In) : ℝ :=
  x.JB0_D 1 + x.kd * (x.ChrisConf_UDD 0 0 1 + x.ChrisConf_UDD 1 1 1 + x.ChrisConf_UDD 2 1 2)

/-- eq_XCTS_crv_ex_T1_ddm_Jac_eq_B0_U1.c:578-581 -/
noncomputable def t1p10_E_U1 (x : In) : ℝ :=
  (2 / 3) * contE x * (dLnOf_alpha_E_U0 x * x.igConf_UU 0 1 + dLnOf_alpha_E_U1 x * x.igConf_UU 1 1 + dLnOf_alpha_E_U2 x *
      x.igConf_UU 1 2)

/-- eq_XCTS_crv_ex_T1_ddm_Jac_eq_B0_U1.c:585-597 -/
noncomputable def t2p10_E_U1 (x : In) : ℝ :=
  -dLnOf_alpha_E_U0 x * x.igConf_UU 0 0 * (x.ChrisConf_UDD 1 0 1 * x.kd + x.JB0_D 0) - dLnOf_alpha_E_U0 x * x.igConf_UU 0 1 *
      (x.ChrisConf_UDD 1 1 1 * x.kd + x.JB0_D 1) - dLnOf_alpha_E_U0 x * x.igConf_UU 0 2 * (x.ChrisConf_UDD 1 1 2 * x.kd +
      x.JB0_D 2) - dLnOf_alpha_E_U1 x * x.igConf_UU 0 1 * (x.ChrisConf_UDD 1 0 1 * x.kd + x.JB0_D 0) - dLnOf_alpha_E_U1 x *
      x.igConf_UU 1 1 * (x.ChrisConf_UDD 1 1 1 * x.kd + x.JB0_D 1) - dLnOf_alpha_E_U1 x * x.igConf_UU 1 2 * (x.ChrisConf_UDD 1
      1 2 * x.kd + x.JB0_D 2) - dLnOf_alpha_E_U2 x * x.igConf_UU 0 2 * (x.ChrisConf_UDD 1 0 1 * x.kd + x.JB0_D 0) -
      dLnOf_alpha_E_U2 x * x.igConf_UU 1 2 * (x.ChrisConf_UDD 1 1 1 * x.kd + x.JB0_D 1) - dLnOf_alpha_E_U2 x * x.igConf_UU 2 2
      * (x.ChrisConf_UDD 1 1 2 * x.kd + x.JB0_D 2)

/-- eq_XCTS_crv_ex_T1_ddm_Jac_eq_B0_U1.c:601-611 -/
noncomputable def t3p10_E_U1 (x : In) : ℝ :=
  -x.ChrisConf_UDD 0 0 1 * dLnOf_alpha_E_U0 x * x.igConf_UU 0 1 * x.kd - x.ChrisConf_UDD 0 1 1 * dLnOf_alpha_E_U0 x *
      x.igConf_UU 1 1 * x.kd - x.ChrisConf_UDD 0 1 2 * dLnOf_alpha_E_U0 x * x.igConf_UU 1 2 * x.kd - x.ChrisConf_UDD 2 0 1 *
      dLnOf_alpha_E_U2 x * x.igConf_UU 0 1 * x.kd - x.ChrisConf_UDD 2 1 1 * dLnOf_alpha_E_U2 x * x.igConf_UU 1 1 * x.kd -
      x.ChrisConf_UDD 2 1 2 * dLnOf_alpha_E_U2 x * x.igConf_UU 1 2 * x.kd - dLnOf_alpha_E_U1 x * x.igConf_UU 0 1 *
      (x.ChrisConf_UDD 1 0 1 * x.kd + x.JB0_D 0) - dLnOf_alpha_E_U1 x * x.igConf_UU 1 1 * (x.ChrisConf_UDD 1 1 1 * x.kd +
      x.JB0_D 1) - dLnOf_alpha_E_U1 x * x.igConf_UU 1 2 * (x.ChrisConf_UDD 1 1 2 * x.kd + x.JB0_D 2)

/-- eq_XCTS_crv_ex_T1_ddm_Jac_eq_B0_U1.c:615-616 -/
noncomputable def t10_E_U1 (x : In) : ℝ :=
  t1p10_E_U1 x + t2p10_E_U1 x + t3p10_E_U1 x

/-- eq_XCTS_crv_ex_T1_ddm_Jac_eq_B0_U1.c:620-622 -/
noncomputable def Epart_U1 (x : In) : ℝ :=
  t10_E_U1 x + t1_E_U1 x + t2_E_U1 x + t3_E_U1 x + t4_E_U1 x + t5_E_U1 x + t6_E_U1 x + t7_E_U1 x + t8_E_U1 x + t9_E_U1 x

/-- eq_XCTS_crv_ex_T1_ddm_Jac_eq_B0_U1.c:625 -/
noncomputable def Epart_U1_mul (x : In) : ℝ :=
  Epart_U1 x * (x.JConfC)

/-- eq_XCTS_crv_ex_T1_ddm_Jac_eq_B0_U1.c:371 the value written to schur_B -/
noncomputable def out_schur_B (x : In) : ℝ :=
  Bpart_U1_mul x

/-- eq_XCTS_crv_ex_T1_ddm_Jac_eq_B0_U1.c:626 the value written to schur_Et -/
noncomputable def out_schur_Et (x : In) : ℝ :=
  Epart_U1_mul x

end Elliptica.Gen.Shift.JacEq1

namespace Elliptica.Gen.Shift.Bc1

/-- eq_XCTS_crv_ex_T1_ddm_bc_B0_U1.c:26-27 -/
noncomputable def outerB_F (x : In) : ℝ :=
  x.B0_U 1 - x.v1_boost

/-- eq_XCTS_crv_ex_T1_ddm_bc_B0_U1.c:38-39 -/
noncomputable def innerB_F (x : In) : ℝ :=
  x.B0_U 1 + x.B1_U 1 - x.ibc_beta_U 1

/-- eq_XCTS_crv_ex_T1_ddm_bc_B0_U1.c:29 the value written to schur_F -/
noncomputable def out_schur_F_0 (x : In) : ℝ :=
  outerB_F x

/-- eq_XCTS_crv_ex_T1_ddm_bc_B0_U1.c:41 the value written to schur_F -/
noncomputable def out_schur_F_1 (x : In) : ℝ :=
  innerB_F x

end Elliptica.Gen.Shift.Bc1

namespace Elliptica.Gen.Shift.JacBc1

/-- eq_XCTS_crv_ex_T1_ddm_Jac_bc_B0_U1.c:22-23 -/
noncomputable def outerB_Bpart (x : In) : ℝ :=
  x.kd

/-- eq_XCTS_crv_ex_T1_ddm_Jac_bc_B0_U1.c:31-32 -/
noncomputable def outerB_Epart (x : In) : ℝ :=
  0

/-- eq_XCTS_crv_ex_T1_ddm_Jac_bc_B0_U1.c:42-43 -/
noncomputable def innerB_Bpart (x : In) : ℝ :=
  x.kd

/-- eq_XCTS_crv_ex_T1_ddm_Jac_bc_B0_U1.c:51-52 -/
noncomputable def innerB_Epart (x : In) : ℝ :=
  0

/-- eq_XCTS_crv_ex_T1_ddm_Jac_bc_B0_U1.c:25 the value written to schur_B -/
noncomputable def out_schur_B_0 (x : In) : ℝ :=
  outerB_Bpart x

/-- eq_XCTS_crv_ex_T1_ddm_Jac_bc_B0_U1.c:45 the value written to schur_B -/
noncomputable def out_schur_B_1 (x : In) : ℝ :=
  innerB_Bpart x

/-- eq_XCTS_crv_ex_T1_ddm_Jac_bc_B0_U1.c:34 the value written to schur_Et -/
noncomputable def out_schur_Et_0 (x : In) : ℝ :=
  outerB_Epart x

/-- eq_XCTS_crv_ex_T1_ddm_Jac_bc_B0_U1.c:54 the value written to schur_Et -/
noncomputable def out_schur_Et_1 (x : In) : ℝ :=
  innerB_Epart x

end Elliptica.Gen.Shift.JacBc1

namespace Elliptica.Gen.Shift.JacFlat1

/-- eq_XCTS_flt_ex_T1_ddm_Jac_eq_B0_U1.c:52-53 -/
noncomputable def dLnOf_alpha_B_U0 (x : In) : ℝ :=
  -7 * x.dpsi_D 0 / x.psi + x.dalphaPsi_D 0 / x.alphaPsi

/-- eq_XCTS_flt_ex_T1_ddm_Jac_eq_B0_U1.c:55-56 -/
noncomputable def dLnOf_alpha_B_U1 (x : In) : ℝ :=
  -7 * x.dpsi_D 1 / x.psi + x.dalphaPsi_D 1 / x.alphaPsi

/-- eq_XCTS_flt_ex_T1_ddm_Jac_eq_B0_U1.c:58-59 -/
noncomputable def dLnOf_alpha_B_U2 (x : In) : ℝ :=
  -7 * x.dpsi_D 2 / x.psi + x.dalphaPsi_D 2 / x.alphaPsi

/-- eq_XCTS_flt_ex_T1_ddm_Jac_eq_B0_U1.c:62-65 -/
noncomputable def t1_B_U1 (x : In) : ℝ :=
  x.JJB0_DD 0 0 * x.igConf_UU 0 0 + 2 * x.JJB0_DD 0 1 * x.igConf_UU 0 1 + 2 * x.JJB0_DD 0 2 * x.igConf_UU 0 2 + x.JJB0_DD 1 1 *
      x.igConf_UU 1 1 + 2 * x.JJB0_DD 1 2 * x.igConf_UU 1 2 + x.JJB0_DD 2 2 * x.igConf_UU 2 2

/-- eq_XCTS_flt_ex_T1_ddm_Jac_eq_B0_U1.c:69-72 -/
noncomputable def t2_B_U1 (x : In) : ℝ :=
  (1 / 3) * x.JJB0_DD 0 1 * x.igConf_UU 0 1 + (1 / 3) * x.JJB0_DD 1 1 * x.igConf_UU 1 1 + (1 / 3) * x.JJB0_DD 1 2 * x.igConf_UU
      1 2

/-- eq_XCTS_flt_ex_T1_ddm_Jac_eq_B0_U1.c:76-79 -/
noncomputable def t3_B_U1 (x : In) : ℝ :=
  (2 / 3) * x.JB0_D 1 * (dLnOf_alpha_B_U0 x * x.igConf_UU 0 1 + dLnOf_alpha_B_U1 x * x.igConf_UU 1 1 + dLnOf_alpha_B_U2 x *
      x.igConf_UU 1 2)

/-- eq_XCTS_flt_ex_T1_ddm_Jac_eq_B0_U1.c:83-89 -/
noncomputable def t4_B_U1 (x : In) : ℝ :=
  -x.JB0_D 0 * dLnOf_alpha_B_U0 x * x.igConf_UU 0 0 - x.JB0_D 0 * dLnOf_alpha_B_U1 x * x.igConf_UU 0 1 - x.JB0_D 0 *
      dLnOf_alpha_B_U2 x * x.igConf_UU 0 2 - x.JB0_D 1 * dLnOf_alpha_B_U0 x * x.igConf_UU 0 1 - x.JB0_D 1 * dLnOf_alpha_B_U1 x
      * x.igConf_UU 1 1 - x.JB0_D 1 * dLnOf_alpha_B_U2 x * x.igConf_UU 1 2 - x.JB0_D 2 * dLnOf_alpha_B_U0 x * x.igConf_UU 0 2 -
      x.JB0_D 2 * dLnOf_alpha_B_U1 x * x.igConf_UU 1 2 - x.JB0_D 2 * dLnOf_alpha_B_U2 x * x.igConf_UU 2 2

/-- eq_XCTS_flt_ex_T1_ddm_Jac_eq_B0_U1.c:93-95 -/
noncomputable def t5_B_U1 (x : In) : ℝ :=
  dLnOf_alpha_B_U1 x * (-x.JB0_D 0 * x.igConf_UU 0 1 - x.JB0_D 1 * x.igConf_UU 1 1 - x.JB0_D 2 * x.igConf_UU 1 2)

/-- eq_XCTS_flt_ex_T1_ddm_Jac_eq_B0_U1.c:99-100 -/
noncomputable def Bpart_U1 (x : In) : ℝ :=
  t1_B_U1 x + t2_B_U1 x + t3_B_U1 x + t4_B_U1 x + t5_B_U1 x

/-- eq_XCTS_flt_ex_T1_ddm_Jac_eq_B0_U1.c:103 -/
noncomputable def Bpart_U1_mul (x : In) : ℝ :=
  Bpart_U1 x * (x.JConfC)

/-- eq_XCTS_flt_ex_T1_ddm_Jac_eq_B0_U1.c:119-120 -/
noncomputable def dLnOf_alpha_E_U0 (x : In) : ℝ :=
  -7 * x.dpsi_D 0 / x.psi + x.dalphaPsi_D 0 / x.alphaPsi

/-- eq_XCTS_flt_ex_T1_ddm_Jac_eq_B0_U1.c:122-123 -/
noncomputable def dLnOf_alpha_E_U1 (x : In) : ℝ :=
  -7 * x.dpsi_D 1 / x.psi + x.dalphaPsi_D 1 / x.alphaPsi

/-- eq_XCTS_flt_ex_T1_ddm_Jac_eq_B0_U1.c:125-126 -/
noncomputable def dLnOf_alpha_E_U2 (x : In) : ℝ :=
  -7 * x.dpsi_D 2 / x.psi + x.dalphaPsi_D 2 / x.alphaPsi

/-- eq_XCTS_flt_ex_T1_ddm_Jac_eq_B0_U1.c:129-132 -/
noncomputable def t1_E_U1 (x : In) : ℝ :=
  x.JJB0_DD 0 0 * x.igConf_UU 0 0 + 2 * x.JJB0_DD 0 1 * x.igConf_UU 0 1 + 2 * x.JJB0_DD 0 2 * x.igConf_UU 0 2 + x.JJB0_DD 1 1 *
      x.igConf_UU 1 1 + 2 * x.JJB0_DD 1 2 * x.igConf_UU 1 2 + x.JJB0_DD 2 2 * x.igConf_UU 2 2

/-- eq_XCTS_flt_ex_T1_ddm_Jac_eq_B0_U1.c:136-139 -/
noncomputable def t2_E_U1 (x : In) : ℝ :=
  (1 / 3) * x.JJB0_DD 0 1 * x.igConf_UU 0 1 + (1 / 3) * x.JJB0_DD 1 1 * x.igConf_UU 1 1 + (1 / 3) * x.JJB0_DD 1 2 * x.igConf_UU
      1 2

/-- eq_XCTS_flt_ex_T1_ddm_Jac_eq_B0_U1.c:143-146 -/
noncomputable def t3_E_U1 (x : In) : ℝ :=
  (2 / 3) * x.JB0_D 1 * (dLnOf_alpha_E_U0 x * x.igConf_UU 0 1 + dLnOf_alpha_E_U1 x * x.igConf_UU 1 1 + dLnOf_alpha_E_U2 x *
      x.igConf_UU 1 2)

/-- eq_XCTS_flt_ex_T1_ddm_Jac_eq_B0_U1.c:150-156 -/
noncomputable def t4_E_U1 (x : In) : ℝ :=
  -x.JB0_D 0 * dLnOf_alpha_E_U0 x * x.igConf_UU 0 0 - x.JB0_D 0 * dLnOf_alpha_E_U1 x * x.igConf_UU 0 1 - x.JB0_D 0 *
      dLnOf_alpha_E_U2 x * x.igConf_UU 0 2 - x.JB0_D 1 * dLnOf_alpha_E_U0 x * x.igConf_UU 0 1 - x.JB0_D 1 * dLnOf_alpha_E_U1 x
      * x.igConf_UU 1 1 - x.JB0_D 1 * dLnOf_alpha_E_U2 x * x.igConf_UU 1 2 - x.JB0_D 2 * dLnOf_alpha_E_U0 x * x.igConf_UU 0 2 -
      x.JB0_D 2 * dLnOf_alpha_E_U1 x * x.igConf_UU 1 2 - x.JB0_D 2 * dLnOf_alpha_E_U2 x * x.igConf_UU 2 2

/-- eq_XCTS_flt_ex_T1_ddm_Jac_eq_B0_U1.c:160-162 -/
noncomputable def t5_E_U1 (x : In) : ℝ :=
  dLnOf_alpha_E_U1 x * (-x.JB0_D 0 * x.igConf_UU 0 1 - x.JB0_D 1 * x.igConf_UU 1 1 - x.JB0_D 2 * x.igConf_UU 1 2)

/-- eq_XCTS_flt_ex_T1_ddm_Jac_eq_B0_U1.c:166-167 -/
noncomputable def Epart_U1 (x : In) : ℝ :=
  t1_E_U1 x + t2_E_U1 x + t3_E_U1 x + t4_E_U1 x + t5_E_U1 x

/-- eq_XCTS_flt_ex_T1_ddm_Jac_eq_B0_U1.c:170 -/
noncomputable def Epart_U1_mul (x : In) : ℝ :=
  Epart_U1 x * (x.JConfC)

/-- eq_XCTS_flt_ex_T1_ddm_Jac_eq_B0_U1.c:104 the value written to schur_B -/
noncomputable def out_schur_B (x : In) : ℝ :=
  Bpart_U1_mul x

/-- eq_XCTS_flt_ex_T1_ddm_Jac_eq_B0_U1.c:171 the value written to schur_Et -/
noncomputable def out_schur_Et (x : In) : ℝ :=
  Epart_U1_mul x

end Elliptica.Gen.Shift.JacFlat1

namespace Elliptica.Gen.Shift.Eq2

/-- eq_XCTS_crv_ex_T1_ddm_eq_B0_U2.c:76-86 -/
noncomputable def F00_U2 (x : In) : ℝ :=
  (x.AConfIJ_UU 0 0 * x.ChrisConf_UDD 2 0 0 + 2 * x.AConfIJ_UU 0 1 * x.ChrisConf_UDD 2 0 1 + x.AConfIJ_UU 0 2 * x.ChrisConf_UDD
      0 0 0 + x.AConfIJ_UU 0 2 * x.ChrisConf_UDD 1 0 1 + 3 * x.AConfIJ_UU 0 2 * x.ChrisConf_UDD 2 0 2 + x.AConfIJ_UU 1 1 *
      x.ChrisConf_UDD 2 1 1 + x.AConfIJ_UU 1 2 * x.ChrisConf_UDD 0 0 1 + x.AConfIJ_UU 1 2 * x.ChrisConf_UDD 1 1 1 + 3 *
      x.AConfIJ_UU 1 2 * x.ChrisConf_UDD 2 1 2 + x.AConfIJ_UU 2 2 * x.ChrisConf_UDD 0 0 2 + x.AConfIJ_UU 2 2 * x.ChrisConf_UDD
      1 1 2 + 2 * x.AConfIJ_UU 2 2 * x.ChrisConf_UDD 2 2 2 + x.dAConfIJ_UUD 0 2 0 + x.dAConfIJ_UUD 1 2 1 + x.dAConfIJ_UUD 2 2
      2) / x.psi ^ 3

/-- eq_XCTS_crv_ex_T1_ddm_eq_B0_U2.c:90-91 -/
noncomputable def F0_U2 (x : In) : ℝ :=
  F00_U2 x / x.psi ^ 4

/-- eq_XCTS_crv_ex_T1_ddm_eq_B0_U2.c:95-97 -/
noncomputable def F1_U2 (x : In) : ℝ :=
  (2 / 3) * (-x.dtrK_D 0 * x.igConf_UU 0 2 - x.dtrK_D 1 * x.igConf_UU 1 2 - x.dtrK_D 2 * x.igConf_UU 2 2) / x.psi

/-- eq_XCTS_crv_ex_T1_ddm_eq_B0_U2.c:101-102 -/
noncomputable def s_U2 (x : In) : ℝ :=
  -8 * Real.pi * x.JConfP_U 2 / x.psi ^ 3

/-- eq_XCTS_crv_ex_T1_ddm_eq_B0_U2.c:106-107 -/
noncomputable def ell_U2 (x : In) : ℝ :=
  x.JConfC * (F0_U2 x + F1_U2 x)

/-- eq_XCTS_crv_ex_T1_ddm_eq_B0_U2.c:111-112 -/
noncomputable def F_eq_U2 (x : In) : ℝ :=
  2 * x.alphaPsi * (ell_U2 x + s_U2 x)

/-- eq_XCTS_crv_ex_T1_ddm_eq_B0_U2.c:114 the value written to schur_F -/
noncomputable def out_schur_F (x : In) : ℝ :=
  F_eq_U2 x

end Elliptica.Gen.Shift.Eq2

namespace Elliptica.Gen.Shift.JacEq2

/-- eq_XCTS_crv_ex_T1_ddm_Jac_eq_B0_U2.c:131-132 -/
noncomputable def dLnOf_alpha_B_U0 (x : In) : ℝ :=
  -7 * x.dpsi_D 0 / x.psi + x.dalphaPsi_D 0 / x.alphaPsi

/-- eq_XCTS_crv_ex_T1_ddm_Jac_eq_B0_U2.c:134-135 -/
noncomputable def dLnOf_alpha_B_U1 (x : In) : ℝ :=
  -7 * x.dpsi_D 1 / x.psi + x.dalphaPsi_D 1 / x.alphaPsi

/-- eq_XCTS_crv_ex_T1_ddm_Jac_eq_B0_U2.c:137-138 -/
noncomputable def dLnOf_alpha_B_U2 (x : In) : ℝ :=
  -7 * x.dpsi_D 2 / x.psi + x.dalphaPsi_D 2 / x.alphaPsi

/-- eq_XCTS_crv_ex_T1_ddm_Jac_eq_B0_U2.c:142-152 -/
noncomputable def t1_B_U2 (x : In) : ℝ :=
  x.igConf_UU 0 0 * (x.JJB0_DD 0 0 + x.dChrisConf_UDDD 2 0 2 0 * x.kd) + x.igConf_UU 0 1 * (x.JJB0_DD 0 1 + x.dChrisConf_UDDD 2
      0 2 1 * x.kd) + x.igConf_UU 0 1 * (x.JJB0_DD 0 1 + x.dChrisConf_UDDD 2 1 2 0 * x.kd) + x.igConf_UU 0 2 * (x.JJB0_DD 0 2 +
      x.dChrisConf_UDDD 2 0 2 2 * x.kd) + x.igConf_UU 0 2 * (x.JJB0_DD 0 2 + x.dChrisConf_UDDD 2 2 2 0 * x.kd) + x.igConf_UU 1
      1 * (x.JJB0_DD 1 1 + x.dChrisConf_UDDD 2 1 2 1 * x.kd) + x.igConf_UU 1 2 * (x.JJB0_DD 1 2 + x.dChrisConf_UDDD 2 1 2 2 *
      x.kd) + x.igConf_UU 1 2 * (x.JJB0_DD 1 2 + x.dChrisConf_UDDD 2 2 2 1 * x.kd) + x.igConf_UU 2 2 * (x.JJB0_DD 2 2 +
      x.dChrisConf_UDDD 2 2 2 2 * x.kd)

/-- eq_XCTS_crv_ex_T1_ddm_Jac_eq_B0_U2.c:156-163 -/
noncomputable def t2_B_U2 (x : In) : ℝ :=
  2 * x.ChrisConf_UDD 2 0 2 * x.JB0_D 0 * x.igConf_UU 0 0 + 2 * x.ChrisConf_UDD 2 1 2 * x.JB0_D 1 * x.igConf_UU 1 1 + 2 *
      x.ChrisConf_UDD 2 2 2 * x.JB0_D 2 * x.igConf_UU 2 2 + 2 * x.igConf_UU 0 1 * (x.ChrisConf_UDD 2 0 2 * x.JB0_D 1 +
      x.ChrisConf_UDD 2 1 2 * x.JB0_D 0) + 2 * x.igConf_UU 0 2 * (x.ChrisConf_UDD 2 0 2 * x.JB0_D 2 + x.ChrisConf_UDD 2 2 2 *
      x.JB0_D 0) + 2 * x.igConf_UU 1 2 * (x.ChrisConf_UDD 2 1 2 * x.JB0_D 2 + x.ChrisConf_UDD 2 2 2 * x.JB0_D 1)

/-- eq_XCTS_crv_ex_T1_ddm_Jac_eq_B0_U2.c:167-191 -/
noncomputable def t3_B_U2 (x : In) : ℝ :=
  x.kd * (x.ChrisConf_UDD 0 0 2 * x.ChrisConf_UDD 2 0 0 * x.igConf_UU 0 0 + x.ChrisConf_UDD 0 0 2 * x.ChrisConf_UDD 2 0 1 *
      x.igConf_UU 0 1 + x.ChrisConf_UDD 0 0 2 * x.ChrisConf_UDD 2 0 2 * x.igConf_UU 0 2 + x.ChrisConf_UDD 0 1 2 *
      x.ChrisConf_UDD 2 0 0 * x.igConf_UU 0 1 + x.ChrisConf_UDD 0 1 2 * x.ChrisConf_UDD 2 0 1 * x.igConf_UU 1 1 +
      x.ChrisConf_UDD 0 1 2 * x.ChrisConf_UDD 2 0 2 * x.igConf_UU 1 2 + x.ChrisConf_UDD 0 2 2 * x.ChrisConf_UDD 2 0 0 *
      x.igConf_UU 0 2 + x.ChrisConf_UDD 0 2 2 * x.ChrisConf_UDD 2 0 1 * x.igConf_UU 1 2 + x.ChrisConf_UDD 0 2 2 *
      x.ChrisConf_UDD 2 0 2 * x.igConf_UU 2 2 + x.ChrisConf_UDD 1 0 2 * x.ChrisConf_UDD 2 0 1 * x.igConf_UU 0 0 +
      x.ChrisConf_UDD 1 0 2 * x.ChrisConf_UDD 2 1 1 * x.igConf_UU 0 1 + x.ChrisConf_UDD 1 0 2 * x.ChrisConf_UDD 2 1 2 *
      x.igConf_UU 0 2 + x.ChrisConf_UDD 1 1 2 * x.ChrisConf_UDD 2 0 1 * x.igConf_UU 0 1 + x.ChrisConf_UDD 1 1 2 *
      x.ChrisConf_UDD 2 1 1 * x.igConf_UU 1 1 + x.ChrisConf_UDD 1 1 2 * x.ChrisConf_UDD 2 1 2 * x.igConf_UU 1 2 +
      x.ChrisConf_UDD 1 2 2 * x.ChrisConf_UDD 2 0 1 * x.igConf_UU 0 2 + x.ChrisConf_UDD 1 2 2 * x.ChrisConf_UDD 2 1 1 *
      x.igConf_UU 1 2 + x.ChrisConf_UDD 1 2 2 * x.ChrisConf_UDD 2 1 2 * x.igConf_UU 2 2 + (x.ChrisConf_UDD 2 0 2) ^ 2 *
      x.igConf_UU 0 0 + 2 * x.ChrisConf_UDD 2 0 2 * x.ChrisConf_UDD 2 1 2 * x.igConf_UU 0 1 + 2 * x.ChrisConf_UDD 2 0 2 *
      x.ChrisConf_UDD 2 2 2 * x.igConf_UU 0 2 + (x.ChrisConf_UDD 2 1 2) ^ 2 * x.igConf_UU 1 1 + 2 * x.ChrisConf_UDD 2 1 2 *
      x.ChrisConf_UDD 2 2 2 * x.igConf_UU 1 2 + (x.ChrisConf_UDD 2 2 2) ^ 2 * x.igConf_UU 2 2)

/-- eq_XCTS_crv_ex_T1_ddm_Jac_eq_B0_U2.c:195-219 -/
noncomputable def t4_B_U2 (x : In) : ℝ :=
  -x.igConf_UU 0 0 * (x.ChrisConf_UDD 0 0 0 * x.JB0_D 0 + x.ChrisConf_UDD 1 0 0 * x.JB0_D 1 + x.ChrisConf_UDD 2 0 0 * x.JB0_D 2
      + x.kd * (x.ChrisConf_UDD 0 0 0 * x.ChrisConf_UDD 2 0 2 + x.ChrisConf_UDD 1 0 0 * x.ChrisConf_UDD 2 1 2 + x.ChrisConf_UDD
      2 0 0 * x.ChrisConf_UDD 2 2 2)) - 2 * x.igConf_UU 0 1 * (x.ChrisConf_UDD 0 0 1 * x.JB0_D 0 + x.ChrisConf_UDD 1 0 1 *
      x.JB0_D 1 + x.ChrisConf_UDD 2 0 1 * x.JB0_D 2 + x.kd * (x.ChrisConf_UDD 0 0 1 * x.ChrisConf_UDD 2 0 2 + x.ChrisConf_UDD 1
      0 1 * x.ChrisConf_UDD 2 1 2 + x.ChrisConf_UDD 2 0 1 * x.ChrisConf_UDD 2 2 2)) - 2 * x.igConf_UU 0 2 * (x.ChrisConf_UDD 0
      0 2 * x.JB0_D 0 + x.ChrisConf_UDD 1 0 2 * x.JB0_D 1 + x.ChrisConf_UDD 2 0 2 * x.JB0_D 2 + x.kd * (x.ChrisConf_UDD 0 0 2 *
      x.ChrisConf_UDD 2 0 2 + x.ChrisConf_UDD 1 0 2 * x.ChrisConf_UDD 2 1 2 + x.ChrisConf_UDD 2 0 2 * x.ChrisConf_UDD 2 2 2)) -
      x.igConf_UU 1 1 * (x.ChrisConf_UDD 0 1 1 * x.JB0_D 0 + x.ChrisConf_UDD 1 1 1 * x.JB0_D 1 + x.ChrisConf_UDD 2 1 1 *
      x.JB0_D 2 + x.kd * (x.ChrisConf_UDD 0 1 1 * x.ChrisConf_UDD 2 0 2 + x.ChrisConf_UDD 1 1 1 * x.ChrisConf_UDD 2 1 2 +
      x.ChrisConf_UDD 2 1 1 * x.ChrisConf_UDD 2 2 2)) - 2 * x.igConf_UU 1 2 * (x.ChrisConf_UDD 0 1 2 * x.JB0_D 0 +
      x.ChrisConf_UDD 1 1 2 * x.JB0_D 1 + x.ChrisConf_UDD 2 1 2 * x.JB0_D 2 + x.kd * (x.ChrisConf_UDD 0 1 2 * x.ChrisConf_UDD 2
      0 2 + x.ChrisConf_UDD 1 1 2 * x.ChrisConf_UDD 2 1 2 + x.ChrisConf_UDD 2 1 2 * x.ChrisConf_UDD 2 2 2)) - x.igConf_UU 2 2 *
      (x.ChrisConf_UDD 0 2 2 * x.JB0_D 0 + x.ChrisConf_UDD 1 2 2 * x.JB0_D 1 + x.ChrisConf_UDD 2 2 2 * x.JB0_D 2 + x.kd *
      (x.ChrisConf_UDD 0 2 2 * x.ChrisConf_UDD 2 0 2 + x.ChrisConf_UDD 1 2 2 * x.ChrisConf_UDD 2 1 2 + (x.ChrisConf_UDD 2 2 2)
      ^ 2))

/-- eq_XCTS_crv_ex_T1_ddm_Jac_eq_B0_U2.c:223-231 -/
noncomputable def t5_B_U2 (x : In) : ℝ :=
  (1 / 3) * x.igConf_UU 0 2 * (x.JJB0_DD 0 2 + x.kd * (x.dChrisConf_UDDD 0 0 2 0 + x.dChrisConf_UDDD 1 1 2 0 +
      x.dChrisConf_UDDD 2 2 2 0)) + (1 / 3) * x.igConf_UU 1 2 * (x.JJB0_DD 1 2 + x.kd * (x.dChrisConf_UDDD 0 0 2 1 +
      x.dChrisConf_UDDD 1 1 2 1 + x.dChrisConf_UDDD 2 2 2 1)) + (1 / 3) * x.igConf_UU 2 2 * (x.JJB0_DD 2 2 + x.kd *
      (x.dChrisConf_UDDD 0 0 2 2 + x.dChrisConf_UDDD 1 1 2 2 + x.dChrisConf_UDDD 2 2 2 2))

/-- eq_XCTS_crv_ex_T1_ddm_Jac_eq_B0_U2.c:235-245 -/
noncomputable def t6_B_U2 (x : In) : ℝ :=
  (1 / 3) * x.igConf_UU 0 2 * (2 * x.ChrisConf_UDD 0 0 2 * x.JB0_D 0 + x.ChrisConf_UDD 1 0 2 * x.JB0_D 1 + x.ChrisConf_UDD 1 1
      2 * x.JB0_D 0 + x.ChrisConf_UDD 2 0 2 * x.JB0_D 2 + x.ChrisConf_UDD 2 2 2 * x.JB0_D 0) + (1 / 3) * x.igConf_UU 1 2 *
      (x.ChrisConf_UDD 0 0 2 * x.JB0_D 1 + x.ChrisConf_UDD 0 1 2 * x.JB0_D 0 + 2 * x.ChrisConf_UDD 1 1 2 * x.JB0_D 1 +
      x.ChrisConf_UDD 2 1 2 * x.JB0_D 2 + x.ChrisConf_UDD 2 2 2 * x.JB0_D 1) + (1 / 3) * x.igConf_UU 2 2 * (x.ChrisConf_UDD 0 0
      2 * x.JB0_D 2 + x.ChrisConf_UDD 0 2 2 * x.JB0_D 0 + x.ChrisConf_UDD 1 1 2 * x.JB0_D 2 + x.ChrisConf_UDD 1 2 2 * x.JB0_D 1
      + 2 * x.ChrisConf_UDD 2 2 2 * x.JB0_D 2)

/-- eq_XCTS_crv_ex_T1_ddm_Jac_eq_B0_U2.c:249-281 -/
noncomputable def t7_B_U2 (x : In) : ℝ :=
  x.kd * ((1 / 3) * x.ChrisConf_UDD 0 0 0 * x.ChrisConf_UDD 0 0 2 * x.igConf_UU 0 2 + (1 / 3) * x.ChrisConf_UDD 0 0 1 *
      x.ChrisConf_UDD 0 0 2 * x.igConf_UU 1 2 + (1 / 3) * x.ChrisConf_UDD 0 0 1 * x.ChrisConf_UDD 1 0 2 * x.igConf_UU 0 2 + (1
      / 3) * (x.ChrisConf_UDD 0 0 2) ^ 2 * x.igConf_UU 2 2 + (1 / 3) * x.ChrisConf_UDD 0 0 2 * x.ChrisConf_UDD 2 0 2 *
      x.igConf_UU 0 2 + (1 / 3) * x.ChrisConf_UDD 0 1 1 * x.ChrisConf_UDD 1 0 2 * x.igConf_UU 1 2 + (1 / 3) * x.ChrisConf_UDD 0
      1 2 * x.ChrisConf_UDD 1 0 0 * x.igConf_UU 0 2 + (1 / 3) * x.ChrisConf_UDD 0 1 2 * x.ChrisConf_UDD 1 0 1 * x.igConf_UU 1 2
      + (2 / 3) * x.ChrisConf_UDD 0 1 2 * x.ChrisConf_UDD 1 0 2 * x.igConf_UU 2 2 + (1 / 3) * x.ChrisConf_UDD 0 1 2 *
      x.ChrisConf_UDD 2 0 2 * x.igConf_UU 1 2 + (1 / 3) * x.ChrisConf_UDD 0 2 2 * x.ChrisConf_UDD 2 0 0 * x.igConf_UU 0 2 + (1
      / 3) * x.ChrisConf_UDD 0 2 2 * x.ChrisConf_UDD 2 0 1 * x.igConf_UU 1 2 + (2 / 3) * x.ChrisConf_UDD 0 2 2 *
      x.ChrisConf_UDD 2 0 2 * x.igConf_UU 2 2 + (1 / 3) * x.ChrisConf_UDD 1 0 1 * x.ChrisConf_UDD 1 1 2 * x.igConf_UU 0 2 + (1
      / 3) * x.ChrisConf_UDD 1 0 2 * x.ChrisConf_UDD 2 1 2 * x.igConf_UU 0 2 + (1 / 3) * x.ChrisConf_UDD 1 1 1 *
      x.ChrisConf_UDD 1 1 2 * x.igConf_UU 1 2 + (1 / 3) * (x.ChrisConf_UDD 1 1 2) ^ 2 * x.igConf_UU 2 2 + (1 / 3) *
      x.ChrisConf_UDD 1 1 2 * x.ChrisConf_UDD 2 1 2 * x.igConf_UU 1 2 + (1 / 3) * x.ChrisConf_UDD 1 2 2 * x.ChrisConf_UDD 2 0 1
      * x.igConf_UU 0 2 + (1 / 3) * x.ChrisConf_UDD 1 2 2 * x.ChrisConf_UDD 2 1 1 * x.igConf_UU 1 2 + (2 / 3) * x.ChrisConf_UDD
      1 2 2 * x.ChrisConf_UDD 2 1 2 * x.igConf_UU 2 2 + (1 / 3) * x.ChrisConf_UDD 2 0 2 * x.ChrisConf_UDD 2 2 2 * x.igConf_UU 0
      2 + (1 / 3) * x.ChrisConf_UDD 2 1 2 * x.ChrisConf_UDD 2 2 2 * x.igConf_UU 1 2 + (1 / 3) * (x.ChrisConf_UDD 2 2 2) ^ 2 *
      x.igConf_UU 2 2)

/-- eq_XCTS_crv_ex_T1_ddm_Jac_eq_B0_U2.c:285-308 -/
noncomputable def t8_B_U2 (x : In) : ℝ :=
  -(1 / 3) * x.igConf_UU 0 2 * (x.ChrisConf_UDD 0 0 2 * x.JB0_D 0 + x.ChrisConf_UDD 1 0 2 * x.JB0_D 1 + x.ChrisConf_UDD 2 0 2 *
      x.JB0_D 2 + x.kd * (x.ChrisConf_UDD 0 0 0 * x.ChrisConf_UDD 0 0 2 + x.ChrisConf_UDD 0 0 1 * x.ChrisConf_UDD 1 0 2 +
      x.ChrisConf_UDD 0 0 2 * x.ChrisConf_UDD 2 0 2 + x.ChrisConf_UDD 0 1 2 * x.ChrisConf_UDD 1 0 0 + x.ChrisConf_UDD 0 2 2 *
      x.ChrisConf_UDD 2 0 0 + x.ChrisConf_UDD 1 0 1 * x.ChrisConf_UDD 1 1 2 + x.ChrisConf_UDD 1 0 2 * x.ChrisConf_UDD 2 1 2 +
      x.ChrisConf_UDD 1 2 2 * x.ChrisConf_UDD 2 0 1 + x.ChrisConf_UDD 2 0 2 * x.ChrisConf_UDD 2 2 2)) - (1 / 3) * x.igConf_UU 1
      2 * (x.ChrisConf_UDD 0 1 2 * x.JB0_D 0 + x.ChrisConf_UDD 1 1 2 * x.JB0_D 1 + x.ChrisConf_UDD 2 1 2 * x.JB0_D 2 + x.kd *
      (x.ChrisConf_UDD 0 0 1 * x.ChrisConf_UDD 0 0 2 + x.ChrisConf_UDD 0 1 1 * x.ChrisConf_UDD 1 0 2 + x.ChrisConf_UDD 0 1 2 *
      x.ChrisConf_UDD 1 0 1 + x.ChrisConf_UDD 0 1 2 * x.ChrisConf_UDD 2 0 2 + x.ChrisConf_UDD 0 2 2 * x.ChrisConf_UDD 2 0 1 +
      x.ChrisConf_UDD 1 1 1 * x.ChrisConf_UDD 1 1 2 + x.ChrisConf_UDD 1 1 2 * x.ChrisConf_UDD 2 1 2 + x.ChrisConf_UDD 1 2 2 *
      x.ChrisConf_UDD 2 1 1 + x.ChrisConf_UDD 2 1 2 * x.ChrisConf_UDD 2 2 2)) - (1 / 3) * x.igConf_UU 2 2 * (x.ChrisConf_UDD 0
      2 2 * x.JB0_D 0 + x.ChrisConf_UDD 1 2 2 * x.JB0_D 1 + x.ChrisConf_UDD 2 2 2 * x.JB0_D 2 + x.kd * ((x.ChrisConf_UDD 0 0 2)
      ^ 2 + 2 * x.ChrisConf_UDD 0 1 2 * x.ChrisConf_UDD 1 0 2 + 2 * x.ChrisConf_UDD 0 2 2 * x.ChrisConf_UDD 2 0 2 +
      (x.ChrisConf_UDD 1 1 2) ^ 2 + 2 * x.ChrisConf_UDD 1 2 2 * x.ChrisConf_UDD 2 1 2 + (x.ChrisConf_UDD 2 2 2) ^ 2))

/-- eq_XCTS_crv_ex_T1_ddm_Jac_eq_B0_U2.c:312-315 -/
noncomputable def t9_B_U2 (x : In) : ℝ :=
  x.kd * (x.RicciConf_DD 0 2 * x.igConf_UU 0 2 + x.RicciConf_DD 1 2 * x.igConf_UU 1 2 + x.RicciConf_DD 2 2 * x.igConf_UU 2 2)

/-- eq_XCTS_crv_ex_T1_ddm_Jac_eq_B0_U2.c:317-319 -/
noncomputable def contB (x : In) : ℝ :=
  x.JB0_D 2 + x.kd * (x.ChrisConf_UDD 0 0 2 + x.ChrisConf_UDD 1 1 2 + x.ChrisConf_UDD 2 2 2)

/-- eq_XCTS_crv_ex_T1_ddm_Jac_eq_B0_U2.c:323-326 -/
noncomputable def t1p10_B_U2 (x : In) : ℝ :=
  (2 / 3) * contB x * (dLnOf_alpha_B_U0 x * x.igConf_UU 0 2 + dLnOf_alpha_B_U1 x * x.igConf_UU 1 2 + dLnOf_alpha_B_U2 x *
      x.igConf_UU 2 2)

/-- eq_XCTS_crv_ex_T1_ddm_Jac_eq_B0_U2.c:330-342 -/
noncomputable def t2p10_B_U2 (x : In) : ℝ :=
  -dLnOf_alpha_B_U0 x * x.igConf_UU 0 0 * (x.ChrisConf_UDD 2 0 2 * x.kd + x.JB0_D 0) - dLnOf_alpha_B_U0 x * x.igConf_UU 0 1 *
      (x.ChrisConf_UDD 2 1 2 * x.kd + x.JB0_D 1) - dLnOf_alpha_B_U0 x * x.igConf_UU 0 2 * (x.ChrisConf_UDD 2 2 2 * x.kd +
      x.JB0_D 2) - dLnOf_alpha_B_U1 x * x.igConf_UU 0 1 * (x.ChrisConf_UDD 2 0 2 * x.kd + x.JB0_D 0) - dLnOf_alpha_B_U1 x *
      x.igConf_UU 1 1 * (x.ChrisConf_UDD 2 1 2 * x.kd + x.JB0_D 1) - dLnOf_alpha_B_U1 x * x.igConf_UU 1 2 * (x.ChrisConf_UDD 2
      2 2 * x.kd + x.JB0_D 2) - dLnOf_alpha_B_U2 x * x.igConf_UU 0 2 * (x.ChrisConf_UDD 2 0 2 * x.kd + x.JB0_D 0) -
      dLnOf_alpha_B_U2 x * x.igConf_UU 1 2 * (x.ChrisConf_UDD 2 1 2 * x.kd + x.JB0_D 1) - dLnOf_alpha_B_U2 x * x.igConf_UU 2 2
      * (x.ChrisConf_UDD 2 2 2 * x.kd + x.JB0_D 2)

/-- eq_XCTS_crv_ex_T1_ddm_Jac_eq_B0_U2.c:346-356 -/
noncomputable def t3p10_B_U2 (x : In) : ℝ :=
  -x.ChrisConf_UDD 0 0 2 * dLnOf_alpha_B_U0 x * x.igConf_UU 0 2 * x.kd - x.ChrisConf_UDD 0 1 2 * dLnOf_alpha_B_U0 x *
      x.igConf_UU 1 2 * x.kd - x.ChrisConf_UDD 0 2 2 * dLnOf_alpha_B_U0 x * x.igConf_UU 2 2 * x.kd - x.ChrisConf_UDD 1 0 2 *
      dLnOf_alpha_B_U1 x * x.igConf_UU 0 2 * x.kd - x.ChrisConf_UDD 1 1 2 * dLnOf_alpha_B_U1 x * x.igConf_UU 1 2 * x.kd -
      x.ChrisConf_UDD 1 2 2 * dLnOf_alpha_B_U1 x * x.igConf_UU 2 2 * x.kd - dLnOf_alpha_B_U2 x * x.igConf_UU 0 2 *
      (x.ChrisConf_UDD 2 0 2 * x.kd + x.JB0_D 0) - dLnOf_alpha_B_U2 x * x.igConf_UU 1 2 * (x.ChrisConf_UDD 2 1 2 * x.kd +
      x.JB0_D 1) - dLnOf_alpha_B_U2 x * x.igConf_UU 2 2 * (x.ChrisConf_UDD 2 2 2 * x.kd + x.JB0_D 2)

/-- eq_XCTS_crv_ex_T1_ddm_Jac_eq_B0_U2.c:360-361 -/
noncomputable def t10_B_U2 (x : In) : ℝ :=
  t1p10_B_U2 x + t2p10_B_U2 x + t3p10_B_U2 x

/-- eq_XCTS_crv_ex_T1_ddm_Jac_eq_B0_U2.c:365-367 -/
noncomputable def Bpart_U2 (x : In) : ℝ :=
  t10_B_U2 x + t1_B_U2 x + t2_B_U2 x + t3_B_U2 x + t4_B_U2 x + t5_B_U2 x + t6_B_U2 x + t7_B_U2 x + t8_B_U2 x + t9_B_U2 x

/-- eq_XCTS_crv_ex_T1_ddm_Jac_eq_B0_U2.c:369 -/
noncomputable def Bpart_U2_mul (x : In) : ℝ :=
  Bpart_U2 x * (x.JConfC)

/-- eq_XCTS_crv_ex_T1_ddm_Jac_eq_B0_U2.c:385-386 -/
noncomputable def dLnOf_alpha_E_U0 (x : In) : ℝ :=
  -7 * x.dpsi_D 0 / x.psi + x.dalphaPsi_D 0 / x.alphaPsi

/-- eq_XCTS_crv_ex_T1_ddm_Jac_eq_B0_U2.c:388-389 -/
noncomputable def dLnOf_alpha_E_U1 (x : In) : ℝ :=
  -7 * x.dpsi_D 1 / x.psi + x.dalphaPsi_D 1 / x.alphaPsi

/-- eq_XCTS_crv_ex_T1_ddm_Jac_eq_B0_U2.c:391-392 -/
noncomputable def dLnOf_alpha_E_U2 (x : In) : ℝ :=
  -7 * x.dpsi_D 2 / x.psi + x.dalphaPsi_D 2 / x.alphaPsi

/-- eq_XCTS_crv_ex_T1_ddm_Jac_eq_B0_U2.c:396-406 -/
noncomputable def t1_E_U2 (x : In) : ℝ :=
  x.igConf_UU 0 0 * (x.JJB0_DD 0 0 + x.dChrisConf_UDDD 2 0 2 0 * x.kd) + x.igConf_UU 0 1 * (x.JJB0_DD 0 1 + x.dChrisConf_UDDD 2
      0 2 1 * x.kd) + x.igConf_UU 0 1 * (x.JJB0_DD 0 1 + x.dChrisConf_UDDD 2 1 2 0 * x.kd) + x.igConf_UU 0 2 * (x.JJB0_DD 0 2 +
      x.dChrisConf_UDDD 2 0 2 2 * x.kd) + x.igConf_UU 0 2 * (x.JJB0_DD 0 2 + x.dChrisConf_UDDD 2 2 2 0 * x.kd) + x.igConf_UU 1
      1 * (x.JJB0_DD 1 1 + x.dChrisConf_UDDD 2 1 2 1 * x.kd) + x.igConf_UU 1 2 * (x.JJB0_DD 1 2 + x.dChrisConf_UDDD 2 1 2 2 *
      x.kd) + x.igConf_UU 1 2 * (x.JJB0_DD 1 2 + x.dChrisConf_UDDD 2 2 2 1 * x.kd) + x.igConf_UU 2 2 * (x.JJB0_DD 2 2 +
      x.dChrisConf_UDDD 2 2 2 2 * x.kd)

/-- eq_XCTS_crv_ex_T1_ddm_Jac_eq_B0_U2.c:410-417 -/
noncomputable def t2_E_U2 (x : In) : ℝ :=
  2 * x.ChrisConf_UDD 2 0 2 * x.JB0_D 0 * x.igConf_UU 0 0 + 2 * x.ChrisConf_UDD 2 1 2 * x.JB0_D 1 * x.igConf_UU 1 1 + 2 *
      x.ChrisConf_UDD 2 2 2 * x.JB0_D 2 * x.igConf_UU 2 2 + 2 * x.igConf_UU 0 1 * (x.ChrisConf_UDD 2 0 2 * x.JB0_D 1 +
      x.ChrisConf_UDD 2 1 2 * x.JB0_D 0) + 2 * x.igConf_UU 0 2 * (x.ChrisConf_UDD 2 0 2 * x.JB0_D 2 + x.ChrisConf_UDD 2 2 2 *
      x.JB0_D 0) + 2 * x.igConf_UU 1 2 * (x.ChrisConf_UDD 2 1 2 * x.JB0_D 2 + x.ChrisConf_UDD 2 2 2 * x.JB0_D 1)

/-- eq_XCTS_crv_ex_T1_ddm_Jac_eq_B0_U2.c:421-445 -/
noncomputable def t3_E_U2 (x : In) : ℝ :=
  x.kd * (x.ChrisConf_UDD 0 0 2 * x.ChrisConf_UDD 2 0 0 * x.igConf_UU 0 0 + x.ChrisConf_UDD 0 0 2 * x.ChrisConf_UDD 2 0 1 *
      x.igConf_UU 0 1 + x.ChrisConf_UDD 0 0 2 * x.ChrisConf_UDD 2 0 2 * x.igConf_UU 0 2 + x.ChrisConf_UDD 0 1 2 *
      x.ChrisConf_UDD 2 0 0 * x.igConf_UU 0 1 + x.ChrisConf_UDD 0 1 2 * x.ChrisConf_UDD 2 0 1 * x.igConf_UU 1 1 +
      x.ChrisConf_UDD 0 1 2 * x.ChrisConf_UDD 2 0 2 * x.igConf_UU 1 2 + x.ChrisConf_UDD 0 2 2 * x.ChrisConf_UDD 2 0 0 *
      x.igConf_UU 0 2 + x.ChrisConf_UDD 0 2 2 * x.ChrisConf_UDD 2 0 1 * x.igConf_UU 1 2 + x.ChrisConf_UDD 0 2 2 *
      x.ChrisConf_UDD 2 0 2 * x.igConf_UU 2 2 + x.ChrisConf_UDD 1 0 2 * x.ChrisConf_UDD 2 0 1 * x.igConf_UU 0 0 +
      x.ChrisConf_UDD 1 0 2 * x.ChrisConf_UDD 2 1 1 * x.igConf_UU 0 1 + x.ChrisConf_UDD 1 0 2 * x.ChrisConf_UDD 2 1 2 *
      x.igConf_UU 0 2 + x.ChrisConf_UDD 1 1 2 * x.ChrisConf_UDD 2 0 1 * x.igConf_UU 0 1 + x.ChrisConf_UDD 1 1 2 *
      x.ChrisConf_UDD 2 1 1 * x.igConf_UU 1 1 + x.ChrisConf_UDD 1 1 2 * x.ChrisConf_UDD 2 1 2 * x.igConf_UU 1 2 +
      x.ChrisConf_UDD 1 2 2 * x.ChrisConf_UDD 2 0 1 * x.igConf_UU 0 2 + x.ChrisConf_UDD 1 2 2 * x.ChrisConf_UDD 2 1 1 *
      x.igConf_UU 1 2 + x.ChrisConf_UDD 1 2 2 * x.ChrisConf_UDD 2 1 2 * x.igConf_UU 2 2 + (x.ChrisConf_UDD 2 0 2) ^ 2 *
      x.igConf_UU 0 0 + 2 * x.ChrisConf_UDD 2 0 2 * x.ChrisConf_UDD 2 1 2 * x.igConf_UU 0 1 + 2 * x.ChrisConf_UDD 2 0 2 *
      x.ChrisConf_UDD 2 2 2 * x.igConf_UU 0 2 + (x.ChrisConf_UDD 2 1 2) ^ 2 * x.igConf_UU 1 1 + 2 * x.ChrisConf_UDD 2 1 2 *
      x.ChrisConf_UDD 2 2 2 * x.igConf_UU 1 2 + (x.ChrisConf_UDD 2 2 2) ^ 2 * x.igConf_UU 2 2)

/-- eq_XCTS_crv_ex_T1_ddm_Jac_eq_B0_U2.c:449-473 -/
noncomputable def t4_E_U2 (x : In) : ℝ :=
  -x.igConf_UU 0 0 * (x.ChrisConf_UDD 0 0 0 * x.JB0_D 0 + x.ChrisConf_UDD 1 0 0 * x.JB0_D 1 + x.ChrisConf_UDD 2 0 0 * x.JB0_D 2
      + x.kd * (x.ChrisConf_UDD 0 0 0 * x.ChrisConf_UDD 2 0 2 + x.ChrisConf_UDD 1 0 0 * x.ChrisConf_UDD 2 1 2 + x.ChrisConf_UDD
      2 0 0 * x.ChrisConf_UDD 2 2 2)) - 2 * x.igConf_UU 0 1 * (x.ChrisConf_UDD 0 0 1 * x.JB0_D 0 + x.ChrisConf_UDD 1 0 1 *
      x.JB0_D 1 + x.ChrisConf_UDD 2 0 1 * x.JB0_D 2 + x.kd * (x.ChrisConf_UDD 0 0 1 * x.ChrisConf_UDD 2 0 2 + x.ChrisConf_UDD 1
      0 1 * x.ChrisConf_UDD 2 1 2 + x.ChrisConf_UDD 2 0 1 * x.ChrisConf_UDD 2 2 2)) - 2 * x.igConf_UU 0 2 * (x.ChrisConf_UDD 0
      0 2 * x.JB0_D 0 + x.ChrisConf_UDD 1 0 2 * x.JB0_D 1 + x.ChrisConf_UDD 2 0 2 * x.JB0_D 2 + x.kd * (x.ChrisConf_UDD 0 0 2 *
      x.ChrisConf_UDD 2 0 2 + x.ChrisConf_UDD 1 0 2 * x.ChrisConf_UDD 2 1 2 + x.ChrisConf_UDD 2 0 2 * x.ChrisConf_UDD 2 2 2)) -
      x.igConf_UU 1 1 * (x.ChrisConf_UDD 0 1 1 * x.JB0_D 0 + x.ChrisConf_UDD 1 1 1 * x.JB0_D 1 + x.ChrisConf_UDD 2 1 1 *
      x.JB0_D 2 + x.kd * (x.ChrisConf_UDD 0 1 1 * x.ChrisConf_UDD 2 0 2 + x.ChrisConf_UDD 1 1 1 * x.ChrisConf_UDD 2 1 2 +
      x.ChrisConf_UDD 2 1 1 * x.ChrisConf_UDD 2 2 2)) - 2 * x.igConf_UU 1 2 * (x.ChrisConf_UDD 0 1 2 * x.JB0_D 0 +
      x.ChrisConf_UDD 1 1 2 * x.JB0_D 1 + x.ChrisConf_UDD 2 1 2 * x.JB0_D 2 + x.kd * (x.ChrisConf_UDD 0 1 2 * x.ChrisConf_UDD 2
      0 2 + x.ChrisConf_UDD 1 1 2 * x.ChrisConf_UDD 2 1 2 + x.ChrisConf_UDD 2 1 2 * x.ChrisConf_UDD 2 2 2)) - x.igConf_UU 2 2 *
      (x.ChrisConf_UDD 0 2 2 * x.JB0_D 0 + x.ChrisConf_UDD 1 2 2 * x.JB0_D 1 + x.ChrisConf_UDD 2 2 2 * x.JB0_D 2 + x.kd *
      (x.ChrisConf_UDD 0 2 2 * x.ChrisConf_UDD 2 0 2 + x.ChrisConf_UDD 1 2 2 * x.ChrisConf_UDD 2 1 2 + (x.ChrisConf_UDD 2 2 2)
      ^ 2))

/-- eq_XCTS_crv_ex_T1_ddm_Jac_eq_B0_U2.c:477-485 -/
noncomputable def t5_E_U2 (x : In) : ℝ :=
  (1 / 3) * x.igConf_UU 0 2 * (x.JJB0_DD 0 2 + x.kd * (x.dChrisConf_UDDD 0 0 2 0 + x.dChrisConf_UDDD 1 1 2 0 +
      x.dChrisConf_UDDD 2 2 2 0)) + (1 / 3) * x.igConf_UU 1 2 * (x.JJB0_DD 1 2 + x.kd * (x.dChrisConf_UDDD 0 0 2 1 +
      x.dChrisConf_UDDD 1 1 2 1 + x.dChrisConf_UDDD 2 2 2 1)) + (1 / 3) * x.igConf_UU 2 2 * (x.JJB0_DD 2 2 + x.kd *
      (x.dChrisConf_UDDD 0 0 2 2 + x.dChrisConf_UDDD 1 1 2 2 + x.dChrisConf_UDDD 2 2 2 2))

/-- eq_XCTS_crv_ex_T1_ddm_Jac_eq_B0_U2.c:489-499 -/
noncomputable def t6_E_U2 (x : In) : ℝ :=
  (1 / 3) * x.igConf_UU 0 2 * (2 * x.ChrisConf_UDD 0 0 2 * x.JB0_D 0 + x.ChrisConf_UDD 1 0 2 * x.JB0_D 1 + x.ChrisConf_UDD 1 1
      2 * x.JB0_D 0 + x.ChrisConf_UDD 2 0 2 * x.JB0_D 2 + x.ChrisConf_UDD 2 2 2 * x.JB0_D 0) + (1 / 3) * x.igConf_UU 1 2 *
      (x.ChrisConf_UDD 0 0 2 * x.JB0_D 1 + x.ChrisConf_UDD 0 1 2 * x.JB0_D 0 + 2 * x.ChrisConf_UDD 1 1 2 * x.JB0_D 1 +
      x.ChrisConf_UDD 2 1 2 * x.JB0_D 2 + x.ChrisConf_UDD 2 2 2 * x.JB0_D 1) + (1 / 3) * x.igConf_UU 2 2 * (x.ChrisConf_UDD 0 0
      2 * x.JB0_D 2 + x.ChrisConf_UDD 0 2 2 * x.JB0_D 0 + x.ChrisConf_UDD 1 1 2 * x.JB0_D 2 + x.ChrisConf_UDD 1 2 2 * x.JB0_D 1
      + 2 * x.ChrisConf_UDD 2 2 2 * x.JB0_D 2)

/-- eq_XCTS_crv_ex_T1_ddm_Jac_eq_B0_U2.c:503-535 -/
noncomputable def t7_E_U2 (x : In) : ℝ :=
  x.kd * ((1 / 3) * x.ChrisConf_UDD 0 0 0 * x.ChrisConf_UDD 0 0 2 * x.igConf_UU 0 2 + (1 / 3) * x.ChrisConf_UDD 0 0 1 *
      x.ChrisConf_UDD 0 0 2 * x.igConf_UU 1 2 + (1 / 3) * x.ChrisConf_UDD 0 0 1 * x.ChrisConf_UDD 1 0 2 * x.igConf_UU 0 2 + (1
      / 3) * (x.ChrisConf_UDD 0 0 2) ^ 2 * x.igConf_UU 2 2 + (1 / 3) * x.ChrisConf_UDD 0 0 2 * x.ChrisConf_UDD 2 0 2 *
      x.igConf_UU 0 2 + (1 / 3) * x.ChrisConf_UDD 0 1 1 * x.ChrisConf_UDD 1 0 2 * x.igConf_UU 1 2 + (1 / 3) * x.ChrisConf_UDD 0
      1 2 * x.ChrisConf_UDD 1 0 0 * x.igConf_UU 0 2 + (1 / 3) * x.ChrisConf_UDD 0 1 2 * x.ChrisConf_UDD 1 0 1 * x.igConf_UU 1 2
      + (2 / 3) * x.ChrisConf_UDD 0 1 2 * x.ChrisConf_UDD 1 0 2 * x.igConf_UU 2 2 + (1 / 3) * x.ChrisConf_UDD 0 1 2 *
      x.ChrisConf_UDD 2 0 2 * x.igConf_UU 1 2 + (1 / 3) * x.ChrisConf_UDD 0 2 2 * x.ChrisConf_UDD 2 0 0 * x.igConf_UU 0 2 + (1
      / 3) * x.ChrisConf_UDD 0 2 2 * x.ChrisConf_UDD 2 0 1 * x.igConf_UU 1 2 + (2 / 3) * x.ChrisConf_UDD 0 2 2 *
      x.ChrisConf_UDD 2 0 2 * x.igConf_UU 2 2 + (1 / 3) * x.ChrisConf_UDD 1 0 1 * x.ChrisConf_UDD 1 1 2 * x.igConf_UU 0 2 + (1
      / 3) * x.ChrisConf_UDD 1 0 2 * x.ChrisConf_UDD 2 1 2 * x.igConf_UU 0 2 + (1 / 3) * x.ChrisConf_UDD 1 1 1 *
      x.ChrisConf_UDD 1 1 2 * x.igConf_UU 1 2 + (1 / 3) * (x.ChrisConf_UDD 1 1 2) ^ 2 * x.igConf_UU 2 2 + (1 / 3) *
      x.ChrisConf_UDD 1 1 2 * x.ChrisConf_UDD 2 1 2 * x.igConf_UU 1 2 + (1 / 3) * x.ChrisConf_UDD 1 2 2 * x.ChrisConf_UDD 2 0 1
      * x.igConf_UU 0 2 + (1 / 3) * x.ChrisConf_UDD 1 2 2 * x.ChrisConf_UDD 2 1 1 * x.igConf_UU 1 2 + (2 / 3) * x.ChrisConf_UDD
      1 2 2 * x.ChrisConf_UDD 2 1 2 * x.igConf_UU 2 2 + (1 / 3) * x.ChrisConf_UDD 2 0 2 * x.ChrisConf_UDD 2 2 2 * x.igConf_UU 0
      2 + (1 / 3) * x.ChrisConf_UDD 2 1 2 * x.ChrisConf_UDD 2 2 2 * x.igConf_UU 1 2 + (1 / 3) * (x.ChrisConf_UDD 2 2 2) ^ 2 *
      x.igConf_UU 2 2)

/-- eq_XCTS_crv_ex_T1_ddm_Jac_eq_B0_U2.c:539-562 -/
noncomputable def t8_E_U2 (x : In) : ℝ :=
  -(1 / 3) * x.igConf_UU 0 2 * (x.ChrisConf_UDD 0 0 2 * x.JB0_D 0 + x.ChrisConf_UDD 1 0 2 * x.JB0_D 1 + x.ChrisConf_UDD 2 0 2 *
      x.JB0_D 2 + x.kd * (x.ChrisConf_UDD 0 0 0 * x.ChrisConf_UDD 0 0 2 + x.ChrisConf_UDD 0 0 1 * x.ChrisConf_UDD 1 0 2 +
      x.ChrisConf_UDD 0 0 2 * x.ChrisConf_UDD 2 0 2 + x.ChrisConf_UDD 0 1 2 * x.ChrisConf_UDD 1 0 0 + x.ChrisConf_UDD 0 2 2 *
      x.ChrisConf_UDD 2 0 0 + x.ChrisConf_UDD 1 0 1 * x.ChrisConf_UDD 1 1 2 + x.ChrisConf_UDD 1 0 2 * x.ChrisConf_UDD 2 1 2 +
      x.ChrisConf_UDD 1 2 2 * x.ChrisConf_UDD 2 0 1 + x.ChrisConf_UDD 2 0 2 * x.ChrisConf_UDD 2 2 2)) - (1 / 3) * x.igConf_UU 1
      2 * (x.ChrisConf_UDD 0 1 2 * x.JB0_D 0 + x.ChrisConf_UDD 1 1 2 * x.JB0_D 1 + x.ChrisConf_UDD 2 1 2 * x.JB0_D 2 + x.kd *
      (x.ChrisConf_UDD 0 0 1 * x.ChrisConf_UDD 0 0 2 + x.ChrisConf_UDD 0 1 1 * x.ChrisConf_UDD 1 0 2 + x.ChrisConf_UDD 0 1 2 *
      x.ChrisConf_UDD 1 0 1 + x.ChrisConf_UDD 0 1 2 * x.ChrisConf_UDD 2 0 2 + x.ChrisConf_UDD 0 2 2 * x.ChrisConf_UDD 2 0 1 +
      x.ChrisConf_UDD 1 1 1 * x.ChrisConf_UDD 1 1 2 + x.ChrisConf_UDD 1 1 2 * x.ChrisConf_UDD 2 1 2 + x.ChrisConf_UDD 1 2 2 *
      x.ChrisConf_UDD 2 1 1 + x.ChrisConf_UDD 2 1 2 * x.ChrisConf_UDD 2 2 2)) - (1 / 3) * x.igConf_UU 2 2 * (x.ChrisConf_UDD 0
      2 2 * x.JB0_D 0 + x.ChrisConf_UDD 1 2 2 * x.JB0_D 1 + x.ChrisConf_UDD 2 2 2 * x.JB0_D 2 + x.kd * ((x.ChrisConf_UDD 0 0 2)
      ^ 2 + 2 * x.ChrisConf_UDD 0 1 2 * x.ChrisConf_UDD 1 0 2 + 2 * x.ChrisConf_UDD 0 2 2 * x.ChrisConf_UDD 2 0 2 +
      (x.ChrisConf_UDD 1 1 2) ^ 2 + 2 * x.ChrisConf_UDD 1 2 2 * x.ChrisConf_UDD 2 1 2 + (x.ChrisConf_UDD 2 2 2) ^ 2))

/-- eq_XCTS_crv_ex_T1_ddm_Jac_eq_B0_U2.c:566-569 -/
noncomputable def t9_E_U2 (x : In) : ℝ :=
  x.kd * (x.RicciConf_DD 0 2 * x.igConf_UU 0 2 + x.RicciConf_DD 1 2 * x.igConf_UU 1 2 + x.RicciConf_DD 2 2 * x.igConf_UU 2 2)

/-- eq_XCTS_crv_ex_T1_ddm_Jac_eq_B0_U2.c:571-573 -/
noncomputable def contE (x : In) : ℝ :=
  x.JB0_D 2 + x.kd * (x.ChrisConf_UDD 0 0 2 + x.ChrisConf_UDD 1 1 2 + x.ChrisConf_UDD 2 2 2)

/-- eq_XCTS_crv_ex_T1_ddm_Jac_eq_B0_U2.c:577-580 -/
noncomputable def t1p10_E_U2 (x : In) : ℝ :=
  (2 / 3) * contE x * (dLnOf_alpha_E_U0 x * x.igConf_UU 0 2 + dLnOf_alpha_E_U1 x * x.igConf_UU 1 2 + dLnOf_alpha_E_U2 x *
      x.igConf_UU 2 2)

/-- eq_XCTS_crv_ex_T1_ddm_Jac_eq_B0_U2.c:584-596 -/
noncomputable def t2p10_E_U2 (x : In) : ℝ :=
  -dLnOf_alpha_E_U0 x * x.igConf_UU 0 0 * (x.ChrisConf_UDD 2 0 2 * x.kd + x.JB0_D 0) - dLnOf_alpha_E_U0 x * x.igConf_UU 0 1 *
      (x.ChrisConf_UDD 2 1 2 * x.kd + x.JB0_D 1) - dLnOf_alpha_E_U0 x * x.igConf_UU 0 2 * (x.ChrisConf_UDD 2 2 2 * x.kd +
      x.JB0_D 2) - dLnOf_alpha_E_U1 x * x.igConf_UU 0 1 * (x.ChrisConf_UDD 2 0 2 * x.kd + x.JB0_D 0) - dLnOf_alpha_E_U1 x *
      x.igConf_UU 1 1 * (x.ChrisConf_UDD 2 1 2 * x.kd + x.JB0_D 1) - dLnOf_alpha_E_U1 x * x.igConf_UU 1 2 * (x.ChrisConf_UDD 2
      2 2 * x.kd + x.JB0_D 2) - dLnOf_alpha_E_U2 x * x.igConf_UU 0 2 * (x.ChrisConf_UDD 2 0 2 * x.kd + x.JB0_D 0) -
      dLnOf_alpha_E_U2 x * x.igConf_UU 1 2 * (x.ChrisConf_UDD 2 1 2 * x.kd + x.JB0_D 1) - dLnOf_alpha_E_U2 x * x.igConf_UU 2 2
      * (x.ChrisConf_UDD 2 2 2 * x.kd + x.JB0_D 2)

/-- eq_XCTS_crv_ex_T1_ddm_Jac_eq_B0_U2.c:600-610 -/
noncomputable def t3p10_E_U2 (x : In) : ℝ :=
  -x.ChrisConf_UDD 0 0 2 * dLnOf_alpha_E_U0 x * x.igConf_UU 0 2 * x.kd - x.ChrisConf_UDD 0 1 2 * dLnOf_alpha_E_U0 x *
      x.igConf_UU 1 2 * x.kd - x.ChrisConf_UDD 0 2 2 * dLnOf_alpha_E_U0 x * x.igConf_UU 2 2 * x.kd - x.ChrisConf_UDD 1 0 2 *
      dLnOf_alpha_E_U1 x * x.igConf_UU 0 2 * x.kd - x.ChrisConf_UDD 1 1 2 * dLnOf_alpha_E_U1 x * x.igConf_UU 1 2 * x.kd -
      x.ChrisConf_UDD 1 2 2 * dLnOf_alpha_E_U1 x * x.igConf_UU 2 2 * x.kd - dLnOf_alpha_E_U2 x * x.igConf_UU 0 2 *
      (x.ChrisConf_UDD 2 0 2 * x.kd + x.JB0_D 0) - dLnOf_alpha_E_U2 x * x.igConf_UU 1 2 * (x.ChrisConf_UDD 2 1 2 * x.kd +
      x.JB0_D 1) - dLnOf_alpha_E_U2 x * x.igConf_UU 2 2 * (x.ChrisConf_UDD 2 2 2 * x.kd + x.JB0_D 2)

/-- eq_XCTS_crv_ex_T1_ddm_Jac_eq_B0_U2.c:614-615 -/
noncomputable def t10_E_U2 (x : In) : ℝ :=
  t1p10_E_U2 x + t2p10_E_U2 x + t3p10_E_U2 x

/-- eq_XCTS_crv_ex_T1_ddm_Jac_eq_B0_U2.c:619-621 -/
noncomputable def Epart_U2 (x : In) : ℝ :=
  t10_E_U2 x + t1_E_U2 x + t2_E_U2 x + t3_E_U2 x + t4_E_U2 x + t5_E_U2 x + t6_E_U2 x + t7_E_U2 x + t8_E_U2 x + t9_E_U2 x

/-- eq_XCTS_crv_ex_T1_ddm_Jac_eq_B0_U2.c:623 -/
noncomputable def Epart_U2_mul (x : In) : ℝ :=
  Epart_U2 x * (x.JConfC)

/-- eq_XCTS_crv_ex_T1_ddm_Jac_eq_B0_U2.c:370 the value written to schur_B -/
noncomputable def out_schur_B (x : In) : ℝ :=
  Bpart_U2_mul x

/-- eq_XCTS_crv_ex_T1_ddm_Jac_eq_B0_U2.c:624 the value written to schur_Et -/
noncomputable def out_schur_Et (x : In) : ℝ :=
  Epart_U2_mul x

end Elliptica.Gen.Shift.JacEq2

namespace Elliptica.Gen.Shift.Bc2

/-- eq_XCTS_crv_ex_T1_ddm_bc_B0_U2.c:26-27 -/
noncomputable def outerB_F (x : In) : ℝ :=
  x.B0_U 2 - x.v2_boost

/-- eq_XCTS_crv_ex_T1_ddm_bc_B0_U2.c:39-40 -/
noncomputable def innerB_F (x : In) : ℝ :=
  x.B0_U 2 + x.B1_U 2 - x.ibc_beta_U 2

/-- eq_XCTS_crv_ex_T1_ddm_bc_B0_U2.c:29 the value written to schur_F -/
noncomputable def out_schur_F_0 (x : In) : ℝ :=
  outerB_F x

/-- eq_XCTS_crv_ex_T1_ddm_bc_B0_U2.c:42 the value written to schur_F -/
noncomputable def out_schur_F_1 (x : In) : ℝ :=
  innerB_F x

end Elliptica.Gen.Shift.Bc2

namespace Elliptica.Gen.Shift.JacBc2

/-- eq_XCTS_crv_ex_T1_ddm_Jac_bc_B0_U2.c:22-23 -/
noncomputable def outerB_Bpart (x : In) : ℝ :=
  x.kd

/-- eq_XCTS_crv_ex_T1_ddm_Jac_bc_B0_U2.c:31-32 -/
noncomputable def outerB_Epart (x : In) : ℝ :=
  0

/-- eq_XCTS_crv_ex_T1_ddm_Jac_bc_B0_U2.c:42-43 -/
noncomputable def innerB_Bpart (x : In) : ℝ :=
  x.kd

/-- eq_XCTS_crv_ex_T1_ddm_Jac_bc_B0_U2.c:51-52 -/
noncomputable def innerB_Epart (x : In) : ℝ :=
  0

/-- eq_XCTS_crv_ex_T1_ddm_Jac_bc_B0_U2.c:25 the value written to schur_B -/
noncomputable def out_schur_B_0 (x : In) : ℝ :=
  outerB_Bpart x

/-- eq_XCTS_crv_ex_T1_ddm_Jac_bc_B0_U2.c:45 the value written to schur_B -/
noncomputable def out_schur_B_1 (x : In) : ℝ :=
  innerB_Bpart x

/-- eq_XCTS_crv_ex_T1_ddm_Jac_bc_B0_U2.c:34 the value written to schur_Et -/
noncomputable def out_schur_Et_0 (x : In) : ℝ :=
  outerB_Epart x

/-- eq_XCTS_crv_ex_T1_ddm_Jac_bc_B0_U2.c:54 the value written to schur_Et -/
noncomputable def out_schur_Et_1 (x : In) : ℝ :=
  innerB_Epart x

end Elliptica.Gen.Shift.JacBc2

namespace Elliptica.Gen.Shift.JacFlat2

/-- eq_XCTS_flt_ex_T1_ddm_Jac_eq_B0_U2.c:52-53 -/
noncomputable def dLnOf_alpha_B_U0 (x : In) : ℝ :=
  -7 * x.dpsi_D 0 / x.psi + x.dalphaPsi_D 0 / x.alphaPsi

/-- eq_XCTS_flt_ex_T1_ddm_Jac_eq_B0_U2.c:55-56 -/
noncomputable def dLnOf_alpha_B_U1 (x : In) : ℝ :=
  -7 * x.dpsi_D 1 / x.psi + x.dalphaPsi_D 1 / x.alphaPsi

/-- eq_XCTS_flt_ex_T1_ddm_Jac_eq_B0_U2.c:58-59 -/
noncomputable def dLnOf_alpha_B_U2 (x : In) : ℝ :=
  -7 * x.dpsi_D 2 / x.psi + x.dalphaPsi_D 2 / x.alphaPsi

/-- eq_XCTS_flt_ex_T1_ddm_Jac_eq_B0_U2.c:63-66 -/
noncomputable def t1_B_U2 (x : In) : ℝ :=
  x.JJB0_DD 0 0 * x.igConf_UU 0 0 + 2 * x.JJB0_DD 0 1 * x.igConf_UU 0 1 + 2 * x.JJB0_DD 0 2 * x.igConf_UU 0 2 + x.JJB0_DD 1 1 *
      x.igConf_UU 1 1 + 2 * x.JJB0_DD 1 2 * x.igConf_UU 1 2 + x.JJB0_DD 2 2 * x.igConf_UU 2 2

/-- eq_XCTS_flt_ex_T1_ddm_Jac_eq_B0_U2.c:70-73 -/
noncomputable def t2_B_U2 (x : In) : ℝ :=
  (1 / 3) * x.JJB0_DD 0 2 * x.igConf_UU 0 2 + (1 / 3) * x.JJB0_DD 1 2 * x.igConf_UU 1 2 + (1 / 3) * x.JJB0_DD 2 2 * x.igConf_UU
      2 2

/-- eq_XCTS_flt_ex_T1_ddm_Jac_eq_B0_U2.c:77-80 -/
noncomputable def t3_B_U2 (x : In) : ℝ :=
  (2 / 3) * x.JB0_D 2 * (dLnOf_alpha_B_U0 x * x.igConf_UU 0 2 + dLnOf_alpha_B_U1 x * x.igConf_UU 1 2 + dLnOf_alpha_B_U2 x *
      x.igConf_UU 2 2)

/-- eq_XCTS_flt_ex_T1_ddm_Jac_eq_B0_U2.c:84-90 -/
noncomputable def t4_B_U2 (x : In) : ℝ :=
  -x.JB0_D 0 * dLnOf_alpha_B_U0 x * x.igConf_UU 0 0 - x.JB0_D 0 * dLnOf_alpha_B_U1 x * x.igConf_UU 0 1 - x.JB0_D 0 *
      dLnOf_alpha_B_U2 x * x.igConf_UU 0 2 - x.JB0_D 1 * dLnOf_alpha_B_U0 x * x.igConf_UU 0 1 - x.JB0_D 1 * dLnOf_alpha_B_U1 x
      * x.igConf_UU 1 1 - x.JB0_D 1 * dLnOf_alpha_B_U2 x * x.igConf_UU 1 2 - x.JB0_D 2 * dLnOf_alpha_B_U0 x * x.igConf_UU 0 2 -
      x.JB0_D 2 * dLnOf_alpha_B_U1 x * x.igConf_UU 1 2 - x.JB0_D 2 * dLnOf_alpha_B_U2 x * x.igConf_UU 2 2

/-- eq_XCTS_flt_ex_T1_ddm_Jac_eq_B0_U2.c:94-96 -/
noncomputable def t5_B_U2 (x : In) : ℝ :=
  dLnOf_alpha_B_U2 x * (-x.JB0_D 0 * x.igConf_UU 0 2 - x.JB0_D 1 * x.igConf_UU 1 2 - x.JB0_D 2 * x.igConf_UU 2 2)

/-- eq_XCTS_flt_ex_T1_ddm_Jac_eq_B0_U2.c:100-101 -/
noncomputable def Bpart_U2 (x : In) : ℝ :=
  t1_B_U2 x + t2_B_U2 x + t3_B_U2 x + t4_B_U2 x + t5_B_U2 x

/-- eq_XCTS_flt_ex_T1_ddm_Jac_eq_B0_U2.c:103 -/
noncomputable def Bpart_U2_mul (x : In) : ℝ :=
  Bpart_U2 x * (x.JConfC)

/-- eq_XCTS_flt_ex_T1_ddm_Jac_eq_B0_U2.c:119-120 -/
noncomputable def dLnOf_alpha_E_U0 (x : In) : ℝ :=
  -7 * x.dpsi_D 0 / x.psi + x.dalphaPsi_D 0 / x.alphaPsi

/-- eq_XCTS_flt_ex_T1_ddm_Jac_eq_B0_U2.c:122-123 -/
noncomputable def dLnOf_alpha_E_U1 (x : In) : ℝ :=
  -7 * x.dpsi_D 1 / x.psi + x.dalphaPsi_D 1 / x.alphaPsi

/-- eq_XCTS_flt_ex_T1_ddm_Jac_eq_B0_U2.c:125-126 -/
noncomputable def dLnOf_alpha_E_U2 (x : In) : ℝ :=
  -7 * x.dpsi_D 2 / x.psi + x.dalphaPsi_D 2 / x.alphaPsi

/-- eq_XCTS_flt_ex_T1_ddm_Jac_eq_B0_U2.c:130-133 -/
noncomputable def t1_E_U2 (x : In) : ℝ :=
  x.JJB0_DD 0 0 * x.igConf_UU 0 0 + 2 * x.JJB0_DD 0 1 * x.igConf_UU 0 1 + 2 * x.JJB0_DD 0 2 * x.igConf_UU 0 2 + x.JJB0_DD 1 1 *
      x.igConf_UU 1 1 + 2 * x.JJB0_DD 1 2 * x.igConf_UU 1 2 + x.JJB0_DD 2 2 * x.igConf_UU 2 2

/-- eq_XCTS_flt_ex_T1_ddm_Jac_eq_B0_U2.c:137-140 -/
noncomputable def t2_E_U2 (x : In) : ℝ :=
  (1 / 3) * x.JJB0_DD 0 2 * x.igConf_UU 0 2 + (1 / 3) * x.JJB0_DD 1 2 * x.igConf_UU 1 2 + (1 / 3) * x.JJB0_DD 2 2 * x.igConf_UU
      2 2

/-- eq_XCTS_flt_ex_T1_ddm_Jac_eq_B0_U2.c:144-147 -/
noncomputable def t3_E_U2 (x : In) : ℝ :=
  (2 / 3) * x.JB0_D 2 * (dLnOf_alpha_E_U0 x * x.igConf_UU 0 2 + dLnOf_alpha_E_U1 x * x.igConf_UU 1 2 + dLnOf_alpha_E_U2 x *
      x.igConf_UU 2 2)

/-- eq_XCTS_flt_ex_T1_ddm_Jac_eq_B0_U2.c:151-157 -/
noncomputable def t4_E_U2 (x : In) : ℝ :=
  -x.JB0_D 0 * dLnOf_alpha_E_U0 x * x.igConf_UU 0 0 - x.JB0_D 0 * dLnOf_alpha_E_U1 x * x.igConf_UU 0 1 - x.JB0_D 0 *
      dLnOf_alpha_E_U2 x * x.igConf_UU 0 2 - x.JB0_D 1 * dLnOf_alpha_E_U0 x * x.igConf_UU 0 1 - x.JB0_D 1 * dLnOf_alpha_E_U1 x
      * x.igConf_UU 1 1 - x.JB0_D 1 * dLnOf_alpha_E_U2 x * x.igConf_UU 1 2 - x.JB0_D 2 * dLnOf_alpha_E_U0 x * x.igConf_UU 0 2 -
      x.JB0_D 2 * dLnOf_alpha_E_U1 x * x.igConf_UU 1 2 - x.JB0_D 2 * dLnOf_alpha_E_U2 x * x.igConf_UU 2 2

/-- eq_XCTS_flt_ex_T1_ddm_Jac_eq_B0_U2.c:161-163 -/
noncomputable def t5_E_U2 (x : In) : ℝ :=
  dLnOf_alpha_E_U2 x * (-x.JB0_D 0 * x.igConf_UU 0 2 - x.JB0_D 1 * x.igConf_UU 1 2 - x.JB0_D 2 * x.igConf_UU 2 2)

/-- eq_XCTS_flt_ex_T1_ddm_Jac_eq_B0_U2.c:167-168 -/
noncomputable def Epart_U2 (x : In) : ℝ :=
  t1_E_U2 x + t2_E_U2 x + t3_E_U2 x + t4_E_U2 x + t5_E_U2 x

/-- eq_XCTS_flt_ex_T1_ddm_Jac_eq_B0_U2.c:170 -/
noncomputable def Epart_U2_mul (x : In) : ℝ :=
  Epart_U2 x * (x.JConfC)

/-- eq_XCTS_flt_ex_T1_ddm_Jac_eq_B0_U2.c:104 the value written to schur_B -/
noncomputable def out_schur_B (x : In) : ℝ :=
  Bpart_U2_mul x

/-- eq_XCTS_flt_ex_T1_ddm_Jac_eq_B0_U2.c:171 the value written to schur_Et -/
noncomputable def out_schur_Et (x : In) : ℝ :=
  Epart_U2_mul x

end Elliptica.Gen.Shift.JacFlat2
