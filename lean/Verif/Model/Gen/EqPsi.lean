import Mathlib.Analysis.Real.Sqrt
import Mathlib.Analysis.SpecialFunctions.Trigonometric.Basic
/-!
Generated by /verif/tools/gen_tensor.py from Src/Main/Modules/Physics/Equation/eq_XCTS_crv_ex_T1_ddm_eq_psi.c, Src/Main/Modules/Physics/Equation/eq_XCTS_crv_ex_T1_ddm_Jac_eq_psi.c, Src/Main/Modules/Physics/Equation/eq_XCTS_crv_ex_T1_ddm_bc_psi.c, Src/Main/Modules/Physics/Equation/eq_XCTS_crv_ex_T1_ddm_Jac_bc_psi.c: the arithmetic done at one node, over `ℝ`;
rounding is not modelled, neither that of the operations nor that of decimal literals such as 0.66666666666666663 (= 2/3).
-/
set_option linter.style.longLine false
set_option linter.unusedVariables false

namespace Elliptica.Gen.Psi

/-- values at one node (`kd`, `J…`, `JJ…`: the Kronecker delta and the two Jacobian functions at the pair of nodes) read by Src/Main/Modules/Physics/Equation/eq_XCTS_crv_ex_T1_ddm_eq_psi.c, Src/Main/Modules/Physics/Equation/eq_XCTS_crv_ex_T1_ddm_Jac_eq_psi.c, Src/Main/Modules/Physics/Equation/eq_XCTS_crv_ex_T1_ddm_bc_psi.c, Src/Main/Modules/Physics/Equation/eq_XCTS_crv_ex_T1_ddm_Jac_bc_psi.c -/
structure In where
  psi : ℝ
  AConfIJ2 : ℝ
  ChrisConf_UDD : Fin 3 → Fin 3 → Fin 3 → ℝ
  dpsi_D : Fin 3 → ℝ
  igConf_UU : Fin 3 → Fin 3 → ℝ
  ddpsi_DD : Fin 3 → Fin 3 → ℝ
  trK : ℝ
  trRicciConf : ℝ
  EConfP : ℝ
  EConfC : ℝ
  Jpsi_D : Fin 3 → ℝ
  JJpsi_DD : Fin 3 → Fin 3 → ℝ
  kd : ℝ
  bh_sConf_U : Fin 3 → ℝ
  dbh_sConf_UD : Fin 3 → Fin 3 → ℝ
  AConfIJ_UU : Fin 3 → Fin 3 → ℝ
  gConf_DD : Fin 3 → Fin 3 → ℝ

end Elliptica.Gen.Psi

namespace Elliptica.Gen.Psi.Eq

/-- eq_XCTS_crv_ex_T1_ddm_eq_psi.c:56-57 -/
noncomputable def psi4 (x : In) : ℝ :=
  x.psi ^ 4

/-- eq_XCTS_crv_ex_T1_ddm_eq_psi.c:59-60 -/
noncomputable def aij2 (x : In) : ℝ :=
  x.AConfIJ2 / psi4 x

/-- eq_XCTS_crv_ex_T1_ddm_eq_psi.c:62-86 -/
noncomputable def ell (x : In) : ℝ :=
  -x.ChrisConf_UDD 0 0 0 * x.dpsi_D 0 * x.igConf_UU 0 0 - 2 * x.ChrisConf_UDD 0 0 1 * x.dpsi_D 0 * x.igConf_UU 0 1 - 2 *
      x.ChrisConf_UDD 0 0 2 * x.dpsi_D 0 * x.igConf_UU 0 2 - x.ChrisConf_UDD 0 1 1 * x.dpsi_D 0 * x.igConf_UU 1 1 - 2 *
      x.ChrisConf_UDD 0 1 2 * x.dpsi_D 0 * x.igConf_UU 1 2 - x.ChrisConf_UDD 0 2 2 * x.dpsi_D 0 * x.igConf_UU 2 2 -
      x.ChrisConf_UDD 1 0 0 * x.dpsi_D 1 * x.igConf_UU 0 0 - 2 * x.ChrisConf_UDD 1 0 1 * x.dpsi_D 1 * x.igConf_UU 0 1 - 2 *
      x.ChrisConf_UDD 1 0 2 * x.dpsi_D 1 * x.igConf_UU 0 2 - x.ChrisConf_UDD 1 1 1 * x.dpsi_D 1 * x.igConf_UU 1 1 - 2 *
      x.ChrisConf_UDD 1 1 2 * x.dpsi_D 1 * x.igConf_UU 1 2 - x.ChrisConf_UDD 1 2 2 * x.dpsi_D 1 * x.igConf_UU 2 2 -
      x.ChrisConf_UDD 2 0 0 * x.dpsi_D 2 * x.igConf_UU 0 0 - 2 * x.ChrisConf_UDD 2 0 1 * x.dpsi_D 2 * x.igConf_UU 0 1 - 2 *
      x.ChrisConf_UDD 2 0 2 * x.dpsi_D 2 * x.igConf_UU 0 2 - x.ChrisConf_UDD 2 1 1 * x.dpsi_D 2 * x.igConf_UU 1 1 - 2 *
      x.ChrisConf_UDD 2 1 2 * x.dpsi_D 2 * x.igConf_UU 1 2 - x.ChrisConf_UDD 2 2 2 * x.dpsi_D 2 * x.igConf_UU 2 2 + (1 / 8) *
      aij2 x / x.psi ^ 3 + x.ddpsi_DD 0 0 * x.igConf_UU 0 0 + 2 * x.ddpsi_DD 0 1 * x.igConf_UU 0 1 + 2 * x.ddpsi_DD 0 2 *
      x.igConf_UU 0 2 + x.ddpsi_DD 1 1 * x.igConf_UU 1 1 + 2 * x.ddpsi_DD 1 2 * x.igConf_UU 1 2 + x.ddpsi_DD 2 2 * x.igConf_UU
      2 2 - 1 / 12 * x.psi * psi4 x * x.trK ^ 2 - 1 / 8 * x.psi * x.trRicciConf

/-- eq_XCTS_crv_ex_T1_ddm_eq_psi.c:88-89 -/
noncomputable def src (x : In) : ℝ :=
  2 * Real.pi * x.EConfP / x.psi

/-- eq_XCTS_crv_ex_T1_ddm_eq_psi.c:91-92 -/
noncomputable def F_eq (x : In) : ℝ :=
  x.EConfC * ell x + src x

/-- eq_XCTS_crv_ex_T1_ddm_eq_psi.c:94 the value written to schur_F -/
noncomputable def out_schur_F (x : In) : ℝ :=
  F_eq x

end Elliptica.Gen.Psi.Eq

namespace Elliptica.Gen.Psi.JacEq

/-- eq_XCTS_crv_ex_T1_ddm_Jac_eq_psi.c:68-69 -/
noncomputable def psi4_B (x : In) : ℝ :=
  x.psi ^ 4

/-- eq_XCTS_crv_ex_T1_ddm_Jac_eq_psi.c:71-72 -/
noncomputable def aij2_B (x : In) : ℝ :=
  x.AConfIJ2 / psi4_B x

/-- eq_XCTS_crv_ex_T1_ddm_Jac_eq_psi.c:74-94 -/
noncomputable def t1_b (x : In) : ℝ :=
  -x.ChrisConf_UDD 0 0 0 * x.Jpsi_D 0 * x.igConf_UU 0 0 - 2 * x.ChrisConf_UDD 0 0 1 * x.Jpsi_D 0 * x.igConf_UU 0 1 - 2 *
      x.ChrisConf_UDD 0 0 2 * x.Jpsi_D 0 * x.igConf_UU 0 2 - x.ChrisConf_UDD 0 1 1 * x.Jpsi_D 0 * x.igConf_UU 1 1 - 2 *
      x.ChrisConf_UDD 0 1 2 * x.Jpsi_D 0 * x.igConf_UU 1 2 - x.ChrisConf_UDD 0 2 2 * x.Jpsi_D 0 * x.igConf_UU 2 2 -
      x.ChrisConf_UDD 1 0 0 * x.Jpsi_D 1 * x.igConf_UU 0 0 - 2 * x.ChrisConf_UDD 1 0 1 * x.Jpsi_D 1 * x.igConf_UU 0 1 - 2 *
      x.ChrisConf_UDD 1 0 2 * x.Jpsi_D 1 * x.igConf_UU 0 2 - x.ChrisConf_UDD 1 1 1 * x.Jpsi_D 1 * x.igConf_UU 1 1 - 2 *
      x.ChrisConf_UDD 1 1 2 * x.Jpsi_D 1 * x.igConf_UU 1 2 - x.ChrisConf_UDD 1 2 2 * x.Jpsi_D 1 * x.igConf_UU 2 2 -
      x.ChrisConf_UDD 2 0 0 * x.Jpsi_D 2 * x.igConf_UU 0 0 - 2 * x.ChrisConf_UDD 2 0 1 * x.Jpsi_D 2 * x.igConf_UU 0 1 - 2 *
      x.ChrisConf_UDD 2 0 2 * x.Jpsi_D 2 * x.igConf_UU 0 2 - x.ChrisConf_UDD 2 1 1 * x.Jpsi_D 2 * x.igConf_UU 1 1 - 2 *
      x.ChrisConf_UDD 2 1 2 * x.Jpsi_D 2 * x.igConf_UU 1 2 - x.ChrisConf_UDD 2 2 2 * x.Jpsi_D 2 * x.igConf_UU 2 2 + x.JJpsi_DD
      0 0 * x.igConf_UU 0 0 + 2 * x.JJpsi_DD 0 1 * x.igConf_UU 0 1 + 2 * x.JJpsi_DD 0 2 * x.igConf_UU 0 2 + x.JJpsi_DD 1 1 *
      x.igConf_UU 1 1 + 2 * x.JJpsi_DD 1 2 * x.igConf_UU 1 2 + x.JJpsi_DD 2 2 * x.igConf_UU 2 2 - x.kd * ((7 / 8) * aij2_B x /
      psi4_B x + (5 / 12) * psi4_B x * x.trK ^ 2 + (1 / 8) * x.trRicciConf)

/-- eq_XCTS_crv_ex_T1_ddm_Jac_eq_psi.c:96-97 -/
noncomputable def t2_b (x : In) : ℝ :=
  -2 * Real.pi * x.EConfP * x.kd / x.psi ^ 2

/-- eq_XCTS_crv_ex_T1_ddm_Jac_eq_psi.c:99-100 -/
noncomputable def Bpart (x : In) : ℝ :=
  x.EConfC * t1_b x + t2_b x

/-- eq_XCTS_crv_ex_T1_ddm_Jac_eq_psi.c:117-118 -/
noncomputable def psi4_E (x : In) : ℝ :=
  x.psi ^ 4

/-- eq_XCTS_crv_ex_T1_ddm_Jac_eq_psi.c:120-121 -/
noncomputable def aij2_E (x : In) : ℝ :=
  x.AConfIJ2 / psi4_E x

/-- eq_XCTS_crv_ex_T1_ddm_Jac_eq_psi.c:123-143 -/
noncomputable def t1_e (x : In) : ℝ :=
  -x.ChrisConf_UDD 0 0 0 * x.Jpsi_D 0 * x.igConf_UU 0 0 - 2 * x.ChrisConf_UDD 0 0 1 * x.Jpsi_D 0 * x.igConf_UU 0 1 - 2 *
      x.ChrisConf_UDD 0 0 2 * x.Jpsi_D 0 * x.igConf_UU 0 2 - x.ChrisConf_UDD 0 1 1 * x.Jpsi_D 0 * x.igConf_UU 1 1 - 2 *
      x.ChrisConf_UDD 0 1 2 * x.Jpsi_D 0 * x.igConf_UU 1 2 - x.ChrisConf_UDD 0 2 2 * x.Jpsi_D 0 * x.igConf_UU 2 2 -
      x.ChrisConf_UDD 1 0 0 * x.Jpsi_D 1 * x.igConf_UU 0 0 - 2 * x.ChrisConf_UDD 1 0 1 * x.Jpsi_D 1 * x.igConf_UU 0 1 - 2 *
      x.ChrisConf_UDD 1 0 2 * x.Jpsi_D 1 * x.igConf_UU 0 2 - x.ChrisConf_UDD 1 1 1 * x.Jpsi_D 1 * x.igConf_UU 1 1 - 2 *
      x.ChrisConf_UDD 1 1 2 * x.Jpsi_D 1 * x.igConf_UU 1 2 - x.ChrisConf_UDD 1 2 2 * x.Jpsi_D 1 * x.igConf_UU 2 2 -
      x.ChrisConf_UDD 2 0 0 * x.Jpsi_D 2 * x.igConf_UU 0 0 - 2 * x.ChrisConf_UDD 2 0 1 * x.Jpsi_D 2 * x.igConf_UU 0 1 - 2 *
      x.ChrisConf_UDD 2 0 2 * x.Jpsi_D 2 * x.igConf_UU 0 2 - x.ChrisConf_UDD 2 1 1 * x.Jpsi_D 2 * x.igConf_UU 1 1 - 2 *
      x.ChrisConf_UDD 2 1 2 * x.Jpsi_D 2 * x.igConf_UU 1 2 - x.ChrisConf_UDD 2 2 2 * x.Jpsi_D 2 * x.igConf_UU 2 2 + x.JJpsi_DD
      0 0 * x.igConf_UU 0 0 + 2 * x.JJpsi_DD 0 1 * x.igConf_UU 0 1 + 2 * x.JJpsi_DD 0 2 * x.igConf_UU 0 2 + x.JJpsi_DD 1 1 *
      x.igConf_UU 1 1 + 2 * x.JJpsi_DD 1 2 * x.igConf_UU 1 2 + x.JJpsi_DD 2 2 * x.igConf_UU 2 2 - x.kd * ((7 / 8) * aij2_E x /
      psi4_E x + (5 / 12) * psi4_E x * x.trK ^ 2 + (1 / 8) * x.trRicciConf)

/-- eq_XCTS_crv_ex_T1_ddm_Jac_eq_psi.c:145-146 -/
noncomputable def t2_e (x : In) : ℝ :=
  -2 * Real.pi * x.EConfP * x.kd / x.psi ^ 2

/-- eq_XCTS_crv_ex_T1_ddm_Jac_eq_psi.c:148-149 -/
noncomputable def Epart (x : In) : ℝ :=
  x.EConfC * t1_e x + t2_e x

/-- eq_XCTS_crv_ex_T1_ddm_Jac_eq_psi.c:102 the value written to schur_B -/
noncomputable def out_schur_B (x : In) : ℝ :=
  Bpart x

/-- eq_XCTS_crv_ex_T1_ddm_Jac_eq_psi.c:151 the value written to schur_Et -/
noncomputable def out_schur_Et (x : In) : ℝ :=
  Epart x

end Elliptica.Gen.Psi.JacEq

namespace Elliptica.Gen.Psi.Bc

/-- eq_XCTS_crv_ex_T1_ddm_bc_psi.c:54-55 -/
noncomputable def outerB_F (x : In) : ℝ :=
  x.psi - 1

/-- eq_XCTS_crv_ex_T1_ddm_bc_psi.c:78-79 -/
noncomputable def psi3 (x : In) : ℝ :=
  x.psi ^ 3

/-- eq_XCTS_crv_ex_T1_ddm_bc_psi.c:81-88 -/
noncomputable def _DiHSi (x : In) : ℝ :=
  x.ChrisConf_UDD 0 0 0 * x.bh_sConf_U 0 + x.ChrisConf_UDD 0 0 1 * x.bh_sConf_U 1 + x.ChrisConf_UDD 0 0 2 * x.bh_sConf_U 2 +
      x.ChrisConf_UDD 1 0 1 * x.bh_sConf_U 0 + x.ChrisConf_UDD 1 1 1 * x.bh_sConf_U 1 + x.ChrisConf_UDD 1 1 2 * x.bh_sConf_U 2
      + x.ChrisConf_UDD 2 0 2 * x.bh_sConf_U 0 + x.ChrisConf_UDD 2 1 2 * x.bh_sConf_U 1 + x.ChrisConf_UDD 2 2 2 * x.bh_sConf_U
      2 + x.dbh_sConf_UD 0 0 + x.dbh_sConf_UD 1 1 + x.dbh_sConf_UD 2 2

/-- eq_XCTS_crv_ex_T1_ddm_bc_psi.c:90-151 -/
noncomputable def _AIJsisj (x : In) : ℝ :=
  x.AConfIJ_UU 0 0 * (x.bh_sConf_U 0) ^ 2 * (x.gConf_DD 0 0) ^ 2 + 2 * x.AConfIJ_UU 0 0 * x.bh_sConf_U 0 * x.bh_sConf_U 1 *
      x.gConf_DD 0 0 * x.gConf_DD 0 1 + 2 * x.AConfIJ_UU 0 0 * x.bh_sConf_U 0 * x.bh_sConf_U 2 * x.gConf_DD 0 0 * x.gConf_DD 0
      2 + x.AConfIJ_UU 0 0 * (x.bh_sConf_U 1) ^ 2 * (x.gConf_DD 0 1) ^ 2 + 2 * x.AConfIJ_UU 0 0 * x.bh_sConf_U 1 * x.bh_sConf_U
      2 * x.gConf_DD 0 1 * x.gConf_DD 0 2 + x.AConfIJ_UU 0 0 * (x.bh_sConf_U 2) ^ 2 * (x.gConf_DD 0 2) ^ 2 + 2 * x.AConfIJ_UU 0
      1 * (x.bh_sConf_U 0) ^ 2 * x.gConf_DD 0 0 * x.gConf_DD 0 1 + 2 * x.AConfIJ_UU 0 1 * x.bh_sConf_U 0 * x.bh_sConf_U 1 *
      x.gConf_DD 0 0 * x.gConf_DD 1 1 + 2 * x.AConfIJ_UU 0 1 * x.bh_sConf_U 0 * x.bh_sConf_U 1 * (x.gConf_DD 0 1) ^ 2 + 2 *
      x.AConfIJ_UU 0 1 * x.bh_sConf_U 0 * x.bh_sConf_U 2 * x.gConf_DD 0 0 * x.gConf_DD 1 2 + 2 * x.AConfIJ_UU 0 1 *
      x.bh_sConf_U 0 * x.bh_sConf_U 2 * x.gConf_DD 0 1 * x.gConf_DD 0 2 + 2 * x.AConfIJ_UU 0 1 * (x.bh_sConf_U 1) ^ 2 *
      x.gConf_DD 0 1 * x.gConf_DD 1 1 + 2 * x.AConfIJ_UU 0 1 * x.bh_sConf_U 1 * x.bh_sConf_U 2 * x.gConf_DD 0 1 * x.gConf_DD 1
      2 + 2 * x.AConfIJ_UU 0 1 * x.bh_sConf_U 1 * x.bh_sConf_U 2 * x.gConf_DD 0 2 * x.gConf_DD 1 1 + 2 * x.AConfIJ_UU 0 1 *
      (x.bh_sConf_U 2) ^ 2 * x.gConf_DD 0 2 * x.gConf_DD 1 2 + 2 * x.AConfIJ_UU 0 2 * (x.bh_sConf_U 0) ^ 2 * x.gConf_DD 0 0 *
      x.gConf_DD 0 2 + 2 * x.AConfIJ_UU 0 2 * x.bh_sConf_U 0 * x.bh_sConf_U 1 * x.gConf_DD 0 0 * x.gConf_DD 1 2 + 2 *
      x.AConfIJ_UU 0 2 * x.bh_sConf_U 0 * x.bh_sConf_U 1 * x.gConf_DD 0 1 * x.gConf_DD 0 2 + 2 * x.AConfIJ_UU 0 2 *
      x.bh_sConf_U 0 * x.bh_sConf_U 2 * x.gConf_DD 0 0 * x.gConf_DD 2 2 + 2 * x.AConfIJ_UU 0 2 * x.bh_sConf_U 0 * x.bh_sConf_U
      2 * (x.gConf_DD 0 2) ^ 2 + 2 * x.AConfIJ_UU 0 2 * (x.bh_sConf_U 1) ^ 2 * x.gConf_DD 0 1 * x.gConf_DD 1 2 + 2 *
      x.AConfIJ_UU 0 2 * x.bh_sConf_U 1 * x.bh_sConf_U 2 * x.gConf_DD 0 1 * x.gConf_DD 2 2 + 2 * x.AConfIJ_UU 0 2 *
      x.bh_sConf_U 1 * x.bh_sConf_U 2 * x.gConf_DD 0 2 * x.gConf_DD 1 2 + 2 * x.AConfIJ_UU 0 2 * (x.bh_sConf_U 2) ^ 2 *
      x.gConf_DD 0 2 * x.gConf_DD 2 2 + x.AConfIJ_UU 1 1 * (x.bh_sConf_U 0) ^ 2 * (x.gConf_DD 0 1) ^ 2 + 2 * x.AConfIJ_UU 1 1 *
      x.bh_sConf_U 0 * x.bh_sConf_U 1 * x.gConf_DD 0 1 * x.gConf_DD 1 1 + 2 * x.AConfIJ_UU 1 1 * x.bh_sConf_U 0 * x.bh_sConf_U
      2 * x.gConf_DD 0 1 * x.gConf_DD 1 2 + x.AConfIJ_UU 1 1 * (x.bh_sConf_U 1) ^ 2 * (x.gConf_DD 1 1) ^ 2 + 2 * x.AConfIJ_UU 1
      1 * x.bh_sConf_U 1 * x.bh_sConf_U 2 * x.gConf_DD 1 1 * x.gConf_DD 1 2 + x.AConfIJ_UU 1 1 * (x.bh_sConf_U 2) ^ 2 *
      (x.gConf_DD 1 2) ^ 2 + 2 * x.AConfIJ_UU 1 2 * (x.bh_sConf_U 0) ^ 2 * x.gConf_DD 0 1 * x.gConf_DD 0 2 + 2 * x.AConfIJ_UU 1
      2 * x.bh_sConf_U 0 * x.bh_sConf_U 1 * x.gConf_DD 0 1 * x.gConf_DD 1 2 + 2 * x.AConfIJ_UU 1 2 * x.bh_sConf_U 0 *
      x.bh_sConf_U 1 * x.gConf_DD 0 2 * x.gConf_DD 1 1 + 2 * x.AConfIJ_UU 1 2 * x.bh_sConf_U 0 * x.bh_sConf_U 2 * x.gConf_DD 0
      1 * x.gConf_DD 2 2 + 2 * x.AConfIJ_UU 1 2 * x.bh_sConf_U 0 * x.bh_sConf_U 2 * x.gConf_DD 0 2 * x.gConf_DD 1 2 + 2 *
      x.AConfIJ_UU 1 2 * (x.bh_sConf_U 1) ^ 2 * x.gConf_DD 1 1 * x.gConf_DD 1 2 + 2 * x.AConfIJ_UU 1 2 * x.bh_sConf_U 1 *
      x.bh_sConf_U 2 * x.gConf_DD 1 1 * x.gConf_DD 2 2 + 2 * x.AConfIJ_UU 1 2 * x.bh_sConf_U 1 * x.bh_sConf_U 2 * (x.gConf_DD 1
      2) ^ 2 + 2 * x.AConfIJ_UU 1 2 * (x.bh_sConf_U 2) ^ 2 * x.gConf_DD 1 2 * x.gConf_DD 2 2 + x.AConfIJ_UU 2 2 * (x.bh_sConf_U
      0) ^ 2 * (x.gConf_DD 0 2) ^ 2 + 2 * x.AConfIJ_UU 2 2 * x.bh_sConf_U 0 * x.bh_sConf_U 1 * x.gConf_DD 0 2 * x.gConf_DD 1 2
      + 2 * x.AConfIJ_UU 2 2 * x.bh_sConf_U 0 * x.bh_sConf_U 2 * x.gConf_DD 0 2 * x.gConf_DD 2 2 + x.AConfIJ_UU 2 2 *
      (x.bh_sConf_U 1) ^ 2 * (x.gConf_DD 1 2) ^ 2 + 2 * x.AConfIJ_UU 2 2 * x.bh_sConf_U 1 * x.bh_sConf_U 2 * x.gConf_DD 1 2 *
      x.gConf_DD 2 2 + x.AConfIJ_UU 2 2 * (x.bh_sConf_U 2) ^ 2 * (x.gConf_DD 2 2) ^ 2

/-- eq_XCTS_crv_ex_T1_ddm_bc_psi.c:153-156 -/
noncomputable def innerB_F (x : In) : ℝ :=
  (1 / 4) * _AIJsisj x / psi3 x + (1 / 4) * _DiHSi x * x.psi + x.bh_sConf_U 0 * x.dpsi_D 0 + x.bh_sConf_U 1 * x.dpsi_D 1 +
      x.bh_sConf_U 2 * x.dpsi_D 2 - 1 / 6 * x.psi ^ 3 * x.trK

/-- eq_XCTS_crv_ex_T1_ddm_bc_psi.c:57 the value written to schur_F -/
noncomputable def out_schur_F_0 (x : In) : ℝ :=
  outerB_F x

/-- eq_XCTS_crv_ex_T1_ddm_bc_psi.c:158 the value written to schur_F -/
noncomputable def out_schur_F_1 (x : In) : ℝ :=
  psi3 x * innerB_F x

end Elliptica.Gen.Psi.Bc

namespace Elliptica.Gen.Psi.JacBc

/-- eq_XCTS_crv_ex_T1_ddm_Jac_bc_psi.c:60-61 -/
noncomputable def outerB_Bpart (x : In) : ℝ :=
  x.kd

/-- eq_XCTS_crv_ex_T1_ddm_Jac_bc_psi.c:69-70 -/
noncomputable def outerB_Epart (x : In) : ℝ :=
  0

/-- eq_XCTS_crv_ex_T1_ddm_Jac_bc_psi.c:95-102 -/
noncomputable def _DiHSi_b (x : In) : ℝ :=
  x.ChrisConf_UDD 0 0 0 * x.bh_sConf_U 0 + x.ChrisConf_UDD 0 0 1 * x.bh_sConf_U 1 + x.ChrisConf_UDD 0 0 2 * x.bh_sConf_U 2 +
      x.ChrisConf_UDD 1 0 1 * x.bh_sConf_U 0 + x.ChrisConf_UDD 1 1 1 * x.bh_sConf_U 1 + x.ChrisConf_UDD 1 1 2 * x.bh_sConf_U 2
      + x.ChrisConf_UDD 2 0 2 * x.bh_sConf_U 0 + x.ChrisConf_UDD 2 1 2 * x.bh_sConf_U 1 + x.ChrisConf_UDD 2 2 2 * x.bh_sConf_U
      2 + x.dbh_sConf_UD 0 0 + x.dbh_sConf_UD 1 1 + x.dbh_sConf_UD 2 2

/-- eq_XCTS_crv_ex_T1_ddm_Jac_bc_psi.c:104-105 -/
noncomputable def psi2 (x : In) : ℝ :=
  x.psi ^ 2

/-- eq_XCTS_crv_ex_T1_ddm_Jac_bc_psi.c:107-108 -/
noncomputable def psi3 (x : In) : ℝ :=
  x.psi ^ 3

/-- eq_XCTS_crv_ex_T1_ddm_Jac_bc_psi.c:110-114 -/
noncomputable def innerB_Bpart (x : In) : ℝ :=
  3 * x.kd * psi2 x * (x.bh_sConf_U 0 * x.dpsi_D 0 + x.bh_sConf_U 1 * x.dpsi_D 1 + x.bh_sConf_U 2 * x.dpsi_D 2) + x.kd * psi3 x
      * (_DiHSi_b x - psi2 x * x.trK) + psi3 x * (x.Jpsi_D 0 * x.bh_sConf_U 0 + x.Jpsi_D 1 * x.bh_sConf_U 1 + x.Jpsi_D 2 *
      x.bh_sConf_U 2)

/-- eq_XCTS_crv_ex_T1_ddm_Jac_bc_psi.c:125-132 -/
noncomputable def _DiHSi_e (x : In) : ℝ :=
  x.ChrisConf_UDD 0 0 0 * x.bh_sConf_U 0 + x.ChrisConf_UDD 0 0 1 * x.bh_sConf_U 1 + x.ChrisConf_UDD 0 0 2 * x.bh_sConf_U 2 +
      x.ChrisConf_UDD 1 0 1 * x.bh_sConf_U 0 + x.ChrisConf_UDD 1 1 1 * x.bh_sConf_U 1 + x.ChrisConf_UDD 1 1 2 * x.bh_sConf_U 2
      + x.ChrisConf_UDD 2 0 2 * x.bh_sConf_U 0 + x.ChrisConf_UDD 2 1 2 * x.bh_sConf_U 1 + x.ChrisConf_UDD 2 2 2 * x.bh_sConf_U
      2 + x.dbh_sConf_UD 0 0 + x.dbh_sConf_UD 1 1 + x.dbh_sConf_UD 2 2

/-- eq_XCTS_crv_ex_T1_ddm_Jac_bc_psi.c:134-135 -/
noncomputable def psi2_ (x : In) : ℝ :=
  x.psi ^ 2

/-- eq_XCTS_crv_ex_T1_ddm_Jac_bc_psi.c:137-138 -/
noncomputable def psi3_ (x : In) : ℝ :=
  x.psi ^ 3

/-- eq_XCTS_crv_ex_T1_ddm_Jac_bc_psi.c:140-145 -/
noncomputable def innerB_Epart (x : In) : ℝ :=
  3 * x.kd * psi2_ x * (x.bh_sConf_U 0 * x.dpsi_D 0 + x.bh_sConf_U 1 * x.dpsi_D 1 + x.bh_sConf_U 2 * x.dpsi_D 2) + x.kd * psi3_
      x * (_DiHSi_e x - psi2_ x * x.trK) + psi3_ x * (x.Jpsi_D 0 * x.bh_sConf_U 0 + x.Jpsi_D 1 * x.bh_sConf_U 1 + x.Jpsi_D 2 *
      x.bh_sConf_U 2)

/-- eq_XCTS_crv_ex_T1_ddm_Jac_bc_psi.c:63 the value written to schur_B -/
noncomputable def out_schur_B_0 (x : In) : ℝ :=
  outerB_Bpart x

/-- eq_XCTS_crv_ex_T1_ddm_Jac_bc_psi.c:116 the value written to schur_B -/
noncomputable def out_schur_B_1 (x : In) : ℝ :=
  innerB_Bpart x

/-- eq_XCTS_crv_ex_T1_ddm_Jac_bc_psi.c:72 the value written to schur_Et -/
noncomputable def out_schur_Et_0 (x : In) : ℝ :=
  outerB_Epart x

/-- eq_XCTS_crv_ex_T1_ddm_Jac_bc_psi.c:147 the value written to schur_Et -/
noncomputable def out_schur_Et_1 (x : In) : ℝ :=
  innerB_Epart x

end Elliptica.Gen.Psi.JacBc
