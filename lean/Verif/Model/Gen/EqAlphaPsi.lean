import Mathlib.Analysis.Real.Sqrt
import Mathlib.Analysis.SpecialFunctions.Trigonometric.Basic
/-!
Generated by /verif/tools/gen_tensor.py from Src/Main/Modules/Physics/Equation/eq_XCTS_crv_ex_T1_ddm_eq_alphaPsi.c, Src/Main/Modules/Physics/Equation/eq_XCTS_crv_ex_T1_ddm_Jac_eq_alphaPsi.c, Src/Main/Modules/Physics/Equation/eq_XCTS_crv_ex_T1_ddm_bc_alphaPsi.c, Src/Main/Modules/Physics/Equation/eq_XCTS_crv_ex_T1_ddm_Jac_bc_alphaPsi.c, Src/Main/Modules/Physics/Equation/eq_XCTS_crv_ex_T2_ddm_bc_alphaPsi.c, Src/Main/Modules/Physics/Equation/eq_XCTS_crv_ex_T2_ddm_Jac_bc_alphaPsi.c: the arithmetic done at one node, over `ℝ`;
rounding is not modelled, neither that of the operations nor that of decimal literals such as 0.66666666666666663 (= 2/3).
-/
set_option linter.style.longLine false
set_option linter.unusedVariables false

namespace Elliptica.Gen.AlphaPsi

/-- values at one node (`kd`, `J…`, `JJ…`: the Kronecker delta and the two Jacobian functions at the pair of nodes) read by Src/Main/Modules/Physics/Equation/eq_XCTS_crv_ex_T1_ddm_eq_alphaPsi.c, Src/Main/Modules/Physics/Equation/eq_XCTS_crv_ex_T1_ddm_Jac_eq_alphaPsi.c, Src/Main/Modules/Physics/Equation/eq_XCTS_crv_ex_T1_ddm_bc_alphaPsi.c, Src/Main/Modules/Physics/Equation/eq_XCTS_crv_ex_T1_ddm_Jac_bc_alphaPsi.c, Src/Main/Modules/Physics/Equation/eq_XCTS_crv_ex_T2_ddm_bc_alphaPsi.c, Src/Main/Modules/Physics/Equation/eq_XCTS_crv_ex_T2_ddm_Jac_bc_alphaPsi.c -/
structure In where
  psi : ℝ
  AConfIJ2 : ℝ
  alphaPsi : ℝ
  trK : ℝ
  trRicciConf : ℝ
  igConf_UU : Fin 3 → Fin 3 → ℝ
  ChrisConf_UDD : Fin 3 → Fin 3 → Fin 3 → ℝ
  dalphaPsi_D : Fin 3 → ℝ
  ddalphaPsi_DD : Fin 3 → Fin 3 → ℝ
  beta_U : Fin 3 → ℝ
  dtrK_D : Fin 3 → ℝ
  EConfP : ℝ
  SConfP : ℝ
  SConfC : ℝ
  JalphaPsi_D : Fin 3 → ℝ
  JJalphaPsi_DD : Fin 3 → Fin 3 → ℝ
  kd : ℝ
  ibc_alpha : ℝ
  bh_sConf_U : Fin 3 → ℝ

end Elliptica.Gen.AlphaPsi

namespace Elliptica.Gen.AlphaPsi.Eq

/-- eq_XCTS_crv_ex_T1_ddm_eq_alphaPsi.c:64-65 -/
noncomputable def psi4 (x : In) : ℝ :=
  x.psi ^ 4

/-- eq_XCTS_crv_ex_T1_ddm_eq_alphaPsi.c:67-68 -/
noncomputable def aij2 (x : In) : ℝ :=
  x.AConfIJ2 / psi4 x

/-- eq_XCTS_crv_ex_T1_ddm_eq_alphaPsi.c:70-90 -/
noncomputable def ell (x : In) : ℝ :=
  (1 / 8) * (-x.alphaPsi * (7 * aij2 x + psi4 x * ((10 / 3) * psi4 x * x.trK ^ 2 + x.trRicciConf)) + psi4 x * (-8 * x.igConf_UU
      0 0 * (x.ChrisConf_UDD 0 0 0 * x.dalphaPsi_D 0 + x.ChrisConf_UDD 1 0 0 * x.dalphaPsi_D 1 + x.ChrisConf_UDD 2 0 0 *
      x.dalphaPsi_D 2 - x.ddalphaPsi_DD 0 0) - 16 * x.igConf_UU 0 1 * (x.ChrisConf_UDD 0 0 1 * x.dalphaPsi_D 0 +
      x.ChrisConf_UDD 1 0 1 * x.dalphaPsi_D 1 + x.ChrisConf_UDD 2 0 1 * x.dalphaPsi_D 2 - x.ddalphaPsi_DD 0 1) - 16 *
      x.igConf_UU 0 2 * (x.ChrisConf_UDD 0 0 2 * x.dalphaPsi_D 0 + x.ChrisConf_UDD 1 0 2 * x.dalphaPsi_D 1 + x.ChrisConf_UDD 2
      0 2 * x.dalphaPsi_D 2 - x.ddalphaPsi_DD 0 2) - 8 * x.igConf_UU 1 1 * (x.ChrisConf_UDD 0 1 1 * x.dalphaPsi_D 0 +
      x.ChrisConf_UDD 1 1 1 * x.dalphaPsi_D 1 + x.ChrisConf_UDD 2 1 1 * x.dalphaPsi_D 2 - x.ddalphaPsi_DD 1 1) - 16 *
      x.igConf_UU 1 2 * (x.ChrisConf_UDD 0 1 2 * x.dalphaPsi_D 0 + x.ChrisConf_UDD 1 1 2 * x.dalphaPsi_D 1 + x.ChrisConf_UDD 2
      1 2 * x.dalphaPsi_D 2 - x.ddalphaPsi_DD 1 2) - 8 * x.igConf_UU 2 2 * (x.ChrisConf_UDD 0 2 2 * x.dalphaPsi_D 0 +
      x.ChrisConf_UDD 1 2 2 * x.dalphaPsi_D 1 + x.ChrisConf_UDD 2 2 2 * x.dalphaPsi_D 2 - x.ddalphaPsi_DD 2 2) - 8 * x.psi *
      psi4 x * (x.beta_U 0 * x.dtrK_D 0 + x.beta_U 1 * x.dtrK_D 1 + x.beta_U 2 * x.dtrK_D 2))) / psi4 x

/-- eq_XCTS_crv_ex_T1_ddm_eq_alphaPsi.c:92-94 -/
noncomputable def src (x : In) : ℝ :=
  -2 * Real.pi * x.alphaPsi * (x.EConfP + 2 * x.SConfP) / x.psi ^ 2

/-- eq_XCTS_crv_ex_T1_ddm_eq_alphaPsi.c:96-97 -/
noncomputable def F_eq (x : In) : ℝ :=
  x.SConfC * ell x + src x

/-- eq_XCTS_crv_ex_T1_ddm_eq_alphaPsi.c:99 the value written to schur_F -/
noncomputable def out_schur_F (x : In) : ℝ :=
  F_eq x

end Elliptica.Gen.AlphaPsi.Eq

namespace Elliptica.Gen.AlphaPsi.JacEq

/-- eq_XCTS_crv_ex_T1_ddm_Jac_eq_alphaPsi.c:69-70 -/
noncomputable def psi4_B (x : In) : ℝ :=
  x.psi ^ 4

/-- eq_XCTS_crv_ex_T1_ddm_Jac_eq_alphaPsi.c:72-73 -/
noncomputable def aij2_B (x : In) : ℝ :=
  x.AConfIJ2 / psi4_B x

/-- eq_XCTS_crv_ex_T1_ddm_Jac_eq_alphaPsi.c:75-92 -/
noncomputable def t1_b (x : In) : ℝ :=
  -x.igConf_UU 0 0 * (x.ChrisConf_UDD 0 0 0 * x.JalphaPsi_D 0 + x.ChrisConf_UDD 1 0 0 * x.JalphaPsi_D 1 + x.ChrisConf_UDD 2 0 0
      * x.JalphaPsi_D 2 - x.JJalphaPsi_DD 0 0) - 2 * x.igConf_UU 0 1 * (x.ChrisConf_UDD 0 0 1 * x.JalphaPsi_D 0 +
      x.ChrisConf_UDD 1 0 1 * x.JalphaPsi_D 1 + x.ChrisConf_UDD 2 0 1 * x.JalphaPsi_D 2 - x.JJalphaPsi_DD 0 1) - 2 *
      x.igConf_UU 0 2 * (x.ChrisConf_UDD 0 0 2 * x.JalphaPsi_D 0 + x.ChrisConf_UDD 1 0 2 * x.JalphaPsi_D 1 + x.ChrisConf_UDD 2
      0 2 * x.JalphaPsi_D 2 - x.JJalphaPsi_DD 0 2) - x.igConf_UU 1 1 * (x.ChrisConf_UDD 0 1 1 * x.JalphaPsi_D 0 +
      x.ChrisConf_UDD 1 1 1 * x.JalphaPsi_D 1 + x.ChrisConf_UDD 2 1 1 * x.JalphaPsi_D 2 - x.JJalphaPsi_DD 1 1) - 2 *
      x.igConf_UU 1 2 * (x.ChrisConf_UDD 0 1 2 * x.JalphaPsi_D 0 + x.ChrisConf_UDD 1 1 2 * x.JalphaPsi_D 1 + x.ChrisConf_UDD 2
      1 2 * x.JalphaPsi_D 2 - x.JJalphaPsi_DD 1 2) - x.igConf_UU 2 2 * (x.ChrisConf_UDD 0 2 2 * x.JalphaPsi_D 0 +
      x.ChrisConf_UDD 1 2 2 * x.JalphaPsi_D 1 + x.ChrisConf_UDD 2 2 2 * x.JalphaPsi_D 2 - x.JJalphaPsi_DD 2 2) - x.kd * ((7 /
      8) * aij2_B x / psi4_B x + (5 / 12) * psi4_B x * x.trK ^ 2 + (1 / 8) * x.trRicciConf)

/-- eq_XCTS_crv_ex_T1_ddm_Jac_eq_alphaPsi.c:94-95 -/
noncomputable def t2_b (x : In) : ℝ :=
  -2 * Real.pi * x.kd * (x.EConfP + 2 * x.SConfP) / x.psi ^ 2

/-- eq_XCTS_crv_ex_T1_ddm_Jac_eq_alphaPsi.c:97-98 -/
noncomputable def Bpart (x : In) : ℝ :=
  x.SConfC * t1_b x + t2_b x

/-- eq_XCTS_crv_ex_T1_ddm_Jac_eq_alphaPsi.c:115-116 -/
noncomputable def psi4_E (x : In) : ℝ :=
  x.psi ^ 4

/-- eq_XCTS_crv_ex_T1_ddm_Jac_eq_alphaPsi.c:118-119 -/
noncomputable def aij2_E (x : In) : ℝ :=
  x.AConfIJ2 / psi4_E x

/-- eq_XCTS_crv_ex_T1_ddm_Jac_eq_alphaPsi.c:121-138 -/
noncomputable def t1_e (x : In) : ℝ :=
  -x.igConf_UU 0 0 * (x.ChrisConf_UDD 0 0 0 * x.JalphaPsi_D 0 + x.ChrisConf_UDD 1 0 0 * x.JalphaPsi_D 1 + x.ChrisConf_UDD 2 0 0
      * x.JalphaPsi_D 2 - x.JJalphaPsi_DD 0 0) - 2 * x.igConf_UU 0 1 * (x.ChrisConf_UDD 0 0 1 * x.JalphaPsi_D 0 +
      x.ChrisConf_UDD 1 0 1 * x.JalphaPsi_D 1 + x.ChrisConf_UDD 2 0 1 * x.JalphaPsi_D 2 - x.JJalphaPsi_DD 0 1) - 2 *
      x.igConf_UU 0 2 * (x.ChrisConf_UDD 0 0 2 * x.JalphaPsi_D 0 + x.ChrisConf_UDD 1 0 2 * x.JalphaPsi_D 1 + x.ChrisConf_UDD 2
      0 2 * x.JalphaPsi_D 2 - x.JJalphaPsi_DD 0 2) - x.igConf_UU 1 1 * (x.ChrisConf_UDD 0 1 1 * x.JalphaPsi_D 0 +
      x.ChrisConf_UDD 1 1 1 * x.JalphaPsi_D 1 + x.ChrisConf_UDD 2 1 1 * x.JalphaPsi_D 2 - x.JJalphaPsi_DD 1 1) - 2 *
      x.igConf_UU 1 2 * (x.ChrisConf_UDD 0 1 2 * x.JalphaPsi_D 0 + x.ChrisConf_UDD 1 1 2 * x.JalphaPsi_D 1 + x.ChrisConf_UDD 2
      1 2 * x.JalphaPsi_D 2 - x.JJalphaPsi_DD 1 2) - x.igConf_UU 2 2 * (x.ChrisConf_UDD 0 2 2 * x.JalphaPsi_D 0 +
      x.ChrisConf_UDD 1 2 2 * x.JalphaPsi_D 1 + x.ChrisConf_UDD 2 2 2 * x.JalphaPsi_D 2 - x.JJalphaPsi_DD 2 2) - x.kd * ((7 /
      8) * aij2_E x / psi4_E x + (5 / 12) * psi4_E x * x.trK ^ 2 + (1 / 8) * x.trRicciConf)

/-- eq_XCTS_crv_ex_T1_ddm_Jac_eq_alphaPsi.c:140-141 -/
noncomputable def t2_e (x : In) : ℝ :=
  -2 * Real.pi * x.kd * (x.EConfP + 2 * x.SConfP) / x.psi ^ 2

/-- eq_XCTS_crv_ex_T1_ddm_Jac_eq_alphaPsi.c:143-144 -/
noncomputable def Epart (x : In) : ℝ :=
  x.SConfC * t1_e x + t2_e x

/-- eq_XCTS_crv_ex_T1_ddm_Jac_eq_alphaPsi.c:100 the value written to schur_B -/
noncomputable def out_schur_B (x : In) : ℝ :=
  Bpart x

/-- eq_XCTS_crv_ex_T1_ddm_Jac_eq_alphaPsi.c:146 the value written to schur_Et -/
noncomputable def out_schur_Et (x : In) : ℝ :=
  Epart x

end Elliptica.Gen.AlphaPsi.JacEq

namespace Elliptica.Gen.AlphaPsi.Bc

/-- eq_XCTS_crv_ex_T1_ddm_bc_alphaPsi.c:21-22 -/
noncomputable def outerB_F (x : In) : ℝ :=
  x.alphaPsi - 1

/-- eq_XCTS_crv_ex_T1_ddm_bc_alphaPsi.c:35-36 -/
noncomputable def innerB_F (x : In) : ℝ :=
  x.alphaPsi - x.ibc_alpha * x.psi

/-- eq_XCTS_crv_ex_T1_ddm_bc_alphaPsi.c:24 the value written to schur_F -/
noncomputable def out_schur_F_0 (x : In) : ℝ :=
  outerB_F x

/-- eq_XCTS_crv_ex_T1_ddm_bc_alphaPsi.c:38 the value written to schur_F -/
noncomputable def out_schur_F_1 (x : In) : ℝ :=
  innerB_F x

end Elliptica.Gen.AlphaPsi.Bc

namespace Elliptica.Gen.AlphaPsi.JacBc

/-- eq_XCTS_crv_ex_T1_ddm_Jac_bc_alphaPsi.c:22-23 -/
noncomputable def outerB_Bpart (x : In) : ℝ :=
  x.kd

/-- eq_XCTS_crv_ex_T1_ddm_Jac_bc_alphaPsi.c:31-32 -/
noncomputable def outerB_Epart (x : In) : ℝ :=
  0

/-- eq_XCTS_crv_ex_T1_ddm_Jac_bc_alphaPsi.c:42-43 -/
noncomputable def innerB_Bpart (x : In) : ℝ :=
  x.kd

/-- eq_XCTS_crv_ex_T1_ddm_Jac_bc_alphaPsi.c:51-52 -/
noncomputable def innerB_Epart (x : In) : ℝ :=
  0

/-- eq_XCTS_crv_ex_T1_ddm_Jac_bc_alphaPsi.c:25 the value written to schur_B -/
noncomputable def out_schur_B_0 (x : In) : ℝ :=
  outerB_Bpart x

/-- eq_XCTS_crv_ex_T1_ddm_Jac_bc_alphaPsi.c:45 the value written to schur_B -/
noncomputable def out_schur_B_1 (x : In) : ℝ :=
  innerB_Bpart x

/-- eq_XCTS_crv_ex_T1_ddm_Jac_bc_alphaPsi.c:34 the value written to schur_Et -/
noncomputable def out_schur_Et_0 (x : In) : ℝ :=
  outerB_Epart x

/-- eq_XCTS_crv_ex_T1_ddm_Jac_bc_alphaPsi.c:54 the value written to schur_Et -/
noncomputable def out_schur_Et_1 (x : In) : ℝ :=
  innerB_Epart x

end Elliptica.Gen.AlphaPsi.JacBc

namespace Elliptica.Gen.AlphaPsi.Bc2

/-- eq_XCTS_crv_ex_T2_ddm_bc_alphaPsi.c:23-24 -/
noncomputable def outerB_F (x : In) : ℝ :=
  x.alphaPsi - 1

/-- eq_XCTS_crv_ex_T2_ddm_bc_alphaPsi.c:38-40 -/
noncomputable def innerB_F (x : In) : ℝ :=
  x.bh_sConf_U 0 * x.dalphaPsi_D 0 + x.bh_sConf_U 1 * x.dalphaPsi_D 1 + x.bh_sConf_U 2 * x.dalphaPsi_D 2

/-- eq_XCTS_crv_ex_T2_ddm_bc_alphaPsi.c:26 the value written to schur_F -/
noncomputable def out_schur_F_0 (x : In) : ℝ :=
  outerB_F x

/-- eq_XCTS_crv_ex_T2_ddm_bc_alphaPsi.c:42 the value written to schur_F -/
noncomputable def out_schur_F_1 (x : In) : ℝ :=
  innerB_F x

end Elliptica.Gen.AlphaPsi.Bc2

namespace Elliptica.Gen.AlphaPsi.JacBc2

/-- eq_XCTS_crv_ex_T2_ddm_Jac_bc_alphaPsi.c:25-26 -/
noncomputable def outerB_Bpart (x : In) : ℝ :=
  x.kd

/-- eq_XCTS_crv_ex_T2_ddm_Jac_bc_alphaPsi.c:34-35 -/
noncomputable def outerB_Epart (x : In) : ℝ :=
  0

/-- eq_XCTS_crv_ex_T2_ddm_Jac_bc_alphaPsi.c:51-53 -/
noncomputable def innerB_Bpart (x : In) : ℝ :=
  x.JalphaPsi_D 0 * x.bh_sConf_U 0 + x.JalphaPsi_D 1 * x.bh_sConf_U 1 + x.JalphaPsi_D 2 * x.bh_sConf_U 2

/-- eq_XCTS_crv_ex_T2_ddm_Jac_bc_alphaPsi.c:64-66 -/
noncomputable def innerB_Epart (x : In) : ℝ :=
  x.JalphaPsi_D 0 * x.bh_sConf_U 0 + x.JalphaPsi_D 1 * x.bh_sConf_U 1 + x.JalphaPsi_D 2 * x.bh_sConf_U 2

/-- eq_XCTS_crv_ex_T2_ddm_Jac_bc_alphaPsi.c:28 the value written to schur_B -/
noncomputable def out_schur_B_0 (x : In) : ℝ :=
  outerB_Bpart x

/-- eq_XCTS_crv_ex_T2_ddm_Jac_bc_alphaPsi.c:55 the value written to schur_B -/
noncomputable def out_schur_B_1 (x : In) : ℝ :=
  innerB_Bpart x

/-- eq_XCTS_crv_ex_T2_ddm_Jac_bc_alphaPsi.c:37 the value written to schur_Et -/
noncomputable def out_schur_Et_0 (x : In) : ℝ :=
  outerB_Epart x

/-- eq_XCTS_crv_ex_T2_ddm_Jac_bc_alphaPsi.c:68 the value written to schur_Et -/
noncomputable def out_schur_Et_1 (x : In) : ℝ :=
  innerB_Epart x

end Elliptica.Gen.AlphaPsi.JacBc2
