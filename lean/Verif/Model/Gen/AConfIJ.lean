import Mathlib.Analysis.Real.Sqrt
import Mathlib.Analysis.SpecialFunctions.Trigonometric.Basic
/-!
Generated by /verif/tools/gen_tensor.py from Src/Main/Modules/Physics/ADM/adm_AConfIJ_XCTS_MConfIJ0.c, Src/Main/Modules/Physics/ADM/adm_AConfIJ_SCTT_MConfIJ0.c: the arithmetic done at one node, over `ℝ`;
rounding is not modelled, neither that of the operations nor that of decimal literals such as 0.66666666666666663 (= 2/3).
-/
set_option linter.style.longLine false
set_option linter.unusedVariables false

namespace Elliptica.Gen.Xcts

/-- values at one node read by Src/Main/Modules/Physics/ADM/adm_AConfIJ_XCTS_MConfIJ0.c -/
structure In where
  psi : ℝ
  igConf_UU : Fin 3 → Fin 3 → ℝ
  ChrisConf_UDD : Fin 3 → Fin 3 → Fin 3 → ℝ
  beta_U : Fin 3 → ℝ
  dbeta_UD : Fin 3 → Fin 3 → ℝ
  gConf_DD : Fin 3 → Fin 3 → ℝ
  alphaPsi : ℝ
  dpsi_D : Fin 3 → ℝ
  dalphaPsi_D : Fin 3 → ℝ
  _dLBij_UUD : Fin 3 → Fin 3 → Fin 3 → ℝ

/-- adm_AConfIJ_XCTS_MConfIJ0.c:108-109 -/
noncomputable def psi7 (x : In) : ℝ :=
  x.psi ^ 7

/-- adm_AConfIJ_XCTS_MConfIJ0.c:111-118 -/
noncomputable def _DB_UU_U1U2 (x : In) : ℝ :=
  x.igConf_UU 0 1 * (x.ChrisConf_UDD 2 0 0 * x.beta_U 0 + x.ChrisConf_UDD 2 0 1 * x.beta_U 1 + x.ChrisConf_UDD 2 0 2 * x.beta_U
      2 + x.dbeta_UD 2 0) + x.igConf_UU 1 1 * (x.ChrisConf_UDD 2 0 1 * x.beta_U 0 + x.ChrisConf_UDD 2 1 1 * x.beta_U 1 +
      x.ChrisConf_UDD 2 1 2 * x.beta_U 2 + x.dbeta_UD 2 1) + x.igConf_UU 1 2 * (x.ChrisConf_UDD 2 0 2 * x.beta_U 0 +
      x.ChrisConf_UDD 2 1 2 * x.beta_U 1 + x.ChrisConf_UDD 2 2 2 * x.beta_U 2 + x.dbeta_UD 2 2)

/-- adm_AConfIJ_XCTS_MConfIJ0.c:120-127 -/
noncomputable def _DB_UU_U1U1 (x : In) : ℝ :=
  x.igConf_UU 0 1 * (x.ChrisConf_UDD 1 0 0 * x.beta_U 0 + x.ChrisConf_UDD 1 0 1 * x.beta_U 1 + x.ChrisConf_UDD 1 0 2 * x.beta_U
      2 + x.dbeta_UD 1 0) + x.igConf_UU 1 1 * (x.ChrisConf_UDD 1 0 1 * x.beta_U 0 + x.ChrisConf_UDD 1 1 1 * x.beta_U 1 +
      x.ChrisConf_UDD 1 1 2 * x.beta_U 2 + x.dbeta_UD 1 1) + x.igConf_UU 1 2 * (x.ChrisConf_UDD 1 0 2 * x.beta_U 0 +
      x.ChrisConf_UDD 1 1 2 * x.beta_U 1 + x.ChrisConf_UDD 1 2 2 * x.beta_U 2 + x.dbeta_UD 1 2)

/-- adm_AConfIJ_XCTS_MConfIJ0.c:129-136 -/
noncomputable def _DB_UU_U1U0 (x : In) : ℝ :=
  x.igConf_UU 0 1 * (x.ChrisConf_UDD 0 0 0 * x.beta_U 0 + x.ChrisConf_UDD 0 0 1 * x.beta_U 1 + x.ChrisConf_UDD 0 0 2 * x.beta_U
      2 + x.dbeta_UD 0 0) + x.igConf_UU 1 1 * (x.ChrisConf_UDD 0 0 1 * x.beta_U 0 + x.ChrisConf_UDD 0 1 1 * x.beta_U 1 +
      x.ChrisConf_UDD 0 1 2 * x.beta_U 2 + x.dbeta_UD 0 1) + x.igConf_UU 1 2 * (x.ChrisConf_UDD 0 0 2 * x.beta_U 0 +
      x.ChrisConf_UDD 0 1 2 * x.beta_U 1 + x.ChrisConf_UDD 0 2 2 * x.beta_U 2 + x.dbeta_UD 0 2)

/-- adm_AConfIJ_XCTS_MConfIJ0.c:138-145 -/
noncomputable def _DB_UU_U0U2 (x : In) : ℝ :=
  x.igConf_UU 0 0 * (x.ChrisConf_UDD 2 0 0 * x.beta_U 0 + x.ChrisConf_UDD 2 0 1 * x.beta_U 1 + x.ChrisConf_UDD 2 0 2 * x.beta_U
      2 + x.dbeta_UD 2 0) + x.igConf_UU 0 1 * (x.ChrisConf_UDD 2 0 1 * x.beta_U 0 + x.ChrisConf_UDD 2 1 1 * x.beta_U 1 +
      x.ChrisConf_UDD 2 1 2 * x.beta_U 2 + x.dbeta_UD 2 1) + x.igConf_UU 0 2 * (x.ChrisConf_UDD 2 0 2 * x.beta_U 0 +
      x.ChrisConf_UDD 2 1 2 * x.beta_U 1 + x.ChrisConf_UDD 2 2 2 * x.beta_U 2 + x.dbeta_UD 2 2)

/-- adm_AConfIJ_XCTS_MConfIJ0.c:147-154 -/
noncomputable def _DB_UU_U0U0 (x : In) : ℝ :=
  x.igConf_UU 0 0 * (x.ChrisConf_UDD 0 0 0 * x.beta_U 0 + x.ChrisConf_UDD 0 0 1 * x.beta_U 1 + x.ChrisConf_UDD 0 0 2 * x.beta_U
      2 + x.dbeta_UD 0 0) + x.igConf_UU 0 1 * (x.ChrisConf_UDD 0 0 1 * x.beta_U 0 + x.ChrisConf_UDD 0 1 1 * x.beta_U 1 +
      x.ChrisConf_UDD 0 1 2 * x.beta_U 2 + x.dbeta_UD 0 1) + x.igConf_UU 0 2 * (x.ChrisConf_UDD 0 0 2 * x.beta_U 0 +
      x.ChrisConf_UDD 0 1 2 * x.beta_U 1 + x.ChrisConf_UDD 0 2 2 * x.beta_U 2 + x.dbeta_UD 0 2)

/-- adm_AConfIJ_XCTS_MConfIJ0.c:156-163 -/
noncomputable def _DB_UU_U0U1 (x : In) : ℝ :=
  x.igConf_UU 0 0 * (x.ChrisConf_UDD 1 0 0 * x.beta_U 0 + x.ChrisConf_UDD 1 0 1 * x.beta_U 1 + x.ChrisConf_UDD 1 0 2 * x.beta_U
      2 + x.dbeta_UD 1 0) + x.igConf_UU 0 1 * (x.ChrisConf_UDD 1 0 1 * x.beta_U 0 + x.ChrisConf_UDD 1 1 1 * x.beta_U 1 +
      x.ChrisConf_UDD 1 1 2 * x.beta_U 2 + x.dbeta_UD 1 1) + x.igConf_UU 0 2 * (x.ChrisConf_UDD 1 0 2 * x.beta_U 0 +
      x.ChrisConf_UDD 1 1 2 * x.beta_U 1 + x.ChrisConf_UDD 1 2 2 * x.beta_U 2 + x.dbeta_UD 1 2)

/-- adm_AConfIJ_XCTS_MConfIJ0.c:165-172 -/
noncomputable def _DB_UU_U2U0 (x : In) : ℝ :=
  x.igConf_UU 0 2 * (x.ChrisConf_UDD 0 0 0 * x.beta_U 0 + x.ChrisConf_UDD 0 0 1 * x.beta_U 1 + x.ChrisConf_UDD 0 0 2 * x.beta_U
      2 + x.dbeta_UD 0 0) + x.igConf_UU 1 2 * (x.ChrisConf_UDD 0 0 1 * x.beta_U 0 + x.ChrisConf_UDD 0 1 1 * x.beta_U 1 +
      x.ChrisConf_UDD 0 1 2 * x.beta_U 2 + x.dbeta_UD 0 1) + x.igConf_UU 2 2 * (x.ChrisConf_UDD 0 0 2 * x.beta_U 0 +
      x.ChrisConf_UDD 0 1 2 * x.beta_U 1 + x.ChrisConf_UDD 0 2 2 * x.beta_U 2 + x.dbeta_UD 0 2)

/-- adm_AConfIJ_XCTS_MConfIJ0.c:174-181 -/
noncomputable def _DB_UU_U2U1 (x : In) : ℝ :=
  x.igConf_UU 0 2 * (x.ChrisConf_UDD 1 0 0 * x.beta_U 0 + x.ChrisConf_UDD 1 0 1 * x.beta_U 1 + x.ChrisConf_UDD 1 0 2 * x.beta_U
      2 + x.dbeta_UD 1 0) + x.igConf_UU 1 2 * (x.ChrisConf_UDD 1 0 1 * x.beta_U 0 + x.ChrisConf_UDD 1 1 1 * x.beta_U 1 +
      x.ChrisConf_UDD 1 1 2 * x.beta_U 2 + x.dbeta_UD 1 1) + x.igConf_UU 2 2 * (x.ChrisConf_UDD 1 0 2 * x.beta_U 0 +
      x.ChrisConf_UDD 1 1 2 * x.beta_U 1 + x.ChrisConf_UDD 1 2 2 * x.beta_U 2 + x.dbeta_UD 1 2)

/-- adm_AConfIJ_XCTS_MConfIJ0.c:183-190 -/
noncomputable def _DB_UU_U2U2 (x : In) : ℝ :=
  x.igConf_UU 0 2 * (x.ChrisConf_UDD 2 0 0 * x.beta_U 0 + x.ChrisConf_UDD 2 0 1 * x.beta_U 1 + x.ChrisConf_UDD 2 0 2 * x.beta_U
      2 + x.dbeta_UD 2 0) + x.igConf_UU 1 2 * (x.ChrisConf_UDD 2 0 1 * x.beta_U 0 + x.ChrisConf_UDD 2 1 1 * x.beta_U 1 +
      x.ChrisConf_UDD 2 1 2 * x.beta_U 2 + x.dbeta_UD 2 1) + x.igConf_UU 2 2 * (x.ChrisConf_UDD 2 0 2 * x.beta_U 0 +
      x.ChrisConf_UDD 2 1 2 * x.beta_U 1 + x.ChrisConf_UDD 2 2 2 * x.beta_U 2 + x.dbeta_UD 2 2)

/-- adm_AConfIJ_XCTS_MConfIJ0.c:192-202 -/
noncomputable def _LV_UU_U0U2 (x : In) : ℝ :=
  -(2 / 3) * _DB_UU_U0U0 x * x.gConf_DD 0 0 * x.igConf_UU 0 2 - (2 / 3) * _DB_UU_U0U1 x * x.gConf_DD 0 1 * x.igConf_UU 0 2 - (2
      / 3) * _DB_UU_U0U2 x * x.gConf_DD 0 2 * x.igConf_UU 0 2 + _DB_UU_U0U2 x - (2 / 3) * _DB_UU_U1U0 x * x.gConf_DD 0 1 *
      x.igConf_UU 0 2 - (2 / 3) * _DB_UU_U1U1 x * x.gConf_DD 1 1 * x.igConf_UU 0 2 - (2 / 3) * _DB_UU_U1U2 x * x.gConf_DD 1 2 *
      x.igConf_UU 0 2 - (2 / 3) * _DB_UU_U2U0 x * x.gConf_DD 0 2 * x.igConf_UU 0 2 + _DB_UU_U2U0 x - (2 / 3) * _DB_UU_U2U1 x *
      x.gConf_DD 1 2 * x.igConf_UU 0 2 - (2 / 3) * _DB_UU_U2U2 x * x.gConf_DD 2 2 * x.igConf_UU 0 2

/-- adm_AConfIJ_XCTS_MConfIJ0.c:204-214 -/
noncomputable def _LV_UU_U0U0 (x : In) : ℝ :=
  -(2 / 3) * _DB_UU_U0U0 x * x.gConf_DD 0 0 * x.igConf_UU 0 0 + 2 * _DB_UU_U0U0 x - (2 / 3) * _DB_UU_U0U1 x * x.gConf_DD 0 1 *
      x.igConf_UU 0 0 - (2 / 3) * _DB_UU_U0U2 x * x.gConf_DD 0 2 * x.igConf_UU 0 0 - (2 / 3) * _DB_UU_U1U0 x * x.gConf_DD 0 1 *
      x.igConf_UU 0 0 - (2 / 3) * _DB_UU_U1U1 x * x.gConf_DD 1 1 * x.igConf_UU 0 0 - (2 / 3) * _DB_UU_U1U2 x * x.gConf_DD 1 2 *
      x.igConf_UU 0 0 - (2 / 3) * _DB_UU_U2U0 x * x.gConf_DD 0 2 * x.igConf_UU 0 0 - (2 / 3) * _DB_UU_U2U1 x * x.gConf_DD 1 2 *
      x.igConf_UU 0 0 - (2 / 3) * _DB_UU_U2U2 x * x.gConf_DD 2 2 * x.igConf_UU 0 0

/-- adm_AConfIJ_XCTS_MConfIJ0.c:216-226 -/
noncomputable def _LV_UU_U0U1 (x : In) : ℝ :=
  -(2 / 3) * _DB_UU_U0U0 x * x.gConf_DD 0 0 * x.igConf_UU 0 1 - (2 / 3) * _DB_UU_U0U1 x * x.gConf_DD 0 1 * x.igConf_UU 0 1 +
      _DB_UU_U0U1 x - (2 / 3) * _DB_UU_U0U2 x * x.gConf_DD 0 2 * x.igConf_UU 0 1 - (2 / 3) * _DB_UU_U1U0 x * x.gConf_DD 0 1 *
      x.igConf_UU 0 1 + _DB_UU_U1U0 x - (2 / 3) * _DB_UU_U1U1 x * x.gConf_DD 1 1 * x.igConf_UU 0 1 - (2 / 3) * _DB_UU_U1U2 x *
      x.gConf_DD 1 2 * x.igConf_UU 0 1 - (2 / 3) * _DB_UU_U2U0 x * x.gConf_DD 0 2 * x.igConf_UU 0 1 - (2 / 3) * _DB_UU_U2U1 x *
      x.gConf_DD 1 2 * x.igConf_UU 0 1 - (2 / 3) * _DB_UU_U2U2 x * x.gConf_DD 2 2 * x.igConf_UU 0 1

/-- adm_AConfIJ_XCTS_MConfIJ0.c:228-238 -/
noncomputable def _LV_UU_U2U2 (x : In) : ℝ :=
  -(2 / 3) * _DB_UU_U0U0 x * x.gConf_DD 0 0 * x.igConf_UU 2 2 - (2 / 3) * _DB_UU_U0U1 x * x.gConf_DD 0 1 * x.igConf_UU 2 2 - (2
      / 3) * _DB_UU_U0U2 x * x.gConf_DD 0 2 * x.igConf_UU 2 2 - (2 / 3) * _DB_UU_U1U0 x * x.gConf_DD 0 1 * x.igConf_UU 2 2 - (2
      / 3) * _DB_UU_U1U1 x * x.gConf_DD 1 1 * x.igConf_UU 2 2 - (2 / 3) * _DB_UU_U1U2 x * x.gConf_DD 1 2 * x.igConf_UU 2 2 - (2
      / 3) * _DB_UU_U2U0 x * x.gConf_DD 0 2 * x.igConf_UU 2 2 - (2 / 3) * _DB_UU_U2U1 x * x.gConf_DD 1 2 * x.igConf_UU 2 2 - (2
      / 3) * _DB_UU_U2U2 x * x.gConf_DD 2 2 * x.igConf_UU 2 2 + 2 * _DB_UU_U2U2 x

/-- adm_AConfIJ_XCTS_MConfIJ0.c:240-250 -/
noncomputable def _LV_UU_U1U2 (x : In) : ℝ :=
  -(2 / 3) * _DB_UU_U0U0 x * x.gConf_DD 0 0 * x.igConf_UU 1 2 - (2 / 3) * _DB_UU_U0U1 x * x.gConf_DD 0 1 * x.igConf_UU 1 2 - (2
      / 3) * _DB_UU_U0U2 x * x.gConf_DD 0 2 * x.igConf_UU 1 2 - (2 / 3) * _DB_UU_U1U0 x * x.gConf_DD 0 1 * x.igConf_UU 1 2 - (2
      / 3) * _DB_UU_U1U1 x * x.gConf_DD 1 1 * x.igConf_UU 1 2 - (2 / 3) * _DB_UU_U1U2 x * x.gConf_DD 1 2 * x.igConf_UU 1 2 +
      _DB_UU_U1U2 x - (2 / 3) * _DB_UU_U2U0 x * x.gConf_DD 0 2 * x.igConf_UU 1 2 - (2 / 3) * _DB_UU_U2U1 x * x.gConf_DD 1 2 *
      x.igConf_UU 1 2 + _DB_UU_U2U1 x - (2 / 3) * _DB_UU_U2U2 x * x.gConf_DD 2 2 * x.igConf_UU 1 2

/-- adm_AConfIJ_XCTS_MConfIJ0.c:252-262 -/
noncomputable def _LV_UU_U1U1 (x : In) : ℝ :=
  -(2 / 3) * _DB_UU_U0U0 x * x.gConf_DD 0 0 * x.igConf_UU 1 1 - (2 / 3) * _DB_UU_U0U1 x * x.gConf_DD 0 1 * x.igConf_UU 1 1 - (2
      / 3) * _DB_UU_U0U2 x * x.gConf_DD 0 2 * x.igConf_UU 1 1 - (2 / 3) * _DB_UU_U1U0 x * x.gConf_DD 0 1 * x.igConf_UU 1 1 - (2
      / 3) * _DB_UU_U1U1 x * x.gConf_DD 1 1 * x.igConf_UU 1 1 + 2 * _DB_UU_U1U1 x - (2 / 3) * _DB_UU_U1U2 x * x.gConf_DD 1 2 *
      x.igConf_UU 1 1 - (2 / 3) * _DB_UU_U2U0 x * x.gConf_DD 0 2 * x.igConf_UU 1 1 - (2 / 3) * _DB_UU_U2U1 x * x.gConf_DD 1 2 *
      x.igConf_UU 1 1 - (2 / 3) * _DB_UU_U2U2 x * x.gConf_DD 2 2 * x.igConf_UU 1 1

/-- adm_AConfIJ_XCTS_MConfIJ0.c:264-265 -/
noncomputable def _A_UUij_U2U2 (x : In) : ℝ :=
  (1 / 2) * _LV_UU_U2U2 x * psi7 x / x.alphaPsi

/-- adm_AConfIJ_XCTS_MConfIJ0.c:267-268 -/
noncomputable def _A_UUij_U1U2 (x : In) : ℝ :=
  (1 / 2) * _LV_UU_U1U2 x * psi7 x / x.alphaPsi

/-- adm_AConfIJ_XCTS_MConfIJ0.c:270-271 -/
noncomputable def _A_UUij_U1U1 (x : In) : ℝ :=
  (1 / 2) * _LV_UU_U1U1 x * psi7 x / x.alphaPsi

/-- adm_AConfIJ_XCTS_MConfIJ0.c:273-274 -/
noncomputable def _A_UUij_U0U2 (x : In) : ℝ :=
  (1 / 2) * _LV_UU_U0U2 x * psi7 x / x.alphaPsi

/-- adm_AConfIJ_XCTS_MConfIJ0.c:276-277 -/
noncomputable def _A_UUij_U0U1 (x : In) : ℝ :=
  (1 / 2) * _LV_UU_U0U1 x * psi7 x / x.alphaPsi

/-- adm_AConfIJ_XCTS_MConfIJ0.c:279-280 -/
noncomputable def _A_UUij_U0U0 (x : In) : ℝ :=
  (1 / 2) * _LV_UU_U0U0 x * psi7 x / x.alphaPsi

/-- adm_AConfIJ_XCTS_MConfIJ0.c:282-307 -/
noncomputable def _AijAij (x : In) : ℝ :=
  (_A_UUij_U0U0 x) ^ 2 * (x.gConf_DD 0 0) ^ 2 + 4 * _A_UUij_U0U0 x * _A_UUij_U0U1 x * x.gConf_DD 0 0 * x.gConf_DD 0 1 + 4 *
      _A_UUij_U0U0 x * _A_UUij_U0U2 x * x.gConf_DD 0 0 * x.gConf_DD 0 2 + 2 * _A_UUij_U0U0 x * _A_UUij_U1U1 x * (x.gConf_DD 0
      1) ^ 2 + 4 * _A_UUij_U0U0 x * _A_UUij_U1U2 x * x.gConf_DD 0 1 * x.gConf_DD 0 2 + 2 * _A_UUij_U0U0 x * _A_UUij_U2U2 x *
      (x.gConf_DD 0 2) ^ 2 + 2 * (_A_UUij_U0U1 x) ^ 2 * x.gConf_DD 0 0 * x.gConf_DD 1 1 + 2 * (_A_UUij_U0U1 x) ^ 2 *
      (x.gConf_DD 0 1) ^ 2 + 4 * _A_UUij_U0U1 x * _A_UUij_U0U2 x * x.gConf_DD 0 0 * x.gConf_DD 1 2 + 4 * _A_UUij_U0U1 x *
      _A_UUij_U0U2 x * x.gConf_DD 0 1 * x.gConf_DD 0 2 + 4 * _A_UUij_U0U1 x * _A_UUij_U1U1 x * x.gConf_DD 0 1 * x.gConf_DD 1 1
      + 4 * _A_UUij_U0U1 x * _A_UUij_U1U2 x * x.gConf_DD 0 1 * x.gConf_DD 1 2 + 4 * _A_UUij_U0U1 x * _A_UUij_U1U2 x *
      x.gConf_DD 0 2 * x.gConf_DD 1 1 + 4 * _A_UUij_U0U1 x * _A_UUij_U2U2 x * x.gConf_DD 0 2 * x.gConf_DD 1 2 + 2 *
      (_A_UUij_U0U2 x) ^ 2 * x.gConf_DD 0 0 * x.gConf_DD 2 2 + 2 * (_A_UUij_U0U2 x) ^ 2 * (x.gConf_DD 0 2) ^ 2 + 4 *
      _A_UUij_U0U2 x * _A_UUij_U1U1 x * x.gConf_DD 0 1 * x.gConf_DD 1 2 + 4 * _A_UUij_U0U2 x * _A_UUij_U1U2 x * x.gConf_DD 0 1
      * x.gConf_DD 2 2 + 4 * _A_UUij_U0U2 x * _A_UUij_U1U2 x * x.gConf_DD 0 2 * x.gConf_DD 1 2 + 4 * _A_UUij_U0U2 x *
      _A_UUij_U2U2 x * x.gConf_DD 0 2 * x.gConf_DD 2 2 + (_A_UUij_U1U1 x) ^ 2 * (x.gConf_DD 1 1) ^ 2 + 4 * _A_UUij_U1U1 x *
      _A_UUij_U1U2 x * x.gConf_DD 1 1 * x.gConf_DD 1 2 + 2 * _A_UUij_U1U1 x * _A_UUij_U2U2 x * (x.gConf_DD 1 2) ^ 2 + 2 *
      (_A_UUij_U1U2 x) ^ 2 * x.gConf_DD 1 1 * x.gConf_DD 2 2 + 2 * (_A_UUij_U1U2 x) ^ 2 * (x.gConf_DD 1 2) ^ 2 + 4 *
      _A_UUij_U1U2 x * _A_UUij_U2U2 x * x.gConf_DD 1 2 * x.gConf_DD 2 2 + (_A_UUij_U2U2 x) ^ 2 * (x.gConf_DD 2 2) ^ 2

/-- adm_AConfIJ_XCTS_MConfIJ0.c:347-348 -/
noncomputable def psi7_ (x : In) : ℝ :=
  x.psi ^ 7

/-- adm_AConfIJ_XCTS_MConfIJ0.c:350-351 -/
noncomputable def dLnOf_alpha__U2 (x : In) : ℝ :=
  -7 * x.dpsi_D 2 / x.psi + x.dalphaPsi_D 2 / x.alphaPsi

/-- adm_AConfIJ_XCTS_MConfIJ0.c:353-354 -/
noncomputable def dLnOf_alpha__U0 (x : In) : ℝ :=
  -7 * x.dpsi_D 0 / x.psi + x.dalphaPsi_D 0 / x.alphaPsi

/-- adm_AConfIJ_XCTS_MConfIJ0.c:356-357 -/
noncomputable def dLnOf_alpha__U1 (x : In) : ℝ :=
  -7 * x.dpsi_D 1 / x.psi + x.dalphaPsi_D 1 / x.alphaPsi

/-- adm_AConfIJ_XCTS_MConfIJ0.c:359-361 -/
noncomputable def dlAij_U0U1D2 (x : In) : ℝ :=
  -1 / 2 * psi7_ x * ((_LV_UU_U0U1 x) * dLnOf_alpha__U2 x - x._dLBij_UUD 0 1 2) / x.alphaPsi

/-- adm_AConfIJ_XCTS_MConfIJ0.c:363-365 -/
noncomputable def dlAij_U0U0D2 (x : In) : ℝ :=
  -1 / 2 * psi7_ x * ((_LV_UU_U0U0 x) * dLnOf_alpha__U2 x - x._dLBij_UUD 0 0 2) / x.alphaPsi

/-- adm_AConfIJ_XCTS_MConfIJ0.c:367-369 -/
noncomputable def dlAij_U0U0D1 (x : In) : ℝ :=
  -1 / 2 * psi7_ x * ((_LV_UU_U0U0 x) * dLnOf_alpha__U1 x - x._dLBij_UUD 0 0 1) / x.alphaPsi

/-- adm_AConfIJ_XCTS_MConfIJ0.c:371-373 -/
noncomputable def dlAij_U0U1D1 (x : In) : ℝ :=
  -1 / 2 * psi7_ x * ((_LV_UU_U0U1 x) * dLnOf_alpha__U1 x - x._dLBij_UUD 0 1 1) / x.alphaPsi

/-- adm_AConfIJ_XCTS_MConfIJ0.c:375-377 -/
noncomputable def dlAij_U0U0D0 (x : In) : ℝ :=
  -1 / 2 * psi7_ x * ((_LV_UU_U0U0 x) * dLnOf_alpha__U0 x - x._dLBij_UUD 0 0 0) / x.alphaPsi

/-- adm_AConfIJ_XCTS_MConfIJ0.c:379-381 -/
noncomputable def dlAij_U1U2D0 (x : In) : ℝ :=
  -1 / 2 * psi7_ x * ((_LV_UU_U1U2 x) * dLnOf_alpha__U0 x - x._dLBij_UUD 1 2 0) / x.alphaPsi

/-- adm_AConfIJ_XCTS_MConfIJ0.c:383-385 -/
noncomputable def dlAij_U0U1D0 (x : In) : ℝ :=
  -1 / 2 * psi7_ x * ((_LV_UU_U0U1 x) * dLnOf_alpha__U0 x - x._dLBij_UUD 0 1 0) / x.alphaPsi

/-- adm_AConfIJ_XCTS_MConfIJ0.c:387-389 -/
noncomputable def dlAij_U1U2D2 (x : In) : ℝ :=
  -1 / 2 * psi7_ x * ((_LV_UU_U1U2 x) * dLnOf_alpha__U2 x - x._dLBij_UUD 1 2 2) / x.alphaPsi

/-- adm_AConfIJ_XCTS_MConfIJ0.c:391-393 -/
noncomputable def dlAij_U1U2D1 (x : In) : ℝ :=
  -1 / 2 * psi7_ x * ((_LV_UU_U1U2 x) * dLnOf_alpha__U1 x - x._dLBij_UUD 1 2 1) / x.alphaPsi

/-- adm_AConfIJ_XCTS_MConfIJ0.c:395-397 -/
noncomputable def dlAij_U0U2D1 (x : In) : ℝ :=
  -1 / 2 * psi7_ x * ((_LV_UU_U0U2 x) * dLnOf_alpha__U1 x - x._dLBij_UUD 0 2 1) / x.alphaPsi

/-- adm_AConfIJ_XCTS_MConfIJ0.c:399-401 -/
noncomputable def dlAij_U0U2D0 (x : In) : ℝ :=
  -1 / 2 * psi7_ x * ((_LV_UU_U0U2 x) * dLnOf_alpha__U0 x - x._dLBij_UUD 0 2 0) / x.alphaPsi

/-- adm_AConfIJ_XCTS_MConfIJ0.c:403-405 -/
noncomputable def dlAij_U0U2D2 (x : In) : ℝ :=
  -1 / 2 * psi7_ x * ((_LV_UU_U0U2 x) * dLnOf_alpha__U2 x - x._dLBij_UUD 0 2 2) / x.alphaPsi

/-- adm_AConfIJ_XCTS_MConfIJ0.c:407-409 -/
noncomputable def dlAij_U2U2D2 (x : In) : ℝ :=
  -1 / 2 * psi7_ x * ((_LV_UU_U2U2 x) * dLnOf_alpha__U2 x - x._dLBij_UUD 2 2 2) / x.alphaPsi

/-- adm_AConfIJ_XCTS_MConfIJ0.c:411-413 -/
noncomputable def dlAij_U1U1D2 (x : In) : ℝ :=
  -1 / 2 * psi7_ x * ((_LV_UU_U1U1 x) * dLnOf_alpha__U2 x - x._dLBij_UUD 1 1 2) / x.alphaPsi

/-- adm_AConfIJ_XCTS_MConfIJ0.c:415-417 -/
noncomputable def dlAij_U1U1D1 (x : In) : ℝ :=
  -1 / 2 * psi7_ x * ((_LV_UU_U1U1 x) * dLnOf_alpha__U1 x - x._dLBij_UUD 1 1 1) / x.alphaPsi

/-- adm_AConfIJ_XCTS_MConfIJ0.c:419-421 -/
noncomputable def dlAij_U1U1D0 (x : In) : ℝ :=
  -1 / 2 * psi7_ x * ((_LV_UU_U1U1 x) * dLnOf_alpha__U0 x - x._dLBij_UUD 1 1 0) / x.alphaPsi

/-- adm_AConfIJ_XCTS_MConfIJ0.c:423-425 -/
noncomputable def dlAij_U2U2D0 (x : In) : ℝ :=
  -1 / 2 * psi7_ x * ((_LV_UU_U2U2 x) * dLnOf_alpha__U0 x - x._dLBij_UUD 2 2 0) / x.alphaPsi

/-- adm_AConfIJ_XCTS_MConfIJ0.c:427-429 -/
noncomputable def dlAij_U2U2D1 (x : In) : ℝ :=
  -1 / 2 * psi7_ x * ((_LV_UU_U2U2 x) * dLnOf_alpha__U1 x - x._dLBij_UUD 2 2 1) / x.alphaPsi

/-- adm_AConfIJ_XCTS_MConfIJ0.c:311-316 the values written to AConfIJ_UU; `none`: not stored -/
noncomputable def out_AConfIJ_UU (x : In) : Fin 3 → Fin 3 → Option ℝ
  | 0, 1 => some (_A_UUij_U0U1 x)
  | 0, 0 => some (_A_UUij_U0U0 x)
  | 0, 2 => some (_A_UUij_U0U2 x)
  | 2, 2 => some (_A_UUij_U2U2 x)
  | 1, 1 => some (_A_UUij_U1U1 x)
  | 1, 2 => some (_A_UUij_U1U2 x)
  | _, _ => none

/-- adm_AConfIJ_XCTS_MConfIJ0.c:319-324 the values written to _LBij_UU; `none`: not stored -/
noncomputable def out__LBij_UU (x : In) : Fin 3 → Fin 3 → Option ℝ
  | 0, 1 => some (_LV_UU_U0U1 x)
  | 0, 0 => some (_LV_UU_U0U0 x)
  | 0, 2 => some (_LV_UU_U0U2 x)
  | 1, 1 => some (_LV_UU_U1U1 x)
  | 1, 2 => some (_LV_UU_U1U2 x)
  | 2, 2 => some (_LV_UU_U2U2 x)
  | _, _ => none

/-- adm_AConfIJ_XCTS_MConfIJ0.c:325 the value written to AConfIJ2 -/
noncomputable def out_AConfIJ2 (x : In) : ℝ :=
  _AijAij x

/-- adm_AConfIJ_XCTS_MConfIJ0.c:433-450 the values written to dAConfIJ_UUD; `none`: not stored -/
noncomputable def out_dAConfIJ_UUD (x : In) : Fin 3 → Fin 3 → Fin 3 → Option ℝ
  | 0, 0, 2 => some (dlAij_U0U0D2 x)
  | 0, 0, 0 => some (dlAij_U0U0D0 x)
  | 0, 0, 1 => some (dlAij_U0U0D1 x)
  | 0, 1, 2 => some (dlAij_U0U1D2 x)
  | 0, 1, 1 => some (dlAij_U0U1D1 x)
  | 0, 1, 0 => some (dlAij_U0U1D0 x)
  | 0, 2, 0 => some (dlAij_U0U2D0 x)
  | 0, 2, 1 => some (dlAij_U0U2D1 x)
  | 0, 2, 2 => some (dlAij_U0U2D2 x)
  | 2, 2, 2 => some (dlAij_U2U2D2 x)
  | 1, 2, 2 => some (dlAij_U1U2D2 x)
  | 2, 2, 0 => some (dlAij_U2U2D0 x)
  | 2, 2, 1 => some (dlAij_U2U2D1 x)
  | 1, 2, 1 => some (dlAij_U1U2D1 x)
  | 1, 1, 2 => some (dlAij_U1U1D2 x)
  | 1, 2, 0 => some (dlAij_U1U2D0 x)
  | 1, 1, 0 => some (dlAij_U1U1D0 x)
  | 1, 1, 1 => some (dlAij_U1U1D1 x)
  | _, _, _ => none

end Elliptica.Gen.Xcts

namespace Elliptica.Gen.Sctt

/-- values at one node read by Src/Main/Modules/Physics/ADM/adm_AConfIJ_SCTT_MConfIJ0.c -/
structure In where
  igConf_UU : Fin 3 → Fin 3 → ℝ
  ChrisConf_UDD : Fin 3 → Fin 3 → Fin 3 → ℝ
  beta_U : Fin 3 → ℝ
  dbeta_UD : Fin 3 → Fin 3 → ℝ
  gConf_DD : Fin 3 → Fin 3 → ℝ

/-- adm_AConfIJ_SCTT_MConfIJ0.c:70-77 -/
noncomputable def _DB_UU_U1U2 (x : In) : ℝ :=
  x.igConf_UU 0 1 * (x.ChrisConf_UDD 2 0 0 * x.beta_U 0 + x.ChrisConf_UDD 2 0 1 * x.beta_U 1 + x.ChrisConf_UDD 2 0 2 * x.beta_U
      2 + x.dbeta_UD 2 0) + x.igConf_UU 1 1 * (x.ChrisConf_UDD 2 0 1 * x.beta_U 0 + x.ChrisConf_UDD 2 1 1 * x.beta_U 1 +
      x.ChrisConf_UDD 2 1 2 * x.beta_U 2 + x.dbeta_UD 2 1) + x.igConf_UU 1 2 * (x.ChrisConf_UDD 2 0 2 * x.beta_U 0 +
      x.ChrisConf_UDD 2 1 2 * x.beta_U 1 + x.ChrisConf_UDD 2 2 2 * x.beta_U 2 + x.dbeta_UD 2 2)

/-- adm_AConfIJ_SCTT_MConfIJ0.c:79-86 -/
noncomputable def _DB_UU_U1U1 (x : In) : ℝ :=
  x.igConf_UU 0 1 * (x.ChrisConf_UDD 1 0 0 * x.beta_U 0 + x.ChrisConf_UDD 1 0 1 * x.beta_U 1 + x.ChrisConf_UDD 1 0 2 * x.beta_U
      2 + x.dbeta_UD 1 0) + x.igConf_UU 1 1 * (x.ChrisConf_UDD 1 0 1 * x.beta_U 0 + x.ChrisConf_UDD 1 1 1 * x.beta_U 1 +
      x.ChrisConf_UDD 1 1 2 * x.beta_U 2 + x.dbeta_UD 1 1) + x.igConf_UU 1 2 * (x.ChrisConf_UDD 1 0 2 * x.beta_U 0 +
      x.ChrisConf_UDD 1 1 2 * x.beta_U 1 + x.ChrisConf_UDD 1 2 2 * x.beta_U 2 + x.dbeta_UD 1 2)

/-- adm_AConfIJ_SCTT_MConfIJ0.c:88-95 -/
noncomputable def _DB_UU_U1U0 (x : In) : ℝ :=
  x.igConf_UU 0 1 * (x.ChrisConf_UDD 0 0 0 * x.beta_U 0 + x.ChrisConf_UDD 0 0 1 * x.beta_U 1 + x.ChrisConf_UDD 0 0 2 * x.beta_U
      2 + x.dbeta_UD 0 0) + x.igConf_UU 1 1 * (x.ChrisConf_UDD 0 0 1 * x.beta_U 0 + x.ChrisConf_UDD 0 1 1 * x.beta_U 1 +
      x.ChrisConf_UDD 0 1 2 * x.beta_U 2 + x.dbeta_UD 0 1) + x.igConf_UU 1 2 * (x.ChrisConf_UDD 0 0 2 * x.beta_U 0 +
      x.ChrisConf_UDD 0 1 2 * x.beta_U 1 + x.ChrisConf_UDD 0 2 2 * x.beta_U 2 + x.dbeta_UD 0 2)

/-- adm_AConfIJ_SCTT_MConfIJ0.c:97-104 -/
noncomputable def _DB_UU_U0U2 (x : In) : ℝ :=
  x.igConf_UU 0 0 * (x.ChrisConf_UDD 2 0 0 * x.beta_U 0 + x.ChrisConf_UDD 2 0 1 * x.beta_U 1 + x.ChrisConf_UDD 2 0 2 * x.beta_U
      2 + x.dbeta_UD 2 0) + x.igConf_UU 0 1 * (x.ChrisConf_UDD 2 0 1 * x.beta_U 0 + x.ChrisConf_UDD 2 1 1 * x.beta_U 1 +
      x.ChrisConf_UDD 2 1 2 * x.beta_U 2 + x.dbeta_UD 2 1) + x.igConf_UU 0 2 * (x.ChrisConf_UDD 2 0 2 * x.beta_U 0 +
      x.ChrisConf_UDD 2 1 2 * x.beta_U 1 + x.ChrisConf_UDD 2 2 2 * x.beta_U 2 + x.dbeta_UD 2 2)

/-- adm_AConfIJ_SCTT_MConfIJ0.c:106-113 -/
noncomputable def _DB_UU_U0U0 (x : In) : ℝ :=
  x.igConf_UU 0 0 * (x.ChrisConf_UDD 0 0 0 * x.beta_U 0 + x.ChrisConf_UDD 0 0 1 * x.beta_U 1 + x.ChrisConf_UDD 0 0 2 * x.beta_U
      2 + x.dbeta_UD 0 0) + x.igConf_UU 0 1 * (x.ChrisConf_UDD 0 0 1 * x.beta_U 0 + x.ChrisConf_UDD 0 1 1 * x.beta_U 1 +
      x.ChrisConf_UDD 0 1 2 * x.beta_U 2 + x.dbeta_UD 0 1) + x.igConf_UU 0 2 * (x.ChrisConf_UDD 0 0 2 * x.beta_U 0 +
      x.ChrisConf_UDD 0 1 2 * x.beta_U 1 + x.ChrisConf_UDD 0 2 2 * x.beta_U 2 + x.dbeta_UD 0 2)

/-- adm_AConfIJ_SCTT_MConfIJ0.c:115-122 -/
noncomputable def _DB_UU_U0U1 (x : In) : ℝ :=
  x.igConf_UU 0 0 * (x.ChrisConf_UDD 1 0 0 * x.beta_U 0 + x.ChrisConf_UDD 1 0 1 * x.beta_U 1 + x.ChrisConf_UDD 1 0 2 * x.beta_U
      2 + x.dbeta_UD 1 0) + x.igConf_UU 0 1 * (x.ChrisConf_UDD 1 0 1 * x.beta_U 0 + x.ChrisConf_UDD 1 1 1 * x.beta_U 1 +
      x.ChrisConf_UDD 1 1 2 * x.beta_U 2 + x.dbeta_UD 1 1) + x.igConf_UU 0 2 * (x.ChrisConf_UDD 1 0 2 * x.beta_U 0 +
      x.ChrisConf_UDD 1 1 2 * x.beta_U 1 + x.ChrisConf_UDD 1 2 2 * x.beta_U 2 + x.dbeta_UD 1 2)

/-- adm_AConfIJ_SCTT_MConfIJ0.c:124-131 -/
noncomputable def _DB_UU_U2U0 (x : In) : ℝ :=
  x.igConf_UU 0 2 * (x.ChrisConf_UDD 0 0 0 * x.beta_U 0 + x.ChrisConf_UDD 0 0 1 * x.beta_U 1 + x.ChrisConf_UDD 0 0 2 * x.beta_U
      2 + x.dbeta_UD 0 0) + x.igConf_UU 1 2 * (x.ChrisConf_UDD 0 0 1 * x.beta_U 0 + x.ChrisConf_UDD 0 1 1 * x.beta_U 1 +
      x.ChrisConf_UDD 0 1 2 * x.beta_U 2 + x.dbeta_UD 0 1) + x.igConf_UU 2 2 * (x.ChrisConf_UDD 0 0 2 * x.beta_U 0 +
      x.ChrisConf_UDD 0 1 2 * x.beta_U 1 + x.ChrisConf_UDD 0 2 2 * x.beta_U 2 + x.dbeta_UD 0 2)

/-- adm_AConfIJ_SCTT_MConfIJ0.c:133-140 -/
noncomputable def _DB_UU_U2U1 (x : In) : ℝ :=
  x.igConf_UU 0 2 * (x.ChrisConf_UDD 1 0 0 * x.beta_U 0 + x.ChrisConf_UDD 1 0 1 * x.beta_U 1 + x.ChrisConf_UDD 1 0 2 * x.beta_U
      2 + x.dbeta_UD 1 0) + x.igConf_UU 1 2 * (x.ChrisConf_UDD 1 0 1 * x.beta_U 0 + x.ChrisConf_UDD 1 1 1 * x.beta_U 1 +
      x.ChrisConf_UDD 1 1 2 * x.beta_U 2 + x.dbeta_UD 1 1) + x.igConf_UU 2 2 * (x.ChrisConf_UDD 1 0 2 * x.beta_U 0 +
      x.ChrisConf_UDD 1 1 2 * x.beta_U 1 + x.ChrisConf_UDD 1 2 2 * x.beta_U 2 + x.dbeta_UD 1 2)

/-- adm_AConfIJ_SCTT_MConfIJ0.c:142-149 -/
noncomputable def _DB_UU_U2U2 (x : In) : ℝ :=
  x.igConf_UU 0 2 * (x.ChrisConf_UDD 2 0 0 * x.beta_U 0 + x.ChrisConf_UDD 2 0 1 * x.beta_U 1 + x.ChrisConf_UDD 2 0 2 * x.beta_U
      2 + x.dbeta_UD 2 0) + x.igConf_UU 1 2 * (x.ChrisConf_UDD 2 0 1 * x.beta_U 0 + x.ChrisConf_UDD 2 1 1 * x.beta_U 1 +
      x.ChrisConf_UDD 2 1 2 * x.beta_U 2 + x.dbeta_UD 2 1) + x.igConf_UU 2 2 * (x.ChrisConf_UDD 2 0 2 * x.beta_U 0 +
      x.ChrisConf_UDD 2 1 2 * x.beta_U 1 + x.ChrisConf_UDD 2 2 2 * x.beta_U 2 + x.dbeta_UD 2 2)

/-- adm_AConfIJ_SCTT_MConfIJ0.c:151-161 -/
noncomputable def _A_UUij_U2U2 (x : In) : ℝ :=
  -(2 / 3) * _DB_UU_U0U0 x * x.gConf_DD 0 0 * x.igConf_UU 2 2 - (2 / 3) * _DB_UU_U0U1 x * x.gConf_DD 0 1 * x.igConf_UU 2 2 - (2
      / 3) * _DB_UU_U0U2 x * x.gConf_DD 0 2 * x.igConf_UU 2 2 - (2 / 3) * _DB_UU_U1U0 x * x.gConf_DD 0 1 * x.igConf_UU 2 2 - (2
      / 3) * _DB_UU_U1U1 x * x.gConf_DD 1 1 * x.igConf_UU 2 2 - (2 / 3) * _DB_UU_U1U2 x * x.gConf_DD 1 2 * x.igConf_UU 2 2 - (2
      / 3) * _DB_UU_U2U0 x * x.gConf_DD 0 2 * x.igConf_UU 2 2 - (2 / 3) * _DB_UU_U2U1 x * x.gConf_DD 1 2 * x.igConf_UU 2 2 - (2
      / 3) * _DB_UU_U2U2 x * x.gConf_DD 2 2 * x.igConf_UU 2 2 + 2 * _DB_UU_U2U2 x

/-- adm_AConfIJ_SCTT_MConfIJ0.c:163-173 -/
noncomputable def _A_UUij_U1U2 (x : In) : ℝ :=
  -(2 / 3) * _DB_UU_U0U0 x * x.gConf_DD 0 0 * x.igConf_UU 1 2 - (2 / 3) * _DB_UU_U0U1 x * x.gConf_DD 0 1 * x.igConf_UU 1 2 - (2
      / 3) * _DB_UU_U0U2 x * x.gConf_DD 0 2 * x.igConf_UU 1 2 - (2 / 3) * _DB_UU_U1U0 x * x.gConf_DD 0 1 * x.igConf_UU 1 2 - (2
      / 3) * _DB_UU_U1U1 x * x.gConf_DD 1 1 * x.igConf_UU 1 2 - (2 / 3) * _DB_UU_U1U2 x * x.gConf_DD 1 2 * x.igConf_UU 1 2 +
      _DB_UU_U1U2 x - (2 / 3) * _DB_UU_U2U0 x * x.gConf_DD 0 2 * x.igConf_UU 1 2 - (2 / 3) * _DB_UU_U2U1 x * x.gConf_DD 1 2 *
      x.igConf_UU 1 2 + _DB_UU_U2U1 x - (2 / 3) * _DB_UU_U2U2 x * x.gConf_DD 2 2 * x.igConf_UU 1 2

/-- adm_AConfIJ_SCTT_MConfIJ0.c:175-185 -/
noncomputable def _A_UUij_U1U1 (x : In) : ℝ :=
  -(2 / 3) * _DB_UU_U0U0 x * x.gConf_DD 0 0 * x.igConf_UU 1 1 - (2 / 3) * _DB_UU_U0U1 x * x.gConf_DD 0 1 * x.igConf_UU 1 1 - (2
      / 3) * _DB_UU_U0U2 x * x.gConf_DD 0 2 * x.igConf_UU 1 1 - (2 / 3) * _DB_UU_U1U0 x * x.gConf_DD 0 1 * x.igConf_UU 1 1 - (2
      / 3) * _DB_UU_U1U1 x * x.gConf_DD 1 1 * x.igConf_UU 1 1 + 2 * _DB_UU_U1U1 x - (2 / 3) * _DB_UU_U1U2 x * x.gConf_DD 1 2 *
      x.igConf_UU 1 1 - (2 / 3) * _DB_UU_U2U0 x * x.gConf_DD 0 2 * x.igConf_UU 1 1 - (2 / 3) * _DB_UU_U2U1 x * x.gConf_DD 1 2 *
      x.igConf_UU 1 1 - (2 / 3) * _DB_UU_U2U2 x * x.gConf_DD 2 2 * x.igConf_UU 1 1

/-- adm_AConfIJ_SCTT_MConfIJ0.c:187-197 -/
noncomputable def _A_UUij_U0U2 (x : In) : ℝ :=
  -(2 / 3) * _DB_UU_U0U0 x * x.gConf_DD 0 0 * x.igConf_UU 0 2 - (2 / 3) * _DB_UU_U0U1 x * x.gConf_DD 0 1 * x.igConf_UU 0 2 - (2
      / 3) * _DB_UU_U0U2 x * x.gConf_DD 0 2 * x.igConf_UU 0 2 + _DB_UU_U0U2 x - (2 / 3) * _DB_UU_U1U0 x * x.gConf_DD 0 1 *
      x.igConf_UU 0 2 - (2 / 3) * _DB_UU_U1U1 x * x.gConf_DD 1 1 * x.igConf_UU 0 2 - (2 / 3) * _DB_UU_U1U2 x * x.gConf_DD 1 2 *
      x.igConf_UU 0 2 - (2 / 3) * _DB_UU_U2U0 x * x.gConf_DD 0 2 * x.igConf_UU 0 2 + _DB_UU_U2U0 x - (2 / 3) * _DB_UU_U2U1 x *
      x.gConf_DD 1 2 * x.igConf_UU 0 2 - (2 / 3) * _DB_UU_U2U2 x * x.gConf_DD 2 2 * x.igConf_UU 0 2

/-- adm_AConfIJ_SCTT_MConfIJ0.c:199-209 -/
noncomputable def _A_UUij_U0U1 (x : In) : ℝ :=
  -(2 / 3) * _DB_UU_U0U0 x * x.gConf_DD 0 0 * x.igConf_UU 0 1 - (2 / 3) * _DB_UU_U0U1 x * x.gConf_DD 0 1 * x.igConf_UU 0 1 +
      _DB_UU_U0U1 x - (2 / 3) * _DB_UU_U0U2 x * x.gConf_DD 0 2 * x.igConf_UU 0 1 - (2 / 3) * _DB_UU_U1U0 x * x.gConf_DD 0 1 *
      x.igConf_UU 0 1 + _DB_UU_U1U0 x - (2 / 3) * _DB_UU_U1U1 x * x.gConf_DD 1 1 * x.igConf_UU 0 1 - (2 / 3) * _DB_UU_U1U2 x *
      x.gConf_DD 1 2 * x.igConf_UU 0 1 - (2 / 3) * _DB_UU_U2U0 x * x.gConf_DD 0 2 * x.igConf_UU 0 1 - (2 / 3) * _DB_UU_U2U1 x *
      x.gConf_DD 1 2 * x.igConf_UU 0 1 - (2 / 3) * _DB_UU_U2U2 x * x.gConf_DD 2 2 * x.igConf_UU 0 1

/-- adm_AConfIJ_SCTT_MConfIJ0.c:211-221 -/
noncomputable def _A_UUij_U0U0 (x : In) : ℝ :=
  -(2 / 3) * _DB_UU_U0U0 x * x.gConf_DD 0 0 * x.igConf_UU 0 0 + 2 * _DB_UU_U0U0 x - (2 / 3) * _DB_UU_U0U1 x * x.gConf_DD 0 1 *
      x.igConf_UU 0 0 - (2 / 3) * _DB_UU_U0U2 x * x.gConf_DD 0 2 * x.igConf_UU 0 0 - (2 / 3) * _DB_UU_U1U0 x * x.gConf_DD 0 1 *
      x.igConf_UU 0 0 - (2 / 3) * _DB_UU_U1U1 x * x.gConf_DD 1 1 * x.igConf_UU 0 0 - (2 / 3) * _DB_UU_U1U2 x * x.gConf_DD 1 2 *
      x.igConf_UU 0 0 - (2 / 3) * _DB_UU_U2U0 x * x.gConf_DD 0 2 * x.igConf_UU 0 0 - (2 / 3) * _DB_UU_U2U1 x * x.gConf_DD 1 2 *
      x.igConf_UU 0 0 - (2 / 3) * _DB_UU_U2U2 x * x.gConf_DD 2 2 * x.igConf_UU 0 0

/-- adm_AConfIJ_SCTT_MConfIJ0.c:223-248 -/
noncomputable def _AijAij (x : In) : ℝ :=
  (_A_UUij_U0U0 x) ^ 2 * (x.gConf_DD 0 0) ^ 2 + 4 * _A_UUij_U0U0 x * _A_UUij_U0U1 x * x.gConf_DD 0 0 * x.gConf_DD 0 1 + 4 *
      _A_UUij_U0U0 x * _A_UUij_U0U2 x * x.gConf_DD 0 0 * x.gConf_DD 0 2 + 2 * _A_UUij_U0U0 x * _A_UUij_U1U1 x * (x.gConf_DD 0
      1) ^ 2 + 4 * _A_UUij_U0U0 x * _A_UUij_U1U2 x * x.gConf_DD 0 1 * x.gConf_DD 0 2 + 2 * _A_UUij_U0U0 x * _A_UUij_U2U2 x *
      (x.gConf_DD 0 2) ^ 2 + 2 * (_A_UUij_U0U1 x) ^ 2 * x.gConf_DD 0 0 * x.gConf_DD 1 1 + 2 * (_A_UUij_U0U1 x) ^ 2 *
      (x.gConf_DD 0 1) ^ 2 + 4 * _A_UUij_U0U1 x * _A_UUij_U0U2 x * x.gConf_DD 0 0 * x.gConf_DD 1 2 + 4 * _A_UUij_U0U1 x *
      _A_UUij_U0U2 x * x.gConf_DD 0 1 * x.gConf_DD 0 2 + 4 * _A_UUij_U0U1 x * _A_UUij_U1U1 x * x.gConf_DD 0 1 * x.gConf_DD 1 1
      + 4 * _A_UUij_U0U1 x * _A_UUij_U1U2 x * x.gConf_DD 0 1 * x.gConf_DD 1 2 + 4 * _A_UUij_U0U1 x * _A_UUij_U1U2 x *
      x.gConf_DD 0 2 * x.gConf_DD 1 1 + 4 * _A_UUij_U0U1 x * _A_UUij_U2U2 x * x.gConf_DD 0 2 * x.gConf_DD 1 2 + 2 *
      (_A_UUij_U0U2 x) ^ 2 * x.gConf_DD 0 0 * x.gConf_DD 2 2 + 2 * (_A_UUij_U0U2 x) ^ 2 * (x.gConf_DD 0 2) ^ 2 + 4 *
      _A_UUij_U0U2 x * _A_UUij_U1U1 x * x.gConf_DD 0 1 * x.gConf_DD 1 2 + 4 * _A_UUij_U0U2 x * _A_UUij_U1U2 x * x.gConf_DD 0 1
      * x.gConf_DD 2 2 + 4 * _A_UUij_U0U2 x * _A_UUij_U1U2 x * x.gConf_DD 0 2 * x.gConf_DD 1 2 + 4 * _A_UUij_U0U2 x *
      _A_UUij_U2U2 x * x.gConf_DD 0 2 * x.gConf_DD 2 2 + (_A_UUij_U1U1 x) ^ 2 * (x.gConf_DD 1 1) ^ 2 + 4 * _A_UUij_U1U1 x *
      _A_UUij_U1U2 x * x.gConf_DD 1 1 * x.gConf_DD 1 2 + 2 * _A_UUij_U1U1 x * _A_UUij_U2U2 x * (x.gConf_DD 1 2) ^ 2 + 2 *
      (_A_UUij_U1U2 x) ^ 2 * x.gConf_DD 1 1 * x.gConf_DD 2 2 + 2 * (_A_UUij_U1U2 x) ^ 2 * (x.gConf_DD 1 2) ^ 2 + 4 *
      _A_UUij_U1U2 x * _A_UUij_U2U2 x * x.gConf_DD 1 2 * x.gConf_DD 2 2 + (_A_UUij_U2U2 x) ^ 2 * (x.gConf_DD 2 2) ^ 2

/-- adm_AConfIJ_SCTT_MConfIJ0.c:252-257 the values written to AConfIJ_UU; `none`: not stored -/
noncomputable def out_AConfIJ_UU (x : In) : Fin 3 → Fin 3 → Option ℝ
  | 0, 1 => some (_A_UUij_U0U1 x)
  | 0, 0 => some (_A_UUij_U0U0 x)
  | 0, 2 => some (_A_UUij_U0U2 x)
  | 2, 2 => some (_A_UUij_U2U2 x)
  | 1, 1 => some (_A_UUij_U1U1 x)
  | 1, 2 => some (_A_UUij_U1U2 x)
  | _, _ => none

/-- adm_AConfIJ_SCTT_MConfIJ0.c:258 the value written to AConfIJ2 -/
noncomputable def out_AConfIJ2 (x : In) : ℝ :=
  _AijAij x

end Elliptica.Gen.Sctt
