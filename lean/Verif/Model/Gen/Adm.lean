import Mathlib.Analysis.Real.Sqrt
import Mathlib.Analysis.SpecialFunctions.Trigonometric.Basic
/-!
Generated by /verif/tools/gen_tensor.py from Src/Main/Modules/Physics/ADM/adm_adm_g.c, Src/Main/Modules/Physics/ADM/adm_adm_KUU_by_AUU.c, Src/Main/Modules/Physics/ADM/adm_adm_KDD_by_AUU.c, Src/Main/Modules/Physics/ADM/adm_adm_KUU_by_KDD.c: the arithmetic done at one node, over `ℝ`;
rounding is not modelled, neither that of the operations nor that of decimal literals such as 0.66666666666666663 (= 2/3).
-/
set_option linter.style.longLine false
set_option linter.unusedVariables false

namespace Elliptica.Gen.AdmG

/-- values at one node read by Src/Main/Modules/Physics/ADM/adm_adm_g.c -/
structure In where
  psi : ℝ
  gConf_DD : Fin 3 → Fin 3 → ℝ

/-- adm_adm_g.c:31-32 -/
noncomputable def psi4 (x : In) : ℝ :=
  x.psi ^ 4

/-- adm_adm_g.c:34-35 -/
noncomputable def g_D2D2 (x : In) : ℝ :=
  x.gConf_DD 2 2 * psi4 x

/-- adm_adm_g.c:37-38 -/
noncomputable def g_D0D0 (x : In) : ℝ :=
  x.gConf_DD 0 0 * psi4 x

/-- adm_adm_g.c:40-41 -/
noncomputable def g_D0D1 (x : In) : ℝ :=
  x.gConf_DD 0 1 * psi4 x

/-- adm_adm_g.c:43-44 -/
noncomputable def g_D0D2 (x : In) : ℝ :=
  x.gConf_DD 0 2 * psi4 x

/-- adm_adm_g.c:46-47 -/
noncomputable def g_D1D1 (x : In) : ℝ :=
  x.gConf_DD 1 1 * psi4 x

/-- adm_adm_g.c:49-50 -/
noncomputable def g_D1D2 (x : In) : ℝ :=
  x.gConf_DD 1 2 * psi4 x

/-- adm_adm_g.c:54-59 the values written to adm_g_DD; `none`: not stored -/
noncomputable def out_adm_g_DD (x : In) : Fin 3 → Fin 3 → Option ℝ
  | 0, 2 => some (g_D0D2 x)
  | 0, 1 => some (g_D0D1 x)
  | 0, 0 => some (g_D0D0 x)
  | 1, 2 => some (g_D1D2 x)
  | 1, 1 => some (g_D1D1 x)
  | 2, 2 => some (g_D2D2 x)
  | _, _ => none

end Elliptica.Gen.AdmG

namespace Elliptica.Gen.KUUbyA

/-- values at one node read by Src/Main/Modules/Physics/ADM/adm_adm_KUU_by_AUU.c -/
structure In where
  psi : ℝ
  AConfIJ_UU : Fin 3 → Fin 3 → ℝ
  igConf_UU : Fin 3 → Fin 3 → ℝ
  trK : ℝ

/-- adm_adm_KUU_by_AUU.c:37-38 -/
noncomputable def psim10 (x : In) : ℝ :=
  (x.psi ^ 10)⁻¹

/-- adm_adm_KUU_by_AUU.c:40-41 -/
noncomputable def psim4 (x : In) : ℝ :=
  (x.psi ^ 4)⁻¹

/-- adm_adm_KUU_by_AUU.c:43-45 -/
noncomputable def KIJ_U0U1 (x : In) : ℝ :=
  x.AConfIJ_UU 0 1 * psim10 x + (1 / 3) * x.igConf_UU 0 1 * psim4 x * x.trK

/-- adm_adm_KUU_by_AUU.c:47-49 -/
noncomputable def KIJ_U0U0 (x : In) : ℝ :=
  x.AConfIJ_UU 0 0 * psim10 x + (1 / 3) * x.igConf_UU 0 0 * psim4 x * x.trK

/-- adm_adm_KUU_by_AUU.c:51-53 -/
noncomputable def KIJ_U0U2 (x : In) : ℝ :=
  x.AConfIJ_UU 0 2 * psim10 x + (1 / 3) * x.igConf_UU 0 2 * psim4 x * x.trK

/-- adm_adm_KUU_by_AUU.c:55-57 -/
noncomputable def KIJ_U2U2 (x : In) : ℝ :=
  x.AConfIJ_UU 2 2 * psim10 x + (1 / 3) * x.igConf_UU 2 2 * psim4 x * x.trK

/-- adm_adm_KUU_by_AUU.c:59-61 -/
noncomputable def KIJ_U1U1 (x : In) : ℝ :=
  x.AConfIJ_UU 1 1 * psim10 x + (1 / 3) * x.igConf_UU 1 1 * psim4 x * x.trK

/-- adm_adm_KUU_by_AUU.c:63-65 -/
noncomputable def KIJ_U1U2 (x : In) : ℝ :=
  x.AConfIJ_UU 1 2 * psim10 x + (1 / 3) * x.igConf_UU 1 2 * psim4 x * x.trK

/-- adm_adm_KUU_by_AUU.c:69-74 the values written to adm_KIJ_UU; `none`: not stored -/
noncomputable def out_adm_KIJ_UU (x : In) : Fin 3 → Fin 3 → Option ℝ
  | 0, 2 => some (KIJ_U0U2 x)
  | 0, 0 => some (KIJ_U0U0 x)
  | 0, 1 => some (KIJ_U0U1 x)
  | 1, 2 => some (KIJ_U1U2 x)
  | 1, 1 => some (KIJ_U1U1 x)
  | 2, 2 => some (KIJ_U2U2 x)
  | _, _ => none

end Elliptica.Gen.KUUbyA

namespace Elliptica.Gen.KDDbyA

/-- values at one node read by Src/Main/Modules/Physics/ADM/adm_adm_KDD_by_AUU.c -/
structure In where
  psi : ℝ
  gConf_DD : Fin 3 → Fin 3 → ℝ
  trK : ℝ
  AConfIJ_UU : Fin 3 → Fin 3 → ℝ

/-- adm_adm_KDD_by_AUU.c:37-38 -/
noncomputable def psi2 (x : In) : ℝ :=
  x.psi ^ 2

/-- adm_adm_KDD_by_AUU.c:40-41 -/
noncomputable def psim2 (x : In) : ℝ :=
  1 / psi2 x

/-- adm_adm_KDD_by_AUU.c:43-44 -/
noncomputable def psi4 (x : In) : ℝ :=
  (psi2 x) ^ 2

/-- adm_adm_KDD_by_AUU.c:46-52 -/
noncomputable def Kij_D2D2 (x : In) : ℝ :=
  (1 / 3) * x.gConf_DD 2 2 * psi4 x * x.trK + psim2 x * (x.AConfIJ_UU 0 0 * (x.gConf_DD 0 2) ^ 2 + 2 * x.AConfIJ_UU 0 1 *
      x.gConf_DD 0 2 * x.gConf_DD 1 2 + 2 * x.AConfIJ_UU 0 2 * x.gConf_DD 0 2 * x.gConf_DD 2 2 + x.AConfIJ_UU 1 1 * (x.gConf_DD
      1 2) ^ 2 + 2 * x.AConfIJ_UU 1 2 * x.gConf_DD 1 2 * x.gConf_DD 2 2 + x.AConfIJ_UU 2 2 * (x.gConf_DD 2 2) ^ 2)

/-- adm_adm_KDD_by_AUU.c:54-62 -/
noncomputable def Kij_D0D1 (x : In) : ℝ :=
  (1 / 3) * x.gConf_DD 0 1 * psi4 x * x.trK + psim2 x * (x.AConfIJ_UU 0 0 * x.gConf_DD 0 0 * x.gConf_DD 0 1 + x.AConfIJ_UU 0 1
      * x.gConf_DD 0 0 * x.gConf_DD 1 1 + x.AConfIJ_UU 0 1 * (x.gConf_DD 0 1) ^ 2 + x.AConfIJ_UU 0 2 * x.gConf_DD 0 0 *
      x.gConf_DD 1 2 + x.AConfIJ_UU 0 2 * x.gConf_DD 0 1 * x.gConf_DD 0 2 + x.AConfIJ_UU 1 1 * x.gConf_DD 0 1 * x.gConf_DD 1 1
      + x.AConfIJ_UU 1 2 * x.gConf_DD 0 1 * x.gConf_DD 1 2 + x.AConfIJ_UU 1 2 * x.gConf_DD 0 2 * x.gConf_DD 1 1 + x.AConfIJ_UU
      2 2 * x.gConf_DD 0 2 * x.gConf_DD 1 2)

/-- adm_adm_KDD_by_AUU.c:64-70 -/
noncomputable def Kij_D0D0 (x : In) : ℝ :=
  (1 / 3) * x.gConf_DD 0 0 * psi4 x * x.trK + psim2 x * (x.AConfIJ_UU 0 0 * (x.gConf_DD 0 0) ^ 2 + 2 * x.AConfIJ_UU 0 1 *
      x.gConf_DD 0 0 * x.gConf_DD 0 1 + 2 * x.AConfIJ_UU 0 2 * x.gConf_DD 0 0 * x.gConf_DD 0 2 + x.AConfIJ_UU 1 1 * (x.gConf_DD
      0 1) ^ 2 + 2 * x.AConfIJ_UU 1 2 * x.gConf_DD 0 1 * x.gConf_DD 0 2 + x.AConfIJ_UU 2 2 * (x.gConf_DD 0 2) ^ 2)

/-- adm_adm_KDD_by_AUU.c:72-80 -/
noncomputable def Kij_D0D2 (x : In) : ℝ :=
  (1 / 3) * x.gConf_DD 0 2 * psi4 x * x.trK + psim2 x * (x.AConfIJ_UU 0 0 * x.gConf_DD 0 0 * x.gConf_DD 0 2 + x.AConfIJ_UU 0 1
      * x.gConf_DD 0 0 * x.gConf_DD 1 2 + x.AConfIJ_UU 0 1 * x.gConf_DD 0 1 * x.gConf_DD 0 2 + x.AConfIJ_UU 0 2 * x.gConf_DD 0
      0 * x.gConf_DD 2 2 + x.AConfIJ_UU 0 2 * (x.gConf_DD 0 2) ^ 2 + x.AConfIJ_UU 1 1 * x.gConf_DD 0 1 * x.gConf_DD 1 2 +
      x.AConfIJ_UU 1 2 * x.gConf_DD 0 1 * x.gConf_DD 2 2 + x.AConfIJ_UU 1 2 * x.gConf_DD 0 2 * x.gConf_DD 1 2 + x.AConfIJ_UU 2
      2 * x.gConf_DD 0 2 * x.gConf_DD 2 2)

/-- adm_adm_KDD_by_AUU.c:82-88 -/
noncomputable def Kij_D1D1 (x : In) : ℝ :=
  (1 / 3) * x.gConf_DD 1 1 * psi4 x * x.trK + psim2 x * (x.AConfIJ_UU 0 0 * (x.gConf_DD 0 1) ^ 2 + 2 * x.AConfIJ_UU 0 1 *
      x.gConf_DD 0 1 * x.gConf_DD 1 1 + 2 * x.AConfIJ_UU 0 2 * x.gConf_DD 0 1 * x.gConf_DD 1 2 + x.AConfIJ_UU 1 1 * (x.gConf_DD
      1 1) ^ 2 + 2 * x.AConfIJ_UU 1 2 * x.gConf_DD 1 1 * x.gConf_DD 1 2 + x.AConfIJ_UU 2 2 * (x.gConf_DD 1 2) ^ 2)

/-- adm_adm_KDD_by_AUU.c:90-98 -/
noncomputable def Kij_D1D2 (x : In) : ℝ :=
  (1 / 3) * x.gConf_DD 1 2 * psi4 x * x.trK + psim2 x * (x.AConfIJ_UU 0 0 * x.gConf_DD 0 1 * x.gConf_DD 0 2 + x.AConfIJ_UU 0 1
      * x.gConf_DD 0 1 * x.gConf_DD 1 2 + x.AConfIJ_UU 0 1 * x.gConf_DD 0 2 * x.gConf_DD 1 1 + x.AConfIJ_UU 0 2 * x.gConf_DD 0
      1 * x.gConf_DD 2 2 + x.AConfIJ_UU 0 2 * x.gConf_DD 0 2 * x.gConf_DD 1 2 + x.AConfIJ_UU 1 1 * x.gConf_DD 1 1 * x.gConf_DD
      1 2 + x.AConfIJ_UU 1 2 * x.gConf_DD 1 1 * x.gConf_DD 2 2 + x.AConfIJ_UU 1 2 * (x.gConf_DD 1 2) ^ 2 + x.AConfIJ_UU 2 2 *
      x.gConf_DD 1 2 * x.gConf_DD 2 2)

/-- adm_adm_KDD_by_AUU.c:102-107 the values written to adm_Kij_DD; `none`: not stored -/
noncomputable def out_adm_Kij_DD (x : In) : Fin 3 → Fin 3 → Option ℝ
  | 2, 2 => some (Kij_D2D2 x)
  | 0, 2 => some (Kij_D0D2 x)
  | 1, 2 => some (Kij_D1D2 x)
  | 0, 0 => some (Kij_D0D0 x)
  | 0, 1 => some (Kij_D0D1 x)
  | 1, 1 => some (Kij_D1D1 x)
  | _, _ => none

end Elliptica.Gen.KDDbyA

namespace Elliptica.Gen.KUUbyK

/-- values at one node read by Src/Main/Modules/Physics/ADM/adm_adm_KUU_by_KDD.c -/
structure In where
  psi : ℝ
  adm_Kij_DD : Fin 3 → Fin 3 → ℝ
  igConf_UU : Fin 3 → Fin 3 → ℝ

/-- adm_adm_KUU_by_KDD.c:37-38 -/
noncomputable def psim4 (x : In) : ℝ :=
  (x.psi ^ 4)⁻¹

/-- adm_adm_KUU_by_KDD.c:40-48 -/
noncomputable def KIJ_U0U1 (x : In) : ℝ :=
  (psim4 x) ^ 2 * (x.adm_Kij_DD 0 0 * x.igConf_UU 0 0 * x.igConf_UU 0 1 + x.adm_Kij_DD 0 1 * x.igConf_UU 0 0 * x.igConf_UU 1 1
      + x.adm_Kij_DD 0 1 * (x.igConf_UU 0 1) ^ 2 + x.adm_Kij_DD 0 2 * x.igConf_UU 0 0 * x.igConf_UU 1 2 + x.adm_Kij_DD 0 2 *
      x.igConf_UU 0 1 * x.igConf_UU 0 2 + x.adm_Kij_DD 1 1 * x.igConf_UU 0 1 * x.igConf_UU 1 1 + x.adm_Kij_DD 1 2 * x.igConf_UU
      0 1 * x.igConf_UU 1 2 + x.adm_Kij_DD 1 2 * x.igConf_UU 0 2 * x.igConf_UU 1 1 + x.adm_Kij_DD 2 2 * x.igConf_UU 0 2 *
      x.igConf_UU 1 2)

/-- adm_adm_KUU_by_KDD.c:50-55 -/
noncomputable def KIJ_U0U0 (x : In) : ℝ :=
  (psim4 x) ^ 2 * (x.adm_Kij_DD 0 0 * (x.igConf_UU 0 0) ^ 2 + 2 * x.adm_Kij_DD 0 1 * x.igConf_UU 0 0 * x.igConf_UU 0 1 + 2 *
      x.adm_Kij_DD 0 2 * x.igConf_UU 0 0 * x.igConf_UU 0 2 + x.adm_Kij_DD 1 1 * (x.igConf_UU 0 1) ^ 2 + 2 * x.adm_Kij_DD 1 2 *
      x.igConf_UU 0 1 * x.igConf_UU 0 2 + x.adm_Kij_DD 2 2 * (x.igConf_UU 0 2) ^ 2)

/-- adm_adm_KUU_by_KDD.c:57-65 -/
noncomputable def KIJ_U0U2 (x : In) : ℝ :=
  (psim4 x) ^ 2 * (x.adm_Kij_DD 0 0 * x.igConf_UU 0 0 * x.igConf_UU 0 2 + x.adm_Kij_DD 0 1 * x.igConf_UU 0 0 * x.igConf_UU 1 2
      + x.adm_Kij_DD 0 1 * x.igConf_UU 0 1 * x.igConf_UU 0 2 + x.adm_Kij_DD 0 2 * x.igConf_UU 0 0 * x.igConf_UU 2 2 +
      x.adm_Kij_DD 0 2 * (x.igConf_UU 0 2) ^ 2 + x.adm_Kij_DD 1 1 * x.igConf_UU 0 1 * x.igConf_UU 1 2 + x.adm_Kij_DD 1 2 *
      x.igConf_UU 0 1 * x.igConf_UU 2 2 + x.adm_Kij_DD 1 2 * x.igConf_UU 0 2 * x.igConf_UU 1 2 + x.adm_Kij_DD 2 2 * x.igConf_UU
      0 2 * x.igConf_UU 2 2)

/-- adm_adm_KUU_by_KDD.c:67-72 -/
noncomputable def KIJ_U2U2 (x : In) : ℝ :=
  (psim4 x) ^ 2 * (x.adm_Kij_DD 0 0 * (x.igConf_UU 0 2) ^ 2 + 2 * x.adm_Kij_DD 0 1 * x.igConf_UU 0 2 * x.igConf_UU 1 2 + 2 *
      x.adm_Kij_DD 0 2 * x.igConf_UU 0 2 * x.igConf_UU 2 2 + x.adm_Kij_DD 1 1 * (x.igConf_UU 1 2) ^ 2 + 2 * x.adm_Kij_DD 1 2 *
      x.igConf_UU 1 2 * x.igConf_UU 2 2 + x.adm_Kij_DD 2 2 * (x.igConf_UU 2 2) ^ 2)

/-- adm_adm_KUU_by_KDD.c:74-79 -/
noncomputable def KIJ_U1U1 (x : In) : ℝ :=
  (psim4 x) ^ 2 * (x.adm_Kij_DD 0 0 * (x.igConf_UU 0 1) ^ 2 + 2 * x.adm_Kij_DD 0 1 * x.igConf_UU 0 1 * x.igConf_UU 1 1 + 2 *
      x.adm_Kij_DD 0 2 * x.igConf_UU 0 1 * x.igConf_UU 1 2 + x.adm_Kij_DD 1 1 * (x.igConf_UU 1 1) ^ 2 + 2 * x.adm_Kij_DD 1 2 *
      x.igConf_UU 1 1 * x.igConf_UU 1 2 + x.adm_Kij_DD 2 2 * (x.igConf_UU 1 2) ^ 2)

/-- adm_adm_KUU_by_KDD.c:81-89 -/
noncomputable def KIJ_U1U2 (x : In) : ℝ :=
  (psim4 x) ^ 2 * (x.adm_Kij_DD 0 0 * x.igConf_UU 0 1 * x.igConf_UU 0 2 + x.adm_Kij_DD 0 1 * x.igConf_UU 0 1 * x.igConf_UU 1 2
      + x.adm_Kij_DD 0 1 * x.igConf_UU 0 2 * x.igConf_UU 1 1 + x.adm_Kij_DD 0 2 * x.igConf_UU 0 1 * x.igConf_UU 2 2 +
      x.adm_Kij_DD 0 2 * x.igConf_UU 0 2 * x.igConf_UU 1 2 + x.adm_Kij_DD 1 1 * x.igConf_UU 1 1 * x.igConf_UU 1 2 +
      x.adm_Kij_DD 1 2 * x.igConf_UU 1 1 * x.igConf_UU 2 2 + x.adm_Kij_DD 1 2 * (x.igConf_UU 1 2) ^ 2 + x.adm_Kij_DD 2 2 *
      x.igConf_UU 1 2 * x.igConf_UU 2 2)

/-- adm_adm_KUU_by_KDD.c:93-98 the values written to adm_KIJ_UU; `none`: not stored -/
noncomputable def out_adm_KIJ_UU (x : In) : Fin 3 → Fin 3 → Option ℝ
  | 0, 2 => some (KIJ_U0U2 x)
  | 0, 0 => some (KIJ_U0U0 x)
  | 0, 1 => some (KIJ_U0U1 x)
  | 1, 2 => some (KIJ_U1U2 x)
  | 1, 1 => some (KIJ_U1U1 x)
  | 2, 2 => some (KIJ_U2U2 x)
  | _, _ => none

end Elliptica.Gen.KUUbyK
