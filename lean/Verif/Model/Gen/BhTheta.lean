import Mathlib.Analysis.Real.Sqrt
import Mathlib.Analysis.SpecialFunctions.Trigonometric.Basic
/-!
Generated by /verif/tools/gen_tensor.py from Src/Main/Modules/Physics/BlackHole/bh_expansion_of_AH.c: the arithmetic done at one node, over `ℝ`;
rounding is not modelled, neither that of the operations nor that of decimal literals such as 0.66666666666666663 (= 2/3).
-/
set_option linter.style.longLine false
set_option linter.unusedVariables false

namespace Elliptica.Gen.BhTheta

/-- values at one node read by Src/Main/Modules/Physics/BlackHole/bh_expansion_of_AH.c -/
structure In where
  ChrisConf_UDD : Fin 3 → Fin 3 → Fin 3 → ℝ
  bh_sConf_U : Fin 3 → ℝ
  dbh_sConf_UD : Fin 3 → Fin 3 → ℝ
  psi : ℝ
  dpsi_D : Fin 3 → ℝ
  trK : ℝ
  AConfIJ_UU : Fin 3 → Fin 3 → ℝ
  gConf_DD : Fin 3 → Fin 3 → ℝ

/-- bh_expansion_of_AH.c:78-85 -/
noncomputable def DisConfI (x : In) : ℝ :=
  x.ChrisConf_UDD 0 0 0 * x.bh_sConf_U 0 + x.ChrisConf_UDD 0 0 1 * x.bh_sConf_U 1 + x.ChrisConf_UDD 0 0 2 * x.bh_sConf_U 2 +
      x.ChrisConf_UDD 1 0 1 * x.bh_sConf_U 0 + x.ChrisConf_UDD 1 1 1 * x.bh_sConf_U 1 + x.ChrisConf_UDD 1 1 2 * x.bh_sConf_U 2
      + x.ChrisConf_UDD 2 0 2 * x.bh_sConf_U 0 + x.ChrisConf_UDD 2 1 2 * x.bh_sConf_U 1 + x.ChrisConf_UDD 2 2 2 * x.bh_sConf_U
      2 + x.dbh_sConf_UD 0 0 + x.dbh_sConf_UD 1 1 + x.dbh_sConf_UD 2 2

/-- bh_expansion_of_AH.c:87-151 -/
noncomputable def Theta (x : In) : ℝ :=
  (1 / 4) * DisConfI x * x.psi + x.bh_sConf_U 0 * x.dpsi_D 0 + x.bh_sConf_U 1 * x.dpsi_D 1 + x.bh_sConf_U 2 * x.dpsi_D 2 - 1 /
      6 * x.psi ^ 3 * x.trK + (1 / 4) * (x.AConfIJ_UU 0 0 * (x.bh_sConf_U 0) ^ 2 * (x.gConf_DD 0 0) ^ 2 + 2 * x.AConfIJ_UU 0 0
      * x.bh_sConf_U 0 * x.bh_sConf_U 1 * x.gConf_DD 0 0 * x.gConf_DD 0 1 + 2 * x.AConfIJ_UU 0 0 * x.bh_sConf_U 0 *
      x.bh_sConf_U 2 * x.gConf_DD 0 0 * x.gConf_DD 0 2 + x.AConfIJ_UU 0 0 * (x.bh_sConf_U 1) ^ 2 * (x.gConf_DD 0 1) ^ 2 + 2 *
      x.AConfIJ_UU 0 0 * x.bh_sConf_U 1 * x.bh_sConf_U 2 * x.gConf_DD 0 1 * x.gConf_DD 0 2 + x.AConfIJ_UU 0 0 * (x.bh_sConf_U
      2) ^ 2 * (x.gConf_DD 0 2) ^ 2 + 2 * x.AConfIJ_UU 0 1 * (x.bh_sConf_U 0) ^ 2 * x.gConf_DD 0 0 * x.gConf_DD 0 1 + 2 *
      x.AConfIJ_UU 0 1 * x.bh_sConf_U 0 * x.bh_sConf_U 1 * x.gConf_DD 0 0 * x.gConf_DD 1 1 + 2 * x.AConfIJ_UU 0 1 *
      x.bh_sConf_U 0 * x.bh_sConf_U 1 * (x.gConf_DD 0 1) ^ 2 + 2 * x.AConfIJ_UU 0 1 * x.bh_sConf_U 0 * x.bh_sConf_U 2 *
      x.gConf_DD 0 0 * x.gConf_DD 1 2 + 2 * x.AConfIJ_UU 0 1 * x.bh_sConf_U 0 * x.bh_sConf_U 2 * x.gConf_DD 0 1 * x.gConf_DD 0
      2 + 2 * x.AConfIJ_UU 0 1 * (x.bh_sConf_U 1) ^ 2 * x.gConf_DD 0 1 * x.gConf_DD 1 1 + 2 * x.AConfIJ_UU 0 1 * x.bh_sConf_U 1
      * x.bh_sConf_U 2 * x.gConf_DD 0 1 * x.gConf_DD 1 2 + 2 * x.AConfIJ_UU 0 1 * x.bh_sConf_U 1 * x.bh_sConf_U 2 * x.gConf_DD
      0 2 * x.gConf_DD 1 1 + 2 * x.AConfIJ_UU 0 1 * (x.bh_sConf_U 2) ^ 2 * x.gConf_DD 0 2 * x.gConf_DD 1 2 + 2 * x.AConfIJ_UU 0
      2 * (x.bh_sConf_U 0) ^ 2 * x.gConf_DD 0 0 * x.gConf_DD 0 2 + 2 * x.AConfIJ_UU 0 2 * x.bh_sConf_U 0 * x.bh_sConf_U 1 *
      x.gConf_DD 0 0 * x.gConf_DD 1 2 + 2 * x.AConfIJ_UU 0 2 * x.bh_sConf_U 0 * x.bh_sConf_U 1 * x.gConf_DD 0 1 * x.gConf_DD 0
      2 + 2 * x.AConfIJ_UU 0 2 * x.bh_sConf_U 0 * x.bh_sConf_U 2 * x.gConf_DD 0 0 * x.gConf_DD 2 2 + 2 * x.AConfIJ_UU 0 2 *
      x.bh_sConf_U 0 * x.bh_sConf_U 2 * (x.gConf_DD 0 2) ^ 2 + 2 * x.AConfIJ_UU 0 2 * (x.bh_sConf_U 1) ^ 2 * x.gConf_DD 0 1 *
      x.gConf_DD 1 2 + 2 * x.AConfIJ_UU 0 2 * x.bh_sConf_U 1 * x.bh_sConf_U 2 * x.gConf_DD 0 1 * x.gConf_DD 2 2 + 2 *
      x.AConfIJ_UU 0 2 * x.bh_sConf_U 1 * x.bh_sConf_U 2 * x.gConf_DD 0 2 * x.gConf_DD 1 2 + 2 * x.AConfIJ_UU 0 2 *
      (x.bh_sConf_U 2) ^ 2 * x.gConf_DD 0 2 * x.gConf_DD 2 2 + x.AConfIJ_UU 1 1 * (x.bh_sConf_U 0) ^ 2 * (x.gConf_DD 0 1) ^ 2 +
      2 * x.AConfIJ_UU 1 1 * x.bh_sConf_U 0 * x.bh_sConf_U 1 * x.gConf_DD 0 1 * x.gConf_DD 1 1 + 2 * x.AConfIJ_UU 1 1 *
      x.bh_sConf_U 0 * x.bh_sConf_U 2 * x.gConf_DD 0 1 * x.gConf_DD 1 2 + x.AConfIJ_UU 1 1 * (x.bh_sConf_U 1) ^ 2 * (x.gConf_DD
      1 1) ^ 2 + 2 * x.AConfIJ_UU 1 1 * x.bh_sConf_U 1 * x.bh_sConf_U 2 * x.gConf_DD 1 1 * x.gConf_DD 1 2 + x.AConfIJ_UU 1 1 *
      (x.bh_sConf_U 2) ^ 2 * (x.gConf_DD 1 2) ^ 2 + 2 * x.AConfIJ_UU 1 2 * (x.bh_sConf_U 0) ^ 2 * x.gConf_DD 0 1 * x.gConf_DD 0
      2 + 2 * x.AConfIJ_UU 1 2 * x.bh_sConf_U 0 * x.bh_sConf_U 1 * x.gConf_DD 0 1 * x.gConf_DD 1 2 + 2 * x.AConfIJ_UU 1 2 *
      x.bh_sConf_U 0 * x.bh_sConf_U 1 * x.gConf_DD 0 2 * x.gConf_DD 1 1 + 2 * x.AConfIJ_UU 1 2 * x.bh_sConf_U 0 * x.bh_sConf_U
      2 * x.gConf_DD 0 1 * x.gConf_DD 2 2 + 2 * x.AConfIJ_UU 1 2 * x.bh_sConf_U 0 * x.bh_sConf_U 2 * x.gConf_DD 0 2 *
      x.gConf_DD 1 2 + 2 * x.AConfIJ_UU 1 2 * (x.bh_sConf_U 1) ^ 2 * x.gConf_DD 1 1 * x.gConf_DD 1 2 + 2 * x.AConfIJ_UU 1 2 *
      x.bh_sConf_U 1 * x.bh_sConf_U 2 * x.gConf_DD 1 1 * x.gConf_DD 2 2 + 2 * x.AConfIJ_UU 1 2 * x.bh_sConf_U 1 * x.bh_sConf_U
      2 * (x.gConf_DD 1 2) ^ 2 + 2 * x.AConfIJ_UU 1 2 * (x.bh_sConf_U 2) ^ 2 * x.gConf_DD 1 2 * x.gConf_DD 2 2 + x.AConfIJ_UU 2
      2 * (x.bh_sConf_U 0) ^ 2 * (x.gConf_DD 0 2) ^ 2 + 2 * x.AConfIJ_UU 2 2 * x.bh_sConf_U 0 * x.bh_sConf_U 1 * x.gConf_DD 0 2
      * x.gConf_DD 1 2 + 2 * x.AConfIJ_UU 2 2 * x.bh_sConf_U 0 * x.bh_sConf_U 2 * x.gConf_DD 0 2 * x.gConf_DD 2 2 +
      x.AConfIJ_UU 2 2 * (x.bh_sConf_U 1) ^ 2 * (x.gConf_DD 1 2) ^ 2 + 2 * x.AConfIJ_UU 2 2 * x.bh_sConf_U 1 * x.bh_sConf_U 2 *
      x.gConf_DD 1 2 * x.gConf_DD 2 2 + x.AConfIJ_UU 2 2 * (x.bh_sConf_U 2) ^ 2 * (x.gConf_DD 2 2) ^ 2) / x.psi ^ 3

end Elliptica.Gen.BhTheta
