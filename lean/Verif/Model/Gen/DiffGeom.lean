import Mathlib.Analysis.Real.Sqrt
import Mathlib.Analysis.SpecialFunctions.Trigonometric.Basic
/-!
Generated by /verif/tools/gen_tensor.py from Src/Main/Modules/Maths/Diff_Geom/dg_Christoffel_symbol_3d.c, Src/Main/Modules/Maths/Diff_Geom/dg_Ricci_3d.c: the arithmetic done at one node, over `ℝ`;
rounding is not modelled, neither that of the operations nor that of decimal literals such as 0.66666666666666663 (= 2/3).
-/
set_option linter.style.longLine false
set_option linter.unusedVariables false

namespace Elliptica.Gen.Christoffel

/-- values at one node read by Src/Main/Modules/Maths/Diff_Geom/dg_Christoffel_symbol_3d.c -/
structure In where
  dg_DDD : Fin 3 → Fin 3 → Fin 3 → ℝ
  ig_UU : Fin 3 → Fin 3 → ℝ

/-- dg_Christoffel_symbol_3d.c:75-78 -/
noncomputable def GAMMA_U1D0D0 (x : In) : ℝ :=
  (1 / 2) * x.dg_DDD 0 0 0 * x.ig_UU 0 1 - (1 / 2) * x.ig_UU 1 1 * (x.dg_DDD 0 0 1 - 2 * x.dg_DDD 0 1 0) - (1 / 2) * x.ig_UU 1
      2 * (x.dg_DDD 0 0 2 - 2 * x.dg_DDD 0 2 0)

/-- dg_Christoffel_symbol_3d.c:80-83 -/
noncomputable def GAMMA_U0D2D2 (x : In) : ℝ :=
  (1 / 2) * x.dg_DDD 2 2 2 * x.ig_UU 0 2 + (1 / 2) * x.ig_UU 0 0 * (2 * x.dg_DDD 0 2 2 - x.dg_DDD 2 2 0) + (1 / 2) * x.ig_UU 0
      1 * (2 * x.dg_DDD 1 2 2 - x.dg_DDD 2 2 1)

/-- dg_Christoffel_symbol_3d.c:85-87 -/
noncomputable def GAMMA_U1D0D2 (x : In) : ℝ :=
  (1 / 2) * x.dg_DDD 0 0 2 * x.ig_UU 0 1 + (1 / 2) * x.dg_DDD 2 2 0 * x.ig_UU 1 2 + (1 / 2) * x.ig_UU 1 1 * (x.dg_DDD 0 1 2 -
      x.dg_DDD 0 2 1 + x.dg_DDD 1 2 0)

/-- dg_Christoffel_symbol_3d.c:89-92 -/
noncomputable def GAMMA_U2D2D2 (x : In) : ℝ :=
  (1 / 2) * x.dg_DDD 2 2 2 * x.ig_UU 2 2 + (1 / 2) * x.ig_UU 0 2 * (2 * x.dg_DDD 0 2 2 - x.dg_DDD 2 2 0) + (1 / 2) * x.ig_UU 1
      2 * (2 * x.dg_DDD 1 2 2 - x.dg_DDD 2 2 1)

/-- dg_Christoffel_symbol_3d.c:94-97 -/
noncomputable def GAMMA_U2D1D1 (x : In) : ℝ :=
  (1 / 2) * x.dg_DDD 1 1 1 * x.ig_UU 1 2 + (1 / 2) * x.ig_UU 0 2 * (2 * x.dg_DDD 0 1 1 - x.dg_DDD 1 1 0) - (1 / 2) * x.ig_UU 2
      2 * (x.dg_DDD 1 1 2 - 2 * x.dg_DDD 1 2 1)

/-- dg_Christoffel_symbol_3d.c:99-101 -/
noncomputable def GAMMA_U1D0D1 (x : In) : ℝ :=
  (1 / 2) * x.dg_DDD 0 0 1 * x.ig_UU 0 1 + (1 / 2) * x.dg_DDD 1 1 0 * x.ig_UU 1 1 + (1 / 2) * x.ig_UU 1 2 * (-x.dg_DDD 0 1 2 +
      x.dg_DDD 0 2 1 + x.dg_DDD 1 2 0)

/-- dg_Christoffel_symbol_3d.c:103-106 -/
noncomputable def GAMMA_U1D2D2 (x : In) : ℝ :=
  (1 / 2) * x.dg_DDD 2 2 2 * x.ig_UU 1 2 + (1 / 2) * x.ig_UU 0 1 * (2 * x.dg_DDD 0 2 2 - x.dg_DDD 2 2 0) + (1 / 2) * x.ig_UU 1
      1 * (2 * x.dg_DDD 1 2 2 - x.dg_DDD 2 2 1)

/-- dg_Christoffel_symbol_3d.c:108-110 -/
noncomputable def GAMMA_U2D1D2 (x : In) : ℝ :=
  (1 / 2) * x.dg_DDD 1 1 2 * x.ig_UU 1 2 + (1 / 2) * x.dg_DDD 2 2 1 * x.ig_UU 2 2 + (1 / 2) * x.ig_UU 0 2 * (x.dg_DDD 0 1 2 +
      x.dg_DDD 0 2 1 - x.dg_DDD 1 2 0)

/-- dg_Christoffel_symbol_3d.c:112-114 -/
noncomputable def GAMMA_U2D0D2 (x : In) : ℝ :=
  (1 / 2) * x.dg_DDD 0 0 2 * x.ig_UU 0 2 + (1 / 2) * x.dg_DDD 2 2 0 * x.ig_UU 2 2 + (1 / 2) * x.ig_UU 1 2 * (x.dg_DDD 0 1 2 -
      x.dg_DDD 0 2 1 + x.dg_DDD 1 2 0)

/-- dg_Christoffel_symbol_3d.c:116-118 -/
noncomputable def GAMMA_U2D0D1 (x : In) : ℝ :=
  (1 / 2) * x.dg_DDD 0 0 1 * x.ig_UU 0 2 + (1 / 2) * x.dg_DDD 1 1 0 * x.ig_UU 1 2 + (1 / 2) * x.ig_UU 2 2 * (-x.dg_DDD 0 1 2 +
      x.dg_DDD 0 2 1 + x.dg_DDD 1 2 0)

/-- dg_Christoffel_symbol_3d.c:120-123 -/
noncomputable def GAMMA_U2D0D0 (x : In) : ℝ :=
  (1 / 2) * x.dg_DDD 0 0 0 * x.ig_UU 0 2 - (1 / 2) * x.ig_UU 1 2 * (x.dg_DDD 0 0 1 - 2 * x.dg_DDD 0 1 0) - (1 / 2) * x.ig_UU 2
      2 * (x.dg_DDD 0 0 2 - 2 * x.dg_DDD 0 2 0)

/-- dg_Christoffel_symbol_3d.c:125-127 -/
noncomputable def GAMMA_U0D0D2 (x : In) : ℝ :=
  (1 / 2) * x.dg_DDD 0 0 2 * x.ig_UU 0 0 + (1 / 2) * x.dg_DDD 2 2 0 * x.ig_UU 0 2 + (1 / 2) * x.ig_UU 0 1 * (x.dg_DDD 0 1 2 -
      x.dg_DDD 0 2 1 + x.dg_DDD 1 2 0)

/-- dg_Christoffel_symbol_3d.c:129-132 -/
noncomputable def GAMMA_U1D1D1 (x : In) : ℝ :=
  (1 / 2) * x.dg_DDD 1 1 1 * x.ig_UU 1 1 + (1 / 2) * x.ig_UU 0 1 * (2 * x.dg_DDD 0 1 1 - x.dg_DDD 1 1 0) - (1 / 2) * x.ig_UU 1
      2 * (x.dg_DDD 1 1 2 - 2 * x.dg_DDD 1 2 1)

/-- dg_Christoffel_symbol_3d.c:134-137 -/
noncomputable def GAMMA_U0D1D1 (x : In) : ℝ :=
  (1 / 2) * x.dg_DDD 1 1 1 * x.ig_UU 0 1 + (1 / 2) * x.ig_UU 0 0 * (2 * x.dg_DDD 0 1 1 - x.dg_DDD 1 1 0) - (1 / 2) * x.ig_UU 0
      2 * (x.dg_DDD 1 1 2 - 2 * x.dg_DDD 1 2 1)

/-- dg_Christoffel_symbol_3d.c:139-142 -/
noncomputable def GAMMA_U0D0D0 (x : In) : ℝ :=
  (1 / 2) * x.dg_DDD 0 0 0 * x.ig_UU 0 0 - (1 / 2) * x.ig_UU 0 1 * (x.dg_DDD 0 0 1 - 2 * x.dg_DDD 0 1 0) - (1 / 2) * x.ig_UU 0
      2 * (x.dg_DDD 0 0 2 - 2 * x.dg_DDD 0 2 0)

/-- dg_Christoffel_symbol_3d.c:144-146 -/
noncomputable def GAMMA_U1D1D2 (x : In) : ℝ :=
  (1 / 2) * x.dg_DDD 1 1 2 * x.ig_UU 1 1 + (1 / 2) * x.dg_DDD 2 2 1 * x.ig_UU 1 2 + (1 / 2) * x.ig_UU 0 1 * (x.dg_DDD 0 1 2 +
      x.dg_DDD 0 2 1 - x.dg_DDD 1 2 0)

/-- dg_Christoffel_symbol_3d.c:148-150 -/
noncomputable def GAMMA_U0D0D1 (x : In) : ℝ :=
  (1 / 2) * x.dg_DDD 0 0 1 * x.ig_UU 0 0 + (1 / 2) * x.dg_DDD 1 1 0 * x.ig_UU 0 1 + (1 / 2) * x.ig_UU 0 2 * (-x.dg_DDD 0 1 2 +
      x.dg_DDD 0 2 1 + x.dg_DDD 1 2 0)

/-- dg_Christoffel_symbol_3d.c:152-154 -/
noncomputable def GAMMA_U0D1D2 (x : In) : ℝ :=
  (1 / 2) * x.dg_DDD 1 1 2 * x.ig_UU 0 1 + (1 / 2) * x.dg_DDD 2 2 1 * x.ig_UU 0 2 + (1 / 2) * x.ig_UU 0 0 * (x.dg_DDD 0 1 2 +
      x.dg_DDD 0 2 1 - x.dg_DDD 1 2 0)

/-- dg_Christoffel_symbol_3d.c:158-175 the values written to Chris_UDD; `none`: not stored -/
noncomputable def out_Chris_UDD (x : In) : Fin 3 → Fin 3 → Fin 3 → Option ℝ
  | 2, 2, 2 => some (GAMMA_U2D2D2 x)
  | 0, 1, 1 => some (GAMMA_U0D1D1 x)
  | 2, 1, 1 => some (GAMMA_U2D1D1 x)
  | 0, 1, 2 => some (GAMMA_U0D1D2 x)
  | 0, 0, 2 => some (GAMMA_U0D0D2 x)
  | 0, 0, 1 => some (GAMMA_U0D0D1 x)
  | 0, 0, 0 => some (GAMMA_U0D0D0 x)
  | 2, 1, 2 => some (GAMMA_U2D1D2 x)
  | 2, 0, 1 => some (GAMMA_U2D0D1 x)
  | 1, 2, 2 => some (GAMMA_U1D2D2 x)
  | 2, 0, 0 => some (GAMMA_U2D0D0 x)
  | 2, 0, 2 => some (GAMMA_U2D0D2 x)
  | 1, 1, 2 => some (GAMMA_U1D1D2 x)
  | 1, 0, 2 => some (GAMMA_U1D0D2 x)
  | 1, 0, 1 => some (GAMMA_U1D0D1 x)
  | 1, 0, 0 => some (GAMMA_U1D0D0 x)
  | 0, 2, 2 => some (GAMMA_U0D2D2 x)
  | 1, 1, 1 => some (GAMMA_U1D1D1 x)
  | _, _, _ => none

end Elliptica.Gen.Christoffel

namespace Elliptica.Gen.Ricci

/-- values at one node read by Src/Main/Modules/Maths/Diff_Geom/dg_Ricci_3d.c -/
structure In where
  dChris_UDDD : Fin 3 → Fin 3 → Fin 3 → Fin 3 → ℝ
  Chris_UDD : Fin 3 → Fin 3 → Fin 3 → ℝ
  ig_UU : Fin 3 → Fin 3 → ℝ

/-- dg_Ricci_3d.c:126-127 -/
noncomputable def Ric1_D0D0 (x : In) : ℝ :=
  x.dChris_UDDD 0 0 0 0 + x.dChris_UDDD 1 0 0 1 + x.dChris_UDDD 2 0 0 2

/-- dg_Ricci_3d.c:129-130 -/
noncomputable def Ric1_D2D2 (x : In) : ℝ :=
  x.dChris_UDDD 0 2 2 0 + x.dChris_UDDD 1 2 2 1 + x.dChris_UDDD 2 2 2 2

/-- dg_Ricci_3d.c:132-133 -/
noncomputable def Ric1_D1D2 (x : In) : ℝ :=
  x.dChris_UDDD 0 1 2 0 + x.dChris_UDDD 1 1 2 1 + x.dChris_UDDD 2 1 2 2

/-- dg_Ricci_3d.c:135-136 -/
noncomputable def Ric1_D0D2 (x : In) : ℝ :=
  x.dChris_UDDD 0 0 2 0 + x.dChris_UDDD 1 0 2 1 + x.dChris_UDDD 2 0 2 2

/-- dg_Ricci_3d.c:138-139 -/
noncomputable def Ric1_D0D1 (x : In) : ℝ :=
  x.dChris_UDDD 0 0 1 0 + x.dChris_UDDD 1 0 1 1 + x.dChris_UDDD 2 0 1 2

/-- dg_Ricci_3d.c:141-142 -/
noncomputable def Ric1_D1D1 (x : In) : ℝ :=
  x.dChris_UDDD 0 1 1 0 + x.dChris_UDDD 1 1 1 1 + x.dChris_UDDD 2 1 1 2

/-- dg_Ricci_3d.c:144-145 -/
noncomputable def Ric2_D2D2 (x : In) : ℝ :=
  -x.dChris_UDDD 0 0 2 2 - x.dChris_UDDD 1 1 2 2 - x.dChris_UDDD 2 2 2 2

/-- dg_Ricci_3d.c:147-148 -/
noncomputable def Ric2_D0D0 (x : In) : ℝ :=
  -x.dChris_UDDD 0 0 0 0 - x.dChris_UDDD 1 0 1 0 - x.dChris_UDDD 2 0 2 0

/-- dg_Ricci_3d.c:150-151 -/
noncomputable def Ric2_D0D2 (x : In) : ℝ :=
  -x.dChris_UDDD 0 0 0 2 - x.dChris_UDDD 1 0 1 2 - x.dChris_UDDD 2 0 2 2

/-- dg_Ricci_3d.c:153-154 -/
noncomputable def Ric2_D1D2 (x : In) : ℝ :=
  -x.dChris_UDDD 0 0 1 2 - x.dChris_UDDD 1 1 1 2 - x.dChris_UDDD 2 1 2 2

/-- dg_Ricci_3d.c:156-157 -/
noncomputable def Ric2_D1D1 (x : In) : ℝ :=
  -x.dChris_UDDD 0 0 1 1 - x.dChris_UDDD 1 1 1 1 - x.dChris_UDDD 2 1 2 1

/-- dg_Ricci_3d.c:159-160 -/
noncomputable def Ric2_D0D1 (x : In) : ℝ :=
  -x.dChris_UDDD 0 0 0 1 - x.dChris_UDDD 1 0 1 1 - x.dChris_UDDD 2 0 2 1

/-- dg_Ricci_3d.c:162-168 -/
noncomputable def Ric3_D1D1 (x : In) : ℝ :=
  x.Chris_UDD 0 0 0 * x.Chris_UDD 0 1 1 + x.Chris_UDD 0 0 1 * x.Chris_UDD 1 1 1 + x.Chris_UDD 0 0 2 * x.Chris_UDD 2 1 1 +
      x.Chris_UDD 0 1 1 * x.Chris_UDD 1 0 1 + x.Chris_UDD 0 1 1 * x.Chris_UDD 2 0 2 + (x.Chris_UDD 1 1 1) ^ 2 + x.Chris_UDD 1 1
      1 * x.Chris_UDD 2 1 2 + x.Chris_UDD 1 1 2 * x.Chris_UDD 2 1 1 + x.Chris_UDD 2 1 1 * x.Chris_UDD 2 2 2

/-- dg_Ricci_3d.c:170-176 -/
noncomputable def Ric3_D1D2 (x : In) : ℝ :=
  x.Chris_UDD 0 0 0 * x.Chris_UDD 0 1 2 + x.Chris_UDD 0 0 1 * x.Chris_UDD 1 1 2 + x.Chris_UDD 0 0 2 * x.Chris_UDD 2 1 2 +
      x.Chris_UDD 0 1 2 * x.Chris_UDD 1 0 1 + x.Chris_UDD 0 1 2 * x.Chris_UDD 2 0 2 + x.Chris_UDD 1 1 1 * x.Chris_UDD 1 1 2 + 2
      * x.Chris_UDD 1 1 2 * x.Chris_UDD 2 1 2 + x.Chris_UDD 2 1 2 * x.Chris_UDD 2 2 2

/-- dg_Ricci_3d.c:178-184 -/
noncomputable def Ric3_D0D1 (x : In) : ℝ :=
  x.Chris_UDD 0 0 0 * x.Chris_UDD 0 0 1 + 2 * x.Chris_UDD 0 0 1 * x.Chris_UDD 1 0 1 + x.Chris_UDD 0 0 1 * x.Chris_UDD 2 0 2 +
      x.Chris_UDD 0 0 2 * x.Chris_UDD 2 0 1 + x.Chris_UDD 1 0 1 * x.Chris_UDD 1 1 1 + x.Chris_UDD 1 0 1 * x.Chris_UDD 2 1 2 +
      x.Chris_UDD 1 1 2 * x.Chris_UDD 2 0 1 + x.Chris_UDD 2 0 1 * x.Chris_UDD 2 2 2

/-- dg_Ricci_3d.c:186-192 -/
noncomputable def Ric3_D0D0 (x : In) : ℝ :=
  (x.Chris_UDD 0 0 0) ^ 2 + x.Chris_UDD 0 0 0 * x.Chris_UDD 1 0 1 + x.Chris_UDD 0 0 0 * x.Chris_UDD 2 0 2 + x.Chris_UDD 0 0 1 *
      x.Chris_UDD 1 0 0 + x.Chris_UDD 0 0 2 * x.Chris_UDD 2 0 0 + x.Chris_UDD 1 0 0 * x.Chris_UDD 1 1 1 + x.Chris_UDD 1 0 0 *
      x.Chris_UDD 2 1 2 + x.Chris_UDD 1 1 2 * x.Chris_UDD 2 0 0 + x.Chris_UDD 2 0 0 * x.Chris_UDD 2 2 2

/-- dg_Ricci_3d.c:194-200 -/
noncomputable def Ric3_D0D2 (x : In) : ℝ :=
  x.Chris_UDD 0 0 0 * x.Chris_UDD 0 0 2 + x.Chris_UDD 0 0 1 * x.Chris_UDD 1 0 2 + x.Chris_UDD 0 0 2 * x.Chris_UDD 1 0 1 + 2 *
      x.Chris_UDD 0 0 2 * x.Chris_UDD 2 0 2 + x.Chris_UDD 1 0 2 * x.Chris_UDD 1 1 1 + x.Chris_UDD 1 0 2 * x.Chris_UDD 2 1 2 +
      x.Chris_UDD 1 1 2 * x.Chris_UDD 2 0 2 + x.Chris_UDD 2 0 2 * x.Chris_UDD 2 2 2

/-- dg_Ricci_3d.c:202-208 -/
noncomputable def Ric3_D2D2 (x : In) : ℝ :=
  x.Chris_UDD 0 0 0 * x.Chris_UDD 0 2 2 + x.Chris_UDD 0 0 1 * x.Chris_UDD 1 2 2 + x.Chris_UDD 0 0 2 * x.Chris_UDD 2 2 2 +
      x.Chris_UDD 0 2 2 * x.Chris_UDD 1 0 1 + x.Chris_UDD 0 2 2 * x.Chris_UDD 2 0 2 + x.Chris_UDD 1 1 1 * x.Chris_UDD 1 2 2 +
      x.Chris_UDD 1 1 2 * x.Chris_UDD 2 2 2 + x.Chris_UDD 1 2 2 * x.Chris_UDD 2 1 2 + (x.Chris_UDD 2 2 2) ^ 2

/-- dg_Ricci_3d.c:210-213 -/
noncomputable def Ric4_D0D0 (x : In) : ℝ :=
  -(x.Chris_UDD 0 0 0) ^ 2 - 2 * x.Chris_UDD 0 0 1 * x.Chris_UDD 1 0 0 - 2 * x.Chris_UDD 0 0 2 * x.Chris_UDD 2 0 0 -
      (x.Chris_UDD 1 0 1) ^ 2 - 2 * x.Chris_UDD 1 0 2 * x.Chris_UDD 2 0 1 - (x.Chris_UDD 2 0 2) ^ 2

/-- dg_Ricci_3d.c:215-221 -/
noncomputable def Ric4_D0D1 (x : In) : ℝ :=
  -x.Chris_UDD 0 0 0 * x.Chris_UDD 0 0 1 - x.Chris_UDD 0 0 1 * x.Chris_UDD 1 0 1 - x.Chris_UDD 0 0 2 * x.Chris_UDD 2 0 1 -
      x.Chris_UDD 0 1 1 * x.Chris_UDD 1 0 0 - x.Chris_UDD 0 1 2 * x.Chris_UDD 2 0 0 - x.Chris_UDD 1 0 1 * x.Chris_UDD 1 1 1 -
      x.Chris_UDD 1 0 2 * x.Chris_UDD 2 1 1 - x.Chris_UDD 1 1 2 * x.Chris_UDD 2 0 1 - x.Chris_UDD 2 0 2 * x.Chris_UDD 2 1 2

/-- dg_Ricci_3d.c:223-229 -/
noncomputable def Ric4_D0D2 (x : In) : ℝ :=
  -x.Chris_UDD 0 0 0 * x.Chris_UDD 0 0 2 - x.Chris_UDD 0 0 1 * x.Chris_UDD 1 0 2 - x.Chris_UDD 0 0 2 * x.Chris_UDD 2 0 2 -
      x.Chris_UDD 0 1 2 * x.Chris_UDD 1 0 0 - x.Chris_UDD 0 2 2 * x.Chris_UDD 2 0 0 - x.Chris_UDD 1 0 1 * x.Chris_UDD 1 1 2 -
      x.Chris_UDD 1 0 2 * x.Chris_UDD 2 1 2 - x.Chris_UDD 1 2 2 * x.Chris_UDD 2 0 1 - x.Chris_UDD 2 0 2 * x.Chris_UDD 2 2 2

/-- dg_Ricci_3d.c:231-234 -/
noncomputable def Ric4_D1D1 (x : In) : ℝ :=
  -(x.Chris_UDD 0 0 1) ^ 2 - 2 * x.Chris_UDD 0 1 1 * x.Chris_UDD 1 0 1 - 2 * x.Chris_UDD 0 1 2 * x.Chris_UDD 2 0 1 -
      (x.Chris_UDD 1 1 1) ^ 2 - 2 * x.Chris_UDD 1 1 2 * x.Chris_UDD 2 1 1 - (x.Chris_UDD 2 1 2) ^ 2

/-- dg_Ricci_3d.c:236-242 -/
noncomputable def Ric4_D1D2 (x : In) : ℝ :=
  -x.Chris_UDD 0 0 1 * x.Chris_UDD 0 0 2 - x.Chris_UDD 0 1 1 * x.Chris_UDD 1 0 2 - x.Chris_UDD 0 1 2 * x.Chris_UDD 1 0 1 -
      x.Chris_UDD 0 1 2 * x.Chris_UDD 2 0 2 - x.Chris_UDD 0 2 2 * x.Chris_UDD 2 0 1 - x.Chris_UDD 1 1 1 * x.Chris_UDD 1 1 2 -
      x.Chris_UDD 1 1 2 * x.Chris_UDD 2 1 2 - x.Chris_UDD 1 2 2 * x.Chris_UDD 2 1 1 - x.Chris_UDD 2 1 2 * x.Chris_UDD 2 2 2

/-- dg_Ricci_3d.c:244-247 -/
noncomputable def Ric4_D2D2 (x : In) : ℝ :=
  -(x.Chris_UDD 0 0 2) ^ 2 - 2 * x.Chris_UDD 0 1 2 * x.Chris_UDD 1 0 2 - 2 * x.Chris_UDD 0 2 2 * x.Chris_UDD 2 0 2 -
      (x.Chris_UDD 1 1 2) ^ 2 - 2 * x.Chris_UDD 1 2 2 * x.Chris_UDD 2 1 2 - (x.Chris_UDD 2 2 2) ^ 2

/-- dg_Ricci_3d.c:249-250 -/
noncomputable def Ric_D1D1 (x : In) : ℝ :=
  Ric1_D1D1 x + Ric2_D1D1 x + Ric3_D1D1 x + Ric4_D1D1 x

/-- dg_Ricci_3d.c:252-253 -/
noncomputable def Ric_D1D2 (x : In) : ℝ :=
  Ric1_D1D2 x + Ric2_D1D2 x + Ric3_D1D2 x + Ric4_D1D2 x

/-- dg_Ricci_3d.c:255-256 -/
noncomputable def Ric_D2D2 (x : In) : ℝ :=
  Ric1_D2D2 x + Ric2_D2D2 x + Ric3_D2D2 x + Ric4_D2D2 x

/-- dg_Ricci_3d.c:258-259 -/
noncomputable def Ric_D0D1 (x : In) : ℝ :=
  Ric1_D0D1 x + Ric2_D0D1 x + Ric3_D0D1 x + Ric4_D0D1 x

/-- dg_Ricci_3d.c:261-262 -/
noncomputable def Ric_D0D0 (x : In) : ℝ :=
  Ric1_D0D0 x + Ric2_D0D0 x + Ric3_D0D0 x + Ric4_D0D0 x

/-- dg_Ricci_3d.c:264-265 -/
noncomputable def Ric_D0D2 (x : In) : ℝ :=
  Ric1_D0D2 x + Ric2_D0D2 x + Ric3_D0D2 x + Ric4_D0D2 x

/-- dg_Ricci_3d.c:267-270 -/
noncomputable def R (x : In) : ℝ :=
  Ric_D0D0 x * x.ig_UU 0 0 + 2 * Ric_D0D1 x * x.ig_UU 0 1 + 2 * Ric_D0D2 x * x.ig_UU 0 2 + Ric_D1D1 x * x.ig_UU 1 1 + 2 *
      Ric_D1D2 x * x.ig_UU 1 2 + Ric_D2D2 x * x.ig_UU 2 2

/-- dg_Ricci_3d.c:272 the value written to trR -/
noncomputable def out_trR (x : In) : ℝ :=
  R x

/-- dg_Ricci_3d.c:275-280 the values written to Ricci_DD; `none`: not stored -/
noncomputable def out_Ricci_DD (x : In) : Fin 3 → Fin 3 → Option ℝ
  | 0, 2 => some (Ric_D0D2 x)
  | 0, 1 => some (Ric_D0D1 x)
  | 0, 0 => some (Ric_D0D0 x)
  | 1, 2 => some (Ric_D1D2 x)
  | 1, 1 => some (Ric_D1D1 x)
  | 2, 2 => some (Ric_D2D2 x)
  | _, _ => none

end Elliptica.Gen.Ricci
