import Mathlib.Analysis.Real.Sqrt
import Mathlib.Analysis.SpecialFunctions.Trigonometric.Basic
/-!
Generated by /verif/tools/gen_tensor.py from Src/Main/Modules/Physics/Free_Data/fd_KerrSchild_Kij_trK.c, Src/Main/Modules/Physics/Free_Data/fd_PGSchild_Kij_trK.c: the arithmetic done at one node, over `ℝ`;
rounding is not modelled, neither that of the operations nor that of decimal literals such as 0.66666666666666663 (= 2/3).
-/
set_option linter.style.longLine false
set_option linter.unusedVariables false

namespace Elliptica.Gen.KsKij

/-- values at one node read by Src/Main/Modules/Physics/Free_Data/fd_KerrSchild_Kij_trK.c -/
structure In where
  Chris_UDD : Fin 3 → Fin 3 → Fin 3 → ℝ
  KS__beta_D : Fin 3 → ℝ
  dKS__beta_DD : Fin 3 → Fin 3 → ℝ
  KS__alpha : ℝ
  ig_UU : Fin 3 → Fin 3 → ℝ

/-- fd_KerrSchild_Kij_trK.c:131-134 -/
noncomputable def DB_D0D2 (x : In) : ℝ :=
  -x.Chris_UDD 0 0 2 * x.KS__beta_D 0 - x.Chris_UDD 1 0 2 * x.KS__beta_D 1 - x.Chris_UDD 2 0 2 * x.KS__beta_D 2 +
      x.dKS__beta_DD 0 2

/-- fd_KerrSchild_Kij_trK.c:136-139 -/
noncomputable def DB_D0D0 (x : In) : ℝ :=
  -x.Chris_UDD 0 0 0 * x.KS__beta_D 0 - x.Chris_UDD 1 0 0 * x.KS__beta_D 1 - x.Chris_UDD 2 0 0 * x.KS__beta_D 2 +
      x.dKS__beta_DD 0 0

/-- fd_KerrSchild_Kij_trK.c:141-144 -/
noncomputable def DB_D0D1 (x : In) : ℝ :=
  -x.Chris_UDD 0 0 1 * x.KS__beta_D 0 - x.Chris_UDD 1 0 1 * x.KS__beta_D 1 - x.Chris_UDD 2 0 1 * x.KS__beta_D 2 +
      x.dKS__beta_DD 0 1

/-- fd_KerrSchild_Kij_trK.c:146-149 -/
noncomputable def DB_D2D0 (x : In) : ℝ :=
  -x.Chris_UDD 0 0 2 * x.KS__beta_D 0 - x.Chris_UDD 1 0 2 * x.KS__beta_D 1 - x.Chris_UDD 2 0 2 * x.KS__beta_D 2 +
      x.dKS__beta_DD 2 0

/-- fd_KerrSchild_Kij_trK.c:151-154 -/
noncomputable def DB_D2D1 (x : In) : ℝ :=
  -x.Chris_UDD 0 1 2 * x.KS__beta_D 0 - x.Chris_UDD 1 1 2 * x.KS__beta_D 1 - x.Chris_UDD 2 1 2 * x.KS__beta_D 2 +
      x.dKS__beta_DD 2 1

/-- fd_KerrSchild_Kij_trK.c:156-159 -/
noncomputable def DB_D2D2 (x : In) : ℝ :=
  -x.Chris_UDD 0 2 2 * x.KS__beta_D 0 - x.Chris_UDD 1 2 2 * x.KS__beta_D 1 - x.Chris_UDD 2 2 2 * x.KS__beta_D 2 +
      x.dKS__beta_DD 2 2

/-- fd_KerrSchild_Kij_trK.c:161-164 -/
noncomputable def DB_D1D2 (x : In) : ℝ :=
  -x.Chris_UDD 0 1 2 * x.KS__beta_D 0 - x.Chris_UDD 1 1 2 * x.KS__beta_D 1 - x.Chris_UDD 2 1 2 * x.KS__beta_D 2 +
      x.dKS__beta_DD 1 2

/-- fd_KerrSchild_Kij_trK.c:166-169 -/
noncomputable def DB_D1D1 (x : In) : ℝ :=
  -x.Chris_UDD 0 1 1 * x.KS__beta_D 0 - x.Chris_UDD 1 1 1 * x.KS__beta_D 1 - x.Chris_UDD 2 1 1 * x.KS__beta_D 2 +
      x.dKS__beta_DD 1 1

/-- fd_KerrSchild_Kij_trK.c:171-174 -/
noncomputable def DB_D1D0 (x : In) : ℝ :=
  -x.Chris_UDD 0 0 1 * x.KS__beta_D 0 - x.Chris_UDD 1 0 1 * x.KS__beta_D 1 - x.Chris_UDD 2 0 1 * x.KS__beta_D 2 +
      x.dKS__beta_DD 1 0

/-- fd_KerrSchild_Kij_trK.c:176-177 -/
noncomputable def ksKij_D2D2 (x : In) : ℝ :=
  DB_D2D2 x / x.KS__alpha

/-- fd_KerrSchild_Kij_trK.c:179-180 -/
noncomputable def ksKij_D0D1 (x : In) : ℝ :=
  (1 / 2) * (DB_D0D1 x + DB_D1D0 x) / x.KS__alpha

/-- fd_KerrSchild_Kij_trK.c:182-183 -/
noncomputable def ksKij_D0D0 (x : In) : ℝ :=
  DB_D0D0 x / x.KS__alpha

/-- fd_KerrSchild_Kij_trK.c:185-186 -/
noncomputable def ksKij_D1D2 (x : In) : ℝ :=
  (1 / 2) * (DB_D1D2 x + DB_D2D1 x) / x.KS__alpha

/-- fd_KerrSchild_Kij_trK.c:188-189 -/
noncomputable def ksKij_D0D2 (x : In) : ℝ :=
  (1 / 2) * (DB_D0D2 x + DB_D2D0 x) / x.KS__alpha

/-- fd_KerrSchild_Kij_trK.c:191-192 -/
noncomputable def ksKij_D1D1 (x : In) : ℝ :=
  DB_D1D1 x / x.KS__alpha

/-- fd_KerrSchild_Kij_trK.c:194-197 -/
noncomputable def trk (x : In) : ℝ :=
  x.ig_UU 0 0 * ksKij_D0D0 x + 2 * x.ig_UU 0 1 * ksKij_D0D1 x + 2 * x.ig_UU 0 2 * ksKij_D0D2 x + x.ig_UU 1 1 * ksKij_D1D1 x + 2
      * x.ig_UU 1 2 * ksKij_D1D2 x + x.ig_UU 2 2 * ksKij_D2D2 x

/-- fd_KerrSchild_Kij_trK.c:201-206 the values written to Kij_DD; `none`: not stored -/
noncomputable def out_Kij_DD (x : In) : Fin 3 → Fin 3 → Option ℝ
  | 2, 2 => some (ksKij_D2D2 x)
  | 0, 1 => some (ksKij_D0D1 x)
  | 0, 0 => some (ksKij_D0D0 x)
  | 0, 2 => some (ksKij_D0D2 x)
  | 1, 1 => some (ksKij_D1D1 x)
  | 1, 2 => some (ksKij_D1D2 x)
  | _, _ => none

/-- fd_KerrSchild_Kij_trK.c:207 the value written to trKij -/
noncomputable def out_trKij (x : In) : ℝ :=
  trk x

end Elliptica.Gen.KsKij

namespace Elliptica.Gen.PgKij

/-- values at one node read by Src/Main/Modules/Physics/Free_Data/fd_PGSchild_Kij_trK.c -/
structure In where
  dBeta_UD : Fin 3 → Fin 3 → ℝ

/-- fd_PGSchild_Kij_trK.c:18 -/
noncomputable def alpha (x : In) : ℝ :=
  1

/-- fd_PGSchild_Kij_trK.c:42-43 -/
noncomputable def pgKij_D0D0 (x : In) : ℝ :=
  x.dBeta_UD 0 0 / alpha x

/-- fd_PGSchild_Kij_trK.c:45-46 -/
noncomputable def pgKij_D2D2 (x : In) : ℝ :=
  x.dBeta_UD 2 2 / alpha x

/-- fd_PGSchild_Kij_trK.c:48-49 -/
noncomputable def pgKij_D1D1 (x : In) : ℝ :=
  x.dBeta_UD 1 1 / alpha x

/-- fd_PGSchild_Kij_trK.c:51-52 -/
noncomputable def pgKij_D0D1 (x : In) : ℝ :=
  (1 / 2) * (x.dBeta_UD 0 1 + x.dBeta_UD 1 0) / alpha x

/-- fd_PGSchild_Kij_trK.c:54-55 -/
noncomputable def pgKij_D0D2 (x : In) : ℝ :=
  (1 / 2) * (x.dBeta_UD 0 2 + x.dBeta_UD 2 0) / alpha x

/-- fd_PGSchild_Kij_trK.c:57-58 -/
noncomputable def pgKij_D1D2 (x : In) : ℝ :=
  (1 / 2) * (x.dBeta_UD 1 2 + x.dBeta_UD 2 1) / alpha x

/-- fd_PGSchild_Kij_trK.c:60-61 -/
noncomputable def trk (x : In) : ℝ :=
  pgKij_D0D0 x + pgKij_D1D1 x + pgKij_D2D2 x

/-- fd_PGSchild_Kij_trK.c:65-70 the values written to Kij_DD; `none`: not stored -/
noncomputable def out_Kij_DD (x : In) : Fin 3 → Fin 3 → Option ℝ
  | 2, 2 => some (pgKij_D2D2 x)
  | 0, 1 => some (pgKij_D0D1 x)
  | 0, 0 => some (pgKij_D0D0 x)
  | 0, 2 => some (pgKij_D0D2 x)
  | 1, 1 => some (pgKij_D1D1 x)
  | 1, 2 => some (pgKij_D1D2 x)
  | _, _ => none

/-- fd_PGSchild_Kij_trK.c:71 the value written to trKij -/
noncomputable def out_trKij (x : In) : ℝ :=
  trk x

end Elliptica.Gen.PgKij
