import Verif.Spec.Fields
import Mathlib.Analysis.SpecialFunctions.Trigonometric.Inverse
import Mathlib.Analysis.SpecialFunctions.Sqrt
/-!
Model of the parameters of the Kerr-Schild free data (Src/Main/Modules/Physics/Free_Data).
-/
namespace Elliptica.Ks

/-- Free_Data/fd_KerrSchild_header.h:6-14, fd_KerrSchild_params.c:25-31: the global variables M_BH, a_BH, phiy, phiz, Bx, By, Bz, B2,
Lambda; `lit` is the literal 0.707106781186548 of fd_KerrSchild_R_X_Y_Z.c (1/√2 to 15 digits) -/
structure Par where
  M : ℝ
  a : ℝ
  phiy : ℝ
  phiz : ℝ
  Bx : ℝ
  By : ℝ
  Bz : ℝ
  B2 : ℝ
  Lam : ℝ
  lit : ℝ

end Elliptica.Ks
