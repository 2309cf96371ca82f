import Verif.Model.Gen.KsG
import Verif.Model.Angles
/-!
Model of the Kerr-Schild free data (Src/Main/Modules/Physics/Free_Data): parameters, lapse, shift and surface, over `ℝ`.
The functions X, Y, Z, R, H, K_i, k_i, k_t, c, the metric and their derivatives are in Verif/Model/Gen/Ks*.lean.
-/
namespace Elliptica.Ks
open Elliptica.Fields

/-- fd_KerrSchild_params.c:39-53: the parameters of the hole that are read; not modelled: reading them from the parameter list -/
structure Hole where
  mass : ℝ
  spin : ℝ
  chi : Fin 3 → ℝ
  boost : Fin 3 → ℝ

/-- fd_KerrSchild_params.c:42 the size of the dimensionless spin -/
noncomputable def Hole.chiAbs (h : Hole) : ℝ := √(h.chi 0 ^ 2 + h.chi 1 ^ 2 + h.chi 2 ^ 2)

/-- fd_KerrSchild_params.c:51-54 -/
noncomputable def Hole.b2 (h : Hole) : ℝ := h.boost 0 ^ 2 + h.boost 1 ^ 2 + h.boost 2 ^ 2

/-- fd_KerrSchild_params.c:36-78 `fd_KerrSchild_set_params`; `e` is ROUND_OFF_ERR, `eps` is Epsilon = 1E-14, `lit` the literal
0.707106781186548 of the formulas.  `assert(isfinite(phiy))` holds for real numbers and is left out. -/
noncomputable def setParams (e eps lit : ℝ) (h : Hole) : Res Par :=
  if Tol.lssEql e h.chiAbs 1 then
    let slow := Tol.eql e h.b2 0
    let norot := Tol.eql e h.chiAbs 0
    .ok { M := h.mass, a := h.spin, Lam := 1, lit := lit,
          Bx := if slow then 0 else h.boost 0, By := if slow then 0 else h.boost 1, Bz := if slow then 0 else h.boost 2,
          B2 := if slow then eps else h.b2,
          phiz := if norot then 0 else Angles.arctan e (h.chi 1) (h.chi 0),
          phiy := if norot then 0 else Real.arccos (h.chi 2 / h.chiAbs) }
  else .abort

/-- fd_KerrSchild_alpha.c:59, fd_KerrSchild_Kij_trK.c:114, fd_KerrSchild_psi_alpha_beta.c:88 (there psi = 1): the lapse -/
noncomputable def alpha (P : Par) (q : Pt) : ℝ := 1 / √(1 + c P q * kt P q * kt P q)

/-- fd_KerrSchild_beta.c:69-71, fd_KerrSchild_Kij_trK.c:111-113, fd_KerrSchild_psi_alpha_beta.c:73-75: the covector beta_i -/
noncomputable def betaD (P : Par) (q : Pt) : Fin 3 → ℝ
  | 0 => c P q * kt P q * k0 P q
  | 1 => c P q * kt P q * k1 P q
  | 2 => c P q * kt P q * k2 P q

/-- fd_KerrSchild_beta.c:72-82, fd_KerrSchild_psi_alpha_beta.c:76-86: the shift, with the components U0U0, U0U1, ... of `ig` -/
noncomputable def betaU (P : Par) (q : Pt) (ig : Fin 3 → Fin 3 → ℝ) : Fin 3 → ℝ
  | 0 => betaD P q 0 * ig 0 0 + betaD P q 1 * ig 0 1 + betaD P q 2 * ig 0 2
  | 1 => betaD P q 0 * ig 0 1 + betaD P q 1 * ig 1 1 + betaD P q 2 * ig 1 2
  | 2 => betaD P q 0 * ig 0 2 + betaD P q 1 * ig 1 2 + betaD P q 2 * ig 2 2

/-- fd_KerrSchild_BH_surface.c:13 the value of R taken for the surface of the hole -/
noncomputable def surfaceR (M a : ℝ) : ℝ := M + √(M ^ 2 + a ^ 2)

/-- fd_KerrSchild_BH_surface.c:68-82 `BH_surface_root_finder_eq`: the function whose zero in r is the radius of the surface in the
direction (th, ph) -/
noncomputable def surfaceEq (P : Par) (R0 th ph r : ℝ) : ℝ :=
  R0 - R P ![r * Real.sin th * Real.cos ph, r * Real.sin th * Real.sin ph, r * Real.cos th]

end Elliptica.Ks
