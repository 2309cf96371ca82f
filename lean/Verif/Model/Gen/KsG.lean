import Verif.Model.Gen.KsK
/-!
Generated by tools/gen_ks.py from /repo/Src/Main/Modules/Physics/Free_Data/fd_KerrSchild_g_dg_ddg_dddg.c: one definition per C function.
-/
namespace Elliptica.Ks
open Elliptica.Fields

set_option linter.unusedVariables false

-- the same terms as the usual notation, elaborated directly at type ℝ (long expressions elaborate slowly otherwise)
local macro_rules
  | `($x + $y) => `((HAdd.hAdd : ℝ → ℝ → ℝ) $x $y)
  | `($x - $y) => `((HSub.hSub : ℝ → ℝ → ℝ) $x $y)
  | `($x * $y) => `((HMul.hMul : ℝ → ℝ → ℝ) $x $y)
  | `($x / $y) => `((HDiv.hDiv : ℝ → ℝ → ℝ) $x $y)
  | `($x ^ $y) => `((HPow.hPow : ℝ → ℕ → ℝ) $x $y)
  | `(-$x) => `((Neg.neg : ℝ → ℝ) $x)

/-- Free_Data/fd_KerrSchild_g_dg_ddg_dddg.c:78-83 `_gamma_D0D0[ijk]` -/
noncomputable def gamma_D0D0 (P : Par) (q : Pt) : ℝ :=
  c P q * (k0 P q) ^ 2 + 1

/-- Free_Data/fd_KerrSchild_g_dg_ddg_dddg.c:84-90 `_gamma_D0D1[ijk]` -/
noncomputable def gamma_D0D1 (P : Par) (q : Pt) : ℝ :=
  c P q * k0 P q * k1 P q

/-- Free_Data/fd_KerrSchild_g_dg_ddg_dddg.c:91-97 `_gamma_D0D2[ijk]` -/
noncomputable def gamma_D0D2 (P : Par) (q : Pt) : ℝ :=
  c P q * k0 P q * k2 P q

/-- Free_Data/fd_KerrSchild_g_dg_ddg_dddg.c:98-103 `_gamma_D1D1[ijk]` -/
noncomputable def gamma_D1D1 (P : Par) (q : Pt) : ℝ :=
  c P q * (k1 P q) ^ 2 + 1

/-- Free_Data/fd_KerrSchild_g_dg_ddg_dddg.c:104-110 `_gamma_D1D2[ijk]` -/
noncomputable def gamma_D1D2 (P : Par) (q : Pt) : ℝ :=
  c P q * k1 P q * k2 P q

/-- Free_Data/fd_KerrSchild_g_dg_ddg_dddg.c:111-116 `_gamma_D2D2[ijk]` -/
noncomputable def gamma_D2D2 (P : Par) (q : Pt) : ℝ :=
  c P q * (k2 P q) ^ 2 + 1

/-- Free_Data/fd_KerrSchild_g_dg_ddg_dddg.c:228-236 `_dgamma_D0D0D0[ijk]` -/
noncomputable def dgamma_D0D0D0 (P : Par) (q : Pt) : ℝ :=
  (2 * c P q * dk0_D0 P q + k0 P q * dc_D0 P q) * k0 P q

/-- Free_Data/fd_KerrSchild_g_dg_ddg_dddg.c:169-177 `_dgamma_D0D0D1[ijk]` -/
noncomputable def dgamma_D0D0D1 (P : Par) (q : Pt) : ℝ :=
  (2 * c P q * dk0_D1 P q + k0 P q * dc_D1 P q) * k0 P q

/-- Free_Data/fd_KerrSchild_g_dg_ddg_dddg.c:238-246 `_dgamma_D0D0D2[ijk]` -/
noncomputable def dgamma_D0D0D2 (P : Par) (q : Pt) : ℝ :=
  (2 * c P q * dk0_D2 P q + k0 P q * dc_D2 P q) * k0 P q

/-- Free_Data/fd_KerrSchild_g_dg_ddg_dddg.c:192-203 `_dgamma_D0D1D0[ijk]` -/
noncomputable def dgamma_D0D1D0 (P : Par) (q : Pt) : ℝ :=
  c P q * k0 P q * dk1_D0 P q + c P q * k1 P q * dk0_D0 P q + k0 P q * k1 P q * dc_D0 P q

/-- Free_Data/fd_KerrSchild_g_dg_ddg_dddg.c:271-282 `_dgamma_D0D1D1[ijk]` -/
noncomputable def dgamma_D0D1D1 (P : Par) (q : Pt) : ℝ :=
  c P q * k0 P q * dk1_D1 P q + c P q * k1 P q * dk0_D1 P q + k0 P q * k1 P q * dc_D1 P q

/-- Free_Data/fd_KerrSchild_g_dg_ddg_dddg.c:320-331 `_dgamma_D0D1D2[ijk]` -/
noncomputable def dgamma_D0D1D2 (P : Par) (q : Pt) : ℝ :=
  c P q * k0 P q * dk1_D2 P q + c P q * k1 P q * dk0_D2 P q + k0 P q * k1 P q * dc_D2 P q

/-- Free_Data/fd_KerrSchild_g_dg_ddg_dddg.c:284-295 `_dgamma_D0D2D0[ijk]` -/
noncomputable def dgamma_D0D2D0 (P : Par) (q : Pt) : ℝ :=
  c P q * k0 P q * dk2_D0 P q + c P q * k2 P q * dk0_D0 P q + k0 P q * k2 P q * dc_D0 P q

/-- Free_Data/fd_KerrSchild_g_dg_ddg_dddg.c:179-190 `_dgamma_D0D2D1[ijk]` -/
noncomputable def dgamma_D0D2D1 (P : Par) (q : Pt) : ℝ :=
  c P q * k0 P q * dk2_D1 P q + c P q * k2 P q * dk0_D1 P q + k0 P q * k2 P q * dc_D1 P q

/-- Free_Data/fd_KerrSchild_g_dg_ddg_dddg.c:248-259 `_dgamma_D0D2D2[ijk]` -/
noncomputable def dgamma_D0D2D2 (P : Par) (q : Pt) : ℝ :=
  c P q * k0 P q * dk2_D2 P q + c P q * k2 P q * dk0_D2 P q + k0 P q * k2 P q * dc_D2 P q

/-- Free_Data/fd_KerrSchild_g_dg_ddg_dddg.c:333-341 `_dgamma_D1D1D0[ijk]` -/
noncomputable def dgamma_D1D1D0 (P : Par) (q : Pt) : ℝ :=
  (2 * c P q * dk1_D0 P q + k1 P q * dc_D0 P q) * k1 P q

/-- Free_Data/fd_KerrSchild_g_dg_ddg_dddg.c:310-318 `_dgamma_D1D1D1[ijk]` -/
noncomputable def dgamma_D1D1D1 (P : Par) (q : Pt) : ℝ :=
  (2 * c P q * dk1_D1 P q + k1 P q * dc_D1 P q) * k1 P q

/-- Free_Data/fd_KerrSchild_g_dg_ddg_dddg.c:343-351 `_dgamma_D1D1D2[ijk]` -/
noncomputable def dgamma_D1D1D2 (P : Par) (q : Pt) : ℝ :=
  (2 * c P q * dk1_D2 P q + k1 P q * dc_D2 P q) * k1 P q

/-- Free_Data/fd_KerrSchild_g_dg_ddg_dddg.c:297-308 `_dgamma_D1D2D0[ijk]` -/
noncomputable def dgamma_D1D2D0 (P : Par) (q : Pt) : ℝ :=
  c P q * k1 P q * dk2_D0 P q + c P q * k2 P q * dk1_D0 P q + k1 P q * k2 P q * dc_D0 P q

/-- Free_Data/fd_KerrSchild_g_dg_ddg_dddg.c:205-216 `_dgamma_D1D2D1[ijk]` -/
noncomputable def dgamma_D1D2D1 (P : Par) (q : Pt) : ℝ :=
  c P q * k1 P q * dk2_D1 P q + c P q * k2 P q * dk1_D1 P q + k1 P q * k2 P q * dc_D1 P q

/-- Free_Data/fd_KerrSchild_g_dg_ddg_dddg.c:156-167 `_dgamma_D1D2D2[ijk]` -/
noncomputable def dgamma_D1D2D2 (P : Par) (q : Pt) : ℝ :=
  c P q * k1 P q * dk2_D2 P q + c P q * k2 P q * dk1_D2 P q + k1 P q * k2 P q * dc_D2 P q

/-- Free_Data/fd_KerrSchild_g_dg_ddg_dddg.c:218-226 `_dgamma_D2D2D0[ijk]` -/
noncomputable def dgamma_D2D2D0 (P : Par) (q : Pt) : ℝ :=
  (2 * c P q * dk2_D0 P q + k2 P q * dc_D0 P q) * k2 P q

/-- Free_Data/fd_KerrSchild_g_dg_ddg_dddg.c:261-269 `_dgamma_D2D2D1[ijk]` -/
noncomputable def dgamma_D2D2D1 (P : Par) (q : Pt) : ℝ :=
  (2 * c P q * dk2_D1 P q + k2 P q * dc_D1 P q) * k2 P q

/-- Free_Data/fd_KerrSchild_g_dg_ddg_dddg.c:353-361 `_dgamma_D2D2D2[ijk]` -/
noncomputable def dgamma_D2D2D2 (P : Par) (q : Pt) : ℝ :=
  (2 * c P q * dk2_D2 P q + k2 P q * dc_D2 P q) * k2 P q

/-- Free_Data/fd_KerrSchild_g_dg_ddg_dddg.c:739-751 `_ddgamma_D0D0D0D0[ijk]` -/
noncomputable def ddgamma_D0D0D0D0 (P : Par) (q : Pt) : ℝ :=
  2 * c P q * k0 P q * ddk0_D0D0 P q + 2 * c P q * (dk0_D0 P q) ^ 2 + (k0 P q) ^ 2 * ddc_D0D0 P q + 4 * k0 P q * dc_D0 P q * dk0_D0 P q

/-- Free_Data/fd_KerrSchild_g_dg_ddg_dddg.c:557-572 `_ddgamma_D0D0D0D1[ijk]` -/
noncomputable def ddgamma_D0D0D0D1 (P : Par) (q : Pt) : ℝ :=
  2 * c P q * k0 P q * ddk0_D0D1 P q + 2 * c P q * dk0_D0 P q * dk0_D1 P q + (k0 P q) ^ 2 * ddc_D0D1 P q + 2 * k0 P q * dc_D0 P q * dk0_D1 P q + 2 * k0 P q * dc_D1 P q *
    dk0_D0 P q

/-- Free_Data/fd_KerrSchild_g_dg_ddg_dddg.c:1027-1042 `_ddgamma_D0D0D0D2[ijk]` -/
noncomputable def ddgamma_D0D0D0D2 (P : Par) (q : Pt) : ℝ :=
  2 * c P q * k0 P q * ddk0_D0D2 P q + 2 * c P q * dk0_D0 P q * dk0_D2 P q + (k0 P q) ^ 2 * ddc_D0D2 P q + 2 * k0 P q * dc_D0 P q * dk0_D2 P q + 2 * k0 P q * dc_D2 P q *
    dk0_D0 P q

/-- Free_Data/fd_KerrSchild_g_dg_ddg_dddg.c:523-538 `_ddgamma_D0D0D1D0[ijk]` -/
noncomputable def ddgamma_D0D0D1D0 (P : Par) (q : Pt) : ℝ :=
  2 * c P q * k0 P q * ddk0_D0D1 P q + 2 * c P q * dk0_D0 P q * dk0_D1 P q + (k0 P q) ^ 2 * ddc_D0D1 P q + 2 * k0 P q * dc_D0 P q * dk0_D1 P q + 2 * k0 P q * dc_D1 P q *
    dk0_D0 P q

/-- Free_Data/fd_KerrSchild_g_dg_ddg_dddg.c:753-765 `_ddgamma_D0D0D1D1[ijk]` -/
noncomputable def ddgamma_D0D0D1D1 (P : Par) (q : Pt) : ℝ :=
  2 * c P q * k0 P q * ddk0_D1D1 P q + 2 * c P q * (dk0_D1 P q) ^ 2 + (k0 P q) ^ 2 * ddc_D1D1 P q + 4 * k0 P q * dc_D1 P q * dk0_D1 P q

/-- Free_Data/fd_KerrSchild_g_dg_ddg_dddg.c:1416-1431 `_ddgamma_D0D0D1D2[ijk]` -/
noncomputable def ddgamma_D0D0D1D2 (P : Par) (q : Pt) : ℝ :=
  2 * c P q * k0 P q * ddk0_D1D2 P q + 2 * c P q * dk0_D1 P q * dk0_D2 P q + (k0 P q) ^ 2 * ddc_D1D2 P q + 2 * k0 P q * dc_D1 P q * dk0_D2 P q + 2 * k0 P q * dc_D2 P q *
    dk0_D1 P q

/-- Free_Data/fd_KerrSchild_g_dg_ddg_dddg.c:630-645 `_ddgamma_D0D0D2D0[ijk]` -/
noncomputable def ddgamma_D0D0D2D0 (P : Par) (q : Pt) : ℝ :=
  2 * c P q * k0 P q * ddk0_D0D2 P q + 2 * c P q * dk0_D0 P q * dk0_D2 P q + (k0 P q) ^ 2 * ddc_D0D2 P q + 2 * k0 P q * dc_D0 P q * dk0_D2 P q + 2 * k0 P q * dc_D2 P q *
    dk0_D0 P q

/-- Free_Data/fd_KerrSchild_g_dg_ddg_dddg.c:1338-1353 `_ddgamma_D0D0D2D1[ijk]` -/
noncomputable def ddgamma_D0D0D2D1 (P : Par) (q : Pt) : ℝ :=
  2 * c P q * k0 P q * ddk0_D1D2 P q + 2 * c P q * dk0_D1 P q * dk0_D2 P q + (k0 P q) ^ 2 * ddc_D1D2 P q + 2 * k0 P q * dc_D1 P q * dk0_D2 P q + 2 * k0 P q * dc_D2 P q *
    dk0_D1 P q

/-- Free_Data/fd_KerrSchild_g_dg_ddg_dddg.c:588-600 `_ddgamma_D0D0D2D2[ijk]` -/
noncomputable def ddgamma_D0D0D2D2 (P : Par) (q : Pt) : ℝ :=
  2 * c P q * k0 P q * ddk0_D2D2 P q + 2 * c P q * (dk0_D2 P q) ^ 2 + (k0 P q) ^ 2 * ddc_D2D2 P q + 4 * k0 P q * dc_D2 P q * dk0_D2 P q

/-- Free_Data/fd_KerrSchild_g_dg_ddg_dddg.c:1119-1136 `_ddgamma_D0D1D0D0[ijk]` -/
noncomputable def ddgamma_D0D1D0D0 (P : Par) (q : Pt) : ℝ :=
  c P q * k0 P q * ddk1_D0D0 P q + c P q * k1 P q * ddk0_D0D0 P q + 2 * c P q * dk0_D0 P q * dk1_D0 P q + k0 P q * k1 P q * ddc_D0D0 P q + 2 * k0 P q * dc_D0 P q * dk1_D0
    P q + 2 * k1 P q * dc_D0 P q * dk0_D0 P q

/-- Free_Data/fd_KerrSchild_g_dg_ddg_dddg.c:456-479 `_ddgamma_D0D1D0D1[ijk]` -/
noncomputable def ddgamma_D0D1D0D1 (P : Par) (q : Pt) : ℝ :=
  c P q * k0 P q * ddk1_D0D1 P q + c P q * k1 P q * ddk0_D0D1 P q + c P q * dk0_D0 P q * dk1_D1 P q + c P q * dk0_D1 P q * dk1_D0 P q + k0 P q * k1 P q * ddc_D0D1 P q +
    k0 P q * dc_D0 P q * dk1_D1 P q + k0 P q * dc_D1 P q * dk1_D0 P q + k1 P q * dc_D0 P q * dk0_D1 P q + k1 P q * dc_D1 P q * dk0_D0 P q

/-- Free_Data/fd_KerrSchild_g_dg_ddg_dddg.c:767-790 `_ddgamma_D0D1D0D2[ijk]` -/
noncomputable def ddgamma_D0D1D0D2 (P : Par) (q : Pt) : ℝ :=
  c P q * k0 P q * ddk1_D0D2 P q + c P q * k1 P q * ddk0_D0D2 P q + c P q * dk0_D0 P q * dk1_D2 P q + c P q * dk0_D2 P q * dk1_D0 P q + k0 P q * k1 P q * ddc_D0D2 P q +
    k0 P q * dc_D0 P q * dk1_D2 P q + k0 P q * dc_D2 P q * dk1_D0 P q + k1 P q * dc_D0 P q * dk0_D2 P q + k1 P q * dc_D2 P q * dk0_D0 P q

/-- Free_Data/fd_KerrSchild_g_dg_ddg_dddg.c:916-939 `_ddgamma_D0D1D1D0[ijk]` -/
noncomputable def ddgamma_D0D1D1D0 (P : Par) (q : Pt) : ℝ :=
  c P q * k0 P q * ddk1_D0D1 P q + c P q * k1 P q * ddk0_D0D1 P q + c P q * dk0_D0 P q * dk1_D1 P q + c P q * dk0_D1 P q * dk1_D0 P q + k0 P q * k1 P q * ddc_D0D1 P q +
    k0 P q * dc_D0 P q * dk1_D1 P q + k0 P q * dc_D1 P q * dk1_D0 P q + k1 P q * dc_D0 P q * dk0_D1 P q + k1 P q * dc_D1 P q * dk0_D0 P q

/-- Free_Data/fd_KerrSchild_g_dg_ddg_dddg.c:1244-1261 `_ddgamma_D0D1D1D1[ijk]` -/
noncomputable def ddgamma_D0D1D1D1 (P : Par) (q : Pt) : ℝ :=
  c P q * k0 P q * ddk1_D1D1 P q + c P q * k1 P q * ddk0_D1D1 P q + 2 * c P q * dk0_D1 P q * dk1_D1 P q + k0 P q * k1 P q * ddc_D1D1 P q + 2 * k0 P q * dc_D1 P q * dk1_D1
    P q + 2 * k1 P q * dc_D1 P q * dk0_D1 P q

/-- Free_Data/fd_KerrSchild_g_dg_ddg_dddg.c:1202-1225 `_ddgamma_D0D1D1D2[ijk]` -/
noncomputable def ddgamma_D0D1D1D2 (P : Par) (q : Pt) : ℝ :=
  c P q * k0 P q * ddk1_D1D2 P q + c P q * k1 P q * ddk0_D1D2 P q + c P q * dk0_D1 P q * dk1_D2 P q + c P q * dk0_D2 P q * dk1_D1 P q + k0 P q * k1 P q * ddc_D1D2 P q +
    k0 P q * dc_D1 P q * dk1_D2 P q + k0 P q * dc_D2 P q * dk1_D1 P q + k1 P q * dc_D1 P q * dk0_D2 P q + k1 P q * dc_D2 P q * dk0_D1 P q

/-- Free_Data/fd_KerrSchild_g_dg_ddg_dddg.c:866-889 `_ddgamma_D0D1D2D0[ijk]` -/
noncomputable def ddgamma_D0D1D2D0 (P : Par) (q : Pt) : ℝ :=
  c P q * k0 P q * ddk1_D0D2 P q + c P q * k1 P q * ddk0_D0D2 P q + c P q * dk0_D0 P q * dk1_D2 P q + c P q * dk0_D2 P q * dk1_D0 P q + k0 P q * k1 P q * ddc_D0D2 P q +
    k0 P q * dc_D0 P q * dk1_D2 P q + k0 P q * dc_D2 P q * dk1_D0 P q + k1 P q * dc_D0 P q * dk0_D2 P q + k1 P q * dc_D2 P q * dk0_D0 P q

/-- Free_Data/fd_KerrSchild_g_dg_ddg_dddg.c:1177-1200 `_ddgamma_D0D1D2D1[ijk]` -/
noncomputable def ddgamma_D0D1D2D1 (P : Par) (q : Pt) : ℝ :=
  c P q * k0 P q * ddk1_D1D2 P q + c P q * k1 P q * ddk0_D1D2 P q + c P q * dk0_D1 P q * dk1_D2 P q + c P q * dk0_D2 P q * dk1_D1 P q + k0 P q * k1 P q * ddc_D1D2 P q +
    k0 P q * dc_D1 P q * dk1_D2 P q + k0 P q * dc_D2 P q * dk1_D1 P q + k1 P q * dc_D1 P q * dk0_D2 P q + k1 P q * dc_D2 P q * dk0_D1 P q

/-- Free_Data/fd_KerrSchild_g_dg_ddg_dddg.c:1305-1322 `_ddgamma_D0D1D2D2[ijk]` -/
noncomputable def ddgamma_D0D1D2D2 (P : Par) (q : Pt) : ℝ :=
  c P q * k0 P q * ddk1_D2D2 P q + c P q * k1 P q * ddk0_D2D2 P q + 2 * c P q * dk0_D2 P q * dk1_D2 P q + k0 P q * k1 P q * ddc_D2D2 P q + 2 * k0 P q * dc_D2 P q * dk1_D2
    P q + 2 * k1 P q * dc_D2 P q * dk0_D2 P q

/-- Free_Data/fd_KerrSchild_g_dg_ddg_dddg.c:1061-1078 `_ddgamma_D0D2D0D0[ijk]` -/
noncomputable def ddgamma_D0D2D0D0 (P : Par) (q : Pt) : ℝ :=
  c P q * k0 P q * ddk2_D0D0 P q + c P q * k2 P q * ddk0_D0D0 P q + 2 * c P q * dk0_D0 P q * dk2_D0 P q + k0 P q * k2 P q * ddc_D0D0 P q + 2 * k0 P q * dc_D0 P q * dk2_D0
    P q + 2 * k2 P q * dc_D0 P q * dk0_D0 P q

/-- Free_Data/fd_KerrSchild_g_dg_ddg_dddg.c:1080-1103 `_ddgamma_D0D2D0D1[ijk]` -/
noncomputable def ddgamma_D0D2D0D1 (P : Par) (q : Pt) : ℝ :=
  c P q * k0 P q * ddk2_D0D1 P q + c P q * k2 P q * ddk0_D0D1 P q + c P q * dk0_D0 P q * dk2_D1 P q + c P q * dk0_D1 P q * dk2_D0 P q + k0 P q * k2 P q * ddc_D0D1 P q +
    k0 P q * dc_D0 P q * dk2_D1 P q + k0 P q * dc_D1 P q * dk2_D0 P q + k2 P q * dc_D0 P q * dk0_D1 P q + k2 P q * dc_D1 P q * dk0_D0 P q

/-- Free_Data/fd_KerrSchild_g_dg_ddg_dddg.c:1433-1456 `_ddgamma_D0D2D0D2[ijk]` -/
noncomputable def ddgamma_D0D2D0D2 (P : Par) (q : Pt) : ℝ :=
  c P q * k0 P q * ddk2_D0D2 P q + c P q * k2 P q * ddk0_D0D2 P q + c P q * dk0_D0 P q * dk2_D2 P q + c P q * dk0_D2 P q * dk2_D0 P q + k0 P q * k2 P q * ddc_D0D2 P q +
    k0 P q * dc_D0 P q * dk2_D2 P q + k0 P q * dc_D2 P q * dk2_D0 P q + k2 P q * dc_D0 P q * dk0_D2 P q + k2 P q * dc_D2 P q * dk0_D0 P q

/-- Free_Data/fd_KerrSchild_g_dg_ddg_dddg.c:1263-1286 `_ddgamma_D0D2D1D0[ijk]` -/
noncomputable def ddgamma_D0D2D1D0 (P : Par) (q : Pt) : ℝ :=
  c P q * k0 P q * ddk2_D0D1 P q + c P q * k2 P q * ddk0_D0D1 P q + c P q * dk0_D0 P q * dk2_D1 P q + c P q * dk0_D1 P q * dk2_D0 P q + k0 P q * k2 P q * ddc_D0D1 P q +
    k0 P q * dc_D0 P q * dk2_D1 P q + k0 P q * dc_D1 P q * dk2_D0 P q + k2 P q * dc_D0 P q * dk0_D1 P q + k2 P q * dc_D1 P q * dk0_D0 P q

/-- Free_Data/fd_KerrSchild_g_dg_ddg_dddg.c:811-828 `_ddgamma_D0D2D1D1[ijk]` -/
noncomputable def ddgamma_D0D2D1D1 (P : Par) (q : Pt) : ℝ :=
  c P q * k0 P q * ddk2_D1D1 P q + c P q * k2 P q * ddk0_D1D1 P q + 2 * c P q * dk0_D1 P q * dk2_D1 P q + k0 P q * k2 P q * ddc_D1D1 P q + 2 * k0 P q * dc_D1 P q * dk2_D1
    P q + 2 * k2 P q * dc_D1 P q * dk0_D1 P q

/-- Free_Data/fd_KerrSchild_g_dg_ddg_dddg.c:1152-1175 `_ddgamma_D0D2D1D2[ijk]` -/
noncomputable def ddgamma_D0D2D1D2 (P : Par) (q : Pt) : ℝ :=
  c P q * k0 P q * ddk2_D1D2 P q + c P q * k2 P q * ddk0_D1D2 P q + c P q * dk0_D1 P q * dk2_D2 P q + c P q * dk0_D2 P q * dk2_D1 P q + k0 P q * k2 P q * ddc_D1D2 P q +
    k0 P q * dc_D1 P q * dk2_D2 P q + k0 P q * dc_D2 P q * dk2_D1 P q + k2 P q * dc_D1 P q * dk0_D2 P q + k2 P q * dc_D2 P q * dk0_D1 P q

/-- Free_Data/fd_KerrSchild_g_dg_ddg_dddg.c:891-914 `_ddgamma_D0D2D2D0[ijk]` -/
noncomputable def ddgamma_D0D2D2D0 (P : Par) (q : Pt) : ℝ :=
  c P q * k0 P q * ddk2_D0D2 P q + c P q * k2 P q * ddk0_D0D2 P q + c P q * dk0_D0 P q * dk2_D2 P q + c P q * dk0_D2 P q * dk2_D0 P q + k0 P q * k2 P q * ddc_D0D2 P q +
    k0 P q * dc_D0 P q * dk2_D2 P q + k0 P q * dc_D2 P q * dk2_D0 P q + k2 P q * dc_D0 P q * dk0_D2 P q + k2 P q * dc_D2 P q * dk0_D0 P q

/-- Free_Data/fd_KerrSchild_g_dg_ddg_dddg.c:647-670 `_ddgamma_D0D2D2D1[ijk]` -/
noncomputable def ddgamma_D0D2D2D1 (P : Par) (q : Pt) : ℝ :=
  c P q * k0 P q * ddk2_D1D2 P q + c P q * k2 P q * ddk0_D1D2 P q + c P q * dk0_D1 P q * dk2_D2 P q + c P q * dk0_D2 P q * dk2_D1 P q + k0 P q * k2 P q * ddc_D1D2 P q +
    k0 P q * dc_D1 P q * dk2_D2 P q + k0 P q * dc_D2 P q * dk2_D1 P q + k2 P q * dc_D1 P q * dk0_D2 P q + k2 P q * dc_D2 P q * dk0_D1 P q

/-- Free_Data/fd_KerrSchild_g_dg_ddg_dddg.c:1355-1372 `_ddgamma_D0D2D2D2[ijk]` -/
noncomputable def ddgamma_D0D2D2D2 (P : Par) (q : Pt) : ℝ :=
  c P q * k0 P q * ddk2_D2D2 P q + c P q * k2 P q * ddk0_D2D2 P q + 2 * c P q * dk0_D2 P q * dk2_D2 P q + k0 P q * k2 P q * ddc_D2D2 P q + 2 * k0 P q * dc_D2 P q * dk2_D2
    P q + 2 * k2 P q * dc_D2 P q * dk0_D2 P q

/-- Free_Data/fd_KerrSchild_g_dg_ddg_dddg.c:574-586 `_ddgamma_D1D1D0D0[ijk]` -/
noncomputable def ddgamma_D1D1D0D0 (P : Par) (q : Pt) : ℝ :=
  2 * c P q * k1 P q * ddk1_D0D0 P q + 2 * c P q * (dk1_D0 P q) ^ 2 + (k1 P q) ^ 2 * ddc_D0D0 P q + 4 * k1 P q * dc_D0 P q * dk1_D0 P q

/-- Free_Data/fd_KerrSchild_g_dg_ddg_dddg.c:481-496 `_ddgamma_D1D1D0D1[ijk]` -/
noncomputable def ddgamma_D1D1D0D1 (P : Par) (q : Pt) : ℝ :=
  2 * c P q * k1 P q * ddk1_D0D1 P q + 2 * c P q * dk1_D0 P q * dk1_D1 P q + (k1 P q) ^ 2 * ddc_D0D1 P q + 2 * k1 P q * dc_D0 P q * dk1_D1 P q + 2 * k1 P q * dc_D1 P q *
    dk1_D0 P q

/-- Free_Data/fd_KerrSchild_g_dg_ddg_dddg.c:1458-1473 `_ddgamma_D1D1D0D2[ijk]` -/
noncomputable def ddgamma_D1D1D0D2 (P : Par) (q : Pt) : ℝ :=
  2 * c P q * k1 P q * ddk1_D0D2 P q + 2 * c P q * dk1_D0 P q * dk1_D2 P q + (k1 P q) ^ 2 * ddc_D0D2 P q + 2 * k1 P q * dc_D0 P q * dk1_D2 P q + 2 * k1 P q * dc_D2 P q *
    dk1_D0 P q

/-- Free_Data/fd_KerrSchild_g_dg_ddg_dddg.c:966-981 `_ddgamma_D1D1D1D0[ijk]` -/
noncomputable def ddgamma_D1D1D1D0 (P : Par) (q : Pt) : ℝ :=
  2 * c P q * k1 P q * ddk1_D0D1 P q + 2 * c P q * dk1_D0 P q * dk1_D1 P q + (k1 P q) ^ 2 * ddc_D0D1 P q + 2 * k1 P q * dc_D0 P q * dk1_D1 P q + 2 * k1 P q * dc_D1 P q *
    dk1_D0 P q

/-- Free_Data/fd_KerrSchild_g_dg_ddg_dddg.c:1105-1117 `_ddgamma_D1D1D1D1[ijk]` -/
noncomputable def ddgamma_D1D1D1D1 (P : Par) (q : Pt) : ℝ :=
  2 * c P q * k1 P q * ddk1_D1D1 P q + 2 * c P q * (dk1_D1 P q) ^ 2 + (k1 P q) ^ 2 * ddc_D1D1 P q + 4 * k1 P q * dc_D1 P q * dk1_D1 P q

/-- Free_Data/fd_KerrSchild_g_dg_ddg_dddg.c:1374-1389 `_ddgamma_D1D1D1D2[ijk]` -/
noncomputable def ddgamma_D1D1D1D2 (P : Par) (q : Pt) : ℝ :=
  2 * c P q * k1 P q * ddk1_D1D2 P q + 2 * c P q * dk1_D1 P q * dk1_D2 P q + (k1 P q) ^ 2 * ddc_D1D2 P q + 2 * k1 P q * dc_D1 P q * dk1_D2 P q + 2 * k1 P q * dc_D2 P q *
    dk1_D1 P q

/-- Free_Data/fd_KerrSchild_g_dg_ddg_dddg.c:540-555 `_ddgamma_D1D1D2D0[ijk]` -/
noncomputable def ddgamma_D1D1D2D0 (P : Par) (q : Pt) : ℝ :=
  2 * c P q * k1 P q * ddk1_D0D2 P q + 2 * c P q * dk1_D0 P q * dk1_D2 P q + (k1 P q) ^ 2 * ddc_D0D2 P q + 2 * k1 P q * dc_D0 P q * dk1_D2 P q + 2 * k1 P q * dc_D2 P q *
    dk1_D0 P q

/-- Free_Data/fd_KerrSchild_g_dg_ddg_dddg.c:1227-1242 `_ddgamma_D1D1D2D1[ijk]` -/
noncomputable def ddgamma_D1D1D2D1 (P : Par) (q : Pt) : ℝ :=
  2 * c P q * k1 P q * ddk1_D1D2 P q + 2 * c P q * dk1_D1 P q * dk1_D2 P q + (k1 P q) ^ 2 * ddc_D1D2 P q + 2 * k1 P q * dc_D1 P q * dk1_D2 P q + 2 * k1 P q * dc_D2 P q *
    dk1_D1 P q

/-- Free_Data/fd_KerrSchild_g_dg_ddg_dddg.c:1138-1150 `_ddgamma_D1D1D2D2[ijk]` -/
noncomputable def ddgamma_D1D1D2D2 (P : Par) (q : Pt) : ℝ :=
  2 * c P q * k1 P q * ddk1_D2D2 P q + 2 * c P q * (dk1_D2 P q) ^ 2 + (k1 P q) ^ 2 * ddc_D2D2 P q + 4 * k1 P q * dc_D2 P q * dk1_D2 P q

/-- Free_Data/fd_KerrSchild_g_dg_ddg_dddg.c:1008-1025 `_ddgamma_D1D2D0D0[ijk]` -/
noncomputable def ddgamma_D1D2D0D0 (P : Par) (q : Pt) : ℝ :=
  c P q * k1 P q * ddk2_D0D0 P q + c P q * k2 P q * ddk1_D0D0 P q + 2 * c P q * dk1_D0 P q * dk2_D0 P q + k1 P q * k2 P q * ddc_D0D0 P q + 2 * k1 P q * dc_D0 P q * dk2_D0
    P q + 2 * k2 P q * dc_D0 P q * dk1_D0 P q

/-- Free_Data/fd_KerrSchild_g_dg_ddg_dddg.c:498-521 `_ddgamma_D1D2D0D1[ijk]` -/
noncomputable def ddgamma_D1D2D0D1 (P : Par) (q : Pt) : ℝ :=
  c P q * k1 P q * ddk2_D0D1 P q + c P q * k2 P q * ddk1_D0D1 P q + c P q * dk1_D0 P q * dk2_D1 P q + c P q * dk1_D1 P q * dk2_D0 P q + k1 P q * k2 P q * ddc_D0D1 P q +
    k1 P q * dc_D0 P q * dk2_D1 P q + k1 P q * dc_D1 P q * dk2_D0 P q + k2 P q * dc_D0 P q * dk1_D1 P q + k2 P q * dc_D1 P q * dk1_D0 P q

/-- Free_Data/fd_KerrSchild_g_dg_ddg_dddg.c:672-695 `_ddgamma_D1D2D0D2[ijk]` -/
noncomputable def ddgamma_D1D2D0D2 (P : Par) (q : Pt) : ℝ :=
  c P q * k1 P q * ddk2_D0D2 P q + c P q * k2 P q * ddk1_D0D2 P q + c P q * dk1_D0 P q * dk2_D2 P q + c P q * dk1_D2 P q * dk2_D0 P q + k1 P q * k2 P q * ddc_D0D2 P q +
    k1 P q * dc_D0 P q * dk2_D2 P q + k1 P q * dc_D2 P q * dk2_D0 P q + k2 P q * dc_D0 P q * dk1_D2 P q + k2 P q * dc_D2 P q * dk1_D0 P q

/-- Free_Data/fd_KerrSchild_g_dg_ddg_dddg.c:697-720 `_ddgamma_D1D2D1D0[ijk]` -/
noncomputable def ddgamma_D1D2D1D0 (P : Par) (q : Pt) : ℝ :=
  c P q * k1 P q * ddk2_D0D1 P q + c P q * k2 P q * ddk1_D0D1 P q + c P q * dk1_D0 P q * dk2_D1 P q + c P q * dk1_D1 P q * dk2_D0 P q + k1 P q * k2 P q * ddc_D0D1 P q +
    k1 P q * dc_D0 P q * dk2_D1 P q + k1 P q * dc_D1 P q * dk2_D0 P q + k2 P q * dc_D0 P q * dk1_D1 P q + k2 P q * dc_D1 P q * dk1_D0 P q

/-- Free_Data/fd_KerrSchild_g_dg_ddg_dddg.c:792-809 `_ddgamma_D1D2D1D1[ijk]` -/
noncomputable def ddgamma_D1D2D1D1 (P : Par) (q : Pt) : ℝ :=
  c P q * k1 P q * ddk2_D1D1 P q + c P q * k2 P q * ddk1_D1D1 P q + 2 * c P q * dk1_D1 P q * dk2_D1 P q + k1 P q * k2 P q * ddc_D1D1 P q + 2 * k1 P q * dc_D1 P q * dk2_D1
    P q + 2 * k2 P q * dc_D1 P q * dk1_D1 P q

/-- Free_Data/fd_KerrSchild_g_dg_ddg_dddg.c:983-1006 `_ddgamma_D1D2D1D2[ijk]` -/
noncomputable def ddgamma_D1D2D1D2 (P : Par) (q : Pt) : ℝ :=
  c P q * k1 P q * ddk2_D1D2 P q + c P q * k2 P q * ddk1_D1D2 P q + c P q * dk1_D1 P q * dk2_D2 P q + c P q * dk1_D2 P q * dk2_D1 P q + k1 P q * k2 P q * ddc_D1D2 P q +
    k1 P q * dc_D1 P q * dk2_D2 P q + k1 P q * dc_D2 P q * dk2_D1 P q + k2 P q * dc_D1 P q * dk1_D2 P q + k2 P q * dc_D2 P q * dk1_D1 P q

/-- Free_Data/fd_KerrSchild_g_dg_ddg_dddg.c:941-964 `_ddgamma_D1D2D2D0[ijk]` -/
noncomputable def ddgamma_D1D2D2D0 (P : Par) (q : Pt) : ℝ :=
  c P q * k1 P q * ddk2_D0D2 P q + c P q * k2 P q * ddk1_D0D2 P q + c P q * dk1_D0 P q * dk2_D2 P q + c P q * dk1_D2 P q * dk2_D0 P q + k1 P q * k2 P q * ddc_D0D2 P q +
    k1 P q * dc_D0 P q * dk2_D2 P q + k1 P q * dc_D2 P q * dk2_D0 P q + k2 P q * dc_D0 P q * dk1_D2 P q + k2 P q * dc_D2 P q * dk1_D0 P q

/-- Free_Data/fd_KerrSchild_g_dg_ddg_dddg.c:1391-1414 `_ddgamma_D1D2D2D1[ijk]` -/
noncomputable def ddgamma_D1D2D2D1 (P : Par) (q : Pt) : ℝ :=
  c P q * k1 P q * ddk2_D1D2 P q + c P q * k2 P q * ddk1_D1D2 P q + c P q * dk1_D1 P q * dk2_D2 P q + c P q * dk1_D2 P q * dk2_D1 P q + k1 P q * k2 P q * ddc_D1D2 P q +
    k1 P q * dc_D1 P q * dk2_D2 P q + k1 P q * dc_D2 P q * dk2_D1 P q + k2 P q * dc_D1 P q * dk1_D2 P q + k2 P q * dc_D2 P q * dk1_D1 P q

/-- Free_Data/fd_KerrSchild_g_dg_ddg_dddg.c:830-847 `_ddgamma_D1D2D2D2[ijk]` -/
noncomputable def ddgamma_D1D2D2D2 (P : Par) (q : Pt) : ℝ :=
  c P q * k1 P q * ddk2_D2D2 P q + c P q * k2 P q * ddk1_D2D2 P q + 2 * c P q * dk1_D2 P q * dk2_D2 P q + k1 P q * k2 P q * ddc_D2D2 P q + 2 * k1 P q * dc_D2 P q * dk2_D2
    P q + 2 * k2 P q * dc_D2 P q * dk1_D2 P q

/-- Free_Data/fd_KerrSchild_g_dg_ddg_dddg.c:1324-1336 `_ddgamma_D2D2D0D0[ijk]` -/
noncomputable def ddgamma_D2D2D0D0 (P : Par) (q : Pt) : ℝ :=
  2 * c P q * k2 P q * ddk2_D0D0 P q + 2 * c P q * (dk2_D0 P q) ^ 2 + (k2 P q) ^ 2 * ddc_D0D0 P q + 4 * k2 P q * dc_D0 P q * dk2_D0 P q

/-- Free_Data/fd_KerrSchild_g_dg_ddg_dddg.c:1475-1490 `_ddgamma_D2D2D0D1[ijk]` -/
noncomputable def ddgamma_D2D2D0D1 (P : Par) (q : Pt) : ℝ :=
  2 * c P q * k2 P q * ddk2_D0D1 P q + 2 * c P q * dk2_D0 P q * dk2_D1 P q + (k2 P q) ^ 2 * ddc_D0D1 P q + 2 * k2 P q * dc_D0 P q * dk2_D1 P q + 2 * k2 P q * dc_D1 P q *
    dk2_D0 P q

/-- Free_Data/fd_KerrSchild_g_dg_ddg_dddg.c:439-454 `_ddgamma_D2D2D0D2[ijk]` -/
noncomputable def ddgamma_D2D2D0D2 (P : Par) (q : Pt) : ℝ :=
  2 * c P q * k2 P q * ddk2_D0D2 P q + 2 * c P q * dk2_D0 P q * dk2_D2 P q + (k2 P q) ^ 2 * ddc_D0D2 P q + 2 * k2 P q * dc_D0 P q * dk2_D2 P q + 2 * k2 P q * dc_D2 P q *
    dk2_D0 P q

/-- Free_Data/fd_KerrSchild_g_dg_ddg_dddg.c:1288-1303 `_ddgamma_D2D2D1D0[ijk]` -/
noncomputable def ddgamma_D2D2D1D0 (P : Par) (q : Pt) : ℝ :=
  2 * c P q * k2 P q * ddk2_D0D1 P q + 2 * c P q * dk2_D0 P q * dk2_D1 P q + (k2 P q) ^ 2 * ddc_D0D1 P q + 2 * k2 P q * dc_D0 P q * dk2_D1 P q + 2 * k2 P q * dc_D1 P q *
    dk2_D0 P q

/-- Free_Data/fd_KerrSchild_g_dg_ddg_dddg.c:602-614 `_ddgamma_D2D2D1D1[ijk]` -/
noncomputable def ddgamma_D2D2D1D1 (P : Par) (q : Pt) : ℝ :=
  2 * c P q * k2 P q * ddk2_D1D1 P q + 2 * c P q * (dk2_D1 P q) ^ 2 + (k2 P q) ^ 2 * ddc_D1D1 P q + 4 * k2 P q * dc_D1 P q * dk2_D1 P q

/-- Free_Data/fd_KerrSchild_g_dg_ddg_dddg.c:849-864 `_ddgamma_D2D2D1D2[ijk]` -/
noncomputable def ddgamma_D2D2D1D2 (P : Par) (q : Pt) : ℝ :=
  2 * c P q * k2 P q * ddk2_D1D2 P q + 2 * c P q * dk2_D1 P q * dk2_D2 P q + (k2 P q) ^ 2 * ddc_D1D2 P q + 2 * k2 P q * dc_D1 P q * dk2_D2 P q + 2 * k2 P q * dc_D2 P q *
    dk2_D1 P q

/-- Free_Data/fd_KerrSchild_g_dg_ddg_dddg.c:722-737 `_ddgamma_D2D2D2D0[ijk]` -/
noncomputable def ddgamma_D2D2D2D0 (P : Par) (q : Pt) : ℝ :=
  2 * c P q * k2 P q * ddk2_D0D2 P q + 2 * c P q * dk2_D0 P q * dk2_D2 P q + (k2 P q) ^ 2 * ddc_D0D2 P q + 2 * k2 P q * dc_D0 P q * dk2_D2 P q + 2 * k2 P q * dc_D2 P q *
    dk2_D0 P q

/-- Free_Data/fd_KerrSchild_g_dg_ddg_dddg.c:1044-1059 `_ddgamma_D2D2D2D1[ijk]` -/
noncomputable def ddgamma_D2D2D2D1 (P : Par) (q : Pt) : ℝ :=
  2 * c P q * k2 P q * ddk2_D1D2 P q + 2 * c P q * dk2_D1 P q * dk2_D2 P q + (k2 P q) ^ 2 * ddc_D1D2 P q + 2 * k2 P q * dc_D1 P q * dk2_D2 P q + 2 * k2 P q * dc_D2 P q *
    dk2_D1 P q

/-- Free_Data/fd_KerrSchild_g_dg_ddg_dddg.c:616-628 `_ddgamma_D2D2D2D2[ijk]` -/
noncomputable def ddgamma_D2D2D2D2 (P : Par) (q : Pt) : ℝ :=
  2 * c P q * k2 P q * ddk2_D2D2 P q + 2 * c P q * (dk2_D2 P q) ^ 2 + (k2 P q) ^ 2 * ddc_D2D2 P q + 4 * k2 P q * dc_D2 P q * dk2_D2 P q

/-- Free_Data/fd_KerrSchild_g_dg_ddg_dddg.c:4003-4019 `_dddgamma_D0D0D0D0D0[ijk]` -/
noncomputable def dddgamma_D0D0D0D0D0 (P : Par) (q : Pt) : ℝ :=
  2 * c P q * k0 P q * dddk0_D0D0D0 P q + 6 * c P q * dk0_D0 P q * ddk0_D0D0 P q + (k0 P q) ^ 2 * dddc_D0D0D0 P q + 6 * k0 P q * dc_D0 P q * ddk0_D0D0 P q + 6 * k0 P q *
    ddc_D0D0 P q * dk0_D0 P q + 6 * dc_D0 P q * (dk0_D0 P q) ^ 2

/-- Free_Data/fd_KerrSchild_g_dg_ddg_dddg.c:5094-5119 `_dddgamma_D0D0D0D0D1[ijk]` -/
noncomputable def dddgamma_D0D0D0D0D1 (P : Par) (q : Pt) : ℝ :=
  2 * c P q * k0 P q * dddk0_D0D0D1 P q + 4 * c P q * dk0_D0 P q * ddk0_D0D1 P q + 2 * c P q * ddk0_D0D0 P q * dk0_D1 P q + (k0 P q) ^ 2 * dddc_D0D0D1 P q + 4 * k0 P q *
    dc_D0 P q * ddk0_D0D1 P q + 2 * k0 P q * ddc_D0D0 P q * dk0_D1 P q + 2 * k0 P q * dc_D1 P q * ddk0_D0D0 P q + 4 * k0 P q * dk0_D0 P q * ddc_D0D1 P q + 4 * dc_D0 P q *
    dk0_D0 P q * dk0_D1 P q + 2 * dc_D1 P q * (dk0_D0 P q) ^ 2

/-- Free_Data/fd_KerrSchild_g_dg_ddg_dddg.c:3278-3303 `_dddgamma_D0D0D0D0D2[ijk]` -/
noncomputable def dddgamma_D0D0D0D0D2 (P : Par) (q : Pt) : ℝ :=
  2 * c P q * k0 P q * dddk0_D0D0D2 P q + 4 * c P q * dk0_D0 P q * ddk0_D0D2 P q + 2 * c P q * ddk0_D0D0 P q * dk0_D2 P q + (k0 P q) ^ 2 * dddc_D0D0D2 P q + 4 * k0 P q *
    dc_D0 P q * ddk0_D0D2 P q + 2 * k0 P q * ddc_D0D0 P q * dk0_D2 P q + 2 * k0 P q * dc_D2 P q * ddk0_D0D0 P q + 4 * k0 P q * dk0_D0 P q * ddc_D0D2 P q + 4 * dc_D0 P q *
    dk0_D0 P q * dk0_D2 P q + 2 * dc_D2 P q * (dk0_D0 P q) ^ 2

/-- Free_Data/fd_KerrSchild_g_dg_ddg_dddg.c:5067-5092 `_dddgamma_D0D0D0D1D0[ijk]` -/
noncomputable def dddgamma_D0D0D0D1D0 (P : Par) (q : Pt) : ℝ :=
  2 * c P q * k0 P q * dddk0_D0D0D1 P q + 4 * c P q * dk0_D0 P q * ddk0_D0D1 P q + 2 * c P q * ddk0_D0D0 P q * dk0_D1 P q + (k0 P q) ^ 2 * dddc_D0D0D1 P q + 4 * k0 P q *
    dc_D0 P q * ddk0_D0D1 P q + 2 * k0 P q * ddc_D0D0 P q * dk0_D1 P q + 2 * k0 P q * dc_D1 P q * ddk0_D0D0 P q + 4 * k0 P q * dk0_D0 P q * ddc_D0D1 P q + 4 * dc_D0 P q *
    dk0_D0 P q * dk0_D1 P q + 2 * dc_D1 P q * (dk0_D0 P q) ^ 2

/-- Free_Data/fd_KerrSchild_g_dg_ddg_dddg.c:2293-2318 `_dddgamma_D0D0D0D1D1[ijk]` -/
noncomputable def dddgamma_D0D0D0D1D1 (P : Par) (q : Pt) : ℝ :=
  2 * c P q * k0 P q * dddk0_D0D1D1 P q + 2 * c P q * dk0_D0 P q * ddk0_D1D1 P q + 4 * c P q * dk0_D1 P q * ddk0_D0D1 P q + (k0 P q) ^ 2 * dddc_D0D1D1 P q + 2 * k0 P q *
    dc_D0 P q * ddk0_D1D1 P q + 4 * k0 P q * dc_D1 P q * ddk0_D0D1 P q + 2 * k0 P q * ddc_D1D1 P q * dk0_D0 P q + 4 * k0 P q * dk0_D1 P q * ddc_D0D1 P q + 2 * dc_D0 P q *
    (dk0_D1 P q) ^ 2 + 4 * dc_D1 P q * dk0_D0 P q * dk0_D1 P q

/-- Free_Data/fd_KerrSchild_g_dg_ddg_dddg.c:2924-2958 `_dddgamma_D0D0D0D1D2[ijk]` -/
noncomputable def dddgamma_D0D0D0D1D2 (P : Par) (q : Pt) : ℝ :=
  2 * c P q * k0 P q * dddk0_D0D1D2 P q + 2 * c P q * dk0_D0 P q * ddk0_D1D2 P q + 2 * c P q * dk0_D1 P q * ddk0_D0D2 P q + 2 * c P q * dk0_D2 P q * ddk0_D0D1 P q + (k0 P
    q) ^ 2 * dddc_D0D1D2 P q + 2 * k0 P q * dc_D0 P q * ddk0_D1D2 P q + 2 * k0 P q * dc_D1 P q * ddk0_D0D2 P q + 2 * k0 P q * dc_D2 P q * ddk0_D0D1 P q + 2 * k0 P q *
    dk0_D0 P q * ddc_D1D2 P q + 2 * k0 P q * dk0_D1 P q * ddc_D0D2 P q + 2 * k0 P q * dk0_D2 P q * ddc_D0D1 P q + 2 * dc_D0 P q * dk0_D1 P q * dk0_D2 P q + 2 * dc_D1 P q
    * dk0_D0 P q * dk0_D2 P q + 2 * dc_D2 P q * dk0_D0 P q * dk0_D1 P q

/-- Free_Data/fd_KerrSchild_g_dg_ddg_dddg.c:3619-3644 `_dddgamma_D0D0D0D2D0[ijk]` -/
noncomputable def dddgamma_D0D0D0D2D0 (P : Par) (q : Pt) : ℝ :=
  2 * c P q * k0 P q * dddk0_D0D0D2 P q + 4 * c P q * dk0_D0 P q * ddk0_D0D2 P q + 2 * c P q * ddk0_D0D0 P q * dk0_D2 P q + (k0 P q) ^ 2 * dddc_D0D0D2 P q + 4 * k0 P q *
    dc_D0 P q * ddk0_D0D2 P q + 2 * k0 P q * ddc_D0D0 P q * dk0_D2 P q + 2 * k0 P q * dc_D2 P q * ddk0_D0D0 P q + 4 * k0 P q * dk0_D0 P q * ddc_D0D2 P q + 4 * dc_D0 P q *
    dk0_D0 P q * dk0_D2 P q + 2 * dc_D2 P q * (dk0_D0 P q) ^ 2

/-- Free_Data/fd_KerrSchild_g_dg_ddg_dddg.c:7334-7368 `_dddgamma_D0D0D0D2D1[ijk]` -/
noncomputable def dddgamma_D0D0D0D2D1 (P : Par) (q : Pt) : ℝ :=
  2 * c P q * k0 P q * dddk0_D0D1D2 P q + 2 * c P q * dk0_D0 P q * ddk0_D1D2 P q + 2 * c P q * dk0_D1 P q * ddk0_D0D2 P q + 2 * c P q * dk0_D2 P q * ddk0_D0D1 P q + (k0 P
    q) ^ 2 * dddc_D0D1D2 P q + 2 * k0 P q * dc_D0 P q * ddk0_D1D2 P q + 2 * k0 P q * dc_D1 P q * ddk0_D0D2 P q + 2 * k0 P q * dc_D2 P q * ddk0_D0D1 P q + 2 * k0 P q *
    dk0_D0 P q * ddc_D1D2 P q + 2 * k0 P q * dk0_D1 P q * ddc_D0D2 P q + 2 * k0 P q * dk0_D2 P q * ddc_D0D1 P q + 2 * dc_D0 P q * dk0_D1 P q * dk0_D2 P q + 2 * dc_D1 P q
    * dk0_D0 P q * dk0_D2 P q + 2 * dc_D2 P q * dk0_D0 P q * dk0_D1 P q

/-- Free_Data/fd_KerrSchild_g_dg_ddg_dddg.c:5121-5146 `_dddgamma_D0D0D0D2D2[ijk]` -/
noncomputable def dddgamma_D0D0D0D2D2 (P : Par) (q : Pt) : ℝ :=
  2 * c P q * k0 P q * dddk0_D0D2D2 P q + 2 * c P q * dk0_D0 P q * ddk0_D2D2 P q + 4 * c P q * dk0_D2 P q * ddk0_D0D2 P q + (k0 P q) ^ 2 * dddc_D0D2D2 P q + 2 * k0 P q *
    dc_D0 P q * ddk0_D2D2 P q + 4 * k0 P q * dc_D2 P q * ddk0_D0D2 P q + 2 * k0 P q * ddc_D2D2 P q * dk0_D0 P q + 4 * k0 P q * dk0_D2 P q * ddc_D0D2 P q + 2 * dc_D0 P q *
    (dk0_D2 P q) ^ 2 + 4 * dc_D2 P q * dk0_D0 P q * dk0_D2 P q

/-- Free_Data/fd_KerrSchild_g_dg_ddg_dddg.c:4325-4350 `_dddgamma_D0D0D1D0D0[ijk]` -/
noncomputable def dddgamma_D0D0D1D0D0 (P : Par) (q : Pt) : ℝ :=
  2 * c P q * k0 P q * dddk0_D0D0D1 P q + 4 * c P q * dk0_D0 P q * ddk0_D0D1 P q + 2 * c P q * ddk0_D0D0 P q * dk0_D1 P q + (k0 P q) ^ 2 * dddc_D0D0D1 P q + 4 * k0 P q *
    dc_D0 P q * ddk0_D0D1 P q + 2 * k0 P q * ddc_D0D0 P q * dk0_D1 P q + 2 * k0 P q * dc_D1 P q * ddk0_D0D0 P q + 4 * k0 P q * dk0_D0 P q * ddc_D0D1 P q + 4 * dc_D0 P q *
    dk0_D0 P q * dk0_D1 P q + 2 * dc_D1 P q * (dk0_D0 P q) ^ 2

/-- Free_Data/fd_KerrSchild_g_dg_ddg_dddg.c:5260-5285 `_dddgamma_D0D0D1D0D1[ijk]` -/
noncomputable def dddgamma_D0D0D1D0D1 (P : Par) (q : Pt) : ℝ :=
  2 * c P q * k0 P q * dddk0_D0D1D1 P q + 2 * c P q * dk0_D0 P q * ddk0_D1D1 P q + 4 * c P q * dk0_D1 P q * ddk0_D0D1 P q + (k0 P q) ^ 2 * dddc_D0D1D1 P q + 2 * k0 P q *
    dc_D0 P q * ddk0_D1D1 P q + 4 * k0 P q * dc_D1 P q * ddk0_D0D1 P q + 2 * k0 P q * ddc_D1D1 P q * dk0_D0 P q + 4 * k0 P q * dk0_D1 P q * ddc_D0D1 P q + 2 * dc_D0 P q *
    (dk0_D1 P q) ^ 2 + 4 * dc_D1 P q * dk0_D0 P q * dk0_D1 P q

/-- Free_Data/fd_KerrSchild_g_dg_ddg_dddg.c:3583-3617 `_dddgamma_D0D0D1D0D2[ijk]` -/
noncomputable def dddgamma_D0D0D1D0D2 (P : Par) (q : Pt) : ℝ :=
  2 * c P q * k0 P q * dddk0_D0D1D2 P q + 2 * c P q * dk0_D0 P q * ddk0_D1D2 P q + 2 * c P q * dk0_D1 P q * ddk0_D0D2 P q + 2 * c P q * dk0_D2 P q * ddk0_D0D1 P q + (k0 P
    q) ^ 2 * dddc_D0D1D2 P q + 2 * k0 P q * dc_D0 P q * ddk0_D1D2 P q + 2 * k0 P q * dc_D1 P q * ddk0_D0D2 P q + 2 * k0 P q * dc_D2 P q * ddk0_D0D1 P q + 2 * k0 P q *
    dk0_D0 P q * ddc_D1D2 P q + 2 * k0 P q * dk0_D1 P q * ddc_D0D2 P q + 2 * k0 P q * dk0_D2 P q * ddc_D0D1 P q + 2 * dc_D0 P q * dk0_D1 P q * dk0_D2 P q + 2 * dc_D1 P q
    * dk0_D0 P q * dk0_D2 P q + 2 * dc_D2 P q * dk0_D0 P q * dk0_D1 P q

/-- Free_Data/fd_KerrSchild_g_dg_ddg_dddg.c:7103-7128 `_dddgamma_D0D0D1D1D0[ijk]` -/
noncomputable def dddgamma_D0D0D1D1D0 (P : Par) (q : Pt) : ℝ :=
  2 * c P q * k0 P q * dddk0_D0D1D1 P q + 2 * c P q * dk0_D0 P q * ddk0_D1D1 P q + 4 * c P q * dk0_D1 P q * ddk0_D0D1 P q + (k0 P q) ^ 2 * dddc_D0D1D1 P q + 2 * k0 P q *
    dc_D0 P q * ddk0_D1D1 P q + 4 * k0 P q * dc_D1 P q * ddk0_D0D1 P q + 2 * k0 P q * ddc_D1D1 P q * dk0_D0 P q + 4 * k0 P q * dk0_D1 P q * ddc_D0D1 P q + 2 * dc_D0 P q *
    (dk0_D1 P q) ^ 2 + 4 * dc_D1 P q * dk0_D0 P q * dk0_D1 P q

/-- Free_Data/fd_KerrSchild_g_dg_ddg_dddg.c:4692-4708 `_dddgamma_D0D0D1D1D1[ijk]` -/
noncomputable def dddgamma_D0D0D1D1D1 (P : Par) (q : Pt) : ℝ :=
  2 * c P q * k0 P q * dddk0_D1D1D1 P q + 6 * c P q * dk0_D1 P q * ddk0_D1D1 P q + (k0 P q) ^ 2 * dddc_D1D1D1 P q + 6 * k0 P q * dc_D1 P q * ddk0_D1D1 P q + 6 * k0 P q *
    ddc_D1D1 P q * dk0_D1 P q + 6 * dc_D1 P q * (dk0_D1 P q) ^ 2

/-- Free_Data/fd_KerrSchild_g_dg_ddg_dddg.c:4256-4281 `_dddgamma_D0D0D1D1D2[ijk]` -/
noncomputable def dddgamma_D0D0D1D1D2 (P : Par) (q : Pt) : ℝ :=
  2 * c P q * k0 P q * dddk0_D1D1D2 P q + 4 * c P q * dk0_D1 P q * ddk0_D1D2 P q + 2 * c P q * ddk0_D1D1 P q * dk0_D2 P q + (k0 P q) ^ 2 * dddc_D1D1D2 P q + 4 * k0 P q *
    dc_D1 P q * ddk0_D1D2 P q + 2 * k0 P q * ddc_D1D1 P q * dk0_D2 P q + 2 * k0 P q * dc_D2 P q * ddk0_D1D1 P q + 4 * k0 P q * dk0_D1 P q * ddc_D1D2 P q + 4 * dc_D1 P q *
    dk0_D1 P q * dk0_D2 P q + 2 * dc_D2 P q * (dk0_D1 P q) ^ 2

/-- Free_Data/fd_KerrSchild_g_dg_ddg_dddg.c:4878-4912 `_dddgamma_D0D0D1D2D0[ijk]` -/
noncomputable def dddgamma_D0D0D1D2D0 (P : Par) (q : Pt) : ℝ :=
  2 * c P q * k0 P q * dddk0_D0D1D2 P q + 2 * c P q * dk0_D0 P q * ddk0_D1D2 P q + 2 * c P q * dk0_D1 P q * ddk0_D0D2 P q + 2 * c P q * dk0_D2 P q * ddk0_D0D1 P q + (k0 P
    q) ^ 2 * dddc_D0D1D2 P q + 2 * k0 P q * dc_D0 P q * ddk0_D1D2 P q + 2 * k0 P q * dc_D1 P q * ddk0_D0D2 P q + 2 * k0 P q * dc_D2 P q * ddk0_D0D1 P q + 2 * k0 P q *
    dk0_D0 P q * ddc_D1D2 P q + 2 * k0 P q * dk0_D1 P q * ddc_D0D2 P q + 2 * k0 P q * dk0_D2 P q * ddc_D0D1 P q + 2 * dc_D0 P q * dk0_D1 P q * dk0_D2 P q + 2 * dc_D1 P q
    * dk0_D0 P q * dk0_D2 P q + 2 * dc_D2 P q * dk0_D0 P q * dk0_D1 P q

/-- Free_Data/fd_KerrSchild_g_dg_ddg_dddg.c:4021-4046 `_dddgamma_D0D0D1D2D1[ijk]` -/
noncomputable def dddgamma_D0D0D1D2D1 (P : Par) (q : Pt) : ℝ :=
  2 * c P q * k0 P q * dddk0_D1D1D2 P q + 4 * c P q * dk0_D1 P q * ddk0_D1D2 P q + 2 * c P q * ddk0_D1D1 P q * dk0_D2 P q + (k0 P q) ^ 2 * dddc_D1D1D2 P q + 4 * k0 P q *
    dc_D1 P q * ddk0_D1D2 P q + 2 * k0 P q * ddc_D1D1 P q * dk0_D2 P q + 2 * k0 P q * dc_D2 P q * ddk0_D1D1 P q + 4 * k0 P q * dk0_D1 P q * ddc_D1D2 P q + 4 * dc_D1 P q *
    dk0_D1 P q * dk0_D2 P q + 2 * dc_D2 P q * (dk0_D1 P q) ^ 2

/-- Free_Data/fd_KerrSchild_g_dg_ddg_dddg.c:3359-3384 `_dddgamma_D0D0D1D2D2[ijk]` -/
noncomputable def dddgamma_D0D0D1D2D2 (P : Par) (q : Pt) : ℝ :=
  2 * c P q * k0 P q * dddk0_D1D2D2 P q + 2 * c P q * dk0_D1 P q * ddk0_D2D2 P q + 4 * c P q * dk0_D2 P q * ddk0_D1D2 P q + (k0 P q) ^ 2 * dddc_D1D2D2 P q + 2 * k0 P q *
    dc_D1 P q * ddk0_D2D2 P q + 4 * k0 P q * dc_D2 P q * ddk0_D1D2 P q + 2 * k0 P q * ddc_D2D2 P q * dk0_D1 P q + 4 * k0 P q * dk0_D2 P q * ddc_D1D2 P q + 2 * dc_D1 P q *
    (dk0_D2 P q) ^ 2 + 4 * dc_D2 P q * dk0_D1 P q * dk0_D2 P q

/-- Free_Data/fd_KerrSchild_g_dg_ddg_dddg.c:7229-7254 `_dddgamma_D0D0D2D0D0[ijk]` -/
noncomputable def dddgamma_D0D0D2D0D0 (P : Par) (q : Pt) : ℝ :=
  2 * c P q * k0 P q * dddk0_D0D0D2 P q + 4 * c P q * dk0_D0 P q * ddk0_D0D2 P q + 2 * c P q * ddk0_D0D0 P q * dk0_D2 P q + (k0 P q) ^ 2 * dddc_D0D0D2 P q + 4 * k0 P q *
    dc_D0 P q * ddk0_D0D2 P q + 2 * k0 P q * ddc_D0D0 P q * dk0_D2 P q + 2 * k0 P q * dc_D2 P q * ddk0_D0D0 P q + 4 * k0 P q * dk0_D0 P q * ddc_D0D2 P q + 4 * dc_D0 P q *
    dk0_D0 P q * dk0_D2 P q + 2 * dc_D2 P q * (dk0_D0 P q) ^ 2

/-- Free_Data/fd_KerrSchild_g_dg_ddg_dddg.c:7298-7332 `_dddgamma_D0D0D2D0D1[ijk]` -/
noncomputable def dddgamma_D0D0D2D0D1 (P : Par) (q : Pt) : ℝ :=
  2 * c P q * k0 P q * dddk0_D0D1D2 P q + 2 * c P q * dk0_D0 P q * ddk0_D1D2 P q + 2 * c P q * dk0_D1 P q * ddk0_D0D2 P q + 2 * c P q * dk0_D2 P q * ddk0_D0D1 P q + (k0 P
    q) ^ 2 * dddc_D0D1D2 P q + 2 * k0 P q * dc_D0 P q * ddk0_D1D2 P q + 2 * k0 P q * dc_D1 P q * ddk0_D0D2 P q + 2 * k0 P q * dc_D2 P q * ddk0_D0D1 P q + 2 * k0 P q *
    dk0_D0 P q * ddc_D1D2 P q + 2 * k0 P q * dk0_D1 P q * ddc_D0D2 P q + 2 * k0 P q * dk0_D2 P q * ddc_D0D1 P q + 2 * dc_D0 P q * dk0_D1 P q * dk0_D2 P q + 2 * dc_D1 P q
    * dk0_D0 P q * dk0_D2 P q + 2 * dc_D2 P q * dk0_D0 P q * dk0_D1 P q

/-- Free_Data/fd_KerrSchild_g_dg_ddg_dddg.c:3251-3276 `_dddgamma_D0D0D2D0D2[ijk]` -/
noncomputable def dddgamma_D0D0D2D0D2 (P : Par) (q : Pt) : ℝ :=
  2 * c P q * k0 P q * dddk0_D0D2D2 P q + 2 * c P q * dk0_D0 P q * ddk0_D2D2 P q + 4 * c P q * dk0_D2 P q * ddk0_D0D2 P q + (k0 P q) ^ 2 * dddc_D0D2D2 P q + 2 * k0 P q *
    dc_D0 P q * ddk0_D2D2 P q + 4 * k0 P q * dc_D2 P q * ddk0_D0D2 P q + 2 * k0 P q * ddc_D2D2 P q * dk0_D0 P q + 4 * k0 P q * dk0_D2 P q * ddc_D0D2 P q + 2 * dc_D0 P q *
    (dk0_D2 P q) ^ 2 + 4 * dc_D2 P q * dk0_D0 P q * dk0_D2 P q

/-- Free_Data/fd_KerrSchild_g_dg_ddg_dddg.c:6193-6227 `_dddgamma_D0D0D2D1D0[ijk]` -/
noncomputable def dddgamma_D0D0D2D1D0 (P : Par) (q : Pt) : ℝ :=
  2 * c P q * k0 P q * dddk0_D0D1D2 P q + 2 * c P q * dk0_D0 P q * ddk0_D1D2 P q + 2 * c P q * dk0_D1 P q * ddk0_D0D2 P q + 2 * c P q * dk0_D2 P q * ddk0_D0D1 P q + (k0 P
    q) ^ 2 * dddc_D0D1D2 P q + 2 * k0 P q * dc_D0 P q * ddk0_D1D2 P q + 2 * k0 P q * dc_D1 P q * ddk0_D0D2 P q + 2 * k0 P q * dc_D2 P q * ddk0_D0D1 P q + 2 * k0 P q *
    dk0_D0 P q * ddc_D1D2 P q + 2 * k0 P q * dk0_D1 P q * ddc_D0D2 P q + 2 * k0 P q * dk0_D2 P q * ddc_D0D1 P q + 2 * dc_D0 P q * dk0_D1 P q * dk0_D2 P q + 2 * dc_D1 P q
    * dk0_D0 P q * dk0_D2 P q + 2 * dc_D2 P q * dk0_D0 P q * dk0_D1 P q

/-- Free_Data/fd_KerrSchild_g_dg_ddg_dddg.c:2224-2249 `_dddgamma_D0D0D2D1D1[ijk]` -/
noncomputable def dddgamma_D0D0D2D1D1 (P : Par) (q : Pt) : ℝ :=
  2 * c P q * k0 P q * dddk0_D1D1D2 P q + 4 * c P q * dk0_D1 P q * ddk0_D1D2 P q + 2 * c P q * ddk0_D1D1 P q * dk0_D2 P q + (k0 P q) ^ 2 * dddc_D1D1D2 P q + 4 * k0 P q *
    dc_D1 P q * ddk0_D1D2 P q + 2 * k0 P q * ddc_D1D1 P q * dk0_D2 P q + 2 * k0 P q * dc_D2 P q * ddk0_D1D1 P q + 4 * k0 P q * dk0_D1 P q * ddc_D1D2 P q + 4 * dc_D1 P q *
    dk0_D1 P q * dk0_D2 P q + 2 * dc_D2 P q * (dk0_D1 P q) ^ 2

/-- Free_Data/fd_KerrSchild_g_dg_ddg_dddg.c:2960-2985 `_dddgamma_D0D0D2D1D2[ijk]` -/
noncomputable def dddgamma_D0D0D2D1D2 (P : Par) (q : Pt) : ℝ :=
  2 * c P q * k0 P q * dddk0_D1D2D2 P q + 2 * c P q * dk0_D1 P q * ddk0_D2D2 P q + 4 * c P q * dk0_D2 P q * ddk0_D1D2 P q + (k0 P q) ^ 2 * dddc_D1D2D2 P q + 2 * k0 P q *
    dc_D1 P q * ddk0_D2D2 P q + 4 * k0 P q * dc_D2 P q * ddk0_D1D2 P q + 2 * k0 P q * ddc_D2D2 P q * dk0_D1 P q + 4 * k0 P q * dk0_D2 P q * ddc_D1D2 P q + 2 * dc_D1 P q *
    (dk0_D2 P q) ^ 2 + 4 * dc_D2 P q * dk0_D1 P q * dk0_D2 P q

/-- Free_Data/fd_KerrSchild_g_dg_ddg_dddg.c:5946-5971 `_dddgamma_D0D0D2D2D0[ijk]` -/
noncomputable def dddgamma_D0D0D2D2D0 (P : Par) (q : Pt) : ℝ :=
  2 * c P q * k0 P q * dddk0_D0D2D2 P q + 2 * c P q * dk0_D0 P q * ddk0_D2D2 P q + 4 * c P q * dk0_D2 P q * ddk0_D0D2 P q + (k0 P q) ^ 2 * dddc_D0D2D2 P q + 2 * k0 P q *
    dc_D0 P q * ddk0_D2D2 P q + 4 * k0 P q * dc_D2 P q * ddk0_D0D2 P q + 2 * k0 P q * ddc_D2D2 P q * dk0_D0 P q + 4 * k0 P q * dk0_D2 P q * ddc_D0D2 P q + 2 * dc_D0 P q *
    (dk0_D2 P q) ^ 2 + 4 * dc_D2 P q * dk0_D0 P q * dk0_D2 P q

/-- Free_Data/fd_KerrSchild_g_dg_ddg_dddg.c:4479-4504 `_dddgamma_D0D0D2D2D1[ijk]` -/
noncomputable def dddgamma_D0D0D2D2D1 (P : Par) (q : Pt) : ℝ :=
  2 * c P q * k0 P q * dddk0_D1D2D2 P q + 2 * c P q * dk0_D1 P q * ddk0_D2D2 P q + 4 * c P q * dk0_D2 P q * ddk0_D1D2 P q + (k0 P q) ^ 2 * dddc_D1D2D2 P q + 2 * k0 P q *
    dc_D1 P q * ddk0_D2D2 P q + 4 * k0 P q * dc_D2 P q * ddk0_D1D2 P q + 2 * k0 P q * ddc_D2D2 P q * dk0_D1 P q + 4 * k0 P q * dk0_D2 P q * ddc_D1D2 P q + 2 * dc_D1 P q *
    (dk0_D2 P q) ^ 2 + 4 * dc_D2 P q * dk0_D1 P q * dk0_D2 P q

/-- Free_Data/fd_KerrSchild_g_dg_ddg_dddg.c:7412-7428 `_dddgamma_D0D0D2D2D2[ijk]` -/
noncomputable def dddgamma_D0D0D2D2D2 (P : Par) (q : Pt) : ℝ :=
  2 * c P q * k0 P q * dddk0_D2D2D2 P q + 6 * c P q * dk0_D2 P q * ddk0_D2D2 P q + (k0 P q) ^ 2 * dddc_D2D2D2 P q + 6 * k0 P q * dc_D2 P q * ddk0_D2D2 P q + 6 * k0 P q *
    ddc_D2D2 P q * dk0_D2 P q + 6 * dc_D2 P q * (dk0_D2 P q) ^ 2

/-- Free_Data/fd_KerrSchild_g_dg_ddg_dddg.c:4998-5023 `_dddgamma_D0D1D0D0D0[ijk]` -/
noncomputable def dddgamma_D0D1D0D0D0 (P : Par) (q : Pt) : ℝ :=
  c P q * k0 P q * dddk1_D0D0D0 P q + c P q * k1 P q * dddk0_D0D0D0 P q + 3 * c P q * dk0_D0 P q * ddk1_D0D0 P q + 3 * c P q * ddk0_D0D0 P q * dk1_D0 P q + k0 P q * k1 P
    q * dddc_D0D0D0 P q + 3 * k0 P q * dc_D0 P q * ddk1_D0D0 P q + 3 * k0 P q * ddc_D0D0 P q * dk1_D0 P q + 3 * k1 P q * dc_D0 P q * ddk0_D0D0 P q + 3 * k1 P q * ddc_D0D0
    P q * dk0_D0 P q + 6 * dc_D0 P q * dk0_D0 P q * dk1_D0 P q

/-- Free_Data/fd_KerrSchild_g_dg_ddg_dddg.c:5556-5596 `_dddgamma_D0D1D0D0D1[ijk]` -/
noncomputable def dddgamma_D0D1D0D0D1 (P : Par) (q : Pt) : ℝ :=
  c P q * k0 P q * dddk1_D0D0D1 P q + c P q * k1 P q * dddk0_D0D0D1 P q + 2 * c P q * dk0_D0 P q * ddk1_D0D1 P q + c P q * ddk0_D0D0 P q * dk1_D1 P q + c P q * dk0_D1 P q
    * ddk1_D0D0 P q + 2 * c P q * dk1_D0 P q * ddk0_D0D1 P q + k0 P q * k1 P q * dddc_D0D0D1 P q + 2 * k0 P q * dc_D0 P q * ddk1_D0D1 P q + k0 P q * ddc_D0D0 P q * dk1_D1
    P q + k0 P q * dc_D1 P q * ddk1_D0D0 P q + 2 * k0 P q * dk1_D0 P q * ddc_D0D1 P q + 2 * k1 P q * dc_D0 P q * ddk0_D0D1 P q + k1 P q * ddc_D0D0 P q * dk0_D1 P q + k1 P
    q * dc_D1 P q * ddk0_D0D0 P q + 2 * k1 P q * dk0_D0 P q * ddc_D0D1 P q + 2 * dc_D0 P q * dk0_D0 P q * dk1_D1 P q + 2 * dc_D0 P q * dk0_D1 P q * dk1_D0 P q + 2 * dc_D1
    P q * dk0_D0 P q * dk1_D0 P q

/-- Free_Data/fd_KerrSchild_g_dg_ddg_dddg.c:5414-5454 `_dddgamma_D0D1D0D0D2[ijk]` -/
noncomputable def dddgamma_D0D1D0D0D2 (P : Par) (q : Pt) : ℝ :=
  c P q * k0 P q * dddk1_D0D0D2 P q + c P q * k1 P q * dddk0_D0D0D2 P q + 2 * c P q * dk0_D0 P q * ddk1_D0D2 P q + c P q * ddk0_D0D0 P q * dk1_D2 P q + c P q * dk0_D2 P q
    * ddk1_D0D0 P q + 2 * c P q * dk1_D0 P q * ddk0_D0D2 P q + k0 P q * k1 P q * dddc_D0D0D2 P q + 2 * k0 P q * dc_D0 P q * ddk1_D0D2 P q + k0 P q * ddc_D0D0 P q * dk1_D2
    P q + k0 P q * dc_D2 P q * ddk1_D0D0 P q + 2 * k0 P q * dk1_D0 P q * ddc_D0D2 P q + 2 * k1 P q * dc_D0 P q * ddk0_D0D2 P q + k1 P q * ddc_D0D0 P q * dk0_D2 P q + k1 P
    q * dc_D2 P q * ddk0_D0D0 P q + 2 * k1 P q * dk0_D0 P q * ddc_D0D2 P q + 2 * dc_D0 P q * dk0_D0 P q * dk1_D2 P q + 2 * dc_D0 P q * dk0_D2 P q * dk1_D0 P q + 2 * dc_D2
    P q * dk0_D0 P q * dk1_D0 P q

/-- Free_Data/fd_KerrSchild_g_dg_ddg_dddg.c:2987-3027 `_dddgamma_D0D1D0D1D0[ijk]` -/
noncomputable def dddgamma_D0D1D0D1D0 (P : Par) (q : Pt) : ℝ :=
  c P q * k0 P q * dddk1_D0D0D1 P q + c P q * k1 P q * dddk0_D0D0D1 P q + 2 * c P q * dk0_D0 P q * ddk1_D0D1 P q + c P q * ddk0_D0D0 P q * dk1_D1 P q + c P q * dk0_D1 P q
    * ddk1_D0D0 P q + 2 * c P q * dk1_D0 P q * ddk0_D0D1 P q + k0 P q * k1 P q * dddc_D0D0D1 P q + 2 * k0 P q * dc_D0 P q * ddk1_D0D1 P q + k0 P q * ddc_D0D0 P q * dk1_D1
    P q + k0 P q * dc_D1 P q * ddk1_D0D0 P q + 2 * k0 P q * dk1_D0 P q * ddc_D0D1 P q + 2 * k1 P q * dc_D0 P q * ddk0_D0D1 P q + k1 P q * ddc_D0D0 P q * dk0_D1 P q + k1 P
    q * dc_D1 P q * ddk0_D0D0 P q + 2 * k1 P q * dk0_D0 P q * ddc_D0D1 P q + 2 * dc_D0 P q * dk0_D0 P q * dk1_D1 P q + 2 * dc_D0 P q * dk0_D1 P q * dk1_D0 P q + 2 * dc_D1
    P q * dk0_D0 P q * dk1_D0 P q

/-- Free_Data/fd_KerrSchild_g_dg_ddg_dddg.c:3874-3914 `_dddgamma_D0D1D0D1D1[ijk]` -/
noncomputable def dddgamma_D0D1D0D1D1 (P : Par) (q : Pt) : ℝ :=
  c P q * k0 P q * dddk1_D0D1D1 P q + c P q * k1 P q * dddk0_D0D1D1 P q + c P q * dk0_D0 P q * ddk1_D1D1 P q + 2 * c P q * dk0_D1 P q * ddk1_D0D1 P q + c P q * ddk0_D1D1
    P q * dk1_D0 P q + 2 * c P q * dk1_D1 P q * ddk0_D0D1 P q + k0 P q * k1 P q * dddc_D0D1D1 P q + k0 P q * dc_D0 P q * ddk1_D1D1 P q + 2 * k0 P q * dc_D1 P q *
    ddk1_D0D1 P q + k0 P q * ddc_D1D1 P q * dk1_D0 P q + 2 * k0 P q * dk1_D1 P q * ddc_D0D1 P q + k1 P q * dc_D0 P q * ddk0_D1D1 P q + 2 * k1 P q * dc_D1 P q * ddk0_D0D1
    P q + k1 P q * ddc_D1D1 P q * dk0_D0 P q + 2 * k1 P q * dk0_D1 P q * ddc_D0D1 P q + 2 * dc_D0 P q * dk0_D1 P q * dk1_D1 P q + 2 * dc_D1 P q * dk0_D0 P q * dk1_D1 P q
    + 2 * dc_D1 P q * dk0_D1 P q * dk1_D0 P q

/-- Free_Data/fd_KerrSchild_g_dg_ddg_dddg.c:5287-5343 `_dddgamma_D0D1D0D1D2[ijk]` -/
noncomputable def dddgamma_D0D1D0D1D2 (P : Par) (q : Pt) : ℝ :=
  c P q * k0 P q * dddk1_D0D1D2 P q + c P q * k1 P q * dddk0_D0D1D2 P q + c P q * dk0_D0 P q * ddk1_D1D2 P q + c P q * dk0_D1 P q * ddk1_D0D2 P q + c P q * dk0_D2 P q *
    ddk1_D0D1 P q + c P q * dk1_D0 P q * ddk0_D1D2 P q + c P q * dk1_D1 P q * ddk0_D0D2 P q + c P q * dk1_D2 P q * ddk0_D0D1 P q + k0 P q * k1 P q * dddc_D0D1D2 P q + k0
    P q * dc_D0 P q * ddk1_D1D2 P q + k0 P q * dc_D1 P q * ddk1_D0D2 P q + k0 P q * dc_D2 P q * ddk1_D0D1 P q + k0 P q * dk1_D0 P q * ddc_D1D2 P q + k0 P q * dk1_D1 P q *
    ddc_D0D2 P q + k0 P q * dk1_D2 P q * ddc_D0D1 P q + k1 P q * dc_D0 P q * ddk0_D1D2 P q + k1 P q * dc_D1 P q * ddk0_D0D2 P q + k1 P q * dc_D2 P q * ddk0_D0D1 P q + k1
    P q * dk0_D0 P q * ddc_D1D2 P q + k1 P q * dk0_D1 P q * ddc_D0D2 P q + k1 P q * dk0_D2 P q * ddc_D0D1 P q + dc_D0 P q * dk0_D1 P q * dk1_D2 P q + dc_D0 P q * dk0_D2 P
    q * dk1_D1 P q + dc_D1 P q * dk0_D0 P q * dk1_D2 P q + dc_D1 P q * dk0_D2 P q * dk1_D0 P q + dc_D2 P q * dk0_D0 P q * dk1_D1 P q + dc_D2 P q * dk0_D1 P q * dk1_D0 P q

/-- Free_Data/fd_KerrSchild_g_dg_ddg_dddg.c:1956-1996 `_dddgamma_D0D1D0D2D0[ijk]` -/
noncomputable def dddgamma_D0D1D0D2D0 (P : Par) (q : Pt) : ℝ :=
  c P q * k0 P q * dddk1_D0D0D2 P q + c P q * k1 P q * dddk0_D0D0D2 P q + 2 * c P q * dk0_D0 P q * ddk1_D0D2 P q + c P q * ddk0_D0D0 P q * dk1_D2 P q + c P q * dk0_D2 P q
    * ddk1_D0D0 P q + 2 * c P q * dk1_D0 P q * ddk0_D0D2 P q + k0 P q * k1 P q * dddc_D0D0D2 P q + 2 * k0 P q * dc_D0 P q * ddk1_D0D2 P q + k0 P q * ddc_D0D0 P q * dk1_D2
    P q + k0 P q * dc_D2 P q * ddk1_D0D0 P q + 2 * k0 P q * dk1_D0 P q * ddc_D0D2 P q + 2 * k1 P q * dc_D0 P q * ddk0_D0D2 P q + k1 P q * ddc_D0D0 P q * dk0_D2 P q + k1 P
    q * dc_D2 P q * ddk0_D0D0 P q + 2 * k1 P q * dk0_D0 P q * ddc_D0D2 P q + 2 * dc_D0 P q * dk0_D0 P q * dk1_D2 P q + 2 * dc_D0 P q * dk0_D2 P q * dk1_D0 P q + 2 * dc_D2
    P q * dk0_D0 P q * dk1_D0 P q

/-- Free_Data/fd_KerrSchild_g_dg_ddg_dddg.c:4129-4185 `_dddgamma_D0D1D0D2D1[ijk]` -/
noncomputable def dddgamma_D0D1D0D2D1 (P : Par) (q : Pt) : ℝ :=
  c P q * k0 P q * dddk1_D0D1D2 P q + c P q * k1 P q * dddk0_D0D1D2 P q + c P q * dk0_D0 P q * ddk1_D1D2 P q + c P q * dk0_D1 P q * ddk1_D0D2 P q + c P q * dk0_D2 P q *
    ddk1_D0D1 P q + c P q * dk1_D0 P q * ddk0_D1D2 P q + c P q * dk1_D1 P q * ddk0_D0D2 P q + c P q * dk1_D2 P q * ddk0_D0D1 P q + k0 P q * k1 P q * dddc_D0D1D2 P q + k0
    P q * dc_D0 P q * ddk1_D1D2 P q + k0 P q * dc_D1 P q * ddk1_D0D2 P q + k0 P q * dc_D2 P q * ddk1_D0D1 P q + k0 P q * dk1_D0 P q * ddc_D1D2 P q + k0 P q * dk1_D1 P q *
    ddc_D0D2 P q + k0 P q * dk1_D2 P q * ddc_D0D1 P q + k1 P q * dc_D0 P q * ddk0_D1D2 P q + k1 P q * dc_D1 P q * ddk0_D0D2 P q + k1 P q * dc_D2 P q * ddk0_D0D1 P q + k1
    P q * dk0_D0 P q * ddc_D1D2 P q + k1 P q * dk0_D1 P q * ddc_D0D2 P q + k1 P q * dk0_D2 P q * ddc_D0D1 P q + dc_D0 P q * dk0_D1 P q * dk1_D2 P q + dc_D0 P q * dk0_D2 P
    q * dk1_D1 P q + dc_D1 P q * dk0_D0 P q * dk1_D2 P q + dc_D1 P q * dk0_D2 P q * dk1_D0 P q + dc_D2 P q * dk0_D0 P q * dk1_D1 P q + dc_D2 P q * dk0_D1 P q * dk1_D0 P q

/-- Free_Data/fd_KerrSchild_g_dg_ddg_dddg.c:5456-5496 `_dddgamma_D0D1D0D2D2[ijk]` -/
noncomputable def dddgamma_D0D1D0D2D2 (P : Par) (q : Pt) : ℝ :=
  c P q * k0 P q * dddk1_D0D2D2 P q + c P q * k1 P q * dddk0_D0D2D2 P q + c P q * dk0_D0 P q * ddk1_D2D2 P q + 2 * c P q * dk0_D2 P q * ddk1_D0D2 P q + c P q * ddk0_D2D2
    P q * dk1_D0 P q + 2 * c P q * dk1_D2 P q * ddk0_D0D2 P q + k0 P q * k1 P q * dddc_D0D2D2 P q + k0 P q * dc_D0 P q * ddk1_D2D2 P q + 2 * k0 P q * dc_D2 P q *
    ddk1_D0D2 P q + k0 P q * ddc_D2D2 P q * dk1_D0 P q + 2 * k0 P q * dk1_D2 P q * ddc_D0D2 P q + k1 P q * dc_D0 P q * ddk0_D2D2 P q + 2 * k1 P q * dc_D2 P q * ddk0_D0D2
    P q + k1 P q * ddc_D2D2 P q * dk0_D0 P q + 2 * k1 P q * dk0_D2 P q * ddc_D0D2 P q + 2 * dc_D0 P q * dk0_D2 P q * dk1_D2 P q + 2 * dc_D2 P q * dk0_D0 P q * dk1_D2 P q
    + 2 * dc_D2 P q * dk0_D2 P q * dk1_D0 P q

/-- Free_Data/fd_KerrSchild_g_dg_ddg_dddg.c:4836-4876 `_dddgamma_D0D1D1D0D0[ijk]` -/
noncomputable def dddgamma_D0D1D1D0D0 (P : Par) (q : Pt) : ℝ :=
  c P q * k0 P q * dddk1_D0D0D1 P q + c P q * k1 P q * dddk0_D0D0D1 P q + 2 * c P q * dk0_D0 P q * ddk1_D0D1 P q + c P q * ddk0_D0D0 P q * dk1_D1 P q + c P q * dk0_D1 P q
    * ddk1_D0D0 P q + 2 * c P q * dk1_D0 P q * ddk0_D0D1 P q + k0 P q * k1 P q * dddc_D0D0D1 P q + 2 * k0 P q * dc_D0 P q * ddk1_D0D1 P q + k0 P q * ddc_D0D0 P q * dk1_D1
    P q + k0 P q * dc_D1 P q * ddk1_D0D0 P q + 2 * k0 P q * dk1_D0 P q * ddc_D0D1 P q + 2 * k1 P q * dc_D0 P q * ddk0_D0D1 P q + k1 P q * ddc_D0D0 P q * dk0_D1 P q + k1 P
    q * dc_D1 P q * ddk0_D0D0 P q + 2 * k1 P q * dk0_D0 P q * ddc_D0D1 P q + 2 * dc_D0 P q * dk0_D0 P q * dk1_D1 P q + 2 * dc_D0 P q * dk0_D1 P q * dk1_D0 P q + 2 * dc_D1
    P q * dk0_D0 P q * dk1_D0 P q

/-- Free_Data/fd_KerrSchild_g_dg_ddg_dddg.c:5973-6013 `_dddgamma_D0D1D1D0D1[ijk]` -/
noncomputable def dddgamma_D0D1D1D0D1 (P : Par) (q : Pt) : ℝ :=
  c P q * k0 P q * dddk1_D0D1D1 P q + c P q * k1 P q * dddk0_D0D1D1 P q + c P q * dk0_D0 P q * ddk1_D1D1 P q + 2 * c P q * dk0_D1 P q * ddk1_D0D1 P q + c P q * ddk0_D1D1
    P q * dk1_D0 P q + 2 * c P q * dk1_D1 P q * ddk0_D0D1 P q + k0 P q * k1 P q * dddc_D0D1D1 P q + k0 P q * dc_D0 P q * ddk1_D1D1 P q + 2 * k0 P q * dc_D1 P q *
    ddk1_D0D1 P q + k0 P q * ddc_D1D1 P q * dk1_D0 P q + 2 * k0 P q * dk1_D1 P q * ddc_D0D1 P q + k1 P q * dc_D0 P q * ddk0_D1D1 P q + 2 * k1 P q * dc_D1 P q * ddk0_D0D1
    P q + k1 P q * ddc_D1D1 P q * dk0_D0 P q + 2 * k1 P q * dk0_D1 P q * ddc_D0D1 P q + 2 * dc_D0 P q * dk0_D1 P q * dk1_D1 P q + 2 * dc_D1 P q * dk0_D0 P q * dk1_D1 P q
    + 2 * dc_D1 P q * dk0_D1 P q * dk1_D0 P q

/-- Free_Data/fd_KerrSchild_g_dg_ddg_dddg.c:6578-6634 `_dddgamma_D0D1D1D0D2[ijk]` -/
noncomputable def dddgamma_D0D1D1D0D2 (P : Par) (q : Pt) : ℝ :=
  c P q * k0 P q * dddk1_D0D1D2 P q + c P q * k1 P q * dddk0_D0D1D2 P q + c P q * dk0_D0 P q * ddk1_D1D2 P q + c P q * dk0_D1 P q * ddk1_D0D2 P q + c P q * dk0_D2 P q *
    ddk1_D0D1 P q + c P q * dk1_D0 P q * ddk0_D1D2 P q + c P q * dk1_D1 P q * ddk0_D0D2 P q + c P q * dk1_D2 P q * ddk0_D0D1 P q + k0 P q * k1 P q * dddc_D0D1D2 P q + k0
    P q * dc_D0 P q * ddk1_D1D2 P q + k0 P q * dc_D1 P q * ddk1_D0D2 P q + k0 P q * dc_D2 P q * ddk1_D0D1 P q + k0 P q * dk1_D0 P q * ddc_D1D2 P q + k0 P q * dk1_D1 P q *
    ddc_D0D2 P q + k0 P q * dk1_D2 P q * ddc_D0D1 P q + k1 P q * dc_D0 P q * ddk0_D1D2 P q + k1 P q * dc_D1 P q * ddk0_D0D2 P q + k1 P q * dc_D2 P q * ddk0_D0D1 P q + k1
    P q * dk0_D0 P q * ddc_D1D2 P q + k1 P q * dk0_D1 P q * ddc_D0D2 P q + k1 P q * dk0_D2 P q * ddc_D0D1 P q + dc_D0 P q * dk0_D1 P q * dk1_D2 P q + dc_D0 P q * dk0_D2 P
    q * dk1_D1 P q + dc_D1 P q * dk0_D0 P q * dk1_D2 P q + dc_D1 P q * dk0_D2 P q * dk1_D0 P q + dc_D2 P q * dk0_D0 P q * dk1_D1 P q + dc_D2 P q * dk0_D1 P q * dk1_D0 P q

/-- Free_Data/fd_KerrSchild_g_dg_ddg_dddg.c:2530-2570 `_dddgamma_D0D1D1D1D0[ijk]` -/
noncomputable def dddgamma_D0D1D1D1D0 (P : Par) (q : Pt) : ℝ :=
  c P q * k0 P q * dddk1_D0D1D1 P q + c P q * k1 P q * dddk0_D0D1D1 P q + c P q * dk0_D0 P q * ddk1_D1D1 P q + 2 * c P q * dk0_D1 P q * ddk1_D0D1 P q + c P q * ddk0_D1D1
    P q * dk1_D0 P q + 2 * c P q * dk1_D1 P q * ddk0_D0D1 P q + k0 P q * k1 P q * dddc_D0D1D1 P q + k0 P q * dc_D0 P q * ddk1_D1D1 P q + 2 * k0 P q * dc_D1 P q *
    ddk1_D0D1 P q + k0 P q * ddc_D1D1 P q * dk1_D0 P q + 2 * k0 P q * dk1_D1 P q * ddc_D0D1 P q + k1 P q * dc_D0 P q * ddk0_D1D1 P q + 2 * k1 P q * dc_D1 P q * ddk0_D0D1
    P q + k1 P q * ddc_D1D1 P q * dk0_D0 P q + 2 * k1 P q * dk0_D1 P q * ddc_D0D1 P q + 2 * dc_D0 P q * dk0_D1 P q * dk1_D1 P q + 2 * dc_D1 P q * dk0_D0 P q * dk1_D1 P q
    + 2 * dc_D1 P q * dk0_D1 P q * dk1_D0 P q

/-- Free_Data/fd_KerrSchild_g_dg_ddg_dddg.c:4560-4585 `_dddgamma_D0D1D1D1D1[ijk]` -/
noncomputable def dddgamma_D0D1D1D1D1 (P : Par) (q : Pt) : ℝ :=
  c P q * k0 P q * dddk1_D1D1D1 P q + c P q * k1 P q * dddk0_D1D1D1 P q + 3 * c P q * dk0_D1 P q * ddk1_D1D1 P q + 3 * c P q * ddk0_D1D1 P q * dk1_D1 P q + k0 P q * k1 P
    q * dddc_D1D1D1 P q + 3 * k0 P q * dc_D1 P q * ddk1_D1D1 P q + 3 * k0 P q * ddc_D1D1 P q * dk1_D1 P q + 3 * k1 P q * dc_D1 P q * ddk0_D1D1 P q + 3 * k1 P q * ddc_D1D1
    P q * dk0_D1 P q + 6 * dc_D1 P q * dk0_D1 P q * dk1_D1 P q

/-- Free_Data/fd_KerrSchild_g_dg_ddg_dddg.c:5846-5886 `_dddgamma_D0D1D1D1D2[ijk]` -/
noncomputable def dddgamma_D0D1D1D1D2 (P : Par) (q : Pt) : ℝ :=
  c P q * k0 P q * dddk1_D1D1D2 P q + c P q * k1 P q * dddk0_D1D1D2 P q + 2 * c P q * dk0_D1 P q * ddk1_D1D2 P q + c P q * ddk0_D1D1 P q * dk1_D2 P q + c P q * dk0_D2 P q
    * ddk1_D1D1 P q + 2 * c P q * dk1_D1 P q * ddk0_D1D2 P q + k0 P q * k1 P q * dddc_D1D1D2 P q + 2 * k0 P q * dc_D1 P q * ddk1_D1D2 P q + k0 P q * ddc_D1D1 P q * dk1_D2
    P q + k0 P q * dc_D2 P q * ddk1_D1D1 P q + 2 * k0 P q * dk1_D1 P q * ddc_D1D2 P q + 2 * k1 P q * dc_D1 P q * ddk0_D1D2 P q + k1 P q * ddc_D1D1 P q * dk0_D2 P q + k1 P
    q * dc_D2 P q * ddk0_D1D1 P q + 2 * k1 P q * dk0_D1 P q * ddc_D1D2 P q + 2 * dc_D1 P q * dk0_D1 P q * dk1_D2 P q + 2 * dc_D1 P q * dk0_D2 P q * dk1_D1 P q + 2 * dc_D2
    P q * dk0_D1 P q * dk1_D1 P q

/-- Free_Data/fd_KerrSchild_g_dg_ddg_dddg.c:3413-3469 `_dddgamma_D0D1D1D2D0[ijk]` -/
noncomputable def dddgamma_D0D1D1D2D0 (P : Par) (q : Pt) : ℝ :=
  c P q * k0 P q * dddk1_D0D1D2 P q + c P q * k1 P q * dddk0_D0D1D2 P q + c P q * dk0_D0 P q * ddk1_D1D2 P q + c P q * dk0_D1 P q * ddk1_D0D2 P q + c P q * dk0_D2 P q *
    ddk1_D0D1 P q + c P q * dk1_D0 P q * ddk0_D1D2 P q + c P q * dk1_D1 P q * ddk0_D0D2 P q + c P q * dk1_D2 P q * ddk0_D0D1 P q + k0 P q * k1 P q * dddc_D0D1D2 P q + k0
    P q * dc_D0 P q * ddk1_D1D2 P q + k0 P q * dc_D1 P q * ddk1_D0D2 P q + k0 P q * dc_D2 P q * ddk1_D0D1 P q + k0 P q * dk1_D0 P q * ddc_D1D2 P q + k0 P q * dk1_D1 P q *
    ddc_D0D2 P q + k0 P q * dk1_D2 P q * ddc_D0D1 P q + k1 P q * dc_D0 P q * ddk0_D1D2 P q + k1 P q * dc_D1 P q * ddk0_D0D2 P q + k1 P q * dc_D2 P q * ddk0_D0D1 P q + k1
    P q * dk0_D0 P q * ddc_D1D2 P q + k1 P q * dk0_D1 P q * ddc_D0D2 P q + k1 P q * dk0_D2 P q * ddc_D0D1 P q + dc_D0 P q * dk0_D1 P q * dk1_D2 P q + dc_D0 P q * dk0_D2 P
    q * dk1_D1 P q + dc_D1 P q * dk0_D0 P q * dk1_D2 P q + dc_D1 P q * dk0_D2 P q * dk1_D0 P q + dc_D2 P q * dk0_D0 P q * dk1_D1 P q + dc_D2 P q * dk0_D1 P q * dk1_D0 P q

/-- Free_Data/fd_KerrSchild_g_dg_ddg_dddg.c:6313-6353 `_dddgamma_D0D1D1D2D1[ijk]` -/
noncomputable def dddgamma_D0D1D1D2D1 (P : Par) (q : Pt) : ℝ :=
  c P q * k0 P q * dddk1_D1D1D2 P q + c P q * k1 P q * dddk0_D1D1D2 P q + 2 * c P q * dk0_D1 P q * ddk1_D1D2 P q + c P q * ddk0_D1D1 P q * dk1_D2 P q + c P q * dk0_D2 P q
    * ddk1_D1D1 P q + 2 * c P q * dk1_D1 P q * ddk0_D1D2 P q + k0 P q * k1 P q * dddc_D1D1D2 P q + 2 * k0 P q * dc_D1 P q * ddk1_D1D2 P q + k0 P q * ddc_D1D1 P q * dk1_D2
    P q + k0 P q * dc_D2 P q * ddk1_D1D1 P q + 2 * k0 P q * dk1_D1 P q * ddc_D1D2 P q + 2 * k1 P q * dc_D1 P q * ddk0_D1D2 P q + k1 P q * ddc_D1D1 P q * dk0_D2 P q + k1 P
    q * dc_D2 P q * ddk0_D1D1 P q + 2 * k1 P q * dk0_D1 P q * ddc_D1D2 P q + 2 * dc_D1 P q * dk0_D1 P q * dk1_D2 P q + 2 * dc_D1 P q * dk0_D2 P q * dk1_D1 P q + 2 * dc_D2
    P q * dk0_D1 P q * dk1_D1 P q

/-- Free_Data/fd_KerrSchild_g_dg_ddg_dddg.c:7256-7296 `_dddgamma_D0D1D1D2D2[ijk]` -/
noncomputable def dddgamma_D0D1D1D2D2 (P : Par) (q : Pt) : ℝ :=
  c P q * k0 P q * dddk1_D1D2D2 P q + c P q * k1 P q * dddk0_D1D2D2 P q + c P q * dk0_D1 P q * ddk1_D2D2 P q + 2 * c P q * dk0_D2 P q * ddk1_D1D2 P q + c P q * ddk0_D2D2
    P q * dk1_D1 P q + 2 * c P q * dk1_D2 P q * ddk0_D1D2 P q + k0 P q * k1 P q * dddc_D1D2D2 P q + k0 P q * dc_D1 P q * ddk1_D2D2 P q + 2 * k0 P q * dc_D2 P q *
    ddk1_D1D2 P q + k0 P q * ddc_D2D2 P q * dk1_D1 P q + 2 * k0 P q * dk1_D2 P q * ddc_D1D2 P q + k1 P q * dc_D1 P q * ddk0_D2D2 P q + 2 * k1 P q * dc_D2 P q * ddk0_D1D2
    P q + k1 P q * ddc_D2D2 P q * dk0_D1 P q + 2 * k1 P q * dk0_D2 P q * ddc_D1D2 P q + 2 * dc_D1 P q * dk0_D2 P q * dk1_D2 P q + 2 * dc_D2 P q * dk0_D1 P q * dk1_D2 P q
    + 2 * dc_D2 P q * dk0_D2 P q * dk1_D1 P q

/-- Free_Data/fd_KerrSchild_g_dg_ddg_dddg.c:6397-6437 `_dddgamma_D0D1D2D0D0[ijk]` -/
noncomputable def dddgamma_D0D1D2D0D0 (P : Par) (q : Pt) : ℝ :=
  c P q * k0 P q * dddk1_D0D0D2 P q + c P q * k1 P q * dddk0_D0D0D2 P q + 2 * c P q * dk0_D0 P q * ddk1_D0D2 P q + c P q * ddk0_D0D0 P q * dk1_D2 P q + c P q * dk0_D2 P q
    * ddk1_D0D0 P q + 2 * c P q * dk1_D0 P q * ddk0_D0D2 P q + k0 P q * k1 P q * dddc_D0D0D2 P q + 2 * k0 P q * dc_D0 P q * ddk1_D0D2 P q + k0 P q * ddc_D0D0 P q * dk1_D2
    P q + k0 P q * dc_D2 P q * ddk1_D0D0 P q + 2 * k0 P q * dk1_D0 P q * ddc_D0D2 P q + 2 * k1 P q * dc_D0 P q * ddk0_D0D2 P q + k1 P q * ddc_D0D0 P q * dk0_D2 P q + k1 P
    q * dc_D2 P q * ddk0_D0D0 P q + 2 * k1 P q * dk0_D0 P q * ddc_D0D2 P q + 2 * dc_D0 P q * dk0_D0 P q * dk1_D2 P q + 2 * dc_D0 P q * dk0_D2 P q * dk1_D0 P q + 2 * dc_D2
    P q * dk0_D0 P q * dk1_D0 P q

/-- Free_Data/fd_KerrSchild_g_dg_ddg_dddg.c:1718-1774 `_dddgamma_D0D1D2D0D1[ijk]` -/
noncomputable def dddgamma_D0D1D2D0D1 (P : Par) (q : Pt) : ℝ :=
  c P q * k0 P q * dddk1_D0D1D2 P q + c P q * k1 P q * dddk0_D0D1D2 P q + c P q * dk0_D0 P q * ddk1_D1D2 P q + c P q * dk0_D1 P q * ddk1_D0D2 P q + c P q * dk0_D2 P q *
    ddk1_D0D1 P q + c P q * dk1_D0 P q * ddk0_D1D2 P q + c P q * dk1_D1 P q * ddk0_D0D2 P q + c P q * dk1_D2 P q * ddk0_D0D1 P q + k0 P q * k1 P q * dddc_D0D1D2 P q + k0
    P q * dc_D0 P q * ddk1_D1D2 P q + k0 P q * dc_D1 P q * ddk1_D0D2 P q + k0 P q * dc_D2 P q * ddk1_D0D1 P q + k0 P q * dk1_D0 P q * ddc_D1D2 P q + k0 P q * dk1_D1 P q *
    ddc_D0D2 P q + k0 P q * dk1_D2 P q * ddc_D0D1 P q + k1 P q * dc_D0 P q * ddk0_D1D2 P q + k1 P q * dc_D1 P q * ddk0_D0D2 P q + k1 P q * dc_D2 P q * ddk0_D0D1 P q + k1
    P q * dk0_D0 P q * ddc_D1D2 P q + k1 P q * dk0_D1 P q * ddc_D0D2 P q + k1 P q * dk0_D2 P q * ddc_D0D1 P q + dc_D0 P q * dk0_D1 P q * dk1_D2 P q + dc_D0 P q * dk0_D2 P
    q * dk1_D1 P q + dc_D1 P q * dk0_D0 P q * dk1_D2 P q + dc_D1 P q * dk0_D2 P q * dk1_D0 P q + dc_D2 P q * dk0_D0 P q * dk1_D1 P q + dc_D2 P q * dk0_D1 P q * dk1_D0 P q

/-- Free_Data/fd_KerrSchild_g_dg_ddg_dddg.c:3155-3195 `_dddgamma_D0D1D2D0D2[ijk]` -/
noncomputable def dddgamma_D0D1D2D0D2 (P : Par) (q : Pt) : ℝ :=
  c P q * k0 P q * dddk1_D0D2D2 P q + c P q * k1 P q * dddk0_D0D2D2 P q + c P q * dk0_D0 P q * ddk1_D2D2 P q + 2 * c P q * dk0_D2 P q * ddk1_D0D2 P q + c P q * ddk0_D2D2
    P q * dk1_D0 P q + 2 * c P q * dk1_D2 P q * ddk0_D0D2 P q + k0 P q * k1 P q * dddc_D0D2D2 P q + k0 P q * dc_D0 P q * ddk1_D2D2 P q + 2 * k0 P q * dc_D2 P q *
    ddk1_D0D2 P q + k0 P q * ddc_D2D2 P q * dk1_D0 P q + 2 * k0 P q * dk1_D2 P q * ddc_D0D2 P q + k1 P q * dc_D0 P q * ddk0_D2D2 P q + 2 * k1 P q * dc_D2 P q * ddk0_D0D2
    P q + k1 P q * ddc_D2D2 P q * dk0_D0 P q + 2 * k1 P q * dk0_D2 P q * ddc_D0D2 P q + 2 * dc_D0 P q * dk0_D2 P q * dk1_D2 P q + 2 * dc_D2 P q * dk0_D0 P q * dk1_D2 P q
    + 2 * dc_D2 P q * dk0_D2 P q * dk1_D0 P q

/-- Free_Data/fd_KerrSchild_g_dg_ddg_dddg.c:5694-5750 `_dddgamma_D0D1D2D1D0[ijk]` -/
noncomputable def dddgamma_D0D1D2D1D0 (P : Par) (q : Pt) : ℝ :=
  c P q * k0 P q * dddk1_D0D1D2 P q + c P q * k1 P q * dddk0_D0D1D2 P q + c P q * dk0_D0 P q * ddk1_D1D2 P q + c P q * dk0_D1 P q * ddk1_D0D2 P q + c P q * dk0_D2 P q *
    ddk1_D0D1 P q + c P q * dk1_D0 P q * ddk0_D1D2 P q + c P q * dk1_D1 P q * ddk0_D0D2 P q + c P q * dk1_D2 P q * ddk0_D0D1 P q + k0 P q * k1 P q * dddc_D0D1D2 P q + k0
    P q * dc_D0 P q * ddk1_D1D2 P q + k0 P q * dc_D1 P q * ddk1_D0D2 P q + k0 P q * dc_D2 P q * ddk1_D0D1 P q + k0 P q * dk1_D0 P q * ddc_D1D2 P q + k0 P q * dk1_D1 P q *
    ddc_D0D2 P q + k0 P q * dk1_D2 P q * ddc_D0D1 P q + k1 P q * dc_D0 P q * ddk0_D1D2 P q + k1 P q * dc_D1 P q * ddk0_D0D2 P q + k1 P q * dc_D2 P q * ddk0_D0D1 P q + k1
    P q * dk0_D0 P q * ddc_D1D2 P q + k1 P q * dk0_D1 P q * ddc_D0D2 P q + k1 P q * dk0_D2 P q * ddc_D0D1 P q + dc_D0 P q * dk0_D1 P q * dk1_D2 P q + dc_D0 P q * dk0_D2 P
    q * dk1_D1 P q + dc_D1 P q * dk0_D0 P q * dk1_D2 P q + dc_D1 P q * dk0_D2 P q * dk1_D0 P q + dc_D2 P q * dk0_D0 P q * dk1_D1 P q + dc_D2 P q * dk0_D1 P q * dk1_D0 P q

/-- Free_Data/fd_KerrSchild_g_dg_ddg_dddg.c:2428-2468 `_dddgamma_D0D1D2D1D1[ijk]` -/
noncomputable def dddgamma_D0D1D2D1D1 (P : Par) (q : Pt) : ℝ :=
  c P q * k0 P q * dddk1_D1D1D2 P q + c P q * k1 P q * dddk0_D1D1D2 P q + 2 * c P q * dk0_D1 P q * ddk1_D1D2 P q + c P q * ddk0_D1D1 P q * dk1_D2 P q + c P q * dk0_D2 P q
    * ddk1_D1D1 P q + 2 * c P q * dk1_D1 P q * ddk0_D1D2 P q + k0 P q * k1 P q * dddc_D1D1D2 P q + 2 * k0 P q * dc_D1 P q * ddk1_D1D2 P q + k0 P q * ddc_D1D1 P q * dk1_D2
    P q + k0 P q * dc_D2 P q * ddk1_D1D1 P q + 2 * k0 P q * dk1_D1 P q * ddc_D1D2 P q + 2 * k1 P q * dc_D1 P q * ddk0_D1D2 P q + k1 P q * ddc_D1D1 P q * dk0_D2 P q + k1 P
    q * dc_D2 P q * ddk0_D1D1 P q + 2 * k1 P q * dk0_D1 P q * ddc_D1D2 P q + 2 * dc_D1 P q * dk0_D1 P q * dk1_D2 P q + 2 * dc_D1 P q * dk0_D2 P q * dk1_D1 P q + 2 * dc_D2
    P q * dk0_D1 P q * dk1_D1 P q

/-- Free_Data/fd_KerrSchild_g_dg_ddg_dddg.c:2251-2291 `_dddgamma_D0D1D2D1D2[ijk]` -/
noncomputable def dddgamma_D0D1D2D1D2 (P : Par) (q : Pt) : ℝ :=
  c P q * k0 P q * dddk1_D1D2D2 P q + c P q * k1 P q * dddk0_D1D2D2 P q + c P q * dk0_D1 P q * ddk1_D2D2 P q + 2 * c P q * dk0_D2 P q * ddk1_D1D2 P q + c P q * ddk0_D2D2
    P q * dk1_D1 P q + 2 * c P q * dk1_D2 P q * ddk0_D1D2 P q + k0 P q * k1 P q * dddc_D1D2D2 P q + k0 P q * dc_D1 P q * ddk1_D2D2 P q + 2 * k0 P q * dc_D2 P q *
    ddk1_D1D2 P q + k0 P q * ddc_D2D2 P q * dk1_D1 P q + 2 * k0 P q * dk1_D2 P q * ddc_D1D2 P q + k1 P q * dc_D1 P q * ddk0_D2D2 P q + 2 * k1 P q * dc_D2 P q * ddk0_D1D2
    P q + k1 P q * ddc_D2D2 P q * dk0_D1 P q + 2 * k1 P q * dk0_D2 P q * ddc_D1D2 P q + 2 * dc_D1 P q * dk0_D2 P q * dk1_D2 P q + 2 * dc_D2 P q * dk0_D1 P q * dk1_D2 P q
    + 2 * dc_D2 P q * dk0_D2 P q * dk1_D1 P q

/-- Free_Data/fd_KerrSchild_g_dg_ddg_dddg.c:6015-6055 `_dddgamma_D0D1D2D2D0[ijk]` -/
noncomputable def dddgamma_D0D1D2D2D0 (P : Par) (q : Pt) : ℝ :=
  c P q * k0 P q * dddk1_D0D2D2 P q + c P q * k1 P q * dddk0_D0D2D2 P q + c P q * dk0_D0 P q * ddk1_D2D2 P q + 2 * c P q * dk0_D2 P q * ddk1_D0D2 P q + c P q * ddk0_D2D2
    P q * dk1_D0 P q + 2 * c P q * dk1_D2 P q * ddk0_D0D2 P q + k0 P q * k1 P q * dddc_D0D2D2 P q + k0 P q * dc_D0 P q * ddk1_D2D2 P q + 2 * k0 P q * dc_D2 P q *
    ddk1_D0D2 P q + k0 P q * ddc_D2D2 P q * dk1_D0 P q + 2 * k0 P q * dk1_D2 P q * ddc_D0D2 P q + k1 P q * dc_D0 P q * ddk0_D2D2 P q + 2 * k1 P q * dc_D2 P q * ddk0_D0D2
    P q + k1 P q * ddc_D2D2 P q * dk0_D0 P q + 2 * k1 P q * dk0_D2 P q * ddc_D0D2 P q + 2 * dc_D0 P q * dk0_D2 P q * dk1_D2 P q + 2 * dc_D2 P q * dk0_D0 P q * dk1_D2 P q
    + 2 * dc_D2 P q * dk0_D2 P q * dk1_D0 P q

/-- Free_Data/fd_KerrSchild_g_dg_ddg_dddg.c:1676-1716 `_dddgamma_D0D1D2D2D1[ijk]` -/
noncomputable def dddgamma_D0D1D2D2D1 (P : Par) (q : Pt) : ℝ :=
  c P q * k0 P q * dddk1_D1D2D2 P q + c P q * k1 P q * dddk0_D1D2D2 P q + c P q * dk0_D1 P q * ddk1_D2D2 P q + 2 * c P q * dk0_D2 P q * ddk1_D1D2 P q + c P q * ddk0_D2D2
    P q * dk1_D1 P q + 2 * c P q * dk1_D2 P q * ddk0_D1D2 P q + k0 P q * k1 P q * dddc_D1D2D2 P q + k0 P q * dc_D1 P q * ddk1_D2D2 P q + 2 * k0 P q * dc_D2 P q *
    ddk1_D1D2 P q + k0 P q * ddc_D2D2 P q * dk1_D1 P q + 2 * k0 P q * dk1_D2 P q * ddc_D1D2 P q + k1 P q * dc_D1 P q * ddk0_D2D2 P q + 2 * k1 P q * dc_D2 P q * ddk0_D1D2
    P q + k1 P q * ddc_D2D2 P q * dk0_D1 P q + 2 * k1 P q * dk0_D2 P q * ddc_D1D2 P q + 2 * dc_D1 P q * dk0_D2 P q * dk1_D2 P q + 2 * dc_D2 P q * dk0_D1 P q * dk1_D2 P q
    + 2 * dc_D2 P q * dk0_D2 P q * dk1_D1 P q

/-- Free_Data/fd_KerrSchild_g_dg_ddg_dddg.c:3224-3249 `_dddgamma_D0D1D2D2D2[ijk]` -/
noncomputable def dddgamma_D0D1D2D2D2 (P : Par) (q : Pt) : ℝ :=
  c P q * k0 P q * dddk1_D2D2D2 P q + c P q * k1 P q * dddk0_D2D2D2 P q + 3 * c P q * dk0_D2 P q * ddk1_D2D2 P q + 3 * c P q * ddk0_D2D2 P q * dk1_D2 P q + k0 P q * k1 P
    q * dddc_D2D2D2 P q + 3 * k0 P q * dc_D2 P q * ddk1_D2D2 P q + 3 * k0 P q * ddc_D2D2 P q * dk1_D2 P q + 3 * k1 P q * dc_D2 P q * ddk0_D2D2 P q + 3 * k1 P q * ddc_D2D2
    P q * dk0_D2 P q + 6 * dc_D2 P q * dk0_D2 P q * dk1_D2 P q

/-- Free_Data/fd_KerrSchild_g_dg_ddg_dddg.c:3742-3767 `_dddgamma_D0D2D0D0D0[ijk]` -/
noncomputable def dddgamma_D0D2D0D0D0 (P : Par) (q : Pt) : ℝ :=
  c P q * k0 P q * dddk2_D0D0D0 P q + c P q * k2 P q * dddk0_D0D0D0 P q + 3 * c P q * dk0_D0 P q * ddk2_D0D0 P q + 3 * c P q * ddk0_D0D0 P q * dk2_D0 P q + k0 P q * k2 P
    q * dddc_D0D0D0 P q + 3 * k0 P q * dc_D0 P q * ddk2_D0D0 P q + 3 * k0 P q * ddc_D0D0 P q * dk2_D0 P q + 3 * k2 P q * dc_D0 P q * ddk0_D0D0 P q + 3 * k2 P q * ddc_D0D0
    P q * dk0_D0 P q + 6 * dc_D0 P q * dk0_D0 P q * dk2_D0 P q

/-- Free_Data/fd_KerrSchild_g_dg_ddg_dddg.c:1845-1885 `_dddgamma_D0D2D0D0D1[ijk]` -/
noncomputable def dddgamma_D0D2D0D0D1 (P : Par) (q : Pt) : ℝ :=
  c P q * k0 P q * dddk2_D0D0D1 P q + c P q * k2 P q * dddk0_D0D0D1 P q + 2 * c P q * dk0_D0 P q * ddk2_D0D1 P q + c P q * ddk0_D0D0 P q * dk2_D1 P q + c P q * dk0_D1 P q
    * ddk2_D0D0 P q + 2 * c P q * dk2_D0 P q * ddk0_D0D1 P q + k0 P q * k2 P q * dddc_D0D0D1 P q + 2 * k0 P q * dc_D0 P q * ddk2_D0D1 P q + k0 P q * ddc_D0D0 P q * dk2_D1
    P q + k0 P q * dc_D1 P q * ddk2_D0D0 P q + 2 * k0 P q * dk2_D0 P q * ddc_D0D1 P q + 2 * k2 P q * dc_D0 P q * ddk0_D0D1 P q + k2 P q * ddc_D0D0 P q * dk0_D1 P q + k2 P
    q * dc_D1 P q * ddk0_D0D0 P q + 2 * k2 P q * dk0_D0 P q * ddc_D0D1 P q + 2 * dc_D0 P q * dk0_D0 P q * dk2_D1 P q + 2 * dc_D0 P q * dk0_D1 P q * dk2_D0 P q + 2 * dc_D1
    P q * dk0_D0 P q * dk2_D0 P q

/-- Free_Data/fd_KerrSchild_g_dg_ddg_dddg.c:3673-3713 `_dddgamma_D0D2D0D0D2[ijk]` -/
noncomputable def dddgamma_D0D2D0D0D2 (P : Par) (q : Pt) : ℝ :=
  c P q * k0 P q * dddk2_D0D0D2 P q + c P q * k2 P q * dddk0_D0D0D2 P q + 2 * c P q * dk0_D0 P q * ddk2_D0D2 P q + c P q * ddk0_D0D0 P q * dk2_D2 P q + c P q * dk0_D2 P q
    * ddk2_D0D0 P q + 2 * c P q * dk2_D0 P q * ddk0_D0D2 P q + k0 P q * k2 P q * dddc_D0D0D2 P q + 2 * k0 P q * dc_D0 P q * ddk2_D0D2 P q + k0 P q * ddc_D0D0 P q * dk2_D2
    P q + k0 P q * dc_D2 P q * ddk2_D0D0 P q + 2 * k0 P q * dk2_D0 P q * ddc_D0D2 P q + 2 * k2 P q * dc_D0 P q * ddk0_D0D2 P q + k2 P q * ddc_D0D0 P q * dk0_D2 P q + k2 P
    q * dc_D2 P q * ddk0_D0D0 P q + 2 * k2 P q * dk0_D0 P q * ddc_D0D2 P q + 2 * dc_D0 P q * dk0_D0 P q * dk2_D2 P q + 2 * dc_D0 P q * dk0_D2 P q * dk2_D0 P q + 2 * dc_D2
    P q * dk0_D0 P q * dk2_D0 P q

/-- Free_Data/fd_KerrSchild_g_dg_ddg_dddg.c:4710-4750 `_dddgamma_D0D2D0D1D0[ijk]` -/
noncomputable def dddgamma_D0D2D0D1D0 (P : Par) (q : Pt) : ℝ :=
  c P q * k0 P q * dddk2_D0D0D1 P q + c P q * k2 P q * dddk0_D0D0D1 P q + 2 * c P q * dk0_D0 P q * ddk2_D0D1 P q + c P q * ddk0_D0D0 P q * dk2_D1 P q + c P q * dk0_D1 P q
    * ddk2_D0D0 P q + 2 * c P q * dk2_D0 P q * ddk0_D0D1 P q + k0 P q * k2 P q * dddc_D0D0D1 P q + 2 * k0 P q * dc_D0 P q * ddk2_D0D1 P q + k0 P q * ddc_D0D0 P q * dk2_D1
    P q + k0 P q * dc_D1 P q * ddk2_D0D0 P q + 2 * k0 P q * dk2_D0 P q * ddc_D0D1 P q + 2 * k2 P q * dc_D0 P q * ddk0_D0D1 P q + k2 P q * ddc_D0D0 P q * dk0_D1 P q + k2 P
    q * dc_D1 P q * ddk0_D0D0 P q + 2 * k2 P q * dk0_D0 P q * ddc_D0D1 P q + 2 * dc_D0 P q * dk0_D0 P q * dk2_D1 P q + 2 * dc_D0 P q * dk0_D1 P q * dk2_D0 P q + 2 * dc_D1
    P q * dk0_D0 P q * dk2_D0 P q

/-- Free_Data/fd_KerrSchild_g_dg_ddg_dddg.c:2840-2880 `_dddgamma_D0D2D0D1D1[ijk]` -/
noncomputable def dddgamma_D0D2D0D1D1 (P : Par) (q : Pt) : ℝ :=
  c P q * k0 P q * dddk2_D0D1D1 P q + c P q * k2 P q * dddk0_D0D1D1 P q + c P q * dk0_D0 P q * ddk2_D1D1 P q + 2 * c P q * dk0_D1 P q * ddk2_D0D1 P q + c P q * ddk0_D1D1
    P q * dk2_D0 P q + 2 * c P q * dk2_D1 P q * ddk0_D0D1 P q + k0 P q * k2 P q * dddc_D0D1D1 P q + k0 P q * dc_D0 P q * ddk2_D1D1 P q + 2 * k0 P q * dc_D1 P q *
    ddk2_D0D1 P q + k0 P q * ddc_D1D1 P q * dk2_D0 P q + 2 * k0 P q * dk2_D1 P q * ddc_D0D1 P q + k2 P q * dc_D0 P q * ddk0_D1D1 P q + 2 * k2 P q * dc_D1 P q * ddk0_D0D1
    P q + k2 P q * ddc_D1D1 P q * dk0_D0 P q + 2 * k2 P q * dk0_D1 P q * ddc_D0D1 P q + 2 * dc_D0 P q * dk0_D1 P q * dk2_D1 P q + 2 * dc_D1 P q * dk0_D0 P q * dk2_D1 P q
    + 2 * dc_D1 P q * dk0_D1 P q * dk2_D0 P q

/-- Free_Data/fd_KerrSchild_g_dg_ddg_dddg.c:6057-6113 `_dddgamma_D0D2D0D1D2[ijk]` -/
noncomputable def dddgamma_D0D2D0D1D2 (P : Par) (q : Pt) : ℝ :=
  c P q * k0 P q * dddk2_D0D1D2 P q + c P q * k2 P q * dddk0_D0D1D2 P q + c P q * dk0_D0 P q * ddk2_D1D2 P q + c P q * dk0_D1 P q * ddk2_D0D2 P q + c P q * dk0_D2 P q *
    ddk2_D0D1 P q + c P q * dk2_D0 P q * ddk0_D1D2 P q + c P q * dk2_D1 P q * ddk0_D0D2 P q + c P q * dk2_D2 P q * ddk0_D0D1 P q + k0 P q * k2 P q * dddc_D0D1D2 P q + k0
    P q * dc_D0 P q * ddk2_D1D2 P q + k0 P q * dc_D1 P q * ddk2_D0D2 P q + k0 P q * dc_D2 P q * ddk2_D0D1 P q + k0 P q * dk2_D0 P q * ddc_D1D2 P q + k0 P q * dk2_D1 P q *
    ddc_D0D2 P q + k0 P q * dk2_D2 P q * ddc_D0D1 P q + k2 P q * dc_D0 P q * ddk0_D1D2 P q + k2 P q * dc_D1 P q * ddk0_D0D2 P q + k2 P q * dc_D2 P q * ddk0_D0D1 P q + k2
    P q * dk0_D0 P q * ddc_D1D2 P q + k2 P q * dk0_D1 P q * ddc_D0D2 P q + k2 P q * dk0_D2 P q * ddc_D0D1 P q + dc_D0 P q * dk0_D1 P q * dk2_D2 P q + dc_D0 P q * dk0_D2 P
    q * dk2_D1 P q + dc_D1 P q * dk0_D0 P q * dk2_D2 P q + dc_D1 P q * dk0_D2 P q * dk2_D0 P q + dc_D2 P q * dk0_D0 P q * dk2_D1 P q + dc_D2 P q * dk0_D1 P q * dk2_D0 P q

/-- Free_Data/fd_KerrSchild_g_dg_ddg_dddg.c:4283-4323 `_dddgamma_D0D2D0D2D0[ijk]` -/
noncomputable def dddgamma_D0D2D0D2D0 (P : Par) (q : Pt) : ℝ :=
  c P q * k0 P q * dddk2_D0D0D2 P q + c P q * k2 P q * dddk0_D0D0D2 P q + 2 * c P q * dk0_D0 P q * ddk2_D0D2 P q + c P q * ddk0_D0D0 P q * dk2_D2 P q + c P q * dk0_D2 P q
    * ddk2_D0D0 P q + 2 * c P q * dk2_D0 P q * ddk0_D0D2 P q + k0 P q * k2 P q * dddc_D0D0D2 P q + 2 * k0 P q * dc_D0 P q * ddk2_D0D2 P q + k0 P q * ddc_D0D0 P q * dk2_D2
    P q + k0 P q * dc_D2 P q * ddk2_D0D0 P q + 2 * k0 P q * dk2_D0 P q * ddc_D0D2 P q + 2 * k2 P q * dc_D0 P q * ddk0_D0D2 P q + k2 P q * ddc_D0D0 P q * dk0_D2 P q + k2 P
    q * dc_D2 P q * ddk0_D0D0 P q + 2 * k2 P q * dk0_D0 P q * ddc_D0D2 P q + 2 * dc_D0 P q * dk0_D0 P q * dk2_D2 P q + 2 * dc_D0 P q * dk0_D2 P q * dk2_D0 P q + 2 * dc_D2
    P q * dk0_D0 P q * dk2_D0 P q

/-- Free_Data/fd_KerrSchild_g_dg_ddg_dddg.c:2025-2081 `_dddgamma_D0D2D0D2D1[ijk]` -/
noncomputable def dddgamma_D0D2D0D2D1 (P : Par) (q : Pt) : ℝ :=
  c P q * k0 P q * dddk2_D0D1D2 P q + c P q * k2 P q * dddk0_D0D1D2 P q + c P q * dk0_D0 P q * ddk2_D1D2 P q + c P q * dk0_D1 P q * ddk2_D0D2 P q + c P q * dk0_D2 P q *
    ddk2_D0D1 P q + c P q * dk2_D0 P q * ddk0_D1D2 P q + c P q * dk2_D1 P q * ddk0_D0D2 P q + c P q * dk2_D2 P q * ddk0_D0D1 P q + k0 P q * k2 P q * dddc_D0D1D2 P q + k0
    P q * dc_D0 P q * ddk2_D1D2 P q + k0 P q * dc_D1 P q * ddk2_D0D2 P q + k0 P q * dc_D2 P q * ddk2_D0D1 P q + k0 P q * dk2_D0 P q * ddc_D1D2 P q + k0 P q * dk2_D1 P q *
    ddc_D0D2 P q + k0 P q * dk2_D2 P q * ddc_D0D1 P q + k2 P q * dc_D0 P q * ddk0_D1D2 P q + k2 P q * dc_D1 P q * ddk0_D0D2 P q + k2 P q * dc_D2 P q * ddk0_D0D1 P q + k2
    P q * dk0_D0 P q * ddc_D1D2 P q + k2 P q * dk0_D1 P q * ddc_D0D2 P q + k2 P q * dk0_D2 P q * ddc_D0D1 P q + dc_D0 P q * dk0_D1 P q * dk2_D2 P q + dc_D0 P q * dk0_D2 P
    q * dk2_D1 P q + dc_D1 P q * dk0_D0 P q * dk2_D2 P q + dc_D1 P q * dk0_D2 P q * dk2_D0 P q + dc_D2 P q * dk0_D0 P q * dk2_D1 P q + dc_D2 P q * dk0_D1 P q * dk2_D0 P q

/-- Free_Data/fd_KerrSchild_g_dg_ddg_dddg.c:1887-1927 `_dddgamma_D0D2D0D2D2[ijk]` -/
noncomputable def dddgamma_D0D2D0D2D2 (P : Par) (q : Pt) : ℝ :=
  c P q * k0 P q * dddk2_D0D2D2 P q + c P q * k2 P q * dddk0_D0D2D2 P q + c P q * dk0_D0 P q * ddk2_D2D2 P q + 2 * c P q * dk0_D2 P q * ddk2_D0D2 P q + c P q * ddk0_D2D2
    P q * dk2_D0 P q + 2 * c P q * dk2_D2 P q * ddk0_D0D2 P q + k0 P q * k2 P q * dddc_D0D2D2 P q + k0 P q * dc_D0 P q * ddk2_D2D2 P q + 2 * k0 P q * dc_D2 P q *
    ddk2_D0D2 P q + k0 P q * ddc_D2D2 P q * dk2_D0 P q + 2 * k0 P q * dk2_D2 P q * ddc_D0D2 P q + k2 P q * dc_D0 P q * ddk0_D2D2 P q + 2 * k2 P q * dc_D2 P q * ddk0_D0D2
    P q + k2 P q * ddc_D2D2 P q * dk0_D0 P q + 2 * k2 P q * dk0_D2 P q * ddc_D0D2 P q + 2 * dc_D0 P q * dk0_D2 P q * dk2_D2 P q + 2 * dc_D2 P q * dk0_D0 P q * dk2_D2 P q
    + 2 * dc_D2 P q * dk0_D2 P q * dk2_D0 P q

/-- Free_Data/fd_KerrSchild_g_dg_ddg_dddg.c:3071-3111 `_dddgamma_D0D2D1D0D0[ijk]` -/
noncomputable def dddgamma_D0D2D1D0D0 (P : Par) (q : Pt) : ℝ :=
  c P q * k0 P q * dddk2_D0D0D1 P q + c P q * k2 P q * dddk0_D0D0D1 P q + 2 * c P q * dk0_D0 P q * ddk2_D0D1 P q + c P q * ddk0_D0D0 P q * dk2_D1 P q + c P q * dk0_D1 P q
    * ddk2_D0D0 P q + 2 * c P q * dk2_D0 P q * ddk0_D0D1 P q + k0 P q * k2 P q * dddc_D0D0D1 P q + 2 * k0 P q * dc_D0 P q * ddk2_D0D1 P q + k0 P q * ddc_D0D0 P q * dk2_D1
    P q + k0 P q * dc_D1 P q * ddk2_D0D0 P q + 2 * k0 P q * dk2_D0 P q * ddc_D0D1 P q + 2 * k2 P q * dc_D0 P q * ddk0_D0D1 P q + k2 P q * ddc_D0D0 P q * dk0_D1 P q + k2 P
    q * dc_D1 P q * ddk0_D0D0 P q + 2 * k2 P q * dk0_D0 P q * ddc_D0D1 P q + 2 * dc_D0 P q * dk0_D0 P q * dk2_D1 P q + 2 * dc_D0 P q * dk0_D1 P q * dk2_D0 P q + 2 * dc_D1
    P q * dk0_D0 P q * dk2_D0 P q

/-- Free_Data/fd_KerrSchild_g_dg_ddg_dddg.c:2882-2922 `_dddgamma_D0D2D1D0D1[ijk]` -/
noncomputable def dddgamma_D0D2D1D0D1 (P : Par) (q : Pt) : ℝ :=
  c P q * k0 P q * dddk2_D0D1D1 P q + c P q * k2 P q * dddk0_D0D1D1 P q + c P q * dk0_D0 P q * ddk2_D1D1 P q + 2 * c P q * dk0_D1 P q * ddk2_D0D1 P q + c P q * ddk0_D1D1
    P q * dk2_D0 P q + 2 * c P q * dk2_D1 P q * ddk0_D0D1 P q + k0 P q * k2 P q * dddc_D0D1D1 P q + k0 P q * dc_D0 P q * ddk2_D1D1 P q + 2 * k0 P q * dc_D1 P q *
    ddk2_D0D1 P q + k0 P q * ddc_D1D1 P q * dk2_D0 P q + 2 * k0 P q * dk2_D1 P q * ddc_D0D1 P q + k2 P q * dc_D0 P q * ddk0_D1D1 P q + 2 * k2 P q * dc_D1 P q * ddk0_D0D1
    P q + k2 P q * ddc_D1D1 P q * dk0_D0 P q + 2 * k2 P q * dk0_D1 P q * ddc_D0D1 P q + 2 * dc_D0 P q * dk0_D1 P q * dk2_D1 P q + 2 * dc_D1 P q * dk0_D0 P q * dk2_D1 P q
    + 2 * dc_D1 P q * dk0_D1 P q * dk2_D0 P q

/-- Free_Data/fd_KerrSchild_g_dg_ddg_dddg.c:5752-5808 `_dddgamma_D0D2D1D0D2[ijk]` -/
noncomputable def dddgamma_D0D2D1D0D2 (P : Par) (q : Pt) : ℝ :=
  c P q * k0 P q * dddk2_D0D1D2 P q + c P q * k2 P q * dddk0_D0D1D2 P q + c P q * dk0_D0 P q * ddk2_D1D2 P q + c P q * dk0_D1 P q * ddk2_D0D2 P q + c P q * dk0_D2 P q *
    ddk2_D0D1 P q + c P q * dk2_D0 P q * ddk0_D1D2 P q + c P q * dk2_D1 P q * ddk0_D0D2 P q + c P q * dk2_D2 P q * ddk0_D0D1 P q + k0 P q * k2 P q * dddc_D0D1D2 P q + k0
    P q * dc_D0 P q * ddk2_D1D2 P q + k0 P q * dc_D1 P q * ddk2_D0D2 P q + k0 P q * dc_D2 P q * ddk2_D0D1 P q + k0 P q * dk2_D0 P q * ddc_D1D2 P q + k0 P q * dk2_D1 P q *
    ddc_D0D2 P q + k0 P q * dk2_D2 P q * ddc_D0D1 P q + k2 P q * dc_D0 P q * ddk0_D1D2 P q + k2 P q * dc_D1 P q * ddk0_D0D2 P q + k2 P q * dc_D2 P q * ddk0_D0D1 P q + k2
    P q * dk0_D0 P q * ddc_D1D2 P q + k2 P q * dk0_D1 P q * ddc_D0D2 P q + k2 P q * dk0_D2 P q * ddc_D0D1 P q + dc_D0 P q * dk0_D1 P q * dk2_D2 P q + dc_D0 P q * dk0_D2 P
    q * dk2_D1 P q + dc_D1 P q * dk0_D0 P q * dk2_D2 P q + dc_D1 P q * dk0_D2 P q * dk2_D0 P q + dc_D2 P q * dk0_D0 P q * dk2_D1 P q + dc_D2 P q * dk0_D1 P q * dk2_D0 P q

/-- Free_Data/fd_KerrSchild_g_dg_ddg_dddg.c:2155-2195 `_dddgamma_D0D2D1D1D0[ijk]` -/
noncomputable def dddgamma_D0D2D1D1D0 (P : Par) (q : Pt) : ℝ :=
  c P q * k0 P q * dddk2_D0D1D1 P q + c P q * k2 P q * dddk0_D0D1D1 P q + c P q * dk0_D0 P q * ddk2_D1D1 P q + 2 * c P q * dk0_D1 P q * ddk2_D0D1 P q + c P q * ddk0_D1D1
    P q * dk2_D0 P q + 2 * c P q * dk2_D1 P q * ddk0_D0D1 P q + k0 P q * k2 P q * dddc_D0D1D1 P q + k0 P q * dc_D0 P q * ddk2_D1D1 P q + 2 * k0 P q * dc_D1 P q *
    ddk2_D0D1 P q + k0 P q * ddc_D1D1 P q * dk2_D0 P q + 2 * k0 P q * dk2_D1 P q * ddc_D0D1 P q + k2 P q * dc_D0 P q * ddk0_D1D1 P q + 2 * k2 P q * dc_D1 P q * ddk0_D0D1
    P q + k2 P q * ddc_D1D1 P q * dk0_D0 P q + 2 * k2 P q * dk0_D1 P q * ddc_D0D1 P q + 2 * dc_D0 P q * dk0_D1 P q * dk2_D1 P q + 2 * dc_D1 P q * dk0_D0 P q * dk2_D1 P q
    + 2 * dc_D1 P q * dk0_D1 P q * dk2_D0 P q

/-- Free_Data/fd_KerrSchild_g_dg_ddg_dddg.c:7202-7227 `_dddgamma_D0D2D1D1D1[ijk]` -/
noncomputable def dddgamma_D0D2D1D1D1 (P : Par) (q : Pt) : ℝ :=
  c P q * k0 P q * dddk2_D1D1D1 P q + c P q * k2 P q * dddk0_D1D1D1 P q + 3 * c P q * dk0_D1 P q * ddk2_D1D1 P q + 3 * c P q * ddk0_D1D1 P q * dk2_D1 P q + k0 P q * k2 P
    q * dddc_D1D1D1 P q + 3 * k0 P q * dc_D1 P q * ddk2_D1D1 P q + 3 * k0 P q * ddc_D1D1 P q * dk2_D1 P q + 3 * k2 P q * dc_D1 P q * ddk0_D1D1 P q + 3 * k2 P q * ddc_D1D1
    P q * dk0_D1 P q + 6 * dc_D1 P q * dk0_D1 P q * dk2_D1 P q

/-- Free_Data/fd_KerrSchild_g_dg_ddg_dddg.c:6754-6794 `_dddgamma_D0D2D1D1D2[ijk]` -/
noncomputable def dddgamma_D0D2D1D1D2 (P : Par) (q : Pt) : ℝ :=
  c P q * k0 P q * dddk2_D1D1D2 P q + c P q * k2 P q * dddk0_D1D1D2 P q + 2 * c P q * dk0_D1 P q * ddk2_D1D2 P q + c P q * ddk0_D1D1 P q * dk2_D2 P q + c P q * dk0_D2 P q
    * ddk2_D1D1 P q + 2 * c P q * dk2_D1 P q * ddk0_D1D2 P q + k0 P q * k2 P q * dddc_D1D1D2 P q + 2 * k0 P q * dc_D1 P q * ddk2_D1D2 P q + k0 P q * ddc_D1D1 P q * dk2_D2
    P q + k0 P q * dc_D2 P q * ddk2_D1D1 P q + 2 * k0 P q * dk2_D1 P q * ddc_D1D2 P q + 2 * k2 P q * dc_D1 P q * ddk0_D1D2 P q + k2 P q * ddc_D1D1 P q * dk0_D2 P q + k2 P
    q * dc_D2 P q * ddk0_D1D1 P q + 2 * k2 P q * dk0_D1 P q * ddc_D1D2 P q + 2 * dc_D1 P q * dk0_D1 P q * dk2_D2 P q + 2 * dc_D1 P q * dk0_D2 P q * dk2_D1 P q + 2 * dc_D2
    P q * dk0_D1 P q * dk2_D1 P q

/-- Free_Data/fd_KerrSchild_g_dg_ddg_dddg.c:5498-5554 `_dddgamma_D0D2D1D2D0[ijk]` -/
noncomputable def dddgamma_D0D2D1D2D0 (P : Par) (q : Pt) : ℝ :=
  c P q * k0 P q * dddk2_D0D1D2 P q + c P q * k2 P q * dddk0_D0D1D2 P q + c P q * dk0_D0 P q * ddk2_D1D2 P q + c P q * dk0_D1 P q * ddk2_D0D2 P q + c P q * dk0_D2 P q *
    ddk2_D0D1 P q + c P q * dk2_D0 P q * ddk0_D1D2 P q + c P q * dk2_D1 P q * ddk0_D0D2 P q + c P q * dk2_D2 P q * ddk0_D0D1 P q + k0 P q * k2 P q * dddc_D0D1D2 P q + k0
    P q * dc_D0 P q * ddk2_D1D2 P q + k0 P q * dc_D1 P q * ddk2_D0D2 P q + k0 P q * dc_D2 P q * ddk2_D0D1 P q + k0 P q * dk2_D0 P q * ddc_D1D2 P q + k0 P q * dk2_D1 P q *
    ddc_D0D2 P q + k0 P q * dk2_D2 P q * ddc_D0D1 P q + k2 P q * dc_D0 P q * ddk0_D1D2 P q + k2 P q * dc_D1 P q * ddk0_D0D2 P q + k2 P q * dc_D2 P q * ddk0_D0D1 P q + k2
    P q * dk0_D0 P q * ddc_D1D2 P q + k2 P q * dk0_D1 P q * ddc_D0D2 P q + k2 P q * dk0_D2 P q * ddc_D0D1 P q + dc_D0 P q * dk0_D1 P q * dk2_D2 P q + dc_D0 P q * dk0_D2 P
    q * dk2_D1 P q + dc_D1 P q * dk0_D0 P q * dk2_D2 P q + dc_D1 P q * dk0_D2 P q * dk2_D0 P q + dc_D2 P q * dk0_D0 P q * dk2_D1 P q + dc_D2 P q * dk0_D1 P q * dk2_D0 P q

/-- Free_Data/fd_KerrSchild_g_dg_ddg_dddg.c:4752-4792 `_dddgamma_D0D2D1D2D1[ijk]` -/
noncomputable def dddgamma_D0D2D1D2D1 (P : Par) (q : Pt) : ℝ :=
  c P q * k0 P q * dddk2_D1D1D2 P q + c P q * k2 P q * dddk0_D1D1D2 P q + 2 * c P q * dk0_D1 P q * ddk2_D1D2 P q + c P q * ddk0_D1D1 P q * dk2_D2 P q + c P q * dk0_D2 P q
    * ddk2_D1D1 P q + 2 * c P q * dk2_D1 P q * ddk0_D1D2 P q + k0 P q * k2 P q * dddc_D1D1D2 P q + 2 * k0 P q * dc_D1 P q * ddk2_D1D2 P q + k0 P q * ddc_D1D1 P q * dk2_D2
    P q + k0 P q * dc_D2 P q * ddk2_D1D1 P q + 2 * k0 P q * dk2_D1 P q * ddc_D1D2 P q + 2 * k2 P q * dc_D1 P q * ddk0_D1D2 P q + k2 P q * ddc_D1D1 P q * dk0_D2 P q + k2 P
    q * dc_D2 P q * ddk0_D1D1 P q + 2 * k2 P q * dk0_D1 P q * ddc_D1D2 P q + 2 * dc_D1 P q * dk0_D1 P q * dk2_D2 P q + 2 * dc_D1 P q * dk0_D2 P q * dk2_D1 P q + 2 * dc_D2
    P q * dk0_D1 P q * dk2_D1 P q

/-- Free_Data/fd_KerrSchild_g_dg_ddg_dddg.c:5345-5385 `_dddgamma_D0D2D1D2D2[ijk]` -/
noncomputable def dddgamma_D0D2D1D2D2 (P : Par) (q : Pt) : ℝ :=
  c P q * k0 P q * dddk2_D1D2D2 P q + c P q * k2 P q * dddk0_D1D2D2 P q + c P q * dk0_D1 P q * ddk2_D2D2 P q + 2 * c P q * dk0_D2 P q * ddk2_D1D2 P q + c P q * ddk0_D2D2
    P q * dk2_D1 P q + 2 * c P q * dk2_D2 P q * ddk0_D1D2 P q + k0 P q * k2 P q * dddc_D1D2D2 P q + k0 P q * dc_D1 P q * ddk2_D2D2 P q + 2 * k0 P q * dc_D2 P q *
    ddk2_D1D2 P q + k0 P q * ddc_D2D2 P q * dk2_D1 P q + 2 * k0 P q * dk2_D2 P q * ddc_D1D2 P q + k2 P q * dc_D1 P q * ddk0_D2D2 P q + 2 * k2 P q * dc_D2 P q * ddk0_D1D2
    P q + k2 P q * ddc_D2D2 P q * dk0_D1 P q + 2 * k2 P q * dk0_D2 P q * ddc_D1D2 P q + 2 * dc_D1 P q * dk0_D2 P q * dk2_D2 P q + 2 * dc_D2 P q * dk0_D1 P q * dk2_D2 P q
    + 2 * dc_D2 P q * dk0_D2 P q * dk2_D1 P q

/-- Free_Data/fd_KerrSchild_g_dg_ddg_dddg.c:4410-4450 `_dddgamma_D0D2D2D0D0[ijk]` -/
noncomputable def dddgamma_D0D2D2D0D0 (P : Par) (q : Pt) : ℝ :=
  c P q * k0 P q * dddk2_D0D0D2 P q + c P q * k2 P q * dddk0_D0D0D2 P q + 2 * c P q * dk0_D0 P q * ddk2_D0D2 P q + c P q * ddk0_D0D0 P q * dk2_D2 P q + c P q * dk0_D2 P q
    * ddk2_D0D0 P q + 2 * c P q * dk2_D0 P q * ddk0_D0D2 P q + k0 P q * k2 P q * dddc_D0D0D2 P q + 2 * k0 P q * dc_D0 P q * ddk2_D0D2 P q + k0 P q * ddc_D0D0 P q * dk2_D2
    P q + k0 P q * dc_D2 P q * ddk2_D0D0 P q + 2 * k0 P q * dk2_D0 P q * ddc_D0D2 P q + 2 * k2 P q * dc_D0 P q * ddk0_D0D2 P q + k2 P q * ddc_D0D0 P q * dk0_D2 P q + k2 P
    q * dc_D2 P q * ddk0_D0D0 P q + 2 * k2 P q * dk0_D0 P q * ddc_D0D2 P q + 2 * dc_D0 P q * dk0_D0 P q * dk2_D2 P q + 2 * dc_D0 P q * dk0_D2 P q * dk2_D0 P q + 2 * dc_D2
    P q * dk0_D0 P q * dk2_D0 P q

/-- Free_Data/fd_KerrSchild_g_dg_ddg_dddg.c:6696-6752 `_dddgamma_D0D2D2D0D1[ijk]` -/
noncomputable def dddgamma_D0D2D2D0D1 (P : Par) (q : Pt) : ℝ :=
  c P q * k0 P q * dddk2_D0D1D2 P q + c P q * k2 P q * dddk0_D0D1D2 P q + c P q * dk0_D0 P q * ddk2_D1D2 P q + c P q * dk0_D1 P q * ddk2_D0D2 P q + c P q * dk0_D2 P q *
    ddk2_D0D1 P q + c P q * dk2_D0 P q * ddk0_D1D2 P q + c P q * dk2_D1 P q * ddk0_D0D2 P q + c P q * dk2_D2 P q * ddk0_D0D1 P q + k0 P q * k2 P q * dddc_D0D1D2 P q + k0
    P q * dc_D0 P q * ddk2_D1D2 P q + k0 P q * dc_D1 P q * ddk2_D0D2 P q + k0 P q * dc_D2 P q * ddk2_D0D1 P q + k0 P q * dk2_D0 P q * ddc_D1D2 P q + k0 P q * dk2_D1 P q *
    ddc_D0D2 P q + k0 P q * dk2_D2 P q * ddc_D0D1 P q + k2 P q * dc_D0 P q * ddk0_D1D2 P q + k2 P q * dc_D1 P q * ddk0_D0D2 P q + k2 P q * dc_D2 P q * ddk0_D0D1 P q + k2
    P q * dk0_D0 P q * ddc_D1D2 P q + k2 P q * dk0_D1 P q * ddc_D0D2 P q + k2 P q * dk0_D2 P q * ddc_D0D1 P q + dc_D0 P q * dk0_D1 P q * dk2_D2 P q + dc_D0 P q * dk0_D2 P
    q * dk2_D1 P q + dc_D1 P q * dk0_D0 P q * dk2_D2 P q + dc_D1 P q * dk0_D2 P q * dk2_D0 P q + dc_D2 P q * dk0_D0 P q * dk2_D1 P q + dc_D2 P q * dk0_D1 P q * dk2_D0 P q

/-- Free_Data/fd_KerrSchild_g_dg_ddg_dddg.c:6958-6998 `_dddgamma_D0D2D2D0D2[ijk]` -/
noncomputable def dddgamma_D0D2D2D0D2 (P : Par) (q : Pt) : ℝ :=
  c P q * k0 P q * dddk2_D0D2D2 P q + c P q * k2 P q * dddk0_D0D2D2 P q + c P q * dk0_D0 P q * ddk2_D2D2 P q + 2 * c P q * dk0_D2 P q * ddk2_D0D2 P q + c P q * ddk0_D2D2
    P q * dk2_D0 P q + 2 * c P q * dk2_D2 P q * ddk0_D0D2 P q + k0 P q * k2 P q * dddc_D0D2D2 P q + k0 P q * dc_D0 P q * ddk2_D2D2 P q + 2 * k0 P q * dc_D2 P q *
    ddk2_D0D2 P q + k0 P q * ddc_D2D2 P q * dk2_D0 P q + 2 * k0 P q * dk2_D2 P q * ddc_D0D2 P q + k2 P q * dc_D0 P q * ddk0_D2D2 P q + 2 * k2 P q * dc_D2 P q * ddk0_D0D2
    P q + k2 P q * ddc_D2D2 P q * dk0_D0 P q + 2 * k2 P q * dk0_D2 P q * ddc_D0D2 P q + 2 * dc_D0 P q * dk0_D2 P q * dk2_D2 P q + 2 * dc_D2 P q * dk0_D0 P q * dk2_D2 P q
    + 2 * dc_D2 P q * dk0_D2 P q * dk2_D0 P q

/-- Free_Data/fd_KerrSchild_g_dg_ddg_dddg.c:4352-4408 `_dddgamma_D0D2D2D1D0[ijk]` -/
noncomputable def dddgamma_D0D2D2D1D0 (P : Par) (q : Pt) : ℝ :=
  c P q * k0 P q * dddk2_D0D1D2 P q + c P q * k2 P q * dddk0_D0D1D2 P q + c P q * dk0_D0 P q * ddk2_D1D2 P q + c P q * dk0_D1 P q * ddk2_D0D2 P q + c P q * dk0_D2 P q *
    ddk2_D0D1 P q + c P q * dk2_D0 P q * ddk0_D1D2 P q + c P q * dk2_D1 P q * ddk0_D0D2 P q + c P q * dk2_D2 P q * ddk0_D0D1 P q + k0 P q * k2 P q * dddc_D0D1D2 P q + k0
    P q * dc_D0 P q * ddk2_D1D2 P q + k0 P q * dc_D1 P q * ddk2_D0D2 P q + k0 P q * dc_D2 P q * ddk2_D0D1 P q + k0 P q * dk2_D0 P q * ddc_D1D2 P q + k0 P q * dk2_D1 P q *
    ddc_D0D2 P q + k0 P q * dk2_D2 P q * ddc_D0D1 P q + k2 P q * dc_D0 P q * ddk0_D1D2 P q + k2 P q * dc_D1 P q * ddk0_D0D2 P q + k2 P q * dc_D2 P q * ddk0_D0D1 P q + k2
    P q * dk0_D0 P q * ddc_D1D2 P q + k2 P q * dk0_D1 P q * ddc_D0D2 P q + k2 P q * dk0_D2 P q * ddc_D0D1 P q + dc_D0 P q * dk0_D1 P q * dk2_D2 P q + dc_D0 P q * dk0_D2 P
    q * dk2_D1 P q + dc_D1 P q * dk0_D0 P q * dk2_D2 P q + dc_D1 P q * dk0_D2 P q * dk2_D0 P q + dc_D2 P q * dk0_D0 P q * dk2_D1 P q + dc_D2 P q * dk0_D1 P q * dk2_D0 P q

/-- Free_Data/fd_KerrSchild_g_dg_ddg_dddg.c:7370-7410 `_dddgamma_D0D2D2D1D1[ijk]` -/
noncomputable def dddgamma_D0D2D2D1D1 (P : Par) (q : Pt) : ℝ :=
  c P q * k0 P q * dddk2_D1D1D2 P q + c P q * k2 P q * dddk0_D1D1D2 P q + 2 * c P q * dk0_D1 P q * ddk2_D1D2 P q + c P q * ddk0_D1D1 P q * dk2_D2 P q + c P q * dk0_D2 P q
    * ddk2_D1D1 P q + 2 * c P q * dk2_D1 P q * ddk0_D1D2 P q + k0 P q * k2 P q * dddc_D1D1D2 P q + 2 * k0 P q * dc_D1 P q * ddk2_D1D2 P q + k0 P q * ddc_D1D1 P q * dk2_D2
    P q + k0 P q * dc_D2 P q * ddk2_D1D1 P q + 2 * k0 P q * dk2_D1 P q * ddc_D1D2 P q + 2 * k2 P q * dc_D1 P q * ddk0_D1D2 P q + k2 P q * ddc_D1D1 P q * dk0_D2 P q + k2 P
    q * dc_D2 P q * ddk0_D1D1 P q + 2 * k2 P q * dk0_D1 P q * ddc_D1D2 P q + 2 * dc_D1 P q * dk0_D1 P q * dk2_D2 P q + 2 * dc_D1 P q * dk0_D2 P q * dk2_D1 P q + 2 * dc_D2
    P q * dk0_D1 P q * dk2_D1 P q

/-- Free_Data/fd_KerrSchild_g_dg_ddg_dddg.c:6271-6311 `_dddgamma_D0D2D2D1D2[ijk]` -/
noncomputable def dddgamma_D0D2D2D1D2 (P : Par) (q : Pt) : ℝ :=
  c P q * k0 P q * dddk2_D1D2D2 P q + c P q * k2 P q * dddk0_D1D2D2 P q + c P q * dk0_D1 P q * ddk2_D2D2 P q + 2 * c P q * dk0_D2 P q * ddk2_D1D2 P q + c P q * ddk0_D2D2
    P q * dk2_D1 P q + 2 * c P q * dk2_D2 P q * ddk0_D1D2 P q + k0 P q * k2 P q * dddc_D1D2D2 P q + k0 P q * dc_D1 P q * ddk2_D2D2 P q + 2 * k0 P q * dc_D2 P q *
    ddk2_D1D2 P q + k0 P q * ddc_D2D2 P q * dk2_D1 P q + 2 * k0 P q * dk2_D2 P q * ddc_D1D2 P q + k2 P q * dc_D1 P q * ddk0_D2D2 P q + 2 * k2 P q * dc_D2 P q * ddk0_D1D2
    P q + k2 P q * ddc_D2D2 P q * dk0_D1 P q + 2 * k2 P q * dk0_D2 P q * ddc_D1D2 P q + 2 * dc_D1 P q * dk0_D2 P q * dk2_D2 P q + 2 * dc_D2 P q * dk0_D1 P q * dk2_D2 P q
    + 2 * dc_D2 P q * dk0_D2 P q * dk2_D1 P q

/-- Free_Data/fd_KerrSchild_g_dg_ddg_dddg.c:6636-6676 `_dddgamma_D0D2D2D2D0[ijk]` -/
noncomputable def dddgamma_D0D2D2D2D0 (P : Par) (q : Pt) : ℝ :=
  c P q * k0 P q * dddk2_D0D2D2 P q + c P q * k2 P q * dddk0_D0D2D2 P q + c P q * dk0_D0 P q * ddk2_D2D2 P q + 2 * c P q * dk0_D2 P q * ddk2_D0D2 P q + c P q * ddk0_D2D2
    P q * dk2_D0 P q + 2 * c P q * dk2_D2 P q * ddk0_D0D2 P q + k0 P q * k2 P q * dddc_D0D2D2 P q + k0 P q * dc_D0 P q * ddk2_D2D2 P q + 2 * k0 P q * dc_D2 P q *
    ddk2_D0D2 P q + k0 P q * ddc_D2D2 P q * dk2_D0 P q + 2 * k0 P q * dk2_D2 P q * ddc_D0D2 P q + k2 P q * dc_D0 P q * ddk0_D2D2 P q + 2 * k2 P q * dc_D2 P q * ddk0_D0D2
    P q + k2 P q * ddc_D2D2 P q * dk0_D0 P q + 2 * k2 P q * dk0_D2 P q * ddc_D0D2 P q + 2 * dc_D0 P q * dk0_D2 P q * dk2_D2 P q + 2 * dc_D2 P q * dk0_D0 P q * dk2_D2 P q
    + 2 * dc_D2 P q * dk0_D2 P q * dk2_D0 P q

/-- Free_Data/fd_KerrSchild_g_dg_ddg_dddg.c:6115-6155 `_dddgamma_D0D2D2D2D1[ijk]` -/
noncomputable def dddgamma_D0D2D2D2D1 (P : Par) (q : Pt) : ℝ :=
  c P q * k0 P q * dddk2_D1D2D2 P q + c P q * k2 P q * dddk0_D1D2D2 P q + c P q * dk0_D1 P q * ddk2_D2D2 P q + 2 * c P q * dk0_D2 P q * ddk2_D1D2 P q + c P q * ddk0_D2D2
    P q * dk2_D1 P q + 2 * c P q * dk2_D2 P q * ddk0_D1D2 P q + k0 P q * k2 P q * dddc_D1D2D2 P q + k0 P q * dc_D1 P q * ddk2_D2D2 P q + 2 * k0 P q * dc_D2 P q *
    ddk2_D1D2 P q + k0 P q * ddc_D2D2 P q * dk2_D1 P q + 2 * k0 P q * dk2_D2 P q * ddc_D1D2 P q + k2 P q * dc_D1 P q * ddk0_D2D2 P q + 2 * k2 P q * dc_D2 P q * ddk0_D1D2
    P q + k2 P q * ddc_D2D2 P q * dk0_D1 P q + 2 * k2 P q * dk0_D2 P q * ddc_D1D2 P q + 2 * dc_D1 P q * dk0_D2 P q * dk2_D2 P q + 2 * dc_D2 P q * dk0_D1 P q * dk2_D2 P q
    + 2 * dc_D2 P q * dk0_D2 P q * dk2_D1 P q

/-- Free_Data/fd_KerrSchild_g_dg_ddg_dddg.c:7000-7025 `_dddgamma_D0D2D2D2D2[ijk]` -/
noncomputable def dddgamma_D0D2D2D2D2 (P : Par) (q : Pt) : ℝ :=
  c P q * k0 P q * dddk2_D2D2D2 P q + c P q * k2 P q * dddk0_D2D2D2 P q + 3 * c P q * dk0_D2 P q * ddk2_D2D2 P q + 3 * c P q * ddk0_D2D2 P q * dk2_D2 P q + k0 P q * k2 P
    q * dddc_D2D2D2 P q + 3 * k0 P q * dc_D2 P q * ddk2_D2D2 P q + 3 * k0 P q * ddc_D2D2 P q * dk2_D2 P q + 3 * k2 P q * dc_D2 P q * ddk0_D2D2 P q + 3 * k2 P q * ddc_D2D2
    P q * dk0_D2 P q + 6 * dc_D2 P q * dk0_D2 P q * dk2_D2 P q

/-- Free_Data/fd_KerrSchild_g_dg_ddg_dddg.c:7027-7043 `_dddgamma_D1D1D0D0D0[ijk]` -/
noncomputable def dddgamma_D1D1D0D0D0 (P : Par) (q : Pt) : ℝ :=
  2 * c P q * k1 P q * dddk1_D0D0D0 P q + 6 * c P q * dk1_D0 P q * ddk1_D0D0 P q + (k1 P q) ^ 2 * dddc_D0D0D0 P q + 6 * k1 P q * dc_D0 P q * ddk1_D0D0 P q + 6 * k1 P q *
    ddc_D0D0 P q * dk1_D0 P q + 6 * dc_D0 P q * (dk1_D0 P q) ^ 2

/-- Free_Data/fd_KerrSchild_g_dg_ddg_dddg.c:3471-3496 `_dddgamma_D1D1D0D0D1[ijk]` -/
noncomputable def dddgamma_D1D1D0D0D1 (P : Par) (q : Pt) : ℝ :=
  2 * c P q * k1 P q * dddk1_D0D0D1 P q + 4 * c P q * dk1_D0 P q * ddk1_D0D1 P q + 2 * c P q * ddk1_D0D0 P q * dk1_D1 P q + (k1 P q) ^ 2 * dddc_D0D0D1 P q + 4 * k1 P q *
    dc_D0 P q * ddk1_D0D1 P q + 2 * k1 P q * ddc_D0D0 P q * dk1_D1 P q + 2 * k1 P q * dc_D1 P q * ddk1_D0D0 P q + 4 * k1 P q * dk1_D0 P q * ddc_D0D1 P q + 4 * dc_D0 P q *
    dk1_D0 P q * dk1_D1 P q + 2 * dc_D1 P q * (dk1_D0 P q) ^ 2

/-- Free_Data/fd_KerrSchild_g_dg_ddg_dddg.c:3498-3523 `_dddgamma_D1D1D0D0D2[ijk]` -/
noncomputable def dddgamma_D1D1D0D0D2 (P : Par) (q : Pt) : ℝ :=
  2 * c P q * k1 P q * dddk1_D0D0D2 P q + 4 * c P q * dk1_D0 P q * ddk1_D0D2 P q + 2 * c P q * ddk1_D0D0 P q * dk1_D2 P q + (k1 P q) ^ 2 * dddc_D0D0D2 P q + 4 * k1 P q *
    dc_D0 P q * ddk1_D0D2 P q + 2 * k1 P q * ddc_D0D0 P q * dk1_D2 P q + 2 * k1 P q * dc_D2 P q * ddk1_D0D0 P q + 4 * k1 P q * dk1_D0 P q * ddc_D0D2 P q + 4 * dc_D0 P q *
    dk1_D0 P q * dk1_D2 P q + 2 * dc_D2 P q * (dk1_D0 P q) ^ 2

/-- Free_Data/fd_KerrSchild_g_dg_ddg_dddg.c:3805-3830 `_dddgamma_D1D1D0D1D0[ijk]` -/
noncomputable def dddgamma_D1D1D0D1D0 (P : Par) (q : Pt) : ℝ :=
  2 * c P q * k1 P q * dddk1_D0D0D1 P q + 4 * c P q * dk1_D0 P q * ddk1_D0D1 P q + 2 * c P q * ddk1_D0D0 P q * dk1_D1 P q + (k1 P q) ^ 2 * dddc_D0D0D1 P q + 4 * k1 P q *
    dc_D0 P q * ddk1_D0D1 P q + 2 * k1 P q * ddc_D0D0 P q * dk1_D1 P q + 2 * k1 P q * dc_D1 P q * ddk1_D0D0 P q + 4 * k1 P q * dk1_D0 P q * ddc_D0D1 P q + 4 * dc_D0 P q *
    dk1_D0 P q * dk1_D1 P q + 2 * dc_D1 P q * (dk1_D0 P q) ^ 2

/-- Free_Data/fd_KerrSchild_g_dg_ddg_dddg.c:3305-3330 `_dddgamma_D1D1D0D1D1[ijk]` -/
noncomputable def dddgamma_D1D1D0D1D1 (P : Par) (q : Pt) : ℝ :=
  2 * c P q * k1 P q * dddk1_D0D1D1 P q + 2 * c P q * dk1_D0 P q * ddk1_D1D1 P q + 4 * c P q * dk1_D1 P q * ddk1_D0D1 P q + (k1 P q) ^ 2 * dddc_D0D1D1 P q + 2 * k1 P q *
    dc_D0 P q * ddk1_D1D1 P q + 4 * k1 P q * dc_D1 P q * ddk1_D0D1 P q + 2 * k1 P q * ddc_D1D1 P q * dk1_D0 P q + 4 * k1 P q * dk1_D1 P q * ddc_D0D1 P q + 2 * dc_D0 P q *
    (dk1_D1 P q) ^ 2 + 4 * dc_D1 P q * dk1_D0 P q * dk1_D1 P q

/-- Free_Data/fd_KerrSchild_g_dg_ddg_dddg.c:2119-2153 `_dddgamma_D1D1D0D1D2[ijk]` -/
noncomputable def dddgamma_D1D1D0D1D2 (P : Par) (q : Pt) : ℝ :=
  2 * c P q * k1 P q * dddk1_D0D1D2 P q + 2 * c P q * dk1_D0 P q * ddk1_D1D2 P q + 2 * c P q * dk1_D1 P q * ddk1_D0D2 P q + 2 * c P q * dk1_D2 P q * ddk1_D0D1 P q + (k1 P
    q) ^ 2 * dddc_D0D1D2 P q + 2 * k1 P q * dc_D0 P q * ddk1_D1D2 P q + 2 * k1 P q * dc_D1 P q * ddk1_D0D2 P q + 2 * k1 P q * dc_D2 P q * ddk1_D0D1 P q + 2 * k1 P q *
    dk1_D0 P q * ddc_D1D2 P q + 2 * k1 P q * dk1_D1 P q * ddc_D0D2 P q + 2 * k1 P q * dk1_D2 P q * ddc_D0D1 P q + 2 * dc_D0 P q * dk1_D1 P q * dk1_D2 P q + 2 * dc_D1 P q
    * dk1_D0 P q * dk1_D2 P q + 2 * dc_D2 P q * dk1_D0 P q * dk1_D1 P q

/-- Free_Data/fd_KerrSchild_g_dg_ddg_dddg.c:3386-3411 `_dddgamma_D1D1D0D2D0[ijk]` -/
noncomputable def dddgamma_D1D1D0D2D0 (P : Par) (q : Pt) : ℝ :=
  2 * c P q * k1 P q * dddk1_D0D0D2 P q + 4 * c P q * dk1_D0 P q * ddk1_D0D2 P q + 2 * c P q * ddk1_D0D0 P q * dk1_D2 P q + (k1 P q) ^ 2 * dddc_D0D0D2 P q + 4 * k1 P q *
    dc_D0 P q * ddk1_D0D2 P q + 2 * k1 P q * ddc_D0D0 P q * dk1_D2 P q + 2 * k1 P q * dc_D2 P q * ddk1_D0D0 P q + 4 * k1 P q * dk1_D0 P q * ddc_D0D2 P q + 4 * dc_D0 P q *
    dk1_D0 P q * dk1_D2 P q + 2 * dc_D2 P q * (dk1_D0 P q) ^ 2

/-- Free_Data/fd_KerrSchild_g_dg_ddg_dddg.c:6157-6191 `_dddgamma_D1D1D0D2D1[ijk]` -/
noncomputable def dddgamma_D1D1D0D2D1 (P : Par) (q : Pt) : ℝ :=
  2 * c P q * k1 P q * dddk1_D0D1D2 P q + 2 * c P q * dk1_D0 P q * ddk1_D1D2 P q + 2 * c P q * dk1_D1 P q * ddk1_D0D2 P q + 2 * c P q * dk1_D2 P q * ddk1_D0D1 P q + (k1 P
    q) ^ 2 * dddc_D0D1D2 P q + 2 * k1 P q * dc_D0 P q * ddk1_D1D2 P q + 2 * k1 P q * dc_D1 P q * ddk1_D0D2 P q + 2 * k1 P q * dc_D2 P q * ddk1_D0D1 P q + 2 * k1 P q *
    dk1_D0 P q * ddc_D1D2 P q + 2 * k1 P q * dk1_D1 P q * ddc_D0D2 P q + 2 * k1 P q * dk1_D2 P q * ddc_D0D1 P q + 2 * dc_D0 P q * dk1_D1 P q * dk1_D2 P q + 2 * dc_D1 P q
    * dk1_D0 P q * dk1_D2 P q + 2 * dc_D2 P q * dk1_D0 P q * dk1_D1 P q

/-- Free_Data/fd_KerrSchild_g_dg_ddg_dddg.c:5387-5412 `_dddgamma_D1D1D0D2D2[ijk]` -/
noncomputable def dddgamma_D1D1D0D2D2 (P : Par) (q : Pt) : ℝ :=
  2 * c P q * k1 P q * dddk1_D0D2D2 P q + 2 * c P q * dk1_D0 P q * ddk1_D2D2 P q + 4 * c P q * dk1_D2 P q * ddk1_D0D2 P q + (k1 P q) ^ 2 * dddc_D0D2D2 P q + 2 * k1 P q *
    dc_D0 P q * ddk1_D2D2 P q + 4 * k1 P q * dc_D2 P q * ddk1_D0D2 P q + 2 * k1 P q * ddc_D2D2 P q * dk1_D0 P q + 4 * k1 P q * dk1_D2 P q * ddc_D0D2 P q + 2 * dc_D0 P q *
    (dk1_D2 P q) ^ 2 + 4 * dc_D2 P q * dk1_D0 P q * dk1_D2 P q

/-- Free_Data/fd_KerrSchild_g_dg_ddg_dddg.c:6551-6576 `_dddgamma_D1D1D1D0D0[ijk]` -/
noncomputable def dddgamma_D1D1D1D0D0 (P : Par) (q : Pt) : ℝ :=
  2 * c P q * k1 P q * dddk1_D0D0D1 P q + 4 * c P q * dk1_D0 P q * ddk1_D0D1 P q + 2 * c P q * ddk1_D0D0 P q * dk1_D1 P q + (k1 P q) ^ 2 * dddc_D0D0D1 P q + 4 * k1 P q *
    dc_D0 P q * ddk1_D0D1 P q + 2 * k1 P q * ddc_D0D0 P q * dk1_D1 P q + 2 * k1 P q * dc_D1 P q * ddk1_D0D0 P q + 4 * k1 P q * dk1_D0 P q * ddc_D0D1 P q + 4 * dc_D0 P q *
    dk1_D0 P q * dk1_D1 P q + 2 * dc_D1 P q * (dk1_D0 P q) ^ 2

/-- Free_Data/fd_KerrSchild_g_dg_ddg_dddg.c:2197-2222 `_dddgamma_D1D1D1D0D1[ijk]` -/
noncomputable def dddgamma_D1D1D1D0D1 (P : Par) (q : Pt) : ℝ :=
  2 * c P q * k1 P q * dddk1_D0D1D1 P q + 2 * c P q * dk1_D0 P q * ddk1_D1D1 P q + 4 * c P q * dk1_D1 P q * ddk1_D0D1 P q + (k1 P q) ^ 2 * dddc_D0D1D1 P q + 2 * k1 P q *
    dc_D0 P q * ddk1_D1D1 P q + 4 * k1 P q * dc_D1 P q * ddk1_D0D1 P q + 2 * k1 P q * ddc_D1D1 P q * dk1_D0 P q + 4 * k1 P q * dk1_D1 P q * ddc_D0D1 P q + 2 * dc_D0 P q *
    (dk1_D1 P q) ^ 2 + 4 * dc_D1 P q * dk1_D0 P q * dk1_D1 P q

/-- Free_Data/fd_KerrSchild_g_dg_ddg_dddg.c:7130-7164 `_dddgamma_D1D1D1D0D2[ijk]` -/
noncomputable def dddgamma_D1D1D1D0D2 (P : Par) (q : Pt) : ℝ :=
  2 * c P q * k1 P q * dddk1_D0D1D2 P q + 2 * c P q * dk1_D0 P q * ddk1_D1D2 P q + 2 * c P q * dk1_D1 P q * ddk1_D0D2 P q + 2 * c P q * dk1_D2 P q * ddk1_D0D1 P q + (k1 P
    q) ^ 2 * dddc_D0D1D2 P q + 2 * k1 P q * dc_D0 P q * ddk1_D1D2 P q + 2 * k1 P q * dc_D1 P q * ddk1_D0D2 P q + 2 * k1 P q * dc_D2 P q * ddk1_D0D1 P q + 2 * k1 P q *
    dk1_D0 P q * ddc_D1D2 P q + 2 * k1 P q * dk1_D1 P q * ddc_D0D2 P q + 2 * k1 P q * dk1_D2 P q * ddc_D0D1 P q + 2 * dc_D0 P q * dk1_D1 P q * dk1_D2 P q + 2 * dc_D1 P q
    * dk1_D0 P q * dk1_D2 P q + 2 * dc_D2 P q * dk1_D0 P q * dk1_D1 P q

/-- Free_Data/fd_KerrSchild_g_dg_ddg_dddg.c:4048-4073 `_dddgamma_D1D1D1D1D0[ijk]` -/
noncomputable def dddgamma_D1D1D1D1D0 (P : Par) (q : Pt) : ℝ :=
  2 * c P q * k1 P q * dddk1_D0D1D1 P q + 2 * c P q * dk1_D0 P q * ddk1_D1D1 P q + 4 * c P q * dk1_D1 P q * ddk1_D0D1 P q + (k1 P q) ^ 2 * dddc_D0D1D1 P q + 2 * k1 P q *
    dc_D0 P q * ddk1_D1D1 P q + 4 * k1 P q * dc_D1 P q * ddk1_D0D1 P q + 2 * k1 P q * ddc_D1D1 P q * dk1_D0 P q + 4 * k1 P q * dk1_D1 P q * ddc_D0D1 P q + 2 * dc_D0 P q *
    (dk1_D1 P q) ^ 2 + 4 * dc_D1 P q * dk1_D0 P q * dk1_D1 P q

/-- Free_Data/fd_KerrSchild_g_dg_ddg_dddg.c:4075-4091 `_dddgamma_D1D1D1D1D1[ijk]` -/
noncomputable def dddgamma_D1D1D1D1D1 (P : Par) (q : Pt) : ℝ :=
  2 * c P q * k1 P q * dddk1_D1D1D1 P q + 6 * c P q * dk1_D1 P q * ddk1_D1D1 P q + (k1 P q) ^ 2 * dddc_D1D1D1 P q + 6 * k1 P q * dc_D1 P q * ddk1_D1D1 P q + 6 * k1 P q *
    ddc_D1D1 P q * dk1_D1 P q + 6 * dc_D1 P q * (dk1_D1 P q) ^ 2

/-- Free_Data/fd_KerrSchild_g_dg_ddg_dddg.c:4452-4477 `_dddgamma_D1D1D1D1D2[ijk]` -/
noncomputable def dddgamma_D1D1D1D1D2 (P : Par) (q : Pt) : ℝ :=
  2 * c P q * k1 P q * dddk1_D1D1D2 P q + 4 * c P q * dk1_D1 P q * ddk1_D1D2 P q + 2 * c P q * ddk1_D1D1 P q * dk1_D2 P q + (k1 P q) ^ 2 * dddc_D1D1D2 P q + 4 * k1 P q *
    dc_D1 P q * ddk1_D1D2 P q + 2 * k1 P q * ddc_D1D1 P q * dk1_D2 P q + 2 * k1 P q * dc_D2 P q * ddk1_D1D1 P q + 4 * k1 P q * dk1_D1 P q * ddc_D1D2 P q + 4 * dc_D1 P q *
    dk1_D1 P q * dk1_D2 P q + 2 * dc_D2 P q * (dk1_D1 P q) ^ 2

/-- Free_Data/fd_KerrSchild_g_dg_ddg_dddg.c:4093-4127 `_dddgamma_D1D1D1D2D0[ijk]` -/
noncomputable def dddgamma_D1D1D1D2D0 (P : Par) (q : Pt) : ℝ :=
  2 * c P q * k1 P q * dddk1_D0D1D2 P q + 2 * c P q * dk1_D0 P q * ddk1_D1D2 P q + 2 * c P q * dk1_D1 P q * ddk1_D0D2 P q + 2 * c P q * dk1_D2 P q * ddk1_D0D1 P q + (k1 P
    q) ^ 2 * dddc_D0D1D2 P q + 2 * k1 P q * dc_D0 P q * ddk1_D1D2 P q + 2 * k1 P q * dc_D1 P q * ddk1_D0D2 P q + 2 * k1 P q * dc_D2 P q * ddk1_D0D1 P q + 2 * k1 P q *
    dk1_D0 P q * ddc_D1D2 P q + 2 * k1 P q * dk1_D1 P q * ddc_D0D2 P q + 2 * k1 P q * dk1_D2 P q * ddc_D0D1 P q + 2 * dc_D0 P q * dk1_D1 P q * dk1_D2 P q + 2 * dc_D1 P q
    * dk1_D0 P q * dk1_D2 P q + 2 * dc_D2 P q * dk1_D0 P q * dk1_D1 P q

/-- Free_Data/fd_KerrSchild_g_dg_ddg_dddg.c:1818-1843 `_dddgamma_D1D1D1D2D1[ijk]` -/
noncomputable def dddgamma_D1D1D1D2D1 (P : Par) (q : Pt) : ℝ :=
  2 * c P q * k1 P q * dddk1_D1D1D2 P q + 4 * c P q * dk1_D1 P q * ddk1_D1D2 P q + 2 * c P q * ddk1_D1D1 P q * dk1_D2 P q + (k1 P q) ^ 2 * dddc_D1D1D2 P q + 4 * k1 P q *
    dc_D1 P q * ddk1_D1D2 P q + 2 * k1 P q * ddc_D1D1 P q * dk1_D2 P q + 2 * k1 P q * dc_D2 P q * ddk1_D1D1 P q + 4 * k1 P q * dk1_D1 P q * ddc_D1D2 P q + 4 * dc_D1 P q *
    dk1_D1 P q * dk1_D2 P q + 2 * dc_D2 P q * (dk1_D1 P q) ^ 2

/-- Free_Data/fd_KerrSchild_g_dg_ddg_dddg.c:2347-2372 `_dddgamma_D1D1D1D2D2[ijk]` -/
noncomputable def dddgamma_D1D1D1D2D2 (P : Par) (q : Pt) : ℝ :=
  2 * c P q * k1 P q * dddk1_D1D2D2 P q + 2 * c P q * dk1_D1 P q * ddk1_D2D2 P q + 4 * c P q * dk1_D2 P q * ddk1_D1D2 P q + (k1 P q) ^ 2 * dddc_D1D2D2 P q + 2 * k1 P q *
    dc_D1 P q * ddk1_D2D2 P q + 4 * k1 P q * dc_D2 P q * ddk1_D1D2 P q + 2 * k1 P q * ddc_D2D2 P q * dk1_D1 P q + 4 * k1 P q * dk1_D2 P q * ddc_D1D2 P q + 2 * dc_D1 P q *
    (dk1_D2 P q) ^ 2 + 4 * dc_D2 P q * dk1_D1 P q * dk1_D2 P q

/-- Free_Data/fd_KerrSchild_g_dg_ddg_dddg.c:3197-3222 `_dddgamma_D1D1D2D0D0[ijk]` -/
noncomputable def dddgamma_D1D1D2D0D0 (P : Par) (q : Pt) : ℝ :=
  2 * c P q * k1 P q * dddk1_D0D0D2 P q + 4 * c P q * dk1_D0 P q * ddk1_D0D2 P q + 2 * c P q * ddk1_D0D0 P q * dk1_D2 P q + (k1 P q) ^ 2 * dddc_D0D0D2 P q + 4 * k1 P q *
    dc_D0 P q * ddk1_D0D2 P q + 2 * k1 P q * ddc_D0D0 P q * dk1_D2 P q + 2 * k1 P q * dc_D2 P q * ddk1_D0D0 P q + 4 * k1 P q * dk1_D0 P q * ddc_D0D2 P q + 4 * dc_D0 P q *
    dk1_D0 P q * dk1_D2 P q + 2 * dc_D2 P q * (dk1_D0 P q) ^ 2

/-- Free_Data/fd_KerrSchild_g_dg_ddg_dddg.c:6877-6911 `_dddgamma_D1D1D2D0D1[ijk]` -/
noncomputable def dddgamma_D1D1D2D0D1 (P : Par) (q : Pt) : ℝ :=
  2 * c P q * k1 P q * dddk1_D0D1D2 P q + 2 * c P q * dk1_D0 P q * ddk1_D1D2 P q + 2 * c P q * dk1_D1 P q * ddk1_D0D2 P q + 2 * c P q * dk1_D2 P q * ddk1_D0D1 P q + (k1 P
    q) ^ 2 * dddc_D0D1D2 P q + 2 * k1 P q * dc_D0 P q * ddk1_D1D2 P q + 2 * k1 P q * dc_D1 P q * ddk1_D0D2 P q + 2 * k1 P q * dc_D2 P q * ddk1_D0D1 P q + 2 * k1 P q *
    dk1_D0 P q * ddc_D1D2 P q + 2 * k1 P q * dk1_D1 P q * ddc_D0D2 P q + 2 * k1 P q * dk1_D2 P q * ddc_D0D1 P q + 2 * dc_D0 P q * dk1_D1 P q * dk1_D2 P q + 2 * dc_D1 P q
    * dk1_D0 P q * dk1_D2 P q + 2 * dc_D2 P q * dk1_D0 P q * dk1_D1 P q

/-- Free_Data/fd_KerrSchild_g_dg_ddg_dddg.c:4533-4558 `_dddgamma_D1D1D2D0D2[ijk]` -/
noncomputable def dddgamma_D1D1D2D0D2 (P : Par) (q : Pt) : ℝ :=
  2 * c P q * k1 P q * dddk1_D0D2D2 P q + 2 * c P q * dk1_D0 P q * ddk1_D2D2 P q + 4 * c P q * dk1_D2 P q * ddk1_D0D2 P q + (k1 P q) ^ 2 * dddc_D0D2D2 P q + 2 * k1 P q *
    dc_D0 P q * ddk1_D2D2 P q + 4 * k1 P q * dc_D2 P q * ddk1_D0D2 P q + 2 * k1 P q * ddc_D2D2 P q * dk1_D0 P q + 4 * k1 P q * dk1_D2 P q * ddc_D0D2 P q + 2 * dc_D0 P q *
    (dk1_D2 P q) ^ 2 + 4 * dc_D2 P q * dk1_D0 P q * dk1_D2 P q

/-- Free_Data/fd_KerrSchild_g_dg_ddg_dddg.c:2083-2117 `_dddgamma_D1D1D2D1D0[ijk]` -/
noncomputable def dddgamma_D1D1D2D1D0 (P : Par) (q : Pt) : ℝ :=
  2 * c P q * k1 P q * dddk1_D0D1D2 P q + 2 * c P q * dk1_D0 P q * ddk1_D1D2 P q + 2 * c P q * dk1_D1 P q * ddk1_D0D2 P q + 2 * c P q * dk1_D2 P q * ddk1_D0D1 P q + (k1 P
    q) ^ 2 * dddc_D0D1D2 P q + 2 * k1 P q * dc_D0 P q * ddk1_D1D2 P q + 2 * k1 P q * dc_D1 P q * ddk1_D0D2 P q + 2 * k1 P q * dc_D2 P q * ddk1_D0D1 P q + 2 * k1 P q *
    dk1_D0 P q * ddc_D1D2 P q + 2 * k1 P q * dk1_D1 P q * ddc_D0D2 P q + 2 * k1 P q * dk1_D2 P q * ddc_D0D1 P q + 2 * dc_D0 P q * dk1_D1 P q * dk1_D2 P q + 2 * dc_D1 P q
    * dk1_D0 P q * dk1_D2 P q + 2 * dc_D2 P q * dk1_D0 P q * dk1_D1 P q

/-- Free_Data/fd_KerrSchild_g_dg_ddg_dddg.c:7430-7455 `_dddgamma_D1D1D2D1D1[ijk]` -/
noncomputable def dddgamma_D1D1D2D1D1 (P : Par) (q : Pt) : ℝ :=
  2 * c P q * k1 P q * dddk1_D1D1D2 P q + 4 * c P q * dk1_D1 P q * ddk1_D1D2 P q + 2 * c P q * ddk1_D1D1 P q * dk1_D2 P q + (k1 P q) ^ 2 * dddc_D1D1D2 P q + 4 * k1 P q *
    dc_D1 P q * ddk1_D1D2 P q + 2 * k1 P q * ddc_D1D1 P q * dk1_D2 P q + 2 * k1 P q * dc_D2 P q * ddk1_D1D1 P q + 4 * k1 P q * dk1_D1 P q * ddc_D1D2 P q + 4 * dc_D1 P q *
    dk1_D1 P q * dk1_D2 P q + 2 * dc_D2 P q * (dk1_D1 P q) ^ 2

/-- Free_Data/fd_KerrSchild_g_dg_ddg_dddg.c:2713-2738 `_dddgamma_D1D1D2D1D2[ijk]` -/
noncomputable def dddgamma_D1D1D2D1D2 (P : Par) (q : Pt) : ℝ :=
  2 * c P q * k1 P q * dddk1_D1D2D2 P q + 2 * c P q * dk1_D1 P q * ddk1_D2D2 P q + 4 * c P q * dk1_D2 P q * ddk1_D1D2 P q + (k1 P q) ^ 2 * dddc_D1D2D2 P q + 2 * k1 P q *
    dc_D1 P q * ddk1_D2D2 P q + 4 * k1 P q * dc_D2 P q * ddk1_D1D2 P q + 2 * k1 P q * ddc_D2D2 P q * dk1_D1 P q + 4 * k1 P q * dk1_D2 P q * ddc_D1D2 P q + 2 * dc_D1 P q *
    (dk1_D2 P q) ^ 2 + 4 * dc_D2 P q * dk1_D1 P q * dk1_D2 P q

/-- Free_Data/fd_KerrSchild_g_dg_ddg_dddg.c:1998-2023 `_dddgamma_D1D1D2D2D0[ijk]` -/
noncomputable def dddgamma_D1D1D2D2D0 (P : Par) (q : Pt) : ℝ :=
  2 * c P q * k1 P q * dddk1_D0D2D2 P q + 2 * c P q * dk1_D0 P q * ddk1_D2D2 P q + 4 * c P q * dk1_D2 P q * ddk1_D0D2 P q + (k1 P q) ^ 2 * dddc_D0D2D2 P q + 2 * k1 P q *
    dc_D0 P q * ddk1_D2D2 P q + 4 * k1 P q * dc_D2 P q * ddk1_D0D2 P q + 2 * k1 P q * ddc_D2D2 P q * dk1_D0 P q + 4 * k1 P q * dk1_D2 P q * ddc_D0D2 P q + 2 * dc_D0 P q *
    (dk1_D2 P q) ^ 2 + 4 * dc_D2 P q * dk1_D0 P q * dk1_D2 P q

/-- Free_Data/fd_KerrSchild_g_dg_ddg_dddg.c:5667-5692 `_dddgamma_D1D1D2D2D1[ijk]` -/
noncomputable def dddgamma_D1D1D2D2D1 (P : Par) (q : Pt) : ℝ :=
  2 * c P q * k1 P q * dddk1_D1D2D2 P q + 2 * c P q * dk1_D1 P q * ddk1_D2D2 P q + 4 * c P q * dk1_D2 P q * ddk1_D1D2 P q + (k1 P q) ^ 2 * dddc_D1D2D2 P q + 2 * k1 P q *
    dc_D1 P q * ddk1_D2D2 P q + 4 * k1 P q * dc_D2 P q * ddk1_D1D2 P q + 2 * k1 P q * ddc_D2D2 P q * dk1_D1 P q + 4 * k1 P q * dk1_D2 P q * ddc_D1D2 P q + 2 * dc_D1 P q *
    (dk1_D2 P q) ^ 2 + 4 * dc_D2 P q * dk1_D1 P q * dk1_D2 P q

/-- Free_Data/fd_KerrSchild_g_dg_ddg_dddg.c:2470-2486 `_dddgamma_D1D1D2D2D2[ijk]` -/
noncomputable def dddgamma_D1D1D2D2D2 (P : Par) (q : Pt) : ℝ :=
  2 * c P q * k1 P q * dddk1_D2D2D2 P q + 6 * c P q * dk1_D2 P q * ddk1_D2D2 P q + (k1 P q) ^ 2 * dddc_D2D2D2 P q + 6 * k1 P q * dc_D2 P q * ddk1_D2D2 P q + 6 * k1 P q *
    ddc_D2D2 P q * dk1_D2 P q + 6 * dc_D2 P q * (dk1_D2 P q) ^ 2

/-- Free_Data/fd_KerrSchild_g_dg_ddg_dddg.c:4587-4612 `_dddgamma_D1D2D0D0D0[ijk]` -/
noncomputable def dddgamma_D1D2D0D0D0 (P : Par) (q : Pt) : ℝ :=
  c P q * k1 P q * dddk2_D0D0D0 P q + c P q * k2 P q * dddk1_D0D0D0 P q + 3 * c P q * dk1_D0 P q * ddk2_D0D0 P q + 3 * c P q * ddk1_D0D0 P q * dk2_D0 P q + k1 P q * k2 P
    q * dddc_D0D0D0 P q + 3 * k1 P q * dc_D0 P q * ddk2_D0D0 P q + 3 * k1 P q * ddc_D0D0 P q * dk2_D0 P q + 3 * k2 P q * dc_D0 P q * ddk1_D0D0 P q + 3 * k2 P q * ddc_D0D0
    P q * dk1_D0 P q + 6 * dc_D0 P q * dk1_D0 P q * dk2_D0 P q

/-- Free_Data/fd_KerrSchild_g_dg_ddg_dddg.c:2798-2838 `_dddgamma_D1D2D0D0D1[ijk]` -/
noncomputable def dddgamma_D1D2D0D0D1 (P : Par) (q : Pt) : ℝ :=
  c P q * k1 P q * dddk2_D0D0D1 P q + c P q * k2 P q * dddk1_D0D0D1 P q + 2 * c P q * dk1_D0 P q * ddk2_D0D1 P q + c P q * ddk1_D0D0 P q * dk2_D1 P q + c P q * dk1_D1 P q
    * ddk2_D0D0 P q + 2 * c P q * dk2_D0 P q * ddk1_D0D1 P q + k1 P q * k2 P q * dddc_D0D0D1 P q + 2 * k1 P q * dc_D0 P q * ddk2_D0D1 P q + k1 P q * ddc_D0D0 P q * dk2_D1
    P q + k1 P q * dc_D1 P q * ddk2_D0D0 P q + 2 * k1 P q * dk2_D0 P q * ddc_D0D1 P q + 2 * k2 P q * dc_D0 P q * ddk1_D0D1 P q + k2 P q * ddc_D0D0 P q * dk1_D1 P q + k2 P
    q * dc_D1 P q * ddk1_D0D0 P q + 2 * k2 P q * dk1_D0 P q * ddc_D0D1 P q + 2 * dc_D0 P q * dk1_D0 P q * dk2_D1 P q + 2 * dc_D0 P q * dk1_D1 P q * dk2_D0 P q + 2 * dc_D1
    P q * dk1_D0 P q * dk2_D0 P q

/-- Free_Data/fd_KerrSchild_g_dg_ddg_dddg.c:4614-4654 `_dddgamma_D1D2D0D0D2[ijk]` -/
noncomputable def dddgamma_D1D2D0D0D2 (P : Par) (q : Pt) : ℝ :=
  c P q * k1 P q * dddk2_D0D0D2 P q + c P q * k2 P q * dddk1_D0D0D2 P q + 2 * c P q * dk1_D0 P q * ddk2_D0D2 P q + c P q * ddk1_D0D0 P q * dk2_D2 P q + c P q * dk1_D2 P q
    * ddk2_D0D0 P q + 2 * c P q * dk2_D0 P q * ddk1_D0D2 P q + k1 P q * k2 P q * dddc_D0D0D2 P q + 2 * k1 P q * dc_D0 P q * ddk2_D0D2 P q + k1 P q * ddc_D0D0 P q * dk2_D2
    P q + k1 P q * dc_D2 P q * ddk2_D0D0 P q + 2 * k1 P q * dk2_D0 P q * ddc_D0D2 P q + 2 * k2 P q * dc_D0 P q * ddk1_D0D2 P q + k2 P q * ddc_D0D0 P q * dk1_D2 P q + k2 P
    q * dc_D2 P q * ddk1_D0D0 P q + 2 * k2 P q * dk1_D0 P q * ddc_D0D2 P q + 2 * dc_D0 P q * dk1_D0 P q * dk2_D2 P q + 2 * dc_D0 P q * dk1_D2 P q * dk2_D0 P q + 2 * dc_D2
    P q * dk1_D0 P q * dk2_D0 P q

/-- Free_Data/fd_KerrSchild_g_dg_ddg_dddg.c:6229-6269 `_dddgamma_D1D2D0D1D0[ijk]` -/
noncomputable def dddgamma_D1D2D0D1D0 (P : Par) (q : Pt) : ℝ :=
  c P q * k1 P q * dddk2_D0D0D1 P q + c P q * k2 P q * dddk1_D0D0D1 P q + 2 * c P q * dk1_D0 P q * ddk2_D0D1 P q + c P q * ddk1_D0D0 P q * dk2_D1 P q + c P q * dk1_D1 P q
    * ddk2_D0D0 P q + 2 * c P q * dk2_D0 P q * ddk1_D0D1 P q + k1 P q * k2 P q * dddc_D0D0D1 P q + 2 * k1 P q * dc_D0 P q * ddk2_D0D1 P q + k1 P q * ddc_D0D0 P q * dk2_D1
    P q + k1 P q * dc_D1 P q * ddk2_D0D0 P q + 2 * k1 P q * dk2_D0 P q * ddc_D0D1 P q + 2 * k2 P q * dc_D0 P q * ddk1_D0D1 P q + k2 P q * ddc_D0D0 P q * dk1_D1 P q + k2 P
    q * dc_D1 P q * ddk1_D0D0 P q + 2 * k2 P q * dk1_D0 P q * ddc_D0D1 P q + 2 * dc_D0 P q * dk1_D0 P q * dk2_D1 P q + 2 * dc_D0 P q * dk1_D1 P q * dk2_D0 P q + 2 * dc_D1
    P q * dk1_D0 P q * dk2_D0 P q

/-- Free_Data/fd_KerrSchild_g_dg_ddg_dddg.c:3113-3153 `_dddgamma_D1D2D0D1D1[ijk]` -/
noncomputable def dddgamma_D1D2D0D1D1 (P : Par) (q : Pt) : ℝ :=
  c P q * k1 P q * dddk2_D0D1D1 P q + c P q * k2 P q * dddk1_D0D1D1 P q + c P q * dk1_D0 P q * ddk2_D1D1 P q + 2 * c P q * dk1_D1 P q * ddk2_D0D1 P q + c P q * ddk1_D1D1
    P q * dk2_D0 P q + 2 * c P q * dk2_D1 P q * ddk1_D0D1 P q + k1 P q * k2 P q * dddc_D0D1D1 P q + k1 P q * dc_D0 P q * ddk2_D1D1 P q + 2 * k1 P q * dc_D1 P q *
    ddk2_D0D1 P q + k1 P q * ddc_D1D1 P q * dk2_D0 P q + 2 * k1 P q * dk2_D1 P q * ddc_D0D1 P q + k2 P q * dc_D0 P q * ddk1_D1D1 P q + 2 * k2 P q * dc_D1 P q * ddk1_D0D1
    P q + k2 P q * ddc_D1D1 P q * dk1_D0 P q + 2 * k2 P q * dk1_D1 P q * ddc_D0D1 P q + 2 * dc_D0 P q * dk1_D1 P q * dk2_D1 P q + 2 * dc_D1 P q * dk1_D0 P q * dk2_D1 P q
    + 2 * dc_D1 P q * dk1_D1 P q * dk2_D0 P q

/-- Free_Data/fd_KerrSchild_g_dg_ddg_dddg.c:3525-3581 `_dddgamma_D1D2D0D1D2[ijk]` -/
noncomputable def dddgamma_D1D2D0D1D2 (P : Par) (q : Pt) : ℝ :=
  c P q * k1 P q * dddk2_D0D1D2 P q + c P q * k2 P q * dddk1_D0D1D2 P q + c P q * dk1_D0 P q * ddk2_D1D2 P q + c P q * dk1_D1 P q * ddk2_D0D2 P q + c P q * dk1_D2 P q *
    ddk2_D0D1 P q + c P q * dk2_D0 P q * ddk1_D1D2 P q + c P q * dk2_D1 P q * ddk1_D0D2 P q + c P q * dk2_D2 P q * ddk1_D0D1 P q + k1 P q * k2 P q * dddc_D0D1D2 P q + k1
    P q * dc_D0 P q * ddk2_D1D2 P q + k1 P q * dc_D1 P q * ddk2_D0D2 P q + k1 P q * dc_D2 P q * ddk2_D0D1 P q + k1 P q * dk2_D0 P q * ddc_D1D2 P q + k1 P q * dk2_D1 P q *
    ddc_D0D2 P q + k1 P q * dk2_D2 P q * ddc_D0D1 P q + k2 P q * dc_D0 P q * ddk1_D1D2 P q + k2 P q * dc_D1 P q * ddk1_D0D2 P q + k2 P q * dc_D2 P q * ddk1_D0D1 P q + k2
    P q * dk1_D0 P q * ddc_D1D2 P q + k2 P q * dk1_D1 P q * ddc_D0D2 P q + k2 P q * dk1_D2 P q * ddc_D0D1 P q + dc_D0 P q * dk1_D1 P q * dk2_D2 P q + dc_D0 P q * dk1_D2 P
    q * dk2_D1 P q + dc_D1 P q * dk1_D0 P q * dk2_D2 P q + dc_D1 P q * dk1_D2 P q * dk2_D0 P q + dc_D2 P q * dk1_D0 P q * dk2_D1 P q + dc_D2 P q * dk1_D1 P q * dk2_D0 P q

/-- Free_Data/fd_KerrSchild_g_dg_ddg_dddg.c:1776-1816 `_dddgamma_D1D2D0D2D0[ijk]` -/
noncomputable def dddgamma_D1D2D0D2D0 (P : Par) (q : Pt) : ℝ :=
  c P q * k1 P q * dddk2_D0D0D2 P q + c P q * k2 P q * dddk1_D0D0D2 P q + 2 * c P q * dk1_D0 P q * ddk2_D0D2 P q + c P q * ddk1_D0D0 P q * dk2_D2 P q + c P q * dk1_D2 P q
    * ddk2_D0D0 P q + 2 * c P q * dk2_D0 P q * ddk1_D0D2 P q + k1 P q * k2 P q * dddc_D0D0D2 P q + 2 * k1 P q * dc_D0 P q * ddk2_D0D2 P q + k1 P q * ddc_D0D0 P q * dk2_D2
    P q + k1 P q * dc_D2 P q * ddk2_D0D0 P q + 2 * k1 P q * dk2_D0 P q * ddc_D0D2 P q + 2 * k2 P q * dc_D0 P q * ddk1_D0D2 P q + k2 P q * ddc_D0D0 P q * dk1_D2 P q + k2 P
    q * dc_D2 P q * ddk1_D0D0 P q + 2 * k2 P q * dk1_D0 P q * ddc_D0D2 P q + 2 * dc_D0 P q * dk1_D0 P q * dk2_D2 P q + 2 * dc_D0 P q * dk1_D2 P q * dk2_D0 P q + 2 * dc_D2
    P q * dk1_D0 P q * dk2_D0 P q

/-- Free_Data/fd_KerrSchild_g_dg_ddg_dddg.c:5148-5204 `_dddgamma_D1D2D0D2D1[ijk]` -/
noncomputable def dddgamma_D1D2D0D2D1 (P : Par) (q : Pt) : ℝ :=
  c P q * k1 P q * dddk2_D0D1D2 P q + c P q * k2 P q * dddk1_D0D1D2 P q + c P q * dk1_D0 P q * ddk2_D1D2 P q + c P q * dk1_D1 P q * ddk2_D0D2 P q + c P q * dk1_D2 P q *
    ddk2_D0D1 P q + c P q * dk2_D0 P q * ddk1_D1D2 P q + c P q * dk2_D1 P q * ddk1_D0D2 P q + c P q * dk2_D2 P q * ddk1_D0D1 P q + k1 P q * k2 P q * dddc_D0D1D2 P q + k1
    P q * dc_D0 P q * ddk2_D1D2 P q + k1 P q * dc_D1 P q * ddk2_D0D2 P q + k1 P q * dc_D2 P q * ddk2_D0D1 P q + k1 P q * dk2_D0 P q * ddc_D1D2 P q + k1 P q * dk2_D1 P q *
    ddc_D0D2 P q + k1 P q * dk2_D2 P q * ddc_D0D1 P q + k2 P q * dc_D0 P q * ddk1_D1D2 P q + k2 P q * dc_D1 P q * ddk1_D0D2 P q + k2 P q * dc_D2 P q * ddk1_D0D1 P q + k2
    P q * dk1_D0 P q * ddc_D1D2 P q + k2 P q * dk1_D1 P q * ddc_D0D2 P q + k2 P q * dk1_D2 P q * ddc_D0D1 P q + dc_D0 P q * dk1_D1 P q * dk2_D2 P q + dc_D0 P q * dk1_D2 P
    q * dk2_D1 P q + dc_D1 P q * dk1_D0 P q * dk2_D2 P q + dc_D1 P q * dk1_D2 P q * dk2_D0 P q + dc_D2 P q * dk1_D0 P q * dk2_D1 P q + dc_D2 P q * dk1_D1 P q * dk2_D0 P q

/-- Free_Data/fd_KerrSchild_g_dg_ddg_dddg.c:7457-7497 `_dddgamma_D1D2D0D2D2[ijk]` -/
noncomputable def dddgamma_D1D2D0D2D2 (P : Par) (q : Pt) : ℝ :=
  c P q * k1 P q * dddk2_D0D2D2 P q + c P q * k2 P q * dddk1_D0D2D2 P q + c P q * dk1_D0 P q * ddk2_D2D2 P q + 2 * c P q * dk1_D2 P q * ddk2_D0D2 P q + c P q * ddk1_D2D2
    P q * dk2_D0 P q + 2 * c P q * dk2_D2 P q * ddk1_D0D2 P q + k1 P q * k2 P q * dddc_D0D2D2 P q + k1 P q * dc_D0 P q * ddk2_D2D2 P q + 2 * k1 P q * dc_D2 P q *
    ddk2_D0D2 P q + k1 P q * ddc_D2D2 P q * dk2_D0 P q + 2 * k1 P q * dk2_D2 P q * ddc_D0D2 P q + k2 P q * dc_D0 P q * ddk1_D2D2 P q + 2 * k2 P q * dc_D2 P q * ddk1_D0D2
    P q + k2 P q * ddc_D2D2 P q * dk1_D0 P q + 2 * k2 P q * dk1_D2 P q * ddc_D0D2 P q + 2 * dc_D0 P q * dk1_D2 P q * dk2_D2 P q + 2 * dc_D2 P q * dk1_D0 P q * dk2_D2 P q
    + 2 * dc_D2 P q * dk1_D2 P q * dk2_D0 P q

/-- Free_Data/fd_KerrSchild_g_dg_ddg_dddg.c:3029-3069 `_dddgamma_D1D2D1D0D0[ijk]` -/
noncomputable def dddgamma_D1D2D1D0D0 (P : Par) (q : Pt) : ℝ :=
  c P q * k1 P q * dddk2_D0D0D1 P q + c P q * k2 P q * dddk1_D0D0D1 P q + 2 * c P q * dk1_D0 P q * ddk2_D0D1 P q + c P q * ddk1_D0D0 P q * dk2_D1 P q + c P q * dk1_D1 P q
    * ddk2_D0D0 P q + 2 * c P q * dk2_D0 P q * ddk1_D0D1 P q + k1 P q * k2 P q * dddc_D0D0D1 P q + 2 * k1 P q * dc_D0 P q * ddk2_D0D1 P q + k1 P q * ddc_D0D0 P q * dk2_D1
    P q + k1 P q * dc_D1 P q * ddk2_D0D0 P q + 2 * k1 P q * dk2_D0 P q * ddc_D0D1 P q + 2 * k2 P q * dc_D0 P q * ddk1_D0D1 P q + k2 P q * ddc_D0D0 P q * dk1_D1 P q + k2 P
    q * dc_D1 P q * ddk1_D0D0 P q + 2 * k2 P q * dk1_D0 P q * ddc_D0D1 P q + 2 * dc_D0 P q * dk1_D0 P q * dk2_D1 P q + 2 * dc_D0 P q * dk1_D1 P q * dk2_D0 P q + 2 * dc_D1
    P q * dk1_D0 P q * dk2_D0 P q

/-- Free_Data/fd_KerrSchild_g_dg_ddg_dddg.c:2488-2528 `_dddgamma_D1D2D1D0D1[ijk]` -/
noncomputable def dddgamma_D1D2D1D0D1 (P : Par) (q : Pt) : ℝ :=
  c P q * k1 P q * dddk2_D0D1D1 P q + c P q * k2 P q * dddk1_D0D1D1 P q + c P q * dk1_D0 P q * ddk2_D1D1 P q + 2 * c P q * dk1_D1 P q * ddk2_D0D1 P q + c P q * ddk1_D1D1
    P q * dk2_D0 P q + 2 * c P q * dk2_D1 P q * ddk1_D0D1 P q + k1 P q * k2 P q * dddc_D0D1D1 P q + k1 P q * dc_D0 P q * ddk2_D1D1 P q + 2 * k1 P q * dc_D1 P q *
    ddk2_D0D1 P q + k1 P q * ddc_D1D1 P q * dk2_D0 P q + 2 * k1 P q * dk2_D1 P q * ddc_D0D1 P q + k2 P q * dc_D0 P q * ddk1_D1D1 P q + 2 * k2 P q * dc_D1 P q * ddk1_D0D1
    P q + k2 P q * ddc_D1D1 P q * dk1_D0 P q + 2 * k2 P q * dk1_D1 P q * ddc_D0D1 P q + 2 * dc_D0 P q * dk1_D1 P q * dk2_D1 P q + 2 * dc_D1 P q * dk1_D0 P q * dk2_D1 P q
    + 2 * dc_D1 P q * dk1_D1 P q * dk2_D0 P q

/-- Free_Data/fd_KerrSchild_g_dg_ddg_dddg.c:5888-5944 `_dddgamma_D1D2D1D0D2[ijk]` -/
noncomputable def dddgamma_D1D2D1D0D2 (P : Par) (q : Pt) : ℝ :=
  c P q * k1 P q * dddk2_D0D1D2 P q + c P q * k2 P q * dddk1_D0D1D2 P q + c P q * dk1_D0 P q * ddk2_D1D2 P q + c P q * dk1_D1 P q * ddk2_D0D2 P q + c P q * dk1_D2 P q *
    ddk2_D0D1 P q + c P q * dk2_D0 P q * ddk1_D1D2 P q + c P q * dk2_D1 P q * ddk1_D0D2 P q + c P q * dk2_D2 P q * ddk1_D0D1 P q + k1 P q * k2 P q * dddc_D0D1D2 P q + k1
    P q * dc_D0 P q * ddk2_D1D2 P q + k1 P q * dc_D1 P q * ddk2_D0D2 P q + k1 P q * dc_D2 P q * ddk2_D0D1 P q + k1 P q * dk2_D0 P q * ddc_D1D2 P q + k1 P q * dk2_D1 P q *
    ddc_D0D2 P q + k1 P q * dk2_D2 P q * ddc_D0D1 P q + k2 P q * dc_D0 P q * ddk1_D1D2 P q + k2 P q * dc_D1 P q * ddk1_D0D2 P q + k2 P q * dc_D2 P q * ddk1_D0D1 P q + k2
    P q * dk1_D0 P q * ddc_D1D2 P q + k2 P q * dk1_D1 P q * ddc_D0D2 P q + k2 P q * dk1_D2 P q * ddc_D0D1 P q + dc_D0 P q * dk1_D1 P q * dk2_D2 P q + dc_D0 P q * dk1_D2 P
    q * dk2_D1 P q + dc_D1 P q * dk1_D0 P q * dk2_D2 P q + dc_D1 P q * dk1_D2 P q * dk2_D0 P q + dc_D2 P q * dk1_D0 P q * dk2_D1 P q + dc_D2 P q * dk1_D1 P q * dk2_D0 P q

/-- Free_Data/fd_KerrSchild_g_dg_ddg_dddg.c:4914-4954 `_dddgamma_D1D2D1D1D0[ijk]` -/
noncomputable def dddgamma_D1D2D1D1D0 (P : Par) (q : Pt) : ℝ :=
  c P q * k1 P q * dddk2_D0D1D1 P q + c P q * k2 P q * dddk1_D0D1D1 P q + c P q * dk1_D0 P q * ddk2_D1D1 P q + 2 * c P q * dk1_D1 P q * ddk2_D0D1 P q + c P q * ddk1_D1D1
    P q * dk2_D0 P q + 2 * c P q * dk2_D1 P q * ddk1_D0D1 P q + k1 P q * k2 P q * dddc_D0D1D1 P q + k1 P q * dc_D0 P q * ddk2_D1D1 P q + 2 * k1 P q * dc_D1 P q *
    ddk2_D0D1 P q + k1 P q * ddc_D1D1 P q * dk2_D0 P q + 2 * k1 P q * dk2_D1 P q * ddc_D0D1 P q + k2 P q * dc_D0 P q * ddk1_D1D1 P q + 2 * k2 P q * dc_D1 P q * ddk1_D0D1
    P q + k2 P q * ddc_D1D1 P q * dk1_D0 P q + 2 * k2 P q * dk1_D1 P q * ddc_D0D1 P q + 2 * dc_D0 P q * dk1_D1 P q * dk2_D1 P q + 2 * dc_D1 P q * dk1_D0 P q * dk2_D1 P q
    + 2 * dc_D1 P q * dk1_D1 P q * dk2_D0 P q

/-- Free_Data/fd_KerrSchild_g_dg_ddg_dddg.c:5233-5258 `_dddgamma_D1D2D1D1D1[ijk]` -/
noncomputable def dddgamma_D1D2D1D1D1 (P : Par) (q : Pt) : ℝ :=
  c P q * k1 P q * dddk2_D1D1D1 P q + c P q * k2 P q * dddk1_D1D1D1 P q + 3 * c P q * dk1_D1 P q * ddk2_D1D1 P q + 3 * c P q * ddk1_D1D1 P q * dk2_D1 P q + k1 P q * k2 P
    q * dddc_D1D1D1 P q + 3 * k1 P q * dc_D1 P q * ddk2_D1D1 P q + 3 * k1 P q * ddc_D1D1 P q * dk2_D1 P q + 3 * k2 P q * dc_D1 P q * ddk1_D1D1 P q + 3 * k2 P q * ddc_D1D1
    P q * dk1_D1 P q + 6 * dc_D1 P q * dk1_D1 P q * dk2_D1 P q

/-- Free_Data/fd_KerrSchild_g_dg_ddg_dddg.c:5598-5638 `_dddgamma_D1D2D1D1D2[ijk]` -/
noncomputable def dddgamma_D1D2D1D1D2 (P : Par) (q : Pt) : ℝ :=
  c P q * k1 P q * dddk2_D1D1D2 P q + c P q * k2 P q * dddk1_D1D1D2 P q + 2 * c P q * dk1_D1 P q * ddk2_D1D2 P q + c P q * ddk1_D1D1 P q * dk2_D2 P q + c P q * dk1_D2 P q
    * ddk2_D1D1 P q + 2 * c P q * dk2_D1 P q * ddk1_D1D2 P q + k1 P q * k2 P q * dddc_D1D1D2 P q + 2 * k1 P q * dc_D1 P q * ddk2_D1D2 P q + k1 P q * ddc_D1D1 P q * dk2_D2
    P q + k1 P q * dc_D2 P q * ddk2_D1D1 P q + 2 * k1 P q * dk2_D1 P q * ddc_D1D2 P q + 2 * k2 P q * dc_D1 P q * ddk1_D1D2 P q + k2 P q * ddc_D1D1 P q * dk1_D2 P q + k2 P
    q * dc_D2 P q * ddk1_D1D1 P q + 2 * k2 P q * dk1_D1 P q * ddc_D1D2 P q + 2 * dc_D1 P q * dk1_D1 P q * dk2_D2 P q + 2 * dc_D1 P q * dk1_D2 P q * dk2_D1 P q + 2 * dc_D2
    P q * dk1_D1 P q * dk2_D1 P q

/-- Free_Data/fd_KerrSchild_g_dg_ddg_dddg.c:6439-6495 `_dddgamma_D1D2D1D2D0[ijk]` -/
noncomputable def dddgamma_D1D2D1D2D0 (P : Par) (q : Pt) : ℝ :=
  c P q * k1 P q * dddk2_D0D1D2 P q + c P q * k2 P q * dddk1_D0D1D2 P q + c P q * dk1_D0 P q * ddk2_D1D2 P q + c P q * dk1_D1 P q * ddk2_D0D2 P q + c P q * dk1_D2 P q *
    ddk2_D0D1 P q + c P q * dk2_D0 P q * ddk1_D1D2 P q + c P q * dk2_D1 P q * ddk1_D0D2 P q + c P q * dk2_D2 P q * ddk1_D0D1 P q + k1 P q * k2 P q * dddc_D0D1D2 P q + k1
    P q * dc_D0 P q * ddk2_D1D2 P q + k1 P q * dc_D1 P q * ddk2_D0D2 P q + k1 P q * dc_D2 P q * ddk2_D0D1 P q + k1 P q * dk2_D0 P q * ddc_D1D2 P q + k1 P q * dk2_D1 P q *
    ddc_D0D2 P q + k1 P q * dk2_D2 P q * ddc_D0D1 P q + k2 P q * dc_D0 P q * ddk1_D1D2 P q + k2 P q * dc_D1 P q * ddk1_D0D2 P q + k2 P q * dc_D2 P q * ddk1_D0D1 P q + k2
    P q * dk1_D0 P q * ddc_D1D2 P q + k2 P q * dk1_D1 P q * ddc_D0D2 P q + k2 P q * dk1_D2 P q * ddc_D0D1 P q + dc_D0 P q * dk1_D1 P q * dk2_D2 P q + dc_D0 P q * dk1_D2 P
    q * dk2_D1 P q + dc_D1 P q * dk1_D0 P q * dk2_D2 P q + dc_D1 P q * dk1_D2 P q * dk2_D0 P q + dc_D2 P q * dk1_D0 P q * dk2_D1 P q + dc_D2 P q * dk1_D1 P q * dk2_D0 P q

/-- Free_Data/fd_KerrSchild_g_dg_ddg_dddg.c:2635-2675 `_dddgamma_D1D2D1D2D1[ijk]` -/
noncomputable def dddgamma_D1D2D1D2D1 (P : Par) (q : Pt) : ℝ :=
  c P q * k1 P q * dddk2_D1D1D2 P q + c P q * k2 P q * dddk1_D1D1D2 P q + 2 * c P q * dk1_D1 P q * ddk2_D1D2 P q + c P q * ddk1_D1D1 P q * dk2_D2 P q + c P q * dk1_D2 P q
    * ddk2_D1D1 P q + 2 * c P q * dk2_D1 P q * ddk1_D1D2 P q + k1 P q * k2 P q * dddc_D1D1D2 P q + 2 * k1 P q * dc_D1 P q * ddk2_D1D2 P q + k1 P q * ddc_D1D1 P q * dk2_D2
    P q + k1 P q * dc_D2 P q * ddk2_D1D1 P q + 2 * k1 P q * dk2_D1 P q * ddc_D1D2 P q + 2 * k2 P q * dc_D1 P q * ddk1_D1D2 P q + k2 P q * ddc_D1D1 P q * dk1_D2 P q + k2 P
    q * dc_D2 P q * ddk1_D1D1 P q + 2 * k2 P q * dk1_D1 P q * ddc_D1D2 P q + 2 * dc_D1 P q * dk1_D1 P q * dk2_D2 P q + 2 * dc_D1 P q * dk1_D2 P q * dk2_D1 P q + 2 * dc_D2
    P q * dk1_D1 P q * dk2_D1 P q

/-- Free_Data/fd_KerrSchild_g_dg_ddg_dddg.c:4794-4834 `_dddgamma_D1D2D1D2D2[ijk]` -/
noncomputable def dddgamma_D1D2D1D2D2 (P : Par) (q : Pt) : ℝ :=
  c P q * k1 P q * dddk2_D1D2D2 P q + c P q * k2 P q * dddk1_D1D2D2 P q + c P q * dk1_D1 P q * ddk2_D2D2 P q + 2 * c P q * dk1_D2 P q * ddk2_D1D2 P q + c P q * ddk1_D2D2
    P q * dk2_D1 P q + 2 * c P q * dk2_D2 P q * ddk1_D1D2 P q + k1 P q * k2 P q * dddc_D1D2D2 P q + k1 P q * dc_D1 P q * ddk2_D2D2 P q + 2 * k1 P q * dc_D2 P q *
    ddk2_D1D2 P q + k1 P q * ddc_D2D2 P q * dk2_D1 P q + 2 * k1 P q * dk2_D2 P q * ddc_D1D2 P q + k2 P q * dc_D1 P q * ddk1_D2D2 P q + 2 * k2 P q * dc_D2 P q * ddk1_D1D2
    P q + k2 P q * ddc_D2D2 P q * dk1_D1 P q + 2 * k2 P q * dk1_D2 P q * ddc_D1D2 P q + 2 * dc_D1 P q * dk1_D2 P q * dk2_D2 P q + 2 * dc_D2 P q * dk1_D1 P q * dk2_D2 P q
    + 2 * dc_D2 P q * dk1_D2 P q * dk2_D1 P q

/-- Free_Data/fd_KerrSchild_g_dg_ddg_dddg.c:6355-6395 `_dddgamma_D1D2D2D0D0[ijk]` -/
noncomputable def dddgamma_D1D2D2D0D0 (P : Par) (q : Pt) : ℝ :=
  c P q * k1 P q * dddk2_D0D0D2 P q + c P q * k2 P q * dddk1_D0D0D2 P q + 2 * c P q * dk1_D0 P q * ddk2_D0D2 P q + c P q * ddk1_D0D0 P q * dk2_D2 P q + c P q * dk1_D2 P q
    * ddk2_D0D0 P q + 2 * c P q * dk2_D0 P q * ddk1_D0D2 P q + k1 P q * k2 P q * dddc_D0D0D2 P q + 2 * k1 P q * dc_D0 P q * ddk2_D0D2 P q + k1 P q * ddc_D0D0 P q * dk2_D2
    P q + k1 P q * dc_D2 P q * ddk2_D0D0 P q + 2 * k1 P q * dk2_D0 P q * ddc_D0D2 P q + 2 * k2 P q * dc_D0 P q * ddk1_D0D2 P q + k2 P q * ddc_D0D0 P q * dk1_D2 P q + k2 P
    q * dc_D2 P q * ddk1_D0D0 P q + 2 * k2 P q * dk1_D0 P q * ddc_D0D2 P q + 2 * dc_D0 P q * dk1_D0 P q * dk2_D2 P q + 2 * dc_D0 P q * dk1_D2 P q * dk2_D0 P q + 2 * dc_D2
    P q * dk1_D0 P q * dk2_D0 P q

/-- Free_Data/fd_KerrSchild_g_dg_ddg_dddg.c:7045-7101 `_dddgamma_D1D2D2D0D1[ijk]` -/
noncomputable def dddgamma_D1D2D2D0D1 (P : Par) (q : Pt) : ℝ :=
  c P q * k1 P q * dddk2_D0D1D2 P q + c P q * k2 P q * dddk1_D0D1D2 P q + c P q * dk1_D0 P q * ddk2_D1D2 P q + c P q * dk1_D1 P q * ddk2_D0D2 P q + c P q * dk1_D2 P q *
    ddk2_D0D1 P q + c P q * dk2_D0 P q * ddk1_D1D2 P q + c P q * dk2_D1 P q * ddk1_D0D2 P q + c P q * dk2_D2 P q * ddk1_D0D1 P q + k1 P q * k2 P q * dddc_D0D1D2 P q + k1
    P q * dc_D0 P q * ddk2_D1D2 P q + k1 P q * dc_D1 P q * ddk2_D0D2 P q + k1 P q * dc_D2 P q * ddk2_D0D1 P q + k1 P q * dk2_D0 P q * ddc_D1D2 P q + k1 P q * dk2_D1 P q *
    ddc_D0D2 P q + k1 P q * dk2_D2 P q * ddc_D0D1 P q + k2 P q * dc_D0 P q * ddk1_D1D2 P q + k2 P q * dc_D1 P q * ddk1_D0D2 P q + k2 P q * dc_D2 P q * ddk1_D0D1 P q + k2
    P q * dk1_D0 P q * ddc_D1D2 P q + k2 P q * dk1_D1 P q * ddc_D0D2 P q + k2 P q * dk1_D2 P q * ddc_D0D1 P q + dc_D0 P q * dk1_D1 P q * dk2_D2 P q + dc_D0 P q * dk1_D2 P
    q * dk2_D1 P q + dc_D1 P q * dk1_D0 P q * dk2_D2 P q + dc_D1 P q * dk1_D2 P q * dk2_D0 P q + dc_D2 P q * dk1_D0 P q * dk2_D1 P q + dc_D2 P q * dk1_D1 P q * dk2_D0 P q

/-- Free_Data/fd_KerrSchild_g_dg_ddg_dddg.c:3832-3872 `_dddgamma_D1D2D2D0D2[ijk]` -/
noncomputable def dddgamma_D1D2D2D0D2 (P : Par) (q : Pt) : ℝ :=
  c P q * k1 P q * dddk2_D0D2D2 P q + c P q * k2 P q * dddk1_D0D2D2 P q + c P q * dk1_D0 P q * ddk2_D2D2 P q + 2 * c P q * dk1_D2 P q * ddk2_D0D2 P q + c P q * ddk1_D2D2
    P q * dk2_D0 P q + 2 * c P q * dk2_D2 P q * ddk1_D0D2 P q + k1 P q * k2 P q * dddc_D0D2D2 P q + k1 P q * dc_D0 P q * ddk2_D2D2 P q + 2 * k1 P q * dc_D2 P q *
    ddk2_D0D2 P q + k1 P q * ddc_D2D2 P q * dk2_D0 P q + 2 * k1 P q * dk2_D2 P q * ddc_D0D2 P q + k2 P q * dc_D0 P q * ddk1_D2D2 P q + 2 * k2 P q * dc_D2 P q * ddk1_D0D2
    P q + k2 P q * ddc_D2D2 P q * dk1_D0 P q + 2 * k2 P q * dk1_D2 P q * ddc_D0D2 P q + 2 * dc_D0 P q * dk1_D2 P q * dk2_D2 P q + 2 * dc_D2 P q * dk1_D0 P q * dk2_D2 P q
    + 2 * dc_D2 P q * dk1_D2 P q * dk2_D0 P q

/-- Free_Data/fd_KerrSchild_g_dg_ddg_dddg.c:2740-2796 `_dddgamma_D1D2D2D1D0[ijk]` -/
noncomputable def dddgamma_D1D2D2D1D0 (P : Par) (q : Pt) : ℝ :=
  c P q * k1 P q * dddk2_D0D1D2 P q + c P q * k2 P q * dddk1_D0D1D2 P q + c P q * dk1_D0 P q * ddk2_D1D2 P q + c P q * dk1_D1 P q * ddk2_D0D2 P q + c P q * dk1_D2 P q *
    ddk2_D0D1 P q + c P q * dk2_D0 P q * ddk1_D1D2 P q + c P q * dk2_D1 P q * ddk1_D0D2 P q + c P q * dk2_D2 P q * ddk1_D0D1 P q + k1 P q * k2 P q * dddc_D0D1D2 P q + k1
    P q * dc_D0 P q * ddk2_D1D2 P q + k1 P q * dc_D1 P q * ddk2_D0D2 P q + k1 P q * dc_D2 P q * ddk2_D0D1 P q + k1 P q * dk2_D0 P q * ddc_D1D2 P q + k1 P q * dk2_D1 P q *
    ddc_D0D2 P q + k1 P q * dk2_D2 P q * ddc_D0D1 P q + k2 P q * dc_D0 P q * ddk1_D1D2 P q + k2 P q * dc_D1 P q * ddk1_D0D2 P q + k2 P q * dc_D2 P q * ddk1_D0D1 P q + k2
    P q * dk1_D0 P q * ddc_D1D2 P q + k2 P q * dk1_D1 P q * ddc_D0D2 P q + k2 P q * dk1_D2 P q * ddc_D0D1 P q + dc_D0 P q * dk1_D1 P q * dk2_D2 P q + dc_D0 P q * dk1_D2 P
    q * dk2_D1 P q + dc_D1 P q * dk1_D0 P q * dk2_D2 P q + dc_D1 P q * dk1_D2 P q * dk2_D0 P q + dc_D2 P q * dk1_D0 P q * dk2_D1 P q + dc_D2 P q * dk1_D1 P q * dk2_D0 P q

/-- Free_Data/fd_KerrSchild_g_dg_ddg_dddg.c:5025-5065 `_dddgamma_D1D2D2D1D1[ijk]` -/
noncomputable def dddgamma_D1D2D2D1D1 (P : Par) (q : Pt) : ℝ :=
  c P q * k1 P q * dddk2_D1D1D2 P q + c P q * k2 P q * dddk1_D1D1D2 P q + 2 * c P q * dk1_D1 P q * ddk2_D1D2 P q + c P q * ddk1_D1D1 P q * dk2_D2 P q + c P q * dk1_D2 P q
    * ddk2_D1D1 P q + 2 * c P q * dk2_D1 P q * ddk1_D1D2 P q + k1 P q * k2 P q * dddc_D1D1D2 P q + 2 * k1 P q * dc_D1 P q * ddk2_D1D2 P q + k1 P q * ddc_D1D1 P q * dk2_D2
    P q + k1 P q * dc_D2 P q * ddk2_D1D1 P q + 2 * k1 P q * dk2_D1 P q * ddc_D1D2 P q + 2 * k2 P q * dc_D1 P q * ddk1_D1D2 P q + k2 P q * ddc_D1D1 P q * dk1_D2 P q + k2 P
    q * dc_D2 P q * ddk1_D1D1 P q + 2 * k2 P q * dk1_D1 P q * ddc_D1D2 P q + 2 * dc_D1 P q * dk1_D1 P q * dk2_D2 P q + 2 * dc_D1 P q * dk1_D2 P q * dk2_D1 P q + 2 * dc_D2
    P q * dk1_D1 P q * dk2_D1 P q

/-- Free_Data/fd_KerrSchild_g_dg_ddg_dddg.c:3943-3983 `_dddgamma_D1D2D2D1D2[ijk]` -/
noncomputable def dddgamma_D1D2D2D1D2 (P : Par) (q : Pt) : ℝ :=
  c P q * k1 P q * dddk2_D1D2D2 P q + c P q * k2 P q * dddk1_D1D2D2 P q + c P q * dk1_D1 P q * ddk2_D2D2 P q + 2 * c P q * dk1_D2 P q * ddk2_D1D2 P q + c P q * ddk1_D2D2
    P q * dk2_D1 P q + 2 * c P q * dk2_D2 P q * ddk1_D1D2 P q + k1 P q * k2 P q * dddc_D1D2D2 P q + k1 P q * dc_D1 P q * ddk2_D2D2 P q + 2 * k1 P q * dc_D2 P q *
    ddk2_D1D2 P q + k1 P q * ddc_D2D2 P q * dk2_D1 P q + 2 * k1 P q * dk2_D2 P q * ddc_D1D2 P q + k2 P q * dc_D1 P q * ddk1_D2D2 P q + 2 * k2 P q * dc_D2 P q * ddk1_D1D2
    P q + k2 P q * ddc_D2D2 P q * dk1_D1 P q + 2 * k2 P q * dk1_D2 P q * ddc_D1D2 P q + 2 * dc_D1 P q * dk1_D2 P q * dk2_D2 P q + 2 * dc_D2 P q * dk1_D1 P q * dk2_D2 P q
    + 2 * dc_D2 P q * dk1_D2 P q * dk2_D1 P q

/-- Free_Data/fd_KerrSchild_g_dg_ddg_dddg.c:4214-4254 `_dddgamma_D1D2D2D2D0[ijk]` -/
noncomputable def dddgamma_D1D2D2D2D0 (P : Par) (q : Pt) : ℝ :=
  c P q * k1 P q * dddk2_D0D2D2 P q + c P q * k2 P q * dddk1_D0D2D2 P q + c P q * dk1_D0 P q * ddk2_D2D2 P q + 2 * c P q * dk1_D2 P q * ddk2_D0D2 P q + c P q * ddk1_D2D2
    P q * dk2_D0 P q + 2 * c P q * dk2_D2 P q * ddk1_D0D2 P q + k1 P q * k2 P q * dddc_D0D2D2 P q + k1 P q * dc_D0 P q * ddk2_D2D2 P q + 2 * k1 P q * dc_D2 P q *
    ddk2_D0D2 P q + k1 P q * ddc_D2D2 P q * dk2_D0 P q + 2 * k1 P q * dk2_D2 P q * ddc_D0D2 P q + k2 P q * dc_D0 P q * ddk1_D2D2 P q + 2 * k2 P q * dc_D2 P q * ddk1_D0D2
    P q + k2 P q * ddc_D2D2 P q * dk1_D0 P q + 2 * k2 P q * dk1_D2 P q * ddc_D0D2 P q + 2 * dc_D0 P q * dk1_D2 P q * dk2_D2 P q + 2 * dc_D2 P q * dk1_D0 P q * dk2_D2 P q
    + 2 * dc_D2 P q * dk1_D2 P q * dk2_D0 P q

/-- Free_Data/fd_KerrSchild_g_dg_ddg_dddg.c:4956-4996 `_dddgamma_D1D2D2D2D1[ijk]` -/
noncomputable def dddgamma_D1D2D2D2D1 (P : Par) (q : Pt) : ℝ :=
  c P q * k1 P q * dddk2_D1D2D2 P q + c P q * k2 P q * dddk1_D1D2D2 P q + c P q * dk1_D1 P q * ddk2_D2D2 P q + 2 * c P q * dk1_D2 P q * ddk2_D1D2 P q + c P q * ddk1_D2D2
    P q * dk2_D1 P q + 2 * c P q * dk2_D2 P q * ddk1_D1D2 P q + k1 P q * k2 P q * dddc_D1D2D2 P q + k1 P q * dc_D1 P q * ddk2_D2D2 P q + 2 * k1 P q * dc_D2 P q *
    ddk2_D1D2 P q + k1 P q * ddc_D2D2 P q * dk2_D1 P q + 2 * k1 P q * dk2_D2 P q * ddc_D1D2 P q + k2 P q * dc_D1 P q * ddk1_D2D2 P q + 2 * k2 P q * dc_D2 P q * ddk1_D1D2
    P q + k2 P q * ddc_D2D2 P q * dk1_D1 P q + 2 * k2 P q * dk1_D2 P q * ddc_D1D2 P q + 2 * dc_D1 P q * dk1_D2 P q * dk2_D2 P q + 2 * dc_D2 P q * dk1_D1 P q * dk2_D2 P q
    + 2 * dc_D2 P q * dk1_D2 P q * dk2_D1 P q

/-- Free_Data/fd_KerrSchild_g_dg_ddg_dddg.c:2608-2633 `_dddgamma_D1D2D2D2D2[ijk]` -/
noncomputable def dddgamma_D1D2D2D2D2 (P : Par) (q : Pt) : ℝ :=
  c P q * k1 P q * dddk2_D2D2D2 P q + c P q * k2 P q * dddk1_D2D2D2 P q + 3 * c P q * dk1_D2 P q * ddk2_D2D2 P q + 3 * c P q * ddk1_D2D2 P q * dk2_D2 P q + k1 P q * k2 P
    q * dddc_D2D2D2 P q + 3 * k1 P q * dc_D2 P q * ddk2_D2D2 P q + 3 * k1 P q * ddc_D2D2 P q * dk2_D2 P q + 3 * k2 P q * dc_D2 P q * ddk1_D2D2 P q + 3 * k2 P q * ddc_D2D2
    P q * dk1_D2 P q + 6 * dc_D2 P q * dk1_D2 P q * dk2_D2 P q

/-- Free_Data/fd_KerrSchild_g_dg_ddg_dddg.c:6913-6929 `_dddgamma_D2D2D0D0D0[ijk]` -/
noncomputable def dddgamma_D2D2D0D0D0 (P : Par) (q : Pt) : ℝ :=
  2 * c P q * k2 P q * dddk2_D0D0D0 P q + 6 * c P q * dk2_D0 P q * ddk2_D0D0 P q + (k2 P q) ^ 2 * dddc_D0D0D0 P q + 6 * k2 P q * dc_D0 P q * ddk2_D0D0 P q + 6 * k2 P q *
    ddc_D0D0 P q * dk2_D0 P q + 6 * dc_D0 P q * (dk2_D0 P q) ^ 2

/-- Free_Data/fd_KerrSchild_g_dg_ddg_dddg.c:3332-3357 `_dddgamma_D2D2D0D0D1[ijk]` -/
noncomputable def dddgamma_D2D2D0D0D1 (P : Par) (q : Pt) : ℝ :=
  2 * c P q * k2 P q * dddk2_D0D0D1 P q + 4 * c P q * dk2_D0 P q * ddk2_D0D1 P q + 2 * c P q * ddk2_D0D0 P q * dk2_D1 P q + (k2 P q) ^ 2 * dddc_D0D0D1 P q + 4 * k2 P q *
    dc_D0 P q * ddk2_D0D1 P q + 2 * k2 P q * ddc_D0D0 P q * dk2_D1 P q + 2 * k2 P q * dc_D1 P q * ddk2_D0D0 P q + 4 * k2 P q * dk2_D0 P q * ddc_D0D1 P q + 4 * dc_D0 P q *
    dk2_D0 P q * dk2_D1 P q + 2 * dc_D1 P q * (dk2_D0 P q) ^ 2

/-- Free_Data/fd_KerrSchild_g_dg_ddg_dddg.c:6796-6821 `_dddgamma_D2D2D0D0D2[ijk]` -/
noncomputable def dddgamma_D2D2D0D0D2 (P : Par) (q : Pt) : ℝ :=
  2 * c P q * k2 P q * dddk2_D0D0D2 P q + 4 * c P q * dk2_D0 P q * ddk2_D0D2 P q + 2 * c P q * ddk2_D0D0 P q * dk2_D2 P q + (k2 P q) ^ 2 * dddc_D0D0D2 P q + 4 * k2 P q *
    dc_D0 P q * ddk2_D0D2 P q + 2 * k2 P q * ddc_D0D0 P q * dk2_D2 P q + 2 * k2 P q * dc_D2 P q * ddk2_D0D0 P q + 4 * k2 P q * dk2_D0 P q * ddc_D0D2 P q + 4 * dc_D0 P q *
    dk2_D0 P q * dk2_D2 P q + 2 * dc_D2 P q * (dk2_D0 P q) ^ 2

/-- Free_Data/fd_KerrSchild_g_dg_ddg_dddg.c:4506-4531 `_dddgamma_D2D2D0D1D0[ijk]` -/
noncomputable def dddgamma_D2D2D0D1D0 (P : Par) (q : Pt) : ℝ :=
  2 * c P q * k2 P q * dddk2_D0D0D1 P q + 4 * c P q * dk2_D0 P q * ddk2_D0D1 P q + 2 * c P q * ddk2_D0D0 P q * dk2_D1 P q + (k2 P q) ^ 2 * dddc_D0D0D1 P q + 4 * k2 P q *
    dc_D0 P q * ddk2_D0D1 P q + 2 * k2 P q * ddc_D0D0 P q * dk2_D1 P q + 2 * k2 P q * dc_D1 P q * ddk2_D0D0 P q + 4 * k2 P q * dk2_D0 P q * ddc_D0D1 P q + 4 * dc_D0 P q *
    dk2_D0 P q * dk2_D1 P q + 2 * dc_D1 P q * (dk2_D0 P q) ^ 2

/-- Free_Data/fd_KerrSchild_g_dg_ddg_dddg.c:5640-5665 `_dddgamma_D2D2D0D1D1[ijk]` -/
noncomputable def dddgamma_D2D2D0D1D1 (P : Par) (q : Pt) : ℝ :=
  2 * c P q * k2 P q * dddk2_D0D1D1 P q + 2 * c P q * dk2_D0 P q * ddk2_D1D1 P q + 4 * c P q * dk2_D1 P q * ddk2_D0D1 P q + (k2 P q) ^ 2 * dddc_D0D1D1 P q + 2 * k2 P q *
    dc_D0 P q * ddk2_D1D1 P q + 4 * k2 P q * dc_D1 P q * ddk2_D0D1 P q + 2 * k2 P q * ddc_D1D1 P q * dk2_D0 P q + 4 * k2 P q * dk2_D1 P q * ddc_D0D1 P q + 2 * dc_D0 P q *
    (dk2_D1 P q) ^ 2 + 4 * dc_D1 P q * dk2_D0 P q * dk2_D1 P q

/-- Free_Data/fd_KerrSchild_g_dg_ddg_dddg.c:4656-4690 `_dddgamma_D2D2D0D1D2[ijk]` -/
noncomputable def dddgamma_D2D2D0D1D2 (P : Par) (q : Pt) : ℝ :=
  2 * c P q * k2 P q * dddk2_D0D1D2 P q + 2 * c P q * dk2_D0 P q * ddk2_D1D2 P q + 2 * c P q * dk2_D1 P q * ddk2_D0D2 P q + 2 * c P q * dk2_D2 P q * ddk2_D0D1 P q + (k2 P
    q) ^ 2 * dddc_D0D1D2 P q + 2 * k2 P q * dc_D0 P q * ddk2_D1D2 P q + 2 * k2 P q * dc_D1 P q * ddk2_D0D2 P q + 2 * k2 P q * dc_D2 P q * ddk2_D0D1 P q + 2 * k2 P q *
    dk2_D0 P q * ddc_D1D2 P q + 2 * k2 P q * dk2_D1 P q * ddc_D0D2 P q + 2 * k2 P q * dk2_D2 P q * ddc_D0D1 P q + 2 * dc_D0 P q * dk2_D1 P q * dk2_D2 P q + 2 * dc_D1 P q
    * dk2_D0 P q * dk2_D2 P q + 2 * dc_D2 P q * dk2_D0 P q * dk2_D1 P q

/-- Free_Data/fd_KerrSchild_g_dg_ddg_dddg.c:6850-6875 `_dddgamma_D2D2D0D2D0[ijk]` -/
noncomputable def dddgamma_D2D2D0D2D0 (P : Par) (q : Pt) : ℝ :=
  2 * c P q * k2 P q * dddk2_D0D0D2 P q + 4 * c P q * dk2_D0 P q * ddk2_D0D2 P q + 2 * c P q * ddk2_D0D0 P q * dk2_D2 P q + (k2 P q) ^ 2 * dddc_D0D0D2 P q + 4 * k2 P q *
    dc_D0 P q * ddk2_D0D2 P q + 2 * k2 P q * ddc_D0D0 P q * dk2_D2 P q + 2 * k2 P q * dc_D2 P q * ddk2_D0D0 P q + 4 * k2 P q * dk2_D0 P q * ddc_D0D2 P q + 4 * dc_D0 P q *
    dk2_D0 P q * dk2_D2 P q + 2 * dc_D2 P q * (dk2_D0 P q) ^ 2

/-- Free_Data/fd_KerrSchild_g_dg_ddg_dddg.c:2677-2711 `_dddgamma_D2D2D0D2D1[ijk]` -/
noncomputable def dddgamma_D2D2D0D2D1 (P : Par) (q : Pt) : ℝ :=
  2 * c P q * k2 P q * dddk2_D0D1D2 P q + 2 * c P q * dk2_D0 P q * ddk2_D1D2 P q + 2 * c P q * dk2_D1 P q * ddk2_D0D2 P q + 2 * c P q * dk2_D2 P q * ddk2_D0D1 P q + (k2 P
    q) ^ 2 * dddc_D0D1D2 P q + 2 * k2 P q * dc_D0 P q * ddk2_D1D2 P q + 2 * k2 P q * dc_D1 P q * ddk2_D0D2 P q + 2 * k2 P q * dc_D2 P q * ddk2_D0D1 P q + 2 * k2 P q *
    dk2_D0 P q * ddc_D1D2 P q + 2 * k2 P q * dk2_D1 P q * ddc_D0D2 P q + 2 * k2 P q * dk2_D2 P q * ddc_D0D1 P q + 2 * dc_D0 P q * dk2_D1 P q * dk2_D2 P q + 2 * dc_D1 P q
    * dk2_D0 P q * dk2_D2 P q + 2 * dc_D2 P q * dk2_D0 P q * dk2_D1 P q

/-- Free_Data/fd_KerrSchild_g_dg_ddg_dddg.c:3916-3941 `_dddgamma_D2D2D0D2D2[ijk]` -/
noncomputable def dddgamma_D2D2D0D2D2 (P : Par) (q : Pt) : ℝ :=
  2 * c P q * k2 P q * dddk2_D0D2D2 P q + 2 * c P q * dk2_D0 P q * ddk2_D2D2 P q + 4 * c P q * dk2_D2 P q * ddk2_D0D2 P q + (k2 P q) ^ 2 * dddc_D0D2D2 P q + 2 * k2 P q *
    dc_D0 P q * ddk2_D2D2 P q + 4 * k2 P q * dc_D2 P q * ddk2_D0D2 P q + 2 * k2 P q * ddc_D2D2 P q * dk2_D0 P q + 4 * k2 P q * dk2_D2 P q * ddc_D0D2 P q + 2 * dc_D0 P q *
    (dk2_D2 P q) ^ 2 + 4 * dc_D2 P q * dk2_D0 P q * dk2_D2 P q

/-- Free_Data/fd_KerrSchild_g_dg_ddg_dddg.c:2401-2426 `_dddgamma_D2D2D1D0D0[ijk]` -/
noncomputable def dddgamma_D2D2D1D0D0 (P : Par) (q : Pt) : ℝ :=
  2 * c P q * k2 P q * dddk2_D0D0D1 P q + 4 * c P q * dk2_D0 P q * ddk2_D0D1 P q + 2 * c P q * ddk2_D0D0 P q * dk2_D1 P q + (k2 P q) ^ 2 * dddc_D0D0D1 P q + 4 * k2 P q *
    dc_D0 P q * ddk2_D0D1 P q + 2 * k2 P q * ddc_D0D0 P q * dk2_D1 P q + 2 * k2 P q * dc_D1 P q * ddk2_D0D0 P q + 4 * k2 P q * dk2_D0 P q * ddc_D0D1 P q + 4 * dc_D0 P q *
    dk2_D0 P q * dk2_D1 P q + 2 * dc_D1 P q * (dk2_D0 P q) ^ 2

/-- Free_Data/fd_KerrSchild_g_dg_ddg_dddg.c:6497-6522 `_dddgamma_D2D2D1D0D1[ijk]` -/
noncomputable def dddgamma_D2D2D1D0D1 (P : Par) (q : Pt) : ℝ :=
  2 * c P q * k2 P q * dddk2_D0D1D1 P q + 2 * c P q * dk2_D0 P q * ddk2_D1D1 P q + 4 * c P q * dk2_D1 P q * ddk2_D0D1 P q + (k2 P q) ^ 2 * dddc_D0D1D1 P q + 2 * k2 P q *
    dc_D0 P q * ddk2_D1D1 P q + 4 * k2 P q * dc_D1 P q * ddk2_D0D1 P q + 2 * k2 P q * ddc_D1D1 P q * dk2_D0 P q + 4 * k2 P q * dk2_D1 P q * ddc_D0D1 P q + 2 * dc_D0 P q *
    (dk2_D1 P q) ^ 2 + 4 * dc_D1 P q * dk2_D0 P q * dk2_D1 P q

/-- Free_Data/fd_KerrSchild_g_dg_ddg_dddg.c:7166-7200 `_dddgamma_D2D2D1D0D2[ijk]` -/
noncomputable def dddgamma_D2D2D1D0D2 (P : Par) (q : Pt) : ℝ :=
  2 * c P q * k2 P q * dddk2_D0D1D2 P q + 2 * c P q * dk2_D0 P q * ddk2_D1D2 P q + 2 * c P q * dk2_D1 P q * ddk2_D0D2 P q + 2 * c P q * dk2_D2 P q * ddk2_D0D1 P q + (k2 P
    q) ^ 2 * dddc_D0D1D2 P q + 2 * k2 P q * dc_D0 P q * ddk2_D1D2 P q + 2 * k2 P q * dc_D1 P q * ddk2_D0D2 P q + 2 * k2 P q * dc_D2 P q * ddk2_D0D1 P q + 2 * k2 P q *
    dk2_D0 P q * ddc_D1D2 P q + 2 * k2 P q * dk2_D1 P q * ddc_D0D2 P q + 2 * k2 P q * dk2_D2 P q * ddc_D0D1 P q + 2 * dc_D0 P q * dk2_D1 P q * dk2_D2 P q + 2 * dc_D1 P q
    * dk2_D0 P q * dk2_D2 P q + 2 * dc_D2 P q * dk2_D0 P q * dk2_D1 P q

/-- Free_Data/fd_KerrSchild_g_dg_ddg_dddg.c:4187-4212 `_dddgamma_D2D2D1D1D0[ijk]` -/
noncomputable def dddgamma_D2D2D1D1D0 (P : Par) (q : Pt) : ℝ :=
  2 * c P q * k2 P q * dddk2_D0D1D1 P q + 2 * c P q * dk2_D0 P q * ddk2_D1D1 P q + 4 * c P q * dk2_D1 P q * ddk2_D0D1 P q + (k2 P q) ^ 2 * dddc_D0D1D1 P q + 2 * k2 P q *
    dc_D0 P q * ddk2_D1D1 P q + 4 * k2 P q * dc_D1 P q * ddk2_D0D1 P q + 2 * k2 P q * ddc_D1D1 P q * dk2_D0 P q + 4 * k2 P q * dk2_D1 P q * ddc_D0D1 P q + 2 * dc_D0 P q *
    (dk2_D1 P q) ^ 2 + 4 * dc_D1 P q * dk2_D0 P q * dk2_D1 P q

/-- Free_Data/fd_KerrSchild_g_dg_ddg_dddg.c:3985-4001 `_dddgamma_D2D2D1D1D1[ijk]` -/
noncomputable def dddgamma_D2D2D1D1D1 (P : Par) (q : Pt) : ℝ :=
  2 * c P q * k2 P q * dddk2_D1D1D1 P q + 6 * c P q * dk2_D1 P q * ddk2_D1D1 P q + (k2 P q) ^ 2 * dddc_D1D1D1 P q + 6 * k2 P q * dc_D1 P q * ddk2_D1D1 P q + 6 * k2 P q *
    ddc_D1D1 P q * dk2_D1 P q + 6 * dc_D1 P q * (dk2_D1 P q) ^ 2

/-- Free_Data/fd_KerrSchild_g_dg_ddg_dddg.c:5206-5231 `_dddgamma_D2D2D1D1D2[ijk]` -/
noncomputable def dddgamma_D2D2D1D1D2 (P : Par) (q : Pt) : ℝ :=
  2 * c P q * k2 P q * dddk2_D1D1D2 P q + 4 * c P q * dk2_D1 P q * ddk2_D1D2 P q + 2 * c P q * ddk2_D1D1 P q * dk2_D2 P q + (k2 P q) ^ 2 * dddc_D1D1D2 P q + 4 * k2 P q *
    dc_D1 P q * ddk2_D1D2 P q + 2 * k2 P q * ddc_D1D1 P q * dk2_D2 P q + 2 * k2 P q * dc_D2 P q * ddk2_D1D1 P q + 4 * k2 P q * dk2_D1 P q * ddc_D1D2 P q + 4 * dc_D1 P q *
    dk2_D1 P q * dk2_D2 P q + 2 * dc_D2 P q * (dk2_D1 P q) ^ 2

/-- Free_Data/fd_KerrSchild_g_dg_ddg_dddg.c:3769-3803 `_dddgamma_D2D2D1D2D0[ijk]` -/
noncomputable def dddgamma_D2D2D1D2D0 (P : Par) (q : Pt) : ℝ :=
  2 * c P q * k2 P q * dddk2_D0D1D2 P q + 2 * c P q * dk2_D0 P q * ddk2_D1D2 P q + 2 * c P q * dk2_D1 P q * ddk2_D0D2 P q + 2 * c P q * dk2_D2 P q * ddk2_D0D1 P q + (k2 P
    q) ^ 2 * dddc_D0D1D2 P q + 2 * k2 P q * dc_D0 P q * ddk2_D1D2 P q + 2 * k2 P q * dc_D1 P q * ddk2_D0D2 P q + 2 * k2 P q * dc_D2 P q * ddk2_D0D1 P q + 2 * k2 P q *
    dk2_D0 P q * ddc_D1D2 P q + 2 * k2 P q * dk2_D1 P q * ddc_D0D2 P q + 2 * k2 P q * dk2_D2 P q * ddc_D0D1 P q + 2 * dc_D0 P q * dk2_D1 P q * dk2_D2 P q + 2 * dc_D1 P q
    * dk2_D0 P q * dk2_D2 P q + 2 * dc_D2 P q * dk2_D0 P q * dk2_D1 P q

/-- Free_Data/fd_KerrSchild_g_dg_ddg_dddg.c:2320-2345 `_dddgamma_D2D2D1D2D1[ijk]` -/
noncomputable def dddgamma_D2D2D1D2D1 (P : Par) (q : Pt) : ℝ :=
  2 * c P q * k2 P q * dddk2_D1D1D2 P q + 4 * c P q * dk2_D1 P q * ddk2_D1D2 P q + 2 * c P q * ddk2_D1D1 P q * dk2_D2 P q + (k2 P q) ^ 2 * dddc_D1D1D2 P q + 4 * k2 P q *
    dc_D1 P q * ddk2_D1D2 P q + 2 * k2 P q * ddc_D1D1 P q * dk2_D2 P q + 2 * k2 P q * dc_D2 P q * ddk2_D1D1 P q + 4 * k2 P q * dk2_D1 P q * ddc_D1D2 P q + 4 * dc_D1 P q *
    dk2_D1 P q * dk2_D2 P q + 2 * dc_D2 P q * (dk2_D1 P q) ^ 2

/-- Free_Data/fd_KerrSchild_g_dg_ddg_dddg.c:6524-6549 `_dddgamma_D2D2D1D2D2[ijk]` -/
noncomputable def dddgamma_D2D2D1D2D2 (P : Par) (q : Pt) : ℝ :=
  2 * c P q * k2 P q * dddk2_D1D2D2 P q + 2 * c P q * dk2_D1 P q * ddk2_D2D2 P q + 4 * c P q * dk2_D2 P q * ddk2_D1D2 P q + (k2 P q) ^ 2 * dddc_D1D2D2 P q + 2 * k2 P q *
    dc_D1 P q * ddk2_D2D2 P q + 4 * k2 P q * dc_D2 P q * ddk2_D1D2 P q + 2 * k2 P q * ddc_D2D2 P q * dk2_D1 P q + 4 * k2 P q * dk2_D2 P q * ddc_D1D2 P q + 2 * dc_D1 P q *
    (dk2_D2 P q) ^ 2 + 4 * dc_D2 P q * dk2_D1 P q * dk2_D2 P q

/-- Free_Data/fd_KerrSchild_g_dg_ddg_dddg.c:6823-6848 `_dddgamma_D2D2D2D0D0[ijk]` -/
noncomputable def dddgamma_D2D2D2D0D0 (P : Par) (q : Pt) : ℝ :=
  2 * c P q * k2 P q * dddk2_D0D0D2 P q + 4 * c P q * dk2_D0 P q * ddk2_D0D2 P q + 2 * c P q * ddk2_D0D0 P q * dk2_D2 P q + (k2 P q) ^ 2 * dddc_D0D0D2 P q + 4 * k2 P q *
    dc_D0 P q * ddk2_D0D2 P q + 2 * k2 P q * ddc_D0D0 P q * dk2_D2 P q + 2 * k2 P q * dc_D2 P q * ddk2_D0D0 P q + 4 * k2 P q * dk2_D0 P q * ddc_D0D2 P q + 4 * dc_D0 P q *
    dk2_D0 P q * dk2_D2 P q + 2 * dc_D2 P q * (dk2_D0 P q) ^ 2

/-- Free_Data/fd_KerrSchild_g_dg_ddg_dddg.c:2572-2606 `_dddgamma_D2D2D2D0D1[ijk]` -/
noncomputable def dddgamma_D2D2D2D0D1 (P : Par) (q : Pt) : ℝ :=
  2 * c P q * k2 P q * dddk2_D0D1D2 P q + 2 * c P q * dk2_D0 P q * ddk2_D1D2 P q + 2 * c P q * dk2_D1 P q * ddk2_D0D2 P q + 2 * c P q * dk2_D2 P q * ddk2_D0D1 P q + (k2 P
    q) ^ 2 * dddc_D0D1D2 P q + 2 * k2 P q * dc_D0 P q * ddk2_D1D2 P q + 2 * k2 P q * dc_D1 P q * ddk2_D0D2 P q + 2 * k2 P q * dc_D2 P q * ddk2_D0D1 P q + 2 * k2 P q *
    dk2_D0 P q * ddc_D1D2 P q + 2 * k2 P q * dk2_D1 P q * ddc_D0D2 P q + 2 * k2 P q * dk2_D2 P q * ddc_D0D1 P q + 2 * dc_D0 P q * dk2_D1 P q * dk2_D2 P q + 2 * dc_D1 P q
    * dk2_D0 P q * dk2_D2 P q + 2 * dc_D2 P q * dk2_D0 P q * dk2_D1 P q

/-- Free_Data/fd_KerrSchild_g_dg_ddg_dddg.c:6931-6956 `_dddgamma_D2D2D2D0D2[ijk]` -/
noncomputable def dddgamma_D2D2D2D0D2 (P : Par) (q : Pt) : ℝ :=
  2 * c P q * k2 P q * dddk2_D0D2D2 P q + 2 * c P q * dk2_D0 P q * ddk2_D2D2 P q + 4 * c P q * dk2_D2 P q * ddk2_D0D2 P q + (k2 P q) ^ 2 * dddc_D0D2D2 P q + 2 * k2 P q *
    dc_D0 P q * ddk2_D2D2 P q + 4 * k2 P q * dc_D2 P q * ddk2_D0D2 P q + 2 * k2 P q * ddc_D2D2 P q * dk2_D0 P q + 4 * k2 P q * dk2_D2 P q * ddc_D0D2 P q + 2 * dc_D0 P q *
    (dk2_D2 P q) ^ 2 + 4 * dc_D2 P q * dk2_D0 P q * dk2_D2 P q

/-- Free_Data/fd_KerrSchild_g_dg_ddg_dddg.c:5810-5844 `_dddgamma_D2D2D2D1D0[ijk]` -/
noncomputable def dddgamma_D2D2D2D1D0 (P : Par) (q : Pt) : ℝ :=
  2 * c P q * k2 P q * dddk2_D0D1D2 P q + 2 * c P q * dk2_D0 P q * ddk2_D1D2 P q + 2 * c P q * dk2_D1 P q * ddk2_D0D2 P q + 2 * c P q * dk2_D2 P q * ddk2_D0D1 P q + (k2 P
    q) ^ 2 * dddc_D0D1D2 P q + 2 * k2 P q * dc_D0 P q * ddk2_D1D2 P q + 2 * k2 P q * dc_D1 P q * ddk2_D0D2 P q + 2 * k2 P q * dc_D2 P q * ddk2_D0D1 P q + 2 * k2 P q *
    dk2_D0 P q * ddc_D1D2 P q + 2 * k2 P q * dk2_D1 P q * ddc_D0D2 P q + 2 * k2 P q * dk2_D2 P q * ddc_D0D1 P q + 2 * dc_D0 P q * dk2_D1 P q * dk2_D2 P q + 2 * dc_D1 P q
    * dk2_D0 P q * dk2_D2 P q + 2 * dc_D2 P q * dk2_D0 P q * dk2_D1 P q

/-- Free_Data/fd_KerrSchild_g_dg_ddg_dddg.c:3646-3671 `_dddgamma_D2D2D2D1D1[ijk]` -/
noncomputable def dddgamma_D2D2D2D1D1 (P : Par) (q : Pt) : ℝ :=
  2 * c P q * k2 P q * dddk2_D1D1D2 P q + 4 * c P q * dk2_D1 P q * ddk2_D1D2 P q + 2 * c P q * ddk2_D1D1 P q * dk2_D2 P q + (k2 P q) ^ 2 * dddc_D1D1D2 P q + 4 * k2 P q *
    dc_D1 P q * ddk2_D1D2 P q + 2 * k2 P q * ddc_D1D1 P q * dk2_D2 P q + 2 * k2 P q * dc_D2 P q * ddk2_D1D1 P q + 4 * k2 P q * dk2_D1 P q * ddc_D1D2 P q + 4 * dc_D1 P q *
    dk2_D1 P q * dk2_D2 P q + 2 * dc_D2 P q * (dk2_D1 P q) ^ 2

/-- Free_Data/fd_KerrSchild_g_dg_ddg_dddg.c:1929-1954 `_dddgamma_D2D2D2D1D2[ijk]` -/
noncomputable def dddgamma_D2D2D2D1D2 (P : Par) (q : Pt) : ℝ :=
  2 * c P q * k2 P q * dddk2_D1D2D2 P q + 2 * c P q * dk2_D1 P q * ddk2_D2D2 P q + 4 * c P q * dk2_D2 P q * ddk2_D1D2 P q + (k2 P q) ^ 2 * dddc_D1D2D2 P q + 2 * k2 P q *
    dc_D1 P q * ddk2_D2D2 P q + 4 * k2 P q * dc_D2 P q * ddk2_D1D2 P q + 2 * k2 P q * ddc_D2D2 P q * dk2_D1 P q + 4 * k2 P q * dk2_D2 P q * ddc_D1D2 P q + 2 * dc_D1 P q *
    (dk2_D2 P q) ^ 2 + 4 * dc_D2 P q * dk2_D1 P q * dk2_D2 P q

/-- Free_Data/fd_KerrSchild_g_dg_ddg_dddg.c:3715-3740 `_dddgamma_D2D2D2D2D0[ijk]` -/
noncomputable def dddgamma_D2D2D2D2D0 (P : Par) (q : Pt) : ℝ :=
  2 * c P q * k2 P q * dddk2_D0D2D2 P q + 2 * c P q * dk2_D0 P q * ddk2_D2D2 P q + 4 * c P q * dk2_D2 P q * ddk2_D0D2 P q + (k2 P q) ^ 2 * dddc_D0D2D2 P q + 2 * k2 P q *
    dc_D0 P q * ddk2_D2D2 P q + 4 * k2 P q * dc_D2 P q * ddk2_D0D2 P q + 2 * k2 P q * ddc_D2D2 P q * dk2_D0 P q + 4 * k2 P q * dk2_D2 P q * ddc_D0D2 P q + 2 * dc_D0 P q *
    (dk2_D2 P q) ^ 2 + 4 * dc_D2 P q * dk2_D0 P q * dk2_D2 P q

/-- Free_Data/fd_KerrSchild_g_dg_ddg_dddg.c:2374-2399 `_dddgamma_D2D2D2D2D1[ijk]` -/
noncomputable def dddgamma_D2D2D2D2D1 (P : Par) (q : Pt) : ℝ :=
  2 * c P q * k2 P q * dddk2_D1D2D2 P q + 2 * c P q * dk2_D1 P q * ddk2_D2D2 P q + 4 * c P q * dk2_D2 P q * ddk2_D1D2 P q + (k2 P q) ^ 2 * dddc_D1D2D2 P q + 2 * k2 P q *
    dc_D1 P q * ddk2_D2D2 P q + 4 * k2 P q * dc_D2 P q * ddk2_D1D2 P q + 2 * k2 P q * ddc_D2D2 P q * dk2_D1 P q + 4 * k2 P q * dk2_D2 P q * ddc_D1D2 P q + 2 * dc_D1 P q *
    (dk2_D2 P q) ^ 2 + 4 * dc_D2 P q * dk2_D1 P q * dk2_D2 P q

/-- Free_Data/fd_KerrSchild_g_dg_ddg_dddg.c:6678-6694 `_dddgamma_D2D2D2D2D2[ijk]` -/
noncomputable def dddgamma_D2D2D2D2D2 (P : Par) (q : Pt) : ℝ :=
  2 * c P q * k2 P q * dddk2_D2D2D2 P q + 6 * c P q * dk2_D2 P q * ddk2_D2D2 P q + (k2 P q) ^ 2 * dddc_D2D2D2 P q + 6 * k2 P q * dc_D2 P q * ddk2_D2D2 P q + 6 * k2 P q *
    ddc_D2D2 P q * dk2_D2 P q + 6 * dc_D2 P q * (dk2_D2 P q) ^ 2

/-- the metric components: D1D0 is kept as D0D1 -/
noncomputable def gam (P : Par) : Fin 3 → Fin 3 → Pt → ℝ
  | 0, 0, q => gamma_D0D0 P q
  | 0, 1, q => gamma_D0D1 P q
  | 0, 2, q => gamma_D0D2 P q
  | 1, 0, q => gamma_D0D1 P q
  | 1, 1, q => gamma_D1D1 P q
  | 1, 2, q => gamma_D1D2 P q
  | 2, 0, q => gamma_D0D2 P q
  | 2, 1, q => gamma_D1D2 P q
  | 2, 2, q => gamma_D2D2 P q

/-- the first derivatives of the metric -/
noncomputable def dgam (P : Par) : Fin 3 → Fin 3 → Fin 3 → Pt → ℝ
  | 0, 0, 0, q => dgamma_D0D0D0 P q
  | 0, 0, 1, q => dgamma_D0D0D1 P q
  | 0, 0, 2, q => dgamma_D0D0D2 P q
  | 0, 1, 0, q => dgamma_D0D1D0 P q
  | 0, 1, 1, q => dgamma_D0D1D1 P q
  | 0, 1, 2, q => dgamma_D0D1D2 P q
  | 0, 2, 0, q => dgamma_D0D2D0 P q
  | 0, 2, 1, q => dgamma_D0D2D1 P q
  | 0, 2, 2, q => dgamma_D0D2D2 P q
  | 1, 0, 0, q => dgamma_D0D1D0 P q
  | 1, 0, 1, q => dgamma_D0D1D1 P q
  | 1, 0, 2, q => dgamma_D0D1D2 P q
  | 1, 1, 0, q => dgamma_D1D1D0 P q
  | 1, 1, 1, q => dgamma_D1D1D1 P q
  | 1, 1, 2, q => dgamma_D1D1D2 P q
  | 1, 2, 0, q => dgamma_D1D2D0 P q
  | 1, 2, 1, q => dgamma_D1D2D1 P q
  | 1, 2, 2, q => dgamma_D1D2D2 P q
  | 2, 0, 0, q => dgamma_D0D2D0 P q
  | 2, 0, 1, q => dgamma_D0D2D1 P q
  | 2, 0, 2, q => dgamma_D0D2D2 P q
  | 2, 1, 0, q => dgamma_D1D2D0 P q
  | 2, 1, 1, q => dgamma_D1D2D1 P q
  | 2, 1, 2, q => dgamma_D1D2D2 P q
  | 2, 2, 0, q => dgamma_D2D2D0 P q
  | 2, 2, 1, q => dgamma_D2D2D1 P q
  | 2, 2, 2, q => dgamma_D2D2D2 P q

/-- the second derivatives of the metric -/
noncomputable def ddgam (P : Par) : Fin 3 → Fin 3 → Fin 3 → Fin 3 → Pt → ℝ
  | 0, 0, 0, 0, q => ddgamma_D0D0D0D0 P q
  | 0, 0, 0, 1, q => ddgamma_D0D0D0D1 P q
  | 0, 0, 0, 2, q => ddgamma_D0D0D0D2 P q
  | 0, 0, 1, 0, q => ddgamma_D0D0D1D0 P q
  | 0, 0, 1, 1, q => ddgamma_D0D0D1D1 P q
  | 0, 0, 1, 2, q => ddgamma_D0D0D1D2 P q
  | 0, 0, 2, 0, q => ddgamma_D0D0D2D0 P q
  | 0, 0, 2, 1, q => ddgamma_D0D0D2D1 P q
  | 0, 0, 2, 2, q => ddgamma_D0D0D2D2 P q
  | 0, 1, 0, 0, q => ddgamma_D0D1D0D0 P q
  | 0, 1, 0, 1, q => ddgamma_D0D1D0D1 P q
  | 0, 1, 0, 2, q => ddgamma_D0D1D0D2 P q
  | 0, 1, 1, 0, q => ddgamma_D0D1D1D0 P q
  | 0, 1, 1, 1, q => ddgamma_D0D1D1D1 P q
  | 0, 1, 1, 2, q => ddgamma_D0D1D1D2 P q
  | 0, 1, 2, 0, q => ddgamma_D0D1D2D0 P q
  | 0, 1, 2, 1, q => ddgamma_D0D1D2D1 P q
  | 0, 1, 2, 2, q => ddgamma_D0D1D2D2 P q
  | 0, 2, 0, 0, q => ddgamma_D0D2D0D0 P q
  | 0, 2, 0, 1, q => ddgamma_D0D2D0D1 P q
  | 0, 2, 0, 2, q => ddgamma_D0D2D0D2 P q
  | 0, 2, 1, 0, q => ddgamma_D0D2D1D0 P q
  | 0, 2, 1, 1, q => ddgamma_D0D2D1D1 P q
  | 0, 2, 1, 2, q => ddgamma_D0D2D1D2 P q
  | 0, 2, 2, 0, q => ddgamma_D0D2D2D0 P q
  | 0, 2, 2, 1, q => ddgamma_D0D2D2D1 P q
  | 0, 2, 2, 2, q => ddgamma_D0D2D2D2 P q
  | 1, 0, 0, 0, q => ddgamma_D0D1D0D0 P q
  | 1, 0, 0, 1, q => ddgamma_D0D1D0D1 P q
  | 1, 0, 0, 2, q => ddgamma_D0D1D0D2 P q
  | 1, 0, 1, 0, q => ddgamma_D0D1D1D0 P q
  | 1, 0, 1, 1, q => ddgamma_D0D1D1D1 P q
  | 1, 0, 1, 2, q => ddgamma_D0D1D1D2 P q
  | 1, 0, 2, 0, q => ddgamma_D0D1D2D0 P q
  | 1, 0, 2, 1, q => ddgamma_D0D1D2D1 P q
  | 1, 0, 2, 2, q => ddgamma_D0D1D2D2 P q
  | 1, 1, 0, 0, q => ddgamma_D1D1D0D0 P q
  | 1, 1, 0, 1, q => ddgamma_D1D1D0D1 P q
  | 1, 1, 0, 2, q => ddgamma_D1D1D0D2 P q
  | 1, 1, 1, 0, q => ddgamma_D1D1D1D0 P q
  | 1, 1, 1, 1, q => ddgamma_D1D1D1D1 P q
  | 1, 1, 1, 2, q => ddgamma_D1D1D1D2 P q
  | 1, 1, 2, 0, q => ddgamma_D1D1D2D0 P q
  | 1, 1, 2, 1, q => ddgamma_D1D1D2D1 P q
  | 1, 1, 2, 2, q => ddgamma_D1D1D2D2 P q
  | 1, 2, 0, 0, q => ddgamma_D1D2D0D0 P q
  | 1, 2, 0, 1, q => ddgamma_D1D2D0D1 P q
  | 1, 2, 0, 2, q => ddgamma_D1D2D0D2 P q
  | 1, 2, 1, 0, q => ddgamma_D1D2D1D0 P q
  | 1, 2, 1, 1, q => ddgamma_D1D2D1D1 P q
  | 1, 2, 1, 2, q => ddgamma_D1D2D1D2 P q
  | 1, 2, 2, 0, q => ddgamma_D1D2D2D0 P q
  | 1, 2, 2, 1, q => ddgamma_D1D2D2D1 P q
  | 1, 2, 2, 2, q => ddgamma_D1D2D2D2 P q
  | 2, 0, 0, 0, q => ddgamma_D0D2D0D0 P q
  | 2, 0, 0, 1, q => ddgamma_D0D2D0D1 P q
  | 2, 0, 0, 2, q => ddgamma_D0D2D0D2 P q
  | 2, 0, 1, 0, q => ddgamma_D0D2D1D0 P q
  | 2, 0, 1, 1, q => ddgamma_D0D2D1D1 P q
  | 2, 0, 1, 2, q => ddgamma_D0D2D1D2 P q
  | 2, 0, 2, 0, q => ddgamma_D0D2D2D0 P q
  | 2, 0, 2, 1, q => ddgamma_D0D2D2D1 P q
  | 2, 0, 2, 2, q => ddgamma_D0D2D2D2 P q
  | 2, 1, 0, 0, q => ddgamma_D1D2D0D0 P q
  | 2, 1, 0, 1, q => ddgamma_D1D2D0D1 P q
  | 2, 1, 0, 2, q => ddgamma_D1D2D0D2 P q
  | 2, 1, 1, 0, q => ddgamma_D1D2D1D0 P q
  | 2, 1, 1, 1, q => ddgamma_D1D2D1D1 P q
  | 2, 1, 1, 2, q => ddgamma_D1D2D1D2 P q
  | 2, 1, 2, 0, q => ddgamma_D1D2D2D0 P q
  | 2, 1, 2, 1, q => ddgamma_D1D2D2D1 P q
  | 2, 1, 2, 2, q => ddgamma_D1D2D2D2 P q
  | 2, 2, 0, 0, q => ddgamma_D2D2D0D0 P q
  | 2, 2, 0, 1, q => ddgamma_D2D2D0D1 P q
  | 2, 2, 0, 2, q => ddgamma_D2D2D0D2 P q
  | 2, 2, 1, 0, q => ddgamma_D2D2D1D0 P q
  | 2, 2, 1, 1, q => ddgamma_D2D2D1D1 P q
  | 2, 2, 1, 2, q => ddgamma_D2D2D1D2 P q
  | 2, 2, 2, 0, q => ddgamma_D2D2D2D0 P q
  | 2, 2, 2, 1, q => ddgamma_D2D2D2D1 P q
  | 2, 2, 2, 2, q => ddgamma_D2D2D2D2 P q

/-- the third derivatives of the metric -/
noncomputable def dddgam (P : Par) : Fin 3 → Fin 3 → Fin 3 → Fin 3 → Fin 3 → Pt → ℝ
  | 0, 0, 0, 0, 0, q => dddgamma_D0D0D0D0D0 P q
  | 0, 0, 0, 0, 1, q => dddgamma_D0D0D0D0D1 P q
  | 0, 0, 0, 0, 2, q => dddgamma_D0D0D0D0D2 P q
  | 0, 0, 0, 1, 0, q => dddgamma_D0D0D0D1D0 P q
  | 0, 0, 0, 1, 1, q => dddgamma_D0D0D0D1D1 P q
  | 0, 0, 0, 1, 2, q => dddgamma_D0D0D0D1D2 P q
  | 0, 0, 0, 2, 0, q => dddgamma_D0D0D0D2D0 P q
  | 0, 0, 0, 2, 1, q => dddgamma_D0D0D0D2D1 P q
  | 0, 0, 0, 2, 2, q => dddgamma_D0D0D0D2D2 P q
  | 0, 0, 1, 0, 0, q => dddgamma_D0D0D1D0D0 P q
  | 0, 0, 1, 0, 1, q => dddgamma_D0D0D1D0D1 P q
  | 0, 0, 1, 0, 2, q => dddgamma_D0D0D1D0D2 P q
  | 0, 0, 1, 1, 0, q => dddgamma_D0D0D1D1D0 P q
  | 0, 0, 1, 1, 1, q => dddgamma_D0D0D1D1D1 P q
  | 0, 0, 1, 1, 2, q => dddgamma_D0D0D1D1D2 P q
  | 0, 0, 1, 2, 0, q => dddgamma_D0D0D1D2D0 P q
  | 0, 0, 1, 2, 1, q => dddgamma_D0D0D1D2D1 P q
  | 0, 0, 1, 2, 2, q => dddgamma_D0D0D1D2D2 P q
  | 0, 0, 2, 0, 0, q => dddgamma_D0D0D2D0D0 P q
  | 0, 0, 2, 0, 1, q => dddgamma_D0D0D2D0D1 P q
  | 0, 0, 2, 0, 2, q => dddgamma_D0D0D2D0D2 P q
  | 0, 0, 2, 1, 0, q => dddgamma_D0D0D2D1D0 P q
  | 0, 0, 2, 1, 1, q => dddgamma_D0D0D2D1D1 P q
  | 0, 0, 2, 1, 2, q => dddgamma_D0D0D2D1D2 P q
  | 0, 0, 2, 2, 0, q => dddgamma_D0D0D2D2D0 P q
  | 0, 0, 2, 2, 1, q => dddgamma_D0D0D2D2D1 P q
  | 0, 0, 2, 2, 2, q => dddgamma_D0D0D2D2D2 P q
  | 0, 1, 0, 0, 0, q => dddgamma_D0D1D0D0D0 P q
  | 0, 1, 0, 0, 1, q => dddgamma_D0D1D0D0D1 P q
  | 0, 1, 0, 0, 2, q => dddgamma_D0D1D0D0D2 P q
  | 0, 1, 0, 1, 0, q => dddgamma_D0D1D0D1D0 P q
  | 0, 1, 0, 1, 1, q => dddgamma_D0D1D0D1D1 P q
  | 0, 1, 0, 1, 2, q => dddgamma_D0D1D0D1D2 P q
  | 0, 1, 0, 2, 0, q => dddgamma_D0D1D0D2D0 P q
  | 0, 1, 0, 2, 1, q => dddgamma_D0D1D0D2D1 P q
  | 0, 1, 0, 2, 2, q => dddgamma_D0D1D0D2D2 P q
  | 0, 1, 1, 0, 0, q => dddgamma_D0D1D1D0D0 P q
  | 0, 1, 1, 0, 1, q => dddgamma_D0D1D1D0D1 P q
  | 0, 1, 1, 0, 2, q => dddgamma_D0D1D1D0D2 P q
  | 0, 1, 1, 1, 0, q => dddgamma_D0D1D1D1D0 P q
  | 0, 1, 1, 1, 1, q => dddgamma_D0D1D1D1D1 P q
  | 0, 1, 1, 1, 2, q => dddgamma_D0D1D1D1D2 P q
  | 0, 1, 1, 2, 0, q => dddgamma_D0D1D1D2D0 P q
  | 0, 1, 1, 2, 1, q => dddgamma_D0D1D1D2D1 P q
  | 0, 1, 1, 2, 2, q => dddgamma_D0D1D1D2D2 P q
  | 0, 1, 2, 0, 0, q => dddgamma_D0D1D2D0D0 P q
  | 0, 1, 2, 0, 1, q => dddgamma_D0D1D2D0D1 P q
  | 0, 1, 2, 0, 2, q => dddgamma_D0D1D2D0D2 P q
  | 0, 1, 2, 1, 0, q => dddgamma_D0D1D2D1D0 P q
  | 0, 1, 2, 1, 1, q => dddgamma_D0D1D2D1D1 P q
  | 0, 1, 2, 1, 2, q => dddgamma_D0D1D2D1D2 P q
  | 0, 1, 2, 2, 0, q => dddgamma_D0D1D2D2D0 P q
  | 0, 1, 2, 2, 1, q => dddgamma_D0D1D2D2D1 P q
  | 0, 1, 2, 2, 2, q => dddgamma_D0D1D2D2D2 P q
  | 0, 2, 0, 0, 0, q => dddgamma_D0D2D0D0D0 P q
  | 0, 2, 0, 0, 1, q => dddgamma_D0D2D0D0D1 P q
  | 0, 2, 0, 0, 2, q => dddgamma_D0D2D0D0D2 P q
  | 0, 2, 0, 1, 0, q => dddgamma_D0D2D0D1D0 P q
  | 0, 2, 0, 1, 1, q => dddgamma_D0D2D0D1D1 P q
  | 0, 2, 0, 1, 2, q => dddgamma_D0D2D0D1D2 P q
  | 0, 2, 0, 2, 0, q => dddgamma_D0D2D0D2D0 P q
  | 0, 2, 0, 2, 1, q => dddgamma_D0D2D0D2D1 P q
  | 0, 2, 0, 2, 2, q => dddgamma_D0D2D0D2D2 P q
  | 0, 2, 1, 0, 0, q => dddgamma_D0D2D1D0D0 P q
  | 0, 2, 1, 0, 1, q => dddgamma_D0D2D1D0D1 P q
  | 0, 2, 1, 0, 2, q => dddgamma_D0D2D1D0D2 P q
  | 0, 2, 1, 1, 0, q => dddgamma_D0D2D1D1D0 P q
  | 0, 2, 1, 1, 1, q => dddgamma_D0D2D1D1D1 P q
  | 0, 2, 1, 1, 2, q => dddgamma_D0D2D1D1D2 P q
  | 0, 2, 1, 2, 0, q => dddgamma_D0D2D1D2D0 P q
  | 0, 2, 1, 2, 1, q => dddgamma_D0D2D1D2D1 P q
  | 0, 2, 1, 2, 2, q => dddgamma_D0D2D1D2D2 P q
  | 0, 2, 2, 0, 0, q => dddgamma_D0D2D2D0D0 P q
  | 0, 2, 2, 0, 1, q => dddgamma_D0D2D2D0D1 P q
  | 0, 2, 2, 0, 2, q => dddgamma_D0D2D2D0D2 P q
  | 0, 2, 2, 1, 0, q => dddgamma_D0D2D2D1D0 P q
  | 0, 2, 2, 1, 1, q => dddgamma_D0D2D2D1D1 P q
  | 0, 2, 2, 1, 2, q => dddgamma_D0D2D2D1D2 P q
  | 0, 2, 2, 2, 0, q => dddgamma_D0D2D2D2D0 P q
  | 0, 2, 2, 2, 1, q => dddgamma_D0D2D2D2D1 P q
  | 0, 2, 2, 2, 2, q => dddgamma_D0D2D2D2D2 P q
  | 1, 0, 0, 0, 0, q => dddgamma_D0D1D0D0D0 P q
  | 1, 0, 0, 0, 1, q => dddgamma_D0D1D0D0D1 P q
  | 1, 0, 0, 0, 2, q => dddgamma_D0D1D0D0D2 P q
  | 1, 0, 0, 1, 0, q => dddgamma_D0D1D0D1D0 P q
  | 1, 0, 0, 1, 1, q => dddgamma_D0D1D0D1D1 P q
  | 1, 0, 0, 1, 2, q => dddgamma_D0D1D0D1D2 P q
  | 1, 0, 0, 2, 0, q => dddgamma_D0D1D0D2D0 P q
  | 1, 0, 0, 2, 1, q => dddgamma_D0D1D0D2D1 P q
  | 1, 0, 0, 2, 2, q => dddgamma_D0D1D0D2D2 P q
  | 1, 0, 1, 0, 0, q => dddgamma_D0D1D1D0D0 P q
  | 1, 0, 1, 0, 1, q => dddgamma_D0D1D1D0D1 P q
  | 1, 0, 1, 0, 2, q => dddgamma_D0D1D1D0D2 P q
  | 1, 0, 1, 1, 0, q => dddgamma_D0D1D1D1D0 P q
  | 1, 0, 1, 1, 1, q => dddgamma_D0D1D1D1D1 P q
  | 1, 0, 1, 1, 2, q => dddgamma_D0D1D1D1D2 P q
  | 1, 0, 1, 2, 0, q => dddgamma_D0D1D1D2D0 P q
  | 1, 0, 1, 2, 1, q => dddgamma_D0D1D1D2D1 P q
  | 1, 0, 1, 2, 2, q => dddgamma_D0D1D1D2D2 P q
  | 1, 0, 2, 0, 0, q => dddgamma_D0D1D2D0D0 P q
  | 1, 0, 2, 0, 1, q => dddgamma_D0D1D2D0D1 P q
  | 1, 0, 2, 0, 2, q => dddgamma_D0D1D2D0D2 P q
  | 1, 0, 2, 1, 0, q => dddgamma_D0D1D2D1D0 P q
  | 1, 0, 2, 1, 1, q => dddgamma_D0D1D2D1D1 P q
  | 1, 0, 2, 1, 2, q => dddgamma_D0D1D2D1D2 P q
  | 1, 0, 2, 2, 0, q => dddgamma_D0D1D2D2D0 P q
  | 1, 0, 2, 2, 1, q => dddgamma_D0D1D2D2D1 P q
  | 1, 0, 2, 2, 2, q => dddgamma_D0D1D2D2D2 P q
  | 1, 1, 0, 0, 0, q => dddgamma_D1D1D0D0D0 P q
  | 1, 1, 0, 0, 1, q => dddgamma_D1D1D0D0D1 P q
  | 1, 1, 0, 0, 2, q => dddgamma_D1D1D0D0D2 P q
  | 1, 1, 0, 1, 0, q => dddgamma_D1D1D0D1D0 P q
  | 1, 1, 0, 1, 1, q => dddgamma_D1D1D0D1D1 P q
  | 1, 1, 0, 1, 2, q => dddgamma_D1D1D0D1D2 P q
  | 1, 1, 0, 2, 0, q => dddgamma_D1D1D0D2D0 P q
  | 1, 1, 0, 2, 1, q => dddgamma_D1D1D0D2D1 P q
  | 1, 1, 0, 2, 2, q => dddgamma_D1D1D0D2D2 P q
  | 1, 1, 1, 0, 0, q => dddgamma_D1D1D1D0D0 P q
  | 1, 1, 1, 0, 1, q => dddgamma_D1D1D1D0D1 P q
  | 1, 1, 1, 0, 2, q => dddgamma_D1D1D1D0D2 P q
  | 1, 1, 1, 1, 0, q => dddgamma_D1D1D1D1D0 P q
  | 1, 1, 1, 1, 1, q => dddgamma_D1D1D1D1D1 P q
  | 1, 1, 1, 1, 2, q => dddgamma_D1D1D1D1D2 P q
  | 1, 1, 1, 2, 0, q => dddgamma_D1D1D1D2D0 P q
  | 1, 1, 1, 2, 1, q => dddgamma_D1D1D1D2D1 P q
  | 1, 1, 1, 2, 2, q => dddgamma_D1D1D1D2D2 P q
  | 1, 1, 2, 0, 0, q => dddgamma_D1D1D2D0D0 P q
  | 1, 1, 2, 0, 1, q => dddgamma_D1D1D2D0D1 P q
  | 1, 1, 2, 0, 2, q => dddgamma_D1D1D2D0D2 P q
  | 1, 1, 2, 1, 0, q => dddgamma_D1D1D2D1D0 P q
  | 1, 1, 2, 1, 1, q => dddgamma_D1D1D2D1D1 P q
  | 1, 1, 2, 1, 2, q => dddgamma_D1D1D2D1D2 P q
  | 1, 1, 2, 2, 0, q => dddgamma_D1D1D2D2D0 P q
  | 1, 1, 2, 2, 1, q => dddgamma_D1D1D2D2D1 P q
  | 1, 1, 2, 2, 2, q => dddgamma_D1D1D2D2D2 P q
  | 1, 2, 0, 0, 0, q => dddgamma_D1D2D0D0D0 P q
  | 1, 2, 0, 0, 1, q => dddgamma_D1D2D0D0D1 P q
  | 1, 2, 0, 0, 2, q => dddgamma_D1D2D0D0D2 P q
  | 1, 2, 0, 1, 0, q => dddgamma_D1D2D0D1D0 P q
  | 1, 2, 0, 1, 1, q => dddgamma_D1D2D0D1D1 P q
  | 1, 2, 0, 1, 2, q => dddgamma_D1D2D0D1D2 P q
  | 1, 2, 0, 2, 0, q => dddgamma_D1D2D0D2D0 P q
  | 1, 2, 0, 2, 1, q => dddgamma_D1D2D0D2D1 P q
  | 1, 2, 0, 2, 2, q => dddgamma_D1D2D0D2D2 P q
  | 1, 2, 1, 0, 0, q => dddgamma_D1D2D1D0D0 P q
  | 1, 2, 1, 0, 1, q => dddgamma_D1D2D1D0D1 P q
  | 1, 2, 1, 0, 2, q => dddgamma_D1D2D1D0D2 P q
  | 1, 2, 1, 1, 0, q => dddgamma_D1D2D1D1D0 P q
  | 1, 2, 1, 1, 1, q => dddgamma_D1D2D1D1D1 P q
  | 1, 2, 1, 1, 2, q => dddgamma_D1D2D1D1D2 P q
  | 1, 2, 1, 2, 0, q => dddgamma_D1D2D1D2D0 P q
  | 1, 2, 1, 2, 1, q => dddgamma_D1D2D1D2D1 P q
  | 1, 2, 1, 2, 2, q => dddgamma_D1D2D1D2D2 P q
  | 1, 2, 2, 0, 0, q => dddgamma_D1D2D2D0D0 P q
  | 1, 2, 2, 0, 1, q => dddgamma_D1D2D2D0D1 P q
  | 1, 2, 2, 0, 2, q => dddgamma_D1D2D2D0D2 P q
  | 1, 2, 2, 1, 0, q => dddgamma_D1D2D2D1D0 P q
  | 1, 2, 2, 1, 1, q => dddgamma_D1D2D2D1D1 P q
  | 1, 2, 2, 1, 2, q => dddgamma_D1D2D2D1D2 P q
  | 1, 2, 2, 2, 0, q => dddgamma_D1D2D2D2D0 P q
  | 1, 2, 2, 2, 1, q => dddgamma_D1D2D2D2D1 P q
  | 1, 2, 2, 2, 2, q => dddgamma_D1D2D2D2D2 P q
  | 2, 0, 0, 0, 0, q => dddgamma_D0D2D0D0D0 P q
  | 2, 0, 0, 0, 1, q => dddgamma_D0D2D0D0D1 P q
  | 2, 0, 0, 0, 2, q => dddgamma_D0D2D0D0D2 P q
  | 2, 0, 0, 1, 0, q => dddgamma_D0D2D0D1D0 P q
  | 2, 0, 0, 1, 1, q => dddgamma_D0D2D0D1D1 P q
  | 2, 0, 0, 1, 2, q => dddgamma_D0D2D0D1D2 P q
  | 2, 0, 0, 2, 0, q => dddgamma_D0D2D0D2D0 P q
  | 2, 0, 0, 2, 1, q => dddgamma_D0D2D0D2D1 P q
  | 2, 0, 0, 2, 2, q => dddgamma_D0D2D0D2D2 P q
  | 2, 0, 1, 0, 0, q => dddgamma_D0D2D1D0D0 P q
  | 2, 0, 1, 0, 1, q => dddgamma_D0D2D1D0D1 P q
  | 2, 0, 1, 0, 2, q => dddgamma_D0D2D1D0D2 P q
  | 2, 0, 1, 1, 0, q => dddgamma_D0D2D1D1D0 P q
  | 2, 0, 1, 1, 1, q => dddgamma_D0D2D1D1D1 P q
  | 2, 0, 1, 1, 2, q => dddgamma_D0D2D1D1D2 P q
  | 2, 0, 1, 2, 0, q => dddgamma_D0D2D1D2D0 P q
  | 2, 0, 1, 2, 1, q => dddgamma_D0D2D1D2D1 P q
  | 2, 0, 1, 2, 2, q => dddgamma_D0D2D1D2D2 P q
  | 2, 0, 2, 0, 0, q => dddgamma_D0D2D2D0D0 P q
  | 2, 0, 2, 0, 1, q => dddgamma_D0D2D2D0D1 P q
  | 2, 0, 2, 0, 2, q => dddgamma_D0D2D2D0D2 P q
  | 2, 0, 2, 1, 0, q => dddgamma_D0D2D2D1D0 P q
  | 2, 0, 2, 1, 1, q => dddgamma_D0D2D2D1D1 P q
  | 2, 0, 2, 1, 2, q => dddgamma_D0D2D2D1D2 P q
  | 2, 0, 2, 2, 0, q => dddgamma_D0D2D2D2D0 P q
  | 2, 0, 2, 2, 1, q => dddgamma_D0D2D2D2D1 P q
  | 2, 0, 2, 2, 2, q => dddgamma_D0D2D2D2D2 P q
  | 2, 1, 0, 0, 0, q => dddgamma_D1D2D0D0D0 P q
  | 2, 1, 0, 0, 1, q => dddgamma_D1D2D0D0D1 P q
  | 2, 1, 0, 0, 2, q => dddgamma_D1D2D0D0D2 P q
  | 2, 1, 0, 1, 0, q => dddgamma_D1D2D0D1D0 P q
  | 2, 1, 0, 1, 1, q => dddgamma_D1D2D0D1D1 P q
  | 2, 1, 0, 1, 2, q => dddgamma_D1D2D0D1D2 P q
  | 2, 1, 0, 2, 0, q => dddgamma_D1D2D0D2D0 P q
  | 2, 1, 0, 2, 1, q => dddgamma_D1D2D0D2D1 P q
  | 2, 1, 0, 2, 2, q => dddgamma_D1D2D0D2D2 P q
  | 2, 1, 1, 0, 0, q => dddgamma_D1D2D1D0D0 P q
  | 2, 1, 1, 0, 1, q => dddgamma_D1D2D1D0D1 P q
  | 2, 1, 1, 0, 2, q => dddgamma_D1D2D1D0D2 P q
  | 2, 1, 1, 1, 0, q => dddgamma_D1D2D1D1D0 P q
  | 2, 1, 1, 1, 1, q => dddgamma_D1D2D1D1D1 P q
  | 2, 1, 1, 1, 2, q => dddgamma_D1D2D1D1D2 P q
  | 2, 1, 1, 2, 0, q => dddgamma_D1D2D1D2D0 P q
  | 2, 1, 1, 2, 1, q => dddgamma_D1D2D1D2D1 P q
  | 2, 1, 1, 2, 2, q => dddgamma_D1D2D1D2D2 P q
  | 2, 1, 2, 0, 0, q => dddgamma_D1D2D2D0D0 P q
  | 2, 1, 2, 0, 1, q => dddgamma_D1D2D2D0D1 P q
  | 2, 1, 2, 0, 2, q => dddgamma_D1D2D2D0D2 P q
  | 2, 1, 2, 1, 0, q => dddgamma_D1D2D2D1D0 P q
  | 2, 1, 2, 1, 1, q => dddgamma_D1D2D2D1D1 P q
  | 2, 1, 2, 1, 2, q => dddgamma_D1D2D2D1D2 P q
  | 2, 1, 2, 2, 0, q => dddgamma_D1D2D2D2D0 P q
  | 2, 1, 2, 2, 1, q => dddgamma_D1D2D2D2D1 P q
  | 2, 1, 2, 2, 2, q => dddgamma_D1D2D2D2D2 P q
  | 2, 2, 0, 0, 0, q => dddgamma_D2D2D0D0D0 P q
  | 2, 2, 0, 0, 1, q => dddgamma_D2D2D0D0D1 P q
  | 2, 2, 0, 0, 2, q => dddgamma_D2D2D0D0D2 P q
  | 2, 2, 0, 1, 0, q => dddgamma_D2D2D0D1D0 P q
  | 2, 2, 0, 1, 1, q => dddgamma_D2D2D0D1D1 P q
  | 2, 2, 0, 1, 2, q => dddgamma_D2D2D0D1D2 P q
  | 2, 2, 0, 2, 0, q => dddgamma_D2D2D0D2D0 P q
  | 2, 2, 0, 2, 1, q => dddgamma_D2D2D0D2D1 P q
  | 2, 2, 0, 2, 2, q => dddgamma_D2D2D0D2D2 P q
  | 2, 2, 1, 0, 0, q => dddgamma_D2D2D1D0D0 P q
  | 2, 2, 1, 0, 1, q => dddgamma_D2D2D1D0D1 P q
  | 2, 2, 1, 0, 2, q => dddgamma_D2D2D1D0D2 P q
  | 2, 2, 1, 1, 0, q => dddgamma_D2D2D1D1D0 P q
  | 2, 2, 1, 1, 1, q => dddgamma_D2D2D1D1D1 P q
  | 2, 2, 1, 1, 2, q => dddgamma_D2D2D1D1D2 P q
  | 2, 2, 1, 2, 0, q => dddgamma_D2D2D1D2D0 P q
  | 2, 2, 1, 2, 1, q => dddgamma_D2D2D1D2D1 P q
  | 2, 2, 1, 2, 2, q => dddgamma_D2D2D1D2D2 P q
  | 2, 2, 2, 0, 0, q => dddgamma_D2D2D2D0D0 P q
  | 2, 2, 2, 0, 1, q => dddgamma_D2D2D2D0D1 P q
  | 2, 2, 2, 0, 2, q => dddgamma_D2D2D2D0D2 P q
  | 2, 2, 2, 1, 0, q => dddgamma_D2D2D2D1D0 P q
  | 2, 2, 2, 1, 1, q => dddgamma_D2D2D2D1D1 P q
  | 2, 2, 2, 1, 2, q => dddgamma_D2D2D2D1D2 P q
  | 2, 2, 2, 2, 0, q => dddgamma_D2D2D2D2D0 P q
  | 2, 2, 2, 2, 1, q => dddgamma_D2D2D2D2D1 P q
  | 2, 2, 2, 2, 2, q => dddgamma_D2D2D2D2D2 P q

end Elliptica.Ks
