import Verif.Lemmas.Gen.KsR2
import Verif.Model.Gen.KsH
/-!
Generated by tools/gen_ks.py: each listed derivative is the derivative of the function it belongs to.
-/
namespace Elliptica.Ks
open Elliptica.Fields

set_option linter.unusedVariables false
set_option linter.unusedSimpArgs false
set_option linter.unusedTactic false
set_option linter.unreachableTactic false

theorem dddX_D0D1D0_sym (P : Par) (q : Pt) : dddX_D0D1D0 P q = dddX_D0D0D1 P q := by
  unfold dddX_D0D1D0 dddX_D0D0D1
  first | rfl | ring

theorem dddX_D0D2D0_sym (P : Par) (q : Pt) : dddX_D0D2D0 P q = dddX_D0D0D2 P q := by
  unfold dddX_D0D2D0 dddX_D0D0D2
  first | rfl | ring

theorem dddX_D1D1D0_sym (P : Par) (q : Pt) : dddX_D1D1D0 P q = dddX_D0D1D1 P q := by
  unfold dddX_D1D1D0 dddX_D0D1D1
  first | rfl | ring

theorem dddX_D1D2D1_sym (P : Par) (q : Pt) : dddX_D1D2D1 P q = dddX_D1D1D2 P q := by
  unfold dddX_D1D2D1 dddX_D1D1D2
  first | rfl | ring

theorem dddX_D2D2D0_sym (P : Par) (q : Pt) : dddX_D2D2D0 P q = dddX_D0D2D2 P q := by
  unfold dddX_D2D2D0 dddX_D0D2D2
  first | rfl | ring

theorem dddX_D2D2D1_sym (P : Par) (q : Pt) : dddX_D2D2D1 P q = dddX_D1D2D2 P q := by
  unfold dddX_D2D2D1 dddX_D1D2D2
  first | rfl | ring

theorem dddX_D0D2D1_sym (P : Par) (q : Pt) : dddX_D0D2D1 P q = dddX_D0D1D2 P q := by
  unfold dddX_D0D2D1 dddX_D0D1D2
  first | rfl | ring

theorem dddX_D1D2D0_sym (P : Par) (q : Pt) : dddX_D1D2D0 P q = dddX_D0D1D2 P q := by
  unfold dddX_D1D2D0 dddX_D0D1D2
  first | rfl | ring

theorem dddY_D0D1D0_sym (P : Par) (q : Pt) : dddY_D0D1D0 P q = dddY_D0D0D1 P q := by
  unfold dddY_D0D1D0 dddY_D0D0D1
  first | rfl | ring

theorem dddY_D0D2D0_sym (P : Par) (q : Pt) : dddY_D0D2D0 P q = dddY_D0D0D2 P q := by
  unfold dddY_D0D2D0 dddY_D0D0D2
  first | rfl | ring

theorem dddY_D1D1D0_sym (P : Par) (q : Pt) : dddY_D1D1D0 P q = dddY_D0D1D1 P q := by
  unfold dddY_D1D1D0 dddY_D0D1D1
  first | rfl | ring

theorem dddY_D1D2D1_sym (P : Par) (q : Pt) : dddY_D1D2D1 P q = dddY_D1D1D2 P q := by
  unfold dddY_D1D2D1 dddY_D1D1D2
  first | rfl | ring

theorem dddY_D2D2D0_sym (P : Par) (q : Pt) : dddY_D2D2D0 P q = dddY_D0D2D2 P q := by
  unfold dddY_D2D2D0 dddY_D0D2D2
  first | rfl | ring

theorem dddY_D2D2D1_sym (P : Par) (q : Pt) : dddY_D2D2D1 P q = dddY_D1D2D2 P q := by
  unfold dddY_D2D2D1 dddY_D1D2D2
  first | rfl | ring

theorem dddY_D0D2D1_sym (P : Par) (q : Pt) : dddY_D0D2D1 P q = dddY_D0D1D2 P q := by
  unfold dddY_D0D2D1 dddY_D0D1D2
  first | rfl | ring

theorem dddY_D1D2D0_sym (P : Par) (q : Pt) : dddY_D1D2D0 P q = dddY_D0D1D2 P q := by
  unfold dddY_D1D2D0 dddY_D0D1D2
  first | rfl | ring

theorem dddZ_D0D1D0_sym (P : Par) (q : Pt) : dddZ_D0D1D0 P q = dddZ_D0D0D1 P q := by
  unfold dddZ_D0D1D0 dddZ_D0D0D1
  first | rfl | ring

theorem dddZ_D0D2D0_sym (P : Par) (q : Pt) : dddZ_D0D2D0 P q = dddZ_D0D0D2 P q := by
  unfold dddZ_D0D2D0 dddZ_D0D0D2
  first | rfl | ring

theorem dddZ_D1D1D0_sym (P : Par) (q : Pt) : dddZ_D1D1D0 P q = dddZ_D0D1D1 P q := by
  unfold dddZ_D1D1D0 dddZ_D0D1D1
  first | rfl | ring

theorem dddZ_D1D2D1_sym (P : Par) (q : Pt) : dddZ_D1D2D1 P q = dddZ_D1D1D2 P q := by
  unfold dddZ_D1D2D1 dddZ_D1D1D2
  first | rfl | ring

theorem dddZ_D2D2D0_sym (P : Par) (q : Pt) : dddZ_D2D2D0 P q = dddZ_D0D2D2 P q := by
  unfold dddZ_D2D2D0 dddZ_D0D2D2
  first | rfl | ring

theorem dddZ_D2D2D1_sym (P : Par) (q : Pt) : dddZ_D2D2D1 P q = dddZ_D1D2D2 P q := by
  unfold dddZ_D2D2D1 dddZ_D1D2D2
  first | rfl | ring

theorem dddZ_D0D2D1_sym (P : Par) (q : Pt) : dddZ_D0D2D1 P q = dddZ_D0D1D2 P q := by
  unfold dddZ_D0D2D1 dddZ_D0D1D2
  first | rfl | ring

theorem dddZ_D1D2D0_sym (P : Par) (q : Pt) : dddZ_D1D2D0 P q = dddZ_D0D1D2 P q := by
  unfold dddZ_D1D2D0 dddZ_D0D1D2
  first | rfl | ring

theorem dddR_D0D1D0_sym (P : Par) (q : Pt) : dddR_D0D1D0 P q = dddR_D0D0D1 P q := by
  rw [dddR_D0D1D0_eq, dddR_D0D0D1_eq]
  unfold dddR_D0D1D0_i dddR_D0D0D1_i
  first | rfl | ring

theorem dddR_D0D2D0_sym (P : Par) (q : Pt) : dddR_D0D2D0 P q = dddR_D0D0D2 P q := by
  rw [dddR_D0D2D0_eq, dddR_D0D0D2_eq]
  unfold dddR_D0D2D0_i dddR_D0D0D2_i
  first | rfl | ring

theorem dddR_D1D1D0_sym (P : Par) (q : Pt) : dddR_D1D1D0 P q = dddR_D0D1D1 P q := by
  rw [dddR_D1D1D0_eq, dddR_D0D1D1_eq]
  unfold dddR_D1D1D0_i dddR_D0D1D1_i
  first | rfl | ring

theorem dddR_D1D2D1_sym (P : Par) (q : Pt) : dddR_D1D2D1 P q = dddR_D1D1D2 P q := by
  rw [dddR_D1D2D1_eq, dddR_D1D1D2_eq]
  unfold dddR_D1D2D1_i dddR_D1D1D2_i
  first | rfl | ring

theorem dddR_D2D2D0_sym (P : Par) (q : Pt) : dddR_D2D2D0 P q = dddR_D0D2D2 P q := by
  rw [dddR_D2D2D0_eq, dddR_D0D2D2_eq]
  unfold dddR_D2D2D0_i dddR_D0D2D2_i
  first | rfl | ring

theorem dddR_D2D2D1_sym (P : Par) (q : Pt) : dddR_D2D2D1 P q = dddR_D1D2D2 P q := by
  rw [dddR_D2D2D1_eq, dddR_D1D2D2_eq]
  unfold dddR_D2D2D1_i dddR_D1D2D2_i
  first | rfl | ring

theorem dddR_D0D2D1_sym (P : Par) (q : Pt) : dddR_D0D2D1 P q = dddR_D0D1D2 P q := by
  rw [dddR_D0D2D1_eq, dddR_D0D1D2_eq]
  unfold dddR_D0D2D1_i dddR_D0D1D2_i
  first | rfl | ring

theorem dddR_D1D2D0_sym (P : Par) (q : Pt) : dddR_D1D2D0 P q = dddR_D0D1D2 P q := by
  rw [dddR_D1D2D0_eq, dddR_D0D1D2_eq]
  unfold dddR_D1D2D0_i dddR_D0D1D2_i
  first | rfl | ring

theorem dddK0_D0D1D0_sym (P : Par) (q : Pt) : dddK0_D0D1D0 P q = dddK0_D0D0D1 P q := by
  unfold dddK0_D0D1D0 dddK0_D0D0D1
  first | rfl | ring

theorem dddK0_D0D2D0_sym (P : Par) (q : Pt) : dddK0_D0D2D0 P q = dddK0_D0D0D2 P q := by
  unfold dddK0_D0D2D0 dddK0_D0D0D2
  first | rfl | ring

theorem dddK0_D1D1D0_sym (P : Par) (q : Pt) : dddK0_D1D1D0 P q = dddK0_D0D1D1 P q := by
  unfold dddK0_D1D1D0 dddK0_D0D1D1
  first | rfl | ring

theorem dddK0_D1D2D1_sym (P : Par) (q : Pt) : dddK0_D1D2D1 P q = dddK0_D1D1D2 P q := by
  unfold dddK0_D1D2D1 dddK0_D1D1D2
  first | rfl | ring

theorem dddK0_D2D2D0_sym (P : Par) (q : Pt) : dddK0_D2D2D0 P q = dddK0_D0D2D2 P q := by
  unfold dddK0_D2D2D0 dddK0_D0D2D2
  first | rfl | ring

theorem dddK0_D2D2D1_sym (P : Par) (q : Pt) : dddK0_D2D2D1 P q = dddK0_D1D2D2 P q := by
  unfold dddK0_D2D2D1 dddK0_D1D2D2
  first | rfl | ring

theorem dddK0_D0D2D1_sym (P : Par) (q : Pt) : dddK0_D0D2D1 P q = dddK0_D0D1D2 P q := by
  unfold dddK0_D0D2D1 dddK0_D0D1D2
  first | rfl | ring

theorem dddK0_D1D2D0_sym (P : Par) (q : Pt) : dddK0_D1D2D0 P q = dddK0_D0D1D2 P q := by
  unfold dddK0_D1D2D0 dddK0_D0D1D2
  first | rfl | ring

theorem dddK1_D0D1D0_sym (P : Par) (q : Pt) : dddK1_D0D1D0 P q = dddK1_D0D0D1 P q := by
  unfold dddK1_D0D1D0 dddK1_D0D0D1
  first | rfl | ring

theorem dddK1_D0D2D0_sym (P : Par) (q : Pt) : dddK1_D0D2D0 P q = dddK1_D0D0D2 P q := by
  unfold dddK1_D0D2D0 dddK1_D0D0D2
  first | rfl | ring

theorem dddK1_D1D1D0_sym (P : Par) (q : Pt) : dddK1_D1D1D0 P q = dddK1_D0D1D1 P q := by
  unfold dddK1_D1D1D0 dddK1_D0D1D1
  first | rfl | ring

theorem dddK1_D1D2D1_sym (P : Par) (q : Pt) : dddK1_D1D2D1 P q = dddK1_D1D1D2 P q := by
  unfold dddK1_D1D2D1 dddK1_D1D1D2
  first | rfl | ring

theorem dddK1_D2D2D0_sym (P : Par) (q : Pt) : dddK1_D2D2D0 P q = dddK1_D0D2D2 P q := by
  unfold dddK1_D2D2D0 dddK1_D0D2D2
  first | rfl | ring

theorem dddK1_D2D2D1_sym (P : Par) (q : Pt) : dddK1_D2D2D1 P q = dddK1_D1D2D2 P q := by
  unfold dddK1_D2D2D1 dddK1_D1D2D2
  first | rfl | ring

theorem dddK1_D0D2D1_sym (P : Par) (q : Pt) : dddK1_D0D2D1 P q = dddK1_D0D1D2 P q := by
  unfold dddK1_D0D2D1 dddK1_D0D1D2
  first | rfl | ring

theorem dddK1_D1D2D0_sym (P : Par) (q : Pt) : dddK1_D1D2D0 P q = dddK1_D0D1D2 P q := by
  unfold dddK1_D1D2D0 dddK1_D0D1D2
  first | rfl | ring

theorem dddK2_D0D1D0_sym (P : Par) (q : Pt) : dddK2_D0D1D0 P q = dddK2_D0D0D1 P q := by
  unfold dddK2_D0D1D0 dddK2_D0D0D1
  first | rfl | ring

theorem dddK2_D0D2D0_sym (P : Par) (q : Pt) : dddK2_D0D2D0 P q = dddK2_D0D0D2 P q := by
  unfold dddK2_D0D2D0 dddK2_D0D0D2
  first | rfl | ring

theorem dddK2_D1D1D0_sym (P : Par) (q : Pt) : dddK2_D1D1D0 P q = dddK2_D0D1D1 P q := by
  unfold dddK2_D1D1D0 dddK2_D0D1D1
  first | rfl | ring

theorem dddK2_D1D2D1_sym (P : Par) (q : Pt) : dddK2_D1D2D1 P q = dddK2_D1D1D2 P q := by
  unfold dddK2_D1D2D1 dddK2_D1D1D2
  first | rfl | ring

theorem dddK2_D2D2D0_sym (P : Par) (q : Pt) : dddK2_D2D2D0 P q = dddK2_D0D2D2 P q := by
  unfold dddK2_D2D2D0 dddK2_D0D2D2
  first | rfl | ring

theorem dddK2_D2D2D1_sym (P : Par) (q : Pt) : dddK2_D2D2D1 P q = dddK2_D1D2D2 P q := by
  unfold dddK2_D2D2D1 dddK2_D1D2D2
  first | rfl | ring

theorem dddK2_D0D2D1_sym (P : Par) (q : Pt) : dddK2_D0D2D1 P q = dddK2_D0D1D2 P q := by
  unfold dddK2_D0D2D1 dddK2_D0D1D2
  first | rfl | ring

theorem dddK2_D1D2D0_sym (P : Par) (q : Pt) : dddK2_D1D2D0 P q = dddK2_D0D1D2 P q := by
  unfold dddK2_D1D2D0 dddK2_D0D1D2
  first | rfl | ring

theorem dddH_D0D1D0_sym (P : Par) (q : Pt) : dddH_D0D1D0 P q = dddH_D0D0D1 P q := by
  unfold dddH_D0D1D0 dddH_D0D0D1
  first | rfl | ring

theorem dddH_D0D2D0_sym (P : Par) (q : Pt) : dddH_D0D2D0 P q = dddH_D0D0D2 P q := by
  unfold dddH_D0D2D0 dddH_D0D0D2
  first | rfl | ring

theorem dddH_D1D1D0_sym (P : Par) (q : Pt) : dddH_D1D1D0 P q = dddH_D0D1D1 P q := by
  unfold dddH_D1D1D0 dddH_D0D1D1
  first | rfl | ring

theorem dddH_D1D2D1_sym (P : Par) (q : Pt) : dddH_D1D2D1 P q = dddH_D1D1D2 P q := by
  unfold dddH_D1D2D1 dddH_D1D1D2
  first | rfl | ring

theorem dddH_D2D2D0_sym (P : Par) (q : Pt) : dddH_D2D2D0 P q = dddH_D0D2D2 P q := by
  unfold dddH_D2D2D0 dddH_D0D2D2
  first | rfl | ring

theorem dddH_D2D2D1_sym (P : Par) (q : Pt) : dddH_D2D2D1 P q = dddH_D1D2D2 P q := by
  unfold dddH_D2D2D1 dddH_D1D2D2
  first | rfl | ring

theorem dddH_D0D2D1_sym (P : Par) (q : Pt) : dddH_D0D2D1 P q = dddH_D0D1D2 P q := by
  unfold dddH_D0D2D1 dddH_D0D1D2
  first | rfl | ring

theorem dddH_D1D2D0_sym (P : Par) (q : Pt) : dddH_D1D2D0 P q = dddH_D0D1D2 P q := by
  unfold dddH_D1D2D0 dddH_D0D1D2
  first | rfl | ring

end Elliptica.Ks
