import Verif.Lemmas.Gen.KsS
import Verif.Model.Gen.KsK
/-!
Generated by tools/gen_ks.py: each listed derivative is the derivative of the function it belongs to.
-/
namespace Elliptica.Ks
open Elliptica.Fields

set_option linter.unusedVariables false
set_option linter.unusedSimpArgs false
set_option linter.unusedTactic false
set_option linter.unreachableTactic false

theorem dddk0_D0D1D0_sym (P : Par) (q : Pt) : dddk0_D0D1D0 P q = dddk0_D0D0D1 P q := by
  unfold dddk0_D0D1D0 dddk0_D0D0D1
  first | rfl | ring

theorem dddk0_D0D2D0_sym (P : Par) (q : Pt) : dddk0_D0D2D0 P q = dddk0_D0D0D2 P q := by
  unfold dddk0_D0D2D0 dddk0_D0D0D2
  first | rfl | ring

theorem dddk0_D1D1D0_sym (P : Par) (q : Pt) : dddk0_D1D1D0 P q = dddk0_D0D1D1 P q := by
  unfold dddk0_D1D1D0 dddk0_D0D1D1
  first | rfl | ring

theorem dddk0_D1D2D1_sym (P : Par) (q : Pt) : dddk0_D1D2D1 P q = dddk0_D1D1D2 P q := by
  unfold dddk0_D1D2D1 dddk0_D1D1D2
  first | rfl | ring

theorem dddk0_D2D2D0_sym (P : Par) (q : Pt) : dddk0_D2D2D0 P q = dddk0_D0D2D2 P q := by
  unfold dddk0_D2D2D0 dddk0_D0D2D2
  first | rfl | ring

theorem dddk0_D2D2D1_sym (P : Par) (q : Pt) : dddk0_D2D2D1 P q = dddk0_D1D2D2 P q := by
  unfold dddk0_D2D2D1 dddk0_D1D2D2
  first | rfl | ring

theorem dddk0_D0D2D1_sym (P : Par) (q : Pt) : dddk0_D0D2D1 P q = dddk0_D0D1D2 P q := by
  unfold dddk0_D0D2D1 dddk0_D0D1D2
  first | rfl | ring

theorem dddk0_D1D2D0_sym (P : Par) (q : Pt) : dddk0_D1D2D0 P q = dddk0_D0D1D2 P q := by
  unfold dddk0_D1D2D0 dddk0_D0D1D2
  first | rfl | ring

theorem dddk1_D0D1D0_sym (P : Par) (q : Pt) : dddk1_D0D1D0 P q = dddk1_D0D0D1 P q := by
  unfold dddk1_D0D1D0 dddk1_D0D0D1
  first | rfl | ring

theorem dddk1_D0D2D0_sym (P : Par) (q : Pt) : dddk1_D0D2D0 P q = dddk1_D0D0D2 P q := by
  unfold dddk1_D0D2D0 dddk1_D0D0D2
  first | rfl | ring

theorem dddk1_D1D1D0_sym (P : Par) (q : Pt) : dddk1_D1D1D0 P q = dddk1_D0D1D1 P q := by
  unfold dddk1_D1D1D0 dddk1_D0D1D1
  first | rfl | ring

theorem dddk1_D1D2D1_sym (P : Par) (q : Pt) : dddk1_D1D2D1 P q = dddk1_D1D1D2 P q := by
  unfold dddk1_D1D2D1 dddk1_D1D1D2
  first | rfl | ring

theorem dddk1_D2D2D0_sym (P : Par) (q : Pt) : dddk1_D2D2D0 P q = dddk1_D0D2D2 P q := by
  unfold dddk1_D2D2D0 dddk1_D0D2D2
  first | rfl | ring

theorem dddk1_D2D2D1_sym (P : Par) (q : Pt) : dddk1_D2D2D1 P q = dddk1_D1D2D2 P q := by
  unfold dddk1_D2D2D1 dddk1_D1D2D2
  first | rfl | ring

theorem dddk1_D0D2D1_sym (P : Par) (q : Pt) : dddk1_D0D2D1 P q = dddk1_D0D1D2 P q := by
  unfold dddk1_D0D2D1 dddk1_D0D1D2
  first | rfl | ring

theorem dddk1_D1D2D0_sym (P : Par) (q : Pt) : dddk1_D1D2D0 P q = dddk1_D0D1D2 P q := by
  unfold dddk1_D1D2D0 dddk1_D0D1D2
  first | rfl | ring

theorem dddk2_D0D1D0_sym (P : Par) (q : Pt) : dddk2_D0D1D0 P q = dddk2_D0D0D1 P q := by
  unfold dddk2_D0D1D0 dddk2_D0D0D1
  first | rfl | ring

theorem dddk2_D0D2D0_sym (P : Par) (q : Pt) : dddk2_D0D2D0 P q = dddk2_D0D0D2 P q := by
  unfold dddk2_D0D2D0 dddk2_D0D0D2
  first | rfl | ring

theorem dddk2_D1D1D0_sym (P : Par) (q : Pt) : dddk2_D1D1D0 P q = dddk2_D0D1D1 P q := by
  unfold dddk2_D1D1D0 dddk2_D0D1D1
  first | rfl | ring

theorem dddk2_D1D2D1_sym (P : Par) (q : Pt) : dddk2_D1D2D1 P q = dddk2_D1D1D2 P q := by
  unfold dddk2_D1D2D1 dddk2_D1D1D2
  first | rfl | ring

theorem dddk2_D2D2D0_sym (P : Par) (q : Pt) : dddk2_D2D2D0 P q = dddk2_D0D2D2 P q := by
  unfold dddk2_D2D2D0 dddk2_D0D2D2
  first | rfl | ring

theorem dddk2_D2D2D1_sym (P : Par) (q : Pt) : dddk2_D2D2D1 P q = dddk2_D1D2D2 P q := by
  unfold dddk2_D2D2D1 dddk2_D1D2D2
  first | rfl | ring

theorem dddk2_D0D2D1_sym (P : Par) (q : Pt) : dddk2_D0D2D1 P q = dddk2_D0D1D2 P q := by
  unfold dddk2_D0D2D1 dddk2_D0D1D2
  first | rfl | ring

theorem dddk2_D1D2D0_sym (P : Par) (q : Pt) : dddk2_D1D2D0 P q = dddk2_D0D1D2 P q := by
  unfold dddk2_D1D2D0 dddk2_D0D1D2
  first | rfl | ring

theorem dddkt_D0D1D0_sym (P : Par) (q : Pt) : dddkt_D0D1D0 P q = dddkt_D0D0D1 P q := by
  unfold dddkt_D0D1D0 dddkt_D0D0D1
  first | rfl | ring

theorem dddkt_D0D2D0_sym (P : Par) (q : Pt) : dddkt_D0D2D0 P q = dddkt_D0D0D2 P q := by
  unfold dddkt_D0D2D0 dddkt_D0D0D2
  first | rfl | ring

theorem dddkt_D1D1D0_sym (P : Par) (q : Pt) : dddkt_D1D1D0 P q = dddkt_D0D1D1 P q := by
  unfold dddkt_D1D1D0 dddkt_D0D1D1
  first | rfl | ring

theorem dddkt_D1D2D1_sym (P : Par) (q : Pt) : dddkt_D1D2D1 P q = dddkt_D1D1D2 P q := by
  unfold dddkt_D1D2D1 dddkt_D1D1D2
  first | rfl | ring

theorem dddkt_D2D2D0_sym (P : Par) (q : Pt) : dddkt_D2D2D0 P q = dddkt_D0D2D2 P q := by
  unfold dddkt_D2D2D0 dddkt_D0D2D2
  first | rfl | ring

theorem dddkt_D2D2D1_sym (P : Par) (q : Pt) : dddkt_D2D2D1 P q = dddkt_D1D2D2 P q := by
  unfold dddkt_D2D2D1 dddkt_D1D2D2
  first | rfl | ring

theorem dddkt_D0D2D1_sym (P : Par) (q : Pt) : dddkt_D0D2D1 P q = dddkt_D0D1D2 P q := by
  unfold dddkt_D0D2D1 dddkt_D0D1D2
  first | rfl | ring

theorem dddkt_D1D2D0_sym (P : Par) (q : Pt) : dddkt_D1D2D0 P q = dddkt_D0D1D2 P q := by
  unfold dddkt_D1D2D0 dddkt_D0D1D2
  first | rfl | ring

theorem dddc_D0D1D0_sym (P : Par) (q : Pt) : dddc_D0D1D0 P q = dddc_D0D0D1 P q := by
  unfold dddc_D0D1D0 dddc_D0D0D1
  first | rfl | ring

theorem dddc_D0D2D0_sym (P : Par) (q : Pt) : dddc_D0D2D0 P q = dddc_D0D0D2 P q := by
  unfold dddc_D0D2D0 dddc_D0D0D2
  first | rfl | ring

theorem dddc_D1D1D0_sym (P : Par) (q : Pt) : dddc_D1D1D0 P q = dddc_D0D1D1 P q := by
  unfold dddc_D1D1D0 dddc_D0D1D1
  first | rfl | ring

theorem dddc_D1D2D1_sym (P : Par) (q : Pt) : dddc_D1D2D1 P q = dddc_D1D1D2 P q := by
  unfold dddc_D1D2D1 dddc_D1D1D2
  first | rfl | ring

theorem dddc_D2D2D0_sym (P : Par) (q : Pt) : dddc_D2D2D0 P q = dddc_D0D2D2 P q := by
  unfold dddc_D2D2D0 dddc_D0D2D2
  first | rfl | ring

theorem dddc_D2D2D1_sym (P : Par) (q : Pt) : dddc_D2D2D1 P q = dddc_D1D2D2 P q := by
  unfold dddc_D2D2D1 dddc_D1D2D2
  first | rfl | ring

theorem dddc_D0D2D1_sym (P : Par) (q : Pt) : dddc_D0D2D1 P q = dddc_D0D1D2 P q := by
  unfold dddc_D0D2D1 dddc_D0D1D2
  first | rfl | ring

theorem dddc_D1D2D0_sym (P : Par) (q : Pt) : dddc_D1D2D0 P q = dddc_D0D1D2 P q := by
  unfold dddc_D1D2D0 dddc_D0D1D2
  first | rfl | ring

end Elliptica.Ks
