import Verif.Model.Gen.KsH
import Verif.Lemmas.Gen.KsR1
/-!
Generated by tools/gen_ks.py: each listed derivative is the derivative of the function it belongs to.
-/
namespace Elliptica.Ks
open Elliptica.Fields

set_option linter.unusedVariables false
set_option linter.unusedSimpArgs false
set_option linter.unusedTactic false
set_option linter.unreachableTactic false

set_option maxHeartbeats 4000000 in
theorem H_at0 (P : Par) (q : Pt) (hR : 0 < R P q) : HasDerivAt (line (H P) 0 q) (dH_D0 P q) (q 0) := by
  have hc : ∀ c : ℝ, HasDerivAt (fun _ => c) 0 (q 0) := fun c => hasDerivAt_const _ c
  have h_R := R_at0 P q hR
  have h_Z := Z_at0 P q
  have key := (((hc (P.Lam * P.M)).mul (h_R.pow 3)).div (((hc (P.a ^ 2)).mul (h_Z.pow 2)).add (h_R.pow 4)) (by ks_ne))
  refine key.congr_deriv ?_
  simp only [Pi.add_apply, Pi.sub_apply, Pi.neg_apply, Pi.mul_apply, Pi.pow_apply, Pi.div_apply, line_at]
  unfold dH_D0
  try simp only [Nat.cast_ofNat, Nat.reduceSub, pow_one]
  field_simp
  ring


set_option maxHeartbeats 4000000 in
theorem H_at1 (P : Par) (q : Pt) (hR : 0 < R P q) : HasDerivAt (line (H P) 1 q) (dH_D1 P q) (q 1) := by
  have hc : ∀ c : ℝ, HasDerivAt (fun _ => c) 0 (q 1) := fun c => hasDerivAt_const _ c
  have h_R := R_at1 P q hR
  have h_Z := Z_at1 P q
  have key := (((hc (P.Lam * P.M)).mul (h_R.pow 3)).div (((hc (P.a ^ 2)).mul (h_Z.pow 2)).add (h_R.pow 4)) (by ks_ne))
  refine key.congr_deriv ?_
  simp only [Pi.add_apply, Pi.sub_apply, Pi.neg_apply, Pi.mul_apply, Pi.pow_apply, Pi.div_apply, line_at]
  unfold dH_D1
  try simp only [Nat.cast_ofNat, Nat.reduceSub, pow_one]
  field_simp
  ring


set_option maxHeartbeats 4000000 in
theorem H_at2 (P : Par) (q : Pt) (hR : 0 < R P q) : HasDerivAt (line (H P) 2 q) (dH_D2 P q) (q 2) := by
  have hc : ∀ c : ℝ, HasDerivAt (fun _ => c) 0 (q 2) := fun c => hasDerivAt_const _ c
  have h_R := R_at2 P q hR
  have h_Z := Z_at2 P q
  have key := (((hc (P.Lam * P.M)).mul (h_R.pow 3)).div (((hc (P.a ^ 2)).mul (h_Z.pow 2)).add (h_R.pow 4)) (by ks_ne))
  refine key.congr_deriv ?_
  simp only [Pi.add_apply, Pi.sub_apply, Pi.neg_apply, Pi.mul_apply, Pi.pow_apply, Pi.div_apply, line_at]
  unfold dH_D2
  try simp only [Nat.cast_ofNat, Nat.reduceSub, pow_one]
  field_simp
  ring


end Elliptica.Ks
