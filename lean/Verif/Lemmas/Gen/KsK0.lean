import Verif.Model.Gen.KsH
import Verif.Lemmas.Gen.KsS
/-!
Generated by tools/gen_ks.py: each listed derivative is the derivative of the function it belongs to.
-/
namespace Elliptica.Ks
open Elliptica.Fields

set_option linter.unusedVariables false
set_option linter.unusedSimpArgs false
set_option linter.unusedTactic false
set_option linter.unreachableTactic false

set_option maxHeartbeats 4000000 in
theorem K0_at0 (P : Par) (q : Pt) (hR : 0 < R P q) : HasDerivAt (line (K0 P) 0 q) (dK0_D0 P q) (q 0) := by
  have hc : ∀ c : ℝ, HasDerivAt (fun _ => c) 0 (q 0) := fun c => hasDerivAt_const _ c
  have h_R := R_at0 P q hR
  have h_X := X_at0 P q
  have h_Y := Y_at0 P q
  have key := ((((hc (P.a)).mul h_Y).add (h_R.mul h_X)).div ((hc (P.a ^ 2)).add (h_R.pow 2)) (by ks_ne))
  refine key.congr_deriv ?_
  simp only [Pi.add_apply, Pi.sub_apply, Pi.neg_apply, Pi.mul_apply, Pi.pow_apply, Pi.div_apply, line_at]
  unfold dK0_D0
  try simp only [Nat.cast_ofNat, Nat.reduceSub, pow_one]
  field_simp
  ring


set_option maxHeartbeats 4000000 in
theorem K0_at1 (P : Par) (q : Pt) (hR : 0 < R P q) : HasDerivAt (line (K0 P) 1 q) (dK0_D1 P q) (q 1) := by
  have hc : ∀ c : ℝ, HasDerivAt (fun _ => c) 0 (q 1) := fun c => hasDerivAt_const _ c
  have h_R := R_at1 P q hR
  have h_X := X_at1 P q
  have h_Y := Y_at1 P q
  have key := ((((hc (P.a)).mul h_Y).add (h_R.mul h_X)).div ((hc (P.a ^ 2)).add (h_R.pow 2)) (by ks_ne))
  refine key.congr_deriv ?_
  simp only [Pi.add_apply, Pi.sub_apply, Pi.neg_apply, Pi.mul_apply, Pi.pow_apply, Pi.div_apply, line_at]
  unfold dK0_D1
  try simp only [Nat.cast_ofNat, Nat.reduceSub, pow_one]
  field_simp
  ring


set_option maxHeartbeats 4000000 in
theorem K0_at2 (P : Par) (q : Pt) (hR : 0 < R P q) : HasDerivAt (line (K0 P) 2 q) (dK0_D2 P q) (q 2) := by
  have hc : ∀ c : ℝ, HasDerivAt (fun _ => c) 0 (q 2) := fun c => hasDerivAt_const _ c
  have h_R := R_at2 P q hR
  have h_X := X_at2 P q
  have h_Y := Y_at2 P q
  have key := ((((hc (P.a)).mul h_Y).add (h_R.mul h_X)).div ((hc (P.a ^ 2)).add (h_R.pow 2)) (by ks_ne))
  refine key.congr_deriv ?_
  simp only [Pi.add_apply, Pi.sub_apply, Pi.neg_apply, Pi.mul_apply, Pi.pow_apply, Pi.div_apply, line_at]
  unfold dK0_D2
  try simp only [Nat.cast_ofNat, Nat.reduceSub, pow_one]
  field_simp
  ring


set_option maxHeartbeats 4000000 in
theorem dK0_D0_at0 (P : Par) (q : Pt) (hR : 0 < R P q) : HasDerivAt (line (dK0_D0 P) 0 q) (ddK0_D0D0 P q) (q 0) := by
  have hc : ∀ c : ℝ, HasDerivAt (fun _ => c) 0 (q 0) := fun c => hasDerivAt_const _ c
  have h_R := R_at0 P q hR
  have h_X := X_at0 P q
  have h_Y := Y_at0 P q
  have h_dR_D0 := dR_D0_at0 P q hR
  have h_dX_D0 := dX_D0_at0 P q
  have h_dY_D0 := dY_D0_at0 P q
  have key := (((((hc (P.a ^ 2)).add (h_R.pow 2)).mul ((((hc (P.a)).mul h_dY_D0).add (h_R.mul h_dX_D0)).add (h_X.mul h_dR_D0))).sub ((((hc (2)).mul (((hc (P.a)).mul
    h_Y).add (h_R.mul h_X))).mul h_R).mul h_dR_D0)).div (((hc (P.a ^ 2)).add (h_R.pow 2)).pow 2) (by ks_ne))
  refine key.congr_deriv ?_
  simp only [Pi.add_apply, Pi.sub_apply, Pi.neg_apply, Pi.mul_apply, Pi.pow_apply, Pi.div_apply, line_at]
  unfold ddK0_D0D0
  try simp only [Nat.cast_ofNat, Nat.reduceSub, pow_one]
  field_simp
  ring


set_option maxHeartbeats 4000000 in
theorem dK0_D0_at1 (P : Par) (q : Pt) (hR : 0 < R P q) : HasDerivAt (line (dK0_D0 P) 1 q) (ddK0_D0D1 P q) (q 1) := by
  have hc : ∀ c : ℝ, HasDerivAt (fun _ => c) 0 (q 1) := fun c => hasDerivAt_const _ c
  have h_R := R_at1 P q hR
  have h_X := X_at1 P q
  have h_Y := Y_at1 P q
  have h_dR_D0 := dR_D0_at1 P q hR
  have h_dX_D0 := dX_D0_at1 P q
  have h_dY_D0 := dY_D0_at1 P q
  have key := (((((hc (P.a ^ 2)).add (h_R.pow 2)).mul ((((hc (P.a)).mul h_dY_D0).add (h_R.mul h_dX_D0)).add (h_X.mul h_dR_D0))).sub ((((hc (2)).mul (((hc (P.a)).mul
    h_Y).add (h_R.mul h_X))).mul h_R).mul h_dR_D0)).div (((hc (P.a ^ 2)).add (h_R.pow 2)).pow 2) (by ks_ne))
  refine key.congr_deriv ?_
  simp only [Pi.add_apply, Pi.sub_apply, Pi.neg_apply, Pi.mul_apply, Pi.pow_apply, Pi.div_apply, line_at]
  unfold ddK0_D0D1
  try simp only [Nat.cast_ofNat, Nat.reduceSub, pow_one]
  field_simp
  ring


set_option maxHeartbeats 4000000 in
theorem dK0_D0_at2 (P : Par) (q : Pt) (hR : 0 < R P q) : HasDerivAt (line (dK0_D0 P) 2 q) (ddK0_D0D2 P q) (q 2) := by
  have hc : ∀ c : ℝ, HasDerivAt (fun _ => c) 0 (q 2) := fun c => hasDerivAt_const _ c
  have h_R := R_at2 P q hR
  have h_X := X_at2 P q
  have h_Y := Y_at2 P q
  have h_dR_D0 := dR_D0_at2 P q hR
  have h_dX_D0 := dX_D0_at2 P q
  have h_dY_D0 := dY_D0_at2 P q
  have key := (((((hc (P.a ^ 2)).add (h_R.pow 2)).mul ((((hc (P.a)).mul h_dY_D0).add (h_R.mul h_dX_D0)).add (h_X.mul h_dR_D0))).sub ((((hc (2)).mul (((hc (P.a)).mul
    h_Y).add (h_R.mul h_X))).mul h_R).mul h_dR_D0)).div (((hc (P.a ^ 2)).add (h_R.pow 2)).pow 2) (by ks_ne))
  refine key.congr_deriv ?_
  simp only [Pi.add_apply, Pi.sub_apply, Pi.neg_apply, Pi.mul_apply, Pi.pow_apply, Pi.div_apply, line_at]
  unfold ddK0_D0D2
  try simp only [Nat.cast_ofNat, Nat.reduceSub, pow_one]
  field_simp
  ring


set_option maxHeartbeats 4000000 in
theorem dK0_D1_at0 (P : Par) (q : Pt) (hR : 0 < R P q) : HasDerivAt (line (dK0_D1 P) 0 q) (ddK0_D0D1 P q) (q 0) := by
  have hc : ∀ c : ℝ, HasDerivAt (fun _ => c) 0 (q 0) := fun c => hasDerivAt_const _ c
  have h_R := R_at0 P q hR
  have h_X := X_at0 P q
  have h_Y := Y_at0 P q
  have h_dR_D1 := dR_D1_at0 P q hR
  have h_dX_D1 := dX_D1_at0 P q
  have h_dY_D1 := dY_D1_at0 P q
  have key := (((((hc (P.a ^ 2)).add (h_R.pow 2)).mul ((((hc (P.a)).mul h_dY_D1).add (h_R.mul h_dX_D1)).add (h_X.mul h_dR_D1))).sub ((((hc (2)).mul (((hc (P.a)).mul
    h_Y).add (h_R.mul h_X))).mul h_R).mul h_dR_D1)).div (((hc (P.a ^ 2)).add (h_R.pow 2)).pow 2) (by ks_ne))
  refine key.congr_deriv ?_
  simp only [Pi.add_apply, Pi.sub_apply, Pi.neg_apply, Pi.mul_apply, Pi.pow_apply, Pi.div_apply, line_at]
  unfold ddK0_D0D1
  try simp only [Nat.cast_ofNat, Nat.reduceSub, pow_one]
  field_simp
  ring


set_option maxHeartbeats 4000000 in
theorem dK0_D1_at1 (P : Par) (q : Pt) (hR : 0 < R P q) : HasDerivAt (line (dK0_D1 P) 1 q) (ddK0_D1D1 P q) (q 1) := by
  have hc : ∀ c : ℝ, HasDerivAt (fun _ => c) 0 (q 1) := fun c => hasDerivAt_const _ c
  have h_R := R_at1 P q hR
  have h_X := X_at1 P q
  have h_Y := Y_at1 P q
  have h_dR_D1 := dR_D1_at1 P q hR
  have h_dX_D1 := dX_D1_at1 P q
  have h_dY_D1 := dY_D1_at1 P q
  have key := (((((hc (P.a ^ 2)).add (h_R.pow 2)).mul ((((hc (P.a)).mul h_dY_D1).add (h_R.mul h_dX_D1)).add (h_X.mul h_dR_D1))).sub ((((hc (2)).mul (((hc (P.a)).mul
    h_Y).add (h_R.mul h_X))).mul h_R).mul h_dR_D1)).div (((hc (P.a ^ 2)).add (h_R.pow 2)).pow 2) (by ks_ne))
  refine key.congr_deriv ?_
  simp only [Pi.add_apply, Pi.sub_apply, Pi.neg_apply, Pi.mul_apply, Pi.pow_apply, Pi.div_apply, line_at]
  unfold ddK0_D1D1
  try simp only [Nat.cast_ofNat, Nat.reduceSub, pow_one]
  field_simp
  ring


set_option maxHeartbeats 4000000 in
theorem dK0_D1_at2 (P : Par) (q : Pt) (hR : 0 < R P q) : HasDerivAt (line (dK0_D1 P) 2 q) (ddK0_D1D2 P q) (q 2) := by
  have hc : ∀ c : ℝ, HasDerivAt (fun _ => c) 0 (q 2) := fun c => hasDerivAt_const _ c
  have h_R := R_at2 P q hR
  have h_X := X_at2 P q
  have h_Y := Y_at2 P q
  have h_dR_D1 := dR_D1_at2 P q hR
  have h_dX_D1 := dX_D1_at2 P q
  have h_dY_D1 := dY_D1_at2 P q
  have key := (((((hc (P.a ^ 2)).add (h_R.pow 2)).mul ((((hc (P.a)).mul h_dY_D1).add (h_R.mul h_dX_D1)).add (h_X.mul h_dR_D1))).sub ((((hc (2)).mul (((hc (P.a)).mul
    h_Y).add (h_R.mul h_X))).mul h_R).mul h_dR_D1)).div (((hc (P.a ^ 2)).add (h_R.pow 2)).pow 2) (by ks_ne))
  refine key.congr_deriv ?_
  simp only [Pi.add_apply, Pi.sub_apply, Pi.neg_apply, Pi.mul_apply, Pi.pow_apply, Pi.div_apply, line_at]
  unfold ddK0_D1D2
  try simp only [Nat.cast_ofNat, Nat.reduceSub, pow_one]
  field_simp
  ring


set_option maxHeartbeats 4000000 in
theorem dK0_D2_at0 (P : Par) (q : Pt) (hR : 0 < R P q) : HasDerivAt (line (dK0_D2 P) 0 q) (ddK0_D0D2 P q) (q 0) := by
  have hc : ∀ c : ℝ, HasDerivAt (fun _ => c) 0 (q 0) := fun c => hasDerivAt_const _ c
  have h_R := R_at0 P q hR
  have h_X := X_at0 P q
  have h_Y := Y_at0 P q
  have h_dR_D2 := dR_D2_at0 P q hR
  have h_dX_D2 := dX_D2_at0 P q
  have h_dY_D2 := dY_D2_at0 P q
  have key := (((((hc (P.a ^ 2)).add (h_R.pow 2)).mul ((((hc (P.a)).mul h_dY_D2).add (h_R.mul h_dX_D2)).add (h_X.mul h_dR_D2))).sub ((((hc (2)).mul (((hc (P.a)).mul
    h_Y).add (h_R.mul h_X))).mul h_R).mul h_dR_D2)).div (((hc (P.a ^ 2)).add (h_R.pow 2)).pow 2) (by ks_ne))
  refine key.congr_deriv ?_
  simp only [Pi.add_apply, Pi.sub_apply, Pi.neg_apply, Pi.mul_apply, Pi.pow_apply, Pi.div_apply, line_at]
  unfold ddK0_D0D2
  try simp only [Nat.cast_ofNat, Nat.reduceSub, pow_one]
  field_simp
  ring


set_option maxHeartbeats 4000000 in
theorem dK0_D2_at1 (P : Par) (q : Pt) (hR : 0 < R P q) : HasDerivAt (line (dK0_D2 P) 1 q) (ddK0_D1D2 P q) (q 1) := by
  have hc : ∀ c : ℝ, HasDerivAt (fun _ => c) 0 (q 1) := fun c => hasDerivAt_const _ c
  have h_R := R_at1 P q hR
  have h_X := X_at1 P q
  have h_Y := Y_at1 P q
  have h_dR_D2 := dR_D2_at1 P q hR
  have h_dX_D2 := dX_D2_at1 P q
  have h_dY_D2 := dY_D2_at1 P q
  have key := (((((hc (P.a ^ 2)).add (h_R.pow 2)).mul ((((hc (P.a)).mul h_dY_D2).add (h_R.mul h_dX_D2)).add (h_X.mul h_dR_D2))).sub ((((hc (2)).mul (((hc (P.a)).mul
    h_Y).add (h_R.mul h_X))).mul h_R).mul h_dR_D2)).div (((hc (P.a ^ 2)).add (h_R.pow 2)).pow 2) (by ks_ne))
  refine key.congr_deriv ?_
  simp only [Pi.add_apply, Pi.sub_apply, Pi.neg_apply, Pi.mul_apply, Pi.pow_apply, Pi.div_apply, line_at]
  unfold ddK0_D1D2
  try simp only [Nat.cast_ofNat, Nat.reduceSub, pow_one]
  field_simp
  ring


set_option maxHeartbeats 4000000 in
theorem dK0_D2_at2 (P : Par) (q : Pt) (hR : 0 < R P q) : HasDerivAt (line (dK0_D2 P) 2 q) (ddK0_D2D2 P q) (q 2) := by
  have hc : ∀ c : ℝ, HasDerivAt (fun _ => c) 0 (q 2) := fun c => hasDerivAt_const _ c
  have h_R := R_at2 P q hR
  have h_X := X_at2 P q
  have h_Y := Y_at2 P q
  have h_dR_D2 := dR_D2_at2 P q hR
  have h_dX_D2 := dX_D2_at2 P q
  have h_dY_D2 := dY_D2_at2 P q
  have key := (((((hc (P.a ^ 2)).add (h_R.pow 2)).mul ((((hc (P.a)).mul h_dY_D2).add (h_R.mul h_dX_D2)).add (h_X.mul h_dR_D2))).sub ((((hc (2)).mul (((hc (P.a)).mul
    h_Y).add (h_R.mul h_X))).mul h_R).mul h_dR_D2)).div (((hc (P.a ^ 2)).add (h_R.pow 2)).pow 2) (by ks_ne))
  refine key.congr_deriv ?_
  simp only [Pi.add_apply, Pi.sub_apply, Pi.neg_apply, Pi.mul_apply, Pi.pow_apply, Pi.div_apply, line_at]
  unfold ddK0_D2D2
  try simp only [Nat.cast_ofNat, Nat.reduceSub, pow_one]
  field_simp
  ring


set_option maxHeartbeats 4000000 in
theorem ddK0_D0D0_at0 (P : Par) (q : Pt) (hR : 0 < R P q) : HasDerivAt (line (ddK0_D0D0 P) 0 q) (dddK0_D0D0D0 P q) (q 0) := by
  have hc : ∀ c : ℝ, HasDerivAt (fun _ => c) 0 (q 0) := fun c => hasDerivAt_const _ c
  have h_R := R_at0 P q hR
  have h_X := X_at0 P q
  have h_Y := Y_at0 P q
  have h_dR_D0 := dR_D0_at0 P q hR
  have h_dX_D0 := dX_D0_at0 P q
  have h_dY_D0 := dY_D0_at0 P q
  have h_ddR_D0D0 := ddR_D0D0_at0 P q hR
  have h_ddX_D0D0 := ddX_D0D0_at0 P q
  have h_ddY_D0D0 := ddY_D0D0_at0 P q
  have key := (((((((hc (P.a ^ 2)).add (h_R.pow 2)).pow 2).mul (((((hc (P.a)).mul h_ddY_D0D0).add (h_R.mul h_ddX_D0D0)).add (h_X.mul h_ddR_D0D0)).add (((hc (2)).mul
    h_dR_D0).mul h_dX_D0))).sub (((hc (2)).mul ((hc (P.a ^ 2)).add (h_R.pow 2))).mul (((((((hc (P.a)).mul h_Y).add (h_R.mul h_X)).mul h_R).mul h_ddR_D0D0).add ((((hc
    (P.a)).mul h_Y).add (h_R.mul h_X)).mul (h_dR_D0.pow 2))).add ((((hc (2)).mul ((((hc (P.a)).mul h_dY_D0).add (h_R.mul h_dX_D0)).add (h_X.mul h_dR_D0))).mul h_R).mul
    h_dR_D0)))).add ((((hc (8)).mul (((hc (P.a)).mul h_Y).add (h_R.mul h_X))).mul (h_R.pow 2)).mul (h_dR_D0.pow 2))).div (((hc (P.a ^ 2)).add (h_R.pow 2)).pow 3) (by
    ks_ne))
  refine key.congr_deriv ?_
  simp only [Pi.add_apply, Pi.sub_apply, Pi.neg_apply, Pi.mul_apply, Pi.pow_apply, Pi.div_apply, line_at]
  unfold dddK0_D0D0D0
  try simp only [Nat.cast_ofNat, Nat.reduceSub, pow_one]
  try simp only [dddR_D0D1D0_sym, dddR_D0D2D0_sym, dddR_D1D1D0_sym, dddR_D1D2D1_sym, dddR_D2D2D0_sym, dddR_D2D2D1_sym, dddR_D0D2D1_sym, dddR_D1D2D0_sym, dddX_D0D1D0_sym, dddX_D0D2D0_sym, dddX_D1D1D0_sym, dddX_D1D2D1_sym, dddX_D2D2D0_sym, dddX_D2D2D1_sym, dddX_D0D2D1_sym, dddX_D1D2D0_sym, dddY_D0D1D0_sym, dddY_D0D2D0_sym, dddY_D1D1D0_sym, dddY_D1D2D1_sym, dddY_D2D2D0_sym, dddY_D2D2D1_sym, dddY_D0D2D1_sym, dddY_D1D2D0_sym, dddZ_D0D1D0_sym, dddZ_D0D2D0_sym, dddZ_D1D1D0_sym, dddZ_D1D2D1_sym, dddZ_D2D2D0_sym, dddZ_D2D2D1_sym, dddZ_D0D2D1_sym, dddZ_D1D2D0_sym]
  field_simp
  ring


set_option maxHeartbeats 4000000 in
theorem ddK0_D0D0_at1 (P : Par) (q : Pt) (hR : 0 < R P q) : HasDerivAt (line (ddK0_D0D0 P) 1 q) (dddK0_D0D0D1 P q) (q 1) := by
  have hc : ∀ c : ℝ, HasDerivAt (fun _ => c) 0 (q 1) := fun c => hasDerivAt_const _ c
  have h_R := R_at1 P q hR
  have h_X := X_at1 P q
  have h_Y := Y_at1 P q
  have h_dR_D0 := dR_D0_at1 P q hR
  have h_dX_D0 := dX_D0_at1 P q
  have h_dY_D0 := dY_D0_at1 P q
  have h_ddR_D0D0 := ddR_D0D0_at1 P q hR
  have h_ddX_D0D0 := ddX_D0D0_at1 P q
  have h_ddY_D0D0 := ddY_D0D0_at1 P q
  have key := (((((((hc (P.a ^ 2)).add (h_R.pow 2)).pow 2).mul (((((hc (P.a)).mul h_ddY_D0D0).add (h_R.mul h_ddX_D0D0)).add (h_X.mul h_ddR_D0D0)).add (((hc (2)).mul
    h_dR_D0).mul h_dX_D0))).sub (((hc (2)).mul ((hc (P.a ^ 2)).add (h_R.pow 2))).mul (((((((hc (P.a)).mul h_Y).add (h_R.mul h_X)).mul h_R).mul h_ddR_D0D0).add ((((hc
    (P.a)).mul h_Y).add (h_R.mul h_X)).mul (h_dR_D0.pow 2))).add ((((hc (2)).mul ((((hc (P.a)).mul h_dY_D0).add (h_R.mul h_dX_D0)).add (h_X.mul h_dR_D0))).mul h_R).mul
    h_dR_D0)))).add ((((hc (8)).mul (((hc (P.a)).mul h_Y).add (h_R.mul h_X))).mul (h_R.pow 2)).mul (h_dR_D0.pow 2))).div (((hc (P.a ^ 2)).add (h_R.pow 2)).pow 3) (by
    ks_ne))
  refine key.congr_deriv ?_
  simp only [Pi.add_apply, Pi.sub_apply, Pi.neg_apply, Pi.mul_apply, Pi.pow_apply, Pi.div_apply, line_at]
  unfold dddK0_D0D0D1
  try simp only [Nat.cast_ofNat, Nat.reduceSub, pow_one]
  try simp only [dddR_D0D1D0_sym, dddR_D0D2D0_sym, dddR_D1D1D0_sym, dddR_D1D2D1_sym, dddR_D2D2D0_sym, dddR_D2D2D1_sym, dddR_D0D2D1_sym, dddR_D1D2D0_sym, dddX_D0D1D0_sym, dddX_D0D2D0_sym, dddX_D1D1D0_sym, dddX_D1D2D1_sym, dddX_D2D2D0_sym, dddX_D2D2D1_sym, dddX_D0D2D1_sym, dddX_D1D2D0_sym, dddY_D0D1D0_sym, dddY_D0D2D0_sym, dddY_D1D1D0_sym, dddY_D1D2D1_sym, dddY_D2D2D0_sym, dddY_D2D2D1_sym, dddY_D0D2D1_sym, dddY_D1D2D0_sym, dddZ_D0D1D0_sym, dddZ_D0D2D0_sym, dddZ_D1D1D0_sym, dddZ_D1D2D1_sym, dddZ_D2D2D0_sym, dddZ_D2D2D1_sym, dddZ_D0D2D1_sym, dddZ_D1D2D0_sym]
  field_simp
  ring


set_option maxHeartbeats 4000000 in
theorem ddK0_D0D0_at2 (P : Par) (q : Pt) (hR : 0 < R P q) : HasDerivAt (line (ddK0_D0D0 P) 2 q) (dddK0_D0D0D2 P q) (q 2) := by
  have hc : ∀ c : ℝ, HasDerivAt (fun _ => c) 0 (q 2) := fun c => hasDerivAt_const _ c
  have h_R := R_at2 P q hR
  have h_X := X_at2 P q
  have h_Y := Y_at2 P q
  have h_dR_D0 := dR_D0_at2 P q hR
  have h_dX_D0 := dX_D0_at2 P q
  have h_dY_D0 := dY_D0_at2 P q
  have h_ddR_D0D0 := ddR_D0D0_at2 P q hR
  have h_ddX_D0D0 := ddX_D0D0_at2 P q
  have h_ddY_D0D0 := ddY_D0D0_at2 P q
  have key := (((((((hc (P.a ^ 2)).add (h_R.pow 2)).pow 2).mul (((((hc (P.a)).mul h_ddY_D0D0).add (h_R.mul h_ddX_D0D0)).add (h_X.mul h_ddR_D0D0)).add (((hc (2)).mul
    h_dR_D0).mul h_dX_D0))).sub (((hc (2)).mul ((hc (P.a ^ 2)).add (h_R.pow 2))).mul (((((((hc (P.a)).mul h_Y).add (h_R.mul h_X)).mul h_R).mul h_ddR_D0D0).add ((((hc
    (P.a)).mul h_Y).add (h_R.mul h_X)).mul (h_dR_D0.pow 2))).add ((((hc (2)).mul ((((hc (P.a)).mul h_dY_D0).add (h_R.mul h_dX_D0)).add (h_X.mul h_dR_D0))).mul h_R).mul
    h_dR_D0)))).add ((((hc (8)).mul (((hc (P.a)).mul h_Y).add (h_R.mul h_X))).mul (h_R.pow 2)).mul (h_dR_D0.pow 2))).div (((hc (P.a ^ 2)).add (h_R.pow 2)).pow 3) (by
    ks_ne))
  refine key.congr_deriv ?_
  simp only [Pi.add_apply, Pi.sub_apply, Pi.neg_apply, Pi.mul_apply, Pi.pow_apply, Pi.div_apply, line_at]
  unfold dddK0_D0D0D2
  try simp only [Nat.cast_ofNat, Nat.reduceSub, pow_one]
  try simp only [dddR_D0D1D0_sym, dddR_D0D2D0_sym, dddR_D1D1D0_sym, dddR_D1D2D1_sym, dddR_D2D2D0_sym, dddR_D2D2D1_sym, dddR_D0D2D1_sym, dddR_D1D2D0_sym, dddX_D0D1D0_sym, dddX_D0D2D0_sym, dddX_D1D1D0_sym, dddX_D1D2D1_sym, dddX_D2D2D0_sym, dddX_D2D2D1_sym, dddX_D0D2D1_sym, dddX_D1D2D0_sym, dddY_D0D1D0_sym, dddY_D0D2D0_sym, dddY_D1D1D0_sym, dddY_D1D2D1_sym, dddY_D2D2D0_sym, dddY_D2D2D1_sym, dddY_D0D2D1_sym, dddY_D1D2D0_sym, dddZ_D0D1D0_sym, dddZ_D0D2D0_sym, dddZ_D1D1D0_sym, dddZ_D1D2D1_sym, dddZ_D2D2D0_sym, dddZ_D2D2D1_sym, dddZ_D0D2D1_sym, dddZ_D1D2D0_sym]
  field_simp
  ring


set_option maxHeartbeats 4000000 in
theorem ddK0_D0D1_at0 (P : Par) (q : Pt) (hR : 0 < R P q) : HasDerivAt (line (ddK0_D0D1 P) 0 q) (dddK0_D0D1D0 P q) (q 0) := by
  have hc : ∀ c : ℝ, HasDerivAt (fun _ => c) 0 (q 0) := fun c => hasDerivAt_const _ c
  have h_R := R_at0 P q hR
  have h_X := X_at0 P q
  have h_Y := Y_at0 P q
  have h_dR_D0 := dR_D0_at0 P q hR
  have h_dR_D1 := dR_D1_at0 P q hR
  have h_dX_D0 := dX_D0_at0 P q
  have h_dX_D1 := dX_D1_at0 P q
  have h_dY_D0 := dY_D0_at0 P q
  have h_dY_D1 := dY_D1_at0 P q
  have h_ddR_D0D1 := ddR_D0D1_at0 P q hR
  have h_ddX_D0D1 := ddX_D0D1_at0 P q
  have h_ddY_D0D1 := ddY_D0D1_at0 P q
  have key := (((((((hc (P.a ^ 2)).add (h_R.pow 2)).pow 2).mul ((((((hc (P.a)).mul h_ddY_D0D1).add (h_R.mul h_ddX_D0D1)).add (h_X.mul h_ddR_D0D1)).add (h_dR_D0.mul
    h_dX_D1)).add (h_dR_D1.mul h_dX_D0))).sub (((hc (2)).mul ((hc (P.a ^ 2)).add (h_R.pow 2))).mul ((((((((hc (P.a)).mul h_Y).add (h_R.mul h_X)).mul h_R).mul
    h_ddR_D0D1).add (((((hc (P.a)).mul h_Y).add (h_R.mul h_X)).mul h_dR_D0).mul h_dR_D1)).add ((((((hc (P.a)).mul h_dY_D0).add (h_R.mul h_dX_D0)).add (h_X.mul
    h_dR_D0)).mul h_R).mul h_dR_D1)).add ((((((hc (P.a)).mul h_dY_D1).add (h_R.mul h_dX_D1)).add (h_X.mul h_dR_D1)).mul h_R).mul h_dR_D0)))).add (((((hc (8)).mul (((hc
    (P.a)).mul h_Y).add (h_R.mul h_X))).mul (h_R.pow 2)).mul h_dR_D0).mul h_dR_D1)).div (((hc (P.a ^ 2)).add (h_R.pow 2)).pow 3) (by ks_ne))
  refine key.congr_deriv ?_
  simp only [Pi.add_apply, Pi.sub_apply, Pi.neg_apply, Pi.mul_apply, Pi.pow_apply, Pi.div_apply, line_at]
  unfold dddK0_D0D1D0
  try simp only [Nat.cast_ofNat, Nat.reduceSub, pow_one]
  try simp only [dddR_D0D1D0_sym, dddR_D0D2D0_sym, dddR_D1D1D0_sym, dddR_D1D2D1_sym, dddR_D2D2D0_sym, dddR_D2D2D1_sym, dddR_D0D2D1_sym, dddR_D1D2D0_sym, dddX_D0D1D0_sym, dddX_D0D2D0_sym, dddX_D1D1D0_sym, dddX_D1D2D1_sym, dddX_D2D2D0_sym, dddX_D2D2D1_sym, dddX_D0D2D1_sym, dddX_D1D2D0_sym, dddY_D0D1D0_sym, dddY_D0D2D0_sym, dddY_D1D1D0_sym, dddY_D1D2D1_sym, dddY_D2D2D0_sym, dddY_D2D2D1_sym, dddY_D0D2D1_sym, dddY_D1D2D0_sym, dddZ_D0D1D0_sym, dddZ_D0D2D0_sym, dddZ_D1D1D0_sym, dddZ_D1D2D1_sym, dddZ_D2D2D0_sym, dddZ_D2D2D1_sym, dddZ_D0D2D1_sym, dddZ_D1D2D0_sym]
  field_simp
  ring


set_option maxHeartbeats 4000000 in
theorem ddK0_D0D1_at1 (P : Par) (q : Pt) (hR : 0 < R P q) : HasDerivAt (line (ddK0_D0D1 P) 1 q) (dddK0_D0D1D1 P q) (q 1) := by
  have hc : ∀ c : ℝ, HasDerivAt (fun _ => c) 0 (q 1) := fun c => hasDerivAt_const _ c
  have h_R := R_at1 P q hR
  have h_X := X_at1 P q
  have h_Y := Y_at1 P q
  have h_dR_D0 := dR_D0_at1 P q hR
  have h_dR_D1 := dR_D1_at1 P q hR
  have h_dX_D0 := dX_D0_at1 P q
  have h_dX_D1 := dX_D1_at1 P q
  have h_dY_D0 := dY_D0_at1 P q
  have h_dY_D1 := dY_D1_at1 P q
  have h_ddR_D0D1 := ddR_D0D1_at1 P q hR
  have h_ddX_D0D1 := ddX_D0D1_at1 P q
  have h_ddY_D0D1 := ddY_D0D1_at1 P q
  have key := (((((((hc (P.a ^ 2)).add (h_R.pow 2)).pow 2).mul ((((((hc (P.a)).mul h_ddY_D0D1).add (h_R.mul h_ddX_D0D1)).add (h_X.mul h_ddR_D0D1)).add (h_dR_D0.mul
    h_dX_D1)).add (h_dR_D1.mul h_dX_D0))).sub (((hc (2)).mul ((hc (P.a ^ 2)).add (h_R.pow 2))).mul ((((((((hc (P.a)).mul h_Y).add (h_R.mul h_X)).mul h_R).mul
    h_ddR_D0D1).add (((((hc (P.a)).mul h_Y).add (h_R.mul h_X)).mul h_dR_D0).mul h_dR_D1)).add ((((((hc (P.a)).mul h_dY_D0).add (h_R.mul h_dX_D0)).add (h_X.mul
    h_dR_D0)).mul h_R).mul h_dR_D1)).add ((((((hc (P.a)).mul h_dY_D1).add (h_R.mul h_dX_D1)).add (h_X.mul h_dR_D1)).mul h_R).mul h_dR_D0)))).add (((((hc (8)).mul (((hc
    (P.a)).mul h_Y).add (h_R.mul h_X))).mul (h_R.pow 2)).mul h_dR_D0).mul h_dR_D1)).div (((hc (P.a ^ 2)).add (h_R.pow 2)).pow 3) (by ks_ne))
  refine key.congr_deriv ?_
  simp only [Pi.add_apply, Pi.sub_apply, Pi.neg_apply, Pi.mul_apply, Pi.pow_apply, Pi.div_apply, line_at]
  unfold dddK0_D0D1D1
  try simp only [Nat.cast_ofNat, Nat.reduceSub, pow_one]
  try simp only [dddR_D0D1D0_sym, dddR_D0D2D0_sym, dddR_D1D1D0_sym, dddR_D1D2D1_sym, dddR_D2D2D0_sym, dddR_D2D2D1_sym, dddR_D0D2D1_sym, dddR_D1D2D0_sym, dddX_D0D1D0_sym, dddX_D0D2D0_sym, dddX_D1D1D0_sym, dddX_D1D2D1_sym, dddX_D2D2D0_sym, dddX_D2D2D1_sym, dddX_D0D2D1_sym, dddX_D1D2D0_sym, dddY_D0D1D0_sym, dddY_D0D2D0_sym, dddY_D1D1D0_sym, dddY_D1D2D1_sym, dddY_D2D2D0_sym, dddY_D2D2D1_sym, dddY_D0D2D1_sym, dddY_D1D2D0_sym, dddZ_D0D1D0_sym, dddZ_D0D2D0_sym, dddZ_D1D1D0_sym, dddZ_D1D2D1_sym, dddZ_D2D2D0_sym, dddZ_D2D2D1_sym, dddZ_D0D2D1_sym, dddZ_D1D2D0_sym]
  field_simp
  ring


set_option maxHeartbeats 4000000 in
theorem ddK0_D0D1_at2 (P : Par) (q : Pt) (hR : 0 < R P q) : HasDerivAt (line (ddK0_D0D1 P) 2 q) (dddK0_D0D1D2 P q) (q 2) := by
  have hc : ∀ c : ℝ, HasDerivAt (fun _ => c) 0 (q 2) := fun c => hasDerivAt_const _ c
  have h_R := R_at2 P q hR
  have h_X := X_at2 P q
  have h_Y := Y_at2 P q
  have h_dR_D0 := dR_D0_at2 P q hR
  have h_dR_D1 := dR_D1_at2 P q hR
  have h_dX_D0 := dX_D0_at2 P q
  have h_dX_D1 := dX_D1_at2 P q
  have h_dY_D0 := dY_D0_at2 P q
  have h_dY_D1 := dY_D1_at2 P q
  have h_ddR_D0D1 := ddR_D0D1_at2 P q hR
  have h_ddX_D0D1 := ddX_D0D1_at2 P q
  have h_ddY_D0D1 := ddY_D0D1_at2 P q
  have key := (((((((hc (P.a ^ 2)).add (h_R.pow 2)).pow 2).mul ((((((hc (P.a)).mul h_ddY_D0D1).add (h_R.mul h_ddX_D0D1)).add (h_X.mul h_ddR_D0D1)).add (h_dR_D0.mul
    h_dX_D1)).add (h_dR_D1.mul h_dX_D0))).sub (((hc (2)).mul ((hc (P.a ^ 2)).add (h_R.pow 2))).mul ((((((((hc (P.a)).mul h_Y).add (h_R.mul h_X)).mul h_R).mul
    h_ddR_D0D1).add (((((hc (P.a)).mul h_Y).add (h_R.mul h_X)).mul h_dR_D0).mul h_dR_D1)).add ((((((hc (P.a)).mul h_dY_D0).add (h_R.mul h_dX_D0)).add (h_X.mul
    h_dR_D0)).mul h_R).mul h_dR_D1)).add ((((((hc (P.a)).mul h_dY_D1).add (h_R.mul h_dX_D1)).add (h_X.mul h_dR_D1)).mul h_R).mul h_dR_D0)))).add (((((hc (8)).mul (((hc
    (P.a)).mul h_Y).add (h_R.mul h_X))).mul (h_R.pow 2)).mul h_dR_D0).mul h_dR_D1)).div (((hc (P.a ^ 2)).add (h_R.pow 2)).pow 3) (by ks_ne))
  refine key.congr_deriv ?_
  simp only [Pi.add_apply, Pi.sub_apply, Pi.neg_apply, Pi.mul_apply, Pi.pow_apply, Pi.div_apply, line_at]
  unfold dddK0_D0D1D2
  try simp only [Nat.cast_ofNat, Nat.reduceSub, pow_one]
  try simp only [dddR_D0D1D0_sym, dddR_D0D2D0_sym, dddR_D1D1D0_sym, dddR_D1D2D1_sym, dddR_D2D2D0_sym, dddR_D2D2D1_sym, dddR_D0D2D1_sym, dddR_D1D2D0_sym, dddX_D0D1D0_sym, dddX_D0D2D0_sym, dddX_D1D1D0_sym, dddX_D1D2D1_sym, dddX_D2D2D0_sym, dddX_D2D2D1_sym, dddX_D0D2D1_sym, dddX_D1D2D0_sym, dddY_D0D1D0_sym, dddY_D0D2D0_sym, dddY_D1D1D0_sym, dddY_D1D2D1_sym, dddY_D2D2D0_sym, dddY_D2D2D1_sym, dddY_D0D2D1_sym, dddY_D1D2D0_sym, dddZ_D0D1D0_sym, dddZ_D0D2D0_sym, dddZ_D1D1D0_sym, dddZ_D1D2D1_sym, dddZ_D2D2D0_sym, dddZ_D2D2D1_sym, dddZ_D0D2D1_sym, dddZ_D1D2D0_sym]
  field_simp
  ring


set_option maxHeartbeats 4000000 in
theorem ddK0_D0D2_at0 (P : Par) (q : Pt) (hR : 0 < R P q) : HasDerivAt (line (ddK0_D0D2 P) 0 q) (dddK0_D0D2D0 P q) (q 0) := by
  have hc : ∀ c : ℝ, HasDerivAt (fun _ => c) 0 (q 0) := fun c => hasDerivAt_const _ c
  have h_R := R_at0 P q hR
  have h_X := X_at0 P q
  have h_Y := Y_at0 P q
  have h_dR_D0 := dR_D0_at0 P q hR
  have h_dR_D2 := dR_D2_at0 P q hR
  have h_dX_D0 := dX_D0_at0 P q
  have h_dX_D2 := dX_D2_at0 P q
  have h_dY_D0 := dY_D0_at0 P q
  have h_dY_D2 := dY_D2_at0 P q
  have h_ddR_D0D2 := ddR_D0D2_at0 P q hR
  have h_ddX_D0D2 := ddX_D0D2_at0 P q
  have h_ddY_D0D2 := ddY_D0D2_at0 P q
  have key := (((((((hc (P.a ^ 2)).add (h_R.pow 2)).pow 2).mul ((((((hc (P.a)).mul h_ddY_D0D2).add (h_R.mul h_ddX_D0D2)).add (h_X.mul h_ddR_D0D2)).add (h_dR_D0.mul
    h_dX_D2)).add (h_dR_D2.mul h_dX_D0))).sub (((hc (2)).mul ((hc (P.a ^ 2)).add (h_R.pow 2))).mul ((((((((hc (P.a)).mul h_Y).add (h_R.mul h_X)).mul h_R).mul
    h_ddR_D0D2).add (((((hc (P.a)).mul h_Y).add (h_R.mul h_X)).mul h_dR_D0).mul h_dR_D2)).add ((((((hc (P.a)).mul h_dY_D0).add (h_R.mul h_dX_D0)).add (h_X.mul
    h_dR_D0)).mul h_R).mul h_dR_D2)).add ((((((hc (P.a)).mul h_dY_D2).add (h_R.mul h_dX_D2)).add (h_X.mul h_dR_D2)).mul h_R).mul h_dR_D0)))).add (((((hc (8)).mul (((hc
    (P.a)).mul h_Y).add (h_R.mul h_X))).mul (h_R.pow 2)).mul h_dR_D0).mul h_dR_D2)).div (((hc (P.a ^ 2)).add (h_R.pow 2)).pow 3) (by ks_ne))
  refine key.congr_deriv ?_
  simp only [Pi.add_apply, Pi.sub_apply, Pi.neg_apply, Pi.mul_apply, Pi.pow_apply, Pi.div_apply, line_at]
  unfold dddK0_D0D2D0
  try simp only [Nat.cast_ofNat, Nat.reduceSub, pow_one]
  try simp only [dddR_D0D1D0_sym, dddR_D0D2D0_sym, dddR_D1D1D0_sym, dddR_D1D2D1_sym, dddR_D2D2D0_sym, dddR_D2D2D1_sym, dddR_D0D2D1_sym, dddR_D1D2D0_sym, dddX_D0D1D0_sym, dddX_D0D2D0_sym, dddX_D1D1D0_sym, dddX_D1D2D1_sym, dddX_D2D2D0_sym, dddX_D2D2D1_sym, dddX_D0D2D1_sym, dddX_D1D2D0_sym, dddY_D0D1D0_sym, dddY_D0D2D0_sym, dddY_D1D1D0_sym, dddY_D1D2D1_sym, dddY_D2D2D0_sym, dddY_D2D2D1_sym, dddY_D0D2D1_sym, dddY_D1D2D0_sym, dddZ_D0D1D0_sym, dddZ_D0D2D0_sym, dddZ_D1D1D0_sym, dddZ_D1D2D1_sym, dddZ_D2D2D0_sym, dddZ_D2D2D1_sym, dddZ_D0D2D1_sym, dddZ_D1D2D0_sym]
  field_simp
  ring


set_option maxHeartbeats 4000000 in
theorem ddK0_D0D2_at1 (P : Par) (q : Pt) (hR : 0 < R P q) : HasDerivAt (line (ddK0_D0D2 P) 1 q) (dddK0_D0D2D1 P q) (q 1) := by
  have hc : ∀ c : ℝ, HasDerivAt (fun _ => c) 0 (q 1) := fun c => hasDerivAt_const _ c
  have h_R := R_at1 P q hR
  have h_X := X_at1 P q
  have h_Y := Y_at1 P q
  have h_dR_D0 := dR_D0_at1 P q hR
  have h_dR_D2 := dR_D2_at1 P q hR
  have h_dX_D0 := dX_D0_at1 P q
  have h_dX_D2 := dX_D2_at1 P q
  have h_dY_D0 := dY_D0_at1 P q
  have h_dY_D2 := dY_D2_at1 P q
  have h_ddR_D0D2 := ddR_D0D2_at1 P q hR
  have h_ddX_D0D2 := ddX_D0D2_at1 P q
  have h_ddY_D0D2 := ddY_D0D2_at1 P q
  have key := (((((((hc (P.a ^ 2)).add (h_R.pow 2)).pow 2).mul ((((((hc (P.a)).mul h_ddY_D0D2).add (h_R.mul h_ddX_D0D2)).add (h_X.mul h_ddR_D0D2)).add (h_dR_D0.mul
    h_dX_D2)).add (h_dR_D2.mul h_dX_D0))).sub (((hc (2)).mul ((hc (P.a ^ 2)).add (h_R.pow 2))).mul ((((((((hc (P.a)).mul h_Y).add (h_R.mul h_X)).mul h_R).mul
    h_ddR_D0D2).add (((((hc (P.a)).mul h_Y).add (h_R.mul h_X)).mul h_dR_D0).mul h_dR_D2)).add ((((((hc (P.a)).mul h_dY_D0).add (h_R.mul h_dX_D0)).add (h_X.mul
    h_dR_D0)).mul h_R).mul h_dR_D2)).add ((((((hc (P.a)).mul h_dY_D2).add (h_R.mul h_dX_D2)).add (h_X.mul h_dR_D2)).mul h_R).mul h_dR_D0)))).add (((((hc (8)).mul (((hc
    (P.a)).mul h_Y).add (h_R.mul h_X))).mul (h_R.pow 2)).mul h_dR_D0).mul h_dR_D2)).div (((hc (P.a ^ 2)).add (h_R.pow 2)).pow 3) (by ks_ne))
  refine key.congr_deriv ?_
  simp only [Pi.add_apply, Pi.sub_apply, Pi.neg_apply, Pi.mul_apply, Pi.pow_apply, Pi.div_apply, line_at]
  unfold dddK0_D0D2D1
  try simp only [Nat.cast_ofNat, Nat.reduceSub, pow_one]
  try simp only [dddR_D0D1D0_sym, dddR_D0D2D0_sym, dddR_D1D1D0_sym, dddR_D1D2D1_sym, dddR_D2D2D0_sym, dddR_D2D2D1_sym, dddR_D0D2D1_sym, dddR_D1D2D0_sym, dddX_D0D1D0_sym, dddX_D0D2D0_sym, dddX_D1D1D0_sym, dddX_D1D2D1_sym, dddX_D2D2D0_sym, dddX_D2D2D1_sym, dddX_D0D2D1_sym, dddX_D1D2D0_sym, dddY_D0D1D0_sym, dddY_D0D2D0_sym, dddY_D1D1D0_sym, dddY_D1D2D1_sym, dddY_D2D2D0_sym, dddY_D2D2D1_sym, dddY_D0D2D1_sym, dddY_D1D2D0_sym, dddZ_D0D1D0_sym, dddZ_D0D2D0_sym, dddZ_D1D1D0_sym, dddZ_D1D2D1_sym, dddZ_D2D2D0_sym, dddZ_D2D2D1_sym, dddZ_D0D2D1_sym, dddZ_D1D2D0_sym]
  field_simp
  ring


set_option maxHeartbeats 4000000 in
theorem ddK0_D0D2_at2 (P : Par) (q : Pt) (hR : 0 < R P q) : HasDerivAt (line (ddK0_D0D2 P) 2 q) (dddK0_D0D2D2 P q) (q 2) := by
  have hc : ∀ c : ℝ, HasDerivAt (fun _ => c) 0 (q 2) := fun c => hasDerivAt_const _ c
  have h_R := R_at2 P q hR
  have h_X := X_at2 P q
  have h_Y := Y_at2 P q
  have h_dR_D0 := dR_D0_at2 P q hR
  have h_dR_D2 := dR_D2_at2 P q hR
  have h_dX_D0 := dX_D0_at2 P q
  have h_dX_D2 := dX_D2_at2 P q
  have h_dY_D0 := dY_D0_at2 P q
  have h_dY_D2 := dY_D2_at2 P q
  have h_ddR_D0D2 := ddR_D0D2_at2 P q hR
  have h_ddX_D0D2 := ddX_D0D2_at2 P q
  have h_ddY_D0D2 := ddY_D0D2_at2 P q
  have key := (((((((hc (P.a ^ 2)).add (h_R.pow 2)).pow 2).mul ((((((hc (P.a)).mul h_ddY_D0D2).add (h_R.mul h_ddX_D0D2)).add (h_X.mul h_ddR_D0D2)).add (h_dR_D0.mul
    h_dX_D2)).add (h_dR_D2.mul h_dX_D0))).sub (((hc (2)).mul ((hc (P.a ^ 2)).add (h_R.pow 2))).mul ((((((((hc (P.a)).mul h_Y).add (h_R.mul h_X)).mul h_R).mul
    h_ddR_D0D2).add (((((hc (P.a)).mul h_Y).add (h_R.mul h_X)).mul h_dR_D0).mul h_dR_D2)).add ((((((hc (P.a)).mul h_dY_D0).add (h_R.mul h_dX_D0)).add (h_X.mul
    h_dR_D0)).mul h_R).mul h_dR_D2)).add ((((((hc (P.a)).mul h_dY_D2).add (h_R.mul h_dX_D2)).add (h_X.mul h_dR_D2)).mul h_R).mul h_dR_D0)))).add (((((hc (8)).mul (((hc
    (P.a)).mul h_Y).add (h_R.mul h_X))).mul (h_R.pow 2)).mul h_dR_D0).mul h_dR_D2)).div (((hc (P.a ^ 2)).add (h_R.pow 2)).pow 3) (by ks_ne))
  refine key.congr_deriv ?_
  simp only [Pi.add_apply, Pi.sub_apply, Pi.neg_apply, Pi.mul_apply, Pi.pow_apply, Pi.div_apply, line_at]
  unfold dddK0_D0D2D2
  try simp only [Nat.cast_ofNat, Nat.reduceSub, pow_one]
  try simp only [dddR_D0D1D0_sym, dddR_D0D2D0_sym, dddR_D1D1D0_sym, dddR_D1D2D1_sym, dddR_D2D2D0_sym, dddR_D2D2D1_sym, dddR_D0D2D1_sym, dddR_D1D2D0_sym, dddX_D0D1D0_sym, dddX_D0D2D0_sym, dddX_D1D1D0_sym, dddX_D1D2D1_sym, dddX_D2D2D0_sym, dddX_D2D2D1_sym, dddX_D0D2D1_sym, dddX_D1D2D0_sym, dddY_D0D1D0_sym, dddY_D0D2D0_sym, dddY_D1D1D0_sym, dddY_D1D2D1_sym, dddY_D2D2D0_sym, dddY_D2D2D1_sym, dddY_D0D2D1_sym, dddY_D1D2D0_sym, dddZ_D0D1D0_sym, dddZ_D0D2D0_sym, dddZ_D1D1D0_sym, dddZ_D1D2D1_sym, dddZ_D2D2D0_sym, dddZ_D2D2D1_sym, dddZ_D0D2D1_sym, dddZ_D1D2D0_sym]
  field_simp
  ring


set_option maxHeartbeats 4000000 in
theorem ddK0_D1D1_at0 (P : Par) (q : Pt) (hR : 0 < R P q) : HasDerivAt (line (ddK0_D1D1 P) 0 q) (dddK0_D1D1D0 P q) (q 0) := by
  have hc : ∀ c : ℝ, HasDerivAt (fun _ => c) 0 (q 0) := fun c => hasDerivAt_const _ c
  have h_R := R_at0 P q hR
  have h_X := X_at0 P q
  have h_Y := Y_at0 P q
  have h_dR_D1 := dR_D1_at0 P q hR
  have h_dX_D1 := dX_D1_at0 P q
  have h_dY_D1 := dY_D1_at0 P q
  have h_ddR_D1D1 := ddR_D1D1_at0 P q hR
  have h_ddX_D1D1 := ddX_D1D1_at0 P q
  have h_ddY_D1D1 := ddY_D1D1_at0 P q
  have key := (((((((hc (P.a ^ 2)).add (h_R.pow 2)).pow 2).mul (((((hc (P.a)).mul h_ddY_D1D1).add (h_R.mul h_ddX_D1D1)).add (h_X.mul h_ddR_D1D1)).add (((hc (2)).mul
    h_dR_D1).mul h_dX_D1))).sub (((hc (2)).mul ((hc (P.a ^ 2)).add (h_R.pow 2))).mul (((((((hc (P.a)).mul h_Y).add (h_R.mul h_X)).mul h_R).mul h_ddR_D1D1).add ((((hc
    (P.a)).mul h_Y).add (h_R.mul h_X)).mul (h_dR_D1.pow 2))).add ((((hc (2)).mul ((((hc (P.a)).mul h_dY_D1).add (h_R.mul h_dX_D1)).add (h_X.mul h_dR_D1))).mul h_R).mul
    h_dR_D1)))).add ((((hc (8)).mul (((hc (P.a)).mul h_Y).add (h_R.mul h_X))).mul (h_R.pow 2)).mul (h_dR_D1.pow 2))).div (((hc (P.a ^ 2)).add (h_R.pow 2)).pow 3) (by
    ks_ne))
  refine key.congr_deriv ?_
  simp only [Pi.add_apply, Pi.sub_apply, Pi.neg_apply, Pi.mul_apply, Pi.pow_apply, Pi.div_apply, line_at]
  unfold dddK0_D1D1D0
  try simp only [Nat.cast_ofNat, Nat.reduceSub, pow_one]
  try simp only [dddR_D0D1D0_sym, dddR_D0D2D0_sym, dddR_D1D1D0_sym, dddR_D1D2D1_sym, dddR_D2D2D0_sym, dddR_D2D2D1_sym, dddR_D0D2D1_sym, dddR_D1D2D0_sym, dddX_D0D1D0_sym, dddX_D0D2D0_sym, dddX_D1D1D0_sym, dddX_D1D2D1_sym, dddX_D2D2D0_sym, dddX_D2D2D1_sym, dddX_D0D2D1_sym, dddX_D1D2D0_sym, dddY_D0D1D0_sym, dddY_D0D2D0_sym, dddY_D1D1D0_sym, dddY_D1D2D1_sym, dddY_D2D2D0_sym, dddY_D2D2D1_sym, dddY_D0D2D1_sym, dddY_D1D2D0_sym, dddZ_D0D1D0_sym, dddZ_D0D2D0_sym, dddZ_D1D1D0_sym, dddZ_D1D2D1_sym, dddZ_D2D2D0_sym, dddZ_D2D2D1_sym, dddZ_D0D2D1_sym, dddZ_D1D2D0_sym]
  field_simp
  ring


set_option maxHeartbeats 4000000 in
theorem ddK0_D1D1_at1 (P : Par) (q : Pt) (hR : 0 < R P q) : HasDerivAt (line (ddK0_D1D1 P) 1 q) (dddK0_D1D1D1 P q) (q 1) := by
  have hc : ∀ c : ℝ, HasDerivAt (fun _ => c) 0 (q 1) := fun c => hasDerivAt_const _ c
  have h_R := R_at1 P q hR
  have h_X := X_at1 P q
  have h_Y := Y_at1 P q
  have h_dR_D1 := dR_D1_at1 P q hR
  have h_dX_D1 := dX_D1_at1 P q
  have h_dY_D1 := dY_D1_at1 P q
  have h_ddR_D1D1 := ddR_D1D1_at1 P q hR
  have h_ddX_D1D1 := ddX_D1D1_at1 P q
  have h_ddY_D1D1 := ddY_D1D1_at1 P q
  have key := (((((((hc (P.a ^ 2)).add (h_R.pow 2)).pow 2).mul (((((hc (P.a)).mul h_ddY_D1D1).add (h_R.mul h_ddX_D1D1)).add (h_X.mul h_ddR_D1D1)).add (((hc (2)).mul
    h_dR_D1).mul h_dX_D1))).sub (((hc (2)).mul ((hc (P.a ^ 2)).add (h_R.pow 2))).mul (((((((hc (P.a)).mul h_Y).add (h_R.mul h_X)).mul h_R).mul h_ddR_D1D1).add ((((hc
    (P.a)).mul h_Y).add (h_R.mul h_X)).mul (h_dR_D1.pow 2))).add ((((hc (2)).mul ((((hc (P.a)).mul h_dY_D1).add (h_R.mul h_dX_D1)).add (h_X.mul h_dR_D1))).mul h_R).mul
    h_dR_D1)))).add ((((hc (8)).mul (((hc (P.a)).mul h_Y).add (h_R.mul h_X))).mul (h_R.pow 2)).mul (h_dR_D1.pow 2))).div (((hc (P.a ^ 2)).add (h_R.pow 2)).pow 3) (by
    ks_ne))
  refine key.congr_deriv ?_
  simp only [Pi.add_apply, Pi.sub_apply, Pi.neg_apply, Pi.mul_apply, Pi.pow_apply, Pi.div_apply, line_at]
  unfold dddK0_D1D1D1
  try simp only [Nat.cast_ofNat, Nat.reduceSub, pow_one]
  try simp only [dddR_D0D1D0_sym, dddR_D0D2D0_sym, dddR_D1D1D0_sym, dddR_D1D2D1_sym, dddR_D2D2D0_sym, dddR_D2D2D1_sym, dddR_D0D2D1_sym, dddR_D1D2D0_sym, dddX_D0D1D0_sym, dddX_D0D2D0_sym, dddX_D1D1D0_sym, dddX_D1D2D1_sym, dddX_D2D2D0_sym, dddX_D2D2D1_sym, dddX_D0D2D1_sym, dddX_D1D2D0_sym, dddY_D0D1D0_sym, dddY_D0D2D0_sym, dddY_D1D1D0_sym, dddY_D1D2D1_sym, dddY_D2D2D0_sym, dddY_D2D2D1_sym, dddY_D0D2D1_sym, dddY_D1D2D0_sym, dddZ_D0D1D0_sym, dddZ_D0D2D0_sym, dddZ_D1D1D0_sym, dddZ_D1D2D1_sym, dddZ_D2D2D0_sym, dddZ_D2D2D1_sym, dddZ_D0D2D1_sym, dddZ_D1D2D0_sym]
  field_simp
  ring


set_option maxHeartbeats 4000000 in
theorem ddK0_D1D1_at2 (P : Par) (q : Pt) (hR : 0 < R P q) : HasDerivAt (line (ddK0_D1D1 P) 2 q) (dddK0_D1D1D2 P q) (q 2) := by
  have hc : ∀ c : ℝ, HasDerivAt (fun _ => c) 0 (q 2) := fun c => hasDerivAt_const _ c
  have h_R := R_at2 P q hR
  have h_X := X_at2 P q
  have h_Y := Y_at2 P q
  have h_dR_D1 := dR_D1_at2 P q hR
  have h_dX_D1 := dX_D1_at2 P q
  have h_dY_D1 := dY_D1_at2 P q
  have h_ddR_D1D1 := ddR_D1D1_at2 P q hR
  have h_ddX_D1D1 := ddX_D1D1_at2 P q
  have h_ddY_D1D1 := ddY_D1D1_at2 P q
  have key := (((((((hc (P.a ^ 2)).add (h_R.pow 2)).pow 2).mul (((((hc (P.a)).mul h_ddY_D1D1).add (h_R.mul h_ddX_D1D1)).add (h_X.mul h_ddR_D1D1)).add (((hc (2)).mul
    h_dR_D1).mul h_dX_D1))).sub (((hc (2)).mul ((hc (P.a ^ 2)).add (h_R.pow 2))).mul (((((((hc (P.a)).mul h_Y).add (h_R.mul h_X)).mul h_R).mul h_ddR_D1D1).add ((((hc
    (P.a)).mul h_Y).add (h_R.mul h_X)).mul (h_dR_D1.pow 2))).add ((((hc (2)).mul ((((hc (P.a)).mul h_dY_D1).add (h_R.mul h_dX_D1)).add (h_X.mul h_dR_D1))).mul h_R).mul
    h_dR_D1)))).add ((((hc (8)).mul (((hc (P.a)).mul h_Y).add (h_R.mul h_X))).mul (h_R.pow 2)).mul (h_dR_D1.pow 2))).div (((hc (P.a ^ 2)).add (h_R.pow 2)).pow 3) (by
    ks_ne))
  refine key.congr_deriv ?_
  simp only [Pi.add_apply, Pi.sub_apply, Pi.neg_apply, Pi.mul_apply, Pi.pow_apply, Pi.div_apply, line_at]
  unfold dddK0_D1D1D2
  try simp only [Nat.cast_ofNat, Nat.reduceSub, pow_one]
  try simp only [dddR_D0D1D0_sym, dddR_D0D2D0_sym, dddR_D1D1D0_sym, dddR_D1D2D1_sym, dddR_D2D2D0_sym, dddR_D2D2D1_sym, dddR_D0D2D1_sym, dddR_D1D2D0_sym, dddX_D0D1D0_sym, dddX_D0D2D0_sym, dddX_D1D1D0_sym, dddX_D1D2D1_sym, dddX_D2D2D0_sym, dddX_D2D2D1_sym, dddX_D0D2D1_sym, dddX_D1D2D0_sym, dddY_D0D1D0_sym, dddY_D0D2D0_sym, dddY_D1D1D0_sym, dddY_D1D2D1_sym, dddY_D2D2D0_sym, dddY_D2D2D1_sym, dddY_D0D2D1_sym, dddY_D1D2D0_sym, dddZ_D0D1D0_sym, dddZ_D0D2D0_sym, dddZ_D1D1D0_sym, dddZ_D1D2D1_sym, dddZ_D2D2D0_sym, dddZ_D2D2D1_sym, dddZ_D0D2D1_sym, dddZ_D1D2D0_sym]
  field_simp
  ring


set_option maxHeartbeats 4000000 in
theorem ddK0_D1D2_at0 (P : Par) (q : Pt) (hR : 0 < R P q) : HasDerivAt (line (ddK0_D1D2 P) 0 q) (dddK0_D1D2D0 P q) (q 0) := by
  have hc : ∀ c : ℝ, HasDerivAt (fun _ => c) 0 (q 0) := fun c => hasDerivAt_const _ c
  have h_R := R_at0 P q hR
  have h_X := X_at0 P q
  have h_Y := Y_at0 P q
  have h_dR_D1 := dR_D1_at0 P q hR
  have h_dR_D2 := dR_D2_at0 P q hR
  have h_dX_D1 := dX_D1_at0 P q
  have h_dX_D2 := dX_D2_at0 P q
  have h_dY_D1 := dY_D1_at0 P q
  have h_dY_D2 := dY_D2_at0 P q
  have h_ddR_D1D2 := ddR_D1D2_at0 P q hR
  have h_ddX_D1D2 := ddX_D1D2_at0 P q
  have h_ddY_D1D2 := ddY_D1D2_at0 P q
  have key := (((((((hc (P.a ^ 2)).add (h_R.pow 2)).pow 2).mul ((((((hc (P.a)).mul h_ddY_D1D2).add (h_R.mul h_ddX_D1D2)).add (h_X.mul h_ddR_D1D2)).add (h_dR_D1.mul
    h_dX_D2)).add (h_dR_D2.mul h_dX_D1))).sub (((hc (2)).mul ((hc (P.a ^ 2)).add (h_R.pow 2))).mul ((((((((hc (P.a)).mul h_Y).add (h_R.mul h_X)).mul h_R).mul
    h_ddR_D1D2).add (((((hc (P.a)).mul h_Y).add (h_R.mul h_X)).mul h_dR_D1).mul h_dR_D2)).add ((((((hc (P.a)).mul h_dY_D1).add (h_R.mul h_dX_D1)).add (h_X.mul
    h_dR_D1)).mul h_R).mul h_dR_D2)).add ((((((hc (P.a)).mul h_dY_D2).add (h_R.mul h_dX_D2)).add (h_X.mul h_dR_D2)).mul h_R).mul h_dR_D1)))).add (((((hc (8)).mul (((hc
    (P.a)).mul h_Y).add (h_R.mul h_X))).mul (h_R.pow 2)).mul h_dR_D1).mul h_dR_D2)).div (((hc (P.a ^ 2)).add (h_R.pow 2)).pow 3) (by ks_ne))
  refine key.congr_deriv ?_
  simp only [Pi.add_apply, Pi.sub_apply, Pi.neg_apply, Pi.mul_apply, Pi.pow_apply, Pi.div_apply, line_at]
  unfold dddK0_D1D2D0
  try simp only [Nat.cast_ofNat, Nat.reduceSub, pow_one]
  try simp only [dddR_D0D1D0_sym, dddR_D0D2D0_sym, dddR_D1D1D0_sym, dddR_D1D2D1_sym, dddR_D2D2D0_sym, dddR_D2D2D1_sym, dddR_D0D2D1_sym, dddR_D1D2D0_sym, dddX_D0D1D0_sym, dddX_D0D2D0_sym, dddX_D1D1D0_sym, dddX_D1D2D1_sym, dddX_D2D2D0_sym, dddX_D2D2D1_sym, dddX_D0D2D1_sym, dddX_D1D2D0_sym, dddY_D0D1D0_sym, dddY_D0D2D0_sym, dddY_D1D1D0_sym, dddY_D1D2D1_sym, dddY_D2D2D0_sym, dddY_D2D2D1_sym, dddY_D0D2D1_sym, dddY_D1D2D0_sym, dddZ_D0D1D0_sym, dddZ_D0D2D0_sym, dddZ_D1D1D0_sym, dddZ_D1D2D1_sym, dddZ_D2D2D0_sym, dddZ_D2D2D1_sym, dddZ_D0D2D1_sym, dddZ_D1D2D0_sym]
  field_simp
  ring


set_option maxHeartbeats 4000000 in
theorem ddK0_D1D2_at1 (P : Par) (q : Pt) (hR : 0 < R P q) : HasDerivAt (line (ddK0_D1D2 P) 1 q) (dddK0_D1D2D1 P q) (q 1) := by
  have hc : ∀ c : ℝ, HasDerivAt (fun _ => c) 0 (q 1) := fun c => hasDerivAt_const _ c
  have h_R := R_at1 P q hR
  have h_X := X_at1 P q
  have h_Y := Y_at1 P q
  have h_dR_D1 := dR_D1_at1 P q hR
  have h_dR_D2 := dR_D2_at1 P q hR
  have h_dX_D1 := dX_D1_at1 P q
  have h_dX_D2 := dX_D2_at1 P q
  have h_dY_D1 := dY_D1_at1 P q
  have h_dY_D2 := dY_D2_at1 P q
  have h_ddR_D1D2 := ddR_D1D2_at1 P q hR
  have h_ddX_D1D2 := ddX_D1D2_at1 P q
  have h_ddY_D1D2 := ddY_D1D2_at1 P q
  have key := (((((((hc (P.a ^ 2)).add (h_R.pow 2)).pow 2).mul ((((((hc (P.a)).mul h_ddY_D1D2).add (h_R.mul h_ddX_D1D2)).add (h_X.mul h_ddR_D1D2)).add (h_dR_D1.mul
    h_dX_D2)).add (h_dR_D2.mul h_dX_D1))).sub (((hc (2)).mul ((hc (P.a ^ 2)).add (h_R.pow 2))).mul ((((((((hc (P.a)).mul h_Y).add (h_R.mul h_X)).mul h_R).mul
    h_ddR_D1D2).add (((((hc (P.a)).mul h_Y).add (h_R.mul h_X)).mul h_dR_D1).mul h_dR_D2)).add ((((((hc (P.a)).mul h_dY_D1).add (h_R.mul h_dX_D1)).add (h_X.mul
    h_dR_D1)).mul h_R).mul h_dR_D2)).add ((((((hc (P.a)).mul h_dY_D2).add (h_R.mul h_dX_D2)).add (h_X.mul h_dR_D2)).mul h_R).mul h_dR_D1)))).add (((((hc (8)).mul (((hc
    (P.a)).mul h_Y).add (h_R.mul h_X))).mul (h_R.pow 2)).mul h_dR_D1).mul h_dR_D2)).div (((hc (P.a ^ 2)).add (h_R.pow 2)).pow 3) (by ks_ne))
  refine key.congr_deriv ?_
  simp only [Pi.add_apply, Pi.sub_apply, Pi.neg_apply, Pi.mul_apply, Pi.pow_apply, Pi.div_apply, line_at]
  unfold dddK0_D1D2D1
  try simp only [Nat.cast_ofNat, Nat.reduceSub, pow_one]
  try simp only [dddR_D0D1D0_sym, dddR_D0D2D0_sym, dddR_D1D1D0_sym, dddR_D1D2D1_sym, dddR_D2D2D0_sym, dddR_D2D2D1_sym, dddR_D0D2D1_sym, dddR_D1D2D0_sym, dddX_D0D1D0_sym, dddX_D0D2D0_sym, dddX_D1D1D0_sym, dddX_D1D2D1_sym, dddX_D2D2D0_sym, dddX_D2D2D1_sym, dddX_D0D2D1_sym, dddX_D1D2D0_sym, dddY_D0D1D0_sym, dddY_D0D2D0_sym, dddY_D1D1D0_sym, dddY_D1D2D1_sym, dddY_D2D2D0_sym, dddY_D2D2D1_sym, dddY_D0D2D1_sym, dddY_D1D2D0_sym, dddZ_D0D1D0_sym, dddZ_D0D2D0_sym, dddZ_D1D1D0_sym, dddZ_D1D2D1_sym, dddZ_D2D2D0_sym, dddZ_D2D2D1_sym, dddZ_D0D2D1_sym, dddZ_D1D2D0_sym]
  field_simp
  ring


set_option maxHeartbeats 4000000 in
theorem ddK0_D1D2_at2 (P : Par) (q : Pt) (hR : 0 < R P q) : HasDerivAt (line (ddK0_D1D2 P) 2 q) (dddK0_D1D2D2 P q) (q 2) := by
  have hc : ∀ c : ℝ, HasDerivAt (fun _ => c) 0 (q 2) := fun c => hasDerivAt_const _ c
  have h_R := R_at2 P q hR
  have h_X := X_at2 P q
  have h_Y := Y_at2 P q
  have h_dR_D1 := dR_D1_at2 P q hR
  have h_dR_D2 := dR_D2_at2 P q hR
  have h_dX_D1 := dX_D1_at2 P q
  have h_dX_D2 := dX_D2_at2 P q
  have h_dY_D1 := dY_D1_at2 P q
  have h_dY_D2 := dY_D2_at2 P q
  have h_ddR_D1D2 := ddR_D1D2_at2 P q hR
  have h_ddX_D1D2 := ddX_D1D2_at2 P q
  have h_ddY_D1D2 := ddY_D1D2_at2 P q
  have key := (((((((hc (P.a ^ 2)).add (h_R.pow 2)).pow 2).mul ((((((hc (P.a)).mul h_ddY_D1D2).add (h_R.mul h_ddX_D1D2)).add (h_X.mul h_ddR_D1D2)).add (h_dR_D1.mul
    h_dX_D2)).add (h_dR_D2.mul h_dX_D1))).sub (((hc (2)).mul ((hc (P.a ^ 2)).add (h_R.pow 2))).mul ((((((((hc (P.a)).mul h_Y).add (h_R.mul h_X)).mul h_R).mul
    h_ddR_D1D2).add (((((hc (P.a)).mul h_Y).add (h_R.mul h_X)).mul h_dR_D1).mul h_dR_D2)).add ((((((hc (P.a)).mul h_dY_D1).add (h_R.mul h_dX_D1)).add (h_X.mul
    h_dR_D1)).mul h_R).mul h_dR_D2)).add ((((((hc (P.a)).mul h_dY_D2).add (h_R.mul h_dX_D2)).add (h_X.mul h_dR_D2)).mul h_R).mul h_dR_D1)))).add (((((hc (8)).mul (((hc
    (P.a)).mul h_Y).add (h_R.mul h_X))).mul (h_R.pow 2)).mul h_dR_D1).mul h_dR_D2)).div (((hc (P.a ^ 2)).add (h_R.pow 2)).pow 3) (by ks_ne))
  refine key.congr_deriv ?_
  simp only [Pi.add_apply, Pi.sub_apply, Pi.neg_apply, Pi.mul_apply, Pi.pow_apply, Pi.div_apply, line_at]
  unfold dddK0_D1D2D2
  try simp only [Nat.cast_ofNat, Nat.reduceSub, pow_one]
  try simp only [dddR_D0D1D0_sym, dddR_D0D2D0_sym, dddR_D1D1D0_sym, dddR_D1D2D1_sym, dddR_D2D2D0_sym, dddR_D2D2D1_sym, dddR_D0D2D1_sym, dddR_D1D2D0_sym, dddX_D0D1D0_sym, dddX_D0D2D0_sym, dddX_D1D1D0_sym, dddX_D1D2D1_sym, dddX_D2D2D0_sym, dddX_D2D2D1_sym, dddX_D0D2D1_sym, dddX_D1D2D0_sym, dddY_D0D1D0_sym, dddY_D0D2D0_sym, dddY_D1D1D0_sym, dddY_D1D2D1_sym, dddY_D2D2D0_sym, dddY_D2D2D1_sym, dddY_D0D2D1_sym, dddY_D1D2D0_sym, dddZ_D0D1D0_sym, dddZ_D0D2D0_sym, dddZ_D1D1D0_sym, dddZ_D1D2D1_sym, dddZ_D2D2D0_sym, dddZ_D2D2D1_sym, dddZ_D0D2D1_sym, dddZ_D1D2D0_sym]
  field_simp
  ring


set_option maxHeartbeats 4000000 in
theorem ddK0_D2D2_at0 (P : Par) (q : Pt) (hR : 0 < R P q) : HasDerivAt (line (ddK0_D2D2 P) 0 q) (dddK0_D2D2D0 P q) (q 0) := by
  have hc : ∀ c : ℝ, HasDerivAt (fun _ => c) 0 (q 0) := fun c => hasDerivAt_const _ c
  have h_R := R_at0 P q hR
  have h_X := X_at0 P q
  have h_Y := Y_at0 P q
  have h_dR_D2 := dR_D2_at0 P q hR
  have h_dX_D2 := dX_D2_at0 P q
  have h_dY_D2 := dY_D2_at0 P q
  have h_ddR_D2D2 := ddR_D2D2_at0 P q hR
  have h_ddX_D2D2 := ddX_D2D2_at0 P q
  have h_ddY_D2D2 := ddY_D2D2_at0 P q
  have key := (((((((hc (P.a ^ 2)).add (h_R.pow 2)).pow 2).mul (((((hc (P.a)).mul h_ddY_D2D2).add (h_R.mul h_ddX_D2D2)).add (h_X.mul h_ddR_D2D2)).add (((hc (2)).mul
    h_dR_D2).mul h_dX_D2))).sub (((hc (2)).mul ((hc (P.a ^ 2)).add (h_R.pow 2))).mul (((((((hc (P.a)).mul h_Y).add (h_R.mul h_X)).mul h_R).mul h_ddR_D2D2).add ((((hc
    (P.a)).mul h_Y).add (h_R.mul h_X)).mul (h_dR_D2.pow 2))).add ((((hc (2)).mul ((((hc (P.a)).mul h_dY_D2).add (h_R.mul h_dX_D2)).add (h_X.mul h_dR_D2))).mul h_R).mul
    h_dR_D2)))).add ((((hc (8)).mul (((hc (P.a)).mul h_Y).add (h_R.mul h_X))).mul (h_R.pow 2)).mul (h_dR_D2.pow 2))).div (((hc (P.a ^ 2)).add (h_R.pow 2)).pow 3) (by
    ks_ne))
  refine key.congr_deriv ?_
  simp only [Pi.add_apply, Pi.sub_apply, Pi.neg_apply, Pi.mul_apply, Pi.pow_apply, Pi.div_apply, line_at]
  unfold dddK0_D2D2D0
  try simp only [Nat.cast_ofNat, Nat.reduceSub, pow_one]
  try simp only [dddR_D0D1D0_sym, dddR_D0D2D0_sym, dddR_D1D1D0_sym, dddR_D1D2D1_sym, dddR_D2D2D0_sym, dddR_D2D2D1_sym, dddR_D0D2D1_sym, dddR_D1D2D0_sym, dddX_D0D1D0_sym, dddX_D0D2D0_sym, dddX_D1D1D0_sym, dddX_D1D2D1_sym, dddX_D2D2D0_sym, dddX_D2D2D1_sym, dddX_D0D2D1_sym, dddX_D1D2D0_sym, dddY_D0D1D0_sym, dddY_D0D2D0_sym, dddY_D1D1D0_sym, dddY_D1D2D1_sym, dddY_D2D2D0_sym, dddY_D2D2D1_sym, dddY_D0D2D1_sym, dddY_D1D2D0_sym, dddZ_D0D1D0_sym, dddZ_D0D2D0_sym, dddZ_D1D1D0_sym, dddZ_D1D2D1_sym, dddZ_D2D2D0_sym, dddZ_D2D2D1_sym, dddZ_D0D2D1_sym, dddZ_D1D2D0_sym]
  field_simp
  ring


set_option maxHeartbeats 4000000 in
theorem ddK0_D2D2_at1 (P : Par) (q : Pt) (hR : 0 < R P q) : HasDerivAt (line (ddK0_D2D2 P) 1 q) (dddK0_D2D2D1 P q) (q 1) := by
  have hc : ∀ c : ℝ, HasDerivAt (fun _ => c) 0 (q 1) := fun c => hasDerivAt_const _ c
  have h_R := R_at1 P q hR
  have h_X := X_at1 P q
  have h_Y := Y_at1 P q
  have h_dR_D2 := dR_D2_at1 P q hR
  have h_dX_D2 := dX_D2_at1 P q
  have h_dY_D2 := dY_D2_at1 P q
  have h_ddR_D2D2 := ddR_D2D2_at1 P q hR
  have h_ddX_D2D2 := ddX_D2D2_at1 P q
  have h_ddY_D2D2 := ddY_D2D2_at1 P q
  have key := (((((((hc (P.a ^ 2)).add (h_R.pow 2)).pow 2).mul (((((hc (P.a)).mul h_ddY_D2D2).add (h_R.mul h_ddX_D2D2)).add (h_X.mul h_ddR_D2D2)).add (((hc (2)).mul
    h_dR_D2).mul h_dX_D2))).sub (((hc (2)).mul ((hc (P.a ^ 2)).add (h_R.pow 2))).mul (((((((hc (P.a)).mul h_Y).add (h_R.mul h_X)).mul h_R).mul h_ddR_D2D2).add ((((hc
    (P.a)).mul h_Y).add (h_R.mul h_X)).mul (h_dR_D2.pow 2))).add ((((hc (2)).mul ((((hc (P.a)).mul h_dY_D2).add (h_R.mul h_dX_D2)).add (h_X.mul h_dR_D2))).mul h_R).mul
    h_dR_D2)))).add ((((hc (8)).mul (((hc (P.a)).mul h_Y).add (h_R.mul h_X))).mul (h_R.pow 2)).mul (h_dR_D2.pow 2))).div (((hc (P.a ^ 2)).add (h_R.pow 2)).pow 3) (by
    ks_ne))
  refine key.congr_deriv ?_
  simp only [Pi.add_apply, Pi.sub_apply, Pi.neg_apply, Pi.mul_apply, Pi.pow_apply, Pi.div_apply, line_at]
  unfold dddK0_D2D2D1
  try simp only [Nat.cast_ofNat, Nat.reduceSub, pow_one]
  try simp only [dddR_D0D1D0_sym, dddR_D0D2D0_sym, dddR_D1D1D0_sym, dddR_D1D2D1_sym, dddR_D2D2D0_sym, dddR_D2D2D1_sym, dddR_D0D2D1_sym, dddR_D1D2D0_sym, dddX_D0D1D0_sym, dddX_D0D2D0_sym, dddX_D1D1D0_sym, dddX_D1D2D1_sym, dddX_D2D2D0_sym, dddX_D2D2D1_sym, dddX_D0D2D1_sym, dddX_D1D2D0_sym, dddY_D0D1D0_sym, dddY_D0D2D0_sym, dddY_D1D1D0_sym, dddY_D1D2D1_sym, dddY_D2D2D0_sym, dddY_D2D2D1_sym, dddY_D0D2D1_sym, dddY_D1D2D0_sym, dddZ_D0D1D0_sym, dddZ_D0D2D0_sym, dddZ_D1D1D0_sym, dddZ_D1D2D1_sym, dddZ_D2D2D0_sym, dddZ_D2D2D1_sym, dddZ_D0D2D1_sym, dddZ_D1D2D0_sym]
  field_simp
  ring


set_option maxHeartbeats 4000000 in
theorem ddK0_D2D2_at2 (P : Par) (q : Pt) (hR : 0 < R P q) : HasDerivAt (line (ddK0_D2D2 P) 2 q) (dddK0_D2D2D2 P q) (q 2) := by
  have hc : ∀ c : ℝ, HasDerivAt (fun _ => c) 0 (q 2) := fun c => hasDerivAt_const _ c
  have h_R := R_at2 P q hR
  have h_X := X_at2 P q
  have h_Y := Y_at2 P q
  have h_dR_D2 := dR_D2_at2 P q hR
  have h_dX_D2 := dX_D2_at2 P q
  have h_dY_D2 := dY_D2_at2 P q
  have h_ddR_D2D2 := ddR_D2D2_at2 P q hR
  have h_ddX_D2D2 := ddX_D2D2_at2 P q
  have h_ddY_D2D2 := ddY_D2D2_at2 P q
  have key := (((((((hc (P.a ^ 2)).add (h_R.pow 2)).pow 2).mul (((((hc (P.a)).mul h_ddY_D2D2).add (h_R.mul h_ddX_D2D2)).add (h_X.mul h_ddR_D2D2)).add (((hc (2)).mul
    h_dR_D2).mul h_dX_D2))).sub (((hc (2)).mul ((hc (P.a ^ 2)).add (h_R.pow 2))).mul (((((((hc (P.a)).mul h_Y).add (h_R.mul h_X)).mul h_R).mul h_ddR_D2D2).add ((((hc
    (P.a)).mul h_Y).add (h_R.mul h_X)).mul (h_dR_D2.pow 2))).add ((((hc (2)).mul ((((hc (P.a)).mul h_dY_D2).add (h_R.mul h_dX_D2)).add (h_X.mul h_dR_D2))).mul h_R).mul
    h_dR_D2)))).add ((((hc (8)).mul (((hc (P.a)).mul h_Y).add (h_R.mul h_X))).mul (h_R.pow 2)).mul (h_dR_D2.pow 2))).div (((hc (P.a ^ 2)).add (h_R.pow 2)).pow 3) (by
    ks_ne))
  refine key.congr_deriv ?_
  simp only [Pi.add_apply, Pi.sub_apply, Pi.neg_apply, Pi.mul_apply, Pi.pow_apply, Pi.div_apply, line_at]
  unfold dddK0_D2D2D2
  try simp only [Nat.cast_ofNat, Nat.reduceSub, pow_one]
  try simp only [dddR_D0D1D0_sym, dddR_D0D2D0_sym, dddR_D1D1D0_sym, dddR_D1D2D1_sym, dddR_D2D2D0_sym, dddR_D2D2D1_sym, dddR_D0D2D1_sym, dddR_D1D2D0_sym, dddX_D0D1D0_sym, dddX_D0D2D0_sym, dddX_D1D1D0_sym, dddX_D1D2D1_sym, dddX_D2D2D0_sym, dddX_D2D2D1_sym, dddX_D0D2D1_sym, dddX_D1D2D0_sym, dddY_D0D1D0_sym, dddY_D0D2D0_sym, dddY_D1D1D0_sym, dddY_D1D2D1_sym, dddY_D2D2D0_sym, dddY_D2D2D1_sym, dddY_D0D2D1_sym, dddY_D1D2D0_sym, dddZ_D0D1D0_sym, dddZ_D0D2D0_sym, dddZ_D1D1D0_sym, dddZ_D1D2D1_sym, dddZ_D2D2D0_sym, dddZ_D2D2D1_sym, dddZ_D0D2D1_sym, dddZ_D1D2D0_sym]
  field_simp
  ring


end Elliptica.Ks
