import Verif.Model.Gen.KsH
import Verif.Lemmas.Gen.KsH0
/-!
Generated by tools/gen_ks.py: each listed derivative is the derivative of the function it belongs to.
-/
namespace Elliptica.Ks
open Elliptica.Fields

set_option linter.unusedVariables false
set_option linter.unusedSimpArgs false
set_option linter.unusedTactic false
set_option linter.unreachableTactic false

set_option maxHeartbeats 4000000 in
theorem dH_D0_at0 (P : Par) (q : Pt) (hR : 0 < R P q) : HasDerivAt (line (dH_D0 P) 0 q) (ddH_D0D0 P q) (q 0) := by
  have hc : ∀ c : ℝ, HasDerivAt (fun _ => c) 0 (q 0) := fun c => hasDerivAt_const _ c
  have h_R := R_at0 P q hR
  have h_Z := Z_at0 P q
  have h_dR_D0 := dR_D0_at0 P q hR
  have h_dZ_D0 := dZ_D0_at0 P q
  have key := ((((hc ((-P.Lam) * P.M)).mul ((((((hc (2 * P.a ^ 2)).mul h_R).mul h_Z).mul h_dZ_D0).sub (((hc (3 * P.a ^ 2)).mul (h_Z.pow 2)).mul h_dR_D0)).add ((h_R.pow
    4).mul h_dR_D0))).mul (h_R.pow 2)).div ((((hc (P.a ^ 4)).mul (h_Z.pow 4)).add (((hc (2 * P.a ^ 2)).mul (h_R.pow 4)).mul (h_Z.pow 2))).add (h_R.pow 8)) (by ks_ne))
  refine key.congr_deriv ?_
  simp only [Pi.add_apply, Pi.sub_apply, Pi.neg_apply, Pi.mul_apply, Pi.pow_apply, Pi.div_apply, line_at]
  unfold ddH_D0D0
  try simp only [Nat.cast_ofNat, Nat.reduceSub, pow_one]
  field_simp
  ring


set_option maxHeartbeats 4000000 in
theorem dH_D0_at1 (P : Par) (q : Pt) (hR : 0 < R P q) : HasDerivAt (line (dH_D0 P) 1 q) (ddH_D0D1 P q) (q 1) := by
  have hc : ∀ c : ℝ, HasDerivAt (fun _ => c) 0 (q 1) := fun c => hasDerivAt_const _ c
  have h_R := R_at1 P q hR
  have h_Z := Z_at1 P q
  have h_dR_D0 := dR_D0_at1 P q hR
  have h_dZ_D0 := dZ_D0_at1 P q
  have key := ((((hc ((-P.Lam) * P.M)).mul ((((((hc (2 * P.a ^ 2)).mul h_R).mul h_Z).mul h_dZ_D0).sub (((hc (3 * P.a ^ 2)).mul (h_Z.pow 2)).mul h_dR_D0)).add ((h_R.pow
    4).mul h_dR_D0))).mul (h_R.pow 2)).div ((((hc (P.a ^ 4)).mul (h_Z.pow 4)).add (((hc (2 * P.a ^ 2)).mul (h_R.pow 4)).mul (h_Z.pow 2))).add (h_R.pow 8)) (by ks_ne))
  refine key.congr_deriv ?_
  simp only [Pi.add_apply, Pi.sub_apply, Pi.neg_apply, Pi.mul_apply, Pi.pow_apply, Pi.div_apply, line_at]
  unfold ddH_D0D1
  try simp only [Nat.cast_ofNat, Nat.reduceSub, pow_one]
  field_simp
  ring


set_option maxHeartbeats 4000000 in
theorem dH_D0_at2 (P : Par) (q : Pt) (hR : 0 < R P q) : HasDerivAt (line (dH_D0 P) 2 q) (ddH_D0D2 P q) (q 2) := by
  have hc : ∀ c : ℝ, HasDerivAt (fun _ => c) 0 (q 2) := fun c => hasDerivAt_const _ c
  have h_R := R_at2 P q hR
  have h_Z := Z_at2 P q
  have h_dR_D0 := dR_D0_at2 P q hR
  have h_dZ_D0 := dZ_D0_at2 P q
  have key := ((((hc ((-P.Lam) * P.M)).mul ((((((hc (2 * P.a ^ 2)).mul h_R).mul h_Z).mul h_dZ_D0).sub (((hc (3 * P.a ^ 2)).mul (h_Z.pow 2)).mul h_dR_D0)).add ((h_R.pow
    4).mul h_dR_D0))).mul (h_R.pow 2)).div ((((hc (P.a ^ 4)).mul (h_Z.pow 4)).add (((hc (2 * P.a ^ 2)).mul (h_R.pow 4)).mul (h_Z.pow 2))).add (h_R.pow 8)) (by ks_ne))
  refine key.congr_deriv ?_
  simp only [Pi.add_apply, Pi.sub_apply, Pi.neg_apply, Pi.mul_apply, Pi.pow_apply, Pi.div_apply, line_at]
  unfold ddH_D0D2
  try simp only [Nat.cast_ofNat, Nat.reduceSub, pow_one]
  field_simp
  ring


set_option maxHeartbeats 4000000 in
theorem dH_D1_at0 (P : Par) (q : Pt) (hR : 0 < R P q) : HasDerivAt (line (dH_D1 P) 0 q) (ddH_D0D1 P q) (q 0) := by
  have hc : ∀ c : ℝ, HasDerivAt (fun _ => c) 0 (q 0) := fun c => hasDerivAt_const _ c
  have h_R := R_at0 P q hR
  have h_Z := Z_at0 P q
  have h_dR_D1 := dR_D1_at0 P q hR
  have h_dZ_D1 := dZ_D1_at0 P q
  have key := ((((hc ((-P.Lam) * P.M)).mul ((((((hc (2 * P.a ^ 2)).mul h_R).mul h_Z).mul h_dZ_D1).sub (((hc (3 * P.a ^ 2)).mul (h_Z.pow 2)).mul h_dR_D1)).add ((h_R.pow
    4).mul h_dR_D1))).mul (h_R.pow 2)).div ((((hc (P.a ^ 4)).mul (h_Z.pow 4)).add (((hc (2 * P.a ^ 2)).mul (h_R.pow 4)).mul (h_Z.pow 2))).add (h_R.pow 8)) (by ks_ne))
  refine key.congr_deriv ?_
  simp only [Pi.add_apply, Pi.sub_apply, Pi.neg_apply, Pi.mul_apply, Pi.pow_apply, Pi.div_apply, line_at]
  unfold ddH_D0D1
  try simp only [Nat.cast_ofNat, Nat.reduceSub, pow_one]
  field_simp
  ring


set_option maxHeartbeats 4000000 in
theorem dH_D1_at1 (P : Par) (q : Pt) (hR : 0 < R P q) : HasDerivAt (line (dH_D1 P) 1 q) (ddH_D1D1 P q) (q 1) := by
  have hc : ∀ c : ℝ, HasDerivAt (fun _ => c) 0 (q 1) := fun c => hasDerivAt_const _ c
  have h_R := R_at1 P q hR
  have h_Z := Z_at1 P q
  have h_dR_D1 := dR_D1_at1 P q hR
  have h_dZ_D1 := dZ_D1_at1 P q
  have key := ((((hc ((-P.Lam) * P.M)).mul ((((((hc (2 * P.a ^ 2)).mul h_R).mul h_Z).mul h_dZ_D1).sub (((hc (3 * P.a ^ 2)).mul (h_Z.pow 2)).mul h_dR_D1)).add ((h_R.pow
    4).mul h_dR_D1))).mul (h_R.pow 2)).div ((((hc (P.a ^ 4)).mul (h_Z.pow 4)).add (((hc (2 * P.a ^ 2)).mul (h_R.pow 4)).mul (h_Z.pow 2))).add (h_R.pow 8)) (by ks_ne))
  refine key.congr_deriv ?_
  simp only [Pi.add_apply, Pi.sub_apply, Pi.neg_apply, Pi.mul_apply, Pi.pow_apply, Pi.div_apply, line_at]
  unfold ddH_D1D1
  try simp only [Nat.cast_ofNat, Nat.reduceSub, pow_one]
  field_simp
  ring


set_option maxHeartbeats 4000000 in
theorem dH_D1_at2 (P : Par) (q : Pt) (hR : 0 < R P q) : HasDerivAt (line (dH_D1 P) 2 q) (ddH_D1D2 P q) (q 2) := by
  have hc : ∀ c : ℝ, HasDerivAt (fun _ => c) 0 (q 2) := fun c => hasDerivAt_const _ c
  have h_R := R_at2 P q hR
  have h_Z := Z_at2 P q
  have h_dR_D1 := dR_D1_at2 P q hR
  have h_dZ_D1 := dZ_D1_at2 P q
  have key := ((((hc ((-P.Lam) * P.M)).mul ((((((hc (2 * P.a ^ 2)).mul h_R).mul h_Z).mul h_dZ_D1).sub (((hc (3 * P.a ^ 2)).mul (h_Z.pow 2)).mul h_dR_D1)).add ((h_R.pow
    4).mul h_dR_D1))).mul (h_R.pow 2)).div ((((hc (P.a ^ 4)).mul (h_Z.pow 4)).add (((hc (2 * P.a ^ 2)).mul (h_R.pow 4)).mul (h_Z.pow 2))).add (h_R.pow 8)) (by ks_ne))
  refine key.congr_deriv ?_
  simp only [Pi.add_apply, Pi.sub_apply, Pi.neg_apply, Pi.mul_apply, Pi.pow_apply, Pi.div_apply, line_at]
  unfold ddH_D1D2
  try simp only [Nat.cast_ofNat, Nat.reduceSub, pow_one]
  field_simp
  ring


set_option maxHeartbeats 4000000 in
theorem dH_D2_at0 (P : Par) (q : Pt) (hR : 0 < R P q) : HasDerivAt (line (dH_D2 P) 0 q) (ddH_D0D2 P q) (q 0) := by
  have hc : ∀ c : ℝ, HasDerivAt (fun _ => c) 0 (q 0) := fun c => hasDerivAt_const _ c
  have h_R := R_at0 P q hR
  have h_Z := Z_at0 P q
  have h_dR_D2 := dR_D2_at0 P q hR
  have h_dZ_D2 := dZ_D2_at0 P q
  have key := ((((hc ((-P.Lam) * P.M)).mul ((((((hc (2 * P.a ^ 2)).mul h_R).mul h_Z).mul h_dZ_D2).sub (((hc (3 * P.a ^ 2)).mul (h_Z.pow 2)).mul h_dR_D2)).add ((h_R.pow
    4).mul h_dR_D2))).mul (h_R.pow 2)).div ((((hc (P.a ^ 4)).mul (h_Z.pow 4)).add (((hc (2 * P.a ^ 2)).mul (h_R.pow 4)).mul (h_Z.pow 2))).add (h_R.pow 8)) (by ks_ne))
  refine key.congr_deriv ?_
  simp only [Pi.add_apply, Pi.sub_apply, Pi.neg_apply, Pi.mul_apply, Pi.pow_apply, Pi.div_apply, line_at]
  unfold ddH_D0D2
  try simp only [Nat.cast_ofNat, Nat.reduceSub, pow_one]
  field_simp
  ring


set_option maxHeartbeats 4000000 in
theorem dH_D2_at1 (P : Par) (q : Pt) (hR : 0 < R P q) : HasDerivAt (line (dH_D2 P) 1 q) (ddH_D1D2 P q) (q 1) := by
  have hc : ∀ c : ℝ, HasDerivAt (fun _ => c) 0 (q 1) := fun c => hasDerivAt_const _ c
  have h_R := R_at1 P q hR
  have h_Z := Z_at1 P q
  have h_dR_D2 := dR_D2_at1 P q hR
  have h_dZ_D2 := dZ_D2_at1 P q
  have key := ((((hc ((-P.Lam) * P.M)).mul ((((((hc (2 * P.a ^ 2)).mul h_R).mul h_Z).mul h_dZ_D2).sub (((hc (3 * P.a ^ 2)).mul (h_Z.pow 2)).mul h_dR_D2)).add ((h_R.pow
    4).mul h_dR_D2))).mul (h_R.pow 2)).div ((((hc (P.a ^ 4)).mul (h_Z.pow 4)).add (((hc (2 * P.a ^ 2)).mul (h_R.pow 4)).mul (h_Z.pow 2))).add (h_R.pow 8)) (by ks_ne))
  refine key.congr_deriv ?_
  simp only [Pi.add_apply, Pi.sub_apply, Pi.neg_apply, Pi.mul_apply, Pi.pow_apply, Pi.div_apply, line_at]
  unfold ddH_D1D2
  try simp only [Nat.cast_ofNat, Nat.reduceSub, pow_one]
  field_simp
  ring


set_option maxHeartbeats 4000000 in
theorem dH_D2_at2 (P : Par) (q : Pt) (hR : 0 < R P q) : HasDerivAt (line (dH_D2 P) 2 q) (ddH_D2D2 P q) (q 2) := by
  have hc : ∀ c : ℝ, HasDerivAt (fun _ => c) 0 (q 2) := fun c => hasDerivAt_const _ c
  have h_R := R_at2 P q hR
  have h_Z := Z_at2 P q
  have h_dR_D2 := dR_D2_at2 P q hR
  have h_dZ_D2 := dZ_D2_at2 P q
  have key := ((((hc ((-P.Lam) * P.M)).mul ((((((hc (2 * P.a ^ 2)).mul h_R).mul h_Z).mul h_dZ_D2).sub (((hc (3 * P.a ^ 2)).mul (h_Z.pow 2)).mul h_dR_D2)).add ((h_R.pow
    4).mul h_dR_D2))).mul (h_R.pow 2)).div ((((hc (P.a ^ 4)).mul (h_Z.pow 4)).add (((hc (2 * P.a ^ 2)).mul (h_R.pow 4)).mul (h_Z.pow 2))).add (h_R.pow 8)) (by ks_ne))
  refine key.congr_deriv ?_
  simp only [Pi.add_apply, Pi.sub_apply, Pi.neg_apply, Pi.mul_apply, Pi.pow_apply, Pi.div_apply, line_at]
  unfold ddH_D2D2
  try simp only [Nat.cast_ofNat, Nat.reduceSub, pow_one]
  field_simp
  ring


end Elliptica.Ks
