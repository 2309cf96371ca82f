import Verif.Lemmas.Gen.KsAll
/-!
Generated by tools/gen_ks.py: each listed derivative is the derivative of the function it belongs to.
-/
namespace Elliptica.Ks
open Elliptica.Fields

set_option linter.unusedVariables false
set_option linter.unusedSimpArgs false
set_option linter.unusedTactic false
set_option linter.unreachableTactic false

/-- the terms missing in the mixed third derivatives of H -/
noncomputable def Hlost (P : Par) (q : Pt) : ℝ :=
  119 * P.Lam * P.M * P.a ^ 4 * (R P q) ^ 5 * (Z P q) ^ 3 * (dR_D0 P q * dR_D1 P q * dZ_D2 P q + dR_D0 P q * dR_D2 P q * dZ_D1 P q + dR_D1 P q * dR_D2 P q * dZ_D0 P q) / (P.a ^ 2 * (Z P q) ^ 2 + (R P q) ^ 4) ^ 4

set_option maxRecDepth 100000 in
set_option maxHeartbeats 4000000 in
theorem ddH_D0D1_at2 (P : Par) (q : Pt) (hR : 0 < R P q) : HasDerivAt (line (ddH_D0D1 P) 2 q) (dddH_D0D1D2 P q + Hlost P q) (q 2) := by
  have hc : ∀ c : ℝ, HasDerivAt (fun _ => c) 0 (q 2) := fun c => hasDerivAt_const _ c
  have h_R := R_at2 P q hR
  have h_Z := Z_at2 P q
  have h_dR_D0 := dR_D0_at2 P q hR
  have h_dR_D1 := dR_D1_at2 P q hR
  have h_dZ_D0 := dZ_D0_at2 P q
  have h_dZ_D1 := dZ_D1_at2 P q
  have h_ddR_D0D1 := ddR_D0D1_at2 P q hR
  have h_ddZ_D0D1 := ddZ_D0D1_at2 P q
  have key := ((((hc (P.Lam * P.M)).mul (((((((((((((((((hc ((-2) * P.a ^ 4)).mul (h_R.pow 2)).mul (h_Z.pow 3)).mul h_ddZ_D0D1).add (((((hc (6 * P.a ^ 4)).mul (h_R.pow
    2)).mul (h_Z.pow 2)).mul h_dZ_D0).mul h_dZ_D1)).add ((((hc (3 * P.a ^ 4)).mul h_R).mul (h_Z.pow 4)).mul h_ddR_D0D1)).sub (((((hc (6 * P.a ^ 4)).mul h_R).mul (h_Z.pow
    3)).mul h_dR_D0).mul h_dZ_D1)).sub (((((hc (6 * P.a ^ 4)).mul h_R).mul (h_Z.pow 3)).mul h_dR_D1).mul h_dZ_D0)).add ((((hc (6 * P.a ^ 4)).mul (h_Z.pow 4)).mul
    h_dR_D0).mul h_dR_D1)).sub ((((hc (2 * P.a ^ 2)).mul (h_R.pow 6)).mul h_Z).mul h_ddZ_D0D1)).sub ((((hc (2 * P.a ^ 2)).mul (h_R.pow 6)).mul h_dZ_D0).mul h_dZ_D1)).add
    ((((hc (2 * P.a ^ 2)).mul (h_R.pow 5)).mul (h_Z.pow 2)).mul h_ddR_D0D1)).add (((((hc (10 * P.a ^ 2)).mul (h_R.pow 5)).mul h_Z).mul h_dR_D0).mul h_dZ_D1)).add (((((hc
    (10 * P.a ^ 2)).mul (h_R.pow 5)).mul h_Z).mul h_dR_D1).mul h_dZ_D0)).sub (((((hc (24 * P.a ^ 2)).mul (h_R.pow 4)).mul (h_Z.pow 2)).mul h_dR_D0).mul h_dR_D1)).sub
    ((h_R.pow 9).mul h_ddR_D0D1)).add ((((hc (2)).mul (h_R.pow 8)).mul h_dR_D0).mul h_dR_D1))).mul h_R).div (((((hc (P.a ^ 6)).mul (h_Z.pow 6)).add (((hc (3 * P.a ^
    4)).mul (h_R.pow 4)).mul (h_Z.pow 4))).add (((hc (3 * P.a ^ 2)).mul (h_R.pow 8)).mul (h_Z.pow 2))).add (h_R.pow 12)) (by ks_ne))
  refine key.congr_deriv ?_
  simp only [Pi.add_apply, Pi.sub_apply, Pi.neg_apply, Pi.mul_apply, Pi.pow_apply, Pi.div_apply, line_at]
  unfold dddH_D0D1D2
  unfold Hlost
  rw [show P.a ^ 8 * (Z P q) ^ 8 + 4 * P.a ^ 6 * (R P q) ^ 4 * (Z P q) ^ 6 + 6 * P.a ^ 4 * (R P q) ^ 8 * (Z P q) ^ 4 + 4 * P.a ^ 2 * (R P q) ^ 12 * (Z P q) ^ 2 + (R P q) ^ 16 = (P.a ^ 2 * (Z P q) ^ 2 + (R P q) ^ 4) ^ 4 by ring]
  try simp only [Nat.cast_ofNat, Nat.reduceSub, pow_one]
  try simp only [dddR_D0D1D0_sym, dddR_D0D2D0_sym, dddR_D1D1D0_sym, dddR_D1D2D1_sym, dddR_D2D2D0_sym, dddR_D2D2D1_sym, dddR_D0D2D1_sym, dddR_D1D2D0_sym, dddX_D0D1D0_sym, dddX_D0D2D0_sym, dddX_D1D1D0_sym, dddX_D1D2D1_sym, dddX_D2D2D0_sym, dddX_D2D2D1_sym, dddX_D0D2D1_sym, dddX_D1D2D0_sym, dddY_D0D1D0_sym, dddY_D0D2D0_sym, dddY_D1D1D0_sym, dddY_D1D2D1_sym, dddY_D2D2D0_sym, dddY_D2D2D1_sym, dddY_D0D2D1_sym, dddY_D1D2D0_sym, dddZ_D0D1D0_sym, dddZ_D0D2D0_sym, dddZ_D1D1D0_sym, dddZ_D1D2D1_sym, dddZ_D2D2D0_sym, dddZ_D2D2D1_sym, dddZ_D0D2D1_sym, dddZ_D1D2D0_sym]
  field_simp
  ring


set_option maxRecDepth 100000 in
set_option maxHeartbeats 4000000 in
theorem ddH_D0D2_at1 (P : Par) (q : Pt) (hR : 0 < R P q) : HasDerivAt (line (ddH_D0D2 P) 1 q) (dddH_D0D2D1 P q + Hlost P q) (q 1) := by
  have hc : ∀ c : ℝ, HasDerivAt (fun _ => c) 0 (q 1) := fun c => hasDerivAt_const _ c
  have h_R := R_at1 P q hR
  have h_Z := Z_at1 P q
  have h_dR_D0 := dR_D0_at1 P q hR
  have h_dR_D2 := dR_D2_at1 P q hR
  have h_dZ_D0 := dZ_D0_at1 P q
  have h_dZ_D2 := dZ_D2_at1 P q
  have h_ddR_D0D2 := ddR_D0D2_at1 P q hR
  have h_ddZ_D0D2 := ddZ_D0D2_at1 P q
  have key := ((((hc (P.Lam * P.M)).mul (((((((((((((((((hc ((-2) * P.a ^ 4)).mul (h_R.pow 2)).mul (h_Z.pow 3)).mul h_ddZ_D0D2).add (((((hc (6 * P.a ^ 4)).mul (h_R.pow
    2)).mul (h_Z.pow 2)).mul h_dZ_D0).mul h_dZ_D2)).add ((((hc (3 * P.a ^ 4)).mul h_R).mul (h_Z.pow 4)).mul h_ddR_D0D2)).sub (((((hc (6 * P.a ^ 4)).mul h_R).mul (h_Z.pow
    3)).mul h_dR_D0).mul h_dZ_D2)).sub (((((hc (6 * P.a ^ 4)).mul h_R).mul (h_Z.pow 3)).mul h_dR_D2).mul h_dZ_D0)).add ((((hc (6 * P.a ^ 4)).mul (h_Z.pow 4)).mul
    h_dR_D0).mul h_dR_D2)).sub ((((hc (2 * P.a ^ 2)).mul (h_R.pow 6)).mul h_Z).mul h_ddZ_D0D2)).sub ((((hc (2 * P.a ^ 2)).mul (h_R.pow 6)).mul h_dZ_D0).mul h_dZ_D2)).add
    ((((hc (2 * P.a ^ 2)).mul (h_R.pow 5)).mul (h_Z.pow 2)).mul h_ddR_D0D2)).add (((((hc (10 * P.a ^ 2)).mul (h_R.pow 5)).mul h_Z).mul h_dR_D0).mul h_dZ_D2)).add (((((hc
    (10 * P.a ^ 2)).mul (h_R.pow 5)).mul h_Z).mul h_dR_D2).mul h_dZ_D0)).sub (((((hc (24 * P.a ^ 2)).mul (h_R.pow 4)).mul (h_Z.pow 2)).mul h_dR_D0).mul h_dR_D2)).sub
    ((h_R.pow 9).mul h_ddR_D0D2)).add ((((hc (2)).mul (h_R.pow 8)).mul h_dR_D0).mul h_dR_D2))).mul h_R).div (((((hc (P.a ^ 6)).mul (h_Z.pow 6)).add (((hc (3 * P.a ^
    4)).mul (h_R.pow 4)).mul (h_Z.pow 4))).add (((hc (3 * P.a ^ 2)).mul (h_R.pow 8)).mul (h_Z.pow 2))).add (h_R.pow 12)) (by ks_ne))
  refine key.congr_deriv ?_
  simp only [Pi.add_apply, Pi.sub_apply, Pi.neg_apply, Pi.mul_apply, Pi.pow_apply, Pi.div_apply, line_at]
  unfold dddH_D0D2D1
  unfold Hlost
  rw [show P.a ^ 8 * (Z P q) ^ 8 + 4 * P.a ^ 6 * (R P q) ^ 4 * (Z P q) ^ 6 + 6 * P.a ^ 4 * (R P q) ^ 8 * (Z P q) ^ 4 + 4 * P.a ^ 2 * (R P q) ^ 12 * (Z P q) ^ 2 + (R P q) ^ 16 = (P.a ^ 2 * (Z P q) ^ 2 + (R P q) ^ 4) ^ 4 by ring]
  try simp only [Nat.cast_ofNat, Nat.reduceSub, pow_one]
  try simp only [dddR_D0D1D0_sym, dddR_D0D2D0_sym, dddR_D1D1D0_sym, dddR_D1D2D1_sym, dddR_D2D2D0_sym, dddR_D2D2D1_sym, dddR_D0D2D1_sym, dddR_D1D2D0_sym, dddX_D0D1D0_sym, dddX_D0D2D0_sym, dddX_D1D1D0_sym, dddX_D1D2D1_sym, dddX_D2D2D0_sym, dddX_D2D2D1_sym, dddX_D0D2D1_sym, dddX_D1D2D0_sym, dddY_D0D1D0_sym, dddY_D0D2D0_sym, dddY_D1D1D0_sym, dddY_D1D2D1_sym, dddY_D2D2D0_sym, dddY_D2D2D1_sym, dddY_D0D2D1_sym, dddY_D1D2D0_sym, dddZ_D0D1D0_sym, dddZ_D0D2D0_sym, dddZ_D1D1D0_sym, dddZ_D1D2D1_sym, dddZ_D2D2D0_sym, dddZ_D2D2D1_sym, dddZ_D0D2D1_sym, dddZ_D1D2D0_sym]
  field_simp
  ring


set_option maxRecDepth 100000 in
set_option maxHeartbeats 4000000 in
theorem ddH_D1D2_at0 (P : Par) (q : Pt) (hR : 0 < R P q) : HasDerivAt (line (ddH_D1D2 P) 0 q) (dddH_D1D2D0 P q + Hlost P q) (q 0) := by
  have hc : ∀ c : ℝ, HasDerivAt (fun _ => c) 0 (q 0) := fun c => hasDerivAt_const _ c
  have h_R := R_at0 P q hR
  have h_Z := Z_at0 P q
  have h_dR_D1 := dR_D1_at0 P q hR
  have h_dR_D2 := dR_D2_at0 P q hR
  have h_dZ_D1 := dZ_D1_at0 P q
  have h_dZ_D2 := dZ_D2_at0 P q
  have h_ddR_D1D2 := ddR_D1D2_at0 P q hR
  have h_ddZ_D1D2 := ddZ_D1D2_at0 P q
  have key := ((((hc (P.Lam * P.M)).mul (((((((((((((((((hc ((-2) * P.a ^ 4)).mul (h_R.pow 2)).mul (h_Z.pow 3)).mul h_ddZ_D1D2).add (((((hc (6 * P.a ^ 4)).mul (h_R.pow
    2)).mul (h_Z.pow 2)).mul h_dZ_D1).mul h_dZ_D2)).add ((((hc (3 * P.a ^ 4)).mul h_R).mul (h_Z.pow 4)).mul h_ddR_D1D2)).sub (((((hc (6 * P.a ^ 4)).mul h_R).mul (h_Z.pow
    3)).mul h_dR_D1).mul h_dZ_D2)).sub (((((hc (6 * P.a ^ 4)).mul h_R).mul (h_Z.pow 3)).mul h_dR_D2).mul h_dZ_D1)).add ((((hc (6 * P.a ^ 4)).mul (h_Z.pow 4)).mul
    h_dR_D1).mul h_dR_D2)).sub ((((hc (2 * P.a ^ 2)).mul (h_R.pow 6)).mul h_Z).mul h_ddZ_D1D2)).sub ((((hc (2 * P.a ^ 2)).mul (h_R.pow 6)).mul h_dZ_D1).mul h_dZ_D2)).add
    ((((hc (2 * P.a ^ 2)).mul (h_R.pow 5)).mul (h_Z.pow 2)).mul h_ddR_D1D2)).add (((((hc (10 * P.a ^ 2)).mul (h_R.pow 5)).mul h_Z).mul h_dR_D1).mul h_dZ_D2)).add (((((hc
    (10 * P.a ^ 2)).mul (h_R.pow 5)).mul h_Z).mul h_dR_D2).mul h_dZ_D1)).sub (((((hc (24 * P.a ^ 2)).mul (h_R.pow 4)).mul (h_Z.pow 2)).mul h_dR_D1).mul h_dR_D2)).sub
    ((h_R.pow 9).mul h_ddR_D1D2)).add ((((hc (2)).mul (h_R.pow 8)).mul h_dR_D1).mul h_dR_D2))).mul h_R).div (((((hc (P.a ^ 6)).mul (h_Z.pow 6)).add (((hc (3 * P.a ^
    4)).mul (h_R.pow 4)).mul (h_Z.pow 4))).add (((hc (3 * P.a ^ 2)).mul (h_R.pow 8)).mul (h_Z.pow 2))).add (h_R.pow 12)) (by ks_ne))
  refine key.congr_deriv ?_
  simp only [Pi.add_apply, Pi.sub_apply, Pi.neg_apply, Pi.mul_apply, Pi.pow_apply, Pi.div_apply, line_at]
  unfold dddH_D1D2D0
  unfold Hlost
  rw [show P.a ^ 8 * (Z P q) ^ 8 + 4 * P.a ^ 6 * (R P q) ^ 4 * (Z P q) ^ 6 + 6 * P.a ^ 4 * (R P q) ^ 8 * (Z P q) ^ 4 + 4 * P.a ^ 2 * (R P q) ^ 12 * (Z P q) ^ 2 + (R P q) ^ 16 = (P.a ^ 2 * (Z P q) ^ 2 + (R P q) ^ 4) ^ 4 by ring]
  try simp only [Nat.cast_ofNat, Nat.reduceSub, pow_one]
  try simp only [dddR_D0D1D0_sym, dddR_D0D2D0_sym, dddR_D1D1D0_sym, dddR_D1D2D1_sym, dddR_D2D2D0_sym, dddR_D2D2D1_sym, dddR_D0D2D1_sym, dddR_D1D2D0_sym, dddX_D0D1D0_sym, dddX_D0D2D0_sym, dddX_D1D1D0_sym, dddX_D1D2D1_sym, dddX_D2D2D0_sym, dddX_D2D2D1_sym, dddX_D0D2D1_sym, dddX_D1D2D0_sym, dddY_D0D1D0_sym, dddY_D0D2D0_sym, dddY_D1D1D0_sym, dddY_D1D2D1_sym, dddY_D2D2D0_sym, dddY_D2D2D1_sym, dddY_D0D2D1_sym, dddY_D1D2D0_sym, dddZ_D0D1D0_sym, dddZ_D0D2D0_sym, dddZ_D1D1D0_sym, dddZ_D1D2D1_sym, dddZ_D2D2D0_sym, dddZ_D2D2D1_sym, dddZ_D0D2D1_sym, dddZ_D1D2D0_sym]
  field_simp
  ring


theorem ddc_D0D1_at2 (P : Par) (q : Pt) (hR : 0 < R P q) : HasDerivAt (line (ddc_D0D1 P) 2 q) (dddc_D0D1D2 P q + 2 * Hlost P q) (q 2) := by
  have hc : ∀ c : ℝ, HasDerivAt (fun _ => c) 0 (q 2) := fun c => hasDerivAt_const _ c
  have h_ddH_D0D1 := ddH_D0D1_at2 P q hR
  have key := ((hc (2)).mul h_ddH_D0D1)
  refine key.congr_deriv ?_
  simp only [Pi.add_apply, Pi.sub_apply, Pi.neg_apply, Pi.mul_apply, Pi.pow_apply, Pi.div_apply, line_at]
  unfold dddc_D0D1D2
  try simp only [Nat.cast_ofNat, Nat.reduceSub, pow_one]
  try simp only [dddK0_D0D1D0_sym, dddK0_D0D2D0_sym, dddK0_D1D1D0_sym, dddK0_D1D2D1_sym, dddK0_D2D2D0_sym, dddK0_D2D2D1_sym, dddK0_D0D2D1_sym, dddK0_D1D2D0_sym, dddK1_D0D1D0_sym, dddK1_D0D2D0_sym, dddK1_D1D1D0_sym, dddK1_D1D2D1_sym, dddK1_D2D2D0_sym, dddK1_D2D2D1_sym, dddK1_D0D2D1_sym, dddK1_D1D2D0_sym, dddK2_D0D1D0_sym, dddK2_D0D2D0_sym, dddK2_D1D1D0_sym, dddK2_D1D2D1_sym, dddK2_D2D2D0_sym, dddK2_D2D2D1_sym, dddK2_D0D2D1_sym, dddK2_D1D2D0_sym, dddH_D0D1D0_sym, dddH_D0D2D0_sym, dddH_D1D1D0_sym, dddH_D1D2D1_sym, dddH_D2D2D0_sym, dddH_D2D2D1_sym, dddH_D0D2D1_sym, dddH_D1D2D0_sym]
  ring


theorem ddc_D0D2_at1 (P : Par) (q : Pt) (hR : 0 < R P q) : HasDerivAt (line (ddc_D0D2 P) 1 q) (dddc_D0D2D1 P q + 2 * Hlost P q) (q 1) := by
  have hc : ∀ c : ℝ, HasDerivAt (fun _ => c) 0 (q 1) := fun c => hasDerivAt_const _ c
  have h_ddH_D0D2 := ddH_D0D2_at1 P q hR
  have key := ((hc (2)).mul h_ddH_D0D2)
  refine key.congr_deriv ?_
  simp only [Pi.add_apply, Pi.sub_apply, Pi.neg_apply, Pi.mul_apply, Pi.pow_apply, Pi.div_apply, line_at]
  unfold dddc_D0D2D1
  try simp only [Nat.cast_ofNat, Nat.reduceSub, pow_one]
  try simp only [dddK0_D0D1D0_sym, dddK0_D0D2D0_sym, dddK0_D1D1D0_sym, dddK0_D1D2D1_sym, dddK0_D2D2D0_sym, dddK0_D2D2D1_sym, dddK0_D0D2D1_sym, dddK0_D1D2D0_sym, dddK1_D0D1D0_sym, dddK1_D0D2D0_sym, dddK1_D1D1D0_sym, dddK1_D1D2D1_sym, dddK1_D2D2D0_sym, dddK1_D2D2D1_sym, dddK1_D0D2D1_sym, dddK1_D1D2D0_sym, dddK2_D0D1D0_sym, dddK2_D0D2D0_sym, dddK2_D1D1D0_sym, dddK2_D1D2D1_sym, dddK2_D2D2D0_sym, dddK2_D2D2D1_sym, dddK2_D0D2D1_sym, dddK2_D1D2D0_sym, dddH_D0D1D0_sym, dddH_D0D2D0_sym, dddH_D1D1D0_sym, dddH_D1D2D1_sym, dddH_D2D2D0_sym, dddH_D2D2D1_sym, dddH_D0D2D1_sym, dddH_D1D2D0_sym]
  ring


theorem ddc_D1D2_at0 (P : Par) (q : Pt) (hR : 0 < R P q) : HasDerivAt (line (ddc_D1D2 P) 0 q) (dddc_D1D2D0 P q + 2 * Hlost P q) (q 0) := by
  have hc : ∀ c : ℝ, HasDerivAt (fun _ => c) 0 (q 0) := fun c => hasDerivAt_const _ c
  have h_ddH_D1D2 := ddH_D1D2_at0 P q hR
  have key := ((hc (2)).mul h_ddH_D1D2)
  refine key.congr_deriv ?_
  simp only [Pi.add_apply, Pi.sub_apply, Pi.neg_apply, Pi.mul_apply, Pi.pow_apply, Pi.div_apply, line_at]
  unfold dddc_D1D2D0
  try simp only [Nat.cast_ofNat, Nat.reduceSub, pow_one]
  try simp only [dddK0_D0D1D0_sym, dddK0_D0D2D0_sym, dddK0_D1D1D0_sym, dddK0_D1D2D1_sym, dddK0_D2D2D0_sym, dddK0_D2D2D1_sym, dddK0_D0D2D1_sym, dddK0_D1D2D0_sym, dddK1_D0D1D0_sym, dddK1_D0D2D0_sym, dddK1_D1D1D0_sym, dddK1_D1D2D1_sym, dddK1_D2D2D0_sym, dddK1_D2D2D1_sym, dddK1_D0D2D1_sym, dddK1_D1D2D0_sym, dddK2_D0D1D0_sym, dddK2_D0D2D0_sym, dddK2_D1D1D0_sym, dddK2_D1D2D1_sym, dddK2_D2D2D0_sym, dddK2_D2D2D1_sym, dddK2_D0D2D1_sym, dddK2_D1D2D0_sym, dddH_D0D1D0_sym, dddH_D0D2D0_sym, dddH_D1D1D0_sym, dddH_D1D2D1_sym, dddH_D2D2D0_sym, dddH_D2D2D1_sym, dddH_D0D2D1_sym, dddH_D1D2D0_sym]
  ring


theorem ddgamma_D0D0D0D1_at2 (P : Par) (q : Pt) (hR : 0 < R P q) : HasDerivAt (line (ddgamma_D0D0D0D1 P) 2 q) (dddgamma_D0D0D0D1D2 P q + 2 * Hlost P q * k0 P q * k0 P q) (q 2) := by
  have hc : ∀ c : ℝ, HasDerivAt (fun _ => c) 0 (q 2) := fun c => hasDerivAt_const _ c
  have h_c := c_at2 P q hR
  have h_dc_D0 := dc_D0_at2 P q hR
  have h_dc_D1 := dc_D1_at2 P q hR
  have h_ddc_D0D1 := ddc_D0D1_at2 P q hR
  have h_ddk0_D0D1 := ddk0_D0D1_at2 P q hR
  have h_dk0_D0 := dk0_D0_at2 P q hR
  have h_dk0_D1 := dk0_D1_at2 P q hR
  have h_k0 := k0_at2 P q hR
  have key := ((((((((hc (2)).mul h_c).mul h_k0).mul h_ddk0_D0D1).add ((((hc (2)).mul h_c).mul h_dk0_D0).mul h_dk0_D1)).add ((h_k0.pow 2).mul h_ddc_D0D1)).add ((((hc
    (2)).mul h_k0).mul h_dc_D0).mul h_dk0_D1)).add ((((hc (2)).mul h_k0).mul h_dc_D1).mul h_dk0_D0))
  refine key.congr_deriv ?_
  simp only [Pi.add_apply, Pi.sub_apply, Pi.neg_apply, Pi.mul_apply, Pi.pow_apply, Pi.div_apply, line_at]
  unfold dddgamma_D0D0D0D1D2
  try simp only [Nat.cast_ofNat, Nat.reduceSub, pow_one]
  try simp only [dddk0_D0D1D0_sym, dddk0_D0D2D0_sym, dddk0_D1D1D0_sym, dddk0_D1D2D1_sym, dddk0_D2D2D0_sym, dddk0_D2D2D1_sym, dddk0_D0D2D1_sym, dddk0_D1D2D0_sym, dddk1_D0D1D0_sym, dddk1_D0D2D0_sym, dddk1_D1D1D0_sym, dddk1_D1D2D1_sym, dddk1_D2D2D0_sym, dddk1_D2D2D1_sym, dddk1_D0D2D1_sym, dddk1_D1D2D0_sym, dddk2_D0D1D0_sym, dddk2_D0D2D0_sym, dddk2_D1D1D0_sym, dddk2_D1D2D1_sym, dddk2_D2D2D0_sym, dddk2_D2D2D1_sym, dddk2_D0D2D1_sym, dddk2_D1D2D0_sym, dddc_D0D1D0_sym, dddc_D0D2D0_sym, dddc_D1D1D0_sym, dddc_D1D2D1_sym, dddc_D2D2D0_sym, dddc_D2D2D1_sym, dddc_D0D2D1_sym, dddc_D1D2D0_sym]
  ring


theorem ddgamma_D0D0D0D2_at1 (P : Par) (q : Pt) (hR : 0 < R P q) : HasDerivAt (line (ddgamma_D0D0D0D2 P) 1 q) (dddgamma_D0D0D0D2D1 P q + 2 * Hlost P q * k0 P q * k0 P q) (q 1) := by
  have hc : ∀ c : ℝ, HasDerivAt (fun _ => c) 0 (q 1) := fun c => hasDerivAt_const _ c
  have h_c := c_at1 P q hR
  have h_dc_D0 := dc_D0_at1 P q hR
  have h_dc_D2 := dc_D2_at1 P q hR
  have h_ddc_D0D2 := ddc_D0D2_at1 P q hR
  have h_ddk0_D0D2 := ddk0_D0D2_at1 P q hR
  have h_dk0_D0 := dk0_D0_at1 P q hR
  have h_dk0_D2 := dk0_D2_at1 P q hR
  have h_k0 := k0_at1 P q hR
  have key := ((((((((hc (2)).mul h_c).mul h_k0).mul h_ddk0_D0D2).add ((((hc (2)).mul h_c).mul h_dk0_D0).mul h_dk0_D2)).add ((h_k0.pow 2).mul h_ddc_D0D2)).add ((((hc
    (2)).mul h_k0).mul h_dc_D0).mul h_dk0_D2)).add ((((hc (2)).mul h_k0).mul h_dc_D2).mul h_dk0_D0))
  refine key.congr_deriv ?_
  simp only [Pi.add_apply, Pi.sub_apply, Pi.neg_apply, Pi.mul_apply, Pi.pow_apply, Pi.div_apply, line_at]
  unfold dddgamma_D0D0D0D2D1
  try simp only [Nat.cast_ofNat, Nat.reduceSub, pow_one]
  try simp only [dddk0_D0D1D0_sym, dddk0_D0D2D0_sym, dddk0_D1D1D0_sym, dddk0_D1D2D1_sym, dddk0_D2D2D0_sym, dddk0_D2D2D1_sym, dddk0_D0D2D1_sym, dddk0_D1D2D0_sym, dddk1_D0D1D0_sym, dddk1_D0D2D0_sym, dddk1_D1D1D0_sym, dddk1_D1D2D1_sym, dddk1_D2D2D0_sym, dddk1_D2D2D1_sym, dddk1_D0D2D1_sym, dddk1_D1D2D0_sym, dddk2_D0D1D0_sym, dddk2_D0D2D0_sym, dddk2_D1D1D0_sym, dddk2_D1D2D1_sym, dddk2_D2D2D0_sym, dddk2_D2D2D1_sym, dddk2_D0D2D1_sym, dddk2_D1D2D0_sym, dddc_D0D1D0_sym, dddc_D0D2D0_sym, dddc_D1D1D0_sym, dddc_D1D2D1_sym, dddc_D2D2D0_sym, dddc_D2D2D1_sym, dddc_D0D2D1_sym, dddc_D1D2D0_sym]
  ring


theorem ddgamma_D0D0D1D0_at2 (P : Par) (q : Pt) (hR : 0 < R P q) : HasDerivAt (line (ddgamma_D0D0D1D0 P) 2 q) (dddgamma_D0D0D1D0D2 P q + 2 * Hlost P q * k0 P q * k0 P q) (q 2) := by
  have hc : ∀ c : ℝ, HasDerivAt (fun _ => c) 0 (q 2) := fun c => hasDerivAt_const _ c
  have h_c := c_at2 P q hR
  have h_dc_D0 := dc_D0_at2 P q hR
  have h_dc_D1 := dc_D1_at2 P q hR
  have h_ddc_D0D1 := ddc_D0D1_at2 P q hR
  have h_ddk0_D0D1 := ddk0_D0D1_at2 P q hR
  have h_dk0_D0 := dk0_D0_at2 P q hR
  have h_dk0_D1 := dk0_D1_at2 P q hR
  have h_k0 := k0_at2 P q hR
  have key := ((((((((hc (2)).mul h_c).mul h_k0).mul h_ddk0_D0D1).add ((((hc (2)).mul h_c).mul h_dk0_D0).mul h_dk0_D1)).add ((h_k0.pow 2).mul h_ddc_D0D1)).add ((((hc
    (2)).mul h_k0).mul h_dc_D0).mul h_dk0_D1)).add ((((hc (2)).mul h_k0).mul h_dc_D1).mul h_dk0_D0))
  refine key.congr_deriv ?_
  simp only [Pi.add_apply, Pi.sub_apply, Pi.neg_apply, Pi.mul_apply, Pi.pow_apply, Pi.div_apply, line_at]
  unfold dddgamma_D0D0D1D0D2
  try simp only [Nat.cast_ofNat, Nat.reduceSub, pow_one]
  try simp only [dddk0_D0D1D0_sym, dddk0_D0D2D0_sym, dddk0_D1D1D0_sym, dddk0_D1D2D1_sym, dddk0_D2D2D0_sym, dddk0_D2D2D1_sym, dddk0_D0D2D1_sym, dddk0_D1D2D0_sym, dddk1_D0D1D0_sym, dddk1_D0D2D0_sym, dddk1_D1D1D0_sym, dddk1_D1D2D1_sym, dddk1_D2D2D0_sym, dddk1_D2D2D1_sym, dddk1_D0D2D1_sym, dddk1_D1D2D0_sym, dddk2_D0D1D0_sym, dddk2_D0D2D0_sym, dddk2_D1D1D0_sym, dddk2_D1D2D1_sym, dddk2_D2D2D0_sym, dddk2_D2D2D1_sym, dddk2_D0D2D1_sym, dddk2_D1D2D0_sym, dddc_D0D1D0_sym, dddc_D0D2D0_sym, dddc_D1D1D0_sym, dddc_D1D2D1_sym, dddc_D2D2D0_sym, dddc_D2D2D1_sym, dddc_D0D2D1_sym, dddc_D1D2D0_sym]
  ring


theorem ddgamma_D0D0D1D2_at0 (P : Par) (q : Pt) (hR : 0 < R P q) : HasDerivAt (line (ddgamma_D0D0D1D2 P) 0 q) (dddgamma_D0D0D1D2D0 P q + 2 * Hlost P q * k0 P q * k0 P q) (q 0) := by
  have hc : ∀ c : ℝ, HasDerivAt (fun _ => c) 0 (q 0) := fun c => hasDerivAt_const _ c
  have h_c := c_at0 P q hR
  have h_dc_D1 := dc_D1_at0 P q hR
  have h_dc_D2 := dc_D2_at0 P q hR
  have h_ddc_D1D2 := ddc_D1D2_at0 P q hR
  have h_ddk0_D1D2 := ddk0_D1D2_at0 P q hR
  have h_dk0_D1 := dk0_D1_at0 P q hR
  have h_dk0_D2 := dk0_D2_at0 P q hR
  have h_k0 := k0_at0 P q hR
  have key := ((((((((hc (2)).mul h_c).mul h_k0).mul h_ddk0_D1D2).add ((((hc (2)).mul h_c).mul h_dk0_D1).mul h_dk0_D2)).add ((h_k0.pow 2).mul h_ddc_D1D2)).add ((((hc
    (2)).mul h_k0).mul h_dc_D1).mul h_dk0_D2)).add ((((hc (2)).mul h_k0).mul h_dc_D2).mul h_dk0_D1))
  refine key.congr_deriv ?_
  simp only [Pi.add_apply, Pi.sub_apply, Pi.neg_apply, Pi.mul_apply, Pi.pow_apply, Pi.div_apply, line_at]
  unfold dddgamma_D0D0D1D2D0
  try simp only [Nat.cast_ofNat, Nat.reduceSub, pow_one]
  try simp only [dddk0_D0D1D0_sym, dddk0_D0D2D0_sym, dddk0_D1D1D0_sym, dddk0_D1D2D1_sym, dddk0_D2D2D0_sym, dddk0_D2D2D1_sym, dddk0_D0D2D1_sym, dddk0_D1D2D0_sym, dddk1_D0D1D0_sym, dddk1_D0D2D0_sym, dddk1_D1D1D0_sym, dddk1_D1D2D1_sym, dddk1_D2D2D0_sym, dddk1_D2D2D1_sym, dddk1_D0D2D1_sym, dddk1_D1D2D0_sym, dddk2_D0D1D0_sym, dddk2_D0D2D0_sym, dddk2_D1D1D0_sym, dddk2_D1D2D1_sym, dddk2_D2D2D0_sym, dddk2_D2D2D1_sym, dddk2_D0D2D1_sym, dddk2_D1D2D0_sym, dddc_D0D1D0_sym, dddc_D0D2D0_sym, dddc_D1D1D0_sym, dddc_D1D2D1_sym, dddc_D2D2D0_sym, dddc_D2D2D1_sym, dddc_D0D2D1_sym, dddc_D1D2D0_sym]
  ring


theorem ddgamma_D0D0D2D0_at1 (P : Par) (q : Pt) (hR : 0 < R P q) : HasDerivAt (line (ddgamma_D0D0D2D0 P) 1 q) (dddgamma_D0D0D2D0D1 P q + 2 * Hlost P q * k0 P q * k0 P q) (q 1) := by
  have hc : ∀ c : ℝ, HasDerivAt (fun _ => c) 0 (q 1) := fun c => hasDerivAt_const _ c
  have h_c := c_at1 P q hR
  have h_dc_D0 := dc_D0_at1 P q hR
  have h_dc_D2 := dc_D2_at1 P q hR
  have h_ddc_D0D2 := ddc_D0D2_at1 P q hR
  have h_ddk0_D0D2 := ddk0_D0D2_at1 P q hR
  have h_dk0_D0 := dk0_D0_at1 P q hR
  have h_dk0_D2 := dk0_D2_at1 P q hR
  have h_k0 := k0_at1 P q hR
  have key := ((((((((hc (2)).mul h_c).mul h_k0).mul h_ddk0_D0D2).add ((((hc (2)).mul h_c).mul h_dk0_D0).mul h_dk0_D2)).add ((h_k0.pow 2).mul h_ddc_D0D2)).add ((((hc
    (2)).mul h_k0).mul h_dc_D0).mul h_dk0_D2)).add ((((hc (2)).mul h_k0).mul h_dc_D2).mul h_dk0_D0))
  refine key.congr_deriv ?_
  simp only [Pi.add_apply, Pi.sub_apply, Pi.neg_apply, Pi.mul_apply, Pi.pow_apply, Pi.div_apply, line_at]
  unfold dddgamma_D0D0D2D0D1
  try simp only [Nat.cast_ofNat, Nat.reduceSub, pow_one]
  try simp only [dddk0_D0D1D0_sym, dddk0_D0D2D0_sym, dddk0_D1D1D0_sym, dddk0_D1D2D1_sym, dddk0_D2D2D0_sym, dddk0_D2D2D1_sym, dddk0_D0D2D1_sym, dddk0_D1D2D0_sym, dddk1_D0D1D0_sym, dddk1_D0D2D0_sym, dddk1_D1D1D0_sym, dddk1_D1D2D1_sym, dddk1_D2D2D0_sym, dddk1_D2D2D1_sym, dddk1_D0D2D1_sym, dddk1_D1D2D0_sym, dddk2_D0D1D0_sym, dddk2_D0D2D0_sym, dddk2_D1D1D0_sym, dddk2_D1D2D1_sym, dddk2_D2D2D0_sym, dddk2_D2D2D1_sym, dddk2_D0D2D1_sym, dddk2_D1D2D0_sym, dddc_D0D1D0_sym, dddc_D0D2D0_sym, dddc_D1D1D0_sym, dddc_D1D2D1_sym, dddc_D2D2D0_sym, dddc_D2D2D1_sym, dddc_D0D2D1_sym, dddc_D1D2D0_sym]
  ring


theorem ddgamma_D0D0D2D1_at0 (P : Par) (q : Pt) (hR : 0 < R P q) : HasDerivAt (line (ddgamma_D0D0D2D1 P) 0 q) (dddgamma_D0D0D2D1D0 P q + 2 * Hlost P q * k0 P q * k0 P q) (q 0) := by
  have hc : ∀ c : ℝ, HasDerivAt (fun _ => c) 0 (q 0) := fun c => hasDerivAt_const _ c
  have h_c := c_at0 P q hR
  have h_dc_D1 := dc_D1_at0 P q hR
  have h_dc_D2 := dc_D2_at0 P q hR
  have h_ddc_D1D2 := ddc_D1D2_at0 P q hR
  have h_ddk0_D1D2 := ddk0_D1D2_at0 P q hR
  have h_dk0_D1 := dk0_D1_at0 P q hR
  have h_dk0_D2 := dk0_D2_at0 P q hR
  have h_k0 := k0_at0 P q hR
  have key := ((((((((hc (2)).mul h_c).mul h_k0).mul h_ddk0_D1D2).add ((((hc (2)).mul h_c).mul h_dk0_D1).mul h_dk0_D2)).add ((h_k0.pow 2).mul h_ddc_D1D2)).add ((((hc
    (2)).mul h_k0).mul h_dc_D1).mul h_dk0_D2)).add ((((hc (2)).mul h_k0).mul h_dc_D2).mul h_dk0_D1))
  refine key.congr_deriv ?_
  simp only [Pi.add_apply, Pi.sub_apply, Pi.neg_apply, Pi.mul_apply, Pi.pow_apply, Pi.div_apply, line_at]
  unfold dddgamma_D0D0D2D1D0
  try simp only [Nat.cast_ofNat, Nat.reduceSub, pow_one]
  try simp only [dddk0_D0D1D0_sym, dddk0_D0D2D0_sym, dddk0_D1D1D0_sym, dddk0_D1D2D1_sym, dddk0_D2D2D0_sym, dddk0_D2D2D1_sym, dddk0_D0D2D1_sym, dddk0_D1D2D0_sym, dddk1_D0D1D0_sym, dddk1_D0D2D0_sym, dddk1_D1D1D0_sym, dddk1_D1D2D1_sym, dddk1_D2D2D0_sym, dddk1_D2D2D1_sym, dddk1_D0D2D1_sym, dddk1_D1D2D0_sym, dddk2_D0D1D0_sym, dddk2_D0D2D0_sym, dddk2_D1D1D0_sym, dddk2_D1D2D1_sym, dddk2_D2D2D0_sym, dddk2_D2D2D1_sym, dddk2_D0D2D1_sym, dddk2_D1D2D0_sym, dddc_D0D1D0_sym, dddc_D0D2D0_sym, dddc_D1D1D0_sym, dddc_D1D2D1_sym, dddc_D2D2D0_sym, dddc_D2D2D1_sym, dddc_D0D2D1_sym, dddc_D1D2D0_sym]
  ring


theorem ddgamma_D0D1D0D1_at2 (P : Par) (q : Pt) (hR : 0 < R P q) : HasDerivAt (line (ddgamma_D0D1D0D1 P) 2 q) (dddgamma_D0D1D0D1D2 P q + 2 * Hlost P q * k0 P q * k1 P q) (q 2) := by
  have hc : ∀ c : ℝ, HasDerivAt (fun _ => c) 0 (q 2) := fun c => hasDerivAt_const _ c
  have h_c := c_at2 P q hR
  have h_dc_D0 := dc_D0_at2 P q hR
  have h_dc_D1 := dc_D1_at2 P q hR
  have h_ddc_D0D1 := ddc_D0D1_at2 P q hR
  have h_ddk0_D0D1 := ddk0_D0D1_at2 P q hR
  have h_ddk1_D0D1 := ddk1_D0D1_at2 P q hR
  have h_dk0_D0 := dk0_D0_at2 P q hR
  have h_dk0_D1 := dk0_D1_at2 P q hR
  have h_dk1_D0 := dk1_D0_at2 P q hR
  have h_dk1_D1 := dk1_D1_at2 P q hR
  have h_k0 := k0_at2 P q hR
  have h_k1 := k1_at2 P q hR
  have key := ((((((((((h_c.mul h_k0).mul h_ddk1_D0D1).add ((h_c.mul h_k1).mul h_ddk0_D0D1)).add ((h_c.mul h_dk0_D0).mul h_dk1_D1)).add ((h_c.mul h_dk0_D1).mul
    h_dk1_D0)).add ((h_k0.mul h_k1).mul h_ddc_D0D1)).add ((h_k0.mul h_dc_D0).mul h_dk1_D1)).add ((h_k0.mul h_dc_D1).mul h_dk1_D0)).add ((h_k1.mul h_dc_D0).mul
    h_dk0_D1)).add ((h_k1.mul h_dc_D1).mul h_dk0_D0))
  refine key.congr_deriv ?_
  simp only [Pi.add_apply, Pi.sub_apply, Pi.neg_apply, Pi.mul_apply, Pi.pow_apply, Pi.div_apply, line_at]
  unfold dddgamma_D0D1D0D1D2
  try simp only [Nat.cast_ofNat, Nat.reduceSub, pow_one]
  try simp only [dddk0_D0D1D0_sym, dddk0_D0D2D0_sym, dddk0_D1D1D0_sym, dddk0_D1D2D1_sym, dddk0_D2D2D0_sym, dddk0_D2D2D1_sym, dddk0_D0D2D1_sym, dddk0_D1D2D0_sym, dddk1_D0D1D0_sym, dddk1_D0D2D0_sym, dddk1_D1D1D0_sym, dddk1_D1D2D1_sym, dddk1_D2D2D0_sym, dddk1_D2D2D1_sym, dddk1_D0D2D1_sym, dddk1_D1D2D0_sym, dddk2_D0D1D0_sym, dddk2_D0D2D0_sym, dddk2_D1D1D0_sym, dddk2_D1D2D1_sym, dddk2_D2D2D0_sym, dddk2_D2D2D1_sym, dddk2_D0D2D1_sym, dddk2_D1D2D0_sym, dddc_D0D1D0_sym, dddc_D0D2D0_sym, dddc_D1D1D0_sym, dddc_D1D2D1_sym, dddc_D2D2D0_sym, dddc_D2D2D1_sym, dddc_D0D2D1_sym, dddc_D1D2D0_sym]
  ring


theorem ddgamma_D0D1D0D2_at1 (P : Par) (q : Pt) (hR : 0 < R P q) : HasDerivAt (line (ddgamma_D0D1D0D2 P) 1 q) (dddgamma_D0D1D0D2D1 P q + 2 * Hlost P q * k0 P q * k1 P q) (q 1) := by
  have hc : ∀ c : ℝ, HasDerivAt (fun _ => c) 0 (q 1) := fun c => hasDerivAt_const _ c
  have h_c := c_at1 P q hR
  have h_dc_D0 := dc_D0_at1 P q hR
  have h_dc_D2 := dc_D2_at1 P q hR
  have h_ddc_D0D2 := ddc_D0D2_at1 P q hR
  have h_ddk0_D0D2 := ddk0_D0D2_at1 P q hR
  have h_ddk1_D0D2 := ddk1_D0D2_at1 P q hR
  have h_dk0_D0 := dk0_D0_at1 P q hR
  have h_dk0_D2 := dk0_D2_at1 P q hR
  have h_dk1_D0 := dk1_D0_at1 P q hR
  have h_dk1_D2 := dk1_D2_at1 P q hR
  have h_k0 := k0_at1 P q hR
  have h_k1 := k1_at1 P q hR
  have key := ((((((((((h_c.mul h_k0).mul h_ddk1_D0D2).add ((h_c.mul h_k1).mul h_ddk0_D0D2)).add ((h_c.mul h_dk0_D0).mul h_dk1_D2)).add ((h_c.mul h_dk0_D2).mul
    h_dk1_D0)).add ((h_k0.mul h_k1).mul h_ddc_D0D2)).add ((h_k0.mul h_dc_D0).mul h_dk1_D2)).add ((h_k0.mul h_dc_D2).mul h_dk1_D0)).add ((h_k1.mul h_dc_D0).mul
    h_dk0_D2)).add ((h_k1.mul h_dc_D2).mul h_dk0_D0))
  refine key.congr_deriv ?_
  simp only [Pi.add_apply, Pi.sub_apply, Pi.neg_apply, Pi.mul_apply, Pi.pow_apply, Pi.div_apply, line_at]
  unfold dddgamma_D0D1D0D2D1
  try simp only [Nat.cast_ofNat, Nat.reduceSub, pow_one]
  try simp only [dddk0_D0D1D0_sym, dddk0_D0D2D0_sym, dddk0_D1D1D0_sym, dddk0_D1D2D1_sym, dddk0_D2D2D0_sym, dddk0_D2D2D1_sym, dddk0_D0D2D1_sym, dddk0_D1D2D0_sym, dddk1_D0D1D0_sym, dddk1_D0D2D0_sym, dddk1_D1D1D0_sym, dddk1_D1D2D1_sym, dddk1_D2D2D0_sym, dddk1_D2D2D1_sym, dddk1_D0D2D1_sym, dddk1_D1D2D0_sym, dddk2_D0D1D0_sym, dddk2_D0D2D0_sym, dddk2_D1D1D0_sym, dddk2_D1D2D1_sym, dddk2_D2D2D0_sym, dddk2_D2D2D1_sym, dddk2_D0D2D1_sym, dddk2_D1D2D0_sym, dddc_D0D1D0_sym, dddc_D0D2D0_sym, dddc_D1D1D0_sym, dddc_D1D2D1_sym, dddc_D2D2D0_sym, dddc_D2D2D1_sym, dddc_D0D2D1_sym, dddc_D1D2D0_sym]
  ring


theorem ddgamma_D0D1D1D0_at2 (P : Par) (q : Pt) (hR : 0 < R P q) : HasDerivAt (line (ddgamma_D0D1D1D0 P) 2 q) (dddgamma_D0D1D1D0D2 P q + 2 * Hlost P q * k0 P q * k1 P q) (q 2) := by
  have hc : ∀ c : ℝ, HasDerivAt (fun _ => c) 0 (q 2) := fun c => hasDerivAt_const _ c
  have h_c := c_at2 P q hR
  have h_dc_D0 := dc_D0_at2 P q hR
  have h_dc_D1 := dc_D1_at2 P q hR
  have h_ddc_D0D1 := ddc_D0D1_at2 P q hR
  have h_ddk0_D0D1 := ddk0_D0D1_at2 P q hR
  have h_ddk1_D0D1 := ddk1_D0D1_at2 P q hR
  have h_dk0_D0 := dk0_D0_at2 P q hR
  have h_dk0_D1 := dk0_D1_at2 P q hR
  have h_dk1_D0 := dk1_D0_at2 P q hR
  have h_dk1_D1 := dk1_D1_at2 P q hR
  have h_k0 := k0_at2 P q hR
  have h_k1 := k1_at2 P q hR
  have key := ((((((((((h_c.mul h_k0).mul h_ddk1_D0D1).add ((h_c.mul h_k1).mul h_ddk0_D0D1)).add ((h_c.mul h_dk0_D0).mul h_dk1_D1)).add ((h_c.mul h_dk0_D1).mul
    h_dk1_D0)).add ((h_k0.mul h_k1).mul h_ddc_D0D1)).add ((h_k0.mul h_dc_D0).mul h_dk1_D1)).add ((h_k0.mul h_dc_D1).mul h_dk1_D0)).add ((h_k1.mul h_dc_D0).mul
    h_dk0_D1)).add ((h_k1.mul h_dc_D1).mul h_dk0_D0))
  refine key.congr_deriv ?_
  simp only [Pi.add_apply, Pi.sub_apply, Pi.neg_apply, Pi.mul_apply, Pi.pow_apply, Pi.div_apply, line_at]
  unfold dddgamma_D0D1D1D0D2
  try simp only [Nat.cast_ofNat, Nat.reduceSub, pow_one]
  try simp only [dddk0_D0D1D0_sym, dddk0_D0D2D0_sym, dddk0_D1D1D0_sym, dddk0_D1D2D1_sym, dddk0_D2D2D0_sym, dddk0_D2D2D1_sym, dddk0_D0D2D1_sym, dddk0_D1D2D0_sym, dddk1_D0D1D0_sym, dddk1_D0D2D0_sym, dddk1_D1D1D0_sym, dddk1_D1D2D1_sym, dddk1_D2D2D0_sym, dddk1_D2D2D1_sym, dddk1_D0D2D1_sym, dddk1_D1D2D0_sym, dddk2_D0D1D0_sym, dddk2_D0D2D0_sym, dddk2_D1D1D0_sym, dddk2_D1D2D1_sym, dddk2_D2D2D0_sym, dddk2_D2D2D1_sym, dddk2_D0D2D1_sym, dddk2_D1D2D0_sym, dddc_D0D1D0_sym, dddc_D0D2D0_sym, dddc_D1D1D0_sym, dddc_D1D2D1_sym, dddc_D2D2D0_sym, dddc_D2D2D1_sym, dddc_D0D2D1_sym, dddc_D1D2D0_sym]
  ring


theorem ddgamma_D0D1D1D2_at0 (P : Par) (q : Pt) (hR : 0 < R P q) : HasDerivAt (line (ddgamma_D0D1D1D2 P) 0 q) (dddgamma_D0D1D1D2D0 P q + 2 * Hlost P q * k0 P q * k1 P q) (q 0) := by
  have hc : ∀ c : ℝ, HasDerivAt (fun _ => c) 0 (q 0) := fun c => hasDerivAt_const _ c
  have h_c := c_at0 P q hR
  have h_dc_D1 := dc_D1_at0 P q hR
  have h_dc_D2 := dc_D2_at0 P q hR
  have h_ddc_D1D2 := ddc_D1D2_at0 P q hR
  have h_ddk0_D1D2 := ddk0_D1D2_at0 P q hR
  have h_ddk1_D1D2 := ddk1_D1D2_at0 P q hR
  have h_dk0_D1 := dk0_D1_at0 P q hR
  have h_dk0_D2 := dk0_D2_at0 P q hR
  have h_dk1_D1 := dk1_D1_at0 P q hR
  have h_dk1_D2 := dk1_D2_at0 P q hR
  have h_k0 := k0_at0 P q hR
  have h_k1 := k1_at0 P q hR
  have key := ((((((((((h_c.mul h_k0).mul h_ddk1_D1D2).add ((h_c.mul h_k1).mul h_ddk0_D1D2)).add ((h_c.mul h_dk0_D1).mul h_dk1_D2)).add ((h_c.mul h_dk0_D2).mul
    h_dk1_D1)).add ((h_k0.mul h_k1).mul h_ddc_D1D2)).add ((h_k0.mul h_dc_D1).mul h_dk1_D2)).add ((h_k0.mul h_dc_D2).mul h_dk1_D1)).add ((h_k1.mul h_dc_D1).mul
    h_dk0_D2)).add ((h_k1.mul h_dc_D2).mul h_dk0_D1))
  refine key.congr_deriv ?_
  simp only [Pi.add_apply, Pi.sub_apply, Pi.neg_apply, Pi.mul_apply, Pi.pow_apply, Pi.div_apply, line_at]
  unfold dddgamma_D0D1D1D2D0
  try simp only [Nat.cast_ofNat, Nat.reduceSub, pow_one]
  try simp only [dddk0_D0D1D0_sym, dddk0_D0D2D0_sym, dddk0_D1D1D0_sym, dddk0_D1D2D1_sym, dddk0_D2D2D0_sym, dddk0_D2D2D1_sym, dddk0_D0D2D1_sym, dddk0_D1D2D0_sym, dddk1_D0D1D0_sym, dddk1_D0D2D0_sym, dddk1_D1D1D0_sym, dddk1_D1D2D1_sym, dddk1_D2D2D0_sym, dddk1_D2D2D1_sym, dddk1_D0D2D1_sym, dddk1_D1D2D0_sym, dddk2_D0D1D0_sym, dddk2_D0D2D0_sym, dddk2_D1D1D0_sym, dddk2_D1D2D1_sym, dddk2_D2D2D0_sym, dddk2_D2D2D1_sym, dddk2_D0D2D1_sym, dddk2_D1D2D0_sym, dddc_D0D1D0_sym, dddc_D0D2D0_sym, dddc_D1D1D0_sym, dddc_D1D2D1_sym, dddc_D2D2D0_sym, dddc_D2D2D1_sym, dddc_D0D2D1_sym, dddc_D1D2D0_sym]
  ring


theorem ddgamma_D0D1D2D0_at1 (P : Par) (q : Pt) (hR : 0 < R P q) : HasDerivAt (line (ddgamma_D0D1D2D0 P) 1 q) (dddgamma_D0D1D2D0D1 P q + 2 * Hlost P q * k0 P q * k1 P q) (q 1) := by
  have hc : ∀ c : ℝ, HasDerivAt (fun _ => c) 0 (q 1) := fun c => hasDerivAt_const _ c
  have h_c := c_at1 P q hR
  have h_dc_D0 := dc_D0_at1 P q hR
  have h_dc_D2 := dc_D2_at1 P q hR
  have h_ddc_D0D2 := ddc_D0D2_at1 P q hR
  have h_ddk0_D0D2 := ddk0_D0D2_at1 P q hR
  have h_ddk1_D0D2 := ddk1_D0D2_at1 P q hR
  have h_dk0_D0 := dk0_D0_at1 P q hR
  have h_dk0_D2 := dk0_D2_at1 P q hR
  have h_dk1_D0 := dk1_D0_at1 P q hR
  have h_dk1_D2 := dk1_D2_at1 P q hR
  have h_k0 := k0_at1 P q hR
  have h_k1 := k1_at1 P q hR
  have key := ((((((((((h_c.mul h_k0).mul h_ddk1_D0D2).add ((h_c.mul h_k1).mul h_ddk0_D0D2)).add ((h_c.mul h_dk0_D0).mul h_dk1_D2)).add ((h_c.mul h_dk0_D2).mul
    h_dk1_D0)).add ((h_k0.mul h_k1).mul h_ddc_D0D2)).add ((h_k0.mul h_dc_D0).mul h_dk1_D2)).add ((h_k0.mul h_dc_D2).mul h_dk1_D0)).add ((h_k1.mul h_dc_D0).mul
    h_dk0_D2)).add ((h_k1.mul h_dc_D2).mul h_dk0_D0))
  refine key.congr_deriv ?_
  simp only [Pi.add_apply, Pi.sub_apply, Pi.neg_apply, Pi.mul_apply, Pi.pow_apply, Pi.div_apply, line_at]
  unfold dddgamma_D0D1D2D0D1
  try simp only [Nat.cast_ofNat, Nat.reduceSub, pow_one]
  try simp only [dddk0_D0D1D0_sym, dddk0_D0D2D0_sym, dddk0_D1D1D0_sym, dddk0_D1D2D1_sym, dddk0_D2D2D0_sym, dddk0_D2D2D1_sym, dddk0_D0D2D1_sym, dddk0_D1D2D0_sym, dddk1_D0D1D0_sym, dddk1_D0D2D0_sym, dddk1_D1D1D0_sym, dddk1_D1D2D1_sym, dddk1_D2D2D0_sym, dddk1_D2D2D1_sym, dddk1_D0D2D1_sym, dddk1_D1D2D0_sym, dddk2_D0D1D0_sym, dddk2_D0D2D0_sym, dddk2_D1D1D0_sym, dddk2_D1D2D1_sym, dddk2_D2D2D0_sym, dddk2_D2D2D1_sym, dddk2_D0D2D1_sym, dddk2_D1D2D0_sym, dddc_D0D1D0_sym, dddc_D0D2D0_sym, dddc_D1D1D0_sym, dddc_D1D2D1_sym, dddc_D2D2D0_sym, dddc_D2D2D1_sym, dddc_D0D2D1_sym, dddc_D1D2D0_sym]
  ring


theorem ddgamma_D0D1D2D1_at0 (P : Par) (q : Pt) (hR : 0 < R P q) : HasDerivAt (line (ddgamma_D0D1D2D1 P) 0 q) (dddgamma_D0D1D2D1D0 P q + 2 * Hlost P q * k0 P q * k1 P q) (q 0) := by
  have hc : ∀ c : ℝ, HasDerivAt (fun _ => c) 0 (q 0) := fun c => hasDerivAt_const _ c
  have h_c := c_at0 P q hR
  have h_dc_D1 := dc_D1_at0 P q hR
  have h_dc_D2 := dc_D2_at0 P q hR
  have h_ddc_D1D2 := ddc_D1D2_at0 P q hR
  have h_ddk0_D1D2 := ddk0_D1D2_at0 P q hR
  have h_ddk1_D1D2 := ddk1_D1D2_at0 P q hR
  have h_dk0_D1 := dk0_D1_at0 P q hR
  have h_dk0_D2 := dk0_D2_at0 P q hR
  have h_dk1_D1 := dk1_D1_at0 P q hR
  have h_dk1_D2 := dk1_D2_at0 P q hR
  have h_k0 := k0_at0 P q hR
  have h_k1 := k1_at0 P q hR
  have key := ((((((((((h_c.mul h_k0).mul h_ddk1_D1D2).add ((h_c.mul h_k1).mul h_ddk0_D1D2)).add ((h_c.mul h_dk0_D1).mul h_dk1_D2)).add ((h_c.mul h_dk0_D2).mul
    h_dk1_D1)).add ((h_k0.mul h_k1).mul h_ddc_D1D2)).add ((h_k0.mul h_dc_D1).mul h_dk1_D2)).add ((h_k0.mul h_dc_D2).mul h_dk1_D1)).add ((h_k1.mul h_dc_D1).mul
    h_dk0_D2)).add ((h_k1.mul h_dc_D2).mul h_dk0_D1))
  refine key.congr_deriv ?_
  simp only [Pi.add_apply, Pi.sub_apply, Pi.neg_apply, Pi.mul_apply, Pi.pow_apply, Pi.div_apply, line_at]
  unfold dddgamma_D0D1D2D1D0
  try simp only [Nat.cast_ofNat, Nat.reduceSub, pow_one]
  try simp only [dddk0_D0D1D0_sym, dddk0_D0D2D0_sym, dddk0_D1D1D0_sym, dddk0_D1D2D1_sym, dddk0_D2D2D0_sym, dddk0_D2D2D1_sym, dddk0_D0D2D1_sym, dddk0_D1D2D0_sym, dddk1_D0D1D0_sym, dddk1_D0D2D0_sym, dddk1_D1D1D0_sym, dddk1_D1D2D1_sym, dddk1_D2D2D0_sym, dddk1_D2D2D1_sym, dddk1_D0D2D1_sym, dddk1_D1D2D0_sym, dddk2_D0D1D0_sym, dddk2_D0D2D0_sym, dddk2_D1D1D0_sym, dddk2_D1D2D1_sym, dddk2_D2D2D0_sym, dddk2_D2D2D1_sym, dddk2_D0D2D1_sym, dddk2_D1D2D0_sym, dddc_D0D1D0_sym, dddc_D0D2D0_sym, dddc_D1D1D0_sym, dddc_D1D2D1_sym, dddc_D2D2D0_sym, dddc_D2D2D1_sym, dddc_D0D2D1_sym, dddc_D1D2D0_sym]
  ring


theorem ddgamma_D0D2D0D1_at2 (P : Par) (q : Pt) (hR : 0 < R P q) : HasDerivAt (line (ddgamma_D0D2D0D1 P) 2 q) (dddgamma_D0D2D0D1D2 P q + 2 * Hlost P q * k0 P q * k2 P q) (q 2) := by
  have hc : ∀ c : ℝ, HasDerivAt (fun _ => c) 0 (q 2) := fun c => hasDerivAt_const _ c
  have h_c := c_at2 P q hR
  have h_dc_D0 := dc_D0_at2 P q hR
  have h_dc_D1 := dc_D1_at2 P q hR
  have h_ddc_D0D1 := ddc_D0D1_at2 P q hR
  have h_ddk0_D0D1 := ddk0_D0D1_at2 P q hR
  have h_ddk2_D0D1 := ddk2_D0D1_at2 P q hR
  have h_dk0_D0 := dk0_D0_at2 P q hR
  have h_dk0_D1 := dk0_D1_at2 P q hR
  have h_dk2_D0 := dk2_D0_at2 P q hR
  have h_dk2_D1 := dk2_D1_at2 P q hR
  have h_k0 := k0_at2 P q hR
  have h_k2 := k2_at2 P q hR
  have key := ((((((((((h_c.mul h_k0).mul h_ddk2_D0D1).add ((h_c.mul h_k2).mul h_ddk0_D0D1)).add ((h_c.mul h_dk0_D0).mul h_dk2_D1)).add ((h_c.mul h_dk0_D1).mul
    h_dk2_D0)).add ((h_k0.mul h_k2).mul h_ddc_D0D1)).add ((h_k0.mul h_dc_D0).mul h_dk2_D1)).add ((h_k0.mul h_dc_D1).mul h_dk2_D0)).add ((h_k2.mul h_dc_D0).mul
    h_dk0_D1)).add ((h_k2.mul h_dc_D1).mul h_dk0_D0))
  refine key.congr_deriv ?_
  simp only [Pi.add_apply, Pi.sub_apply, Pi.neg_apply, Pi.mul_apply, Pi.pow_apply, Pi.div_apply, line_at]
  unfold dddgamma_D0D2D0D1D2
  try simp only [Nat.cast_ofNat, Nat.reduceSub, pow_one]
  try simp only [dddk0_D0D1D0_sym, dddk0_D0D2D0_sym, dddk0_D1D1D0_sym, dddk0_D1D2D1_sym, dddk0_D2D2D0_sym, dddk0_D2D2D1_sym, dddk0_D0D2D1_sym, dddk0_D1D2D0_sym, dddk1_D0D1D0_sym, dddk1_D0D2D0_sym, dddk1_D1D1D0_sym, dddk1_D1D2D1_sym, dddk1_D2D2D0_sym, dddk1_D2D2D1_sym, dddk1_D0D2D1_sym, dddk1_D1D2D0_sym, dddk2_D0D1D0_sym, dddk2_D0D2D0_sym, dddk2_D1D1D0_sym, dddk2_D1D2D1_sym, dddk2_D2D2D0_sym, dddk2_D2D2D1_sym, dddk2_D0D2D1_sym, dddk2_D1D2D0_sym, dddc_D0D1D0_sym, dddc_D0D2D0_sym, dddc_D1D1D0_sym, dddc_D1D2D1_sym, dddc_D2D2D0_sym, dddc_D2D2D1_sym, dddc_D0D2D1_sym, dddc_D1D2D0_sym]
  ring


theorem ddgamma_D0D2D0D2_at1 (P : Par) (q : Pt) (hR : 0 < R P q) : HasDerivAt (line (ddgamma_D0D2D0D2 P) 1 q) (dddgamma_D0D2D0D2D1 P q + 2 * Hlost P q * k0 P q * k2 P q) (q 1) := by
  have hc : ∀ c : ℝ, HasDerivAt (fun _ => c) 0 (q 1) := fun c => hasDerivAt_const _ c
  have h_c := c_at1 P q hR
  have h_dc_D0 := dc_D0_at1 P q hR
  have h_dc_D2 := dc_D2_at1 P q hR
  have h_ddc_D0D2 := ddc_D0D2_at1 P q hR
  have h_ddk0_D0D2 := ddk0_D0D2_at1 P q hR
  have h_ddk2_D0D2 := ddk2_D0D2_at1 P q hR
  have h_dk0_D0 := dk0_D0_at1 P q hR
  have h_dk0_D2 := dk0_D2_at1 P q hR
  have h_dk2_D0 := dk2_D0_at1 P q hR
  have h_dk2_D2 := dk2_D2_at1 P q hR
  have h_k0 := k0_at1 P q hR
  have h_k2 := k2_at1 P q hR
  have key := ((((((((((h_c.mul h_k0).mul h_ddk2_D0D2).add ((h_c.mul h_k2).mul h_ddk0_D0D2)).add ((h_c.mul h_dk0_D0).mul h_dk2_D2)).add ((h_c.mul h_dk0_D2).mul
    h_dk2_D0)).add ((h_k0.mul h_k2).mul h_ddc_D0D2)).add ((h_k0.mul h_dc_D0).mul h_dk2_D2)).add ((h_k0.mul h_dc_D2).mul h_dk2_D0)).add ((h_k2.mul h_dc_D0).mul
    h_dk0_D2)).add ((h_k2.mul h_dc_D2).mul h_dk0_D0))
  refine key.congr_deriv ?_
  simp only [Pi.add_apply, Pi.sub_apply, Pi.neg_apply, Pi.mul_apply, Pi.pow_apply, Pi.div_apply, line_at]
  unfold dddgamma_D0D2D0D2D1
  try simp only [Nat.cast_ofNat, Nat.reduceSub, pow_one]
  try simp only [dddk0_D0D1D0_sym, dddk0_D0D2D0_sym, dddk0_D1D1D0_sym, dddk0_D1D2D1_sym, dddk0_D2D2D0_sym, dddk0_D2D2D1_sym, dddk0_D0D2D1_sym, dddk0_D1D2D0_sym, dddk1_D0D1D0_sym, dddk1_D0D2D0_sym, dddk1_D1D1D0_sym, dddk1_D1D2D1_sym, dddk1_D2D2D0_sym, dddk1_D2D2D1_sym, dddk1_D0D2D1_sym, dddk1_D1D2D0_sym, dddk2_D0D1D0_sym, dddk2_D0D2D0_sym, dddk2_D1D1D0_sym, dddk2_D1D2D1_sym, dddk2_D2D2D0_sym, dddk2_D2D2D1_sym, dddk2_D0D2D1_sym, dddk2_D1D2D0_sym, dddc_D0D1D0_sym, dddc_D0D2D0_sym, dddc_D1D1D0_sym, dddc_D1D2D1_sym, dddc_D2D2D0_sym, dddc_D2D2D1_sym, dddc_D0D2D1_sym, dddc_D1D2D0_sym]
  ring


theorem ddgamma_D0D2D1D0_at2 (P : Par) (q : Pt) (hR : 0 < R P q) : HasDerivAt (line (ddgamma_D0D2D1D0 P) 2 q) (dddgamma_D0D2D1D0D2 P q + 2 * Hlost P q * k0 P q * k2 P q) (q 2) := by
  have hc : ∀ c : ℝ, HasDerivAt (fun _ => c) 0 (q 2) := fun c => hasDerivAt_const _ c
  have h_c := c_at2 P q hR
  have h_dc_D0 := dc_D0_at2 P q hR
  have h_dc_D1 := dc_D1_at2 P q hR
  have h_ddc_D0D1 := ddc_D0D1_at2 P q hR
  have h_ddk0_D0D1 := ddk0_D0D1_at2 P q hR
  have h_ddk2_D0D1 := ddk2_D0D1_at2 P q hR
  have h_dk0_D0 := dk0_D0_at2 P q hR
  have h_dk0_D1 := dk0_D1_at2 P q hR
  have h_dk2_D0 := dk2_D0_at2 P q hR
  have h_dk2_D1 := dk2_D1_at2 P q hR
  have h_k0 := k0_at2 P q hR
  have h_k2 := k2_at2 P q hR
  have key := ((((((((((h_c.mul h_k0).mul h_ddk2_D0D1).add ((h_c.mul h_k2).mul h_ddk0_D0D1)).add ((h_c.mul h_dk0_D0).mul h_dk2_D1)).add ((h_c.mul h_dk0_D1).mul
    h_dk2_D0)).add ((h_k0.mul h_k2).mul h_ddc_D0D1)).add ((h_k0.mul h_dc_D0).mul h_dk2_D1)).add ((h_k0.mul h_dc_D1).mul h_dk2_D0)).add ((h_k2.mul h_dc_D0).mul
    h_dk0_D1)).add ((h_k2.mul h_dc_D1).mul h_dk0_D0))
  refine key.congr_deriv ?_
  simp only [Pi.add_apply, Pi.sub_apply, Pi.neg_apply, Pi.mul_apply, Pi.pow_apply, Pi.div_apply, line_at]
  unfold dddgamma_D0D2D1D0D2
  try simp only [Nat.cast_ofNat, Nat.reduceSub, pow_one]
  try simp only [dddk0_D0D1D0_sym, dddk0_D0D2D0_sym, dddk0_D1D1D0_sym, dddk0_D1D2D1_sym, dddk0_D2D2D0_sym, dddk0_D2D2D1_sym, dddk0_D0D2D1_sym, dddk0_D1D2D0_sym, dddk1_D0D1D0_sym, dddk1_D0D2D0_sym, dddk1_D1D1D0_sym, dddk1_D1D2D1_sym, dddk1_D2D2D0_sym, dddk1_D2D2D1_sym, dddk1_D0D2D1_sym, dddk1_D1D2D0_sym, dddk2_D0D1D0_sym, dddk2_D0D2D0_sym, dddk2_D1D1D0_sym, dddk2_D1D2D1_sym, dddk2_D2D2D0_sym, dddk2_D2D2D1_sym, dddk2_D0D2D1_sym, dddk2_D1D2D0_sym, dddc_D0D1D0_sym, dddc_D0D2D0_sym, dddc_D1D1D0_sym, dddc_D1D2D1_sym, dddc_D2D2D0_sym, dddc_D2D2D1_sym, dddc_D0D2D1_sym, dddc_D1D2D0_sym]
  ring


theorem ddgamma_D0D2D1D2_at0 (P : Par) (q : Pt) (hR : 0 < R P q) : HasDerivAt (line (ddgamma_D0D2D1D2 P) 0 q) (dddgamma_D0D2D1D2D0 P q + 2 * Hlost P q * k0 P q * k2 P q) (q 0) := by
  have hc : ∀ c : ℝ, HasDerivAt (fun _ => c) 0 (q 0) := fun c => hasDerivAt_const _ c
  have h_c := c_at0 P q hR
  have h_dc_D1 := dc_D1_at0 P q hR
  have h_dc_D2 := dc_D2_at0 P q hR
  have h_ddc_D1D2 := ddc_D1D2_at0 P q hR
  have h_ddk0_D1D2 := ddk0_D1D2_at0 P q hR
  have h_ddk2_D1D2 := ddk2_D1D2_at0 P q hR
  have h_dk0_D1 := dk0_D1_at0 P q hR
  have h_dk0_D2 := dk0_D2_at0 P q hR
  have h_dk2_D1 := dk2_D1_at0 P q hR
  have h_dk2_D2 := dk2_D2_at0 P q hR
  have h_k0 := k0_at0 P q hR
  have h_k2 := k2_at0 P q hR
  have key := ((((((((((h_c.mul h_k0).mul h_ddk2_D1D2).add ((h_c.mul h_k2).mul h_ddk0_D1D2)).add ((h_c.mul h_dk0_D1).mul h_dk2_D2)).add ((h_c.mul h_dk0_D2).mul
    h_dk2_D1)).add ((h_k0.mul h_k2).mul h_ddc_D1D2)).add ((h_k0.mul h_dc_D1).mul h_dk2_D2)).add ((h_k0.mul h_dc_D2).mul h_dk2_D1)).add ((h_k2.mul h_dc_D1).mul
    h_dk0_D2)).add ((h_k2.mul h_dc_D2).mul h_dk0_D1))
  refine key.congr_deriv ?_
  simp only [Pi.add_apply, Pi.sub_apply, Pi.neg_apply, Pi.mul_apply, Pi.pow_apply, Pi.div_apply, line_at]
  unfold dddgamma_D0D2D1D2D0
  try simp only [Nat.cast_ofNat, Nat.reduceSub, pow_one]
  try simp only [dddk0_D0D1D0_sym, dddk0_D0D2D0_sym, dddk0_D1D1D0_sym, dddk0_D1D2D1_sym, dddk0_D2D2D0_sym, dddk0_D2D2D1_sym, dddk0_D0D2D1_sym, dddk0_D1D2D0_sym, dddk1_D0D1D0_sym, dddk1_D0D2D0_sym, dddk1_D1D1D0_sym, dddk1_D1D2D1_sym, dddk1_D2D2D0_sym, dddk1_D2D2D1_sym, dddk1_D0D2D1_sym, dddk1_D1D2D0_sym, dddk2_D0D1D0_sym, dddk2_D0D2D0_sym, dddk2_D1D1D0_sym, dddk2_D1D2D1_sym, dddk2_D2D2D0_sym, dddk2_D2D2D1_sym, dddk2_D0D2D1_sym, dddk2_D1D2D0_sym, dddc_D0D1D0_sym, dddc_D0D2D0_sym, dddc_D1D1D0_sym, dddc_D1D2D1_sym, dddc_D2D2D0_sym, dddc_D2D2D1_sym, dddc_D0D2D1_sym, dddc_D1D2D0_sym]
  ring


theorem ddgamma_D0D2D2D0_at1 (P : Par) (q : Pt) (hR : 0 < R P q) : HasDerivAt (line (ddgamma_D0D2D2D0 P) 1 q) (dddgamma_D0D2D2D0D1 P q + 2 * Hlost P q * k0 P q * k2 P q) (q 1) := by
  have hc : ∀ c : ℝ, HasDerivAt (fun _ => c) 0 (q 1) := fun c => hasDerivAt_const _ c
  have h_c := c_at1 P q hR
  have h_dc_D0 := dc_D0_at1 P q hR
  have h_dc_D2 := dc_D2_at1 P q hR
  have h_ddc_D0D2 := ddc_D0D2_at1 P q hR
  have h_ddk0_D0D2 := ddk0_D0D2_at1 P q hR
  have h_ddk2_D0D2 := ddk2_D0D2_at1 P q hR
  have h_dk0_D0 := dk0_D0_at1 P q hR
  have h_dk0_D2 := dk0_D2_at1 P q hR
  have h_dk2_D0 := dk2_D0_at1 P q hR
  have h_dk2_D2 := dk2_D2_at1 P q hR
  have h_k0 := k0_at1 P q hR
  have h_k2 := k2_at1 P q hR
  have key := ((((((((((h_c.mul h_k0).mul h_ddk2_D0D2).add ((h_c.mul h_k2).mul h_ddk0_D0D2)).add ((h_c.mul h_dk0_D0).mul h_dk2_D2)).add ((h_c.mul h_dk0_D2).mul
    h_dk2_D0)).add ((h_k0.mul h_k2).mul h_ddc_D0D2)).add ((h_k0.mul h_dc_D0).mul h_dk2_D2)).add ((h_k0.mul h_dc_D2).mul h_dk2_D0)).add ((h_k2.mul h_dc_D0).mul
    h_dk0_D2)).add ((h_k2.mul h_dc_D2).mul h_dk0_D0))
  refine key.congr_deriv ?_
  simp only [Pi.add_apply, Pi.sub_apply, Pi.neg_apply, Pi.mul_apply, Pi.pow_apply, Pi.div_apply, line_at]
  unfold dddgamma_D0D2D2D0D1
  try simp only [Nat.cast_ofNat, Nat.reduceSub, pow_one]
  try simp only [dddk0_D0D1D0_sym, dddk0_D0D2D0_sym, dddk0_D1D1D0_sym, dddk0_D1D2D1_sym, dddk0_D2D2D0_sym, dddk0_D2D2D1_sym, dddk0_D0D2D1_sym, dddk0_D1D2D0_sym, dddk1_D0D1D0_sym, dddk1_D0D2D0_sym, dddk1_D1D1D0_sym, dddk1_D1D2D1_sym, dddk1_D2D2D0_sym, dddk1_D2D2D1_sym, dddk1_D0D2D1_sym, dddk1_D1D2D0_sym, dddk2_D0D1D0_sym, dddk2_D0D2D0_sym, dddk2_D1D1D0_sym, dddk2_D1D2D1_sym, dddk2_D2D2D0_sym, dddk2_D2D2D1_sym, dddk2_D0D2D1_sym, dddk2_D1D2D0_sym, dddc_D0D1D0_sym, dddc_D0D2D0_sym, dddc_D1D1D0_sym, dddc_D1D2D1_sym, dddc_D2D2D0_sym, dddc_D2D2D1_sym, dddc_D0D2D1_sym, dddc_D1D2D0_sym]
  ring


theorem ddgamma_D0D2D2D1_at0 (P : Par) (q : Pt) (hR : 0 < R P q) : HasDerivAt (line (ddgamma_D0D2D2D1 P) 0 q) (dddgamma_D0D2D2D1D0 P q + 2 * Hlost P q * k0 P q * k2 P q) (q 0) := by
  have hc : ∀ c : ℝ, HasDerivAt (fun _ => c) 0 (q 0) := fun c => hasDerivAt_const _ c
  have h_c := c_at0 P q hR
  have h_dc_D1 := dc_D1_at0 P q hR
  have h_dc_D2 := dc_D2_at0 P q hR
  have h_ddc_D1D2 := ddc_D1D2_at0 P q hR
  have h_ddk0_D1D2 := ddk0_D1D2_at0 P q hR
  have h_ddk2_D1D2 := ddk2_D1D2_at0 P q hR
  have h_dk0_D1 := dk0_D1_at0 P q hR
  have h_dk0_D2 := dk0_D2_at0 P q hR
  have h_dk2_D1 := dk2_D1_at0 P q hR
  have h_dk2_D2 := dk2_D2_at0 P q hR
  have h_k0 := k0_at0 P q hR
  have h_k2 := k2_at0 P q hR
  have key := ((((((((((h_c.mul h_k0).mul h_ddk2_D1D2).add ((h_c.mul h_k2).mul h_ddk0_D1D2)).add ((h_c.mul h_dk0_D1).mul h_dk2_D2)).add ((h_c.mul h_dk0_D2).mul
    h_dk2_D1)).add ((h_k0.mul h_k2).mul h_ddc_D1D2)).add ((h_k0.mul h_dc_D1).mul h_dk2_D2)).add ((h_k0.mul h_dc_D2).mul h_dk2_D1)).add ((h_k2.mul h_dc_D1).mul
    h_dk0_D2)).add ((h_k2.mul h_dc_D2).mul h_dk0_D1))
  refine key.congr_deriv ?_
  simp only [Pi.add_apply, Pi.sub_apply, Pi.neg_apply, Pi.mul_apply, Pi.pow_apply, Pi.div_apply, line_at]
  unfold dddgamma_D0D2D2D1D0
  try simp only [Nat.cast_ofNat, Nat.reduceSub, pow_one]
  try simp only [dddk0_D0D1D0_sym, dddk0_D0D2D0_sym, dddk0_D1D1D0_sym, dddk0_D1D2D1_sym, dddk0_D2D2D0_sym, dddk0_D2D2D1_sym, dddk0_D0D2D1_sym, dddk0_D1D2D0_sym, dddk1_D0D1D0_sym, dddk1_D0D2D0_sym, dddk1_D1D1D0_sym, dddk1_D1D2D1_sym, dddk1_D2D2D0_sym, dddk1_D2D2D1_sym, dddk1_D0D2D1_sym, dddk1_D1D2D0_sym, dddk2_D0D1D0_sym, dddk2_D0D2D0_sym, dddk2_D1D1D0_sym, dddk2_D1D2D1_sym, dddk2_D2D2D0_sym, dddk2_D2D2D1_sym, dddk2_D0D2D1_sym, dddk2_D1D2D0_sym, dddc_D0D1D0_sym, dddc_D0D2D0_sym, dddc_D1D1D0_sym, dddc_D1D2D1_sym, dddc_D2D2D0_sym, dddc_D2D2D1_sym, dddc_D0D2D1_sym, dddc_D1D2D0_sym]
  ring


theorem ddgamma_D1D1D0D1_at2 (P : Par) (q : Pt) (hR : 0 < R P q) : HasDerivAt (line (ddgamma_D1D1D0D1 P) 2 q) (dddgamma_D1D1D0D1D2 P q + 2 * Hlost P q * k1 P q * k1 P q) (q 2) := by
  have hc : ∀ c : ℝ, HasDerivAt (fun _ => c) 0 (q 2) := fun c => hasDerivAt_const _ c
  have h_c := c_at2 P q hR
  have h_dc_D0 := dc_D0_at2 P q hR
  have h_dc_D1 := dc_D1_at2 P q hR
  have h_ddc_D0D1 := ddc_D0D1_at2 P q hR
  have h_ddk1_D0D1 := ddk1_D0D1_at2 P q hR
  have h_dk1_D0 := dk1_D0_at2 P q hR
  have h_dk1_D1 := dk1_D1_at2 P q hR
  have h_k1 := k1_at2 P q hR
  have key := ((((((((hc (2)).mul h_c).mul h_k1).mul h_ddk1_D0D1).add ((((hc (2)).mul h_c).mul h_dk1_D0).mul h_dk1_D1)).add ((h_k1.pow 2).mul h_ddc_D0D1)).add ((((hc
    (2)).mul h_k1).mul h_dc_D0).mul h_dk1_D1)).add ((((hc (2)).mul h_k1).mul h_dc_D1).mul h_dk1_D0))
  refine key.congr_deriv ?_
  simp only [Pi.add_apply, Pi.sub_apply, Pi.neg_apply, Pi.mul_apply, Pi.pow_apply, Pi.div_apply, line_at]
  unfold dddgamma_D1D1D0D1D2
  try simp only [Nat.cast_ofNat, Nat.reduceSub, pow_one]
  try simp only [dddk0_D0D1D0_sym, dddk0_D0D2D0_sym, dddk0_D1D1D0_sym, dddk0_D1D2D1_sym, dddk0_D2D2D0_sym, dddk0_D2D2D1_sym, dddk0_D0D2D1_sym, dddk0_D1D2D0_sym, dddk1_D0D1D0_sym, dddk1_D0D2D0_sym, dddk1_D1D1D0_sym, dddk1_D1D2D1_sym, dddk1_D2D2D0_sym, dddk1_D2D2D1_sym, dddk1_D0D2D1_sym, dddk1_D1D2D0_sym, dddk2_D0D1D0_sym, dddk2_D0D2D0_sym, dddk2_D1D1D0_sym, dddk2_D1D2D1_sym, dddk2_D2D2D0_sym, dddk2_D2D2D1_sym, dddk2_D0D2D1_sym, dddk2_D1D2D0_sym, dddc_D0D1D0_sym, dddc_D0D2D0_sym, dddc_D1D1D0_sym, dddc_D1D2D1_sym, dddc_D2D2D0_sym, dddc_D2D2D1_sym, dddc_D0D2D1_sym, dddc_D1D2D0_sym]
  ring


theorem ddgamma_D1D1D0D2_at1 (P : Par) (q : Pt) (hR : 0 < R P q) : HasDerivAt (line (ddgamma_D1D1D0D2 P) 1 q) (dddgamma_D1D1D0D2D1 P q + 2 * Hlost P q * k1 P q * k1 P q) (q 1) := by
  have hc : ∀ c : ℝ, HasDerivAt (fun _ => c) 0 (q 1) := fun c => hasDerivAt_const _ c
  have h_c := c_at1 P q hR
  have h_dc_D0 := dc_D0_at1 P q hR
  have h_dc_D2 := dc_D2_at1 P q hR
  have h_ddc_D0D2 := ddc_D0D2_at1 P q hR
  have h_ddk1_D0D2 := ddk1_D0D2_at1 P q hR
  have h_dk1_D0 := dk1_D0_at1 P q hR
  have h_dk1_D2 := dk1_D2_at1 P q hR
  have h_k1 := k1_at1 P q hR
  have key := ((((((((hc (2)).mul h_c).mul h_k1).mul h_ddk1_D0D2).add ((((hc (2)).mul h_c).mul h_dk1_D0).mul h_dk1_D2)).add ((h_k1.pow 2).mul h_ddc_D0D2)).add ((((hc
    (2)).mul h_k1).mul h_dc_D0).mul h_dk1_D2)).add ((((hc (2)).mul h_k1).mul h_dc_D2).mul h_dk1_D0))
  refine key.congr_deriv ?_
  simp only [Pi.add_apply, Pi.sub_apply, Pi.neg_apply, Pi.mul_apply, Pi.pow_apply, Pi.div_apply, line_at]
  unfold dddgamma_D1D1D0D2D1
  try simp only [Nat.cast_ofNat, Nat.reduceSub, pow_one]
  try simp only [dddk0_D0D1D0_sym, dddk0_D0D2D0_sym, dddk0_D1D1D0_sym, dddk0_D1D2D1_sym, dddk0_D2D2D0_sym, dddk0_D2D2D1_sym, dddk0_D0D2D1_sym, dddk0_D1D2D0_sym, dddk1_D0D1D0_sym, dddk1_D0D2D0_sym, dddk1_D1D1D0_sym, dddk1_D1D2D1_sym, dddk1_D2D2D0_sym, dddk1_D2D2D1_sym, dddk1_D0D2D1_sym, dddk1_D1D2D0_sym, dddk2_D0D1D0_sym, dddk2_D0D2D0_sym, dddk2_D1D1D0_sym, dddk2_D1D2D1_sym, dddk2_D2D2D0_sym, dddk2_D2D2D1_sym, dddk2_D0D2D1_sym, dddk2_D1D2D0_sym, dddc_D0D1D0_sym, dddc_D0D2D0_sym, dddc_D1D1D0_sym, dddc_D1D2D1_sym, dddc_D2D2D0_sym, dddc_D2D2D1_sym, dddc_D0D2D1_sym, dddc_D1D2D0_sym]
  ring


theorem ddgamma_D1D1D1D0_at2 (P : Par) (q : Pt) (hR : 0 < R P q) : HasDerivAt (line (ddgamma_D1D1D1D0 P) 2 q) (dddgamma_D1D1D1D0D2 P q + 2 * Hlost P q * k1 P q * k1 P q) (q 2) := by
  have hc : ∀ c : ℝ, HasDerivAt (fun _ => c) 0 (q 2) := fun c => hasDerivAt_const _ c
  have h_c := c_at2 P q hR
  have h_dc_D0 := dc_D0_at2 P q hR
  have h_dc_D1 := dc_D1_at2 P q hR
  have h_ddc_D0D1 := ddc_D0D1_at2 P q hR
  have h_ddk1_D0D1 := ddk1_D0D1_at2 P q hR
  have h_dk1_D0 := dk1_D0_at2 P q hR
  have h_dk1_D1 := dk1_D1_at2 P q hR
  have h_k1 := k1_at2 P q hR
  have key := ((((((((hc (2)).mul h_c).mul h_k1).mul h_ddk1_D0D1).add ((((hc (2)).mul h_c).mul h_dk1_D0).mul h_dk1_D1)).add ((h_k1.pow 2).mul h_ddc_D0D1)).add ((((hc
    (2)).mul h_k1).mul h_dc_D0).mul h_dk1_D1)).add ((((hc (2)).mul h_k1).mul h_dc_D1).mul h_dk1_D0))
  refine key.congr_deriv ?_
  simp only [Pi.add_apply, Pi.sub_apply, Pi.neg_apply, Pi.mul_apply, Pi.pow_apply, Pi.div_apply, line_at]
  unfold dddgamma_D1D1D1D0D2
  try simp only [Nat.cast_ofNat, Nat.reduceSub, pow_one]
  try simp only [dddk0_D0D1D0_sym, dddk0_D0D2D0_sym, dddk0_D1D1D0_sym, dddk0_D1D2D1_sym, dddk0_D2D2D0_sym, dddk0_D2D2D1_sym, dddk0_D0D2D1_sym, dddk0_D1D2D0_sym, dddk1_D0D1D0_sym, dddk1_D0D2D0_sym, dddk1_D1D1D0_sym, dddk1_D1D2D1_sym, dddk1_D2D2D0_sym, dddk1_D2D2D1_sym, dddk1_D0D2D1_sym, dddk1_D1D2D0_sym, dddk2_D0D1D0_sym, dddk2_D0D2D0_sym, dddk2_D1D1D0_sym, dddk2_D1D2D1_sym, dddk2_D2D2D0_sym, dddk2_D2D2D1_sym, dddk2_D0D2D1_sym, dddk2_D1D2D0_sym, dddc_D0D1D0_sym, dddc_D0D2D0_sym, dddc_D1D1D0_sym, dddc_D1D2D1_sym, dddc_D2D2D0_sym, dddc_D2D2D1_sym, dddc_D0D2D1_sym, dddc_D1D2D0_sym]
  ring


theorem ddgamma_D1D1D1D2_at0 (P : Par) (q : Pt) (hR : 0 < R P q) : HasDerivAt (line (ddgamma_D1D1D1D2 P) 0 q) (dddgamma_D1D1D1D2D0 P q + 2 * Hlost P q * k1 P q * k1 P q) (q 0) := by
  have hc : ∀ c : ℝ, HasDerivAt (fun _ => c) 0 (q 0) := fun c => hasDerivAt_const _ c
  have h_c := c_at0 P q hR
  have h_dc_D1 := dc_D1_at0 P q hR
  have h_dc_D2 := dc_D2_at0 P q hR
  have h_ddc_D1D2 := ddc_D1D2_at0 P q hR
  have h_ddk1_D1D2 := ddk1_D1D2_at0 P q hR
  have h_dk1_D1 := dk1_D1_at0 P q hR
  have h_dk1_D2 := dk1_D2_at0 P q hR
  have h_k1 := k1_at0 P q hR
  have key := ((((((((hc (2)).mul h_c).mul h_k1).mul h_ddk1_D1D2).add ((((hc (2)).mul h_c).mul h_dk1_D1).mul h_dk1_D2)).add ((h_k1.pow 2).mul h_ddc_D1D2)).add ((((hc
    (2)).mul h_k1).mul h_dc_D1).mul h_dk1_D2)).add ((((hc (2)).mul h_k1).mul h_dc_D2).mul h_dk1_D1))
  refine key.congr_deriv ?_
  simp only [Pi.add_apply, Pi.sub_apply, Pi.neg_apply, Pi.mul_apply, Pi.pow_apply, Pi.div_apply, line_at]
  unfold dddgamma_D1D1D1D2D0
  try simp only [Nat.cast_ofNat, Nat.reduceSub, pow_one]
  try simp only [dddk0_D0D1D0_sym, dddk0_D0D2D0_sym, dddk0_D1D1D0_sym, dddk0_D1D2D1_sym, dddk0_D2D2D0_sym, dddk0_D2D2D1_sym, dddk0_D0D2D1_sym, dddk0_D1D2D0_sym, dddk1_D0D1D0_sym, dddk1_D0D2D0_sym, dddk1_D1D1D0_sym, dddk1_D1D2D1_sym, dddk1_D2D2D0_sym, dddk1_D2D2D1_sym, dddk1_D0D2D1_sym, dddk1_D1D2D0_sym, dddk2_D0D1D0_sym, dddk2_D0D2D0_sym, dddk2_D1D1D0_sym, dddk2_D1D2D1_sym, dddk2_D2D2D0_sym, dddk2_D2D2D1_sym, dddk2_D0D2D1_sym, dddk2_D1D2D0_sym, dddc_D0D1D0_sym, dddc_D0D2D0_sym, dddc_D1D1D0_sym, dddc_D1D2D1_sym, dddc_D2D2D0_sym, dddc_D2D2D1_sym, dddc_D0D2D1_sym, dddc_D1D2D0_sym]
  ring


theorem ddgamma_D1D1D2D0_at1 (P : Par) (q : Pt) (hR : 0 < R P q) : HasDerivAt (line (ddgamma_D1D1D2D0 P) 1 q) (dddgamma_D1D1D2D0D1 P q + 2 * Hlost P q * k1 P q * k1 P q) (q 1) := by
  have hc : ∀ c : ℝ, HasDerivAt (fun _ => c) 0 (q 1) := fun c => hasDerivAt_const _ c
  have h_c := c_at1 P q hR
  have h_dc_D0 := dc_D0_at1 P q hR
  have h_dc_D2 := dc_D2_at1 P q hR
  have h_ddc_D0D2 := ddc_D0D2_at1 P q hR
  have h_ddk1_D0D2 := ddk1_D0D2_at1 P q hR
  have h_dk1_D0 := dk1_D0_at1 P q hR
  have h_dk1_D2 := dk1_D2_at1 P q hR
  have h_k1 := k1_at1 P q hR
  have key := ((((((((hc (2)).mul h_c).mul h_k1).mul h_ddk1_D0D2).add ((((hc (2)).mul h_c).mul h_dk1_D0).mul h_dk1_D2)).add ((h_k1.pow 2).mul h_ddc_D0D2)).add ((((hc
    (2)).mul h_k1).mul h_dc_D0).mul h_dk1_D2)).add ((((hc (2)).mul h_k1).mul h_dc_D2).mul h_dk1_D0))
  refine key.congr_deriv ?_
  simp only [Pi.add_apply, Pi.sub_apply, Pi.neg_apply, Pi.mul_apply, Pi.pow_apply, Pi.div_apply, line_at]
  unfold dddgamma_D1D1D2D0D1
  try simp only [Nat.cast_ofNat, Nat.reduceSub, pow_one]
  try simp only [dddk0_D0D1D0_sym, dddk0_D0D2D0_sym, dddk0_D1D1D0_sym, dddk0_D1D2D1_sym, dddk0_D2D2D0_sym, dddk0_D2D2D1_sym, dddk0_D0D2D1_sym, dddk0_D1D2D0_sym, dddk1_D0D1D0_sym, dddk1_D0D2D0_sym, dddk1_D1D1D0_sym, dddk1_D1D2D1_sym, dddk1_D2D2D0_sym, dddk1_D2D2D1_sym, dddk1_D0D2D1_sym, dddk1_D1D2D0_sym, dddk2_D0D1D0_sym, dddk2_D0D2D0_sym, dddk2_D1D1D0_sym, dddk2_D1D2D1_sym, dddk2_D2D2D0_sym, dddk2_D2D2D1_sym, dddk2_D0D2D1_sym, dddk2_D1D2D0_sym, dddc_D0D1D0_sym, dddc_D0D2D0_sym, dddc_D1D1D0_sym, dddc_D1D2D1_sym, dddc_D2D2D0_sym, dddc_D2D2D1_sym, dddc_D0D2D1_sym, dddc_D1D2D0_sym]
  ring


theorem ddgamma_D1D1D2D1_at0 (P : Par) (q : Pt) (hR : 0 < R P q) : HasDerivAt (line (ddgamma_D1D1D2D1 P) 0 q) (dddgamma_D1D1D2D1D0 P q + 2 * Hlost P q * k1 P q * k1 P q) (q 0) := by
  have hc : ∀ c : ℝ, HasDerivAt (fun _ => c) 0 (q 0) := fun c => hasDerivAt_const _ c
  have h_c := c_at0 P q hR
  have h_dc_D1 := dc_D1_at0 P q hR
  have h_dc_D2 := dc_D2_at0 P q hR
  have h_ddc_D1D2 := ddc_D1D2_at0 P q hR
  have h_ddk1_D1D2 := ddk1_D1D2_at0 P q hR
  have h_dk1_D1 := dk1_D1_at0 P q hR
  have h_dk1_D2 := dk1_D2_at0 P q hR
  have h_k1 := k1_at0 P q hR
  have key := ((((((((hc (2)).mul h_c).mul h_k1).mul h_ddk1_D1D2).add ((((hc (2)).mul h_c).mul h_dk1_D1).mul h_dk1_D2)).add ((h_k1.pow 2).mul h_ddc_D1D2)).add ((((hc
    (2)).mul h_k1).mul h_dc_D1).mul h_dk1_D2)).add ((((hc (2)).mul h_k1).mul h_dc_D2).mul h_dk1_D1))
  refine key.congr_deriv ?_
  simp only [Pi.add_apply, Pi.sub_apply, Pi.neg_apply, Pi.mul_apply, Pi.pow_apply, Pi.div_apply, line_at]
  unfold dddgamma_D1D1D2D1D0
  try simp only [Nat.cast_ofNat, Nat.reduceSub, pow_one]
  try simp only [dddk0_D0D1D0_sym, dddk0_D0D2D0_sym, dddk0_D1D1D0_sym, dddk0_D1D2D1_sym, dddk0_D2D2D0_sym, dddk0_D2D2D1_sym, dddk0_D0D2D1_sym, dddk0_D1D2D0_sym, dddk1_D0D1D0_sym, dddk1_D0D2D0_sym, dddk1_D1D1D0_sym, dddk1_D1D2D1_sym, dddk1_D2D2D0_sym, dddk1_D2D2D1_sym, dddk1_D0D2D1_sym, dddk1_D1D2D0_sym, dddk2_D0D1D0_sym, dddk2_D0D2D0_sym, dddk2_D1D1D0_sym, dddk2_D1D2D1_sym, dddk2_D2D2D0_sym, dddk2_D2D2D1_sym, dddk2_D0D2D1_sym, dddk2_D1D2D0_sym, dddc_D0D1D0_sym, dddc_D0D2D0_sym, dddc_D1D1D0_sym, dddc_D1D2D1_sym, dddc_D2D2D0_sym, dddc_D2D2D1_sym, dddc_D0D2D1_sym, dddc_D1D2D0_sym]
  ring


theorem ddgamma_D1D2D0D1_at2 (P : Par) (q : Pt) (hR : 0 < R P q) : HasDerivAt (line (ddgamma_D1D2D0D1 P) 2 q) (dddgamma_D1D2D0D1D2 P q + 2 * Hlost P q * k1 P q * k2 P q) (q 2) := by
  have hc : ∀ c : ℝ, HasDerivAt (fun _ => c) 0 (q 2) := fun c => hasDerivAt_const _ c
  have h_c := c_at2 P q hR
  have h_dc_D0 := dc_D0_at2 P q hR
  have h_dc_D1 := dc_D1_at2 P q hR
  have h_ddc_D0D1 := ddc_D0D1_at2 P q hR
  have h_ddk1_D0D1 := ddk1_D0D1_at2 P q hR
  have h_ddk2_D0D1 := ddk2_D0D1_at2 P q hR
  have h_dk1_D0 := dk1_D0_at2 P q hR
  have h_dk1_D1 := dk1_D1_at2 P q hR
  have h_dk2_D0 := dk2_D0_at2 P q hR
  have h_dk2_D1 := dk2_D1_at2 P q hR
  have h_k1 := k1_at2 P q hR
  have h_k2 := k2_at2 P q hR
  have key := ((((((((((h_c.mul h_k1).mul h_ddk2_D0D1).add ((h_c.mul h_k2).mul h_ddk1_D0D1)).add ((h_c.mul h_dk1_D0).mul h_dk2_D1)).add ((h_c.mul h_dk1_D1).mul
    h_dk2_D0)).add ((h_k1.mul h_k2).mul h_ddc_D0D1)).add ((h_k1.mul h_dc_D0).mul h_dk2_D1)).add ((h_k1.mul h_dc_D1).mul h_dk2_D0)).add ((h_k2.mul h_dc_D0).mul
    h_dk1_D1)).add ((h_k2.mul h_dc_D1).mul h_dk1_D0))
  refine key.congr_deriv ?_
  simp only [Pi.add_apply, Pi.sub_apply, Pi.neg_apply, Pi.mul_apply, Pi.pow_apply, Pi.div_apply, line_at]
  unfold dddgamma_D1D2D0D1D2
  try simp only [Nat.cast_ofNat, Nat.reduceSub, pow_one]
  try simp only [dddk0_D0D1D0_sym, dddk0_D0D2D0_sym, dddk0_D1D1D0_sym, dddk0_D1D2D1_sym, dddk0_D2D2D0_sym, dddk0_D2D2D1_sym, dddk0_D0D2D1_sym, dddk0_D1D2D0_sym, dddk1_D0D1D0_sym, dddk1_D0D2D0_sym, dddk1_D1D1D0_sym, dddk1_D1D2D1_sym, dddk1_D2D2D0_sym, dddk1_D2D2D1_sym, dddk1_D0D2D1_sym, dddk1_D1D2D0_sym, dddk2_D0D1D0_sym, dddk2_D0D2D0_sym, dddk2_D1D1D0_sym, dddk2_D1D2D1_sym, dddk2_D2D2D0_sym, dddk2_D2D2D1_sym, dddk2_D0D2D1_sym, dddk2_D1D2D0_sym, dddc_D0D1D0_sym, dddc_D0D2D0_sym, dddc_D1D1D0_sym, dddc_D1D2D1_sym, dddc_D2D2D0_sym, dddc_D2D2D1_sym, dddc_D0D2D1_sym, dddc_D1D2D0_sym]
  ring


theorem ddgamma_D1D2D0D2_at1 (P : Par) (q : Pt) (hR : 0 < R P q) : HasDerivAt (line (ddgamma_D1D2D0D2 P) 1 q) (dddgamma_D1D2D0D2D1 P q + 2 * Hlost P q * k1 P q * k2 P q) (q 1) := by
  have hc : ∀ c : ℝ, HasDerivAt (fun _ => c) 0 (q 1) := fun c => hasDerivAt_const _ c
  have h_c := c_at1 P q hR
  have h_dc_D0 := dc_D0_at1 P q hR
  have h_dc_D2 := dc_D2_at1 P q hR
  have h_ddc_D0D2 := ddc_D0D2_at1 P q hR
  have h_ddk1_D0D2 := ddk1_D0D2_at1 P q hR
  have h_ddk2_D0D2 := ddk2_D0D2_at1 P q hR
  have h_dk1_D0 := dk1_D0_at1 P q hR
  have h_dk1_D2 := dk1_D2_at1 P q hR
  have h_dk2_D0 := dk2_D0_at1 P q hR
  have h_dk2_D2 := dk2_D2_at1 P q hR
  have h_k1 := k1_at1 P q hR
  have h_k2 := k2_at1 P q hR
  have key := ((((((((((h_c.mul h_k1).mul h_ddk2_D0D2).add ((h_c.mul h_k2).mul h_ddk1_D0D2)).add ((h_c.mul h_dk1_D0).mul h_dk2_D2)).add ((h_c.mul h_dk1_D2).mul
    h_dk2_D0)).add ((h_k1.mul h_k2).mul h_ddc_D0D2)).add ((h_k1.mul h_dc_D0).mul h_dk2_D2)).add ((h_k1.mul h_dc_D2).mul h_dk2_D0)).add ((h_k2.mul h_dc_D0).mul
    h_dk1_D2)).add ((h_k2.mul h_dc_D2).mul h_dk1_D0))
  refine key.congr_deriv ?_
  simp only [Pi.add_apply, Pi.sub_apply, Pi.neg_apply, Pi.mul_apply, Pi.pow_apply, Pi.div_apply, line_at]
  unfold dddgamma_D1D2D0D2D1
  try simp only [Nat.cast_ofNat, Nat.reduceSub, pow_one]
  try simp only [dddk0_D0D1D0_sym, dddk0_D0D2D0_sym, dddk0_D1D1D0_sym, dddk0_D1D2D1_sym, dddk0_D2D2D0_sym, dddk0_D2D2D1_sym, dddk0_D0D2D1_sym, dddk0_D1D2D0_sym, dddk1_D0D1D0_sym, dddk1_D0D2D0_sym, dddk1_D1D1D0_sym, dddk1_D1D2D1_sym, dddk1_D2D2D0_sym, dddk1_D2D2D1_sym, dddk1_D0D2D1_sym, dddk1_D1D2D0_sym, dddk2_D0D1D0_sym, dddk2_D0D2D0_sym, dddk2_D1D1D0_sym, dddk2_D1D2D1_sym, dddk2_D2D2D0_sym, dddk2_D2D2D1_sym, dddk2_D0D2D1_sym, dddk2_D1D2D0_sym, dddc_D0D1D0_sym, dddc_D0D2D0_sym, dddc_D1D1D0_sym, dddc_D1D2D1_sym, dddc_D2D2D0_sym, dddc_D2D2D1_sym, dddc_D0D2D1_sym, dddc_D1D2D0_sym]
  ring


theorem ddgamma_D1D2D1D0_at2 (P : Par) (q : Pt) (hR : 0 < R P q) : HasDerivAt (line (ddgamma_D1D2D1D0 P) 2 q) (dddgamma_D1D2D1D0D2 P q + 2 * Hlost P q * k1 P q * k2 P q) (q 2) := by
  have hc : ∀ c : ℝ, HasDerivAt (fun _ => c) 0 (q 2) := fun c => hasDerivAt_const _ c
  have h_c := c_at2 P q hR
  have h_dc_D0 := dc_D0_at2 P q hR
  have h_dc_D1 := dc_D1_at2 P q hR
  have h_ddc_D0D1 := ddc_D0D1_at2 P q hR
  have h_ddk1_D0D1 := ddk1_D0D1_at2 P q hR
  have h_ddk2_D0D1 := ddk2_D0D1_at2 P q hR
  have h_dk1_D0 := dk1_D0_at2 P q hR
  have h_dk1_D1 := dk1_D1_at2 P q hR
  have h_dk2_D0 := dk2_D0_at2 P q hR
  have h_dk2_D1 := dk2_D1_at2 P q hR
  have h_k1 := k1_at2 P q hR
  have h_k2 := k2_at2 P q hR
  have key := ((((((((((h_c.mul h_k1).mul h_ddk2_D0D1).add ((h_c.mul h_k2).mul h_ddk1_D0D1)).add ((h_c.mul h_dk1_D0).mul h_dk2_D1)).add ((h_c.mul h_dk1_D1).mul
    h_dk2_D0)).add ((h_k1.mul h_k2).mul h_ddc_D0D1)).add ((h_k1.mul h_dc_D0).mul h_dk2_D1)).add ((h_k1.mul h_dc_D1).mul h_dk2_D0)).add ((h_k2.mul h_dc_D0).mul
    h_dk1_D1)).add ((h_k2.mul h_dc_D1).mul h_dk1_D0))
  refine key.congr_deriv ?_
  simp only [Pi.add_apply, Pi.sub_apply, Pi.neg_apply, Pi.mul_apply, Pi.pow_apply, Pi.div_apply, line_at]
  unfold dddgamma_D1D2D1D0D2
  try simp only [Nat.cast_ofNat, Nat.reduceSub, pow_one]
  try simp only [dddk0_D0D1D0_sym, dddk0_D0D2D0_sym, dddk0_D1D1D0_sym, dddk0_D1D2D1_sym, dddk0_D2D2D0_sym, dddk0_D2D2D1_sym, dddk0_D0D2D1_sym, dddk0_D1D2D0_sym, dddk1_D0D1D0_sym, dddk1_D0D2D0_sym, dddk1_D1D1D0_sym, dddk1_D1D2D1_sym, dddk1_D2D2D0_sym, dddk1_D2D2D1_sym, dddk1_D0D2D1_sym, dddk1_D1D2D0_sym, dddk2_D0D1D0_sym, dddk2_D0D2D0_sym, dddk2_D1D1D0_sym, dddk2_D1D2D1_sym, dddk2_D2D2D0_sym, dddk2_D2D2D1_sym, dddk2_D0D2D1_sym, dddk2_D1D2D0_sym, dddc_D0D1D0_sym, dddc_D0D2D0_sym, dddc_D1D1D0_sym, dddc_D1D2D1_sym, dddc_D2D2D0_sym, dddc_D2D2D1_sym, dddc_D0D2D1_sym, dddc_D1D2D0_sym]
  ring


theorem ddgamma_D1D2D1D2_at0 (P : Par) (q : Pt) (hR : 0 < R P q) : HasDerivAt (line (ddgamma_D1D2D1D2 P) 0 q) (dddgamma_D1D2D1D2D0 P q + 2 * Hlost P q * k1 P q * k2 P q) (q 0) := by
  have hc : ∀ c : ℝ, HasDerivAt (fun _ => c) 0 (q 0) := fun c => hasDerivAt_const _ c
  have h_c := c_at0 P q hR
  have h_dc_D1 := dc_D1_at0 P q hR
  have h_dc_D2 := dc_D2_at0 P q hR
  have h_ddc_D1D2 := ddc_D1D2_at0 P q hR
  have h_ddk1_D1D2 := ddk1_D1D2_at0 P q hR
  have h_ddk2_D1D2 := ddk2_D1D2_at0 P q hR
  have h_dk1_D1 := dk1_D1_at0 P q hR
  have h_dk1_D2 := dk1_D2_at0 P q hR
  have h_dk2_D1 := dk2_D1_at0 P q hR
  have h_dk2_D2 := dk2_D2_at0 P q hR
  have h_k1 := k1_at0 P q hR
  have h_k2 := k2_at0 P q hR
  have key := ((((((((((h_c.mul h_k1).mul h_ddk2_D1D2).add ((h_c.mul h_k2).mul h_ddk1_D1D2)).add ((h_c.mul h_dk1_D1).mul h_dk2_D2)).add ((h_c.mul h_dk1_D2).mul
    h_dk2_D1)).add ((h_k1.mul h_k2).mul h_ddc_D1D2)).add ((h_k1.mul h_dc_D1).mul h_dk2_D2)).add ((h_k1.mul h_dc_D2).mul h_dk2_D1)).add ((h_k2.mul h_dc_D1).mul
    h_dk1_D2)).add ((h_k2.mul h_dc_D2).mul h_dk1_D1))
  refine key.congr_deriv ?_
  simp only [Pi.add_apply, Pi.sub_apply, Pi.neg_apply, Pi.mul_apply, Pi.pow_apply, Pi.div_apply, line_at]
  unfold dddgamma_D1D2D1D2D0
  try simp only [Nat.cast_ofNat, Nat.reduceSub, pow_one]
  try simp only [dddk0_D0D1D0_sym, dddk0_D0D2D0_sym, dddk0_D1D1D0_sym, dddk0_D1D2D1_sym, dddk0_D2D2D0_sym, dddk0_D2D2D1_sym, dddk0_D0D2D1_sym, dddk0_D1D2D0_sym, dddk1_D0D1D0_sym, dddk1_D0D2D0_sym, dddk1_D1D1D0_sym, dddk1_D1D2D1_sym, dddk1_D2D2D0_sym, dddk1_D2D2D1_sym, dddk1_D0D2D1_sym, dddk1_D1D2D0_sym, dddk2_D0D1D0_sym, dddk2_D0D2D0_sym, dddk2_D1D1D0_sym, dddk2_D1D2D1_sym, dddk2_D2D2D0_sym, dddk2_D2D2D1_sym, dddk2_D0D2D1_sym, dddk2_D1D2D0_sym, dddc_D0D1D0_sym, dddc_D0D2D0_sym, dddc_D1D1D0_sym, dddc_D1D2D1_sym, dddc_D2D2D0_sym, dddc_D2D2D1_sym, dddc_D0D2D1_sym, dddc_D1D2D0_sym]
  ring


theorem ddgamma_D1D2D2D0_at1 (P : Par) (q : Pt) (hR : 0 < R P q) : HasDerivAt (line (ddgamma_D1D2D2D0 P) 1 q) (dddgamma_D1D2D2D0D1 P q + 2 * Hlost P q * k1 P q * k2 P q) (q 1) := by
  have hc : ∀ c : ℝ, HasDerivAt (fun _ => c) 0 (q 1) := fun c => hasDerivAt_const _ c
  have h_c := c_at1 P q hR
  have h_dc_D0 := dc_D0_at1 P q hR
  have h_dc_D2 := dc_D2_at1 P q hR
  have h_ddc_D0D2 := ddc_D0D2_at1 P q hR
  have h_ddk1_D0D2 := ddk1_D0D2_at1 P q hR
  have h_ddk2_D0D2 := ddk2_D0D2_at1 P q hR
  have h_dk1_D0 := dk1_D0_at1 P q hR
  have h_dk1_D2 := dk1_D2_at1 P q hR
  have h_dk2_D0 := dk2_D0_at1 P q hR
  have h_dk2_D2 := dk2_D2_at1 P q hR
  have h_k1 := k1_at1 P q hR
  have h_k2 := k2_at1 P q hR
  have key := ((((((((((h_c.mul h_k1).mul h_ddk2_D0D2).add ((h_c.mul h_k2).mul h_ddk1_D0D2)).add ((h_c.mul h_dk1_D0).mul h_dk2_D2)).add ((h_c.mul h_dk1_D2).mul
    h_dk2_D0)).add ((h_k1.mul h_k2).mul h_ddc_D0D2)).add ((h_k1.mul h_dc_D0).mul h_dk2_D2)).add ((h_k1.mul h_dc_D2).mul h_dk2_D0)).add ((h_k2.mul h_dc_D0).mul
    h_dk1_D2)).add ((h_k2.mul h_dc_D2).mul h_dk1_D0))
  refine key.congr_deriv ?_
  simp only [Pi.add_apply, Pi.sub_apply, Pi.neg_apply, Pi.mul_apply, Pi.pow_apply, Pi.div_apply, line_at]
  unfold dddgamma_D1D2D2D0D1
  try simp only [Nat.cast_ofNat, Nat.reduceSub, pow_one]
  try simp only [dddk0_D0D1D0_sym, dddk0_D0D2D0_sym, dddk0_D1D1D0_sym, dddk0_D1D2D1_sym, dddk0_D2D2D0_sym, dddk0_D2D2D1_sym, dddk0_D0D2D1_sym, dddk0_D1D2D0_sym, dddk1_D0D1D0_sym, dddk1_D0D2D0_sym, dddk1_D1D1D0_sym, dddk1_D1D2D1_sym, dddk1_D2D2D0_sym, dddk1_D2D2D1_sym, dddk1_D0D2D1_sym, dddk1_D1D2D0_sym, dddk2_D0D1D0_sym, dddk2_D0D2D0_sym, dddk2_D1D1D0_sym, dddk2_D1D2D1_sym, dddk2_D2D2D0_sym, dddk2_D2D2D1_sym, dddk2_D0D2D1_sym, dddk2_D1D2D0_sym, dddc_D0D1D0_sym, dddc_D0D2D0_sym, dddc_D1D1D0_sym, dddc_D1D2D1_sym, dddc_D2D2D0_sym, dddc_D2D2D1_sym, dddc_D0D2D1_sym, dddc_D1D2D0_sym]
  ring


theorem ddgamma_D1D2D2D1_at0 (P : Par) (q : Pt) (hR : 0 < R P q) : HasDerivAt (line (ddgamma_D1D2D2D1 P) 0 q) (dddgamma_D1D2D2D1D0 P q + 2 * Hlost P q * k1 P q * k2 P q) (q 0) := by
  have hc : ∀ c : ℝ, HasDerivAt (fun _ => c) 0 (q 0) := fun c => hasDerivAt_const _ c
  have h_c := c_at0 P q hR
  have h_dc_D1 := dc_D1_at0 P q hR
  have h_dc_D2 := dc_D2_at0 P q hR
  have h_ddc_D1D2 := ddc_D1D2_at0 P q hR
  have h_ddk1_D1D2 := ddk1_D1D2_at0 P q hR
  have h_ddk2_D1D2 := ddk2_D1D2_at0 P q hR
  have h_dk1_D1 := dk1_D1_at0 P q hR
  have h_dk1_D2 := dk1_D2_at0 P q hR
  have h_dk2_D1 := dk2_D1_at0 P q hR
  have h_dk2_D2 := dk2_D2_at0 P q hR
  have h_k1 := k1_at0 P q hR
  have h_k2 := k2_at0 P q hR
  have key := ((((((((((h_c.mul h_k1).mul h_ddk2_D1D2).add ((h_c.mul h_k2).mul h_ddk1_D1D2)).add ((h_c.mul h_dk1_D1).mul h_dk2_D2)).add ((h_c.mul h_dk1_D2).mul
    h_dk2_D1)).add ((h_k1.mul h_k2).mul h_ddc_D1D2)).add ((h_k1.mul h_dc_D1).mul h_dk2_D2)).add ((h_k1.mul h_dc_D2).mul h_dk2_D1)).add ((h_k2.mul h_dc_D1).mul
    h_dk1_D2)).add ((h_k2.mul h_dc_D2).mul h_dk1_D1))
  refine key.congr_deriv ?_
  simp only [Pi.add_apply, Pi.sub_apply, Pi.neg_apply, Pi.mul_apply, Pi.pow_apply, Pi.div_apply, line_at]
  unfold dddgamma_D1D2D2D1D0
  try simp only [Nat.cast_ofNat, Nat.reduceSub, pow_one]
  try simp only [dddk0_D0D1D0_sym, dddk0_D0D2D0_sym, dddk0_D1D1D0_sym, dddk0_D1D2D1_sym, dddk0_D2D2D0_sym, dddk0_D2D2D1_sym, dddk0_D0D2D1_sym, dddk0_D1D2D0_sym, dddk1_D0D1D0_sym, dddk1_D0D2D0_sym, dddk1_D1D1D0_sym, dddk1_D1D2D1_sym, dddk1_D2D2D0_sym, dddk1_D2D2D1_sym, dddk1_D0D2D1_sym, dddk1_D1D2D0_sym, dddk2_D0D1D0_sym, dddk2_D0D2D0_sym, dddk2_D1D1D0_sym, dddk2_D1D2D1_sym, dddk2_D2D2D0_sym, dddk2_D2D2D1_sym, dddk2_D0D2D1_sym, dddk2_D1D2D0_sym, dddc_D0D1D0_sym, dddc_D0D2D0_sym, dddc_D1D1D0_sym, dddc_D1D2D1_sym, dddc_D2D2D0_sym, dddc_D2D2D1_sym, dddc_D0D2D1_sym, dddc_D1D2D0_sym]
  ring


theorem ddgamma_D2D2D0D1_at2 (P : Par) (q : Pt) (hR : 0 < R P q) : HasDerivAt (line (ddgamma_D2D2D0D1 P) 2 q) (dddgamma_D2D2D0D1D2 P q + 2 * Hlost P q * k2 P q * k2 P q) (q 2) := by
  have hc : ∀ c : ℝ, HasDerivAt (fun _ => c) 0 (q 2) := fun c => hasDerivAt_const _ c
  have h_c := c_at2 P q hR
  have h_dc_D0 := dc_D0_at2 P q hR
  have h_dc_D1 := dc_D1_at2 P q hR
  have h_ddc_D0D1 := ddc_D0D1_at2 P q hR
  have h_ddk2_D0D1 := ddk2_D0D1_at2 P q hR
  have h_dk2_D0 := dk2_D0_at2 P q hR
  have h_dk2_D1 := dk2_D1_at2 P q hR
  have h_k2 := k2_at2 P q hR
  have key := ((((((((hc (2)).mul h_c).mul h_k2).mul h_ddk2_D0D1).add ((((hc (2)).mul h_c).mul h_dk2_D0).mul h_dk2_D1)).add ((h_k2.pow 2).mul h_ddc_D0D1)).add ((((hc
    (2)).mul h_k2).mul h_dc_D0).mul h_dk2_D1)).add ((((hc (2)).mul h_k2).mul h_dc_D1).mul h_dk2_D0))
  refine key.congr_deriv ?_
  simp only [Pi.add_apply, Pi.sub_apply, Pi.neg_apply, Pi.mul_apply, Pi.pow_apply, Pi.div_apply, line_at]
  unfold dddgamma_D2D2D0D1D2
  try simp only [Nat.cast_ofNat, Nat.reduceSub, pow_one]
  try simp only [dddk0_D0D1D0_sym, dddk0_D0D2D0_sym, dddk0_D1D1D0_sym, dddk0_D1D2D1_sym, dddk0_D2D2D0_sym, dddk0_D2D2D1_sym, dddk0_D0D2D1_sym, dddk0_D1D2D0_sym, dddk1_D0D1D0_sym, dddk1_D0D2D0_sym, dddk1_D1D1D0_sym, dddk1_D1D2D1_sym, dddk1_D2D2D0_sym, dddk1_D2D2D1_sym, dddk1_D0D2D1_sym, dddk1_D1D2D0_sym, dddk2_D0D1D0_sym, dddk2_D0D2D0_sym, dddk2_D1D1D0_sym, dddk2_D1D2D1_sym, dddk2_D2D2D0_sym, dddk2_D2D2D1_sym, dddk2_D0D2D1_sym, dddk2_D1D2D0_sym, dddc_D0D1D0_sym, dddc_D0D2D0_sym, dddc_D1D1D0_sym, dddc_D1D2D1_sym, dddc_D2D2D0_sym, dddc_D2D2D1_sym, dddc_D0D2D1_sym, dddc_D1D2D0_sym]
  ring


theorem ddgamma_D2D2D0D2_at1 (P : Par) (q : Pt) (hR : 0 < R P q) : HasDerivAt (line (ddgamma_D2D2D0D2 P) 1 q) (dddgamma_D2D2D0D2D1 P q + 2 * Hlost P q * k2 P q * k2 P q) (q 1) := by
  have hc : ∀ c : ℝ, HasDerivAt (fun _ => c) 0 (q 1) := fun c => hasDerivAt_const _ c
  have h_c := c_at1 P q hR
  have h_dc_D0 := dc_D0_at1 P q hR
  have h_dc_D2 := dc_D2_at1 P q hR
  have h_ddc_D0D2 := ddc_D0D2_at1 P q hR
  have h_ddk2_D0D2 := ddk2_D0D2_at1 P q hR
  have h_dk2_D0 := dk2_D0_at1 P q hR
  have h_dk2_D2 := dk2_D2_at1 P q hR
  have h_k2 := k2_at1 P q hR
  have key := ((((((((hc (2)).mul h_c).mul h_k2).mul h_ddk2_D0D2).add ((((hc (2)).mul h_c).mul h_dk2_D0).mul h_dk2_D2)).add ((h_k2.pow 2).mul h_ddc_D0D2)).add ((((hc
    (2)).mul h_k2).mul h_dc_D0).mul h_dk2_D2)).add ((((hc (2)).mul h_k2).mul h_dc_D2).mul h_dk2_D0))
  refine key.congr_deriv ?_
  simp only [Pi.add_apply, Pi.sub_apply, Pi.neg_apply, Pi.mul_apply, Pi.pow_apply, Pi.div_apply, line_at]
  unfold dddgamma_D2D2D0D2D1
  try simp only [Nat.cast_ofNat, Nat.reduceSub, pow_one]
  try simp only [dddk0_D0D1D0_sym, dddk0_D0D2D0_sym, dddk0_D1D1D0_sym, dddk0_D1D2D1_sym, dddk0_D2D2D0_sym, dddk0_D2D2D1_sym, dddk0_D0D2D1_sym, dddk0_D1D2D0_sym, dddk1_D0D1D0_sym, dddk1_D0D2D0_sym, dddk1_D1D1D0_sym, dddk1_D1D2D1_sym, dddk1_D2D2D0_sym, dddk1_D2D2D1_sym, dddk1_D0D2D1_sym, dddk1_D1D2D0_sym, dddk2_D0D1D0_sym, dddk2_D0D2D0_sym, dddk2_D1D1D0_sym, dddk2_D1D2D1_sym, dddk2_D2D2D0_sym, dddk2_D2D2D1_sym, dddk2_D0D2D1_sym, dddk2_D1D2D0_sym, dddc_D0D1D0_sym, dddc_D0D2D0_sym, dddc_D1D1D0_sym, dddc_D1D2D1_sym, dddc_D2D2D0_sym, dddc_D2D2D1_sym, dddc_D0D2D1_sym, dddc_D1D2D0_sym]
  ring


theorem ddgamma_D2D2D1D0_at2 (P : Par) (q : Pt) (hR : 0 < R P q) : HasDerivAt (line (ddgamma_D2D2D1D0 P) 2 q) (dddgamma_D2D2D1D0D2 P q + 2 * Hlost P q * k2 P q * k2 P q) (q 2) := by
  have hc : ∀ c : ℝ, HasDerivAt (fun _ => c) 0 (q 2) := fun c => hasDerivAt_const _ c
  have h_c := c_at2 P q hR
  have h_dc_D0 := dc_D0_at2 P q hR
  have h_dc_D1 := dc_D1_at2 P q hR
  have h_ddc_D0D1 := ddc_D0D1_at2 P q hR
  have h_ddk2_D0D1 := ddk2_D0D1_at2 P q hR
  have h_dk2_D0 := dk2_D0_at2 P q hR
  have h_dk2_D1 := dk2_D1_at2 P q hR
  have h_k2 := k2_at2 P q hR
  have key := ((((((((hc (2)).mul h_c).mul h_k2).mul h_ddk2_D0D1).add ((((hc (2)).mul h_c).mul h_dk2_D0).mul h_dk2_D1)).add ((h_k2.pow 2).mul h_ddc_D0D1)).add ((((hc
    (2)).mul h_k2).mul h_dc_D0).mul h_dk2_D1)).add ((((hc (2)).mul h_k2).mul h_dc_D1).mul h_dk2_D0))
  refine key.congr_deriv ?_
  simp only [Pi.add_apply, Pi.sub_apply, Pi.neg_apply, Pi.mul_apply, Pi.pow_apply, Pi.div_apply, line_at]
  unfold dddgamma_D2D2D1D0D2
  try simp only [Nat.cast_ofNat, Nat.reduceSub, pow_one]
  try simp only [dddk0_D0D1D0_sym, dddk0_D0D2D0_sym, dddk0_D1D1D0_sym, dddk0_D1D2D1_sym, dddk0_D2D2D0_sym, dddk0_D2D2D1_sym, dddk0_D0D2D1_sym, dddk0_D1D2D0_sym, dddk1_D0D1D0_sym, dddk1_D0D2D0_sym, dddk1_D1D1D0_sym, dddk1_D1D2D1_sym, dddk1_D2D2D0_sym, dddk1_D2D2D1_sym, dddk1_D0D2D1_sym, dddk1_D1D2D0_sym, dddk2_D0D1D0_sym, dddk2_D0D2D0_sym, dddk2_D1D1D0_sym, dddk2_D1D2D1_sym, dddk2_D2D2D0_sym, dddk2_D2D2D1_sym, dddk2_D0D2D1_sym, dddk2_D1D2D0_sym, dddc_D0D1D0_sym, dddc_D0D2D0_sym, dddc_D1D1D0_sym, dddc_D1D2D1_sym, dddc_D2D2D0_sym, dddc_D2D2D1_sym, dddc_D0D2D1_sym, dddc_D1D2D0_sym]
  ring


theorem ddgamma_D2D2D1D2_at0 (P : Par) (q : Pt) (hR : 0 < R P q) : HasDerivAt (line (ddgamma_D2D2D1D2 P) 0 q) (dddgamma_D2D2D1D2D0 P q + 2 * Hlost P q * k2 P q * k2 P q) (q 0) := by
  have hc : ∀ c : ℝ, HasDerivAt (fun _ => c) 0 (q 0) := fun c => hasDerivAt_const _ c
  have h_c := c_at0 P q hR
  have h_dc_D1 := dc_D1_at0 P q hR
  have h_dc_D2 := dc_D2_at0 P q hR
  have h_ddc_D1D2 := ddc_D1D2_at0 P q hR
  have h_ddk2_D1D2 := ddk2_D1D2_at0 P q hR
  have h_dk2_D1 := dk2_D1_at0 P q hR
  have h_dk2_D2 := dk2_D2_at0 P q hR
  have h_k2 := k2_at0 P q hR
  have key := ((((((((hc (2)).mul h_c).mul h_k2).mul h_ddk2_D1D2).add ((((hc (2)).mul h_c).mul h_dk2_D1).mul h_dk2_D2)).add ((h_k2.pow 2).mul h_ddc_D1D2)).add ((((hc
    (2)).mul h_k2).mul h_dc_D1).mul h_dk2_D2)).add ((((hc (2)).mul h_k2).mul h_dc_D2).mul h_dk2_D1))
  refine key.congr_deriv ?_
  simp only [Pi.add_apply, Pi.sub_apply, Pi.neg_apply, Pi.mul_apply, Pi.pow_apply, Pi.div_apply, line_at]
  unfold dddgamma_D2D2D1D2D0
  try simp only [Nat.cast_ofNat, Nat.reduceSub, pow_one]
  try simp only [dddk0_D0D1D0_sym, dddk0_D0D2D0_sym, dddk0_D1D1D0_sym, dddk0_D1D2D1_sym, dddk0_D2D2D0_sym, dddk0_D2D2D1_sym, dddk0_D0D2D1_sym, dddk0_D1D2D0_sym, dddk1_D0D1D0_sym, dddk1_D0D2D0_sym, dddk1_D1D1D0_sym, dddk1_D1D2D1_sym, dddk1_D2D2D0_sym, dddk1_D2D2D1_sym, dddk1_D0D2D1_sym, dddk1_D1D2D0_sym, dddk2_D0D1D0_sym, dddk2_D0D2D0_sym, dddk2_D1D1D0_sym, dddk2_D1D2D1_sym, dddk2_D2D2D0_sym, dddk2_D2D2D1_sym, dddk2_D0D2D1_sym, dddk2_D1D2D0_sym, dddc_D0D1D0_sym, dddc_D0D2D0_sym, dddc_D1D1D0_sym, dddc_D1D2D1_sym, dddc_D2D2D0_sym, dddc_D2D2D1_sym, dddc_D0D2D1_sym, dddc_D1D2D0_sym]
  ring


theorem ddgamma_D2D2D2D0_at1 (P : Par) (q : Pt) (hR : 0 < R P q) : HasDerivAt (line (ddgamma_D2D2D2D0 P) 1 q) (dddgamma_D2D2D2D0D1 P q + 2 * Hlost P q * k2 P q * k2 P q) (q 1) := by
  have hc : ∀ c : ℝ, HasDerivAt (fun _ => c) 0 (q 1) := fun c => hasDerivAt_const _ c
  have h_c := c_at1 P q hR
  have h_dc_D0 := dc_D0_at1 P q hR
  have h_dc_D2 := dc_D2_at1 P q hR
  have h_ddc_D0D2 := ddc_D0D2_at1 P q hR
  have h_ddk2_D0D2 := ddk2_D0D2_at1 P q hR
  have h_dk2_D0 := dk2_D0_at1 P q hR
  have h_dk2_D2 := dk2_D2_at1 P q hR
  have h_k2 := k2_at1 P q hR
  have key := ((((((((hc (2)).mul h_c).mul h_k2).mul h_ddk2_D0D2).add ((((hc (2)).mul h_c).mul h_dk2_D0).mul h_dk2_D2)).add ((h_k2.pow 2).mul h_ddc_D0D2)).add ((((hc
    (2)).mul h_k2).mul h_dc_D0).mul h_dk2_D2)).add ((((hc (2)).mul h_k2).mul h_dc_D2).mul h_dk2_D0))
  refine key.congr_deriv ?_
  simp only [Pi.add_apply, Pi.sub_apply, Pi.neg_apply, Pi.mul_apply, Pi.pow_apply, Pi.div_apply, line_at]
  unfold dddgamma_D2D2D2D0D1
  try simp only [Nat.cast_ofNat, Nat.reduceSub, pow_one]
  try simp only [dddk0_D0D1D0_sym, dddk0_D0D2D0_sym, dddk0_D1D1D0_sym, dddk0_D1D2D1_sym, dddk0_D2D2D0_sym, dddk0_D2D2D1_sym, dddk0_D0D2D1_sym, dddk0_D1D2D0_sym, dddk1_D0D1D0_sym, dddk1_D0D2D0_sym, dddk1_D1D1D0_sym, dddk1_D1D2D1_sym, dddk1_D2D2D0_sym, dddk1_D2D2D1_sym, dddk1_D0D2D1_sym, dddk1_D1D2D0_sym, dddk2_D0D1D0_sym, dddk2_D0D2D0_sym, dddk2_D1D1D0_sym, dddk2_D1D2D1_sym, dddk2_D2D2D0_sym, dddk2_D2D2D1_sym, dddk2_D0D2D1_sym, dddk2_D1D2D0_sym, dddc_D0D1D0_sym, dddc_D0D2D0_sym, dddc_D1D1D0_sym, dddc_D1D2D1_sym, dddc_D2D2D0_sym, dddc_D2D2D1_sym, dddc_D0D2D1_sym, dddc_D1D2D0_sym]
  ring


theorem ddgamma_D2D2D2D1_at0 (P : Par) (q : Pt) (hR : 0 < R P q) : HasDerivAt (line (ddgamma_D2D2D2D1 P) 0 q) (dddgamma_D2D2D2D1D0 P q + 2 * Hlost P q * k2 P q * k2 P q) (q 0) := by
  have hc : ∀ c : ℝ, HasDerivAt (fun _ => c) 0 (q 0) := fun c => hasDerivAt_const _ c
  have h_c := c_at0 P q hR
  have h_dc_D1 := dc_D1_at0 P q hR
  have h_dc_D2 := dc_D2_at0 P q hR
  have h_ddc_D1D2 := ddc_D1D2_at0 P q hR
  have h_ddk2_D1D2 := ddk2_D1D2_at0 P q hR
  have h_dk2_D1 := dk2_D1_at0 P q hR
  have h_dk2_D2 := dk2_D2_at0 P q hR
  have h_k2 := k2_at0 P q hR
  have key := ((((((((hc (2)).mul h_c).mul h_k2).mul h_ddk2_D1D2).add ((((hc (2)).mul h_c).mul h_dk2_D1).mul h_dk2_D2)).add ((h_k2.pow 2).mul h_ddc_D1D2)).add ((((hc
    (2)).mul h_k2).mul h_dc_D1).mul h_dk2_D2)).add ((((hc (2)).mul h_k2).mul h_dc_D2).mul h_dk2_D1))
  refine key.congr_deriv ?_
  simp only [Pi.add_apply, Pi.sub_apply, Pi.neg_apply, Pi.mul_apply, Pi.pow_apply, Pi.div_apply, line_at]
  unfold dddgamma_D2D2D2D1D0
  try simp only [Nat.cast_ofNat, Nat.reduceSub, pow_one]
  try simp only [dddk0_D0D1D0_sym, dddk0_D0D2D0_sym, dddk0_D1D1D0_sym, dddk0_D1D2D1_sym, dddk0_D2D2D0_sym, dddk0_D2D2D1_sym, dddk0_D0D2D1_sym, dddk0_D1D2D0_sym, dddk1_D0D1D0_sym, dddk1_D0D2D0_sym, dddk1_D1D1D0_sym, dddk1_D1D2D1_sym, dddk1_D2D2D0_sym, dddk1_D2D2D1_sym, dddk1_D0D2D1_sym, dddk1_D1D2D0_sym, dddk2_D0D1D0_sym, dddk2_D0D2D0_sym, dddk2_D1D1D0_sym, dddk2_D1D2D1_sym, dddk2_D2D2D0_sym, dddk2_D2D2D1_sym, dddk2_D0D2D1_sym, dddk2_D1D2D0_sym, dddc_D0D1D0_sym, dddc_D0D2D0_sym, dddc_D1D1D0_sym, dddc_D1D2D1_sym, dddc_D2D2D0_sym, dddc_D2D2D1_sym, dddc_D0D2D1_sym, dddc_D1D2D0_sym]
  ring


theorem ddH_mixed (P : Par) (q : Pt) (hR : 0 < R P q) : ∀ i j k : Fin 3, i ≠ j → i ≠ k → j ≠ k → HasDerivAt (line (ddH P i j) k q) (dddH P i j k q + Hlost P q) (q k)
  | 0, 0, 0, h, _, _ => absurd rfl h
  | 0, 0, 1, h, _, _ => absurd rfl h
  | 0, 0, 2, h, _, _ => absurd rfl h
  | 0, 1, 0, _, h, _ => absurd rfl h
  | 0, 1, 1, _, _, h => absurd rfl h
  | 0, 1, 2, _, _, _ => ddH_D0D1_at2 P q hR
  | 0, 2, 0, _, h, _ => absurd rfl h
  | 0, 2, 1, _, _, _ => ddH_D0D2_at1 P q hR
  | 0, 2, 2, _, _, h => absurd rfl h
  | 1, 0, 0, _, _, h => absurd rfl h
  | 1, 0, 1, _, h, _ => absurd rfl h
  | 1, 0, 2, _, _, _ => ddH_D0D1_at2 P q hR
  | 1, 1, 0, h, _, _ => absurd rfl h
  | 1, 1, 1, h, _, _ => absurd rfl h
  | 1, 1, 2, h, _, _ => absurd rfl h
  | 1, 2, 0, _, _, _ => ddH_D1D2_at0 P q hR
  | 1, 2, 1, _, h, _ => absurd rfl h
  | 1, 2, 2, _, _, h => absurd rfl h
  | 2, 0, 0, _, _, h => absurd rfl h
  | 2, 0, 1, _, _, _ => ddH_D0D2_at1 P q hR
  | 2, 0, 2, _, h, _ => absurd rfl h
  | 2, 1, 0, _, _, _ => ddH_D1D2_at0 P q hR
  | 2, 1, 1, _, _, h => absurd rfl h
  | 2, 1, 2, _, h, _ => absurd rfl h
  | 2, 2, 0, h, _, _ => absurd rfl h
  | 2, 2, 1, h, _, _ => absurd rfl h
  | 2, 2, 2, h, _, _ => absurd rfl h

theorem ddc_mixed (P : Par) (q : Pt) (hR : 0 < R P q) : ∀ i j k : Fin 3, i ≠ j → i ≠ k → j ≠ k → HasDerivAt (line (ddc P i j) k q) (dddc P i j k q + 2 * Hlost P q) (q k)
  | 0, 0, 0, h, _, _ => absurd rfl h
  | 0, 0, 1, h, _, _ => absurd rfl h
  | 0, 0, 2, h, _, _ => absurd rfl h
  | 0, 1, 0, _, h, _ => absurd rfl h
  | 0, 1, 1, _, _, h => absurd rfl h
  | 0, 1, 2, _, _, _ => ddc_D0D1_at2 P q hR
  | 0, 2, 0, _, h, _ => absurd rfl h
  | 0, 2, 1, _, _, _ => ddc_D0D2_at1 P q hR
  | 0, 2, 2, _, _, h => absurd rfl h
  | 1, 0, 0, _, _, h => absurd rfl h
  | 1, 0, 1, _, h, _ => absurd rfl h
  | 1, 0, 2, _, _, _ => ddc_D0D1_at2 P q hR
  | 1, 1, 0, h, _, _ => absurd rfl h
  | 1, 1, 1, h, _, _ => absurd rfl h
  | 1, 1, 2, h, _, _ => absurd rfl h
  | 1, 2, 0, _, _, _ => ddc_D1D2_at0 P q hR
  | 1, 2, 1, _, h, _ => absurd rfl h
  | 1, 2, 2, _, _, h => absurd rfl h
  | 2, 0, 0, _, _, h => absurd rfl h
  | 2, 0, 1, _, _, _ => ddc_D0D2_at1 P q hR
  | 2, 0, 2, _, h, _ => absurd rfl h
  | 2, 1, 0, _, _, _ => ddc_D1D2_at0 P q hR
  | 2, 1, 1, _, _, h => absurd rfl h
  | 2, 1, 2, _, h, _ => absurd rfl h
  | 2, 2, 0, h, _, _ => absurd rfl h
  | 2, 2, 1, h, _, _ => absurd rfl h
  | 2, 2, 2, h, _, _ => absurd rfl h

/-- the null vector by index -/
noncomputable def kv (P : Par) (q : Pt) : Fin 3 → ℝ := ![k0 P q, k1 P q, k2 P q]

theorem ddgam_mixed (P : Par) (q : Pt) (hR : 0 < R P q) : ∀ i j k l m : Fin 3, k ≠ l → k ≠ m → l ≠ m → HasDerivAt (line (ddgam P i j k l) m q) (dddgam P i j k l m q + 2 * Hlost P q * kv P q i * kv P q j) (q m)
  | 0, 0, 0, 0, 0, h, _, _ => absurd rfl h
  | 0, 0, 0, 0, 1, h, _, _ => absurd rfl h
  | 0, 0, 0, 0, 2, h, _, _ => absurd rfl h
  | 0, 0, 0, 1, 0, _, h, _ => absurd rfl h
  | 0, 0, 0, 1, 1, _, _, h => absurd rfl h
  | 0, 0, 0, 1, 2, _, _, _ => ddgamma_D0D0D0D1_at2 P q hR
  | 0, 0, 0, 2, 0, _, h, _ => absurd rfl h
  | 0, 0, 0, 2, 1, _, _, _ => ddgamma_D0D0D0D2_at1 P q hR
  | 0, 0, 0, 2, 2, _, _, h => absurd rfl h
  | 0, 0, 1, 0, 0, _, _, h => absurd rfl h
  | 0, 0, 1, 0, 1, _, h, _ => absurd rfl h
  | 0, 0, 1, 0, 2, _, _, _ => ddgamma_D0D0D1D0_at2 P q hR
  | 0, 0, 1, 1, 0, h, _, _ => absurd rfl h
  | 0, 0, 1, 1, 1, h, _, _ => absurd rfl h
  | 0, 0, 1, 1, 2, h, _, _ => absurd rfl h
  | 0, 0, 1, 2, 0, _, _, _ => ddgamma_D0D0D1D2_at0 P q hR
  | 0, 0, 1, 2, 1, _, h, _ => absurd rfl h
  | 0, 0, 1, 2, 2, _, _, h => absurd rfl h
  | 0, 0, 2, 0, 0, _, _, h => absurd rfl h
  | 0, 0, 2, 0, 1, _, _, _ => ddgamma_D0D0D2D0_at1 P q hR
  | 0, 0, 2, 0, 2, _, h, _ => absurd rfl h
  | 0, 0, 2, 1, 0, _, _, _ => ddgamma_D0D0D2D1_at0 P q hR
  | 0, 0, 2, 1, 1, _, _, h => absurd rfl h
  | 0, 0, 2, 1, 2, _, h, _ => absurd rfl h
  | 0, 0, 2, 2, 0, h, _, _ => absurd rfl h
  | 0, 0, 2, 2, 1, h, _, _ => absurd rfl h
  | 0, 0, 2, 2, 2, h, _, _ => absurd rfl h
  | 0, 1, 0, 0, 0, h, _, _ => absurd rfl h
  | 0, 1, 0, 0, 1, h, _, _ => absurd rfl h
  | 0, 1, 0, 0, 2, h, _, _ => absurd rfl h
  | 0, 1, 0, 1, 0, _, h, _ => absurd rfl h
  | 0, 1, 0, 1, 1, _, _, h => absurd rfl h
  | 0, 1, 0, 1, 2, _, _, _ => ddgamma_D0D1D0D1_at2 P q hR
  | 0, 1, 0, 2, 0, _, h, _ => absurd rfl h
  | 0, 1, 0, 2, 1, _, _, _ => ddgamma_D0D1D0D2_at1 P q hR
  | 0, 1, 0, 2, 2, _, _, h => absurd rfl h
  | 0, 1, 1, 0, 0, _, _, h => absurd rfl h
  | 0, 1, 1, 0, 1, _, h, _ => absurd rfl h
  | 0, 1, 1, 0, 2, _, _, _ => ddgamma_D0D1D1D0_at2 P q hR
  | 0, 1, 1, 1, 0, h, _, _ => absurd rfl h
  | 0, 1, 1, 1, 1, h, _, _ => absurd rfl h
  | 0, 1, 1, 1, 2, h, _, _ => absurd rfl h
  | 0, 1, 1, 2, 0, _, _, _ => ddgamma_D0D1D1D2_at0 P q hR
  | 0, 1, 1, 2, 1, _, h, _ => absurd rfl h
  | 0, 1, 1, 2, 2, _, _, h => absurd rfl h
  | 0, 1, 2, 0, 0, _, _, h => absurd rfl h
  | 0, 1, 2, 0, 1, _, _, _ => ddgamma_D0D1D2D0_at1 P q hR
  | 0, 1, 2, 0, 2, _, h, _ => absurd rfl h
  | 0, 1, 2, 1, 0, _, _, _ => ddgamma_D0D1D2D1_at0 P q hR
  | 0, 1, 2, 1, 1, _, _, h => absurd rfl h
  | 0, 1, 2, 1, 2, _, h, _ => absurd rfl h
  | 0, 1, 2, 2, 0, h, _, _ => absurd rfl h
  | 0, 1, 2, 2, 1, h, _, _ => absurd rfl h
  | 0, 1, 2, 2, 2, h, _, _ => absurd rfl h
  | 0, 2, 0, 0, 0, h, _, _ => absurd rfl h
  | 0, 2, 0, 0, 1, h, _, _ => absurd rfl h
  | 0, 2, 0, 0, 2, h, _, _ => absurd rfl h
  | 0, 2, 0, 1, 0, _, h, _ => absurd rfl h
  | 0, 2, 0, 1, 1, _, _, h => absurd rfl h
  | 0, 2, 0, 1, 2, _, _, _ => ddgamma_D0D2D0D1_at2 P q hR
  | 0, 2, 0, 2, 0, _, h, _ => absurd rfl h
  | 0, 2, 0, 2, 1, _, _, _ => ddgamma_D0D2D0D2_at1 P q hR
  | 0, 2, 0, 2, 2, _, _, h => absurd rfl h
  | 0, 2, 1, 0, 0, _, _, h => absurd rfl h
  | 0, 2, 1, 0, 1, _, h, _ => absurd rfl h
  | 0, 2, 1, 0, 2, _, _, _ => ddgamma_D0D2D1D0_at2 P q hR
  | 0, 2, 1, 1, 0, h, _, _ => absurd rfl h
  | 0, 2, 1, 1, 1, h, _, _ => absurd rfl h
  | 0, 2, 1, 1, 2, h, _, _ => absurd rfl h
  | 0, 2, 1, 2, 0, _, _, _ => ddgamma_D0D2D1D2_at0 P q hR
  | 0, 2, 1, 2, 1, _, h, _ => absurd rfl h
  | 0, 2, 1, 2, 2, _, _, h => absurd rfl h
  | 0, 2, 2, 0, 0, _, _, h => absurd rfl h
  | 0, 2, 2, 0, 1, _, _, _ => ddgamma_D0D2D2D0_at1 P q hR
  | 0, 2, 2, 0, 2, _, h, _ => absurd rfl h
  | 0, 2, 2, 1, 0, _, _, _ => ddgamma_D0D2D2D1_at0 P q hR
  | 0, 2, 2, 1, 1, _, _, h => absurd rfl h
  | 0, 2, 2, 1, 2, _, h, _ => absurd rfl h
  | 0, 2, 2, 2, 0, h, _, _ => absurd rfl h
  | 0, 2, 2, 2, 1, h, _, _ => absurd rfl h
  | 0, 2, 2, 2, 2, h, _, _ => absurd rfl h
  | 1, 0, 0, 0, 0, h, _, _ => absurd rfl h
  | 1, 0, 0, 0, 1, h, _, _ => absurd rfl h
  | 1, 0, 0, 0, 2, h, _, _ => absurd rfl h
  | 1, 0, 0, 1, 0, _, h, _ => absurd rfl h
  | 1, 0, 0, 1, 1, _, _, h => absurd rfl h
  | 1, 0, 0, 1, 2, _, _, _ => (ddgamma_D0D1D0D1_at2 P q hR).congr_deriv (by simp only [kv, dddgam, Matrix.cons_val_zero, Matrix.cons_val_one, Matrix.cons_val]; ring)
  | 1, 0, 0, 2, 0, _, h, _ => absurd rfl h
  | 1, 0, 0, 2, 1, _, _, _ => (ddgamma_D0D1D0D2_at1 P q hR).congr_deriv (by simp only [kv, dddgam, Matrix.cons_val_zero, Matrix.cons_val_one, Matrix.cons_val]; ring)
  | 1, 0, 0, 2, 2, _, _, h => absurd rfl h
  | 1, 0, 1, 0, 0, _, _, h => absurd rfl h
  | 1, 0, 1, 0, 1, _, h, _ => absurd rfl h
  | 1, 0, 1, 0, 2, _, _, _ => (ddgamma_D0D1D1D0_at2 P q hR).congr_deriv (by simp only [kv, dddgam, Matrix.cons_val_zero, Matrix.cons_val_one, Matrix.cons_val]; ring)
  | 1, 0, 1, 1, 0, h, _, _ => absurd rfl h
  | 1, 0, 1, 1, 1, h, _, _ => absurd rfl h
  | 1, 0, 1, 1, 2, h, _, _ => absurd rfl h
  | 1, 0, 1, 2, 0, _, _, _ => (ddgamma_D0D1D1D2_at0 P q hR).congr_deriv (by simp only [kv, dddgam, Matrix.cons_val_zero, Matrix.cons_val_one, Matrix.cons_val]; ring)
  | 1, 0, 1, 2, 1, _, h, _ => absurd rfl h
  | 1, 0, 1, 2, 2, _, _, h => absurd rfl h
  | 1, 0, 2, 0, 0, _, _, h => absurd rfl h
  | 1, 0, 2, 0, 1, _, _, _ => (ddgamma_D0D1D2D0_at1 P q hR).congr_deriv (by simp only [kv, dddgam, Matrix.cons_val_zero, Matrix.cons_val_one, Matrix.cons_val]; ring)
  | 1, 0, 2, 0, 2, _, h, _ => absurd rfl h
  | 1, 0, 2, 1, 0, _, _, _ => (ddgamma_D0D1D2D1_at0 P q hR).congr_deriv (by simp only [kv, dddgam, Matrix.cons_val_zero, Matrix.cons_val_one, Matrix.cons_val]; ring)
  | 1, 0, 2, 1, 1, _, _, h => absurd rfl h
  | 1, 0, 2, 1, 2, _, h, _ => absurd rfl h
  | 1, 0, 2, 2, 0, h, _, _ => absurd rfl h
  | 1, 0, 2, 2, 1, h, _, _ => absurd rfl h
  | 1, 0, 2, 2, 2, h, _, _ => absurd rfl h
  | 1, 1, 0, 0, 0, h, _, _ => absurd rfl h
  | 1, 1, 0, 0, 1, h, _, _ => absurd rfl h
  | 1, 1, 0, 0, 2, h, _, _ => absurd rfl h
  | 1, 1, 0, 1, 0, _, h, _ => absurd rfl h
  | 1, 1, 0, 1, 1, _, _, h => absurd rfl h
  | 1, 1, 0, 1, 2, _, _, _ => ddgamma_D1D1D0D1_at2 P q hR
  | 1, 1, 0, 2, 0, _, h, _ => absurd rfl h
  | 1, 1, 0, 2, 1, _, _, _ => ddgamma_D1D1D0D2_at1 P q hR
  | 1, 1, 0, 2, 2, _, _, h => absurd rfl h
  | 1, 1, 1, 0, 0, _, _, h => absurd rfl h
  | 1, 1, 1, 0, 1, _, h, _ => absurd rfl h
  | 1, 1, 1, 0, 2, _, _, _ => ddgamma_D1D1D1D0_at2 P q hR
  | 1, 1, 1, 1, 0, h, _, _ => absurd rfl h
  | 1, 1, 1, 1, 1, h, _, _ => absurd rfl h
  | 1, 1, 1, 1, 2, h, _, _ => absurd rfl h
  | 1, 1, 1, 2, 0, _, _, _ => ddgamma_D1D1D1D2_at0 P q hR
  | 1, 1, 1, 2, 1, _, h, _ => absurd rfl h
  | 1, 1, 1, 2, 2, _, _, h => absurd rfl h
  | 1, 1, 2, 0, 0, _, _, h => absurd rfl h
  | 1, 1, 2, 0, 1, _, _, _ => ddgamma_D1D1D2D0_at1 P q hR
  | 1, 1, 2, 0, 2, _, h, _ => absurd rfl h
  | 1, 1, 2, 1, 0, _, _, _ => ddgamma_D1D1D2D1_at0 P q hR
  | 1, 1, 2, 1, 1, _, _, h => absurd rfl h
  | 1, 1, 2, 1, 2, _, h, _ => absurd rfl h
  | 1, 1, 2, 2, 0, h, _, _ => absurd rfl h
  | 1, 1, 2, 2, 1, h, _, _ => absurd rfl h
  | 1, 1, 2, 2, 2, h, _, _ => absurd rfl h
  | 1, 2, 0, 0, 0, h, _, _ => absurd rfl h
  | 1, 2, 0, 0, 1, h, _, _ => absurd rfl h
  | 1, 2, 0, 0, 2, h, _, _ => absurd rfl h
  | 1, 2, 0, 1, 0, _, h, _ => absurd rfl h
  | 1, 2, 0, 1, 1, _, _, h => absurd rfl h
  | 1, 2, 0, 1, 2, _, _, _ => ddgamma_D1D2D0D1_at2 P q hR
  | 1, 2, 0, 2, 0, _, h, _ => absurd rfl h
  | 1, 2, 0, 2, 1, _, _, _ => ddgamma_D1D2D0D2_at1 P q hR
  | 1, 2, 0, 2, 2, _, _, h => absurd rfl h
  | 1, 2, 1, 0, 0, _, _, h => absurd rfl h
  | 1, 2, 1, 0, 1, _, h, _ => absurd rfl h
  | 1, 2, 1, 0, 2, _, _, _ => ddgamma_D1D2D1D0_at2 P q hR
  | 1, 2, 1, 1, 0, h, _, _ => absurd rfl h
  | 1, 2, 1, 1, 1, h, _, _ => absurd rfl h
  | 1, 2, 1, 1, 2, h, _, _ => absurd rfl h
  | 1, 2, 1, 2, 0, _, _, _ => ddgamma_D1D2D1D2_at0 P q hR
  | 1, 2, 1, 2, 1, _, h, _ => absurd rfl h
  | 1, 2, 1, 2, 2, _, _, h => absurd rfl h
  | 1, 2, 2, 0, 0, _, _, h => absurd rfl h
  | 1, 2, 2, 0, 1, _, _, _ => ddgamma_D1D2D2D0_at1 P q hR
  | 1, 2, 2, 0, 2, _, h, _ => absurd rfl h
  | 1, 2, 2, 1, 0, _, _, _ => ddgamma_D1D2D2D1_at0 P q hR
  | 1, 2, 2, 1, 1, _, _, h => absurd rfl h
  | 1, 2, 2, 1, 2, _, h, _ => absurd rfl h
  | 1, 2, 2, 2, 0, h, _, _ => absurd rfl h
  | 1, 2, 2, 2, 1, h, _, _ => absurd rfl h
  | 1, 2, 2, 2, 2, h, _, _ => absurd rfl h
  | 2, 0, 0, 0, 0, h, _, _ => absurd rfl h
  | 2, 0, 0, 0, 1, h, _, _ => absurd rfl h
  | 2, 0, 0, 0, 2, h, _, _ => absurd rfl h
  | 2, 0, 0, 1, 0, _, h, _ => absurd rfl h
  | 2, 0, 0, 1, 1, _, _, h => absurd rfl h
  | 2, 0, 0, 1, 2, _, _, _ => (ddgamma_D0D2D0D1_at2 P q hR).congr_deriv (by simp only [kv, dddgam, Matrix.cons_val_zero, Matrix.cons_val_one, Matrix.cons_val]; ring)
  | 2, 0, 0, 2, 0, _, h, _ => absurd rfl h
  | 2, 0, 0, 2, 1, _, _, _ => (ddgamma_D0D2D0D2_at1 P q hR).congr_deriv (by simp only [kv, dddgam, Matrix.cons_val_zero, Matrix.cons_val_one, Matrix.cons_val]; ring)
  | 2, 0, 0, 2, 2, _, _, h => absurd rfl h
  | 2, 0, 1, 0, 0, _, _, h => absurd rfl h
  | 2, 0, 1, 0, 1, _, h, _ => absurd rfl h
  | 2, 0, 1, 0, 2, _, _, _ => (ddgamma_D0D2D1D0_at2 P q hR).congr_deriv (by simp only [kv, dddgam, Matrix.cons_val_zero, Matrix.cons_val_one, Matrix.cons_val]; ring)
  | 2, 0, 1, 1, 0, h, _, _ => absurd rfl h
  | 2, 0, 1, 1, 1, h, _, _ => absurd rfl h
  | 2, 0, 1, 1, 2, h, _, _ => absurd rfl h
  | 2, 0, 1, 2, 0, _, _, _ => (ddgamma_D0D2D1D2_at0 P q hR).congr_deriv (by simp only [kv, dddgam, Matrix.cons_val_zero, Matrix.cons_val_one, Matrix.cons_val]; ring)
  | 2, 0, 1, 2, 1, _, h, _ => absurd rfl h
  | 2, 0, 1, 2, 2, _, _, h => absurd rfl h
  | 2, 0, 2, 0, 0, _, _, h => absurd rfl h
  | 2, 0, 2, 0, 1, _, _, _ => (ddgamma_D0D2D2D0_at1 P q hR).congr_deriv (by simp only [kv, dddgam, Matrix.cons_val_zero, Matrix.cons_val_one, Matrix.cons_val]; ring)
  | 2, 0, 2, 0, 2, _, h, _ => absurd rfl h
  | 2, 0, 2, 1, 0, _, _, _ => (ddgamma_D0D2D2D1_at0 P q hR).congr_deriv (by simp only [kv, dddgam, Matrix.cons_val_zero, Matrix.cons_val_one, Matrix.cons_val]; ring)
  | 2, 0, 2, 1, 1, _, _, h => absurd rfl h
  | 2, 0, 2, 1, 2, _, h, _ => absurd rfl h
  | 2, 0, 2, 2, 0, h, _, _ => absurd rfl h
  | 2, 0, 2, 2, 1, h, _, _ => absurd rfl h
  | 2, 0, 2, 2, 2, h, _, _ => absurd rfl h
  | 2, 1, 0, 0, 0, h, _, _ => absurd rfl h
  | 2, 1, 0, 0, 1, h, _, _ => absurd rfl h
  | 2, 1, 0, 0, 2, h, _, _ => absurd rfl h
  | 2, 1, 0, 1, 0, _, h, _ => absurd rfl h
  | 2, 1, 0, 1, 1, _, _, h => absurd rfl h
  | 2, 1, 0, 1, 2, _, _, _ => (ddgamma_D1D2D0D1_at2 P q hR).congr_deriv (by simp only [kv, dddgam, Matrix.cons_val_zero, Matrix.cons_val_one, Matrix.cons_val]; ring)
  | 2, 1, 0, 2, 0, _, h, _ => absurd rfl h
  | 2, 1, 0, 2, 1, _, _, _ => (ddgamma_D1D2D0D2_at1 P q hR).congr_deriv (by simp only [kv, dddgam, Matrix.cons_val_zero, Matrix.cons_val_one, Matrix.cons_val]; ring)
  | 2, 1, 0, 2, 2, _, _, h => absurd rfl h
  | 2, 1, 1, 0, 0, _, _, h => absurd rfl h
  | 2, 1, 1, 0, 1, _, h, _ => absurd rfl h
  | 2, 1, 1, 0, 2, _, _, _ => (ddgamma_D1D2D1D0_at2 P q hR).congr_deriv (by simp only [kv, dddgam, Matrix.cons_val_zero, Matrix.cons_val_one, Matrix.cons_val]; ring)
  | 2, 1, 1, 1, 0, h, _, _ => absurd rfl h
  | 2, 1, 1, 1, 1, h, _, _ => absurd rfl h
  | 2, 1, 1, 1, 2, h, _, _ => absurd rfl h
  | 2, 1, 1, 2, 0, _, _, _ => (ddgamma_D1D2D1D2_at0 P q hR).congr_deriv (by simp only [kv, dddgam, Matrix.cons_val_zero, Matrix.cons_val_one, Matrix.cons_val]; ring)
  | 2, 1, 1, 2, 1, _, h, _ => absurd rfl h
  | 2, 1, 1, 2, 2, _, _, h => absurd rfl h
  | 2, 1, 2, 0, 0, _, _, h => absurd rfl h
  | 2, 1, 2, 0, 1, _, _, _ => (ddgamma_D1D2D2D0_at1 P q hR).congr_deriv (by simp only [kv, dddgam, Matrix.cons_val_zero, Matrix.cons_val_one, Matrix.cons_val]; ring)
  | 2, 1, 2, 0, 2, _, h, _ => absurd rfl h
  | 2, 1, 2, 1, 0, _, _, _ => (ddgamma_D1D2D2D1_at0 P q hR).congr_deriv (by simp only [kv, dddgam, Matrix.cons_val_zero, Matrix.cons_val_one, Matrix.cons_val]; ring)
  | 2, 1, 2, 1, 1, _, _, h => absurd rfl h
  | 2, 1, 2, 1, 2, _, h, _ => absurd rfl h
  | 2, 1, 2, 2, 0, h, _, _ => absurd rfl h
  | 2, 1, 2, 2, 1, h, _, _ => absurd rfl h
  | 2, 1, 2, 2, 2, h, _, _ => absurd rfl h
  | 2, 2, 0, 0, 0, h, _, _ => absurd rfl h
  | 2, 2, 0, 0, 1, h, _, _ => absurd rfl h
  | 2, 2, 0, 0, 2, h, _, _ => absurd rfl h
  | 2, 2, 0, 1, 0, _, h, _ => absurd rfl h
  | 2, 2, 0, 1, 1, _, _, h => absurd rfl h
  | 2, 2, 0, 1, 2, _, _, _ => ddgamma_D2D2D0D1_at2 P q hR
  | 2, 2, 0, 2, 0, _, h, _ => absurd rfl h
  | 2, 2, 0, 2, 1, _, _, _ => ddgamma_D2D2D0D2_at1 P q hR
  | 2, 2, 0, 2, 2, _, _, h => absurd rfl h
  | 2, 2, 1, 0, 0, _, _, h => absurd rfl h
  | 2, 2, 1, 0, 1, _, h, _ => absurd rfl h
  | 2, 2, 1, 0, 2, _, _, _ => ddgamma_D2D2D1D0_at2 P q hR
  | 2, 2, 1, 1, 0, h, _, _ => absurd rfl h
  | 2, 2, 1, 1, 1, h, _, _ => absurd rfl h
  | 2, 2, 1, 1, 2, h, _, _ => absurd rfl h
  | 2, 2, 1, 2, 0, _, _, _ => ddgamma_D2D2D1D2_at0 P q hR
  | 2, 2, 1, 2, 1, _, h, _ => absurd rfl h
  | 2, 2, 1, 2, 2, _, _, h => absurd rfl h
  | 2, 2, 2, 0, 0, _, _, h => absurd rfl h
  | 2, 2, 2, 0, 1, _, _, _ => ddgamma_D2D2D2D0_at1 P q hR
  | 2, 2, 2, 0, 2, _, h, _ => absurd rfl h
  | 2, 2, 2, 1, 0, _, _, _ => ddgamma_D2D2D2D1_at0 P q hR
  | 2, 2, 2, 1, 1, _, _, h => absurd rfl h
  | 2, 2, 2, 1, 2, _, h, _ => absurd rfl h
  | 2, 2, 2, 2, 0, h, _, _ => absurd rfl h
  | 2, 2, 2, 2, 1, h, _, _ => absurd rfl h
  | 2, 2, 2, 2, 2, h, _, _ => absurd rfl h

end Elliptica.Ks
