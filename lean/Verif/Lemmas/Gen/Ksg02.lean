import Verif.Model.Gen.KsG
import Verif.Lemmas.Gen.Kslk0
import Verif.Lemmas.Gen.Kslk2
import Verif.Lemmas.Gen.Kslc
/-!
Generated by tools/gen_ks.py: each listed derivative is the derivative of the function it belongs to.
-/
namespace Elliptica.Ks
open Elliptica.Fields

set_option linter.unusedVariables false
set_option linter.unusedSimpArgs false
set_option linter.unusedTactic false
set_option linter.unreachableTactic false

theorem gamma_D0D2_at0 (P : Par) (q : Pt) (hR : 0 < R P q) : HasDerivAt (line (gamma_D0D2 P) 0 q) (dgamma_D0D2D0 P q) (q 0) := by
  have hc : ∀ c : ℝ, HasDerivAt (fun _ => c) 0 (q 0) := fun c => hasDerivAt_const _ c
  have h_c := c_at0 P q hR
  have h_k0 := k0_at0 P q hR
  have h_k2 := k2_at0 P q hR
  have key := ((h_c.mul h_k0).mul h_k2)
  refine key.congr_deriv ?_
  simp only [Pi.add_apply, Pi.sub_apply, Pi.neg_apply, Pi.mul_apply, Pi.pow_apply, Pi.div_apply, line_at]
  unfold dgamma_D0D2D0
  try simp only [Nat.cast_ofNat, Nat.reduceSub, pow_one]
  ring


theorem gamma_D0D2_at1 (P : Par) (q : Pt) (hR : 0 < R P q) : HasDerivAt (line (gamma_D0D2 P) 1 q) (dgamma_D0D2D1 P q) (q 1) := by
  have hc : ∀ c : ℝ, HasDerivAt (fun _ => c) 0 (q 1) := fun c => hasDerivAt_const _ c
  have h_c := c_at1 P q hR
  have h_k0 := k0_at1 P q hR
  have h_k2 := k2_at1 P q hR
  have key := ((h_c.mul h_k0).mul h_k2)
  refine key.congr_deriv ?_
  simp only [Pi.add_apply, Pi.sub_apply, Pi.neg_apply, Pi.mul_apply, Pi.pow_apply, Pi.div_apply, line_at]
  unfold dgamma_D0D2D1
  try simp only [Nat.cast_ofNat, Nat.reduceSub, pow_one]
  ring


theorem gamma_D0D2_at2 (P : Par) (q : Pt) (hR : 0 < R P q) : HasDerivAt (line (gamma_D0D2 P) 2 q) (dgamma_D0D2D2 P q) (q 2) := by
  have hc : ∀ c : ℝ, HasDerivAt (fun _ => c) 0 (q 2) := fun c => hasDerivAt_const _ c
  have h_c := c_at2 P q hR
  have h_k0 := k0_at2 P q hR
  have h_k2 := k2_at2 P q hR
  have key := ((h_c.mul h_k0).mul h_k2)
  refine key.congr_deriv ?_
  simp only [Pi.add_apply, Pi.sub_apply, Pi.neg_apply, Pi.mul_apply, Pi.pow_apply, Pi.div_apply, line_at]
  unfold dgamma_D0D2D2
  try simp only [Nat.cast_ofNat, Nat.reduceSub, pow_one]
  ring


theorem dgamma_D0D2D0_at0 (P : Par) (q : Pt) (hR : 0 < R P q) : HasDerivAt (line (dgamma_D0D2D0 P) 0 q) (ddgamma_D0D2D0D0 P q) (q 0) := by
  have hc : ∀ c : ℝ, HasDerivAt (fun _ => c) 0 (q 0) := fun c => hasDerivAt_const _ c
  have h_c := c_at0 P q hR
  have h_dc_D0 := dc_D0_at0 P q hR
  have h_dk0_D0 := dk0_D0_at0 P q hR
  have h_dk2_D0 := dk2_D0_at0 P q hR
  have h_k0 := k0_at0 P q hR
  have h_k2 := k2_at0 P q hR
  have key := ((((h_c.mul h_k0).mul h_dk2_D0).add ((h_c.mul h_k2).mul h_dk0_D0)).add ((h_k0.mul h_k2).mul h_dc_D0))
  refine key.congr_deriv ?_
  simp only [Pi.add_apply, Pi.sub_apply, Pi.neg_apply, Pi.mul_apply, Pi.pow_apply, Pi.div_apply, line_at]
  unfold ddgamma_D0D2D0D0
  try simp only [Nat.cast_ofNat, Nat.reduceSub, pow_one]
  ring


theorem dgamma_D0D2D0_at1 (P : Par) (q : Pt) (hR : 0 < R P q) : HasDerivAt (line (dgamma_D0D2D0 P) 1 q) (ddgamma_D0D2D0D1 P q) (q 1) := by
  have hc : ∀ c : ℝ, HasDerivAt (fun _ => c) 0 (q 1) := fun c => hasDerivAt_const _ c
  have h_c := c_at1 P q hR
  have h_dc_D0 := dc_D0_at1 P q hR
  have h_dk0_D0 := dk0_D0_at1 P q hR
  have h_dk2_D0 := dk2_D0_at1 P q hR
  have h_k0 := k0_at1 P q hR
  have h_k2 := k2_at1 P q hR
  have key := ((((h_c.mul h_k0).mul h_dk2_D0).add ((h_c.mul h_k2).mul h_dk0_D0)).add ((h_k0.mul h_k2).mul h_dc_D0))
  refine key.congr_deriv ?_
  simp only [Pi.add_apply, Pi.sub_apply, Pi.neg_apply, Pi.mul_apply, Pi.pow_apply, Pi.div_apply, line_at]
  unfold ddgamma_D0D2D0D1
  try simp only [Nat.cast_ofNat, Nat.reduceSub, pow_one]
  ring


theorem dgamma_D0D2D0_at2 (P : Par) (q : Pt) (hR : 0 < R P q) : HasDerivAt (line (dgamma_D0D2D0 P) 2 q) (ddgamma_D0D2D0D2 P q) (q 2) := by
  have hc : ∀ c : ℝ, HasDerivAt (fun _ => c) 0 (q 2) := fun c => hasDerivAt_const _ c
  have h_c := c_at2 P q hR
  have h_dc_D0 := dc_D0_at2 P q hR
  have h_dk0_D0 := dk0_D0_at2 P q hR
  have h_dk2_D0 := dk2_D0_at2 P q hR
  have h_k0 := k0_at2 P q hR
  have h_k2 := k2_at2 P q hR
  have key := ((((h_c.mul h_k0).mul h_dk2_D0).add ((h_c.mul h_k2).mul h_dk0_D0)).add ((h_k0.mul h_k2).mul h_dc_D0))
  refine key.congr_deriv ?_
  simp only [Pi.add_apply, Pi.sub_apply, Pi.neg_apply, Pi.mul_apply, Pi.pow_apply, Pi.div_apply, line_at]
  unfold ddgamma_D0D2D0D2
  try simp only [Nat.cast_ofNat, Nat.reduceSub, pow_one]
  ring


theorem dgamma_D0D2D1_at0 (P : Par) (q : Pt) (hR : 0 < R P q) : HasDerivAt (line (dgamma_D0D2D1 P) 0 q) (ddgamma_D0D2D1D0 P q) (q 0) := by
  have hc : ∀ c : ℝ, HasDerivAt (fun _ => c) 0 (q 0) := fun c => hasDerivAt_const _ c
  have h_c := c_at0 P q hR
  have h_dc_D1 := dc_D1_at0 P q hR
  have h_dk0_D1 := dk0_D1_at0 P q hR
  have h_dk2_D1 := dk2_D1_at0 P q hR
  have h_k0 := k0_at0 P q hR
  have h_k2 := k2_at0 P q hR
  have key := ((((h_c.mul h_k0).mul h_dk2_D1).add ((h_c.mul h_k2).mul h_dk0_D1)).add ((h_k0.mul h_k2).mul h_dc_D1))
  refine key.congr_deriv ?_
  simp only [Pi.add_apply, Pi.sub_apply, Pi.neg_apply, Pi.mul_apply, Pi.pow_apply, Pi.div_apply, line_at]
  unfold ddgamma_D0D2D1D0
  try simp only [Nat.cast_ofNat, Nat.reduceSub, pow_one]
  ring


theorem dgamma_D0D2D1_at1 (P : Par) (q : Pt) (hR : 0 < R P q) : HasDerivAt (line (dgamma_D0D2D1 P) 1 q) (ddgamma_D0D2D1D1 P q) (q 1) := by
  have hc : ∀ c : ℝ, HasDerivAt (fun _ => c) 0 (q 1) := fun c => hasDerivAt_const _ c
  have h_c := c_at1 P q hR
  have h_dc_D1 := dc_D1_at1 P q hR
  have h_dk0_D1 := dk0_D1_at1 P q hR
  have h_dk2_D1 := dk2_D1_at1 P q hR
  have h_k0 := k0_at1 P q hR
  have h_k2 := k2_at1 P q hR
  have key := ((((h_c.mul h_k0).mul h_dk2_D1).add ((h_c.mul h_k2).mul h_dk0_D1)).add ((h_k0.mul h_k2).mul h_dc_D1))
  refine key.congr_deriv ?_
  simp only [Pi.add_apply, Pi.sub_apply, Pi.neg_apply, Pi.mul_apply, Pi.pow_apply, Pi.div_apply, line_at]
  unfold ddgamma_D0D2D1D1
  try simp only [Nat.cast_ofNat, Nat.reduceSub, pow_one]
  ring


theorem dgamma_D0D2D1_at2 (P : Par) (q : Pt) (hR : 0 < R P q) : HasDerivAt (line (dgamma_D0D2D1 P) 2 q) (ddgamma_D0D2D1D2 P q) (q 2) := by
  have hc : ∀ c : ℝ, HasDerivAt (fun _ => c) 0 (q 2) := fun c => hasDerivAt_const _ c
  have h_c := c_at2 P q hR
  have h_dc_D1 := dc_D1_at2 P q hR
  have h_dk0_D1 := dk0_D1_at2 P q hR
  have h_dk2_D1 := dk2_D1_at2 P q hR
  have h_k0 := k0_at2 P q hR
  have h_k2 := k2_at2 P q hR
  have key := ((((h_c.mul h_k0).mul h_dk2_D1).add ((h_c.mul h_k2).mul h_dk0_D1)).add ((h_k0.mul h_k2).mul h_dc_D1))
  refine key.congr_deriv ?_
  simp only [Pi.add_apply, Pi.sub_apply, Pi.neg_apply, Pi.mul_apply, Pi.pow_apply, Pi.div_apply, line_at]
  unfold ddgamma_D0D2D1D2
  try simp only [Nat.cast_ofNat, Nat.reduceSub, pow_one]
  ring


theorem dgamma_D0D2D2_at0 (P : Par) (q : Pt) (hR : 0 < R P q) : HasDerivAt (line (dgamma_D0D2D2 P) 0 q) (ddgamma_D0D2D2D0 P q) (q 0) := by
  have hc : ∀ c : ℝ, HasDerivAt (fun _ => c) 0 (q 0) := fun c => hasDerivAt_const _ c
  have h_c := c_at0 P q hR
  have h_dc_D2 := dc_D2_at0 P q hR
  have h_dk0_D2 := dk0_D2_at0 P q hR
  have h_dk2_D2 := dk2_D2_at0 P q hR
  have h_k0 := k0_at0 P q hR
  have h_k2 := k2_at0 P q hR
  have key := ((((h_c.mul h_k0).mul h_dk2_D2).add ((h_c.mul h_k2).mul h_dk0_D2)).add ((h_k0.mul h_k2).mul h_dc_D2))
  refine key.congr_deriv ?_
  simp only [Pi.add_apply, Pi.sub_apply, Pi.neg_apply, Pi.mul_apply, Pi.pow_apply, Pi.div_apply, line_at]
  unfold ddgamma_D0D2D2D0
  try simp only [Nat.cast_ofNat, Nat.reduceSub, pow_one]
  ring


theorem dgamma_D0D2D2_at1 (P : Par) (q : Pt) (hR : 0 < R P q) : HasDerivAt (line (dgamma_D0D2D2 P) 1 q) (ddgamma_D0D2D2D1 P q) (q 1) := by
  have hc : ∀ c : ℝ, HasDerivAt (fun _ => c) 0 (q 1) := fun c => hasDerivAt_const _ c
  have h_c := c_at1 P q hR
  have h_dc_D2 := dc_D2_at1 P q hR
  have h_dk0_D2 := dk0_D2_at1 P q hR
  have h_dk2_D2 := dk2_D2_at1 P q hR
  have h_k0 := k0_at1 P q hR
  have h_k2 := k2_at1 P q hR
  have key := ((((h_c.mul h_k0).mul h_dk2_D2).add ((h_c.mul h_k2).mul h_dk0_D2)).add ((h_k0.mul h_k2).mul h_dc_D2))
  refine key.congr_deriv ?_
  simp only [Pi.add_apply, Pi.sub_apply, Pi.neg_apply, Pi.mul_apply, Pi.pow_apply, Pi.div_apply, line_at]
  unfold ddgamma_D0D2D2D1
  try simp only [Nat.cast_ofNat, Nat.reduceSub, pow_one]
  ring


theorem dgamma_D0D2D2_at2 (P : Par) (q : Pt) (hR : 0 < R P q) : HasDerivAt (line (dgamma_D0D2D2 P) 2 q) (ddgamma_D0D2D2D2 P q) (q 2) := by
  have hc : ∀ c : ℝ, HasDerivAt (fun _ => c) 0 (q 2) := fun c => hasDerivAt_const _ c
  have h_c := c_at2 P q hR
  have h_dc_D2 := dc_D2_at2 P q hR
  have h_dk0_D2 := dk0_D2_at2 P q hR
  have h_dk2_D2 := dk2_D2_at2 P q hR
  have h_k0 := k0_at2 P q hR
  have h_k2 := k2_at2 P q hR
  have key := ((((h_c.mul h_k0).mul h_dk2_D2).add ((h_c.mul h_k2).mul h_dk0_D2)).add ((h_k0.mul h_k2).mul h_dc_D2))
  refine key.congr_deriv ?_
  simp only [Pi.add_apply, Pi.sub_apply, Pi.neg_apply, Pi.mul_apply, Pi.pow_apply, Pi.div_apply, line_at]
  unfold ddgamma_D0D2D2D2
  try simp only [Nat.cast_ofNat, Nat.reduceSub, pow_one]
  ring


theorem ddgamma_D0D2D0D0_at0 (P : Par) (q : Pt) (hR : 0 < R P q) : HasDerivAt (line (ddgamma_D0D2D0D0 P) 0 q) (dddgamma_D0D2D0D0D0 P q) (q 0) := by
  have hc : ∀ c : ℝ, HasDerivAt (fun _ => c) 0 (q 0) := fun c => hasDerivAt_const _ c
  have h_c := c_at0 P q hR
  have h_dc_D0 := dc_D0_at0 P q hR
  have h_ddc_D0D0 := ddc_D0D0_at0 P q hR
  have h_ddk0_D0D0 := ddk0_D0D0_at0 P q hR
  have h_ddk2_D0D0 := ddk2_D0D0_at0 P q hR
  have h_dk0_D0 := dk0_D0_at0 P q hR
  have h_dk2_D0 := dk2_D0_at0 P q hR
  have h_k0 := k0_at0 P q hR
  have h_k2 := k2_at0 P q hR
  have key := (((((((h_c.mul h_k0).mul h_ddk2_D0D0).add ((h_c.mul h_k2).mul h_ddk0_D0D0)).add ((((hc (2)).mul h_c).mul h_dk0_D0).mul h_dk2_D0)).add ((h_k0.mul h_k2).mul
    h_ddc_D0D0)).add ((((hc (2)).mul h_k0).mul h_dc_D0).mul h_dk2_D0)).add ((((hc (2)).mul h_k2).mul h_dc_D0).mul h_dk0_D0))
  refine key.congr_deriv ?_
  simp only [Pi.add_apply, Pi.sub_apply, Pi.neg_apply, Pi.mul_apply, Pi.pow_apply, Pi.div_apply, line_at]
  unfold dddgamma_D0D2D0D0D0
  try simp only [Nat.cast_ofNat, Nat.reduceSub, pow_one]
  try simp only [dddk0_D0D1D0_sym, dddk0_D0D2D0_sym, dddk0_D1D1D0_sym, dddk0_D1D2D1_sym, dddk0_D2D2D0_sym, dddk0_D2D2D1_sym, dddk0_D0D2D1_sym, dddk0_D1D2D0_sym, dddk1_D0D1D0_sym, dddk1_D0D2D0_sym, dddk1_D1D1D0_sym, dddk1_D1D2D1_sym, dddk1_D2D2D0_sym, dddk1_D2D2D1_sym, dddk1_D0D2D1_sym, dddk1_D1D2D0_sym, dddk2_D0D1D0_sym, dddk2_D0D2D0_sym, dddk2_D1D1D0_sym, dddk2_D1D2D1_sym, dddk2_D2D2D0_sym, dddk2_D2D2D1_sym, dddk2_D0D2D1_sym, dddk2_D1D2D0_sym, dddc_D0D1D0_sym, dddc_D0D2D0_sym, dddc_D1D1D0_sym, dddc_D1D2D1_sym, dddc_D2D2D0_sym, dddc_D2D2D1_sym, dddc_D0D2D1_sym, dddc_D1D2D0_sym]
  ring


theorem ddgamma_D0D2D0D0_at1 (P : Par) (q : Pt) (hR : 0 < R P q) : HasDerivAt (line (ddgamma_D0D2D0D0 P) 1 q) (dddgamma_D0D2D0D0D1 P q) (q 1) := by
  have hc : ∀ c : ℝ, HasDerivAt (fun _ => c) 0 (q 1) := fun c => hasDerivAt_const _ c
  have h_c := c_at1 P q hR
  have h_dc_D0 := dc_D0_at1 P q hR
  have h_ddc_D0D0 := ddc_D0D0_at1 P q hR
  have h_ddk0_D0D0 := ddk0_D0D0_at1 P q hR
  have h_ddk2_D0D0 := ddk2_D0D0_at1 P q hR
  have h_dk0_D0 := dk0_D0_at1 P q hR
  have h_dk2_D0 := dk2_D0_at1 P q hR
  have h_k0 := k0_at1 P q hR
  have h_k2 := k2_at1 P q hR
  have key := (((((((h_c.mul h_k0).mul h_ddk2_D0D0).add ((h_c.mul h_k2).mul h_ddk0_D0D0)).add ((((hc (2)).mul h_c).mul h_dk0_D0).mul h_dk2_D0)).add ((h_k0.mul h_k2).mul
    h_ddc_D0D0)).add ((((hc (2)).mul h_k0).mul h_dc_D0).mul h_dk2_D0)).add ((((hc (2)).mul h_k2).mul h_dc_D0).mul h_dk0_D0))
  refine key.congr_deriv ?_
  simp only [Pi.add_apply, Pi.sub_apply, Pi.neg_apply, Pi.mul_apply, Pi.pow_apply, Pi.div_apply, line_at]
  unfold dddgamma_D0D2D0D0D1
  try simp only [Nat.cast_ofNat, Nat.reduceSub, pow_one]
  try simp only [dddk0_D0D1D0_sym, dddk0_D0D2D0_sym, dddk0_D1D1D0_sym, dddk0_D1D2D1_sym, dddk0_D2D2D0_sym, dddk0_D2D2D1_sym, dddk0_D0D2D1_sym, dddk0_D1D2D0_sym, dddk1_D0D1D0_sym, dddk1_D0D2D0_sym, dddk1_D1D1D0_sym, dddk1_D1D2D1_sym, dddk1_D2D2D0_sym, dddk1_D2D2D1_sym, dddk1_D0D2D1_sym, dddk1_D1D2D0_sym, dddk2_D0D1D0_sym, dddk2_D0D2D0_sym, dddk2_D1D1D0_sym, dddk2_D1D2D1_sym, dddk2_D2D2D0_sym, dddk2_D2D2D1_sym, dddk2_D0D2D1_sym, dddk2_D1D2D0_sym, dddc_D0D1D0_sym, dddc_D0D2D0_sym, dddc_D1D1D0_sym, dddc_D1D2D1_sym, dddc_D2D2D0_sym, dddc_D2D2D1_sym, dddc_D0D2D1_sym, dddc_D1D2D0_sym]
  ring


theorem ddgamma_D0D2D0D0_at2 (P : Par) (q : Pt) (hR : 0 < R P q) : HasDerivAt (line (ddgamma_D0D2D0D0 P) 2 q) (dddgamma_D0D2D0D0D2 P q) (q 2) := by
  have hc : ∀ c : ℝ, HasDerivAt (fun _ => c) 0 (q 2) := fun c => hasDerivAt_const _ c
  have h_c := c_at2 P q hR
  have h_dc_D0 := dc_D0_at2 P q hR
  have h_ddc_D0D0 := ddc_D0D0_at2 P q hR
  have h_ddk0_D0D0 := ddk0_D0D0_at2 P q hR
  have h_ddk2_D0D0 := ddk2_D0D0_at2 P q hR
  have h_dk0_D0 := dk0_D0_at2 P q hR
  have h_dk2_D0 := dk2_D0_at2 P q hR
  have h_k0 := k0_at2 P q hR
  have h_k2 := k2_at2 P q hR
  have key := (((((((h_c.mul h_k0).mul h_ddk2_D0D0).add ((h_c.mul h_k2).mul h_ddk0_D0D0)).add ((((hc (2)).mul h_c).mul h_dk0_D0).mul h_dk2_D0)).add ((h_k0.mul h_k2).mul
    h_ddc_D0D0)).add ((((hc (2)).mul h_k0).mul h_dc_D0).mul h_dk2_D0)).add ((((hc (2)).mul h_k2).mul h_dc_D0).mul h_dk0_D0))
  refine key.congr_deriv ?_
  simp only [Pi.add_apply, Pi.sub_apply, Pi.neg_apply, Pi.mul_apply, Pi.pow_apply, Pi.div_apply, line_at]
  unfold dddgamma_D0D2D0D0D2
  try simp only [Nat.cast_ofNat, Nat.reduceSub, pow_one]
  try simp only [dddk0_D0D1D0_sym, dddk0_D0D2D0_sym, dddk0_D1D1D0_sym, dddk0_D1D2D1_sym, dddk0_D2D2D0_sym, dddk0_D2D2D1_sym, dddk0_D0D2D1_sym, dddk0_D1D2D0_sym, dddk1_D0D1D0_sym, dddk1_D0D2D0_sym, dddk1_D1D1D0_sym, dddk1_D1D2D1_sym, dddk1_D2D2D0_sym, dddk1_D2D2D1_sym, dddk1_D0D2D1_sym, dddk1_D1D2D0_sym, dddk2_D0D1D0_sym, dddk2_D0D2D0_sym, dddk2_D1D1D0_sym, dddk2_D1D2D1_sym, dddk2_D2D2D0_sym, dddk2_D2D2D1_sym, dddk2_D0D2D1_sym, dddk2_D1D2D0_sym, dddc_D0D1D0_sym, dddc_D0D2D0_sym, dddc_D1D1D0_sym, dddc_D1D2D1_sym, dddc_D2D2D0_sym, dddc_D2D2D1_sym, dddc_D0D2D1_sym, dddc_D1D2D0_sym]
  ring


theorem ddgamma_D0D2D0D1_at0 (P : Par) (q : Pt) (hR : 0 < R P q) : HasDerivAt (line (ddgamma_D0D2D0D1 P) 0 q) (dddgamma_D0D2D0D1D0 P q) (q 0) := by
  have hc : ∀ c : ℝ, HasDerivAt (fun _ => c) 0 (q 0) := fun c => hasDerivAt_const _ c
  have h_c := c_at0 P q hR
  have h_dc_D0 := dc_D0_at0 P q hR
  have h_dc_D1 := dc_D1_at0 P q hR
  have h_ddc_D0D1 := ddc_D0D1_at0 P q hR
  have h_ddk0_D0D1 := ddk0_D0D1_at0 P q hR
  have h_ddk2_D0D1 := ddk2_D0D1_at0 P q hR
  have h_dk0_D0 := dk0_D0_at0 P q hR
  have h_dk0_D1 := dk0_D1_at0 P q hR
  have h_dk2_D0 := dk2_D0_at0 P q hR
  have h_dk2_D1 := dk2_D1_at0 P q hR
  have h_k0 := k0_at0 P q hR
  have h_k2 := k2_at0 P q hR
  have key := ((((((((((h_c.mul h_k0).mul h_ddk2_D0D1).add ((h_c.mul h_k2).mul h_ddk0_D0D1)).add ((h_c.mul h_dk0_D0).mul h_dk2_D1)).add ((h_c.mul h_dk0_D1).mul
    h_dk2_D0)).add ((h_k0.mul h_k2).mul h_ddc_D0D1)).add ((h_k0.mul h_dc_D0).mul h_dk2_D1)).add ((h_k0.mul h_dc_D1).mul h_dk2_D0)).add ((h_k2.mul h_dc_D0).mul
    h_dk0_D1)).add ((h_k2.mul h_dc_D1).mul h_dk0_D0))
  refine key.congr_deriv ?_
  simp only [Pi.add_apply, Pi.sub_apply, Pi.neg_apply, Pi.mul_apply, Pi.pow_apply, Pi.div_apply, line_at]
  unfold dddgamma_D0D2D0D1D0
  try simp only [Nat.cast_ofNat, Nat.reduceSub, pow_one]
  try simp only [dddk0_D0D1D0_sym, dddk0_D0D2D0_sym, dddk0_D1D1D0_sym, dddk0_D1D2D1_sym, dddk0_D2D2D0_sym, dddk0_D2D2D1_sym, dddk0_D0D2D1_sym, dddk0_D1D2D0_sym, dddk1_D0D1D0_sym, dddk1_D0D2D0_sym, dddk1_D1D1D0_sym, dddk1_D1D2D1_sym, dddk1_D2D2D0_sym, dddk1_D2D2D1_sym, dddk1_D0D2D1_sym, dddk1_D1D2D0_sym, dddk2_D0D1D0_sym, dddk2_D0D2D0_sym, dddk2_D1D1D0_sym, dddk2_D1D2D1_sym, dddk2_D2D2D0_sym, dddk2_D2D2D1_sym, dddk2_D0D2D1_sym, dddk2_D1D2D0_sym, dddc_D0D1D0_sym, dddc_D0D2D0_sym, dddc_D1D1D0_sym, dddc_D1D2D1_sym, dddc_D2D2D0_sym, dddc_D2D2D1_sym, dddc_D0D2D1_sym, dddc_D1D2D0_sym]
  ring


theorem ddgamma_D0D2D0D1_at1 (P : Par) (q : Pt) (hR : 0 < R P q) : HasDerivAt (line (ddgamma_D0D2D0D1 P) 1 q) (dddgamma_D0D2D0D1D1 P q) (q 1) := by
  have hc : ∀ c : ℝ, HasDerivAt (fun _ => c) 0 (q 1) := fun c => hasDerivAt_const _ c
  have h_c := c_at1 P q hR
  have h_dc_D0 := dc_D0_at1 P q hR
  have h_dc_D1 := dc_D1_at1 P q hR
  have h_ddc_D0D1 := ddc_D0D1_at1 P q hR
  have h_ddk0_D0D1 := ddk0_D0D1_at1 P q hR
  have h_ddk2_D0D1 := ddk2_D0D1_at1 P q hR
  have h_dk0_D0 := dk0_D0_at1 P q hR
  have h_dk0_D1 := dk0_D1_at1 P q hR
  have h_dk2_D0 := dk2_D0_at1 P q hR
  have h_dk2_D1 := dk2_D1_at1 P q hR
  have h_k0 := k0_at1 P q hR
  have h_k2 := k2_at1 P q hR
  have key := ((((((((((h_c.mul h_k0).mul h_ddk2_D0D1).add ((h_c.mul h_k2).mul h_ddk0_D0D1)).add ((h_c.mul h_dk0_D0).mul h_dk2_D1)).add ((h_c.mul h_dk0_D1).mul
    h_dk2_D0)).add ((h_k0.mul h_k2).mul h_ddc_D0D1)).add ((h_k0.mul h_dc_D0).mul h_dk2_D1)).add ((h_k0.mul h_dc_D1).mul h_dk2_D0)).add ((h_k2.mul h_dc_D0).mul
    h_dk0_D1)).add ((h_k2.mul h_dc_D1).mul h_dk0_D0))
  refine key.congr_deriv ?_
  simp only [Pi.add_apply, Pi.sub_apply, Pi.neg_apply, Pi.mul_apply, Pi.pow_apply, Pi.div_apply, line_at]
  unfold dddgamma_D0D2D0D1D1
  try simp only [Nat.cast_ofNat, Nat.reduceSub, pow_one]
  try simp only [dddk0_D0D1D0_sym, dddk0_D0D2D0_sym, dddk0_D1D1D0_sym, dddk0_D1D2D1_sym, dddk0_D2D2D0_sym, dddk0_D2D2D1_sym, dddk0_D0D2D1_sym, dddk0_D1D2D0_sym, dddk1_D0D1D0_sym, dddk1_D0D2D0_sym, dddk1_D1D1D0_sym, dddk1_D1D2D1_sym, dddk1_D2D2D0_sym, dddk1_D2D2D1_sym, dddk1_D0D2D1_sym, dddk1_D1D2D0_sym, dddk2_D0D1D0_sym, dddk2_D0D2D0_sym, dddk2_D1D1D0_sym, dddk2_D1D2D1_sym, dddk2_D2D2D0_sym, dddk2_D2D2D1_sym, dddk2_D0D2D1_sym, dddk2_D1D2D0_sym, dddc_D0D1D0_sym, dddc_D0D2D0_sym, dddc_D1D1D0_sym, dddc_D1D2D1_sym, dddc_D2D2D0_sym, dddc_D2D2D1_sym, dddc_D0D2D1_sym, dddc_D1D2D0_sym]
  ring


theorem ddgamma_D0D2D0D2_at0 (P : Par) (q : Pt) (hR : 0 < R P q) : HasDerivAt (line (ddgamma_D0D2D0D2 P) 0 q) (dddgamma_D0D2D0D2D0 P q) (q 0) := by
  have hc : ∀ c : ℝ, HasDerivAt (fun _ => c) 0 (q 0) := fun c => hasDerivAt_const _ c
  have h_c := c_at0 P q hR
  have h_dc_D0 := dc_D0_at0 P q hR
  have h_dc_D2 := dc_D2_at0 P q hR
  have h_ddc_D0D2 := ddc_D0D2_at0 P q hR
  have h_ddk0_D0D2 := ddk0_D0D2_at0 P q hR
  have h_ddk2_D0D2 := ddk2_D0D2_at0 P q hR
  have h_dk0_D0 := dk0_D0_at0 P q hR
  have h_dk0_D2 := dk0_D2_at0 P q hR
  have h_dk2_D0 := dk2_D0_at0 P q hR
  have h_dk2_D2 := dk2_D2_at0 P q hR
  have h_k0 := k0_at0 P q hR
  have h_k2 := k2_at0 P q hR
  have key := ((((((((((h_c.mul h_k0).mul h_ddk2_D0D2).add ((h_c.mul h_k2).mul h_ddk0_D0D2)).add ((h_c.mul h_dk0_D0).mul h_dk2_D2)).add ((h_c.mul h_dk0_D2).mul
    h_dk2_D0)).add ((h_k0.mul h_k2).mul h_ddc_D0D2)).add ((h_k0.mul h_dc_D0).mul h_dk2_D2)).add ((h_k0.mul h_dc_D2).mul h_dk2_D0)).add ((h_k2.mul h_dc_D0).mul
    h_dk0_D2)).add ((h_k2.mul h_dc_D2).mul h_dk0_D0))
  refine key.congr_deriv ?_
  simp only [Pi.add_apply, Pi.sub_apply, Pi.neg_apply, Pi.mul_apply, Pi.pow_apply, Pi.div_apply, line_at]
  unfold dddgamma_D0D2D0D2D0
  try simp only [Nat.cast_ofNat, Nat.reduceSub, pow_one]
  try simp only [dddk0_D0D1D0_sym, dddk0_D0D2D0_sym, dddk0_D1D1D0_sym, dddk0_D1D2D1_sym, dddk0_D2D2D0_sym, dddk0_D2D2D1_sym, dddk0_D0D2D1_sym, dddk0_D1D2D0_sym, dddk1_D0D1D0_sym, dddk1_D0D2D0_sym, dddk1_D1D1D0_sym, dddk1_D1D2D1_sym, dddk1_D2D2D0_sym, dddk1_D2D2D1_sym, dddk1_D0D2D1_sym, dddk1_D1D2D0_sym, dddk2_D0D1D0_sym, dddk2_D0D2D0_sym, dddk2_D1D1D0_sym, dddk2_D1D2D1_sym, dddk2_D2D2D0_sym, dddk2_D2D2D1_sym, dddk2_D0D2D1_sym, dddk2_D1D2D0_sym, dddc_D0D1D0_sym, dddc_D0D2D0_sym, dddc_D1D1D0_sym, dddc_D1D2D1_sym, dddc_D2D2D0_sym, dddc_D2D2D1_sym, dddc_D0D2D1_sym, dddc_D1D2D0_sym]
  ring


theorem ddgamma_D0D2D0D2_at2 (P : Par) (q : Pt) (hR : 0 < R P q) : HasDerivAt (line (ddgamma_D0D2D0D2 P) 2 q) (dddgamma_D0D2D0D2D2 P q) (q 2) := by
  have hc : ∀ c : ℝ, HasDerivAt (fun _ => c) 0 (q 2) := fun c => hasDerivAt_const _ c
  have h_c := c_at2 P q hR
  have h_dc_D0 := dc_D0_at2 P q hR
  have h_dc_D2 := dc_D2_at2 P q hR
  have h_ddc_D0D2 := ddc_D0D2_at2 P q hR
  have h_ddk0_D0D2 := ddk0_D0D2_at2 P q hR
  have h_ddk2_D0D2 := ddk2_D0D2_at2 P q hR
  have h_dk0_D0 := dk0_D0_at2 P q hR
  have h_dk0_D2 := dk0_D2_at2 P q hR
  have h_dk2_D0 := dk2_D0_at2 P q hR
  have h_dk2_D2 := dk2_D2_at2 P q hR
  have h_k0 := k0_at2 P q hR
  have h_k2 := k2_at2 P q hR
  have key := ((((((((((h_c.mul h_k0).mul h_ddk2_D0D2).add ((h_c.mul h_k2).mul h_ddk0_D0D2)).add ((h_c.mul h_dk0_D0).mul h_dk2_D2)).add ((h_c.mul h_dk0_D2).mul
    h_dk2_D0)).add ((h_k0.mul h_k2).mul h_ddc_D0D2)).add ((h_k0.mul h_dc_D0).mul h_dk2_D2)).add ((h_k0.mul h_dc_D2).mul h_dk2_D0)).add ((h_k2.mul h_dc_D0).mul
    h_dk0_D2)).add ((h_k2.mul h_dc_D2).mul h_dk0_D0))
  refine key.congr_deriv ?_
  simp only [Pi.add_apply, Pi.sub_apply, Pi.neg_apply, Pi.mul_apply, Pi.pow_apply, Pi.div_apply, line_at]
  unfold dddgamma_D0D2D0D2D2
  try simp only [Nat.cast_ofNat, Nat.reduceSub, pow_one]
  try simp only [dddk0_D0D1D0_sym, dddk0_D0D2D0_sym, dddk0_D1D1D0_sym, dddk0_D1D2D1_sym, dddk0_D2D2D0_sym, dddk0_D2D2D1_sym, dddk0_D0D2D1_sym, dddk0_D1D2D0_sym, dddk1_D0D1D0_sym, dddk1_D0D2D0_sym, dddk1_D1D1D0_sym, dddk1_D1D2D1_sym, dddk1_D2D2D0_sym, dddk1_D2D2D1_sym, dddk1_D0D2D1_sym, dddk1_D1D2D0_sym, dddk2_D0D1D0_sym, dddk2_D0D2D0_sym, dddk2_D1D1D0_sym, dddk2_D1D2D1_sym, dddk2_D2D2D0_sym, dddk2_D2D2D1_sym, dddk2_D0D2D1_sym, dddk2_D1D2D0_sym, dddc_D0D1D0_sym, dddc_D0D2D0_sym, dddc_D1D1D0_sym, dddc_D1D2D1_sym, dddc_D2D2D0_sym, dddc_D2D2D1_sym, dddc_D0D2D1_sym, dddc_D1D2D0_sym]
  ring


theorem ddgamma_D0D2D1D0_at0 (P : Par) (q : Pt) (hR : 0 < R P q) : HasDerivAt (line (ddgamma_D0D2D1D0 P) 0 q) (dddgamma_D0D2D1D0D0 P q) (q 0) := by
  have hc : ∀ c : ℝ, HasDerivAt (fun _ => c) 0 (q 0) := fun c => hasDerivAt_const _ c
  have h_c := c_at0 P q hR
  have h_dc_D0 := dc_D0_at0 P q hR
  have h_dc_D1 := dc_D1_at0 P q hR
  have h_ddc_D0D1 := ddc_D0D1_at0 P q hR
  have h_ddk0_D0D1 := ddk0_D0D1_at0 P q hR
  have h_ddk2_D0D1 := ddk2_D0D1_at0 P q hR
  have h_dk0_D0 := dk0_D0_at0 P q hR
  have h_dk0_D1 := dk0_D1_at0 P q hR
  have h_dk2_D0 := dk2_D0_at0 P q hR
  have h_dk2_D1 := dk2_D1_at0 P q hR
  have h_k0 := k0_at0 P q hR
  have h_k2 := k2_at0 P q hR
  have key := ((((((((((h_c.mul h_k0).mul h_ddk2_D0D1).add ((h_c.mul h_k2).mul h_ddk0_D0D1)).add ((h_c.mul h_dk0_D0).mul h_dk2_D1)).add ((h_c.mul h_dk0_D1).mul
    h_dk2_D0)).add ((h_k0.mul h_k2).mul h_ddc_D0D1)).add ((h_k0.mul h_dc_D0).mul h_dk2_D1)).add ((h_k0.mul h_dc_D1).mul h_dk2_D0)).add ((h_k2.mul h_dc_D0).mul
    h_dk0_D1)).add ((h_k2.mul h_dc_D1).mul h_dk0_D0))
  refine key.congr_deriv ?_
  simp only [Pi.add_apply, Pi.sub_apply, Pi.neg_apply, Pi.mul_apply, Pi.pow_apply, Pi.div_apply, line_at]
  unfold dddgamma_D0D2D1D0D0
  try simp only [Nat.cast_ofNat, Nat.reduceSub, pow_one]
  try simp only [dddk0_D0D1D0_sym, dddk0_D0D2D0_sym, dddk0_D1D1D0_sym, dddk0_D1D2D1_sym, dddk0_D2D2D0_sym, dddk0_D2D2D1_sym, dddk0_D0D2D1_sym, dddk0_D1D2D0_sym, dddk1_D0D1D0_sym, dddk1_D0D2D0_sym, dddk1_D1D1D0_sym, dddk1_D1D2D1_sym, dddk1_D2D2D0_sym, dddk1_D2D2D1_sym, dddk1_D0D2D1_sym, dddk1_D1D2D0_sym, dddk2_D0D1D0_sym, dddk2_D0D2D0_sym, dddk2_D1D1D0_sym, dddk2_D1D2D1_sym, dddk2_D2D2D0_sym, dddk2_D2D2D1_sym, dddk2_D0D2D1_sym, dddk2_D1D2D0_sym, dddc_D0D1D0_sym, dddc_D0D2D0_sym, dddc_D1D1D0_sym, dddc_D1D2D1_sym, dddc_D2D2D0_sym, dddc_D2D2D1_sym, dddc_D0D2D1_sym, dddc_D1D2D0_sym]
  ring


theorem ddgamma_D0D2D1D0_at1 (P : Par) (q : Pt) (hR : 0 < R P q) : HasDerivAt (line (ddgamma_D0D2D1D0 P) 1 q) (dddgamma_D0D2D1D0D1 P q) (q 1) := by
  have hc : ∀ c : ℝ, HasDerivAt (fun _ => c) 0 (q 1) := fun c => hasDerivAt_const _ c
  have h_c := c_at1 P q hR
  have h_dc_D0 := dc_D0_at1 P q hR
  have h_dc_D1 := dc_D1_at1 P q hR
  have h_ddc_D0D1 := ddc_D0D1_at1 P q hR
  have h_ddk0_D0D1 := ddk0_D0D1_at1 P q hR
  have h_ddk2_D0D1 := ddk2_D0D1_at1 P q hR
  have h_dk0_D0 := dk0_D0_at1 P q hR
  have h_dk0_D1 := dk0_D1_at1 P q hR
  have h_dk2_D0 := dk2_D0_at1 P q hR
  have h_dk2_D1 := dk2_D1_at1 P q hR
  have h_k0 := k0_at1 P q hR
  have h_k2 := k2_at1 P q hR
  have key := ((((((((((h_c.mul h_k0).mul h_ddk2_D0D1).add ((h_c.mul h_k2).mul h_ddk0_D0D1)).add ((h_c.mul h_dk0_D0).mul h_dk2_D1)).add ((h_c.mul h_dk0_D1).mul
    h_dk2_D0)).add ((h_k0.mul h_k2).mul h_ddc_D0D1)).add ((h_k0.mul h_dc_D0).mul h_dk2_D1)).add ((h_k0.mul h_dc_D1).mul h_dk2_D0)).add ((h_k2.mul h_dc_D0).mul
    h_dk0_D1)).add ((h_k2.mul h_dc_D1).mul h_dk0_D0))
  refine key.congr_deriv ?_
  simp only [Pi.add_apply, Pi.sub_apply, Pi.neg_apply, Pi.mul_apply, Pi.pow_apply, Pi.div_apply, line_at]
  unfold dddgamma_D0D2D1D0D1
  try simp only [Nat.cast_ofNat, Nat.reduceSub, pow_one]
  try simp only [dddk0_D0D1D0_sym, dddk0_D0D2D0_sym, dddk0_D1D1D0_sym, dddk0_D1D2D1_sym, dddk0_D2D2D0_sym, dddk0_D2D2D1_sym, dddk0_D0D2D1_sym, dddk0_D1D2D0_sym, dddk1_D0D1D0_sym, dddk1_D0D2D0_sym, dddk1_D1D1D0_sym, dddk1_D1D2D1_sym, dddk1_D2D2D0_sym, dddk1_D2D2D1_sym, dddk1_D0D2D1_sym, dddk1_D1D2D0_sym, dddk2_D0D1D0_sym, dddk2_D0D2D0_sym, dddk2_D1D1D0_sym, dddk2_D1D2D1_sym, dddk2_D2D2D0_sym, dddk2_D2D2D1_sym, dddk2_D0D2D1_sym, dddk2_D1D2D0_sym, dddc_D0D1D0_sym, dddc_D0D2D0_sym, dddc_D1D1D0_sym, dddc_D1D2D1_sym, dddc_D2D2D0_sym, dddc_D2D2D1_sym, dddc_D0D2D1_sym, dddc_D1D2D0_sym]
  ring


theorem ddgamma_D0D2D1D1_at0 (P : Par) (q : Pt) (hR : 0 < R P q) : HasDerivAt (line (ddgamma_D0D2D1D1 P) 0 q) (dddgamma_D0D2D1D1D0 P q) (q 0) := by
  have hc : ∀ c : ℝ, HasDerivAt (fun _ => c) 0 (q 0) := fun c => hasDerivAt_const _ c
  have h_c := c_at0 P q hR
  have h_dc_D1 := dc_D1_at0 P q hR
  have h_ddc_D1D1 := ddc_D1D1_at0 P q hR
  have h_ddk0_D1D1 := ddk0_D1D1_at0 P q hR
  have h_ddk2_D1D1 := ddk2_D1D1_at0 P q hR
  have h_dk0_D1 := dk0_D1_at0 P q hR
  have h_dk2_D1 := dk2_D1_at0 P q hR
  have h_k0 := k0_at0 P q hR
  have h_k2 := k2_at0 P q hR
  have key := (((((((h_c.mul h_k0).mul h_ddk2_D1D1).add ((h_c.mul h_k2).mul h_ddk0_D1D1)).add ((((hc (2)).mul h_c).mul h_dk0_D1).mul h_dk2_D1)).add ((h_k0.mul h_k2).mul
    h_ddc_D1D1)).add ((((hc (2)).mul h_k0).mul h_dc_D1).mul h_dk2_D1)).add ((((hc (2)).mul h_k2).mul h_dc_D1).mul h_dk0_D1))
  refine key.congr_deriv ?_
  simp only [Pi.add_apply, Pi.sub_apply, Pi.neg_apply, Pi.mul_apply, Pi.pow_apply, Pi.div_apply, line_at]
  unfold dddgamma_D0D2D1D1D0
  try simp only [Nat.cast_ofNat, Nat.reduceSub, pow_one]
  try simp only [dddk0_D0D1D0_sym, dddk0_D0D2D0_sym, dddk0_D1D1D0_sym, dddk0_D1D2D1_sym, dddk0_D2D2D0_sym, dddk0_D2D2D1_sym, dddk0_D0D2D1_sym, dddk0_D1D2D0_sym, dddk1_D0D1D0_sym, dddk1_D0D2D0_sym, dddk1_D1D1D0_sym, dddk1_D1D2D1_sym, dddk1_D2D2D0_sym, dddk1_D2D2D1_sym, dddk1_D0D2D1_sym, dddk1_D1D2D0_sym, dddk2_D0D1D0_sym, dddk2_D0D2D0_sym, dddk2_D1D1D0_sym, dddk2_D1D2D1_sym, dddk2_D2D2D0_sym, dddk2_D2D2D1_sym, dddk2_D0D2D1_sym, dddk2_D1D2D0_sym, dddc_D0D1D0_sym, dddc_D0D2D0_sym, dddc_D1D1D0_sym, dddc_D1D2D1_sym, dddc_D2D2D0_sym, dddc_D2D2D1_sym, dddc_D0D2D1_sym, dddc_D1D2D0_sym]
  ring


theorem ddgamma_D0D2D1D1_at1 (P : Par) (q : Pt) (hR : 0 < R P q) : HasDerivAt (line (ddgamma_D0D2D1D1 P) 1 q) (dddgamma_D0D2D1D1D1 P q) (q 1) := by
  have hc : ∀ c : ℝ, HasDerivAt (fun _ => c) 0 (q 1) := fun c => hasDerivAt_const _ c
  have h_c := c_at1 P q hR
  have h_dc_D1 := dc_D1_at1 P q hR
  have h_ddc_D1D1 := ddc_D1D1_at1 P q hR
  have h_ddk0_D1D1 := ddk0_D1D1_at1 P q hR
  have h_ddk2_D1D1 := ddk2_D1D1_at1 P q hR
  have h_dk0_D1 := dk0_D1_at1 P q hR
  have h_dk2_D1 := dk2_D1_at1 P q hR
  have h_k0 := k0_at1 P q hR
  have h_k2 := k2_at1 P q hR
  have key := (((((((h_c.mul h_k0).mul h_ddk2_D1D1).add ((h_c.mul h_k2).mul h_ddk0_D1D1)).add ((((hc (2)).mul h_c).mul h_dk0_D1).mul h_dk2_D1)).add ((h_k0.mul h_k2).mul
    h_ddc_D1D1)).add ((((hc (2)).mul h_k0).mul h_dc_D1).mul h_dk2_D1)).add ((((hc (2)).mul h_k2).mul h_dc_D1).mul h_dk0_D1))
  refine key.congr_deriv ?_
  simp only [Pi.add_apply, Pi.sub_apply, Pi.neg_apply, Pi.mul_apply, Pi.pow_apply, Pi.div_apply, line_at]
  unfold dddgamma_D0D2D1D1D1
  try simp only [Nat.cast_ofNat, Nat.reduceSub, pow_one]
  try simp only [dddk0_D0D1D0_sym, dddk0_D0D2D0_sym, dddk0_D1D1D0_sym, dddk0_D1D2D1_sym, dddk0_D2D2D0_sym, dddk0_D2D2D1_sym, dddk0_D0D2D1_sym, dddk0_D1D2D0_sym, dddk1_D0D1D0_sym, dddk1_D0D2D0_sym, dddk1_D1D1D0_sym, dddk1_D1D2D1_sym, dddk1_D2D2D0_sym, dddk1_D2D2D1_sym, dddk1_D0D2D1_sym, dddk1_D1D2D0_sym, dddk2_D0D1D0_sym, dddk2_D0D2D0_sym, dddk2_D1D1D0_sym, dddk2_D1D2D1_sym, dddk2_D2D2D0_sym, dddk2_D2D2D1_sym, dddk2_D0D2D1_sym, dddk2_D1D2D0_sym, dddc_D0D1D0_sym, dddc_D0D2D0_sym, dddc_D1D1D0_sym, dddc_D1D2D1_sym, dddc_D2D2D0_sym, dddc_D2D2D1_sym, dddc_D0D2D1_sym, dddc_D1D2D0_sym]
  ring


theorem ddgamma_D0D2D1D1_at2 (P : Par) (q : Pt) (hR : 0 < R P q) : HasDerivAt (line (ddgamma_D0D2D1D1 P) 2 q) (dddgamma_D0D2D1D1D2 P q) (q 2) := by
  have hc : ∀ c : ℝ, HasDerivAt (fun _ => c) 0 (q 2) := fun c => hasDerivAt_const _ c
  have h_c := c_at2 P q hR
  have h_dc_D1 := dc_D1_at2 P q hR
  have h_ddc_D1D1 := ddc_D1D1_at2 P q hR
  have h_ddk0_D1D1 := ddk0_D1D1_at2 P q hR
  have h_ddk2_D1D1 := ddk2_D1D1_at2 P q hR
  have h_dk0_D1 := dk0_D1_at2 P q hR
  have h_dk2_D1 := dk2_D1_at2 P q hR
  have h_k0 := k0_at2 P q hR
  have h_k2 := k2_at2 P q hR
  have key := (((((((h_c.mul h_k0).mul h_ddk2_D1D1).add ((h_c.mul h_k2).mul h_ddk0_D1D1)).add ((((hc (2)).mul h_c).mul h_dk0_D1).mul h_dk2_D1)).add ((h_k0.mul h_k2).mul
    h_ddc_D1D1)).add ((((hc (2)).mul h_k0).mul h_dc_D1).mul h_dk2_D1)).add ((((hc (2)).mul h_k2).mul h_dc_D1).mul h_dk0_D1))
  refine key.congr_deriv ?_
  simp only [Pi.add_apply, Pi.sub_apply, Pi.neg_apply, Pi.mul_apply, Pi.pow_apply, Pi.div_apply, line_at]
  unfold dddgamma_D0D2D1D1D2
  try simp only [Nat.cast_ofNat, Nat.reduceSub, pow_one]
  try simp only [dddk0_D0D1D0_sym, dddk0_D0D2D0_sym, dddk0_D1D1D0_sym, dddk0_D1D2D1_sym, dddk0_D2D2D0_sym, dddk0_D2D2D1_sym, dddk0_D0D2D1_sym, dddk0_D1D2D0_sym, dddk1_D0D1D0_sym, dddk1_D0D2D0_sym, dddk1_D1D1D0_sym, dddk1_D1D2D1_sym, dddk1_D2D2D0_sym, dddk1_D2D2D1_sym, dddk1_D0D2D1_sym, dddk1_D1D2D0_sym, dddk2_D0D1D0_sym, dddk2_D0D2D0_sym, dddk2_D1D1D0_sym, dddk2_D1D2D1_sym, dddk2_D2D2D0_sym, dddk2_D2D2D1_sym, dddk2_D0D2D1_sym, dddk2_D1D2D0_sym, dddc_D0D1D0_sym, dddc_D0D2D0_sym, dddc_D1D1D0_sym, dddc_D1D2D1_sym, dddc_D2D2D0_sym, dddc_D2D2D1_sym, dddc_D0D2D1_sym, dddc_D1D2D0_sym]
  ring


theorem ddgamma_D0D2D1D2_at1 (P : Par) (q : Pt) (hR : 0 < R P q) : HasDerivAt (line (ddgamma_D0D2D1D2 P) 1 q) (dddgamma_D0D2D1D2D1 P q) (q 1) := by
  have hc : ∀ c : ℝ, HasDerivAt (fun _ => c) 0 (q 1) := fun c => hasDerivAt_const _ c
  have h_c := c_at1 P q hR
  have h_dc_D1 := dc_D1_at1 P q hR
  have h_dc_D2 := dc_D2_at1 P q hR
  have h_ddc_D1D2 := ddc_D1D2_at1 P q hR
  have h_ddk0_D1D2 := ddk0_D1D2_at1 P q hR
  have h_ddk2_D1D2 := ddk2_D1D2_at1 P q hR
  have h_dk0_D1 := dk0_D1_at1 P q hR
  have h_dk0_D2 := dk0_D2_at1 P q hR
  have h_dk2_D1 := dk2_D1_at1 P q hR
  have h_dk2_D2 := dk2_D2_at1 P q hR
  have h_k0 := k0_at1 P q hR
  have h_k2 := k2_at1 P q hR
  have key := ((((((((((h_c.mul h_k0).mul h_ddk2_D1D2).add ((h_c.mul h_k2).mul h_ddk0_D1D2)).add ((h_c.mul h_dk0_D1).mul h_dk2_D2)).add ((h_c.mul h_dk0_D2).mul
    h_dk2_D1)).add ((h_k0.mul h_k2).mul h_ddc_D1D2)).add ((h_k0.mul h_dc_D1).mul h_dk2_D2)).add ((h_k0.mul h_dc_D2).mul h_dk2_D1)).add ((h_k2.mul h_dc_D1).mul
    h_dk0_D2)).add ((h_k2.mul h_dc_D2).mul h_dk0_D1))
  refine key.congr_deriv ?_
  simp only [Pi.add_apply, Pi.sub_apply, Pi.neg_apply, Pi.mul_apply, Pi.pow_apply, Pi.div_apply, line_at]
  unfold dddgamma_D0D2D1D2D1
  try simp only [Nat.cast_ofNat, Nat.reduceSub, pow_one]
  try simp only [dddk0_D0D1D0_sym, dddk0_D0D2D0_sym, dddk0_D1D1D0_sym, dddk0_D1D2D1_sym, dddk0_D2D2D0_sym, dddk0_D2D2D1_sym, dddk0_D0D2D1_sym, dddk0_D1D2D0_sym, dddk1_D0D1D0_sym, dddk1_D0D2D0_sym, dddk1_D1D1D0_sym, dddk1_D1D2D1_sym, dddk1_D2D2D0_sym, dddk1_D2D2D1_sym, dddk1_D0D2D1_sym, dddk1_D1D2D0_sym, dddk2_D0D1D0_sym, dddk2_D0D2D0_sym, dddk2_D1D1D0_sym, dddk2_D1D2D1_sym, dddk2_D2D2D0_sym, dddk2_D2D2D1_sym, dddk2_D0D2D1_sym, dddk2_D1D2D0_sym, dddc_D0D1D0_sym, dddc_D0D2D0_sym, dddc_D1D1D0_sym, dddc_D1D2D1_sym, dddc_D2D2D0_sym, dddc_D2D2D1_sym, dddc_D0D2D1_sym, dddc_D1D2D0_sym]
  ring


theorem ddgamma_D0D2D1D2_at2 (P : Par) (q : Pt) (hR : 0 < R P q) : HasDerivAt (line (ddgamma_D0D2D1D2 P) 2 q) (dddgamma_D0D2D1D2D2 P q) (q 2) := by
  have hc : ∀ c : ℝ, HasDerivAt (fun _ => c) 0 (q 2) := fun c => hasDerivAt_const _ c
  have h_c := c_at2 P q hR
  have h_dc_D1 := dc_D1_at2 P q hR
  have h_dc_D2 := dc_D2_at2 P q hR
  have h_ddc_D1D2 := ddc_D1D2_at2 P q hR
  have h_ddk0_D1D2 := ddk0_D1D2_at2 P q hR
  have h_ddk2_D1D2 := ddk2_D1D2_at2 P q hR
  have h_dk0_D1 := dk0_D1_at2 P q hR
  have h_dk0_D2 := dk0_D2_at2 P q hR
  have h_dk2_D1 := dk2_D1_at2 P q hR
  have h_dk2_D2 := dk2_D2_at2 P q hR
  have h_k0 := k0_at2 P q hR
  have h_k2 := k2_at2 P q hR
  have key := ((((((((((h_c.mul h_k0).mul h_ddk2_D1D2).add ((h_c.mul h_k2).mul h_ddk0_D1D2)).add ((h_c.mul h_dk0_D1).mul h_dk2_D2)).add ((h_c.mul h_dk0_D2).mul
    h_dk2_D1)).add ((h_k0.mul h_k2).mul h_ddc_D1D2)).add ((h_k0.mul h_dc_D1).mul h_dk2_D2)).add ((h_k0.mul h_dc_D2).mul h_dk2_D1)).add ((h_k2.mul h_dc_D1).mul
    h_dk0_D2)).add ((h_k2.mul h_dc_D2).mul h_dk0_D1))
  refine key.congr_deriv ?_
  simp only [Pi.add_apply, Pi.sub_apply, Pi.neg_apply, Pi.mul_apply, Pi.pow_apply, Pi.div_apply, line_at]
  unfold dddgamma_D0D2D1D2D2
  try simp only [Nat.cast_ofNat, Nat.reduceSub, pow_one]
  try simp only [dddk0_D0D1D0_sym, dddk0_D0D2D0_sym, dddk0_D1D1D0_sym, dddk0_D1D2D1_sym, dddk0_D2D2D0_sym, dddk0_D2D2D1_sym, dddk0_D0D2D1_sym, dddk0_D1D2D0_sym, dddk1_D0D1D0_sym, dddk1_D0D2D0_sym, dddk1_D1D1D0_sym, dddk1_D1D2D1_sym, dddk1_D2D2D0_sym, dddk1_D2D2D1_sym, dddk1_D0D2D1_sym, dddk1_D1D2D0_sym, dddk2_D0D1D0_sym, dddk2_D0D2D0_sym, dddk2_D1D1D0_sym, dddk2_D1D2D1_sym, dddk2_D2D2D0_sym, dddk2_D2D2D1_sym, dddk2_D0D2D1_sym, dddk2_D1D2D0_sym, dddc_D0D1D0_sym, dddc_D0D2D0_sym, dddc_D1D1D0_sym, dddc_D1D2D1_sym, dddc_D2D2D0_sym, dddc_D2D2D1_sym, dddc_D0D2D1_sym, dddc_D1D2D0_sym]
  ring


theorem ddgamma_D0D2D2D0_at0 (P : Par) (q : Pt) (hR : 0 < R P q) : HasDerivAt (line (ddgamma_D0D2D2D0 P) 0 q) (dddgamma_D0D2D2D0D0 P q) (q 0) := by
  have hc : ∀ c : ℝ, HasDerivAt (fun _ => c) 0 (q 0) := fun c => hasDerivAt_const _ c
  have h_c := c_at0 P q hR
  have h_dc_D0 := dc_D0_at0 P q hR
  have h_dc_D2 := dc_D2_at0 P q hR
  have h_ddc_D0D2 := ddc_D0D2_at0 P q hR
  have h_ddk0_D0D2 := ddk0_D0D2_at0 P q hR
  have h_ddk2_D0D2 := ddk2_D0D2_at0 P q hR
  have h_dk0_D0 := dk0_D0_at0 P q hR
  have h_dk0_D2 := dk0_D2_at0 P q hR
  have h_dk2_D0 := dk2_D0_at0 P q hR
  have h_dk2_D2 := dk2_D2_at0 P q hR
  have h_k0 := k0_at0 P q hR
  have h_k2 := k2_at0 P q hR
  have key := ((((((((((h_c.mul h_k0).mul h_ddk2_D0D2).add ((h_c.mul h_k2).mul h_ddk0_D0D2)).add ((h_c.mul h_dk0_D0).mul h_dk2_D2)).add ((h_c.mul h_dk0_D2).mul
    h_dk2_D0)).add ((h_k0.mul h_k2).mul h_ddc_D0D2)).add ((h_k0.mul h_dc_D0).mul h_dk2_D2)).add ((h_k0.mul h_dc_D2).mul h_dk2_D0)).add ((h_k2.mul h_dc_D0).mul
    h_dk0_D2)).add ((h_k2.mul h_dc_D2).mul h_dk0_D0))
  refine key.congr_deriv ?_
  simp only [Pi.add_apply, Pi.sub_apply, Pi.neg_apply, Pi.mul_apply, Pi.pow_apply, Pi.div_apply, line_at]
  unfold dddgamma_D0D2D2D0D0
  try simp only [Nat.cast_ofNat, Nat.reduceSub, pow_one]
  try simp only [dddk0_D0D1D0_sym, dddk0_D0D2D0_sym, dddk0_D1D1D0_sym, dddk0_D1D2D1_sym, dddk0_D2D2D0_sym, dddk0_D2D2D1_sym, dddk0_D0D2D1_sym, dddk0_D1D2D0_sym, dddk1_D0D1D0_sym, dddk1_D0D2D0_sym, dddk1_D1D1D0_sym, dddk1_D1D2D1_sym, dddk1_D2D2D0_sym, dddk1_D2D2D1_sym, dddk1_D0D2D1_sym, dddk1_D1D2D0_sym, dddk2_D0D1D0_sym, dddk2_D0D2D0_sym, dddk2_D1D1D0_sym, dddk2_D1D2D1_sym, dddk2_D2D2D0_sym, dddk2_D2D2D1_sym, dddk2_D0D2D1_sym, dddk2_D1D2D0_sym, dddc_D0D1D0_sym, dddc_D0D2D0_sym, dddc_D1D1D0_sym, dddc_D1D2D1_sym, dddc_D2D2D0_sym, dddc_D2D2D1_sym, dddc_D0D2D1_sym, dddc_D1D2D0_sym]
  ring


theorem ddgamma_D0D2D2D0_at2 (P : Par) (q : Pt) (hR : 0 < R P q) : HasDerivAt (line (ddgamma_D0D2D2D0 P) 2 q) (dddgamma_D0D2D2D0D2 P q) (q 2) := by
  have hc : ∀ c : ℝ, HasDerivAt (fun _ => c) 0 (q 2) := fun c => hasDerivAt_const _ c
  have h_c := c_at2 P q hR
  have h_dc_D0 := dc_D0_at2 P q hR
  have h_dc_D2 := dc_D2_at2 P q hR
  have h_ddc_D0D2 := ddc_D0D2_at2 P q hR
  have h_ddk0_D0D2 := ddk0_D0D2_at2 P q hR
  have h_ddk2_D0D2 := ddk2_D0D2_at2 P q hR
  have h_dk0_D0 := dk0_D0_at2 P q hR
  have h_dk0_D2 := dk0_D2_at2 P q hR
  have h_dk2_D0 := dk2_D0_at2 P q hR
  have h_dk2_D2 := dk2_D2_at2 P q hR
  have h_k0 := k0_at2 P q hR
  have h_k2 := k2_at2 P q hR
  have key := ((((((((((h_c.mul h_k0).mul h_ddk2_D0D2).add ((h_c.mul h_k2).mul h_ddk0_D0D2)).add ((h_c.mul h_dk0_D0).mul h_dk2_D2)).add ((h_c.mul h_dk0_D2).mul
    h_dk2_D0)).add ((h_k0.mul h_k2).mul h_ddc_D0D2)).add ((h_k0.mul h_dc_D0).mul h_dk2_D2)).add ((h_k0.mul h_dc_D2).mul h_dk2_D0)).add ((h_k2.mul h_dc_D0).mul
    h_dk0_D2)).add ((h_k2.mul h_dc_D2).mul h_dk0_D0))
  refine key.congr_deriv ?_
  simp only [Pi.add_apply, Pi.sub_apply, Pi.neg_apply, Pi.mul_apply, Pi.pow_apply, Pi.div_apply, line_at]
  unfold dddgamma_D0D2D2D0D2
  try simp only [Nat.cast_ofNat, Nat.reduceSub, pow_one]
  try simp only [dddk0_D0D1D0_sym, dddk0_D0D2D0_sym, dddk0_D1D1D0_sym, dddk0_D1D2D1_sym, dddk0_D2D2D0_sym, dddk0_D2D2D1_sym, dddk0_D0D2D1_sym, dddk0_D1D2D0_sym, dddk1_D0D1D0_sym, dddk1_D0D2D0_sym, dddk1_D1D1D0_sym, dddk1_D1D2D1_sym, dddk1_D2D2D0_sym, dddk1_D2D2D1_sym, dddk1_D0D2D1_sym, dddk1_D1D2D0_sym, dddk2_D0D1D0_sym, dddk2_D0D2D0_sym, dddk2_D1D1D0_sym, dddk2_D1D2D1_sym, dddk2_D2D2D0_sym, dddk2_D2D2D1_sym, dddk2_D0D2D1_sym, dddk2_D1D2D0_sym, dddc_D0D1D0_sym, dddc_D0D2D0_sym, dddc_D1D1D0_sym, dddc_D1D2D1_sym, dddc_D2D2D0_sym, dddc_D2D2D1_sym, dddc_D0D2D1_sym, dddc_D1D2D0_sym]
  ring


theorem ddgamma_D0D2D2D1_at1 (P : Par) (q : Pt) (hR : 0 < R P q) : HasDerivAt (line (ddgamma_D0D2D2D1 P) 1 q) (dddgamma_D0D2D2D1D1 P q) (q 1) := by
  have hc : ∀ c : ℝ, HasDerivAt (fun _ => c) 0 (q 1) := fun c => hasDerivAt_const _ c
  have h_c := c_at1 P q hR
  have h_dc_D1 := dc_D1_at1 P q hR
  have h_dc_D2 := dc_D2_at1 P q hR
  have h_ddc_D1D2 := ddc_D1D2_at1 P q hR
  have h_ddk0_D1D2 := ddk0_D1D2_at1 P q hR
  have h_ddk2_D1D2 := ddk2_D1D2_at1 P q hR
  have h_dk0_D1 := dk0_D1_at1 P q hR
  have h_dk0_D2 := dk0_D2_at1 P q hR
  have h_dk2_D1 := dk2_D1_at1 P q hR
  have h_dk2_D2 := dk2_D2_at1 P q hR
  have h_k0 := k0_at1 P q hR
  have h_k2 := k2_at1 P q hR
  have key := ((((((((((h_c.mul h_k0).mul h_ddk2_D1D2).add ((h_c.mul h_k2).mul h_ddk0_D1D2)).add ((h_c.mul h_dk0_D1).mul h_dk2_D2)).add ((h_c.mul h_dk0_D2).mul
    h_dk2_D1)).add ((h_k0.mul h_k2).mul h_ddc_D1D2)).add ((h_k0.mul h_dc_D1).mul h_dk2_D2)).add ((h_k0.mul h_dc_D2).mul h_dk2_D1)).add ((h_k2.mul h_dc_D1).mul
    h_dk0_D2)).add ((h_k2.mul h_dc_D2).mul h_dk0_D1))
  refine key.congr_deriv ?_
  simp only [Pi.add_apply, Pi.sub_apply, Pi.neg_apply, Pi.mul_apply, Pi.pow_apply, Pi.div_apply, line_at]
  unfold dddgamma_D0D2D2D1D1
  try simp only [Nat.cast_ofNat, Nat.reduceSub, pow_one]
  try simp only [dddk0_D0D1D0_sym, dddk0_D0D2D0_sym, dddk0_D1D1D0_sym, dddk0_D1D2D1_sym, dddk0_D2D2D0_sym, dddk0_D2D2D1_sym, dddk0_D0D2D1_sym, dddk0_D1D2D0_sym, dddk1_D0D1D0_sym, dddk1_D0D2D0_sym, dddk1_D1D1D0_sym, dddk1_D1D2D1_sym, dddk1_D2D2D0_sym, dddk1_D2D2D1_sym, dddk1_D0D2D1_sym, dddk1_D1D2D0_sym, dddk2_D0D1D0_sym, dddk2_D0D2D0_sym, dddk2_D1D1D0_sym, dddk2_D1D2D1_sym, dddk2_D2D2D0_sym, dddk2_D2D2D1_sym, dddk2_D0D2D1_sym, dddk2_D1D2D0_sym, dddc_D0D1D0_sym, dddc_D0D2D0_sym, dddc_D1D1D0_sym, dddc_D1D2D1_sym, dddc_D2D2D0_sym, dddc_D2D2D1_sym, dddc_D0D2D1_sym, dddc_D1D2D0_sym]
  ring


theorem ddgamma_D0D2D2D1_at2 (P : Par) (q : Pt) (hR : 0 < R P q) : HasDerivAt (line (ddgamma_D0D2D2D1 P) 2 q) (dddgamma_D0D2D2D1D2 P q) (q 2) := by
  have hc : ∀ c : ℝ, HasDerivAt (fun _ => c) 0 (q 2) := fun c => hasDerivAt_const _ c
  have h_c := c_at2 P q hR
  have h_dc_D1 := dc_D1_at2 P q hR
  have h_dc_D2 := dc_D2_at2 P q hR
  have h_ddc_D1D2 := ddc_D1D2_at2 P q hR
  have h_ddk0_D1D2 := ddk0_D1D2_at2 P q hR
  have h_ddk2_D1D2 := ddk2_D1D2_at2 P q hR
  have h_dk0_D1 := dk0_D1_at2 P q hR
  have h_dk0_D2 := dk0_D2_at2 P q hR
  have h_dk2_D1 := dk2_D1_at2 P q hR
  have h_dk2_D2 := dk2_D2_at2 P q hR
  have h_k0 := k0_at2 P q hR
  have h_k2 := k2_at2 P q hR
  have key := ((((((((((h_c.mul h_k0).mul h_ddk2_D1D2).add ((h_c.mul h_k2).mul h_ddk0_D1D2)).add ((h_c.mul h_dk0_D1).mul h_dk2_D2)).add ((h_c.mul h_dk0_D2).mul
    h_dk2_D1)).add ((h_k0.mul h_k2).mul h_ddc_D1D2)).add ((h_k0.mul h_dc_D1).mul h_dk2_D2)).add ((h_k0.mul h_dc_D2).mul h_dk2_D1)).add ((h_k2.mul h_dc_D1).mul
    h_dk0_D2)).add ((h_k2.mul h_dc_D2).mul h_dk0_D1))
  refine key.congr_deriv ?_
  simp only [Pi.add_apply, Pi.sub_apply, Pi.neg_apply, Pi.mul_apply, Pi.pow_apply, Pi.div_apply, line_at]
  unfold dddgamma_D0D2D2D1D2
  try simp only [Nat.cast_ofNat, Nat.reduceSub, pow_one]
  try simp only [dddk0_D0D1D0_sym, dddk0_D0D2D0_sym, dddk0_D1D1D0_sym, dddk0_D1D2D1_sym, dddk0_D2D2D0_sym, dddk0_D2D2D1_sym, dddk0_D0D2D1_sym, dddk0_D1D2D0_sym, dddk1_D0D1D0_sym, dddk1_D0D2D0_sym, dddk1_D1D1D0_sym, dddk1_D1D2D1_sym, dddk1_D2D2D0_sym, dddk1_D2D2D1_sym, dddk1_D0D2D1_sym, dddk1_D1D2D0_sym, dddk2_D0D1D0_sym, dddk2_D0D2D0_sym, dddk2_D1D1D0_sym, dddk2_D1D2D1_sym, dddk2_D2D2D0_sym, dddk2_D2D2D1_sym, dddk2_D0D2D1_sym, dddk2_D1D2D0_sym, dddc_D0D1D0_sym, dddc_D0D2D0_sym, dddc_D1D1D0_sym, dddc_D1D2D1_sym, dddc_D2D2D0_sym, dddc_D2D2D1_sym, dddc_D0D2D1_sym, dddc_D1D2D0_sym]
  ring


theorem ddgamma_D0D2D2D2_at0 (P : Par) (q : Pt) (hR : 0 < R P q) : HasDerivAt (line (ddgamma_D0D2D2D2 P) 0 q) (dddgamma_D0D2D2D2D0 P q) (q 0) := by
  have hc : ∀ c : ℝ, HasDerivAt (fun _ => c) 0 (q 0) := fun c => hasDerivAt_const _ c
  have h_c := c_at0 P q hR
  have h_dc_D2 := dc_D2_at0 P q hR
  have h_ddc_D2D2 := ddc_D2D2_at0 P q hR
  have h_ddk0_D2D2 := ddk0_D2D2_at0 P q hR
  have h_ddk2_D2D2 := ddk2_D2D2_at0 P q hR
  have h_dk0_D2 := dk0_D2_at0 P q hR
  have h_dk2_D2 := dk2_D2_at0 P q hR
  have h_k0 := k0_at0 P q hR
  have h_k2 := k2_at0 P q hR
  have key := (((((((h_c.mul h_k0).mul h_ddk2_D2D2).add ((h_c.mul h_k2).mul h_ddk0_D2D2)).add ((((hc (2)).mul h_c).mul h_dk0_D2).mul h_dk2_D2)).add ((h_k0.mul h_k2).mul
    h_ddc_D2D2)).add ((((hc (2)).mul h_k0).mul h_dc_D2).mul h_dk2_D2)).add ((((hc (2)).mul h_k2).mul h_dc_D2).mul h_dk0_D2))
  refine key.congr_deriv ?_
  simp only [Pi.add_apply, Pi.sub_apply, Pi.neg_apply, Pi.mul_apply, Pi.pow_apply, Pi.div_apply, line_at]
  unfold dddgamma_D0D2D2D2D0
  try simp only [Nat.cast_ofNat, Nat.reduceSub, pow_one]
  try simp only [dddk0_D0D1D0_sym, dddk0_D0D2D0_sym, dddk0_D1D1D0_sym, dddk0_D1D2D1_sym, dddk0_D2D2D0_sym, dddk0_D2D2D1_sym, dddk0_D0D2D1_sym, dddk0_D1D2D0_sym, dddk1_D0D1D0_sym, dddk1_D0D2D0_sym, dddk1_D1D1D0_sym, dddk1_D1D2D1_sym, dddk1_D2D2D0_sym, dddk1_D2D2D1_sym, dddk1_D0D2D1_sym, dddk1_D1D2D0_sym, dddk2_D0D1D0_sym, dddk2_D0D2D0_sym, dddk2_D1D1D0_sym, dddk2_D1D2D1_sym, dddk2_D2D2D0_sym, dddk2_D2D2D1_sym, dddk2_D0D2D1_sym, dddk2_D1D2D0_sym, dddc_D0D1D0_sym, dddc_D0D2D0_sym, dddc_D1D1D0_sym, dddc_D1D2D1_sym, dddc_D2D2D0_sym, dddc_D2D2D1_sym, dddc_D0D2D1_sym, dddc_D1D2D0_sym]
  ring


theorem ddgamma_D0D2D2D2_at1 (P : Par) (q : Pt) (hR : 0 < R P q) : HasDerivAt (line (ddgamma_D0D2D2D2 P) 1 q) (dddgamma_D0D2D2D2D1 P q) (q 1) := by
  have hc : ∀ c : ℝ, HasDerivAt (fun _ => c) 0 (q 1) := fun c => hasDerivAt_const _ c
  have h_c := c_at1 P q hR
  have h_dc_D2 := dc_D2_at1 P q hR
  have h_ddc_D2D2 := ddc_D2D2_at1 P q hR
  have h_ddk0_D2D2 := ddk0_D2D2_at1 P q hR
  have h_ddk2_D2D2 := ddk2_D2D2_at1 P q hR
  have h_dk0_D2 := dk0_D2_at1 P q hR
  have h_dk2_D2 := dk2_D2_at1 P q hR
  have h_k0 := k0_at1 P q hR
  have h_k2 := k2_at1 P q hR
  have key := (((((((h_c.mul h_k0).mul h_ddk2_D2D2).add ((h_c.mul h_k2).mul h_ddk0_D2D2)).add ((((hc (2)).mul h_c).mul h_dk0_D2).mul h_dk2_D2)).add ((h_k0.mul h_k2).mul
    h_ddc_D2D2)).add ((((hc (2)).mul h_k0).mul h_dc_D2).mul h_dk2_D2)).add ((((hc (2)).mul h_k2).mul h_dc_D2).mul h_dk0_D2))
  refine key.congr_deriv ?_
  simp only [Pi.add_apply, Pi.sub_apply, Pi.neg_apply, Pi.mul_apply, Pi.pow_apply, Pi.div_apply, line_at]
  unfold dddgamma_D0D2D2D2D1
  try simp only [Nat.cast_ofNat, Nat.reduceSub, pow_one]
  try simp only [dddk0_D0D1D0_sym, dddk0_D0D2D0_sym, dddk0_D1D1D0_sym, dddk0_D1D2D1_sym, dddk0_D2D2D0_sym, dddk0_D2D2D1_sym, dddk0_D0D2D1_sym, dddk0_D1D2D0_sym, dddk1_D0D1D0_sym, dddk1_D0D2D0_sym, dddk1_D1D1D0_sym, dddk1_D1D2D1_sym, dddk1_D2D2D0_sym, dddk1_D2D2D1_sym, dddk1_D0D2D1_sym, dddk1_D1D2D0_sym, dddk2_D0D1D0_sym, dddk2_D0D2D0_sym, dddk2_D1D1D0_sym, dddk2_D1D2D1_sym, dddk2_D2D2D0_sym, dddk2_D2D2D1_sym, dddk2_D0D2D1_sym, dddk2_D1D2D0_sym, dddc_D0D1D0_sym, dddc_D0D2D0_sym, dddc_D1D1D0_sym, dddc_D1D2D1_sym, dddc_D2D2D0_sym, dddc_D2D2D1_sym, dddc_D0D2D1_sym, dddc_D1D2D0_sym]
  ring


theorem ddgamma_D0D2D2D2_at2 (P : Par) (q : Pt) (hR : 0 < R P q) : HasDerivAt (line (ddgamma_D0D2D2D2 P) 2 q) (dddgamma_D0D2D2D2D2 P q) (q 2) := by
  have hc : ∀ c : ℝ, HasDerivAt (fun _ => c) 0 (q 2) := fun c => hasDerivAt_const _ c
  have h_c := c_at2 P q hR
  have h_dc_D2 := dc_D2_at2 P q hR
  have h_ddc_D2D2 := ddc_D2D2_at2 P q hR
  have h_ddk0_D2D2 := ddk0_D2D2_at2 P q hR
  have h_ddk2_D2D2 := ddk2_D2D2_at2 P q hR
  have h_dk0_D2 := dk0_D2_at2 P q hR
  have h_dk2_D2 := dk2_D2_at2 P q hR
  have h_k0 := k0_at2 P q hR
  have h_k2 := k2_at2 P q hR
  have key := (((((((h_c.mul h_k0).mul h_ddk2_D2D2).add ((h_c.mul h_k2).mul h_ddk0_D2D2)).add ((((hc (2)).mul h_c).mul h_dk0_D2).mul h_dk2_D2)).add ((h_k0.mul h_k2).mul
    h_ddc_D2D2)).add ((((hc (2)).mul h_k0).mul h_dc_D2).mul h_dk2_D2)).add ((((hc (2)).mul h_k2).mul h_dc_D2).mul h_dk0_D2))
  refine key.congr_deriv ?_
  simp only [Pi.add_apply, Pi.sub_apply, Pi.neg_apply, Pi.mul_apply, Pi.pow_apply, Pi.div_apply, line_at]
  unfold dddgamma_D0D2D2D2D2
  try simp only [Nat.cast_ofNat, Nat.reduceSub, pow_one]
  try simp only [dddk0_D0D1D0_sym, dddk0_D0D2D0_sym, dddk0_D1D1D0_sym, dddk0_D1D2D1_sym, dddk0_D2D2D0_sym, dddk0_D2D2D1_sym, dddk0_D0D2D1_sym, dddk0_D1D2D0_sym, dddk1_D0D1D0_sym, dddk1_D0D2D0_sym, dddk1_D1D1D0_sym, dddk1_D1D2D1_sym, dddk1_D2D2D0_sym, dddk1_D2D2D1_sym, dddk1_D0D2D1_sym, dddk1_D1D2D0_sym, dddk2_D0D1D0_sym, dddk2_D0D2D0_sym, dddk2_D1D1D0_sym, dddk2_D1D2D1_sym, dddk2_D2D2D0_sym, dddk2_D2D2D1_sym, dddk2_D0D2D1_sym, dddk2_D1D2D0_sym, dddc_D0D1D0_sym, dddc_D0D2D0_sym, dddc_D1D1D0_sym, dddc_D1D2D1_sym, dddc_D2D2D0_sym, dddc_D2D2D1_sym, dddc_D0D2D1_sym, dddc_D1D2D0_sym]
  ring


end Elliptica.Ks
