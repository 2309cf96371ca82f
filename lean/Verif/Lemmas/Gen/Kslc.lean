import Verif.Lemmas.Gen.KsT
import Verif.Lemmas.Gen.KsH2
/-!
Generated by tools/gen_ks.py: each listed derivative is the derivative of the function it belongs to.
-/
namespace Elliptica.Ks
open Elliptica.Fields

set_option linter.unusedVariables false
set_option linter.unusedSimpArgs false
set_option linter.unusedTactic false
set_option linter.unreachableTactic false

theorem c_at0 (P : Par) (q : Pt) (hR : 0 < R P q) : HasDerivAt (line (c P) 0 q) (dc_D0 P q) (q 0) := by
  have hc : ∀ c : ℝ, HasDerivAt (fun _ => c) 0 (q 0) := fun c => hasDerivAt_const _ c
  have h_H := H_at0 P q hR
  have key := ((hc (2)).mul h_H)
  refine key.congr_deriv ?_
  simp only [Pi.add_apply, Pi.sub_apply, Pi.neg_apply, Pi.mul_apply, Pi.pow_apply, Pi.div_apply, line_at]
  unfold dc_D0
  try simp only [Nat.cast_ofNat, Nat.reduceSub, pow_one]
  ring


theorem c_at1 (P : Par) (q : Pt) (hR : 0 < R P q) : HasDerivAt (line (c P) 1 q) (dc_D1 P q) (q 1) := by
  have hc : ∀ c : ℝ, HasDerivAt (fun _ => c) 0 (q 1) := fun c => hasDerivAt_const _ c
  have h_H := H_at1 P q hR
  have key := ((hc (2)).mul h_H)
  refine key.congr_deriv ?_
  simp only [Pi.add_apply, Pi.sub_apply, Pi.neg_apply, Pi.mul_apply, Pi.pow_apply, Pi.div_apply, line_at]
  unfold dc_D1
  try simp only [Nat.cast_ofNat, Nat.reduceSub, pow_one]
  ring


theorem c_at2 (P : Par) (q : Pt) (hR : 0 < R P q) : HasDerivAt (line (c P) 2 q) (dc_D2 P q) (q 2) := by
  have hc : ∀ c : ℝ, HasDerivAt (fun _ => c) 0 (q 2) := fun c => hasDerivAt_const _ c
  have h_H := H_at2 P q hR
  have key := ((hc (2)).mul h_H)
  refine key.congr_deriv ?_
  simp only [Pi.add_apply, Pi.sub_apply, Pi.neg_apply, Pi.mul_apply, Pi.pow_apply, Pi.div_apply, line_at]
  unfold dc_D2
  try simp only [Nat.cast_ofNat, Nat.reduceSub, pow_one]
  ring


theorem dc_D0_at0 (P : Par) (q : Pt) (hR : 0 < R P q) : HasDerivAt (line (dc_D0 P) 0 q) (ddc_D0D0 P q) (q 0) := by
  have hc : ∀ c : ℝ, HasDerivAt (fun _ => c) 0 (q 0) := fun c => hasDerivAt_const _ c
  have h_dH_D0 := dH_D0_at0 P q hR
  have key := ((hc (2)).mul h_dH_D0)
  refine key.congr_deriv ?_
  simp only [Pi.add_apply, Pi.sub_apply, Pi.neg_apply, Pi.mul_apply, Pi.pow_apply, Pi.div_apply, line_at]
  unfold ddc_D0D0
  try simp only [Nat.cast_ofNat, Nat.reduceSub, pow_one]
  ring


theorem dc_D0_at1 (P : Par) (q : Pt) (hR : 0 < R P q) : HasDerivAt (line (dc_D0 P) 1 q) (ddc_D0D1 P q) (q 1) := by
  have hc : ∀ c : ℝ, HasDerivAt (fun _ => c) 0 (q 1) := fun c => hasDerivAt_const _ c
  have h_dH_D0 := dH_D0_at1 P q hR
  have key := ((hc (2)).mul h_dH_D0)
  refine key.congr_deriv ?_
  simp only [Pi.add_apply, Pi.sub_apply, Pi.neg_apply, Pi.mul_apply, Pi.pow_apply, Pi.div_apply, line_at]
  unfold ddc_D0D1
  try simp only [Nat.cast_ofNat, Nat.reduceSub, pow_one]
  ring


theorem dc_D0_at2 (P : Par) (q : Pt) (hR : 0 < R P q) : HasDerivAt (line (dc_D0 P) 2 q) (ddc_D0D2 P q) (q 2) := by
  have hc : ∀ c : ℝ, HasDerivAt (fun _ => c) 0 (q 2) := fun c => hasDerivAt_const _ c
  have h_dH_D0 := dH_D0_at2 P q hR
  have key := ((hc (2)).mul h_dH_D0)
  refine key.congr_deriv ?_
  simp only [Pi.add_apply, Pi.sub_apply, Pi.neg_apply, Pi.mul_apply, Pi.pow_apply, Pi.div_apply, line_at]
  unfold ddc_D0D2
  try simp only [Nat.cast_ofNat, Nat.reduceSub, pow_one]
  ring


theorem dc_D1_at0 (P : Par) (q : Pt) (hR : 0 < R P q) : HasDerivAt (line (dc_D1 P) 0 q) (ddc_D0D1 P q) (q 0) := by
  have hc : ∀ c : ℝ, HasDerivAt (fun _ => c) 0 (q 0) := fun c => hasDerivAt_const _ c
  have h_dH_D1 := dH_D1_at0 P q hR
  have key := ((hc (2)).mul h_dH_D1)
  refine key.congr_deriv ?_
  simp only [Pi.add_apply, Pi.sub_apply, Pi.neg_apply, Pi.mul_apply, Pi.pow_apply, Pi.div_apply, line_at]
  unfold ddc_D0D1
  try simp only [Nat.cast_ofNat, Nat.reduceSub, pow_one]
  ring


theorem dc_D1_at1 (P : Par) (q : Pt) (hR : 0 < R P q) : HasDerivAt (line (dc_D1 P) 1 q) (ddc_D1D1 P q) (q 1) := by
  have hc : ∀ c : ℝ, HasDerivAt (fun _ => c) 0 (q 1) := fun c => hasDerivAt_const _ c
  have h_dH_D1 := dH_D1_at1 P q hR
  have key := ((hc (2)).mul h_dH_D1)
  refine key.congr_deriv ?_
  simp only [Pi.add_apply, Pi.sub_apply, Pi.neg_apply, Pi.mul_apply, Pi.pow_apply, Pi.div_apply, line_at]
  unfold ddc_D1D1
  try simp only [Nat.cast_ofNat, Nat.reduceSub, pow_one]
  ring


theorem dc_D1_at2 (P : Par) (q : Pt) (hR : 0 < R P q) : HasDerivAt (line (dc_D1 P) 2 q) (ddc_D1D2 P q) (q 2) := by
  have hc : ∀ c : ℝ, HasDerivAt (fun _ => c) 0 (q 2) := fun c => hasDerivAt_const _ c
  have h_dH_D1 := dH_D1_at2 P q hR
  have key := ((hc (2)).mul h_dH_D1)
  refine key.congr_deriv ?_
  simp only [Pi.add_apply, Pi.sub_apply, Pi.neg_apply, Pi.mul_apply, Pi.pow_apply, Pi.div_apply, line_at]
  unfold ddc_D1D2
  try simp only [Nat.cast_ofNat, Nat.reduceSub, pow_one]
  ring


theorem dc_D2_at0 (P : Par) (q : Pt) (hR : 0 < R P q) : HasDerivAt (line (dc_D2 P) 0 q) (ddc_D0D2 P q) (q 0) := by
  have hc : ∀ c : ℝ, HasDerivAt (fun _ => c) 0 (q 0) := fun c => hasDerivAt_const _ c
  have h_dH_D2 := dH_D2_at0 P q hR
  have key := ((hc (2)).mul h_dH_D2)
  refine key.congr_deriv ?_
  simp only [Pi.add_apply, Pi.sub_apply, Pi.neg_apply, Pi.mul_apply, Pi.pow_apply, Pi.div_apply, line_at]
  unfold ddc_D0D2
  try simp only [Nat.cast_ofNat, Nat.reduceSub, pow_one]
  ring


theorem dc_D2_at1 (P : Par) (q : Pt) (hR : 0 < R P q) : HasDerivAt (line (dc_D2 P) 1 q) (ddc_D1D2 P q) (q 1) := by
  have hc : ∀ c : ℝ, HasDerivAt (fun _ => c) 0 (q 1) := fun c => hasDerivAt_const _ c
  have h_dH_D2 := dH_D2_at1 P q hR
  have key := ((hc (2)).mul h_dH_D2)
  refine key.congr_deriv ?_
  simp only [Pi.add_apply, Pi.sub_apply, Pi.neg_apply, Pi.mul_apply, Pi.pow_apply, Pi.div_apply, line_at]
  unfold ddc_D1D2
  try simp only [Nat.cast_ofNat, Nat.reduceSub, pow_one]
  ring


theorem dc_D2_at2 (P : Par) (q : Pt) (hR : 0 < R P q) : HasDerivAt (line (dc_D2 P) 2 q) (ddc_D2D2 P q) (q 2) := by
  have hc : ∀ c : ℝ, HasDerivAt (fun _ => c) 0 (q 2) := fun c => hasDerivAt_const _ c
  have h_dH_D2 := dH_D2_at2 P q hR
  have key := ((hc (2)).mul h_dH_D2)
  refine key.congr_deriv ?_
  simp only [Pi.add_apply, Pi.sub_apply, Pi.neg_apply, Pi.mul_apply, Pi.pow_apply, Pi.div_apply, line_at]
  unfold ddc_D2D2
  try simp only [Nat.cast_ofNat, Nat.reduceSub, pow_one]
  ring


theorem ddc_D0D0_at0 (P : Par) (q : Pt) (hR : 0 < R P q) : HasDerivAt (line (ddc_D0D0 P) 0 q) (dddc_D0D0D0 P q) (q 0) := by
  have hc : ∀ c : ℝ, HasDerivAt (fun _ => c) 0 (q 0) := fun c => hasDerivAt_const _ c
  have h_ddH_D0D0 := ddH_D0D0_at0 P q hR
  have key := ((hc (2)).mul h_ddH_D0D0)
  refine key.congr_deriv ?_
  simp only [Pi.add_apply, Pi.sub_apply, Pi.neg_apply, Pi.mul_apply, Pi.pow_apply, Pi.div_apply, line_at]
  unfold dddc_D0D0D0
  try simp only [Nat.cast_ofNat, Nat.reduceSub, pow_one]
  try simp only [dddK0_D0D1D0_sym, dddK0_D0D2D0_sym, dddK0_D1D1D0_sym, dddK0_D1D2D1_sym, dddK0_D2D2D0_sym, dddK0_D2D2D1_sym, dddK0_D0D2D1_sym, dddK0_D1D2D0_sym, dddK1_D0D1D0_sym, dddK1_D0D2D0_sym, dddK1_D1D1D0_sym, dddK1_D1D2D1_sym, dddK1_D2D2D0_sym, dddK1_D2D2D1_sym, dddK1_D0D2D1_sym, dddK1_D1D2D0_sym, dddK2_D0D1D0_sym, dddK2_D0D2D0_sym, dddK2_D1D1D0_sym, dddK2_D1D2D1_sym, dddK2_D2D2D0_sym, dddK2_D2D2D1_sym, dddK2_D0D2D1_sym, dddK2_D1D2D0_sym, dddH_D0D1D0_sym, dddH_D0D2D0_sym, dddH_D1D1D0_sym, dddH_D1D2D1_sym, dddH_D2D2D0_sym, dddH_D2D2D1_sym, dddH_D0D2D1_sym, dddH_D1D2D0_sym]
  ring


theorem ddc_D0D0_at1 (P : Par) (q : Pt) (hR : 0 < R P q) : HasDerivAt (line (ddc_D0D0 P) 1 q) (dddc_D0D0D1 P q) (q 1) := by
  have hc : ∀ c : ℝ, HasDerivAt (fun _ => c) 0 (q 1) := fun c => hasDerivAt_const _ c
  have h_ddH_D0D0 := ddH_D0D0_at1 P q hR
  have key := ((hc (2)).mul h_ddH_D0D0)
  refine key.congr_deriv ?_
  simp only [Pi.add_apply, Pi.sub_apply, Pi.neg_apply, Pi.mul_apply, Pi.pow_apply, Pi.div_apply, line_at]
  unfold dddc_D0D0D1
  try simp only [Nat.cast_ofNat, Nat.reduceSub, pow_one]
  try simp only [dddK0_D0D1D0_sym, dddK0_D0D2D0_sym, dddK0_D1D1D0_sym, dddK0_D1D2D1_sym, dddK0_D2D2D0_sym, dddK0_D2D2D1_sym, dddK0_D0D2D1_sym, dddK0_D1D2D0_sym, dddK1_D0D1D0_sym, dddK1_D0D2D0_sym, dddK1_D1D1D0_sym, dddK1_D1D2D1_sym, dddK1_D2D2D0_sym, dddK1_D2D2D1_sym, dddK1_D0D2D1_sym, dddK1_D1D2D0_sym, dddK2_D0D1D0_sym, dddK2_D0D2D0_sym, dddK2_D1D1D0_sym, dddK2_D1D2D1_sym, dddK2_D2D2D0_sym, dddK2_D2D2D1_sym, dddK2_D0D2D1_sym, dddK2_D1D2D0_sym, dddH_D0D1D0_sym, dddH_D0D2D0_sym, dddH_D1D1D0_sym, dddH_D1D2D1_sym, dddH_D2D2D0_sym, dddH_D2D2D1_sym, dddH_D0D2D1_sym, dddH_D1D2D0_sym]
  ring


theorem ddc_D0D0_at2 (P : Par) (q : Pt) (hR : 0 < R P q) : HasDerivAt (line (ddc_D0D0 P) 2 q) (dddc_D0D0D2 P q) (q 2) := by
  have hc : ∀ c : ℝ, HasDerivAt (fun _ => c) 0 (q 2) := fun c => hasDerivAt_const _ c
  have h_ddH_D0D0 := ddH_D0D0_at2 P q hR
  have key := ((hc (2)).mul h_ddH_D0D0)
  refine key.congr_deriv ?_
  simp only [Pi.add_apply, Pi.sub_apply, Pi.neg_apply, Pi.mul_apply, Pi.pow_apply, Pi.div_apply, line_at]
  unfold dddc_D0D0D2
  try simp only [Nat.cast_ofNat, Nat.reduceSub, pow_one]
  try simp only [dddK0_D0D1D0_sym, dddK0_D0D2D0_sym, dddK0_D1D1D0_sym, dddK0_D1D2D1_sym, dddK0_D2D2D0_sym, dddK0_D2D2D1_sym, dddK0_D0D2D1_sym, dddK0_D1D2D0_sym, dddK1_D0D1D0_sym, dddK1_D0D2D0_sym, dddK1_D1D1D0_sym, dddK1_D1D2D1_sym, dddK1_D2D2D0_sym, dddK1_D2D2D1_sym, dddK1_D0D2D1_sym, dddK1_D1D2D0_sym, dddK2_D0D1D0_sym, dddK2_D0D2D0_sym, dddK2_D1D1D0_sym, dddK2_D1D2D1_sym, dddK2_D2D2D0_sym, dddK2_D2D2D1_sym, dddK2_D0D2D1_sym, dddK2_D1D2D0_sym, dddH_D0D1D0_sym, dddH_D0D2D0_sym, dddH_D1D1D0_sym, dddH_D1D2D1_sym, dddH_D2D2D0_sym, dddH_D2D2D1_sym, dddH_D0D2D1_sym, dddH_D1D2D0_sym]
  ring


theorem ddc_D0D1_at0 (P : Par) (q : Pt) (hR : 0 < R P q) : HasDerivAt (line (ddc_D0D1 P) 0 q) (dddc_D0D1D0 P q) (q 0) := by
  have hc : ∀ c : ℝ, HasDerivAt (fun _ => c) 0 (q 0) := fun c => hasDerivAt_const _ c
  have h_ddH_D0D1 := ddH_D0D1_at0 P q hR
  have key := ((hc (2)).mul h_ddH_D0D1)
  refine key.congr_deriv ?_
  simp only [Pi.add_apply, Pi.sub_apply, Pi.neg_apply, Pi.mul_apply, Pi.pow_apply, Pi.div_apply, line_at]
  unfold dddc_D0D1D0
  try simp only [Nat.cast_ofNat, Nat.reduceSub, pow_one]
  try simp only [dddK0_D0D1D0_sym, dddK0_D0D2D0_sym, dddK0_D1D1D0_sym, dddK0_D1D2D1_sym, dddK0_D2D2D0_sym, dddK0_D2D2D1_sym, dddK0_D0D2D1_sym, dddK0_D1D2D0_sym, dddK1_D0D1D0_sym, dddK1_D0D2D0_sym, dddK1_D1D1D0_sym, dddK1_D1D2D1_sym, dddK1_D2D2D0_sym, dddK1_D2D2D1_sym, dddK1_D0D2D1_sym, dddK1_D1D2D0_sym, dddK2_D0D1D0_sym, dddK2_D0D2D0_sym, dddK2_D1D1D0_sym, dddK2_D1D2D1_sym, dddK2_D2D2D0_sym, dddK2_D2D2D1_sym, dddK2_D0D2D1_sym, dddK2_D1D2D0_sym, dddH_D0D1D0_sym, dddH_D0D2D0_sym, dddH_D1D1D0_sym, dddH_D1D2D1_sym, dddH_D2D2D0_sym, dddH_D2D2D1_sym, dddH_D0D2D1_sym, dddH_D1D2D0_sym]
  ring


theorem ddc_D0D1_at1 (P : Par) (q : Pt) (hR : 0 < R P q) : HasDerivAt (line (ddc_D0D1 P) 1 q) (dddc_D0D1D1 P q) (q 1) := by
  have hc : ∀ c : ℝ, HasDerivAt (fun _ => c) 0 (q 1) := fun c => hasDerivAt_const _ c
  have h_ddH_D0D1 := ddH_D0D1_at1 P q hR
  have key := ((hc (2)).mul h_ddH_D0D1)
  refine key.congr_deriv ?_
  simp only [Pi.add_apply, Pi.sub_apply, Pi.neg_apply, Pi.mul_apply, Pi.pow_apply, Pi.div_apply, line_at]
  unfold dddc_D0D1D1
  try simp only [Nat.cast_ofNat, Nat.reduceSub, pow_one]
  try simp only [dddK0_D0D1D0_sym, dddK0_D0D2D0_sym, dddK0_D1D1D0_sym, dddK0_D1D2D1_sym, dddK0_D2D2D0_sym, dddK0_D2D2D1_sym, dddK0_D0D2D1_sym, dddK0_D1D2D0_sym, dddK1_D0D1D0_sym, dddK1_D0D2D0_sym, dddK1_D1D1D0_sym, dddK1_D1D2D1_sym, dddK1_D2D2D0_sym, dddK1_D2D2D1_sym, dddK1_D0D2D1_sym, dddK1_D1D2D0_sym, dddK2_D0D1D0_sym, dddK2_D0D2D0_sym, dddK2_D1D1D0_sym, dddK2_D1D2D1_sym, dddK2_D2D2D0_sym, dddK2_D2D2D1_sym, dddK2_D0D2D1_sym, dddK2_D1D2D0_sym, dddH_D0D1D0_sym, dddH_D0D2D0_sym, dddH_D1D1D0_sym, dddH_D1D2D1_sym, dddH_D2D2D0_sym, dddH_D2D2D1_sym, dddH_D0D2D1_sym, dddH_D1D2D0_sym]
  ring


theorem ddc_D0D2_at0 (P : Par) (q : Pt) (hR : 0 < R P q) : HasDerivAt (line (ddc_D0D2 P) 0 q) (dddc_D0D2D0 P q) (q 0) := by
  have hc : ∀ c : ℝ, HasDerivAt (fun _ => c) 0 (q 0) := fun c => hasDerivAt_const _ c
  have h_ddH_D0D2 := ddH_D0D2_at0 P q hR
  have key := ((hc (2)).mul h_ddH_D0D2)
  refine key.congr_deriv ?_
  simp only [Pi.add_apply, Pi.sub_apply, Pi.neg_apply, Pi.mul_apply, Pi.pow_apply, Pi.div_apply, line_at]
  unfold dddc_D0D2D0
  try simp only [Nat.cast_ofNat, Nat.reduceSub, pow_one]
  try simp only [dddK0_D0D1D0_sym, dddK0_D0D2D0_sym, dddK0_D1D1D0_sym, dddK0_D1D2D1_sym, dddK0_D2D2D0_sym, dddK0_D2D2D1_sym, dddK0_D0D2D1_sym, dddK0_D1D2D0_sym, dddK1_D0D1D0_sym, dddK1_D0D2D0_sym, dddK1_D1D1D0_sym, dddK1_D1D2D1_sym, dddK1_D2D2D0_sym, dddK1_D2D2D1_sym, dddK1_D0D2D1_sym, dddK1_D1D2D0_sym, dddK2_D0D1D0_sym, dddK2_D0D2D0_sym, dddK2_D1D1D0_sym, dddK2_D1D2D1_sym, dddK2_D2D2D0_sym, dddK2_D2D2D1_sym, dddK2_D0D2D1_sym, dddK2_D1D2D0_sym, dddH_D0D1D0_sym, dddH_D0D2D0_sym, dddH_D1D1D0_sym, dddH_D1D2D1_sym, dddH_D2D2D0_sym, dddH_D2D2D1_sym, dddH_D0D2D1_sym, dddH_D1D2D0_sym]
  ring


theorem ddc_D0D2_at2 (P : Par) (q : Pt) (hR : 0 < R P q) : HasDerivAt (line (ddc_D0D2 P) 2 q) (dddc_D0D2D2 P q) (q 2) := by
  have hc : ∀ c : ℝ, HasDerivAt (fun _ => c) 0 (q 2) := fun c => hasDerivAt_const _ c
  have h_ddH_D0D2 := ddH_D0D2_at2 P q hR
  have key := ((hc (2)).mul h_ddH_D0D2)
  refine key.congr_deriv ?_
  simp only [Pi.add_apply, Pi.sub_apply, Pi.neg_apply, Pi.mul_apply, Pi.pow_apply, Pi.div_apply, line_at]
  unfold dddc_D0D2D2
  try simp only [Nat.cast_ofNat, Nat.reduceSub, pow_one]
  try simp only [dddK0_D0D1D0_sym, dddK0_D0D2D0_sym, dddK0_D1D1D0_sym, dddK0_D1D2D1_sym, dddK0_D2D2D0_sym, dddK0_D2D2D1_sym, dddK0_D0D2D1_sym, dddK0_D1D2D0_sym, dddK1_D0D1D0_sym, dddK1_D0D2D0_sym, dddK1_D1D1D0_sym, dddK1_D1D2D1_sym, dddK1_D2D2D0_sym, dddK1_D2D2D1_sym, dddK1_D0D2D1_sym, dddK1_D1D2D0_sym, dddK2_D0D1D0_sym, dddK2_D0D2D0_sym, dddK2_D1D1D0_sym, dddK2_D1D2D1_sym, dddK2_D2D2D0_sym, dddK2_D2D2D1_sym, dddK2_D0D2D1_sym, dddK2_D1D2D0_sym, dddH_D0D1D0_sym, dddH_D0D2D0_sym, dddH_D1D1D0_sym, dddH_D1D2D1_sym, dddH_D2D2D0_sym, dddH_D2D2D1_sym, dddH_D0D2D1_sym, dddH_D1D2D0_sym]
  ring


theorem ddc_D1D1_at0 (P : Par) (q : Pt) (hR : 0 < R P q) : HasDerivAt (line (ddc_D1D1 P) 0 q) (dddc_D1D1D0 P q) (q 0) := by
  have hc : ∀ c : ℝ, HasDerivAt (fun _ => c) 0 (q 0) := fun c => hasDerivAt_const _ c
  have h_ddH_D1D1 := ddH_D1D1_at0 P q hR
  have key := ((hc (2)).mul h_ddH_D1D1)
  refine key.congr_deriv ?_
  simp only [Pi.add_apply, Pi.sub_apply, Pi.neg_apply, Pi.mul_apply, Pi.pow_apply, Pi.div_apply, line_at]
  unfold dddc_D1D1D0
  try simp only [Nat.cast_ofNat, Nat.reduceSub, pow_one]
  try simp only [dddK0_D0D1D0_sym, dddK0_D0D2D0_sym, dddK0_D1D1D0_sym, dddK0_D1D2D1_sym, dddK0_D2D2D0_sym, dddK0_D2D2D1_sym, dddK0_D0D2D1_sym, dddK0_D1D2D0_sym, dddK1_D0D1D0_sym, dddK1_D0D2D0_sym, dddK1_D1D1D0_sym, dddK1_D1D2D1_sym, dddK1_D2D2D0_sym, dddK1_D2D2D1_sym, dddK1_D0D2D1_sym, dddK1_D1D2D0_sym, dddK2_D0D1D0_sym, dddK2_D0D2D0_sym, dddK2_D1D1D0_sym, dddK2_D1D2D1_sym, dddK2_D2D2D0_sym, dddK2_D2D2D1_sym, dddK2_D0D2D1_sym, dddK2_D1D2D0_sym, dddH_D0D1D0_sym, dddH_D0D2D0_sym, dddH_D1D1D0_sym, dddH_D1D2D1_sym, dddH_D2D2D0_sym, dddH_D2D2D1_sym, dddH_D0D2D1_sym, dddH_D1D2D0_sym]
  ring


theorem ddc_D1D1_at1 (P : Par) (q : Pt) (hR : 0 < R P q) : HasDerivAt (line (ddc_D1D1 P) 1 q) (dddc_D1D1D1 P q) (q 1) := by
  have hc : ∀ c : ℝ, HasDerivAt (fun _ => c) 0 (q 1) := fun c => hasDerivAt_const _ c
  have h_ddH_D1D1 := ddH_D1D1_at1 P q hR
  have key := ((hc (2)).mul h_ddH_D1D1)
  refine key.congr_deriv ?_
  simp only [Pi.add_apply, Pi.sub_apply, Pi.neg_apply, Pi.mul_apply, Pi.pow_apply, Pi.div_apply, line_at]
  unfold dddc_D1D1D1
  try simp only [Nat.cast_ofNat, Nat.reduceSub, pow_one]
  try simp only [dddK0_D0D1D0_sym, dddK0_D0D2D0_sym, dddK0_D1D1D0_sym, dddK0_D1D2D1_sym, dddK0_D2D2D0_sym, dddK0_D2D2D1_sym, dddK0_D0D2D1_sym, dddK0_D1D2D0_sym, dddK1_D0D1D0_sym, dddK1_D0D2D0_sym, dddK1_D1D1D0_sym, dddK1_D1D2D1_sym, dddK1_D2D2D0_sym, dddK1_D2D2D1_sym, dddK1_D0D2D1_sym, dddK1_D1D2D0_sym, dddK2_D0D1D0_sym, dddK2_D0D2D0_sym, dddK2_D1D1D0_sym, dddK2_D1D2D1_sym, dddK2_D2D2D0_sym, dddK2_D2D2D1_sym, dddK2_D0D2D1_sym, dddK2_D1D2D0_sym, dddH_D0D1D0_sym, dddH_D0D2D0_sym, dddH_D1D1D0_sym, dddH_D1D2D1_sym, dddH_D2D2D0_sym, dddH_D2D2D1_sym, dddH_D0D2D1_sym, dddH_D1D2D0_sym]
  ring


theorem ddc_D1D1_at2 (P : Par) (q : Pt) (hR : 0 < R P q) : HasDerivAt (line (ddc_D1D1 P) 2 q) (dddc_D1D1D2 P q) (q 2) := by
  have hc : ∀ c : ℝ, HasDerivAt (fun _ => c) 0 (q 2) := fun c => hasDerivAt_const _ c
  have h_ddH_D1D1 := ddH_D1D1_at2 P q hR
  have key := ((hc (2)).mul h_ddH_D1D1)
  refine key.congr_deriv ?_
  simp only [Pi.add_apply, Pi.sub_apply, Pi.neg_apply, Pi.mul_apply, Pi.pow_apply, Pi.div_apply, line_at]
  unfold dddc_D1D1D2
  try simp only [Nat.cast_ofNat, Nat.reduceSub, pow_one]
  try simp only [dddK0_D0D1D0_sym, dddK0_D0D2D0_sym, dddK0_D1D1D0_sym, dddK0_D1D2D1_sym, dddK0_D2D2D0_sym, dddK0_D2D2D1_sym, dddK0_D0D2D1_sym, dddK0_D1D2D0_sym, dddK1_D0D1D0_sym, dddK1_D0D2D0_sym, dddK1_D1D1D0_sym, dddK1_D1D2D1_sym, dddK1_D2D2D0_sym, dddK1_D2D2D1_sym, dddK1_D0D2D1_sym, dddK1_D1D2D0_sym, dddK2_D0D1D0_sym, dddK2_D0D2D0_sym, dddK2_D1D1D0_sym, dddK2_D1D2D1_sym, dddK2_D2D2D0_sym, dddK2_D2D2D1_sym, dddK2_D0D2D1_sym, dddK2_D1D2D0_sym, dddH_D0D1D0_sym, dddH_D0D2D0_sym, dddH_D1D1D0_sym, dddH_D1D2D1_sym, dddH_D2D2D0_sym, dddH_D2D2D1_sym, dddH_D0D2D1_sym, dddH_D1D2D0_sym]
  ring


theorem ddc_D1D2_at1 (P : Par) (q : Pt) (hR : 0 < R P q) : HasDerivAt (line (ddc_D1D2 P) 1 q) (dddc_D1D2D1 P q) (q 1) := by
  have hc : ∀ c : ℝ, HasDerivAt (fun _ => c) 0 (q 1) := fun c => hasDerivAt_const _ c
  have h_ddH_D1D2 := ddH_D1D2_at1 P q hR
  have key := ((hc (2)).mul h_ddH_D1D2)
  refine key.congr_deriv ?_
  simp only [Pi.add_apply, Pi.sub_apply, Pi.neg_apply, Pi.mul_apply, Pi.pow_apply, Pi.div_apply, line_at]
  unfold dddc_D1D2D1
  try simp only [Nat.cast_ofNat, Nat.reduceSub, pow_one]
  try simp only [dddK0_D0D1D0_sym, dddK0_D0D2D0_sym, dddK0_D1D1D0_sym, dddK0_D1D2D1_sym, dddK0_D2D2D0_sym, dddK0_D2D2D1_sym, dddK0_D0D2D1_sym, dddK0_D1D2D0_sym, dddK1_D0D1D0_sym, dddK1_D0D2D0_sym, dddK1_D1D1D0_sym, dddK1_D1D2D1_sym, dddK1_D2D2D0_sym, dddK1_D2D2D1_sym, dddK1_D0D2D1_sym, dddK1_D1D2D0_sym, dddK2_D0D1D0_sym, dddK2_D0D2D0_sym, dddK2_D1D1D0_sym, dddK2_D1D2D1_sym, dddK2_D2D2D0_sym, dddK2_D2D2D1_sym, dddK2_D0D2D1_sym, dddK2_D1D2D0_sym, dddH_D0D1D0_sym, dddH_D0D2D0_sym, dddH_D1D1D0_sym, dddH_D1D2D1_sym, dddH_D2D2D0_sym, dddH_D2D2D1_sym, dddH_D0D2D1_sym, dddH_D1D2D0_sym]
  ring


theorem ddc_D1D2_at2 (P : Par) (q : Pt) (hR : 0 < R P q) : HasDerivAt (line (ddc_D1D2 P) 2 q) (dddc_D1D2D2 P q) (q 2) := by
  have hc : ∀ c : ℝ, HasDerivAt (fun _ => c) 0 (q 2) := fun c => hasDerivAt_const _ c
  have h_ddH_D1D2 := ddH_D1D2_at2 P q hR
  have key := ((hc (2)).mul h_ddH_D1D2)
  refine key.congr_deriv ?_
  simp only [Pi.add_apply, Pi.sub_apply, Pi.neg_apply, Pi.mul_apply, Pi.pow_apply, Pi.div_apply, line_at]
  unfold dddc_D1D2D2
  try simp only [Nat.cast_ofNat, Nat.reduceSub, pow_one]
  try simp only [dddK0_D0D1D0_sym, dddK0_D0D2D0_sym, dddK0_D1D1D0_sym, dddK0_D1D2D1_sym, dddK0_D2D2D0_sym, dddK0_D2D2D1_sym, dddK0_D0D2D1_sym, dddK0_D1D2D0_sym, dddK1_D0D1D0_sym, dddK1_D0D2D0_sym, dddK1_D1D1D0_sym, dddK1_D1D2D1_sym, dddK1_D2D2D0_sym, dddK1_D2D2D1_sym, dddK1_D0D2D1_sym, dddK1_D1D2D0_sym, dddK2_D0D1D0_sym, dddK2_D0D2D0_sym, dddK2_D1D1D0_sym, dddK2_D1D2D1_sym, dddK2_D2D2D0_sym, dddK2_D2D2D1_sym, dddK2_D0D2D1_sym, dddK2_D1D2D0_sym, dddH_D0D1D0_sym, dddH_D0D2D0_sym, dddH_D1D1D0_sym, dddH_D1D2D1_sym, dddH_D2D2D0_sym, dddH_D2D2D1_sym, dddH_D0D2D1_sym, dddH_D1D2D0_sym]
  ring


theorem ddc_D2D2_at0 (P : Par) (q : Pt) (hR : 0 < R P q) : HasDerivAt (line (ddc_D2D2 P) 0 q) (dddc_D2D2D0 P q) (q 0) := by
  have hc : ∀ c : ℝ, HasDerivAt (fun _ => c) 0 (q 0) := fun c => hasDerivAt_const _ c
  have h_ddH_D2D2 := ddH_D2D2_at0 P q hR
  have key := ((hc (2)).mul h_ddH_D2D2)
  refine key.congr_deriv ?_
  simp only [Pi.add_apply, Pi.sub_apply, Pi.neg_apply, Pi.mul_apply, Pi.pow_apply, Pi.div_apply, line_at]
  unfold dddc_D2D2D0
  try simp only [Nat.cast_ofNat, Nat.reduceSub, pow_one]
  try simp only [dddK0_D0D1D0_sym, dddK0_D0D2D0_sym, dddK0_D1D1D0_sym, dddK0_D1D2D1_sym, dddK0_D2D2D0_sym, dddK0_D2D2D1_sym, dddK0_D0D2D1_sym, dddK0_D1D2D0_sym, dddK1_D0D1D0_sym, dddK1_D0D2D0_sym, dddK1_D1D1D0_sym, dddK1_D1D2D1_sym, dddK1_D2D2D0_sym, dddK1_D2D2D1_sym, dddK1_D0D2D1_sym, dddK1_D1D2D0_sym, dddK2_D0D1D0_sym, dddK2_D0D2D0_sym, dddK2_D1D1D0_sym, dddK2_D1D2D1_sym, dddK2_D2D2D0_sym, dddK2_D2D2D1_sym, dddK2_D0D2D1_sym, dddK2_D1D2D0_sym, dddH_D0D1D0_sym, dddH_D0D2D0_sym, dddH_D1D1D0_sym, dddH_D1D2D1_sym, dddH_D2D2D0_sym, dddH_D2D2D1_sym, dddH_D0D2D1_sym, dddH_D1D2D0_sym]
  ring


theorem ddc_D2D2_at1 (P : Par) (q : Pt) (hR : 0 < R P q) : HasDerivAt (line (ddc_D2D2 P) 1 q) (dddc_D2D2D1 P q) (q 1) := by
  have hc : ∀ c : ℝ, HasDerivAt (fun _ => c) 0 (q 1) := fun c => hasDerivAt_const _ c
  have h_ddH_D2D2 := ddH_D2D2_at1 P q hR
  have key := ((hc (2)).mul h_ddH_D2D2)
  refine key.congr_deriv ?_
  simp only [Pi.add_apply, Pi.sub_apply, Pi.neg_apply, Pi.mul_apply, Pi.pow_apply, Pi.div_apply, line_at]
  unfold dddc_D2D2D1
  try simp only [Nat.cast_ofNat, Nat.reduceSub, pow_one]
  try simp only [dddK0_D0D1D0_sym, dddK0_D0D2D0_sym, dddK0_D1D1D0_sym, dddK0_D1D2D1_sym, dddK0_D2D2D0_sym, dddK0_D2D2D1_sym, dddK0_D0D2D1_sym, dddK0_D1D2D0_sym, dddK1_D0D1D0_sym, dddK1_D0D2D0_sym, dddK1_D1D1D0_sym, dddK1_D1D2D1_sym, dddK1_D2D2D0_sym, dddK1_D2D2D1_sym, dddK1_D0D2D1_sym, dddK1_D1D2D0_sym, dddK2_D0D1D0_sym, dddK2_D0D2D0_sym, dddK2_D1D1D0_sym, dddK2_D1D2D1_sym, dddK2_D2D2D0_sym, dddK2_D2D2D1_sym, dddK2_D0D2D1_sym, dddK2_D1D2D0_sym, dddH_D0D1D0_sym, dddH_D0D2D0_sym, dddH_D1D1D0_sym, dddH_D1D2D1_sym, dddH_D2D2D0_sym, dddH_D2D2D1_sym, dddH_D0D2D1_sym, dddH_D1D2D0_sym]
  ring


theorem ddc_D2D2_at2 (P : Par) (q : Pt) (hR : 0 < R P q) : HasDerivAt (line (ddc_D2D2 P) 2 q) (dddc_D2D2D2 P q) (q 2) := by
  have hc : ∀ c : ℝ, HasDerivAt (fun _ => c) 0 (q 2) := fun c => hasDerivAt_const _ c
  have h_ddH_D2D2 := ddH_D2D2_at2 P q hR
  have key := ((hc (2)).mul h_ddH_D2D2)
  refine key.congr_deriv ?_
  simp only [Pi.add_apply, Pi.sub_apply, Pi.neg_apply, Pi.mul_apply, Pi.pow_apply, Pi.div_apply, line_at]
  unfold dddc_D2D2D2
  try simp only [Nat.cast_ofNat, Nat.reduceSub, pow_one]
  try simp only [dddK0_D0D1D0_sym, dddK0_D0D2D0_sym, dddK0_D1D1D0_sym, dddK0_D1D2D1_sym, dddK0_D2D2D0_sym, dddK0_D2D2D1_sym, dddK0_D0D2D1_sym, dddK0_D1D2D0_sym, dddK1_D0D1D0_sym, dddK1_D0D2D0_sym, dddK1_D1D1D0_sym, dddK1_D1D2D1_sym, dddK1_D2D2D0_sym, dddK1_D2D2D1_sym, dddK1_D0D2D1_sym, dddK1_D1D2D0_sym, dddK2_D0D1D0_sym, dddK2_D0D2D0_sym, dddK2_D1D1D0_sym, dddK2_D1D2D1_sym, dddK2_D2D2D0_sym, dddK2_D2D2D1_sym, dddK2_D0D2D1_sym, dddK2_D1D2D0_sym, dddH_D0D1D0_sym, dddH_D0D2D0_sym, dddH_D1D1D0_sym, dddH_D1D2D1_sym, dddH_D2D2D0_sym, dddH_D2D2D1_sym, dddH_D0D2D1_sym, dddH_D1D2D0_sym]
  ring


end Elliptica.Ks
