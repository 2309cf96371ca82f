import Verif.Lemmas.Gen.KsT
import Verif.Lemmas.Gen.KsK0
import Verif.Lemmas.Gen.KsK1
import Verif.Lemmas.Gen.KsK2
/-!
Generated by tools/gen_ks.py: each listed derivative is the derivative of the function it belongs to.
-/
namespace Elliptica.Ks
open Elliptica.Fields

set_option linter.unusedVariables false
set_option linter.unusedSimpArgs false
set_option linter.unusedTactic false
set_option linter.unreachableTactic false

theorem k0_at0 (P : Par) (q : Pt) (hR : 0 < R P q) : HasDerivAt (line (k0 P) 0 q) (dk0_D0 P q) (q 0) := by
  have hc : ∀ c : ℝ, HasDerivAt (fun _ => c) 0 (q 0) := fun c => hasDerivAt_const _ c
  have h_K0 := K0_at0 P q hR
  have h_K1 := K1_at0 P q hR
  have h_K2 := K2_at0 P q hR
  have key := (((hc ((√(1 - P.B2))⁻¹)).mul ((((hc ((-P.B2) * P.Bx)).sub ((hc (P.Bx * P.By * (√(1 - P.B2) - 1) * Real.cos P.phiz + (P.B2 * √(1 - P.B2) + P.Bx ^ 2 * (1 -
    √(1 - P.B2))) * Real.sin P.phiz)).mul h_K1)).add ((hc (P.Bx * P.Bz * (√(1 - P.B2) - 1) * Real.sin P.phiy + ((-P.Bx) * P.By * (√(1 - P.B2) - 1) * Real.sin P.phiz +
    (P.B2 * √(1 - P.B2) + P.Bx ^ 2 * (1 - √(1 - P.B2))) * Real.cos P.phiz) * Real.cos P.phiy)).mul h_K0)).sub ((hc (P.Bx * P.Bz * (√(1 - P.B2) - 1) * Real.cos P.phiy +
    (P.Bx * P.By * (√(1 - P.B2) - 1) * Real.sin P.phiz + ((-P.B2) * √(1 - P.B2) + P.Bx ^ 2 * (√(1 - P.B2) - 1)) * Real.cos P.phiz) * Real.sin P.phiy)).mul
    h_K2))).div_const (P.B2))
  refine key.congr_deriv ?_
  simp only [Pi.add_apply, Pi.sub_apply, Pi.neg_apply, Pi.mul_apply, Pi.pow_apply, Pi.div_apply, line_at]
  unfold dk0_D0
  try simp only [Nat.cast_ofNat, Nat.reduceSub, pow_one]
  ring


theorem k0_at1 (P : Par) (q : Pt) (hR : 0 < R P q) : HasDerivAt (line (k0 P) 1 q) (dk0_D1 P q) (q 1) := by
  have hc : ∀ c : ℝ, HasDerivAt (fun _ => c) 0 (q 1) := fun c => hasDerivAt_const _ c
  have h_K0 := K0_at1 P q hR
  have h_K1 := K1_at1 P q hR
  have h_K2 := K2_at1 P q hR
  have key := (((hc ((√(1 - P.B2))⁻¹)).mul ((((hc ((-P.B2) * P.Bx)).sub ((hc (P.Bx * P.By * (√(1 - P.B2) - 1) * Real.cos P.phiz + (P.B2 * √(1 - P.B2) + P.Bx ^ 2 * (1 -
    √(1 - P.B2))) * Real.sin P.phiz)).mul h_K1)).add ((hc (P.Bx * P.Bz * (√(1 - P.B2) - 1) * Real.sin P.phiy + ((-P.Bx) * P.By * (√(1 - P.B2) - 1) * Real.sin P.phiz +
    (P.B2 * √(1 - P.B2) + P.Bx ^ 2 * (1 - √(1 - P.B2))) * Real.cos P.phiz) * Real.cos P.phiy)).mul h_K0)).sub ((hc (P.Bx * P.Bz * (√(1 - P.B2) - 1) * Real.cos P.phiy +
    (P.Bx * P.By * (√(1 - P.B2) - 1) * Real.sin P.phiz + ((-P.B2) * √(1 - P.B2) + P.Bx ^ 2 * (√(1 - P.B2) - 1)) * Real.cos P.phiz) * Real.sin P.phiy)).mul
    h_K2))).div_const (P.B2))
  refine key.congr_deriv ?_
  simp only [Pi.add_apply, Pi.sub_apply, Pi.neg_apply, Pi.mul_apply, Pi.pow_apply, Pi.div_apply, line_at]
  unfold dk0_D1
  try simp only [Nat.cast_ofNat, Nat.reduceSub, pow_one]
  ring


theorem k0_at2 (P : Par) (q : Pt) (hR : 0 < R P q) : HasDerivAt (line (k0 P) 2 q) (dk0_D2 P q) (q 2) := by
  have hc : ∀ c : ℝ, HasDerivAt (fun _ => c) 0 (q 2) := fun c => hasDerivAt_const _ c
  have h_K0 := K0_at2 P q hR
  have h_K1 := K1_at2 P q hR
  have h_K2 := K2_at2 P q hR
  have key := (((hc ((√(1 - P.B2))⁻¹)).mul ((((hc ((-P.B2) * P.Bx)).sub ((hc (P.Bx * P.By * (√(1 - P.B2) - 1) * Real.cos P.phiz + (P.B2 * √(1 - P.B2) + P.Bx ^ 2 * (1 -
    √(1 - P.B2))) * Real.sin P.phiz)).mul h_K1)).add ((hc (P.Bx * P.Bz * (√(1 - P.B2) - 1) * Real.sin P.phiy + ((-P.Bx) * P.By * (√(1 - P.B2) - 1) * Real.sin P.phiz +
    (P.B2 * √(1 - P.B2) + P.Bx ^ 2 * (1 - √(1 - P.B2))) * Real.cos P.phiz) * Real.cos P.phiy)).mul h_K0)).sub ((hc (P.Bx * P.Bz * (√(1 - P.B2) - 1) * Real.cos P.phiy +
    (P.Bx * P.By * (√(1 - P.B2) - 1) * Real.sin P.phiz + ((-P.B2) * √(1 - P.B2) + P.Bx ^ 2 * (√(1 - P.B2) - 1)) * Real.cos P.phiz) * Real.sin P.phiy)).mul
    h_K2))).div_const (P.B2))
  refine key.congr_deriv ?_
  simp only [Pi.add_apply, Pi.sub_apply, Pi.neg_apply, Pi.mul_apply, Pi.pow_apply, Pi.div_apply, line_at]
  unfold dk0_D2
  try simp only [Nat.cast_ofNat, Nat.reduceSub, pow_one]
  ring


theorem dk0_D0_at0 (P : Par) (q : Pt) (hR : 0 < R P q) : HasDerivAt (line (dk0_D0 P) 0 q) (ddk0_D0D0 P q) (q 0) := by
  have hc : ∀ c : ℝ, HasDerivAt (fun _ => c) 0 (q 0) := fun c => hasDerivAt_const _ c
  have h_dK0_D0 := dK0_D0_at0 P q hR
  have h_dK1_D0 := dK1_D0_at0 P q hR
  have h_dK2_D0 := dK2_D0_at0 P q hR
  have key := (((hc ((√(1 - P.B2))⁻¹)).mul ((((hc (-(P.Bx * P.By * (√(1 - P.B2) - 1) * Real.cos P.phiz + (P.B2 * √(1 - P.B2) + P.Bx ^ 2 * (1 - √(1 - P.B2))) * Real.sin
    P.phiz))).mul h_dK1_D0).add ((hc (P.Bx * P.Bz * (√(1 - P.B2) - 1) * Real.sin P.phiy + ((-P.Bx) * P.By * (√(1 - P.B2) - 1) * Real.sin P.phiz + (P.B2 * √(1 - P.B2) +
    P.Bx ^ 2 * (1 - √(1 - P.B2))) * Real.cos P.phiz) * Real.cos P.phiy)).mul h_dK0_D0)).sub ((hc (P.Bx * P.Bz * (√(1 - P.B2) - 1) * Real.cos P.phiy + (P.Bx * P.By * (√(1
    - P.B2) - 1) * Real.sin P.phiz + ((-P.B2) * √(1 - P.B2) + P.Bx ^ 2 * (√(1 - P.B2) - 1)) * Real.cos P.phiz) * Real.sin P.phiy)).mul h_dK2_D0))).div_const (P.B2))
  refine key.congr_deriv ?_
  simp only [Pi.add_apply, Pi.sub_apply, Pi.neg_apply, Pi.mul_apply, Pi.pow_apply, Pi.div_apply, line_at]
  unfold ddk0_D0D0
  try simp only [Nat.cast_ofNat, Nat.reduceSub, pow_one]
  ring


theorem dk0_D0_at1 (P : Par) (q : Pt) (hR : 0 < R P q) : HasDerivAt (line (dk0_D0 P) 1 q) (ddk0_D0D1 P q) (q 1) := by
  have hc : ∀ c : ℝ, HasDerivAt (fun _ => c) 0 (q 1) := fun c => hasDerivAt_const _ c
  have h_dK0_D0 := dK0_D0_at1 P q hR
  have h_dK1_D0 := dK1_D0_at1 P q hR
  have h_dK2_D0 := dK2_D0_at1 P q hR
  have key := (((hc ((√(1 - P.B2))⁻¹)).mul ((((hc (-(P.Bx * P.By * (√(1 - P.B2) - 1) * Real.cos P.phiz + (P.B2 * √(1 - P.B2) + P.Bx ^ 2 * (1 - √(1 - P.B2))) * Real.sin
    P.phiz))).mul h_dK1_D0).add ((hc (P.Bx * P.Bz * (√(1 - P.B2) - 1) * Real.sin P.phiy + ((-P.Bx) * P.By * (√(1 - P.B2) - 1) * Real.sin P.phiz + (P.B2 * √(1 - P.B2) +
    P.Bx ^ 2 * (1 - √(1 - P.B2))) * Real.cos P.phiz) * Real.cos P.phiy)).mul h_dK0_D0)).sub ((hc (P.Bx * P.Bz * (√(1 - P.B2) - 1) * Real.cos P.phiy + (P.Bx * P.By * (√(1
    - P.B2) - 1) * Real.sin P.phiz + ((-P.B2) * √(1 - P.B2) + P.Bx ^ 2 * (√(1 - P.B2) - 1)) * Real.cos P.phiz) * Real.sin P.phiy)).mul h_dK2_D0))).div_const (P.B2))
  refine key.congr_deriv ?_
  simp only [Pi.add_apply, Pi.sub_apply, Pi.neg_apply, Pi.mul_apply, Pi.pow_apply, Pi.div_apply, line_at]
  unfold ddk0_D0D1
  try simp only [Nat.cast_ofNat, Nat.reduceSub, pow_one]
  ring


theorem dk0_D0_at2 (P : Par) (q : Pt) (hR : 0 < R P q) : HasDerivAt (line (dk0_D0 P) 2 q) (ddk0_D0D2 P q) (q 2) := by
  have hc : ∀ c : ℝ, HasDerivAt (fun _ => c) 0 (q 2) := fun c => hasDerivAt_const _ c
  have h_dK0_D0 := dK0_D0_at2 P q hR
  have h_dK1_D0 := dK1_D0_at2 P q hR
  have h_dK2_D0 := dK2_D0_at2 P q hR
  have key := (((hc ((√(1 - P.B2))⁻¹)).mul ((((hc (-(P.Bx * P.By * (√(1 - P.B2) - 1) * Real.cos P.phiz + (P.B2 * √(1 - P.B2) + P.Bx ^ 2 * (1 - √(1 - P.B2))) * Real.sin
    P.phiz))).mul h_dK1_D0).add ((hc (P.Bx * P.Bz * (√(1 - P.B2) - 1) * Real.sin P.phiy + ((-P.Bx) * P.By * (√(1 - P.B2) - 1) * Real.sin P.phiz + (P.B2 * √(1 - P.B2) +
    P.Bx ^ 2 * (1 - √(1 - P.B2))) * Real.cos P.phiz) * Real.cos P.phiy)).mul h_dK0_D0)).sub ((hc (P.Bx * P.Bz * (√(1 - P.B2) - 1) * Real.cos P.phiy + (P.Bx * P.By * (√(1
    - P.B2) - 1) * Real.sin P.phiz + ((-P.B2) * √(1 - P.B2) + P.Bx ^ 2 * (√(1 - P.B2) - 1)) * Real.cos P.phiz) * Real.sin P.phiy)).mul h_dK2_D0))).div_const (P.B2))
  refine key.congr_deriv ?_
  simp only [Pi.add_apply, Pi.sub_apply, Pi.neg_apply, Pi.mul_apply, Pi.pow_apply, Pi.div_apply, line_at]
  unfold ddk0_D0D2
  try simp only [Nat.cast_ofNat, Nat.reduceSub, pow_one]
  ring


theorem dk0_D1_at0 (P : Par) (q : Pt) (hR : 0 < R P q) : HasDerivAt (line (dk0_D1 P) 0 q) (ddk0_D0D1 P q) (q 0) := by
  have hc : ∀ c : ℝ, HasDerivAt (fun _ => c) 0 (q 0) := fun c => hasDerivAt_const _ c
  have h_dK0_D1 := dK0_D1_at0 P q hR
  have h_dK1_D1 := dK1_D1_at0 P q hR
  have h_dK2_D1 := dK2_D1_at0 P q hR
  have key := (((hc ((√(1 - P.B2))⁻¹)).mul ((((hc (-(P.Bx * P.By * (√(1 - P.B2) - 1) * Real.cos P.phiz + (P.B2 * √(1 - P.B2) + P.Bx ^ 2 * (1 - √(1 - P.B2))) * Real.sin
    P.phiz))).mul h_dK1_D1).add ((hc (P.Bx * P.Bz * (√(1 - P.B2) - 1) * Real.sin P.phiy + ((-P.Bx) * P.By * (√(1 - P.B2) - 1) * Real.sin P.phiz + (P.B2 * √(1 - P.B2) +
    P.Bx ^ 2 * (1 - √(1 - P.B2))) * Real.cos P.phiz) * Real.cos P.phiy)).mul h_dK0_D1)).sub ((hc (P.Bx * P.Bz * (√(1 - P.B2) - 1) * Real.cos P.phiy + (P.Bx * P.By * (√(1
    - P.B2) - 1) * Real.sin P.phiz + ((-P.B2) * √(1 - P.B2) + P.Bx ^ 2 * (√(1 - P.B2) - 1)) * Real.cos P.phiz) * Real.sin P.phiy)).mul h_dK2_D1))).div_const (P.B2))
  refine key.congr_deriv ?_
  simp only [Pi.add_apply, Pi.sub_apply, Pi.neg_apply, Pi.mul_apply, Pi.pow_apply, Pi.div_apply, line_at]
  unfold ddk0_D0D1
  try simp only [Nat.cast_ofNat, Nat.reduceSub, pow_one]
  ring


theorem dk0_D1_at1 (P : Par) (q : Pt) (hR : 0 < R P q) : HasDerivAt (line (dk0_D1 P) 1 q) (ddk0_D1D1 P q) (q 1) := by
  have hc : ∀ c : ℝ, HasDerivAt (fun _ => c) 0 (q 1) := fun c => hasDerivAt_const _ c
  have h_dK0_D1 := dK0_D1_at1 P q hR
  have h_dK1_D1 := dK1_D1_at1 P q hR
  have h_dK2_D1 := dK2_D1_at1 P q hR
  have key := (((hc ((√(1 - P.B2))⁻¹)).mul ((((hc (-(P.Bx * P.By * (√(1 - P.B2) - 1) * Real.cos P.phiz + (P.B2 * √(1 - P.B2) + P.Bx ^ 2 * (1 - √(1 - P.B2))) * Real.sin
    P.phiz))).mul h_dK1_D1).add ((hc (P.Bx * P.Bz * (√(1 - P.B2) - 1) * Real.sin P.phiy + ((-P.Bx) * P.By * (√(1 - P.B2) - 1) * Real.sin P.phiz + (P.B2 * √(1 - P.B2) +
    P.Bx ^ 2 * (1 - √(1 - P.B2))) * Real.cos P.phiz) * Real.cos P.phiy)).mul h_dK0_D1)).sub ((hc (P.Bx * P.Bz * (√(1 - P.B2) - 1) * Real.cos P.phiy + (P.Bx * P.By * (√(1
    - P.B2) - 1) * Real.sin P.phiz + ((-P.B2) * √(1 - P.B2) + P.Bx ^ 2 * (√(1 - P.B2) - 1)) * Real.cos P.phiz) * Real.sin P.phiy)).mul h_dK2_D1))).div_const (P.B2))
  refine key.congr_deriv ?_
  simp only [Pi.add_apply, Pi.sub_apply, Pi.neg_apply, Pi.mul_apply, Pi.pow_apply, Pi.div_apply, line_at]
  unfold ddk0_D1D1
  try simp only [Nat.cast_ofNat, Nat.reduceSub, pow_one]
  ring


theorem dk0_D1_at2 (P : Par) (q : Pt) (hR : 0 < R P q) : HasDerivAt (line (dk0_D1 P) 2 q) (ddk0_D1D2 P q) (q 2) := by
  have hc : ∀ c : ℝ, HasDerivAt (fun _ => c) 0 (q 2) := fun c => hasDerivAt_const _ c
  have h_dK0_D1 := dK0_D1_at2 P q hR
  have h_dK1_D1 := dK1_D1_at2 P q hR
  have h_dK2_D1 := dK2_D1_at2 P q hR
  have key := (((hc ((√(1 - P.B2))⁻¹)).mul ((((hc (-(P.Bx * P.By * (√(1 - P.B2) - 1) * Real.cos P.phiz + (P.B2 * √(1 - P.B2) + P.Bx ^ 2 * (1 - √(1 - P.B2))) * Real.sin
    P.phiz))).mul h_dK1_D1).add ((hc (P.Bx * P.Bz * (√(1 - P.B2) - 1) * Real.sin P.phiy + ((-P.Bx) * P.By * (√(1 - P.B2) - 1) * Real.sin P.phiz + (P.B2 * √(1 - P.B2) +
    P.Bx ^ 2 * (1 - √(1 - P.B2))) * Real.cos P.phiz) * Real.cos P.phiy)).mul h_dK0_D1)).sub ((hc (P.Bx * P.Bz * (√(1 - P.B2) - 1) * Real.cos P.phiy + (P.Bx * P.By * (√(1
    - P.B2) - 1) * Real.sin P.phiz + ((-P.B2) * √(1 - P.B2) + P.Bx ^ 2 * (√(1 - P.B2) - 1)) * Real.cos P.phiz) * Real.sin P.phiy)).mul h_dK2_D1))).div_const (P.B2))
  refine key.congr_deriv ?_
  simp only [Pi.add_apply, Pi.sub_apply, Pi.neg_apply, Pi.mul_apply, Pi.pow_apply, Pi.div_apply, line_at]
  unfold ddk0_D1D2
  try simp only [Nat.cast_ofNat, Nat.reduceSub, pow_one]
  ring


theorem dk0_D2_at0 (P : Par) (q : Pt) (hR : 0 < R P q) : HasDerivAt (line (dk0_D2 P) 0 q) (ddk0_D0D2 P q) (q 0) := by
  have hc : ∀ c : ℝ, HasDerivAt (fun _ => c) 0 (q 0) := fun c => hasDerivAt_const _ c
  have h_dK0_D2 := dK0_D2_at0 P q hR
  have h_dK1_D2 := dK1_D2_at0 P q hR
  have h_dK2_D2 := dK2_D2_at0 P q hR
  have key := (((hc ((√(1 - P.B2))⁻¹)).mul ((((hc (-(P.Bx * P.By * (√(1 - P.B2) - 1) * Real.cos P.phiz + (P.B2 * √(1 - P.B2) + P.Bx ^ 2 * (1 - √(1 - P.B2))) * Real.sin
    P.phiz))).mul h_dK1_D2).add ((hc (P.Bx * P.Bz * (√(1 - P.B2) - 1) * Real.sin P.phiy + ((-P.Bx) * P.By * (√(1 - P.B2) - 1) * Real.sin P.phiz + (P.B2 * √(1 - P.B2) +
    P.Bx ^ 2 * (1 - √(1 - P.B2))) * Real.cos P.phiz) * Real.cos P.phiy)).mul h_dK0_D2)).sub ((hc (P.Bx * P.Bz * (√(1 - P.B2) - 1) * Real.cos P.phiy + (P.Bx * P.By * (√(1
    - P.B2) - 1) * Real.sin P.phiz + ((-P.B2) * √(1 - P.B2) + P.Bx ^ 2 * (√(1 - P.B2) - 1)) * Real.cos P.phiz) * Real.sin P.phiy)).mul h_dK2_D2))).div_const (P.B2))
  refine key.congr_deriv ?_
  simp only [Pi.add_apply, Pi.sub_apply, Pi.neg_apply, Pi.mul_apply, Pi.pow_apply, Pi.div_apply, line_at]
  unfold ddk0_D0D2
  try simp only [Nat.cast_ofNat, Nat.reduceSub, pow_one]
  ring


theorem dk0_D2_at1 (P : Par) (q : Pt) (hR : 0 < R P q) : HasDerivAt (line (dk0_D2 P) 1 q) (ddk0_D1D2 P q) (q 1) := by
  have hc : ∀ c : ℝ, HasDerivAt (fun _ => c) 0 (q 1) := fun c => hasDerivAt_const _ c
  have h_dK0_D2 := dK0_D2_at1 P q hR
  have h_dK1_D2 := dK1_D2_at1 P q hR
  have h_dK2_D2 := dK2_D2_at1 P q hR
  have key := (((hc ((√(1 - P.B2))⁻¹)).mul ((((hc (-(P.Bx * P.By * (√(1 - P.B2) - 1) * Real.cos P.phiz + (P.B2 * √(1 - P.B2) + P.Bx ^ 2 * (1 - √(1 - P.B2))) * Real.sin
    P.phiz))).mul h_dK1_D2).add ((hc (P.Bx * P.Bz * (√(1 - P.B2) - 1) * Real.sin P.phiy + ((-P.Bx) * P.By * (√(1 - P.B2) - 1) * Real.sin P.phiz + (P.B2 * √(1 - P.B2) +
    P.Bx ^ 2 * (1 - √(1 - P.B2))) * Real.cos P.phiz) * Real.cos P.phiy)).mul h_dK0_D2)).sub ((hc (P.Bx * P.Bz * (√(1 - P.B2) - 1) * Real.cos P.phiy + (P.Bx * P.By * (√(1
    - P.B2) - 1) * Real.sin P.phiz + ((-P.B2) * √(1 - P.B2) + P.Bx ^ 2 * (√(1 - P.B2) - 1)) * Real.cos P.phiz) * Real.sin P.phiy)).mul h_dK2_D2))).div_const (P.B2))
  refine key.congr_deriv ?_
  simp only [Pi.add_apply, Pi.sub_apply, Pi.neg_apply, Pi.mul_apply, Pi.pow_apply, Pi.div_apply, line_at]
  unfold ddk0_D1D2
  try simp only [Nat.cast_ofNat, Nat.reduceSub, pow_one]
  ring


theorem dk0_D2_at2 (P : Par) (q : Pt) (hR : 0 < R P q) : HasDerivAt (line (dk0_D2 P) 2 q) (ddk0_D2D2 P q) (q 2) := by
  have hc : ∀ c : ℝ, HasDerivAt (fun _ => c) 0 (q 2) := fun c => hasDerivAt_const _ c
  have h_dK0_D2 := dK0_D2_at2 P q hR
  have h_dK1_D2 := dK1_D2_at2 P q hR
  have h_dK2_D2 := dK2_D2_at2 P q hR
  have key := (((hc ((√(1 - P.B2))⁻¹)).mul ((((hc (-(P.Bx * P.By * (√(1 - P.B2) - 1) * Real.cos P.phiz + (P.B2 * √(1 - P.B2) + P.Bx ^ 2 * (1 - √(1 - P.B2))) * Real.sin
    P.phiz))).mul h_dK1_D2).add ((hc (P.Bx * P.Bz * (√(1 - P.B2) - 1) * Real.sin P.phiy + ((-P.Bx) * P.By * (√(1 - P.B2) - 1) * Real.sin P.phiz + (P.B2 * √(1 - P.B2) +
    P.Bx ^ 2 * (1 - √(1 - P.B2))) * Real.cos P.phiz) * Real.cos P.phiy)).mul h_dK0_D2)).sub ((hc (P.Bx * P.Bz * (√(1 - P.B2) - 1) * Real.cos P.phiy + (P.Bx * P.By * (√(1
    - P.B2) - 1) * Real.sin P.phiz + ((-P.B2) * √(1 - P.B2) + P.Bx ^ 2 * (√(1 - P.B2) - 1)) * Real.cos P.phiz) * Real.sin P.phiy)).mul h_dK2_D2))).div_const (P.B2))
  refine key.congr_deriv ?_
  simp only [Pi.add_apply, Pi.sub_apply, Pi.neg_apply, Pi.mul_apply, Pi.pow_apply, Pi.div_apply, line_at]
  unfold ddk0_D2D2
  try simp only [Nat.cast_ofNat, Nat.reduceSub, pow_one]
  ring


theorem ddk0_D0D0_at0 (P : Par) (q : Pt) (hR : 0 < R P q) : HasDerivAt (line (ddk0_D0D0 P) 0 q) (dddk0_D0D0D0 P q) (q 0) := by
  have hc : ∀ c : ℝ, HasDerivAt (fun _ => c) 0 (q 0) := fun c => hasDerivAt_const _ c
  have h_ddK0_D0D0 := ddK0_D0D0_at0 P q hR
  have h_ddK1_D0D0 := ddK1_D0D0_at0 P q hR
  have h_ddK2_D0D0 := ddK2_D0D0_at0 P q hR
  have key := (((hc ((√(1 - P.B2))⁻¹)).mul ((((hc (-(P.Bx * P.By * (√(1 - P.B2) - 1) * Real.cos P.phiz + (P.B2 * √(1 - P.B2) + P.Bx ^ 2 * (1 - √(1 - P.B2))) * Real.sin
    P.phiz))).mul h_ddK1_D0D0).add ((hc (P.Bx * P.Bz * (√(1 - P.B2) - 1) * Real.sin P.phiy + ((-P.Bx) * P.By * (√(1 - P.B2) - 1) * Real.sin P.phiz + (P.B2 * √(1 - P.B2) +
    P.Bx ^ 2 * (1 - √(1 - P.B2))) * Real.cos P.phiz) * Real.cos P.phiy)).mul h_ddK0_D0D0)).sub ((hc (P.Bx * P.Bz * (√(1 - P.B2) - 1) * Real.cos P.phiy + (P.Bx * P.By *
    (√(1 - P.B2) - 1) * Real.sin P.phiz + ((-P.B2) * √(1 - P.B2) + P.Bx ^ 2 * (√(1 - P.B2) - 1)) * Real.cos P.phiz) * Real.sin P.phiy)).mul h_ddK2_D0D0))).div_const
    (P.B2))
  refine key.congr_deriv ?_
  simp only [Pi.add_apply, Pi.sub_apply, Pi.neg_apply, Pi.mul_apply, Pi.pow_apply, Pi.div_apply, line_at]
  unfold dddk0_D0D0D0
  try simp only [Nat.cast_ofNat, Nat.reduceSub, pow_one]
  try simp only [dddK0_D0D1D0_sym, dddK0_D0D2D0_sym, dddK0_D1D1D0_sym, dddK0_D1D2D1_sym, dddK0_D2D2D0_sym, dddK0_D2D2D1_sym, dddK0_D0D2D1_sym, dddK0_D1D2D0_sym, dddK1_D0D1D0_sym, dddK1_D0D2D0_sym, dddK1_D1D1D0_sym, dddK1_D1D2D1_sym, dddK1_D2D2D0_sym, dddK1_D2D2D1_sym, dddK1_D0D2D1_sym, dddK1_D1D2D0_sym, dddK2_D0D1D0_sym, dddK2_D0D2D0_sym, dddK2_D1D1D0_sym, dddK2_D1D2D1_sym, dddK2_D2D2D0_sym, dddK2_D2D2D1_sym, dddK2_D0D2D1_sym, dddK2_D1D2D0_sym, dddH_D0D1D0_sym, dddH_D0D2D0_sym, dddH_D1D1D0_sym, dddH_D1D2D1_sym, dddH_D2D2D0_sym, dddH_D2D2D1_sym, dddH_D0D2D1_sym, dddH_D1D2D0_sym]
  ring


theorem ddk0_D0D0_at1 (P : Par) (q : Pt) (hR : 0 < R P q) : HasDerivAt (line (ddk0_D0D0 P) 1 q) (dddk0_D0D0D1 P q) (q 1) := by
  have hc : ∀ c : ℝ, HasDerivAt (fun _ => c) 0 (q 1) := fun c => hasDerivAt_const _ c
  have h_ddK0_D0D0 := ddK0_D0D0_at1 P q hR
  have h_ddK1_D0D0 := ddK1_D0D0_at1 P q hR
  have h_ddK2_D0D0 := ddK2_D0D0_at1 P q hR
  have key := (((hc ((√(1 - P.B2))⁻¹)).mul ((((hc (-(P.Bx * P.By * (√(1 - P.B2) - 1) * Real.cos P.phiz + (P.B2 * √(1 - P.B2) + P.Bx ^ 2 * (1 - √(1 - P.B2))) * Real.sin
    P.phiz))).mul h_ddK1_D0D0).add ((hc (P.Bx * P.Bz * (√(1 - P.B2) - 1) * Real.sin P.phiy + ((-P.Bx) * P.By * (√(1 - P.B2) - 1) * Real.sin P.phiz + (P.B2 * √(1 - P.B2) +
    P.Bx ^ 2 * (1 - √(1 - P.B2))) * Real.cos P.phiz) * Real.cos P.phiy)).mul h_ddK0_D0D0)).sub ((hc (P.Bx * P.Bz * (√(1 - P.B2) - 1) * Real.cos P.phiy + (P.Bx * P.By *
    (√(1 - P.B2) - 1) * Real.sin P.phiz + ((-P.B2) * √(1 - P.B2) + P.Bx ^ 2 * (√(1 - P.B2) - 1)) * Real.cos P.phiz) * Real.sin P.phiy)).mul h_ddK2_D0D0))).div_const
    (P.B2))
  refine key.congr_deriv ?_
  simp only [Pi.add_apply, Pi.sub_apply, Pi.neg_apply, Pi.mul_apply, Pi.pow_apply, Pi.div_apply, line_at]
  unfold dddk0_D0D0D1
  try simp only [Nat.cast_ofNat, Nat.reduceSub, pow_one]
  try simp only [dddK0_D0D1D0_sym, dddK0_D0D2D0_sym, dddK0_D1D1D0_sym, dddK0_D1D2D1_sym, dddK0_D2D2D0_sym, dddK0_D2D2D1_sym, dddK0_D0D2D1_sym, dddK0_D1D2D0_sym, dddK1_D0D1D0_sym, dddK1_D0D2D0_sym, dddK1_D1D1D0_sym, dddK1_D1D2D1_sym, dddK1_D2D2D0_sym, dddK1_D2D2D1_sym, dddK1_D0D2D1_sym, dddK1_D1D2D0_sym, dddK2_D0D1D0_sym, dddK2_D0D2D0_sym, dddK2_D1D1D0_sym, dddK2_D1D2D1_sym, dddK2_D2D2D0_sym, dddK2_D2D2D1_sym, dddK2_D0D2D1_sym, dddK2_D1D2D0_sym, dddH_D0D1D0_sym, dddH_D0D2D0_sym, dddH_D1D1D0_sym, dddH_D1D2D1_sym, dddH_D2D2D0_sym, dddH_D2D2D1_sym, dddH_D0D2D1_sym, dddH_D1D2D0_sym]
  ring


theorem ddk0_D0D0_at2 (P : Par) (q : Pt) (hR : 0 < R P q) : HasDerivAt (line (ddk0_D0D0 P) 2 q) (dddk0_D0D0D2 P q) (q 2) := by
  have hc : ∀ c : ℝ, HasDerivAt (fun _ => c) 0 (q 2) := fun c => hasDerivAt_const _ c
  have h_ddK0_D0D0 := ddK0_D0D0_at2 P q hR
  have h_ddK1_D0D0 := ddK1_D0D0_at2 P q hR
  have h_ddK2_D0D0 := ddK2_D0D0_at2 P q hR
  have key := (((hc ((√(1 - P.B2))⁻¹)).mul ((((hc (-(P.Bx * P.By * (√(1 - P.B2) - 1) * Real.cos P.phiz + (P.B2 * √(1 - P.B2) + P.Bx ^ 2 * (1 - √(1 - P.B2))) * Real.sin
    P.phiz))).mul h_ddK1_D0D0).add ((hc (P.Bx * P.Bz * (√(1 - P.B2) - 1) * Real.sin P.phiy + ((-P.Bx) * P.By * (√(1 - P.B2) - 1) * Real.sin P.phiz + (P.B2 * √(1 - P.B2) +
    P.Bx ^ 2 * (1 - √(1 - P.B2))) * Real.cos P.phiz) * Real.cos P.phiy)).mul h_ddK0_D0D0)).sub ((hc (P.Bx * P.Bz * (√(1 - P.B2) - 1) * Real.cos P.phiy + (P.Bx * P.By *
    (√(1 - P.B2) - 1) * Real.sin P.phiz + ((-P.B2) * √(1 - P.B2) + P.Bx ^ 2 * (√(1 - P.B2) - 1)) * Real.cos P.phiz) * Real.sin P.phiy)).mul h_ddK2_D0D0))).div_const
    (P.B2))
  refine key.congr_deriv ?_
  simp only [Pi.add_apply, Pi.sub_apply, Pi.neg_apply, Pi.mul_apply, Pi.pow_apply, Pi.div_apply, line_at]
  unfold dddk0_D0D0D2
  try simp only [Nat.cast_ofNat, Nat.reduceSub, pow_one]
  try simp only [dddK0_D0D1D0_sym, dddK0_D0D2D0_sym, dddK0_D1D1D0_sym, dddK0_D1D2D1_sym, dddK0_D2D2D0_sym, dddK0_D2D2D1_sym, dddK0_D0D2D1_sym, dddK0_D1D2D0_sym, dddK1_D0D1D0_sym, dddK1_D0D2D0_sym, dddK1_D1D1D0_sym, dddK1_D1D2D1_sym, dddK1_D2D2D0_sym, dddK1_D2D2D1_sym, dddK1_D0D2D1_sym, dddK1_D1D2D0_sym, dddK2_D0D1D0_sym, dddK2_D0D2D0_sym, dddK2_D1D1D0_sym, dddK2_D1D2D1_sym, dddK2_D2D2D0_sym, dddK2_D2D2D1_sym, dddK2_D0D2D1_sym, dddK2_D1D2D0_sym, dddH_D0D1D0_sym, dddH_D0D2D0_sym, dddH_D1D1D0_sym, dddH_D1D2D1_sym, dddH_D2D2D0_sym, dddH_D2D2D1_sym, dddH_D0D2D1_sym, dddH_D1D2D0_sym]
  ring


theorem ddk0_D0D1_at0 (P : Par) (q : Pt) (hR : 0 < R P q) : HasDerivAt (line (ddk0_D0D1 P) 0 q) (dddk0_D0D1D0 P q) (q 0) := by
  have hc : ∀ c : ℝ, HasDerivAt (fun _ => c) 0 (q 0) := fun c => hasDerivAt_const _ c
  have h_ddK0_D0D1 := ddK0_D0D1_at0 P q hR
  have h_ddK1_D0D1 := ddK1_D0D1_at0 P q hR
  have h_ddK2_D0D1 := ddK2_D0D1_at0 P q hR
  have key := (((hc ((√(1 - P.B2))⁻¹)).mul ((((hc (-(P.Bx * P.By * (√(1 - P.B2) - 1) * Real.cos P.phiz + (P.B2 * √(1 - P.B2) + P.Bx ^ 2 * (1 - √(1 - P.B2))) * Real.sin
    P.phiz))).mul h_ddK1_D0D1).add ((hc (P.Bx * P.Bz * (√(1 - P.B2) - 1) * Real.sin P.phiy + ((-P.Bx) * P.By * (√(1 - P.B2) - 1) * Real.sin P.phiz + (P.B2 * √(1 - P.B2) +
    P.Bx ^ 2 * (1 - √(1 - P.B2))) * Real.cos P.phiz) * Real.cos P.phiy)).mul h_ddK0_D0D1)).sub ((hc (P.Bx * P.Bz * (√(1 - P.B2) - 1) * Real.cos P.phiy + (P.Bx * P.By *
    (√(1 - P.B2) - 1) * Real.sin P.phiz + ((-P.B2) * √(1 - P.B2) + P.Bx ^ 2 * (√(1 - P.B2) - 1)) * Real.cos P.phiz) * Real.sin P.phiy)).mul h_ddK2_D0D1))).div_const
    (P.B2))
  refine key.congr_deriv ?_
  simp only [Pi.add_apply, Pi.sub_apply, Pi.neg_apply, Pi.mul_apply, Pi.pow_apply, Pi.div_apply, line_at]
  unfold dddk0_D0D1D0
  try simp only [Nat.cast_ofNat, Nat.reduceSub, pow_one]
  try simp only [dddK0_D0D1D0_sym, dddK0_D0D2D0_sym, dddK0_D1D1D0_sym, dddK0_D1D2D1_sym, dddK0_D2D2D0_sym, dddK0_D2D2D1_sym, dddK0_D0D2D1_sym, dddK0_D1D2D0_sym, dddK1_D0D1D0_sym, dddK1_D0D2D0_sym, dddK1_D1D1D0_sym, dddK1_D1D2D1_sym, dddK1_D2D2D0_sym, dddK1_D2D2D1_sym, dddK1_D0D2D1_sym, dddK1_D1D2D0_sym, dddK2_D0D1D0_sym, dddK2_D0D2D0_sym, dddK2_D1D1D0_sym, dddK2_D1D2D1_sym, dddK2_D2D2D0_sym, dddK2_D2D2D1_sym, dddK2_D0D2D1_sym, dddK2_D1D2D0_sym, dddH_D0D1D0_sym, dddH_D0D2D0_sym, dddH_D1D1D0_sym, dddH_D1D2D1_sym, dddH_D2D2D0_sym, dddH_D2D2D1_sym, dddH_D0D2D1_sym, dddH_D1D2D0_sym]
  ring


theorem ddk0_D0D1_at1 (P : Par) (q : Pt) (hR : 0 < R P q) : HasDerivAt (line (ddk0_D0D1 P) 1 q) (dddk0_D0D1D1 P q) (q 1) := by
  have hc : ∀ c : ℝ, HasDerivAt (fun _ => c) 0 (q 1) := fun c => hasDerivAt_const _ c
  have h_ddK0_D0D1 := ddK0_D0D1_at1 P q hR
  have h_ddK1_D0D1 := ddK1_D0D1_at1 P q hR
  have h_ddK2_D0D1 := ddK2_D0D1_at1 P q hR
  have key := (((hc ((√(1 - P.B2))⁻¹)).mul ((((hc (-(P.Bx * P.By * (√(1 - P.B2) - 1) * Real.cos P.phiz + (P.B2 * √(1 - P.B2) + P.Bx ^ 2 * (1 - √(1 - P.B2))) * Real.sin
    P.phiz))).mul h_ddK1_D0D1).add ((hc (P.Bx * P.Bz * (√(1 - P.B2) - 1) * Real.sin P.phiy + ((-P.Bx) * P.By * (√(1 - P.B2) - 1) * Real.sin P.phiz + (P.B2 * √(1 - P.B2) +
    P.Bx ^ 2 * (1 - √(1 - P.B2))) * Real.cos P.phiz) * Real.cos P.phiy)).mul h_ddK0_D0D1)).sub ((hc (P.Bx * P.Bz * (√(1 - P.B2) - 1) * Real.cos P.phiy + (P.Bx * P.By *
    (√(1 - P.B2) - 1) * Real.sin P.phiz + ((-P.B2) * √(1 - P.B2) + P.Bx ^ 2 * (√(1 - P.B2) - 1)) * Real.cos P.phiz) * Real.sin P.phiy)).mul h_ddK2_D0D1))).div_const
    (P.B2))
  refine key.congr_deriv ?_
  simp only [Pi.add_apply, Pi.sub_apply, Pi.neg_apply, Pi.mul_apply, Pi.pow_apply, Pi.div_apply, line_at]
  unfold dddk0_D0D1D1
  try simp only [Nat.cast_ofNat, Nat.reduceSub, pow_one]
  try simp only [dddK0_D0D1D0_sym, dddK0_D0D2D0_sym, dddK0_D1D1D0_sym, dddK0_D1D2D1_sym, dddK0_D2D2D0_sym, dddK0_D2D2D1_sym, dddK0_D0D2D1_sym, dddK0_D1D2D0_sym, dddK1_D0D1D0_sym, dddK1_D0D2D0_sym, dddK1_D1D1D0_sym, dddK1_D1D2D1_sym, dddK1_D2D2D0_sym, dddK1_D2D2D1_sym, dddK1_D0D2D1_sym, dddK1_D1D2D0_sym, dddK2_D0D1D0_sym, dddK2_D0D2D0_sym, dddK2_D1D1D0_sym, dddK2_D1D2D1_sym, dddK2_D2D2D0_sym, dddK2_D2D2D1_sym, dddK2_D0D2D1_sym, dddK2_D1D2D0_sym, dddH_D0D1D0_sym, dddH_D0D2D0_sym, dddH_D1D1D0_sym, dddH_D1D2D1_sym, dddH_D2D2D0_sym, dddH_D2D2D1_sym, dddH_D0D2D1_sym, dddH_D1D2D0_sym]
  ring


theorem ddk0_D0D1_at2 (P : Par) (q : Pt) (hR : 0 < R P q) : HasDerivAt (line (ddk0_D0D1 P) 2 q) (dddk0_D0D1D2 P q) (q 2) := by
  have hc : ∀ c : ℝ, HasDerivAt (fun _ => c) 0 (q 2) := fun c => hasDerivAt_const _ c
  have h_ddK0_D0D1 := ddK0_D0D1_at2 P q hR
  have h_ddK1_D0D1 := ddK1_D0D1_at2 P q hR
  have h_ddK2_D0D1 := ddK2_D0D1_at2 P q hR
  have key := (((hc ((√(1 - P.B2))⁻¹)).mul ((((hc (-(P.Bx * P.By * (√(1 - P.B2) - 1) * Real.cos P.phiz + (P.B2 * √(1 - P.B2) + P.Bx ^ 2 * (1 - √(1 - P.B2))) * Real.sin
    P.phiz))).mul h_ddK1_D0D1).add ((hc (P.Bx * P.Bz * (√(1 - P.B2) - 1) * Real.sin P.phiy + ((-P.Bx) * P.By * (√(1 - P.B2) - 1) * Real.sin P.phiz + (P.B2 * √(1 - P.B2) +
    P.Bx ^ 2 * (1 - √(1 - P.B2))) * Real.cos P.phiz) * Real.cos P.phiy)).mul h_ddK0_D0D1)).sub ((hc (P.Bx * P.Bz * (√(1 - P.B2) - 1) * Real.cos P.phiy + (P.Bx * P.By *
    (√(1 - P.B2) - 1) * Real.sin P.phiz + ((-P.B2) * √(1 - P.B2) + P.Bx ^ 2 * (√(1 - P.B2) - 1)) * Real.cos P.phiz) * Real.sin P.phiy)).mul h_ddK2_D0D1))).div_const
    (P.B2))
  refine key.congr_deriv ?_
  simp only [Pi.add_apply, Pi.sub_apply, Pi.neg_apply, Pi.mul_apply, Pi.pow_apply, Pi.div_apply, line_at]
  unfold dddk0_D0D1D2
  try simp only [Nat.cast_ofNat, Nat.reduceSub, pow_one]
  try simp only [dddK0_D0D1D0_sym, dddK0_D0D2D0_sym, dddK0_D1D1D0_sym, dddK0_D1D2D1_sym, dddK0_D2D2D0_sym, dddK0_D2D2D1_sym, dddK0_D0D2D1_sym, dddK0_D1D2D0_sym, dddK1_D0D1D0_sym, dddK1_D0D2D0_sym, dddK1_D1D1D0_sym, dddK1_D1D2D1_sym, dddK1_D2D2D0_sym, dddK1_D2D2D1_sym, dddK1_D0D2D1_sym, dddK1_D1D2D0_sym, dddK2_D0D1D0_sym, dddK2_D0D2D0_sym, dddK2_D1D1D0_sym, dddK2_D1D2D1_sym, dddK2_D2D2D0_sym, dddK2_D2D2D1_sym, dddK2_D0D2D1_sym, dddK2_D1D2D0_sym, dddH_D0D1D0_sym, dddH_D0D2D0_sym, dddH_D1D1D0_sym, dddH_D1D2D1_sym, dddH_D2D2D0_sym, dddH_D2D2D1_sym, dddH_D0D2D1_sym, dddH_D1D2D0_sym]
  ring


theorem ddk0_D0D2_at0 (P : Par) (q : Pt) (hR : 0 < R P q) : HasDerivAt (line (ddk0_D0D2 P) 0 q) (dddk0_D0D2D0 P q) (q 0) := by
  have hc : ∀ c : ℝ, HasDerivAt (fun _ => c) 0 (q 0) := fun c => hasDerivAt_const _ c
  have h_ddK0_D0D2 := ddK0_D0D2_at0 P q hR
  have h_ddK1_D0D2 := ddK1_D0D2_at0 P q hR
  have h_ddK2_D0D2 := ddK2_D0D2_at0 P q hR
  have key := (((hc ((√(1 - P.B2))⁻¹)).mul ((((hc (-(P.Bx * P.By * (√(1 - P.B2) - 1) * Real.cos P.phiz + (P.B2 * √(1 - P.B2) + P.Bx ^ 2 * (1 - √(1 - P.B2))) * Real.sin
    P.phiz))).mul h_ddK1_D0D2).add ((hc (P.Bx * P.Bz * (√(1 - P.B2) - 1) * Real.sin P.phiy + ((-P.Bx) * P.By * (√(1 - P.B2) - 1) * Real.sin P.phiz + (P.B2 * √(1 - P.B2) +
    P.Bx ^ 2 * (1 - √(1 - P.B2))) * Real.cos P.phiz) * Real.cos P.phiy)).mul h_ddK0_D0D2)).sub ((hc (P.Bx * P.Bz * (√(1 - P.B2) - 1) * Real.cos P.phiy + (P.Bx * P.By *
    (√(1 - P.B2) - 1) * Real.sin P.phiz + ((-P.B2) * √(1 - P.B2) + P.Bx ^ 2 * (√(1 - P.B2) - 1)) * Real.cos P.phiz) * Real.sin P.phiy)).mul h_ddK2_D0D2))).div_const
    (P.B2))
  refine key.congr_deriv ?_
  simp only [Pi.add_apply, Pi.sub_apply, Pi.neg_apply, Pi.mul_apply, Pi.pow_apply, Pi.div_apply, line_at]
  unfold dddk0_D0D2D0
  try simp only [Nat.cast_ofNat, Nat.reduceSub, pow_one]
  try simp only [dddK0_D0D1D0_sym, dddK0_D0D2D0_sym, dddK0_D1D1D0_sym, dddK0_D1D2D1_sym, dddK0_D2D2D0_sym, dddK0_D2D2D1_sym, dddK0_D0D2D1_sym, dddK0_D1D2D0_sym, dddK1_D0D1D0_sym, dddK1_D0D2D0_sym, dddK1_D1D1D0_sym, dddK1_D1D2D1_sym, dddK1_D2D2D0_sym, dddK1_D2D2D1_sym, dddK1_D0D2D1_sym, dddK1_D1D2D0_sym, dddK2_D0D1D0_sym, dddK2_D0D2D0_sym, dddK2_D1D1D0_sym, dddK2_D1D2D1_sym, dddK2_D2D2D0_sym, dddK2_D2D2D1_sym, dddK2_D0D2D1_sym, dddK2_D1D2D0_sym, dddH_D0D1D0_sym, dddH_D0D2D0_sym, dddH_D1D1D0_sym, dddH_D1D2D1_sym, dddH_D2D2D0_sym, dddH_D2D2D1_sym, dddH_D0D2D1_sym, dddH_D1D2D0_sym]
  ring


theorem ddk0_D0D2_at1 (P : Par) (q : Pt) (hR : 0 < R P q) : HasDerivAt (line (ddk0_D0D2 P) 1 q) (dddk0_D0D2D1 P q) (q 1) := by
  have hc : ∀ c : ℝ, HasDerivAt (fun _ => c) 0 (q 1) := fun c => hasDerivAt_const _ c
  have h_ddK0_D0D2 := ddK0_D0D2_at1 P q hR
  have h_ddK1_D0D2 := ddK1_D0D2_at1 P q hR
  have h_ddK2_D0D2 := ddK2_D0D2_at1 P q hR
  have key := (((hc ((√(1 - P.B2))⁻¹)).mul ((((hc (-(P.Bx * P.By * (√(1 - P.B2) - 1) * Real.cos P.phiz + (P.B2 * √(1 - P.B2) + P.Bx ^ 2 * (1 - √(1 - P.B2))) * Real.sin
    P.phiz))).mul h_ddK1_D0D2).add ((hc (P.Bx * P.Bz * (√(1 - P.B2) - 1) * Real.sin P.phiy + ((-P.Bx) * P.By * (√(1 - P.B2) - 1) * Real.sin P.phiz + (P.B2 * √(1 - P.B2) +
    P.Bx ^ 2 * (1 - √(1 - P.B2))) * Real.cos P.phiz) * Real.cos P.phiy)).mul h_ddK0_D0D2)).sub ((hc (P.Bx * P.Bz * (√(1 - P.B2) - 1) * Real.cos P.phiy + (P.Bx * P.By *
    (√(1 - P.B2) - 1) * Real.sin P.phiz + ((-P.B2) * √(1 - P.B2) + P.Bx ^ 2 * (√(1 - P.B2) - 1)) * Real.cos P.phiz) * Real.sin P.phiy)).mul h_ddK2_D0D2))).div_const
    (P.B2))
  refine key.congr_deriv ?_
  simp only [Pi.add_apply, Pi.sub_apply, Pi.neg_apply, Pi.mul_apply, Pi.pow_apply, Pi.div_apply, line_at]
  unfold dddk0_D0D2D1
  try simp only [Nat.cast_ofNat, Nat.reduceSub, pow_one]
  try simp only [dddK0_D0D1D0_sym, dddK0_D0D2D0_sym, dddK0_D1D1D0_sym, dddK0_D1D2D1_sym, dddK0_D2D2D0_sym, dddK0_D2D2D1_sym, dddK0_D0D2D1_sym, dddK0_D1D2D0_sym, dddK1_D0D1D0_sym, dddK1_D0D2D0_sym, dddK1_D1D1D0_sym, dddK1_D1D2D1_sym, dddK1_D2D2D0_sym, dddK1_D2D2D1_sym, dddK1_D0D2D1_sym, dddK1_D1D2D0_sym, dddK2_D0D1D0_sym, dddK2_D0D2D0_sym, dddK2_D1D1D0_sym, dddK2_D1D2D1_sym, dddK2_D2D2D0_sym, dddK2_D2D2D1_sym, dddK2_D0D2D1_sym, dddK2_D1D2D0_sym, dddH_D0D1D0_sym, dddH_D0D2D0_sym, dddH_D1D1D0_sym, dddH_D1D2D1_sym, dddH_D2D2D0_sym, dddH_D2D2D1_sym, dddH_D0D2D1_sym, dddH_D1D2D0_sym]
  ring


theorem ddk0_D0D2_at2 (P : Par) (q : Pt) (hR : 0 < R P q) : HasDerivAt (line (ddk0_D0D2 P) 2 q) (dddk0_D0D2D2 P q) (q 2) := by
  have hc : ∀ c : ℝ, HasDerivAt (fun _ => c) 0 (q 2) := fun c => hasDerivAt_const _ c
  have h_ddK0_D0D2 := ddK0_D0D2_at2 P q hR
  have h_ddK1_D0D2 := ddK1_D0D2_at2 P q hR
  have h_ddK2_D0D2 := ddK2_D0D2_at2 P q hR
  have key := (((hc ((√(1 - P.B2))⁻¹)).mul ((((hc (-(P.Bx * P.By * (√(1 - P.B2) - 1) * Real.cos P.phiz + (P.B2 * √(1 - P.B2) + P.Bx ^ 2 * (1 - √(1 - P.B2))) * Real.sin
    P.phiz))).mul h_ddK1_D0D2).add ((hc (P.Bx * P.Bz * (√(1 - P.B2) - 1) * Real.sin P.phiy + ((-P.Bx) * P.By * (√(1 - P.B2) - 1) * Real.sin P.phiz + (P.B2 * √(1 - P.B2) +
    P.Bx ^ 2 * (1 - √(1 - P.B2))) * Real.cos P.phiz) * Real.cos P.phiy)).mul h_ddK0_D0D2)).sub ((hc (P.Bx * P.Bz * (√(1 - P.B2) - 1) * Real.cos P.phiy + (P.Bx * P.By *
    (√(1 - P.B2) - 1) * Real.sin P.phiz + ((-P.B2) * √(1 - P.B2) + P.Bx ^ 2 * (√(1 - P.B2) - 1)) * Real.cos P.phiz) * Real.sin P.phiy)).mul h_ddK2_D0D2))).div_const
    (P.B2))
  refine key.congr_deriv ?_
  simp only [Pi.add_apply, Pi.sub_apply, Pi.neg_apply, Pi.mul_apply, Pi.pow_apply, Pi.div_apply, line_at]
  unfold dddk0_D0D2D2
  try simp only [Nat.cast_ofNat, Nat.reduceSub, pow_one]
  try simp only [dddK0_D0D1D0_sym, dddK0_D0D2D0_sym, dddK0_D1D1D0_sym, dddK0_D1D2D1_sym, dddK0_D2D2D0_sym, dddK0_D2D2D1_sym, dddK0_D0D2D1_sym, dddK0_D1D2D0_sym, dddK1_D0D1D0_sym, dddK1_D0D2D0_sym, dddK1_D1D1D0_sym, dddK1_D1D2D1_sym, dddK1_D2D2D0_sym, dddK1_D2D2D1_sym, dddK1_D0D2D1_sym, dddK1_D1D2D0_sym, dddK2_D0D1D0_sym, dddK2_D0D2D0_sym, dddK2_D1D1D0_sym, dddK2_D1D2D1_sym, dddK2_D2D2D0_sym, dddK2_D2D2D1_sym, dddK2_D0D2D1_sym, dddK2_D1D2D0_sym, dddH_D0D1D0_sym, dddH_D0D2D0_sym, dddH_D1D1D0_sym, dddH_D1D2D1_sym, dddH_D2D2D0_sym, dddH_D2D2D1_sym, dddH_D0D2D1_sym, dddH_D1D2D0_sym]
  ring


theorem ddk0_D1D1_at0 (P : Par) (q : Pt) (hR : 0 < R P q) : HasDerivAt (line (ddk0_D1D1 P) 0 q) (dddk0_D1D1D0 P q) (q 0) := by
  have hc : ∀ c : ℝ, HasDerivAt (fun _ => c) 0 (q 0) := fun c => hasDerivAt_const _ c
  have h_ddK0_D1D1 := ddK0_D1D1_at0 P q hR
  have h_ddK1_D1D1 := ddK1_D1D1_at0 P q hR
  have h_ddK2_D1D1 := ddK2_D1D1_at0 P q hR
  have key := (((hc ((√(1 - P.B2))⁻¹)).mul ((((hc (-(P.Bx * P.By * (√(1 - P.B2) - 1) * Real.cos P.phiz + (P.B2 * √(1 - P.B2) + P.Bx ^ 2 * (1 - √(1 - P.B2))) * Real.sin
    P.phiz))).mul h_ddK1_D1D1).add ((hc (P.Bx * P.Bz * (√(1 - P.B2) - 1) * Real.sin P.phiy + ((-P.Bx) * P.By * (√(1 - P.B2) - 1) * Real.sin P.phiz + (P.B2 * √(1 - P.B2) +
    P.Bx ^ 2 * (1 - √(1 - P.B2))) * Real.cos P.phiz) * Real.cos P.phiy)).mul h_ddK0_D1D1)).sub ((hc (P.Bx * P.Bz * (√(1 - P.B2) - 1) * Real.cos P.phiy + (P.Bx * P.By *
    (√(1 - P.B2) - 1) * Real.sin P.phiz + ((-P.B2) * √(1 - P.B2) + P.Bx ^ 2 * (√(1 - P.B2) - 1)) * Real.cos P.phiz) * Real.sin P.phiy)).mul h_ddK2_D1D1))).div_const
    (P.B2))
  refine key.congr_deriv ?_
  simp only [Pi.add_apply, Pi.sub_apply, Pi.neg_apply, Pi.mul_apply, Pi.pow_apply, Pi.div_apply, line_at]
  unfold dddk0_D1D1D0
  try simp only [Nat.cast_ofNat, Nat.reduceSub, pow_one]
  try simp only [dddK0_D0D1D0_sym, dddK0_D0D2D0_sym, dddK0_D1D1D0_sym, dddK0_D1D2D1_sym, dddK0_D2D2D0_sym, dddK0_D2D2D1_sym, dddK0_D0D2D1_sym, dddK0_D1D2D0_sym, dddK1_D0D1D0_sym, dddK1_D0D2D0_sym, dddK1_D1D1D0_sym, dddK1_D1D2D1_sym, dddK1_D2D2D0_sym, dddK1_D2D2D1_sym, dddK1_D0D2D1_sym, dddK1_D1D2D0_sym, dddK2_D0D1D0_sym, dddK2_D0D2D0_sym, dddK2_D1D1D0_sym, dddK2_D1D2D1_sym, dddK2_D2D2D0_sym, dddK2_D2D2D1_sym, dddK2_D0D2D1_sym, dddK2_D1D2D0_sym, dddH_D0D1D0_sym, dddH_D0D2D0_sym, dddH_D1D1D0_sym, dddH_D1D2D1_sym, dddH_D2D2D0_sym, dddH_D2D2D1_sym, dddH_D0D2D1_sym, dddH_D1D2D0_sym]
  ring


theorem ddk0_D1D1_at1 (P : Par) (q : Pt) (hR : 0 < R P q) : HasDerivAt (line (ddk0_D1D1 P) 1 q) (dddk0_D1D1D1 P q) (q 1) := by
  have hc : ∀ c : ℝ, HasDerivAt (fun _ => c) 0 (q 1) := fun c => hasDerivAt_const _ c
  have h_ddK0_D1D1 := ddK0_D1D1_at1 P q hR
  have h_ddK1_D1D1 := ddK1_D1D1_at1 P q hR
  have h_ddK2_D1D1 := ddK2_D1D1_at1 P q hR
  have key := (((hc ((√(1 - P.B2))⁻¹)).mul ((((hc (-(P.Bx * P.By * (√(1 - P.B2) - 1) * Real.cos P.phiz + (P.B2 * √(1 - P.B2) + P.Bx ^ 2 * (1 - √(1 - P.B2))) * Real.sin
    P.phiz))).mul h_ddK1_D1D1).add ((hc (P.Bx * P.Bz * (√(1 - P.B2) - 1) * Real.sin P.phiy + ((-P.Bx) * P.By * (√(1 - P.B2) - 1) * Real.sin P.phiz + (P.B2 * √(1 - P.B2) +
    P.Bx ^ 2 * (1 - √(1 - P.B2))) * Real.cos P.phiz) * Real.cos P.phiy)).mul h_ddK0_D1D1)).sub ((hc (P.Bx * P.Bz * (√(1 - P.B2) - 1) * Real.cos P.phiy + (P.Bx * P.By *
    (√(1 - P.B2) - 1) * Real.sin P.phiz + ((-P.B2) * √(1 - P.B2) + P.Bx ^ 2 * (√(1 - P.B2) - 1)) * Real.cos P.phiz) * Real.sin P.phiy)).mul h_ddK2_D1D1))).div_const
    (P.B2))
  refine key.congr_deriv ?_
  simp only [Pi.add_apply, Pi.sub_apply, Pi.neg_apply, Pi.mul_apply, Pi.pow_apply, Pi.div_apply, line_at]
  unfold dddk0_D1D1D1
  try simp only [Nat.cast_ofNat, Nat.reduceSub, pow_one]
  try simp only [dddK0_D0D1D0_sym, dddK0_D0D2D0_sym, dddK0_D1D1D0_sym, dddK0_D1D2D1_sym, dddK0_D2D2D0_sym, dddK0_D2D2D1_sym, dddK0_D0D2D1_sym, dddK0_D1D2D0_sym, dddK1_D0D1D0_sym, dddK1_D0D2D0_sym, dddK1_D1D1D0_sym, dddK1_D1D2D1_sym, dddK1_D2D2D0_sym, dddK1_D2D2D1_sym, dddK1_D0D2D1_sym, dddK1_D1D2D0_sym, dddK2_D0D1D0_sym, dddK2_D0D2D0_sym, dddK2_D1D1D0_sym, dddK2_D1D2D1_sym, dddK2_D2D2D0_sym, dddK2_D2D2D1_sym, dddK2_D0D2D1_sym, dddK2_D1D2D0_sym, dddH_D0D1D0_sym, dddH_D0D2D0_sym, dddH_D1D1D0_sym, dddH_D1D2D1_sym, dddH_D2D2D0_sym, dddH_D2D2D1_sym, dddH_D0D2D1_sym, dddH_D1D2D0_sym]
  ring


theorem ddk0_D1D1_at2 (P : Par) (q : Pt) (hR : 0 < R P q) : HasDerivAt (line (ddk0_D1D1 P) 2 q) (dddk0_D1D1D2 P q) (q 2) := by
  have hc : ∀ c : ℝ, HasDerivAt (fun _ => c) 0 (q 2) := fun c => hasDerivAt_const _ c
  have h_ddK0_D1D1 := ddK0_D1D1_at2 P q hR
  have h_ddK1_D1D1 := ddK1_D1D1_at2 P q hR
  have h_ddK2_D1D1 := ddK2_D1D1_at2 P q hR
  have key := (((hc ((√(1 - P.B2))⁻¹)).mul ((((hc (-(P.Bx * P.By * (√(1 - P.B2) - 1) * Real.cos P.phiz + (P.B2 * √(1 - P.B2) + P.Bx ^ 2 * (1 - √(1 - P.B2))) * Real.sin
    P.phiz))).mul h_ddK1_D1D1).add ((hc (P.Bx * P.Bz * (√(1 - P.B2) - 1) * Real.sin P.phiy + ((-P.Bx) * P.By * (√(1 - P.B2) - 1) * Real.sin P.phiz + (P.B2 * √(1 - P.B2) +
    P.Bx ^ 2 * (1 - √(1 - P.B2))) * Real.cos P.phiz) * Real.cos P.phiy)).mul h_ddK0_D1D1)).sub ((hc (P.Bx * P.Bz * (√(1 - P.B2) - 1) * Real.cos P.phiy + (P.Bx * P.By *
    (√(1 - P.B2) - 1) * Real.sin P.phiz + ((-P.B2) * √(1 - P.B2) + P.Bx ^ 2 * (√(1 - P.B2) - 1)) * Real.cos P.phiz) * Real.sin P.phiy)).mul h_ddK2_D1D1))).div_const
    (P.B2))
  refine key.congr_deriv ?_
  simp only [Pi.add_apply, Pi.sub_apply, Pi.neg_apply, Pi.mul_apply, Pi.pow_apply, Pi.div_apply, line_at]
  unfold dddk0_D1D1D2
  try simp only [Nat.cast_ofNat, Nat.reduceSub, pow_one]
  try simp only [dddK0_D0D1D0_sym, dddK0_D0D2D0_sym, dddK0_D1D1D0_sym, dddK0_D1D2D1_sym, dddK0_D2D2D0_sym, dddK0_D2D2D1_sym, dddK0_D0D2D1_sym, dddK0_D1D2D0_sym, dddK1_D0D1D0_sym, dddK1_D0D2D0_sym, dddK1_D1D1D0_sym, dddK1_D1D2D1_sym, dddK1_D2D2D0_sym, dddK1_D2D2D1_sym, dddK1_D0D2D1_sym, dddK1_D1D2D0_sym, dddK2_D0D1D0_sym, dddK2_D0D2D0_sym, dddK2_D1D1D0_sym, dddK2_D1D2D1_sym, dddK2_D2D2D0_sym, dddK2_D2D2D1_sym, dddK2_D0D2D1_sym, dddK2_D1D2D0_sym, dddH_D0D1D0_sym, dddH_D0D2D0_sym, dddH_D1D1D0_sym, dddH_D1D2D1_sym, dddH_D2D2D0_sym, dddH_D2D2D1_sym, dddH_D0D2D1_sym, dddH_D1D2D0_sym]
  ring


theorem ddk0_D1D2_at0 (P : Par) (q : Pt) (hR : 0 < R P q) : HasDerivAt (line (ddk0_D1D2 P) 0 q) (dddk0_D1D2D0 P q) (q 0) := by
  have hc : ∀ c : ℝ, HasDerivAt (fun _ => c) 0 (q 0) := fun c => hasDerivAt_const _ c
  have h_ddK0_D1D2 := ddK0_D1D2_at0 P q hR
  have h_ddK1_D1D2 := ddK1_D1D2_at0 P q hR
  have h_ddK2_D1D2 := ddK2_D1D2_at0 P q hR
  have key := (((hc ((√(1 - P.B2))⁻¹)).mul ((((hc (-(P.Bx * P.By * (√(1 - P.B2) - 1) * Real.cos P.phiz + (P.B2 * √(1 - P.B2) + P.Bx ^ 2 * (1 - √(1 - P.B2))) * Real.sin
    P.phiz))).mul h_ddK1_D1D2).add ((hc (P.Bx * P.Bz * (√(1 - P.B2) - 1) * Real.sin P.phiy + ((-P.Bx) * P.By * (√(1 - P.B2) - 1) * Real.sin P.phiz + (P.B2 * √(1 - P.B2) +
    P.Bx ^ 2 * (1 - √(1 - P.B2))) * Real.cos P.phiz) * Real.cos P.phiy)).mul h_ddK0_D1D2)).sub ((hc (P.Bx * P.Bz * (√(1 - P.B2) - 1) * Real.cos P.phiy + (P.Bx * P.By *
    (√(1 - P.B2) - 1) * Real.sin P.phiz + ((-P.B2) * √(1 - P.B2) + P.Bx ^ 2 * (√(1 - P.B2) - 1)) * Real.cos P.phiz) * Real.sin P.phiy)).mul h_ddK2_D1D2))).div_const
    (P.B2))
  refine key.congr_deriv ?_
  simp only [Pi.add_apply, Pi.sub_apply, Pi.neg_apply, Pi.mul_apply, Pi.pow_apply, Pi.div_apply, line_at]
  unfold dddk0_D1D2D0
  try simp only [Nat.cast_ofNat, Nat.reduceSub, pow_one]
  try simp only [dddK0_D0D1D0_sym, dddK0_D0D2D0_sym, dddK0_D1D1D0_sym, dddK0_D1D2D1_sym, dddK0_D2D2D0_sym, dddK0_D2D2D1_sym, dddK0_D0D2D1_sym, dddK0_D1D2D0_sym, dddK1_D0D1D0_sym, dddK1_D0D2D0_sym, dddK1_D1D1D0_sym, dddK1_D1D2D1_sym, dddK1_D2D2D0_sym, dddK1_D2D2D1_sym, dddK1_D0D2D1_sym, dddK1_D1D2D0_sym, dddK2_D0D1D0_sym, dddK2_D0D2D0_sym, dddK2_D1D1D0_sym, dddK2_D1D2D1_sym, dddK2_D2D2D0_sym, dddK2_D2D2D1_sym, dddK2_D0D2D1_sym, dddK2_D1D2D0_sym, dddH_D0D1D0_sym, dddH_D0D2D0_sym, dddH_D1D1D0_sym, dddH_D1D2D1_sym, dddH_D2D2D0_sym, dddH_D2D2D1_sym, dddH_D0D2D1_sym, dddH_D1D2D0_sym]
  ring


theorem ddk0_D1D2_at1 (P : Par) (q : Pt) (hR : 0 < R P q) : HasDerivAt (line (ddk0_D1D2 P) 1 q) (dddk0_D1D2D1 P q) (q 1) := by
  have hc : ∀ c : ℝ, HasDerivAt (fun _ => c) 0 (q 1) := fun c => hasDerivAt_const _ c
  have h_ddK0_D1D2 := ddK0_D1D2_at1 P q hR
  have h_ddK1_D1D2 := ddK1_D1D2_at1 P q hR
  have h_ddK2_D1D2 := ddK2_D1D2_at1 P q hR
  have key := (((hc ((√(1 - P.B2))⁻¹)).mul ((((hc (-(P.Bx * P.By * (√(1 - P.B2) - 1) * Real.cos P.phiz + (P.B2 * √(1 - P.B2) + P.Bx ^ 2 * (1 - √(1 - P.B2))) * Real.sin
    P.phiz))).mul h_ddK1_D1D2).add ((hc (P.Bx * P.Bz * (√(1 - P.B2) - 1) * Real.sin P.phiy + ((-P.Bx) * P.By * (√(1 - P.B2) - 1) * Real.sin P.phiz + (P.B2 * √(1 - P.B2) +
    P.Bx ^ 2 * (1 - √(1 - P.B2))) * Real.cos P.phiz) * Real.cos P.phiy)).mul h_ddK0_D1D2)).sub ((hc (P.Bx * P.Bz * (√(1 - P.B2) - 1) * Real.cos P.phiy + (P.Bx * P.By *
    (√(1 - P.B2) - 1) * Real.sin P.phiz + ((-P.B2) * √(1 - P.B2) + P.Bx ^ 2 * (√(1 - P.B2) - 1)) * Real.cos P.phiz) * Real.sin P.phiy)).mul h_ddK2_D1D2))).div_const
    (P.B2))
  refine key.congr_deriv ?_
  simp only [Pi.add_apply, Pi.sub_apply, Pi.neg_apply, Pi.mul_apply, Pi.pow_apply, Pi.div_apply, line_at]
  unfold dddk0_D1D2D1
  try simp only [Nat.cast_ofNat, Nat.reduceSub, pow_one]
  try simp only [dddK0_D0D1D0_sym, dddK0_D0D2D0_sym, dddK0_D1D1D0_sym, dddK0_D1D2D1_sym, dddK0_D2D2D0_sym, dddK0_D2D2D1_sym, dddK0_D0D2D1_sym, dddK0_D1D2D0_sym, dddK1_D0D1D0_sym, dddK1_D0D2D0_sym, dddK1_D1D1D0_sym, dddK1_D1D2D1_sym, dddK1_D2D2D0_sym, dddK1_D2D2D1_sym, dddK1_D0D2D1_sym, dddK1_D1D2D0_sym, dddK2_D0D1D0_sym, dddK2_D0D2D0_sym, dddK2_D1D1D0_sym, dddK2_D1D2D1_sym, dddK2_D2D2D0_sym, dddK2_D2D2D1_sym, dddK2_D0D2D1_sym, dddK2_D1D2D0_sym, dddH_D0D1D0_sym, dddH_D0D2D0_sym, dddH_D1D1D0_sym, dddH_D1D2D1_sym, dddH_D2D2D0_sym, dddH_D2D2D1_sym, dddH_D0D2D1_sym, dddH_D1D2D0_sym]
  ring


theorem ddk0_D1D2_at2 (P : Par) (q : Pt) (hR : 0 < R P q) : HasDerivAt (line (ddk0_D1D2 P) 2 q) (dddk0_D1D2D2 P q) (q 2) := by
  have hc : ∀ c : ℝ, HasDerivAt (fun _ => c) 0 (q 2) := fun c => hasDerivAt_const _ c
  have h_ddK0_D1D2 := ddK0_D1D2_at2 P q hR
  have h_ddK1_D1D2 := ddK1_D1D2_at2 P q hR
  have h_ddK2_D1D2 := ddK2_D1D2_at2 P q hR
  have key := (((hc ((√(1 - P.B2))⁻¹)).mul ((((hc (-(P.Bx * P.By * (√(1 - P.B2) - 1) * Real.cos P.phiz + (P.B2 * √(1 - P.B2) + P.Bx ^ 2 * (1 - √(1 - P.B2))) * Real.sin
    P.phiz))).mul h_ddK1_D1D2).add ((hc (P.Bx * P.Bz * (√(1 - P.B2) - 1) * Real.sin P.phiy + ((-P.Bx) * P.By * (√(1 - P.B2) - 1) * Real.sin P.phiz + (P.B2 * √(1 - P.B2) +
    P.Bx ^ 2 * (1 - √(1 - P.B2))) * Real.cos P.phiz) * Real.cos P.phiy)).mul h_ddK0_D1D2)).sub ((hc (P.Bx * P.Bz * (√(1 - P.B2) - 1) * Real.cos P.phiy + (P.Bx * P.By *
    (√(1 - P.B2) - 1) * Real.sin P.phiz + ((-P.B2) * √(1 - P.B2) + P.Bx ^ 2 * (√(1 - P.B2) - 1)) * Real.cos P.phiz) * Real.sin P.phiy)).mul h_ddK2_D1D2))).div_const
    (P.B2))
  refine key.congr_deriv ?_
  simp only [Pi.add_apply, Pi.sub_apply, Pi.neg_apply, Pi.mul_apply, Pi.pow_apply, Pi.div_apply, line_at]
  unfold dddk0_D1D2D2
  try simp only [Nat.cast_ofNat, Nat.reduceSub, pow_one]
  try simp only [dddK0_D0D1D0_sym, dddK0_D0D2D0_sym, dddK0_D1D1D0_sym, dddK0_D1D2D1_sym, dddK0_D2D2D0_sym, dddK0_D2D2D1_sym, dddK0_D0D2D1_sym, dddK0_D1D2D0_sym, dddK1_D0D1D0_sym, dddK1_D0D2D0_sym, dddK1_D1D1D0_sym, dddK1_D1D2D1_sym, dddK1_D2D2D0_sym, dddK1_D2D2D1_sym, dddK1_D0D2D1_sym, dddK1_D1D2D0_sym, dddK2_D0D1D0_sym, dddK2_D0D2D0_sym, dddK2_D1D1D0_sym, dddK2_D1D2D1_sym, dddK2_D2D2D0_sym, dddK2_D2D2D1_sym, dddK2_D0D2D1_sym, dddK2_D1D2D0_sym, dddH_D0D1D0_sym, dddH_D0D2D0_sym, dddH_D1D1D0_sym, dddH_D1D2D1_sym, dddH_D2D2D0_sym, dddH_D2D2D1_sym, dddH_D0D2D1_sym, dddH_D1D2D0_sym]
  ring


theorem ddk0_D2D2_at0 (P : Par) (q : Pt) (hR : 0 < R P q) : HasDerivAt (line (ddk0_D2D2 P) 0 q) (dddk0_D2D2D0 P q) (q 0) := by
  have hc : ∀ c : ℝ, HasDerivAt (fun _ => c) 0 (q 0) := fun c => hasDerivAt_const _ c
  have h_ddK0_D2D2 := ddK0_D2D2_at0 P q hR
  have h_ddK1_D2D2 := ddK1_D2D2_at0 P q hR
  have h_ddK2_D2D2 := ddK2_D2D2_at0 P q hR
  have key := (((hc ((√(1 - P.B2))⁻¹)).mul ((((hc (-(P.Bx * P.By * (√(1 - P.B2) - 1) * Real.cos P.phiz + (P.B2 * √(1 - P.B2) + P.Bx ^ 2 * (1 - √(1 - P.B2))) * Real.sin
    P.phiz))).mul h_ddK1_D2D2).add ((hc (P.Bx * P.Bz * (√(1 - P.B2) - 1) * Real.sin P.phiy + ((-P.Bx) * P.By * (√(1 - P.B2) - 1) * Real.sin P.phiz + (P.B2 * √(1 - P.B2) +
    P.Bx ^ 2 * (1 - √(1 - P.B2))) * Real.cos P.phiz) * Real.cos P.phiy)).mul h_ddK0_D2D2)).sub ((hc (P.Bx * P.Bz * (√(1 - P.B2) - 1) * Real.cos P.phiy + (P.Bx * P.By *
    (√(1 - P.B2) - 1) * Real.sin P.phiz + ((-P.B2) * √(1 - P.B2) + P.Bx ^ 2 * (√(1 - P.B2) - 1)) * Real.cos P.phiz) * Real.sin P.phiy)).mul h_ddK2_D2D2))).div_const
    (P.B2))
  refine key.congr_deriv ?_
  simp only [Pi.add_apply, Pi.sub_apply, Pi.neg_apply, Pi.mul_apply, Pi.pow_apply, Pi.div_apply, line_at]
  unfold dddk0_D2D2D0
  try simp only [Nat.cast_ofNat, Nat.reduceSub, pow_one]
  try simp only [dddK0_D0D1D0_sym, dddK0_D0D2D0_sym, dddK0_D1D1D0_sym, dddK0_D1D2D1_sym, dddK0_D2D2D0_sym, dddK0_D2D2D1_sym, dddK0_D0D2D1_sym, dddK0_D1D2D0_sym, dddK1_D0D1D0_sym, dddK1_D0D2D0_sym, dddK1_D1D1D0_sym, dddK1_D1D2D1_sym, dddK1_D2D2D0_sym, dddK1_D2D2D1_sym, dddK1_D0D2D1_sym, dddK1_D1D2D0_sym, dddK2_D0D1D0_sym, dddK2_D0D2D0_sym, dddK2_D1D1D0_sym, dddK2_D1D2D1_sym, dddK2_D2D2D0_sym, dddK2_D2D2D1_sym, dddK2_D0D2D1_sym, dddK2_D1D2D0_sym, dddH_D0D1D0_sym, dddH_D0D2D0_sym, dddH_D1D1D0_sym, dddH_D1D2D1_sym, dddH_D2D2D0_sym, dddH_D2D2D1_sym, dddH_D0D2D1_sym, dddH_D1D2D0_sym]
  ring


theorem ddk0_D2D2_at1 (P : Par) (q : Pt) (hR : 0 < R P q) : HasDerivAt (line (ddk0_D2D2 P) 1 q) (dddk0_D2D2D1 P q) (q 1) := by
  have hc : ∀ c : ℝ, HasDerivAt (fun _ => c) 0 (q 1) := fun c => hasDerivAt_const _ c
  have h_ddK0_D2D2 := ddK0_D2D2_at1 P q hR
  have h_ddK1_D2D2 := ddK1_D2D2_at1 P q hR
  have h_ddK2_D2D2 := ddK2_D2D2_at1 P q hR
  have key := (((hc ((√(1 - P.B2))⁻¹)).mul ((((hc (-(P.Bx * P.By * (√(1 - P.B2) - 1) * Real.cos P.phiz + (P.B2 * √(1 - P.B2) + P.Bx ^ 2 * (1 - √(1 - P.B2))) * Real.sin
    P.phiz))).mul h_ddK1_D2D2).add ((hc (P.Bx * P.Bz * (√(1 - P.B2) - 1) * Real.sin P.phiy + ((-P.Bx) * P.By * (√(1 - P.B2) - 1) * Real.sin P.phiz + (P.B2 * √(1 - P.B2) +
    P.Bx ^ 2 * (1 - √(1 - P.B2))) * Real.cos P.phiz) * Real.cos P.phiy)).mul h_ddK0_D2D2)).sub ((hc (P.Bx * P.Bz * (√(1 - P.B2) - 1) * Real.cos P.phiy + (P.Bx * P.By *
    (√(1 - P.B2) - 1) * Real.sin P.phiz + ((-P.B2) * √(1 - P.B2) + P.Bx ^ 2 * (√(1 - P.B2) - 1)) * Real.cos P.phiz) * Real.sin P.phiy)).mul h_ddK2_D2D2))).div_const
    (P.B2))
  refine key.congr_deriv ?_
  simp only [Pi.add_apply, Pi.sub_apply, Pi.neg_apply, Pi.mul_apply, Pi.pow_apply, Pi.div_apply, line_at]
  unfold dddk0_D2D2D1
  try simp only [Nat.cast_ofNat, Nat.reduceSub, pow_one]
  try simp only [dddK0_D0D1D0_sym, dddK0_D0D2D0_sym, dddK0_D1D1D0_sym, dddK0_D1D2D1_sym, dddK0_D2D2D0_sym, dddK0_D2D2D1_sym, dddK0_D0D2D1_sym, dddK0_D1D2D0_sym, dddK1_D0D1D0_sym, dddK1_D0D2D0_sym, dddK1_D1D1D0_sym, dddK1_D1D2D1_sym, dddK1_D2D2D0_sym, dddK1_D2D2D1_sym, dddK1_D0D2D1_sym, dddK1_D1D2D0_sym, dddK2_D0D1D0_sym, dddK2_D0D2D0_sym, dddK2_D1D1D0_sym, dddK2_D1D2D1_sym, dddK2_D2D2D0_sym, dddK2_D2D2D1_sym, dddK2_D0D2D1_sym, dddK2_D1D2D0_sym, dddH_D0D1D0_sym, dddH_D0D2D0_sym, dddH_D1D1D0_sym, dddH_D1D2D1_sym, dddH_D2D2D0_sym, dddH_D2D2D1_sym, dddH_D0D2D1_sym, dddH_D1D2D0_sym]
  ring


theorem ddk0_D2D2_at2 (P : Par) (q : Pt) (hR : 0 < R P q) : HasDerivAt (line (ddk0_D2D2 P) 2 q) (dddk0_D2D2D2 P q) (q 2) := by
  have hc : ∀ c : ℝ, HasDerivAt (fun _ => c) 0 (q 2) := fun c => hasDerivAt_const _ c
  have h_ddK0_D2D2 := ddK0_D2D2_at2 P q hR
  have h_ddK1_D2D2 := ddK1_D2D2_at2 P q hR
  have h_ddK2_D2D2 := ddK2_D2D2_at2 P q hR
  have key := (((hc ((√(1 - P.B2))⁻¹)).mul ((((hc (-(P.Bx * P.By * (√(1 - P.B2) - 1) * Real.cos P.phiz + (P.B2 * √(1 - P.B2) + P.Bx ^ 2 * (1 - √(1 - P.B2))) * Real.sin
    P.phiz))).mul h_ddK1_D2D2).add ((hc (P.Bx * P.Bz * (√(1 - P.B2) - 1) * Real.sin P.phiy + ((-P.Bx) * P.By * (√(1 - P.B2) - 1) * Real.sin P.phiz + (P.B2 * √(1 - P.B2) +
    P.Bx ^ 2 * (1 - √(1 - P.B2))) * Real.cos P.phiz) * Real.cos P.phiy)).mul h_ddK0_D2D2)).sub ((hc (P.Bx * P.Bz * (√(1 - P.B2) - 1) * Real.cos P.phiy + (P.Bx * P.By *
    (√(1 - P.B2) - 1) * Real.sin P.phiz + ((-P.B2) * √(1 - P.B2) + P.Bx ^ 2 * (√(1 - P.B2) - 1)) * Real.cos P.phiz) * Real.sin P.phiy)).mul h_ddK2_D2D2))).div_const
    (P.B2))
  refine key.congr_deriv ?_
  simp only [Pi.add_apply, Pi.sub_apply, Pi.neg_apply, Pi.mul_apply, Pi.pow_apply, Pi.div_apply, line_at]
  unfold dddk0_D2D2D2
  try simp only [Nat.cast_ofNat, Nat.reduceSub, pow_one]
  try simp only [dddK0_D0D1D0_sym, dddK0_D0D2D0_sym, dddK0_D1D1D0_sym, dddK0_D1D2D1_sym, dddK0_D2D2D0_sym, dddK0_D2D2D1_sym, dddK0_D0D2D1_sym, dddK0_D1D2D0_sym, dddK1_D0D1D0_sym, dddK1_D0D2D0_sym, dddK1_D1D1D0_sym, dddK1_D1D2D1_sym, dddK1_D2D2D0_sym, dddK1_D2D2D1_sym, dddK1_D0D2D1_sym, dddK1_D1D2D0_sym, dddK2_D0D1D0_sym, dddK2_D0D2D0_sym, dddK2_D1D1D0_sym, dddK2_D1D2D1_sym, dddK2_D2D2D0_sym, dddK2_D2D2D1_sym, dddK2_D0D2D1_sym, dddK2_D1D2D0_sym, dddH_D0D1D0_sym, dddH_D0D2D0_sym, dddH_D1D1D0_sym, dddH_D1D2D1_sym, dddH_D2D2D0_sym, dddH_D2D2D1_sym, dddH_D0D2D1_sym, dddH_D1D2D0_sym]
  ring


end Elliptica.Ks
