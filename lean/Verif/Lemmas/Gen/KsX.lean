import Verif.Model.Gen.KsR
import Mathlib.Analysis.Calculus.Deriv.Mul
import Mathlib.Analysis.Calculus.Deriv.Comp
import Mathlib.Analysis.Calculus.Deriv.Pow
import Mathlib.Analysis.Calculus.Deriv.Inv
import Mathlib.Analysis.Calculus.Deriv.Add
import Mathlib.Analysis.SpecialFunctions.Sqrt
import Mathlib.Tactic.FieldSimp
import Mathlib.Tactic.Ring
import Mathlib.Tactic.Positivity
/-!
Generated by tools/gen_ks.py: each listed derivative is the derivative of the function it belongs to.
-/
namespace Elliptica.Ks
open Elliptica.Fields

set_option linter.unusedVariables false
set_option linter.unusedSimpArgs false
set_option linter.unusedTactic false
set_option linter.unreachableTactic false

/-- denominators do not vanish -/
macro "ks_ne" : tactic => `(tactic| (simp only [Pi.add_apply, Pi.sub_apply, Pi.neg_apply, Pi.mul_apply, Pi.pow_apply, Pi.div_apply, line_at]; positivity))

theorem div_one_at {f T : ℝ → ℝ} {f' T' x : ℝ} (hf : HasDerivAt f f' x) (hT : HasDerivAt T T' x) (h : T x ≠ 0) :
    HasDerivAt (fun t => f t / T t) (f' * (T x)⁻¹ - f x * T' * (T x)⁻¹ ^ 2) x := by
  refine (hf.div hT h).congr_deriv ?_
  field_simp

theorem div_pow_at {f T : ℝ → ℝ} {f' T' x : ℝ} (k : ℕ) (hf : HasDerivAt f f' x) (hT : HasDerivAt T T' x) (h : T x ≠ 0) :
    HasDerivAt (fun t => f t / T t ^ (k + 1)) (f' * (T x)⁻¹ ^ (k + 1) - (k + 1) * f x * T' * (T x)⁻¹ ^ (k + 2)) x := by
  refine (hf.div (hT.pow (k + 1)) (pow_ne_zero _ h)).congr_deriv ?_
  simp only [Pi.pow_apply, Nat.add_sub_cancel, Nat.cast_add, Nat.cast_one, inv_pow]
  field_simp
  ring

theorem X_lin (P : Par) (q : Pt) : X P q = dX_D0 P q * q 0 + dX_D1 P q * q 1 + dX_D2 P q * q 2 := by
  unfold X dX_D0 dX_D1 dX_D2; ring

theorem X_at0 (P : Par) (q : Pt) : HasDerivAt (line (X P) 0 q) (dX_D0 P q) (q 0) := by
  have e : line (X P) 0 q = fun t => dX_D0 P q * t + dX_D1 P q * q 1 + dX_D2 P q * q 2 := by
    funext t
    unfold line
    rw [X_lin]
    rfl
  rw [e]
  have hc : ∀ c : ℝ, HasDerivAt (fun _ => c) 0 (q 0) := fun c => hasDerivAt_const _ c
  refine ((((hasDerivAt_id (q 0)).const_mul (dX_D0 P q)).add (hc (dX_D1 P q * q 1))).add (hc (dX_D2 P q * q 2))).congr_deriv ?_
  simp

theorem X_at1 (P : Par) (q : Pt) : HasDerivAt (line (X P) 1 q) (dX_D1 P q) (q 1) := by
  have e : line (X P) 1 q = fun t => dX_D0 P q * q 0 + dX_D1 P q * t + dX_D2 P q * q 2 := by
    funext t
    unfold line
    rw [X_lin]
    rfl
  rw [e]
  have hc : ∀ c : ℝ, HasDerivAt (fun _ => c) 0 (q 1) := fun c => hasDerivAt_const _ c
  refine (((hc (dX_D0 P q * q 0)).add ((hasDerivAt_id (q 1)).const_mul (dX_D1 P q))).add (hc (dX_D2 P q * q 2))).congr_deriv ?_
  simp

theorem X_at2 (P : Par) (q : Pt) : HasDerivAt (line (X P) 2 q) (dX_D2 P q) (q 2) := by
  have e : line (X P) 2 q = fun t => dX_D0 P q * q 0 + dX_D1 P q * q 1 + dX_D2 P q * t := by
    funext t
    unfold line
    rw [X_lin]
    rfl
  rw [e]
  have hc : ∀ c : ℝ, HasDerivAt (fun _ => c) 0 (q 2) := fun c => hasDerivAt_const _ c
  refine (((hc (dX_D0 P q * q 0)).add (hc (dX_D1 P q * q 1))).add ((hasDerivAt_id (q 2)).const_mul (dX_D2 P q))).congr_deriv ?_
  simp

theorem dX_D0_at0 (P : Par) (q : Pt) : HasDerivAt (line (dX_D0 P) 0 q) (ddX_D0D0 P q) (q 0) := hasDerivAt_const _ _

theorem dX_D0_at1 (P : Par) (q : Pt) : HasDerivAt (line (dX_D0 P) 1 q) (ddX_D0D1 P q) (q 1) := hasDerivAt_const _ _

theorem dX_D0_at2 (P : Par) (q : Pt) : HasDerivAt (line (dX_D0 P) 2 q) (ddX_D0D2 P q) (q 2) := hasDerivAt_const _ _

theorem dX_D1_at0 (P : Par) (q : Pt) : HasDerivAt (line (dX_D1 P) 0 q) (ddX_D0D1 P q) (q 0) := hasDerivAt_const _ _

theorem dX_D1_at1 (P : Par) (q : Pt) : HasDerivAt (line (dX_D1 P) 1 q) (ddX_D1D1 P q) (q 1) := hasDerivAt_const _ _

theorem dX_D1_at2 (P : Par) (q : Pt) : HasDerivAt (line (dX_D1 P) 2 q) (ddX_D1D2 P q) (q 2) := hasDerivAt_const _ _

theorem dX_D2_at0 (P : Par) (q : Pt) : HasDerivAt (line (dX_D2 P) 0 q) (ddX_D0D2 P q) (q 0) := hasDerivAt_const _ _

theorem dX_D2_at1 (P : Par) (q : Pt) : HasDerivAt (line (dX_D2 P) 1 q) (ddX_D1D2 P q) (q 1) := hasDerivAt_const _ _

theorem dX_D2_at2 (P : Par) (q : Pt) : HasDerivAt (line (dX_D2 P) 2 q) (ddX_D2D2 P q) (q 2) := hasDerivAt_const _ _

theorem ddX_D0D0_at0 (P : Par) (q : Pt) : HasDerivAt (line (ddX_D0D0 P) 0 q) (dddX_D0D0D0 P q) (q 0) := hasDerivAt_const _ _

theorem ddX_D0D0_at1 (P : Par) (q : Pt) : HasDerivAt (line (ddX_D0D0 P) 1 q) (dddX_D0D0D1 P q) (q 1) := hasDerivAt_const _ _

theorem ddX_D0D0_at2 (P : Par) (q : Pt) : HasDerivAt (line (ddX_D0D0 P) 2 q) (dddX_D0D0D2 P q) (q 2) := hasDerivAt_const _ _

theorem ddX_D0D1_at0 (P : Par) (q : Pt) : HasDerivAt (line (ddX_D0D1 P) 0 q) (dddX_D0D1D0 P q) (q 0) := hasDerivAt_const _ _

theorem ddX_D0D1_at1 (P : Par) (q : Pt) : HasDerivAt (line (ddX_D0D1 P) 1 q) (dddX_D0D1D1 P q) (q 1) := hasDerivAt_const _ _

theorem ddX_D0D1_at2 (P : Par) (q : Pt) : HasDerivAt (line (ddX_D0D1 P) 2 q) (dddX_D0D1D2 P q) (q 2) := hasDerivAt_const _ _

theorem ddX_D0D2_at0 (P : Par) (q : Pt) : HasDerivAt (line (ddX_D0D2 P) 0 q) (dddX_D0D2D0 P q) (q 0) := hasDerivAt_const _ _

theorem ddX_D0D2_at1 (P : Par) (q : Pt) : HasDerivAt (line (ddX_D0D2 P) 1 q) (dddX_D0D2D1 P q) (q 1) := hasDerivAt_const _ _

theorem ddX_D0D2_at2 (P : Par) (q : Pt) : HasDerivAt (line (ddX_D0D2 P) 2 q) (dddX_D0D2D2 P q) (q 2) := hasDerivAt_const _ _

theorem ddX_D1D1_at0 (P : Par) (q : Pt) : HasDerivAt (line (ddX_D1D1 P) 0 q) (dddX_D1D1D0 P q) (q 0) := hasDerivAt_const _ _

theorem ddX_D1D1_at1 (P : Par) (q : Pt) : HasDerivAt (line (ddX_D1D1 P) 1 q) (dddX_D1D1D1 P q) (q 1) := hasDerivAt_const _ _

theorem ddX_D1D1_at2 (P : Par) (q : Pt) : HasDerivAt (line (ddX_D1D1 P) 2 q) (dddX_D1D1D2 P q) (q 2) := hasDerivAt_const _ _

theorem ddX_D1D2_at0 (P : Par) (q : Pt) : HasDerivAt (line (ddX_D1D2 P) 0 q) (dddX_D1D2D0 P q) (q 0) := hasDerivAt_const _ _

theorem ddX_D1D2_at1 (P : Par) (q : Pt) : HasDerivAt (line (ddX_D1D2 P) 1 q) (dddX_D1D2D1 P q) (q 1) := hasDerivAt_const _ _

theorem ddX_D1D2_at2 (P : Par) (q : Pt) : HasDerivAt (line (ddX_D1D2 P) 2 q) (dddX_D1D2D2 P q) (q 2) := hasDerivAt_const _ _

theorem ddX_D2D2_at0 (P : Par) (q : Pt) : HasDerivAt (line (ddX_D2D2 P) 0 q) (dddX_D2D2D0 P q) (q 0) := hasDerivAt_const _ _

theorem ddX_D2D2_at1 (P : Par) (q : Pt) : HasDerivAt (line (ddX_D2D2 P) 1 q) (dddX_D2D2D1 P q) (q 1) := hasDerivAt_const _ _

theorem ddX_D2D2_at2 (P : Par) (q : Pt) : HasDerivAt (line (ddX_D2D2 P) 2 q) (dddX_D2D2D2 P q) (q 2) := hasDerivAt_const _ _

theorem Y_lin (P : Par) (q : Pt) : Y P q = dY_D0 P q * q 0 + dY_D1 P q * q 1 + dY_D2 P q * q 2 := by
  unfold Y dY_D0 dY_D1 dY_D2; ring

theorem Y_at0 (P : Par) (q : Pt) : HasDerivAt (line (Y P) 0 q) (dY_D0 P q) (q 0) := by
  have e : line (Y P) 0 q = fun t => dY_D0 P q * t + dY_D1 P q * q 1 + dY_D2 P q * q 2 := by
    funext t
    unfold line
    rw [Y_lin]
    rfl
  rw [e]
  have hc : ∀ c : ℝ, HasDerivAt (fun _ => c) 0 (q 0) := fun c => hasDerivAt_const _ c
  refine ((((hasDerivAt_id (q 0)).const_mul (dY_D0 P q)).add (hc (dY_D1 P q * q 1))).add (hc (dY_D2 P q * q 2))).congr_deriv ?_
  simp

theorem Y_at1 (P : Par) (q : Pt) : HasDerivAt (line (Y P) 1 q) (dY_D1 P q) (q 1) := by
  have e : line (Y P) 1 q = fun t => dY_D0 P q * q 0 + dY_D1 P q * t + dY_D2 P q * q 2 := by
    funext t
    unfold line
    rw [Y_lin]
    rfl
  rw [e]
  have hc : ∀ c : ℝ, HasDerivAt (fun _ => c) 0 (q 1) := fun c => hasDerivAt_const _ c
  refine (((hc (dY_D0 P q * q 0)).add ((hasDerivAt_id (q 1)).const_mul (dY_D1 P q))).add (hc (dY_D2 P q * q 2))).congr_deriv ?_
  simp

theorem Y_at2 (P : Par) (q : Pt) : HasDerivAt (line (Y P) 2 q) (dY_D2 P q) (q 2) := by
  have e : line (Y P) 2 q = fun t => dY_D0 P q * q 0 + dY_D1 P q * q 1 + dY_D2 P q * t := by
    funext t
    unfold line
    rw [Y_lin]
    rfl
  rw [e]
  have hc : ∀ c : ℝ, HasDerivAt (fun _ => c) 0 (q 2) := fun c => hasDerivAt_const _ c
  refine (((hc (dY_D0 P q * q 0)).add (hc (dY_D1 P q * q 1))).add ((hasDerivAt_id (q 2)).const_mul (dY_D2 P q))).congr_deriv ?_
  simp

theorem dY_D0_at0 (P : Par) (q : Pt) : HasDerivAt (line (dY_D0 P) 0 q) (ddY_D0D0 P q) (q 0) := hasDerivAt_const _ _

theorem dY_D0_at1 (P : Par) (q : Pt) : HasDerivAt (line (dY_D0 P) 1 q) (ddY_D0D1 P q) (q 1) := hasDerivAt_const _ _

theorem dY_D0_at2 (P : Par) (q : Pt) : HasDerivAt (line (dY_D0 P) 2 q) (ddY_D0D2 P q) (q 2) := hasDerivAt_const _ _

theorem dY_D1_at0 (P : Par) (q : Pt) : HasDerivAt (line (dY_D1 P) 0 q) (ddY_D0D1 P q) (q 0) := hasDerivAt_const _ _

theorem dY_D1_at1 (P : Par) (q : Pt) : HasDerivAt (line (dY_D1 P) 1 q) (ddY_D1D1 P q) (q 1) := hasDerivAt_const _ _

theorem dY_D1_at2 (P : Par) (q : Pt) : HasDerivAt (line (dY_D1 P) 2 q) (ddY_D1D2 P q) (q 2) := hasDerivAt_const _ _

theorem dY_D2_at0 (P : Par) (q : Pt) : HasDerivAt (line (dY_D2 P) 0 q) (ddY_D0D2 P q) (q 0) := hasDerivAt_const _ _

theorem dY_D2_at1 (P : Par) (q : Pt) : HasDerivAt (line (dY_D2 P) 1 q) (ddY_D1D2 P q) (q 1) := hasDerivAt_const _ _

theorem dY_D2_at2 (P : Par) (q : Pt) : HasDerivAt (line (dY_D2 P) 2 q) (ddY_D2D2 P q) (q 2) := hasDerivAt_const _ _

theorem ddY_D0D0_at0 (P : Par) (q : Pt) : HasDerivAt (line (ddY_D0D0 P) 0 q) (dddY_D0D0D0 P q) (q 0) := hasDerivAt_const _ _

theorem ddY_D0D0_at1 (P : Par) (q : Pt) : HasDerivAt (line (ddY_D0D0 P) 1 q) (dddY_D0D0D1 P q) (q 1) := hasDerivAt_const _ _

theorem ddY_D0D0_at2 (P : Par) (q : Pt) : HasDerivAt (line (ddY_D0D0 P) 2 q) (dddY_D0D0D2 P q) (q 2) := hasDerivAt_const _ _

theorem ddY_D0D1_at0 (P : Par) (q : Pt) : HasDerivAt (line (ddY_D0D1 P) 0 q) (dddY_D0D1D0 P q) (q 0) := hasDerivAt_const _ _

theorem ddY_D0D1_at1 (P : Par) (q : Pt) : HasDerivAt (line (ddY_D0D1 P) 1 q) (dddY_D0D1D1 P q) (q 1) := hasDerivAt_const _ _

theorem ddY_D0D1_at2 (P : Par) (q : Pt) : HasDerivAt (line (ddY_D0D1 P) 2 q) (dddY_D0D1D2 P q) (q 2) := hasDerivAt_const _ _

theorem ddY_D0D2_at0 (P : Par) (q : Pt) : HasDerivAt (line (ddY_D0D2 P) 0 q) (dddY_D0D2D0 P q) (q 0) := hasDerivAt_const _ _

theorem ddY_D0D2_at1 (P : Par) (q : Pt) : HasDerivAt (line (ddY_D0D2 P) 1 q) (dddY_D0D2D1 P q) (q 1) := hasDerivAt_const _ _

theorem ddY_D0D2_at2 (P : Par) (q : Pt) : HasDerivAt (line (ddY_D0D2 P) 2 q) (dddY_D0D2D2 P q) (q 2) := hasDerivAt_const _ _

theorem ddY_D1D1_at0 (P : Par) (q : Pt) : HasDerivAt (line (ddY_D1D1 P) 0 q) (dddY_D1D1D0 P q) (q 0) := hasDerivAt_const _ _

theorem ddY_D1D1_at1 (P : Par) (q : Pt) : HasDerivAt (line (ddY_D1D1 P) 1 q) (dddY_D1D1D1 P q) (q 1) := hasDerivAt_const _ _

theorem ddY_D1D1_at2 (P : Par) (q : Pt) : HasDerivAt (line (ddY_D1D1 P) 2 q) (dddY_D1D1D2 P q) (q 2) := hasDerivAt_const _ _

theorem ddY_D1D2_at0 (P : Par) (q : Pt) : HasDerivAt (line (ddY_D1D2 P) 0 q) (dddY_D1D2D0 P q) (q 0) := hasDerivAt_const _ _

theorem ddY_D1D2_at1 (P : Par) (q : Pt) : HasDerivAt (line (ddY_D1D2 P) 1 q) (dddY_D1D2D1 P q) (q 1) := hasDerivAt_const _ _

theorem ddY_D1D2_at2 (P : Par) (q : Pt) : HasDerivAt (line (ddY_D1D2 P) 2 q) (dddY_D1D2D2 P q) (q 2) := hasDerivAt_const _ _

theorem ddY_D2D2_at0 (P : Par) (q : Pt) : HasDerivAt (line (ddY_D2D2 P) 0 q) (dddY_D2D2D0 P q) (q 0) := hasDerivAt_const _ _

theorem ddY_D2D2_at1 (P : Par) (q : Pt) : HasDerivAt (line (ddY_D2D2 P) 1 q) (dddY_D2D2D1 P q) (q 1) := hasDerivAt_const _ _

theorem ddY_D2D2_at2 (P : Par) (q : Pt) : HasDerivAt (line (ddY_D2D2 P) 2 q) (dddY_D2D2D2 P q) (q 2) := hasDerivAt_const _ _

theorem Z_lin (P : Par) (q : Pt) : Z P q = dZ_D0 P q * q 0 + dZ_D1 P q * q 1 + dZ_D2 P q * q 2 := by
  unfold Z dZ_D0 dZ_D1 dZ_D2; ring

theorem Z_at0 (P : Par) (q : Pt) : HasDerivAt (line (Z P) 0 q) (dZ_D0 P q) (q 0) := by
  have e : line (Z P) 0 q = fun t => dZ_D0 P q * t + dZ_D1 P q * q 1 + dZ_D2 P q * q 2 := by
    funext t
    unfold line
    rw [Z_lin]
    rfl
  rw [e]
  have hc : ∀ c : ℝ, HasDerivAt (fun _ => c) 0 (q 0) := fun c => hasDerivAt_const _ c
  refine ((((hasDerivAt_id (q 0)).const_mul (dZ_D0 P q)).add (hc (dZ_D1 P q * q 1))).add (hc (dZ_D2 P q * q 2))).congr_deriv ?_
  simp

theorem Z_at1 (P : Par) (q : Pt) : HasDerivAt (line (Z P) 1 q) (dZ_D1 P q) (q 1) := by
  have e : line (Z P) 1 q = fun t => dZ_D0 P q * q 0 + dZ_D1 P q * t + dZ_D2 P q * q 2 := by
    funext t
    unfold line
    rw [Z_lin]
    rfl
  rw [e]
  have hc : ∀ c : ℝ, HasDerivAt (fun _ => c) 0 (q 1) := fun c => hasDerivAt_const _ c
  refine (((hc (dZ_D0 P q * q 0)).add ((hasDerivAt_id (q 1)).const_mul (dZ_D1 P q))).add (hc (dZ_D2 P q * q 2))).congr_deriv ?_
  simp

theorem Z_at2 (P : Par) (q : Pt) : HasDerivAt (line (Z P) 2 q) (dZ_D2 P q) (q 2) := by
  have e : line (Z P) 2 q = fun t => dZ_D0 P q * q 0 + dZ_D1 P q * q 1 + dZ_D2 P q * t := by
    funext t
    unfold line
    rw [Z_lin]
    rfl
  rw [e]
  have hc : ∀ c : ℝ, HasDerivAt (fun _ => c) 0 (q 2) := fun c => hasDerivAt_const _ c
  refine (((hc (dZ_D0 P q * q 0)).add (hc (dZ_D1 P q * q 1))).add ((hasDerivAt_id (q 2)).const_mul (dZ_D2 P q))).congr_deriv ?_
  simp

theorem dZ_D0_at0 (P : Par) (q : Pt) : HasDerivAt (line (dZ_D0 P) 0 q) (ddZ_D0D0 P q) (q 0) := hasDerivAt_const _ _

theorem dZ_D0_at1 (P : Par) (q : Pt) : HasDerivAt (line (dZ_D0 P) 1 q) (ddZ_D0D1 P q) (q 1) := hasDerivAt_const _ _

theorem dZ_D0_at2 (P : Par) (q : Pt) : HasDerivAt (line (dZ_D0 P) 2 q) (ddZ_D0D2 P q) (q 2) := hasDerivAt_const _ _

theorem dZ_D1_at0 (P : Par) (q : Pt) : HasDerivAt (line (dZ_D1 P) 0 q) (ddZ_D0D1 P q) (q 0) := hasDerivAt_const _ _

theorem dZ_D1_at1 (P : Par) (q : Pt) : HasDerivAt (line (dZ_D1 P) 1 q) (ddZ_D1D1 P q) (q 1) := hasDerivAt_const _ _

theorem dZ_D1_at2 (P : Par) (q : Pt) : HasDerivAt (line (dZ_D1 P) 2 q) (ddZ_D1D2 P q) (q 2) := hasDerivAt_const _ _

theorem dZ_D2_at0 (P : Par) (q : Pt) : HasDerivAt (line (dZ_D2 P) 0 q) (ddZ_D0D2 P q) (q 0) := hasDerivAt_const _ _

theorem dZ_D2_at1 (P : Par) (q : Pt) : HasDerivAt (line (dZ_D2 P) 1 q) (ddZ_D1D2 P q) (q 1) := hasDerivAt_const _ _

theorem dZ_D2_at2 (P : Par) (q : Pt) : HasDerivAt (line (dZ_D2 P) 2 q) (ddZ_D2D2 P q) (q 2) := hasDerivAt_const _ _

theorem ddZ_D0D0_at0 (P : Par) (q : Pt) : HasDerivAt (line (ddZ_D0D0 P) 0 q) (dddZ_D0D0D0 P q) (q 0) := hasDerivAt_const _ _

theorem ddZ_D0D0_at1 (P : Par) (q : Pt) : HasDerivAt (line (ddZ_D0D0 P) 1 q) (dddZ_D0D0D1 P q) (q 1) := hasDerivAt_const _ _

theorem ddZ_D0D0_at2 (P : Par) (q : Pt) : HasDerivAt (line (ddZ_D0D0 P) 2 q) (dddZ_D0D0D2 P q) (q 2) := hasDerivAt_const _ _

theorem ddZ_D0D1_at0 (P : Par) (q : Pt) : HasDerivAt (line (ddZ_D0D1 P) 0 q) (dddZ_D0D1D0 P q) (q 0) := hasDerivAt_const _ _

theorem ddZ_D0D1_at1 (P : Par) (q : Pt) : HasDerivAt (line (ddZ_D0D1 P) 1 q) (dddZ_D0D1D1 P q) (q 1) := hasDerivAt_const _ _

theorem ddZ_D0D1_at2 (P : Par) (q : Pt) : HasDerivAt (line (ddZ_D0D1 P) 2 q) (dddZ_D0D1D2 P q) (q 2) := hasDerivAt_const _ _

theorem ddZ_D0D2_at0 (P : Par) (q : Pt) : HasDerivAt (line (ddZ_D0D2 P) 0 q) (dddZ_D0D2D0 P q) (q 0) := hasDerivAt_const _ _

theorem ddZ_D0D2_at1 (P : Par) (q : Pt) : HasDerivAt (line (ddZ_D0D2 P) 1 q) (dddZ_D0D2D1 P q) (q 1) := hasDerivAt_const _ _

theorem ddZ_D0D2_at2 (P : Par) (q : Pt) : HasDerivAt (line (ddZ_D0D2 P) 2 q) (dddZ_D0D2D2 P q) (q 2) := hasDerivAt_const _ _

theorem ddZ_D1D1_at0 (P : Par) (q : Pt) : HasDerivAt (line (ddZ_D1D1 P) 0 q) (dddZ_D1D1D0 P q) (q 0) := hasDerivAt_const _ _

theorem ddZ_D1D1_at1 (P : Par) (q : Pt) : HasDerivAt (line (ddZ_D1D1 P) 1 q) (dddZ_D1D1D1 P q) (q 1) := hasDerivAt_const _ _

theorem ddZ_D1D1_at2 (P : Par) (q : Pt) : HasDerivAt (line (ddZ_D1D1 P) 2 q) (dddZ_D1D1D2 P q) (q 2) := hasDerivAt_const _ _

theorem ddZ_D1D2_at0 (P : Par) (q : Pt) : HasDerivAt (line (ddZ_D1D2 P) 0 q) (dddZ_D1D2D0 P q) (q 0) := hasDerivAt_const _ _

theorem ddZ_D1D2_at1 (P : Par) (q : Pt) : HasDerivAt (line (ddZ_D1D2 P) 1 q) (dddZ_D1D2D1 P q) (q 1) := hasDerivAt_const _ _

theorem ddZ_D1D2_at2 (P : Par) (q : Pt) : HasDerivAt (line (ddZ_D1D2 P) 2 q) (dddZ_D1D2D2 P q) (q 2) := hasDerivAt_const _ _

theorem ddZ_D2D2_at0 (P : Par) (q : Pt) : HasDerivAt (line (ddZ_D2D2 P) 0 q) (dddZ_D2D2D0 P q) (q 0) := hasDerivAt_const _ _

theorem ddZ_D2D2_at1 (P : Par) (q : Pt) : HasDerivAt (line (ddZ_D2D2 P) 1 q) (dddZ_D2D2D1 P q) (q 1) := hasDerivAt_const _ _

theorem ddZ_D2D2_at2 (P : Par) (q : Pt) : HasDerivAt (line (ddZ_D2D2 P) 2 q) (dddZ_D2D2D2 P q) (q 2) := hasDerivAt_const _ _

theorem Sq_pos (P : Par) (q : Pt) (hR : 0 < R P q) : 0 < Sq P q := by
  rcases (Real.sqrt_nonneg _ : 0 ≤ Sq P q).lt_or_eq with h | h
  · exact h
  · exfalso
    have : R P q = P.lit * Sq P q := rfl
    have h' : Sq P q = 0 := h.symm
    rw [this, h'] at hR
    simp at hR

theorem Tq_pos (P : Par) (q : Pt) (hR : 0 < R P q) : 0 < Tq P q := by
  have hs := Sq_pos P q hR
  rcases (Real.sqrt_nonneg _ : 0 ≤ Tq P q).lt_or_eq with h | h
  · exact h
  · exfalso
    have h0 : 4 * P.a ^ 2 * (Z P q) ^ 2 + (-P.a ^ 2 + (X P q) ^ 2 + (Y P q) ^ 2 + (Z P q) ^ 2) ^ 2 ≤ 0 := by
      have : √(4 * P.a ^ 2 * (Z P q) ^ 2 + (-P.a ^ 2 + (X P q) ^ 2 + (Y P q) ^ 2 + (Z P q) ^ 2) ^ 2) = 0 := h.symm
      exact Real.sqrt_eq_zero'.mp this
    have hw : -P.a ^ 2 + (X P q) ^ 2 + (Y P q) ^ 2 + (Z P q) ^ 2 = 0 := by
      have h1 : 0 ≤ 4 * P.a ^ 2 * (Z P q) ^ 2 := by positivity
      have h2 := sq_nonneg (-P.a ^ 2 + (X P q) ^ 2 + (Y P q) ^ 2 + (Z P q) ^ 2)
      exact pow_eq_zero_iff (two_ne_zero) |>.mp (le_antisymm (by linarith) h2)
    have e : Sq P q = √(-P.a ^ 2 + (X P q) ^ 2 + (Y P q) ^ 2 + (Z P q) ^ 2 + Tq P q) := rfl
    have h' : Tq P q = 0 := h.symm
    rw [hw, h'] at e
    simp at e
    exact hs.ne' e

theorem Tq_at0 (P : Par) (q : Pt) (hR : 0 < R P q) : HasDerivAt (line (Tq P) 0 q)
    ((4 * P.a ^ 2 * Z P q * dZ_D0 P q + 2 * (-P.a ^ 2 + (X P q) ^ 2 + (Y P q) ^ 2 + (Z P q) ^ 2) * (X P q * dX_D0 P q + Y P q * dY_D0 P q + Z P q * dZ_D0 P q)) / Tq P q) (q 0) := by
  have hc : ∀ c : ℝ, HasDerivAt (fun _ => c) 0 (q 0) := fun c => hasDerivAt_const _ c
  have hT := Tq_pos P q hR
  have key := (((hc (4 * P.a ^ 2)).mul ((Z_at0 P q).pow 2)).add (((((hc (-P.a ^ 2)).add ((X_at0 P q).pow 2)).add ((Y_at0 P q).pow 2)).add ((Z_at0 P q).pow 2)).pow 2)).sqrt (by
    have h := Real.sqrt_pos.mp hT
    simp only [Pi.add_apply, Pi.mul_apply, Pi.pow_apply, line_at]
    exact h.ne')
  refine key.congr_deriv ?_
  simp only [Pi.add_apply, Pi.mul_apply, Pi.pow_apply, line_at]
  have e : √(4 * P.a ^ 2 * (Z P q) ^ 2 + (-P.a ^ 2 + (X P q) ^ 2 + (Y P q) ^ 2 + (Z P q) ^ 2) ^ 2) = Tq P q := rfl
  rw [e]
  field_simp
  ring

theorem Sq_at0 (P : Par) (q : Pt) (hR : 0 < R P q) : HasDerivAt (line (Sq P) 0 q)
    (((X P q * dX_D0 P q + Y P q * dY_D0 P q + Z P q * dZ_D0 P q) + (2 * P.a ^ 2 * Z P q * dZ_D0 P q + (-P.a ^ 2 + (X P q) ^ 2 + (Y P q) ^ 2 + (Z P q) ^ 2) * (X P q * dX_D0 P q + Y P q * dY_D0 P q + Z P q * dZ_D0 P q)) / Tq P q) / Sq P q) (q 0) := by
  have hc : ∀ c : ℝ, HasDerivAt (fun _ => c) 0 (q 0) := fun c => hasDerivAt_const _ c
  have hT := Tq_pos P q hR
  have hS := Sq_pos P q hR
  have key := (((((hc (-P.a ^ 2)).add ((X_at0 P q).pow 2)).add ((Y_at0 P q).pow 2)).add ((Z_at0 P q).pow 2)).add (Tq_at0 P q hR)).sqrt (by
    have h := Real.sqrt_pos.mp hS
    simp only [Pi.add_apply, Pi.pow_apply, line_at]
    exact h.ne')
  refine key.congr_deriv ?_
  simp only [Pi.add_apply, Pi.pow_apply, line_at]
  have e : √(-P.a ^ 2 + (X P q) ^ 2 + (Y P q) ^ 2 + (Z P q) ^ 2 + Tq P q) = Sq P q := rfl
  rw [e]
  field_simp
  ring

theorem Tq_at1 (P : Par) (q : Pt) (hR : 0 < R P q) : HasDerivAt (line (Tq P) 1 q)
    ((4 * P.a ^ 2 * Z P q * dZ_D1 P q + 2 * (-P.a ^ 2 + (X P q) ^ 2 + (Y P q) ^ 2 + (Z P q) ^ 2) * (X P q * dX_D1 P q + Y P q * dY_D1 P q + Z P q * dZ_D1 P q)) / Tq P q) (q 1) := by
  have hc : ∀ c : ℝ, HasDerivAt (fun _ => c) 0 (q 1) := fun c => hasDerivAt_const _ c
  have hT := Tq_pos P q hR
  have key := (((hc (4 * P.a ^ 2)).mul ((Z_at1 P q).pow 2)).add (((((hc (-P.a ^ 2)).add ((X_at1 P q).pow 2)).add ((Y_at1 P q).pow 2)).add ((Z_at1 P q).pow 2)).pow 2)).sqrt (by
    have h := Real.sqrt_pos.mp hT
    simp only [Pi.add_apply, Pi.mul_apply, Pi.pow_apply, line_at]
    exact h.ne')
  refine key.congr_deriv ?_
  simp only [Pi.add_apply, Pi.mul_apply, Pi.pow_apply, line_at]
  have e : √(4 * P.a ^ 2 * (Z P q) ^ 2 + (-P.a ^ 2 + (X P q) ^ 2 + (Y P q) ^ 2 + (Z P q) ^ 2) ^ 2) = Tq P q := rfl
  rw [e]
  field_simp
  ring

theorem Sq_at1 (P : Par) (q : Pt) (hR : 0 < R P q) : HasDerivAt (line (Sq P) 1 q)
    (((X P q * dX_D1 P q + Y P q * dY_D1 P q + Z P q * dZ_D1 P q) + (2 * P.a ^ 2 * Z P q * dZ_D1 P q + (-P.a ^ 2 + (X P q) ^ 2 + (Y P q) ^ 2 + (Z P q) ^ 2) * (X P q * dX_D1 P q + Y P q * dY_D1 P q + Z P q * dZ_D1 P q)) / Tq P q) / Sq P q) (q 1) := by
  have hc : ∀ c : ℝ, HasDerivAt (fun _ => c) 0 (q 1) := fun c => hasDerivAt_const _ c
  have hT := Tq_pos P q hR
  have hS := Sq_pos P q hR
  have key := (((((hc (-P.a ^ 2)).add ((X_at1 P q).pow 2)).add ((Y_at1 P q).pow 2)).add ((Z_at1 P q).pow 2)).add (Tq_at1 P q hR)).sqrt (by
    have h := Real.sqrt_pos.mp hS
    simp only [Pi.add_apply, Pi.pow_apply, line_at]
    exact h.ne')
  refine key.congr_deriv ?_
  simp only [Pi.add_apply, Pi.pow_apply, line_at]
  have e : √(-P.a ^ 2 + (X P q) ^ 2 + (Y P q) ^ 2 + (Z P q) ^ 2 + Tq P q) = Sq P q := rfl
  rw [e]
  field_simp
  ring

theorem Tq_at2 (P : Par) (q : Pt) (hR : 0 < R P q) : HasDerivAt (line (Tq P) 2 q)
    ((4 * P.a ^ 2 * Z P q * dZ_D2 P q + 2 * (-P.a ^ 2 + (X P q) ^ 2 + (Y P q) ^ 2 + (Z P q) ^ 2) * (X P q * dX_D2 P q + Y P q * dY_D2 P q + Z P q * dZ_D2 P q)) / Tq P q) (q 2) := by
  have hc : ∀ c : ℝ, HasDerivAt (fun _ => c) 0 (q 2) := fun c => hasDerivAt_const _ c
  have hT := Tq_pos P q hR
  have key := (((hc (4 * P.a ^ 2)).mul ((Z_at2 P q).pow 2)).add (((((hc (-P.a ^ 2)).add ((X_at2 P q).pow 2)).add ((Y_at2 P q).pow 2)).add ((Z_at2 P q).pow 2)).pow 2)).sqrt (by
    have h := Real.sqrt_pos.mp hT
    simp only [Pi.add_apply, Pi.mul_apply, Pi.pow_apply, line_at]
    exact h.ne')
  refine key.congr_deriv ?_
  simp only [Pi.add_apply, Pi.mul_apply, Pi.pow_apply, line_at]
  have e : √(4 * P.a ^ 2 * (Z P q) ^ 2 + (-P.a ^ 2 + (X P q) ^ 2 + (Y P q) ^ 2 + (Z P q) ^ 2) ^ 2) = Tq P q := rfl
  rw [e]
  field_simp
  ring

theorem Sq_at2 (P : Par) (q : Pt) (hR : 0 < R P q) : HasDerivAt (line (Sq P) 2 q)
    (((X P q * dX_D2 P q + Y P q * dY_D2 P q + Z P q * dZ_D2 P q) + (2 * P.a ^ 2 * Z P q * dZ_D2 P q + (-P.a ^ 2 + (X P q) ^ 2 + (Y P q) ^ 2 + (Z P q) ^ 2) * (X P q * dX_D2 P q + Y P q * dY_D2 P q + Z P q * dZ_D2 P q)) / Tq P q) / Sq P q) (q 2) := by
  have hc : ∀ c : ℝ, HasDerivAt (fun _ => c) 0 (q 2) := fun c => hasDerivAt_const _ c
  have hT := Tq_pos P q hR
  have hS := Sq_pos P q hR
  have key := (((((hc (-P.a ^ 2)).add ((X_at2 P q).pow 2)).add ((Y_at2 P q).pow 2)).add ((Z_at2 P q).pow 2)).add (Tq_at2 P q hR)).sqrt (by
    have h := Real.sqrt_pos.mp hS
    simp only [Pi.add_apply, Pi.pow_apply, line_at]
    exact h.ne')
  refine key.congr_deriv ?_
  simp only [Pi.add_apply, Pi.pow_apply, line_at]
  have e : √(-P.a ^ 2 + (X P q) ^ 2 + (Y P q) ^ 2 + (Z P q) ^ 2 + Tq P q) = Sq P q := rfl
  rw [e]
  field_simp
  ring

end Elliptica.Ks
