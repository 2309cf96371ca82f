import Verif.Spec.Legendre
import Mathlib.Tactic.LinearCombination
import Mathlib.Tactic.FieldSimp
import Mathlib.Tactic.Ring
import Mathlib.Algebra.Polynomial.Degree.Lemmas
/-!
Recursions of the Legendre polynomials from Rodrigues' formula.
-/
namespace Elliptica.Legendre
open Polynomial Nat

theorem C2 : (C (2 : ℝ) : ℝ[X]) = 2 := map_ofNat C 2

/-- D^[k+1](X p) -/
theorem iter_X_mul (p : ℝ[X]) (k : ℕ) :
    derivative^[k + 1] (X * p) = X * derivative^[k + 1] p + (k + 1 : ℝ[X]) * derivative^[k] p := by
  induction k with
  | zero => simp; ring
  | succ k ih =>
    rw [Function.iterate_succ_apply', ih]
    simp only [derivative_add, derivative_mul, derivative_X, derivative_natCast, derivative_one, ← Function.iterate_succ_apply' derivative]
    push_cast; ring

/-- D^[k+2]((X²-1) p) -/
theorem iter_sq_mul (p : ℝ[X]) (k : ℕ) :
    derivative^[k + 2] ((X ^ 2 - 1) * p) =
      (X ^ 2 - 1) * derivative^[k + 2] p + 2 * (k + 2 : ℝ[X]) * X * derivative^[k + 1] p +
        (k + 2 : ℝ[X]) * (k + 1 : ℝ[X]) * derivative^[k] p := by
  have : (X ^ 2 - 1) * p = X * (X * p) - p := by ring
  rw [this, iterate_derivative_sub, iter_X_mul, iter_X_mul, iter_X_mul]
  push_cast; ring

/-- the unnormalised polynomial D^l (X²-1)^l -/
noncomputable def W (l : ℕ) : ℝ[X] := derivative^[l] ((X ^ 2 - 1) ^ l)

theorem d_u (l : ℕ) : derivative ((X ^ 2 - 1 : ℝ[X]) ^ (l + 1)) = 2 * (l + 1 : ℝ[X]) * (X * (X ^ 2 - 1) ^ l) := by
  rw [derivative_pow]
  simp [C2]
  ring

/-- W'_{l+1} = 2(l+1)(x W'_l + (l+1) W_l) -/
theorem W_r1 (l : ℕ) : derivative (W (l + 1)) = 2 * (l + 1 : ℝ[X]) * (X * derivative (W l) + (l + 1 : ℝ[X]) * W l) := by
  unfold W
  rw [← Function.iterate_succ_apply' derivative, Function.iterate_succ_apply, d_u]
  have : (2 * (l + 1 : ℝ[X])) = C (2 * (l + 1 : ℝ)) := by simp [C2]
  rw [this, iterate_derivative_C_mul, iter_X_mul, Function.iterate_succ_apply' derivative]

/-- W_{l+1} = 2(x²-1) W'_l + 2(l+1) x W_l -/
theorem W_r3 (l : ℕ) : W (l + 1) = 2 * (X ^ 2 - 1) * derivative (W l) + 2 * (l + 1 : ℝ[X]) * X * W l := by
  match l with
  | 0 => simp [W, C2]; try ring
  | l + 1 =>
    have h1 : W (l + 2) = 2 * (l + 2 : ℝ[X]) * (X * W (l + 1) + (l + 1 : ℝ[X]) * derivative^[l] ((X ^ 2 - 1) ^ (l + 1))) := by
      unfold W
      rw [Function.iterate_succ_apply, d_u]
      have : (2 * (((l + 1 : ℕ) : ℝ[X]) + 1)) = C (2 * (l + 2 : ℝ)) := by simp [C2]; ring
      rw [this, iterate_derivative_C_mul, iter_X_mul]
      simp only [map_mul, map_add, map_natCast, C2, Function.iterate_succ_apply]
    have h2 : W (l + 2) = (X ^ 2 - 1) * derivative (W (l + 1)) + 2 * (l + 2 : ℝ[X]) * X * W (l + 1) +
        (l + 2 : ℝ[X]) * (l + 1 : ℝ[X]) * derivative^[l] ((X ^ 2 - 1) ^ (l + 1)) := by
      unfold W
      rw [pow_succ' (X ^ 2 - 1 : ℝ[X]) (l + 1), iter_sq_mul, ← Function.iterate_succ_apply' derivative]
    push_cast
    linear_combination 2 * h2 - h1

/-- Legendre's equation for W -/
theorem W_ode (l : ℕ) : (X ^ 2 - 1) * derivative (derivative (W l)) + 2 * X * derivative (W l) = (l : ℝ[X]) * (l + 1 : ℝ[X]) * W l := by
  have h1 := congrArg derivative (W_r3 l)
  rw [W_r1] at h1
  simp only [derivative_add, derivative_mul, derivative_sub, derivative_pow, derivative_X, derivative_one, derivative_ofNat,
    derivative_natCast] at h1
  have h2 : (2 : ℝ[X]) * ((X ^ 2 - 1) * derivative (derivative (W l)) + 2 * X * derivative (W l)) =
      2 * ((l : ℝ[X]) * (l + 1 : ℝ[X]) * W l) := by
    simp [C2] at h1
    linear_combination -h1
  exact mul_left_cancel₀ (by norm_num) h2

theorem legendre_W (l : ℕ) : legendre l = C (1 / (2 ^ l * (l ! : ℝ))) * W l := rfl

theorem norm_succ (l : ℕ) : (1 / (2 ^ l * (l ! : ℝ))) = 2 * (l + 1) * (1 / (2 ^ (l + 1) * ((l + 1)! : ℝ))) := by
  have : (l ! : ℝ) ≠ 0 := by exact_mod_cast Nat.factorial_ne_zero l
  have h2 : (l + 1 : ℝ) ≠ 0 := by positivity
  rw [Nat.factorial_succ, pow_succ]; push_cast; field_simp

/-- P'_{l+1} = x P'_l + (l+1) P_l -/
theorem r1 (l : ℕ) : derivative (legendre (l + 1)) = X * derivative (legendre l) + (l + 1 : ℝ[X]) * legendre l := by
  have hn : C (1 / (2 ^ l * (l ! : ℝ))) = 2 * (l + 1 : ℝ[X]) * C (1 / (2 ^ (l + 1) * ((l + 1)! : ℝ))) := by
    rw [norm_succ l]; simp only [map_mul, map_add, map_natCast, map_one, C2]
  simp only [legendre_W, derivative_C_mul, W_r1]
  rw [hn]
  ring

/-- (l+1) P_{l+1} = (x²-1) P'_l + (l+1) x P_l -/
theorem r3 (l : ℕ) : (l + 1 : ℝ[X]) * legendre (l + 1) = (X ^ 2 - 1) * derivative (legendre l) + (l + 1 : ℝ[X]) * X * legendre l := by
  have hn : C (1 / (2 ^ l * (l ! : ℝ))) = 2 * (l + 1 : ℝ[X]) * C (1 / (2 ^ (l + 1) * ((l + 1)! : ℝ))) := by
    rw [norm_succ l]; simp only [map_mul, map_add, map_natCast, map_one, C2]
  simp only [legendre_W, derivative_C_mul, W_r3]
  rw [hn]
  ring

theorem ode (l : ℕ) : (X ^ 2 - 1) * derivative (derivative (legendre l)) + 2 * X * derivative (legendre l) =
    (l : ℝ[X]) * (l + 1 : ℝ[X]) * legendre l := by
  simp only [legendre_W, derivative_C_mul]
  linear_combination C (1 / (2 ^ l * (l ! : ℝ))) * W_ode l

/-- Bonnet's recursion -/
theorem bonnet (l : ℕ) : (l + 2 : ℝ[X]) * legendre (l + 2) = (2 * l + 3 : ℝ[X]) * X * legendre (l + 1) - (l + 1 : ℝ[X]) * legendre l := by
  have h1 := r3 (l + 1)
  have h2 := r1 l
  have h3 := r3 l
  push_cast at h1
  linear_combination h1 + (X ^ 2 - 1) * h2 + (-X) * h3

/-- P'_{l+2} - P'_l = (2l+3) P_{l+1} -/
theorem dsub (l : ℕ) : derivative (legendre (l + 2)) - derivative (legendre l) = (2 * l + 3 : ℝ[X]) * legendre (l + 1) := by
  have h1 := r1 (l + 1)
  have h2 := r1 l
  have h3 := r3 l
  push_cast at h1
  linear_combination h1 + X * h2 - h3

/-- derivatives of P_l -/
noncomputable def Q (l m : ℕ) : ℝ[X] := derivative^[m] (legendre l)

theorem iter_nat (c : ℕ) (p : ℝ[X]) (m : ℕ) : derivative^[m] ((c : ℝ[X]) * p) = c * derivative^[m] p := by
  have : (c : ℝ[X]) = C (c : ℝ) := by simp
  rw [this, iterate_derivative_C_mul]

theorem Q_rec (l m : ℕ) : (l + 2 - m : ℝ[X]) * Q (l + 2) m = (2 * l + 3 : ℝ[X]) * X * Q (l + 1) m - (l + 1 + m : ℝ[X]) * Q l m := by
  match m with
  | 0 => have := bonnet l; simpa [Q] using this
  | m + 1 =>
    have h1 := congrArg (derivative^[m + 1]) (bonnet l)
    have h2 := congrArg (derivative^[m]) (dsub l)
    rw [iterate_derivative_sub, ← Function.iterate_succ_apply, ← Function.iterate_succ_apply] at h2
    rw [iterate_derivative_sub] at h1
    have e1 : (l + 2 : ℝ[X]) = ((l + 2 : ℕ) : ℝ[X]) := by push_cast; ring
    have e2 : (2 * l + 3 : ℝ[X]) = ((2 * l + 3 : ℕ) : ℝ[X]) := by push_cast; ring
    have e3 : (l + 1 : ℝ[X]) = ((l + 1 : ℕ) : ℝ[X]) := by push_cast; ring
    rw [e1, e2, e3, mul_assoc, iter_nat, iter_nat, iter_nat, iter_X_mul] at h1
    rw [e2, iter_nat] at h2
    push_cast at h1 h2 ⊢
    unfold Q
    linear_combination h1 - (m + 1 : ℝ[X]) * h2

theorem natDegree_legendre (l : ℕ) : (legendre l).natDegree ≤ l := by
  unfold legendre
  refine (natDegree_C_mul_le _ _).trans ((natDegree_iterate_derivative _ _).trans ?_)
  have : ((X ^ 2 - 1 : ℝ[X]) ^ l).natDegree ≤ l * 2 := by
    refine natDegree_pow_le.trans (Nat.mul_le_mul_left _ ?_)
    refine (natDegree_sub_le _ _).trans ?_
    simp
  omega

theorem Q_zero (l m : ℕ) (h : l < m) : Q l m = 0 := by
  unfold Q
  exact iterate_derivative_eq_zero (lt_of_le_of_lt (natDegree_legendre l) h)

theorem legendre_zero : legendre 0 = 1 := by simp [legendre]
theorem legendre_one : legendre 1 = X := by
  have := r3 0
  rw [legendre_zero] at this
  simpa using this

theorem Q_diag (m : ℕ) : Q (m + 1) (m + 1) = (2 * m + 1 : ℝ[X]) * Q m m := by
  match m with
  | 0 => simp [Q, legendre_zero, legendre_one]
  | m + 1 =>
    have h2 := congrArg (derivative^[m + 1]) (dsub m)
    rw [iterate_derivative_sub, ← Function.iterate_succ_apply, ← Function.iterate_succ_apply] at h2
    have e2 : (2 * m + 3 : ℝ[X]) = ((2 * m + 3 : ℕ) : ℝ[X]) := by push_cast; ring
    rw [e2, iter_nat] at h2
    have hz := Q_zero m (m + 1 + 1) (by omega)
    unfold Q at hz ⊢
    rw [hz] at h2
    push_cast at h2 ⊢
    linear_combination h2

theorem Q_off (m : ℕ) : Q (m + 1) m = (2 * m + 1 : ℝ[X]) * X * Q m m := by
  match m with
  | 0 => simp [Q, legendre_zero, legendre_one]
  | m + 1 =>
    have h := Q_rec m (m + 1)
    rw [Q_zero m (m + 1) (by omega)] at h
    push_cast at h ⊢
    linear_combination h

/-- Legendre's equation differentiated m times -/
theorem Q_ode (l m : ℕ) : (X ^ 2 - 1) * Q l (m + 2) + 2 * (m + 1 : ℝ[X]) * X * Q l (m + 1) =
    ((l : ℝ[X]) * (l + 1 : ℝ[X]) - (m : ℝ[X]) * (m + 1 : ℝ[X])) * Q l m := by
  induction m with
  | zero =>
    have := ode l
    simp only [Q, Function.iterate_succ_apply', Function.iterate_zero, id]
    push_cast
    linear_combination this
  | succ m ih =>
    have h := congrArg derivative ih
    have hd : ∀ k, derivative (Q l k) = Q l (k + 1) := by intro k; unfold Q; rw [Function.iterate_succ_apply']
    simp only [derivative_add, derivative_mul, derivative_sub, derivative_pow, derivative_X, derivative_one, derivative_ofNat,
      derivative_natCast, hd] at h
    simp [C2] at h
    push_cast
    linear_combination h

end Elliptica.Legendre
