import Mathlib.Analysis.SpecialFunctions.Trigonometric.Basic
import Mathlib.Algebra.BigOperators.Intervals
import Mathlib.Tactic.LinearCombination
import Mathlib.Tactic.FieldSimp
import Mathlib.Tactic.Linarith
import Mathlib.Tactic.Positivity
/-!
Trigonometric sums: the Dirichlet kernel and discrete orthogonality of cosines.
-/
namespace Elliptica.Trig
open Finset Real

/-- the Dirichlet kernel without division -/
theorem two_sin_sum_cos (M : ℕ) (θ : ℝ) :
    2 * sin (θ / 2) * ∑ j ∈ range M, cos (j * θ) = sin ((M - 1 / 2) * θ) + sin (θ / 2) := by
  induction M with
  | zero =>
    have : ((((0 : ℕ) : ℝ) - 1 / 2) * θ) = -(θ / 2) := by push_cast; ring
    rw [this, sin_neg]; simp
  | succ M ih =>
    rw [sum_range_succ, mul_add, ih]
    have h1 : (((M + 1 : ℕ) : ℝ) - 1 / 2) * θ = M * θ + θ / 2 := by push_cast; ring
    have h2 : ((M : ℝ) - 1 / 2) * θ = M * θ - θ / 2 := by ring
    rw [h1, h2, sin_add, sin_sub]; ring

theorem cos_nat_pi_sq (k : ℤ) : cos (k * π) * cos (k * π) = 1 := by
  have := Real.sin_sq_add_cos_sq (k * π)
  rw [Real.sin_int_mul_pi] at this
  nlinarith

/-- sin(θ/2) = 0 for θ = kπ/N only if 2N divides k -/
theorem dvd_of_sin_eq_zero (N : ℕ) (hN : 0 < N) (k : ℤ) (h : sin (k * π / N / 2) = 0) : (2 * N : ℤ) ∣ k := by
  rw [Real.sin_eq_zero_iff] at h
  obtain ⟨m, hm⟩ := h
  have hN' : (N : ℝ) ≠ 0 := by positivity
  have hp := Real.pi_ne_zero
  have : (k : ℝ) = 2 * N * m := by
    field_simp at hm
    linarith
  exact ⟨m, by exact_mod_cast this⟩

/-- a cosine sum with the two ends halved -/
theorem sum_half_ends (N : ℕ) (hN : 0 < N) (k : ℤ) :
    ∑ j ∈ range (N + 1), cos (j * (k * π / N)) - (1 + cos (k * π)) / 2 =
      if (2 * N : ℤ) ∣ k then (N : ℝ) else 0 := by
  have hN' : (N : ℝ) ≠ 0 := by positivity
  split
  · rename_i h
    obtain ⟨m, rfl⟩ := h
    have h1 : ∀ j ∈ range (N + 1), cos ((j : ℝ) * (((2 * N * m : ℤ) : ℝ) * π / N)) = 1 := by
      intro j _
      have : (j : ℝ) * (((2 * N * m : ℤ) : ℝ) * π / N) = ((j * m : ℤ) : ℝ) * (2 * π) := by
        push_cast; field_simp
      rw [this, Real.cos_int_mul_two_pi]
    have h2 : cos (((2 * N * m : ℤ) : ℝ) * π) = 1 := by
      have : ((2 * N * m : ℤ) : ℝ) * π = ((N * m : ℤ) : ℝ) * (2 * π) := by push_cast; ring
      rw [this, Real.cos_int_mul_two_pi]
    rw [sum_congr rfl h1, h2]
    simp
  · rename_i h
    have hs : sin (k * π / N / 2) ≠ 0 := fun h0 => h (dvd_of_sin_eq_zero N hN k h0)
    have key := two_sin_sum_cos (N + 1) (k * π / N)
    have h3 : (((N + 1 : ℕ) : ℝ) - 1 / 2) * (k * π / N) = k * π + k * π / N / 2 := by
      push_cast; field_simp; ring
    rw [h3, sin_add, Real.sin_int_mul_pi] at key
    have : 2 * sin (k * π / N / 2) *
        (∑ j ∈ range (N + 1), cos (j * (k * π / N)) - (1 + cos (k * π)) / 2) = 0 := by
      rw [mul_sub, key]; ring
    rcases mul_eq_zero.1 this with h | h
    · exact absurd (by linarith) hs
    · exact h

/-- a cosine sum with the first term halved -/
theorem sum_half_first (n : ℕ) (hn : 0 < n) (m : ℤ) :
    ∑ i ∈ range n, cos (i * (m * π / n)) - 1 / 2 =
      if (2 * n : ℤ) ∣ m then (n : ℝ) - 1 / 2 else - cos (m * π) / 2 := by
  have hn' : (n : ℝ) ≠ 0 := by positivity
  split
  · rename_i h
    obtain ⟨q, rfl⟩ := h
    have h1 : ∀ j ∈ range n, cos ((j : ℝ) * (((2 * n * q : ℤ) : ℝ) * π / n)) = 1 := by
      intro j _
      have : (j : ℝ) * (((2 * n * q : ℤ) : ℝ) * π / n) = ((j * q : ℤ) : ℝ) * (2 * π) := by
        push_cast; field_simp
      rw [this, Real.cos_int_mul_two_pi]
    rw [sum_congr rfl h1]; simp
  · rename_i h
    have hs : sin (m * π / n / 2) ≠ 0 := fun h0 => h (dvd_of_sin_eq_zero n hn m h0)
    have key := two_sin_sum_cos n (m * π / n)
    have h3 : ((n : ℝ) - 1 / 2) * (m * π / n) = m * π - m * π / n / 2 := by field_simp
    rw [h3, sin_sub, Real.sin_int_mul_pi] at key
    have : 2 * sin (m * π / n / 2) * (∑ j ∈ range n, cos (j * (m * π / n)) - 1 / 2 + cos (m * π) / 2) = 0 := by
      rw [mul_add, mul_sub, key]; ring
    rcases mul_eq_zero.1 this with h | h
    · exact absurd (by linarith) hs
    · linarith

end Elliptica.Trig
