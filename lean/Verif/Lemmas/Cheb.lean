import Verif.Model.Cheb
import Verif.Lemmas.Trig
import Mathlib.Analysis.SpecialFunctions.Trigonometric.Chebyshev.Basic
import Mathlib.LinearAlgebra.Lagrange
import Mathlib.Algebra.BigOperators.Field
/-!
Discrete orthogonality for the two Chebyshev transformations, and the cardinal functions of the expansion.
-/
namespace Elliptica.Cheb
open Real Finset Polynomial

/-- weights of the extrema expansion: 1 at both ends, 2 between -/
noncomputable def kap (N i : ℕ) : ℝ := if i = 0 ∨ i = N then 1 else 2

theorem sum_kap (N : ℕ) (hN : 0 < N) (g : ℕ → ℝ) :
    ∑ i ∈ range (N + 1), kap N i * g i = 2 * ∑ i ∈ range (N + 1), g i - g 0 - g N := by
  have h : ∀ i, kap N i * g i = 2 * g i - (if i = 0 then g i else 0) - (if i = N then g i else 0) := by
    intro i
    unfold kap
    by_cases h0 : i = 0
    · subst h0
      have : ¬ (0 = N) := by omega
      simp [this]; ring
    · by_cases h1 : i = N
      · simp [h1, hN.ne']; ring
      · simp [h0, h1]
  simp only [h, sum_sub_distrib, ← mul_sum, sum_ite_eq', mem_range]
  simp

theorem sum_kap_cos (N : ℕ) (hN : 0 < N) (k : ℤ) :
    ∑ i ∈ range (N + 1), kap N i * cos (i * (k * π / N)) = if (2 * N : ℤ) ∣ k then 2 * (N : ℝ) else 0 := by
  have hN' : (N : ℝ) ≠ 0 := by positivity
  rw [sum_kap N hN (fun i => cos (i * (k * π / N)))]
  have h := Trig.sum_half_ends N hN k
  have e : (N : ℝ) * (k * π / N) = k * π := by field_simp
  simp only [Nat.cast_zero, zero_mul, cos_zero, e]
  split at h <;> simp_all <;> linarith

theorem cos_mul_cos' (a b : ℝ) : cos a * cos b = (cos (a + b) + cos (a - b)) / 2 := by
  rw [cos_add, cos_sub]; ring

/-- discrete orthogonality on the extrema -/
theorem extrema_orth (N : ℕ) (hN : 0 < N) (j l : ℕ) (hj : j ≤ N) (hl : l ≤ N) :
    kap N j / (2 * N) * ∑ i ∈ range (N + 1), kap N i * (cos (i * (j * π / N)) * cos (i * (l * π / N))) =
      if j = l then 1 else 0 := by
  have hN' : (N : ℝ) ≠ 0 := by positivity
  have h1 : ∀ i : ℕ, kap N i * (cos (i * (j * π / N)) * cos (i * (l * π / N))) =
      (kap N i * cos (i * (((j + l : ℤ) : ℝ) * π / N)) + kap N i * cos (i * (((j - l : ℤ) : ℝ) * π / N))) / 2 := by
    intro i
    rw [cos_mul_cos']
    have e1 : (i : ℝ) * (j * π / N) + i * (l * π / N) = i * (((j + l : ℤ) : ℝ) * π / N) := by push_cast; ring
    have e2 : (i : ℝ) * (j * π / N) - i * (l * π / N) = i * (((j - l : ℤ) : ℝ) * π / N) := by push_cast; ring
    rw [e1, e2]; ring
  simp only [h1]
  rw [← sum_div, sum_add_distrib, sum_kap_cos N hN, sum_kap_cos N hN]
  have d1 : ((2 * N : ℤ) ∣ (j + l : ℤ)) ↔ (j = 0 ∧ l = 0) ∨ (j = N ∧ l = N) := by
    constructor
    · rintro ⟨q, hq⟩
      have : q = 0 ∨ q = 1 := by
        have a : 0 ≤ q := by
          by_contra hc
          have : q ≤ -1 := by omega
          nlinarith
        have b : q ≤ 1 := by
          by_contra hc
          have : 2 ≤ q := by omega
          nlinarith
        omega
      rcases this with rfl | rfl
      · left; omega
      · right; omega
    · rintro (⟨rfl, rfl⟩ | ⟨rfl, rfl⟩)
      · simp
      · exact ⟨1, by ring⟩
  have d2 : ((2 * N : ℤ) ∣ (j - l : ℤ)) ↔ j = l := by
    constructor
    · rintro ⟨q, hq⟩
      have : q = 0 := by
        have a : -1 < q := by
          by_contra hc
          have : q ≤ -1 := by omega
          nlinarith
        have b : q < 1 := by
          by_contra hc
          have : 1 ≤ q := by omega
          nlinarith
        omega
      subst this; omega
    · rintro rfl; simp
  simp only [d1, d2]
  by_cases h : j = l
  · subst h
    by_cases h0 : j = 0
    · subst h0; simp [kap]; field_simp
    · by_cases h2 : j = N
      · subst h2; simp [kap]; field_simp
      · simp [kap, h0, h2]; field_simp
  · have h3 : ¬ ((j = 0 ∧ l = 0) ∨ (j = N ∧ l = N)) := by omega
    simp [h, h3]

theorem sign_eq (i : ℕ) : sign i = cos (i * π) := by
  rw [Real.cos_nat_mul_pi, sign]
  split
  · rename_i h; rw [Even.neg_one_pow (Nat.even_iff.2 h)]
  · rename_i h; rw [Odd.neg_one_pow (Nat.odd_iff.2 (by omega))]

theorem extremaCoeff_eq (N : ℕ) (hN : 0 < N) (v : ℕ → ℝ) (i : ℕ) :
    extremaCoeff (N + 1) v i = ∑ j ∈ range (N + 1), kap N j / (2 * N) * cos (i * (j * π / N)) * v j := by
  have hN' : (N : ℝ) ≠ 0 := by positivity
  have h1 : ∀ j, kap N j / (2 * N) * cos (i * (j * π / N)) * v j =
      kap N j * (v j * cos (i * (j * π / N))) / (2 * N) := by intro j; ring
  simp only [h1]
  rw [← sum_div, sum_kap N hN (fun j => v j * cos (i * (j * π / N)))]
  unfold extremaCoeff
  have h2 : ∑ j ∈ range (N + 1), v j * cos (i * (j * π / N)) =
      v 0 + ∑ j ∈ Ico 1 N, v j * cos (i * (j * π / N)) + v N * cos (i * π) := by
    rw [sum_range_succ, range_eq_Ico, sum_eq_sum_Ico_succ_bot hN]
    have : (N : ℝ) * π / N = π := by field_simp
    rw [this]; simp
  rw [h2]
  have e : (N : ℝ) * π / N = π := by field_simp
  simp only [Nat.add_sub_cancel, e, sign_eq, Nat.cast_add, Nat.cast_one, add_sub_cancel_right]
  have h3 : ∀ j ∈ Ico 1 N, v j * cos ((j : ℝ) * (i * (π / N))) = v j * cos (i * (j * π / N)) := by
    intro j _
    congr 2; ring
  rw [sum_congr rfl h3]
  simp
  ring

/-- the extrema expansion returns the value at every collocation angle -/
theorem extrema_reproduce (N : ℕ) (hN : 0 < N) (v : ℕ → ℝ) (l : ℕ) (hl : l ≤ N) :
    ∑ i ∈ range (N + 1), extremaCoeff (N + 1) v i * (kap N i * cos (i * (l * π / N))) = v l := by
  simp only [extremaCoeff_eq N hN, sum_mul]
  rw [sum_comm]
  have h : ∀ j ∈ range (N + 1), ∑ i ∈ range (N + 1),
      kap N j / (2 * N) * cos (i * (j * π / N)) * v j * (kap N i * cos (i * (l * π / N))) = if j = l then v j else 0 := by
    intro j hj
    have := extrema_orth N hN j l (by simpa [Nat.lt_succ_iff] using hj) hl
    have e : ∑ i ∈ range (N + 1),
        kap N j / (2 * N) * cos (i * (j * π / N)) * v j * (kap N i * cos (i * (l * π / N))) =
        (kap N j / (2 * N) * ∑ i ∈ range (N + 1), kap N i * (cos (i * (j * π / N)) * cos (i * (l * π / N)))) * v j := by
      rw [mul_sum, sum_mul]
      exact sum_congr rfl fun i _ => by ring
    rw [e, this]; split <;> simp
  rw [sum_congr rfl h, sum_ite_eq', if_pos (by simpa [Nat.lt_succ_iff] using hl)]

/-! ### nodes -/

/-- weights of the nodes expansion -/
noncomputable def kapN (i : ℕ) : ℝ := if i = 0 then 1 else 2

theorem sum_kapN (n : ℕ) (hn : 0 < n) (g : ℕ → ℝ) :
    ∑ i ∈ range n, kapN i * g i = 2 * ∑ i ∈ range n, g i - g 0 := by
  have h : ∀ i, kapN i * g i = 2 * g i - (if i = 0 then g i else 0) := by
    intro i; unfold kapN; by_cases h0 : i = 0
    · simp [h0]; ring
    · simp [h0]
  simp only [h, sum_sub_distrib, ← mul_sum, sum_ite_eq', mem_range, hn, if_true]

theorem nodes_reproduce (n : ℕ) (hn : 0 < n) (v : ℕ → ℝ) (l : ℕ) (hl : l < n) :
    ∑ i ∈ range n, nodesCoeff n v i * (kapN i * cos (i * ((l + 0.5) * π / n))) = v l := by
  have hn' : (n : ℝ) ≠ 0 := by positivity
  have h1 : ∀ i, nodesCoeff n v i = ∑ j ∈ range n, cos (i * ((j + 0.5) * π / n)) / n * v j := by
    intro i
    unfold nodesCoeff
    rw [sum_div]
    refine sum_congr rfl fun j _ => ?_
    have : (i : ℝ) * (π / n) * (j + 0.5) = i * ((j + 0.5) * π / n) := by ring
    rw [this]; ring
  simp only [h1, sum_mul]
  rw [sum_comm]
  have h : ∀ j ∈ range n, ∑ i ∈ range n, cos (i * ((j + 0.5) * π / n)) / n * v j * (kapN i * cos (i * ((l + 0.5) * π / n))) =
      if j = l then v j else 0 := by
    intro j hj
    have hj : j < n := mem_range.1 hj
    have e : ∑ i ∈ range n, cos (i * ((j + 0.5) * π / n)) / n * v j * (kapN i * cos (i * ((l + 0.5) * π / n))) =
        (∑ i ∈ range n, kapN i * cos (i * (((j + l + 1 : ℤ) : ℝ) * π / n)) +
          ∑ i ∈ range n, kapN i * cos (i * (((j - l : ℤ) : ℝ) * π / n))) / (2 * n) * v j := by
      rw [← sum_add_distrib, sum_div, sum_mul]
      refine sum_congr rfl fun i _ => ?_
      have hc := cos_mul_cos' ((i : ℝ) * ((j + 0.5) * π / n)) (i * ((l + 0.5) * π / n))
      have e1 : (i : ℝ) * ((j + 0.5) * π / n) + i * ((l + 0.5) * π / n) = i * (((j + l + 1 : ℤ) : ℝ) * π / n) := by
        push_cast; ring
      have e2 : (i : ℝ) * ((j + 0.5) * π / n) - i * ((l + 0.5) * π / n) = i * (((j - l : ℤ) : ℝ) * π / n) := by
        push_cast; ring
      rw [e1, e2] at hc
      have : cos (i * ((j + 0.5) * π / n)) / n * v j * (kapN i * cos (i * ((l + 0.5) * π / n))) =
        kapN i * (cos (i * ((j + 0.5) * π / n)) * cos (i * ((l + 0.5) * π / n))) / n * v j := by ring
      rw [this, hc]; field_simp
    rw [e, sum_kapN n hn (fun i => cos (i * (((j + l + 1 : ℤ) : ℝ) * π / n))),
      sum_kapN n hn (fun i => cos (i * (((j - l : ℤ) : ℝ) * π / n)))]
    have s1 := Trig.sum_half_first n hn (j + l + 1)
    have s2 := Trig.sum_half_first n hn (j - l)
    have d1 : ¬ ((2 * n : ℤ) ∣ (j + l + 1 : ℤ)) := by
      rintro ⟨q, hq⟩
      have a : 0 < q := by
        by_contra hc
        have : q ≤ 0 := by omega
        nlinarith
      have : 1 ≤ q := by omega
      nlinarith
    rw [if_neg d1] at s1
    by_cases hjl : j = l
    · subst hjl
      rw [if_pos (by simp)] at s2
      have hc : cos (((j + j + 1 : ℤ) : ℝ) * π) = -1 := by
        have : ((j + j + 1 : ℤ) : ℝ) * π = π + (j : ℕ) * (2 * π) := by push_cast; ring
        rw [this, Real.cos_add_nat_mul_two_pi, cos_pi]
      rw [hc] at s1
      simp only [Nat.cast_zero, zero_mul, cos_zero, if_true]
      have t1 : ∑ i ∈ range n, cos ((i : ℝ) * (((j + j + 1 : ℤ) : ℝ) * π / n)) = 1 := by linarith
      have t2 : ∑ i ∈ range n, cos ((i : ℝ) * (((j - j : ℤ) : ℝ) * π / n)) = n := by linarith
      rw [t1, t2]; field_simp; ring
    · have d2 : ¬ ((2 * n : ℤ) ∣ (j - l : ℤ)) := by
        rintro ⟨q, hq⟩
        have : q = 0 := by
          have a : -1 < q := by
            by_contra hc
            have : q ≤ -1 := by omega
            nlinarith
          have b : q < 1 := by
            by_contra hc
            have : 1 ≤ q := by omega
            nlinarith
          omega
        subst this; omega
      rw [if_neg d2] at s2
      have hc : cos (((j + l + 1 : ℤ) : ℝ) * π) = - cos (((j - l : ℤ) : ℝ) * π) := by
        have : ((j + l + 1 : ℤ) : ℝ) * π = (((j - l : ℤ) : ℝ) * π + π) + (l : ℕ) * (2 * π) := by push_cast; ring
        rw [this, Real.cos_add_nat_mul_two_pi, cos_add_pi]
      rw [hc] at s1
      simp only [Nat.cast_zero, zero_mul, cos_zero, if_neg hjl]
      have : (2 * ∑ i ∈ range n, cos ((i : ℝ) * (((j + l + 1 : ℤ) : ℝ) * π / n)) - 1 +
        (2 * ∑ i ∈ range n, cos ((i : ℝ) * (((j - l : ℤ) : ℝ) * π / n)) - 1)) = 0 := by linarith
      rw [this]; simp
  rw [sum_congr rfl h, sum_ite_eq', if_pos (mem_range.2 hl)]

/-! ### Chebyshev functions are the Chebyshev polynomials -/

/-- points that the tolerance tests of the Chebyshev functions do not misjudge -/
def Snapped (e x : ℝ) : Prop :=
  x = 1 ∨ x = -1 ∨ (Tol.eql e x 1 = false ∧ Tol.eql e x (-1) = false ∧ -1 ≤ x ∧ x ≤ 1)

theorem eql_self (e x : ℝ) (he : 0 < e) : Tol.eql e x x = true := by
  simp [Tol.eql, he]

theorem eql_neg_one (e : ℝ) (h2 : e ≤ 2) : Tol.eql e (-1) 1 = false := by
  simp only [Tol.eql, Bool.and_eq_false_iff, decide_eq_false_iff_not]; right; linarith

theorem negOnePow_real (n : ℤ) : (((n.negOnePow : ℤˣ) : ℤ) : ℝ) = if n % 2 ≠ 0 then -1 else 1 := by
  split
  · rename_i h
    rw [Int.negOnePow_odd n (by rw [Int.odd_iff]; omega)]; simp
  · rename_i h
    rw [Int.negOnePow_even n (by rw [Int.even_iff]; omega)]; simp

theorem chebT_eval (e : ℝ) (he : 0 < e) (h2 : e ≤ 2) (n : ℕ) (x : ℝ) (hx : Snapped e x) :
    chebT e n x = (Chebyshev.T ℝ n).eval x := by
  unfold chebT
  by_cases h0 : n = 0
  · simp [h0]
  rw [if_neg h0]
  rcases hx with rfl | rfl | ⟨h3, h4, h5, h6⟩
  · rw [if_pos (eql_self e 1 he), Chebyshev.T_eval_one]
  · rw [eql_neg_one e h2, if_neg (by simp), if_pos (eql_self e (-1) he), Chebyshev.T_eval_neg_one, negOnePow_real]
    have : ((n : ℤ) % 2 ≠ 0) ↔ n % 2 ≠ 0 := by omega
    simp only [this]
  · rw [h3, h4]
    simp only [Bool.false_eq_true, if_false]
    conv_rhs => rw [← Real.cos_arccos h5 h6]
    rw [Chebyshev.T_real_cos]; simp

end Elliptica.Cheb
