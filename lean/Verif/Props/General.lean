import Verif.Model.General
import Verif.Props.Cheb
import Mathlib.Analysis.Real.Pi.Bounds
/-!
Property C32: the closed-form sums used for the Jacobian.  Property C33: norms.
-/
namespace Elliptica.General
open Real Finset Polynomial Elliptica.Cheb

/-! ### trigonometric sums -/

theorem sum_cos_closed (N : ℕ) (a : ℝ) (h : sin (a / 2) ≠ 0) :
    ∑ i ∈ range N, cos ((i + 1 : ℕ) * a) = -0.5 + 0.5 * sin ((N + 0.5) * a) / sin (0.5 * a) := by
  have h1 := Trig.two_sin_sum_cos (N + 1) a
  rw [Finset.sum_range_succ'] at h1
  have e1 : ((N + 1 : ℕ) - 1 / 2 : ℝ) * a = (N + 0.5) * a := by push_cast; ring
  have e2 : (0.5 : ℝ) * a = a / 2 := by ring
  rw [e1] at h1
  rw [e2]
  simp only [Nat.cast_zero, zero_mul, cos_zero] at h1
  generalize sin ((N + 0.5) * a) = S at *
  field_simp
  linear_combination (1 / 2) * h1

theorem sum_sq_cos (N : ℕ) (b : ℝ) (h : sin (b / 2) ≠ 0) :
    ∑ i ∈ range N, ((i + 1 : ℕ) : ℝ) ^ 2 * cos ((i + 1 : ℕ) * b) = sqCos N b := by
  induction N with
  | zero =>
    have e1 : ((0.5 : ℝ) - (0 : ℕ)) * b = b / 2 := by push_cast; ring
    have e2 : ((0.5 : ℝ) + (0 : ℕ)) * b = b / 2 := by push_cast; ring
    simp only [sqCos, e1, e2]; simp
  | succ N ih =>
    rw [Finset.sum_range_succ, ih]
    unfold sqCos
    have e1 : ((0.5 : ℝ) - N) * b = -(((N + 1 : ℕ) : ℝ) * b - (b / 2 + b / 2 + b / 2)) := by push_cast; ring
    have e2 : ((0.5 : ℝ) + N) * b = ((N + 1 : ℕ) : ℝ) * b - b / 2 := by push_cast; ring
    have e3 : ((1.5 : ℝ) + N) * b = ((N + 1 : ℕ) : ℝ) * b + b / 2 := by push_cast; ring
    have e4 : ((0.5 : ℝ) - (N + 1 : ℕ)) * b = -(((N + 1 : ℕ) : ℝ) * b - b / 2) := by push_cast; ring
    have e5 : ((0.5 : ℝ) + (N + 1 : ℕ)) * b = ((N + 1 : ℕ) : ℝ) * b + b / 2 := by push_cast; ring
    have e6 : ((1.5 : ℝ) + (N + 1 : ℕ)) * b = ((N + 1 : ℕ) : ℝ) * b + (b / 2 + b / 2 + b / 2) := by push_cast; ring
    rw [e1, e2, e3, e4, e5, e6]
    simp only [sin_neg, sin_add, sin_sub, cos_add]
    generalize sin (((N + 1 : ℕ) : ℝ) * b) = S
    generalize cos (((N + 1 : ℕ) : ℝ) * b) = C
    have hc := Real.sin_sq_add_cos_sq (b / 2)
    generalize sin (b / 2) = s at *
    generalize cos (b / 2) = c at *
    have hc' : c ^ 2 = 1 - s ^ 2 := by linarith
    have hc3 : c ^ 3 = c * (1 - s ^ 2) := by rw [← hc']; ring
    field_simp
    push_cast
    ring_nf
    simp only [hc', hc3]
    ring

theorem sum_i_sin (N : ℕ) (g : ℝ) (h : sin (g / 2) ≠ 0) :
    -∑ i ∈ range N, ((i + 1 : ℕ) : ℝ) * sin ((i + 1 : ℕ) * g) = dCos N g := by
  induction N with
  | zero =>
    have e2 : ((0.5 : ℝ) + (0 : ℕ)) * g = g / 2 := by push_cast; ring
    simp only [dCos, e2]
    field_simp; simp
  | succ N ih =>
    rw [Finset.sum_range_succ, neg_add, ih]
    unfold dCos
    have e2 : ((0.5 : ℝ) + N) * g = ((N + 1 : ℕ) : ℝ) * g - g / 2 := by push_cast; ring
    have e5 : ((0.5 : ℝ) + (N + 1 : ℕ)) * g = ((N + 1 : ℕ) : ℝ) * g + g / 2 := by push_cast; ring
    rw [e2, e5]
    simp only [sin_add, sin_sub, cos_add, cos_sub]
    generalize sin (((N + 1 : ℕ) : ℝ) * g) = S
    generalize cos (((N + 1 : ℕ) : ℝ) * g) = C
    have hc := Real.sin_sq_add_cos_sq (g / 2)
    generalize sin (g / 2) = s at *
    generalize cos (g / 2) = c at *
    field_simp
    push_cast
    ring

/-- `x` is exactly `y` or the tolerance test tells them apart -/
def Apart (e x y : ℝ) : Prop := x = y ∨ Tol.eql e x y = false

theorem apart_iff {e x y : ℝ} (he : 0 < e) (h : Apart e x y) : Tol.eql e x y = true ↔ x = y := by
  constructor
  · intro h1
    rcases h with h | h
    · exact h
    · rw [h1] at h; cases h
  · rintro rfl; exact eql_self e x he

/-- **C32 (sum of cosines).** `sum_1_N_cos_ia` is Σ_{i=1}^{N} cos(i a). -/
theorem C32_sum_cos (e : ℝ) (he : 0 < e) (N : ℕ) (a : ℝ) (h0 : -(2 * π) < a) (h4 : a < 4 * π) (h1 : Apart e a 0)
    (h2 : Apart e a (2 * π)) : sumCos e N a = ∑ i ∈ range N, cos ((i + 1 : ℕ) * a) := by
  unfold sumCos
  by_cases c0 : a = 0
  · subst c0; simp [eql_self e 0 he]
  by_cases c2 : a = 2 * π
  · subst c2
    simp only [eql_self e (2 * π) he, Bool.or_true, if_true]
    have : ∀ i ∈ range N, cos ((i + 1 : ℕ) * (2 * π)) = 1 := fun i _ => Real.cos_nat_mul_two_pi _
    rw [sum_congr rfl this]; simp
  · have d0 : Tol.eql e a 0 = false := by
      cases hh : Tol.eql e a 0 with
      | false => rfl
      | true => exact absurd ((apart_iff he h1).1 hh) c0
    have d2 : Tol.eql e a (2 * π) = false := by
      cases hh : Tol.eql e a (2 * π) with
      | false => rfl
      | true => exact absurd ((apart_iff he h2).1 hh) c2
    rw [d0, d2]
    simp only [Bool.or_self, Bool.false_eq_true, if_false]
    refine (sum_cos_closed N a ?_).symm
    intro hs
    rw [Real.sin_eq_zero_iff] at hs
    obtain ⟨m, hm⟩ := hs
    have hp := Real.pi_pos
    have hm1 : (-1 : ℝ) < m := by nlinarith
    have hm2 : (m : ℝ) < 2 := by nlinarith
    have hm1' : (-1 : ℤ) < m := by exact_mod_cast hm1
    have hm2' : m < (2 : ℤ) := by exact_mod_cast hm2
    have : m = 0 ∨ m = 1 := by omega
    rcases this with rfl | rfl
    · apply c0; push_cast at hm; linarith
    · apply c2; push_cast at hm; linarith

/-- `dT_i/dq` at `q = cos a` -/
theorem dT_cos (i : ℕ) (a : ℝ) : (derivative (Chebyshev.T ℝ i)).eval (cos a) * sin a = i * sin (i * a) := by
  rw [Chebyshev.T_derivative_eq_U, eval_mul, mul_assoc, Chebyshev.U_real_cos]
  simp

theorem dT_one (i : ℕ) : (derivative (Chebyshev.T ℝ i)).eval 1 = (i : ℝ) ^ 2 := by
  rw [Chebyshev.T_derivative_eq_U, eval_mul, Chebyshev.U_eval_one]; simp; ring

theorem dT_neg_one (i : ℕ) : (derivative (Chebyshev.T ℝ i)).eval (-1) = -(cos (i * π) * (i : ℝ) ^ 2) := by
  rw [Chebyshev.T_derivative_eq_U, eval_mul, Chebyshev.U_eval_neg_one, negOnePow_real, ← sign_eq, sign]
  simp
  split <;> split <;> first | omega | ring

theorem sum_sq (N : ℕ) : ∑ i ∈ range N, ((i + 1 : ℕ) : ℝ) ^ 2 = (N * (N + 1) * (2 * N + 1) : ℝ) / 6 := by
  induction N with
  | zero => simp
  | succ N ih => rw [sum_range_succ, ih]; push_cast; ring

theorem sum_sq_alt (N : ℕ) : ∑ i ∈ range N, -(cos ((i + 1 : ℕ) * π) * ((i + 1 : ℕ) : ℝ) ^ 2) =
    if N % 2 = 0 then -(2 * ((N : ℝ) / 2) ^ 2 + (N : ℝ) / 2) else 2 * (((N : ℝ) - 1) / 2) ^ 2 + 3 * (((N : ℝ) - 1) / 2) + 1 := by
  induction N with
  | zero => simp
  | succ N ih =>
    rw [sum_range_succ, ih, ← sign_eq, sign]
    push_cast
    split <;> split <;> first | omega | ring

/-- **C32 (derivative of the sum).** `d_dq_sum_1_N_cos_ixb_cos_ixa` is Σ_{i=1}^{N} cos(i b) dT_i/dq at q = cos a. -/
theorem C32_dsum (e : ℝ) (he : 0 < e) (he3 : e ≤ 3) (N : ℕ) (a b : ℝ) (ha0 : 0 ≤ a) (ha1 : a ≤ π) (hb0 : 0 ≤ b) (hb1 : b ≤ π)
    (h1 : Apart e a 0) (h2 : Apart e a π) (h3 : Apart e b 0) (h4 : Apart e b π) (h5 : Apart e (a - b) 0) :
    dSum e N b a = ∑ i ∈ range N, cos ((i + 1 : ℕ) * b) * (derivative (Chebyshev.T ℝ (i + 1 : ℕ))).eval (cos a) := by
  have hp := Real.pi_pos
  have hp3 := Real.pi_gt_three
  have hne : ∀ x, -(2 * π) < x → x < 2 * π → x ≠ 0 → sin (x / 2) ≠ 0 := by
    intro x hx1 hx2 hx hs
    rw [Real.sin_eq_zero_iff] at hs
    obtain ⟨m, hm⟩ := hs
    have hm1 : (-1 : ℝ) < m := by nlinarith
    have hm2 : (m : ℝ) < 1 := by nlinarith
    have hm1' : (-1 : ℤ) < m := by exact_mod_cast hm1
    have hm2' : m < (1 : ℤ) := by exact_mod_cast hm2
    have : m = 0 := by omega
    subst this
    apply hx; push_cast at hm; linarith
  have epi : Tol.eql e π 0 = false := by
    simp only [Tol.eql, Bool.and_eq_false_iff, decide_eq_false_iff_not, not_lt]; left; linarith
  have fls : ∀ x y, Apart e x y → x ≠ y → Tol.eql e x y = false := by
    intro x y h hxy
    cases hh : Tol.eql e x y with
    | false => rfl
    | true => exact absurd ((apart_iff he h).1 hh) hxy
  unfold dSum
  by_cases c0 : a = 0
  · subst c0
    rw [if_pos (eql_self e 0 he)]
    simp only [cos_zero, dT_one]
    by_cases d0 : b = 0
    · subst d0
      rw [if_pos (eql_self e 0 he), ← sum_sq]
      simp
    · rw [if_neg (by simp [fls b 0 h3 d0]), ← sum_sq_cos N b (hne b (by linarith) (by linarith) d0)]
      exact sum_congr rfl fun i _ => by ring
  · rw [if_neg (by simp [fls a 0 h1 c0])]
    by_cases c1 : a = π
    · subst c1
      rw [if_pos (eql_self e π he)]
      simp only [cos_pi, dT_neg_one]
      by_cases d0 : b = 0
      · subst d0
        rw [if_pos (eql_self e 0 he)]
        simp only [mul_zero, cos_zero, one_mul]
        rw [sum_sq_alt]
      · rw [if_neg (by simp [fls b 0 h3 d0])]
        by_cases d1 : b = π
        · subst d1
          rw [if_pos (eql_self e π he), neg_div, ← sum_sq, ← sum_neg_distrib]
          refine sum_congr rfl fun i _ => ?_
          have := Trig.cos_nat_pi_sq (i + 1 : ℕ)
          push_cast at this ⊢
          linear_combination (((i : ℝ) + 1) ^ 2) * this
        · rw [if_neg (by simp [fls b π h4 d1])]
          have hb0' : 0 < b := lt_of_le_of_ne hb0 (Ne.symm d0)
          have hb1' : b < π := lt_of_le_of_ne hb1 d1
          rw [← sum_sq_cos N (π + b) (hne _ (by linarith) (by linarith) (by linarith)),
            ← sum_sq_cos N (π - b) (hne _ (by linarith) (by linarith) (by linarith)), ← sum_add_distrib, Finset.sum_div]
          refine sum_congr rfl fun i _ => ?_
          rw [mul_add, mul_sub, cos_add, cos_sub]
          ring
    · rw [if_neg (by simp [fls a π h2 c1])]
      have ha0' : 0 < a := lt_of_le_of_ne ha0 (Ne.symm c0)
      have ha1' : a < π := lt_of_le_of_ne ha1 c1
      have hs : sin a ≠ 0 := (Real.sin_pos_of_pos_of_lt_pi ha0' ha1').ne'
      have key : ∀ i : ℕ, cos ((i + 1 : ℕ) * b) * (derivative (Chebyshev.T ℝ (i + 1 : ℕ))).eval (cos a) =
          (-(((i + 1 : ℕ) : ℝ) * sin ((i + 1 : ℕ) * (a + b))) + -(((i + 1 : ℕ) : ℝ) * sin ((i + 1 : ℕ) * (a - b)))) / (-2 * sin a) := by
        intro i
        have := dT_cos (i + 1) a
        rw [eq_div_iff (by simpa using hs), mul_add, mul_sub, sin_add, sin_sub]
        linear_combination (-2 * cos ((i + 1 : ℕ) * b)) * this
      rw [sum_congr rfl fun i _ => key i, ← Finset.sum_div, sum_add_distrib, sum_neg_distrib, sum_neg_distrib,
        sum_i_sin N (a + b) (hne _ (by linarith) (by linarith) (by linarith))]
      by_cases d : a - b = 0
      · rw [if_pos ((apart_iff he h5).2 d), d]
        simp
      · rw [if_neg (by simp [fls (a - b) 0 h5 d]), sum_i_sin N (a - b) (hne _ (by linarith) (by linarith) d)]

/-! ### cardinal functions -/

/-- the j-th cardinal polynomial of the extrema grid with N+1 points, as the code expands it -/
noncomputable def card (N j : ℕ) : ℝ[X] :=
  ∑ i ∈ range (N + 1), C (kap N j / (2 * N) * (kap N i * cos (i * (j * π / N)))) * Chebyshev.T ℝ i

theorem linePoly_card (N : ℕ) (hN : 0 < N) (v : ℕ → ℝ) : linePoly N v = ∑ j ∈ range (N + 1), C (v j) * card N j := by
  unfold linePoly card
  simp only [extremaCoeff_eq N hN, mul_sum, sum_mul, map_sum]
  rw [sum_comm]
  refine sum_congr rfl fun j _ => sum_congr rfl fun i _ => ?_
  rw [← mul_assoc, ← C_mul]
  congr 2
  ring

theorem linePoly_eq (N : ℕ) (hN : 0 < N) (p : ℝ[X]) (hp : p.degree < (N + 1 : ℕ)) :
    linePoly N (fun j => p.eval (cos (j * π / N))) = p := by
  refine eq_of_degrees_lt_of_eval_index_eq (range (N + 1)) (nodes_injOn N hN) ?_ ?_ ?_
  · simpa using linePoly_degree N _
  · simpa using hp
  · intro i hi
    exact linePoly_node N hN _ i (Nat.lt_succ_iff.1 (mem_range.1 hi))

/-- Σ kap g = g_0 + g_N + 2 Σ_{1..N-1} g -/
theorem kap_split (N : ℕ) (hN : 0 < N) (g : ℕ → ℝ) :
    ∑ i ∈ range (N + 1), kap N i * g i = g 0 + g N + 2 * ∑ i ∈ range (N - 1), g (i + 1) := by
  rw [sum_kap N hN g]
  obtain ⟨M, rfl⟩ : ∃ M, N = M + 1 := ⟨N - 1, by omega⟩
  rw [sum_range_succ, sum_range_succ']
  simp only [Nat.add_sub_cancel]
  ring

/-- The point is a collocation point, or not within round-off of one (in angle); the points themselves are apart. -/
structure Generic (e : ℝ) (M : ℕ) (q : ℝ) : Prop where
  lo : -1 ≤ q
  hi : q ≤ 1
  sep : e * M ≤ π
  apart : ∀ j : ℕ, j ≤ M → Apart e (arccos q) (j * π / M)

theorem card_eval (M : ℕ) (hM : 0 < M) (j : ℕ) (q : ℝ) (h1 : -1 ≤ q) (h2 : q ≤ 1) : (card M j).eval q =
    kap M j / (2 * M) * (1 + cos (j * π) * cos (M * arccos q) + ∑ i ∈ range (M - 1), (cos ((i + 1 : ℕ) * (arccos q + j * π / M)) +
      cos ((i + 1 : ℕ) * (arccos q - j * π / M)))) := by
  have hM' : (M : ℝ) ≠ 0 := by positivity
  unfold card
  rw [eval_finsetSum]
  have : ∀ i : ℕ, eval q (C (kap M j / (2 * M) * (kap M i * cos (i * (j * π / M)))) * Chebyshev.T ℝ i) =
      kap M j / (2 * M) * (kap M i * (cos (i * (j * π / M)) * cos (i * arccos q))) := by
    intro i
    rw [eval_mul, eval_C]
    have h := Chebyshev.T_real_cos (arccos q) i
    rw [Real.cos_arccos h1 h2] at h
    rw [h]; push_cast; ring
  rw [sum_congr rfl fun i _ => this i, ← mul_sum, kap_split M hM (fun i => cos (i * (j * π / M)) * cos (i * arccos q))]
  congr 1
  have e1 : (M : ℝ) * (j * π / M) = j * π := by field_simp
  rw [e1, mul_sum]
  simp only [Nat.cast_zero, zero_mul, cos_zero, mul_one]
  congr 1
  refine sum_congr rfl fun i _ => ?_
  rw [mul_add, mul_sub, cos_add, cos_sub]; ring

theorem card_deriv_eval (M : ℕ) (hM : 0 < M) (j : ℕ) (q : ℝ) : (derivative (card M j)).eval q =
    kap M j / (2 * M) * (cos (j * π) * (M * (Chebyshev.U ℝ ((M : ℤ) - 1)).eval q) +
      2 * ∑ i ∈ range (M - 1), cos ((i + 1 : ℕ) * (j * π / M)) * (derivative (Chebyshev.T ℝ (i + 1 : ℕ))).eval q) := by
  have hM' : (M : ℝ) ≠ 0 := by positivity
  unfold card
  rw [derivative_sum, eval_finsetSum]
  have : ∀ i : ℕ, eval q (derivative (C (kap M j / (2 * M) * (kap M i * cos (i * (j * π / M)))) * Chebyshev.T ℝ i)) =
      kap M j / (2 * M) * (kap M i * (cos (i * (j * π / M)) * (derivative (Chebyshev.T ℝ i)).eval q)) := by
    intro i
    rw [derivative_C_mul, eval_mul, eval_C]; ring
  rw [sum_congr rfl fun i _ => this i, ← mul_sum, kap_split M hM (fun i => cos (i * (j * π / M)) * (derivative (Chebyshev.T ℝ i)).eval q)]
  congr 1
  have e1 : (M : ℝ) * (j * π / M) = j * π := by field_simp
  rw [e1, Chebyshev.T_derivative_eq_U (M : ℤ)]
  simp

section
variable (e : ℝ) (he : 0 < e) (he3 : e ≤ 3) (M : ℕ) (hM : 0 < M) (q : ℝ) (hq : Generic e M q)
include he he3 hM hq

theorem node_le (j : ℕ) (hj : j ≤ M) : (j : ℝ) * π / M ≤ π := by
  have : (j : ℝ) ≤ M := by exact_mod_cast hj
  have := Real.pi_pos
  rw [div_le_iff₀ (by positivity)]; nlinarith

theorem node_apart_zero (j : ℕ) : Apart e (j * π / M) 0 := by
  have hMr : (0 : ℝ) < M := by positivity
  rcases Nat.eq_zero_or_pos j with rfl | h
  · left; simp
  · right
    have : (1 : ℝ) ≤ j := by exact_mod_cast h
    have h2 : e ≤ j * π / M := by
      rw [le_div_iff₀ hMr]
      have := hq.sep
      have := Real.pi_pos
      nlinarith
    simp only [Tol.eql, Bool.and_eq_false_iff, decide_eq_false_iff_not, not_lt]; left; linarith

theorem node_apart_pi (j : ℕ) (hj : j ≤ M) : Apart e (j * π / M) π := by
  have hMr : (0 : ℝ) < M := by positivity
  rcases Nat.eq_or_lt_of_le hj with rfl | h
  · left; field_simp
  · right
    have : (j : ℝ) + 1 ≤ M := by exact_mod_cast h
    have h2 : (j : ℝ) * π / M + e ≤ π := by
      rw [← le_sub_iff_add_le, div_le_iff₀ hMr]
      have := hq.sep
      have := Real.pi_pos
      nlinarith
    simp only [Tol.eql, Bool.and_eq_false_iff, decide_eq_false_iff_not, not_lt]; right; linarith

theorem sumCos_plus (N j : ℕ) (hj : j ≤ M) :
    sumCos e N (arccos q + j * π / M) = ∑ i ∈ range N, cos ((i + 1 : ℕ) * (arccos q + j * π / M)) := by
  have hp := Real.pi_gt_three
  have hMr : (0 : ℝ) < M := by positivity
  have a0 := Real.arccos_nonneg q
  have a1 := Real.arccos_le_pi q
  have b0 : 0 ≤ (j : ℝ) * π / M := by positivity
  have b1 := node_le e he he3 M hM q hq j hj
  refine C32_sum_cos e he N _ (by linarith) (by linarith) ?_ ?_
  · -- apart from 0
    rcases Nat.eq_zero_or_pos j with rfl | h
    · have := hq.apart 0 (by omega)
      simpa using this
    · right
      rcases node_apart_zero e he he3 M hM q hq j with h2 | h2
      · exfalso
        have : 0 < (j : ℝ) * π / M := by positivity
        linarith
      · simp only [Tol.eql, Bool.and_eq_false_iff, decide_eq_false_iff_not, not_lt] at h2 ⊢
        left; rcases h2 with h2 | h2 <;> linarith
  · -- apart from 2π
    have hMM := hq.apart M le_rfl
    have e1 : (M : ℝ) * π / M = π := by field_simp
    rw [e1] at hMM
    rcases node_apart_pi e he he3 M hM q hq j hj with h2 | h2
    · rw [h2]
      rcases hMM with h | h
      · left; rw [h]; ring
      · right
        simp only [Tol.eql, Bool.and_eq_false_iff, decide_eq_false_iff_not, not_lt] at h ⊢
        rcases h with h | h
        · left; linarith
        · right; linarith
    · right
      simp only [Tol.eql, Bool.and_eq_false_iff, decide_eq_false_iff_not, not_lt] at h2 ⊢
      rcases h2 with h2 | h2
      · exfalso; linarith
      · right; linarith

theorem sumCos_minus (N j : ℕ) (hj : j ≤ M) :
    sumCos e N (arccos q - j * π / M) = ∑ i ∈ range N, cos ((i + 1 : ℕ) * (arccos q - j * π / M)) := by
  have hp := Real.pi_gt_three
  have a0 := Real.arccos_nonneg q
  have a1 := Real.arccos_le_pi q
  have b0 : 0 ≤ (j : ℝ) * π / M := by positivity
  have b1 := node_le e he he3 M hM q hq j hj
  refine C32_sum_cos e he N _ (by linarith) (by linarith) ?_ ?_
  · rcases hq.apart j hj with h | h
    · left; linarith
    · right
      simp only [Tol.eql, Bool.and_eq_false_iff, decide_eq_false_iff_not, not_lt] at h ⊢
      rcases h with h | h
      · left; linarith
      · right; linarith
  · right
    simp only [Tol.eql, Bool.and_eq_false_iff, decide_eq_false_iff_not, not_lt]
    right; linarith

theorem sumT_eq (j : ℕ) (hj : j ≤ M) : sumT e (M + 1) j q = .ok ((card M j).eval q) := by
  have hM' : (M : ℝ) ≠ 0 := by positivity
  have e1 : (M : ℝ) * π / M = π := by field_simp
  unfold sumT
  rw [if_neg (by rintro (h | h); linarith [hq.lo]; linarith [hq.hi]), if_neg (by omega), card_eval M hM j q hq.lo hq.hi]
  have hp := sumCos_plus e he he3 M hM q hq (M - 1) j hj
  have hm := sumCos_minus e he he3 M hM q hq (M - 1) j hj
  have e2 : M + 1 - 2 = M - 1 := by omega
  have e3 : M + 1 - 1 = M := by omega
  rw [sum_add_distrib, ← hp, ← hm]
  simp only [e2, e3, sign_eq]
  push_cast
  rw [add_sub_cancel_right]
  congr 1
  by_cases c0 : j = 0
  · subst c0
    simp [kap]
    field_simp; ring
  · by_cases c1 : j = M
    · subst c1
      rw [if_neg c0, if_pos rfl, e1]
      simp [kap]
      field_simp; ring
    · rw [if_neg c0, if_neg c1]
      simp [kap, c0, c1]
      field_simp; ring

theorem sumDT_eq (hs : Snapped e q) (h2 : e ≤ 2) (j : ℕ) (hj : j ≤ M) :
    sumDT e (M + 1) j q = .ok ((derivative (card M j)).eval q) := by
  have hM' : (M : ℝ) ≠ 0 := by positivity
  have e1 : (M : ℝ) * π / M = π := by field_simp
  have hpi := Real.pi_pos
  unfold sumDT
  rw [if_neg (by rintro (h | h); linarith [hq.lo]; linarith [hq.hi]), if_neg (by omega), card_deriv_eval M hM j q]
  have hd := C32_dsum e he he3 (M - 1) (arccos q) (j * π / M) (Real.arccos_nonneg q) (Real.arccos_le_pi q) (by positivity)
    (node_le e he he3 M hM q hq j hj) (by simpa using hq.apart 0 (by omega)) (by simpa [e1] using hq.apart M le_rfl)
    (node_apart_zero e he he3 M hM q hq j) (node_apart_pi e he he3 M hM q hq j hj) (by
      rcases hq.apart j hj with h | h
      · left; linarith
      · right
        simp only [Tol.eql, Bool.and_eq_false_iff, decide_eq_false_iff_not, not_lt] at h ⊢
        rcases h with h | h
        · left; linarith
        · right; linarith)
  rw [Real.cos_arccos hq.lo hq.hi] at hd
  rw [← hd]
  have e2 : M + 1 - 2 = M - 1 := by omega
  have e3 : M + 1 - 1 = M := by omega
  have e4 : (((M + 1 : ℕ) : ℤ) - 2) = (M : ℤ) - 1 := by push_cast; ring
  simp only [e2, e3, e4, sign_eq, C43_U e he h2 _ q hs]
  push_cast
  rw [add_sub_cancel_right]
  congr 1
  by_cases c0 : j = 0
  · subst c0
    simp [kap]
    field_simp; ring
  · by_cases c1 : j = M
    · subst c1
      rw [if_neg c0, if_pos rfl, e1]
      simp [kap]
      field_simp; ring
    · rw [if_neg c0, if_neg c1]
      simp [kap, c0, c1]
      field_simp; ring

/-- **C32 (values).** The numbers `sum_0_N_dCi_dfj_by_Ti_q(N,j,q)` are the weights with which the N point values enter the
interpolant at `q`: for every polynomial of degree < N they reproduce its value. -/
theorem C32_value (p : ℝ[X]) (hp : p.degree < (M + 1 : ℕ)) :
    ∃ L : ℕ → ℝ, (∀ j, j ≤ M → sumT e (M + 1) j q = .ok (L j)) ∧
      ∑ j ∈ range (M + 1), p.eval (cos (j * π / M)) * L j = p.eval q := by
  refine ⟨fun j => (card M j).eval q, fun j hj => sumT_eq e he he3 M hM q hq j hj, ?_⟩
  have := congrArg (eval q) ((linePoly_card M hM fun j => p.eval (cos (j * π / M))).symm.trans (linePoly_eq M hM p hp))
  rw [eval_finsetSum] at this
  rw [← this]
  exact sum_congr rfl fun j _ => by rw [eval_mul, eval_C]

/-- **C32 (derivatives).** The numbers `sum_0_N_dCi_dfj_by_dTi_dq(N,j,q)` are the weights with which the N point values
enter the derivative of the interpolant at `q`. -/
theorem C32_derivative (hs : Snapped e q) (h2 : e ≤ 2) (p : ℝ[X]) (hp : p.degree < (M + 1 : ℕ)) :
    ∃ L : ℕ → ℝ, (∀ j, j ≤ M → sumDT e (M + 1) j q = .ok (L j)) ∧
      ∑ j ∈ range (M + 1), p.eval (cos (j * π / M)) * L j = (derivative p).eval q := by
  refine ⟨fun j => (derivative (card M j)).eval q, fun j hj => sumDT_eq e he he3 M hM q hq hs h2 j hj, ?_⟩
  have := congrArg (fun p => eval q (derivative p))
    ((linePoly_card M hM fun j => p.eval (cos (j * π / M))).symm.trans (linePoly_eq M hM p hp))
  simp only [derivative_sum, eval_finsetSum] at this
  rw [← this]
  exact sum_congr rfl fun j _ => by rw [derivative_C_mul, eval_mul, eval_C]

end

/-- Every collocation point meets the hypotheses as long as neighbouring points are told apart by the round-off
(e (N-1)² ≤ 2; with e = 1e-12 that is N up to a million). -/
theorem generic_node (e : ℝ) (he : 0 < e) (M : ℕ) (hM : 0 < M) (hsep : e * (M : ℝ) ^ 2 ≤ 2) (l : ℕ) (hl : l ≤ M) :
    Generic e M (cos (l * π / M)) ∧ Snapped e (cos (l * π / M)) := by
  have hMr : (0 : ℝ) < M := by positivity
  have hM1 : (1 : ℝ) ≤ M := by exact_mod_cast hM
  have hp := Real.pi_gt_three
  have hle : ∀ j : ℕ, j ≤ M → (j : ℝ) * π / M ≤ π := by
    intro j hj
    have : (j : ℝ) ≤ M := by exact_mod_cast hj
    rw [div_le_iff₀ hMr]; nlinarith
  have hac : arccos (cos (l * π / M)) = l * π / M := Real.arccos_cos (by positivity) (hle l hl)
  have hsepM : e * M ≤ π := by nlinarith
  have hfar : ∀ i : ℕ, 0 < i → i ≤ M → cos (i * π / M) ≤ 1 - e := by
    intro i hi hiN
    have hx : |(i : ℝ) * π / M| ≤ π := by rw [abs_of_nonneg (by positivity)]; exact hle i hiN
    refine (Real.cos_le_one_sub_mul_cos_sq hx).trans ?_
    have h1 : 2 / π ^ 2 * ((i : ℝ) * π / M) ^ 2 = 2 / M ^ 2 * (i : ℝ) ^ 2 := by field_simp
    rw [h1]
    have h2 : (1 : ℝ) ≤ (i : ℝ) ^ 2 := by
      have : (1 : ℝ) ≤ i := by exact_mod_cast hi
      nlinarith
    have h3 : e ≤ 2 / (M : ℝ) ^ 2 := by rw [le_div_iff₀ (by positivity)]; exact hsep
    nlinarith
  refine ⟨⟨Real.neg_one_le_cos _, Real.cos_le_one _, hsepM, fun j hj => ?_⟩, ?_⟩
  · rw [hac]
    rcases lt_trichotomy l j with h | h | h
    · right
      have : (l : ℝ) + 1 ≤ j := by exact_mod_cast h
      simp only [Tol.eql, Bool.and_eq_false_iff, decide_eq_false_iff_not, not_lt]
      right
      rw [← sub_nonneg]
      have : (j : ℝ) * π / M - e - l * π / M = ((j - l) * π - e * M) / M := by field_simp; ring
      rw [this]
      apply div_nonneg _ hMr.le
      nlinarith
    · left; rw [h]
    · right
      have : (j : ℝ) + 1 ≤ l := by exact_mod_cast h
      simp only [Tol.eql, Bool.and_eq_false_iff, decide_eq_false_iff_not, not_lt]
      left
      rw [← sub_nonneg]
      have : (l : ℝ) * π / M - (j * π / M + e) = ((l - j) * π - e * M) / M := by field_simp; ring
      rw [this]
      apply div_nonneg _ hMr.le
      nlinarith
  · rcases Nat.eq_zero_or_pos l with rfl | h0
    · left; simp
    · rcases Nat.eq_or_lt_of_le hl with rfl | h1
      · right; left
        have : (l : ℝ) * π / l = π := by field_simp
        rw [this, cos_pi]
      · right; right
        have a := hfar l h0 hl
        have b := hfar (M - l) (by omega) (by omega)
        have h4 : ((M - l : ℕ) : ℝ) * π / M = π - l * π / M := by
          rw [Nat.cast_sub (by omega)]; field_simp
        rw [h4, cos_pi_sub] at b
        simp only [Tol.eql, Bool.and_eq_false_iff, decide_eq_false_iff_not, not_lt]
        refine ⟨Or.inr (by linarith), Or.inl (by linarith), Real.neg_one_le_cos _, Real.cos_le_one _⟩

/-- concrete instance: the derivative of x³ at the third of five collocation points -/
example : ∃ L : ℕ → ℝ, (∀ j, j ≤ 4 → sumDT 1e-12 5 j (cos ((2 : ℕ) * π / (4 : ℕ))) = .ok (L j)) ∧
    ∑ j ∈ range 5, (X ^ 3 : ℝ[X]).eval (cos (j * π / (4 : ℕ))) * L j = 3 * (cos ((2 : ℕ) * π / (4 : ℕ))) ^ 2 := by
  have h := generic_node 1e-12 (by norm_num) 4 (by norm_num) (by norm_num) 2 (by norm_num)
  obtain ⟨L, h1, h2⟩ := C32_derivative 1e-12 (by norm_num) (by norm_num) 4 (by norm_num) _ h.1 h.2 (by norm_num) (X ^ 3)
    (by rw [degree_X_pow]; norm_num)
  exact ⟨L, h1, by rw [h2]; simp; left; norm_num⟩

/-! ### C33: norms -/

theorem absd_eq (x : ℝ) : absd x = |x| := by
  unfold absd
  split
  · rename_i h; rw [abs_of_pos h]
  · rename_i h; rw [abs_of_nonpos (not_lt.1 h)]

/-- what a possibly null vector stands for -/
def vec (v : Option (ℕ → ℝ)) : ℕ → ℝ := v.getD fun _ => 0

/-- **C33 (Euclidean distance).** `root_square` is the Euclidean distance of the vectors, a null pointer being the zero
vector. -/
theorem C33_root_square (n : ℕ) (v2 v1 : Option (ℕ → ℝ)) :
    rootSquare n v2 v1 = √(∑ i ∈ range n, (vec v2 i - vec v1 i) ^ 2) := by
  cases v2 <;> cases v1 <;> simp [rootSquare, vec, sq]

/-- **C33 (L2).** Root mean square of the difference (n = 0 divides by zero in the code). -/
theorem C33_L2 (n : ℕ) (_hn : 0 < n) (v2 v1 : Option (ℕ → ℝ)) :
    l2Norm n v2 v1 = √((∑ i ∈ range n, (vec v2 i - vec v1 i) ^ 2) / n) := by
  rw [l2Norm, C33_root_square, Real.sqrt_div' _ (Nat.cast_nonneg n)]

/-- **C33 (L1).** Mean magnitude of the difference. -/
theorem C33_L1 (n : ℕ) (_hn : 0 < n) (v2 v1 : Option (ℕ → ℝ)) : l1Norm n v2 v1 = (∑ i ∈ range n, |vec v2 i - vec v1 i|) / n := by
  cases v2 <;> cases v1 <;> simp [l1Norm, vec, absd_eq]

/-- **C33 (norm laws).** Each of the three distances is non-negative, does not depend on the order of the two vectors and
is zero exactly when the vectors agree on the first `n` entries. -/
theorem C33_laws (n : ℕ) (hn : 0 < n) (v2 v1 : Option (ℕ → ℝ)) (d : ℕ → Option (ℕ → ℝ) → Option (ℕ → ℝ) → ℝ)
    (hd : d = rootSquare ∨ d = l2Norm ∨ d = l1Norm) :
    0 ≤ d n v2 v1 ∧ d n v2 v1 = d n v1 v2 ∧ (d n v2 v1 = 0 ↔ ∀ i < n, vec v2 i = vec v1 i) := by
  have hn' : (0 : ℝ) < n := by exact_mod_cast hn
  have hs : ∀ i ∈ range n, 0 ≤ (vec v2 i - vec v1 i) ^ 2 := fun i _ => sq_nonneg _
  have ha : ∀ i ∈ range n, 0 ≤ |vec v2 i - vec v1 i| := fun i _ => abs_nonneg _
  have hc : ∑ i ∈ range n, (vec v2 i - vec v1 i) ^ 2 = ∑ i ∈ range n, (vec v1 i - vec v2 i) ^ 2 :=
    sum_congr rfl fun i _ => by ring
  have hsq : ∑ i ∈ range n, (vec v2 i - vec v1 i) ^ 2 = 0 ↔ ∀ i < n, vec v2 i = vec v1 i := by
    rw [sum_eq_zero_iff_of_nonneg hs]
    simp [sub_eq_zero]
  rcases hd with rfl | rfl | rfl
  · rw [C33_root_square, C33_root_square, ← hc]
    exact ⟨Real.sqrt_nonneg _, rfl, by rw [Real.sqrt_eq_zero (sum_nonneg hs), hsq]⟩
  · rw [C33_L2 n hn, C33_L2 n hn, ← hc]
    exact ⟨Real.sqrt_nonneg _, rfl, by
      rw [Real.sqrt_eq_zero (div_nonneg (sum_nonneg hs) hn'.le), div_eq_zero_iff, or_iff_left hn'.ne', hsq]⟩
  · rw [C33_L1 n hn, C33_L1 n hn]
    refine ⟨div_nonneg (sum_nonneg ha) hn'.le, by simp only [abs_sub_comm], ?_⟩
    rw [div_eq_zero_iff, or_iff_left hn'.ne', sum_eq_zero_iff_of_nonneg ha]
    simp [sub_eq_zero]

example : (0 : ℕ) < 2 ∧ l1Norm 2 (some fun i => (i : ℝ)) none = 1 / 2 := by
  rw [C33_L1 2 (by norm_num)]; norm_num [vec, sum_range_succ]

/-- **C33 (maximum magnitude of two numbers).** -/
theorem C33_maxMag (a b : ℝ) : maxMag a b = max |a| |b| := by
  unfold maxMag
  rw [absd_eq, absd_eq]
  split
  · rename_i h; rw [max_eq_left h.le]
  · rename_i h; rw [max_eq_right (not_lt.1 h)]

theorem lInfLoop_spec (v : ℕ → ℝ) (l : List ℕ) (m : ℝ) :
    (lInfLoop v l m = m ∨ ∃ i ∈ l, lInfLoop v l m = |v i|) ∧ m ≤ lInfLoop v l m ∧ ∀ i ∈ l, |v i| ≤ lInfLoop v l m := by
  induction l generalizing m with
  | nil => simp [lInfLoop]
  | cons a l ih =>
    simp only [lInfLoop, absd_eq]
    split
    · rename_i h
      obtain ⟨h1, h2, h3⟩ := ih |v a|
      refine ⟨?_, by linarith, ?_⟩
      · rcases h1 with h1 | ⟨i, hi, h1⟩
        · exact Or.inr ⟨a, by simp, h1⟩
        · exact Or.inr ⟨i, by simp [hi], h1⟩
      · intro i hi
        rcases List.mem_cons.1 hi with rfl | hi
        · exact h2
        · exact h3 i hi
    · rename_i h
      obtain ⟨h1, h2, h3⟩ := ih m
      refine ⟨?_, h2, ?_⟩
      · rcases h1 with h1 | ⟨i, hi, h1⟩
        · exact Or.inl h1
        · exact Or.inr ⟨i, by simp [hi], h1⟩
      · intro i hi
        rcases List.mem_cons.1 hi with rfl | hi
        · linarith
        · exact h3 i hi

/-- **C33 (L infinity).** `L_inf` is the largest magnitude of the entries; it stops the program exactly on an empty
array. -/
theorem C33_Linf (N : ℕ) (v : ℕ → ℝ) (hN : 0 < N) :
    ∃ m, lInf N (some v) = .ok m ∧ (∃ i, i < N ∧ m = |v i|) ∧ ∀ i, i < N → |v i| ≤ m := by
  obtain ⟨h1, h2, h3⟩ := lInfLoop_spec v (List.range' 1 (N - 1)) (absd (v 0))
  rw [absd_eq] at *
  refine ⟨_, by rw [lInf, if_neg (by omega), absd_eq], ?_, ?_⟩
  · rcases h1 with h1 | ⟨i, hi, h1⟩
    · exact ⟨0, hN, h1⟩
    · rw [List.mem_range'_1] at hi
      exact ⟨i, by omega, h1⟩
  · intro i hi
    rcases Nat.eq_zero_or_pos i with rfl | h
    · exact h2
    · exact h3 i (by rw [List.mem_range'_1]; omega)

theorem C33_Linf_empty (N : ℕ) (v : Option (ℕ → ℝ)) : lInf N v = .abort ↔ v = none ∨ N = 0 := by
  cases v with
  | none => simp [lInf]
  | some v =>
    by_cases h : N = 0
    · simp [lInf, h]
    · simp [lInf, h]

example : ∃ m, lInf 3 (some fun i => if i = 1 then -5 else (i : ℝ)) = .ok m ∧ m = 5 := by
  obtain ⟨m, h1, ⟨i, hi, h2⟩, h3⟩ := C33_Linf 3 (fun i => if i = 1 then -5 else (i : ℝ)) (by norm_num)
  refine ⟨m, h1, ?_⟩
  have := h3 1 (by norm_num)
  have h4 : i = 0 ∨ i = 1 ∨ i = 2 := by omega
  rcases h4 with rfl | rfl | rfl <;> norm_num at h2 this <;> linarith

end Elliptica.General
