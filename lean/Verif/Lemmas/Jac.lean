import Verif.Model.Jac
import Verif.Props.General
import Verif.Props.Deriv
/-! Lemmas for C68: the closed forms of the kernel, one line of the spectral derivative as a matrix. -/
namespace Elliptica.Jac
open Real Finset Polynomial Elliptica.Index Elliptica.Cheb Elliptica.Deriv Elliptica.General

/-- multiples of π/M are equal or told apart -/
theorem apart_int (e : ℝ) (M : ℕ) (hM : 0 < M) (hsep : e * M ≤ π) (a b : ℤ) : Apart e (a * π / M) (b * π / M) := by
  have hMr : (0 : ℝ) < M := by positivity
  have hp := Real.pi_pos
  rcases lt_trichotomy a b with h | h | h
  · right
    have h1 : (a : ℝ) + 1 ≤ b := by exact_mod_cast h
    simp only [Tol.eql, Bool.and_eq_false_iff, decide_eq_false_iff_not, not_lt]
    right
    rw [← sub_nonneg]
    have : (b : ℝ) * π / M - e - a * π / M = ((b - a) * π - e * M) / M := by field_simp; ring
    rw [this]
    apply div_nonneg _ hMr.le
    nlinarith
  · left; rw [h]
  · right
    have h1 : (b : ℝ) + 1 ≤ a := by exact_mod_cast h
    simp only [Tol.eql, Bool.and_eq_false_iff, decide_eq_false_iff_not, not_lt]
    left
    rw [← sub_nonneg]
    have : (a : ℝ) * π / M - (b * π / M + e) = ((a - b) * π - e * M) / M := by field_simp; ring
    rw [this]
    apply div_nonneg _ hMr.le
    nlinarith

theorem eql_int (e : ℝ) (he : 0 < e) (M : ℕ) (hM : 0 < M) (hsep : e * M ≤ π) (a b : ℤ) :
    Tol.eql e (a * π / M) (b * π / M) = decide (a = b) := by
  have h := apart_iff he (apart_int e M hM hsep a b)
  have hMr : (M : ℝ) ≠ 0 := by positivity
  have hpi := Real.pi_ne_zero
  have h2 : ((a : ℝ) * π / M = b * π / M) ↔ a = b := by
    constructor
    · intro h3
      have : (a : ℝ) = b := by
        have h4 := (div_left_inj' hMr).1 h3
        exact mul_right_cancel₀ hpi h4
      exact_mod_cast this
    · rintro rfl; rfl
  rw [h2] at h
  by_cases hab : a = b
  · rw [decide_eq_true hab]; exact h.2 hab
  · rw [decide_eq_false hab]
    cases hh : Tol.eql e (a * π / M) (b * π / M) with
    | false => rfl
    | true => exact absurd (h.1 hh) hab

/-- d1 is dCos -/
theorem d1_closed (e : ℝ) (N : ℕ) (lam : ℝ) (h1 : Tol.eql e lam 0 = false) (h2 : Tol.eql e lam (2 * π) = false) :
    d1 e (N + 0.5) lam = dCos N lam := by
  unfold d1 dCos
  rw [h1, h2]
  simp only [Bool.or_self, Bool.false_eq_true, if_false]
  rw [Real.tan_eq_sin_div_cos, one_div_div, show (0.5 : ℝ) * lam = lam / 2 by ring,
    show lam * ((N : ℝ) + 0.5) = (0.5 + N) * lam by ring]
  ring

/-- d2 is minus Σ n² cos(n λ) -/
theorem d2_closed (e : ℝ) (N : ℕ) (lam : ℝ) (h1 : Tol.eql e lam 0 = false) (h2 : Tol.eql e lam (2 * π) = false)
    (hs : sin (lam / 2) ≠ 0) : d2 e N (N + 0.5) lam = -sqCos N lam := by
  unfold d2 sqCos
  rw [h1, h2]
  simp only [Bool.or_self, Bool.false_eq_true, if_false]
  rw [Real.tan_eq_sin_div_cos, one_div_div, show (0.5 : ℝ) * lam = lam / 2 by ring,
    show lam * ((N : ℝ) + 0.5) = N * lam + lam / 2 by ring,
    show (0.5 - (N : ℝ)) * lam = -(N * lam - lam / 2) by ring, show (0.5 + (N : ℝ)) * lam = N * lam + lam / 2 by ring,
    show (1.5 + (N : ℝ)) * lam = N * lam + (lam / 2 + lam / 2 + lam / 2) by ring]
  simp only [sin_neg, sin_add, sin_sub, cos_add]
  generalize sin ((N : ℝ) * lam) = S
  generalize cos ((N : ℝ) * lam) = C
  have hc := Real.sin_sq_add_cos_sq (lam / 2)
  generalize sin (lam / 2) = s at *
  generalize cos (lam / 2) = c at *
  have hc' : c ^ 2 = 1 - s ^ 2 := by linarith
  have hc3 : c ^ 3 = c * (1 - s ^ 2) := by rw [← hc']; ring
  field_simp
  ring_nf
  simp only [hc', hc3]
  ring

/-- the integer multiples of π/M with half of a non-multiple of 2π -/
theorem sin_half_ne (M : ℕ) (hM : 0 < M) (k : ℤ) (h : ¬ (2 * M : ℤ) ∣ k) : sin ((k : ℝ) * π / M / 2) ≠ 0 :=
  fun hs => h (Trig.dvd_of_sin_eq_zero M hM k hs)

theorem dvd_small (M : ℕ) (hM : 0 < M) (k : ℤ) (h1 : -(2 * M : ℤ) < k) (h2 : k ≤ 2 * M) (hd : (2 * M : ℤ) ∣ k) :
    k = 0 ∨ k = 2 * M := by
  obtain ⟨c, rfl⟩ := hd
  have hM' : (0 : ℤ) < 2 * M := by positivity
  have h3 : c ≤ 1 := by nlinarith
  have h4 : -1 < c := by nlinarith
  have : c = 0 ∨ c = 1 := by omega
  rcases this with rfl | rfl
  · left; ring
  · right; ring

section
variable (e : ℝ) (he : 0 < e) (M : ℕ) (hM : 0 < M) (hsep : e * M ≤ π)
include he hM hsep

theorem d2_node (k : ℤ) (h1 : -(2 * M : ℤ) < k) (h2 : k ≤ 2 * M) :
    d2 e M (M + 0.5) (k * π / M) = -∑ i ∈ range M, ((i + 1 : ℕ) : ℝ) ^ 2 * cos ((i + 1 : ℕ) * (k * π / M)) := by
  have hMr : (M : ℝ) ≠ 0 := by positivity
  have a0 := eql_int e he M hM hsep k 0
  have a2 := eql_int e he M hM hsep k (2 * M)
  have e0 : ((0 : ℤ) : ℝ) * π / M = 0 := by simp
  have e2 : ((2 * M : ℤ) : ℝ) * π / M = 2 * π := by push_cast; field_simp
  rw [e0] at a0
  rw [e2] at a2
  by_cases hd : (2 * M : ℤ) ∣ k
  · have hone : ∀ i ∈ range M, ((i + 1 : ℕ) : ℝ) ^ 2 * cos ((i + 1 : ℕ) * (k * π / M)) = ((i + 1 : ℕ) : ℝ) ^ 2 := by
      intro i _
      rcases dvd_small M hM k h1 h2 hd with rfl | rfl
      · simp
      · rw [e2, Real.cos_nat_mul_two_pi, mul_one]
    rw [sum_congr rfl hone, sum_sq]
    unfold d2
    rw [a0, a2, if_pos]
    · ring
    · rcases dvd_small M hM k h1 h2 hd with rfl | rfl <;> simp
  · have b0 : k ≠ 0 := by rintro rfl; exact hd (dvd_zero _)
    have b2 : k ≠ 2 * M := by rintro rfl; exact hd (dvd_refl _)
    rw [d2_closed e M _ (by rw [a0]; simpa using b0) (by rw [a2]; simpa using b2) (sin_half_ne M hM k hd),
      sum_sq_cos M _ (sin_half_ne M hM k hd)]

theorem d1_node (k : ℤ) (h1 : -(2 * M : ℤ) < k) (h2 : k ≤ 2 * M) :
    d1 e (M + 0.5) (k * π / M) = -∑ i ∈ range M, ((i + 1 : ℕ) : ℝ) * sin ((i + 1 : ℕ) * (k * π / M)) := by
  have hMr : (M : ℝ) ≠ 0 := by positivity
  have a0 := eql_int e he M hM hsep k 0
  have a2 := eql_int e he M hM hsep k (2 * M)
  have e0 : ((0 : ℤ) : ℝ) * π / M = 0 := by simp
  have e2 : ((2 * M : ℤ) : ℝ) * π / M = 2 * π := by push_cast; field_simp
  rw [e0] at a0
  rw [e2] at a2
  by_cases hd : (2 * M : ℤ) ∣ k
  · have hone : ∀ i ∈ range M, ((i + 1 : ℕ) : ℝ) * sin ((i + 1 : ℕ) * (k * π / M)) = 0 := by
      intro i _
      rcases dvd_small M hM k h1 h2 hd with rfl | rfl
      · simp
      · rw [e2, show ((i + 1 : ℕ) : ℝ) * (2 * π) = ((2 * (i + 1) : ℕ) : ℝ) * π by push_cast; ring, Real.sin_nat_mul_pi, mul_zero]
    rw [sum_congr rfl hone]
    unfold d1
    rw [a0, a2, if_pos]
    · simp
    · rcases dvd_small M hM k h1 h2 hd with rfl | rfl <;> simp
  · have b0 : k ≠ 0 := by rintro rfl; exact hd (dvd_zero _)
    have b2 : k ≠ 2 * M := by rintro rfl; exact hd (dvd_refl _)
    rw [d1_closed e M _ (by rw [a0]; simpa using b0) (by rw [a2]; simpa using b2), sum_i_sin M _ (sin_half_ne M hM k hd)]

/-- the closed form of d/dX 2 Σ T_n(X_j) T_n(X) at a collocation point -/
theorem dXi_node (i j : ℕ) (hi : i ≤ M) (hj : j ≤ M) :
    dXi e (i * π / M) (j * π / M) M =
      2 * ∑ n ∈ range M, cos ((n + 1 : ℕ) * (j * π / M)) * (derivative (Chebyshev.T ℝ (n + 1 : ℕ))).eval (cos (i * π / M)) := by
  have hMr : (M : ℝ) ≠ 0 := by positivity
  have hMp : (0 : ℝ) < M := by positivity
  have hpi := Real.pi_pos
  have e0 : ((0 : ℤ) : ℝ) * π / M = 0 := by simp
  have eM : ((M : ℤ) : ℝ) * π / M = π := by push_cast; field_simp
  have a0 := eql_int e he M hM hsep i 0
  have aM := eql_int e he M hM hsep i M
  rw [e0] at a0
  rw [eM] at aM
  have hcast : ((i : ℤ) : ℝ) = (i : ℝ) := by push_cast; rfl
  rw [hcast] at a0 aM
  unfold dXi
  dsimp only
  rw [a0, aM]
  by_cases c0 : i = 0
  · subst c0
    simp only [Nat.cast_zero, decide_true, if_true]
    have h := d2_node e he M hM hsep j (by omega) (by omega)
    push_cast at h ⊢
    rw [h]
    simp only [zero_mul, zero_div, cos_zero]
    have := fun n : ℕ => dT_one (n + 1)
    push_cast at this
    simp only [this, mul_sum]
    rw [← sum_neg_distrib, mul_sum]
    exact sum_congr rfl fun n _ => by ring
  · have c0' : ¬ ((i : ℤ) = 0) := by exact_mod_cast c0
    rw [decide_eq_false c0']
    by_cases c1 : i = M
    · subst c1
      simp only [decide_true, if_true, Bool.false_eq_true, if_false]
      have h := d2_node e he i hM hsep ((j : ℤ) + i) (by omega) (by omega)
      have h' := d2_node e he i hM hsep ((j : ℤ) - i) (by omega) (by omega)
      have f1 : ((((j : ℤ) + i : ℤ)) : ℝ) * π / i = j * π / i + π := by push_cast; field_simp
      have f2 : ((((j : ℤ) - i : ℤ)) : ℝ) * π / i = j * π / i - π := by push_cast; field_simp
      rw [f1] at h
      rw [f2] at h'
      have f3 : (i : ℝ) * π / i = π := by field_simp
      rw [h, h', f3, cos_pi, mul_sum, ← neg_add, ← sum_add_distrib, ← sum_neg_distrib]
      refine sum_congr rfl fun n _ => ?_
      rw [dT_neg_one (n + 1)]
      rw [mul_add, mul_sub, cos_add, cos_sub]
      ring
    · have c1' : ¬ ((i : ℤ) = M) := by exact_mod_cast c1
      rw [decide_eq_false c1']
      simp only [Bool.false_eq_true, if_false]
      have h := d1_node e he M hM hsep ((i : ℤ) + j) (by omega) (by omega)
      have h' := d1_node e he M hM hsep ((i : ℤ) - j) (by omega) (by omega)
      have f1 : ((((i : ℤ) + j : ℤ)) : ℝ) * π / M = i * π / M + j * π / M := by push_cast; ring
      have f2 : ((((i : ℤ) - j : ℤ)) : ℝ) * π / M = i * π / M - j * π / M := by push_cast; ring
      rw [f1] at h
      rw [f2] at h'
      have hs : sin (i * π / M) ≠ 0 := by
        apply ne_of_gt
        apply Real.sin_pos_of_pos_of_lt_pi
        · have : (0 : ℝ) < i := by exact_mod_cast Nat.pos_of_ne_zero c0
          positivity
        · rw [div_lt_iff₀ hMp]
          have : (i : ℝ) < M := by exact_mod_cast lt_of_le_of_ne hi c1
          nlinarith
      rw [h, h', ← neg_add, ← sum_add_distrib, ← sum_neg_distrib, sum_mul, mul_sum]
      refine sum_congr rfl fun n _ => ?_
      have hd := dT_cos (n + 1) (i * π / M)
      rw [mul_add, mul_sub, sin_add, sin_sub]
      generalize (i : ℝ) * π / M = a at *
      generalize (j : ℝ) * π / M = b at *
      rw [mul_div_assoc', div_eq_iff hs]
      linear_combination (-2 * cos ((n + 1 : ℕ) * b)) * hd
end

/-! ### the kernel -/

theorem eta_kap (j N : ℕ) : eta j N = kap N j := rfl

theorem jsign_cos (j : ℕ) : jsign j = cos (j * π) := by
  rw [← sign_eq, jsign, sign]
  rcases Nat.mod_two_eq_zero_or_one j with h | h <;> simp [h]

theorem kernel (e : ℝ) (he : 0 < e) (he2 : e ≤ 2) (M : ℕ) (hM : 0 < M) (hsep : e * M ≤ π) (i j : ℕ) (hi : i ≤ M) (hj : j ≤ M)
    (hs : Snapped e (cos (i * π / M))) :
    0.5 / (M : ℝ) * d2fdudX e (i * π / M) (j * π / M) M j = (derivative (card M j)).eval (cos (i * π / M)) := by
  have hMr : (M : ℝ) ≠ 0 := by positivity
  rw [card_deriv_eval M hM]
  unfold d2fdudX
  rw [dXi_node e he M hM hsep i j hi hj, eta_kap, jsign_cos, C43_dT e he he2 M _ hs]
  obtain ⟨K, rfl⟩ : ∃ K, M = K + 1 := ⟨M - 1, by omega⟩
  rw [sum_range_succ]
  have e1 : ((K + 1 : ℕ) : ℝ) * (j * π / (K + 1 : ℕ)) = j * π := by field_simp
  rw [e1, Nat.add_sub_cancel, Chebyshev.T_derivative_eq_U ((K + 1 : ℕ) : ℤ)]
  simp only [eval_mul]
  generalize (∑ x ∈ range K, cos ((x + 1 : ℕ) * (j * π / (K + 1 : ℕ))) * eval (cos (i * π / (K + 1 : ℕ))) (derivative (Chebyshev.T ℝ ((x + 1 : ℕ) : ℤ)))) = S
  simp
  field_simp
  ring

/-! ### on a patch -/

/-- the matrix of d/dN along one direction of the patch -/
noncomputable def D (p : Patch) (d : Fin 3) (i j : ℕ) : ℝ :=
  (derivative (card (p.n d - 1) j)).eval (cos (i * π / (p.n d - 1 : ℕ)))

section
variable {e : ℝ} {p : Patch} (hp : Good e p) (hx : ∀ d, p.coll d = .extrema)
include hp

theorem sep (d : Fin 3) : e * (p.n d - 1 : ℕ) ≤ π := by
  have h1 := hp.tol d
  have h2 : (2 : ℝ) ≤ p.n d := by exact_mod_cast hp.two d
  have h3 := hp.pos
  have h4 : ((p.n d - 1 : ℕ) : ℝ) ≤ p.n d := by exact_mod_cast Nat.sub_le _ _
  have := Real.pi_gt_three
  nlinarith

theorem cast_n (d : Fin 3) : (p.n d : ℝ) - 1 = (p.n d - 1 : ℕ) := by
  rw [Nat.cast_sub (by have := hp.two d; omega)]; simp

theorem dN_eq (X x : Fin 3) (l : ℕ) : dXdx p l X x * dNdXs p X = dNdq1 p X (.x x) l := by
  unfold dXdx dNdXs dNdq1
  rw [if_neg (by simp), if_neg (by simp)]
  unfold dNdq
  rw [hp.tn X]
  ring

include hx in
theorem snapped (X : Fin 3) (i : ℕ) (hi : i < p.n X) : Snapped e (cos (i * π / (p.n X - 1 : ℕ))) := by
  have := npt_snapped hp X i hi
  unfold npt at this
  rw [hx X] at this
  exact this

include hx in
theorem axis_eq (x X : Fin 3) (l qi qj : ℕ) (hi : qi < p.n X) (hj : qj < p.n X) :
    d2fdudx e p x X l qi qj = dNdq1 p X (.x x) l * D p X qi qj := by
  have h2 := hp.two X
  unfold d2fdudx D theta
  rw [← kernel e hp.pos hp.e2 (p.n X - 1) (by omega) (sep hp X) qi qj (by omega) (by omega) (snapped hp hx X qi hi),
    ← dN_eq hp, cast_n hp X]
  ring

omit hp in
theorem d1o_eq (N0 lam : ℝ) : d1o e N0 lam = d1 e N0 lam := by
  unfold d1o d1
  dsimp only
  rw [Real.tan_eq_sin_div_cos, one_div_div]

omit hp in
theorem d2o_eq (X : Fin 3) (lam : ℝ) : d2o e (setWork e p) X lam = d2 e (p.n X - 1) ((p.n X - 1 : ℕ) + 0.5) lam := by
  unfold d2o d2
  simp only [setWork]
  rw [Real.tan_eq_sin_div_cos, one_div_div, add_comm (0.5 : ℝ)]

omit hp in
theorem dXiO_eq (X : Fin 3) (a b : ℝ) : dXiO e (setWork e p) a b X = dXi e a b (p.n X - 1) := by
  unfold dXiO dXi
  simp only [d2o_eq, d1o_eq]
  simp only [setWork, add_comm (0.5 : ℝ)]

theorem axisO_plain (x X : Fin 3) (l qi qj : ℕ) (hc : coords p l X = qi) :
    d2fdudxO e p (setWork e p) x X l qi qj = d2fdudx e p x X l qi qj := by
  unfold d2fdudxO d2fdudx d2fdudX theta
  rw [dXiO_eq, cast_n hp X]
  simp only [setWork, hc, mul_div_assoc]

end

/-- along the line through t in direction d the values are those of a polynomial in the normalised coordinate -/
theorem line_poly {e : ℝ} {p : Patch} (hp : Good e p) (v : Coeff.Data ℝ) (d : Fin 3) (P : MvPolynomial (Fin 3) ℝ)
    (hP : MvPolynomial.degreeOf d P < p.n d) (hv : Samples p v P) (t : Fin 3 → ℕ) (ht : Inside p t) :
    ∃ q : ℝ[X], q.degree < (p.n d : ℕ) ∧ (∀ j, j < p.n d → v (idx p (Function.update t d j)) = q.eval (npt p d j)) ∧
      (derivative q).eval (npt p d (t d)) = half p d * MvPolynomial.eval (pos p t) (MvPolynomial.pderiv d P) := by
  refine ⟨(restrict P (pos p t) d).comp (C (half p d) * X + C ((p.mx d + p.mn d) / 2)),
    comp_degree _ _ _ _ (restrict_degree P _ d _ hP), ?_, ?_⟩
  · intro j hj
    rw [hv _ (inside_update t ht d j hj), eval_comp]
    simp only [eval_add, eval_mul, eval_C, eval_X]
    rw [← ptv_eq hp, restrict_eval]
    congr 1
    refine congrArg _ ?_
    funext j'
    by_cases h : j' = d
    · subst h; simp [pos]
    · simp [pos, h]
  · have h1 := dP_comp false (restrict P (pos p t) d) (half p d) ((p.mx d + p.mn d) / 2) (npt p d (t d))
    rw [← ptv_eq hp, restrict_pd, restrict_eval] at h1
    unfold dP pd at h1
    simp only [Bool.false_eq_true, if_false] at h1
    rw [h1]
    congr 2
    refine congrArg _ ?_
    funext j'
    by_cases h : j' = d
    · subst h; simp [pos]
    · simp [h]

/-- the weights of a derivative along one line -/
theorem D_line (M : ℕ) (hM : 0 < M) (q : ℝ[X]) (hq : q.degree < (M + 1 : ℕ)) (x : ℝ) :
    ∑ j ∈ range (M + 1), (derivative (card M j)).eval x * q.eval (cos (j * π / M)) = (derivative q).eval x := by
  have := congrArg (fun p => eval x (derivative p))
    ((linePoly_card M hM fun j => q.eval (cos (j * π / M))).symm.trans (General.linePoly_eq M hM q hq))
  simp only [derivative_sum, eval_finsetSum] at this
  rw [← this]
  exact sum_congr rfl fun j _ => by rw [derivative_C_mul, eval_mul, eval_C]; ring

/-- one first derivative as a matrix acting on the values -/
theorem first_matrix {e : ℝ} {p : Patch} (hp : Good e p) (hx : ∀ d, p.coll d = .extrema) (hs : p.sys ≠ .other)
    (f : Coeff.St ℝ) (hf : Coeff.Inv p.n (mW p) f) (x : Fin 3) :
    ∃ f' w, first e p f (.x x) = .ok (f', w) ∧ f'.v = f.v ∧ Coeff.Inv p.n (mW p) f' ∧
      ∀ t, Inside p t → w (idx p t) =
        ∑ d, dNdq1 p d (.x x) (idx p t) * ∑ j ∈ range (p.n d), D p d (t d) j * f.v (idx p (Function.update t d j)) := by
  obtain ⟨P, hP, hv⟩ := C54_interpolant hp f.v
  obtain ⟨f', w, h1, h2, h3, h4⟩ := first_ok hp hs f hf (.x x) trivial P hP hv
  refine ⟨f', w, h1, h2, h3, fun t ht => ?_⟩
  rw [h4 t ht]
  refine sum_congr rfl fun d _ => ?_
  obtain ⟨q, q1, q2, q3⟩ := line_poly hp f.v d P (hP d) hv t ht
  have hn := hp.two d
  obtain ⟨M, hM⟩ : ∃ M, p.n d = M + 1 := ⟨p.n d - 1, by omega⟩
  have hnpt : ∀ j, npt p d j = cos (j * π / M) := by
    intro j; unfold npt; rw [hx d, hM]; rfl
  have : ∑ j ∈ range (p.n d), D p d (t d) j * f.v (idx p (Function.update t d j)) =
      half p d * MvPolynomial.eval (pos p t) (MvPolynomial.pderiv d P) := by
    rw [← q3, hnpt, ← D_line M (by omega) q (by rw [← hM]; exact q1), hM]
    refine sum_congr rfl fun j hj => ?_
    rw [q2 j (by rw [hM]; exact mem_range.1 hj), hnpt]
    unfold D
    rw [hM]
    rfl
  rw [this, ← half_dN hp d (.x x) trivial]
  ring

end Elliptica.Jac
