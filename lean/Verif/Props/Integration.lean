import Verif.Props.Quadrature
import Mathlib.LinearAlgebra.Matrix.NonsingularInverse
import Mathlib.LinearAlgebra.Matrix.Adjugate
import Mathlib.Analysis.SpecialFunctions.Integrals.Basic
/-!
Property C48, spectral integrals over a patch, a part of it, or one of its coordinate surfaces.
-/
namespace Elliptica.Integ
open Real Finset Polynomial Elliptica.Cheb Elliptica.Index

/-! ### integrals of the Chebyshev polynomials -/

theorem T_cos (n : ℕ) (t : ℝ) : (Chebyshev.T ℝ n).eval (cos t) = cos (n * t) := by
  rw [Chebyshev.T_real_cos]; push_cast; rfl

/-- ∫ T_n from cos(s) to cos(t) -/
theorem int_T (n : ℕ) (s t : ℝ) : ∫ x in (cos s)..(cos t), (Chebyshev.T ℝ n).eval x =
    if n = 0 then cos t - cos s else if n = 1 then (cos (2 * t) - cos (2 * s)) / 4
    else (-cos t * cos (t * n) + cos s * cos (s * n) - n * sin t * sin (t * n) + n * sin s * sin (s * n)) / ((n : ℝ) ^ 2 - 1) := by
  by_cases h0 : n = 0
  · subst h0; simp
  by_cases h1 : n = 1
  · subst h1
    simp only [Nat.cast_one, one_ne_zero, if_false, if_true]
    have h := Legendre.int_deriv (C (1 / 2) * Polynomial.X ^ 2) (cos s) (cos t)
    have e : derivative (C (1 / 2) * Polynomial.X ^ 2 : ℝ[X]) = Chebyshev.T ℝ 1 := by
      apply Polynomial.funext; intro y; simp [derivative_X_pow]; ring
    rw [e] at h
    rw [h, cos_two_mul, cos_two_mul]
    simp; ring
  rw [if_neg h0, if_neg h1]
  obtain ⟨m, rfl⟩ : ∃ m, n = m + 2 := ⟨n - 2, by omega⟩
  have hd : derivative (C (1 / (2 * ((m : ℝ) + 3))) * Chebyshev.T ℝ ((m + 3 : ℕ) : ℤ) - C (1 / (2 * ((m : ℝ) + 1))) * Chebyshev.T ℝ ((m + 1 : ℕ) : ℤ)) =
      Chebyshev.T ℝ ((m + 2 : ℕ) : ℤ) := by
    rw [derivative_sub, derivative_C_mul, derivative_C_mul, Chebyshev.T_derivative_eq_U, Chebyshev.T_derivative_eq_U]
    have h := Chebyshev.two_mul_T_eq_U_sub_U ℝ (m : ℤ)
    push_cast
    rw [show (m : ℤ) + 3 - 1 = m + 2 by ring, show (m : ℤ) + 1 - 1 = m by ring]
    have hu : Chebyshev.U ℝ ((m : ℤ) + 2) = 2 * Chebyshev.T ℝ ((m : ℤ) + 2) + Chebyshev.U ℝ (m : ℤ) := by rw [h]; ring
    rw [hu]
    apply Polynomial.funext
    intro y
    simp only [eval_sub, eval_mul, eval_C, eval_add, eval_natCast, eval_ofNat, Polynomial.eval_one]
    have a1 : (m : ℝ) + 3 ≠ 0 := by positivity
    have a2 : (m : ℝ) + 1 ≠ 0 := by positivity
    field_simp
    ring
  have h := Legendre.int_deriv (C (1 / (2 * ((m : ℝ) + 3))) * Chebyshev.T ℝ ((m + 3 : ℕ) : ℤ) - C (1 / (2 * ((m : ℝ) + 1))) * Chebyshev.T ℝ ((m + 1 : ℕ) : ℤ))
    (cos s) (cos t)
  rw [hd] at h
  rw [h]
  simp only [eval_sub, eval_mul, eval_C, T_cos]
  have c3 (x : ℝ) : cos (((m + 3 : ℕ) : ℝ) * x) = cos (x * ((m + 2 : ℕ) : ℝ)) * cos x - sin (x * ((m + 2 : ℕ) : ℝ)) * sin x := by
    rw [← cos_add]; congr 1; push_cast; ring
  have c1 (x : ℝ) : cos (((m + 1 : ℕ) : ℝ) * x) = cos (x * ((m + 2 : ℕ) : ℝ)) * cos x + sin (x * ((m + 2 : ℕ) : ℝ)) * sin x := by
    rw [← cos_sub]; congr 1; push_cast; ring
  rw [c3, c3, c1, c1]
  push_cast
  have a1 : (m : ℝ) + 3 ≠ 0 := by positivity
  have a2 : (m : ℝ) + 1 ≠ 0 := by positivity
  rw [show ((m : ℝ) + 2) ^ 2 - 1 = ((m : ℝ) + 3) * (m + 1) by ring]
  field_simp
  ring

/-- the weights of the code are integrals of the expansion functions -/
theorem intConv_eq (N i : ℕ) (s t : ℝ) : intConv (N + 1) i s t = kap N i * ∫ x in (cos s)..(cos t), (Chebyshev.T ℝ i).eval x := by
  unfold intConv kap
  rw [int_T]
  simp only [Nat.add_sub_cancel]
  split <;> ring

theorem intOptm_eq (N i : ℕ) (hi : i % 2 = 0) : intOptm i (N + 1) = kap N i * ∫ x in (-1 : ℝ)..1, (Chebyshev.T ℝ i).eval x := by
  have h := int_T i π 0
  rw [cos_pi, cos_zero] at h
  rw [h]
  unfold intOptm kap
  by_cases h0 : i = 0
  · subst h0; simp; norm_num
  have h1 : i ≠ 1 := by omega
  simp only [if_neg h0, if_neg h1, Nat.add_sub_cancel]
  have hc : cos (π * i) = 1 := by
    rw [mul_comm, cos_nat_mul_pi]
    exact Even.neg_one_pow (Nat.even_iff.mpr hi)
  have hs : sin (π * i) = 0 := by rw [mul_comm, sin_nat_mul_pi]
  rw [hc, hs]
  by_cases h2 : i = N
  · simp [h0, h2]; ring
  · simp [h0, h2]; ring

theorem intOdd (i : ℕ) (hi : i % 2 = 1) : ∫ x in (-1 : ℝ)..1, (Chebyshev.T ℝ i).eval x = 0 := by
  have h := int_T i π 0
  rw [cos_pi, cos_zero] at h
  rw [h, if_neg (by omega)]
  by_cases h1 : i = 1
  · subst h1; simp
  rw [if_neg h1]
  have hc : cos (π * i) = -1 := by
    rw [mul_comm, cos_nat_mul_pi]
    exact Odd.neg_one_pow (Nat.odd_iff.mpr hi)
  have hs : sin (π * i) = 0 := by rw [mul_comm, sin_nat_mul_pi]
  rw [hc, hs]; simp

/-! ### one direction -/

/-- a weighted sum of the coefficients of the line data -/
noncomputable def lf (n : Fin 3 → ℕ) (d : Fin 3) (A : ℕ → ℝ) (f : ℕ → ℝ) : ℝ :=
  ∑ i ∈ range (n d), (∑ m ∈ range (n d), extW n d i m * f m) * A i

theorem lf_L (n : Fin 3 → ℕ) (d : Fin 3) (A f : ℕ → ℝ) :
    lf n d A f = ∑ m ∈ range (n d), f m * ∑ i ∈ range (n d), extW n d i m * A i := by
  unfold lf
  simp only [mul_sum, sum_mul]
  rw [sum_comm]
  exact sum_congr rfl fun m _ => sum_congr rfl fun i _ => by ring

theorem lf_sum (n : Fin 3 → ℕ) (d : Fin 3) (A : ℕ → ℝ) (q : ℕ) (B : ℕ → ℝ) (F : ℕ → ℕ → ℝ) :
    lf n d A (fun c => ∑ m ∈ range q, B m * F m c) = ∑ m ∈ range q, B m * lf n d A (F m) := by
  simp only [lf_L]
  simp only [sum_mul]
  rw [sum_comm]
  refine sum_congr rfl fun m _ => ?_
  rw [mul_sum]
  exact sum_congr rfl fun i _ => by ring

theorem lf_congr (n : Fin 3 → ℕ) (d : Fin 3) (A f g : ℕ → ℝ) (h : ∀ m, m < n d → f m = g m) : lf n d A f = lf n d A g := by
  rw [lf_L, lf_L]
  exact sum_congr rfl fun m hm => by rw [h m (mem_range.1 hm)]

theorem lf_weight (n : Fin 3 → ℕ) (d : Fin 3) (A B f : ℕ → ℝ) (h : ∀ m, m < n d → A m = B m) : lf n d A f = lf n d B f := by
  unfold lf
  exact sum_congr rfl fun m hm => by rw [h m (mem_range.1 hm)]

theorem lf_smul (n : Fin 3 → ℕ) (d : Fin 3) (A f : ℕ → ℝ) (c : ℝ) : lf n d A (fun m => c * f m) = c * lf n d A f := by
  rw [lf_L, lf_L, mul_sum]
  exact sum_congr rfl fun m _ => by ring

/-- the loops over even indices see all that matters -/
theorem sum_evens (n : ℕ) (F : ℕ → ℝ) (w : ℕ → ℝ) (hw : ∀ i, i % 2 = 1 → w i = 0) :
    ∑ i ∈ evens n, F i * w i = ∑ i ∈ range n, F i * w i := by
  unfold evens
  rw [sum_filter]
  refine sum_congr rfl fun i _ => ?_
  split
  · rfl
  · rw [hw i (by omega)]; ring

theorem lf_poly (n : Fin 3 → ℕ) (hn : ∀ d, 2 ≤ n d) (d : Fin 3) (A : ℕ → ℝ) (u0 u1 : ℝ)
    (hA : ∀ i < n d, A i = kap (n d - 1) i * ∫ x in u0..u1, (Chebyshev.T ℝ i).eval x) (p : ℝ[X]) (hp : p.degree < (n d : ℕ))
    (f : ℕ → ℝ) (hf : ∀ j < n d, f j = p.eval (cos (j * π / (n d - 1 : ℕ)))) : lf n d A f = ∫ x in u0..u1, p.eval x := by
  obtain ⟨N, hN⟩ : ∃ N, n d = N + 1 := ⟨n d - 1, by have := hn d; omega⟩
  have hN0 : 0 < N := by have := hn d; omega
  have e : linePoly N f = p := by
    refine eq_of_degrees_lt_of_eval_index_eq (range (N + 1)) (nodes_injOn N hN0) ?_ ?_ ?_
    · simpa using linePoly_degree N f
    · rw [hN] at hp; simpa using hp
    · intro i hi
      have hi' : i ≤ N := Nat.lt_succ_iff.1 (mem_range.1 hi)
      rw [linePoly_node N hN0 f i hi', hf i (by omega), hN]; rfl
  rw [← e]
  unfold lf linePoly
  simp only [eval_finsetSum, eval_mul, eval_C]
  rw [intervalIntegral.integral_finsetSum (fun i _ => (Legendre.integrable _ _ _).const_mul _), hN]
  refine sum_congr rfl fun i hi => ?_
  rw [intervalIntegral.integral_const_mul, hA i (by rw [hN]; exact mem_range.1 hi), hN, Nat.add_sub_cancel]
  have := ext_linear n hn d f i
  unfold extremaTr at this
  rw [hN] at this
  rw [this]; ring

/-- the point with normalised coordinate u -/
noncomputable def aff (mn mx u : ℝ) : ℝ := (-mx + mn) / 2 * u + (mx + mn) / 2

theorem lf_line (n : Fin 3 → ℕ) (hn : ∀ d, 2 ≤ n d) (d : Fin 3) (A : ℕ → ℝ) (u0 u1 : ℝ)
    (hA : ∀ i < n d, A i = kap (n d - 1) i * ∫ x in u0..u1, (Chebyshev.T ℝ i).eval x) (mn mx : ℝ) (h : mn < mx)
    (f : ℝ → ℝ) (hf : IsPoly (n d) f) (v : ℕ → ℝ) (hv : ∀ j < n d, v j = f (pointExtrema mn mx (n d) j)) :
    lf n d A v = 2 / (-mx + mn) * ∫ x in (aff mn mx u0)..(aff mn mx u1), f x := by
  obtain ⟨p, hp, hfp⟩ := hf
  have hc : (-mx + mn) / 2 ≠ 0 := by intro hc; linarith
  have hd : (p.comp (C ((-mx + mn) / 2) * Polynomial.X + C ((mx + mn) / 2))).degree < (n d : ℕ) := by
    have h4 : p.natDegree < n d := by
      by_cases hp0 : p = 0
      · simp [hp0]; have := hn d; omega
      · exact (natDegree_lt_iff_degree_lt hp0).2 hp
    refine lt_of_le_of_lt degree_le_natDegree ?_
    have h5 : (C ((-mx + mn) / 2) * Polynomial.X + C ((mx + mn) / 2) : ℝ[X]).natDegree ≤ 1 := natDegree_linear_le
    have h6 := natDegree_comp_le (p := p) (q := C ((-mx + mn) / 2) * Polynomial.X + C ((mx + mn) / 2))
    have : p.natDegree * (C ((-mx + mn) / 2) * Polynomial.X + C ((mx + mn) / 2) : ℝ[X]).natDegree ≤ p.natDegree * 1 :=
      Nat.mul_le_mul_left _ h5
    exact_mod_cast (by omega : _ < n d)
  rw [lf_poly n hn d A u0 u1 hA _ hd v (fun j hj => by
    obtain ⟨N, hN⟩ : ∃ N, n d = N + 1 := ⟨n d - 1, by have := hn d; omega⟩
    rw [hv j hj, hfp, eval_comp, hN, affine_point]; simp)]
  simp only [eval_comp, eval_add, eval_mul, eval_C, eval_X]
  rw [intervalIntegral.integral_comp_mul_add (fun x => p.eval x) hc]
  simp only [hfp, smul_eq_mul]
  rw [inv_div]; rfl

/-- the integral along one direction is a combination of the values at the points of that direction -/
theorem lf_line_sum (n : Fin 3 → ℕ) (hn : ∀ d, 2 ≤ n d) (d : Fin 3) (A : ℕ → ℝ) (u0 u1 : ℝ)
    (hA : ∀ i < n d, A i = kap (n d - 1) i * ∫ x in u0..u1, (Chebyshev.T ℝ i).eval x) (mn mx : ℝ) (h : mn < mx) :
    ∃ W : ℕ → ℝ, ∀ f : ℝ → ℝ, IsPoly (n d) f →
      ∫ x in (aff mn mx u0)..(aff mn mx u1), f x = ∑ m ∈ range (n d), W m * f (pointExtrema mn mx (n d) m) := by
  refine ⟨fun m => (-mx + mn) / 2 * ∑ i ∈ range (n d), extW n d i m * A i, fun f hf => ?_⟩
  have h1 := lf_line n hn d A u0 u1 hA mn mx h f hf (fun j => f (pointExtrema mn mx (n d) j)) fun _ _ => rfl
  rw [lf_L] at h1
  have hc : -mx + mn ≠ 0 := by intro hc; linarith
  have h2 : ∫ x in (aff mn mx u0)..(aff mn mx u1), f x = (-mx + mn) / 2 * (2 / (-mx + mn) * ∫ x in (aff mn mx u0)..(aff mn mx u1), f x) := by
    field_simp
  rw [h2, ← h1, mul_sum]
  exact sum_congr rfl fun m _ => by ring

theorem IsPoly.sum {n : ℕ} {q : ℕ} (W : ℕ → ℝ) (F : ℕ → ℝ → ℝ) (h : ∀ m < q, IsPoly n (F m)) :
    IsPoly n fun x => ∑ m ∈ range q, W m * F m x := by
  induction q with
  | zero => exact ⟨0, by simp, fun x => by simp⟩
  | succ q ih =>
    obtain ⟨p, hp, h1⟩ := ih fun m hm => h m (by omega)
    obtain ⟨r, hr, h2⟩ := h q (by omega)
    refine ⟨p + C (W q) * r, ?_, fun x => ?_⟩
    · refine lt_of_le_of_lt (degree_add_le _ _) (max_lt hp ?_)
      refine lt_of_le_of_lt (degree_mul_le _ _) (lt_of_le_of_lt (add_le_add_left degree_C_le _) ?_)
      rw [zero_add]; exact hr
    · have h1' := h1 x
      simp only at h1'
      simp only [sum_range_succ, h1', h2, eval_add, eval_mul, eval_C]

/-! ### two and three directions -/

section
variable (n : Fin 3 → ℕ) (hn : ∀ d, 2 ≤ n d) (mn mx : Fin 3 → ℝ) (hbox : ∀ d, mn d < mx d) (A : Fin 3 → ℕ → ℝ) (u0 u1 : Fin 3 → ℝ)
  (hA : ∀ d, ∀ i < n d, A d i = kap (n d - 1) i * ∫ x in (u0 d)..(u1 d), (Chebyshev.T ℝ i).eval x)
include hn hbox hA

theorem core3 (v : ℕ → ℝ) (P : ℝ → ℝ → ℝ → ℝ) (hv : Samples n mn mx v P) (hPx : ∀ y z, IsPoly (n 0) fun x => P x y z)
    (hPy : ∀ x z, IsPoly (n 1) fun y => P x y z) (hPz : ∀ x y, IsPoly (n 2) fun z => P x y z) :
    lf n 0 (A 0) (fun a => lf n 1 (A 1) fun b => lf n 2 (A 2) fun c => v (ijk (n 1) (n 2) a b c)) =
      2 / (-mx 0 + mn 0) * (2 / (-mx 1 + mn 1)) * (2 / (-mx 2 + mn 2)) *
      ∫ x in (aff (mn 0) (mx 0) (u0 0))..(aff (mn 0) (mx 0) (u1 0)), ∫ y in (aff (mn 1) (mx 1) (u0 1))..(aff (mn 1) (mx 1) (u1 1)),
        ∫ z in (aff (mn 2) (mx 2) (u0 2))..(aff (mn 2) (mx 2) (u1 2)), P x y z := by
  obtain ⟨W2, hW2⟩ := lf_line_sum n hn 2 (A 2) _ _ (hA 2) (mn 2) (mx 2) (hbox 2)
  obtain ⟨W1, hW1⟩ := lf_line_sum n hn 1 (A 1) _ _ (hA 1) (mn 1) (mx 1) (hbox 1)
  have hz : ∀ x y, ∫ z in (aff (mn 2) (mx 2) (u0 2))..(aff (mn 2) (mx 2) (u1 2)), P x y z =
      ∑ m ∈ range (n 2), W2 m * P x y (pt n mn mx 2 m) := fun x y => hW2 _ (hPz x y)
  have polyY : ∀ x, IsPoly (n 1) fun y => ∫ z in (aff (mn 2) (mx 2) (u0 2))..(aff (mn 2) (mx 2) (u1 2)), P x y z := by
    intro x
    simp only [hz]
    exact IsPoly.sum W2 (fun m y => P x y (pt n mn mx 2 m)) fun m _ => hPy x _
  have hy : ∀ x, ∫ y in (aff (mn 1) (mx 1) (u0 1))..(aff (mn 1) (mx 1) (u1 1)),
      ∫ z in (aff (mn 2) (mx 2) (u0 2))..(aff (mn 2) (mx 2) (u1 2)), P x y z =
      ∑ l ∈ range (n 1), W1 l * ∑ m ∈ range (n 2), W2 m * P x (pt n mn mx 1 l) (pt n mn mx 2 m) := by
    intro x
    rw [hW1 _ (polyY x)]
    exact sum_congr rfl fun l _ => by rw [hz]
  have polyX : IsPoly (n 0) fun x => ∫ y in (aff (mn 1) (mx 1) (u0 1))..(aff (mn 1) (mx 1) (u1 1)),
      ∫ z in (aff (mn 2) (mx 2) (u0 2))..(aff (mn 2) (mx 2) (u1 2)), P x y z := by
    simp only [hy]
    exact IsPoly.sum W1 (fun l x => ∑ m ∈ range (n 2), W2 m * P x (pt n mn mx 1 l) (pt n mn mx 2 m)) fun l _ =>
      IsPoly.sum W2 (fun m x => P x (pt n mn mx 1 l) (pt n mn mx 2 m)) fun m _ => hPx _ _
  have h2 : ∀ a < n 0, ∀ b < n 1, lf n 2 (A 2) (fun c => v (ijk (n 1) (n 2) a b c)) = 2 / (-mx 2 + mn 2) *
      ∫ z in (aff (mn 2) (mx 2) (u0 2))..(aff (mn 2) (mx 2) (u1 2)), P (pt n mn mx 0 a) (pt n mn mx 1 b) z := by
    intro a ha b hb
    exact lf_line n hn 2 (A 2) _ _ (hA 2) (mn 2) (mx 2) (hbox 2) _ (hPz _ _) _ fun c hc => hv a b c ha hb hc
  have h1 : ∀ a < n 0, lf n 1 (A 1) (fun b => lf n 2 (A 2) fun c => v (ijk (n 1) (n 2) a b c)) =
      2 / (-mx 2 + mn 2) * (2 / (-mx 1 + mn 1) * ∫ y in (aff (mn 1) (mx 1) (u0 1))..(aff (mn 1) (mx 1) (u1 1)),
        ∫ z in (aff (mn 2) (mx 2) (u0 2))..(aff (mn 2) (mx 2) (u1 2)), P (pt n mn mx 0 a) y z) := by
    intro a ha
    rw [lf_congr n 1 _ _ _ (fun b hb => h2 a ha b hb), lf_smul,
      lf_line n hn 1 (A 1) _ _ (hA 1) (mn 1) (mx 1) (hbox 1) _ (polyY (pt n mn mx 0 a)) _ fun b _ => rfl]
  rw [lf_congr n 0 _ _ _ h1, lf_smul, lf_smul,
    lf_line n hn 0 (A 0) _ _ (hA 0) (mn 0) (mx 0) (hbox 0) _ polyX _ fun a _ => rfl]
  ring

theorem core2 (d1 d2 : Fin 3) (v : ℕ → ℕ → ℝ) (P : ℝ → ℝ → ℝ)
    (hv : ∀ i j, i < n d1 → j < n d2 → v i j = P (pt n mn mx d1 i) (pt n mn mx d2 j)) (hPx : ∀ y, IsPoly (n d1) fun x => P x y)
    (hPy : ∀ x, IsPoly (n d2) fun y => P x y) :
    lf n d1 (A d1) (fun a => lf n d2 (A d2) fun b => v a b) =
      2 / (-mx d1 + mn d1) * (2 / (-mx d2 + mn d2)) *
      ∫ x in (aff (mn d1) (mx d1) (u0 d1))..(aff (mn d1) (mx d1) (u1 d1)),
        ∫ y in (aff (mn d2) (mx d2) (u0 d2))..(aff (mn d2) (mx d2) (u1 d2)), P x y := by
  obtain ⟨W2, hW2⟩ := lf_line_sum n hn d2 (A d2) _ _ (hA d2) (mn d2) (mx d2) (hbox d2)
  have hz : ∀ x, ∫ y in (aff (mn d2) (mx d2) (u0 d2))..(aff (mn d2) (mx d2) (u1 d2)), P x y =
      ∑ m ∈ range (n d2), W2 m * P x (pt n mn mx d2 m) := fun x => hW2 _ (hPy x)
  have polyX : IsPoly (n d1) fun x => ∫ y in (aff (mn d2) (mx d2) (u0 d2))..(aff (mn d2) (mx d2) (u1 d2)), P x y := by
    simp only [hz]
    exact IsPoly.sum W2 (fun m x => P x (pt n mn mx d2 m)) fun m _ => hPx _
  have h1 : ∀ a < n d1, lf n d2 (A d2) (fun b => v a b) = 2 / (-mx d2 + mn d2) *
      ∫ y in (aff (mn d2) (mx d2) (u0 d2))..(aff (mn d2) (mx d2) (u1 d2)), P (pt n mn mx d1 a) y := by
    intro a ha
    exact lf_line n hn d2 (A d2) _ _ (hA d2) (mn d2) (mx d2) (hbox d2) _ (hPy _) _ fun b hb => hv a b ha hb
  rw [lf_congr n d1 _ _ _ h1, lf_smul,
    lf_line n hn d1 (A d1) _ _ (hA d1) (mn d1) (mx d1) (hbox d1) _ polyX _ fun a _ => rfl]
  ring

end

/-- the triple sum of the code -/
theorem sum3 (n : Fin 3 → ℕ) (hn : ∀ d, 2 ≤ n d) (v : ℕ → ℝ) :
    ∃ f' c, Coeff.make3 n (extremaTr n) (fresh v) = .ok (f', c) ∧ ∀ A : Fin 3 → ℕ → ℝ,
      ∑ i ∈ range (n 0), ∑ j ∈ range (n 1), ∑ k ∈ range (n 2), c (ijk (n 1) (n 2) i j k) * A 0 i * A 1 j * A 2 k =
        lf n 0 (A 0) (fun a => lf n 1 (A 1) fun b => lf n 2 (A 2) fun c => v (ijk (n 1) (n 2) a b c)) := by
  have hf : Coeff.Inv n (extW n) (fresh v) := by simp [Coeff.Inv, fresh, Coeff.noCoeffs]
  obtain ⟨f', w, h1, h2, h3, h4⟩ := Coeff.make3_ok n (extremaTr n) (extW n) (ext_linear n hn) _ hf
  refine ⟨f', w, h1, fun A => ?_⟩
  rw [lf]
  refine sum_congr rfl fun i hi => ?_
  rw [← lf_sum n 1, lf, sum_mul]
  refine sum_congr rfl fun j hj => ?_
  simp only [← lf_sum n 2]
  rw [lf, sum_mul, sum_mul]
  refine sum_congr rfl fun k hk => ?_
  rw [h4 i j k (mem_range.1 hi) (mem_range.1 hj) (mem_range.1 hk)]
  simp only [Coeff.spec, List.mem_cons, List.not_mem_nil, or_false, true_or, or_true, if_true]
  simp [along0, along1, along2, Coeff.grid, fresh]
  ring

/-! ### volume -/

/-- the metric as a matrix -/
def Metric.mat (g : Metric) (l : ℕ) : Matrix (Fin 3) (Fin 3) ℝ :=
  !![g.g00 l, g.g01 l, g.g02 l; g.g01 l, g.g11 l, g.g12 l; g.g02 l, g.g12 l, g.g22 l]

/-- d(x,y,z)/d(a,b,c) at a point: the inverse of the matrix d(a,b,c)/d(x,y,z) -/
noncomputable def Patch.dxdX (P : Patch) (l : ℕ) : Matrix (Fin 3) (Fin 3) ℝ := (Matrix.of (P.jac l))⁻¹

theorem detg_eq (g : Metric) (l : ℕ) : detg g l = (g.mat l).det := by
  rw [Matrix.det_fin_three]
  simp [Metric.mat, detg]
  ring

theorem det3_eq (a : Fin 3 → Fin 3 → ℝ) : det3 a = (Matrix.of a).det := by
  rw [Matrix.det_fin_three]
  simp [det3]

theorem jacN_eq (P : Patch) (l : ℕ) : jacN P l =
    (-P.mx 0 + P.mn 0) / 2 * ((-P.mx 1 + P.mn 1) / 2) * ((-P.mx 2 + P.mn 2) / 2) * (P.dxdX l).det := by
  unfold jacN Patch.dxdX
  rw [Matrix.det_nonsing_inv, Ring.inverse_eq_inv', ← det3_eq]
  have : det3 (dNdx P l) = 2 / (-P.mx 0 + P.mn 0) * (2 / (-P.mx 1 + P.mn 1)) * (2 / (-P.mx 2 + P.mn 2)) * det3 (P.jac l) := by
    simp only [det3, dNdx, dNdX]; ring
  rw [this, one_div, mul_inv, mul_inv, mul_inv, inv_div, inv_div, inv_div]

section
variable (P : Patch) (hn : ∀ d, 2 ≤ P.n d) (hbox : ∀ d, P.mn d < P.mx d) (g : Metric) (fv : ℕ → ℝ)
include hn hbox

/-- the samples of the integrand of the code -/
theorem integrand_samples (G : ℝ → ℝ → ℝ → ℝ)
    (hG : Samples P.n P.mn P.mx (fun l => fv l * √(g.mat l).det * (P.dxdX l).det) G) :
    Samples P.n P.mn P.mx (volIntegrand P g fv) (fun x y z =>
      (-P.mx 0 + P.mn 0) / 2 * ((-P.mx 1 + P.mn 1) / 2) * ((-P.mx 2 + P.mn 2) / 2) * G x y z) := by
  intro i j k hi hj hk
  dsimp only
  rw [← hG i j k hi hj hk, volIntegrand, jacN_eq, detg_eq]
  ring

omit hbox in
theorem IsPoly.smul {n : ℕ} {f : ℝ → ℝ} (c : ℝ) (h : IsPoly n f) : IsPoly n fun x => c * f x := by
  obtain ⟨p, hp, h1⟩ := h
  refine ⟨C c * p, ?_, fun x => by simp [h1]⟩
  refine lt_of_le_of_lt (degree_mul_le _ _) (lt_of_le_of_lt (add_le_add_left degree_C_le _) ?_)
  rw [zero_add]; exact hp

/-- **C48 (volume).** When the integrand f √(det g) det(∂x/∂X) is, on the grid, a polynomial G of the coordinates of the
patch with fewer coefficients than points in every direction, the volume integral is the integral of G over the box of the
coordinates. -/
theorem C48_volume (G : ℝ → ℝ → ℝ → ℝ)
    (hG : Samples P.n P.mn P.mx (fun l => fv l * √(g.mat l).det * (P.dxdX l).det) G)
    (hGx : ∀ y z, IsPoly (P.n 0) fun x => G x y z) (hGy : ∀ x z, IsPoly (P.n 1) fun y => G x y z)
    (hGz : ∀ x y, IsPoly (P.n 2) fun z => G x y z) :
    wholeDV P g fv = .ok (∫ x in (P.mn 0)..(P.mx 0), ∫ y in (P.mn 1)..(P.mx 1), ∫ z in (P.mn 2)..(P.mx 2), G x y z) := by
  obtain ⟨f', c, h1, h2⟩ := sum3 P.n hn (volIntegrand P g fv)
  unfold wholeDV
  rw [h1, Res.bind_ok]
  dsimp only
  congr 1
  let A : Fin 3 → ℕ → ℝ := fun d i => if i % 2 = 0 then intOptm i (P.n d) else 0
  have hA : ∀ d, ∀ i < P.n d, A d i = kap (P.n d - 1) i * ∫ x in (-1 : ℝ)..1, (Chebyshev.T ℝ i).eval x := by
    intro d i _
    obtain ⟨N, hN⟩ : ∃ N, P.n d = N + 1 := ⟨P.n d - 1, by have := hn d; omega⟩
    simp only [A, hN, Nat.add_sub_cancel]
    split
    · rename_i h; rw [intOptm_eq N i h]
    · rename_i h; rw [intOdd i (by omega), mul_zero]
  have hs : ∑ i ∈ evens (P.n 0), ∑ j ∈ evens (P.n 1), ∑ k ∈ evens (P.n 2),
      c (ijk (P.n 1) (P.n 2) i j k) * intOptm i (P.n 0) * intOptm j (P.n 1) * intOptm k (P.n 2) =
      ∑ i ∈ range (P.n 0), ∑ j ∈ range (P.n 1), ∑ k ∈ range (P.n 2), c (ijk (P.n 1) (P.n 2) i j k) * A 0 i * A 1 j * A 2 k := by
    unfold evens
    rw [sum_filter]
    refine sum_congr rfl fun i _ => ?_
    by_cases hi : i % 2 = 0
    · rw [if_pos hi, sum_filter]
      refine sum_congr rfl fun j _ => ?_
      by_cases hj : j % 2 = 0
      · rw [if_pos hj, sum_filter]
        refine sum_congr rfl fun k _ => ?_
        by_cases hk : k % 2 = 0 <;> simp [A, hi, hj, hk]
      · simp [A, hj]
    · simp [A, hi]
  rw [hs, h2 A, core3 P.n hn P.mn P.mx hbox A (fun _ => -1) (fun _ => 1) hA _ _ (integrand_samples P hn hbox g fv G hG)
    (fun y z => IsPoly.smul P hn _ (hGx y z)) (fun x z => IsPoly.smul P hn _ (hGy x z)) (fun x y => IsPoly.smul P hn _ (hGz x y))]
  have a0 (d : Fin 3) : aff (P.mn d) (P.mx d) (-1) = P.mx d := by unfold aff; ring
  have a1 (d : Fin 3) : aff (P.mn d) (P.mx d) 1 = P.mn d := by unfold aff; ring
  simp only [a0, a1, intervalIntegral.integral_const_mul]
  simp only [fun (f : ℝ → ℝ) (d : Fin 3) => intervalIntegral.integral_symm (f := f) (μ := MeasureTheory.volume) (P.mn d) (P.mx d),
    intervalIntegral.integral_neg, intervalIntegral.integral_const_mul]
  have c0 := fun d => (show -P.mx d + P.mn d ≠ 0 by have := hbox d; intro hc; linarith)
  have c00 := c0 0; have c01 := c0 1; have c02 := c0 2
  field_simp

/-- **C48 (part of the volume).** The same over the part of the patch between the grid surfaces `ini` and `fin`. -/
theorem C48_interval (G : ℝ → ℝ → ℝ → ℝ)
    (hG : Samples P.n P.mn P.mx (fun l => fv l * √(g.mat l).det * (P.dxdX l).det) G)
    (hGx : ∀ y z, IsPoly (P.n 0) fun x => G x y z) (hGy : ∀ x z, IsPoly (P.n 1) fun y => G x y z)
    (hGz : ∀ x y, IsPoly (P.n 2) fun z => G x y z) (ini fin : Fin 3 → ℕ) :
    intervalDV P g fv ini fin = .ok (∫ x in (pt P.n P.mn P.mx 0 (ini 0))..(pt P.n P.mn P.mx 0 (fin 0)),
      ∫ y in (pt P.n P.mn P.mx 1 (ini 1))..(pt P.n P.mn P.mx 1 (fin 1)),
      ∫ z in (pt P.n P.mn P.mx 2 (ini 2))..(pt P.n P.mn P.mx 2 (fin 2)), G x y z) := by
  obtain ⟨f', c, h1, h2⟩ := sum3 P.n hn (volIntegrand P g fv)
  unfold intervalDV
  dsimp only
  rw [h1, Res.bind_ok]
  dsimp only
  congr 1
  let A : Fin 3 → ℕ → ℝ := fun d i => intConv (P.n d) i (ini d * π / ((P.n d : ℝ) - 1)) (fin d * π / ((P.n d : ℝ) - 1))
  have hA : ∀ d, ∀ i < P.n d, A d i = kap (P.n d - 1) i *
      ∫ x in (cos (ini d * π / ((P.n d : ℝ) - 1)))..(cos (fin d * π / ((P.n d : ℝ) - 1))), (Chebyshev.T ℝ i).eval x := by
    intro d i _
    obtain ⟨N, hN⟩ : ∃ N, P.n d = N + 1 := ⟨P.n d - 1, by have := hn d; omega⟩
    simp only [A, hN, Nat.add_sub_cancel]
    exact intConv_eq N i _ _
  rw [h2 A, core3 P.n hn P.mn P.mx hbox A _ _ hA _ _ (integrand_samples P hn hbox g fv G hG)
    (fun y z => IsPoly.smul P hn _ (hGx y z)) (fun x z => IsPoly.smul P hn _ (hGy x z)) (fun x y => IsPoly.smul P hn _ (hGz x y))]
  have a0 (d : Fin 3) (i : ℕ) : aff (P.mn d) (P.mx d) (cos (i * π / ((P.n d : ℝ) - 1))) = pt P.n P.mn P.mx d i := by
    unfold aff pt pointExtrema; dsimp only; ring
  simp only [a0, intervalIntegral.integral_const_mul]
  have c0 := fun d => (show -P.mx d + P.mn d ≠ 0 by have := hbox d; intro hc; linarith)
  have c00 := c0 0; have c01 := c0 1; have c02 := c0 2
  field_simp

end

/-! ### surfaces -/

/-- component of the metric induced on the surface of the directions a, b: g(∂x/∂X^a, ∂x/∂X^b) -/
noncomputable def induced (P : Patch) (g : Metric) (l : ℕ) (a b : Fin 3) : ℝ :=
  ((P.dxdX l).transpose * g.mat l * P.dxdX l) a b

/-- the element of surface of the directions a, b -/
noncomputable def surfEl (P : Patch) (g : Metric) (a b : Fin 3) (l : ℕ) : ℝ :=
  √(induced P g l a a * induced P g l b b - induced P g l a b ^ 2)

theorem dxdN_eq (P : Patch) (hbox : ∀ d, P.mn d < P.mx d) (l : ℕ) (p q : Fin 3) :
    dxdN P l p q = P.dxdX l p q * ((-P.mx q + P.mn q) / 2) := by
  have c0 := fun d => (show -P.mx d + P.mn d ≠ 0 by have := hbox d; intro hc; linarith)
  have c00 := c0 0; have c01 := c0 1; have c02 := c0 2
  have hd : det3 (dNdx P l) = 2 / (-P.mx 0 + P.mn 0) * (2 / (-P.mx 1 + P.mn 1)) * (2 / (-P.mx 2 + P.mn 2)) * det3 (P.jac l) := by
    simp only [det3, dNdx, dNdX]; ring
  have hi : P.dxdX l p q = adj (P.jac l) p q / det3 (P.jac l) := by
    unfold Patch.dxdX
    rw [Matrix.inv_def, Ring.inverse_eq_inv', ← det3_eq, Matrix.adjugate_fin_three, Matrix.smul_apply, smul_eq_mul, div_eq_inv_mul]
    congr 1
    fin_cases p <;> fin_cases q <;> simp [adj]
  rw [hi]
  unfold dxdN
  rw [hd]
  by_cases h0 : det3 (P.jac l) = 0
  · simp [h0]
  rw [div_eq_iff (by simp [c00, c01, c02, h0])]
  fin_cases p <;> fin_cases q <;> simp only [adj, dNdx, dNdX, Fin.zero_eta, Fin.mk_one, Fin.reduceFinMk] <;> field_simp

theorem hDiag_eq (P : Patch) (hbox : ∀ d, P.mn d < P.mx d) (g : Metric) (l : ℕ) (a : Fin 3) :
    hDiag g l (fun p => dxdN P l p a) = ((-P.mx a + P.mn a) / 2) ^ 2 * induced P g l a a := by
  simp only [hDiag, dxdN_eq P hbox, induced, Matrix.mul_apply, Fin.sum_univ_three, Matrix.transpose_apply, Metric.mat]
  simp
  ring

theorem hOff_eq (P : Patch) (hbox : ∀ d, P.mn d < P.mx d) (g : Metric) (l : ℕ) (a b : Fin 3) :
    hOff g l (fun p => dxdN P l p a) (fun p => dxdN P l p b) =
      ((-P.mx a + P.mn a) / 2) * ((-P.mx b + P.mn b) / 2) * induced P g l a b := by
  simp only [hOff, dxdN_eq P hbox, induced, Matrix.mul_apply, Fin.sum_univ_three, Matrix.transpose_apply, Metric.mat]
  simp
  ring

theorem sqrt_detH (P : Patch) (hbox : ∀ d, P.mn d < P.mx d) (g : Metric) (l : ℕ) (a b : Fin 3) :
    √(detH P g a b l) = ((-P.mx a + P.mn a) / 2) * ((-P.mx b + P.mn b) / 2) * surfEl P g a b l := by
  have h : detH P g a b l = (((-P.mx a + P.mn a) / 2) * ((-P.mx b + P.mn b) / 2)) ^ 2 *
      (induced P g l a a * induced P g l b b - induced P g l a b ^ 2) := by
    unfold detH
    dsimp only
    rw [hDiag_eq P hbox, hDiag_eq P hbox, hOff_eq P hbox]
    ring
  have ha := hbox a; have hb := hbox b
  rw [h, sqrt_mul (sq_nonneg _), sqrt_sq (mul_nonneg_of_nonpos_of_nonpos (by linarith) (by linarith))]
  rfl

/-- the double sum of the code, on the surface of constant index in the third direction -/
theorem sum2 (n : Fin 3 → ℕ) (hn : ∀ d, 2 ≤ n d) (v : ℕ → ℝ) :
    (∃ f' c, Coeff.make2 n (extremaTr n) (fresh v) 1 2 = .ok (f', c) ∧ ∀ s < n 0, ∀ A : Fin 3 → ℕ → ℝ,
      ∑ j ∈ range (n 1), ∑ k ∈ range (n 2), c (ijk (n 1) (n 2) s j k) * A 1 j * A 2 k =
        lf n 1 (A 1) fun b => lf n 2 (A 2) fun c => v (ijk (n 1) (n 2) s b c)) ∧
    (∃ f' c, Coeff.make2 n (extremaTr n) (fresh v) 0 2 = .ok (f', c) ∧ ∀ s < n 1, ∀ A : Fin 3 → ℕ → ℝ,
      ∑ i ∈ range (n 0), ∑ k ∈ range (n 2), c (ijk (n 1) (n 2) i s k) * A 0 i * A 2 k =
        lf n 0 (A 0) fun a => lf n 2 (A 2) fun c => v (ijk (n 1) (n 2) a s c)) ∧
    (∃ f' c, Coeff.make2 n (extremaTr n) (fresh v) 0 1 = .ok (f', c) ∧ ∀ s < n 2, ∀ A : Fin 3 → ℕ → ℝ,
      ∑ i ∈ range (n 0), ∑ j ∈ range (n 1), c (ijk (n 1) (n 2) i j s) * A 0 i * A 1 j =
        lf n 0 (A 0) fun a => lf n 1 (A 1) fun b => v (ijk (n 1) (n 2) a b s)) := by
  have hf : Coeff.Inv n (extW n) (fresh v) := by simp [Coeff.Inv, fresh, Coeff.noCoeffs]
  refine ⟨?_, ?_, ?_⟩
  · obtain ⟨f', w, h1, h2, h3, h4⟩ := Coeff.make2_ok n (extremaTr n) (extW n) (ext_linear n hn) _ hf 1 2 (by decide)
    refine ⟨f', w, h1, fun s hs A => ?_⟩
    rw [lf]
    refine sum_congr rfl fun i hi => ?_
    rw [← lf_sum n 2, lf, sum_mul]
    refine sum_congr rfl fun j hj => ?_
    rw [h4 s i j hs (mem_range.1 hi) (mem_range.1 hj)]
    simp [Coeff.spec, along1, along2, Coeff.grid, fresh]
    ring
  · obtain ⟨f', w, h1, h2, h3, h4⟩ := Coeff.make2_ok n (extremaTr n) (extW n) (ext_linear n hn) _ hf 0 2 (by decide)
    refine ⟨f', w, h1, fun s hs A => ?_⟩
    rw [lf]
    refine sum_congr rfl fun i hi => ?_
    rw [← lf_sum n 2, lf, sum_mul]
    refine sum_congr rfl fun j hj => ?_
    rw [h4 i s j (mem_range.1 hi) hs (mem_range.1 hj)]
    simp [Coeff.spec, along0, along2, Coeff.grid, fresh]
    ring
  · obtain ⟨f', w, h1, h2, h3, h4⟩ := Coeff.make2_ok n (extremaTr n) (extW n) (ext_linear n hn) _ hf 0 1 (by decide)
    refine ⟨f', w, h1, fun s hs A => ?_⟩
    rw [lf]
    refine sum_congr rfl fun i hi => ?_
    rw [← lf_sum n 1, lf, sum_mul]
    refine sum_congr rfl fun j hj => ?_
    rw [h4 i j s (mem_range.1 hi) (mem_range.1 hj) hs]
    simp [Coeff.spec, along0, along1, Coeff.grid, fresh]
    ring

/-- the weights with the zeros of the odd indices put back -/
noncomputable def wOpt (n : Fin 3 → ℕ) (d : Fin 3) (i : ℕ) : ℝ := if i % 2 = 0 then intOptm i (n d) else 0

theorem wOpt_eq (n : Fin 3 → ℕ) (hn : ∀ d, 2 ≤ n d) (d : Fin 3) (i : ℕ) (_ : i < n d) :
    wOpt n d i = kap (n d - 1) i * ∫ x in (-1 : ℝ)..1, (Chebyshev.T ℝ i).eval x := by
  obtain ⟨N, hN⟩ : ∃ N, n d = N + 1 := ⟨n d - 1, by have := hn d; omega⟩
  simp only [wOpt, hN, Nat.add_sub_cancel]
  split
  · rename_i h; rw [intOptm_eq N i h]
  · rename_i h; rw [intOdd i (by omega), mul_zero]

theorem evens2 (n : Fin 3 → ℕ) (d e : Fin 3) (c : ℕ → ℕ → ℝ) :
    ∑ i ∈ evens (n d), ∑ j ∈ evens (n e), c i j * intOptm i (n d) * intOptm j (n e) =
      ∑ i ∈ range (n d), ∑ j ∈ range (n e), c i j * wOpt n d i * wOpt n e j := by
  unfold evens
  rw [sum_filter]
  refine sum_congr rfl fun i _ => ?_
  by_cases hi : i % 2 = 0
  · rw [if_pos hi, sum_filter]
    refine sum_congr rfl fun j _ => ?_
    by_cases hj : j % 2 = 0 <;> simp [wOpt, hi, hj]
  · simp [wOpt, hi]

theorem surf_end (P : Patch) (hn : ∀ d, 2 ≤ P.n d) (hbox : ∀ d, P.mn d < P.mx d) (d e : Fin 3) (v : ℕ → ℕ → ℝ) (G : ℝ → ℝ → ℝ)
    (hv : ∀ i j, i < P.n d → j < P.n e →
      v i j = (-P.mx d + P.mn d) / 2 * ((-P.mx e + P.mn e) / 2) * G (pt P.n P.mn P.mx d i) (pt P.n P.mn P.mx e j))
    (hGx : ∀ y, IsPoly (P.n d) fun x => G x y) (hGy : ∀ x, IsPoly (P.n e) fun y => G x y) :
    lf P.n d (wOpt P.n d) (fun a => lf P.n e (wOpt P.n e) fun b => v a b) =
      ∫ x in (P.mn d)..(P.mx d), ∫ y in (P.mn e)..(P.mx e), G x y := by
  rw [core2 P.n hn P.mn P.mx hbox (wOpt P.n) (fun _ => -1) (fun _ => 1) (wOpt_eq P.n hn) d e v
    (fun x y => (-P.mx d + P.mn d) / 2 * ((-P.mx e + P.mn e) / 2) * G x y) hv (fun y => IsPoly.smul P hn _ (hGx y))
    (fun x => IsPoly.smul P hn _ (hGy x))]
  have a0 (d : Fin 3) : aff (P.mn d) (P.mx d) (-1) = P.mx d := by unfold aff; ring
  have a1 (d : Fin 3) : aff (P.mn d) (P.mx d) 1 = P.mn d := by unfold aff; ring
  simp only [a0, a1, intervalIntegral.integral_const_mul]
  simp only [fun (f : ℝ → ℝ) (d : Fin 3) => intervalIntegral.integral_symm (f := f) (μ := MeasureTheory.volume) (P.mn d) (P.mx d),
    intervalIntegral.integral_neg, intervalIntegral.integral_const_mul]
  have c0 := fun d => (show -P.mx d + P.mn d ≠ 0 by have := hbox d; intro hc; linarith)
  have c00 := c0 d; have c01 := c0 e
  field_simp

section
variable (P : Patch) (hn : ∀ d, 2 ≤ P.n d) (hbox : ∀ d, P.mn d < P.mx d) (g : Metric) (fv : ℕ → ℝ)
include hn hbox

/-- **C48 (surface of constant first coordinate).** When f times the element of surface is, at the points of the surface,
a polynomial G of the two coordinates of the surface with fewer coefficients than points, the surface integral is the
integral of G over the two intervals.  It does not depend on the values of f off the surface. -/
theorem C48_surface_X (flag : Fin 3 → Bool) (s : Fin 3 → ℕ) (hflag : flag 0 = true) (hs : s 0 < P.n 0) (G : ℝ → ℝ → ℝ)
    (hG : ∀ j k, j < P.n 1 → k < P.n 2 → fv (ijk (P.n 1) (P.n 2) (s 0) j k) * surfEl P g 1 2 (ijk (P.n 1) (P.n 2) (s 0) j k) =
      G (pt P.n P.mn P.mx 1 j) (pt P.n P.mn P.mx 2 k))
    (hGy : ∀ z, IsPoly (P.n 1) fun y => G y z) (hGz : ∀ y, IsPoly (P.n 2) fun z => G y z) :
    surfDS P g fv flag s = .ok (∫ y in (P.mn 1)..(P.mx 1), ∫ z in (P.mn 2)..(P.mx 2), G y z) := by
  unfold surfDS
  rw [if_pos hflag]
  obtain ⟨f', c, h1, h2⟩ := (sum2 P.n hn (surfIntegrand P g fv 1 2 fun l => toI (P.n 1) (P.n 2) l == s 0)).1
  rw [h1, Res.bind_ok]
  dsimp only
  rw [evens2 P.n 1 2 (fun j k => c (ijk (P.n 1) (P.n 2) (s 0) j k)), h2 (s 0) hs (wOpt P.n)]
  congr 1
  refine surf_end P hn hbox 1 2 _ G (fun j k hj hk => ?_) hGy hGz
  rw [← hG j k hj hk, surfIntegrand, (C10_decode_encode (P.n 1) (P.n 2) (s 0) j k hj hk).1, sqrt_detH P hbox]
  simp only [beq_self_eq_true, if_true]
  ring

/-- **C48 (surface of constant second coordinate).** -/
theorem C48_surface_Y (flag : Fin 3 → Bool) (s : Fin 3 → ℕ) (hflag0 : flag 0 = false) (hflag : flag 1 = true)
    (hs : s 1 < P.n 1) (G : ℝ → ℝ → ℝ)
    (hG : ∀ i k, i < P.n 0 → k < P.n 2 → fv (ijk (P.n 1) (P.n 2) i (s 1) k) * surfEl P g 0 2 (ijk (P.n 1) (P.n 2) i (s 1) k) =
      G (pt P.n P.mn P.mx 0 i) (pt P.n P.mn P.mx 2 k))
    (hGx : ∀ z, IsPoly (P.n 0) fun x => G x z) (hGz : ∀ x, IsPoly (P.n 2) fun z => G x z) :
    surfDS P g fv flag s = .ok (∫ x in (P.mn 0)..(P.mx 0), ∫ z in (P.mn 2)..(P.mx 2), G x z) := by
  unfold surfDS
  rw [if_neg (by simp [hflag0]), if_pos hflag]
  obtain ⟨f', c, h1, h2⟩ := (sum2 P.n hn (surfIntegrand P g fv 0 2 fun l => toJ (P.n 1) (P.n 2) l == s 1)).2.1
  rw [h1, Res.bind_ok]
  dsimp only
  rw [evens2 P.n 0 2 (fun i k => c (ijk (P.n 1) (P.n 2) i (s 1) k)), h2 (s 1) hs (wOpt P.n)]
  congr 1
  refine surf_end P hn hbox 0 2 _ G (fun i k hi hk => ?_) hGx hGz
  rw [← hG i k hi hk, surfIntegrand, (C10_decode_encode (P.n 1) (P.n 2) i (s 1) k hs hk).2.1, sqrt_detH P hbox]
  simp only [beq_self_eq_true, if_true]
  ring

/-- **C48 (surface of constant third coordinate).** -/
theorem C48_surface_Z (flag : Fin 3 → Bool) (s : Fin 3 → ℕ) (hflag0 : flag 0 = false) (hflag1 : flag 1 = false)
    (hflag : flag 2 = true) (hs : s 2 < P.n 2) (G : ℝ → ℝ → ℝ)
    (hG : ∀ i j, i < P.n 0 → j < P.n 1 → fv (ijk (P.n 1) (P.n 2) i j (s 2)) * surfEl P g 0 1 (ijk (P.n 1) (P.n 2) i j (s 2)) =
      G (pt P.n P.mn P.mx 0 i) (pt P.n P.mn P.mx 1 j))
    (hGx : ∀ y, IsPoly (P.n 0) fun x => G x y) (hGy : ∀ x, IsPoly (P.n 1) fun y => G x y) :
    surfDS P g fv flag s = .ok (∫ x in (P.mn 0)..(P.mx 0), ∫ y in (P.mn 1)..(P.mx 1), G x y) := by
  unfold surfDS
  rw [if_neg (by simp [hflag0]), if_neg (by simp [hflag1]), if_pos hflag]
  obtain ⟨f', c, h1, h2⟩ := (sum2 P.n hn (surfIntegrand P g fv 0 1 fun l => toK (P.n 1) (P.n 2) l == s 2)).2.2
  rw [h1, Res.bind_ok]
  dsimp only
  rw [evens2 P.n 0 1 (fun i j => c (ijk (P.n 1) (P.n 2) i j (s 2))), h2 (s 2) hs (wOpt P.n)]
  congr 1
  refine surf_end P hn hbox 0 1 _ G (fun i j hi hj => ?_) hGx hGy
  rw [← hG i j hi hj, surfIntegrand, (C10_decode_encode (P.n 1) (P.n 2) i j (s 2) hj hs).2.2, sqrt_detH P hbox]
  simp only [beq_self_eq_true, if_true]
  ring

end

/-! ### planning -/

theorem one_flag (flag : Fin 3 → Bool) (hs : (flag 0).toNat + (flag 1).toNat + (flag 2).toNat = 1) :
    ∃ d, flag d = true ∧ ∀ e, flag e = true → e = d := by
  revert hs; revert flag; decide

/-- **C48 (volume and surface plans).** The spectral integrals are planned only for patches that have the Chebyshev basis
at the extrema in all directions; the surface integral needs exactly one surface; other requests stop the program. -/
theorem C48_plan (type : Str) (cs : CoordSys) (tnExt flag : Fin 3 → Bool) (p : Plan) (h : plan type cs tnExt flag = .ok p) :
    (p = .wholeDV ∨ p = .intervalDV ∨ p = .surfDS → (∀ d, tnExt d = true) ∧ cs ≠ .other) ∧
    (p = .surfDS → (∃ d, flag d = true ∧ ∀ e, flag e = true → e = d)) := by
  unfold plan at h
  simp only at h
  generalize Text.strcmpI (some type) (some "Composite Simpson's Rule 1D".toList) = b1 at h
  generalize Text.strcmpI (some type) (some "Gaussian Quadrature Chebyshev Extrema".toList) = b2 at h
  generalize Text.strcmpI (some type) (some "Gaussian Quadrature Lobatto".toList) = b3 at h
  generalize Text.strcmpI (some type) (some "Gaussian Quadrature Legendre".toList) = b4 at h
  generalize Text.strcmpI (some type) (some "Integral{f(x)dV},Spectral".toList) = b5 at h
  generalize Text.strcmpI (some type) (some "Integral{f(x)dV}[i,f],Spectral".toList) = b6 at h
  generalize Text.strcmpI (some type) (some "Integral{f(x)dS},Spectral".toList) = b7 at h
  unfold planSel at h
  simp only at h
  have hall : (tnExt 0 && tnExt 1 && tnExt 2) = true → ∀ d, tnExt d = true := by
    intro ha d; simp only [Bool.and_eq_true] at ha; fin_cases d <;> simp [ha]
  have hcs : (cs = .cartesian ∨ cs = .cubedSpherical) → cs ≠ .other := by rintro (h | h) <;> simp [h]
  have hone := one_flag flag
  split_ifs at h <;> simp only [Res.ok.injEq, reduceCtorEq] at h <;> subst h <;> simp_all only [reduceCtorEq, or_false, false_or, or_true, true_or, true_implies, false_implies, and_true, true_and, forall_const, not_not, ne_eq, not_false_eq_true, IsEmpty.forall_iff]

/-- the names are told apart -/
theorem names (cs : CoordSys) (tnExt flag : Fin 3 → Bool) :
    plan "Integral{f(x)dV},Spectral".toList cs tnExt flag = planSel false false false false true false false cs tnExt flag ∧
    plan "Integral{f(x)dV}[i,f],Spectral".toList cs tnExt flag = planSel false false false false false true false cs tnExt flag ∧
    plan "Integral{f(x)dS},Spectral".toList cs tnExt flag = planSel false false false false false false true cs tnExt flag := by
  refine ⟨?_, ?_, ?_⟩ <;> unfold plan <;> congr 1

/-- the plan a name asks for -/
theorem C48_plan_volume (cs : CoordSys) (tnExt flag : Fin 3 → Bool) (hcs : cs ≠ .other) (h : ∀ d, tnExt d = true) :
    plan "Integral{f(x)dV},Spectral".toList cs tnExt flag = .ok .wholeDV ∧
    plan "Integral{f(x)dV}[i,f],Spectral".toList cs tnExt flag = .ok .intervalDV := by
  rw [(names cs tnExt flag).1, (names cs tnExt flag).2.1]
  cases cs <;> simp_all [planSel]

theorem C48_plan_surface (cs : CoordSys) (tnExt flag : Fin 3 → Bool) (hcs : cs ≠ .other) (h : ∀ d, tnExt d = true)
    (d : Fin 3) (hd : flag d = true) (he : ∀ e, flag e = true → e = d) :
    plan "Integral{f(x)dS},Spectral".toList cs tnExt flag = .ok .surfDS := by
  rw [(names cs tnExt flag).2.2]
  have hf : flag = fun e => decide (e = d) := by
    funext e
    cases hv : flag e
    · symm; rw [decide_eq_false_iff_not]; rintro rfl; simp [hd] at hv
    · simp [he e hv]
  have h0 := h 0; have h1 := h 1; have h2 := h 2
  subst hf
  unfold planSel
  simp only [h0, h1, h2]
  cases cs <;> fin_cases d <;> first | rfl | exact absurd rfl hcs

/-- Violation: on a patch of any other coordinate system the volume integral is planned without a refusal, but no function
is chosen, and executing the plan calls a null pointer. -/
theorem C48_plan_unset_violation (tnExt flag : Fin 3 → Bool) {α : Type} (run : Plan → Res α) :
    (plan "Integral{f(x)dV},Spectral".toList .other tnExt flag).bind (execute run) = .ub := by
  rw [(names .other tnExt flag).1]
  rfl

/-! ### a case that meets the hypotheses: the box [0,1]×[0,2]×[0,3] with Cartesian coordinates and the flat metric -/

/-- identity Jacobian, 3×2×4 points -/
noncomputable def exBox : Patch :=
  ⟨![3, 2, 4], fun _ => 0, ![1, 2, 3], fun _ q p => if q = p then 1 else 0⟩

/-- δ_ij -/
def exFlat : Metric := ⟨fun _ => 1, fun _ => 0, fun _ => 0, fun _ => 1, fun _ => 0, fun _ => 1⟩

/-- the values of x² y z³ + 1 -/
noncomputable def exF (l : ℕ) : ℝ :=
  pt exBox.n exBox.mn exBox.mx 0 (toI 2 4 l) ^ 2 * pt exBox.n exBox.mn exBox.mx 1 (toJ 2 4 l) *
    pt exBox.n exBox.mn exBox.mx 2 (toK 2 4 l) ^ 3 + 1

theorem exBox_dxdX (l : ℕ) : exBox.dxdX l = 1 := by
  have : Matrix.of (exBox.jac l) = (1 : Matrix (Fin 3) (Fin 3) ℝ) := by
    ext q p; simp [exBox, Matrix.one_apply]
  rw [Patch.dxdX, this, inv_one]

theorem exBox_poly (n : ℕ) (f : ℝ → ℝ) (a b : ℝ) (m : ℕ) (hm : m < n) (h : ∀ x, f x = a * x ^ m + b) : IsPoly n f := by
  refine ⟨C a * Polynomial.X ^ m + C b, ?_, fun x => by simp [h]⟩
  refine lt_of_le_of_lt (degree_add_le _ _) (max_lt ?_ ?_)
  · refine lt_of_le_of_lt (degree_C_mul_X_pow_le _ _) ?_
    exact_mod_cast hm
  · refine lt_of_le_of_lt degree_C_le ?_
    exact_mod_cast (by omega : 0 < n)

/-- ∫∫∫ x² y z³ + 1 = 1/3 · 2 · 81/4 + 6 -/
example : wholeDV exBox exFlat exF = .ok (39 / 2) := by
  rw [C48_volume exBox (by intro d; fin_cases d <;> simp [exBox]) (by intro d; fin_cases d <;> simp [exBox]) exFlat exF
    (fun x y z => x ^ 2 * y * z ^ 3 + 1) ?_ ?_ ?_ ?_]
  · congr 1
    have h1 (x y : ℝ) : ∫ z in (0 : ℝ)..3, (x ^ 2 * y * z ^ 3 + 1) = x ^ 2 * y * (81 / 4) + 3 := by
      rw [intervalIntegral.integral_add (Continuous.intervalIntegrable (by fun_prop) _ _) (by simp), intervalIntegral.integral_const_mul, integral_pow]
      norm_num
    have h2 (x : ℝ) : ∫ y in (0 : ℝ)..2, (x ^ 2 * y * (81 / 4) + 3) = x ^ 2 * (81 / 2) + 6 := by
      rw [intervalIntegral.integral_add (Continuous.intervalIntegrable (by fun_prop) _ _) (by simp), intervalIntegral.integral_mul_const,
        intervalIntegral.integral_const_mul, integral_id]
      norm_num; ring
    have h3 : ∫ x in (0 : ℝ)..1, (x ^ 2 * (81 / 2) + 6) = 39 / 2 := by
      rw [intervalIntegral.integral_add (Continuous.intervalIntegrable (by fun_prop) _ _) (by simp), intervalIntegral.integral_mul_const, integral_pow]
      norm_num
    show (∫ x in (0 : ℝ)..1, ∫ y in (0 : ℝ)..2, ∫ z in (0 : ℝ)..3, (x ^ 2 * y * z ^ 3 + 1)) = _
    simp only [h1, h2, h3]
  · intro i j k hi hj hk
    have hd := C10_decode_encode 2 4 i j k (by simpa [exBox] using hj) (by simpa [exBox] using hk)
    have e : (exFlat.mat (ijk 2 4 i j k)) = 1 := by
      ext a b; fin_cases a <;> fin_cases b <;> simp [Metric.mat, exFlat]
    have e1 : exBox.n 1 = 2 := rfl
    have e2 : exBox.n 2 = 4 := rfl
    rw [e1, e2]
    dsimp only
    rw [e, exBox_dxdX, exF, hd.1, hd.2.1, hd.2.2]
    simp
  · intro y z
    exact exBox_poly _ _ (y * z ^ 3) 1 2 (by simp [exBox]) fun x => by ring
  · intro x z
    exact exBox_poly _ _ (x ^ 2 * z ^ 3) 1 1 (by simp [exBox]) fun y => by ring
  · intro x y
    exact exBox_poly _ _ (x ^ 2 * y) 1 3 (by simp [exBox]) fun z => by ring

/-- ∫∫ over the face x = 1 (the last surface): 2 · 81/4 + 6 -/
example : surfDS exBox exFlat exF ![true, false, false] ![2, 7, 7] = .ok (93 / 2) := by
  rw [C48_surface_X exBox (by intro d; fin_cases d <;> simp [exBox]) (by intro d; fin_cases d <;> simp [exBox]) exFlat exF
    ![true, false, false] ![2, 7, 7] rfl (by simp [exBox]) (fun y z => y * z ^ 3 + 1) ?_ ?_ ?_]
  · congr 1
    have h1 (y : ℝ) : ∫ z in (0 : ℝ)..3, (y * z ^ 3 + 1) = y * (81 / 4) + 3 := by
      rw [intervalIntegral.integral_add (Continuous.intervalIntegrable (by fun_prop) _ _) (by simp), intervalIntegral.integral_const_mul, integral_pow]
      norm_num
    have h2 : ∫ y in (0 : ℝ)..2, (y * (81 / 4) + 3) = 93 / 2 := by
      rw [intervalIntegral.integral_add (Continuous.intervalIntegrable (by fun_prop) _ _) (by simp), intervalIntegral.integral_mul_const,
        integral_id]
      norm_num
    show (∫ y in (0 : ℝ)..2, ∫ z in (0 : ℝ)..3, (y * z ^ 3 + 1)) = _
    simp only [h1, h2]
  · intro j k hj hk
    have e1 : exBox.n 1 = 2 := rfl
    have e2 : exBox.n 2 = 4 := rfl
    rw [e1] at hj ⊢
    rw [e2] at hk ⊢
    have hd := C10_decode_encode 2 4 2 j k hj hk
    have e : (exFlat.mat (ijk 2 4 2 j k)) = 1 := by
      ext a b; fin_cases a <;> fin_cases b <;> simp [Metric.mat, exFlat]
    have hp : pt exBox.n exBox.mn exBox.mx 0 2 = 1 := by
      simp [pt, pointExtrema, exBox]
      rw [show (2 * π / (3 - 1) : ℝ) = π by ring, cos_pi]; norm_num
    show exF (ijk 2 4 2 j k) * surfEl exBox exFlat 1 2 (ijk 2 4 2 j k) = _
    rw [surfEl, induced, induced, induced, exBox_dxdX, e, exF, hd.1, hd.2.1, hd.2.2, hp]
    simp
  · intro z
    exact exBox_poly _ _ (z ^ 3) 1 1 (by simp [exBox]) fun y => by ring
  · intro y
    exact exBox_poly _ _ y 1 3 (by simp [exBox]) fun z => by ring

end Elliptica.Integ
