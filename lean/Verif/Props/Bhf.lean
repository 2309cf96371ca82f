import Verif.Model.Bhf
import Verif.Spec.Bhf
import Verif.Props.Cheb
import Mathlib.Tactic.FinCases
import Mathlib.Analysis.Calculus.Deriv.Add
import Mathlib.Analysis.Calculus.Deriv.Mul
import Mathlib.Analysis.Calculus.Deriv.Comp
import Mathlib.Analysis.Calculus.Deriv.Prod
import Mathlib.Analysis.Calculus.Deriv.Polynomial
/-!
Property C88 (filling of the black hole), the radial part.
-/
namespace Elliptica.Bhf
open Polynomial BhfSpec Cheb

/-- the polynomial in the radius with the Chebyshev coefficients a on [0,R] -/
noncomputable def radPoly (a : ℕ → ℝ) (R : ℝ) : ℝ[X] :=
  ∑ i ∈ Finset.range 6, C (a i) * (Chebyshev.T ℝ i).comp (C (2 / R) * X - 1)

theorem atRadius_eq (e : ℝ) (he : 0 < e) (h2 : e ≤ 2) (a : (ℕ → ℝ) × ℝ) (r : ℝ) (h : Snapped e (2 * r / a.2 - 1)) :
    atRadius e a r = (radPoly a.1 a.2).eval r := by
  unfold atRadius radPoly
  rw [eval_finsetSum]
  refine Finset.sum_congr rfl fun i _ => ?_
  rw [chebT_eval e he h2 i _ h, eval_mul, eval_C, eval_comp]
  congr 2
  simp [div_mul_eq_mul_div]

theorem T3 : Chebyshev.T ℝ 3 = 4 * X ^ 3 - 3 * X := by
  have := Chebyshev.T_add_two ℝ 1
  norm_num at this
  rw [this, Chebyshev.T_two]; ring

theorem T4 : Chebyshev.T ℝ 4 = 8 * X ^ 4 - 8 * X ^ 2 + 1 := by
  have := Chebyshev.T_add_two ℝ 2
  norm_num at this
  rw [this, T3, Chebyshev.T_two]; ring

theorem T5 : Chebyshev.T ℝ 5 = 16 * X ^ 5 - 20 * X ^ 3 + 5 * X := by
  have := Chebyshev.T_add_two ℝ 3
  norm_num at this
  rw [this, T4, T3]; ring

theorem radPoly_deg (a : ℕ → ℝ) (R : ℝ) : (radPoly a R).natDegree ≤ 5 := by
  refine natDegree_sum_le_of_forall_le _ _ fun i hi => ?_
  have h1 : (C (2 / R) * X - 1 : ℝ[X]).natDegree ≤ 1 := by
    refine (natDegree_sub_le _ _).trans ?_
    simp only [natDegree_one, Nat.max_zero]
    exact (natDegree_C_mul_le _ _).trans natDegree_X_le
  refine natDegree_C_mul_le _ _ |>.trans (natDegree_comp_le.trans ?_)
  have h2 : (Chebyshev.T ℝ (i : ℤ)).natDegree ≤ 5 := by
    have := Finset.mem_range.1 hi
    have : ((i : ℤ)).natAbs ≤ 5 := by omega
    exact (Chebyshev.natDegree_T ℝ _).le.trans this
  calc _ ≤ 5 * 1 := Nat.mul_le_mul h2 h1
    _ = 5 := rfl

/-- **C88 (radial profile).** The coefficients computed from the value at the centre and from the value, slope and second
derivative at the surface are those of a polynomial of degree at most 5 that has them, no slope at the centre and no third
derivative at the surface. -/
theorem C88_radial (v0 v s k R : ℝ) (hR : R ≠ 0) : Joins (radPoly (coeffs v0 v s k R) R) v0 R v s k := by
  have key : radPoly (coeffs v0 v s k R) R =
      C (coeffs v0 v s k R 0) + C (coeffs v0 v s k R 1) * (C (2 / R) * X - 1) +
      C (coeffs v0 v s k R 2) * (2 * (C (2 / R) * X - 1) ^ 2 - 1) +
      C (coeffs v0 v s k R 3) * (4 * (C (2 / R) * X - 1) ^ 3 - 3 * (C (2 / R) * X - 1)) +
      C (coeffs v0 v s k R 4) * (8 * (C (2 / R) * X - 1) ^ 4 - 8 * (C (2 / R) * X - 1) ^ 2 + 1) +
      C (coeffs v0 v s k R 5) * (16 * (C (2 / R) * X - 1) ^ 5 - 20 * (C (2 / R) * X - 1) ^ 3 + 5 * (C (2 / R) * X - 1)) := by
    unfold radPoly
    simp only [Finset.sum_range_succ, Finset.sum_range_zero, Nat.cast_zero, Nat.cast_one, Nat.cast_ofNat, Chebyshev.T_zero,
      Chebyshev.T_one, Chebyshev.T_two, T3, T4, T5]
    simp
  have hR' : 2 / R * R = 2 := div_mul_cancel₀ _ hR
  refine ⟨radPoly_deg _ _, ?_, ?_, ?_, ?_, ?_, ?_⟩ <;> rw [key] <;>
    simp only [coeffs, derivative_add, derivative_mul, derivative_sub, derivative_C, derivative_X, derivative_pow,
      derivative_one, derivative_ofNat, eval_add, eval_mul, eval_sub, eval_C, eval_X, eval_pow, eval_one, eval_zero, eval_ofNat,
      derivative_zero, map_natCast, derivative_natCast, eval_natCast, hR', mul_zero] <;>
    (norm_num; try field_simp) <;> ring

/-! ### derivatives along a ray -/

theorem ray_has (c N : Fin 3 → ℝ) (s : ℝ) : HasDerivAt (ray c N) N s := by
  refine hasDerivAt_pi.2 ?_
  intro i
  have h := ((hasDerivAt_id s).mul_const (N i)).const_add (c i)
  simpa [ray] using h

/-- the slope along the ray -/
def slope (F : Fin 3 → (Fin 3 → ℝ) → ℝ) (c N : Fin 3 → ℝ) (s : ℝ) : ℝ := ∑ i, N i * F i (ray c N s)

/-- the second derivative along the ray -/
def curv (H : Fin 3 → Fin 3 → (Fin 3 → ℝ) → ℝ) (c N : Fin 3 → ℝ) (s : ℝ) : ℝ := ∑ i, N i * ∑ j, N j * H i j (ray c N s)

theorem line_has {g : (Fin 3 → ℝ) → ℝ} {G : Fin 3 → (Fin 3 → ℝ) → ℝ} (c N : Fin 3 → ℝ) (s : ℝ)
    (h : ∀ x, HasFDerivAt g (∑ i, G i x • ContinuousLinearMap.proj (R := ℝ) (φ := fun _ : Fin 3 => ℝ) i) x) :
    HasDerivAt (fun s => g (ray c N s)) (∑ i, N i * G i (ray c N s)) s := by
  have := (h (ray c N s)).comp_hasDerivAt s (ray_has c N s)
  refine this.congr_deriv ?_
  simp [sum_apply, mul_comm]

theorem slope_has {f F H} (h : Smooth f F H) (c N : Fin 3 → ℝ) (s : ℝ) :
    HasDerivAt (fun s => f (ray c N s)) (slope F c N s) s := line_has c N s h.first

theorem curv_has {f F H} (h : Smooth f F H) (c N : Fin 3 → ℝ) (s : ℝ) : HasDerivAt (slope F c N) (curv H c N s) s := by
  unfold slope curv
  exact HasDerivAt.fun_sum fun i _ => (line_has c N s (h.second i)).const_mul (N i)

theorem curv_cont {f F H} (h : Smooth f F H) (c N : Fin 3 → ℝ) : Continuous (curv H c N) := by
  unfold curv
  have hr : Continuous (ray c N) := by unfold ray; fun_prop
  exact continuous_finsetSum _ fun i _ => continuous_const.mul
    (continuous_finsetSum _ fun j _ => continuous_const.mul ((h.cont i j).comp hr))

/-- with the surface point on the ray, the program's second radial derivative is the second derivative along the ray -/
theorem secondDer_eq (N df : Fin 3 → ℝ) (ddf : ℕ → ℝ) (R : ℝ) (hR : R ≠ 0) (hN : N 0 * N 0 + N 1 * N 1 + N 2 * N 2 = 1) :
    secondDer N (fun i => R * N i) df ddf R = ∑ i : Fin 3, N i * ∑ j : Fin 3, N j * ddf (symm3 i j) := by
  unfold secondDer
  have e1 : ∀ i j : Fin 3, R * N i * (R * N j) / (R * (R * R)) = N i * N j / R := by intro i j; field_simp
  simp only [e1, Fin.sum_univ_three]
  simp only [Fin.isValue, show ((0 : Fin 3) = 1) = False by decide, show ((0 : Fin 3) = 2) = False by decide,
    show ((1 : Fin 3) = 0) = False by decide, show ((1 : Fin 3) = 2) = False by decide, show ((2 : Fin 3) = 0) = False by decide,
    show ((2 : Fin 3) = 1) = False by decide, if_true, if_false]
  linear_combination (-(df 0 * N 0 + df 1 * N 1 + df 2 * N 2) / R) * hN

/-! ### joining the inside to the outside -/

/-- left of R the one function, from R on the other -/
noncomputable def glue (a b : ℝ → ℝ) (R : ℝ) (s : ℝ) : ℝ := if s < R then a s else b s

theorem glue_has {a b a' b' : ℝ → ℝ} {R : ℝ} (ha : ∀ s, HasDerivAt a (a' s) s) (hb : ∀ s, HasDerivAt b (b' s) s)
    (h : a R = b R) (h' : a' R = b' R) (s : ℝ) : HasDerivAt (glue a b R) (glue a' b' R s) s := by
  rcases lt_trichotomy s R with hs | hs | hs
  · have e : glue a' b' R s = a' s := if_pos hs
    rw [e]
    refine (ha s).congr_of_eventuallyEq ?_
    filter_upwards [Iio_mem_nhds hs] with t ht
    exact if_pos ht
  · subst hs
    have e : glue a' b' s s = b' s := if_neg (lt_irrefl s)
    rw [e]
    have l : HasDerivWithinAt (glue a b s) (b' s) (Set.Iic s) s := by
      refine (h' ▸ (ha s).hasDerivWithinAt).congr (fun t ht => ?_) ?_
      · rcases lt_or_eq_of_le (show t ≤ s from ht) with ht | ht
        · exact if_pos ht
        · rw [ht]; exact (if_neg (lt_irrefl s)).trans h.symm
      · exact (if_neg (lt_irrefl s)).trans h.symm
    have r : HasDerivWithinAt (glue a b s) (b' s) (Set.Ici s) s :=
      (hb s).hasDerivWithinAt.congr (fun t ht => if_neg (not_lt.2 ht)) (if_neg (lt_irrefl s))
    have := l.union r
    rwa [Set.Iic_union_Ici, hasDerivWithinAt_univ] at this
  · have e : glue a' b' R s = b' s := if_neg (not_lt.2 hs.le)
    rw [e]
    refine (hb s).congr_of_eventuallyEq ?_
    filter_upwards [Ioi_mem_nhds hs] with t ht
    exact if_neg (not_lt.2 (le_of_lt ht))

theorem glue_cont {a b : ℝ → ℝ} {R : ℝ} (ha : Continuous a) (hb : Continuous b) (h : a R = b R) : Continuous (glue a b R) := by
  have e : glue a b R = fun s => if s ≤ R then a s else b s := by
    funext s
    rcases lt_trichotomy s R with hs | hs | hs
    · simp [glue, hs, hs.le]
    · subst hs; simp [glue, h]
    · simp [glue, not_lt.2 hs.le, not_le.2 hs]
  rw [e]
  exact Continuous.if_le ha hb continuous_id continuous_const (fun x hx => by rw [hx]; exact h)

/-- **C88 (smoothness).** Along every ray, a polynomial that joins the outside field at the surface makes, together with
that field, a twice continuously differentiable function. -/
theorem C88_smooth {f F H} (hf : Smooth f F H) (c N : Fin 3 → ℝ) (p : ℝ[X]) (v0 R : ℝ)
    (hp : Joins p v0 R (f (ray c N R)) (slope F c N R) (curv H c N R)) :
    ∃ G1 G2 : ℝ → ℝ, (∀ s, HasDerivAt (glue (fun s => p.eval s) (fun s => f (ray c N s)) R) (G1 s) s) ∧
      (∀ s, HasDerivAt G1 (G2 s) s) ∧ Continuous G2 :=
  ⟨_, _, glue_has (fun s => p.hasDerivAt s) (slope_has hf c N) hp.surf hp.surf1,
    glue_has (fun s => (derivative p).hasDerivAt s) (curv_has hf c N) hp.surf1 hp.surf2,
    glue_cont (continuous_iff_continuousAt.2 fun s => ((derivative (derivative p)).hasDerivAt s).continuousAt) (curv_cont hf c N) hp.surf2⟩

end Elliptica.Bhf
