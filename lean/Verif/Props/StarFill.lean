import Verif.Model.StarFill
import Verif.Spec.StarFill
import Verif.Props.Tol
import Mathlib.Analysis.SpecialFunctions.ExpDeriv
import Mathlib.Analysis.SpecialFunctions.Exp
import Mathlib.Analysis.Calculus.Deriv.Inv
import Mathlib.Analysis.Calculus.Deriv.Pow
import Mathlib.Analysis.Calculus.Deriv.Add
import Mathlib.Analysis.Calculus.Deriv.Mul
import Mathlib.Tactic.FieldSimp
/-!
Property C99 (continuation of the matter fields outside a star), the radial formulas.
-/
namespace Elliptica.StarFill
open Real StarFillSpec

/-- the common form: (a + b/r + c/r²) exp(-B (r-r0)/r0) with the value f, slope d and second derivative k at r0 -/
noncomputable def gen (B r0 f d k r : ℝ) : ℝ :=
  (((2 + 4 * B + B ^ 2) * f + r0 * (2 * (2 + B) * d + k * r0)) / 2 +
    -(r0 * (3 * B * f + B ^ 2 * f + 3 * d * r0 + 2 * B * d * r0 + k * r0 ^ 2)) / r +
    (r0 ^ 2 * (B ^ 2 * f + r0 * (2 * d + k * r0) + 2 * B * (f + d * r0))) / 2 / r ^ 2) * exp (-B * (r - r0) / r0)

theorem power_has (A r : ℝ) (hr : r ≠ 0) (n : ℕ) : HasDerivAt (fun x : ℝ => A / x ^ n) (-(n * A) / r ^ (n + 1)) r := by
  have h := ((hasDerivAt_pow n r).fun_inv (pow_ne_zero n hr)).const_mul A
  refine (h.congr_of_eventuallyEq (Filter.Eventually.of_forall fun x => by show A / x ^ n = A * (x ^ n)⁻¹; rw [div_eq_mul_inv])).congr_deriv ?_
  rcases n with - | n
  · simp
  · simp only [Nat.add_sub_cancel]
    field_simp
    ring

theorem rational_has (a b c r : ℝ) (hr : 0 < r) :
    HasDerivAt (fun r => a + b / r + c / r ^ 2) (-b / r ^ 2 - 2 * c / r ^ 3) r := by
  have h1 := power_has b r hr.ne' 1
  simp only [pow_one] at h1
  exact ((h1.const_add a).add (power_has c r hr.ne' 2)).congr_deriv (by norm_num; ring)

theorem rational_has2 (b c r : ℝ) (hr : 0 < r) :
    HasDerivAt (fun r => -b / r ^ 2 - 2 * c / r ^ 3) (2 * b / r ^ 3 + 6 * c / r ^ 4) r :=
  ((power_has (-b) r hr.ne' 2).sub (power_has (2 * c) r hr.ne' 3)).congr_deriv (by norm_num; ring)

theorem exp_has (B r0 r : ℝ) : HasDerivAt (fun r => exp (-B * (r - r0) / r0)) (exp (-B * (r - r0) / r0) * (-B / r0)) r := by
  have h : HasDerivAt (fun r : ℝ => -B * (r - r0) / r0) (-B / r0) r := by
    simpa using (((hasDerivAt_id r).sub_const r0).const_mul (-B)).div_const r0
  exact h.exp

theorem gen_continues (B r0 f d k : ℝ) (h0 : 0 < r0) : Continues (gen B r0 f d k) r0 f d k := by
  set a := ((2 + 4 * B + B ^ 2) * f + r0 * (2 * (2 + B) * d + k * r0)) / 2 with ha
  set b := -(r0 * (3 * B * f + B ^ 2 * f + 3 * d * r0 + 2 * B * d * r0 + k * r0 ^ 2)) with hb
  set c := (r0 ^ 2 * (B ^ 2 * f + r0 * (2 * d + k * r0) + 2 * B * (f + d * r0))) / 2 with hc
  have hne := h0.ne'
  have he : exp (-B * (r0 - r0) / r0) = 1 := by simp
  refine ⟨gen B r0 f d k,
    fun r => (-b / r ^ 2 - 2 * c / r ^ 3) * exp (-B * (r - r0) / r0) + (a + b / r + c / r ^ 2) * (exp (-B * (r - r0) / r0) * (-B / r0)),
    fun r => (2 * b / r ^ 3 + 6 * c / r ^ 4) * exp (-B * (r - r0) / r0) +
      (-b / r ^ 2 - 2 * c / r ^ 3) * (exp (-B * (r - r0) / r0) * (-B / r0)) +
      ((-b / r ^ 2 - 2 * c / r ^ 3) * (exp (-B * (r - r0) / r0) * (-B / r0)) +
        (a + b / r + c / r ^ 2) * (exp (-B * (r - r0) / r0) * (-B / r0) * (-B / r0))),
    fun r _ => rfl, fun r hr => ?_, fun r hr => ?_, ?_, ?_, ?_, ?_⟩
  · exact (rational_has a b c r hr).mul (exp_has B r0 r)
  · exact ((rational_has2 b c r hr).mul (exp_has B r0 r)).add
      ((rational_has a b c r hr).mul ((exp_has B r0 r).mul_const (-B / r0)))
  · intro r hr
    have hr' : r ≠ 0 := (show (0 : ℝ) < r from hr).ne'
    refine ContinuousAt.continuousWithinAt ?_
    fun_prop (disch := positivity)
  · show (a + b / r0 + c / r0 ^ 2) * exp (-B * (r0 - r0) / r0) = f
    rw [he, ha, hb, hc]; field_simp; ring
  · dsimp only
    rw [he, ha, hb, hc]; field_simp; ring
  · dsimp only
    rw [he, ha, hb, hc]; field_simp; ring

/-- the second derivative for which the term in 1/r² is absent -/
noncomputable def kOf (B r0 f d : ℝ) : ℝ := -(B ^ 2 * f + 2 * d * r0 + 2 * B * (f + d * r0)) / r0 ^ 2

theorem inverseR2_eq (r0 f d k r : ℝ) : inverseR2 r0 f d k r = gen 0 r0 f d k r := by
  simp only [inverseR2, gen, neg_zero, zero_mul, zero_div, exp_zero]
  ring_nf

theorem exp_split (A r0 r : ℝ) (h : r0 ≠ 0) : exp A * exp (-A * r / r0) = exp (-A * (r - r0) / r0) := by
  rw [← Real.exp_add]; congr 1; field_simp; ring

theorem exp_split' (A r0 r : ℝ) (h : r0 ≠ 0) (hr : r0 ≤ r) : exp (-A * |r - r0|) = exp (-(A * r0) * (r - r0) / r0) := by
  rw [abs_of_nonneg (by linarith)]; congr 1; field_simp

theorem inverseR2Expmr_eq (r0 f d k r : ℝ) (h : r0 ≠ 0) : inverseR2Expmr r0 f d k r = gen att1 r0 f d k r := by
  unfold inverseR2Expmr gen
  dsimp only
  rw [← exp_split att1 r0 r h]
  ring

theorem inverseR2ExpmAr_eq (r0 f d k r : ℝ) (h : r0 ≠ 0) (hr : r0 ≤ r) : inverseR2ExpmAr r0 f d k r = gen (att0 * r0) r0 f d k r := by
  unfold inverseR2ExpmAr gen
  dsimp only
  rw [exp_split' att0 r0 r h hr]
  ring

theorem gen_one (B r0 f d r : ℝ) (h : r0 ≠ 0) :
    gen B r0 f d (kOf B r0 f d) r = ((f + B * f + d * r0) + -(r0 * (B * f + d * r0)) / r) * exp (-B * (r - r0) / r0) := by
  have hk : kOf B r0 f d * r0 ^ 2 = -(B ^ 2 * f + 2 * d * r0 + 2 * B * (f + d * r0)) := div_mul_cancel₀ _ (pow_ne_zero 2 h)
  unfold gen
  generalize kOf B r0 f d = K at hk
  have e1 : ((2 + 4 * B + B ^ 2) * f + r0 * (2 * (2 + B) * d + K * r0)) / 2 = f + B * f + d * r0 := by linear_combination hk / 2
  have e2 : -(r0 * (3 * B * f + B ^ 2 * f + 3 * d * r0 + 2 * B * d * r0 + K * r0 ^ 2)) = -(r0 * (B * f + d * r0)) := by
    linear_combination -r0 * hk
  have e3 : (r0 ^ 2 * (B ^ 2 * f + r0 * (2 * d + K * r0) + 2 * B * (f + d * r0))) / 2 = 0 := by linear_combination r0 ^ 2 * hk / 2
  rw [e1, e2, e3, zero_div, add_zero]

theorem inverseRExpmr_eq (r0 f d r : ℝ) (h : r0 ≠ 0) : inverseRExpmr r0 f d r = gen att1 r0 f d (kOf att1 r0 f d) r := by
  rw [gen_one _ _ _ _ _ h, ← exp_split att1 r0 r h]
  unfold inverseRExpmr
  ring

theorem inverseRExpmAr_eq (r0 f d r : ℝ) (h : r0 ≠ 0) (hr : r0 ≤ r) :
    inverseRExpmAr r0 f d r = gen (att0 * r0) r0 f d (kOf (att0 * r0) r0 f d) r := by
  rw [gen_one _ _ _ _ _ h]
  unfold inverseRExpmAr
  dsimp only
  rw [exp_split' att0 r0 r h hr]
  ring

theorem poly2_continues (r0 f d k : ℝ) : Continues (poly2 r0 f d k) r0 f d k := by
  refine ⟨poly2 r0 f d k, fun r => (d - k * r0) + k * r, fun _ => k, fun r _ => rfl, fun r _ => ?_, fun r _ => ?_, continuousOn_const, ?_, ?_, rfl⟩
  · have := (((hasDerivAt_id r).const_mul (d - k * r0)).const_add (f + (r0 * (-2 * d + k * r0)) / 2)).add
      ((hasDerivAt_pow 2 r).const_mul (1 / 2 * k))
    refine this.congr_deriv ?_
    norm_num; ring
  · simpa using ((hasDerivAt_id r).const_mul k).const_add (d - k * r0)
  · unfold poly2; ring
  · ring

theorem exponential_has (b c r : ℝ) : HasDerivAt (fun r => b * exp (c * r)) (b * c * exp (c * r)) r := by
  have h : HasDerivAt (fun r : ℝ => c * r) c r := by simpa using (hasDerivAt_id r).const_mul c
  exact (h.exp.const_mul b).congr_deriv (by ring)

theorem exp2_continues (r0 f d k : ℝ) (hd : d ≠ 0) (hk : k ≠ 0) :
    Continues (fun r => -(d ^ 2 / k) + f + d ^ 2 / (k * exp (k * r0 / d)) * exp (k / d * r)) r0 f d k := by
  have hx : exp (k * r0 / d) = exp (k / d * r0) := by congr 1; ring
  have hE := (exp_pos (k / d * r0)).ne'
  refine ⟨_, fun r => d ^ 2 / (k * exp (k * r0 / d)) * (k / d) * exp (k / d * r),
    fun r => d ^ 2 / (k * exp (k * r0 / d)) * (k / d) * (k / d) * exp (k / d * r), fun r _ => rfl, fun r _ => ?_, fun r _ => ?_, ?_, ?_, ?_, ?_⟩
  · exact (exponential_has _ _ r).const_add _
  · exact exponential_has _ _ r
  · fun_prop
  · rw [hx]; field_simp; ring
  · dsimp only; rw [hx]; field_simp
  · dsimp only; rw [hx]; field_simp

theorem expmr_continues (r0 f : ℝ) : Continues (expmr r0 f) r0 f (-(f / 10)) (f / 100) := by
  have key : ∀ b r : ℝ, HasDerivAt (fun r => b * exp (-(1 / 10) * (r - r0))) (-(b / 10) * exp (-(1 / 10) * (r - r0))) r := by
    intro b r
    have h : HasDerivAt (fun r : ℝ => -(1 / 10) * (r - r0)) (-(1 / 10)) r := by
      simpa using ((hasDerivAt_id r).sub_const r0).const_mul (-(1 / 10) : ℝ)
    exact (h.exp.const_mul b).congr_deriv (by ring)
  refine ⟨_, fun r => -(f / 10) * exp (-(1 / 10) * (r - r0)), fun r => -(-(f / 10) / 10) * exp (-(1 / 10) * (r - r0)), fun r _ => rfl,
    fun r _ => key f r, fun r _ => key _ r, ?_, ?_, ?_, ?_⟩
  · fun_prop
  · simp [expmr]
  · simp
  · simp; ring

/-! ### the theorems about the formulas -/

/-- **C99 (formulas of second order).** Unless it ends the run, each of the five formulas poly2, exp2, inverse_r2, inverse_r2_expmr,
inverse_r2_expmAr is, from the surface on, a twice continuously differentiable function with the value, slope and second
derivative of the field at the surface; only exp2 can end the run, and it does so where the slope or the second derivative is
zero to round-off. -/
theorem C99_second (e : ℝ) (he : 0 < e) (m : Method) (hm : m = .poly2 ∨ m = .exp2 ∨ m = .inverseR2 ∨ m = .inverseR2Expmr ∨ m = .inverseR2ExpmAr)
    (r0 f d k : ℝ) (h0 : 0 < r0) :
    (m = .exp2 ∧ (|k| < e ∨ |d| < e) ∧ ∀ r, value e m r0 f d k r = .abort) ∨
      ∃ g, (∀ r, value e m r0 f d k r = .ok (g r)) ∧ Continues g r0 f d k := by
  have lift : ∀ {g g' : ℝ → ℝ} {k : ℝ}, (∀ r, r0 ≤ r → g r = g' r) → Continues g' r0 f d k → Continues g r0 f d k := by
    rintro g g' k hg ⟨h, h1, h2, a, r⟩
    exact ⟨h, h1, h2, fun r hr => (a r hr).trans (hg r hr).symm, r⟩
  rcases hm with rfl | rfl | rfl | rfl | rfl
  · exact .inr ⟨_, fun r => rfl, poly2_continues r0 f d k⟩
  · by_cases hz : (Tol.eql e k 0 || Tol.eql e d 0) = true
    · refine .inl ⟨rfl, ?_, fun r => if_pos hz⟩
      simpa [(Tol.C13_meaning e k 0 he).1, (Tol.C13_meaning e d 0 he).1] using hz
    · refine .inr ⟨_, fun r => if_neg hz, ?_⟩
      have hz' : ¬ (|k| < e ∨ |d| < e) := by simpa [(Tol.C13_meaning e k 0 he).1, (Tol.C13_meaning e d 0 he).1] using hz
      refine exp2_continues r0 f d k ?_ ?_
      · rintro rfl; exact hz' (.inr (by simpa using he))
      · rintro rfl; exact hz' (.inl (by simpa using he))
  · exact .inr ⟨_, fun r => rfl, lift (fun r _ => inverseR2_eq r0 f d k r) (gen_continues 0 r0 f d k h0)⟩
  · exact .inr ⟨_, fun r => rfl, lift (fun r _ => inverseR2Expmr_eq r0 f d k r h0.ne') (gen_continues _ r0 f d k h0)⟩
  · exact .inr ⟨_, fun r => rfl, lift (fun r hr => inverseR2ExpmAr_eq r0 f d k r h0.ne' hr) (gen_continues _ r0 f d k h0)⟩

/-- **C99 (formulas of first order).** The formulas inverse_r_expmr and inverse_r_expmAr are, from the surface on, twice continuously
differentiable functions with the value and the slope of the field at the surface. -/
theorem C99_first (e : ℝ) (m : Method) (hm : m = .inverseRExpmr ∨ m = .inverseRExpmAr) (r0 f d k : ℝ) (h0 : 0 < r0) :
    ∃ g k', (∀ r, value e m r0 f d k r = .ok (g r)) ∧ Continues g r0 f d k' := by
  have lift : ∀ {g g' : ℝ → ℝ} {k : ℝ}, (∀ r, r0 ≤ r → g r = g' r) → Continues g' r0 f d k → Continues g r0 f d k := by
    rintro g g' k hg ⟨h, h1, h2, a, r⟩
    exact ⟨h, h1, h2, fun r hr => (a r hr).trans (hg r hr).symm, r⟩
  rcases hm with rfl | rfl
  · exact ⟨_, _, fun r => rfl, lift (fun r _ => inverseRExpmr_eq r0 f d r h0.ne') (gen_continues _ r0 f d _ h0)⟩
  · exact ⟨_, _, fun r => rfl, lift (fun r hr => inverseRExpmAr_eq r0 f d r h0.ne' hr) (gen_continues _ r0 f d _ h0)⟩

/-- **C99 (formula of order zero).** The formula expmr has the value of the field at the surface, whatever its slope there. -/
theorem C99_zeroth (e r0 f d k : ℝ) : ∃ g s k', (∀ r, value e .expmr r0 f d k r = .ok (g r)) ∧ Continues g r0 f s k' :=
  ⟨_, _, _, fun r => rfl, expmr_continues r0 f⟩

end Elliptica.StarFill
