import Verif.Model.FreeData
import Verif.Spec.FreeData
import Verif.Props.BlackHoleNormal
import Verif.Props.Angles
import Verif.Props.Tol
/-!
C95: exact free data of a Schwarzschild hole.
-/
namespace Elliptica.Fd
open Elliptica.Fields Elliptica.FdSpec Elliptica.BhSpec

theorem radius_pos (p : Pt) (hp : p ≠ 0) : 0 < radius p := Bh.dist_pos p hp
theorem radius_sq (p : Pt) : radius p ^ 2 = p 0 ^ 2 + p 1 ^ 2 + p 2 ^ 2 := Bh.dist_sq p

theorem radius_deriv (p : Pt) (hp : p ≠ 0) (j : Fin 3) : HasDerivAt (line radius j p) (p j / radius p) (p j) := Bh.dist_deriv p hp j

/-- the derivative of a function of the radius -/
theorem radial_deriv (F : ℝ → ℝ) (F' : ℝ) (p : Pt) (hp : p ≠ 0) (j : Fin 3) (h : HasDerivAt F F' (radius p)) :
    HasDerivAt (line (fun q => F (radius q)) j p) (F' * (p j / radius p)) (p j) := by
  have e : line radius j p (p j) = radius p := line_at _ _ _
  have h1 := (by rw [e]; exact h : HasDerivAt F F' (line radius j p (p j))).comp (p j) (radius_deriv p hp j)
  exact h1

theorem inv_deriv (A r : ℝ) (hr : r ≠ 0) (n : ℕ) : HasDerivAt (fun x : ℝ => A / x ^ n) (-(n * A) / r ^ (n + 1)) r := by
  have h := (hasDerivAt_pow n r).inv (pow_ne_zero n hr)
  refine ((h.const_mul A).congr_of_eventuallyEq (Filter.Eventually.of_forall fun x => by simp [div_eq_mul_inv])).congr_deriv ?_
  rcases n with _ | n
  · simp
  · simp only [Nat.add_sub_cancel]
    field_simp
    ring

theorem harmonic_inv (A B : ℝ) : Harmonic (fun p => A + B / radius p) := by
  refine ⟨fun i p => -B * p i / radius p ^ 3, fun p hp => ⟨fun i => ?_, ?_⟩⟩
  · have hr := radius_pos p hp
    have h := (inv_deriv B (radius p) hr.ne' 1).const_add A
    have h2 := radial_deriv (fun x => A + B / x ^ 1) _ p hp i h
    refine (h2.congr_of_eventuallyEq (Filter.Eventually.of_forall fun t => by simp [line])).congr_deriv ?_
    field_simp
    push_cast
    ring
  · have hr := radius_pos p hp
    refine ⟨fun i => -B / radius p ^ 3 + 3 * B * p i ^ 2 / radius p ^ 5, fun i => ?_, ?_⟩
    · have h1 := radial_deriv _ _ p hp i (inv_deriv (-B) (radius p) hr.ne' 3)
      have h2 := (Bh.coord_deriv p i i).mul h1
      have e1 : line (fun q : Pt => q i) i p (p i) = p i := line_at _ _ _
      have e2 : line (fun q => -B / radius q ^ 3) i p (p i) = -B / radius p ^ 3 := line_at _ _ _
      refine (h2.congr_of_eventuallyEq (Filter.Eventually.of_forall fun t => ?_)).congr_deriv ?_
      · simp only [line, Pi.mul_apply]; ring
      · rw [e1, e2, if_pos rfl]
        field_simp
        push_cast
        ring
    · have h2 := radius_sq p
      have : -B / radius p ^ 3 + 3 * B * p 0 ^ 2 / radius p ^ 5 + (-B / radius p ^ 3 + 3 * B * p 1 ^ 2 / radius p ^ 5) +
          (-B / radius p ^ 3 + 3 * B * p 2 ^ 2 / radius p ^ 5) = 3 * B * (p 0 ^ 2 + p 1 ^ 2 + p 2 ^ 2 - radius p ^ 2) / radius p ^ 5 := by
        field_simp; ring
      simp only [this, h2]; simp

/-- C95 isotropic data: conformal factor and lapse times conformal factor are harmonic (with flat conformal metric, zero shift and zero extrinsic
curvature these are the vacuum equations) -/
theorem C95_iso_equations (M : ℝ) : Harmonic (isoPsi M) ∧ (0 ≤ M → Harmonic (isoAlphaPsi M)) := by
  constructor
  · have : isoPsi M = fun p => 1 + (M / 2) / radius p := by funext p; unfold isoPsi; rw [div_div]
    rw [this]; exact harmonic_inv _ _
  · intro hM
    have : isoAlphaPsi M = fun p => 1 + (-(M / 2)) / radius p := by
      funext p
      have hr : 0 ≤ radius p := Real.sqrt_nonneg _
      have : 1 + M / (2 * radius p) ≠ 0 := by positivity
      unfold isoAlphaPsi isoAlpha isoPsi
      rw [div_mul_cancel₀ _ this]
      rw [neg_div, div_div]; ring
    rw [this]; exact harmonic_inv _ _

/-- C95 isotropic data are the Schwarzschild hole: with the areal radius S = ψ²r, α² = 1 - 2M/S and (dS/dr)² = ψ⁴ (1 - 2M/S) -/
theorem C95_iso_schwarzschild (M : ℝ) (hM : 0 < M) (p : Pt) (hp : p ≠ 0) :
    let S := isoPsi M p ^ 2 * radius p
    isoAlpha M p ^ 2 = 1 - 2 * M / S ∧
    HasDerivAt (fun r => (1 + M / (2 * r)) ^ 2 * r) (isoPsi M p ^ 2 * isoAlpha M p) (radius p) ∧ (isoPsi M p ^ 2 * isoAlpha M p) ^ 2 = isoPsi M p ^ 4 * (1 - 2 * M / S) ∧
    (radius p = M / 2 → isoAlpha M p = 0 ∧ S = 2 * M) := by
  intro S
  have hr := radius_pos p hp
  have hS : S = (1 + M / (2 * radius p)) ^ 2 * radius p := rfl
  have h1 : isoAlpha M p ^ 2 = 1 - 2 * M / S := by
    rw [hS]; unfold isoAlpha; field_simp; ring
  refine ⟨h1, ?_, by rw [← h1]; ring, ?_⟩
  · have h := ((inv_deriv (M / 2) (radius p) hr.ne' 1).const_add 1)
    have h2 := (h.pow 2).mul (hasDerivAt_id (radius p))
    refine (h2.congr_of_eventuallyEq (Filter.Eventually.of_forall fun x => ?_)).congr_deriv ?_
    · simp [div_div]
    · unfold isoPsi isoAlpha
      simp
      field_simp
      ring
  · intro h
    unfold isoAlpha
    rw [hS, h]
    constructor
    · have : M / (2 * (M / 2)) = 1 := by field_simp
      rw [this]; norm_num
    · field_simp; norm_num

/-- C95 Painleve-Gullstrand data: the shift is √(2M/r) times the radial unit vector - exactly unless a coordinate x, y is non-zero and below the round-off,
and to within three round-offs over r (relative to the shift) always -/
theorem C95_pg_shift (e M : ℝ) (he : 0 < e) (p : Pt) (hp : p ≠ 0) :
    ∃ w, pgBeta e M p = .ok w ∧ (∀ i, |w i - √(2 * M / radius p) * p i / radius p| ≤ √(2 * M / radius p) * (3 * e) / radius p) ∧
      ((p 0 = 0 ∨ e ≤ |p 0|) → (p 1 = 0 ∨ e ≤ |p 1|) → ∀ i, w i = √(2 * M / radius p) * p i / radius p) := by
  have hr := radius_pos p hp
  obtain ⟨_, ⟨c1, c2⟩, c3⟩ := Angles.C22_arctan e (p 1) (p 0) he
  obtain ⟨s1, s2⟩ := Angles.sin_arccos_part (p 2) (p 0) (p 1) (radius p) hr (by have := radius_sq p; nlinarith)
  have hu : 0 ≤ √(2 * M / radius p) := Real.sqrt_nonneg _
  refine ⟨![√(p 0 * p 0 + p 1 * p 1) / radius p * Real.cos (Angles.arctan e (p 1) (p 0)) * √(2 * M / radius p),
    √(p 0 * p 0 + p 1 * p 1) / radius p * Real.sin (Angles.arctan e (p 1) (p 0)) * √(2 * M / radius p), p 2 / radius p * √(2 * M / radius p)], ?_, ?_, ?_⟩
  · simp [pgBeta, Transform.sphe, Transform.dcds, s1, s2]
  · have key : ∀ a b : ℝ, |a - b| ≤ 3 * e → |a / radius p * √(2 * M / radius p) - √(2 * M / radius p) * b / radius p| ≤ √(2 * M / radius p) * (3 * e) / radius p := by
      intro a b h
      rw [show a / radius p * √(2 * M / radius p) - √(2 * M / radius p) * b / radius p = √(2 * M / radius p) / radius p * (a - b) by ring, abs_mul,
        abs_of_nonneg (by positivity), show √(2 * M / radius p) * (3 * e) / radius p = √(2 * M / radius p) / radius p * (3 * e) by ring]
      gcongr
    intro i
    fin_cases i
    · have := key _ _ c1
      refine le_of_eq_of_le ?_ this
      simp; ring_nf
    · have := key _ _ c2
      refine le_of_eq_of_le ?_ this
      simp; ring_nf
    · have := key (p 2) (p 2) (by rw [sub_self, abs_zero]; positivity)
      exact this
  · intro h0 h1 i
    obtain ⟨e0, e1⟩ := c3 h0 h1
    fin_cases i
    · show √(p 0 * p 0 + p 1 * p 1) / radius p * Real.cos (Angles.arctan e (p 1) (p 0)) * √(2 * M / radius p) = √(2 * M / radius p) * p 0 / radius p
      linear_combination (√(2 * M / radius p) / radius p) * e0
    · show √(p 0 * p 0 + p 1 * p 1) / radius p * Real.sin (Angles.arctan e (p 1) (p 0)) * √(2 * M / radius p) = √(2 * M / radius p) * p 1 / radius p
      linear_combination (√(2 * M / radius p) / radius p) * e1
    · show p 2 / radius p * √(2 * M / radius p) = √(2 * M / radius p) * p 2 / radius p
      ring

/-- the profile √(2M/r)/rⁿ and its derivative -/
theorem prof_deriv (M r : ℝ) (hM : 0 < M) (hr : 0 < r) (n : ℕ) :
    HasDerivAt (fun x : ℝ => √(2 * M / x) / x ^ n) (-(n + 1 / 2) * √(2 * M / r) / r ^ (n + 1)) r := by
  have hu : 0 < 2 * M / r := by positivity
  have h1 : HasDerivAt (fun x : ℝ => 2 * M / x) (-(2 * M) / r ^ 2) r := by
    simpa using inv_deriv (2 * M) r hr.ne' 1
  have h2 := (h1.sqrt hu.ne').mul (inv_deriv 1 r hr.ne' n)
  have hs : √(2 * M / r) ^ 2 = 2 * M / r := Real.sq_sqrt hu.le
  have hs0 : 0 < √(2 * M / r) := Real.sqrt_pos.mpr hu
  refine (h2.congr_of_eventuallyEq (Filter.Eventually.of_forall fun x => by simp [div_eq_mul_inv])).congr_deriv ?_
  have hA : -(2 * M) / r ^ 2 / (2 * √(2 * M / r)) = -√(2 * M / r) / (2 * r) := by
    rw [div_eq_div_iff (by positivity) (by positivity)]
    have : 2 * M = √(2 * M / r) ^ 2 * r := by rw [hs]; field_simp
    generalize √(2 * M / r) = s at *
    rw [this]; field_simp
  rw [hA]
  field_simp
  ring

/-- the exact Painleve-Gullstrand shift -/
noncomputable def pgExact (M : ℝ) (i : Fin 3) (p : Pt) : ℝ := √(2 * M / radius p) * p i / radius p

/-- its derivatives: the extrinsic curvature -/
noncomputable def pgK (M : ℝ) (i j : Fin 3) (p : Pt) : ℝ :=
  (if i = j then √(2 * M / radius p) / radius p else 0) - 3 / 2 * (√(2 * M / radius p) / radius p ^ 3) * p i * p j

theorem pgExact_deriv (M : ℝ) (hM : 0 < M) (p : Pt) (hp : p ≠ 0) (i j : Fin 3) : HasDerivAt (line (pgExact M i) j p) (pgK M i j p) (p j) := by
  have hr := radius_pos p hp
  have h1 := radial_deriv _ _ p hp j (prof_deriv M (radius p) hM hr 1)
  have h2 := (Bh.coord_deriv p i j).mul h1
  have e1 : line (fun q : Pt => q i) j p (p j) = p i := line_at _ _ _
  have e2 : line (fun q => √(2 * M / radius q) / radius q ^ 1) j p (p j) = √(2 * M / radius p) / radius p ^ 1 :=
    line_at (fun q => √(2 * M / radius q) / radius q ^ 1) _ _
  refine (h2.congr_of_eventuallyEq (Filter.Eventually.of_forall fun t => ?_)).congr_deriv ?_
  · simp only [line, Pi.mul_apply, pgExact]; ring
  · rw [e1, e2]
    unfold pgK
    split <;> (push_cast; field_simp; ring)

/-- derivatives of the extrinsic curvature -/
noncomputable def pgdK (M : ℝ) (i j k : Fin 3) (p : Pt) : ℝ :=
  let h := √(2 * M / radius p) / radius p ^ 3;
  -(3 / 2 * h * ((if i = j then p k else 0) + (if i = k then p j else 0) + (if j = k then p i else 0))) + 21 / 4 * h / radius p ^ 2 * p i * p j * p k

theorem pgK_deriv (M : ℝ) (hM : 0 < M) (p : Pt) (hp : p ≠ 0) (i j k : Fin 3) : HasDerivAt (line (pgK M i j) k p) (pgdK M i j k p) (p k) := by
  have hr := radius_pos p hp
  have h1 := radial_deriv _ _ p hp k (prof_deriv M (radius p) hM hr 1)
  have h3 := radial_deriv _ _ p hp k (prof_deriv M (radius p) hM hr 3)
  have hp2 := ((Bh.coord_deriv p i k).mul (Bh.coord_deriv p j k)).mul h3
  have e1 : line (fun q : Pt => q i) k p (p k) = p i := line_at _ _ _
  have e1' : line (fun q : Pt => q j) k p (p k) = p j := line_at _ _ _
  have e2 : line (fun q => √(2 * M / radius q) / radius q ^ 3) k p (p k) = √(2 * M / radius p) / radius p ^ 3 :=
    line_at (fun q => √(2 * M / radius q) / radius q ^ 3) _ _
  have h := (h1.const_mul (if i = j then 1 else 0)).sub (hp2.const_mul (3 / 2))
  refine (h.congr_of_eventuallyEq (Filter.Eventually.of_forall fun t => ?_)).congr_deriv ?_
  · simp only [line, Pi.mul_apply, Pi.sub_apply, pgK]
    split <;> ring
  · simp only [Pi.mul_apply, e1, e1', e2, pgdK]
    split <;> split <;> split <;> (push_cast; field_simp; ring)

/-- C95 Painleve-Gullstrand data: where the shift is exact around the point and its derivatives are exact, the extrinsic curvature and its trace that are written
are those of the shift (flat metric, lapse 1) -/
theorem C95_pg_curvature (e M : ℝ) (he : 0 < e) (hM : 0 < M) (b : Pt → Fin 3 → ℝ) (hb : ∀ q, q ≠ 0 → pgBeta e M q = .ok (b q)) (p : Pt)
    (h0 : e < |p 0|) (h1 : e < |p 1|) :
    let x : Gen.PgKij.In := ⟨fun i j => pd (fun q => b q i) j p⟩
    (∀ i j, HasDerivAt (line (fun q => b q i) j p) (x.dBeta_UD i j) (p j)) ∧
    (∀ i j, Gen.PgKij.out_Kij_DD x i j = Adm.stored (fun i j => 1 / 2 * (x.dBeta_UD i j + x.dBeta_UD j i)) i j) ∧
    Gen.PgKij.out_trKij x = ∑ i, x.dBeta_UD i i ∧ ∀ i j, x.dBeta_UD i j = pgK M i j p := by
  intro x
  have hne : ∀ q : Pt, e < |q 0| → q ≠ 0 := by
    rintro q hq rfl; simp at hq; linarith
  have hex : ∀ q : Pt, e < |q 0| → e < |q 1| → ∀ i, b q i = pgExact M i q := by
    intro q a c i
    obtain ⟨w, hw, _, hx⟩ := C95_pg_shift e M he q (hne q a)
    rw [hb q (hne q a)] at hw
    injection hw with hw
    rw [hw]; exact hx (Or.inr a.le) (Or.inr c.le) i
  have hd : ∀ i j, HasDerivAt (line (fun q => b q i) j p) (pgK M i j p) (p j) := by
    intro i j
    refine (pgExact_deriv M hM p (hne p h0) i j).congr_of_eventuallyEq ?_
    have hc : ∀ k : Fin 3, Continuous fun t : ℝ => |Function.update p j t k| := fun k => by
      have h1 : Continuous fun t : ℝ => Function.update p j t := continuous_const.update j continuous_id
      exact ((continuous_apply k).comp h1).abs
    have ev : ∀ k : Fin 3, e < |p k| → ∀ᶠ t in nhds (p j), e < |Function.update p j t k| := by
      intro k hk
      refine (hc k).continuousAt.eventually_const_lt ?_
      simpa using hk
    filter_upwards [ev 0 h0, ev 1 h1] with t t0 t1
    exact hex _ t0 t1 i
  have hx : ∀ i j, x.dBeta_UD i j = pgK M i j p := fun i j => (hd i j).deriv
  refine ⟨fun i j => by rw [hx]; exact hd i j, ?_, ?_, hx⟩
  · intro i j
    fin_cases i <;> fin_cases j <;>
      simp [Gen.PgKij.out_Kij_DD, Adm.stored, Gen.PgKij.pgKij_D0D0, Gen.PgKij.pgKij_D0D1, Gen.PgKij.pgKij_D0D2, Gen.PgKij.pgKij_D1D1,
        Gen.PgKij.pgKij_D1D2, Gen.PgKij.pgKij_D2D2, Gen.PgKij.alpha] <;> ring
  · simp [Gen.PgKij.out_trKij, Gen.PgKij.trk, Gen.PgKij.pgKij_D0D0, Gen.PgKij.pgKij_D1D1, Gen.PgKij.pgKij_D2D2, Gen.PgKij.alpha, Fin.sum_univ_three]

/-- C95 Painleve-Gullstrand data satisfy the constraints of a flat vacuum slice, K² = K_ij K_ij and ∂_j K_ij = ∂_i K, and the hole is Schwarzschild:
g_tt = -1 + β² = -(1 - 2M/r) -/
theorem C95_pg_constraints (M : ℝ) (hM : 0 < M) (p : Pt) (hp : p ≠ 0) :
    ((∑ i, pgK M i i p) ^ 2 = ∑ i, ∑ j, pgK M i j p ^ 2) ∧
    (∀ i j k, HasDerivAt (line (pgK M i j) k p) (pgdK M i j k p) (p k)) ∧
    (∀ i, ∑ j, pgdK M i j j p = ∑ j, pgdK M j j i p) ∧
    -1 + ∑ i, pgExact M i p ^ 2 = -(1 - 2 * M / radius p) := by
  have hr := radius_pos p hp
  have h2 := radius_sq p
  have hs : √(2 * M / radius p) ^ 2 = 2 * M / radius p := Real.sq_sqrt (by positivity)
  refine ⟨?_, fun i j k => pgK_deriv M hM p hp i j k, ?_, ?_⟩
  · simp only [Fin.sum_univ_three, pgK, Fin.isValue, Fin.reduceEq, if_true, if_false]
    generalize √(2 * M / radius p) = s at *
    have e : p 2 ^ 2 = radius p ^ 2 - p 0 ^ 2 - p 1 ^ 2 := by linarith
    field_simp
    ring_nf
    have e4 : p 2 ^ 4 = (radius p ^ 2 - p 0 ^ 2 - p 1 ^ 2) ^ 2 := by rw [← e]; ring
    rw [e4, e]
    ring
  · intro i
    simp only [Fin.sum_univ_three, pgdK]
    generalize √(2 * M / radius p) = s at *
    have e : p 2 ^ 2 = radius p ^ 2 - p 0 ^ 2 - p 1 ^ 2 := by linarith
    fin_cases i <;> simp <;> field_simp
  · simp only [Fin.sum_univ_three, pgExact]
    have : (√(2 * M / radius p) * p 0 / radius p) ^ 2 + (√(2 * M / radius p) * p 1 / radius p) ^ 2 + (√(2 * M / radius p) * p 2 / radius p) ^ 2 =
        √(2 * M / radius p) ^ 2 * (p 0 ^ 2 + p 1 ^ 2 + p 2 ^ 2) / radius p ^ 2 := by ring
    rw [this, ← h2, hs]
    field_simp
    ring

example : ∃ (b : Pt → Fin 3 → ℝ) (p : Pt), (∀ q, q ≠ 0 → pgBeta (1 / 10 ^ 12) 1 q = .ok (b q)) ∧ 1 / 10 ^ 12 < |p 0| ∧ 1 / 10 ^ 12 < |p 1| := by
  classical
  refine ⟨fun q => if h : q ≠ 0 then (C95_pg_shift (1 / 10 ^ 12) 1 (by norm_num) q h).choose else 0, ![1, 1, 0], fun q h => ?_, by simp; norm_num, by simp; norm_num⟩
  simp only [dif_pos h]
  exact (C95_pg_shift (1 / 10 ^ 12) 1 (by norm_num) q h).choose_spec.1

end Elliptica.Fd
