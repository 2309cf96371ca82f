import Verif.Model.CoordJac
import Verif.Props.Coord
import Mathlib.Analysis.Calculus.Deriv.Add
import Mathlib.Analysis.Calculus.Deriv.Mul
import Mathlib.Analysis.Calculus.Deriv.Inv
import Mathlib.Analysis.Calculus.Deriv.Comp
import Mathlib.Analysis.Calculus.Deriv.Prod
import Mathlib.Analysis.SpecialFunctions.Sqrt
import Mathlib.LinearAlgebra.Matrix.Determinant.Basic
/-!
Property C74: the coordinate Jacobians are the derivatives of the coordinate maps.
-/
noncomputable section
namespace Elliptica.Coord

/-- The surface data stored at the node are those of the surface functions: values, and derivatives along the two angular
coordinates.  Patches of the outermost split type are set up with a spherical outer surface, and an inner surface that is
either a sphere (no `xc1`) or the plane at distance `xc1`. -/
structure Surfaces (big : ℝ) (p : Patch ℝ) (n : JNode) : Prop where
  v1 : n.R1v = p.R1f (n.X 0) (n.X 1)
  v2 : n.R2v = p.R2f (n.X 0) (n.X 1)
  g1 : HasFDerivAt (fun q : ℝ × ℝ => p.R1f q.1 q.2)
    (n.R1a • ContinuousLinearMap.fst ℝ ℝ ℝ + n.R1b • ContinuousLinearMap.snd ℝ ℝ ℝ) (n.X 0, n.X 1)
  g2 : HasFDerivAt (fun q : ℝ × ℝ => p.R2f q.1 q.2)
    (n.R2a • ContinuousLinearMap.fst ℝ ℝ ℝ + n.R2b • ContinuousLinearMap.snd ℝ ℝ ℝ) (n.X 0, n.X 1)
  outer : p.type = .otScs → n.R2v ≠ 0 ∧ n.R2a = 0 ∧ n.R2b = 0 ∧
    if p.xc1 = big then n.R1a = 0 ∧ n.R1b = 0
    else n.R1v = p.xc1 * d1 n ∧ n.R1a = p.xc1 * n.X 0 / d1 n ∧ n.R1b = p.xc1 * n.X 1 / d1 n

theorem d_pos (a b : ℝ) : 0 < 1 + a * a + b * b := by nlinarith [mul_self_nonneg a, mul_self_nonneg b]

theorem d1_pos (n : JNode) : 0 < d1 n := Real.sqrt_pos.2 (d_pos _ _)

theorem d1_sq (n : JNode) : d1 n * d1 n = 1 + n.X 0 * n.X 0 + n.X 1 * n.X 1 :=
  Real.mul_self_sqrt (d_pos _ _).le

section curve
variable {big : ℝ} {p : Patch ℝ} {n : JNode} {l : Fin 3}

/-- one Cartesian component along a coordinate line -/
theorem comp_has (x : Fin 3 → ℝ) (l m : Fin 3) (c : ℝ) :
    HasDerivAt (fun t => Function.update x l t m - c) (kron m l) (x l) := by
  unfold kron
  by_cases h : m = l
  · subst h
    simpa using (hasDerivAt_id (x m)).sub_const c
  · simpa [h, Function.update_of_ne h] using (hasDerivAt_const (x l) (x m - c))

theorem update_same (x : Fin 3 → ℝ) (l m : Fin 3) : Function.update x l (x l) m = x m := by
  rw [Function.update_eq_self]

theorem hasA (hk : across p n.x ≠ 0) :
    HasDerivAt (fun t => rawX (realLib big) p (Function.update n.x l t) 0) (jA p n l) (n.x l) := by
  have e : (fun t => rawX (realLib big) p (Function.update n.x l t) 0) = fun t =>
      sgn p.side * (Function.update n.x l t (perm p.side).2.1 - p.c (perm p.side).2.1) /
        (Function.update n.x l t (perm p.side).2.2.2 - p.c (perm p.side).2.2.2) := by
    funext t; exact (rawX_comp (realLib big) p _).1
  rw [e]
  have hk' : Function.update n.x l (n.x l) (perm p.side).2.2.2 - p.c (perm p.side).2.2.2 ≠ 0 := by
    rw [update_same]; exact hk
  have := ((comp_has n.x l (perm p.side).2.1 (p.c (perm p.side).2.1)).const_mul (sgn p.side)).div
    (comp_has n.x l (perm p.side).2.2.2 (p.c (perm p.side).2.2.2)) hk'
  refine this.congr_deriv ?_
  unfold across at hk
  simp only [update_same, jA]
  field_simp

theorem hasB (hk : across p n.x ≠ 0) :
    HasDerivAt (fun t => rawX (realLib big) p (Function.update n.x l t) 1) (jB p n l) (n.x l) := by
  have e : (fun t => rawX (realLib big) p (Function.update n.x l t) 1) = fun t =>
      sgn p.side * (Function.update n.x l t (perm p.side).2.2.1 - p.c (perm p.side).2.2.1) /
        (Function.update n.x l t (perm p.side).2.2.2 - p.c (perm p.side).2.2.2) := by
    funext t; exact (rawX_comp (realLib big) p _).2.1
  rw [e]
  have hk' : Function.update n.x l (n.x l) (perm p.side).2.2.2 - p.c (perm p.side).2.2.2 ≠ 0 := by
    rw [update_same]; exact hk
  have := ((comp_has n.x l (perm p.side).2.2.1 (p.c (perm p.side).2.2.1)).const_mul (sgn p.side)).div
    (comp_has n.x l (perm p.side).2.2.2 (p.c (perm p.side).2.2.2)) hk'
  refine this.congr_deriv ?_
  unfold across at hk
  simp only [update_same, jB]
  field_simp

/-- a surface function along a coordinate line, given the two angular coordinates along it -/
theorem surf_has {R : ℝ → ℝ → ℝ} {ra rb a' b' t0 : ℝ} {A B : ℝ → ℝ}
    (hR : HasFDerivAt (fun q : ℝ × ℝ => R q.1 q.2)
      (ra • ContinuousLinearMap.fst ℝ ℝ ℝ + rb • ContinuousLinearMap.snd ℝ ℝ ℝ) (A t0, B t0))
    (hA : HasDerivAt A a' t0) (hB : HasDerivAt B b' t0) :
    HasDerivAt (fun t => R (A t) (B t)) (ra * a' + rb * b') t0 := by
  have := HasFDerivAt.comp_hasDerivAt t0 hR (hA.prodMk hB)
  refine this.congr_deriv ?_
  simp

/-- `d` along a coordinate line -/
theorem dd_has {a' b' t0 : ℝ} {A B : ℝ → ℝ} (hA : HasDerivAt A a' t0) (hB : HasDerivAt B b' t0) :
    HasDerivAt (fun t => dd (realLib big) (A t) (B t))
      ((A t0 * a' + B t0 * b') / Real.sqrt (1 + A t0 * A t0 + B t0 * B t0)) t0 := by
  have h := (((hA.mul hA).const_add 1).add (hB.mul hB)).sqrt (ne_of_gt (d_pos (A t0) (B t0)))
  refine (h.congr_of_eventuallyEq (Filter.Eventually.of_forall fun t => ?_)).congr_deriv ?_
  · simp [dd, realLib]
  · have : Real.sqrt (1 + A t0 * A t0 + B t0 * B t0) ≠ 0 := ne_of_gt (Real.sqrt_pos.2 (d_pos _ _))
    simp only [Pi.add_apply, Pi.mul_apply]
    field_simp
    ring

/-- R/d along a coordinate line -/
theorem quot_has {R : ℝ → ℝ} {A B : ℝ → ℝ} {r' a' b' t0 : ℝ} (hR : HasDerivAt R r' t0) (hA : HasDerivAt A a' t0)
    (hB : HasDerivAt B b' t0) :
    HasDerivAt (fun t => R t / dd (realLib big) (A t) (B t))
      (r' / Real.sqrt (1 + A t0 * A t0 + B t0 * B t0) -
        R t0 * (A t0 * a' + B t0 * b') / Real.sqrt (1 + A t0 * A t0 + B t0 * B t0) ^ 3) t0 := by
  have hd : dd (realLib big) (A t0) (B t0) ≠ 0 := ne_of_gt (Real.sqrt_pos.2 (d_pos _ _))
  refine (hR.div (dd_has (big := big) hA hB) hd).congr_deriv ?_
  have e : dd (realLib big) (A t0) (B t0) = Real.sqrt (1 + A t0 * A t0 + B t0 * B t0) := rfl
  rw [e] at hd ⊢
  field_simp

/-- the linear third coordinate along a coordinate line -/
theorem lin_has {U F G : ℝ → ℝ} {u f g t0 : ℝ} (hU : HasDerivAt U u t0) (hF : HasDerivAt F f t0)
    (hG : HasDerivAt G g t0) (hne : G t0 - F t0 ≠ 0) :
    HasDerivAt (fun t => (U t - F t) / (G t - F t))
      (((u - f) - (U t0 - F t0) * (g - f) / (G t0 - F t0)) / (G t0 - F t0)) t0 := by
  refine ((hU.sub hF).div (hG.sub hF) hne).congr_deriv ?_
  simp only [Pi.sub_apply]
  field_simp

/-- the compactified third coordinate along a coordinate line -/
theorem comp_third {U F Q : ℝ → ℝ} {u f q t0 : ℝ} (hU : HasDerivAt U u t0) (hF : HasDerivAt F f t0)
    (hQ : HasDerivAt Q q t0) (hu : U t0 ≠ 0) (hq : Q t0 ≠ 0) :
    HasDerivAt (fun t => (1 - F t / U t) / Q t)
      (((-f + F t0 * u / U t0) / U t0 - (1 - F t0 / U t0) / Q t0 * q) / Q t0) t0 := by
  refine (((hF.div hU hu).const_sub 1).div hQ hq).congr_deriv ?_
  simp only [Pi.div_apply]
  field_simp
  ring

end curve

variable {big : ℝ} {p : Patch ℝ} {n : JNode} {l : Fin 3}

/-- the node's patch coordinates are those the inverse map finds for its Cartesian ones -/
theorem node_coords (hx : n.x = xOfX (realLib big) p n.X) (hnd : NonDegenerate (realLib big) p (n.X 0) (n.X 1))
    (hk : across p n.x ≠ 0) : rawX (realLib big) p n.x = n.X := by
  rw [hx] at hk ⊢
  exact C21_there_and_back _ p n.X hnd hk

/-- the third coordinate as a function of the first two and of the component across the side -/
def thirdOf (L : Lib ℝ) (p : Patch ℝ) (a b u : ℝ) : ℝ :=
  if linear p.type then (u - x1 L p a b) / (x2 L p a b - x1 L p a b) else (1 - x1 L p a b / u) / ratio L p a b

theorem third_has {A B U : ℝ → ℝ} {t0 : ℝ} (hA : HasDerivAt A (jA p n l) t0) (hB : HasDerivAt B (jB p n l) t0)
    (hU : HasDerivAt U (kron (perm p.side).2.2.2 l) t0) (A0 : A t0 = n.X 0) (B0 : B t0 = n.X 1)
    (U0 : U t0 = n.x (perm p.side).2.2.2 - p.c (perm p.side).2.2.2)
    (C0 : n.X 2 = thirdOf (realLib big) p (n.X 0) (n.X 1) (U t0))
    (hnd : NonDegenerate (realLib big) p (n.X 0) (n.X 1)) (hk : U t0 ≠ 0) (hs : Surfaces big p n) :
    HasDerivAt (fun t => thirdOf (realLib big) p (A t) (B t) (U t)) (JT big p n 2 l) t0 := by
  have hd : d1 n ≠ 0 := ne_of_gt (d1_pos n)
  have hd2 := d1_sq n
  have g1 := surf_has (R := p.R1f) (by rw [A0, B0]; exact hs.g1) hA hB
  have g2 := surf_has (R := p.R2f) (by rw [A0, B0]; exact hs.g2) hA hB
  have q1 := quot_has (big := big) g1 hA hB
  have q2 := quot_has (big := big) g2 hA hB
  have dh := dd_has (big := big) hA hB
  have ed : Real.sqrt (1 + A t0 * A t0 + B t0 * B t0) = d1 n := by rw [A0, B0]; rfl
  rw [ed, A0, B0] at q1 q2 dh
  rw [← hs.v1] at q1
  rw [← hs.v2] at q2
  have ed' : dd (realLib big) (A t0) (B t0) = d1 n := by rw [A0, B0]; rfl
  have ed'' : dd (realLib big) (n.X 0) (n.X 1) = d1 n := rfl
  have w1 : n.R1a * jA p n l + n.R1b * jB p n l = dR1 p n l := rfl
  have w2 : n.R2a * jA p n l + n.R2b * jB p n l = dR2 p n l := rfl
  have w3 : n.X 0 * jA p n l + n.X 1 * jB p n l = w p n l := rfl
  rw [w1, w3] at q1
  rw [w2, w3] at q2
  rw [w3] at dh
  rw [w1] at g1
  rw [w2] at g2
  have S0 := sgn_ne (K := ℝ) p.side
  have S2 := sgn_sq (K := ℝ) p.side
  unfold NonDegenerate at hnd
  have r1 : p.R1f (A t0) (B t0) = n.R1v := by rw [A0, B0, hs.v1]
  have r2 : p.R2f (A t0) (B t0) = n.R2v := by rw [A0, B0, hs.v2]
  cases ht : p.type with
  | obScs =>
    rw [ht] at hnd
    simp only [linear, reduceIte] at hnd
    have hF : HasDerivAt (fun t => x1 (realLib big) p (A t) (B t))
        ((if p.xc1 = big then dR1 p n l / d1 n - n.R1v * w p n l / d1 n ^ 3 else 0) * sgn p.side) t0 := by
      simp only [x1, ht]
      by_cases hb : p.xc1 = big
      · simp only [realLib] at *
        simp only [hb, if_true]
        exact (q1.const_mul _).congr_deriv (by ring)
      · simp only [realLib, hb, if_false] at *
        simpa using hasDerivAt_const t0 (sgn p.side * p.xc1)
    have hG : HasDerivAt (fun t => x2 (realLib big) p (A t) (B t))
        ((if p.xc2 = big then dR2 p n l / d1 n - n.R2v * w p n l / d1 n ^ 3 else 0) * sgn p.side) t0 := by
      simp only [x2, ht]
      by_cases hb : p.xc2 = big
      · simp only [realLib] at *
        simp only [hb, if_true]
        exact (q2.const_mul _).congr_deriv (by ring)
      · simp only [realLib, hb, if_false] at *
        simpa using hasDerivAt_const t0 (sgn p.side * p.xc2)
    have hne : x2 (realLib big) p (A t0) (B t0) - x1 (realLib big) p (A t0) (B t0) ≠ 0 := by
      rw [A0, B0]; exact sub_ne_zero.2 hnd
    have := lin_has hU hF hG hne
    simp only [thirdOf, ht, linear, reduceIte]
    refine this.congr_deriv ?_
    simp only [JT, ht, jCobScs, x1, x2, ed', r1, r2, U0]
    rfl
  | otScs =>
    rw [ht] at hnd
    simp only [linear, Bool.false_eq_true, if_false] at hnd
    obtain ⟨hR2, e1, e2, ho⟩ := hs.outer ht
    have z2 : dR2 p n l = 0 := by simp only [dR2, e1, e2, zero_mul, add_zero]
    have z1 : dR1 p n l = if p.xc1 = big then 0 else p.xc1 * w p n l / d1 n := by
      by_cases hb : p.xc1 = big
      · rw [if_pos hb] at ho ⊢
        simp only [dR1, ho.1, ho.2, zero_mul, add_zero]
      · rw [if_neg hb] at ho ⊢
        simp only [dR1, ho.2.1, ho.2.2, w]
        field_simp
    have hF : HasDerivAt (fun t => x1 (realLib big) p (A t) (B t))
        ((dR1 p n l / d1 n - n.R1v * w p n l / d1 n ^ 3) * sgn p.side) t0 := by
      simp only [x1, ht]
      by_cases hb : p.xc1 = big
      · simp only [realLib] at *
        simp only [hb, if_true]
        exact (q1.const_mul _).congr_deriv (by ring)
      · simp only [if_neg hb] at ho z1
        simp only [realLib, hb, if_false] at *
        have := hasDerivAt_const t0 (sgn p.side * p.xc1)
        refine this.congr_deriv ?_
        rw [z1, ho.1]
        field_simp
        ring
    have hQ : HasDerivAt (fun t => ratio (realLib big) p (A t) (B t)) (-dR1 p n l / n.R2v) t0 := by
      simp only [ratio, ht]
      refine ((g1.div g2 (by rw [r2]; exact hR2)).const_sub 1).congr_deriv ?_
      rw [z2, r2]
      field_simp
      ring
    have := comp_third hU hF hQ hk (by rw [A0, B0]; exact hnd.1)
    simp only [thirdOf, ht, linear, Bool.false_eq_true, if_false]
    refine this.congr_deriv ?_
    have c0 : (1 - x1 (realLib big) p (A t0) (B t0) / U t0) / ratio (realLib big) p (A t0) (B t0) = n.X 2 := by
      rw [C0, A0, B0]; simp only [thirdOf, ht, linear, Bool.false_eq_true, if_false]
    have x1e : x1 (realLib big) p (A t0) (B t0) = sgn p.side * n.R1v / d1 n := by
      simp only [x1, ht, realLib] at *
      by_cases hb : p.xc1 = big
      · simp only [hb, if_true, r1, ed']; ring
      · simp only [if_neg hb] at ho ⊢
        rw [ho.1]; field_simp; exact if_neg hb
    rw [c0, x1e]
    simp only [JT, ht, jCotScs, ratio, r1, r2, U0, ← z1]
    simp
  | nsCs =>
    rw [ht] at hnd
    simp only [linear, reduceIte] at hnd
    have hF : HasDerivAt (fun t => x1 (realLib big) p (A t) (B t)) 0 t0 := by
      simp only [x1, ht]; exact hasDerivAt_const _ _
    have hG : HasDerivAt (fun t => x2 (realLib big) p (A t) (B t))
        ((dR2 p n l / d1 n - n.R2v * w p n l / d1 n ^ 3) * sgn p.side) t0 := by
      simp only [x2, ht, mul_div_assoc]
      exact (q2.const_mul _).congr_deriv (by ring)
    have hne : x2 (realLib big) p (A t0) (B t0) - x1 (realLib big) p (A t0) (B t0) ≠ 0 := by
      rw [A0, B0]; exact sub_ne_zero.2 hnd
    simp only [thirdOf, ht, linear, reduceIte]
    refine (lin_has hU hF hG hne).congr_deriv ?_
    simp only [JT, ht, jCnsCs, x1, x2, ed', r2, U0, sub_zero]
    rfl
  | srCs =>
    rw [ht] at hnd
    simp only [linear, reduceIte] at hnd
    have hF : HasDerivAt (fun t => x1 (realLib big) p (A t) (B t))
        ((dR1 p n l / d1 n - n.R1v * w p n l / d1 n ^ 3) * sgn p.side) t0 := by
      simp only [x1, ht, mul_div_assoc]
      exact (q1.const_mul _).congr_deriv (by ring)
    have hG : HasDerivAt (fun t => x2 (realLib big) p (A t) (B t)) 0 t0 := by
      simp only [x2, ht]; exact hasDerivAt_const _ _
    have hne : x2 (realLib big) p (A t0) (B t0) - x1 (realLib big) p (A t0) (B t0) ≠ 0 := by
      rw [A0, B0]; exact sub_ne_zero.2 hnd
    simp only [thirdOf, ht, linear, reduceIte]
    refine (lin_has hU hF hG hne).congr_deriv ?_
    simp only [JT, ht, jCsrCs, x1, x2, ed', r1, U0, zero_sub]
    simp only [Fin.isValue, Fin.reduceEq, if_false]
    ring
  | otT1 =>
    rw [ht] at hnd
    simp only [linear, Bool.false_eq_true, if_false] at hnd
    have hF : HasDerivAt (fun t => x1 (realLib big) p (A t) (B t)) 0 t0 := by
      simp only [x1, ht]; exact hasDerivAt_const _ _
    have hQ : HasDerivAt (fun t => ratio (realLib big) p (A t) (B t)) (w p n l / d1 n * (-sgn p.side * p.xc1 / p.R2)) t0 := by
      simp only [ratio, ht]
      have := (((dh.const_mul (sgn p.side)).mul_const p.xc1).div_const p.R2).const_sub 1
      exact this.congr_deriv (by ring)
    have := comp_third hU hF hQ hk (by rw [A0, B0]; exact hnd.1)
    simp only [thirdOf, ht, linear, Bool.false_eq_true, if_false]
    refine this.congr_deriv ?_
    have c0 : (1 - x1 (realLib big) p (A t0) (B t0) / U t0) / ratio (realLib big) p (A t0) (B t0) = n.X 2 := by
      rw [C0, A0, B0]; simp only [thirdOf, ht, linear, Bool.false_eq_true, if_false]
    rw [c0]
    simp only [JT, ht, jCotT1, ratio, x1, ed', U0]
    rw [U0] at hk
    simp only [Fin.isValue, Fin.reduceEq, if_false]
    congr 1
    field_simp
    ring
  | otT2 =>
    rw [ht] at hnd
    simp only [linear, Bool.false_eq_true, if_false] at hnd
    have hF : HasDerivAt (fun t => x1 (realLib big) p (A t) (B t))
        (-(sgn p.side * p.R1 * w p n l / d1 n ^ 3)) t0 := by
      simp only [x1, ht]
      refine (quot_has (big := big) (hasDerivAt_const t0 (sgn p.side * p.R1)) hA hB).congr_deriv ?_
      rw [ed, A0, B0, w3]; ring
    have hQ : HasDerivAt (fun t => ratio (realLib big) p (A t) (B t)) 0 t0 := by
      simp only [ratio, ht]; exact hasDerivAt_const _ _
    have := comp_third hU hF hQ hk (by rw [A0, B0]; exact hnd.1)
    simp only [thirdOf, ht, linear, Bool.false_eq_true, if_false]
    refine this.congr_deriv ?_
    have hr : 1 - p.R1 / p.R2 ≠ 0 := by have := hnd.1; simpa only [ratio, ht] using this
    simp only [JT, ht, jCotT2, ratio, x1, ed', U0]
    rw [U0] at hk
    have hsq : Real.sqrt (1 + n.X 0 * n.X 0 + n.X 1 * n.X 1) = d1 n := rfl
    rw [hsq, ← hd2]
    simp only [Fin.isValue, Fin.reduceEq, if_false]
    generalize 1 - p.R1 / p.R2 = r at *
    field_simp
    ring

/-- C74: at every node of a patch of every type and side, the number the library returns for dq2/dq1 is the partial
derivative of the patch coordinate q2 of the point with respect to its Cartesian coordinate q1. -/
theorem C74_jacobian (hx : n.x = xOfX (realLib big) p n.X) (hnd : NonDegenerate (realLib big) p (n.X 0) (n.X 1))
    (hk : across p n.x ≠ 0) (hs : Surfaces big p n) (q l : Fin 3) :
    HasDerivAt (fun t => rawX (realLib big) p (Function.update n.x l t) q) (JT big p n q l) (n.x l) := by
  have hN := node_coords hx hnd hk
  have hA := hasA (big := big) (l := l) hk
  have hB := hasB (big := big) (l := l) hk
  match q with
  | 0 => exact hA
  | 1 => exact hB
  | 2 =>
    have e : (fun t => rawX (realLib big) p (Function.update n.x l t) 2) = fun t =>
        if linear p.type then (across p (Function.update n.x l t) -
          x1 (realLib big) p (rawX (realLib big) p (Function.update n.x l t) 0)
            (rawX (realLib big) p (Function.update n.x l t) 1)) /
          (x2 (realLib big) p (rawX (realLib big) p (Function.update n.x l t) 0)
            (rawX (realLib big) p (Function.update n.x l t) 1) -
          x1 (realLib big) p (rawX (realLib big) p (Function.update n.x l t) 0)
            (rawX (realLib big) p (Function.update n.x l t) 1))
        else (1 - x1 (realLib big) p (rawX (realLib big) p (Function.update n.x l t) 0)
            (rawX (realLib big) p (Function.update n.x l t) 1) / across p (Function.update n.x l t)) /
          ratio (realLib big) p (rawX (realLib big) p (Function.update n.x l t) 0)
            (rawX (realLib big) p (Function.update n.x l t) 1) := by
      funext t; exact (rawX_comp (realLib big) p _).2.2
    rw [e]
    have hU : HasDerivAt (fun t => across p (Function.update n.x l t)) (kron (perm p.side).2.2.2 l) (n.x l) :=
      comp_has n.x l _ _
    have U0 : across p (Function.update n.x l (n.x l)) = across p n.x := by rw [Function.update_eq_self]
    have A0 : rawX (realLib big) p (Function.update n.x l (n.x l)) 0 = n.X 0 := by rw [Function.update_eq_self, hN]
    have B0 : rawX (realLib big) p (Function.update n.x l (n.x l)) 1 = n.X 1 := by rw [Function.update_eq_self, hN]
    have C0 : n.X 2 = rawX (realLib big) p n.x 2 := by rw [hN]
    rw [(rawX_comp (realLib big) p n.x).2.2, hN] at C0
    exact third_has hA hB hU A0 B0 U0 (by rw [U0]; exact C0) hnd (by rw [U0]; exact hk) hs

end Elliptica.Coord
