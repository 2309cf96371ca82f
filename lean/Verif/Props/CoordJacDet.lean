import Verif.Props.CoordJac
import Mathlib.LinearAlgebra.Matrix.Determinant.Basic
import Mathlib.LinearAlgebra.Matrix.NonsingularInverse
import Mathlib.Algebra.BigOperators.Fin
/-!
Property C75: the coordinates of every cubed-spherical patch are regular and right-handed.
-/
noncomputable section
namespace Elliptica.Coord
variable {big : ℝ} {p : Patch ℝ} {n : JNode}

/-- dX/dx as a matrix -/
def jacobian (big : ℝ) (p : Patch ℝ) (n : JNode) : Matrix (Fin 3) (Fin 3) ℝ := Matrix.of fun q l => JT big p n q l

theorem det_rows (hk : across p n.x ≠ 0) (c : Fin 3 → ℝ) :
    (Matrix.of fun q l : Fin 3 => if q = 0 then jA p n l else if q = 1 then jB p n l else c l).det =
      sgn p.side / across p n.x ^ 3 * ∑ l, c l * (n.x l - p.c l) := by
  rw [Matrix.det_fin_three, Fin.sum_univ_three]
  unfold across at hk ⊢
  cases hs : p.side <;> rw [hs] at hk <;>
    simp only [hs, perm, sgn, jA, jB, kron, Matrix.of_apply, Fin.isValue, Fin.reduceEq, if_true, if_false, reduceIte,
      Bool.false_eq_true] at hk ⊢ <;> field_simp <;> ring

theorem sum_kron (k : Fin 3) (u : Fin 3 → ℝ) : ∑ l, kron k l * u l = u k := by
  simp [kron]

theorem sum_jA (hk : across p n.x ≠ 0) : ∑ l, jA p n l * (n.x l - p.c l) = 0 := by
  unfold across at hk
  have h1 := sum_kron (perm p.side).2.1 (fun l => n.x l - p.c l)
  have h2 := sum_kron (perm p.side).2.2.2 (fun l => n.x l - p.c l)
  rw [Fin.sum_univ_three] at *
  simp only [jA] at *
  field_simp
  linear_combination (n.x (perm p.side).2.2.2 - p.c (perm p.side).2.2.2) * sgn p.side * h1 -
    (n.x (perm p.side).2.1 - p.c (perm p.side).2.1) * sgn p.side * h2

theorem sum_jB (hk : across p n.x ≠ 0) : ∑ l, jB p n l * (n.x l - p.c l) = 0 := by
  unfold across at hk
  have h1 := sum_kron (perm p.side).2.2.1 (fun l => n.x l - p.c l)
  have h2 := sum_kron (perm p.side).2.2.2 (fun l => n.x l - p.c l)
  rw [Fin.sum_univ_three] at *
  simp only [jB] at *
  field_simp
  linear_combination (n.x (perm p.side).2.2.2 - p.c (perm p.side).2.2.2) * sgn p.side * h1 -
    (n.x (perm p.side).2.2.1 - p.c (perm p.side).2.2.1) * sgn p.side * h2

/-- a combination of the rows: along the ray from the centre only the component across the side changes -/
theorem sum_comb (hk : across p n.x ≠ 0) (α β γ : ℝ) :
    ∑ l, (α * kron (perm p.side).2.2.2 l + β * jA p n l + γ * jB p n l) * (n.x l - p.c l) = α * across p n.x := by
  have h1 := sum_jA hk
  have h2 := sum_jB hk
  have h3 := sum_kron (perm p.side).2.2.2 (fun l => n.x l - p.c l)
  rw [Fin.sum_univ_three] at *
  unfold across
  linear_combination β * h1 + γ * h2 + α * h3

/-- the last row as a combination of the first two and of the direction across the side -/
theorem last_row (hx : n.x = xOfX (realLib big) p n.X) (hnd : NonDegenerate (realLib big) p (n.X 0) (n.X 1))
    (hk : across p n.x ≠ 0) (hs : Surfaces big p n) :
    ∃ β γ : ℝ, ∀ l, JT big p n 2 l =
      (if linear p.type then 1 / (x2 (realLib big) p (n.X 0) (n.X 1) - x1 (realLib big) p (n.X 0) (n.X 1))
       else x1 (realLib big) p (n.X 0) (n.X 1) / (across p n.x ^ 2 * ratio (realLib big) p (n.X 0) (n.X 1))) *
        kron (perm p.side).2.2.2 l + β * jA p n l + γ * jB p n l := by
  have hd : d1 n ≠ 0 := ne_of_gt (d1_pos n)
  have ed : dd (realLib big) (n.X 0) (n.X 1) = d1 n := rfl
  have hd2 := d1_sq n
  unfold NonDegenerate at hnd
  have r1 := hs.v1.symm
  have r2 := hs.v2.symm
  have big' : (realLib big).big = big := rfl
  cases ht : p.type with
  | obScs =>
    rw [ht] at hnd
    simp only [linear, reduceIte] at hnd ⊢
    have hne : x2 (realLib big) p (n.X 0) (n.X 1) - x1 (realLib big) p (n.X 0) (n.X 1) ≠ 0 := sub_ne_zero.2 hnd
    simp only [x1, x2, ht, ed, r1, r2, big'] at hne ⊢
    simp only [JT, ht, jCobScs, Fin.isValue, Fin.reduceEq, if_false, dR1, dR2, w]
    generalize (sgn p.side * if p.xc1 = big then n.R1v / d1 n else p.xc1) = F at *
    generalize (sgn p.side * if p.xc2 = big then n.R2v / d1 n else p.xc2) = G at *
    generalize n.x (perm p.side).2.2.2 - p.c (perm p.side).2.2.2 = U
    refine ⟨(-((if p.xc1 = big then n.R1a / d1 n - n.R1v * n.X 0 / d1 n ^ 3 else 0) * sgn p.side) - (U - F) *
        ((if p.xc2 = big then n.R2a / d1 n - n.R2v * n.X 0 / d1 n ^ 3 else 0) * sgn p.side -
        (if p.xc1 = big then n.R1a / d1 n - n.R1v * n.X 0 / d1 n ^ 3 else 0) * sgn p.side) / (G - F)) / (G - F),
      (-((if p.xc1 = big then n.R1b / d1 n - n.R1v * n.X 1 / d1 n ^ 3 else 0) * sgn p.side) - (U - F) *
        ((if p.xc2 = big then n.R2b / d1 n - n.R2v * n.X 1 / d1 n ^ 3 else 0) * sgn p.side -
        (if p.xc1 = big then n.R1b / d1 n - n.R1v * n.X 1 / d1 n ^ 3 else 0) * sgn p.side) / (G - F)) / (G - F),
      fun l => ?_⟩
    by_cases h1 : p.xc1 = big <;> by_cases h2 : p.xc2 = big <;>
      simp only [h1, h2, if_true, if_false] <;> ring
  | otScs =>
    rw [ht] at hnd
    simp only [linear, Bool.false_eq_true, if_false] at hnd ⊢
    obtain ⟨hR2, e1, e2, ho⟩ := hs.outer ht
    have hx1 : x1 (realLib big) p (n.X 0) (n.X 1) = sgn p.side * n.R1v / d1 n := by
      simp only [x1, ht, big', ed, r1]
      by_cases hb : p.xc1 = big
      · simp only [hb, if_true]; ring
      · simp only [if_neg hb] at ho ⊢
        rw [ho.1]; field_simp
    rw [hx1]
    simp only [JT, ht, jCotScs, Fin.isValue, Fin.reduceEq, if_false, ratio, r1, r2, w, across]
    generalize 1 - n.R1v / n.R2v = Q at *
    refine ⟨(-(((if p.xc1 = big then 0 else p.xc1 * n.X 0 / d1 n) / d1 n - n.R1v * n.X 0 / d1 n ^ 3) * sgn p.side) /
        (n.x (perm p.side).2.2.2 - p.c (perm p.side).2.2.2) +
        n.X 2 * ((if p.xc1 = big then 0 else p.xc1 * n.X 0 / d1 n) / n.R2v)) / Q,
      (-(((if p.xc1 = big then 0 else p.xc1 * n.X 1 / d1 n) / d1 n - n.R1v * n.X 1 / d1 n ^ 3) * sgn p.side) /
        (n.x (perm p.side).2.2.2 - p.c (perm p.side).2.2.2) +
        n.X 2 * ((if p.xc1 = big then 0 else p.xc1 * n.X 1 / d1 n) / n.R2v)) / Q, fun l => ?_⟩
    generalize n.x (perm p.side).2.2.2 - p.c (perm p.side).2.2.2 = U
    by_cases h1 : p.xc1 = big <;> simp only [h1, if_true, if_false] <;> ring
  | nsCs =>
    rw [ht] at hnd
    simp only [linear, reduceIte] at hnd ⊢
    simp only [x1, x2, ht, ed, r2]
    simp only [JT, ht, jCnsCs, Fin.isValue, Fin.reduceEq, if_false, dR2, w]
    generalize sgn p.side * n.R2v / d1 n = G
    generalize n.x (perm p.side).2.2.2 - p.c (perm p.side).2.2.2 = U
    refine ⟨-(U - p.xc1) * ((n.R2a / d1 n - n.R2v * n.X 0 / d1 n ^ 3) * sgn p.side) / (G - p.xc1) / (G - p.xc1),
      -(U - p.xc1) * ((n.R2b / d1 n - n.R2v * n.X 1 / d1 n ^ 3) * sgn p.side) / (G - p.xc1) / (G - p.xc1),
      fun l => ?_⟩
    ring
  | srCs =>
    rw [ht] at hnd
    simp only [linear, reduceIte] at hnd ⊢
    simp only [x1, x2, ht, ed, r1]
    simp only [JT, ht, jCsrCs, Fin.isValue, Fin.reduceEq, if_false, dR1, w]
    generalize sgn p.side * n.R1v / d1 n = F
    generalize n.x (perm p.side).2.2.2 - p.c (perm p.side).2.2.2 = U
    refine ⟨(-1 + (U - F) / (p.xc2 - F)) * ((n.R1a / d1 n - n.R1v * n.X 0 / d1 n ^ 3) * sgn p.side) / (p.xc2 - F),
      (-1 + (U - F) / (p.xc2 - F)) * ((n.R1b / d1 n - n.R1v * n.X 1 / d1 n ^ 3) * sgn p.side) / (p.xc2 - F),
      fun l => ?_⟩
    ring
  | otT1 =>
    rw [ht] at hnd
    simp only [linear, Bool.false_eq_true, if_false] at hnd ⊢
    simp only [x1, ratio, ht, ed, across]
    simp only [JT, ht, jCotT1, Fin.isValue, Fin.reduceEq, if_false, w]
    refine ⟨-(n.X 2 * (n.X 0 / d1 n * (-sgn p.side * p.xc1 / p.R2)) / (1 - sgn p.side * d1 n * p.xc1 / p.R2)),
      -(n.X 2 * (n.X 1 / d1 n * (-sgn p.side * p.xc1 / p.R2)) / (1 - sgn p.side * d1 n * p.xc1 / p.R2)),
      fun l => ?_⟩
    generalize 1 - sgn p.side * d1 n * p.xc1 / p.R2 = Q
    generalize n.x (perm p.side).2.2.2 - p.c (perm p.side).2.2.2 = U
    ring
  | otT2 =>
    rw [ht] at hnd
    simp only [linear, Bool.false_eq_true, if_false] at hnd ⊢
    simp only [x1, ratio, ht, ed, across]
    simp only [JT, ht, jCotT2, Fin.isValue, Fin.reduceEq, if_false, w]
    have hsq : Real.sqrt (1 + n.X 0 * n.X 0 + n.X 1 * n.X 1) = d1 n := rfl
    rw [hsq]
    generalize n.x (perm p.side).2.2.2 - p.c (perm p.side).2.2.2 = U
    generalize 1 - p.R1 / p.R2 = Q
    generalize 1 + n.X 0 * n.X 0 + n.X 1 * n.X 1 = D
    refine ⟨n.X 0 / D * sgn p.side * p.R1 / (Q * U * d1 n), n.X 1 / D * sgn p.side * p.R1 / (Q * U * d1 n),
      fun l => ?_⟩
    ring

/-- C75, the determinant of dX/dx -/
theorem C75_determinant (hx : n.x = xOfX (realLib big) p n.X)
    (hnd : NonDegenerate (realLib big) p (n.X 0) (n.X 1)) (hk : across p n.x ≠ 0) (hs : Surfaces big p n) :
    (jacobian big p n).det = sgn p.side *
      if linear p.type then
        1 / (across p n.x ^ 2 * (x2 (realLib big) p (n.X 0) (n.X 1) - x1 (realLib big) p (n.X 0) (n.X 1)))
      else x1 (realLib big) p (n.X 0) (n.X 1) / (across p n.x ^ 4 * ratio (realLib big) p (n.X 0) (n.X 1)) := by
  obtain ⟨β, γ, hl⟩ := last_row hx hnd hk hs
  have e : jacobian big p n = Matrix.of fun q l : Fin 3 =>
      if q = 0 then jA p n l else if q = 1 then jB p n l else JT big p n 2 l := by
    ext q l
    match q with
    | 0 => rfl
    | 1 => rfl
    | 2 => rfl
  rw [e, det_rows hk (fun l => JT big p n 2 l)]
  simp only [hl]
  rw [sum_comb hk]
  by_cases hlin : linear p.type = true
  · simp only [hlin, if_true]
    have hne : x2 (realLib big) p (n.X 0) (n.X 1) - x1 (realLib big) p (n.X 0) (n.X 1) ≠ 0 := by
      unfold NonDegenerate at hnd; rw [if_pos hlin] at hnd; exact sub_ne_zero.2 hnd
    field_simp
  · simp only [hlin, Bool.false_eq_true, if_false]
    have hne : ratio (realLib big) p (n.X 0) (n.X 1) ≠ 0 := by
      unfold NonDegenerate at hnd; rw [if_neg hlin] at hnd; exact hnd.1
    field_simp

/-- C75: at every node of every patch whose inner surface is strictly inside its outer one, the patch coordinates are
regular and right-handed: the determinant of dX/dx is positive, so the matrix is invertible. -/
theorem C75_right_handed (hx : n.x = xOfX (realLib big) p n.X)
    (hg : Geometric (realLib big) p (n.X 0) (n.X 1)) (h0 : 0 ≤ n.X 2) (h1 : n.X 2 ≤ 1) (hs : Surfaces big p n) :
    0 < (jacobian big p n).det := by
  obtain ⟨_, hle, -⟩ := C21_geometric (realLib big) p n.X hg h0 h1
  rw [← hx] at hle
  have hpos : 0 < sgn p.side * across p n.x := lt_of_lt_of_le hg.1 hle
  have hk : across p n.x ≠ 0 := fun h => by rw [h, mul_zero] at hpos; exact lt_irrefl _ hpos
  have hnd : NonDegenerate (realLib big) p (n.X 0) (n.X 1) := by
    unfold NonDegenerate
    obtain ⟨hp, hq⟩ := hg
    by_cases hl : linear p.type = true
    · rw [if_pos hl] at hq ⊢
      intro h; rw [h] at hq; exact lt_irrefl _ hq
    · rw [if_neg hl] at hq ⊢
      exact ⟨ne_of_gt hq.1, fun h => by rw [h, mul_zero] at hp; exact lt_irrefl _ hp⟩
  rw [C75_determinant hx hnd hk hs]
  have h2 : 0 < across p n.x ^ 2 := by positivity
  have h4 : 0 < across p n.x ^ 4 := by positivity
  have S2 := sgn_sq (K := ℝ) p.side
  obtain ⟨hp, hq⟩ := hg
  by_cases hl : linear p.type = true
  · rw [if_pos hl] at hq ⊢
    have hd : 0 < sgn p.side * (x2 (realLib big) p (n.X 0) (n.X 1) - x1 (realLib big) p (n.X 0) (n.X 1)) := by
      linarith
    have : sgn p.side * (1 / (across p n.x ^ 2 *
        (x2 (realLib big) p (n.X 0) (n.X 1) - x1 (realLib big) p (n.X 0) (n.X 1)))) =
        1 / (across p n.x ^ 2 *
          (sgn p.side * (x2 (realLib big) p (n.X 0) (n.X 1) - x1 (realLib big) p (n.X 0) (n.X 1)))) := by
      have hS := sgn_ne (K := ℝ) p.side
      have hne : x2 (realLib big) p (n.X 0) (n.X 1) - x1 (realLib big) p (n.X 0) (n.X 1) ≠ 0 :=
        fun h => by rw [h, mul_zero] at hd; exact lt_irrefl _ hd
      field_simp
      linear_combination S2
    rw [this]
    positivity
  · rw [if_neg hl] at hq ⊢
    rw [← mul_div_assoc]
    exact div_pos hp (mul_pos h4 hq.1)

/-! ### the hypotheses are met -/

/-- A patch around an object on the back side, with two deformed surfaces. -/
def jDemo : Patch ℝ where
  side := .back
  type := .obScs
  R1f := fun a _ => 1 + a / 10
  R2f := fun a b => 3 + a * b / 10
  xc1 := 1000000
  xc2 := 1000000
  R1 := 0
  R2 := 0
  c := fun i => if i = 1 then 5 else 0
  mn := fun i => if i = 2 then 0 else -1
  mx := fun _ => 1

/-- the point at angular position (1/2, 1/4), half way -/
def jDemoX : Fin 3 → ℝ := fun i => if i = 0 then 1 / 2 else if i = 1 then 1 / 4 else 1 / 2

/-- a node of it -/
def jDemoN : JNode where
  x := xOfX (realLib 1000000) jDemo jDemoX
  X := jDemoX
  R1v := 1 + 1 / 20
  R2v := 3 + 1 / 80
  R1a := 1 / 10
  R1b := 0
  R2a := 1 / 40
  R2b := 1 / 20

theorem jDemo_surfaces : Surfaces 1000000 jDemo jDemoN where
  v1 := by simp only [jDemo, jDemoN, jDemoX, if_true]; norm_num
  v2 := by simp [jDemo, jDemoN, jDemoX]; norm_num
  g1 := by
    have h := ((hasFDerivAt_fst (𝕜 := ℝ) (E := ℝ) (F := ℝ) (p := ((1:ℝ)/2, (1:ℝ)/4))).mul_const (1/10 : ℝ)).const_add 1
    have e : (jDemoN.X 0, jDemoN.X 1) = ((1:ℝ)/2, (1:ℝ)/4) := by simp [jDemoN, jDemoX]
    rw [e]
    refine (h.congr_of_eventuallyEq (Filter.Eventually.of_forall fun q => ?_)).congr_fderiv ?_
    · simp only [jDemo]; ring
    · simp [jDemoN]
  g2 := by
    have h := (((hasFDerivAt_fst (𝕜 := ℝ) (E := ℝ) (F := ℝ) (p := ((1:ℝ)/2, (1:ℝ)/4))).mul
      (hasFDerivAt_snd (𝕜 := ℝ) (E := ℝ) (F := ℝ) (p := ((1:ℝ)/2, (1:ℝ)/4)))).mul_const (1/10 : ℝ)).const_add 3
    have e : (jDemoN.X 0, jDemoN.X 1) = ((1:ℝ)/2, (1:ℝ)/4) := by simp [jDemoN, jDemoX]
    rw [e]
    refine (h.congr_of_eventuallyEq (Filter.Eventually.of_forall fun q => ?_)).congr_fderiv ?_
    · simp only [jDemo, Pi.mul_apply]; ring
    · ext <;> simp [jDemoN] <;> norm_num
  outer := fun h => by simp [jDemo] at h

theorem jDemo_geometric : Geometric (realLib 1000000) jDemo (jDemoN.X 0) (jDemoN.X 1) := by
  have hd : 0 < dd (realLib 1000000) (jDemoN.X 0) (jDemoN.X 1) := Real.sqrt_pos.2 (d_pos _ _)
  have e0 : jDemoN.X 0 = 1 / 2 := by simp [jDemoN, jDemoX]
  have e1 : jDemoN.X 1 = 1 / 4 := by simp [jDemoN, jDemoX]
  have S : (sgn jDemo.side : ℝ) = -1 := by simp [sgn, jDemo, perm]
  unfold Geometric
  have hl : linear jDemo.type = true := rfl
  rw [if_pos hl, S]
  have f1 : x1 (realLib 1000000) jDemo (jDemoN.X 0) (jDemoN.X 1) =
      -((21 / 20) / dd (realLib 1000000) (jDemoN.X 0) (jDemoN.X 1)) := by
    have : jDemo.R1f (jDemoN.X 0) (jDemoN.X 1) = 21 / 20 := by rw [e0, e1]; simp only [jDemo]; norm_num
    simp only [x1]
    rw [this, S]
    simp [jDemo, realLib]
  have f2 : x2 (realLib 1000000) jDemo (jDemoN.X 0) (jDemoN.X 1) =
      -((241 / 80) / dd (realLib 1000000) (jDemoN.X 0) (jDemoN.X 1)) := by
    have : jDemo.R2f (jDemoN.X 0) (jDemoN.X 1) = 241 / 80 := by rw [e0, e1]; simp only [jDemo]; norm_num
    simp only [x2]
    rw [this, S]
    simp [jDemo, realLib]
  rw [f1, f2]
  constructor
  · have := div_pos (show (0:ℝ) < 21 / 20 by norm_num) hd; linarith
  · have : (21 / 20 : ℝ) / dd (realLib 1000000) (jDemoN.X 0) (jDemoN.X 1) <
        (241 / 80) / dd (realLib 1000000) (jDemoN.X 0) (jDemoN.X 1) := by
      exact div_lt_div_of_pos_right (by norm_num) hd
    linarith

/-- the hypotheses of C74 and C75 at a node of a patch with deformed surfaces -/
example : 0 < (jacobian 1000000 jDemo jDemoN).det :=
  C75_right_handed rfl jDemo_geometric (by simp [jDemoN, jDemoX]) (by simp [jDemoN, jDemoX]; norm_num) jDemo_surfaces

/-- The surfaces the grid builder sets for the outermost patches next to the inner cube (plane at `xc`, sphere of radius
`r`; cubed_spherical_coordinate.c:4126-4160) are as C74 asks. -/
theorem C74_outermost (big xc r : ℝ) (p : Patch ℝ) (n : JNode) (hxc : p.xc1 = xc) (hne : xc ≠ big)
    (h1 : ∀ a b, p.R1f a b = xc * Real.sqrt (1 + a * a + b * b)) (h2 : ∀ a b, p.R2f a b = r) (hr : r ≠ 0)
    (v1 : n.R1v = xc * d1 n) (v2 : n.R2v = r) (a1 : n.R1a = xc * n.X 0 / d1 n) (b1 : n.R1b = xc * n.X 1 / d1 n)
    (a2 : n.R2a = 0) (b2 : n.R2b = 0) : Surfaces big p n where
  v1 := by rw [v1, h1]; rfl
  v2 := by rw [v2, h2]
  g1 := by
    have hp : (1 + n.X 0 * n.X 0 + n.X 1 * n.X 1) ≠ 0 := ne_of_gt (d_pos _ _)
    have hf := hasFDerivAt_fst (𝕜 := ℝ) (E := ℝ) (F := ℝ) (p := (n.X 0, n.X 1))
    have hg := hasFDerivAt_snd (𝕜 := ℝ) (E := ℝ) (F := ℝ) (p := (n.X 0, n.X 1))
    have h := ((((hf.mul hf).const_add 1).add (hg.mul hg)).sqrt hp).const_mul xc
    refine (h.congr_of_eventuallyEq (Filter.Eventually.of_forall fun q => ?_)).congr_fderiv ?_
    · simp only [h1, Pi.add_apply, Pi.mul_apply]
    · have hd : d1 n ≠ 0 := ne_of_gt (d1_pos n)
      have e : Real.sqrt (1 + n.X 0 * n.X 0 + n.X 1 * n.X 1) = d1 n := rfl
      ext <;> simp [a1, b1, e] <;> field_simp <;> ring
  g2 := by
    have : (fun q : ℝ × ℝ => p.R2f q.1 q.2) = fun _ => r := by funext q; exact h2 _ _
    rw [this, a2, b2]
    simpa using hasFDerivAt_const (𝕜 := ℝ) r ((n.X 0, n.X 1) : ℝ × ℝ)
  outer := fun _ => by
    rw [if_neg (by rw [hxc]; exact hne)]
    exact ⟨by rw [v2]; exact hr, a2, b2, by rw [v1, hxc], by rw [a1, hxc], by rw [b1, hxc]⟩

end Elliptica.Coord
