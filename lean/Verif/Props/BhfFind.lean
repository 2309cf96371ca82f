import Verif.Props.Bhf
import Verif.Props.Angles
/-!
Property C88, the search of the outside patch by angles.
-/
namespace Elliptica.Bhf
open Coord Angles Real

/-- A patch touching the surface of the black hole from outside: centred there, part of one side of the cubed sphere, its
inner face at the distance `R` of the direction. -/
structure Around (big : ℝ) (center : Fin 3 → ℝ) (R : (Fin 3 → ℝ) → ℝ) (p : Coord.Patch ℝ) : Prop where
  c : p.c = center
  type : p.type = .obScs
  xc1 : p.xc1 = big
  lo0 : -1 ≤ p.mn 0
  lo1 : -1 ≤ p.mn 1
  lt0 : p.mn 0 < p.mx 0
  lt1 : p.mn 1 < p.mx 1
  hi0 : p.mx 0 ≤ 1
  hi1 : p.mx 1 ≤ 1
  surf : ∀ X Y, p.R1f X Y = R (direction p.side X Y)

theorem direction_unit (s : Side) (X Y : ℝ) :
    direction s X Y 0 * direction s X Y 0 + direction s X Y 1 * direction s X Y 1 + direction s X Y 2 * direction s X Y 2 = 1 := by
  have hd : 0 < 1 + X * X + Y * Y := by nlinarith [mul_self_nonneg X, mul_self_nonneg Y]
  have h : √(1 + X * X + Y * Y) * √(1 + X * X + Y * Y) = 1 + X * X + Y * Y := Real.mul_self_sqrt hd.le
  have h0 : √(1 + X * X + Y * Y) ≠ 0 := (Real.sqrt_pos.2 hd).ne'
  unfold direction
  generalize √(1 + X * X + Y * Y) = d at h h0 ⊢
  cases s <;> simp [perm, sgn] <;> field_simp <;> nlinarith

theorem normal_eq (theta phi : ℝ) : normal theta phi = unit theta phi := by
  funext i
  fin_cases i <;> simp [normal, unit]

theorem unit_unit (theta phi : ℝ) : unit theta phi 0 * unit theta phi 0 + unit theta phi 1 * unit theta phi 1 +
    unit theta phi 2 * unit theta phi 2 = 1 := by
  show sin theta * cos phi * (sin theta * cos phi) + sin theta * sin phi * (sin theta * sin phi) + cos theta * cos theta = 1
  have a := Real.sin_sq_add_cos_sq theta
  have b := Real.sin_sq_add_cos_sq phi
  linear_combination a + sin theta ^ 2 * b

/-- the inner face of such a patch: the point of (X,Y) is at the distance R in the direction of (X,Y) -/
theorem face_point {big center R p} (h : Around big center R p) (X : Fin 3 → ℝ) (h2 : X 2 = 0) (i : Fin 3) :
    xOfX (lib big) p X i - center i = R (direction p.side (X 0) (X 1)) * direction p.side (X 0) (X 1) i := by
  obtain ⟨t, ht, hd⟩ := direction_of_patch (lib big) p X
  obtain ⟨-, -, hc⟩ := xOfX_comp (lib big) p X
  have hl : linear p.type = true := by rw [h.type]; rfl
  have h0 : √(1 + X 0 * X 0 + X 1 * X 1) ≠ 0 :=
    (Real.sqrt_pos.2 (by nlinarith [mul_self_nonneg (X 0), mul_self_nonneg (X 1)])).ne'
  have hs := sgn_sq (K := ℝ) p.side
  have hx1 : x1 (lib big) p (X 0) (X 1) = sgn p.side * (p.R1f (X 0) (X 1) / √(1 + X 0 * X 0 + X 1 * X 1)) := by
    unfold x1
    rw [h.type]
    simp [lib, h.xc1, dd]
  have : t = R (direction p.side (X 0) (X 1)) := by
    rw [ht, hc, if_pos hl, h2, mul_zero, add_zero, hx1, h.surf]
    field_simp
    linear_combination R (direction p.side (X 0) (X 1)) * hs
  rw [← this, ← hd i, h.c]

theorem len_smul (R : ℝ) (hR : 0 ≤ R) (n : Fin 3 → ℝ) (hn : n 0 * n 0 + n 1 * n 1 + n 2 * n 2 = 1) :
    len (fun i => R * n i) = R := by
  unfold len
  rw [show R * n 0 * (R * n 0) + R * n 1 * (R * n 1) + R * n 2 * (R * n 2) = R ^ 2 by linear_combination R ^ 2 * hn,
    Real.sqrt_sq hR]

theorem toCheb_bound (e mn mx X : ℝ) (he : 0 < e) (h : mn < mx) (lo : -1 ≤ mn) (hi : mx ≤ 1)
    (hb : |Cheb.toCheb e mn mx X| ≤ 1) : |X| ≤ 1 + e := by
  have key : |(X * 2 - (mx + mn)) / (-mx + mn)| ≤ 1 + e := by
    unfold Cheb.toCheb at hb
    dsimp only at hb
    split at hb
    · rename_i h1
      have := (Tol.C13_meaning e _ 1 he).1.1 h1
      rw [abs_lt] at this
      rw [abs_le]; constructor <;> linarith
    · split at hb
      · rename_i h1
        have := (Tol.C13_meaning e _ (-1) he).1.1 h1
        rw [abs_lt] at this
        rw [abs_le]; constructor <;> linarith
      · linarith
  have hn : -mx + mn < 0 := by linarith
  rw [abs_div, abs_of_neg hn, div_le_iff₀ (by linarith), abs_le] at key
  rw [abs_le]
  constructor <;> nlinarith

/-- sines and cosines of nearby angles -/
theorem near (a b e : ℝ) (h : |a - b| < e) : |sin a - sin b| ≤ e ∧ |cos a - cos b| ≤ e := by
  have h1 : |sin a - sin b| ≤ |a - b| := Real.abs_sin_sub_sin_le a b
  have h2 : |cos a - cos b| ≤ |a - b| := Real.abs_cos_sub_cos_le a b
  exact ⟨h1.trans h.le, h2.trans h.le⟩

theorem prod_near {a b c d e : ℝ} (h1 : |a - b| ≤ e) (h2 : |c - d| ≤ e) (ha : |a| ≤ 1) (hd : |d| ≤ 1) :
    |a * c - b * d| ≤ 2 * e := by
  have h0 : 0 ≤ e := (abs_nonneg _).trans h1
  rw [show a * c - b * d = a * (c - d) + (a - b) * d by ring]
  refine (abs_add_le _ _).trans ?_
  rw [abs_mul, abs_mul]
  nlinarith [abs_nonneg a, abs_nonneg d, abs_nonneg (a - b), abs_nonneg (c - d)]

/-- a point at the distance R in the direction n, whose angles are computed to be within e of (theta, phi): the direction
of (theta, phi) is close to n -/
theorem angles_near (e R theta phi : ℝ) (n : Fin 3 → ℝ) (he : 0 < e) (he1 : e ≤ 1 / 100) (hR : 100 * e ≤ R)
    (hn : n 0 * n 0 + n 1 * n 1 + n 2 * n 2 = 1) (h1 : |arccos (R * n 2 / R) - theta| < e)
    (h2 : |Angles.arctan e (R * n 1) (R * n 0) - phi| < e) (i : Fin 3) : |unit theta phi i - n i| ≤ 1 / 20 := by
  have hR0 : 0 < R := by linarith
  rw [mul_div_cancel_left₀ _ hR0.ne'] at h1
  have hz : -1 ≤ n 2 ∧ n 2 ≤ 1 := by
    constructor <;> nlinarith [mul_self_nonneg (n 0), mul_self_nonneg (n 1)]
  obtain ⟨-, ⟨c1, c2⟩, -⟩ := C22_arctan e (R * n 1) (R * n 0) he
  have hrho : √(R * n 0 * (R * n 0) + R * n 1 * (R * n 1)) = R * sin (arccos (n 2)) := by
    rw [Real.sin_arccos, show R * n 0 * (R * n 0) + R * n 1 * (R * n 1) = R ^ 2 * (1 - n 2 ^ 2) by linear_combination R ^ 2 * hn,
      Real.sqrt_mul (sq_nonneg R), Real.sqrt_sq hR0.le]
  rw [hrho] at c1 c2
  have hc := Real.cos_arccos hz.1 hz.2
  generalize arccos (n 2) = th at *
  generalize Angles.arctan e (R * n 1) (R * n 0) = ph at *
  have d : ∀ u w : ℝ, |R * sin th * u - R * w| ≤ 3 * e → |sin th * u - w| ≤ 3 / 100 := by
    intro u w h
    rw [show R * sin th * u - R * w = R * (sin th * u - w) by ring, abs_mul, abs_of_pos hR0] at h
    have : R * |sin th * u - w| ≤ R * (3 / 100) := by linarith
    exact le_of_mul_le_mul_left this hR0
  obtain ⟨s1, s2⟩ := near th theta e h1
  obtain ⟨s3, s4⟩ := near ph phi e h2
  have g0 := prod_near s1 s4 (Real.abs_sin_le_one th) (Real.abs_cos_le_one phi)
  have g1 := prod_near s1 s3 (Real.abs_sin_le_one th) (Real.abs_sin_le_one phi)
  have k0 := d _ _ c1
  have k1 := d _ _ c2
  rw [abs_le] at g0 g1 k0 k1 s2
  fin_cases i
  · show |sin theta * cos phi - n 0| ≤ 1 / 20
    rw [abs_le]; constructor <;> linarith
  · show |sin theta * sin phi - n 1| ≤ 1 / 20
    rw [abs_le]; constructor <;> linarith
  · show |cos theta - n 2| ≤ 1 / 20
    rw [abs_le]; constructor <;> linarith

/-- the sign function at phi = 0 -/
theorem argSign_zero (e : ℝ) (he : 0 < e) (he1 : e ≤ 1 / 100) : argSign e 0 = .ok (1, 1) := by
  have hp := Real.pi_gt_three
  unfold argSign
  rw [if_neg (by push Not; exact ⟨le_refl _, by linarith⟩), if_pos]
  rw [Bool.and_eq_true]
  exact ⟨(Tol.C13_meaning e 0 0 he).2.2.2.2.2 ⟨by linarith, by linarith⟩,
    (Tol.C13_meaning e 0 (π / 2) he).2.2.2.1.2 ⟨by linarith, by linarith⟩⟩

set_option maxHeartbeats 1000000 in
/-- C38 on the half plane phi = 0 -/
theorem coordinates_axis (e : ℝ) (s : Side) (theta : ℝ) (he : 0 < e) (he1 : e ≤ 1 / 100) (ht0 : 0 < theta) (ht1 : theta < π)
    (hside : 0 < sgn s * unit theta 0 (perm s).2.2.2) :
    ∃ X Y, XYofAngles e s theta 0 = .ok (X, Y) ∧ direction s X Y = unit theta 0 := by
  have hst : 0 < sin theta := Real.sin_pos_of_pos_of_lt_pi ht0 ht1
  have hdir := direction_ratios s (unit theta 0) (unit_unit theta 0) hside
  refine ⟨_, _, ?_, hdir⟩
  have c2 : 1 - cos theta * cos theta = sin theta * sin theta := by
    have a := Real.sin_sq_add_cos_sq theta; linear_combination -a
  have u0 : unit theta 0 0 = sin theta := by simp [unit]
  have u1 : unit theta 0 1 = 0 := by simp [unit]
  have u2 : unit theta 0 2 = cos theta := rfl
  have sq : ∀ a b : ℝ, √(a * a / (b * b)) = |a / b| := fun a b => by
    rw [show a * a / (b * b) = a / b * (a / b) by ring, Real.sqrt_mul_self_eq_abs]
  unfold XYofAngles signs
  rw [argSign_zero e he he1]
  simp only [Res.bind_ok]
  cases s <;> simp only [perm, sgn, magnitudes, Real.tan_zero, mul_zero, add_zero, zero_mul, abs_zero, c2, u0, u1, u2, if_true,
    if_false, Bool.false_eq_true, one_mul, neg_mul, mul_one, zero_div, div_zero, Res.ok.injEq, Prod.mk.injEq] at hside ⊢
  · rw [sq, abs_abs, abs_of_pos (div_pos hst hside)]; exact ⟨rfl, trivial⟩
  · rw [sq, abs_abs, abs_div, abs_of_pos hst, abs_of_neg (by linarith)]; exact ⟨trivial, rfl⟩
  · exact absurd hside (lt_irrefl _)
  · exact absurd hside (lt_irrefl _)
  · exact absurd hside (by linarith)
  · rw [sq, abs_abs, abs_div, abs_of_pos hst]
    refine ⟨trivial, ?_⟩
    split
    · rename_i h; rw [abs_of_pos h, mul_one]
    · rename_i h; rw [abs_of_nonpos (not_lt.1 h)]; ring

/-- phi is zero or off the coordinate planes -/
def Direct (e phi : ℝ) : Prop := phi = 0 ∨ OffAxes e phi

theorem coordinates_ok (e : ℝ) (s : Side) (theta phi : ℝ) (he : 0 < e) (he1 : e ≤ 1 / 100) (ht0 : 0 < theta) (ht1 : theta < π)
    (h0 : 0 ≤ phi) (h1 : phi < 2 * π) (hoff : Direct e phi) (hside : 0 < sgn s * unit theta phi (perm s).2.2.2) :
    ∃ X Y, XYofAngles e s theta phi = .ok (X, Y) ∧ direction s X Y = unit theta phi := by
  rcases hoff with rfl | hoff
  · exact coordinates_axis e s theta he he1 ht0 ht1 hside
  · exact C38_coordinates_partial e s theta phi he ht0 ht1 h0 h1 hoff hside

/-- **C88 (search, exactness).** Whatever patch the search by angles accepts, the coordinates it returns are those of the
direction with exactly these angles, on the inner face. -/
theorem candidate_exact {big : ℝ} {center : Fin 3 → ℝ} {R : (Fin 3 → ℝ) → ℝ} {p : Coord.Patch ℝ} (e theta phi : ℝ) (he : 0 < e)
    (he1 : e ≤ 1 / 100) (ha : Around big center R p) (hR : ∀ n, 100 * e ≤ R n) (ht0 : 0 < theta) (ht1 : theta < π)
    (h0 : 0 ≤ phi) (h1 : phi < 2 * π) (hoff : Direct e phi) (X : Fin 3 → ℝ)
    (h : candidate e big center theta phi p = .ok (some X)) :
    X 2 = 0 ∧ direction p.side (X 0) (X 1) = unit theta phi := by
  unfold candidate at h
  cases hab : XYofAngles e p.side theta phi with
  | abort => rw [hab] at h; cases h
  | ub => rw [hab] at h; cases h
  | ok ab =>
    rw [hab, Res.bind_ok] at h
    dsimp only at h
    split at h
    swap
    · cases h
    rename_i hnum
    simp only [isNumber, Bool.and_eq_true, decide_eq_true_eq] at hnum
    have b0 := toCheb_bound e _ _ _ he ha.lt0 ha.lo0 ha.hi0 hnum.1
    have b1 := toCheb_bound e _ _ _ he ha.lt1 ha.lo1 ha.hi1 hnum.2
    have fp := face_point ha (fun i : Fin 3 => if i = 0 then ab.1 else if i = 1 then ab.2 else 0) (by simp)
    unfold xOfXCS at h
    generalize xOfX (lib big) p (fun i : Fin 3 => if i = 0 then ab.1 else if i = 1 then ab.2 else 0) = x at h fp
    dsimp only at h
    split at h
    · cases h
    rename_i w hw
    split at hw
    swap
    · cases hw
    cases hw
    split at h
    swap
    · cases h
    rename_i hang
    cases h
    simp only [Bool.and_eq_true] at hang
    simp only [if_true, show ((1 : Fin 3) = 0) = False by decide, if_false, show ((2 : Fin 3) = 0) = False by decide,
      show ((2 : Fin 3) = 1) = False by decide, true_and]
    simp only [if_true, show ((1 : Fin 3) = 0) = False by decide, if_false] at fp
    have hn := direction_unit p.side ab.1 ab.2
    have hlen : len (fun i => x i - center i) = R (direction p.side ab.1 ab.2) := by
      rw [show (fun i => x i - center i) = fun i => R (direction p.side ab.1 ab.2) * direction p.side ab.1 ab.2 i from funext fp]
      exact len_smul _ (by have := hR (direction p.side ab.1 ab.2); linarith) _ hn
    rw [hlen] at hang
    simp only [fp] at hang
    have a1 := (Tol.C13_meaning e _ _ he).1.1 hang.1
    have a2 := (Tol.C13_meaning e _ _ he).1.1 hang.2
    have nr := angles_near e _ theta phi _ he he1 (hR _) hn a1 a2 (perm p.side).2.2.2
    have hd2 : √(1 + ab.1 * ab.1 + ab.2 * ab.2) ≤ 2 := by
      rw [Real.sqrt_le_left (by norm_num)]
      rw [abs_le] at b0 b1
      nlinarith
    have hd0 : 0 < √(1 + ab.1 * ab.1 + ab.2 * ab.2) :=
      Real.sqrt_pos.2 (by nlinarith [mul_self_nonneg ab.1, mul_self_nonneg ab.2])
    have hdir : direction p.side ab.1 ab.2 (perm p.side).2.2.2 = sgn p.side / √(1 + ab.1 * ab.1 + ab.2 * ab.2) := by
      simp [direction]
    rw [hdir] at nr
    have hs := sgn_sq (K := ℝ) p.side
    have hs1 : |(sgn p.side : ℝ)| = 1 := by
      have : |(sgn p.side : ℝ)| * |(sgn p.side : ℝ)| = 1 := by rw [abs_mul_abs_self]; exact hs
      nlinarith [abs_nonneg (sgn p.side : ℝ)]
    have hside : 0 < sgn p.side * unit theta phi (perm p.side).2.2.2 := by
      have hinv : 1 / 2 ≤ 1 / √(1 + ab.1 * ab.1 + ab.2 * ab.2) := by
        rw [div_le_div_iff₀ (by norm_num) hd0]; linarith
      have : |sgn p.side * unit theta phi (perm p.side).2.2.2 - 1 / √(1 + ab.1 * ab.1 + ab.2 * ab.2)| ≤ 1 / 20 := by
        rw [show sgn p.side * unit theta phi (perm p.side).2.2.2 - 1 / √(1 + ab.1 * ab.1 + ab.2 * ab.2) =
          sgn p.side * (unit theta phi (perm p.side).2.2.2 - sgn p.side / √(1 + ab.1 * ab.1 + ab.2 * ab.2)) by
            rw [← hs]; ring, abs_mul, hs1, one_mul]
        exact nr
      rw [abs_le] at this
      linarith
    obtain ⟨X', Y', hXY, hdirX⟩ := coordinates_ok e p.side theta phi he he1 ht0 ht1 h0 h1 hoff hside
    rw [hab] at hXY
    cases hXY
    exact hdirX

theorem angle_eq {a b : ℝ} (ha : 0 ≤ a ∧ a < 2 * π) (hb : 0 ≤ b ∧ b < 2 * π) (hc : cos a = cos b) (hs : sin a = sin b) : a = b := by
  have h : cos (a - b) = 1 := by
    rw [Real.cos_sub, hc, hs]; have := Real.sin_sq_add_cos_sq b; nlinarith
  obtain ⟨k, hk⟩ := (Real.cos_eq_one_iff _).1 h
  have hp := Real.pi_pos
  have hk0 : k = 0 := by
    have h1 : (k : ℝ) < 1 := by nlinarith
    have h2 : (-1 : ℝ) < k := by nlinarith
    have h1' : k < 1 := by exact_mod_cast h1
    have h2' : -1 < k := by exact_mod_cast h2
    omega
  rw [hk0] at hk
  simp at hk
  linarith

/-- off the axes the candidate of every side is computed -/
theorem xy_ok (e : ℝ) (s : Side) (theta phi : ℝ) (he : 0 < e) (he1 : e ≤ 1 / 100) (h0 : 0 ≤ phi) (h1 : phi < 2 * π) (hoff : Direct e phi) :
    ∃ ab, XYofAngles e s theta phi = .ok ab := by
  have : ∃ q, argSign e phi = .ok q := by
    rcases hoff with rfl | hoff
    · exact ⟨_, argSign_zero e he he1⟩
    · obtain ⟨ys, xs, hsg, -⟩ := argSign_spec e phi he h0 h1 hoff
      exact ⟨_, hsg⟩
  obtain ⟨q, hsg⟩ := this
  exact ⟨_, by unfold XYofAngles signs; rw [hsg]; rfl⟩

theorem candidate_ok (e big : ℝ) (center : Fin 3 → ℝ) (p : Coord.Patch ℝ) (theta phi : ℝ) (he : 0 < e)
    (he1 : e ≤ 1 / 100) (h0 : 0 ≤ phi) (h1 : phi < 2 * π) (hoff : Direct e phi) : ∃ r, candidate e big center theta phi p = .ok r := by
  obtain ⟨ab, hab⟩ := xy_ok e p.side theta phi he he1 h0 h1 hoff
  unfold candidate
  rw [hab, Res.bind_ok]
  dsimp only
  split
  · split
    · exact ⟨_, rfl⟩
    · split <;> exact ⟨_, rfl⟩
  · exact ⟨_, rfl⟩

theorem toCheb_in (e mn mx X : ℝ) (h : mn < mx) (h0 : mn ≤ X) (h1 : X ≤ mx) : |Cheb.toCheb e mn mx X| ≤ 1 := by
  unfold Cheb.toCheb
  dsimp only
  split
  · simp
  · split
    · simp
    · rw [abs_div, abs_of_neg (show -mx + mn < 0 by linarith), div_le_one (by linarith), abs_le]
      constructor <;> linarith

/-- The direction (theta, phi) meets the inner face of the patch, away from round-off: its coordinates (X,Y) are in the box
and snap to no boundary, and each component of the surface point in the plane of phi is zero or not below the round-off. -/
structure Meets (e big : ℝ) (R : (Fin 3 → ℝ) → ℝ) (p : Coord.Patch ℝ) (theta phi X Y : ℝ) : Prop where
  dir : direction p.side X Y = unit theta phi
  box0 : p.mn 0 ≤ X ∧ X ≤ p.mx 0
  box1 : p.mn 1 ≤ Y ∧ Y ≤ p.mx 1
  box2 : p.mn 2 ≤ 0 ∧ 0 ≤ p.mx 2
  clear0 : Clear e (p.mn 0) (p.mx 0) X
  clear1 : Clear e (p.mn 1) (p.mx 1) Y
  clear2 : Clear e (p.mn 2) (p.mx 2) 0
  thick : x2 (lib big) p X Y ≠ x1 (lib big) p X Y
  plane0 : R (unit theta phi) * unit theta phi 0 = 0 ∨ e ≤ |R (unit theta phi) * unit theta phi 0|
  plane1 : R (unit theta phi) * unit theta phi 1 = 0 ∨ e ≤ |R (unit theta phi) * unit theta phi 1|

theorem sign_of_direction (s : Side) (X Y : ℝ) : 0 < sgn s * direction s X Y (perm s).2.2.2 := by
  have hd0 : 0 < √(1 + X * X + Y * Y) := Real.sqrt_pos.2 (by nlinarith [mul_self_nonneg X, mul_self_nonneg Y])
  have : direction s X Y (perm s).2.2.2 = sgn s / √(1 + X * X + Y * Y) := by simp [direction]
  rw [this, ← mul_div_assoc, sgn_sq]
  exact div_pos one_pos hd0

theorem direction_inj (s : Side) {X Y X' Y' : ℝ} (h : direction s X Y = direction s X' Y') : X = X' ∧ Y = Y' := by
  have d1 : (perm s).2.1 ≠ (perm s).2.2.2 := by cases s <;> decide
  have d2 : (perm s).2.2.1 ≠ (perm s).2.2.2 := by cases s <;> decide
  have d3 : (perm s).2.2.1 ≠ (perm s).2.1 := by cases s <;> decide
  have hc := congrFun h (perm s).2.2.2
  have ha := congrFun h (perm s).2.1
  have hb := congrFun h (perm s).2.2.1
  simp only [direction, if_true, if_neg d1, if_neg d2, if_neg d3] at ha hb hc
  have k1 : 0 < √(1 + X * X + Y * Y) := Real.sqrt_pos.2 (by nlinarith [mul_self_nonneg X, mul_self_nonneg Y])
  have k2 : 0 < √(1 + X' * X' + Y' * Y') := Real.sqrt_pos.2 (by nlinarith [mul_self_nonneg X', mul_self_nonneg Y'])
  generalize √(1 + X * X + Y * Y) = a at *
  generalize √(1 + X' * X' + Y' * Y') = b at *
  have hs : (sgn s : ℝ) ≠ 0 := sgn_ne s
  have : a = b := by
    field_simp at hc
    linarith
  subst this
  constructor
  · field_simp at ha; exact ha
  · field_simp at hb; exact hb

theorem candidate_accepts {big : ℝ} {center : Fin 3 → ℝ} {R : (Fin 3 → ℝ) → ℝ} {p : Coord.Patch ℝ} (e theta phi X Y : ℝ) (he : 0 < e)
    (he1 : e ≤ 1 / 100) (ha : Around big center R p) (hR : ∀ n, 0 < R n) (ht0 : 0 < theta) (ht1 : theta < π)
    (h0 : 0 ≤ phi) (h1 : phi < 2 * π) (hoff : Direct e phi) (hm : Meets e big R p theta phi X Y) :
    candidate e big center theta phi p = .ok (some fun i => if i = 0 then X else if i = 1 then Y else 0) := by
  have hside : 0 < sgn p.side * unit theta phi (perm p.side).2.2.2 := by rw [← hm.dir]; exact sign_of_direction _ _ _
  obtain ⟨X', Y', hXY, hd⟩ := coordinates_ok e p.side theta phi he he1 ht0 ht1 h0 h1 hoff hside
  obtain ⟨rfl, rfl⟩ := direction_inj _ (hm.dir.trans hd.symm)
  unfold candidate
  rw [hXY, Res.bind_ok]
  dsimp only
  have hnum : isNumber e p X Y = true := by
    simp only [isNumber, Bool.and_eq_true, decide_eq_true_eq]
    exact ⟨toCheb_in e _ _ _ ha.lt0 hm.box0.1 hm.box0.2, toCheb_in e _ _ _ ha.lt1 hm.box1.1 hm.box1.2⟩
  rw [if_pos hnum]
  have fp := face_point ha (fun i : Fin 3 => if i = 0 then X else if i = 1 then Y else 0) (by simp)
  simp only [if_true, show ((1 : Fin 3) = 0) = False by decide, if_false, hm.dir] at fp
  have hl : linear p.type = true := by rw [ha.type]; rfl
  have hR0 := hR (unit theta phi)
  have hacc : xOfXCS (lib big) e dist3 p (fun i : Fin 3 => if i = 0 then X else if i = 1 then Y else 0) =
      some (xOfX (lib big) p (fun i : Fin 3 => if i = 0 then X else if i = 1 then Y else 0)) := by
    refine C21_xOfX_ok _ _ _ _ _ he (fun x => by simp [dist3, len]) ?_ ?_ ?_ ?_
    · unfold NonDegenerate; rw [if_pos hl]; simpa using hm.thick
    · show xOfX _ _ _ (perm p.side).2.2.2 - p.c (perm p.side).2.2.2 ≠ 0
      rw [ha.c, fp]
      exact mul_ne_zero hR0.ne' (fun h => by rw [h, mul_zero] at hside; exact lt_irrefl _ hside)
    · simpa using hm.box2
    · exact all3 _ (by simpa using hm.clear0) (by simpa using hm.clear1) (by simpa using hm.clear2)
  rw [hacc]
  dsimp only
  have hlen : len (fun i => xOfX (lib big) p (fun i : Fin 3 => if i = 0 then X else if i = 1 then Y else 0) i - center i) =
      R (unit theta phi) := by
    rw [show (fun i => xOfX (lib big) p (fun i : Fin 3 => if i = 0 then X else if i = 1 then Y else 0) i - center i) =
      fun i => R (unit theta phi) * unit theta phi i from funext fp]
    exact len_smul _ hR0.le _ (unit_unit theta phi)
  refine if_pos ?_
  rw [hlen, fp, fp, fp]
  have e1 : arccos (R (unit theta phi) * unit theta phi 2 / R (unit theta phi)) = theta := by
    rw [mul_div_cancel_left₀ _ hR0.ne']
    exact Real.arccos_cos ht0.le ht1.le
  have e2 : Angles.arctan e (R (unit theta phi) * unit theta phi 1) (R (unit theta phi) * unit theta phi 0) = phi := by
    obtain ⟨hr, -, hx⟩ := C22_arctan e (R (unit theta phi) * unit theta phi 1) (R (unit theta phi) * unit theta phi 0) he
    obtain ⟨k1, k2⟩ := hx hm.plane0 hm.plane1
    have hst : 0 < sin theta := Real.sin_pos_of_pos_of_lt_pi ht0 ht1
    have hrho : √(R (unit theta phi) * unit theta phi 0 * (R (unit theta phi) * unit theta phi 0) +
        R (unit theta phi) * unit theta phi 1 * (R (unit theta phi) * unit theta phi 1)) = R (unit theta phi) * sin theta := by
      have u := unit_unit theta phi
      have u2 : unit theta phi 2 = cos theta := rfl
      have sc := Real.sin_sq_add_cos_sq theta
      rw [show R (unit theta phi) * unit theta phi 0 * (R (unit theta phi) * unit theta phi 0) +
        R (unit theta phi) * unit theta phi 1 * (R (unit theta phi) * unit theta phi 1) = (R (unit theta phi) * sin theta) ^ 2 by
          rw [u2] at u
          linear_combination R (unit theta phi) ^ 2 * u - R (unit theta phi) ^ 2 * sc]
      exact Real.sqrt_sq (mul_pos hR0 hst).le
    rw [hrho] at k1 k2
    have u0 : unit theta phi 0 = sin theta * cos phi := rfl
    have u1 : unit theta phi 1 = sin theta * sin phi := rfl
    have hne : R (unit theta phi) * sin theta ≠ 0 := (mul_pos hR0 hst).ne'
    refine angle_eq hr ⟨h0, h1⟩ (mul_left_cancel₀ hne (k1.trans ?_)) (mul_left_cancel₀ hne (k2.trans ?_))
    · rw [u0]; ring
    · rw [u1]; ring
  rw [e1, e2, Cheb.eql_self e _ he, Cheb.eql_self e _ he]
  rfl

/-- **C88 (search).** Every direction (with phi zero or off the coordinate planes) that meets the inner face of a patch around the hole is found,
and the patch and coordinates returned are those of a point of the surface in exactly this direction. -/
theorem C88_find {big : ℝ} {center : Fin 3 → ℝ} {R : (Fin 3 → ℝ) → ℝ} (e theta phi : ℝ) (he : 0 < e) (he1 : e ≤ 1 / 100)
    (outs : List Outer) (ha : ∀ o ∈ outs, Around big center R o.geo) (hR : ∀ n, 100 * e ≤ R n) (ht0 : 0 < theta) (ht1 : theta < π)
    (h0 : 0 ≤ phi) (h1 : phi < 2 * π) (hoff : Direct e phi)
    (hm : ∃ o ∈ outs, ∃ X Y, Meets e big R o.geo theta phi X Y) :
    ∃ o ∈ outs, ∃ X, find e big center theta phi outs = .ok (o, X) ∧
      ∀ i, xOfX (lib big) o.geo X i - center i = R (unit theta phi) * unit theta phi i := by
  induction outs with
  | nil => obtain ⟨o, ho, -⟩ := hm; cases ho
  | cons p l ih =>
    obtain ⟨r, hr⟩ := candidate_ok e big center p.geo theta phi he he1 h0 h1 hoff
    unfold find
    rw [hr, Res.bind_ok]
    cases r with
    | some X =>
      obtain ⟨g1, g2⟩ := candidate_exact e theta phi he he1 (ha p (by simp)) hR ht0 ht1 h0 h1 hoff X hr
      refine ⟨p, by simp, X, rfl, fun i => ?_⟩
      rw [face_point (ha p (by simp)) X g1 i, g2]
    | none =>
      have hm' : ∃ o ∈ l, ∃ X Y, Meets e big R o.geo theta phi X Y := by
        obtain ⟨o, ho, X, Y, hoXY⟩ := hm
        rcases List.mem_cons.1 ho with rfl | ho
        · have := candidate_accepts e theta phi X Y he he1 (ha o (by simp)) (fun n => by have := hR n; linarith) ht0 ht1 h0 h1 hoff hoXY
          rw [hr] at this
          cases this
        · exact ⟨o, ho, X, Y, hoXY⟩
      obtain ⟨o, ho, X, hX, hp⟩ := ih (fun o ho => ha o (by simp [ho])) hm'
      exact ⟨o, by simp [ho], X, hX, hp⟩

end Elliptica.Bhf
