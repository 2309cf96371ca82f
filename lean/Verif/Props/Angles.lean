import Verif.Model.Angles
import Verif.Props.Coord
import Mathlib.Analysis.Real.Pi.Bounds
/-!
Properties C22 (angles of cubed-sphere coordinates) and C38 (cubed-sphere coordinates of angles).
-/
namespace Elliptica.Angles
open Coord Real

/-! ### the full-range arctangent -/

theorem hnn (x y : ℝ) : 0 ≤ x * x + y * y := add_nonneg (mul_self_nonneg _) (mul_self_nonneg _)

theorem polar_base (x y : ℝ) (hx : 0 < x) :
    √(x * x + y * y) * cos (Real.arctan (y / x)) = x ∧ √(x * x + y * y) * sin (Real.arctan (y / x)) = y := by
  have h1 : √(1 + (y / x) ^ 2) = √(x * x + y * y) / x := by
    rw [show 1 + (y / x) ^ 2 = (x * x + y * y) / x ^ 2 by field_simp, Real.sqrt_div (hnn x y),
      Real.sqrt_sq hx.le]
  have hr : 0 < √(x * x + y * y) := Real.sqrt_pos.2 (by nlinarith [mul_pos hx hx, mul_self_nonneg y])
  rw [Real.cos_arctan, Real.sin_arctan, h1]
  constructor <;> field_simp

theorem r_near (x y : ℝ) : abs (√(x * x + y * y) - |x|) ≤ |y| := by
  have h0 : |x| ≤ √(x * x + y * y) := by
    rw [← Real.sqrt_sq_eq_abs]; exact Real.sqrt_le_sqrt (by nlinarith)
  have h1 : √(x * x + y * y) ≤ |x| + |y| := by
    rw [Real.sqrt_le_left (by positivity)]
    nlinarith [abs_nonneg x, abs_nonneg y, sq_abs x, sq_abs y]
  rw [abs_le]; constructor <;> linarith [abs_nonneg y]

theorem r_near' (x y : ℝ) : abs (√(x * x + y * y) - |y|) ≤ |x| := by
  rw [add_comm]; exact r_near y x

/-- C22 (the angle function): the angle is in [0,2π) and is the polar angle of (x,y) - exactly, when neither
argument is a non-zero number below the round-off, and to within three round-offs (in Cartesian position) always. -/
theorem C22_arctan (e y x : ℝ) (he : 0 < e) :
    let phi := arctan e y x
    let r := √(x * x + y * y)
    (0 ≤ phi ∧ phi < 2 * π) ∧ (|r * cos phi - x| ≤ 3 * e ∧ |r * sin phi - y| ≤ 3 * e) ∧
    ((x = 0 ∨ e ≤ |x|) → (y = 0 ∨ e ≤ |y|) → r * cos phi = x ∧ r * sin phi = y) := by
  have eq0 : ∀ z : ℝ, Tol.eql e z 0 = true ↔ |z| < e := fun z => by
    rw [(Tol.C13_meaning e z 0 he).1, sub_zero]
  have hpi := Real.pi_pos
  have c32 : cos (3 * π / 2) = 0 := by
    rw [show 3 * π / 2 = π / 2 + π by ring, Real.cos_add_pi]; simp
  have s32 : sin (3 * π / 2) = -1 := by
    rw [show 3 * π / 2 = π / 2 + π by ring, Real.sin_add_pi]; simp
  have hx' := r_near x y
  have hy' := r_near' x y
  have hrn : 0 ≤ √(x * x + y * y) := Real.sqrt_nonneg _
  intro phi r
  have small : ∀ z : ℝ, |z| < e → (z = 0 ∨ e ≤ |z|) → z = 0 := by
    rintro z h1 (h2 | h2)
    · exact h2
    · linarith
  show (0 ≤ arctan e y x ∧ arctan e y x < 2 * π) ∧ (|r * cos (arctan e y x) - x| ≤ 3 * e ∧
    |r * sin (arctan e y x) - y| ≤ 3 * e) ∧
    ((x = 0 ∨ e ≤ |x|) → (y = 0 ∨ e ≤ |y|) → r * cos (arctan e y x) = x ∧ r * sin (arctan e y x) = y)
  have exactly_ok : ∀ p : ℝ, r * cos p = x → r * sin p = y → (|r * cos p - x| ≤ 3 * e ∧ |r * sin p - y| ≤ 3 * e) := by
    intro p h1 h2
    rw [h1, h2]; simp; linarith
  change abs (r - |x|) ≤ |y| at hx'
  change abs (r - |y|) ≤ |x| at hy'
  change 0 ≤ r at hrn
  have hr0 : y = 0 → r = |x| := fun h => by
    have : abs (r - |x|) = 0 := le_antisymm (by simpa [h] using hx') (abs_nonneg _)
    linarith [abs_eq_zero.1 this]
  have hr0' : x = 0 → r = |y| := fun h => by
    have : abs (r - |y|) = 0 := le_antisymm (by simpa [h] using hy') (abs_nonneg _)
    linarith [abs_eq_zero.1 this]
  unfold arctan
  by_cases h1 : Tol.eql e x 0 = true
  · rw [if_pos h1]
    have hxe := (eq0 x).1 h1
    by_cases h2 : Tol.eql e y 0 = true
    · rw [if_pos h2]
      have hye := (eq0 y).1 h2
      refine ⟨⟨le_refl _, by linarith⟩, ?_, ?_⟩
      · simp only [cos_zero, sin_zero, mul_one, mul_zero, zero_sub, abs_neg]
        refine ⟨?_, by linarith⟩
        have := abs_le.1 hx'
        rw [abs_le]; constructor <;> linarith [abs_le.1 (le_refl |x|), abs_nonneg x, le_abs_self x, neg_abs_le x]
      · intro a b
        have := small x hxe a; have hy0 := small y hye b
        simp [hr0 hy0, this, hy0]
    · rw [if_neg h2]
      by_cases h3 : y > 0
      · rw [if_pos h3]
        rw [abs_of_pos h3] at hy'
        refine ⟨⟨by linarith, by linarith⟩, ?_, ?_⟩
        · simp only [cos_pi_div_two, sin_pi_div_two, mul_one, mul_zero, zero_sub, abs_neg]
          exact ⟨by linarith, by linarith⟩
        · intro a _
          have hx0 := small x hxe a
          simp [hr0' hx0, hx0, abs_of_pos h3]
      · rw [if_neg h3]
        have h3' : y < 0 := by
          rcases lt_trichotomy y 0 with h | h | h
          · exact h
          · exact absurd ((eq0 y).2 (by rw [h, abs_zero]; exact he)) h2
          · exact absurd h h3
        rw [abs_of_neg h3'] at hy'
        refine ⟨⟨by linarith, by linarith⟩, ?_, ?_⟩
        · simp only [c32, s32, mul_zero, zero_sub, abs_neg]
          refine ⟨by linarith, ?_⟩
          rw [show r * -1 - y = -(r - -y) by ring, abs_neg]; linarith
        · intro a _
          have hx0 := small x hxe a
          simp [c32, s32, hr0' hx0, hx0, abs_of_neg h3']
  · rw [if_neg h1]
    by_cases hxp : x > 0
    · rw [if_pos hxp]
      rw [abs_of_pos hxp] at hx'
      by_cases h2 : Tol.eql e y 0 = true
      · rw [if_pos h2]
        have hye := (eq0 y).1 h2
        refine ⟨⟨le_refl _, by linarith⟩, ?_, ?_⟩
        · simp only [cos_zero, sin_zero, mul_one, mul_zero, zero_sub, abs_neg]
          exact ⟨by linarith, by linarith⟩
        · intro _ b
          have hy0 := small y hye b
          simp [hr0 hy0, hy0, abs_of_pos hxp]
      · rw [if_neg h2]
        by_cases h3 : y > 0
        · rw [if_pos h3]
          obtain ⟨b1, b2⟩ := polar_base x y hxp
          have hp : 0 < Real.arctan (y / x) := Real.arctan_pos.2 (div_pos h3 hxp)
          have hq := Real.arctan_lt_pi_div_two (y / x)
          exact ⟨⟨hp.le, by linarith⟩, exactly_ok _ b1 b2, fun _ _ => ⟨b1, b2⟩⟩
        · rw [if_neg h3]
          have h3' : y < 0 := by
            rcases lt_trichotomy y 0 with h | h | h
            · exact h
            · exact absurd ((eq0 y).2 (by rw [h, abs_zero]; exact he)) h2
            · exact absurd h h3
          obtain ⟨b1, b2⟩ := polar_base x (-y) hxp
          rw [neg_mul_neg] at b1 b2
          have hp : 0 < Real.arctan (-y / x) := Real.arctan_pos.2 (div_pos (by linarith) hxp)
          have hq := Real.arctan_lt_pi_div_two (-y / x)
          have c1 : r * cos (2 * π - Real.arctan (-y / x)) = x := by rw [Real.cos_two_pi_sub]; exact b1
          have c2 : r * sin (2 * π - Real.arctan (-y / x)) = y := by
            rw [Real.sin_two_pi_sub]; show √(x * x + y * y) * _ = y; linarith
          exact ⟨⟨by linarith, by linarith⟩, exactly_ok _ c1 c2, fun _ _ => ⟨c1, c2⟩⟩
    · rw [if_neg hxp]
      have hxn : x < 0 := by
        rcases lt_trichotomy x 0 with h | h | h
        · exact h
        · exact absurd ((eq0 x).2 (by rw [h, abs_zero]; exact he)) h1
        · exact absurd h hxp
      rw [abs_of_neg hxn] at hx'
      by_cases h2 : Tol.eql e y 0 = true
      · rw [if_pos h2]
        have hye := (eq0 y).1 h2
        refine ⟨⟨by linarith, by linarith⟩, ?_, ?_⟩
        · simp only [cos_pi, sin_pi, mul_zero, zero_sub, abs_neg]
          refine ⟨?_, by linarith⟩
          rw [show r * -1 - x = -(r - -x) by ring, abs_neg]; linarith
        · intro _ b
          have hy0 := small y hye b
          simp [hr0 hy0, hy0, abs_of_neg hxn]
      · rw [if_neg h2]
        by_cases h3 : y > 0
        · rw [if_pos h3]
          obtain ⟨b1, b2⟩ := polar_base (-x) y (by linarith)
          rw [neg_mul_neg] at b1 b2
          have hp : 0 < Real.arctan (y / -x) := Real.arctan_pos.2 (div_pos h3 (by linarith))
          have hq := Real.arctan_lt_pi_div_two (y / -x)
          have c1 : r * cos (π - Real.arctan (y / -x)) = x := by
            rw [Real.cos_pi_sub]; show √(x * x + y * y) * _ = x; linarith
          have c2 : r * sin (π - Real.arctan (y / -x)) = y := by rw [Real.sin_pi_sub]; exact b2
          exact ⟨⟨by linarith, by linarith⟩, exactly_ok _ c1 c2, fun _ _ => ⟨c1, c2⟩⟩
        · rw [if_neg h3]
          have h3' : y < 0 := by
            rcases lt_trichotomy y 0 with h | h | h
            · exact h
            · exact absurd ((eq0 y).2 (by rw [h, abs_zero]; exact he)) h2
            · exact absurd h h3
          obtain ⟨b1, b2⟩ := polar_base (-x) (-y) (by linarith)
          rw [neg_mul_neg, neg_mul_neg] at b1 b2
          have hp : 0 < Real.arctan (-y / -x) := Real.arctan_pos.2 (div_pos (by linarith) (by linarith))
          have hq := Real.arctan_lt_pi_div_two (-y / -x)
          have c1 : r * cos (π + Real.arctan (-y / -x)) = x := by
            rw [add_comm, Real.cos_add_pi]; show √(x * x + y * y) * _ = x; linarith
          have c2 : r * sin (π + Real.arctan (-y / -x)) = y := by
            rw [add_comm, Real.sin_add_pi]; show √(x * x + y * y) * _ = y; linarith
          exact ⟨⟨by linarith, by linarith⟩, exactly_ok _ c1 c2, fun _ _ => ⟨c1, c2⟩⟩

/-! ### C22 -/

/-- The unit vector with polar angles theta, phi. -/
noncomputable def unit (theta phi : ℝ) : Fin 3 → ℝ :=
  ![sin theta * cos phi, sin theta * sin phi, cos theta]

/-- The Cartesian direction of the point (X,Y) of a side: X along the first permuted axis, Y along the second, the
side's sign along the third, normalised. -/
noncomputable def direction (s : Side) (X Y : ℝ) : Fin 3 → ℝ := fun i =>
  let d := √(1 + X * X + Y * Y)
  if i = (perm s).2.2.2 then sgn s / d else if i = (perm s).2.1 then X / d else Y / d

/-- every point of the patch (of any type, any radius) has that direction from the centre of the patch -/
theorem direction_of_patch (L : Lib ℝ) (p : Patch ℝ) (X : Fin 3 → ℝ) :
    ∃ t : ℝ, t = sgn p.side * across p (xOfX L p X) * √(1 + X 0 * X 0 + X 1 * X 1) ∧
      ∀ i, xOfX L p X i - p.c i = t * direction p.side (X 0) (X 1) i := by
  refine ⟨_, rfl, ?_⟩
  obtain ⟨ha, hb, -⟩ := xOfX_comp L p X
  have hs := sgn_sq (K := ℝ) p.side
  have hd : √(1 + X 0 * X 0 + X 1 * X 1) ≠ 0 := (Real.sqrt_pos.2 (by nlinarith [mul_self_nonneg (X 0), mul_self_nonneg (X 1)])).ne'
  have d1 : (perm p.side).2.1 ≠ (perm p.side).2.2.2 := by cases p.side <;> decide
  have d2 : (perm p.side).2.2.1 ≠ (perm p.side).2.2.2 := by cases p.side <;> decide
  have d3 : (perm p.side).2.2.1 ≠ (perm p.side).2.1 := by cases p.side <;> decide
  intro i
  rcases perm_cover p.side i with rfl | rfl | rfl
  · rw [ha]; simp only [direction, if_neg d1, if_true]; field_simp
  · rw [hb]; simp only [direction, if_neg d2, if_neg d3]; field_simp
  · simp only [direction, if_true]
    have : xOfX L p X (perm p.side).2.2.2 - p.c (perm p.side).2.2.2 = across p (xOfX L p X) := rfl
    rw [this]; field_simp; linear_combination - across p (xOfX L p X) * hs

/-- sin(arccos(z/d)) for a unit vector with in-plane part (u,w) -/
theorem sin_arccos_part (z u w d : ℝ) (hd : 0 < d) (h : u * u + w * w + z * z = d * d) :
    sin (arccos (z / d)) = √(u * u + w * w) / d ∧ cos (arccos (z / d)) = z / d := by
  have hz : -1 ≤ z / d ∧ z / d ≤ 1 := by
    rw [le_div_iff₀ hd, div_le_iff₀ hd]
    constructor <;> nlinarith [mul_self_nonneg u, mul_self_nonneg w]
  refine ⟨?_, Real.cos_arccos hz.1 hz.2⟩
  rw [Real.sin_arccos, show 1 - (z / d) ^ 2 = (u * u + w * w) / d ^ 2 by field_simp; nlinarith,
    Real.sqrt_div (hnn u w), Real.sqrt_sq hd.le]

/-- C22: on each of the six sides the angles assigned to (X,Y) are the spherical angles of the Cartesian direction of
the point: theta in [0,π], phi in [0,2π), and the unit vector they describe is the direction - to within three
round-offs in each component always, and exactly when X and Y are zero or not below the round-off. -/
theorem C22_angles (e : ℝ) (s : Side) (X Y : ℝ) (he : 0 < e) (he1 : e ≤ 1) :
    let (theta, phi) := thetaPhi e s X Y
    (0 ≤ theta ∧ theta ≤ π) ∧ (0 ≤ phi ∧ phi < 2 * π) ∧
    (∀ i, |unit theta phi i - direction s X Y i| ≤ 3 * e) ∧
    ((X = 0 ∨ e ≤ |X|) → (Y = 0 ∨ e ≤ |Y|) → unit theta phi = direction s X Y) := by
  have hd1 : 1 ≤ √(1 + X * X + Y * Y) := by
    rw [Real.one_le_sqrt]; nlinarith [mul_self_nonneg X, mul_self_nonneg Y]
  have hdd : √(1 + X * X + Y * Y) * √(1 + X * X + Y * Y) = 1 + X * X + Y * Y :=
    Real.mul_self_sqrt (by nlinarith [hnn X Y])
  have one : (1 : ℝ) = 0 ∨ e ≤ |(1 : ℝ)| := .inr (by simpa using he1)
  have mone : (-1 : ℝ) = 0 ∨ e ≤ |(-1 : ℝ)| := .inr (by simpa using he1)
  -- the general step: z/d is the cosine of theta, (u,w) the in-plane part, phi = arctan(w,u)
  have key : ∀ z u w : ℝ, u * u + w * w + z * z = 1 + X * X + Y * Y →
      let d := √(1 + X * X + Y * Y)
      let th := arccos (z / d)
      let ph := arctan e w u
      (0 ≤ th ∧ th ≤ π) ∧ (0 ≤ ph ∧ ph < 2 * π) ∧
      (|unit th ph 0 - u / d| ≤ 3 * e ∧ |unit th ph 1 - w / d| ≤ 3 * e ∧ |unit th ph 2 - z / d| ≤ 3 * e) ∧
      ((u = 0 ∨ e ≤ |u|) → (w = 0 ∨ e ≤ |w|) → unit th ph 0 = u / d ∧ unit th ph 1 = w / d ∧ unit th ph 2 = z / d) := by
    intro z u w h d th ph
    obtain ⟨hs, hc⟩ := sin_arccos_part z u w d (by linarith) (by rw [h]; exact hdd.symm)
    obtain ⟨h1, ⟨h2, h3⟩, h4⟩ := C22_arctan e w u he
    have hd0 : 0 < d := by show 0 < √(1 + X * X + Y * Y); linarith
    have bound : ∀ p q : ℝ, |p - q| ≤ 3 * e → |p / d - q / d| ≤ 3 * e := by
      intro p q hpq
      rw [← sub_div, abs_div, abs_of_pos hd0, div_le_iff₀ hd0]
      have : 3 * e ≤ 3 * e * d := by
        have : 1 ≤ d := hd1
        nlinarith
      linarith
    refine ⟨⟨Real.arccos_nonneg _, Real.arccos_le_pi _⟩, h1, ⟨?_, ?_, ?_⟩, ?_⟩
    · show |sin th * cos ph - u / d| ≤ 3 * e
      rw [show sin th * cos ph = √(u * u + w * w) * cos ph / d by
        show sin (arccos (z / d)) * _ = _; rw [hs]; ring]
      exact bound _ _ h2
    · show |sin th * sin ph - w / d| ≤ 3 * e
      rw [show sin th * sin ph = √(u * u + w * w) * sin ph / d by
        show sin (arccos (z / d)) * _ = _; rw [hs]; ring]
      exact bound _ _ h3
    · show |cos th - z / d| ≤ 3 * e
      rw [show cos th = z / d from hc]; simp; linarith
    · intro hu hw
      obtain ⟨g1, g2⟩ := h4 hu hw
      refine ⟨?_, ?_, hc⟩
      · show sin th * cos ph = _
        rw [show sin th * cos ph = √(u * u + w * w) * cos ph / d by
          show sin (arccos (z / d)) * _ = _; rw [hs]; ring]
        rw [g1]
      · show sin th * sin ph = _
        rw [show sin th * sin ph = √(u * u + w * w) * sin ph / d by
          show sin (arccos (z / d)) * _ = _; rw [hs]; ring]
        rw [g2]
  cases s with
  | up =>
    obtain ⟨a, b, ⟨c0, c1, c2⟩, f⟩ := key 1 X Y (by ring)
    refine ⟨a, b, all3 _ (by simpa [direction, perm, sgn] using c0) (by simpa [direction, perm, sgn] using c1)
      (by simpa [direction, perm, sgn] using c2), fun hX hY => ?_⟩
    obtain ⟨f0, f1, f2⟩ := f hX hY
    exact fin3 _ _ (by simpa [direction, perm, sgn] using f0) (by simpa [direction, perm, sgn] using f1)
      (by simpa [direction, perm, sgn] using f2)
  | down =>
    obtain ⟨a, b, ⟨c0, c1, c2⟩, f⟩ := key (-1) Y X (by ring)
    refine ⟨a, b, all3 _ (by simpa [direction, perm, sgn] using c0) (by simpa [direction, perm, sgn] using c1)
      (by simpa [direction, perm, sgn] using c2), fun hX hY => ?_⟩
    obtain ⟨f0, f1, f2⟩ := f hY hX
    exact fin3 _ _ (by simpa [direction, perm, sgn] using f0) (by simpa [direction, perm, sgn] using f1)
      (by simpa [direction, perm, sgn] using f2)
  | left =>
    obtain ⟨a, b, ⟨c0, c1, c2⟩, f⟩ := key Y X (-1) (by ring)
    refine ⟨a, b, all3 _ (by simpa [direction, perm, sgn] using c0) (by simpa [direction, perm, sgn] using c1)
      (by simpa [direction, perm, sgn] using c2), fun hX hY => ?_⟩
    obtain ⟨f0, f1, f2⟩ := f hX mone
    exact fin3 _ _ (by simpa [direction, perm, sgn] using f0) (by simpa [direction, perm, sgn] using f1)
      (by simpa [direction, perm, sgn] using f2)
  | right =>
    obtain ⟨a, b, ⟨c0, c1, c2⟩, f⟩ := key X Y 1 (by ring)
    refine ⟨a, b, all3 _ (by simpa [direction, perm, sgn] using c0) (by simpa [direction, perm, sgn] using c1)
      (by simpa [direction, perm, sgn] using c2), fun hX hY => ?_⟩
    obtain ⟨f0, f1, f2⟩ := f hY one
    exact fin3 _ _ (by simpa [direction, perm, sgn] using f0) (by simpa [direction, perm, sgn] using f1)
      (by simpa [direction, perm, sgn] using f2)
  | back =>
    obtain ⟨a, b, ⟨c0, c1, c2⟩, f⟩ := key X (-1) Y (by ring)
    refine ⟨a, b, all3 _ (by simpa [direction, perm, sgn] using c0) (by simpa [direction, perm, sgn] using c1)
      (by simpa [direction, perm, sgn] using c2), fun hX hY => ?_⟩
    obtain ⟨f0, f1, f2⟩ := f mone hY
    exact fin3 _ _ (by simpa [direction, perm, sgn] using f0) (by simpa [direction, perm, sgn] using f1)
      (by simpa [direction, perm, sgn] using f2)
  | front =>
    obtain ⟨a, b, ⟨c0, c1, c2⟩, f⟩ := key Y 1 X (by ring)
    refine ⟨a, b, all3 _ (by simpa [direction, perm, sgn] using c0) (by simpa [direction, perm, sgn] using c1)
      (by simpa [direction, perm, sgn] using c2), fun hX hY => ?_⟩
    obtain ⟨f0, f1, f2⟩ := f one hX
    exact fin3 _ _ (by simpa [direction, perm, sgn] using f0) (by simpa [direction, perm, sgn] using f1)
      (by simpa [direction, perm, sgn] using f2)

/-! ### C38: from angles to coordinates -/

/-- phi is more than the round-off away from every multiple of a quarter turn -/
def OffAxes (e phi : ℝ) : Prop := ∀ k : ℕ, k ≤ 4 → e < |phi - k * (π / 2)|

theorem argSign_spec (e phi : ℝ) (he : 0 < e) (h0 : 0 ≤ phi) (h1 : phi < 2 * π) (hoff : OffAxes e phi) :
    ∃ ys xs : ℝ, argSign e phi = .ok (ys, xs) ∧ |sin phi| * ys = sin phi ∧ |cos phi| * xs = cos phi ∧
      sin phi ≠ 0 ∧ cos phi ≠ 0 ∧ (ys = 1 ∨ ys = -1) ∧ (xs = 1 ∨ xs = -1) := by
  have hpi := Real.pi_pos
  have m := fun x y => Tol.C13_meaning e x y he
  have k0 := hoff 0 (by norm_num)
  have k1 := hoff 1 (by norm_num)
  have k2 := hoff 2 (by norm_num)
  have k3 := hoff 3 (by norm_num)
  have k4 := hoff 4 (by norm_num)
  norm_num at k0 k1 k2 k3 k4
  rw [lt_abs] at k0 k1 k2 k3 k4
  have q0 : e < phi := by rcases k0 with h | h <;> linarith
  have q4 : phi < 2 * π - e := by rcases k4 with h | h <;> linarith
  unfold argSign
  rw [if_neg (by rintro (h | h) <;> linarith)]
  rcases k1 with k1 | k1
  · rw [if_neg (by
      rw [Bool.and_eq_true, (m _ _).2.2.2.2, (m _ _).2.2.2.1]; rintro ⟨_, h, _⟩; linarith)]
    rcases k2 with k2 | k2
    · rw [if_neg (by
        rw [Bool.and_eq_true, (m _ _).2.2.2.2, (m _ _).2.2.2.1]; rintro ⟨_, h, _⟩; linarith)]
      rcases k3 with k3 | k3
      · rw [if_neg (by
          rw [Bool.and_eq_true, (m _ _).2.2.2.2, (m _ _).2.2.2.1]; rintro ⟨_, h, _⟩; linarith)]
        rw [if_pos (by
          rw [Bool.and_eq_true, (m _ _).2.2.2.2, (m _ _).2.1]
          exact ⟨⟨by linarith, by intro h; linarith⟩, by linarith⟩)]
        have hs : sin phi < 0 := by
          rw [← Real.sin_sub_two_pi]
          exact Real.sin_neg_of_neg_of_neg_pi_lt (by linarith) (by linarith)
        have hc : 0 < cos phi := by
          rw [← Real.cos_sub_two_pi]
          exact Real.cos_pos_of_mem_Ioo ⟨by linarith, by linarith⟩
        exact ⟨-1, 1, rfl, by rw [abs_of_neg hs]; ring, by rw [abs_of_pos hc]; ring, hs.ne, hc.ne', .inr rfl, .inl rfl⟩
      · rw [if_pos (by
          rw [Bool.and_eq_true, (m _ _).2.2.2.2, (m _ _).2.2.2.1]
          exact ⟨⟨by linarith, by intro h; linarith⟩, by linarith, by intro h; linarith⟩)]
        have hs : sin phi < 0 := by
          rw [← neg_pos, ← Real.sin_sub_pi]
          exact Real.sin_pos_of_pos_of_lt_pi (by linarith) (by linarith)
        have hc : cos phi < 0 := Real.cos_neg_of_pi_div_two_lt_of_lt (by linarith) (by linarith)
        exact ⟨-1, -1, rfl, by rw [abs_of_neg hs]; ring, by rw [abs_of_neg hc]; ring, hs.ne, hc.ne, .inr rfl, .inr rfl⟩
    · rw [if_pos (by
        rw [Bool.and_eq_true, (m _ _).2.2.2.2, (m _ _).2.2.2.1]
        exact ⟨⟨by linarith, by intro h; linarith⟩, by linarith, by intro h; linarith⟩)]
      have hs : 0 < sin phi := Real.sin_pos_of_pos_of_lt_pi (by linarith) (by linarith)
      have hc : cos phi < 0 := Real.cos_neg_of_pi_div_two_lt_of_lt (by linarith) (by linarith)
      exact ⟨1, -1, rfl, by rw [abs_of_pos hs]; ring, by rw [abs_of_neg hc]; ring, hs.ne', hc.ne, .inl rfl, .inr rfl⟩
  · rw [if_pos (by
      rw [Bool.and_eq_true, (m _ _).2.2.2.2, (m _ _).2.2.2.1]
      exact ⟨⟨by linarith, by intro h; linarith⟩, by linarith, by intro h; linarith⟩)]
    have hs : 0 < sin phi := Real.sin_pos_of_pos_of_lt_pi (by linarith) (by linarith)
    have hc : 0 < cos phi := Real.cos_pos_of_mem_Ioo ⟨by linarith, by linarith⟩
    exact ⟨1, 1, rfl, by rw [abs_of_pos hs]; ring, by rw [abs_of_pos hc]; ring, hs.ne', hc.ne', .inl rfl, .inl rfl⟩

/-- a direction is determined by the ratios of its components -/
theorem direction_ratios (s : Side) (n : Fin 3 → ℝ) (hn : n 0 * n 0 + n 1 * n 1 + n 2 * n 2 = 1)
    (hpos : 0 < sgn s * n (perm s).2.2.2) :
    direction s (n (perm s).2.1 / (sgn s * n (perm s).2.2.2)) (n (perm s).2.2.1 / (sgn s * n (perm s).2.2.2)) = n := by
  have hs := sgn_sq (K := ℝ) s
  generalize hm : sgn s * n (perm s).2.2.2 = m at hpos
  have hnc : n (perm s).2.2.2 = sgn s * m := by rw [← hm]; linear_combination -(n (perm s).2.2.2) * hs
  have hsum : n (perm s).2.1 * n (perm s).2.1 + n (perm s).2.2.1 * n (perm s).2.2.1 + m * m = 1 := by
    have h2 : m * m = n (perm s).2.2.2 * n (perm s).2.2.2 := by
      rw [hnc]; linear_combination - m * m * hs
    rw [h2]
    cases s <;> simp only [perm] <;> linarith
  have hd : √(1 + n (perm s).2.1 / m * (n (perm s).2.1 / m) + n (perm s).2.2.1 / m * (n (perm s).2.2.1 / m)) = 1 / m := by
    rw [show 1 + n (perm s).2.1 / m * (n (perm s).2.1 / m) + n (perm s).2.2.1 / m * (n (perm s).2.2.1 / m) = (1 / m) ^ 2 by
      field_simp; linear_combination hsum]
    exact Real.sqrt_sq (by positivity)
  have d1 : (perm s).2.1 ≠ (perm s).2.2.2 := by cases s <;> decide
  have d2 : (perm s).2.2.1 ≠ (perm s).2.2.2 := by cases s <;> decide
  have d3 : (perm s).2.2.1 ≠ (perm s).2.1 := by cases s <;> decide
  funext i
  rcases perm_cover s i with rfl | rfl | rfl
  · simp only [direction, hd, if_neg d1, if_true]; field_simp
  · simp only [direction, hd, if_neg d2, if_neg d3]; field_simp
  · simp only [direction, hd, if_true, hnc]; field_simp

set_option maxHeartbeats 1000000 in
/-- C38, the part that holds: for every pair of angles off the axes and every side whose half space contains the
direction, the candidate coordinates (X,Y) computed on that side are those of the direction with these angles. -/
theorem C38_coordinates_partial (e : ℝ) (s : Side) (theta phi : ℝ) (he : 0 < e) (ht0 : 0 < theta) (ht1 : theta < π)
    (h0 : 0 ≤ phi) (h1 : phi < 2 * π) (hoff : OffAxes e phi) (hside : 0 < sgn s * unit theta phi (perm s).2.2.2) :
    ∃ X Y, XYofAngles e s theta phi = .ok (X, Y) ∧ direction s X Y = unit theta phi := by
  obtain ⟨ys, xs, hsg, hys, hxs, hsn, hcn, hy1, hx1⟩ := argSign_spec e phi he h0 h1 hoff
  have hst : 0 < sin theta := Real.sin_pos_of_pos_of_lt_pi ht0 ht1
  have hn : unit theta phi 0 * unit theta phi 0 + unit theta phi 1 * unit theta phi 1 +
      unit theta phi 2 * unit theta phi 2 = 1 := by
    show sin theta * cos phi * (sin theta * cos phi) + sin theta * sin phi * (sin theta * sin phi) +
      cos theta * cos theta = 1
    have a := Real.sin_sq_add_cos_sq theta
    have b := Real.sin_sq_add_cos_sq phi
    linear_combination a + sin theta ^ 2 * b
  have hdir := direction_ratios s (unit theta phi) hn hside
  refine ⟨_, _, ?_, hdir⟩
  have c2 : 1 - cos theta * cos theta = sin theta * sin theta := by
    have a := Real.sin_sq_add_cos_sq theta; linear_combination -a
  have t2 : 1 + tan phi * tan phi = 1 / (cos phi * cos phi) := by
    rw [Real.tan_eq_sin_div_cos]; field_simp; linear_combination Real.sin_sq_add_cos_sq phi
  have f1 : cos theta * cos theta + cos theta * cos theta * (tan phi * tan phi) =
      cos theta * cos theta / (cos phi * cos phi) := by
    rw [show cos theta * cos theta + cos theta * cos theta * (tan phi * tan phi) =
      cos theta * cos theta * (1 + tan phi * tan phi) by ring, t2]; ring
  have z1 : |cos theta| * (if cos theta > 0 then (1 : ℝ) else -1) = cos theta := by
    split
    · rename_i h; rw [abs_of_pos h]; ring
    · rename_i h; rw [abs_of_nonpos (not_lt.1 h)]; ring
  have tans : |tan phi| = |sin phi| / |cos phi| := by rw [Real.tan_eq_sin_div_cos, abs_div]
  have hss : ∀ w : ℝ, 0 < w → √(w * w) = w := fun w hw => Real.sqrt_mul_self hw.le
  have sqa : ∀ w : ℝ, √(w * w) = |w| := fun w => Real.sqrt_mul_self_eq_abs w
  -- the two square roots that occur
  have rUD : √(sin theta * sin theta / (cos theta * cos theta / (cos phi * cos phi))) =
      sin theta * |cos phi| / |cos theta| := by
    rw [show sin theta * sin theta / (cos theta * cos theta / (cos phi * cos phi)) =
      (sin theta * cos phi / cos theta) * (sin theta * cos phi / cos theta) by
        by_cases h : cos theta = 0
        · simp [h]
        · field_simp, sqa, abs_div, abs_mul, abs_of_pos hst]
  have rBF : √(cos theta * cos theta / (cos phi * cos phi) / (sin theta * sin theta)) =
      |cos theta| / (|cos phi| * sin theta) := by
    rw [show cos theta * cos theta / (cos phi * cos phi) / (sin theta * sin theta) =
      (cos theta / (cos phi * sin theta)) * (cos theta / (cos phi * sin theta)) by field_simp, sqa, abs_div, abs_mul,
      abs_of_pos hst]
  have rLR : √(cos theta * cos theta / (cos phi * cos phi) / (sin theta * sin theta * (tan phi * tan phi))) =
      |cos theta| / (|sin phi| * sin theta) := by
    rw [show cos theta * cos theta / (cos phi * cos phi) / (sin theta * sin theta * (tan phi * tan phi)) =
      (cos theta / (sin phi * sin theta)) * (cos theta / (sin phi * sin theta)) by
        rw [Real.tan_eq_sin_div_cos]; field_simp, sqa, abs_div, abs_mul, abs_of_pos hst]
  have habsn : ∀ w : ℝ, 0 ≤ w → |w| = w := fun w hw => abs_of_nonneg hw
  have p1 : 0 < |sin phi| := abs_pos.2 hsn
  have p2 : 0 < |cos phi| := abs_pos.2 hcn
  have u0 : unit theta phi 0 = sin theta * cos phi := rfl
  have u1 : unit theta phi 1 = sin theta * sin phi := rfl
  have u2 : unit theta phi 2 = cos theta := rfl
  unfold XYofAngles signs
  rw [hsg]
  simp only [Res.bind_ok]
  cases s with
  | up =>
    have hct : 0 < cos theta := by simpa [sgn, perm, u2] using hside
    simp only [magnitudes, perm, sgn, u0, u1, u2, f1, c2, t2]
    congr 1
    ext
    · show |√_| * xs = _
      rw [rUD, habsn _ (by positivity), abs_of_pos hct]
      simp only [Bool.false_eq_true, if_false, one_mul]
      rw [← hxs, abs_mul, abs_abs]
      rcases hx1 with rfl | rfl <;> simp <;> ring
    · show |tan phi * √_| * ys = _
      rw [show cos theta * cos theta * (1 / (cos phi * cos phi)) = cos theta * cos theta / (cos phi * cos phi) by ring,
        rUD, abs_mul, tans, habsn (sin theta * |cos phi| / |cos theta|) (by positivity), abs_of_pos hct]
      simp only [Bool.false_eq_true, if_false, one_mul]
      conv_rhs => rw [← hys]
      field_simp
  | down =>
    have hct : cos theta < 0 := by simpa [sgn, perm, u2] using hside
    simp only [magnitudes, perm, sgn, u0, u1, u2, f1, c2, t2]
    congr 1
    ext
    · show |tan phi * √_| * ys = _
      rw [show cos theta * cos theta * (1 / (cos phi * cos phi)) = cos theta * cos theta / (cos phi * cos phi) by ring,
        rUD, abs_mul, tans, habsn (sin theta * |cos phi| / |cos theta|) (by positivity), abs_of_neg hct]
      simp only [if_true, neg_mul, one_mul]
      conv_rhs => rw [← hys]
      have : -cos theta ≠ 0 := by linarith
      field_simp
    · show |√_| * xs = _
      rw [rUD, habsn _ (by positivity), abs_of_neg hct]
      simp only [if_true, neg_mul, one_mul]
      conv_rhs => rw [← hxs]
      ring
  | left =>
    have hc : sin phi < 0 := by
      have : 0 < -(sin theta * sin phi) := by simpa [sgn, perm, u1] using hside
      nlinarith
    simp only [magnitudes, perm, sgn, u0, u1, u2, f1, c2, if_true, rLR]
    congr 1
    ext
    · show |1 / tan phi| * xs = _
      rw [abs_div, tans, abs_one, abs_of_neg hc]
      have : -sin phi ≠ 0 := by linarith
      conv_rhs => rw [← hxs]
      simp only [neg_mul, one_mul]
      field_simp
    · show |_| * (if cos theta > 0 then (1 : ℝ) else -1) = _
      rw [habsn _ (by positivity), abs_of_neg hc]
      conv_rhs => rw [← z1]
      simp only [neg_mul, one_mul]
      field_simp
  | right =>
    have hc : 0 < sin phi := by
      have : 0 < sin theta * sin phi := by simpa [sgn, perm, u1] using hside
      nlinarith
    simp only [magnitudes, perm, sgn, u0, u1, u2, f1, c2, Bool.false_eq_true, if_false, rLR, one_mul]
    congr 1
    ext
    · show |_| * (if cos theta > 0 then (1 : ℝ) else -1) = _
      rw [habsn _ (by positivity), abs_of_pos hc]
      conv_rhs => rw [← z1]
      field_simp
    · show |1 / tan phi| * xs = _
      rw [abs_div, tans, abs_one, abs_of_pos hc]
      conv_rhs => rw [← hxs]
      field_simp
  | back =>
    have hc : cos phi < 0 := by
      have : 0 < -(sin theta * cos phi) := by simpa [sgn, perm, u0] using hside
      nlinarith
    simp only [magnitudes, perm, sgn, u0, u1, u2, f1, c2, if_true, rBF]
    congr 1
    ext
    · show |_| * (if cos theta > 0 then (1 : ℝ) else -1) = _
      rw [habsn _ (by positivity), abs_of_neg hc]
      conv_rhs => rw [← z1]
      simp only [neg_mul, one_mul]
      field_simp
    · show |tan phi| * ys = _
      rw [tans, abs_of_neg hc]
      conv_rhs => rw [← hys]
      simp only [neg_mul, one_mul]
      field_simp
  | front =>
    have hc : 0 < cos phi := by
      have : 0 < sin theta * cos phi := by simpa [sgn, perm, u0] using hside
      nlinarith
    simp only [magnitudes, perm, sgn, u0, u1, u2, f1, c2, Bool.false_eq_true, if_false, rBF, one_mul]
    congr 1
    ext
    · show |tan phi| * ys = _
      rw [tans, abs_of_pos hc]
      conv_rhs => rw [← hys]
      field_simp
    · show |_| * (if cos theta > 0 then (1 : ℝ) else -1) = _
      rw [habsn _ (by positivity), abs_of_pos hc]
      conv_rhs => rw [← z1]
      field_simp

/-- the hypotheses of C38 are met: theta = π/4, phi = π/4 on the upper side -/
example : OffAxes (1/10) (π / 4) ∧ 0 < (sgn Side.up : ℝ) * unit (π / 4) (π / 4) (perm .up).2.2.2 := by
  refine ⟨?_, ?_⟩
  · intro k hk
    have := Real.pi_gt_three
    rw [lt_abs]
    rcases Nat.eq_zero_or_pos k with rfl | hk0
    · left; norm_num; linarith
    · right
      have : (1 : ℝ) ≤ k := by exact_mod_cast hk0
      nlinarith
  · show 0 < (if (perm Side.up).1 then (-1 : ℝ) else 1) * cos (π / 4)
    simp [perm]

/-- Violation: angles in [2π - e, 2π), which are legal, stop the program (for every side and polar angle), because the
last quadrant is tested with "less up to round-off". -/
theorem C38_last_angles_violation (e : ℝ) (s : Side) (theta phi : ℝ) (he : 0 < e) (he1 : e ≤ 1 / 2)
    (h0 : 2 * π - e ≤ phi) (h1 : phi < 2 * π) : XYofAngles e s theta phi = .abort := by
  have hpi := Real.pi_gt_three
  have m := fun x y => Tol.C13_meaning e x y he
  have : argSign e phi = .abort := by
    unfold argSign
    rw [if_neg (by rintro (h | h) <;> linarith)]
    rw [if_neg (by rw [Bool.and_eq_true, (m _ _).2.2.2.2, (m _ _).2.2.2.1]; rintro ⟨_, h, _⟩; linarith)]
    rw [if_neg (by rw [Bool.and_eq_true, (m _ _).2.2.2.2, (m _ _).2.2.2.1]; rintro ⟨_, h, _⟩; linarith)]
    rw [if_neg (by rw [Bool.and_eq_true, (m _ _).2.2.2.2, (m _ _).2.2.2.1]; rintro ⟨_, h, _⟩; linarith)]
    rw [if_neg (by rw [Bool.and_eq_true, (m _ _).2.2.2.2, (m _ _).2.1]; rintro ⟨_, h⟩; linarith)]
  unfold XYofAngles signs
  rw [this]; rfl

end Elliptica.Angles
