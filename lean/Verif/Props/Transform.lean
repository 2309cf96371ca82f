import Verif.Model.Transform
import Verif.Props.Mat3
import Mathlib.Analysis.SpecialFunctions.Trigonometric.Deriv
import Mathlib.Tactic.LinearCombination
import Mathlib.Tactic.FieldSimp
/-!
C61: Lorentz boosts, rotations, spherical components.
-/
namespace Elliptica.Transform

/-- Minkowski's product -/
def mink (v w : Fin 4 → ℝ) : ℝ := -(v 0 * w 0) + v 1 * w 1 + v 2 * w 2 + v 3 * w 3

/-- the velocity is set as the synopsis says, below the speed of light, and it is zero or its square is not below the
round-off -/
structure GoodBoost (e : ℝ) (t : Boost) : Prop where
  sq : t.B2 = t.Bx ^ 2 + t.By ^ 2 + t.Bz ^ 2
  slow : t.B2 < 1
  size : e ≤ t.B2 ∨ t.B2 = 0

theorem eql_zero (e x : ℝ) : Tol.eql e x 0 = true ↔ -e < x ∧ x < e := by
  unfold Tol.eql
  simp only [Bool.and_eq_true, decide_eq_true_eq]
  constructor <;> rintro ⟨a, b⟩ <;> constructor <;> linarith

/-- gamma -/
theorem gamma_sq (x : ℝ) (h : x < 1) : 0 < 1 / Real.sqrt (1 - x) ∧ (1 / Real.sqrt (1 - x)) ^ 2 * (1 - x) = 1 := by
  have h1 : 0 < 1 - x := by linarith
  refine ⟨by positivity, ?_⟩
  rw [div_pow, Real.sq_sqrt h1.le]
  field_simp

/-- the result with velocity (X, Y, Z), square S and gamma g -/
noncomputable def lorentz (g X Y Z S : ℝ) (v : Fin 4 → ℝ) : Fin 4 → ℝ :=
  ![g * (v 0 - (X * v 1 + Y * v 2 + Z * v 3)),
    v 1 + X * ((g - 1) / S * (X * v 1 + Y * v 2 + Z * v 3) - g * v 0),
    v 2 + Y * ((g - 1) / S * (X * v 1 + Y * v 2 + Z * v 3) - g * v 0),
    v 3 + Z * ((g - 1) / S * (X * v 1 + Y * v 2 + Z * v 3) - g * v 0)]

theorem boost_eq (e : ℝ) (he : 0 < e) (t : Boost) (G : GoodBoost e t) (v : Fin 4 → ℝ) :
    boost e t v = .ok (lorentz (1 / Real.sqrt (1 - t.B2)) ((if t.inverse then -1 else 1) * t.Bx)
      ((if t.inverse then -1 else 1) * t.By) ((if t.inverse then -1 else 1) * t.Bz) t.B2 v) := by
  unfold boost
  simp only
  rw [if_neg (by have := G.slow; linarith)]
  congr 1
  generalize (if t.inverse = true then (-1 : ℝ) else 1) = s
  rcases G.size with h | h
  · have hne : Tol.eql e t.B2 0 = false := by
      rw [Bool.eq_false_iff, ne_eq, eql_zero]
      rintro ⟨-, h'⟩; linarith
    simp only [hne, lorentz]
    funext i
    fin_cases i <;> simp <;> ring
  · have hq := G.sq
    rw [h] at hq
    have hx : t.Bx = 0 := by nlinarith [sq_nonneg t.Bx, sq_nonneg t.By, sq_nonneg t.Bz]
    have hy : t.By = 0 := by nlinarith [sq_nonneg t.Bx, sq_nonneg t.By, sq_nonneg t.Bz]
    have hz : t.Bz = 0 := by nlinarith [sq_nonneg t.Bx, sq_nonneg t.By, sq_nonneg t.Bz]
    have hb : Tol.eql e t.B2 0 = true := by
      rw [eql_zero, h]; constructor <;> linarith
    simp only [hb, lorentz, hx, hy, hz]
    funext i
    fin_cases i <;> simp

theorem lorentz_mink (g X Y Z S : ℝ) (hS : S = X ^ 2 + Y ^ 2 + Z ^ 2) (hg : g ^ 2 * (1 - S) = 1) (v w : Fin 4 → ℝ) :
    mink (lorentz g X Y Z S v) (lorentz g X Y Z S w) = mink v w := by
  have key : S ≠ 0 ∨ S = 0 := by tauto
  simp only [mink, lorentz, Matrix.cons_val]
  generalize hp : X * v 1 + Y * v 2 + Z * v 3 = p
  generalize hq : X * w 1 + Y * w 2 + Z * w 3 = q
  rcases key with h0 | h0
  · obtain ⟨k, hk⟩ : ∃ k, (g - 1) / S = k := ⟨_, rfl⟩
    have hk' : k * S = g - 1 := by rw [← hk]; field_simp
    rw [hk]
    have e1 : -(g * (v 0 - p) * (g * (w 0 - q))) + (v 1 + X * (k * p - g * v 0)) * (w 1 + X * (k * q - g * w 0)) +
        (v 2 + Y * (k * p - g * v 0)) * (w 2 + Y * (k * q - g * w 0)) + (v 3 + Z * (k * p - g * v 0)) * (w 3 + Z * (k * q - g * w 0)) =
        -(g ^ 2 * ((v 0 - p) * (w 0 - q))) + (v 1 * w 1 + v 2 * w 2 + v 3 * w 3) + (X * v 1 + Y * v 2 + Z * v 3) * (k * q - g * w 0) +
        (X * w 1 + Y * w 2 + Z * w 3) * (k * p - g * v 0) + (X ^ 2 + Y ^ 2 + Z ^ 2) * ((k * p - g * v 0) * (k * q - g * w 0)) := by ring
    rw [e1, hp, hq, ← hS]
    have hgS : g ^ 2 * S = g ^ 2 - 1 := by linarith
    have hkk : k ^ 2 * S + 2 * k = g ^ 2 - k * g * S + g * (g - 1) - g ^ 2 + 2 * k - (g - 1) ^ 2 * 0 + (k ^ 2 * S - (g - 1) * k) +
      ((g - 1) * k - g * (g - 1) + k * g * S) := by ring
    have h2 : k ^ 2 * S = k * (g - 1) := by rw [← hk']; ring
    have h3 : k * (g + 1) = g ^ 2 := by
      have : k * (g + 1) * S = g ^ 2 * S := by rw [hgS]; linear_combination (g + 1) * hk'
      exact mul_right_cancel₀ h0 this
    linear_combination (v 0 * w 0) * hgS - (g * (p * w 0 + q * v 0)) * hk' + (p * q) * h2 + (p * q) * h3
  · have hz : X = 0 ∧ Y = 0 ∧ Z = 0 := by
      rw [h0] at hS
      refine ⟨?_, ?_, ?_⟩ <;> nlinarith [sq_nonneg X, sq_nonneg Y, sq_nonneg Z]
    obtain ⟨rfl, rfl, rfl⟩ := hz
    rw [h0] at hg
    simp only [zero_mul, add_zero] at hp hq
    subst hp hq
    linear_combination -(v 0 * w 0) * hg

theorem lorentz_inv (g X Y Z S : ℝ) (hS : S = X ^ 2 + Y ^ 2 + Z ^ 2) (hg : g ^ 2 * (1 - S) = 1) (v : Fin 4 → ℝ) :
    lorentz g (-X) (-Y) (-Z) S (lorentz g X Y Z S v) = v ∨ g < 0 := by
  by_cases hg0 : g < 0
  · exact Or.inr hg0
  left
  have key : S ≠ 0 ∨ S = 0 := by tauto
  rcases key with h0 | h0
  · obtain ⟨k, hk⟩ : ∃ k, (g - 1) / S = k := ⟨_, rfl⟩
    have hk' : k * S = g - 1 := by rw [← hk]; field_simp
    have hgS : g ^ 2 * S = g ^ 2 - 1 := by linarith
    have h2 : k ^ 2 * S = k * (g - 1) := by rw [← hk']; ring
    have h3 : k * (g + 1) = g ^ 2 := by
      have : k * (g + 1) * S = g ^ 2 * S := by rw [hgS]; linear_combination (g + 1) * hk'
      exact mul_right_cancel₀ h0 this
    have hkS : k * (X ^ 2 + Y ^ 2 + Z ^ 2) = g - 1 := by rw [← hS]; exact hk'
    have hgS' : g ^ 2 * (X ^ 2 + Y ^ 2 + Z ^ 2) = g ^ 2 - 1 := by rw [← hS]; exact hgS
    funext i
    unfold lorentz
    rw [hk]
    generalize hp : X * v 1 + Y * v 2 + Z * v 3 = p
    have dot : (-X) * (v 1 + X * (k * p - g * v 0)) + (-Y) * (v 2 + Y * (k * p - g * v 0)) + (-Z) * (v 3 + Z * (k * p - g * v 0)) =
        -(p * g) + g * v 0 * S := by
      rw [hS]
      linear_combination (-p) * hkS - hp
    simp only [Matrix.cons_val]
    rw [dot]
    fin_cases i
    · simp only [Fin.zero_eta, Matrix.cons_val]
      linear_combination (-v 0) * hgS
    all_goals simp only [Fin.mk_one, Fin.reduceFinMk, Matrix.cons_val]
    · linear_combination X * p * h3 - X * g * v 0 * hk'
    · linear_combination Y * p * h3 - Y * g * v 0 * hk'
    · linear_combination Z * p * h3 - Z * g * v 0 * hk'
  · have hz : X = 0 ∧ Y = 0 ∧ Z = 0 := by
      rw [h0] at hS
      refine ⟨?_, ?_, ?_⟩ <;> nlinarith [sq_nonneg X, sq_nonneg Y, sq_nonneg Z]
    obtain ⟨rfl, rfl, rfl⟩ := hz
    have hg1 : g * g = 1 := by rw [h0] at hg; linarith
    have hg' : g = 1 := by nlinarith
    subst hg'
    funext i
    fin_cases i <;> simp [lorentz]

/-- C61: a boost keeps Minkowski's product -/
theorem C61_boost_product (e : ℝ) (he : 0 < e) (t : Boost) (G : GoodBoost e t) (v w : Fin 4 → ℝ) :
    ∃ v' w', boost e t v = .ok v' ∧ boost e t w = .ok w' ∧ mink v' w' = mink v w := by
  refine ⟨_, _, boost_eq e he t G v, boost_eq e he t G w, lorentz_mink _ _ _ _ _ ?_ (gamma_sq _ G.slow).2 v w⟩
  rw [G.sq]
  split_ifs <;> ring

/-- C61: the inverse boost takes it back, in both orders -/
theorem C61_boost_inverse (e : ℝ) (he : 0 < e) (t : Boost) (G : GoodBoost e t) (v : Fin 4 → ℝ) :
    (boost e t v).bind (boost e { t with inverse := !t.inverse }) = .ok v := by
  have G' : GoodBoost e { t with inverse := !t.inverse } := ⟨G.sq, G.slow, G.size⟩
  rw [boost_eq e he t G v]
  simp only [Res.bind]
  rw [boost_eq e he _ G']
  obtain ⟨g1, g2⟩ := gamma_sq _ G.slow
  congr 1
  cases hi : t.inverse
  · simp only [Bool.not_false, if_true, Bool.false_eq_true, if_false, one_mul, neg_one_mul]
    exact (lorentz_inv _ _ _ _ _ G.sq g2 v).resolve_right (not_lt.2 g1.le)
  · simp only [Bool.not_true, if_true, Bool.false_eq_true, if_false, one_mul, neg_one_mul]
    have := (lorentz_inv (1 / Real.sqrt (1 - t.B2)) (-t.Bx) (-t.By) (-t.Bz) t.B2 (by rw [G.sq]; ring) g2 v).resolve_right
      (not_lt.2 g1.le)
    simpa only [neg_neg] using this

/-- C61: a boost brings a body moving with the given velocity to rest and leaves what is orthogonal to the velocity alone -/
theorem C61_boost_rest (e : ℝ) (he : 0 < e) (t : Boost) (G : GoodBoost e t) (hi : t.inverse = false) :
    boost e t ![1, t.Bx, t.By, t.Bz] = .ok ![Real.sqrt (1 - t.B2), 0, 0, 0] ∧
    ∀ x y z, x * t.Bx + y * t.By + z * t.Bz = 0 → boost e t ![0, x, y, z] = .ok ![0, x, y, z] := by
  have h1 : 0 < 1 - t.B2 := by linarith [G.slow]
  have hs : Real.sqrt (1 - t.B2) ≠ 0 := (Real.sqrt_pos.2 h1).ne'
  have hss : Real.sqrt (1 - t.B2) ^ 2 = 1 - t.B2 := Real.sq_sqrt h1.le
  have hq := G.sq
  constructor
  · rw [boost_eq e he t G]
    congr 1
    simp only [hi, Bool.false_eq_true, if_false, one_mul]
    have dot : t.Bx * t.Bx + t.By * t.By + t.Bz * t.Bz = t.B2 := by rw [hq]; ring
    rcases eq_or_ne t.B2 0 with h0 | h0
    · have hz : t.Bx = 0 ∧ t.By = 0 ∧ t.Bz = 0 := by
        rw [h0] at hq
        refine ⟨?_, ?_, ?_⟩ <;> nlinarith [sq_nonneg t.Bx, sq_nonneg t.By, sq_nonneg t.Bz]
      funext i
      fin_cases i <;> simp [lorentz, hz.1, hz.2.1, hz.2.2, h0]
    · funext i
      fin_cases i <;> simp [lorentz, dot]
      · rw [inv_mul_eq_iff_eq_mul₀ hs]; linarith
      all_goals
        have : 1 + ((Real.sqrt (1 - t.B2))⁻¹ - 1) / t.B2 * t.B2 - (Real.sqrt (1 - t.B2))⁻¹ = 0 := by
          rw [div_mul_cancel₀ _ h0]; ring
      · linear_combination t.Bx * this
      · linear_combination t.By * this
      · linear_combination t.Bz * this
  · intro x y z h
    rw [boost_eq e he t G]
    congr 1
    simp only [hi, Bool.false_eq_true, if_false, one_mul]
    have dot : t.Bx * x + t.By * y + t.Bz * z = 0 := by linarith
    funext i
    fin_cases i <;> simp [lorentz, dot]

/-- C61, violation: for small velocities (square below the round-off) the result is not a Lorentz transformation -/
theorem C61_small_violation (e : ℝ) (he1 : e ≤ 1) (t : Boost) (hq : t.B2 = t.Bx ^ 2 + t.By ^ 2 + t.Bz ^ 2) (h0 : 0 < t.B2) (h1 : t.B2 < e) :
    ∃ v', boost e t ![0, t.Bx, t.By, t.Bz] = .ok v' ∧ mink v' v' < mink ![0, t.Bx, t.By, t.Bz] ![0, t.Bx, t.By, t.Bz] := by
  have hb : Tol.eql e t.B2 0 = true := by
    rw [eql_zero]; constructor <;> linarith
  obtain ⟨g1, -⟩ := gamma_sq t.B2 (by linarith)
  unfold boost
  simp only
  rw [if_neg (by linarith)]
  refine ⟨_, rfl, ?_⟩
  generalize 1 / Real.sqrt (1 - t.B2) = g at g1 ⊢
  have hs : ((if t.inverse = true then (-1 : ℝ) else 1)) ^ 2 = 1 := by split_ifs <;> norm_num
  generalize (if t.inverse = true then (-1 : ℝ) else 1) = s at hs ⊢
  simp only [hb, mink, if_true, Matrix.cons_val]
  have : 0 < g ^ 2 * t.B2 ^ 2 := by positivity
  rw [hq] at this
  have e1 : (g * 0 + -g * (s * t.Bx) * t.Bx + -g * (s * t.By) * t.By + -g * (s * t.Bz) * t.Bz) *
    (g * 0 + -g * (s * t.Bx) * t.Bx + -g * (s * t.By) * t.By + -g * (s * t.Bz) * t.Bz) =
      s ^ 2 * (g ^ 2 * (t.Bx ^ 2 + t.By ^ 2 + t.Bz ^ 2) ^ 2) := by ring
  rw [e1, hs]
  nlinarith

/-- C61: velocities at or above the speed of light give no numbers -/
theorem C61_fast (e : ℝ) (t : Boost) (h : 1 ≤ t.B2) (v : Fin 4 → ℝ) : boost e t v = .ub := by
  unfold boost
  simp only
  rw [if_pos (by linarith)]

/-! ### rotations -/

/-- right-handed rotations about the axes -/
noncomputable def rotX (a : ℝ) (v : Fin 4 → ℝ) : Fin 4 → ℝ :=
  ![v 0, v 1, v 2 * Real.cos a - v 3 * Real.sin a, v 2 * Real.sin a + v 3 * Real.cos a]
noncomputable def rotY (a : ℝ) (v : Fin 4 → ℝ) : Fin 4 → ℝ :=
  ![v 0, v 3 * Real.sin a + v 1 * Real.cos a, v 2, v 3 * Real.cos a - v 1 * Real.sin a]
noncomputable def rotZ (a : ℝ) (v : Fin 4 → ℝ) : Fin 4 → ℝ :=
  ![v 0, v 1 * Real.cos a - v 2 * Real.sin a, v 1 * Real.sin a + v 2 * Real.cos a, v 3]

/-- the sign of the angles -/
def sgn (t : Rotation) : ℝ := if t.active then 1 else -1

/-- C61: the rotation about x, then y, then z; passive rotations turn by the opposite angles -/
theorem C61_rotation (t : Rotation) (v : Fin 4 → ℝ) :
    rotate t v = rotZ (sgn t * t.Rz) (rotY (sgn t * t.Ry) (rotX (sgn t * t.Rx) v)) := by
  unfold rotate rotZ rotY rotX sgn
  funext i
  fin_cases i <;> simp <;> ring

/-- products and determinants of the space parts -/
def dot3 (v w : Fin 4 → ℝ) : ℝ := v 1 * w 1 + v 2 * w 2 + v 3 * w 3
def det3 (u v w : Fin 4 → ℝ) : ℝ :=
  u 1 * (v 2 * w 3 - v 3 * w 2) + u 2 * (v 3 * w 1 - v 1 * w 3) + u 3 * (v 1 * w 2 - v 2 * w 1)

/-- C61: a rotation keeps time, lengths, angles and orientation -/
theorem C61_rotation_rigid (t : Rotation) (u v w : Fin 4 → ℝ) :
    rotate t u 0 = u 0 ∧ dot3 (rotate t u) (rotate t v) = dot3 u v ∧ det3 (rotate t u) (rotate t v) (rotate t w) = det3 u v w := by
  have X : ∀ a (u v w : Fin 4 → ℝ), rotX a u 0 = u 0 ∧ dot3 (rotX a u) (rotX a v) = dot3 u v ∧
      det3 (rotX a u) (rotX a v) (rotX a w) = det3 u v w := by
    intro a u v w
    have h := Real.sin_sq_add_cos_sq a
    simp only [rotX, dot3, det3, Matrix.cons_val]
    refine ⟨trivial, ?_, ?_⟩
    · linear_combination (u 2 * v 2 + u 3 * v 3) * h
    · linear_combination (u 1 * (v 2 * w 3 - v 3 * w 2) + u 2 * (v 3 * w 1 - v 1 * w 3) + u 3 * (v 1 * w 2 - v 2 * w 1)) * h
  have Y : ∀ a (u v w : Fin 4 → ℝ), rotY a u 0 = u 0 ∧ dot3 (rotY a u) (rotY a v) = dot3 u v ∧
      det3 (rotY a u) (rotY a v) (rotY a w) = det3 u v w := by
    intro a u v w
    have h := Real.sin_sq_add_cos_sq a
    simp only [rotY, dot3, det3, Matrix.cons_val]
    refine ⟨trivial, ?_, ?_⟩
    · linear_combination (u 1 * v 1 + u 3 * v 3) * h
    · linear_combination (u 1 * (v 2 * w 3 - v 3 * w 2) + u 2 * (v 3 * w 1 - v 1 * w 3) + u 3 * (v 1 * w 2 - v 2 * w 1)) * h
  have Z : ∀ a (u v w : Fin 4 → ℝ), rotZ a u 0 = u 0 ∧ dot3 (rotZ a u) (rotZ a v) = dot3 u v ∧
      det3 (rotZ a u) (rotZ a v) (rotZ a w) = det3 u v w := by
    intro a u v w
    have h := Real.sin_sq_add_cos_sq a
    simp only [rotZ, dot3, det3, Matrix.cons_val]
    refine ⟨trivial, ?_, ?_⟩
    · linear_combination (u 1 * v 1 + u 2 * v 2) * h
    · linear_combination (u 1 * (v 2 * w 3 - v 3 * w 2) + u 2 * (v 3 * w 1 - v 1 * w 3) + u 3 * (v 1 * w 2 - v 2 * w 1)) * h
  simp only [C61_rotation]
  refine ⟨?_, ?_, ?_⟩
  · rw [(Z _ _ u u).1, (Y _ _ u u).1, (X _ _ u u).1]
  · rw [(Z _ _ _ u).2.1, (Y _ _ _ u).2.1, (X _ _ _ u).2.1]
  · rw [(Z _ _ _ _).2.2, (Y _ _ _ _).2.2, (X _ _ _ _).2.2]

theorem rot_neg (a : ℝ) (v : Fin 4 → ℝ) : rotX (-a) (rotX a v) = v ∧ rotY (-a) (rotY a v) = v ∧ rotZ (-a) (rotZ a v) = v := by
  have h := Real.sin_sq_add_cos_sq a
  refine ⟨?_, ?_, ?_⟩ <;> funext i <;> fin_cases i <;> simp [rotX, rotY, rotZ] <;>
    first
    | linear_combination (v 1) * h
    | linear_combination (v 2) * h
    | linear_combination (v 3) * h

theorem rot_zero (v : Fin 4 → ℝ) : rotX 0 v = v ∧ rotY 0 v = v ∧ rotZ 0 v = v := by
  refine ⟨?_, ?_, ?_⟩ <;> funext i <;> fin_cases i <;> simp [rotX, rotY, rotZ]

/-- C61: about a single axis the passive rotation undoes the active one -/
theorem C61_passive_partial (a : ℝ) (b : Bool) (v : Fin 4 → ℝ) :
    rotate ⟨a, 0, 0, !b⟩ (rotate ⟨a, 0, 0, b⟩ v) = v ∧ rotate ⟨0, a, 0, !b⟩ (rotate ⟨0, a, 0, b⟩ v) = v ∧
      rotate ⟨0, 0, a, !b⟩ (rotate ⟨0, 0, a, b⟩ v) = v := by
  simp only [C61_rotation, mul_zero, (rot_zero _).1, (rot_zero _).2.1, (rot_zero _).2.2]
  have e1 : ∀ R : Rotation, ∀ x y z, sgn ⟨x, y, z, !R.active⟩ = -sgn R := by
    intro R x y z
    cases h : R.active <;> simp [sgn, h]
  have e2 : sgn ⟨a, 0, 0, !b⟩ * a = -(sgn ⟨a, 0, 0, b⟩ * a) := by rw [e1 ⟨a, 0, 0, b⟩]; ring
  have e3 : sgn ⟨0, a, 0, !b⟩ * a = -(sgn ⟨0, a, 0, b⟩ * a) := by rw [e1 ⟨0, a, 0, b⟩]; ring
  have e4 : sgn ⟨0, 0, a, !b⟩ * a = -(sgn ⟨0, 0, a, b⟩ * a) := by rw [e1 ⟨0, 0, a, b⟩]; ring
  rw [e2, e3, e4]
  exact ⟨(rot_neg _ _).1, (rot_neg _ _).2.1, (rot_neg _ _).2.2⟩

/-- C61, violation: about two axes it does not: the passive rotation is not the inverse of the active one with the same
angles, since the order of the axes is the same -/
theorem C61_passive_violation :
    rotate ⟨Real.pi / 2, Real.pi / 2, 0, false⟩ (rotate ⟨Real.pi / 2, Real.pi / 2, 0, true⟩ ![0, 0, 0, 1]) = ![0, -1, 0, 0] := by
  simp only [C61_rotation, mul_zero, (rot_zero _).2.2, sgn]
  funext i
  fin_cases i <;> simp [rotX, rotY]

/-! ### spherical components -/

/-- C61: components along (r, θ, φ) are turned into Cartesian ones: a point moving with these rates moves with the returned
Cartesian velocity -/
theorem C61_sphe_to_cart (t : Sphe) (hc : t.c2s = false) (hs : t.s2c = true) (v : Fin 3 → ℝ) :
    ∃ w, sphe t v = .ok w ∧ ∀ (r th ph : ℝ → ℝ) (u : ℝ), r u = t.r → th u = t.th → ph u = t.ph →
      HasDerivAt r (v 0) u → HasDerivAt th (v 1) u → HasDerivAt ph (v 2) u →
      HasDerivAt (fun x => r x * Real.sin (th x) * Real.cos (ph x)) (w 0) u ∧
      HasDerivAt (fun x => r x * Real.sin (th x) * Real.sin (ph x)) (w 1) u ∧
      HasDerivAt (fun x => r x * Real.cos (th x)) (w 2) u := by
  unfold sphe
  simp only [hc, hs, if_true, Bool.false_eq_true, if_false]
  refine ⟨_, rfl, ?_⟩
  intro r th ph u h1 h2 h3 d1 d2 d3
  refine ⟨?_, ?_, ?_⟩
  · refine ((d1.mul d2.sin).mul d3.cos).congr_deriv ?_
    simp [dcds, h1, h2, h3]; ring
  · refine ((d1.mul d2.sin).mul d3.sin).congr_deriv ?_
    simp [dcds, h1, h2, h3]; ring
  · refine (d1.mul d2.cos).congr_deriv ?_
    simp [dcds, h1, h2, h3]; ring

theorem det_dcds (r th ph : ℝ) : (dcds r th ph).det = r ^ 2 * Real.sin th := by
  rw [Matrix.det_fin_three]
  simp only [dcds, Matrix.of_apply, Matrix.cons_val]
  have h := Real.sin_sq_add_cos_sq th
  have h' := Real.sin_sq_add_cos_sq ph
  linear_combination (r ^ 2 * Real.sin th * (Real.sin th ^ 2 + Real.cos th ^ 2)) * h' + r ^ 2 * Real.sin th * h

/-- C61: off the axis and the plane x = 0, Cartesian components are turned into spherical ones, the inverse of the above.
Missing for the full property: the plane x = 0, where the matrix has an inverse but the formula divides by zero. -/
theorem C61_cart_to_sphe_partial (r th ph : ℝ) (b b' : Bool) (h1 : r * Real.sin th * Real.cos ph ≠ 0) (v : Fin 3 → ℝ) :
    ∃ w, sphe ⟨r, th, ph, true, b⟩ v = .ok w ∧ sphe ⟨r, th, ph, false, true⟩ w = .ok v ∧
      ∃ v', sphe ⟨r, th, ph, false, true⟩ v = .ok v' ∧ sphe ⟨r, th, ph, true, b'⟩ v' = .ok v := by
  have hr : r ≠ 0 := by rintro rfl; simp at h1
  have hs : Real.sin th ≠ 0 := by intro h; simp [h] at h1
  have hc : Real.cos ph ≠ 0 := by intro h; simp [h] at h1
  obtain ⟨B, hAB, hBA, hB⟩ := Mat3.C17_inverse_partial (dcds r th ph) (by rw [det_dcds]; positivity)
    (by simp [dcds, hs, hc])
  have e1 : ∀ b (v : Fin 3 → ℝ), sphe ⟨r, th, ph, true, b⟩ v = .ok (B.mulVec v) := by
    intro b v
    unfold sphe
    simp only [if_true]
    have g : ∀ i j : Fin 3, Mat3.inverse ((dcds r th ph) 0 0) ((dcds r th ph) 0 1) ((dcds r th ph) 0 2) ((dcds r th ph) 1 0)
      ((dcds r th ph) 1 1) ((dcds r th ph) 1 2) ((dcds r th ph) 2 0) ((dcds r th ph) 2 1) ((dcds r th ph) 2 2) i j = some (B i j) := hB
    have g00 := g 0 0
    have g01 := g 0 1
    have g02 := g 0 2
    have g10 := g 1 0
    have g11 := g 1 1
    have g12 := g 1 2
    have g20 := g 2 0
    have g21 := g 2 1
    have g22 := g 2 2
    simp only [Fin.val_zero, Fin.val_one, Fin.val_two] at g00 g01 g02 g10 g11 g12 g20 g21 g22
    simp only [g00, g01, g02, g10, g11, g12, g20, g21, g22]
    congr 1
    funext i
    fin_cases i <;> simp [Matrix.mulVec, dotProduct, Fin.sum_univ_three]
  have e2 : ∀ v : Fin 3 → ℝ, sphe ⟨r, th, ph, false, true⟩ v = .ok ((dcds r th ph).mulVec v) := by
    intro v
    unfold sphe
    simp only [if_true, Bool.false_eq_true, if_false]
    congr 1
    funext i
    fin_cases i <;> simp [Matrix.mulVec, dotProduct, Fin.sum_univ_three]
  refine ⟨_, e1 b v, ?_, _, e2 v, ?_⟩
  · rw [e2, Matrix.mulVec_mulVec, hAB, Matrix.one_mulVec]
  · rw [e1, Matrix.mulVec_mulVec, hBA, Matrix.one_mulVec]

/-- C61: without a direction the program stops -/
theorem C61_no_direction (r th ph : ℝ) (v : Fin 3 → ℝ) : sphe ⟨r, th, ph, false, false⟩ v = .abort := by
  simp [sphe]

/-- the hypotheses of the boost theorems are met -/
example : GoodBoost 1E-12 ⟨3 / 10, 0, -4 / 10, 1 / 4, false⟩ := ⟨by norm_num, by norm_num, Or.inl (by norm_num)⟩
example : GoodBoost 1E-12 ⟨0, 0, 0, 0, true⟩ := ⟨by norm_num, by norm_num, Or.inr rfl⟩
example : ∃ t : Boost, t.B2 = t.Bx ^ 2 + t.By ^ 2 + t.Bz ^ 2 ∧ 0 < t.B2 ∧ t.B2 < 1E-12 := ⟨⟨1E-7, 0, 0, 1E-14, false⟩, by norm_num⟩
example : (2 : ℝ) * Real.sin (Real.pi / 2) * Real.cos 0 ≠ 0 := by simp

end Elliptica.Transform
