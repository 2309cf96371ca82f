import Verif.Model.Common
import Verif.Model.Tol
import Verif.Model.Mat3
import Mathlib.Analysis.SpecialFunctions.Trigonometric.Basic
import Mathlib.Data.Fin.VecNotation
/-!
Model of Src/Main/Modules/Physics/Transformation (boost.c, rotation.c, sphe_and_cart_coords.c), over `ℝ`.  `e` is
ROUND_OFF_ERR.  A four vector is (t, x, y, z).
-/
namespace Elliptica.Transform

/-- Transformation_T's boost: velocity, its square as the caller gave it, and whether `inverse` is 1 -/
structure Boost where
  Bx : ℝ
  By : ℝ
  Bz : ℝ
  B2 : ℝ
  inverse : Bool

/-- boost.c:12-57 `boost_transformation`; 1 - B2 ≤ 0 gives an infinity or nan (`ub`) -/
noncomputable def boost (e : ℝ) (t : Boost) (v : Fin 4 → ℝ) : Res (Fin 4 → ℝ) :=
  let s : ℝ := if t.inverse then -1 else 1
  let Bx := s * t.Bx
  let By := s * t.By
  let Bz := s * t.Bz
  let B2 := t.B2
  if 1 - B2 ≤ 0 then .ub
  else
    let gamma := 1 / Real.sqrt (1 - B2)
    let G00 := gamma
    let G01 := -gamma * Bx
    let G02 := -gamma * By
    let G03 := -gamma * Bz
    let G11 := if Tol.eql e B2 0 then 1 else 1 + (gamma - 1) * Bx ^ 2 / B2
    let G12 := if Tol.eql e B2 0 then 0 else (gamma - 1) * Bx * By / B2
    let G13 := if Tol.eql e B2 0 then 0 else (gamma - 1) * Bx * Bz / B2
    let G22 := if Tol.eql e B2 0 then 1 else 1 + (gamma - 1) * By ^ 2 / B2
    let G23 := if Tol.eql e B2 0 then 0 else (gamma - 1) * By * Bz / B2
    let G33 := if Tol.eql e B2 0 then 1 else 1 + (gamma - 1) * Bz ^ 2 / B2
    .ok ![G00 * v 0 + G01 * v 1 + G02 * v 2 + G03 * v 3,
      G01 * v 0 + G11 * v 1 + G12 * v 2 + G13 * v 3,
      G02 * v 0 + G12 * v 1 + G22 * v 2 + G23 * v 3,
      G03 * v 0 + G13 * v 1 + G23 * v 2 + G33 * v 3]

/-- Transformation_T's rotation: the three angles, and whether `active` is 1 -/
structure Rotation where
  Rx : ℝ
  Ry : ℝ
  Rz : ℝ
  active : Bool

/-- rotation.c:12-128 `rotation_transformation` (products with the constants 0 and 1 of the matrices left out) -/
noncomputable def rotate (t : Rotation) (v : Fin 4 → ℝ) : Fin 4 → ℝ :=
  let s : ℝ := if t.active then 1 else -1
  let phix := s * t.Rx
  let phiy := s * t.Ry
  let phiz := s * t.Rz
  let u0 : Fin 4 → ℝ := ![v 0, v 1, Real.cos phix * v 2 + -Real.sin phix * v 3, Real.sin phix * v 2 + Real.cos phix * v 3]
  let u1 : Fin 4 → ℝ := ![u0 0, Real.cos phiy * u0 1 + Real.sin phiy * u0 3, u0 2, -Real.sin phiy * u0 1 + Real.cos phiy * u0 3]
  ![u1 0, Real.cos phiz * u1 1 + -Real.sin phiz * u1 2, Real.sin phiz * u1 1 + Real.cos phiz * u1 2, u1 3]

/-- Transformation_T's spheNcart: the point and the direction of the transformation -/
structure Sphe where
  r : ℝ
  th : ℝ
  ph : ℝ
  c2s : Bool
  s2c : Bool

/-- sphe_and_cart_coords.c:31-39 the matrix dc_ds -/
noncomputable def dcds (r th ph : ℝ) : Matrix (Fin 3) (Fin 3) ℝ :=
  !![Real.sin th * Real.cos ph, r * Real.cos th * Real.cos ph, -r * Real.sin th * Real.sin ph;
     Real.sin th * Real.sin ph, r * Real.cos th * Real.sin ph, r * Real.sin th * Real.cos ph;
     Real.cos th, -r * Real.sin th, 0]

/-- sphe_and_cart_coords.c:14-85 `spheNcart_transformation`; a division by zero in the inverse matrix is `ub` -/
noncomputable def sphe (t : Sphe) (v : Fin 3 → ℝ) : Res (Fin 3 → ℝ) :=
  let A := dcds t.r t.th t.ph
  if t.c2s then
    let I := Mat3.inverse (A 0 0) (A 0 1) (A 0 2) (A 1 0) (A 1 1) (A 1 2) (A 2 0) (A 2 1) (A 2 2)
    match I 0 0, I 0 1, I 0 2, I 1 0, I 1 1, I 1 2, I 2 0, I 2 1, I 2 2 with
    | some b00, some b01, some b02, some b10, some b11, some b12, some b20, some b21, some b22 =>
      .ok ![b00 * v 0 + b01 * v 1 + b02 * v 2, b10 * v 0 + b11 * v 1 + b12 * v 2, b20 * v 0 + b21 * v 1 + b22 * v 2]
    | _, _, _, _, _, _, _, _, _ => .ub
  else if t.s2c then
    .ok ![A 0 0 * v 0 + A 0 1 * v 1 + A 0 2 * v 2, A 1 0 * v 0 + A 1 1 * v 1 + A 1 2 * v 2, A 2 0 * v 0 + A 2 1 * v 1 + A 2 2 * v 2]
  else .abort

end Elliptica.Transform
