import Mathlib.Algebra.Field.Defs
/-!
Model of the 3x3 macros of Src/Main/Modules/Includes/maths_linear_algebra_lib.h.
-/
namespace Elliptica.Mat3

variable {K : Type} [Field K] [DecidableEq K]

/-- floating point division; `none` when the divisor is zero (the C expression gives NaN or infinity) -/
def cdiv (x y : K) : Option K := if y = 0 then none else some (x / y)

/-- maths_linear_algebra_lib.h:154-158 Matrix_Determinant_3x3 -/
def det (a00 a01 a02 a10 a11 a12 a20 a21 a22 : K) : K :=
  (a00 * a11 * a22 - a00 * a12 * a21 - a01 * a10 * a22 + a01 * a12 * a20 + a02 * a10 * a21 - a02 * a11 * a20)

/-- maths_linear_algebra_lib.h:26-37 (FIELD) and 53-64 (VAR) MLA_COMPUTE_INVERSE_3x3_GENERAL_*: the nine entries -/
def inverse (a00 a01 a02 a10 a11 a12 a20 a21 a22 : K) : Nat → Nat → Option K
  | 0, 0 => cdiv (a11*a22 - a12*a21) (a00*a11*a22 - a00*a12*a21 - a01*a10*a22 + a01*a12*a20 + a02*a10*a21 - a02*a11*a20)
  | 0, 1 => cdiv (-a01*a22 + a02*a21) (a00*a11*a22 - a00*a12*a21 - a01*a10*a22 + a01*a12*a20 + a02*a10*a21 - a02*a11*a20)
  | 0, 2 => cdiv (a01*a12 - a02*a11) (a00*a11*a22 - a00*a12*a21 - a01*a10*a22 + a01*a12*a20 + a02*a10*a21 - a02*a11*a20)
  | 1, 0 => cdiv (-a10*a22 + a12*a20) (a00*a11*a22 - a00*a12*a21 - a01*a10*a22 + a01*a12*a20 + a02*a10*a21 - a02*a11*a20)
  | 1, 1 => cdiv (a00*(a00*a22 - a02*a20)) ((a00*a11 - a01*a10)*(a00*a22 - a02*a20) - (a00*a12 - a02*a10)*(a00*a21 - a01*a20))
  | 1, 2 => cdiv (-a00*(a00*a12 - a02*a10)) ((a00*a11 - a01*a10)*(a00*a22 - a02*a20) - (a00*a12 - a02*a10)*(a00*a21 - a01*a20))
  | 2, 0 => cdiv (a10*a21 - a11*a20) (a00*a11*a22 - a00*a12*a21 - a01*a10*a22 + a01*a12*a20 + a02*a10*a21 - a02*a11*a20)
  | 2, 1 => cdiv (-a00*(a00*a21 - a01*a20)) ((a00*a11 - a01*a10)*(a00*a22 - a02*a20) - (a00*a12 - a02*a10)*(a00*a21 - a01*a20))
  | 2, 2 => cdiv (a00*(a00*a11 - a01*a10)) ((a00*a11 - a01*a10)*(a00*a22 - a02*a20) - (a00*a12 - a02*a10)*(a00*a21 - a01*a20))
  | _, _ => none

/-- maths_linear_algebra_lib.h:14-22 (FIELD) and 41-49 (VAR), the symmetric macros with the argument lists of lines
74-78 and 97-101: only the six entries with i ≤ j are written -/
def inverseSym (a00 a01 a02 a11 a12 a22 : K) (i j : Nat) : Option K :=
  if i ≤ j then inverse a00 a01 a02 a01 a11 a12 a02 a12 a22 i j else none

end Elliptica.Mat3
