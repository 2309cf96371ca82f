import Mathlib.LinearAlgebra.Matrix.Notation
import Mathlib.Analysis.SpecialFunctions.Trigonometric.Basic
import Mathlib.Analysis.SpecialFunctions.Sqrt
import Mathlib.Algebra.BigOperators.Fin
/-!
Specification: the Kerr metric in Kerr-Schild form, boosted and rotated, and the 3+1 split of a metric.
-/
namespace Elliptica.KsSpec

/-- the Minkowski metric, index 0 is time -/
def eta : Fin 4 → Fin 4 → ℝ := fun m n => if m = n then (if m = 0 then -1 else 1) else 0

/-- r is the Boyer-Lindquist radius of the point Q = (X,Y,Z) in the rest frame of the hole, the spin along Z:
(X²+Y²)/(r²+a²) + Z²/r² = 1 -/
structure Radius (a : ℝ) (Q : Fin 3 → ℝ) (r : ℝ) : Prop where
  pos : 0 < r
  eq : (Q 0 ^ 2 + Q 1 ^ 2) / (r ^ 2 + a ^ 2) + Q 2 ^ 2 / r ^ 2 = 1

/-- the null covector of the Kerr metric in its rest frame -/
noncomputable def null (a : ℝ) (Q : Fin 3 → ℝ) (r : ℝ) : Fin 4 → ℝ :=
  ![1, (r * Q 0 + a * Q 1) / (r ^ 2 + a ^ 2), (r * Q 1 - a * Q 0) / (r ^ 2 + a ^ 2), Q 2 / r]

/-- the Kerr metric of mass M and spin parameter a in its rest frame, Kerr-Schild coordinates -/
noncomputable def kerr (M a : ℝ) (Q : Fin 3 → ℝ) (r : ℝ) (m n : Fin 4) : ℝ :=
  eta m n + 2 * (M * r ^ 3 / (r ^ 4 + a ^ 2 * Q 2 ^ 2)) * null a Q r m * null a Q r n

/-- B·B -/
def dot (u v : Fin 3 → ℝ) : ℝ := u 0 * v 0 + u 1 * v 1 + u 2 * v 2

/-- the Lorentz factor -/
noncomputable def lorentz (B : Fin 3 → ℝ) : ℝ := 1 / √(1 - dot B B)

/-- the boost to the frame that moves with velocity B: t' = γ(t - B·x), x' = x + ((γ-1) (B·x)/B² - γ t) B -/
noncomputable def boost (B : Fin 3 → ℝ) (t : ℝ) (x : Fin 3 → ℝ) : Fin 4 → ℝ :=
  let g := lorentz B
  let f := (g - 1) * dot B x / dot B B - g * t
  ![g * (t - dot B x), x 0 + f * B 0, x 1 + f * B 1, x 2 + f * B 2]

/-- the rotation by -phiz about the z-axis, then by -phiy about the y-axis; time is kept -/
noncomputable def rotate (phiy phiz : ℝ) (v : Fin 4 → ℝ) : Fin 4 → ℝ :=
  let u := Real.cos phiz * v 1 + Real.sin phiz * v 2
  ![v 0, Real.cos phiy * u - Real.sin phiy * v 3, Real.cos phiz * v 2 - Real.sin phiz * v 1, Real.sin phiy * u + Real.cos phiy * v 3]

/-- the rest-frame coordinates of the event (t,x) -/
noncomputable def frame (B : Fin 3 → ℝ) (phiy phiz t : ℝ) (x : Fin 3 → ℝ) : Fin 4 → ℝ := rotate phiy phiz (boost B t x)

/-- the rest-frame space coordinates -/
def space (v : Fin 4 → ℝ) : Fin 3 → ℝ := ![v 1, v 2, v 3]

/-- the matrix of the (linear) change of coordinates: column m is the image of the m-th unit vector -/
noncomputable def jac (B : Fin 3 → ℝ) (phiy phiz : ℝ) (r m : Fin 4) : ℝ :=
  frame B phiy phiz (if m = 0 then 1 else 0) (fun i => if m = i.succ then 1 else 0) r

/-- the components of a metric of the rest frame in the frame in which the hole moves with velocity B -/
noncomputable def transform (B : Fin 3 → ℝ) (phiy phiz : ℝ) (g : Fin 4 → Fin 4 → ℝ) (m n : Fin 4) : ℝ :=
  ∑ r, ∑ s, jac B phiy phiz r m * jac B phiy phiz s n * g r s

/-- 3+1 split of a metric: γ_ij = g_ij, β_i = g_0i, β^i = γ^ij β_j, -α² + β_i β^i = g_00 -/
structure Split (g : Fin 4 → Fin 4 → ℝ) (gam : Fin 3 → Fin 3 → ℝ) (alpha : ℝ) (bd bu : Fin 3 → ℝ) : Prop where
  space : ∀ i j, gam i j = g i.succ j.succ
  mixed : ∀ i, bd i = g 0 i.succ
  lower : ∀ i, bd i = ∑ j, gam i j * bu j
  time : -alpha ^ 2 + ∑ i, bd i * bu i = g 0 0
  pos : 0 < alpha

/-- the 4-dimensional inverse of the Kerr metric at rest: g^mn = eta^mn - 2H l^m l^n -/
noncomputable def kerrInv (M a : ℝ) (Q : Fin 3 → ℝ) (r : ℝ) (m n : Fin 4) : ℝ :=
  eta m n - 2 * (M * r ^ 3 / (r ^ 4 + a ^ 2 * Q 2 ^ 2)) * (if m = 0 then -1 else null a Q r m) * (if n = 0 then -1 else null a Q r n)

/-- a surface f = const, with the gradient df (rest frame, df along space), is null: g^mn ∂_m f ∂_n f = 0 -/
def NullSurface (M a : ℝ) (Q : Fin 3 → ℝ) (r : ℝ) (df : Fin 3 → ℝ) : Prop :=
  ∑ i : Fin 3, ∑ j : Fin 3, kerrInv M a Q r i.succ j.succ * df i * df j = 0

/-- the outer horizon radius of a Kerr hole -/
noncomputable def horizon (M a : ℝ) : ℝ := M + √(M ^ 2 - a ^ 2)

/-- the extrinsic curvature, K_ij = (-∂_t γ_ij + D_i β_j + D_j β_i)/(2α) with D_i β_j = ∂_i β_j - Γ^k_ij β_k; `db i j` is ∂_j β_i -/
noncomputable def extrinsic (ch : Fin 3 → Fin 3 → Fin 3 → ℝ) (b : Fin 3 → ℝ) (db dt : Fin 3 → Fin 3 → ℝ) (al : ℝ) (i j : Fin 3) : ℝ :=
  (-dt i j + (db j i - ∑ k, ch k i j * b k) + (db i j - ∑ k, ch k i j * b k)) / (2 * al)

end Elliptica.KsSpec
