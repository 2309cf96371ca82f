import Verif.Model.Tol
import Verif.Model.Coeff
import Mathlib.Analysis.SpecialFunctions.Trigonometric.Inverse
import Mathlib.Algebra.BigOperators.Intervals
/-!
Model of the Chebyshev spectral code over `ℝ` (libm's functions are the mathematical ones, `e` is ROUND_OFF_ERR):
Src/Main/Modules/Maths/Spectral_Methods/fourier_transformation.c:23-74, interpolations.c:420-612,
Src/Main/Modules/Includes/maths_special_functions_lib.h:9-59, Src/Main/Modules/Maths/Special_Functions/misc_functions.c,
Src/Main/Modules/Manifold/coordinate_systems.c:252-314, 587-605.  Accumulation loops are finite sums.
-/
namespace Elliptica.Cheb
open Real Finset Elliptica.Index

/-- `const double SIGN[2] = {1.0,-1.0}`, SIGN[i%2] -/
noncomputable def sign (i : ℕ) : ℝ := if i % 2 = 0 then 1 else -1

/-- fourier_transformation.c:23-41 `rft_1d_ChebyshevExtrema_coeffs`: coeffs[i] -/
noncomputable def extremaCoeff (n : ℕ) (v : ℕ → ℝ) (i : ℕ) : ℝ :=
  let th := i * (π / ((n : ℝ) - 1))
  ((∑ j ∈ Ico 1 (n - 1), v j * cos (j * th)) * 2 + (v 0 + sign i * v (n - 1))) / (2 * ((n : ℝ) - 1))

/-- fourier_transformation.c:58-74 `rft_1d_ChebyshevNodes_coeffs`: coeffs[i] -/
noncomputable def nodesCoeff (n : ℕ) (v : ℕ → ℝ) (i : ℕ) : ℝ :=
  let th := i * (π / n)
  (∑ j ∈ range n, v j * cos (th * (j + 0.5))) / n

/-- maths_special_functions_lib.h:12-33 `Cheb_Tn` -/
noncomputable def chebT (e : ℝ) (n : ℕ) (x : ℝ) : ℝ :=
  if n = 0 then 1
  else if Tol.eql e x 1 then 1
  else if Tol.eql e x (-1) then (if n % 2 ≠ 0 then -1 else 1)
  else cos (n * arccos x)

/-- maths_special_functions_lib.h:38-59 `Cheb_Un` for `n` ≥ -1 (`int n`) -/
noncomputable def chebU (e : ℝ) (n : ℤ) (x : ℝ) : ℝ :=
  if n = 0 then 1
  else if Tol.eql e x 1 then n + 1
  else if Tol.eql e x (-1) then (if n % 2 ≠ 0 then -n - 1 else n + 1)
  else sin ((n + 1) * arccos x) / sin (arccos x)

/-- misc_functions.c:49-52 `dCheb_Tn_dx` -/
noncomputable def dChebT (e : ℝ) (n : ℕ) (x : ℝ) : ℝ := n * chebU e ((n : ℤ) - 1) x

/-- misc_functions.c:24-46 `d2Cheb_Tn_dx2` (`int` products that fit an int, i.e. n ≤ 215) -/
noncomputable def d2ChebT (e : ℝ) (n : ℕ) (x : ℝ) : ℝ :=
  if n = 0 ∨ n = 1 then 0
  else if n = 2 then 4
  else if Tol.eql e x 1 then (n * n * (n * n - 1) : ℝ) / 3
  else if Tol.eql e x (-1) then
    (if n % 2 ≠ 0 then (-(n * n * (n * n - 1)) : ℝ) / 3 else (n * n * (n * n - 1) : ℝ) / 3)
  else n * ((n + 1) * chebT e n x - chebU e n x) / (x * x - 1)

/-- interpolations.c:599-611 `T_cheb_combined` -/
noncomputable def tComb (e : ℝ) (n i : ℕ) (x : ℝ) : ℝ :=
  if i = 0 then 1
  else if i = n - 1 then chebT e i x
  else 2 * chebT e i x

/-- coordinate_systems.c:587-605 `General2ChebyshevExtrema` on [mn,mx] (after its check) -/
noncomputable def toCheb (e mn mx X : ℝ) : ℝ :=
  let a := -mx + mn
  let b := mx + mn
  let cheb := (X * 2 - b) / a
  if Tol.eql e cheb 1 then 1 else if Tol.eql e cheb (-1) then -1 else cheb

/-- coordinate_systems.c:268-272, 295-300: the i-th of n Chebyshev extrema on [mn,mx] -/
noncomputable def pointExtrema (mn mx : ℝ) (n i : ℕ) : ℝ :=
  let a := 0.5 * (-mx + mn)
  let b := 0.5 * (mx + mn)
  a * cos (i * π / ((n : ℝ) - 1)) + b

/-- coordinate_systems.c:273-277, 302-307: the i-th of n Chebyshev nodes on [mn,mx] -/
noncomputable def pointNodes (mn mx : ℝ) (n i : ℕ) : ℝ :=
  let a := 0.5 * (-mx + mn)
  let b := 0.5 * (mx + mn)
  a * cos ((i + 0.5) * π / n) + b

/-- the transformations as matrices: entry (i,j) of extremaCoeff / nodesCoeff, used to run the cache of Model/Coeff -/
noncomputable def extremaTr (n : Fin 3 → ℕ) (d : Fin 3) (v : ℕ → ℝ) (i : ℕ) : ℝ := extremaCoeff (n d) v i

/-- interpolations.c:423-491: interpolation along one direction; `c` are the coefficients on the line -/
noncomputable def interp1 (e : ℝ) (n : ℕ) (c : ℕ → ℝ) (x : ℝ) : ℝ := ∑ i ∈ range n, c i * tComb e n i x

/-- interpolations.c:424-439 `interpolation_Chebyshev_Tn_X`; 447-462 `_Y`; 470-485 `_Z`: coefficients from the cache of
the field, at constant indices of the other two directions -/
noncomputable def interpX (e : ℝ) (n : Fin 3 → ℕ) (mn mx : Fin 3 → ℝ) (f : Coeff.St ℝ) (X : ℝ) (J K : ℕ) :
    Res (Coeff.St ℝ × ℝ) :=
  (Coeff.make1 n (extremaTr n) f 0).bind fun (f, c) =>
    .ok (f, ∑ i ∈ range (n 0), c (ijk (n 1) (n 2) i J K) * tComb e (n 0) i (toCheb e (mn 0) (mx 0) X))

noncomputable def interpY (e : ℝ) (n : Fin 3 → ℕ) (mn mx : Fin 3 → ℝ) (f : Coeff.St ℝ) (Y : ℝ) (I K : ℕ) :
    Res (Coeff.St ℝ × ℝ) :=
  (Coeff.make1 n (extremaTr n) f 1).bind fun (f, c) =>
    .ok (f, ∑ j ∈ range (n 1), c (ijk (n 1) (n 2) I j K) * tComb e (n 1) j (toCheb e (mn 1) (mx 1) Y))

noncomputable def interpZ (e : ℝ) (n : Fin 3 → ℕ) (mn mx : Fin 3 → ℝ) (f : Coeff.St ℝ) (Z : ℝ) (I J : ℕ) :
    Res (Coeff.St ℝ × ℝ) :=
  (Coeff.make1 n (extremaTr n) f 2).bind fun (f, c) =>
    .ok (f, ∑ k ∈ range (n 2), c (ijk (n 1) (n 2) I J k) * tComb e (n 2) k (toCheb e (mn 2) (mx 2) Z))

/-- interpolations.c:492-511 `interpolation_Chebyshev_Tn_XY` -/
noncomputable def interpXY (e : ℝ) (n : Fin 3 → ℕ) (mn mx : Fin 3 → ℝ) (f : Coeff.St ℝ) (X Y : ℝ) (K : ℕ) :
    Res (Coeff.St ℝ × ℝ) :=
  (Coeff.make2 n (extremaTr n) f 0 1).bind fun (f, c) =>
    .ok (f, ∑ i ∈ range (n 0), ∑ j ∈ range (n 1), c (ijk (n 1) (n 2) i j K) *
      tComb e (n 0) i (toCheb e (mn 0) (mx 0) X) * tComb e (n 1) j (toCheb e (mn 1) (mx 1) Y))

/-- interpolations.c:516-535 `interpolation_Chebyshev_Tn_XZ` -/
noncomputable def interpXZ (e : ℝ) (n : Fin 3 → ℕ) (mn mx : Fin 3 → ℝ) (f : Coeff.St ℝ) (X Z : ℝ) (J : ℕ) :
    Res (Coeff.St ℝ × ℝ) :=
  (Coeff.make2 n (extremaTr n) f 0 2).bind fun (f, c) =>
    .ok (f, ∑ i ∈ range (n 0), ∑ k ∈ range (n 2), c (ijk (n 1) (n 2) i J k) *
      tComb e (n 0) i (toCheb e (mn 0) (mx 0) X) * tComb e (n 2) k (toCheb e (mn 2) (mx 2) Z))

/-- interpolations.c:540-559 `interpolation_Chebyshev_Tn_YZ` -/
noncomputable def interpYZ (e : ℝ) (n : Fin 3 → ℕ) (mn mx : Fin 3 → ℝ) (f : Coeff.St ℝ) (Y Z : ℝ) (I : ℕ) :
    Res (Coeff.St ℝ × ℝ) :=
  (Coeff.make2 n (extremaTr n) f 1 2).bind fun (f, c) =>
    .ok (f, ∑ j ∈ range (n 1), ∑ k ∈ range (n 2), c (ijk (n 1) (n 2) I j k) *
      tComb e (n 1) j (toCheb e (mn 1) (mx 1) Y) * tComb e (n 2) k (toCheb e (mn 2) (mx 2) Z))

/-- interpolations.c:563-592 `interpolation_Chebyshev_Tn_XYZ` -/
noncomputable def interpXYZ (e : ℝ) (n : Fin 3 → ℕ) (mn mx : Fin 3 → ℝ) (f : Coeff.St ℝ) (X Y Z : ℝ) :
    Res (Coeff.St ℝ × ℝ) :=
  (Coeff.make3 n (extremaTr n) f).bind fun (f, c) =>
    .ok (f, ∑ i ∈ range (n 0), ∑ j ∈ range (n 1), ∑ k ∈ range (n 2), c (ijk (n 1) (n 2) i j k) *
      (tComb e (n 0) i (toCheb e (mn 0) (mx 0) X) * tComb e (n 1) j (toCheb e (mn 1) (mx 1) Y)) *
        tComb e (n 2) k (toCheb e (mn 2) (mx 2) Z))

end Elliptica.Cheb
