import Verif.Model.Common
import Verif.Model.General
import Mathlib.Analysis.SpecialFunctions.Trigonometric.Basic
import Mathlib.Analysis.SpecialFunctions.Complex.Log
/-!
Model of the Fourier transformations of Src/Main/Modules/Maths/Spectral_Methods/fourier_transformation.c:74-670 over ℝ and ℂ
(`double` is exact, cexp and M_PI are the mathematical ones).  Arrays are functions on ℕ of which only the entries in
range are read.  Simplification: sizes fit an unsigned int.
-/
namespace Elliptica.Fourier
open Finset Complex

/-- fourier_transformation.c:88-112 `r2cft_1d_EquiSpaced_coeffs`, entry m -/
noncomputable def coeff (n : ℕ) (f : ℕ → ℝ) (m : ℕ) : ℂ :=
  (∑ i ∈ range n, (f i : ℂ) * cexp (m * i * (-2 * I * Real.pi / n))) / n

/-- fourier_transformation.c:88-112 `r2cft_1d_EquiSpaced_coeffs`: the coefficients 0..n/2; no points stop the program -/
noncomputable def r2c (n : ℕ) (f : ℕ → ℝ) : Res (ℕ → ℂ) := if n = 0 then .abort else .ok (coeff n f)

/-- fourier_transformation.c:119-142 `c2rft_1d_EquiSpaced_values`, entry i -/
noncomputable def value (N : ℕ) (c : ℕ → ℂ) (i : ℕ) : ℝ :=
  (c 0).re + ∑ j ∈ Ico 1 (N / 2 + 1), 2 * (c j * cexp (j * (i * (2 * I * Real.pi / N)))).re

/-- fourier_transformation.c:119-142 `c2rft_1d_EquiSpaced_values` -/
noncomputable def c2r (N : ℕ) (c : ℕ → ℂ) : Res (ℕ → ℝ) := if N = 0 then .abort else .ok (value N c)

/-! ### two dimensions -/

/-- fourier_transformation.h:5 IJ(i,j,n) -/
def ij (n i j : ℕ) : ℕ := j + i * n

/-- fourier_transformation.c:411-428 the transformation in the second index: cfr[i][m1] + i cfi[i][m1] -/
noncomputable def rowCoeff (N1 : ℕ) (f : ℕ → ℝ) (i m1 : ℕ) : ℂ :=
  let cf := (∑ j ∈ range N1, (f (ij N1 i j) : ℂ) * cexp (j * (m1 * (-2 * I * Real.pi / N1)))) / N1
  if m1 = 0 then cf / 2 else cf

/-- fourier_transformation.c:430-460 the transformation of one component in the first index -/
noncomputable def colCoeff (N0 : ℕ) (g : ℕ → ℝ) (m0 : ℕ) : ℂ :=
  let c := (∑ i ∈ range N0, (g i : ℂ) * cexp (i * (m0 * (-2 * I * Real.pi / N0)))) / N0
  if m0 = 0 then c / 2 else c

/-- fourier_transformation.c:384-486 `r2cft_2d_coeffs`: the arrays (realC, imagC), each of length 2 l0 l1; the first half
belongs to the real parts of the row coefficients and the second half to the imaginary ones -/
noncomputable def r2c2 (N0 N1 : ℕ) (f : ℕ → ℝ) : (ℕ → ℝ) × (ℕ → ℝ) :=
  let l1 := N1 / 2 + 1
  let l0l1 := (N0 / 2 + 1) * l1
  let c (q : ℕ) : ℂ :=
    if q < l0l1 then colCoeff N0 (fun i => (rowCoeff N1 f i (q % l1)).re) (q / l1)
    else colCoeff N0 (fun i => (rowCoeff N1 f i ((q - l0l1) % l1)).im) ((q - l0l1) / l1)
  (fun q => (c q).re, fun q => (c q).im)

/-- the two summands of fourier_transformation.c:532-537, 605-610, 656-661, without the exponentials:
the factors of exp(i(m0 phi0 + m1 phi1)) and exp(i(m0 phi0 - m1 phi1)) -/
noncomputable def amp (C : (ℕ → ℝ) × (ℕ → ℝ)) (N0 N1 m0 m1 : ℕ) : ℂ × ℂ :=
  let l1 := N1 / 2 + 1
  let l0l1 := (N0 / 2 + 1) * l1
  let q := ij l1 m0 m1
  (C.1 q - C.2 (l0l1 + q) + I * (C.2 q + C.1 (l0l1 + q)), C.1 q + C.2 (l0l1 + q) + I * (C.2 q - C.1 (l0l1 + q)))

/-- fourier_transformation.c:507-541 `r2cft_2d_interpolation` -/
noncomputable def interp2 (C : (ℕ → ℝ) × (ℕ → ℝ)) (N0 N1 : ℕ) (phi0 phi1 : ℝ) : ℝ :=
  2 * (∑ m0 ∈ range (N0 / 2 + 1), ∑ m1 ∈ range (N1 / 2 + 1),
    ((amp C N0 N1 m0 m1).1 * cexp (I * (m0 * phi0 + m1 * phi1)) +
     (amp C N0 N1 m0 m1).2 * cexp (I * (m0 * phi0 - m1 * phi1)))).re

/-- fourier_transformation.c:571-618 `r2cft_2d_df_dphi0`, entry (i,j) -/
noncomputable def dphi0 (C : (ℕ → ℝ) × (ℕ → ℝ)) (N0 N1 i j : ℕ) : ℝ :=
  let phi0 : ℝ := i * (2 * Real.pi / N0)
  let phi1 : ℝ := j * (2 * Real.pi / N1)
  2 * (∑ m0 ∈ range (N0 / 2 + 1), ∑ m1 ∈ range (N1 / 2 + 1),
    (I * m0 * (amp C N0 N1 m0 m1).1 * cexp (I * m0 * phi0) * cexp (I * m1 * phi1) +
     I * m0 * (amp C N0 N1 m0 m1).2 * cexp (I * m0 * phi0) * cexp (-I * m1 * phi1))).re

/-- fourier_transformation.c:622-669 `r2cft_2d_df_dphi1`, entry (i,j) -/
noncomputable def dphi1 (C : (ℕ → ℝ) × (ℕ → ℝ)) (N0 N1 i j : ℕ) : ℝ :=
  let phi0 : ℝ := i * (2 * Real.pi / N0)
  let phi1 : ℝ := j * (2 * Real.pi / N1)
  2 * (∑ m1 ∈ range (N1 / 2 + 1), ∑ m0 ∈ range (N0 / 2 + 1),
    (I * m1 * (amp C N0 N1 m0 m1).1 * cexp (I * m0 * phi0) * cexp (I * m1 * phi1) +
     -(I * m1) * (amp C N0 N1 m0 m1).2 * cexp (I * m0 * phi0) / cexp (I * m1 * phi1))).re

/-! ### the sphere -/

/-- fourier_transformation.c:202-226 the continuation to the other half of the great circles: rows Ntheta-1..2(Ntheta-1)-1
are the rows of the antipodal meridians, backwards -/
def extend (T Nphi : ℕ) (f : ℕ → ℝ) (q : ℕ) : ℝ :=
  let i := q / Nphi
  let j := q % Nphi
  if i < T then f (ij Nphi i j) else f (ij Nphi (2 * T - i) ((j + Nphi / 2) % Nphi))

/-- fourier_transformation.c:181-272 `r2cft_2d_coeffs_S2` with improve = 0; an odd number of points in phi stops the
program; one point in theta is not modelled (the transformation of an empty array) -/
noncomputable def coeffsS2 (Ntheta Nphi : ℕ) (f : ℕ → ℝ) : Res ((ℕ → ℝ) × (ℕ → ℝ)) :=
  if Nphi % 2 ≠ 0 then .abort else .ok (r2c2 (2 * (Ntheta - 1)) Nphi (extend (Ntheta - 1) Nphi f))

/-- fourier_transformation.c:490-501 `r2cft_2d_interpolation_S2` -/
noncomputable def interpS2 (C : (ℕ → ℝ) × (ℕ → ℝ)) (Ntheta Nphi : ℕ) (theta phi : ℝ) : ℝ :=
  interp2 C (2 * (Ntheta - 1)) Nphi theta phi

end Elliptica.Fourier
