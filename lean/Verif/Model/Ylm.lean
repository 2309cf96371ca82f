import Verif.Model.Common
import Mathlib.Analysis.SpecialFunctions.Trigonometric.Basic
import Mathlib.Analysis.SpecialFunctions.Trigonometric.Inverse
/-!
Model of Src/Main/Modules/Maths/Special_Functions/spherical_harmonics.c and of
Src/Main/Modules/Maths/Spectral_Methods/spherical_harmonics_transformation.c:124-279 over ℝ and ℂ
(`double` is exact; sqrt, cos, acos, cexp and M_PI are the mathematical ones).  Coefficient arrays are functions on ℕ of
which only the entries in range are read.  Simplification: the integer expressions fit an int; a result that is not a number
in C is the outcome `ub`.
-/
namespace Elliptica.Ylm
open Complex

/-- spherical_harmonics.c:62-72: the loop of P^m_m with `n` rounds left -/
noncomputable def pmmLoop (s : ℝ) : ℕ → ℝ → ℝ → ℝ
  | 0, pmm, _ => pmm
  | n + 1, pmm, fact => pmmLoop s n (pmm * (-fact * s)) (fact + 2)

/-- spherical_harmonics.c:90-95: the loop over ll with `n` rounds left, from the pair (pmm, pmmp1); the result is pmmp1,
which is pll after at least one round -/
noncomputable def llLoop (x : ℝ) (m : ℤ) : ℕ → ℤ → ℝ → ℝ → ℝ
  | 0, _, _, pmmp1 => pmmp1
  | n + 1, ll, pmm, pmmp1 =>
    llLoop x m n (ll + 1) pmmp1 ((x * ((2 * ll - 1 : ℤ) : ℝ) * pmmp1 - ((ll + m - 1 : ℤ) : ℝ) * pmm) / ((ll - m : ℤ) : ℝ))

/-- spherical_harmonics.c:43-100 `associated_legendre` -/
noncomputable def assocLegendre (l m : ℤ) (x : ℝ) : Res ℝ :=
  if x > 1 ∨ x < -1 then .abort
  else if m < 0 ∨ m > l then .abort
  else
    let pmm := if m ≥ 1 then pmmLoop √((1 - x) * (1 + x)) m.toNat 1 1 else 1
    if l = m then .ok pmm
    else
      let pmmp1 := x * ((2 * m + 1 : ℤ) : ℝ) * pmm
      .ok (llLoop x m (l - (m + 1)).toNat (m + 2) pmm pmmp1)

/-- spherical_harmonics.c:9-39 `d_associated_legendre_dtheta`; the quotient of integers in the case m = 0 is C's -/
noncomputable def dAssocLegendre (l m : ℤ) (x : ℝ) : Res ℝ :=
  if l = 0 then .ok 0
  else if m = l then
    (assocLegendre l (m - 1) x).bind fun p => .ok (-(((l + m) * (l - m + 1) : ℤ) * p) * (1 / 2))
  else if m = 0 then
    (assocLegendre l 1 x).bind fun p => .ok (-(((-(1 + ((l + m) * (l - m + 1)).tdiv (l * (l + 1))) : ℤ) : ℝ) * p) * (1 / 2))
  else
    (assocLegendre l (m - 1) x).bind fun p =>
    (assocLegendre l (m + 1) x).bind fun q => .ok (-((((l + m) * (l - m + 1) : ℤ) : ℝ) * p - q) * (1 / 2))

/-- spherical_harmonics.c:126-130, 183-187: the loop of the normalization factor with `n` rounds left; none where C divides by zero
or takes the root of a negative number -/
noncomputable def factorLoop (lpm : ℤ) : ℕ → ℤ → ℝ → Option ℝ
  | 0, _, f => some f
  | n + 1, i, f => if lpm - i ≤ 0 then none else factorLoop lpm n (i + 1) (f / √((lpm - i : ℤ) : ℝ))

/-- spherical_harmonics.c:116-131: the normalization factor -/
noncomputable def factor (l m : ℤ) : Option ℝ :=
  let pm := if m ≥ 0 then m else -m
  (factorLoop (l + pm) (2 * pm).toNat 0 1).map fun f => f * (1 / 2 * √(((2 * l + 1 : ℤ) : ℝ) / Real.pi))

/-- spherical_harmonics.c:104-150 `Ylm` and 167-215 `dYlm_dtheta`, which differ in the function of cos(theta) -/
noncomputable def ylmWith (leg : ℤ → ℤ → ℝ → Res ℝ) (l m : ℤ) (theta phi : ℝ) : Res ℂ :=
  if theta > Real.pi ∨ theta < 0 then .abort
  else if phi > 2 * Real.pi ∨ phi < 0 then .abort
  else if m ≥ 0 then
    (leg l m (Real.cos theta)).bind fun p =>
    match factor l m with
    | some f => .ok (f * p * cexp (I * m * phi))
    | none => .ub
  else
    let mp := -m
    let sign : ℝ := if mp % 2 = 0 then 1 else -1
    (leg l mp (Real.cos theta)).bind fun p =>
    match factor l m with
    | some f => .ok (sign * f * p * cexp (I * m * phi))
    | none => .ub

/-- spherical_harmonics.c:104-150 `Ylm` -/
noncomputable def ylm : ℤ → ℤ → ℝ → ℝ → Res ℂ := ylmWith assocLegendre

/-- spherical_harmonics.c:153-163 `dYlm_dphi` -/
noncomputable def dylmDphi (l m : ℤ) (theta phi : ℝ) : Res ℂ := (ylm l m theta phi).bind fun y => .ok (I * m * y)

/-- spherical_harmonics.c:167-215 `dYlm_dtheta` -/
noncomputable def dylmDtheta : ℤ → ℤ → ℝ → ℝ → Res ℂ := ylmWith dAssocLegendre

/-! ### expansions -/

/-- spherical_harmonics_transformation.c:252-255 `lm2n` -/
def lm2n (l m : ℕ) : ℕ := l * (l + 1) / 2 + m

/-- spherical_harmonics_transformation.c:273-279 `alloc_ClmYlm`: number of coefficients -/
def numClm (L : ℕ) : ℕ := (L + 1) * L / 2 + L + 1

/-- spherical_harmonics_transformation.c:229-235 `lm2n_Ylm` -/
def lm2nYlm (l m lmax : ℤ) : Res ℤ :=
  if ¬ (m.natAbs : ℤ) ≤ l then .abort
  else
    let i := if m ≥ 0 then lmax - l else lmax - l - m
    let j := if m ≤ 0 then lmax - l else lmax - l + m
    .ok (j + (lmax + 1) * i)

/-- spherical_harmonics_transformation.c:238-245 `n2lm_Ylm` -/
def n2lmYlm (n lmax : ℤ) : ℤ × ℤ :=
  let j := n.tmod (lmax + 1)
  let i := (n - j).tdiv (lmax + 1)
  let m := j - i
  (if m ≥ 0 then lmax - i else lmax - j, m)

/-- a sum of n terms computed one after the other -/
noncomputable def resSum (f : ℕ → Res ℂ) : ℕ → Res ℂ
  | 0 => .ok 0
  | n + 1 => (resSum f n).bind fun s => (f n).bind fun t => .ok (s + t)

/-- spherical_harmonics_transformation.c:134-146 (and 173-181, 212-220): the terms of m and -m for m >= 1 -/
noncomputable def pairTerm (Y : ℤ → ℤ → ℝ → ℝ → Res ℂ) (re im : ℕ → ℝ) (l m : ℕ) (theta phi : ℝ) : Res ℂ :=
  let lm := lm2n l m
  (Y l m theta phi).bind fun y1 =>
  (Y l (-m) theta phi).bind fun y2 =>
  .ok ((re lm + I * im lm) * y1 + (if m % 2 = 0 then 1 else -1) * (re lm - I * im lm) * y2)

/-- spherical_harmonics_transformation.c:128-149 `interpolation_Ylm`: the sum with the function Y -/
noncomputable def sumY (Y : ℤ → ℤ → ℝ → ℝ → Res ℂ) (zero : Bool) (re im : ℕ → ℝ) (L : ℕ) (theta phi : ℝ) : Res ℂ :=
  resSum (fun l =>
    (resSum (fun k => pairTerm Y re im l (k + 1) theta phi) l).bind fun s =>
    if zero then (Y l 0 theta phi).bind fun y => .ok (s + (re (lm2n l 0) + I * im (lm2n l 0)) * y) else .ok s) (L + 1)

/-- spherical_harmonics_transformation.c:126-149 `interpolation_Ylm` -/
noncomputable def interp (re im : ℕ → ℝ) (L : ℕ) (theta phi : ℝ) : Res ℝ :=
  (sumY ylm true re im L theta phi).bind fun s => .ok s.re

/-- spherical_harmonics_transformation.c:73, 164, 203: theta of row i, from the table of roots of the Legendre polynomials -/
noncomputable def thetaAt (root : ℕ → ℕ → ℝ) (Ntheta i : ℕ) : ℝ := Real.arccos (-root i Ntheta)

/-- spherical_harmonics_transformation.c:167, 206: phi of column j -/
noncomputable def phiAt (Nphi j : ℕ) : ℝ := j * 2 * Real.pi / Nphi

/-- spherical_harmonics_transformation.c:153-190 `df_dphi_Ylm`: the entry q = j + i*Nphi of the array; the terms m = 0 are
commented out -/
noncomputable def dfDphi (root : ℕ → ℕ → ℝ) (re im : ℕ → ℝ) (Ntheta Nphi L q : ℕ) : Res ℝ :=
  (sumY dylmDphi false re im L (thetaAt root Ntheta (q / Nphi)) (phiAt Nphi (q % Nphi))).bind fun s => .ok s.re

/-- spherical_harmonics_transformation.c:192-226 `df_dtheta_Ylm`: the entry q = j + i*Nphi of the array -/
noncomputable def dfDtheta (root : ℕ → ℕ → ℝ) (re im : ℕ → ℝ) (Ntheta Nphi L q : ℕ) : Res ℝ :=
  (sumY dylmDtheta true re im L (thetaAt root Ntheta (q / Nphi)) (phiAt Nphi (q % Nphi))).bind fun s => .ok s.re

end Elliptica.Ylm
