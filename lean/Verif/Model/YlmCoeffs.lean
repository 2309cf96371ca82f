import Verif.Model.Integration
/-!
Model of `get_Ylm_coeffs`, Src/Main/Modules/Maths/Spectral_Methods/spherical_harmonics_transformation.c:27-124 and 257-266:
the coefficients of a function sampled at the Gauss-Legendre rows and equally spaced columns.  Over ℝ and ℂ, exact
arithmetic; the table of Legendre roots is a parameter.
-/
namespace Elliptica.Ylm
open Complex

/-- spherical_harmonics_transformation.c:257-266 `integrate_expImphi` -/
noncomputable def expImphi (f : ℕ → ℝ) (n : ℕ) (m : ℤ) : ℂ :=
  (∑ i ∈ Finset.range n, (f i : ℂ) * cexp (m * (2 * I * Real.pi / n) * i)) * (2 * Real.pi / n)

/-- lines 105-109: the loop over the rows; `y i` = Ylm(l,m,theta[i],0), of which the real part is used -/
noncomputable def rows (y : ℕ → Res ℂ) : ℕ → Res (ℕ → ℝ)
  | 0 => .ok fun _ => 0
  | n + 1 => (rows y n).bind fun g => (y n).bind fun z => .ok fun i => if i = n then z.re else g i

/-- lines 105-113, the numbers stored for (l,m): the rows are multiplied by Ylm(l,m,theta,0) and integrated over theta by the
Gauss-Legendre rule; `v i` = v[m][i] -/
noncomputable def thetaPart (tab : ℕ → ℕ → ℝ) (Ntheta l m : ℕ) (v : ℕ → ℂ) : Res (ℝ × ℝ) :=
  (rows (fun i => ylm l m (thetaAt (fun i n => tab n i) Ntheta i) 0) Ntheta).bind fun y =>
  (Integ.gqLegendre tab Ntheta (fun i => y i * (v i).re)).bind fun a =>
  (Integ.gqLegendre tab Ntheta (fun i => y i * (v i).im)).bind fun b => .ok (a, b)

/-- lines 104, 110-113: one (l,m) of the loops -/
noncomputable def coeffStep (tab : ℕ → ℕ → ℝ) (f : ℕ → ℝ) (Ntheta Nphi : ℕ) (l : ℕ) (a : (ℕ → ℝ) × (ℕ → ℝ)) (m : ℕ) :
    Res ((ℕ → ℝ) × (ℕ → ℝ)) :=
  (thetaPart tab Ntheta l m (fun i => expImphi (fun j => f (j + i * Nphi)) Nphi (-m))).bind fun c =>
    .ok (fun q => if q = lm2n l m then c.1 else a.1 q, fun q => if q = lm2n l m then c.2 else a.2 q)

/-- lines 27-124 `get_Ylm_coeffs`: the arrays realClm, imagClm after the call, `a` before it.  The table stops the program
for more than 99 rows (line 74), the quadrature for no rows; without columns the quotients 0/0 are not numbers. -/
noncomputable def getCoeffs (tab : ℕ → ℕ → ℝ) (f : ℕ → ℝ) (Ntheta Nphi L : ℕ) (a : (ℕ → ℝ) × (ℕ → ℝ)) :
    Res ((ℕ → ℝ) × (ℕ → ℝ)) :=
  if Ntheta = 0 ∨ Ntheta ≥ 100 then .abort
  else if Nphi = 0 then .ub
  else
    (List.range (L + 1)).foldl (fun (s : Res ((ℕ → ℝ) × (ℕ → ℝ))) l =>
      (List.range (l + 1)).foldl (fun (s : Res ((ℕ → ℝ) × (ℕ → ℝ))) m => s.bind (coeffStep tab f Ntheta Nphi l · m)) s) (.ok a)

end Elliptica.Ylm
