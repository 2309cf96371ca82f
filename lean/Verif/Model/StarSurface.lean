import Verif.Model.Root
import Verif.Model.Ylm
import Verif.Model.YlmCoeffs
import Verif.Model.Bhf
import Verif.Model.Text
/-!
Model of the search of the surface of a star, Src/Main/Modules/Physics/Star/star_NS_surface.c:680-1001, 1205-1282.  Over `ℝ`;
`e` is ROUND_OFF_ERR.  The bisection is that of Model/Root.lean.
-/
namespace Elliptica.StarSurface
open Root Text

/-- What the search sees in a direction: the point of the present surface relative to the centre (`y2`, star_NS_surface.c:756-770), the direction, and
the function whose root is sought, star_NS_surface.c:961-1001 `NS_surface_enthalpy_root_finder_eq`: the enthalpy less 1 at a displacement along the
direction (-1 in a patch without enthalpy); `interrupt` where no patch has the point (its value is then DBL_MAX).
Simplification: the search of the patch, by angles or by position, and the interpolation are the objects of C38, C40, C41. -/
structure Ray where
  y : Fin 3 → ℝ
  N : Fin 3 → ℝ
  F : ℝ → Eval ℝ

/-- LSS(F,0), star_NS_surface.c:786; comparisons with what is not a number fail -/
noncomputable def below (e : ℝ) : Eval ℝ → Bool
  | .val v => Tol.lss e v 0
  | _ => false

/-- GRT(F,0), star_NS_surface.c:804; DBL_MAX is greater -/
noncomputable def above (e : ℝ) : Eval ℝ → Bool
  | .val v => Tol.grt e v 0
  | .interrupt => true
  | .nan => false

/-- F < 0, star_NS_surface.c:792 -/
noncomputable def negative : Eval ℝ → Bool
  | .val v => decide (v < 0)
  | _ => false

/-- F > 0, star_NS_surface.c:810 -/
noncomputable def positive : Eval ℝ → Bool
  | .val v => decide (v > 0)
  | .interrupt => true
  | .nan => false

/-- star_NS_surface.c:785-791: the lower end, at most `n` more steps inwards -/
noncomputable def shrink (e : ℝ) (F : ℝ → Eval ℝ) : ℕ → ℝ → ℝ
  | 0, a => a
  | n + 1, a => if below e (F a) then shrink e F n (a - 1 / 100) else a

/-- star_NS_surface.c:803-809: the upper end, at most `n` more steps outwards -/
noncomputable def expand (e : ℝ) (F : ℝ → Eval ℝ) : ℕ → ℝ → ℝ
  | 0, b => b
  | n + 1, b => if above e (F b) then expand e F n (b + 1 / 100) else b

/-- how the search in a direction ends -/
inductive Found where
  | interrupted
  /-- the displacement in the solution slot and the residual (`none`: not a number) -/
  | at (x : ℝ) (residual : Option ℝ)

/-- star_NS_surface.c:780-825, one direction; `x0` is the content of the solution slot of the root finder, which is only
written on success (C28).  Where the lower end is in no patch the first turn of the bisection notices the interruption.  The exit status is
only printed (827-833).  An end point where the enthalpy is not a number is outside the model (.ub of Model/Root.lean). -/
noncomputable def direction (e tol : ℝ) (maxIter : ℕ) (F : ℝ → Eval ℝ) (x0 : ℝ) : Res Found :=
  let a := shrink e F 500 0
  if negative (F a) then .ok .interrupted
  else
    let b := expand e F 500 0
    if positive (F b) then .ok .interrupted
    else match F a with
      | .interrupt => .ok .interrupted
      | _ => (bisect e tol F a b x0 1 maxIter).map fun o =>
          if o.status = .interrupted then .interrupted else .at o.x o.residual

/-- what the double loop has gathered: the solution slot, the new radii and the residuals -/
structure Acc where
  slot : ℝ
  R : ℕ → ℝ
  res : ℕ → Option ℝ

/-- star_NS_surface.c:752-850 the loop over the directions (in the order of IJ_Ylm), `none` when it was interrupted.  The slot begins with the zero of
calloc and is kept from direction to direction. -/
noncomputable def scan (e tol : ℝ) (maxIter : ℕ) (rays : ℕ → Ray) : ℕ → Res (Option Acc)
  | 0 => .ok (some ⟨0, fun _ => 0, fun _ => none⟩)
  | n + 1 => (scan e tol maxIter rays n).bind fun s =>
      match s with
      | none => .ok none
      | some s => (direction e tol maxIter (rays n).F s.slot).map fun d =>
          match d with
          | .interrupted => none
          | .at x r =>
            let y2 : Fin 3 → ℝ := fun i => (rays n).y i + (rays n).N i * x
            some ⟨x, fun k => if k = n then Bhf.len y2 else s.R k, fun k => if k = n then r else s.res k⟩

/-- star_NS_surface.c:841-843: the greatest radius, from 0 on -/
noncomputable def maxR (R : ℕ → ℝ) : ℕ → ℝ
  | 0 => 0
  | n + 1 => if R n > maxR R n then R n else maxR R n

/-- star_NS_surface.c:844-846: the least radius, from DBL_MAX on -/
noncomputable def minR (big : ℝ) (R : ℕ → ℝ) : ℕ → ℝ
  | 0 => big
  | n + 1 => if R n < minR big R n then R n else minR big R n

/-- the parameters of the star the search reads and writes -/
structure Par where
  maxRadius : ℝ
  minRadius : ℝ
  perfect : ℝ
  numFail : ℕ
  worked : Bool
  hRes : ℝ

/-- the entry of the characteristics for the next grid: the coefficients of the surface (`none`: the pointers are left as they
were, zero) and the radii -/
structure Shape where
  clm : Option ((ℕ → ℝ) × (ℕ → ℝ))
  rmin : ℝ
  rmax : ℝ
  lmax : ℕ

/-- star_NS_surface.c:891: the norm of the residuals; `none`: one of them is not a number -/
noncomputable def residual (res : ℕ → Option ℝ) (n : ℕ) : Option ℝ :=
  if ∀ k < n, res k ≠ none then some (General.l2Norm n (some fun k => (res k).getD 0) none) else none

/-- star_NS_surface.c:693-957 `find_NS_surface_Ylm_bisect_CS`.  `tab`: the table of the Legendre roots; `rays` gives the direction (theta, phi);
`split`: the grid is of one of the kinds the mass shedding indicator (line 920) accepts; `occupied` as in the assertions; L is
surface_Ylm_max_l, with 2L+1 rows and columns.  The sqrt(RootFinder_Tolerance) of line 704 is only used for printing. -/
noncomputable def bisection (e tol big maxRes : ℝ) (maxIter maxFail L : ℕ) (tab : ℕ → ℕ → ℝ) (rays : ℝ → ℝ → Ray) (split occupied : Bool) (p : Par) :
    Res (Par × Shape) :=
  let Ntheta := 2 * L + 1
  let Nphi := 2 * L + 1
  (scan e tol maxIter (fun n => rays (Ylm.thetaAt (fun i n => tab n i) Ntheta (n / Nphi)) (Ylm.phiAt Nphi (n % Nphi))) (Ntheta * Nphi)).bind fun s =>
  match s with
  | none =>
    if p.numFail + 1 > maxFail then .abort
    else if occupied then .abort
    else .ok ({ p with numFail := p.numFail + 1, worked := false }, ⟨none, p.minRadius, p.maxRadius, L⟩)
  | some s =>
    (Ylm.getCoeffs tab s.R Ntheta Nphi L (fun _ => 0, fun _ => 0)).bind fun c =>
    if occupied then .abort
    else if ¬ split then .abort
    else
      let h := residual s.res (Ntheta * Nphi)
      let lo := minR big s.R (Ntheta * Nphi)
      let hi := maxR s.R (Ntheta * Nphi)
      .ok ({ p with maxRadius := hi, minRadius := lo, hRes := h.getD 0, worked := match h with | some v => !decide (v > maxRes) | none => true },
        ⟨some c, lo, hi, L⟩)

/-- star_NS_surface.c:1225-1262 `find_NS_surface_perfect_s2` -/
noncomputable def perfectS2 (L : ℕ) (tab : ℕ → ℕ → ℝ) (occupied : Bool) (p : Par) : Res (Par × Shape) :=
  (Ylm.getCoeffs tab (fun _ => p.perfect) (2 * L + 1) (2 * L + 1) L (fun _ => 0, fun _ => 0)).bind fun c =>
  if occupied then .abort
  else .ok ({ p with worked := true }, ⟨some c, p.minRadius, p.maxRadius, L⟩)

/-- star_NS_surface.c:1266-1280 `star_start_off_TOV`: `R` is the radius of the TOV star in the isotropic coordinate -/
def startOff (R : ℝ) (p : Par) : Par := { p with perfect := R, minRadius := R, maxRadius := R }

/-- star_NS_surface.c:1205-1222 `star_NS_find_star_surface`; `type` and `finder` are the parameters surface_type and surface_finder -/
noncomputable def findSurface (type finder : Str) (bisection perfect : Res (Par × Shape)) : Res (Par × Shape) :=
  if strcmpI (some type) (some "topology_s2".toList) then
    if strcmpI (some finder) (some "bisection".toList) then bisection else .abort
  else if strcmpI (some type) (some "perfect_s2".toList) then perfect
  else .abort

end Elliptica.StarSurface
