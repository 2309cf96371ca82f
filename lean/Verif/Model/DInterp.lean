import Verif.Model.Jac
/-!
Model of the derivatives of an interpolated field, or of an interpolated derivative of a field, with respect to the field
values: Src/Main/Modules/Maths/Equation_Solvings/dfs_df.c:1006-2034, with the interpolation functions they belong to
(interpolations.c:377-592, Model/Cheb).
-/
namespace Elliptica.DInterp
open Real Finset Elliptica.Index Elliptica.Cheb Elliptica.Deriv Elliptica.Jac

variable (e : ℝ) (p : Patch)

/-- general.c:60-110 `sum_0_N_dCi_dfj_by_Ti_q`; 0 stands for the stop of the program at a point outside [-1,1] -/
noncomputable def getT (n j : ℕ) (x : ℝ) : ℝ :=
  match General.sumT e n j x with
  | .ok v => v
  | _ => 0

/-- coordinate_systems.c:587-605 `General2ChebyshevExtrema`: q[d] -/
noncomputable def q (X : Fin 3 → ℝ) (d : Fin 3) : ℝ := toCheb e (p.mn d) (p.mx d) (X d)

/-- the interpolation function: three dimensional, or in the plane where the index of one direction is `plane`
(interpolations.c:393-416) -/
noncomputable def interp (pl : Option (Fin 3)) (plane : ℕ) (f : Coeff.St ℝ) (X : Fin 3 → ℝ) : Res (Coeff.St ℝ × ℝ) :=
  match pl with
  | none => interpXYZ e p.n p.mn p.mx f (X 0) (X 1) (X 2)
  | some 0 => interpYZ e p.n p.mn p.mx f (X 1) (X 2) plane
  | some 1 => interpXZ e p.n p.mn p.mx f (X 0) (X 2) plane
  | some 2 => interpXY e p.n p.mn p.mx f (X 0) (X 1) plane

/-- dfs_df.c:1303-1324 `dInterp_df_YZ_Tn_Ex`, 1539-1560 `..._XZ_...`, 1777-1797 `..._XY_...`, 2018-2034 `..._XYZ_...` -/
noncomputable def dValue (pl : Option (Fin 3)) (X : Fin 3 → ℝ) (df : ℕ) : ℝ :=
  let t := coords p df
  let T := fun d => getT e (p.n d) (t d) (q e p X d)
  match pl with
  | none => T 0 * T 1 * T 2
  | some 0 => if Tol.eql e (ptv p 0 (t 0)) (X 0) then T 1 * T 2 else 0
  | some 1 => if Tol.eql e (ptv p 1 (t 1)) (X 1) then T 0 * T 2 else 0
  | some 2 => if Tol.eql e (ptv p 2 (t 2)) (X 2) then T 0 * T 1 else 0

/-- one of the loops over r, e.g. dfs_df.c:1119-1131: the derivative along direction o at all points of the line through
the node t -/
noncomputable def lineSum (x : Fin 3) (t : Fin 3 → ℕ) (X : Fin 3 → ℝ) (o : Fin 3) : ℝ :=
  ∑ r ∈ range (p.n o), dNdq1 p o (.x x) (idx p (Function.update t o r)) *
    getDT e (p.n o) (t o) (toCheb e (p.mn o) (p.mx o) (ptv p o r)) * getT e (p.n o) r (q e p X o)

/-- dfs_df.c:1092-1155 `dInterp_x_df_YZ_Tn_Ex` (d = 0, o1 = 1, o2 = 2), and the same with y and z (1162-1295); 1329-1531 for
XZ (1; 0, 2) and 1566-1769 for XY (2; 0, 1) -/
noncomputable def dPlane (x d o1 o2 : Fin 3) (plane : ℕ) (X : Fin 3 → ℝ) (df : ℕ) : ℝ :=
  let t := coords p df
  let T := fun d => getT e (p.n d) (t d) (q e p X d)
  let J := dNdq1 p d (.x x) (idx p (Function.update t d plane))
  (if Tol.eql e J 0 then 0 else J * getDT e (p.n d) (t d) (q e p X d) * T o1 * T o2) +
    if t d = plane then lineSum e p x t X o1 * T o2 + lineSum e p x t X o2 * T o1 else 0

/-- dfs_df.c:1805-1869 `dInterp_x_df_XYZ_Tn_Ex` and the same with y and z (1876-2011) -/
noncomputable def dSpace (x : Fin 3) (X : Fin 3 → ℝ) (df : ℕ) : ℝ :=
  let t := coords p df
  let T := fun d => getT e (p.n d) (t d) (q e p X d)
  lineSum e p x t X 0 * (T 1 * T 2) + lineSum e p x t X 1 * (T 0 * T 2) + lineSum e p x t X 2 * (T 0 * T 1)

/-- the derivative of the interpolated ∂f/∂x -/
noncomputable def dDer (x : Fin 3) (pl : Option (Fin 3)) (plane : ℕ) (X : Fin 3 → ℝ) (df : ℕ) : ℝ :=
  match pl with
  | none => dSpace e p x X df
  | some 0 => dPlane e p x 0 1 2 plane X df
  | some 1 => dPlane e p x 1 0 2 plane X df
  | some 2 => dPlane e p x 2 0 1 plane X df

/-- dfs_df.c:1014-1085 `get_dInterp_df`: which function is returned.  `sf` are the flags sameX, sameY, sameZ of the
subface, if there is one; the result is the plane (none: three dimensions) and the derivative (none: the field itself) -/
def pick (sf : Option (Bool × Bool × Bool)) (dir : String) : Res (Option (Fin 3) × Option (Fin 3)) :=
  if ∀ d : Fin 3, p.basis d = .tn ∧ p.coll d = .extrema then
    let pl : Option (Fin 3) := match sf with
      | none => none
      | some (true, _, _) => some 0
      | some (_, true, _) => some 1
      | some (_, _, true) => some 2
      | some (false, false, false) => none
    if dir = "x derivative" then .ok (pl, some 0)
    else if dir = "y derivative" then .ok (pl, some 1)
    else if dir = "z derivative" then .ok (pl, some 2)
    else if dir = "none" then .ok (pl, none)
    else .abort
  else .abort

/-- the function returned by `pick`, applied as (patch, X, df, plane) -/
noncomputable def dInterp (c : Option (Fin 3) × Option (Fin 3)) (X : Fin 3 → ℝ) (df plane : ℕ) : ℝ :=
  match c.2 with
  | none => dValue e p c.1 X df
  | some x => dDer e p x c.1 plane X df

end Elliptica.DInterp
