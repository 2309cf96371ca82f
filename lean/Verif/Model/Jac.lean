import Verif.Model.Deriv
import Verif.Model.General
/-!
Model of the Jacobian of the spectral derivatives: Src/Main/Modules/Maths/Equation_Solvings/dfs_df.c:377-463, 593-741,
2100-2135, 2275-2665, dfs_df.h:20-130, 175-330, the workspace macros of
Src/Main/Modules/Includes/maths_equation_solvings_lib.h:60-103, 241-253 and coordinate_systems.c:78-113, over `ℝ`.
`e` is ROUND_OFF_ERR; M_PI is π and J2M_PI is 2π; `Uint` is `Nat`.
-/
namespace Elliptica.Jac
open Real Finset Elliptica.Index Elliptica.Cheb Elliptica.Deriv

variable (e : ℝ) (p : Patch)

/-! ### closed forms -/

/-- dfs_df.h:73-80 `Jd_dlambda_sum_0_N_cos_nlambda` -/
noncomputable def d1 (N0 lam : ℝ) : ℝ :=
  if Tol.eql e lam 0 || Tol.eql e lam (2 * π) then 0
  else (1 / sin (0.5 * lam)) * (2 * N0 * cos (lam * N0) - (1 / tan (0.5 * lam)) * sin (lam * N0)) * 0.25

/-- dfs_df.h:84-92 `Jd2_dlambda2_sum_0_N_cos_nlambda` -/
noncomputable def d2 (N : ℕ) (N0 lam : ℝ) : ℝ :=
  if Tol.eql e lam 0 || Tol.eql e lam (2 * π) then -((N : ℝ) ^ 3 / 3 + (N : ℝ) ^ 2 / 2 + N / 6)
  else (1 / sin (0.5 * lam)) * (-4 * N0 * cos (lam * N0) * (1 / tan (0.5 * lam)) +
    (-1 - 4 * N0 ^ 2 + 2 * (1 / sin (0.5 * lam)) ^ 2) * sin (lam * N0)) * 0.125

/-- dfs_df.c:2103-2135 `d_dXi_2xsum_0_N_Tnj_Tni` -/
noncomputable def dXi (thi thj : ℝ) (N : ℕ) : ℝ :=
  let N0 : ℝ := N + 0.5
  if Tol.eql e thi 0 then -2 * d2 e N N0 thj
  else if Tol.eql e thi π then d2 e N N0 (thj + π) + d2 e N N0 (thj - π)
  else (d1 e N0 (thi + thj) + d1 e N0 (thi - thj)) * (-1 / sin thi)

/-- dfs_df.h:34 `Jeta` -/
noncomputable def eta (i n : ℕ) : ℝ := if i = 0 ∨ i = n then 1 else 2

/-- dfs_df.h:37 `Jsign` -/
noncomputable def jsign (i : ℕ) : ℝ := if i % 2 ≠ 0 then -1 else 1

/-- dfs_df.h:31 `JKD` -/
noncomputable def kd (i j : ℕ) : ℝ := if i = j then 1 else 0

/-- dfs_df.h:115-117 `Jd2f_dudX` -/
noncomputable def d2fdudX (thi thj : ℝ) (N j : ℕ) : ℝ := eta j N * (dXi e thi thj N - jsign j * dChebT e N (cos thi))

/-- dfs_df.h:42 `Jtheta` -/
noncomputable def theta (i : ℕ) (X : Fin 3) : ℝ := i * π / ((p.n X : ℝ) - 1)

/-- coordinate_systems.c:89-104 JacobianT->dX_dx[X][x][ijk] -/
noncomputable def dXdx (ijk : ℕ) (X x : Fin 3) : ℝ := jacT p (.a X) (.x x) ijk

/-- coordinate_systems.c:111-113 JacobianT->dN_dX[X] -/
noncomputable def dNdXs (X : Fin 3) : ℝ := dNdq1 p X (.a X) 0

/-- dfs_df.h:125-128 `Jd2f_dudx` -/
noncomputable def d2fdudx (x X : Fin 3) (ijk qi qj : ℕ) : ℝ :=
  0.5 / ((p.n X : ℝ) - 1) * dXdx p ijk X x * dNdXs p X * d2fdudX e (theta p qi X) (theta p qj X) (p.n X - 1) qj

/-- dfs_df.c:2275-2291 `d2f_dxdu_spectral_Jacobian_analytic` -/
noncomputable def d2f (x : Fin 3) (ijk lmn : ℕ) : ℝ :=
  let i := coords p ijk 0
  let j := coords p ijk 1
  let k := coords p ijk 2
  let l := coords p lmn 0
  let m := coords p lmn 1
  let n := coords p lmn 2
  d2fdudx e p x 0 ijk i l * kd j m * kd k n + d2fdudx e p x 1 ijk j m * kd i l * kd k n +
    d2fdudx e p x 2 ijk k n * kd i l * kd j m

/-- dfs_df.c:2349-2357, 2507-2515: the two axes of 0 = (x,x), 1 = (x,y), 2 = (x,z), 3 = (y,y), 4 = (y,z), 5 = (z,z) -/
def axes (dxdy : ℕ) : ℕ × ℕ := if dxdy = 5 then (2, 2) else (dxdy / 3, dxdy / 3 + dxdy % 3)

/-- an axis as an index of an array of three; the program reads outside the array for other values (dxdy > 5) -/
def ax (i : ℕ) : Fin 3 := if i = 0 then 0 else if i = 1 then 1 else 2

/-- dfs_df.c:2493-2573 `d3f_dxdydu_spectral_Jacobian_analytic` -/
noncomputable def d3f (dxdy ijk lmn : ℕ) : ℝ :=
  let x := ax (axes dxdy).1
  let y := ax (axes dxdy).2
  let i := coords p ijk 0
  let j := coords p ijk 1
  let k := coords p ijk 2
  let l := coords p lmn 0
  let m := coords p lmn 1
  let n := coords p lmn 2
  let at3 := Index.ijk (p.n 1) (p.n 2)
  let s0 := ∑ lp ∈ range (p.n 0), d2fdudx e p x 0 (at3 lp m n) lp l * d2fdudx e p y 0 ijk i lp
  let s1 := ∑ mp ∈ range (p.n 1), d2fdudx e p x 1 (at3 l mp n) mp m * d2fdudx e p y 1 ijk j mp
  let s2 := ∑ np ∈ range (p.n 2), d2fdudx e p x 2 (at3 l m np) np n * d2fdudx e p y 2 ijk k np
  s0 * kd j m * kd k n +
    d2fdudx e p x 0 (at3 i m n) i l * (kd k n * d2fdudx e p y 1 ijk j m + kd j m * d2fdudx e p y 2 ijk k n) +
  s1 * kd i l * kd k n +
    d2fdudx e p x 1 (at3 l j n) j m * (kd k n * d2fdudx e p y 0 ijk i l + kd i l * d2fdudx e p y 2 ijk k n) +
  s2 * kd i l * kd j m +
    d2fdudx e p x 2 (at3 l m k) k n * (kd i l * d2fdudx e p y 1 ijk j m + kd j m * d2fdudx e p y 0 ijk i l)

/-! ### the workspace and the optimised functions (the ones compiled in by default) -/

/-- maths_equation_solvings_lib.h:415-460 the constant part of the workspace -/
structure Work where
  nm1 : Fin 3 → ℕ
  piONm1 : Fin 3 → ℝ
  norm : Fin 3 → ℝ
  N0 : Fin 3 → ℝ
  c1d2 : Fin 3 → ℝ
  c2d2 : Fin 3 → ℝ
  dT : Fin 3 → ℕ → ℝ

/-- dfs_df.c:2588-2665 `set_Solving_Man_jacobian_workspace` (the constants of the fourth derivative, which nothing uses,
are left out; `Uint` powers are assumed not to wrap) -/
noncomputable def setWork : Work where
  nm1 := fun X => p.n X - 1
  piONm1 := fun X => π / (p.n X - 1 : ℕ)
  norm := fun X => 0.5 / (p.n X - 1 : ℕ)
  N0 := fun X => 0.5 + (p.n X - 1 : ℕ)
  c1d2 := fun X => -(((p.n X - 1 : ℕ) : ℝ) ^ 3 / 3 + ((p.n X - 1 : ℕ) : ℝ) ^ 2 / 2 + ((p.n X - 1 : ℕ) : ℝ) / 6)
  c2d2 := fun X => -1 - 4 * (0.5 + ((p.n X - 1 : ℕ) : ℝ)) ^ 2
  dT := fun X ijk => dChebT e (p.n X - 1) (cos (coords p ijk X * (π / (p.n X - 1 : ℕ))))

/-- the part that the macros set -/
structure Pts where
  ijk : ℕ
  i : ℕ
  j : ℕ
  k : ℕ
  lmn : ℕ
  l : ℕ
  m : ℕ
  n : ℕ
  imn : ℕ
  ljn : ℕ
  lmk : ℕ
  kd : ℕ

/-- maths_equation_solvings_lib.h:79-81 `Workspace_ijk_Jacobian` -/
def wsIjk (ijk : ℕ) (w : Pts) : Pts :=
  { w with ijk := ijk, i := coords p ijk 0, j := coords p ijk 1, k := coords p ijk 2 }

/-- maths_equation_solvings_lib.h:91-101 `Workspace_lmn_Jacobian`, with the flags of 241-253 -/
def wsLmn (lmn : ℕ) (w : Pts) : Pts :=
  let l := coords p lmn 0
  let m := coords p lmn 1
  let n := coords p lmn 2
  { w with
    lmn := lmn
    l := l
    m := m
    n := n
    imn := Index.ijk (p.n 1) (p.n 2) w.i m n
    ljn := Index.ijk (p.n 1) (p.n 2) l w.j n
    lmk := Index.ijk (p.n 1) (p.n 2) l m w.k
    kd := (if w.i = l then 1 else 0) * 1 + (if w.j = m then 1 else 0) * 2 + (if w.k = n then 1 else 0) * 4 }

/-- dfs_df.h:178-188 `Jd_dlambda_sum_0_N_cos_nlambda_opt`, with csc and cot as computed in 255-318 -/
noncomputable def d1o (N0 lam : ℝ) : ℝ :=
  let csc := 1 / sin (0.5 * lam)
  let cot := cos (0.5 * lam) / sin (0.5 * lam)
  if Tol.eql e lam 0 || Tol.eql e lam (2 * π) then 0
  else csc * (2 * N0 * cos (lam * N0) - cot * sin (lam * N0)) * 0.25

/-- dfs_df.h:192-201 `Jd2_dlambda2_sum_0_N_cos_nlambda_opt` -/
noncomputable def d2o (W : Work) (X : Fin 3) (lam : ℝ) : ℝ :=
  let csc := 1 / sin (0.5 * lam)
  let cot := cos (0.5 * lam) / sin (0.5 * lam)
  if Tol.eql e lam 0 || Tol.eql e lam (2 * π) then W.c1d2 X
  else csc * (-4 * W.N0 X * cos (lam * W.N0 X) * cot + (W.c2d2 X + 2 * csc ^ 2) * sin (lam * W.N0 X)) * 0.125

/-- dfs_df.h:255-318 `d_dXi_2xsum_0_N_Tnj_Tni_opt` -/
noncomputable def dXiO (W : Work) (thi thj : ℝ) (X : Fin 3) : ℝ :=
  if Tol.eql e thi 0 then -2 * d2o e W X thj
  else if Tol.eql e thi π then d2o e W X (thj + π) + d2o e W X (thj - π)
  else (d1o e (W.N0 X) (thi + thj) + d1o e (W.N0 X) (thi - thj)) * (-1 / sin thi)

/-- dfs_df.h:220-222, 230-232 `Jd2f_dudx_opt` -/
noncomputable def d2fdudxO (W : Work) (x X : Fin 3) (ijk qi qj : ℕ) : ℝ :=
  W.norm X * dXdx p ijk X x * dNdXs p X *
    (eta qj (W.nm1 X) * (dXiO e W (qi * W.piONm1 X) (qj * W.piONm1 X) X - jsign qj * W.dT X ijk))

/-- dfs_df.c:2296-2333 `d2f_dxdu_optimized_spectral_Jacobian_analytic` -/
noncomputable def d2fO (W : Work) (w : Pts) (x : Fin 3) : ℝ :=
  let D := d2fdudxO e p W x
  match w.kd with
  | 0 => 0
  | 1 => 0
  | 2 => 0
  | 4 => 0
  | 3 => D 2 w.ijk w.k w.n
  | 5 => D 1 w.ijk w.j w.m
  | 6 => D 0 w.ijk w.i w.l
  | _ => D 0 w.ijk w.i w.l + D 1 w.ijk w.j w.m + D 2 w.ijk w.k w.n

/-- dfs_df.c:2336-2490 `d3f_dxdydu_optimized_spectral_Jacobian_analytic` -/
noncomputable def d3fO (W : Work) (w : Pts) (dxdy : ℕ) : ℝ :=
  let A := d2fdudxO e p W (ax (axes dxdy).1)
  let B := d2fdudxO e p W (ax (axes dxdy).2)
  let at3 := Index.ijk (p.n 1) (p.n 2)
  let s0 := ∑ lp ∈ range (p.n 0), A 0 (at3 lp w.m w.n) lp w.l * B 0 w.ijk w.i lp
  let s1 := ∑ mp ∈ range (p.n 1), A 1 (at3 w.l mp w.n) mp w.m * B 1 w.ijk w.j mp
  let s2 := ∑ np ∈ range (p.n 2), A 2 (at3 w.l w.m np) np w.n * B 2 w.ijk w.k np
  match w.kd with
  | 0 => 0
  | 1 => A 1 w.ljn w.j w.m * B 2 w.ijk w.k w.n + A 2 w.lmk w.k w.n * B 1 w.ijk w.j w.m
  | 2 => A 0 w.imn w.i w.l * B 2 w.ijk w.k w.n + A 2 w.lmk w.k w.n * B 0 w.ijk w.i w.l
  | 4 => A 0 w.imn w.i w.l * B 1 w.ijk w.j w.m + A 1 w.ljn w.j w.m * B 0 w.ijk w.i w.l
  | 3 => s2 + (A 0 w.imn w.i w.l * B 2 w.ijk w.k w.n + A 1 w.ljn w.j w.m * B 2 w.ijk w.k w.n +
      A 2 w.lmk w.k w.n * (B 1 w.ijk w.j w.m + B 0 w.ijk w.i w.l))
  | 5 => s1 + (A 0 w.imn w.i w.l * B 1 w.ijk w.j w.m +
      A 1 w.ljn w.j w.m * (B 0 w.ijk w.i w.l + B 2 w.ijk w.k w.n) + A 2 w.lmk w.k w.n * B 1 w.ijk w.j w.m)
  | 6 => s0 + (A 0 w.imn w.i w.l * (B 1 w.ijk w.j w.m + B 2 w.ijk w.k w.n) +
      A 1 w.ljn w.j w.m * B 0 w.ijk w.i w.l + A 2 w.lmk w.k w.n * B 0 w.ijk w.i w.l)
  | _ => s0 + s1 + s2 + (A 0 w.imn w.i w.l * (B 1 w.ijk w.j w.m + B 2 w.ijk w.k w.n) +
      A 1 w.ljn w.j w.m * (B 0 w.ijk w.i w.l + B 2 w.ijk w.k w.n) +
      A 2 w.lmk w.k w.n * (B 1 w.ijk w.j w.m + B 0 w.ijk w.i w.l))

/-- maths_equation_solvings_lib.h:68-81: what an equation reads as `d2f_dxdu_Jacobian(patch,x,ijk,lmn,...)` after
`Header_Jacobian`, `Workspace_ijk_Jacobian(ijk)` and `Workspace_lmn_Jacobian(lmn)`; `w` is whatever the workspace held -/
noncomputable def entry1 (w : Pts) (x : Fin 3) (ijk lmn : ℕ) : ℝ :=
  d2fO e p (setWork e p) (wsLmn p lmn (wsIjk p ijk w)) x

/-- the same for `d3f_dx2du_Jacobian(patch,dxdy,ijk,lmn,...)` -/
noncomputable def entry2 (w : Pts) (dxdy ijk lmn : ℕ) : ℝ :=
  d3fO e p (setWork e p) (wsLmn p lmn (wsIjk p ijk w)) dxdy

/-! ### the matrix form (compiled in with SAVE_JACOBIAN) -/

/-- number of points of the patch -/
def nn : ℕ := p.n 0 * p.n 1 * p.n 2

/-- general.c:114-153 `sum_0_N_dCi_dfj_by_dTi_dq`; it stops the program only for an index or a point out of range, which
does not happen in `fillLine` -/
noncomputable def getDT (n j : ℕ) (x : ℝ) : ℝ :=
  match General.sumDT e n j x with
  | .ok v => v
  | _ => 0

/-- `J[r][c] += v` -/
def addAt (J : ℕ → ℕ → ℝ) (r c : ℕ) (v : ℝ) : ℕ → ℕ → ℝ := fun a b => if a = r ∧ b = c then J a b + v else J a b

/-- dfs_df.c:612-629: one of the three blocks of the body of the loop over ijk; `ChebExtrema_1point` is
misc_functions.c: cos(i π/(n-1)) -/
noncomputable def fillLine (x : Fin 3) (ijk : ℕ) (X : Fin 3) (J : ℕ → ℕ → ℝ) : ℕ → ℕ → ℝ :=
  let t := coords p ijk
  let dN := dNdq1 p X (.x x) ijk
  if Tol.eql e dN 0 then J
  else (List.range (p.n X)).foldl (fun J l =>
    addAt J ijk (idx p (Function.update t X l)) (dN * getDT e (p.n X) l (cos (t X * π / ((p.n X : ℝ) - 1))))) J

/-- dfs_df.c:593-632 `fill_jacobian_spectral_method_1stOrder` -/
noncomputable def fill1 (x : Fin 3) (J : ℕ → ℕ → ℝ) : ℕ → ℕ → ℝ :=
  (List.range (nn p)).foldl (fun J ijk => fillLine e p x ijk 2 (fillLine e p x ijk 1 (fillLine e p x ijk 0 J))) J

/-- `J[ijk][lmn] = v[ijk]` for all ijk -/
def setCol (J : ℕ → ℕ → ℝ) (c : ℕ) (v : ℕ → ℝ) : ℕ → ℕ → ℝ :=
  fun a b => if b = c ∧ a < nn p then v a else J a b

/-- dfs_df.c:716-735: the loop over the columns; J_1st is another matrix, or J itself (`same`, line 707) -/
noncomputable def fill2Loop (same : Bool) (y : Fin 3) : List ℕ → (ℕ → ℕ → ℝ) → (ℕ → ℕ → ℝ) → Res (ℕ → ℕ → ℝ)
  | [], _, J => .ok J
  | c :: cs, J1, J =>
    (takeDer e p ⟨fun l => if same then J l c else J1 l c, none, none⟩ [.x y]).bind fun r =>
      fill2Loop same y cs J1 (setCol p J c r.2)

/-- dfs_df.c:656-741 `fill_jacobian_spectral_method_2ndOrder`: `saved` is the first-order matrix when one in regular
format has been kept (then it is used), `inCcs` says that one exists in another format (then J is used for it) and
otherwise a new matrix is filled (and kept) -/
noncomputable def fill2 (saved : Option (ℕ → ℕ → ℝ)) (inCcs : Bool) (x y : Fin 3) (J : ℕ → ℕ → ℝ) : Res (ℕ → ℕ → ℝ) :=
  match saved with
  | some J1 => fill2Loop e p false y (List.range (nn p)) J1 J
  | none =>
    if inCcs then
      let J1 := fill1 e p x J
      fill2Loop e p true y (List.range (nn p)) J1 J1
    else fill2Loop e p false y (List.range (nn p)) (fill1 e p x fun _ _ => 0) J

/-- dfs_df.c:377-463 `fill_jacobian_direct_method_1stOrder`, `..._2ndOrder`: one column after the other, from a field
that is 1 everywhere and 1 + 1/nn at one point -/
noncomputable def direct (dirs : List Dir) : List ℕ → (ℕ → ℕ → ℝ) → Res (ℕ → ℕ → ℝ)
  | [], J => .ok J
  | c :: cs, J =>
    let eps : ℝ := 1 / nn p
    (takeDer e p ⟨fun l => if l = c then 1 + eps else 1, none, none⟩ dirs).bind fun r =>
      direct dirs cs (setCol p J c fun l => r.2 l / eps)

end Elliptica.Jac
