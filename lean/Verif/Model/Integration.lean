import Verif.Model.Cheb
import Verif.Model.Text
import Verif.Model.Ylm
import Verif.Model.General
import Verif.Model.RootTables
/-!
Model of Src/Main/Modules/Maths/Calculus/integration.c, of the weight functions and tables in
legendre_root_and_weight_function.c and lobatto_root_and_weight_function.c, of det_h_xyzN{0,1,2}N{1,2}.c, and of
Src/Main/Modules/Manifold/coordinate_systems.c:335-534 (`dq2_dq1`), over ℝ: `double` is exact, libm's functions are the
mathematical ones, `e` is ROUND_OFF_ERR.  Accumulation loops are finite sums.  The error estimates I->err are left out,
except for the calls in them that stop the program; a result that is not a number in C is the outcome `ub`.
-/
namespace Elliptica.Integ
open Real Finset Elliptica.Index

/-- misc_functions.c:10-18 `Factorial` of a non-negative argument; the product overflows an int beyond 2147483647 -/
def factorialNat : ℕ → Res ℤ
  | 0 => .ok 1
  | n + 1 => (factorialNat n).bind fun r => if ((n + 1 : ℕ) : ℤ) * r ≤ 2147483647 then .ok (((n + 1 : ℕ) : ℤ) * r) else .ub

/-- misc_functions.c:10-18 `Factorial` -/
def factorial (n : ℤ) : Res ℤ := if n < 0 then .abort else factorialNat n.toNat

/-- integration.c:230-256 `Composite_Simpson_1D` -/
noncomputable def simpson (n : ℕ) (a b : ℝ) (f : ℕ → ℝ) : Res ℝ :=
  if n % 2 ≠ 1 then .abort
  else if n = 1 then .ub
  else
    let h := (b - a) / ((n : ℝ) - 1)
    let i0 := f 0 + f (n - 1)
    let i2 := ∑ j ∈ Ico 1 (n - 1), if j % 2 = 0 then f j else 0
    let i1 := ∑ j ∈ Ico 1 (n - 1), if j % 2 = 0 then 0 else f j
    .ok (h * (i0 + 2 * i2 + 4 * i1) / 3)

/-- integration.c:266-289 `GaussQuadrature_ChebyshevExtrema`.  L_inf stops the program for n = 0; for n = 1 the bound n-2
of the loop wraps around and the loop reads past the array -/
noncomputable def gqCheb (n : ℕ) (f : ℕ → ℝ) : Res ℝ :=
  if n = 0 then .abort
  else if n = 1 then .ub
  else
    let w := π / ((n : ℝ) - 1)
    .ok (((∑ i ∈ Icc 1 (n - 2), f i) + (f 0 + f (n - 1)) / 2) * w)

/-- lobatto_root_and_weight_function.c:15-21 `Lobatto_weight_function` -/
noncomputable def lobWeight (e x : ℝ) (n : ℕ) : Res ℝ :=
  let fac := 2 / ((n : ℝ) * ((n : ℝ) - 1))
  if Tol.eql e x 1 || Tol.eql e x (-1) then .ok fac
  else (Ylm.assocLegendre ((n : ℤ) - 1) 0 x).bind fun p => .ok (2 / ((n : ℝ) * ((n : ℝ) - 1) * p ^ 2))

/-- lobatto_root_and_weight_function.c:24-33 `Lobatto_root_function`; `tab` is the table, row first -/
def lobRoot (tab : ℕ → ℕ → ℝ) (rootN N : ℕ) : Res ℝ :=
  if N ≥ 35 then .abort else if rootN ≥ N - 1 then .abort else .ok (tab N rootN)

/-- legendre_root_and_weight_function.c:14-18 `Legendre_weight_function` -/
noncomputable def legWeight (x : ℝ) (n : ℕ) : Res ℝ :=
  (Ylm.dAssocLegendre n 0 x).bind fun d => .ok (2 / d ^ 2)

/-- legendre_root_and_weight_function.c:22-31 `Legendre_root_function` -/
def legRoot (tab : ℕ → ℕ → ℝ) (rootN N : ℕ) : Res ℝ :=
  if N ≥ 100 then .abort else if rootN ≥ N then .abort else .ok (tab N rootN)

/-- the table filled by lobatto_root_and_weight_function.c:35-600 `init_Lobatto_root_function` -/
noncomputable def lobTable (N i : ℕ) : ℝ := (((RootTables.lobRow.getD N []).getD i 0 : ℤ) : ℝ) / 10 ^ 19

/-- the table filled by legendre_root_and_weight_function.c:34-4987 `init_Legendre_root_function` -/
noncomputable def legTable (N i : ℕ) : ℝ := (((RootTables.legRow.getD N []).getD i 0 : ℤ) : ℝ) / 10 ^ 19

/-- a sum of n terms computed one after the other -/
noncomputable def resSum (f : ℕ → Res ℝ) : ℕ → Res ℝ
  | 0 => .ok 0
  | n + 1 => (resSum f n).bind fun s => (f n).bind fun t => .ok (s + t)

/-- integration.c:297-331 `GaussQuadrature_Lobatto`; Factorial(ni-2) stops the program for n <= 1.  The i-th term of the
loop i = 1..n-2 is term i-1 of the sum -/
noncomputable def gqLobatto (e : ℝ) (tab : ℕ → ℕ → ℝ) (n : ℕ) (f : ℕ → ℝ) : Res ℝ :=
  if n ≤ 1 then .abort
  else
    (resSum (fun k => (lobRoot tab k (n - 1)).bind fun x => (lobWeight e x n).bind fun w => .ok (w * f (k + 1))) (n - 2)).bind
      fun s => .ok (s + 2 * (f 0 + f (n - 1)) / ((n : ℝ) * ((n : ℝ) - 1)))

/-- integration.c:340-370 `GaussQuadrature_Legendre`; L_inf stops the program for n = 0 -/
noncomputable def gqLegendre (tab : ℕ → ℕ → ℝ) (n : ℕ) (f : ℕ → ℝ) : Res ℝ :=
  if n = 0 then .abort
  else resSum (fun i => (legRoot tab i n).bind fun x => (legWeight x n).bind fun w => .ok (w * f i)) n

/-! ### Jacobians -/

/-- the patch as these functions see it: number of points, box of the coordinates (a,b,c), and d(a,b,c)/d(x,y,z) at
every point, `jac l q p` = d X^q / d x^p -/
structure Patch where
  n : Fin 3 → ℕ
  mn : Fin 3 → ℝ
  mx : Fin 3 → ℝ
  jac : ℕ → Fin 3 → Fin 3 → ℝ

/-- coordinate_systems.c:361-386 `dN_dX` on the diagonal, Chebyshev extrema or nodes -/
noncomputable def dNdX (P : Patch) (q : Fin 3) : ℝ := 2 / (-P.mx q + P.mn q)

/-- coordinate_systems.c:391-430 `dN_dq` with q = x,y,z and the Chebyshev basis -/
noncomputable def dNdx (P : Patch) (l : ℕ) (q p : Fin 3) : ℝ := dNdX P q * P.jac l q p

/-- coordinate_systems.c:449-451 (and integration.c:628-630): determinant -/
def det3 (a : Fin 3 → Fin 3 → ℝ) : ℝ :=
  a 0 0 * a 1 1 * a 2 2 - a 0 0 * a 1 2 * a 2 1 - a 0 1 * a 1 0 * a 2 2 + a 0 1 * a 1 2 * a 2 0 +
    a 0 2 * a 1 0 * a 2 1 - a 0 2 * a 1 1 * a 2 0

/-- coordinate_systems.h:3-11 the macros ADJ_ij -/
def adj (a : Fin 3 → Fin 3 → ℝ) : Fin 3 → Fin 3 → ℝ
  | 0, 0 => a 1 1 * a 2 2 - a 1 2 * a 2 1
  | 0, 1 => -a 0 1 * a 2 2 + a 0 2 * a 2 1
  | 0, 2 => a 0 1 * a 1 2 - a 0 2 * a 1 1
  | 1, 0 => -a 1 0 * a 2 2 + a 1 2 * a 2 0
  | 1, 1 => a 0 0 * a 2 2 - a 0 2 * a 2 0
  | 1, 2 => -a 0 0 * a 1 2 + a 0 2 * a 1 0
  | 2, 0 => a 1 0 * a 2 1 - a 1 1 * a 2 0
  | 2, 1 => -a 0 0 * a 2 1 + a 0 1 * a 2 0
  | 2, 2 => a 0 0 * a 1 1 - a 0 1 * a 1 0

/-- coordinate_systems.c:435-534 `dq_dN`: d x^p / d N^q -/
noncomputable def dxdN (P : Patch) (l : ℕ) (p q : Fin 3) : ℝ := adj (dNdx P l) p q / det3 (dNdx P l)

/-- integration.c:615-633 `J_xyzN0N1N2` -/
noncomputable def jacN (P : Patch) (l : ℕ) : ℝ := 1 / det3 (dNdx P l)

/-! ### spectral integrals -/

/-- the six components of the metric at every point, I->g00 ... I->g22 -/
structure Metric where
  g00 : ℕ → ℝ
  g01 : ℕ → ℝ
  g02 : ℕ → ℝ
  g11 : ℕ → ℝ
  g12 : ℕ → ℝ
  g22 : ℕ → ℝ

/-- integration.c:399-400, 466-467: the determinant of the metric -/
def detg (g : Metric) (l : ℕ) : ℝ :=
  g.g00 l * g.g11 l * g.g22 l - g.g00 l * g.g12 l ^ 2 - g.g01 l ^ 2 * g.g22 l + 2 * g.g01 l * g.g02 l * g.g12 l -
    g.g02 l ^ 2 * g.g11 l

/-- integration.c:597-609 `Int_ChebTn_OPTM` -/
noncomputable def intOptm (n N : ℕ) : ℝ :=
  if n = 0 then 2 else if n = N - 1 then -2 / ((n : ℝ) ^ 2 - 1) else -4 / ((n : ℝ) ^ 2 - 1)

/-- integration.c:563-587 `integral_conventional_ChebTn` -/
noncomputable def intConv (N n : ℕ) (thi thf : ℝ) : ℝ :=
  let v :=
    if n = 0 then cos thf - cos thi
    else if n = 1 then (cos (2 * thf) - cos (2 * thi)) / 4
    else (-cos thf * cos (thf * n) + cos thi * cos (thi * n) - n * sin thf * sin (thf * n) + n * sin thi * sin (thi * n)) /
      ((n : ℝ) ^ 2 - 1)
  if n = 0 ∨ n = N - 1 then v else 2 * v

/-- the indices 0, 2, 4, ... of a loop with i += 2 -/
def evens (n : ℕ) : Finset ℕ := (range n).filter fun i => i % 2 = 0

/-- integration.c:390-402: the integrand of the volume integrals -/
noncomputable def volIntegrand (P : Patch) (g : Metric) (fv : ℕ → ℝ) (l : ℕ) : ℝ := fv l * √(detg g l) * jacN P l

/-- a field just made by add_field with the values `v` -/
def fresh (v : ℕ → ℝ) : Coeff.St ℝ := ⟨v, none, none⟩

/-- integration.c:376-424 `f_xyz_whole_dV_Cheb_Ext_Spec` -/
noncomputable def wholeDV (P : Patch) (g : Metric) (fv : ℕ → ℝ) : Res ℝ :=
  (Coeff.make3 P.n (Cheb.extremaTr P.n) (fresh (volIntegrand P g fv))).bind fun (_, c) =>
    .ok ((∑ i ∈ evens (P.n 0), ∑ j ∈ evens (P.n 1), ∑ k ∈ evens (P.n 2),
      c (ijk (P.n 1) (P.n 2) i j k) * intOptm i (P.n 0) * intOptm j (P.n 1) * intOptm k (P.n 2)) * -1)

/-- integration.c:430-488 `f_xyz_interval_dV_Cheb_Ext_Spec`; `ini` and `fin` are (Ii,Ji,Ki) and (If,Jf,Kf) -/
noncomputable def intervalDV (P : Patch) (g : Metric) (fv : ℕ → ℝ) (ini fin : Fin 3 → ℕ) : Res ℝ :=
  let thi (d : Fin 3) := ini d * π / ((P.n d : ℝ) - 1)
  let thf (d : Fin 3) := fin d * π / ((P.n d : ℝ) - 1)
  (Coeff.make3 P.n (Cheb.extremaTr P.n) (fresh (volIntegrand P g fv))).bind fun (_, c) =>
    .ok (∑ i ∈ range (P.n 0), ∑ j ∈ range (P.n 1), ∑ k ∈ range (P.n 2),
      c (ijk (P.n 1) (P.n 2) i j k) * intConv (P.n 0) i (thi 0) (thf 0) * intConv (P.n 1) j (thi 1) (thf 1) *
        intConv (P.n 2) k (thi 2) (thf 2))

/-- det_h_xyzN0N1.c:32-36, 46-50: a diagonal component of the induced metric -/
def hDiag (g : Metric) (l : ℕ) (u : Fin 3 → ℝ) : ℝ :=
  u 0 ^ 2 * g.g00 l + 2 * u 0 * u 1 * g.g01 l + 2 * u 0 * u 2 * g.g02 l + u 1 ^ 2 * g.g11 l + 2 * u 1 * u 2 * g.g12 l +
    u 2 ^ 2 * g.g22 l

/-- det_h_xyzN0N1.c:38-42: the other component -/
def hOff (g : Metric) (l : ℕ) (u v : Fin 3 → ℝ) : ℝ :=
  u 0 * v 0 * g.g00 l + u 0 * v 1 * g.g01 l + u 0 * v 2 * g.g02 l + u 1 * v 0 * g.g01 l + u 1 * v 1 * g.g11 l +
    u 1 * v 2 * g.g12 l + u 2 * v 0 * g.g02 l + u 2 * v 1 * g.g12 l + u 2 * v 2 * g.g22 l

/-- det_h_xyzN0N1.c, det_h_xyzN0N2.c, det_h_xyzN1N2.c: the determinant of the metric of the surface of the directions a, b -/
noncomputable def detH (P : Patch) (g : Metric) (a b : Fin 3) (l : ℕ) : ℝ :=
  let u := fun p => dxdN P l p a
  let v := fun p => dxdN P l p b
  hDiag g l u * hDiag g l v - hOff g l u v * hOff g l u v

/-- integration.c:510-519, 531-540, 550-559: the integrand, written on one surface of an array of zeros -/
noncomputable def surfIntegrand (P : Patch) (g : Metric) (fv : ℕ → ℝ) (a b : Fin 3) (on : ℕ → Bool) (l : ℕ) : ℝ :=
  if on l then fv l * √(detH P g a b l) else 0

/-- integration.c:495-581 `f_xyz_dS_Cheb_Ext_Spec`; the first flag that is set decides, `s` are the indices I, J, K -/
noncomputable def surfDS (P : Patch) (g : Metric) (fv : ℕ → ℝ) (flag : Fin 3 → Bool) (s : Fin 3 → ℕ) : Res ℝ :=
  if flag 0 then
    (Coeff.make2 P.n (Cheb.extremaTr P.n) (fresh (surfIntegrand P g fv 1 2 fun l => toI (P.n 1) (P.n 2) l == s 0)) 1 2).bind
      fun (_, c) => .ok (∑ j ∈ evens (P.n 1), ∑ k ∈ evens (P.n 2),
        c (ijk (P.n 1) (P.n 2) (s 0) j k) * intOptm j (P.n 1) * intOptm k (P.n 2))
  else if flag 1 then
    (Coeff.make2 P.n (Cheb.extremaTr P.n) (fresh (surfIntegrand P g fv 0 2 fun l => toJ (P.n 1) (P.n 2) l == s 1)) 0 2).bind
      fun (_, c) => .ok (∑ i ∈ evens (P.n 0), ∑ k ∈ evens (P.n 2),
        c (ijk (P.n 1) (P.n 2) i (s 1) k) * intOptm i (P.n 0) * intOptm k (P.n 2))
  else if flag 2 then
    (Coeff.make2 P.n (Cheb.extremaTr P.n) (fresh (surfIntegrand P g fv 0 1 fun l => toK (P.n 1) (P.n 2) l == s 2)) 0 1).bind
      fun (_, c) => .ok (∑ i ∈ evens (P.n 0), ∑ j ∈ evens (P.n 1),
        c (ijk (P.n 1) (P.n 2) i j (s 2)) * intOptm i (P.n 0) * intOptm j (P.n 1))
  else .abort

/-! ### planning -/

/-- the function chosen by plan_integration; `unset` is the null pointer of the pristine struct -/
inductive Plan where
  | simpson | chebyshevExtrema | lobatto | legendre | wholeDV | intervalDV | surfDS | unset
deriving DecidableEq, Repr

/-- integration.c:145-150, 164-170, 192-198: Cartesian or CubedSpherical -/
inductive CoordSys where
  | cartesian | cubedSpherical | other
deriving DecidableEq

/-- integration.c:122-213: the chain of tests; `b1` ... `b7` say which names the type is equal to -/
def planSel (b1 b2 b3 b4 b5 b6 b7 : Bool) (cs : CoordSys) (tnExt : Fin 3 → Bool) (flag : Fin 3 → Bool) : Res Plan :=
  let supported := cs = .cartesian ∨ cs = .cubedSpherical
  let all := tnExt 0 && tnExt 1 && tnExt 2
  if b1 then .ok .simpson
  else if b2 then .ok .chebyshevExtrema
  else if b3 then .ok .lobatto
  else if b4 then .ok .legendre
  else if b5 then
    if supported then (if all then .ok .wholeDV else .abort) else .ok .unset
  else if b6 then
    if supported then (if all then .ok .intervalDV else .abort) else .abort
  else if b7 then
    if (flag 0).toNat + (flag 1).toNat + (flag 2).toNat ≠ 1 then .abort
    else if supported then (if all then .ok .surfDS else .abort) else .abort
  else .abort

/-- integration.c:122-213 `plan_integration`; `tnExt d` says that direction d has the Chebyshev basis and collocates at the
extrema -/
def plan (type : Str) (cs : CoordSys) (tnExt : Fin 3 → Bool) (flag : Fin 3 → Bool) : Res Plan :=
  let eq (s : String) := Text.strcmpI (some type) (some s.toList)
  planSel (eq "Composite Simpson's Rule 1D") (eq "Gaussian Quadrature Chebyshev Extrema") (eq "Gaussian Quadrature Lobatto")
    (eq "Gaussian Quadrature Legendre") (eq "Integral{f(x)dV},Spectral") (eq "Integral{f(x)dV}[i,f],Spectral")
    (eq "Integral{f(x)dS},Spectral") cs tnExt flag

/-- integration.c:116-119 `execute_integration`: calling the chosen function; `run` are the functions -/
def execute {α : Type} (run : Plan → Res α) (p : Plan) : Res α := match p with
  | .unset => .ub
  | p => run p

end Elliptica.Integ
