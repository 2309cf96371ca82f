import Verif.Model.Coord
import Mathlib.Analysis.SpecialFunctions.Sqrt
/-!
Model of the Jacobians of the cubed-spherical coordinates, Src/Main/Modules/Manifold/cubed_spherical_coordinate.c:
814-970 (make_JacobianT_CubedSpherical_coord), 972-1102 (derivatives of the surface functions), 5760-8275 (JT_*).
The functions JT_NS_T_CS_up … JT_OT_T2_CS_front are, for each type, six copies of one text which differ in the sign S and
the permutation (i,j,k) only; those are the sign and the permutation of SignAndIndex_permutation_CubedSphere
(`Coord.perm`), which the two split types read from the patch.  `double` is `ℝ`, libm's sqrt the real square root.
-/
noncomputable section
namespace Elliptica.Coord

/-- libm's sqrt is the real square root; `big` is DBL_MAX -/
def realLib (big : ℝ) : Lib ℝ := ⟨big, Real.sqrt⟩

/-- What the Jacobians read at a node: its Cartesian and patch coordinates, the values of the two surface functions
(R1_f->v[p], R2_f->v[p]) and their derivatives along X[0] and X[1] (Partial_Derivative(R,"a"), (R,"b")). -/
structure JNode where
  x : Fin 3 → ℝ
  X : Fin 3 → ℝ
  R1v : ℝ
  R2v : ℝ
  R1a : ℝ
  R1b : ℝ
  R2a : ℝ
  R2b : ℝ

/-- `kd[k==l]` -/
def kron (k l : Fin 3) : ℝ := if k = l then 1 else 0

/-- da/dx_l, cubed_spherical_coordinate.c:5793-5803 (the same in all functions) -/
def jA (p : Patch ℝ) (n : JNode) (l : Fin 3) : ℝ :=
  let (_, i, _, k) := perm p.side
  sgn p.side * (kron i l - (n.x i - p.c i) * kron k l / (n.x k - p.c k)) / (n.x k - p.c k)

/-- db/dx_l, cubed_spherical_coordinate.c:5804-5815 -/
def jB (p : Patch ℝ) (n : JNode) (l : Fin 3) : ℝ :=
  let (_, _, j, k) := perm p.side
  sgn p.side * (kron j l - (n.x j - p.c j) * kron k l / (n.x k - p.c k)) / (n.x k - p.c k)

/-- cubed_spherical_coordinate.c:989-996, 1082-1087: dR1/dx_l by the chain rule -/
def dR1 (p : Patch ℝ) (n : JNode) (l : Fin 3) : ℝ := n.R1a * jA p n l + n.R1b * jB p n l

/-- cubed_spherical_coordinate.c:1023-1030, 1075-1080: dR2/dx_l -/
def dR2 (p : Patch ℝ) (n : JNode) (l : Fin 3) : ℝ := n.R2a * jA p n l + n.R2b * jB p n l

/-- `d1` -/
def d1 (n : JNode) : ℝ := Real.sqrt (1 + n.X 0 * n.X 0 + n.X 1 * n.X 1)

/-- `X[0]*J(a,x_l) + X[1]*J(b,x_l)` -/
def w (p : Patch ℝ) (n : JNode) (l : Fin 3) : ℝ := n.X 0 * jA p n l + n.X 1 * jB p n l

/-- dc/dx_l of JT_OJ_T_SCS, cubed_spherical_coordinate.c:5816-5910 -/
def jCobScs (big : ℝ) (p : Patch ℝ) (n : JNode) (l : Fin 3) : ℝ :=
  let S : ℝ := sgn p.side
  let k := (perm p.side).2.2.2
  let xc1 := S * (if p.xc1 = big then n.R1v / d1 n else p.xc1)
  let xc2 := S * (if p.xc2 = big then n.R2v / d1 n else p.xc2)
  let dxc1 := (if p.xc1 = big then dR1 p n l / d1 n - n.R1v * w p n l / d1 n ^ 3 else 0) * S
  let dxc2 := (if p.xc2 = big then dR2 p n l / d1 n - n.R2v * w p n l / d1 n ^ 3 else 0) * S
  ((kron k l - dxc1) - ((n.x k - p.c k) - xc1) * (dxc2 - dxc1) / (xc2 - xc1)) / (xc2 - xc1)

/-- dc/dx_l of JT_OT_T_SCS, cubed_spherical_coordinate.c:5975-6057 -/
def jCotScs (big : ℝ) (p : Patch ℝ) (n : JNode) (l : Fin 3) : ℝ :=
  let S : ℝ := sgn p.side
  let k := (perm p.side).2.2.2
  let ratio := 1 - n.R1v / n.R2v
  let dR1 := if p.xc1 = big then 0 else p.xc1 * w p n l / d1 n
  let dR2 := 0
  let dratio := (-dR1 + dR2 * n.R1v / n.R2v) / n.R2v
  let xc1 := S * n.R1v / d1 n
  let dxc1 := (dR1 / d1 n - n.R1v * w p n l / d1 n ^ 3) * S
  ((-dxc1 + xc1 * kron k l / (n.x k - p.c k)) / (n.x k - p.c k) - n.X 2 * dratio) / ratio

/-- dc/dx_l of JT_NS_T_CS_*, cubed_spherical_coordinate.c:6118-6153 (and the five copies to 6646) -/
def jCnsCs (p : Patch ℝ) (n : JNode) (l : Fin 3) : ℝ :=
  let S : ℝ := sgn p.side
  let k := (perm p.side).2.2.2
  let xc1 := p.xc1
  let xc2 := S * n.R2v / d1 n
  let dxc2 := (dR2 p n l / d1 n - n.R2v * w p n l / d1 n ^ 3) * S
  (kron k l - ((n.x k - p.c k) - xc1) * dxc2 / (xc2 - xc1)) / (xc2 - xc1)

/-- dc/dx_l of JT_SR_T_CS_*, cubed_spherical_coordinate.c:6694-6729 (and the five copies to 7222) -/
def jCsrCs (p : Patch ℝ) (n : JNode) (l : Fin 3) : ℝ :=
  let S : ℝ := sgn p.side
  let k := (perm p.side).2.2.2
  let xc2 := p.xc2
  let xc1 := S * n.R1v / d1 n
  let dxc1 := (dR1 p n l / d1 n - n.R1v * w p n l / d1 n ^ 3) * S
  (kron k l - dxc1 + ((n.x k - p.c k) - xc1) * dxc1 / (xc2 - xc1)) / (xc2 - xc1)

/-- dc/dx_l of JT_OT_T1_CS_*, cubed_spherical_coordinate.c:7270-7297 (and the five copies to 7744) -/
def jCotT1 (p : Patch ℝ) (n : JNode) (l : Fin 3) : ℝ :=
  let S : ℝ := sgn p.side
  let k := (perm p.side).2.2.2
  let L := 1 - S * d1 n * p.xc1 / p.R2
  let dL := w p n l / d1 n * (-S * p.xc1 / p.R2)
  (p.xc1 * kron k l / ((n.x k - p.c k) * (n.x k - p.c k)) - n.X 2 * dL) / L

/-- dc/dx_l of JT_OT_T2_CS_*, cubed_spherical_coordinate.c:7795-7822 (and the five copies to 8275) -/
def jCotT2 (p : Patch ℝ) (n : JNode) (l : Fin 3) : ℝ :=
  let S : ℝ := sgn p.side
  let k := (perm p.side).2.2.2
  let dR := 1 - p.R1 / p.R2
  let d2 := 1 + n.X 0 * n.X 0 + n.X 1 * n.X 1
  (kron k l / (n.x k - p.c k) + w p n l / d2) * S * p.R1 / (dR * (n.x k - p.c k) * Real.sqrt d2)

/-- cubed_spherical_coordinate.c:814-970: the function the patch's type selects, for q2 in {_a_,_b_,_c_} and q1 in
{_x_,_y_,_z_}; other pairs are refused by get_dA_da (coordinate_systems.c:651-715) -/
def JT (big : ℝ) (p : Patch ℝ) (n : JNode) (q l : Fin 3) : ℝ :=
  if q = 0 then jA p n l
  else if q = 1 then jB p n l
  else match p.type with
    | .obScs => jCobScs big p n l
    | .otScs => jCotScs big p n l
    | .nsCs => jCnsCs p n l
    | .srCs => jCsrCs p n l
    | .otT1 => jCotT1 p n l
    | .otT2 => jCotT2 p n l

end Elliptica.Coord
