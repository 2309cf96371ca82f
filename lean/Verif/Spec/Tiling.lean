import Verif.Model.SplitGrid
import Verif.Model.CoordJac
/-!
What it means that the patches of a grid tile a region, over the reals: which points a patch holds, and which region a
grid of each kind is meant to fill.
-/
namespace Elliptica.Tiling
open Elliptica.Coord Elliptica.SplitCS

/-- the point belongs to the patch: it is the Cartesian image of patch coordinates within the patch's limits -/
def Contains (L : Lib ℝ) : GPatch ℝ → (Fin 3 → ℝ) → Prop
  | .cs p, x => ∃ X : Fin 3 → ℝ, (∀ i, p.mn i ≤ X i ∧ X i ≤ p.mx i) ∧ xOfX L p X = x
  | .box mn mx, x => ∀ i, mn i ≤ x i ∧ x i ≤ mx i

/-- the point belongs to the inside of the patch: all patch coordinates strictly within the limits -/
def Interior (L : Lib ℝ) : GPatch ℝ → (Fin 3 → ℝ) → Prop
  | .cs p, x => ∃ X : Fin 3 → ℝ, (∀ i, p.mn i < X i ∧ X i < p.mx i) ∧ xOfX L p X = x
  | .box mn mx, x => ∀ i, mn i < x i ∧ x i < mx i

/-- is the inside of this object covered (as opposed to excised)? -/
def filled : Kind → Dir → Bool
  | .bhns nl f, d => d = firstDir nl || f
  | .nsns _, _ => true
  | .bhbh _ f, _ => f
  | .sbh f, _ => f
  | .sns, _ => true

/-- the two cubes of side S about the objects of a binary side by side along y, the cube about a single object -/
def InCubes (k : Kind) (S : ℝ) (x : Fin 3 → ℝ) : Prop :=
  |x 0| ≤ S / 2 ∧ |x 1| ≤ (if k.binary then S else S / 2) ∧ |x 2| ≤ S / 2

/-- the region a grid is meant to fill: the ball of the outermost radius, or just the cubes without outermost region -/
def Domain (k : Kind) (out : Bool) (S rout : ℝ) (x : Fin 3 → ℝ) : Prop :=
  if out then x 0 ^ 2 + x 1 ^ 2 + x 2 ^ 2 ≤ rout ^ 2 else InCubes k S x

/-- the point at height u over the centre of a side along the ray of angular coordinates (X0,X1) -/
def At (s : Side) (v : Fin 3 → ℝ) (u X0 X1 : ℝ) : Prop :=
  v (perm s).2.2.2 = sgn s * u ∧ v (perm s).2.1 = u * X0 ∧ v (perm s).2.2.1 = u * X1

/-- the surface of an object as the patches see it: the interpolant, on the cell (d0,d1) of a side, of its node values -/
noncomputable def seen (g : In ℝ) (n : Fin 3 → Nat) (dir : Dir) (s : Side) (d0 d1 : Nat) : ℝ → ℝ → ℝ :=
  g.samp (cut (-1) 1 (n 0) d0) (cut (-1) 1 (n 0) (d0 + 1)) (cut (-1) 1 (n 1) d1) (cut (-1) 1 (n 1) (d1 + 1))
    ((g.obj dir).surf s)

/-- angular coordinates in the cell (d0,d1) of the ranges [m,M] x [m',M'] -/
def InCell (m M m' M' : ℝ) (n : Fin 3 → Nat) (d0 d1 : Nat) (X0 X1 : ℝ) : Prop :=
  cut m M (n 0) d0 ≤ X0 ∧ X0 ≤ cut m M (n 0) (d0 + 1) ∧ cut m' M' (n 1) d1 ≤ X1 ∧ X1 ≤ cut m' M' (n 1) (d1 + 1)

/-- strictly inside the surface of an excised object: its centre, or below the surface on some ray -/
def InHole (g : In ℝ) (n : Fin 3 → Nat) (dir : Dir) (x : Fin 3 → ℝ) : Prop :=
  (∀ i, x i = centre g.S dir i) ∨
  ∃ s d0 d1 u X0 X1, InCell (-1) 1 (-1) 1 n d0 d1 X0 X1 ∧ At s (fun i => x i - centre g.S dir i) u X0 X1 ∧ 0 < u ∧
    u * Real.sqrt (1 + X0 ^ 2 + X1 ^ 2) < seen g n dir s d0 d1 X0 X1

/-- node values of constants and of flat surfaces are interpolated exactly -/
def Exact (big : ℝ) (g : In ℝ) : Prop := ∀ x0 x1 y0 y1 f X0 X1, x0 ≤ X0 → X0 ≤ x1 → y0 ≤ X1 → X1 ≤ y1 →
  ((∃ c, f = fun _ _ => c) ∨ ∃ c, f = flat (realLib big) c) → g.samp x0 x1 y0 y1 f X0 X1 = f X0 X1

/-- the surface, as the patches see it, lies between its smallest radius and the first sphere around it -/
def SurfaceFits (g : In ℝ) (n : Fin 3 → ℕ) (dir : Dir) : Prop :=
  ∀ s d0 d1 X0 X1, d0 < n 0 → d1 < n 1 → InCell (-1) 1 (-1) 1 n d0 d1 X0 X1 →
    (g.obj dir).rmin ≤ seen g n dir s d0 d1 X0 X1 ∧ seen g n dir s d0 d1 X0 X1 < rad (g.obj dir).rmin (g.S / 2) (n 2) 1

/-- the central box is a cube -/
def Cube (g : In ℝ) (dir : Dir) : Prop := (g.obj dir).w = (g.obj dir).l ∧ (g.obj dir).h = (g.obj dir).l

/-- what a grid file must satisfy beyond what the program checks -/
structure Fits (big : ℝ) (g : In ℝ) (n : Fin 3 → ℕ) (out : Bool) : Prop where
  /-- DBL_MAX marks "no flat surface" -/
  small : g.S < big
  exact : Exact big g
  surf : ∀ dir ∈ dirs g.kind, SurfaceFits g n dir
  cube : ∀ dir ∈ dirs g.kind, filled g.kind dir = true → Cube g dir
  /-- the farthest corner of the two cubes is below the first sphere of the outermost region -/
  corner : out = true → g.kind.binary = true →
    Real.sqrt (3 / 2) * g.S < rad (diag (realLib big) g.S g.S g.S) g.rout (n 2) 1

end Elliptica.Tiling
