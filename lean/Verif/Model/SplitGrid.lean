import Verif.Model.Common
import Verif.Model.Coord
/-!
Model of how the patches of a split cubed spherical grid are laid out:
Src/Main/Modules/Manifold/cubed_spherical_coordinate.c:3126-5648 (set_params_of_split_cubed_spherical_grid), 133-413
(fill_patches_Split_CubedSpherical_grid), 417-624 (populate_CS_patch_SplitCS) and cartesian_coordinate.c:183-313
(populate_box_patch_SplitCS), with USE_SCS_FILLING_BOX = 0 (cubed_spherical_coordinate.h:13).

Simplifications: the values travel from set_params to populate through the parameter data base under generated names; here
each patch is computed directly from its label (object, side, d0, d1, d2), which is what those names encode.  `double` is
an exact ordered field `K`.  A surface function is stored as its values at the nodes of the patch and later interpolated;
`samp x0 x1 y0 y1 f` is that interpolant of the node values of `f` on the cell [x0,x1]x[y0,y1].  The assertion
`r > rdown` at the nodes (line 3387) is not part of the model; it is implied by the hypotheses of the theorems.
-/
namespace Elliptica.SplitCS
open Elliptica.Coord

variable {K : Type} [Field K] [LinearOrder K]

/-- which object: the string `dir` ("left", "right", "center"; "NA" of the single outermost is `center`) -/
inductive Dir where
  | left | right | center
deriving DecidableEq, Repr

/-- the kind of a cubed spherical patch: NS/BH, NS_around/BH_around, outermost -/
inductive Part where
  | obj | around | outer
deriving DecidableEq, Repr

/-- the name of a patch: what SCS_par_name encodes -/
inductive Label where
  | box (dir : Dir) (d0 d1 d2 : Nat)
  | cs (part : Part) (dir : Dir) (side : Side) (d0 d1 d2 : Nat)
deriving DecidableEq, Repr

/-- Grid_Char_T params[i]: lengths of the central box, smallest radius of the surface, and the surface: the value of
interpolation_Ylm at the angles theta_phi_of_XY_CS of (X[0],X[1]) on a side -/
structure Obj (K : Type) where
  l : K
  w : K
  h : K
  rmin : K
  surf : Side → K → K → K

/-- grid kinds, with the options that decide the layout (line 133-413); `nsLeft`: the first object is on the left -/
inductive Kind where
  | bhns (nsLeft filled : Bool)
  | nsns (firstLeft : Bool)
  | bhbh (firstLeft filled : Bool)
  | sbh (filled : Bool)
  | sns
deriving DecidableEq, Repr

/-- two objects? (line 3212-3214) -/
def Kind.binary : Kind → Bool
  | .bhns .. | .nsns .. | .bhbh .. => true
  | _ => false

/-- the input of set_params_of_split_cubed_spherical_grid -/
structure In (K : Type) where
  kind : Kind
  S : K
  rout : K
  given : Fin 3 → Nat
  maxN : Fin 3 → Nat
  obj : Dir → Obj K
  samp : K → K → K → K → (K → K → K) → K → K → K

/-- a patch of the grid: cubed spherical or Cartesian box (min, max) -/
inductive GPatch (K : Type) where
  | cs (p : Patch K)
  | box (mn mx : Fin 3 → K)

/-- line 3168-3178: divide until the resolution is allowed; the assertion in the loop stops the program -/
def splitLoop (given maxN : Nat) : Nat → Nat → Res (Nat × Nat)
  | 0, _ => .abort
  | fuel + 1, d =>
    if given / d > maxN then (if d + 1 < given then splitLoop given maxN fuel (d + 1) else .abort)
    else .ok (d, given / d)

/-- line 3160-3183 for one direction: (number of splits, nodes per patch); the loop ends before d reaches `given` -/
def split (given maxN : Nat) : Res (Nat × Nat) :=
  if maxN > 2 then splitLoop given maxN (given + 1) 1 else .abort

/-- the four branches on d2 (line 3366, 3396, 3440, 3482; the same tests for around and outermost patches) -/
inductive Layer where
  | top | bottom | only | mid
deriving DecidableEq, Repr

/-- line 3366, 3396, 3440: the order of the tests -/
def layer (N d : Nat) : Layer :=
  if d ≠ 0 ∧ d = N - 1 then .top else if d = 0 ∧ N > 1 then .bottom else if d = 0 ∧ N = 1 then .only else .mid

/-- line 3405-3412: distance of the flat surface of a side from the centre -/
def half (l w h : K) : Side → K
  | .up | .down => h / 2
  | .left | .right => w / 2
  | .back | .front => l / 2

/-- line 4129-4136: the same for the hemispheres of a binary -/
def halfHemi (l w h : K) : Side → K
  | .up | .down => h / 2
  | .left | .right => w
  | .back | .front => l / 2

/-- `min[i] = Xm + step*d`, line 3283 (and `max[i] = Xm + step*(d+1)`) -/
def cut (m M : K) (n d : Nat) : K := m + (M - m) / (n : K) * (d : K)

/-- `rmin + rstep*d2` with `rstep = (rmax-rmin)/Nsd[2]`, line 3296-3297 -/
def rad (rmin rmax : K) (n d : Nat) : K := rmin + (rmax - rmin) / (n : K) * (d : K)

/-- `xc*sqrt(1+Pow2(X[0])+Pow2(X[1]))`, line 3424 -/
def flat (L : Lib K) (xc : K) : K → K → K := fun X0 X1 => xc * dd L X0 X1

/-- the centre of an object, line 3511-3531 and 5018-5029 -/
def centre (S : K) (dir : Dir) : Fin 3 → K := fun i =>
  if i = 1 then (match dir with | .left => -S / 2 | .right => S / 2 | .center => 0) else 0

/-- `diag = sqrt(Pow2(l)+Pow2(w)+Pow2(h))/2.`, line 3260 -/
def diag (L : Lib K) (l w h : K) : K := L.sqrt (l * l + w * w + h * h) / 2

/-- all a patch is filled with, once the four cut positions, the two surfaces and the flat distances are known
(line 514-603) -/
def mk (g : In K) (type : CType) (s : Side) (c : Fin 3 → K) (x0 x1 y0 y1 : K) (R1 R2 : K → K → K) (xc1 xc2 : K) :
    Patch K where
  side := s
  type := type
  R1f := g.samp x0 x1 y0 y1 R1
  R2f := g.samp x0 x1 y0 y1 R2
  xc1 := xc1
  xc2 := xc2
  R1 := 0
  R2 := 0
  c := c
  mn := fun i => if i = 0 then x0 else if i = 1 then y0 else 0
  mx := fun i => if i = 0 then x1 else if i = 1 then y1 else 1

/-- line 3229-3532 (binary) and 4736-5029 (single): a patch of the object itself -/
def objPatch (L : Lib K) (g : In K) (n : Fin 3 → Nat) (dir : Dir) (s : Side) (d0 d1 d2 : Nat) : Patch K :=
  let o := g.obj dir
  let r := rad (diag L o.l o.w o.h) o.rmin (n 2)
  let xc := half o.l o.w o.h s
  let m := mk g .obScs s (centre g.S dir) (cut (-1) 1 (n 0) d0) (cut (-1) 1 (n 0) (d0 + 1)) (cut (-1) 1 (n 1) d1)
    (cut (-1) 1 (n 1) (d1 + 1))
  match layer (n 2) d2 with
  | .top => m (fun _ _ => r d2) (o.surf s) L.big L.big
  | .bottom => m (flat L xc) (fun _ _ => r (d2 + 1)) xc L.big
  | .only => m (flat L xc) (o.surf s) xc L.big
  | .mid => m (fun _ _ => r d2) (fun _ _ => r (d2 + 1)) L.big L.big

/-- line 3623-3922 (binary) and 5090-5380 (single): a patch around an object; l = w = h = S and
rmax = l/2 > MaxMag_d(w/2,h/2) ? l/2 : MaxMag_d(w/2,h/2), which is S/2 -/
def aroundPatch (L : Lib K) (g : In K) (n : Fin 3 → Nat) (dir : Dir) (s : Side) (d0 d1 d2 : Nat) : Patch K :=
  let o := g.obj dir
  let r := rad o.rmin (g.S / 2) (n 2)
  let xc := half g.S g.S g.S s
  let m := mk g .obScs s (centre g.S dir) (cut (-1) 1 (n 0) d0) (cut (-1) 1 (n 0) (d0 + 1)) (cut (-1) 1 (n 1) d1)
    (cut (-1) 1 (n 1) (d1 + 1))
  match layer (n 2) d2 with
  | .top => m (fun _ _ => r d2) (flat L xc) L.big xc
  | .bottom => m (o.surf s) (fun _ _ => r (d2 + 1)) L.big L.big
  | .only => m (o.surf s) (flat L xc) L.big xc
  | .mid => m (fun _ _ => r d2) (fun _ _ => r (d2 + 1)) L.big L.big

/-- line 3951-3990: the angular ranges (Xm,XM,Ym,YM) of a side of a hemisphere; for the single outermost (line 5386-5387)
they are [-1,1] -/
def ranges : Dir → Side → K × K × K × K
  | .center, _ => (-1, 1, -1, 1)
  | dir, .up => (-1, 1, 2 * (if dir = .left then -1 else 0), 2 * (if dir = .left then 0 else 1))
  | dir, .down => (2 * (if dir = .left then -1 else 0), 2 * (if dir = .left then 0 else 1), -1, 1)
  | _, .left => (-1 * (1 / 2), 1 * (1 / 2), -1 * (1 / 2), 1 * (1 / 2))
  | _, .right => (-1 * (1 / 2), 1 * (1 / 2), -1 * (1 / 2), 1 * (1 / 2))
  | dir, .back => (-1, 1, 2 * (if dir = .left then -1 else 0), 2 * (if dir = .left then 0 else 1))
  | dir, .front => (2 * (if dir = .left then -1 else 0), 2 * (if dir = .left then 0 else 1), -1, 1)

/-- flat distance of the outermost patches: hemispheres line 4129-4136, single line 5536-5543 -/
def xcOut (S : K) : Dir → Side → K
  | .center, s => half S S S s
  | _, s => halfHemi S S S s

/-- line 3925-4241 (hemispheres of a binary) and 5382-5640 (single): an outermost patch, centred at the origin -/
def outerPatch (L : Lib K) (g : In K) (n : Fin 3 → Nat) (dir : Dir) (s : Side) (d0 d1 d2 : Nat) : Patch K :=
  let r := rad (diag L g.S g.S g.S) g.rout (n 2)
  let xc := xcOut g.S dir s
  let q : K × K × K × K := ranges dir s
  let m := mk g .otScs s (fun _ => 0) (cut q.1 q.2.1 (n 0) d0) (cut q.1 q.2.1 (n 0) (d0 + 1))
    (cut q.2.2.1 q.2.2.2 (n 1) d1) (cut q.2.2.1 q.2.2.2 (n 1) (d1 + 1))
  match layer (n 2) d2 with
  | .top => m (fun _ _ => r d2) (fun _ _ => r (d2 + 1)) L.big L.big
  | .bottom => m (flat L xc) (fun _ _ => r (d2 + 1)) xc L.big
  | .only => m (flat L xc) (fun _ _ => g.rout) xc L.big
  | .mid => m (fun _ _ => r d2) (fun _ _ => r (d2 + 1)) L.big L.big

/-- the running centre `cen[i] += step[i]` of the box cells, line 3546-3570 -/
def cen (a st : K) : Nat → K
  | 0 => a
  | d + 1 => cen a st d + st

/-- line 3533-3618 and 5031-5087 with cartesian_coordinate.c:271-291: min and max of a cell of the central box -/
def boxPatch (g : In K) (n : Fin 3 → Nat) (dir : Dir) (d0 d1 d2 : Nat) : GPatch K :=
  let o := g.obj dir
  let len : Fin 3 → K := fun i => if i = 0 then o.l else if i = 1 then o.w else o.h
  let d : Fin 3 → Nat := fun i => if i = 0 then d0 else if i = 1 then d1 else d2
  let st : Fin 3 → K := fun i => len i / (n i : K)
  let c : Fin 3 → K := fun i => cen (centre g.S dir i - len i / 2 + st i / 2) (st i) (d i)
  .box (fun i => c i - st i / 2) (fun i => c i + st i / 2)

/-- the patch of a label -/
def patchOf (L : Lib K) (g : In K) (n : Fin 3 → Nat) : Label → GPatch K
  | .box dir d0 d1 d2 => boxPatch g n dir d0 d1 d2
  | .cs .obj dir s d0 d1 d2 => .cs (objPatch L g n dir s d0 d1 d2)
  | .cs .around dir s d0 d1 d2 => .cs (aroundPatch L g n dir s d0 d1 d2)
  | .cs .outer dir s d0 d1 d2 => .cs (outerPatch L g n dir s d0 d1 d2)

/-- typdef_data.h:24-29: the sides in the order of the loop over p -/
def sides : List Side := [.up, .down, .left, .right, .back, .front]

/-- line 487-493: the left hemisphere has no right side and conversely -/
def skip (part : Part) (dir : Dir) (s : Side) : Bool :=
  part == .outer && ((dir == .left && s == .right) || (dir == .right && s == .left))

/-- the triple loop over d0, d1, d2 (line 473-480, cartesian_coordinate.c:200-204) -/
def cells (n : Fin 3 → Nat) (f : Nat → Nat → Nat → List Label) : List Label :=
  (List.range (n 0)).flatMap fun d0 => (List.range (n 1)).flatMap fun d1 => (List.range (n 2)).flatMap fun d2 => f d0 d1 d2

/-- populate_CS_patch_SplitCS, line 473-624 -/
def csLabels (n : Fin 3 → Nat) (part : Part) (dir : Dir) : List Label :=
  cells n fun d0 d1 d2 => (sides.filter fun s => !skip part dir s).map fun s => .cs part dir s d0 d1 d2

/-- populate_box_patch_SplitCS -/
def boxLabels (n : Fin 3 → Nat) (dir : Dir) : List Label := cells n fun d0 d1 d2 => [.box dir d0 d1 d2]

/-- the side of the first and of the second object -/
def firstDir (left : Bool) : Dir := if left then .left else .right
/-- see `firstDir` -/
def secondDir (left : Bool) : Dir := if left then .right else .left

/-- line 133-413: the patches in the order in which they are made; `out`: is there an outermost region
(!EQL(r_outermost,0)) -/
def labels (kind : Kind) (out : Bool) (n : Fin 3 → Nat) : List Label :=
  let hemi := if out then csLabels n .outer .left ++ csLabels n .outer .right else []
  let single := if out then csLabels n .outer .center else []
  match kind with
  | .bhns nl filled =>
    let ns := firstDir nl
    let bh := secondDir nl
    boxLabels n ns ++ (csLabels n .obj ns ++ (csLabels n .around ns ++ (csLabels n .around bh ++ (hemi ++
      (if filled then csLabels n .obj bh ++ boxLabels n bh else [])))))
  | .nsns fl =>
    let a := firstDir fl
    let b := secondDir fl
    boxLabels n a ++ (boxLabels n b ++ (csLabels n .obj a ++ (csLabels n .around a ++ (csLabels n .obj b ++
      (csLabels n .around b ++ hemi)))))
  | .bhbh fl filled =>
    let a := firstDir fl
    let b := secondDir fl
    csLabels n .around a ++ (csLabels n .around b ++ (hemi ++
      (if filled then csLabels n .obj a ++ (boxLabels n a ++ (csLabels n .obj b ++ boxLabels n b)) else [])))
  | .sbh filled =>
    csLabels n .around .center ++ (single ++ (if filled then csLabels n .obj .center ++ boxLabels n .center else []))
  | .sns => csLabels n .around .center ++ (csLabels n .obj .center ++ (boxLabels n .center ++ single))

/-- line 3264-3289: the checks made for an object -/
def objOk (L : Lib K) (g : In K) (n : Fin 3 → Nat) (dir : Dir) : Bool :=
  let o := g.obj dir
  let dg := diag L o.l o.w o.h
  decide (o.rmin > 0) && decide ((o.rmin - dg) / (n 2 : K) > 0) && decide (o.l > 0 ∧ o.w > 0 ∧ o.h > 0) &&
    decide (¬ 2 * o.rmin > g.S) && (List.range (n 2)).all fun d => decide (rad dg o.rmin (n 2) (d + 1) > dg)

/-- line 3660-3688: the checks made for the region around an object -/
def aroundOk (L : Lib K) (g : In K) (n : Fin 3 → Nat) (dir : Dir) : Bool :=
  let o := g.obj dir
  decide (g.S > 0) && decide ((g.S / 2 - o.rmin) / (n 2 : K) > 0) &&
    (List.range (n 2)).all fun d => decide (rad o.rmin (g.S / 2) (n 2) (d + 1) < diag L g.S g.S g.S)

/-- line 4015-4018 and 5421-5424: the checks made for the outermost region -/
def outerOk (L : Lib K) (g : In K) (n : Fin 3 → Nat) : Bool :=
  decide (g.S > 0) && decide (¬ (if g.kind.binary then g.S / 2 > g.rout else 2 * g.S > g.rout)) &&
    decide ((g.rout - diag L g.S g.S g.S) / (n 2 : K) > 0)

/-- the objects that set_params loops over: params[0], params[1] of a binary, params[0] of a single -/
def dirs (kind : Kind) : List Dir := if kind.binary then [.left, .right] else [.center]

/-- is there an outermost region: !EQL(r_outermost,0), `e` = round-off -/
def hasOuter (e : K) (g : In K) : Bool := !decide (Tol.eql e g.rout 0)

/-- line 3126-5648 then 133-413: the patches of the grid and the nodes per patch, or the program stops -/
def build (L : Lib K) (e : K) (g : In K) : Res (List (GPatch K) × (Fin 3 → Nat)) :=
  match split (g.given 0) (g.maxN 0), split (g.given 1) (g.maxN 1), split (g.given 2) (g.maxN 2) with
  | .ok (a0, m0), .ok (a1, m1), .ok (a2, m2) =>
    let n : Fin 3 → Nat := fun i => if i = 0 then a0 else if i = 1 then a1 else a2
    let m : Fin 3 → Nat := fun i => if i = 0 then m0 else if i = 1 then m1 else m2
    if decide (g.S < 0) || !((dirs g.kind).all (objOk L g n)) || !((dirs g.kind).all (aroundOk L g n)) ||
        (hasOuter e g && !outerOk L g n) then .abort
    else .ok ((labels g.kind (hasOuter e g) n).map (patchOf L g n), m)
  | _, _, _ => .abort

end Elliptica.SplitCS
