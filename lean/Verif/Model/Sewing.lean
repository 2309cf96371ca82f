import Verif.Model.DInterp
import Verif.Model.Schur
/-!
Model of the coupling of the patches in the domain-decomposed solver: the partial residuals of the interface conditions
and the matrices F and C of their derivatives, Src/Main/Modules/Maths/Equation_Solvings/solve_eqs_ddm_schur_complement.c:
938-1369 (`making_F_and_C`, `populate_F_and_C`, `fill_C_F_interpolation`, `fill_C_F_collocation`), 1515-1566 (`make_g`),
1738-1990 (`populate_sewing`, `mirror_pairs`, `find_pair_in_sewing`, `populate_pair`), 2214-2555 (`make_partial_g`,
`pg_collocation`, `pg_interpolation`, `fill_interpolation_flags`, `const_index_of_face`), over `ℝ`.

Simplified: the normal vectors and the coordinates of the interpolation points (`normal_vec`, `X_of_x_precision`), computed
once in `populate_pair`, are data of the subface; a field enters by its values, with no cached coefficients (that caches
do not matter is C41, C54).  The entries of the Jacobian of the derivatives are the optimised ones (`ENTRY_FORM`, the
default); the workspace is set before each of them.
-/
namespace Elliptica.Sew
open Elliptica.Index Elliptica.Deriv Elliptica.Jac Elliptica.DInterp Mat

/-- the members of SubFace_T (Core/Includes/core_lib.h) used by the coupling: those of the labelling (id, outerB, innerB,
exterF) and adjid, adjPatch, face, sn, adjFace, touch, copy, df_dn, (sameX, sameY, sameZ); `nv` and `ip` are the arrays of
the pair: outward normal of the subface at its points, and coordinates of the points in the adjacent patch -/
structure SubFace extends Schur.SubFace where
  adjid : List ℕ
  adj : ℕ
  face : ℕ
  sn : ℕ
  adjFace : ℕ
  touch : Bool
  copy : Bool
  dfdn : Bool
  same : Bool × Bool × Bool
  nv : ℕ → Fin 3 → ℝ
  ip : ℕ → Fin 3 → ℝ

/-- a patch with its subfaces (of all faces in order) and its labels (`Schur.makeMapAndInv`); NI is the length of Iinv -/
structure Dom where
  P : Deriv.Patch
  sfs : List SubFace
  L : Schur.Labels
  NS : ℕ

/-- number of interface nodes -/
def Dom.NI (d : Dom) : ℕ := d.L.Iinv.length

variable (e : ℝ) (ws : Pts)

/-! ### where to interpolate -/

/-- 2519-2553 `const_index_of_face`; none is UINT_MAX -/
def constIndex (p : Deriv.Patch) (sf : SubFace) : Res (Option ℕ) :=
  if sf.touch then
    match sf.adjFace with
    | 0 => .ok (some 0)
    | 1 => .ok (some (p.n 0 - 1))
    | 2 => .ok (some 0)
    | 3 => .ok (some (p.n 1 - 1))
    | 4 => .ok (some 0)
    | 5 => .ok (some (p.n 2 - 1))
    | _ => .abort
  else .ok none

/-- an index of UINT_MAX reads outside the arrays -/
def inArray (c : Option ℕ) : Res ℕ :=
  match c with
  | none => .ub
  | some i => .ok i

/-- 2477-2505 `fill_interpolation_flags` with the checks of `plan_interpolation` (interpolations.c:95-118): the plane of
the interpolation (none: three dimensions) and its index -/
def flags (p : Deriv.Patch) (sf : SubFace) : Res (Option (Fin 3) × ℕ) :=
  let r : Res (Option (Fin 3) × ℕ) :=
    if sf.same.1 then (constIndex p sf).bind fun c => (inArray c).bind fun i => .ok (some 0, i)
    else if sf.same.2.1 then (constIndex p sf).bind fun c => (inArray c).bind fun i => .ok (some 1, i)
    else if sf.same.2.2 then (constIndex p sf).bind fun c => (inArray c).bind fun i => .ok (some 2, i)
    else .ok (none, 0)
  r.bind fun x => if ∀ d : Fin 3, p.basis d = .tn ∧ p.coll d = .extrema then .ok x else .abort

/-! ### F and C -/

/-- F (row-major) and C of one patch for the interface equations of one patch -/
abbrev FC := (ℕ → ℝ) × (ℕ × ℕ → ℝ)

/-- the loops "F part" and "C part" over the labels of the patch, e.g. 1140-1163: c(node) is added in row r -/
noncomputable def addRow (a : Dom) (r : ℕ) (c : ℕ → ℝ) (m : FC) : FC :=
  ((List.range a.NS).foldl (fun F s => addTo F (Index.ij a.NS r s) (c (a.L.inv.getD s 0))) m.1,
   (List.range a.NI).foldl (fun C i => addTo C (r, i) (c (a.L.Iinv.getD i 0))) m.2)

/-- the loops over the points of a subface: those without interface label are left out -/
def points (Imap : ℕ → Option ℕ) (sf : SubFace) (f : ℕ → ℕ → FC → FC) (m : FC) : FC :=
  (List.range sf.id.length).foldl (fun m s =>
    match Imap (sf.id.getD s 0) with
    | none => m
    | some r => f s r m) m

/-- N[0]*dfx_df+N[1]*dfy_df+N[2]*dfz_df, e.g. 1144-1148 -/
noncomputable def jacN (p : Deriv.Patch) (N : Fin 3 → ℝ) (ijk lmn : ℕ) : ℝ :=
  N 0 * entry1 e p ws 0 ijk lmn + N 1 * entry1 e p ws 1 ijk lmn + N 2 * entry1 e p ws 2 ijk lmn

/-- the index of the plane as an argument of the functions of `get_dInterp_df`: in three dimensions it is not used, in a
plane UINT_MAX is an access outside of the arrays (only in the functions for derivatives) -/
def planeArg (pl : Option (Fin 3)) (c : Option ℕ) : Res ℕ :=
  match pl with
  | none => .ok 0
  | some _ => inArray c

/-- 1079-1264 `fill_C_F_interpolation`; `a` is the patch whose unknowns are varied (patch1), `own` says that the subface
belongs to it (patch->pn == ppn), Imap2 is the interface map of the patch of the subface -/
noncomputable def fillI (a : Dom) (own : Bool) (Imap2 : ℕ → Option ℕ) (sf : SubFace) (m : FC) : Res FC :=
  if sf.dfdn then
    if own then
      .ok (points a.L.Imap sf (fun s r => addRow a r fun l => -1 * jacN e ws a.P (sf.nv s) (sf.id.getD s 0) l) m)
    else
      (constIndex a.P sf).bind fun c =>
      (pick a.P (some sf.same) "x derivative").bind fun cx =>
      (pick a.P (some sf.same) "y derivative").bind fun cy =>
      (pick a.P (some sf.same) "z derivative").bind fun cz =>
      (planeArg cx.1 c).bind fun plane =>
      .ok (points Imap2 sf (fun s r => addRow a r fun l => 1 *
        (sf.nv s 0 * dInterp e a.P cx (sf.ip s) l plane + sf.nv s 1 * dInterp e a.P cy (sf.ip s) l plane +
          sf.nv s 2 * dInterp e a.P cz (sf.ip s) l plane)) m)
  else if own then
    .ok (points a.L.Imap sf (fun _ r m => (m.1, addTo m.2 (r, r) 1)) m)
  else
    (pick a.P (some sf.same) "none").bind fun c =>
    .ok (points Imap2 sf (fun s r => addRow a r fun l => -1 * dInterp e a.P c (sf.ip s) l 0) m)

/-- one point of 1351-1366: `C[i2][i1] += sign` with i1 = Imap1[node1]; UINT_MAX is an access outside of the array -/
noncomputable def collStep (a : Dom) (node1 : List ℕ) (Imap2 : ℕ → Option ℕ) (sign : ℝ) (sf : SubFace) (m : FC) (s : ℕ) : Res FC :=
  match Imap2 (sf.id.getD s 0) with
  | none => .ok m
  | some i2 =>
    match a.L.Imap (node1.getD s 0) with
    | none => .ub
    | some i1 => .ok (m.1, addTo m.2 (i2, i1) sign)

/-- 1267-1369 `fill_C_F_collocation` -/
noncomputable def fillC (a : Dom) (own : Bool) (Imap2 : ℕ → Option ℕ) (sf : SubFace) (m : FC) : Res FC :=
  let node1 := if own then sf.id else sf.adjid
  if sf.dfdn then
    let sign : ℝ := if own then -1 else 1
    .ok (points Imap2 sf (fun s r => addRow a r fun l => sign * jacN e ws a.P (sf.nv s) (node1.getD s 0) l) m)
  else
    let sign : ℝ := if own then 1 else -1
    (List.range sf.id.length).foldl (fun m s => m.bind fun m => collStep a node1 Imap2 sign sf m s) (.ok m)

/-- 1034-1066 `populate_F_and_C` -/
noncomputable def populate (a : Dom) (own : Bool) (Imap2 : ℕ → Option ℕ) (sf : SubFace) (m : FC) : Res FC :=
  if !sf.exterF then .abort
  else if sf.innerB then .abort
  else if sf.outerB then .abort
  else if sf.touch && sf.copy then fillC e ws a own Imap2 sf m
  else fillI e ws a own Imap2 sf m

/-- 1738-1913 `populate_sewing` with `make_its_sewing` and `make_others_sewing`: the pairs of sewing[q] of patch a -/
def pairs (D : ℕ → Dom) (a q : ℕ) : List SubFace :=
  (D q).sfs.filter fun s => !s.innerB && !s.outerB && (a == q || s.adj == a)

/-- 974-980, the loop over the pairs of a sewing -/
noncomputable def popAll (a : Dom) (own : Bool) (Imap2 : ℕ → Option ℕ) : List SubFace → FC → Res FC
  | [], m => .ok m
  | sf :: l, m => (populate e ws a own Imap2 sf m).bind fun m => popAll a own Imap2 l m

/-- 938-983 `making_F_and_C`: the blocks of patch a for the interface equations of patch q, none when there is no
sewing[q] -/
noncomputable def makeFC (D : ℕ → Dom) (a q : ℕ) : Res (Option FC) :=
  if (pairs D a q).isEmpty then .ok none
  else (popAll e ws (D a) (a == q) (D q).L.Imap (pairs D a q) (fun _ => 0, fun _ => 0)).bind fun m => .ok (some m)

/-! ### the partial residuals -/

/-- the loop over the points of a subface: every one adds to its entry of pg -/
noncomputable def seqR (n : ℕ) (f : ℕ → Res ℝ) : Res (ℕ → ℝ) :=
  (List.range n).foldl (fun g s => g.bind fun g => (f s).bind fun x => .ok (addTo g s x)) (.ok fun _ => 0)

/-- the three Cartesian derivatives of the field (`Partial_Derivative(f,"x")`…) -/
noncomputable def grad (p : Deriv.Patch) (v : ℕ → ℝ) : Res (Fin 3 → ℕ → ℝ) :=
  (takeDer e p ⟨v, none, none⟩ [.x 0]).bind fun x =>
  (takeDer e p ⟨v, none, none⟩ [.x 1]).bind fun y =>
  (takeDer e p ⟨v, none, none⟩ [.x 2]).bind fun z => .ok ![x.2, y.2, z.2]

/-- `execute_interpolation` of a field with values w -/
noncomputable def execI (p : Deriv.Patch) (fl : Option (Fin 3) × ℕ) (w : ℕ → ℝ) (X : Fin 3 → ℝ) : Res ℝ :=
  (interp e p fl.1 fl.2 ⟨w, none, none⟩ X).bind fun r => .ok r.2

/-- 2341-2474 `pg_interpolation`: v are the values of the field in patch a -/
noncomputable def pgI (a : Dom) (own : Bool) (sf : SubFace) (v : ℕ → ℝ) : Res (ℕ → ℝ) :=
  if sf.dfdn then
    (grad e a.P v).bind fun w =>
    if own then
      seqR sf.id.length fun s => let l := sf.id.getD s 0
        .ok (-1 * (sf.nv s 0 * w 0 l + sf.nv s 1 * w 1 l + sf.nv s 2 * w 2 l))
    else
      (flags a.P sf).bind fun fl =>
      seqR sf.id.length fun s =>
        (execI e a.P fl (w 0) (sf.ip s)).bind fun x =>
        (execI e a.P fl (w 1) (sf.ip s)).bind fun y =>
        (execI e a.P fl (w 2) (sf.ip s)).bind fun z =>
        .ok (1 * (sf.nv s 0 * x + sf.nv s 1 * y + sf.nv s 2 * z))
  else if own then
    seqR sf.id.length fun s => .ok (1 * v (sf.id.getD s 0))
  else
    (flags a.P sf).bind fun fl =>
    seqR sf.id.length fun s => (execI e a.P fl v (sf.ip s)).bind fun x => .ok (-1 * x)

/-- 2279-2335 `pg_collocation` -/
noncomputable def pgC (a : Dom) (own : Bool) (sf : SubFace) (v : ℕ → ℝ) : Res (ℕ → ℝ) :=
  let node := if own then sf.id else sf.adjid
  if sf.dfdn then
    let sign : ℝ := if own then -1 else 1
    (grad e a.P v).bind fun w =>
    seqR sf.id.length fun s => let l := node.getD s 0
      .ok (sign * (sf.nv s 0 * w 0 l + sf.nv s 1 * w 1 l + sf.nv s 2 * w 2 l))
  else
    let sign : ℝ := if own then 1 else -1
    seqR sf.id.length fun s => .ok (sign * v (node.getD s 0))

/-- 2239-2273 `make_pg` -/
noncomputable def makePg (a : Dom) (own : Bool) (sf : SubFace) (v : ℕ → ℝ) : Res (ℕ → ℝ) :=
  if !sf.exterF then .abort
  else if sf.innerB then .abort
  else if sf.outerB then .abort
  else if sf.touch && sf.copy then pgC e a own sf v
  else pgI e a own sf v

/-- 1797-1817 `find_pair_in_sewing`: the first pair with the face and the number of the subface -/
def findPair (l : List SubFace) (sf : SubFace) : Option SubFace := l.find? fun s => s.face == sf.face && s.sn == sf.sn

/-- 2214-2236, 1770-1793 and 1515-1566 for one subface of patch q: the partial residual of the patch itself and that of the
mirror pair, in the sewing of the adjacent patch; no such pair is a failed assertion, no such patch or sewing an access
outside of the arrays -/
noncomputable def pairOf (np : ℕ) (D : ℕ → Dom) (q : ℕ) (v : ℕ → ℕ → ℝ) (sf : SubFace) : Res (Schur.GPair ℝ) :=
  if np ≤ sf.adj then .ub
  else if (pairs D sf.adj q).isEmpty then .ub
  else
    match findPair (pairs D sf.adj q) sf with
    | none => .abort
    | some sf2 =>
      (makePg e (D q) true sf (v q)).bind fun pg1 =>
      (makePg e (D sf.adj) (sf.adj == q) sf2 (v sf.adj)).bind fun pg2 => .ok ⟨sf.id, pg1, pg2⟩

/-- the loop over the pairs of a patch -/
noncomputable def pairsOf (np : ℕ) (D : ℕ → Dom) (q : ℕ) (v : ℕ → ℕ → ℝ) : List SubFace → Res (List (Schur.GPair ℝ))
  | [] => .ok []
  | sf :: l => (pairOf e np D q v sf).bind fun g => (pairsOf np D q v l).bind fun l => .ok (g :: l)

/-- 1515-1566 `make_g` of patch q: v are the values of the field in all patches -/
noncomputable def residual (np : ℕ) (D : ℕ → Dom) (v : ℕ → ℕ → ℝ) (q : ℕ) : Res (ℕ → ℝ) :=
  (pairsOf e np D q v (pairs D q q)).bind fun l => .ok (Schur.makeG (D q).L.Imap l)

end Elliptica.Sew
