import Verif.Model.Finder
import Verif.Model.Schur
/-!
Model of the interfaces of split cubed spherical grids, Src/Main/Modules/Manifold/interface.c: `ri_split_cubed_spherical`
51-100 and the functions it calls: `fill_basics` 2284-2315, `L2` 2323-2352, `set_min_max_sum` 2361-2423, `set_sameXYZ`
2756-2793, `find_adjacent_scs` 2976-3358, `set_subfaces_scs` 3362-3396, `add_to_subface_scs` 842-943, `add_point_scs` 965-982,
`pair_subfaces_and_set_bc` 3400-3674, `counter_n_adjacent_faces` 3677-3720, `find_subface` 708-785, `misc` 191-229,
`test_subfaces` 232-330, `check_houseK` 2938-2955, and `get_paired_subface` (useful_functions.c:217-226).

The geometry is a parameter (`Geo`): which patches accept a position (`X_of_x_precision`), the inner products of the normals
at the centres of faces, `find_node` and `IsOnFace`.  The printing functions are left out.  `Uint` is `ℕ`.
-/
namespace Elliptica.Iface

variable {K : Type} [Field K] [LinearOrder K]

/-- the positions that are looked up: the centre of a face (3001-3049: shift 0 the centre, 1 moved along the normal by eps,
2 moved by eps+Huge_Eps), a node of a patch, a node moved along the normal of a face (3219-3232) -/
inductive Pos where
  | centre (p f shift : ℕ)
  | node (p l : ℕ)
  | off (p f l : ℕ)
deriving DecidableEq, Repr

/-- the geometry: `accept x a` is the value of X_of_x_precision for position x in patch a with PrecisionFactor; `dot p f a g`
the inner product of the normals at the centres of face f of patch p and face g of patch a; `node p l a` the answer of
find_node for node l of patch p in patch a; `onFace p l a g` the flag of IsOnFace for that node and face g of patch a -/
structure Geo (K : Type) where
  accept : Pos → ℕ → Bool
  dot : ℕ → ℕ → ℕ → ℕ → K
  node : ℕ → ℕ → ℕ → Option ℕ
  onFace : ℕ → ℕ → ℕ → ℕ → Bool

/-- the grid: number of patches, number of nodes in each direction, the flag patch->innerB, and the face that 3470-3494 wants
to be treated first (only for the grid kind BHNS; 5 for the patches around the objects, 3 for the star, otherwise none) -/
structure Grid where
  np : ℕ
  n : ℕ → ℕ → ℕ
  innerB : ℕ → Bool
  first : ℕ → Option ℕ

/-- Point_T (Core/core_lib.h); its patch and face are where it is stored -/
structure Point where
  ind : ℕ
  touch : Bool
  copy : Bool
  adj : ℕ
  adjFace : ℕ
  adjInd : ℕ
  adjIndF : ℕ
  same : Bool × Bool × Bool
  outerB : Bool
  innerB : Bool
  exterF : Bool
  edge : Bool
  houseK : Bool
deriving DecidableEq, Repr

/-- calloc -/
def Point.zero : Point := ⟨0, false, false, 0, 0, 0, 0, (false, false, false), false, false, false, false, false⟩

/-- what the string flags_str of 852-900 says; patch and face (its beginning) are those of the list it is compared in.
`none` is the character '-' -/
structure Key where
  touch : Bool
  copy : Bool
  adj : ℕ
  adjFace : Option ℕ
  same : Option (Bool × Bool × Bool)
  outerB : Bool
  innerB : Bool
  exterF : Bool
deriving DecidableEq, Repr

/-- SubFace_T (Core/core_lib.h); np is the length of id -/
structure Sub where
  key : Key
  sn : ℕ
  adjsn : ℕ
  adjFace : ℕ
  adj : ℕ
  same : Bool × Bool × Bool
  touch : Bool
  copy : Bool
  exterF : Bool
  outerB : Bool
  innerB : Bool
  dfdn : Bool
  id : List ℕ
  adjid : List ℕ
deriving DecidableEq, Repr

/-- the interfaces of a patch: points and subfaces of each face, interface->outerB and innerB, patch->outerB, and the array
point_flag of the patch -/
structure PState where
  pts : ℕ → ℕ → Point
  subs : ℕ → List Sub
  fout : ℕ → Bool
  fin : ℕ → Bool
  outerB : Bool
  flag : ℕ → Bool

/-! ### the points of the faces -/

/-- 2361-2423 `set_min_max_sum`: im, iM, jm, jM, km, kM, sum -/
def box (n : ℕ → ℕ) (f : ℕ) : Res (ℕ × ℕ × ℕ × ℕ × ℕ × ℕ × ℕ) :=
  match f with
  | 0 => .ok (0, 1, 0, n 1, 0, n 2, n 1 * n 2)
  | 1 => .ok (n 0 - 1, n 0, 0, n 1, 0, n 2, n 1 * n 2)
  | 2 => .ok (0, n 0, 0, 1, 0, n 2, n 0 * n 2)
  | 3 => .ok (0, n 0, n 1 - 1, n 1, 0, n 2, n 0 * n 2)
  | 4 => .ok (0, n 0, 0, n 1, 0, 1, n 0 * n 1)
  | 5 => .ok (0, n 0, 0, n 1, n 2 - 1, n 2, n 0 * n 1)
  | _ => .abort

/-- 2323-2352 `L2` (for the faces 0 … 5) -/
def l2 (n : ℕ → ℕ) (f i j k : ℕ) : ℕ :=
  if f = 0 ∨ f = 1 then k + n 2 * j else if f = 2 ∨ f = 3 then k + n 2 * i else j + n 1 * i

/-- number of points of a face (interface->np) -/
def faceNp (n : ℕ → ℕ) (f : ℕ) : ℕ :=
  match box n f with
  | .ok (_, _, _, _, _, _, s) => s
  | _ => 0

/-- macros_lib.h:47-50 `FOR_ijk` -/
def triples (im iM jm jM km kM : ℕ) : List (ℕ × ℕ × ℕ) :=
  (List.range' im (iM - im)).flatMap fun i => (List.range' jm (jM - jm)).flatMap fun j =>
    (List.range' km (kM - km)).map fun k => (i, j, k)

/-- 2301-2311, the body of the loop -/
def fillPoint (n : ℕ → ℕ) (f : ℕ) (pt : ℕ → Point) (t : ℕ × ℕ × ℕ) : ℕ → Point :=
  let l := Index.ijk (n 1) (n 2) t.1 t.2.1 t.2.2
  fun q => if q = l2 n f t.1 t.2.1 t.2.2
    then { pt q with ind := l, exterF := true, edge := Index.isOnEdge (n 0) (n 1) (n 2) l || (pt q).edge } else pt q

/-- 2284-2315 `fill_basics` for one face -/
def basics (n : ℕ → ℕ) (f : ℕ) : Res (ℕ → Point) :=
  (box n f).bind fun (im, iM, jm, jM, km, kM, sum) =>
    let ts := triples im iM jm jM km kM
    if ts.length = sum then .ok (ts.foldl (fillPoint n f) fun _ => Point.zero) else .abort

/-- the points of a face after `fill_basics` -/
def basic (n : ℕ → ℕ) (f : ℕ) : ℕ → Point :=
  match basics n f with
  | .ok pt => pt
  | _ => fun _ => Point.zero

/-- 57-78: the interfaces of a patch before the search (houseK is zero), or the failing assertion of fill_basics -/
def initPatch (n : ℕ → ℕ) : Res PState :=
  if (List.range 6).all fun f => (match basics n f with | .ok _ => true | _ => false) then .ok ⟨basic n, fun _ => [], fun _ => false, fun _ => false, false, fun _ => false⟩
  else .abort

/-! ### subfaces -/

/-- 852-900 the flags of a point -/
def Point.key (t : Point) : Key :=
  if t.touch && !t.copy then ⟨t.touch, t.copy, t.adj, some t.adjFace, some t.same, t.outerB, t.innerB, t.exterF⟩
  else if t.touch && t.copy then ⟨t.touch, t.copy, t.adj, some t.adjFace, none, t.outerB, t.innerB, t.exterF⟩
  else ⟨t.touch, t.copy, t.adj, none, none, t.outerB, t.innerB, t.exterF⟩

/-- 965-982 `add_point_scs` -/
def Sub.add (s : Sub) (t : Point) : Sub :=
  { s with id := s.id ++ [t.ind], adjid := if t.copy then s.adjid ++ [t.adjInd] else s.adjid }

/-- 913-938 a new subface (adjsn is UINT_MAX until the pairing) -/
def Point.sub (t : Point) (sn : ℕ) : Sub :=
  ⟨t.key, sn, 0, t.adjFace, t.adj, t.same, t.touch, t.copy, t.exterF, t.outerB, t.innerB, false, [], []⟩

/-- 902-942 the point is added to the first subface with its flags, or to a new one; k counts the subfaces -/
def addSub (t : Point) : ℕ → List Sub → List Sub
  | k, [] => [(t.sub k).add t]
  | k, s :: l => if s.key = t.key then s.add t :: l else s :: addSub t (k + 1) l

/-- a point of a face is changed -/
def PState.modify (P : PState) (f q : ℕ) (g : Point → Point) : PState :=
  { P with pts := fun f' q' => if f' = f ∧ q' = q then g (P.pts f' q') else P.pts f' q' }

/-- 842-943 `add_to_subface_scs` for point q of face f -/
def PState.addAt (P : PState) (f q : ℕ) : PState :=
  let t := P.pts f q
  { P with subs := fun f' => if f' = f then addSub t 0 (P.subs f') else P.subs f' }.modify f q fun t => { t with houseK := true }

/-- point_flag[l] = 1 -/
def PState.mark (P : PState) (l : ℕ) : PState := { P with flag := fun l' => if l' = l then true else P.flag l' }

/-! ### adjacent patches -/

/-- a needle with the excluded patches, `point_finder`, and its answers -/
def search (np : ℕ) (accept : ℕ → Bool) (ex : List ℕ) : Res (List ℕ) :=
  (Finder.pointFinder np accept (Finder.build (ex.map .ex))).map (·.ans)

/-- 3098-3116 and 3251-3281: among the pairs (patch, face) the first with the smallest |N1.N2-(-1)|; none: the pointer is null -/
def best (d : ℕ → ℕ → K) : List (ℕ × ℕ) → Option (ℕ × ℕ) → Option (ℕ × ℕ)
  | [], b => b
  | x :: l, none => best d l (some x)
  | x :: l, some b => if |d x.1 x.2 - (-1)| < |d b.1 b.2 - (-1)| then best d l (some x) else best d l (some b)

/-- 3142-3170 and 3291-3321: what is found out about a point: patch, face, and for a copy the node there and its number in
the face -/
abbrev Place := ℕ × ℕ × Option (ℕ × ℕ)

/-- 3146-3170 and 3294-3321: is the point a node of patch a? then the point of face g with that node is looked for -/
def place (G : Grid) (geo : Geo K) (p l a g : ℕ) : Res Place :=
  match geo.node p l a with
  | none => .ok (a, g, none)
  | some i =>
    match (List.range (faceNp (G.n a) g)).find? fun q => (basic (G.n a) g q).ind == i with
    | none => .abort
    | some q => .ok (a, g, some (i, q))

/-- 3131-3338: the patch and face adjacent to point `t` of face f; c is the choice for the centre of the face -/
def locate (G : Grid) (geo : Geo K) (p f : ℕ) (c : ℕ × ℕ) (t : Point) : Res Place :=
  if geo.accept (.node p t.ind) c.1 then place G geo p t.ind c.1 c.2
  else
    (search G.np (geo.accept (.node p t.ind)) [p, c.1]).bind fun r0 =>
    (if t.edge then .ok r0
     else if r0 = [] then search G.np (geo.accept (.off p f t.ind)) [p, c.1] else .ok r0 : Res (List ℕ)).bind fun r =>
    if r = [] then .abort
    else
      match best (geo.dot p f) (r.flatMap fun a => ((List.range 6).filter (geo.onFace p t.ind a)).map fun g => (a, g)) none with
      | none => .ub
      | some (a, g) => if geo.accept (.node p t.ind) a then place G geo p t.ind a g else .abort

/-- 2756-2793 `set_sameXYZ` -/
def sameXYZ (g : ℕ) : Bool × Bool × Bool :=
  if g = 0 ∨ g = 1 then (true, false, false) else if g = 2 ∨ g = 3 then (false, true, false) else (false, false, true)

/-- 3142-3170: the members of the point that are set -/
def Point.put (t : Point) (w : Place) : Point :=
  match w with
  | (a, g, some (i, q)) => { t with touch := true, adj := a, adjFace := g, copy := true, adjInd := i, adjIndF := q }
  | (a, g, none) => { t with touch := true, adj := a, adjFace := g, same := sameXYZ g }

/-- 3122-3353 one point of a face with neighbours -/
def stepPoint (G : Grid) (geo : Geo K) (p f : ℕ) (c : ℕ × ℕ) (P : PState) (q : ℕ) : Res PState :=
  let t := P.pts f q
  if P.flag t.ind then .ok (P.modify f q fun t => { t with houseK := true })
  else (locate G geo p f c t).bind fun w => .ok ((P.modify f q fun t => t.put w).mark t.ind)

/-- a loop that may end with an error -/
def loop {σ α : Type} (g : σ → α → Res σ) : List α → σ → Res σ
  | [], s => .ok s
  | a :: l, s => (g s a).bind (loop g l)

/-- 3056-3084 one point of a face without neighbours: inner boundary if the patch has the flag innerB, otherwise outer -/
def stepB (inner : Bool) (f : ℕ) (P : PState) (q : ℕ) : PState :=
  let P := P.modify f q fun t => if inner then { t with innerB := true } else { t with outerB := true }
  (P.addAt f q).mark (P.pts f q).ind

/-- 3056-3084 -/
def boundary (G : Grid) (p f : ℕ) (P : PState) : PState :=
  let P := if G.innerB p then P else { P with outerB := true }
  let P := (List.range (faceNp (G.n p) f)).foldl (stepB (G.innerB p) f) P
  if G.innerB p then { P with fin := fun f' => if f' = f then true else P.fin f' }
  else { P with fout := fun f' => if f' = f then true else P.fout f' }

/-- 2992-3357 the body of the loop over faces -/
def stepFace (G : Grid) (geo : Geo K) (p : ℕ) (P : PState) (f : ℕ) : Res PState :=
  (search G.np (geo.accept (.centre p f 0)) [p]).bind fun r0 =>
  (if r0 = [] then search G.np (geo.accept (.centre p f 1)) [p] else .ok r0).bind fun r =>
  if r = [] then
    (search G.np (geo.accept (.centre p f 2)) [p]).bind fun r2 => if r2 = [] then .ok (boundary G p f P) else .abort
  else
    match best (geo.dot p f) (r.flatMap fun a => (List.range 6).map fun g => (a, g)) none with
    | none => .ub
    | some c => loop (stepPoint G geo p f c) (List.range (faceNp (G.n p) f)) P

/-- 2976-3358 `find_adjacent_scs`: the faces from 5 down to 0 -/
def findAdjacent (G : Grid) (geo : Geo K) (p : ℕ) (P : PState) : Res PState :=
  loop (stepFace G geo p) [5, 4, 3, 2, 1, 0] P

/-- 3374-3391 one point in `set_subfaces_scs` -/
def stepSet (S : ℕ → PState) (x : ℕ × ℕ × ℕ) : ℕ → PState :=
  let t := (S x.1).pts x.2.1 x.2.2
  if t.houseK then S
  else
    let S : ℕ → PState := fun p => if p = x.1 then (S p).addAt x.2.1 x.2.2 else S p
    if t.copy then fun p =>
      if p = t.adj then
        ((S p).modify t.adjFace t.adjIndF fun u => { u with touch := true, copy := true, adjFace := x.2.1, adj := x.1, adjInd := t.ind }).addAt
          t.adjFace t.adjIndF
      else S p
    else S

/-- 82-86, 3362-3396 `set_subfaces_scs` for all patches: patches, faces and points in order -/
def setSubfaces (G : Grid) (S : ℕ → PState) : ℕ → PState :=
  ((List.range G.np).flatMap fun p => (List.range 6).flatMap fun f => (List.range (faceNp (G.n p) f)).map fun q => (p, f, q)).foldl
    stepSet S

/-! ### pairs and boundary conditions -/

/-- all subfaces of the grid -/
def allSubs (G : Grid) (S : ℕ → PState) : List Sub :=
  (List.range G.np).flatMap fun p => (List.range 6).flatMap (S p).subs

/-- 708-785 `find_subface`; the nodes have finite coordinates and a subface has points, so without copy the first touching
subface is taken -/
def findSub (S : ℕ → PState) (s : Sub) : Option Sub :=
  if s.copy then
    match s.adjid with
    | [] => none
    | a :: _ => ((S s.adj).subs s.adjFace).find? fun t => t.copy && t.id.contains a
  else ((S s.adj).subs s.adjFace).find? (·.touch)

/-- all subfaces are changed -/
def mapSubs (g : Sub → Sub) (S : ℕ → PState) : ℕ → PState := fun p => { S p with subs := fun f => ((S p).subs f).map g }

/-- 3428-3449 the pairing; every failure ends the program -/
def pair (G : Grid) (S : ℕ → PState) : Res (ℕ → PState) :=
  if (allSubs G S).all fun s => !s.touch || (findSub S s).isSome then
    .ok (mapSubs (fun s => if s.touch then { s with adjsn := ((findSub S s).map (·.sn)).getD 0 } else s) S)
  else .abort

/-- 3677-3720 `counter_n_adjacent_faces` -/
def countAdj : List Sub → List (ℕ × ℕ) → ℕ
  | [], seen => seen.length
  | s :: l, seen => if !s.touch then countAdj l seen else if (s.adj, s.adjFace) ∈ seen then countAdj l seen
      else countAdj l (seen ++ [(s.adj, s.adjFace)])

/-- 3404-3409 struct face_rank_S: pn, fn, Nof -/
abbrev Rank := ℕ × ℕ × ℕ

/-- 3457-3464 -/
def swap (r : ℕ → Rank) (i j : ℕ) : ℕ → Rank :=
  if (r j).2.2 > (r i).2.2 then fun k => if k = i then r j else if k = j then r i else r k else r

/-- 3452-3466 -/
def rank (N : ℕ) (r : ℕ → Rank) : ℕ → Rank :=
  (List.range N).foldl (fun r i => (List.range' (i + 1) (N - (i + 1))).foldl (fun r j => swap r i j) r) r

/-- 3428-3437: entry nfr of frank is face nfr%6 of patch nfr/6 -/
def frank (S : ℕ → PState) (k : ℕ) : Rank := (k / 6, k % 6, countAdj ((S (k / 6)).subs (k % 6)) [])

/-- df_dn of the faces (none: df_dn_set is 0) and the array isD; true is Neumann -/
structure BC where
  dn : ℕ → ℕ → Option Bool
  isD : ℕ → Bool

/-- face->df_dn = b; face->df_dn_set = 1; if (!face->df_dn) isD = 1 -/
def BC.set (c : BC) (p f : ℕ) (b : Bool) : BC :=
  ⟨fun p' f' => if p' = p ∧ f' = f then some b else c.dn p' f', fun p' => if p' = p ∧ b = false then true else c.isD p'⟩

/-- 3547-3563 and 3625-3641 the adjacent face of one subface -/
def setOther (bc : Bool) (c : BC) (s : Sub) : Res BC :=
  if !s.touch then .ok c
  else if c.dn s.adj s.adjFace = some bc then .abort
  else .ok (c.set s.adj s.adjFace (!bc))

/-- 3496-3564 and 3575-3642 one face -/
def setFace (S : ℕ → PState) (c : BC) (x : ℕ × ℕ) : Res BC :=
  let sf := (S x.1).subs x.2
  if (S x.1).fout x.2 || (S x.1).fin x.2 then (if sf.length = 1 then .ok c else .abort)
  else if (c.dn x.1 x.2).isSome then .ok c
  else
    let bc := c.isD x.1
    let bc := if sf.any fun s => s.touch && decide (c.dn s.adj s.adjFace = some bc) then !bc else bc
    loop (setOther bc) sf (c.set x.1 x.2 bc)

/-- 3468-3643: first the chosen faces, then all faces by rank -/
def order (G : Grid) (S : ℕ → PState) : List (ℕ × ℕ) :=
  ((List.range G.np).filterMap fun p => (G.first p).map fun f => (p, f)) ++
  (List.range (G.np * 6)).map fun k => ((rank (G.np * 6) (frank S) k).1, (rank (G.np * 6) (frank S) k).2.1)

/-- 3645-3669 the flag of the subfaces -/
def putDn (G : Grid) (c : BC) (S : ℕ → PState) : Res (ℕ → PState) :=
  if (List.range G.np).all fun p => (List.range 6).all fun f => ((S p).subs f).all fun s => !s.touch || (c.dn p f).isSome then
    .ok fun p => { S p with subs := fun f => ((S p).subs f).map fun s => if s.touch then { s with dfdn := (c.dn p f).getD false } else s }
  else .abort

/-- 3400-3674 `pair_subfaces_and_set_bc` -/
def pairAndBc (G : Grid) (S : ℕ → PState) : Res (ℕ → PState) :=
  (pair G S).bind fun S =>
  (loop (setFace S) (order G S) ⟨fun _ _ => none, fun _ => false⟩).bind fun c => putDn G c S

/-! ### checks -/

/-- UINT_MAX -/
def uintMax : ℕ := 4294967295

/-- 191-229 `misc` for one subface -/
def miscSub (s : Sub) : Sub := if s.outerB || s.innerB then { s with adj := uintMax, adjFace := uintMax } else s

/-- 191-229 `misc` -/
def misc (G : Grid) (S : ℕ → PState) : Res (ℕ → PState) :=
  if (List.range G.np).all fun p => (List.range 6).all fun f => ((S p).subs f).all fun s =>
      (!s.outerB || (S p).outerB) && (!s.innerB || G.innerB p) then .ok (mapSubs miscSub S)
  else .abort

/-- 245-274 the flags of a subface of patch p are consistent -/
def flagsOk (p : ℕ) (s : Sub) : Bool :=
  !(s.outerB && s.innerB) && !(s.outerB && s.touch) && !(s.innerB && s.touch) && !(s.outerB && s.copy) &&
  !(s.outerB && !s.exterF) && !(s.innerB && !s.exterF) && !(decide (p = s.adj) && !s.outerB && !s.innerB && s.exterF) &&
  !(s.same.1 && s.same.2.1) && !(s.same.1 && s.same.2.2) && !(s.same.2.2 && s.same.2.1)

/-- 276-302 the pair of a touching subface; a number outside of the list reads beyond the array -/
def pairOk (S : ℕ → PState) (s : Sub) : Res Unit :=
  if !s.touch then .ok ()
  else
    match ((S s.adj).subs s.adjFace)[s.adjsn]? with
    | none => .ub
    | some t => if s.dfdn = t.dfdn then .abort else if !t.touch then .abort else .ok ()

/-- 304-327 not all conditions of a patch are Neumann ones -/
def notAllN (P : PState) : Bool := (List.range 6).any fun f => (P.subs f).any fun s => !s.dfdn || s.outerB || s.innerB

/-- 232-330 `test_subfaces` (with `check_houseK` 2938-2955) -/
def test (G : Grid) (S : ℕ → PState) : Res Unit :=
  if !((List.range G.np).all fun p => (List.range 6).all fun f => (List.range (faceNp (G.n p) f)).all fun q => ((S p).pts f q).houseK)
    then .abort
  else if !((List.range G.np).all fun p => (List.range 6).all fun f => ((S p).subs f).all (flagsOk p)) then .abort
  else (loop (fun _ s => pairOk S s) (allSubs G S) ()).bind fun _ =>
    if (List.range G.np).all fun p => notAllN (S p) then .ok () else .abort

/-- 51-100 `ri_split_cubed_spherical`.  In the parallel loops a patch is read and written by its own iteration only (of the
others the nodes of their points and their normals are read, which do not change), so they are modelled patch by patch. -/
def realize (G : Grid) (geo : Geo K) : Res (ℕ → PState) :=
  (loop (fun (S : ℕ → PState) p => (initPatch (G.n p)).bind fun P => (findAdjacent G geo p P).bind fun P =>
      .ok fun p' => if p' = p then P else S p') (List.range G.np) fun _ => ⟨fun _ _ => Point.zero, fun _ => [], fun _ => false, fun _ => false, false, fun _ => false⟩).bind fun S =>
  (pairAndBc G (setSubfaces G S)).bind fun S =>
  (misc G S).bind fun S => (test G S).bind fun _ => .ok S

end Elliptica.Iface
