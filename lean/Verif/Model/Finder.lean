import Verif.Model.Tol
import Verif.Model.Text
/-!
Model of the point finder and of the patch collectors,
Src/Main/Modules/Manifold/coordinate_utilities.c:16-198, 768-885, 1173-1292.

Patches of the grid are numbered 0..n-1 and `patch->pn` is that number (patch.c gives each patch its position
in grid->patch).  The coordinate map of a patch is a parameter: `accept p` is the value returned by
`X_of_x_precision(X,needle->x,patch,needle->precision_factor)` (non-zero = the point belongs to patch `p`).
-/
namespace Elliptica.Finder

/-- coordinate_lib typedef Needle_T (Src/Main/Core/core_lib.h): the three search lists and the answers.
`dangling` records that `needle->in` is a non-null pointer that was already freed. -/
structure Needle where
  guess : List Nat
  inn : List Nat
  ex : List Nat
  ans : List Nat
  dangling : Bool
deriving Repr, DecidableEq

/-- alloc_needle (memory_alloc, calloc): everything zero -/
def Needle.new : Needle := ⟨[], [], [], [], false⟩

/-- the common body of needle_ex/needle_in/needle_guess: linear search, append when absent -/
def addOnce (l : List Nat) (p : Nat) : List Nat := if p ∈ l then l else l ++ [p]

/-- coordinate_utilities.c:80-99 -/
def needleEx (nd : Needle) (p : Nat) : Needle := { nd with ex := addOnce nd.ex p }

/-- coordinate_utilities.c:101-120; `realloc` of a freed pointer is undefined behaviour -/
def needleIn (nd : Needle) (p : Nat) : Res Needle :=
  if nd.dangling then .ub else .ok { nd with inn := addOnce nd.inn p }

/-- coordinate_utilities.c:122-141 -/
def needleGuess (nd : Needle) (p : Nat) : Needle := { nd with guess := addOnce nd.guess p }

/-- coordinate_utilities.c:143-164: stops the program when the patch is already an answer -/
def needleAns (nd : Needle) (p : Nat) : Res Needle :=
  if p ∈ nd.ans then .abort else .ok { nd with ans := nd.ans ++ [p] }

/-- coordinate_utilities.c:166-198 `find`, the loop over the chosen list -/
def find (accept : Nat → Bool) : List Nat → Needle → Res Needle
  | [], nd => .ok nd
  | p :: ps, nd => if accept p then (needleAns nd p).bind (find accept ps) else find accept ps nd

/-- coordinate_utilities.c:33-46, 60-73: add to `in` every patch of the grid that is not in `l` -/
def addRest (l : List Nat) : List Nat → Needle → Res Needle
  | [], nd => .ok nd
  | p :: ps, nd => if p ∈ l then addRest l ps nd else (needleIn nd p).bind (addRest l ps)

/-- coordinate_utilities.c:16-77 `point_finder`; `n` = number of patches.
Line 30 frees `in` but keeps the pointer: it dangles unless it was null (i.e. unless `in` was empty). -/
def pointFinder (n : Nat) (accept : Nat → Bool) (nd : Needle) : Res Needle :=
  if nd.guess ≠ [] then
    (find accept nd.guess nd).bind fun nd1 =>
      if nd1.ans = [] then
        (addRest nd1.guess (List.range n)
          { nd1 with inn := [], dangling := decide (nd1.inn ≠ []) }).bind fun nd2 =>
            find accept nd2.inn nd2
      else .ok nd1
  else if nd.inn ≠ [] then find accept nd.inn nd
  else if nd.ex ≠ [] then
    (addRest nd.ex (List.range n) nd).bind fun nd2 => find accept nd2.inn nd2
  else .ok nd

/-- the calls a user makes to fill a needle -/
inductive Call where
  | ex (p : Nat) | inn (p : Nat) | guess (p : Nat)
deriving Repr, DecidableEq

/-- one such call on a needle without a dangling pointer -/
def call (nd : Needle) : Call → Needle
  | .ex p => needleEx nd p
  | .inn p => { nd with inn := addOnce nd.inn p }
  | .guess p => needleGuess nd p

/-- a fresh needle after a sequence of calls -/
def build (cs : List Call) : Needle := cs.foldl call Needle.new

/-- coordinate_utilities.c:1173-1188 `x_in_which_patch` and 1277-1292 `X_in_which_patch`: the first patch of the
collection whose coordinate map accepts the point, or null -/
def inWhichPatch (accept : Nat → Bool) : List Nat → Option Nat
  | [] => none
  | p :: ps => if accept p then some p else inWhichPatch accept ps

section force
variable {K : Type} [Field K] [LinearOrder K]

/-- coordinate_utilities.c:1223-1224 (one coordinate): push a coordinate into [mn,mx] -/
def clamp (mn mx v : K) : K :=
  let v := if v > mx then mx else v
  if v < mn then mn else v

/-- what the forced search needs to know about one patch: the box, X_of_x (value regardless of acceptance)
and the Cartesian distance of x_of_X(Xp) from the sought point -/
structure PatchF (K : Type) where
  mn : Fin 3 → K
  mx : Fin 3 → K
  X : Fin 3 → K
  dist : (Fin 3 → K) → K

/-- the adjusted coordinates, coordinate_utilities.c:1223-1228 and 1249-1254 -/
def PatchF.adj (p : PatchF K) : Fin 3 → K := fun i => clamp (p.mn i) (p.mx i) (p.X i)

/-- coordinate_utilities.c:1211-1240 the loop of `x_in_which_patch_force`: keep the first patch with the smallest
displacement among those that contain the point up to `eps`.  `min` starts at `big` = DBL_MAX. -/
def forceLoop (eps : K) : List (PatchF K) → Nat → K × Option Nat → K × Option Nat
  | [], _, acc => acc
  | p :: ps, k, (m, best) =>
    if Tol.isInside eps p.X p.mn p.mx then
      let dx := p.dist p.adj
      if dx < m then forceLoop eps ps (k + 1) (dx, some k) else forceLoop eps ps (k + 1) (m, best)
    else forceLoop eps ps (k + 1) (m, best)

/-- coordinate_utilities.c:1199-1266 `x_in_which_patch_force`: index of the patch and the adjusted coordinates -/
def force (eps big : K) (ps : List (PatchF K)) : Option (Nat × (Fin 3 → K)) :=
  match (forceLoop eps ps 0 (big, none)).2 with
  | none => none
  | some i => match ps[i]? with
    | none => none
    | some p => some (i, p.adj)
end force

/-! ### patch collectors -/

/-- name and region string of a patch -/
structure PatchR where
  name : Str
  region : Str
deriving Repr, DecidableEq

/-- strstr(s,t) ≠ null: `t` occurs in `s` -/
def occurs (t : Str) : Str → Bool
  | [] => t.isEmpty
  | c :: s => t.isPrefixOf (c :: s) || occurs t s

/-- coordinate_utilities.h:54-65 `Dictionary_SCS` -/
def dictionary : Str :=
  ["(BH_around)(BH_around_IB)(BH_around_OB)",
   "(BH1_around)(BH1_around_IB)(BH1_around_OB)",
   "(BH2_around)(BH2_around_IB)(BH2_around_OB)",
   "(NS_around)(NS_around_IB)(NS_around_OB)",
   "(NS1_around)(NS1_around_IB)(NS1_around_OB)",
   "(NS2_around)(NS2_around_IB)(NS2_around_OB)",
   "(NS_OB)(NS1_OB)(NS2_OB)",
   "(outermost)(outermost_IB)(outermost_OB)",
   "(filling_box)",
   "(left_central_box)(right_central_box)(center_central_box)",
   "(NS)(NS1)(NS2)(BH)(BH1)(BH2)"].flatMap String.toList

/-- Includes/manifold_lib.h:6 `PATCH_NAME_P_` -/
def namePrefix : Str := "grid".toList

/-- coordinate_utilities.c:834-885, the loop of IsItCovering over the requested items.  `pre` is PATCH_NAME_P_
(coordinate_utilities.h), `dict` is Dictionary_SCS, spell checking is on.  The 999-byte buffer is unbounded
here. -/
def covering (pre dict : Str) (patch : PatchR) : List Str → Res Bool
  | [] => .ok false
  | r :: rs =>
    if occurs pre r then
      if patch.name = r then .ok true else covering pre dict patch rs
    else
      let s := '(' :: r ++ [')']
      if occurs s dict then
        if occurs s patch.region then .ok true else covering pre dict patch rs
      else .abort

/-- coordinate_utilities.c:768-800 `collect_patches` (split-cubed-spherical grid): the patches in grid order that
cover one of the items.  `none` for the item list models region = ".*". -/
def collectLoop (pre dict : Str) (items : Option (List Str)) : List PatchR → Res (List PatchR)
  | [] => .ok []
  | p :: ps =>
    (match items with
     | none => Res.ok true
     | some l => covering pre dict p l).bind fun b =>
      (collectLoop pre dict items ps).bind fun r => .ok (if b then p :: r else r)

def collect (pre dict : Str) (items : Option (List Str)) (ps : List PatchR) : Res (List PatchR) :=
  (collectLoop pre dict items ps).bind fun r => if r = [] then .abort else .ok r

end Elliptica.Finder
