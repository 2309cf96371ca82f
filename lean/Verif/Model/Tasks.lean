import Verif.Model.Text
import Verif.Model.Field
/-!
Model of the lists of functions, Src/Main/Modules/Utilities/function_managing.c, and of the symmetric tensor fields,
Src/Main/Modules/Utilities/add_3x3_symmetric_field.c.

Simplifications: a function from a patch to void is a function on states that may stop the program; memory is never exhausted; a block of
memory is the list of its cells, and a cell is a pointer to an entry or null.
-/
namespace Elliptica.Tasks
open Text

/-- a pointer to an array of pointers -/
abbrev Mem (α : Type) := Option (List (Option α))

/-- function_managing.c:100, 138: the loop to the first null pointer; beyond the end of the block it is undefined -/
def count {α : Type} : List (Option α) → Nat → Res Nat
  | [], _ => .ub
  | none :: _, i => .ok i
  | some _ :: t, i => count t (i + 1)

/-- function_managing.c:96-111 `alloc_sFunc_Patch2Pdouble` and 134-149 `alloc_sFunc_PtoV`, with the entry filled in by the caller (22-33,
60-71): `realloc` to i+2 cells keeps the first i, then follow the new entry and a null pointer -/
def addFunc {α : Type} (m : Mem α) (x : α) : Res (Mem α) :=
  match m with
  | none => .ok (some [some x, none])
  | some l => (count l 0).bind fun i => .ok (some (l.take i ++ [some x, none]))

/-- the coordinate systems in use (manifold_lib.h `Coord_T`) -/
inductive Coord where
  | cartesian | cubedSpherical | spherical
deriving DecidableEq

/-- an entry of the list of functions from a patch to void -/
structure Task (S : Type) where
  task : Str
  coord : Coord
  f : S → Res S

/-- function_managing.c:44-49: the loop over the entries; the flag tells whether one was run -/
def loop {S : Type} (task : Str) (coord : Coord) : List (Option (Task S)) → S → Bool → Res (S × Bool)
  | [], _, _ => .ub
  | none :: _, s, found => .ok (s, found)
  | some t :: l, s, found =>
    if strcmpI (some t.task) (some task) ∧ t.coord = coord then (t.f s).bind fun s => loop task coord l s true
    else loop task coord l s found

/-- function_managing.c:36-53 `run_func_PtoV`; `coord` is the coordinate system of the patch -/
def run {S : Type} (m : Mem (Task S)) (task : Str) (coord : Coord) (s : S) : Res S :=
  match m with
  | none => .abort
  | some l => (loop task coord l s false).bind fun r => if r.2 then .ok r.1 else .abort

/-- function_managing.c:81-86: the loop over the names -/
def getLoop {F : Type} (name : Str) : List (Option (Str × F)) → Res (Option (Str × F))
  | [] => .ub
  | none :: _ => .ok none
  | some e :: l => if strcmpI (some e.1) (some name) then .ok (some e) else getLoop name l

/-- function_managing.c:73-89 `get_func_Patch2Pdouble` -/
def get {F : Type} (name : Str) (m : Mem (Str × F)) : Res (Option (Str × F)) :=
  match m with
  | none => .ok none
  | some l => getLoop name l

/-- the entries are added in turn, from the null pointer on (9-12, 55-58) -/
def addAll {α : Type} (m : Mem α) : List α → Res (Mem α)
  | [] => .ok m
  | x :: t => (addFunc m x).bind fun m => addAll m t

/-- add_3x3_symmetric_field.c:14-22, 25-33: the name is the stem with the text from the last underscore on, in a buffer of 999 bytes -/
def fieldName (stem idx : Str) : Res Str := if 999 ≤ (stem ++ idx).length then .ub else .ok (stem ++ idx)

/-- add_3x3_symmetric_field.c:53-58: the six of rank up, in this order -/
def ups : List Str := ["_U2U2", "_U1U2", "_U1U1", "_U0U2", "_U0U1", "_U0U0"].map String.toList

/-- add_3x3_symmetric_field.c:59-64: the six of rank down, in this order -/
def downs : List Str := ["_D0D0", "_D0D1", "_D0D2", "_D2D2", "_D1D1", "_D1D2"].map String.toList

/-- add_3x3_symmetric_field.c:14-33: fields with these indices, one after the other, without values `v` -/
def addNames {V : Type} (stem : Str) (v : V) : List Str → Field.Fields V → Res (Field.Fields V)
  | [], l => .ok l
  | i :: t, l => (fieldName stem i).bind fun n => (Field.add l n v).bind fun l => addNames stem v t l

/-- the loop over the patches -/
def eachPatch {P : Type} (f : P → Res P) : List P → Res (List P)
  | [] => .ok []
  | p :: t => (f p).bind fun p => (eachPatch f t).bind fun t => .ok (p :: t)

/-- add_3x3_symmetric_field.c:39-69 `add_3x3_symmetric_field` -/
def addSymmetric {V : Type} (stem rank : Str) (v : V) (grid : List (Field.Fields V)) : Res (List (Field.Fields V)) :=
  if strcmpI (some rank) (some "up".toList) then eachPatch (addNames stem v ups) grid
  else if strcmpI (some rank) (some "down".toList) then eachPatch (addNames stem v downs) grid
  else .abort

end Elliptica.Tasks
