import Verif.Model.Params
/-!
Model of the array of live grids, Src/Main/Modules/Manifold/grid.c.
-/
namespace Elliptica.Grid
open Params

/-- a grid: its identity (the pointer) and its number `gn` -/
structure G where
  ptr : Nat
  gn : Nat
deriving DecidableEq, Repr

/-- the array grids_global (without the final null) and the next fresh pointer -/
structure State where
  live : List G
  fresh : Nat
deriving DecidableEq, Repr

def init : State := ⟨[], 0⟩

/-- grid.c:214-236 `alloc_grid`: append, number = number of the last grid in the array + 1 -/
def alloc (s : State) : State :=
  ⟨s.live ++ [⟨s.fresh, match s.live.getLast? with | none => 0 | some g => g.gn + 1⟩], s.fresh + 1⟩

/-- grid.c:268-303 `free_grid`: the last grid of the array takes the place of the freed one (the patches of the grid, freed
in lines 275-280, are not modelled) -/
def free (s : State) (p : Nat) : State :=
  match s.live.findIdx? (fun g => g.ptr = p) with
  | none => s
  | some i =>
    match s.live.getLast? with
    | none => s
    | some last => ⟨(s.live.set i last).dropLast, s.fresh⟩

inductive Op | alloc | free (p : Nat)
deriving DecidableEq, Repr

def step (s : State) : Op → State
  | .alloc => alloc s
  | .free p => free s p

def run (s : State) (ops : List Op) : State := ops.foldl step s

/-- strstr(s,p) != NULL -/
def contains (p : Str) : Str → Bool
  | [] => p.isEmpty
  | c :: s => p.isPrefixOf (c :: s) || contains p s

/-- grid.c:377-378: the prefix of the parameters of grid `gn`, after the name rule; PATCH_NAME_PRT_P_ is "grid%u_"
(manifold_lib.h:6-9) -/
def prefixOf (gn : Nat) : Str := nameRule ("grid".toList ++ showNat gn ++ ['_'])

/-- grid.c:379-391, the loop over the parameters; `fuel` bounds the number of turns (np) -/
def paramLoop {D : Type} (pre : Str) : Nat → Nat → DB D → DB D
  | 0, _, db => db
  | fuel + 1, i, db =>
    match (entries db)[i]? with
    | none => db
    | some p => if contains pre p.lv then paramLoop pre fuel i (freePar db p.lv) else paramLoop pre fuel (i + 1) db

/-- grid.c:365-394 `free_grid_params` -/
def freeParams {D : Type} (db : DB D) (gn : Nat) : DB D := paramLoop (prefixOf gn) (entries db).length 0 db

end Elliptica.Grid
