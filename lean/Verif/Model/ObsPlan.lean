import Verif.Model.Text
import Verif.Model.Observe
/-!
Model of the plans of the ADM momenta, Src/Main/Modules/Physics/Observe/obs_calculate.c:548-1358 (`calc_ADM_J`) and 1362-2218
(`calc_ADM_P`), with the macros of obs_calculate.h:16-51: which regions are collected for volume integrals, which surfaces, on which
side of the patches, and by which formula they are added up.

Simplifications: a region is a list of names (the comma-separated text; the last, empty, name of "NS1_OB,NS2_OB," at :1500 is left
out), each name is collected on its own and stands for one patch or more; the chains of else-if are lists searched from the front.
The sums over the collected patches are those of Verif/Model/Observe.lean.
-/
namespace Elliptica.ObsPlan
open Text

/-- the kinds of grids; `other`: none of the split cubed spherical ones -/
inductive Kind where
  | bhns | nsns | bhbh | sbh | sns | other
deriving DecidableEq

/-- the side of a surface: K = 0 or K = n[2]-1 -/
inductive Side where
  | inner | outer
deriving DecidableEq

/-- a plan: the formula, the regions of the volume integrals, and the surfaces -/
structure Plan (M : Type) where
  method : M
  vol : List Str
  surf : List (Str × Side)
deriving DecidableEq

/-- an entry of the collection: the method, the regions for volumes, those for surfaces, and the regions for which the surface is
prepared (`none`: no test) with the side -/
structure Entry where
  method : Str
  vol : List Str
  surf : List Str
  sides : List (Option (List Str) × Side)

/-- the first entry with the key, up to letter case -/
def find {α : Type} (key : Str) : List (Str × α) → Option α
  | [] => none
  | (k, v) :: t => if strcmpI (some key) (some k) then some v else find key t

/-- the first case that covers the region -/
def sideOf (r : Str) : List (Option (List Str) × Side) → Option Side
  | [] => none
  | (none, s) :: _ => some s
  | (some l, s) :: t => if r ∈ l then some s else sideOf r t

/-- shorthand for texts -/
def T (l : List String) : List Str := l.map String.toList

/-- a surface at the outer boundary -/
def sInf : Entry := ⟨"S_inf,default".toList, [], T ["outermost_OB"], [(none, .outer)]⟩

/-- obs_calculate.h:16-33, 36-47 `Collect_outermost_S_V_SplitCS`, `Set_outermost_integral_S_SplitCS`; `one`: one split -/
def ossP (one : Bool) : Entry :=
  if one then ⟨"S+V,Ossokine".toList, [], T ["outermost_OB"], [(none, .outer)]⟩
  else ⟨"S+V,Ossokine".toList, T ["outermost_OB"], T ["outermost_OB"], [(none, .inner)]⟩

/-- obs_calculate.c:590-595 and alike, with obs_calculate.h:36-47 -/
def ossJ (one : Bool) : Entry :=
  ⟨"S+V,Ossokine".toList, [], T ["outermost_OB"], [(none, if one then .outer else .inner)]⟩

/-- obs_calculate.c:1546-1557 and alike: the surface of one object -/
def sObj (r : String) (s : Side) : Entry := ⟨"S_obj,default".toList, [], T [r], [(none, s)]⟩

/-- an entry whose surfaces are all inner ones and are tested -/
def stokes (m : String) (vol surf : List String) : Entry := ⟨m.toList, T vol, T surf, [(some (T surf), .inner)]⟩

/-- obs_calculate.c:1382-1669 (collection), 1815-2172 (sides) -/
def tableP (one : Bool) : List (Str × List Entry) :=
  [("ADM(P)|BHNS".toList,
    [sInf, ossP one,
     stokes "S+V,Rashti" ["outermost", "filling_box", "NS_around", "NS", "BH_around"] ["BH_around_IB"],
     stokes "S+V,constraint" ["outermost", "filling_box", "NS_around", "BH_around"] ["NS_around_IB", "BH_around_IB"],
     ⟨"S_obj1+S_obj2,default".toList, [], T ["NS_OB", "BH_around_IB"], [(some (T ["BH_around_IB"]), .inner), (some (T ["NS_OB"]), .outer)]⟩]),
   ("ADM(P)|BHBH".toList,
    [sInf, ossP one,
     stokes "S+V,Rashti" ["outermost", "filling_box", "BH1_around", "BH2_around"] ["BH1_around_IB", "BH2_around_IB"],
     stokes "S+V,constraint" ["outermost", "filling_box", "NS_around", "BH_around"] ["BH1_around_IB", "BH2_around_IB"],
     stokes "S_obj1+S_obj2,default" [] ["BH1_around_IB", "BH2_around_IB"]]),
   ("ADM(P)|NSNS".toList,
    [sInf, ossP one,
     ⟨"S+V,Rashti".toList, T ["outermost", "filling_box", "NS1_around", "NS1", "NS2_around", "NS2"], [], []⟩,
     stokes "S+V,constraint" ["outermost", "filling_box", "NS1_around", "NS1", "NS2_around", "NS2"] ["NS1_around_IB", "NS2_around_IB"],
     ⟨"S_obj1+S_obj2,default".toList, [], T ["NS1_OB", "NS2_OB"], [(some (T ["NS1_OB"]), .outer), (some (T ["NS2_OB"]), .outer)]⟩]),
   ("ADM(P)|SNS".toList,
    [sInf, ossP one,
     ⟨"S+V,Rashti".toList, T ["outermost", "filling_box", "NS_around", "NS"], [], []⟩,
     stokes "S+V,constraint" ["outermost", "filling_box", "NS_around", "NS"] ["NS_around_IB"],
     ⟨"S_obj,default".toList, [], T ["NS_OB"], [(some (T ["NS_OB"]), .outer)]⟩]),
   ("ADM(P)|NS".toList, [sObj "NS_OB" .outer]), ("ADM(P)|NS1".toList, [sObj "NS1_OB" .outer]), ("ADM(P)|NS2".toList, [sObj "NS2_OB" .outer]),
   ("ADM(P)|BH".toList, [sObj "BH_around_IB" .inner]), ("ADM(P)|BH1".toList, [sObj "BH1_around_IB" .inner]),
   ("ADM(P)|BH2".toList, [sObj "BH2_around_IB" .inner]),
   ("ADM(P)|SBH".toList,
    [sInf, ossP one, ⟨"S+V,Rashti".toList, T ["outermost", "BH_around"], T ["BH_around_IB"], [(none, .inner)]⟩])]

/-- obs_calculate.c:568-833 (collection), 1003-1320 (sides) -/
def tableJ (one : Bool) : List (Str × List Entry) :=
  [("ADM(J)|BHNS".toList,
    [sInf, ossJ one,
     stokes "S+V,constraint" ["outermost", "filling_box", "NS_around", "BH_around"] ["NS_around_IB", "BH_around_IB"],
     ⟨"S_obj1+S_obj2,default".toList, [], T ["NS_OB", "BH_around_IB"], [(some (T ["BH_around_IB"]), .inner), (some (T ["NS_OB"]), .outer)]⟩]),
   ("ADM(J)|BHBH".toList,
    [sInf, ossJ one,
     stokes "S+V,constraint" ["outermost", "filling_box", "BH1_around", "BH2_around"] ["BH1_around_IB", "BH2_around_IB"],
     stokes "S_obj1+S_obj2,default" [] ["BH1_around_IB", "BH2_around_IB"]]),
   ("ADM(J)|NSNS".toList,
    [sInf, ossJ one,
     stokes "S+V,constraint" ["outermost", "filling_box", "NS1_around", "NS2_around"] ["NS1_around_IB", "NS2_around_IB"],
     ⟨"S_obj1+S_obj2,default".toList, [], T ["NS1_OB", "NS2_OB"], [(some (T ["NS1_OB"]), .outer), (some (T ["NS2_OB"]), .outer)]⟩]),
   ("ADM(J)|SNS".toList,
    [sInf, ossJ one,
     stokes "S+V,constraint" ["outermost", "filling_box", "NS_around"] ["NS_around_IB"],
     ⟨"S_obj,default".toList, [], T ["NS_OB"], [(some (T ["NS_OB"]), .outer)]⟩]),
   ("ADM(J)|NS".toList, [sObj "NS_OB" .outer]), ("ADM(J)|NS1".toList, [sObj "NS1_OB" .outer]), ("ADM(J)|NS2".toList, [sObj "NS2_OB" .outer]),
   ("ADM(J)|BH".toList, [sObj "BH_around_IB" .inner]), ("ADM(J)|BH1".toList, [sObj "BH1_around_IB" .inner]),
   ("ADM(J)|BH2".toList, [sObj "BH2_around_IB" .inner]),
   ("ADM(J)|SBH".toList, [sInf, ossJ one])]

/-- obs_calculate.c:1709-1767: the loop over the volume patches of P knows these quantities, and not the grid of two black holes -/
def volumesP : List Str := T ["ADM(P)|BHNS", "ADM(P)|NSNS", "ADM(P)|SNS", "ADM(P)|NS", "ADM(P)|NS1", "ADM(P)|NS2", "ADM(P)|BH", "ADM(P)|BH1",
  "ADM(P)|BH2", "ADM(P)|SBH"]

/-- obs_calculate.c:890-952: the same of J -/
def volumesJ : List Str := T ["ADM(J)|BHNS", "ADM(J)|BHBH", "ADM(J)|NSNS", "ADM(J)|SNS", "ADM(J)|NS", "ADM(J)|NS1", "ADM(J)|NS2", "ADM(J)|BH",
  "ADM(J)|BH1", "ADM(J)|BH2", "ADM(J)|SBH"]

/-- obs_calculate.c:2184-2214: the formula of P -/
def methodsP : List (Str × Obs.PMethod) :=
  [("S_inf,default".toList, .dflt), ("S_obj,default".toList, .dflt), ("S_obj1+S_obj2,default".toList, .dflt), ("S+V,Ossokine".toList, .ossokine),
   ("S+V,Rashti".toList, .rashti), ("S+V,constraint".toList, .constraint)]

/-- obs_calculate.c:1326-1354: the formula of J -/
def methodsJ : List (Str × Obs.JMethod) :=
  [("S_inf,default".toList, .dflt), ("S_obj,default".toList, .dflt), ("S_obj1+S_obj2,default".toList, .dflt), ("S+V,Ossokine".toList, .ossokine),
   ("S+V,constraint".toList, .constraint)]

/-- the surfaces with their sides, refused if one has no case -/
def sides (cases : List (Option (List Str) × Side)) : List Str → Option (List (Str × Side))
  | [] => some []
  | r :: t => match sideOf r cases, sides cases t with
    | some s, some l => some ((r, s) :: l)
    | _, _ => none

/-- the parts of `calc_ADM_P` and `calc_ADM_J` in turn: collection, volume patches, surface patches, formula -/
def plan {M : Type} (table : List (Str × List Entry)) (volumes : List Str) (volKinds : List Kind) (methods : List (Str × M)) (kind : Kind)
    (quantity method : Str) : Res (Plan M) :=
  if kind = .other then .abort
  else match find quantity table with
    | none => .abort
    | some es => match find method (es.map fun e => (e.method, e)) with
      | none => .abort
      | some e =>
        if e.vol ≠ [] ∧ ¬ (kind ∈ volKinds ∧ (find quantity (volumes.map fun v => (v, ()))).isSome) then .abort
        else match sides e.sides e.surf, find method methods with
          | some s, some m => .ok ⟨m, e.vol, s⟩
          | _, _ => .abort

/-- obs_calculate.c:1362-2218 `calc_ADM_P` (1709-1713: the kinds of grids in the loop over the volume patches) -/
def planP (one : Bool) : Kind → Str → Str → Res (Plan Obs.PMethod) :=
  plan (tableP one) volumesP [.bhns, .nsns, .sbh, .sns] methodsP

/-- obs_calculate.c:548-1358 `calc_ADM_J` -/
def planJ (one : Bool) : Kind → Str → Str → Res (Plan Obs.JMethod) :=
  plan (tableJ one) volumesJ [.bhns, .nsns, .bhbh, .sbh, .sns] methodsJ

end Elliptica.ObsPlan
