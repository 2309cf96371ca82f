import Verif.Model.Text
import Verif.Model.Finder
/-!
Model of the manager of the physics, Src/Main/Modules/Physics/phys_main.c, and of the entry functions of its modules.
-/
namespace Elliptica.Physics
open Text

/-- Includes/physics_lib.h:183-198 `Com_Obj_T` -/
inductive Obj where
  | undef | NS | NS1 | NS2 | BH | BH1 | BH2 | BHNS | BHBH | NSNS | SNS | SBH
deriving DecidableEq, Repr

/-! Includes/physics_lib.h:122-180 `cmd_T`, numbered in the order of the enumeration -/
@[match_pattern] abbrev STAR_TUNE_EULER_CONST : ℕ := 1
@[match_pattern] abbrev STAR_TUNE_FORCE_BALANCE : ℕ := 2
@[match_pattern] abbrev STAR_TUNE_CENTER : ℕ := 3
@[match_pattern] abbrev STAR_EXTRAPOLATE_MATTERS : ℕ := 4
@[match_pattern] abbrev STAR_START : ℕ := 5
@[match_pattern] abbrev STAR_SET_PARAMS : ℕ := 6
@[match_pattern] abbrev STAR_ADD_FIELDS : ℕ := 7
@[match_pattern] abbrev STAR_FIND_SURFACE : ℕ := 8
@[match_pattern] abbrev STRESS_ENERGY_UPDATE : ℕ := 9
@[match_pattern] abbrev STRESS_ENERGY_SET_PARAMS : ℕ := 10
@[match_pattern] abbrev STRESS_ENERGY_ADD_FIELDS : ℕ := 11
@[match_pattern] abbrev BH_TUNE_RADIUS : ℕ := 12
@[match_pattern] abbrev BH_TUNE_SPIN : ℕ := 13
@[match_pattern] abbrev BH_FILL : ℕ := 14
@[match_pattern] abbrev BH_FIND_SURFACE : ℕ := 15
@[match_pattern] abbrev BH_START : ℕ := 16
@[match_pattern] abbrev BH_SET_PARAMS : ℕ := 17
@[match_pattern] abbrev BH_ADD_FIELDS : ℕ := 18
@[match_pattern] abbrev BH_UPDATE_sConf : ℕ := 19
@[match_pattern] abbrev BH_UPDATE_INNER_BC : ℕ := 20
@[match_pattern] abbrev FREE_DATA_SET_PARAMS : ℕ := 21
@[match_pattern] abbrev FREE_DATA_ADD_FIELDS : ℕ := 22
@[match_pattern] abbrev FREE_DATA_POPULATE : ℕ := 23
@[match_pattern] abbrev SYS_SET_PARAMS : ℕ := 24
@[match_pattern] abbrev SYS_ADD_FIELDS : ℕ := 25
@[match_pattern] abbrev SYS_TUNE_P_ADM : ℕ := 26
@[match_pattern] abbrev SYS_INITIALIZE_FIELDS : ℕ := 27
@[match_pattern] abbrev ADM_SET_PARAMS : ℕ := 28
@[match_pattern] abbrev ADM_ADD_FIELDS : ℕ := 29
@[match_pattern] abbrev ADM_UPDATE_Kij : ℕ := 30
@[match_pattern] abbrev ADM_UPDATE_KIJ : ℕ := 31
@[match_pattern] abbrev ADM_UPDATE_gij : ℕ := 32
@[match_pattern] abbrev ADM_UPDATE_AConfIJ : ℕ := 33
@[match_pattern] abbrev ADM_UPDATE_beta : ℕ := 34
@[match_pattern] abbrev ADM_UPDATE_B1I : ℕ := 35
@[match_pattern] abbrev ADM_COMPUTE_CONSTRAINTS : ℕ := 36
@[match_pattern] abbrev ADM_DOCTEST : ℕ := 37
@[match_pattern] abbrev OBSERVE_SET_PARAMS : ℕ := 38
@[match_pattern] abbrev OBSERVE_ADD_FIELDS : ℕ := 39
@[match_pattern] abbrev EQ_SET_PARAMS : ℕ := 40
@[match_pattern] abbrev EQ_ADD_FIELDS : ℕ := 41
@[match_pattern] abbrev EQ_SOLVE : ℕ := 42

/-- What the modules do when they are called: one name per C function that the switches of the modules call.
The functions themselves are the objects of other properties (C97-C100: star, C93-C96: black hole and free data, ...). -/
inductive Act where
  | tune_star_Euler_constant | extrapolate_star_matter | find_star_surface | tune_star_force_balance_equation
  | tune_star_center | set_star_params | add_star_fields | start_off_star
  | update_stress_energy_tensor | set_stress_energy_params | add_stress_energy_tensor_fields
  | tune_black_hole_radius | tune_black_hole_spin | find_black_hole_surface | bh_fill_inside_black_hole
  | start_off_black_hole | set_black_hole_params | add_black_hole_fields | update_conformal_normal_vector_on_AH
  | update_inner_BC_values
  | set_free_data_params | add_free_data_fields | populate_free_data
  | set_system_params | add_system_fields | tune_system_ADM_momenta | initialize_fields
  | set_adm_params | add_adm_fields | compute_ham_and_mom_constrains | compute_AConfIJ | compute_adm_KIJ
  | compute_adm_Kij | compute_adm_gij | compute_B1I | compute_beta | preform_adm_doctest
  | set_observe_params | add_observe_fields
  | set_equation_params | add_equation_fields | solve_equation
deriving DecidableEq, Repr

/-- Includes/physics_lib.h:118-119 `AssureType` -/
def assureType (b : Bool) (a : Act) : Res Act := if b then .ok a else .abort

/-- Star/star_main.c:12-58 -/
def starMain (ctype : Obj) : ℕ → Res Act
  | STAR_TUNE_EULER_CONST => assureType (ctype = .NS) .tune_star_Euler_constant
  | STAR_EXTRAPOLATE_MATTERS => assureType (ctype = .NS) .extrapolate_star_matter
  | STAR_FIND_SURFACE => assureType (ctype = .NS) .find_star_surface
  | STAR_TUNE_FORCE_BALANCE => assureType (ctype = .NS) .tune_star_force_balance_equation
  | STAR_TUNE_CENTER => assureType (ctype = .NS) .tune_star_center
  | STAR_SET_PARAMS => .ok .set_star_params
  | STAR_ADD_FIELDS => .ok .add_star_fields
  | STAR_START => assureType (ctype = .NS) .start_off_star
  | _ => .abort

/-- StressEnergy_Tensor/Tij_main.c:12-36 -/
def tijMain (ctype : Obj) : ℕ → Res Act
  | STRESS_ENERGY_UPDATE => assureType (ctype = .NS) .update_stress_energy_tensor
  | STRESS_ENERGY_SET_PARAMS => .ok .set_stress_energy_params
  | STRESS_ENERGY_ADD_FIELDS => .ok .add_stress_energy_tensor_fields
  | _ => .abort

/-- BlackHole/bh_main.c:12-64 -/
def bhMain (ctype : Obj) : ℕ → Res Act
  | BH_TUNE_RADIUS => assureType (ctype = .BH) .tune_black_hole_radius
  | BH_TUNE_SPIN => assureType (ctype = .BH) .tune_black_hole_spin
  | BH_FIND_SURFACE => assureType (ctype = .BH) .find_black_hole_surface
  | BH_FILL => assureType (ctype = .BH) .bh_fill_inside_black_hole
  | BH_START => assureType (ctype = .BH) .start_off_black_hole
  | BH_SET_PARAMS => .ok .set_black_hole_params
  | BH_ADD_FIELDS => .ok .add_black_hole_fields
  | BH_UPDATE_sConf => assureType (ctype = .BH) .update_conformal_normal_vector_on_AH
  | BH_UPDATE_INNER_BC => assureType (ctype = .BH) .update_inner_BC_values
  | _ => .abort

/-- Free_Data/fd_main.c:12-35 -/
def fdMain : ℕ → Res Act
  | FREE_DATA_SET_PARAMS => .ok .set_free_data_params
  | FREE_DATA_ADD_FIELDS => .ok .add_free_data_fields
  | FREE_DATA_POPULATE => .ok .populate_free_data
  | _ => .abort

/-- System/sys_main.c:13-40 -/
def sysMain : ℕ → Res Act
  | SYS_SET_PARAMS => .ok .set_system_params
  | SYS_ADD_FIELDS => .ok .add_system_fields
  | SYS_TUNE_P_ADM => .ok .tune_system_ADM_momenta
  | SYS_INITIALIZE_FIELDS => .ok .initialize_fields
  | _ => .abort

/-- ADM/adm_main.c:12-62 -/
def admMain : ℕ → Res Act
  | ADM_SET_PARAMS => .ok .set_adm_params
  | ADM_ADD_FIELDS => .ok .add_adm_fields
  | ADM_COMPUTE_CONSTRAINTS => .ok .compute_ham_and_mom_constrains
  | ADM_UPDATE_AConfIJ => .ok .compute_AConfIJ
  | ADM_UPDATE_KIJ => .ok .compute_adm_KIJ
  | ADM_UPDATE_Kij => .ok .compute_adm_Kij
  | ADM_UPDATE_gij => .ok .compute_adm_gij
  | ADM_UPDATE_B1I => .ok .compute_B1I
  | ADM_UPDATE_beta => .ok .compute_beta
  | ADM_DOCTEST => .ok .preform_adm_doctest
  | _ => .abort

/-- Observe/obs_main.c:111-130 -/
def observeMain : ℕ → Res Act
  | OBSERVE_SET_PARAMS => .ok .set_observe_params
  | OBSERVE_ADD_FIELDS => .ok .add_observe_fields
  | _ => .abort

/-- Equation/eq_main.c:10-34 -/
def eqMain : ℕ → Res Act
  | EQ_SET_PARAMS => .ok .set_equation_params
  | EQ_ADD_FIELDS => .ok .add_equation_fields
  | EQ_SOLVE => .ok .solve_equation
  | _ => .abort

/-- phys_main.c:15-101 `physics_main`: which module the command goes to, and what that module does with it. -/
def physicsMain (ctype : Obj) (cmd : ℕ) : Res Act :=
  match cmd with
  | STAR_TUNE_EULER_CONST | STAR_TUNE_FORCE_BALANCE | STAR_TUNE_CENTER | STAR_FIND_SURFACE | STAR_START
  | STAR_ADD_FIELDS | STAR_SET_PARAMS | STAR_EXTRAPOLATE_MATTERS => starMain ctype cmd
  | STRESS_ENERGY_UPDATE | STRESS_ENERGY_SET_PARAMS | STRESS_ENERGY_ADD_FIELDS => tijMain ctype cmd
  | BH_FIND_SURFACE | BH_TUNE_RADIUS | BH_TUNE_SPIN | BH_FILL | BH_START | BH_SET_PARAMS | BH_ADD_FIELDS
  | BH_UPDATE_sConf | BH_UPDATE_INNER_BC => bhMain ctype cmd
  | FREE_DATA_SET_PARAMS | FREE_DATA_ADD_FIELDS | FREE_DATA_POPULATE => fdMain cmd
  | SYS_SET_PARAMS | SYS_ADD_FIELDS | SYS_TUNE_P_ADM | SYS_INITIALIZE_FIELDS => sysMain cmd
  | ADM_SET_PARAMS | ADM_ADD_FIELDS | ADM_UPDATE_Kij | ADM_UPDATE_KIJ | ADM_UPDATE_gij | ADM_UPDATE_B1I
  | ADM_UPDATE_beta | ADM_UPDATE_AConfIJ | ADM_COMPUTE_CONSTRAINTS | ADM_DOCTEST => admMain cmd
  | OBSERVE_SET_PARAMS | OBSERVE_ADD_FIELDS => observeMain cmd
  | EQ_SET_PARAMS | EQ_ADD_FIELDS | EQ_SOLVE => eqMain cmd
  | _ => .abort

/-! ### making a physics -/

/-- `phys->pos`; NONE for a system -/
inductive Pos where
  | left | right | center | none
deriving DecidableEq, Repr

/-- Includes/physics_lib.h:204-236 `Physics_T`, as far as init_physics fills it (`spos` and `ssys` are the names of `pos`
and `sys`).  `G` stands for the grids. -/
structure Phys (G : Type) where
  grid : Option G
  isParent : Bool
  type : Obj
  ctype : Obj
  stype : Str
  sys : Obj
  ssys : Str
  pos : Pos
deriving Repr, DecidableEq

/-- phys_main.c:129-167: the system by the parameter "project" (Pcmps: case-insensitive) -/
def system (project : Str) : Res (Obj × Str) :=
  if strcmpI (some project) (some "BH_NS_binary_initial_data".toList) then .ok (.BHNS, "BHNS".toList)
  else if strcmpI (some project) (some "NS_NS_binary_initial_data".toList) then .ok (.NSNS, "NSNS".toList)
  else if strcmpI (some project) (some "BH_BH_binary_initial_data".toList) then .ok (.BHBH, "BHBH".toList)
  else if strcmpI (some project) (some "Single_BH_initial_data".toList) then .ok (.SBH, "SBH".toList)
  else if strcmpI (some project) (some "Single_NS_initial_data".toList) then .ok (.SNS, "SNS".toList)
  else if strcmpI (some project) (some "Modules_Test".toList) then .ok (.undef, "OBJ_UNDEFINED".toList)
  else if strcmpI (some project) (some "TOV_Star".toList) then .ok (.undef, "OBJ_UNDEFINED".toList)
  else .abort

/-- phys_main.c:174-193 and its copies, with "left", "right" and "center" -/
def pos3 (spos : Str) : Res Pos :=
  if strstrI (some spos) (some "left".toList) then .ok .left
  else if strstrI (some spos) (some "right".toList) then .ok .right
  else if strstrI (some spos) (some "center".toList) then .ok .center
  else .abort

/-- phys_main.c:200-213 and its copies, with "left" and "right" -/
def pos2 (spos : Str) : Res Pos :=
  if strstrI (some spos) (some "left".toList) then .ok .left
  else if strstrI (some spos) (some "right".toList) then .ok .right
  else .abort

/-- phys_main.c:305-313, 320-328: only "center" -/
def pos1 (spos : Str) : Res Pos :=
  if strstrI (some spos) (some "center".toList) then .ok .center else .abort

/-- phys_main.c:169-351: class, name and position by the type.  `P` gives the value of a parameter (Pgets: the program stops
where there is none). -/
def kind (P : Str → Res Str) : Obj → Res (Obj × Str × Pos)
  | .NS => (P "grid_set_NS".toList).bind fun s => (pos3 s).bind fun p => .ok (.NS, "NS".toList, p)
  | .NS1 => (P "grid_set_NS1".toList).bind fun s => (pos2 s).bind fun p => .ok (.NS, "NS1".toList, p)
  | .NS2 => (P "grid_set_NS2".toList).bind fun s => (pos2 s).bind fun p => .ok (.NS, "NS2".toList, p)
  | .BH => (P "grid_set_BH".toList).bind fun s => (pos3 s).bind fun p => .ok (.BH, "BH".toList, p)
  | .BH1 => (P "grid_set_BH1".toList).bind fun s => (pos2 s).bind fun p => .ok (.BH, "BH1".toList, p)
  | .BH2 => (P "grid_set_BH2".toList).bind fun s => (pos2 s).bind fun p => .ok (.BH, "BH2".toList, p)
  | .SBH => (P "grid_set_BH".toList).bind fun s => (pos1 s).bind fun p => .ok (.SBH, "SBH".toList, p)
  | .SNS => (P "grid_set_NS".toList).bind fun s => (pos1 s).bind fun p => .ok (.SNS, "SNS".toList, p)
  | .BHNS => .ok (.BHNS, "BHNS".toList, .none)
  | .BHBH => .ok (.BHBH, "BHBH".toList, .none)
  | .NSNS => .ok (.NSNS, "NSNS".toList, .none)
  | .undef => .abort

/-- phys_main.c:105-354 `init_physics` -/
def init {G : Type} (P : Str → Res Str) (parent : Option (Phys G)) (type : Obj) : Res (Phys G) :=
  (P "project".toList).bind fun project => (system project).bind fun s =>
    (kind P type).bind fun k =>
      .ok { grid := parent.bind (·.grid), isParent := parent.isNone, type := type, ctype := k.1, stype := k.2.1,
            sys := s.1, ssys := s.2, pos := k.2.2 }

/-! ### adjusting the name of a region -/

/-- Includes/manifold_lib.h:51-62 `Grid_Kind_T`, as far as it matters here -/
inductive GridKind where
  | bhns | nsns | bhbh | other
deriving DecidableEq, Repr

/-- regcomp and regexec with the pattern "(NS|BH)": offset and length of the leftmost "NS" or "BH" -/
def findNsBh : Str → Option (ℕ × ℕ)
  | [] => none
  | c :: s => if "NS".toList.isPrefixOf (c :: s) || "BH".toList.isPrefixOf (c :: s) then some (0, 2)
    else (findNsBh s).map fun m => (m.1 + 1, m.2)

/-- phys_main.c:392-437 `phys_autoindex_stype`.  `strstr` is `Finder.occurs`.
Simplification: the 99 characters of `phys->stemp` are unbounded here. -/
def autoindex {G : Type} (kindOf : G → GridKind) (p : Phys G) (s : Str) : Res Str :=
  if s = ".*".toList then .ok ".*".toList
  else if !Finder.occurs "NS".toList s && !Finder.occurs "BH".toList s then .ok s
  else if Finder.occurs "NS".toList s && Finder.occurs "BH".toList s then
    match p.grid with
    | none => .ub
    | some g => if kindOf g = .bhns then .ok s else .abort
  else if Finder.occurs "BH1".toList s && Finder.occurs "BH2".toList s then
    match p.grid with
    | none => .ub
    | some g => if kindOf g = .bhbh then .ok s else .abort
  else if Finder.occurs "NS1".toList s && Finder.occurs "NS2".toList s then
    match p.grid with
    | none => .ub
    | some g => if kindOf g = .nsns then .ok s else .abort
  else if p.type = .NS ∨ p.type = .BH ∨ '1' ∈ s ∨ '2' ∈ s then .ok s
  else if p.ctype = .NS ∨ p.ctype = .BH then .ok (regexReplace findNsBh s p.stype).2
  else .abort

/-- phys_main.c:447-468 `mygrid`: the patches of the small grid.  The patches of a grid are `patches`.
coordinate_utilities.c:768-803, 834: the region ".*" is all patches, otherwise the items are separated by ','. -/
def mygrid {G : Type} (kindOf : G → GridKind) (patches : G → List Finder.PatchR) (p : Phys G) (region : Str) :
    Res (List Finder.PatchR) :=
  (autoindex kindOf p region).bind fun s =>
    match p.grid with
    | none => .ub
    | some g => Finder.collect Finder.namePrefix Finder.dictionary (if s = ".*".toList then none else some (readItems ',' s)) (patches g)

end Elliptica.Physics
