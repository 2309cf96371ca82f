import Verif.Model.Physics
/-!
Specification of the manager of the physics: what each command does, what a physics is, and what a region means to it.
-/
namespace Elliptica.Physics.Spec
open Text

/-- What the commands do, in the order of their numbers from 1 on (the comments of the enumeration) -/
def doc : List Act :=
  [.tune_star_Euler_constant, .tune_star_force_balance_equation, .tune_star_center, .extrapolate_star_matter, .start_off_star,
   .set_star_params, .add_star_fields, .find_star_surface,
   .update_stress_energy_tensor, .set_stress_energy_params, .add_stress_energy_tensor_fields,
   .tune_black_hole_radius, .tune_black_hole_spin, .bh_fill_inside_black_hole, .find_black_hole_surface, .start_off_black_hole,
   .set_black_hole_params, .add_black_hole_fields, .update_conformal_normal_vector_on_AH, .update_inner_BC_values,
   .set_free_data_params, .add_free_data_fields, .populate_free_data,
   .set_system_params, .add_system_fields, .tune_system_ADM_momenta, .initialize_fields,
   .set_adm_params, .add_adm_fields, .compute_adm_Kij, .compute_adm_KIJ, .compute_adm_gij, .compute_AConfIJ, .compute_beta,
   .compute_B1I, .compute_ham_and_mom_constrains, .preform_adm_doctest,
   .set_observe_params, .add_observe_fields, .set_equation_params, .add_equation_fields, .solve_equation]

/-- what is done to one star -/
def ofStar : List Act := [.tune_star_Euler_constant, .tune_star_force_balance_equation, .tune_star_center, .extrapolate_star_matter,
  .start_off_star, .find_star_surface, .update_stress_energy_tensor]

/-- what is done to one black hole -/
def ofHole : List Act := [.tune_black_hole_radius, .tune_black_hole_spin, .bh_fill_inside_black_hole, .find_black_hole_surface,
  .start_off_black_hole, .update_conformal_normal_vector_on_AH, .update_inner_BC_values]

/-- the name of a type -/
def name : Obj → Str
  | .undef => [] | .NS => "NS".toList | .NS1 => "NS1".toList | .NS2 => "NS2".toList | .BH => "BH".toList | .BH1 => "BH1".toList
  | .BH2 => "BH2".toList | .BHNS => "BHNS".toList | .BHBH => "BHBH".toList | .NSNS => "NSNS".toList | .SNS => "SNS".toList
  | .SBH => "SBH".toList

/-- the class of a type: the index is forgotten -/
def cls : Obj → Obj
  | .NS1 => .NS | .NS2 => .NS | .BH1 => .BH | .BH2 => .BH | t => t

/-- the projects and their systems -/
def projects : List (Str × Obj × Str) :=
  [("BH_NS_binary_initial_data".toList, .BHNS, "BHNS".toList), ("NS_NS_binary_initial_data".toList, .NSNS, "NSNS".toList),
   ("BH_BH_binary_initial_data".toList, .BHBH, "BHBH".toList), ("Single_BH_initial_data".toList, .SBH, "SBH".toList),
   ("Single_NS_initial_data".toList, .SNS, "SNS".toList), ("Modules_Test".toList, .undef, "OBJ_UNDEFINED".toList),
   ("TOV_Star".toList, .undef, "OBJ_UNDEFINED".toList)]

/-- where the position of an object is set: the parameter, and the words for the positions that an object may have; systems have
no position -/
def setBy : Obj → Option (Str × List (Str × Pos))
  | .NS => some ("grid_set_NS".toList, [("left".toList, .left), ("right".toList, .right), ("center".toList, .center)])
  | .NS1 => some ("grid_set_NS1".toList, [("left".toList, .left), ("right".toList, .right)])
  | .NS2 => some ("grid_set_NS2".toList, [("left".toList, .left), ("right".toList, .right)])
  | .BH => some ("grid_set_BH".toList, [("left".toList, .left), ("right".toList, .right), ("center".toList, .center)])
  | .BH1 => some ("grid_set_BH1".toList, [("left".toList, .left), ("right".toList, .right)])
  | .BH2 => some ("grid_set_BH2".toList, [("left".toList, .left), ("right".toList, .right)])
  | .SBH => some ("grid_set_BH".toList, [("center".toList, .center)])
  | .SNS => some ("grid_set_NS".toList, [("center".toList, .center)])
  | _ => none

/-- the first of the words that the text mentions, in letters of any case -/
inductive Says (s : Str) : List (Str × Pos) → Pos → Prop
  | here (w : Str) (q : Pos) (l : List (Str × Pos)) : w <:+: s.map lower → Says s ((w, q) :: l) q
  | there (w : Str) (q : Pos) (l : List (Str × Pos)) (q' : Pos) : ¬ w <:+: s.map lower → Says s l q' → Says s ((w, q) :: l) q'

/-- the items of a region, with the name `n` of the object: `n` followed by each of the endings, separated by commas -/
def items (n : Str) : List Str → Str
  | [] => []
  | [e] => n ++ e
  | e :: es => n ++ e ++ ',' :: items n es

/-- an ending that names no object and bears no index -/
def Plain (e : Str) : Prop := 'N' ∉ e ∧ 'B' ∉ e ∧ '1' ∉ e ∧ '2' ∉ e ∧ ',' ∉ e

/-- the name by which an object calls itself when a region says "NS" or "BH": its own name with its index, or the text of the
region where it bears no index -/
def ownName {G : Type} (p : Phys G) (K : Str) : Str := if p.type = .NS ∨ p.type = .BH then K else p.stype

end Elliptica.Physics.Spec
