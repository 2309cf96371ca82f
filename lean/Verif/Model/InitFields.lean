import Verif.Model.Text
import Verif.Model.Physics
import Mathlib.Data.Real.Basic
/-!
Model of the first filling of the fields, Src/Main/Modules/Physics/System/sys_main.c:57-372, with `superimpose_simple`
(Utilities/useful_functions.c:790-830) and the auxiliary fields (Fields/field.c:953-985).

Simplifications: the grid is one set `P` of nodes (the loops over patches and nodes are pointwise); a field is a function on the
nodes; the data of a single object (fd_populate.c:827-1256, star_NS.c:1054-1270) are given by `sol`, from which a populating
function writes; values are real numbers.  Of the matter and of the spin vector of a star it is only recorded for which star and in
which order they were set.
-/
namespace Elliptica.InitFields
open Text Physics

/-- the solutions of a single object (fd_populate.c:827 KerrSchild, :1011 ConfKerrSchild, :1117 IsoSchild, :1176 PGSchild;
star_NS.c:1054 TOV) -/
inductive Sol where
  | kerrSchild | confKerrSchild | isoSchild | pgSchild | tov
deriving DecidableEq

/-- the metric variables of XCTS -/
inductive Comp where
  | psi | alphaPsi | beta (i : Fin 3)
deriving DecidableEq

/-- what is done to the matter of a star: its fields (enthalpy, rho0, phi, W) and its spin vector -/
inductive Matter where
  | fields (o : Obj) | spin (o : Obj)
deriving DecidableEq

/-- the state of the grid: the fields by name (`none`: no such field; a field without values is `some none`), and the record of the
matter that was set -/
structure St (P : Type) where
  f : Str → Option (Option (P → ℝ))
  matter : List Matter

variable {P : Type}

/-- field.c:16-59 `add_field` with no memory, as in field.c:953-971 `add_aux_fields`: an existing field is refused -/
def add (st : St P) (n : Str) : Res (St P) :=
  match st.f n with
  | none => .ok { st with f := fun m => if m = n then some none else st.f m }
  | some _ => .abort

/-- field.c:973-990 `remove_aux_fields` (of an unknown field `Ind` stops the program) -/
def remove (st : St P) (n : Str) : Res (St P) :=
  match st.f n with
  | some _ => .ok { st with f := fun m => if m = n then none else st.f m }
  | none => .abort

/-- macros_lib.h `REALLOC_v_WRITE_v_STEM` and the loop over the nodes: new values of a field; of an unknown field `Ind` stops -/
def write (st : St P) (n : Str) (v : P → ℝ) : Res (St P) :=
  match st.f n with
  | some _ => .ok { st with f := fun m => if m = n then some (some v) else st.f m }
  | none => .abort

/-- macros_lib.h `READ_v_STEM` and the use of the values: a field without values is a null pointer -/
def values (st : St P) (n : Str) : Res (P → ℝ) :=
  match st.f n with
  | some (some v) => .ok v
  | some none => .ub
  | none => .abort

/-- useful_functions.c:790-830 `superimpose_simple` -/
def superimpose (st : St P) (f : Str) (f1 f2 : Option Str) (extra : ℝ) : Res (St P) :=
  match f1, f2 with
  | none, none => write st f fun _ => extra
  | some f1, some f2 => (values st f1).bind fun F1 => (values st f2).bind fun F2 => write st f fun p => F1 p + F2 p + extra
  | _, _ => .abort

/-- a list of names in turn -/
def each (g : St P → Str → Res (St P)) (st : St P) : List Str → Res (St P)
  | [] => .ok st
  | n :: ns => (g st n).bind fun st => each g st ns

/-- the name of a component with a stem (the last part of the name of the variable replaces that of the stem) -/
def compName (stem : Str) (i : Fin 3) : Str := stem ++ match i with
  | 0 => "_U0".toList | 1 => "_U1".toList | 2 => "_U2".toList

/-- the solution of each object -/
abbrev Data (P : Type) := Sol → Obj → Comp → P → ℝ

/-- fd_populate.c:827-1256 `fd_populate_psi_alphaPsi_beta_*` of the black hole `o` with the given stems -/
def popHole (sol : Data P) (st : St P) (s : Sol) (o : Obj) (psi alphaPsi beta : Str) : Res (St P) :=
  (write st psi (sol s o .psi)).bind fun st =>
  (write st alphaPsi (sol s o .alphaPsi)).bind fun st =>
  (write st (compName beta 0) (sol s o (.beta 0))).bind fun st =>
  (write st (compName beta 1) (sol s o (.beta 1))).bind fun st =>
  write st (compName beta 2) (sol s o (.beta 2))

/-- star_NS.c:1054-1270 `star_populate_psi_alphaPsi_matter_fields_TOV` of the star `o` with the given stems, followed by
`star_W_spin_vector_idealfluid_update` -/
def popStar (sol : Data P) (st : St P) (o : Obj) (psi alphaPsi : Str) : Res (St P) :=
  (write st psi (sol .tov o .psi)).bind fun st =>
  (write st alphaPsi (sol .tov o .alphaPsi)).bind fun st =>
  .ok { st with matter := st.matter ++ [.fields o, .spin o] }

/-- sys_main.c:326-333, 353-358: the shift is zero -/
def zeroShift (st : St P) : Res (St P) :=
  (superimpose st "beta_U0".toList none none 0).bind fun st =>
  (superimpose st "beta_U1".toList none none 0).bind fun st =>
  superimpose st "beta_U2".toList none none 0

/-- sys_main.c:125-163 (`s` = "ks"), 165-202 (`s` = "is"): a black hole and a star -/
def bhns (sol : Data P) (st : St P) (bhSol : Sol) (psiBh alphaPsiBh : Str) : Res (St P) :=
  (each add st [psiBh, alphaPsiBh, "psi_tov".toList, "alphaPsi_tov".toList]).bind fun st =>
  (popHole sol st bhSol .BH psiBh alphaPsiBh "beta".toList).bind fun st =>
  (popStar sol st .NS "psi_tov".toList "alphaPsi_tov".toList).bind fun st =>
  (superimpose st "psi".toList (some "psi_tov".toList) (some psiBh) (-1)).bind fun st =>
  (superimpose st "alphaPsi".toList (some "alphaPsi_tov".toList) (some alphaPsiBh) (-1)).bind fun st =>
  each remove st [psiBh, alphaPsiBh, "psi_tov".toList, "alphaPsi_tov".toList]

/-- sys_main.c:211-213, 240-242, 255-257, 284-286: the auxiliary fields of two black holes -/
def auxBhbh : List Str :=
  ["psi_bh1".toList, "alphaPsi_bh1".toList, "beta_bh1_U0".toList, "beta_bh1_U1".toList, "beta_bh1_U2".toList,
   "psi_bh2".toList, "alphaPsi_bh2".toList, "beta_bh2_U0".toList, "beta_bh2_U1".toList, "beta_bh2_U2".toList]

/-- sys_main.c:204-246, 248-290: two black holes -/
def bhbh (sol : Data P) (st : St P) (s : Sol) : Res (St P) :=
  (each add st auxBhbh).bind fun st =>
  (popHole sol st s .BH1 "psi_bh1".toList "alphaPsi_bh1".toList "beta_bh1".toList).bind fun st =>
  (popHole sol st s .BH2 "psi_bh2".toList "alphaPsi_bh2".toList "beta_bh2".toList).bind fun st =>
  (superimpose st "psi".toList (some "psi_bh1".toList) (some "psi_bh2".toList) (-1)).bind fun st =>
  (superimpose st "alphaPsi".toList (some "alphaPsi_bh1".toList) (some "alphaPsi_bh2".toList) (-1)).bind fun st =>
  (superimpose st "beta_U0".toList (some "beta_bh1_U0".toList) (some "beta_bh2_U0".toList) (-1)).bind fun st =>
  (superimpose st "beta_U1".toList (some "beta_bh1_U1".toList) (some "beta_bh2_U1".toList) (-1)).bind fun st =>
  (superimpose st "beta_U2".toList (some "beta_bh1_U2".toList) (some "beta_bh2_U2".toList) (-1)).bind fun st =>
  each remove st auxBhbh

/-- sys_main.c:292-338: two stars -/
def nsns (sol : Data P) (st : St P) : Res (St P) :=
  (each add st ["psi_tov1".toList, "alphaPsi_tov1".toList, "psi_tov2".toList, "alphaPsi_tov2".toList]).bind fun st =>
  (popStar sol st .NS1 "psi_tov1".toList "alphaPsi_tov1".toList).bind fun st =>
  (popStar sol st .NS2 "psi_tov2".toList "alphaPsi_tov2".toList).bind fun st =>
  (superimpose st "psi".toList (some "psi_tov1".toList) (some "psi_tov2".toList) (-1)).bind fun st =>
  (superimpose st "alphaPsi".toList (some "alphaPsi_tov1".toList) (some "alphaPsi_tov2".toList) (-1)).bind fun st =>
  (zeroShift st).bind fun st =>
  each remove st ["psi_tov1".toList, "alphaPsi_tov1".toList, "psi_tov2".toList, "alphaPsi_tov2".toList]

/-- sys_main.c:339-362: one star -/
def sns (sol : Data P) (st : St P) : Res (St P) :=
  (popStar sol st .NS "psi".toList "alphaPsi".toList).bind fun st => zeroShift st

/-- sys_main.c:61-123: one black hole -/
def sbh (sol : Data P) (st : St P) (s : Sol) : Res (St P) :=
  popHole sol st s .BH "psi".toList "alphaPsi".toList "beta".toList

/-- `Pcmps` (macros_lib.h:163) of the value of a parameter -/
def is (v : Str) (s : String) : Bool := strcmpI (some v) (some s.toList)

/-- sys_main.c:65-362: each branch has the same test of "initialize_fields" -/
def xcts {α : Type} (fields : Str) (r : Res α) : Res α := if is fields "XCTS" then r else .abort

/-- sys_main.c:57-372 `initialize_fields`; `sys` the type of the system, `ini` and `fields` the values of "initialize" and
"initialize_fields" -/
def run (sol : Data P) (sys : Obj) (ini fields : Str) (st : St P) : Res (St P) :=
  if sys = .SBH ∧ is ini "one_exact_KerrSchild" then xcts fields (sbh sol st .kerrSchild)
  else if sys = .SBH ∧ is ini "one_exact_ConfKerrSchild" then xcts fields (sbh sol st .confKerrSchild)
  else if sys = .SBH ∧ is ini "one_exact_IsoSchild" then xcts fields (sbh sol st .isoSchild)
  else if sys = .SBH ∧ is ini "one_exact_PGSchild" then xcts fields (sbh sol st .pgSchild)
  else if sys = .BHNS ∧ is ini "TOV+KerrSchild" then xcts fields (bhns sol st .kerrSchild "psi_ks".toList "alphaPsi_ks".toList)
  else if sys = .BHNS ∧ is ini "TOV+IsoSchild" then xcts fields (bhns sol st .isoSchild "psi_is".toList "alphaPsi_is".toList)
  else if sys = .BHBH ∧ is ini "KerrSchild+KerrSchild" then xcts fields (bhbh sol st .kerrSchild)
  else if sys = .BHBH ∧ is ini "IsoSchild+IsoSchild" then xcts fields (bhbh sol st .isoSchild)
  else if sys = .NSNS ∧ is ini "TOV+TOV" then xcts fields (nsns sol st)
  else if sys = .SNS ∧ is ini "TOV" then xcts fields (sns sol st)
  else .abort

end Elliptica.InitFields
