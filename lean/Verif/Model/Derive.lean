import Verif.Model.DerivName
/-!
Model of the taking of many derivatives by name: Src/Main/Modules/Includes/macros_lib.h:147-157, Src/Main/Modules/Maths/Calculus/derivatives.c:14-44,
Src/Main/Modules/Maths/Diff_Geom/dg_dChristoffel_symbol_3d.c, Physics/StressEnergy_Tensor/Tij_NS_ifluid_xcts_gConf_derives.c,
Physics/Free_Data/fd_ChrisConf_dChrisConf_add_fields.c.  Over `ℝ`; one derivative is `partialField` of Model/DerivName.lean.
-/
namespace Elliptica.Derive
open Text Deriv DerivName

/-- macros_lib.h:149 `dField_di`: the field is looked up by its name; a name unknown stops the program -/
noncomputable def dField (e : ℝ) (p : Patch) (par : Option Str) (l : Flds) (name : Str) : Res Flds :=
  (Field.lookUpE l name).bind fun k => partialField e p par l k

/-- one derivative after the other -/
noncomputable def dFields (e : ℝ) (p : Patch) (par : Option Str) : Flds → List Str → Res Flds
  | l, [] => .ok l
  | l, n :: t => (dField e p par l n).bind fun l => dFields e p par l t

/-- strrchr: the rest of the text from the last such character on -/
def fromLast (c : Char) : Str → Option Str
  | [] => none
  | a :: s => match fromLast c s with
    | some r => some r
    | none => if a = c then some (a :: s) else none

/-- dg_dChristoffel_symbol_3d.c:9-13, macros_lib.h:153-157: stem and indices, in a buffer of 99 bytes -/
def withStem (stem x : Str) : Res Str :=
  match fromLast '_' x with
  | none => .ub
  | some r => if 99 ≤ (stem ++ r).length then .ub else .ok (stem ++ r)

/-- the names with another stem, one derivative after the other -/
noncomputable def dStems (e : ℝ) (p : Patch) (par : Option Str) (stem : Str) : Flds → List Str → Res Flds
  | l, [] => .ok l
  | l, x :: t => (withStem stem x).bind fun n => (dField e p par l n).bind fun l => dStems e p par stem l t

/-- dg_dChristoffel_symbol_3d.c:23-76: the names in the order of the code -/
def christoffelNames : List Str := [
    "dChris_U1D0D0D1".toList, "dChris_U0D1D1D0".toList, "dChris_U1D0D0D2".toList, "dChris_U1D0D0D0".toList,
    "dChris_U2D1D1D2".toList, "dChris_U2D1D1D0".toList, "dChris_U2D1D1D1".toList, "dChris_U0D1D1D2".toList,
    "dChris_U2D0D0D1".toList, "dChris_U2D1D2D1".toList, "dChris_U2D1D2D0".toList, "dChris_U2D1D2D2".toList,
    "dChris_U0D2D2D0".toList, "dChris_U0D2D2D1".toList, "dChris_U0D2D2D2".toList, "dChris_U2D0D2D1".toList,
    "dChris_U1D2D2D1".toList, "dChris_U1D2D2D0".toList, "dChris_U1D2D2D2".toList, "dChris_U2D0D2D2".toList,
    "dChris_U0D0D0D0".toList, "dChris_U0D0D0D1".toList, "dChris_U0D0D0D2".toList, "dChris_U1D1D2D2".toList,
    "dChris_U2D0D0D2".toList, "dChris_U2D0D2D0".toList, "dChris_U0D0D2D2".toList, "dChris_U0D1D1D1".toList,
    "dChris_U0D0D2D0".toList, "dChris_U0D0D2D1".toList, "dChris_U2D2D2D1".toList, "dChris_U2D0D1D2".toList,
    "dChris_U2D0D1D1".toList, "dChris_U2D0D1D0".toList, "dChris_U1D1D2D0".toList, "dChris_U0D0D1D1".toList,
    "dChris_U0D0D1D0".toList, "dChris_U2D2D2D0".toList, "dChris_U0D0D1D2".toList, "dChris_U0D1D2D2".toList,
    "dChris_U0D1D2D1".toList, "dChris_U0D1D2D0".toList, "dChris_U1D0D1D0".toList, "dChris_U1D0D1D1".toList,
    "dChris_U1D0D1D2".toList, "dChris_U1D1D2D1".toList, "dChris_U2D2D2D2".toList, "dChris_U1D1D1D1".toList,
    "dChris_U1D1D1D0".toList, "dChris_U1D1D1D2".toList, "dChris_U2D0D0D0".toList, "dChris_U1D0D2D2".toList,
    "dChris_U1D0D2D1".toList, "dChris_U1D0D2D0".toList]

/-- dg_dChristoffel_symbol_3d.c:17-79 `dChristoffel_symbol_3d` -/
noncomputable def dChristoffel (e : ℝ) (p : Patch) (par : Option Str) (l : Flds) (stem : Str) : Res Flds :=
  dStems e p par stem l christoffelNames

/-- Tij_NS_ifluid_xcts_gConf_derives.c:14-24 -/
def fluidNames : List Str := [
    "denthalpy_D2".toList, "denthalpy_D0".toList, "denthalpy_D1".toList, "du0_D0".toList, "du0_D1".toList, "du0_D2".toList,
    "drho0_D2".toList, "drho0_D0".toList, "drho0_D1".toList]

/-- Tij_NS_ifluid_xcts_gConf_derives.c:10-27 `Tij_NS_IF_XCTS_gConf_derives` -/
noncomputable def fluidDerives (e : ℝ) (p : Patch) (par : Option Str) (l : Flds) : Res Flds := dFields e p par l fluidNames

/-! ### by a pattern -/

/-- regex_search of text_tools.c with an expression ^...$ of plain characters and dots: a dot is any character -/
def matchAll : Str → Str → Bool
  | [], [] => true
  | r :: rs, c :: cs => (r == '.' || r == c) && matchAll rs cs
  | _, _ => false

/-- regex_search of text_tools.c for `^body$`.
Simplification: only such expressions, in which the characters [ ] ( ) { } * + ? | \\ ^ $ do not occur otherwise; the code has no other ones
(fd_populate.c:505, 587, 642, 751). -/
def regexSearch (r s : Str) : Bool :=
  match r with
  | '^' :: body => if body.getLast? = some '$' then matchAll body.dropLast s else false
  | _ => false

/-- derivatives.c:36-40: the fields in the order of the patch; `k` fields are left -/
noncomputable def regexLoop (e : ℝ) (p : Patch) (par : Option Str) (r : Str) : ℕ → Flds → Res Flds
  | 0, l => .ok l
  | k + 1, l =>
    if regexSearch r ((l[l.length - (k + 1)]?.map (·.name)).getD []) then
      (partialField e p par l (l.length - (k + 1))).bind fun l => regexLoop e p par r k l
    else regexLoop e p par r k l

/-- derivatives.c:31-42: the expressions of the list -/
noncomputable def regexList (e : ℝ) (p : Patch) (par : Option Str) : List Str → Flds → Res Flds
  | [], l => .ok l
  | r :: rs, l => if ' ' ∈ r then .abort else (regexLoop e p par r l.length l).bind fun l => regexList e p par rs l

/-- derivatives.c:23-44 `partial_derivative_regex` -/
noncomputable def byRegex (e : ℝ) (p : Patch) (par : Option Str) (l : Flds) (regex : Str) : Res Flds :=
  regexList e p par (readItems ',' regex) l

/-- fd_populate.c:505, 642, 751 -/
def metricRegex (stem : Str) : Str := '^' :: stem ++ "_D.D.D.$".toList

/-- fd_populate.c:587 -/
def traceRegex (stem : Str) : Str := '^' :: stem ++ "_D.$".toList

/-! ### adding fields -/

/-- macros ADD_AND_ALLOC_FIELD one after the other -/
def addAll : Flds → List Str → Option (Coeff.St ℝ) → Res Flds
  | l, [], _ => .ok l
  | l, n :: t, v => (Field.add l n v).bind fun l => addAll l t v

/-- fd_ChrisConf_dChrisConf_add_fields.c:20-91: the names in the order of the code -/
def chrisConfNames : List Str := [
    "ChrisConf_U1D0D0".toList, "ChrisConf_U0D2D2".toList, "ChrisConf_U1D0D2".toList, "ChrisConf_U2D2D2".toList,
    "ChrisConf_U2D1D1".toList, "ChrisConf_U2D0D0".toList, "ChrisConf_U1D1D1".toList, "ChrisConf_U0D1D1".toList,
    "ChrisConf_U0D1D2".toList, "ChrisConf_U1D1D2".toList, "ChrisConf_U0D0D1".toList, "ChrisConf_U0D0D0".toList,
    "ChrisConf_U2D0D1".toList, "ChrisConf_U0D0D2".toList, "ChrisConf_U2D1D2".toList, "ChrisConf_U1D2D2".toList,
    "ChrisConf_U2D0D2".toList, "ChrisConf_U1D0D1".toList, "dChrisConf_U1D1D1D1".toList, "dChrisConf_U2D2D2D0".toList,
    "dChrisConf_U1D1D1D0".toList, "dChrisConf_U2D1D2D2".toList, "dChrisConf_U2D1D2D1".toList, "dChrisConf_U2D1D2D0".toList,
    "dChrisConf_U2D2D2D1".toList, "dChrisConf_U0D2D2D2".toList, "dChrisConf_U1D1D1D2".toList, "dChrisConf_U0D2D2D0".toList,
    "dChrisConf_U0D2D2D1".toList, "dChrisConf_U2D1D1D0".toList, "dChrisConf_U0D0D1D2".toList, "dChrisConf_U0D0D1D1".toList,
    "dChrisConf_U0D0D1D0".toList, "dChrisConf_U0D1D2D1".toList, "dChrisConf_U0D1D2D0".toList, "dChrisConf_U0D1D2D2".toList,
    "dChrisConf_U1D2D2D2".toList, "dChrisConf_U1D2D2D1".toList, "dChrisConf_U1D2D2D0".toList, "dChrisConf_U2D0D0D0".toList,
    "dChrisConf_U0D1D1D2".toList, "dChrisConf_U0D1D1D0".toList, "dChrisConf_U0D1D1D1".toList, "dChrisConf_U1D0D2D1".toList,
    "dChrisConf_U1D0D2D0".toList, "dChrisConf_U2D2D2D2".toList, "dChrisConf_U1D0D2D2".toList, "dChrisConf_U2D0D1D2".toList,
    "dChrisConf_U2D0D0D1".toList, "dChrisConf_U1D0D0D2".toList, "dChrisConf_U1D0D0D1".toList, "dChrisConf_U1D0D0D0".toList,
    "dChrisConf_U1D0D1D2".toList, "dChrisConf_U1D0D1D0".toList, "dChrisConf_U1D0D1D1".toList, "dChrisConf_U2D0D2D2".toList,
    "dChrisConf_U2D1D1D1".toList, "dChrisConf_U0D0D0D2".toList, "dChrisConf_U2D0D2D0".toList, "dChrisConf_U0D0D0D0".toList,
    "dChrisConf_U0D0D0D1".toList, "dChrisConf_U2D0D0D2".toList, "dChrisConf_U2D0D2D1".toList, "dChrisConf_U1D1D2D0".toList,
    "dChrisConf_U1D1D2D1".toList, "dChrisConf_U1D1D2D2".toList, "dChrisConf_U2D1D1D2".toList, "dChrisConf_U0D0D2D0".toList,
    "dChrisConf_U0D0D2D1".toList, "dChrisConf_U0D0D2D2".toList, "dChrisConf_U2D0D1D1".toList, "dChrisConf_U2D0D1D0".toList]

/-- fd_ChrisConf_dChrisConf_add_fields.c:10-95 `fd_add_fields_ChrisConf_dChrisConf`, one patch; the values are those of alloc_double -/
def addChrisConf (l : Flds) (zero : Coeff.St ℝ) : Res Flds := addAll l chrisConfNames (some zero)

end Elliptica.Derive
