import Verif.Model.Common
import Verif.Model.Text
import Verif.Model.Tol
/-!
Model of the control around the elliptic solver: the Newton loop and its stop criterion
(Src/Main/Modules/Maths/Equation_Solvings/solve_eqs.c, solve_eqs_ddm_schur_complement.c:94-330), the data base of equations and the set-up of
the fields to be solved (solve_manager.c) and the outer iteration with relaxation (Src/Main/Modules/Physics/Equation/eq_solve.c).

`double` is an ordered field `K`; a residual that is not finite is `none`.
-/
namespace Elliptica.Solve

variable {K : Type} [Field K] [LinearOrder K]

/-! ### the Newton loop -/

/-- what the default stop criterion decides: go on; stop because of a residual that is not finite, the maximum number of
steps, or success -/
inductive Verdict where
  | go | abnormal | maxed | done
deriving DecidableEq, Repr

/-- solve_eqs.c:29-95 `default_stop_criteria_solve_equations`: the loop over the patches with its breaks (43-70) and the
verdicts after it; `resD` = solve_Residual, `maxStep` = solve_Max_Newton_Step, `step` = solver_step (the same for all
patches), `res` = the residuals Frms of the patches -/
def stopCriteria (resD : K) (maxStep step : Int) : List (Option K) → Verdict
  | [] => .done
  | none :: _ => .abnormal
  | some r :: l => if step ≥ maxStep then .maxed else if r > resD then .go else stopCriteria resD maxStep step l

variable {σ : Type}

/-- solve_eqs_ddm_schur_complement.c:94-330 `solve_field`: the loop `while (CONTINUE)`, for one patch and for several.
`resid u` are the residuals of the patches for the fields `u`, `newton u` is a Newton step.  `fuel` bounds the number of
rounds; `none` = not enough of it.  Result: number of steps done, final fields, verdict. -/
def solveField (resid : σ → List (Option K)) (newton : σ → Res σ) (resD : K) (maxStep : Int) : Nat → Nat → σ → Option (Res (Nat × σ × Verdict))
  | 0, _, _ => none
  | fuel + 1, step, u =>
    match stopCriteria resD maxStep step (resid u) with
    | .go =>
      match newton u with
      | .ok u' => solveField resid newton resD maxStep fuel (step + 1) u'
      | .abort => some .abort
      | .ub => some .ub
    | v => some (.ok (step, u, v))

/-- solve_eqs.c:97-118 `get_relaxation_factor_solve_equations`; `get name` = value of a parameter as a number, `none` when
it is not there (PgetdEZ returns DBL_MAX then, so that value itself is not available).  The name must fit in 400 bytes. -/
def relaxFactor (get : Str → Option K) (field : Option Str) : Res K :=
  let factor := (get "solve_Newton_Update_Weight".toList).getD 1
  match field with
  | none => .ok factor
  | some f =>
    let par := "solve_Newton_Update_Weight_".toList ++ f
    if par.length ≥ 400 then .ub
    else .ok ((get par).getD factor)

/-! ### grids of the equations -/

/-- solve_eqs.c:182-196 `add_special_grid_solve_equations`: append -/
def addGrid {γ : Type} (s : List (Str × γ)) (name : Str) (g : γ) : List (Str × γ) := s ++ [(name, g)]

/-- solve_eqs.c:160-179 `get_grid_solve_equations`: the first grid added under the name, else the default -/
def getGrid {γ : Type} (s : List (Str × γ)) (dflt : γ) (name : Str) : γ :=
  match s.find? (fun e => decide (e.1 = name)) with
  | some e => e.2
  | none => dflt

/-! ### the data base of equations -/

/-- solve_manager.c:26-53 `add_eq`; the name is stored in 400 bytes -/
def addEq {φ : Type} (db : List (Str × φ)) (eq : φ) (name : Str) : Res (List (Str × φ)) :=
  if db.any (fun e => Text.strcmpI (some e.1) (some name)) then .abort
  else if name.length ≥ 400 then .ub
  else .ok (db ++ [(name, eq)])

/-- solve_manager.c:193-222 `get_field_eq`; the data base ends with a null pointer, an empty one is the null pointer -/
def getEq {φ : Type} (db : List (Str × φ)) (pre name : Str) : Res φ :=
  if db.isEmpty then .abort
  else
    match db.find? (fun e => Text.strcmpI (some e.1) (some (pre ++ name))) with
    | some e => .ok e.2
    | none => .abort

/-- solve_manager.c:133-176, what `initialize_solving_man` makes of one name of solve_Order: the name of its equation and
the name of the field that is solved for.  `par` = `par_prefix`, `get` = the parameter data base (Pgets aborts when the
parameter is missing).  `al` is the buffer `alias_fname`, which keeps its content from field to field.  The buffers have 100, 100, 200
bytes. -/
def fieldSetup (get : Str → Option Str) (par : Option Str) (al field : Str) : Res (Str × Str) :=
  match par with
  | none => if field.length ≥ 200 then .ub else .ok (field, al)
  | some pre =>
    if (pre ++ field).length ≥ 100 then .ub
    else
      match get (pre ++ field) with
      | none => .abort
      | some v =>
        if v.length ≥ 100 then .ub
        else if ',' ∉ v then .abort
        else
          let eq := v.takeWhile (· ≠ ',') ++ "_".toList ++ field
          let ap := pre ++ "alias_field_".toList ++ field
          if eq.length ≥ 200 ∨ ap.length ≥ 100 then .ub
          else
            match get ap with
            | some a => if a.length ≥ 100 then .ub else .ok (eq, a)
            | none => if field.length ≥ 100 then .ub else .ok (eq, field)

/-- solve_manager.c:133-186: the loop over the fields of one patch (`alias_fname` is empty at the start of the function);
result: (equation name, field solved for) of every name of solve_Order -/
def setupAll (get : Str → Option Str) (par : Option Str) : Str → List Str → Res (List (Str × Str))
  | _, [] => .ok []
  | al, f :: l =>
    (fieldSetup get par al f).bind fun r => (setupAll get par r.2 l).bind fun rs => .ok (r :: rs)

/-! ### the outer iteration -/

/-- the fields of the patches: no such field, a field without values, or its values -/
abbrev Fields (K : Type) := Nat → Str → Option (Option (Nat → K))

def setF (F : Fields K) (p : Nat) (n : Str) (v : Nat → K) : Fields K :=
  fun p' n' => if p' = p ∧ n' = n then some (some v) else F p' n'

/-- eq_solve.c:214-250 `backup_fields` for one field and patch: a field that is missing or without values is skipped, a missing backup field
stops the program (`Ind`) -/
def backupOne (bk : Str → Str) (n : Str) (F : Fields K) (p : Nat) : Res (Fields K) :=
  match F p n with
  | none => .ok F
  | some v =>
    match F p (bk n) with
    | none => .abort
    | some _ =>
      match v with
      | none => .ok F
      | some v => .ok (setF F p (bk n) v)

/-- eq_solve.c:278-304, the relaxation of one field on one patch; reading the values of a backup field that has none is undefined -/
def relaxOne (bk : Str → Str) (w : K) (n : Str) (F : Fields K) (p : Nat) : Res (Fields K) :=
  match F p n with
  | none => .ok F
  | some v =>
    match F p (bk n) with
    | none => .abort
    | some o =>
      match v with
      | none => .ok F
      | some v =>
        match o with
        | none => .ub
        | some o => .ok (setF F p n (fun q => w * v q + (1 - w) * o q))

/-- all patches, eq_solve.c:228-245 and 283-304 (the iterations of the parallel loop touch different patches) -/
def overPatches (g : Fields K → Nat → Res (Fields K)) (np : Nat) (F : Fields K) : Res (Fields K) :=
  (List.range np).foldl (fun (s : Res (Fields K)) p => s.bind (g · p)) (.ok F)

/-- eq_solve.c:207-250 `backup_fields`; `names` = the items of solve_Order -/
def backup (bk : Str → Str) (np : Nat) (names : List Str) (F : Fields K) : Res (Fields K) :=
  names.foldl (fun (s : Res (Fields K)) n => s.bind (overPatches (backupOne bk n) np)) (.ok F)

/-- eq_solve.c:252-316 `update_fields_relaxed_scheme`; `w n` = Eq_update_weight_<n>, `e` = round-off; the updates of
derivatives and sources (`eq_field_update`, `eq_source_update`) are not modelled -/
def relax (e : K) (bk : Str → Str) (w : Str → K) (np : Nat) (names : List Str) (F : Fields K) : Res (Fields K) :=
  names.foldl (fun (s : Res (Fields K)) n => s.bind fun F =>
    if Tol.eql e (w n) 1 then .ok F else overPatches (relaxOne bk (w n) n) np F) (.ok F)

/-- eq_solve.c:43-79, `k` rounds of the loop; `solve` = solve_eqs -/
def rounds (e : K) (bk : Str → Str) (w : Str → K) (np : Nat) (names : List Str) (solve : Fields K → Res (Fields K)) (many : Bool) :
    Nat → Fields K → Res (Fields K)
  | 0, F => .ok F
  | k + 1, F =>
    (solve F).bind fun F => (relax e bk w np names F).bind fun F =>
      (if many then backup bk np names F else .ok F).bind fun F => rounds e bk w np names solve many k F

/-- eq_solve.c:18-80 `eq_solve_elliptic_equation`: back up, then solve_Max_Iteration rounds -/
def elliptic (e : K) (bk : Str → Str) (w : Str → K) (np : Nat) (names : List Str) (solve : Fields K → Res (Fields K)) (maxIter : Nat)
    (F : Fields K) : Res (Fields K) :=
  (backup bk np names F).bind fun F => rounds e bk w np names solve (decide (maxIter > 1)) maxIter F

end Elliptica.Solve
