import Verif.Model.Text
import Verif.Model.Tol
import Mathlib.Analysis.Real.Sqrt
/-!
Model of the tuning of the orbit and of the star: Src/Main/Modules/Physics/Star/star_NS.c (force balance, Euler constant) and
Src/Main/Modules/Physics/System/sys_tune.c, over `ℝ`.  `e` is ROUND_OFF_ERR.  Messages are left out.
-/
namespace Elliptica.Tune
open Text

/-! ### the parameter adjust(a,b,c) -/

/-- text_tools.c:124-171 `tok_s(0,',',&save)`: the token and the new `save` -/
def tokNext (save : Option Str) : Option Str × Option Str :=
  match save with
  | none => (none, none)
  | some s =>
    match tokS ',' s with
    | none => (none, some s)
    | some t => (some t.tok, t.save)

/-- star_NS.c:716, sys_tune.c:106 `tok_s(main_str,',',&save)`: the token and the new `save` -/
def tokFirst (main save : Option Str) : Option Str × Option Str :=
  match main with
  | none => tokNext save
  | some s =>
    match tokS ',' s with
    | none => (none, save)
    | some u => (some u.tok, u.save)

/-- star_NS.c:697-726, sys_tune.c:86-115 `parse_adjust_parameter`.  Not modelled (given as `.ub`): a text that begins with ')' -/
def parse (par : Str) : Res (Option Str × Option Str × Option Str) :=
  if ¬ strstrI (some par) (some "adjust(".toList) ∧ ¬ strstrI (some par) (some "none".toList) then .abort
  else if strcmpI (some par) (some "none".toList) then .ok (none, none, none)
  else
    match tokS ')' par with
    | none => .ub
    | some t =>
      if t.aliased then .ub
      else
        let a := tokFirst (subS '(' ')' par) t.save
        let b := tokNext a.2
        let c := tokNext b.2
        .ok (a.1, b.1, c.1)

/-- a table of options: the first name that agrees up to letter case; null and none mean nothing, another text stops the run -/
def look {A : Type} (table : List (Str × A)) : Option Str → Res (Option A)
  | none => .ok none
  | some s =>
    if strcmpI (some s) (some "none".toList) then .ok none
    else match table.find? fun p => strcmpI (some s) (some p.1) with
      | some p => .ok (some p.2)
      | none => .abort

/-- all three are looked up before the first is carried out (star_NS.c:122-132, sys_tune.c:25-33) -/
def lookAll {A : Type} (table : List (Str × A)) (par : Str) : Res (List A) :=
  (parse par).bind fun t =>
  (look table t.1).bind fun a =>
  (look table t.2.1).bind fun b =>
  (look table t.2.2).bind fun c =>
    .ok (a.toList ++ b.toList ++ c.toList)

/-! ### force balance -/

/-- the parameters of the system that are tuned -/
structure Sys where
  xCM : ℝ
  yCM : ℝ
  Omega : ℝ

inductive Par | xCM | yCM | Omega
deriving DecidableEq, Repr

inductive Dir | x | y | z | cm
deriving DecidableEq, Repr

def Sys.get (s : Sys) : Par → ℝ
  | .xCM => s.xCM
  | .yCM => s.yCM
  | .Omega => s.Omega

/-- star_NS.c:636-637 the parameter `<system>_<par>` -/
def Sys.set (s : Sys) (v : ℝ) : Par → Sys
  | .xCM => { s with xCM := v }
  | .yCM => { s with yCM := v }
  | .Omega => { s with Omega := v }

/-- star_NS.c:646-694 `get_func_force_balance_adjustment` with 468-526 -/
def balanceTable : List (Str × (Par × Dir)) :=
  [("d/dx:x_CM".toList, (.xCM, .x)), ("d/dCM:Omega".toList, (.Omega, .cm)), ("d/dy:x_CM".toList, (.xCM, .y)),
   ("d/dz:x_CM".toList, (.xCM, .z)), ("d/dx:y_CM".toList, (.yCM, .x)), ("d/dy:y_CM".toList, (.yCM, .y)), ("d/dz:y_CM".toList, (.yCM, .z)),
   ("d/dx:Omega".toList, (.Omega, .x)), ("d/dy:Omega".toList, (.Omega, .y)), ("d/dz:Omega".toList, (.Omega, .z))]

/-- what a call of the root finder leaves: whether the exit status is ROOT_FINDER_OK, the solution slot and the residual -/
structure Found where
  ok : Bool
  x : ℝ
  residual : ℝ

/-- star_NS.c:628-633: `x` is new_par[0], `old` is old_par.  In C `1-x/0` is infinite, or not a number when x = 0 -/
noncomputable def weight (W1 old x : ℝ) : ℝ :=
  if (if old = 0 then x ≠ 0 else |1 - x / old| > 0.1) then W1 * 0.1 else W1

/-- star_NS.c:634 -/
noncomputable def mixed (W1 old x : ℝ) : ℝ := weight W1 old x * x + (1 - weight W1 old x) * old

/-- star_NS.c:530-643 `force_balance_eq_root_finders`; `solve` is the root finder for the force balance equation with the present
parameters (its exit status and residual are only printed).  `center` is the centre of the star -/
noncomputable def balance (e W1 : ℝ) (center : ℝ × ℝ) (solve : Par → Dir → Sys → Found) (s : Sys) (a : Par × Dir) : Res Sys :=
  if a.2 = .cm ∧ Tol.eql e (√((s.xCM - center.1) ^ 2 + (s.yCM - center.2) ^ 2)) 0 then .abort
  else .ok (s.set (mixed W1 (s.get a.1) (solve a.1 a.2 s).x) a.1)

/-- one after the other, each with the parameters the one before left -/
noncomputable def inTurn {S A : Type} (f : S → A → Res S) : List A → S → Res S
  | [], s => .ok s
  | a :: l, s => (f s a).bind (inTurn f l)

/-- star_NS.c:103-187 `star_NS_idealfluid_gConf_force_balance` -/
noncomputable def forceBalance (e W1 : ℝ) (center : ℝ × ℝ) (solve : Par → Dir → Sys → Found) (par : Str) (s : Sys) : Res Sys :=
  (lookAll balanceTable par).bind fun l => inTurn (balance e W1 center solve) l s

/-! ### Euler constant -/

/-- star_NS.c:291-298: `tol` is RootFinder_Tolerance, `guess` the present constant -/
noncomputable def euler (e W1 tol guess : ℝ) (o : Found) : ℝ :=
  if Tol.grt e o.residual (√tol) then guess else W1 * o.x + (1 - W1) * guess

/-! ### ADM momentum -/

/-- parameters P_ADM_control_* and the ADM mass -/
structure Ctl where
  W : ℝ
  tol : ℝ
  thr : ℝ
  mass : ℝ

/-- sys_tune.c:59-83 `get_func_P_ADM_adjustment` -/
def momentumTable : List (Str × Par) := [("x_CM".toList, .xCM), ("y_CM".toList, .yCM)]

/-- sys_tune.c:117-142 `Px_ADM_is0_by_y_CM`, 145-171 `Py_ADM_is0_by_x_CM`; `P` is the momentum observed before the first of them.
Not modelled (given as `.ub`): the infinite values when the angular velocity or the mass vanishes and the momentum is in the range -/
noncomputable def momentum (e : ℝ) (k : Ctl) (P : ℝ × ℝ) (s : Sys) : Par → Res Sys
  | .yCM =>
    if Tol.grt e |P.1| k.tol && Tol.lss e |P.1| k.thr then
      if s.Omega * k.mass = 0 then .ub else .ok { s with yCM := s.yCM + -P.1 / (s.Omega * k.mass) * k.W }
    else .ok s
  | .xCM =>
    if Tol.grt e |P.2| k.tol && Tol.lss e |P.2| k.thr then
      if s.Omega * k.mass = 0 then .ub else .ok { s with xCM := s.xCM + P.2 / (s.Omega * k.mass) * k.W }
    else .ok s
  | .Omega => .ok s

/-- sys_tune.c:12-56 `sys_tune_ADM_momenta`; `observe` is the ADM momentum of the present fields -/
noncomputable def tuneMomentum (e : ℝ) (k : Ctl) (observe : Sys → ℝ × ℝ) (par : Str) (s : Sys) : Res Sys :=
  (lookAll momentumTable par).bind fun l => inTurn (momentum e k (observe s)) l s

end Elliptica.Tune
