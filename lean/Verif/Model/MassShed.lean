import Verif.Model.Angles
import Verif.Model.Bhf
import Verif.Model.Physics
/-!
Model of the mass-shedding indicator, Src/Main/Modules/Physics/Star/star_NS_surface.c:1076-1202.  Over `ℝ`; `e` is ROUND_OFF_ERR.
-/
namespace Elliptica.MassShed
open Text Physics Angles Real

/-- What is read at the point (X,Y,Z) = (0,0,1) of a patch: its position (star_NS_surface.c:1116, 1160), the enthalpy and its derivatives
interpolated on the surface of the patch (1125-1147, 1169-1191).
Simplification: the map of the patch and the interpolation are the objects of C21 and C41. -/
structure Spot where
  x : Fin 3 → ℝ
  h : ℝ
  dh : Fin 3 → ℝ

/-- star_NS_surface.c:1080-1083 the grids that have a star -/
inductive Kind where
  | sns | nsns | bhns | other
deriving DecidableEq

/-- star_NS_surface.c:1101-1105 the side towards the companion -/
def opposite : Pos → Res Str
  | .left => .ok "right".toList
  | .right => .ok "left".toList
  | .center => .ok "left".toList
  | .none => .abort

/-- star_NS_surface.c:1117-1124, 1161-1168 the direction, by the polar angles of the position relative to the centre -/
noncomputable def normal (e : ℝ) (c x : Fin 3 → ℝ) : Fin 3 → ℝ :=
  let y : Fin 3 → ℝ := fun i => x i - c i
  let r := Bhf.len y
  let theta := arccos (y 2 / r)
  let phi := Angles.arctan e (y 1) (y 0)
  ![sin theta * cos phi, sin theta * sin phi, cos theta]

/-- star_NS_surface.c:1149, 1192 the logarithmic derivative of the enthalpy; where the position is the centre or the enthalpy vanishes the C code
divides by zero -/
noncomputable def dlnh (e : ℝ) (c : Fin 3 → ℝ) (q : Spot) : Res ℝ :=
  if Bhf.len (fun i => q.x i - c i) = 0 ∨ q.h = 0 then .ub
  else .ok ((normal e c q.x 0 * q.dh 0 + normal e c q.x 1 * q.dh 1 + normal e c q.x 2 * q.dh 2) / q.h)

/-- star_NS_surface.c:1108, 1152 the patterns of the patches -/
def equatorName (spos stype side : Str) : Str := ".*".toList ++ spos ++ "_".toList ++ stype ++ "_".toList ++ side ++ ".*".toList
def poleName (spos stype : Str) : Str := ".*".toList ++ spos ++ "_".toList ++ stype ++ "_up.*".toList

/-- star_NS_surface.c:1078-1202 `star_NS_mass_shedding_indicator`; `spot` is what is read in the patches of a pattern, `none` where no patch has the
point (the assertion stops the program); a derivative of zero at the pole is divided by.
Simplification: the pattern's buffer of 99 bytes is unbounded. -/
noncomputable def indicator (e : ℝ) (kind : Kind) (pos : Pos) (spos stype : Str) (c : Fin 3 → ℝ) (spot : Str → Option Spot) : Res ℝ :=
  if kind = .other then .abort
  else (opposite pos).bind fun side =>
    match spot (equatorName spos stype side) with
    | none => .abort
    | some q => (dlnh e c q).bind fun a =>
      match spot (poleName spos stype) with
      | none => .abort
      | some q2 => (dlnh e c q2).bind fun b => if b = 0 then .ub else .ok (a / b)

end Elliptica.MassShed
