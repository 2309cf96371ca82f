import Verif.Model.Tune
/-!
What the user writes to have parameters adjusted, independently of how the text is taken apart.
-/
namespace Elliptica.TuneSpec
open Elliptica.Tune

/-- `a,b,c` -/
def commas : List Str → Str
  | [] => []
  | [a] => a
  | a :: b :: l => a ++ ',' :: commas (b :: l)

/-- `adjust(a,b,c)` -/
def adjustText (names : List Str) : Str := "adjust(".toList ++ (commas names ++ [')'])

/-- a name without separators -/
structure Plain (s : Str) : Prop where
  ne : s ≠ []
  comma : ',' ∉ s
  left : '(' ∉ s
  right : ')' ∉ s

def dirName : Dir → Str
  | .x => "x".toList
  | .y => "y".toList
  | .z => "z".toList
  | .cm => "CM".toList

def parName : Par → Str
  | .xCM => "x_CM".toList
  | .yCM => "y_CM".toList
  | .Omega => "Omega".toList

/-- `d/d<direction>:<parameter>` -/
def optionName (a : Par × Dir) : Str := "d/d".toList ++ dirName a.2 ++ ":".toList ++ parName a.1

/-- along the line to the centre of mass only the angular velocity can be adjusted -/
def Allowed (a : Par × Dir) : Prop := a.2 = .cm → a.1 = .Omega

instance (a : Par × Dir) : Decidable (Allowed a) := by unfold Allowed; infer_instance

/-- the linear momentum, in the orbital plane, of a mass `m` whose centre of mass is at (X,Y), in the frame that turns with the
angular velocity Ω about (x_CM, y_CM): m Ω ẑ × (R - R_CM) -/
def orbital (m X Y : ℝ) (s : Sys) : ℝ × ℝ := (-(m * s.Omega * (Y - s.yCM)), m * s.Omega * (X - s.xCM))

end Elliptica.TuneSpec
