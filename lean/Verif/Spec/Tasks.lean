import Verif.Model.Common
/-!
Specification of the lists of functions and of symmetric tensor fields.
-/
namespace Elliptica.Tasks.Spec

/-- functions one after the other; the first that stops, stops all -/
def inTurn {S : Type} : List (S → Res S) → S → Res S
  | [], s => .ok s
  | f :: t, s => (f s).bind (inTurn t)

/-- the names of the components i ≤ j of a tensor: `c` is the letter of the rank -/
def component (stem : Str) (c : Char) (i j : Fin 3) : Str := stem ++ ['_', c, Nat.digitChar i, c, Nat.digitChar j]

end Elliptica.Tasks.Spec
