import Verif.Model.ObsPlan
import Mathlib.Data.Real.Basic
/-!
Specification of the plans: the balance of a flux in the regions of a grid (Gauss), and what a plan adds up.
-/
namespace Elliptica.ObsPlan.Spec
open Text

/-- the objects of a system: name, and whether it is a star (else a black hole, cut out of the grid) -/
def objects : Kind → List (Str × Bool)
  | .bhns => [("NS".toList, true), ("BH".toList, false)]
  | .nsns => [("NS1".toList, true), ("NS2".toList, true)]
  | .bhbh => [("BH1".toList, false), ("BH2".toList, false)]
  | .sns => [("NS".toList, true)]
  | .sbh => [("BH".toList, false)]
  | .other => []

/-- the regions of the grid outside the objects -/
def outside (k : Kind) : List Str :=
  "outermost".toList :: ((if k = .sbh then [] else ["filling_box".toList]) ++ (objects k).map fun o => o.1 ++ "_around".toList)

/-- A flux on the grid of the kind `k`: `vol` its sources in the regions, `out` the flux through the surface of an object, `far` the flux
through the outer boundary.  By Gauss' theorem the sources in a star are the flux through its surface, and the sources outside are the
difference between the flux at the outer boundary and the fluxes through the objects -/
structure Flux (k : Kind) where
  vol : Str → ℝ
  out : Str → ℝ
  far : ℝ
  star : ∀ o ∈ objects k, o.2 = true → vol o.1 = out o.1
  rest : ((outside k).map vol).sum = far - ((objects k).map fun o => out o.1).sum

/-- the flux through a surface: the outer side of "outermost_OB" is the outer boundary; the inner side of the region around an object and
the outer side of a star are the surface of the object -/
noncomputable def Flux.through {k : Kind} (F : Flux k) (s : Str × Side) : ℝ :=
  if s = ("outermost_OB".toList, .outer) then F.far
  else (((objects k).filter fun o => s = (o.1 ++ "_around_IB".toList, .inner) ∨ (o.2 = true ∧ s = (o.1 ++ "_OB".toList, .outer))).map
    fun o => F.out o.1).sum

/-- what a plan adds up: surfaces plus volumes -/
noncomputable def Flux.total {k : Kind} {M : Type} (F : Flux k) (p : Plan M) : ℝ :=
  (p.surf.map F.through).sum + (p.vol.map F.vol).sum

/-- the name of a system -/
def sysName : Kind → Str
  | .bhns => "BHNS".toList | .nsns => "NSNS".toList | .bhbh => "BHBH".toList | .sbh => "SBH".toList | .sns => "SNS".toList | .other => []

end Elliptica.ObsPlan.Spec
