import Verif.Model.MassPlan
import Verif.Spec.ObsPlan
/-!
Specification of the plans of masses: what they add up, for a flux with sources anywhere (ADM mass) or in the stars only (Komar mass).
-/
namespace Elliptica.ObsPlan.Spec
open Text

/-- what the plan of a mass adds up -/
noncomputable def Flux.totalM {k : Kind} (F : Flux k) (p : MPlan) : ℝ := (p.surf.map F.through).sum + (p.vol.map F.vol).sum

/-- a flux without sources outside the objects -/
structure Vacuum (k : Kind) extends Flux k where
  empty : ∀ r ∈ outside k, vol r = 0

/-- without sources outside, the flux through the inner side of the last shell is that through the outer boundary -/
noncomputable def Vacuum.through {k : Kind} (F : Vacuum k) (s : Str × Side) : ℝ :=
  if s = ("outermost_OB".toList, .inner) then F.far else F.toFlux.through s

/-- what the plan of a mass adds up -/
noncomputable def Vacuum.totalM {k : Kind} (F : Vacuum k) (p : MPlan) : ℝ := (p.surf.map F.through).sum + (p.vol.map F.vol).sum

end Elliptica.ObsPlan.Spec
