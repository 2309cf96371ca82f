import Verif.Model.Integration
import Verif.Model.Physics
/-!
Model of Src/Main/Modules/Physics/Observe/obs_BH_irreducible_mass_CS.c, obs_Rcenter_NS.c and obs_calculate.c:403-542 (the centre of a
black hole, and the spin as J - R×P).  `double` is exact over `ℝ`.  The patches are those the region collects (C101); the temporary
fields are left out.  A quotient by zero and the root of a negative number are the outcome `ub`.
-/
namespace Elliptica.ObsCenter
open Integ

/-- a patch with the points of its nodes, the conformal metric and the conformal factor -/
structure Piece where
  P : Integ.Patch
  g : Integ.Metric
  psi : ℕ → ℝ
  x : ℕ → Fin 3 → ℝ

/-- obs_BH_irreducible_mass_CS.c:41-52, obs_calculate.c:494-500: the physical metric -/
def physical (psi : ℕ → ℝ) (g : Metric) : Metric where
  g00 l := psi l ^ 4 * g.g00 l
  g01 l := psi l ^ 4 * g.g01 l
  g02 l := psi l ^ 4 * g.g02 l
  g11 l := psi l ^ 4 * g.g11 l
  g12 l := psi l ^ 4 * g.g12 l
  g22 l := psi l ^ 4 * g.g22 l

/-- obs_BH_irreducible_mass_CS.c:56-69, obs_calculate.c:508-526: the integral over the surface Z = 0 with the physical metric -/
noncomputable def Piece.onHorizon (a : Piece) (f : ℕ → ℝ) : Res ℝ :=
  surfDS a.P (physical a.psi a.g) f (fun d => d == 2) fun _ => 0

/-- the loop over the patches, adding -/
noncomputable def total (v : Piece → Res ℝ) : List Piece → ℝ → Res ℝ
  | [], acc => .ok acc
  | a :: t, acc => (v a).bind fun w => total v t (acc + w)

/-- obs_BH_irreducible_mass_CS.c:9-83: irreducible mass and area -/
noncomputable def irreducible (ps : List Piece) : Res (ℝ × ℝ) :=
  (total (fun a => a.onHorizon fun _ => 1) ps 0).bind fun A =>
    if A < 0 then .ub else .ok (√(A / (16 * Real.pi)), A)

/-- obs_calculate.c:442-542 `Rc_BH`; `area` is the parameter AH_area, `cm` the centre of mass of the system -/
noncomputable def centerBH (ps : List Piece) (area : ℝ) (cm : Fin 3 → ℝ) (a : Fin 3) : Res ℝ :=
  (total (fun q => q.onHorizon fun l => q.x l a - cm a) ps 0).bind fun r => if area = 0 then .ub else .ok (r / area)

/-- the fields at a node read by obs_Rcenter_NS.c -/
structure In where
  dpsi : Fin 3 → ℝ
  ddpsi : Fin 3 → Fin 3 → ℝ
  ig : Fin 3 → Fin 3 → ℝ
  C : Fin 3 → Fin 3 → Fin 3 → ℝ

/-- obs_Rcenter_NS.c:87-110 -/
def d2psi (q : In) : ℝ :=
  -q.C 0 0 0 * q.dpsi 0 * q.ig 0 0 - 2 * q.C 0 0 1 * q.dpsi 0 * q.ig 0 1 - 2 * q.C 0 0 2 * q.dpsi 0 * q.ig 0 2 -
    q.C 0 1 1 * q.dpsi 0 * q.ig 1 1 - 2 * q.C 0 1 2 * q.dpsi 0 * q.ig 1 2 - q.C 0 2 2 * q.dpsi 0 * q.ig 2 2 -
    q.C 1 0 0 * q.dpsi 1 * q.ig 0 0 - 2 * q.C 1 0 1 * q.dpsi 1 * q.ig 0 1 - 2 * q.C 1 0 2 * q.dpsi 1 * q.ig 0 2 -
    q.C 1 1 1 * q.dpsi 1 * q.ig 1 1 - 2 * q.C 1 1 2 * q.dpsi 1 * q.ig 1 2 - q.C 1 2 2 * q.dpsi 1 * q.ig 2 2 -
    q.C 2 0 0 * q.dpsi 2 * q.ig 0 0 - 2 * q.C 2 0 1 * q.dpsi 2 * q.ig 0 1 - 2 * q.C 2 0 2 * q.dpsi 2 * q.ig 0 2 -
    q.C 2 1 1 * q.dpsi 2 * q.ig 1 1 - 2 * q.C 2 1 2 * q.dpsi 2 * q.ig 1 2 - q.C 2 2 2 * q.dpsi 2 * q.ig 2 2 +
    q.ddpsi 0 0 * q.ig 0 0 + 2 * q.ddpsi 0 1 * q.ig 0 1 + 2 * q.ddpsi 0 2 * q.ig 0 2 + q.ddpsi 1 1 * q.ig 1 1 +
    2 * q.ddpsi 1 2 * q.ig 1 2 + q.ddpsi 2 2 * q.ig 2 2

/-- obs_Rcenter_NS.c:112-133: the integral over the patch with the conformal metric -/
noncomputable def Piece.inside (a : Piece) (f : ℕ → ℝ) : Res ℝ := wholeDV a.P a.g f

/-- obs_Rcenter_NS.c:16-149 `obs_Rc_NS`; `M` is the parameter ADM_mass -/
noncomputable def centerNS (fields : Piece → ℕ → In) (ps : List Piece) (M : ℝ) (cm : Fin 3 → ℝ) (a : Fin 3) : Res ℝ :=
  (total (fun q => q.inside fun l => d2psi (fields q l) * (q.x l a - cm a)) ps 0).bind fun r =>
    if M = 0 then .ub else .ok (r / (-2 * Real.pi * M))

/-- obs_calculate.c:432-436 -/
def spinOf (J R P : Fin 3 → ℝ) : Fin 3 → ℝ
  | 0 => J 0 - (-P 1 * R 2 + P 2 * R 1)
  | 1 => J 1 - (P 0 * R 2 - P 2 * R 0)
  | 2 => J 2 - (-P 0 * R 1 + P 1 * R 0)

/-- obs_calculate.c:404-437 `define_spin_JRP`: the centre by the class of the object -/
def spinJRP (ctype : Physics.Obj) (J P : Fin 3 → ℝ) (rNS rBH : Res (Fin 3 → ℝ)) : Res (Fin 3 → ℝ) :=
  (if ctype = .NS then rNS else if ctype = .BH then rBH else .abort).bind fun R => .ok (spinOf J R P)

end Elliptica.ObsCenter
