import Verif.Model.Common
import Verif.Model.Tol
import Verif.Model.Gen.BhTheta
import Verif.Spec.Fields
/-!
Model of the black-hole affairs (Src/Main/Modules/Physics/BlackHole/bh_bh.c, bh_main.c) over `ℝ`: start-off parameters, tuning, surface, normal and
inner boundary condition.
-/
namespace Elliptica.Bh
open Elliptica.Fields

/-- bh_main.c:209-245 the parameter `start_off` -/
inductive Start where
  | KerrSchild | CloseKerrSchild | IsoSchild | PGSchild | other
deriving DecidableEq

/-- bh_main.c:188-199 the parameter `surface_type` -/
inductive Surf where
  | perfect_s2 | KerrSchild_s2 | other
deriving DecidableEq

/-- the parameters that a start-off sets; `radius`: perfect_S2_radius, min_radius and max_radius, `none`: not set -/
structure Init where
  radius : Option ℝ
  mass : ℝ
  spin : ℝ

/-- bh_bh.c:55, 96 the size of the dimensionless spin -/
noncomputable def chiAbs (chi : Fin 3 → ℝ) : ℝ := √(chi 0 ^ 2 + chi 1 ^ 2 + chi 2 ^ 2)

/-- bh_bh.c:56, 97 `bh_chr_mass` -/
noncomputable def chrMass (irr chi : ℝ) : ℝ := irr * √(2 / (1 + √(1 - chi ^ 2)))

/-- bh_main.c:209-245 `start_off_black_hole` with bh_bh.c:15-41 (KerrSchild, sphere), 47-83 (CloseKerrSchild), 88-120 (KerrSchild, general), 125-147
(IsoSchild), 152-174 (PGSchild).  Simplified: over the reals the root of 1-chi² for chi in (1,1+e] is 0 where the C code gets NaN. -/
noncomputable def startOff (e : ℝ) (st : Start) (sf : Surf) (irr : ℝ) (chi : Fin 3 → ℝ) : Res Init :=
  match st, sf with
  | .KerrSchild, .perfect_s2 => .ok ⟨some (2 * irr), irr, 0⟩
  | .KerrSchild, .KerrSchild_s2 =>
    if Tol.grt e (chiAbs chi) 1 then .abort
    else .ok ⟨none, chrMass irr (chiAbs chi), chiAbs chi * chrMass irr (chiAbs chi)⟩
  | .CloseKerrSchild, .perfect_s2 =>
    if Tol.grt e (chiAbs chi) 1 then .abort
    else .ok ⟨some (3 / 2 * irr), irr, chiAbs chi * chrMass irr (chiAbs chi)⟩
  | .IsoSchild, .perfect_s2 => .ok ⟨some (1 / 2 * irr), irr, 0⟩
  | .PGSchild, .perfect_s2 => .ok ⟨some (2 * irr), irr, 0⟩
  | _, _ => .abort

/-- what the radius tuning sets: the radius (perfect_S2_radius, min_radius, max_radius) and `did_BH_surface_change?` -/
structure Tuned where
  radius : ℝ
  changed : Bool

/-- bh_bh.c:254-295 `bh_tune_BH_radius_irreducible_mass_perfect_s2`; `mass` is the observed irreducible mass -/
noncomputable def tuneRadius (e target W tol radius mass : ℝ) : Tuned :=
  let dM := |mass / target - 1|
  let dr0 := -radius * (mass / target - 1)
  let dr1 := if Tol.eql e W 0 then 0 else dr0
  let dr := if Tol.lssEql e dM tol then 0 else dr1
  ⟨radius + W * dr, !(Tol.eql e dr 0)⟩

/-- bh_bh.c:318-328 the current dimensionless spin from the observed spin `s` and irreducible mass -/
noncomputable def chiNow (irr : ℝ) (s : Fin 3 → ℝ) (i : Fin 3) : ℝ :=
  let net := √(s 0 ^ 2 + s 1 ^ 2 + s 2 ^ 2)
  let m := √(irr ^ 2 + net ^ 2 / (4 * irr ^ 2))
  s i / m ^ 2

/-- bh_bh.c:300-355 `bh_tune_BH_chi_simple`: the new Omega; `scale` is the absolute value of the angular velocity of the system -/
noncomputable def tuneChi (e W tol scale irr : ℝ) (omega target s : Fin 3 → ℝ) : Fin 3 → ℝ :=
  if Tol.eql e W 0 then omega
  else fun i =>
    let d := chiNow irr s i - target i
    if Tol.grt e |d| tol then omega i + W * d * scale else omega i

/-- bh_bh.c:226-230 `rmin`, `rmax` of a surface; `big` is DBL_MAX -/
noncomputable def minMax (big : ℝ) (r : List ℝ) : ℝ × ℝ :=
  r.foldl (fun p x => (if x < p.1 then x else p.1, if x > p.2 then x else p.2)) (big, 0)

/-- bh_bh.c:466-474, 514-522: the distance from the centre; `p` is the position relative to the centre -/
noncomputable def dist (p : Pt) : ℝ := √(p 0 ^ 2 + p 1 ^ 2 + p 2 ^ 2)

/-- bh_bh.c:471-474 n = x^i/r -/
noncomputable def nrm (p : Pt) (i : Fin 3) : ℝ := p i / dist p

/-- bh_bh.c:476-482 `bh__n`; the components in order of the metric are read -/
noncomputable def len (g : Fin 3 → Fin 3 → ℝ) (p : Pt) : ℝ :=
  √(g 0 0 * nrm p 0 ^ 2 + 2 * g 0 1 * nrm p 0 * nrm p 1 + 2 * g 0 2 * nrm p 0 * nrm p 2 + g 1 1 * nrm p 1 ^ 2 + 2 * g 1 2 * nrm p 1 * nrm p 2 +
    g 2 2 * nrm p 2 ^ 2)

/-- bh_bh.c:524-527 `bh_sConf_U` -/
noncomputable def sConf (g : Fin 3 → Fin 3 → ℝ) (p : Pt) (i : Fin 3) : ℝ := nrm p i / len g p

/-- bh_bh.c:529-544 `dbh_sConf_UD`; `N` is bh__n and `dN` its derivatives -/
noncomputable def dsConf (N : ℝ) (dN : Fin 3 → ℝ) (p : Pt) (i j : Fin 3) : ℝ :=
  let dn := ((if i = j then 1 else 0) - nrm p i * nrm p j) / dist p
  (dn - nrm p i * dN j / N) / N

/-- bh_bh.c:585-600 the shift on the inner boundary; `p` is the position relative to the centre -/
noncomputable def innerBeta (Om : Fin 3 → ℝ) (alphaPsi psi : ℝ) (s : Fin 3 → ℝ) (p : Pt) : Fin 3 → ℝ
  | 0 => (Om 1 * p 2 - Om 2 * p 1) + s 0 / psi ^ 2 * (alphaPsi / psi)
  | 1 => (-Om 0 * p 2 + Om 2 * p 0) + s 1 / psi ^ 2 * (alphaPsi / psi)
  | 2 => (Om 0 * p 1 - Om 1 * p 0) + s 2 / psi ^ 2 * (alphaPsi / psi)

/-- bh_expansion_of_AH.c:15, 74-157 the value returned, for the nodes of the inner boundary -/
noncomputable def maxExpansion (nodes : List Gen.BhTheta.In) : ℝ :=
  nodes.foldl (fun m x => let t := |Gen.BhTheta.Theta x|; if m < t then t else m) 0

end Elliptica.Bh
