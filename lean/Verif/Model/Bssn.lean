import Verif.Model.EoS
import Verif.Model.Mat3
/-!
Model of Src/Main/Modules/Maths/Diff_Geom/dg_scale_to_BSSN_metric_3d.c: the work done at one node, over `ℝ`.
-/
namespace Elliptica.Bssn
open Elliptica Elliptica.EoS

/-- what scale_to_BSSN_metric_3d writes at a node: the scaled metric, its inverse (entries with i ≤ j, `none`: nan or infinity)
and the conformal factor -/
structure Out where
  g : Fin 3 → Fin 3 → ℝ
  gI : Fin 3 → Fin 3 → Option ℝ
  psi : ℝ

/-- dg_scale_to_BSSN_metric_3d.c:81-160 `scale_to_BSSN_metric_3d` with the three stems of the result given; `a` holds the stored
components i ≤ j.  The components of `g` with i > j are not stored by the code: here they repeat the stored ones. -/
noncomputable def scale (a : Fin 3 → Fin 3 → ℝ) : Res Out :=
  let psi12 := Mat3.det (a 0 0) (a 0 1) (a 0 2) (a 0 1) (a 1 1) (a 1 2) (a 0 2) (a 1 2) (a 2 2)
  (cpow psi12 (-(33333333333333331 / 10 ^ 17))).bind fun psim4 =>
  (cpow psi12 (83333333333333329 / 10 ^ 18)).bind fun psi =>
    let g : Fin 3 → Fin 3 → ℝ := fun i j => a (min i j) (max i j) * psim4
    .ok ⟨g, fun i j => open Classical in Mat3.inverseSym (g 0 0) (g 0 1) (g 0 2) (g 1 1) (g 1 2) (g 2 2) i j, psi⟩

end Elliptica.Bssn
