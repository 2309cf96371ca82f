import Verif.Model.Bhf
import Verif.Model.Text
import Verif.Model.Tol
/-!
Model of the extrapolation of the matter fields outside a star, Src/Main/Modules/Physics/Star/star_NS_surface.c:14-677,
1282-1387, and of the choice of the method, star_NS.c:308-394.  Over `ℝ`; `e` is ROUND_OFF_ERR.
-/
namespace Elliptica.StarFill
open Real Text

/-- the methods of `extrap_init`, star_NS_surface.c:62-204 -/
inductive Method where
  | poly2 | exp2 | inverseR2 | inverseR2Expmr | inverseR2ExpmAr | inverseRExpmr | inverseRExpmAr | expmr
deriving DecidableEq

/-- star_NS_surface.c:62-204: the method of a name (up to letter case, strcmp_i); another name is refused -/
def Method.ofName (s : Str) : Res Method :=
  if strcmpI (some s) (some "inverse_r_expmAr".toList) then .ok .inverseRExpmAr
  else if strcmpI (some s) (some "inverse_r_expmr".toList) then .ok .inverseRExpmr
  else if strcmpI (some s) (some "poly2".toList) then .ok .poly2
  else if strcmpI (some s) (some "exp2".toList) then .ok .exp2
  else if strcmpI (some s) (some "inverse_r2".toList) then .ok .inverseR2
  else if strcmpI (some s) (some "inverse_r2_expmr".toList) then .ok .inverseR2Expmr
  else if strcmpI (some s) (some "inverse_r2_expmAr".toList) then .ok .inverseR2ExpmAr
  else if strcmpI (some s) (some "expmr".toList) then .ok .expmr
  else .abort

/-- star_NS_surface.c:166 `C2`: are second derivatives computed? -/
def Method.c2 : Method → Bool
  | .poly2 | .exp2 | .inverseR2 | .inverseR2Expmr | .inverseR2ExpmAr => true
  | _ => false

/-- star_NS_surface.c:11 -/
noncomputable def att0 : ℝ := 1 / 2
/-- star_NS_surface.c:12 -/
noncomputable def att1 : ℝ := 1 / 100

/-- star_NS_surface.c:540-555 `approx_poly2` -/
noncomputable def poly2 (r0 f d k r : ℝ) : ℝ :=
  let a := f + (r0 * (-2 * d + k * r0)) / 2
  let b := d - k * r0
  let c := 1 / 2 * k
  a + b * r + c * r ^ 2

/-- star_NS_surface.c:558-573 `approx_inverse_r2` -/
noncomputable def inverseR2 (r0 f d k r : ℝ) : ℝ :=
  let a := f + (r0 * (4 * d + k * r0)) / 2
  let b := -(r0 ^ 2 * (3 * d + k * r0))
  let c := (r0 ^ 3 * (2 * d + k * r0)) / 2
  a + b / r + c / r ^ 2

/-- star_NS_surface.c:576-597 `approx_inverse_r2_expmr` (pow(M_E,x) is exp x) -/
noncomputable def inverseR2Expmr (r0 f d k r : ℝ) : ℝ :=
  let A := att1
  let a := (exp A * ((2 + 4 * A + A ^ 2) * f + r0 * (2 * (2 + A) * d + k * r0))) / 2
  let b := -(exp A * r0 * (3 * A * f + A ^ 2 * f + 3 * d * r0 + 2 * A * d * r0 + k * r0 ^ 2))
  let c := (exp A * r0 ^ 2 * (A ^ 2 * f + r0 * (2 * d + k * r0) + 2 * A * (f + d * r0))) / 2
  (a + b / r + c / r ^ 2) * exp (-A * r / r0)

/-- star_NS_surface.c:600-618 `approx_inverse_r2_expmAr` -/
noncomputable def inverseR2ExpmAr (r0 f d k r : ℝ) : ℝ :=
  let A := att0
  let a := (f * (2 + 4 * A * r0 + A ^ 2 * r0 ^ 2) + r0 * (k * r0 + 2 * d * (2 + A * r0))) / 2
  let b := -(r0 ^ 2 * (3 * A * f + k * r0 + A ^ 2 * f * r0 + d * (3 + 2 * A * r0)))
  let c := (r0 ^ 3 * (2 * A * f + k * r0 + A ^ 2 * f * r0 + 2 * d * (1 + A * r0))) / 2
  (a + b / r + c / r ^ 2) * exp (-A * |r - r0|)

/-- star_NS_surface.c:622-635 `approx_inverse_r_expmAr` -/
noncomputable def inverseRExpmAr (r0 f d r : ℝ) : ℝ :=
  let A := att0
  let a := f + d * r0 + A * f * r0
  let b := -((d + A * f) * r0 ^ 2)
  (a + b / r) * exp (-A * |r - r0|)

/-- star_NS_surface.c:639-653 `approx_inverse_r_expmr` -/
noncomputable def inverseRExpmr (r0 f d r : ℝ) : ℝ :=
  let A := att1
  let a := exp A * (f + A * f + d * r0)
  let b := -(exp A * r0 * (A * f + d * r0))
  (a + b / r) * exp (-A * r / r0)

/-- star_NS_surface.c:657-677 `approx_exp2` -/
noncomputable def exp2 (e r0 f d k r : ℝ) : Res ℝ :=
  if Tol.eql e k 0 || Tol.eql e d 0 then .abort
  else
    let a := -(d ^ 2 / k) + f
    let b := d ^ 2 / (k * exp (k * r0 / d))
    let c := k / d
    .ok (a + b * exp (c * r))

/-- star_NS_surface.c:1377-1378, the exponential of `extrapolate_expmr_C0_CS` (att of line 1297) -/
noncomputable def expmr (r0 f r : ℝ) : ℝ := f * exp (-(1 / 10) * (r - r0))

/-- the function of the method: star_NS_surface.c:93-98, 140-153, 78 and 193 -/
noncomputable def value (e : ℝ) : Method → (r0 f d k r : ℝ) → Res ℝ
  | .poly2, r0, f, d, k, r => .ok (poly2 r0 f d k r)
  | .exp2, r0, f, d, k, r => exp2 e r0 f d k r
  | .inverseR2, r0, f, d, k, r => .ok (inverseR2 r0 f d k r)
  | .inverseR2Expmr, r0, f, d, k, r => .ok (inverseR2Expmr r0 f d k r)
  | .inverseR2ExpmAr, r0, f, d, k, r => .ok (inverseR2ExpmAr r0 f d k r)
  | .inverseRExpmr, r0, f, d, _, r => .ok (inverseRExpmr r0 f d r)
  | .inverseRExpmAr, r0, f, d, _, r => .ok (inverseRExpmAr r0 f d r)
  | .expmr, r0, f, _, _, r => .ok (expmr r0 f r)

/-- What the search of the patch by the angles on the surface of the star (X[2] = 1) and the interpolations on its face return:
the point of the surface and the field, its three first and its six second derivatives there (star_NS_surface.c:313-386).
Simplification: the search and the interpolation are the objects of C38, C41 and C88; here they are one function of the angles. -/
structure Surf where
  point : Fin 3 → ℝ
  f : ℝ
  df : Fin 3 → ℝ
  ddf : ℕ → ℝ

/-- star_NS_surface.c:280-421 one node of `fmain_f_df_ddf_CS`, and 1322-1378 of `extrapolate_expmr_C0_CS`: the value given to a
field at the point x outside.  `surf` is None where the search by angles fails, which ends the run.  At the centre itself
theta is not a number and no patch is found. -/
noncomputable def node (e : ℝ) (m : Method) (center : Fin 3 → ℝ) (surf : ℝ → ℝ → Option Surf) (p : Fin 3 → ℝ) : Res ℝ :=
  let x : Fin 3 → ℝ := fun i => p i - center i
  let r := Bhf.len x
  if r = 0 then .abort
  else
    let th := arccos (x 2 / r)
    let ph := Angles.arctan e (x 1) (x 0)
    let N := Bhf.normal th ph
    match surf th ph with
    | none => .abort
    | some s =>
      let y : Fin 3 → ℝ := fun i => s.point i - center i
      let rSurf := Bhf.len y
      value e m rSurf s.f (Bhf.firstDer N s.df) (if m.c2 then Bhf.secondDer N y s.df s.ddf rSurf else 0) r

/-- star_NS.c:308-394 `star_NS_idealfluid_extrapolate_matter_fields`: for each parameter value the calls of
`star_NS_extrapolate` in order (fields, method); the spin part W of the velocity is recomputed around the star after them -/
def plan (s : Str) : Res (List (List Str × Str)) :=
  let both : List Str := ["phi".toList, "enthalpy".toList]
  if strcmpI (some s) (some "inverse_r_expmr".toList) then .ok [(both, "inverse_r_expmr".toList)]
  else if strcmpI (some s) (some "inverse_r_expmAr".toList) then .ok [(both, "inverse_r_expmAr".toList)]
  else if strcmpI (some s) (some "inverse_r2_expmAr".toList) then .ok [(both, "inverse_r2_expmAr".toList)]
  else if strcmpI (some s) (some "enthalpy_expmr_phi_inverse_r2".toList) then
    .ok [(["enthalpy".toList], "expmr".toList), (["phi".toList], "inverse_r2".toList)]
  else if strcmpI (some s) (some "exp2".toList) then .ok [(both, "exp2".toList)]
  else if strcmpI (some s) (some "poly2".toList) then .ok [(both, "poly2".toList)]
  else if strcmpI (some s) (some "inverse_r2".toList) then .ok [(both, "inverse_r2".toList)]
  else if strcmpI (some s) (some "inverse_r2_expmr".toList) then .ok [(both, "inverse_r2_expmr".toList)]
  else .abort

/-- The matter fields at one point outside the star. -/
structure Matter where
  phi : ℝ
  enthalpy : ℝ
  W : Fin 3 → ℝ

/-- star_NS_surface.c:269-424: the fields of the list, one after the other (the list has only phi and enthalpy) -/
def fields (val : Str → Res ℝ) : List Str → Matter → Res Matter
  | [], s => .ok s
  | n :: l, s => (val n).bind fun v =>
      fields val l (if n = "phi".toList then { s with phi := v } else if n = "enthalpy".toList then { s with enthalpy := v } else s)

/-- the calls of the plan; `val` is the value given to a field by a method -/
def calls (val : Method → Str → Res ℝ) : List (List Str × Str) → Matter → Res Matter
  | [], s => .ok s
  | c :: l, s => (Method.ofName c.2).bind fun m => (fields (val m) c.1 s).bind fun s => calls val l s

/-- star_NS.c:308-394 at one point around the star: `W` is the value of `star_W_spin_vector_idealfluid_update` there -/
def extrapolate (val : Method → Str → Res ℝ) (W : Fin 3 → ℝ) (option : Str) (s : Matter) : Res Matter :=
  (plan option).bind fun p => (calls val p s).map fun s => { s with W := W }

/-- star_NS_surface.c:244-260: the derivative fields of one field are added in a patch (its fields as a set of names) where they are missing;
the first result tells whether any was missing -/
def addMissing (d : List Str) (P : Str → Bool) : Bool × (Str → Bool) := (d.any fun n => !P n, fun n => P n || d.contains n)

/-- star_NS_surface.c:428-449: they are removed -/
def dropAll (d : List Str) (P : Str → Bool) : Str → Bool := fun n => P n && !d.contains n

/-- star_NS_surface.c:234-266 and 427-451 for one list of derivative names: `did_add` is one flag for the field, set by any
patch, and the removal goes through all the patches -/
def auxiliary (d : List Str) (Ps : List (Str → Bool)) : List (Str → Bool) :=
  let added := Ps.map (addMissing d)
  if added.any (·.1) then added.map fun a => dropAll d a.2 else added.map (·.2)

end Elliptica.StarFill
