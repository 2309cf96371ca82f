import Verif.Model.Integration
import Verif.Model.Gen.Obs
/-!
Model of Src/Main/Modules/Physics/Observe/obs_calculate.c:69-155 (the normals) and 3262-3333 (`obs_integral_SV`), and of the loops
over the collected patches in obs_ADM_mass_S2.c, obs_ADM_mass_SV_isotropic.c, obs_ADM_mass_SV_conformal.c and obs_Komar_mass.c.
`double` is exact.  The integrands are those of Verif/Model/Gen/Obs.lean; the temporary fields made and removed around the
integrations, and the release of memory, are left out.  A result that is not a number in C is the outcome `ub`.
-/
namespace Elliptica.Obs
open Elliptica.Gen.Obs Elliptica.Integ

/-- obs_calculate.c:96-100 (without psi4), 138-142: the quadratic form of the metric -/
def norm2 (g : Fin 3 → Fin 3 → ℝ) (n : Fin 3 → ℝ) : ℝ :=
  g 0 0 * n 0 ^ 2 + 2 * g 0 1 * n 0 * n 1 + 2 * g 0 2 * n 0 * n 2 + g 1 1 * n 1 ^ 2 + 2 * g 1 2 * n 1 * n 2 + g 2 2 * n 2 ^ 2

/-- obs_calculate.c:69-110 `n_physical_metric_around` at one node; `d` is the gradient of the coordinate X^dir -/
noncomputable def nPhysical (psi : ℝ) (g : Fin 3 → Fin 3 → ℝ) (d : Fin 3 → ℝ) : Res (Fin 3 → ℝ) :=
  let psi4 := psi ^ 2 * psi ^ 2
  let N2 := psi4 * norm2 g d
  if N2 ≤ 0 then .ub else .ok fun i => d i / √N2

/-- obs_calculate.c:114-153 `n_conformal_metric_around` at one node -/
noncomputable def nConformal (g : Fin 3 → Fin 3 → ℝ) (d : Fin 3 → ℝ) : Res (Fin 3 → ℝ) :=
  let N2 := norm2 g d
  if N2 ≤ 0 then .ub else .ok fun i => d i / √N2

/-- obs_header.h `items_S`: a collected patch, the metric used, the flag of the surface integrals, the surface, and the values
of the fields at its nodes -/
structure Item where
  P : Integ.Patch
  g : Integ.Metric
  surf : Bool
  flag : Fin 3 → Bool
  s : Fin 3 → ℕ
  x : ℕ → In

/-- obs_calculate.c:3288-3307 the integral over the surface of an item -/
noncomputable def Item.onS (a : Item) (f : In → ℝ) : Res ℝ := surfDS a.P a.g (fun l => f (a.x l)) a.flag a.s

/-- obs_calculate.c:3311-3322 the integral over the volume of an item -/
noncomputable def Item.onV (a : Item) (f : In → ℝ) : Res ℝ := wholeDV a.P a.g fun l => f (a.x l)

/-- obs_calculate.c:3282-3326: the loop over the items, adding to `acc` -/
noncomputable def loopSV (fS fV : In → ℝ) (sS sV : ℝ) : List Item → ℝ → Res ℝ
  | [], acc => .ok acc
  | a :: t, acc =>
    if a.surf then (a.onS fS).bind fun v => loopSV fS fV sS sV t (acc + (sS * v + sV * 0))
    else (a.onV fV).bind fun v => loopSV fS fV sS sV t (acc + (sS * 0 + sV * v))

/-- obs_calculate.c:3262-3330 `obs_integral_SV`; `true` is the sign '+' -/
noncomputable def integralSV (items : List Item) (fS fV : In → ℝ) (sS sV : Bool) : Res ℝ :=
  if items = [] then .abort
  else loopSV fS fV (if sS then 1 else -1) (if sV then 1 else -1) items 0

/-- obs_ADM_mass_S2.c:29-126: only surfaces are allowed -/
noncomputable def massS2Loop : List Item → ℝ → Res ℝ
  | [], acc => .ok acc
  | a :: t, acc => if a.surf then (a.onS MassS2.out_ADM_mass_integrand_S).bind fun v => massS2Loop t (acc + v) else .abort

/-- obs_ADM_mass_S2.c `obs_ADM_mass_S2` -/
noncomputable def massS2 (items : List Item) : Res ℝ := (massS2Loop items 0).bind fun m => .ok (m / (16 * Real.pi))

/-- obs_ADM_mass_SV_isotropic.c:29-160 the loop over the items -/
noncomputable def massIsoLoop : List Item → ℝ → Res ℝ
  | [], acc => .ok acc
  | a :: t, acc =>
    (if a.surf then a.onS MassIso.out_ADM_mass_integrand_S else a.onV MassIso.out_ADM_mass_integrand_V).bind fun v => massIsoLoop t (acc + v)

/-- obs_ADM_mass_SV_isotropic.c `obs_ADM_mass_SV_isotropic` -/
noncomputable def massIso (items : List Item) : Res ℝ := (massIsoLoop items 0).bind fun m => .ok (m / (-2 * Real.pi))

/-- obs_ADM_mass_SV_conformal.c `obs_ADM_mass_SV_conformal` -/
noncomputable def massConf (items : List Item) : Res ℝ := integralSV items MassConf.out_obs__Ms MassConf.out_obs__Mv true true

/-- obs_Komar_mass.c:36-232: the loop over the items; the surface parts are divided by 4π one by one -/
noncomputable def komarLoop : List Item → ℝ → Res ℝ
  | [], acc => .ok acc
  | a :: t, acc =>
    if a.surf then (a.onS Komar.out_obs_komar_mass__s).bind fun v => komarLoop t (acc + v / (4 * Real.pi))
    else (a.onV Komar.out_obs_komar_mass__v).bind fun v => komarLoop t (acc + v)

/-- obs_Komar_mass.c `obs_Komar_mass` -/
noncomputable def komar (items : List Item) : Res ℝ := komarLoop items 0

/-- the field holding one component of an integrand; what is not stored keeps the zero of the allocation -/
noncomputable def comp (o : In → Fin 3 → Option ℝ) (a : Fin 3) (x : In) : ℝ := (o x a).getD 0

/-- obs_calculate.c:3282-3326 when no field is named for the volume: a volume item looks up the field with the name NULL -/
noncomputable def loopS (fS : In → ℝ) : List Item → ℝ → Res ℝ
  | [], acc => .ok acc
  | a :: t, acc => if a.surf then (a.onS fS).bind fun v => loopS fS t (acc + v) else .ub

/-- obs_calculate.c:3262-3330 `obs_integral_SV (obs,sS,0,'+','+')` -/
noncomputable def integralS (items : List Item) (fS : In → ℝ) : Res ℝ :=
  if items = [] then .abort else loopS fS items 0

/-- the ways to compute the linear momentum: obs_ADM_P_S_default.c, obs_ADM_P_Stokes_Rashti.c, obs_ADM_P_Stokes_constraint.c,
obs_ADM_P_Stokes_Ossokine.c -/
inductive PMethod | dflt | rashti | constraint | ossokine
  deriving DecidableEq

/-- obs_ADM_P_S_default.c:142-147, obs_ADM_P_Stokes_Rashti.c:367-372, obs_ADM_P_Stokes_constraint.c:451-456,
obs_ADM_P_Stokes_Ossokine.c:289-294: obs->ret[a] -/
noncomputable def admP (m : PMethod) (items : List Item) (a : Fin 3) : Res ℝ :=
  (match m with
    | .dflt => integralS items (comp P.out_obs__Pn_D a)
    | .rashti => integralSV items (comp PRashti.out_obs__Pin_D a) (comp PRashti.out_obs__DPi_D a) true true
    | .constraint => integralSV items (comp PConstr.out_obs__Ps_D a) (comp PConstr.out_obs__Pv_D a) true true
    | .ossokine => integralSV items (comp POss.out_obs__P_U a) (comp POss.out_obs__G_U a) true false).bind
    fun v => .ok (v / (8 * Real.pi))

/-- the ways to compute the angular momentum: obs_ADM_J_S_default.c, obs_ADM_J_Stokes_constraint.c, obs_ADM_J_Stokes_Ossokine.c -/
inductive JMethod | dflt | constraint | ossokine
  deriving DecidableEq

/-- obs_ADM_J_S_default.c:174-179, obs_ADM_J_Stokes_constraint.c:719-724, obs_ADM_J_Stokes_Ossokine.c:127-132 -/
noncomputable def admJ (m : JMethod) (items : List Item) (a : Fin 3) : Res ℝ :=
  (match m with
    | .dflt => integralS items (comp J.out_obs__Jn_D a)
    | .constraint => integralSV items (comp JConstr.out_obs__Js_D a) (comp JConstr.out_obs__Jv_D a) true true
    | .ossokine => integralS items (comp JOss.out_obs__Jn_U a)).bind
    fun v => .ok (v / (8 * Real.pi))

end Elliptica.Obs
