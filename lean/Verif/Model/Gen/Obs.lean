import Mathlib.Analysis.Real.Sqrt
import Mathlib.Analysis.SpecialFunctions.Trigonometric.Basic
/-!
Generated by /verif/tools/gen_tensor.py from Src/Main/Modules/Physics/Observe/obs_ADM_mass_S2.c, Src/Main/Modules/Physics/Observe/obs_ADM_mass_SV_isotropic.c, Src/Main/Modules/Physics/Observe/obs_ADM_mass_SV_conformal.c, Src/Main/Modules/Physics/Observe/obs_Komar_mass.c, Src/Main/Modules/Physics/Observe/obs_ADM_P_S_default.c, Src/Main/Modules/Physics/Observe/obs_ADM_J_S_default.c, Src/Main/Modules/Physics/Observe/obs_ADM_P_Stokes_Rashti.c, Src/Main/Modules/Physics/Observe/obs_ADM_P_Stokes_constraint.c, Src/Main/Modules/Physics/Observe/obs_ADM_P_Stokes_Ossokine.c, Src/Main/Modules/Physics/Observe/obs_ADM_J_Stokes_Ossokine.c, Src/Main/Modules/Physics/Observe/obs_ADM_J_Stokes_constraint.c, Src/Main/Modules/Physics/Observe/obs_spin_inegrands_Campanelli.c, Src/Main/Modules/Physics/Observe/obs_spin_inegrands_AKV.c: the arithmetic done at one node, over `ℝ`;
rounding is not modelled, neither that of the operations nor that of decimal literals such as 0.66666666666666663 (= 2/3).
`att`: the factor 0 beyond the cut-off radius, 1 within it; `x_xCM_U`, `xi_U`: coordinates of the node relative to the centre.
-/
set_option linter.style.longLine false
set_option linter.unusedVariables false

namespace Elliptica.Gen.Obs

/-- values at one node (`kd`, `J…`, `JJ…`: the Kronecker delta and the two Jacobian functions at the pair of nodes) read by Src/Main/Modules/Physics/Observe/obs_ADM_mass_S2.c, Src/Main/Modules/Physics/Observe/obs_ADM_mass_SV_isotropic.c, Src/Main/Modules/Physics/Observe/obs_ADM_mass_SV_conformal.c, Src/Main/Modules/Physics/Observe/obs_Komar_mass.c, Src/Main/Modules/Physics/Observe/obs_ADM_P_S_default.c, Src/Main/Modules/Physics/Observe/obs_ADM_J_S_default.c, Src/Main/Modules/Physics/Observe/obs_ADM_P_Stokes_Rashti.c, Src/Main/Modules/Physics/Observe/obs_ADM_P_Stokes_constraint.c, Src/Main/Modules/Physics/Observe/obs_ADM_P_Stokes_Ossokine.c, Src/Main/Modules/Physics/Observe/obs_ADM_J_Stokes_Ossokine.c, Src/Main/Modules/Physics/Observe/obs_ADM_J_Stokes_constraint.c, Src/Main/Modules/Physics/Observe/obs_spin_inegrands_Campanelli.c, Src/Main/Modules/Physics/Observe/obs_spin_inegrands_AKV.c -/
structure In where
  dpsi_D : Fin 3 → ℝ
  psi : ℝ
  n_U : Fin 3 → ℝ
  igConf_UU : Fin 3 → Fin 3 → ℝ
  dgConf_DDD : Fin 3 → Fin 3 → Fin 3 → ℝ
  ChrisConf_UDD : Fin 3 → Fin 3 → Fin 3 → ℝ
  ddpsi_DD : Fin 3 → Fin 3 → ℝ
  att : ℝ
  EConf : ℝ
  AConfIJ_UU : Fin 3 → Fin 3 → ℝ
  gConf_DD : Fin 3 → Fin 3 → ℝ
  trRicciConf : ℝ
  trK : ℝ
  alphaPsi : ℝ
  dalphaPsi_D : Fin 3 → ℝ
  beta_U : Fin 3 → ℝ
  SConf : ℝ
  JConf_U : Fin 3 → ℝ
  xi_U : Fin 3 → ℝ
  dAConfIJ_UUD : Fin 3 → Fin 3 → Fin 3 → ℝ
  dtrK_D : Fin 3 → ℝ
  x_xCM_U : Fin 3 → ℝ
  AKV0_U : Fin 3 → ℝ
  AKV1_U : Fin 3 → ℝ
  AKV2_U : Fin 3 → ℝ

end Elliptica.Gen.Obs

namespace Elliptica.Gen.Obs.MassS2

/-- obs_ADM_mass_S2.c:67-68 -/
noncomputable def dlnpsi_U2 (x : In) : ℝ :=
  x.dpsi_D 2 / x.psi

/-- obs_ADM_mass_S2.c:70-71 -/
noncomputable def dlnpsi_U1 (x : In) : ℝ :=
  x.dpsi_D 1 / x.psi

/-- obs_ADM_mass_S2.c:73-74 -/
noncomputable def dlnpsi_U0 (x : In) : ℝ :=
  x.dpsi_D 0 / x.psi

/-- obs_ADM_mass_S2.c:76-95 -/
noncomputable def M_s (x : In) : ℝ :=
  x.n_U 0 * (-8 * dlnpsi_U0 x + x.igConf_UU 0 1 * (x.dgConf_DDD 0 0 1 - x.dgConf_DDD 0 1 0) + x.igConf_UU 0 2 * (x.dgConf_DDD 0
      0 2 - x.dgConf_DDD 0 2 0) + x.igConf_UU 1 1 * (x.dgConf_DDD 0 1 1 - x.dgConf_DDD 1 1 0) + x.igConf_UU 1 2 * (x.dgConf_DDD
      0 1 2 - x.dgConf_DDD 1 2 0) + x.igConf_UU 1 2 * (x.dgConf_DDD 0 2 1 - x.dgConf_DDD 1 2 0) + x.igConf_UU 2 2 *
      (x.dgConf_DDD 0 2 2 - x.dgConf_DDD 2 2 0)) - x.n_U 1 * (8 * dlnpsi_U1 x + x.igConf_UU 0 0 * (x.dgConf_DDD 0 0 1 -
      x.dgConf_DDD 0 1 0) + x.igConf_UU 0 1 * (x.dgConf_DDD 0 1 1 - x.dgConf_DDD 1 1 0) - x.igConf_UU 0 2 * (x.dgConf_DDD 0 1 2
      - x.dgConf_DDD 0 2 1) + x.igConf_UU 0 2 * (x.dgConf_DDD 0 2 1 - x.dgConf_DDD 1 2 0) - x.igConf_UU 1 2 * (x.dgConf_DDD 1 1
      2 - x.dgConf_DDD 1 2 1) - x.igConf_UU 2 2 * (x.dgConf_DDD 1 2 2 - x.dgConf_DDD 2 2 1)) - x.n_U 2 * (8 * dlnpsi_U2 x +
      x.igConf_UU 0 0 * (x.dgConf_DDD 0 0 2 - x.dgConf_DDD 0 2 0) + x.igConf_UU 0 1 * (x.dgConf_DDD 0 1 2 - x.dgConf_DDD 0 2 1)
      + x.igConf_UU 0 1 * (x.dgConf_DDD 0 1 2 - x.dgConf_DDD 1 2 0) + x.igConf_UU 0 2 * (x.dgConf_DDD 0 2 2 - x.dgConf_DDD 2 2
      0) + x.igConf_UU 1 1 * (x.dgConf_DDD 1 1 2 - x.dgConf_DDD 1 2 1) + x.igConf_UU 1 2 * (x.dgConf_DDD 1 2 2 - x.dgConf_DDD 2
      2 1))

/-- obs_ADM_mass_S2.c:97 the value written to ADM_mass_integrand_S -/
noncomputable def out_ADM_mass_integrand_S (x : In) : ℝ :=
  M_s x

end Elliptica.Gen.Obs.MassS2

namespace Elliptica.Gen.Obs.MassIso

/-- obs_ADM_mass_SV_isotropic.c:78-80 -/
noncomputable def M_s (x : In) : ℝ :=
  x.dpsi_D 0 * x.n_U 0 + x.dpsi_D 1 * x.n_U 1 + x.dpsi_D 2 * x.n_U 2

/-- obs_ADM_mass_SV_isotropic.c:118-140 -/
noncomputable def M_v (x : In) : ℝ :=
  -x.ChrisConf_UDD 0 0 0 * x.dpsi_D 0 * x.igConf_UU 0 0 - 2 * x.ChrisConf_UDD 0 0 1 * x.dpsi_D 0 * x.igConf_UU 0 1 - 2 *
      x.ChrisConf_UDD 0 0 2 * x.dpsi_D 0 * x.igConf_UU 0 2 - x.ChrisConf_UDD 0 1 1 * x.dpsi_D 0 * x.igConf_UU 1 1 - 2 *
      x.ChrisConf_UDD 0 1 2 * x.dpsi_D 0 * x.igConf_UU 1 2 - x.ChrisConf_UDD 0 2 2 * x.dpsi_D 0 * x.igConf_UU 2 2 -
      x.ChrisConf_UDD 1 0 0 * x.dpsi_D 1 * x.igConf_UU 0 0 - 2 * x.ChrisConf_UDD 1 0 1 * x.dpsi_D 1 * x.igConf_UU 0 1 - 2 *
      x.ChrisConf_UDD 1 0 2 * x.dpsi_D 1 * x.igConf_UU 0 2 - x.ChrisConf_UDD 1 1 1 * x.dpsi_D 1 * x.igConf_UU 1 1 - 2 *
      x.ChrisConf_UDD 1 1 2 * x.dpsi_D 1 * x.igConf_UU 1 2 - x.ChrisConf_UDD 1 2 2 * x.dpsi_D 1 * x.igConf_UU 2 2 -
      x.ChrisConf_UDD 2 0 0 * x.dpsi_D 2 * x.igConf_UU 0 0 - 2 * x.ChrisConf_UDD 2 0 1 * x.dpsi_D 2 * x.igConf_UU 0 1 - 2 *
      x.ChrisConf_UDD 2 0 2 * x.dpsi_D 2 * x.igConf_UU 0 2 - x.ChrisConf_UDD 2 1 1 * x.dpsi_D 2 * x.igConf_UU 1 1 - 2 *
      x.ChrisConf_UDD 2 1 2 * x.dpsi_D 2 * x.igConf_UU 1 2 - x.ChrisConf_UDD 2 2 2 * x.dpsi_D 2 * x.igConf_UU 2 2 + x.ddpsi_DD
      0 0 * x.igConf_UU 0 0 + 2 * x.ddpsi_DD 0 1 * x.igConf_UU 0 1 + 2 * x.ddpsi_DD 0 2 * x.igConf_UU 0 2 + x.ddpsi_DD 1 1 *
      x.igConf_UU 1 1 + 2 * x.ddpsi_DD 1 2 * x.igConf_UU 1 2 + x.ddpsi_DD 2 2 * x.igConf_UU 2 2

/-- obs_ADM_mass_SV_isotropic.c:82 the value written to ADM_mass_integrand_S -/
noncomputable def out_ADM_mass_integrand_S (x : In) : ℝ :=
  M_s x

/-- obs_ADM_mass_SV_isotropic.c:142 the value written to ADM_mass_integrand_V -/
noncomputable def out_ADM_mass_integrand_V (x : In) : ℝ :=
  M_v x * x.att

end Elliptica.Gen.Obs.MassIso

namespace Elliptica.Gen.Obs.MassConf

/-- obs_ADM_mass_SV_conformal.c:62-64 -/
noncomputable def Ms (x : In) : ℝ :=
  x.dpsi_D 0 * x.n_U 0 + x.dpsi_D 1 * x.n_U 1 + x.dpsi_D 2 * x.n_U 2

/-- obs_ADM_mass_SV_conformal.c:73-74 -/
noncomputable def psi5 (x : In) : ℝ :=
  x.psi ^ 5

/-- obs_ADM_mass_SV_conformal.c:76-77 -/
noncomputable def psim6 (x : In) : ℝ :=
  (x.psi ^ 6)⁻¹

/-- obs_ADM_mass_SV_conformal.c:79-80 -/
noncomputable def psim7 (x : In) : ℝ :=
  psim6 x / x.psi

/-- obs_ADM_mass_SV_conformal.c:82-83 -/
noncomputable def E (x : In) : ℝ :=
  x.EConf * psim6 x

/-- obs_ADM_mass_SV_conformal.c:85-115 -/
noncomputable def A2 (x : In) : ℝ :=
  (x.AConfIJ_UU 0 0) ^ 2 * (x.gConf_DD 0 0) ^ 2 + 4 * x.AConfIJ_UU 0 0 * x.AConfIJ_UU 0 1 * x.gConf_DD 0 0 * x.gConf_DD 0 1 + 4
      * x.AConfIJ_UU 0 0 * x.AConfIJ_UU 0 2 * x.gConf_DD 0 0 * x.gConf_DD 0 2 + 2 * x.AConfIJ_UU 0 0 * x.AConfIJ_UU 1 1 *
      (x.gConf_DD 0 1) ^ 2 + 4 * x.AConfIJ_UU 0 0 * x.AConfIJ_UU 1 2 * x.gConf_DD 0 1 * x.gConf_DD 0 2 + 2 * x.AConfIJ_UU 0 0 *
      x.AConfIJ_UU 2 2 * (x.gConf_DD 0 2) ^ 2 + 2 * (x.AConfIJ_UU 0 1) ^ 2 * x.gConf_DD 0 0 * x.gConf_DD 1 1 + 2 *
      (x.AConfIJ_UU 0 1) ^ 2 * (x.gConf_DD 0 1) ^ 2 + 4 * x.AConfIJ_UU 0 1 * x.AConfIJ_UU 0 2 * x.gConf_DD 0 0 * x.gConf_DD 1 2
      + 4 * x.AConfIJ_UU 0 1 * x.AConfIJ_UU 0 2 * x.gConf_DD 0 1 * x.gConf_DD 0 2 + 4 * x.AConfIJ_UU 0 1 * x.AConfIJ_UU 1 1 *
      x.gConf_DD 0 1 * x.gConf_DD 1 1 + 4 * x.AConfIJ_UU 0 1 * x.AConfIJ_UU 1 2 * x.gConf_DD 0 1 * x.gConf_DD 1 2 + 4 *
      x.AConfIJ_UU 0 1 * x.AConfIJ_UU 1 2 * x.gConf_DD 0 2 * x.gConf_DD 1 1 + 4 * x.AConfIJ_UU 0 1 * x.AConfIJ_UU 2 2 *
      x.gConf_DD 0 2 * x.gConf_DD 1 2 + 2 * (x.AConfIJ_UU 0 2) ^ 2 * x.gConf_DD 0 0 * x.gConf_DD 2 2 + 2 * (x.AConfIJ_UU 0 2) ^
      2 * (x.gConf_DD 0 2) ^ 2 + 4 * x.AConfIJ_UU 0 2 * x.AConfIJ_UU 1 1 * x.gConf_DD 0 1 * x.gConf_DD 1 2 + 4 * x.AConfIJ_UU 0
      2 * x.AConfIJ_UU 1 2 * x.gConf_DD 0 1 * x.gConf_DD 2 2 + 4 * x.AConfIJ_UU 0 2 * x.AConfIJ_UU 1 2 * x.gConf_DD 0 2 *
      x.gConf_DD 1 2 + 4 * x.AConfIJ_UU 0 2 * x.AConfIJ_UU 2 2 * x.gConf_DD 0 2 * x.gConf_DD 2 2 + (x.AConfIJ_UU 1 1) ^ 2 *
      (x.gConf_DD 1 1) ^ 2 + 4 * x.AConfIJ_UU 1 1 * x.AConfIJ_UU 1 2 * x.gConf_DD 1 1 * x.gConf_DD 1 2 + 2 * x.AConfIJ_UU 1 1 *
      x.AConfIJ_UU 2 2 * (x.gConf_DD 1 2) ^ 2 + 2 * (x.AConfIJ_UU 1 2) ^ 2 * x.gConf_DD 1 1 * x.gConf_DD 2 2 + 2 *
      (x.AConfIJ_UU 1 2) ^ 2 * (x.gConf_DD 1 2) ^ 2 + 4 * x.AConfIJ_UU 1 2 * x.AConfIJ_UU 2 2 * x.gConf_DD 1 2 * x.gConf_DD 2 2
      + (x.AConfIJ_UU 2 2) ^ 2 * (x.gConf_DD 2 2) ^ 2

/-- obs_ADM_mass_SV_conformal.c:117-119 -/
noncomputable def Mv (x : In) : ℝ :=
  E x * psi5 x - 1 / 16 * (-A2 x * psim7 x + x.psi * x.trRicciConf + (2 / 3) * psi5 x * x.trK ^ 2) / Real.pi

/-- obs_ADM_mass_SV_conformal.c:66 the value written to obs__Ms -/
noncomputable def out_obs__Ms (x : In) : ℝ :=
  -Ms x / (2 * Real.pi)

/-- obs_ADM_mass_SV_conformal.c:121 the value written to obs__Mv -/
noncomputable def out_obs__Mv (x : In) : ℝ :=
  Mv x

end Elliptica.Gen.Obs.MassConf

namespace Elliptica.Gen.Obs.Komar

/-- obs_Komar_mass.c:73-74 -/
noncomputable def psim2 (x : In) : ℝ :=
  (x.psi ^ 2)⁻¹

/-- obs_Komar_mass.c:76-77 -/
noncomputable def psi2 (x : In) : ℝ :=
  x.psi ^ 2

/-- obs_Komar_mass.c:79-80 -/
noncomputable def psi4 (x : In) : ℝ :=
  x.psi ^ 4

/-- obs_Komar_mass.c:82-84 -/
noncomputable def dalpha_U1 (x : In) : ℝ :=
  -x.alphaPsi * x.dpsi_D 1 / psi2 x + x.dalphaPsi_D 1 / x.psi

/-- obs_Komar_mass.c:86-88 -/
noncomputable def dalpha_U0 (x : In) : ℝ :=
  -x.alphaPsi * x.dpsi_D 0 / psi2 x + x.dalphaPsi_D 0 / x.psi

/-- obs_Komar_mass.c:90-92 -/
noncomputable def dalpha_U2 (x : In) : ℝ :=
  -x.alphaPsi * x.dpsi_D 2 / psi2 x + x.dalphaPsi_D 2 / x.psi

/-- obs_Komar_mass.c:94-100 -/
noncomputable def K_DD_D1D1 (x : In) : ℝ :=
  (1 / 3) * x.gConf_DD 1 1 * psi4 x * x.trK + psim2 x * (x.AConfIJ_UU 0 0 * (x.gConf_DD 0 1) ^ 2 + 2 * x.AConfIJ_UU 0 1 *
      x.gConf_DD 0 1 * x.gConf_DD 1 1 + 2 * x.AConfIJ_UU 0 2 * x.gConf_DD 0 1 * x.gConf_DD 1 2 + x.AConfIJ_UU 1 1 * (x.gConf_DD
      1 1) ^ 2 + 2 * x.AConfIJ_UU 1 2 * x.gConf_DD 1 1 * x.gConf_DD 1 2 + x.AConfIJ_UU 2 2 * (x.gConf_DD 1 2) ^ 2)

/-- obs_Komar_mass.c:102-110 -/
noncomputable def K_DD_D1D2 (x : In) : ℝ :=
  (1 / 3) * x.gConf_DD 1 2 * psi4 x * x.trK + psim2 x * (x.AConfIJ_UU 0 0 * x.gConf_DD 0 1 * x.gConf_DD 0 2 + x.AConfIJ_UU 0 1
      * x.gConf_DD 0 1 * x.gConf_DD 1 2 + x.AConfIJ_UU 0 1 * x.gConf_DD 0 2 * x.gConf_DD 1 1 + x.AConfIJ_UU 0 2 * x.gConf_DD 0
      1 * x.gConf_DD 2 2 + x.AConfIJ_UU 0 2 * x.gConf_DD 0 2 * x.gConf_DD 1 2 + x.AConfIJ_UU 1 1 * x.gConf_DD 1 1 * x.gConf_DD
      1 2 + x.AConfIJ_UU 1 2 * x.gConf_DD 1 1 * x.gConf_DD 2 2 + x.AConfIJ_UU 1 2 * (x.gConf_DD 1 2) ^ 2 + x.AConfIJ_UU 2 2 *
      x.gConf_DD 1 2 * x.gConf_DD 2 2)

/-- obs_Komar_mass.c:112-118 -/
noncomputable def K_DD_D2D2 (x : In) : ℝ :=
  (1 / 3) * x.gConf_DD 2 2 * psi4 x * x.trK + psim2 x * (x.AConfIJ_UU 0 0 * (x.gConf_DD 0 2) ^ 2 + 2 * x.AConfIJ_UU 0 1 *
      x.gConf_DD 0 2 * x.gConf_DD 1 2 + 2 * x.AConfIJ_UU 0 2 * x.gConf_DD 0 2 * x.gConf_DD 2 2 + x.AConfIJ_UU 1 1 * (x.gConf_DD
      1 2) ^ 2 + 2 * x.AConfIJ_UU 1 2 * x.gConf_DD 1 2 * x.gConf_DD 2 2 + x.AConfIJ_UU 2 2 * (x.gConf_DD 2 2) ^ 2)

/-- obs_Komar_mass.c:120-126 -/
noncomputable def K_DD_D0D0 (x : In) : ℝ :=
  (1 / 3) * x.gConf_DD 0 0 * psi4 x * x.trK + psim2 x * (x.AConfIJ_UU 0 0 * (x.gConf_DD 0 0) ^ 2 + 2 * x.AConfIJ_UU 0 1 *
      x.gConf_DD 0 0 * x.gConf_DD 0 1 + 2 * x.AConfIJ_UU 0 2 * x.gConf_DD 0 0 * x.gConf_DD 0 2 + x.AConfIJ_UU 1 1 * (x.gConf_DD
      0 1) ^ 2 + 2 * x.AConfIJ_UU 1 2 * x.gConf_DD 0 1 * x.gConf_DD 0 2 + x.AConfIJ_UU 2 2 * (x.gConf_DD 0 2) ^ 2)

/-- obs_Komar_mass.c:128-137 -/
noncomputable def K_DD_D0D1 (x : In) : ℝ :=
  (1 / 3) * x.gConf_DD 0 1 * psi4 x * x.trK + psim2 x * (x.AConfIJ_UU 0 0 * x.gConf_DD 0 0 * x.gConf_DD 0 1 + x.AConfIJ_UU 0 1
      * x.gConf_DD 0 0 * x.gConf_DD 1 1 + x.AConfIJ_UU 0 1 * (x.gConf_DD 0 1) ^ 2 + x.AConfIJ_UU 0 2 * x.gConf_DD 0 0 *
      x.gConf_DD 1 2 + x.AConfIJ_UU 0 2 * x.gConf_DD 0 1 * x.gConf_DD 0 2 + x.AConfIJ_UU 1 1 * x.gConf_DD 0 1 * x.gConf_DD 1 1
      + x.AConfIJ_UU 1 2 * x.gConf_DD 0 1 * x.gConf_DD 1 2 + x.AConfIJ_UU 1 2 * x.gConf_DD 0 2 * x.gConf_DD 1 1 + x.AConfIJ_UU
      2 2 * x.gConf_DD 0 2 * x.gConf_DD 1 2)

/-- obs_Komar_mass.c:139-147 -/
noncomputable def K_DD_D0D2 (x : In) : ℝ :=
  (1 / 3) * x.gConf_DD 0 2 * psi4 x * x.trK + psim2 x * (x.AConfIJ_UU 0 0 * x.gConf_DD 0 0 * x.gConf_DD 0 2 + x.AConfIJ_UU 0 1
      * x.gConf_DD 0 0 * x.gConf_DD 1 2 + x.AConfIJ_UU 0 1 * x.gConf_DD 0 1 * x.gConf_DD 0 2 + x.AConfIJ_UU 0 2 * x.gConf_DD 0
      0 * x.gConf_DD 2 2 + x.AConfIJ_UU 0 2 * (x.gConf_DD 0 2) ^ 2 + x.AConfIJ_UU 1 1 * x.gConf_DD 0 1 * x.gConf_DD 1 2 +
      x.AConfIJ_UU 1 2 * x.gConf_DD 0 1 * x.gConf_DD 2 2 + x.AConfIJ_UU 1 2 * x.gConf_DD 0 2 * x.gConf_DD 1 2 + x.AConfIJ_UU 2
      2 * x.gConf_DD 0 2 * x.gConf_DD 2 2)

/-- obs_Komar_mass.c:149-154 -/
noncomputable def integrand_s (x : In) : ℝ :=
  -x.n_U 0 * (K_DD_D0D0 x * x.beta_U 0 + K_DD_D0D1 x * x.beta_U 1 + K_DD_D0D2 x * x.beta_U 2 - dalpha_U0 x) - x.n_U 1 *
      (K_DD_D0D1 x * x.beta_U 0 + K_DD_D1D1 x * x.beta_U 1 + K_DD_D1D2 x * x.beta_U 2 - dalpha_U1 x) - x.n_U 2 * (K_DD_D0D2 x *
      x.beta_U 0 + K_DD_D1D2 x * x.beta_U 1 + K_DD_D2D2 x * x.beta_U 2 - dalpha_U2 x)

/-- obs_Komar_mass.c:182-183 -/
noncomputable def psim6 (x : In) : ℝ :=
  (x.psi ^ 6)⁻¹

/-- obs_Komar_mass.c:185-186 -/
noncomputable def psi4_ (x : In) : ℝ :=
  x.psi ^ 4

/-- obs_Komar_mass.c:188-189 -/
noncomputable def alpha (x : In) : ℝ :=
  x.alphaPsi / x.psi

/-- obs_Komar_mass.c:191-192 -/
noncomputable def E (x : In) : ℝ :=
  x.EConf * psim6 x

/-- obs_Komar_mass.c:194-195 -/
noncomputable def S (x : In) : ℝ :=
  x.SConf * psim6 x

/-- obs_Komar_mass.c:197-198 -/
noncomputable def J_U2 (x : In) : ℝ :=
  x.JConf_U 2 * psim6 x

/-- obs_Komar_mass.c:200-201 -/
noncomputable def J_U0 (x : In) : ℝ :=
  x.JConf_U 0 * psim6 x

/-- obs_Komar_mass.c:203-204 -/
noncomputable def J_U1 (x : In) : ℝ :=
  x.JConf_U 1 * psim6 x

/-- obs_Komar_mass.c:206-211 -/
noncomputable def integrand_v (x : In) : ℝ :=
  alpha x * (E x + S x) - 2 * psi4_ x * (J_U0 x * x.beta_U 0 * x.gConf_DD 0 0 + J_U0 x * x.beta_U 1 * x.gConf_DD 0 1 + J_U0 x *
      x.beta_U 2 * x.gConf_DD 0 2 + J_U1 x * x.beta_U 0 * x.gConf_DD 0 1 + J_U1 x * x.beta_U 1 * x.gConf_DD 1 1 + J_U1 x *
      x.beta_U 2 * x.gConf_DD 1 2 + J_U2 x * x.beta_U 0 * x.gConf_DD 0 2 + J_U2 x * x.beta_U 1 * x.gConf_DD 1 2 + J_U2 x *
      x.beta_U 2 * x.gConf_DD 2 2)

/-- obs_Komar_mass.c:157 the value written to obs_komar_mass__s -/
noncomputable def out_obs_komar_mass__s (x : In) : ℝ :=
  integrand_s x

/-- obs_Komar_mass.c:213 the value written to obs_komar_mass__v -/
noncomputable def out_obs_komar_mass__v (x : In) : ℝ :=
  integrand_v x

end Elliptica.Gen.Obs.Komar

namespace Elliptica.Gen.Obs.P

/-- obs_ADM_P_S_default.c:56-57 -/
noncomputable def psi4 (x : In) : ℝ :=
  x.psi ^ 4

/-- obs_ADM_P_S_default.c:59-60 -/
noncomputable def psim2 (x : In) : ℝ :=
  (x.psi ^ 2)⁻¹

/-- obs_ADM_P_S_default.c:62-84 -/
noncomputable def Pn_D0 (x : In) : ℝ :=
  -x.n_U 0 * ((2 / 3) * x.gConf_DD 0 0 * psi4 x * x.trK - psim2 x * (x.AConfIJ_UU 0 0 * (x.gConf_DD 0 0) ^ 2 + 2 * x.AConfIJ_UU
      0 1 * x.gConf_DD 0 0 * x.gConf_DD 0 1 + 2 * x.AConfIJ_UU 0 2 * x.gConf_DD 0 0 * x.gConf_DD 0 2 + x.AConfIJ_UU 1 1 *
      (x.gConf_DD 0 1) ^ 2 + 2 * x.AConfIJ_UU 1 2 * x.gConf_DD 0 1 * x.gConf_DD 0 2 + x.AConfIJ_UU 2 2 * (x.gConf_DD 0 2) ^ 2))
      - x.n_U 1 * ((2 / 3) * x.gConf_DD 0 1 * psi4 x * x.trK - psim2 x * (x.AConfIJ_UU 0 0 * x.gConf_DD 0 0 * x.gConf_DD 0 1 +
      x.AConfIJ_UU 0 1 * x.gConf_DD 0 0 * x.gConf_DD 1 1 + x.AConfIJ_UU 0 1 * (x.gConf_DD 0 1) ^ 2 + x.AConfIJ_UU 0 2 *
      x.gConf_DD 0 0 * x.gConf_DD 1 2 + x.AConfIJ_UU 0 2 * x.gConf_DD 0 1 * x.gConf_DD 0 2 + x.AConfIJ_UU 1 1 * x.gConf_DD 0 1
      * x.gConf_DD 1 1 + x.AConfIJ_UU 1 2 * x.gConf_DD 0 1 * x.gConf_DD 1 2 + x.AConfIJ_UU 1 2 * x.gConf_DD 0 2 * x.gConf_DD 1
      1 + x.AConfIJ_UU 2 2 * x.gConf_DD 0 2 * x.gConf_DD 1 2)) - x.n_U 2 * ((2 / 3) * x.gConf_DD 0 2 * psi4 x * x.trK - psim2 x
      * (x.AConfIJ_UU 0 0 * x.gConf_DD 0 0 * x.gConf_DD 0 2 + x.AConfIJ_UU 0 1 * x.gConf_DD 0 0 * x.gConf_DD 1 2 + x.AConfIJ_UU
      0 1 * x.gConf_DD 0 1 * x.gConf_DD 0 2 + x.AConfIJ_UU 0 2 * x.gConf_DD 0 0 * x.gConf_DD 2 2 + x.AConfIJ_UU 0 2 *
      (x.gConf_DD 0 2) ^ 2 + x.AConfIJ_UU 1 1 * x.gConf_DD 0 1 * x.gConf_DD 1 2 + x.AConfIJ_UU 1 2 * x.gConf_DD 0 1 *
      x.gConf_DD 2 2 + x.AConfIJ_UU 1 2 * x.gConf_DD 0 2 * x.gConf_DD 1 2 + x.AConfIJ_UU 2 2 * x.gConf_DD 0 2 * x.gConf_DD 2 2))

/-- obs_ADM_P_S_default.c:86-108 -/
noncomputable def Pn_D1 (x : In) : ℝ :=
  -x.n_U 0 * ((2 / 3) * x.gConf_DD 0 1 * psi4 x * x.trK - psim2 x * (x.AConfIJ_UU 0 0 * x.gConf_DD 0 0 * x.gConf_DD 0 1 +
      x.AConfIJ_UU 0 1 * x.gConf_DD 0 0 * x.gConf_DD 1 1 + x.AConfIJ_UU 0 1 * (x.gConf_DD 0 1) ^ 2 + x.AConfIJ_UU 0 2 *
      x.gConf_DD 0 0 * x.gConf_DD 1 2 + x.AConfIJ_UU 0 2 * x.gConf_DD 0 1 * x.gConf_DD 0 2 + x.AConfIJ_UU 1 1 * x.gConf_DD 0 1
      * x.gConf_DD 1 1 + x.AConfIJ_UU 1 2 * x.gConf_DD 0 1 * x.gConf_DD 1 2 + x.AConfIJ_UU 1 2 * x.gConf_DD 0 2 * x.gConf_DD 1
      1 + x.AConfIJ_UU 2 2 * x.gConf_DD 0 2 * x.gConf_DD 1 2)) - x.n_U 1 * ((2 / 3) * x.gConf_DD 1 1 * psi4 x * x.trK - psim2 x
      * (x.AConfIJ_UU 0 0 * (x.gConf_DD 0 1) ^ 2 + 2 * x.AConfIJ_UU 0 1 * x.gConf_DD 0 1 * x.gConf_DD 1 1 + 2 * x.AConfIJ_UU 0
      2 * x.gConf_DD 0 1 * x.gConf_DD 1 2 + x.AConfIJ_UU 1 1 * (x.gConf_DD 1 1) ^ 2 + 2 * x.AConfIJ_UU 1 2 * x.gConf_DD 1 1 *
      x.gConf_DD 1 2 + x.AConfIJ_UU 2 2 * (x.gConf_DD 1 2) ^ 2)) - x.n_U 2 * ((2 / 3) * x.gConf_DD 1 2 * psi4 x * x.trK - psim2
      x * (x.AConfIJ_UU 0 0 * x.gConf_DD 0 1 * x.gConf_DD 0 2 + x.AConfIJ_UU 0 1 * x.gConf_DD 0 1 * x.gConf_DD 1 2 +
      x.AConfIJ_UU 0 1 * x.gConf_DD 0 2 * x.gConf_DD 1 1 + x.AConfIJ_UU 0 2 * x.gConf_DD 0 1 * x.gConf_DD 2 2 + x.AConfIJ_UU 0
      2 * x.gConf_DD 0 2 * x.gConf_DD 1 2 + x.AConfIJ_UU 1 1 * x.gConf_DD 1 1 * x.gConf_DD 1 2 + x.AConfIJ_UU 1 2 * x.gConf_DD
      1 1 * x.gConf_DD 2 2 + x.AConfIJ_UU 1 2 * (x.gConf_DD 1 2) ^ 2 + x.AConfIJ_UU 2 2 * x.gConf_DD 1 2 * x.gConf_DD 2 2))

/-- obs_ADM_P_S_default.c:110-132 -/
noncomputable def Pn_D2 (x : In) : ℝ :=
  -x.n_U 0 * ((2 / 3) * x.gConf_DD 0 2 * psi4 x * x.trK - psim2 x * (x.AConfIJ_UU 0 0 * x.gConf_DD 0 0 * x.gConf_DD 0 2 +
      x.AConfIJ_UU 0 1 * x.gConf_DD 0 0 * x.gConf_DD 1 2 + x.AConfIJ_UU 0 1 * x.gConf_DD 0 1 * x.gConf_DD 0 2 + x.AConfIJ_UU 0
      2 * x.gConf_DD 0 0 * x.gConf_DD 2 2 + x.AConfIJ_UU 0 2 * (x.gConf_DD 0 2) ^ 2 + x.AConfIJ_UU 1 1 * x.gConf_DD 0 1 *
      x.gConf_DD 1 2 + x.AConfIJ_UU 1 2 * x.gConf_DD 0 1 * x.gConf_DD 2 2 + x.AConfIJ_UU 1 2 * x.gConf_DD 0 2 * x.gConf_DD 1 2
      + x.AConfIJ_UU 2 2 * x.gConf_DD 0 2 * x.gConf_DD 2 2)) - x.n_U 1 * ((2 / 3) * x.gConf_DD 1 2 * psi4 x * x.trK - psim2 x *
      (x.AConfIJ_UU 0 0 * x.gConf_DD 0 1 * x.gConf_DD 0 2 + x.AConfIJ_UU 0 1 * x.gConf_DD 0 1 * x.gConf_DD 1 2 + x.AConfIJ_UU 0
      1 * x.gConf_DD 0 2 * x.gConf_DD 1 1 + x.AConfIJ_UU 0 2 * x.gConf_DD 0 1 * x.gConf_DD 2 2 + x.AConfIJ_UU 0 2 * x.gConf_DD
      0 2 * x.gConf_DD 1 2 + x.AConfIJ_UU 1 1 * x.gConf_DD 1 1 * x.gConf_DD 1 2 + x.AConfIJ_UU 1 2 * x.gConf_DD 1 1 *
      x.gConf_DD 2 2 + x.AConfIJ_UU 1 2 * (x.gConf_DD 1 2) ^ 2 + x.AConfIJ_UU 2 2 * x.gConf_DD 1 2 * x.gConf_DD 2 2)) - x.n_U 2
      * ((2 / 3) * x.gConf_DD 2 2 * psi4 x * x.trK - psim2 x * (x.AConfIJ_UU 0 0 * (x.gConf_DD 0 2) ^ 2 + 2 * x.AConfIJ_UU 0 1
      * x.gConf_DD 0 2 * x.gConf_DD 1 2 + 2 * x.AConfIJ_UU 0 2 * x.gConf_DD 0 2 * x.gConf_DD 2 2 + x.AConfIJ_UU 1 1 *
      (x.gConf_DD 1 2) ^ 2 + 2 * x.AConfIJ_UU 1 2 * x.gConf_DD 1 2 * x.gConf_DD 2 2 + x.AConfIJ_UU 2 2 * (x.gConf_DD 2 2) ^ 2))

/-- obs_ADM_P_S_default.c:136-138 the values written to obs__Pn_D; `none`: not stored -/
noncomputable def out_obs__Pn_D (x : In) : Fin 3 → Option ℝ
  | 2 => some (Pn_D2 x)
  | 1 => some (Pn_D1 x)
  | 0 => some (Pn_D0 x)

end Elliptica.Gen.Obs.P

namespace Elliptica.Gen.Obs.J

/-- obs_ADM_J_S_default.c:75-76 -/
noncomputable def psi4 (x : In) : ℝ :=
  x.psi ^ 4

/-- obs_ADM_J_S_default.c:78-79 -/
noncomputable def psim2 (x : In) : ℝ :=
  (x.psi ^ 2)⁻¹

/-- obs_ADM_J_S_default.c:81-103 -/
noncomputable def Pn_D0 (x : In) : ℝ :=
  -x.n_U 0 * ((2 / 3) * x.gConf_DD 0 0 * psi4 x * x.trK - psim2 x * (x.AConfIJ_UU 0 0 * (x.gConf_DD 0 0) ^ 2 + 2 * x.AConfIJ_UU
      0 1 * x.gConf_DD 0 0 * x.gConf_DD 0 1 + 2 * x.AConfIJ_UU 0 2 * x.gConf_DD 0 0 * x.gConf_DD 0 2 + x.AConfIJ_UU 1 1 *
      (x.gConf_DD 0 1) ^ 2 + 2 * x.AConfIJ_UU 1 2 * x.gConf_DD 0 1 * x.gConf_DD 0 2 + x.AConfIJ_UU 2 2 * (x.gConf_DD 0 2) ^ 2))
      - x.n_U 1 * ((2 / 3) * x.gConf_DD 0 1 * psi4 x * x.trK - psim2 x * (x.AConfIJ_UU 0 0 * x.gConf_DD 0 0 * x.gConf_DD 0 1 +
      x.AConfIJ_UU 0 1 * x.gConf_DD 0 0 * x.gConf_DD 1 1 + x.AConfIJ_UU 0 1 * (x.gConf_DD 0 1) ^ 2 + x.AConfIJ_UU 0 2 *
      x.gConf_DD 0 0 * x.gConf_DD 1 2 + x.AConfIJ_UU 0 2 * x.gConf_DD 0 1 * x.gConf_DD 0 2 + x.AConfIJ_UU 1 1 * x.gConf_DD 0 1
      * x.gConf_DD 1 1 + x.AConfIJ_UU 1 2 * x.gConf_DD 0 1 * x.gConf_DD 1 2 + x.AConfIJ_UU 1 2 * x.gConf_DD 0 2 * x.gConf_DD 1
      1 + x.AConfIJ_UU 2 2 * x.gConf_DD 0 2 * x.gConf_DD 1 2)) - x.n_U 2 * ((2 / 3) * x.gConf_DD 0 2 * psi4 x * x.trK - psim2 x
      * (x.AConfIJ_UU 0 0 * x.gConf_DD 0 0 * x.gConf_DD 0 2 + x.AConfIJ_UU 0 1 * x.gConf_DD 0 0 * x.gConf_DD 1 2 + x.AConfIJ_UU
      0 1 * x.gConf_DD 0 1 * x.gConf_DD 0 2 + x.AConfIJ_UU 0 2 * x.gConf_DD 0 0 * x.gConf_DD 2 2 + x.AConfIJ_UU 0 2 *
      (x.gConf_DD 0 2) ^ 2 + x.AConfIJ_UU 1 1 * x.gConf_DD 0 1 * x.gConf_DD 1 2 + x.AConfIJ_UU 1 2 * x.gConf_DD 0 1 *
      x.gConf_DD 2 2 + x.AConfIJ_UU 1 2 * x.gConf_DD 0 2 * x.gConf_DD 1 2 + x.AConfIJ_UU 2 2 * x.gConf_DD 0 2 * x.gConf_DD 2 2))

/-- obs_ADM_J_S_default.c:105-127 -/
noncomputable def Pn_D1 (x : In) : ℝ :=
  -x.n_U 0 * ((2 / 3) * x.gConf_DD 0 1 * psi4 x * x.trK - psim2 x * (x.AConfIJ_UU 0 0 * x.gConf_DD 0 0 * x.gConf_DD 0 1 +
      x.AConfIJ_UU 0 1 * x.gConf_DD 0 0 * x.gConf_DD 1 1 + x.AConfIJ_UU 0 1 * (x.gConf_DD 0 1) ^ 2 + x.AConfIJ_UU 0 2 *
      x.gConf_DD 0 0 * x.gConf_DD 1 2 + x.AConfIJ_UU 0 2 * x.gConf_DD 0 1 * x.gConf_DD 0 2 + x.AConfIJ_UU 1 1 * x.gConf_DD 0 1
      * x.gConf_DD 1 1 + x.AConfIJ_UU 1 2 * x.gConf_DD 0 1 * x.gConf_DD 1 2 + x.AConfIJ_UU 1 2 * x.gConf_DD 0 2 * x.gConf_DD 1
      1 + x.AConfIJ_UU 2 2 * x.gConf_DD 0 2 * x.gConf_DD 1 2)) - x.n_U 1 * ((2 / 3) * x.gConf_DD 1 1 * psi4 x * x.trK - psim2 x
      * (x.AConfIJ_UU 0 0 * (x.gConf_DD 0 1) ^ 2 + 2 * x.AConfIJ_UU 0 1 * x.gConf_DD 0 1 * x.gConf_DD 1 1 + 2 * x.AConfIJ_UU 0
      2 * x.gConf_DD 0 1 * x.gConf_DD 1 2 + x.AConfIJ_UU 1 1 * (x.gConf_DD 1 1) ^ 2 + 2 * x.AConfIJ_UU 1 2 * x.gConf_DD 1 1 *
      x.gConf_DD 1 2 + x.AConfIJ_UU 2 2 * (x.gConf_DD 1 2) ^ 2)) - x.n_U 2 * ((2 / 3) * x.gConf_DD 1 2 * psi4 x * x.trK - psim2
      x * (x.AConfIJ_UU 0 0 * x.gConf_DD 0 1 * x.gConf_DD 0 2 + x.AConfIJ_UU 0 1 * x.gConf_DD 0 1 * x.gConf_DD 1 2 +
      x.AConfIJ_UU 0 1 * x.gConf_DD 0 2 * x.gConf_DD 1 1 + x.AConfIJ_UU 0 2 * x.gConf_DD 0 1 * x.gConf_DD 2 2 + x.AConfIJ_UU 0
      2 * x.gConf_DD 0 2 * x.gConf_DD 1 2 + x.AConfIJ_UU 1 1 * x.gConf_DD 1 1 * x.gConf_DD 1 2 + x.AConfIJ_UU 1 2 * x.gConf_DD
      1 1 * x.gConf_DD 2 2 + x.AConfIJ_UU 1 2 * (x.gConf_DD 1 2) ^ 2 + x.AConfIJ_UU 2 2 * x.gConf_DD 1 2 * x.gConf_DD 2 2))

/-- obs_ADM_J_S_default.c:129-151 -/
noncomputable def Pn_D2 (x : In) : ℝ :=
  -x.n_U 0 * ((2 / 3) * x.gConf_DD 0 2 * psi4 x * x.trK - psim2 x * (x.AConfIJ_UU 0 0 * x.gConf_DD 0 0 * x.gConf_DD 0 2 +
      x.AConfIJ_UU 0 1 * x.gConf_DD 0 0 * x.gConf_DD 1 2 + x.AConfIJ_UU 0 1 * x.gConf_DD 0 1 * x.gConf_DD 0 2 + x.AConfIJ_UU 0
      2 * x.gConf_DD 0 0 * x.gConf_DD 2 2 + x.AConfIJ_UU 0 2 * (x.gConf_DD 0 2) ^ 2 + x.AConfIJ_UU 1 1 * x.gConf_DD 0 1 *
      x.gConf_DD 1 2 + x.AConfIJ_UU 1 2 * x.gConf_DD 0 1 * x.gConf_DD 2 2 + x.AConfIJ_UU 1 2 * x.gConf_DD 0 2 * x.gConf_DD 1 2
      + x.AConfIJ_UU 2 2 * x.gConf_DD 0 2 * x.gConf_DD 2 2)) - x.n_U 1 * ((2 / 3) * x.gConf_DD 1 2 * psi4 x * x.trK - psim2 x *
      (x.AConfIJ_UU 0 0 * x.gConf_DD 0 1 * x.gConf_DD 0 2 + x.AConfIJ_UU 0 1 * x.gConf_DD 0 1 * x.gConf_DD 1 2 + x.AConfIJ_UU 0
      1 * x.gConf_DD 0 2 * x.gConf_DD 1 1 + x.AConfIJ_UU 0 2 * x.gConf_DD 0 1 * x.gConf_DD 2 2 + x.AConfIJ_UU 0 2 * x.gConf_DD
      0 2 * x.gConf_DD 1 2 + x.AConfIJ_UU 1 1 * x.gConf_DD 1 1 * x.gConf_DD 1 2 + x.AConfIJ_UU 1 2 * x.gConf_DD 1 1 *
      x.gConf_DD 2 2 + x.AConfIJ_UU 1 2 * (x.gConf_DD 1 2) ^ 2 + x.AConfIJ_UU 2 2 * x.gConf_DD 1 2 * x.gConf_DD 2 2)) - x.n_U 2
      * ((2 / 3) * x.gConf_DD 2 2 * psi4 x * x.trK - psim2 x * (x.AConfIJ_UU 0 0 * (x.gConf_DD 0 2) ^ 2 + 2 * x.AConfIJ_UU 0 1
      * x.gConf_DD 0 2 * x.gConf_DD 1 2 + 2 * x.AConfIJ_UU 0 2 * x.gConf_DD 0 2 * x.gConf_DD 2 2 + x.AConfIJ_UU 1 1 *
      (x.gConf_DD 1 2) ^ 2 + 2 * x.AConfIJ_UU 1 2 * x.gConf_DD 1 2 * x.gConf_DD 2 2 + x.AConfIJ_UU 2 2 * (x.gConf_DD 2 2) ^ 2))

/-- obs_ADM_J_S_default.c:153-154 -/
noncomputable def Jn_D2 (x : In) : ℝ :=
  -Pn_D0 x * x.xi_U 1 + Pn_D1 x * x.xi_U 0

/-- obs_ADM_J_S_default.c:156-157 -/
noncomputable def Jn_D0 (x : In) : ℝ :=
  -Pn_D1 x * x.xi_U 2 + Pn_D2 x * x.xi_U 1

/-- obs_ADM_J_S_default.c:159-160 -/
noncomputable def Jn_D1 (x : In) : ℝ :=
  Pn_D0 x * x.xi_U 2 - Pn_D2 x * x.xi_U 0

/-- obs_ADM_J_S_default.c:164-166 the values written to obs__Jn_D; `none`: not stored -/
noncomputable def out_obs__Jn_D (x : In) : Fin 3 → Option ℝ
  | 1 => some (Jn_D1 x)
  | 0 => some (Jn_D0 x)
  | 2 => some (Jn_D2 x)

end Elliptica.Gen.Obs.J

namespace Elliptica.Gen.Obs.PRashti

/-- obs_ADM_P_Stokes_Rashti.c:120-121 -/
noncomputable def psi4 (x : In) : ℝ :=
  x.psi ^ 4

/-- obs_ADM_P_Stokes_Rashti.c:123-124 -/
noncomputable def psim6 (x : In) : ℝ :=
  (x.psi ^ 6)⁻¹

/-- obs_ADM_P_Stokes_Rashti.c:126-129 -/
noncomputable def Pi_U2D2 (x : In) : ℝ :=
  psim6 x * (x.AConfIJ_UU 0 2 * x.gConf_DD 0 2 + x.AConfIJ_UU 1 2 * x.gConf_DD 1 2 + x.AConfIJ_UU 2 2 * x.gConf_DD 2 2) - (2 /
      3) * x.trK

/-- obs_ADM_P_Stokes_Rashti.c:131-133 -/
noncomputable def Pi_U2D0 (x : In) : ℝ :=
  psim6 x * (x.AConfIJ_UU 0 2 * x.gConf_DD 0 0 + x.AConfIJ_UU 1 2 * x.gConf_DD 0 1 + x.AConfIJ_UU 2 2 * x.gConf_DD 0 2)

/-- obs_ADM_P_Stokes_Rashti.c:135-137 -/
noncomputable def Pi_U2D1 (x : In) : ℝ :=
  psim6 x * (x.AConfIJ_UU 0 2 * x.gConf_DD 0 1 + x.AConfIJ_UU 1 2 * x.gConf_DD 1 1 + x.AConfIJ_UU 2 2 * x.gConf_DD 1 2)

/-- obs_ADM_P_Stokes_Rashti.c:139-142 -/
noncomputable def Pi_U0D0 (x : In) : ℝ :=
  psim6 x * (x.AConfIJ_UU 0 0 * x.gConf_DD 0 0 + x.AConfIJ_UU 0 1 * x.gConf_DD 0 1 + x.AConfIJ_UU 0 2 * x.gConf_DD 0 2) - (2 /
      3) * x.trK

/-- obs_ADM_P_Stokes_Rashti.c:144-146 -/
noncomputable def Pi_U0D1 (x : In) : ℝ :=
  psim6 x * (x.AConfIJ_UU 0 0 * x.gConf_DD 0 1 + x.AConfIJ_UU 0 1 * x.gConf_DD 1 1 + x.AConfIJ_UU 0 2 * x.gConf_DD 1 2)

/-- obs_ADM_P_Stokes_Rashti.c:148-151 -/
noncomputable def Pi_U1D1 (x : In) : ℝ :=
  psim6 x * (x.AConfIJ_UU 0 1 * x.gConf_DD 0 1 + x.AConfIJ_UU 1 1 * x.gConf_DD 1 1 + x.AConfIJ_UU 1 2 * x.gConf_DD 1 2) - (2 /
      3) * x.trK

/-- obs_ADM_P_Stokes_Rashti.c:153-155 -/
noncomputable def Pi_U1D0 (x : In) : ℝ :=
  psim6 x * (x.AConfIJ_UU 0 1 * x.gConf_DD 0 0 + x.AConfIJ_UU 1 1 * x.gConf_DD 0 1 + x.AConfIJ_UU 1 2 * x.gConf_DD 0 2)

/-- obs_ADM_P_Stokes_Rashti.c:157-159 -/
noncomputable def Pi_U0D2 (x : In) : ℝ :=
  psim6 x * (x.AConfIJ_UU 0 0 * x.gConf_DD 0 2 + x.AConfIJ_UU 0 1 * x.gConf_DD 1 2 + x.AConfIJ_UU 0 2 * x.gConf_DD 2 2)

/-- obs_ADM_P_Stokes_Rashti.c:161-163 -/
noncomputable def Pi_U1D2 (x : In) : ℝ :=
  psim6 x * (x.AConfIJ_UU 0 1 * x.gConf_DD 0 2 + x.AConfIJ_UU 1 1 * x.gConf_DD 1 2 + x.AConfIJ_UU 1 2 * x.gConf_DD 2 2)

/-- obs_ADM_P_Stokes_Rashti.c:165-170 -/
noncomputable def Pin_D2 (x : In) : ℝ :=
  psi4 x * (Pi_U0D2 x * x.gConf_DD 0 0 * x.n_U 0 + Pi_U0D2 x * x.gConf_DD 0 1 * x.n_U 1 + Pi_U0D2 x * x.gConf_DD 0 2 * x.n_U 2
      + Pi_U1D2 x * x.gConf_DD 0 1 * x.n_U 0 + Pi_U1D2 x * x.gConf_DD 1 1 * x.n_U 1 + Pi_U1D2 x * x.gConf_DD 1 2 * x.n_U 2 +
      Pi_U2D2 x * x.gConf_DD 0 2 * x.n_U 0 + Pi_U2D2 x * x.gConf_DD 1 2 * x.n_U 1 + Pi_U2D2 x * x.gConf_DD 2 2 * x.n_U 2)

/-- obs_ADM_P_Stokes_Rashti.c:172-177 -/
noncomputable def Pin_D0 (x : In) : ℝ :=
  psi4 x * (Pi_U0D0 x * x.gConf_DD 0 0 * x.n_U 0 + Pi_U0D0 x * x.gConf_DD 0 1 * x.n_U 1 + Pi_U0D0 x * x.gConf_DD 0 2 * x.n_U 2
      + Pi_U1D0 x * x.gConf_DD 0 1 * x.n_U 0 + Pi_U1D0 x * x.gConf_DD 1 1 * x.n_U 1 + Pi_U1D0 x * x.gConf_DD 1 2 * x.n_U 2 +
      Pi_U2D0 x * x.gConf_DD 0 2 * x.n_U 0 + Pi_U2D0 x * x.gConf_DD 1 2 * x.n_U 1 + Pi_U2D0 x * x.gConf_DD 2 2 * x.n_U 2)

/-- obs_ADM_P_Stokes_Rashti.c:179-184 -/
noncomputable def Pin_D1 (x : In) : ℝ :=
  psi4 x * (Pi_U0D1 x * x.gConf_DD 0 0 * x.n_U 0 + Pi_U0D1 x * x.gConf_DD 0 1 * x.n_U 1 + Pi_U0D1 x * x.gConf_DD 0 2 * x.n_U 2
      + Pi_U1D1 x * x.gConf_DD 0 1 * x.n_U 0 + Pi_U1D1 x * x.gConf_DD 1 1 * x.n_U 1 + Pi_U1D1 x * x.gConf_DD 1 2 * x.n_U 2 +
      Pi_U2D1 x * x.gConf_DD 0 2 * x.n_U 0 + Pi_U2D1 x * x.gConf_DD 1 2 * x.n_U 1 + Pi_U2D1 x * x.gConf_DD 2 2 * x.n_U 2)

/-- obs_ADM_P_Stokes_Rashti.c:197-198 -/
noncomputable def psim6_ (x : In) : ℝ :=
  (x.psi ^ 6)⁻¹

/-- obs_ADM_P_Stokes_Rashti.c:200-203 -/
noncomputable def Pi__U0D0 (x : In) : ℝ :=
  psim6_ x * (x.AConfIJ_UU 0 0 * x.gConf_DD 0 0 + x.AConfIJ_UU 0 1 * x.gConf_DD 0 1 + x.AConfIJ_UU 0 2 * x.gConf_DD 0 2) - (2 /
      3) * x.trK

/-- obs_ADM_P_Stokes_Rashti.c:205-207 -/
noncomputable def Pi__U0D1 (x : In) : ℝ :=
  psim6_ x * (x.AConfIJ_UU 0 0 * x.gConf_DD 0 1 + x.AConfIJ_UU 0 1 * x.gConf_DD 1 1 + x.AConfIJ_UU 0 2 * x.gConf_DD 1 2)

/-- obs_ADM_P_Stokes_Rashti.c:209-211 -/
noncomputable def Pi__U0D2 (x : In) : ℝ :=
  psim6_ x * (x.AConfIJ_UU 0 0 * x.gConf_DD 0 2 + x.AConfIJ_UU 0 1 * x.gConf_DD 1 2 + x.AConfIJ_UU 0 2 * x.gConf_DD 2 2)

/-- obs_ADM_P_Stokes_Rashti.c:213-215 -/
noncomputable def Pi__U1D2 (x : In) : ℝ :=
  psim6_ x * (x.AConfIJ_UU 0 1 * x.gConf_DD 0 2 + x.AConfIJ_UU 1 1 * x.gConf_DD 1 2 + x.AConfIJ_UU 1 2 * x.gConf_DD 2 2)

/-- obs_ADM_P_Stokes_Rashti.c:217-220 -/
noncomputable def Pi__U1D1 (x : In) : ℝ :=
  psim6_ x * (x.AConfIJ_UU 0 1 * x.gConf_DD 0 1 + x.AConfIJ_UU 1 1 * x.gConf_DD 1 1 + x.AConfIJ_UU 1 2 * x.gConf_DD 1 2) - (2 /
      3) * x.trK

/-- obs_ADM_P_Stokes_Rashti.c:222-225 -/
noncomputable def Pi__U2D2 (x : In) : ℝ :=
  psim6_ x * (x.AConfIJ_UU 0 2 * x.gConf_DD 0 2 + x.AConfIJ_UU 1 2 * x.gConf_DD 1 2 + x.AConfIJ_UU 2 2 * x.gConf_DD 2 2) - (2 /
      3) * x.trK

/-- obs_ADM_P_Stokes_Rashti.c:227-229 -/
noncomputable def Pi__U1D0 (x : In) : ℝ :=
  psim6_ x * (x.AConfIJ_UU 0 1 * x.gConf_DD 0 0 + x.AConfIJ_UU 1 1 * x.gConf_DD 0 1 + x.AConfIJ_UU 1 2 * x.gConf_DD 0 2)

/-- obs_ADM_P_Stokes_Rashti.c:231-233 -/
noncomputable def Pi__U2D0 (x : In) : ℝ :=
  psim6_ x * (x.AConfIJ_UU 0 2 * x.gConf_DD 0 0 + x.AConfIJ_UU 1 2 * x.gConf_DD 0 1 + x.AConfIJ_UU 2 2 * x.gConf_DD 0 2)

/-- obs_ADM_P_Stokes_Rashti.c:235-237 -/
noncomputable def Pi__U2D1 (x : In) : ℝ :=
  psim6_ x * (x.AConfIJ_UU 0 2 * x.gConf_DD 0 1 + x.AConfIJ_UU 1 2 * x.gConf_DD 1 1 + x.AConfIJ_UU 2 2 * x.gConf_DD 1 2)

/-- obs_ADM_P_Stokes_Rashti.c:239-240 -/
noncomputable def dlnpsi_U2 (x : In) : ℝ :=
  x.dpsi_D 2 / x.psi

/-- obs_ADM_P_Stokes_Rashti.c:242-243 -/
noncomputable def dlnpsi_U1 (x : In) : ℝ :=
  x.dpsi_D 1 / x.psi

/-- obs_ADM_P_Stokes_Rashti.c:245-246 -/
noncomputable def dlnpsi_U0 (x : In) : ℝ :=
  x.dpsi_D 0 / x.psi

/-- obs_ADM_P_Stokes_Rashti.c:248-255 -/
noncomputable def dPi1_U1 (x : In) : ℝ :=
  -6 * psim6_ x * (x.AConfIJ_UU 0 0 * dlnpsi_U0 x * x.gConf_DD 0 1 + x.AConfIJ_UU 0 1 * dlnpsi_U0 x * x.gConf_DD 1 1 +
      x.AConfIJ_UU 0 1 * dlnpsi_U1 x * x.gConf_DD 0 1 + x.AConfIJ_UU 0 2 * dlnpsi_U0 x * x.gConf_DD 1 2 + x.AConfIJ_UU 0 2 *
      dlnpsi_U2 x * x.gConf_DD 0 1 + x.AConfIJ_UU 1 1 * dlnpsi_U1 x * x.gConf_DD 1 1 + x.AConfIJ_UU 1 2 * dlnpsi_U1 x *
      x.gConf_DD 1 2 + x.AConfIJ_UU 1 2 * dlnpsi_U2 x * x.gConf_DD 1 1 + x.AConfIJ_UU 2 2 * dlnpsi_U2 x * x.gConf_DD 1 2)

/-- obs_ADM_P_Stokes_Rashti.c:257-264 -/
noncomputable def dPi1_U0 (x : In) : ℝ :=
  -6 * psim6_ x * (x.AConfIJ_UU 0 0 * dlnpsi_U0 x * x.gConf_DD 0 0 + x.AConfIJ_UU 0 1 * dlnpsi_U0 x * x.gConf_DD 0 1 +
      x.AConfIJ_UU 0 1 * dlnpsi_U1 x * x.gConf_DD 0 0 + x.AConfIJ_UU 0 2 * dlnpsi_U0 x * x.gConf_DD 0 2 + x.AConfIJ_UU 0 2 *
      dlnpsi_U2 x * x.gConf_DD 0 0 + x.AConfIJ_UU 1 1 * dlnpsi_U1 x * x.gConf_DD 0 1 + x.AConfIJ_UU 1 2 * dlnpsi_U1 x *
      x.gConf_DD 0 2 + x.AConfIJ_UU 1 2 * dlnpsi_U2 x * x.gConf_DD 0 1 + x.AConfIJ_UU 2 2 * dlnpsi_U2 x * x.gConf_DD 0 2)

/-- obs_ADM_P_Stokes_Rashti.c:266-273 -/
noncomputable def dPi1_U2 (x : In) : ℝ :=
  -6 * psim6_ x * (x.AConfIJ_UU 0 0 * dlnpsi_U0 x * x.gConf_DD 0 2 + x.AConfIJ_UU 0 1 * dlnpsi_U0 x * x.gConf_DD 1 2 +
      x.AConfIJ_UU 0 1 * dlnpsi_U1 x * x.gConf_DD 0 2 + x.AConfIJ_UU 0 2 * dlnpsi_U0 x * x.gConf_DD 2 2 + x.AConfIJ_UU 0 2 *
      dlnpsi_U2 x * x.gConf_DD 0 2 + x.AConfIJ_UU 1 1 * dlnpsi_U1 x * x.gConf_DD 1 2 + x.AConfIJ_UU 1 2 * dlnpsi_U1 x *
      x.gConf_DD 2 2 + x.AConfIJ_UU 1 2 * dlnpsi_U2 x * x.gConf_DD 1 2 + x.AConfIJ_UU 2 2 * dlnpsi_U2 x * x.gConf_DD 2 2)

/-- obs_ADM_P_Stokes_Rashti.c:275-281 -/
noncomputable def dPi2_U0 (x : In) : ℝ :=
  psim6_ x * (x.dAConfIJ_UUD 0 0 0 * x.gConf_DD 0 0 + x.dAConfIJ_UUD 0 1 0 * x.gConf_DD 0 1 + x.dAConfIJ_UUD 0 1 1 * x.gConf_DD
      0 0 + x.dAConfIJ_UUD 0 2 0 * x.gConf_DD 0 2 + x.dAConfIJ_UUD 0 2 2 * x.gConf_DD 0 0 + x.dAConfIJ_UUD 1 1 1 * x.gConf_DD 0
      1 + x.dAConfIJ_UUD 1 2 1 * x.gConf_DD 0 2 + x.dAConfIJ_UUD 1 2 2 * x.gConf_DD 0 1 + x.dAConfIJ_UUD 2 2 2 * x.gConf_DD 0 2)

/-- obs_ADM_P_Stokes_Rashti.c:283-289 -/
noncomputable def dPi2_U1 (x : In) : ℝ :=
  psim6_ x * (x.dAConfIJ_UUD 0 0 0 * x.gConf_DD 0 1 + x.dAConfIJ_UUD 0 1 0 * x.gConf_DD 1 1 + x.dAConfIJ_UUD 0 1 1 * x.gConf_DD
      0 1 + x.dAConfIJ_UUD 0 2 0 * x.gConf_DD 1 2 + x.dAConfIJ_UUD 0 2 2 * x.gConf_DD 0 1 + x.dAConfIJ_UUD 1 1 1 * x.gConf_DD 1
      1 + x.dAConfIJ_UUD 1 2 1 * x.gConf_DD 1 2 + x.dAConfIJ_UUD 1 2 2 * x.gConf_DD 1 1 + x.dAConfIJ_UUD 2 2 2 * x.gConf_DD 1 2)

/-- obs_ADM_P_Stokes_Rashti.c:291-297 -/
noncomputable def dPi2_U2 (x : In) : ℝ :=
  psim6_ x * (x.dAConfIJ_UUD 0 0 0 * x.gConf_DD 0 2 + x.dAConfIJ_UUD 0 1 0 * x.gConf_DD 1 2 + x.dAConfIJ_UUD 0 1 1 * x.gConf_DD
      0 2 + x.dAConfIJ_UUD 0 2 0 * x.gConf_DD 2 2 + x.dAConfIJ_UUD 0 2 2 * x.gConf_DD 0 2 + x.dAConfIJ_UUD 1 1 1 * x.gConf_DD 1
      2 + x.dAConfIJ_UUD 1 2 1 * x.gConf_DD 2 2 + x.dAConfIJ_UUD 1 2 2 * x.gConf_DD 1 2 + x.dAConfIJ_UUD 2 2 2 * x.gConf_DD 2 2)

/-- obs_ADM_P_Stokes_Rashti.c:299-306 -/
noncomputable def dPi3_U2 (x : In) : ℝ :=
  -(2 / 3) * x.dtrK_D 2 + psim6_ x * (x.AConfIJ_UU 0 0 * x.dgConf_DDD 0 2 0 + x.AConfIJ_UU 0 1 * x.dgConf_DDD 0 2 1 +
      x.AConfIJ_UU 0 1 * x.dgConf_DDD 1 2 0 + x.AConfIJ_UU 0 2 * x.dgConf_DDD 0 2 2 + x.AConfIJ_UU 0 2 * x.dgConf_DDD 2 2 0 +
      x.AConfIJ_UU 1 1 * x.dgConf_DDD 1 2 1 + x.AConfIJ_UU 1 2 * x.dgConf_DDD 1 2 2 + x.AConfIJ_UU 1 2 * x.dgConf_DDD 2 2 1 +
      x.AConfIJ_UU 2 2 * x.dgConf_DDD 2 2 2)

/-- obs_ADM_P_Stokes_Rashti.c:308-315 -/
noncomputable def dPi3_U1 (x : In) : ℝ :=
  -(2 / 3) * x.dtrK_D 1 + psim6_ x * (x.AConfIJ_UU 0 0 * x.dgConf_DDD 0 1 0 + x.AConfIJ_UU 0 1 * x.dgConf_DDD 0 1 1 +
      x.AConfIJ_UU 0 1 * x.dgConf_DDD 1 1 0 + x.AConfIJ_UU 0 2 * x.dgConf_DDD 0 1 2 + x.AConfIJ_UU 0 2 * x.dgConf_DDD 1 2 0 +
      x.AConfIJ_UU 1 1 * x.dgConf_DDD 1 1 1 + x.AConfIJ_UU 1 2 * x.dgConf_DDD 1 1 2 + x.AConfIJ_UU 1 2 * x.dgConf_DDD 1 2 1 +
      x.AConfIJ_UU 2 2 * x.dgConf_DDD 1 2 2)

/-- obs_ADM_P_Stokes_Rashti.c:317-324 -/
noncomputable def dPi3_U0 (x : In) : ℝ :=
  -(2 / 3) * x.dtrK_D 0 + psim6_ x * (x.AConfIJ_UU 0 0 * x.dgConf_DDD 0 0 0 + x.AConfIJ_UU 0 1 * x.dgConf_DDD 0 0 1 +
      x.AConfIJ_UU 0 1 * x.dgConf_DDD 0 1 0 + x.AConfIJ_UU 0 2 * x.dgConf_DDD 0 0 2 + x.AConfIJ_UU 0 2 * x.dgConf_DDD 0 2 0 +
      x.AConfIJ_UU 1 1 * x.dgConf_DDD 0 1 1 + x.AConfIJ_UU 1 2 * x.dgConf_DDD 0 1 2 + x.AConfIJ_UU 1 2 * x.dgConf_DDD 0 2 1 +
      x.AConfIJ_UU 2 2 * x.dgConf_DDD 0 2 2)

/-- obs_ADM_P_Stokes_Rashti.c:326-327 -/
noncomputable def dPi_U1 (x : In) : ℝ :=
  dPi1_U1 x + dPi2_U1 x + dPi3_U1 x

/-- obs_ADM_P_Stokes_Rashti.c:329-330 -/
noncomputable def dPi_U0 (x : In) : ℝ :=
  dPi1_U0 x + dPi2_U0 x + dPi3_U0 x

/-- obs_ADM_P_Stokes_Rashti.c:332-333 -/
noncomputable def dPi_U2 (x : In) : ℝ :=
  dPi1_U2 x + dPi2_U2 x + dPi3_U2 x

/-- obs_ADM_P_Stokes_Rashti.c:335-337 -/
noncomputable def G_U1 (x : In) : ℝ :=
  x.ChrisConf_UDD 0 0 1 + x.ChrisConf_UDD 1 1 1 + x.ChrisConf_UDD 2 1 2 + 6 * dlnpsi_U1 x

/-- obs_ADM_P_Stokes_Rashti.c:339-341 -/
noncomputable def G_U0 (x : In) : ℝ :=
  x.ChrisConf_UDD 0 0 0 + x.ChrisConf_UDD 1 0 1 + x.ChrisConf_UDD 2 0 2 + 6 * dlnpsi_U0 x

/-- obs_ADM_P_Stokes_Rashti.c:343-345 -/
noncomputable def G_U2 (x : In) : ℝ :=
  x.ChrisConf_UDD 0 0 2 + x.ChrisConf_UDD 1 1 2 + x.ChrisConf_UDD 2 2 2 + 6 * dlnpsi_U2 x

/-- obs_ADM_P_Stokes_Rashti.c:347-348 -/
noncomputable def DPi_D2 (x : In) : ℝ :=
  G_U0 x * Pi__U0D2 x + G_U1 x * Pi__U1D2 x + G_U2 x * Pi__U2D2 x + dPi_U2 x

/-- obs_ADM_P_Stokes_Rashti.c:350-351 -/
noncomputable def DPi_D0 (x : In) : ℝ :=
  G_U0 x * Pi__U0D0 x + G_U1 x * Pi__U1D0 x + G_U2 x * Pi__U2D0 x + dPi_U0 x

/-- obs_ADM_P_Stokes_Rashti.c:353-354 -/
noncomputable def DPi_D1 (x : In) : ℝ :=
  G_U0 x * Pi__U0D1 x + G_U1 x * Pi__U1D1 x + G_U2 x * Pi__U2D1 x + dPi_U1 x

/-- obs_ADM_P_Stokes_Rashti.c:188-190 the values written to obs__Pin_D; `none`: not stored -/
noncomputable def out_obs__Pin_D (x : In) : Fin 3 → Option ℝ
  | 2 => some (Pin_D2 x)
  | 1 => some (Pin_D1 x)
  | 0 => some (Pin_D0 x)

/-- obs_ADM_P_Stokes_Rashti.c:358-360 the values written to obs__DPi_D; `none`: not stored -/
noncomputable def out_obs__DPi_D (x : In) : Fin 3 → Option ℝ
  | 2 => some (DPi_D2 x)
  | 1 => some (DPi_D1 x)
  | 0 => some (DPi_D0 x)

end Elliptica.Gen.Obs.PRashti

namespace Elliptica.Gen.Obs.PConstr

/-- obs_ADM_P_Stokes_constraint.c:88-89 -/
noncomputable def psi4 (x : In) : ℝ :=
  x.psi ^ 4

/-- obs_ADM_P_Stokes_constraint.c:91-92 -/
noncomputable def psim2 (x : In) : ℝ :=
  (x.psi ^ 2)⁻¹

/-- obs_ADM_P_Stokes_constraint.c:94-116 -/
noncomputable def Ps_D2 (x : In) : ℝ :=
  -x.n_U 0 * ((2 / 3) * x.gConf_DD 0 2 * psi4 x * x.trK - psim2 x * (x.AConfIJ_UU 0 0 * x.gConf_DD 0 0 * x.gConf_DD 0 2 +
      x.AConfIJ_UU 0 1 * x.gConf_DD 0 0 * x.gConf_DD 1 2 + x.AConfIJ_UU 0 1 * x.gConf_DD 0 1 * x.gConf_DD 0 2 + x.AConfIJ_UU 0
      2 * x.gConf_DD 0 0 * x.gConf_DD 2 2 + x.AConfIJ_UU 0 2 * (x.gConf_DD 0 2) ^ 2 + x.AConfIJ_UU 1 1 * x.gConf_DD 0 1 *
      x.gConf_DD 1 2 + x.AConfIJ_UU 1 2 * x.gConf_DD 0 1 * x.gConf_DD 2 2 + x.AConfIJ_UU 1 2 * x.gConf_DD 0 2 * x.gConf_DD 1 2
      + x.AConfIJ_UU 2 2 * x.gConf_DD 0 2 * x.gConf_DD 2 2)) - x.n_U 1 * ((2 / 3) * x.gConf_DD 1 2 * psi4 x * x.trK - psim2 x *
      (x.AConfIJ_UU 0 0 * x.gConf_DD 0 1 * x.gConf_DD 0 2 + x.AConfIJ_UU 0 1 * x.gConf_DD 0 1 * x.gConf_DD 1 2 + x.AConfIJ_UU 0
      1 * x.gConf_DD 0 2 * x.gConf_DD 1 1 + x.AConfIJ_UU 0 2 * x.gConf_DD 0 1 * x.gConf_DD 2 2 + x.AConfIJ_UU 0 2 * x.gConf_DD
      0 2 * x.gConf_DD 1 2 + x.AConfIJ_UU 1 1 * x.gConf_DD 1 1 * x.gConf_DD 1 2 + x.AConfIJ_UU 1 2 * x.gConf_DD 1 1 *
      x.gConf_DD 2 2 + x.AConfIJ_UU 1 2 * (x.gConf_DD 1 2) ^ 2 + x.AConfIJ_UU 2 2 * x.gConf_DD 1 2 * x.gConf_DD 2 2)) - x.n_U 2
      * ((2 / 3) * x.gConf_DD 2 2 * psi4 x * x.trK - psim2 x * (x.AConfIJ_UU 0 0 * (x.gConf_DD 0 2) ^ 2 + 2 * x.AConfIJ_UU 0 1
      * x.gConf_DD 0 2 * x.gConf_DD 1 2 + 2 * x.AConfIJ_UU 0 2 * x.gConf_DD 0 2 * x.gConf_DD 2 2 + x.AConfIJ_UU 1 1 *
      (x.gConf_DD 1 2) ^ 2 + 2 * x.AConfIJ_UU 1 2 * x.gConf_DD 1 2 * x.gConf_DD 2 2 + x.AConfIJ_UU 2 2 * (x.gConf_DD 2 2) ^ 2))

/-- obs_ADM_P_Stokes_constraint.c:118-140 -/
noncomputable def Ps_D1 (x : In) : ℝ :=
  -x.n_U 0 * ((2 / 3) * x.gConf_DD 0 1 * psi4 x * x.trK - psim2 x * (x.AConfIJ_UU 0 0 * x.gConf_DD 0 0 * x.gConf_DD 0 1 +
      x.AConfIJ_UU 0 1 * x.gConf_DD 0 0 * x.gConf_DD 1 1 + x.AConfIJ_UU 0 1 * (x.gConf_DD 0 1) ^ 2 + x.AConfIJ_UU 0 2 *
      x.gConf_DD 0 0 * x.gConf_DD 1 2 + x.AConfIJ_UU 0 2 * x.gConf_DD 0 1 * x.gConf_DD 0 2 + x.AConfIJ_UU 1 1 * x.gConf_DD 0 1
      * x.gConf_DD 1 1 + x.AConfIJ_UU 1 2 * x.gConf_DD 0 1 * x.gConf_DD 1 2 + x.AConfIJ_UU 1 2 * x.gConf_DD 0 2 * x.gConf_DD 1
      1 + x.AConfIJ_UU 2 2 * x.gConf_DD 0 2 * x.gConf_DD 1 2)) - x.n_U 1 * ((2 / 3) * x.gConf_DD 1 1 * psi4 x * x.trK - psim2 x
      * (x.AConfIJ_UU 0 0 * (x.gConf_DD 0 1) ^ 2 + 2 * x.AConfIJ_UU 0 1 * x.gConf_DD 0 1 * x.gConf_DD 1 1 + 2 * x.AConfIJ_UU 0
      2 * x.gConf_DD 0 1 * x.gConf_DD 1 2 + x.AConfIJ_UU 1 1 * (x.gConf_DD 1 1) ^ 2 + 2 * x.AConfIJ_UU 1 2 * x.gConf_DD 1 1 *
      x.gConf_DD 1 2 + x.AConfIJ_UU 2 2 * (x.gConf_DD 1 2) ^ 2)) - x.n_U 2 * ((2 / 3) * x.gConf_DD 1 2 * psi4 x * x.trK - psim2
      x * (x.AConfIJ_UU 0 0 * x.gConf_DD 0 1 * x.gConf_DD 0 2 + x.AConfIJ_UU 0 1 * x.gConf_DD 0 1 * x.gConf_DD 1 2 +
      x.AConfIJ_UU 0 1 * x.gConf_DD 0 2 * x.gConf_DD 1 1 + x.AConfIJ_UU 0 2 * x.gConf_DD 0 1 * x.gConf_DD 2 2 + x.AConfIJ_UU 0
      2 * x.gConf_DD 0 2 * x.gConf_DD 1 2 + x.AConfIJ_UU 1 1 * x.gConf_DD 1 1 * x.gConf_DD 1 2 + x.AConfIJ_UU 1 2 * x.gConf_DD
      1 1 * x.gConf_DD 2 2 + x.AConfIJ_UU 1 2 * (x.gConf_DD 1 2) ^ 2 + x.AConfIJ_UU 2 2 * x.gConf_DD 1 2 * x.gConf_DD 2 2))

/-- obs_ADM_P_Stokes_constraint.c:142-164 -/
noncomputable def Ps_D0 (x : In) : ℝ :=
  -x.n_U 0 * ((2 / 3) * x.gConf_DD 0 0 * psi4 x * x.trK - psim2 x * (x.AConfIJ_UU 0 0 * (x.gConf_DD 0 0) ^ 2 + 2 * x.AConfIJ_UU
      0 1 * x.gConf_DD 0 0 * x.gConf_DD 0 1 + 2 * x.AConfIJ_UU 0 2 * x.gConf_DD 0 0 * x.gConf_DD 0 2 + x.AConfIJ_UU 1 1 *
      (x.gConf_DD 0 1) ^ 2 + 2 * x.AConfIJ_UU 1 2 * x.gConf_DD 0 1 * x.gConf_DD 0 2 + x.AConfIJ_UU 2 2 * (x.gConf_DD 0 2) ^ 2))
      - x.n_U 1 * ((2 / 3) * x.gConf_DD 0 1 * psi4 x * x.trK - psim2 x * (x.AConfIJ_UU 0 0 * x.gConf_DD 0 0 * x.gConf_DD 0 1 +
      x.AConfIJ_UU 0 1 * x.gConf_DD 0 0 * x.gConf_DD 1 1 + x.AConfIJ_UU 0 1 * (x.gConf_DD 0 1) ^ 2 + x.AConfIJ_UU 0 2 *
      x.gConf_DD 0 0 * x.gConf_DD 1 2 + x.AConfIJ_UU 0 2 * x.gConf_DD 0 1 * x.gConf_DD 0 2 + x.AConfIJ_UU 1 1 * x.gConf_DD 0 1
      * x.gConf_DD 1 1 + x.AConfIJ_UU 1 2 * x.gConf_DD 0 1 * x.gConf_DD 1 2 + x.AConfIJ_UU 1 2 * x.gConf_DD 0 2 * x.gConf_DD 1
      1 + x.AConfIJ_UU 2 2 * x.gConf_DD 0 2 * x.gConf_DD 1 2)) - x.n_U 2 * ((2 / 3) * x.gConf_DD 0 2 * psi4 x * x.trK - psim2 x
      * (x.AConfIJ_UU 0 0 * x.gConf_DD 0 0 * x.gConf_DD 0 2 + x.AConfIJ_UU 0 1 * x.gConf_DD 0 0 * x.gConf_DD 1 2 + x.AConfIJ_UU
      0 1 * x.gConf_DD 0 1 * x.gConf_DD 0 2 + x.AConfIJ_UU 0 2 * x.gConf_DD 0 0 * x.gConf_DD 2 2 + x.AConfIJ_UU 0 2 *
      (x.gConf_DD 0 2) ^ 2 + x.AConfIJ_UU 1 1 * x.gConf_DD 0 1 * x.gConf_DD 1 2 + x.AConfIJ_UU 1 2 * x.gConf_DD 0 1 *
      x.gConf_DD 2 2 + x.AConfIJ_UU 1 2 * x.gConf_DD 0 2 * x.gConf_DD 1 2 + x.AConfIJ_UU 2 2 * x.gConf_DD 0 2 * x.gConf_DD 2 2))

/-- obs_ADM_P_Stokes_constraint.c:177-178 -/
noncomputable def psim2_ (x : In) : ℝ :=
  (x.psi ^ 2)⁻¹

/-- obs_ADM_P_Stokes_constraint.c:180-181 -/
noncomputable def psi4_ (x : In) : ℝ :=
  x.psi ^ 4

/-- obs_ADM_P_Stokes_constraint.c:183-184 -/
noncomputable def psim4_ (x : In) : ℝ :=
  1 / psi4_ x

/-- obs_ADM_P_Stokes_constraint.c:186-187 -/
noncomputable def dLnpsi_D0 (x : In) : ℝ :=
  x.dpsi_D 0 / x.psi

/-- obs_ADM_P_Stokes_constraint.c:189-190 -/
noncomputable def dLnpsi_D1 (x : In) : ℝ :=
  x.dpsi_D 1 / x.psi

/-- obs_ADM_P_Stokes_constraint.c:192-193 -/
noncomputable def dLnpsi_D2 (x : In) : ℝ :=
  x.dpsi_D 2 / x.psi

/-- obs_ADM_P_Stokes_constraint.c:195-197 -/
noncomputable def c_U0D2D2 (x : In) : ℝ :=
  -2 * x.gConf_DD 2 2 * (dLnpsi_D0 x * x.igConf_UU 0 0 + dLnpsi_D1 x * x.igConf_UU 0 1 + dLnpsi_D2 x * x.igConf_UU 0 2)

/-- obs_ADM_P_Stokes_constraint.c:199-201 -/
noncomputable def c_U1D2D2 (x : In) : ℝ :=
  -2 * x.gConf_DD 2 2 * (dLnpsi_D0 x * x.igConf_UU 0 1 + dLnpsi_D1 x * x.igConf_UU 1 1 + dLnpsi_D2 x * x.igConf_UU 1 2)

/-- obs_ADM_P_Stokes_constraint.c:203-206 -/
noncomputable def c_U0D0D1 (x : In) : ℝ :=
  -2 * dLnpsi_D0 x * x.gConf_DD 0 1 * x.igConf_UU 0 0 - 2 * dLnpsi_D1 x * x.gConf_DD 0 1 * x.igConf_UU 0 1 + 2 * dLnpsi_D1 x -
      2 * dLnpsi_D2 x * x.gConf_DD 0 1 * x.igConf_UU 0 2

/-- obs_ADM_P_Stokes_constraint.c:208-211 -/
noncomputable def c_U2D1D2 (x : In) : ℝ :=
  -2 * dLnpsi_D0 x * x.gConf_DD 1 2 * x.igConf_UU 0 2 - 2 * dLnpsi_D1 x * x.gConf_DD 1 2 * x.igConf_UU 1 2 + 2 * dLnpsi_D1 x -
      2 * dLnpsi_D2 x * x.gConf_DD 1 2 * x.igConf_UU 2 2

/-- obs_ADM_P_Stokes_constraint.c:213-216 -/
noncomputable def c_U0D0D0 (x : In) : ℝ :=
  -2 * dLnpsi_D0 x * x.gConf_DD 0 0 * x.igConf_UU 0 0 + 4 * dLnpsi_D0 x - 2 * dLnpsi_D1 x * x.gConf_DD 0 0 * x.igConf_UU 0 1 -
      2 * dLnpsi_D2 x * x.gConf_DD 0 0 * x.igConf_UU 0 2

/-- obs_ADM_P_Stokes_constraint.c:218-220 -/
noncomputable def c_U2D0D1 (x : In) : ℝ :=
  -2 * x.gConf_DD 0 1 * (dLnpsi_D0 x * x.igConf_UU 0 2 + dLnpsi_D1 x * x.igConf_UU 1 2 + dLnpsi_D2 x * x.igConf_UU 2 2)

/-- obs_ADM_P_Stokes_constraint.c:222-224 -/
noncomputable def c_U2D1D1 (x : In) : ℝ :=
  -2 * x.gConf_DD 1 1 * (dLnpsi_D0 x * x.igConf_UU 0 2 + dLnpsi_D1 x * x.igConf_UU 1 2 + dLnpsi_D2 x * x.igConf_UU 2 2)

/-- obs_ADM_P_Stokes_constraint.c:226-229 -/
noncomputable def c_U1D1D1 (x : In) : ℝ :=
  -2 * dLnpsi_D0 x * x.gConf_DD 1 1 * x.igConf_UU 0 1 - 2 * dLnpsi_D1 x * x.gConf_DD 1 1 * x.igConf_UU 1 1 + 4 * dLnpsi_D1 x -
      2 * dLnpsi_D2 x * x.gConf_DD 1 1 * x.igConf_UU 1 2

/-- obs_ADM_P_Stokes_constraint.c:231-233 -/
noncomputable def c_U0D1D1 (x : In) : ℝ :=
  -2 * x.gConf_DD 1 1 * (dLnpsi_D0 x * x.igConf_UU 0 0 + dLnpsi_D1 x * x.igConf_UU 0 1 + dLnpsi_D2 x * x.igConf_UU 0 2)

/-- obs_ADM_P_Stokes_constraint.c:235-237 -/
noncomputable def c_U0D1D2 (x : In) : ℝ :=
  -2 * x.gConf_DD 1 2 * (dLnpsi_D0 x * x.igConf_UU 0 0 + dLnpsi_D1 x * x.igConf_UU 0 1 + dLnpsi_D2 x * x.igConf_UU 0 2)

/-- obs_ADM_P_Stokes_constraint.c:239-242 -/
noncomputable def c_U1D1D2 (x : In) : ℝ :=
  -2 * dLnpsi_D0 x * x.gConf_DD 1 2 * x.igConf_UU 0 1 - 2 * dLnpsi_D1 x * x.gConf_DD 1 2 * x.igConf_UU 1 1 - 2 * dLnpsi_D2 x *
      x.gConf_DD 1 2 * x.igConf_UU 1 2 + 2 * dLnpsi_D2 x

/-- obs_ADM_P_Stokes_constraint.c:244-247 -/
noncomputable def c_U2D0D2 (x : In) : ℝ :=
  -2 * dLnpsi_D0 x * x.gConf_DD 0 2 * x.igConf_UU 0 2 + 2 * dLnpsi_D0 x - 2 * dLnpsi_D1 x * x.gConf_DD 0 2 * x.igConf_UU 1 2 -
      2 * dLnpsi_D2 x * x.gConf_DD 0 2 * x.igConf_UU 2 2

/-- obs_ADM_P_Stokes_constraint.c:249-251 -/
noncomputable def c_U2D0D0 (x : In) : ℝ :=
  -2 * x.gConf_DD 0 0 * (dLnpsi_D0 x * x.igConf_UU 0 2 + dLnpsi_D1 x * x.igConf_UU 1 2 + dLnpsi_D2 x * x.igConf_UU 2 2)

/-- obs_ADM_P_Stokes_constraint.c:253-256 -/
noncomputable def c_U0D0D2 (x : In) : ℝ :=
  -2 * dLnpsi_D0 x * x.gConf_DD 0 2 * x.igConf_UU 0 0 - 2 * dLnpsi_D1 x * x.gConf_DD 0 2 * x.igConf_UU 0 1 - 2 * dLnpsi_D2 x *
      x.gConf_DD 0 2 * x.igConf_UU 0 2 + 2 * dLnpsi_D2 x

/-- obs_ADM_P_Stokes_constraint.c:258-260 -/
noncomputable def c_U1D0D0 (x : In) : ℝ :=
  -2 * x.gConf_DD 0 0 * (dLnpsi_D0 x * x.igConf_UU 0 1 + dLnpsi_D1 x * x.igConf_UU 1 1 + dLnpsi_D2 x * x.igConf_UU 1 2)

/-- obs_ADM_P_Stokes_constraint.c:262-265 -/
noncomputable def c_U1D0D1 (x : In) : ℝ :=
  -2 * dLnpsi_D0 x * x.gConf_DD 0 1 * x.igConf_UU 0 1 + 2 * dLnpsi_D0 x - 2 * dLnpsi_D1 x * x.gConf_DD 0 1 * x.igConf_UU 1 1 -
      2 * dLnpsi_D2 x * x.gConf_DD 0 1 * x.igConf_UU 1 2

/-- obs_ADM_P_Stokes_constraint.c:267-269 -/
noncomputable def c_U1D0D2 (x : In) : ℝ :=
  -2 * x.gConf_DD 0 2 * (dLnpsi_D0 x * x.igConf_UU 0 1 + dLnpsi_D1 x * x.igConf_UU 1 1 + dLnpsi_D2 x * x.igConf_UU 1 2)

/-- obs_ADM_P_Stokes_constraint.c:271-274 -/
noncomputable def c_U2D2D2 (x : In) : ℝ :=
  -2 * dLnpsi_D0 x * x.gConf_DD 2 2 * x.igConf_UU 0 2 - 2 * dLnpsi_D1 x * x.gConf_DD 2 2 * x.igConf_UU 1 2 - 2 * dLnpsi_D2 x *
      x.gConf_DD 2 2 * x.igConf_UU 2 2 + 4 * dLnpsi_D2 x

/-- obs_ADM_P_Stokes_constraint.c:276-277 -/
noncomputable def Gamma_U1D0D0 (x : In) : ℝ :=
  x.ChrisConf_UDD 1 0 0 + c_U1D0D0 x

/-- obs_ADM_P_Stokes_constraint.c:279-280 -/
noncomputable def Gamma_U0D2D2 (x : In) : ℝ :=
  x.ChrisConf_UDD 0 2 2 + c_U0D2D2 x

/-- obs_ADM_P_Stokes_constraint.c:282-283 -/
noncomputable def Gamma_U1D0D2 (x : In) : ℝ :=
  x.ChrisConf_UDD 1 0 2 + c_U1D0D2 x

/-- obs_ADM_P_Stokes_constraint.c:285-286 -/
noncomputable def Gamma_U2D2D2 (x : In) : ℝ :=
  x.ChrisConf_UDD 2 2 2 + c_U2D2D2 x

/-- obs_ADM_P_Stokes_constraint.c:288-289 -/
noncomputable def Gamma_U1D0D1 (x : In) : ℝ :=
  x.ChrisConf_UDD 1 0 1 + c_U1D0D1 x

/-- obs_ADM_P_Stokes_constraint.c:291-292 -/
noncomputable def Gamma_U1D2D2 (x : In) : ℝ :=
  x.ChrisConf_UDD 1 2 2 + c_U1D2D2 x

/-- obs_ADM_P_Stokes_constraint.c:294-295 -/
noncomputable def Gamma_U0D0D2 (x : In) : ℝ :=
  x.ChrisConf_UDD 0 0 2 + c_U0D0D2 x

/-- obs_ADM_P_Stokes_constraint.c:297-298 -/
noncomputable def Gamma_U2D0D1 (x : In) : ℝ :=
  x.ChrisConf_UDD 2 0 1 + c_U2D0D1 x

/-- obs_ADM_P_Stokes_constraint.c:300-301 -/
noncomputable def Gamma_U2D1D2 (x : In) : ℝ :=
  x.ChrisConf_UDD 2 1 2 + c_U2D1D2 x

/-- obs_ADM_P_Stokes_constraint.c:303-304 -/
noncomputable def Gamma_U2D0D2 (x : In) : ℝ :=
  x.ChrisConf_UDD 2 0 2 + c_U2D0D2 x

/-- obs_ADM_P_Stokes_constraint.c:306-307 -/
noncomputable def Gamma_U0D0D1 (x : In) : ℝ :=
  x.ChrisConf_UDD 0 0 1 + c_U0D0D1 x

/-- obs_ADM_P_Stokes_constraint.c:309-310 -/
noncomputable def Gamma_U2D0D0 (x : In) : ℝ :=
  x.ChrisConf_UDD 2 0 0 + c_U2D0D0 x

/-- obs_ADM_P_Stokes_constraint.c:312-313 -/
noncomputable def Gamma_U0D0D0 (x : In) : ℝ :=
  x.ChrisConf_UDD 0 0 0 + c_U0D0D0 x

/-- obs_ADM_P_Stokes_constraint.c:315-316 -/
noncomputable def Gamma_U1D1D1 (x : In) : ℝ :=
  x.ChrisConf_UDD 1 1 1 + c_U1D1D1 x

/-- obs_ADM_P_Stokes_constraint.c:318-319 -/
noncomputable def Gamma_U0D1D1 (x : In) : ℝ :=
  x.ChrisConf_UDD 0 1 1 + c_U0D1D1 x

/-- obs_ADM_P_Stokes_constraint.c:321-322 -/
noncomputable def Gamma_U0D1D2 (x : In) : ℝ :=
  x.ChrisConf_UDD 0 1 2 + c_U0D1D2 x

/-- obs_ADM_P_Stokes_constraint.c:324-325 -/
noncomputable def Gamma_U1D1D2 (x : In) : ℝ :=
  x.ChrisConf_UDD 1 1 2 + c_U1D1D2 x

/-- obs_ADM_P_Stokes_constraint.c:327-328 -/
noncomputable def Gamma_U2D1D1 (x : In) : ℝ :=
  x.ChrisConf_UDD 2 1 1 + c_U2D1D1 x

/-- obs_ADM_P_Stokes_constraint.c:330-336 -/
noncomputable def mom_D2D2 (x : In) : ℝ :=
  -(2 / 3) * x.gConf_DD 2 2 * psi4_ x * x.trK + psim2_ x * (x.AConfIJ_UU 0 0 * (x.gConf_DD 0 2) ^ 2 + 2 * x.AConfIJ_UU 0 1 *
      x.gConf_DD 0 2 * x.gConf_DD 1 2 + 2 * x.AConfIJ_UU 0 2 * x.gConf_DD 0 2 * x.gConf_DD 2 2 + x.AConfIJ_UU 1 1 * (x.gConf_DD
      1 2) ^ 2 + 2 * x.AConfIJ_UU 1 2 * x.gConf_DD 1 2 * x.gConf_DD 2 2 + x.AConfIJ_UU 2 2 * (x.gConf_DD 2 2) ^ 2)

/-- obs_ADM_P_Stokes_constraint.c:338-344 -/
noncomputable def mom_D1D1 (x : In) : ℝ :=
  -(2 / 3) * x.gConf_DD 1 1 * psi4_ x * x.trK + psim2_ x * (x.AConfIJ_UU 0 0 * (x.gConf_DD 0 1) ^ 2 + 2 * x.AConfIJ_UU 0 1 *
      x.gConf_DD 0 1 * x.gConf_DD 1 1 + 2 * x.AConfIJ_UU 0 2 * x.gConf_DD 0 1 * x.gConf_DD 1 2 + x.AConfIJ_UU 1 1 * (x.gConf_DD
      1 1) ^ 2 + 2 * x.AConfIJ_UU 1 2 * x.gConf_DD 1 1 * x.gConf_DD 1 2 + x.AConfIJ_UU 2 2 * (x.gConf_DD 1 2) ^ 2)

/-- obs_ADM_P_Stokes_constraint.c:346-354 -/
noncomputable def mom_D1D2 (x : In) : ℝ :=
  -(2 / 3) * x.gConf_DD 1 2 * psi4_ x * x.trK + psim2_ x * (x.AConfIJ_UU 0 0 * x.gConf_DD 0 1 * x.gConf_DD 0 2 + x.AConfIJ_UU 0
      1 * x.gConf_DD 0 1 * x.gConf_DD 1 2 + x.AConfIJ_UU 0 1 * x.gConf_DD 0 2 * x.gConf_DD 1 1 + x.AConfIJ_UU 0 2 * x.gConf_DD
      0 1 * x.gConf_DD 2 2 + x.AConfIJ_UU 0 2 * x.gConf_DD 0 2 * x.gConf_DD 1 2 + x.AConfIJ_UU 1 1 * x.gConf_DD 1 1 *
      x.gConf_DD 1 2 + x.AConfIJ_UU 1 2 * x.gConf_DD 1 1 * x.gConf_DD 2 2 + x.AConfIJ_UU 1 2 * (x.gConf_DD 1 2) ^ 2 +
      x.AConfIJ_UU 2 2 * x.gConf_DD 1 2 * x.gConf_DD 2 2)

/-- obs_ADM_P_Stokes_constraint.c:356-362 -/
noncomputable def mom_D0D0 (x : In) : ℝ :=
  -(2 / 3) * x.gConf_DD 0 0 * psi4_ x * x.trK + psim2_ x * (x.AConfIJ_UU 0 0 * (x.gConf_DD 0 0) ^ 2 + 2 * x.AConfIJ_UU 0 1 *
      x.gConf_DD 0 0 * x.gConf_DD 0 1 + 2 * x.AConfIJ_UU 0 2 * x.gConf_DD 0 0 * x.gConf_DD 0 2 + x.AConfIJ_UU 1 1 * (x.gConf_DD
      0 1) ^ 2 + 2 * x.AConfIJ_UU 1 2 * x.gConf_DD 0 1 * x.gConf_DD 0 2 + x.AConfIJ_UU 2 2 * (x.gConf_DD 0 2) ^ 2)

/-- obs_ADM_P_Stokes_constraint.c:364-373 -/
noncomputable def mom_D0D1 (x : In) : ℝ :=
  -(2 / 3) * x.gConf_DD 0 1 * psi4_ x * x.trK + psim2_ x * (x.AConfIJ_UU 0 0 * x.gConf_DD 0 0 * x.gConf_DD 0 1 + x.AConfIJ_UU 0
      1 * x.gConf_DD 0 0 * x.gConf_DD 1 1 + x.AConfIJ_UU 0 1 * (x.gConf_DD 0 1) ^ 2 + x.AConfIJ_UU 0 2 * x.gConf_DD 0 0 *
      x.gConf_DD 1 2 + x.AConfIJ_UU 0 2 * x.gConf_DD 0 1 * x.gConf_DD 0 2 + x.AConfIJ_UU 1 1 * x.gConf_DD 0 1 * x.gConf_DD 1 1
      + x.AConfIJ_UU 1 2 * x.gConf_DD 0 1 * x.gConf_DD 1 2 + x.AConfIJ_UU 1 2 * x.gConf_DD 0 2 * x.gConf_DD 1 1 + x.AConfIJ_UU
      2 2 * x.gConf_DD 0 2 * x.gConf_DD 1 2)

/-- obs_ADM_P_Stokes_constraint.c:375-383 -/
noncomputable def mom_D0D2 (x : In) : ℝ :=
  -(2 / 3) * x.gConf_DD 0 2 * psi4_ x * x.trK + psim2_ x * (x.AConfIJ_UU 0 0 * x.gConf_DD 0 0 * x.gConf_DD 0 2 + x.AConfIJ_UU 0
      1 * x.gConf_DD 0 0 * x.gConf_DD 1 2 + x.AConfIJ_UU 0 1 * x.gConf_DD 0 1 * x.gConf_DD 0 2 + x.AConfIJ_UU 0 2 * x.gConf_DD
      0 0 * x.gConf_DD 2 2 + x.AConfIJ_UU 0 2 * (x.gConf_DD 0 2) ^ 2 + x.AConfIJ_UU 1 1 * x.gConf_DD 0 1 * x.gConf_DD 1 2 +
      x.AConfIJ_UU 1 2 * x.gConf_DD 0 1 * x.gConf_DD 2 2 + x.AConfIJ_UU 1 2 * x.gConf_DD 0 2 * x.gConf_DD 1 2 + x.AConfIJ_UU 2
      2 * x.gConf_DD 0 2 * x.gConf_DD 2 2)

/-- obs_ADM_P_Stokes_constraint.c:385-402 -/
noncomputable def Pv_D0 (x : In) : ℝ :=
  psim4_ x * (Gamma_U0D0D0 x * x.igConf_UU 0 0 * mom_D0D0 x + Gamma_U0D0D0 x * x.igConf_UU 0 1 * mom_D0D1 x + Gamma_U0D0D0 x *
      x.igConf_UU 0 2 * mom_D0D2 x + Gamma_U0D0D1 x * x.igConf_UU 0 1 * mom_D0D0 x + Gamma_U0D0D1 x * x.igConf_UU 1 1 *
      mom_D0D1 x + Gamma_U0D0D1 x * x.igConf_UU 1 2 * mom_D0D2 x + Gamma_U0D0D2 x * x.igConf_UU 0 2 * mom_D0D0 x + Gamma_U0D0D2
      x * x.igConf_UU 1 2 * mom_D0D1 x + Gamma_U0D0D2 x * x.igConf_UU 2 2 * mom_D0D2 x + Gamma_U1D0D0 x * x.igConf_UU 0 0 *
      mom_D0D1 x + Gamma_U1D0D0 x * x.igConf_UU 0 1 * mom_D1D1 x + Gamma_U1D0D0 x * x.igConf_UU 0 2 * mom_D1D2 x + Gamma_U1D0D1
      x * x.igConf_UU 0 1 * mom_D0D1 x + Gamma_U1D0D1 x * x.igConf_UU 1 1 * mom_D1D1 x + Gamma_U1D0D1 x * x.igConf_UU 1 2 *
      mom_D1D2 x + Gamma_U1D0D2 x * x.igConf_UU 0 2 * mom_D0D1 x + Gamma_U1D0D2 x * x.igConf_UU 1 2 * mom_D1D1 x + Gamma_U1D0D2
      x * x.igConf_UU 2 2 * mom_D1D2 x + Gamma_U2D0D0 x * x.igConf_UU 0 0 * mom_D0D2 x + Gamma_U2D0D0 x * x.igConf_UU 0 1 *
      mom_D1D2 x + Gamma_U2D0D0 x * x.igConf_UU 0 2 * mom_D2D2 x + Gamma_U2D0D1 x * x.igConf_UU 0 1 * mom_D0D2 x + Gamma_U2D0D1
      x * x.igConf_UU 1 1 * mom_D1D2 x + Gamma_U2D0D1 x * x.igConf_UU 1 2 * mom_D2D2 x + Gamma_U2D0D2 x * x.igConf_UU 0 2 *
      mom_D0D2 x + Gamma_U2D0D2 x * x.igConf_UU 1 2 * mom_D1D2 x + Gamma_U2D0D2 x * x.igConf_UU 2 2 * mom_D2D2 x)

/-- obs_ADM_P_Stokes_constraint.c:404-421 -/
noncomputable def Pv_D1 (x : In) : ℝ :=
  psim4_ x * (Gamma_U0D0D1 x * x.igConf_UU 0 0 * mom_D0D0 x + Gamma_U0D0D1 x * x.igConf_UU 0 1 * mom_D0D1 x + Gamma_U0D0D1 x *
      x.igConf_UU 0 2 * mom_D0D2 x + Gamma_U0D1D1 x * x.igConf_UU 0 1 * mom_D0D0 x + Gamma_U0D1D1 x * x.igConf_UU 1 1 *
      mom_D0D1 x + Gamma_U0D1D1 x * x.igConf_UU 1 2 * mom_D0D2 x + Gamma_U0D1D2 x * x.igConf_UU 0 2 * mom_D0D0 x + Gamma_U0D1D2
      x * x.igConf_UU 1 2 * mom_D0D1 x + Gamma_U0D1D2 x * x.igConf_UU 2 2 * mom_D0D2 x + Gamma_U1D0D1 x * x.igConf_UU 0 0 *
      mom_D0D1 x + Gamma_U1D0D1 x * x.igConf_UU 0 1 * mom_D1D1 x + Gamma_U1D0D1 x * x.igConf_UU 0 2 * mom_D1D2 x + Gamma_U1D1D1
      x * x.igConf_UU 0 1 * mom_D0D1 x + Gamma_U1D1D1 x * x.igConf_UU 1 1 * mom_D1D1 x + Gamma_U1D1D1 x * x.igConf_UU 1 2 *
      mom_D1D2 x + Gamma_U1D1D2 x * x.igConf_UU 0 2 * mom_D0D1 x + Gamma_U1D1D2 x * x.igConf_UU 1 2 * mom_D1D1 x + Gamma_U1D1D2
      x * x.igConf_UU 2 2 * mom_D1D2 x + Gamma_U2D0D1 x * x.igConf_UU 0 0 * mom_D0D2 x + Gamma_U2D0D1 x * x.igConf_UU 0 1 *
      mom_D1D2 x + Gamma_U2D0D1 x * x.igConf_UU 0 2 * mom_D2D2 x + Gamma_U2D1D1 x * x.igConf_UU 0 1 * mom_D0D2 x + Gamma_U2D1D1
      x * x.igConf_UU 1 1 * mom_D1D2 x + Gamma_U2D1D1 x * x.igConf_UU 1 2 * mom_D2D2 x + Gamma_U2D1D2 x * x.igConf_UU 0 2 *
      mom_D0D2 x + Gamma_U2D1D2 x * x.igConf_UU 1 2 * mom_D1D2 x + Gamma_U2D1D2 x * x.igConf_UU 2 2 * mom_D2D2 x)

/-- obs_ADM_P_Stokes_constraint.c:423-440 -/
noncomputable def Pv_D2 (x : In) : ℝ :=
  psim4_ x * (Gamma_U0D0D2 x * x.igConf_UU 0 0 * mom_D0D0 x + Gamma_U0D0D2 x * x.igConf_UU 0 1 * mom_D0D1 x + Gamma_U0D0D2 x *
      x.igConf_UU 0 2 * mom_D0D2 x + Gamma_U0D1D2 x * x.igConf_UU 0 1 * mom_D0D0 x + Gamma_U0D1D2 x * x.igConf_UU 1 1 *
      mom_D0D1 x + Gamma_U0D1D2 x * x.igConf_UU 1 2 * mom_D0D2 x + Gamma_U0D2D2 x * x.igConf_UU 0 2 * mom_D0D0 x + Gamma_U0D2D2
      x * x.igConf_UU 1 2 * mom_D0D1 x + Gamma_U0D2D2 x * x.igConf_UU 2 2 * mom_D0D2 x + Gamma_U1D0D2 x * x.igConf_UU 0 0 *
      mom_D0D1 x + Gamma_U1D0D2 x * x.igConf_UU 0 1 * mom_D1D1 x + Gamma_U1D0D2 x * x.igConf_UU 0 2 * mom_D1D2 x + Gamma_U1D1D2
      x * x.igConf_UU 0 1 * mom_D0D1 x + Gamma_U1D1D2 x * x.igConf_UU 1 1 * mom_D1D1 x + Gamma_U1D1D2 x * x.igConf_UU 1 2 *
      mom_D1D2 x + Gamma_U1D2D2 x * x.igConf_UU 0 2 * mom_D0D1 x + Gamma_U1D2D2 x * x.igConf_UU 1 2 * mom_D1D1 x + Gamma_U1D2D2
      x * x.igConf_UU 2 2 * mom_D1D2 x + Gamma_U2D0D2 x * x.igConf_UU 0 0 * mom_D0D2 x + Gamma_U2D0D2 x * x.igConf_UU 0 1 *
      mom_D1D2 x + Gamma_U2D0D2 x * x.igConf_UU 0 2 * mom_D2D2 x + Gamma_U2D1D2 x * x.igConf_UU 0 1 * mom_D0D2 x + Gamma_U2D1D2
      x * x.igConf_UU 1 1 * mom_D1D2 x + Gamma_U2D1D2 x * x.igConf_UU 1 2 * mom_D2D2 x + Gamma_U2D2D2 x * x.igConf_UU 0 2 *
      mom_D0D2 x + Gamma_U2D2D2 x * x.igConf_UU 1 2 * mom_D1D2 x + Gamma_U2D2D2 x * x.igConf_UU 2 2 * mom_D2D2 x)

/-- obs_ADM_P_Stokes_constraint.c:168-170 the values written to obs__Ps_D; `none`: not stored -/
noncomputable def out_obs__Ps_D (x : In) : Fin 3 → Option ℝ
  | 0 => some (Ps_D0 x)
  | 1 => some (Ps_D1 x)
  | 2 => some (Ps_D2 x)

/-- obs_ADM_P_Stokes_constraint.c:444-446 the values written to obs__Pv_D; `none`: not stored -/
noncomputable def out_obs__Pv_D (x : In) : Fin 3 → Option ℝ
  | 2 => some (Pv_D2 x)
  | 1 => some (Pv_D1 x)
  | 0 => some (Pv_D0 x)

end Elliptica.Gen.Obs.PConstr

namespace Elliptica.Gen.Obs.POss

/-- obs_ADM_P_Stokes_Ossokine.c:88-89 -/
noncomputable def psi4 (x : In) : ℝ :=
  x.psi ^ 4

/-- obs_ADM_P_Stokes_Ossokine.c:91-92 -/
noncomputable def psi6 (x : In) : ℝ :=
  x.psi ^ 6

/-- obs_ADM_P_Stokes_Ossokine.c:94-96 -/
noncomputable def P_U0U1 (x : In) : ℝ :=
  x.AConfIJ_UU 0 1 - (2 / 3) * x.igConf_UU 0 1 * psi6 x * x.trK

/-- obs_ADM_P_Stokes_Ossokine.c:98-100 -/
noncomputable def P_U0U0 (x : In) : ℝ :=
  x.AConfIJ_UU 0 0 - (2 / 3) * x.igConf_UU 0 0 * psi6 x * x.trK

/-- obs_ADM_P_Stokes_Ossokine.c:102-104 -/
noncomputable def P_U0U2 (x : In) : ℝ :=
  x.AConfIJ_UU 0 2 - (2 / 3) * x.igConf_UU 0 2 * psi6 x * x.trK

/-- obs_ADM_P_Stokes_Ossokine.c:106-108 -/
noncomputable def P_U2U2 (x : In) : ℝ :=
  x.AConfIJ_UU 2 2 - (2 / 3) * x.igConf_UU 2 2 * psi6 x * x.trK

/-- obs_ADM_P_Stokes_Ossokine.c:110-112 -/
noncomputable def P_U1U1 (x : In) : ℝ :=
  x.AConfIJ_UU 1 1 - (2 / 3) * x.igConf_UU 1 1 * psi6 x * x.trK

/-- obs_ADM_P_Stokes_Ossokine.c:114-116 -/
noncomputable def P_U1U2 (x : In) : ℝ :=
  x.AConfIJ_UU 1 2 - (2 / 3) * x.igConf_UU 1 2 * psi6 x * x.trK

/-- obs_ADM_P_Stokes_Ossokine.c:118-123 -/
noncomputable def Pn_U2 (x : In) : ℝ :=
  psi4 x * (P_U0U2 x * x.gConf_DD 0 0 * x.n_U 0 + P_U0U2 x * x.gConf_DD 0 1 * x.n_U 1 + P_U0U2 x * x.gConf_DD 0 2 * x.n_U 2 +
      P_U1U2 x * x.gConf_DD 0 1 * x.n_U 0 + P_U1U2 x * x.gConf_DD 1 1 * x.n_U 1 + P_U1U2 x * x.gConf_DD 1 2 * x.n_U 2 + P_U2U2
      x * x.gConf_DD 0 2 * x.n_U 0 + P_U2U2 x * x.gConf_DD 1 2 * x.n_U 1 + P_U2U2 x * x.gConf_DD 2 2 * x.n_U 2)

/-- obs_ADM_P_Stokes_Ossokine.c:125-130 -/
noncomputable def Pn_U1 (x : In) : ℝ :=
  psi4 x * (P_U0U1 x * x.gConf_DD 0 0 * x.n_U 0 + P_U0U1 x * x.gConf_DD 0 1 * x.n_U 1 + P_U0U1 x * x.gConf_DD 0 2 * x.n_U 2 +
      P_U1U1 x * x.gConf_DD 0 1 * x.n_U 0 + P_U1U1 x * x.gConf_DD 1 1 * x.n_U 1 + P_U1U1 x * x.gConf_DD 1 2 * x.n_U 2 + P_U1U2
      x * x.gConf_DD 0 2 * x.n_U 0 + P_U1U2 x * x.gConf_DD 1 2 * x.n_U 1 + P_U1U2 x * x.gConf_DD 2 2 * x.n_U 2)

/-- obs_ADM_P_Stokes_Ossokine.c:132-137 -/
noncomputable def Pn_U0 (x : In) : ℝ :=
  psi4 x * (P_U0U0 x * x.gConf_DD 0 0 * x.n_U 0 + P_U0U0 x * x.gConf_DD 0 1 * x.n_U 1 + P_U0U0 x * x.gConf_DD 0 2 * x.n_U 2 +
      P_U0U1 x * x.gConf_DD 0 1 * x.n_U 0 + P_U0U1 x * x.gConf_DD 1 1 * x.n_U 1 + P_U0U1 x * x.gConf_DD 1 2 * x.n_U 2 + P_U0U2
      x * x.gConf_DD 0 2 * x.n_U 0 + P_U0U2 x * x.gConf_DD 1 2 * x.n_U 1 + P_U0U2 x * x.gConf_DD 2 2 * x.n_U 2)

/-- obs_ADM_P_Stokes_Ossokine.c:155-156 -/
noncomputable def psi6_ (x : In) : ℝ :=
  x.psi ^ 6

/-- obs_ADM_P_Stokes_Ossokine.c:158-160 -/
noncomputable def P__U1U1 (x : In) : ℝ :=
  x.AConfIJ_UU 1 1 - (2 / 3) * x.igConf_UU 1 1 * psi6_ x * x.trK

/-- obs_ADM_P_Stokes_Ossokine.c:162-164 -/
noncomputable def P__U1U2 (x : In) : ℝ :=
  x.AConfIJ_UU 1 2 - (2 / 3) * x.igConf_UU 1 2 * psi6_ x * x.trK

/-- obs_ADM_P_Stokes_Ossokine.c:166-168 -/
noncomputable def P__U0U1 (x : In) : ℝ :=
  x.AConfIJ_UU 0 1 - (2 / 3) * x.igConf_UU 0 1 * psi6_ x * x.trK

/-- obs_ADM_P_Stokes_Ossokine.c:170-172 -/
noncomputable def P__U0U0 (x : In) : ℝ :=
  x.AConfIJ_UU 0 0 - (2 / 3) * x.igConf_UU 0 0 * psi6_ x * x.trK

/-- obs_ADM_P_Stokes_Ossokine.c:174-176 -/
noncomputable def P__U0U2 (x : In) : ℝ :=
  x.AConfIJ_UU 0 2 - (2 / 3) * x.igConf_UU 0 2 * psi6_ x * x.trK

/-- obs_ADM_P_Stokes_Ossokine.c:178-180 -/
noncomputable def P__U2U2 (x : In) : ℝ :=
  x.AConfIJ_UU 2 2 - (2 / 3) * x.igConf_UU 2 2 * psi6_ x * x.trK

/-- obs_ADM_P_Stokes_Ossokine.c:182-189 -/
noncomputable def G1_U1 (x : In) : ℝ :=
  x.ChrisConf_UDD 0 0 0 * P__U0U1 x + x.ChrisConf_UDD 0 0 1 * P__U1U1 x + x.ChrisConf_UDD 0 0 2 * P__U1U2 x + x.ChrisConf_UDD 1
      0 0 * P__U0U0 x + 3 * x.ChrisConf_UDD 1 0 1 * P__U0U1 x + 2 * x.ChrisConf_UDD 1 0 2 * P__U0U2 x + 2 * x.ChrisConf_UDD 1 1
      1 * P__U1U1 x + 3 * x.ChrisConf_UDD 1 1 2 * P__U1U2 x + x.ChrisConf_UDD 1 2 2 * P__U2U2 x + x.ChrisConf_UDD 2 0 2 *
      P__U0U1 x + x.ChrisConf_UDD 2 1 2 * P__U1U1 x + x.ChrisConf_UDD 2 2 2 * P__U1U2 x

/-- obs_ADM_P_Stokes_Ossokine.c:191-198 -/
noncomputable def G1_U0 (x : In) : ℝ :=
  2 * x.ChrisConf_UDD 0 0 0 * P__U0U0 x + 3 * x.ChrisConf_UDD 0 0 1 * P__U0U1 x + 3 * x.ChrisConf_UDD 0 0 2 * P__U0U2 x +
      x.ChrisConf_UDD 0 1 1 * P__U1U1 x + 2 * x.ChrisConf_UDD 0 1 2 * P__U1U2 x + x.ChrisConf_UDD 0 2 2 * P__U2U2 x +
      x.ChrisConf_UDD 1 0 1 * P__U0U0 x + x.ChrisConf_UDD 1 1 1 * P__U0U1 x + x.ChrisConf_UDD 1 1 2 * P__U0U2 x +
      x.ChrisConf_UDD 2 0 2 * P__U0U0 x + x.ChrisConf_UDD 2 1 2 * P__U0U1 x + x.ChrisConf_UDD 2 2 2 * P__U0U2 x

/-- obs_ADM_P_Stokes_Ossokine.c:200-207 -/
noncomputable def G1_U2 (x : In) : ℝ :=
  x.ChrisConf_UDD 0 0 0 * P__U0U2 x + x.ChrisConf_UDD 0 0 1 * P__U1U2 x + x.ChrisConf_UDD 0 0 2 * P__U2U2 x + x.ChrisConf_UDD 1
      0 1 * P__U0U2 x + x.ChrisConf_UDD 1 1 1 * P__U1U2 x + x.ChrisConf_UDD 1 1 2 * P__U2U2 x + x.ChrisConf_UDD 2 0 0 * P__U0U0
      x + 2 * x.ChrisConf_UDD 2 0 1 * P__U0U1 x + 3 * x.ChrisConf_UDD 2 0 2 * P__U0U2 x + x.ChrisConf_UDD 2 1 1 * P__U1U1 x + 3
      * x.ChrisConf_UDD 2 1 2 * P__U1U2 x + 2 * x.ChrisConf_UDD 2 2 2 * P__U2U2 x

/-- obs_ADM_P_Stokes_Ossokine.c:209-227 -/
noncomputable def G2_U0 (x : In) : ℝ :=
  -(2 * P__U0U0 x * x.dpsi_D 0 * x.gConf_DD 0 0 * x.igConf_UU 0 0 + 2 * P__U0U0 x * x.dpsi_D 1 * x.gConf_DD 0 0 * x.igConf_UU 0
      1 + 2 * P__U0U0 x * x.dpsi_D 2 * x.gConf_DD 0 0 * x.igConf_UU 0 2 + 4 * P__U0U1 x * x.dpsi_D 0 * x.gConf_DD 0 1 *
      x.igConf_UU 0 0 + 4 * P__U0U1 x * x.dpsi_D 1 * x.gConf_DD 0 1 * x.igConf_UU 0 1 + 4 * P__U0U1 x * x.dpsi_D 2 * x.gConf_DD
      0 1 * x.igConf_UU 0 2 + 4 * P__U0U2 x * x.dpsi_D 0 * x.gConf_DD 0 2 * x.igConf_UU 0 0 + 4 * P__U0U2 x * x.dpsi_D 1 *
      x.gConf_DD 0 2 * x.igConf_UU 0 1 + 4 * P__U0U2 x * x.dpsi_D 2 * x.gConf_DD 0 2 * x.igConf_UU 0 2 + 2 * P__U1U1 x *
      x.dpsi_D 0 * x.gConf_DD 1 1 * x.igConf_UU 0 0 + 2 * P__U1U1 x * x.dpsi_D 1 * x.gConf_DD 1 1 * x.igConf_UU 0 1 + 2 *
      P__U1U1 x * x.dpsi_D 2 * x.gConf_DD 1 1 * x.igConf_UU 0 2 + 4 * P__U1U2 x * x.dpsi_D 0 * x.gConf_DD 1 2 * x.igConf_UU 0 0
      + 4 * P__U1U2 x * x.dpsi_D 1 * x.gConf_DD 1 2 * x.igConf_UU 0 1 + 4 * P__U1U2 x * x.dpsi_D 2 * x.gConf_DD 1 2 *
      x.igConf_UU 0 2 + 2 * P__U2U2 x * x.dpsi_D 0 * x.gConf_DD 2 2 * x.igConf_UU 0 0 + 2 * P__U2U2 x * x.dpsi_D 1 * x.gConf_DD
      2 2 * x.igConf_UU 0 1 + 2 * P__U2U2 x * x.dpsi_D 2 * x.gConf_DD 2 2 * x.igConf_UU 0 2) / x.psi

/-- obs_ADM_P_Stokes_Ossokine.c:229-247 -/
noncomputable def G2_U1 (x : In) : ℝ :=
  -(2 * P__U0U0 x * x.dpsi_D 0 * x.gConf_DD 0 0 * x.igConf_UU 0 1 + 2 * P__U0U0 x * x.dpsi_D 1 * x.gConf_DD 0 0 * x.igConf_UU 1
      1 + 2 * P__U0U0 x * x.dpsi_D 2 * x.gConf_DD 0 0 * x.igConf_UU 1 2 + 4 * P__U0U1 x * x.dpsi_D 0 * x.gConf_DD 0 1 *
      x.igConf_UU 0 1 + 4 * P__U0U1 x * x.dpsi_D 1 * x.gConf_DD 0 1 * x.igConf_UU 1 1 + 4 * P__U0U1 x * x.dpsi_D 2 * x.gConf_DD
      0 1 * x.igConf_UU 1 2 + 4 * P__U0U2 x * x.dpsi_D 0 * x.gConf_DD 0 2 * x.igConf_UU 0 1 + 4 * P__U0U2 x * x.dpsi_D 1 *
      x.gConf_DD 0 2 * x.igConf_UU 1 1 + 4 * P__U0U2 x * x.dpsi_D 2 * x.gConf_DD 0 2 * x.igConf_UU 1 2 + 2 * P__U1U1 x *
      x.dpsi_D 0 * x.gConf_DD 1 1 * x.igConf_UU 0 1 + 2 * P__U1U1 x * x.dpsi_D 1 * x.gConf_DD 1 1 * x.igConf_UU 1 1 + 2 *
      P__U1U1 x * x.dpsi_D 2 * x.gConf_DD 1 1 * x.igConf_UU 1 2 + 4 * P__U1U2 x * x.dpsi_D 0 * x.gConf_DD 1 2 * x.igConf_UU 0 1
      + 4 * P__U1U2 x * x.dpsi_D 1 * x.gConf_DD 1 2 * x.igConf_UU 1 1 + 4 * P__U1U2 x * x.dpsi_D 2 * x.gConf_DD 1 2 *
      x.igConf_UU 1 2 + 2 * P__U2U2 x * x.dpsi_D 0 * x.gConf_DD 2 2 * x.igConf_UU 0 1 + 2 * P__U2U2 x * x.dpsi_D 1 * x.gConf_DD
      2 2 * x.igConf_UU 1 1 + 2 * P__U2U2 x * x.dpsi_D 2 * x.gConf_DD 2 2 * x.igConf_UU 1 2) / x.psi

/-- obs_ADM_P_Stokes_Ossokine.c:249-267 -/
noncomputable def G2_U2 (x : In) : ℝ :=
  -(2 * P__U0U0 x * x.dpsi_D 0 * x.gConf_DD 0 0 * x.igConf_UU 0 2 + 2 * P__U0U0 x * x.dpsi_D 1 * x.gConf_DD 0 0 * x.igConf_UU 1
      2 + 2 * P__U0U0 x * x.dpsi_D 2 * x.gConf_DD 0 0 * x.igConf_UU 2 2 + 4 * P__U0U1 x * x.dpsi_D 0 * x.gConf_DD 0 1 *
      x.igConf_UU 0 2 + 4 * P__U0U1 x * x.dpsi_D 1 * x.gConf_DD 0 1 * x.igConf_UU 1 2 + 4 * P__U0U1 x * x.dpsi_D 2 * x.gConf_DD
      0 1 * x.igConf_UU 2 2 + 4 * P__U0U2 x * x.dpsi_D 0 * x.gConf_DD 0 2 * x.igConf_UU 0 2 + 4 * P__U0U2 x * x.dpsi_D 1 *
      x.gConf_DD 0 2 * x.igConf_UU 1 2 + 4 * P__U0U2 x * x.dpsi_D 2 * x.gConf_DD 0 2 * x.igConf_UU 2 2 + 2 * P__U1U1 x *
      x.dpsi_D 0 * x.gConf_DD 1 1 * x.igConf_UU 0 2 + 2 * P__U1U1 x * x.dpsi_D 1 * x.gConf_DD 1 1 * x.igConf_UU 1 2 + 2 *
      P__U1U1 x * x.dpsi_D 2 * x.gConf_DD 1 1 * x.igConf_UU 2 2 + 4 * P__U1U2 x * x.dpsi_D 0 * x.gConf_DD 1 2 * x.igConf_UU 0 2
      + 4 * P__U1U2 x * x.dpsi_D 1 * x.gConf_DD 1 2 * x.igConf_UU 1 2 + 4 * P__U1U2 x * x.dpsi_D 2 * x.gConf_DD 1 2 *
      x.igConf_UU 2 2 + 2 * P__U2U2 x * x.dpsi_D 0 * x.gConf_DD 2 2 * x.igConf_UU 0 2 + 2 * P__U2U2 x * x.dpsi_D 1 * x.gConf_DD
      2 2 * x.igConf_UU 1 2 + 2 * P__U2U2 x * x.dpsi_D 2 * x.gConf_DD 2 2 * x.igConf_UU 2 2) / x.psi

/-- obs_ADM_P_Stokes_Ossokine.c:269-270 -/
noncomputable def G_U1 (x : In) : ℝ :=
  x.att * (G1_U1 x + G2_U1 x)

/-- obs_ADM_P_Stokes_Ossokine.c:272-273 -/
noncomputable def G_U0 (x : In) : ℝ :=
  x.att * (G1_U0 x + G2_U0 x)

/-- obs_ADM_P_Stokes_Ossokine.c:275-276 -/
noncomputable def G_U2 (x : In) : ℝ :=
  x.att * (G1_U2 x + G2_U2 x)

/-- obs_ADM_P_Stokes_Ossokine.c:141-143 the values written to obs__P_U; `none`: not stored -/
noncomputable def out_obs__P_U (x : In) : Fin 3 → Option ℝ
  | 1 => some (Pn_U1 x)
  | 0 => some (Pn_U0 x)
  | 2 => some (Pn_U2 x)

/-- obs_ADM_P_Stokes_Ossokine.c:280-282 the values written to obs__G_U; `none`: not stored -/
noncomputable def out_obs__G_U (x : In) : Fin 3 → Option ℝ
  | 0 => some (G_U0 x)
  | 1 => some (G_U1 x)
  | 2 => some (G_U2 x)

end Elliptica.Gen.Obs.POss

namespace Elliptica.Gen.Obs.JOss

/-- obs_ADM_J_Stokes_Ossokine.c:74-75 -/
noncomputable def psi4 (x : In) : ℝ :=
  x.psi ^ 4

/-- obs_ADM_J_Stokes_Ossokine.c:77-84 -/
noncomputable def Pn_U2 (x : In) : ℝ :=
  psi4 x * (x.AConfIJ_UU 0 2 * x.gConf_DD 0 0 * x.n_U 0 + x.AConfIJ_UU 0 2 * x.gConf_DD 0 1 * x.n_U 1 + x.AConfIJ_UU 0 2 *
      x.gConf_DD 0 2 * x.n_U 2 + x.AConfIJ_UU 1 2 * x.gConf_DD 0 1 * x.n_U 0 + x.AConfIJ_UU 1 2 * x.gConf_DD 1 1 * x.n_U 1 +
      x.AConfIJ_UU 1 2 * x.gConf_DD 1 2 * x.n_U 2 + x.AConfIJ_UU 2 2 * x.gConf_DD 0 2 * x.n_U 0 + x.AConfIJ_UU 2 2 * x.gConf_DD
      1 2 * x.n_U 1 + x.AConfIJ_UU 2 2 * x.gConf_DD 2 2 * x.n_U 2)

/-- obs_ADM_J_Stokes_Ossokine.c:86-93 -/
noncomputable def Pn_U1 (x : In) : ℝ :=
  psi4 x * (x.AConfIJ_UU 0 1 * x.gConf_DD 0 0 * x.n_U 0 + x.AConfIJ_UU 0 1 * x.gConf_DD 0 1 * x.n_U 1 + x.AConfIJ_UU 0 1 *
      x.gConf_DD 0 2 * x.n_U 2 + x.AConfIJ_UU 1 1 * x.gConf_DD 0 1 * x.n_U 0 + x.AConfIJ_UU 1 1 * x.gConf_DD 1 1 * x.n_U 1 +
      x.AConfIJ_UU 1 1 * x.gConf_DD 1 2 * x.n_U 2 + x.AConfIJ_UU 1 2 * x.gConf_DD 0 2 * x.n_U 0 + x.AConfIJ_UU 1 2 * x.gConf_DD
      1 2 * x.n_U 1 + x.AConfIJ_UU 1 2 * x.gConf_DD 2 2 * x.n_U 2)

/-- obs_ADM_J_Stokes_Ossokine.c:95-102 -/
noncomputable def Pn_U0 (x : In) : ℝ :=
  psi4 x * (x.AConfIJ_UU 0 0 * x.gConf_DD 0 0 * x.n_U 0 + x.AConfIJ_UU 0 0 * x.gConf_DD 0 1 * x.n_U 1 + x.AConfIJ_UU 0 0 *
      x.gConf_DD 0 2 * x.n_U 2 + x.AConfIJ_UU 0 1 * x.gConf_DD 0 1 * x.n_U 0 + x.AConfIJ_UU 0 1 * x.gConf_DD 1 1 * x.n_U 1 +
      x.AConfIJ_UU 0 1 * x.gConf_DD 1 2 * x.n_U 2 + x.AConfIJ_UU 0 2 * x.gConf_DD 0 2 * x.n_U 0 + x.AConfIJ_UU 0 2 * x.gConf_DD
      1 2 * x.n_U 1 + x.AConfIJ_UU 0 2 * x.gConf_DD 2 2 * x.n_U 2)

/-- obs_ADM_J_Stokes_Ossokine.c:104-105 -/
noncomputable def xiP_U2 (x : In) : ℝ :=
  -Pn_U0 x * x.xi_U 1 + Pn_U1 x * x.xi_U 0

/-- obs_ADM_J_Stokes_Ossokine.c:107-108 -/
noncomputable def xiP_U1 (x : In) : ℝ :=
  Pn_U0 x * x.xi_U 2 - Pn_U2 x * x.xi_U 0

/-- obs_ADM_J_Stokes_Ossokine.c:110-111 -/
noncomputable def xiP_U0 (x : In) : ℝ :=
  -Pn_U1 x * x.xi_U 2 + Pn_U2 x * x.xi_U 1

/-- obs_ADM_J_Stokes_Ossokine.c:115-117 the values written to obs__Jn_U; `none`: not stored -/
noncomputable def out_obs__Jn_U (x : In) : Fin 3 → Option ℝ
  | 2 => some (xiP_U2 x)
  | 0 => some (xiP_U0 x)
  | 1 => some (xiP_U1 x)

end Elliptica.Gen.Obs.JOss

namespace Elliptica.Gen.Obs.JConstr

/-- obs_ADM_J_Stokes_constraint.c:98-99 -/
noncomputable def psi4 (x : In) : ℝ :=
  x.psi ^ 4

/-- obs_ADM_J_Stokes_constraint.c:101-102 -/
noncomputable def psim2 (x : In) : ℝ :=
  (x.psi ^ 2)⁻¹

/-- obs_ADM_J_Stokes_constraint.c:104-126 -/
noncomputable def Pn_D0 (x : In) : ℝ :=
  -x.n_U 0 * ((2 / 3) * x.gConf_DD 0 0 * psi4 x * x.trK - psim2 x * (x.AConfIJ_UU 0 0 * (x.gConf_DD 0 0) ^ 2 + 2 * x.AConfIJ_UU
      0 1 * x.gConf_DD 0 0 * x.gConf_DD 0 1 + 2 * x.AConfIJ_UU 0 2 * x.gConf_DD 0 0 * x.gConf_DD 0 2 + x.AConfIJ_UU 1 1 *
      (x.gConf_DD 0 1) ^ 2 + 2 * x.AConfIJ_UU 1 2 * x.gConf_DD 0 1 * x.gConf_DD 0 2 + x.AConfIJ_UU 2 2 * (x.gConf_DD 0 2) ^ 2))
      - x.n_U 1 * ((2 / 3) * x.gConf_DD 0 1 * psi4 x * x.trK - psim2 x * (x.AConfIJ_UU 0 0 * x.gConf_DD 0 0 * x.gConf_DD 0 1 +
      x.AConfIJ_UU 0 1 * x.gConf_DD 0 0 * x.gConf_DD 1 1 + x.AConfIJ_UU 0 1 * (x.gConf_DD 0 1) ^ 2 + x.AConfIJ_UU 0 2 *
      x.gConf_DD 0 0 * x.gConf_DD 1 2 + x.AConfIJ_UU 0 2 * x.gConf_DD 0 1 * x.gConf_DD 0 2 + x.AConfIJ_UU 1 1 * x.gConf_DD 0 1
      * x.gConf_DD 1 1 + x.AConfIJ_UU 1 2 * x.gConf_DD 0 1 * x.gConf_DD 1 2 + x.AConfIJ_UU 1 2 * x.gConf_DD 0 2 * x.gConf_DD 1
      1 + x.AConfIJ_UU 2 2 * x.gConf_DD 0 2 * x.gConf_DD 1 2)) - x.n_U 2 * ((2 / 3) * x.gConf_DD 0 2 * psi4 x * x.trK - psim2 x
      * (x.AConfIJ_UU 0 0 * x.gConf_DD 0 0 * x.gConf_DD 0 2 + x.AConfIJ_UU 0 1 * x.gConf_DD 0 0 * x.gConf_DD 1 2 + x.AConfIJ_UU
      0 1 * x.gConf_DD 0 1 * x.gConf_DD 0 2 + x.AConfIJ_UU 0 2 * x.gConf_DD 0 0 * x.gConf_DD 2 2 + x.AConfIJ_UU 0 2 *
      (x.gConf_DD 0 2) ^ 2 + x.AConfIJ_UU 1 1 * x.gConf_DD 0 1 * x.gConf_DD 1 2 + x.AConfIJ_UU 1 2 * x.gConf_DD 0 1 *
      x.gConf_DD 2 2 + x.AConfIJ_UU 1 2 * x.gConf_DD 0 2 * x.gConf_DD 1 2 + x.AConfIJ_UU 2 2 * x.gConf_DD 0 2 * x.gConf_DD 2 2))

/-- obs_ADM_J_Stokes_constraint.c:128-150 -/
noncomputable def Pn_D1 (x : In) : ℝ :=
  -x.n_U 0 * ((2 / 3) * x.gConf_DD 0 1 * psi4 x * x.trK - psim2 x * (x.AConfIJ_UU 0 0 * x.gConf_DD 0 0 * x.gConf_DD 0 1 +
      x.AConfIJ_UU 0 1 * x.gConf_DD 0 0 * x.gConf_DD 1 1 + x.AConfIJ_UU 0 1 * (x.gConf_DD 0 1) ^ 2 + x.AConfIJ_UU 0 2 *
      x.gConf_DD 0 0 * x.gConf_DD 1 2 + x.AConfIJ_UU 0 2 * x.gConf_DD 0 1 * x.gConf_DD 0 2 + x.AConfIJ_UU 1 1 * x.gConf_DD 0 1
      * x.gConf_DD 1 1 + x.AConfIJ_UU 1 2 * x.gConf_DD 0 1 * x.gConf_DD 1 2 + x.AConfIJ_UU 1 2 * x.gConf_DD 0 2 * x.gConf_DD 1
      1 + x.AConfIJ_UU 2 2 * x.gConf_DD 0 2 * x.gConf_DD 1 2)) - x.n_U 1 * ((2 / 3) * x.gConf_DD 1 1 * psi4 x * x.trK - psim2 x
      * (x.AConfIJ_UU 0 0 * (x.gConf_DD 0 1) ^ 2 + 2 * x.AConfIJ_UU 0 1 * x.gConf_DD 0 1 * x.gConf_DD 1 1 + 2 * x.AConfIJ_UU 0
      2 * x.gConf_DD 0 1 * x.gConf_DD 1 2 + x.AConfIJ_UU 1 1 * (x.gConf_DD 1 1) ^ 2 + 2 * x.AConfIJ_UU 1 2 * x.gConf_DD 1 1 *
      x.gConf_DD 1 2 + x.AConfIJ_UU 2 2 * (x.gConf_DD 1 2) ^ 2)) - x.n_U 2 * ((2 / 3) * x.gConf_DD 1 2 * psi4 x * x.trK - psim2
      x * (x.AConfIJ_UU 0 0 * x.gConf_DD 0 1 * x.gConf_DD 0 2 + x.AConfIJ_UU 0 1 * x.gConf_DD 0 1 * x.gConf_DD 1 2 +
      x.AConfIJ_UU 0 1 * x.gConf_DD 0 2 * x.gConf_DD 1 1 + x.AConfIJ_UU 0 2 * x.gConf_DD 0 1 * x.gConf_DD 2 2 + x.AConfIJ_UU 0
      2 * x.gConf_DD 0 2 * x.gConf_DD 1 2 + x.AConfIJ_UU 1 1 * x.gConf_DD 1 1 * x.gConf_DD 1 2 + x.AConfIJ_UU 1 2 * x.gConf_DD
      1 1 * x.gConf_DD 2 2 + x.AConfIJ_UU 1 2 * (x.gConf_DD 1 2) ^ 2 + x.AConfIJ_UU 2 2 * x.gConf_DD 1 2 * x.gConf_DD 2 2))

/-- obs_ADM_J_Stokes_constraint.c:152-174 -/
noncomputable def Pn_D2 (x : In) : ℝ :=
  -x.n_U 0 * ((2 / 3) * x.gConf_DD 0 2 * psi4 x * x.trK - psim2 x * (x.AConfIJ_UU 0 0 * x.gConf_DD 0 0 * x.gConf_DD 0 2 +
      x.AConfIJ_UU 0 1 * x.gConf_DD 0 0 * x.gConf_DD 1 2 + x.AConfIJ_UU 0 1 * x.gConf_DD 0 1 * x.gConf_DD 0 2 + x.AConfIJ_UU 0
      2 * x.gConf_DD 0 0 * x.gConf_DD 2 2 + x.AConfIJ_UU 0 2 * (x.gConf_DD 0 2) ^ 2 + x.AConfIJ_UU 1 1 * x.gConf_DD 0 1 *
      x.gConf_DD 1 2 + x.AConfIJ_UU 1 2 * x.gConf_DD 0 1 * x.gConf_DD 2 2 + x.AConfIJ_UU 1 2 * x.gConf_DD 0 2 * x.gConf_DD 1 2
      + x.AConfIJ_UU 2 2 * x.gConf_DD 0 2 * x.gConf_DD 2 2)) - x.n_U 1 * ((2 / 3) * x.gConf_DD 1 2 * psi4 x * x.trK - psim2 x *
      (x.AConfIJ_UU 0 0 * x.gConf_DD 0 1 * x.gConf_DD 0 2 + x.AConfIJ_UU 0 1 * x.gConf_DD 0 1 * x.gConf_DD 1 2 + x.AConfIJ_UU 0
      1 * x.gConf_DD 0 2 * x.gConf_DD 1 1 + x.AConfIJ_UU 0 2 * x.gConf_DD 0 1 * x.gConf_DD 2 2 + x.AConfIJ_UU 0 2 * x.gConf_DD
      0 2 * x.gConf_DD 1 2 + x.AConfIJ_UU 1 1 * x.gConf_DD 1 1 * x.gConf_DD 1 2 + x.AConfIJ_UU 1 2 * x.gConf_DD 1 1 *
      x.gConf_DD 2 2 + x.AConfIJ_UU 1 2 * (x.gConf_DD 1 2) ^ 2 + x.AConfIJ_UU 2 2 * x.gConf_DD 1 2 * x.gConf_DD 2 2)) - x.n_U 2
      * ((2 / 3) * x.gConf_DD 2 2 * psi4 x * x.trK - psim2 x * (x.AConfIJ_UU 0 0 * (x.gConf_DD 0 2) ^ 2 + 2 * x.AConfIJ_UU 0 1
      * x.gConf_DD 0 2 * x.gConf_DD 1 2 + 2 * x.AConfIJ_UU 0 2 * x.gConf_DD 0 2 * x.gConf_DD 2 2 + x.AConfIJ_UU 1 1 *
      (x.gConf_DD 1 2) ^ 2 + 2 * x.AConfIJ_UU 1 2 * x.gConf_DD 1 2 * x.gConf_DD 2 2 + x.AConfIJ_UU 2 2 * (x.gConf_DD 2 2) ^ 2))

/-- obs_ADM_J_Stokes_constraint.c:176-177 -/
noncomputable def Phi__U1D1 (x : In) : ℝ :=
  0

/-- obs_ADM_J_Stokes_constraint.c:179-180 -/
noncomputable def Phi__U1D2 (x : In) : ℝ :=
  x.x_xCM_U 0

/-- obs_ADM_J_Stokes_constraint.c:182-183 -/
noncomputable def Phi__U1D0 (x : In) : ℝ :=
  -x.x_xCM_U 2

/-- obs_ADM_J_Stokes_constraint.c:185-186 -/
noncomputable def Phi__U2D2 (x : In) : ℝ :=
  0

/-- obs_ADM_J_Stokes_constraint.c:188-189 -/
noncomputable def Phi__U2D1 (x : In) : ℝ :=
  -x.x_xCM_U 0

/-- obs_ADM_J_Stokes_constraint.c:191-192 -/
noncomputable def Phi__U2D0 (x : In) : ℝ :=
  x.x_xCM_U 1

/-- obs_ADM_J_Stokes_constraint.c:194-195 -/
noncomputable def Phi__U0D1 (x : In) : ℝ :=
  x.x_xCM_U 2

/-- obs_ADM_J_Stokes_constraint.c:197-198 -/
noncomputable def Phi__U0D0 (x : In) : ℝ :=
  0

/-- obs_ADM_J_Stokes_constraint.c:200-201 -/
noncomputable def Phi__U0D2 (x : In) : ℝ :=
  -x.x_xCM_U 1

/-- obs_ADM_J_Stokes_constraint.c:203-204 -/
noncomputable def Js_D1 (x : In) : ℝ :=
  Phi__U0D1 x * Pn_D0 x + Phi__U1D1 x * Pn_D1 x + Phi__U2D1 x * Pn_D2 x

/-- obs_ADM_J_Stokes_constraint.c:206-207 -/
noncomputable def Js_D0 (x : In) : ℝ :=
  Phi__U0D0 x * Pn_D0 x + Phi__U1D0 x * Pn_D1 x + Phi__U2D0 x * Pn_D2 x

/-- obs_ADM_J_Stokes_constraint.c:209-210 -/
noncomputable def Js_D2 (x : In) : ℝ :=
  Phi__U0D2 x * Pn_D0 x + Phi__U1D2 x * Pn_D1 x + Phi__U2D2 x * Pn_D2 x

/-- obs_ADM_J_Stokes_constraint.c:229-230 -/
noncomputable def psim2_ (x : In) : ℝ :=
  (x.psi ^ 2)⁻¹

/-- obs_ADM_J_Stokes_constraint.c:232-233 -/
noncomputable def psi4_ (x : In) : ℝ :=
  x.psi ^ 4

/-- obs_ADM_J_Stokes_constraint.c:235-236 -/
noncomputable def psim4_ (x : In) : ℝ :=
  1 / psi4_ x

/-- obs_ADM_J_Stokes_constraint.c:238-239 -/
noncomputable def dLnpsi_D0 (x : In) : ℝ :=
  x.dpsi_D 0 / x.psi

/-- obs_ADM_J_Stokes_constraint.c:241-242 -/
noncomputable def dLnpsi_D1 (x : In) : ℝ :=
  x.dpsi_D 1 / x.psi

/-- obs_ADM_J_Stokes_constraint.c:244-245 -/
noncomputable def dLnpsi_D2 (x : In) : ℝ :=
  x.dpsi_D 2 / x.psi

/-- obs_ADM_J_Stokes_constraint.c:247-249 -/
noncomputable def c_U0D2D2 (x : In) : ℝ :=
  -2 * x.gConf_DD 2 2 * (dLnpsi_D0 x * x.igConf_UU 0 0 + dLnpsi_D1 x * x.igConf_UU 0 1 + dLnpsi_D2 x * x.igConf_UU 0 2)

/-- obs_ADM_J_Stokes_constraint.c:251-253 -/
noncomputable def c_U1D2D2 (x : In) : ℝ :=
  -2 * x.gConf_DD 2 2 * (dLnpsi_D0 x * x.igConf_UU 0 1 + dLnpsi_D1 x * x.igConf_UU 1 1 + dLnpsi_D2 x * x.igConf_UU 1 2)

/-- obs_ADM_J_Stokes_constraint.c:255-258 -/
noncomputable def c_U0D0D1 (x : In) : ℝ :=
  -2 * dLnpsi_D0 x * x.gConf_DD 0 1 * x.igConf_UU 0 0 - 2 * dLnpsi_D1 x * x.gConf_DD 0 1 * x.igConf_UU 0 1 + 2 * dLnpsi_D1 x -
      2 * dLnpsi_D2 x * x.gConf_DD 0 1 * x.igConf_UU 0 2

/-- obs_ADM_J_Stokes_constraint.c:260-263 -/
noncomputable def c_U2D1D2 (x : In) : ℝ :=
  -2 * dLnpsi_D0 x * x.gConf_DD 1 2 * x.igConf_UU 0 2 - 2 * dLnpsi_D1 x * x.gConf_DD 1 2 * x.igConf_UU 1 2 + 2 * dLnpsi_D1 x -
      2 * dLnpsi_D2 x * x.gConf_DD 1 2 * x.igConf_UU 2 2

/-- obs_ADM_J_Stokes_constraint.c:265-268 -/
noncomputable def c_U0D0D0 (x : In) : ℝ :=
  -2 * dLnpsi_D0 x * x.gConf_DD 0 0 * x.igConf_UU 0 0 + 4 * dLnpsi_D0 x - 2 * dLnpsi_D1 x * x.gConf_DD 0 0 * x.igConf_UU 0 1 -
      2 * dLnpsi_D2 x * x.gConf_DD 0 0 * x.igConf_UU 0 2

/-- obs_ADM_J_Stokes_constraint.c:270-272 -/
noncomputable def c_U2D0D1 (x : In) : ℝ :=
  -2 * x.gConf_DD 0 1 * (dLnpsi_D0 x * x.igConf_UU 0 2 + dLnpsi_D1 x * x.igConf_UU 1 2 + dLnpsi_D2 x * x.igConf_UU 2 2)

/-- obs_ADM_J_Stokes_constraint.c:274-276 -/
noncomputable def c_U2D1D1 (x : In) : ℝ :=
  -2 * x.gConf_DD 1 1 * (dLnpsi_D0 x * x.igConf_UU 0 2 + dLnpsi_D1 x * x.igConf_UU 1 2 + dLnpsi_D2 x * x.igConf_UU 2 2)

/-- obs_ADM_J_Stokes_constraint.c:278-281 -/
noncomputable def c_U1D1D1 (x : In) : ℝ :=
  -2 * dLnpsi_D0 x * x.gConf_DD 1 1 * x.igConf_UU 0 1 - 2 * dLnpsi_D1 x * x.gConf_DD 1 1 * x.igConf_UU 1 1 + 4 * dLnpsi_D1 x -
      2 * dLnpsi_D2 x * x.gConf_DD 1 1 * x.igConf_UU 1 2

/-- obs_ADM_J_Stokes_constraint.c:283-285 -/
noncomputable def c_U0D1D1 (x : In) : ℝ :=
  -2 * x.gConf_DD 1 1 * (dLnpsi_D0 x * x.igConf_UU 0 0 + dLnpsi_D1 x * x.igConf_UU 0 1 + dLnpsi_D2 x * x.igConf_UU 0 2)

/-- obs_ADM_J_Stokes_constraint.c:287-289 -/
noncomputable def c_U0D1D2 (x : In) : ℝ :=
  -2 * x.gConf_DD 1 2 * (dLnpsi_D0 x * x.igConf_UU 0 0 + dLnpsi_D1 x * x.igConf_UU 0 1 + dLnpsi_D2 x * x.igConf_UU 0 2)

/-- obs_ADM_J_Stokes_constraint.c:291-294 -/
noncomputable def c_U1D1D2 (x : In) : ℝ :=
  -2 * dLnpsi_D0 x * x.gConf_DD 1 2 * x.igConf_UU 0 1 - 2 * dLnpsi_D1 x * x.gConf_DD 1 2 * x.igConf_UU 1 1 - 2 * dLnpsi_D2 x *
      x.gConf_DD 1 2 * x.igConf_UU 1 2 + 2 * dLnpsi_D2 x

/-- obs_ADM_J_Stokes_constraint.c:296-299 -/
noncomputable def c_U2D0D2 (x : In) : ℝ :=
  -2 * dLnpsi_D0 x * x.gConf_DD 0 2 * x.igConf_UU 0 2 + 2 * dLnpsi_D0 x - 2 * dLnpsi_D1 x * x.gConf_DD 0 2 * x.igConf_UU 1 2 -
      2 * dLnpsi_D2 x * x.gConf_DD 0 2 * x.igConf_UU 2 2

/-- obs_ADM_J_Stokes_constraint.c:301-303 -/
noncomputable def c_U2D0D0 (x : In) : ℝ :=
  -2 * x.gConf_DD 0 0 * (dLnpsi_D0 x * x.igConf_UU 0 2 + dLnpsi_D1 x * x.igConf_UU 1 2 + dLnpsi_D2 x * x.igConf_UU 2 2)

/-- obs_ADM_J_Stokes_constraint.c:305-308 -/
noncomputable def c_U0D0D2 (x : In) : ℝ :=
  -2 * dLnpsi_D0 x * x.gConf_DD 0 2 * x.igConf_UU 0 0 - 2 * dLnpsi_D1 x * x.gConf_DD 0 2 * x.igConf_UU 0 1 - 2 * dLnpsi_D2 x *
      x.gConf_DD 0 2 * x.igConf_UU 0 2 + 2 * dLnpsi_D2 x

/-- obs_ADM_J_Stokes_constraint.c:310-312 -/
noncomputable def c_U1D0D0 (x : In) : ℝ :=
  -2 * x.gConf_DD 0 0 * (dLnpsi_D0 x * x.igConf_UU 0 1 + dLnpsi_D1 x * x.igConf_UU 1 1 + dLnpsi_D2 x * x.igConf_UU 1 2)

/-- obs_ADM_J_Stokes_constraint.c:314-317 -/
noncomputable def c_U1D0D1 (x : In) : ℝ :=
  -2 * dLnpsi_D0 x * x.gConf_DD 0 1 * x.igConf_UU 0 1 + 2 * dLnpsi_D0 x - 2 * dLnpsi_D1 x * x.gConf_DD 0 1 * x.igConf_UU 1 1 -
      2 * dLnpsi_D2 x * x.gConf_DD 0 1 * x.igConf_UU 1 2

/-- obs_ADM_J_Stokes_constraint.c:319-321 -/
noncomputable def c_U1D0D2 (x : In) : ℝ :=
  -2 * x.gConf_DD 0 2 * (dLnpsi_D0 x * x.igConf_UU 0 1 + dLnpsi_D1 x * x.igConf_UU 1 1 + dLnpsi_D2 x * x.igConf_UU 1 2)

/-- obs_ADM_J_Stokes_constraint.c:323-326 -/
noncomputable def c_U2D2D2 (x : In) : ℝ :=
  -2 * dLnpsi_D0 x * x.gConf_DD 2 2 * x.igConf_UU 0 2 - 2 * dLnpsi_D1 x * x.gConf_DD 2 2 * x.igConf_UU 1 2 - 2 * dLnpsi_D2 x *
      x.gConf_DD 2 2 * x.igConf_UU 2 2 + 4 * dLnpsi_D2 x

/-- obs_ADM_J_Stokes_constraint.c:328-329 -/
noncomputable def Gamma_U1D0D0 (x : In) : ℝ :=
  x.ChrisConf_UDD 1 0 0 + c_U1D0D0 x

/-- obs_ADM_J_Stokes_constraint.c:331-332 -/
noncomputable def Gamma_U0D2D2 (x : In) : ℝ :=
  x.ChrisConf_UDD 0 2 2 + c_U0D2D2 x

/-- obs_ADM_J_Stokes_constraint.c:334-335 -/
noncomputable def Gamma_U1D0D2 (x : In) : ℝ :=
  x.ChrisConf_UDD 1 0 2 + c_U1D0D2 x

/-- obs_ADM_J_Stokes_constraint.c:337-338 -/
noncomputable def Gamma_U2D2D2 (x : In) : ℝ :=
  x.ChrisConf_UDD 2 2 2 + c_U2D2D2 x

/-- obs_ADM_J_Stokes_constraint.c:340-341 -/
noncomputable def Gamma_U1D0D1 (x : In) : ℝ :=
  x.ChrisConf_UDD 1 0 1 + c_U1D0D1 x

/-- obs_ADM_J_Stokes_constraint.c:343-344 -/
noncomputable def Gamma_U1D2D2 (x : In) : ℝ :=
  x.ChrisConf_UDD 1 2 2 + c_U1D2D2 x

/-- obs_ADM_J_Stokes_constraint.c:346-347 -/
noncomputable def Gamma_U0D0D2 (x : In) : ℝ :=
  x.ChrisConf_UDD 0 0 2 + c_U0D0D2 x

/-- obs_ADM_J_Stokes_constraint.c:349-350 -/
noncomputable def Gamma_U2D0D1 (x : In) : ℝ :=
  x.ChrisConf_UDD 2 0 1 + c_U2D0D1 x

/-- obs_ADM_J_Stokes_constraint.c:352-353 -/
noncomputable def Gamma_U2D1D2 (x : In) : ℝ :=
  x.ChrisConf_UDD 2 1 2 + c_U2D1D2 x

/-- obs_ADM_J_Stokes_constraint.c:355-356 -/
noncomputable def Gamma_U2D0D2 (x : In) : ℝ :=
  x.ChrisConf_UDD 2 0 2 + c_U2D0D2 x

/-- obs_ADM_J_Stokes_constraint.c:358-359 -/
noncomputable def Gamma_U0D0D1 (x : In) : ℝ :=
  x.ChrisConf_UDD 0 0 1 + c_U0D0D1 x

/-- obs_ADM_J_Stokes_constraint.c:361-362 -/
noncomputable def Gamma_U2D0D0 (x : In) : ℝ :=
  x.ChrisConf_UDD 2 0 0 + c_U2D0D0 x

/-- obs_ADM_J_Stokes_constraint.c:364-365 -/
noncomputable def Gamma_U0D0D0 (x : In) : ℝ :=
  x.ChrisConf_UDD 0 0 0 + c_U0D0D0 x

/-- obs_ADM_J_Stokes_constraint.c:367-368 -/
noncomputable def Gamma_U1D1D1 (x : In) : ℝ :=
  x.ChrisConf_UDD 1 1 1 + c_U1D1D1 x

/-- obs_ADM_J_Stokes_constraint.c:370-371 -/
noncomputable def Gamma_U0D1D1 (x : In) : ℝ :=
  x.ChrisConf_UDD 0 1 1 + c_U0D1D1 x

/-- obs_ADM_J_Stokes_constraint.c:373-374 -/
noncomputable def Gamma_U0D1D2 (x : In) : ℝ :=
  x.ChrisConf_UDD 0 1 2 + c_U0D1D2 x

/-- obs_ADM_J_Stokes_constraint.c:376-377 -/
noncomputable def Gamma_U1D1D2 (x : In) : ℝ :=
  x.ChrisConf_UDD 1 1 2 + c_U1D1D2 x

/-- obs_ADM_J_Stokes_constraint.c:379-380 -/
noncomputable def Gamma_U2D1D1 (x : In) : ℝ :=
  x.ChrisConf_UDD 2 1 1 + c_U2D1D1 x

/-- obs_ADM_J_Stokes_constraint.c:382-388 -/
noncomputable def mom_D2D2 (x : In) : ℝ :=
  -(2 / 3) * x.gConf_DD 2 2 * psi4_ x * x.trK + psim2_ x * (x.AConfIJ_UU 0 0 * (x.gConf_DD 0 2) ^ 2 + 2 * x.AConfIJ_UU 0 1 *
      x.gConf_DD 0 2 * x.gConf_DD 1 2 + 2 * x.AConfIJ_UU 0 2 * x.gConf_DD 0 2 * x.gConf_DD 2 2 + x.AConfIJ_UU 1 1 * (x.gConf_DD
      1 2) ^ 2 + 2 * x.AConfIJ_UU 1 2 * x.gConf_DD 1 2 * x.gConf_DD 2 2 + x.AConfIJ_UU 2 2 * (x.gConf_DD 2 2) ^ 2)

/-- obs_ADM_J_Stokes_constraint.c:390-396 -/
noncomputable def mom_D1D1 (x : In) : ℝ :=
  -(2 / 3) * x.gConf_DD 1 1 * psi4_ x * x.trK + psim2_ x * (x.AConfIJ_UU 0 0 * (x.gConf_DD 0 1) ^ 2 + 2 * x.AConfIJ_UU 0 1 *
      x.gConf_DD 0 1 * x.gConf_DD 1 1 + 2 * x.AConfIJ_UU 0 2 * x.gConf_DD 0 1 * x.gConf_DD 1 2 + x.AConfIJ_UU 1 1 * (x.gConf_DD
      1 1) ^ 2 + 2 * x.AConfIJ_UU 1 2 * x.gConf_DD 1 1 * x.gConf_DD 1 2 + x.AConfIJ_UU 2 2 * (x.gConf_DD 1 2) ^ 2)

/-- obs_ADM_J_Stokes_constraint.c:398-406 -/
noncomputable def mom_D1D2 (x : In) : ℝ :=
  -(2 / 3) * x.gConf_DD 1 2 * psi4_ x * x.trK + psim2_ x * (x.AConfIJ_UU 0 0 * x.gConf_DD 0 1 * x.gConf_DD 0 2 + x.AConfIJ_UU 0
      1 * x.gConf_DD 0 1 * x.gConf_DD 1 2 + x.AConfIJ_UU 0 1 * x.gConf_DD 0 2 * x.gConf_DD 1 1 + x.AConfIJ_UU 0 2 * x.gConf_DD
      0 1 * x.gConf_DD 2 2 + x.AConfIJ_UU 0 2 * x.gConf_DD 0 2 * x.gConf_DD 1 2 + x.AConfIJ_UU 1 1 * x.gConf_DD 1 1 *
      x.gConf_DD 1 2 + x.AConfIJ_UU 1 2 * x.gConf_DD 1 1 * x.gConf_DD 2 2 + x.AConfIJ_UU 1 2 * (x.gConf_DD 1 2) ^ 2 +
      x.AConfIJ_UU 2 2 * x.gConf_DD 1 2 * x.gConf_DD 2 2)

/-- obs_ADM_J_Stokes_constraint.c:408-414 -/
noncomputable def mom_D0D0 (x : In) : ℝ :=
  -(2 / 3) * x.gConf_DD 0 0 * psi4_ x * x.trK + psim2_ x * (x.AConfIJ_UU 0 0 * (x.gConf_DD 0 0) ^ 2 + 2 * x.AConfIJ_UU 0 1 *
      x.gConf_DD 0 0 * x.gConf_DD 0 1 + 2 * x.AConfIJ_UU 0 2 * x.gConf_DD 0 0 * x.gConf_DD 0 2 + x.AConfIJ_UU 1 1 * (x.gConf_DD
      0 1) ^ 2 + 2 * x.AConfIJ_UU 1 2 * x.gConf_DD 0 1 * x.gConf_DD 0 2 + x.AConfIJ_UU 2 2 * (x.gConf_DD 0 2) ^ 2)

/-- obs_ADM_J_Stokes_constraint.c:416-425 -/
noncomputable def mom_D0D1 (x : In) : ℝ :=
  -(2 / 3) * x.gConf_DD 0 1 * psi4_ x * x.trK + psim2_ x * (x.AConfIJ_UU 0 0 * x.gConf_DD 0 0 * x.gConf_DD 0 1 + x.AConfIJ_UU 0
      1 * x.gConf_DD 0 0 * x.gConf_DD 1 1 + x.AConfIJ_UU 0 1 * (x.gConf_DD 0 1) ^ 2 + x.AConfIJ_UU 0 2 * x.gConf_DD 0 0 *
      x.gConf_DD 1 2 + x.AConfIJ_UU 0 2 * x.gConf_DD 0 1 * x.gConf_DD 0 2 + x.AConfIJ_UU 1 1 * x.gConf_DD 0 1 * x.gConf_DD 1 1
      + x.AConfIJ_UU 1 2 * x.gConf_DD 0 1 * x.gConf_DD 1 2 + x.AConfIJ_UU 1 2 * x.gConf_DD 0 2 * x.gConf_DD 1 1 + x.AConfIJ_UU
      2 2 * x.gConf_DD 0 2 * x.gConf_DD 1 2)

/-- obs_ADM_J_Stokes_constraint.c:427-435 -/
noncomputable def mom_D0D2 (x : In) : ℝ :=
  -(2 / 3) * x.gConf_DD 0 2 * psi4_ x * x.trK + psim2_ x * (x.AConfIJ_UU 0 0 * x.gConf_DD 0 0 * x.gConf_DD 0 2 + x.AConfIJ_UU 0
      1 * x.gConf_DD 0 0 * x.gConf_DD 1 2 + x.AConfIJ_UU 0 1 * x.gConf_DD 0 1 * x.gConf_DD 0 2 + x.AConfIJ_UU 0 2 * x.gConf_DD
      0 0 * x.gConf_DD 2 2 + x.AConfIJ_UU 0 2 * (x.gConf_DD 0 2) ^ 2 + x.AConfIJ_UU 1 1 * x.gConf_DD 0 1 * x.gConf_DD 1 2 +
      x.AConfIJ_UU 1 2 * x.gConf_DD 0 1 * x.gConf_DD 2 2 + x.AConfIJ_UU 1 2 * x.gConf_DD 0 2 * x.gConf_DD 1 2 + x.AConfIJ_UU 2
      2 * x.gConf_DD 0 2 * x.gConf_DD 2 2)

/-- obs_ADM_J_Stokes_constraint.c:437-438 -/
noncomputable def Phi_U1D2 (x : In) : ℝ :=
  x.x_xCM_U 0

/-- obs_ADM_J_Stokes_constraint.c:440-441 -/
noncomputable def Phi_U0D2 (x : In) : ℝ :=
  -x.x_xCM_U 1

/-- obs_ADM_J_Stokes_constraint.c:443-444 -/
noncomputable def Phi_U0D1 (x : In) : ℝ :=
  x.x_xCM_U 2

/-- obs_ADM_J_Stokes_constraint.c:446-447 -/
noncomputable def Phi_U0D0 (x : In) : ℝ :=
  0

/-- obs_ADM_J_Stokes_constraint.c:449-450 -/
noncomputable def Phi_U1D0 (x : In) : ℝ :=
  -x.x_xCM_U 2

/-- obs_ADM_J_Stokes_constraint.c:452-453 -/
noncomputable def Phi_U1D1 (x : In) : ℝ :=
  0

/-- obs_ADM_J_Stokes_constraint.c:455-456 -/
noncomputable def Phi_U2D1 (x : In) : ℝ :=
  -x.x_xCM_U 0

/-- obs_ADM_J_Stokes_constraint.c:458-459 -/
noncomputable def Phi_U2D0 (x : In) : ℝ :=
  x.x_xCM_U 1

/-- obs_ADM_J_Stokes_constraint.c:461-462 -/
noncomputable def Phi_U2D2 (x : In) : ℝ :=
  0

/-- obs_ADM_J_Stokes_constraint.c:464-465 -/
noncomputable def dPhi_U0D2U1 (x : In) : ℝ :=
  -1

/-- obs_ADM_J_Stokes_constraint.c:467-468 -/
noncomputable def dPhi_U0D2U0 (x : In) : ℝ :=
  0

/-- obs_ADM_J_Stokes_constraint.c:470-471 -/
noncomputable def dPhi_U0D2U2 (x : In) : ℝ :=
  0

/-- obs_ADM_J_Stokes_constraint.c:473-474 -/
noncomputable def dPhi_U2D2U2 (x : In) : ℝ :=
  0

/-- obs_ADM_J_Stokes_constraint.c:476-477 -/
noncomputable def dPhi_U2D2U1 (x : In) : ℝ :=
  0

/-- obs_ADM_J_Stokes_constraint.c:479-480 -/
noncomputable def dPhi_U2D2U0 (x : In) : ℝ :=
  0

/-- obs_ADM_J_Stokes_constraint.c:482-483 -/
noncomputable def dPhi_U0D1U2 (x : In) : ℝ :=
  1

/-- obs_ADM_J_Stokes_constraint.c:485-486 -/
noncomputable def dPhi_U0D1U0 (x : In) : ℝ :=
  0

/-- obs_ADM_J_Stokes_constraint.c:488-489 -/
noncomputable def dPhi_U0D1U1 (x : In) : ℝ :=
  0

/-- obs_ADM_J_Stokes_constraint.c:491-492 -/
noncomputable def dPhi_U2D0U1 (x : In) : ℝ :=
  1

/-- obs_ADM_J_Stokes_constraint.c:494-495 -/
noncomputable def dPhi_U2D0U0 (x : In) : ℝ :=
  0

/-- obs_ADM_J_Stokes_constraint.c:497-498 -/
noncomputable def dPhi_U2D0U2 (x : In) : ℝ :=
  0

/-- obs_ADM_J_Stokes_constraint.c:500-501 -/
noncomputable def dPhi_U2D1U0 (x : In) : ℝ :=
  -1

/-- obs_ADM_J_Stokes_constraint.c:503-504 -/
noncomputable def dPhi_U2D1U1 (x : In) : ℝ :=
  0

/-- obs_ADM_J_Stokes_constraint.c:506-507 -/
noncomputable def dPhi_U2D1U2 (x : In) : ℝ :=
  0

/-- obs_ADM_J_Stokes_constraint.c:509-510 -/
noncomputable def dPhi_U1D1U2 (x : In) : ℝ :=
  0

/-- obs_ADM_J_Stokes_constraint.c:512-513 -/
noncomputable def dPhi_U1D1U1 (x : In) : ℝ :=
  0

/-- obs_ADM_J_Stokes_constraint.c:515-516 -/
noncomputable def dPhi_U1D1U0 (x : In) : ℝ :=
  0

/-- obs_ADM_J_Stokes_constraint.c:518-519 -/
noncomputable def dPhi_U1D0U2 (x : In) : ℝ :=
  -1

/-- obs_ADM_J_Stokes_constraint.c:521-522 -/
noncomputable def dPhi_U1D0U0 (x : In) : ℝ :=
  0

/-- obs_ADM_J_Stokes_constraint.c:524-525 -/
noncomputable def dPhi_U1D0U1 (x : In) : ℝ :=
  0

/-- obs_ADM_J_Stokes_constraint.c:527-528 -/
noncomputable def dPhi_U1D2U0 (x : In) : ℝ :=
  1

/-- obs_ADM_J_Stokes_constraint.c:530-531 -/
noncomputable def dPhi_U1D2U1 (x : In) : ℝ :=
  0

/-- obs_ADM_J_Stokes_constraint.c:533-534 -/
noncomputable def dPhi_U1D2U2 (x : In) : ℝ :=
  0

/-- obs_ADM_J_Stokes_constraint.c:536-537 -/
noncomputable def dPhi_U0D0U2 (x : In) : ℝ :=
  0

/-- obs_ADM_J_Stokes_constraint.c:539-540 -/
noncomputable def dPhi_U0D0U1 (x : In) : ℝ :=
  0

/-- obs_ADM_J_Stokes_constraint.c:542-543 -/
noncomputable def dPhi_U0D0U0 (x : In) : ℝ :=
  0

/-- obs_ADM_J_Stokes_constraint.c:545-547 -/
noncomputable def Dphi_U1D0U2 (x : In) : ℝ :=
  Gamma_U1D0D2 x * Phi_U0D0 x + Gamma_U1D1D2 x * Phi_U1D0 x + Gamma_U1D2D2 x * Phi_U2D0 x + dPhi_U1D0U2 x

/-- obs_ADM_J_Stokes_constraint.c:549-551 -/
noncomputable def Dphi_U1D0U0 (x : In) : ℝ :=
  Gamma_U1D0D0 x * Phi_U0D0 x + Gamma_U1D0D1 x * Phi_U1D0 x + Gamma_U1D0D2 x * Phi_U2D0 x + dPhi_U1D0U0 x

/-- obs_ADM_J_Stokes_constraint.c:553-555 -/
noncomputable def Dphi_U1D0U1 (x : In) : ℝ :=
  Gamma_U1D0D1 x * Phi_U0D0 x + Gamma_U1D1D1 x * Phi_U1D0 x + Gamma_U1D1D2 x * Phi_U2D0 x + dPhi_U1D0U1 x

/-- obs_ADM_J_Stokes_constraint.c:557-559 -/
noncomputable def Dphi_U1D2U0 (x : In) : ℝ :=
  Gamma_U1D0D0 x * Phi_U0D2 x + Gamma_U1D0D1 x * Phi_U1D2 x + Gamma_U1D0D2 x * Phi_U2D2 x + dPhi_U1D2U0 x

/-- obs_ADM_J_Stokes_constraint.c:561-563 -/
noncomputable def Dphi_U1D2U1 (x : In) : ℝ :=
  Gamma_U1D0D1 x * Phi_U0D2 x + Gamma_U1D1D1 x * Phi_U1D2 x + Gamma_U1D1D2 x * Phi_U2D2 x + dPhi_U1D2U1 x

/-- obs_ADM_J_Stokes_constraint.c:565-567 -/
noncomputable def Dphi_U1D2U2 (x : In) : ℝ :=
  Gamma_U1D0D2 x * Phi_U0D2 x + Gamma_U1D1D2 x * Phi_U1D2 x + Gamma_U1D2D2 x * Phi_U2D2 x + dPhi_U1D2U2 x

/-- obs_ADM_J_Stokes_constraint.c:569-571 -/
noncomputable def Dphi_U0D0U2 (x : In) : ℝ :=
  Gamma_U0D0D2 x * Phi_U0D0 x + Gamma_U0D1D2 x * Phi_U1D0 x + Gamma_U0D2D2 x * Phi_U2D0 x + dPhi_U0D0U2 x

/-- obs_ADM_J_Stokes_constraint.c:573-575 -/
noncomputable def Dphi_U0D0U1 (x : In) : ℝ :=
  Gamma_U0D0D1 x * Phi_U0D0 x + Gamma_U0D1D1 x * Phi_U1D0 x + Gamma_U0D1D2 x * Phi_U2D0 x + dPhi_U0D0U1 x

/-- obs_ADM_J_Stokes_constraint.c:577-579 -/
noncomputable def Dphi_U0D0U0 (x : In) : ℝ :=
  Gamma_U0D0D0 x * Phi_U0D0 x + Gamma_U0D0D1 x * Phi_U1D0 x + Gamma_U0D0D2 x * Phi_U2D0 x + dPhi_U0D0U0 x

/-- obs_ADM_J_Stokes_constraint.c:581-583 -/
noncomputable def Dphi_U0D2U1 (x : In) : ℝ :=
  Gamma_U0D0D1 x * Phi_U0D2 x + Gamma_U0D1D1 x * Phi_U1D2 x + Gamma_U0D1D2 x * Phi_U2D2 x + dPhi_U0D2U1 x

/-- obs_ADM_J_Stokes_constraint.c:585-587 -/
noncomputable def Dphi_U0D2U0 (x : In) : ℝ :=
  Gamma_U0D0D0 x * Phi_U0D2 x + Gamma_U0D0D1 x * Phi_U1D2 x + Gamma_U0D0D2 x * Phi_U2D2 x + dPhi_U0D2U0 x

/-- obs_ADM_J_Stokes_constraint.c:589-591 -/
noncomputable def Dphi_U0D2U2 (x : In) : ℝ :=
  Gamma_U0D0D2 x * Phi_U0D2 x + Gamma_U0D1D2 x * Phi_U1D2 x + Gamma_U0D2D2 x * Phi_U2D2 x + dPhi_U0D2U2 x

/-- obs_ADM_J_Stokes_constraint.c:593-595 -/
noncomputable def Dphi_U2D2U2 (x : In) : ℝ :=
  Gamma_U2D0D2 x * Phi_U0D2 x + Gamma_U2D1D2 x * Phi_U1D2 x + Gamma_U2D2D2 x * Phi_U2D2 x + dPhi_U2D2U2 x

/-- obs_ADM_J_Stokes_constraint.c:597-599 -/
noncomputable def Dphi_U2D2U1 (x : In) : ℝ :=
  Gamma_U2D0D1 x * Phi_U0D2 x + Gamma_U2D1D1 x * Phi_U1D2 x + Gamma_U2D1D2 x * Phi_U2D2 x + dPhi_U2D2U1 x

/-- obs_ADM_J_Stokes_constraint.c:601-603 -/
noncomputable def Dphi_U2D2U0 (x : In) : ℝ :=
  Gamma_U2D0D0 x * Phi_U0D2 x + Gamma_U2D0D1 x * Phi_U1D2 x + Gamma_U2D0D2 x * Phi_U2D2 x + dPhi_U2D2U0 x

/-- obs_ADM_J_Stokes_constraint.c:605-607 -/
noncomputable def Dphi_U0D1U2 (x : In) : ℝ :=
  Gamma_U0D0D2 x * Phi_U0D1 x + Gamma_U0D1D2 x * Phi_U1D1 x + Gamma_U0D2D2 x * Phi_U2D1 x + dPhi_U0D1U2 x

/-- obs_ADM_J_Stokes_constraint.c:609-611 -/
noncomputable def Dphi_U0D1U0 (x : In) : ℝ :=
  Gamma_U0D0D0 x * Phi_U0D1 x + Gamma_U0D0D1 x * Phi_U1D1 x + Gamma_U0D0D2 x * Phi_U2D1 x + dPhi_U0D1U0 x

/-- obs_ADM_J_Stokes_constraint.c:613-615 -/
noncomputable def Dphi_U0D1U1 (x : In) : ℝ :=
  Gamma_U0D0D1 x * Phi_U0D1 x + Gamma_U0D1D1 x * Phi_U1D1 x + Gamma_U0D1D2 x * Phi_U2D1 x + dPhi_U0D1U1 x

/-- obs_ADM_J_Stokes_constraint.c:617-619 -/
noncomputable def Dphi_U2D0U1 (x : In) : ℝ :=
  Gamma_U2D0D1 x * Phi_U0D0 x + Gamma_U2D1D1 x * Phi_U1D0 x + Gamma_U2D1D2 x * Phi_U2D0 x + dPhi_U2D0U1 x

/-- obs_ADM_J_Stokes_constraint.c:621-623 -/
noncomputable def Dphi_U2D0U0 (x : In) : ℝ :=
  Gamma_U2D0D0 x * Phi_U0D0 x + Gamma_U2D0D1 x * Phi_U1D0 x + Gamma_U2D0D2 x * Phi_U2D0 x + dPhi_U2D0U0 x

/-- obs_ADM_J_Stokes_constraint.c:625-627 -/
noncomputable def Dphi_U2D0U2 (x : In) : ℝ :=
  Gamma_U2D0D2 x * Phi_U0D0 x + Gamma_U2D1D2 x * Phi_U1D0 x + Gamma_U2D2D2 x * Phi_U2D0 x + dPhi_U2D0U2 x

/-- obs_ADM_J_Stokes_constraint.c:629-631 -/
noncomputable def Dphi_U2D1U0 (x : In) : ℝ :=
  Gamma_U2D0D0 x * Phi_U0D1 x + Gamma_U2D0D1 x * Phi_U1D1 x + Gamma_U2D0D2 x * Phi_U2D1 x + dPhi_U2D1U0 x

/-- obs_ADM_J_Stokes_constraint.c:633-635 -/
noncomputable def Dphi_U2D1U1 (x : In) : ℝ :=
  Gamma_U2D0D1 x * Phi_U0D1 x + Gamma_U2D1D1 x * Phi_U1D1 x + Gamma_U2D1D2 x * Phi_U2D1 x + dPhi_U2D1U1 x

/-- obs_ADM_J_Stokes_constraint.c:637-639 -/
noncomputable def Dphi_U2D1U2 (x : In) : ℝ :=
  Gamma_U2D0D2 x * Phi_U0D1 x + Gamma_U2D1D2 x * Phi_U1D1 x + Gamma_U2D2D2 x * Phi_U2D1 x + dPhi_U2D1U2 x

/-- obs_ADM_J_Stokes_constraint.c:641-643 -/
noncomputable def Dphi_U1D1U2 (x : In) : ℝ :=
  Gamma_U1D0D2 x * Phi_U0D1 x + Gamma_U1D1D2 x * Phi_U1D1 x + Gamma_U1D2D2 x * Phi_U2D1 x + dPhi_U1D1U2 x

/-- obs_ADM_J_Stokes_constraint.c:645-647 -/
noncomputable def Dphi_U1D1U1 (x : In) : ℝ :=
  Gamma_U1D0D1 x * Phi_U0D1 x + Gamma_U1D1D1 x * Phi_U1D1 x + Gamma_U1D1D2 x * Phi_U2D1 x + dPhi_U1D1U1 x

/-- obs_ADM_J_Stokes_constraint.c:649-651 -/
noncomputable def Dphi_U1D1U0 (x : In) : ℝ :=
  Gamma_U1D0D0 x * Phi_U0D1 x + Gamma_U1D0D1 x * Phi_U1D1 x + Gamma_U1D0D2 x * Phi_U2D1 x + dPhi_U1D1U0 x

/-- obs_ADM_J_Stokes_constraint.c:653-670 -/
noncomputable def Jv_D2 (x : In) : ℝ :=
  psim4_ x * (Dphi_U0D2U0 x * x.igConf_UU 0 0 * mom_D0D0 x + Dphi_U0D2U0 x * x.igConf_UU 0 1 * mom_D0D1 x + Dphi_U0D2U0 x *
      x.igConf_UU 0 2 * mom_D0D2 x + Dphi_U0D2U1 x * x.igConf_UU 0 1 * mom_D0D0 x + Dphi_U0D2U1 x * x.igConf_UU 1 1 * mom_D0D1
      x + Dphi_U0D2U1 x * x.igConf_UU 1 2 * mom_D0D2 x + Dphi_U0D2U2 x * x.igConf_UU 0 2 * mom_D0D0 x + Dphi_U0D2U2 x *
      x.igConf_UU 1 2 * mom_D0D1 x + Dphi_U0D2U2 x * x.igConf_UU 2 2 * mom_D0D2 x + Dphi_U1D2U0 x * x.igConf_UU 0 0 * mom_D0D1
      x + Dphi_U1D2U0 x * x.igConf_UU 0 1 * mom_D1D1 x + Dphi_U1D2U0 x * x.igConf_UU 0 2 * mom_D1D2 x + Dphi_U1D2U1 x *
      x.igConf_UU 0 1 * mom_D0D1 x + Dphi_U1D2U1 x * x.igConf_UU 1 1 * mom_D1D1 x + Dphi_U1D2U1 x * x.igConf_UU 1 2 * mom_D1D2
      x + Dphi_U1D2U2 x * x.igConf_UU 0 2 * mom_D0D1 x + Dphi_U1D2U2 x * x.igConf_UU 1 2 * mom_D1D1 x + Dphi_U1D2U2 x *
      x.igConf_UU 2 2 * mom_D1D2 x + Dphi_U2D2U0 x * x.igConf_UU 0 0 * mom_D0D2 x + Dphi_U2D2U0 x * x.igConf_UU 0 1 * mom_D1D2
      x + Dphi_U2D2U0 x * x.igConf_UU 0 2 * mom_D2D2 x + Dphi_U2D2U1 x * x.igConf_UU 0 1 * mom_D0D2 x + Dphi_U2D2U1 x *
      x.igConf_UU 1 1 * mom_D1D2 x + Dphi_U2D2U1 x * x.igConf_UU 1 2 * mom_D2D2 x + Dphi_U2D2U2 x * x.igConf_UU 0 2 * mom_D0D2
      x + Dphi_U2D2U2 x * x.igConf_UU 1 2 * mom_D1D2 x + Dphi_U2D2U2 x * x.igConf_UU 2 2 * mom_D2D2 x)

/-- obs_ADM_J_Stokes_constraint.c:672-689 -/
noncomputable def Jv_D0 (x : In) : ℝ :=
  psim4_ x * (Dphi_U0D0U0 x * x.igConf_UU 0 0 * mom_D0D0 x + Dphi_U0D0U0 x * x.igConf_UU 0 1 * mom_D0D1 x + Dphi_U0D0U0 x *
      x.igConf_UU 0 2 * mom_D0D2 x + Dphi_U0D0U1 x * x.igConf_UU 0 1 * mom_D0D0 x + Dphi_U0D0U1 x * x.igConf_UU 1 1 * mom_D0D1
      x + Dphi_U0D0U1 x * x.igConf_UU 1 2 * mom_D0D2 x + Dphi_U0D0U2 x * x.igConf_UU 0 2 * mom_D0D0 x + Dphi_U0D0U2 x *
      x.igConf_UU 1 2 * mom_D0D1 x + Dphi_U0D0U2 x * x.igConf_UU 2 2 * mom_D0D2 x + Dphi_U1D0U0 x * x.igConf_UU 0 0 * mom_D0D1
      x + Dphi_U1D0U0 x * x.igConf_UU 0 1 * mom_D1D1 x + Dphi_U1D0U0 x * x.igConf_UU 0 2 * mom_D1D2 x + Dphi_U1D0U1 x *
      x.igConf_UU 0 1 * mom_D0D1 x + Dphi_U1D0U1 x * x.igConf_UU 1 1 * mom_D1D1 x + Dphi_U1D0U1 x * x.igConf_UU 1 2 * mom_D1D2
      x + Dphi_U1D0U2 x * x.igConf_UU 0 2 * mom_D0D1 x + Dphi_U1D0U2 x * x.igConf_UU 1 2 * mom_D1D1 x + Dphi_U1D0U2 x *
      x.igConf_UU 2 2 * mom_D1D2 x + Dphi_U2D0U0 x * x.igConf_UU 0 0 * mom_D0D2 x + Dphi_U2D0U0 x * x.igConf_UU 0 1 * mom_D1D2
      x + Dphi_U2D0U0 x * x.igConf_UU 0 2 * mom_D2D2 x + Dphi_U2D0U1 x * x.igConf_UU 0 1 * mom_D0D2 x + Dphi_U2D0U1 x *
      x.igConf_UU 1 1 * mom_D1D2 x + Dphi_U2D0U1 x * x.igConf_UU 1 2 * mom_D2D2 x + Dphi_U2D0U2 x * x.igConf_UU 0 2 * mom_D0D2
      x + Dphi_U2D0U2 x * x.igConf_UU 1 2 * mom_D1D2 x + Dphi_U2D0U2 x * x.igConf_UU 2 2 * mom_D2D2 x)

/-- obs_ADM_J_Stokes_constraint.c:691-708 -/
noncomputable def Jv_D1 (x : In) : ℝ :=
  psim4_ x * (Dphi_U0D1U0 x * x.igConf_UU 0 0 * mom_D0D0 x + Dphi_U0D1U0 x * x.igConf_UU 0 1 * mom_D0D1 x + Dphi_U0D1U0 x *
      x.igConf_UU 0 2 * mom_D0D2 x + Dphi_U0D1U1 x * x.igConf_UU 0 1 * mom_D0D0 x + Dphi_U0D1U1 x * x.igConf_UU 1 1 * mom_D0D1
      x + Dphi_U0D1U1 x * x.igConf_UU 1 2 * mom_D0D2 x + Dphi_U0D1U2 x * x.igConf_UU 0 2 * mom_D0D0 x + Dphi_U0D1U2 x *
      x.igConf_UU 1 2 * mom_D0D1 x + Dphi_U0D1U2 x * x.igConf_UU 2 2 * mom_D0D2 x + Dphi_U1D1U0 x * x.igConf_UU 0 0 * mom_D0D1
      x + Dphi_U1D1U0 x * x.igConf_UU 0 1 * mom_D1D1 x + Dphi_U1D1U0 x * x.igConf_UU 0 2 * mom_D1D2 x + Dphi_U1D1U1 x *
      x.igConf_UU 0 1 * mom_D0D1 x + Dphi_U1D1U1 x * x.igConf_UU 1 1 * mom_D1D1 x + Dphi_U1D1U1 x * x.igConf_UU 1 2 * mom_D1D2
      x + Dphi_U1D1U2 x * x.igConf_UU 0 2 * mom_D0D1 x + Dphi_U1D1U2 x * x.igConf_UU 1 2 * mom_D1D1 x + Dphi_U1D1U2 x *
      x.igConf_UU 2 2 * mom_D1D2 x + Dphi_U2D1U0 x * x.igConf_UU 0 0 * mom_D0D2 x + Dphi_U2D1U0 x * x.igConf_UU 0 1 * mom_D1D2
      x + Dphi_U2D1U0 x * x.igConf_UU 0 2 * mom_D2D2 x + Dphi_U2D1U1 x * x.igConf_UU 0 1 * mom_D0D2 x + Dphi_U2D1U1 x *
      x.igConf_UU 1 1 * mom_D1D2 x + Dphi_U2D1U1 x * x.igConf_UU 1 2 * mom_D2D2 x + Dphi_U2D1U2 x * x.igConf_UU 0 2 * mom_D0D2
      x + Dphi_U2D1U2 x * x.igConf_UU 1 2 * mom_D1D2 x + Dphi_U2D1U2 x * x.igConf_UU 2 2 * mom_D2D2 x)

/-- obs_ADM_J_Stokes_constraint.c:214-216 the values written to obs__Js_D; `none`: not stored -/
noncomputable def out_obs__Js_D (x : In) : Fin 3 → Option ℝ
  | 2 => some (Js_D2 x)
  | 0 => some (Js_D0 x)
  | 1 => some (Js_D1 x)

/-- obs_ADM_J_Stokes_constraint.c:712-714 the values written to obs__Jv_D; `none`: not stored -/
noncomputable def out_obs__Jv_D (x : In) : Fin 3 → Option ℝ
  | 1 => some (Jv_D1 x)
  | 0 => some (Jv_D0 x)
  | 2 => some (Jv_D2 x)

end Elliptica.Gen.Obs.JConstr

namespace Elliptica.Gen.Obs.SpinC

/-- obs_spin_inegrands_Campanelli.c:64-65 -/
noncomputable def psim2 (x : In) : ℝ :=
  (x.psi ^ 2)⁻¹

/-- obs_spin_inegrands_Campanelli.c:67-90 -/
noncomputable def Pn_U2 (x : In) : ℝ :=
  psim2 x * (x.AConfIJ_UU 0 0 * x.gConf_DD 0 0 * x.gConf_DD 0 2 * x.n_U 0 + x.AConfIJ_UU 0 0 * x.gConf_DD 0 1 * x.gConf_DD 0 2
      * x.n_U 1 + x.AConfIJ_UU 0 0 * (x.gConf_DD 0 2) ^ 2 * x.n_U 2 + x.AConfIJ_UU 0 1 * x.gConf_DD 0 0 * x.gConf_DD 1 2 *
      x.n_U 0 + x.AConfIJ_UU 0 1 * x.gConf_DD 0 1 * x.gConf_DD 0 2 * x.n_U 0 + x.AConfIJ_UU 0 1 * x.gConf_DD 0 1 * x.gConf_DD 1
      2 * x.n_U 1 + x.AConfIJ_UU 0 1 * x.gConf_DD 0 2 * x.gConf_DD 1 1 * x.n_U 1 + 2 * x.AConfIJ_UU 0 1 * x.gConf_DD 0 2 *
      x.gConf_DD 1 2 * x.n_U 2 + x.AConfIJ_UU 0 2 * x.gConf_DD 0 0 * x.gConf_DD 2 2 * x.n_U 0 + x.AConfIJ_UU 0 2 * x.gConf_DD 0
      1 * x.gConf_DD 2 2 * x.n_U 1 + x.AConfIJ_UU 0 2 * (x.gConf_DD 0 2) ^ 2 * x.n_U 0 + x.AConfIJ_UU 0 2 * x.gConf_DD 0 2 *
      x.gConf_DD 1 2 * x.n_U 1 + 2 * x.AConfIJ_UU 0 2 * x.gConf_DD 0 2 * x.gConf_DD 2 2 * x.n_U 2 + x.AConfIJ_UU 1 1 *
      x.gConf_DD 0 1 * x.gConf_DD 1 2 * x.n_U 0 + x.AConfIJ_UU 1 1 * x.gConf_DD 1 1 * x.gConf_DD 1 2 * x.n_U 1 + x.AConfIJ_UU 1
      1 * (x.gConf_DD 1 2) ^ 2 * x.n_U 2 + x.AConfIJ_UU 1 2 * x.gConf_DD 0 1 * x.gConf_DD 2 2 * x.n_U 0 + x.AConfIJ_UU 1 2 *
      x.gConf_DD 0 2 * x.gConf_DD 1 2 * x.n_U 0 + x.AConfIJ_UU 1 2 * x.gConf_DD 1 1 * x.gConf_DD 2 2 * x.n_U 1 + x.AConfIJ_UU 1
      2 * (x.gConf_DD 1 2) ^ 2 * x.n_U 1 + 2 * x.AConfIJ_UU 1 2 * x.gConf_DD 1 2 * x.gConf_DD 2 2 * x.n_U 2 + x.AConfIJ_UU 2 2
      * x.gConf_DD 0 2 * x.gConf_DD 2 2 * x.n_U 0 + x.AConfIJ_UU 2 2 * x.gConf_DD 1 2 * x.gConf_DD 2 2 * x.n_U 1 + x.AConfIJ_UU
      2 2 * (x.gConf_DD 2 2) ^ 2 * x.n_U 2)

/-- obs_spin_inegrands_Campanelli.c:92-115 -/
noncomputable def Pn_U1 (x : In) : ℝ :=
  psim2 x * (x.AConfIJ_UU 0 0 * x.gConf_DD 0 0 * x.gConf_DD 0 1 * x.n_U 0 + x.AConfIJ_UU 0 0 * (x.gConf_DD 0 1) ^ 2 * x.n_U 1 +
      x.AConfIJ_UU 0 0 * x.gConf_DD 0 1 * x.gConf_DD 0 2 * x.n_U 2 + x.AConfIJ_UU 0 1 * x.gConf_DD 0 0 * x.gConf_DD 1 1 * x.n_U
      0 + x.AConfIJ_UU 0 1 * (x.gConf_DD 0 1) ^ 2 * x.n_U 0 + 2 * x.AConfIJ_UU 0 1 * x.gConf_DD 0 1 * x.gConf_DD 1 1 * x.n_U 1
      + x.AConfIJ_UU 0 1 * x.gConf_DD 0 1 * x.gConf_DD 1 2 * x.n_U 2 + x.AConfIJ_UU 0 1 * x.gConf_DD 0 2 * x.gConf_DD 1 1 *
      x.n_U 2 + x.AConfIJ_UU 0 2 * x.gConf_DD 0 0 * x.gConf_DD 1 2 * x.n_U 0 + x.AConfIJ_UU 0 2 * x.gConf_DD 0 1 * x.gConf_DD 0
      2 * x.n_U 0 + 2 * x.AConfIJ_UU 0 2 * x.gConf_DD 0 1 * x.gConf_DD 1 2 * x.n_U 1 + x.AConfIJ_UU 0 2 * x.gConf_DD 0 1 *
      x.gConf_DD 2 2 * x.n_U 2 + x.AConfIJ_UU 0 2 * x.gConf_DD 0 2 * x.gConf_DD 1 2 * x.n_U 2 + x.AConfIJ_UU 1 1 * x.gConf_DD 0
      1 * x.gConf_DD 1 1 * x.n_U 0 + x.AConfIJ_UU 1 1 * (x.gConf_DD 1 1) ^ 2 * x.n_U 1 + x.AConfIJ_UU 1 1 * x.gConf_DD 1 1 *
      x.gConf_DD 1 2 * x.n_U 2 + x.AConfIJ_UU 1 2 * x.gConf_DD 0 1 * x.gConf_DD 1 2 * x.n_U 0 + x.AConfIJ_UU 1 2 * x.gConf_DD 0
      2 * x.gConf_DD 1 1 * x.n_U 0 + 2 * x.AConfIJ_UU 1 2 * x.gConf_DD 1 1 * x.gConf_DD 1 2 * x.n_U 1 + x.AConfIJ_UU 1 2 *
      x.gConf_DD 1 1 * x.gConf_DD 2 2 * x.n_U 2 + x.AConfIJ_UU 1 2 * (x.gConf_DD 1 2) ^ 2 * x.n_U 2 + x.AConfIJ_UU 2 2 *
      x.gConf_DD 0 2 * x.gConf_DD 1 2 * x.n_U 0 + x.AConfIJ_UU 2 2 * (x.gConf_DD 1 2) ^ 2 * x.n_U 1 + x.AConfIJ_UU 2 2 *
      x.gConf_DD 1 2 * x.gConf_DD 2 2 * x.n_U 2)

/-- obs_spin_inegrands_Campanelli.c:117-141 -/
noncomputable def Pn_U0 (x : In) : ℝ :=
  psim2 x * (x.AConfIJ_UU 0 0 * (x.gConf_DD 0 0) ^ 2 * x.n_U 0 + x.AConfIJ_UU 0 0 * x.gConf_DD 0 0 * x.gConf_DD 0 1 * x.n_U 1 +
      x.AConfIJ_UU 0 0 * x.gConf_DD 0 0 * x.gConf_DD 0 2 * x.n_U 2 + 2 * x.AConfIJ_UU 0 1 * x.gConf_DD 0 0 * x.gConf_DD 0 1 *
      x.n_U 0 + x.AConfIJ_UU 0 1 * x.gConf_DD 0 0 * x.gConf_DD 1 1 * x.n_U 1 + x.AConfIJ_UU 0 1 * x.gConf_DD 0 0 * x.gConf_DD 1
      2 * x.n_U 2 + x.AConfIJ_UU 0 1 * (x.gConf_DD 0 1) ^ 2 * x.n_U 1 + x.AConfIJ_UU 0 1 * x.gConf_DD 0 1 * x.gConf_DD 0 2 *
      x.n_U 2 + 2 * x.AConfIJ_UU 0 2 * x.gConf_DD 0 0 * x.gConf_DD 0 2 * x.n_U 0 + x.AConfIJ_UU 0 2 * x.gConf_DD 0 0 *
      x.gConf_DD 1 2 * x.n_U 1 + x.AConfIJ_UU 0 2 * x.gConf_DD 0 0 * x.gConf_DD 2 2 * x.n_U 2 + x.AConfIJ_UU 0 2 * x.gConf_DD 0
      1 * x.gConf_DD 0 2 * x.n_U 1 + x.AConfIJ_UU 0 2 * (x.gConf_DD 0 2) ^ 2 * x.n_U 2 + x.AConfIJ_UU 1 1 * (x.gConf_DD 0 1) ^
      2 * x.n_U 0 + x.AConfIJ_UU 1 1 * x.gConf_DD 0 1 * x.gConf_DD 1 1 * x.n_U 1 + x.AConfIJ_UU 1 1 * x.gConf_DD 0 1 *
      x.gConf_DD 1 2 * x.n_U 2 + 2 * x.AConfIJ_UU 1 2 * x.gConf_DD 0 1 * x.gConf_DD 0 2 * x.n_U 0 + x.AConfIJ_UU 1 2 *
      x.gConf_DD 0 1 * x.gConf_DD 1 2 * x.n_U 1 + x.AConfIJ_UU 1 2 * x.gConf_DD 0 1 * x.gConf_DD 2 2 * x.n_U 2 + x.AConfIJ_UU 1
      2 * x.gConf_DD 0 2 * x.gConf_DD 1 1 * x.n_U 1 + x.AConfIJ_UU 1 2 * x.gConf_DD 0 2 * x.gConf_DD 1 2 * x.n_U 2 +
      x.AConfIJ_UU 2 2 * (x.gConf_DD 0 2) ^ 2 * x.n_U 0 + x.AConfIJ_UU 2 2 * x.gConf_DD 0 2 * x.gConf_DD 1 2 * x.n_U 1 +
      x.AConfIJ_UU 2 2 * x.gConf_DD 0 2 * x.gConf_DD 2 2 * x.n_U 2)

/-- obs_spin_inegrands_Campanelli.c:143-144 -/
noncomputable def xiP_U2 (x : In) : ℝ :=
  -Pn_U0 x * x.xi_U 1 + Pn_U1 x * x.xi_U 0

/-- obs_spin_inegrands_Campanelli.c:146-147 -/
noncomputable def xiP_U1 (x : In) : ℝ :=
  Pn_U0 x * x.xi_U 2 - Pn_U2 x * x.xi_U 0

/-- obs_spin_inegrands_Campanelli.c:149-150 -/
noncomputable def xiP_U0 (x : In) : ℝ :=
  -Pn_U1 x * x.xi_U 2 + Pn_U2 x * x.xi_U 1

/-- obs_spin_inegrands_Campanelli.c:154-156 the values written to SPIN_integrand_U; `none`: not stored -/
noncomputable def out_SPIN_integrand_U (x : In) : Fin 3 → Option ℝ
  | 0 => some (xiP_U0 x)
  | 1 => some (xiP_U1 x)
  | 2 => some (xiP_U2 x)

end Elliptica.Gen.Obs.SpinC

namespace Elliptica.Gen.Obs.SpinA

/-- obs_spin_inegrands_AKV.c:56-57 -/
noncomputable def psim2 (x : In) : ℝ :=
  (x.psi ^ 2)⁻¹

/-- obs_spin_inegrands_AKV.c:59-83 -/
noncomputable def Pn_D0 (x : In) : ℝ :=
  psim2 x * (x.AConfIJ_UU 0 0 * (x.gConf_DD 0 0) ^ 2 * x.n_U 0 + x.AConfIJ_UU 0 0 * x.gConf_DD 0 0 * x.gConf_DD 0 1 * x.n_U 1 +
      x.AConfIJ_UU 0 0 * x.gConf_DD 0 0 * x.gConf_DD 0 2 * x.n_U 2 + 2 * x.AConfIJ_UU 0 1 * x.gConf_DD 0 0 * x.gConf_DD 0 1 *
      x.n_U 0 + x.AConfIJ_UU 0 1 * x.gConf_DD 0 0 * x.gConf_DD 1 1 * x.n_U 1 + x.AConfIJ_UU 0 1 * x.gConf_DD 0 0 * x.gConf_DD 1
      2 * x.n_U 2 + x.AConfIJ_UU 0 1 * (x.gConf_DD 0 1) ^ 2 * x.n_U 1 + x.AConfIJ_UU 0 1 * x.gConf_DD 0 1 * x.gConf_DD 0 2 *
      x.n_U 2 + 2 * x.AConfIJ_UU 0 2 * x.gConf_DD 0 0 * x.gConf_DD 0 2 * x.n_U 0 + x.AConfIJ_UU 0 2 * x.gConf_DD 0 0 *
      x.gConf_DD 1 2 * x.n_U 1 + x.AConfIJ_UU 0 2 * x.gConf_DD 0 0 * x.gConf_DD 2 2 * x.n_U 2 + x.AConfIJ_UU 0 2 * x.gConf_DD 0
      1 * x.gConf_DD 0 2 * x.n_U 1 + x.AConfIJ_UU 0 2 * (x.gConf_DD 0 2) ^ 2 * x.n_U 2 + x.AConfIJ_UU 1 1 * (x.gConf_DD 0 1) ^
      2 * x.n_U 0 + x.AConfIJ_UU 1 1 * x.gConf_DD 0 1 * x.gConf_DD 1 1 * x.n_U 1 + x.AConfIJ_UU 1 1 * x.gConf_DD 0 1 *
      x.gConf_DD 1 2 * x.n_U 2 + 2 * x.AConfIJ_UU 1 2 * x.gConf_DD 0 1 * x.gConf_DD 0 2 * x.n_U 0 + x.AConfIJ_UU 1 2 *
      x.gConf_DD 0 1 * x.gConf_DD 1 2 * x.n_U 1 + x.AConfIJ_UU 1 2 * x.gConf_DD 0 1 * x.gConf_DD 2 2 * x.n_U 2 + x.AConfIJ_UU 1
      2 * x.gConf_DD 0 2 * x.gConf_DD 1 1 * x.n_U 1 + x.AConfIJ_UU 1 2 * x.gConf_DD 0 2 * x.gConf_DD 1 2 * x.n_U 2 +
      x.AConfIJ_UU 2 2 * (x.gConf_DD 0 2) ^ 2 * x.n_U 0 + x.AConfIJ_UU 2 2 * x.gConf_DD 0 2 * x.gConf_DD 1 2 * x.n_U 1 +
      x.AConfIJ_UU 2 2 * x.gConf_DD 0 2 * x.gConf_DD 2 2 * x.n_U 2)

/-- obs_spin_inegrands_AKV.c:85-108 -/
noncomputable def Pn_D1 (x : In) : ℝ :=
  psim2 x * (x.AConfIJ_UU 0 0 * x.gConf_DD 0 0 * x.gConf_DD 0 1 * x.n_U 0 + x.AConfIJ_UU 0 0 * (x.gConf_DD 0 1) ^ 2 * x.n_U 1 +
      x.AConfIJ_UU 0 0 * x.gConf_DD 0 1 * x.gConf_DD 0 2 * x.n_U 2 + x.AConfIJ_UU 0 1 * x.gConf_DD 0 0 * x.gConf_DD 1 1 * x.n_U
      0 + x.AConfIJ_UU 0 1 * (x.gConf_DD 0 1) ^ 2 * x.n_U 0 + 2 * x.AConfIJ_UU 0 1 * x.gConf_DD 0 1 * x.gConf_DD 1 1 * x.n_U 1
      + x.AConfIJ_UU 0 1 * x.gConf_DD 0 1 * x.gConf_DD 1 2 * x.n_U 2 + x.AConfIJ_UU 0 1 * x.gConf_DD 0 2 * x.gConf_DD 1 1 *
      x.n_U 2 + x.AConfIJ_UU 0 2 * x.gConf_DD 0 0 * x.gConf_DD 1 2 * x.n_U 0 + x.AConfIJ_UU 0 2 * x.gConf_DD 0 1 * x.gConf_DD 0
      2 * x.n_U 0 + 2 * x.AConfIJ_UU 0 2 * x.gConf_DD 0 1 * x.gConf_DD 1 2 * x.n_U 1 + x.AConfIJ_UU 0 2 * x.gConf_DD 0 1 *
      x.gConf_DD 2 2 * x.n_U 2 + x.AConfIJ_UU 0 2 * x.gConf_DD 0 2 * x.gConf_DD 1 2 * x.n_U 2 + x.AConfIJ_UU 1 1 * x.gConf_DD 0
      1 * x.gConf_DD 1 1 * x.n_U 0 + x.AConfIJ_UU 1 1 * (x.gConf_DD 1 1) ^ 2 * x.n_U 1 + x.AConfIJ_UU 1 1 * x.gConf_DD 1 1 *
      x.gConf_DD 1 2 * x.n_U 2 + x.AConfIJ_UU 1 2 * x.gConf_DD 0 1 * x.gConf_DD 1 2 * x.n_U 0 + x.AConfIJ_UU 1 2 * x.gConf_DD 0
      2 * x.gConf_DD 1 1 * x.n_U 0 + 2 * x.AConfIJ_UU 1 2 * x.gConf_DD 1 1 * x.gConf_DD 1 2 * x.n_U 1 + x.AConfIJ_UU 1 2 *
      x.gConf_DD 1 1 * x.gConf_DD 2 2 * x.n_U 2 + x.AConfIJ_UU 1 2 * (x.gConf_DD 1 2) ^ 2 * x.n_U 2 + x.AConfIJ_UU 2 2 *
      x.gConf_DD 0 2 * x.gConf_DD 1 2 * x.n_U 0 + x.AConfIJ_UU 2 2 * (x.gConf_DD 1 2) ^ 2 * x.n_U 1 + x.AConfIJ_UU 2 2 *
      x.gConf_DD 1 2 * x.gConf_DD 2 2 * x.n_U 2)

/-- obs_spin_inegrands_AKV.c:110-133 -/
noncomputable def Pn_D2 (x : In) : ℝ :=
  psim2 x * (x.AConfIJ_UU 0 0 * x.gConf_DD 0 0 * x.gConf_DD 0 2 * x.n_U 0 + x.AConfIJ_UU 0 0 * x.gConf_DD 0 1 * x.gConf_DD 0 2
      * x.n_U 1 + x.AConfIJ_UU 0 0 * (x.gConf_DD 0 2) ^ 2 * x.n_U 2 + x.AConfIJ_UU 0 1 * x.gConf_DD 0 0 * x.gConf_DD 1 2 *
      x.n_U 0 + x.AConfIJ_UU 0 1 * x.gConf_DD 0 1 * x.gConf_DD 0 2 * x.n_U 0 + x.AConfIJ_UU 0 1 * x.gConf_DD 0 1 * x.gConf_DD 1
      2 * x.n_U 1 + x.AConfIJ_UU 0 1 * x.gConf_DD 0 2 * x.gConf_DD 1 1 * x.n_U 1 + 2 * x.AConfIJ_UU 0 1 * x.gConf_DD 0 2 *
      x.gConf_DD 1 2 * x.n_U 2 + x.AConfIJ_UU 0 2 * x.gConf_DD 0 0 * x.gConf_DD 2 2 * x.n_U 0 + x.AConfIJ_UU 0 2 * x.gConf_DD 0
      1 * x.gConf_DD 2 2 * x.n_U 1 + x.AConfIJ_UU 0 2 * (x.gConf_DD 0 2) ^ 2 * x.n_U 0 + x.AConfIJ_UU 0 2 * x.gConf_DD 0 2 *
      x.gConf_DD 1 2 * x.n_U 1 + 2 * x.AConfIJ_UU 0 2 * x.gConf_DD 0 2 * x.gConf_DD 2 2 * x.n_U 2 + x.AConfIJ_UU 1 1 *
      x.gConf_DD 0 1 * x.gConf_DD 1 2 * x.n_U 0 + x.AConfIJ_UU 1 1 * x.gConf_DD 1 1 * x.gConf_DD 1 2 * x.n_U 1 + x.AConfIJ_UU 1
      1 * (x.gConf_DD 1 2) ^ 2 * x.n_U 2 + x.AConfIJ_UU 1 2 * x.gConf_DD 0 1 * x.gConf_DD 2 2 * x.n_U 0 + x.AConfIJ_UU 1 2 *
      x.gConf_DD 0 2 * x.gConf_DD 1 2 * x.n_U 0 + x.AConfIJ_UU 1 2 * x.gConf_DD 1 1 * x.gConf_DD 2 2 * x.n_U 1 + x.AConfIJ_UU 1
      2 * (x.gConf_DD 1 2) ^ 2 * x.n_U 1 + 2 * x.AConfIJ_UU 1 2 * x.gConf_DD 1 2 * x.gConf_DD 2 2 * x.n_U 2 + x.AConfIJ_UU 2 2
      * x.gConf_DD 0 2 * x.gConf_DD 2 2 * x.n_U 0 + x.AConfIJ_UU 2 2 * x.gConf_DD 1 2 * x.gConf_DD 2 2 * x.n_U 1 + x.AConfIJ_UU
      2 2 * (x.gConf_DD 2 2) ^ 2 * x.n_U 2)

/-- obs_spin_inegrands_AKV.c:135-137 -/
noncomputable def s0 (x : In) : ℝ :=
  x.AKV0_U 0 * Pn_D0 x + x.AKV0_U 1 * Pn_D1 x + x.AKV0_U 2 * Pn_D2 x

/-- obs_spin_inegrands_AKV.c:139-141 -/
noncomputable def s1 (x : In) : ℝ :=
  x.AKV1_U 0 * Pn_D0 x + x.AKV1_U 1 * Pn_D1 x + x.AKV1_U 2 * Pn_D2 x

/-- obs_spin_inegrands_AKV.c:143-145 -/
noncomputable def s2 (x : In) : ℝ :=
  x.AKV2_U 0 * Pn_D0 x + x.AKV2_U 1 * Pn_D1 x + x.AKV2_U 2 * Pn_D2 x

/-- obs_spin_inegrands_AKV.c:147-149 the values written to SPIN_integrand_U; `none`: not stored -/
noncomputable def out_SPIN_integrand_U (x : In) : Fin 3 → Option ℝ
  | 0 => some (s0 x)
  | 1 => some (s1 x)
  | 2 => some (s2 x)

end Elliptica.Gen.Obs.SpinA
