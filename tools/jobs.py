write('DiffGeom',[
 Job(DGP+'dg_Christoffel_symbol_3d.c','Elliptica.Gen.Christoffel'),
 Job(DGP+'dg_Ricci_3d.c','Elliptica.Gen.Ricci'),
])
def eqs(mod,ns,**files):
    write(mod,[Group('Elliptica.Gen.'+ns,[Job(EQP+'eq_XCTS_'+f+'.c','Elliptica.Gen.%s.%s'%(ns,k),skip=('d_df',)) for k,f in files.items()])])
eqs('EqPsi','Psi',Eq='crv_ex_T1_ddm_eq_psi',JacEq='crv_ex_T1_ddm_Jac_eq_psi',Bc='crv_ex_T1_ddm_bc_psi',JacBc='crv_ex_T1_ddm_Jac_bc_psi')
eqs('EqAlphaPsi','AlphaPsi',Eq='crv_ex_T1_ddm_eq_alphaPsi',JacEq='crv_ex_T1_ddm_Jac_eq_alphaPsi',Bc='crv_ex_T1_ddm_bc_alphaPsi',
    JacBc='crv_ex_T1_ddm_Jac_bc_alphaPsi',Bc2='crv_ex_T2_ddm_bc_alphaPsi',JacBc2='crv_ex_T2_ddm_Jac_bc_alphaPsi')
eqs('EqPhi','Phi',Eq='crv_T1_ddm_eq_phi',JacEq='crv_T1_ddm_Jac_eq_phi',Bc='crv_T1_ddm_bc_phi',JacBc='crv_T1_ddm_Jac_bc_phi',
    Eq2='crv_T2_ddm_eq_phi',Bc3='crv_T3_ddm_bc_phi',JacBc3='crv_T3_ddm_Jac_bc_phi')
write('EqB0',[Group('Elliptica.Gen.Shift',[Job(EQP+'eq_XCTS_'+f+'_B0_U'+k+'.c','Elliptica.Gen.Shift.%s%s'%(n,k)) for k in '012'
  for n,f in (('Eq','crv_ex_T1_ddm_eq'),('JacEq','crv_ex_T1_ddm_Jac_eq'),('Bc','crv_ex_T1_ddm_bc'),('JacBc','crv_ex_T1_ddm_Jac_bc'),('JacFlat','flt_ex_T1_ddm_Jac_eq'))])])
ADP='Src/Main/Modules/Physics/ADM/'
write('Adm',[Job(ADP+'adm_adm_g.c','Elliptica.Gen.AdmG'),Job(ADP+'adm_adm_KUU_by_AUU.c','Elliptica.Gen.KUUbyA'),
 Job(ADP+'adm_adm_KDD_by_AUU.c','Elliptica.Gen.KDDbyA'),Job(ADP+'adm_adm_KUU_by_KDD.c','Elliptica.Gen.KUUbyK')])
write('AConfIJ',[Job(ADP+'adm_AConfIJ_XCTS_MConfIJ0.c','Elliptica.Gen.Xcts'),Job(ADP+'adm_AConfIJ_SCTT_MConfIJ0.c','Elliptica.Gen.Sctt')])
write('AdmHamMom',[Job(ADP+'adm_ham_mom_from_scratch.c','Elliptica.Gen.HamScratch'),Job(ADP+'adm_ham_mom_from_identities.c','Elliptica.Gen.HamIdent')])
TIP='Src/Main/Modules/Physics/StressEnergy_Tensor/Tij_NS_ifluid_xcts_gConf_'
STP='Src/Main/Modules/Physics/Star/star_NS_'
EOSV=dict(p='eos_p',e0='eos_e0')
write('Fluid',[Group('Elliptica.Gen.Fluid',[Job(TIP+'u0.c','Elliptica.Gen.Fluid.U0'),
 Job(TIP+'enthalpy.c','Elliptica.Gen.Fluid.Enth',skip=('enthalpy',)),
 Job(TIP+'psi6E.c','Elliptica.Gen.Fluid.E',skip=('p',),rename=EOSV),Job(TIP+'psi6J_Ui.c','Elliptica.Gen.Fluid.J',skip=('p','e0'),rename=EOSV),
 Job(TIP+'psi6S.c','Elliptica.Gen.Fluid.S',skip=('p','e0'),rename=EOSV),
 Job(STP+'Euler_eq_const_current.c','Elliptica.Gen.Fluid.Euler'),Job(STP+'baryonic_gConf_mass.c','Elliptica.Gen.Fluid.Mass',skip=('NS_baryonic_mass',)),
 Job(STP+'ifluid_gConf_dLnGamma.c','Elliptica.Gen.Fluid.DLnGamma',skip=('g','dg','f')),
 Job(STP+'ifluid_gConf_force_bal.c','Elliptica.Gen.Fluid.Force',skip=('x0','y0','gt','dgt','f','D','Vr','dLnGamma','Omega','drf'))])],
 note='`eos_p`, `eos_e0`: pressure and specific internal energy returned by the equation of state at the enthalpy of the node.\n')
OBP='Src/Main/Modules/Physics/Observe/obs_'
OBS=('adm_mass','Komar_mass','att','r','CutOff','x_cm','y_cm','z_cm','x_xCM_U0','x_xCM_U1','x_xCM_U2','xi_U0','xi_U1','xi_U2','x_c','y_c','z_c')
def obs(f,n): return Job(OBP+f+'.c','Elliptica.Gen.Obs.'+n,skip=OBS)
write('Obs',[Group('Elliptica.Gen.Obs',[obs('ADM_mass_S2','MassS2'),obs('ADM_mass_SV_isotropic','MassIso'),obs('ADM_mass_SV_conformal','MassConf'),
 obs('Komar_mass','Komar'),obs('ADM_P_S_default','P'),obs('ADM_J_S_default','J'),obs('ADM_P_Stokes_Rashti','PRashti'),
 obs('ADM_P_Stokes_constraint','PConstr'),obs('ADM_P_Stokes_Ossokine','POss'),obs('ADM_J_Stokes_Ossokine','JOss'),obs('ADM_J_Stokes_constraint','JConstr'),
 obs('spin_inegrands_Campanelli','SpinC'),obs('spin_inegrands_AKV','SpinA')])],
 note='`att`: the factor 0 beyond the cut-off radius, 1 within it; `x_xCM_U`, `xi_U`: coordinates of the node relative to the centre.\n')
FDP='Src/Main/Modules/Physics/Free_Data/fd_'
write('FreeK',[Job(FDP+'KerrSchild_Kij_trK.c','Elliptica.Gen.KsKij',skip=('KS__beta_D0','KS__beta_D1','KS__beta_D2','KS__alpha')),Job(FDP+'PGSchild_Kij_trK.c','Elliptica.Gen.PgKij')])
write('BhTheta',[Job('Src/Main/Modules/Physics/BlackHole/bh_expansion_of_AH.c','Elliptica.Gen.BhTheta',skip=('max',))])
