import Verif.Model.Gen.AdmHamMom
import Verif.Lemmas.Conformal
import Verif.Lemmas.Fields
import Verif.Props.Adm
/-!
C66 the Hamiltonian and momentum constraints: the two ways of computing them.
-/
namespace Elliptica.Constraints
open Elliptica.Adm Elliptica.DiffGeom Elliptica.Gen Elliptica.Fields Elliptica.Conformal Elliptica.Extrinsic

/-! ### what each routine computes at a node -/

/-- the symmetries of the fields at a node read by the first routine -/
structure SymS (x : HamScratch.In) : Prop where
  g : Symm x.adm_g_DD
  h : Symm x.adm_ig_UU
  K : Symm x.adm_KIJ_UU
  dK : ∀ i j k, x.dadm_KIJ_UUD i j k = x.dadm_KIJ_UUD j i k
  c : ∀ i j k, x.Gamma_UDD i j k = x.Gamma_UDD i k j
  dc : ∀ i j k l, x.dGamma_UDDD i j k l = x.dGamma_UDDD i k j l
  grad : ∀ i j, ∑ k, x.dGamma_UDDD k i k j = ∑ k, x.dGamma_UDDD k j k i

/-- C66: the first routine: Hamiltonian constraint C (R - K_ij K^ij + K²) - 16π E from the curvature of the physical metric -/
theorem C66_scratch_ham (x : HamScratch.In) (S : SymS x) :
    HamScratch.out_ham x = x.EConfC * ((∑ i, ∑ j, x.adm_ig_UU i j * ricci x.Gamma_UDD x.dGamma_UDDD i j) -
      contract x.adm_g_DD x.adm_KIJ_UU x.adm_KIJ_UU + x.trK ^ 2) - 16 * Real.pi * (x.EConfP / x.psi ^ 6) := by
  have rs := C62_ricci_symm x.Gamma_UDD x.dGamma_UDDD S.c S.dc S.grad
  have R : HamScratch.R x = ∑ i, ∑ j, x.adm_ig_UU i j * ricci x.Gamma_UDD x.dGamma_UDDD i j := by
    have hs := S.h
    have e : ∑ i, ∑ j, x.adm_ig_UU i j * ricci x.Gamma_UDD x.dGamma_UDDD i j =
        x.adm_ig_UU 0 0 * ricci x.Gamma_UDD x.dGamma_UDDD 0 0 + 2 * x.adm_ig_UU 0 1 * ricci x.Gamma_UDD x.dGamma_UDDD 0 1 +
        2 * x.adm_ig_UU 0 2 * ricci x.Gamma_UDD x.dGamma_UDDD 0 2 + x.adm_ig_UU 1 1 * ricci x.Gamma_UDD x.dGamma_UDDD 1 1 +
        2 * x.adm_ig_UU 1 2 * ricci x.Gamma_UDD x.dGamma_UDDD 1 2 + x.adm_ig_UU 2 2 * ricci x.Gamma_UDD x.dGamma_UDDD 2 2 := by
      simp only [Fin.sum_univ_three, hs 1 0, hs 2 0, hs 2 1, rs 1 0, rs 2 0, rs 2 1]
      ring
    rw [e]
    have c := S.c
    have dc := S.dc
    simp only [HamScratch.R, HamScratch.Ric_D0D0, HamScratch.Ric_D0D1, HamScratch.Ric_D0D2, HamScratch.Ric_D1D1, HamScratch.Ric_D1D2,
      HamScratch.Ric_D2D2, HamScratch.Ric1_D0D0, HamScratch.Ric1_D0D1, HamScratch.Ric1_D0D2, HamScratch.Ric1_D1D1, HamScratch.Ric1_D1D2,
      HamScratch.Ric1_D2D2, HamScratch.Ric2_D0D0, HamScratch.Ric2_D0D1, HamScratch.Ric2_D0D2, HamScratch.Ric2_D1D1, HamScratch.Ric2_D1D2,
      HamScratch.Ric2_D2D2, HamScratch.Ric3_D0D0, HamScratch.Ric3_D0D1, HamScratch.Ric3_D0D2, HamScratch.Ric3_D1D1, HamScratch.Ric3_D1D2,
      HamScratch.Ric3_D2D2, HamScratch.Ric4_D0D0, HamScratch.Ric4_D0D1, HamScratch.Ric4_D0D2, HamScratch.Ric4_D1D1, HamScratch.Ric4_D1D2,
      HamScratch.Ric4_D2D2, ricci, Fin.sum_univ_three, c _ 1 0, c _ 2 0, c _ 2 1, dc _ 1 0, dc _ 2 0, dc _ 2 1]
    ring
  have KK : HamScratch.KijKij x = contract x.adm_g_DD x.adm_KIJ_UU x.adm_KIJ_UU := by
    have g := S.g
    have K := S.K
    simp only [HamScratch.KijKij, contract, Fin.sum_univ_three, g 1 0, g 2 0, g 2 1, K 1 0, K 2 0, K 2 1]
    ring
  simp only [HamScratch.out_ham, HamScratch.Ham_Constraint, R, KK, HamScratch.Ep, HamScratch.psim6]
  ring

/-- C66: the first routine: momentum constraint C (D_j K^ij - γ^ij ∂_j K) - 8π J^i -/
theorem C66_scratch_mom (x : HamScratch.In) (S : SymS x) (i : Fin 3) :
    HamScratch.out_mom_U x i = some (x.JConfC * (divT x.Gamma_UDD x.adm_KIJ_UU x.dadm_KIJ_UUD i - ∑ j, x.adm_ig_UU i j * x.dtrK_D j) -
      8 * Real.pi * (x.JConfP_U i / x.psi ^ 6)) := by
  have h := S.h
  have K := S.K
  have dK := S.dK
  have c := S.c
  fin_cases i <;> simp only [Fin.zero_eta, Fin.mk_one, Fin.reduceFinMk, HamScratch.out_mom_U, HamScratch.Mom_constraint_U0,
    HamScratch.Mom_constraint_U1, HamScratch.Mom_constraint_U2, HamScratch.DjKij_U0, HamScratch.DjKij_U1, HamScratch.DjKij_U2,
    HamScratch.Jp_U0, HamScratch.Jp_U1, HamScratch.Jp_U2, HamScratch.psim6, divT, Fin.sum_univ_three, Option.some.injEq,
    h 1 0, h 2 0, h 2 1, K 1 0, K 2 0, K 2 1, dK 1 0, dK 2 0, dK 2 1, c _ 1 0, c _ 2 0, c _ 2 1] <;> ring

/-- the symmetries of the fields at a node read by the second routine -/
structure SymI (y : HamIdent.In) : Prop where
  g : Symm y.gConf_DD
  h : Symm y.igConf_UU
  A : Symm y.AConfIJ_UU
  dA : ∀ i j k, y.dAConfIJ_UUD i j k = y.dAConfIJ_UUD j i k
  dh : ∀ i j k, y.digConf_UUD i j k = y.digConf_UUD j i k
  c : ∀ i j k, y.ChrisConf_UDD i j k = y.ChrisConf_UDD i k j
  d : Symm y.ddpsi_DD

/-- C66: the second routine: Hamiltonian constraint from conformal quantities -/
theorem C66_ident_ham (y : HamIdent.In) (S : SymI y) :
    HamIdent.out_ham y = (y.trRicciConf - 8 * (Xcts.laplace y.igConf_UU y.ChrisConf_UDD y.dpsi_D y.ddpsi_DD) / y.psi) / y.psi ^ 4 -
      contract y.gConf_DD (fun i j => y.AConfIJ_UU i j / y.psi ^ 6 + y.igConf_UU i j * y.trK / 3)
        (fun i j => y.AConfIJ_UU i j / y.psi ^ 6 + y.igConf_UU i j * y.trK / 3) + y.trK ^ 2 - 16 * Real.pi * (y.EConf / y.psi ^ 6) := by
  have g := S.g
  have h := S.h
  have A := S.A
  have c := S.c
  have d := S.d
  have L : HamIdent.DDpsi y = Xcts.laplace y.igConf_UU y.ChrisConf_UDD y.dpsi_D y.ddpsi_DD := by
    simp only [HamIdent.DDpsi, Xcts.laplace, Fin.sum_univ_three, h 1 0, h 2 0, h 2 1, c _ 1 0, c _ 2 0, c _ 2 1, d 1 0, d 2 0, d 2 1]
    ring
  have KK : HamIdent.KijKij y = contract y.gConf_DD (fun i j => y.AConfIJ_UU i j / y.psi ^ 6 + y.igConf_UU i j * y.trK / 3)
        (fun i j => y.AConfIJ_UU i j / y.psi ^ 6 + y.igConf_UU i j * y.trK / 3) := by
    have e00 : HamIdent.Kbar_U0U0 y = y.AConfIJ_UU 0 0 / y.psi ^ 6 + y.igConf_UU 0 0 * y.trK / 3 := by simp only [HamIdent.Kbar_U0U0, HamIdent.psim6]; ring
    have e01 : HamIdent.Kbar_U0U1 y = y.AConfIJ_UU 0 1 / y.psi ^ 6 + y.igConf_UU 0 1 * y.trK / 3 := by simp only [HamIdent.Kbar_U0U1, HamIdent.psim6]; ring
    have e02 : HamIdent.Kbar_U0U2 y = y.AConfIJ_UU 0 2 / y.psi ^ 6 + y.igConf_UU 0 2 * y.trK / 3 := by simp only [HamIdent.Kbar_U0U2, HamIdent.psim6]; ring
    have e11 : HamIdent.Kbar_U1U1 y = y.AConfIJ_UU 1 1 / y.psi ^ 6 + y.igConf_UU 1 1 * y.trK / 3 := by simp only [HamIdent.Kbar_U1U1, HamIdent.psim6]; ring
    have e12 : HamIdent.Kbar_U1U2 y = y.AConfIJ_UU 1 2 / y.psi ^ 6 + y.igConf_UU 1 2 * y.trK / 3 := by simp only [HamIdent.Kbar_U1U2, HamIdent.psim6]; ring
    have e22 : HamIdent.Kbar_U2U2 y = y.AConfIJ_UU 2 2 / y.psi ^ 6 + y.igConf_UU 2 2 * y.trK / 3 := by simp only [HamIdent.Kbar_U2U2, HamIdent.psim6]; ring
    have Bs : ∀ i j, y.AConfIJ_UU i j / y.psi ^ 6 + y.igConf_UU i j * y.trK / 3 = y.AConfIJ_UU j i / y.psi ^ 6 + y.igConf_UU j i * y.trK / 3 :=
      fun i j => by rw [A i j, h i j]
    simp only [HamIdent.KijKij, e00, e01, e02, e11, e12, e22, contract, Fin.sum_univ_three, g 1 0, g 2 0, g 2 1, Bs 1 0, Bs 2 0, Bs 2 1]
    generalize y.AConfIJ_UU 0 0 / y.psi ^ 6 + y.igConf_UU 0 0 * y.trK / 3 = b00
    generalize y.AConfIJ_UU 0 1 / y.psi ^ 6 + y.igConf_UU 0 1 * y.trK / 3 = b01
    generalize y.AConfIJ_UU 0 2 / y.psi ^ 6 + y.igConf_UU 0 2 * y.trK / 3 = b02
    generalize y.AConfIJ_UU 1 1 / y.psi ^ 6 + y.igConf_UU 1 1 * y.trK / 3 = b11
    generalize y.AConfIJ_UU 1 2 / y.psi ^ 6 + y.igConf_UU 1 2 * y.trK / 3 = b12
    generalize y.AConfIJ_UU 2 2 / y.psi ^ 6 + y.igConf_UU 2 2 * y.trK / 3 = b22
    ring
  simp only [HamIdent.out_ham, HamIdent.Ham_Constraint, HamIdent.R, KK, L, HamIdent.E, HamIdent.psim6, HamIdent.psim4]
  ring

/-- the derivative of K^{ij} from those of its parts -/
noncomputable def dKup (psi : ℝ) (dpsi : T1) (A h : T2) (dA dh : T3) (K : ℝ) (dK : T1) (i j k : Fin 3) : ℝ :=
  (dA i j k - 10 * (dpsi k / psi) * A i j) / psi ^ 10 + (dh i j k * K + h i j * dK k - 4 * (dpsi k / psi) * h i j * K) / psi ^ 4 / 3

/-- the tensor Kbar: ψ⁴ K^{ij} -/
noncomputable def KbarT (y : HamIdent.In) (i j : Fin 3) : ℝ := y.AConfIJ_UU i j / y.psi ^ 6 + y.igConf_UU i j * y.trK / 3

/-- C66: the second routine: momentum constraint; the connection is the conformal one plus the difference -/
theorem C66_ident_mom (y : HamIdent.In) (S : SymI y) (i : Fin 3) :
    HamIdent.out_mom_U y i = some (divT (fun i j k => y.ChrisConf_UDD i j k + diffC y.gConf_DD y.igConf_UU (fun l => y.dpsi_D l / y.psi) i j k)
        (Kup y.psi y.AConfIJ_UU y.igConf_UU y.trK)
        (dKup y.psi y.dpsi_D y.AConfIJ_UU y.igConf_UU y.dAConfIJ_UUD y.digConf_UUD y.trK y.dtrK_D) i
      - (∑ j, y.igConf_UU i j / y.psi ^ 4 * y.dtrK_D j) - 8 * Real.pi * (y.JConf_U i / y.psi ^ 6)) := by
  have g := S.g
  have h := S.h
  have A := S.A
  have dA := S.dA
  have dh := S.dh
  have c := S.c
  have K4 : ∀ i j, Kup y.psi y.AConfIJ_UU y.igConf_UU y.trK i j = KbarT y i j * (y.psi ^ 4)⁻¹ := by
    intro i j
    unfold Kup KbarT
    rw [show y.psi ^ 10 = y.psi ^ 6 * y.psi ^ 4 by ring, div_mul_eq_div_div]
    simp only [div_eq_mul_inv]
    ring
  have Bs : ∀ i j, KbarT y i j = KbarT y j i := fun i j => by unfold KbarT; rw [A i j, h i j]
  have Ds := diffC_symm (h := y.igConf_UU) g (fun l => y.dpsi_D l / y.psi)
  have e00 : HamIdent.Kbar_U0U0 y = KbarT y 0 0 := by simp only [HamIdent.Kbar_U0U0, HamIdent.psim6, KbarT]; ring
  have e01 : HamIdent.Kbar_U0U1 y = KbarT y 0 1 := by simp only [HamIdent.Kbar_U0U1, HamIdent.psim6, KbarT]; ring
  have e02 : HamIdent.Kbar_U0U2 y = KbarT y 0 2 := by simp only [HamIdent.Kbar_U0U2, HamIdent.psim6, KbarT]; ring
  have e11 : HamIdent.Kbar_U1U1 y = KbarT y 1 1 := by simp only [HamIdent.Kbar_U1U1, HamIdent.psim6, KbarT]; ring
  have e12 : HamIdent.Kbar_U1U2 y = KbarT y 1 2 := by simp only [HamIdent.Kbar_U1U2, HamIdent.psim6, KbarT]; ring
  have e22 : HamIdent.Kbar_U2U2 y = KbarT y 2 2 := by simp only [HamIdent.Kbar_U2U2, HamIdent.psim6, KbarT]; ring
  have d000 : HamIdent.c_U0U0U0 y = diffC y.gConf_DD y.igConf_UU (fun l => y.dpsi_D l / y.psi) 0 0 0 := by
    simp only [HamIdent.c_U0U0U0, HamIdent.dLnpsi_D0, HamIdent.dLnpsi_D1, HamIdent.dLnpsi_D2, diffC, up, kd, Fin.sum_univ_three, h 1 0, h 2 0, h 2 1, Fin.isValue, Fin.reduceEq, if_true, if_false, reduceIte]; ring
  have d001 : HamIdent.c_U0U0U1 y = diffC y.gConf_DD y.igConf_UU (fun l => y.dpsi_D l / y.psi) 0 0 1 := by
    simp only [HamIdent.c_U0U0U1, HamIdent.dLnpsi_D0, HamIdent.dLnpsi_D1, HamIdent.dLnpsi_D2, diffC, up, kd, Fin.sum_univ_three, h 1 0, h 2 0, h 2 1, Fin.isValue, Fin.reduceEq, if_true, if_false, reduceIte]; ring
  have d002 : HamIdent.c_U0U0U2 y = diffC y.gConf_DD y.igConf_UU (fun l => y.dpsi_D l / y.psi) 0 0 2 := by
    simp only [HamIdent.c_U0U0U2, HamIdent.dLnpsi_D0, HamIdent.dLnpsi_D1, HamIdent.dLnpsi_D2, diffC, up, kd, Fin.sum_univ_three, h 1 0, h 2 0, h 2 1, Fin.isValue, Fin.reduceEq, if_true, if_false, reduceIte]; ring
  have d011 : HamIdent.c_U0U1U1 y = diffC y.gConf_DD y.igConf_UU (fun l => y.dpsi_D l / y.psi) 0 1 1 := by
    simp only [HamIdent.c_U0U1U1, HamIdent.dLnpsi_D0, HamIdent.dLnpsi_D1, HamIdent.dLnpsi_D2, diffC, up, kd, Fin.sum_univ_three, h 1 0, h 2 0, h 2 1, Fin.isValue, Fin.reduceEq, if_true, if_false, reduceIte]; ring
  have d012 : HamIdent.c_U0U1U2 y = diffC y.gConf_DD y.igConf_UU (fun l => y.dpsi_D l / y.psi) 0 1 2 := by
    simp only [HamIdent.c_U0U1U2, HamIdent.dLnpsi_D0, HamIdent.dLnpsi_D1, HamIdent.dLnpsi_D2, diffC, up, kd, Fin.sum_univ_three, h 1 0, h 2 0, h 2 1, Fin.isValue, Fin.reduceEq, if_true, if_false, reduceIte]; ring
  have d022 : HamIdent.c_U0U2U2 y = diffC y.gConf_DD y.igConf_UU (fun l => y.dpsi_D l / y.psi) 0 2 2 := by
    simp only [HamIdent.c_U0U2U2, HamIdent.dLnpsi_D0, HamIdent.dLnpsi_D1, HamIdent.dLnpsi_D2, diffC, up, kd, Fin.sum_univ_three, h 1 0, h 2 0, h 2 1, Fin.isValue, Fin.reduceEq, if_true, if_false, reduceIte]; ring
  have d100 : HamIdent.c_U1U0U0 y = diffC y.gConf_DD y.igConf_UU (fun l => y.dpsi_D l / y.psi) 1 0 0 := by
    simp only [HamIdent.c_U1U0U0, HamIdent.dLnpsi_D0, HamIdent.dLnpsi_D1, HamIdent.dLnpsi_D2, diffC, up, kd, Fin.sum_univ_three, h 1 0, h 2 0, h 2 1, Fin.isValue, Fin.reduceEq, if_true, if_false, reduceIte]; ring
  have d101 : HamIdent.c_U1U0U1 y = diffC y.gConf_DD y.igConf_UU (fun l => y.dpsi_D l / y.psi) 1 0 1 := by
    simp only [HamIdent.c_U1U0U1, HamIdent.dLnpsi_D0, HamIdent.dLnpsi_D1, HamIdent.dLnpsi_D2, diffC, up, kd, Fin.sum_univ_three, h 1 0, h 2 0, h 2 1, Fin.isValue, Fin.reduceEq, if_true, if_false, reduceIte]; ring
  have d102 : HamIdent.c_U1U0U2 y = diffC y.gConf_DD y.igConf_UU (fun l => y.dpsi_D l / y.psi) 1 0 2 := by
    simp only [HamIdent.c_U1U0U2, HamIdent.dLnpsi_D0, HamIdent.dLnpsi_D1, HamIdent.dLnpsi_D2, diffC, up, kd, Fin.sum_univ_three, h 1 0, h 2 0, h 2 1, Fin.isValue, Fin.reduceEq, if_true, if_false, reduceIte]; ring
  have d111 : HamIdent.c_U1U1U1 y = diffC y.gConf_DD y.igConf_UU (fun l => y.dpsi_D l / y.psi) 1 1 1 := by
    simp only [HamIdent.c_U1U1U1, HamIdent.dLnpsi_D0, HamIdent.dLnpsi_D1, HamIdent.dLnpsi_D2, diffC, up, kd, Fin.sum_univ_three, h 1 0, h 2 0, h 2 1, Fin.isValue, Fin.reduceEq, if_true, if_false, reduceIte]; ring
  have d112 : HamIdent.c_U1U1U2 y = diffC y.gConf_DD y.igConf_UU (fun l => y.dpsi_D l / y.psi) 1 1 2 := by
    simp only [HamIdent.c_U1U1U2, HamIdent.dLnpsi_D0, HamIdent.dLnpsi_D1, HamIdent.dLnpsi_D2, diffC, up, kd, Fin.sum_univ_three, h 1 0, h 2 0, h 2 1, Fin.isValue, Fin.reduceEq, if_true, if_false, reduceIte]; ring
  have d122 : HamIdent.c_U1U2U2 y = diffC y.gConf_DD y.igConf_UU (fun l => y.dpsi_D l / y.psi) 1 2 2 := by
    simp only [HamIdent.c_U1U2U2, HamIdent.dLnpsi_D0, HamIdent.dLnpsi_D1, HamIdent.dLnpsi_D2, diffC, up, kd, Fin.sum_univ_three, h 1 0, h 2 0, h 2 1, Fin.isValue, Fin.reduceEq, if_true, if_false, reduceIte]; ring
  have d200 : HamIdent.c_U2U0U0 y = diffC y.gConf_DD y.igConf_UU (fun l => y.dpsi_D l / y.psi) 2 0 0 := by
    simp only [HamIdent.c_U2U0U0, HamIdent.dLnpsi_D0, HamIdent.dLnpsi_D1, HamIdent.dLnpsi_D2, diffC, up, kd, Fin.sum_univ_three, h 1 0, h 2 0, h 2 1, Fin.isValue, Fin.reduceEq, if_true, if_false, reduceIte]; ring
  have d201 : HamIdent.c_U2U0U1 y = diffC y.gConf_DD y.igConf_UU (fun l => y.dpsi_D l / y.psi) 2 0 1 := by
    simp only [HamIdent.c_U2U0U1, HamIdent.dLnpsi_D0, HamIdent.dLnpsi_D1, HamIdent.dLnpsi_D2, diffC, up, kd, Fin.sum_univ_three, h 1 0, h 2 0, h 2 1, Fin.isValue, Fin.reduceEq, if_true, if_false, reduceIte]; ring
  have d202 : HamIdent.c_U2U0U2 y = diffC y.gConf_DD y.igConf_UU (fun l => y.dpsi_D l / y.psi) 2 0 2 := by
    simp only [HamIdent.c_U2U0U2, HamIdent.dLnpsi_D0, HamIdent.dLnpsi_D1, HamIdent.dLnpsi_D2, diffC, up, kd, Fin.sum_univ_three, h 1 0, h 2 0, h 2 1, Fin.isValue, Fin.reduceEq, if_true, if_false, reduceIte]; ring
  have d211 : HamIdent.c_U2U1U1 y = diffC y.gConf_DD y.igConf_UU (fun l => y.dpsi_D l / y.psi) 2 1 1 := by
    simp only [HamIdent.c_U2U1U1, HamIdent.dLnpsi_D0, HamIdent.dLnpsi_D1, HamIdent.dLnpsi_D2, diffC, up, kd, Fin.sum_univ_three, h 1 0, h 2 0, h 2 1, Fin.isValue, Fin.reduceEq, if_true, if_false, reduceIte]; ring
  have d212 : HamIdent.c_U2U1U2 y = diffC y.gConf_DD y.igConf_UU (fun l => y.dpsi_D l / y.psi) 2 1 2 := by
    simp only [HamIdent.c_U2U1U2, HamIdent.dLnpsi_D0, HamIdent.dLnpsi_D1, HamIdent.dLnpsi_D2, diffC, up, kd, Fin.sum_univ_three, h 1 0, h 2 0, h 2 1, Fin.isValue, Fin.reduceEq, if_true, if_false, reduceIte]; ring
  have d222 : HamIdent.c_U2U2U2 y = diffC y.gConf_DD y.igConf_UU (fun l => y.dpsi_D l / y.psi) 2 2 2 := by
    simp only [HamIdent.c_U2U2U2, HamIdent.dLnpsi_D0, HamIdent.dLnpsi_D1, HamIdent.dLnpsi_D2, diffC, up, kd, Fin.sum_univ_three, h 1 0, h 2 0, h 2 1, Fin.isValue, Fin.reduceEq, if_true, if_false, reduceIte]; ring
  have dj0 : HamIdent.djKj_U0 y = ∑ j, dKup y.psi y.dpsi_D y.AConfIJ_UU y.igConf_UU y.dAConfIJ_UUD y.digConf_UUD y.trK y.dtrK_D 0 j j := by
    simp only [HamIdent.djKj_U0, HamIdent.psim4, HamIdent.psim6, HamIdent.dLnpsi_D0, HamIdent.dLnpsi_D1, HamIdent.dLnpsi_D2, dKup, Fin.sum_univ_three,
      h 1 0, h 2 0, h 2 1, A 1 0, A 2 0, A 2 1, dA 1 0, dA 2 0, dA 2 1, dh 1 0, dh 2 0, dh 2 1]
    rw [show y.psi ^ 10 = y.psi ^ 6 * y.psi ^ 4 by ring, div_mul_eq_div_div]
    simp only [div_eq_mul_inv, mul_inv]
    ring
  have dj1 : HamIdent.djKj_U1 y = ∑ j, dKup y.psi y.dpsi_D y.AConfIJ_UU y.igConf_UU y.dAConfIJ_UUD y.digConf_UUD y.trK y.dtrK_D 1 j j := by
    simp only [HamIdent.djKj_U1, HamIdent.psim4, HamIdent.psim6, HamIdent.dLnpsi_D0, HamIdent.dLnpsi_D1, HamIdent.dLnpsi_D2, dKup, Fin.sum_univ_three,
      h 1 0, h 2 0, h 2 1, A 1 0, A 2 0, A 2 1, dA 1 0, dA 2 0, dA 2 1, dh 1 0, dh 2 0, dh 2 1]
    rw [show y.psi ^ 10 = y.psi ^ 6 * y.psi ^ 4 by ring, div_mul_eq_div_div]
    simp only [div_eq_mul_inv, mul_inv]
    ring
  have dj2 : HamIdent.djKj_U2 y = ∑ j, dKup y.psi y.dpsi_D y.AConfIJ_UU y.igConf_UU y.dAConfIJ_UUD y.digConf_UUD y.trK y.dtrK_D 2 j j := by
    simp only [HamIdent.djKj_U2, HamIdent.psim4, HamIdent.psim6, HamIdent.dLnpsi_D0, HamIdent.dLnpsi_D1, HamIdent.dLnpsi_D2, dKup, Fin.sum_univ_three,
      h 1 0, h 2 0, h 2 1, A 1 0, A 2 0, A 2 1, dA 1 0, dA 2 0, dA 2 1, dh 1 0, dh 2 0, dh 2 1]
    rw [show y.psi ^ 10 = y.psi ^ 6 * y.psi ^ 4 by ring, div_mul_eq_div_div]
    simp only [div_eq_mul_inv, mul_inv]
    ring
  have split : ∀ i, divT (fun i j k => y.ChrisConf_UDD i j k + diffC y.gConf_DD y.igConf_UU (fun l => y.dpsi_D l / y.psi) i j k)
        (Kup y.psi y.AConfIJ_UU y.igConf_UU y.trK)
        (dKup y.psi y.dpsi_D y.AConfIJ_UU y.igConf_UU y.dAConfIJ_UUD y.digConf_UUD y.trK y.dtrK_D) i =
      (∑ j, dKup y.psi y.dpsi_D y.AConfIJ_UU y.igConf_UU y.dAConfIJ_UUD y.digConf_UUD y.trK y.dtrK_D i j j) +
      (∑ j, ∑ k, ((y.ChrisConf_UDD i j k + diffC y.gConf_DD y.igConf_UU (fun l => y.dpsi_D l / y.psi) i j k) * KbarT y k j +
        (y.ChrisConf_UDD j j k + diffC y.gConf_DD y.igConf_UU (fun l => y.dpsi_D l / y.psi) j j k) * KbarT y i k)) * (y.psi ^ 4)⁻¹ := by
    intro i
    unfold divT
    rw [Finset.sum_mul, ← Finset.sum_add_distrib]
    refine Finset.sum_congr rfl fun j _ => ?_
    rw [Finset.sum_mul]
    congr 1
    exact Finset.sum_congr rfl fun k _ => by rw [K4, K4]; ring
  obtain ⟨F, hF⟩ : ∃ F : Fin 3 → ℝ, ∀ i, ∑ j, dKup y.psi y.dpsi_D y.AConfIJ_UU y.igConf_UU y.dAConfIJ_UUD y.digConf_UUD y.trK y.dtrK_D i j j = F i :=
    ⟨_, fun _ => rfl⟩
  rw [hF] at dj0 dj1 dj2
  rw [split, hF]
  generalize KbarT y = B at *
  generalize diffC y.gConf_DD y.igConf_UU (fun l => y.dpsi_D l / y.psi) = D at *
  fin_cases i <;> simp only [Fin.zero_eta, Fin.mk_one, Fin.reduceFinMk, HamIdent.out_mom_U, HamIdent.Mom_constraint_U0, HamIdent.Mom_constraint_U1,
    HamIdent.Mom_constraint_U2, HamIdent.Dk_U0, HamIdent.Dk_U1, HamIdent.Dk_U2, HamIdent.DbarjKj_U0, HamIdent.DbarjKj_U1, HamIdent.DbarjKj_U2,
    HamIdent.CKbar_U0, HamIdent.CKbar_U1, HamIdent.CKbar_U2, HamIdent.GammaKbar_U0, HamIdent.GammaKbar_U1, HamIdent.GammaKbar_U2, dj0, dj1, dj2,
    HamIdent.J_U0, HamIdent.J_U1, HamIdent.J_U2, HamIdent.psim4, HamIdent.psim6, e00, e01, e02, e11, e12, e22,
    d000, d001, d002, d011, d012, d022, d100, d101, d102, d111, d112, d122, d200, d201, d202, d211, d212, d222, Option.some.injEq] <;>
    (simp only [Fin.sum_univ_three,
      h 1 0, h 2 0, h 2 1, Bs 1 0, Bs 2 0, Bs 2 1, c _ 1 0, c _ 2 0, c _ 2 1, Ds _ 1 0, Ds _ 2 0, Ds _ 2 1]; ring)

end Elliptica.Constraints
