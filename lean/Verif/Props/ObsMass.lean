import Verif.Lemmas.Obs
import Verif.Props.EqPsi
/-!
C86 the ADM mass and the Komar mass: the integrands.
-/
namespace Elliptica.Obs
open Elliptica.Adm Elliptica.DiffGeom Elliptica.Gen Elliptica.Gen.Obs Elliptica.Fields Elliptica.Conformal Elliptica.Extrinsic Elliptica.Constraints
open Elliptica.ObsSpec

/-- the values at a node are those of the fields of a slice and of their derivatives at the point p -/
structure At (s : Slice) (p : Pt) (x : In) : Prop where
  psi : x.psi = s.psi p
  dpsi : ∀ i, x.dpsi_D i = pd s.psi i p
  ddpsi : ∀ i j, x.ddpsi_DD i j = pd (pd s.psi i) j p
  g : ∀ i j, x.gConf_DD i j = s.g i j p
  h : ∀ i j, x.igConf_UU i j = s.h i j p
  dg : ∀ i j k, x.dgConf_DDD i j k = pd (s.g i j) k p
  c : ∀ i j k, x.ChrisConf_UDD i j k = s.conn i j k p
  A : ∀ i j, x.AConfIJ_UU i j = s.A i j p
  dA : ∀ i j k, x.dAConfIJ_UUD i j k = pd (s.A i j) k p
  K : x.trK = s.K p
  dK : ∀ i, x.dtrK_D i = pd s.K i p

/-- C86: the mass at infinity integrates n^i γ^{jk} (∂_k γ_{ij} - ∂_i γ_{jk}) of the physical metric -/
theorem C86_surface (s : Slice) (p : Pt) (G : s.Good p) (x : In) (X : At s p x) :
    MassS2.out_ADM_mass_integrand_S x = massFlux (fun i j => s.gamI i j p) (fun i j k => pd (s.gam i j) k p) x.n_U := by
  have h0 := G.psi0 p
  have t3 := trace3 (G.gs p) (G.inv p)
  have I : ∀ a b, ∑ k, s.h a k p * s.g k b p = kd a b := G.inv p
  have hs : ∀ a b, s.h a b p = s.h b a p := G.hs p
  have gs : ∀ a b, s.g a b p = s.g b a p := G.gs p
  have ds : ∀ a b c, pd (s.g a b) c p = pd (s.g b a) c p := fun a b c => G.pd_g_symm a b c p
  have e : massFlux (fun i j => s.gamI i j p) (fun i j k => pd (s.gam i j) k p) x.n_U =
      ∑ i, x.n_U i * ((∑ j, ∑ k, s.h j k p * (pd (s.g i j) k p - pd (s.g j k) i p)) +
        4 * (∑ k, (∑ j, s.h k j p * s.g j i p) * s.L k p) - 4 * (∑ j, ∑ k, s.g j k p * s.h j k p) * s.L i p) := by
    unfold massFlux
    refine Finset.sum_congr rfl fun i _ => ?_
    congr 1
    simp only [G.gam_pd, Slice.gamI, Slice.L, Fin.sum_univ_three, hs 1 0, hs 2 0, hs 2 1, gs 0 i, gs 1 i, gs 2 i, gs 1 0, gs 2 0, gs 2 1]
    field_simp
    ring
  rw [e]
  simp only [I, t3]
  unfold MassS2.out_ADM_mass_integrand_S MassS2.M_s MassS2.dlnpsi_U0 MassS2.dlnpsi_U1 MassS2.dlnpsi_U2
  simp only [X.h, X.dg, X.dpsi, X.psi, Slice.L, Fin.sum_univ_three, hs 1 0, hs 2 0, hs 2 1, ds 1 0, ds 2 0, ds 2 1]
  simp [kd]
  ring

/-- C86: the other two ways: the surface part integrates n^i ∂_i ψ, the volume part, within the cut-off, the divergence
D_i D^i ψ of D^i ψ for the conformal metric: by Gauss's theorem their sum does not depend on the surface -/
theorem C86_isotropic (s : Slice) (p : Pt) (G : s.Good p) (x : In) (X : At s p x) :
    MassIso.out_ADM_mass_integrand_S x = (∑ i, x.n_U i * pd s.psi i p) ∧
    MassIso.out_ADM_mass_integrand_V x = x.att * divergence s.conn (fun i q => ∑ j, s.h i j q * pd s.psi j q) p := by
  have hs : ∀ a b, s.h a b p = s.h b a p := G.hs p
  have cs : ∀ a b c, s.conn a b c p = s.conn a c b p := fun a b c => G.conn_symm a b c p
  have C := G.compat
  constructor
  · unfold MassIso.out_ADM_mass_integrand_S MassIso.M_s
    simp only [X.dpsi, Fin.sum_univ_three]; ring
  · have D : ∀ i m, pd (fun q => ∑ j, s.h i j q * pd s.psi j q) m p = ∑ j, (pd (s.h i j) m p * pd s.psi j p + s.h i j p * pd (pd s.psi j) m p) := by
      intro i m
      have : HasDerivAt (fun t => ∑ j, line (s.h i j) m p t * line (pd s.psi j) m p t)
          (∑ j, (pd (s.h i j) m p * pd s.psi j p + s.h i j p * pd (pd s.psi j) m p)) (p m) :=
        HasDerivAt.fun_sum fun j _ => (((G.dh i j).has m).mul ((G.ddpsi j).has m)).congr_deriv (by simp only [line_at])
      exact this.deriv
    have dh : ∀ i j k, pd (s.h i j) k p = - ∑ l, (s.conn i k l p * s.h l j p + s.conn j k l p * s.h i l p) := C.dh
    unfold divergence
    simp only [D, dh]
    unfold MassIso.out_ADM_mass_integrand_V MassIso.M_v
    simp only [X.h, X.c, X.dpsi, X.ddpsi, Fin.sum_univ_three, hs 1 0, hs 2 0, hs 2 1, cs _ 1 0, cs _ 2 0, cs _ 2 1,
      G.psi2 1 0, G.psi2 2 0, G.psi2 2 1]
    ring

/-- C86: with the energy density in place of the Laplacian: the integrands are those of the other way divided by -2π (the volume
part within the cut-off), up to the residual of the equation solved for ψ, divided by 2π -/
theorem C86_conformal (x : In) (z : Psi.In) (S : Equation.Psi.Sym z) (h0 : x.psi ≠ 0) (hatt : x.att = 1)
    (xz : z.psi = x.psi ∧ z.dpsi_D = x.dpsi_D ∧ z.ddpsi_DD = x.ddpsi_DD ∧ z.igConf_UU = x.igConf_UU ∧ z.ChrisConf_UDD = x.ChrisConf_UDD ∧
      z.trRicciConf = x.trRicciConf ∧ z.trK = x.trK ∧ z.AConfIJ_UU = x.AConfIJ_UU ∧ z.gConf_DD = x.gConf_DD ∧
      z.EConfC = 1 ∧ z.EConfP = x.EConf ∧ z.AConfIJ2 = contract z.gConf_DD z.AConfIJ_UU z.AConfIJ_UU) :
    MassConf.out_obs__Ms x = MassIso.out_ADM_mass_integrand_S x / (-2 * Real.pi) ∧
    MassConf.out_obs__Mv x = MassIso.out_ADM_mass_integrand_V x / (-2 * Real.pi) + Psi.Eq.out_schur_F z / (2 * Real.pi) := by
  obtain ⟨e1, e2, e3, e4, e5, e6, e7, e8, e9, e10, e11, e12⟩ := xz
  have pi0 := Real.pi_ne_zero
  constructor
  · unfold MassConf.out_obs__Ms MassConf.Ms MassIso.out_ADM_mass_integrand_S MassIso.M_s
    field_simp
  · have hA : MassConf.A2 x = z.AConfIJ2 := by
      rw [e12, e9, e8]
      have A : ∀ a b, x.AConfIJ_UU a b = x.AConfIJ_UU b a := fun a b => by rw [← e8]; exact S.A a b
      have g : ∀ a b, x.gConf_DD a b = x.gConf_DD b a := fun a b => by rw [← e9]; exact S.g a b
      simp only [MassConf.A2, contract, Fin.sum_univ_three, A 1 0, A 2 0, A 2 1, g 1 0, g 2 0, g 2 1]
      ring
    have hL : MassIso.M_v x = Xcts.laplace z.igConf_UU z.ChrisConf_UDD z.dpsi_D z.ddpsi_DD := by
      have h := S.h
      have c := S.c
      have d := S.d
      rw [e4, e5, e2, e3] at *
      simp only [MassIso.M_v, Xcts.laplace, Fin.sum_univ_three, h 1 0, h 2 0, h 2 1, c _ 1 0, c _ 2 0, c _ 2 1, d 1 0, d 2 0, d 2 1]
      ring
    rw [Equation.Psi.C63_psi z S (by rw [e1]; exact h0)]
    unfold MassConf.out_obs__Mv MassConf.Mv MassConf.E MassConf.psi5 MassConf.psim7 MassConf.psim6 MassIso.out_ADM_mass_integrand_V Xcts.hamiltonian
    rw [hA, hL, e1, e6, e7, e10, e11, hatt]
    field_simp
    ring

/-- C86: the Komar mass: the surface part integrates n^i (∂_i α - K_{ij} β^j), the volume part α (E + S) - 2 γ_{ij} J^i β^j -/
theorem C86_komar (s : Slice) (p : Pt) (G : s.Good p) (x : In) (X : At s p x) (al : Pt → ℝ)
    (hal : Diff (fun q => al q * s.psi q) p) (ha : x.alphaPsi = al p * s.psi p) (hda : ∀ i, x.dalphaPsi_D i = pd (fun q => al q * s.psi q) i p)
    (E S : ℝ) (J : Fin 3 → ℝ) (hE : x.EConf = s.psi p ^ 6 * E) (hS : x.SConf = s.psi p ^ 6 * S) (hJ : ∀ i, x.JConf_U i = s.psi p ^ 6 * J i) :
    Komar.out_obs_komar_mass__s x = (∑ i, x.n_U i * (pd al i p - ∑ j, Klow s i j p * x.beta_U j)) ∧
    Komar.out_obs_komar_mass__v x = al p * (E + S) - 2 * ∑ i, ∑ j, s.gam i j p * J i * x.beta_U j := by
  have h0 := G.psi0 p
  have gs : ∀ a b, s.g a b p = s.g b a p := G.gs p
  have As : ∀ a b, s.A a b p = s.A b a p := G.As p
  constructor
  · have hd : ∀ i, pd al i p = pd (fun q => al q * s.psi q) i p / s.psi p - al p * pd s.psi i p / s.psi p := by
      intro i
      have h := (hal.has i).div ((G.dpsi p).has i) (by rw [line_at]; exact h0)
      have e : (line (fun q => al q * s.psi q) i p / line s.psi i p) = line al i p := by
        funext t
        simp only [line, Pi.div_apply]
        rw [mul_div_assoc, div_self (G.psi0 _), mul_one]
      rw [e] at h
      rw [show pd al i p = deriv (line al i p) (p i) from rfl, h.deriv]
      simp only [line_at]
      field_simp
    simp only [hd, Klow_eq G]
    unfold Komar.out_obs_komar_mass__s Komar.integrand_s
    have k : ∀ i j, Alow s i j p / s.psi p ^ 2 + s.psi p ^ 4 * s.g i j p * s.K p / 3 = Alow s j i p / s.psi p ^ 2 + s.psi p ^ 4 * s.g j i p * s.K p / 3 := by
      intro i j; rw [Alow_symm G, gs i j]
    have k00 : Komar.K_DD_D0D0 x = Alow s 0 0 p / s.psi p ^ 2 + s.psi p ^ 4 * s.g 0 0 p * s.K p / 3 := by
      simp only [Komar.K_DD_D0D0, Komar.psi4, Komar.psim2, X.g, X.A, X.K, X.psi, Alow, move2, Fin.sum_univ_three, As 1 0, As 2 0, As 2 1, gs 1 0, gs 2 0, gs 2 1]; ring
    have k01 : Komar.K_DD_D0D1 x = Alow s 0 1 p / s.psi p ^ 2 + s.psi p ^ 4 * s.g 0 1 p * s.K p / 3 := by
      simp only [Komar.K_DD_D0D1, Komar.psi4, Komar.psim2, X.g, X.A, X.K, X.psi, Alow, move2, Fin.sum_univ_three, As 1 0, As 2 0, As 2 1, gs 1 0, gs 2 0, gs 2 1]; ring
    have k02 : Komar.K_DD_D0D2 x = Alow s 0 2 p / s.psi p ^ 2 + s.psi p ^ 4 * s.g 0 2 p * s.K p / 3 := by
      simp only [Komar.K_DD_D0D2, Komar.psi4, Komar.psim2, X.g, X.A, X.K, X.psi, Alow, move2, Fin.sum_univ_three, As 1 0, As 2 0, As 2 1, gs 1 0, gs 2 0, gs 2 1]; ring
    have k11 : Komar.K_DD_D1D1 x = Alow s 1 1 p / s.psi p ^ 2 + s.psi p ^ 4 * s.g 1 1 p * s.K p / 3 := by
      simp only [Komar.K_DD_D1D1, Komar.psi4, Komar.psim2, X.g, X.A, X.K, X.psi, Alow, move2, Fin.sum_univ_three, As 1 0, As 2 0, As 2 1, gs 1 0, gs 2 0, gs 2 1]; ring
    have k12 : Komar.K_DD_D1D2 x = Alow s 1 2 p / s.psi p ^ 2 + s.psi p ^ 4 * s.g 1 2 p * s.K p / 3 := by
      simp only [Komar.K_DD_D1D2, Komar.psi4, Komar.psim2, X.g, X.A, X.K, X.psi, Alow, move2, Fin.sum_univ_three, As 1 0, As 2 0, As 2 1, gs 1 0, gs 2 0, gs 2 1]; ring
    have k22 : Komar.K_DD_D2D2 x = Alow s 2 2 p / s.psi p ^ 2 + s.psi p ^ 4 * s.g 2 2 p * s.K p / 3 := by
      simp only [Komar.K_DD_D2D2, Komar.psi4, Komar.psim2, X.g, X.A, X.K, X.psi, Alow, move2, Fin.sum_univ_three, As 1 0, As 2 0, As 2 1, gs 1 0, gs 2 0, gs 2 1]; ring
    rw [k00, k01, k02, k11, k12, k22]
    simp only [Fin.sum_univ_three, k 1 0, k 2 0, k 2 1, Komar.dalpha_U0, Komar.dalpha_U1, Komar.dalpha_U2, Komar.psi2, X.psi, X.dpsi, ha, hda]
    generalize Alow s 0 0 p / s.psi p ^ 2 + s.psi p ^ 4 * s.g 0 0 p * s.K p / 3 = a00
    generalize Alow s 0 1 p / s.psi p ^ 2 + s.psi p ^ 4 * s.g 0 1 p * s.K p / 3 = a01
    generalize Alow s 0 2 p / s.psi p ^ 2 + s.psi p ^ 4 * s.g 0 2 p * s.K p / 3 = a02
    generalize Alow s 1 1 p / s.psi p ^ 2 + s.psi p ^ 4 * s.g 1 1 p * s.K p / 3 = a11
    generalize Alow s 1 2 p / s.psi p ^ 2 + s.psi p ^ 4 * s.g 1 2 p * s.K p / 3 = a12
    generalize Alow s 2 2 p / s.psi p ^ 2 + s.psi p ^ 4 * s.g 2 2 p * s.K p / 3 = a22
    field_simp
    ring
  · unfold Komar.out_obs_komar_mass__v Komar.integrand_v Komar.alpha Komar.E Komar.S Komar.J_U0 Komar.J_U1 Komar.J_U2 Komar.psim6 Komar.psi4_ Slice.gam
    simp only [ha, hE, hS, hJ, X.psi, X.g, Fin.sum_univ_three, gs 1 0, gs 2 0, gs 2 1]
    field_simp
    ring

end Elliptica.Obs
