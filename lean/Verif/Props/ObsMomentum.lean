import Verif.Props.ObsTotal
import Verif.Props.HamMomAgree
/-!
C87 the linear and the angular momentum: the integrands.
-/
namespace Elliptica.Obs
open Elliptica.Adm Elliptica.DiffGeom Elliptica.Gen Elliptica.Gen.Obs Elliptica.Fields Elliptica.Conformal Elliptica.Extrinsic Elliptica.Constraints
open Elliptica.ObsSpec

variable {s : Slice} {p : Pt} {x : In}

/-- (K_{ij} - γ_{ij} K) n^i -/
noncomputable def flux (s : Slice) (p : Pt) (n : Fin 3 → ℝ) (j : Fin 3) : ℝ := ∑ i, PiD s i j p * n i

set_option maxHeartbeats 1000000 in
/-- C87: the linear momentum at a surface integrates (K_{ij} - γ_{ij} K) n^i -/
theorem C87_P (G : s.Good p) (X : At s p x) (j : Fin 3) : P.out_obs__Pn_D x j = some (∑ i, PiD s i j p * x.n_U i) := by
  have h0 := G.psi0 p
  have gs : ∀ a b, s.g a b p = s.g b a p := G.gs p
  have As : ∀ a b, s.A a b p = s.A b a p := G.As p
  have key : ∀ i j, PiD s i j p = Alow s i j p / s.psi p ^ 2 - 2 / 3 * (s.psi p ^ 4 * s.g i j p * s.K p) := fun i j => PiD_eq G i j p
  fin_cases j <;> simp only [P.out_obs__Pn_D, Fin.zero_eta, Fin.mk_one, Fin.reduceFinMk, P.Pn_D0, P.Pn_D1, P.Pn_D2, Option.some.injEq] <;>
    simp only [P.psi4, P.psim2, key, Alow, move2, Fin.sum_univ_three, X.g, X.A, X.K, X.psi, As 1 0, As 2 0, As 2 1, gs 1 0, gs 2 0, gs 2 1] <;>
    ring

/-- the vector product by its components -/
theorem cross_three (u v : Fin 3 → ℝ) :
    cross u v 0 = u 1 * v 2 - u 2 * v 1 ∧ cross u v 1 = u 2 * v 0 - u 0 * v 2 ∧ cross u v 2 = u 0 * v 1 - u 1 * v 0 := by
  refine ⟨?_, ?_, ?_⟩ <;> simp [cross, Fin.sum_univ_three, eps] <;> ring

/-- C87: the angular momentum at a surface integrates the vector product of the position and the flux of linear momentum -/
theorem C87_J (G : s.Good p) (X : At s p x) (a : Fin 3) : J.out_obs__Jn_D x a = some (cross x.xi_U (flux s p x.n_U) a) := by
  have e0 : J.Pn_D0 x = flux s p x.n_U 0 := Option.some.inj (C87_P G X 0)
  have e1 : J.Pn_D1 x = flux s p x.n_U 1 := Option.some.inj (C87_P G X 1)
  have e2 : J.Pn_D2 x = flux s p x.n_U 2 := Option.some.inj (C87_P G X 2)
  obtain ⟨c0, c1, c2⟩ := cross_three x.xi_U (flux s p x.n_U)
  fin_cases a <;> simp only [J.out_obs__Jn_D, Fin.zero_eta, Fin.mk_one, Fin.reduceFinMk, J.Jn_D0, J.Jn_D1, J.Jn_D2, e0, e1, e2, c0, c1, c2, Option.some.injEq] <;> ring

/-- lowering the index of the mixed tensor -/
theorem PiM_low (G : s.Good p) (i j : Fin 3) : ∑ k, s.gam i k p * PiM s k j p = PiD s i j p := by
  have I := inv_right (G.gs p) (G.hs p) (G.inv p)
  have h0 := G.psi0 p
  have e : ∑ k, s.gam i k p * PiM s k j p = ∑ l, (∑ k, s.g i k p * s.h k l p) * PiD s l j p := by
    simp only [PiM, Slice.gam, Slice.gamI, Fin.sum_univ_three]
    field_simp
    ring
  rw [e]
  simp only [I, kd]
  simp

set_option maxHeartbeats 1000000 in
/-- C87: "Rashti": the surface part is the same flux, the volume part the divergence of the vector field Π^i_j, for each j, so that
by Gauss's theorem the sum does not depend on the surface -/
theorem C87_Rashti (G : s.Good p) (X : At s p x) (j : Fin 3) :
    PRashti.out_obs__Pin_D x j = some (flux s p x.n_U j) ∧
    PRashti.out_obs__DPi_D x j = some (divergence s.gconn (fun i => PiM s i j) p) := by
  have gs : ∀ a b, s.g a b p = s.g b a p := G.gs p
  have As : ∀ a b, s.A a b p = s.A b a p := G.As p
  have cs : ∀ a b c, s.conn a b c p = s.conn a c b p := fun a b c => G.conn_symm a b c p
  have ds : ∀ a b c, pd (s.g a b) c p = pd (s.g b a) c p := fun a b c => G.pd_g_symm a b c p
  have dA : ∀ a b c, pd (s.A a b) c p = pd (s.A b a) c p := fun a b c => by
    have : s.A a b = s.A b a := funext fun q => G.As q a b
    rw [this]
  have h0 := G.psi0 p
  have eM : ∀ i j, PiM s i j p = (∑ k, s.A i k p * s.g k j p) / s.psi p ^ 6 - 2 / 3 * kd i j * s.K p := fun i j => congrFun (PiM_eq G i j) p
  constructor
  · have e : flux s p x.n_U j = ∑ i, (∑ k, s.psi p ^ 4 * s.g i k p * PiM s k j p) * x.n_U i := by
      unfold flux
      exact Finset.sum_congr rfl fun i _ => by rw [← PiM_low G i j]; rfl
    rw [e]
    simp only [eM]
    fin_cases j <;> simp only [PRashti.out_obs__Pin_D, Fin.zero_eta, Fin.mk_one, Fin.reduceFinMk, PRashti.Pin_D0, PRashti.Pin_D1, PRashti.Pin_D2, Option.some.injEq] <;>
      simp only [PRashti.Pi_U0D0, PRashti.Pi_U0D1, PRashti.Pi_U0D2, PRashti.Pi_U1D0, PRashti.Pi_U1D1, PRashti.Pi_U1D2, PRashti.Pi_U2D0, PRashti.Pi_U2D1, PRashti.Pi_U2D2,
        PRashti.psi4, PRashti.psim6, Fin.sum_univ_three, X.g, X.A, X.K, X.psi, As 1 0, As 2 0, As 2 1, gs 1 0, gs 2 0, gs 2 1] <;>
      simp [kd] <;> ring
  · have e : divergence s.gconn (fun i => PiM s i j) p = ∑ i, (pd (PiM s i j) i p + ((∑ k, s.conn k k i p) + 6 * s.L i p) * PiM s i j p) := by
      unfold divergence
      exact Finset.sum_congr rfl fun i _ => by rw [← Finset.sum_mul, gconn_trace G]
    rw [e]
    simp only [PiM_pd G, eM, Slice.L]
    have hL : ∀ i, x.dpsi_D i / x.psi = s.L i p := fun i => by rw [X.dpsi, X.psi]; rfl
    fin_cases j <;> simp only [PRashti.out_obs__DPi_D, Fin.zero_eta, Fin.mk_one, Fin.reduceFinMk, PRashti.DPi_D0, PRashti.DPi_D1, PRashti.DPi_D2, Option.some.injEq] <;>
      simp only [PRashti.Pi__U0D0, PRashti.Pi__U0D1, PRashti.Pi__U0D2, PRashti.Pi__U1D0, PRashti.Pi__U1D1, PRashti.Pi__U1D2, PRashti.Pi__U2D0, PRashti.Pi__U2D1, PRashti.Pi__U2D2,
        PRashti.dPi_U0, PRashti.dPi_U1, PRashti.dPi_U2, PRashti.dPi1_U0, PRashti.dPi1_U1, PRashti.dPi1_U2, PRashti.dPi2_U0, PRashti.dPi2_U1, PRashti.dPi2_U2,
        PRashti.dPi3_U0, PRashti.dPi3_U1, PRashti.dPi3_U2, PRashti.G_U0, PRashti.G_U1, PRashti.G_U2, PRashti.dlnpsi_U0, PRashti.dlnpsi_U1, PRashti.dlnpsi_U2,
        PRashti.psim6_, Fin.sum_univ_three, X.g, X.A, X.K, X.psi, X.dpsi, X.dA, X.dg, X.dK, X.c, As 1 0, As 2 0, As 2 1, gs 1 0, gs 2 0, gs 2 1,
        dA 1 0, dA 2 0, dA 2 1, ds 1 0, ds 2 0, ds 2 1, cs 0 1 0, cs 1 1 0, cs 2 1 0, cs 0 2 0, cs 1 2 0, cs 2 2 0, cs 0 2 1, cs 1 2 1, cs 2 2 1] <;>
      simp [kd] <;> ring

set_option maxHeartbeats 1000000 in
/-- the connection computed in obs_ADM_P_Stokes_constraint.c is the physical one -/
theorem gamma_PConstr (G : s.Good p) (X : At s p x) :
    PConstr.Gamma_U0D0D0 x = s.gconn 0 0 0 p ∧
    PConstr.Gamma_U0D0D1 x = s.gconn 0 0 1 p ∧
    PConstr.Gamma_U0D0D2 x = s.gconn 0 0 2 p ∧
    PConstr.Gamma_U0D1D1 x = s.gconn 0 1 1 p ∧
    PConstr.Gamma_U0D1D2 x = s.gconn 0 1 2 p ∧
    PConstr.Gamma_U0D2D2 x = s.gconn 0 2 2 p ∧
    PConstr.Gamma_U1D0D0 x = s.gconn 1 0 0 p ∧
    PConstr.Gamma_U1D0D1 x = s.gconn 1 0 1 p ∧
    PConstr.Gamma_U1D0D2 x = s.gconn 1 0 2 p ∧
    PConstr.Gamma_U1D1D1 x = s.gconn 1 1 1 p ∧
    PConstr.Gamma_U1D1D2 x = s.gconn 1 1 2 p ∧
    PConstr.Gamma_U1D2D2 x = s.gconn 1 2 2 p ∧
    PConstr.Gamma_U2D0D0 x = s.gconn 2 0 0 p ∧
    PConstr.Gamma_U2D0D1 x = s.gconn 2 0 1 p ∧
    PConstr.Gamma_U2D0D2 x = s.gconn 2 0 2 p ∧
    PConstr.Gamma_U2D1D1 x = s.gconn 2 1 1 p ∧
    PConstr.Gamma_U2D1D2 x = s.gconn 2 1 2 p ∧
    PConstr.Gamma_U2D2D2 x = s.gconn 2 2 2 p := by
  have gs : ∀ a b, s.g a b p = s.g b a p := G.gs p
  have hs : ∀ a b, s.h a b p = s.h b a p := G.hs p
  have h0 := G.psi0 p
  refine ⟨?_, ?_, ?_, ?_, ?_, ?_, ?_, ?_, ?_, ?_, ?_, ?_, ?_, ?_, ?_, ?_, ?_, ?_⟩ <;>
  simp only [PConstr.Gamma_U0D0D0, PConstr.Gamma_U0D0D1, PConstr.Gamma_U0D0D2, PConstr.Gamma_U0D1D1, PConstr.Gamma_U0D1D2, PConstr.Gamma_U0D2D2, PConstr.Gamma_U1D0D0, PConstr.Gamma_U1D0D1, PConstr.Gamma_U1D0D2, PConstr.Gamma_U1D1D1, PConstr.Gamma_U1D1D2, PConstr.Gamma_U1D2D2, PConstr.Gamma_U2D0D0, PConstr.Gamma_U2D0D1, PConstr.Gamma_U2D0D2, PConstr.Gamma_U2D1D1, PConstr.Gamma_U2D1D2, PConstr.Gamma_U2D2D2, PConstr.c_U0D0D0, PConstr.c_U0D0D1, PConstr.c_U0D0D2, PConstr.c_U0D1D1, PConstr.c_U0D1D2, PConstr.c_U0D2D2, PConstr.c_U1D0D0, PConstr.c_U1D0D1, PConstr.c_U1D0D2, PConstr.c_U1D1D1, PConstr.c_U1D1D2, PConstr.c_U1D2D2, PConstr.c_U2D0D0, PConstr.c_U2D0D1, PConstr.c_U2D0D2, PConstr.c_U2D1D1, PConstr.c_U2D1D2, PConstr.c_U2D2D2,
    PConstr.dLnpsi_D0, PConstr.dLnpsi_D1, PConstr.dLnpsi_D2, G.gconn_eq, diffC, up, Slice.L, Fin.sum_univ_three, X.c, X.psi, X.dpsi, X.g, X.h, hs 1 0, hs 2 0, hs 2 1, gs 1 0, gs 2 0, gs 2 1] <;>
  simp [kd] <;> ring

set_option maxHeartbeats 1000000 in
/-- K_ij - γ_ij K as computed there -/
theorem mom_PConstr (G : s.Good p) (X : At s p x) :
    PConstr.mom_D0D0 x = PiD s 0 0 p ∧ PConstr.mom_D0D1 x = PiD s 0 1 p ∧ PConstr.mom_D0D2 x = PiD s 0 2 p ∧ PConstr.mom_D1D1 x = PiD s 1 1 p ∧ PConstr.mom_D1D2 x = PiD s 1 2 p ∧ PConstr.mom_D2D2 x = PiD s 2 2 p := by
  have gs : ∀ a b, s.g a b p = s.g b a p := G.gs p
  have As : ∀ a b, s.A a b p = s.A b a p := G.As p
  have key : ∀ i j, PiD s i j p = Alow s i j p / s.psi p ^ 2 - 2 / 3 * (s.psi p ^ 4 * s.g i j p * s.K p) := fun i j => PiD_eq G i j p
  refine ⟨?_, ?_, ?_, ?_, ?_, ?_⟩ <;>
  simp only [PConstr.mom_D0D0, PConstr.mom_D0D1, PConstr.mom_D0D2, PConstr.mom_D1D1, PConstr.mom_D1D2, PConstr.mom_D2D2, PConstr.psi4_, PConstr.psim2_, key, Alow, move2, Fin.sum_univ_three, X.g, X.A, X.K, X.psi,
    As 1 0, As 2 0, As 2 1, gs 1 0, gs 2 0, gs 2 1] <;>
  ring

set_option maxHeartbeats 1000000 in
/-- the connection computed in obs_ADM_J_Stokes_constraint.c is the physical one -/
theorem gamma_JConstr (G : s.Good p) (X : At s p x) :
    JConstr.Gamma_U0D0D0 x = s.gconn 0 0 0 p ∧
    JConstr.Gamma_U0D0D1 x = s.gconn 0 0 1 p ∧
    JConstr.Gamma_U0D0D2 x = s.gconn 0 0 2 p ∧
    JConstr.Gamma_U0D1D1 x = s.gconn 0 1 1 p ∧
    JConstr.Gamma_U0D1D2 x = s.gconn 0 1 2 p ∧
    JConstr.Gamma_U0D2D2 x = s.gconn 0 2 2 p ∧
    JConstr.Gamma_U1D0D0 x = s.gconn 1 0 0 p ∧
    JConstr.Gamma_U1D0D1 x = s.gconn 1 0 1 p ∧
    JConstr.Gamma_U1D0D2 x = s.gconn 1 0 2 p ∧
    JConstr.Gamma_U1D1D1 x = s.gconn 1 1 1 p ∧
    JConstr.Gamma_U1D1D2 x = s.gconn 1 1 2 p ∧
    JConstr.Gamma_U1D2D2 x = s.gconn 1 2 2 p ∧
    JConstr.Gamma_U2D0D0 x = s.gconn 2 0 0 p ∧
    JConstr.Gamma_U2D0D1 x = s.gconn 2 0 1 p ∧
    JConstr.Gamma_U2D0D2 x = s.gconn 2 0 2 p ∧
    JConstr.Gamma_U2D1D1 x = s.gconn 2 1 1 p ∧
    JConstr.Gamma_U2D1D2 x = s.gconn 2 1 2 p ∧
    JConstr.Gamma_U2D2D2 x = s.gconn 2 2 2 p := by
  have gs : ∀ a b, s.g a b p = s.g b a p := G.gs p
  have hs : ∀ a b, s.h a b p = s.h b a p := G.hs p
  have h0 := G.psi0 p
  refine ⟨?_, ?_, ?_, ?_, ?_, ?_, ?_, ?_, ?_, ?_, ?_, ?_, ?_, ?_, ?_, ?_, ?_, ?_⟩ <;>
  simp only [JConstr.Gamma_U0D0D0, JConstr.Gamma_U0D0D1, JConstr.Gamma_U0D0D2, JConstr.Gamma_U0D1D1, JConstr.Gamma_U0D1D2, JConstr.Gamma_U0D2D2, JConstr.Gamma_U1D0D0, JConstr.Gamma_U1D0D1, JConstr.Gamma_U1D0D2, JConstr.Gamma_U1D1D1, JConstr.Gamma_U1D1D2, JConstr.Gamma_U1D2D2, JConstr.Gamma_U2D0D0, JConstr.Gamma_U2D0D1, JConstr.Gamma_U2D0D2, JConstr.Gamma_U2D1D1, JConstr.Gamma_U2D1D2, JConstr.Gamma_U2D2D2, JConstr.c_U0D0D0, JConstr.c_U0D0D1, JConstr.c_U0D0D2, JConstr.c_U0D1D1, JConstr.c_U0D1D2, JConstr.c_U0D2D2, JConstr.c_U1D0D0, JConstr.c_U1D0D1, JConstr.c_U1D0D2, JConstr.c_U1D1D1, JConstr.c_U1D1D2, JConstr.c_U1D2D2, JConstr.c_U2D0D0, JConstr.c_U2D0D1, JConstr.c_U2D0D2, JConstr.c_U2D1D1, JConstr.c_U2D1D2, JConstr.c_U2D2D2,
    JConstr.dLnpsi_D0, JConstr.dLnpsi_D1, JConstr.dLnpsi_D2, G.gconn_eq, diffC, up, Slice.L, Fin.sum_univ_three, X.c, X.psi, X.dpsi, X.g, X.h, hs 1 0, hs 2 0, hs 2 1, gs 1 0, gs 2 0, gs 2 1] <;>
  simp [kd] <;> ring

set_option maxHeartbeats 1000000 in
/-- K_ij - γ_ij K as computed there -/
theorem mom_JConstr (G : s.Good p) (X : At s p x) :
    JConstr.mom_D0D0 x = PiD s 0 0 p ∧ JConstr.mom_D0D1 x = PiD s 0 1 p ∧ JConstr.mom_D0D2 x = PiD s 0 2 p ∧ JConstr.mom_D1D1 x = PiD s 1 1 p ∧ JConstr.mom_D1D2 x = PiD s 1 2 p ∧ JConstr.mom_D2D2 x = PiD s 2 2 p := by
  have gs : ∀ a b, s.g a b p = s.g b a p := G.gs p
  have As : ∀ a b, s.A a b p = s.A b a p := G.As p
  have key : ∀ i j, PiD s i j p = Alow s i j p / s.psi p ^ 2 - 2 / 3 * (s.psi p ^ 4 * s.g i j p * s.K p) := fun i j => PiD_eq G i j p
  refine ⟨?_, ?_, ?_, ?_, ?_, ?_⟩ <;>
  simp only [JConstr.mom_D0D0, JConstr.mom_D0D1, JConstr.mom_D0D2, JConstr.mom_D1D1, JConstr.mom_D1D2, JConstr.mom_D2D2, JConstr.psi4_, JConstr.psim2_, key, Alow, move2, Fin.sum_univ_three, X.g, X.A, X.K, X.psi,
    As 1 0, As 2 0, As 2 1, gs 1 0, gs 2 0, gs 2 1] <;>
  ring

/-- the physical connection is symmetric and K_ij - γ_ij K too -/
theorem PiD_symm (G : s.Good p) (i j : Fin 3) : PiD s i j p = PiD s j i p := by
  rw [PiD_eq G, PiD_eq G, Alow_symm G, show s.g i j p = s.g j i p from G.gs p i j]

set_option maxHeartbeats 1000000 in
theorem Pv_sum (G : s.Good p) (X : At s p x) (j : Fin 3) :
    PConstr.out_obs__Pv_D x j = some (∑ k, ∑ l, s.gconn l k j p * PiM s k l p) := by
  obtain ⟨c000, c001, c002, c011, c012, c022, c100, c101, c102, c111, c112, c122, c200, c201, c202, c211, c212, c222⟩ := gamma_PConstr G X
  obtain ⟨m00, m01, m02, m11, m12, m22⟩ := mom_PConstr G X
  have hs : ∀ a b, s.h a b p = s.h b a p := G.hs p
  have Ps := fun a b => PiD_symm G a b
  have gc : ∀ a b c, s.gconn a b c p = s.gconn a c b p := fun a b c => congrFun (G.gconn_symm a b c) p
  fin_cases j <;> simp only [PConstr.out_obs__Pv_D, Fin.zero_eta, Fin.mk_one, Fin.reduceFinMk, PConstr.Pv_D0, PConstr.Pv_D1, PConstr.Pv_D2, Option.some.injEq,
    c000, c001, c002, c011, c012, c022, c100, c101, c102, c111, c112, c122, c200, c201, c202, c211, c212, c222, m00, m01, m02, m11, m12, m22, PConstr.psim4_, PConstr.psi4_, PiM, Slice.gamI, Fin.sum_univ_three, X.psi, X.h, hs 1 0, hs 2 0, hs 2 1, Ps 1 0, Ps 2 0, Ps 2 1,
    gc _ 1 0, gc _ 2 0, gc _ 2 1] <;>
  ring

set_option maxHeartbeats 1000000 in
theorem Ps_sum (G : s.Good p) (X : At s p x) (j : Fin 3) : PConstr.out_obs__Ps_D x j = some (flux s p x.n_U j) := by
  rw [show flux s p x.n_U j = ∑ i, PiD s i j p * x.n_U i from rfl, ← C87_P G X j]
  fin_cases j <;> rfl

/-- C87: "constraint": the surface part is the same flux, the volume part the divergence of the vector field Π^i_j, for each j, minus
the covariant divergence (D_i Π^i)_j -/
theorem C87_constraint (G : s.Good p) (X : At s p x) (j : Fin 3) :
    PConstr.out_obs__Ps_D x j = some (flux s p x.n_U j) ∧
    PConstr.out_obs__Pv_D x j = some (divergence s.gconn (fun i => PiM s i j) p - mixedDiv s.gconn (PiM s) p j) := by
  refine ⟨Ps_sum G X j, ?_⟩
  rw [Pv_sum G X j]
  have gc : ∀ a b c, s.gconn a b c p = s.gconn a c b p := fun a b c => congrFun (G.gconn_symm a b c) p
  unfold divergence mixedDiv
  simp only [Fin.sum_univ_three, Option.some.injEq]
  ring

/-- the field of a rotation about the point c and the axis a: φ^j = ε_{abj} (q - c)^b -/
noncomputable def rot (c : Fin 3 → ℝ) (a j : Fin 3) (q : Pt) : ℝ := ∑ b, eps a b j * (q b - c b)

theorem rot_has (c : Fin 3 → ℝ) (a j m : Fin 3) : HasDerivAt (line (rot c a j) m p) (eps a m j) (p m) := by
  have : ∀ b, HasDerivAt (fun t => eps a b j * ((Function.update p m t) b - c b)) (eps a b j * kd b m) (p m) := by
    intro b
    by_cases e : b = m
    · subst e
      have h : HasDerivAt (fun t : ℝ => eps a b j * (t - c b)) (eps a b j * 1) (p b) := ((hasDerivAt_id (p b)).sub_const (c b)).const_mul _
      simp only [Function.update_self, kd, if_true]
      exact h
    · simp only [Function.update_of_ne e, kd, if_neg e, mul_zero]
      exact hasDerivAt_const _ _
  have h := HasDerivAt.fun_sum (u := Finset.univ) fun b _ => this b
  have e : (∑ b, eps a b j * kd b m) = eps a m j := by simp [kd]
  rw [e] at h
  exact h

/-- the product rule: the divergence of Π^i_j φ^j -/
theorem div_rot (G : s.Good p) (c : Fin 3 → ℝ) (a : Fin 3) :
    divergence s.gconn (fun i q => ∑ j, PiM s i j q * rot c a j q) p - ∑ j, mixedDiv s.gconn (PiM s) p j * rot c a j p =
      ∑ k, ∑ l, PiM s k l p * (eps a k l + ∑ m, s.gconn l k m p * rot c a m p) := by
  have dPi : ∀ i j, Diff (PiM s i j) p := by
    intro i j
    rw [PiM_eq G]
    intro m
    have h1 : HasDerivAt (fun t => ∑ k, line (s.A i k) m p t * line (s.g k j) m p t) _ (p m) :=
      HasDerivAt.fun_sum fun k _ => ((G.dA i k).has m).mul ((G.dg k j p).has m)
    exact ((h1.div (((G.dpsi p).has m).pow 6) (by simp only [Pi.pow_apply, line_at]; exact pow_ne_zero 6 (G.psi0 p))).sub
      ((G.dK.has m).const_mul (2 / 3 * kd i j))).differentiableAt
  have D : ∀ i, pd (fun q => ∑ j, PiM s i j q * rot c a j q) i p = ∑ j, (pd (PiM s i j) i p * rot c a j p + PiM s i j p * eps a i j) := by
    intro i
    have : HasDerivAt (fun t => ∑ j, line (PiM s i j) i p t * line (rot c a j) i p t)
        (∑ j, (pd (PiM s i j) i p * rot c a j p + PiM s i j p * eps a i j)) (p i) :=
      HasDerivAt.fun_sum fun j _ => (((dPi i j).has i).mul (rot_has c a j i)).congr_deriv (by simp only [line_at])
    exact this.deriv
  unfold divergence mixedDiv
  simp only [D]
  simp only [Fin.sum_univ_three]
  ring

set_option maxHeartbeats 1000000 in
theorem Jv_sum (G : s.Good p) (X : At s p x) (c : Fin 3 → ℝ) (hc : ∀ i, x.x_xCM_U i = p i - c i) (a : Fin 3) :
    JConstr.out_obs__Jv_D x a = some (∑ k, ∑ l, PiM s k l p * (eps a k l + ∑ m, s.gconn l k m p * rot c a m p)) := by
  obtain ⟨c000, c001, c002, c011, c012, c022, c100, c101, c102, c111, c112, c122, c200, c201, c202, c211, c212, c222⟩ := gamma_JConstr G X
  obtain ⟨m00, m01, m02, m11, m12, m22⟩ := mom_JConstr G X
  have hs : ∀ a b, s.h a b p = s.h b a p := G.hs p
  have Ps := fun a b => PiD_symm G a b
  have gc : ∀ a b c, s.gconn a b c p = s.gconn a c b p := fun a b c => congrFun (G.gconn_symm a b c) p
  fin_cases a <;> simp only [JConstr.out_obs__Jv_D, Fin.zero_eta, Fin.mk_one, Fin.reduceFinMk, JConstr.Jv_D0, JConstr.Jv_D1, JConstr.Jv_D2, Option.some.injEq,
    JConstr.Dphi_U0D0U0, JConstr.Dphi_U0D0U1, JConstr.Dphi_U0D0U2, JConstr.Dphi_U0D1U0, JConstr.Dphi_U0D1U1, JConstr.Dphi_U0D1U2, JConstr.Dphi_U0D2U0, JConstr.Dphi_U0D2U1, JConstr.Dphi_U0D2U2, JConstr.Dphi_U1D0U0, JConstr.Dphi_U1D0U1, JConstr.Dphi_U1D0U2, JConstr.Dphi_U1D1U0, JConstr.Dphi_U1D1U1, JConstr.Dphi_U1D1U2, JConstr.Dphi_U1D2U0, JConstr.Dphi_U1D2U1, JConstr.Dphi_U1D2U2, JConstr.Dphi_U2D0U0, JConstr.Dphi_U2D0U1, JConstr.Dphi_U2D0U2, JConstr.Dphi_U2D1U0, JConstr.Dphi_U2D1U1, JConstr.Dphi_U2D1U2, JConstr.Dphi_U2D2U0, JConstr.Dphi_U2D2U1, JConstr.Dphi_U2D2U2,
    JConstr.dPhi_U0D0U0, JConstr.dPhi_U0D0U1, JConstr.dPhi_U0D0U2, JConstr.dPhi_U0D1U0, JConstr.dPhi_U0D1U1, JConstr.dPhi_U0D1U2, JConstr.dPhi_U0D2U0, JConstr.dPhi_U0D2U1, JConstr.dPhi_U0D2U2, JConstr.dPhi_U1D0U0, JConstr.dPhi_U1D0U1, JConstr.dPhi_U1D0U2, JConstr.dPhi_U1D1U0, JConstr.dPhi_U1D1U1, JConstr.dPhi_U1D1U2, JConstr.dPhi_U1D2U0, JConstr.dPhi_U1D2U1, JConstr.dPhi_U1D2U2, JConstr.dPhi_U2D0U0, JConstr.dPhi_U2D0U1, JConstr.dPhi_U2D0U2, JConstr.dPhi_U2D1U0, JConstr.dPhi_U2D1U1, JConstr.dPhi_U2D1U2, JConstr.dPhi_U2D2U0, JConstr.dPhi_U2D2U1, JConstr.dPhi_U2D2U2,
    JConstr.Phi_U0D0, JConstr.Phi_U0D1, JConstr.Phi_U0D2, JConstr.Phi_U1D0, JConstr.Phi_U1D1, JConstr.Phi_U1D2, JConstr.Phi_U2D0, JConstr.Phi_U2D1, JConstr.Phi_U2D2,
    c000, c001, c002, c011, c012, c022, c100, c101, c102, c111, c112, c122, c200, c201, c202, c211, c212, c222, m00, m01, m02, m11, m12, m22, JConstr.psim4_, JConstr.psi4_, PiM, Slice.gamI, rot, eps, Fin.sum_univ_three, X.psi, X.h, hc, hs 1 0, hs 2 0, hs 2 1, Ps 1 0, Ps 2 0, Ps 2 1,
    gc _ 1 0, gc _ 2 0, gc _ 2 1] <;>
  ring

/-- C87: the same for the angular momentum about the centre of mass: the surface part is the vector product of the position from it
and the flux of linear momentum, the volume part the divergence of Π^i_j φ^j, φ the field of the rotation, minus (D_i Π^i)_j φ^j -/
theorem C87_J_constraint (G : s.Good p) (X : At s p x) (c : Fin 3 → ℝ) (hc : ∀ i, x.x_xCM_U i = p i - c i) (a : Fin 3) :
    JConstr.out_obs__Js_D x a = some (cross (fun i => p i - c i) (flux s p x.n_U) a) ∧
    JConstr.out_obs__Jv_D x a = some (divergence s.gconn (fun i q => ∑ j, PiM s i j q * rot c a j q) p
      - ∑ j, mixedDiv s.gconn (PiM s) p j * rot c a j p) := by
  constructor
  · have e0 : JConstr.Pn_D0 x = flux s p x.n_U 0 := Option.some.inj (C87_P G X 0)
    have e1 : JConstr.Pn_D1 x = flux s p x.n_U 1 := Option.some.inj (C87_P G X 1)
    have e2 : JConstr.Pn_D2 x = flux s p x.n_U 2 := Option.some.inj (C87_P G X 2)
    obtain ⟨c0, c1, c2⟩ := cross_three (fun i => p i - c i) (flux s p x.n_U)
    fin_cases a <;> simp only [JConstr.out_obs__Js_D, Fin.zero_eta, Fin.mk_one, Fin.reduceFinMk, JConstr.Js_D0, JConstr.Js_D1, JConstr.Js_D2,
      JConstr.Phi__U0D0, JConstr.Phi__U0D1, JConstr.Phi__U0D2, JConstr.Phi__U1D0, JConstr.Phi__U1D1, JConstr.Phi__U1D2, JConstr.Phi__U2D0, JConstr.Phi__U2D1, JConstr.Phi__U2D2, hc, e0, e1, e2, c0, c1, c2, Option.some.injEq] <;> ring
  · rw [Jv_sum G X c hc a, div_rot G c a]

/-- the surface part with the rotation field is the same -/
theorem rot_cross (c : Fin 3 → ℝ) (a : Fin 3) (v : Fin 3 → ℝ) : ∑ j, rot c a j p * v j = cross (fun i => p i - c i) v a := by
  unfold rot cross
  fin_cases a <;> simp [Fin.sum_univ_three, eps] <;> ring

/-- the physical metric is constant for its connection -/
theorem gam_dg (G : s.Good p) (i j k : Fin 3) : pd (s.gam i j) k p = ∑ l, (s.gconn l k i p * s.gam l j p + s.gconn l k j p * s.gam i l p) := by
  have gs : ∀ a b, s.g a b p = s.g b a p := G.gs p
  have h0 := G.psi0 p
  have I := inv_right (G.gs p) (G.hs p) (G.inv p)
  have lowV : ∀ i, ∑ k, s.g i k p * up (fun i j => s.h i j p) (fun l => s.L l p) k = s.L i p := by
    intro i
    have : ∑ k, s.g i k p * up (fun i j => s.h i j p) (fun l => s.L l p) k = ∑ l, (∑ k, s.g i k p * s.h k l p) * s.L l p := by
      simp only [up, Fin.sum_univ_three]; ring
    rw [this]
    simp only [I, kd]
    simp
  rw [G.gam_pd, show pd (s.g i j) k p = _ from G.compat.dg i j k]
  have e : ∑ l, (s.gconn l k i p * s.gam l j p + s.gconn l k j p * s.gam i l p) =
      s.psi p ^ 4 * (∑ l, (s.conn l k i p * s.g l j p + s.conn l k j p * s.g i l p)) +
      s.psi p ^ 4 * ∑ l, (diffC (fun i j => s.g i j p) (fun i j => s.h i j p) (fun l => s.L l p) l k i * s.g l j p +
        diffC (fun i j => s.g i j p) (fun i j => s.h i j p) (fun l => s.L l p) l k j * s.g i l p) := by
    simp only [G.gconn_eq, Slice.gam, Fin.sum_univ_three]
    ring
  rw [e]
  congr 1
  have d : ∀ a b, ∑ l, diffC (fun i j => s.g i j p) (fun i j => s.h i j p) (fun l => s.L l p) l k a * s.g l b p =
      2 * (s.g k b p * s.L a p + s.g a b p * s.L k p - s.g k a p * s.L b p) := by
    intro a b
    rw [← lowV b]
    unfold diffC
    have : ∑ l, 2 * (kd l k * s.L a p + kd l a * s.L k p - s.g k a p * up (fun i j => s.h i j p) (fun l => s.L l p) l) * s.g l b p =
        2 * ((∑ l, kd l k * s.g l b p) * s.L a p + (∑ l, kd l a * s.g l b p) * s.L k p - s.g k a p * ∑ l, s.g b l p * up (fun i j => s.h i j p) (fun l => s.L l p) l) := by
      simp only [Fin.sum_univ_three, gs b 0, gs b 1, gs b 2]
      ring
    rw [this]
    simp [kd]
  rw [Finset.sum_add_distrib, d i j, show (∑ l, diffC (fun i j => s.g i j p) (fun i j => s.h i j p) (fun l => s.L l p) l k j * s.g i l p) =
    ∑ l, diffC (fun i j => s.g i j p) (fun i j => s.h i j p) (fun l => s.L l p) l k j * s.g l i p from Finset.sum_congr rfl fun l _ => by rw [gs i l], d j i, gs j i, gs k j, gs k i]
  unfold Slice.L
  field_simp
  ring

/-- C87: (D_i Π^i)_j is the left hand side of the momentum constraint with its index lowered, γ_jk (D_l K^kl - γ^kl ∂_l K): it is
zero in vacuum -/
theorem C87_momentum (G : s.Good p) (j : Fin 3) :
    mixedDiv s.gconn (PiM s) p j = ∑ k, s.gam j k p *
      (divT (fun i j k => s.gconn i j k p) (fun i j => s.KK i j p) (fun i j k => pd (s.KK i j) k p) k - ∑ l, s.gamI k l p * pd s.K l p) := by
  have h0 := G.psi0 p
  have gs : ∀ a b, s.g a b p = s.g b a p := G.gs p
  have gc : ∀ a b c, s.gconn a b c p = s.gconn a c b p := fun a b c => congrFun (G.gconn_symm a b c) p
  have ks : ∀ a b, s.KK a b p = s.KK b a p := fun a b => congrFun (G.KK_symm a b) p
  have kds : ∀ a b c, pd (s.KK a b) c p = pd (s.KK b a) c p := fun a b c => by rw [G.KK_symm a b]
  have gms : ∀ a b, s.gam a b p = s.gam b a p := fun a b => by unfold Slice.gam; rw [gs a b]
  have I : ∀ q i j, ∑ k, s.gam i k q * s.gamI k j q = kd i j := by
    intro q i j
    rw [← inv_right (G.gs q) (G.hs q) (G.inv q) i j]
    have := G.psi0 q
    simp only [Slice.gam, Slice.gamI, Fin.sum_univ_three]
    field_simp
  have I' : ∀ q i j, ∑ k, s.gamI i k q * s.gam k j q = kd i j := by
    intro q i j
    have e : ∑ k, s.h i k q * s.g k j q = kd i j := G.inv q i j
    rw [← e]
    have := G.psi0 q
    simp only [Slice.gam, Slice.gamI, Fin.sum_univ_three]
    field_simp
  have e1 : ∀ i j, PiM s i j = fun q => (∑ k, s.KK i k q * s.gam k j q) - kd i j * s.K q := by
    intro i j
    funext q
    have gq : ∀ a b, s.gam a b q = s.gam b a q := fun a b => by unfold Slice.gam; rw [show s.g a b q = s.g b a q from G.gs q a b]
    rw [← I' q i j]
    have : PiM s i j q = (∑ l, (∑ k, s.gamI i k q * s.gam k l q) * ∑ m, s.gam j m q * s.KK l m q) - (∑ k, s.gamI i k q * s.gam k j q) * s.K q := by
      simp only [PiM, PiD, Klow, move2, Fin.sum_univ_three]; ring
    rw [this]
    simp only [I' q, kd, ite_mul, one_mul, zero_mul, Finset.sum_ite_eq, Finset.mem_univ, if_true]
    congr 1
    exact Finset.sum_congr rfl fun m _ => by rw [gq j m]; ring
  have dK2 : ∀ i k, Diff (s.KK i k) p := by
    intro i k m
    have hl : line s.psi m p (p m) ≠ 0 := by rw [line_at]; exact h0
    have h1 := ((G.dA i k).has m).div (((G.dpsi p).has m).pow 10) (pow_ne_zero 10 hl)
    have h2 := (((((G.dh i k).has m).div (((G.dpsi p).has m).pow 4) (pow_ne_zero 4 hl)).mul (G.dK.has m)).div_const 3)
    exact (h1.add h2).differentiableAt
  have dG : ∀ i k, Diff (s.gam i k) p := by
    intro i k m
    exact ((((G.dpsi p).has m).pow 4).mul ((G.dg i k p).has m)).differentiableAt
  have e2 : ∀ i j m, pd (PiM s i j) m p = (∑ k, (pd (s.KK i k) m p * s.gam k j p + s.KK i k p * pd (s.gam k j) m p)) - kd i j * pd s.K m p := by
    intro i j m
    rw [e1]
    have h : HasDerivAt (fun t => (∑ k, line (s.KK i k) m p t * line (s.gam k j) m p t) - kd i j * line s.K m p t)
        ((∑ k, (pd (s.KK i k) m p * s.gam k j p + s.KK i k p * pd (s.gam k j) m p)) - kd i j * pd s.K m p) (p m) :=
      (HasDerivAt.fun_sum fun k _ => (((dK2 i k).has m).mul ((dG k j).has m)).congr_deriv (by simp only [line_at])).sub ((G.dK.has m).const_mul _)
    exact h.deriv
  have r : ∑ k, s.gam j k p * (divT (fun i j k => s.gconn i j k p) (fun i j => s.KK i j p) (fun i j k => pd (s.KK i j) k p) k - ∑ l, s.gamI k l p * pd s.K l p) =
      (∑ k, s.gam j k p * divT (fun i j k => s.gconn i j k p) (fun i j => s.KK i j p) (fun i j k => pd (s.KK i j) k p) k) - ∑ l, (∑ k, s.gam j k p * s.gamI k l p) * pd s.K l p := by
    simp only [Fin.sum_univ_three]; ring
  rw [r]
  simp only [I, mixedDiv, e2]
  simp only [gam_dg G, e1, divT]
  fin_cases j <;> simp only [Fin.zero_eta, Fin.mk_one, Fin.reduceFinMk, Fin.sum_univ_three, gc _ 1 0, gc _ 2 0, gc _ 2 1, ks 1 0, ks 2 0, ks 2 1,
    kds 1 0, kds 2 0, kds 2 1, gms 1 0, gms 2 0, gms 2 1] <;> simp [kd] <;> ring

/-- P^{ij} = ψ^10 (K^{ij} - γ^{ij} K), the density the "Ossokine" routine integrates -/
noncomputable def PUU (s : Slice) (i j : Fin 3) (q : Pt) : ℝ := s.psi q ^ 10 * (s.KK i j q - s.gamI i j q * s.K q)

theorem PUU_eq (G : s.Good p) (i j : Fin 3) (q : Pt) : PUU s i j q = s.A i j q - 2 / 3 * s.h i j q * s.psi q ^ 6 * s.K q := by
  have h0 := G.psi0 q
  unfold PUU Slice.KK Kup Slice.gamI
  field_simp
  ring

theorem PUU_pd (G : s.Good p) (i j m : Fin 3) :
    pd (PUU s i j) m p = pd (s.A i j) m p - 2 / 3 * (pd (s.h i j) m p * s.psi p ^ 6 * s.K p + 6 * s.h i j p * s.psi p ^ 5 * pd s.psi m p * s.K p
      + s.h i j p * s.psi p ^ 6 * pd s.K m p) := by
  have e : PUU s i j = fun q => s.A i j q - 2 / 3 * (s.h i j q * s.psi q ^ 6 * s.K q) := by
    funext q; rw [PUU_eq G]; ring
  rw [e]
  have h := ((G.dA i j).has m).sub (((((G.dh i j).has m).mul (((G.dpsi p).has m).pow 6)).mul (G.dK.has m)).const_mul (2 / 3))
  refine h.deriv.trans ?_
  simp only [Pi.mul_apply, Pi.pow_apply, line_at, Nat.cast_ofNat, Nat.reduceSub]
  ring

set_option maxHeartbeats 4000000 in
/-- C87, in part: "Ossokine": the surface part is P^{ij} n_j; the volume part G^i, integrated with the sign -, is, within the
cut-off, minus the coordinate divergence ∂_j P^{ij}, up to ψ^10 times the momentum constraint -/
theorem C87_Ossokine_partial (G : s.Good p) (tr : ∑ i, ∑ j, s.g i j p * s.A i j p = 0) (X : At s p x) (att : x.att = 1) (i : Fin 3) :
    POss.out_obs__P_U x i = some (∑ j, PUU s i j p * ∑ k, s.gam j k p * x.n_U k) ∧
    POss.out_obs__G_U x i = some (-(∑ j, pd (PUU s i j) j p) + s.psi p ^ 10 *
      (divT (fun i j k => s.gconn i j k p) (fun i j => s.KK i j p) (fun i j k => pd (s.KK i j) k p) i - ∑ l, s.gamI i l p * pd s.K l p)) := by
  have gs : ∀ a b, s.g a b p = s.g b a p := G.gs p
  have hs : ∀ a b, s.h a b p = s.h b a p := G.hs p
  have As : ∀ a b, s.A a b p = s.A b a p := G.As p
  have cs : ∀ a b c, s.conn a b c p = s.conn a c b p := fun a b c => G.conn_symm a b c p
  have h0 := G.psi0 p
  constructor
  · simp only [PUU_eq G]
    fin_cases i <;> simp only [POss.out_obs__P_U, Fin.zero_eta, Fin.mk_one, Fin.reduceFinMk, POss.Pn_U0, POss.Pn_U1, POss.Pn_U2, Option.some.injEq] <;>
      simp only [POss.P_U0U0, POss.P_U0U1, POss.P_U0U2, POss.P_U1U1, POss.P_U1U2, POss.P_U2U2, POss.psi4, POss.psi6, Slice.gam, Fin.sum_univ_three,
        X.g, X.h, X.A, X.K, X.psi, As 1 0, As 2 0, As 2 1, gs 1 0, gs 2 0, gs 2 1, hs 1 0, hs 2 0, hs 2 1] <;>
      ring
  · have T : ∑ j, ∑ k, s.g j k p * PUU s j k p = -2 * s.psi p ^ 6 * s.K p := by
      have t3 : ∑ i, ∑ j, s.g i j p * s.h i j p = 3 := trace3 (G.gs p) (G.inv p)
      have : ∑ j, ∑ k, s.g j k p * PUU s j k p = (∑ i, ∑ j, s.g i j p * s.A i j p) - 2 / 3 * s.psi p ^ 6 * s.K p * ∑ i, ∑ j, s.g i j p * s.h i j p := by
        simp only [PUU_eq G, Fin.sum_univ_three]; ring
      rw [this, tr, t3]; ring
    have M : divT (fun i j k => s.gconn i j k p) (fun i j => s.KK i j p) (fun i j k => pd (s.KK i j) k p) i =
        divT (fun i j k => s.conn i j k p) (fun i j => s.A i j p) (fun i j k => pd (s.A i j) k p) i / s.psi p ^ 10 + (∑ j, s.h i j p * pd s.K j p) / s.psi p ^ 4 / 3 := by
      rw [← div_phys G.compat (s.psi p) (fun i => pd s.psi i p) (fun i j => s.A i j p) (fun i j k => pd (s.A i j) k p) (s.K p) (fun i => pd s.K i p) h0 (G.As p) tr i]
      simp only [G.gconn_eq, KK_pd G]
      rfl
    have dh : ∀ j, pd (s.h i j) j p = - ∑ l, (s.conn i j l p * s.h l j p + s.conn j j l p * s.h i l p) := fun j => G.compat.dh i j j
    have e : -(∑ j, pd (PUU s i j) j p) + s.psi p ^ 10 *
        (divT (fun i j k => s.gconn i j k p) (fun i j => s.KK i j p) (fun i j k => pd (s.KK i j) k p) i - ∑ l, s.gamI i l p * pd s.K l p) =
        (∑ j, ∑ k, (s.conn i j k p * PUU s k j p + s.conn j j k p * PUU s i k p)) - 2 * (∑ j, ∑ k, s.g j k p * PUU s j k p) * (∑ l, s.h i l p * pd s.psi l p) / s.psi p := by
      rw [M, T]
      simp only [PUU_pd G, dh]
      simp only [PUU_eq G, divT, Slice.gamI, Fin.sum_univ_three]
      field_simp
      ring
    rw [e]
    have ps : ∀ a b, PUU s a b p = PUU s b a p := fun a b => by rw [PUU_eq G, PUU_eq G, As a b, hs a b]
    have q : POss.P__U0U0 x = PUU s 0 0 p ∧ POss.P__U0U1 x = PUU s 0 1 p ∧ POss.P__U0U2 x = PUU s 0 2 p ∧ POss.P__U1U1 x = PUU s 1 1 p ∧
        POss.P__U1U2 x = PUU s 1 2 p ∧ POss.P__U2U2 x = PUU s 2 2 p := by
      simp only [PUU_eq G, POss.P__U0U0, POss.P__U0U1, POss.P__U0U2, POss.P__U1U1, POss.P__U1U2, POss.P__U2U2, POss.psi6_, X.A, X.h, X.K, X.psi, and_self]
    obtain ⟨q00, q01, q02, q11, q12, q22⟩ := q
    fin_cases i <;> simp only [POss.out_obs__G_U, Fin.zero_eta, Fin.mk_one, Fin.reduceFinMk, POss.G_U0, POss.G_U1, POss.G_U2, Option.some.injEq] <;>
      simp only [POss.G1_U0, POss.G1_U1, POss.G1_U2, POss.G2_U0, POss.G2_U1, POss.G2_U2, q00, q01, q02, q11, q12, q22, att, Fin.sum_univ_three,
        X.g, X.h, X.psi, X.dpsi, X.c, gs 1 0, gs 2 0, gs 2 1, hs 1 0, hs 2 0, hs 2 1, ps 1 0, ps 2 0, ps 2 1, cs _ 1 0, cs _ 2 0, cs _ 2 1] <;>
      ring

/-- the trace-free part of the extrinsic curvature along the normal: (K_ij - γ_ij K/3) n^i -/
noncomputable def shear (s : Slice) (p : Pt) (n : Fin 3 → ℝ) (j : Fin 3) : ℝ := ∑ i, (Klow s i j p - s.gam i j p * s.K p / 3) * n i

theorem shear_eq (G : s.Good p) (n : Fin 3 → ℝ) (j : Fin 3) : shear s p n j = ∑ i, Alow s i j p / s.psi p ^ 2 * n i := by
  unfold shear
  refine Finset.sum_congr rfl fun i _ => ?_
  rw [Klow_eq G]
  unfold Slice.gam
  ring

/-- along a direction tangent to the surface it is the flux of linear momentum -/
theorem shear_flux (n v : Fin 3 → ℝ) (h : ∑ i, ∑ j, s.gam i j p * n i * v j = 0) : ∑ j, shear s p n j * v j = ∑ j, flux s p n j * v j := by
  have : ∑ j, shear s p n j * v j = (∑ j, flux s p n j * v j) + 2 / 3 * s.K p * ∑ i, ∑ j, s.gam i j p * n i * v j := by
    simp only [shear, flux, PiD, Fin.sum_univ_three]; ring
  rw [this, h]; ring

set_option maxHeartbeats 1000000 in
theorem spin_eq (G : s.Good p) (X : At s p x) :
    (SpinC.Pn_U0 x = shear s p x.n_U 0 ∧ SpinC.Pn_U1 x = shear s p x.n_U 1 ∧ SpinC.Pn_U2 x = shear s p x.n_U 2) ∧
    SpinA.Pn_D0 x = shear s p x.n_U 0 ∧ SpinA.Pn_D1 x = shear s p x.n_U 1 ∧ SpinA.Pn_D2 x = shear s p x.n_U 2 := by
  have gs : ∀ a b, s.g a b p = s.g b a p := G.gs p
  have As : ∀ a b, s.A a b p = s.A b a p := G.As p
  simp only [shear_eq G]
  refine ⟨⟨?_, ?_, ?_⟩, ?_, ?_, ?_⟩ <;>
  simp only [SpinC.Pn_U0, SpinC.Pn_U1, SpinC.Pn_U2, SpinC.psim2, SpinA.Pn_D0, SpinA.Pn_D1, SpinA.Pn_D2, SpinA.psim2, Alow, move2, Fin.sum_univ_three, X.g, X.A, X.psi,
    As 1 0, As 2 0, As 2 1, gs 1 0, gs 2 0, gs 2 1] <;> ring

/-- C87: the spins integrate (K_ij - γ_ij K/3) n^i φ^j: "Campanelli" with the rotations φ about the centre of the object, "AKV" with
the three approximate Killing vectors; when φ is tangent to the surface this is the flux of angular momentum (K_ij - γ_ij K) n^i φ^j -/
theorem C87_spin (G : s.Good p) (X : At s p x) (c : Fin 3 → ℝ) (hc : ∀ i, x.xi_U i = p i - c i) (a : Fin 3) :
    SpinC.out_SPIN_integrand_U x a = some (∑ j, shear s p x.n_U j * rot c a j p) ∧
    SpinA.out_SPIN_integrand_U x a = some (∑ j, shear s p x.n_U j * (![x.AKV0_U, x.AKV1_U, x.AKV2_U] a) j) ∧
    ∀ v : Fin 3 → ℝ, ∑ i, ∑ j, s.gam i j p * x.n_U i * v j = 0 → ∑ j, shear s p x.n_U j * v j = ∑ j, flux s p x.n_U j * v j := by
  obtain ⟨⟨c0, c1, c2⟩, a0, a1, a2⟩ := spin_eq G X
  refine ⟨?_, ?_, fun v h => shear_flux _ v h⟩
  · have e : ∑ j, shear s p x.n_U j * rot c a j p = cross x.xi_U (shear s p x.n_U) a := by
      rw [show x.xi_U = fun i => p i - c i from funext hc, ← rot_cross]
      exact Finset.sum_congr rfl fun _ _ => mul_comm _ _
    rw [e]
    obtain ⟨k0, k1, k2⟩ := cross_three x.xi_U (shear s p x.n_U)
    fin_cases a <;> simp only [SpinC.out_SPIN_integrand_U, Fin.zero_eta, Fin.mk_one, Fin.reduceFinMk, SpinC.xiP_U0, SpinC.xiP_U1, SpinC.xiP_U2,
      c0, c1, c2, k0, k1, k2, Option.some.injEq] <;> ring
  · fin_cases a <;> simp [SpinA.out_SPIN_integrand_U, SpinA.s0, SpinA.s1, SpinA.s2, a0, a1, a2, Fin.sum_univ_three] <;> ring

set_option maxHeartbeats 1000000 in
/-- C87: the angular momentum by "Ossokine" integrates the vector product of the position and ψ^10 (K^ij - γ^ij K/3) n_j -/
theorem C87_J_Ossokine (G : s.Good p) (X : At s p x) (a : Fin 3) :
    JOss.out_obs__Jn_U x a = some (cross x.xi_U (fun i => ∑ j, s.psi p ^ 10 * (s.KK i j p - s.gamI i j p * s.K p / 3) * ∑ k, s.gam j k p * x.n_U k) a) := by
  have gs : ∀ a b, s.g a b p = s.g b a p := G.gs p
  have As : ∀ a b, s.A a b p = s.A b a p := G.As p
  have h0 := G.psi0 p
  have k : ∀ i j, s.psi p ^ 10 * (s.KK i j p - s.gamI i j p * s.K p / 3) = s.A i j p := by
    intro i j
    unfold Slice.KK Kup Slice.gamI
    field_simp
    ring
  simp only [k]
  obtain ⟨k0, k1, k2⟩ := cross_three x.xi_U (fun i => ∑ j, s.A i j p * ∑ k, s.gam j k p * x.n_U k)
  fin_cases a <;> simp only [JOss.out_obs__Jn_U, Fin.zero_eta, Fin.mk_one, Fin.reduceFinMk, JOss.xiP_U0, JOss.xiP_U1, JOss.xiP_U2, k0, k1, k2, Option.some.injEq] <;>
    simp only [JOss.Pn_U0, JOss.Pn_U1, JOss.Pn_U2, JOss.psi4, Slice.gam, Fin.sum_univ_three, X.g, X.A, X.psi, As 1 0, As 2 0, As 2 1, gs 1 0, gs 2 0, gs 2 1] <;>
    ring

end Elliptica.Obs
