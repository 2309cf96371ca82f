import Verif.Props.EqPhi
import Verif.Spec.Fields
import Verif.Lemmas.Fields
/-!
C63 the equation of the velocity potential is the equation of continuity.
-/
namespace Elliptica.Equation.Phi
open Elliptica.Gen.Phi Elliptica.Xcts Elliptica.Fields

/-- the fields of a star -/
structure Star where
  psi : Pt → ℝ
  alphaPsi : Pt → ℝ
  rho : Pt → ℝ
  enth : Pt → ℝ
  u0 : Pt → ℝ
  phi : Pt → ℝ
  W : Fin 3 → Pt → ℝ
  beta : Fin 3 → Pt → ℝ
  /-- conformal inverse metric and connection -/
  ig : Fin 3 → Fin 3 → Pt → ℝ
  chris : Fin 3 → Fin 3 → Fin 3 → Pt → ℝ

/-- the rest mass flux α ρ₀ u^i: h u^i = ψ⁻⁴ γ̃^{ij} ∂_j φ + W^i - h u⁰ β^i -/
noncomputable def flux (s : Star) (i : Fin 3) (q : Pt) : ℝ :=
  s.alphaPsi q / s.psi q * s.rho q * (((s.psi q ^ 4)⁻¹ * (∑ j, s.ig i j q * pd s.phi j q) + s.W i q) / s.enth q - s.u0 q * s.beta i q)

/-- the divergence D_i X^i for the physical metric ψ⁴ γ̃ -/
noncomputable def divPhys (s : Star) (X : Fin 3 → Pt → ℝ) (p : Pt) : ℝ :=
  ∑ i, (pd (X i) i p + (∑ k, s.chris k k i p) * X i p + 6 * (pd s.psi i p / s.psi p) * X i p)

/-- the derivative of a product of the shape of the flux -/
theorem flux_deriv {a c r e u w b : ℝ → ℝ} {H F : Fin 3 → ℝ → ℝ} {a' c' r' e' u' w' b' : ℝ} {H' F' : Fin 3 → ℝ} {t : ℝ}
    (ha : HasDerivAt a a' t) (hc : HasDerivAt c c' t) (hr : HasDerivAt r r' t) (he : HasDerivAt e e' t) (hu : HasDerivAt u u' t)
    (hw : HasDerivAt w w' t) (hb : HasDerivAt b b' t) (hH : ∀ j, HasDerivAt (H j) (H' j) t) (hF : ∀ j, HasDerivAt (F j) (F' j) t)
    (c0 : c t ≠ 0) (e0 : e t ≠ 0) :
    HasDerivAt (fun t => a t / c t * r t * (((c t ^ 4)⁻¹ * (∑ j, H j t * F j t) + w t) / e t - u t * b t))
      ((a' / c t - a t * c' / c t ^ 2) * r t * (((c t ^ 4)⁻¹ * (∑ j, H j t * F j t) + w t) / e t - u t * b t) +
       a t / c t * r' * (((c t ^ 4)⁻¹ * (∑ j, H j t * F j t) + w t) / e t - u t * b t) +
       a t / c t * r t * (((-4 * c' / c t ^ 5) * (∑ j, H j t * F j t) + (c t ^ 4)⁻¹ * (∑ j, (H' j * F j t + H j t * F' j)) + w') / e t
         - ((c t ^ 4)⁻¹ * (∑ j, H j t * F j t) + w t) * e' / e t ^ 2 - u' * b t - u t * b')) t := by
  have h1 := ha.div hc c0
  have h4 := (hc.pow 4).inv (pow_ne_zero 4 c0)
  have hs : HasDerivAt (fun t => ∑ j, H j t * F j t) (∑ j, (H' j * F j t + H j t * F' j)) t :=
    HasDerivAt.fun_sum fun j _ => (hH j).mul (hF j)
  refine ((h1.mul hr).mul ((((h4.mul hs).add hw).div he e0).sub (hu.mul hb))).congr_deriv ?_
  simp only [Pi.mul_apply, Pi.add_apply, Pi.div_apply, Pi.sub_apply, Pi.pow_apply, Pi.inv_apply, Nat.cast_ofNat, Nat.reduceSub]
  field_simp
  ring

/-- `x` holds the values and derivatives of the fields of the star at p -/
structure At (s : Star) (p : Pt) (x : In) : Prop where
  psi : x.psi = s.psi p
  dpsi : ∀ i, x.dpsi_D i = pd s.psi i p
  alphaPsi : x.alphaPsi = s.alphaPsi p
  dalphaPsi : ∀ i, x.dalphaPsi_D i = pd s.alphaPsi i p
  rho : x.rho0 = s.rho p
  drho : ∀ i, x.drho0_D i = pd s.rho i p
  enth : x.enthalpy = s.enth p
  denth : ∀ i, x.denthalpy_D i = pd s.enth i p
  u0 : x.u0 = s.u0 p
  du0 : ∀ i, x.du0_D i = pd s.u0 i p
  dphi : ∀ i, x.dphi_D i = pd s.phi i p
  ddphi : ∀ i j, x.ddphi_DD i j = pd (pd s.phi i) j p
  W : ∀ i, x.W_U i = s.W i p
  beta : ∀ i, x.beta_U i = s.beta i p
  dbeta : ∀ i j, x.dbeta_UD i j = pd (s.beta i) j p
  ig : ∀ i j, x.igConf_UU i j = s.ig i j p
  chris : ∀ i j k, x.ChrisConf_UDD i j k = s.chris i j k p

/-- differentiable fields with the values for which the equation makes sense; the connection is that of the metric; the spin part W
of the velocity has no divergence in the coordinates (it is a rigid rotation) -/
structure Good (s : Star) (p : Pt) : Prop where
  psi0 : s.psi p ≠ 0
  alphaPsi0 : s.alphaPsi p ≠ 0
  enth0 : s.enth p ≠ 0
  u00 : s.u0 p ≠ 0
  dpsi : Diff s.psi p
  dalphaPsi : Diff s.alphaPsi p
  drho : Diff s.rho p
  denth : Diff s.enth p
  du0 : Diff s.u0 p
  dphi : ∀ i, Diff (pd s.phi i) p
  dW : ∀ i, Diff (s.W i) p
  dbeta : ∀ i, Diff (s.beta i) p
  dig : ∀ i j, Diff (s.ig i j) p
  compat : ∀ i j k, pd (s.ig i j) k p = - ∑ l, (s.chris i k l p * s.ig l j p + s.chris j k l p * s.ig i l p)
  divW : ∑ i, pd (s.W i) i p = 0

theorem pd_flux (s : Star) (p : Pt) (G : Good s p) (i : Fin 3) :
    pd (flux s i) i p =
      (pd s.alphaPsi i p / s.psi p - s.alphaPsi p * pd s.psi i p / s.psi p ^ 2) * s.rho p *
        (((s.psi p ^ 4)⁻¹ * (∑ j, s.ig i j p * pd s.phi j p) + s.W i p) / s.enth p - s.u0 p * s.beta i p) +
      s.alphaPsi p / s.psi p * pd s.rho i p *
        (((s.psi p ^ 4)⁻¹ * (∑ j, s.ig i j p * pd s.phi j p) + s.W i p) / s.enth p - s.u0 p * s.beta i p) +
      s.alphaPsi p / s.psi p * s.rho p * (((-4 * pd s.psi i p / s.psi p ^ 5) * (∑ j, s.ig i j p * pd s.phi j p) +
        (s.psi p ^ 4)⁻¹ * (∑ j, (pd (s.ig i j) i p * pd s.phi j p + s.ig i j p * pd (pd s.phi j) i p)) + pd (s.W i) i p) / s.enth p
        - ((s.psi p ^ 4)⁻¹ * (∑ j, s.ig i j p * pd s.phi j p) + s.W i p) * pd s.enth i p / s.enth p ^ 2
        - pd s.u0 i p * s.beta i p - s.u0 p * pd (s.beta i) i p) := by
  have h := flux_deriv (G.dalphaPsi.has i) (G.dpsi.has i) (G.drho.has i) (G.denth.has i) (G.du0.has i) ((G.dW i).has i) ((G.dbeta i).has i)
    (fun j => (G.dig i j).has i) (fun j => (G.dphi j).has i) (by rw [line_at]; exact G.psi0) (by rw [line_at]; exact G.enth0)
  simp only [line_at] at h
  exact h.deriv

set_option maxHeartbeats 4000000 in
/-- C63: the value stored for an inner node of a star (type 2) is (h ψ⁴ / α) D_i(α ρ₀ u^i) plus the polishing term of the user,
which vanishes when the parameter `Eq_phi_polish` is zero -/
theorem C63_phi (s : Star) (p : Pt) (x : In) (A : At s p x) (G : Good s p) (S : Sym x) :
    Eq2.out_schur_F x = s.enth p * s.psi p ^ 4 / (s.alphaPsi p / s.psi p) * divPhys s (flux s) p +
      x.e * x.rhoc * (s.rho p / x.rhoc - 1) ^ 4 * ∑ i, ∑ j, s.ig i j p * pd (pd s.phi i) j p := by
  have hW := G.divW
  have hi : ∀ i j, s.ig i j p = s.ig j i p := fun i j => by rw [← A.ig, ← A.ig, S.h]
  have hc : ∀ i j k, s.chris i j k p = s.chris i k j p := fun i j k => by rw [← A.chris, ← A.chris, S.c]
  have hd : ∀ i j, pd (pd s.phi i) j p = pd (pd s.phi j) i p := fun i j => by rw [← A.ddphi, ← A.ddphi, S.d]
  have e0 := G.psi0
  have e1 := G.alphaPsi0
  have e2 := G.enth0
  have e3 := G.u00
  unfold divPhys
  simp only [pd_flux s p G]
  simp only [flux, G.compat]
  simp only [Eq2.out_schur_F, Eq2.F_eq, Eq2.t0, Eq2.t1, Eq2.t2, Eq2.t3, Eq2.t4, Eq2.t5, Eq2.t6_U0, Eq2.t6_U1, Eq2.t6_U2, Eq2.polish, Eq2.att,
      Eq2.hxu0xpsi4, Eq2.psi4, Eq2.DiBi, Eq2.dLn_of_psi_U0, Eq2.dLn_of_psi_U1, Eq2.dLn_of_psi_U2, Eq2.dLn_of_alpha_U0,
      Eq2.dLn_of_alpha_U1, Eq2.dLn_of_alpha_U2, Eq2.dLn_of_enthalpy_U0, Eq2.dLn_of_enthalpy_U1, Eq2.dLn_of_enthalpy_U2,
      Eq2.dLn_of_u0_U0, Eq2.dLn_of_u0_U1, Eq2.dLn_of_u0_U2, A.psi, A.dpsi, A.alphaPsi, A.dalphaPsi, A.rho, A.drho, A.enth, A.denth, A.u0,
      A.du0, A.dphi, A.ddphi, A.W, A.beta, A.dbeta, A.ig, A.chris]
  simp only [Fin.sum_univ_three] at hW ⊢
  simp only [hi 1 0, hi 2 0, hi 2 1, hc _ 1 0, hc _ 2 0, hc _ 2 1, hd 1 0, hd 2 0, hd 2 1]
  have hw0 : pd (s.W 0) 0 p = - pd (s.W 1) 1 p - pd (s.W 2) 2 p := by linear_combination hW
  rw [hw0]
  field_simp
  ring

set_option maxHeartbeats 1000000 in
/-- C63: the value stored by the equation of type 1, which writes α K for the divergence of the shift: it is the same when
α K = D_i β^i (for the physical metric) -/
theorem C63_phi_T1 (s : Star) (p : Pt) (x : In) (A : At s p x) (G : Good s p) (S : Sym x)
    (hK : s.alphaPsi p / s.psi p * x.trK = divPhys s s.beta p) :
    Eq.out_schur_F x = s.enth p * s.psi p ^ 4 / (s.alphaPsi p / s.psi p) * divPhys s (flux s) p +
      x.e * x.rhoc * (s.rho p / x.rhoc - 1) ^ 4 * ∑ i, ∑ j, s.ig i j p * pd (pd s.phi i) j p := by
  rw [← C63_phi s p x A G S]
  have hc : ∀ i j k, s.chris i j k p = s.chris i k j p := fun i j k => by rw [← A.chris, ← A.chris, S.c]
  have e : Eq.DiBi x = Eq2.DiBi x := by
    unfold Eq.DiBi Eq.alpha Eq2.DiBi Eq2.dLn_of_psi_U0 Eq2.dLn_of_psi_U1 Eq2.dLn_of_psi_U2
    simp only [A.alphaPsi, A.psi, hK, divPhys, Fin.sum_univ_three, A.chris, A.beta, A.dbeta, A.dpsi, hc _ 1 0, hc _ 2 0, hc _ 2 1]
    ring
  unfold Eq.out_schur_F Eq2.out_schur_F Eq.F_eq Eq2.F_eq Eq.t5 Eq2.t5
  rw [e]
  rfl

/-- a star whose fields change along the first axis; the hypotheses are met at the origin -/
noncomputable def demoStar : Star where
  psi := fun q => 2 + q 0
  alphaPsi := fun q => 3 - q 0
  rho := fun q => 1 + q 0
  enth := fun q => 2 - q 0
  u0 := fun q => 1 + q 0
  phi := fun q => q 0
  W := fun _ _ => 1
  beta := fun i q => if i = 0 then q 0 else 1
  ig := fun i j q => if i = j then 1 + q 0 else 0
  chris := fun i j k _ => if i = j ∧ k = 0 ∨ i = k ∧ j = 0 then -1 / 2 else if i = 0 ∧ j = k then 1 / 2 else 0

example : Good demoStar 0 where
  psi0 := by simp [demoStar]
  alphaPsi0 := by simp [demoStar]
  enth0 := by simp [demoStar]
  u00 := by simp [demoStar]
  dpsi := diff_first (fun t => 2 + t) 0 (by fun_prop)
  dalphaPsi := diff_first (fun t => 3 - t) 0 (by fun_prop)
  drho := diff_first (fun t => 1 + t) 0 (by fun_prop)
  denth := diff_first (fun t => 2 - t) 0 (by fun_prop)
  du0 := diff_first (fun t => 1 + t) 0 (by fun_prop)
  dphi := fun i => by unfold demoStar; simp only [pd_x]; exact diff_const _ _
  dW := fun i => diff_const _ _
  dbeta := fun i => by
    unfold demoStar
    by_cases e : i = 0
    · simp only [if_pos e]; exact diff_x 0
    · simp only [if_neg e]; exact diff_const _ 0
  dig := fun i j => by
    unfold demoStar
    by_cases e : i = j
    · simp only [if_pos e]; exact diff_first (fun t => 1 + t) 0 (by fun_prop)
    · simp only [if_neg e]; exact diff_const _ 0
  compat := fun i j k => by
    have : ∀ k : Fin 3, pd (fun q : Pt => 1 + q 0) k 0 = if k = 0 then 1 else 0 := fun k => by
      rw [pd_first (fun t : ℝ => 1 + t)]; simp
    fin_cases i <;> fin_cases j <;> fin_cases k <;> simp [demoStar, Fin.sum_univ_three, this, pd_const] <;> norm_num
  divW := by simp [demoStar, pd_const]

end Elliptica.Equation.Phi
