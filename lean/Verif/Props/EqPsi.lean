import Verif.Model.Gen.EqPsi
import Mathlib.Algebra.BigOperators.Fin
import Mathlib.Tactic.Ring
import Mathlib.Tactic.FieldSimp
import Mathlib.Tactic.LinearCombination
import Mathlib.Analysis.Calculus.Deriv.Inv
import Mathlib.Analysis.Calculus.Deriv.Pow
import Verif.Spec.Xcts
/-!
C63, C64 the equation of the conformal factor ψ.
-/
namespace Elliptica.Equation.Psi
open Elliptica.Gen.Psi Elliptica.Xcts

/-- the symmetries of the fields at a node; the code keeps only the components in order -/
structure Sym (x : In) : Prop where
  h : ∀ i j, x.igConf_UU i j = x.igConf_UU j i
  c : ∀ i j k, x.ChrisConf_UDD i j k = x.ChrisConf_UDD i k j
  d : ∀ i j, x.ddpsi_DD i j = x.ddpsi_DD j i
  J : ∀ i j, x.JJpsi_DD i j = x.JJpsi_DD j i
  A : ∀ i j, x.AConfIJ_UU i j = x.AConfIJ_UU j i
  g : ∀ i j, x.gConf_DD i j = x.gConf_DD j i

/-- C63: the value stored for an inner node is the residual of the Hamiltonian constraint -/
theorem C63_psi (x : In) (S : Sym x) (hp : x.psi ≠ 0) :
    Eq.out_schur_F x = x.EConfC * hamiltonian (laplace x.igConf_UU x.ChrisConf_UDD x.dpsi_D x.ddpsi_DD)
      x.psi x.trRicciConf x.trK x.AConfIJ2 + 2 * Real.pi * x.EConfP / x.psi := by
  unfold Eq.out_schur_F Eq.F_eq Eq.ell Eq.src Eq.aij2 Eq.psi4 hamiltonian laplace
  simp only [Fin.sum_univ_three, S.h 1 0, S.h 2 0, S.h 2 1, S.c _ 1 0, S.c _ 2 0, S.c _ 2 1, S.d 1 0, S.d 2 0, S.d 2 1]
  field_simp
  ring

/-- the fields when the value of ψ at the node `lmn` is raised by `t` -/
noncomputable def move (x : In) (t : ℝ) : In :=
  { x with psi := x.psi + t * x.kd
           dpsi_D := fun i => x.dpsi_D i + t * x.Jpsi_D i
           ddpsi_DD := fun i j => x.ddpsi_DD i j + t * x.JJpsi_DD i j }

theorem move_sym (x : In) (S : Sym x) (t : ℝ) : Sym (move x t) where
  h := S.h
  c := S.c
  d := fun i j => by simp only [move, S.d i j, S.J i j]
  J := S.J
  A := S.A
  g := S.g

/-- C64: the Jacobian entry for a pair of nodes is the derivative of the residual -/
theorem C64_psi (x : In) (S : Sym x) (hp : x.psi ≠ 0) :
    HasDerivAt (fun t => Eq.out_schur_F (move x t)) (JacEq.out_schur_B x) 0 ∧ JacEq.out_schur_Et x = JacEq.out_schur_B x := by
  constructor
  · have hm : HasDerivAt (fun t : ℝ => x.psi + t * x.kd) x.kd 0 := by
      simpa using ((hasDerivAt_id (0 : ℝ)).mul_const x.kd).const_add x.psi
    have h0 : x.psi + 0 * x.kd ≠ 0 := by simpa using hp
    have hl : HasDerivAt (fun t : ℝ => laplace x.igConf_UU x.ChrisConf_UDD (move x t).dpsi_D (move x t).ddpsi_DD)
        (laplace x.igConf_UU x.ChrisConf_UDD x.Jpsi_D x.JJpsi_DD) 0 := laplace_deriv _ _ _ _ _ _
    have hh := hamiltonian_deriv hl hm h0 x.trRicciConf x.trK x.AConfIJ2
    have hs : HasDerivAt (fun t : ℝ => 2 * Real.pi * x.EConfP / (x.psi + t * x.kd)) _ 0 := (hasDerivAt_const _ _).div hm h0
    have hF := (hh.const_mul x.EConfC).add hs
    refine (hF.congr_of_eventuallyEq ?_).congr_deriv ?_
    · have : ∀ᶠ t in nhds (0 : ℝ), x.psi + t * x.kd ≠ 0 := hm.continuousAt.eventually_ne h0
      filter_upwards [this] with t ht
      exact C63_psi (move x t) (move_sym x S t) ht
    unfold JacEq.out_schur_B JacEq.Bpart JacEq.t1_b JacEq.t2_b JacEq.aij2_B JacEq.psi4_B laplace
    simp only [Fin.sum_univ_three, S.h 1 0, S.h 2 0, S.h 2 1, S.c _ 1 0, S.c _ 2 0, S.c _ 2 1, S.J 1 0, S.J 2 0, S.J 2 1, zero_mul, add_zero]
    field_simp
    ring
  · rfl

/-! ### boundary conditions -/

/-- C63: the value stored at an outer boundary is ψ - 1, at an excision boundary ψ³ times the apparent horizon condition
s^i ∂_i ψ + ψ D_i s^i / 4 + A^{ij} s_i s_j / (4 ψ³) - K ψ³ / 6 -/
theorem C63_psi_bc (x : In) (S : Sym x) (hp : x.psi ≠ 0) :
    Bc.out_schur_F_0 x = x.psi - 1 ∧
    Bc.out_schur_F_1 x = x.psi ^ 3 * ((∑ i, x.bh_sConf_U i * x.dpsi_D i) + x.psi * div x.ChrisConf_UDD x.bh_sConf_U x.dbh_sConf_UD / 4 +
      quad x.AConfIJ_UU (fun i => ∑ k, x.gConf_DD i k * x.bh_sConf_U k) / (4 * x.psi ^ 3) - x.trK * x.psi ^ 3 / 6) := by
  refine ⟨rfl, ?_⟩
  unfold Bc.out_schur_F_1 Bc.innerB_F Bc._AIJsisj Bc._DiHSi Bc.psi3 quad div
  simp only [Fin.sum_univ_three, S.A 1 0, S.A 2 0, S.A 2 1, S.c _ 1 0, S.c _ 2 0, S.c _ 2 1, S.g 1 0, S.g 2 0, S.g 2 1]
  field_simp
  ring

/-- C64: the Jacobian entries of the boundary rows are the derivatives of the boundary conditions; at an outer boundary the
second part is written as zero, which is the derivative because its columns belong to other nodes -/
theorem C64_psi_bc (x : In) (S : Sym x) (hp : x.psi ≠ 0) :
    HasDerivAt (fun t => Bc.out_schur_F_0 (move x t)) (JacBc.out_schur_B_0 x) 0 ∧
    (x.kd = 0 → JacBc.out_schur_Et_0 x = JacBc.out_schur_B_0 x) ∧
    HasDerivAt (fun t => Bc.out_schur_F_1 (move x t)) (JacBc.out_schur_B_1 x) 0 ∧
    JacBc.out_schur_Et_1 x = JacBc.out_schur_B_1 x := by
  have hm : HasDerivAt (fun t : ℝ => x.psi + t * x.kd) x.kd 0 := by
    simpa using ((hasDerivAt_id (0 : ℝ)).mul_const x.kd).const_add x.psi
  have h0 : x.psi + 0 * x.kd ≠ 0 := by simpa using hp
  refine ⟨hm.sub_const 1, fun h => h.symm, ?_, rfl⟩
  set D := div x.ChrisConf_UDD x.bh_sConf_U x.dbh_sConf_UD with hD
  set Q := quad x.AConfIJ_UU (fun i => ∑ k, x.gConf_DD i k * x.bh_sConf_U k) with hQ
  have hs : HasDerivAt (fun t : ℝ => ∑ i, x.bh_sConf_U i * (x.dpsi_D i + t * x.Jpsi_D i)) (∑ i, x.bh_sConf_U i * x.Jpsi_D i) 0 := by
    have : (fun t : ℝ => ∑ i, x.bh_sConf_U i * (x.dpsi_D i + t * x.Jpsi_D i)) =
        fun t => (∑ i, x.bh_sConf_U i * x.dpsi_D i) + t * ∑ i, x.bh_sConf_U i * x.Jpsi_D i := by
      funext t; simp only [Fin.sum_univ_three]; ring
    rw [this]
    simpa using ((hasDerivAt_id (0 : ℝ)).mul_const (∑ i, x.bh_sConf_U i * x.Jpsi_D i)).const_add (∑ i, x.bh_sConf_U i * x.dpsi_D i)
  have hF := (hm.pow 3).mul (((hs.add ((hm.mul_const D).div_const 4)).add ((hasDerivAt_const (0 : ℝ) Q).div ((hm.pow 3).const_mul 4)
    (mul_ne_zero (by norm_num) (pow_ne_zero 3 h0)))).sub (((hm.pow 3).const_mul x.trK).div_const 6))
  refine (hF.congr_of_eventuallyEq ?_).congr_deriv ?_
  · have : ∀ᶠ t in nhds (0 : ℝ), x.psi + t * x.kd ≠ 0 := hm.continuousAt.eventually_ne h0
    filter_upwards [this] with t ht
    exact (C63_psi_bc (move x t) (move_sym x S t) ht).2
  · unfold JacBc.out_schur_B_1 JacBc.innerB_Bpart JacBc._DiHSi_b JacBc.psi2 JacBc.psi3
    have e : x.ChrisConf_UDD 0 0 0 * x.bh_sConf_U 0 + x.ChrisConf_UDD 0 0 1 * x.bh_sConf_U 1 + x.ChrisConf_UDD 0 0 2 * x.bh_sConf_U 2 +
        x.ChrisConf_UDD 1 0 1 * x.bh_sConf_U 0 + x.ChrisConf_UDD 1 1 1 * x.bh_sConf_U 1 + x.ChrisConf_UDD 1 1 2 * x.bh_sConf_U 2 +
        x.ChrisConf_UDD 2 0 2 * x.bh_sConf_U 0 + x.ChrisConf_UDD 2 1 2 * x.bh_sConf_U 1 + x.ChrisConf_UDD 2 2 2 * x.bh_sConf_U 2 +
        x.dbh_sConf_UD 0 0 + x.dbh_sConf_UD 1 1 + x.dbh_sConf_UD 2 2 = D := by
      rw [hD]
      unfold div
      simp only [Fin.sum_univ_three, S.c _ 1 0, S.c _ 2 0, S.c _ 2 1]
      ring
    rw [e]
    simp only [Fin.sum_univ_three, zero_mul, add_zero, Nat.cast_ofNat, Nat.reduceSub, Pi.pow_apply, Pi.add_apply, Pi.mul_apply, Pi.sub_apply, Pi.div_apply]
    field_simp
    ring

/-- the hypotheses are met by fields that are not flat; the Jacobian is not zero there -/
noncomputable def demo : In :=
  { psi := 2, AConfIJ2 := 3, ChrisConf_UDD := fun i j k => if i = 0 ∧ j = 1 ∧ k = 1 then 1 else 0
    dpsi_D := fun i => if i = 0 then 1 else 0, igConf_UU := fun i j => if i = j then 2 else 1, ddpsi_DD := fun _ _ => 1
    trK := 1, trRicciConf := 2, EConfP := 1, EConfC := 1, Jpsi_D := fun _ => 1, JJpsi_DD := fun i j => if i = j then 1 else 0
    kd := 1, bh_sConf_U := fun _ => 1, dbh_sConf_UD := fun _ _ => 1, AConfIJ_UU := fun _ _ => 1, gConf_DD := fun i j => if i = j then 1 else 0 }

example : Sym demo ∧ demo.psi ≠ 0 :=
  ⟨⟨fun i j => by simp [demo, eq_comm], fun i j k => by simp only [demo]; congr 1; simp; tauto, fun _ _ => rfl,
    fun i j => by simp [demo, eq_comm], fun _ _ => rfl, fun i j => by simp [demo, eq_comm]⟩, by norm_num [demo]⟩

end Elliptica.Equation.Psi
