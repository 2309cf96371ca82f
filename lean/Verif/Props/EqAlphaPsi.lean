import Verif.Model.Gen.EqAlphaPsi
import Verif.Spec.Xcts
import Mathlib.Tactic.LinearCombination
/-!
C63, C64 the equation of the lapse times ψ.  All residuals are affine in αψ and its derivatives, so the Jacobian is stated
without a limit: the residual changes by t times the entry, for every t.
-/
namespace Elliptica.Equation.AlphaPsi
open Elliptica.Gen.AlphaPsi Elliptica.Xcts

/-- the symmetries of the fields at a node; the code keeps only the components in order -/
structure Sym (x : In) : Prop where
  h : ∀ i j, x.igConf_UU i j = x.igConf_UU j i
  c : ∀ i j k, x.ChrisConf_UDD i j k = x.ChrisConf_UDD i k j
  d : ∀ i j, x.ddalphaPsi_DD i j = x.ddalphaPsi_DD j i
  J : ∀ i j, x.JJalphaPsi_DD i j = x.JJalphaPsi_DD j i

/-- C63: the value stored for an inner node is the residual of the evolution equation of the trace of K:
Δ(αψ) - αψ (R/8 + 5K²ψ⁴/12 + 7A²ψ⁻⁸/8) - ψ⁵ β^i ∂_i K and the matter terms -/
theorem C63_alphaPsi (x : In) (S : Sym x) (hp : x.psi ≠ 0) :
    Eq.out_schur_F x = x.SConfC * (laplace x.igConf_UU x.ChrisConf_UDD x.dalphaPsi_D x.ddalphaPsi_DD
        - x.alphaPsi * (x.trRicciConf / 8 + 5 * x.trK ^ 2 * x.psi ^ 4 / 12 + 7 * x.AConfIJ2 / (8 * x.psi ^ 8))
        - x.psi ^ 5 * ∑ i, x.beta_U i * x.dtrK_D i)
      - 2 * Real.pi * x.alphaPsi * (x.EConfP + 2 * x.SConfP) / x.psi ^ 2 := by
  unfold Eq.out_schur_F Eq.F_eq Eq.ell Eq.src Eq.aij2 Eq.psi4 laplace
  simp only [Fin.sum_univ_three, S.h 1 0, S.h 2 0, S.h 2 1, S.c _ 1 0, S.c _ 2 0, S.c _ 2 1, S.d 1 0, S.d 2 0, S.d 2 1]
  field_simp
  ring

/-- the fields when the value of αψ at the node `lmn` is raised by `t` -/
noncomputable def move (x : In) (t : ℝ) : In :=
  { x with alphaPsi := x.alphaPsi + t * x.kd
           dalphaPsi_D := fun i => x.dalphaPsi_D i + t * x.JalphaPsi_D i
           ddalphaPsi_DD := fun i j => x.ddalphaPsi_DD i j + t * x.JJalphaPsi_DD i j }

theorem move_sym (x : In) (S : Sym x) (t : ℝ) : Sym (move x t) where
  h := S.h
  c := S.c
  d := fun i j => by simp only [move, S.d i j, S.J i j]
  J := S.J

/-- C64: the Jacobian entry for a pair of nodes is the change of the residual -/
theorem C64_alphaPsi (x : In) (S : Sym x) (hp : x.psi ≠ 0) :
    (∀ t, Eq.out_schur_F (move x t) = Eq.out_schur_F x + t * JacEq.out_schur_B x) ∧ JacEq.out_schur_Et x = JacEq.out_schur_B x := by
  constructor
  · intro t
    rw [C63_alphaPsi (move x t) (move_sym x S t) hp, C63_alphaPsi x S hp]
    unfold JacEq.out_schur_B JacEq.Bpart JacEq.t1_b JacEq.t2_b JacEq.aij2_B JacEq.psi4_B laplace
    simp only [Fin.sum_univ_three, S.h 1 0, S.h 2 0, S.h 2 1, S.c _ 1 0, S.c _ 2 0, S.c _ 2 1, S.J 1 0, S.J 2 0, S.J 2 1, S.d 1 0, S.d 2 0,
      S.d 2 1, move]
    field_simp
    ring
  · rfl

/-- C63: boundary conditions: αψ = 1 outside; at an excision boundary α = the given lapse (type 1) or s^i ∂_i (αψ) = 0 (type 2) -/
theorem C63_alphaPsi_bc (x : In) :
    Bc.out_schur_F_0 x = x.alphaPsi - 1 ∧ Bc.out_schur_F_1 x = x.alphaPsi - x.ibc_alpha * x.psi ∧
    Bc2.out_schur_F_0 x = x.alphaPsi - 1 ∧ Bc2.out_schur_F_1 x = ∑ i, x.bh_sConf_U i * x.dalphaPsi_D i :=
  ⟨rfl, rfl, rfl, by simp only [Fin.sum_univ_three]; rfl⟩

/-- C64: the Jacobian entries of the boundary rows; the parts written as zero belong to columns of other nodes -/
theorem C64_alphaPsi_bc (x : In) (t : ℝ) :
    Bc.out_schur_F_0 (move x t) = Bc.out_schur_F_0 x + t * JacBc.out_schur_B_0 x ∧
    Bc.out_schur_F_1 (move x t) = Bc.out_schur_F_1 x + t * JacBc.out_schur_B_1 x ∧
    Bc2.out_schur_F_0 (move x t) = Bc2.out_schur_F_0 x + t * JacBc2.out_schur_B_0 x ∧
    Bc2.out_schur_F_1 (move x t) = Bc2.out_schur_F_1 x + t * JacBc2.out_schur_B_1 x ∧
    (x.kd = 0 → JacBc.out_schur_Et_0 x = JacBc.out_schur_B_0 x ∧ JacBc.out_schur_Et_1 x = JacBc.out_schur_B_1 x ∧
      JacBc2.out_schur_Et_0 x = JacBc2.out_schur_B_0 x) ∧
    JacBc2.out_schur_Et_1 x = JacBc2.out_schur_B_1 x := by
  refine ⟨?_, ?_, ?_, ?_, fun h => ⟨h.symm, h.symm, h.symm⟩, rfl⟩
  · simp only [Bc.out_schur_F_0, Bc.outerB_F, JacBc.out_schur_B_0, JacBc.outerB_Bpart, move]; ring
  · simp only [Bc.out_schur_F_1, Bc.innerB_F, JacBc.out_schur_B_1, JacBc.innerB_Bpart, move]; ring
  · simp only [Bc2.out_schur_F_0, Bc2.outerB_F, JacBc2.out_schur_B_0, JacBc2.outerB_Bpart, move]; ring
  · simp only [Bc2.out_schur_F_1, Bc2.innerB_F, JacBc2.out_schur_B_1, JacBc2.innerB_Bpart, move]; ring

/-- the hypotheses are met by fields that are not flat -/
noncomputable def demo : In :=
  { psi := 2, AConfIJ2 := 3, alphaPsi := 1, ChrisConf_UDD := fun i j k => if i = 0 ∧ j = 1 ∧ k = 1 then 1 else 0
    dalphaPsi_D := fun i => if i = 0 then 1 else 0, igConf_UU := fun i j => if i = j then 2 else 1, ddalphaPsi_DD := fun _ _ => 1
    trK := 1, trRicciConf := 2, EConfP := 1, SConfP := 1, SConfC := 1, JalphaPsi_D := fun _ => 1
    JJalphaPsi_DD := fun i j => if i = j then 1 else 0, kd := 1, bh_sConf_U := fun _ => 1, beta_U := fun _ => 1, dtrK_D := fun _ => 1
    ibc_alpha := 1 }

example : Sym demo ∧ demo.psi ≠ 0 :=
  ⟨⟨fun i j => by simp [demo, eq_comm], fun i j k => by simp only [demo]; congr 1; simp; tauto, fun _ _ => rfl,
    fun i j => by simp [demo, eq_comm]⟩, by norm_num [demo]⟩

end Elliptica.Equation.AlphaPsi
