import Verif.Lemmas.Conformal
import Verif.Lemmas.Fields
import Verif.Props.Adm
import Mathlib.Analysis.Calculus.Deriv.Inv
import Mathlib.Analysis.Calculus.Deriv.Mul
import Mathlib.Analysis.Calculus.Deriv.Add
import Mathlib.Analysis.Calculus.Deriv.Pow
/-!
Fields on a slice: the conformal and the physical connection and their derivatives.
-/
namespace Elliptica.Constraints
open Elliptica.Adm Elliptica.DiffGeom Elliptica.Fields Elliptica.Conformal Elliptica.Extrinsic

/-- the fields of a slice -/
structure Slice where
  /-- conformal factor -/
  psi : Pt → ℝ
  /-- conformal metric -/
  g : Fin 3 → Fin 3 → Pt → ℝ
  /-- its inverse -/
  h : Fin 3 → Fin 3 → Pt → ℝ
  /-- conformal extrinsic curvature A^{ij} -/
  A : Fin 3 → Fin 3 → Pt → ℝ
  /-- trace of the extrinsic curvature -/
  K : Pt → ℝ

namespace Slice
variable (s : Slice)

/-- connection of the conformal metric -/
noncomputable def conn (i j k : Fin 3) (q : Pt) : ℝ := christoffel (fun i j => s.h i j q) (fun i j k => pd (s.g i j) k q) i j k

/-- physical metric -/
noncomputable def gam (i j : Fin 3) (q : Pt) : ℝ := s.psi q ^ 4 * s.g i j q

/-- its inverse -/
noncomputable def gamI (i j : Fin 3) (q : Pt) : ℝ := s.h i j q / s.psi q ^ 4

/-- connection of the physical metric -/
noncomputable def gconn (i j k : Fin 3) (q : Pt) : ℝ := christoffel (fun i j => s.gamI i j q) (fun i j k => pd (s.gam i j) k q) i j k

/-- physical extrinsic curvature K^{ij} -/
noncomputable def KK (i j : Fin 3) (q : Pt) : ℝ := Kup (s.psi q) (fun i j => s.A i j q) (fun i j => s.h i j q) (s.K q) i j

/-- what is asked of the fields near p -/
structure Good (p : Pt) : Prop where
  psi0 : ∀ q, s.psi q ≠ 0
  gs : ∀ q, Symm fun i j => s.g i j q
  hs : ∀ q, Symm fun i j => s.h i j q
  inv : ∀ q, Inverse (fun i j => s.g i j q) (fun i j => s.h i j q)
  As : ∀ q, Symm fun i j => s.A i j q
  dpsi : ∀ q, Diff s.psi q
  dg : ∀ i j q, Diff (s.g i j) q
  ddpsi : ∀ i, Diff (pd s.psi i) p
  ddg : ∀ i j k, Diff (pd (s.g i j) k) p
  dh : ∀ i j, Diff (s.h i j) p
  dA : ∀ i j, Diff (s.A i j) p
  dK : Diff s.K p
  psi2 : ∀ i j, pd (pd s.psi i) j p = pd (pd s.psi j) i p
  g2 : ∀ i j k l, pd (pd (s.g i j) k) l p = pd (pd (s.g i j) l) k p

/-- d log ψ -/
noncomputable def L (i : Fin 3) (q : Pt) : ℝ := pd s.psi i q / s.psi q

variable {s} {p : Pt}

theorem Good.gam_pd (G : s.Good p) (i j k : Fin 3) (q : Pt) :
    pd (s.gam i j) k q = s.psi q ^ 4 * pd (s.g i j) k q + 4 * s.psi q ^ 3 * pd s.psi k q * s.g i j q := by
  have h := (((G.dpsi q).has k).pow 4).mul ((G.dg i j q).has k)
  have e : line (s.gam i j) k q = fun t => (line s.psi k q t) ^ 4 * line (s.g i j) k q t := rfl
  unfold pd
  rw [e]
  refine h.deriv.trans ?_
  simp only [Pi.pow_apply, line_at, Nat.cast_ofNat, Nat.reduceSub, pd]
  ring

/-- the physical connection is the conformal one plus the difference, everywhere -/
theorem Good.gconn_eq (G : s.Good p) (i j k : Fin 3) :
    s.gconn i j k = fun q => s.conn i j k q + diffC (fun i j => s.g i j q) (fun i j => s.h i j q) (fun l => s.L l q) i j k := by
  funext q
  unfold gconn
  have := christoffel_conf (fun i j => s.g i j q) (fun i j => s.h i j q) (fun i j k => pd (s.g i j) k q) (s.psi q)
    (fun k => pd s.psi k q) (G.psi0 q) (G.gs q) (G.inv q) i j k
  simp only [G.gam_pd]
  exact this

theorem Good.pd_g_symm (G : s.Good p) (i j k : Fin 3) (q : Pt) : pd (s.g i j) k q = pd (s.g j i) k q := by
  have : s.g i j = s.g j i := funext fun q => G.gs q i j
  rw [this]

theorem Good.conn_symm (G : s.Good p) (i j k : Fin 3) (q : Pt) : s.conn i j k q = s.conn i k j q :=
  christoffel_symm _ _ (fun i j k => G.pd_g_symm i j k q) i j k

theorem Good.conn_diff (G : s.Good p) (i j k : Fin 3) : Diff (s.conn i j k) p := by
  intro m
  have e : line (s.conn i j k) m p = fun t => ∑ l, line (s.h i l) m p t * (line (pd (s.g l j) k) m p t + line (pd (s.g l k) j) m p t
      - line (pd (s.g j k) l) m p t) / 2 := rfl
  rw [e]
  exact (HasDerivAt.fun_sum fun l _ => (((G.dh i l).has m).mul ((((G.ddg l j k).has m).add ((G.ddg l k j).has m)).sub
    ((G.ddg j k l).has m))).div_const 2).differentiableAt

/-- the derivative of d log ψ -/
noncomputable def M (s : Slice) (p : Pt) (i j : Fin 3) : ℝ := pd (pd s.psi i) j p / s.psi p - pd s.psi i p * pd s.psi j p / s.psi p ^ 2

theorem Good.L_has (G : s.Good p) (i m : Fin 3) : HasDerivAt (line (s.L i) m p) (s.M p i m) (p m) := by
  have h := ((G.ddpsi i).has m).div ((G.dpsi p).has m) (by rw [line_at]; exact G.psi0 p)
  refine h.congr_deriv ?_
  simp only [line_at, M]
  have := G.psi0 p
  field_simp

theorem Good.M_symm (G : s.Good p) (i j : Fin 3) : s.M p i j = s.M p j i := by
  unfold M
  rw [G.psi2 i j]; ring

/-- the derivative of the physical connection -/
theorem Good.gconn_pd (G : s.Good p) (i j k m : Fin 3) :
    pd (s.gconn i j k) m p = pd (s.conn i j k) m p +
      diffCd (fun i j => s.g i j p) (fun i j => s.h i j p) (fun i j k => pd (s.g i j) k p) (fun i j k => pd (s.h i j) k p) (fun l => s.L l p) (s.M p) i j k m := by
  have hup : HasDerivAt (fun t => ∑ l, line (s.h i l) m p t * line (s.L l) m p t)
      (∑ l, (pd (s.h i l) m p * s.L l p + s.h i l p * s.M p l m)) (p m) := by
    refine HasDerivAt.fun_sum fun l _ => ?_
    have := ((G.dh i l).has m).mul (G.L_has l m)
    exact this.congr_deriv (by simp only [line_at])
  have hg := ((G.dg j k p).has m).mul hup
  have h1 := (((G.L_has k m).const_mul (kd i j)).add ((G.L_has j m).const_mul (kd i k))).sub hg
  have h2 := ((G.conn_diff i j k).has m).add (h1.const_mul 2)
  rw [G.gconn_eq]
  unfold pd
  refine h2.deriv.trans ?_
  simp only [line_at, diffCd, up, pd]

/-- the derivative of the inverse metric -/
theorem Good.dh_eq (G : s.Good p) (i j k : Fin 3) :
    pd (s.h i j) k p = - ∑ m, ∑ n, s.h i m p * pd (s.g m n) k p * s.h n j p := by
  have hp : ∀ a b, ∑ m, (pd (s.h a m) k p * s.g m b p + s.h a m p * pd (s.g m b) k p) = 0 := by
    intro a b
    have hd : HasDerivAt (fun t => ∑ m, line (s.h a m) k p t * line (s.g m b) k p t)
        (∑ m, (pd (s.h a m) k p * s.g m b p + s.h a m p * pd (s.g m b) k p)) (p k) := by
      refine HasDerivAt.fun_sum fun m _ => ?_
      have := ((G.dh a m).has k).mul ((G.dg m b p).has k)
      exact this.congr_deriv (by simp only [line_at])
    have hc : (fun t => ∑ m, line (s.h a m) k p t * line (s.g m b) k p t) = fun _ => if a = b then (1 : ℝ) else 0 := by
      funext t
      exact G.inv _ a b
    rw [hc] at hd
    exact hd.unique (hasDerivAt_const _ _)
  have hr := inv_right (G.gs p) (G.hs p) (G.inv p)
  -- multiply by h on the right
  have e : ∑ b, (∑ m, (pd (s.h i m) k p * s.g m b p + s.h i m p * pd (s.g m b) k p)) * s.h b j p = 0 := by
    simp [hp]
  have e2 : ∑ b, (∑ m, (pd (s.h i m) k p * s.g m b p + s.h i m p * pd (s.g m b) k p)) * s.h b j p =
      (∑ m, pd (s.h i m) k p * ∑ b, s.g m b p * s.h b j p) + ∑ m, ∑ n, s.h i m p * pd (s.g m n) k p * s.h n j p := by
    simp only [Fin.sum_univ_three]; ring
  rw [e2] at e
  have e3 : ∑ m, pd (s.h i m) k p * ∑ b, s.g m b p * s.h b j p = pd (s.h i j) k p := by
    simp [hr, kd]
  rw [e3] at e
  linarith

theorem Good.compat (G : s.Good p) : Compat (fun i j => s.g i j p) (fun i j => s.h i j p) (fun i j k => pd (s.g i j) k p)
    (fun i j k => pd (s.h i j) k p) (fun i j k => s.conn i j k p) := by
  have gs := G.gs p
  have hs := G.hs p
  have hr : ∀ i j, ∑ k, s.g i k p * s.h k j p = if i = j then 1 else 0 := inv_right gs hs (G.inv p)
  have dgE : ∀ i j k, pd (s.g i j) k p = ∑ l, (s.conn l k i p * s.g l j p + s.conn l k j p * s.g i l p) := by
    intro i j k
    have h1 := lower (fun i j => s.g i j p) (fun i j => s.h i j p) (fun i j k => pd (s.g i j) k p) hr j k i
    have h2 := lower (fun i j => s.g i j p) (fun i j => s.h i j p) (fun i j k => pd (s.g i j) k p) hr i k j
    have e1 : ∑ l, s.conn l k i p * s.g l j p = ∑ l, s.g j l p * s.conn l k i p :=
      Finset.sum_congr rfl fun l _ => by rw [show s.g l j p = s.g j l p from gs l j, mul_comm]
    have e2 : ∑ l, s.conn l k j p * s.g i l p = ∑ l, s.g i l p * s.conn l k j p :=
      Finset.sum_congr rfl fun l _ => by rw [mul_comm]
    rw [Finset.sum_add_distrib, e1, e2]
    rw [show (∑ l, s.g j l p * s.conn l k i p) = _ from h1, show (∑ l, s.g i l p * s.conn l k j p) = _ from h2,
      G.pd_g_symm j i k, G.pd_g_symm k i j, G.pd_g_symm k j i]
    ring
  refine ⟨gs, hs, G.inv p, fun i j k => G.conn_symm i j k p, dgE, ?_⟩
  intro i j k
  have inv := G.inv p
  rw [G.dh_eq]
  simp only [dgE]
  have e : ∑ m, ∑ n, s.h i m p * (∑ l, (s.conn l k m p * s.g l n p + s.conn l k n p * s.g m l p)) * s.h n j p =
      (∑ l, ∑ m, s.conn l k m p * s.h i m p * ∑ n, s.g l n p * s.h n j p) + ∑ l, ∑ n, s.conn l k n p * s.h n j p * ∑ m, s.h i m p * s.g m l p := by
    simp only [Fin.sum_univ_three]; ring
  rw [e]
  have inv' : ∀ i j, ∑ k, s.h i k p * s.g k j p = if i = j then 1 else 0 := inv
  simp only [hr, inv']
  congr 1
  simp only [mul_ite, mul_one, mul_zero, Finset.sum_add_distrib]
  rw [add_comm]
  congr 1
  · rw [Finset.sum_comm]; simp
  · rw [Finset.sum_comm]; simp

/-- Γ^k_{ik} is a gradient -/
theorem Good.grad (G : s.Good p) (i j : Fin 3) : ∑ k, pd (s.conn k i k) j p = ∑ k, pd (s.conn k j k) i p := by
  have tr : ∀ i q, ∑ k, s.conn k i k q = ∑ k, ∑ l, s.h k l q * pd (s.g k l) i q / 2 := by
    intro i q
    have e : ∑ k, s.conn k i k q = ∑ k, ∑ l, s.h k l q * (pd (s.g l i) k q + pd (s.g l k) i q - pd (s.g i k) l q) / 2 := rfl
    rw [e]
    have hs := G.hs q
    have gs := fun a b c => G.pd_g_symm a b c q
    have hs' : ∀ a b, s.h a b q = s.h b a q := hs
    simp only [Fin.sum_univ_three, hs' 1 0, hs' 2 0, hs' 2 1]
    fin_cases i <;> simp only [Fin.zero_eta, Fin.mk_one, Fin.reduceFinMk, gs 1 0, gs 2 0, gs 2 1] <;> ring
  have D : ∀ i j, ∑ k, pd (s.conn k i k) j p = ∑ k, ∑ l, (pd (s.h k l) j p * pd (s.g k l) i p + s.h k l p * pd (pd (s.g k l) i) j p) / 2 := by
    intro i j
    have h1 : HasDerivAt (fun t => ∑ k, line (s.conn k i k) j p t) (∑ k, pd (s.conn k i k) j p) (p j) :=
      HasDerivAt.fun_sum fun k _ => (G.conn_diff k i k).has j
    have h2 : HasDerivAt (fun t => ∑ k, ∑ l, line (s.h k l) j p t * line (pd (s.g k l) i) j p t / 2)
        (∑ k, ∑ l, (pd (s.h k l) j p * pd (s.g k l) i p + s.h k l p * pd (pd (s.g k l) i) j p) / 2) (p j) := by
      refine HasDerivAt.fun_sum fun k _ => HasDerivAt.fun_sum fun l _ => ?_
      have := (((G.dh k l).has j).mul ((G.ddg k l i).has j)).div_const 2
      exact this.congr_deriv (by simp only [line_at])
    have e : (fun t => ∑ k, line (s.conn k i k) j p t) = fun t => ∑ k, ∑ l, line (s.h k l) j p t * line (pd (s.g k l) i) j p t / 2 := by
      funext t
      exact tr i _
    rw [e] at h1
    exact h1.unique h2
  rw [D, D]
  have e : ∀ i j, ∑ k, ∑ l, (pd (s.h k l) j p * pd (s.g k l) i p + s.h k l p * pd (pd (s.g k l) i) j p) / 2 =
      (- ∑ k, ∑ l, ∑ m, ∑ n, s.h k m p * s.h n l p * (pd (s.g m n) j p * pd (s.g k l) i p)) / 2 + ∑ k, ∑ l, s.h k l p * pd (pd (s.g k l) i) j p / 2 := by
    intro i j
    simp only [G.dh_eq, Fin.sum_univ_three]
    ring
  rw [e, e]
  congr 1
  · congr 2
    -- rename the indices
    have sw : ∀ F : Fin 3 → Fin 3 → Fin 3 → Fin 3 → ℝ, ∑ k, ∑ l, ∑ m, ∑ n, F k l m n = ∑ k, ∑ l, ∑ m, ∑ n, F m n k l := by
      intro F
      simp only [Fin.sum_univ_three]; ring
    rw [sw]
    refine Finset.sum_congr rfl fun k _ => Finset.sum_congr rfl fun l _ => Finset.sum_congr rfl fun m _ => Finset.sum_congr rfl fun n _ => ?_
    rw [show s.h m k p = s.h k m p from G.hs p m k, show s.h l n p = s.h n l p from G.hs p l n]
    ring
  · exact Finset.sum_congr rfl fun k _ => Finset.sum_congr rfl fun l _ => by rw [G.g2]

end Slice
end Elliptica.Constraints
