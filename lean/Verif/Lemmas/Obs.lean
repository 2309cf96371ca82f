import Verif.Model.Gen.Obs
import Verif.Spec.Obs
import Verif.Lemmas.ConformalField
import Mathlib.Tactic.FinCases
import Mathlib.Tactic.LinearCombination
import Mathlib.Data.Fintype.Pi
/-!
Lemmas for the global quantities: the mixed momentum tensor and its divergence.
-/
namespace Elliptica.Obs
open Elliptica.Adm Elliptica.DiffGeom Elliptica.Gen.Obs Elliptica.Fields Elliptica.Conformal Elliptica.Extrinsic Elliptica.Constraints

/-- K_{ij} of a slice -/
noncomputable def Klow (s : Slice) (i j : Fin 3) (q : Pt) : ℝ := move2 (fun i j => s.gam i j q) (fun i j => s.KK i j q) i j

/-- K_{ij} - γ_{ij} K -/
noncomputable def PiD (s : Slice) (i j : Fin 3) (q : Pt) : ℝ := Klow s i j q - s.gam i j q * s.K q

/-- the same with the first index raised -/
noncomputable def PiM (s : Slice) (i j : Fin 3) (q : Pt) : ℝ := ∑ k, s.gamI i k q * PiD s k j q

/-- A_{ij} -/
noncomputable def Alow (s : Slice) (i j : Fin 3) (q : Pt) : ℝ := move2 (fun i j => s.g i j q) (fun i j => s.A i j q) i j

variable {s : Slice} {p : Pt}

theorem Klow_eq (G : s.Good p) (i j : Fin 3) (q : Pt) :
    Klow s i j q = Alow s i j q / s.psi q ^ 2 + s.psi q ^ 4 * s.g i j q * s.K q / 3 := by
  have h0 := G.psi0 q
  have e := lower_inverse (fun i j => s.g i j q) (fun i j => s.h i j q) (G.inv q) (G.gs q) i j
  unfold Klow Alow Slice.KK Slice.gam Kup
  have : move2 (fun i j => s.psi q ^ 4 * s.g i j q) (fun i j => s.A i j q / s.psi q ^ 10 + s.h i j q / s.psi q ^ 4 * s.K q / 3) i j =
      move2 (fun i j => s.g i j q) (fun i j => s.A i j q) i j / s.psi q ^ 2 +
      s.psi q ^ 4 * move2 (fun i j => s.g i j q) (fun i j => s.h i j q) i j * s.K q / 3 := by
    simp only [move2, Fin.sum_univ_three]
    field_simp
    ring
  rw [this, e]

theorem PiD_eq (G : s.Good p) (i j : Fin 3) (q : Pt) :
    PiD s i j q = Alow s i j q / s.psi q ^ 2 - 2 / 3 * (s.psi q ^ 4 * s.g i j q * s.K q) := by
  unfold PiD
  rw [Klow_eq G]
  unfold Slice.gam
  ring

theorem Alow_symm (G : s.Good p) (i j : Fin 3) (q : Pt) : Alow s i j q = Alow s j i q := by
  have A := G.As q
  unfold Alow move2
  simp only [Fin.sum_univ_three, A 1 0, A 2 0, A 2 1]
  ring

theorem PiM_eq (G : s.Good p) (i j : Fin 3) :
    PiM s i j = fun q => (∑ k, s.A i k q * s.g k j q) / s.psi q ^ 6 - 2 / 3 * kd i j * s.K q := by
  funext q
  have h0 := G.psi0 q
  have I : ∀ a b, ∑ k, s.h a k q * s.g k b q = kd a b := G.inv q
  have e : PiM s i j q = (∑ k, s.h i k q * Alow s k j q) / s.psi q ^ 6 - 2 / 3 * (∑ k, s.h i k q * s.g k j q) * s.K q := by
    unfold PiM
    simp only [PiD_eq G, Slice.gamI, Fin.sum_univ_three]
    field_simp
    ring
  have e2 : ∑ k, s.h i k q * Alow s k j q = ∑ k, s.A i k q * s.g k j q := by
    have : ∑ k, s.h i k q * Alow s k j q = ∑ l, (∑ k, s.h i k q * s.g k l q) * ∑ m, s.g j m q * s.A l m q := by
      simp only [Alow, move2, Fin.sum_univ_three]; ring
    rw [this]
    simp only [I, kd]
    simp only [ite_mul, one_mul, zero_mul, Finset.sum_ite_eq, Finset.mem_univ, if_true]
    exact Finset.sum_congr rfl fun m _ => by rw [show s.g j m q = s.g m j q from G.gs q j m]; ring
  rw [e, e2, I]

/-- its derivative -/
theorem PiM_pd (G : s.Good p) (i j m : Fin 3) :
    pd (PiM s i j) m p = (∑ k, (pd (s.A i k) m p * s.g k j p + s.A i k p * pd (s.g k j) m p)) / s.psi p ^ 6
      - 6 * (∑ k, s.A i k p * s.g k j p) / s.psi p ^ 6 * s.L m p - 2 / 3 * kd i j * pd s.K m p := by
  have h0 := G.psi0 p
  have h1 : HasDerivAt (fun t => ∑ k, line (s.A i k) m p t * line (s.g k j) m p t)
      (∑ k, (pd (s.A i k) m p * s.g k j p + s.A i k p * pd (s.g k j) m p)) (p m) := by
    refine HasDerivAt.fun_sum fun k _ => ?_
    exact (((G.dA i k).has m).mul ((G.dg k j p).has m)).congr_deriv (by simp only [line_at])
  have h2 := (h1.div (((G.dpsi p).has m).pow 6) (by simp only [Pi.pow_apply, line_at]; exact pow_ne_zero 6 h0)).sub
    ((G.dK.has m).const_mul (2 / 3 * kd i j))
  rw [PiM_eq G]
  unfold pd
  refine h2.deriv.trans ?_
  simp only [Pi.pow_apply, line_at, Nat.cast_ofNat, Nat.reduceSub, Slice.L, pd]
  field_simp

/-- the trace of the physical connection -/
theorem gconn_trace (G : s.Good p) (i : Fin 3) (q : Pt) : ∑ k, s.gconn k k i q = (∑ k, s.conn k k i q) + 6 * s.L i q := by
  simp only [G.gconn_eq, Finset.sum_add_distrib]
  congr 1
  have gs := G.gs q
  have lowV : ∑ k, s.g i k q * up (fun i j => s.h i j q) (fun l => s.L l q) k = s.L i q := by
    have : ∑ k, s.g i k q * up (fun i j => s.h i j q) (fun l => s.L l q) k = ∑ l, (∑ k, s.g i k q * s.h k l q) * s.L l q := by
      simp only [up, Fin.sum_univ_three]; ring
    rw [this]
    have := inv_right (G.gs q) (G.hs q) (G.inv q)
    simp only [this, kd]
    simp
  unfold diffC
  have g' : ∀ a b, s.g a b q = s.g b a q := gs
  simp only [Fin.sum_univ_three] at lowV ⊢
  fin_cases i <;> simp [kd, g' 1 0, g' 2 0, g' 2 1] at lowV ⊢ <;> linear_combination -2 * lowV

end Elliptica.Obs
