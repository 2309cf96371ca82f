import Verif.Model.Gen.Adm
import Verif.Spec.Adm
import Mathlib.Tactic.FieldSimp
import Mathlib.Tactic.LinearCombination
import Mathlib.Tactic.FinCases
import Mathlib.Data.Fin.VecNotation
/-!
C65 the physical metric and extrinsic curvature from the conformal ones.
-/
namespace Elliptica.Extrinsic
open Elliptica.Adm Elliptica.Gen

/-- C65: adm_g holds γ_{ij} = ψ⁴ g_{ij} -/
theorem C65_metric (x : AdmG.In) (i j : Fin 3) : AdmG.out_adm_g_DD x i j = stored (fun i j => x.psi ^ 4 * x.gConf_DD i j) i j := by
  fin_cases i <;> fin_cases j <;> simp [stored, AdmG.out_adm_g_DD, AdmG.g_D0D0, AdmG.g_D0D1, AdmG.g_D0D2, AdmG.g_D1D1, AdmG.g_D1D2, AdmG.g_D2D2,
    AdmG.psi4] <;> ring

/-- K^{ij} = ψ⁻¹⁰ A^{ij} + γ^{ij} K / 3 with γ^{ij} = ψ⁻⁴ h^{ij} -/
noncomputable def Kup (psi : ℝ) (A h : Fin 3 → Fin 3 → ℝ) (K : ℝ) (i j : Fin 3) : ℝ := A i j / psi ^ 10 + h i j / psi ^ 4 * K / 3

/-- both indices of a tensor moved with a metric -/
noncomputable def move2 (g K : Fin 3 → Fin 3 → ℝ) (i j : Fin 3) : ℝ := ∑ k, ∑ l, g i k * g j l * K k l

/-- C65: adm_KIJ holds K^{ij} -/
theorem C65_KUU (x : KUUbyA.In) (i j : Fin 3) :
    KUUbyA.out_adm_KIJ_UU x i j = stored (Kup x.psi x.AConfIJ_UU x.igConf_UU x.trK) i j := by
  fin_cases i <;> fin_cases j <;> simp [stored, KUUbyA.out_adm_KIJ_UU, KUUbyA.KIJ_U0U0, KUUbyA.KIJ_U0U1, KUUbyA.KIJ_U0U2, KUUbyA.KIJ_U1U1,
    KUUbyA.KIJ_U1U2, KUUbyA.KIJ_U2U2, KUUbyA.psim10, KUUbyA.psim4, Kup] <;> ring

theorem lower_inverse (g h : Fin 3 → Fin 3 → ℝ) (I : Inverse g h) (gs : Symm g) (i j : Fin 3) : move2 g h i j = g i j := by
  have e : move2 g h i j = ∑ k, g i k * ∑ l, h k l * g l j := by
    unfold move2
    refine Finset.sum_congr rfl fun k _ => ?_
    rw [Finset.mul_sum]
    exact Finset.sum_congr rfl fun l _ => by rw [gs j l]; ring
  rw [e]
  simp [I _ _]

/-- C65: the trace of K^{ij} is K when A^{ij} has no trace -/
theorem C65_trace (psi : ℝ) (A g h : Fin 3 → Fin 3 → ℝ) (K : ℝ) (hp : psi ≠ 0) (gs : Symm g) (I : Inverse g h)
    (tr : ∑ i, ∑ j, g i j * A i j = 0) : ∑ i, ∑ j, (psi ^ 4 * g i j) * Kup psi A h K i j = K := by
  have t3 : ∑ i, ∑ j, g i j * h i j = 3 := by
    have : ∑ i, ∑ j, g i j * h i j = ∑ i, ∑ j, h i j * g j i :=
      Finset.sum_congr rfl fun i _ => Finset.sum_congr rfl fun j _ => by rw [gs i j]; ring
    rw [this]
    have : ∀ i, ∑ j, h i j * g j i = 1 := fun i => by rw [I i i]; simp
    simp [this]
  have : ∑ i, ∑ j, (psi ^ 4 * g i j) * Kup psi A h K i j = (∑ i, ∑ j, g i j * A i j) / psi ^ 6 + (∑ i, ∑ j, g i j * h i j) * K / 3 := by
    simp only [Kup, Fin.sum_univ_three]
    field_simp
    ring
  rw [this, tr, t3]
  ring

/-- C65: adm_Kij holds K_{ij}, that is K^{ij} with its indices lowered with γ -/
theorem C65_KDD (x : KDDbyA.In) (h : Fin 3 → Fin 3 → ℝ) (hp : x.psi ≠ 0) (gs : Symm x.gConf_DD) (hs : Symm h) (As : Symm x.AConfIJ_UU)
    (I : Inverse x.gConf_DD h) (i j : Fin 3) :
    KDDbyA.out_adm_Kij_DD x i j = stored (move2 (fun i j => x.psi ^ 4 * x.gConf_DD i j) (Kup x.psi x.AConfIJ_UU h x.trK)) i j := by
  have e : ∀ i j, move2 (fun i j => x.psi ^ 4 * x.gConf_DD i j) (Kup x.psi x.AConfIJ_UU h x.trK) i j =
      move2 x.gConf_DD x.AConfIJ_UU i j / x.psi ^ 2 + x.psi ^ 4 * x.gConf_DD i j * x.trK / 3 := by
    intro i j
    rw [← lower_inverse x.gConf_DD h I gs i j]
    simp only [move2, Kup, Fin.sum_univ_three]
    field_simp
    ring
  fin_cases i <;> fin_cases j <;> simp [stored, KDDbyA.out_adm_Kij_DD, e] <;>
    simp [KDDbyA.Kij_D0D0, KDDbyA.Kij_D0D1, KDDbyA.Kij_D0D2, KDDbyA.Kij_D1D1, KDDbyA.Kij_D1D2, KDDbyA.Kij_D2D2, KDDbyA.psim2, KDDbyA.psi2,
      KDDbyA.psi4, move2, Fin.sum_univ_three, gs 1 0, gs 2 0, gs 2 1, As 1 0, As 2 0, As 2 1] <;> ring

/-- C65: adm_KIJ computed from adm_Kij: both indices raised with γ -/
theorem C65_raise (x : KUUbyK.In) (hp : x.psi ≠ 0) (hs : Symm x.igConf_UU) (Ks : Symm x.adm_Kij_DD) (i j : Fin 3) :
    KUUbyK.out_adm_KIJ_UU x i j = stored (move2 (fun i j => x.igConf_UU i j / x.psi ^ 4) x.adm_Kij_DD) i j := by
  fin_cases i <;> fin_cases j <;> simp [stored, KUUbyK.out_adm_KIJ_UU] <;>
    simp [KUUbyK.KIJ_U0U0, KUUbyK.KIJ_U0U1, KUUbyK.KIJ_U0U2, KUUbyK.KIJ_U1U1, KUUbyK.KIJ_U1U2, KUUbyK.KIJ_U2U2, KUUbyK.psim4,
      move2, Fin.sum_univ_three, hs 1 0, hs 2 0, hs 2 1, Ks 1 0, Ks 2 0, Ks 2 1] <;> field_simp <;> ring

/-- raising undoes lowering -/
theorem raise_lower (g h K : Fin 3 → Fin 3 → ℝ) (I : Inverse g h) (i j : Fin 3) : move2 h (move2 g K) i j = K i j := by
  have e : move2 h (move2 g K) i j = ∑ k, ∑ l, (∑ m, h i m * g m k) * (∑ n, h j n * g n l) * K k l := by
    simp only [move2, Fin.sum_univ_three]
    ring
  rw [e]
  simp [I i _, I j _]

/-- C65: the two ways of computing K^{ij} agree: raising the indices of adm_Kij gives what is computed from A^{ij} directly -/
theorem C65_ways (x : KDDbyA.In) (y : KUUbyK.In) (z : KUUbyA.In) (hp : x.psi ≠ 0) (gs : Symm x.gConf_DD) (hs : Symm z.igConf_UU)
    (As : Symm x.AConfIJ_UU) (I : Inverse x.gConf_DD z.igConf_UU)
    (yp : y.psi = x.psi) (zp : z.psi = x.psi) (zK : z.trK = x.trK) (zA : z.AConfIJ_UU = x.AConfIJ_UU) (yh : y.igConf_UU = z.igConf_UU)
    (yK : ∀ i j, KDDbyA.out_adm_Kij_DD x (min i j) (max i j) = some (y.adm_Kij_DD i j)) (i j : Fin 3) :
    KUUbyK.out_adm_KIJ_UU y i j = KUUbyA.out_adm_KIJ_UU z i j := by
  have Ksym : Symm (Kup x.psi x.AConfIJ_UU z.igConf_UU x.trK) := fun i j => by unfold Kup; rw [As i j, hs i j]
  have m2 : Symm (move2 (fun i j => x.psi ^ 4 * x.gConf_DD i j) (Kup x.psi x.AConfIJ_UU z.igConf_UU x.trK)) := by
    intro i j
    unfold move2
    rw [Finset.sum_comm]
    exact Finset.sum_congr rfl fun k _ => Finset.sum_congr rfl fun l _ => by rw [Ksym l k]; ring
  have eK : y.adm_Kij_DD = move2 (fun i j => x.psi ^ 4 * x.gConf_DD i j) (Kup x.psi x.AConfIJ_UU z.igConf_UU x.trK) := by
    funext i j
    have h := yK i j
    rw [C65_KDD x z.igConf_UU hp gs hs As I, stored, if_pos min_le_max] at h
    have h := Option.some.inj h
    rw [← h]
    rcases le_total i j with c | c
    · rw [min_eq_left c, max_eq_right c]
    · rw [min_eq_right c, max_eq_left c, m2]
  have I4 : Inverse (fun i j => x.psi ^ 4 * x.gConf_DD i j) (fun i j => z.igConf_UU i j / x.psi ^ 4) := by
    intro i j
    rw [← I i j]
    refine Finset.sum_congr rfl fun k _ => ?_
    field_simp
  rw [C65_raise y (by rw [yp]; exact hp) (by rw [yh]; exact hs) (by rw [eK]; exact m2), C65_KUU]
  unfold stored
  split_ifs
  · rw [eK, yp, yh, raise_lower _ _ _ I4, zp, zA, zK]
  · rfl

/-- a metric with an off-diagonal entry, its inverse, and a tensor without trace -/
noncomputable def demoG : Fin 3 → Fin 3 → ℝ := ![![2, 1, 0], ![1, 1, 0], ![0, 0, 1]]
noncomputable def demoH : Fin 3 → Fin 3 → ℝ := ![![1, -1, 0], ![-1, 2, 0], ![0, 0, 1]]
noncomputable def demoA : Fin 3 → Fin 3 → ℝ := ![![1, 0, 0], ![0, 0, 0], ![0, 0, -2]]

example : Symm demoG ∧ Symm demoH ∧ Symm demoA ∧ Inverse demoG demoH ∧ ∑ i, ∑ j, demoG i j * demoA i j = 0 := by
  refine ⟨?_, ?_, ?_, ?_, ?_⟩
  · intro i j; fin_cases i <;> fin_cases j <;> rfl
  · intro i j; fin_cases i <;> fin_cases j <;> rfl
  · intro i j; fin_cases i <;> fin_cases j <;> rfl
  · intro i j; fin_cases i <;> fin_cases j <;> simp [demoG, demoH, Fin.sum_univ_three, Matrix.cons_val] <;> norm_num
  · simp [demoG, demoA, Fin.sum_univ_three, Matrix.cons_val]

end Elliptica.Extrinsic
