import Verif.Props.Ks
/-!
C90: metric, lapse and shift of the Kerr-Schild free data.
-/
namespace Elliptica.Ks
open Elliptica.Fields Elliptica.KsSpec

/-- the space components of k -/
noncomputable def ksp (P : Par) (q : Pt) : Fin 3 → ℝ := ![k0 P q, k1 P q, k2 P q]

theorem gam_eq (P : Par) (q : Pt) (i j : Fin 3) : gam P i j q = (if i = j then 1 else 0) + c P q * ksp P q i * ksp P q j := by
  fin_cases i <;> fin_cases j <;> simp [gam, gamma_D0D0, gamma_D0D1, gamma_D0D2, gamma_D1D1, gamma_D1D2, gamma_D2D2, ksp] <;> ring

theorem betaD_eq (P : Par) (q : Pt) (i : Fin 3) : betaD P q i = c P q * kt P q * ksp P q i := by
  fin_cases i <;> simp [betaD, ksp]

theorem betaU_eq (P : Par) (q : Pt) (ig : Fin 3 → Fin 3 → ℝ) (hs : Adm.Symm ig) (i : Fin 3) : betaU P q ig i = ∑ j, ig i j * betaD P q j := by
  fin_cases i <;> simp [betaU, Fin.sum_univ_three, hs 1 0, hs 2 0, hs 2 1] <;> ring

/-- a Kerr-Schild metric has the 3+1 split of the code -/
theorem split_of_null (g : Fin 4 → Fin 4 → ℝ) (gm : Fin 3 → Fin 3 → ℝ) (cc t : ℝ) (k bd bu : Fin 3 → ℝ) (hc : 0 ≤ cc)
    (hn : k 0 ^ 2 + k 1 ^ 2 + k 2 ^ 2 = t ^ 2)
    (hg : ∀ i j, gm i j = (if i = j then 1 else 0) + cc * k i * k j)
    (hbd : ∀ i, bd i = cc * t * k i) (hl : ∀ i, bd i = ∑ j, gm i j * bu j)
    (g0 : g 0 0 = -1 + cc * t * t) (gi : ∀ i : Fin 3, g 0 i.succ = cc * t * k i)
    (gij : ∀ i j : Fin 3, g i.succ j.succ = (if i = j then 1 else 0) + cc * k i * k j) :
    Split g gm (1 / √(1 + cc * t * t)) bd bu := by
  have hp : 0 < 1 + cc * t * t := by nlinarith [mul_nonneg hc (mul_self_nonneg t)]
  refine ⟨fun i j => by rw [hg, gij], fun i => by rw [hbd, gi], hl, ?_, by positivity⟩
  rw [div_pow, Real.sq_sqrt hp.le, g0]
  have e0 := hl 0
  have e1 := hl 1
  have e2 := hl 2
  rw [Fin.sum_univ_three, hbd] at e0 e1 e2
  simp only [hg, if_true, if_false, Fin.reduceEq, one_ne_zero, zero_ne_one] at e0 e1 e2
  rw [Fin.sum_univ_three, hbd, hbd, hbd]
  have hkb : cc * t * t ^ 2 = (k 0 * bu 0 + k 1 * bu 1 + k 2 * bu 2) * (1 + cc * t * t) := by
    have : (1 + cc * t * t) = 1 + cc * (k 0 ^ 2 + k 1 ^ 2 + k 2 ^ 2) := by rw [hn]; ring
    rw [this, ← hn]
    linear_combination k 0 * e0 + k 1 * e1 + k 2 * e2
  have : k 0 * bu 0 + k 1 * bu 1 + k 2 * bu 2 = cc * t * t ^ 2 / (1 + cc * t * t) := by rw [hkb]; field_simp
  rw [show cc * t * k 0 * bu 0 + cc * t * k 1 * bu 1 + cc * t * k 2 * bu 2 = cc * t * (k 0 * bu 0 + k 1 * bu 1 + k 2 * bu 2) by ring, this]
  field_simp
  ring

theorem inverse_right (g h : Fin 3 → Fin 3 → ℝ) (hi : Adm.Inverse g h) (i j : Fin 3) : ∑ k, g i k * h k j = if i = j then 1 else 0 := by
  have h1 : (Matrix.of h) * (Matrix.of g) = 1 := by
    ext a b; rw [Matrix.mul_apply, Matrix.one_apply]; exact hi a b
  have h3 := mul_eq_one_comm.mp h1
  have h2 := congrFun (congrFun h3 i) j
  rw [Matrix.mul_apply, Matrix.one_apply] at h2
  exact h2

theorem lower_of_inverse (g h : Fin 3 → Fin 3 → ℝ) (hi : Adm.Inverse g h) (bd bu : Fin 3 → ℝ) (hb : ∀ i, bu i = ∑ j, h i j * bd j) (i : Fin 3) :
    bd i = ∑ j, g i j * bu j := by
  simp only [hb, Finset.mul_sum]
  rw [Finset.sum_comm]
  have : ∀ l, ∑ j, g i j * (h j l * bd l) = (if i = l then 1 else 0) * bd l := by
    intro l
    rw [← inverse_right g h hi i l, Finset.sum_mul]
    exact Finset.sum_congr rfl fun _ _ => by ring
  simp only [this]
  simp

/-- the boosted and rotated Kerr metric, in terms of the covector k -/
theorem transform_kerr (P : Par) (q : Pt) (h : P.Moving) (m n : Fin 4) :
    transform P.B P.phiy P.phiz (kerr (P.Lam * P.M) P.a (XYZ P q) (R P q)) m n = eta m n + c P q * kcov P q m * kcov P q n := by
  have hc : c P q = 2 * (P.Lam * P.M * R P q ^ 3 / (R P q ^ 4 + P.a ^ 2 * XYZ P q 2 ^ 2)) := by
    unfold c H
    rw [show XYZ P q 2 = Z P q from rfl, add_comm (P.a ^ 2 * Z P q ^ 2)]
  rw [kcov_eq P q h m, kcov_eq P q h n, ← jac_eta P h m n, hc]
  unfold transform kerr
  simp only [mul_add, Finset.sum_add_distrib]
  congr 1
  simp only [Fin.sum_univ_four]
  ring

/-- C90 the metric, lapse and shift are the 3+1 split, at the time 0, of the Kerr metric of mass M and spin parameter a that is rotated by the
angles (phiy, phiz) and moves with the velocity B; off the disc. Lambda is 1 in the code. -/
theorem C90_split (P : Par) (q : Pt) (h : P.Moving) (hl : 0 < P.lit) (hl2 : P.lit ^ 2 = 1 / 2) (hm : 0 ≤ P.Lam * P.M)
    (hd : ¬ (frame P.B P.phiy P.phiz 0 q 3 = 0 ∧ frame P.B P.phiy P.phiz 0 q 1 ^ 2 + frame P.B P.phiy P.phiz 0 q 2 ^ 2 ≤ P.a ^ 2))
    (ig : Fin 3 → Fin 3 → ℝ) (hs : Adm.Symm ig) (hi : Adm.Inverse (fun i j => gam P i j q) ig) :
    Radius P.a (space (frame P.B P.phiy P.phiz 0 q)) (R P q) ∧
    Split (transform P.B P.phiy P.phiz (kerr (P.Lam * P.M) P.a (space (frame P.B P.phiy P.phiz 0 q)) (R P q)))
      (fun i j => gam P i j q) (alpha P q) (betaD P q) (betaU P q ig) := by
  have hr := C90_radius P q h hl hl2 hd
  have hR := hr.pos
  refine ⟨hr, ?_⟩
  have hc : 0 ≤ c P q := by unfold c H; positivity
  rw [← C90_coordinates P q h]
  refine split_of_null _ _ (c P q) (kt P q) (ksp P q) _ _ hc (k_null P q h hl2 hR) (fun i j => gam_eq P q i j) (betaD_eq P q) ?_ ?_ ?_ ?_
  · exact lower_of_inverse _ ig hi _ _ (betaU_eq P q ig hs)
  · rw [transform_kerr P q h]; simp [eta, kcov]
  · intro i; rw [transform_kerr P q h]; fin_cases i <;> simp [eta, kcov, ksp]
  · intro i j; rw [transform_kerr P q h]; fin_cases i <;> fin_cases j <;> simp [eta, kcov, ksp]

end Elliptica.Ks
