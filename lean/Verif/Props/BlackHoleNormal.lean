import Verif.Model.BlackHole
import Verif.Spec.BlackHole
import Mathlib.LinearAlgebra.Matrix.NonsingularInverse
import Mathlib.Analysis.SpecialFunctions.Sqrt
import Mathlib.Analysis.SpecialFunctions.Pow.Deriv
import Mathlib.Analysis.Calculus.Deriv.Mul
import Mathlib.Tactic.LinearCombination
import Mathlib.Tactic.NormNum
import Mathlib.Tactic.FieldSimp
/-!
C94: the normal of the surface of a black hole, the condition on the shift and the expansion.
-/
namespace Elliptica.Bh
open Elliptica.Fields Elliptica.Adm Elliptica.BhSpec

theorem dist_pos (p : Pt) (hp : p ≠ 0) : 0 < dist p := by
  unfold dist
  apply Real.sqrt_pos.mpr
  by_contra h
  push Not at h
  apply hp
  have h0 := sq_nonneg (p 0); have h1 := sq_nonneg (p 1); have h2 := sq_nonneg (p 2)
  funext i
  fin_cases i
  · exact pow_eq_zero_iff (two_ne_zero) |>.mp (by linarith : p 0 ^ 2 = 0)
  · exact pow_eq_zero_iff (two_ne_zero) |>.mp (by linarith : p 1 ^ 2 = 0)
  · exact pow_eq_zero_iff (two_ne_zero) |>.mp (by linarith : p 2 ^ 2 = 0)

theorem dist_sq (p : Pt) : dist p ^ 2 = p 0 ^ 2 + p 1 ^ 2 + p 2 ^ 2 := Real.sq_sqrt (by positivity)

theorem len_eq (g : Fin 3 → Fin 3 → ℝ) (hs : Symm g) (p : Pt) : len g p = √(inner3 g (nrm p) (nrm p)) := by
  unfold len inner3
  congr 1
  simp only [Fin.sum_univ_three]
  rw [hs 1 0, hs 2 0, hs 2 1]
  ring

theorem len_pos (g : Fin 3 → Fin 3 → ℝ) (hs : Symm g) (hg : PosDef g) (p : Pt) (hp : p ≠ 0) : 0 < len g p := by
  rw [len_eq g hs]
  apply Real.sqrt_pos.mpr
  apply hg
  intro h
  apply hp
  funext i
  have := congrFun h i
  have hd := dist_pos p hp
  simpa [nrm, hd.ne'] using this

/-- C94 the normal field has length one in the conformal metric and points away from the centre -/
theorem C94_unit (g : Fin 3 → Fin 3 → ℝ) (hs : Symm g) (hg : PosDef g) (p : Pt) (hp : p ≠ 0) :
    inner3 g (sConf g p) (sConf g p) = 1 ∧ ∃ k > 0, ∀ i, sConf g p i = k * p i := by
  have hl := len_pos g hs hg p hp
  have hd := dist_pos p hp
  have h2 : len g p ^ 2 = inner3 g (nrm p) (nrm p) := by
    rw [len_eq g hs]; apply Real.sq_sqrt
    by_contra h
    rw [len_eq g hs, Real.sqrt_eq_zero_of_nonpos (le_of_lt (not_le.mp h))] at hl
    exact lt_irrefl _ hl
  refine ⟨?_, 1 / (dist p * len g p), by positivity, fun i => by unfold sConf nrm; field_simp⟩
  have : inner3 g (sConf g p) (sConf g p) = inner3 g (nrm p) (nrm p) / len g p ^ 2 := by
    unfold inner3 sConf
    simp only [Fin.sum_univ_three]
    field_simp
  rw [this, h2, div_self (by rw [← h2]; positivity)]

/-- C94 for a conformally flat metric the normal is orthogonal to every direction along the sphere -/
theorem C94_orthogonal (phi : ℝ) (p t : Pt) (ht : p 0 * t 0 + p 1 * t 1 + p 2 * t 2 = 0) :
    inner3 (fun i j => if i = j then phi else 0) (sConf (fun i j => if i = j then phi else 0) p) t = 0 := by
  unfold inner3 sConf nrm
  simp only [Fin.sum_univ_three]
  simp only [Fin.isValue, Fin.reduceEq, if_true, if_false]
  linear_combination (phi / dist p / len (fun i j => if i = j then phi else 0) p) * ht

/-- C94 violation: for other metrics the field is not the normal of the sphere -/
theorem C94_orthogonal_violation : ∃ g : Fin 3 → Fin 3 → ℝ, Symm g ∧ PosDef g ∧ ∃ p t : Pt, p ≠ 0 ∧ p 0 * t 0 + p 1 * t 1 + p 2 * t 2 = 0 ∧
    inner3 g (sConf g p) t ≠ 0 := by
  let g : Fin 3 → Fin 3 → ℝ := ![![1, 1 / 2, 0], ![1 / 2, 1, 0], ![0, 0, 1]]
  have hs : Symm g := by intro i j; fin_cases i <;> fin_cases j <;> rfl
  have hg : PosDef g := by
    intro v hv
    have e : (∑ i, ∑ j, g i j * v i * v j) = (v 0 + v 1 / 2) ^ 2 + 3 / 4 * v 1 ^ 2 + v 2 ^ 2 := by
      simp only [Fin.sum_univ_three, g]
      simp
      ring
    rw [e]
    by_contra h
    push Not at h
    apply hv
    have a := sq_nonneg (v 0 + v 1 / 2); have b := sq_nonneg (v 1); have c := sq_nonneg (v 2)
    have h1 : v 1 = 0 := pow_eq_zero_iff two_ne_zero |>.mp (by linarith)
    have h2 : v 2 = 0 := pow_eq_zero_iff two_ne_zero |>.mp (by linarith)
    have h0 : v 0 = 0 := by
      have : v 0 + v 1 / 2 = 0 := pow_eq_zero_iff two_ne_zero |>.mp (by linarith)
      rw [h1] at this; linarith
    funext i
    fin_cases i
    exacts [h0, h1, h2]
  have hp : (![1, 0, 0] : Pt) ≠ 0 := by intro h; have := congrFun h 0; simp at this
  refine ⟨g, hs, hg, ![1, 0, 0], ![0, 1, 0], hp, by simp, ?_⟩
  have hl := len_pos g hs hg _ hp
  have hd := dist_pos _ hp
  have : inner3 g (sConf g ![1, 0, 0]) ![0, 1, 0] = 1 / 2 / dist ![1, 0, 0] / len g ![1, 0, 0] := by
    unfold inner3
    simp only [Fin.sum_univ_three, g, sConf, nrm]
    simp
    ring
  rw [this]
  positivity

theorem dist_deriv (p : Pt) (hp : p ≠ 0) (j : Fin 3) : HasDerivAt (line dist j p) (nrm p j) (p j) := by
  have hd := dist_pos p hp
  have hne : p 0 ^ 2 + p 1 ^ 2 + p 2 ^ 2 ≠ 0 := by rw [← dist_sq]; positivity
  have key : ∀ (c x : ℝ), c + x ^ 2 ≠ 0 → HasDerivAt (fun t : ℝ => √(c + t ^ 2)) (x / √(c + x ^ 2)) x := by
    intro c x h
    have h1 : HasDerivAt (fun t : ℝ => c + t ^ 2) (2 * x) x := by
      simpa using ((hasDerivAt_id x).pow 2).const_add c
    have h2 := h1.sqrt h
    exact h2.congr_deriv (by rw [mul_div_mul_left _ _ two_ne_zero])
  unfold nrm
  fin_cases j
  · have h := key (p 1 ^ 2 + p 2 ^ 2) (p 0) (by intro h; apply hne; linarith)
    refine (h.congr_deriv ?_).congr_of_eventuallyEq ?_
    · show p 0 / _ = p 0 / √(p 0 ^ 2 + p 1 ^ 2 + p 2 ^ 2)
      rw [show p 1 ^ 2 + p 2 ^ 2 + p 0 ^ 2 = p 0 ^ 2 + p 1 ^ 2 + p 2 ^ 2 by ring]
    · refine Filter.Eventually.of_forall fun t => ?_
      simp [line, dist]
      congr 1; ring
  · have h := key (p 0 ^ 2 + p 2 ^ 2) (p 1) (by intro h; apply hne; linarith)
    refine (h.congr_deriv ?_).congr_of_eventuallyEq ?_
    · show p 1 / _ = p 1 / √(p 0 ^ 2 + p 1 ^ 2 + p 2 ^ 2)
      rw [show p 0 ^ 2 + p 2 ^ 2 + p 1 ^ 2 = p 0 ^ 2 + p 1 ^ 2 + p 2 ^ 2 by ring]
    · refine Filter.Eventually.of_forall fun t => ?_
      simp [line, dist]
      congr 1; ring
  · have h := key (p 0 ^ 2 + p 1 ^ 2) (p 2) (by intro h; apply hne; linarith)
    refine (h.congr_deriv ?_).congr_of_eventuallyEq ?_
    · show p 2 / _ = p 2 / √(p 0 ^ 2 + p 1 ^ 2 + p 2 ^ 2)
      rfl
    · refine Filter.Eventually.of_forall fun t => ?_
      simp [line, dist]

theorem coord_deriv (p : Pt) (i j : Fin 3) : HasDerivAt (line (fun q => q i) j p) (if i = j then 1 else 0) (p j) := by
  by_cases h : i = j
  · subst h
    simp only [if_true]
    have : line (fun q : Pt => q i) i p = fun t => t := by funext t; simp [line]
    rw [this]; exact hasDerivAt_id' _
  · have : line (fun q : Pt => q i) j p = fun _ => p i := by funext t; simp [line, h]
    rw [this, if_neg h]; exact hasDerivAt_const _ _

/-- C94 the derivatives of the normal are its derivatives, if those of its length before normalisation are -/
theorem C94_normal_deriv (g : Pt → Fin 3 → Fin 3 → ℝ) (p : Pt) (hs : Symm (g p)) (hg : PosDef (g p)) (hp : p ≠ 0)
    (hd : Diff (fun q => len (g q) q) p) (i j : Fin 3) :
    HasDerivAt (line (fun q => sConf (g q) q i) j p) (dsConf (len (g p) p) (fun k => pd (fun q => len (g q) q) k p) p i j) (p j) := by
  have hl := len_pos (g p) hs hg p hp
  have hr := dist_pos p hp
  have e1 : line (fun q : Pt => q i) j p (p j) = p i := line_at _ _ _
  have e2 : line dist j p (p j) = dist p := line_at _ _ _
  have e3 : line (fun q => len (g q) q) j p (p j) = len (g p) p := line_at (fun q => len (g q) q) _ _
  have h1 := (coord_deriv p i j).div (dist_deriv p hp j) (by rw [e2]; exact hr.ne')
  have h2 := h1.div (hd.has j) (by rw [e3]; exact hl.ne')
  refine (h2.congr_deriv ?_).congr_of_eventuallyEq (Filter.Eventually.of_forall fun t => rfl)
  simp only [Pi.div_apply, e1, e2, e3, dsConf, nrm]
  field_simp

example : ∃ (g : Pt → Fin 3 → Fin 3 → ℝ) (p : Pt), Symm (g p) ∧ PosDef (g p) ∧ p ≠ 0 ∧ g p 0 0 = 4 := by
  refine ⟨fun _ i j => if i = j then 4 else 0, ![1, 2, 3], ?_, ?_, ?_, by simp⟩
  · intro i j; fin_cases i <;> fin_cases j <;> rfl
  · intro v hv
    simp only [Fin.sum_univ_three, Fin.isValue, Fin.reduceEq, if_true, if_false]
    have := dist_pos v hv
    have h2 := dist_sq v
    nlinarith
  · intro h; have := congrFun h 0; simp at this

/-- C94 the shift on the inner boundary is the lapse times the physical unit normal, plus a rotation; for a conformally flat metric its part along the
physical normal is the lapse: the surface does not move along the outgoing light rays -/
theorem C94_shift (g : Fin 3 → Fin 3 → ℝ) (Om : Fin 3 → ℝ) (alphaPsi psi : ℝ) (hpsi : psi ≠ 0) (s : Fin 3 → ℝ) (p : Pt) :
    (∀ i, innerBeta Om alphaPsi psi s p i = (alphaPsi / psi) * (s i / psi ^ 2) + cross Om p i) ∧
    (inner3 g s s = 1 → inner3 (fun i j => psi ^ 4 * g i j) (innerBeta Om alphaPsi psi s p) (fun i => s i / psi ^ 2) =
      alphaPsi / psi + psi ^ 2 * inner3 g (cross Om p) s) ∧
    ∀ phi > 0, p ≠ 0 → g = (fun i j => if i = j then phi else 0) → s = sConf g p →
      inner3 (fun i j => psi ^ 4 * g i j) (innerBeta Om alphaPsi psi s p) (fun i => s i / psi ^ 2) = alphaPsi / psi := by
  have hb : ∀ i, innerBeta Om alphaPsi psi s p i = (alphaPsi / psi) * (s i / psi ^ 2) + cross Om p i := by
    intro i
    fin_cases i <;> simp [innerBeta, cross] <;> ring
  have h2 : inner3 g s s = 1 → inner3 (fun i j => psi ^ 4 * g i j) (innerBeta Om alphaPsi psi s p) (fun i => s i / psi ^ 2) =
      alphaPsi / psi + psi ^ 2 * inner3 g (cross Om p) s := by
    intro h
    have : inner3 (fun i j => psi ^ 4 * g i j) (innerBeta Om alphaPsi psi s p) (fun i => s i / psi ^ 2) =
        alphaPsi / psi * inner3 g s s + psi ^ 2 * inner3 g (cross Om p) s := by
      unfold inner3
      simp only [hb, Fin.sum_univ_three]
      field_simp
      ring
    rw [this, h, mul_one]
  refine ⟨hb, h2, ?_⟩
  intro phi hphi hp hg hs
  have hsy : Symm g := by rw [hg]; intro i j; simp only [eq_comm]
  have hpd : PosDef g := by
    rw [hg]; intro v hv
    simp only [Fin.sum_univ_three, Fin.isValue, Fin.reduceEq, if_true, if_false]
    have := dist_pos v hv
    have h2 := dist_sq v
    nlinarith [mul_pos hphi (pow_pos this 2)]
  have hu := (C94_unit g hsy hpd p hp).1
  rw [h2 (by rw [hs]; exact hu)]
  have : inner3 g (cross Om p) s = 0 := by
    rw [hs, hg]
    unfold inner3 sConf nrm cross
    simp only [Fin.sum_univ_three]
    simp
    ring
  rw [this, mul_zero, add_zero]

/-- C94 the connection of ψ⁴h in the specification of the expansion is the Levi-Civita connection of ψ⁴h, when c is that of h -/
theorem C94_confChris (h hi : Fin 3 → Fin 3 → ℝ) (dh : Fin 3 → Fin 3 → Fin 3 → ℝ) (psi : ℝ) (dpsi : Fin 3 → ℝ) (hpsi : psi ≠ 0) (hs : Symm h)
    (hinv : Inverse h hi) (k i j : Fin 3) :
    confChris h hi (fun k i j => 1 / 2 * ∑ l, hi k l * (dh j l i + dh i l j - dh i j l)) psi dpsi k i j =
      1 / 2 * ∑ l, (hi k l / psi ^ 4) * ((psi ^ 4 * dh j l i + 4 * psi ^ 3 * dpsi i * h j l) + (psi ^ 4 * dh i l j + 4 * psi ^ 3 * dpsi j * h i l) -
        (psi ^ 4 * dh i j l + 4 * psi ^ 3 * dpsi l * h i j)) := by
  have h1 : ∑ l, hi k l * h j l = if k = j then 1 else 0 := by rw [← hinv k j]; exact Finset.sum_congr rfl fun l _ => by rw [hs j l]
  have h2 : ∑ l, hi k l * h i l = if k = i then 1 else 0 := by rw [← hinv k i]; exact Finset.sum_congr rfl fun l _ => by rw [hs i l]
  have r1 : (if k = i then dpsi j else 0) = (∑ l, hi k l * h i l) * dpsi j := by rw [h2]; split <;> simp
  have r2 : (if k = j then dpsi i else 0) = (∑ l, hi k l * h j l) * dpsi i := by rw [h1]; split <;> simp
  unfold confChris
  rw [r1, r2]
  simp only [Fin.sum_univ_three]
  field_simp
  ring

theorem trace_confChris (h hi : Fin 3 → Fin 3 → ℝ) (c : Fin 3 → Fin 3 → Fin 3 → ℝ) (psi : ℝ) (dpsi : Fin 3 → ℝ) (hs : Symm h)
    (hinv : Inverse h hi) (l : Fin 3) : ∑ i, confChris h hi c psi dpsi i i l = (∑ i, c i i l) + 6 / psi * dpsi l := by
  have hm : (Matrix.of hi) * (Matrix.of h) = 1 := by
    ext i j; rw [Matrix.mul_apply]; simpa [Matrix.one_apply] using hinv i j
  have hm' := mul_eq_one_comm.mp hm
  have hr : ∀ a b, h a 0 * hi 0 b + h a 1 * hi 1 b + h a 2 * hi 2 b = if a = b then 1 else 0 := by
    intro a b
    have := congrFun (congrFun hm' a) b
    rw [Matrix.mul_apply] at this
    simpa [Matrix.one_apply, Fin.sum_univ_three] using this
  have r0 := hr l 0; have r1 := hr l 1; have r2 := hr l 2
  unfold confChris
  simp only [Fin.sum_univ_three, if_true]
  rw [hs 0 l, hs 1 l, hs 2 l]
  have hd : (if (0 : Fin 3) = l then dpsi 0 else 0) + (if (1 : Fin 3) = l then dpsi 1 else 0) + (if (2 : Fin 3) = l then dpsi 2 else 0) = dpsi l := by
    fin_cases l <;> simp
  have hd' : (if l = 0 then (1 : ℝ) else 0) * dpsi 0 + (if l = 1 then 1 else 0) * dpsi 1 + (if l = 2 then 1 else 0) * dpsi 2 = dpsi l := by
    fin_cases l <;> simp
  linear_combination (2 / psi) * hd - (2 / psi) * hd' - (2 / psi) * dpsi 0 * r0 - (2 / psi) * dpsi 1 * r1 - (2 / psi) * dpsi 2 * r2

/-- C94 the expansion: the value computed at a node is ψ³/4 times the expansion of the outgoing light rays of the physical quantities -/
theorem C94_expansion (x : Gen.BhTheta.In) (hi : Fin 3 → Fin 3 → ℝ) (hg : Symm x.gConf_DD) (hA : Symm x.AConfIJ_UU)
    (hc : ∀ k i j, x.ChrisConf_UDD k i j = x.ChrisConf_UDD k j i) (hinv : Inverse x.gConf_DD hi) (hpsi : x.psi ≠ 0)
    (hu : inner3 x.gConf_DD x.bh_sConf_U x.bh_sConf_U = 1) :
    Gen.BhTheta.Theta x = x.psi ^ 3 / 4 * expansion (confChris x.gConf_DD hi x.ChrisConf_UDD x.psi x.dpsi_D) (fun i => x.bh_sConf_U i / x.psi ^ 2)
      (fun i j => x.dbh_sConf_UD i j / x.psi ^ 2 - 2 * x.bh_sConf_U i * x.dpsi_D j / x.psi ^ 3)
      (fun i j => (∑ k, ∑ l, x.gConf_DD i k * x.AConfIJ_UU k l * x.gConf_DD l j) / x.psi ^ 2 + x.psi ^ 4 * x.gConf_DD i j * x.trK / 3) x.trK := by
  have e1 : (∑ i, cov (confChris x.gConf_DD hi x.ChrisConf_UDD x.psi x.dpsi_D) (fun i => x.bh_sConf_U i / x.psi ^ 2)
      (fun i j => x.dbh_sConf_UD i j / x.psi ^ 2 - 2 * x.bh_sConf_U i * x.dpsi_D j / x.psi ^ 3) i i) =
      Gen.BhTheta.DisConfI x / x.psi ^ 2 + 4 / x.psi ^ 3 * (∑ i, x.bh_sConf_U i * x.dpsi_D i) := by
    have t0 := trace_confChris x.gConf_DD hi x.ChrisConf_UDD x.psi x.dpsi_D hg hinv 0
    have t1 := trace_confChris x.gConf_DD hi x.ChrisConf_UDD x.psi x.dpsi_D hg hinv 1
    have t2 := trace_confChris x.gConf_DD hi x.ChrisConf_UDD x.psi x.dpsi_D hg hinv 2
    simp only [Fin.sum_univ_three] at t0 t1 t2
    unfold cov Gen.BhTheta.DisConfI
    simp only [Fin.sum_univ_three]
    rw [hc 1 1 0, hc 2 2 0] at t0
    rw [hc 2 2 1] at t1
    generalize confChris x.gConf_DD hi x.ChrisConf_UDD x.psi x.dpsi_D = C at *
    linear_combination (exp := 1) (x.bh_sConf_U 0 / x.psi ^ 2) * t0 + (x.bh_sConf_U 1 / x.psi ^ 2) * t1 + (x.bh_sConf_U 2 / x.psi ^ 2) * t2
  have e2 : (∑ i, ∑ j, ((∑ k, ∑ l, x.gConf_DD i k * x.AConfIJ_UU k l * x.gConf_DD l j) / x.psi ^ 2 + x.psi ^ 4 * x.gConf_DD i j * x.trK / 3) *
      (x.bh_sConf_U i / x.psi ^ 2) * (x.bh_sConf_U j / x.psi ^ 2)) =
      (∑ k, ∑ l, x.AConfIJ_UU k l * (∑ i, x.gConf_DD i k * x.bh_sConf_U i) * (∑ j, x.gConf_DD l j * x.bh_sConf_U j)) / x.psi ^ 6 +
        x.trK / 3 * inner3 x.gConf_DD x.bh_sConf_U x.bh_sConf_U := by
    unfold inner3
    simp only [Fin.sum_univ_three]
    field_simp
    ring
  unfold expansion
  rw [e1, e2, hu]
  unfold Gen.BhTheta.Theta
  simp only [Fin.sum_univ_three]
  rw [hg 1 0, hg 2 0, hg 2 1, hA 1 0, hA 2 0, hA 2 1]
  field_simp
  ring

/-- C94 the value returned is the largest absolute value over the nodes; it is zero exactly when the expansion is zero at all of them -/
theorem C94_maxExpansion (nodes : List Gen.BhTheta.In) :
    (∀ x ∈ nodes, |Gen.BhTheta.Theta x| ≤ maxExpansion nodes) ∧ (maxExpansion nodes = 0 ∨ ∃ x ∈ nodes, maxExpansion nodes = |Gen.BhTheta.Theta x|) ∧
    (maxExpansion nodes = 0 ↔ ∀ x ∈ nodes, Gen.BhTheta.Theta x = 0) := by
  have key : ∀ (l : List Gen.BhTheta.In) (m : ℝ),
      let r := l.foldl (fun m x => let t := |Gen.BhTheta.Theta x|; if m < t then t else m) m
      m ≤ r ∧ (∀ x ∈ l, |Gen.BhTheta.Theta x| ≤ r) ∧ (r = m ∨ ∃ x ∈ l, r = |Gen.BhTheta.Theta x|) := by
    intro l
    induction l with
    | nil => intro m; simp
    | cons y l ih =>
      intro m
      simp only [List.foldl_cons]
      obtain ⟨h1, h2, h3⟩ := ih (if m < |Gen.BhTheta.Theta y| then |Gen.BhTheta.Theta y| else m)
      have hm : m ≤ (if m < |Gen.BhTheta.Theta y| then |Gen.BhTheta.Theta y| else m) ∧
          |Gen.BhTheta.Theta y| ≤ (if m < |Gen.BhTheta.Theta y| then |Gen.BhTheta.Theta y| else m) := by
        split <;> constructor <;> linarith
      refine ⟨le_trans hm.1 h1, ?_, ?_⟩
      · intro x hx
        rcases List.mem_cons.mp hx with rfl | hx
        · exact le_trans hm.2 h1
        · exact h2 x hx
      · rcases h3 with h | ⟨x, hx, h⟩
        · by_cases hc : m < |Gen.BhTheta.Theta y|
          · exact Or.inr ⟨y, by simp, by rw [h, if_pos hc]⟩
          · exact Or.inl (by rw [h, if_neg hc])
        · exact Or.inr ⟨x, List.mem_cons_of_mem _ hx, h⟩
  obtain ⟨h1, h2, h3⟩ := key nodes 0
  refine ⟨h2, h3, ?_, ?_⟩
  · intro h0 x hx
    have := h2 x hx
    change |Gen.BhTheta.Theta x| ≤ maxExpansion nodes at this
    rw [h0] at this
    exact abs_nonpos_iff.mp this
  · intro hz
    rcases h3 with h | ⟨x, hx, h⟩
    · exact h
    · change maxExpansion nodes = _ at h
      rw [h, hz x hx, abs_zero]

/-- a conformally flat slice with maximal slicing: the hypotheses of `C94_expansion` are met -/
example : ∃ (x : Gen.BhTheta.In) (hi : Fin 3 → Fin 3 → ℝ), Symm x.gConf_DD ∧ Symm x.AConfIJ_UU ∧
    (∀ k i j, x.ChrisConf_UDD k i j = x.ChrisConf_UDD k j i) ∧ Inverse x.gConf_DD hi ∧ x.psi ≠ 0 ∧ inner3 x.gConf_DD x.bh_sConf_U x.bh_sConf_U = 1 ∧
    x.trK = 1 := by
  refine ⟨⟨fun _ _ _ => 0, ![1, 0, 0], fun i j => if i = j ∧ i ≠ 0 then 1 else 0, 2, ![-1, 0, 0], 1, fun _ _ => 0, fun i j => if i = j then 1 else 0⟩,
    fun i j => if i = j then 1 else 0, ?_, ?_, ?_, ?_, two_ne_zero, ?_, rfl⟩
  · intro i j; simp only [eq_comm]
  · intro i j; rfl
  · intro k i j; rfl
  · intro i j; fin_cases i <;> fin_cases j <;> simp [Fin.sum_univ_three]
  · simp [inner3, Fin.sum_univ_three]

end Elliptica.Bh
