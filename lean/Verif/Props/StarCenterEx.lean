import Verif.Props.StarCenter
import Verif.Props.TovFindEx
import Mathlib.Analysis.Complex.ExponentialBounds
/-!
C98: the star with three points meets the hypotheses of `C98_start`.
-/
namespace Elliptica.Star
open Elliptica.Fields Elliptica.StarSpec Elliptica.Tov Real

theorem cF_bounds (h r m s d : ℝ) (hr : 0 < r) (hm : 0 ≤ m) (hs : 0 < s) (h1 : s ^ 2 ≤ 1 - 2 * m / r) (hd : drdh e0 h r m ≤ 0)
    (hd2 : -d ≤ drdh e0 h r m) : -((1 / s - 1) / r * d) ≤ cF e0 h r m ∧ cF e0 h r m ≤ 0 := by
  have hq : s ≤ √(1 - 2 * m / r) := le_sqrt_of_sq_le h1
  have hq1 : √(1 - 2 * m / r) ≤ 1 := sqrt_le_one.2 (by have := div_nonneg (mul_nonneg (by norm_num : (0:ℝ) ≤ 2) hm) hr.le; linarith)
  have hq0 : 0 < √(1 - 2 * m / r) := by linarith
  have a1 : 1 ≤ 1 / √(1 - 2 * m / r) := by rw [le_div_iff₀ hq0]; linarith
  have a2 : 1 / √(1 - 2 * m / r) ≤ 1 / s := one_div_le_one_div_of_le hs hq
  unfold cF
  have b1 : 0 ≤ (1 / √(1 - 2 * m / r) - 1) / r := div_nonneg (by linarith) hr.le
  have b2 : (1 / √(1 - 2 * m / r) - 1) / r ≤ (1 / s - 1) / r := div_le_div_of_nonneg_right (by linarith) hr.le
  refine ⟨?_, mul_nonpos_of_nonneg_of_nonpos b1 hd⟩
  have b3 := mul_le_mul b2 (by linarith : -drdh e0 h r m ≤ d) (by linarith) (b1.trans b2)
  linarith

example : ∃ (v : ℝ) (t : Out) (pr : Profile) (re : Rest), solution e0 (1 / 10 ^ 12) 3 true v = .ok t ∧ t.prof = some pr ∧ t.rest = some re ∧
    (∀ i, i + 1 < 3 → re.rbar i + 1 / 10 ^ 12 < re.rbar (i + 1)) ∧ 0 ≤ t.admM ∧ 2 * t.admM < pr.r (3 - 1) ∧ (∀ i < 3, 0 < pr.h i) ∧
    ∃ p, dist 0 p = re.rbar 2 := by
  obtain ⟨v, t, re, pr, h1, h2, h3, -, h4⟩ := sol0
  obtain ⟨-, a, c, hpr, hadm, -, ha, hc, hrb, -⟩ := solution_ok e0 (1 / 10 ^ 12) 3 true v t pr re h1 h4 h2
  rw [h3] at ha
  subst ha
  obtain ⟨x, y, hs, b1, b2, b3, b4, b5⟩ := star2
  have hs' : star e0 3 (3 / 2) (3 - 1) = (x, y) := hs
  rw [hs'] at hadm
  have q0 := hrb 0 (by norm_num)
  have q1 := hrb 1 (by norm_num)
  have q2 := hrb 2 (by norm_num)
  unfold rbarAt at q0 q1 q2
  simp only [hs'] at q0 q1 q2
  norm_num at q0 q1 q2
  rw [show hAt 3 (3 / 2) 0 = 3 / 2 from rfl, h0_1, r0] at q1
  have hxp : 0 < x := by linarith
  have hS := C79_surface x y (by linarith) b5
  have hS1 : 3 / 20 < surfBar x y := by
    unfold surfBar
    have := sqrt_nonneg (x ^ 2 - 2 * y * x)
    norm_num; linarith
  -- the constant
  have hw : ∃ w, 0 ≤ w ∧ w ≤ 1 ∧ c = w - log (surfBar x y / x) := by
    unfold cRbar Integ.simpson at hc
    rw [if_neg (by norm_num), if_neg (by norm_num), hs'] at hc
    simp [table, h0_1, h0_2, star1, hs] at hc
    have f1 := cF_bounds (5 / 4) (1 / 2) (1 / 8) (7 / 10) (2 / 5) (by norm_num) (by norm_num) (by norm_num) (by norm_num)
      (by rw [k1.1]; norm_num) (by rw [k1.1]; norm_num)
    have hden : 0 < y + x * x * x := by positivity
    have hnum : 0 ≤ x * (x - 2 * y) := mul_nonneg hxp.le (by linarith)
    have f2 := cF_bounds 1 x y (3 / 8) 2 hxp (by linarith) (by norm_num)
      (by rw [le_sub_iff_add_le, ← le_sub_iff_add_le', div_le_iff₀ hxp]; norm_num; linarith)
      (by rw [dr0, div_one]; apply div_nonpos_of_nonpos_of_nonneg _ hden.le; linarith)
      (by
        rw [dr0, div_one, le_div_iff₀ hden]
        have : x * x ≤ 2 * (x * x * x) := by nlinarith
        nlinarith)
    norm_num at hc f1 f2
    have f3 : (5 / 3 / x * 2 : ℝ) ≤ 7 := by
      rw [div_mul_eq_mul_div, div_le_iff₀ hxp]; linarith
    refine ⟨_, ?_, ?_, hc.symm⟩
    · linarith [f1.2, f2.2]
    · linarith [f1.1, f2.1]
  obtain ⟨w, w0, w1, hcw⟩ := hw
  have hratio : 0 < surfBar x y / x := by have := hS.1; positivity
  have hexp : exp (-c) = exp (-w) * (surfBar x y / x) := by
    rw [hcw, neg_sub, sub_eq_add_neg, exp_add, exp_log hratio, mul_comm]
  have e1 : exp (-w) ≤ 1 := exp_le_one_iff.2 (by linarith)
  have e2 : 1 / 3 ≤ exp (-w) := by
    have : exp w ≤ 3 := (exp_le_exp.2 w1).trans (by linarith [exp_one_lt_d9])
    rw [exp_neg, ← one_div]
    exact one_div_le_one_div_of_le (exp_pos _) this
  have hS2 : surfBar x y ≤ 1 := by
    have h5 : √(x ^ 2 - 2 * y * x) ≤ x := sqrt_le_iff.2 ⟨hxp.le, by nlinarith⟩
    unfold surfBar
    norm_num; linarith
  have hQ : 11 / 20 * (surfBar x y / x) ≤ surfBar x y := by
    rw [mul_div_assoc', div_le_iff₀ hxp]; nlinarith [hS.1]
  have hQ2 : surfBar x y ≤ surfBar x y / x := by
    rw [le_div_iff₀ hxp]; nlinarith [hS.1]
  refine ⟨v, t, pr, re, h1, h4, h2, fun i hi => ?_, ?_, ?_, fun i hi => ?_, ![surfBar x y, 0, 0], ?_⟩
  · have : i = 0 ∨ i = 1 := by omega
    rw [hexp] at q1
    rcases this with rfl | rfl
    · rw [← q0, ← q1]
      have : 1 / 3 * (surfBar x y / x) ≤ exp (-w) * (surfBar x y / x) := mul_le_mul_of_nonneg_right e2 hratio.le
      norm_num; linarith
    · rw [← q1, ← q2]
      have : exp (-w) * (surfBar x y / x) ≤ 1 * (surfBar x y / x) := mul_le_mul_of_nonneg_right e1 hratio.le
      norm_num; linarith
  · rw [hadm]; simp only; linarith
  · rw [hadm, hpr]; simp only [hs']; exact b5
  · have : i = 0 ∨ i = 1 ∨ i = 2 := by omega
    rw [hpr]
    rcases this with rfl | rfl | rfl
    · show 0 < hAt 3 (3 / 2) 0; norm_num [hAt]
    · show 0 < hAt 3 (3 / 2) 1; rw [h0_1]; norm_num
    · show 0 < hAt 3 (3 / 2) 2; rw [h0_2]; norm_num
  · rw [← q2]; simp [dist, sqrt_sq hS.1.le]
end Elliptica.Star
