import Verif.Props.TovFind
/-!
Property C80: a star with three points, for which everything can be computed.
-/
namespace Elliptica.Tov
open Real

/-- p = 1/(4π), e = 3/(4π) -/
noncomputable def e0 : Eos := ⟨fun _ => 1 / (4 * π), fun _ => 3 / (4 * π), fun _ => 0⟩

theorem dr0 (h r m : ℝ) : drdh e0 h r m = -r * (r - 2 * m) / (m + r * r * r) / h := by
  unfold drdh e0
  have := pi_pos.ne'
  have e : 4 * π * (r * r * r) * (1 / (4 * π)) = r * r * r := by field_simp
  simp only [e]

theorem den0 (h r m : ℝ) : m + 4 * π * (r * r * r) * e0.p h = m + r * r * r := by
  unfold e0
  have := pi_pos.ne'
  field_simp

theorem dm0 (h r m : ℝ) : dmdh e0 h r m = 3 * (r * r) * (-r * (r - 2 * m) / (m + r * r * r) / h) := by
  unfold dmdh
  rw [dr0]
  unfold e0
  have := pi_pos.ne'
  have e : 4 * π * (r * r) * (3 / (4 * π)) = 3 * (r * r) := by field_simp
  simp only [e]

theorem s0 : stepSize 3 (3 / 2) = -1 / 4 := by unfold stepSize; norm_num

theorem h0_1 : hAt 3 (3 / 2) 1 = 5 / 4 := by rw [hAt, s0]; norm_num
theorem h0_2 : hAt 3 (3 / 2) 2 = 1 := by rw [hAt, s0]; norm_num

theorem r0 : rApprox e0 (5 / 4) (3 / 2) = 1 / 2 := by
  unfold rApprox e0
  have := pi_pos.ne'
  have e1 : 3 * (3 / 2 - 5 / 4) / (2 * π * (3 / (4 * π) + 3 * (1 / (4 * π)))) = (1 / 2 : ℝ) ^ 2 := by
    field_simp; norm_num
  simp only [e1]
  rw [sqrt_sq (by norm_num)]
  have e2 : 3 / (4 * π) - 3 * (1 / (4 * π)) - 3 * 0 / 5 = (0 : ℝ) := by ring
  rw [e2]; norm_num

theorem star1 : star e0 3 (3 / 2) 1 = (1 / 2, 1 / 8) := by
  rw [star, h0_1, mApprox, r0]
  unfold e0
  have := pi_pos.ne'
  refine Prod.ext rfl ?_
  simp only
  field_simp
  norm_num

theorem k1 : drdh e0 (5 / 4) (1 / 2) (1 / 8) = -2 / 5 ∧ dmdh e0 (5 / 4) (1 / 2) (1 / 8) = -3 / 10 := by
  rw [dr0, dm0]; norm_num
theorem k2 : drdh e0 (9 / 8) (11 / 20) (13 / 80) = -4 * (220 / 2631) ∧ dmdh e0 (9 / 8) (11 / 20) (13 / 80) = -4 * (1331 / 17540) := by
  rw [dr0, dm0]; norm_num
theorem k3 : drdh e0 (9 / 8) (1 / 2 + 110 / 2631) (1 / 8 + 1331 / 35080) = -4 * (56817430748 / 703706166249) ∧
    dmdh e0 (9 / 8) (1 / 2 + 110 / 2631) (1 / 8 + 1331 / 35080) = -4 * (131648659470731 / 1851450923401119) := by
  rw [dr0, dm0]; norm_num

theorem star2 : ∃ x y : ℝ, star e0 3 (3 / 2) 2 = (x, y) ∧ 11 / 20 < x ∧ x < 1 ∧ 1 / 8 < y ∧ y < 1 / 5 ∧ 2 * y < x := by
  have h : star e0 3 (3 / 2) (0 + 2) = step e0 (-1 / 4) (5 / 4) (1 / 2, 1 / 8) := by
    rw [star, star1, s0, h0_1]
  rw [Nat.zero_add] at h
  rw [h]
  unfold step
  simp only [k1.1, k1.2]
  rw [show (5 / 4 + -1 / 4 / 2 : ℝ) = 9 / 8 by norm_num, show (1 / 2 + -1 / 4 * (-2 / 5) / 2 : ℝ) = 11 / 20 by norm_num,
    show (1 / 8 + -1 / 4 * (-3 / 10) / 2 : ℝ) = 13 / 80 by norm_num, k2.1, k2.2,
    show (1 / 2 + -1 / 4 * (-4 * (220 / 2631)) / 2 : ℝ) = 1 / 2 + 110 / 2631 by norm_num,
    show (1 / 8 + -1 / 4 * (-4 * (1331 / 17540)) / 2 : ℝ) = 1 / 8 + 1331 / 35080 by norm_num, k3.1, k3.2, dr0, dm0]
  refine ⟨_, _, rfl, ?_, ?_, ?_, ?_, ?_⟩ <;> norm_num

theorem fin0 : Finite e0 3 (3 / 2) := by
  have hp := pi_pos
  refine ⟨?_, ?_, ?_, ?_⟩
  · unfold e0; positivity
  · unfold e0; simp only; positivity
  · intro i h1 h2
    obtain rfl : i = 1 := by omega
    simp only [star1, s0, h0_1, den0, k1.1, k1.2]
    rw [show (5 / 4 + -1 / 4 / 2 : ℝ) = 9 / 8 by norm_num, show (1 / 2 + -1 / 4 * (-2 / 5) / 2 : ℝ) = 11 / 20 by norm_num,
      show (1 / 8 + -1 / 4 * (-3 / 10) / 2 : ℝ) = 13 / 80 by norm_num, k2.1, k2.2,
      show (1 / 2 + -1 / 4 * (-4 * (220 / 2631)) / 2 : ℝ) = 1 / 2 + 110 / 2631 by norm_num,
      show (1 / 8 + -1 / 4 * (-4 * (1331 / 17540)) / 2 : ℝ) = 1 / 8 + 1331 / 35080 by norm_num, k3.1, k3.2]
    refine ⟨?_, ?_, ?_, ?_⟩ <;> norm_num
  · intro i h1 h2
    have : i = 1 ∨ i = 2 := by omega
    rcases this with rfl | rfl
    · rw [star1, den0]; norm_num
    · obtain ⟨x, y, hs, a, b, c, d, f⟩ := star2
      rw [hs, den0]
      have hx : 0 < x := by linarith
      refine ⟨hx.ne', ?_, ?_⟩
      · rw [sub_pos, div_lt_one hx]; exact f
      · have : 0 < x * x * x := by positivity
        simp only; intro h; linarith

theorem mass0 : ∃ v, massAt e0 3 (3 / 2) = some v ∧ 1 / 10 ≤ v := by
  obtain ⟨x, y, hs, a, b, c, d, f⟩ := star2
  have hx : 0 < x := by linarith
  have hb : baryF e0 1 x y ≤ 0 := by
    unfold baryF
    rw [dr0]
    have hp := pi_pos
    have h1 : 0 ≤ 4 * π * ((e0.e 1 + e0.p 1) / 1) / √(1 - 2 * y / x) * x ^ 2 := by
      unfold e0; positivity
    refine mul_nonpos_of_nonneg_of_nonpos h1 ?_
    have h2 : 0 < x - 2 * y := by linarith
    have h3 : 0 < y + x * x * x := by positivity
    rw [div_one]
    refine div_nonpos_of_nonpos_of_nonneg ?_ h3.le
    have : 0 < x * (x - 2 * y) := mul_pos hx h2
    linarith
  have hb1 : baryF e0 (5 / 4) (1 / 2) (1 / 8) ≤ -(3 / 10) := by
    unfold baryF
    rw [dr0]
    have hp := pi_pos.ne'
    have e1 : 4 * π * ((e0.e (5 / 4) + e0.p (5 / 4)) / (5 / 4)) = 16 / 5 := by unfold e0; field_simp; norm_num
    have hq : √(1 - 2 * (1 / 8) / (1 / 2)) ≤ 1 := sqrt_le_one.2 (by norm_num)
    have hq0 : 0 < √(1 - 2 * (1 / 8) / (1 / 2)) := sqrt_pos.2 (by norm_num)
    rw [e1]
    have : 16 / 5 ≤ 16 / 5 / √(1 - 2 * (1 / 8) / (1 / 2)) := by
      rw [le_div_iff₀ hq0]; linarith
    generalize 16 / 5 / √(1 - 2 * (1 / 8) / (1 / 2)) = w at *
    norm_num
    linarith
  have hm : baryMass e0 3 (3 / 2) = .ok ((1 - 3 / 2) / ((3 : ℕ) - 1 : ℝ) * (0 + baryF e0 1 x y + 2 * 0 + 4 * baryF e0 (5 / 4) (1 / 2) (1 / 8)) / 3) := by
    unfold baryMass Integ.simpson
    rw [if_neg (by norm_num), if_neg (by norm_num)]
    simp [table, h0_1, h0_2, star1, hs]
  refine ⟨(1 - 3 / 2) / ((3 : ℕ) - 1 : ℝ) * (0 + baryF e0 1 x y + 2 * 0 + 4 * baryF e0 (5 / 4) (1 / 2) (1 / 8)) / 3, ?_, ?_⟩
  · unfold massAt; rw [if_pos fin0, hm]
  · norm_num; linarith

/-- the star with the mass of `mass0` is found in the first turn -/
theorem sol0 : ∃ v o re pr, solution e0 (1 / 10 ^ 12) 3 true v = .ok o ∧ o.rest = some re ∧ o.hCent = 3 / 2 ∧ 1 / 10 ≤ v ∧ o.prof = some pr := by
  obtain ⟨v, hv, h1⟩ := mass0
  have hz : Tol.eql (1 / 10 ^ 12 : ℝ) v 0 = false := by
    simp only [Tol.eql, Bool.and_eq_false_iff, decide_eq_false_iff_not]
    left; norm_num; linarith
  have hz' : Tol.eql (1 / 10 ^ 12 : ℝ) 0 v = false := by
    simp only [Tol.eql, Bool.and_eq_false_iff, decide_eq_false_iff_not]
    right; norm_num; linarith
  have hE : Tol.eql (1 / 10 ^ 12 : ℝ) v v = true := by
    simp only [Tol.eql, Bool.and_eq_true, decide_eq_true_eq]
    constructor <;> norm_num
  have hs : ∃ s, search (1 / 10 ^ 12 : ℝ) (massAt e0 3) v maxIter Search.init = s ∧ s.m = some v ∧ s.hCent = 3 / 2 := by
    refine ⟨_, rfl, ?_⟩
    have ht := turn_mass (1 / 10 ^ 12 : ℝ) (massAt e0 3) v Search.init
    have hm : (turn (1 / 10 ^ 12 : ℝ) (massAt e0 3) v Search.init).m = some v := by rw [ht.2]; exact hv
    rw [show maxIter = 999 + 1 by rfl, search, if_neg, search_stop]
    · exact ⟨hm, ht.1⟩
    · rw [hm]; exact hE
    · change ¬ (Tol.eql (1 / 10 ^ 12 : ℝ) 0 v = true)
      rw [hz']; exact Bool.false_ne_true
  obtain ⟨s, hs, hm, hh⟩ := hs
  refine ⟨v, ?_⟩
  unfold solution
  rw [hz, if_neg (by simp), if_neg (by norm_num), if_neg (by norm_num), hs]
  simp only [verdict, hm, hE, if_true]
  have simp_ok : ∀ f, ∃ w, Integ.simpson 3 (3 / 2) 1 f = .ok w := by
    intro f; unfold Integ.simpson; rw [if_neg (by norm_num), if_neg (by norm_num)]; exact ⟨_, rfl⟩
  have hmd : ∃ b, massesDiffer e0 (1 / 10 ^ 12) 3 (3 / 2) = .ok b := by
    unfold massesDiffer
    obtain ⟨w1, e1⟩ := simp_ok (table fun i => komarF e0 (phiAt e0 3 (3 / 2) i) (hAt 3 (3 / 2) i) (star e0 3 (3 / 2) i).1 (star e0 3 (3 / 2) i).2)
    obtain ⟨w2, e2⟩ := simp_ok (table fun i => admF e0 (hAt 3 (3 / 2) i) (star e0 3 (3 / 2) i).1 (star e0 3 (3 / 2) i).2)
    rw [e1, e2]; exact ⟨_, rfl⟩
  have hfr : ∃ re, fillRest e0 (1 / 10 ^ 12) 3 (3 / 2) = .ok re := by
    unfold fillRest cRbar
    obtain ⟨w1, e1⟩ := simp_ok (table fun i => cF e0 (hAt 3 (3 / 2) i) (star e0 3 (3 / 2) i).1 (star e0 3 (3 / 2) i).2)
    rw [e1]
    simp only [Res.bind_ok]
    have : ∀ c i, i < 3 → ∃ w, rbarAt e0 (1 / 10 ^ 12) 3 (3 / 2) c i = .ok w := by
      intro c i hi
      unfold rbarAt
      simp only
      split_ifs
      · exact ⟨_, rfl⟩
      · exact ⟨_, rfl⟩
      · exact ⟨_, rfl⟩
      · omega
    have hcol : ∀ c, ∃ w, collect 3 (rbarAt e0 (1 / 10 ^ 12) 3 (3 / 2) c) = .ok w := by
      intro c
      obtain ⟨w0, g0⟩ := this c 0 (by norm_num)
      obtain ⟨w1, g1⟩ := this c 1 (by norm_num)
      obtain ⟨w2, g2⟩ := this c 2 (by norm_num)
      unfold collect
      rw [show List.range 3 = [0, 1, 2] by rfl]
      simp only [List.foldl_cons, List.foldl_nil, Res.bind_ok, g0, g1, g2]
      exact ⟨_, rfl⟩
    obtain ⟨w, g⟩ := hcol (w1 - log (surfBar (star e0 3 (3 / 2) (3 - 1)).1 (star e0 3 (3 / 2) (3 - 1)).2 / (star e0 3 (3 / 2) (3 - 1)).1))
    rw [g]
    exact ⟨_, rfl⟩
  obtain ⟨b, hb⟩ := hmd
  obtain ⟨re, hre⟩ := hfr
  rw [hh, hb, Res.bind_ok, hre, Res.bind_ok]
  exact ⟨_, _, _, rfl, rfl, rfl, h1, rfl⟩

/-- the hypotheses of the theorems are met -/
example : ∃ v o re, solution e0 (1 / 10 ^ 12) 3 true v = .ok o ∧ o.rest = some re ∧ o.hCent = 3 / 2 ∧ 1 / 10 ≤ v ∧
    (∃ P M B, single e0 (1 / 10 ^ 12) 3 v = .ok (P, M, B)) ∧ (∃ x, row e0 (1 / 10 ^ 12) 3 v = .ok x) ∧
    ∃ l, multiple e0 (1 / 10 ^ 12) 3 v v 1 = .ok l := by
  obtain ⟨v, o, re, pr, ho, hr, hc, h1, hp⟩ := sol0
  have hrow : ∃ x, row e0 (1 / 10 ^ 12) 3 v = .ok x := by
    unfold row; rw [ho, Res.bind_ok, hp, hr]; exact ⟨_, rfl⟩
  refine ⟨v, o, re, ho, hr, hc, h1, ?_, hrow, ?_⟩
  · unfold single; rw [ho, Res.bind_ok]; unfold singleTables; rw [hp, hr]; exact ⟨_, _, _, rfl⟩
  · obtain ⟨x, hx⟩ := hrow
    have : rowCount v v 1 = .ok 1 := by unfold rowCount; rw [if_neg (by norm_num)]; simp
    unfold multiple
    rw [this, Res.bind_ok, rows, Nat.cast_zero, zero_mul, add_zero, hx, Res.bind_ok, rows]
    exact ⟨_, rfl⟩

end Elliptica.Tov
