import Verif.Model.Interp
import Verif.Spec.Spline
import Mathlib.Algebra.Polynomial.Taylor
import Mathlib.Tactic.FieldSimp
import Mathlib.Tactic.LinearCombination
import Mathlib.Tactic.Linarith
import Mathlib.Tactic.Positivity
import Mathlib.Tactic.Ring
import Mathlib.Tactic.ComputeDegree
/-!
Property C30: natural cubic spline.
-/
namespace Elliptica.Interp
open Polynomial Elliptica.Spec

variable {K : Type} [Field K] [LinearOrder K] [IsStrictOrderedRing K]

/-- the cubic with coefficients a b c d about r -/
noncomputable def cub (r a b c d : K) : K[X] :=
  C a + C b * (X - C r) + C c * (X - C r) ^ 2 + C d * (X - C r) ^ 3

theorem cub_eval (r a b c d t : K) : (cub r a b c d).eval t = a + b * (t - r) + c * (t - r) ^ 2 + d * (t - r) ^ 3 := by
  simp [cub]

theorem cub_d1 (r a b c d t : K) : (derivative (cub r a b c d)).eval t = b + 2 * c * (t - r) + 3 * d * (t - r) ^ 2 := by
  simp [cub, derivative_pow]; ring

theorem cub_d2 (r a b c d t : K) : (derivative (derivative (cub r a b c d))).eval t = 2 * c + 6 * d * (t - r) := by
  simp [cub, derivative_pow]; ring

theorem cub_natDegree (r a b c d : K) : (cub r a b c d).natDegree ≤ 3 := by
  unfold cub; compute_degree

theorem cub_form (p : K[X]) (hp : p.natDegree ≤ 3) (r : K) : ∃ a b c d, p = cub r a b c d := by
  refine ⟨(taylor r p).coeff 0, (taylor r p).coeff 1, (taylor r p).coeff 2, (taylor r p).coeff 3, ?_⟩
  have h := sum_taylor_eq p r
  rw [sum_over_range' _ (by simp) 4 (by rw [natDegree_taylor]; omega)] at h
  simp only [Finset.sum_range_succ, Finset.sum_range_zero] at h
  rw [← h]
  simp [cub]

/-- increasing on the first n+1 entries -/
def Inc (n : ℕ) (x : ℕ → K) : Prop := ∀ i < n, x i < x (i + 1)

theorem hh_pos {n : ℕ} {x : ℕ → K} (hx : Inc n x) {i : ℕ} (hi : i < n) : 0 < hh x i := sub_pos.2 (hx i hi)

theorem lmz_pos (n : ℕ) (x a : ℕ → K) (hx : Inc n x) (i : ℕ) (hi : i < n) :
    0 < (lmz x a i).1 ∧ 0 ≤ (lmz x a i).2.1 ∧ (lmz x a i).2.1 ≤ 1 := by
  induction i with
  | zero => simp [lmz]
  | succ i ih =>
    obtain ⟨h1, h2, h3⟩ := ih (by omega)
    have a0 := hh_pos hx (show i < n by omega)
    have a1 := hh_pos hx hi
    have hl : (lmz x a (i + 1)).1 = 2 * (hh x (i + 1) + hh x i) - hh x i * (lmz x a i).2.1 := by
      rw [lmz]; simp only [hh]; ring
    have hl' : hh x (i + 1) ≤ (lmz x a (i + 1)).1 := by rw [hl]; nlinarith
    have hpos : 0 < (lmz x a (i + 1)).1 := by linarith
    have hmu : (lmz x a (i + 1)).2.1 = hh x (i + 1) / (lmz x a (i + 1)).1 := by rw [lmz]
    rw [hmu]
    exact ⟨hpos, by positivity, (div_le_one hpos).2 hl'⟩

theorem cc_last (x a : ℕ → K) (n : ℕ) : cc x a n n = 0 := by simp [cc, cDown]

theorem cc_rec (x a : ℕ → K) (n i : ℕ) (hi : i < n) :
    cc x a n i = (lmz x a i).2.2 - (lmz x a i).2.1 * cc x a n (i + 1) := by
  unfold cc
  obtain ⟨k, hk⟩ : ∃ k, n - i = k + 1 := ⟨n - i - 1, by omega⟩
  have h2 : n - (i + 1) = k := by omega
  have h3 : n - (k + 1) = i := by omega
  rw [hk, h2, cDown, h3]

theorem cc_zero (x a : ℕ → K) (n : ℕ) (hn : 0 < n) : cc x a n 0 = 0 := by
  rw [cc_rec x a n 0 hn]; simp [lmz]

/-- the tridiagonal system -/
theorem cc_tri (x a : ℕ → K) (n : ℕ) (hx : Inc n x) (i : ℕ) (hi : i + 1 < n) :
    hh x i * cc x a n i + 2 * (hh x i + hh x (i + 1)) * cc x a n (i + 1) + hh x (i + 1) * cc x a n (i + 2) = al x a (i + 1) := by
  have r0 := cc_rec x a n i (by omega)
  have r1 := cc_rec x a n (i + 1) hi
  have hpos := (lmz_pos n x a hx (i + 1) hi).1
  have hl : (lmz x a (i + 1)).1 = 2 * (hh x (i + 1) + hh x i) - hh x i * (lmz x a i).2.1 := by
    rw [lmz]; simp only [hh]; ring
  have hmu : (lmz x a (i + 1)).2.1 = hh x (i + 1) / (lmz x a (i + 1)).1 := by rw [lmz]
  have hz : (lmz x a (i + 1)).2.2 = (al x a (i + 1) - hh x i * (lmz x a i).2.2) / (lmz x a (i + 1)).1 := by rw [lmz]
  rw [hmu, hz] at r1
  have r2 : (lmz x a (i + 1)).1 * cc x a n (i + 1) = al x a (i + 1) - hh x i * (lmz x a i).2.2 - hh x (i + 1) * cc x a n (i + 2) := by
    rw [r1]; field_simp
  rw [hl] at r2
  rw [r0]
  linear_combination r2

/-- the pieces the code evaluates -/
noncomputable def pieces (x f : ℕ → K) (n : ℕ) (i : ℕ) : K[X] :=
  cub (x i) (f i) (bb x f n i) (cc x f n i) (dd x f n i)

/-- **C30 (existence).** For an increasing table the pieces the code computes are a natural cubic spline through the data. -/
theorem C30_is_spline (n : ℕ) (hn : 0 < n) (x f : ℕ → K) (hx : Inc n x) : NaturalSpline n x f (pieces x f n) := by
  have e3 : (3 : K) ≠ 0 := by norm_num
  refine ⟨fun i _ => cub_natDegree _ _ _ _ _, fun i _ => ?_, fun i hi => ?_, fun i hi => ?_, fun i hi => ?_, ?_, ?_⟩
  · simp [pieces, cub_eval]
  · have h0 := (hh_pos hx hi).ne'
    rw [pieces, cub_eval, bb, dd]
    change f i + _ * hh x i + _ * hh x i ^ 2 + _ * hh x i ^ 3 = _
    field_simp
    ring
  · have h0 := (hh_pos hx (show i < n by omega)).ne'
    have h1 := (hh_pos hx hi).ne'
    have ht := cc_tri x f n hx i hi
    rw [pieces, pieces, cub_d1, cub_d1, bb, bb, dd]
    rw [sub_self, mul_zero, add_zero, zero_pow two_ne_zero, mul_zero, add_zero]
    change _ + _ * hh x i + _ * hh x i ^ 2 = _
    unfold al at ht
    rw [Nat.add_sub_cancel] at ht
    field_simp at ht ⊢
    linear_combination ht
  · have h0 := (hh_pos hx (show i < n by omega)).ne'
    rw [pieces, pieces, cub_d2, cub_d2, dd]
    change _ + _ * hh x i = _
    rw [sub_self]
    field_simp
    ring
  · rw [pieces, cub_d2, cc_zero x f n hn, sub_self]; ring
  · obtain ⟨m, rfl⟩ : ∃ m, n = m + 1 := ⟨n - 1, by omega⟩
    have h0 := (hh_pos hx (show m < m + 1 by omega)).ne'
    rw [Nat.add_sub_cancel, pieces, cub_d2, dd, cc_last]
    change _ + _ * hh x m = _
    field_simp
    ring

theorem spline_eq (n : ℕ) (hn : 0 < n) (x f : ℕ → K) (hx : Inc n x) (P : ℕ → K[X]) (hP : NaturalSpline n x f P)
    (i : ℕ) (hi : i < n) : P i = pieces x f n i := by
  have hform : ∀ i, ∃ q : K × K × K × K, i < n → P i = cub (x i) q.1 q.2.1 q.2.2.1 q.2.2.2 := by
    intro i
    by_cases h : i < n
    · obtain ⟨a, b, c, d, hq⟩ := cub_form (P i) (hP.cubic i h) (x i)
      exact ⟨(a, b, c, d), fun _ => hq⟩
    · exact ⟨(0, 0, 0, 0), fun h' => absurd h' h⟩
  choose q hq using hform
  -- second-order coefficients, with a zero at the end
  let c : ℕ → K := fun i => if i < n then (q i).2.2.1 else 0
  have hc : ∀ i, i < n → c i = (q i).2.2.1 := fun i h => if_pos h
  have hcn : c n = 0 := if_neg (lt_irrefl n)
  have hA : ∀ i < n, (q i).1 = f i := by
    intro i h
    have := hP.left i h
    rw [hq i h, cub_eval] at this
    simpa using this
  have hR : ∀ i < n, f i + (q i).2.1 * hh x i + c i * hh x i ^ 2 + (q i).2.2.2 * hh x i ^ 3 = f (i + 1) := by
    intro i h
    have := hP.right i h
    rw [hq i h, cub_eval, hA i h] at this
    rw [hc i h]; exact this
  have hD : ∀ i < n, 2 * c i + 6 * (q i).2.2.2 * hh x i = 2 * c (i + 1) := by
    intro i h
    by_cases h2 : i + 1 < n
    · have := hP.curv i h2
      rw [hq i h, hq (i + 1) h2, cub_d2, cub_d2, sub_self, mul_zero, add_zero] at this
      rw [hc i h, hc (i + 1) h2]; exact this
    · have e : n = i + 1 := by omega
      have := hP.last
      have e2 : n - 1 = i := by omega
      rw [e2, hq i h, cub_d2] at this
      have h3 : c (i + 1) = 0 := by rw [← e]; exact hcn
      rw [hc i h, h3, mul_zero, ← this, e, hh]
  have hS : ∀ i, i + 1 < n → (q i).2.1 + 2 * c i * hh x i + 3 * (q i).2.2.2 * hh x i ^ 2 = (q (i + 1)).2.1 := by
    intro i h2
    have := hP.slope i h2
    rw [hq i (by omega), hq (i + 1) h2, cub_d1, cub_d1, sub_self] at this
    rw [hc i (by omega)]
    rw [mul_zero, add_zero, zero_pow two_ne_zero, mul_zero, add_zero] at this
    exact this
  have hc0 : c 0 = 0 := by
    have := hP.first
    rw [hq 0 hn, cub_d2, sub_self, mul_zero, add_zero] at this
    rw [hc 0 hn]
    linarith
  have hd : ∀ i < n, (q i).2.2.2 = (c (i + 1) - c i) / 3 / hh x i := by
    intro i h
    have h0 := (hh_pos hx h).ne'
    have := hD i h
    field_simp
    linear_combination (1 / 2) * this
  have hb : ∀ i < n, (q i).2.1 = (f (i + 1) - f i) / hh x i - hh x i * (c (i + 1) + 2 * c i) / 3 := by
    intro i h
    have h0 := (hh_pos hx h).ne'
    have := hR i h
    rw [hd i h] at this
    field_simp at this ⊢
    linear_combination this
  have htri : ∀ i, i + 1 < n → hh x i * c i + 2 * (hh x i + hh x (i + 1)) * c (i + 1) + hh x (i + 1) * c (i + 2) = al x f (i + 1) := by
    intro i h
    have h0 := (hh_pos hx (show i < n by omega)).ne'
    have h1 := (hh_pos hx h).ne'
    have := hS i h
    rw [hd i (by omega), hb i (by omega), hb (i + 1) h] at this
    unfold al
    rw [Nat.add_sub_cancel]
    field_simp at this ⊢
    linear_combination this
  have hu : ∀ i < n, c i - cc x f n i = -((lmz x f i).2.1 * (c (i + 1) - cc x f n (i + 1))) := by
    intro i
    induction i with
    | zero => intro _; rw [hc0, cc_zero x f n hn]; simp [lmz]
    | succ i ih =>
      intro h
      have hu := ih (by omega)
      have t1 := htri i h
      have t2 := cc_tri x f n hx i h
      have hpos := (lmz_pos n x f hx (i + 1) h).1
      have hl : (lmz x f (i + 1)).1 = 2 * (hh x (i + 1) + hh x i) - hh x i * (lmz x f i).2.1 := by
        rw [lmz]; simp only [hh]; ring
      have hmu : (lmz x f (i + 1)).2.1 = hh x (i + 1) / (lmz x f (i + 1)).1 := by rw [lmz]
      rw [hmu]
      have : (lmz x f (i + 1)).1 * (c (i + 1) - cc x f n (i + 1)) = -(hh x (i + 1) * (c (i + 2) - cc x f n (i + 2))) := by
        rw [hl]
        linear_combination t1 - t2 - hh x i * hu
      field_simp
      linear_combination this
  have hall : ∀ k, k ≤ n → c (n - k) = cc x f n (n - k) := by
    intro k
    induction k with
    | zero => intro _; rw [Nat.sub_zero, hcn, cc_last]
    | succ k ih =>
      intro h
      have h1 := hu (n - (k + 1)) (by omega)
      have h2 : n - (k + 1) + 1 = n - k := by omega
      rw [h2, ih (by omega), sub_self, mul_zero, neg_zero] at h1
      exact sub_eq_zero.1 h1
  have hcc : ∀ i, i ≤ n → c i = cc x f n i := by
    intro i h
    have := hall (n - i) (by omega)
    rwa [show n - (n - i) = i by omega] at this
  rw [hq i hi, pieces, hA i hi, hb i hi, hd i hi, ← hc i hi, hcc i hi.le, hcc (i + 1) hi]
  rfl

/-- **C30 (uniqueness).** There is only one natural cubic spline through the data of an increasing table. -/
theorem C30_unique (n : ℕ) (hn : 0 < n) (x f : ℕ → K) (hx : Inc n x) (P Q : ℕ → K[X]) (hP : NaturalSpline n x f P)
    (hQ : NaturalSpline n x f Q) (i : ℕ) (hi : i < n) : P i = Q i := by
  rw [spline_eq n hn x f hx P hP i hi, spline_eq n hn x f hx Q hQ i hi]

/-! ### the segment search -/

theorem segment_some (e h : K) (x : ℕ → K) (he : 0 < e) (k i s : ℕ) (hs : segment e h x k i = some s) :
    i ≤ s ∧ s < i + k ∧ x s - e < h ∧ h < x (s + 1) + e := by
  induction k generalizing i with
  | zero => simp [segment] at hs
  | succ k ih =>
    rw [segment] at hs
    split at hs
    · rename_i hc
      cases hs
      simp only [Tol.grtEql, Tol.lssEql, Tol.grt, Tol.lss, Tol.eql, Bool.and_eq_true, Bool.or_eq_true, decide_eq_true_eq] at hc
      refine ⟨le_rfl, by omega, ?_, ?_⟩
      · rcases hc.1 with h | h <;> linarith [h]
      · rcases hc.2 with h | h <;> linarith [h]
    · obtain ⟨h1, h2, h3⟩ := ih (i + 1) hs
      exact ⟨by omega, by omega, h3⟩

theorem segment_none (e h : K) (x : ℕ → K) (he : 0 < e) (k i : ℕ) (hs : segment e h x k i = none)
    (hb : ∀ j, h ≠ x j + e ∧ h ≠ x j - e) (hlo : x i ≤ h) : k = 0 ∨ x (i + k) < h := by
  induction k generalizing i with
  | zero => exact Or.inl rfl
  | succ k ih =>
    right
    rw [segment] at hs
    split at hs
    · cases hs
    · rename_i hc
      have h1 : Tol.grtEql e h (x i) = true := by
        simp only [Tol.grtEql, Tol.grt, Tol.eql, Bool.or_eq_true, Bool.and_eq_true, decide_eq_true_eq]
        rcases lt_trichotomy h (x i + e) with h' | h' | h'
        · exact Or.inr ⟨h', by linarith⟩
        · exact absurd h' (hb i).1
        · exact Or.inl h'
      rw [h1, Bool.true_and] at hc
      have h2 : x (i + 1) < h := by
        by_contra hle
        apply hc
        simp only [Tol.lssEql, Tol.lss, Tol.eql, Bool.or_eq_true, Bool.and_eq_true, decide_eq_true_eq]
        rcases lt_trichotomy h (x (i + 1) - e) with h' | h' | h'
        · exact Or.inl h'
        · exact absurd h' (hb (i + 1)).2
        · exact Or.inr ⟨by linarith [not_lt.1 hle], h'⟩
      rcases ih (i + 1) hs h2.le with rfl | h3
      · exact h2
      · rwa [show i + 1 + k = i + (k + 1) by omega] at h3

theorem inc_lt {n : ℕ} {x : ℕ → K} (hx : Inc n x) (i : ℕ) (hi : i < n) : x 0 < x (i + 1) := by
  induction i with
  | zero => exact hx 0 hi
  | succ i ih => exact (ih (by omega)).trans (hx (i + 1) hi)

theorem orderTest_inc (e : K) (n : ℕ) (hn : 0 < n) (x : ℕ → K) (hx : Inc n x) (he0 : 0 < e) (hgap : x 0 + e ≤ x n) :
    orderTest e (n + 1) x = .ok false := by
  have h1 : Tol.eql e (x 0) (x n) = false := by
    simp only [Tol.eql, Bool.and_eq_false_iff, decide_eq_false_iff_not, not_lt]; right; linarith
  have h2 : Tol.grt e (x 0) (x n) = false := by
    simp only [Tol.grt, decide_eq_false_iff_not, not_lt]; linarith
  simp [orderTest, h1, h2]

/-- **C30 (values and derivatives, increasing tables).** A value returned for a query point is the value of the natural
cubic spline through the data, of a piece whose segment contains the point up to the round-off; the derivative likewise. -/
theorem C30_value (e : K) (he : 0 < e) (n : ℕ) (hn : 0 < n) (x f : ℕ → K) (hx : Inc n x) (hgap : x 0 + e ≤ x n) (h : K)
    (P : ℕ → K[X]) (hP : NaturalSpline n x f P) :
    (∃ i < n, x i - e < h ∧ h < x (i + 1) + e ∧ spline e (n + 1) x f h = .ok (some ((P i).eval h)) ∧
      splineDeriv e (n + 1) x f h = .ok (some ((derivative (P i)).eval h))) ∨
    spline e (n + 1) x f h = .ok none ∧ splineDeriv e (n + 1) x f h = .ok none ∧
      ((∀ j, h ≠ x j + e ∧ h ≠ x j - e) → h < x 0 ∨ x n < h) := by
  have ho := orderTest_inc e n hn x hx he hgap
  have o1 : ordered false (n + 1) x = x := rfl
  have o2 : ordered false (n + 1) f = f := rfl
  unfold spline splineDeriv
  simp only [ho, Res.bind_ok, o1, o2, Nat.add_sub_cancel]
  cases hs : segment e h x n 0 with
  | some i =>
    left
    obtain ⟨-, h2, h3, h4⟩ := segment_some e h x he n 0 i hs
    refine ⟨i, by omega, h3, h4, ?_, ?_⟩
    · rw [spline_eq n hn x f hx P hP i (by omega), pieces, cub_eval]; rfl
    · rw [spline_eq n hn x f hx P hP i (by omega), pieces, cub_d1]; rfl
  | none =>
    right
    refine ⟨rfl, rfl, fun hb => ?_⟩
    by_contra hc
    push Not at hc
    rcases segment_none e h x he n 0 hs hb hc.1 with h1 | h1
    · omega
    · rw [Nat.zero_add] at h1
      exact absurd h1 (not_lt.2 hc.2)

/-- **C30 (no extrapolation).** Further than the round-off outside the table nothing is returned (DBL_MAX). -/
theorem C30_outside (e : K) (he : 0 < e) (n : ℕ) (hn : 0 < n) (x f : ℕ → K) (hx : Inc n x) (hgap : x 0 + e ≤ x n) (h : K)
    (hout : h ≤ x 0 - e ∨ x n + e ≤ h) : spline e (n + 1) x f h = .ok none := by
  have hP := C30_is_spline n hn x f hx
  have hmono : ∀ i j, i ≤ j → j ≤ n → x i ≤ x j := by
    intro i j hij
    induction j with
    | zero => intro _; rw [show i = 0 by omega]
    | succ j ih =>
      intro hj
      rcases Nat.eq_or_lt_of_le hij with rfl | h'
      · exact le_rfl
      · exact (ih (by omega) (by omega)).trans (hx j (by omega)).le
  rcases C30_value e he n hn x f hx hgap h _ hP with ⟨i, hi, h1, h2, -⟩ | h1
  · exfalso
    have a := hmono 0 i (by omega) (by omega)
    have b := hmono (i + 1) n (by omega) le_rfl
    rcases hout with ho | ho <;> linarith
  · exact h1.1

/-- **C30 (data points).** At a data point the data value is returned. -/
theorem C30_node (e : K) (he : 0 < e) (n : ℕ) (hn : 0 < n) (x f : ℕ → K) (hx : ∀ i < n, x i + 2 * e < x (i + 1)) (i : ℕ) (hi : i ≤ n) :
    spline e (n + 1) x f (x i) = .ok (some (f i)) := by
  have hxi : Inc n x := fun i hi => by linarith [hx i hi]
  have hmono : ∀ i j, i < j → j ≤ n → x i + 2 * e < x j := by
    intro i j hij
    induction j with
    | zero => omega
    | succ j ih =>
      intro hj
      rcases Nat.eq_or_lt_of_le (Nat.lt_succ_iff.1 hij) with rfl | h'
      · exact hx i (by omega)
      · linarith [ih h' (by omega), hx j (by omega)]
  have hgap : x 0 + e ≤ x n := by linarith [hmono 0 n hn le_rfl]
  have hP := C30_is_spline n hn x f hxi
  have ho := orderTest_inc e n hn x hxi he hgap
  -- the first segment accepted is the one ending in the point
  have hseg : ∀ k j, j ≤ i → j + k = n → (k = 0 ∨ ∃ s, segment e (x i) x k j = some s ∧ s ≤ i) := by
    intro k
    induction k with
    | zero => intro j _ _; exact Or.inl rfl
    | succ k ih =>
      intro j hj hk
      right
      rw [segment]
      split
      · exact ⟨j, rfl, hj⟩
      · rename_i hc
        have hji : j + 1 < i ∨ False := by
          by_contra hno
          push Not at hno
          apply hc
          have hij : i = j ∨ i = j + 1 := by have := hno.1; omega
          simp only [Tol.grtEql, Tol.lssEql, Tol.grt, Tol.lss, Tol.eql, Bool.and_eq_true, Bool.or_eq_true, decide_eq_true_eq]
          have hxj := hx j (by omega)
          rcases hij with rfl | rfl
          · exact ⟨Or.inr ⟨by linarith, by linarith⟩, Or.inl (by linarith)⟩
          · exact ⟨Or.inl (by linarith), Or.inr ⟨by linarith, by linarith⟩⟩
        rcases hji with hji | hji
        · rcases ih (j + 1) (by omega) (by omega) with rfl | h
          · omega
          · exact h
        · exact hji.elim
  rcases hseg n 0 (by omega) (by omega) with h0 | ⟨s, hs, hsi⟩
  · omega
  obtain ⟨-, h2, h3, h4⟩ := segment_some e (x i) x he n 0 s hs
  have hsi2 : i = s ∨ i = s + 1 := by
    by_contra hno
    have := hmono (s + 1) i (by omega) hi
    linarith
  have o1 : ordered false (n + 1) x = x := rfl
  have o2 : ordered false (n + 1) f = f := rfl
  unfold spline
  simp only [ho, Res.bind_ok, o1, o2, Nat.add_sub_cancel, hs]
  have hev := cub_eval (x s) (f s) (bb x f n s) (cc x f n s) (dd x f n s) (x i)
  simp only [Option.map_some]
  rw [← hev]
  change Res.ok (some (eval (x i) (pieces x f n s))) = _
  rcases hsi2 with rfl | rfl
  · rw [hP.left i (by omega)]
  · rw [hP.right s (by omega)]

/-- **C30 (decreasing tables).** A decreasing table gives the same values as the same table written in increasing order. -/
theorem C30_decreasing (e : K) (he : 0 < e) (N : ℕ) (hN : 1 < N) (x f : ℕ → K) (hgap : x (N - 1) + e < x 0) (h : K) :
    spline e N x f h = spline e N (fun i => x (N - 1 - i)) (fun i => f (N - 1 - i)) h ∧
    splineDeriv e N x f h = splineDeriv e N (fun i => x (N - 1 - i)) (fun i => f (N - 1 - i)) h := by
  have h1 : Tol.eql e (x 0) (x (N - 1)) = false := by
    simp only [Tol.eql, Bool.and_eq_false_iff, decide_eq_false_iff_not, not_lt]; left; linarith
  have h2 : Tol.grt e (x 0) (x (N - 1)) = true := by
    simp only [Tol.grt, decide_eq_true_eq]; linarith
  have h3 : Tol.eql e (x (N - 1)) (x 0) = false := by
    simp only [Tol.eql, Bool.and_eq_false_iff, decide_eq_false_iff_not, not_lt]; right; linarith
  have h4 : Tol.grt e (x (N - 1)) (x 0) = false := by
    simp only [Tol.grt, decide_eq_false_iff_not, not_lt]; linarith
  have o1 : orderTest e N x = .ok true := by
    simp [orderTest, h1, h2, show N ≠ 0 by omega]
  have o2 : orderTest e N (fun i => x (N - 1 - i)) = .ok false := by
    simp [orderTest, h3, h4, show N ≠ 0 by omega]
  unfold spline splineDeriv
  rw [o1, o2]
  exact ⟨rfl, rfl⟩

/-- **C30 (violation).** A query point inside the table that is exactly the round-off away from a data point belongs to no
segment and is reported as outside. -/
theorem C30_boundary_violation : spline (1 / 10 ^ 12 : ℚ) 3 (fun i => i) (fun i => i ^ 2) (1 + 1 / 10 ^ 12) = .ok none := by
  decide +kernel

/-- concrete cases -/
example : spline (1 / 10 ^ 12 : ℚ) 3 (fun i => i) (fun i => i ^ 2) (1 / 2) = .ok (some (5 / 16)) := by decide +kernel
example : spline (1 / 10 ^ 12 : ℚ) 3 (fun i => 2 - i) (fun i => (2 - i) ^ 2) (1 / 2) = .ok (some (5 / 16)) := by decide +kernel
example : Inc 2 (fun i => (i : ℚ)) ∧ (0 : ℚ) + 1 / 10 ^ 12 ≤ 2 := ⟨fun i _ => by simp, by norm_num⟩

end Elliptica.Interp
