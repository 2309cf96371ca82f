import Verif.Props.Spline
import Mathlib.Algebra.Polynomial.Roots
import Mathlib.LinearAlgebra.Lagrange
import Mathlib.RingTheory.Coprime.Lemmas
/-!
Property C45: Hermite interpolation.
-/
namespace Elliptica.Interp
open Polynomial

section newton
variable {K : Type} [Field K]

/-- Π_{r<k} (X - z_{s+r}) -/
noncomputable def W (z : ℕ → K) (s k : ℕ) : K[X] := ∏ r ∈ Finset.range k, (X - C (z (s + r)))

/-- Newton form on the window s..s+j of the divided differences `Q j i` -/
noncomputable def newt (z : ℕ → K) (Q : ℕ → ℕ → K) (s : ℕ) : ℕ → K[X]
  | 0 => C (Q 0 s)
  | j + 1 => newt z Q s j + C (Q (j + 1) (s + (j + 1))) * W z s (j + 1)

theorem W_succ (z : ℕ → K) (s k : ℕ) : W z s (k + 1) = W z s k * (X - C (z (s + k))) := Finset.prod_range_succ _ _

theorem W_succ' (z : ℕ → K) (s k : ℕ) : W z s (k + 1) = (X - C (z s)) * W z (s + 1) k := by
  unfold W
  rw [Finset.prod_range_succ', mul_comm, Nat.add_zero]
  congr 1
  exact Finset.prod_congr rfl fun r _ => by rw [show s + (r + 1) = s + 1 + r by omega]

theorem W_eval (z : ℕ → K) (s k r : ℕ) (h : r < k) : (W z s k).eval (z (s + r)) = 0 := by
  unfold W
  rw [eval_prod]
  exact Finset.prod_eq_zero (Finset.mem_range.2 h) (by simp)

theorem W_double (z : ℕ → K) (s k m : ℕ) (h : m + 1 < k) (hz : z (s + m) = z (s + (m + 1))) :
    (derivative (W z s k)).eval (z (s + m)) = 0 := by
  have hd : W z s (m + 2) ∣ W z s k := by
    unfold W
    exact Finset.prod_dvd_prod_of_subset _ _ _ (Finset.range_subset_range.2 h)
  obtain ⟨q, hq⟩ := hd
  rw [hq, W_succ, W_succ, ← hz, derivative_mul, derivative_mul, derivative_mul]
  simp

/-- the recursion of the divided differences up to index `M` -/
def DivDiff (z : ℕ → K) (Q : ℕ → ℕ → K) (M : ℕ) : Prop :=
  ∀ s j, s + (j + 1) ≤ M → (z (s + (j + 1)) - z s) * Q (j + 1) (s + (j + 1)) = Q j (s + (j + 1)) - Q j (s + j)

theorem newt_shift (z : ℕ → K) (Q : ℕ → ℕ → K) (M : ℕ) (hQ : DivDiff z Q M) (j s : ℕ) (h : s + (j + 1) ≤ M) :
    newt z Q s (j + 1) = newt z Q (s + 1) j + C (Q (j + 1) (s + (j + 1))) * W z (s + 1) (j + 1) := by
  induction j generalizing s with
  | zero =>
    have h0 := hQ s 0 h
    simp only [newt, W, Nat.zero_add, Finset.prod_range_one, Nat.add_zero] at *
    have h1 : C (Q 0 s) = C (Q 0 (s + 1)) - C (z (s + 1) - z s) * C (Q 1 (s + 1)) := by
      rw [← C_mul, h0, ← C_sub]; congr 1; ring
    rw [h1, C_sub]
    ring
  | succ j ih =>
    have h0 := hQ s (j + 1) h
    rw [newt, ih s (by omega), newt, W_succ' z s (j + 1), W_succ z (s + 1) (j + 1)]
    have e1 : s + 1 + (j + 1) = s + (j + 1 + 1) := by omega
    rw [e1]
    have h1 : C (Q (j + 1) (s + (j + 1))) = C (Q (j + 1) (s + (j + 1 + 1))) - C (z (s + (j + 1 + 1)) - z s) * C (Q (j + 1 + 1) (s + (j + 1 + 1))) := by
      rw [← C_mul, h0, ← C_sub]; congr 1; ring
    rw [h1, C_sub]
    ring

theorem newt_eval (z : ℕ → K) (Q : ℕ → ℕ → K) (M : ℕ) (hQ : DivDiff z Q M) (j s k : ℕ) (h : s + j ≤ M) (hk : k ≤ j) :
    (newt z Q s j).eval (z (s + k)) = Q 0 (s + k) := by
  induction j generalizing s k with
  | zero => rw [show k = 0 by omega]; simp [newt]
  | succ j ih =>
    rcases Nat.lt_or_ge k (j + 1) with h1 | h1
    · rw [newt, eval_add, eval_mul, W_eval z s (j + 1) k h1, mul_zero, add_zero, ih s k (by omega) (by omega)]
    · have hk' : k = j + 1 := by omega
      subst hk'
      rw [newt_shift z Q M hQ j s h, eval_add, eval_mul]
      have e1 : s + (j + 1) = s + 1 + j := by omega
      rw [e1, W_eval z (s + 1) (j + 1) j (by omega), mul_zero, add_zero, ih (s + 1) j (by omega) le_rfl]

theorem newt_deriv (z : ℕ → K) (Q : ℕ → ℕ → K) (M : ℕ) (hQ : DivDiff z Q M) (j s k : ℕ) (h : s + j ≤ M) (hk : k + 1 ≤ j)
    (hz : z (s + k) = z (s + (k + 1))) : (derivative (newt z Q s j)).eval (z (s + k)) = Q 1 (s + (k + 1)) := by
  induction j generalizing s k with
  | zero => omega
  | succ j ih =>
    rcases Nat.lt_or_ge k j with h1 | h1
    · rw [newt, derivative_add, derivative_C_mul, eval_add, eval_mul, W_double z s (j + 1) k (by omega) hz, mul_zero, add_zero,
        ih s k (by omega) (by omega) hz]
    · have hk' : k = j := by omega
      subst hk'
      cases k with
      | zero => simp [newt, W]
      | succ k =>
        rw [newt_shift z Q M hQ (k + 1) s h, derivative_add, derivative_C_mul, eval_add, eval_mul]
        have e1 : s + (k + 1) = s + 1 + k := by omega
        have e2 : s + (k + 1 + 1) = s + 1 + (k + 1) := by omega
        rw [e1, e2] at hz ⊢
        rw [W_double z (s + 1) (k + 1 + 1) k (by omega) hz, mul_zero, add_zero]
        exact ih (s + 1) k (by omega) (by omega) hz

theorem W_degree (z : ℕ → K) (s k : ℕ) : (W z s k).degree = k := by
  unfold W
  rw [degree_prod]
  simp

theorem newt_degree (z : ℕ → K) (Q : ℕ → ℕ → K) (s j : ℕ) : (newt z Q s j).degree < (j + 1 : ℕ) := by
  induction j with
  | zero => rw [newt]; exact lt_of_le_of_lt degree_C_le (by norm_num)
  | succ j ih =>
    rw [newt]
    refine lt_of_le_of_lt (degree_add_le _ _) (max_lt (ih.trans (by exact_mod_cast Nat.lt_succ_self _)) ?_)
    refine lt_of_le_of_lt (degree_mul_le _ _) ?_
    rw [W_degree]
    refine lt_of_le_of_lt (add_le_add_left degree_C_le _) ?_
    rw [zero_add]
    exact_mod_cast Nat.lt_succ_self _

theorem sq_dvd (p : K[X]) (a : K) (h0 : p.eval a = 0) (h1 : (derivative p).eval a = 0) : (X - C a) ^ 2 ∣ p := by
  obtain ⟨q, rfl⟩ := dvd_iff_isRoot.2 h0
  rw [derivative_mul] at h1
  simp at h1
  obtain ⟨r, rfl⟩ := dvd_iff_isRoot.2 h1
  exact ⟨r, by ring⟩

/-- Hermite uniqueness -/
theorem hermite_unique (m : ℕ) (y : ℕ → K) (hy : ∀ i < m, ∀ j < m, i ≠ j → y i ≠ y j) (p : K[X]) (hp : p.degree < (2 * m : ℕ))
    (h0 : ∀ i < m, p.eval (y i) = 0) (h1 : ∀ i < m, (derivative p).eval (y i) = 0) : p = 0 := by
  have hd : (∏ i ∈ Finset.range m, (X - C (y i)) ^ 2) ∣ p := by
    refine Finset.prod_dvd_of_coprime ?_ fun i hi => sq_dvd p _ (h0 i (Finset.mem_range.1 hi)) (h1 i (Finset.mem_range.1 hi))
    intro i hi j hj hij
    exact (isCoprime_X_sub_C_of_isUnit_sub
      (sub_ne_zero.2 (hy i (by simpa using hi) j (by simpa using hj) hij)).isUnit).pow
  refine eq_zero_of_dvd_of_degree_lt hd (lt_of_lt_of_le hp ?_)
  rw [degree_prod]
  simp
  rw [mul_comm]

end newton

variable {K : Type} [Field K] [LinearOrder K] [IsStrictOrderedRing K]

theorem hermEval_eq (x f fp : ℕ → K) (off : ℕ) (h : K) (o : ℕ) :
    hermEval x f fp off h o = ((newt (zz x off) (dq x f fp off) 0 o).eval h, (W (zz x off) 0 o).eval h) := by
  induction o with
  | zero => simp [hermEval, newt, W]
  | succ o ih =>
    rw [hermEval, ih]
    simp only [newt, eval_add, eval_mul, eval_C, W_succ, eval_sub, eval_X, Nat.zero_add, zz]

theorem inc_inj {n : ℕ} {x : ℕ → K} (hx : Inc n x) {i j : ℕ} (hij : i < j) (hj : j ≤ n) : x i < x j := by
  induction j with
  | zero => omega
  | succ j ih =>
    rcases Nat.eq_or_lt_of_le (Nat.lt_succ_iff.1 hij) with rfl | h
    · exact hx i (by omega)
    · exact (ih h (by omega)).trans (hx j (by omega))

theorem dq_divDiff (n : ℕ) (x f fp : ℕ → K) (hx : Inc n x) (off np : ℕ) (hoff : off + (np - 1) ≤ n) (hnp : 0 < np) :
    DivDiff (zz x off) (dq x f fp off) (2 * (np - 1) + 1) := by
  intro s j hs
  rw [dq]
  have e : s + (j + 1) - (j + 1) = s := by omega
  have e2 : s + (j + 1) - 1 = s + j := by omega
  rw [e, e2]
  split
  · rename_i hc
    obtain ⟨rfl, h2⟩ := hc
    have h3 : (s + (0 + 1)) / 2 = s / 2 := by omega
    have h4 : (s + 0) / 2 = s / 2 := by omega
    simp only [zz, dq, h3, h4, sub_self, zero_mul]
  · rename_i hc
    have hlt : s / 2 < (s + (j + 1)) / 2 := by
      rcases Nat.eq_zero_or_pos j with rfl | h0
      · have : ¬ ((s + (0 + 1)) % 2 = 1) := fun h => hc ⟨rfl, h⟩
        omega
      · omega
    have hne : zz x off (s + (j + 1)) - zz x off s ≠ 0 := by
      rw [sub_ne_zero]
      exact (inc_inj hx (show off + s / 2 < off + (s + (j + 1)) / 2 by omega) (by omega)).ne'
    field_simp

theorem offset_spec (h : K) (x : ℕ → K) (k i s : ℕ) (hs : offset h x k i = some s) :
    i ≤ s ∧ s < i + k ∧ x s ≤ h ∧ h < x (s + 1) := by
  induction k generalizing i with
  | zero => simp [offset] at hs
  | succ k ih =>
    rw [offset] at hs
    split at hs
    · rename_i hc
      cases hs
      exact ⟨le_rfl, by omega, hc⟩
    · obtain ⟨h1, h2, h3⟩ := ih (i + 1) hs
      exact ⟨by omega, by omega, h3⟩

theorem offset_found (h : K) (x : ℕ → K) (k i : ℕ) (h0 : x i ≤ h) (h1 : h < x (i + k)) : ∃ s, offset h x k i = some s := by
  induction k generalizing i with
  | zero => exact absurd h1 (not_lt.2 h0)
  | succ k ih =>
    rw [offset]
    split
    · exact ⟨i, rfl⟩
    · rename_i hc
      refine ih (i + 1) ?_ (by rwa [show i + 1 + k = i + (k + 1) by omega])
      by_contra hlt
      exact hc ⟨h0, not_le.1 hlt⟩

/-- `p` is the Hermite polynomial of the `np` points from `off` on -/
structure HermitePoly (x f fp : ℕ → K) (off np : ℕ) (p : K[X]) : Prop where
  degree : p.degree < (2 * np : ℕ)
  value : ∀ i < np, p.eval (x (off + i)) = f (off + i)
  slope : ∀ i < np, (derivative p).eval (x (off + i)) = fp (off + i)

theorem newt_hermite (n : ℕ) (x f fp : ℕ → K) (hx : Inc n x) (off np : ℕ) (hnp : 0 < np) (hoff : off + (np - 1) ≤ n) :
    HermitePoly x f fp off np (newt (zz x off) (dq x f fp off) 0 (2 * (np - 1) + 1)) := by
  have hQ := dq_divDiff n x f fp hx off np hoff hnp
  refine ⟨?_, ?_, ?_⟩
  · have := newt_degree (zz x off) (dq x f fp off) 0 (2 * (np - 1) + 1)
    rwa [show 2 * (np - 1) + 1 + 1 = 2 * np by omega] at this
  · intro i hi
    have := newt_eval _ _ _ hQ (2 * (np - 1) + 1) 0 (2 * i) (by omega) (by omega)
    simpa [zz, dq] using this
  · intro i hi
    have := newt_deriv _ _ _ hQ (2 * (np - 1) + 1) 0 (2 * i) (by omega) (by omega)
      (by simp only [zz]; congr 2; omega)
    rw [dq, if_pos ⟨rfl, by omega⟩] at this
    have e1 : (0 + (2 * i + 1)) / 2 = i := by omega
    have e2 : (0 + 2 * i) / 2 = i := by omega
    rwa [zz, e1, e2] at this

/-- **C45 (existence and uniqueness of the Hermite polynomial).** -/
theorem C45_exists_unique (n : ℕ) (x f fp : ℕ → K) (hx : Inc n x) (off np : ℕ) (hnp : 0 < np) (hoff : off + (np - 1) ≤ n) :
    ∃! p, HermitePoly x f fp off np p := by
  have hE := newt_hermite n x f fp hx off np hnp hoff
  refine ⟨_, hE, fun q hq => sub_eq_zero.1 (hermite_unique np (fun i => x (off + i)) ?_ _ ?_ ?_ ?_)⟩
  · intro i hi j hj hij
    rcases Nat.lt_or_gt_of_ne hij with h | h
    · exact (inc_inj hx (show off + i < off + j by omega) (by omega)).ne
    · exact (inc_inj hx (show off + j < off + i by omega) (by omega)).ne'
  · exact lt_of_le_of_lt (degree_sub_le _ _) (max_lt hq.degree hE.degree)
  · intro i hi
    rw [eval_sub, hq.value i hi, hE.value i hi, sub_self]
  · intro i hi
    rw [derivative_sub, eval_sub, hq.slope i hi, hE.slope i hi, sub_self]

/-- **C45 (value).** A value returned by Hermite interpolation on an increasing table is the value at `h` of the polynomial of
degree below 2 np that has the given values and derivatives at np consecutive table points, the first of which starts the
segment containing `h`. -/
theorem C45_value (e : K) (he : 0 < e) (n np : ℕ) (hn : 0 < n) (x f fp : ℕ → K) (hx : Inc n x) (hgap : x 0 + e ≤ x n) (h v : K)
    (hv : hermite e (n + 1) np x f fp h = .ok v) :
    ∃ off, x off ≤ h ∧ h < x (off + 1) ∧ off + np ≤ n + 1 ∧ ∀ p, HermitePoly x f fp off np p → v = p.eval h := by
  have ho := orderTest_inc e n hn x hx he hgap
  unfold hermite at hv
  split at hv
  · cases hv
  split at hv
  · cases hv
  rename_i h1 h2
  rw [ho, Res.bind_ok] at hv
  have o : ∀ v : ℕ → K, ordered false (n + 1) v = v := fun _ => rfl
  simp only [o, Nat.add_sub_cancel] at hv
  cases hs : offset h x n 0 with
  | none => rw [hs] at hv; cases hv
  | some off =>
    rw [hs] at hv
    simp only at hv
    split at hv
    · cases hv
    rename_i h3
    obtain ⟨-, a2, a3, a4⟩ := offset_spec h x n 0 off hs
    refine ⟨off, a3, a4, by omega, fun p hp => ?_⟩
    have hu := C45_exists_unique n x f fp hx off np (by omega) (by omega)
    have hE := newt_hermite n x f fp hx off np (by omega) (by omega)
    rw [hu.unique hp hE]
    have := Res.ok.inj hv
    rw [← this, hermEval_eq]

/-- **C45 (where it answers).** On an increasing table the call answers exactly for the points from the first table point up
to, but not including, the last one, as far as `np` points from the segment on are left; otherwise the program stops. -/
theorem C45_accepts_partial (e : K) (he : 0 < e) (n np : ℕ) (hn : 0 < n) (x f fp : ℕ → K) (hx : Inc n x) (hgap : x 0 + e ≤ x n) (h : K)
    (hnp : 0 < np) (hle : np ≤ n + 1) :
    (∃ v, hermite e (n + 1) np x f fp h = .ok v) ∧ x 0 ≤ h ∧ h < x n ∧ (np = 1 ∨ h < x (n + 2 - np)) ∨
    hermite e (n + 1) np x f fp h = .abort ∧ ¬ (x 0 ≤ h ∧ h < x n ∧ (np = 1 ∨ h < x (n + 2 - np))) := by
  have ho := orderTest_inc e n hn x hx he hgap
  have o : ∀ v : ℕ → K, ordered false (n + 1) v = v := fun _ => rfl
  unfold hermite
  rw [if_neg (by omega), if_neg (by omega), ho, Res.bind_ok]
  simp only [o, Nat.add_sub_cancel]
  have hmono : ∀ i j, i ≤ j → j ≤ n → x i ≤ x j := by
    intro i j hij hj
    rcases Nat.eq_or_lt_of_le hij with rfl | h'
    · exact le_rfl
    · exact (inc_inj hx h' hj).le
  cases hs : offset h x n 0 with
  | none =>
    right
    refine ⟨rfl, ?_⟩
    rintro ⟨h0, h1, -⟩
    obtain ⟨s, hs'⟩ := offset_found h x n 0 h0 (by simpa using h1)
    rw [hs] at hs'; cases hs'
  | some off =>
    obtain ⟨-, a2, a3, a4⟩ := offset_spec h x n 0 off hs
    simp only
    split
    · rename_i h3
      right
      refine ⟨rfl, ?_⟩
      rintro ⟨-, -, h4⟩
      rcases h4 with h4 | h4
      · omega
      · have := hmono (n + 2 - np) off (by omega) (by omega)
        exact absurd h4 (not_lt.2 (this.trans a3))
    · rename_i h3
      left
      refine ⟨⟨_, rfl⟩, (hmono 0 off (by omega) (by omega)).trans a3, lt_of_lt_of_le a4 (hmono (off + 1) n (by omega) le_rfl), ?_⟩
      rcases Nat.eq_or_lt_of_le (show 1 ≤ np from hnp) with h5 | h5
      · exact Or.inl h5.symm
      · exact Or.inr (lt_of_lt_of_le a4 (hmono _ _ (by omega) (by omega)))

/-- **C45 (violation).** The last table point is inside the documented range [x_0, x_n], and the program stops there. -/
theorem C45_last_point_violation (e : K) (he : 0 < e) (n np : ℕ) (hn : 0 < n) (x f fp : ℕ → K) (hx : Inc n x)
    (hgap : x 0 + e ≤ x n) (hnp : 0 < np) (hle : np ≤ n + 1) : hermite e (n + 1) np x f fp (x n) = .abort := by
  rcases C45_accepts_partial e he n np hn x f fp hx hgap (x n) hnp hle with ⟨-, -, h, -⟩ | ⟨h, -⟩
  · exact absurd h (lt_irrefl _)
  · exact h

/-- **C45 (decreasing tables).** -/
theorem C45_decreasing (e : K) (he : 0 < e) (N np : ℕ) (hN : 1 < N) (x f fp : ℕ → K) (hgap : x (N - 1) + e < x 0) (h : K) :
    hermite e N np x f fp h = hermite e N np (fun i => x (N - 1 - i)) (fun i => f (N - 1 - i)) (fun i => fp (N - 1 - i)) h := by
  have h1 : Tol.eql e (x 0) (x (N - 1)) = false := by
    simp only [Tol.eql, Bool.and_eq_false_iff, decide_eq_false_iff_not, not_lt]; left; linarith
  have h2 : Tol.grt e (x 0) (x (N - 1)) = true := by
    simp only [Tol.grt, decide_eq_true_eq]; linarith
  have h3 : Tol.eql e (x (N - 1)) (x 0) = false := by
    simp only [Tol.eql, Bool.and_eq_false_iff, decide_eq_false_iff_not, not_lt]; right; linarith
  have h4 : Tol.grt e (x (N - 1)) (x 0) = false := by
    simp only [Tol.grt, decide_eq_false_iff_not, not_lt]; linarith
  have o1 : orderTest e N x = .ok true := by
    simp [orderTest, h1, h2, show N ≠ 0 by omega]
  have o2 : orderTest e N (fun i => x (N - 1 - i)) = .ok false := by
    simp [orderTest, h3, h4, show N ≠ 0 by omega]
  unfold hermite
  rw [o1, o2]
  rfl

/-- concrete cases: x³ on the points 0,1,2,3 with two points, and the refusal next to the right end -/
example : hermite (1 / 10 ^ 12 : ℚ) 4 2 (fun i => i) (fun i => i ^ 3) (fun i => 3 * i ^ 2) (3 / 2) = .ok (27 / 8) := by decide +kernel
example : hermite (1 / 10 ^ 12 : ℚ) 4 2 (fun i => 3 - i) (fun i => (3 - i) ^ 3) (fun i => 3 * (3 - i) ^ 2) (3 / 2) = .ok (27 / 8) := by
  decide +kernel
example : hermite (1 / 10 ^ 12 : ℚ) 4 3 (fun i => i) (fun i => i ^ 3) (fun i => 3 * i ^ 2) (5 / 2) = .abort := by decide +kernel
example : HermitePoly (fun i => (i : ℚ)) (fun i => (i : ℚ) ^ 3) (fun i => 3 * (i : ℚ) ^ 2) 1 2 (X ^ 3) :=
  ⟨by rw [degree_X_pow]; norm_num, fun i _ => by simp, fun i _ => by simp; left; norm_num⟩

end Elliptica.Interp
