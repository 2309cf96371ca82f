import Verif.Lemmas.Legendre
import Mathlib.MeasureTheory.Integral.IntervalIntegral.FundThmCalculus
import Mathlib.Analysis.Calculus.Deriv.Polynomial
import Mathlib.LinearAlgebra.Lagrange
import Mathlib.Tactic.Linarith
import Mathlib.Tactic.NormNum
import Mathlib.Tactic.Positivity
/-!
Orthogonality of the Legendre polynomials and the quadratures of Gauss and Lobatto.
-/
namespace Elliptica.Legendre
open Polynomial Nat

/-- ∫ over [-1,1] -/
noncomputable def ii (p : ℝ[X]) : ℝ := ∫ x in (-1 : ℝ)..1, p.eval x

theorem integrable (p : ℝ[X]) (a b : ℝ) : IntervalIntegrable (fun x => p.eval x) MeasureTheory.volume a b :=
  (continuous_iff_continuousAt.mpr fun x => (p.hasDerivAt x).continuousAt).intervalIntegrable a b

theorem ii_add (p q : ℝ[X]) : ii (p + q) = ii p + ii q := by
  unfold ii
  simp only [eval_add]
  exact intervalIntegral.integral_add (integrable p _ _) (integrable q _ _)

theorem ii_C_mul (c : ℝ) (p : ℝ[X]) : ii (C c * p) = c * ii p := by
  unfold ii
  simp only [eval_mul, eval_C]
  exact intervalIntegral.integral_const_mul c _

theorem ii_neg (p : ℝ[X]) : ii (-p) = -ii p := by
  have := ii_C_mul (-1) p
  simpa using this

theorem ii_sub (p q : ℝ[X]) : ii (p - q) = ii p - ii q := by rw [sub_eq_add_neg, ii_add, ii_neg]; ring

theorem ii_zero : ii 0 = 0 := by simp [ii]

theorem ii_sum {ι : Type*} (s : Finset ι) (f : ι → ℝ[X]) : ii (∑ i ∈ s, f i) = ∑ i ∈ s, ii (f i) := by
  classical
  induction s using Finset.induction_on with
  | empty => simp [ii_zero]
  | insert a s ha ih => rw [Finset.sum_insert ha, Finset.sum_insert ha, ii_add, ih]

theorem int_deriv (p : ℝ[X]) (a b : ℝ) : ∫ x in a..b, (derivative p).eval x = p.eval b - p.eval a :=
  intervalIntegral.integral_eq_sub_of_hasDerivAt (fun x _ => p.hasDerivAt x) (integrable _ _ _)

theorem ii_deriv (p : ℝ[X]) : ii (derivative p) = p.eval 1 - p.eval (-1) := int_deriv p _ _

/-- integration by parts -/
theorem ii_parts (p q : ℝ[X]) : ii (derivative p * q) = p.eval 1 * q.eval 1 - p.eval (-1) * q.eval (-1) - ii (p * derivative q) := by
  have h := ii_deriv (p * q)
  rw [derivative_mul, ii_add, eval_mul, eval_mul] at h
  linarith

theorem vanish (l k : ℕ) (h : k < l) (x : ℝ) (hx : x ^ 2 = 1) : (derivative^[k] ((X ^ 2 - 1 : ℝ[X]) ^ l)).eval x = 0 := by
  have h1 : (X - C x) ^ l ∣ (X ^ 2 - 1 : ℝ[X]) ^ l := by
    apply pow_dvd_pow_of_dvd
    rw [dvd_iff_isRoot]; simp [IsRoot, hx]
  have h2 := Polynomial.pow_sub_dvd_iterate_derivative_of_pow_dvd k h1
  have h3 : (X - C x) ∣ derivative^[k] ((X ^ 2 - 1 : ℝ[X]) ^ l) := (dvd_pow_self _ (by omega)).trans h2
  exact dvd_iff_isRoot.mp h3

theorem parts_iter (l k : ℕ) (h : k ≤ l) (q : ℝ[X]) :
    ii (derivative^[k] ((X ^ 2 - 1 : ℝ[X]) ^ l) * q) = (-1) ^ k * ii ((X ^ 2 - 1) ^ l * derivative^[k] q) := by
  induction k generalizing q with
  | zero => simp
  | succ k ih =>
    rw [Function.iterate_succ_apply', ii_parts, vanish l k (by omega) 1 (by norm_num), vanish l k (by omega) (-1) (by norm_num),
      ih (by omega), ← Function.iterate_succ_apply, pow_succ]
    ring

/-- P_l is orthogonal to every polynomial of smaller degree -/
theorem orth (l : ℕ) (q : ℝ[X]) (hq : q.degree < l) : ii (legendre l * q) = 0 := by
  unfold legendre
  rw [mul_assoc, ii_C_mul, parts_iter l l le_rfl, iterate_derivative_eq_zero_of_degree_lt hq, mul_zero, ii_zero]
  ring

theorem eval_one (l : ℕ) : (legendre l).eval 1 = 1 := by
  induction l with
  | zero => simp [legendre_zero]
  | succ l ih =>
    have h := congrArg (eval 1) (r3 l)
    simp only [eval_mul, eval_add, eval_sub, eval_pow, eval_X, eval_natCast, Polynomial.eval_one, ih] at h
    have : (l + 1 : ℝ) ≠ 0 := by positivity
    have h2 : (l + 1 : ℝ) * eval 1 (legendre (l + 1)) = (l + 1) * 1 := by linarith
    exact mul_left_cancel₀ this h2

theorem eval_neg_one (l : ℕ) : (legendre l).eval (-1) = (-1) ^ l := by
  induction l with
  | zero => simp [legendre_zero]
  | succ l ih =>
    have h := congrArg (eval (-1)) (r3 l)
    simp only [eval_mul, eval_add, eval_sub, eval_pow, eval_X, eval_natCast, Polynomial.eval_one, ih] at h
    have : (l + 1 : ℝ) ≠ 0 := by positivity
    have h2 : (l + 1 : ℝ) * eval (-1) (legendre (l + 1)) = (l + 1) * (-1) ^ (l + 1) := by rw [pow_succ]; linarith
    exact mul_left_cancel₀ this h2

theorem degree_legendre_lt (l n : ℕ) (h : l < n) : (legendre l).degree < n :=
  lt_of_le_of_lt degree_le_natDegree (by exact_mod_cast lt_of_le_of_lt (natDegree_legendre l) h)

theorem degree_deriv_lt (l n : ℕ) (h : l ≤ n) (hn : 0 < n) : (derivative (legendre l)).degree < n := by
  rcases Nat.eq_zero_or_pos l with h0 | h0
  · subst h0; rw [legendre_zero]; simp [WithBot.bot_lt_coe]
  · refine lt_of_le_of_lt degree_le_natDegree ?_
    have := natDegree_derivative_le (legendre l)
    have := natDegree_legendre l
    exact_mod_cast (by omega)

/-- the norm of P_l -/
theorem norm_legendre (l : ℕ) : ii (legendre l * legendre l) = 2 / (2 * l + 1) := by
  match l with
  | 0 => rw [legendre_zero]; simp [ii]; norm_num
  | l + 1 =>
    have h1 : ii (derivative (legendre (l + 2) - legendre l) * legendre (l + 1)) = (2 * l + 3) * ii (legendre (l + 1) * legendre (l + 1)) := by
      rw [derivative_sub, dsub, ← ii_C_mul]
      congr 1
      simp only [map_add, map_mul, map_natCast, map_ofNat]
      ring
    have h2 : ii (derivative (legendre (l + 1)) * legendre l) = 2 := by
      rw [ii_parts, orth (l + 1) _ (degree_deriv_lt l (l + 1) (by omega) (by omega)), eval_one, eval_one, eval_neg_one, eval_neg_one, pow_succ]
      have : ((-1 : ℝ)) ^ l * (-1) ^ l = 1 := by rw [← mul_pow]; simp
      linear_combination this
    have h3 : ii ((legendre (l + 2) - legendre l) * derivative (legendre (l + 1))) = -2 := by
      rw [sub_mul, ii_sub, orth (l + 2) _ (degree_deriv_lt (l + 1) (l + 2) (by omega) (by omega)), mul_comm (legendre l), h2]
      ring
    rw [ii_parts, h3] at h1
    simp only [eval_sub, eval_one, eval_neg_one] at h1
    have h4 : ((-1 : ℝ)) ^ (l + 2) = (-1) ^ l := by rw [pow_add]; norm_num
    rw [h4] at h1
    rw [eq_div_iff (by positivity)]
    push_cast
    linarith

theorem ortho (l k : ℕ) : ii (legendre l * legendre k) = if l = k then 2 / (2 * l + 1 : ℝ) else 0 := by
  split_ifs with h
  · subst h; exact norm_legendre l
  · rcases Nat.lt_or_gt_of_ne h with h1 | h1
    · rw [mul_comm]; exact orth k _ (degree_legendre_lt l k h1)
    · exact orth l _ (degree_legendre_lt k l h1)

/-- ∫ P_l^m P_k^m -/
theorem ortho_assoc (l k m : ℕ) (hl : m ≤ l) (hk : m ≤ k) :
    ii ((1 - X ^ 2) ^ m * Q l m * Q k m) = if l = k then 2 / (2 * l + 1 : ℝ) * ((l + m)! / (l - m)!) else 0 := by
  induction m with
  | zero =>
    have := ortho l k
    have h0 : ((l - 0)! : ℝ) ≠ 0 := by exact_mod_cast Nat.factorial_ne_zero _
    simp only [Q, Function.iterate_zero, id, pow_zero, one_mul, this, Nat.add_zero]
    rw [Nat.sub_zero] at *
    rw [div_self h0, mul_one]
  | succ m ih =>
    have hd : ∀ j, derivative (Q l j) = Q l (j + 1) := by intro k; unfold Q; rw [Function.iterate_succ_apply']
    have hdk : derivative (Q k m) = Q k (m + 1) := by unfold Q; rw [Function.iterate_succ_apply']
    have hw : derivative ((1 - X ^ 2) ^ (m + 1) * Q l (m + 1)) =
        -(C ((l + m + 1) * (l - m) : ℝ) * ((1 - X ^ 2) ^ m * Q l m)) := by
      rw [derivative_mul, derivative_pow, hd]
      have ho := Q_ode l m
      simp only [map_add, map_sub, map_mul, map_natCast, map_one, derivative_sub, derivative_one, derivative_pow, derivative_X,
        Nat.cast_add, Nat.cast_one, Nat.add_sub_cancel, C2, Nat.cast_ofNat] at ho ⊢
      linear_combination (-(1 - X ^ 2) ^ m) * ho
    have h1 := ii_parts (Q k m) ((1 - X ^ 2) ^ (m + 1) * Q l (m + 1))
    rw [hdk, hw] at h1
    simp only [eval_mul, eval_pow, eval_sub, eval_X, Polynomial.eval_one] at h1
    have e1 : Q k (m + 1) * ((1 - X ^ 2) ^ (m + 1) * Q l (m + 1)) = (1 - X ^ 2) ^ (m + 1) * Q l (m + 1) * Q k (m + 1) := by ring
    have e2 : Q k m * -(C ((l + m + 1) * (l - m) : ℝ) * ((1 - X ^ 2) ^ m * Q l m)) =
        C (-((l + m + 1) * (l - m) : ℝ)) * ((1 - X ^ 2) ^ m * Q l m * Q k m) := by rw [map_neg]; ring
    rw [e1, e2, ii_C_mul, ih (by omega) (by omega)] at h1
    rw [h1]
    split_ifs with h
    · obtain ⟨d, rfl⟩ : ∃ d, l = m + 1 + d := ⟨l - (m + 1), by omega⟩
      rw [show m + 1 + d - m = d + 1 by omega, show m + 1 + d - (m + 1) = d by omega,
        show m + 1 + d + (m + 1) = (m + 1 + d + m) + 1 by omega, Nat.factorial_succ (m + 1 + d + m), Nat.factorial_succ d]
      push_cast
      have hf : (d ! : ℝ) ≠ 0 := by exact_mod_cast Nat.factorial_ne_zero _
      have hd' : (d + 1 : ℝ) ≠ 0 := by positivity
      field_simp
      ring
    · ring

/-! ### quadratures -/

/-- the weights of the interpolatory quadrature with the nodes v -/
noncomputable def wt (n : ℕ) (v : ℕ → ℝ) (i : ℕ) : ℝ := ii (Lagrange.basis (Finset.range n) v i)

theorem interpolatory (n : ℕ) (v : ℕ → ℝ) (hv : Set.InjOn v (Finset.range n)) (p : ℝ[X]) (hp : p.degree < n) :
    ii p = ∑ i ∈ Finset.range n, wt n v i * p.eval (v i) := by
  have h := Lagrange.eq_interpolate hv (f := p) (by simpa using hp)
  conv_lhs => rw [h, Lagrange.interpolate_apply, ii_sum]
  refine Finset.sum_congr rfl fun i _ => ?_
  rw [ii_C_mul, mul_comm]; rfl

/-- a quadrature whose node polynomial W is orthogonal to the polynomials of degree below d -/
theorem exact_of_orth (n d : ℕ) (v : ℕ → ℝ) (hv : Set.InjOn v (Finset.range n)) (W : ℝ[X]) (hW0 : W ≠ 0) (hWd : W.natDegree ≤ n)
    (hr : ∀ i < n, W.eval (v i) = 0) (ho : ∀ q : ℝ[X], q.degree < d → ii (W * q) = 0) (p : ℝ[X]) (hp : p.degree < (n + d : ℕ)) :
    ii p = ∑ i ∈ Finset.range n, wt n v i * p.eval (v i) := by
  have hWn : W.degree = n := by
    rcases lt_or_eq_of_le (degree_le_of_natDegree_le hWd) with h | h
    · exact absurd (Polynomial.eq_zero_of_degree_lt_of_eval_index_eq_zero (Finset.range n) hv (by simpa using h)
        (fun i hi => hr i (Finset.mem_range.mp hi))) hW0
    · exact h
  have hmod : (p % W).degree < n := hWn ▸ degree_mod_lt p hW0
  have hdiv : (p / W).degree < d := by
    by_cases hle : W.degree ≤ p.degree
    · have h := degree_add_div hW0 hle
      rw [hWn] at h
      by_cases hq : p / W = 0
      · rw [hq, degree_zero]; exact WithBot.bot_lt_coe d
      · rw [degree_eq_natDegree hq] at h ⊢
        rw [← h] at hp
        have : n + (p / W).natDegree < n + d := by exact_mod_cast hp
        exact_mod_cast (by omega : (p / W).natDegree < d)
    · rw [(Polynomial.div_eq_zero_iff hW0).mpr (not_le.mp hle), degree_zero]; exact WithBot.bot_lt_coe d
  have hp2 := EuclideanDomain.div_add_mod p W
  have hev : ∀ i ∈ Finset.range n, p.eval (v i) = (p % W).eval (v i) := by
    intro i hi
    conv_lhs => rw [← hp2]
    rw [eval_add, eval_mul, hr i (Finset.mem_range.mp hi)]; ring
  conv_lhs => rw [← hp2]
  rw [ii_add, ho _ hdiv, zero_add, interpolatory n v hv _ hmod]
  exact Finset.sum_congr rfl fun i hi => by rw [hev i hi]

theorem legendre_ne_zero (n : ℕ) : legendre n ≠ 0 := by
  intro h
  have := eval_one n
  rw [h] at this; simp at this

theorem natDegree_lt_of_mul (p s : ℝ[X]) (x : ℝ) (n : ℕ) (hp : p = (X - C x) * s) (h0 : p ≠ 0) (hn : p.natDegree ≤ n) : s.natDegree < n := by
  have hs : s ≠ 0 := by rintro rfl; simp at hp; exact h0 hp
  rw [hp, natDegree_mul (X_sub_C_ne_zero x) hs, natDegree_X_sub_C] at hn
  omega

theorem sum_single (n : ℕ) (i : ℕ) (hi : i < n) (f : ℕ → ℝ) (h : ∀ j < n, j ≠ i → f j = 0) : ∑ j ∈ Finset.range n, f j = f i :=
  Finset.sum_eq_single i (fun j hj hne => h j (Finset.mem_range.mp hj) hne) (fun h => absurd (Finset.mem_range.mpr hi) h)

/-- Gauss: nodes at the n roots of P_n integrate polynomials of degree below 2n exactly -/
theorem gauss_exact (n : ℕ) (v : ℕ → ℝ) (hv : Set.InjOn v (Finset.range n)) (hr : ∀ i < n, (legendre n).eval (v i) = 0)
    (p : ℝ[X]) (hp : p.degree < (2 * n : ℕ)) : ii p = ∑ i ∈ Finset.range n, wt n v i * p.eval (v i) :=
  exact_of_orth n n v hv (legendre n) (legendre_ne_zero n) (natDegree_legendre n) hr (fun q hq => orth n q hq) p
    (by rw [← two_mul]; exact hp)

/-- the weights of Gauss -/
theorem gauss_weight (n : ℕ) (v : ℕ → ℝ) (hv : Set.InjOn v (Finset.range n)) (hr : ∀ i < n, (legendre n).eval (v i) = 0)
    (i : ℕ) (hi : i < n) :
    wt n v i * (derivative (legendre n)).eval (v i) ^ 2 * (1 - v i ^ 2) = 2 ∧ 1 - v i ^ 2 ≠ 0 := by
  obtain ⟨S, hS⟩ := dvd_iff_isRoot.mpr (hr i hi)
  set x := v i with hx
  have h1 : (1 - x) * S.eval 1 = 1 := by
    have := eval_one n; rw [hS] at this; simpa using this
  have h2 : (-1 - x) * S.eval (-1) = (-1) ^ n := by
    have := eval_neg_one n; rw [hS] at this; simpa using this
  have hx1 : 1 - x ≠ 0 := left_ne_zero_of_mul (h1 ▸ one_ne_zero)
  have hx2 : 1 + x ≠ 0 := by
    intro h
    have : (-1 - x) = 0 := by linarith
    rw [this, zero_mul] at h2
    exact (pow_ne_zero n (by norm_num : (-1 : ℝ) ≠ 0)) h2.symm
  have hx12 : 1 - x ^ 2 ≠ 0 := by
    have : 1 - x ^ 2 = (1 - x) * (1 + x) := by ring
    rw [this]; exact mul_ne_zero hx1 hx2
  have hSd := natDegree_lt_of_mul _ S x n hS (legendre_ne_zero n) (natDegree_legendre n)
  have hd : derivative (legendre n) = S + (X - C x) * derivative S := by
    conv_lhs => rw [hS]
    simp
  have hSx : S.eval x = (derivative (legendre n)).eval x := by rw [hd]; simp
  have hSj : ∀ j < n, j ≠ i → S.eval (v j) = 0 := by
    intro j hj hne
    have := hr j hj
    rw [hS, eval_mul] at this
    rcases mul_eq_zero.mp this with h | h
    · simp only [eval_sub, eval_X, eval_C] at h
      exact absurd (hv (by simpa using hj) (by simpa using hi) (by rw [← hx]; linarith)) hne
    · exact h
  have hdeg : ∀ q : ℝ[X], q.natDegree < n → (S * q).degree < (2 * n : ℕ) := by
    intro q hq
    refine lt_of_le_of_lt degree_le_natDegree ?_
    have := natDegree_mul_le (p := S) (q := q)
    exact_mod_cast (by omega)
  have i1 := gauss_exact n v hv hr (S * S) (hdeg S hSd)
  have i2 := gauss_exact n v hv hr (S * derivative (legendre n)) (hdeg _ (by
    have := natDegree_derivative_le (legendre n)
    have := natDegree_legendre n
    omega))
  rw [sum_single n i hi _ (fun j hj hne => by rw [eval_mul, hSj j hj hne]; ring), ← hx, eval_mul] at i1 i2
  rw [← hSx] at i2
  have i3 : ii (S * derivative (legendre n)) = ii (S * S) + 1 / 2 * ii (derivative (S * S) * (X - C x)) := by
    rw [← ii_C_mul, ← ii_add]
    congr 1
    rw [hd, derivative_mul]
    have : C (1 / 2 : ℝ) * 2 = 1 := by rw [← C2, ← C_mul]; norm_num
    linear_combination (-(S * derivative S * (X - C x))) * this
  rw [ii_parts] at i3
  have e1 : derivative (X - C x) = 1 := by simp
  rw [e1, mul_one] at i3
  simp only [eval_mul, eval_sub, eval_X, eval_C] at i3
  refine ⟨?_, hx12⟩
  rw [← hSx]
  have hb : S.eval 1 * S.eval 1 * (1 - x) - S.eval (-1) * S.eval (-1) * (-1 - x) = 2 / (1 - x ^ 2) := by
    have t1 : S.eval 1 = 1 / (1 - x) := by rw [eq_div_iff hx1]; linarith
    have t2 : S.eval (-1) = (-1) ^ n / (-1 - x) := by
      rw [eq_div_iff (by intro h; apply hx2; linarith)]; linarith
    have t3 : ((-1 : ℝ)) ^ n * (-1) ^ n = 1 := by rw [← mul_pow]; simp
    have hx2' : (-1 - x) ≠ 0 := by intro h; apply hx2; linarith
    have t4 : S.eval (-1) * S.eval (-1) * (-1 - x) = 1 / (-1 - x) := by
      rw [t2]; field_simp; linarith
    rw [t4, t1]
    field_simp
    ring
  rw [hb] at i3
  have : wt n v i * S.eval x ^ 2 = 2 / (1 - x ^ 2) := by
    rw [i2, i1] at i3
    linarith
  rw [this, div_mul_cancel₀ _ hx12]

/-- Lobatto: nodes at the ends and at the roots of P'_{N} with N = n-1 integrate polynomials of degree below 2n-2 exactly -/
theorem lobatto_exact (N : ℕ) (hN : 1 ≤ N) (v : ℕ → ℝ) (hv : Set.InjOn v (Finset.range (N + 1)))
    (hr : ∀ i < N + 1, (v i ^ 2 - 1) * (derivative (legendre N)).eval (v i) = 0)
    (p : ℝ[X]) (hp : p.degree < (2 * N : ℕ)) : ii p = ∑ i ∈ Finset.range (N + 1), wt (N + 1) v i * p.eval (v i) := by
  have hder : derivative ((X ^ 2 - 1) * derivative (legendre N)) = (N : ℝ[X]) * (N + 1 : ℝ[X]) * legendre N := by
    rw [← ode]
    simp [C2]
    ring
  have hW0 : (X ^ 2 - 1) * derivative (legendre N) ≠ 0 := by
    intro h
    rw [h] at hder
    simp only [derivative_zero] at hder
    have h2 := congrArg (eval 1) hder
    simp only [eval_zero, eval_mul, eval_add, eval_natCast, Polynomial.eval_one, eval_one, mul_one] at h2
    have : (N : ℝ) * (N + 1) ≠ 0 := by
      have : (0 : ℝ) < N := by exact_mod_cast hN
      positivity
    exact this h2.symm
  refine exact_of_orth (N + 1) (N - 1) v hv _ hW0 ?_ (fun i hi => by simpa using hr i hi) ?_ p (by
    rw [show N + 1 + (N - 1) = 2 * N by omega]; exact hp)
  · refine natDegree_mul_le.trans ?_
    have h1 := natDegree_derivative_le (legendre N)
    have h2 := natDegree_legendre N
    have h3 : (X ^ 2 - 1 : ℝ[X]).natDegree ≤ 2 := by refine (natDegree_sub_le _ _).trans ?_; simp
    omega
  · intro q hq
    have e : (X ^ 2 - 1) * derivative (legendre N) * q =
        C (N + 1 : ℝ) * (legendre (N + 1) * q - legendre N * (X * q)) := by
      have := r3 N
      simp only [map_add, map_natCast, map_one]
      linear_combination (-q) * this
    rw [e, ii_C_mul, ii_sub, orth (N + 1) q (lt_trans hq (by exact_mod_cast (by omega : N - 1 < N + 1))), orth N (X * q) ?_]
    · ring
    · by_cases hq0 : q = 0
      · subst hq0; simp [WithBot.bot_lt_coe]
      · have h1 := (natDegree_lt_iff_degree_lt hq0).mpr hq
        refine lt_of_le_of_lt degree_le_natDegree ?_
        rw [natDegree_X_mul hq0]
        exact_mod_cast (by omega)

theorem dP_one (N : ℕ) : (derivative (legendre N)).eval 1 = N * (N + 1) / 2 := by
  have h := congrArg (eval 1) (ode N)
  simp only [eval_mul, eval_add, eval_sub, eval_pow, eval_X, eval_natCast, Polynomial.eval_one, eval_one, eval_ofNat] at h
  linarith

theorem dP_neg_one (N : ℕ) : (derivative (legendre N)).eval (-1) = -((-1) ^ N * (N * (N + 1) / 2)) := by
  have h := congrArg (eval (-1)) (ode N)
  simp only [eval_mul, eval_add, eval_sub, eval_pow, eval_X, eval_natCast, Polynomial.eval_one, eval_neg_one, eval_ofNat] at h
  linarith

/-- the weights of Lobatto -/
theorem lobatto_weight (N : ℕ) (hN : 1 ≤ N) (v : ℕ → ℝ) (hv : Set.InjOn v (Finset.range (N + 1)))
    (h0 : v 0 = -1) (hl : v N = 1) (hr : ∀ i, 0 < i → i < N → (derivative (legendre N)).eval (v i) = 0) :
    wt (N + 1) v 0 = 2 / (N * (N + 1)) ∧ wt (N + 1) v N = 2 / (N * (N + 1)) ∧
    ∀ i, 0 < i → i < N → wt (N + 1) v i * (N * (N + 1) * (legendre N).eval (v i) ^ 2) = 2 := by
  have hN' : (0 : ℝ) < N := by exact_mod_cast hN
  have hd : (derivative (legendre N)).natDegree ≤ N - 1 :=
    (natDegree_derivative_le _).trans (by have := natDegree_legendre N; omega)
  have hrt : ∀ i < N + 1, (v i ^ 2 - 1) * (derivative (legendre N)).eval (v i) = 0 := by
    intro i hi
    rcases Nat.eq_zero_or_pos i with h | h
    · subst h; rw [h0]; ring
    · rcases Nat.lt_or_ge i N with h2 | h2
      · rw [hr i h h2]; ring
      · rw [show i = N by omega, hl]; ring
  have ex := lobatto_exact N hN v hv hrt
  have hs : ∀ f : ℕ → ℝ, (∀ i, 0 < i → i < N → f i = 0) → ∑ i ∈ Finset.range (N + 1), f i = f 0 + f N := by
    intro f hf
    obtain ⟨M, rfl⟩ : ∃ M, N = M + 1 := ⟨N - 1, by omega⟩
    rw [Finset.sum_range_succ, Finset.sum_range_succ', Finset.sum_eq_zero (fun i hi => hf (i + 1) (by omega) (by
      have := Finset.mem_range.mp hi; omega))]
    ring
  have hi0 : ii (legendre N) = 0 := by
    have := orth N 1 (by rw [degree_one]; exact_mod_cast hN)
    rwa [mul_one] at this
  -- the two ends
  have deg1 : ∀ c : ℝ, degree (derivative (legendre N) * (X - C c)) < ((2 * N : ℕ) : WithBot ℕ) := by
    intro c
    refine lt_of_le_of_lt degree_le_natDegree ?_
    have h1 := natDegree_mul_le (p := derivative (legendre N)) (q := X - C c)
    rw [natDegree_X_sub_C] at h1
    exact_mod_cast (by omega)
  have hend : ∀ c : ℝ, ∑ i ∈ Finset.range (N + 1), wt (N + 1) v i * (derivative (legendre N) * (X - C c)).eval (v i) =
      (1 - c) - (-1) ^ N * (-1 - c) := by
    intro c
    rw [← ex _ (deg1 c), ii_parts, eval_one, eval_neg_one]
    have e1 : derivative (X - C c) = 1 := by simp
    rw [e1, mul_one, hi0]; simp
  have hw0 : wt (N + 1) v 0 = 2 / (N * (N + 1)) := by
    have h := hend 1
    rw [hs _ (fun i a b => by rw [eval_mul, hr i a b]; ring)] at h
    simp only [eval_mul, eval_sub, eval_X, eval_C, h0, hl, dP_neg_one, dP_one] at h
    have hp : ((-1 : ℝ)) ^ N * (-1) ^ N = 1 := by rw [← mul_pow]; simp
    rw [eq_div_iff (by positivity)]
    linear_combination ((-1) ^ N) * h + (2 - wt (N + 1) v 0 * (N * (N + 1))) * hp
  have hwN : wt (N + 1) v N = 2 / (N * (N + 1)) := by
    have h := hend (-1)
    rw [hs _ (fun i a b => by rw [eval_mul, hr i a b]; ring)] at h
    simp only [eval_mul, eval_sub, eval_X, eval_C, h0, hl, dP_neg_one, dP_one] at h
    rw [eq_div_iff (by positivity)]
    linear_combination h
  refine ⟨hw0, hwN, ?_⟩
  intro i hi0' hiN
  obtain ⟨S, hS⟩ := dvd_iff_isRoot.mpr (hr i hi0' hiN)
  set x := v i with hx
  have hx1 : 1 - x ≠ 0 := by
    intro h
    have : v i = v N := by rw [hl]; linarith
    have := hv (by simp; omega) (by simp) this
    omega
  have hx2 : 1 + x ≠ 0 := by
    intro h
    have : v i = v 0 := by rw [h0]; linarith
    have := hv (by simp; omega) (by simp) this
    omega
  have hS1 : (1 - x) * S.eval 1 = N * (N + 1) / 2 := by
    have := dP_one N; rw [hS] at this; simpa using this
  have hS2 : (-1 - x) * S.eval (-1) = -((-1) ^ N * (N * (N + 1) / 2)) := by
    have := dP_neg_one N; rw [hS] at this; simpa using this
  have hdd : derivative (derivative (legendre N)) = S + (X - C x) * derivative S := by
    conv_lhs => rw [hS]
    simp
  have hSx : (x ^ 2 - 1) * S.eval x = N * (N + 1) * (legendre N).eval x := by
    have h := congrArg (eval x) (ode N)
    rw [hdd] at h
    have h3 := hr i hi0' hiN
    rw [← hx] at h3
    simp only [eval_mul, eval_add, eval_sub, eval_pow, eval_X, eval_natCast, Polynomial.eval_one, eval_ofNat, eval_C, h3] at h
    linear_combination h
  have hSj : ∀ j, 0 < j → j < N → j ≠ i → S.eval (v j) = 0 := by
    intro j hj hjN hne
    have := hr j hj hjN
    rw [hS, eval_mul] at this
    rcases mul_eq_zero.mp this with h | h
    · simp only [eval_sub, eval_X, eval_C] at h
      exact absurd (hv (by simp; omega) (by simp; omega) (show v j = v i by rw [← hx]; linarith)) hne
    · exact h
  have hN2 : 2 ≤ N := by omega
  have hdP0 : derivative (legendre N) ≠ 0 := by
    intro h
    have := dP_one N
    rw [h, eval_zero] at this
    have : (0 : ℝ) < N * (N + 1) / 2 := by positivity
    linarith
  have hSd := natDegree_lt_of_mul _ S x (N - 1) hS hdP0 hd
  have hSdeg : S.degree < N := lt_of_le_of_lt degree_le_natDegree (by exact_mod_cast (by omega))
  have hz := orth N S hSdeg
  have hq := ex (legendre N * S) (by
    refine lt_of_le_of_lt degree_le_natDegree ?_
    have h1 := natDegree_mul_le (p := legendre N) (q := S)
    have h2 := natDegree_legendre N
    exact_mod_cast (by omega))
  rw [hz] at hq
  have hsum : ∑ j ∈ Finset.range (N + 1), wt (N + 1) v j * (legendre N * S).eval (v j) =
      (wt (N + 1) v 0 * (legendre N * S).eval (v 0) + wt (N + 1) v N * (legendre N * S).eval (v N)) +
        wt (N + 1) v i * (legendre N * S).eval (v i) := by
    have h1 : ∑ j ∈ Finset.range (N + 1), (wt (N + 1) v j * (legendre N * S).eval (v j) -
        if j = i then wt (N + 1) v i * (legendre N * S).eval (v i) else 0) =
        wt (N + 1) v 0 * (legendre N * S).eval (v 0) + wt (N + 1) v N * (legendre N * S).eval (v N) := by
      rw [hs]
      · rw [if_neg (by omega), if_neg (by omega)]; ring
      · intro j hj hjN
        split_ifs with h
        · subst h; ring
        · rw [eval_mul, hSj j hj hjN h]; ring
    rw [Finset.sum_sub_distrib, Finset.sum_ite_eq' , if_pos (Finset.mem_range.mpr (by omega))] at h1
    linarith
  rw [hsum, h0, hl, ← hx, hw0, hwN] at hq
  simp only [eval_mul, eval_one, eval_neg_one] at hq
  -- solve for the weight
  have t1 : S.eval 1 = N * (N + 1) / 2 / (1 - x) := by rw [eq_div_iff hx1]; linarith
  have hx2' : (-1 - x) ≠ 0 := by intro h; apply hx2; linarith
  have t2 : S.eval (-1) = -((-1) ^ N * (N * (N + 1) / 2)) / (-1 - x) := by rw [eq_div_iff hx2']; linarith
  have hp : ((-1 : ℝ)) ^ N * (-1) ^ N = 1 := by rw [← mul_pow]; simp
  have u1 : 2 / (N * (N + 1) : ℝ) * (1 * S.eval 1) = 1 / (1 - x) := by rw [t1]; field_simp
  have u2 : 2 / (N * (N + 1) : ℝ) * ((-1) ^ N * S.eval (-1)) = 1 / (1 + x) := by
    have : 2 / (N * (N + 1) : ℝ) * ((-1) ^ N * S.eval (-1)) = -((-1) ^ N * (-1) ^ N) / (-1 - x) := by
      rw [t2]; field_simp
    rw [this, hp, show (-1 - x) = -(1 + x) by ring, neg_div_neg_eq]
  rw [u1, u2] at hq
  have u3 : 1 / (1 + x) + 1 / (1 - x) = 2 / ((1 + x) * (1 - x)) := by field_simp; ring
  rw [u3] at hq
  have hx12 : (1 + x) * (1 - x) ≠ 0 := mul_ne_zero hx2 hx1
  have hq2 : 2 / ((1 + x) * (1 - x)) * ((1 + x) * (1 - x)) = 2 := div_mul_cancel₀ _ hx12
  linear_combination ((1 + x) * (1 - x)) * hq * (1 : ℝ) + hq2 - (wt (N + 1) v i * (legendre N).eval x) * hSx

end Elliptica.Legendre
