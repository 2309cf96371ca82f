import Verif.Model.Integration
import Verif.Lemmas.Gauss
import Verif.Lemmas.RootRun
import Verif.Props.Cheb
import Verif.Props.Ylm
import Mathlib.Analysis.SpecialFunctions.Trigonometric.Chebyshev.Orthogonality
import Mathlib.Data.Nat.Factorial.Basic
/-!
Property C48, one dimension: the quadrature rules are exact for the polynomials they should be exact for, and the tables hold
the roots they should hold.
-/
namespace Elliptica.Integ
open Real Finset Polynomial Elliptica.Legendre

/-! ### Factorial -/

/-- **C48 (factorial).** `Factorial` is the factorial as long as that fits an int, overflows as soon as it does not, and
refuses negative arguments. -/
theorem C48_factorial (n : ℤ) : factorial n =
    if n < 0 then .abort else if n ≤ 12 then .ok (n.toNat.factorial : ℤ) else .ub := by
  unfold factorial
  by_cases h0 : n < 0
  · rw [if_pos h0, if_pos h0]
  rw [if_neg h0, if_neg h0]
  obtain ⟨k, rfl⟩ : ∃ k : ℕ, n = k := ⟨n.toNat, by omega⟩
  have hub : ∀ m, factorialNat (13 + m) = .ub := by
    intro m
    induction m with
    | zero => rfl
    | succ m ih => rw [← Nat.add_assoc, factorialNat, ih]; rfl
  by_cases h : (k : ℤ) ≤ 12
  · rw [if_pos h]
    have h' : k ≤ 12 := by omega
    simp only [Int.toNat_natCast]
    interval_cases k <;> rfl
  · rw [if_neg h, Int.toNat_natCast]
    obtain ⟨m, rfl⟩ : ∃ m, k = 13 + m := ⟨k - 13, by omega⟩
    exact hub m

/-! ### Simpson -/

theorem simpson_sum (g : ℕ → ℝ) (m : ℕ) :
    g 0 + g (2 * m) + 2 * (∑ j ∈ Ico 1 (2 * m), if j % 2 = 0 then g j else 0) +
      4 * (∑ j ∈ Ico 1 (2 * m), if j % 2 = 0 then 0 else g j) =
    (if m = 0 then 2 * g 0 else 0) + ∑ k ∈ range m, (g (2 * k) + 4 * g (2 * k + 1) + g (2 * k + 2)) := by
  induction m with
  | zero => simp; ring
  | succ m ih =>
    rw [sum_range_succ, if_neg (by omega)]
    rcases Nat.eq_zero_or_pos m with rfl | hm
    · simp; ring
    · rw [if_neg (by omega)] at ih
      have e1 : Ico 1 (2 * (m + 1)) = insert (2 * m + 1) (insert (2 * m) (Ico 1 (2 * m))) := by
        ext x; simp only [mem_Ico, mem_insert]; omega
      have n1 : 2 * m + 1 ∉ insert (2 * m) (Ico 1 (2 * m)) := by simp
      have n2 : 2 * m ∉ Ico 1 (2 * m) := by simp
      rw [e1, sum_insert n1, sum_insert n2, sum_insert n1, sum_insert n2]
      simp only [show (2 * m + 1) % 2 = 1 by omega, show (2 * m) % 2 = 0 by omega, if_true, one_ne_zero, if_false]
      rw [show 2 * (m + 1) = 2 * m + 2 by ring]
      linarith

/-- a cubic -/
theorem cubic_eval (p : ℝ[X]) (hp : p.degree < 4) (x : ℝ) :
    p.eval x = p.coeff 0 + p.coeff 1 * x + p.coeff 2 * x ^ 2 + p.coeff 3 * x ^ 3 := by
  rw [eval_eq_sum_range' (n := 4) (by
    by_cases h0 : p = 0
    · simp [h0]
    · exact (natDegree_lt_iff_degree_lt h0).2 (by exact_mod_cast hp)) x]
  simp [sum_range_succ]

theorem cubic_simpson (p : ℝ[X]) (hp : p.degree < 4) (x h : ℝ) :
    ∫ t in x..(x + 2 * h), p.eval t = h / 3 * (p.eval x + 4 * p.eval (x + h) + p.eval (x + 2 * h)) := by
  let P : ℝ[X] := C (p.coeff 0) * Polynomial.X + C (p.coeff 1 / 2) * Polynomial.X ^ 2 + C (p.coeff 2 / 3) * Polynomial.X ^ 3 +
    C (p.coeff 3 / 4) * Polynomial.X ^ 4
  have hd : derivative P = p := by
    apply Polynomial.funext
    intro y
    rw [cubic_eval p hp y]
    simp [P, derivative_X_pow]
    ring
  have := int_deriv P x (x + 2 * h)
  rw [hd] at this
  rw [this]
  simp only [cubic_eval p hp, P, eval_add, eval_mul, eval_C, eval_X, eval_pow]
  ring

/-- **C48 (Simpson).** With an odd number n ≥ 3 of equidistant points from a to b, Simpson's rule returns the integral of any
cubic exactly. -/
theorem C48_simpson (n : ℕ) (hn : 3 ≤ n) (hodd : n % 2 = 1) (a b : ℝ) (p : ℝ[X]) (hp : p.degree < 4) (f : ℕ → ℝ)
    (hf : ∀ j < n, f j = p.eval (a + j * ((b - a) / ((n : ℝ) - 1)))) : simpson n a b f = .ok (∫ x in a..b, p.eval x) := by
  unfold simpson
  rw [if_neg (by omega), if_neg (by omega)]
  dsimp only
  congr 1
  obtain ⟨m, rfl⟩ : ∃ m, n = 2 * m + 1 := ⟨n / 2, by omega⟩
  have hm : 0 < m := by omega
  have hm' : (m : ℝ) ≠ 0 := by positivity
  simp only [Nat.add_sub_cancel]
  set h := (b - a) / (((2 * m + 1 : ℕ) : ℝ) - 1) with hh
  rw [simpson_sum f m, if_neg (by omega), zero_add]
  have key : ∀ k, k ≤ m → ∫ x in a..(a + 2 * k * h), p.eval x = h / 3 * ∑ i ∈ range k, (f (2 * i) + 4 * f (2 * i + 1) + f (2 * i + 2)) := by
    intro k
    induction k with
    | zero => intro _; simp
    | succ k ih =>
      intro hk
      have h1 := ih (by omega)
      rw [← intervalIntegral.integral_add_adjacent_intervals (b := a + 2 * k * h) (integrable p _ _) (integrable p _ _), h1,
        sum_range_succ, mul_add]
      congr 1
      have h2 := cubic_simpson p hp (a + 2 * k * h) h
      rw [show a + 2 * ((k + 1 : ℕ) : ℝ) * h = a + 2 * k * h + 2 * h by push_cast; ring, h2, hf _ (by omega), hf _ (by omega),
        hf _ (by omega)]
      push_cast
      rw [show a + 2 * (k : ℝ) * h + h = a + (2 * k + 1) * h by ring, show a + 2 * (k : ℝ) * h + 2 * h = a + (2 * k + 2) * h by ring]
  have := key m le_rfl
  rw [show a + 2 * (m : ℝ) * h = b by rw [hh]; push_cast; field_simp; ring] at this
  rw [this]; ring

example : simpson 5 0 1 (fun j => (X ^ 3 : ℝ[X]).eval (j / 4)) = .ok (1 / 4) := by
  rw [C48_simpson 5 (by norm_num) (by norm_num) 0 1 (X ^ 3) (by rw [degree_X_pow]; norm_num)]
  · have h := int_deriv (C (1 / 4) * X ^ 4) 0 1
    have e : derivative (C (1 / 4) * X ^ 4 : ℝ[X]) = X ^ 3 := by
      apply Polynomial.funext; intro y; simp [derivative_X_pow]; ring
    rw [e] at h
    rw [h]; congr 1; simp
  · intro j _; congr 1; norm_num; ring

/-- An even number of points is refused; a single point divides by zero. -/
theorem C48_simpson_refused (n : ℕ) (h : n % 2 = 0) (a b : ℝ) (f : ℕ → ℝ) : simpson n a b f = .abort := by
  unfold simpson; rw [if_pos (by omega)]
theorem C48_simpson_one_violation (a b : ℝ) (f : ℕ → ℝ) : simpson 1 a b f = .ub := by
  unfold simpson; simp

/-! ### Chebyshev extrema -/

/-- two linear maps that agree on T_0 .. T_{m-1} agree on all polynomials of degree < m -/
theorem cheb_span (A B : ℝ[X] → ℝ) (hA : ∀ (c : ℝ) (p q : ℝ[X]), A (p + C c * q) = A p + c * A q)
    (hB : ∀ (c : ℝ) (p q : ℝ[X]), B (p + C c * q) = B p + c * B q) (m : ℕ)
    (h : ∀ k < m, A (Chebyshev.T ℝ k) = B (Chebyshev.T ℝ k)) (p : ℝ[X]) (hp : p.degree < m) : A p = B p := by
  induction m generalizing p with
  | zero =>
    have hp0 : p = 0 := by
      rw [← degree_eq_bot]
      exact_mod_cast (Nat.WithBot.lt_zero_iff.mp (by exact_mod_cast hp))
    have a := hA (-1) 0 0
    have b := hB (-1) 0 0
    subst hp0
    simp at a b
    rw [a, b]
  | succ m ih =>
    let T := Chebyshev.T ℝ (m : ℤ)
    have hT : T.leadingCoeff = 2 ^ (m - 1) := by have := Chebyshev.leadingCoeff_T ℝ (m : ℤ); rwa [Int.natAbs_natCast] at this
    have hTd : T.degree = m := by have := Chebyshev.degree_T ℝ (m : ℤ); rwa [Int.natAbs_natCast] at this
    let c := p.coeff m / 2 ^ (m - 1)
    have e : p = (p - C c * T) + C c * T := by ring
    have hd : (p - C c * T).degree < m := by
      rw [degree_lt_iff_coeff_zero]
      intro k hk
      rw [coeff_sub, coeff_C_mul]
      rcases Nat.eq_or_lt_of_le hk with h1 | h1
      · subst h1
        have : T.coeff m = 2 ^ (m - 1) := by
          rw [← hT, leadingCoeff, natDegree_eq_of_degree_eq_some hTd]
        rw [this]
        simp only [c]
        field_simp; ring
      · rw [coeff_eq_zero_of_degree_lt (lt_of_lt_of_le hp (by exact_mod_cast h1)),
          coeff_eq_zero_of_degree_lt (by rw [hTd]; exact_mod_cast h1)]
        ring
    rw [e, hA, hB, ih (fun k hk => h k (by omega)) _ hd, h m (by omega)]

/-- **C48 (Chebyshev).** With n ≥ 2 values at the Chebyshev extrema, ordered from -1 to 1, the rule returns
∫ p(x)/√(1-x²) dx exactly for every polynomial of degree at most 2n-3. -/
theorem C48_chebyshev (n : ℕ) (hn : 2 ≤ n) (p : ℝ[X]) (hp : p.degree < (2 * n - 2 : ℕ)) (f : ℕ → ℝ)
    (hf : ∀ i < n, f i = p.eval (-cos (i * π / ((n : ℝ) - 1)))) :
    gqCheb n f = .ok (∫ x in (-1 : ℝ)..1, p.eval x / √(1 - x ^ 2)) := by
  unfold gqCheb
  rw [if_neg (by omega), if_neg (by omega)]
  dsimp only
  congr 1
  obtain ⟨N, rfl⟩ : ∃ N, n = N + 1 := ⟨n - 1, by omega⟩
  have hN : 0 < N := by omega
  have hN' : (N : ℝ) ≠ 0 := by positivity
  have e0 : ((N + 1 : ℕ) : ℝ) - 1 = N := by push_cast; ring
  rw [e0] at hf ⊢
  have lhs : ((∑ i ∈ Icc 1 (N + 1 - 2), f i) + (f 0 + f (N + 1 - 1)) / 2) * (π / N) =
      π / (2 * N) * ∑ i ∈ range (N + 1), Cheb.kap N i * p.eval (-cos (i * π / N)) := by
    rw [Cheb.sum_kap N hN (fun i => p.eval (-cos (i * π / N)))]
    have : Icc 1 (N + 1 - 2) = Ico 1 N := by ext x; simp; omega
    rw [this, Nat.add_sub_cancel, hf 0 (by omega), hf N (by omega), sum_congr rfl fun i hi => hf i (by simp at hi; omega)]
    have hr : ∀ g : ℕ → ℝ, ∑ i ∈ range (N + 1), g i = g 0 + ∑ i ∈ Ico 1 N, g i + g N := by
      intro g
      rw [sum_range_succ, range_eq_Ico, sum_eq_sum_Ico_succ_bot hN]
    rw [hr]
    push_cast
    simp only [zero_mul, zero_div]
    generalize ∑ i ∈ Ico 1 N, p.eval (-cos (i * π / N)) = S
    field_simp
    ring
  rw [lhs]
  have rhs : ∫ x in (-1 : ℝ)..1, p.eval x / √(1 - x ^ 2) = ∫ x, p.eval x ∂Chebyshev.measureT := by
    rw [Chebyshev.integral_measureT]
    refine intervalIntegral.integral_congr fun x _ => ?_
    simp only [Real.sqrt_inv]; rfl
  rw [rhs]
  refine cheb_span (fun p => π / (2 * N) * ∑ i ∈ range (N + 1), Cheb.kap N i * p.eval (-cos (i * π / N)))
    (fun p => ∫ x, p.eval x ∂Chebyshev.measureT) ?_ ?_ (2 * N) ?_ p (by simpa [show 2 * (N + 1) - 2 = 2 * N by omega] using hp)
  · intro c p q
    simp only [eval_add, eval_mul, eval_C, mul_add, sum_add_distrib]
    congr 1
    simp only [mul_sum]
    exact sum_congr rfl fun i _ => by ring
  · intro c p q
    have hi (p : ℝ[X]) : MeasureTheory.Integrable (fun x => p.eval x) Chebyshev.measureT :=
      Chebyshev.integrable_measureT fun x _ => (p.hasDerivAt x).continuousAt.continuousWithinAt
    simp only [eval_add, eval_mul, eval_C]
    rw [MeasureTheory.integral_add (hi p) ((hi q).const_mul c), MeasureTheory.integral_const_mul]
  · intro k hk
    have h1 : ∀ i : ℕ, (Chebyshev.T ℝ k).eval (-cos (i * π / N)) = (-1) ^ k * cos (i * ((k : ℤ) * π / N)) := by
      intro i
      rw [← cos_pi_sub, Chebyshev.T_real_cos]
      have : ((k : ℤ) : ℝ) * (π - i * π / N) = k * π - i * ((k : ℤ) * π / N) := by push_cast; ring
      rw [this, cos_sub, cos_nat_mul_pi, sin_nat_mul_pi]; ring
    simp only [h1]
    have h2 : ∑ i ∈ range (N + 1), Cheb.kap N i * ((-1) ^ k * cos (i * ((k : ℤ) * π / N))) =
        (-1) ^ k * if (2 * N : ℤ) ∣ k then 2 * (N : ℝ) else 0 := by
      rw [← Cheb.sum_kap_cos N hN k, mul_sum]
      exact sum_congr rfl fun i _ => by ring
    rw [h2]
    by_cases hk0 : k = 0
    · subst hk0
      have := Chebyshev.integral_eval_T_real_measureT_zero
      simp only [Nat.cast_zero, this]
      simp
      field_simp
    · rw [if_neg (by
        intro hc
        have := Int.le_of_dvd (by omega) hc
        omega)]
      have := Chebyshev.integral_eval_T_real_measureT_of_ne_zero (n := (k : ℤ)) (by exact_mod_cast hk0)
      simp only [this]; ring

example : gqCheb 3 (fun i => (X ^ 2 : ℝ[X]).eval (-cos (i * π / (((3 : ℕ) : ℝ) - 1)))) =
    .ok (∫ x in (-1 : ℝ)..1, (X ^ 2 : ℝ[X]).eval x / √(1 - x ^ 2)) :=
  C48_chebyshev 3 (by norm_num) _ (by rw [degree_X_pow]; norm_num) _ fun _ _ => rfl

/-- With a single value the rule reads outside the array; with none it stops. -/
theorem C48_chebyshev_one_violation (f : ℕ → ℝ) : gqCheb 1 f = .ub := by unfold gqCheb; simp
theorem C48_chebyshev_zero (f : ℕ → ℝ) : gqCheb 0 f = .abort := by unfold gqCheb; simp

/-! ### Gauss-Legendre -/

theorem resSum_ok (f : ℕ → Res ℝ) (g : ℕ → ℝ) (n : ℕ) (h : ∀ i < n, f i = .ok (g i)) :
    resSum f n = .ok (∑ i ∈ range n, g i) := by
  induction n with
  | zero => rfl
  | succ n ih =>
    unfold resSum
    rw [ih fun i hi => h i (by omega), Res.bind_ok, h n (by omega), Res.bind_ok, sum_range_succ]

/-- The integral of p over [-1,1]. -/
noncomputable abbrev whole (p : ℝ[X]) : ℝ := ∫ x in (-1 : ℝ)..1, p.eval x

/-- **C48 (Legendre).** When row n of the table holds the n roots of the Legendre polynomial P_n, the rule with the values at
these roots returns the integral exactly for every polynomial of degree at most 2n-1. -/
theorem C48_legendre (n : ℕ) (h0 : 0 < n) (hn : n < 100) (tab : ℕ → ℕ → ℝ) (hd : Set.InjOn (tab n) (range n))
    (hr : ∀ i < n, (legendre n).eval (tab n i) = 0) (hin : ∀ i < n, tab n i ∈ Set.Icc (-1) 1)
    (p : ℝ[X]) (hp : p.degree < (2 * n : ℕ)) : gqLegendre tab n (fun i => p.eval (tab n i)) = .ok (whole p) := by
  unfold gqLegendre
  rw [if_neg (by omega)]
  have hw : ∀ i < n, legWeight (tab n i) n = .ok (wt n (tab n) i) := by
    intro i hi
    obtain ⟨h1, h2⟩ := gauss_weight n (tab n) hd hr i hi
    unfold legWeight Ylm.dAssocLegendre
    rw [if_neg (by omega), if_neg (by omega), if_pos rfl]
    have := Ylm.C47_legendre n 1 (by omega) (tab n i) (hin i hi)
    rw [Nat.cast_one] at this
    rw [this, Res.bind_ok, Res.bind_ok]
    congr 1
    have hx : 0 < 1 - tab n i ^ 2 := lt_of_le_of_ne (by have := hin i hi; nlinarith [this.1, this.2]) (Ne.symm h2)
    have hdiv : (((n : ℤ) + 0) * ((n : ℤ) - 0 + 1)).tdiv ((n : ℤ) * ((n : ℤ) + 1)) = 1 := by
      rw [add_zero, sub_zero]; exact Int.tdiv_self (by positivity)
    rw [hdiv]
    have ha : assoc n 1 (tab n i) = -(√(1 - tab n i ^ 2) * (derivative (legendre n)).eval (tab n i)) := by
      unfold assoc; simp
    rw [ha]
    push_cast
    have hsq : √(1 - tab n i ^ 2) ^ 2 = 1 - tab n i ^ 2 := Real.sq_sqrt hx.le
    have hne : (derivative (legendre n)).eval (tab n i) ≠ 0 := by
      intro hc; rw [hc] at h1; norm_num at h1
    rw [show (-(-2 * -(√(1 - tab n i ^ 2) * (derivative (legendre n)).eval (tab n i))) * (1 / 2)) ^ 2 =
      √(1 - tab n i ^ 2) ^ 2 * (derivative (legendre n)).eval (tab n i) ^ 2 by ring, hsq]
    rw [div_eq_iff (by positivity)]
    linarith
  rw [resSum_ok _ (fun i => wt n (tab n) i * p.eval (tab n i)) n]
  · rw [← gauss_exact n (tab n) hd hr p hp]; rfl
  · intro i hi
    unfold legRoot
    rw [if_neg (by omega), if_neg (by omega), Res.bind_ok, hw i hi, Res.bind_ok]

/-- The table is too short for 100 points or more, and no points at all are refused. -/
theorem C48_legendre_refused (n : ℕ) (h : n = 0 ∨ 100 ≤ n) (tab : ℕ → ℕ → ℝ) (f : ℕ → ℝ) : gqLegendre tab n f = .abort := by
  unfold gqLegendre
  rcases h with h | h
  · rw [if_pos h]
  · rw [if_neg (by omega)]
    obtain ⟨m, rfl⟩ : ∃ m, n = m + 1 := ⟨n - 1, by omega⟩
    have : ∀ k, resSum (fun i => (legRoot tab i (m + 1)).bind fun x => (legWeight x (m + 1)).bind fun w => .ok (w * f i)) (k + 1) = .abort := by
      intro k
      induction k with
      | zero => simp only [resSum, legRoot, if_pos h, Res.bind_ok, Res.bind_abort]
      | succ k ih => rw [resSum, ih, Res.bind_abort]
    exact this m

/-! ### Gauss-Lobatto -/

/-- the nodes of the rule with n points: -1, the roots in row n-1 of the table, 1 -/
noncomputable def lobNode (tab : ℕ → ℕ → ℝ) (n i : ℕ) : ℝ := if i = 0 then -1 else if i = n - 1 then 1 else tab (n - 1) (i - 1)

/-- **C48 (Lobatto).** When row n-1 of the table holds the n-2 roots of the derivative of P_{n-1}, the rule with the values at
-1, these roots and 1 returns the integral exactly for every polynomial of degree at most 2n-3. -/
theorem C48_lobatto (e : ℝ) (n : ℕ) (h0 : 2 ≤ n) (hn : n ≤ 35) (tab : ℕ → ℕ → ℝ)
    (hd : Set.InjOn (tab (n - 1)) (range (n - 2))) (hr : ∀ i < n - 2, (derivative (legendre (n - 1))).eval (tab (n - 1) i) = 0)
    (hin : ∀ i < n - 2, tab (n - 1) i ∈ Set.Icc (-1) 1)
    (he : ∀ i < n - 2, Tol.eql e (tab (n - 1) i) 1 = false ∧ Tol.eql e (tab (n - 1) i) (-1) = false)
    (p : ℝ[X]) (hp : p.degree < (2 * n - 2 : ℕ)) : gqLobatto e tab n (fun i => p.eval (lobNode tab n i)) = .ok (whole p) := by
  obtain ⟨N, rfl⟩ : ∃ N, n = N + 1 := ⟨n - 1, by omega⟩
  have e2 : N + 1 - 2 = N - 1 := by omega
  simp only [Nat.add_sub_cancel, e2] at hd hr hin he
  unfold gqLobatto
  rw [if_neg (by omega), e2, Nat.add_sub_cancel]
  set v := lobNode tab (N + 1) with hv
  have v0 : v 0 = -1 := by simp [hv, lobNode]
  have vN : v N = 1 := by simp [hv, lobNode]; omega
  have vi : ∀ k < N - 1, v (k + 1) = tab N k := by
    intro k hk
    simp only [hv, lobNode, Nat.add_sub_cancel]
    rw [if_neg (by omega), if_neg (by omega)]
  have hroot : ∀ i, 0 < i → i < N → (derivative (legendre N)).eval (v i) = 0 := by
    intro i h1 h2
    obtain ⟨k, rfl⟩ : ∃ k, i = k + 1 := ⟨i - 1, by omega⟩
    rw [vi k (by omega)]; exact hr k (by omega)
  have hNpos : (0 : ℝ) < N := by exact_mod_cast (by omega : 0 < N)
  have ne1 : ∀ i, 0 < i → i < N → v i ≠ 1 := by
    intro i h1 h2 hc
    have := hroot i h1 h2
    rw [hc, dP_one] at this
    have : (0 : ℝ) < N * (N + 1) / 2 := by positivity
    linarith
  have ne2 : ∀ i, 0 < i → i < N → v i ≠ -1 := by
    intro i h1 h2 hc
    have := hroot i h1 h2
    rw [hc, dP_neg_one] at this
    have h3 : (0 : ℝ) < N * (N + 1) / 2 := by positivity
    rcases neg_one_pow_eq_or ℝ N with h4 | h4 <;> rw [h4] at this <;> linarith
  have inj : Set.InjOn v (range (N + 1)) := by
    intro a ha b hb hab
    simp only [coe_range, Set.mem_Iio] at ha hb
    rcases Nat.eq_zero_or_pos a with rfl | ha0
    · rcases Nat.eq_zero_or_pos b with rfl | hb0
      · rfl
      · rcases Nat.lt_or_ge b N with h | h
        · rw [v0] at hab; exact absurd hab.symm (ne2 b hb0 h)
        · obtain rfl : b = N := by omega
          rw [v0, vN] at hab; norm_num at hab
    · rcases Nat.lt_or_ge a N with h | h
      · rcases Nat.eq_zero_or_pos b with rfl | hb0
        · rw [v0] at hab; exact absurd hab (ne2 a ha0 h)
        · rcases Nat.lt_or_ge b N with h' | h'
          · obtain ⟨k, rfl⟩ : ∃ k, a = k + 1 := ⟨a - 1, by omega⟩
            obtain ⟨l, rfl⟩ : ∃ l, b = l + 1 := ⟨b - 1, by omega⟩
            rw [vi k (by omega), vi l (by omega)] at hab
            rw [hd (by simp; omega) (by simp; omega) hab]
          · obtain rfl : b = N := by omega
            rw [vN] at hab; exact absurd hab (ne1 a ha0 h)
      · obtain rfl : a = N := by omega
        rcases Nat.eq_zero_or_pos b with rfl | hb0
        · rw [v0, vN] at hab; norm_num at hab
        · rcases Nat.lt_or_ge b a with h' | h'
          · rw [vN] at hab; exact absurd hab.symm (ne1 b hb0 h')
          · omega
  obtain ⟨w0, wN, wi⟩ := lobatto_weight N (by omega) v inj v0 vN hroot
  have ex := lobatto_exact N (by omega) v inj (fun i hi => by
    rcases Nat.eq_zero_or_pos i with rfl | h1
    · rw [v0]; ring
    · rcases Nat.lt_or_ge i N with h2 | h2
      · rw [hroot i h1 h2, mul_zero]
      · obtain rfl : i = N := by omega
        rw [vN]; ring) p (by simpa [show 2 * (N + 1) - 2 = 2 * N by omega] using hp)
  rw [resSum_ok _ (fun k => wt (N + 1) v (k + 1) * p.eval (v (k + 1))) (N - 1)]
  · rw [Res.bind_ok]
    have hex : whole p = ii p := rfl
    rw [hex, ex, sum_range_succ]
    obtain ⟨M, rfl⟩ : ∃ M, N = M + 1 := ⟨N - 1, by omega⟩
    rw [sum_range_succ', w0, wN]
    simp only [Nat.add_sub_cancel]
    congr 1
    push_cast
    rw [show ((M : ℝ) + 1 + 1 - 1) = M + 1 by ring, show ((M : ℝ) + 1 + 1) * (M + 1) = (M + 1) * (M + 1 + 1) by ring]
    ring
  · intro k hk
    unfold lobRoot
    rw [if_neg (by omega), if_neg (by omega), Res.bind_ok]
    unfold lobWeight
    dsimp only
    rw [(he k hk).1, (he k hk).2]
    simp only [Bool.or_self, Bool.false_eq_true, if_false]
    have hc : (((N + 1 : ℕ) : ℤ) - 1) = (N : ℤ) := by push_cast; ring
    have := Ylm.C47_legendre N 0 (by omega) (tab N k) (hin k hk)
    rw [Nat.cast_zero] at this
    rw [hc, this, Res.bind_ok, Res.bind_ok]
    congr 2
    have hw := wi (k + 1) (by omega) (by omega)
    rw [vi k hk] at hw
    have ha : assoc N 0 (tab N k) = (legendre N).eval (tab N k) := by unfold assoc; simp
    rw [ha]
    have hne : (legendre N).eval (tab N k) ≠ 0 := by
      intro h; rw [h] at hw; norm_num at hw
    have : (((N + 1 : ℕ) : ℝ) * (((N + 1 : ℕ) : ℝ) - 1) * (legendre N).eval (tab N k) ^ 2) = N * (N + 1) * (legendre N).eval (tab N k) ^ 2 := by
      push_cast; ring
    rw [this, div_eq_iff (by positivity)]
    linarith

/-- More than 35 points and fewer than 2 are refused. -/
theorem C48_lobatto_refused (e : ℝ) (n : ℕ) (h : n ≤ 1 ∨ 36 ≤ n) (tab : ℕ → ℕ → ℝ) (f : ℕ → ℝ) : gqLobatto e tab n f = .abort := by
  unfold gqLobatto
  rcases h with h | h
  · rw [if_pos h]
  · rw [if_neg (by omega)]
    have : ∀ k, resSum (fun k => (lobRoot tab k (n - 1)).bind fun x => (lobWeight e x n).bind fun w => .ok (w * f (k + 1))) (k + 1) = .abort := by
      intro k
      induction k with
      | zero => simp only [resSum, lobRoot, if_pos (show n - 1 ≥ 35 by omega), Res.bind_ok, Res.bind_abort]
      | succ k ih => rw [resSum, ih, Res.bind_abort]
    obtain ⟨m, hm⟩ : ∃ m, n - 2 = m + 1 := ⟨n - 3, by omega⟩
    rw [hm, this m, Res.bind_abort]

/-! ### the tables -/

theorem D_eq : (RootTables.D : ℝ) = 10 ^ 19 := by unfold RootTables.D; norm_num

theorem leg_bound : (RootTables.legRow.all fun r => r.all fun a => decide (-9999999000000000000 < a ∧ a < 9999999000000000000)) = true := by
  decide +kernel
theorem lob_bound : (RootTables.lobRow.all fun r => r.all fun a => decide (-9999999000000000000 < a ∧ a < 9999999000000000000)) = true := by
  decide +kernel

theorem bound (t : List (List ℤ)) (h : (t.all fun r => r.all fun a => decide (-9999999000000000000 < a ∧ a < 9999999000000000000)) = true)
    (n i : ℕ) : |(((t.getD n []).getD i 0 : ℤ) : ℝ)| < 9999999000000000000 := by
  have key : -9999999000000000000 < (t.getD n []).getD i 0 ∧ (t.getD n []).getD i 0 < 9999999000000000000 := by
    rw [List.all_eq_true] at h
    by_cases hn : n < t.length
    · have h1 := h t[n] (List.getElem_mem hn)
      rw [List.all_eq_true] at h1
      rw [show t.getD n [] = t[n] by simp [List.getD, List.getElem?_eq_getElem hn]]
      by_cases hi : i < t[n].length
      · have h2 := h1 t[n][i] (List.getElem_mem hi)
        rw [show t[n].getD i 0 = t[n][i] by simp [List.getD, List.getElem?_eq_getElem hi]]
        simpa using h2
      · rw [show t[n].getD i 0 = 0 by simp [List.getD, List.getElem?_eq_none (not_lt.mp hi)]]
        norm_num
    · rw [show t.getD n [] = [] by simp [List.getD, List.getElem?_eq_none (not_lt.mp hn)]]
      simp
  rw [abs_lt]
  constructor <;> exact_mod_cast (by first | exact key.1 | exact key.2)

theorem near (x : ℝ) (a : ℤ) (h : |x - (a : ℝ) / 10 ^ 19| ≤ 10 / 10 ^ 19) (hb : |(a : ℝ)| < 9999999000000000000) : |x| < 1 - 1e-8 := by
  have h1 := abs_le.mp h
  have h2 := abs_lt.mp hb
  have h3 : (a : ℝ) / 10 ^ 19 < 9999999000000000000 / 10 ^ 19 := by gcongr; exact h2.2
  have h4 : -9999999000000000000 / 10 ^ 19 < (a : ℝ) / 10 ^ 19 := by gcongr; exact h2.1
  rw [abs_lt]
  norm_num at h1 h3 h4 ⊢
  constructor <;> linarith [h1.1, h1.2]

/-- **C48 (table of Legendre roots).** Row n of the table holds, in increasing order, approximations of all the roots of P_n,
each within 10⁻¹⁸ of its root. -/
theorem C48_legendre_table (n : ℕ) (hn : n < 100) :
    ∃ x : ℕ → ℝ, (∀ i < n, (legendre n).eval (x i) = 0 ∧ |x i - legTable n i| ≤ 1e-18 ∧ |x i| < 1 - 1e-8) ∧
      (∀ i j, i < j → j < n → x i < x j) ∧ ∀ y, (legendre n).eval y = 0 → ∃ i < n, y = x i := by
  obtain ⟨_, v, h1, h2⟩ := RootTables.leg_row n hn
  refine ⟨v, fun i hi => ⟨(h1 i hi).1, ?_, ?_⟩, h2, fun y hy => ?_⟩
  · have := (h1 i hi).2
    rw [D_eq] at this
    unfold legTable
    exact this.trans (by norm_num)
  · have := (h1 i hi).2
    rw [D_eq] at this
    exact near _ _ this (bound _ leg_bound n i)
  · by_contra hc
    push Not at hc
    have inj : Set.InjOn v (range n) := by
      intro a ha b hb hab
      simp only [coe_range, Set.mem_Iio] at ha hb
      rcases Nat.lt_trichotomy a b with h | h | h
      · exact absurd hab (h2 a b h hb).ne
      · exact h
      · exact absurd hab (h2 b a h ha).ne'
    have hsub : insert y ((range n).image v) ⊆ (legendre n).roots.toFinset := by
      intro z hz
      rw [Multiset.mem_toFinset, mem_roots (legendre_ne_zero n), IsRoot]
      rcases mem_insert.mp hz with rfl | hz
      · exact hy
      · obtain ⟨i, hi, rfl⟩ := mem_image.mp hz
        exact (h1 i (mem_range.mp hi)).1
    have hny : y ∉ (range n).image v := by
      intro h
      obtain ⟨i, hi, h3⟩ := mem_image.mp h
      exact hc i (mem_range.mp hi) h3.symm
    have := card_le_card hsub
    rw [card_insert_of_notMem hny, card_image_of_injOn inj, card_range] at this
    have h4 := (Multiset.toFinset_card_le (legendre n).roots).trans ((card_roots' _).trans (natDegree_legendre n))
    omega

/-- **C48 (table of Lobatto roots).** Row N of the table holds, in increasing order, approximations of all the roots of the
derivative of P_N, each within 10⁻¹⁸ of its root. -/
theorem C48_lobatto_table (N : ℕ) (h1 : 1 ≤ N) (hN : N < 35) :
    ∃ x : ℕ → ℝ, (∀ i < N - 1, (derivative (legendre N)).eval (x i) = 0 ∧ |x i - lobTable N i| ≤ 1e-18 ∧ |x i| < 1 - 1e-8) ∧
      (∀ i j, i < j → j < N - 1 → x i < x j) ∧ ∀ y, (derivative (legendre N)).eval y = 0 → ∃ i < N - 1, y = x i := by
  obtain ⟨_, v, hv, h2⟩ := RootTables.lob_row N hN
  refine ⟨v, fun i hi => ⟨(hv i hi).1, ?_, ?_⟩, h2, fun y hy => ?_⟩
  · have := (hv i hi).2
    rw [D_eq] at this
    unfold lobTable
    exact this.trans (by norm_num)
  · have := (hv i hi).2
    rw [D_eq] at this
    exact near _ _ this (bound _ lob_bound N i)
  · by_contra hc
    push Not at hc
    have inj : Set.InjOn v (range (N - 1)) := by
      intro a ha b hb hab
      simp only [coe_range, Set.mem_Iio] at ha hb
      rcases Nat.lt_trichotomy a b with h | h | h
      · exact absurd hab (h2 a b h hb).ne
      · exact h
      · exact absurd hab (h2 b a h ha).ne'
    have hne : derivative (legendre N) ≠ 0 := by
      intro h
      have := dP_one N
      rw [h, eval_zero] at this
      have : (0 : ℝ) < N * (N + 1) / 2 := by
        have : (0 : ℝ) < N := by exact_mod_cast h1
        positivity
      linarith
    have hsub : insert y ((range (N - 1)).image v) ⊆ (derivative (legendre N)).roots.toFinset := by
      intro z hz
      rw [Multiset.mem_toFinset, mem_roots hne, IsRoot]
      rcases mem_insert.mp hz with rfl | hz
      · exact hy
      · obtain ⟨i, hi, rfl⟩ := mem_image.mp hz
        exact (hv i (mem_range.mp hi)).1
    have hny : y ∉ (range (N - 1)).image v := by
      intro h
      obtain ⟨i, hi, h3⟩ := mem_image.mp h
      exact hc i (mem_range.mp hi) h3.symm
    have := card_le_card hsub
    rw [card_insert_of_notMem hny, card_image_of_injOn inj, card_range] at this
    have h4 := (Multiset.toFinset_card_le (derivative (legendre N)).roots).trans ((card_roots' _).trans (natDegree_derivative_le _))
    have h5 := natDegree_legendre N
    omega

/-- The hypotheses of C48_legendre hold for every n from 1 to 99 with a table that is within 10⁻¹⁸ of the one in the code, and
those of C48_lobatto for every n from 2 to 35. -/
example : ∃ tab : ℕ → ℕ → ℝ, ∀ n, 0 < n → n < 100 → (∀ i < n, |tab n i - legTable n i| ≤ 1e-18) ∧
    ∀ p : ℝ[X], p.degree < (2 * n : ℕ) → gqLegendre tab n (fun i => p.eval (tab n i)) = .ok (whole p) := by
  have h : ∀ n, ∃ x : ℕ → ℝ, n < 100 → (∀ i < n, (legendre n).eval (x i) = 0 ∧ |x i - legTable n i| ≤ 1e-18 ∧ |x i| < 1 - 1e-8) ∧
      (∀ i j, i < j → j < n → x i < x j) := by
    intro n
    by_cases hn : n < 100
    · obtain ⟨x, h1, h2, _⟩ := C48_legendre_table n hn
      exact ⟨x, fun _ => ⟨h1, h2⟩⟩
    · exact ⟨fun _ => 0, fun h => absurd h hn⟩
  choose tab ht using h
  refine ⟨tab, fun n h0 hn => ⟨fun i hi => ((ht n hn).1 i hi).2.1, fun p hp => ?_⟩⟩
  refine C48_legendre n h0 hn tab ?_ (fun i hi => ((ht n hn).1 i hi).1) (fun i hi => ?_) p hp
  · intro a ha b hb hab
    simp only [coe_range, Set.mem_Iio] at ha hb
    rcases Nat.lt_trichotomy a b with h | h | h
    · exact absurd hab ((ht n hn).2 a b h hb).ne
    · exact h
    · exact absurd hab ((ht n hn).2 b a h ha).ne'
  · have := abs_lt.mp ((ht n hn).1 i hi).2.2
    exact ⟨by linarith [this.1], by linarith [this.2]⟩

example (e : ℝ) (he : e ≤ 1e-8) : ∃ tab : ℕ → ℕ → ℝ, ∀ n, 2 ≤ n → n ≤ 35 → (∀ i < n - 2, |tab (n - 1) i - lobTable (n - 1) i| ≤ 1e-18) ∧
    ∀ p : ℝ[X], p.degree < (2 * n - 2 : ℕ) → gqLobatto e tab n (fun i => p.eval (lobNode tab n i)) = .ok (whole p) := by
  have h : ∀ N, ∃ x : ℕ → ℝ, 1 ≤ N → N < 35 → (∀ i < N - 1, (derivative (legendre N)).eval (x i) = 0 ∧
      |x i - lobTable N i| ≤ 1e-18 ∧ |x i| < 1 - 1e-8) ∧ (∀ i j, i < j → j < N - 1 → x i < x j) := by
    intro N
    by_cases hn : 1 ≤ N ∧ N < 35
    · obtain ⟨x, h1, h2, _⟩ := C48_lobatto_table N hn.1 hn.2
      exact ⟨x, fun _ _ => ⟨h1, h2⟩⟩
    · exact ⟨fun _ => 0, fun h h' => absurd ⟨h, h'⟩ hn⟩
  choose tab ht using h
  refine ⟨tab, fun n h0 hn => ?_⟩
  obtain ⟨h1, h2⟩ := ht (n - 1) (by omega) (by omega)
  rw [show n - 1 - 1 = n - 2 by omega] at h1 h2
  refine ⟨fun i hi => (h1 i hi).2.1, fun p hp => C48_lobatto e n h0 hn tab ?_ (fun i hi => (h1 i hi).1) (fun i hi => ?_)
    (fun i hi => ?_) p hp⟩
  · intro a ha b hb hab
    simp only [coe_range, Set.mem_Iio] at ha hb
    rcases Nat.lt_trichotomy a b with h | h | h
    · exact absurd hab (h2 a b h hb).ne
    · exact h
    · exact absurd hab (h2 b a h ha).ne'
  · have := abs_lt.mp (h1 i hi).2.2
    exact ⟨by linarith [this.1], by linarith [this.2]⟩
  · have := abs_lt.mp (h1 i hi).2.2
    unfold Tol.eql
    constructor
    · simp only [Bool.and_eq_false_iff, decide_eq_false_iff_not, not_lt]; right; linarith [this.2]
    · simp only [Bool.and_eq_false_iff, decide_eq_false_iff_not, not_lt]; left; linarith [this.1]

end Elliptica.Integ
