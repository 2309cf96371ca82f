import Verif.Model.Fourier
import Verif.Lemmas.Trig
import Mathlib.Algebra.Field.GeomSum
import Mathlib.Algebra.BigOperators.Field
import Mathlib.Tactic.Ring
import Mathlib.Analysis.SpecialFunctions.ExpDeriv
import Mathlib.Analysis.Complex.RealDeriv
import Mathlib.Tactic.FieldSimp
import Mathlib.Tactic.NormNum
/-!
Property C42: Fourier transformations.
-/
namespace Elliptica.Fourier
open Finset Complex

/-- the sample points 2πi/N -/
noncomputable def pt (N i : ℕ) : ℝ := i * (2 * Real.pi / N)

/-- The real trigonometric polynomial of degree at most K with amplitudes a (cosines) and b (sines). -/
noncomputable def trig (K : ℕ) (a b : ℕ → ℝ) (x : ℝ) : ℝ :=
  ∑ k ∈ range (K + 1), (a k * Real.cos (k * x) + b k * Real.sin (k * x))

/-- The function the coefficients stand for (comment fourier_transformation.c:74-77):
f(x) = Σ_{m=-l+1}^{l-1} c(m) exp(i m x) with c(-m) the conjugate of c(m). -/
noncomputable def series (N : ℕ) (c : ℕ → ℂ) (x : ℝ) : ℝ :=
  (c 0).re + ∑ j ∈ Ico 1 (N / 2 + 1), 2 * (c j * cexp (I * (j * x))).re

theorem value_eq_series (N : ℕ) (c : ℕ → ℂ) (i : ℕ) : value N c i = series N c (pt N i) := by
  unfold value series pt
  congr 1
  apply sum_congr rfl
  intro j _
  have : (j : ℂ) * (i * (2 * I * Real.pi / N)) = I * (j * ((i * (2 * Real.pi / N) : ℝ) : ℂ)) := by push_cast; ring
  rw [this]

/-- orthogonality: a sum of N-th roots of unity -/
theorem sum_roots (N : ℕ) (hN : 0 < N) (k : ℤ) :
    ∑ i ∈ range N, cexp (i * (k * (2 * Real.pi * I / N))) = if (N : ℤ) ∣ k then (N : ℂ) else 0 := by
  have hN' : (N : ℂ) ≠ 0 := by exact_mod_cast hN.ne'
  have h1 : ∀ i ∈ range N, cexp (i * (k * (2 * Real.pi * I / N))) = cexp (k * (2 * Real.pi * I / N)) ^ i := by
    intro i _; rw [← Complex.exp_nat_mul]
  rw [sum_congr rfl h1]
  split
  · rename_i h
    obtain ⟨m, rfl⟩ := h
    have : cexp (((N * m : ℤ) : ℂ) * (2 * Real.pi * I / N)) = 1 := by
      rw [Complex.exp_eq_one_iff]; exact ⟨m, by push_cast; field_simp⟩
    rw [this]; simp
  · rename_i h
    have hne : cexp ((k : ℂ) * (2 * Real.pi * I / N)) ≠ 1 := by
      rw [Ne, Complex.exp_eq_one_iff]
      rintro ⟨m, hm⟩
      apply h
      have hp : (2 * Real.pi * I : ℂ) ≠ 0 := by
        simp [Real.pi_ne_zero]
      have : (k : ℂ) = N * m := by
        field_simp at hm; exact hm
      exact ⟨m, by exact_mod_cast this⟩
    rw [geom_sum_eq hne, ← Complex.exp_nat_mul]
    have : cexp (N * ((k : ℂ) * (2 * Real.pi * I / N))) = 1 := by
      rw [Complex.exp_eq_one_iff]; exact ⟨k, by field_simp⟩
    rw [this]; simp

/-- the coefficients of one real harmonic -/
theorem coeff_harmonic (N : ℕ) (hN : 0 < N) (k m : ℕ) (hk : 2 * k < N) (hm : m ≤ N / 2) (A : ℂ) :
    coeff N (fun i => (A * cexp (I * (k * pt N i))).re) m =
      if m = k then (if k = 0 then (A.re : ℂ) else A / 2) else 0 := by
  have hN' : (N : ℂ) ≠ 0 := by exact_mod_cast hN.ne'
  have hre : ∀ z : ℂ, ((z.re : ℝ) : ℂ) = (z + (starRingEnd ℂ) z) / 2 := by
    intro z; rw [Complex.re_eq_add_conj]
  have h1 : ∀ i ∈ range N, (((A * cexp (I * (k * pt N i))).re : ℝ) : ℂ) * cexp (m * i * (-2 * I * Real.pi / N)) =
      A / 2 * cexp (i * (((k : ℤ) - m : ℤ) * (2 * Real.pi * I / N))) +
      (starRingEnd ℂ) A / 2 * cexp (i * ((-(k : ℤ) - m : ℤ) * (2 * Real.pi * I / N))) := by
    intro i _
    rw [hre, map_mul, ← Complex.exp_conj]
    have e1 : cexp (i * (((k : ℤ) - m : ℤ) * (2 * Real.pi * I / N))) =
        cexp (I * (k * pt N i)) * cexp (m * i * (-2 * I * Real.pi / N)) := by
      rw [← Complex.exp_add]; congr 1; unfold pt; push_cast; ring
    have e2 : cexp (i * ((-(k : ℤ) - m : ℤ) * (2 * Real.pi * I / N))) =
        cexp ((starRingEnd ℂ) (I * (k * pt N i))) * cexp (m * i * (-2 * I * Real.pi / N)) := by
      rw [← Complex.exp_add]; congr 1; unfold pt
      rw [map_mul, map_mul, Complex.conj_I, Complex.conj_ofReal, Complex.conj_natCast]
      push_cast; ring
    rw [e1, e2]; ring
  unfold coeff
  rw [sum_congr rfl h1, sum_add_distrib, ← mul_sum, ← mul_sum, sum_roots N hN, sum_roots N hN]
  have d1 : (N : ℤ) ∣ ((k : ℤ) - m) ↔ m = k := by
    constructor
    · intro h
      have := Int.eq_zero_of_abs_lt_dvd h (by rw [abs_lt]; constructor <;> omega)
      omega
    · rintro rfl; simp
  have d2 : (N : ℤ) ∣ (-(k : ℤ) - m) ↔ m = k ∧ k = 0 := by
    constructor
    · intro h
      have := Int.eq_zero_of_abs_lt_dvd h (by rw [abs_lt]; constructor <;> omega)
      omega
    · rintro ⟨rfl, rfl⟩; simp
  simp only [d1, d2]
  by_cases h : m = k
  · by_cases h0 : k = 0
    · simp only [h, h0, if_true, and_self]; rw [hre]; field_simp
    · simp only [h, h0, if_true, if_false, and_false]; field_simp; ring
  · simp [h]

theorem coeff_sum {ι : Type} (s : Finset ι) (N : ℕ) (g : ι → ℕ → ℝ) (m : ℕ) :
    coeff N (fun i => ∑ k ∈ s, g k i) m = ∑ k ∈ s, coeff N (g k) m := by
  unfold coeff
  rw [← sum_div, sum_comm]
  congr 1
  apply sum_congr rfl
  intro i _
  rw [Complex.ofReal_sum, sum_mul]

theorem trig_harmonics (K : ℕ) (a b : ℕ → ℝ) (x : ℝ) :
    trig K a b x = ∑ k ∈ range (K + 1), (((a k : ℂ) - b k * I) * cexp (I * (k * x))).re := by
  unfold trig
  apply sum_congr rfl
  intro k _
  have : I * ((k : ℂ) * x) = ((k * x : ℝ) : ℂ) * I := by push_cast; ring
  rw [this]
  generalize (k : ℝ) * x = t
  rw [Complex.exp_mul_I, ← Complex.ofReal_cos, ← Complex.ofReal_sin]
  simp only [Complex.mul_re, Complex.sub_re, Complex.add_re, Complex.ofReal_re, Complex.ofReal_im, Complex.I_re,
    Complex.I_im, Complex.sub_im, Complex.add_im, Complex.mul_im]
  ring

/-- C42: the coefficients of samples of a trigonometric polynomial of degree below half the number of points are the
exact amplitudes: c(0) = a_0, c(m) = (a_m - i b_m)/2 for 1 ≤ m ≤ K and zero above. -/
theorem C42_coeffs (N K : ℕ) (hK : 2 * K < N) (a b : ℕ → ℝ) (m : ℕ) (hm : m ≤ N / 2) :
    coeff N (fun i => trig K a b (pt N i)) m =
      if m ≤ K then (if m = 0 then (a 0 : ℂ) else ((a m : ℂ) - b m * I) / 2) else 0 := by
  have hN : 0 < N := by omega
  simp only [trig_harmonics]
  rw [coeff_sum]
  have : ∀ k ∈ range (K + 1), coeff N (fun i => (((a k : ℂ) - b k * I) * cexp (I * (k * (pt N i : ℂ)))).re) m =
      if m = k then (if k = 0 then (((a k : ℂ) - b k * I).re : ℂ) else ((a k : ℂ) - b k * I) / 2) else 0 := by
    intro k hk
    rw [mem_range] at hk
    exact coeff_harmonic N hN k m (by omega) hm _
  rw [sum_congr rfl this, sum_ite_eq]
  simp only [mem_range]
  by_cases h : m ≤ K
  · rw [if_pos (by omega), if_pos h]
    by_cases h0 : m = 0
    · subst h0; simp
    · simp [h0]
  · rw [if_neg (by omega), if_neg h]

/-- C42: the series with the computed coefficients is the sampled trigonometric polynomial, at every point - not only at
the sample points - for even and odd numbers of points. -/
theorem C42_exact (N K : ℕ) (hK : 2 * K < N) (a b : ℕ → ℝ) (x : ℝ) :
    series N (coeff N (fun i => trig K a b (pt N i))) x = trig K a b x := by
  unfold series
  rw [C42_coeffs N K hK a b 0 (by omega)]
  have h1 : ∀ j ∈ Ico 1 (N / 2 + 1), 2 * (coeff N (fun i => trig K a b (pt N i)) j * cexp (I * (j * x))).re =
      if j ≤ K then (((a j : ℂ) - b j * I) * cexp (I * (j * x))).re else 0 := by
    intro j hj
    rw [mem_Ico] at hj
    rw [C42_coeffs N K hK a b j (by omega)]
    by_cases h : j ≤ K
    · rw [if_pos h, if_pos h, if_neg (by omega)]
      have : ((a j : ℂ) - b j * I) / 2 * cexp (I * (j * x)) = ((1 / 2 : ℝ) : ℂ) * (((a j : ℂ) - b j * I) * cexp (I * (j * x))) := by
        push_cast; ring
      rw [this, Complex.re_ofReal_mul]; ring
    · simp [h]
  rw [sum_congr rfl h1, trig_harmonics, sum_range_succ', ← sum_filter]
  have : (Ico 1 (N / 2 + 1)).filter (fun j => j ≤ K) = Ico 1 (K + 1) := by
    ext j; simp only [mem_filter, mem_Ico]; omega
  rw [this, sum_Ico_eq_sum_range]
  simp only [Nat.add_sub_cancel]
  rw [add_comm]
  congr 1
  · apply sum_congr rfl; intro j _; rw [add_comm 1 j]
  · simp

/-! ### round trip -/

/-- the series of given samples, as a sum over the samples -/
theorem series_kernel (N : ℕ) (f : ℕ → ℝ) (x : ℝ) :
    series N (coeff N f) x =
      (∑ i ∈ range N, f i * (1 + 2 * ∑ j ∈ Ico 1 (N / 2 + 1), Real.cos (j * (x - pt N i)))) / N := by
  have h1 : ∀ (j : ℕ), (coeff N f j * cexp (I * (j * x))).re = (∑ i ∈ range N, f i * Real.cos (j * (x - pt N i))) / N := by
    intro j
    unfold coeff
    rw [div_mul_eq_mul_div, sum_mul]
    have : ∀ i ∈ range N, (f i : ℂ) * cexp (j * i * (-2 * I * Real.pi / N)) * cexp (I * (j * x)) =
        (f i : ℂ) * cexp (((j * (x - pt N i) : ℝ) : ℂ) * I) := by
      intro i _
      rw [mul_assoc, ← Complex.exp_add]
      congr 2; unfold pt; push_cast; ring
    rw [sum_congr rfl this, ← Complex.ofReal_natCast N, Complex.div_ofReal_re, Complex.re_sum]
    congr 1
    apply sum_congr rfl
    intro i _
    rw [Complex.re_ofReal_mul, Complex.exp_ofReal_mul_I_re]
  unfold series
  have h0 := h1 0
  simp only [Nat.cast_zero, zero_mul, mul_zero, Complex.exp_zero, mul_one, Real.cos_zero] at h0
  simp only [h1]
  rw [h0, ← mul_sum, ← sum_div, sum_comm, mul_div_assoc', ← add_div]
  congr 1
  rw [mul_sum, ← sum_add_distrib]
  apply sum_congr rfl
  intro i _
  rw [← mul_sum]; ring

/-- the kernel at the sample points -/
theorem kernel_nodes (N : ℕ) (d : ℤ) (hd : |d| < N) :
    1 + 2 * ∑ j ∈ Ico 1 (N / 2 + 1), Real.cos (j * (d * (2 * Real.pi / N))) =
      (if d = 0 then (N : ℝ) else 0) + (if N % 2 = 0 then Real.cos (d * Real.pi) else 0) := by
  have hN : 0 < N := by
    by_contra h
    have : N = 0 := by omega
    subst this
    have := abs_nonneg d
    push_cast at hd; omega
  have hN' : (N : ℝ) ≠ 0 := by exact_mod_cast hN.ne'
  by_cases h0 : d = 0
  · subst h0
    simp only [Int.cast_zero, zero_mul, mul_zero, Real.cos_zero, sum_const, Nat.card_Ico, if_true, nsmul_eq_mul, mul_one,
      Nat.add_sub_cancel]
    by_cases h : N % 2 = 0
    · rw [if_pos h]
      have : ((N / 2 : ℕ) : ℝ) * 2 = N := by exact_mod_cast Nat.div_mul_cancel (Nat.dvd_of_mod_eq_zero h)
      linarith
    · rw [if_neg h]
      have : ((N / 2 : ℕ) : ℝ) * 2 + 1 = N := by
        have : (N / 2) * 2 + 1 = N := by omega
        exact_mod_cast this
      linarith
  · rw [if_neg h0]
    set t : ℝ := d * (2 * Real.pi / N) with ht
    have hs : Real.sin (t / 2) ≠ 0 := by
      intro h
      rw [Real.sin_eq_zero_iff] at h
      obtain ⟨m, hm⟩ := h
      have : (d : ℝ) = m * N := by
        rw [ht] at hm; have hp := Real.pi_ne_zero; field_simp at hm; linarith
      have hd2 : d = m * N := by exact_mod_cast this
      rw [hd2, abs_mul] at hd
      have : m ≠ 0 := by rintro rfl; simp at hd2; exact h0 hd2
      have h1 : 1 ≤ |m| := Int.one_le_abs this
      have h2 : |(N : ℤ)| = N := abs_of_nonneg (by positivity)
      rw [h2] at hd
      nlinarith
    have key := Trig.two_sin_sum_cos (N / 2 + 1) t
    rw [range_eq_Ico, sum_eq_sum_Ico_succ_bot (by omega)] at key
    simp only [Nat.cast_zero, zero_mul, Real.cos_zero, zero_add] at key
    set S := ∑ j ∈ Ico 1 (N / 2 + 1), Real.cos (j * t) with hS
    have key2 : Real.sin (t / 2) * (1 + 2 * S) = Real.sin (((N / 2 + 1 : ℕ) - 1 / 2) * t) := by linarith
    apply mul_left_cancel₀ hs
    rw [key2]
    by_cases h : N % 2 = 0
    · rw [if_pos h]
      have e : (((N / 2 + 1 : ℕ) : ℝ) - 1 / 2) * t = t / 2 + d * Real.pi := by
        have : ((N / 2 : ℕ) : ℝ) = N / 2 := by
          have : ((N / 2 : ℕ) : ℝ) * 2 = N := by exact_mod_cast Nat.div_mul_cancel (Nat.dvd_of_mod_eq_zero h)
          linarith
        push_cast; rw [this, ht]; field_simp; ring
      rw [e, Real.sin_add, Real.sin_int_mul_pi]; ring
    · rw [if_neg h]
      have e : (((N / 2 + 1 : ℕ) : ℝ) - 1 / 2) * t = d * Real.pi := by
        have : ((N / 2 : ℕ) : ℝ) = (N - 1) / 2 := by
          have : ((N / 2 : ℕ) : ℝ) * 2 + 1 = N := by
            have : (N / 2) * 2 + 1 = N := by omega
            exact_mod_cast this
          linarith
        push_cast; rw [this, ht]; field_simp; ring
      rw [e, Real.sin_int_mul_pi]; ring

theorem series_node (N : ℕ) (f : ℕ → ℝ) (i : ℕ) (hi : i < N) :
    series N (coeff N f) (pt N i) = f i +
      if N % 2 = 0 then (∑ k ∈ range N, f k * Real.cos (((i : ℤ) - k : ℤ) * Real.pi)) / N else 0 := by
  have hN' : (N : ℝ) ≠ 0 := by have : N ≠ 0 := by omega
                               exact_mod_cast this
  rw [series_kernel]
  have h1 : ∀ k ∈ range N, f k * (1 + 2 * ∑ j ∈ Ico 1 (N / 2 + 1), Real.cos (j * (pt N i - pt N k))) =
      f k * ((if k = i then (N : ℝ) else 0) + if N % 2 = 0 then Real.cos (((i : ℤ) - k : ℤ) * Real.pi) else 0) := by
    intro k hk
    rw [mem_range] at hk
    have := kernel_nodes N ((i : ℤ) - k) (by rw [abs_lt]; constructor <;> omega)
    have e : ∀ j : ℕ, (j : ℝ) * (pt N i - pt N k) = j * ((((i : ℤ) - k : ℤ) : ℝ) * (2 * Real.pi / N)) := by
      intro j; unfold pt; push_cast; ring
    simp only [e]
    rw [this]
    have hik : ((i : ℤ) - k = 0) ↔ k = i := by omega
    simp only [hik]
  rw [sum_congr rfl h1]
  simp only [mul_add, sum_add_distrib, mul_ite, mul_zero, sum_ite_eq', mem_range, hi, if_true]
  by_cases h : N % 2 = 0
  · simp only [h, if_true]; rw [add_div, mul_div_assoc, div_self hN', mul_one]
  · simp only [h, if_false, sum_const_zero]; rw [add_zero, add_zero, mul_div_assoc, div_self hN', mul_one]

/-- C42, round trip for an odd number of points: transforming any data and back returns the data.
Missing for the full property: an even number of points, see the next theorem. -/
theorem C42_roundtrip_partial (N : ℕ) (h : N % 2 = 1) (f : ℕ → ℝ) :
    ∃ c v, r2c N f = .ok c ∧ c2r N c = .ok v ∧ ∀ i < N, v i = f i := by
  have hN : N ≠ 0 := by rintro rfl; simp at h
  refine ⟨coeff N f, value N (coeff N f), by simp [r2c, hN], by simp [c2r, hN], ?_⟩
  intro i hi
  rw [value_eq_series, series_node N f i hi, if_neg (by omega), add_zero]

/-- C42, violation: with an even number of points the highest mode is counted twice - what comes back differs from the data by
the highest mode, at every point ... -/
theorem C42_even_violation (N : ℕ) (h : N % 2 = 0) (f : ℕ → ℝ) (i : ℕ) (hi : i < N) :
    value N (coeff N f) i = f i + (-1) ^ i * (coeff N f (N / 2)).re := by
  have hN : (N : ℂ) ≠ 0 := by have : N ≠ 0 := by omega
                              exact_mod_cast this
  rw [value_eq_series, series_node N f i hi, if_pos h]
  congr 1
  have hc : (coeff N f (N / 2)).re = (∑ k ∈ range N, f k * (-1) ^ k) / N := by
    unfold coeff
    have : ∀ k ∈ range N, (f k : ℂ) * cexp ((N / 2 : ℕ) * k * (-2 * I * Real.pi / N)) = ((f k * (-1) ^ k : ℝ) : ℂ) := by
      intro k _
      have e : ((N / 2 : ℕ) : ℂ) = N / 2 := by
        have : (N / 2) * 2 = N := by omega
        have : ((N / 2 : ℕ) : ℂ) * 2 = N := by exact_mod_cast this
        rw [← this]; ring
      have e2 : (((N / 2 : ℕ) : ℂ) * k * (-2 * I * Real.pi / N)) = -((k : ℂ) * (Real.pi * I)) := by
        rw [e]; field_simp
      rw [e2, Complex.exp_neg, Complex.exp_nat_mul, Complex.exp_pi_mul_I]
      push_cast
      congr 1
      rw [← inv_pow]; norm_num
    rw [sum_congr rfl this, ← Complex.ofReal_sum, ← Complex.ofReal_natCast N, ← Complex.ofReal_div, Complex.ofReal_re]
  rw [hc, ← mul_div_assoc, mul_sum]
  congr 1
  apply sum_congr rfl
  intro k _
  have : Real.cos (((i : ℤ) - k : ℤ) * Real.pi) = (-1) ^ i * (-1) ^ k := by
    push_cast
    rw [sub_mul, Real.cos_sub, Real.sin_nat_mul_pi, Real.cos_nat_mul_pi, Real.cos_nat_mul_pi]; ring
  rw [this]; ring

/-- ... so two points with values 1 and 0 come back as 3/2 and -1/2. -/
theorem C42_even_witness : value 2 (coeff 2 (fun i => if i = 0 then 1 else 0)) 0 = 3 / 2 := by
  rw [C42_even_violation 2 rfl _ 0 (by norm_num)]
  unfold coeff
  norm_num [sum_range_succ]

/-- C42: no points at all stop the program. -/
theorem C42_empty (f : ℕ → ℝ) (c : ℕ → ℂ) : r2c 0 f = .abort ∧ c2r 0 c = .abort := by simp [r2c, c2r]

/-! ### two dimensions -/

theorem series_halved (N : ℕ) (c : ℕ → ℂ) (x : ℝ) :
    series N c x = ∑ j ∈ range (N / 2 + 1), 2 * ((if j = 0 then c j / 2 else c j) * cexp (I * (j * x))).re := by
  unfold series
  rw [range_eq_Ico, sum_eq_sum_Ico_succ_bot (a := 0) (b := N / 2 + 1) (by omega)]
  simp only [if_true, Nat.cast_zero, zero_mul, mul_zero, Complex.exp_zero, mul_one, zero_add]
  congr 1
  · have : c 0 / 2 = ((1 / 2 : ℝ) : ℂ) * c 0 := by push_cast; ring
    rw [this, Complex.re_ofReal_mul]; ring
  · apply sum_congr rfl
    intro j hj
    rw [mem_Ico] at hj
    rw [if_neg (by omega)]

theorem rowCoeff_eq (N1 : ℕ) (f : ℕ → ℝ) (i m1 : ℕ) :
    rowCoeff N1 f i m1 = if m1 = 0 then coeff N1 (fun j => f (ij N1 i j)) m1 / 2 else coeff N1 (fun j => f (ij N1 i j)) m1 := by
  have : ∀ j : ℕ, (j : ℂ) * (m1 * (-2 * I * Real.pi / N1)) = m1 * j * (-2 * I * Real.pi / N1) := by intro j; ring
  simp only [rowCoeff, coeff, this]

theorem colCoeff_eq (N0 : ℕ) (g : ℕ → ℝ) (m0 : ℕ) :
    colCoeff N0 g m0 = if m0 = 0 then coeff N0 g m0 / 2 else coeff N0 g m0 := by
  have : ∀ j : ℕ, (j : ℂ) * (m0 * (-2 * I * Real.pi / N0)) = m0 * j * (-2 * I * Real.pi / N0) := by intro j; ring
  simp only [colCoeff, coeff, this]

theorem amp_eq (N0 N1 : ℕ) (f : ℕ → ℝ) (m0 m1 : ℕ) (h0 : m0 < N0 / 2 + 1) (h1 : m1 < N1 / 2 + 1) :
    let cr := colCoeff N0 (fun i => (rowCoeff N1 f i m1).re) m0
    let ci := colCoeff N0 (fun i => (rowCoeff N1 f i m1).im) m0
    amp (r2c2 N0 N1 f) N0 N1 m0 m1 = (cr + I * ci, cr - I * ci) := by
  intro cr ci
  have hq1 : ij (N1 / 2 + 1) m0 m1 % (N1 / 2 + 1) = m1 := by
    unfold ij; rw [Nat.add_mul_mod_self_right, Nat.mod_eq_of_lt h1]
  have hq2 : ij (N1 / 2 + 1) m0 m1 / (N1 / 2 + 1) = m0 := by
    unfold ij; rw [Nat.add_mul_div_right _ _ (by omega), Nat.div_eq_of_lt h1, zero_add]
  have hq3 : ij (N1 / 2 + 1) m0 m1 < (N0 / 2 + 1) * (N1 / 2 + 1) := by
    unfold ij; nlinarith
  have hq4 : ¬ (N0 / 2 + 1) * (N1 / 2 + 1) + ij (N1 / 2 + 1) m0 m1 < (N0 / 2 + 1) * (N1 / 2 + 1) := by omega
  simp only [amp, r2c2, if_pos hq3, if_neg hq4, Nat.add_sub_cancel_left, hq1, hq2]
  have hz : ∀ z : ℂ, z = z.re + I * z.im := by intro z; rw [mul_comm]; exact (Complex.re_add_im z).symm
  refine Prod.ext ?_ ?_
  · show (cr.re : ℂ) - ci.im + I * (cr.im + ci.re) = cr + I * ci
    conv_rhs => rw [hz cr, hz ci]
    linear_combination (-(ci.im : ℂ)) * Complex.I_mul_I
  · show (cr.re : ℂ) + ci.im + I * (cr.im - ci.re) = cr - I * ci
    conv_rhs => rw [hz cr, hz ci]
    linear_combination ((ci.im : ℂ)) * Complex.I_mul_I

theorem pair_re (cr ci : ℂ) (a b : ℝ) :
    ((cr + I * ci) * cexp (I * (a + b)) + (cr - I * ci) * cexp (I * (a - b))).re =
      2 * Real.cos b * (cr * cexp (I * a)).re - 2 * Real.sin b * (ci * cexp (I * a)).re := by
  have e1 : cexp (I * ((a : ℂ) + b)) = cexp (I * a) * (Real.cos b + Real.sin b * I) := by
    rw [mul_add, Complex.exp_add, mul_comm I (b : ℂ), Complex.exp_mul_I, Complex.ofReal_cos, Complex.ofReal_sin]
  have e2 : cexp (I * ((a : ℂ) - b)) = cexp (I * a) * (Real.cos b - Real.sin b * I) := by
    have : I * ((a : ℂ) - b) = I * a + ((-b : ℝ) : ℂ) * I := by push_cast; ring
    rw [this, Complex.exp_add, Complex.exp_mul_I, ← Complex.ofReal_cos, ← Complex.ofReal_sin, Real.cos_neg, Real.sin_neg]
    push_cast; ring
  rw [e1, e2]
  have : (cr + I * ci) * (cexp (I * a) * (Real.cos b + Real.sin b * I)) +
      (cr - I * ci) * (cexp (I * a) * (Real.cos b - Real.sin b * I)) =
      ((2 * Real.cos b : ℝ) : ℂ) * (cr * cexp (I * a)) - ((2 * Real.sin b : ℝ) : ℂ) * (ci * cexp (I * a)) := by
    simp only [Complex.ofReal_mul, Complex.ofReal_ofNat]
    linear_combination (2 * ci * cexp (I * a) * Real.sin b) * Complex.I_mul_I
  rw [this, Complex.sub_re, Complex.re_ofReal_mul, Complex.re_ofReal_mul]

theorem coeff_lin2 (N : ℕ) (g h : ℕ → ℝ) (u v : ℝ) (m : ℕ) :
    coeff N (fun i => u * g i - v * h i) m = (u : ℂ) * coeff N g m - (v : ℂ) * coeff N h m := by
  unfold coeff
  rw [← mul_div_assoc, ← mul_div_assoc, ← sub_div, mul_sum, mul_sum, ← sum_sub_distrib]
  congr 1
  apply sum_congr rfl
  intro i _
  push_cast; ring

/-- C42: interpolating with the two-dimensional coefficients is interpolating in the second direction along every line and
then in the first direction - for any data, sizes and any point. -/
theorem C42_interp2 (N0 N1 : ℕ) (f : ℕ → ℝ) (x y : ℝ) :
    interp2 (r2c2 N0 N1 f) N0 N1 x y =
      series N0 (coeff N0 (fun i => series N1 (coeff N1 (fun j => f (ij N1 i j))) y)) x := by
  have hrow : ∀ i, series N1 (coeff N1 (fun j => f (ij N1 i j))) y =
      ∑ m1 ∈ range (N1 / 2 + 1), (2 * Real.cos (m1 * y) * (rowCoeff N1 f i m1).re - 2 * Real.sin (m1 * y) * (rowCoeff N1 f i m1).im) := by
    intro i
    rw [series_halved]
    apply sum_congr rfl
    intro m1 _
    rw [← rowCoeff_eq]
    have : I * ((m1 : ℂ) * y) = ((m1 * y : ℝ) : ℂ) * I := by push_cast; ring
    rw [this]
    generalize (m1 : ℝ) * y = t
    rw [Complex.exp_mul_I, ← Complex.ofReal_cos, ← Complex.ofReal_sin]
    simp only [Complex.mul_re, Complex.add_re, Complex.ofReal_re, Complex.ofReal_im, Complex.I_re,
      Complex.I_im, Complex.add_im, Complex.mul_im]
    ring
  simp only [hrow]
  rw [series_halved]
  unfold interp2
  rw [Complex.re_sum, mul_sum]
  apply sum_congr rfl
  intro m0 hm0
  rw [mem_range] at hm0
  congr 1
  rw [coeff_sum]
  have hc : (if m0 = 0 then (∑ k ∈ range (N1 / 2 + 1), coeff N0 (fun i => 2 * Real.cos (k * y) * (rowCoeff N1 f i k).re -
        2 * Real.sin (k * y) * (rowCoeff N1 f i k).im) m0) / 2 else
      ∑ k ∈ range (N1 / 2 + 1), coeff N0 (fun i => 2 * Real.cos (k * y) * (rowCoeff N1 f i k).re -
        2 * Real.sin (k * y) * (rowCoeff N1 f i k).im) m0) =
      ∑ k ∈ range (N1 / 2 + 1), (((2 * Real.cos (k * y) : ℝ) : ℂ) * colCoeff N0 (fun i => (rowCoeff N1 f i k).re) m0 -
        ((2 * Real.sin (k * y) : ℝ) : ℂ) * colCoeff N0 (fun i => (rowCoeff N1 f i k).im) m0) := by
    simp only [coeff_lin2, colCoeff_eq]
    by_cases h : m0 = 0
    · simp only [h, if_true, sum_div]; apply sum_congr rfl; intro k _; ring
    · simp only [h, if_false]
  rw [hc, sum_mul, Complex.re_sum, Complex.re_sum]
  apply sum_congr rfl
  intro m1 hm1
  rw [mem_range] at hm1
  rw [amp_eq N0 N1 f m0 m1 hm0 hm1]
  have := pair_re (colCoeff N0 (fun i => (rowCoeff N1 f i m1).re) m0) (colCoeff N0 (fun i => (rowCoeff N1 f i m1).im) m0)
    (m0 * x) (m1 * y)
  push_cast at this ⊢
  rw [this, sub_mul, Complex.sub_re]
  have r1 : ∀ (u : ℝ) (z w : ℂ), (2 * (u : ℂ) * z * w).re = 2 * u * (z * w).re := by
    intro u z w
    have : 2 * (u : ℂ) * z * w = ((2 * u : ℝ) : ℂ) * (z * w) := by push_cast; ring
    rw [this, Complex.re_ofReal_mul]
  have r2 := r1 (Real.cos (m1 * y)) (colCoeff N0 (fun i => (rowCoeff N1 f i m1).re) m0) (cexp (I * (m0 * x)))
  have r3 := r1 (Real.sin (m1 * y)) (colCoeff N0 (fun i => (rowCoeff N1 f i m1).im) m0) (cexp (I * (m0 * x)))
  push_cast at r2 r3
  rw [r2, r3]

/-- C42: two-dimensional interpolation is exact, at every point, for functions that are trigonometric polynomials of degree
below half the number of points in each variable. -/
theorem C42_exact2 (N0 N1 K0 K1 : ℕ) (h0 : 2 * K0 < N0) (h1 : 2 * K1 < N1) (g : ℝ → ℝ → ℝ)
    (hg0 : ∀ y, ∃ a b, ∀ x, g x y = trig K0 a b x) (hg1 : ∀ x, ∃ a b, ∀ y, g x y = trig K1 a b y)
    (f : ℕ → ℝ) (hf : ∀ i j, i < N0 → j < N1 → f (ij N1 i j) = g (pt N0 i) (pt N1 j)) (x y : ℝ) :
    interp2 (r2c2 N0 N1 f) N0 N1 x y = g x y := by
  rw [C42_interp2]
  have cong : ∀ (N : ℕ) (u v : ℕ → ℝ), (∀ i < N, u i = v i) → coeff N u = coeff N v := by
    intro N u v h
    funext m
    unfold coeff
    congr 1
    apply sum_congr rfl
    intro i hi
    rw [h i (mem_range.1 hi)]
  have hrow : ∀ i < N0, series N1 (coeff N1 (fun j => f (ij N1 i j))) y = g (pt N0 i) y := by
    intro i hi
    obtain ⟨a, b, hab⟩ := hg1 (pt N0 i)
    rw [cong N1 _ (fun j => trig K1 a b (pt N1 j)) (fun j hj => by rw [hf i j hi hj, hab]), C42_exact N1 K1 h1, hab]
  obtain ⟨a, b, hab⟩ := hg0 y
  rw [cong N0 _ (fun i => trig K0 a b (pt N0 i)) (fun i hi => by rw [hrow i hi, hab]), C42_exact N0 K0 h0, hab]

/-! ### derivatives -/

theorem hasDerivAt_cexp_lin (A : ℂ) (k : ℝ) (b : ℂ) (x : ℝ) :
    HasDerivAt (fun x : ℝ => A * cexp (I * (k * x + b))) (I * k * A * cexp (I * (k * x + b))) x := by
  have h1 : HasDerivAt (fun z : ℂ => A * cexp (I * (k * z + b))) (A * (cexp (I * (k * x + b)) * (I * k))) (x : ℂ) := by
    have h2 : HasDerivAt (fun z : ℂ => I * (k * z + b)) (I * k) (x : ℂ) := by
      have := (((hasDerivAt_id (x : ℂ)).const_mul (k : ℂ)).add_const b).const_mul I
      simpa using this
    exact (h2.cexp).const_mul A
  have h3 := h1.comp_ofReal
  exact h3.congr_deriv (by ring)

theorem hasDerivAt_re {g : ℝ → ℂ} {g' : ℂ} {x : ℝ} (h : HasDerivAt g g' x) :
    HasDerivAt (fun x => (g x).re) g'.re x := by
  exact Complex.reCLM.hasFDerivAt.comp_hasDerivAt x h

/-- C42: the two derivative arrays are the partial derivatives of the interpolating function at the sample points, for any
coefficients. -/
theorem C42_derivative (C : (ℕ → ℝ) × (ℕ → ℝ)) (N0 N1 i j : ℕ) :
    HasDerivAt (fun x => interp2 C N0 N1 x (pt N1 j)) (dphi0 C N0 N1 i j) (pt N0 i) ∧
    HasDerivAt (fun y => interp2 C N0 N1 (pt N0 i) y) (dphi1 C N0 N1 i j) (pt N1 j) := by
  constructor
  · unfold interp2 dphi0
    refine HasDerivAt.const_mul 2 (hasDerivAt_re ?_)
    refine HasDerivAt.fun_sum fun m0 _ => HasDerivAt.fun_sum fun m1 _ => ?_
    have a1 := hasDerivAt_cexp_lin (amp C N0 N1 m0 m1).1 m0 (m1 * pt N1 j) (pt N0 i)
    have a2 := hasDerivAt_cexp_lin (amp C N0 N1 m0 m1).2 m0 (-(m1 * pt N1 j)) (pt N0 i)
    have := a1.add a2
    push_cast at this
    simp only [sub_eq_add_neg]
    refine this.congr_deriv ?_
    rw [mul_add I, Complex.exp_add, mul_add I, Complex.exp_add]
    simp only [pt]
    push_cast
    rw [show I * (-((m1 : ℂ) * (j * (2 * Real.pi / N1)))) = -I * m1 * (j * (2 * Real.pi / N1)) by ring,
      show I * ((m1 : ℂ) * (j * (2 * Real.pi / N1))) = I * m1 * (j * (2 * Real.pi / N1)) by ring,
      show I * ((m0 : ℂ) * (i * (2 * Real.pi / N0))) = I * m0 * (i * (2 * Real.pi / N0)) by ring]
    ring
  · unfold interp2 dphi1
    refine HasDerivAt.const_mul 2 (hasDerivAt_re ?_)
    rw [sum_comm]
    refine HasDerivAt.fun_sum fun m0 _ => HasDerivAt.fun_sum fun m1 _ => ?_
    have a1 := hasDerivAt_cexp_lin (amp C N0 N1 m0 m1).1 m1 (m0 * pt N0 i) (pt N1 j)
    have a2 := hasDerivAt_cexp_lin (amp C N0 N1 m0 m1).2 (-m1) (m0 * pt N0 i) (pt N1 j)
    have := a1.add a2
    push_cast at this
    have e : ∀ y : ℝ, (amp C N0 N1 m0 m1).1 * cexp (I * (m0 * (pt N0 i : ℂ) + m1 * y)) +
        (amp C N0 N1 m0 m1).2 * cexp (I * (m0 * (pt N0 i : ℂ) - m1 * y)) =
        (amp C N0 N1 m0 m1).1 * cexp (I * (m1 * y + m0 * (pt N0 i : ℂ))) +
        (amp C N0 N1 m0 m1).2 * cexp (I * (-m1 * y + m0 * (pt N0 i : ℂ))) := by
      intro y
      rw [add_comm ((m0 : ℂ) * pt N0 i) (m1 * y), show (m0 : ℂ) * pt N0 i - m1 * y = -m1 * y + m0 * pt N0 i by ring]
    simp only [e]
    refine this.congr_deriv ?_
    rw [mul_add I, Complex.exp_add, mul_add I, Complex.exp_add]
    simp only [pt]
    push_cast
    rw [show I * (-(m1 : ℂ) * (j * (2 * Real.pi / N1))) = -(I * m1 * (j * (2 * Real.pi / N1))) by ring,
      show I * ((m1 : ℂ) * (j * (2 * Real.pi / N1))) = I * m1 * (j * (2 * Real.pi / N1)) by ring,
      show I * ((m0 : ℂ) * (i * (2 * Real.pi / N0))) = I * m0 * (i * (2 * Real.pi / N0)) by ring, Complex.exp_neg]
    ring

/-! ### the sphere -/

theorem trig_periodic (K : ℕ) (a b : ℕ → ℝ) (x : ℝ) : trig K a b (x + 2 * Real.pi) = trig K a b x := by
  unfold trig
  apply sum_congr rfl
  intro k _
  have : (k : ℝ) * (x + 2 * Real.pi) = k * x + k * (2 * Real.pi) := by ring
  rw [this, Real.cos_add_nat_mul_two_pi, Real.sin_add_nat_mul_two_pi]

/-- C42, the sphere: sampling a function on the sphere (one whose continuation over the pole is the function on the opposite
meridian) at equidistant angles including both poles, the interpolation returns the function at every point, when it is a
trigonometric polynomial of degree below Ntheta - 1 in theta and below Nphi/2 in phi; an odd number of points in phi is
refused.  (improve = 0; Ntheta ≥ 2.) -/
theorem C42_sphere (Nt Np K0 K1 : ℕ) (h0 : K0 < Nt - 1) (h1 : 2 * K1 < Np) (g : ℝ → ℝ → ℝ)
    (hg0 : ∀ y, ∃ a b, ∀ x, g x y = trig K0 a b x) (hg1 : ∀ x, ∃ a b, ∀ y, g x y = trig K1 a b y)
    (hs : ∀ x y, g (2 * Real.pi - x) (y + Real.pi) = g x y)
    (f : ℕ → ℝ) (hf : ∀ i j, i < Nt → j < Np → f (j + i * Np) = g (i * Real.pi / (Nt - 1 : ℕ)) (j * (2 * Real.pi / Np))) :
    (Np % 2 = 1 → coeffsS2 Nt Np f = .abort) ∧
    (Np % 2 = 0 → ∃ C, coeffsS2 Nt Np f = .ok C ∧ ∀ x y, interpS2 C Nt Np x y = g x y) := by
  constructor
  · intro h; simp [coeffsS2, h]
  · intro hev
    refine ⟨_, by simp only [coeffsS2, hev]; rfl, ?_⟩
    intro x y
    unfold interpS2
    obtain ⟨T, rfl⟩ : ∃ T, Nt = T + 1 := ⟨Nt - 1, by omega⟩
    simp only [Nat.add_sub_cancel] at *
    have hT : (T : ℝ) ≠ 0 := by
      have : T ≠ 0 := by omega
      exact_mod_cast this
    have hNp : (Np : ℝ) ≠ 0 := by
      have : Np ≠ 0 := by omega
      exact_mod_cast this
    refine C42_exact2 (2 * T) Np K0 K1 (by omega) h1 g hg0 hg1 _ ?_ x y
    intro i j hi hj
    have hq1 : ij Np i j % Np = j := by unfold ij; rw [Nat.add_mul_mod_self_right, Nat.mod_eq_of_lt hj]
    have hq2 : ij Np i j / Np = i := by
      unfold ij; rw [Nat.add_mul_div_right _ _ (by omega), Nat.div_eq_of_lt hj, zero_add]
    have hper : ∀ x y, g x (y + 2 * Real.pi) = g x y := by
      intro x y
      obtain ⟨a, b, hab⟩ := hg1 x
      rw [hab, hab, trig_periodic]
    simp only [extend, hq1, hq2]
    by_cases hiT : i < T
    · rw [if_pos hiT]
      unfold ij
      rw [hf i j (by omega) hj]
      congr 1
      unfold pt; push_cast; field_simp
    · rw [if_neg hiT]
      have hjl : (j + Np / 2) % Np < Np := Nat.mod_lt _ (by omega)
      unfold ij
      rw [hf (2 * T - i) _ (by omega) hjl]
      have e1 : ((2 * T - i : ℕ) : ℝ) * Real.pi / T = 2 * Real.pi - pt (2 * T) i := by
        rw [Nat.cast_sub (by omega)]; unfold pt; push_cast; field_simp
      have hhalf : ((Np / 2 : ℕ) : ℝ) = Np / 2 := by
        have : ((Np / 2 : ℕ) : ℝ) * 2 = Np := by exact_mod_cast Nat.div_mul_cancel (Nat.dvd_of_mod_eq_zero hev)
        linarith
      rw [e1, ← hs (pt (2 * T) i) (pt Np j)]
      by_cases hj2 : j + Np / 2 < Np
      · rw [Nat.mod_eq_of_lt hj2]
        congr 1
        push_cast; rw [hhalf]; unfold pt; field_simp
      · have : (j + Np / 2) % Np = j + Np / 2 - Np := by
          rw [Nat.mod_eq_sub_mod (by omega), Nat.mod_eq_of_lt (by omega)]
        rw [this, ← hper _ (((j + Np / 2 - Np : ℕ) : ℝ) * (2 * Real.pi / Np))]
        congr 1
        rw [Nat.cast_sub (by omega)]; push_cast; rw [hhalf]; unfold pt; field_simp; ring

/-- the hypotheses of the last theorem are met by g = 1 + sin(theta) cos(phi) on a 4 by 4 grid -/
example : (1 : ℕ) < 4 - 1 ∧ 2 * 1 < 4 ∧
    (∀ y : ℝ, ∃ a b : ℕ → ℝ, ∀ x, 1 + Real.sin x * Real.cos y = trig 1 a b x) ∧
    (∀ x : ℝ, ∃ a b : ℕ → ℝ, ∀ y, 1 + Real.sin x * Real.cos y = trig 1 a b y) ∧
    (∀ x y : ℝ, 1 + Real.sin (2 * Real.pi - x) * Real.cos (y + Real.pi) = 1 + Real.sin x * Real.cos y) := by
  refine ⟨by norm_num, by norm_num, fun y => ⟨fun k => if k = 0 then 1 else 0, fun k => if k = 1 then Real.cos y else 0, ?_⟩,
    fun x => ⟨fun k => if k = 0 then 1 else Real.sin x, fun _ => 0, ?_⟩, ?_⟩
  · intro x; simp [trig, sum_range_succ]; ring
  · intro y; simp [trig, sum_range_succ]
  · intro x y; rw [Real.sin_two_pi_sub, Real.cos_add_pi]; ring

end Elliptica.Fourier
