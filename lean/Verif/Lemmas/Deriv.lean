import Verif.Model.Deriv
import Verif.Props.Cheb
import Mathlib.Algebra.MvPolynomial.PDeriv
import Mathlib.Algebra.MvPolynomial.Degrees
/-! Helper lemmas for the spectral derivatives -/
namespace Elliptica.Deriv
open Real Finset Polynomial Elliptica.Index Elliptica.Cheb

/-! ### the points are not misjudged by the tolerances -/

theorem hfar (N : ℕ) (hN : 0 < N) (y : ℝ) (h0 : 1 / 2 ≤ y) (h1 : y ≤ N) : cos (y * π / N) ≤ 1 - 1 / (2 * N ^ 2) := by
  have hNr : (0 : ℝ) < N := by positivity
  have hp := Real.pi_pos
  have hx : |y * π / N| ≤ π := by
    rw [abs_of_nonneg (by positivity), div_le_iff₀ hNr]
    nlinarith
  refine (Real.cos_le_one_sub_mul_cos_sq hx).trans ?_
  have h2 : 2 / π ^ 2 * (y * π / N) ^ 2 = 2 / N ^ 2 * y ^ 2 := by field_simp
  rw [h2]
  have h3 : (1 : ℝ) / 4 ≤ y ^ 2 := by nlinarith
  have h4 : (1 : ℝ) / (2 * N ^ 2) = 2 / N ^ 2 * (1 / 4) := by field_simp; norm_num
  rw [h4]
  have : (0 : ℝ) ≤ 2 / N ^ 2 := by positivity
  nlinarith

theorem snapped_of (e : ℝ) (N : ℕ) (hN : 0 < N) (he2 : 2 * e * (N : ℝ) ^ 2 ≤ 1) (y : ℝ) (h0 : 1 / 2 ≤ y)
    (h1 : y ≤ N - 1 / 2) : Snapped e (cos (y * π / N)) := by
  have hNr : (0 : ℝ) < N := by positivity
  have hgap : e ≤ 1 / (2 * (N : ℝ) ^ 2) := by rw [le_div_iff₀ (by positivity)]; linarith
  have a := hfar N hN y h0 (by linarith)
  have b := hfar N hN (N - y) (by linarith) (by linarith)
  have hb : ((N : ℝ) - y) * π / N = π - y * π / N := by field_simp
  rw [hb, cos_pi_sub] at b
  right; right
  refine ⟨?_, ?_, Real.neg_one_le_cos _, Real.cos_le_one _⟩
  · rw [Bool.eq_false_iff]
    intro c
    simp only [Tol.eql, Bool.and_eq_true, decide_eq_true_eq] at c
    linarith [c.2]
  · rw [Bool.eq_false_iff]
    intro c
    simp only [Tol.eql, Bool.and_eq_true, decide_eq_true_eq] at c
    linarith [c.1]

theorem snapped_ext (e : ℝ) (N : ℕ) (hN : 0 < N) (he2 : 2 * e * (N : ℝ) ^ 2 ≤ 1) (i : ℕ) (hi : i ≤ N) :
    Snapped e (cos (i * π / N)) := by
  have hNr : (0 : ℝ) < N := by positivity
  by_cases h0 : i = 0
  · left; simp [h0]
  · by_cases h1 : i = N
    · right; left; subst h1; rw [mul_div_assoc, mul_div_cancel₀ _ hNr.ne', cos_pi]
    · refine snapped_of e N hN he2 i ?_ ?_
      · have : (1 : ℝ) ≤ i := by exact_mod_cast Nat.one_le_iff_ne_zero.2 h0
        linarith
      · have : (i : ℝ) + 1 ≤ N := by exact_mod_cast (by omega : i + 1 ≤ N)
        linarith

theorem snapped_nod (e : ℝ) (n : ℕ) (he2 : 2 * e * (n : ℝ) ^ 2 ≤ 1) (i : ℕ) (hi : i < n) :
    Snapped e (cos ((i + 0.5) * π / n)) := by
  refine snapped_of e n (by omega) he2 _ ?_ ?_
  · have : (0 : ℝ) ≤ i := by positivity
    norm_num
  · have : (i : ℝ) + 1 ≤ n := by exact_mod_cast hi
    norm_num; linarith

/-! ### one line -/

theorem linePoly_eq (N : ℕ) (hN : 0 < N) (p : ℝ[X]) (hp : p.degree < (N + 1 : ℕ))
    (v : ℕ → ℝ) (hv : ∀ j, j ≤ N → v j = p.eval (cos (j * π / N))) : linePoly N v = p := by
  refine eq_of_degrees_lt_of_eval_index_eq (range (N + 1)) (nodes_injOn N hN) ?_ ?_ ?_
  · simpa using linePoly_degree N v
  · simpa using hp
  · intro i hi
    have hi' : i ≤ N := Nat.lt_succ_iff.1 (mem_range.1 hi)
    rw [linePoly_node N hN v i hi', hv i hi']

/-- the nodes expansion as a polynomial -/
noncomputable def nodPoly (n : ℕ) (v : ℕ → ℝ) : ℝ[X] := ∑ i ∈ range n, C (nodesCoeff n v i * kapN i) * Chebyshev.T ℝ i

theorem nodPoly_degree (n : ℕ) (v : ℕ → ℝ) : (nodPoly n v).degree < (n : ℕ) := by
  unfold nodPoly
  refine lt_of_le_of_lt (degree_sum_le _ _) ?_
  rw [Finset.sup_lt_iff (WithBot.bot_lt_coe _)]
  intro i hi
  refine lt_of_le_of_lt (degree_mul_le _ _) ?_
  rw [Chebyshev.degree_T]
  calc (C (nodesCoeff n v i * kapN i) : ℝ[X]).degree + ((i : ℤ).natAbs : WithBot ℕ) ≤ 0 + ((i : ℤ).natAbs : WithBot ℕ) :=
        add_le_add_left degree_C_le _
    _ = (i : ℕ) := by simp
    _ < (n : ℕ) := by exact_mod_cast mem_range.1 hi

theorem nodPoly_node (n : ℕ) (v : ℕ → ℝ) (l : ℕ) (hl : l < n) :
    (nodPoly n v).eval (cos ((l + 0.5) * π / n)) = v l := by
  unfold nodPoly
  rw [eval_finsetSum, ← nodes_reproduce n (by omega) v l hl]
  refine sum_congr rfl fun i _ => ?_
  rw [eval_mul, eval_C, Chebyshev.T_real_cos]; push_cast; ring

theorem nod_injOn (n : ℕ) : Set.InjOn (fun j : ℕ => cos (((j : ℝ) + 0.5) * π / n)) (range n : Finset ℕ) := by
  intro a ha b hb h
  have hp := Real.pi_pos
  have hn : 0 < n := lt_of_le_of_lt (Nat.zero_le _) (mem_range.1 ha)
  have hN' : (0 : ℝ) < n := by positivity
  have mem : ∀ a ∈ range n, ((a : ℝ) + 0.5) * π / n ∈ Set.Icc 0 π := by
    intro a ha
    have : (a : ℝ) + 1 ≤ n := by exact_mod_cast mem_range.1 ha
    refine ⟨by positivity, ?_⟩
    rw [div_le_iff₀ hN']
    nlinarith
  have := Real.injOn_cos (mem a ha) (mem b hb) h
  have h3 : (a : ℝ) = b := by
    field_simp at this
    linarith
  exact_mod_cast h3

theorem nodPoly_eq (n : ℕ) (p : ℝ[X]) (hp : p.degree < (n : ℕ))
    (v : ℕ → ℝ) (hv : ∀ j, j < n → v j = p.eval (cos ((j + 0.5) * π / n))) : nodPoly n v = p := by
  refine eq_of_degrees_lt_of_eval_index_eq (range n) (nod_injOn n) ?_ ?_ ?_
  · simpa using nodPoly_degree n v
  · simpa using hp
  · intro i hi
    have hi' : i < n := mem_range.1 hi
    rw [nodPoly_node n v i hi', hv i hi']

/-- weighted sums with end weights, when the first term vanishes -/
theorem sum_kap_tail (N : ℕ) (hN : 0 < N) (a g : ℕ → ℝ) (h0 : g 0 = 0) :
    ∑ c ∈ range (N + 1), a c * kap N c * g c = (∑ c ∈ Ico 1 N, a c * g c) * 2 + a N * g N := by
  obtain ⟨M, rfl⟩ : ∃ M, N = M + 1 := ⟨N - 1, by omega⟩
  rw [sum_range_succ, range_eq_Ico, sum_eq_sum_Ico_succ_bot (by omega), h0]
  have : kap (M + 1) (M + 1) = 1 := by simp [kap]
  rw [this, sum_mul]
  simp only [mul_zero, zero_add, mul_one]
  congr 1
  refine sum_congr rfl fun c hc => ?_
  rw [mem_Ico] at hc
  have : kap (M + 1) c = 2 := by unfold kap; rw [if_neg]; omega
  rw [this]; ring

theorem sum_kapN_tail (n : ℕ) (a g : ℕ → ℝ) (h0 : g 0 = 0) :
    ∑ c ∈ range n, a c * kapN c * g c = (∑ c ∈ Ico 1 n, a c * g c) * 2 := by
  rcases n with _ | n
  · simp
  rw [range_eq_Ico, sum_eq_sum_Ico_succ_bot (by omega), h0, sum_mul]
  simp only [mul_zero, zero_add]
  refine sum_congr rfl fun c hc => ?_
  rw [mem_Ico] at hc
  have : kapN c = 2 := by unfold kapN; rw [if_neg]; omega
  rw [this]; ring

theorem Ico_two (g : ℕ → ℝ) (h1 : g 1 = 0) (B : ℕ) : ∑ c ∈ Ico 2 B, g c = ∑ c ∈ Ico 1 B, g c := by
  by_cases h : 1 < B
  · rw [sum_eq_sum_Ico_succ_bot h, h1, zero_add]
  · rw [Ico_eq_empty (by omega), Ico_eq_empty (by omega)]

/-- the k-th derivative (k = 1 or 2) of a Chebyshev polynomial as the code evaluates it -/
noncomputable def dT (e : ℝ) (second : Bool) (c : ℕ) (x : ℝ) : ℝ := if second then d2ChebT e c x else dChebT e c x

/-- differentiate once or twice -/
noncomputable def dP (second : Bool) (p : ℝ[X]) : ℝ[X] := if second then derivative (derivative p) else derivative p

theorem dT_eq (e : ℝ) (he : 0 < e) (h2 : e ≤ 2) (s : Bool) (c : ℕ) (x : ℝ) (hx : Snapped e x) :
    dT e s c x = (dP s (Chebyshev.T ℝ c)).eval x := by
  unfold dT dP
  cases s
  · exact C43_dT e he h2 c x hx
  · exact C43_d2T e he h2 c x hx

theorem dP_sum (s : Bool) (q : ℕ) (a : ℕ → ℝ) (T : ℕ → ℝ[X]) (x : ℝ) :
    (dP s (∑ i ∈ range q, C (a i) * T i)).eval x = ∑ i ∈ range q, a i * (dP s (T i)).eval x := by
  unfold dP
  cases s <;> simp [derivative_sum, eval_finsetSum, derivative_C_mul]

/-- extrema: the derivative of the interpolating polynomial -/
theorem ext_line (e : ℝ) (he : 0 < e) (h2 : e ≤ 2) (s : Bool) (N : ℕ) (hN : 0 < N) (p : ℝ[X])
    (hp : p.degree < (N + 1 : ℕ)) (v : ℕ → ℝ) (hv : ∀ j, j ≤ N → v j = p.eval (cos (j * π / N))) (x : ℝ) (hx : Snapped e x) :
    (∑ c ∈ Ico 1 N, extremaCoeff (N + 1) v c * dT e s c x) * 2 + extremaCoeff (N + 1) v N * dT e s N x = (dP s p).eval x := by
  rw [← linePoly_eq N hN p hp v hv, linePoly, dP_sum, ← sum_kap_tail N hN _ (fun c => dT e s c x)]
  · exact sum_congr rfl fun i _ => by rw [dT_eq e he h2 s i x hx]
  · rw [dT_eq e he h2 s 0 x hx]; cases s <;> simp [dP]

theorem nod_line (e : ℝ) (he : 0 < e) (h2 : e ≤ 2) (s : Bool) (n : ℕ) (p : ℝ[X])
    (hp : p.degree < (n : ℕ)) (v : ℕ → ℝ) (hv : ∀ j, j < n → v j = p.eval (cos ((j + 0.5) * π / n))) (x : ℝ)
    (hx : Snapped e x) : (∑ c ∈ Ico 1 n, nodesCoeff n v c * dT e s c x) * 2 = (dP s p).eval x := by
  rw [← nodPoly_eq n p hp v hv, nodPoly, dP_sum, ← sum_kapN_tail n _ (fun c => dT e s c x)]
  · exact sum_congr rfl fun i _ => by rw [dT_eq e he h2 s i x hx]
  · rw [dT_eq e he h2 s 0 x hx]; cases s <;> simp [dP]

/-! ### polynomials in three variables restricted to a line -/

/-- the restriction to the line through X in direction d -/
noncomputable def restrict (P : MvPolynomial (Fin 3) ℝ) (X : Fin 3 → ℝ) (d : Fin 3) : ℝ[X] :=
  MvPolynomial.aeval (fun j => if j = d then (Polynomial.X : ℝ[X]) else C (X j)) P

theorem restrict_eval (P : MvPolynomial (Fin 3) ℝ) (X : Fin 3 → ℝ) (d : Fin 3) (s : ℝ) :
    (restrict P X d).eval s = MvPolynomial.eval (Function.update X d s) P := by
  unfold restrict
  induction P using MvPolynomial.induction_on with
  | C a => simp
  | add p q hp hq => simp only [map_add, eval_add, hp, hq]
  | mul_X p i hp =>
    rw [map_mul, eval_mul, hp, map_mul, MvPolynomial.aeval_X, MvPolynomial.eval_X]
    congr 1
    by_cases h : i = d
    · subst h; simp
    · simp [h]

theorem restrict_deriv (P : MvPolynomial (Fin 3) ℝ) (X : Fin 3 → ℝ) (d : Fin 3) :
    derivative (restrict P X d) = restrict (MvPolynomial.pderiv d P) X d := by
  unfold restrict
  induction P using MvPolynomial.induction_on with
  | C a => simp
  | add p q hp hq => simp only [map_add, hp, hq]
  | mul_X p i hp =>
    rw [map_mul, derivative_mul, hp, MvPolynomial.pderiv_mul, map_add, map_mul, map_mul, MvPolynomial.aeval_X]
    congr 2
    rw [MvPolynomial.pderiv_X]
    by_cases h : i = d
    · subst h; simp
    · simp [h, Pi.single_apply, Ne.symm h]

theorem restrict_degree (P : MvPolynomial (Fin 3) ℝ) (X : Fin 3 → ℝ) (d : Fin 3) (n : ℕ)
    (h : MvPolynomial.degreeOf d P < n) : (restrict P X d).degree < (n : ℕ) := by
  unfold restrict
  rw [MvPolynomial.aeval_def, MvPolynomial.eval₂_eq]
  refine lt_of_le_of_lt (degree_sum_le _ _) ?_
  rw [Finset.sup_lt_iff (WithBot.bot_lt_coe _)]
  intro m hm
  have hmd : m d < n := lt_of_le_of_lt (MvPolynomial.degreeOf_le_iff.1 le_rfl m hm) h
  have hn : ((algebraMap ℝ ℝ[X]) (MvPolynomial.coeff m P) *
      ∏ i ∈ m.support, (if i = d then (Polynomial.X : ℝ[X]) else C (X i)) ^ m i).natDegree ≤ m d := by
    refine natDegree_mul_le.trans ?_
    rw [Polynomial.algebraMap_eq, natDegree_C, zero_add]
    refine (natDegree_prod_le _ _).trans ?_
    have : ∀ i ∈ m.support, ((if i = d then (Polynomial.X : ℝ[X]) else C (X i)) ^ m i).natDegree ≤ if i = d then m d else 0 := by
      intro i _
      by_cases hi : i = d
      · subst hi; simp
      · rw [if_neg hi, if_neg hi, ← C_pow, natDegree_C]
    refine (sum_le_sum this).trans ?_
    rw [sum_ite_eq']
    split <;> omega
  refine lt_of_le_of_lt degree_le_natDegree ?_
  exact_mod_cast lt_of_le_of_lt hn hmd

theorem degreeOf_pderiv (P : MvPolynomial (Fin 3) ℝ) (i d : Fin 3) (n : ℕ) (h : MvPolynomial.degreeOf d P < n) :
    MvPolynomial.degreeOf d (MvPolynomial.pderiv i P) < n := by
  refine lt_of_le_of_lt ?_ h
  rw [MvPolynomial.degreeOf_le_iff]
  intro m hm
  rw [MvPolynomial.mem_support_iff] at hm
  have : P.coeff (m + Finsupp.single i 1) ≠ 0 := by
    intro hc
    apply hm
    rw [MvPolynomial.coeff_pderiv, hc, zero_mul]
  have h2 := MvPolynomial.degreeOf_le_iff.1 (le_refl (MvPolynomial.degreeOf d P)) _ (MvPolynomial.mem_support_iff.2 this)
  simp only [Finsupp.add_apply] at h2
  omega

end Elliptica.Deriv
