import Verif.Model.YlmCoeffs
import Verif.Props.Quadrature
import Verif.Props.Fourier
/-!
Property C49: the coefficients computed from the samples of a band-limited function are its coefficients.
-/
namespace Elliptica.Ylm
open Complex Polynomial Elliptica.Legendre
open scoped Nat

theorem rows_ok (y : ℕ → Res ℂ) (g : ℕ → ℂ) (n : ℕ) (h : ∀ i < n, y i = .ok (g i)) :
    ∃ r, rows y n = .ok r ∧ ∀ i < n, r i = (g i).re := by
  induction n with
  | zero => exact ⟨_, rfl, by simp⟩
  | succ n ih =>
    obtain ⟨r, h1, h2⟩ := ih (fun i hi => h i (by omega))
    refine ⟨_, by rw [rows, h1, Res.bind_ok, h n (by omega), Res.bind_ok], ?_⟩
    intro i hi
    split_ifs with h3
    · rw [h3]
    · exact h2 i (by omega)

/-- the polynomial P_l^m P_k^m -/
noncomputable def prodPoly (l k m : ℕ) : ℝ[X] := (1 - X ^ 2) ^ m * Q l m * Q k m

theorem prodPoly_eval (l k m : ℕ) (x : ℝ) (hx : x ∈ Set.Icc (-1 : ℝ) 1) : (prodPoly l k m).eval x = assoc l m x * assoc k m x := by
  have h0 : 0 ≤ 1 - x ^ 2 := by nlinarith [hx.1, hx.2]
  have hs := Real.sq_sqrt h0
  unfold prodPoly assoc Q
  rw [eval_mul, eval_mul, eval_pow]
  simp only [eval_sub, Polynomial.eval_one, eval_pow, eval_X]
  have e : ((-1 : ℝ) ^ m * √(1 - x ^ 2) ^ m) * ((-1) ^ m * √(1 - x ^ 2) ^ m) = (1 - x ^ 2) ^ m := by
    rw [← mul_pow, ← mul_pow]
    congr 1
    nlinarith [hs]
  rw [← e]; ring

theorem prodPoly_degree (l k m : ℕ) (hl : m ≤ l) (hk : m ≤ k) : (prodPoly l k m).natDegree ≤ l + k := by
  unfold prodPoly
  have h1 : ((1 - X ^ 2 : ℝ[X]) ^ m).natDegree ≤ 2 * m := by
    refine natDegree_pow_le.trans ?_
    have : (1 - X ^ 2 : ℝ[X]).natDegree ≤ 2 := by
      refine (natDegree_sub_le _ _).trans ?_
      simp
    nlinarith
  have h2 : ∀ l, m ≤ l → (Q l m).natDegree ≤ l - m := by
    intro l hl
    unfold Q
    refine (natDegree_iterate_derivative _ _).trans ?_
    have := natDegree_legendre l
    omega
  have := natDegree_mul_le (p := (1 - X ^ 2 : ℝ[X]) ^ m * Q l m) (q := Q k m)
  have := natDegree_mul_le (p := (1 - X ^ 2 : ℝ[X]) ^ m) (q := Q l m)
  have := h2 l hl
  have := h2 k hk
  omega

theorem ii_comp_neg (p : ℝ[X]) : Legendre.ii (p.comp (-X)) = Legendre.ii p := by
  unfold Legendre.ii
  have : ∀ x : ℝ, (p.comp (-X)).eval x = (fun y => p.eval y) (-x) := by intro x; simp [eval_comp]
  simp only [this]
  rw [intervalIntegral.integral_comp_neg (f := fun y => p.eval y)]
  simp

theorem Y_neg (l k : ℕ) (θ ϕ : ℝ) (hk : 0 < k) : Y l (-(k : ℤ)) θ ϕ = (-1) ^ k * (starRingEnd ℂ) (Y l k θ ϕ) := by
  unfold Y
  dsimp only
  rw [if_neg (by omega), if_pos (by omega)]
  simp

theorem Y_conj (l : ℕ) (m : ℤ) (θ ϕ : ℝ) (hm : m ≠ 0) : Y l (-m) θ ϕ = (-1) ^ m.natAbs * (starRingEnd ℂ) (Y l m θ ϕ) := by
  have hp : ∀ k : ℕ, ((-1 : ℂ) ^ k) * (-1) ^ k = 1 := by intro k; rw [← mul_pow]; simp
  rcases lt_or_gt_of_ne hm with h | h
  · obtain ⟨k, rfl⟩ : ∃ k : ℕ, m = -(k : ℤ) := ⟨m.natAbs, by omega⟩
    rw [neg_neg, Y_neg l k θ ϕ (by omega), map_mul, Complex.conj_conj, Int.natAbs_neg, Int.natAbs_natCast, map_pow, map_neg, map_one,
      ← mul_assoc, hp, one_mul]
  · obtain ⟨k, rfl⟩ : ∃ k : ℕ, m = (k : ℤ) := ⟨m.natAbs, by omega⟩
    rw [Y_neg l k θ ϕ (by omega), Int.natAbs_natCast]

theorem coef_conj (re im : ℕ → ℝ) (l : ℕ) (m : ℤ) (hm : m ≠ 0) : coef re im l (-m) = (-1) ^ m.natAbs * (starRingEnd ℂ) (coef re im l m) := by
  have hp : ∀ k : ℕ, ((-1 : ℂ) ^ k) * (-1) ^ k = 1 := by intro k; rw [← mul_pow]; simp
  unfold coef
  dsimp only
  rw [Int.natAbs_neg]
  rcases lt_or_gt_of_ne hm with h | h
  · rw [if_pos (by omega), if_neg (by omega), map_mul, Complex.conj_conj, map_pow, map_neg, map_one, ← mul_assoc, hp, one_mul]
  · rw [if_neg (by omega), if_pos (by omega)]

/-- coefficients of a real function: those of order 0 are real -/
def RealCoeffs (im : ℕ → ℝ) (L : ℕ) : Prop := ∀ l, l ≤ L → im (l * (l + 1) / 2) = 0

theorem series_eq (re im : ℕ → ℝ) (L : ℕ) (him : RealCoeffs im L) (θ ϕ : ℝ) :
    ((series re im L θ ϕ : ℝ) : ℂ) = ∑ l ∈ Finset.range (L + 1), ∑ m ∈ Finset.Icc (-l : ℤ) l, coef re im l m * Y l m θ ϕ := by
  unfold series
  apply Complex.conj_eq_iff_re.mp
  rw [map_sum]
  refine Finset.sum_congr rfl fun l hl => ?_
  rw [map_sum]
  have hp : ∀ k : ℕ, ((-1 : ℂ) ^ k) * (-1) ^ k = 1 := by intro k; rw [← mul_pow]; simp
  refine Finset.sum_equiv (Equiv.neg ℤ) (by intro m; simp only [Finset.mem_Icc, Equiv.neg_apply]; omega) fun m _ => ?_
  rw [Equiv.neg_apply]
  by_cases hm : m = 0
  · subst hm
    have h0 := him l (by rw [Finset.mem_range] at hl; omega)
    have hY : (starRingEnd ℂ) (Y l 0 θ ϕ) = Y l 0 θ ϕ := by
      rw [Y_eq]; simp
    have hc : (starRingEnd ℂ) (coef re im l 0) = coef re im l 0 := by
      unfold coef; simp [h0]
    rw [map_mul, neg_zero, hY, hc]
  · rw [coef_conj _ _ _ _ hm, Y_conj _ _ _ _ hm, map_mul]
    have := hp m.natAbs
    linear_combination (-(starRingEnd ℂ) (coef re im l m) * (starRingEnd ℂ) (Y l m θ ϕ)) * this

theorem cos_thetaAt (tab : ℕ → ℕ → ℝ) (N i : ℕ) (h : tab N i ∈ Set.Icc (-1 : ℝ) 1) :
    Real.cos (thetaAt (fun i n => tab n i) N i) = -tab N i ∧ thetaAt (fun i n => tab n i) N i ∈ Set.Icc 0 Real.pi := by
  unfold thetaAt
  exact ⟨Real.cos_arccos (by linarith [h.2]) (by linarith [h.1]), Real.arccos_nonneg _, Real.arccos_le_pi _⟩

/-- the phi part: the sum over the columns picks the order m -/
theorem phi_part (re im : ℕ → ℝ) (L Nphi : ℕ) (hN : 2 * L < Nphi) (him : RealCoeffs im L) (θ : ℝ) (f : ℕ → ℝ)
    (hf : ∀ j < Nphi, f j = series re im L θ (phiAt Nphi j)) (m : ℕ) (hm : m ≤ L) :
    expImphi f Nphi (-m) = ∑ k ∈ Finset.range (L + 1),
      if m ≤ k then 2 * Real.pi * (nrm k m * assoc k m (Real.cos θ)) * coef re im k m else 0 := by
  have hN0 : (Nphi : ℂ) ≠ 0 := by
    have : Nphi ≠ 0 := by omega
    exact_mod_cast this
  unfold expImphi
  have h1 : ∀ j ∈ Finset.range Nphi, (f j : ℂ) * cexp ((-(m : ℤ) : ℤ) * (2 * I * Real.pi / Nphi) * j) =
      ∑ k ∈ Finset.range (L + 1), ∑ m' ∈ Finset.Icc (-k : ℤ) k, coef re im k m' *
        ((if 0 ≤ m' then 1 else (-1) ^ m'.natAbs) * nrm k m'.natAbs * assoc k m'.natAbs (Real.cos θ)) *
        cexp (j * ((m' - m : ℤ) * (2 * Real.pi * I / Nphi))) := by
    intro j hj
    rw [hf j (Finset.mem_range.1 hj), series_eq re im L him, Finset.sum_mul]
    refine Finset.sum_congr rfl fun k _ => ?_
    rw [Finset.sum_mul]
    refine Finset.sum_congr rfl fun m' _ => ?_
    rw [Y_eq]
    have e : cexp (I * m' * (phiAt Nphi j : ℝ)) * cexp ((-(m : ℤ) : ℤ) * (2 * I * Real.pi / Nphi) * j) =
        cexp (j * ((m' - m : ℤ) * (2 * Real.pi * I / Nphi))) := by
      rw [← Complex.exp_add]
      congr 1
      unfold phiAt
      push_cast
      field_simp
      ring
    rw [← e]
    ring
  rw [Finset.sum_congr rfl h1, Finset.sum_comm, Finset.sum_mul]
  refine Finset.sum_congr rfl fun k hk => ?_
  rw [Finset.mem_range] at hk
  rw [Finset.sum_comm]
  have h2 : ∀ m' ∈ Finset.Icc (-k : ℤ) k, ∑ j ∈ Finset.range Nphi, coef re im k m' *
        ((if 0 ≤ m' then 1 else (-1) ^ m'.natAbs) * nrm k m'.natAbs * assoc k m'.natAbs (Real.cos θ)) *
        cexp (j * ((m' - m : ℤ) * (2 * Real.pi * I / Nphi))) =
      if m' = (m : ℤ) then coef re im k m * (nrm k m * assoc k m (Real.cos θ)) * Nphi else 0 := by
    intro m' hm'
    rw [Finset.mem_Icc] at hm'
    rw [← Finset.mul_sum, Fourier.sum_roots Nphi (by omega)]
    have hd : (Nphi : ℤ) ∣ (m' - m) ↔ m' = m := by
      constructor
      · intro h
        have := Int.eq_zero_of_abs_lt_dvd h (by rw [abs_lt]; constructor <;> omega)
        omega
      · rintro rfl; simp
    by_cases h : m' = (m : ℤ)
    · rw [if_pos h, if_pos (hd.2 h), h]; simp
    · rw [if_neg h, if_neg (fun h' => h (hd.1 h')), mul_zero]
  rw [Finset.sum_congr rfl h2, Finset.sum_ite_eq']
  by_cases hmk : m ≤ k
  · rw [if_pos (Finset.mem_Icc.2 (by omega)), if_pos hmk]
    field_simp
  · rw [if_neg (by rw [Finset.mem_Icc]; omega), if_neg hmk, zero_mul]

theorem gq_congr (tab : ℕ → ℕ → ℝ) (n : ℕ) (f g : ℕ → ℝ) (h : ∀ i < n, f i = g i) : Integ.gqLegendre tab n f = Integ.gqLegendre tab n g := by
  unfold Integ.gqLegendre
  by_cases h0 : n = 0
  · rw [if_pos h0, if_pos h0]
  rw [if_neg h0, if_neg h0]
  have : ∀ (F G : ℕ → Res ℝ) (k : ℕ), (∀ i < k, F i = G i) → Integ.resSum F k = Integ.resSum G k := by
    intro F G k
    induction k with
    | zero => intro _; rfl
    | succ k ih => intro h; unfold Integ.resSum; rw [ih (fun i hi => h i (by omega)), h k (by omega)]
  apply this
  intro i hi
  rw [h i hi]

theorem nrm_sq (l m : ℕ) (hm : m ≤ l) : 2 * Real.pi * (nrm l m * nrm l m) * (2 / (2 * l + 1) * ((l + m)! / (l - m)!)) = 1 := by
  unfold nrm
  rw [Real.mul_self_sqrt (by positivity)]
  have := Real.pi_pos.ne'
  have h1 : ((l + m)! : ℝ) ≠ 0 := by positivity
  have h2 : ((l - m)! : ℝ) ≠ 0 := by positivity
  have h3 : (2 * (l : ℝ) + 1) ≠ 0 := by positivity
  field_simp
  norm_num

/-- the table of roots, exactly: different roots of the Legendre polynomial in [-1,1] -/
structure ExactRoots (tab : ℕ → ℕ → ℝ) (n : ℕ) : Prop where
  inj : Set.InjOn (tab n) (Finset.range n)
  root : ∀ i < n, (legendre n).eval (tab n i) = 0
  mem : ∀ i < n, tab n i ∈ Set.Icc (-1 : ℝ) 1

/-- the theta part: the quadrature picks the degree l -/
theorem theta_part (tab : ℕ → ℕ → ℝ) (n L : ℕ) (hL : L < n) (hn : n < 100) (ht : ExactRoots tab n) (l m : ℕ) (hm : m ≤ l) (hl : l ≤ L)
    (c : ℕ → ℝ) :
    Integ.gqLegendre tab n (fun i => (nrm l m * assoc l m (-tab n i)) *
      ∑ k ∈ Finset.range (L + 1), if m ≤ k then 2 * Real.pi * (nrm k m * assoc k m (-tab n i)) * c k else 0) = .ok (c l) := by
  set p : ℝ[X] := ∑ k ∈ Finset.range (L + 1), C (if m ≤ k then 2 * Real.pi * (nrm l m * nrm k m) * c k else 0) * prodPoly l k m with hp
  have hdeg : (p.comp (-X)).degree < (2 * n : ℕ) := by
    refine lt_of_le_of_lt degree_le_natDegree ?_
    have h1 : p.natDegree ≤ l + L := by
      refine natDegree_sum_le_of_forall_le _ _ fun k hk => ?_
      rw [Finset.mem_range] at hk
      by_cases h : m ≤ k
      · refine (natDegree_C_mul_le _ _).trans ((prodPoly_degree l k m hm h).trans (by omega))
      · rw [if_neg h]; simp
    have h2 := natDegree_comp_le (p := p) (q := -X)
    rw [natDegree_neg, natDegree_X, mul_one] at h2
    exact_mod_cast (by omega : (p.comp (-X)).natDegree < 2 * n)
  have hq := Integ.C48_legendre n (by omega) hn tab ht.inj ht.root ht.mem (p.comp (-X)) hdeg
  rw [gq_congr tab n _ (fun i => (p.comp (-X)).eval (tab n i)), hq]
  · congr 1
    change Legendre.ii (p.comp (-X)) = c l
    rw [ii_comp_neg, hp, Legendre.ii_sum]
    have h3 : ∀ k ∈ Finset.range (L + 1), Legendre.ii (C (if m ≤ k then 2 * Real.pi * (nrm l m * nrm k m) * c k else 0) * prodPoly l k m) =
        if k = l then c l else 0 := by
      intro k _
      rw [Legendre.ii_C_mul]
      by_cases h : m ≤ k
      · unfold prodPoly
        rw [if_pos h, Legendre.ortho_assoc l k m hm h]
        by_cases hk : k = l
        · subst hk
          rw [if_pos rfl, if_pos rfl]
          have := nrm_sq k m hm
          linear_combination c k * this
        · rw [if_neg (fun h => hk h.symm), if_neg hk, mul_zero]
      · rw [if_neg h, zero_mul, if_neg (by omega)]
    rw [Finset.sum_congr rfl h3, Finset.sum_ite_eq', if_pos (Finset.mem_range.2 (by omega))]
  · intro i hi
    have hx : -tab n i ∈ Set.Icc (-1 : ℝ) 1 := by
      have := ht.mem i hi
      exact ⟨by linarith [this.2], by linarith [this.1]⟩
    rw [eval_comp, eval_neg, eval_X, hp, eval_finsetSum, Finset.mul_sum]
    refine Finset.sum_congr rfl fun k _ => ?_
    rw [eval_mul, eval_C, prodPoly_eval l k m _ hx]
    split_ifs <;> ring

/-- the coefficients stored for (l,m) -/
theorem thetaPart_ok (tab : ℕ → ℕ → ℝ) (n L Nphi : ℕ) (hL : L < n) (hn : n < 100) (ht : ExactRoots tab n) (hN : 2 * L < Nphi)
    (re im : ℕ → ℝ) (him : RealCoeffs im L) (f : ℕ → ℝ)
    (hf : ∀ i < n, ∀ j < Nphi, f (j + i * Nphi) = series re im L (thetaAt (fun i n => tab n i) n i) (phiAt Nphi j))
    (l m : ℕ) (hm : m ≤ l) (hl : l ≤ L) :
    thetaPart tab n l m (fun i => expImphi (fun j => f (j + i * Nphi)) Nphi (-m)) = .ok (re (lm2n l m), im (lm2n l m)) := by
  have hth := fun i (hi : i < n) => cos_thetaAt tab n i (ht.mem i hi)
  obtain ⟨r, hr1, hr2⟩ := rows_ok (fun i => ylm l m (thetaAt (fun i n => tab n i) n i) 0)
    (fun i => Y l m (thetaAt (fun i n => tab n i) n i) 0) n (fun i hi => C47_ylm l m (by simpa using hm) _ _ (hth i hi).2
      ⟨le_rfl, by linarith [Real.pi_pos]⟩)
  have hr3 : ∀ i < n, r i = nrm l m * assoc l m (-tab n i) := by
    intro i hi
    rw [hr2 i hi, Y_eq, (hth i hi).1, if_pos (by omega), Int.natAbs_natCast]
    simp only [Complex.ofReal_zero, mul_zero, Complex.exp_zero, mul_one, one_mul]
    rw [← Complex.ofReal_mul, Complex.ofReal_re]
  have hv : ∀ i < n, expImphi (fun j => f (j + i * Nphi)) Nphi (-m) = ∑ k ∈ Finset.range (L + 1),
      if m ≤ k then 2 * Real.pi * (nrm k m * assoc k m (-tab n i)) * coef re im k m else 0 := by
    intro i hi
    rw [phi_part re im L Nphi hN him _ _ (hf i hi) m (by omega), (hth i hi).1]
  have hc : ∀ k : ℕ, (coef re im k m).re = re (lm2n k m) ∧ (coef re im k m).im = im (lm2n k m) := by
    intro k
    unfold coef lm2n
    simp
  have hterm : ∀ (x y : ℝ) (z : ℂ), (2 * (x : ℂ) * y * z).re = 2 * x * y * z.re ∧ (2 * (x : ℂ) * y * z).im = 2 * x * y * z.im := by
    intro x y z
    have : (2 * (x : ℂ) * y) = ((2 * x * y : ℝ) : ℂ) := by push_cast; rfl
    rw [this]
    exact ⟨Complex.re_ofReal_mul _ _, Complex.im_ofReal_mul _ _⟩
  unfold thetaPart
  rw [hr1, Res.bind_ok]
  have t1 := theta_part tab n L hL hn ht l m hm hl (fun k => re (lm2n k m))
  have t2 := theta_part tab n L hL hn ht l m hm hl (fun k => im (lm2n k m))
  rw [gq_congr tab n _ _ (fun i hi => ?_), t1, Res.bind_ok, gq_congr tab n _ _ (fun i hi => ?_), t2, Res.bind_ok]
  · dsimp only
    rw [hr3 i hi, hv i hi, Complex.im_sum]
    congr 1
    refine Finset.sum_congr rfl fun k _ => ?_
    split_ifs
    · rw [← Complex.ofReal_mul, (hterm _ _ _).2, (hc k).2]
    · simp
  · dsimp only
    rw [hr3 i hi, hv i hi, Complex.re_sum]
    congr 1
    refine Finset.sum_congr rfl fun k _ => ?_
    split_ifs
    · rw [← Complex.ofReal_mul, (hterm _ _ _).1, (hc k).1]
    · simp

theorem lm2n_inj {l m l' m' : ℕ} (h : m ≤ l) (h' : m' ≤ l') (e : lm2n l m = lm2n l' m') : l = l' ∧ m = m' := by
  have := (C47_lm2n (lm2n l m)).unique (y₁ := (l, m)) (y₂ := (l', m')) ⟨h, rfl⟩ ⟨h', e.symm⟩
  exact ⟨congrArg Prod.fst this, congrArg Prod.snd this⟩

/-- the loops over l and m write every coefficient once -/
theorem loops_ok (tab : ℕ → ℕ → ℝ) (f : ℕ → ℝ) (n Nphi : ℕ) (re im : ℕ → ℝ) (a : (ℕ → ℝ) × (ℕ → ℝ)) (K : ℕ)
    (h : ∀ l < K, ∀ m ≤ l, thetaPart tab n l m (fun i => expImphi (fun j => f (j + i * Nphi)) Nphi (-m)) = .ok (re (lm2n l m), im (lm2n l m))) :
    ∃ b, (List.range K).foldl (fun (s : Res ((ℕ → ℝ) × (ℕ → ℝ))) l =>
      (List.range (l + 1)).foldl (fun (s : Res ((ℕ → ℝ) × (ℕ → ℝ))) m => s.bind (coeffStep tab f n Nphi l · m)) s) (.ok a) = .ok b ∧
      (∀ l < K, ∀ m ≤ l, b.1 (lm2n l m) = re (lm2n l m) ∧ b.2 (lm2n l m) = im (lm2n l m)) ∧
      ∀ q, (∀ l < K, ∀ m ≤ l, q ≠ lm2n l m) → b.1 q = a.1 q ∧ b.2 q = a.2 q := by
  induction K with
  | zero => exact ⟨a, rfl, by simp, by simp⟩
  | succ K ih =>
    obtain ⟨b, h1, h2, h3⟩ := ih (fun l hl => h l (by omega))
    rw [List.range_succ, List.foldl_append, h1, List.foldl_cons, List.foldl_nil]
    have inner : ∀ k, k ≤ K + 1 → ∃ c, (List.range k).foldl (fun (s : Res ((ℕ → ℝ) × (ℕ → ℝ))) m => s.bind (coeffStep tab f n Nphi K · m)) (.ok b) = .ok c ∧
        (∀ m < k, c.1 (lm2n K m) = re (lm2n K m) ∧ c.2 (lm2n K m) = im (lm2n K m)) ∧
        ∀ q, (∀ m < k, q ≠ lm2n K m) → c.1 q = b.1 q ∧ c.2 q = b.2 q := by
      intro k
      induction k with
      | zero => intro _; exact ⟨b, rfl, by simp, by simp⟩
      | succ k ihk =>
        intro hk
        obtain ⟨c, c1, c2, c3⟩ := ihk (by omega)
        rw [List.range_succ, List.foldl_append, c1, List.foldl_cons, List.foldl_nil, Res.bind_ok, coeffStep, h K (by omega) k (by omega), Res.bind_ok]
        refine ⟨_, rfl, ?_, ?_⟩
        · intro m hm
          dsimp only
          by_cases e : m = k
          · subst e; simp
          · have : lm2n K m ≠ lm2n K k := fun h => e (lm2n_inj (by omega) (by omega) h).2
            rw [if_neg this, if_neg this]
            exact c2 m (by omega)
        · intro q hq
          dsimp only
          rw [if_neg (hq k (by omega)), if_neg (hq k (by omega))]
          exact c3 q (fun m hm => hq m (by omega))
    obtain ⟨c, c1, c2, c3⟩ := inner (K + 1) le_rfl
    refine ⟨c, c1, ?_, ?_⟩
    · intro l hl m hm
      by_cases e : l = K
      · subst e; exact c2 m (by omega)
      · have := c3 (lm2n l m) (fun m' hm' h' => e (lm2n_inj hm (by omega) h').1)
        rw [this.1, this.2]
        exact h2 l (by omega) m hm
    · intro q hq
      obtain ⟨e1, e2⟩ := c3 q (fun m hm => hq K (by omega) m (by omega))
      rw [e1, e2]
      exact h3 q (fun l hl => hq l (by omega))

/-- **C49.** Sample, on Ntheta rows and Nphi columns with Ntheta > L and Nphi > 2L, the function with any coefficients up to
degree L (real ones for order 0): `get_Ylm_coeffs` returns exactly these coefficients and touches no other memory.  The table
of roots is exact here. -/
theorem C49_coeffs (tab : ℕ → ℕ → ℝ) (Ntheta Nphi L : ℕ) (hL : L < Ntheta) (hn : Ntheta < 100) (ht : ExactRoots tab Ntheta) (hN : 2 * L < Nphi)
    (re im : ℕ → ℝ) (him : RealCoeffs im L) (f : ℕ → ℝ)
    (hf : ∀ i < Ntheta, ∀ j < Nphi, f (j + i * Nphi) = series re im L (thetaAt (fun i n => tab n i) Ntheta i) (phiAt Nphi j))
    (a : (ℕ → ℝ) × (ℕ → ℝ)) :
    ∃ b, getCoeffs tab f Ntheta Nphi L a = .ok b ∧
      (∀ l ≤ L, ∀ m ≤ l, b.1 (l * (l + 1) / 2 + m) = re (l * (l + 1) / 2 + m) ∧ b.2 (l * (l + 1) / 2 + m) = im (l * (l + 1) / 2 + m)) ∧
      ∀ q, (L + 1) * (L + 2) / 2 ≤ q → b.1 q = a.1 q ∧ b.2 q = a.2 q := by
  unfold getCoeffs
  rw [if_neg (by omega), if_neg (by omega)]
  obtain ⟨b, h1, h2, h3⟩ := loops_ok tab f Ntheta Nphi re im a (L + 1)
    (fun l hl m hm => thetaPart_ok tab Ntheta L Nphi hL hn ht hN re im him f hf l m hm (by omega))
  refine ⟨b, h1, fun l hl m hm => h2 l (by omega) m hm, fun q hq => h3 q fun l hl m hm e => ?_⟩
  have := (C47_lm2n_range L l m hm).2 (by omega)
  rw [← e] at this
  unfold numClm at this
  have h4 := tri_succ L
  rw [Nat.mul_comm (L + 1) L] at this
  have h5 : (L + 1) * (L + 2) / 2 = L * (L + 1) / 2 + (L + 1) := h4
  omega

/-- imaginary parts of order 0 have no effect on the function -/
theorem series_im0 (re im im' : ℕ → ℝ) (L : ℕ) (h : ∀ l m, m ≤ l → 0 < m → im' (lm2n l m) = im (lm2n l m)) (θ ϕ : ℝ) :
    series re im' L θ ϕ = series re im L θ ϕ := by
  unfold series
  rw [Complex.re_sum, Complex.re_sum]
  refine Finset.sum_congr rfl fun l _ => ?_
  rw [Complex.re_sum, Complex.re_sum]
  refine Finset.sum_congr rfl fun m hm => ?_
  rw [Finset.mem_Icc] at hm
  by_cases h0 : m = 0
  · subst h0
    have hY : (Y l 0 θ ϕ).im = 0 := by
      rw [Y_eq]; simp
    rw [Complex.mul_re, Complex.mul_re, hY]
    simp [coef]
  · have := h l m.natAbs (by omega) (by omega)
    unfold lm2n at this
    unfold coef
    dsimp only
    rw [this]

/-- **C49 (round trip).** Any coefficients, sampled on the grid with `interpolation_Ylm` and transformed back, describe the
same function: interpolation with the new coefficients returns what interpolation with the old ones returns, at every
point of the sphere. -/
theorem C49_roundtrip (tab : ℕ → ℕ → ℝ) (Ntheta Nphi L : ℕ) (hL : L < Ntheta) (hn : Ntheta < 100) (ht : ExactRoots tab Ntheta) (hN : 2 * L < Nphi)
    (re im : ℕ → ℝ) (f : ℕ → ℝ)
    (hf : ∀ i < Ntheta, ∀ j < Nphi, interp re im L (thetaAt (fun i n => tab n i) Ntheta i) (phiAt Nphi j) = .ok (f (j + i * Nphi)))
    (a : (ℕ → ℝ) × (ℕ → ℝ)) :
    ∃ b, getCoeffs tab f Ntheta Nphi L a = .ok b ∧
      ∀ θ ∈ Set.Icc 0 Real.pi, ∀ ϕ ∈ Set.Icc 0 (2 * Real.pi), interp b.1 b.2 L θ ϕ = interp re im L θ ϕ := by
  classical
  have hphi : ∀ j < Nphi, phiAt Nphi j ∈ Set.Icc 0 (2 * Real.pi) := by
    intro j hj
    unfold phiAt
    have h1 : (j : ℝ) ≤ Nphi := by exact_mod_cast hj.le
    have h2 : (0 : ℝ) < Nphi := by exact_mod_cast (by omega : 0 < Nphi)
    refine ⟨by positivity, ?_⟩
    rw [div_le_iff₀ h2]
    nlinarith [Real.pi_pos]
  set im' : ℕ → ℝ := fun q => if ∃ l, q = l * (l + 1) / 2 then 0 else im q with him'
  have hs := series_im0 re im im' L (fun l m hm h0 => by
    rw [him']
    dsimp only
    rw [if_neg]
    rintro ⟨l', e⟩
    have := lm2n_inj (m' := 0) hm (Nat.zero_le l') e
    omega)
  obtain ⟨b, h1, h2, _⟩ := C49_coeffs tab Ntheta Nphi L hL hn ht hN re im' (fun l _ => by rw [him']; exact if_pos ⟨l, rfl⟩) f (fun i hi j hj => by
    have := hf i hi j hj
    rw [C47_interp re im L _ _ (cos_thetaAt tab Ntheta i (ht.mem i hi)).2 (hphi j hj)] at this
    injection this with this
    rw [hs]
    exact this.symm) a
  refine ⟨b, h1, fun θ hθ ϕ hϕ => ?_⟩
  rw [C47_interp _ _ L θ ϕ hθ hϕ, C47_interp _ _ L θ ϕ hθ hϕ, ← hs]
  congr 1
  unfold series
  congr 1
  refine Finset.sum_congr rfl fun l hl => Finset.sum_congr rfl fun m hm => ?_
  congr 1
  rw [Finset.mem_range] at hl
  rw [Finset.mem_Icc] at hm
  unfold coef
  dsimp only
  obtain ⟨e1, e2⟩ := h2 l (by omega) m.natAbs (by omega)
  rw [e1, e2]

/-- Unusable numbers of rows are refused. -/
theorem C49_refused (tab : ℕ → ℕ → ℝ) (f : ℕ → ℝ) (Ntheta Nphi L : ℕ) (a : (ℕ → ℝ) × (ℕ → ℝ)) (h : Ntheta = 0 ∨ 100 ≤ Ntheta) :
    getCoeffs tab f Ntheta Nphi L a = .abort := by
  unfold getCoeffs
  rw [if_pos h]

/-- The recommended sizes Ntheta = Nphi = 2 Lmax + 1 (maths_spectral_methods_lib.h:8-10) meet the hypotheses exactly up to
Lmax = 49; the table of roots exists. -/
theorem C49_recommended (L : ℕ) (hL : L < 50) : ∃ tab : ℕ → ℕ → ℝ, ExactRoots tab (2 * L + 1) ∧ L < 2 * L + 1 ∧ 2 * L + 1 < 100 ∧
    2 * L < 2 * L + 1 ∧ ∀ i < 2 * L + 1, |tab (2 * L + 1) i - Integ.legTable (2 * L + 1) i| ≤ 1e-18 := by
  obtain ⟨x, h1, h2, _⟩ := Integ.C48_legendre_table (2 * L + 1) (by omega)
  refine ⟨fun _ => x, ⟨?_, fun i hi => (h1 i hi).1, fun i hi => ?_⟩, by omega, by omega, by omega, fun i hi => (h1 i hi).2.1⟩
  · intro i hi j hj e
    simp only [Finset.coe_range, Set.mem_Iio] at hi hj
    by_contra hne
    rcases lt_or_gt_of_ne hne with h | h
    · have := h2 i j h hj; linarith
    · have := h2 j i h hi; linarith
  · have := (h1 i hi).2.2
    rw [abs_lt] at this
    constructor <;> linarith [this.1, this.2]

/-- The recommended sizes for Lmax ≥ 50 are refused, whatever the data. -/
theorem C49_large_violation (tab : ℕ → ℕ → ℝ) (f : ℕ → ℝ) (L : ℕ) (a : (ℕ → ℝ) × (ℕ → ℝ)) (hL : 50 ≤ L) :
    getCoeffs tab f (2 * L + 1) (2 * L + 1) L a = .abort := C49_refused _ _ _ _ _ _ (by omega)

/-- The hypotheses of `C49_coeffs` are met with L = 2 and a function with nonzero coefficients of all orders. -/
example : ∃ (tab : ℕ → ℕ → ℝ) (f : ℕ → ℝ) (b : (ℕ → ℝ) × (ℕ → ℝ)), getCoeffs tab f 5 5 2 (fun _ => 0, fun _ => 0) = .ok b ∧
    b.1 4 = 5 ∧ b.2 5 = 7 := by
  obtain ⟨tab, ht, _⟩ := C49_recommended 2 (by omega)
  let re : ℕ → ℝ := fun q => q + 1
  let im : ℕ → ℝ := fun q => if q = 0 ∨ q = 1 ∨ q = 3 then 0 else q + 2
  let f : ℕ → ℝ := fun q => series re im 2 (thetaAt (fun i n => tab n i) 5 (q / 5)) (phiAt 5 (q % 5))
  obtain ⟨b, h1, h2, _⟩ := C49_coeffs tab 5 5 2 (by omega) (by omega) ht (by omega) re im
    (by intro l hl; interval_cases l <;> simp [im]) f (fun i hi j hj => by
      have e1 : (j + i * 5) / 5 = i := by omega
      have e2 : (j + i * 5) % 5 = j := by omega
      simp only [f, e1, e2]) (fun _ => 0, fun _ => 0)
  refine ⟨tab, f, b, h1, ?_, ?_⟩
  · have := (h2 2 le_rfl 1 (by omega)).1
    norm_num [re] at this ⊢
    exact this
  · have := (h2 2 le_rfl 2 (by omega)).2
    norm_num [im] at this ⊢
    exact this

end Elliptica.Ylm
