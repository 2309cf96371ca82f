import Verif.Props.YlmCoeffs
/-!
Property C49, continued: the coefficients of a function of the angles that is only known within an error.
-/
namespace Elliptica.Ylm
open Complex Polynomial Elliptica.Legendre

/-- the quadrature is a sum with nonnegative weights -/
theorem gq_weights (n : ℕ) (h0 : 0 < n) (hn : n < 100) (tab : ℕ → ℕ → ℝ) (hin : ∀ i < n, tab n i ∈ Set.Icc (-1 : ℝ) 1) :
    ∃ w : ℕ → ℝ, (∀ i < n, 0 ≤ w i) ∧ ∀ f, Integ.gqLegendre tab n f = .ok (∑ i ∈ Finset.range n, w i * f i) := by
  have hw : ∀ i < n, ∃ d : ℝ, Integ.legWeight (tab n i) n = .ok (2 / d ^ 2) := by
    intro i hi
    unfold Integ.legWeight Ylm.dAssocLegendre
    rw [if_neg (by omega), if_neg (by omega), if_pos rfl]
    have := Ylm.C47_legendre n 1 (by omega) (tab n i) (hin i hi)
    rw [Nat.cast_one] at this
    rw [this, Res.bind_ok, Res.bind_ok]
    exact ⟨_, rfl⟩
  choose d hd using hw
  refine ⟨fun i => if h : i < n then 2 / d i h ^ 2 else 0, fun i hi => ?_, fun f => ?_⟩
  · dsimp only; rw [dif_pos hi]; positivity
  · unfold Integ.gqLegendre
    rw [if_neg (by omega)]
    apply Integ.resSum_ok
    intro i hi
    dsimp only
    unfold Integ.legRoot
    rw [if_neg (by omega), if_neg (by omega), Res.bind_ok, hd i hi, Res.bind_ok, dif_pos hi]

theorem expImphi_bound (f g : ℕ → ℝ) (n : ℕ) (m : ℤ) (ε : ℝ) (h : ∀ j < n, |f j - g j| ≤ ε) (hn : 0 < n) :
    ‖expImphi f n m - expImphi g n m‖ ≤ 2 * Real.pi * ε := by
  unfold expImphi
  rw [← sub_mul, ← Finset.sum_sub_distrib, norm_mul]
  have h1 : ‖∑ i ∈ Finset.range n, ((f i : ℂ) * cexp (m * (2 * I * Real.pi / n) * i) - g i * cexp (m * (2 * I * Real.pi / n) * i))‖ ≤ n * ε := by
    refine (norm_sum_le _ _).trans ?_
    refine (Finset.sum_le_card_nsmul _ _ ε fun i hi => ?_).trans (by simp)
    rw [← sub_mul, norm_mul, ← Complex.ofReal_sub, Complex.norm_real,
      show cexp (m * (2 * I * Real.pi / n) * i) = cexp (((m * (2 * Real.pi / n) * i : ℝ) : ℂ) * I) by
        congr 1; push_cast; ring, Complex.norm_exp_ofReal_mul_I, mul_one]
    exact h i (Finset.mem_range.1 hi)
  have h2 : ‖(2 * Real.pi / n : ℂ)‖ = 2 * Real.pi / n := by
    rw [show (2 * Real.pi / n : ℂ) = ((2 * Real.pi / n : ℝ) : ℂ) by push_cast; rfl, Complex.norm_real, Real.norm_eq_abs,
      abs_of_nonneg (by positivity)]
  rw [h2]
  have hn' : (0 : ℝ) < n := by exact_mod_cast hn
  calc _ ≤ n * ε * (2 * Real.pi / n) := mul_le_mul_of_nonneg_right h1 (by positivity)
    _ = _ := by field_simp

/-- one pair (l,m) for any two arrays of rows: the difference of the results is at most 1/√π times that of the rows -/
theorem thetaPart_close (tab : ℕ → ℕ → ℝ) (n L : ℕ) (hL : L < n) (hn : n < 100) (ht : ExactRoots tab n) (l m : ℕ) (hm : m ≤ l) (hl : l ≤ L)
    (v w : ℕ → ℂ) (δ : ℝ) (hδ : ∀ i < n, ‖v i - w i‖ ≤ δ) :
    ∃ a b, thetaPart tab n l m v = .ok a ∧ thetaPart tab n l m w = .ok b ∧ |a.1 - b.1| ≤ δ / √Real.pi ∧ |a.2 - b.2| ≤ δ / √Real.pi := by
  have hth := fun i (hi : i < n) => cos_thetaAt tab n i (ht.mem i hi)
  obtain ⟨r, hr1, hr2⟩ := rows_ok (fun i => ylm l m (thetaAt (fun i n => tab n i) n i) 0)
    (fun i => Y l m (thetaAt (fun i n => tab n i) n i) 0) n (fun i hi => C47_ylm l m (by simpa using hm) _ _ (hth i hi).2
      ⟨le_rfl, by linarith [Real.pi_pos]⟩)
  have hr3 : ∀ i < n, r i = nrm l m * assoc l m (-tab n i) := by
    intro i hi
    rw [hr2 i hi, Y_eq, (hth i hi).1, if_pos (by omega), Int.natAbs_natCast]
    simp only [Complex.ofReal_zero, mul_zero, Complex.exp_zero, mul_one, one_mul]
    rw [← Complex.ofReal_mul, Complex.ofReal_re]
  obtain ⟨W, hW0, hW⟩ := gq_weights n (by omega) hn tab ht.mem
  -- the sum of the weights and the norm of the rows
  have s1 : ∑ i ∈ Finset.range n, W i = 2 := by
    have := Integ.C48_legendre n (by omega) hn tab ht.inj ht.root ht.mem (C 1) (lt_of_le_of_lt degree_C_le (by exact_mod_cast (by omega : 0 < 2 * n)))
    rw [hW] at this
    have := Res.ok.inj this
    simp only [eval_C, mul_one] at this
    rw [this]
    simp [Integ.whole]
    norm_num
  have s2 : ∑ i ∈ Finset.range n, W i * r i ^ 2 = 1 / (2 * Real.pi) := by
    have := theta_part tab n L hL hn ht l m hm hl (fun k => if k = l then 1 else 0)
    rw [hW] at this
    have := Res.ok.inj this
    rw [if_pos rfl] at this
    rw [eq_div_iff (by positivity), ← this, Finset.sum_mul]
    refine Finset.sum_congr rfl fun i hi => ?_
    rw [hr3 i (Finset.mem_range.1 hi), Finset.sum_eq_single l]
    · rw [if_pos hm, if_pos rfl]; ring
    · intro k _ hk; rw [if_neg hk]; simp
    · intro h; exact absurd (Finset.mem_range.2 (by omega)) h
  have hq : 0 < √Real.pi := Real.sqrt_pos.2 Real.pi_pos
  have hq2 : √Real.pi * √Real.pi = Real.pi := Real.mul_self_sqrt Real.pi_pos.le
  have s3 : ∑ i ∈ Finset.range n, W i * |r i| ≤ 1 / √Real.pi := by
    have : ∀ i ∈ Finset.range n, W i * |r i| ≤ √Real.pi * (W i * r i ^ 2) + W i * (1 / (4 * √Real.pi)) := by
      intro i hi
      have hw := hW0 i (Finset.mem_range.1 hi)
      have : |r i| ≤ √Real.pi * r i ^ 2 + 1 / (4 * √Real.pi) := by
        rw [← sq_abs (r i)]
        have h : √Real.pi * |r i| ^ 2 + 1 / (4 * √Real.pi) - |r i| = (2 * √Real.pi * |r i| - 1) ^ 2 / (4 * √Real.pi) := by
          field_simp; ring
        have : 0 ≤ (2 * √Real.pi * |r i| - 1) ^ 2 / (4 * √Real.pi) := by positivity
        linarith
      calc _ ≤ W i * (√Real.pi * r i ^ 2 + 1 / (4 * √Real.pi)) := mul_le_mul_of_nonneg_left this hw
        _ = _ := by ring
    refine (Finset.sum_le_sum this).trans (le_of_eq ?_)
    rw [Finset.sum_add_distrib, ← Finset.mul_sum, ← Finset.sum_mul, s1, s2]
    nth_rewrite 2 [← hq2]
    field_simp
    norm_num
  have key : ∀ x y : ℕ → ℝ, (∀ i < n, |x i - y i| ≤ δ) →
      |(∑ i ∈ Finset.range n, W i * (r i * x i)) - ∑ i ∈ Finset.range n, W i * (r i * y i)| ≤ δ / √Real.pi := by
    intro x y hxy
    rw [← Finset.sum_sub_distrib]
    refine (Finset.abs_sum_le_sum_abs _ _).trans ?_
    have h0 : 0 ≤ δ := (abs_nonneg _).trans (hxy 0 (by omega))
    have : ∀ i ∈ Finset.range n, |W i * (r i * x i) - W i * (r i * y i)| ≤ W i * |r i| * δ := by
      intro i hi
      have hw := hW0 i (Finset.mem_range.1 hi)
      rw [show W i * (r i * x i) - W i * (r i * y i) = W i * r i * (x i - y i) by ring, abs_mul, abs_mul, abs_of_nonneg hw]
      exact mul_le_mul_of_nonneg_left (hxy i (Finset.mem_range.1 hi)) (by positivity)
    refine (Finset.sum_le_sum this).trans ?_
    rw [← Finset.sum_mul]
    calc _ ≤ 1 / √Real.pi * δ := mul_le_mul_of_nonneg_right s3 h0
      _ = _ := by ring
  refine ⟨_, _, by rw [thetaPart, hr1, Res.bind_ok, hW, Res.bind_ok, hW, Res.bind_ok], by rw [thetaPart, hr1, Res.bind_ok, hW, Res.bind_ok, hW, Res.bind_ok],
    key _ _ fun i hi => ?_, key _ _ fun i hi => ?_⟩
  · rw [← Complex.sub_re]; exact (Complex.abs_re_le_norm _).trans (hδ i hi)
  · rw [← Complex.sub_im]; exact (Complex.abs_im_le_norm _).trans (hδ i hi)

/-- **C49 (error).** From values that differ from a combination of spherical harmonics of degree at most L by at most ε at every point of the grid of
angles, every coefficient comes out within 2√π ε. -/
theorem C49_stable (tab : ℕ → ℕ → ℝ) (Ntheta Nphi L : ℕ) (hL : L < Ntheta) (hn : Ntheta < 100) (ht : ExactRoots tab Ntheta) (hN : 2 * L < Nphi)
    (re im : ℕ → ℝ) (him : RealCoeffs im L) (f : ℕ → ℝ) (ε : ℝ)
    (hf : ∀ i < Ntheta, ∀ j < Nphi, |f (j + i * Nphi) - series re im L (thetaAt (fun i n => tab n i) Ntheta i) (phiAt Nphi j)| ≤ ε)
    (a : (ℕ → ℝ) × (ℕ → ℝ)) :
    ∃ b, getCoeffs tab f Ntheta Nphi L a = .ok b ∧
      ∀ l ≤ L, ∀ m ≤ l, |b.1 (l * (l + 1) / 2 + m) - re (l * (l + 1) / 2 + m)| ≤ 2 * √Real.pi * ε ∧
        |b.2 (l * (l + 1) / 2 + m) - im (l * (l + 1) / 2 + m)| ≤ 2 * √Real.pi * ε := by
  have hq2 : √Real.pi * √Real.pi = Real.pi := Real.mul_self_sqrt Real.pi_pos.le
  have hq : 0 < √Real.pi := Real.sqrt_pos.2 Real.pi_pos
  let g : ℕ → ℝ := fun q => series re im L (thetaAt (fun i n => tab n i) Ntheta (q / Nphi)) (phiAt Nphi (q % Nphi))
  have hN0 : 0 < Nphi := by omega
  have hg : ∀ i, ∀ j < Nphi, g (j + i * Nphi) = series re im L (thetaAt (fun i n => tab n i) Ntheta i) (phiAt Nphi j) := by
    intro i j hj
    dsimp only [g]
    rw [Nat.add_mul_div_right _ _ hN0, Nat.div_eq_of_lt hj, zero_add, Nat.add_mul_mod_self_right, Nat.mod_eq_of_lt hj]
  have step : ∀ l m, ∃ c : ℝ × ℝ, l ≤ L → m ≤ l →
      thetaPart tab Ntheta l m (fun i => expImphi (fun j => f (j + i * Nphi)) Nphi (-m)) = .ok c ∧
      |c.1 - re (lm2n l m)| ≤ 2 * √Real.pi * ε ∧ |c.2 - im (lm2n l m)| ≤ 2 * √Real.pi * ε := by
    intro l m
    by_cases h : l ≤ L ∧ m ≤ l
    · obtain ⟨x, y, h1, h2, h3, h4⟩ := thetaPart_close tab Ntheta L hL hn ht l m h.2 h.1
        (fun i => expImphi (fun j => f (j + i * Nphi)) Nphi (-m)) (fun i => expImphi (fun j => g (j + i * Nphi)) Nphi (-m)) (2 * Real.pi * ε)
        (fun i hi => expImphi_bound _ _ _ _ _ (fun j hj => by rw [hg i j hj]; exact hf i hi j hj) hN0)
      rw [thetaPart_ok tab Ntheta L Nphi hL hn ht hN re im him g (fun i _ j hj => hg i j hj) l m h.2 h.1] at h2
      have h2 := Res.ok.inj h2
      have e : 2 * Real.pi * ε / √Real.pi = 2 * √Real.pi * ε := by
        rw [div_eq_iff hq.ne']
        linear_combination (-2 * ε) * hq2
      rw [← h2, e] at h3 h4
      exact ⟨x, fun _ _ => ⟨h1, h3, h4⟩⟩
    · exact ⟨(0, 0), fun a b => absurd ⟨a, b⟩ h⟩
  choose c hc using step
  classical
  let re' : ℕ → ℝ := fun q => if h : ∃ l m, m ≤ l ∧ q = lm2n l m then (c h.choose h.choose_spec.choose).1 else 0
  let im' : ℕ → ℝ := fun q => if h : ∃ l m, m ≤ l ∧ q = lm2n l m then (c h.choose h.choose_spec.choose).2 else 0
  have hri : ∀ l m, m ≤ l → re' (lm2n l m) = (c l m).1 ∧ im' (lm2n l m) = (c l m).2 := by
    intro l m hm
    have h : ∃ l' m', m' ≤ l' ∧ lm2n l m = lm2n l' m' := ⟨l, m, hm, rfl⟩
    obtain ⟨k1, k2⟩ := h.choose_spec.choose_spec
    obtain ⟨e1, e2⟩ := lm2n_inj hm k1 k2
    dsimp only [re', im']
    rw [dif_pos h, dif_pos h]
    constructor <;> rw [← e2, ← e1]
  obtain ⟨b, h1, h2, _⟩ := loops_ok tab f Ntheta Nphi re' im' a (L + 1) (fun l hl m hm => by
    rw [(hc l m (by omega) hm).1, (hri l m hm).1, (hri l m hm).2])
  refine ⟨b, by rw [getCoeffs, if_neg (by omega), if_neg (by omega)]; exact h1, fun l hl m hm => ?_⟩
  have k := hc l m hl hm
  have k2 := h2 l (by omega) m hm
  change |b.1 (lm2n l m) - re (lm2n l m)| ≤ _ ∧ |b.2 (lm2n l m) - im (lm2n l m)| ≤ _
  rw [k2.1, k2.2, (hri l m hm).1, (hri l m hm).2]
  exact k.2

/-- **C49 (success).** On such a grid of angles the coefficients are found whatever the values are. -/
theorem C49_total (tab : ℕ → ℕ → ℝ) (Ntheta Nphi L : ℕ) (hL : L < Ntheta) (hn : Ntheta < 100) (ht : ExactRoots tab Ntheta) (hN : 2 * L < Nphi)
    (f : ℕ → ℝ) (a : (ℕ → ℝ) × (ℕ → ℝ)) : ∃ b, getCoeffs tab f Ntheta Nphi L a = .ok b := by
  obtain ⟨b, h, _⟩ := C49_stable tab Ntheta Nphi L hL hn ht hN (fun _ => 0) (fun _ => 0) (fun l _ => rfl) f
    (∑ q ∈ Finset.range (Ntheta * Nphi), |f q|) (fun i hi j hj => by
      have : series (fun _ => 0) (fun _ => 0) L (thetaAt (fun i n => tab n i) Ntheta i) (phiAt Nphi j) = 0 := by
        simp [series, coef]
      rw [this, sub_zero]
      refine Finset.single_le_sum (f := fun q => |f q|) (fun q _ => abs_nonneg _) (Finset.mem_range.2 ?_)
      calc j + i * Nphi < Nphi + i * Nphi := by omega
        _ = (i + 1) * Nphi := by ring
        _ ≤ Ntheta * Nphi := Nat.mul_le_mul_right _ hi) a
  exact ⟨b, h⟩

/-- The hypotheses are met by the recommended grid for L = 2 and values that are off by up to 1/10 from a combination with nonzero coefficients. -/
example : ∃ (tab : ℕ → ℕ → ℝ) (f : ℕ → ℝ) (b : (ℕ → ℝ) × (ℕ → ℝ)), getCoeffs tab f 5 5 2 (fun _ => 0, fun _ => 0) = .ok b ∧
    |b.1 4 - 5| ≤ 2 * √Real.pi * (1 / 10) ∧ f 0 ≠ f 1 := by
  obtain ⟨tab, ht, _⟩ := C49_recommended 2 (by omega)
  let re : ℕ → ℝ := fun q => q + 1
  let s : ℕ → ℝ := fun q => series re (fun _ => 0) 2 (thetaAt (fun i n => tab n i) 5 (q / 5)) (phiAt 5 (q % 5))
  let f : ℕ → ℝ := fun q => if q = 1 then (if s 0 = s 1 then s 1 + 1 / 10 else s 1) else s q
  obtain ⟨b, h1, h2⟩ := C49_stable tab 5 5 2 (by omega) (by omega) ht (by omega) re (fun _ => 0) (fun _ _ => rfl) f (1 / 10) (fun i hi j hj => by
      have e1 : (j + i * 5) / 5 = i := by omega
      have e2 : (j + i * 5) % 5 = j := by omega
      have e : s (j + i * 5) = series re (fun _ => 0) 2 (thetaAt (fun i n => tab n i) 5 i) (phiAt 5 j) := by dsimp only [s]; rw [e1, e2]
      rw [← e]
      dsimp only [f]
      split_ifs with h h'
      · rw [h]; norm_num [abs_of_pos]
      · rw [h]; norm_num
      · norm_num) (fun _ => 0, fun _ => 0)
  refine ⟨tab, f, b, h1, ?_, ?_⟩
  · have := (h2 2 (by omega) 1 (by omega)).1
    norm_num [re] at this ⊢
    exact this
  · have f0 : f 0 = s 0 := by dsimp only [f]; rw [if_neg (by omega)]
    have f1 : f 1 = if s 0 = s 1 then s 1 + 1 / 10 else s 1 := by dsimp only [f]; rw [if_pos rfl]
    rw [f0, f1]
    split_ifs with h
    · rw [h]; norm_num
    · exact h

end Elliptica.Ylm
