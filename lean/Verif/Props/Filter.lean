import Verif.Model.Filter
import Verif.Lemmas.Erfc
import Verif.Lemmas.Filter
import Verif.Spec.Filter
import Verif.Props.Deriv
/-!
C83: the spectral filter.
-/
namespace Elliptica.Filter
open Real Finset Polynomial Elliptica.Index Elliptica.Deriv Elliptica.Cheb

/-! ### the profile -/

section
variable {e : ℝ}

theorem half : (0.5 : ℝ) = 1 / 2 := by norm_num

/-- the argument of erfc away from the special cases, with x = θ - 1/2 -/
theorem arg_eq (p : ℕ) (x : ℝ) (hx : x ≠ 0) : sqrt (-log (1 - 4 * x ^ 2) / (4 * x ^ 2)) * (2 * sqrt p * x) =
    (if 0 < x then 1 else -1) * (sqrt p * sqrt (-log (1 - 4 * x ^ 2))) := by
  have h4 : (4 * x ^ 2 : ℝ) = (2 * x) ^ 2 := by ring
  rw [Real.sqrt_div' _ (by positivity), h4, Real.sqrt_sq_eq_abs, ← h4]
  have ha : |2 * x| = 2 * |x| := by rw [abs_mul]; norm_num
  rw [ha]
  split
  · rename_i h
    rw [abs_of_pos h]; field_simp
  · rename_i h
    rw [abs_of_neg (lt_of_le_of_ne (not_lt.1 h) hx)]; field_simp

/-- the filter function on [0,1], written with x = θ - 1/2 -/
theorem erfclog_eq (he : 0 < e) (th : ℝ) (h0 : 0 ≤ th) (h1 : th ≤ 1) (p : ℕ) : erfclog e th p =
    if th < e then 1 else if 1 - e < th then 0 else if 4 * (th - 1 / 2) ^ 2 < e then 1 / 2
    else 1 / 2 * erfc ((if 0 < th - 1 / 2 then 1 else -1) * (sqrt p * sqrt (-log (1 - 4 * (th - 1 / 2) ^ 2)))) := by
  unfold erfclog
  simp only [abs_of_nonneg h0, half]
  have h4 : (4.0 : ℝ) = 4 := by norm_num
  have h2 : (2.0 : ℝ) = 2 := by norm_num
  rw [h4, h2]
  split
  · rfl
  split
  · rfl
  split
  · rfl
  · rename_i a b c
    rw [arg_eq]
    intro hx
    rw [hx] at c
    norm_num at c
    linarith

/-- **C83 (formula).** Away from the ends and from the middle (by the round-off tolerance) the factor is Boyd's erfc-log filter; near
the middle it is ½, which is the limit of the formula there. -/
theorem C83_formula (th : ℝ) (h0 : e ≤ th) (h1 : th ≤ 1 - e) (p : ℕ) :
    (e ≤ 4 * (th - 1 / 2) ^ 2 → 0 < e → erfclog e th p = boyd p th) ∧ (4 * (th - 1 / 2) ^ 2 < e → erfclog e th p = 1 / 2) := by
  have h4 : (4.0 : ℝ) = 4 := by norm_num
  have h2 : (2.0 : ℝ) = 2 := by norm_num
  constructor
  · intro hc he
    have ha : |th| = th := abs_of_nonneg (by linarith)
    unfold erfclog boyd
    simp only [ha, half, h4, h2]
    rw [if_neg (by linarith), if_neg (by linarith), if_neg (by linarith)]
    rw [mul_comm (sqrt _)]; ring
  · intro hc
    have ha : (|th| - 1 / 2) ^ 2 ≤ (th - 1 / 2) ^ 2 := by
      rcases le_or_gt 0 th with h | h
      · rw [abs_of_nonneg h]
      · rw [abs_of_neg h]; nlinarith
    unfold erfclog
    simp only [half, h4]
    rw [if_neg (by linarith), if_neg (by linarith), if_pos (by linarith)]

/-- **C83 (profile).** For θ between 0 and 1 the factor is between 0 and 1, it is 1 for the lowest mode and 0 for the highest,
and the factors of θ and 1 - θ add up to 1; it never increases with θ. -/
theorem C83_profile (he : 0 < e) (he2 : e < 1 / 4) (p : ℕ) :
    erfclog e 0 p = 1 ∧ erfclog e 1 p = 0 ∧ (∀ th, 0 ≤ th → th ≤ 1 → 0 ≤ erfclog e th p ∧ erfclog e th p ≤ 1 ∧
      erfclog e th p + erfclog e (1 - th) p = 1) ∧
    ∀ s t, 0 ≤ s → s ≤ t → t ≤ 1 → erfclog e t p ≤ erfclog e s p := by
  have bound : ∀ th, 0 ≤ th → th ≤ 1 → 0 ≤ erfclog e th p ∧ erfclog e th p ≤ 1 := by
    intro th h0 h1
    rw [erfclog_eq he th h0 h1]
    split
    · norm_num
    split
    · norm_num
    split
    · norm_num
    · have a := erfc_nonneg ((if 0 < th - 1 / 2 then 1 else -1) * (sqrt p * sqrt (-log (1 - 4 * (th - 1 / 2) ^ 2))))
      have b := erfc_le_two ((if 0 < th - 1 / 2 then 1 else -1) * (sqrt p * sqrt (-log (1 - 4 * (th - 1 / 2) ^ 2))))
      constructor <;> linarith
  have sym : ∀ th, 0 ≤ th → th ≤ 1 → erfclog e th p + erfclog e (1 - th) p = 1 := by
    intro th h0 h1
    rw [erfclog_eq he th h0 h1, erfclog_eq he (1 - th) (by linarith) (by linarith)]
    have hsq : (1 - th - 1 / 2) ^ 2 = (th - 1 / 2) ^ 2 := by ring
    rw [hsq]
    by_cases a : th < e
    · rw [if_pos a, if_neg (by linarith), if_pos (by linarith)]; norm_num
    · rw [if_neg a]
      by_cases b : 1 - e < th
      · rw [if_pos b, if_pos (by linarith)]; norm_num
      · rw [if_neg b, if_neg (show ¬ (1 - th < e) by linarith), if_neg (show ¬ (1 - e < 1 - th) by linarith)]
        by_cases c : 4 * (th - 1 / 2) ^ 2 < e
        · rw [if_pos c, if_pos c]; norm_num
        · rw [if_neg c, if_neg c]
          have hx : th - 1 / 2 ≠ 0 := by intro hx; rw [hx] at c; norm_num at c; linarith
          generalize sqrt p * sqrt (-log (1 - 4 * (th - 1 / 2) ^ 2)) = A
          rcases lt_or_gt_of_ne hx with hx | hx
          · rw [if_neg (show ¬ (0 < th - 1 / 2) by linarith), if_pos (show 0 < 1 - th - 1 / 2 by linarith), one_mul, neg_one_mul]
            have := erfc_neg A
            linarith
          · rw [if_pos hx, if_neg (show ¬ (0 < 1 - th - 1 / 2) by linarith), one_mul, neg_one_mul]
            have := erfc_neg A
            linarith
  -- for the left half the factor is at least 1/2 and does not increase
  have left : ∀ s t, 0 ≤ s → s ≤ t → t ≤ 1 / 2 → 1 / 2 ≤ erfclog e t p ∧ erfclog e t p ≤ erfclog e s p := by
    intro s t h0 hst ht
    have low : ∀ t, 0 ≤ t → t ≤ 1 / 2 → 1 / 2 ≤ erfclog e t p := by
      intro t h0 h1
      rw [erfclog_eq he t h0 (by linarith)]
      split
      · norm_num
      rw [if_neg (by linarith)]
      split
      · exact le_refl _
      · rename_i c
        rw [if_neg (by linarith)]
        have := erfc_anti (show -1 * (sqrt p * sqrt (-log (1 - 4 * (t - 1 / 2) ^ 2))) ≤ 0 by
          have : 0 ≤ sqrt p * sqrt (-log (1 - 4 * (t - 1 / 2) ^ 2)) := by positivity
          linarith)
        rw [erfc_zero] at this
        linarith
    refine ⟨low t (by linarith) ht, ?_⟩
    by_cases a : s < e
    · have : erfclog e s p = 1 := by rw [erfclog_eq he s h0 (by linarith), if_pos a]
      rw [this]
      exact (bound t (by linarith) (by linarith)).2
    · by_cases c : 4 * (t - 1 / 2) ^ 2 < e
      · have : erfclog e t p = 1 / 2 := by
          rw [erfclog_eq he t (by linarith) (by linarith), if_neg (by linarith), if_neg (by linarith), if_pos c]
        rw [this]
        exact low s h0 (by linarith)
      · have hsq : 4 * (t - 1 / 2) ^ 2 ≤ 4 * (s - 1 / 2) ^ 2 := by nlinarith
        rw [erfclog_eq he s h0 (by linarith), if_neg a, if_neg (by linarith), if_neg (by linarith),
          erfclog_eq he t (by linarith) (by linarith), if_neg (by linarith), if_neg (by linarith), if_neg c,
          if_neg (by linarith), if_neg (by linarith)]
        refine mul_le_mul_of_nonneg_left (erfc_anti ?_) (by norm_num)
        have hs1 : 0 < 1 - 4 * (s - 1 / 2) ^ 2 := by
          have : 0 < s := by linarith
          nlinarith
        have hl : log (1 - 4 * (s - 1 / 2) ^ 2) ≤ log (1 - 4 * (t - 1 / 2) ^ 2) := log_le_log hs1 (by linarith)
        have := mul_le_mul_of_nonneg_left (Real.sqrt_le_sqrt (show -log (1 - 4 * (t - 1 / 2) ^ 2) ≤ -log (1 - 4 * (s - 1 / 2) ^ 2) by linarith))
          (Real.sqrt_nonneg p)
        linarith
  refine ⟨?_, ?_, fun th h0 h1 => ⟨(bound th h0 h1).1, (bound th h0 h1).2, sym th h0 h1⟩, ?_⟩
  · rw [erfclog_eq he 0 (le_refl _) (by norm_num), if_pos he]
  · rw [erfclog_eq he 1 (by norm_num) (le_refl _), if_neg (by linarith), if_pos (by linarith)]
  · intro s t h0 hst h1
    rcases le_or_gt t (1 / 2) with ht | ht
    · exact (left s t h0 hst ht).2
    · rcases le_or_gt s (1 / 2) with hs | hs
      · have a := (left s s h0 (le_refl _) hs).1
        have b := (left (1 - t) (1 - t) (by linarith) (le_refl _) (by linarith)).1
        have c := sym t (by linarith) h1
        linarith
      · have a := (left (1 - t) (1 - s) (by linarith) (by linarith) (by linarith)).2
        have b := sym t (by linarith) h1
        have c := sym s h0 (by linarith)
        linarith

end

/-! ### the filter on a patch -/

section
variable {e : ℝ} {p : Patch}

/-- the factor of the i-th mode of direction d -/
noncomputable def sig (e : ℝ) (p : Patch) (q : ℕ) (d : Fin 3) (i : ℕ) : ℝ := erfclog e (i / ((p.n d : ℝ) - 1)) q

theorem sig_top (hp : Good e p) (he : e < 1 / 4) (q : ℕ) (d : Fin 3) : sig e p q d (p.n d - 1) = 0 := by
  have h2 := hp.two d
  have : ((p.n d - 1 : ℕ) : ℝ) / ((p.n d : ℝ) - 1) = 1 := by
    rw [Nat.cast_sub (by omega), Nat.cast_one, div_self]
    have : (2 : ℝ) ≤ p.n d := by exact_mod_cast h2
    intro h; linarith
  unfold sig
  rw [this, (C83_profile hp.pos he q).2.1]

theorem sig_zero (hp : Good e p) (he : e < 1 / 4) (q : ℕ) (d : Fin 3) : sig e p q d 0 = 1 := by
  unfold sig
  rw [Nat.cast_zero, zero_div, (C83_profile hp.pos he q).1]

/-- the weight of the formula for extrema is the right one, or the mode is erased -/
theorem sig_wgt (hp : Good e p) (he : e < 1 / 4) (q : ℕ) (d : Fin 3) (i : ℕ) :
    sig e p q d i * kap (p.n d - 1) i = sig e p q d i * wgt p d i := by
  rcases hp.cheb d with h | h
  · unfold wgt; rw [h]
  · unfold wgt; rw [h]
    by_cases hi : i = p.n d - 1
    · subst hi; rw [sig_top hp he]; simp
    · simp [kap, kapN, hi]

theorem expands_iff (hp : Good e p) (v : Coeff.Data ℝ) (c : ℕ → ℕ → ℕ → ℝ) : Expands p v c ↔
    ∀ a b q, a < p.n 0 → b < p.n 1 → q < p.n 2 → Coeff.grid p.n v a b q =
      ∑ i ∈ range (p.n 0), ∑ j ∈ range (p.n 1), ∑ k ∈ range (p.n 2), c i j k * (tAt p 0 a i * tAt p 1 b j * tAt p 2 q k) := by
  unfold Expands tAt unit
  simp only [unit_pt hp]
  constructor
  · intro h a b q ha hb hq
    exact h ![a, b, q] (by intro d; match d with | 0 => exact ha | 1 => exact hb | 2 => exact hq)
  · intro h t ht
    exact h (t 0) (t 1) (t 2) (ht 0) (ht 1) (ht 2)

/-- **C83 (expansion).** Every set of values on a patch has exactly one Chebyshev expansion. -/
theorem C83_unique (hp : Good e p) (v : Coeff.Data ℝ) :
    (∃ c, Expands p v c) ∧ ∀ c c', Expands p v c → Expands p v c' → ∀ i j k, i < p.n 0 → j < p.n 1 → k < p.n 2 → c i j k = c' i j k := by
  constructor
  · refine ⟨fun i j k => wgt p 0 i * wgt p 1 j * wgt p 2 k * Coeff.spec p.n (mW p) [0, 1, 2] (Coeff.grid p.n v) i j k, ?_⟩
    rw [expands_iff hp]
    intro a b q ha hb hq
    symm
    have hs : ∀ i j k, Coeff.spec p.n (mW p) [0, 1, 2] (Coeff.grid p.n v) i j k =
        Coeff.along p.n (mW p) 2 (Coeff.along p.n (mW p) 1 (Coeff.along p.n (mW p) 0 (Coeff.grid p.n v))) i j k := by
      intro i j k; simp [Coeff.spec]
    have h2 : ∀ i j, ∑ k ∈ range (p.n 2), wgt p 2 k * Coeff.spec p.n (mW p) [0, 1, 2] (Coeff.grid p.n v) i j k * tAt p 2 q k =
        Coeff.along p.n (mW p) 1 (Coeff.along p.n (mW p) 0 (Coeff.grid p.n v)) i j q := by
      intro i j
      simp only [hs, along2]
      exact reproduce hp 2 (fun m => Coeff.along p.n (mW p) 1 (Coeff.along p.n (mW p) 0 (Coeff.grid p.n v)) i j m) q hq
    have h1 : ∀ i, ∑ j ∈ range (p.n 1), wgt p 1 j * Coeff.along p.n (mW p) 1 (Coeff.along p.n (mW p) 0 (Coeff.grid p.n v)) i j q * tAt p 1 b j =
        Coeff.along p.n (mW p) 0 (Coeff.grid p.n v) i b q := by
      intro i
      simp only [along1]
      exact reproduce hp 1 (fun m => Coeff.along p.n (mW p) 0 (Coeff.grid p.n v) i m q) b hb
    have h0 : ∑ i ∈ range (p.n 0), wgt p 0 i * Coeff.along p.n (mW p) 0 (Coeff.grid p.n v) i b q * tAt p 0 a i = Coeff.grid p.n v a b q := by
      simp only [along0]
      exact reproduce hp 0 (fun m => Coeff.grid p.n v m b q) a ha
    rw [← h0]
    refine sum_congr rfl fun i _ => ?_
    rw [← h1 i, mul_sum, sum_mul]
    refine sum_congr rfl fun j _ => ?_
    rw [← h2 i j]
    simp only [mul_sum, sum_mul]
    exact sum_congr rfl fun k _ => by ring
  · intro c c' h h' i j k hi hj hk
    have a := spec_expand hp c _ ((expands_iff hp v c).1 h) i j k hi hj hk
    have b := spec_expand hp c' _ ((expands_iff hp v c').1 h') i j k hi hj hk
    rw [a] at b
    have w0 := wgt_ne (p := p) 0 i
    have w1 := wgt_ne (p := p) 1 j
    have w2 := wgt_ne (p := p) 2 k
    field_simp at b
    exact b

theorem new_values (hp : Good e p) (he : e < 1 / 4) (q : ℕ) (v w : Coeff.Data ℝ) (c : ℕ → ℕ → ℕ → ℝ) (hc : Expands p v c)
    (hw : Coeff.Holds p.n w (Coeff.spec p.n (mW p) [0, 1, 2] (Coeff.grid p.n v))) (u : Coeff.Data ℝ) (a b r : ℕ)
    (ha : a < p.n 0) (hb : b < p.n 1) (hr : r < p.n 2) :
    Coeff.grid p.n (fun l => if l < p.n 0 * p.n 1 * p.n 2 then value e p (adjust e p.n q w) l else u l) a b r =
      ∑ i ∈ range (p.n 0), ∑ j ∈ range (p.n 1), ∑ k ∈ range (p.n 2),
        sig e p q 0 i * sig e p q 1 j * sig e p q 2 k * c i j k * (tAt p 0 a i * tAt p 1 b j * tAt p 2 r k) := by
  unfold Coeff.grid
  simp only [show _ < _ from C10_in_range (p.n 0) (p.n 1) (p.n 2) a b r ha hb hr, if_true]
  have hin : Inside p ![a, b, r] := by intro d; match d with | 0 => exact ha | 1 => exact hb | 2 => exact hr
  have hco := coords_idx _ hin
  have hidx : idx p ![a, b, r] = ijk (p.n 1) (p.n 2) a b r := rfl
  rw [hidx] at hco
  unfold value
  dsimp only
  rw [hco]
  have hX : ∀ d : Fin 3, toCheb e (p.mn d) (p.mx d) (ptv p d ((![a, b, r] : Fin 3 → ℕ) d)) = npt p d ((![a, b, r] : Fin 3 → ℕ) d) :=
    fun d => toCheb_npt hp d _ (hin d)
  rw [hX 0, hX 1, hX 2]
  have hT : ∀ (d : Fin 3) (i : ℕ), tComb e (p.n d) i (npt p d ((![a, b, r] : Fin 3 → ℕ) d)) =
      kap (p.n d - 1) i * tAt p d ((![a, b, r] : Fin 3 → ℕ) d) i := by
    intro d i
    have h2 := hp.two d
    have := tComb_eval e hp.pos hp.e2 (p.n d - 1) i _ (npt_snapped hp d _ (hin d))
    rw [Nat.sub_add_cancel (by omega)] at this
    exact this
  refine sum_congr rfl fun i hi => sum_congr rfl fun j hj => sum_congr rfl fun k hk => ?_
  rw [mem_range] at hi hj hk
  rw [hT 0, hT 1, hT 2, adjust_eq p.n q w i j k hi hj hk, hw i j k hi hj hk, spec_expand hp c _ ((expands_iff hp v c).1 hc) i j k hi hj hk]
  have s0 := sig_wgt hp he q 0 i
  have s1 := sig_wgt hp he q 1 j
  have s2 := sig_wgt hp he q 2 k
  have w0 := wgt_ne (p := p) 0 i
  have w1 := wgt_ne (p := p) 1 j
  have w2 := wgt_ne (p := p) 2 k
  show c i j k / (wgt p 0 i * wgt p 1 j * wgt p 2 k) * (sig e p q 0 i * sig e p q 1 j * sig e p q 2 k) * (kap (p.n 0 - 1) i * tAt p 0 a i) *
    (kap (p.n 1 - 1) j * tAt p 1 b j) * (kap (p.n 2 - 1) k * tAt p 2 r k) = _
  have : c i j k / (wgt p 0 i * wgt p 1 j * wgt p 2 k) * (sig e p q 0 i * sig e p q 1 j * sig e p q 2 k) * (kap (p.n 0 - 1) i * tAt p 0 a i) *
    (kap (p.n 1 - 1) j * tAt p 1 b j) * (kap (p.n 2 - 1) k * tAt p 2 r k) =
    c i j k / (wgt p 0 i * wgt p 1 j * wgt p 2 k) * ((sig e p q 0 i * kap (p.n 0 - 1) i) * (sig e p q 1 j * kap (p.n 1 - 1) j) *
      (sig e p q 2 k * kap (p.n 2 - 1) k)) * (tAt p 0 a i * tAt p 1 b j * tAt p 2 r k) := by ring
  rw [this, s0, s1, s2]
  field_simp

/-- **C83 (filter).** The filter multiplies the Chebyshev coefficient (i,j,k) of the values by σ(i/(n₀-1)) σ(j/(n₁-1)) σ(k/(n₂-1))
and changes nothing else: the values afterwards have exactly the filtered expansion, entries beyond the patch are as before, and the
coefficients kept with the field are again right for the new values. -/
theorem C83_filter (hp : Good e p) (he : e < 1 / 4) (q : ℕ) (f : Coeff.St ℝ) (hf : Coeff.Inv p.n (mW p) f)
    (c : ℕ → ℕ → ℕ → ℝ) (hc : Expands p f.v c) :
    ∃ f', spectralFilter e p true q f = .ok f' ∧
      Expands p f'.v (fun i j k => erfclog e (i / ((p.n 0 : ℝ) - 1)) q * erfclog e (j / ((p.n 1 : ℝ) - 1)) q *
        erfclog e (k / ((p.n 2 : ℝ) - 1)) q * c i j k) ∧
      (∀ l, p.n 0 * p.n 1 * p.n 2 ≤ l → f'.v l = f.v l) ∧ Coeff.Inv p.n (mW p) f' := by
  obtain ⟨f1, w, h1, h2, h3, h4⟩ := Coeff.make3_ok p.n (tr p) (mW p) (tr_linear hp) f hf
  obtain ⟨l, hl, hall⟩ := make3_keeps p.n (tr p) f f1 w h1
  have hk : known p = true := by
    unfold known funcsOk
    exact decide_eq_true fun d => ⟨hp.tn d, hp.cheb d⟩
  have ha : ∀ d, accepts p d = true := by
    intro d; unfold accepts; rw [hp.tn d]; rfl
  have ht := hp.two
  have hb : ¬ (p.n 0 < 2 ∨ p.n 1 < 2 ∨ p.n 2 < 2) := by
    have := ht 0; have := ht 1; have := ht 2; omega
  refine ⟨⟨fun l => if l < p.n 0 * p.n 1 * p.n 2 then value e p (adjust e p.n q w) l else f1.v l, some (adjust e p.n q w), f1.info⟩, by simp only [spectralFilter, filterErfclog, hk, if_true, Bool.not_true, Bool.false_eq_true, if_false, hb, h1, Res.bind_ok, ha, Bool.and_self], ?_, ?_, ?_⟩
  · -- the new values
    rw [expands_iff hp]
    intro a b r hha hhb hhr
    exact new_values hp he q f.v w c hc h4 f1.v a b r hha hhb hhr
  · intro l hl
    show (if l < p.n 0 * p.n 1 * p.n 2 then _ else f1.v l) = f.v l
    rw [if_neg (by omega), h2]
  · refine .inr ⟨_, l, rfl, hl, ?_⟩
    rw [Coeff.spec_congr p.n (mW p) l [0, 1, 2] (fun d => ⟨fun _ => by fin_cases d <;> simp, fun _ => hall d⟩)]
    intro i j k hi hj hk
    rw [adjust_eq p.n q w i j k hi hj hk, h4 i j k hi hj hk, spec_expand hp c _ ((expands_iff hp f.v c).1 hc) i j k hi hj hk]
    rw [spec_expand hp (fun i j k => sig e p q 0 i * sig e p q 1 j * sig e p q 2 k * c i j k) _ (fun a b r hha hhb hhr =>
      new_values hp he q f.v w c hc h4 f1.v a b r hha hhb hhr) i j k hi hj hk]
    unfold sig
    ring

/-- **C83 (constants).** A constant field is not changed. -/
theorem C83_constant (hp : Good e p) (he : e < 1 / 4) (q : ℕ) (f : Coeff.St ℝ) (hf : Coeff.Inv p.n (mW p) f) (a : ℝ)
    (hc : ∀ t, Inside p t → f.v (idx p t) = a) :
    ∃ f', spectralFilter e p true q f = .ok f' ∧ ∀ t, Inside p t → f'.v (idx p t) = a := by
  have h0 := hp.two 0
  have h1 := hp.two 1
  have h2 := hp.two 2
  have one : ∀ (g : ℕ → ℕ → ℕ → ℝ) (t : Fin 3 → ℕ),
      ∑ i ∈ range (p.n 0), ∑ j ∈ range (p.n 1), ∑ k ∈ range (p.n 2), (if i = 0 ∧ j = 0 ∧ k = 0 then g i j k else 0) *
        ((Chebyshev.T ℝ i).eval (unit p 0 (t 0)) * (Chebyshev.T ℝ j).eval (unit p 1 (t 1)) * (Chebyshev.T ℝ k).eval (unit p 2 (t 2))) =
        g 0 0 0 := by
    intro g t
    rw [sum_eq_single 0, sum_eq_single 0, sum_eq_single 0]
    · simp
    · intro b _ hb; simp [hb]
    · intro h; exact absurd (mem_range.2 (by omega)) h
    · intro b _ hb; simp [hb]
    · intro h; exact absurd (mem_range.2 (by omega)) h
    · intro b _ hb; simp [hb]
    · intro h; exact absurd (mem_range.2 (by omega)) h
  obtain ⟨f', a1, a2, -, -⟩ := C83_filter hp he q f hf (fun i j k => if i = 0 ∧ j = 0 ∧ k = 0 then a else 0) (by
    intro t ht
    rw [hc t ht, one (fun _ _ _ => a)])
  refine ⟨f', a1, fun t ht => ?_⟩
  rw [a2 t ht]
  have := one (fun i j k => sig e p q 0 i * sig e p q 1 j * sig e p q 2 k * a) t
  rw [sig_zero hp he, sig_zero hp he, sig_zero hp he] at this
  simp only [one_mul] at this
  refine Eq.trans ?_ this
  refine sum_congr rfl fun i _ => sum_congr rfl fun j _ => sum_congr rfl fun k _ => ?_
  congr 1
  unfold sig
  by_cases h : i = 0 ∧ j = 0 ∧ k = 0
  · simp only [if_pos h]
  · simp only [if_neg h, mul_zero]

/-- **C83 (refusal).** A filter with another name is refused, and so is a patch that has not a Chebyshev basis and Chebyshev points in
all directions; the field is not touched. -/
theorem C83_refuses (e : ℝ) (p : Patch) (q : ℕ) (f : Coeff.St ℝ) :
    spectralFilter e p false q f = .abort ∧
      ((∃ d, p.basis d ≠ .tn ∨ (p.coll d ≠ .extrema ∧ p.coll d ≠ .nodes)) → spectralFilter e p true q f = .abort) := by
  refine ⟨rfl, ?_⟩
  rintro ⟨d, hd⟩
  have hk : known p = false := by
    unfold known funcsOk
    refine decide_eq_false fun h => ?_
    rcases hd with hd | hd
    · exact hd (h d).1
    · rcases (h d).2 with h | h
      · exact hd.1 h
      · exact hd.2 h
  simp [spectralFilter, filterErfclog, hk]

/-- a patch with 5, 6 and 7 points, extrema in two directions and nodes in the third: the values x²z are filtered -/
example : ∃ c, Expands demoP demoF.v c ∧ ∃ f', spectralFilter 1e-12 demoP true 12 demoF = .ok f' ∧
    Expands demoP f'.v (fun i j k => erfclog 1e-12 (i / ((demoP.n 0 : ℝ) - 1)) 12 * erfclog 1e-12 (j / ((demoP.n 1 : ℝ) - 1)) 12 *
      erfclog 1e-12 (k / ((demoP.n 2 : ℝ) - 1)) 12 * c i j k) := by
  obtain ⟨c, hc⟩ := (C83_unique demoP_good demoF.v).1
  obtain ⟨f', h1, h2, -⟩ := C83_filter demoP_good (by norm_num) 12 demoF (.inl rfl) c hc
  exact ⟨c, hc, f', h1, h2⟩

example : ∃ f', spectralFilter 1e-12 demoP true 12 ⟨fun _ => 3, none, none⟩ = .ok f' ∧ ∀ t, Inside demoP t → f'.v (idx demoP t) = 3 :=
  C83_constant demoP_good (by norm_num) 12 ⟨fun _ => 3, none, none⟩ (.inl rfl) 3 (fun _ _ => rfl)

example : spectralFilter 1e-12 { demoP with coll := fun _ => .equi } true 12 demoF = .abort :=
  (C83_refuses _ _ _ _).2 ⟨0, .inr (by simp)⟩

/-- the second of five modes -/
example : erfclog 1e-12 (1 / 4) 12 = boyd 12 (1 / 4) :=
  (C83_formula (1 / 4) (by norm_num) (by norm_num) 12).1 (by norm_num) (by norm_num)

/-- the profile at a mode in the middle, at the first and at the last -/
example : erfclog 1e-12 (1 / 2) 12 = 1 / 2 ∧ erfclog 1e-12 0 12 = 1 ∧ erfclog 1e-12 1 12 = 0 := by
  obtain ⟨h1, h2, h3, -⟩ := C83_profile (e := 1e-12) (by norm_num) (by norm_num) 12
  refine ⟨?_, h1, h2⟩
  have := (h3 (1 / 2) (by norm_num) (by norm_num)).2.2
  norm_num at this
  linarith

end

end Elliptica.Filter
