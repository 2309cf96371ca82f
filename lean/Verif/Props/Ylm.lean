import Verif.Model.Ylm
import Verif.Lemmas.Legendre
import Mathlib.Analysis.SpecialFunctions.Trigonometric.Deriv
import Mathlib.Analysis.SpecialFunctions.ExpDeriv
import Mathlib.Analysis.Complex.RealDeriv
import Mathlib.Analysis.Calculus.Deriv.Pow
import Mathlib.Analysis.Calculus.Deriv.Polynomial
import Mathlib.Tactic.Ring
import Mathlib.Tactic.Linarith
import Mathlib.Tactic.FieldSimp
import Mathlib.Tactic.Positivity
import Mathlib.Tactic.NormNum
import Mathlib.Analysis.Real.Pi.Bounds
/-!
Property C47: spherical harmonics.
-/
namespace Elliptica.Ylm
open Complex Elliptica.Legendre Nat

/-! ### associated Legendre functions -/

theorem sqrt_eq (x : ℝ) : √((1 - x) * (1 + x)) = √(1 - x ^ 2) := by congr 1; ring

/-- assoc in terms of the derivatives of P_l -/
theorem assoc_Q (l m : ℕ) (x : ℝ) : assoc l m x = (-1) ^ m * √(1 - x ^ 2) ^ m * (Q l m).eval x := rfl

theorem pmmLoop_spec (x : ℝ) (n m : ℕ) :
    pmmLoop √((1 - x) * (1 + x)) n (assoc m m x) (2 * m + 1) = assoc (m + n) (m + n) x := by
  induction n generalizing m with
  | zero => rfl
  | succ n ih =>
    unfold pmmLoop
    have h := congrArg (Polynomial.eval x) (Q_diag m)
    simp only [Polynomial.eval_mul, Polynomial.eval_add, Polynomial.eval_natCast, Polynomial.eval_one, Polynomial.eval_ofNat] at h
    have e : assoc m m x * (-(2 * (m : ℝ) + 1) * √((1 - x) * (1 + x))) = assoc (m + 1) (m + 1) x := by
      rw [assoc_Q, assoc_Q, h, sqrt_eq]; ring
    rw [e]
    have := ih (m + 1)
    rw [show m + (n + 1) = m + 1 + n by omega, ← this]
    congr 1
    push_cast; ring

theorem llLoop_spec (x : ℝ) (m n l : ℕ) (hl : m ≤ l) :
    llLoop x m n (l + 2) (assoc l m x) (assoc (l + 1) m x) = assoc (l + 1 + n) m x := by
  induction n generalizing l with
  | zero => rfl
  | succ n ih =>
    unfold llLoop
    have h := congrArg (Polynomial.eval x) (Q_rec l m)
    simp only [Polynomial.eval_mul, Polynomial.eval_add, Polynomial.eval_sub, Polynomial.eval_natCast, Polynomial.eval_one,
      Polynomial.eval_ofNat, Polynomial.eval_X] at h
    have hd : ((l : ℝ) + 2 - m) ≠ 0 := by
      have : (m : ℝ) ≤ l := by exact_mod_cast hl
      intro h0; linarith
    have e : (x * ((2 * ((l : ℤ) + 2) - 1 : ℤ) : ℝ) * assoc (l + 1) m x - (((l : ℤ) + 2 + m - 1 : ℤ) : ℝ) * assoc l m x) /
        (((l : ℤ) + 2 - m : ℤ) : ℝ) = assoc (l + 2) m x := by
      push_cast
      rw [div_eq_iff hd, assoc_Q, assoc_Q, assoc_Q]
      linear_combination (-((-1) ^ m * √(1 - x ^ 2) ^ m)) * h
    rw [e]
    have := ih (l + 1) (by omega)
    rw [show l + 1 + (n + 1) = l + 1 + 1 + n by omega, ← this]
    congr 1

/-- The associated Legendre function of degree l and order m is returned for every 0 ≤ m ≤ l and every argument of
[-1,1]. -/
theorem C47_legendre (l m : ℕ) (hm : m ≤ l) (x : ℝ) (hx : x ∈ Set.Icc (-1) 1) : assocLegendre l m x = .ok (assoc l m x) := by
  unfold assocLegendre
  rw [if_neg (by push Not; exact ⟨hx.2, hx.1⟩), if_neg (by omega)]
  have hp : (if (m : ℤ) ≥ 1 then pmmLoop √((1 - x) * (1 + x)) (m : ℤ).toNat 1 1 else 1) = assoc m m x := by
    have h0 : assoc 0 0 x = 1 := by simp [assoc, legendre_zero]
    split_ifs with h
    · have := pmmLoop_spec x m 0
      rw [h0] at this
      simpa using this
    · have : m = 0 := by omega
      subst this; exact h0.symm
  dsimp only
  rw [hp]
  by_cases h : (l : ℤ) = m
  · rw [if_pos h]
    have : l = m := by exact_mod_cast h
    subst this; rfl
  · rw [if_neg h]
    congr 1
    have e : x * ((2 * (m : ℤ) + 1 : ℤ) : ℝ) * assoc m m x = assoc (m + 1) m x := by
      have h := congrArg (Polynomial.eval x) (Q_off m)
      simp only [Polynomial.eval_mul, Polynomial.eval_add, Polynomial.eval_natCast, Polynomial.eval_one,
        Polynomial.eval_ofNat, Polynomial.eval_X] at h
      rw [assoc_Q, assoc_Q, h]; push_cast; ring
    rw [e, show ((l : ℤ) - (m + 1)).toNat = l - (m + 1) by omega]
    rw [llLoop_spec x m _ m le_rfl]
    congr 1
    omega

/-- Everything else is refused. -/
theorem C47_legendre_refused (l m : ℤ) (x : ℝ) (h : ¬ (0 ≤ m ∧ m ≤ l ∧ x ∈ Set.Icc (-1) 1)) : assocLegendre l m x = .abort := by
  unfold assocLegendre
  by_cases hx : x > 1 ∨ x < -1
  · rw [if_pos hx]
  · rw [if_neg hx, if_pos]
    push Not at hx
    by_contra hc
    push Not at hc
    exact h ⟨hc.1, hc.2, hx.2, hx.1⟩

example : assocLegendre 2 1 (1 / 2) = .ok (assoc 2 1 (1 / 2)) := C47_legendre 2 1 (by norm_num) _ (by constructor <;> norm_num)
example : assocLegendre 2 3 (1 / 2) = .abort := C47_legendre_refused 2 3 _ (by norm_num)

/-- The derivative with respect to theta of the associated Legendre function of cos(theta), including the poles. -/
theorem C47_legendre_deriv (l m : ℕ) (hm : m ≤ l) (θ : ℝ) (hθ : θ ∈ Set.Icc 0 Real.pi) :
    ∃ d, dAssocLegendre l m (Real.cos θ) = .ok d ∧
      HasDerivWithinAt (fun t => assoc l m (Real.cos t)) d (Set.Icc 0 Real.pi) θ := by
  have hcos : ∀ t, Real.cos t ∈ Set.Icc (-1) 1 := fun t => ⟨Real.neg_one_le_cos t, Real.cos_le_one t⟩
  have hsin : ∀ t ∈ Set.Icc 0 Real.pi, √(1 - Real.cos t ^ 2) = Real.sin t := by
    intro t ht
    rw [← Real.sin_sq, Real.sqrt_sq (Real.sin_nonneg_of_nonneg_of_le_pi ht.1 ht.2)]
  have hQ : ∀ k, HasDerivAt (fun t => (Q l k).eval (Real.cos t)) ((Q l (k + 1)).eval (Real.cos θ) * (-Real.sin θ)) θ := by
    intro k
    have h := ((Q l k).hasDerivAt (Real.cos θ)).comp θ (Real.hasDerivAt_cos θ)
    have e : Polynomial.derivative (Q l k) = Q l (k + 1) := by unfold Q; rw [Function.iterate_succ_apply']
    rw [e] at h
    exact h
  have hD : HasDerivWithinAt (fun t => assoc l m (Real.cos t))
      ((-1) ^ m * (m * Real.sin θ ^ (m - 1) * Real.cos θ * (Q l m).eval (Real.cos θ) +
        Real.sin θ ^ m * ((Q l (m + 1)).eval (Real.cos θ) * (-Real.sin θ)))) (Set.Icc 0 Real.pi) θ := by
    have h1 := (((Real.hasDerivAt_sin θ).fun_pow m).mul (hQ m)).const_mul ((-1 : ℝ) ^ m)
    refine h1.hasDerivWithinAt.congr (fun t ht => ?_) ?_
    · rw [assoc_Q, hsin t ht]; simp [mul_assoc]
    · rw [assoc_Q, hsin θ hθ]; simp [mul_assoc]
  have hs := hsin θ hθ
  rcases Nat.eq_zero_or_pos l with h0 | h0
  · subst h0
    have : m = 0 := by omega
    subst this
    refine ⟨0, by unfold dAssocLegendre; simp, ?_⟩
    refine hD.congr_deriv ?_
    rw [Q_zero 0 (0 + 1) (by omega)]; simp
  rcases Nat.eq_zero_or_pos m with hm0 | hm0
  · subst hm0
    refine ⟨assoc l 1 (Real.cos θ), ?_, ?_⟩
    · unfold dAssocLegendre
      rw [if_neg (by exact_mod_cast h0.ne'), if_neg (by norm_cast; omega), if_pos (by simp)]
      have := C47_legendre l 1 h0 _ (hcos θ)
      simp only [Nat.cast_one] at this
      rw [this, Res.bind_ok]
      congr 1
      have : (((l : ℤ) + (0 : ℕ)) * ((l : ℤ) - (0 : ℕ) + 1)).tdiv ((l : ℤ) * ((l : ℤ) + 1)) = 1 := by
        simp only [Nat.cast_zero, add_zero, sub_zero]
        exact Int.tdiv_self (by positivity)
      rw [this]; push_cast; ring
    · refine hD.congr_deriv ?_
      rw [assoc_Q, hs]; simp [mul_comm]
  obtain ⟨k, rfl⟩ : ∃ k, m = k + 1 := ⟨m - 1, by omega⟩
  have ho := congrArg (Polynomial.eval (Real.cos θ)) (Q_ode l k)
  simp only [Polynomial.eval_mul, Polynomial.eval_add, Polynomial.eval_sub, Polynomial.eval_natCast, Polynomial.eval_one,
      Polynomial.eval_ofNat, Polynomial.eval_X, Polynomial.eval_pow] at ho
  have hsc : Real.cos θ ^ 2 - 1 = -(Real.sin θ ^ 2) := by rw [Real.sin_sq]; ring
  rw [hsc] at ho
  have key : ((-1 : ℝ)) ^ (k + 1) * ((k + 1 : ℕ) * Real.sin θ ^ (k + 1 - 1) * Real.cos θ * (Q l (k + 1)).eval (Real.cos θ) +
        Real.sin θ ^ (k + 1) * ((Q l (k + 1 + 1)).eval (Real.cos θ) * (-Real.sin θ))) =
      -((((l : ℤ) + (k + 1 : ℕ)) * ((l : ℤ) - (k + 1 : ℕ) + 1) : ℤ) * assoc l k (Real.cos θ) - assoc l (k + 2) (Real.cos θ)) * (1 / 2) := by
    rw [assoc_Q, assoc_Q, hs, Nat.add_sub_cancel]
    push_cast
    linear_combination (-(-1) ^ k * Real.sin θ ^ k / 2) * ho
  refine ⟨_, ?_, hD⟩
  rw [key]
  have hk := C47_legendre l k (by omega) _ (hcos θ)
  unfold dAssocLegendre
  rw [if_neg (by exact_mod_cast h0.ne'), show ((k + 1 : ℕ) : ℤ) - 1 = k by push_cast; ring, hk]
  by_cases hkl : ((k + 1 : ℕ) : ℤ) = l
  · rw [if_pos hkl, Res.bind_ok]
    have hz : assoc l (k + 2) (Real.cos θ) = 0 := by rw [assoc_Q, Q_zero l (k + 2) (by omega)]; simp
    rw [hz]; simp
  · rw [if_neg hkl, if_neg (by norm_cast), Res.bind_ok]
    have := C47_legendre l (k + 2) (by omega) _ (hcos θ)
    rw [show ((k + 1 : ℕ) : ℤ) + 1 = ((k + 2 : ℕ) : ℤ) by push_cast; ring, this, Res.bind_ok]

example : ∃ d, dAssocLegendre 3 2 (Real.cos 0) = .ok d ∧
    HasDerivWithinAt (fun t => assoc 3 2 (Real.cos t)) d (Set.Icc 0 Real.pi) 0 :=
  C47_legendre_deriv 3 2 (by norm_num) 0 ⟨le_rfl, Real.pi_pos.le⟩

/-! ### spherical harmonics -/

theorem factorLoop_spec (lpm i : ℤ) (n N : ℕ) (f : ℝ) (hN : lpm - i = N) (hn : n ≤ N) :
    factorLoop lpm n i f = some (f * √(((N - n)! : ℝ) / (N ! : ℝ))) := by
  induction n generalizing i N f with
  | zero =>
    have : (N ! : ℝ) ≠ 0 := by exact_mod_cast Nat.factorial_ne_zero N
    simp [factorLoop, div_self this]
  | succ n ih =>
    unfold factorLoop
    obtain ⟨M, rfl⟩ : ∃ M, N = M + 1 := ⟨N - 1, by omega⟩
    rw [if_neg (by omega), ih (i + 1) M _ (by omega) (by omega), hN]
    congr 1
    rw [show M + 1 - (n + 1) = M - n by omega, div_mul_eq_mul_div, mul_div_assoc, ← Real.sqrt_div (by positivity)]
    congr 2
    rw [Nat.factorial_succ]; push_cast
    have : (M ! : ℝ) ≠ 0 := by exact_mod_cast Nat.factorial_ne_zero M
    field_simp

/-- the norm of Y_l^m -/
noncomputable def nrm (l k : ℕ) : ℝ := √((2 * l + 1) / (4 * Real.pi) * ((l - k)! / (l + k)!))

theorem factor_spec (l k : ℕ) (m : ℤ) (hk : k ≤ l) (hm : m.natAbs = k) : factor l m = some (nrm l k) := by
  unfold factor
  have e : (if m ≥ 0 then m else -m) = k := by split_ifs <;> omega
  dsimp only
  rw [e, show (2 * (k : ℤ)).toNat = 2 * k by omega, factorLoop_spec (l + k) 0 (2 * k) (l + k) 1 (by push_cast; ring) (by omega)]
  simp only [Option.map_some]
  congr 1
  rw [show l + k - 2 * k = l - k by omega]
  have h4 : (1 / 2 : ℝ) = √(1 / 4) := by
    rw [show (1 / 4 : ℝ) = (1 / 2) ^ 2 by norm_num, Real.sqrt_sq (by norm_num)]
  rw [h4, one_mul, ← Real.sqrt_mul (by norm_num), ← Real.sqrt_mul (by positivity)]
  unfold nrm
  congr 1
  push_cast
  field_simp

theorem ylmWith_spec (leg : ℤ → ℤ → ℝ → Res ℝ) (l : ℕ) (m : ℤ) (hm : m.natAbs ≤ l) (θ ϕ p : ℝ) (hθ : θ ∈ Set.Icc 0 Real.pi)
    (hϕ : ϕ ∈ Set.Icc 0 (2 * Real.pi)) (hp : leg l m.natAbs (Real.cos θ) = .ok p) :
    ylmWith leg l m θ ϕ = .ok ((if 0 ≤ m then 1 else (-1) ^ m.natAbs) * nrm l m.natAbs * p * cexp (I * m * ϕ)) := by
  unfold ylmWith
  rw [if_neg (by push Not; exact ⟨hθ.2, hθ.1⟩), if_neg (by push Not; exact ⟨hϕ.2, hϕ.1⟩)]
  by_cases h : m ≥ 0
  · obtain ⟨k, rfl⟩ : ∃ k : ℕ, m = k := ⟨m.natAbs, by omega⟩
    rw [if_pos h, if_pos h]
    simp only [Int.natAbs_natCast] at hp hm ⊢
    rw [hp, Res.bind_ok, factor_spec l k _ hm (by simp)]
    simp
  · rw [if_neg h, if_neg h]
    dsimp only
    rw [show -m = (m.natAbs : ℤ) by omega, hp, Res.bind_ok, factor_spec l m.natAbs _ hm rfl]
    dsimp only
    congr 4
    split_ifs with h2
    · have : Even m.natAbs := by rw [Nat.even_iff]; omega
      rw [this.neg_one_pow]; simp
    · have : Odd m.natAbs := by rw [Nat.odd_iff]; omega
      rw [this.neg_one_pow]; simp

/-- the textbook function in the same shape -/
theorem Y_eq (l : ℕ) (m : ℤ) (θ ϕ : ℝ) :
    Y l m θ ϕ = (if 0 ≤ m then 1 else (-1) ^ m.natAbs) * nrm l m.natAbs * assoc l m.natAbs (Real.cos θ) * cexp (I * m * ϕ) := by
  unfold Y
  dsimp only
  by_cases h : 0 ≤ m
  · rw [if_pos h, if_pos h]
    have : (m : ℂ) = (m.natAbs : ℂ) := by
      have : m = (m.natAbs : ℤ) := by omega
      rw [this]; simp
    rw [this, one_mul]; rfl
  · rw [if_neg h, if_neg h]
    have : (m : ℂ) = -(m.natAbs : ℂ) := by
      have : m = -(m.natAbs : ℤ) := by omega
      rw [this]; simp
    rw [this, map_mul, map_mul, Complex.conj_ofReal, Complex.conj_ofReal, ← Complex.exp_conj, map_mul, map_mul, Complex.conj_I,
      Complex.conj_ofReal, Complex.conj_natCast]
    unfold nrm
    rw [show -I * (m.natAbs : ℂ) * ϕ = I * -(m.natAbs : ℂ) * ϕ by ring]
    ring

/-- The spherical harmonic is returned for every |m| ≤ l, theta in [0,π], phi in [0,2π]. -/
theorem C47_ylm (l : ℕ) (m : ℤ) (hm : m.natAbs ≤ l) (θ ϕ : ℝ) (hθ : θ ∈ Set.Icc 0 Real.pi) (hϕ : ϕ ∈ Set.Icc 0 (2 * Real.pi)) :
    ylm l m θ ϕ = .ok (Y l m θ ϕ) := by
  unfold ylm
  rw [ylmWith_spec _ l m hm θ ϕ _ hθ hϕ (C47_legendre l _ hm _ ⟨Real.neg_one_le_cos _, Real.cos_le_one _⟩), Y_eq]

/-- Everything else is refused. -/
theorem C47_ylm_refused (l m : ℤ) (θ ϕ : ℝ)
    (h : ¬ ((m.natAbs : ℤ) ≤ l ∧ θ ∈ Set.Icc 0 Real.pi ∧ ϕ ∈ Set.Icc 0 (2 * Real.pi))) : ylm l m θ ϕ = .abort := by
  unfold ylm ylmWith
  by_cases h1 : θ > Real.pi ∨ θ < 0
  · rw [if_pos h1]
  by_cases h2 : ϕ > 2 * Real.pi ∨ ϕ < 0
  · rw [if_neg h1, if_pos h2]
  rw [if_neg h1, if_neg h2]
  push Not at h1 h2
  have hm : ¬ (m.natAbs : ℤ) ≤ l := fun hc => h ⟨hc, ⟨h1.2, h1.1⟩, ⟨h2.2, h2.1⟩⟩
  split_ifs with h3
  · rw [C47_legendre_refused _ _ _ (by rintro ⟨a, b, _⟩; omega)]; rfl
  · dsimp only
    rw [C47_legendre_refused _ _ _ (by rintro ⟨a, b, _⟩; omega)]; rfl

/-- dYlm_dphi is the derivative in phi. -/
theorem C47_dphi (l : ℕ) (m : ℤ) (hm : m.natAbs ≤ l) (θ ϕ : ℝ) (hθ : θ ∈ Set.Icc 0 Real.pi) (hϕ : ϕ ∈ Set.Icc 0 (2 * Real.pi)) :
    ∃ d, dylmDphi l m θ ϕ = .ok d ∧ HasDerivAt (fun p : ℝ => Y l m θ p) d ϕ := by
  refine ⟨I * m * Y l m θ ϕ, by unfold dylmDphi; rw [C47_ylm l m hm θ ϕ hθ hϕ, Res.bind_ok], ?_⟩
  have h1 : HasDerivAt (fun p : ℝ => cexp (I * m * p)) (cexp (I * m * ϕ) * (I * m * 1)) ϕ :=
    ((Complex.hasDerivAt_exp _).comp (ϕ : ℂ) ((hasDerivAt_id (ϕ : ℂ)).const_mul (I * m))).comp_ofReal
  have h2 := h1.const_mul ((if 0 ≤ m then 1 else (-1) ^ m.natAbs) * nrm l m.natAbs * assoc l m.natAbs (Real.cos θ) : ℂ)
  have e : (fun p : ℝ => Y l m θ p) = fun p : ℝ => (if 0 ≤ m then 1 else (-1) ^ m.natAbs) * nrm l m.natAbs *
      assoc l m.natAbs (Real.cos θ) * cexp (I * m * p) := by funext p; rw [Y_eq]
  rw [e]
  refine h2.congr_deriv ?_
  rw [Y_eq]; ring

/-- dYlm_dtheta is the derivative in theta, including the poles. -/
theorem C47_dtheta (l : ℕ) (m : ℤ) (hm : m.natAbs ≤ l) (θ ϕ : ℝ) (hθ : θ ∈ Set.Icc 0 Real.pi)
    (hϕ : ϕ ∈ Set.Icc 0 (2 * Real.pi)) :
    ∃ d, dylmDtheta l m θ ϕ = .ok d ∧ HasDerivWithinAt (fun t : ℝ => Y l m t ϕ) d (Set.Icc 0 Real.pi) θ := by
  obtain ⟨d, hd1, hd2⟩ := C47_legendre_deriv l m.natAbs hm θ hθ
  refine ⟨_, ylmWith_spec _ l m hm θ ϕ _ hθ hϕ hd1, ?_⟩
  have h1 : HasDerivWithinAt (fun t => ((assoc l m.natAbs (Real.cos t) : ℝ) : ℂ)) (d : ℂ) (Set.Icc 0 Real.pi) θ :=
    hd2.ofReal_comp
  have h2 := (h1.const_mul ((if 0 ≤ m then 1 else (-1) ^ m.natAbs) * nrm l m.natAbs : ℂ)).mul_const (cexp (I * m * ϕ))
  have e : (fun t : ℝ => Y l m t ϕ) = fun t : ℝ => (if 0 ≤ m then 1 else (-1) ^ m.natAbs) * nrm l m.natAbs *
      ((assoc l m.natAbs (Real.cos t) : ℝ) : ℂ) * cexp (I * m * ϕ) := by funext p; rw [Y_eq]
  rw [e]
  exact h2

example : ylm 2 (-1) 1 2 = .ok (Y 2 (-1) 1 2) :=
  C47_ylm 2 (-1) (by norm_num) 1 2 ⟨by norm_num, by linarith [Real.pi_gt_three]⟩ ⟨by norm_num, by linarith [Real.pi_gt_three]⟩

/-! ### the maps (l,m) → n -/

theorem tri (l : ℕ) : 2 * (l * (l + 1) / 2) = l * (l + 1) :=
  Nat.two_mul_div_two_of_even (Nat.even_mul_succ_self l)

theorem tri_succ (l : ℕ) : (l + 1) * (l + 1 + 1) / 2 = l * (l + 1) / 2 + l + 1 := by
  have := tri l; have := tri (l + 1); lia

/-- Every position of the coefficient array belongs to exactly one pair 0 ≤ m ≤ l. -/
theorem C47_lm2n (n : ℕ) : ∃! p : ℕ × ℕ, p.2 ≤ p.1 ∧ lm2n p.1 p.2 = n := by
  have hmono : ∀ a b : ℕ, a < b → a * (a + 1) / 2 + a + 1 ≤ b * (b + 1) / 2 := by
    intro a b hab
    induction b with
    | zero => omega
    | succ b ih =>
      rw [tri_succ]
      rcases Nat.lt_succ_iff_lt_or_eq.mp hab with h | h
      · have := ih h; omega
      · subst h; omega
  refine existsUnique_of_exists_of_unique ?_ ?_
  · induction n with
    | zero => exact ⟨(0, 0), le_rfl, rfl⟩
    | succ n ih =>
      obtain ⟨⟨l, m⟩, h1, h2⟩ := ih
      unfold lm2n at *
      dsimp only at *
      rcases Nat.lt_or_ge m l with h | h
      · exact ⟨(l, m + 1), h, by dsimp only; omega⟩
      · refine ⟨(l + 1, 0), Nat.zero_le _, ?_⟩
        dsimp only
        rw [tri_succ]; omega
  · rintro ⟨a, b⟩ ⟨c, d⟩ ⟨h1, h2⟩ ⟨h3, h4⟩
    unfold lm2n at *
    dsimp only at *
    have : a = c := by
      rcases Nat.lt_trichotomy a c with h | h | h
      · have := hmono a c h; omega
      · exact h
      · have := hmono c a h; omega
    subst this
    rw [Prod.mk.injEq]; omega

/-- The coefficients up to degree L fill the allocated array exactly. -/
theorem C47_lm2n_range (L l m : ℕ) (hm : m ≤ l) : lm2n l m < numClm L ↔ l ≤ L := by
  unfold lm2n numClm
  rw [Nat.mul_comm (L + 1) L]
  constructor
  · intro h
    by_contra hc
    push Not at hc
    have h1 : (L + 1) * (L + 1 + 1) ≤ l * (l + 1) := Nat.mul_le_mul (by omega) (by omega)
    have := tri_succ L
    have := Nat.div_le_div_right (c := 2) h1
    omega
  · intro h
    have h1 : l * (l + 1) ≤ L * (L + 1) := Nat.mul_le_mul (by omega) (by omega)
    have := Nat.div_le_div_right (c := 2) h1
    omega

/-- The full map and its inverse: (l,m) with |m| ≤ l ≤ lmax goes to a position below (lmax+1)² and comes back. -/
theorem C47_lm2n_full (l m lmax : ℤ) (hm : (m.natAbs : ℤ) ≤ l) (hl : l ≤ lmax) :
    ∃ n, lm2nYlm l m lmax = .ok n ∧ 0 ≤ n ∧ n < (lmax + 1) * (lmax + 1) ∧ n2lmYlm n lmax = (l, m) := by
  unfold lm2nYlm
  rw [if_neg (not_not.mpr hm)]
  dsimp only
  refine ⟨_, rfl, ?_⟩
  have key : ∀ i j : ℤ, 0 ≤ i → i ≤ lmax → 0 ≤ j → j ≤ lmax → j - i = m → (if m ≥ 0 then lmax - i else lmax - j) = l →
      0 ≤ j + (lmax + 1) * i ∧ j + (lmax + 1) * i < (lmax + 1) * (lmax + 1) ∧ n2lmYlm (j + (lmax + 1) * i) lmax = (l, m) := by
    intro i j hi hi' hj hj' h1 h2
    have hp : 0 ≤ (lmax + 1) * i := Int.mul_nonneg (by omega) hi
    refine ⟨by omega, ?_, ?_⟩
    · have : (lmax + 1) * i ≤ (lmax + 1) * lmax := Int.mul_le_mul_of_nonneg_left hi' (by omega)
      have : (lmax + 1) * (lmax + 1) = (lmax + 1) * lmax + (lmax + 1) := by ring
      omega
    · unfold n2lmYlm
      have e1 : (j + (lmax + 1) * i).tmod (lmax + 1) = j := by
        rw [Int.tmod_eq_emod_of_nonneg (by omega), Int.add_mul_emod_self_left, Int.emod_eq_of_lt hj (by omega)]
      dsimp only
      rw [e1, show j + (lmax + 1) * i - j = (lmax + 1) * i by ring, Int.mul_tdiv_cancel_left _ (by omega)]
      rw [h1, h2]
  by_cases h1 : m ≥ 0
  · rcases eq_or_lt_of_le h1 with h | h
    · rw [if_pos h1, if_pos h.ge]; exact key _ _ (by omega) (by omega) (by omega) (by omega) (by omega) (by rw [if_pos h1]; omega)
    · rw [if_pos h1, if_neg (by omega)]; exact key _ _ (by omega) (by omega) (by omega) (by omega) (by omega) (by rw [if_pos h1]; omega)
  · rw [if_neg h1, if_pos (by omega)]; exact key _ _ (by omega) (by omega) (by omega) (by omega) (by omega) (by rw [if_neg h1]; omega)

/-- Every position below (lmax+1)² is hit: its pair is legal and goes back to it. -/
theorem C47_n2lm_full (n lmax : ℤ) (h0 : 0 ≤ n) (h1 : n < (lmax + 1) * (lmax + 1)) (hl : 0 ≤ lmax) :
    let p := n2lmYlm n lmax
    (p.2.natAbs : ℤ) ≤ p.1 ∧ p.1 ≤ lmax ∧ lm2nYlm p.1 p.2 lmax = .ok n := by
  have hj0 := Int.emod_nonneg n (b := lmax + 1) (by omega)
  have hj1 := Int.emod_lt_of_pos n (b := lmax + 1) (by omega)
  have hd := Int.emod_add_mul_ediv n (lmax + 1)
  have hi0 : 0 ≤ n / (lmax + 1) := Int.ediv_nonneg h0 (by omega)
  have hi1 : n / (lmax + 1) < lmax + 1 := by
    by_contra hc
    push Not at hc
    have := Int.mul_le_mul_of_nonneg_left hc (show 0 ≤ lmax + 1 by omega)
    omega
  have e1 : n.tmod (lmax + 1) = n % (lmax + 1) := Int.tmod_eq_emod_of_nonneg h0
  have e2 : (n - n % (lmax + 1)).tdiv (lmax + 1) = n / (lmax + 1) := by
    rw [show n - n % (lmax + 1) = (lmax + 1) * (n / (lmax + 1)) by omega, Int.mul_tdiv_cancel_left _ (by omega)]
  unfold n2lmYlm
  dsimp only
  rw [e1, e2]
  generalize n % (lmax + 1) = j at *
  generalize n / (lmax + 1) = i at *
  by_cases h : j - i ≥ 0
  · rw [if_pos h]
    refine ⟨by omega, by omega, ?_⟩
    unfold lm2nYlm
    rw [if_neg (by omega)]
    dsimp only
    rw [if_pos h]
    by_cases h3 : j - i ≤ 0
    · rw [if_pos h3, show lmax - (lmax - i) = i by ring]; congr 1; rw [← hd]; omega
    · rw [if_neg h3, show lmax - (lmax - i) = i by ring]; congr 1; rw [← hd]; omega
  · rw [if_neg h]
    refine ⟨by omega, by omega, ?_⟩
    unfold lm2nYlm
    rw [if_neg (by omega)]
    dsimp only
    rw [if_neg h, if_pos (by omega), show lmax - (lmax - j) = j by ring, show j - (j - i) = i by ring]
    congr 1

example : lm2nYlm 2 (-1) 3 = .ok 9 ∧ n2lmYlm 9 3 = (2, -1) := by decide

/-! ### expansions -/

/-- The coefficients the arrays stand for: c(l,m) for m ≥ 0 at its position, and (-1)^m times the conjugate of c(l,|m|)
for m < 0. -/
noncomputable def coef (re im : ℕ → ℝ) (l : ℕ) (m : ℤ) : ℂ :=
  let n := l * (l + 1) / 2 + m.natAbs
  if 0 ≤ m then re n + I * im n else (-1) ^ m.natAbs * (starRingEnd ℂ) (re n + I * im n)

/-- The function the coefficients stand for: the real part of Σ_{l ≤ L} Σ_{|m| ≤ l} c(l,m) Y_l^m. -/
noncomputable def series (re im : ℕ → ℝ) (L : ℕ) (θ ϕ : ℝ) : ℝ :=
  (∑ l ∈ Finset.range (L + 1), ∑ m ∈ Finset.Icc (-l : ℤ) l, coef re im l m * Y l m θ ϕ).re

theorem resSum_ok (f : ℕ → Res ℂ) (g : ℕ → ℂ) (n : ℕ) (h : ∀ i < n, f i = .ok (g i)) :
    resSum f n = .ok (∑ i ∈ Finset.range n, g i) := by
  induction n with
  | zero => rfl
  | succ n ih =>
    unfold resSum
    rw [ih (fun i hi => h i (by omega)), Res.bind_ok, h n (by omega), Res.bind_ok, Finset.sum_range_succ]

theorem sum_sym (g : ℤ → ℂ) (l : ℕ) :
    ∑ m ∈ Finset.Icc (-l : ℤ) l, g m = ∑ k ∈ Finset.range l, (g ((k + 1 : ℕ) : ℤ) + g (-((k + 1 : ℕ) : ℤ))) + g 0 := by
  induction l with
  | zero => simp
  | succ l ih =>
    have : Finset.Icc (-((l + 1 : ℕ) : ℤ)) ((l + 1 : ℕ) : ℤ) =
        insert ((l + 1 : ℕ) : ℤ) (insert (-((l + 1 : ℕ) : ℤ)) (Finset.Icc (-l : ℤ) l)) := by
      ext x; simp only [Finset.mem_Icc, Finset.mem_insert]; omega
    rw [this, Finset.sum_insert, Finset.sum_insert, ih, Finset.sum_range_succ]
    · ring
    · simp only [Finset.mem_Icc]; omega
    · simp only [Finset.mem_Icc, Finset.mem_insert]; omega

theorem sumY_spec (Yf : ℤ → ℤ → ℝ → ℝ → Res ℂ) (y : ℕ → ℤ → ℂ) (zero : Bool) (re im : ℕ → ℝ) (L : ℕ) (θ ϕ : ℝ)
    (h : ∀ l : ℕ, ∀ m : ℤ, m.natAbs ≤ l → Yf l m θ ϕ = .ok (y l m)) (hz : zero = false → ∀ l, y l 0 = 0) :
    sumY Yf zero re im L θ ϕ =
      .ok (∑ l ∈ Finset.range (L + 1), ∑ m ∈ Finset.Icc (-l : ℤ) l, coef re im l m * y l m) := by
  unfold sumY
  apply resSum_ok
  intro l _
  have hpair : ∀ k < l, pairTerm Yf re im l (k + 1) θ ϕ = .ok (coef re im l ((k + 1 : ℕ) : ℤ) * y l ((k + 1 : ℕ) : ℤ) +
      coef re im l (-((k + 1 : ℕ) : ℤ)) * y l (-((k + 1 : ℕ) : ℤ))) := by
    intro k hk
    unfold pairTerm
    dsimp only
    rw [h l _ (by omega), Res.bind_ok, h l _ (by omega), Res.bind_ok]
    congr 1
    unfold coef lm2n
    dsimp only
    have hs : (if (k + 1) % 2 = 0 then (1 : ℂ) else -1) = (-1) ^ (k + 1) := by
      split_ifs with h2
      · rw [(Nat.even_iff.mpr h2).neg_one_pow]
      · rw [(Nat.odd_iff.mpr (by omega)).neg_one_pow]
    rw [hs, if_pos (show (0 : ℤ) ≤ ((k + 1 : ℕ) : ℤ) by omega), if_neg (show ¬ (0 : ℤ) ≤ -((k + 1 : ℕ) : ℤ) by omega),
      Int.natAbs_neg, Int.natAbs_natCast]
    rw [map_add, map_mul, Complex.conj_ofReal, Complex.conj_ofReal, Complex.conj_I]
    ring
  rw [resSum_ok _ _ l hpair, Res.bind_ok, sum_sym]
  cases zero with
  | false => rw [if_neg (by simp), hz rfl l, mul_zero, add_zero]
  | true =>
    rw [if_pos rfl, h l 0 (by simp), Res.bind_ok]
    congr 2

/-- Interpolation returns the function the coefficients stand for, at every point of the sphere. -/
theorem C47_interp (re im : ℕ → ℝ) (L : ℕ) (θ ϕ : ℝ) (hθ : θ ∈ Set.Icc 0 Real.pi) (hϕ : ϕ ∈ Set.Icc 0 (2 * Real.pi)) :
    interp re im L θ ϕ = .ok (series re im L θ ϕ) := by
  unfold interp
  rw [sumY_spec ylm (fun l m => Y l m θ ϕ) true re im L θ ϕ (fun l m hm => C47_ylm l m hm θ ϕ hθ hϕ) (by simp), Res.bind_ok]
  rfl

theorem resSum_abort (f : ℕ → Res ℂ) (n : ℕ) (h : f 0 = .abort) : resSum f (n + 1) = .abort := by
  induction n with
  | zero => unfold resSum; rw [h]; rfl
  | succ n ih => unfold resSum; rw [ih]; rfl

/-- Angles outside the sphere's ranges are refused. -/
theorem C47_interp_refused (re im : ℕ → ℝ) (L : ℕ) (θ ϕ : ℝ) (h : ¬ (θ ∈ Set.Icc 0 Real.pi ∧ ϕ ∈ Set.Icc 0 (2 * Real.pi))) :
    interp re im L θ ϕ = .abort := by
  unfold interp sumY
  rw [resSum_abort]
  · rfl
  · have := C47_ylm_refused 0 0 θ ϕ (fun hc => h hc.2)
    simp only [resSum, Nat.cast_zero, Res.bind_ok, if_true, this, Res.bind_abort]

theorem theta_mem (root : ℕ → ℕ → ℝ) (N i : ℕ) : thetaAt root N i ∈ Set.Icc 0 Real.pi := ⟨Real.arccos_nonneg _, Real.arccos_le_pi _⟩

theorem phi_mem (N j : ℕ) (h : j < N) : phiAt N j ∈ Set.Icc 0 (2 * Real.pi) := by
  unfold phiAt
  have hN : (0 : ℝ) < N := by exact_mod_cast (by omega : 0 < N)
  have hj : (j : ℝ) ≤ N := by exact_mod_cast h.le
  refine ⟨by positivity, ?_⟩
  rw [div_le_iff₀ hN]
  nlinarith [Real.pi_pos]

/-- The entry of the phi-derivative array for row i and column j is the phi-derivative of the expansion at that grid
point. -/
theorem C47_dfdphi (root : ℕ → ℕ → ℝ) (re im : ℕ → ℝ) (Ntheta Nphi L i j : ℕ) (hj : j < Nphi) :
    ∃ d, dfDphi root re im Ntheta Nphi L (j + i * Nphi) = .ok d ∧
      HasDerivAt (fun p => series re im L (Real.arccos (-root i Ntheta)) p) d (j * (2 * Real.pi / Nphi)) := by
  set θ := thetaAt root Ntheta i with hθd
  have hθ := theta_mem root Ntheta i
  have hϕ := phi_mem Nphi j hj
  rw [show (j : ℝ) * (2 * Real.pi / Nphi) = phiAt Nphi j by unfold phiAt; ring]
  set ϕ := phiAt Nphi j with hϕd
  choose! y hy1 hy2 using fun (l : ℕ) (m : ℤ) (hm : m.natAbs ≤ l) => C47_dphi l m hm θ ϕ hθ hϕ
  have hz : ∀ l, y l 0 = 0 := by
    intro l
    have h1 := hy1 l 0 (by simp)
    unfold dylmDphi at h1
    rw [C47_ylm l 0 (by simp) θ ϕ hθ hϕ, Res.bind_ok] at h1
    simp only [Int.cast_zero, mul_zero, zero_mul, Res.ok.injEq] at h1
    exact h1.symm
  refine ⟨(∑ l ∈ Finset.range (L + 1), ∑ m ∈ Finset.Icc (-l : ℤ) l, coef re im l m * y l m).re, ?_, ?_⟩
  · unfold dfDphi
    rw [show (j + i * Nphi) / Nphi = i by rw [Nat.add_mul_div_right _ _ (by omega), Nat.div_eq_of_lt hj, Nat.zero_add],
      show (j + i * Nphi) % Nphi = j by rw [Nat.add_mul_mod_self_right, Nat.mod_eq_of_lt hj], ← hθd, ← hϕd]
    rw [sumY_spec dylmDphi y false re im L θ ϕ hy1 (fun _ => hz), Res.bind_ok]
  · have h : HasDerivAt (fun p : ℝ => ∑ l ∈ Finset.range (L + 1), ∑ m ∈ Finset.Icc (-l : ℤ) l, coef re im l m * Y l m θ p)
        (∑ l ∈ Finset.range (L + 1), ∑ m ∈ Finset.Icc (-l : ℤ) l, coef re im l m * y l m) ϕ :=
      HasDerivAt.fun_sum fun l _ => HasDerivAt.fun_sum fun m hm =>
        (hy2 l m (by rw [Finset.mem_Icc] at hm; omega)).const_mul _
    exact Complex.reCLM.hasFDerivAt.comp_hasDerivAt ϕ h

/-- The entry of the theta-derivative array for row i and column j is the theta-derivative of the expansion at that grid
point. -/
theorem C47_dfdtheta (root : ℕ → ℕ → ℝ) (re im : ℕ → ℝ) (Ntheta Nphi L i j : ℕ) (hj : j < Nphi) :
    ∃ d, dfDtheta root re im Ntheta Nphi L (j + i * Nphi) = .ok d ∧
      HasDerivWithinAt (fun t => series re im L t (j * (2 * Real.pi / Nphi))) d (Set.Icc 0 Real.pi)
        (Real.arccos (-root i Ntheta)) := by
  have hθ := theta_mem root Ntheta i
  have hϕ := phi_mem Nphi j hj
  rw [show (j : ℝ) * (2 * Real.pi / Nphi) = phiAt Nphi j by unfold phiAt; ring]
  rw [show Real.arccos (-root i Ntheta) = thetaAt root Ntheta i from rfl]
  set θ := thetaAt root Ntheta i with hθd
  set ϕ := phiAt Nphi j with hϕd
  choose! y hy1 hy2 using fun (l : ℕ) (m : ℤ) (hm : m.natAbs ≤ l) => C47_dtheta l m hm θ ϕ hθ hϕ
  refine ⟨(∑ l ∈ Finset.range (L + 1), ∑ m ∈ Finset.Icc (-l : ℤ) l, coef re im l m * y l m).re, ?_, ?_⟩
  · unfold dfDtheta
    rw [show (j + i * Nphi) / Nphi = i by rw [Nat.add_mul_div_right _ _ (by omega), Nat.div_eq_of_lt hj, Nat.zero_add],
      show (j + i * Nphi) % Nphi = j by rw [Nat.add_mul_mod_self_right, Nat.mod_eq_of_lt hj], ← hθd, ← hϕd]
    rw [sumY_spec dylmDtheta y true re im L θ ϕ hy1 (by simp), Res.bind_ok]
  · have h : HasDerivWithinAt (fun t : ℝ => ∑ l ∈ Finset.range (L + 1), ∑ m ∈ Finset.Icc (-l : ℤ) l, coef re im l m * Y l m t ϕ)
        (∑ l ∈ Finset.range (L + 1), ∑ m ∈ Finset.Icc (-l : ℤ) l, coef re im l m * y l m) (Set.Icc 0 Real.pi) θ :=
      HasDerivWithinAt.fun_sum fun l _ => HasDerivWithinAt.fun_sum fun m hm =>
        (hy2 l m (by rw [Finset.mem_Icc] at hm; omega)).const_mul _
    exact Complex.reCLM.hasFDerivAt.comp_hasDerivWithinAt θ h

example : interp (fun n => n) (fun _ => 0) 3 1 2 = .ok (series (fun n => n) (fun _ => 0) 3 1 2) :=
  C47_interp _ _ 3 1 2 ⟨by norm_num, by linarith [Real.pi_gt_three]⟩ ⟨by norm_num, by linarith [Real.pi_gt_three]⟩

end Elliptica.Ylm
