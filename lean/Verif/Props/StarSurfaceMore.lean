import Verif.Props.StarSurface
import Verif.Props.YlmStable
/-!
Property C100, continued: the whole surface, the failed search, the sphere, the choice of the method.
-/
namespace Elliptica.StarSurface
open Root Text Set Coord Angles

/-- what the search has before it in the direction n, when the surface of the star is at the distance Rs from the centre: the enthalpy less 1 along the ray
is a star-shaped function that the comparisons see; it is within ROUND_OFF_ERR of zero only within tol of the surface, and within ρ of zero there -/
def Sees (e tol ρ : ℝ) (r : Ray) (n : Fin 3 → ℝ) (Rs : ℝ) : Prop :=
  r.N = n ∧ 0 ≤ Rs ∧ ∃ (R0 : ℝ) (G : ℝ → ℝ), (∀ i, r.y i = R0 * n i) ∧ (∀ x, r.F x = .val (G x)) ∧ StarShaped G (Rs - R0) ∧ |Rs - R0| ≤ 5 ∧
    Seen e G ∧ (∀ x, |G x| < e → |x - (Rs - R0)| < tol) ∧ ∀ x, |x - (Rs - R0)| < tol → |G x| ≤ ρ

theorem scan_ok (e tol ρ : ℝ) (he : 0 < e) (maxIter : ℕ) (hm : 0 < maxIter) (hw : (10 : ℝ) / 2 ^ maxIter < tol - e) (rays : ℕ → Ray)
    (Rs : ℕ → ℝ) (M : ℕ) (hs : ∀ k < M, ∃ θ ϕ, Sees e tol ρ (rays k) (unit θ ϕ) (Rs k)) (heρ : e ≤ ρ) :
    ∃ s, scan e tol maxIter rays M = .ok (some s) ∧ ∀ k < M, |s.R k - Rs k| < tol ∧ 0 ≤ s.R k ∧ ∃ v, s.res k = some v ∧ |v| ≤ ρ := by
  induction M with
  | zero => exact ⟨_, rfl, by simp⟩
  | succ M ih =>
    obtain ⟨s, h1, h2⟩ := ih fun k hk => hs k (by omega)
    obtain ⟨θ, ϕ, hN, hR, R0, G, hy, hF, hG, ht, hS, steep, hρ⟩ := hs M (by omega)
    obtain ⟨x, hd, _, hx⟩ := C100_direction e tol he maxIter hm hw (rays M).F G hF _ hG ht hS s.slot
    obtain ⟨x', hd', hr⟩ := C100_radius e tol he maxIter hm hw (rays M) R0 (Rs M) (by rw [hN]; exact Bhf.unit_unit θ ϕ)
      (by rw [hN]; exact hy) hR G hF hG ht hS steep s.slot
    have hxx : x' = x := by
      rw [hd] at hd'
      injection hd' with h
      injection h with h
      exact h.symm
    subst hxx
    refine ⟨_, by rw [scan, h1, Res.bind_ok]; dsimp only; rw [hd]; rfl, fun k hk => ?_⟩
    dsimp only
    by_cases hkM : k = M
    · subst hkM
      rw [if_pos rfl, if_pos rfl]
      refine ⟨hr, Real.sqrt_nonneg _, _, rfl, ?_⟩
      rcases hx with h | h
      · exact h.le.trans heρ
      · exact hρ _ h
    · rw [if_neg hkM, if_neg hkM]
      exact h2 k (by omega)

theorem maxR_greatest (R : ℕ → ℝ) (n : ℕ) (hn : 0 < n) (h0 : ∀ k < n, 0 ≤ R k) : IsGreatest (R '' {k | k < n}) (maxR R n) := by
  induction n with
  | zero => omega
  | succ n ih =>
    have key : (∀ k < n, R k ≤ maxR R n) ∧ 0 ≤ maxR R n ∧ (n = 0 → maxR R n = 0) ∧ (0 < n → ∃ k < n, R k = maxR R n) := by
      rcases Nat.eq_zero_or_pos n with rfl | h
      · simp [maxR]
      · have := ih h fun k hk => h0 k (by omega)
        refine ⟨fun k hk => this.2 ⟨k, hk, rfl⟩, (h0 0 (by omega)).trans (this.2 ⟨0, h, rfl⟩), by omega, fun _ => ?_⟩
        obtain ⟨k, hk, e⟩ := this.1
        exact ⟨k, hk, e⟩
    obtain ⟨k1, k2, k3, k4⟩ := key
    rw [maxR]
    split_ifs with h
    · refine ⟨⟨n, by simp, rfl⟩, ?_⟩
      rintro _ ⟨k, hk, rfl⟩
      simp only [mem_ofPred_eq] at hk
      rcases Nat.lt_succ_iff_lt_or_eq.1 hk with h' | rfl
      · exact (k1 k h').trans h.le
      · exact le_rfl
    · push Not at h
      constructor
      · rcases Nat.eq_zero_or_pos n with hz | hp
        · subst hz
          exact ⟨0, by simp, le_antisymm h (by rw [k3 rfl]; exact h0 0 (by omega))⟩
        · obtain ⟨k, hk, e⟩ := k4 hp
          exact ⟨k, by simp only [mem_ofPred_eq]; omega, e⟩
      · rintro _ ⟨k, hk, rfl⟩
        simp only [mem_ofPred_eq] at hk
        rcases Nat.lt_succ_iff_lt_or_eq.1 hk with h' | rfl
        · exact k1 k h'
        · exact h

theorem minR_least (big : ℝ) (R : ℕ → ℝ) (n : ℕ) (hn : 0 < n) (h0 : ∀ k < n, R k ≤ big) : IsLeast (R '' {k | k < n}) (minR big R n) := by
  induction n with
  | zero => omega
  | succ n ih =>
    have key : (∀ k < n, minR big R n ≤ R k) ∧ (n = 0 → minR big R n = big) ∧ (0 < n → ∃ k < n, R k = minR big R n) := by
      rcases Nat.eq_zero_or_pos n with rfl | h
      · simp [minR]
      · have := ih h fun k hk => h0 k (by omega)
        refine ⟨fun k hk => this.2 ⟨k, hk, rfl⟩, by omega, fun _ => ?_⟩
        obtain ⟨k, hk, e⟩ := this.1
        exact ⟨k, hk, e⟩
    obtain ⟨k1, k3, k4⟩ := key
    rw [minR]
    split_ifs with h
    · refine ⟨⟨n, by simp, rfl⟩, ?_⟩
      rintro _ ⟨k, hk, rfl⟩
      simp only [mem_ofPred_eq] at hk
      rcases Nat.lt_succ_iff_lt_or_eq.1 hk with h' | rfl
      · exact h.le.trans (k1 k h')
      · exact le_rfl
    · push Not at h
      constructor
      · rcases Nat.eq_zero_or_pos n with hz | hp
        · subst hz
          exact ⟨0, by simp, le_antisymm (by rw [k3 rfl]; exact h0 0 (by omega)) h⟩
        · obtain ⟨k, hk, e⟩ := k4 hp
          exact ⟨k, by simp only [mem_ofPred_eq]; omega, e⟩
      · rintro _ ⟨k, hk, rfl⟩
        simp only [mem_ofPred_eq] at hk
        rcases Nat.lt_succ_iff_lt_or_eq.1 hk with h' | rfl
        · exact k1 k h'
        · exact h

theorem residual_le (res : ℕ → Option ℝ) (n : ℕ) (ρ : ℝ) (hn : 0 < n) (h : ∀ k < n, ∃ v, res k = some v ∧ |v| ≤ ρ) :
    ∃ r, residual res n = some r ∧ 0 ≤ r ∧ r ≤ ρ := by
  have hρ : 0 ≤ ρ := by
    obtain ⟨v, _, hv⟩ := h 0 hn
    exact (abs_nonneg v).trans hv
  have hall : ∀ k < n, res k ≠ none := by
    intro k hk e
    obtain ⟨v, hv, _⟩ := h k hk
    rw [hv] at e
    cases e
  refine ⟨_, by rw [residual, if_pos hall], ?_, ?_⟩
  · unfold General.l2Norm General.rootSquare; positivity
  · have hn' : (0 : ℝ) < n := by exact_mod_cast hn
    unfold General.l2Norm General.rootSquare
    rw [div_le_iff₀ (Real.sqrt_pos.2 hn')]
    refine Real.sqrt_le_iff.2 ⟨by positivity, ?_⟩
    rw [mul_pow, Real.sq_sqrt hn'.le]
    refine (Finset.sum_le_card_nsmul _ _ (ρ ^ 2) fun k hk => ?_).trans (by simp [mul_comm])
    obtain ⟨v, hv, hb⟩ := h k (Finset.mem_range.1 hk)
    dsimp only
    rw [hv, Option.getD_some, ← sq, ← sq_abs]
    exact pow_le_pow_left₀ (abs_nonneg v) hb 2

theorem angle_mem (tab : ℕ → ℕ → ℝ) (Nphi : ℕ) (n j : ℕ) (hj : j < Nphi) (i : ℕ) :
    Ylm.thetaAt (fun i n => tab n i) n i ∈ Icc 0 Real.pi ∧ Ylm.phiAt Nphi j ∈ Icc 0 (2 * Real.pi) := by
  refine ⟨⟨Real.arccos_nonneg _, Real.arccos_le_pi _⟩, ?_⟩
  have h1 : (j : ℝ) ≤ Nphi := by exact_mod_cast hj.le
  have h2 : (0 : ℝ) < Nphi := by exact_mod_cast (by omega : 0 < Nphi)
  unfold Ylm.phiAt
  refine ⟨by positivity, ?_⟩
  rw [div_le_iff₀ h2]
  nlinarith [Real.pi_pos]

/-- **C100 (the surface).** When the star has a surface at the distance Rs(theta, phi) from the centre, the search returns the coefficients of radii
which are each within the tolerance of Rs in the direction of their point of the grid of angles; the radii reported are the least and the greatest of them; the search is
said to have worked when the norm of the enthalpy less 1 at the points found, which is at most ρ, is within the limit. -/
theorem C100_surface (e tol ρ big maxRes : ℝ) (he : 0 < e) (maxIter maxFail L : ℕ) (hm : 0 < maxIter) (hw : (10 : ℝ) / 2 ^ maxIter < tol - e)
    (heρ : e ≤ ρ) (hL : L < 50) (tab : ℕ → ℕ → ℝ) (ht : Ylm.ExactRoots tab (2 * L + 1)) (rays : ℝ → ℝ → Ray) (Rs : ℝ → ℝ → ℝ)
    (hs : ∀ θ ∈ Icc 0 Real.pi, ∀ ϕ ∈ Icc 0 (2 * Real.pi), Sees e tol ρ (rays θ ϕ) (unit θ ϕ) (Rs θ ϕ) ∧ Rs θ ϕ + tol ≤ big) (p : Par) :
    let N := 2 * L + 1
    ∃ (R : ℕ → ℝ) (c : (ℕ → ℝ) × (ℕ → ℝ)) (lo hi h : ℝ),
      bisection e tol big maxRes maxIter maxFail L tab rays true false p =
        .ok ({ p with maxRadius := hi, minRadius := lo, hRes := h, worked := decide (h ≤ maxRes) }, ⟨some c, lo, hi, L⟩) ∧
      (∀ i < N, ∀ j < N, |R (j + i * N) - Rs (Ylm.thetaAt (fun i n => tab n i) N i) (Ylm.phiAt N j)| < tol) ∧
      Ylm.getCoeffs tab R N N L (fun _ => 0, fun _ => 0) = .ok c ∧
      IsLeast (R '' {k | k < N * N}) lo ∧ IsGreatest (R '' {k | k < N * N}) hi ∧ 0 ≤ h ∧ h ≤ ρ := by
  dsimp only
  have hN : 0 < 2 * L + 1 := by omega
  have hNN : 0 < (2 * L + 1) * (2 * L + 1) := Nat.mul_pos hN hN
  have hmod : ∀ k, k % (2 * L + 1) < 2 * L + 1 := fun k => Nat.mod_lt _ hN
  obtain ⟨s, h1, h2⟩ := scan_ok e tol ρ he maxIter hm hw
    (fun n => rays (Ylm.thetaAt (fun i n => tab n i) (2 * L + 1) (n / (2 * L + 1))) (Ylm.phiAt (2 * L + 1) (n % (2 * L + 1))))
    (fun n => Rs (Ylm.thetaAt (fun i n => tab n i) (2 * L + 1) (n / (2 * L + 1))) (Ylm.phiAt (2 * L + 1) (n % (2 * L + 1))))
    ((2 * L + 1) * (2 * L + 1)) (fun k _ => by
      obtain ⟨a, b⟩ := angle_mem tab (2 * L + 1) (2 * L + 1) (k % (2 * L + 1)) (hmod k) (k / (2 * L + 1))
      exact ⟨_, _, (hs _ a _ b).1⟩) heρ
  obtain ⟨c, hc⟩ := Ylm.C49_total tab (2 * L + 1) (2 * L + 1) L (by omega) (by omega) ht (by omega) s.R (fun _ => 0, fun _ => 0)
  obtain ⟨h, h3, h4, h5⟩ := residual_le s.res _ ρ hNN (fun k hk => (h2 k hk).2.2)
  refine ⟨s.R, c, minR big s.R _, maxR s.R _, h, ?_, ?_, hc, minR_least big s.R _ hNN fun k hk => ?_,
    maxR_greatest s.R _ hNN fun k hk => (h2 k hk).2.1, h4, h5⟩
  · rw [bisection]
    dsimp only
    rw [h1, Res.bind_ok]
    dsimp only
    rw [hc, Res.bind_ok, if_neg (by simp), if_neg (by simp), h3]
    dsimp only [Option.getD_some]
    congr 3
    by_cases hr : h > maxRes
    · rw [decide_eq_true hr, decide_eq_false (not_le.2 hr)]; rfl
    · rw [decide_eq_false hr, decide_eq_true (not_lt.1 hr)]; rfl
  · intro i hi j hj
    have hk : j + i * (2 * L + 1) < (2 * L + 1) * (2 * L + 1) :=
      calc j + i * (2 * L + 1) < (2 * L + 1) + i * (2 * L + 1) := by omega
        _ = (i + 1) * (2 * L + 1) := by ring
        _ ≤ _ := Nat.mul_le_mul_right _ hi
    have := (h2 _ hk).1
    rwa [Nat.add_mul_div_right _ _ hN, Nat.div_eq_of_lt hj, zero_add, Nat.add_mul_mod_self_right, Nat.mod_eq_of_lt hj] at this
  · obtain ⟨a, b⟩ := angle_mem tab (2 * L + 1) (2 * L + 1) (k % (2 * L + 1)) (hmod k) (k / (2 * L + 1))
    have := abs_lt.1 (h2 k hk).1
    linarith [(hs _ a _ b).2, this.2]

/-- **C100 (the coefficients).** For a surface that is a combination of spherical harmonics of degree at most L the coefficients the search returns
are those of the surface within 2√π times the tolerance. -/
theorem C100_coeffs (e tol ρ big maxRes : ℝ) (he : 0 < e) (maxIter maxFail L : ℕ) (hm : 0 < maxIter) (hw : (10 : ℝ) / 2 ^ maxIter < tol - e)
    (heρ : e ≤ ρ) (hL : L < 50) (tab : ℕ → ℕ → ℝ) (ht : Ylm.ExactRoots tab (2 * L + 1)) (rays : ℝ → ℝ → Ray) (re im : ℕ → ℝ)
    (him : Ylm.RealCoeffs im L)
    (hs : ∀ θ ∈ Icc 0 Real.pi, ∀ ϕ ∈ Icc 0 (2 * Real.pi),
      Sees e tol ρ (rays θ ϕ) (unit θ ϕ) (Ylm.series re im L θ ϕ) ∧ Ylm.series re im L θ ϕ + tol ≤ big) (p : Par) :
    ∃ p' s c, bisection e tol big maxRes maxIter maxFail L tab rays true false p = .ok (p', s) ∧ s.clm = some c ∧ s.lmax = L ∧
      ∀ l ≤ L, ∀ m ≤ l, |c.1 (l * (l + 1) / 2 + m) - re (l * (l + 1) / 2 + m)| ≤ 2 * √Real.pi * tol ∧
        |c.2 (l * (l + 1) / 2 + m) - im (l * (l + 1) / 2 + m)| ≤ 2 * √Real.pi * tol := by
  obtain ⟨R, c, lo, hi, h, h1, h2, h3, _⟩ := C100_surface e tol ρ big maxRes he maxIter maxFail L hm hw heρ hL tab ht rays _ hs p
  refine ⟨_, _, c, h1, rfl, rfl, ?_⟩
  obtain ⟨b, k1, k2⟩ := Ylm.C49_stable tab (2 * L + 1) (2 * L + 1) L (by omega) (by omega) ht (by omega) re im him R tol
    (fun i hi j hj => (h2 i hi j hj).le) (fun _ => 0, fun _ => 0)
  rw [h3] at k1
  rw [Res.ok.inj k1]
  exact k2

/-- **C100 (failure).** A search that was interrupted leaves the star as it was: the radii stay, no coefficients are handed on, the failure is counted; the program
stops when there have been more failures than allowed. -/
theorem C100_interrupt (e tol big maxRes : ℝ) (maxIter maxFail L : ℕ) (tab : ℕ → ℕ → ℝ) (rays : ℝ → ℝ → Ray) (split : Bool) (p : Par)
    (h : scan e tol maxIter (fun n => rays (Ylm.thetaAt (fun i n => tab n i) (2 * L + 1) (n / (2 * L + 1)))
      (Ylm.phiAt (2 * L + 1) (n % (2 * L + 1)))) ((2 * L + 1) * (2 * L + 1)) = .ok none) :
    bisection e tol big maxRes maxIter maxFail L tab rays split false p =
      if p.numFail < maxFail then .ok ({ p with numFail := p.numFail + 1, worked := false }, ⟨none, p.minRadius, p.maxRadius, L⟩) else .abort := by
  rw [bisection]
  dsimp only
  rw [h, Res.bind_ok]
  dsimp only
  by_cases hf : p.numFail < maxFail
  · rw [if_neg (by omega), if_neg (by simp), if_pos hf]
  · rw [if_pos (by omega), if_neg hf]

/-- the scan is interrupted as soon as one direction is -/
theorem C100_scan_interrupt (e tol : ℝ) (maxIter : ℕ) (rays : ℕ → Ray) (M k : ℕ) (hk : k < M)
    (hF : ∀ n < M, ∀ x, (rays n).F x ≠ .nan) (h : ∀ x0, direction e tol maxIter (rays k).F x0 = .ok .interrupted) :
    scan e tol maxIter rays M = .ok none := by
  induction M with
  | zero => omega
  | succ M ih =>
    have hall : ∀ m ≤ M, ∃ s, scan e tol maxIter rays m = .ok s := by
      intro m
      induction m with
      | zero => intro _; exact ⟨_, rfl⟩
      | succ m ihm =>
        intro hm
        obtain ⟨s, hs⟩ := ihm (by omega)
        rw [scan, hs, Res.bind_ok]
        cases s with
        | none => exact ⟨_, rfl⟩
        | some s =>
          dsimp only
          obtain ⟨d, hd⟩ := C100_nostop e tol maxIter (rays m).F (hF m (by omega)) s.slot
          rw [hd]
          exact ⟨_, rfl⟩
    rw [scan]
    rcases Nat.lt_succ_iff_lt_or_eq.1 hk with h' | h'
    · rw [ih h' fun n hn => hF n (by omega), Res.bind_ok]
    · subst h'
      obtain ⟨s, hs⟩ := hall k le_rfl
      rw [hs, Res.bind_ok]
      cases s with
      | none => rfl
      | some s =>
        dsimp only
        rw [h]
        rfl

/-- **C100 (residual, violation).** A residual that is not a number counts as a search that has worked: the comparison with the limit is false. -/
theorem C100_nan_violation (e tol big maxRes : ℝ) (maxIter maxFail L : ℕ) (tab : ℕ → ℕ → ℝ) (rays : ℝ → ℝ → Ray) (p : Par) (s : Acc)
    (h : scan e tol maxIter (fun n => rays (Ylm.thetaAt (fun i n => tab n i) (2 * L + 1) (n / (2 * L + 1)))
      (Ylm.phiAt (2 * L + 1) (n % (2 * L + 1)))) ((2 * L + 1) * (2 * L + 1)) = .ok (some s)) (k : ℕ) (hk : k < (2 * L + 1) * (2 * L + 1))
    (hr : s.res k = none) (p' : Par) (t : Shape) (hb : bisection e tol big maxRes maxIter maxFail L tab rays true false p = .ok (p', t)) :
    p'.worked = true := by
  have hn : residual s.res ((2 * L + 1) * (2 * L + 1)) = none := by
    rw [residual, if_neg]
    intro h
    exact h k hk hr
  rw [bisection] at hb
  dsimp only at hb
  rw [h, Res.bind_ok] at hb
  dsimp only at hb
  cases hc : Ylm.getCoeffs tab s.R (2 * L + 1) (2 * L + 1) L (fun _ => 0, fun _ => 0) with
  | ok c =>
    rw [hc, Res.bind_ok, if_neg (by simp), if_neg (by simp), hn] at hb
    injection hb with hb
    rw [← (Prod.mk.inj hb).1]
  | abort => rw [hc] at hb; cases hb
  | ub => rw [hc] at hb; cases hb

/-- **C100 (the sphere).** At the start the surface is the sphere with the radius of the TOV star: the coefficients, for every degree up to
49, are those of the constant, both radii are it, and the search is said to have worked. -/
theorem C100_perfect (L : ℕ) (hL : L < 50) (tab : ℕ → ℕ → ℝ) (ht : Ylm.ExactRoots tab (2 * L + 1)) (R : ℝ) (p : Par) :
    ∃ c, perfectS2 L tab false (startOff R p) =
        .ok ({ p with perfect := R, minRadius := R, maxRadius := R, worked := true }, ⟨some c, R, R, L⟩) ∧
      ∀ θ ∈ Icc 0 Real.pi, ∀ ϕ ∈ Icc 0 (2 * Real.pi), Ylm.interp c.1 c.2 L θ ϕ = .ok R := by
  obtain ⟨re, im, hb⟩ := Bhf.Band.const L R
  have hint : ∀ θ ∈ Icc 0 Real.pi, ∀ ϕ ∈ Icc 0 (2 * Real.pi), Ylm.interp re im L θ ϕ = .ok R := by
    intro θ hθ ϕ hϕ
    rw [Ylm.C47_interp re im L θ ϕ hθ hϕ, ← hb θ hθ ϕ hϕ]
  obtain ⟨c, h1, h2⟩ := Ylm.C49_roundtrip tab (2 * L + 1) (2 * L + 1) L (by omega) (by omega) ht (by omega) re im (fun _ => R)
    (fun i hi j hj => by
      obtain ⟨a, b⟩ := angle_mem tab (2 * L + 1) (2 * L + 1) j hj i
      exact hint _ a _ b) (fun _ => 0, fun _ => 0)
  refine ⟨c, ?_, fun θ hθ ϕ hϕ => by rw [h2 θ hθ ϕ hϕ, hint θ hθ ϕ hϕ]⟩
  rw [perfectS2, startOff, h1, Res.bind_ok, if_neg (by simp)]

theorem same_iff (a b : Str) : strcmpI (some a) (some b) = true ↔ a.map lower = b.map lower := by simp [strcmpI]

/-- **C100 (the choice).** The type of the surface and the finder are recognised in any mixture of upper and lower case; any other is refused. -/
theorem C100_options (type finder : Str) (b s : Res (Par × Shape)) :
    (type.map lower = "topology_s2".toList → finder.map lower = "bisection".toList → findSurface type finder b s = b) ∧
    (type.map lower = "perfect_s2".toList → findSurface type finder b s = s) ∧
    (type.map lower = "topology_s2".toList → finder.map lower ≠ "bisection".toList → findSurface type finder b s = .abort) ∧
    (type.map lower ≠ "topology_s2".toList → type.map lower ≠ "perfect_s2".toList → findSurface type finder b s = .abort) := by
  have l1 : "topology_s2".toList.map lower = "topology_s2".toList := by decide +kernel
  have l2 : "perfect_s2".toList.map lower = "perfect_s2".toList := by decide +kernel
  have l3 : "bisection".toList.map lower = "bisection".toList := by decide +kernel
  have hne : "perfect_s2".toList ≠ "topology_s2".toList := by decide +kernel
  unfold findSurface
  simp only [same_iff, l1, l2, l3]
  refine ⟨fun h h' => ?_, fun h => ?_, fun h h' => ?_, fun h h' => ?_⟩
  · rw [if_pos h, if_pos h']
  · rw [if_neg (by rw [h]; exact hne), if_pos h]
  · rw [if_pos h, if_neg h']
  · rw [if_neg h, if_neg h']

end Elliptica.StarSurface
