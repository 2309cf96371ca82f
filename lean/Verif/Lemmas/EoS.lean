import Verif.Model.EoS
import Verif.Spec.EoS
import Mathlib.Analysis.Calculus.Deriv.MeanValue
/-!
Lemmas for C58: continuity of the pieces, the unique matter functions, monotone enthalpy.
-/
namespace Elliptica.EoS
open Set Filter Topology

variable {N : ℕ} {g rho : ℕ → ℝ} {K0 : ℝ}

/-- the arrays -/
noncomputable def aK (g rho : ℕ → ℝ) (K0 : ℝ) : ℕ → ℝ := fillK g rho K0
noncomputable def aA (g rho : ℕ → ℝ) (K0 : ℝ) : ℕ → ℝ := fillA g rho (fillK g rho K0)
noncomputable def aH (g rho : ℕ → ℝ) (K0 : ℝ) : ℕ → ℝ := fillH g rho (fillK g rho K0) (fillA g rho (fillK g rho K0))

/-- energy and enthalpy by the formula of piece i -/
noncomputable def uF (g rho : ℕ → ℝ) (K0 : ℝ) (i : ℕ) (r : ℝ) : ℝ := aA g rho K0 i + aK g rho K0 i * r ^ (g i - 1) / (g i - 1)
noncomputable def hF (g rho : ℕ → ℝ) (K0 : ℝ) (i : ℕ) (r : ℝ) : ℝ :=
  1 + aA g rho K0 i + (g i / (g i - 1)) * aK g rho K0 i * r ^ (g i - 1)

theorem Usable.rho_pos (U : Usable N g K0 rho) (i : ℕ) (h1 : 1 ≤ i) (h2 : i < N) : 0 < rho i := by
  induction i with
  | zero => omega
  | succ i ih =>
    rcases Nat.eq_zero_or_pos i with rfl | hi
    · exact U.thr h2
    · exact (ih hi (by omega)).trans (U.inc i hi h2)

theorem Usable.rho_lt (U : Usable N g K0 rho) (i j : ℕ) (h1 : 1 ≤ i) (hij : i < j) (h2 : j < N) : rho i < rho j := by
  induction j with
  | zero => omega
  | succ j ih =>
    rcases Nat.lt_or_eq_of_le (Nat.lt_succ_iff.1 hij) with h | rfl
    · exact (ih h (by omega)).trans (U.inc j (by omega) h2)
    · exact U.inc i h1 h2

theorem Usable.rho_le (U : Usable N g K0 rho) (i j : ℕ) (h1 : 1 ≤ i) (hij : i ≤ j) (h2 : j < N) : rho i ≤ rho j := by
  rcases Nat.lt_or_eq_of_le hij with h | rfl
  · exact (U.rho_lt i j h1 h h2).le
  · exact le_rfl

theorem Usable.gm (U : Usable N g K0 rho) (i : ℕ) (h : i < N) : 0 < g i - 1 := by linarith [U.gam i h]

theorem aK_pos (U : Usable N g K0 rho) (i : ℕ) (h : i < N) : 0 < aK g rho K0 i := by
  induction i with
  | zero => exact U.kap
  | succ i ih =>
    show 0 < fillK g rho K0 i * _
    exact mul_pos (ih (by omega)) (Real.rpow_pos_of_pos (U.rho_pos _ (by omega) h) _)

theorem aK_succ (U : Usable N g K0 rho) (i : ℕ) (h : i + 1 < N) :
    aK g rho K0 (i + 1) = aK g rho K0 i * rho (i + 1) ^ (g i - g (i + 1)) := by
  show fillK g rho K0 i * _ = fillK g rho K0 i * _
  have h1 := (U.gm i (by omega)).ne'
  have h2 := (U.gm (i + 1) h).ne'
  congr 2
  unfold fillN
  field_simp
  ring

/-- C58: continuous pressure at a threshold -/
theorem aK_cont (U : Usable N g K0 rho) (i : ℕ) (h : i + 1 < N) (c : ℝ) :
    aK g rho K0 (i + 1) * rho (i + 1) ^ (g (i + 1) - c) = aK g rho K0 i * rho (i + 1) ^ (g i - c) := by
  rw [aK_succ U i h, mul_assoc, ← Real.rpow_add (U.rho_pos _ (by omega) h)]
  congr 2; ring

theorem uF_cont (i : ℕ) :
    uF g rho K0 (i + 1) (rho (i + 1)) = uF g rho K0 i (rho (i + 1)) := by
  have hA : aA g rho K0 (i + 1) = aA g rho K0 i + aK g rho K0 i * rho (i + 1) ^ (g i - 1) / (g i - 1)
      - aK g rho K0 (i + 1) * rho (i + 1) ^ (g (i + 1) - 1) / (g (i + 1) - 1) := rfl
  unfold uF
  rw [hA]; ring

theorem hF_eq (U : Usable N g K0 rho) (i : ℕ) (h : i < N) (r : ℝ) :
    hF g rho K0 i r = 1 + uF g rho K0 i r + aK g rho K0 i * r ^ (g i - 1) := by
  have := (U.gm i h).ne'
  unfold hF uF
  field_simp
  ring

theorem hF_cont (U : Usable N g K0 rho) (i : ℕ) (h : i + 1 < N) :
    hF g rho K0 (i + 1) (rho (i + 1)) = hF g rho K0 i (rho (i + 1)) := by
  rw [hF_eq U _ h, hF_eq U i (by omega), uF_cont, aK_cont U i h]

theorem aH_eq (i : ℕ) (h : 1 ≤ i) : aH g rho K0 i = hF g rho K0 i (rho i) := by
  unfold aH fillH
  rw [if_neg (by omega)]; rfl

theorem hF_lt (U : Usable N g K0 rho) (i : ℕ) (h : i < N) (r s : ℝ) (hr : 0 ≤ r) (hrs : r < s) :
    hF g rho K0 i r < hF g rho K0 i s := by
  have h1 := U.gm i h
  have h2 := aK_pos U i h
  have := Real.rpow_lt_rpow hr hrs h1
  have h3 : 0 < g i / (g i - 1) * aK g rho K0 i := by
    have := U.gam i h
    positivity
  unfold hF
  have := mul_lt_mul_of_pos_left this h3
  linarith

theorem hF_le (U : Usable N g K0 rho) (i : ℕ) (h : i < N) (r s : ℝ) (hr : 0 ≤ r) (hrs : r ≤ s) :
    hF g rho K0 i r ≤ hF g rho K0 i s := by
  rcases eq_or_lt_of_le hrs with rfl | h'
  · exact le_rfl
  · exact (hF_lt U i h r s hr h').le

theorem aH_step (U : Usable N g K0 rho) (i : ℕ) (h1 : 1 ≤ i) (h : i + 1 < N) : aH g rho K0 i < aH g rho K0 (i + 1) := by
  rw [aH_eq i h1, aH_eq (i + 1) (by omega), hF_cont U i h]
  exact hF_lt U i (by omega) _ _ (U.rho_pos i h1 (by omega)).le (U.inc i h1 h)

theorem aH_lt (U : Usable N g K0 rho) (i j : ℕ) (h1 : 1 ≤ i) (hij : i < j) (h2 : j < N) : aH g rho K0 i < aH g rho K0 j := by
  induction j with
  | zero => omega
  | succ j ih =>
    rcases Nat.lt_or_eq_of_le (Nat.lt_succ_iff.1 hij) with h | rfl
    · exact (ih h (by omega)).trans (aH_step U j (by omega) h2)
    · exact aH_step U i h1 h2

theorem aH_one (U : Usable N g K0 rho) (h : 1 < N) : 1 < aH g rho K0 1 := by
  rw [aH_eq 1 le_rfl, hF_cont U 0 h]
  have h1 := U.gm 0 U.pos
  have := hF_lt U 0 U.pos 0 (rho 1) le_rfl (U.thr h)
  have h0 : hF g rho K0 0 0 = 1 := by
    unfold hF
    rw [Real.zero_rpow h1.ne']
    show 1 + (0 : ℝ) + _ = 1
    ring
  rw [h0] at this; exact this

/-- the enthalpy of a density of piece i lies on the same side of every threshold as the density -/
theorem side_le (U : Usable N g K0 rho) (i : ℕ) (hi : i < N) (r : ℝ) (hr : r ∈ Piece N rho i) (j : ℕ) (h1 : 1 ≤ j) (h2 : j < N)
    (h : aH g rho K0 j ≤ hF g rho K0 i r) : rho j ≤ r := by
  obtain ⟨r0, ra, rb⟩ := hr
  by_contra hc
  push Not at hc
  have hij : i < j := by
    by_contra hji
    have := ra (by omega)
    have := U.rho_le j i h1 (by omega) hi
    linarith
  have hlt : hF g rho K0 i r < aH g rho K0 j := by
    rcases Nat.lt_or_eq_of_le (show i + 1 ≤ j from hij) with hh | hh
    · have a1 := aH_lt U (i + 1) j (by omega) hh h2
      have a2 := hF_le U i hi r (rho (i + 1)) r0.le (rb (by omega))
      rw [← hF_cont U i (by omega), ← aH_eq (i + 1) (by omega)] at a2
      linarith
    · subst hh
      have a2 := hF_lt U i hi r (rho (i + 1)) r0.le hc
      rwa [← hF_cont U i (by omega), ← aH_eq (i + 1) (by omega)] at a2
  linarith

theorem side_ge (U : Usable N g K0 rho) (i : ℕ) (hi : i < N) (r : ℝ) (hr : r ∈ Piece N rho i) (j : ℕ) (h1 : 1 ≤ j) (h2 : j < N)
    (h : hF g rho K0 i r ≤ aH g rho K0 j) : r ≤ rho j := by
  obtain ⟨r0, ra, rb⟩ := hr
  by_contra hc
  push Not at hc
  have hij : j ≤ i := by
    by_contra hji
    have := rb (by omega)
    have := U.rho_le (i + 1) j (by omega) (by omega) h2
    linarith
  have hlt : aH g rho K0 j < hF g rho K0 i r := by
    rcases Nat.lt_or_eq_of_le hij with hh | rfl
    · have a1 := aH_lt U j i h1 hh hi
      have a2 := hF_le U i hi (rho i) r (U.rho_pos i (by omega) hi).le (ra (by omega))
      rw [← aH_eq i (by omega)] at a2
      linarith
    · have a2 := hF_lt U j hi (rho j) r (U.rho_pos j h1 hi).le hc
      rwa [← aH_eq j h1] at a2
  linarith

/-- two formulas agree at a density common to two pieces -/
theorem hF_common (U : Usable N g K0 rho) (i j : ℕ) (hi : i < N) (hj : j < N) (hij : i ≤ j) (r : ℝ) (h1 : r ∈ Piece N rho i)
    (h2 : r ∈ Piece N rho j) : hF g rho K0 i r = hF g rho K0 j r ∧ uF g rho K0 i r = uF g rho K0 j r ∧
      aK g rho K0 i * r ^ g i = aK g rho K0 j * r ^ g j := by
  rcases Nat.lt_or_eq_of_le hij with h | rfl
  · have hle := h1.2.2 (by omega)
    have hge := h2.2.1 (by omega)
    have hji : j = i + 1 := by
      by_contra hne
      have := U.rho_lt (i + 1) j (by omega) (by omega) hj
      linarith
    subst hji
    have hr : r = rho (i + 1) := le_antisymm hle hge
    subst hr
    refine ⟨(hF_cont U i hj).symm, (uF_cont i).symm, ?_⟩
    have := aK_cont U i hj 0
    simpa using this.symm
  · exact ⟨rfl, rfl, rfl⟩

/-! ### the matter functions are determined -/

variable {p u : ℝ → ℝ}

theorem left_mem (U : Usable N g K0 rho) (i : ℕ) (h : i + 1 < N) :
    rho (i + 1) ∈ Piece N rho i ∧ rho (i + 1) ∈ Piece N rho (i + 1) := by
  have h0 := U.rho_pos (i + 1) (by omega) h
  refine ⟨⟨h0, fun h1 => (U.inc i h1 h).le, fun _ => le_rfl⟩, ⟨h0, fun _ => le_rfl, fun h2 => (U.inc (i + 1) (by omega) h2).le⟩⟩

theorem pressure_eq (U : Usable N g K0 rho) (M : Matter N g K0 rho p u) (i : ℕ) (hi : i < N) (r : ℝ) (hr : r ∈ Piece N rho i) :
    p r = aK g rho K0 i * r ^ g i := by
  induction i generalizing r with
  | zero => exact M.first r hr
  | succ i ih =>
    obtain ⟨C, hC⟩ := M.power (i + 1) hi
    obtain ⟨m1, m2⟩ := left_mem U i hi
    have e1 := ih (by omega) _ m1
    rw [hC _ m2] at e1
    have e2 := aK_cont U i hi 0
    simp only [sub_zero] at e2
    rw [← e2] at e1
    have := mul_right_cancel₀ (Real.rpow_pos_of_pos m1.1 _).ne' e1
    rw [hC r hr, this]

theorem power_deriv (c : ℝ) (hc : c ≠ 0) (K r : ℝ) (hr : 0 < r) :
    HasDerivAt (fun s : ℝ => K * s ^ c / c) (K * r ^ (c + 1) / r ^ 2) r := by
  have h := (Real.hasDerivAt_rpow_const (x := r) (p := c) (Or.inl hr.ne')).const_mul K
  have h2 := h.div_const c
  have e : K * (c * r ^ (c - 1)) / c = K * r ^ (c + 1) / r ^ 2 := by
    have : r ^ (c + 1) = r ^ (c - 1) * r ^ 2 := by
      rw [← Real.rpow_natCast, ← Real.rpow_add hr]; congr 1; push_cast; ring
    rw [this]
    field_simp
  rw [← e]; exact h2

/-- on one piece the energy is the formula up to a constant -/
theorem energy_const (U : Usable N g K0 rho) (M : Matter N g K0 rho p u) (i : ℕ) (hi : i < N) (r s : ℝ) (hr : r ∈ Piece N rho i)
    (hs : s ∈ Piece N rho i) (hrs : r < s) :
    u s - aK g rho K0 i * s ^ (g i - 1) / (g i - 1) = u r - aK g rho K0 i * r ^ (g i - 1) / (g i - 1) := by
  have h1 := (U.gm i hi).ne'
  have sub : Icc r s ⊆ Piece N rho i := by
    intro x hx
    exact ⟨lt_of_lt_of_le hr.1 hx.1, fun h => (hr.2.1 h).trans hx.1, fun h => hx.2.trans (hs.2.2 h)⟩
  have hder : ∀ x ∈ Ioo r s, HasDerivAt (fun x => u x - aK g rho K0 i * x ^ (g i - 1) / (g i - 1)) 0 x := by
    intro x hx
    have hx0 : 0 < x := lt_trans hr.1 hx.1
    have a1 := M.law i hi x ⟨hx0, fun h => lt_of_le_of_lt (hr.2.1 h) hx.1, fun h => lt_of_lt_of_le hx.2 (hs.2.2 h)⟩
    have a2 := power_deriv (g i - 1) h1 (aK g rho K0 i) x hx0
    have a3 := a1.sub a2
    rw [pressure_eq U M i hi x (sub ⟨hx.1.le, hx.2.le⟩), sub_add_cancel, sub_self] at a3
    exact a3
  have hcont : ContinuousOn (fun x => u x - aK g rho K0 i * x ^ (g i - 1) / (g i - 1)) (Icc r s) := by
    refine ((M.cont i hi).mono sub).sub ?_
    intro x hx
    have hx0 : 0 < x := lt_of_lt_of_le hr.1 hx.1
    exact (power_deriv (g i - 1) h1 (aK g rho K0 i) x hx0).continuousAt.continuousWithinAt
  obtain ⟨c, -, hc⟩ := exists_hasDerivAt_eq_slope _ (fun _ => 0) hrs hcont hder
  have hne : s - r ≠ 0 := by linarith
  have := (div_eq_zero_iff.1 hc.symm).resolve_right hne
  linarith

theorem energy_eq (U : Usable N g K0 rho) (M : Matter N g K0 rho p u) (i : ℕ) (hi : i < N) (r : ℝ) (hr : r ∈ Piece N rho i) :
    u r = uF g rho K0 i r := by
  induction i generalizing r with
  | zero =>
    have h1 := U.gm 0 hi
    have hconst : ∀ᶠ s in 𝓝[>] (0 : ℝ), u s = aK g rho K0 0 * s ^ (g 0 - 1) / (g 0 - 1) +
        (u r - aK g rho K0 0 * r ^ (g 0 - 1) / (g 0 - 1)) := by
      have : Ioo 0 r ∈ 𝓝[>] (0 : ℝ) := Ioo_mem_nhdsGT hr.1
      filter_upwards [this] with s hs
      have hs' : s ∈ Piece N rho 0 := ⟨hs.1, fun h => by omega, fun h => hs.2.le.trans (hr.2.2 h)⟩
      have := energy_const U M 0 hi s r hs' hr hs.2
      linarith
    have hlim : Tendsto (fun s : ℝ => aK g rho K0 0 * s ^ (g 0 - 1) / (g 0 - 1) +
        (u r - aK g rho K0 0 * r ^ (g 0 - 1) / (g 0 - 1))) (𝓝[>] 0)
        (𝓝 (aK g rho K0 0 * (0 : ℝ) ^ (g 0 - 1) / (g 0 - 1) + (u r - aK g rho K0 0 * r ^ (g 0 - 1) / (g 0 - 1)))) := by
      have hc : ContinuousAt (fun s : ℝ => s ^ (g 0 - 1)) 0 := Real.continuousAt_rpow_const _ _ (Or.inr h1.le)
      have hc2 : ContinuousAt (fun s : ℝ => aK g rho K0 0 * s ^ (g 0 - 1) / (g 0 - 1) +
        (u r - aK g rho K0 0 * r ^ (g 0 - 1) / (g 0 - 1))) 0 := ((hc.const_mul _).div_const _).add_const _
      exact hc2.tendsto.mono_left nhdsWithin_le_nhds
    have := tendsto_nhds_unique (M.zero.congr' hconst) hlim
    rw [Real.zero_rpow h1.ne', mul_zero, zero_div, zero_add] at this
    unfold uF
    show _ = 0 + _
    linarith
  | succ i ih =>
    obtain ⟨m1, m2⟩ := left_mem U i hi
    have e1 := ih (by omega) _ m1
    rw [← uF_cont i] at e1
    rcases eq_or_lt_of_le (hr.2.1 (by omega)) with h | h
    · rw [← h]; exact e1
    · have := energy_const U M (i + 1) hi _ _ m2 hr h
      unfold uF at e1 ⊢
      linarith

theorem enthalpy_eq (U : Usable N g K0 rho) (M : Matter N g K0 rho p u) (i : ℕ) (hi : i < N) (r : ℝ) (hr : r ∈ Piece N rho i) :
    enthalpy p u r = hF g rho K0 i r := by
  unfold enthalpy
  rw [energy_eq U M i hi r hr, pressure_eq U M i hi r hr, hF_eq U i hi, Real.rpow_sub_one hr.1.ne']
  ring

/-- every density belongs to a piece -/
theorem exists_piece (U : Usable N g K0 rho) (r : ℝ) (hr : 0 < r) : ∃ i < N, r ∈ Piece N rho i := by
  have : ∀ k, k < N → (1 ≤ k → rho k ≤ r) → ∃ i < N, r ∈ Piece N rho i := by
    intro k
    induction hk : N - k generalizing k with
    | zero => intro h; omega
    | succ m ih =>
      intro h hle
      by_cases h2 : k + 1 < N
      · rcases le_total r (rho (k + 1)) with hh | hh
        · exact ⟨k, h, hr, hle, fun _ => hh⟩
        · exact ih (k + 1) (by omega) h2 (fun _ => hh)
      · exact ⟨k, h, hr, hle, fun h3 => absurd h3 h2⟩
  exact this 0 U.pos (by omega)

end Elliptica.EoS
