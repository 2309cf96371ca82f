import Verif.Lemmas.KsRest
import Verif.Lemmas.Gen.KsMix
/-!
C91: the derivatives of the Kerr-Schild metric that the free data list.
-/
namespace Elliptica.Ks
open Elliptica.Fields Elliptica.KsSpec

/-- C91 off the disc, the listed first, second and third derivatives of the metric are the derivatives: `dgam i j k` is ∂_k of γ_ij, `ddgam i j k l`
is ∂_l of `dgam i j k`, `dddgam i j k l m` is ∂_m of `ddgam i j k l` when two of k, l, m agree.
Missing from the full property: the third derivatives along three different directions - they are wrong, see `C91_third_violation`. -/
theorem C91_metric_partial (P : Par) (q : Pt) (hl : 0 < P.lit) (hd : ¬ (Z P q = 0 ∧ X P q ^ 2 + Y P q ^ 2 ≤ P.a ^ 2)) :
    (∀ i j k, HasDerivAt (line (gam P i j) k q) (dgam P i j k q) (q k)) ∧
    (∀ i j k l, HasDerivAt (line (dgam P i j k) l q) (ddgam P i j k l q) (q l)) ∧
    (∀ i j k l m, k = l ∨ k = m ∨ l = m → HasDerivAt (line (ddgam P i j k l) m q) (dddgam P i j k l m q) (q m)) := by
  have hR := (C90_R_pos P q hl).mpr hd
  exact ⟨gam_at P q hR, dgam_at P q hR, ddgam_at P q hR⟩

/-- C91 the same for the functions the metric is made of: the coordinates, the radius, the null covector in the rest frame and in the frame of the
grid; all derivatives to the third order -/
theorem C91_functions (P : Par) (q : Pt) (hl : 0 < P.lit) (hd : ¬ (Z P q = 0 ∧ X P q ^ 2 + Y P q ^ 2 ≤ P.a ^ 2)) :
    ∀ F ∈ [(X P, dX P, ddX P, dddX P), (Y P, dY P, ddY P, dddY P), (Z P, dZ P, ddZ P, dddZ P), (R P, dR P, ddR P, dddR P),
      (K0 P, dK0 P, ddK0 P, dddK0 P), (K1 P, dK1 P, ddK1 P, dddK1 P), (K2 P, dK2 P, ddK2 P, dddK2 P),
      (k0 P, dk0 P, ddk0 P, dddk0 P), (k1 P, dk1 P, ddk1 P, dddk1 P), (k2 P, dk2 P, ddk2 P, dddk2 P), (kt P, dkt P, ddkt P, dddkt P)],
    (∀ i, HasDerivAt (line F.1 i q) (F.2.1 i q) (q i)) ∧
    (∀ i j, HasDerivAt (line (F.2.1 i) j q) (F.2.2.1 i j q) (q j)) ∧
    (∀ i j k, HasDerivAt (line (F.2.2.1 i j) k q) (F.2.2.2 i j k q) (q k)) := by
  have hR := (C90_R_pos P q hl).mpr hd
  intro F hF
  simp only [List.mem_cons, List.not_mem_nil, or_false] at hF
  rcases hF with rfl | rfl | rfl | rfl | rfl | rfl | rfl | rfl | rfl | rfl | rfl
  · exact ⟨X_at P q hR, dX_at P q hR, ddX_at P q hR⟩
  · exact ⟨Y_at P q hR, dY_at P q hR, ddY_at P q hR⟩
  · exact ⟨Z_at P q hR, dZ_at P q hR, ddZ_at P q hR⟩
  · exact ⟨R_at P q hR, dR_at P q hR, ddR_at P q hR⟩
  · exact ⟨K0_at P q hR, dK0_at P q hR, ddK0_at P q hR⟩
  · exact ⟨K1_at P q hR, dK1_at P q hR, ddK1_at P q hR⟩
  · exact ⟨K2_at P q hR, dK2_at P q hR, ddK2_at P q hR⟩
  · exact ⟨k0_at P q hR, dk0_at P q hR, ddk0_at P q hR⟩
  · exact ⟨k1_at P q hR, dk1_at P q hR, ddk1_at P q hR⟩
  · exact ⟨k2_at P q hR, dk2_at P q hR, ddk2_at P q hR⟩
  · exact ⟨kt_at P q hR, dkt_at P q hR, ddkt_at P q hR⟩

/-- C91 the factor c = 2H: as for the metric -/
theorem C91_factor_partial (P : Par) (q : Pt) (hl : 0 < P.lit) (hd : ¬ (Z P q = 0 ∧ X P q ^ 2 + Y P q ^ 2 ≤ P.a ^ 2)) :
    ∀ F ∈ [(H P, dH P, ddH P, dddH P), (c P, dc P, ddc P, dddc P)],
    (∀ i, HasDerivAt (line F.1 i q) (F.2.1 i q) (q i)) ∧
    (∀ i j, HasDerivAt (line (F.2.1 i) j q) (F.2.2.1 i j q) (q j)) ∧
    (∀ i j k, i = j ∨ i = k ∨ j = k → HasDerivAt (line (F.2.2.1 i j) k q) (F.2.2.2 i j k q) (q k)) := by
  have hR := (C90_R_pos P q hl).mpr hd
  intro F hF
  simp only [List.mem_cons, List.not_mem_nil, or_false] at hF
  rcases hF with rfl | rfl
  · exact ⟨H_at P q hR, dH_at P q hR, ddH_at P q hR⟩
  · exact ⟨c_at P q hR, dc_at P q hR, ddc_at P q hR⟩

theorem Hlost_ne (P : Par) (q : Pt) (h : P.AtRest) (hy : P.phiy = 0) (hl : 0 < P.lit) (hl2 : P.lit ^ 2 = 1 / 2) (hm : P.Lam * P.M ≠ 0) (ha : P.a ≠ 0)
    (h0 : q 0 ≠ 0) (h1 : q 1 ≠ 0) (h2 : q 2 ≠ 0) : Z P q = q 2 ∧ 0 < R P q ∧ Hlost P q ≠ 0 := by
  obtain ⟨_, _, ⟨c0, c1, c2⟩⟩ := rest_dX P q h
  rw [hy, Real.sin_zero, zero_mul] at c0 c1
  rw [hy, Real.cos_zero] at c2
  have hZ : Z P q = q 2 := by rw [Z_lin, c0, c1, c2]; ring
  have hR : 0 < R P q := (C90_R_pos P q hl).mpr (fun hh => h2 (by rw [← hZ]; exact hh.1))
  refine ⟨hZ, hR, ?_⟩
  obtain ⟨u0, u1, u2⟩ := rest_u P q h
  obtain ⟨r0, r1, r2⟩ := dR_eq P q hl2 hR
  rw [u0, c0] at r0
  rw [u1, c1] at r1
  have hRn := hR.ne'
  have hS : 0 < R P q ^ 4 + P.a ^ 2 * Z P q ^ 2 := by positivity
  have e0 : dR_D0 P q ≠ 0 := by
    rw [r0]
    refine div_ne_zero (mul_ne_zero hRn ?_) hS.ne'
    rw [mul_zero, add_zero]
    exact mul_ne_zero (pow_ne_zero 2 hRn) h0
  have e1 : dR_D1 P q ≠ 0 := by
    rw [r1]
    refine div_ne_zero (mul_ne_zero hRn ?_) hS.ne'
    rw [mul_zero, add_zero]
    exact mul_ne_zero (pow_ne_zero 2 hRn) h1
  unfold Hlost
  rw [c0, c1, c2, hZ]
  have hD : P.a ^ 2 * q 2 ^ 2 + R P q ^ 4 ≠ 0 := by positivity
  have := mul_ne_zero e0 e1
  have h3 : P.Lam * P.M * P.a ^ 4 * R P q ^ 5 * q 2 ^ 3 * (dR_D0 P q * dR_D1 P q) ≠ 0 := by positivity
  refine div_ne_zero (fun hh => h3 ?_) (pow_ne_zero 4 hD)
  have : (119 : ℝ) * (P.Lam * P.M * P.a ^ 4 * R P q ^ 5 * q 2 ^ 3 * (dR_D0 P q * dR_D1 P q)) = 0 := by rw [← hh]; ring
  linarith

/-- C91 violation: for every hole with mass and spin, the spin along z, at rest, and every point off the coordinate planes, the listed third derivative of
γ_22 along x, y, z is not the derivative of the listed (right) second derivative - whatever the order of x, y, z -/
theorem C91_third_violation (e eps lit : ℝ) (he : 0 < e) (hep : 0 < eps) (hep1 : eps < 1) (hl : 0 < lit) (hl2 : lit ^ 2 = 1 / 2) (b : Hole) (P : Par)
    (hp : setParams e eps lit b = .ok P) (hb : b.boost = 0) (hc0 : b.chi 0 = 0) (hc1 : b.chi 1 = 0) (hc2 : 0 ≤ b.chi 2)
    (hm : b.mass ≠ 0) (ha : b.spin ≠ 0) (q : Pt) (hq : ∀ i, q i ≠ 0)
    (k l m : Fin 3) (hkl : k ≠ l) (hkm : k ≠ m) (hlm : l ≠ m) :
    HasDerivAt (line (dgam P 2 2 k) l q) (ddgam P 2 2 k l q) (q l) ∧
    ¬ HasDerivAt (line (ddgam P 2 2 k l) m q) (dddgam P 2 2 k l m q) (q m) := by
  obtain ⟨pM, pa, pL, pl, _, hrest⟩ := (C90_params e eps lit he b).2 P hp
  obtain ⟨hr, _⟩ := hrest (by rw [hb]; simp [dot]; exact he) hep hep1
  have hchi : b.chiAbs = b.chi 2 := by
    unfold Hole.chiAbs; rw [hc0, hc1, show (0 : ℝ) ^ 2 + 0 ^ 2 + b.chi 2 ^ 2 = b.chi 2 ^ 2 by ring]; exact Real.sqrt_sq hc2
  have hy : P.phiy = 0 := by
    have h := hp
    unfold setParams at h
    split at h
    case isFalse => simp at h
    simp only [Res.ok.injEq] at h
    rw [← h]
    show (if Tol.eql e b.chiAbs 0 = true then (0 : ℝ) else Real.arccos (b.chi 2 / b.chiAbs)) = 0
    split
    · rfl
    · rename_i hn
      have : b.chi 2 ≠ 0 := by
        intro h0; apply hn
        rw [(Tol.C13_meaning e _ 0 he).1, hchi, h0]; simpa using he
      rw [hchi, div_self this, Real.arccos_one]
  rw [← pl] at hl hl2
  obtain ⟨hZ, hR, hH⟩ := Hlost_ne P q hr hy hl hl2 (by rw [pL, pM, one_mul]; exact hm) (by rw [pa]; exact ha) (hq 0) (hq 1) (hq 2)
  refine ⟨dgam_at P q hR 2 2 k l, fun hbad => ?_⟩
  have hgood := ddgam_mixed P q hR 2 2 k l m hkl hkm hlm
  have heq := hbad.unique hgood
  have hk2 : kv P q 2 ≠ 0 := by
    show k2 P q ≠ 0
    obtain ⟨hx, hy', hz⟩ := rest_B P hr
    have h3 := root_pos P hr.lt
    have h4 := hr.pos
    have : k2 P q = K2 P q := by
      unfold k2; simp only [hx, hy', hz, hy, Real.sin_zero, Real.cos_zero]; field_simp; ring
    rw [this]
    unfold K2
    rw [hZ]
    exact div_ne_zero (hq 2) hR.ne'
  have : 2 * Hlost P q * kv P q 2 * kv P q 2 ≠ 0 := by positivity
  exact this (by linarith)

end Elliptica.Ks
