import Verif.Props.KsSplit
/-!
C90: the hole at rest, and the parameters.
-/
namespace Elliptica.Ks
open Elliptica.Fields Elliptica.KsSpec

theorem rest_B (P : Par) (h : P.AtRest) : P.Bx = 0 ∧ P.By = 0 ∧ P.Bz = 0 :=
  ⟨congrFun h.zero 0, congrFun h.zero 1, congrFun h.zero 2⟩

theorem rest_XYZ (P : Par) (q : Pt) (h : P.AtRest) : XYZ P q = space (frame P.B P.phiy P.phiz 0 q) := by
  obtain ⟨hx, hy, hz⟩ := rest_B P h
  have h3 := root_pos P h.lt
  have h4 := h.pos
  rw [h.zero]
  funext i
  fin_cases i
  · show X P q = _
    unfold X
    simp only [hx, hy, hz]
    simp [space, frame, rotate, boost, dot]
    field_simp
    ring
  · show Y P q = _
    unfold Y
    simp only [hx, hy, hz]
    simp [space, frame, rotate, boost, dot]
    field_simp
    try ring
  · show Z P q = _
    unfold Z
    simp only [hx, hy, hz]
    simp [space, frame, rotate, boost, dot]
    field_simp
    try ring

/-- the covector k of a hole at rest -/
theorem rest_k (P : Par) (q : Pt) (h : P.AtRest) :
    kt P q * √(1 - P.B2) = 1 ∧ ∀ i, ksp P q i = ∑ r, jac P.B P.phiy P.phiz r i.succ * null P.a (XYZ P q) (R P q) r := by
  obtain ⟨hx, hy, hz⟩ := rest_B P h
  have h3 := root_pos P h.lt
  have h4 := h.pos
  have hK0 : null P.a (XYZ P q) (R P q) 1 = K0 P q := by unfold K0; simp [null, XYZ]; ring
  have hK1 : null P.a (XYZ P q) (R P q) 2 = K1 P q := by unfold K1; simp [null, XYZ]; ring
  have hK2 : null P.a (XYZ P q) (R P q) 3 = K2 P q := by unfold K2; simp [null, XYZ]
  constructor
  · unfold kt; simp only [hx, hy, hz]; field_simp; ring
  · intro i
    rw [Fin.sum_univ_four, hK0, hK1, hK2, h.zero]
    fin_cases i
    · show k0 P q = _
      unfold k0
      simp only [hx, hy, hz]
      simp [jac, frame, rotate, boost, dot, Fin.ext_iff]
      field_simp
      try ring
    · show k1 P q = _
      unfold k1
      simp only [hx, hy, hz]
      simp [jac, frame, rotate, boost, dot, Fin.ext_iff]
      field_simp
      try ring
    · show k2 P q = _
      unfold k2
      simp only [hx, hy, hz]
      simp [jac, frame, rotate, boost, dot, Fin.ext_iff]
      field_simp
      try ring

/-- the rotated Kerr metric at rest -/
theorem rest_kerr (P : Par) (q : Pt) (h : P.AtRest) :
    let g := transform P.B P.phiy P.phiz (kerr (P.Lam * P.M) P.a (XYZ P q) (R P q))
    g 0 0 = -1 + c P q ∧ (∀ i : Fin 3, g 0 i.succ = c P q * ksp P q i) ∧
    ∀ i j : Fin 3, g i.succ j.succ = (if i = j then 1 else 0) + c P q * ksp P q i * ksp P q j := by
  intro g
  have hc : c P q = 2 * (P.Lam * P.M * R P q ^ 3 / (R P q ^ 4 + P.a ^ 2 * XYZ P q 2 ^ 2)) := by
    unfold c H
    rw [show XYZ P q 2 = Z P q from rfl, add_comm (P.a ^ 2 * Z P q ^ 2)]
  have hk := (rest_k P q h).2
  have h0 : ∀ r : Fin 4, jac P.B P.phiy P.phiz r 0 = if r = 0 then 1 else 0 := by
    intro r
    rw [h.zero]
    fin_cases r <;> simp [jac, frame, rotate, boost, dot, lorentz, Fin.ext_iff]
  have ht : ∀ i : Fin 3, jac P.B P.phiy P.phiz 0 i.succ = 0 := by
    intro i
    rw [h.zero]
    fin_cases i <;> simp [jac, frame, rotate, boost, dot, lorentz, Fin.ext_iff]
  have hn : null P.a (XYZ P q) (R P q) 0 = 1 := by simp [null]
  have key : ∀ m n, g m n = transform P.B P.phiy P.phiz eta m n +
      c P q * (∑ r, jac P.B P.phiy P.phiz r m * null P.a (XYZ P q) (R P q) r) * (∑ r, jac P.B P.phiy P.phiz r n * null P.a (XYZ P q) (R P q) r) := by
    intro m n
    rw [hc]
    simp only [g]
    unfold transform kerr
    simp only [mul_add, Finset.sum_add_distrib]
    congr 1
    simp only [Fin.sum_univ_four]
    ring
  have hs : ∀ i j : Fin 3, transform P.B P.phiy P.phiz eta i.succ j.succ = if i = j then 1 else 0 := by
    intro i j
    have e : transform P.B P.phiy P.phiz eta i.succ j.succ = mink (fun r => jac P.B P.phiy P.phiz r i.succ) (fun r => jac P.B P.phiy P.phiz r j.succ) := by
      simp [transform, Fin.sum_univ_four, eta, mink]
    rw [e]
    show mink (frame _ _ _ _ _) (frame _ _ _ _ _) = _
    unfold frame
    rw [mink_rotate, h.zero]
    fin_cases i <;> fin_cases j <;> simp [mink, boost, dot, Fin.ext_iff]
  refine ⟨?_, fun i => ?_, fun i j => ?_⟩
  · rw [key]
    simp [h0, hn, transform, Fin.sum_univ_four, eta]
  · rw [key, ← hk i]
    have : transform P.B P.phiy P.phiz eta 0 i.succ = 0 := by
      simp [transform, Fin.sum_univ_four, eta, h0, ht]
    rw [this]
    simp [h0, hn]
  · rw [key, ← hk i, ← hk j, hs]

/-- C90 for a hole at rest the metric is that of the rotated Kerr metric; lapse and shift, in which the code divides by √(1-B2) with the small
number B2 > 0, are those of the rotated Kerr metric up to the factor √(1-B2) -/
theorem C90_at_rest (P : Par) (q : Pt) (h : P.AtRest) (hl : 0 < P.lit) (hl2 : P.lit ^ 2 = 1 / 2) (hm : 0 ≤ P.Lam * P.M)
    (hd : ¬ (frame P.B P.phiy P.phiz 0 q 3 = 0 ∧ frame P.B P.phiy P.phiz 0 q 1 ^ 2 + frame P.B P.phiy P.phiz 0 q 2 ^ 2 ≤ P.a ^ 2))
    (ig : Fin 3 → Fin 3 → ℝ) (hs : Adm.Symm ig) (hi : Adm.Inverse (fun i j => gam P i j q) ig) :
    Radius P.a (space (frame P.B P.phiy P.phiz 0 q)) (R P q) ∧
    ∃ al, Split (transform P.B P.phiy P.phiz (kerr (P.Lam * P.M) P.a (space (frame P.B P.phiy P.phiz 0 q)) (R P q)))
      (fun i j => gam P i j q) al (fun i => √(1 - P.B2) * betaD P q i) (fun i => √(1 - P.B2) * betaU P q ig i) ∧
      √(1 - P.B2) * al ≤ alpha P q ∧ alpha P q ≤ al := by
  have hx := rest_XYZ P q h
  have e0 : X P q = frame P.B P.phiy P.phiz 0 q 1 := congrFun hx 0
  have e1 : Y P q = frame P.B P.phiy P.phiz 0 q 2 := congrFun hx 1
  have e2 : Z P q = frame P.B P.phiy P.phiz 0 q 3 := congrFun hx 2
  have hR : 0 < R P q := (C90_R_pos P q hl).mpr (by rw [e0, e1, e2]; exact hd)
  have hr : Radius P.a (space (frame P.B P.phiy P.phiz 0 q)) (R P q) := by
    refine ⟨hR, ?_⟩
    have hq := R_quartic P q hl2 hR
    rw [← hx]
    show (X P q ^ 2 + Y P q ^ 2) / (R P q ^ 2 + P.a ^ 2) + Z P q ^ 2 / R P q ^ 2 = 1
    field_simp
    linarith
  refine ⟨hr, 1 / √(1 + c P q), ?_⟩
  have hc : 0 ≤ c P q := by unfold c H; positivity
  obtain ⟨hkt, hk⟩ := rest_k P q h
  obtain ⟨g0, gi, gij⟩ := rest_kerr P q h
  have hs2 := root_sq P h.lt
  have hs3 := root_pos P h.lt
  rw [← hx]
  have hnull : ksp P q 0 ^ 2 + ksp P q 1 ^ 2 + ksp P q 2 ^ 2 = 1 ^ 2 := by
    obtain ⟨bx, bym, bz⟩ := rest_B P h
    have hp := h.pos
    have f0 : ksp P q 0 = Real.cos P.phiz * (Real.cos P.phiy * K0 P q + Real.sin P.phiy * K2 P q) - Real.sin P.phiz * K1 P q := by
      show k0 P q = _
      unfold k0; simp only [bx, bym, bz]; field_simp; ring
    have f1 : ksp P q 1 = Real.sin P.phiz * (Real.cos P.phiy * K0 P q + Real.sin P.phiy * K2 P q) + Real.cos P.phiz * K1 P q := by
      show k1 P q = _
      unfold k1; simp only [bx, bym, bz]; field_simp; ring
    have f2 : ksp P q 2 = Real.cos P.phiy * K2 P q - Real.sin P.phiy * K0 P q := by
      show k2 P q = _
      unfold k2; simp only [bx, bym, bz]; field_simp; ring
    have u := K_unit P q hl2 hR
    rw [f0, f1, f2]
    linear_combination u + (K0 P q ^ 2 + K2 P q ^ 2) * Real.sin_sq_add_cos_sq P.phiy +
      ((Real.cos P.phiy * K0 P q + Real.sin P.phiy * K2 P q) ^ 2 + K1 P q ^ 2) * Real.sin_sq_add_cos_sq P.phiz
  refine ⟨?_, ?_⟩
  · have := split_of_null (transform P.B P.phiy P.phiz (kerr (P.Lam * P.M) P.a (XYZ P q) (R P q))) (fun i j => gam P i j q) (c P q) 1 (ksp P q)
      (fun i => √(1 - P.B2) * betaD P q i) (fun i => √(1 - P.B2) * betaU P q ig i) hc hnull (fun i j => gam_eq P q i j) ?_ ?_ ?_ ?_ gij
    · simpa using this
    · intro i; rw [betaD_eq]; linear_combination c P q * ksp P q i * hkt
    · intro i
      have := lower_of_inverse _ ig hi _ _ (betaU_eq P q ig hs) i
      rw [this, Finset.mul_sum]
      exact Finset.sum_congr rfl fun _ _ => by ring
    · rw [g0]; ring
    · intro i; rw [gi]; ring
  · have e : c P q * kt P q * kt P q = c P q / (1 - P.B2) := by
      rw [eq_div_iff (by linarith [h.lt]), ← hs2]
      linear_combination c P q * (kt P q * √(1 - P.B2) + 1) * hkt
    have h1 : 0 < 1 - P.B2 := by linarith [h.lt]
    unfold alpha
    rw [e]
    constructor
    · rw [mul_one_div, div_le_div_iff₀ (by positivity) (by positivity), ← Real.sqrt_mul h1.le, one_mul]
      refine Real.sqrt_le_sqrt ?_
      field_simp
      nlinarith [h.pos]
    · refine one_div_le_one_div_of_le (by positivity) (Real.sqrt_le_sqrt ?_)
      have : c P q ≤ c P q / (1 - P.B2) := by rw [le_div_iff₀ h1]; nlinarith [h.pos]
      linarith

/-- C90 the rotation angles: the spin is turned to the Z-axis, when no component of it is a non-zero number below the round-off -/
theorem C90_axis (e eps lit : ℝ) (he : 0 < e) (hb : Hole) (P : Par) (hp : setParams e eps lit hb = .ok P) (hbig : e ≤ hb.chiAbs)
    (h0 : hb.chi 0 = 0 ∨ e ≤ |hb.chi 0|) (h1 : hb.chi 1 = 0 ∨ e ≤ |hb.chi 1|) :
    rotate P.phiy P.phiz ![0, hb.chi 0, hb.chi 1, hb.chi 2] = ![0, 0, 0, hb.chiAbs] := by
  have hpos : 0 < hb.chiAbs := by linarith
  have hn : Tol.eql e hb.chiAbs 0 = false := by
    rw [Bool.eq_false_iff, Ne, (Tol.C13_meaning e _ 0 he).1, sub_zero, abs_of_pos hpos]
    linarith
  unfold setParams at hp
  split at hp
  case isFalse => simp at hp
  simp only [Res.ok.injEq, hn] at hp
  have hy : P.phiy = Real.arccos (hb.chi 2 / hb.chiAbs) := by rw [← hp]; rfl
  have hz : P.phiz = Angles.arctan e (hb.chi 1) (hb.chi 0) := by rw [← hp]; rfl
  obtain ⟨hc, hs⟩ := (Angles.C22_arctan e (hb.chi 1) (hb.chi 0) he).2.2 h0 h1
  rw [← hz] at hc hs
  have hr2 : √(hb.chi 0 * hb.chi 0 + hb.chi 1 * hb.chi 1) ^ 2 = hb.chi 0 * hb.chi 0 + hb.chi 1 * hb.chi 1 := Real.sq_sqrt (by nlinarith)
  have hr0 : 0 ≤ √(hb.chi 0 * hb.chi 0 + hb.chi 1 * hb.chi 1) := Real.sqrt_nonneg _
  have hC2 : hb.chiAbs ^ 2 = hb.chi 0 ^ 2 + hb.chi 1 ^ 2 + hb.chi 2 ^ 2 := Real.sq_sqrt (by positivity)
  generalize √(hb.chi 0 * hb.chi 0 + hb.chi 1 * hb.chi 1) = r at *
  generalize hb.chiAbs = C at *
  have ht : (hb.chi 2 / C) ^ 2 ≤ 1 := by rw [div_pow, div_le_one (by positivity)]; nlinarith [sq_nonneg (hb.chi 0), sq_nonneg (hb.chi 1)]
  have hcy : Real.cos P.phiy = hb.chi 2 / C := by rw [hy, Real.cos_arccos (by nlinarith) (by nlinarith)]
  have hsy : Real.sin P.phiy = r / C := by
    rw [hy, Real.sin_arccos, show 1 - (hb.chi 2 / C) ^ 2 = (r / C) ^ 2 by field_simp; nlinarith]
    exact Real.sqrt_sq (by positivity)
  have hcs := Real.sin_sq_add_cos_sq P.phiz
  have hu : Real.cos P.phiz * hb.chi 0 + Real.sin P.phiz * hb.chi 1 = r := by rw [← hc, ← hs]; linear_combination r * hcs
  funext m
  fin_cases m
  · simp [rotate]
  · simp only [rotate, Matrix.cons_val_zero, Matrix.cons_val_one, Matrix.cons_val, Fin.mk_one]
    rw [hu, hcy, hsy]; ring
  · simp only [rotate, Matrix.cons_val_zero, Matrix.cons_val_one, Matrix.cons_val, Fin.reduceFinMk]
    rw [← hc, ← hs]; ring
  · simp only [rotate, Matrix.cons_val_zero, Matrix.cons_val_one, Matrix.cons_val, Fin.reduceFinMk]
    rw [hu, hcy, hsy]
    field_simp
    nlinarith

/-- C90 the parameters: a hole is refused when its dimensionless spin exceeds 1 by the tolerance (or is 1 minus the tolerance
exactly); otherwise mass and spin are those of the hole and
the velocity is that of the hole when its square is not below the round-off, and zero else -/
theorem C90_params (e eps lit : ℝ) (he : 0 < e) (hb : Hole) :
    (setParams e eps lit hb = .abort ↔ 1 + e ≤ hb.chiAbs ∨ hb.chiAbs = 1 - e) ∧
    ∀ P, setParams e eps lit hb = .ok P → P.M = hb.mass ∧ P.a = hb.spin ∧ P.Lam = 1 ∧ P.lit = lit ∧
      (e ≤ dot hb.boost hb.boost → dot hb.boost hb.boost < 1 → P.Moving ∧ P.B = hb.boost) ∧
      (dot hb.boost hb.boost < e → 0 < eps → eps < 1 → P.AtRest ∧ P.B2 = eps) := by
  have hle : Tol.lssEql e hb.chiAbs 1 = true ↔ ¬ (1 + e ≤ hb.chiAbs ∨ hb.chiAbs = 1 - e) := by
    rw [(Tol.C13_meaning e _ 1 he).2.2.2.1]
    constructor
    · rintro ⟨h1, h2⟩ (h | h)
      · linarith
      · exact h2 (by linarith)
    · intro h; push Not at h
      exact ⟨by linarith [h.1], fun h3 => h.2 (by linarith)⟩
  have hb2 : hb.b2 = dot hb.boost hb.boost := by unfold Hole.b2 dot; ring
  have hd0 : 0 ≤ dot hb.boost hb.boost := by unfold dot; nlinarith [mul_self_nonneg (hb.boost 0), mul_self_nonneg (hb.boost 1), mul_self_nonneg (hb.boost 2)]
  have hslow : Tol.eql e hb.b2 0 = true ↔ dot hb.boost hb.boost < e := by
    rw [(Tol.C13_meaning e _ 0 he).1, sub_zero, hb2, abs_of_nonneg hd0]
  constructor
  · unfold setParams
    split
    case isTrue h => exact ⟨fun h2 => by simp at h2, fun h2 => absurd h2 (hle.mp h)⟩
    case isFalse h => simp only [true_iff]; by_contra hn; exact h (hle.mpr hn)
  · intro P hp
    unfold setParams at hp
    split at hp
    case isFalse => simp at hp
    simp only [Res.ok.injEq] at hp
    subst hp
    refine ⟨rfl, rfl, rfl, rfl, fun h1 h2 => ?_, fun h1 h2 h3 => ?_⟩
    · have hs : Tol.eql e hb.b2 0 = false := by rw [Bool.eq_false_iff, Ne, hslow]; linarith
      have hB : ∀ Q : Par, Q.Bx = hb.boost 0 → Q.By = hb.boost 1 → Q.Bz = hb.boost 2 → Q.B = hb.boost := by
        intro Q a1 a2 a3
        funext i; fin_cases i
        · exact a1
        · exact a2
        · exact a3
      simp only [hs, Bool.false_eq_true, if_false]
      have hB' := hB ⟨hb.mass, hb.spin, if Tol.eql e hb.chiAbs 0 = true then 0 else Real.arccos (hb.chi 2 / hb.chiAbs),
        if Tol.eql e hb.chiAbs 0 = true then 0 else Angles.arctan e (hb.chi 1) (hb.chi 0), hb.boost 0, hb.boost 1, hb.boost 2, hb.b2, 1, lit⟩ rfl rfl rfl
      refine ⟨⟨?_, ?_, ?_⟩, hB'⟩
      · rw [hB']; exact hb2
      · show 0 < hb.b2; rw [hb2]; linarith
      · show hb.b2 < 1; rw [hb2]; exact h2
    · have hs : Tol.eql e hb.b2 0 = true := hslow.mpr h1
      refine ⟨⟨?_, ?_, ?_⟩, ?_⟩
      · funext i; fin_cases i <;> simp [Par.B, hs]
      · simp only [hs]; exact h2
      · simp only [hs]; exact h3
      · simp [hs]

end Elliptica.Ks
