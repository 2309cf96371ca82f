import Verif.Props.BhfFind
/-!
Property C88, the filled field.
-/
namespace Elliptica.Bhf
open Coord Angles Real BhfSpec Polynomial

/-- what the interpolation on the inner face of an outside patch returns: the field and its first and second derivatives
at the point of (X,Y) -/
structure Reads (big : ℝ) (f : (Fin 3 → ℝ) → ℝ) (F : Fin 3 → (Fin 3 → ℝ) → ℝ) (H : Fin 3 → Fin 3 → (Fin 3 → ℝ) → ℝ)
    (o : Outer) : Prop where
  val : ∀ X : Fin 3 → ℝ, X 2 = 0 → o.f (X 0) (X 1) = f (xOfX (lib big) o.geo X)
  der : ∀ X : Fin 3 → ℝ, X 2 = 0 → ∀ i, o.df i (X 0) (X 1) = F i (xOfX (lib big) o.geo X)
  der2 : ∀ X : Fin 3 → ℝ, X 2 = 0 → ∀ i j : Fin 3, i ≤ j → o.ddf (symm3 i j) (X 0) (X 1) = H i j (xOfX (lib big) o.geo X)

/-- The direction (theta, phi) can be found among the outside patches: phi is zero or off the coordinate planes, and it meets the inner
face of one of them. -/
structure Visible (e big : ℝ) (center : Fin 3 → ℝ) (R : (Fin 3 → ℝ) → ℝ) (outs : List Outer) (theta phi : ℝ) : Prop where
  around : ∀ o ∈ outs, Around big center R o.geo
  size : ∀ n, 100 * e ≤ R n
  th0 : 0 < theta
  th1 : theta < π
  ph0 : 0 ≤ phi
  ph1 : phi < 2 * π
  off : Direct e phi
  meets : ∃ o ∈ outs, ∃ X Y, Meets e big R o.geo theta phi X Y

theorem symm3_comm (i j : ℕ) : symm3 i j = symm3 j i := by
  unfold symm3
  rcases lt_trichotomy i j with h | h | h
  · rw [if_pos (by omega), if_neg (by omega)]
  · subst h; rfl
  · rw [if_neg (by omega), if_pos (by omega)]

theorem find_two {e big : ℝ} {center : Fin 3 → ℝ} {theta phi : ℝ} {outs : List Outer} {o X}
    (h : find e big center theta phi outs = .ok (o, X)) : X 2 = 0 := by
  induction outs with
  | nil => cases h
  | cons p l ih =>
    unfold find at h
    cases hc : candidate e big center theta phi p.geo with
    | abort => rw [hc] at h; cases h
    | ub => rw [hc] at h; cases h
    | ok r =>
      rw [hc, Res.bind_ok] at h
      cases r with
      | none => exact ih h
      | some Z =>
        cases h
        unfold candidate at hc
        cases hab : XYofAngles e o.geo.side theta phi with
        | abort => rw [hab] at hc; cases hc
        | ub => rw [hab] at hc; cases hc
        | ok ab =>
          rw [hab, Res.bind_ok] at hc
          dsimp only at hc
          split at hc
          · split at hc
            · cases hc
            · split at hc
              · cases hc; simp
              · cases hc
          · cases hc

/-- the six coefficients on a visible direction -/
theorem radial_ok {e big : ℝ} {center : Fin 3 → ℝ} {R : (Fin 3 → ℝ) → ℝ} {outs : List Outer} {theta phi : ℝ} (he : 0 < e)
    (he1 : e ≤ 1 / 100) (hv : Visible e big center R outs theta phi) {f F H} (hf : Smooth f F H) (hr : ∀ o ∈ outs, Reads big f F H o)
    (fr0 : ℝ) :
    radial e big center outs fr0 theta phi = .ok
      (coeffs fr0 (f (ray center (unit theta phi) (R (unit theta phi)))) (slope F center (unit theta phi) (R (unit theta phi)))
        (curv H center (unit theta phi) (R (unit theta phi))) (R (unit theta phi)), R (unit theta phi)) := by
  obtain ⟨o, ho, X, hX, hp⟩ := C88_find e theta phi he he1 outs hv.around hv.size hv.th0 hv.th1 hv.ph0 hv.ph1 hv.off hv.meets
  have h2 := find_two hX
  have hR0 : 0 < R (unit theta phi) := by have := hv.size (unit theta phi); linarith
  have hx : xOfX (lib big) o.geo X = ray center (unit theta phi) (R (unit theta phi)) := by
    funext i; have := hp i; unfold ray; linarith
  have hlen : len (fun i => xOfX (lib big) o.geo X i - center i) = R (unit theta phi) := by
    rw [show (fun i => xOfX (lib big) o.geo X i - center i) = fun i => R (unit theta phi) * unit theta phi i from funext hp]
    exact len_smul _ hR0.le _ (unit_unit theta phi)
  have rd := hr o ho
  unfold radial
  rw [hX, Res.bind_ok]
  dsimp only
  rw [hlen, normal_eq, secondDer_eq _ _ _ _ hR0.ne' (unit_unit theta phi), rd.val X h2, hx]
  have hs : firstDer (unit theta phi) (fun d => o.df d (X 0) (X 1)) = slope F center (unit theta phi) (R (unit theta phi)) := by
    simp only [firstDer, slope, Fin.sum_univ_three, rd.der X h2, hx]
  have hc : (∑ i : Fin 3, unit theta phi i * ∑ j : Fin 3, unit theta phi j * o.ddf (symm3 i j) (X 0) (X 1)) =
      curv H center (unit theta phi) (R (unit theta phi)) := by
    unfold curv
    refine Finset.sum_congr rfl fun i _ => ?_
    congr 1
    refine Finset.sum_congr rfl fun j _ => ?_
    congr 1
    rcases le_total i j with hij | hij
    · rw [rd.der2 X h2 i j hij, hx]
    · rw [symm3_comm, rd.der2 X h2 j i hij, hx, hf.symm]
  rw [hs, hc]

/-- the angles computed for a point of the ray (not below the round-off in the plane of phi) are those of the ray -/
theorem angles_of_ray {e theta phi r : ℝ} (he : 0 < e) (ht0 : 0 < theta) (ht1 : theta < π) (h0 : 0 ≤ phi) (h1 : phi < 2 * π)
    (hr : 0 < r) (p0 : r * unit theta phi 0 = 0 ∨ e ≤ |r * unit theta phi 0|)
    (p1 : r * unit theta phi 1 = 0 ∨ e ≤ |r * unit theta phi 1|) :
    arccos (r * unit theta phi 2 / r) = theta ∧ Angles.arctan e (r * unit theta phi 1) (r * unit theta phi 0) = phi := by
  constructor
  · rw [mul_div_cancel_left₀ _ hr.ne']
    exact Real.arccos_cos ht0.le ht1.le
  · obtain ⟨ha, -, hx⟩ := C22_arctan e (r * unit theta phi 1) (r * unit theta phi 0) he
    obtain ⟨k1, k2⟩ := hx p0 p1
    have hst : 0 < sin theta := Real.sin_pos_of_pos_of_lt_pi ht0 ht1
    have u0 : unit theta phi 0 = sin theta * cos phi := rfl
    have u1 : unit theta phi 1 = sin theta * sin phi := rfl
    have hrho : √(r * unit theta phi 0 * (r * unit theta phi 0) + r * unit theta phi 1 * (r * unit theta phi 1)) = r * sin theta := by
      have sc := Real.sin_sq_add_cos_sq phi
      rw [show r * unit theta phi 0 * (r * unit theta phi 0) + r * unit theta phi 1 * (r * unit theta phi 1) = (r * sin theta) ^ 2 by
          rw [u0, u1]
          linear_combination (r * sin theta) ^ 2 * sc]
      exact Real.sqrt_sq (mul_pos hr hst).le
    rw [hrho] at k1 k2
    have hne : r * sin theta ≠ 0 := (mul_pos hr hst).ne'
    refine angle_eq ha ⟨h0, h1⟩ (mul_left_cancel₀ hne (k1.trans ?_)) (mul_left_cancel₀ hne (k2.trans ?_))
    · rw [u0]; ring
    · rw [u1]; ring

/-- **C88 (filling, general surface).** On every visible direction the filled values are those of one polynomial of degree at
most 5 in the distance from the centre, which takes the prescribed value at the centre with no slope, and joins the outside
field at the surface: value, slope and second derivative along the ray are those of the field there. -/
theorem C88_fill {e big : ℝ} {center : Fin 3 → ℝ} {R : (Fin 3 → ℝ) → ℝ} {outs : List Outer} {theta phi : ℝ} (he : 0 < e)
    (he1 : e ≤ 1 / 100) (hv : Visible e big center R outs theta phi) {f F H} (hf : Smooth f F H) (hr : ∀ o ∈ outs, Reads big f F H o)
    (fr0 Rmin : ℝ) :
    let N := unit theta phi
    ∃ p : ℝ[X], Joins p fr0 (R N) (f (ray center N (R N))) (slope F center N (R N)) (curv H center N (R N)) ∧
      ∀ r, 0 < r → r ≤ R N → Rmin ≤ r → (r * N 0 = 0 ∨ e ≤ |r * N 0|) → (r * N 1 = 0 ∨ e ≤ |r * N 1|) → Cheb.Snapped e (2 * r / R N - 1) →
        fillGeneral e big center outs fr0 Rmin (fun i => r * N i) = .ok (p.eval r) := by
  intro N
  have hR0 : 0 < R N := by have := hv.size N; linarith
  refine ⟨_, C88_radial _ _ _ _ _ hR0.ne', fun r h0 h1 h2 p0 p1 hs => ?_⟩
  obtain ⟨a1, a2⟩ := angles_of_ray he hv.th0 hv.th1 hv.ph0 hv.ph1 h0 p0 p1
  have hlen : len (fun i => r * N i) = r := len_smul r h0.le N (unit_unit theta phi)
  unfold fillGeneral
  dsimp only
  rw [hlen, if_neg (not_lt.2 h2), if_neg h0.ne', a1, a2, radial_ok he he1 hv hf hr fr0, Res.map_ok,
    atRadius_eq e he (by linarith) _ _ hs]

/-- **C88 (cut-off).** Below the cut-off radius the filled value is zero. -/
theorem C88_cutoff (e big : ℝ) (center : Fin 3 → ℝ) (outs : List Outer) (fr0 Rmin : ℝ) (x : Fin 3 → ℝ)
    (h : √(x 0 * x 0 + x 1 * x 1 + x 2 * x 2) < Rmin) : fillGeneral e big center outs fr0 Rmin x = .ok 0 := if_pos h

/-- **C88 (the field after filling).** On every visible direction there is a twice continuously differentiable function of
the distance from the centre that is the outside field from the surface on and the filled values inside. -/
theorem C88_joined {e big : ℝ} {center : Fin 3 → ℝ} {R : (Fin 3 → ℝ) → ℝ} {outs : List Outer} {theta phi : ℝ} (he : 0 < e)
    (he1 : e ≤ 1 / 100) (hv : Visible e big center R outs theta phi) {f F H} (hf : Smooth f F H) (hr : ∀ o ∈ outs, Reads big f F H o)
    (fr0 Rmin : ℝ) :
    let N := unit theta phi
    ∃ G G1 G2 : ℝ → ℝ, (∀ s, HasDerivAt G (G1 s) s) ∧ (∀ s, HasDerivAt G1 (G2 s) s) ∧ Continuous G2 ∧
      (∀ s, R N ≤ s → G s = f (fun i => center i + s * N i)) ∧ G 0 = fr0 ∧ G1 0 = 0 ∧
      ∀ r, 0 < r → r ≤ R N → Rmin ≤ r → (r * N 0 = 0 ∨ e ≤ |r * N 0|) → (r * N 1 = 0 ∨ e ≤ |r * N 1|) → Cheb.Snapped e (2 * r / R N - 1) →
        fillGeneral e big center outs fr0 Rmin (fun i => r * N i) = .ok (G r) := by
  intro N
  have hR0 : 0 < R N := by have := hv.size N; linarith
  obtain ⟨p, hp, hfill⟩ := C88_fill he he1 hv hf hr fr0 Rmin
  obtain ⟨G1, G2, g1, g2, g3⟩ := C88_smooth hf center N p fr0 (R N) hp
  have e0 : ∀ s, s ≤ R N → glue (fun s => p.eval s) (fun s => f (ray center N s)) (R N) s = p.eval s := by
    intro s hs
    rcases lt_or_eq_of_le hs with h | h
    · exact if_pos h
    · rw [h]; exact (if_neg (lt_irrefl _)).trans hp.surf.symm
  refine ⟨_, G1, G2, g1, g2, g3, fun s hs => if_neg (not_lt.2 hs), (e0 0 hR0.le).trans hp.center, ?_, ?_⟩
  · have h1 := (p.hasDerivAt 0).congr_of_eventuallyEq (f₁ := glue (fun s => p.eval s) (fun s => f (ray center N s)) (R N)) (by
      filter_upwards [Iio_mem_nhds hR0] with t ht
      exact if_pos ht)
    rw [(g1 0).unique h1]; exact hp.center1
  · intro r h0 h1 h2 p0 p1 hs
    rw [hfill r h0 h1 h2 p0 p1 hs, e0 r h1]

end Elliptica.Bhf
