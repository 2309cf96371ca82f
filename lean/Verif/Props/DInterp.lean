import Verif.Model.DInterp
import Verif.Props.JacMat
/-!
C70: the derivatives of an interpolated field with respect to the field values.
-/
namespace Elliptica.DInterp
open Real Finset Polynomial Elliptica.Index Elliptica.Cheb Elliptica.Deriv Elliptica.Jac

variable {e : ℝ} {p : Patch}

/-! ### specification: points and weights -/

/-- A point at which nothing is decided by round-off: inside the patch, and in every direction that is interpolated the
angle of its normalised coordinate is equal to that of a grid point or not within the tolerance of it.  In the direction
that is kept, if any, it is the grid point with index `plane`. -/
structure Point (e : ℝ) (p : Patch) (pl : Option (Fin 3)) (plane : ℕ) (X : Fin 3 → ℝ) : Prop where
  inside : ∀ d, p.mn d ≤ X d ∧ X d ≤ p.mx d
  apart : ∀ d, pl ≠ some d → General.Generic e (p.n d - 1) (q e p X d)
  on : ∀ d, pl = some d → plane < p.n d ∧ X d = ptv p d plane

/-- weight of the grid point with index i in direction d -/
noncomputable def wt (e : ℝ) (p : Patch) (pl : Option (Fin 3)) (plane : ℕ) (X : Fin 3 → ℝ) (d : Fin 3) (i : ℕ) : ℝ :=
  if pl = some d then kd i plane else (General.card (p.n d - 1) i).eval (q e p X d)

section
variable (hp : Good e p) (hx : ∀ d, p.coll d = .extrema)
include hp

theorem hN (d : Fin 3) : ∃ M, p.n d = M + 1 ∧ 0 < M := ⟨p.n d - 1, by have := hp.two d; omega, by have := hp.two d; omega⟩

include hx

/-- the normalised coordinate of a grid point -/
theorem toCheb_pt (d : Fin 3) (r : ℕ) (hr : r < p.n d) :
    toCheb e (p.mn d) (p.mx d) (ptv p d r) = cos (r * π / (p.n d - 1 : ℕ)) := by
  obtain ⟨M, hM, hM0⟩ := hN hp d
  have hb := hp.box d
  have hs := snapped hp hx d r hr
  have ha : -p.mx d + p.mn d ≠ 0 := by intro h; linarith
  have hv : ptv p d r = pointExtrema (p.mn d) (p.mx d) (p.n d) r := by unfold ptv; rw [hx d]
  have hc : (ptv p d r * 2 - (p.mx d + p.mn d)) / (-p.mx d + p.mn d) = cos (r * π / (p.n d - 1 : ℕ)) := by
    rw [hv, hM, affine_point]; simp only [Nat.add_sub_cancel]; field_simp; ring
  unfold toCheb
  dsimp only
  rw [hc]
  rcases hs with h | h | ⟨h1, h2, -, -⟩
  · rw [h, eql_self e 1 hp.pos]; simp
  · rw [h]
    have : Tol.eql e (-1) 1 = false := by
      have := hp.e2
      simp only [Tol.eql, Bool.and_eq_false_iff, decide_eq_false_iff_not, not_lt]
      right; linarith
    rw [this]; simp
  · simp [h1, h2]

omit hx in
theorem ev_card (d : Fin 3) (v : ℕ → ℝ) (x : ℝ) (hs : Snapped e x) :
    ev e (p.n d) v x = ∑ j ∈ range (p.n d), (General.card (p.n d - 1) j).eval x * v j := by
  obtain ⟨M, hM, hM0⟩ := hN hp d
  rw [hM, Nat.add_sub_cancel, ev_eq e hp.pos hp.e2 M v x hs, General.linePoly_card M hM0, eval_finsetSum]
  exact sum_congr rfl fun j _ => by rw [eval_mul, eval_C]; ring

omit hx in
theorem q_snapped (pl : Option (Fin 3)) (plane : ℕ) (X : Fin 3 → ℝ) (hX : Point e p pl plane X) (d : Fin 3) : Snapped e (q e p X d) :=
  toCheb_snapped e _ _ _ (hp.box d) (hX.inside d).1 (hX.inside d).2

theorem inv_eq (f : Coeff.St ℝ) (hf : Coeff.Inv p.n (mW p) f) : Coeff.Inv p.n (extW p.n) f := by
  have : mW p = extW p.n := by funext d i m; unfold mW; rw [hx d]
  rwa [this] at hf

/-- the interpolation is the sum of the values with the weights -/
theorem interp_eq (pl : Option (Fin 3)) (plane : ℕ) (X : Fin 3 → ℝ) (hX : Point e p pl plane X) (f : Coeff.St ℝ)
    (hf : Coeff.Inv p.n (mW p) f) :
    ∃ f', interp e p pl plane f X = .ok (f', ∑ l ∈ range (nn p), wt e p pl plane X 0 (coords p l 0) *
        wt e p pl plane X 1 (coords p l 1) * wt e p pl plane X 2 (coords p l 2) * f.v l) ∧ f'.v = f.v := by
  have hf' := inv_eq hp hx f hf
  have hs : ∀ d, Snapped e (toCheb e (p.mn d) (p.mx d) (X d)) := q_snapped hp pl plane X hX
  have key : ∑ l ∈ range (nn p), wt e p pl plane X 0 (coords p l 0) *
        wt e p pl plane X 1 (coords p l 1) * wt e p pl plane X 2 (coords p l 2) * f.v l =
      ∑ i ∈ range (p.n 0), ∑ j ∈ range (p.n 1), ∑ k ∈ range (p.n 2), wt e p pl plane X 0 i *
        wt e p pl plane X 1 j * wt e p pl plane X 2 k * f.v (Index.ijk (p.n 1) (p.n 2) i j k) := by
    rw [sum_nn]
    refine sum_congr rfl fun i hi => sum_congr rfl fun j hj => sum_congr rfl fun k hk => ?_
    rw [mem_range] at hi hj hk
    rw [coords_idx _ (show Inside p ![i, j, k] from fun d => by match d with | 0 => exact hi | 1 => exact hj | 2 => exact hk)]
    rfl
  rw [key]
  match pl with
  | none =>
    obtain ⟨f', h1, h2, -⟩ := interpXYZ_eq e p.n hp.two p.mn p.mx f hf' (X 0) (X 1) (X 2)
    refine ⟨f', ?_, h2⟩
    show interpXYZ e p.n p.mn p.mx f (X 0) (X 1) (X 2) = _
    rw [h1, ev_card hp 0 _ _ (hs 0)]
    congr 2
    refine sum_congr rfl fun i _ => ?_
    rw [ev_card hp 1 _ _ (hs 1), mul_sum]
    refine sum_congr rfl fun j _ => ?_
    rw [ev_card hp 2 _ _ (hs 2), mul_sum, mul_sum]
    refine sum_congr rfl fun k _ => ?_
    simp only [wt, reduceCtorEq, if_false]
    unfold q
    ring
  | some 0 =>
    obtain ⟨hI, -⟩ := hX.on 0 rfl
    obtain ⟨f', h1, h2, -⟩ := interpYZ_eq e p.n hp.two p.mn p.mx f hf' (X 1) (X 2) plane hI
    refine ⟨f', ?_, h2⟩
    show interpYZ e p.n p.mn p.mx f (X 1) (X 2) plane = _
    rw [h1, sum_eq_single plane, ev_card hp 1 _ _ (hs 1)]
    · congr 2
      refine sum_congr rfl fun j _ => ?_
      rw [ev_card hp 2 _ _ (hs 2), mul_sum]
      refine sum_congr rfl fun k _ => ?_
      simp [wt, kd, q]
      ring
    · intro i _ hne; simp [wt, kd, hne]
    · intro h; exact absurd (mem_range.2 hI) h
  | some 1 =>
    obtain ⟨hI, -⟩ := hX.on 1 rfl
    obtain ⟨f', h1, h2, -⟩ := interpXZ_eq e p.n hp.two p.mn p.mx f hf' (X 0) (X 2) plane hI
    refine ⟨f', ?_, h2⟩
    show interpXZ e p.n p.mn p.mx f (X 0) (X 2) plane = _
    rw [h1, ev_card hp 0 _ _ (hs 0)]
    congr 2
    refine sum_congr rfl fun i _ => ?_
    rw [sum_eq_single plane, ev_card hp 2 _ _ (hs 2), mul_sum]
    · refine sum_congr rfl fun k _ => ?_
      simp [wt, kd, q]
      ring
    · intro j _ hne; simp [wt, kd, hne]
    · intro h; exact absurd (mem_range.2 hI) h
  | some 2 =>
    obtain ⟨hI, -⟩ := hX.on 2 rfl
    obtain ⟨f', h1, h2, -⟩ := interpXY_eq e p.n hp.two p.mn p.mx f hf' (X 0) (X 1) plane hI
    refine ⟨f', ?_, h2⟩
    show interpXY e p.n p.mn p.mx f (X 0) (X 1) plane = _
    rw [h1, ev_card hp 0 _ _ (hs 0)]
    congr 2
    refine sum_congr rfl fun i _ => ?_
    rw [ev_card hp 1 _ _ (hs 1), mul_sum]
    refine sum_congr rfl fun j _ => ?_
    rw [sum_eq_single plane]
    · simp [wt, kd, q]
      ring
    · intro j _ hne; simp [wt, kd, hne]
    · intro h; exact absurd (mem_range.2 hI) h

/-! ### the numbers that enter the formulas -/

omit hx in
theorem getT_eq (d : Fin 3) (j : ℕ) (hj : j < p.n d) (x : ℝ) (hg : General.Generic e (p.n d - 1) x) :
    getT e (p.n d) j x = (General.card (p.n d - 1) j).eval x := by
  obtain ⟨M, hM, hM0⟩ := hN hp d
  have h3 : e ≤ 3 := by linarith [hp.e2]
  unfold getT
  rw [hM, Nat.add_sub_cancel] at hg ⊢
  rw [General.sumT_eq (hj := by omega)]
  all_goals first | exact hp.pos | assumption

theorem getDT_pt (d : Fin 3) (r j : ℕ) (hr : r < p.n d) (hj : j < p.n d) :
    getDT e (p.n d) j (toCheb e (p.mn d) (p.mx d) (ptv p d r)) = D p d r j := by
  rw [toCheb_pt hp hx d r hr, ← cast_n hp d, getDT_eq hp d r j hr hj]

/-- the derivative along one line -/
theorem lineSum_eq (x : Fin 3) (s : Fin 3 → ℕ) (hs : Inside p s) (X : Fin 3 → ℝ) (o : Fin 3)
    (hg : General.Generic e (p.n o - 1) (q e p X o)) :
    lineSum e p x s X o = ∑ r ∈ range (p.n o), (General.card (p.n o - 1) r).eval (q e p X o) *
      dNdq1 p o (.x x) (idx p (Function.update s o r)) * D p o r (s o) := by
  unfold lineSum
  refine sum_congr rfl fun r hr => ?_
  rw [getDT_pt hp hx o r _ (mem_range.1 hr) (hs o), getT_eq hp o r (mem_range.1 hr) _ hg]
  ring

/-- the matrix of a derivative, applied from the left to a product of weights -/
theorem adj (x : Fin 3) (s : Fin 3 → ℕ) (hs : Inside p s) (W : Fin 3 → ℕ → ℝ) :
    ∑ l ∈ range (nn p), W 0 (coords p l 0) * W 1 (coords p l 1) * W 2 (coords p l 2) * d2f e p x l (idx p s) =
      W 1 (s 1) * W 2 (s 2) * ∑ r ∈ range (p.n 0), W 0 r * dNdq1 p 0 (.x x) (idx p (Function.update s 0 r)) * D p 0 r (s 0) +
      W 0 (s 0) * W 2 (s 2) * ∑ r ∈ range (p.n 1), W 1 r * dNdq1 p 1 (.x x) (idx p (Function.update s 1 r)) * D p 1 r (s 1) +
      W 0 (s 0) * W 1 (s 1) * ∑ r ∈ range (p.n 2), W 2 r * dNdq1 p 2 (.x x) (idx p (Function.update s 2 r)) * D p 2 r (s 2) := by
  rw [sum_nn]
  have u0 : ∀ j, Function.update s 0 j = ![j, s 1, s 2] := by
    intro j; funext d; match d with | 0 => simp | 1 => simp | 2 => simp
  have u1 : ∀ j, Function.update s 1 j = ![s 0, j, s 2] := by
    intro j; funext d; match d with | 0 => simp | 1 => simp | 2 => simp
  have u2 : ∀ j, Function.update s 2 j = ![s 0, s 1, j] := by
    intro j; funext d; match d with | 0 => simp | 1 => simp | 2 => simp
  simp only [u0, u1, u2]
  have key : ∀ i ∈ range (p.n 0), ∀ j ∈ range (p.n 1), ∀ k ∈ range (p.n 2),
      W 0 (coords p (idx p ![i, j, k]) 0) * W 1 (coords p (idx p ![i, j, k]) 1) * W 2 (coords p (idx p ![i, j, k]) 2) *
        d2f e p x (idx p ![i, j, k]) (idx p s) =
      (if k = s 2 then if j = s 1 then W 1 j * W 2 k * (W 0 i * dNdq1 p 0 (.x x) (idx p ![i, j, k]) * D p 0 i (s 0)) else 0 else 0) +
      (if i = s 0 then if k = s 2 then W 0 i * W 2 k * (W 1 j * dNdq1 p 1 (.x x) (idx p ![i, j, k]) * D p 1 j (s 1)) else 0 else 0) +
      (if i = s 0 then if j = s 1 then W 0 i * W 1 j * (W 2 k * dNdq1 p 2 (.x x) (idx p ![i, j, k]) * D p 2 k (s 2)) else 0 else 0) := by
    intro i hi j hj k hk
    rw [mem_range] at hi hj hk
    have hin : Inside p ![i, j, k] := fun d => by match d with | 0 => exact hi | 1 => exact hj | 2 => exact hk
    rw [d2f_idx hp hx x ![i, j, k] s hin hs, coords_idx _ hin]
    simp only [kd, Matrix.cons_val]
    by_cases c0 : i = s 0 <;> by_cases c1 : j = s 1 <;> by_cases c2 : k = s 2 <;>
      simp only [c0, c1, c2, if_true, if_false] <;> ring
  rw [sum_congr rfl fun i hi => sum_congr rfl fun j hj => sum_congr rfl fun k hk => key i hi j hj k hk]
  simp only [sum_add_distrib, mul_sum]
  have z0 := hs 0
  have z1 := hs 1
  have z2 := hs 2
  congr 1
  · congr 1
    · refine sum_congr rfl fun i _ => ?_
      simp [sum_ite_eq', z1, z2]
    · rw [sum_eq_single (s 0)]
      · refine sum_congr rfl fun j _ => ?_
        simp [z2]
      · intro i _ hi; simp [hi]
      · intro h; exact absurd (mem_range.2 z0) h
  · rw [sum_eq_single (s 0), sum_eq_single (s 1)]
    · simp
    · intro i _ hi; simp [hi]
    · intro h; exact absurd (mem_range.2 z1) h
    · intro i _ hi; simp [hi]
    · intro h; exact absurd (mem_range.2 z0) h

/-! ### grid points are not within the tolerance of each other -/

omit hp hx in
theorem sin_low (M k : ℕ) (h1 : 0 < k) (h2 : k < 2 * M) : 1 / (M : ℝ) ≤ sin (k * π / (2 * M)) := by
  have hM : (0 : ℝ) < M := by have : 0 < M := by omega
                              exact_mod_cast this
  have hk : (1 : ℝ) ≤ k := by exact_mod_cast h1
  have hk2 : (k : ℝ) + 1 ≤ 2 * M := by exact_mod_cast h2
  have hpi := Real.pi_pos
  rcases le_total k M with h | h
  · have h' : (k : ℝ) ≤ M := by exact_mod_cast h
    have := Real.mul_le_sin (x := k * π / (2 * M)) (by positivity) (by
      rw [div_le_div_iff₀ (by positivity) (by positivity)]; nlinarith)
    refine le_trans ?_ this
    have e : 2 / π * (k * π / (2 * M)) = k / M := by field_simp
    rw [e]
    gcongr
  · have h' : (M : ℝ) ≤ k := by exact_mod_cast h
    have e : π - k * π / (2 * M) = (2 * M - k) * π / (2 * M) := by field_simp
    rw [← Real.sin_pi_sub, e]
    have := Real.mul_le_sin (x := (2 * M - k) * π / (2 * M)) (by
      have : (0 : ℝ) ≤ 2 * M - k := by linarith
      positivity) (by
      rw [div_le_div_iff₀ (by positivity) (by positivity)]; nlinarith)
    refine le_trans ?_ this
    have e2 : 2 / π * ((2 * M - k) * π / (2 * M)) = (2 * M - k) / M := by field_simp
    rw [e2]
    gcongr
    linarith

omit hp hx in
theorem cos_gap (M i j : ℕ) (hij : i < j) (hj : j ≤ M) : 2 / (M : ℝ) ^ 2 ≤ cos (i * π / M) - cos (j * π / M) := by
  have hM : (0 : ℝ) < M := by have : 0 < M := by omega
                              exact_mod_cast this
  have a := sin_low M (i + j) (by omega) (by omega)
  have b := sin_low M (j - i) (by omega) (by omega)
  have e := Real.cos_sub_cos (i * π / M) (j * π / M)
  have e1 : (i * π / M + j * π / M) / 2 = ((i + j : ℕ) : ℝ) * π / (2 * M) := by push_cast; field_simp
  have e2 : (i * π / M - j * π / M) / 2 = -(((j - i : ℕ) : ℝ) * π / (2 * M)) := by
    rw [Nat.cast_sub hij.le]; field_simp; ring
  rw [e, e1, e2, sin_neg]
  have h0 : (0 : ℝ) ≤ 1 / M := by positivity
  have := mul_le_mul a b h0 (h0.trans a)
  have e3 : 2 / (M : ℝ) ^ 2 = 2 * (1 / M * (1 / M)) := by field_simp
  rw [e3]
  linarith

theorem eql_pt (d : Fin 3) (hw : e * ((p.n d : ℝ) - 1) ^ 2 ≤ p.mx d - p.mn d) (i j : ℕ) (hi : i < p.n d) (hj : j < p.n d) :
    Tol.eql e (ptv p d i) (ptv p d j) = true ↔ i = j := by
  obtain ⟨M, hM, hM0⟩ := hN hp d
  have hMr : (0 : ℝ) < M := by exact_mod_cast hM0
  have hv : ∀ r, ptv p d r = pointExtrema (p.mn d) (p.mx d) (M + 1) r := by intro r; unfold ptv; rw [hx d, hM]
  have hb := hp.box d
  have hw : e * (M : ℝ) ^ 2 ≤ p.mx d - p.mn d := by rw [hM] at hw; push_cast at hw; simpa using hw
  constructor
  · intro h
    by_contra hne
    simp only [Tol.eql, Bool.and_eq_true, decide_eq_true_eq] at h
    have gap : ∀ a b : ℕ, a < b → b ≤ M → e ≤ (p.mx d - p.mn d) / 2 * (cos (a * π / M) - cos (b * π / M)) := by
      intro a b h1 h2
      have g := cos_gap M a b h1 h2
      have : e ≤ (p.mx d - p.mn d) / M ^ 2 := by rw [le_div_iff₀ (by positivity)]; exact hw
      refine this.trans ?_
      have e1 : (p.mx d - p.mn d) / (M : ℝ) ^ 2 = (p.mx d - p.mn d) / 2 * (2 / (M : ℝ) ^ 2) := by field_simp
      rw [e1]
      exact mul_le_mul_of_nonneg_left g (by linarith)
    rw [hv, hv, affine_point, affine_point] at h
    rcases lt_or_gt_of_ne hne with h' | h'
    · have := gap i j h' (by omega)
      linarith [h.1, h.2]
    · have := gap j i h' (by omega)
      linarith [h.1, h.2]
  · rintro rfl
    exact eql_self e _ hp.pos

/-! ### the derivatives are the weights -/

/-- the function for the interpolated field is the weight of the point -/
theorem dValue_eq (pl : Option (Fin 3)) (plane : ℕ) (X : Fin 3 → ℝ) (hX : Point e p pl plane X)
    (hw : ∀ d, pl = some d → e * ((p.n d : ℝ) - 1) ^ 2 ≤ p.mx d - p.mn d) (l : ℕ) (hl : l < nn p) :
    dValue e p pl X l = wt e p pl plane X 0 (coords p l 0) * wt e p pl plane X 1 (coords p l 1) *
      wt e p pl plane X 2 (coords p l 2) := by
  obtain ⟨ht, -⟩ := coords_inside l hl
  have hT := fun d hd => getT_eq hp d (coords p l d) (ht d) _ (hX.apart d hd)
  have hE : ∀ d, pl = some d → (Tol.eql e (ptv p d (coords p l d)) (X d) = true ↔ coords p l d = plane) := by
    intro d hd
    obtain ⟨h1, h2⟩ := hX.on d hd
    rw [h2]
    exact eql_pt hp hx d (hw d hd) _ _ (ht d) h1
  unfold dValue
  match pl with
  | none => simp [wt, hT 0, hT 1, hT 2]
  | some 0 => simp [wt, hT 1, hT 2, hE 0, kd, mul_assoc]
  | some 1 => simp [wt, hT 0, hT 2, hE 1, kd]
  | some 2 => simp [wt, hT 0, hT 1, hE 2, kd]

/-- the function for the interpolated derivative is the product of the weights and of the matrix of the derivative -/
theorem dDer_eq (x : Fin 3) (pl : Option (Fin 3)) (plane : ℕ) (X : Fin 3 → ℝ) (hX : Point e p pl plane X)
    (hc : pl ≠ none → Clear e p x) (l : ℕ) (hl : l < nn p) :
    dDer e p x pl plane X l = ∑ k ∈ range (nn p), wt e p pl plane X 0 (coords p k 0) * wt e p pl plane X 1 (coords p k 1) *
      wt e p pl plane X 2 (coords p k 2) * d2f e p x k l := by
  obtain ⟨ht, hid⟩ := coords_inside l hl
  have hT := fun d hd => getT_eq hp d (coords p l d) (ht d) _ (hX.apart d hd)
  have hL := fun d hd => lineSum_eq hp hx x (coords p l) ht X d (hX.apart d hd)
  have a := adj hp hx x (coords p l) ht (wt e p pl plane X)
  rw [hid] at a
  rw [a]
  have one : ∀ d : Fin 3, pl = some d → ∑ r ∈ range (p.n d), wt e p pl plane X d r *
      dNdq1 p d (.x x) (idx p (Function.update (coords p l) d r)) * D p d r (coords p l d) =
      dNdq1 p d (.x x) (idx p (Function.update (coords p l) d plane)) * D p d plane (coords p l d) := by
    intro d hd
    rw [sum_eq_single plane]
    · simp [wt, hd, kd]
    · intro r _ hr; simp [wt, hd, kd, hr]
    · intro h; exact absurd (mem_range.2 (hX.on d hd).1) h
  have hq : ∀ d, pl = some d → getDT e (p.n d) (coords p l d) (q e p X d) = D p d plane (coords p l d) := by
    intro d hd
    obtain ⟨h1, h2⟩ := hX.on d hd
    unfold q
    rw [h2, getDT_pt hp hx d plane _ h1 (ht d)]
  have hJ : ∀ d, pl = some d → ∀ A B C : ℝ, (if Tol.eql e (dNdq1 p d (.x x) (idx p (Function.update (coords p l) d plane))) 0 = true
      then 0 else dNdq1 p d (.x x) (idx p (Function.update (coords p l) d plane)) * A * B * C) =
      dNdq1 p d (.x x) (idx p (Function.update (coords p l) d plane)) * A * B * C := by
    intro d hd A B C
    rcases hc (by rw [hd]; simp) d _ (idx_lt _ (inside_update _ ht d plane (hX.on d hd).1)) with h | h
    · rw [h]; simp
    · rw [h]; simp
  unfold dDer
  match pl with
  | none =>
    unfold dSpace
    simp only [hT 0 (by simp), hT 1 (by simp), hT 2 (by simp), hL 0 (by simp), hL 1 (by simp), hL 2 (by simp), wt,
      reduceCtorEq, if_false]
    ring
  | some 0 =>
    unfold dPlane
    rw [one 0 rfl]
    simp only [hT 1 (by simp), hT 2 (by simp), hL 1 (by simp), hL 2 (by simp), hq 0 rfl, hJ 0 rfl, wt, Option.some.injEq,
      Fin.isValue, Fin.reduceEq, if_true, if_false, kd]
    by_cases h : coords p l 0 = plane
    · simp only [h, if_true]; ring
    · simp only [h, if_false]; ring
  | some 1 =>
    unfold dPlane
    rw [one 1 rfl]
    simp only [hT 0 (by simp), hT 2 (by simp), hL 0 (by simp), hL 2 (by simp), hq 1 rfl, hJ 1 rfl, wt, Option.some.injEq,
      Fin.isValue, Fin.reduceEq, if_true, if_false, kd]
    by_cases h : coords p l 1 = plane
    · simp only [h, if_true]; ring
    · simp only [h, if_false]; ring
  | some 2 =>
    unfold dPlane
    rw [one 2 rfl]
    simp only [hT 0 (by simp), hT 1 (by simp), hL 0 (by simp), hL 1 (by simp), hq 2 rfl, hJ 2 rfl, wt, Option.some.injEq,
      Fin.isValue, Fin.reduceEq, if_true, if_false, kd]
    by_cases h : coords p l 2 = plane
    · simp only [h, if_true]; ring
    · simp only [h, if_false]; ring

/-! ### C70 -/

omit hp hx in
theorem sum_update (E v : ℕ → ℝ) (lmn : ℕ) (hl : lmn < nn p) (h : ℝ) :
    ∑ l ∈ range (nn p), E l * Function.update v lmn (v lmn + h) l = ∑ l ∈ range (nn p), E l * v l + h * E lmn := by
  have : ∀ l ∈ range (nn p), E l * Function.update v lmn (v lmn + h) l = E l * v l + if l = lmn then h * E l else 0 := by
    intro l _
    by_cases hh : l = lmn
    · subst hh; simp; ring
    · simp [hh]
  rw [sum_congr rfl this, sum_add_distrib, sum_ite_eq' (range (nn p)) lmn, if_pos (mem_range.2 hl)]

/-- **C70 (interpolated field).** The interpolated value is the sum of the values at the grid points times the function of
the point returned for them; so changing the value at one grid point by h changes the interpolated value by exactly h times
that function. -/
theorem C70_value (pl : Option (Fin 3)) (plane : ℕ) (X : Fin 3 → ℝ) (hX : Point e p pl plane X)
    (hw : ∀ d, pl = some d → e * ((p.n d : ℝ) - 1) ^ 2 ≤ p.mx d - p.mn d) (v : ℕ → ℝ) (lmn : ℕ) (hl : lmn < nn p) (h : ℝ) :
    ∃ f a f' b, interp e p pl plane ⟨v, none, none⟩ X = .ok (f, a) ∧
      interp e p pl plane ⟨Function.update v lmn (v lmn + h), none, none⟩ X = .ok (f', b) ∧
      a = ∑ l ∈ range (nn p), dValue e p pl X l * v l ∧ b = a + h * dValue e p pl X lmn := by
  obtain ⟨f, h1, -⟩ := interp_eq hp hx pl plane X hX ⟨v, none, none⟩ (Or.inl rfl)
  obtain ⟨f', h2, -⟩ := interp_eq hp hx pl plane X hX ⟨Function.update v lmn (v lmn + h), none, none⟩ (Or.inl rfl)
  have k : ∀ w : ℕ → ℝ, ∑ l ∈ range (nn p), wt e p pl plane X 0 (coords p l 0) * wt e p pl plane X 1 (coords p l 1) *
      wt e p pl plane X 2 (coords p l 2) * w l = ∑ l ∈ range (nn p), dValue e p pl X l * w l := fun w =>
    sum_congr rfl fun l hl => by rw [dValue_eq hp hx pl plane X hX hw l (mem_range.1 hl)]
  simp only [k] at h1 h2
  exact ⟨f, _, f', _, h1, h2, rfl, sum_update _ _ _ hl _⟩

/-- **C70 (interpolated derivative).** The same for the interpolated derivative of the field. -/
theorem C70_derivative (hs : p.sys ≠ .other) (x : Fin 3) (pl : Option (Fin 3)) (plane : ℕ) (X : Fin 3 → ℝ)
    (hX : Point e p pl plane X) (hc : pl ≠ none → Clear e p x) (v : ℕ → ℝ) (lmn : ℕ) (hl : lmn < nn p) (h : ℝ) :
    ∃ f w f' w' g a g' b, takeDer e p ⟨v, none, none⟩ [.x x] = .ok (f, w) ∧
      takeDer e p ⟨Function.update v lmn (v lmn + h), none, none⟩ [.x x] = .ok (f', w') ∧
      interp e p pl plane ⟨w, none, none⟩ X = .ok (g, a) ∧ interp e p pl plane ⟨w', none, none⟩ X = .ok (g', b) ∧
      a = ∑ l ∈ range (nn p), dDer e p x pl plane X l * v l ∧ b = a + h * dDer e p x pl plane X lmn := by
  have k : ∀ u : ℕ → ℝ, ∃ f w g, takeDer e p ⟨u, none, none⟩ [.x x] = .ok (f, w) ∧
      interp e p pl plane ⟨w, none, none⟩ X = .ok (g, ∑ l ∈ range (nn p), dDer e p x pl plane X l * u l) := by
    intro u
    obtain ⟨f, w, a1, -, a3⟩ := C68_first hp hx hs ⟨u, none, none⟩ (Or.inl rfl) x anyPts
    obtain ⟨g, h1, -⟩ := interp_eq hp hx pl plane X hX ⟨w, none, none⟩ (Or.inl rfl)
    refine ⟨f, w, g, a1, h1.trans ?_⟩
    congr 2
    have : ∀ k ∈ range (nn p), wt e p pl plane X 0 (coords p k 0) * wt e p pl plane X 1 (coords p k 1) *
        wt e p pl plane X 2 (coords p k 2) * w k = ∑ l ∈ range (nn p), wt e p pl plane X 0 (coords p k 0) *
        wt e p pl plane X 1 (coords p k 1) * wt e p pl plane X 2 (coords p k 2) * d2f e p x k l * u l := by
      intro k hk
      rw [a3 k (mem_range.1 hk), mul_sum]
      exact sum_congr rfl fun l _ => by rw [C68_opt_first hp]; ring
    rw [sum_congr rfl this, sum_comm]
    refine sum_congr rfl fun l hl => ?_
    rw [dDer_eq hp hx x pl plane X hX hc l (mem_range.1 hl), sum_mul]
  obtain ⟨f, w, g, a1, a2⟩ := k v
  obtain ⟨f', w', g', b1, b2⟩ := k (Function.update v lmn (v lmn + h))
  exact ⟨f, w, f', w', g, _, g', _, a1, b1, a2, b2, rfl, sum_update _ _ _ hl _⟩

end

/-- **C70 (choice).** The function is chosen by the string and by the subface: the plane of the first flag that is set, no
plane without a subface or flag; every other string and every patch with another basis or other points is refused. -/
theorem C70_choice (p : Patch) (sf : Option (Bool × Bool × Bool)) (dir : String) (c : Option (Fin 3) × Option (Fin 3)) :
    pick p sf dir = .ok c ↔ (∀ d, p.basis d = .tn ∧ p.coll d = .extrema) ∧
      (dir, c.2) ∈ [("x derivative", some 0), ("y derivative", some 1), ("z derivative", some 2), ("none", none)] ∧
      c.1 = (match sf with
        | none => none
        | some (fx, fy, fz) => if fx then some 0 else if fy then some 1 else if fz then some 2 else none) := by
  obtain ⟨pl, dr⟩ := c
  unfold pick
  by_cases hb : ∀ d : Fin 3, p.basis d = .tn ∧ p.coll d = .extrema
  · rw [if_pos hb]
    by_cases h0 : dir = "x derivative"
    · subst h0; rcases sf with _ | ⟨_ | _, _ | _, _ | _⟩ <;> simp [hb] <;> tauto
    by_cases h1 : dir = "y derivative"
    · subst h1; rcases sf with _ | ⟨_ | _, _ | _, _ | _⟩ <;> simp [hb] <;> tauto
    by_cases h2 : dir = "z derivative"
    · subst h2; rcases sf with _ | ⟨_ | _, _ | _, _ | _⟩ <;> simp [hb] <;> tauto
    by_cases h3 : dir = "none"
    · subst h3; rcases sf with _ | ⟨_ | _, _ | _, _ | _⟩ <;> simp [hb] <;> tauto
    simp [h0, h1, h2, h3]
  · rw [if_neg hb]; simp [hb]

/-! ### an example: a point in the plane of index 1 -/

/-- a point of the patch of C68 with index 1 in the first direction and in the middle of the other two -/
noncomputable def demoX : Fin 3 → ℝ := ![ptv demoE 0 1, 1, 1]

theorem demo_mid (d : Fin 3) (hd : d ≠ 0) : q 1e-12 demoE demoX d = 0 := by
  have h : demoX d = 1 := by match d with | 0 => exact absurd rfl hd | 1 => rfl | 2 => rfl
  unfold q toCheb
  rw [h]
  have : ((1 : ℝ) * 2 - (demoE.mx d + demoE.mn d)) / (-demoE.mx d + demoE.mn d) = 0 := by
    simp [demoE, demoP]; norm_num
  dsimp only
  rw [this]
  have h1 : Tol.eql (1e-12 : ℝ) 0 1 = false := by simp [Tol.eql]; norm_num
  have h2 : Tol.eql (1e-12 : ℝ) 0 (-1) = false := by simp [Tol.eql]; norm_num
  rw [h1, h2]
  simp

theorem demo_apart (M : ℕ) (hM : M = 5 ∨ M = 6) : General.Generic 1e-12 M 0 where
  lo := by norm_num
  hi := by norm_num
  sep := by have := Real.pi_gt_three; rcases hM with rfl | rfl <;> norm_num <;> linarith
  apart := by
    intro j hj
    rw [Real.arccos_zero]
    have hpi := Real.pi_gt_three
    rcases hM with rfl | rfl
    · right
      have : j ≤ 2 ∨ 3 ≤ j := by omega
      simp only [Tol.eql, Bool.and_eq_false_iff, decide_eq_false_iff_not, not_lt]
      rcases this with h | h
      · have h' : (j : ℝ) ≤ 2 := by exact_mod_cast h
        left; push_cast; nlinarith
      · have h' : (3 : ℝ) ≤ j := by exact_mod_cast h
        right; push_cast; nlinarith
    · have : j ≤ 2 ∨ j = 3 ∨ 4 ≤ j := by omega
      rcases this with h | rfl | h
      · right
        have h' : (j : ℝ) ≤ 2 := by exact_mod_cast h
        simp only [Tol.eql, Bool.and_eq_false_iff, decide_eq_false_iff_not, not_lt]
        left; push_cast; nlinarith
      · left; push_cast; ring
      · right
        have h' : (4 : ℝ) ≤ j := by exact_mod_cast h
        simp only [Tol.eql, Bool.and_eq_false_iff, decide_eq_false_iff_not, not_lt]
        right; push_cast; nlinarith

theorem demo_point : Point 1e-12 demoE (some 0) 1 demoX where
  inside := by
    intro d
    have hm : demoE.mn d = -1 := rfl
    have hM : demoE.mx d = 3 := rfl
    rw [hm, hM]
    match d with
    | 0 =>
      have h : demoX 0 = pointExtrema (-1) 3 (4 + 1) 1 := by simp [demoX, ptv, demoE, demoP]
      rw [h, affine_point]
      have := Real.cos_le_one ((1 : ℕ) * π / (4 : ℕ))
      have := Real.neg_one_le_cos ((1 : ℕ) * π / (4 : ℕ))
      constructor <;> linarith
    | 1 => simp [demoX]
    | 2 => simp [demoX]
  apart := by
    intro d hd
    match d with
    | 0 => exact absurd rfl hd
    | 1 => rw [demo_mid 1 (by decide)]; exact demo_apart _ (Or.inl (by simp [demoE, demoP]))
    | 2 => rw [demo_mid 2 (by decide)]; exact demo_apart _ (Or.inr (by simp [demoE, demoP]))
  on := by
    intro d hd
    cases hd
    exact ⟨by simp [demoE, demoP], rfl⟩

theorem demo_clear : Clear 1e-12 demoE 0 := by
  intro X l _
  match X with
  | 0 =>
    right
    simp [dNdq1, dNdq, jacT, Tol.eql, demoE, demoP, dNdX, Dir.mod3]
    norm_num
  | 1 => left; simp [dNdq1, dNdq, jacT, demoE, demoP, Dir.mod3]
  | 2 => left; simp [dNdq1, dNdq, jacT, demoE, demoP, Dir.mod3]

example := C70_value demoE_good (fun _ => rfl) (some 0) 1 demoX demo_point
  (by rintro d ⟨rfl⟩; simp [demoE, demoP]; norm_num) (fun l => (l : ℝ) ^ 2) 3 (by simp [nn, demoE, demoP]) 0.5

example := C70_derivative demoE_good (fun _ => rfl) (by simp [demoE, demoP]) 0 (some 0) 1 demoX demo_point
  (fun _ => demo_clear) (fun l => (l : ℝ) ^ 2) 3 (by simp [nn, demoE, demoP]) 0.5

end Elliptica.DInterp
