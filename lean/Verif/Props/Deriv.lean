import Verif.Lemmas.DerivLine
import Mathlib.LinearAlgebra.Matrix.Determinant.Basic
import Mathlib.Analysis.Calculus.Deriv.Mul
import Mathlib.Analysis.Calculus.Deriv.Add
/-!
C54: spectral partial derivatives.  C57: the Jacobian of the normalised coordinates and its inverse.
-/
namespace Elliptica.Deriv
open Real Finset Elliptica.Index Elliptica.Cheb

variable {e : ℝ} {p : Patch}

theorem funcsOk_of (hp : Good e p) : funcsOk p = true := by
  unfold funcsOk
  rw [decide_eq_true_eq]
  exact fun d => ⟨hp.tn d, hp.cheb d⟩

theorem dNdX_same (hp : Good e p) (d : Fin 3) (q2 q1 : Dir) (h1 : q1.mod3 = d) (h2 : q2.mod3 = d) : dNdX p q2 q1 = (half p d)⁻¹ := by
  unfold dNdX half
  rw [h1, h2]
  rcases hp.cheb d with h | h <;> rw [h] <;> simp

theorem dNdX_ne (hp : Good e p) (q2 q1 : Dir) (h1 : q2.mod3 ≠ q1.mod3) : dNdX p q2 q1 = 0 := by
  unfold dNdX
  rcases hp.cheb q1.mod3 with h | h <;> rw [h] <;> simp [h1]

theorem half_ne (hp : Good e p) (d : Fin 3) : half p d ≠ 0 := by
  have := hp.box d
  unfold half
  intro h
  linarith

/-- dN/dq = dN/dX dX/dq -/
theorem half_dN (hp : Good e p) (d : Fin 3) (q : Dir) (hq : q.user) (l : ℕ) : half p d * dNdq1 p d q l = dXdq p d q l := by
  have h0 := half_ne hp d
  unfold dNdq1
  match q, hq with
  | .x j, _ =>
    rw [if_neg (by simp)]
    unfold dNdq
    rw [hp.tn d]
    dsimp only
    rw [dNdX_same hp d _ _ rfl rfl, ← mul_assoc, mul_inv_cancel₀ h0, one_mul]
    unfold jacT dXdq
    cases p.sys <;> rfl
  | .a j, _ =>
    rw [if_neg (by simp)]
    unfold dNdq dXdq
    dsimp only
    by_cases h : d = j
    · rw [dNdX_same hp d (.N d) (.a j) h.symm rfl, if_pos h, mul_inv_cancel₀ h0]
    · rw [dNdX_ne hp _ _ (by simpa [Dir.mod3] using h), if_neg h, mul_zero]

theorem first_ok (hp : Good e p) (hs : p.sys ≠ .other) (f : Coeff.St ℝ) (hf : Coeff.Inv p.n (mW p) f) (dir : Dir)
    (hd : dir.user) (P : MvPolynomial (Fin 3) ℝ) (hP : Fits p P) (hv : Samples p f.v P) :
    ∃ f' w, first e p f dir = .ok (f', w) ∧ f'.v = f.v ∧ Coeff.Inv p.n (mW p) f' ∧
      ∀ t, Inside p t → w (idx p t) =
        ∑ d, MvPolynomial.eval (pos p t) (MvPolynomial.pderiv d P) * dXdq p d dir (idx p t) := by
  have hX := half_dN hp (q := dir) (hq := hd)
  have S := fun f hf d hv => specDer_ok hp false f hf d P (hP d) hv
  simp only [pd, Bool.false_eq_true, if_false] at S
  unfold first
  rw [if_neg (by simp [funcsOk_of hp])]
  cases hsys : p.sys with
  | other => exact absurd hsys hs
  | cartesian =>
    have hc : ∀ d l, dXdq p d dir l = if d = dir.mod3 then 1 else 0 := by
      intro d l
      unfold dXdq
      match dir, hd with
      | .x j, _ => rw [hsys]; rfl
      | .a j, _ => rfl
    simp only [depend, hsys, Res.bind_ok]
    obtain ⟨f', w, h1, h2, h3, h4⟩ := S f hf dir.mod3 hv
    refine ⟨f', fun l => w l * dNdq1 p dir.mod3 dir l, ?_, h2, h3, ?_⟩
    · generalize hm : dir.mod3 = m at h1 ⊢
      match m with
      | 0 => simp [maybe, h1, combine]
      | 1 => simp [maybe, h1, combine]
      | 2 => simp [maybe, h1, combine]
    · intro t ht
      dsimp only
      rw [h4 t ht]
      simp only [hc]
      have := hX dir.mod3 (idx p t)
      rw [hc, if_pos rfl] at this
      rw [mul_right_comm, this]
      simp
  | cubed =>
    simp only [depend, hsys, Res.bind_ok]
    obtain ⟨f0, w0, a1, a2, a3, a4⟩ := S f hf 0 hv
    obtain ⟨f1, w1, b1, b2, b3, b4⟩ := S f0 a3 1 (by rw [a2]; exact hv)
    obtain ⟨f2, w2, c1, c2, c3, c4⟩ := S f1 b3 2 (by rw [b2, a2]; exact hv)
    refine ⟨f2, fun l => w0 l * dNdq1 p 0 dir l + w1 l * dNdq1 p 1 dir l + w2 l * dNdq1 p 2 dir l, ?_, ?_, c3, ?_⟩
    · simp [maybe, a1, b1, c1, combine]
    · rw [c2, b2, a2]
    · intro t ht
      dsimp only
      rw [a4 t ht, b4 t ht, c4 t ht, Fin.sum_univ_three, ← hX 0, ← hX 1, ← hX 2]
      ring

/-! ### every field is a polynomial that fits -/

/-- the points of one direction are distinct -/
theorem npt_inj (hp : Good e p) (d : Fin 3) : Set.InjOn (npt p d) (range (p.n d) : Finset ℕ) := by
  have h2 := hp.two d
  unfold npt
  rcases hp.cheb d with h | h
  · rw [h]
    have := nodes_injOn (p.n d - 1) (by omega)
    rw [show p.n d - 1 + 1 = p.n d by omega] at this
    exact this
  · rw [h]; exact nod_injOn (p.n d)

theorem ptv_inj (hp : Good e p) (d : Fin 3) : Set.InjOn (ptv p d) (range (p.n d) : Finset ℕ) := by
  intro a ha b hb h
  rw [ptv_eq hp, ptv_eq hp] at h
  have := mul_left_cancel₀ (half_ne hp d) (add_right_cancel h)
  exact npt_inj hp d ha hb this

/-- a Lagrange polynomial in one of the three variables -/
noncomputable def lag (p : Patch) (d : Fin 3) (i : ℕ) : MvPolynomial (Fin 3) ℝ :=
  Polynomial.aeval (MvPolynomial.X d) (Lagrange.basis (range (p.n d)) (ptv p d) i)

theorem lag_eval (p : Patch) (d : Fin 3) (i : ℕ) (X : Fin 3 → ℝ) :
    MvPolynomial.eval X (lag p d i) = (Lagrange.basis (range (p.n d)) (ptv p d) i).eval (X d) := by
  unfold lag
  rw [Polynomial.aeval_eq_sum_range, Polynomial.eval_eq_sum_range, map_sum]
  refine sum_congr rfl fun k _ => ?_
  rw [MvPolynomial.smul_eq_C_mul]
  simp only [map_mul, map_pow, MvPolynomial.eval_C, MvPolynomial.eval_X]

theorem lag_degree (hp : Good e p) (d j : Fin 3) (i : ℕ) (hi : i < p.n j) :
    MvPolynomial.degreeOf d (lag p j i) ≤ if d = j then p.n j - 1 else 0 := by
  unfold lag
  rw [Polynomial.aeval_eq_sum_range]
  refine (MvPolynomial.degreeOf_sum_le _ _ _).trans ?_
  refine Finset.sup_le fun k hk => ?_
  rw [mem_range, Lagrange.natDegree_basis (ptv_inj hp j) (by simpa using hi), card_range] at hk
  rw [MvPolynomial.smul_eq_C_mul]
  refine (MvPolynomial.degreeOf_C_mul_le _ _ _).trans ?_
  refine (MvPolynomial.degreeOf_pow_le _ _ _).trans ?_
  rw [MvPolynomial.degreeOf_X]
  split
  · omega
  · simp

/-- C54: whatever a field holds, there is a polynomial with fewer coefficients than points in each direction that has
these values at the grid points -/
theorem C54_interpolant (hp : Good e p) (v : Coeff.Data ℝ) : ∃ P, Fits p P ∧ Samples p v P := by
  refine ⟨∑ i ∈ range (p.n 0), ∑ j ∈ range (p.n 1), ∑ k ∈ range (p.n 2),
    MvPolynomial.C (v (ijk (p.n 1) (p.n 2) i j k)) * (lag p 0 i * lag p 1 j * lag p 2 k), ?_, ?_⟩
  · intro d
    have h2 := hp.two d
    suffices h : MvPolynomial.degreeOf d (∑ i ∈ range (p.n 0), ∑ j ∈ range (p.n 1), ∑ k ∈ range (p.n 2),
        MvPolynomial.C (v (ijk (p.n 1) (p.n 2) i j k)) * (lag p 0 i * lag p 1 j * lag p 2 k)) ≤ p.n d - 1 by omega
    refine (MvPolynomial.degreeOf_sum_le _ _ _).trans (Finset.sup_le fun i hi => ?_)
    refine (MvPolynomial.degreeOf_sum_le _ _ _).trans (Finset.sup_le fun j hj => ?_)
    refine (MvPolynomial.degreeOf_sum_le _ _ _).trans (Finset.sup_le fun k hk => ?_)
    rw [mem_range] at hi hj hk
    refine (MvPolynomial.degreeOf_C_mul_le _ _ _).trans ?_
    have a := lag_degree hp d 0 i hi
    have b := lag_degree hp d 1 j hj
    have c := lag_degree hp d 2 k hk
    have m1 := MvPolynomial.degreeOf_mul_le d (lag p 0 i * lag p 1 j) (lag p 2 k)
    have m2 := MvPolynomial.degreeOf_mul_le d (lag p 0 i) (lag p 1 j)
    match d with
    | 0 => simp at a b c; omega
    | 1 => simp at a b c; omega
    | 2 => simp at a b c; omega
  · intro t ht
    simp only [map_sum, map_mul, MvPolynomial.eval_C, lag_eval]
    have L : ∀ d i, i ∈ range (p.n d) →
        (Lagrange.basis (range (p.n d)) (ptv p d) i).eval (pos p t d) = if i = t d then 1 else 0 := by
      intro d i hi
      unfold pos
      by_cases h : i = t d
      · rw [if_pos h, h]
        exact Lagrange.eval_basis_self (ptv_inj hp d) (by simpa using ht d)
      · rw [if_neg h]
        exact Lagrange.eval_basis_of_ne h (by simpa using ht d)
    have : ∀ i ∈ range (p.n 0), ∀ j ∈ range (p.n 1), ∀ k ∈ range (p.n 2),
        v (ijk (p.n 1) (p.n 2) i j k) *
          ((Lagrange.basis (range (p.n 0)) (ptv p 0) i).eval (pos p t 0) *
            (Lagrange.basis (range (p.n 1)) (ptv p 1) j).eval (pos p t 1) *
            (Lagrange.basis (range (p.n 2)) (ptv p 2) k).eval (pos p t 2)) =
        if i = t 0 then (if j = t 1 then (if k = t 2 then v (ijk (p.n 1) (p.n 2) i j k) else 0) else 0) else 0 := by
      intro i hi j hj k hk
      rw [L 0 i hi, L 1 j hj, L 2 k hk]
      split_ifs <;> simp
    rw [sum_congr rfl fun i hi => sum_congr rfl fun j hj => sum_congr rfl fun k hk => this i hi j hj k hk]
    rw [sum_eq_single (t 0) (fun b _ hb => by simp [hb]) (fun h => absurd (mem_range.2 (ht 0)) h)]
    rw [sum_eq_single (t 1) (fun b _ hb => by simp [hb]) (fun h => absurd (mem_range.2 (ht 1)) h)]
    rw [sum_eq_single (t 2) (fun b _ hb => by simp [hb]) (fun h => absurd (mem_range.2 (ht 2)) h)]
    simp [idx]

/-! ### C54 -/

/-- **C54 (first derivatives).** The derivative of a field in the direction x,y,z,a,b or c, on a Cartesian or
cubed-spherical patch: if the field holds the values of a polynomial P in the patch coordinates X with fewer coefficients
than points, the result is Σ_d ∂P/∂X_d · ∂X_d/∂q at every grid point, without error.  The values of the field are
unchanged and its coefficients remain right. -/
theorem C54_first (hp : Good e p) (hs : p.sys ≠ .other) (f : Coeff.St ℝ) (hf : Coeff.Inv p.n (mW p) f) (dir : Dir)
    (hd : dir.user) (P : MvPolynomial (Fin 3) ℝ) (hP : Fits p P) (hv : Samples p f.v P) :
    ∃ f' w, takeDer e p f [dir] = .ok (f', w) ∧ f'.v = f.v ∧ Coeff.Inv p.n (mW p) f' ∧
      ∀ t, Inside p t → w (idx p t) =
        ∑ d, MvPolynomial.eval (pos p t) (MvPolynomial.pderiv d P) * dXdq p d dir (idx p t) := by
  obtain ⟨f', w, h1, h2, h3, h4⟩ := first_ok hp hs f hf dir hd P hP hv
  exact ⟨f', w, by simp [takeDer, isSecond, h1, chain], h2, h3, h4⟩

/-- derivative of a polynomial of three variables along a curve -/
theorem curve (P : MvPolynomial (Fin 3) ℝ) (u : ℝ → Fin 3 → ℝ) (u' : Fin 3 → ℝ) (s0 : ℝ)
    (hu : ∀ d, HasDerivAt (fun s => u s d) (u' d) s0) :
    HasDerivAt (fun s => MvPolynomial.eval (u s) P)
      (∑ d, MvPolynomial.eval (u s0) (MvPolynomial.pderiv d P) * u' d) s0 := by
  induction P using MvPolynomial.induction_on with
  | C a => simpa using hasDerivAt_const s0 a
  | add P Q hP hQ =>
    have := hP.add hQ
    simp only [map_add, add_mul, sum_add_distrib]
    exact this
  | mul_X P i hP =>
    have := hP.mul (hu i)
    simp only [map_mul, MvPolynomial.eval_X, MvPolynomial.pderiv_mul, map_add, add_mul, sum_add_distrib]
    have k1 : ∑ d, MvPolynomial.eval (u s0) (MvPolynomial.pderiv d P) * u s0 i * u' d =
        (∑ d, MvPolynomial.eval (u s0) (MvPolynomial.pderiv d P) * u' d) * u s0 i := by
      rw [sum_mul]; exact sum_congr rfl fun d _ => by ring
    have k2 : ∑ d, MvPolynomial.eval (u s0) P * MvPolynomial.eval (u s0) (MvPolynomial.pderiv d (MvPolynomial.X i)) * u' d =
        MvPolynomial.eval (u s0) P * u' i := by
      rw [sum_eq_single i]
      · simp [MvPolynomial.pderiv_X_self]
      · intro b _ hb
        rw [MvPolynomial.pderiv_X_of_ne (Ne.symm hb)]; simp
      · simp
    rw [k1, k2]
    exact this

/-- **C54 (chain rule).** If moving along q through the grid point changes the patch coordinates at the rates given by the
Jacobian of the patch, the value returned is the rate of change of the field. -/
theorem C54_rate (hp : Good e p) (hs : p.sys ≠ .other) (f : Coeff.St ℝ) (hf : Coeff.Inv p.n (mW p) f) (dir : Dir)
    (hd : dir.user) (P : MvPolynomial (Fin 3) ℝ) (hP : Fits p P) (hv : Samples p f.v P) :
    ∃ f' w, takeDer e p f [dir] = .ok (f', w) ∧ ∀ t, Inside p t → ∀ (u : ℝ → Fin 3 → ℝ) (s0 : ℝ), u s0 = pos p t →
      (∀ d, HasDerivAt (fun s => u s d) (dXdq p d dir (idx p t)) s0) →
      HasDerivAt (fun s => MvPolynomial.eval (u s) P) (w (idx p t)) s0 := by
  obtain ⟨f', w, h1, -, -, h4⟩ := C54_first hp hs f hf dir hd P hP hv
  refine ⟨f', w, h1, ?_⟩
  intro t ht u s0 hu0 hu
  rw [h4 t ht, ← hu0]
  exact curve P u _ s0 hu

theorem cart_dX (hs : p.sys = .cartesian) (dir : Dir) (hd : dir.user) (d : Fin 3) (l : ℕ) :
    dXdq p d dir l = if d = dir.mod3 then 1 else 0 := by
  unfold dXdq
  match dir, hd with
  | .x j, _ => rw [hs]; rfl
  | .a j, _ => rfl

theorem cart_first (hp : Good e p) (hs : p.sys = .cartesian) (f : Coeff.St ℝ) (hf : Coeff.Inv p.n (mW p) f) (dir : Dir)
    (hd : dir.user) (P : MvPolynomial (Fin 3) ℝ) (hP : Fits p P) (hv : Samples p f.v P) :
    ∃ f' w, first e p f dir = .ok (f', w) ∧ f'.v = f.v ∧ Coeff.Inv p.n (mW p) f' ∧
      Samples p w (MvPolynomial.pderiv dir.mod3 P) := by
  obtain ⟨f', w, h1, h2, h3, h4⟩ := first_ok hp (by simp [hs]) f hf dir hd P hP hv
  refine ⟨f', w, h1, h2, h3, ?_⟩
  intro t ht
  rw [h4 t ht]
  simp [cart_dX hs dir hd]

theorem Fits.pderiv {P : MvPolynomial (Fin 3) ℝ} (h : Fits p P) (i : Fin 3) : Fits p (MvPolynomial.pderiv i P) :=
  fun d => degreeOf_pderiv P i d _ (h d)

theorem second_ok (hp : Good e p) (hs : p.sys = .cartesian) (f : Coeff.St ℝ) (hf : Coeff.Inv p.n (mW p) f) (dir : Dir)
    (hd : dir.user) (P : MvPolynomial (Fin 3) ℝ) (hP : Fits p P) (hv : Samples p f.v P) :
    ∃ f' w, second e p f dir = .ok (f', w) ∧ f'.v = f.v ∧ Coeff.Inv p.n (mW p) f' ∧
      Samples p w (MvPolynomial.pderiv dir.mod3 (MvPolynomial.pderiv dir.mod3 P)) := by
  have hX := half_dN hp dir.mod3 dir hd
  obtain ⟨f', w, h1, h2, h3, h4⟩ := specDer_ok hp true f hf dir.mod3 P (hP _) hv
  simp only [pd, if_true] at h4
  unfold second
  rw [if_neg (by simp [funcsOk_of hp])]
  simp only [depend, hs, Res.bind_ok]
  refine ⟨f', fun l => w l * (dNdq1 p dir.mod3 dir l * dNdq1 p dir.mod3 dir l), ?_, h2, h3, ?_⟩
  · generalize hm : dir.mod3 = m at h1 ⊢
    match m with
    | 0 => simp [maybe, h1, combine2, List.filter]
    | 1 => simp [maybe, h1, combine2, List.filter]
    | 2 => simp [maybe, h1, combine2, List.filter]
  · intro t ht
    dsimp only
    rw [h4 t ht]
    have := hX (idx p t)
    rw [cart_dX hs dir hd, if_pos rfl] at this
    linear_combination (half p dir.mod3 * dNdq1 p dir.mod3 dir (idx p t) + 1) *
      MvPolynomial.eval (pos p t) (MvPolynomial.pderiv dir.mod3 (MvPolynomial.pderiv dir.mod3 P)) * this

theorem isSecond_cart (hp : Good e p) (hs : p.sys = .cartesian) (d0 d1 : Dir) :
    isSecond p [d0, d1] = .ok (decide (d0 = d1)) := by
  unfold isSecond
  by_cases h : d0 = d1
  · subst h
    simp only [ne_eq, not_true_eq_false, if_false, funcsOk_of hp, depend, hs, Res.bind_ok]
    generalize d0.mod3 = m
    match m with
    | 0 => simp [List.filter]
    | 1 => simp [List.filter]
    | 2 => simp [List.filter]
  · simp [h]

/-- **C54 (Cartesian, up to three derivatives).** On a Cartesian patch a task with one, two or three directions, in any
order, whether or not the second-order formula is used, returns at every grid point the iterated partial derivative of
the polynomial, without error. -/
theorem C54_cartesian (hp : Good e p) (hs : p.sys = .cartesian) (f : Coeff.St ℝ) (hf : Coeff.Inv p.n (mW p) f)
    (dirs : List Dir) (hd : ∀ d ∈ dirs, d.user) (h0 : dirs ≠ []) (h3 : dirs.length ≤ 3) (P : MvPolynomial (Fin 3) ℝ)
    (hP : Fits p P) (hv : Samples p f.v P) :
    ∃ f' w, takeDer e p f dirs = .ok (f', w) ∧ f'.v = f.v ∧ Coeff.Inv p.n (mW p) f' ∧
      ∀ t, Inside p t → w (idx p t) = MvPolynomial.eval (pos p t) (iter dirs P) := by
  have hnew : ∀ v, Coeff.Inv p.n (mW p) ⟨v, none, none⟩ := fun v => Or.inl rfl
  match dirs, h0, h3 with
  | [d0], _, _ =>
    obtain ⟨f', w, a1, a2, a3, a4⟩ := cart_first hp hs f hf d0 (hd _ (by simp)) P hP hv
    exact ⟨f', w, by simp [takeDer, isSecond, a1, chain], a2, a3, a4⟩
  | [d0, d1], _, _ =>
    by_cases h : d0 = d1
    · subst h
      obtain ⟨f', w, a1, a2, a3, a4⟩ := second_ok hp hs f hf d0 (hd _ (by simp)) P hP hv
      exact ⟨f', w, by simp [takeDer, isSecond_cart hp hs, a1], a2, a3, a4⟩
    · obtain ⟨f', w, a1, a2, a3, a4⟩ := cart_first hp hs f hf d0 (hd _ (by simp)) P hP hv
      obtain ⟨f1, w1, b1, b2, b3, b4⟩ := cart_first hp hs ⟨w, none, none⟩ (hnew w) d1 (hd _ (by simp)) _ (hP.pderiv d0.mod3) a4
      exact ⟨f', w1, by simp [takeDer, isSecond_cart hp hs, h, a1, chain, b1], a2, a3, b4⟩
  | [d0, d1, d2], _, _ =>
    obtain ⟨f', w, a1, a2, a3, a4⟩ := cart_first hp hs f hf d0 (hd _ (by simp)) P hP hv
    obtain ⟨f1, w1, b1, b2, b3, b4⟩ := cart_first hp hs ⟨w, none, none⟩ (hnew w) d1 (hd _ (by simp)) _ (hP.pderiv d0.mod3) a4
    obtain ⟨f2, w2, c1, c2, c3, c4⟩ := cart_first hp hs ⟨w1, none, none⟩ (hnew w1) d2 (hd _ (by simp)) _
      ((hP.pderiv d0.mod3).pderiv d1.mod3) b4
    exact ⟨f', w2, by simp [takeDer, isSecond, a1, chain, b1, c1], a2, a3, c4⟩
  | _ :: _ :: _ :: _ :: _, _, h => simp at h; omega

/-- **C54 (any field, two derivatives on a cubed-spherical patch).** Each derivative is that of the polynomial through
the values it is given. -/
theorem C54_cubed (hp : Good e p) (hs : p.sys = .cubed) (f : Coeff.St ℝ) (hf : Coeff.Inv p.n (mW p) f) (d0 d1 : Dir)
    (h0 : d0.user) (h1 : d1.user) :
    ∃ f' w P Q, takeDer e p f [d0, d1] = .ok (f', w) ∧ Fits p P ∧ Samples p f.v P ∧ Fits p Q ∧
      (∀ t, Inside p t → MvPolynomial.eval (pos p t) Q =
        ∑ d, MvPolynomial.eval (pos p t) (MvPolynomial.pderiv d P) * dXdq p d d0 (idx p t)) ∧
      ∀ t, Inside p t → w (idx p t) =
        ∑ d, MvPolynomial.eval (pos p t) (MvPolynomial.pderiv d Q) * dXdq p d d1 (idx p t) := by
  obtain ⟨P, hP, hv⟩ := C54_interpolant hp f.v
  obtain ⟨f', w, a1, a2, a3, a4⟩ := first_ok hp (by simp [hs]) f hf d0 h0 P hP hv
  obtain ⟨Q, hQ, hw⟩ := C54_interpolant hp w
  obtain ⟨f1, w1, b1, b2, b3, b4⟩ := first_ok hp (by simp [hs]) ⟨w, none, none⟩ (Or.inl rfl) d1 h1 Q hQ hw
  have hsec : isSecond p [d0, d1] = .ok false := by
    unfold isSecond
    by_cases h : d0 = d1
    · subst h; simp [funcsOk_of hp, depend, hs, List.filter]
    · simp [h]
  refine ⟨f', w1, P, Q, by simp [takeDer, hsec, a1, chain, b1], hP, hv, hQ, ?_, b4⟩
  intro t ht
  rw [← hw t ht, a4 t ht]

/-- **C54 (more than three derivatives).** A task with four or more directions, which the format allows, always stops the
program: the third temporary is read after it was freed. -/
theorem C54_four_violation (hp : Good e p) (hs : p.sys ≠ .other) (f : Coeff.St ℝ) (hf : Coeff.Inv p.n (mW p) f)
    (d0 d1 d2 d3 : Dir) (ds : List Dir) (h0 : d0.user) (h1 : d1.user) (h2 : d2.user) :
    takeDer e p f (d0 :: d1 :: d2 :: d3 :: ds) = .abort := by
  have F : ∀ f, Coeff.Inv p.n (mW p) f → ∀ d : Dir, d.user → ∃ f' w, first e p f d = .ok (f', w) := by
    intro f hf d hd
    obtain ⟨P, hP, hv⟩ := C54_interpolant hp f.v
    obtain ⟨f', w, a1, _⟩ := first_ok hp hs f hf d hd P hP hv
    exact ⟨f', w, a1⟩
  obtain ⟨f1, w1, a1⟩ := F f hf d0 h0
  obtain ⟨f2, w2, a2⟩ := F ⟨w1, none, none⟩ (Or.inl rfl) d1 h1
  obtain ⟨f3, w3, a3⟩ := F ⟨w2, none, none⟩ (Or.inl rfl) d2 h2
  simp [takeDer, isSecond, a1, chain, a2, a3]

/-! ### an example -/

/-- a Cartesian patch of 5 x 6 x 7 points, extrema in x and y and nodes in z -/
noncomputable def demoP : Patch where
  n := fun d => if d = 0 then 5 else if d = 1 then 6 else 7
  mn := fun _ => -1
  mx := fun _ => 3
  coll := fun d => if d = 2 then .nodes else .extrema
  basis := fun _ => .tn
  sys := .cartesian
  jt := fun _ _ _ => 0

theorem demoP_good : Good 1e-12 demoP where
  pos := by norm_num
  two := by intro d; match d with | 0 => simp [demoP] | 1 => simp [demoP] | 2 => simp [demoP]
  box := by intro d; simp [demoP]; norm_num
  tn := fun _ => rfl
  cheb := by intro d; match d with | 0 => simp [demoP] | 1 => simp [demoP] | 2 => simp [demoP]
  tol := by
    intro d
    match d with
    | 0 => norm_num [demoP]
    | 1 => norm_num [demoP]
    | 2 =>
      show 2 * 1e-12 * ((7 : ℕ) : ℝ) ^ 2 ≤ 1
      norm_num

/-- a field with values of x² z on it -/
noncomputable def demoF : Coeff.St ℝ :=
  ⟨fun l => ptv demoP 0 (coords demoP l 0) ^ 2 * ptv demoP 2 (coords demoP l 2), none, none⟩

example : ∃ f' w, takeDer 1e-12 demoP demoF [.x 2, .x 0, .x 0] = .ok (f', w) ∧
    ∀ t, Inside demoP t → w (idx demoP t) = 2 := by
  obtain ⟨f', w, h1, -, -, h4⟩ := C54_cartesian demoP_good rfl demoF (Or.inl rfl) [.x 2, .x 0, .x 0]
    (by simp [Dir.user]) (by simp) (by simp) (MvPolynomial.X 0 ^ 2 * MvPolynomial.X 2)
    (by
      intro d
      refine lt_of_le_of_lt (MvPolynomial.degreeOf_mul_le _ _ _) ?_
      have := MvPolynomial.degreeOf_pow_le d (MvPolynomial.X 0 : MvPolynomial (Fin 3) ℝ) 2
      rw [MvPolynomial.degreeOf_X] at this
      rw [MvPolynomial.degreeOf_X]
      match d with
      | 0 => simp [demoP] at this ⊢
      | 1 => simp [demoP] at this ⊢; omega
      | 2 => simp [demoP] at this ⊢; omega)
    (by
      intro t ht
      simp only [demoF, coords_idx t ht, map_mul, map_pow, MvPolynomial.eval_X]
      rfl)
  refine ⟨f', w, h1, ?_⟩
  intro t ht
  rw [h4 t ht]
  have h2 : MvPolynomial.pderiv (R := ℝ) (0 : Fin 3) 2 = 0 := by
    rw [show (2 : MvPolynomial (Fin 3) ℝ) = MvPolynomial.C 2 from (map_ofNat MvPolynomial.C 2).symm, MvPolynomial.pderiv_C]
  simp [iter, Dir.mod3, MvPolynomial.pderiv_mul, MvPolynomial.pderiv_pow, MvPolynomial.pderiv_X, Pi.single_apply, h2]

/-! ### C57 -/

/-- the matrix dN_r/dx_s at the point l -/
noncomputable def jac (p : Patch) (l : ℕ) : Matrix (Fin 3) (Fin 3) ℝ := fun r s => dNdq1 p r (.x s) l

theorem det_jac (l : ℕ) : det (mA p l) = (jac p l).det := by
  rw [Matrix.det_fin_three]; simp only [det, mA, jac]

/-- **C57.** dx/dN is the inverse of dN/dx, wherever the determinant does not vanish. -/
theorem C57_inverse (l : ℕ) (h : (jac p l).det ≠ 0) :
    ∃ B : Fin 3 → Fin 3 → ℝ, (∀ a b, dqdN p (.x a) b l = .ok (B a b)) ∧
      (∀ r s, ∑ k, dNdq1 p r (.x k) l * B k s = if r = s then 1 else 0) ∧
      ∀ r s, ∑ k, B r k * dNdq1 p k (.x s) l = if r = s then 1 else 0 := by
  rw [← det_jac] at h
  refine ⟨fun a b => adj (mA p l) a b / det (mA p l), fun a b => by simp [dqdN, h], ?_, ?_⟩
  · intro r s
    rw [Fin.sum_univ_three]
    show mA p l r 0 * _ + mA p l r 1 * _ + mA p l r 2 * _ = _
    rw [← mul_div_assoc, ← mul_div_assoc, ← mul_div_assoc, ← add_div, ← add_div, div_eq_iff h]
    match r, s with
    | 0, 0 => simp [adj, det]; ring
    | 0, 1 => simp [adj]; ring
    | 0, 2 => simp [adj]; ring
    | 1, 0 => simp [adj]; ring
    | 1, 1 => simp [adj, det]; ring
    | 1, 2 => simp [adj]; ring
    | 2, 0 => simp [adj]; ring
    | 2, 1 => simp [adj]; ring
    | 2, 2 => simp [adj, det]; ring
  · intro r s
    rw [Fin.sum_univ_three]
    show _ * mA p l 0 s + _ * mA p l 1 s + _ * mA p l 2 s = _
    rw [div_mul_eq_mul_div, div_mul_eq_mul_div, div_mul_eq_mul_div, ← add_div, ← add_div, div_eq_iff h]
    match r, s with
    | 0, 0 => simp [adj, det]; ring
    | 0, 1 => simp [adj]; ring
    | 0, 2 => simp [adj]; ring
    | 1, 0 => simp [adj]; ring
    | 1, 1 => simp [adj, det]; ring
    | 1, 2 => simp [adj]; ring
    | 2, 0 => simp [adj]; ring
    | 2, 1 => simp [adj]; ring
    | 2, 2 => simp [adj, det]; ring

/-- On a Cartesian patch the determinant never vanishes. -/
theorem C57_cartesian (hp : Good e p) (hs : p.sys = .cartesian) (l : ℕ) : (jac p l).det ≠ 0 := by
  rw [← det_jac]
  have h : ∀ r s, half p r * mA p l r s = if r = s then 1 else 0 := by
    intro r s
    rw [mA, half_dN hp r (.x s) trivial l, cart_dX hs (.x s) trivial]
    rfl
  have h0 := half_ne hp
  have hm : ∀ r s, mA p l r s = if r = s then (half p r)⁻¹ else 0 := by
    intro r s
    have := h r s
    split at this
    · rename_i hrs; rw [if_pos hrs, eq_inv_of_mul_eq_one_right this]
    · rename_i hrs; rw [if_neg hrs]; exact (mul_eq_zero.1 this).resolve_left (h0 r)
  simp [det, hm, h0]

example : (jac demoP 17).det ≠ 0 := C57_cartesian demoP_good rfl 17

end Elliptica.Deriv
