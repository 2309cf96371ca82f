import Verif.Lemmas.Deriv
import Verif.Spec.Deriv
/-! One direction of a spectral derivative -/
namespace Elliptica.Deriv
open Real Finset Polynomial Elliptica.Index Elliptica.Cheb

variable (e : ℝ) (p : Patch)

/-- the matrices of the transformations of the patch -/
noncomputable def mW (d : Fin 3) (i m : ℕ) : ℝ :=
  match p.coll d with
  | .equi => 0
  | .extrema => extW p.n d i m
  | .nodes => cos (i * ((m + 0.5) * π / p.n d)) / p.n d

variable {e p}

theorem tr_linear (hp : Good e p) : Coeff.Linear p.n (tr p) (mW p) := by
  intro d f i
  unfold tr mW
  rcases hp.cheb d with h | h
  · rw [h]; exact ext_linear p.n hp.two d f i
  · rw [h]
    show nodesCoeff (p.n d) f i = _
    unfold nodesCoeff
    rw [sum_div]
    refine sum_congr rfl fun j _ => ?_
    have : (i : ℝ) * (π / p.n d) * (j + 0.5) = i * ((j + 0.5) * π / p.n d) := by ring
    rw [this]; ring

theorem Good.e2 (hp : Good e p) : e ≤ 2 := by
  have h1 := hp.tol 0
  have h2 : (2 : ℝ) ≤ p.n 0 := by exact_mod_cast hp.two 0
  have h3 := hp.pos
  nlinarith

theorem coords_idx (t : Fin 3 → ℕ) (ht : Inside p t) : coords p (idx p t) = t := by
  obtain ⟨a, b, c⟩ := C10_decode_encode (p.n 1) (p.n 2) (t 0) (t 1) (t 2) (ht 1) (ht 2)
  funext d
  match d with
  | 0 => exact a
  | 1 => exact b
  | 2 => exact c

theorem inside_update (t : Fin 3 → ℕ) (ht : Inside p t) (d : Fin 3) (c : ℕ) (hc : c < p.n d) :
    Inside p (Function.update t d c) := by
  intro j
  by_cases h : j = d
  · subst h; simpa using hc
  · simpa [h] using ht j

/-- coefficients of one direction, read along a line -/
theorem co_line (hp : Good e p) (v co : Coeff.Data ℝ) (d : Fin 3)
    (h : Coeff.Holds p.n co (Coeff.spec p.n (mW p) [d] (Coeff.grid p.n v))) (t : Fin 3 → ℕ) (ht : Inside p t) (c : ℕ)
    (hc : c < p.n d) : co (idx p (Function.update t d c)) = tr p d (fun m => v (idx p (Function.update t d m))) c := by
  rw [tr_linear hp]
  have hu := inside_update t ht d c hc
  unfold idx
  rw [h _ _ _ (hu 0) (hu 1) (hu 2)]
  match d with
  | 0 => simp [Coeff.spec, Coeff.along, Coeff.grid]
  | 1 => simp [Coeff.spec, Coeff.along, Coeff.grid]
  | 2 => simp [Coeff.spec, Coeff.along, Coeff.grid]

/-- half the length of the interval, with the sign of the map -/
noncomputable def half (p : Patch) (d : Fin 3) : ℝ := (-p.mx d + p.mn d) / 2

theorem dP_comp (s : Bool) (q : ℝ[X]) (a b x : ℝ) :
    (dP s (q.comp (C a * X + C b))).eval x = (if s then a ^ 2 else a) * (dP s q).eval (a * x + b) := by
  unfold dP
  cases s
  · simp [derivative_comp]
  · simp [derivative_comp]; ring

theorem comp_degree (q : ℝ[X]) (a b : ℝ) (n : ℕ) (h : q.degree < (n : ℕ)) : (q.comp (C a * X + C b)).degree < (n : ℕ) := by
  have h4 : q = 0 ∨ q.natDegree < n := by
    by_cases hp0 : q = 0
    · exact .inl hp0
    · exact .inr ((natDegree_lt_iff_degree_lt hp0).2 h)
  rcases h4 with rfl | h4
  · simp
  refine lt_of_le_of_lt degree_le_natDegree ?_
  have h5 : (C a * X + C b : ℝ[X]).natDegree ≤ 1 := natDegree_linear_le
  have h6 := natDegree_comp_le (p := q) (q := C a * X + C b)
  have : q.natDegree * (C a * X + C b : ℝ[X]).natDegree ≤ q.natDegree * 1 := Nat.mul_le_mul_left _ h5
  exact_mod_cast (by omega : (q.comp (C a * X + C b)).natDegree < n)

/-- differentiate once or twice in direction d -/
noncomputable def pd (s : Bool) (d : Fin 3) (P : MvPolynomial (Fin 3) ℝ) : MvPolynomial (Fin 3) ℝ :=
  if s then MvPolynomial.pderiv d (MvPolynomial.pderiv d P) else MvPolynomial.pderiv d P

theorem restrict_pd (s : Bool) (P : MvPolynomial (Fin 3) ℝ) (X : Fin 3 → ℝ) (d : Fin 3) :
    dP s (restrict P X d) = restrict (pd s d P) X d := by
  unfold dP pd
  cases s <;> simp [restrict_deriv]

/-- the i-th normalised point of a direction -/
noncomputable def npt (p : Patch) (d : Fin 3) (i : ℕ) : ℝ :=
  match p.coll d with
  | .equi => 0
  | .extrema => cos (i * π / (p.n d - 1 : ℕ))
  | .nodes => cos ((i + 0.5) * π / p.n d)

theorem ptv_eq (hp : Good e p) (d : Fin 3) (i : ℕ) : ptv p d i = half p d * npt p d i + (p.mx d + p.mn d) / 2 := by
  have h2 := hp.two d
  unfold ptv npt half
  rcases hp.cheb d with h | h
  · rw [h]
    obtain ⟨N, hN⟩ : ∃ N, p.n d = N + 1 := ⟨p.n d - 1, by omega⟩
    rw [hN]
    exact affine_point _ _ N i
  · rw [h]
    show pointNodes (p.mn d) (p.mx d) (p.n d) i = _
    unfold pointNodes
    ring

theorem npt_snapped (hp : Good e p) (d : Fin 3) (i : ℕ) (hi : i < p.n d) : Snapped e (npt p d i) := by
  have h2 := hp.two d
  have ht := hp.tol d
  have he := hp.pos
  unfold npt
  rcases hp.cheb d with h | h
  · rw [h]
    refine snapped_ext e (p.n d - 1) (by omega) ?_ i (by omega)
    have : ((p.n d - 1 : ℕ) : ℝ) ≤ p.n d := by exact_mod_cast Nat.sub_le _ _
    have h0 : (0 : ℝ) ≤ ((p.n d - 1 : ℕ) : ℝ) := by positivity
    have h5 : ((p.n d - 1 : ℕ) : ℝ) ^ 2 ≤ (p.n d : ℝ) ^ 2 := pow_le_pow_left₀ h0 this 2
    nlinarith
  · rw [h]; exact snapped_nod e (p.n d) ht i hi

/-- along one direction, in the normalised coordinate -/
theorem specDer_ok (hp : Good e p) (s : Bool) (f : Coeff.St ℝ) (hf : Coeff.Inv p.n (mW p) f) (d : Fin 3)
    (P : MvPolynomial (Fin 3) ℝ) (hP : MvPolynomial.degreeOf d P < p.n d) (hv : Samples p f.v P) :
    ∃ f' w, specDer e p s f d = .ok (f', w) ∧ f'.v = f.v ∧ Coeff.Inv p.n (mW p) f' ∧
      ∀ t, Inside p t → w (idx p t) = (if s then half p d ^ 2 else half p d) * MvPolynomial.eval (pos p t) (pd s d P) := by
  obtain ⟨f', co, h1, h2, h3, h4⟩ := Coeff.make1_ok p.n (tr p) (mW p) (tr_linear hp) f hf d
  have hn := hp.two d
  unfold specDer
  rw [if_neg (by omega), h1, Res.bind_ok]
  refine ⟨f', _, rfl, h2, h3, ?_⟩
  intro t ht
  dsimp only
  rw [coords_idx t ht]
  -- the polynomial along the line, in the normalised coordinate
  set q := (restrict P (pos p t) d).comp (C (half p d) * X + C ((p.mx d + p.mn d) / 2)) with hq
  have hqd : q.degree < (p.n d : ℕ) := comp_degree _ _ _ _ (restrict_degree P _ d _ hP)
  have hpos : ∀ j, j < p.n d → f.v (idx p (Function.update t d j)) = q.eval (npt p d j) := by
    intro j hj
    rw [hv _ (inside_update t ht d j hj), hq, eval_comp]
    simp only [eval_add, eval_mul, eval_C, eval_X]
    rw [← ptv_eq hp, restrict_eval]
    congr 1
    refine congrArg _ ?_
    funext j'
    by_cases h : j' = d
    · subst h; simp [pos]
    · simp [pos, h]
  have hval : (dP s q).eval (npt p d (t d)) =
      (if s then half p d ^ 2 else half p d) * MvPolynomial.eval (pos p t) (pd s d P) := by
    rw [hq, dP_comp, ← ptv_eq hp, restrict_pd, restrict_eval]
    congr 2
    refine congrArg _ ?_
    funext j'
    by_cases h : j' = d
    · subst h; simp [pos]
    · simp [h]
  have hsn := npt_snapped hp d (t d) (ht d)
  have hco : ∀ c, c < p.n d → co (idx p (Function.update t d c)) = tr p d (fun m => f.v (idx p (Function.update t d m))) c :=
    fun c hc => co_line hp f.v co d h4 t ht c hc
  rw [← hval]
  obtain ⟨N, hN⟩ : ∃ N, p.n d = N + 1 := ⟨p.n d - 1, by omega⟩
  rcases hp.cheb d with h | h
  · -- extrema
    have hx : npt p d (t d) = cos (t d * (π / ((p.n d : ℝ) - 1))) := by
      unfold npt; rw [h, hN]; push_cast; rw [add_sub_cancel_right, mul_div_assoc]
    have hl := ext_line e hp.pos hp.e2 s N (by omega) q (by rw [← hN]; exact hqd)
      (fun m => f.v (idx p (Function.update t d m))) (fun j hj => by
        rw [hpos j (by omega)]; unfold npt; rw [h, hN]; rfl) (npt p d (t d)) hsn
    rw [← hl]
    have hco' : ∀ c, c < N + 1 → co (idx p (Function.update t d c)) =
        extremaCoeff (N + 1) (fun m => f.v (idx p (Function.update t d m))) c := by
      intro c hc; rw [hco c (by omega)]; unfold tr; rw [h, ← hN]
    rw [h]
    cases s
    · show ext1 e p d co t = _
      unfold ext1
      dsimp only
      rw [← hx, show p.n d - 1 = N by omega, hco' N (by omega)]
      congr 1
      · congr 1
        refine sum_congr rfl fun c hc => ?_
        rw [mem_Ico] at hc
        rw [hco' c (by omega)]; unfold dT dChebT; simp; ring
      · unfold dT dChebT; simp; ring
    · show ext2 e p d co t = _
      unfold ext2
      dsimp only
      rw [← hx, show p.n d - 1 = N by omega, hco' N (by omega), Ico_two]
      · congr 1
        congr 1
        refine sum_congr rfl fun c hc => ?_
        rw [mem_Ico] at hc
        rw [hco' c (by omega)]; rfl
      · simp [d2ChebT]
  · -- nodes
    have hx : npt p d (t d) = cos ((t d + 0.5) * (π / (p.n d : ℝ))) := by
      unfold npt; rw [h]; dsimp only; rw [mul_div_assoc]
    have hl := nod_line e hp.pos hp.e2 s (p.n d) q hqd
      (fun m => f.v (idx p (Function.update t d m))) (fun j hj => by
        rw [hpos j hj]; unfold npt; rw [h]) (npt p d (t d)) hsn
    rw [← hl]
    have hco' : ∀ c, c < p.n d → co (idx p (Function.update t d c)) =
        nodesCoeff (p.n d) (fun m => f.v (idx p (Function.update t d m))) c := by
      intro c hc; rw [hco c hc]; unfold tr; rw [h]
    rw [h]
    cases s
    · show nod1 e p d co t = _
      unfold nod1
      dsimp only
      rw [← hx]
      congr 1
      refine sum_congr rfl fun c hc => ?_
      rw [mem_Ico] at hc
      rw [hco' c hc.2]; unfold dT dChebT; simp; ring
    · show nod2 e p d co t = _
      unfold nod2
      dsimp only
      rw [← hx, Ico_two]
      · congr 1
        refine sum_congr rfl fun c hc => ?_
        rw [mem_Ico] at hc
        rw [hco' c hc.2]; rfl
      · simp [d2ChebT]

end Elliptica.Deriv
