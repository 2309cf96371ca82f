import Verif.Lemmas.Cheb
import Verif.Props.Coeff
import Mathlib.Analysis.SpecialFunctions.Trigonometric.Bounds
/-!
Property C41: Chebyshev coefficients and interpolation.  Property C43: the Chebyshev functions and their derivatives.
-/
namespace Elliptica.Cheb
open Real Finset Polynomial Elliptica.Index

/-! ### one direction -/

/-- interpolation of the line data `v` at the normalised point `x`: transform, then sum the expansion -/
noncomputable def ev (e : ℝ) (n : ℕ) (v : ℕ → ℝ) (x : ℝ) : ℝ := interp1 e n (extremaCoeff n v) x

theorem tComb_eval (e : ℝ) (he : 0 < e) (h2 : e ≤ 2) (N i : ℕ) (x : ℝ) (hx : Snapped e x) :
    tComb e (N + 1) i x = kap N i * (Chebyshev.T ℝ i).eval x := by
  unfold tComb kap
  by_cases h0 : i = 0
  · subst h0; simp
  · by_cases h1 : i = N
    · simp [h0, h1, chebT_eval e he h2 N x hx]
      intro h; omega
    · simp [h0, h1, chebT_eval e he h2 i x hx]

/-- the expansion as a polynomial -/
noncomputable def linePoly (N : ℕ) (v : ℕ → ℝ) : ℝ[X] :=
  ∑ i ∈ range (N + 1), C (extremaCoeff (N + 1) v i * kap N i) * Chebyshev.T ℝ i

theorem ev_eq (e : ℝ) (he : 0 < e) (h2 : e ≤ 2) (N : ℕ) (v : ℕ → ℝ) (x : ℝ) (hx : Snapped e x) :
    ev e (N + 1) v x = (linePoly N v).eval x := by
  unfold ev interp1 linePoly
  rw [eval_finsetSum]
  refine sum_congr rfl fun i _ => ?_
  rw [tComb_eval e he h2 N i x hx, eval_mul, eval_C]; ring

theorem linePoly_degree (N : ℕ) (v : ℕ → ℝ) : (linePoly N v).degree < (N + 1 : ℕ) := by
  unfold linePoly
  refine lt_of_le_of_lt (degree_sum_le _ _) ?_
  rw [Finset.sup_lt_iff (WithBot.bot_lt_coe _)]
  intro i hi
  refine lt_of_le_of_lt (degree_mul_le _ _) ?_
  rw [Chebyshev.degree_T]
  calc (C (extremaCoeff (N + 1) v i * kap N i) : ℝ[X]).degree + ((i : ℤ).natAbs : WithBot ℕ) ≤ 0 + ((i : ℤ).natAbs : WithBot ℕ) :=
        add_le_add_left degree_C_le _
    _ = (i : ℕ) := by simp
    _ < (N + 1 : ℕ) := by exact_mod_cast mem_range.1 hi

theorem linePoly_node (N : ℕ) (hN : 0 < N) (v : ℕ → ℝ) (l : ℕ) (hl : l ≤ N) :
    (linePoly N v).eval (cos (l * π / N)) = v l := by
  unfold linePoly
  rw [eval_finsetSum, ← extrema_reproduce N hN v l hl]
  refine sum_congr rfl fun i _ => ?_
  rw [eval_mul, eval_C, Chebyshev.T_real_cos]; push_cast; ring

theorem nodes_injOn (N : ℕ) (hN : 0 < N) : Set.InjOn (fun j : ℕ => cos (j * π / N)) (range (N + 1) : Finset ℕ) := by
  intro a ha b hb h
  have hN' : (0 : ℝ) < N := by positivity
  have hp := Real.pi_pos
  have mem : ∀ a ∈ range (N + 1), (a : ℝ) * π / N ∈ Set.Icc 0 π := by
    intro a ha
    have : (a : ℝ) ≤ N := by exact_mod_cast Nat.lt_succ_iff.1 (mem_range.1 ha)
    refine ⟨by positivity, ?_⟩
    rw [div_le_iff₀ hN']
    nlinarith
  have := Real.injOn_cos (mem a ha) (mem b hb) h
  have h3 : (a : ℝ) = b := by
    field_simp at this
    exact this
  exact_mod_cast h3

/-- one direction: exact for polynomials of degree < number of points -/
theorem ev_exact (e : ℝ) (he : 0 < e) (h2 : e ≤ 2) (N : ℕ) (hN : 0 < N) (p : ℝ[X]) (hp : p.degree < (N + 1 : ℕ))
    (v : ℕ → ℝ) (hv : ∀ j, j ≤ N → v j = p.eval (cos (j * π / N))) (x : ℝ) (hx : Snapped e x) :
    ev e (N + 1) v x = p.eval x := by
  rw [ev_eq e he h2 N v x hx]
  have : linePoly N v = p := by
    refine eq_of_degrees_lt_of_eval_index_eq (range (N + 1)) (nodes_injOn N hN) ?_ ?_ ?_
    · simpa using linePoly_degree N v
    · simpa using hp
    · intro i hi
      have hi' : i ≤ N := Nat.lt_succ_iff.1 (mem_range.1 hi)
      rw [linePoly_node N hN v i hi', hv i hi']
  rw [this]

/-! ### coordinates -/

/-- Where a point is evaluated: at itself, except that a point whose normalised coordinate is within round-off of an end
of the interval is evaluated at that end. -/
noncomputable def snap (e mn mx X : ℝ) : ℝ :=
  if Tol.eql e ((X * 2 - (mx + mn)) / (-mx + mn)) 1 then mn
  else if Tol.eql e ((X * 2 - (mx + mn)) / (-mx + mn)) (-1) then mx
  else X

theorem toCheb_snapped (e mn mx X : ℝ) (h : mn < mx) (h1 : mn ≤ X) (h2 : X ≤ mx) : Snapped e (toCheb e mn mx X) := by
  unfold toCheb
  have ha : -mx + mn < 0 := by linarith
  dsimp only
  split
  · left; rfl
  · rename_i c1
    split
    · right; left; rfl
    · rename_i c2
      right; right
      refine ⟨by simpa using c1, by simpa using c2, ?_, ?_⟩
      · rw [le_div_iff_of_neg ha]; linarith
      · rw [div_le_iff_of_neg ha]; linarith

theorem affine_toCheb (e mn mx X : ℝ) (h : mn < mx) :
    (-mx + mn) / 2 * toCheb e mn mx X + (mx + mn) / 2 = snap e mn mx X := by
  have ha : -mx + mn ≠ 0 := by intro hc; linarith
  unfold toCheb snap
  dsimp only
  split
  · ring
  · split
    · ring
    · field_simp; ring

theorem affine_point (mn mx : ℝ) (N j : ℕ) :
    pointExtrema mn mx (N + 1) j = (-mx + mn) / 2 * cos (j * π / N) + (mx + mn) / 2 := by
  unfold pointExtrema
  push_cast
  rw [add_sub_cancel_right]; ring

/-- The restriction of `f` to a line is a polynomial with fewer coefficients than points. -/
def IsPoly (n : ℕ) (f : ℝ → ℝ) : Prop := ∃ p : ℝ[X], p.degree < n ∧ ∀ x, f x = p.eval x

theorem ev_line (e : ℝ) (he : 0 < e) (h2 : e ≤ 2) (n : ℕ) (hn : 2 ≤ n) (mn mx : ℝ) (h : mn < mx) (X : ℝ) (h1 : mn ≤ X)
    (h3 : X ≤ mx) (f : ℝ → ℝ) (hf : IsPoly n f) (v : ℕ → ℝ) (hv : ∀ j, j < n → v j = f (pointExtrema mn mx n j)) :
    ev e n v (toCheb e mn mx X) = f (snap e mn mx X) := by
  obtain ⟨N, rfl⟩ : ∃ N, n = N + 1 := ⟨n - 1, by omega⟩
  obtain ⟨p, hp, hfp⟩ := hf
  have hd : (p.comp (C ((-mx + mn) / 2) * Polynomial.X + C ((mx + mn) / 2))).degree < (N + 1 : ℕ) := by
    have h4 : p.natDegree < N + 1 := by
      by_cases hp0 : p = 0
      · simp [hp0]
      · exact (natDegree_lt_iff_degree_lt hp0).2 hp
    refine lt_of_le_of_lt degree_le_natDegree ?_
    have h5 : (C ((-mx + mn) / 2) * Polynomial.X + C ((mx + mn) / 2) : ℝ[X]).natDegree ≤ 1 := natDegree_linear_le
    have h6 := natDegree_comp_le (p := p) (q := C ((-mx + mn) / 2) * Polynomial.X + C ((mx + mn) / 2))
    have : p.natDegree * (C ((-mx + mn) / 2) * Polynomial.X + C ((mx + mn) / 2) : ℝ[X]).natDegree ≤ p.natDegree * 1 :=
      Nat.mul_le_mul_left _ h5
    exact_mod_cast (by omega : _ < N + 1)
  have := ev_exact e he h2 N (by omega) _ hd v (fun j hj => by
    rw [hv j (by omega), hfp, eval_comp, affine_point]; simp) _ (toCheb_snapped e mn mx X h h1 h3)
  rw [this, hfp, eval_comp, ← affine_toCheb e mn mx X h]; simp

/-- one direction: any data are returned at the collocation points -/
theorem ev_node (e : ℝ) (he : 0 < e) (h2 : e ≤ 2) (n : ℕ) (hn : 2 ≤ n) (he2 : e * ((n : ℝ) - 1) ^ 2 ≤ 2) (mn mx : ℝ)
    (h : mn < mx) (v : ℕ → ℝ) (l : ℕ) (hl : l < n) :
    ev e n v (toCheb e mn mx (pointExtrema mn mx n l)) = v l := by
  obtain ⟨N, rfl⟩ : ∃ N, n = N + 1 := ⟨n - 1, by omega⟩
  have hN : 0 < N := by omega
  have hNr : (0 : ℝ) < N := by positivity
  have hp := Real.pi_pos
  push_cast at he2
  rw [add_sub_cancel_right] at he2
  -- distance of interior points from the ends
  have hfar : ∀ i : ℕ, 0 < i → i ≤ N → cos (i * π / N) ≤ 1 - 2 / N ^ 2 := by
    intro i hi hiN
    have hx : |(i : ℝ) * π / N| ≤ π := by
      rw [abs_of_nonneg (by positivity), div_le_iff₀ hNr]
      have : (i : ℝ) ≤ N := by exact_mod_cast hiN
      nlinarith
    refine (Real.cos_le_one_sub_mul_cos_sq hx).trans ?_
    have h1 : 2 / π ^ 2 * ((i : ℝ) * π / N) ^ 2 = 2 / N ^ 2 * (i : ℝ) ^ 2 := by field_simp
    rw [h1]
    have h2 : (1 : ℝ) ≤ (i : ℝ) ^ 2 := by
      have : (1 : ℝ) ≤ i := by exact_mod_cast hi
      nlinarith
    have h3 : (0 : ℝ) ≤ 2 / N ^ 2 := by positivity
    nlinarith
  have hgap : e ≤ 2 / (N : ℝ) ^ 2 := by rw [le_div_iff₀ (by positivity)]; exact he2
  have hcheb : toCheb e mn mx (pointExtrema mn mx (N + 1) l) = cos (l * π / N) := by
    have ha : -mx + mn ≠ 0 := by intro hc; linarith
    have hc : (pointExtrema mn mx (N + 1) l * 2 - (mx + mn)) / (-mx + mn) = cos (l * π / N) := by
      rw [affine_point]; field_simp; ring
    unfold toCheb
    dsimp only
    rw [hc]
    split
    · rename_i c1
      by_cases h0 : l = 0
      · simp [h0]
      · exfalso
        have := hfar l (by omega) (by omega)
        simp only [Tol.eql, Bool.and_eq_true, decide_eq_true_eq] at c1
        linarith [c1.2]
    · split
      · rename_i c2
        by_cases h0 : l = N
        · subst h0
          have : (l : ℝ) * π / l = π := by field_simp
          rw [this, cos_pi]
        · exfalso
          have h3 := hfar (N - l) (by omega) (by omega)
          have h4 : ((N - l : ℕ) : ℝ) * π / N = π - l * π / N := by
            rw [Nat.cast_sub (by omega)]; field_simp
          rw [h4, cos_pi_sub] at h3
          simp only [Tol.eql, Bool.and_eq_true, decide_eq_true_eq] at c2
          linarith [c2.1]
      · rfl
  have hin : mn ≤ pointExtrema mn mx (N + 1) l ∧ pointExtrema mn mx (N + 1) l ≤ mx := by
    rw [affine_point]
    have a := Real.neg_one_le_cos ((l : ℝ) * π / N)
    have b := Real.cos_le_one ((l : ℝ) * π / N)
    constructor <;> nlinarith
  rw [ev_eq e he h2 N v _ (toCheb_snapped e mn mx _ h hin.1 hin.2), hcheb, linePoly_node N hN v l (by omega)]

/-! ### three directions -/

/-- the matrix of the extrema transformation -/
noncomputable def extW (n : Fin 3 → ℕ) (d : Fin 3) (i j : ℕ) : ℝ :=
  kap (n d - 1) j / (2 * (n d - 1 : ℕ)) * cos (i * (j * π / (n d - 1 : ℕ)))

theorem ext_linear (n : Fin 3 → ℕ) (hn : ∀ d, 2 ≤ n d) : Coeff.Linear n (extremaTr n) (extW n) := by
  intro d f i
  unfold extremaTr extW
  obtain ⟨N, hN⟩ : ∃ N, n d = N + 1 := ⟨n d - 1, by have := hn d; omega⟩
  rw [hN, extremaCoeff_eq N (by have := hn d; omega)]
  simp

theorem ev_W (e : ℝ) (n : Fin 3 → ℕ) (hn : ∀ d, 2 ≤ n d) (d : Fin 3) (f : ℕ → ℝ) (x : ℝ) :
    ev e (n d) f x = ∑ i ∈ range (n d), (∑ m ∈ range (n d), extW n d i m * f m) * tComb e (n d) i x := by
  unfold ev interp1
  refine sum_congr rfl fun i _ => ?_
  have := ext_linear n hn d f i
  rw [← this]; rfl

theorem ev_L (e : ℝ) (n : Fin 3 → ℕ) (hn : ∀ d, 2 ≤ n d) (d : Fin 3) (f : ℕ → ℝ) (x : ℝ) :
    ev e (n d) f x = ∑ m ∈ range (n d), f m * ∑ i ∈ range (n d), extW n d i m * tComb e (n d) i x := by
  rw [ev_W e n hn d]
  simp only [mul_sum, sum_mul]
  rw [sum_comm]
  exact sum_congr rfl fun m _ => sum_congr rfl fun i _ => by ring

theorem ev_sum (e : ℝ) (n : Fin 3 → ℕ) (hn : ∀ d, 2 ≤ n d) (d : Fin 3) (q : ℕ) (A : ℕ → ℝ) (F : ℕ → ℕ → ℝ) (x : ℝ) :
    ev e (n d) (fun c => ∑ m ∈ range q, A m * F m c) x = ∑ m ∈ range q, A m * ev e (n d) (F m) x := by
  simp only [ev_L e n hn d]
  simp only [sum_mul]
  rw [sum_comm]
  refine sum_congr rfl fun m _ => ?_
  rw [mul_sum]
  exact sum_congr rfl fun i _ => by ring

theorem ev_congr (e : ℝ) (n : Fin 3 → ℕ) (hn : ∀ d, 2 ≤ n d) (d : Fin 3) (f g : ℕ → ℝ) (h : ∀ m, m < n d → f m = g m)
    (x : ℝ) : ev e (n d) f x = ev e (n d) g x := by
  rw [ev_L e n hn d, ev_L e n hn d]
  exact sum_congr rfl fun m hm => by rw [h m (mem_range.1 hm)]

theorem along0 (n : Fin 3 → ℕ) (W : Fin 3 → ℕ → ℕ → ℝ) (g : ℕ → ℕ → ℕ → ℝ) (i j k : ℕ) :
    Coeff.along n W 0 g i j k = ∑ m ∈ range (n 0), W 0 i m * g m j k := rfl
theorem along1 (n : Fin 3 → ℕ) (W : Fin 3 → ℕ → ℕ → ℝ) (g : ℕ → ℕ → ℕ → ℝ) (i j k : ℕ) :
    Coeff.along n W 1 g i j k = ∑ m ∈ range (n 1), W 1 j m * g i m k := rfl
theorem along2 (n : Fin 3 → ℕ) (W : Fin 3 → ℕ → ℕ → ℝ) (g : ℕ → ℕ → ℕ → ℝ) (i j k : ℕ) :
    Coeff.along n W 2 g i j k = ∑ m ∈ range (n 2), W 2 k m * g i j m := rfl

section
variable (e : ℝ) (n : Fin 3 → ℕ) (hn : ∀ d, 2 ≤ n d) (mn mx : Fin 3 → ℝ) (f : Coeff.St ℝ)
  (hf : Coeff.Inv n (extW n) f)
include hn hf

/-- the interpolation functions are nested one-dimensional interpolations of the current values -/
theorem interpX_eq (X : ℝ) (J K : ℕ) (hJ : J < n 1) (hK : K < n 2) :
    ∃ f', interpX e n mn mx f X J K = .ok (f', ev e (n 0) (fun a => f.v (ijk (n 1) (n 2) a J K)) (toCheb e (mn 0) (mx 0) X)) ∧
      f'.v = f.v ∧ Coeff.Inv n (extW n) f' := by
  obtain ⟨f', w, h1, h2, h3, h4⟩ := Coeff.make1_ok n (extremaTr n) (extW n) (ext_linear n hn) f hf 0
  refine ⟨f', ?_, h2, h3⟩
  unfold interpX
  rw [h1, Res.bind_ok, ev_W e n hn 0]
  dsimp only
  congr 2
  exact sum_congr rfl fun i hi => by rw [h4 i J K (mem_range.1 hi) hJ hK]; rfl

theorem interpY_eq (Y : ℝ) (I K : ℕ) (hI : I < n 0) (hK : K < n 2) :
    ∃ f', interpY e n mn mx f Y I K = .ok (f', ev e (n 1) (fun b => f.v (ijk (n 1) (n 2) I b K)) (toCheb e (mn 1) (mx 1) Y)) ∧
      f'.v = f.v ∧ Coeff.Inv n (extW n) f' := by
  obtain ⟨f', w, h1, h2, h3, h4⟩ := Coeff.make1_ok n (extremaTr n) (extW n) (ext_linear n hn) f hf 1
  refine ⟨f', ?_, h2, h3⟩
  unfold interpY
  rw [h1, Res.bind_ok, ev_W e n hn 1]
  dsimp only
  congr 2
  exact sum_congr rfl fun i hi => by rw [h4 I i K hI (mem_range.1 hi) hK]; rfl

theorem interpZ_eq (Z : ℝ) (I J : ℕ) (hI : I < n 0) (hJ : J < n 1) :
    ∃ f', interpZ e n mn mx f Z I J = .ok (f', ev e (n 2) (fun c => f.v (ijk (n 1) (n 2) I J c)) (toCheb e (mn 2) (mx 2) Z)) ∧
      f'.v = f.v ∧ Coeff.Inv n (extW n) f' := by
  obtain ⟨f', w, h1, h2, h3, h4⟩ := Coeff.make1_ok n (extremaTr n) (extW n) (ext_linear n hn) f hf 2
  refine ⟨f', ?_, h2, h3⟩
  unfold interpZ
  rw [h1, Res.bind_ok, ev_W e n hn 2]
  dsimp only
  congr 2
  exact sum_congr rfl fun i hi => by rw [h4 I J i hI hJ (mem_range.1 hi)]; rfl

theorem interpXY_eq (X Y : ℝ) (K : ℕ) (hK : K < n 2) :
    ∃ f', interpXY e n mn mx f X Y K = .ok (f', ev e (n 0) (fun a => ev e (n 1) (fun b => f.v (ijk (n 1) (n 2) a b K))
        (toCheb e (mn 1) (mx 1) Y)) (toCheb e (mn 0) (mx 0) X)) ∧
      f'.v = f.v ∧ Coeff.Inv n (extW n) f' := by
  obtain ⟨f', w, h1, h2, h3, h4⟩ := Coeff.make2_ok n (extremaTr n) (extW n) (ext_linear n hn) f hf 0 1 (by decide)
  refine ⟨f', ?_, h2, h3⟩
  unfold interpXY
  rw [h1, Res.bind_ok, ev_W e n hn 0]
  dsimp only
  congr 2
  refine sum_congr rfl fun i hi => ?_
  rw [← ev_sum e n hn 1, ev_W e n hn 1, sum_mul]
  refine sum_congr rfl fun j hj => ?_
  rw [h4 i j K (mem_range.1 hi) (mem_range.1 hj) hK]
  simp only [Coeff.spec, List.mem_cons, List.not_mem_nil, or_false, true_or, or_true, if_true]
  simp [along0, along1, along2, Coeff.grid]
  ring

theorem interpXZ_eq (X Z : ℝ) (J : ℕ) (hJ : J < n 1) :
    ∃ f', interpXZ e n mn mx f X Z J = .ok (f', ev e (n 0) (fun a => ev e (n 2) (fun c => f.v (ijk (n 1) (n 2) a J c))
        (toCheb e (mn 2) (mx 2) Z)) (toCheb e (mn 0) (mx 0) X)) ∧
      f'.v = f.v ∧ Coeff.Inv n (extW n) f' := by
  obtain ⟨f', w, h1, h2, h3, h4⟩ := Coeff.make2_ok n (extremaTr n) (extW n) (ext_linear n hn) f hf 0 2 (by decide)
  refine ⟨f', ?_, h2, h3⟩
  unfold interpXZ
  rw [h1, Res.bind_ok, ev_W e n hn 0]
  dsimp only
  congr 2
  refine sum_congr rfl fun i hi => ?_
  rw [← ev_sum e n hn 2, ev_W e n hn 2, sum_mul]
  refine sum_congr rfl fun j hj => ?_
  rw [h4 i J j (mem_range.1 hi) hJ (mem_range.1 hj)]
  simp only [Coeff.spec, List.mem_cons, List.not_mem_nil, or_false, true_or, or_true, if_true]
  simp [along0, along1, along2, Coeff.grid]
  ring

theorem interpYZ_eq (Y Z : ℝ) (I : ℕ) (hI : I < n 0) :
    ∃ f', interpYZ e n mn mx f Y Z I = .ok (f', ev e (n 1) (fun b => ev e (n 2) (fun c => f.v (ijk (n 1) (n 2) I b c))
        (toCheb e (mn 2) (mx 2) Z)) (toCheb e (mn 1) (mx 1) Y)) ∧
      f'.v = f.v ∧ Coeff.Inv n (extW n) f' := by
  obtain ⟨f', w, h1, h2, h3, h4⟩ := Coeff.make2_ok n (extremaTr n) (extW n) (ext_linear n hn) f hf 1 2 (by decide)
  refine ⟨f', ?_, h2, h3⟩
  unfold interpYZ
  rw [h1, Res.bind_ok, ev_W e n hn 1]
  dsimp only
  congr 2
  refine sum_congr rfl fun i hi => ?_
  rw [← ev_sum e n hn 2, ev_W e n hn 2, sum_mul]
  refine sum_congr rfl fun j hj => ?_
  rw [h4 I i j hI (mem_range.1 hi) (mem_range.1 hj)]
  simp only [Coeff.spec, List.mem_cons, List.not_mem_nil, or_false, true_or, or_true, if_true]
  simp [along0, along1, along2, Coeff.grid]
  ring

theorem interpXYZ_eq (X Y Z : ℝ) :
    ∃ f', interpXYZ e n mn mx f X Y Z = .ok (f', ev e (n 0) (fun a => ev e (n 1) (fun b => ev e (n 2)
        (fun c => f.v (ijk (n 1) (n 2) a b c)) (toCheb e (mn 2) (mx 2) Z)) (toCheb e (mn 1) (mx 1) Y))
        (toCheb e (mn 0) (mx 0) X)) ∧
      f'.v = f.v ∧ Coeff.Inv n (extW n) f' := by
  obtain ⟨f', w, h1, h2, h3, h4⟩ := Coeff.make3_ok n (extremaTr n) (extW n) (ext_linear n hn) f hf
  refine ⟨f', ?_, h2, h3⟩
  unfold interpXYZ
  rw [h1, Res.bind_ok, ev_W e n hn 0]
  dsimp only
  congr 2
  refine sum_congr rfl fun i hi => ?_
  rw [← ev_sum e n hn 1, ev_W e n hn 1, sum_mul]
  refine sum_congr rfl fun j hj => ?_
  simp only [← ev_sum e n hn 2]
  rw [ev_W e n hn 2, sum_mul, sum_mul]
  refine sum_congr rfl fun k hk => ?_
  rw [h4 i j k (mem_range.1 hi) (mem_range.1 hj) (mem_range.1 hk)]
  simp only [Coeff.spec, List.mem_cons, List.not_mem_nil, or_false, true_or, or_true, if_true]
  simp [along0, along1, along2, Coeff.grid]
  ring

/-! ### C41 -/

/-- the grid point with index `i` of direction `d` -/
noncomputable abbrev pt (n : Fin 3 → ℕ) (mn mx : Fin 3 → ℝ) (d : Fin 3) (i : ℕ) : ℝ := pointExtrema (mn d) (mx d) (n d) i

/-- the field holds the values of `P` on the grid of the patch -/
def Samples (n : Fin 3 → ℕ) (mn mx : Fin 3 → ℝ) (v : ℕ → ℝ) (P : ℝ → ℝ → ℝ → ℝ) : Prop :=
  ∀ i j k, i < n 0 → j < n 1 → k < n 2 →
    v (ijk (n 1) (n 2) i j k) = P (pt n mn mx 0 i) (pt n mn mx 1 j) (pt n mn mx 2 k)

variable (he : 0 < e) (h2 : e ≤ 2) (hbox : ∀ d, mn d < mx d)
include he h2 hbox

/-- **C41 (X).** Interpolating a field that samples a polynomial of degree < n along X returns the polynomial. -/
theorem C41_exact_X (P : ℝ → ℝ → ℝ → ℝ) (hv : Samples n mn mx f.v P) (hP : ∀ y z, IsPoly (n 0) fun x => P x y z)
    (X : ℝ) (hX : mn 0 ≤ X ∧ X ≤ mx 0) (J K : ℕ) (hJ : J < n 1) (hK : K < n 2) :
    ∃ f', interpX e n mn mx f X J K = .ok (f', P (snap e (mn 0) (mx 0) X) (pt n mn mx 1 J) (pt n mn mx 2 K)) ∧
      f'.v = f.v ∧ Coeff.Inv n (extW n) f' := by
  obtain ⟨f', h1, h3⟩ := interpX_eq e n hn mn mx f hf X J K hJ hK
  refine ⟨f', ?_, h3⟩
  rw [h1, ev_line e he h2 (n 0) (hn 0) _ _ (hbox 0) X hX.1 hX.2 _ (hP (pt n mn mx 1 J) (pt n mn mx 2 K)) _
    (fun j hj => hv j J K hj hJ hK)]

/-- **C41 (Y).** -/
theorem C41_exact_Y (P : ℝ → ℝ → ℝ → ℝ) (hv : Samples n mn mx f.v P) (hP : ∀ x z, IsPoly (n 1) fun y => P x y z)
    (Y : ℝ) (hY : mn 1 ≤ Y ∧ Y ≤ mx 1) (I K : ℕ) (hI : I < n 0) (hK : K < n 2) :
    ∃ f', interpY e n mn mx f Y I K = .ok (f', P (pt n mn mx 0 I) (snap e (mn 1) (mx 1) Y) (pt n mn mx 2 K)) ∧
      f'.v = f.v ∧ Coeff.Inv n (extW n) f' := by
  obtain ⟨f', h1, h3⟩ := interpY_eq e n hn mn mx f hf Y I K hI hK
  refine ⟨f', ?_, h3⟩
  rw [h1, ev_line e he h2 (n 1) (hn 1) _ _ (hbox 1) Y hY.1 hY.2 _ (hP (pt n mn mx 0 I) (pt n mn mx 2 K)) _
    (fun j hj => hv I j K hI hj hK)]

/-- **C41 (Z).** -/
theorem C41_exact_Z (P : ℝ → ℝ → ℝ → ℝ) (hv : Samples n mn mx f.v P) (hP : ∀ x y, IsPoly (n 2) fun z => P x y z)
    (Z : ℝ) (hZ : mn 2 ≤ Z ∧ Z ≤ mx 2) (I J : ℕ) (hI : I < n 0) (hJ : J < n 1) :
    ∃ f', interpZ e n mn mx f Z I J = .ok (f', P (pt n mn mx 0 I) (pt n mn mx 1 J) (snap e (mn 2) (mx 2) Z)) ∧
      f'.v = f.v ∧ Coeff.Inv n (extW n) f' := by
  obtain ⟨f', h1, h3⟩ := interpZ_eq e n hn mn mx f hf Z I J hI hJ
  refine ⟨f', ?_, h3⟩
  rw [h1, ev_line e he h2 (n 2) (hn 2) _ _ (hbox 2) Z hZ.1 hZ.2 _ (hP (pt n mn mx 0 I) (pt n mn mx 1 J)) _
    (fun j hj => hv I J j hI hJ hj)]

/-- **C41 (XY).** -/
theorem C41_exact_XY (P : ℝ → ℝ → ℝ → ℝ) (hv : Samples n mn mx f.v P) (hPx : ∀ y z, IsPoly (n 0) fun x => P x y z)
    (hPy : ∀ x z, IsPoly (n 1) fun y => P x y z)
    (X Y : ℝ) (hX : mn 0 ≤ X ∧ X ≤ mx 0) (hY : mn 1 ≤ Y ∧ Y ≤ mx 1) (K : ℕ) (hK : K < n 2) :
    ∃ f', interpXY e n mn mx f X Y K = .ok (f', P (snap e (mn 0) (mx 0) X) (snap e (mn 1) (mx 1) Y) (pt n mn mx 2 K)) ∧
      f'.v = f.v ∧ Coeff.Inv n (extW n) f' := by
  obtain ⟨f', h1, h3⟩ := interpXY_eq e n hn mn mx f hf X Y K hK
  refine ⟨f', ?_, h3⟩
  rw [h1, ev_line e he h2 (n 0) (hn 0) _ _ (hbox 0) X hX.1 hX.2 _ (hPx (snap e (mn 1) (mx 1) Y) (pt n mn mx 2 K)) _
    (fun a ha => ev_line e he h2 (n 1) (hn 1) _ _ (hbox 1) Y hY.1 hY.2 _ (hPy (pt n mn mx 0 a) (pt n mn mx 2 K)) _
      (fun b hb => hv a b K ha hb hK))]

/-- **C41 (XZ).** -/
theorem C41_exact_XZ (P : ℝ → ℝ → ℝ → ℝ) (hv : Samples n mn mx f.v P) (hPx : ∀ y z, IsPoly (n 0) fun x => P x y z)
    (hPz : ∀ x y, IsPoly (n 2) fun z => P x y z)
    (X Z : ℝ) (hX : mn 0 ≤ X ∧ X ≤ mx 0) (hZ : mn 2 ≤ Z ∧ Z ≤ mx 2) (J : ℕ) (hJ : J < n 1) :
    ∃ f', interpXZ e n mn mx f X Z J = .ok (f', P (snap e (mn 0) (mx 0) X) (pt n mn mx 1 J) (snap e (mn 2) (mx 2) Z)) ∧
      f'.v = f.v ∧ Coeff.Inv n (extW n) f' := by
  obtain ⟨f', h1, h3⟩ := interpXZ_eq e n hn mn mx f hf X Z J hJ
  refine ⟨f', ?_, h3⟩
  rw [h1, ev_line e he h2 (n 0) (hn 0) _ _ (hbox 0) X hX.1 hX.2 _ (hPx (pt n mn mx 1 J) (snap e (mn 2) (mx 2) Z)) _
    (fun a ha => ev_line e he h2 (n 2) (hn 2) _ _ (hbox 2) Z hZ.1 hZ.2 _ (hPz (pt n mn mx 0 a) (pt n mn mx 1 J)) _
      (fun c hc => hv a J c ha hJ hc))]

/-- **C41 (YZ).** -/
theorem C41_exact_YZ (P : ℝ → ℝ → ℝ → ℝ) (hv : Samples n mn mx f.v P) (hPy : ∀ x z, IsPoly (n 1) fun y => P x y z)
    (hPz : ∀ x y, IsPoly (n 2) fun z => P x y z)
    (Y Z : ℝ) (hY : mn 1 ≤ Y ∧ Y ≤ mx 1) (hZ : mn 2 ≤ Z ∧ Z ≤ mx 2) (I : ℕ) (hI : I < n 0) :
    ∃ f', interpYZ e n mn mx f Y Z I = .ok (f', P (pt n mn mx 0 I) (snap e (mn 1) (mx 1) Y) (snap e (mn 2) (mx 2) Z)) ∧
      f'.v = f.v ∧ Coeff.Inv n (extW n) f' := by
  obtain ⟨f', h1, h3⟩ := interpYZ_eq e n hn mn mx f hf Y Z I hI
  refine ⟨f', ?_, h3⟩
  rw [h1, ev_line e he h2 (n 1) (hn 1) _ _ (hbox 1) Y hY.1 hY.2 _ (hPy (pt n mn mx 0 I) (snap e (mn 2) (mx 2) Z)) _
    (fun b hb => ev_line e he h2 (n 2) (hn 2) _ _ (hbox 2) Z hZ.1 hZ.2 _ (hPz (pt n mn mx 0 I) (pt n mn mx 1 b)) _
      (fun c hc => hv I b c hI hb hc))]

/-- **C41 (XYZ).** Interpolating a field that samples a polynomial of degree < n_d along each direction returns the
polynomial at the (round-off snapped) point, whatever state the coefficient cache is in, and leaves the values and the
consistency of the cache untouched. -/
theorem C41_exact_XYZ (P : ℝ → ℝ → ℝ → ℝ) (hv : Samples n mn mx f.v P) (hPx : ∀ y z, IsPoly (n 0) fun x => P x y z)
    (hPy : ∀ x z, IsPoly (n 1) fun y => P x y z) (hPz : ∀ x y, IsPoly (n 2) fun z => P x y z)
    (X Y Z : ℝ) (hX : mn 0 ≤ X ∧ X ≤ mx 0) (hY : mn 1 ≤ Y ∧ Y ≤ mx 1) (hZ : mn 2 ≤ Z ∧ Z ≤ mx 2) :
    ∃ f', interpXYZ e n mn mx f X Y Z =
        .ok (f', P (snap e (mn 0) (mx 0) X) (snap e (mn 1) (mx 1) Y) (snap e (mn 2) (mx 2) Z)) ∧
      f'.v = f.v ∧ Coeff.Inv n (extW n) f' := by
  obtain ⟨f', h1, h3⟩ := interpXYZ_eq e n hn mn mx f hf X Y Z
  refine ⟨f', ?_, h3⟩
  rw [h1, ev_line e he h2 (n 0) (hn 0) _ _ (hbox 0) X hX.1 hX.2 _
    (hPx (snap e (mn 1) (mx 1) Y) (snap e (mn 2) (mx 2) Z)) _
    (fun a ha => ev_line e he h2 (n 1) (hn 1) _ _ (hbox 1) Y hY.1 hY.2 _
      (hPy (pt n mn mx 0 a) (snap e (mn 2) (mx 2) Z)) _
      (fun b hb => ev_line e he h2 (n 2) (hn 2) _ _ (hbox 2) Z hZ.1 hZ.2 _ (hPz (pt n mn mx 0 a) (pt n mn mx 1 b)) _
        (fun c hc => hv a b c ha hb hc)))]

/-- **C41 (collocation points).** Whatever the data, interpolation at a grid point returns the value stored there.  The
number of points must not be so large that neighbouring points coincide within round-off (e (n-1)² ≤ 2). -/
theorem C41_node (hsep : ∀ d, e * ((n d : ℝ) - 1) ^ 2 ≤ 2) (i j k : ℕ) (hi : i < n 0) (hj : j < n 1) (hk : k < n 2) :
    ∃ f', interpXYZ e n mn mx f (pt n mn mx 0 i) (pt n mn mx 1 j) (pt n mn mx 2 k) =
        .ok (f', f.v (ijk (n 1) (n 2) i j k)) ∧ f'.v = f.v ∧ Coeff.Inv n (extW n) f' := by
  obtain ⟨f', h1, h3⟩ := interpXYZ_eq e n hn mn mx f hf (pt n mn mx 0 i) (pt n mn mx 1 j) (pt n mn mx 2 k)
  refine ⟨f', ?_, h3⟩
  rw [h1, ev_node e he h2 (n 0) (hn 0) (hsep 0) _ _ (hbox 0) _ i hi, ev_node e he h2 (n 1) (hn 1) (hsep 1) _ _ (hbox 1) _ j hj,
    ev_node e he h2 (n 2) (hn 2) (hsep 2) _ _ (hbox 2) _ k hk]

end

/-- a field holding x²y³z⁴ on a 5x5x5 grid of [0,1]³, no coefficients yet -/
noncomputable def demo : Coeff.St ℝ :=
  ⟨fun l => (pointExtrema 0 1 5 (toI 5 5 l)) ^ 2 * (pointExtrema 0 1 5 (toJ 5 5 l)) ^ 3 * (pointExtrema 0 1 5 (toK 5 5 l)) ^ 4,
    none, none⟩

theorem demo_samples : Samples (fun _ => 5) (fun _ => 0) (fun _ => 1) demo.v (fun x y z => x ^ 2 * y ^ 3 * z ^ 4) := by
  intro i j k hi hj hk
  obtain ⟨a, b, c⟩ := C10_decode_encode 5 5 i j k hj hk
  simp only [demo, a, b, c]

theorem demo_snap : snap 1e-12 0 1 (1 / 2) = 1 / 2 := by
  unfold snap
  have e1 : Tol.eql (1e-12 : ℝ) ((1 / 2 * 2 - (1 + 0)) / (-1 + 0)) 1 = false := by norm_num [Tol.eql]
  have e2 : Tol.eql (1e-12 : ℝ) ((1 / 2 * 2 - (1 + 0)) / (-1 + 0)) (-1) = false := by norm_num [Tol.eql]
  rw [e1, e2]; simp

/-- The hypotheses are met with ROUND_OFF_ERR = 1e-12. -/
example : ∃ f', interpXYZ (1e-12) (fun _ => 5) (fun _ => 0) (fun _ => 1) demo (1 / 2) (1 / 2) (1 / 2) =
    .ok (f', 1 / 512) := by
  obtain ⟨f', h, -⟩ := C41_exact_XYZ 1e-12 (fun _ => 5) (by decide) (fun _ => 0) (fun _ => 1) demo (Or.inl rfl)
    (by norm_num) (by norm_num) (by intro d; norm_num) _ demo_samples
    (fun y z => ⟨C (y ^ 3 * z ^ 4) * Polynomial.X ^ 2, lt_of_le_of_lt (degree_C_mul_X_pow_le 2 _) (by norm_num), by intro x; simp; ring⟩)
    (fun x z => ⟨C (x ^ 2 * z ^ 4) * Polynomial.X ^ 3, lt_of_le_of_lt (degree_C_mul_X_pow_le 3 _) (by norm_num), by intro x; simp; ring⟩)
    (fun x y => ⟨C (x ^ 2 * y ^ 3) * Polynomial.X ^ 4, lt_of_le_of_lt (degree_C_mul_X_pow_le 4 _) (by norm_num), by intro x; simp⟩)
    (1 / 2) (1 / 2) (1 / 2) (by norm_num) (by norm_num) (by norm_num)
  refine ⟨f', h.trans ?_⟩
  rw [demo_snap]; norm_num

example (i j k : ℕ) (hi : i < 5) (hj : j < 5) (hk : k < 5) : ∃ f', interpXYZ (1e-12) (fun _ => 5) (fun _ => 0) (fun _ => 1) demo
    (pointExtrema 0 1 5 i) (pointExtrema 0 1 5 j) (pointExtrema 0 1 5 k) = .ok (f', demo.v (ijk 5 5 i j k)) := by
  obtain ⟨f', h, -⟩ := C41_node 1e-12 (fun _ => 5) (by decide) (fun _ => 0) (fun _ => 1) demo (Or.inl rfl)
    (by norm_num) (by norm_num) (by intro d; norm_num) (by intro d; norm_num) i j k hi hj hk
  exact ⟨f', h⟩

/-- **C41 (nodes transformation).** The coefficients computed for Chebyshev-nodes data reproduce the data at the nodes:
c_0 + 2 Σ c_i T_i. -/
theorem C41_nodes_transform (n : ℕ) (v : ℕ → ℝ) (l : ℕ) (hl : l < n) :
    ∑ i ∈ range n, nodesCoeff n v i * ((if i = 0 then 1 else 2) * (Chebyshev.T ℝ i).eval (pointNodes 1 (-1) n l)) = v l := by
  rw [← nodes_reproduce n (by omega) v l hl]
  refine sum_congr rfl fun i _ => ?_
  have : pointNodes 1 (-1) n l = cos ((l + 0.5) * π / n) := by unfold pointNodes; ring_nf
  rw [this, Chebyshev.T_real_cos, kapN]; push_cast; rfl

example : ∑ i ∈ range 3, nodesCoeff 3 (fun j => (j : ℝ) ^ 2) i *
    ((if i = 0 then 1 else 2) * (Chebyshev.T ℝ i).eval (pointNodes 1 (-1) 3 2)) = 4 := by
  rw [C41_nodes_transform 3 _ 2 (by norm_num)]; norm_num

/-! ### C43: the Chebyshev functions are the Chebyshev polynomials and their derivatives -/

/-- **C43 (T).** `Cheb_Tn(n,x)` is the n-th Chebyshev polynomial of the first kind. -/
theorem C43_T (e : ℝ) (he : 0 < e) (h2 : e ≤ 2) (n : ℕ) (x : ℝ) (hx : Snapped e x) :
    chebT e n x = (Chebyshev.T ℝ n).eval x := chebT_eval e he h2 n x hx

theorem sin_arccos_ne {e x : ℝ} (he : 0 < e) (h1 : Tol.eql e x 1 = false) (h2 : Tol.eql e x (-1) = false) (h3 : -1 ≤ x)
    (h4 : x ≤ 1) : sin (arccos x) ≠ 0 ∧ x ^ 2 < 1 := by
  have a : x ≠ 1 := by rintro rfl; rw [eql_self e 1 he] at h1; cases h1
  have b : x ≠ -1 := by rintro rfl; rw [eql_self e (-1) he] at h2; cases h2
  have h3' : -1 < x := lt_of_le_of_ne h3 (Ne.symm b)
  have h4' : x < 1 := lt_of_le_of_ne h4 a
  have : x ^ 2 < 1 := by nlinarith
  refine ⟨?_, this⟩
  rw [Real.sin_arccos]
  exact (Real.sqrt_pos.2 (by linarith)).ne'

/-- **C43 (U).** `Cheb_Un(n,x)` is the n-th Chebyshev polynomial of the second kind. -/
theorem C43_U (e : ℝ) (he : 0 < e) (h2 : e ≤ 2) (n : ℤ) (x : ℝ) (hx : Snapped e x) :
    chebU e n x = (Chebyshev.U ℝ n).eval x := by
  unfold chebU
  by_cases h0 : n = 0
  · simp [h0]
  · rw [if_neg h0]
    rcases hx with rfl | rfl | ⟨h3, h4, h5, h6⟩
    · rw [if_pos (eql_self e 1 he), Chebyshev.U_eval_one]
    · rw [if_neg (by simp [eql_neg_one e h2]), if_pos (eql_self e (-1) he), Chebyshev.U_eval_neg_one, negOnePow_real]
      split <;> ring
    · rw [if_neg (by simp [h3]), if_neg (by simp [h4])]
      have hs := (sin_arccos_ne he h3 h4 h5 h6).1
      have := Chebyshev.U_real_cos (arccos x) n
      rw [Real.cos_arccos h5 h6] at this
      rw [← this]; field_simp

/-- **C43 (first derivative).** `dCheb_Tn_dx(n,x)` is the derivative of the n-th Chebyshev polynomial. -/
theorem C43_dT (e : ℝ) (he : 0 < e) (h2 : e ≤ 2) (n : ℕ) (x : ℝ) (hx : Snapped e x) :
    dChebT e n x = (derivative (Chebyshev.T ℝ n)).eval x := by
  unfold dChebT
  rw [C43_U e he h2 _ x hx, Chebyshev.T_derivative_eq_U]
  simp

/-- **C43 (second derivative).** `d2Cheb_Tn_dx2(n,x)` is the second derivative of the n-th Chebyshev polynomial. -/
theorem C43_d2T (e : ℝ) (he : 0 < e) (h2 : e ≤ 2) (n : ℕ) (x : ℝ) (hx : Snapped e x) :
    d2ChebT e n x = (derivative (derivative (Chebyshev.T ℝ n))).eval x := by
  have hode := congrArg (eval x) (Chebyshev.one_sub_X_sq_mul_derivative_derivative_T_eq_poly_in_T (R := ℝ) n)
  have hode' := congrArg (fun p => eval x (derivative p))
    (Chebyshev.one_sub_X_sq_mul_derivative_derivative_T_eq_poly_in_T (R := ℝ) n)
  have hc : derivative ((n : ℝ[X]) ^ 2) = 0 := by
    rw [← Nat.cast_pow]; exact derivative_natCast
  simp [hc] at hode hode'
  unfold d2ChebT
  by_cases h0 : n = 0 ∨ n = 1
  · rw [if_pos h0]
    rcases h0 with rfl | rfl <;> simp
  · rw [if_neg h0]
    by_cases h1 : n = 2
    · rw [if_pos h1, h1]
      simp [Chebyshev.T_two]
      norm_num
    · rw [if_neg h1]
      have hT : (derivative (Chebyshev.T ℝ n)).eval x = n * (Chebyshev.U ℝ ((n : ℤ) - 1)).eval x := by
        rw [Chebyshev.T_derivative_eq_U]; simp
      rcases hx with rfl | rfl | ⟨h3, h4, h5, h6⟩
      · rw [if_pos (eql_self e 1 he)]
        rw [Chebyshev.U_eval_one] at hT
        push_cast at hT
        rw [hT] at hode'
        linarith
      · rw [if_neg (by simp [eql_neg_one e h2]), if_pos (eql_self e (-1) he)]
        rw [Chebyshev.U_eval_neg_one, negOnePow_real] at hT
        push_cast at hT
        rw [hT] at hode'
        split at hode' <;> split <;> first | omega | linarith
      · rw [if_neg (by simp [h3]), if_neg (by simp [h4])]
        have hq := (sin_arccos_ne he h3 h4 h5 h6).2
        have hx : Snapped e x := Or.inr (Or.inr ⟨h3, h4, h5, h6⟩)
        rw [C43_T e he h2 n x hx, C43_U e he h2 n x hx]
        have hU := congrArg (eval x) (Chebyshev.T_eq_U_sub_X_mul_U ℝ n)
        simp at hU
        rw [hT] at hode
        rw [div_eq_iff (by nlinarith)]
        linear_combination hode + n * hU

/-- The hypotheses are met: any point of [-1,1] that is an end point or further than round-off from both. -/
example : Snapped 1e-12 0.3 ∧ Snapped 1e-12 1 ∧ Snapped 1e-12 (-1) := by
  refine ⟨Or.inr (Or.inr ?_), Or.inl rfl, Or.inr (Or.inl rfl)⟩
  norm_num [Tol.eql]

end Elliptica.Cheb
