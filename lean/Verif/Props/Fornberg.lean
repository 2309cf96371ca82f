import Verif.Lemmas.Fornberg
import Mathlib.Algebra.Order.Field.Rat
import Mathlib.Algebra.Order.Field.Basic
/-!
C56: finite differences on an arbitrary grid (`finite_difference_Fornberg`).
-/
namespace Elliptica.Fornberg
open Polynomial Finset

variable {K : Type} [Field K] [LinearOrder K] [IsStrictOrderedRing K]

/-- an ordered grid of Nx points -/
def Increasing (Nx : ℕ) (x : ℕ → K) : Prop := ∀ i j, i < j → j < Nx → x i < x j

omit [Field K] [IsStrictOrderedRing K] in
theorem Increasing.le {Nx : ℕ} {x : ℕ → K} (hx : Increasing Nx x) (i j : ℕ) (h : i ≤ j) (hj : j < Nx) : x i ≤ x j := by
  rcases Nat.lt_or_eq_of_le h with h | h
  · exact (hx i j h hj).le
  · rw [h]

omit [Field K] [IsStrictOrderedRing K] in
theorem Increasing.inj {Nx off N : ℕ} {x : ℕ → K} (hx : Increasing Nx x) (h : off + N < Nx) :
    Set.InjOn (fun j => x (off + j)) (range (N + 1) : Finset ℕ) := by
  intro a ha b hb hab
  simp only [coe_range, Set.mem_Iio] at ha hb
  dsimp only at hab
  by_contra hne
  rcases Nat.lt_or_gt_of_ne hne with hl | hl
  · exact absurd hab (hx (off + a) (off + b) (by omega) (by omega)).ne
  · exact absurd hab (hx (off + b) (off + a) (by omega) (by omega)).ne'

variable (f x : ℕ → K) (x0 : K) (Nx order acc : ℕ)

/-- the index of the first point used -/
noncomputable def start : ℕ := min (search x x0 (Nx - 1) 0 - (acc + order - 1) / 2) (Nx - 1 - (acc + order - 1))

omit [IsStrictOrderedRing K] in
/-- the value returned, with the table still in it -/
theorem run_eq (g : Tab K) (hx : Increasing Nx x) (h0 : 0 < acc + order) (h1 : acc + order ≤ 100) (h2 : acc + order < Nx) :
    fornberg g f x x0 Nx order acc = .ok (∑ v ∈ range (acc + order),
      table (fun j => x (start x x0 Nx order acc + j)) x0 order (acc + order - 1) g order (acc + order - 1) v *
        f (start x x0 Nx order acc + v)) := by
  obtain ⟨_, s2, _, _⟩ := search_spec x x0 (Nx - 1) 0
  obtain ⟨w1, _⟩ := window_spec Nx (acc + order - 1) (search x x0 (Nx - 1) 0) (by omega) (by omega)
  have hw : (window Nx (acc + order - 1) (search x x0 (Nx - 1) 0)).1.toNat = start x x0 Nx order acc := by
    rw [w1]; rfl
  have hs : start x x0 Nx order acc ≤ Nx - 1 - (acc + order - 1) := min_le_right _ _
  unfold fornberg
  rw [if_neg (by omega)]
  dsimp only
  rw [if_neg (by omega), if_neg (by omega), if_neg (by rw [w1]; simp only [ge_iff_le, not_le, not_lt]; exact Int.natCast_nonneg _)]
  rw [hw, if_neg (by omega), if_neg, foldl_sum, show acc + order - 1 + 1 = acc + order by omega]
  simp only [List.any_eq_true, List.mem_range, decide_eq_true_eq, not_exists, not_and]
  intro i hi j hj
  exact (hx _ _ (by omega) (by omega)).ne'

omit [IsStrictOrderedRing K] in
/-- C56: with a grid of more than acc + m increasing points (acc ≥ 1, acc + m ≤ 100), the m-th derivative of every
polynomial of degree below acc + m is returned exactly — for every point x0, every order m, whatever the uninitialised
memory contains -/
theorem C56_exact (g : Tab K) (hx : Increasing Nx x) (ha : 0 < acc) (h1 : acc + order ≤ 100) (h2 : acc + order < Nx)
    (p : K[X]) (hp : p.degree < (acc + order : ℕ)) (hf : ∀ j, j < Nx → f j = p.eval (x j)) :
    fornberg g f x x0 Nx order acc = .ok ((derivative^[order] p).eval x0) := by
  rw [run_eq f x x0 Nx order acc g hx (by omega) h1 h2]
  have hs : start x x0 Nx order acc ≤ Nx - 1 - (acc + order - 1) := min_le_right _ _
  generalize hoff : start x x0 Nx order acc = off at hs ⊢
  have hinj := hx.inj (off := off) (N := acc + order - 1) (by omega)
  have T := table_spec (fun j => x (off + j)) x0 order (acc + order - 1) hinj g
  congr 1
  have hI := Lagrange.eq_interpolate hinj (f := p) (by simp only [card_range]; rwa [show acc + order - 1 + 1 = acc + order by omega])
  rw [hI, Lagrange.interpolate_apply, iterate_derivative_sum, eval_finsetSum, show acc + order - 1 + 1 = acc + order by omega]
  apply sum_congr rfl
  intro v hv
  rw [mem_range] at hv
  rw [T order v (by omega) (by omega), iterate_derivative_C_mul, eval_mul, eval_C, hf _ (by omega), mul_comm]
  unfold dv lb
  rw [show acc + order - 1 + 1 = acc + order by omega]

omit [IsStrictOrderedRing K] in
/-- C56: the result is a weighted sum of acc + m samples next to each other, all inside the table; the weights depend
only on those grid points, and on no uninitialised memory -/
theorem C56_window (hx : Increasing Nx x) (ha : 0 < acc) (h1 : acc + order ≤ 100) (h2 : acc + order < Nx) :
    ∃ (off : ℕ) (w : ℕ → K), off + (acc + order) ≤ Nx ∧
      (x 0 ≤ x0 → x0 ≤ x (Nx - 1) → 2 ≤ acc + order → x off ≤ x0 ∧ x0 ≤ x (off + (acc + order) - 1)) ∧
      ∀ (g : Tab K) (f : ℕ → K), fornberg g f x x0 Nx order acc = .ok (∑ v ∈ range (acc + order), w v * f (off + v)) := by
  have hs : start x x0 Nx order acc ≤ Nx - 1 - (acc + order - 1) := min_le_right _ _
  refine ⟨start x x0 Nx order acc, fun v => dv order x0 (lb (fun j => x (start x x0 Nx order acc + j)) (acc + order - 1) v),
    by omega, ?_, ?_⟩
  · intro hlo hhi h3
    obtain ⟨_, s2, s3, s4⟩ := search_spec x x0 (Nx - 1) 0
    have hfound : search x x0 (Nx - 1) 0 < Nx - 1 := by
      by_contra hcon
      have hno : ∀ j, j < Nx - 1 → ¬ (x j ≤ x0 ∧ x0 ≤ x (j + 1)) := fun j hj => s4 j (by omega) (by omega)
      have hlt : ∀ j, j < Nx - 1 → x (j + 1) < x0 := by
        intro j
        induction j with
        | zero => intro hj; by_contra hc; exact hno 0 hj ⟨hlo, not_lt.1 hc⟩
        | succ j ih => intro hj; by_contra hc; exact hno (j + 1) hj ⟨(ih (by omega)).le, not_lt.1 hc⟩
      have := hlt (Nx - 2) (by omega)
      rw [show Nx - 2 + 1 = Nx - 1 by omega] at this
      exact absurd hhi (not_le.2 this)
    obtain ⟨a1, a2⟩ := s3 (by omega)
    have e : start x x0 Nx order acc = min (search x x0 (Nx - 1) 0 - (acc + order - 1) / 2) (Nx - 1 - (acc + order - 1)) := rfl
    generalize search x x0 (Nx - 1) 0 = k at *
    generalize start x x0 Nx order acc = off at *
    refine ⟨(hx.le off k (by omega) (by omega)).trans a1, a2.trans (hx.le (k + 1) _ (by omega) (by omega))⟩
  · intro g f
    rw [run_eq f x x0 Nx order acc g hx (by omega) h1 h2]
    generalize start x x0 Nx order acc = off at hs ⊢
    have T := table_spec (fun j => x (off + j)) x0 order (acc + order - 1) (hx.inj (off := off) (by omega)) g
    congr 1
    apply sum_congr rfl
    intro v hv
    rw [mem_range] at hv
    rw [T order v (by omega) (by omega)]

omit [IsStrictOrderedRing K] in
/-- C56: a table with too few points is refused -/
theorem C56_refuse (g : Tab K) (h0 : 0 < acc + order) (h : Nx ≤ acc + order) : fornberg g f x x0 Nx order acc = .abort := by
  unfold fornberg
  rw [if_neg (by omega)]
  dsimp only
  split
  · rfl
  · rw [if_pos (by omega)]

/-- ten points of a non-uniform grid, the fourth derivative of t^6 at an interior grid point -/
def squares (j : ℕ) : ℚ := (j : ℚ) ^ 2

theorem squares_inc (Nx : ℕ) : Increasing Nx squares := by
  intro i j hij _
  unfold squares
  have h1 : (i : ℚ) < j := by exact_mod_cast hij
  have h2 : (0 : ℚ) ≤ i := by positivity
  nlinarith

theorem squares_deg : (X ^ 6 : ℚ[X]).degree < ((3 + 4 : ℕ) : WithBot ℕ) := by
  rw [degree_X_pow]; norm_num

theorem squares_der : ((derivative^[4] (X ^ 6 : ℚ[X])).eval 9) = 29160 := by
  rw [iterate_derivative_X_pow_eq_natCast_mul]
  simp only [eval_mul, eval_natCast, eval_pow, eval_X]
  norm_num [Nat.descFactorial]

example (g : Tab ℚ) : fornberg g (fun j => squares j ^ 6) squares 9 10 4 3 = .ok 29160 := by
  rw [← squares_der]
  exact C56_exact _ squares 9 10 4 3 g (squares_inc 10) (by norm_num) (by norm_num) (by norm_num) _ squares_deg
    (by intro j _; simp)

/-! ### what the code does not do -/

/-- a uniform grid 0,1,2,…  -/
def grid (j : ℕ) : ℚ := j

omit [IsStrictOrderedRing K] in
/-- C56 (central differences): "x0 must be one of the grid points" and "if we have enough points on either side of the
desired point x0, we can use a central finite difference" — but for x0 = x i, i ≥ 1, the points used begin at
i - 1 - N/2, so with an odd number N + 1 of points they lie one to the left of the centred ones -/
theorem C56_central_violation (hx : Increasing Nx x) (ha : 0 < acc) (h1 : acc + order ≤ 100) (h2 : acc + order < Nx) (i r : ℕ)
    (hr : acc + order = 2 * r + 1) (hi : r + 1 ≤ i) (hi2 : i + r < Nx) : start x (x i) Nx order acc = i - r - 1 := by
  obtain ⟨_, s2, s3, s4⟩ := search_spec x (x i) (Nx - 1) 0
  have hk : search x (x i) (Nx - 1) 0 = i - 1 := by
    have hle : search x (x i) (Nx - 1) 0 ≤ i - 1 := by
      by_contra hc
      refine s4 (i - 1) (by omega) (by omega) ⟨(hx _ _ (by omega) (by omega)).le, ?_⟩
      rw [show i - 1 + 1 = i by omega]
    obtain ⟨_, a2⟩ := s3 (by omega)
    by_contra hc
    exact absurd a2 (not_le.2 (hx _ _ (by omega) (by omega)))
  unfold start
  rw [hk]
  omega

/-- the first derivative of second order at the middle of five points: the one-sided formula, for every f -/
theorem C56_central_violation_ex (g : Tab ℚ) (f : ℕ → ℚ) :
    fornberg g f grid 2 5 1 2 = .ok ((f 0 - 4 * f 1 + 3 * f 2) / 2) := by
  have hx : Increasing 5 grid := by intro i j h _; unfold grid; exact_mod_cast h
  have hst : start grid 2 5 1 2 = 0 := by
    have := C56_central_violation grid 5 1 2 hx (by norm_num) (by norm_num) (by norm_num) 2 1 rfl (by norm_num) (by norm_num)
    simpa [grid] using this
  rw [run_eq f grid 2 5 1 2 g hx (by norm_num) (by norm_num) (by norm_num), hst]
  have T : ∀ v, v ≤ 2 → table (fun j => grid (0 + j)) 2 1 2 g 1 2 v = dv 1 2 (lb (fun j => grid (0 + j)) 2 v) :=
    fun v hv => table_spec _ 2 1 2 (hx.inj (off := 0) (by norm_num)) g 1 v (by norm_num) hv
  congr 1
  have e0 : table (fun j => grid (0 + j)) 2 1 2 g 1 2 0 = 1 / 2 := by
    rw [T 0 (by norm_num), lb, Lagrange.basis, show (range (2 + 1)).erase 0 = {1, 2} by decide]
    simp [dv, Lagrange.basisDivisor, grid]; norm_num
  have e1 : table (fun j => grid (0 + j)) 2 1 2 g 1 2 1 = -2 := by
    rw [T 1 (by norm_num), lb, Lagrange.basis, show (range (2 + 1)).erase 1 = {0, 2} by decide]
    simp [dv, Lagrange.basisDivisor, grid]; norm_num
  have e2 : table (fun j => grid (0 + j)) 2 1 2 g 1 2 2 = 3 / 2 := by
    rw [T 2 (by norm_num), lb, Lagrange.basis, show (range (2 + 1)).erase 2 = {0, 1} by decide]
    simp [dv, Lagrange.basisDivisor, grid]; norm_num
  simp only [sum_range_succ, range_zero, sum_empty]
  norm_num at e0 e1 e2 ⊢
  rw [e0, e1, e2]
  ring

/-- C56 (domain): a point outside of the grid is not refused although the code has an error message for it -/
theorem C56_outside_violation : fornberg (fun _ _ _ => (0 : ℚ)) (fun _ => 5) grid 100 4 1 1 = .ok 0 := by
  have hx : Increasing 4 grid := by intro i j h _; unfold grid; exact_mod_cast h
  have h := C56_exact (fun _ => 5) grid 100 4 1 1 (fun _ _ _ => 0) hx (by norm_num) (by norm_num) (by norm_num) (C 5)
    (lt_of_le_of_lt degree_C_le (by decide)) (by intro j _; simp)
  rw [h]; simp

/-- C56 (enough points): acc + m points determine the derivative, but a table of exactly acc + m points is refused -/
theorem C56_points_violation (g : Tab ℚ) (f : ℕ → ℚ) : fornberg g f grid 0 2 1 1 = .abort :=
  C56_refuse f grid 0 2 1 1 g (by norm_num) (by norm_num)

/-- C56 (accuracy 0): an entry of the table that was never written is returned -/
theorem C56_acc_violation (a : ℚ) : fornberg (fun _ _ _ => a) (fun _ => 1) grid 1 4 1 0 = .ok a := by
  have hx : Increasing 4 grid := by intro i j h _; unfold grid; exact_mod_cast h
  rw [run_eq _ grid 1 4 1 0 _ hx (by norm_num) (by norm_num) (by norm_num)]
  simp [table, put]

/-- C56: accuracy 0 of order 0 is a zero-length array -/
theorem C56_zero_violation (g : Tab ℚ) (f : ℕ → ℚ) : fornberg g f grid 1 4 0 0 = .ub := rfl

end Elliptica.Fornberg
