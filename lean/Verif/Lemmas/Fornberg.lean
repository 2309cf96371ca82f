import Verif.Model.Fornberg
import Mathlib.LinearAlgebra.Lagrange
import Mathlib.Algebra.Polynomial.Derivative
import Mathlib.Tactic.Ring
import Mathlib.Tactic.LinearCombination
import Mathlib.Tactic.FieldSimp
/-! Helper lemmas for the finite-difference weights -/
namespace Elliptica.Fornberg
open Polynomial Finset

variable {K : Type} [Field K] [LinearOrder K]
set_option linter.unusedSectionVars false

/-- m-th derivative at x0 -/
noncomputable def dv (m : ℕ) (x0 : K) (p : K[X]) : K := (derivative^[m] p).eval x0

theorem dv_lin (m : ℕ) (x0 a b : K) (p : K[X]) :
    dv m x0 (C b * (X - C a) * p) = b * ((x0 - a) * dv m x0 p + m * dv (m - 1) x0 p) := by
  have : C b * (X - C a) * p = C b * (p * X - C a * p) := by ring
  unfold dv
  rw [this, iterate_derivative_C_mul, iterate_derivative_sub, iterate_derivative_mul_X, iterate_derivative_C_mul]
  simp only [eval_mul, eval_C, eval_sub, eval_add, eval_X, eval_smul, nsmul_eq_mul, eval_natCast]
  ring

/-- the v-th Lagrange basis polynomial on α_0..α_n -/
noncomputable def lb (al : ℕ → K) (n v : ℕ) : K[X] := Lagrange.basis (range (n + 1)) al v

theorem lb_step (al : ℕ → K) (p v : ℕ) (hv : v ≤ p) :
    lb al (p + 1) v = C (-(al (p + 1) - al v)⁻¹) * (X - C (al (p + 1))) * lb al p v := by
  unfold lb Lagrange.basis
  have he : (range (p + 1 + 1)).erase v = insert (p + 1) ((range (p + 1)).erase v) := by
    ext j; simp only [mem_erase, mem_range, mem_insert]; omega
  have hn : p + 1 ∉ (range (p + 1)).erase v := by simp
  rw [he, prod_insert hn]
  congr 1
  unfold Lagrange.basisDivisor
  congr 2
  rw [← neg_sub, inv_neg]

theorem basis_last (al : ℕ → K) (n : ℕ) : lb al n n = ∏ j ∈ range n, Lagrange.basisDivisor (al n) (al j) := by
  unfold lb Lagrange.basis
  congr 1
  ext j; simp only [mem_erase, mem_range]; omega

theorem lb_last_prod (al : ℕ → K) (n : ℕ) :
    lb al n n = C (∏ j ∈ range n, (al n - al j))⁻¹ * ∏ j ∈ range n, (X - C (al j)) := by
  rw [basis_last]
  unfold Lagrange.basisDivisor
  rw [prod_mul_distrib]
  simp [← map_prod, prod_inv_distrib]

theorem lb_diag (al : ℕ → K) (p : ℕ) (h1 : (∏ j ∈ range p, (al p - al j)) ≠ 0) :
    lb al (p + 1) (p + 1) =
      C ((∏ j ∈ range p, (al p - al j)) / ∏ j ∈ range (p + 1), (al (p + 1) - al j)) * (X - C (al p)) * lb al p p := by
  rw [lb_last_prod, lb_last_prod, prod_range_succ (fun j => X - C (al j)), div_eq_mul_inv, map_mul]
  have : C (∏ j ∈ range p, (al p - al j)) * C (∏ j ∈ range p, (al p - al j))⁻¹ = (1 : K[X]) := by
    rw [← map_mul, mul_inv_cancel₀ h1, map_one]
  linear_combination (-(C (∏ j ∈ range (p + 1), (al (p + 1) - al j))⁻¹ * (∏ j ∈ range p, (X - C (al j))) * (X - C (al p)))) * this

theorem dv_big (al : ℕ → K) (n v : ℕ) (hinj : Set.InjOn al (range (n + 1) : Finset ℕ)) (hv : v ≤ n) (x0 : K) :
    dv (n + 1) x0 (lb al n v) = 0 := by
  unfold dv
  rw [iterate_derivative_eq_zero]
  · simp
  · unfold lb
    rw [Lagrange.natDegree_basis hinj (by simp; omega)]
    simp

@[simp] theorem put_self (t : Tab K) (m n v : ℕ) (a : K) : put t m n v a m n v = a := by simp [put]
theorem put_ne (t : Tab K) (m n v m' n' v' : ℕ) (a : K) (h : ¬ (m' = m ∧ n' = n ∧ v' = v)) :
    put t m n v a m' n' v' = t m' n' v' := by simp only [put]; exact if_neg h

/-- a loop that fills column (·, n, v) reading only the row before -/
theorem fill (n v : ℕ) (hn : 0 < n) (G : Tab K → ℕ → K)
    (hG : ∀ t t' : Tab K, (∀ m w, t m (n - 1) w = t' m (n - 1) w) → ∀ i, G t i = G t' i) (k : ℕ) (t : Tab K) :
    let r := (List.range k).foldl (fun t i => put t (i + 1) n v (G t i)) t
    (∀ m, m < k → r (m + 1) n v = G t m) ∧
      ∀ m' n' v', ¬ (n' = n ∧ v' = v ∧ 0 < m' ∧ m' ≤ k) → r m' n' v' = t m' n' v' := by
  induction k with
  | zero => simp
  | succ k ih =>
    rw [List.range_succ, List.foldl_append, List.foldl_cons, List.foldl_nil]
    dsimp only at ih ⊢
    obtain ⟨h1, h2⟩ := ih
    have hrow : ∀ m w, (List.foldl (fun t i => put t (i + 1) n v (G t i)) t (List.range k)) m (n - 1) w = t m (n - 1) w := by
      intro m w; exact h2 _ _ _ (by omega)
    refine ⟨?_, ?_⟩
    · intro m hm
      by_cases h : m = k
      · subst h; rw [put_self]; exact hG _ _ hrow _
      · rw [put_ne _ _ _ _ _ _ _ _ (by omega)]; exact h1 m (by omega)
    · intro m' n' v' h
      rw [put_ne _ _ _ _ _ _ _ _ (by omega)]; exact h2 _ _ _ (by omega)

section levels
variable (al : ℕ → K) (x0 : K) (M : ℕ)

/-- what is known of row n of the table after its level -/
def Row (n : ℕ) (t : Tab K) : Prop := ∀ m v, m ≤ min n M → v ≤ n → t m n v = dv m x0 (lb al n v)

theorem inM_eq (c3 : K) (n v : ℕ) : inM al x0 c3 n v = fun t i => put t (i + 1) n v
    (((al n - x0) * t (i + 1) (n - 1) v - ((i + 1 : ℕ) : K) * t i (n - 1) v) / c3) := rfl

theorem diM_eq (q : K) (n : ℕ) : diM al x0 q n = fun t i => put t (i + 1) n n
    (q * (((i + 1 : ℕ) : K) * t i (n - 1) (n - 1) - (al (n - 1) - x0) * t (i + 1) (n - 1) (n - 1))) := rfl

theorem inV_spec (p v : ℕ) (hinj : Set.InjOn al (range (p + 2) : Finset ℕ)) (hv : v ≤ p) (s : Tab K × K)
    (hrow : ∀ m, m ≤ min p M → s.1 m p v = dv m x0 (lb al p v)) :
    (inV al x0 M (p + 1) s v).2 = s.2 * (al (p + 1) - al v) ∧
    (∀ m, m ≤ min (p + 1) M → (inV al x0 M (p + 1) s v).1 m (p + 1) v = dv m x0 (lb al (p + 1) v)) ∧
    (p + 1 ≤ M → (inV al x0 M (p + 1) s v).1 (p + 1) p v = 0) ∧
    (∀ m n' v', v' ≠ v → (inV al x0 M (p + 1) s v).1 m n' v' = s.1 m n' v') ∧
    (∀ m, m ≤ min p M → (inV al x0 M (p + 1) s v).1 m p v = s.1 m p v) := by
  have hinj' : Set.InjOn al (range (p + 1) : Finset ℕ) := hinj.mono (by intro j; simp; omega)
  have hne : al (p + 1) ≠ al v := by
    intro h
    have := hinj (by simp) (by simp; omega) h
    omega
  have hc : al (p + 1) - al v ≠ 0 := sub_ne_zero.2 hne
  unfold inV
  dsimp only
  rw [inM_eq]
  generalize ht : (if p + 1 ≤ M then put s.1 (p + 1) (p + 1 - 1) v 0 else s.1) = t
  have htM : p + 1 ≤ M → t (p + 1) p v = 0 := by
    intro h; subst ht; rw [if_pos h]; simp
  have hto : ∀ m n' v', ¬ (m = p + 1 ∧ n' = p ∧ v' = v) → t m n' v' = s.1 m n' v' := by
    intro m n' v' h; subst ht; split
    · exact put_ne _ _ _ _ _ _ _ _ h
    · rfl
  have htp : ∀ m, m ≤ min (p + 1) M → t m p v = dv m x0 (lb al p v) := by
    intro m hm
    by_cases h : m = p + 1
    · subst h; rw [htM (by omega), dv_big al p v hinj' hv]
    · rw [hto _ _ _ (by omega)]; exact hrow m (by omega)
  have F := fill (p + 1) v (by omega) (fun (t : Tab K) i => (((al (p + 1) - x0) * t (i + 1) (p + 1 - 1) v
      - ((i + 1 : ℕ) : K) * t i (p + 1 - 1) v) / (al (p + 1) - al v)))
      (by intro t t' h i; rw [h, h]) (min (p + 1) M)
      (put t 0 (p + 1) v ((al (p + 1) - x0) * t 0 (p + 1 - 1) v / (al (p + 1) - al v)))
  dsimp only at F
  obtain ⟨F1, F2⟩ := F
  have hstep : ∀ m, dv m x0 (lb al (p + 1) v) =
      ((al (p + 1) - x0) * dv m x0 (lb al p v) - (m : K) * dv (m - 1) x0 (lb al p v)) / (al (p + 1) - al v) := by
    intro m
    rw [lb_step al p v hv, dv_lin, div_eq_inv_mul]
    ring
  refine ⟨rfl, ?_, ?_, ?_, ?_⟩
  · intro m hm
    rcases m with _ | m
    · rw [F2 _ _ _ (by omega), put_self, hstep]
      simp only [Nat.add_sub_cancel]
      rw [htp 0 (by omega)]; simp
    · rw [F1 m (by omega), hstep]
      simp only [Nat.add_sub_cancel]
      rw [put_ne _ _ _ _ _ _ _ _ (by omega), put_ne _ _ _ _ _ _ _ _ (by omega), htp (m + 1) hm, htp m (by omega)]
  · intro h
    rw [F2 _ _ _ (by omega), put_ne _ _ _ _ _ _ _ _ (by omega)]; exact htM h
  · intro m n' v' h
    rw [F2 _ _ _ (by omega), put_ne _ _ _ _ _ _ _ _ (by omega)]; exact hto _ _ _ (by omega)
  · intro m hm
    rw [F2 _ _ _ (by omega), put_ne _ _ _ _ _ _ _ _ (by omega)]; exact hto _ _ _ (by omega)

theorem inV_fold (p : ℕ) (hinj : Set.InjOn al (range (p + 2) : Finset ℕ)) (t : Tab K) (hrow : Row al x0 M p t) (k : ℕ)
    (hk : k ≤ p + 1) :
    let r := (List.range k).foldl (inV al x0 M (p + 1)) (t, 1)
    r.2 = ∏ j ∈ range k, (al (p + 1) - al j) ∧
    (∀ m v, m ≤ min (p + 1) M → v < k → r.1 m (p + 1) v = dv m x0 (lb al (p + 1) v)) ∧
    (p + 1 ≤ M → ∀ v, v < k → r.1 (p + 1) p v = 0) ∧
    (∀ m v, m ≤ min p M → v ≤ p → r.1 m p v = dv m x0 (lb al p v)) := by
  induction k with
  | zero => exact ⟨by simp, fun _ _ _ h => absurd h (by omega), fun _ _ h => absurd h (by omega), hrow⟩
  | succ k ih =>
    rw [List.range_succ, List.foldl_append, List.foldl_cons, List.foldl_nil]
    dsimp only at ih ⊢
    obtain ⟨h1, h2, h3, h4⟩ := ih (by omega)
    obtain ⟨g1, g2, g3, g4, g5⟩ := inV_spec al x0 M p k hinj (by omega) _ (fun m hm => h4 m k hm (by omega))
    refine ⟨by rw [g1, h1, prod_range_succ], ?_, ?_, ?_⟩
    · intro m v hm hv
      by_cases h : v = k
      · subst h; exact g2 m hm
      · rw [g4 _ _ _ h]; exact h2 m v hm (by omega)
    · intro hM v hv
      by_cases h : v = k
      · subst h; exact g3 hM
      · rw [g4 _ _ _ h]; exact h3 hM v (by omega)
    · intro m v hm hv
      by_cases h : v = k
      · subst h; rw [g5 m hm]; exact h4 m v hm hv
      · rw [g4 _ _ _ h]; exact h4 m v hm hv

theorem level_spec (p : ℕ) (hinj : Set.InjOn al (range (p + 2) : Finset ℕ)) (s : Tab K × K) (hrow : Row al x0 M p s.1)
    (hc : s.2 = ∏ j ∈ range p, (al p - al j)) :
    Row al x0 M (p + 1) (level al x0 M s p).1 ∧
      (level al x0 M s p).2 = ∏ j ∈ range (p + 1), (al (p + 1) - al j) := by
  have hinj' : Set.InjOn al (range (p + 1) : Finset ℕ) := hinj.mono (by intro j; simp; omega)
  have hc0 : (∏ j ∈ range p, (al p - al j)) ≠ 0 := by
    rw [prod_ne_zero_iff]
    intro j hj h
    have := hinj' (by simp) (by simp at hj ⊢; omega) (sub_eq_zero.1 h)
    simp at hj; omega
  obtain ⟨h1, h2, h3, h4⟩ := inV_fold al x0 M p hinj s.1 hrow (p + 1) le_rfl
  unfold level
  dsimp only
  rw [diM_eq]
  generalize hr : (List.range (p + 1)).foldl (inV al x0 M (p + 1)) (s.1, 1) = r at h1 h2 h3 h4 ⊢
  have F := fill (p + 1) (p + 1) (by omega) (fun (t : Tab K) i => (s.2 / r.2) * (((i + 1 : ℕ) : K) *
      t i (p + 1 - 1) (p + 1 - 1) - (al (p + 1 - 1) - x0) * t (i + 1) (p + 1 - 1) (p + 1 - 1)))
      (by intro t t' h i; rw [h, h]) (min (p + 1) M)
      (put r.1 0 (p + 1) (p + 1) (-(s.2 / r.2) * (al (p + 1 - 1) - x0) * r.1 0 (p + 1 - 1) (p + 1 - 1)))
  dsimp only at F
  obtain ⟨F1, F2⟩ := F
  have hdiag : ∀ m, m ≤ min (p + 1) M → r.1 m p p = dv m x0 (lb al p p) := by
    intro m hm
    by_cases h : m = p + 1
    · subst h; rw [h3 (by omega) p (by omega), dv_big al p p hinj' le_rfl]
    · exact h4 m p (by omega) le_rfl
  have hstep : ∀ m, dv m x0 (lb al (p + 1) (p + 1)) =
      (s.2 / r.2) * ((m : K) * dv (m - 1) x0 (lb al p p) - (al p - x0) * dv m x0 (lb al p p)) := by
    intro m
    rw [lb_diag al p hc0, dv_lin, hc, h1]
    ring
  refine ⟨?_, h1⟩
  intro m v hm hv
  by_cases hvp : v = p + 1
  · subst hvp
    rcases m with _ | m
    · rw [F2 _ _ _ (by omega), put_self, hstep]
      simp only [Nat.add_sub_cancel]
      rw [hdiag 0 (by omega)]; simp only [Nat.cast_zero]; ring
    · rw [F1 m (by omega), hstep]
      simp only [Nat.add_sub_cancel]
      rw [put_ne _ _ _ _ _ _ _ _ (by omega), put_ne _ _ _ _ _ _ _ _ (by omega), hdiag (m + 1) hm, hdiag m (by omega)]
  · rw [F2 _ _ _ (by omega), put_ne _ _ _ _ _ _ _ _ (by omega)]
    exact h2 m v hm (by omega)

theorem table_spec (N : ℕ) (hinj : Set.InjOn al (range (N + 1) : Finset ℕ)) (g : Tab K) :
    Row al x0 M N (table al x0 M N g) := by
  unfold table
  suffices h : Row al x0 M N ((List.range N).foldl (level al x0 M) (put g 0 0 0 1, 1)).1 ∧
      ((List.range N).foldl (level al x0 M) (put g 0 0 0 1, 1)).2 = ∏ j ∈ range N, (al N - al j) from h.1
  induction N with
  | zero =>
    refine ⟨?_, by simp⟩
    intro m v hm hv
    have hm0 : m = 0 := by omega
    have hv0 : v = 0 := by omega
    subst hm0; subst hv0
    simp [dv, lb]
  | succ N ih =>
    rw [List.range_succ, List.foldl_append, List.foldl_cons, List.foldl_nil]
    obtain ⟨h1, h2⟩ := ih (hinj.mono (by intro j; simp; omega))
    exact level_spec al x0 M N hinj _ h1 h2

end levels

theorem search_spec (x : ℕ → K) (x0 : K) (fuel i : ℕ) :
    i ≤ search x x0 fuel i ∧ search x x0 fuel i ≤ i + fuel ∧
      (search x x0 fuel i < i + fuel → x (search x x0 fuel i) ≤ x0 ∧ x0 ≤ x (search x x0 fuel i + 1)) ∧
      ∀ j, i ≤ j → j < search x x0 fuel i → ¬ (x j ≤ x0 ∧ x0 ≤ x (j + 1)) := by
  induction fuel generalizing i with
  | zero => simp only [search]; exact ⟨le_rfl, le_rfl, by omega, by omega⟩
  | succ fuel ih =>
    simp only [search]
    split
    · rename_i h; exact ⟨le_rfl, by omega, fun _ => h, by omega⟩
    · rename_i h
      obtain ⟨h1, h2, h3, h4⟩ := ih (i + 1)
      refine ⟨by omega, by omega, fun hh => h3 (by omega), ?_⟩
      intro j hj hj2
      by_cases e : j = i
      · subst e; exact h
      · exact h4 j (by omega) hj2

theorem shiftR_spec (fuel : ℕ) (w : ℤ × ℤ) (h : -w.1 ≤ fuel) :
    shiftR fuel w = if w.1 < 0 then (0, w.2 - w.1) else w := by
  induction fuel generalizing w with
  | zero => simp only [shiftR]; rw [if_neg (by simp at h; omega)]
  | succ fuel ih =>
    simp only [shiftR]
    split
    · rename_i hh
      rw [ih _ (by push_cast at h; dsimp only; omega)]
      dsimp only
      split
      · congr 1; omega
      · congr 1 <;> omega
    · rfl

theorem shiftL_spec (Nx fuel : ℕ) (w : ℤ × ℤ) (h : w.2 - (Nx - 1) ≤ fuel) :
    shiftL Nx fuel w = if w.2 > Nx - 1 then (w.1 - (w.2 - (Nx - 1)), (Nx : ℤ) - 1) else w := by
  induction fuel generalizing w with
  | zero => simp only [shiftL]; rw [if_neg (by simp at h; omega)]
  | succ fuel ih =>
    simp only [shiftL]
    split
    · rename_i hh
      rw [ih _ (by push_cast at h; dsimp only; omega)]
      dsimp only
      split
      · congr 1; omega
      · congr 1 <;> omega
    · rfl

/-- the window in closed form -/
theorem window_spec (Nx N indx : ℕ) (hN : N + 1 < Nx) (hi : indx ≤ Nx - 1) :
    (window Nx N indx).1 = (min (indx - N / 2) (Nx - 1 - N) : ℕ) ∧ (window Nx N indx).2 = (window Nx N indx).1 + N := by
  unfold window
  rw [shiftR_spec _ _ (by dsimp only; omega)]
  dsimp only
  split
  · rw [shiftL_spec _ _ _ (by dsimp only; omega)]
    dsimp only
    split <;> dsimp only <;> omega
  · rw [shiftL_spec _ _ _ (by dsimp only; omega)]
    dsimp only
    split <;> dsimp only <;> omega

theorem foldl_sum (n : ℕ) (w : ℕ → K) : (List.range n).foldl (fun r v => r + w v) 0 = ∑ v ∈ range n, w v := by
  induction n with
  | zero => simp
  | succ n ih => rw [List.range_succ, List.foldl_append, List.foldl_cons, List.foldl_nil, ih, sum_range_succ]

end Elliptica.Fornberg
