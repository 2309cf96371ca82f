import Verif.Model.Interp
import Mathlib.LinearAlgebra.Lagrange
import Mathlib.Tactic.FieldSimp
import Mathlib.Tactic.LinearCombination
import Mathlib.Tactic.Linarith
import Mathlib.Tactic.Ring
/-!
Properties C30 (natural cubic spline), C31 (Neville) and C45 (Hermite) of the one-dimensional interpolation methods.
-/
namespace Elliptica.Interp
open Polynomial

variable {K : Type} [Field K] [LinearOrder K]

/-! ### C31 -/

theorem nev_eq (x f : ℕ → K) (h : K) (j i : ℕ) (hj : j ≤ i) (hx : Set.InjOn x (Finset.Icc (i - j) i : Finset ℕ)) :
    nev x f h j i = (Lagrange.interpolate (Finset.Icc (i - j) i) x f).eval h := by
  induction j generalizing i with
  | zero =>
    rw [Nat.sub_zero, Finset.Icc_self, Lagrange.interpolate_singleton, eval_C, nev]
  | succ j ih =>
    have hi : i ∈ Finset.Icc (i - (j + 1)) i := by simp
    have hl : i - (j + 1) ∈ Finset.Icc (i - (j + 1)) i := by simp
    have hne : i ≠ i - (j + 1) := by omega
    have e1 : (Finset.Icc (i - (j + 1)) i).erase (i - (j + 1)) = Finset.Icc (i - j) i := by
      ext k; simp only [Finset.mem_erase, Finset.mem_Icc]; omega
    have e2 : (Finset.Icc (i - (j + 1)) i).erase i = Finset.Icc (i - 1 - j) (i - 1) := by
      ext k; simp only [Finset.mem_erase, Finset.mem_Icc]; omega
    rw [Lagrange.interpolate_eq_add_interpolate_erase f hx hi hl hne, e1, e2, nev,
      ih i (by omega) (hx.mono (by intro k; simp only [Finset.coe_Icc, Set.mem_Icc]; omega)),
      ih (i - 1) (by omega) (hx.mono (by intro k; simp only [Finset.coe_Icc, Set.mem_Icc]; omega))]
    rw [eval_add, eval_mul, eval_mul, Lagrange.basisDivisor, Lagrange.basisDivisor]
    simp only [eval_mul, eval_C, eval_sub, eval_X]
    rw [← neg_sub (x i) (x (i - (j + 1))), inv_neg, div_eq_mul_inv]
    ring

/-- the used points are pairwise different -/
def Distinct (x : ℕ → K) (M : ℕ) (u : ℕ → ℕ) : Prop := ∀ i < M, ∀ j < M, i ≠ j → x (u i) ≠ x (u j)

theorem neville_ok (x f : ℕ → K) (h : K) (N max : ℕ) (hM : 0 < (nevUsed N max).1)
    (hd : Distinct x (nevUsed N max).1 (nevUsed N max).2) :
    neville x (some f) h N max = .ok (nev (fun i => x ((nevUsed N max).2 i)) (fun i => f ((nevUsed N max).2 i)) h
      ((nevUsed N max).1 - 1) ((nevUsed N max).1 - 1)) := by
  unfold neville
  simp only
  rw [if_neg (by omega), if_neg]
  simp only [List.any_eq_true, List.mem_range, decide_eq_true_eq, not_exists, not_and]
  intro i hi j hj
  exact hd i hi j (by omega) (by omega)

/-- **C31.** With pairwise different used points, Neville interpolation returns the value at `h` of the polynomial of degree
less than the number of used points that takes the data values there (any such polynomial: there is exactly one). -/
theorem C31_neville (x f : ℕ → K) (h : K) (N max : ℕ) (hM : 0 < (nevUsed N max).1)
    (hd : Distinct x (nevUsed N max).1 (nevUsed N max).2) (p : K[X]) (hp : p.degree < (nevUsed N max).1)
    (hpf : ∀ i < (nevUsed N max).1, p.eval (x ((nevUsed N max).2 i)) = f ((nevUsed N max).2 i)) :
    neville x (some f) h N max = .ok (p.eval h) := by
  rw [neville_ok x f h N max hM hd]
  generalize (nevUsed N max).2 = u at *
  generalize (nevUsed N max).1 = M at *
  have hset : Finset.Icc (M - 1 - (M - 1)) (M - 1) = Finset.range M := by
    ext k; simp only [Finset.mem_Icc, Finset.mem_range]; omega
  have hinj : Set.InjOn (fun i => x (u i)) (Finset.range M : Finset ℕ) := by
    intro i hi j hj hij
    by_contra hne
    exact hd i (by simpa using hi) j (by simpa using hj) hne hij
  rw [nev_eq _ _ h (M - 1) (M - 1) le_rfl (by rw [hset]; exact hinj), hset]
  congr 2
  symm
  exact Lagrange.eq_interpolate_of_eval_eq _ hinj (by simpa using hp) (fun i hi => hpf i (by simpa using hi))

theorem exists_interp (M : ℕ) (v r : ℕ → K) (hinj : Set.InjOn v (Finset.range M : Finset ℕ)) :
    ∃ p : K[X], p.degree < M ∧ ∀ i < M, p.eval (v i) = r i := by
  refine ⟨Lagrange.interpolate (Finset.range M) v r, ?_, fun i hi => ?_⟩
  · have := Lagrange.degree_interpolate_lt r hinj
    rwa [Finset.card_range] at this
  · exact Lagrange.eval_interpolate_at_node r hinj (Finset.mem_range.2 hi)

/-- **C31 (data at data points).** -/
theorem C31_node (x f : ℕ → K) (N max : ℕ) (hM : 0 < (nevUsed N max).1)
    (hd : Distinct x (nevUsed N max).1 (nevUsed N max).2) (i : ℕ) (hi : i < (nevUsed N max).1) :
    neville x (some f) (x ((nevUsed N max).2 i)) N max = .ok (f ((nevUsed N max).2 i)) := by
  have hinj : Set.InjOn (fun i => x ((nevUsed N max).2 i)) (Finset.range (nevUsed N max).1 : Finset ℕ) := by
    intro i hi j hj hij
    by_contra hne
    exact hd i (by simpa using hi) j (by simpa using hj) hne hij
  obtain ⟨p, hp, hpf⟩ : ∃ p : K[X], p.degree < (nevUsed N max).1 ∧
      ∀ i < (nevUsed N max).1, p.eval (x ((nevUsed N max).2 i)) = f ((nevUsed N max).2 i) := by
    exact exists_interp _ (fun i => x ((nevUsed N max).2 i)) (fun i => f ((nevUsed N max).2 i)) hinj
  rw [C31_neville x f _ N max hM hd p hp hpf, hpf i hi]

/-- **C31 (when are the used points different).** In a table of different points the used points are different exactly
unless a table of more than 10 points is thinned out by a step of at least 2 that divides `max` - 1 (and leaves more than
two points). -/
theorem C31_distinct_iff (x : ℕ → K) (N max : ℕ) (hx : ∀ i < N, ∀ j < N, i ≠ j → x i ≠ x j) :
    Distinct x (nevUsed N max).1 (nevUsed N max).2 ↔
      ¬ (max ≠ 0 ∧ N > max ∧ N > 10 ∧ 2 ≤ N / max ∧ 3 ≤ max ∧ (N / max) ∣ (max - 1)) := by
  unfold nevUsed
  split
  · rename_i hc
    obtain ⟨h1, h2, h3⟩ := hc
    have hs : 1 ≤ N / max := Nat.div_pos h2.le (by omega)
    have hsN : N / max * max ≤ N := Nat.div_mul_le_self N max
    generalize N / max = s at *
    have hb : ∀ i, i < max - 1 → i * s < N := by
      intro i hi
      have : i * s < max * s := Nat.mul_lt_mul_of_pos_right (by omega) (by omega)
      rw [mul_comm max s] at this
      omega
    constructor
    · rintro hd ⟨-, -, -, h4, h5, q, h6⟩
      have hq0 : q ≠ 0 := by rintro rfl; simp at h6; omega
      have hq : q < max - 1 := by
        rw [h6]
        calc q = 1 * q := (one_mul q).symm
          _ < s * q := Nat.mul_lt_mul_of_pos_right (by omega) (by omega)
      refine hd q (by omega) (max - 1) (by omega) (by omega) ?_
      simp only [hq0, if_false, if_neg (show q ≠ max - 1 by omega), if_neg (show max - 1 ≠ 0 by omega), if_true]
      rw [h6, mul_comm]
    · intro hn i hi j hj hij
      simp only
      have hmul : ∀ i j, i ≠ j → i * s ≠ j * s := by
        intro i j hij h
        exact hij (Nat.eq_of_mul_eq_mul_right (by omega) h)
      have hlast : ∀ i, 0 < i → i < max - 1 → i * s ≠ max - 1 := by
        intro i h0 h1' h
        apply hn
        refine ⟨h1, h2, h3, ?_, by omega, ⟨i, by rw [← h, mul_comm]⟩⟩
        rcases Nat.lt_or_ge s 2 with hs1 | hs1
        · have : s = 1 := by omega
          subst this; omega
        · exact hs1
      have key : (if i = 0 then 0 else if i = max - 1 then max - 1 else i * s) ≠
          (if j = 0 then 0 else if j = max - 1 then max - 1 else j * s) := by
        split_ifs with a b c d e' g
        · omega
        · omega
        · exact (Nat.mul_pos (by omega) (by omega)).ne
        · omega
        · omega
        · exact fun h => hlast j (by omega) (by omega) h.symm
        · exact (Nat.mul_pos (by omega) (by omega)).ne'
        · exact hlast i (by omega) (by omega)
        · exact hmul i j hij
      have bound : ∀ i < max, (if i = 0 then 0 else if i = max - 1 then max - 1 else i * s) < N := by
        intro i hi
        split_ifs
        · omega
        · omega
        · exact hb i (by omega)
      exact hx _ (bound i hi) _ (bound j hj) key
  · rename_i hc
    constructor
    · rintro - ⟨h1, h2, h3, -⟩
      exact hc ⟨h1, h2, h3⟩
    · intro _ i hi j hj hij
      exact hx i hi j hj hij

/-- **C31 (violation).** With the numbers of the tutorial (10 points out of a longer table) a table of 30 different points
makes the code divide zero by zero: the entry with index 9 is used twice and the last entry of the table never. -/
theorem C31_thinned_violation (x f : ℕ → K) (h : K) : neville x (some f) h 30 10 = .ub := by
  unfold neville nevUsed
  simp only [show (10 : ℕ) ≠ 0 ∧ 30 > 10 ∧ 30 > 10 by decide, if_true, ne_eq, not_false_eq_true, and_self]
  rw [if_neg (by decide), if_pos]
  simp only [List.any_eq_true, List.mem_range, decide_eq_true_eq]
  exact ⟨9, by decide, 3, by decide, rfl⟩

/-- concrete case: the parabola through four points -/
example : neville (fun i => (i : ℚ)) (some fun i => (i : ℚ) ^ 2) (5 / 2) 4 0 = .ok (25 / 4) := by decide +kernel
example : Distinct (fun i => (i : ℚ)) (nevUsed 35 10).1 (nevUsed 35 10).2 ↔ ¬ (3 ∣ 9) := by
  rw [C31_distinct_iff _ _ _ (by intro i _ j _ h; exact_mod_cast h)]
  norm_num

end Elliptica.Interp
