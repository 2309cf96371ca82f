import Verif.Props.Schur
import Mathlib.Algebra.Order.BigOperators.Group.Finset
import Mathlib.Algebra.BigOperators.Field
/-!
C34, continued: how far the step can be from the solution when small entries are left out of compressed storage, and when
the step succeeds.
-/
namespace Elliptica.Schur
open Mat

variable {K : Type} [Field K] [LinearOrder K]

theorem cut_err [IsStrictOrderedRing K] {δ : K} (hδ : 0 ≤ δ) (v : K) : |v - cut δ v| ≤ δ := by
  unfold cut
  split
  · simpa using hδ
  · rename_i h; simpa using not_lt.1 h

theorem cut_le [IsStrictOrderedRing K] (δ v : K) : |cut δ v| ≤ |v| := by
  unfold cut
  split
  · exact le_refl _
  · simp

theorem abs_sum_mul_le [IsStrictOrderedRing K] (n : Nat) (a b c : Nat → K) (h : ∀ i, i < n → |a i| ≤ c i) :
    |∑ i ∈ Finset.range n, a i * b i| ≤ ∑ i ∈ Finset.range n, c i * |b i| := by
  refine (Finset.abs_sum_le_sum_abs _ _).trans (Finset.sum_le_sum ?_)
  intro i hi
  rw [abs_mul]
  exact mul_le_mul_of_nonneg_right (h i (Finset.mem_range.1 hi)) (abs_nonneg _)

/-- The step with the thresholds of the code (δ = drop + e for the casts, e = round-off for the interface matrix): the numbers it
computes satisfy the subdomain equations up to δ (Σ|x| + Σ|B| Σ|y|) and the interface equations up to Σ (e + δ Σ|w|) |y|, where w p i is
an approximate solution of B w = (column i of E), itself with residual at most δ Σ|w|. -/
theorem C34_residual [IsStrictOrderedRing K] (e drop : K) (he : 0 ≤ e) (hd : 0 ≤ drop) (solve : Solver K) (hs : Sound solve) (np : Nat)
    (P : Nat → Patch K) (x y : Nat → Nat → K) (h : newton e drop solve np P = .ok (x, y)) :
    (∀ p, p < np → ∀ s, s < (P p).NS →
      |∑ t ∈ Finset.range (P p).NS, (P p).B (s, t) * x p t + ∑ i ∈ Finset.range (P p).NI, (P p).ET (i, s) * y p i - (P p).f s| ≤
        (drop + e) * ((∑ t ∈ Finset.range (P p).NS, |x p t|) +
          (∑ t ∈ Finset.range (P p).NS, |(P p).B (s, t)|) * ∑ i ∈ Finset.range (P p).NI, |y p i|)) ∧
    ∃ w : Nat → Nat → Nat → K,
      (∀ p, p < np → ∀ i, i < (P p).NI → ∀ s, s < (P p).NS →
        |∑ t ∈ Finset.range (P p).NS, (P p).B (s, t) * w p i t - (P p).ET (i, s)| ≤
          (drop + e) * ∑ t ∈ Finset.range (P p).NS, |w p i t|) ∧
      ∀ q, q < np → ∀ r, r < (P q).NI →
        |∑ p ∈ Finset.range np, (∑ t ∈ Finset.range (P p).NS, (P p).entryF q r t * x p t
          + ∑ i ∈ Finset.range (P p).NI, (P p).entryC q r i * y p i) - (P q).g r| ≤
        ∑ p ∈ Finset.range np, ∑ i ∈ Finset.range (P p).NI, (e + (drop + e) * ∑ t ∈ Finset.range (P p).NS, |w p i t|) * |y p i| := by
  obtain ⟨fp, w, h1, h2, h3, h4⟩ := newton_core e drop he solve hs np P x y h
  have hδ : 0 ≤ drop + e := add_nonneg hd he
  generalize drop + e = δ at *
  have swap : ∀ p, p < np → ∀ A : Nat → K, ∑ t ∈ Finset.range (P p).NS, A t * x p t =
      ∑ t ∈ Finset.range (P p).NS, A t * fp p t -
        ∑ i ∈ Finset.range (P p).NI, (∑ t ∈ Finset.range (P p).NS, A t * cut δ (w p i t)) * y p i := by
    intro p hp A
    have : ∀ t ∈ Finset.range (P p).NS, A t * x p t =
        A t * fp p t - ∑ i ∈ Finset.range (P p).NI, A t * cut δ (w p i t) * y p i := by
      intro t ht
      rw [h3 p hp t (Finset.mem_range.1 ht), mul_sub, Finset.mul_sum]
      congr 1
      apply Finset.sum_congr rfl
      intro i _; ring
    rw [Finset.sum_congr rfl this, Finset.sum_sub_distrib, Finset.sum_comm]
    congr 1
    apply Finset.sum_congr rfl
    intro i _
    rw [Finset.sum_mul]
  refine ⟨?_, w, ?_, ?_⟩
  · intro p hp s hs'
    have e1 : ∑ t ∈ Finset.range (P p).NS, (P p).B (s, t) * x p t + ∑ i ∈ Finset.range (P p).NI, (P p).ET (i, s) * y p i - (P p).f s =
        ∑ t ∈ Finset.range (P p).NS, ((P p).B (s, t) - cut δ ((P p).B (s, t))) * x p t +
        ∑ i ∈ Finset.range (P p).NI, (∑ t ∈ Finset.range (P p).NS, cut δ ((P p).B (s, t)) * (w p i t - cut δ (w p i t))) * y p i := by
      have a := swap p hp (fun t => cut δ ((P p).B (s, t)))
      rw [h1 p hp s hs'] at a
      have b : ∑ i ∈ Finset.range (P p).NI, (P p).ET (i, s) * y p i = ∑ i ∈ Finset.range (P p).NI,
          (∑ t ∈ Finset.range (P p).NS, cut δ ((P p).B (s, t)) * w p i t) * y p i := by
        apply Finset.sum_congr rfl
        intro i hi
        rw [h2 p hp i (Finset.mem_range.1 hi) s hs']
      rw [b]
      simp only [sub_mul, mul_sub, Finset.sum_sub_distrib] at a ⊢
      linear_combination a
    rw [e1, mul_add]
    refine (abs_add_le _ _).trans (add_le_add ?_ ?_)
    · refine (abs_sum_mul_le _ _ _ (fun _ => δ) ?_).trans (le_of_eq (Finset.mul_sum _ _ _).symm)
      intro t _
      exact cut_err hδ _
    · refine (abs_sum_mul_le _ _ _ (fun _ => δ * ∑ t ∈ Finset.range (P p).NS, |(P p).B (s, t)|) ?_).trans ?_
      · intro i _
        have := abs_sum_mul_le (P p).NS (fun t => w p i t - cut δ (w p i t)) (fun t => cut δ ((P p).B (s, t))) (fun _ => δ)
          (fun t _ => cut_err hδ _)
        have e2 : ∑ t ∈ Finset.range (P p).NS, cut δ ((P p).B (s, t)) * (w p i t - cut δ (w p i t)) =
            ∑ t ∈ Finset.range (P p).NS, (w p i t - cut δ (w p i t)) * cut δ ((P p).B (s, t)) := by
          apply Finset.sum_congr rfl
          intro t _; ring
        rw [e2]
        refine this.trans ?_
        rw [← Finset.mul_sum]
        apply mul_le_mul_of_nonneg_left _ hδ
        exact Finset.sum_le_sum (fun t _ => cut_le δ _)
      · rw [← Finset.mul_sum, mul_assoc]
  · intro p hp i hi s hs'
    have e1 : ∑ t ∈ Finset.range (P p).NS, (P p).B (s, t) * w p i t - (P p).ET (i, s) =
        ∑ t ∈ Finset.range (P p).NS, ((P p).B (s, t) - cut δ ((P p).B (s, t))) * w p i t := by
      rw [← h2 p hp i hi s hs']
      simp only [sub_mul, Finset.sum_sub_distrib]
    rw [e1]
    refine (abs_sum_mul_le _ _ _ (fun _ => δ) ?_).trans (le_of_eq (Finset.mul_sum _ _ _).symm)
    intro t _
    exact cut_err hδ _
  · intro q hq r hr
    have e1 : ∑ p ∈ Finset.range np, (∑ t ∈ Finset.range (P p).NS, (P p).entryF q r t * x p t
          + ∑ i ∈ Finset.range (P p).NI, (P p).entryC q r i * y p i) - (P q).g r =
        ∑ p ∈ Finset.range np, ∑ i ∈ Finset.range (P p).NI,
          ((((P p).entryC q r i - ∑ t ∈ Finset.range (P p).NS, cut δ ((P p).entryF q r t) * cut δ (w p i t)) -
            cut e ((P p).entryC q r i - ∑ t ∈ Finset.range (P p).NS, cut δ ((P p).entryF q r t) * cut δ (w p i t))) -
           ∑ t ∈ Finset.range (P p).NS, ((P p).entryF q r t - cut δ ((P p).entryF q r t)) * cut δ (w p i t)) * y p i := by
      have hpt : ∀ p ∈ Finset.range np, (∑ t ∈ Finset.range (P p).NS, (P p).entryF q r t * x p t
        + ∑ i ∈ Finset.range (P p).NI, (P p).entryC q r i * y p i) =
          ∑ t ∈ Finset.range (P p).NS, (P p).entryF q r t * fp p t +
          ∑ i ∈ Finset.range (P p).NI, ((P p).entryC q r i - ∑ t ∈ Finset.range (P p).NS, (P p).entryF q r t * cut δ (w p i t)) * y p i := by
        intro p hp
        rw [swap p (Finset.mem_range.1 hp) (fun t => (P p).entryF q r t)]
        simp only [sub_mul, Finset.sum_sub_distrib]
        ring
      rw [Finset.sum_congr rfl hpt, Finset.sum_add_distrib]
      have h5 := h4 q hq r hr
      simp only [sub_mul, Finset.sum_sub_distrib] at h5 ⊢
      linear_combination h5
    rw [e1]
    refine (Finset.abs_sum_le_sum_abs _ _).trans (Finset.sum_le_sum ?_)
    intro p hp
    apply abs_sum_mul_le
    intro i _
    refine (abs_sub _ _).trans (add_le_add (cut_err he _) ?_)
    refine (abs_sum_mul_le _ _ _ (fun _ => δ) (fun t _ => cut_err hδ _)).trans ?_
    rw [← Finset.mul_sum]
    apply mul_le_mul_of_nonneg_left _ hδ
    exact Finset.sum_le_sum (fun t _ => cut_le δ _)

end Elliptica.Schur
