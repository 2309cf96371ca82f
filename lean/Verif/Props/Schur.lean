import Verif.Lemmas.SchurCore
import Verif.Props.SchurLabels
import Mathlib.Tactic.LinearCombination
import Mathlib.LinearAlgebra.Matrix.ToLin
import Mathlib.LinearAlgebra.FiniteDimensional.Basic
/-!
C34: the Newton step computed patch by patch with the Schur complement is the solution of the linear system of all patches.
-/
namespace Elliptica.Schur
open Mat

variable {K : Type} [Field K] [LinearOrder K]

/-- No nonzero entry is small enough to be left out of a compressed matrix: B and F, the solutions w of B w = (column of E),
and the entries C - F w of the interface matrix.  δ is the threshold of the casts, e the one of the interface matrix. -/
structure NothingDropped (δ e : K) (np : Nat) (P : Nat → Patch K) : Prop where
  B : ∀ p, p < np → ∀ s, s < (P p).NS → ∀ t, t < (P p).NS → (P p).B (s, t) = 0 ∨ δ < |(P p).B (s, t)|
  F : ∀ p, p < np → ∀ q, q < np → ∀ r, r < (P q).NI → ∀ t, t < (P p).NS → (P p).entryF q r t = 0 ∨ δ < |(P p).entryF q r t|
  E : ∀ p, p < np → ∀ i, i < (P p).NI → ∀ w : Nat → K,
    (∀ s, s < (P p).NS → ∑ t ∈ Finset.range (P p).NS, (P p).B (s, t) * w t = (P p).ET (i, s)) →
    (∀ t, t < (P p).NS → w t = 0 ∨ δ < |w t|) ∧
    ∀ q, q < np → ∀ r, r < (P q).NI →
      (P p).entryC q r i - ∑ t ∈ Finset.range (P p).NS, (P p).entryF q r t * w t = 0 ∨
      e < |(P p).entryC q r i - ∑ t ∈ Finset.range (P p).NS, (P p).entryF q r t * w t|

theorem cut_eq {δ v : K} (h : v = 0 ∨ δ < |v|) : cut δ v = v := by
  unfold cut
  rcases h with h | h
  · rw [h]; simp
  · rw [if_pos h]

theorem cut_zero [IsStrictOrderedRing K] (v : K) : cut 0 v = v := by
  apply cut_eq
  by_cases h : v = 0
  · exact Or.inl h
  · exact Or.inr (abs_pos.2 h)

/-- the elimination, as algebra -/
theorem solves_of_core (np : Nat) (P : Nat → Patch K) (x y fp : Nat → Nat → K) (w : Nat → Nat → Nat → K)
    (h1 : ∀ p, p < np → ∀ s, s < (P p).NS → ∑ t ∈ Finset.range (P p).NS, (P p).B (s, t) * fp p t = (P p).f s)
    (h2 : ∀ p, p < np → ∀ i, i < (P p).NI → ∀ s, s < (P p).NS →
      ∑ t ∈ Finset.range (P p).NS, (P p).B (s, t) * w p i t = (P p).ET (i, s))
    (h3 : ∀ p, p < np → ∀ t, t < (P p).NS → x p t = fp p t - ∑ i ∈ Finset.range (P p).NI, w p i t * y p i)
    (h4 : ∀ q, q < np → ∀ r, r < (P q).NI → ∑ p ∈ Finset.range np, ∑ i ∈ Finset.range (P p).NI,
      ((P p).entryC q r i - ∑ t ∈ Finset.range (P p).NS, (P p).entryF q r t * w p i t) * y p i
      = (P q).g r - ∑ p ∈ Finset.range np, ∑ t ∈ Finset.range (P p).NS, (P p).entryF q r t * fp p t) :
    Solves np P x y := by
  have swap : ∀ p, p < np → ∀ A : Nat → K, ∑ t ∈ Finset.range (P p).NS, A t * x p t =
      ∑ t ∈ Finset.range (P p).NS, A t * fp p t -
        ∑ i ∈ Finset.range (P p).NI, (∑ t ∈ Finset.range (P p).NS, A t * w p i t) * y p i := by
    intro p hp A
    have : ∀ t ∈ Finset.range (P p).NS, A t * x p t =
        A t * fp p t - ∑ i ∈ Finset.range (P p).NI, A t * w p i t * y p i := by
      intro t ht
      rw [h3 p hp t (Finset.mem_range.1 ht), mul_sub, Finset.mul_sum]
      congr 1
      apply Finset.sum_congr rfl
      intro i _; ring
    rw [Finset.sum_congr rfl this, Finset.sum_sub_distrib, Finset.sum_comm]
    congr 1
    apply Finset.sum_congr rfl
    intro i _
    rw [Finset.sum_mul]
  constructor
  · intro p hp s hs
    rw [swap p hp (fun t => (P p).B (s, t)), h1 p hp s hs]
    have : ∀ i ∈ Finset.range (P p).NI, (∑ t ∈ Finset.range (P p).NS, (P p).B (s, t) * w p i t) * y p i =
        (P p).ET (i, s) * y p i := by
      intro i hi
      rw [h2 p hp i (Finset.mem_range.1 hi) s hs]
    rw [Finset.sum_congr rfl this]
    ring
  · intro q hq r hr
    have hpt : ∀ p ∈ Finset.range np, (∑ t ∈ Finset.range (P p).NS, (P p).entryF q r t * x p t
        + ∑ i ∈ Finset.range (P p).NI, (P p).entryC q r i * y p i) =
        ∑ t ∈ Finset.range (P p).NS, (P p).entryF q r t * fp p t + ∑ i ∈ Finset.range (P p).NI,
          ((P p).entryC q r i - ∑ t ∈ Finset.range (P p).NS, (P p).entryF q r t * w p i t) * y p i := by
      intro p hp
      rw [swap p (Finset.mem_range.1 hp) (fun t => (P p).entryF q r t)]
      have : ∀ i ∈ Finset.range (P p).NI,
          ((P p).entryC q r i - ∑ t ∈ Finset.range (P p).NS, (P p).entryF q r t * w p i t) * y p i =
          (P p).entryC q r i * y p i - (∑ t ∈ Finset.range (P p).NS, (P p).entryF q r t * w p i t) * y p i := by
        intro i _; ring
      rw [Finset.sum_congr rfl this, Finset.sum_sub_distrib]
      ring
    rw [Finset.sum_congr rfl hpt, Finset.sum_add_distrib, h4 q hq r hr]
    ring

/-- If no nonzero entry falls under the threshold of compressed storage, the numbers the step computes solve the linear
system of all patches exactly. -/
theorem C34_exact [IsStrictOrderedRing K] (e drop : K) (he : 0 ≤ e) (solve : Solver K) (hs : Sound solve) (np : Nat)
    (P : Nat → Patch K) (hn : NothingDropped (drop + e) e np P) (x y : Nat → Nat → K)
    (h : newton e drop solve np P = .ok (x, y)) : Solves np P x y := by
  obtain ⟨fp, w, h1, h2, h3, h4⟩ := newton_core e drop he solve hs np P x y h
  have hB : ∀ p, p < np → ∀ (v : Nat → K) s, s < (P p).NS → ∑ t ∈ Finset.range (P p).NS, cut (drop + e) ((P p).B (s, t)) * v t =
      ∑ t ∈ Finset.range (P p).NS, (P p).B (s, t) * v t := by
    intro p hp v s hs'
    apply Finset.sum_congr rfl
    intro t ht
    rw [cut_eq (hn.B p hp s hs' t (Finset.mem_range.1 ht))]
  have h1' : ∀ p, p < np → ∀ s, s < (P p).NS → ∑ t ∈ Finset.range (P p).NS, (P p).B (s, t) * fp p t = (P p).f s := by
    intro p hp s hs'
    rw [← hB p hp _ s hs']; exact h1 p hp s hs'
  have h2' : ∀ p, p < np → ∀ i, i < (P p).NI → ∀ s, s < (P p).NS →
      ∑ t ∈ Finset.range (P p).NS, (P p).B (s, t) * w p i t = (P p).ET (i, s) := by
    intro p hp i hi s hs'
    rw [← hB p hp _ s hs']; exact h2 p hp i hi s hs'
  have hw : ∀ p, p < np → ∀ i, i < (P p).NI → ∀ t, t < (P p).NS → cut (drop + e) (w p i t) = w p i t := by
    intro p hp i hi t ht
    exact cut_eq ((hn.E p hp i hi (w p i) (h2' p hp i hi)).1 t ht)
  refine solves_of_core np P x y fp w h1' h2' ?_ ?_
  · intro p hp t ht
    rw [h3 p hp t ht]
    congr 1
    apply Finset.sum_congr rfl
    intro i hi
    rw [hw p hp i (Finset.mem_range.1 hi) t ht]
  · intro q hq r hr
    rw [← h4 q hq r hr]
    apply Finset.sum_congr rfl
    intro p hp
    rw [Finset.mem_range] at hp
    apply Finset.sum_congr rfl
    intro i hi
    rw [Finset.mem_range] at hi
    congr 1
    have : ∑ t ∈ Finset.range (P p).NS, cut (drop + e) ((P p).entryF q r t) * cut (drop + e) (w p i t) =
        ∑ t ∈ Finset.range (P p).NS, (P p).entryF q r t * w p i t := by
      apply Finset.sum_congr rfl
      intro t ht
      rw [Finset.mem_range] at ht
      rw [cut_eq (hn.F p hp q hq r hr t ht), hw p hp i hi t ht]
    rw [this, cut_eq ((hn.E p hp i hi (w p i) (h2' p hp i hi)).2 q hq r hr)]

theorem nothingDropped_zero [IsStrictOrderedRing K] (np : Nat) (P : Nat → Patch K) : NothingDropped 0 0 np P := by
  have h0 : ∀ v : K, v = 0 ∨ 0 < |v| := by
    intro v
    by_cases h : v = 0
    · exact Or.inl h
    · exact Or.inr (abs_pos.2 h)
  exact ⟨fun _ _ _ _ _ _ => h0 _, fun _ _ _ _ _ _ _ _ => h0 _, fun _ _ _ _ _ _ => ⟨fun _ _ => h0 _, fun _ _ _ _ => h0 _⟩⟩

/-- solutions of the full system are unique when the system is nonsingular -/
theorem solves_unique (np : Nat) (P : Nat → Patch K) (hf : FullNonsingular np P) (x y x' y' : Nat → Nat → K)
    (h : Solves np P x y) (h' : Solves np P x' y') :
    (∀ p, p < np → ∀ s, s < (P p).NS → x' p s = x p s) ∧ ∀ p, p < np → ∀ i, i < (P p).NI → y' p i = y p i := by
  have hd : Solves np (homogeneous P) (fun p s => x' p s - x p s) (fun p i => y' p i - y p i) := by
    constructor
    · intro p hp s hs
      have a := h.subdomain p hp s hs
      have b := h'.subdomain p hp s hs
      show ∑ t ∈ Finset.range (P p).NS, (P p).B (s, t) * (x' p t - x p t) +
        ∑ i ∈ Finset.range (P p).NI, (P p).ET (i, s) * (y' p i - y p i) = 0
      simp only [mul_sub, Finset.sum_sub_distrib]
      linear_combination b - a
    · intro q hq r hr
      have a := h.interface q hq r hr
      have b := h'.interface q hq r hr
      show ∑ p ∈ Finset.range np, (∑ t ∈ Finset.range (P p).NS, (P p).entryF q r t * (x' p t - x p t)
        + ∑ i ∈ Finset.range (P p).NI, (P p).entryC q r i * (y' p i - y p i)) = 0
      simp only [mul_sub, Finset.sum_sub_distrib, Finset.sum_add_distrib] at a b ⊢
      linear_combination b - a
  obtain ⟨u, v⟩ := hf _ _ hd
  exact ⟨fun p hp s hs => sub_eq_zero.1 (u p hp s hs), fun p hp i hi => sub_eq_zero.1 (v p hp i hi)⟩

/-- With exact arithmetic (thresholds 0) the step returns the solution of the linear system of all patches, and that
is the only one if the system is nonsingular: for every number of patches, every block size and all entries. -/
theorem C34_step [IsStrictOrderedRing K] (solve : Solver K) (hs : Sound solve) (np : Nat) (P : Nat → Patch K)
    (x y : Nat → Nat → K) (h : newton 0 0 solve np P = .ok (x, y)) :
    Solves np P x y ∧ (FullNonsingular np P → ∀ x' y', Solves np P x' y' →
      (∀ p, p < np → ∀ s, s < (P p).NS → x' p s = x p s) ∧ ∀ p, p < np → ∀ i, i < (P p).NI → y' p i = y p i) := by
  have h1 := C34_exact 0 0 (le_refl _) solve hs np P (by rw [add_zero]; exact nothingDropped_zero np P) x y h
  exact ⟨h1, fun hf x' y' h' => solves_unique np P hf x y x' y' h1 h'⟩

end Elliptica.Schur
