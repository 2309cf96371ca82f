import Verif.Props.SchurUpdate
import Mathlib.Algebra.Order.Ring.Unbundled.Rat
import Mathlib.Algebra.Field.Rat
/-!
Concrete cases for C34: a direct solver for diagonal matrices (enough to run the model), a two-patch system that meets the
hypotheses of the theorems, and a system for which leaving small entries out of compressed storage gives a wrong step.
-/
namespace Elliptica.Schur
open Mat

/-- a direct solver that only accepts nonsingular diagonal matrices -/
def diagSolve : Solver ℚ := fun A b =>
  if (List.range A.row).all (fun r => (List.range A.col).all (fun c => if r = c then decide (A.entry r c ≠ 0) else decide (A.entry r c = 0)))
  then some (fun r => b r / A.entry r r) else none

theorem diagSolve_sound : Sound diagSolve := by
  intro A b z _ hrc h r hr
  unfold diagSolve at h
  split at h
  · rename_i hall
    injection h with h
    rw [← h]
    rw [List.all_eq_true] at hall
    have hr' := hall r (List.mem_range.2 hr)
    rw [List.all_eq_true] at hr'
    rw [Finset.sum_eq_single r]
    · have := hr' r (List.mem_range.2 (by omega))
      rw [if_pos rfl, decide_eq_true_eq] at this
      field_simp
    · intro c hc hne
      have := hr' c (List.mem_range.2 (Finset.mem_range.1 hc))
      rw [if_neg (fun h => hne h.symm), decide_eq_true_eq] at this
      rw [this, zero_mul]
    · intro hn
      exact absurd (Finset.mem_range.2 (by omega)) hn
  · cases h

/-- two patches with one subdomain and one interface unknown each; `a` couples the subdomain unknown of a patch to its own
interface equation -/
def twoPatches (a : ℚ) : Nat → Patch ℚ := fun p =>
  { NS := 1, NI := 1, B := fun _ => 2, ET := fun _ => 1, f := fun _ => 3 + p, g := fun _ => 1,
    FC := fun q => if q = p then some (fun _ => a, fun _ => 1) else some (fun _ => 1, fun _ => 1 / 2) }

/-- the hypotheses of `C34_step` are met by a system of two coupled patches -/
example : ∃ x y, newton 0 0 diagSolve 2 (twoPatches 1) = .ok (x, y) ∧ Solves 2 (twoPatches 1) x y ∧ x 0 0 ≠ 0 ∧ y 1 0 ≠ 0 := by
  have h : (match newton 0 0 diagSolve 2 (twoPatches 1) with
    | .ok (x, y) => decide (x 0 0 ≠ 0 ∧ y 1 0 ≠ 0) | _ => false) = true := by decide +kernel
  cases hn : newton 0 0 diagSolve 2 (twoPatches 1) with
  | abort => rw [hn] at h; cases h
  | ub => rw [hn] at h; cases h
  | ok r =>
    rw [hn] at h
    obtain ⟨x, y⟩ := r
    exact ⟨x, y, rfl, (C34_step diagSolve diagSolve_sound 2 _ x y hn).1, of_decide_eq_true h⟩

/-- the hypotheses of `C34_completes` are met by the same system -/
example : ∃ solve : Solver ℚ, ∃ x y, newton 0 0 solve 2 (twoPatches 1) = .ok (x, y) ∧ Solves 2 (twoPatches 1) x y := by
  obtain ⟨solve, hs, hc⟩ := exists_solver (K := ℚ)
  refine ⟨solve, C34_completes 0 0 (le_refl _) solve hs hc 2 (by omega) (twoPatches 1) (fun p _ => by simp [twoPatches])
    (fun p _ => by simp [twoPatches]) (by rw [add_zero]; exact nothingDropped_zero 2 _) ?_ ?_⟩
  · intro p hp v hv c hc'
    simp only [twoPatches] at hv hc' ⊢
    have h0 := hv 0 (by omega)
    simp only [Finset.sum_range_one] at h0
    have : c = 0 := by omega
    rw [this]; linarith
  · intro x y h
    have a0 := h.subdomain 0 (by omega) 0 (by simp [homogeneous, twoPatches])
    have a1 := h.subdomain 1 (by omega) 0 (by simp [homogeneous, twoPatches])
    have b0 := h.interface 0 (by omega) 0 (by simp [homogeneous, twoPatches])
    have b1 := h.interface 1 (by omega) 0 (by simp [homogeneous, twoPatches])
    simp only [homogeneous, twoPatches, Finset.sum_range_succ, Finset.sum_range_zero, Patch.entryF, Patch.entryC] at a0 a1 b0 b1
    norm_num at a0 a1 b0 b1
    have e0 : y 0 0 = 0 := by linarith
    have e1 : y 1 0 = 0 := by linarith
    have f0 : x 0 0 = 0 := by linarith
    have f1 : x 1 0 = 0 := by linarith
    constructor
    · intro p hp s hs'
      have : s = 0 := by simp only [twoPatches] at hs'; omega
      subst this
      have hp' : p = 0 ∨ p = 1 := by omega
      rcases hp' with rfl | rfl <;> assumption
    · intro p hp s hs'
      have : s = 0 := by simp only [twoPatches] at hs'; omega
      subst this
      have hp' : p = 0 ∨ p = 1 := by omega
      rcases hp' with rfl | rfl <;> assumption

/-- With the thresholds of the code (round-off 1e-12, drop tolerance 0) a coupling entry of 1e-13 is left out of the interface
matrix but used in the right-hand side: the step returns, with an exact direct solver, numbers that do not solve the system. -/
theorem C34_drop_violation : ∃ (P : Nat → Patch ℚ) (x y : Nat → Nat → ℚ), Sound diagSolve ∧
    newton (1 / 10 ^ 12) 0 diagSolve 2 P = .ok (x, y) ∧ ¬ Solves 2 P x y := by
  have h : (match newton (1 / 10 ^ 12) 0 diagSolve 2 (twoPatches (1 / 10 ^ 13)) with
    | .ok (x, y) => decide (1 / 10 ^ 13 * x 0 0 + 1 * y 0 0 + (1 * x 1 0 + 1 / 2 * y 1 0) ≠ 1) | _ => false) = true := by decide +kernel
  cases hn : newton (1 / 10 ^ 12) 0 diagSolve 2 (twoPatches (1 / 10 ^ 13)) with
  | abort => rw [hn] at h; cases h
  | ub => rw [hn] at h; cases h
  | ok r =>
    rw [hn] at h
    obtain ⟨x, y⟩ := r
    refine ⟨_, x, y, diagSolve_sound, hn, fun hs => ?_⟩
    have b0 := hs.interface 0 (by omega) 0 (by simp [twoPatches])
    simp only [twoPatches, Finset.sum_range_succ, Finset.sum_range_zero, Patch.entryF, Patch.entryC] at b0
    norm_num at b0
    have h' := of_decide_eq_true h
    apply h'
    norm_num
    linarith

/-- a patch of 3×3×3 nodes whose six faces are outer boundaries except one: the hypotheses about the labels are met -/
example : ∃ inv Iinv, Labelled (fun _ => 3)
    [⟨(List.range 27).filter (fun q => decide (q % 3 = 0)), false, false, true⟩,
     ⟨(List.range 27).filter (fun q => onFace (fun _ => 3) q && decide (q % 3 ≠ 0)), true, false, true⟩] inv Iinv 18 9 := by
  have h : (match makeMapAndInv (fun _ => 3) false [⟨(List.range 27).filter (fun q => decide (q % 3 = 0)), false, false, true⟩,
     ⟨(List.range 27).filter (fun q => onFace (fun _ => 3) q && decide (q % 3 ≠ 0)), true, false, true⟩] with
     | .ok (_, NS) => decide (NS = 18) | _ => false) = true := by decide +kernel
  cases hn : makeMapAndInv (fun _ => 3) false [⟨(List.range 27).filter (fun q => decide (q % 3 = 0)), false, false, true⟩,
     ⟨(List.range 27).filter (fun q => onFace (fun _ => 3) q && decide (q % 3 ≠ 0)), true, false, true⟩] with
  | abort => rw [hn] at h; cases h
  | ub => rw [hn] at h; cases h
  | ok r =>
    rw [hn] at h
    obtain ⟨L, NS⟩ := r
    have e : NS = 18 := of_decide_eq_true h
    subst e
    exact ⟨L.inv, L.Iinv, ⟨⟨false, L, hn, rfl, rfl⟩, rfl⟩⟩

/-- three points on two subfaces, two of them the same interface node -/
example : makeG (fun q => if q = 5 then some 0 else none) [⟨[5, 6], fun _ => 1, fun _ => (2 : ℚ)⟩, ⟨[5], fun _ => 10, fun _ => 20⟩] 0 = 33 := by
  decide +kernel

end Elliptica.Schur
