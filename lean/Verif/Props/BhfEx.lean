import Verif.Props.BhfPerfect
import Mathlib.Analysis.Calculus.FDeriv.Pow
/-!
A concrete case of the hypotheses of C88.
-/
namespace Elliptica.Bhf
open Coord Angles Real BhfSpec Polynomial

/-- the squared distance from the origin -/
def exF (x : Fin 3 → ℝ) : ℝ := x 0 ^ 2 + x 1 ^ 2 + x 2 ^ 2

theorem exF_smooth : Smooth exF (fun i x => 2 * x i) (fun i j _ => if i = j then 2 else 0) := by
  have hp : ∀ (i : Fin 3) (x : Fin 3 → ℝ), HasFDerivAt (fun x : Fin 3 → ℝ => x i) (ContinuousLinearMap.proj (R := ℝ) (φ := fun _ : Fin 3 => ℝ) i) x :=
    fun i x => (ContinuousLinearMap.proj (R := ℝ) (φ := fun _ : Fin 3 => ℝ) i).hasFDerivAt
  refine ⟨fun x => ?_, fun i x => ?_, fun i j _ => by simp [eq_comm], fun i j => continuous_const⟩
  · have := (((hp 0 x).pow 2).add ((hp 1 x).pow 2)).add ((hp 2 x).pow 2)
    refine this.congr_fderiv ?_
    ext v
    simp [Fin.sum_univ_three]
  · refine ((hp i x).const_mul 2).congr_fderiv ?_
    ext v
    simp

/-- the patch to the right of the origin between the spheres of radii 1 and 2 -/
noncomputable def exGeo : Coord.Patch ℝ :=
  ⟨.front, .obScs, fun _ _ => 1, fun _ _ => 2, 1000, 1000, 0, 0, fun _ => 0, fun i => if i = 2 then 0 else -1, fun _ => 1⟩

/-- this patch with the field exF on it -/
noncomputable def exOut : Outer :=
  ⟨exGeo, fun X Y => exF (xOfX (lib 1000) exGeo ![X, Y, 0]), fun i X Y => 2 * xOfX (lib 1000) exGeo ![X, Y, 0] i,
    fun m _ _ => if m = 0 ∨ m = 3 ∨ m = 5 then 2 else 0⟩

theorem exOut_reads : Reads 1000 exF (fun i x => 2 * x i) (fun i j _ => if i = j then 2 else 0) exOut := by
  have hX : ∀ X : Fin 3 → ℝ, X 2 = 0 → ![X 0, X 1, 0] = X := by
    intro X h; funext i; fin_cases i <;> simp [h]
  refine ⟨fun X h => ?_, fun X h i => ?_, fun X h i j hij => ?_⟩
  · show exF (xOfX (lib 1000) exGeo ![X 0, X 1, 0]) = _; rw [hX X h]; rfl
  · show 2 * xOfX (lib 1000) exGeo ![X 0, X 1, 0] i = _; rw [hX X h]; rfl
  · fin_cases i <;> fin_cases j <;> first | (exact absurd hij (by decide)) | simp [exOut, symm3]

theorem exUnit : unit (π / 2) 0 = ![1, 0, 0] := by
  funext i; fin_cases i <;> simp [unit]

theorem exVisible : Visible (1 / 1000000000000) 1000 (fun _ => 0) (fun _ => 1) [exOut] (π / 2) 0 := by
  refine ⟨fun o ho => ?_, fun _ => by norm_num, by have := pi_pos; linarith, by have := pi_pos; linarith, le_refl _,
    by have := pi_pos; linarith, Or.inl rfl, exOut, by simp, 0, 0, ?_⟩
  · rw [List.mem_singleton] at ho
    subst ho
    constructor <;> simp [exOut, exGeo]
  · refine ⟨?_, ?_, ?_, ?_, ?_, ?_, ?_, ?_, ?_, ?_⟩
    · rw [exUnit]; funext i; fin_cases i <;> simp [direction, exOut, exGeo, perm, sgn]
    · simp [exOut, exGeo]
    · simp [exOut, exGeo]
    · simp [exOut, exGeo]
    · unfold Clear; simp [exOut, exGeo]; norm_num
    · unfold Clear; simp [exOut, exGeo]; norm_num
    · unfold Clear; simp [exOut, exGeo]; norm_num
    · simp [x2, x1, exOut, exGeo, lib, dd, sgn, perm]
    · right; rw [exUnit]; norm_num
    · left; rw [exUnit]; norm_num

theorem exReads : ∀ o ∈ [exOut], Reads 1000 exF (fun i x => 2 * x i) (fun i j _ => if i = j then 2 else 0) o := by
  intro o ho
  rw [List.mem_singleton] at ho
  subst ho
  exact exOut_reads

theorem exData (θ ϕ : ℝ) : exF (ray (fun _ => 0) (unit θ ϕ) 1) = 1 ∧ slope (fun i x => 2 * x i) (fun _ => 0) (unit θ ϕ) 1 = 2 ∧
    curv (fun i j _ => if i = j then 2 else 0) (fun _ => 0) (unit θ ϕ) 1 = 2 := by
  have h := unit_unit θ ϕ
  refine ⟨?_, ?_, ?_⟩
  · simp only [exF, ray]; linear_combination h
  · simp only [slope, ray, Fin.sum_univ_three]; linear_combination 2 * h
  · simp [curv, Fin.sum_univ_three]; linear_combination 2 * h

theorem exSnapped : Cheb.Snapped (1 / 1000000000000) (2 * (1 / 2) / 1 - 1) := by
  right; right
  norm_num [Tol.eql]

/-- C88_fill for this patch: the value 5 at the centre, the point half way -/
example : ∃ p : ℝ[X], Joins p 5 1 1 2 2 ∧
    fillGeneral (1 / 1000000000000) 1000 (fun _ => 0) [exOut] 5 0 (fun i => 1 / 2 * unit (π / 2) 0 i) = .ok (p.eval (1 / 2)) := by
  obtain ⟨p, hp, h⟩ := C88_fill (by norm_num) (by norm_num) exVisible exF_smooth exReads 5 0
  obtain ⟨d0, d1, d2⟩ := exData (π / 2) 0
  rw [d0, d1, d2] at hp
  exact ⟨p, hp, h (1 / 2) (by norm_num) (by norm_num) (by norm_num) (by right; rw [exUnit]; norm_num) (by left; rw [exUnit]; norm_num)
    exSnapped⟩

/-- C88_perfect with the grid of one direction and L = 0: every direction is filled -/
example (theta phi : ℝ) (h0 : 0 < theta) (h1 : theta < π) (h2 : 0 ≤ phi) (h3 : phi < 2 * π)
    (p0 : (1 / 1000000000000 : ℝ) ≤ |1 / 2 * unit theta phi 0|) (p1 : (1 / 1000000000000 : ℝ) ≤ |1 / 2 * unit theta phi 1|) :
    ∃ p : ℝ[X], Joins p 5 1 1 2 2 ∧
      fillPerfect (1 / 1000000000000) 1000 (fun _ _ => 0) (fun _ => 0) [exOut] 5 1 0 1 1 (fun i => 1 / 2 * unit theta phi i) =
        .ok (p.eval (1 / 2)) := by
  have hroot : Ylm.ExactRoots (fun _ _ => 0) 1 := ⟨by simp, fun i hi => by simp [Legendre.legendre], fun i hi => by simp⟩
  obtain ⟨p, hp, h⟩ := C88_perfect (tab := fun _ _ => 0) (L := 0) (Ntheta := 1) (Nphi := 1) (R := 1) (e := 1 / 1000000000000) (by norm_num) (by norm_num)
    exF_smooth exReads (by norm_num) (by norm_num) hroot (by norm_num) (fun i hi j hj => by
      have hi : i = 0 := by omega
      have hj : j = 0 := by omega
      subst hi hj
      simp only [Ylm.thetaAt, Ylm.phiAt]
      convert exVisible using 1 <;> simp)
    (by simp only [fun θ ϕ => (exData θ ϕ).1]; exact Band.const 0 1) (by simp only [fun θ ϕ => (exData θ ϕ).2.1]; exact Band.const 0 2)
    (by simp only [fun θ ϕ => (exData θ ϕ).2.2]; exact Band.const 0 2) 5 h0 h1 h2 h3
  obtain ⟨d0, d1, d2⟩ := exData theta phi
  rw [d0, d1, d2] at hp
  exact ⟨p, hp, h (1 / 2) (by norm_num) (by norm_num) (Or.inr p0) (Or.inr p1) exSnapped⟩

end Elliptica.Bhf
