import Verif.Props.StarFillEnd
import Verif.Props.BhfEx
/-!
A concrete case of the hypotheses of C99: the squared distance from the centre, read on the sphere of radius 1.
-/
namespace Elliptica.StarFill
open Real StarFillSpec BhfSpec Bhf Coord Angles

/-- the surface read exactly -/
noncomputable def exSurf (th ph : ℝ) : Option Surf :=
  some ⟨ray (fun _ => 0) (unit th ph) 1, exF (ray (fun _ => 0) (unit th ph) 1), fun i => 2 * ray (fun _ => 0) (unit th ph) 1 i,
    fun m => if m = 0 ∨ m = 3 ∨ m = 5 then 2 else 0⟩

theorem exShows (th ph : ℝ) (h0 : 0 < th) (h1 : th < π) (h2 : 0 ≤ ph) (h3 : ph < 2 * π) :
    Shows exSurf (fun _ => 0) 1 exF (fun i x => 2 * x i) (fun i j _ => if i = j then 2 else 0) th ph :=
  ⟨h0, h1, h2, h3, one_pos, _, rfl, rfl, rfl, fun _ => rfl, fun i j hij => by
    fin_cases i <;> fin_cases j <;> first | (exact absurd hij (by decide)) | simp [symm3]⟩

/-- the squared distance goes on, with inverse_r2, twice continuously differentiable: its value at twice the radius is 11/4 -/
example : ∃ G G1 G2 : ℝ → ℝ, (∀ s, HasDerivAt G (G1 s) s) ∧ (∀ s, HasDerivAt G1 (G2 s) s) ∧ Continuous G2 ∧
    (∀ s ≤ 1, G s = exF (ray (fun _ => 0) (unit (π / 2) 0) s)) ∧ G 2 = 11 / 4 := by
  have hs := exShows (π / 2) 0 (by have := pi_pos; linarith) (by have := pi_pos; linarith) le_rfl (by have := pi_pos; linarith)
  have hn : ((2 : ℝ) * unit (π / 2) 0 0 = 0 ∨ (1 / 1000 : ℝ) ≤ |2 * unit (π / 2) 0 0|) ∧
      ((2 : ℝ) * unit (π / 2) 0 1 = 0 ∨ (1 / 1000 : ℝ) ≤ |2 * unit (π / 2) 0 1|) := by
    rw [exUnit]; norm_num
  obtain ⟨d0, d1, d2⟩ := exData (π / 2) 0
  rcases C99_joined2 (e := 1 / 1000) (by norm_num) .inverseR2 (by simp) exF_smooth hs with ⟨h, -⟩ | ⟨G, G1, G2, a1, a2, a3, a4, a5⟩
  · cases h
  · refine ⟨G, G1, G2, a1, a2, a3, a4, ?_⟩
    have h := a5 2 (by norm_num) hn
    rw [node_ray (e := 1 / 1000) (by norm_num) .inverseR2 exF_smooth hs 2 (by norm_num) hn.1 hn.2, d0, d1] at h
    have h2 : (if Method.inverseR2.c2 = true then curv (fun i j _ => if i = j then (2 : ℝ) else 0) (fun _ => 0) (unit (π / 2) 0) 1 else 0) = 2 := d2
    rw [h2] at h
    have e : value (1 / 1000) .inverseR2 1 1 2 2 2 = .ok (11 / 4) := by
      show Res.ok _ = _
      congr 1
      norm_num [inverseR2]
    rw [e] at h
    exact (Res.ok.inj h).symm

end Elliptica.StarFill
