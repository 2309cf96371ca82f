import Verif.Model.Orbit
import Verif.Model.Gen.Fluid
import Verif.Spec.Adm
import Mathlib.LinearAlgebra.CrossProduct
import Mathlib.Tactic.FinCases
import Mathlib.Tactic.Linarith
import Mathlib.Tactic.NormNum
/-!
C69: the background shift of a binary in orbit.
-/
namespace Elliptica.Orbit
open Elliptica.Fields Elliptica.Adm

/-- **C69 (value).** B1 = Ω ẑ × (r - r_CM) + (v_r / D) (r - r_CM). -/
theorem C69_value (p : Par) (r : Fin 3 → ℝ) :
    b1 p r = crossProduct ![0, 0, p.omega] (r - p.CM) + (p.Vr / p.D) • (r - p.CM) := by
  rw [cross_apply]
  funext i
  fin_cases i <;> simp [b1] <;> ring

/-- **C69 (derivatives).** For both forms of the background: dB1_UiDj is the partial derivative of B1^i along x^j and
ddB1_UiDjDk that of dB1_UiDj. -/
theorem C69_derivative (o : Option Par) (r : Fin 3 → ℝ) (i j k : Fin 3) :
    HasDerivAt (line (fun x => (background o).B x i) j r) ((background o).dB i j) (r j) ∧
    HasDerivAt (line (fun _ => (background o).dB i j) k r) ((background o).ddB i j k) (r k) := by
  refine ⟨?_, by cases o <;> exact hasDerivAt_const _ _⟩
  cases o with
  | none => exact hasDerivAt_const _ _
  | some p =>
    have lin : ∀ a b : ℝ, HasDerivAt (fun t : ℝ => a * t + b) a (r j) := fun a b => by
      simpa using ((hasDerivAt_id (r j)).const_mul a).add_const b
    have key : ∀ f : ℝ → ℝ, ∀ a b : ℝ, (∀ t, f t = a * t + b) → HasDerivAt f a (r j) := fun f a b h => by
      rw [show f = fun t => a * t + b from funext h]; exact lin a b
    fin_cases i <;> fin_cases j
    · exact key _ _ (p.omega * (-r 1 + p.CM 1) - p.Vr * p.CM 0 / p.D) fun t => by simp [line, background, b1, db1]; ring
    · exact key _ _ (p.omega * p.CM 1 + p.Vr * (r 0 - p.CM 0) / p.D) fun t => by simp [line, background, b1, db1]; ring
    · exact key _ _ (b1 p r 0) fun t => by simp [line, background, b1, db1]
    · exact key _ _ (-p.omega * p.CM 0 + p.Vr * (r 1 - p.CM 1) / p.D) fun t => by simp [line, background, b1, db1]; ring
    · exact key _ _ (p.omega * (r 0 - p.CM 0) - p.Vr * p.CM 1 / p.D) fun t => by simp [line, background, b1, db1]; ring
    · exact key _ _ (b1 p r 1) fun t => by simp [line, background, b1, db1]
    · exact key _ _ (b1 p r 2) fun t => by simp [line, background, b1, db1]
    · exact key _ _ (b1 p r 2) fun t => by simp [line, background, b1, db1]
    · exact key _ _ (-p.Vr * p.CM 2 / p.D) fun t => by simp [line, background, b1, db1]; ring

/-- **C69 (total shift).** When dB0 and ddB0 hold the derivatives of B0, the fields dbeta and ddbeta hold those of beta. -/
theorem C69_total (o : Option Par) (B0 : Pt → Fin 3 → ℝ) (dB0 : Pt → Fin 3 → Fin 3 → ℝ) (ddB0 : Pt → Fin 3 → Fin 3 → Fin 3 → ℝ) (r : Pt)
    (i j k : Fin 3) (h1 : HasDerivAt (line (fun x => B0 x i) j r) (dB0 r i j) (r j))
    (h2 : HasDerivAt (line (fun x => dB0 x i j) k r) (ddB0 r i j k) (r k)) :
    beta (background o) B0 r i = B0 r i + (background o).B r i ∧
    HasDerivAt (line (fun x => beta (background o) B0 x i) j r) (dbeta (background o) dB0 r i j) (r j) ∧
    HasDerivAt (line (fun x => dbeta (background o) dB0 x i j) k r) (ddbeta (background o) ddB0 r i j k) (r k) :=
  ⟨rfl, h1.add (C69_derivative o r i j k).1, h2.add (C69_derivative o r i j k).2⟩

/-- **C69 (no shear).** With a flat conformal metric the background adds nothing to the conformal Killing operator: the
trace-free extrinsic curvature does not depend on Ω, v_r, D and the centre of mass through it. -/
theorem C69_no_shear (o : Option Par) (r : Fin 3 → ℝ) (b : Fin 3 → ℝ) (db : Fin 3 → Fin 3 → ℝ) (i j : Fin 3) :
    killing (fun a b => if a = b then 1 else 0) (fun _ _ _ => 0) (fun a => b a + (background o).B r a)
      (fun a c => db a c + (background o).dB a c) i j =
    killing (fun a b => if a = b then 1 else 0) (fun _ _ _ => 0) b db i j := by
  cases o with
  | none => simp [killing, cov, background, zero1, zero2]
  | some p =>
    fin_cases i <;> fin_cases j <;> simp [killing, cov, background, db1, Fin.sum_univ_three] <;> ring

/-! ### the copy in the force balance -/

open Elliptica.Gen.Fluid in
/-- **C69 (copy).** The function whose root gives the centre of mass or the angular velocity has its own copy of B1.  With
the parameters of the node it has the first two components of the shift right, and the third exactly when
v_r (z - z_CM) / D vanishes. -/
theorem C69_copy (p : Par) (r : Fin 3 → ℝ) (x : In) (h : x.Omega = p.omega ∧ x.Vr = p.Vr ∧ x.D = p.D ∧ x.x_CM = p.CM 0 ∧ x.y_CM = p.CM 1 ∧
    x.x0 = r 0 ∧ x.y0 = r 1) :
    Force.beta_U0 x = x.B0_U 0 + b1 p r 0 ∧ Force.beta_U1 x = x.B0_U 1 + b1 p r 1 ∧
    (Force.beta_U2 x = x.B0_U 2 + b1 p r 2 ↔ p.Vr * (r 2 - p.CM 2) / p.D = 0) := by
  obtain ⟨h1, h2, h3, h4, h5, h6, h7⟩ := h
  refine ⟨?_, ?_, ?_⟩
  · simp [Force.beta_U0, Force.B1_U0, b1, h1, h2, h3, h4, h5, h6, h7]
  · simp [Force.beta_U1, Force.B1_U1, b1, h1, h2, h3, h4, h5, h6, h7]
  · simp only [Force.beta_U2, Force.B1_U2, b1, Matrix.cons_val]
    constructor
    · intro h; linarith
    · intro h; linarith

/-- **C69, a violation.** With an infall velocity the copy disagrees with the shift off the plane of the orbit: for every node
with the parameters of an infalling binary and z ≠ z_CM. -/
theorem C69_copy_violation (p : Par) (r : Fin 3 → ℝ) (hV : p.Vr ≠ 0) (hD : p.D ≠ 0) (hz : r 2 ≠ p.CM 2)
    (x : Elliptica.Gen.Fluid.In) (h : x.Omega = p.omega ∧ x.Vr = p.Vr ∧ x.D = p.D ∧ x.x_CM = p.CM 0 ∧ x.y_CM = p.CM 1 ∧
    x.x0 = r 0 ∧ x.y0 = r 1) : Elliptica.Gen.Fluid.Force.beta_U2 x ≠ x.B0_U 2 + b1 p r 2 := by
  intro q
  have := (C69_copy p r x h).2.2.1 q
  exact absurd this (div_ne_zero (mul_ne_zero hV (sub_ne_zero.2 hz)) hD)

/-! ### an example -/

/-- a binary at separation 40 that falls in -/
noncomputable def demo : Par := ⟨1 / 200, -1 / 1000, 40, ![1, 0, 0]⟩

example : b1 demo ![21, 4, 2] = ![-1 / 50 - 1 / 2000, 1 / 10 - 1 / 10000, -1 / 20000] := by
  funext i
  fin_cases i <;> simp [b1, demo] <;> norm_num

example : HasDerivAt (line (fun x => (background (some demo)).B x 0) 1 ![21, 4, 2]) (-(1 / 200)) 4 := by
  have := (C69_derivative (some demo) ![21, 4, 2] 0 1 0).1
  simpa [background, db1, demo] using this

end Elliptica.Orbit
