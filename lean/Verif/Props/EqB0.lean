import Verif.Model.Gen.EqB0
import Verif.Spec.Adm
import Verif.Props.DiffGeom
import Mathlib.Tactic.FieldSimp
import Verif.Lemmas.Fields
/-!
C63, C64 the equations of the shift.
-/
namespace Elliptica.Equation.Shift
open Elliptica.Gen Elliptica.Gen.Shift Elliptica.Adm Elliptica.Fields

/-- the symmetries of the metric and the connection at a node; the code keeps only the components in order -/
structure SymG (x : In) : Prop where
  h : ∀ i j, x.igConf_UU i j = x.igConf_UU j i
  c : ∀ i j k, x.ChrisConf_UDD i j k = x.ChrisConf_UDD i k j

/-- the symmetries of all fields at a node -/
structure Sym (x : In) : Prop extends SymG x where
  A : ∀ i j, x.AConfIJ_UU i j = x.AConfIJ_UU j i
  dA : ∀ i j k, x.dAConfIJ_UUD i j k = x.dAConfIJ_UUD j i k

/-- the residual written for the equation of component `a` of the shift -/
noncomputable def residual (a : Fin 3) (x : In) : ℝ :=
  ![Eq0.out_schur_F x, Eq1.out_schur_F x, Eq2.out_schur_F x] a

/-- C63: the value stored for an inner node is the momentum constraint times 2 α ψ -/
theorem C63_shift (a : Fin 3) (x : In) (S : Sym x) (hp : x.psi ≠ 0) :
    residual a x = momentum x.igConf_UU x.ChrisConf_UDD x.AConfIJ_UU x.dAConfIJ_UUD x.dtrK_D x.JConfP_U x.psi x.alphaPsi x.JConfC a := by
  unfold residual
  fin_cases a <;>
    simp only [Matrix.cons_val, Fin.zero_eta, Fin.mk_one, Fin.reduceFinMk]
  · unfold Eq0.out_schur_F Eq0.F_eq_U0 Eq0.ell_U0 Eq0.s_U0 Eq0.F1_U0 Eq0.F0_U0 Eq0.F00_U0 momentum divT
    simp only [Fin.sum_univ_three, S.A 1 0, S.A 2 0, S.A 2 1, S.h 1 0, S.h 2 0, S.h 2 1, S.c _ 1 0, S.c _ 2 0, S.c _ 2 1, S.dA 1 0, S.dA 2 0, S.dA 2 1]
    field_simp
    ring
  · unfold Eq1.out_schur_F Eq1.F_eq_U1 Eq1.ell_U1 Eq1.s_U1 Eq1.F1_U1 Eq1.F0_U1 Eq1.F00_U1 momentum divT
    simp only [Fin.sum_univ_three, S.A 1 0, S.A 2 0, S.A 2 1, S.h 1 0, S.h 2 0, S.h 2 1, S.c _ 1 0, S.c _ 2 0, S.c _ 2 1, S.dA 1 0, S.dA 2 0, S.dA 2 1]
    field_simp
    ring
  · unfold Eq2.out_schur_F Eq2.F_eq_U2 Eq2.ell_U2 Eq2.s_U2 Eq2.F1_U2 Eq2.F0_U2 Eq2.F00_U2 momentum divT
    simp only [Fin.sum_univ_three, S.A 1 0, S.A 2 0, S.A 2 1, S.h 1 0, S.h 2 0, S.h 2 1, S.c _ 1 0, S.c _ 2 0, S.c _ 2 1, S.dA 1 0, S.dA 2 0, S.dA 2 1]
    field_simp
    ring

/-- the derivative of D_k b^j along the m-th coordinate -/
noncomputable def covD (c : Fin 3 → Fin 3 → Fin 3 → ℝ) (dc : Fin 3 → Fin 3 → Fin 3 → Fin 3 → ℝ) (b : Fin 3 → ℝ) (db : Fin 3 → Fin 3 → ℝ)
    (ddb : Fin 3 → Fin 3 → Fin 3 → ℝ) (j k m : Fin 3) : ℝ :=
  ddb j k m + ∑ l, (dc j k l m * b l + c j k l * db l m)

/-- the derivative of (Lb)^{ij} along the m-th coordinate -/
noncomputable def killingD (h : Fin 3 → Fin 3 → ℝ) (dh : Fin 3 → Fin 3 → Fin 3 → ℝ) (c : Fin 3 → Fin 3 → Fin 3 → ℝ)
    (dc : Fin 3 → Fin 3 → Fin 3 → Fin 3 → ℝ) (b : Fin 3 → ℝ) (db : Fin 3 → Fin 3 → ℝ) (ddb : Fin 3 → Fin 3 → Fin 3 → ℝ) (i j m : Fin 3) : ℝ :=
  (∑ k, (dh i k m * cov c b db j k + h i k * covD c dc b db ddb j k m)) + (∑ k, (dh j k m * cov c b db i k + h j k * covD c dc b db ddb i k m))
    - 2 / 3 * (dh i j m * (∑ k, cov c b db k k) + h i j * ∑ k, covD c dc b db ddb k k m)

/-- a vector with the only component `a` -/
noncomputable def only (a : Fin 3) (v : ℝ) (j : Fin 3) : ℝ := if j = a then v else 0

/-- ∂_k h^{ij} of a metric that is constant under the connection of the node -/
noncomputable def metricD (x : In) (i j k : Fin 3) : ℝ :=
  - ∑ l, (x.ChrisConf_UDD i k l * x.igConf_UU l j + x.ChrisConf_UDD j k l * x.igConf_UU i l)

/-- what is known of the geometry at a node: symmetries, Γ^k_{ki} is a gradient (of ln √γ), the Ricci tensor is the one of the connection -/
structure Geom (x : In) : Prop where
  J : ∀ i j, x.JJB0_DD i j = x.JJB0_DD j i
  d : ∀ i j k l, x.dChrisConf_UDDD i j k l = x.dChrisConf_UDDD i k j l
  T : ∀ i j, ∑ k, x.dChrisConf_UDDD k k i j = ∑ k, x.dChrisConf_UDDD k k j i
  R : ∀ i j, x.RicciConf_DD i j = DiffGeom.ricci x.ChrisConf_UDD x.dChrisConf_UDDD i j

theorem Geom.t01 {x : In} (Q : Geom x) : x.dChrisConf_UDDD 2 0 2 1 = x.dChrisConf_UDDD 0 0 1 0 + x.dChrisConf_UDDD 1 1 1 0 + x.dChrisConf_UDDD 2 1 2 0
    - x.dChrisConf_UDDD 0 0 0 1 - x.dChrisConf_UDDD 1 0 1 1 := by
  have := Q.T 0 1
  simp only [Fin.sum_univ_three, Q.d _ 1 0, Q.d _ 2 0, Q.d _ 2 1] at this
  linear_combination this

theorem Geom.t02 {x : In} (Q : Geom x) : x.dChrisConf_UDDD 2 0 2 2 = x.dChrisConf_UDDD 0 0 2 0 + x.dChrisConf_UDDD 1 1 2 0 + x.dChrisConf_UDDD 2 2 2 0
    - x.dChrisConf_UDDD 0 0 0 2 - x.dChrisConf_UDDD 1 0 1 2 := by
  have := Q.T 0 2
  simp only [Fin.sum_univ_three, Q.d _ 1 0, Q.d _ 2 0, Q.d _ 2 1] at this
  linear_combination this

theorem Geom.t12 {x : In} (Q : Geom x) : x.dChrisConf_UDDD 2 1 2 2 = x.dChrisConf_UDDD 0 0 2 1 + x.dChrisConf_UDDD 1 1 2 1 + x.dChrisConf_UDDD 2 2 2 1
    - x.dChrisConf_UDDD 0 0 1 2 - x.dChrisConf_UDDD 1 1 1 2 := by
  have := Q.T 1 2
  simp only [Fin.sum_univ_three, Q.d _ 1 0, Q.d _ 2 0, Q.d _ 2 1] at this
  linear_combination this

/-- D_j(Lb)^{aj} - ∂_j ln(α/ψ⁶) (Lb)^{aj} for the vector b with the only component b^a of value `kd` and derivatives `JB0`, `JJB0` -/
noncomputable def linear (x : In) (a : Fin 3) : ℝ :=
  divT x.ChrisConf_UDD (killing x.igConf_UU x.ChrisConf_UDD (only a x.kd) (fun j k => only a (x.JB0_D k) j))
      (killingD x.igConf_UU (metricD x) x.ChrisConf_UDD x.dChrisConf_UDDD (only a x.kd) (fun j k => only a (x.JB0_D k) j)
        (fun j k l => only a (x.JJB0_DD k l) j)) a
    - ∑ j, (x.dalphaPsi_D j / x.alphaPsi - 7 * x.dpsi_D j / x.psi) *
        killing x.igConf_UU x.ChrisConf_UDD (only a x.kd) (fun j k => only a (x.JB0_D k) j) a j

set_option maxHeartbeats 8000000 in
theorem jacB0 (x : In) (S : SymG x) (Q : Geom x) : JacEq0.out_schur_B x = x.JConfC * linear x 0 := by
  unfold JacEq0.out_schur_B JacEq0.Bpart_U0_mul JacEq0.Bpart_U0 JacEq0.t10_B_U0 JacEq0.t1_B_U0 JacEq0.t2_B_U0 JacEq0.t3_B_U0 JacEq0.t4_B_U0 JacEq0.t5_B_U0 JacEq0.t6_B_U0 JacEq0.t7_B_U0
    JacEq0.t8_B_U0 JacEq0.t9_B_U0 JacEq0.t1p10_B_U0 JacEq0.t2p10_B_U0 JacEq0.t3p10_B_U0 JacEq0.contB linear divT killing killingD cov covD
  generalize e0 : JacEq0.dLnOf_alpha_B_U0 x = L0
  generalize e1 : JacEq0.dLnOf_alpha_B_U1 x = L1
  generalize e2 : JacEq0.dLnOf_alpha_B_U2 x = L2
  have f : ∀ j, ![L0, L1, L2] j = x.dalphaPsi_D j / x.alphaPsi - 7 * x.dpsi_D j / x.psi := by
    intro j
    fin_cases j
    · rw [← e0]; simp [JacEq0.dLnOf_alpha_B_U0]; ring
    · rw [← e1]; simp [JacEq0.dLnOf_alpha_B_U1]; ring
    · rw [← e2]; simp [JacEq0.dLnOf_alpha_B_U2]; ring
  simp only [← f, metricD, Q.R, DiffGeom.ricci, only, Fin.sum_univ_three, Matrix.cons_val]
  simp only [S.h 1 0, S.h 2 0, S.h 2 1, S.c _ 1 0, S.c _ 2 0, S.c _ 2 1, Q.J 1 0, Q.J 2 0, Q.J 2 1, Q.d _ 1 0, Q.d _ 2 0, Q.d _ 2 1]
  simp only [Fin.isValue, if_true, if_false, reduceIte, Fin.reduceEq, mul_zero, add_zero, zero_add]
  simp only [Q.t01, Q.t02, Q.t12]
  ring

set_option maxHeartbeats 8000000 in
theorem jacB1 (x : In) (S : SymG x) (Q : Geom x) : JacEq1.out_schur_B x = x.JConfC * linear x 1 := by
  unfold JacEq1.out_schur_B JacEq1.Bpart_U1_mul JacEq1.Bpart_U1 JacEq1.t10_B_U1 JacEq1.t1_B_U1 JacEq1.t2_B_U1 JacEq1.t3_B_U1 JacEq1.t4_B_U1 JacEq1.t5_B_U1 JacEq1.t6_B_U1 JacEq1.t7_B_U1
    JacEq1.t8_B_U1 JacEq1.t9_B_U1 JacEq1.t1p10_B_U1 JacEq1.t2p10_B_U1 JacEq1.t3p10_B_U1 JacEq1.contB linear divT killing killingD cov covD
  generalize e0 : JacEq1.dLnOf_alpha_B_U0 x = L0
  generalize e1 : JacEq1.dLnOf_alpha_B_U1 x = L1
  generalize e2 : JacEq1.dLnOf_alpha_B_U2 x = L2
  have f : ∀ j, ![L0, L1, L2] j = x.dalphaPsi_D j / x.alphaPsi - 7 * x.dpsi_D j / x.psi := by
    intro j
    fin_cases j
    · rw [← e0]; simp [JacEq1.dLnOf_alpha_B_U0]; ring
    · rw [← e1]; simp [JacEq1.dLnOf_alpha_B_U1]; ring
    · rw [← e2]; simp [JacEq1.dLnOf_alpha_B_U2]; ring
  simp only [← f, metricD, Q.R, DiffGeom.ricci, only, Fin.sum_univ_three, Matrix.cons_val]
  simp only [S.h 1 0, S.h 2 0, S.h 2 1, S.c _ 1 0, S.c _ 2 0, S.c _ 2 1, Q.J 1 0, Q.J 2 0, Q.J 2 1, Q.d _ 1 0, Q.d _ 2 0, Q.d _ 2 1]
  simp only [Fin.isValue, if_true, if_false, reduceIte, Fin.reduceEq, mul_zero, add_zero, zero_add]
  simp only [Q.t01, Q.t02, Q.t12]
  ring

set_option maxHeartbeats 8000000 in
theorem jacB2 (x : In) (S : SymG x) (Q : Geom x) : JacEq2.out_schur_B x = x.JConfC * linear x 2 := by
  unfold JacEq2.out_schur_B JacEq2.Bpart_U2_mul JacEq2.Bpart_U2 JacEq2.t10_B_U2 JacEq2.t1_B_U2 JacEq2.t2_B_U2 JacEq2.t3_B_U2 JacEq2.t4_B_U2 JacEq2.t5_B_U2 JacEq2.t6_B_U2 JacEq2.t7_B_U2
    JacEq2.t8_B_U2 JacEq2.t9_B_U2 JacEq2.t1p10_B_U2 JacEq2.t2p10_B_U2 JacEq2.t3p10_B_U2 JacEq2.contB linear divT killing killingD cov covD
  generalize e0 : JacEq2.dLnOf_alpha_B_U0 x = L0
  generalize e1 : JacEq2.dLnOf_alpha_B_U1 x = L1
  generalize e2 : JacEq2.dLnOf_alpha_B_U2 x = L2
  have f : ∀ j, ![L0, L1, L2] j = x.dalphaPsi_D j / x.alphaPsi - 7 * x.dpsi_D j / x.psi := by
    intro j
    fin_cases j
    · rw [← e0]; simp [JacEq2.dLnOf_alpha_B_U0]; ring
    · rw [← e1]; simp [JacEq2.dLnOf_alpha_B_U1]; ring
    · rw [← e2]; simp [JacEq2.dLnOf_alpha_B_U2]; ring
  simp only [← f, metricD, Q.R, DiffGeom.ricci, only, Fin.sum_univ_three, Matrix.cons_val]
  simp only [S.h 1 0, S.h 2 0, S.h 2 1, S.c _ 1 0, S.c _ 2 0, S.c _ 2 1, Q.J 1 0, Q.J 2 0, Q.J 2 1, Q.d _ 1 0, Q.d _ 2 0, Q.d _ 2 1]
  simp only [Fin.isValue, if_true, if_false, reduceIte, Fin.reduceEq, mul_zero, add_zero, zero_add]
  simp only [Q.t01, Q.t02, Q.t12]
  ring

set_option maxHeartbeats 2000000 in
theorem flat0 (x : In) (S : SymG x) (J : ∀ i j, x.JJB0_DD i j = x.JJB0_DD j i) (c0 : ∀ i j k, x.ChrisConf_UDD i j k = 0)
    (d0 : ∀ i j k l, x.dChrisConf_UDDD i j k l = 0) : JacFlat0.out_schur_B x = x.JConfC * linear x 0 := by
  unfold JacFlat0.out_schur_B JacFlat0.Bpart_U0_mul JacFlat0.Bpart_U0 JacFlat0.t1_B_U0 JacFlat0.t2_B_U0 JacFlat0.t3_B_U0 JacFlat0.t4_B_U0 JacFlat0.t5_B_U0
    JacFlat0.dLnOf_alpha_B_U0 JacFlat0.dLnOf_alpha_B_U1 JacFlat0.dLnOf_alpha_B_U2 linear divT killing killingD cov covD
  simp only [metricD, only, Fin.sum_univ_three, c0, d0]
  simp only [S.h 1 0, S.h 2 0, S.h 2 1, J 1 0, J 2 0, J 2 1]
  simp only [Fin.isValue, if_true, if_false, reduceIte, Fin.reduceEq, mul_zero, add_zero, zero_add, zero_mul, neg_zero]
  ring

set_option maxHeartbeats 2000000 in
theorem flat1 (x : In) (S : SymG x) (J : ∀ i j, x.JJB0_DD i j = x.JJB0_DD j i) (c0 : ∀ i j k, x.ChrisConf_UDD i j k = 0)
    (d0 : ∀ i j k l, x.dChrisConf_UDDD i j k l = 0) : JacFlat1.out_schur_B x = x.JConfC * linear x 1 := by
  unfold JacFlat1.out_schur_B JacFlat1.Bpart_U1_mul JacFlat1.Bpart_U1 JacFlat1.t1_B_U1 JacFlat1.t2_B_U1 JacFlat1.t3_B_U1 JacFlat1.t4_B_U1 JacFlat1.t5_B_U1
    JacFlat1.dLnOf_alpha_B_U0 JacFlat1.dLnOf_alpha_B_U1 JacFlat1.dLnOf_alpha_B_U2 linear divT killing killingD cov covD
  simp only [metricD, only, Fin.sum_univ_three, c0, d0]
  simp only [S.h 1 0, S.h 2 0, S.h 2 1, J 1 0, J 2 0, J 2 1]
  simp only [Fin.isValue, if_true, if_false, reduceIte, Fin.reduceEq, mul_zero, add_zero, zero_add, zero_mul, neg_zero]
  ring

set_option maxHeartbeats 2000000 in
theorem flat2 (x : In) (S : SymG x) (J : ∀ i j, x.JJB0_DD i j = x.JJB0_DD j i) (c0 : ∀ i j k, x.ChrisConf_UDD i j k = 0)
    (d0 : ∀ i j k l, x.dChrisConf_UDDD i j k l = 0) : JacFlat2.out_schur_B x = x.JConfC * linear x 2 := by
  unfold JacFlat2.out_schur_B JacFlat2.Bpart_U2_mul JacFlat2.Bpart_U2 JacFlat2.t1_B_U2 JacFlat2.t2_B_U2 JacFlat2.t3_B_U2 JacFlat2.t4_B_U2 JacFlat2.t5_B_U2
    JacFlat2.dLnOf_alpha_B_U0 JacFlat2.dLnOf_alpha_B_U1 JacFlat2.dLnOf_alpha_B_U2 linear divT killing killingD cov covD
  simp only [metricD, only, Fin.sum_univ_three, c0, d0]
  simp only [S.h 1 0, S.h 2 0, S.h 2 1, J 1 0, J 2 0, J 2 1]
  simp only [Fin.isValue, if_true, if_false, reduceIte, Fin.reduceEq, mul_zero, add_zero, zero_add, zero_mul, neg_zero]
  ring

/-- the entries written for the rows of component `a` of the shift and the columns of the same component, from the general code (`flat` = false)
or from the code for a flat conformal metric -/
noncomputable def entry (flat : Bool) (a : Fin 3) (x : In) : ℝ :=
  if flat then ![JacFlat0.out_schur_B x, JacFlat1.out_schur_B x, JacFlat2.out_schur_B x] a
  else ![JacEq0.out_schur_B x, JacEq1.out_schur_B x, JacEq2.out_schur_B x] a

noncomputable def entryE (flat : Bool) (a : Fin 3) (x : In) : ℝ :=
  if flat then ![JacFlat0.out_schur_Et x, JacFlat1.out_schur_Et x, JacFlat2.out_schur_Et x] a
  else ![JacEq0.out_schur_Et x, JacEq1.out_schur_Et x, JacEq2.out_schur_Et x] a

theorem entry_linear (flat : Bool) (a : Fin 3) (x : In) (S : SymG x) (Q : Geom x)
    (F : flat = true → (∀ i j k, x.ChrisConf_UDD i j k = 0) ∧ ∀ i j k l, x.dChrisConf_UDDD i j k l = 0) :
    entry flat a x = x.JConfC * linear x a ∧ entryE flat a x = entry flat a x := by
  cases flat
  · constructor
    · unfold entry
      fin_cases a
      · exact jacB0 x S Q
      · exact jacB1 x S Q
      · exact jacB2 x S Q
    · unfold entry entryE
      fin_cases a <;> rfl
  · obtain ⟨c0, d0⟩ := F rfl
    constructor
    · unfold entry
      fin_cases a
      · exact flat0 x S Q.J c0 d0
      · exact flat1 x S Q.J c0 d0
      · exact flat2 x S Q.J c0 d0
    · unfold entry entryE
      fin_cases a <;> rfl

/-! ### fields -/

/-- the fields on which the extrinsic curvature depends besides the shift -/
structure Slice where
  psi : Pt → ℝ
  alphaPsi : Pt → ℝ
  /-- conformal inverse metric and connection -/
  ig : Fin 3 → Fin 3 → Pt → ℝ
  chris : Fin 3 → Fin 3 → Fin 3 → Pt → ℝ

/-- A^{ij} = ψ⁷ / (2 α ψ) (Lb)^{ij} of a shift b -/
noncomputable def Slice.A (s : Slice) (b : Fin 3 → Pt → ℝ) (i j : Fin 3) (q : Pt) : ℝ :=
  s.psi q ^ 7 / (2 * s.alphaPsi q) *
    killing (fun i j => s.ig i j q) (fun i j k => s.chris i j k q) (fun l => b l q) (fun j k => pd (b j) k q) i j

theorem killing_deriv {h : Fin 3 → Fin 3 → ℝ → ℝ} {c : Fin 3 → Fin 3 → Fin 3 → ℝ → ℝ} {b : Fin 3 → ℝ → ℝ} {db : Fin 3 → Fin 3 → ℝ → ℝ}
    {h' : Fin 3 → Fin 3 → ℝ} {c' : Fin 3 → Fin 3 → Fin 3 → ℝ} {b' : Fin 3 → ℝ} {db' : Fin 3 → Fin 3 → ℝ} {t : ℝ}
    (hh : ∀ i j, HasDerivAt (h i j) (h' i j) t) (hc : ∀ i j k, HasDerivAt (c i j k) (c' i j k) t) (hb : ∀ i, HasDerivAt (b i) (b' i) t)
    (hd : ∀ i j, HasDerivAt (db i j) (db' i j) t) (i j : Fin 3) :
    HasDerivAt (fun t => killing (fun i j => h i j t) (fun i j k => c i j k t) (fun l => b l t) (fun j k => db j k t) i j)
      ((∑ k, (h' i k * (db j k t + ∑ l, c j k l t * b l t) + h i k t * (db' j k + ∑ l, (c' j k l * b l t + c j k l t * b' l))))
       + (∑ k, (h' j k * (db i k t + ∑ l, c i k l t * b l t) + h j k t * (db' i k + ∑ l, (c' i k l * b l t + c i k l t * b' l))))
       - 2 / 3 * (h' i j * (∑ k, (db k k t + ∑ l, c k k l t * b l t)) + h i j t * ∑ k, (db' k k + ∑ l, (c' k k l * b l t + c k k l t * b' l)))) t := by
  unfold killing cov
  have hcov : ∀ j k, HasDerivAt (fun t => db j k t + ∑ l, c j k l t * b l t) (db' j k + ∑ l, (c' j k l * b l t + c j k l t * b' l)) t :=
    fun j k => (hd j k).add (HasDerivAt.fun_sum fun l _ => (hc j k l).mul (hb l))
  have h1 : ∀ i j, HasDerivAt (fun t => ∑ k, h i k t * (db j k t + ∑ l, c j k l t * b l t))
      (∑ k, (h' i k * (db j k t + ∑ l, c j k l t * b l t) + h i k t * (db' j k + ∑ l, (c' j k l * b l t + c j k l t * b' l)))) t :=
    fun i j => HasDerivAt.fun_sum fun k _ => (hh i k).mul (hcov j k)
  have h3 : HasDerivAt (fun t => ∑ k, (db k k t + ∑ l, c k k l t * b l t)) (∑ k, (db' k k + ∑ l, (c' k k l * b l t + c k k l t * b' l))) t :=
    HasDerivAt.fun_sum fun k _ => hcov k k
  refine (((h1 i j).add (h1 j i)).sub (((hh i j).const_mul (2 / 3)).mul h3)).congr_deriv ?_
  ring

/-- `x` holds the values and derivatives of the fields of the slice at p -/
structure At (s : Slice) (p : Pt) (x : In) : Prop where
  psi : x.psi = s.psi p
  dpsi : ∀ i, x.dpsi_D i = pd s.psi i p
  alphaPsi : x.alphaPsi = s.alphaPsi p
  dalphaPsi : ∀ i, x.dalphaPsi_D i = pd s.alphaPsi i p
  ig : ∀ i j, x.igConf_UU i j = s.ig i j p
  chris : ∀ i j k, x.ChrisConf_UDD i j k = s.chris i j k p
  dchris : ∀ i j k l, x.dChrisConf_UDDD i j k l = pd (s.chris i j k) l p

/-- differentiable fields; the connection is that of the metric -/
structure Good (s : Slice) (p : Pt) : Prop where
  psi0 : s.psi p ≠ 0
  alphaPsi0 : s.alphaPsi p ≠ 0
  dpsi : Diff s.psi p
  dalphaPsi : Diff s.alphaPsi p
  dig : ∀ i j, Diff (s.ig i j) p
  dchris : ∀ i j k, Diff (s.chris i j k) p
  sym : ∀ i j q, s.ig i j q = s.ig j i q
  csym : ∀ i j k q, s.chris i j k q = s.chris i k j q
  compat : ∀ i j k, pd (s.ig i j) k p = - ∑ l, (s.chris i k l p * s.ig l j p + s.chris j k l p * s.ig i l p)

/-- a shift with first derivatives everywhere and second derivatives at p -/
def Smooth (b : Fin 3 → Pt → ℝ) (p : Pt) : Prop := (∀ l q, Diff (b l) q) ∧ ∀ l k, Diff (pd (b l) k) p

/-- the node values when A^{ij} is computed from the shift b -/
noncomputable def withShift (s : Slice) (b : Fin 3 → Pt → ℝ) (p : Pt) (x : In) : In :=
  { x with AConfIJ_UU := fun i j => s.A b i j p, dAConfIJ_UUD := fun i j k => pd (s.A b i j) k p }

theorem killing_sym (h : Fin 3 → Fin 3 → ℝ) (hs : ∀ i j, h i j = h j i) (c : Fin 3 → Fin 3 → Fin 3 → ℝ) (b : Fin 3 → ℝ) (db : Fin 3 → Fin 3 → ℝ)
    (i j : Fin 3) : killing h c b db i j = killing h c b db j i := by
  unfold killing
  rw [hs i j]; ring

theorem A_sym (s : Slice) (b : Fin 3 → Pt → ℝ) (hs : ∀ i j q, s.ig i j q = s.ig j i q) (i j : Fin 3) : s.A b i j = s.A b j i := by
  funext q
  unfold Slice.A
  rw [killing_sym _ (fun i j => hs i j q)]

theorem A_has (s : Slice) (p : Pt) (G : Good s p) (b : Fin 3 → Pt → ℝ) (B : Smooth b p) (i j m : Fin 3) :
    HasDerivAt (line (s.A b i j) m p)
      (s.psi p ^ 7 / (2 * s.alphaPsi p) * ((7 * pd s.psi m p / s.psi p - pd s.alphaPsi m p / s.alphaPsi p) *
          killing (fun i j => s.ig i j p) (fun i j k => s.chris i j k p) (fun l => b l p) (fun j k => pd (b j) k p) i j +
        killingD (fun i j => s.ig i j p) (fun i j k => pd (s.ig i j) k p) (fun i j k => s.chris i j k p) (fun i j k l => pd (s.chris i j k) l p)
          (fun l => b l p) (fun j k => pd (b j) k p) (fun j k l => pd (pd (b j) k) l p) i j m)) (p m) := by
  have hk := killing_deriv (fun i j => (G.dig i j).has m) (fun i j k => (G.dchris i j k).has m) (fun l => (B.1 l p).has m)
    (fun l k => (B.2 l k).has m) i j
  have ha0 : line s.alphaPsi m p (p m) ≠ 0 := by rw [line_at]; exact G.alphaPsi0
  have hp0 : line s.psi m p (p m) ≠ 0 := by rw [line_at]; exact G.psi0
  have hσ := ((G.dpsi.has m).pow 7).div ((G.dalphaPsi.has m).const_mul 2) (mul_ne_zero two_ne_zero ha0)
  refine (hσ.mul hk).congr_deriv ?_
  have ep := G.psi0
  have ea := G.alphaPsi0
  simp only [Pi.div_apply, Pi.pow_apply, line_at, killing, killingD, cov, covD, Nat.cast_ofNat, Nat.reduceSub]
  field_simp

/-- the shift with the value of component `a` raised by t η -/
noncomputable def bump (b : Fin 3 → Pt → ℝ) (a : Fin 3) (η : Pt → ℝ) (t : ℝ) (l : Fin 3) (q : Pt) : ℝ := b l q + t * only a (η q) l

theorem only_diff (a : Fin 3) (η : Pt → ℝ) (q : Pt) (h : Diff η q) (l : Fin 3) : Diff (fun q => only a (η q) l) q := by
  unfold only
  by_cases e : l = a
  · simpa [e] using h
  · simp only [if_neg e]; intro i; exact differentiableAt_const _

theorem pd_only (a : Fin 3) (η : Pt → ℝ) (l k : Fin 3) : pd (fun q => only a (η q) l) k = fun q => only a (pd η k q) l := by
  funext q
  unfold only
  by_cases e : l = a
  · simp [e]
  · simp only [if_neg e, pd]; exact deriv_const _ _

theorem pd_add_mul {f g : Pt → ℝ} {p : Pt} (hf : Diff f p) (hg : Diff g p) (t : ℝ) (k : Fin 3) :
    pd (fun q => f q + t * g q) k p = pd f k p + t * pd g k p :=
  ((hf.has k).add ((hg.has k).const_mul t)).deriv

theorem killing_lin (h : Fin 3 → Fin 3 → ℝ) (c : Fin 3 → Fin 3 → Fin 3 → ℝ) (b b' : Fin 3 → ℝ) (db db' : Fin 3 → Fin 3 → ℝ) (t : ℝ) (i j : Fin 3) :
    killing h c (fun l => b l + t * b' l) (fun l k => db l k + t * db' l k) i j = killing h c b db i j + t * killing h c b' db' i j := by
  simp only [killing, cov, Fin.sum_univ_three]
  ring

/-- A^{ij} is linear in the shift -/
theorem A_bump (s : Slice) (b : Fin 3 → Pt → ℝ) (hb : ∀ l q, Diff (b l) q) (a : Fin 3) (η : Pt → ℝ) (hη : ∀ q, Diff η q) (t : ℝ) (i j : Fin 3) :
    s.A (bump b a η t) i j = fun q => s.A b i j q + t * s.A (fun l q => only a (η q) l) i j q := by
  funext q
  have e : (fun l k => pd (bump b a η t l) k q) = fun l k => pd (b l) k q + t * pd (fun q => only a (η q) l) k q := by
    funext l k
    exact pd_add_mul (hb l q) (only_diff a η q (hη q) l) t k
  unfold Slice.A
  rw [e]
  show _ * killing _ _ (fun l => b l q + t * only a (η q) l) _ i j = _
  rw [killing_lin]
  ring

/-- C64: the Jacobian entry of a pair of nodes is the derivative of the momentum constraint when the value of component `a` of the shift is
raised by a field η with value `kd`, first derivatives `JB0` and second derivatives `JJB0` at the node of the row; the extrinsic curvature
follows the shift. The code for a flat conformal metric is used when the connection vanishes. -/
theorem C64_shift (flat : Bool) (a : Fin 3) (s : Slice) (p : Pt) (x : In) (X : At s p x) (G : Good s p) (Q : Geom x)
    (F : flat = true → (∀ i j k, x.ChrisConf_UDD i j k = 0) ∧ ∀ i j k l, x.dChrisConf_UDDD i j k l = 0)
    (b : Fin 3 → Pt → ℝ) (B : Smooth b p) (η : Pt → ℝ) (N : Smooth (fun _ => η) p)
    (kd : x.kd = η p) (J : ∀ i, x.JB0_D i = pd η i p) (JJ : ∀ i j, x.JJB0_DD i j = pd (pd η i) j p) :
    HasDerivAt (fun t => residual a (withShift s (bump b a η t) p x)) (entry flat a x) 0 ∧ entryE flat a x = entry flat a x := by
  have S : ∀ b, Sym (withShift s b p x) := fun b =>
    { h := fun i j => by show x.igConf_UU i j = x.igConf_UU j i; rw [X.ig, X.ig, G.sym]
      c := fun i j k => by show x.ChrisConf_UDD i j k = x.ChrisConf_UDD i k j; rw [X.chris, X.chris, G.csym]
      A := fun i j => by show s.A b i j p = s.A b j i p; rw [A_sym s b G.sym]
      dA := fun i j k => by show pd (s.A b i j) k p = pd (s.A b j i) k p; rw [A_sym s b G.sym] }
  have Sx : SymG x := ⟨(S b).h, (S b).c⟩
  obtain ⟨e1, e2⟩ := entry_linear flat a x Sx Q F
  refine ⟨?_, e2⟩
  have hη : ∀ q, Diff η q := fun q => N.1 0 q
  have No : Smooth (fun l q => only a (η q) l) p := by
    refine ⟨fun l q => only_diff a η q (hη q) l, fun l k => ?_⟩
    rw [pd_only]
    exact only_diff a (pd η k) p (N.2 0 k) l
  have hp : x.psi ≠ 0 := by rw [X.psi]; exact G.psi0
  have ha : x.alphaPsi ≠ 0 := by rw [X.alphaPsi]; exact G.alphaPsi0
  have key : (fun t => residual a (withShift s (bump b a η t) p x)) = fun t => residual a (withShift s b p x) + t * entry flat a x := by
    funext t
    rw [C63_shift a _ (S _) hp, C63_shift a _ (S _) hp, e1]
    have hA : ∀ i j, s.A (bump b a η t) i j p = s.A b i j p + t * s.A (fun l q => only a (η q) l) i j p :=
      fun i j => congrFun (A_bump s b B.1 a η hη t i j) p
    have hdA : ∀ i j k, pd (s.A (bump b a η t) i j) k p = pd (s.A b i j) k p + t * pd (s.A (fun l q => only a (η q) l) i j) k p := by
      intro i j k
      rw [A_bump s b B.1 a η hη t i j]
      exact pd_add_mul (fun k => (A_has s p G b B i j k).differentiableAt) (fun k => (A_has s p G _ No i j k).differentiableAt) t k
    have hD : ∀ i j k, pd (s.A (fun l q => only a (η q) l) i j) k p =
        x.psi ^ 7 / (2 * x.alphaPsi) * ((7 * x.dpsi_D k / x.psi - x.dalphaPsi_D k / x.alphaPsi) *
          killing x.igConf_UU x.ChrisConf_UDD (only a x.kd) (fun j k => only a (x.JB0_D k) j) i j +
          killingD x.igConf_UU (metricD x) x.ChrisConf_UDD x.dChrisConf_UDDD (only a x.kd) (fun j k => only a (x.JB0_D k) j)
            (fun j k l => only a (x.JJB0_DD k l) j) i j k) := by
      intro i j k
      have h := (A_has s p G _ No i j k).deriv
      have c1 : (fun i j => s.ig i j p) = x.igConf_UU := by funext i j; rw [X.ig]
      have c2 : (fun i j k => s.chris i j k p) = x.ChrisConf_UDD := by funext i j k; rw [X.chris]
      have c3 : (fun i j k l => pd (s.chris i j k) l p) = x.dChrisConf_UDDD := by funext i j k l; rw [X.dchris]
      have c4 : (fun i j k => pd (s.ig i j) k p) = metricD x := by
        funext i j k
        rw [G.compat, metricD]
        simp only [X.ig, X.chris]
      have c5 : (fun l => only a (η p) l) = only a x.kd := by rw [kd]
      have c6 : (fun j k => pd (fun q => only a (η q) j) k p) = fun j k => only a (x.JB0_D k) j := by
        funext j k; rw [pd_only, J]
      have c7 : (fun j k l => pd (pd (fun q => only a (η q) j) k) l p) = fun j k l => only a (x.JJB0_DD k l) j := by
        funext j k l; rw [pd_only, pd_only, JJ]
      rw [c1, c2, c3, c4, c6, c7, c5, ← X.psi, ← X.dpsi, ← X.alphaPsi, ← X.dalphaPsi] at h
      exact h
    have hV : ∀ i j, s.A (fun l q => only a (η q) l) i j p =
        x.psi ^ 7 / (2 * x.alphaPsi) * killing x.igConf_UU x.ChrisConf_UDD (only a x.kd) (fun j k => only a (x.JB0_D k) j) i j := by
      intro i j
      have c1 : (fun i j => s.ig i j p) = x.igConf_UU := by funext i j; rw [X.ig]
      have c2 : (fun i j k => s.chris i j k p) = x.ChrisConf_UDD := by funext i j k; rw [X.chris]
      have c5 : (fun l => only a (η p) l) = only a x.kd := by rw [kd]
      have c6 : (fun j k => pd (fun q => only a (η q) j) k p) = fun j k => only a (x.JB0_D k) j := by
        funext j k; rw [pd_only, J]
      unfold Slice.A
      rw [c1, c2, c6, c5, ← X.psi, ← X.alphaPsi]
    show momentum x.igConf_UU x.ChrisConf_UDD (fun i j => s.A (bump b a η t) i j p) (fun i j k => pd (s.A (bump b a η t) i j) k p) x.dtrK_D
        x.JConfP_U x.psi x.alphaPsi x.JConfC a =
      momentum x.igConf_UU x.ChrisConf_UDD (fun i j => s.A b i j p) (fun i j k => pd (s.A b i j) k p) x.dtrK_D
        x.JConfP_U x.psi x.alphaPsi x.JConfC a + t * (x.JConfC * linear x a)
    simp only [hA, hdA, hD, hV]
    unfold momentum linear divT
    generalize killing x.igConf_UU x.ChrisConf_UDD (only a x.kd) (fun j k => only a (x.JB0_D k) j) = K
    generalize killingD x.igConf_UU (metricD x) x.ChrisConf_UDD x.dChrisConf_UDDD (only a x.kd) (fun j k => only a (x.JB0_D k) j)
            (fun j k l => only a (x.JJB0_DD k l) j) = KD
    simp only [Fin.sum_univ_three]
    field_simp
    ring
  rw [key]
  simpa using ((hasDerivAt_id (0 : ℝ)).mul_const (entry flat a x)).const_add (residual a (withShift s b p x))

/-! ### boundary conditions -/

/-- the residuals of the boundary rows of component `a`: outer boundary, excision boundary -/
noncomputable def outerF (a : Fin 3) (x : In) : ℝ := ![Bc0.out_schur_F_0 x, Bc1.out_schur_F_0 x, Bc2.out_schur_F_0 x] a
noncomputable def innerF (a : Fin 3) (x : In) : ℝ := ![Bc0.out_schur_F_1 x, Bc1.out_schur_F_1 x, Bc2.out_schur_F_1 x] a
/-- and the Jacobian entries of these rows, first and second part -/
noncomputable def outerB (a : Fin 3) (x : In) : ℝ := ![JacBc0.out_schur_B_0 x, JacBc1.out_schur_B_0 x, JacBc2.out_schur_B_0 x] a
noncomputable def innerB (a : Fin 3) (x : In) : ℝ := ![JacBc0.out_schur_B_1 x, JacBc1.out_schur_B_1 x, JacBc2.out_schur_B_1 x] a
noncomputable def outerE (a : Fin 3) (x : In) : ℝ := ![JacBc0.out_schur_Et_0 x, JacBc1.out_schur_Et_0 x, JacBc2.out_schur_Et_0 x] a
noncomputable def innerE (a : Fin 3) (x : In) : ℝ := ![JacBc0.out_schur_Et_1 x, JacBc1.out_schur_Et_1 x, JacBc2.out_schur_Et_1 x] a

/-- C63: at the outer boundary B0 is the boost velocity, at an excision boundary the whole shift B0 + B1 is the prescribed one -/
theorem C63_shift_bc (a : Fin 3) (x : In) :
    outerF a x = x.B0_U a - ![x.v0_boost, x.v1_boost, x.v2_boost] a ∧ innerF a x = (x.B0_U a + x.B1_U a) - x.ibc_beta_U a := by
  fin_cases a <;> exact ⟨rfl, rfl⟩

/-- C64: the entries of the boundary rows are the changes of the boundary conditions; the second part is written as zero, its columns
belong to other nodes -/
theorem C64_shift_bc (a : Fin 3) (x : In) (t : ℝ) :
    let y : In := { x with B0_U := fun i => x.B0_U i + t * only a x.kd i }
    outerF a y = outerF a x + t * outerB a x ∧ innerF a y = innerF a x + t * innerB a x ∧
      (x.kd = 0 → outerE a x = outerB a x ∧ innerE a x = innerB a x) := by
  refine ⟨?_, ?_, ?_⟩
  · rw [(C63_shift_bc a _).1, (C63_shift_bc a x).1]
    have : outerB a x = x.kd := by fin_cases a <;> rfl
    rw [this]
    simp only [only, if_true]; ring
  · rw [(C63_shift_bc a _).2, (C63_shift_bc a x).2]
    have : innerB a x = x.kd := by fin_cases a <;> rfl
    rw [this]
    simp only [only, if_true]; ring
  · intro h
    fin_cases a <;> exact ⟨h.symm, h.symm⟩

/-! ### the hypotheses are met -/

/-- a metric dx²/(1+x)² + dy² + dz², in a region around x = 0 -/
noncomputable def demoS : Slice where
  psi := fun q => 2 + q 0
  alphaPsi := fun q => 3 - q 0
  ig := fun i j q => if i = 0 ∧ j = 0 then (1 + q 0) ^ 2 else if i = j then 1 else 0
  chris := fun i j k q => if i = 0 ∧ j = 0 ∧ k = 0 then -(1 + q 0)⁻¹ else 0

noncomputable def demoX : In where
  AConfIJ_UU := fun _ _ => 0
  ChrisConf_UDD := fun i j k => if i = 0 ∧ j = 0 ∧ k = 0 then -1 else 0
  dAConfIJ_UUD := fun _ _ _ => 0
  psi := 2
  dtrK_D := fun _ => 1
  igConf_UU := fun i j => if i = 0 ∧ j = 0 then 1 else if i = j then 1 else 0
  JConfP_U := fun _ => 1
  JConfC := 1
  alphaPsi := 3
  dpsi_D := fun i => if i = 0 then 1 else 0
  dalphaPsi_D := fun i => if i = 0 then -1 else 0
  JJB0_DD := fun _ _ => 0
  dChrisConf_UDDD := fun i j k l => if i = 0 ∧ j = 0 ∧ k = 0 ∧ l = 0 then 1 else 0
  kd := 0
  JB0_D := fun i => if i = 0 then 1 else 0
  RicciConf_DD := fun _ _ => 0
  B0_U := fun _ => 0
  v0_boost := 0
  B1_U := fun _ => 0
  ibc_beta_U := fun _ => 0
  v1_boost := 0
  v2_boost := 0

theorem demo_chris (i j k l : Fin 3) : pd (demoS.chris i j k) l 0 = if i = 0 ∧ j = 0 ∧ k = 0 ∧ l = 0 then 1 else 0 := by
  have hd : HasDerivAt (fun t : ℝ => -(1 + t)⁻¹) 1 0 := by
    have := (((hasDerivAt_id (0 : ℝ)).const_add 1).inv (by norm_num)).neg
    refine this.congr_deriv ?_
    norm_num
  by_cases e : i = 0 ∧ j = 0 ∧ k = 0
  · have : demoS.chris i j k = fun q => (fun t : ℝ => -(1 + t)⁻¹) (q 0) := by funext q; simp only [demoS, if_pos e]
    rw [this, pd_first (fun t : ℝ => -(1 + t)⁻¹)]
    have h0 : deriv (fun t : ℝ => -(1 + t)⁻¹) ((0 : Pt) 0) = 1 := hd.deriv
    rw [h0]
    obtain ⟨a, b, c⟩ := e
    simp [a, b, c]
  · have : demoS.chris i j k = fun _ => 0 := by funext q; simp only [demoS, if_neg e]
    rw [this, pd_const, if_neg (fun h => e ⟨h.1, h.2.1, h.2.2.1⟩)]

theorem demo_ig (i j l : Fin 3) : pd (demoS.ig i j) l 0 = if i = 0 ∧ j = 0 ∧ l = 0 then 2 else 0 := by
  have hd : HasDerivAt (fun t : ℝ => (1 + t) ^ 2) 2 0 := by
    have := ((hasDerivAt_id (0 : ℝ)).const_add 1).pow 2
    refine this.congr_deriv ?_
    norm_num
  by_cases e : i = 0 ∧ j = 0
  · have : demoS.ig i j = fun q => (fun t : ℝ => (1 + t) ^ 2) (q 0) := by funext q; simp only [demoS, if_pos e]
    rw [this, pd_first (fun t : ℝ => (1 + t) ^ 2)]
    have h0 : deriv (fun t : ℝ => (1 + t) ^ 2) ((0 : Pt) 0) = 2 := hd.deriv
    rw [h0]
    simp [e.1, e.2]
  · have : demoS.ig i j = fun _ => if i = j then 1 else 0 := by funext q; simp only [demoS, if_neg e]
    rw [this, pd_const, if_neg (fun h => e ⟨h.1, h.2.1⟩)]

example : At demoS 0 demoX where
  psi := by simp [demoS, demoX]
  dpsi := fun i => by
    rw [show demoS.psi = fun q => (fun t : ℝ => 2 + t) (q 0) from rfl, pd_first]
    simp [demoX]
  alphaPsi := by simp [demoS, demoX]
  dalphaPsi := fun i => by
    rw [show demoS.alphaPsi = fun q => (fun t : ℝ => 3 - t) (q 0) from rfl, pd_first]
    simp [demoX]
  ig := fun i j => by simp [demoS, demoX]
  chris := fun i j k => by simp [demoS, demoX]
  dchris := fun i j k l => by rw [demo_chris]; rfl

example : Good demoS 0 where
  psi0 := by simp [demoS]
  alphaPsi0 := by simp [demoS]
  dpsi := diff_first (fun t => 2 + t) 0 (by fun_prop)
  dalphaPsi := diff_first (fun t => 3 - t) 0 (by fun_prop)
  dig := fun i j => by
    unfold demoS
    by_cases e : i = 0 ∧ j = 0
    · simp only [if_pos e]; exact diff_first (fun t => (1 + t) ^ 2) 0 (by fun_prop)
    · simp only [if_neg e]; exact diff_const _ 0
  dchris := fun i j k => by
    unfold demoS
    by_cases e : i = 0 ∧ j = 0 ∧ k = 0
    · simp only [if_pos e]
      refine diff_first (fun t => -(1 + t)⁻¹) 0 ?_
      exact (((hasDerivAt_id (0 : ℝ)).const_add 1).inv (by norm_num)).neg.differentiableAt
    · simp only [if_neg e]; exact diff_const _ 0
  sym := fun i j q => by simp only [demoS, eq_comm, and_comm]
  csym := fun i j k q => by simp only [demoS, and_comm]
  compat := fun i j k => by
    rw [demo_ig]
    fin_cases i <;> fin_cases j <;> fin_cases k <;> simp [demoS, Fin.sum_univ_three] <;> norm_num

example : Geom demoX where
  J := fun _ _ => rfl
  d := fun i j k l => by simp only [demoX]; congr 1; simp only [eq_iff_iff]; tauto
  T := fun i j => by fin_cases i <;> fin_cases j <;> simp [demoX, Fin.sum_univ_three]
  R := fun i j => by fin_cases i <;> fin_cases j <;> simp [demoX, DiffGeom.ricci, Fin.sum_univ_three]

example : Smooth (fun l q => if l = 0 then q 0 else 0) 0 ∧ Smooth (fun _ q => q 0) 0 ∧ demoX.kd = (fun q : Pt => q 0) 0 ∧
    (∀ i, demoX.JB0_D i = pd (fun q => q 0) i 0) ∧ ∀ i j, demoX.JJB0_DD i j = pd (pd (fun q => q 0) i) j 0 := by
  refine ⟨⟨fun l q => ?_, fun l k => ?_⟩, ⟨fun l q => diff_x q, fun l k => by rw [pd_x]; exact diff_const _ _⟩, rfl, fun i => by rw [pd_x]; rfl, ?_⟩
  · by_cases e : l = 0
    · simp only [if_pos e]; exact diff_x q
    · simp only [if_neg e]; exact diff_const _ q
  · by_cases e : l = 0
    · simp only [if_pos e]; rw [pd_x]; exact diff_const _ _
    · simp only [if_neg e]
      rw [show pd (fun _ : Pt => (0 : ℝ)) k = fun _ => 0 from funext fun q => pd_const 0 k q]; exact diff_const _ _
  · intro i j; rw [pd_x, pd_const]; rfl

end Elliptica.Equation.Shift
