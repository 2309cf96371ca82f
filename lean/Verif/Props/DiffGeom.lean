import Verif.Model.Gen.DiffGeom
import Verif.Model.Bssn
import Verif.Props.Mat3
import Verif.Props.EoS
import Mathlib.Algebra.BigOperators.Fin
import Mathlib.Tactic.FinCases
import Mathlib.Tactic.Ring
import Mathlib.Tactic.LinearCombination
import Mathlib.LinearAlgebra.Matrix.Notation
/-!
C62 Metric, connection and curvature at a node.
-/
namespace Elliptica.DiffGeom
open Elliptica.Gen Elliptica.EoS Elliptica.Bssn

/-! ### specification -/

/-- the Christoffel symbols of a metric, from the inverse metric `h` and `d i j k = ∂ₖ g_{ij}` -/
noncomputable def christoffel (h : Fin 3 → Fin 3 → ℝ) (d : Fin 3 → Fin 3 → Fin 3 → ℝ) (i j k : Fin 3) : ℝ :=
  ∑ l, h i l * (d l j k + d l k j - d j k l) / 2

/-- the Ricci tensor of a connection, from `c i j k = Γ^i_{jk}` and `e i j k l = ∂ₗ Γ^i_{jk}` -/
noncomputable def ricci (c : Fin 3 → Fin 3 → Fin 3 → ℝ) (e : Fin 3 → Fin 3 → Fin 3 → Fin 3 → ℝ) (i j : Fin 3) : ℝ :=
  ∑ k, (e k i j k - e k i k j + ∑ l, (c k k l * c l i j - c k j l * c l i k))

/-- the code keeps the components of a tensor that is symmetric in its last two indices under the ordered name -/
def Holds (o : Fin 3 → Fin 3 → Fin 3 → Option ℝ) (c : Fin 3 → Fin 3 → Fin 3 → ℝ) : Prop :=
  ∀ i j k, o i (min j k) (max j k) = some (c i j k)

/-! ### Christoffel symbols -/

/-- C62: what is stored are the Christoffel symbols of the metric; components out of order are not stored -/
theorem C62_christoffel (x : Christoffel.In) (hs : ∀ i j, x.ig_UU i j = x.ig_UU j i)
    (ds : ∀ i j k, x.dg_DDD i j k = x.dg_DDD j i k) (i j k : Fin 3) :
    Christoffel.out_Chris_UDD x i j k =
      if j ≤ k then some (christoffel x.ig_UU x.dg_DDD i j k) else none := by
  have h10 := hs 1 0
  have h20 := hs 2 0
  have h21 := hs 2 1
  have d10 := fun k => ds 1 0 k
  have d20 := fun k => ds 2 0 k
  have d21 := fun k => ds 2 1 k
  fin_cases i <;> fin_cases j <;> fin_cases k <;>
    simp [Christoffel.out_Chris_UDD, christoffel, Fin.sum_univ_three, Christoffel.GAMMA_U0D0D0, Christoffel.GAMMA_U0D0D1, Christoffel.GAMMA_U0D0D2,
      Christoffel.GAMMA_U0D1D1, Christoffel.GAMMA_U0D1D2, Christoffel.GAMMA_U0D2D2, Christoffel.GAMMA_U1D0D0, Christoffel.GAMMA_U1D0D1,
      Christoffel.GAMMA_U1D0D2, Christoffel.GAMMA_U1D1D1, Christoffel.GAMMA_U1D1D2, Christoffel.GAMMA_U1D2D2, Christoffel.GAMMA_U2D0D0,
      Christoffel.GAMMA_U2D0D1, Christoffel.GAMMA_U2D0D2, Christoffel.GAMMA_U2D1D1, Christoffel.GAMMA_U2D1D2, Christoffel.GAMMA_U2D2D2,
      h10, h20, h21, d10, d20, d21] <;> ring

theorem christoffel_symm (h : Fin 3 → Fin 3 → ℝ) (d : Fin 3 → Fin 3 → Fin 3 → ℝ)
    (ds : ∀ i j k, d i j k = d j i k) (i j k : Fin 3) : christoffel h d i j k = christoffel h d i k j := by
  unfold christoffel
  refine Finset.sum_congr rfl fun l _ => ?_
  rw [ds j k l]; ring

theorem C62_holds (x : Christoffel.In) (hs : ∀ i j, x.ig_UU i j = x.ig_UU j i)
    (ds : ∀ i j k, x.dg_DDD i j k = x.dg_DDD j i k) :
    Holds (Christoffel.out_Chris_UDD x) (christoffel x.ig_UU x.dg_DDD) := by
  intro i j k
  rw [C62_christoffel x hs ds, if_pos min_le_max]
  rcases le_total j k with h | h
  · rw [min_eq_left h, max_eq_right h]
  · rw [min_eq_right h, max_eq_left h, christoffel_symm _ _ ds]

/-- lowering the first index -/
theorem lower (g h : Fin 3 → Fin 3 → ℝ) (d : Fin 3 → Fin 3 → Fin 3 → ℝ)
    (inv : ∀ i j, ∑ l, g i l * h l j = if i = j then 1 else 0) (m j k : Fin 3) :
    ∑ i, g m i * christoffel h d i j k = (d m j k + d m k j - d j k m) / 2 := by
  unfold christoffel
  simp only [Finset.mul_sum]
  rw [Finset.sum_comm]
  have : ∀ l, ∑ i, g m i * (h i l * (d l j k + d l k j - d j k l) / 2) =
      (if m = l then 1 else 0) * ((d l j k + d l k j - d j k l) / 2) := by
    intro l
    rw [← inv m l, Finset.sum_mul]
    exact Finset.sum_congr rfl fun i _ => by ring
  simp only [this, ite_mul, one_mul, zero_mul, Finset.sum_ite_eq, Finset.mem_univ, if_true]

/-- C62: the stored connection is the Levi-Civita connection: it has no torsion, the covariant derivative of the metric with it is
zero, and no other connection has these two properties -/
theorem C62_levi_civita (x : Christoffel.In) (g : Fin 3 → Fin 3 → ℝ) (gs : ∀ i j, g i j = g j i)
    (hs : ∀ i j, x.ig_UU i j = x.ig_UU j i)
    (inv : ∀ i j, ∑ l, g i l * x.ig_UU l j = if i = j then 1 else 0)
    (ds : ∀ i j k, x.dg_DDD i j k = x.dg_DDD j i k) :
    ∃! c : Fin 3 → Fin 3 → Fin 3 → ℝ,
      (∀ i j k, c i j k = c i k j) ∧
      (∀ i j k, x.dg_DDD i j k - ∑ l, c l k i * g l j - ∑ l, c l k j * g i l = 0) ∧
      Holds (Christoffel.out_Chris_UDD x) c := by
  refine ⟨christoffel x.ig_UU x.dg_DDD, ⟨christoffel_symm _ _ ds, ?_, C62_holds x hs ds⟩, ?_⟩
  · intro i j k
    have h1 := lower g x.ig_UU x.dg_DDD inv j k i
    have h2 := lower g x.ig_UU x.dg_DDD inv i k j
    have e1 : ∑ l, christoffel x.ig_UU x.dg_DDD l k i * g l j = ∑ l, g j l * christoffel x.ig_UU x.dg_DDD l k i :=
      Finset.sum_congr rfl fun l _ => by rw [gs l j, mul_comm]
    have e2 : ∑ l, christoffel x.ig_UU x.dg_DDD l k j * g i l = ∑ l, g i l * christoffel x.ig_UU x.dg_DDD l k j :=
      Finset.sum_congr rfl fun l _ => by rw [mul_comm]
    rw [e1, e2, h1, h2, ds j i k, ds k i j, ds k j i]
    ring
  · rintro c ⟨_, _, hc⟩
    funext i j k
    have := (hc i j k).symm.trans (C62_holds x hs ds i j k)
    exact Option.some.inj this

/-- C62: a symmetric connection under which the metric is constant is the stored one -/
theorem C62_unique (x : Christoffel.In) (g : Fin 3 → Fin 3 → ℝ) (gs : ∀ i j, g i j = g j i)
    (hs : ∀ i j, x.ig_UU i j = x.ig_UU j i)
    (inv : ∀ i j, ∑ l, x.ig_UU i l * g l j = if i = j then 1 else 0)
    (ds : ∀ i j k, x.dg_DDD i j k = x.dg_DDD j i k)
    (c : Fin 3 → Fin 3 → Fin 3 → ℝ) (cs : ∀ i j k, c i j k = c i k j)
    (cg : ∀ i j k, x.dg_DDD i j k - ∑ l, c l k i * g l j - ∑ l, c l k j * g i l = 0) :
    Holds (Christoffel.out_Chris_UDD x) c := by
  have key : c = christoffel x.ig_UU x.dg_DDD := by
    funext i j k
    have low : ∀ m, (x.dg_DDD m j k + x.dg_DDD m k j - x.dg_DDD j k m) / 2 = ∑ l, g m l * c l j k := by
      intro m
      have a1 := cg m j k
      have a2 := cg m k j
      have a3 := cg j k m
      have f1 : ∀ a b n, ∑ l, c l a b * g l n = ∑ l, g n l * c l a b := fun a b n =>
        Finset.sum_congr rfl fun l _ => by rw [gs l n, mul_comm]
      have f2 : ∀ a b n, ∑ l, c l a b * g n l = ∑ l, g n l * c l a b := fun a b n =>
        Finset.sum_congr rfl fun l _ => by rw [mul_comm]
      have sw : ∀ a b n, ∑ l, g n l * c l a b = ∑ l, g n l * c l b a := fun a b n =>
        Finset.sum_congr rfl fun l _ => by rw [cs]
      rw [f1, f2] at a1 a2 a3
      rw [sw m k] at a3
      rw [sw m j] at a3
      rw [sw k j m] at a1
      linear_combination (1 / 2 : ℝ) * a1 + (1 / 2) * a2 - (1 / 2) * a3
    unfold christoffel
    have : ∀ l, x.ig_UU i l * (x.dg_DDD l j k + x.dg_DDD l k j - x.dg_DDD j k l) / 2 =
        ∑ n, x.ig_UU i l * g l n * c n j k := by
      intro l
      rw [mul_div_assoc, low l, Finset.mul_sum]
      exact Finset.sum_congr rfl fun n _ => by ring
    simp only [this]
    rw [Finset.sum_comm]
    simp only [← Finset.sum_mul, inv, ite_mul, one_mul, zero_mul, Finset.sum_ite_eq, Finset.mem_univ, if_true]
  rw [key]
  exact C62_holds x hs ds

/-! ### Ricci tensor -/

/-- C62: what is stored is the Ricci tensor of the connection; components out of order are not stored -/
theorem C62_ricci (x : Ricci.In) (cs : ∀ i j k, x.Chris_UDD i j k = x.Chris_UDD i k j)
    (es : ∀ i j k l, x.dChris_UDDD i j k l = x.dChris_UDDD i k j l) (i j : Fin 3) :
    Ricci.out_Ricci_DD x i j = if i ≤ j then some (ricci x.Chris_UDD x.dChris_UDDD i j) else none := by
  have c10 := fun k => cs k 1 0
  have c20 := fun k => cs k 2 0
  have c21 := fun k => cs k 2 1
  have e10 := fun k l => es k 1 0 l
  have e20 := fun k l => es k 2 0 l
  have e21 := fun k l => es k 2 1 l
  fin_cases i <;> fin_cases j <;>
    simp [Ricci.out_Ricci_DD, ricci, Fin.sum_univ_three, Ricci.Ric_D0D0, Ricci.Ric_D0D1, Ricci.Ric_D0D2, Ricci.Ric_D1D1, Ricci.Ric_D1D2,
      Ricci.Ric_D2D2, Ricci.Ric1_D0D0, Ricci.Ric1_D0D1, Ricci.Ric1_D0D2, Ricci.Ric1_D1D1, Ricci.Ric1_D1D2, Ricci.Ric1_D2D2,
      Ricci.Ric2_D0D0, Ricci.Ric2_D0D1, Ricci.Ric2_D0D2, Ricci.Ric2_D1D1, Ricci.Ric2_D1D2, Ricci.Ric2_D2D2,
      Ricci.Ric3_D0D0, Ricci.Ric3_D0D1, Ricci.Ric3_D0D2, Ricci.Ric3_D1D1, Ricci.Ric3_D1D2, Ricci.Ric3_D2D2,
      Ricci.Ric4_D0D0, Ricci.Ric4_D0D1, Ricci.Ric4_D0D2, Ricci.Ric4_D1D1, Ricci.Ric4_D1D2, Ricci.Ric4_D2D2,
      c10, c20, c21, e10, e20, e21] <;> ring

/-- C62: the stored scalar is the trace of the Ricci tensor when this is symmetric (the connection of a metric) -/
theorem C62_trace (x : Ricci.In) (cs : ∀ i j k, x.Chris_UDD i j k = x.Chris_UDD i k j)
    (es : ∀ i j k l, x.dChris_UDDD i j k l = x.dChris_UDDD i k j l) (hs : ∀ i j, x.ig_UU i j = x.ig_UU j i)
    (rs : ∀ i j, ricci x.Chris_UDD x.dChris_UDDD i j = ricci x.Chris_UDD x.dChris_UDDD j i) :
    Ricci.out_trR x = ∑ i, ∑ j, x.ig_UU i j * ricci x.Chris_UDD x.dChris_UDDD i j := by
  have r00 := C62_ricci x cs es 0 0
  have r01 := C62_ricci x cs es 0 1
  have r02 := C62_ricci x cs es 0 2
  have r11 := C62_ricci x cs es 1 1
  have r12 := C62_ricci x cs es 1 2
  have r22 := C62_ricci x cs es 2 2
  simp [Ricci.out_Ricci_DD] at r00 r01 r02 r11 r12 r22
  unfold Ricci.out_trR Ricci.R
  simp only [Fin.sum_univ_three, rs 1 0, rs 2 0, rs 2 1, hs 1 0, hs 2 0, hs 2 1, r00, r01, r02, r11, r12, r22]
  ring

/-- C62: the Ricci tensor is symmetric as soon as the trace Γ^k_{ik} is a gradient, as it is for the connection of a metric
(there it is half the gradient of the logarithm of the determinant) -/
theorem C62_ricci_symm (c : Fin 3 → Fin 3 → Fin 3 → ℝ) (e : Fin 3 → Fin 3 → Fin 3 → Fin 3 → ℝ)
    (cs : ∀ i j k, c i j k = c i k j) (es : ∀ i j k l, e i j k l = e i k j l)
    (grad : ∀ i j, ∑ k, e k i k j = ∑ k, e k j k i) (i j : Fin 3) : ricci c e i j = ricci c e j i := by
  unfold ricci
  simp only [Finset.sum_add_distrib, Finset.sum_sub_distrib, grad i j]
  have h1 : ∑ k, e k i j k = ∑ k, e k j i k := Finset.sum_congr rfl fun k _ => es k i j k
  have h2 : ∑ k, ∑ l, c k k l * c l i j = ∑ k, ∑ l, c k k l * c l j i :=
    Finset.sum_congr rfl fun k _ => Finset.sum_congr rfl fun l _ => by rw [cs l i j]
  have h3 : ∑ k, ∑ l, c k j l * c l i k = ∑ k, ∑ l, c k i l * c l j k := by
    rw [Finset.sum_comm]
    exact Finset.sum_congr rfl fun k _ => Finset.sum_congr rfl fun l _ => by ring
  rw [h1, h2, h3]

/-! ### the conformal metric -/

/-- the determinant of the metric given by its stored components -/
noncomputable def detSym (a : Fin 3 → Fin 3 → ℝ) : ℝ := (Matrix.of fun i j => a (min i j) (max i j)).det

theorem det_eq (a : Fin 3 → Fin 3 → ℝ) :
    Mat3.det (a 0 0) (a 0 1) (a 0 2) (a 0 1) (a 1 1) (a 1 2) (a 0 2) (a 1 2) (a 2 2) = detSym a := by
  unfold detSym
  rw [← Mat3.C17_det]
  rfl

/-- C62: of a metric with positive determinant the scaled metric, its inverse and the conformal factor are computed without a
floating point exception when the first entry is not zero: metric = ψ⁴ · (scaled metric) up to a factor `det^(6e-18)` and the
determinant of the scaled metric is one up to a factor `det^(7e-17)`; the stored inverse is the inverse of the scaled metric -/
theorem C62_bssn (a : Fin 3 → Fin 3 → ℝ) (hd : 0 < detSym a) (h0 : a 0 0 ≠ 0) :
    ∃ o : Out, scale a = .ok o ∧ 0 < o.psi ∧
      (∀ i j, a (min i j) (max i j) = o.psi ^ 4 * o.g i j / detSym a ^ (6 / 10 ^ 18 : ℝ)) ∧
      (Matrix.of o.g).det = detSym a ^ (7 / 10 ^ 17 : ℝ) ∧
      ∃ B : Matrix (Fin 3) (Fin 3) ℝ, Matrix.of o.g * B = 1 ∧ ∀ i j, i ≤ j → o.gI i j = some (B i j) := by
  unfold scale
  simp only [det_eq]
  rw [cpow_pos hd, cpow_pos hd]
  refine ⟨_, rfl, Real.rpow_pos_of_pos hd _, ?_, ?_, ?_⟩
  · intro i j
    show _ = (detSym a ^ (83333333333333329 / 10 ^ 18 : ℝ)) ^ 4 *
      (a (min i j) (max i j) * detSym a ^ (-(33333333333333331 / 10 ^ 17) : ℝ)) / _
    rw [← Real.rpow_natCast (detSym a ^ (83333333333333329 / 10 ^ 18 : ℝ)) 4, ← Real.rpow_mul hd.le,
      eq_div_iff (Real.rpow_pos_of_pos hd _).ne', mul_left_comm, ← Real.rpow_add hd]
    congr 2
    norm_num
  · show (Matrix.of fun i j => a (min i j) (max i j) * detSym a ^ (-(33333333333333331 / 10 ^ 17) : ℝ)).det = _
    have : (Matrix.of fun i j => a (min i j) (max i j) * detSym a ^ (-(33333333333333331 / 10 ^ 17) : ℝ)) =
        detSym a ^ (-(33333333333333331 / 10 ^ 17) : ℝ) • Matrix.of fun i j => a (min i j) (max i j) := by
      ext i j
      simp [mul_comm]
    rw [this, Matrix.det_smul, Fintype.card_fin]
    change _ * detSym a = _
    rw [← Real.rpow_natCast, ← Real.rpow_mul hd.le, ← Real.rpow_add_one hd.ne']
    norm_num
  · set s := detSym a ^ (-(33333333333333331 / 10 ^ 17) : ℝ) with hs
    have hp : 0 < s := Real.rpow_pos_of_pos hd _
    have e : (Matrix.of fun i j : Fin 3 => a (min i j) (max i j) * s) = s • Matrix.of fun i j => a (min i j) (max i j) := by
      ext i j
      simp [mul_comm]
    obtain ⟨B, h1, _, _, h4⟩ := Mat3.C17_symmetric_partial (Matrix.of fun i j : Fin 3 => a (min i j) (max i j) * s)
      (by ext i j; simp [Matrix.transpose_apply, min_comm, max_comm])
      (by rw [e, Matrix.det_smul]; exact mul_ne_zero (pow_ne_zero _ hp.ne') hd.ne')
      (by simpa using ⟨h0, hp.ne'⟩)
    refine ⟨B, h1, fun i j hij => ?_⟩
    have := h4 i j hij
    simp only [Matrix.of_apply] at this
    convert this

/-- C62: the two factors of `C62_bssn` are one to within 1e-14 for determinants between e^-100 and e^100 -/
theorem C62_bssn_error (d : ℝ) (h1 : Real.exp (-100) ≤ d) (h2 : d ≤ Real.exp 100) (p : ℝ) (hp : |p| ≤ 7 / 10 ^ 17) :
    |d ^ p - 1| ≤ 2 / 10 ^ 14 := by
  have hd : 0 < d := lt_of_lt_of_le (Real.exp_pos _) h1
  have hl : |Real.log d| ≤ 100 := by
    rw [abs_le]
    exact ⟨(Real.le_log_iff_exp_le hd).2 h1, (Real.log_le_iff_le_exp hd).2 h2⟩
  rw [Real.rpow_def_of_pos hd]
  have hz : |Real.log d * p| ≤ 7 / 10 ^ 15 := by
    rw [abs_mul]
    calc |Real.log d| * |p| ≤ 100 * (7 / 10 ^ 17) := mul_le_mul hl hp (abs_nonneg _) (by norm_num)
      _ = 7 / 10 ^ 15 := by norm_num
  have := Real.abs_exp_sub_one_le (x := Real.log d * p) (hz.trans (by norm_num))
  refine this.trans ?_
  calc 2 * |Real.log d * p| ≤ 2 * (7 / 10 ^ 15) := by linarith
    _ ≤ 2 / 10 ^ 14 := by norm_num

/-- C62: when the determinant is negative the code stores nan, when it is zero infinity: nothing refuses such a metric -/
theorem C62_degenerate (a : Fin 3 → Fin 3 → ℝ) (hd : detSym a ≤ 0) : scale a = .ub := by
  unfold scale
  simp only [det_eq]
  have : cpow (detSym a) (-(33333333333333331 / 10 ^ 17)) = .ub := by
    unfold cpow
    rcases hd.lt_or_eq with h | h
    · rw [if_pos]
      refine ⟨h, ?_⟩
      rintro ⟨k, hk⟩
      have h1 : (k : ℝ) < 0 := by rw [← hk]; norm_num
      have h2 : (-1 : ℝ) < k := by rw [← hk]; norm_num
      have h3 : k < 0 := by exact_mod_cast h1
      have h4 : -1 < k := by exact_mod_cast h2
      omega
    · rw [if_neg (by rw [h]; simp), if_pos ⟨h, by norm_num⟩]
  rw [this]
  rfl

/-! ### a case: the plane in polar coordinates at radius two, times a line -/

/-- g = diag(1, r², 1) at r = 2 -/
noncomputable def polar : Christoffel.In :=
  { ig_UU := fun i j => if i = j then (if i = 1 then 1 / 4 else 1) else 0
    dg_DDD := fun i j k => if i = 1 ∧ j = 1 ∧ k = 0 then 4 else 0 }

/-- its metric -/
noncomputable def polarG : Fin 3 → Fin 3 → ℝ := fun i j => if i = j then (if i = 1 then 4 else 1) else 0

example : (∀ i j, polar.ig_UU i j = polar.ig_UU j i) ∧ (∀ i j k, polar.dg_DDD i j k = polar.dg_DDD j i k) ∧
    (∀ i j, polarG i j = polarG j i) ∧ (∀ i j, ∑ l, polarG i l * polar.ig_UU l j = if i = j then 1 else 0) ∧
    (∀ i j, ∑ l, polar.ig_UU i l * polarG l j = if i = j then 1 else 0) := by
  refine ⟨?_, ?_, ?_, ?_, ?_⟩ <;> intro i j <;> try intro k
  · fin_cases i <;> fin_cases j <;> simp [polar]
  · fin_cases i <;> fin_cases j <;> fin_cases k <;> simp [polar]
  · fin_cases i <;> fin_cases j <;> simp [polarG]
  · fin_cases i <;> fin_cases j <;> simp [polar, polarG, Fin.sum_univ_three]
  · fin_cases i <;> fin_cases j <;> simp [polar, polarG, Fin.sum_univ_three]

/-- Γ^r_{φφ} = -r and Γ^φ_{rφ} = 1/r -/
example : Christoffel.out_Chris_UDD polar 0 1 1 = some (-2) ∧ Christoffel.out_Chris_UDD polar 1 0 1 = some (1 / 2) := by
  constructor <;> simp [Christoffel.out_Chris_UDD, Christoffel.GAMMA_U0D1D1, Christoffel.GAMMA_U1D0D1, polar]; norm_num

/-- the connection of the round sphere of radius one times a line (coordinates θ, φ, z) at the equator:
Γ^θ_{φφ} = -sin cos, Γ^φ_{θφ} = cot -/
noncomputable def sphereR : Ricci.In :=
  { Chris_UDD := fun _ _ _ => 0
    dChris_UDDD := fun i j k l => if l = 0 then (if i = 0 ∧ j = 1 ∧ k = 1 then 1 else
      if i = 1 ∧ (j = 0 ∧ k = 1 ∨ j = 1 ∧ k = 0) then -1 else 0) else 0
    ig_UU := fun i j => if i = j then 1 else 0 }

/-- it meets the hypotheses of `C62_ricci`, `C62_trace`, `C62_ricci_symm`, and the scalar curvature is two -/
example : (∀ i j k l, sphereR.dChris_UDDD i j k l = sphereR.dChris_UDDD i k j l) ∧
    (∀ i j, ∑ k, sphereR.dChris_UDDD k i k j = ∑ k, sphereR.dChris_UDDD k j k i) ∧ Ricci.out_trR sphereR = 2 := by
  have es : ∀ i j k l, sphereR.dChris_UDDD i j k l = sphereR.dChris_UDDD i k j l := by
    intro i j k l
    fin_cases i <;> fin_cases j <;> fin_cases k <;> fin_cases l <;> simp [sphereR]
  have gr : ∀ i j, ∑ k, sphereR.dChris_UDDD k i k j = ∑ k, sphereR.dChris_UDDD k j k i := by
    intro i j
    fin_cases i <;> fin_cases j <;> simp [sphereR, Fin.sum_univ_three]
  refine ⟨es, gr, ?_⟩
  rw [C62_trace sphereR (fun _ _ _ => rfl) es (fun i j => by simp [sphereR, eq_comm]) (C62_ricci_symm _ _ (fun _ _ _ => rfl) es gr)]
  simp [ricci, sphereR, Fin.sum_univ_three]
  norm_num

/-- the hypotheses of `C62_bssn` and of `C62_degenerate` are met -/
example : 0 < detSym (fun i j => if i = j then 2 else 1) ∧ detSym (fun i j => if i = j then -1 else 0) ≤ 0 := by
  constructor
  · unfold detSym
    rw [Matrix.det_fin_three]
    simp [Matrix.of_apply]
    norm_num
  · unfold detSym
    rw [Matrix.det_fin_three]
    simp [Matrix.of_apply]

end Elliptica.DiffGeom
