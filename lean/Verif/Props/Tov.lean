import Verif.Model.Tov
import Verif.Spec.Tov
import Mathlib.Tactic.FieldSimp
import Mathlib.Tactic.Ring
import Mathlib.Tactic.LinearCombination
import Mathlib.Tactic.Linarith
import Mathlib.Tactic.Positivity
import Mathlib.Analysis.SpecialFunctions.Sqrt
import Mathlib.Analysis.SpecialFunctions.Log.Deriv
import Mathlib.Analysis.SpecialFunctions.ExpDeriv
import Mathlib.Analysis.Calculus.Deriv.Add
import Mathlib.Analysis.Calculus.Deriv.Inv
import Mathlib.Analysis.Calculus.Deriv.Pow
import Mathlib.Analysis.Calculus.Deriv.Mul
import Mathlib.Analysis.Calculus.Deriv.Comp
/-!
Property C79: the TOV star, away from its centre.
-/
namespace Elliptica.Tov
open Real TovSpec

variable (E : Eos)

/-- every row of the star's table from the third on is one classical Runge-Kutta step of the system (dr/dh, dm/dh) from
the row before it, over one spacing of the table of enthalpies -/
theorem C79_step (N : ℕ) (a : ℝ) (i : ℕ) (h : 1 ≤ i) :
    star E N a (i + 1) = rk4 (fun t y => (drdh E t y.1 y.2, dmdh E t y.1 y.2)) ((1 - a) / ((N : ℝ) - 1))
      (a + i * ((1 - a) / ((N : ℝ) - 1))) (star E N a i) := by
  obtain ⟨i, rfl⟩ : ∃ j, i = j + 1 := ⟨i - 1, by omega⟩
  have ht : hAt N a (i + 1) = a + ((i + 1 : ℕ) : ℝ) * ((1 - a) / ((N : ℝ) - 1)) := by
    cases i <;> simp [hAt, stepSize, add_assoc, one_add_one_eq_two]
  rw [star, step, ht]
  generalize star E N a (i + 1) = y
  generalize a + ((i + 1 : ℕ) : ℝ) * ((1 - a) / ((N : ℝ) - 1)) = t
  unfold stepSize
  generalize (1 - a) / ((N : ℝ) - 1) = s
  obtain ⟨r, m⟩ := y
  have e1 : ∀ k : ℝ, s * k / 2 = s / 2 * k := fun k => by ring
  simp only [rk4, Prod.smul_mk, Prod.mk_add_mk, smul_eq_mul, e1]
  refine Prod.ext ?_ ?_ <;> simp only <;> ring

/-- the table of enthalpies runs in equal steps from the centre to the surface -/
theorem C79_enthalpy (N : ℕ) (hN : 2 ≤ N) (a : ℝ) :
    hAt N a 0 = a ∧ hAt N a (N - 1) = 1 ∧ ∀ i, hAt N a i = a + i * ((1 - a) / ((N : ℝ) - 1)) := by
  have hi : ∀ i, hAt N a i = a + i * ((1 - a) / ((N : ℝ) - 1)) := by
    intro i
    match i with
    | 0 => simp [hAt]
    | 1 => simp [hAt, stepSize]
    | i + 2 => simp [hAt, stepSize]
  refine ⟨rfl, ?_, hi⟩
  rw [hi, Nat.cast_sub (by omega)]
  have : (N : ℝ) - 1 ≠ 0 := by
    have : (2 : ℝ) ≤ N := by exact_mod_cast hN
    linarith
  push_cast
  field_simp; ring

variable {E}

theorem den_eq (r m p : ℝ) : m + 4 * π * (r * r * r) * p = m + 4 * π * r ^ 3 * p := by ring

/-- the right hand sides the program integrates are the TOV equations: a family of layers obeys the equations of stellar
structure at `h` exactly if r and m have the derivatives that the program uses -/
theorem C79_equations (r m : ℝ → ℝ) (h : ℝ) (L : Layer E.e E.p r m h) (first : FirstLaw E.e E.p h) :
    Tov E.e E.p r m h ↔ HasDerivAt r (drdh E h (r h) (m h)) h ∧ HasDerivAt m (dmdh E h (r h) (m h)) h := by
  have h0 := L.enthalpy.ne'
  have hr := L.rpos.ne'
  have hz : r h - 2 * m h ≠ 0 := by have := L.horizon; intro h; linarith
  have hw := L.weight.ne'
  have hm := L.matter.ne'
  have key : ∀ d : ℝ, (E.e h + E.p h) / h = -(E.e h + E.p h) * grav (r h) (m h) (E.p h) * d ↔
      d = drdh E h (r h) (m h) := by
    intro d
    unfold grav drdh
    rw [den_eq]
    constructor
    · intro hd
      have h1 : (1 : ℝ) / h = -((m h + 4 * π * r h ^ 3 * E.p h) / (r h * (r h - 2 * m h)) * d) := by
        have : (E.e h + E.p h) * (1 / h) = (E.e h + E.p h) *
            -((m h + 4 * π * r h ^ 3 * E.p h) / (r h * (r h - 2 * m h)) * d) := by
          rw [mul_one_div, hd]; ring
        exact mul_left_cancel₀ hm this
      generalize m h + 4 * π * r h ^ 3 * E.p h = w at *
      generalize r h - 2 * m h = z at *
      field_simp at h1 ⊢
      linear_combination h1
    · rintro rfl
      generalize m h + 4 * π * r h ^ 3 * E.p h = w at *
      generalize r h - 2 * m h = z at *
      field_simp
  constructor
  · intro T
    have hd := (key (deriv r h)).1 (first.unique T.hydro)
    refine ⟨hd ▸ T.radius.hasDerivAt, ?_⟩
    convert T.mass using 1
    rw [hd, dmdh]; ring
  · rintro ⟨d1, d2⟩
    refine ⟨?_, ?_, d1.differentiableAt⟩
    · rw [d1.deriv]; convert d2 using 1; rw [dmdh]; ring
    · rw [d1.deriv, ← (key _).2 rfl]; exact first

/-- phi of the table: it solves dφ/dh = Φ' dr/dh and joins the exterior, exp(2φ) = 1 - 2M/R at the surface -/
theorem C79_phi (N : ℕ) (hN : 2 ≤ N) (a : ℝ) (i : ℕ) :
    let R := (star E N a (N - 1)).1
    let M := (star E N a (N - 1)).2
    let phi := fun h => -log h + log √(1 - 2 * M / R)
    phiAt E N a i = phi (hAt N a i) ∧
    (0 < 1 - 2 * M / R → exp (2 * phiAt E N a (N - 1)) = 1 - 2 * M / R) ∧
    ∀ (r m : ℝ → ℝ) (h : ℝ), Layer E.e E.p r m h → FirstLaw E.e E.p h → Tov E.e E.p r m h →
      HasDerivAt phi (grav (r h) (m h) (E.p h) * deriv r h) h := by
  intro R M phi
  refine ⟨rfl, ?_, ?_⟩
  · intro hp
    show exp (2 * (-log (hAt N a (N - 1)) + log √(1 - 2 * M / R))) = _
    rw [(C79_enthalpy N hN a).2.1, log_one, log_sqrt hp.le]
    rw [show 2 * (-0 + log (1 - 2 * M / R) / 2) = log (1 - 2 * M / R) by ring, exp_log hp]
  · intro r m h L first T
    have d := ((C79_equations r m h L first).1 T).1
    rw [d.deriv]
    have h1 : HasDerivAt phi (-h⁻¹ + 0) h := (hasDerivAt_log L.enthalpy.ne').neg.add (hasDerivAt_const h _)
    convert h1 using 1
    unfold grav drdh
    rw [den_eq]
    have hr := L.rpos.ne'
    have h0 := L.enthalpy.ne'
    have hz : r h - 2 * m h ≠ 0 := by have := L.horizon; intro h; linarith
    have hw := L.weight.ne'
    generalize m h + 4 * π * r h ^ 3 * E.p h = w at *
    generalize r h - 2 * m h = z at *
    field_simp
    ring

theorem one_sub (r m : ℝ) (hr : 0 < r) (hm : 2 * m < r) : 0 < 1 - 2 * m / r := by
  rw [sub_pos, div_lt_one hr]; exact hm

/-- the ADM integrand is dm/dh, and the baryonic integrand is the density (e+p)/h in the proper volume
4πr² dr/√(1-2m/r) -/
theorem C79_masses (r m : ℝ → ℝ) (h : ℝ) (L : Layer E.e E.p r m h) (first : FirstLaw E.e E.p h)
    (T : Tov E.e E.p r m h) :
    HasDerivAt m (admF E h (r h) (m h)) h ∧
    baryF E h (r h) (m h) = (E.e h + E.p h) / h * (4 * π * r h ^ 2 * deriv r h / √(1 - 2 * m h / r h)) := by
  obtain ⟨d1, d2⟩ := (C79_equations r m h L first).1 T
  constructor
  · convert d2 using 1; unfold admF dmdh; ring
  · rw [d1.deriv]; unfold baryF; ring

theorem komar_alg (h x m p e X q D dm : ℝ) (h0 : h ≠ 0) (hx : x ≠ 0) (hq : q ≠ 0)
    (hw : m + 4 * π * x ^ 3 * p ≠ 0) (hq2 : q ^ 2 = 1 - 2 * m / x)
    (hD : (m + 4 * π * x ^ 3 * p) * h * D = -x ^ 2 * q ^ 2) (hdm : dm = 4 * π * x ^ 2 * e * D) :
    ((X * (-h⁻¹ + 0) * (m + 4 * π * x ^ 3 * p) +
      X * (dm + (4 * π * (((3 : ℕ) : ℝ) * x ^ (3 - 1) * D) * p + 4 * π * x ^ 3 * ((e + p) / h)))) * q -
      X * (m + 4 * π * x ^ 3 * p) * (-((2 * dm * x - 2 * m * D) / x ^ 2) / (2 * q))) / q ^ 2 =
    4 * π * (e + 3 * p) * X / q * x ^ 2 * D := by
  subst hdm
  have hD' : D = -(x ^ 2 * q ^ 2) / ((m + 4 * π * x ^ 3 * p) * h) := by
    rw [eq_div_iff (mul_ne_zero hw h0)]; linear_combination hD
  have hm : m = x * (1 - q ^ 2) / 2 := by rw [hq2]; field_simp; ring
  generalize hW : m + 4 * π * x ^ 3 * p = W at *
  have hp : 4 * π * x ^ 3 * p = W - m := by linear_combination hW
  have e1 : X * W * (-((2 * (4 * π * x ^ 2 * e * D) * x - 2 * m * D) / x ^ 2) / (2 * q)) =
      X * (4 * π * x ^ 3 * e - m) * q / h := by
    rw [hD']; field_simp; ring
  rw [e1, div_eq_iff (pow_ne_zero 2 hq)]
  have e2 : 4 * π * (e + 3 * p) * X / q * x ^ 2 * D * q ^ 2 = 4 * π * (e + 3 * p) * X * x ^ 2 * D * q := by
    field_simp
  rw [e2]
  push_cast
  field_simp
  linear_combination X * hp

/-- the Komar integrand is the derivative of exp(φ)(m+4πr³p)/√(1-2m/r), which at a surface of zero pressure is the ADM mass
and vanishes at the centre: so the Komar and ADM masses of a star are equal -/
theorem C79_komar (r m : ℝ → ℝ) (R M h : ℝ) (L : Layer E.e E.p r m h) (first : FirstLaw E.e E.p h)
    (T : Tov E.e E.p r m h) :
    let phi := fun h => -log h + log √(1 - 2 * M / R)
    HasDerivAt (fun h => exp (phi h) * (m h + 4 * π * r h ^ 3 * E.p h) / √(1 - 2 * m h / r h))
      (komarF E (phi h) h (r h) (m h)) h := by
  intro phi
  obtain ⟨d1, d2⟩ := (C79_equations r m h L first).1 T
  have hr := L.rpos.ne'
  have h0 := L.enthalpy.ne'
  have hz : r h - 2 * m h ≠ 0 := by have := L.horizon; intro h; linarith
  have hw := L.weight.ne'
  have hx := one_sub _ _ L.rpos L.horizon
  have hphi : HasDerivAt phi (-h⁻¹ + 0) h := (hasDerivAt_log h0).neg.add (hasDerivAt_const h _)
  have hn := hphi.exp.mul (d2.add ((((d1.pow 3).const_mul (4 * π)).mul first)))
  have hq := (((d2.const_mul 2).div d1 hr).const_sub 1).sqrt hx.ne'
  have hs := (sqrt_pos.2 hx).ne'
  have hd := hn.div hq hs
  refine hd.congr_deriv ?_
  have hs2 : √(1 - 2 * m h / r h) ^ 2 = 1 - 2 * m h / r h := sq_sqrt hx.le
  simp only [Pi.add_apply, Pi.mul_apply, Pi.pow_apply]
  unfold komarF
  exact komar_alg h (r h) (m h) (E.p h) (E.e h) (exp (phi h)) (√(1 - 2 * m h / r h)) _ _ h0 hr hs hw hs2
    (by unfold drdh; rw [den_eq, hs2]; generalize m h + 4 * π * r h ^ 3 * E.p h = w at *; field_simp)
    (by unfold dmdh; ring)

/-- the table of r and the isotropic radius: a function obeying the equation for rbar turns the spatial metric into a
conformally flat one, with conformal factor ψ² = r/rbar as in the table -/
theorem C79_isotropic (r m rb : ℝ → ℝ) (h : ℝ) (L : Layer E.e E.p r m h) (hrb : 0 < rb h)
    (first : FirstLaw E.e E.p h) (T : Tov E.e E.p r m h) :
    (∃ d, drbarDh E h (rb h) (r h) (m h) = .ok d ∧ (HasDerivAt rb d h →
      (√(r h / rb h)) ^ 4 * deriv rb h ^ 2 = deriv r h ^ 2 / (1 - 2 * m h / r h) ∧
      (√(r h / rb h)) ^ 4 * rb h ^ 2 = r h ^ 2 ∧
      HasDerivAt (fun x => log (rb x / r x)) (cF E h (r h) (m h)) h)) := by
  obtain ⟨d1, d2⟩ := (C79_equations r m h L first).1 T
  have hr := L.rpos.ne'
  have h0 := L.enthalpy.ne'
  have hw := L.weight.ne'
  have hx := one_sub _ _ L.rpos L.horizon
  refine ⟨_, by unfold drbarDh; rw [den_eq]; exact if_neg (by push Not; exact ⟨hr, hx, hw, h0⟩), fun d => ?_⟩
  have hs2 : √(1 - 2 * m h / r h) ^ 2 = 1 - 2 * m h / r h := sq_sqrt hx.le
  have hs := (sqrt_pos.2 hx).ne'
  have h4 : (√(r h / rb h)) ^ 4 = (r h / rb h) ^ 2 := by
    rw [show (4 : ℕ) = 2 * 2 by rfl, pow_mul, sq_sqrt (div_pos L.rpos hrb).le]
  refine ⟨?_, ?_, ?_⟩
  · rw [d.deriv, d1.deriv, h4]
    conv_rhs => rw [← hs2]
    generalize √(1 - 2 * m h / r h) = q at *
    field_simp
  · rw [h4]; field_simp
  · have hd := (d.div d1 hr).log (div_pos hrb L.rpos).ne'
    refine hd.congr_deriv ?_
    unfold cF
    simp only [Pi.div_apply]
    generalize drdh E h (r h) (m h) = D
    field_simp

/-- the isotropic radius of the surface joins the exterior solution: R = rbar (1 + M/(2 rbar))², so that the conformal
factor of the table there is 1 + M/(2 rbar) -/
theorem C79_surface (R M : ℝ) (hM : 0 ≤ M) (hR : 2 * M < R) :
    0 < surfBar R M ∧ R = surfBar R M * (1 + M / (2 * surfBar R M)) ^ 2 ∧
    √(R / surfBar R M) = 1 + M / (2 * surfBar R M) := by
  have hq : 0 ≤ R ^ 2 - 2 * M * R := by nlinarith
  have hs := sq_sqrt hq
  have hn := sqrt_nonneg (R ^ 2 - 2 * M * R)
  have hb : surfBar R M = (R - M + √(R ^ 2 - 2 * M * R)) / 2 := by unfold surfBar; ring
  have hpos : 0 < surfBar R M := by rw [hb]; linarith
  have key : R = surfBar R M * (1 + M / (2 * surfBar R M)) ^ 2 := by
    field_simp
    rw [hb]
    generalize √(R ^ 2 - 2 * M * R) = q at *
    linear_combination -hs
  refine ⟨hpos, key, ?_⟩
  have : R / surfBar R M = (1 + M / (2 * surfBar R M)) ^ 2 := by
    rw [div_eq_iff hpos.ne', mul_comm]; exact key
  rw [this, sqrt_sq (by positivity)]

/-- rbar of the table: the centre, the layer next to it, the surface, and in between, from the surface inwards, one classical
Runge-Kutta step per row of the equation for rbar, with the splines of r and m -/
theorem C79_rbar (e : ℝ) (N : ℕ) (hN : 3 ≤ N) (a c : ℝ) :
    let R := (star E N a (N - 1)).1
    let M := (star E N a (N - 1)).2
    let s := (a - 1) / ((N : ℝ) - 1)
    rbarAt E e N a c 0 = .ok 0 ∧ rbarAt E e N a c 1 = .ok (rApprox E (a - s) a * exp (-c)) ∧
    rbarAt E e N a c (N - 1) = .ok (surfBar R M) ∧
    ∀ i, 2 ≤ i → i < N - 1 → ∀ v, rbarAt E e N a c i = .ok v →
      ∃ (y : ℝ) (r m : ℝ → ℝ), rbarAt E e N a c (i + 1) = .ok y ∧
        let t := 1 + ((N : ℝ) - 1 - (i + 1)) * s
        (∀ x, x = t ∨ x = t + s / 2 ∨ x = t + s →
          Interp.spline e N (hAt N a) (fun j => (star E N a j).1) x = .ok (some (r x)) ∧
          Interp.spline e N (hAt N a) (fun j => (star E N a j).2) x = .ok (some (m x))) ∧
        v = rk4 (fun x y => y / √(1 - 2 * m x / r x) / r x * drdh E x (r x) (m x)) s t y := by
  intro R M s
  have e0 : rbarAt E e N a c 0 = .ok 0 := by
    unfold rbarAt; simp only; rw [if_neg (by omega), if_pos trivial]
  have e1 : rbarAt E e N a c (N - 1) = .ok (surfBar R M) := by unfold rbarAt; simp only; rw [if_pos trivial]
  refine ⟨e0, ?_, e1, ?_⟩
  · unfold rbarAt; simp only
    rw [if_neg (by omega), if_neg (by omega), if_pos trivial]
    rw [(C79_enthalpy N (by omega) a).1, (C79_enthalpy N (by omega) a).2.2 1]
    refine congrArg (fun z => Res.ok (rApprox E z a * exp (-c))) ?_
    simp only [s]; push_cast; ring
  · intro i h2 hi v hv
    have hb : ∀ k, 2 ≤ k → k ≤ N - 1 → rbarAt E e N a c k = barBack E (rmAt E e N a) N a (surfBar R M) (N - 1 - k) := by
      intro k k2 kN
      unfold rbarAt; simp only
      by_cases hk : k = N - 1
      · rw [if_pos hk, hk, Nat.sub_self]; rfl
      · rw [if_neg hk, if_neg (by omega), if_neg (by omega)]
    rw [hb i h2 (by omega), show N - 1 - i = (N - 1 - (i + 1)) + 1 by omega, barBack] at hv
    rw [hb (i + 1) (by omega) (by omega)]
    generalize hj : N - 1 - (i + 1) = j at *
    have ht : (if j = 0 then hAt N a (N - 1) else 1 + (j : ℝ) * ((a - 1) / ((N : ℝ) - 1))) =
        1 + ((N : ℝ) - 1 - (i + 1)) * s := by
      have hjc : (j : ℝ) = (N : ℝ) - 1 - (i + 1) := by
        have : j + (i + 1) + 1 = N := by omega
        have : (j : ℝ) + (i + 1) + 1 = N := by exact_mod_cast this
        linarith
      rw [← hjc]
      by_cases h0 : j = 0
      · rw [if_pos h0, (C79_enthalpy N (by omega) a).2.1, h0]; simp
      · rw [if_neg h0]
    cases hy : barBack E (rmAt E e N a) N a (surfBar R M) j with
    | abort => rw [hy] at hv; cases hv
    | ub => rw [hy] at hv; cases hv
    | ok y =>
      rw [hy, Res.bind_ok] at hv
      simp only [ht] at hv
      change barStep E (rmAt E e N a) s _ y = .ok v at hv
      generalize 1 + ((N : ℝ) - 1 - (i + 1)) * s = t at *
      have hrm : ∀ x q, rmAt E e N a x = .ok q →
          Interp.spline e N (hAt N a) (fun j => (star E N a j).1) x = .ok (some q.1) ∧
          Interp.spline e N (hAt N a) (fun j => (star E N a j).2) x = .ok (some q.2) := by
        intro x q hq
        unfold rmAt at hq
        cases h1 : Interp.spline e N (hAt N a) (fun j => (star E N a j).1) x with
        | abort => rw [h1] at hq; cases hq
        | ub => rw [h1] at hq; cases hq
        | ok u =>
          cases h3 : Interp.spline e N (hAt N a) (fun j => (star E N a j).2) x with
          | abort => rw [h1, h3] at hq; cases hq
          | ub => rw [h1, h3] at hq; cases hq
          | ok w =>
            rw [h1, h3] at hq
            cases u <;> cases w <;> simp only [Res.bind_ok] at hq <;> cases hq
            exact ⟨rfl, rfl⟩
      unfold barStep at hv
      cases g1 : rmAt E e N a t with
      | abort => rw [g1] at hv; cases hv
      | ub => rw [g1] at hv; cases hv
      | ok q1 =>
      rw [g1, Res.bind_ok] at hv
      cases f1 : drbarDh E t y q1.1 q1.2 with
      | abort => rw [f1] at hv; cases hv
      | ub => rw [f1] at hv; cases hv
      | ok d1 =>
      rw [f1, Res.bind_ok] at hv
      cases g2 : rmAt E e N a (t + s / 2) with
      | abort => simp only [g2] at hv; cases hv
      | ub => simp only [g2] at hv; cases hv
      | ok q2 =>
      simp only [g2, Res.bind_ok] at hv
      cases f2 : drbarDh E (t + s / 2) (y + s * d1 / 2) q2.1 q2.2 with
      | abort => rw [f2] at hv; cases hv
      | ub => rw [f2] at hv; cases hv
      | ok d2 =>
      rw [f2, Res.bind_ok] at hv
      cases f3 : drbarDh E (t + s / 2) (y + s * d2 / 2) q2.1 q2.2 with
      | abort => rw [f3] at hv; cases hv
      | ub => rw [f3] at hv; cases hv
      | ok d3 =>
      rw [f3, Res.bind_ok] at hv
      cases g4 : rmAt E e N a (t + s) with
      | abort => rw [g4] at hv; cases hv
      | ub => rw [g4] at hv; cases hv
      | ok q4 =>
      rw [g4, Res.bind_ok] at hv
      cases f4 : drbarDh E (t + s) (y + s * d3) q4.1 q4.2 with
      | abort => rw [f4] at hv; cases hv
      | ub => rw [f4] at hv; cases hv
      | ok d4 =>
      rw [f4, Res.bind_ok] at hv
      cases hv
      have val : ∀ x z r m d, drbarDh E x z r m = .ok d → d = z / √(1 - 2 * m / r) / r * drdh E x r m := by
        intro x z r m d hd
        unfold drbarDh at hd
        split at hd
        · cases hd
        · cases hd; rfl
      have g : ∀ x, x = t ∨ x = t + s / 2 ∨ x = t + s → ∃ q, rmAt E e N a x = .ok q := by
        rintro x (rfl | rfl | rfl)
        exacts [⟨_, g1⟩, ⟨_, g2⟩, ⟨_, g4⟩]
      classical
      let q : ℝ → ℝ × ℝ := fun x => match rmAt E e N a x with
        | .ok q => q
        | _ => (0, 0)
      have hq : ∀ x w, rmAt E e N a x = .ok w → q x = w := by intro x w hw; simp only [q, hw]
      refine ⟨y, fun x => (q x).1, fun x => (q x).2, rfl, ?_, ?_⟩
      · intro x hx
        obtain ⟨w, hw⟩ := g x hx
        simp only [hq x w hw]
        exact hrm x w hw
      · have e1 : ∀ k : ℝ, s * k / 2 = s / 2 * k := fun k => by ring
        rw [e1] at f2 f3
        have v1 := val _ _ _ _ _ f1
        have v2 := val _ _ _ _ _ f2
        have v3 := val _ _ _ _ _ f3
        have v4 := val _ _ _ _ _ f4
        unfold rk4
        simp only [hq _ _ g1, hq _ _ g2, hq _ _ g4, smul_eq_mul]
        rw [← v1, ← v2, ← v3, ← v4]
        ring

end Elliptica.Tov
