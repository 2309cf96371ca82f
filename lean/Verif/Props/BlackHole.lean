import Verif.Model.BlackHole
import Verif.Spec.BlackHole
import Verif.Props.Tol
import Mathlib.Tactic.LinearCombination
import Mathlib.Tactic.NormNum
/-!
C93: parameters, tuning and surface radii of a black hole.
-/
namespace Elliptica.Bh
open Elliptica.KsSpec Elliptica.BhSpec

theorem root_horizon (M chi : ℝ) (hM : 0 ≤ M) : horizon M (chi * M) = M * (1 + √(1 - chi ^ 2)) := by
  unfold horizon
  rw [show M ^ 2 - (chi * M) ^ 2 = M ^ 2 * (1 - chi ^ 2) by ring, Real.sqrt_mul (by positivity), Real.sqrt_sq hM]
  ring

theorem chrMass_sq (irr chi : ℝ) (hi : 0 ≤ irr) : 0 ≤ chrMass irr chi ∧ chrMass irr chi ^ 2 * (1 + √(1 - chi ^ 2)) = 2 * irr ^ 2 := by
  have h0 := Real.sqrt_nonneg (1 - chi ^ 2)
  unfold chrMass
  refine ⟨by positivity, ?_⟩
  rw [mul_pow, Real.sq_sqrt (by positivity)]
  field_simp

/-- C93 start-off by Kerr-Schild: for every spin up to 1 mass and spin parameter are those of the Kerr hole with the irreducible mass and the
dimensionless spin asked for; larger spins are refused -/
theorem C93_start_KerrSchild (e irr : ℝ) (he : 0 < e) (hi : 0 ≤ irr) (chi : Fin 3 → ℝ) :
    (1 + e < chiAbs chi → startOff e .KerrSchild .KerrSchild_s2 irr chi = .abort) ∧
    (chiAbs chi ≤ 1 → ∃ p, startOff e .KerrSchild .KerrSchild_s2 irr chi = .ok p ∧ 0 ≤ p.mass ∧ p.spin = chiAbs chi * p.mass ∧ Kerr p.mass p.spin irr) := by
  have hg : Tol.grt e (chiAbs chi) 1 = true ↔ 1 + e < chiAbs chi := by
    rw [(Tol.C13_meaning e _ 1 he).2.2.1]; constructor <;> intro h <;> linarith
  constructor
  · intro h; simp [startOff, hg.mpr h]
  · intro h
    have hn : ¬ (Tol.grt e (chiAbs chi) 1 = true) := by rw [hg]; linarith
    obtain ⟨h0, h2⟩ := chrMass_sq irr (chiAbs chi) hi
    have hc0 : 0 ≤ chiAbs chi := Real.sqrt_nonneg _
    refine ⟨⟨none, chrMass irr (chiAbs chi), chiAbs chi * chrMass irr (chiAbs chi)⟩, by simp [startOff, hn], h0, rfl, ⟨?_, ?_⟩⟩
    · show (chiAbs chi * chrMass irr (chiAbs chi)) ^ 2 ≤ chrMass irr (chiAbs chi) ^ 2
      rw [mul_pow]
      have : chiAbs chi ^ 2 ≤ 1 := by nlinarith
      nlinarith [sq_nonneg (chrMass irr (chiAbs chi))]
    · show 2 * irr ^ 2 = chrMass irr (chiAbs chi) * horizon (chrMass irr (chiAbs chi)) (chiAbs chi * chrMass irr (chiAbs chi))
      rw [root_horizon _ _ h0]
      linarith

example : ∃ p, startOff (1 / 10 ^ 12) .KerrSchild .KerrSchild_s2 1 ![0, 0, 1 / 2] = .ok p :=
  let ⟨p, h, _⟩ := (C93_start_KerrSchild (1 / 10 ^ 12) 1 (by norm_num) (by norm_num) ![0, 0, 1 / 2]).2 (by
    unfold chiAbs; refine Real.sqrt_le_iff.mpr ⟨by norm_num, ?_⟩; simp; norm_num)
  ⟨p, h⟩

/-- C93 start-off without spin: the mass is the irreducible mass, and the radius is that of the horizon - in Kerr-Schild coordinates, in isotropic
coordinates (areal radius r(1+M/2r)²) and in Painleve-Gullstrand coordinates (the shift √(2M/r) is the lapse 1) -/
theorem C93_start_sphere (e irr : ℝ) (hi : 0 < irr) (chi : Fin 3 → ℝ) :
    (∃ r, startOff e .KerrSchild .perfect_s2 irr chi = .ok ⟨some r, irr, 0⟩ ∧ r = horizon irr 0) ∧
    (∃ r, startOff e .IsoSchild .perfect_s2 irr chi = .ok ⟨some r, irr, 0⟩ ∧ 0 < r ∧ r * (1 + irr / (2 * r)) ^ 2 = horizon irr 0) ∧
    (∃ r, startOff e .PGSchild .perfect_s2 irr chi = .ok ⟨some r, irr, 0⟩ ∧ 0 < r ∧ √(2 * irr / r) = 1) ∧ Kerr irr 0 irr := by
  have hh : horizon irr 0 = 2 * irr := by
    unfold horizon; rw [show irr ^ 2 - 0 ^ 2 = irr ^ 2 by ring, Real.sqrt_sq hi.le]; ring
  refine ⟨⟨2 * irr, rfl, hh.symm⟩, ⟨1 / 2 * irr, rfl, by positivity, ?_⟩, ⟨2 * irr, rfl, by positivity, ?_⟩, ⟨by nlinarith [sq_nonneg irr], ?_⟩⟩
  · rw [hh]; field_simp; norm_num
  · rw [div_self (by positivity)]; exact Real.sqrt_one
  · rw [hh]; ring

/-- C93 violation: the start-off `CloseKerrSchild` sets the Christodoulou mass to the irreducible mass but the spin parameter to that of the hole with the
Christodoulou mass: for chi = 24/25 the spin parameter is 6/5 of the mass set - there is no such Kerr hole, and chi·mass is not the spin -/
theorem C93_start_close_violation (e : ℝ) (he : 0 < e) :
    ∃ p, startOff e .CloseKerrSchild .perfect_s2 1 ![0, 0, 24 / 25] = .ok p ∧ p.mass = 1 ∧ p.spin = 6 / 5 ∧ ¬ Kerr p.mass p.spin 1 := by
  have hc : chiAbs ![0, 0, 24 / 25] = 24 / 25 := by
    have : (0 : ℝ) ^ 2 + 0 ^ 2 + (24 / 25) ^ 2 = (24 / 25) ^ 2 := by norm_num
    show √((0 : ℝ) ^ 2 + 0 ^ 2 + (24 / 25) ^ 2) = 24 / 25
    rw [this]; exact Real.sqrt_sq (by norm_num)
  have hm : chrMass 1 (24 / 25) = 5 / 4 := by
    unfold chrMass
    rw [show 1 - ((24 : ℝ) / 25) ^ 2 = (7 / 25) ^ 2 by norm_num, Real.sqrt_sq (by norm_num), show (2 : ℝ) / (1 + 7 / 25) = (5 / 4) ^ 2 by norm_num,
      Real.sqrt_sq (by norm_num)]
    norm_num
  have hn : ¬ (Tol.grt e (chiAbs ![0, 0, 24 / 25]) 1 = true) := by
    rw [(Tol.C13_meaning e _ 1 he).2.2.1, hc]; intro h; linarith
  refine ⟨⟨some (3 / 2 * 1), 1, chiAbs ![0, 0, 24 / 25] * chrMass 1 (chiAbs ![0, 0, 24 / 25])⟩, by simp [startOff, hn], rfl, ?_, ?_⟩
  · show chiAbs ![0, 0, 24 / 25] * chrMass 1 (chiAbs ![0, 0, 24 / 25]) = 6 / 5
    rw [hc, hm]; norm_num
  · rintro ⟨h1, _⟩
    have h1' : (chiAbs ![0, 0, 24 / 25] * chrMass 1 (chiAbs ![0, 0, 24 / 25])) ^ 2 ≤ (1 : ℝ) ^ 2 := h1
    rw [hc, hm] at h1'
    norm_num at h1'

/-- C93 one step of the radius tuning: without weight, or with the mass within the tolerance, the radius is kept and reported as kept; otherwise it is
scaled against the relative error of the mass -/
theorem C93_tune_step (e target W tol r m : ℝ) (he : 0 < e) :
    let t := tuneRadius e target W tol r m
    ((|W| < e ∨ (|m / target - 1| - tol < e ∧ |m / target - 1| - tol ≠ -e)) → t.radius = r ∧ t.changed = false) ∧
    (¬ (|W| < e ∨ (|m / target - 1| - tol < e ∧ |m / target - 1| - tol ≠ -e)) →
      t.radius = r * (1 - W * (m / target - 1)) ∧ (t.changed = true ↔ e ≤ |r * (m / target - 1)|)) := by
  intro t
  have hW : Tol.eql e W 0 = true ↔ |W| < e := by rw [(Tol.C13_meaning e W 0 he).1, sub_zero]
  have hD := (Tol.C13_meaning e |m / target - 1| tol he).2.2.2.1
  have h0 : Tol.eql e (0 : ℝ) 0 = true := by rw [(Tol.C13_meaning e (0 : ℝ) 0 he).1]; simpa using he
  constructor
  · intro h
    have hz : (if Tol.lssEql e |m / target - 1| tol = true then (0 : ℝ) else if Tol.eql e W 0 = true then 0 else -r * (m / target - 1)) = 0 := by
      rcases h with h | h
      · rw [if_pos (hW.mpr h)]; simp
      · rw [if_pos (hD.mpr h)]
    simp only [t, tuneRadius, hz, h0, mul_zero, add_zero, Bool.not_true, and_self]
  · intro h
    push Not at h
    have h1 : ¬ (Tol.eql e W 0 = true) := by rw [hW]; linarith [h.1]
    have h2 : ¬ (Tol.lssEql e |m / target - 1| tol = true) := by
      rw [hD]; rintro ⟨a, b⟩; exact b (h.2 a)
    simp only [t, tuneRadius, if_neg h1, if_neg h2]
    refine ⟨by ring, ?_⟩
    rw [Bool.not_eq_true', Bool.eq_false_iff, Ne, (Tol.C13_meaning e _ 0 he).1, sub_zero, neg_mul, abs_neg, not_lt]

/-- the radius after n steps, when the mass is proportional to the radius: m = κ r -/
noncomputable def tuneIter (e target W tol κ r : ℝ) : ℕ → ℝ
  | 0 => r
  | n + 1 => let x := tuneIter e target W tol κ r n; (tuneRadius e target W tol x (κ * x)).radius

/-- C93 the radius tuning reaches the target: for a hole whose mass is proportional to its radius, a weight in (0,1] (not below the round-off) and a start
with the mass within (1±E) of the target, E < 1, the relative error of the mass is within tolerance and round-off after finitely many steps, for good -/
theorem C93_tune_converges (e target W tol κ r E : ℝ) (he : 0 < e) (ht : 0 < target) (hW : e ≤ W) (hW1 : W ≤ 1) (htol : 0 ≤ tol)
    (hE : E < 1) (hr : |κ * r / target - 1| ≤ E) :
    ∃ N, ∀ n, N ≤ n → |κ * tuneIter e target W tol κ r n / target - 1| < tol + 2 * e := by
  have hE0 : 0 ≤ E := le_trans (abs_nonneg _) hr
  have hWp : 0 < W := by linarith
  let ρ := max (1 - W * (1 - E)) E
  have hρ0 : 0 ≤ ρ := le_max_of_le_right hE0
  have hρ1 : ρ < 1 := max_lt (by nlinarith) hE
  let err := fun n => κ * tuneIter e target W tol κ r n / target - 1
  have step : ∀ n, |err n| ≤ E → (|err (n + 1)| ≤ ρ * |err n|) ∨ (err (n + 1) = err n ∧ |err n| < tol + e) := by
    intro n hn
    obtain ⟨s1, s2⟩ := C93_tune_step e target W tol (tuneIter e target W tol κ r n) (κ * tuneIter e target W tol κ r n) he
    by_cases hc : |W| < e ∨ (|κ * tuneIter e target W tol κ r n / target - 1| - tol < e ∧ |κ * tuneIter e target W tol κ r n / target - 1| - tol ≠ -e)
    · right
      have h1 := (s1 hc).1
      rcases hc with h | h
      · rw [abs_of_pos hWp] at h; linarith
      · refine ⟨?_, by show |κ * tuneIter e target W tol κ r n / target - 1| < tol + e; linarith [h.1]⟩
        show κ * tuneIter e target W tol κ r (n + 1) / target - 1 = _
        simp only [tuneIter]
        rw [h1]
    · left
      have h1 := (s2 hc).1
      have h2 : err (n + 1) = err n * (1 - W * (1 + err n)) := by
        show κ * tuneIter e target W tol κ r (n + 1) / target - 1 = (κ * tuneIter e target W tol κ r n / target - 1) * (1 - W * (1 + (κ * tuneIter e target W tol κ r n / target - 1)))
        simp only [tuneIter]
        rw [h1]
        field_simp
        ring
      rw [h2, abs_mul, mul_comm]
      refine mul_le_mul_of_nonneg_right ?_ (abs_nonneg _)
      obtain ⟨l, u⟩ := abs_le.mp hn
      rw [abs_le]
      constructor
      · have : -E ≤ 1 - W * (1 + err n) := by nlinarith
        linarith [le_max_right (1 - W * (1 - E)) E]
      · have : 1 - W * (1 + err n) ≤ 1 - W * (1 - E) := by nlinarith
        exact le_trans this (le_max_left _ _)
  have bound : ∀ n, |err n| ≤ E ∧ (|err n| ≤ ρ ^ n * E ∨ |err n| < tol + e) := by
    intro n
    induction n with
    | zero => exact ⟨hr, Or.inl (by rw [pow_zero, one_mul]; exact hr)⟩
    | succ n ih =>
      rcases step n ih.1 with h | ⟨h, h'⟩
      · have hle : |err (n + 1)| ≤ |err n| := le_trans h (by nlinarith [abs_nonneg (err n)])
        refine ⟨le_trans hle ih.1, ?_⟩
        rcases ih.2 with h2 | h2
        · left
          calc |err (n + 1)| ≤ ρ * |err n| := h
            _ ≤ ρ * (ρ ^ n * E) := by gcongr
            _ = ρ ^ (n + 1) * E := by ring
        · right; linarith
      · exact ⟨by rw [h]; exact ih.1, Or.inr (by rw [h]; exact h')⟩
  have hlim : ∃ N, ∀ n, N ≤ n → ρ ^ n < e := by
    obtain ⟨N, hN⟩ := exists_pow_lt_of_lt_one he hρ1
    exact ⟨N, fun n hn => lt_of_le_of_lt (pow_le_pow_of_le_one hρ0 hρ1.le hn) hN⟩
  obtain ⟨N, hN⟩ := hlim
  refine ⟨N, fun n hn => ?_⟩
  rcases (bound n).2 with h | h
  · have h3 := hN n hn
    have h4 : 0 ≤ ρ ^ n := pow_nonneg hρ0 n
    show |err n| < _
    nlinarith
  · show |err n| < _
    linarith

example : ∃ N, ∀ n, N ≤ n → |1 * tuneIter (1 / 10 ^ 12) 2 (1 / 2) (1 / 1000) 1 1 n / 2 - 1| < 1 / 1000 + 2 * (1 / 10 ^ 12) :=
  C93_tune_converges _ 2 (1 / 2) (1 / 1000) 1 1 (1 / 2) (by norm_num) (by norm_num) (by norm_num) (by norm_num) (by norm_num) (by norm_num)
    (by rw [abs_le]; constructor <;> norm_num)

/-- C93 the dimensionless spin computed from any observed spin and irreducible mass is at most 1 in size, has the direction of the spin, and for a Kerr
hole of mass M with the spin χM² it is χ -/
theorem C93_chi_now (irr : ℝ) (hi : 0 < irr) (s : Fin 3 → ℝ) :
    chiAbs (chiNow irr s) ≤ 1 ∧ (∃ k > 0, ∀ i, chiNow irr s i = k * s i) ∧
    ∀ M a : ℝ, 0 < M → Kerr M a irr → ∀ chi : Fin 3 → ℝ, a = chiAbs chi * M → (∀ i, s i = chi i * M ^ 2) → chiNow irr s = chi := by
  have hm : ∀ net : ℝ, √(irr ^ 2 + net ^ 2 / (4 * irr ^ 2)) ^ 2 = irr ^ 2 + net ^ 2 / (4 * irr ^ 2) := fun net => Real.sq_sqrt (by positivity)
  have hnet : √(s 0 ^ 2 + s 1 ^ 2 + s 2 ^ 2) ^ 2 = s 0 ^ 2 + s 1 ^ 2 + s 2 ^ 2 := Real.sq_sqrt (by positivity)
  have hn0 : 0 ≤ √(s 0 ^ 2 + s 1 ^ 2 + s 2 ^ 2) := Real.sqrt_nonneg _
  have hc : ∀ i, chiNow irr s i = s i / (irr ^ 2 + √(s 0 ^ 2 + s 1 ^ 2 + s 2 ^ 2) ^ 2 / (4 * irr ^ 2)) := by
    intro i; unfold chiNow; simp only [hm]
  refine ⟨?_, ⟨1 / (irr ^ 2 + √(s 0 ^ 2 + s 1 ^ 2 + s 2 ^ 2) ^ 2 / (4 * irr ^ 2)), by positivity, fun i => by rw [hc]; ring⟩, ?_⟩
  · unfold chiAbs
    simp only [hc]
    generalize hN : √(s 0 ^ 2 + s 1 ^ 2 + s 2 ^ 2) = N at *
    have hD : 0 < irr ^ 2 + N ^ 2 / (4 * irr ^ 2) := by positivity
    refine Real.sqrt_le_iff.mpr ⟨by norm_num, ?_⟩
    rw [one_pow, div_pow, div_pow, div_pow, ← add_div, ← add_div, ← hnet, div_le_one (by positivity)]
    have h1 : N ≤ irr ^ 2 + N ^ 2 / (4 * irr ^ 2) := by
      have : irr ^ 2 + N ^ 2 / (4 * irr ^ 2) - N = (irr - N / (2 * irr)) ^ 2 := by field_simp; ring
      nlinarith [sq_nonneg (irr - N / (2 * irr))]
    exact pow_le_pow_left₀ hn0 h1 2
  · intro M a hM hk chi ha hs
    have hchi2 : chiAbs chi ^ 2 = chi 0 ^ 2 + chi 1 ^ 2 + chi 2 ^ 2 := Real.sq_sqrt (by positivity)
    have hN2 : √(s 0 ^ 2 + s 1 ^ 2 + s 2 ^ 2) ^ 2 = a ^ 2 * M ^ 2 := by
      rw [hnet, hs, hs, hs, ha]; linear_combination (-M ^ 4) * hchi2
    have hh2 : √(M ^ 2 - a ^ 2) ^ 2 = M ^ 2 - a ^ 2 := Real.sq_sqrt (by linarith [hk.sub])
    have har := hk.area
    unfold horizon at har
    have hD : irr ^ 2 + a ^ 2 * M ^ 2 / (4 * irr ^ 2) = M ^ 2 := by
      have h4 : 4 * irr ^ 4 - 4 * irr ^ 2 * M ^ 2 + a ^ 2 * M ^ 2 = 0 := by
        have : 2 * irr ^ 2 - M ^ 2 = M * √(M ^ 2 - a ^ 2) := by linarith
        have h5 : (2 * irr ^ 2 - M ^ 2) ^ 2 = M ^ 2 * (M ^ 2 - a ^ 2) := by rw [this, mul_pow, hh2]
        linear_combination h5
      field_simp
      linear_combination h4
    funext i
    rw [hc, hN2, hD, hs]
    field_simp

/-- C93 the spin tuning: a component of Omega is changed exactly when there is a weight and the spin is off by more than the tolerance, by
W (χ - χ_target) times the angular velocity of the orbit -/
theorem C93_tune_chi (e W tol scale irr : ℝ) (he : 0 < e) (om target s : Fin 3 → ℝ) (i : Fin 3) :
    tuneChi e W tol scale irr om target s i =
      om i + (if |W| < e ∨ |chiNow irr s i - target i| ≤ tol + e then 0 else W * (chiNow irr s i - target i) * scale) := by
  have hW : Tol.eql e W 0 = true ↔ |W| < e := by rw [(Tol.C13_meaning e W 0 he).1, sub_zero]
  have hD := (Tol.C13_meaning e |chiNow irr s i - target i| tol he).2.2.1
  unfold tuneChi
  by_cases h1 : |W| < e
  · rw [if_pos (hW.mpr h1), if_pos (Or.inl h1), add_zero]
  · rw [if_neg (by rw [hW]; exact h1)]
    show (if Tol.grt e |chiNow irr s i - target i| tol = true then om i + W * (chiNow irr s i - target i) * scale else om i) = _
    by_cases h2 : |chiNow irr s i - target i| ≤ tol + e
    · have hg : ¬ (Tol.grt e |chiNow irr s i - target i| tol = true) := by rw [hD]; linarith
      have hc : |W| < e ∨ |chiNow irr s i - target i| ≤ tol + e := Or.inr h2
      simp only [hg, hc, if_true, if_false, add_zero, Bool.false_eq_true]
    · have hg : Tol.grt e |chiNow irr s i - target i| tol = true := by rw [hD]; linarith
      have hc : ¬ (|W| < e ∨ |chiNow irr s i - target i| ≤ tol + e) := by rintro (h | h); exacts [h1 h, h2 h]
      simp only [hg, hc, if_true, if_false]

/-- C93 the radii reported for a surface are its least and its greatest radius -/
theorem C93_minMax (big : ℝ) (r : List ℝ) (hne : r ≠ []) (h0 : ∀ x ∈ r, 0 ≤ x) (hb : ∀ x ∈ r, x ≤ big) :
    ((minMax big r).1 ∈ r ∧ ∀ x ∈ r, (minMax big r).1 ≤ x) ∧ ((minMax big r).2 ∈ r ∧ ∀ x ∈ r, x ≤ (minMax big r).2) := by
  have key : ∀ (l : List ℝ) (a b : ℝ),
      let p := l.foldl (fun p x => (if x < p.1 then x else p.1, if x > p.2 then x else p.2)) (a, b)
      ((p.1 = a ∨ p.1 ∈ l) ∧ p.1 ≤ a ∧ ∀ x ∈ l, p.1 ≤ x) ∧ ((p.2 = b ∨ p.2 ∈ l) ∧ b ≤ p.2 ∧ ∀ x ∈ l, x ≤ p.2) := by
    intro l
    induction l with
    | nil => intro a b; simp
    | cons y l ih =>
      intro a b
      simp only [List.foldl_cons]
      obtain ⟨⟨m1, m2, m3⟩, ⟨M1, M2, M3⟩⟩ := ih (if y < a then y else a) (if y > b then y else b)
      have hy1 : (if y < a then y else a) ≤ y ∧ (if y < a then y else a) ≤ a := by split <;> constructor <;> linarith
      have hy2 : y ≤ (if y > b then y else b) ∧ b ≤ (if y > b then y else b) := by split <;> constructor <;> linarith
      refine ⟨⟨?_, le_trans m2 hy1.2, ?_⟩, ⟨?_, le_trans hy2.2 M2, ?_⟩⟩
      · rcases m1 with h | h
        · rw [h]; split
          · exact Or.inr (by simp)
          · exact Or.inl rfl
        · exact Or.inr (List.mem_cons_of_mem _ h)
      · intro x hx
        rcases List.mem_cons.mp hx with rfl | hx
        · exact le_trans m2 hy1.1
        · exact m3 x hx
      · rcases M1 with h | h
        · rw [h]; split
          · exact Or.inr (by simp)
          · exact Or.inl rfl
        · exact Or.inr (List.mem_cons_of_mem _ h)
      · intro x hx
        rcases List.mem_cons.mp hx with rfl | hx
        · exact le_trans hy2.1 M2
        · exact M3 x hx
  obtain ⟨y, hy⟩ := List.exists_mem_of_ne_nil r hne
  obtain ⟨⟨m1, m2, m3⟩, ⟨M1, M2, M3⟩⟩ := key r big 0
  change ((minMax big r).1 = big ∨ (minMax big r).1 ∈ r) at m1
  change ((minMax big r).2 = 0 ∨ (minMax big r).2 ∈ r) at M1
  refine ⟨⟨?_, m3⟩, ⟨?_, M3⟩⟩
  · rcases m1 with h | h
    · have h1 := m3 y hy
      change (minMax big r).1 ≤ y at h1
      rw [h] at h1 ⊢
      rw [le_antisymm h1 (hb y hy)]; exact hy
    · exact h
  · rcases M1 with h | h
    · have h1 := M3 y hy
      change y ≤ (minMax big r).2 at h1
      rw [h] at h1 ⊢
      rw [← le_antisymm h1 (h0 y hy)]; exact hy
    · exact h

end Elliptica.Bh
