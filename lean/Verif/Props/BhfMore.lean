import Verif.Props.Bhf
import Verif.Props.DerivName
import Mathlib.Analysis.Calculus.ContDiff.Basic
import Mathlib.Analysis.Calculus.Deriv.MeanValue
import Mathlib.Analysis.SpecialFunctions.ExpDeriv
/-!
Property C88, the names of the derivatives and the exponential formulas; property C89, the smoothing function.
-/
namespace Elliptica.Bhf
open Real DerivName

/-! ### names -/

theorem digit_eq (i : Fin 3) : Bhf.digit i = DerivName.digit i := by
  fin_cases i <;> rfl

theorem last_digit (s : Str) (i : Fin 3) : (s ++ ['D', DerivName.digit i]).getLast? ≠ some '_' := by
  rw [List.getLast?_append]; fin_cases i <;> simp [DerivName.digit]

theorem last_digit3 (s : Str) (i : Fin 3) : (s ++ ['_', 'D', DerivName.digit i]).getLast? ≠ some '_' := by
  rw [List.getLast?_append]; fin_cases i <;> simp [DerivName.digit]

/-- **C88 (names).** The names of the fields the filler reads for a field are those that the naming convention of the
derivatives gives to its three first and to its second derivatives. -/
theorem C88_names (name : Str) (h0 : name ≠ []) (h1 : name.getLast? ≠ some '_')
    (h2 : name.head? = some '_' → indexed name.tail) (i j : Fin 3) (hij : i ≤ j) :
    IsDeriv ((dNames name).1 i) name i ∧ IsDeriv ((dNames name).2 i j) ((dNames name).1 i) j := by
  by_cases hu : name.head? = some '_'
  · obtain ⟨s, rfl⟩ : ∃ s, name = '_' :: s := by
      cases name with
      | nil => exact absurd rfl h0
      | cons c s => simp at hu; exact ⟨s, by rw [hu]⟩
    have hi : indexed s = true := h2 hu
    have hs : s ≠ [] := by rintro rfl; simp [indexed, hasIndex] at hi
    have hl : s.getLast? ≠ some '_' := by
      rw [List.getLast?_cons] at h1
      cases h : s.getLast? with
      | none => exact fun h => by cases h
      | some c => rw [h] at h1; simpa using h1
    have e1 : (dNames ('_' :: s)).1 i = '_' :: 'd' :: s ++ ['D', DerivName.digit i] := by simp [dNames, hi, digit_eq]
    have e2 : (dNames ('_' :: s)).2 i j = '_' :: 'd' :: ('d' :: s ++ ['D', DerivName.digit i]) ++ ['D', DerivName.digit j] := by
      simp [dNames, hi, digit_eq]
    rw [e1, e2]
    exact ⟨.more_ s i hs hl, .more_ ('d' :: s ++ ['D', DerivName.digit i]) j (by simp) (last_digit _ _)⟩
  · have key : dNames name = if indexed name then
        (fun i => ['d'] ++ name ++ ['D', Bhf.digit i], fun i j => ['d', 'd'] ++ name ++ ['D', Bhf.digit i, 'D', Bhf.digit j])
        else (fun i => ['d'] ++ name ++ ['_', 'D', Bhf.digit i], fun i j => ['d', 'd'] ++ name ++ ['_', 'D', Bhf.digit i, 'D', Bhf.digit j]) := by
      cases name with
      | nil => exact absurd rfl h0
      | cons c s =>
        have hc : c ≠ '_' := fun h => hu (by simp [h])
        unfold dNames
        split
        · rename_i h; cases h; exact absurd rfl hc
        · rfl
    rw [key]
    by_cases hi : indexed name
    · rw [if_pos hi]
      have e1 : ['d', 'd'] ++ name ++ ['D', Bhf.digit i, 'D', Bhf.digit j] =
          'd' :: ('d' :: name ++ ['D', DerivName.digit i]) ++ ['D', DerivName.digit j] := by simp [digit_eq]
      dsimp only
      rw [e1, digit_eq]
      exact ⟨.more name i h0 h1, .more _ j (by simp) (last_digit _ _)⟩
    · rw [if_neg hi]
      have e1 : ['d', 'd'] ++ name ++ ['_', 'D', Bhf.digit i, 'D', Bhf.digit j] =
          'd' :: ('d' :: name ++ ['_', 'D', DerivName.digit i]) ++ ['D', DerivName.digit j] := by simp [digit_eq]
      dsimp only
      rw [e1, digit_eq]
      exact ⟨.first name i h0, .more _ j (by simp) (last_digit3 _ _)⟩

example : (dNames "adm_Kij_D0D1".toList).2 0 2 = "ddadm_Kij_D0D1D0D2".toList ∧ (dNames "psi".toList).1 1 = "dpsi_D1".toList := by
  decide +kernel

/-- **C88 (names) fails** for a name that begins with an underscore and has no index: the first name is that of the third
derivative and the other two are empty, so the fields are not found. -/
theorem C88_names_violation (s : Str) (h : indexed s = false) :
    (dNames ('_' :: s)).1 0 = ['_', 'd'] ++ s ++ ['_', 'D', '2'] ∧ (dNames ('_' :: s)).1 1 = [] ∧ (dNames ('_' :: s)).1 2 = [] := by
  simp [dNames, h, Bhf.digit]

/-! ### exponential formulas -/

/-- the exponential formula of order 0 meets the value of the field at the surface -/
theorem C88_exp (r0 fr0 : ℝ) : expC0 r0 fr0 r0 = fr0 ∧ Continuous (expC0 r0 fr0) := by
  refine ⟨by simp [expC0], ?_⟩
  unfold expC0
  fun_prop

/-- the exponential formula of order 1 meets the value of the field at the surface -/
theorem C88_exp1 (r0 fr0 dfr0 : ℝ) (h : r0 ≠ 0) : expC1 r0 fr0 dfr0 r0 = fr0 := by
  simp only [expC1, sub_self, abs_zero, mul_zero, zero_div, exp_zero]
  field_simp
  ring

/-- the slope of the formula at the surface, from inside -/
theorem exp1_slope (r0 fr0 dfr0 : ℝ) (h : 0 < r0) :
    HasDerivWithinAt (expC1 r0 fr0 dfr0) (dfr0 - 2 * fr0 / r0) (Set.Iic r0) r0 := by
  set a := fr0 + 1 * fr0 - dfr0 * r0 with ha
  set b := dfr0 - (1 * fr0) / r0 with hb
  have h1 : HasDerivAt (fun r : ℝ => (a + b * r) * exp ((r0 - r) / r0)) (dfr0 - 2 * fr0 / r0) r0 := by
    have h2 : HasDerivAt (fun r : ℝ => a + b * r) b r0 := by simpa using ((hasDerivAt_id r0).const_mul b).const_add a
    have h3 : HasDerivAt (fun r : ℝ => exp ((r0 - r) / r0)) (exp ((r0 - r0) / r0) * (-1 / r0)) r0 :=
      (((hasDerivAt_id r0).const_sub r0).div_const r0).exp
    refine (h2.mul h3).congr_deriv ?_
    rw [sub_self, zero_div, exp_zero, ha, hb]
    field_simp
    ring
  refine h1.hasDerivWithinAt.congr_of_mem (fun r hr => ?_) Set.self_mem_Iic
  have : |r - r0| = r0 - r := by rw [abs_sub_comm]; exact abs_of_nonneg (sub_nonneg.2 hr)
  simp only [expC1, this, one_mul, ← hb]
  rw [ha, hb]; ring_nf

/-- **C88 fails for the exponential formula of order 1**: it promises the slope of the field at the surface, but its slope
there, from inside, is that of the field less twice the value over the radius, another one unless the value is 0. -/
theorem C88_exp1_violation (r0 fr0 dfr0 : ℝ) (h : 0 < r0) (hf : fr0 ≠ 0) :
    HasDerivWithinAt (expC1 r0 fr0 dfr0) (dfr0 - 2 * fr0 / r0) (Set.Iic r0) r0 ∧
      ¬ HasDerivWithinAt (expC1 r0 fr0 dfr0) dfr0 (Set.Iic r0) r0 := by
  refine ⟨exp1_slope r0 fr0 dfr0 h, fun h' => ?_⟩
  have := (uniqueDiffOn_Iic r0 r0 Set.self_mem_Iic).eq_deriv _ h' (exp1_slope r0 fr0 dfr0 h)
  have : fr0 / r0 = 0 := by linarith [mul_div_assoc 2 fr0 r0]
  exact (div_ne_zero hf h.ne') this

/-! ### the smoothing function -/

theorem pos_pow (n : ℕ) (y : ℝ) : HasDerivAt (fun y : ℝ => (max 0 y) ^ (n + 2)) ((n + 2 : ℝ) * (max 0 y) ^ (n + 1)) y := by
  have e : (fun y : ℝ => (max 0 y) ^ (n + 2)) = glue (fun _ => 0) (fun y => y ^ (n + 2)) 0 := by
    funext t
    rcases lt_or_ge t 0 with h | h
    · rw [max_eq_left h.le]; simp [glue, h]
    · rw [max_eq_right h]; simp [glue, not_lt.2 h]
  have e' : (n + 2 : ℝ) * (max 0 y) ^ (n + 1) = glue (fun _ => 0) (fun y => (n + 2 : ℝ) * y ^ (n + 1)) 0 y := by
    rcases lt_or_ge y 0 with h | h
    · rw [max_eq_left h.le]; simp [glue, h]
    · rw [max_eq_right h]; simp [glue, not_lt.2 h]
  rw [e, e']
  refine glue_has (fun s => hasDerivAt_const s 0) (fun s => ?_) (by simp) (by simp) y
  refine (hasDerivAt_pow (n + 2) s).congr_deriv ?_
  push_cast
  rfl

theorem pos_pow_smooth (n : ℕ) : ContDiff ℝ n fun y : ℝ => (max 0 y) ^ (n + 1) := by
  induction n with
  | zero =>
    rw [Nat.cast_zero, contDiff_zero]
    fun_prop
  | succ n ih =>
    rw [show ((n + 1 : ℕ) : WithTop ℕ∞) = n + 1 from rfl, contDiff_succ_iff_deriv]
    refine ⟨fun y => (pos_pow n y).differentiableAt, by simp, ?_⟩
    rw [show deriv (fun y : ℝ => (max 0 y) ^ (n + 1 + 1)) = fun y => (n + 2 : ℝ) * (max 0 y) ^ (n + 1) from
      funext fun y => (pos_pow n y).deriv]
    exact contDiff_const.mul ih

/-- the smoothing function of the variable x -/
noncomputable def step (x : ℝ) : ℝ :=
  (35 / 256) * x ^ 9 - 45 / 64 * x ^ 7 + (189 / 128) * x ^ 5 - 105 / 64 * x ^ 3 + (315 / 256) * x + 1 / 2

theorem step_has (x : ℝ) : HasDerivAt step (315 / 256 * (1 - x ^ 2) ^ 4) x := by
  have h := fun n : ℕ => hasDerivAt_pow n x
  have := ((((((h 9).const_mul (35 / 256)).sub ((h 7).const_mul (45 / 64))).add ((h 5).const_mul (189 / 128))).sub
    ((h 3).const_mul (105 / 64))).add ((hasDerivAt_id x).const_mul (315 / 256))).add_const (1 / 2 : ℝ)
  refine this.congr_deriv ?_
  norm_num
  ring

/-- the step joined to the constants -/
noncomputable def whole : ℝ → ℝ := glue (fun _ => 0) (glue step (fun _ => 1) 1) (-1)

theorem whole_has (x : ℝ) : HasDerivAt whole (315 / 256 * (max 0 (1 - x ^ 2)) ^ 4) x := by
  have e : 315 / 256 * (max 0 (1 - x ^ 2)) ^ 4 = glue (fun _ => 0) (glue (fun x => 315 / 256 * (1 - x ^ 2) ^ 4) (fun _ => 0) 1) (-1) x := by
    unfold glue
    dsimp only
    by_cases h1 : x < -1
    · rw [if_pos h1, max_eq_left (by nlinarith)]; norm_num
    · rw [if_neg h1]
      by_cases h2 : x < 1
      · rw [if_pos h2, max_eq_right (by nlinarith)]
      · rw [if_neg h2, max_eq_left (by nlinarith)]; norm_num
  rw [e]
  refine glue_has (fun s => hasDerivAt_const s 0) (fun s => glue_has step_has (fun s => hasDerivAt_const s 1) ?_ ?_ s) ?_ ?_ x
  · norm_num [step]
  · norm_num
  · norm_num [glue, step]
  · norm_num [glue]

theorem smoother_eq (r rmax rmin : ℝ) (h : rmin < rmax) : smoother r rmax rmin = whole ((2 * r - rmax - rmin) / (rmax - rmin)) := by
  have hd : 0 < rmax - rmin := sub_pos.2 h
  unfold smoother whole glue
  by_cases h1 : r ≥ rmax
  · rw [if_pos h1, if_neg (not_lt.2 ((le_div_iff₀ hd).2 (by linarith))), if_neg (not_lt.2 ((le_div_iff₀ hd).2 (by linarith)))]
  · rw [if_neg h1]
    push Not at h1
    by_cases h2 : r ≤ rmin
    · rw [if_pos h2]
      rcases lt_or_eq_of_le h2 with h3 | h3
      · rw [if_pos ((div_lt_iff₀ hd).2 (by linarith))]
      · have : (2 * r - rmax - rmin) / (rmax - rmin) = -1 := by rw [div_eq_iff hd.ne', h3]; ring
        rw [this]; norm_num [step]
    · rw [if_neg h2]
      push Not at h2
      rw [if_neg (not_lt.2 ((le_div_iff₀ hd).2 (by linarith))), if_pos ((div_lt_iff₀ hd).2 (by linarith))]
      norm_num [polySmoother, step]

/-- **C89.** The smoothing function is 0 up to the inner radius and 1 from the outer one on, grows in between, and is four
times continuously differentiable everywhere. -/
theorem C89_smoother (rmax rmin : ℝ) (h : rmin < rmax) :
    (∀ r ≤ rmin, smoother r rmax rmin = 0) ∧ (∀ r, rmax ≤ r → smoother r rmax rmin = 1) ∧
      Monotone (fun r => smoother r rmax rmin) ∧ (∀ r, 0 ≤ smoother r rmax rmin ∧ smoother r rmax rmin ≤ 1) ∧
      StrictMonoOn (fun r => smoother r rmax rmin) (Set.Icc rmin rmax) ∧
      ContDiff ℝ 4 (fun r => smoother r rmax rmin) := by
  have hd : 0 < rmax - rmin := sub_pos.2 h
  have z : ∀ r ≤ rmin, smoother r rmax rmin = 0 := fun r hr => by
    unfold smoother; rw [if_neg (not_le.2 (lt_of_le_of_lt hr h)), if_pos hr]
  have o : ∀ r, rmax ≤ r → smoother r rmax rmin = 1 := fun r hr => if_pos hr
  have hD : ∀ r, HasDerivAt (fun r => smoother r rmax rmin)
      (315 / 256 * (max 0 (1 - ((2 * r - rmax - rmin) / (rmax - rmin)) ^ 2)) ^ 4 * (2 / (rmax - rmin))) r := by
    intro r
    rw [show (fun r => smoother r rmax rmin) = fun r => whole ((2 * r - rmax - rmin) / (rmax - rmin)) from
      funext fun r => smoother_eq r rmax rmin h]
    have h1 : HasDerivAt (fun r : ℝ => (2 * r - rmax - rmin) / (rmax - rmin)) (2 / (rmax - rmin)) r := by
      simpa using ((((hasDerivAt_id r).const_mul 2).sub_const rmax).sub_const rmin).div_const (rmax - rmin)
    exact (whole_has _).comp r h1
  have hm : Monotone (fun r => smoother r rmax rmin) := by
    refine monotone_of_deriv_nonneg (fun r => (hD r).differentiableAt) fun r => ?_
    rw [(hD r).deriv]
    positivity
  refine ⟨z, o, hm, fun r => ⟨?_, ?_⟩, ?_, ?_⟩
  · rcases le_total r rmin with hr | hr
    · rw [z r hr]
    · rw [← z rmin le_rfl]; exact hm hr
  · rcases le_total r rmax with hr | hr
    · rw [← o rmax le_rfl]; exact hm hr
    · rw [o r hr]
  · refine strictMonoOn_of_deriv_pos (convex_Icc _ _) (fun r _ => (hD r).continuousAt.continuousWithinAt) fun r hr => ?_
    rw [interior_Icc] at hr
    rw [(hD r).deriv]
    have a1 : -1 < (2 * r - rmax - rmin) / (rmax - rmin) := (lt_div_iff₀ hd).2 (by linarith [hr.1])
    have a2 : (2 * r - rmax - rmin) / (rmax - rmin) < 1 := (div_lt_iff₀ hd).2 (by linarith [hr.2])
    have : 0 < max 0 (1 - ((2 * r - rmax - rmin) / (rmax - rmin)) ^ 2) := lt_max_of_lt_right (by nlinarith)
    positivity
  · rw [show (4 : WithTop ℕ∞) = 3 + 1 from rfl, contDiff_succ_iff_deriv]
    refine ⟨fun r => (hD r).differentiableAt, by simp, ?_⟩
    rw [show deriv (fun r => smoother r rmax rmin) = _ from funext fun r => (hD r).deriv]
    refine (contDiff_const.mul ?_).mul contDiff_const
    exact (pos_pow_smooth 3).comp (f := fun r : ℝ => 1 - ((2 * r - rmax - rmin) / (rmax - rmin)) ^ 2) (by fun_prop)

/-- the smoothing function takes complementary values at points mirrored in the middle of the layer -/
theorem C89_symmetric (rmax rmin r : ℝ) (h : rmin < rmax) :
    smoother r rmax rmin + smoother (rmax + rmin - r) rmax rmin = 1 := by
  have hd : rmax - rmin ≠ 0 := (sub_pos.2 h).ne'
  unfold smoother
  by_cases h1 : rmax ≤ r
  · rw [if_pos h1, if_neg (by push Not; linarith), if_pos (by linarith)]; norm_num
  · rw [if_neg h1]
    push Not at h1
    by_cases h2 : r ≤ rmin
    · rw [if_pos h2, if_pos (by linarith)]; norm_num
    · push Not at h2
      rw [if_neg (by linarith), if_neg (by push Not; linarith), if_neg (by push Not; linarith)]
      unfold polySmoother
      rw [show (2 * (rmax + rmin - r) - rmax - rmin) / (rmax - rmin) = -((2 * r - rmax - rmin) / (rmax - rmin)) by
        rw [← neg_div]; congr 1; ring]
      norm_num
      ring

example : smoother 3 4 2 = 1 / 2 ∧ smoother 1 4 2 = 0 ∧ smoother 5 4 2 = 1 := by norm_num [smoother, polySmoother]

end Elliptica.Bhf
