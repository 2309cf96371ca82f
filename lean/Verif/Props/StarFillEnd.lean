import Verif.Props.StarFillMore
import Mathlib.Order.Filter.AtTopBot.Field
import Mathlib.Analysis.SpecialFunctions.Exp
/-!
Property C99 (continuation of the matter fields outside a star): behaviour far away, the enthalpy, the options, the auxiliary fields.
-/
namespace Elliptica.StarFill
open Real Filter Topology Text

/-! ### far away -/

theorem tail_zero (a b c : ℝ) : Tendsto (fun r : ℝ => a + b / r + c / r ^ 2) atTop (𝓝 a) := by
  have h1 : Tendsto (fun r : ℝ => b / r) atTop (𝓝 0) := tendsto_const_nhds.div_atTop tendsto_id
  have h2 : Tendsto (fun r : ℝ => c / r ^ 2) atTop (𝓝 0) := tendsto_const_nhds.div_atTop (tendsto_pow_atTop (by norm_num))
  simpa using (tendsto_const_nhds.add h1).add h2

theorem decay (B r0 : ℝ) (hB : 0 < B) (h0 : 0 < r0) : Tendsto (fun r : ℝ => exp (-B * (r - r0) / r0)) atTop (𝓝 0) := by
  refine tendsto_exp_atBot.comp ?_
  have : (fun r : ℝ => -B * (r - r0) / r0) = fun r => -((B / r0) * r) + B := by funext r; field_simp; ring
  rw [this]
  exact tendsto_atBot_add_const_right _ _ (tendsto_neg_atTop_atBot.comp (tendsto_id.const_mul_atTop (div_pos hB h0)))

theorem gen_decay (B r0 f d k : ℝ) (hB : 0 < B) (h0 : 0 < r0) : Tendsto (gen B r0 f d k) atTop (𝓝 0) := by
  have := (tail_zero (((2 + 4 * B + B ^ 2) * f + r0 * (2 * (2 + B) * d + k * r0)) / 2)
    (-(r0 * (3 * B * f + B ^ 2 * f + 3 * d * r0 + 2 * B * d * r0 + k * r0 ^ 2)))
    ((r0 ^ 2 * (B ^ 2 * f + r0 * (2 * d + k * r0) + 2 * B * (f + d * r0))) / 2)).mul (decay B r0 hB h0)
  rw [mul_zero] at this
  exact this

/-- **C99 (far away).** With the five methods that have an exponential factor the field goes to zero far away from the star,
whatever its values at the surface. -/
theorem C99_decay (e : ℝ) (m : Method)
    (hm : m = .inverseR2Expmr ∨ m = .inverseR2ExpmAr ∨ m = .inverseRExpmr ∨ m = .inverseRExpmAr ∨ m = .expmr) (r0 f d k : ℝ) (h0 : 0 < r0) :
    ∃ g, (∀ r, value e m r0 f d k r = .ok (g r)) ∧ Tendsto g atTop (𝓝 0) := by
  have a0 : 0 < att0 * r0 := mul_pos (by norm_num [att0]) h0
  have a1 : 0 < att1 := by norm_num [att1]
  have ev : ∀ {g g' : ℝ → ℝ}, (∀ r, r0 ≤ r → g r = g' r) → Tendsto g' atTop (𝓝 0) → Tendsto g atTop (𝓝 0) := fun h t =>
    t.congr' (by filter_upwards [eventually_ge_atTop r0] with r hr using (h r hr).symm)
  rcases hm with rfl | rfl | rfl | rfl | rfl
  · exact ⟨_, fun r => rfl, ev (fun r _ => inverseR2Expmr_eq r0 f d k r h0.ne') (gen_decay _ _ _ _ _ a1 h0)⟩
  · exact ⟨_, fun r => rfl, ev (fun r hr => inverseR2ExpmAr_eq r0 f d k r h0.ne' hr) (gen_decay _ _ _ _ _ a0 h0)⟩
  · exact ⟨_, fun r => rfl, ev (fun r _ => inverseRExpmr_eq r0 f d r h0.ne') (gen_decay _ _ _ _ _ a1 h0)⟩
  · exact ⟨_, fun r => rfl, ev (fun r hr => inverseRExpmAr_eq r0 f d r h0.ne' hr) (gen_decay _ _ _ _ _ a0 h0)⟩
  · refine ⟨_, fun r => rfl, ?_⟩
    have h := (decay 1 10 one_pos (by norm_num)).comp (tendsto_atTop_add_const_right atTop (10 - r0) tendsto_id)
    have := (h.const_mul f)
    rw [mul_zero] at this
    refine this.congr fun r => ?_
    simp only [Function.comp, expmr, id]
    congr 2
    ring

/-- With inverse_r2 the field goes to a limit, which is set by the values at the surface. -/
theorem C99_limit (e r0 f d k : ℝ) :
    ∃ g : ℝ → ℝ, (∀ r, value e .inverseR2 r0 f d k r = .ok (g r)) ∧ Tendsto g atTop (𝓝 (f + 2 * r0 * d + r0 ^ 2 * k / 2)) := by
  refine ⟨_, fun r => rfl, ?_⟩
  have h := tail_zero (f + (r0 * (4 * d + k * r0)) / 2) (-(r0 ^ 2 * (3 * d + k * r0))) ((r0 ^ 3 * (2 * d + k * r0)) / 2)
  rw [show f + 2 * r0 * d + r0 ^ 2 * k / 2 = f + (r0 * (4 * d + k * r0)) / 2 by ring]
  exact h

/-- With poly2 the field is unbounded far away unless its slope and second derivative at the surface vanish. -/
theorem C99_grow_violation (e r0 f d k : ℝ) (h : k ≠ 0) :
    ∃ g : ℝ → ℝ, (∀ r, value e .poly2 r0 f d k r = .ok (g r)) ∧ Tendsto (fun r => |g r|) atTop atTop := by
  refine ⟨_, fun r => rfl, ?_⟩
  have e1 : ∀ r : ℝ, poly2 r0 f d k r = r * (1 / 2 * k * r + (d - k * r0)) + (f + (r0 * (-2 * d + k * r0)) / 2) := by
    intro r; unfold poly2; ring
  simp only [e1]
  have pos : ∀ {a b c : ℝ}, 0 < a → Tendsto (fun r : ℝ => r * (a * r + b) + c) atTop atTop := fun ha =>
    tendsto_atTop_add_const_right _ _ (tendsto_id.atTop_mul_atTop₀ (tendsto_atTop_add_const_right _ _ (tendsto_id.const_mul_atTop ha)))
  rcases lt_or_gt_of_ne h with hk | hk
  · have := pos (a := -(1 / 2 * k)) (b := -(d - k * r0)) (c := -(f + (r0 * (-2 * d + k * r0)) / 2)) (by linarith)
    refine (tendsto_abs_atTop_atTop.comp this).congr fun r => ?_
    rw [Function.comp, ← abs_neg]
    congr 1; ring
  · exact tendsto_abs_atTop_atTop.comp (pos (by linarith))

/-! ### the enthalpy -/

/-- **C99 (no matter outside).** At the surface the enthalpy is 1.  With expmr, and with inverse_r_expmr and inverse_r_expmAr when it falls outwards,
the enthalpy outside is below 1 everywhere. -/
theorem C99_enthalpy (e : ℝ) (m : Method) (r0 d k r : ℝ) (h0 : 0 < r0)
    (hm : m = .expmr ∨ (m = .inverseRExpmr ∨ m = .inverseRExpmAr) ∧ d < 0) (hr : r0 < r) :
    ∃ v, value e m r0 1 d k r = .ok v ∧ v < 1 := by
  have key : ∀ B, 0 < B → d < 0 → gen B r0 1 d (kOf B r0 1 d) r < 1 := by
    intro B hB hd
    rw [gen_one _ _ _ _ _ h0.ne']
    have hr' : 0 < r := h0.trans hr
    have hu : 1 - r0 / r > 0 := by rw [gt_iff_lt, sub_pos, div_lt_one hr']; exact hr
    have e1 : (1 + B * 1 + d * r0) + -(r0 * (B * 1 + d * r0)) / r = 1 + (B + d * r0) * (1 - r0 / r) := by field_simp; ring
    have e2 : -B * (r - r0) / r0 = -(B * (r - r0) / r0) := by ring
    rw [e1, e2, exp_neg, ← div_eq_mul_inv, div_lt_one (exp_pos _)]
    have e3 := add_one_le_exp (B * (r - r0) / r0)
    have e4 : (d * r0) * (1 - r0 / r) < 0 := mul_neg_of_neg_of_pos (mul_neg_of_neg_of_pos hd h0) hu
    have e5 : B * (1 - r0 / r) ≤ B * (r - r0) / r0 := by
      have : 1 - r0 / r = (r - r0) / r := by field_simp
      rw [this, mul_div_assoc]
      exact mul_le_mul_of_nonneg_left (div_le_div_of_nonneg_left (by linarith) h0 hr.le) hB.le
    nlinarith
  rcases hm with rfl | ⟨rfl | rfl, hd⟩
  · refine ⟨_, rfl, ?_⟩
    unfold expmr
    rw [one_mul, exp_lt_one_iff]
    linarith
  · exact ⟨_, rfl, (inverseRExpmr_eq r0 1 d r h0.ne').trans_lt (key _ (by norm_num [att1]) hd)⟩
  · exact ⟨_, rfl, (inverseRExpmAr_eq r0 1 d r h0.ne' hr.le).trans_lt (key _ (mul_pos (by norm_num [att0]) h0) hd)⟩

example : ∃ v, value 1 .inverseRExpmr 8 1 (-1 / 100) 0 9 = .ok v ∧ v < 1 :=
  C99_enthalpy 1 _ 8 _ 0 9 (by norm_num) (.inr ⟨.inl rfl, by norm_num⟩) (by norm_num)

/-- **C99 (no matter outside) fails** with the methods of second order poly2 and inverse_r2: a falling enthalpy with a large second derivative at the
surface comes back above 1, where the equation of state sees matter. -/
theorem C99_enthalpy_violation (e : ℝ) :
    value e .poly2 1 1 (-1) 2 3 = .ok 3 ∧ ∃ v, value e .inverseR2 1 1 (-1) 6 4 = .ok v ∧ 1 < v := by
  constructor
  · norm_num [value, poly2]
  · refine ⟨_, rfl, ?_⟩
    norm_num [inverseR2]

/-! ### the options -/

/-- what the user expects of the parameter: the method of the enthalpy and of the velocity potential -/
inductive Chosen : Str → Method → Method → Prop where
  | poly2 : Chosen "poly2".toList .poly2 .poly2
  | exp2 : Chosen "exp2".toList .exp2 .exp2
  | inverse_r2 : Chosen "inverse_r2".toList .inverseR2 .inverseR2
  | inverse_r2_expmr : Chosen "inverse_r2_expmr".toList .inverseR2Expmr .inverseR2Expmr
  | inverse_r2_expmAr : Chosen "inverse_r2_expmAr".toList .inverseR2ExpmAr .inverseR2ExpmAr
  | inverse_r_expmr : Chosen "inverse_r_expmr".toList .inverseRExpmr .inverseRExpmr
  | inverse_r_expmAr : Chosen "inverse_r_expmAr".toList .inverseRExpmAr .inverseRExpmAr
  | mixed : Chosen "enthalpy_expmr_phi_inverse_r2".toList .expmr .inverseR2

theorem ofName_all :
    Method.ofName "poly2".toList = .ok .poly2 ∧ Method.ofName "exp2".toList = .ok .exp2 ∧ Method.ofName "inverse_r2".toList = .ok .inverseR2 ∧
    Method.ofName "inverse_r2_expmr".toList = .ok .inverseR2Expmr ∧ Method.ofName "inverse_r2_expmAr".toList = .ok .inverseR2ExpmAr ∧
    Method.ofName "inverse_r_expmr".toList = .ok .inverseRExpmr ∧ Method.ofName "inverse_r_expmAr".toList = .ok .inverseRExpmAr ∧
    Method.ofName "expmr".toList = .ok .expmr := by decide +kernel

/-- the two fields -/
def both : List Str := ["phi".toList, "enthalpy".toList]

theorem plan_all :
    plan "poly2".toList = .ok [(both, "poly2".toList)] ∧ plan "exp2".toList = .ok [(both, "exp2".toList)] ∧
    plan "inverse_r2".toList = .ok [(both, "inverse_r2".toList)] ∧ plan "inverse_r2_expmr".toList = .ok [(both, "inverse_r2_expmr".toList)] ∧
    plan "inverse_r2_expmAr".toList = .ok [(both, "inverse_r2_expmAr".toList)] ∧
    plan "inverse_r_expmr".toList = .ok [(both, "inverse_r_expmr".toList)] ∧ plan "inverse_r_expmAr".toList = .ok [(both, "inverse_r_expmAr".toList)] ∧
    plan "enthalpy_expmr_phi_inverse_r2".toList = .ok [(["enthalpy".toList], "expmr".toList), (["phi".toList], "inverse_r2".toList)] := by
  refine ⟨?_, ?_, ?_, ?_, ?_, ?_, ?_, ?_⟩ <;> decide +kernel

theorem plan_lower (s t : Str) (h : s.map lower = t.map lower) : plan s = plan t := by
  have e : ∀ u, strcmpI (some s) u = strcmpI (some t) u := by
    intro u; cases u <;> simp only [strcmpI, h]
  unfold plan
  simp only [e]

/-- **C99 (options).** For each value of the parameter, in any letter case, the enthalpy and the velocity potential at a point outside are
those of the method chosen for them — all of the calls or, if one of them ends the run, the end of the run — and the spin part
of the velocity is that of the point. -/
theorem C99_options (s t : Str) (mh mp : Method) (hc : Chosen t mh mp) (h : s.map lower = t.map lower) (val : Method → Str → Res ℝ)
    (W : Fin 3 → ℝ) (st : Matter) :
    (∀ vh vp, val mh "enthalpy".toList = .ok vh → val mp "phi".toList = .ok vp → extrapolate val W s st = .ok ⟨vp, vh, W⟩) ∧
      ∀ st', extrapolate val W s st = .ok st' → val mh "enthalpy".toList = .ok st'.enthalpy ∧ val mp "phi".toList = .ok st'.phi ∧ st'.W = W := by
  obtain ⟨p1, p2, p3, p4, p5, p6, p7, p8⟩ := plan_all
  obtain ⟨n1, n2, n3, n4, n5, n6, n7, n8⟩ := ofName_all
  have hne : "enthalpy".toList ≠ "phi".toList := by decide
  have two : ∀ {q : Str} {m : Method}, plan t = .ok [(both, q)] → Method.ofName q = .ok m → extrapolate val W s st =
      (val m "phi".toList).bind fun vp => (val m "enthalpy".toList).bind fun vh => .ok ⟨vp, vh, W⟩ := by
    intro q m h1 h2
    unfold extrapolate
    rw [plan_lower s t h, h1, Res.bind_ok]
    simp only [calls, h2, Res.bind_ok, both, fields]
    cases val m "phi".toList with
    | abort => rfl
    | ub => rfl
    | ok vp =>
      simp only [Res.bind_ok, if_true]
      cases val m "enthalpy".toList with
      | abort => rfl
      | ub => rfl
      | ok vh => simp only [Res.bind_ok, if_neg hne, if_true, Res.map_ok]
  have fin2 : ∀ {m : Method}, (extrapolate val W s st =
      (val m "phi".toList).bind fun vp => (val m "enthalpy".toList).bind fun vh => .ok ⟨vp, vh, W⟩) →
      (∀ vh vp, val m "enthalpy".toList = .ok vh → val m "phi".toList = .ok vp → extrapolate val W s st = .ok ⟨vp, vh, W⟩) ∧
      ∀ st', extrapolate val W s st = .ok st' → val m "enthalpy".toList = .ok st'.enthalpy ∧ val m "phi".toList = .ok st'.phi ∧ st'.W = W := by
    intro m hm
    rw [hm]
    refine ⟨fun vh vp a b => by rw [a, b]; rfl, fun st' hst => ?_⟩
    cases a : val m "phi".toList with
    | abort => rw [a] at hst; cases hst
    | ub => rw [a] at hst; cases hst
    | ok vp =>
      cases b : val m "enthalpy".toList with
      | abort => rw [a, b] at hst; cases hst
      | ub => rw [a, b] at hst; cases hst
      | ok vh => rw [a, b] at hst; cases hst; exact ⟨rfl, rfl, rfl⟩
  cases hc with
  | poly2 => exact fin2 (two p1 n1)
  | exp2 => exact fin2 (two p2 n2)
  | inverse_r2 => exact fin2 (two p3 n3)
  | inverse_r2_expmr => exact fin2 (two p4 n4)
  | inverse_r2_expmAr => exact fin2 (two p5 n5)
  | inverse_r_expmr => exact fin2 (two p6 n6)
  | inverse_r_expmAr => exact fin2 (two p7 n7)
  | mixed =>
    have hm : extrapolate val W s st =
        (val .expmr "enthalpy".toList).bind fun vh => (val .inverseR2 "phi".toList).bind fun vp => .ok ⟨vp, vh, W⟩ := by
      unfold extrapolate
      rw [plan_lower s _ h, p8, Res.bind_ok]
      simp only [calls, n8, n3, Res.bind_ok, fields]
      cases val .expmr "enthalpy".toList with
      | abort => rfl
      | ub => rfl
      | ok vh =>
        simp only [Res.bind_ok, if_true, if_neg hne]
        cases val .inverseR2 "phi".toList with
        | abort => rfl
        | ub => rfl
        | ok vp => simp only [Res.bind_ok, if_true, Res.map_ok]
    rw [hm]
    refine ⟨fun vh vp a b => by rw [a, b]; rfl, fun st' hst => ?_⟩
    cases a : val .expmr "enthalpy".toList with
    | abort => rw [a] at hst; cases hst
    | ub => rw [a] at hst; cases hst
    | ok vh =>
      cases b : val .inverseR2 "phi".toList with
      | abort => rw [a, b] at hst; cases hst
      | ub => rw [a, b] at hst; cases hst
      | ok vp => rw [a, b] at hst; cases hst; exact ⟨rfl, rfl, rfl⟩

/-- **C99 (refusal).** Any other value of the parameter ends the run. -/
theorem C99_refused (s : Str) (h : ∀ t mh mp, Chosen t mh mp → s.map lower ≠ t.map lower) (val : Method → Str → Res ℝ) (W : Fin 3 → ℝ) (st : Matter) :
    extrapolate val W s st = .abort := by
  have hp : plan s = .abort := by
    unfold plan
    simp only [strcmpI, decide_eq_true_eq]
    rw [if_neg (h _ _ _ .inverse_r_expmr), if_neg (h _ _ _ .inverse_r_expmAr), if_neg (h _ _ _ .inverse_r2_expmAr), if_neg (h _ _ _ .mixed),
      if_neg (h _ _ _ .exp2), if_neg (h _ _ _ .poly2), if_neg (h _ _ _ .inverse_r2), if_neg (h _ _ _ .inverse_r2_expmr)]
  unfold extrapolate
  rw [hp]
  rfl

/-! ### the auxiliary fields -/

/-- **C99 (auxiliary fields).** If the patches inside agree on the derivative fields — all of them have all, or none has any — the extrapolation
leaves the fields of every patch as they were. -/
theorem C99_auxiliary_partial (d : List Str) (Ps : List (Str → Bool))
    (h : (∀ P ∈ Ps, ∀ n ∈ d, P n = true) ∨ (∀ P ∈ Ps, ∀ n ∈ d, P n = false)) : auxiliary d Ps = Ps := by
  rcases h with h | h
  · have hany : (Ps.map (addMissing d)).any (·.1) = false := by
      simp only [List.any_map, List.any_eq_false, Function.comp, addMissing]
      intro P hP
      simp only [List.any_eq_true, not_exists]
      rintro n ⟨hn, hh⟩
      rw [h P hP n hn] at hh
      exact absurd hh (by simp)
    unfold auxiliary
    dsimp only
    rw [hany]
    simp only [Bool.false_eq_true, if_false, List.map_map]
    refine (List.map_congr_left fun P hP => ?_).trans (List.map_id _)
    funext n
    simp only [Function.comp, addMissing, id]
    by_cases hn : n ∈ d
    · rw [h P hP n hn]; rfl
    · simp [hn]
  · unfold auxiliary
    have key : ∀ P ∈ Ps, dropAll d (addMissing d P).2 = P := by
      intro P hP
      funext n
      simp only [dropAll, addMissing]
      by_cases hn : n ∈ d
      · rw [h P hP n hn]; simp [hn]
      · simp [hn]
    dsimp only
    split
    · rw [List.map_map]
      exact (List.map_congr_left key).trans (List.map_id _)
    · rename_i hany
      rw [List.map_map]
      refine (List.map_congr_left fun P hP => ?_).trans (List.map_id _)
      have hd : d = [] := by
        cases d with
        | nil => rfl
        | cons n l =>
          refine absurd ?_ hany
          rw [List.any_eq_true]
          exact ⟨addMissing (n :: l) P, List.mem_map_of_mem hP, by simp [addMissing, h P hP n (by simp)]⟩
      subst hd
      funext n
      simp [addMissing]

/-- **C99 (auxiliary fields) fails** where they do not agree: a patch that had a derivative field which another one had not has lost it afterwards. -/
theorem C99_auxiliary_violation (n : Str) : auxiliary [n] [fun _ => true, fun _ => false] = [fun m => decide (m ≠ n), fun _ => false] := by
  have h0 : auxiliary [n] [fun _ => true, fun _ => false] =
      [dropAll [n] (addMissing [n] fun _ => true).2, dropAll [n] (addMissing [n] fun _ => false).2] := rfl
  rw [h0]
  refine congr (congrArg _ (funext fun m => ?_)) (congrArg (fun x => [x]) (funext fun m => ?_))
  · by_cases h : m = n <;> simp [dropAll, addMissing, h]
  · by_cases h : m = n <;> simp [dropAll, addMissing, h]

end Elliptica.StarFill
