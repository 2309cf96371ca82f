import Verif.Props.TovCenter
import Mathlib.Analysis.Calculus.FDeriv.Measurable
import Mathlib.MeasureTheory.Integral.DominatedConvergence
/-!
Property C79: the masses of the whole star, and the constant of the isotropic radius.
-/
namespace Elliptica.Tov
open Real TovSpec Filter Topology Set MeasureTheory intervalIntegral

variable {E : Eos} {r m : ℝ → ℝ} {hc : ℝ}

/-- a whole star, from its centre to the surface, where h = 1 and the pressure vanishes -/
structure IsWhole (E : Eos) (r m : ℝ → ℝ) (hc : ℝ) : Prop extends IsStar E r m 1 hc where
  r1 : ContinuousWithinAt r (Ici 1) 1
  m1 : ContinuousWithinAt m (Ici 1) 1
  p1 : ContinuousWithinAt E.p (Ici 1) 1
  vac : E.p 1 = 0
  out : 0 < r 1 ∧ 2 * m 1 < r 1
  mid : r hc = 0 ∧ m hc = 0
  enonneg : ∀ h, 1 < h → h < hc → 0 ≤ E.e h ∧ 0 ≤ E.p h ∧ 0 ≤ m h

theorem cont_of {g g' : ℝ → ℝ} (h1 : 1 < hc) (ha : ContinuousWithinAt g (Ici 1) 1)
    (hm : ∀ x, 1 < x → x < hc → HasDerivAt g (g' x) x) (hb : Tendsto g (𝓝[<] hc) (𝓝 (g hc))) : ContinuousOn g (Icc 1 hc) := by
  intro x hx
  rcases eq_or_lt_of_le hx.1 with rfl | h
  · exact ha.mono Icc_subset_Ici_self
  rcases eq_or_lt_of_le hx.2 with rfl | h'
  · have : ContinuousWithinAt g (Iio x) x := hb
    have h2 : ContinuousWithinAt g (insert x (Iio x)) x := continuousWithinAt_insert_self.2 this
    refine h2.mono fun y hy => ?_
    rcases eq_or_lt_of_le hy.2 with rfl | h
    · exact Or.inl rfl
    · exact Or.inr h
  · exact (hm x h h').continuousAt.continuousWithinAt

theorem ftc {g g' : ℝ → ℝ} (h1 : 1 < hc) (hcont : ContinuousOn g (Icc 1 hc))
    (hd : ∀ x, 1 < x → x < hc → HasDerivAt g (g' x) x) (hn : ∀ x, 1 < x → x < hc → g' x ≤ 0) :
    IntervalIntegrable g' volume 1 hc ∧ ∫ x in hc..1, g' x = g 1 - g hc := by
  have hi : IntervalIntegrable (fun x => -g' x) volume 1 hc := by
    refine intervalIntegrable_deriv_of_nonneg (g := fun x => -g x) ?_ ?_ ?_
    · rw [uIcc_of_le h1.le]; exact hcont.neg
    · rw [min_eq_left h1.le, max_eq_right h1.le]; intro x hx; exact (hd x hx.1 hx.2).neg
    · rw [min_eq_left h1.le, max_eq_right h1.le]; intro x hx; have := hn x hx.1 hx.2; linarith
  have hi' : IntervalIntegrable g' volume 1 hc := by
    have e : (-fun x => -g' x) = g' := by funext x; simp
    have := hi.neg; rwa [e] at this
  refine ⟨hi', ?_⟩
  rw [integral_symm, integral_eq_sub_of_hasDerivAt_of_le h1.le hcont (fun x hx => hd x hx.1 hx.2) hi']
  ring

/-- the exact integrals whose Simpson sums the program compares both give the mass at the surface, m(R) -/
theorem C79_virial (S : IsWhole E r m hc) :
    (∫ h in hc..1, admF E h (r h) (m h)) = m 1 ∧
    (∫ h in hc..1, komarF E (-log h + log √(1 - 2 * m 1 / r 1)) h (r h) (m h)) = m 1 := by
  have h1 := S.lt
  have dm := fun x a b => (C79_masses r m x (S.layer x a b) (S.first x a b) (S.tov x a b)).1
  have dk := fun x a b => C79_komar r m (r 1) (m 1) x (S.layer x a b) (S.first x a b) (S.tov x a b)
  have hpi := pi_pos
  have hq1 := one_sub _ _ S.out.1 S.out.2
  have hs1 := sqrt_pos.2 hq1
  constructor
  · rw [(ftc h1 (cont_of h1 S.m1 dm (by rw [S.mid.2]; exact S.mc)) dm ?_).2, S.mid.2, sub_zero]
    intro x a b
    have := (S.dr a b).2.2
    unfold admF
    exact mul_nonpos_of_nonneg_of_nonpos (mul_nonneg (mul_nonneg (by positivity) (S.enonneg x a b).1) (by positivity)) this.le
  · rw [(ftc h1 (cont_of h1 ?_ dk ?_) dk ?_).2]
    · simp only [S.mid.1, S.mid.2, S.vac, log_one, neg_zero, zero_add, exp_log hs1]
      field_simp
      simp
    · have hphi : ContinuousWithinAt (fun h => exp (-log h + log √(1 - 2 * m 1 / r 1))) (Ici 1) 1 :=
        (((continuousAt_log one_ne_zero).neg.add continuousAt_const).rexp).continuousWithinAt
      have hq : ContinuousWithinAt (fun h => √(1 - 2 * m h / r h)) (Ici 1) 1 :=
        (continuousWithinAt_const.sub ((continuousWithinAt_const.mul S.m1).div S.r1 S.out.1.ne')).sqrt
      exact (hphi.mul (S.m1.add ((continuousWithinAt_const.mul (S.r1.pow 3)).mul S.p1))).div hq hs1.ne'
    · have hcp := S.hcpos
      have hp : Tendsto (fun h => exp (-log h + log √(1 - 2 * m 1 / r 1))) (𝓝[<] hc) (𝓝 (exp (-log hc + log √(1 - 2 * m 1 / r 1)))) :=
        (((S.hh.log hcp.ne').neg.add_const _)).rexp
      have h := (hp.mul (S.mc.add (((S.rc.pow 3).const_mul (4 * π)).mul S.pc))).div S.q one_ne_zero
      refine (tendsto_congr fun x => rfl).1 (h.trans (le_of_eq (congrArg 𝓝 ?_)))
      simp [S.mid.1, S.mid.2]
    · intro x a b
      have := (S.dr a b).2.2
      obtain ⟨h2, h3, -⟩ := S.enonneg x a b
      unfold komarF
      refine mul_nonpos_of_nonneg_of_nonpos (mul_nonneg (div_nonneg ?_ (sqrt_nonneg _)) (by positivity)) this.le
      positivity

theorem ftc_limit {g g' : ℝ → ℝ} {l : ℝ} (h1 : 1 < hc) (ha : ContinuousWithinAt g (Ici 1) 1)
    (hd : ∀ x, 1 < x → x < hc → HasDerivAt g (g' x) x) (hn : ∀ x, 1 < x → x < hc → g' x ≤ 0)
    (hl : Tendsto g' (𝓝[<] hc) (𝓝 l)) : Tendsto g (𝓝[<] hc) (𝓝 (g 1 - ∫ x in hc..1, g' x)) := by
  have part : ∀ y, 1 < y → y < hc → IntervalIntegrable g' volume 1 y ∧ ∫ x in y..1, g' x = g 1 - g y := by
    intro y y1 y2
    refine ftc y1 ?_ (fun x a b => hd x a (b.trans y2)) (fun x a b => hn x a (b.trans y2))
    exact cont_of y1 ha (fun x a b => hd x a (b.trans y2)) ((hd y y1 y2).continuousAt.tendsto.mono_left nhdsWithin_le_nhds)
  have hb : ∀ᶠ x in 𝓝[<] hc, |g' x| ≤ |l| + 1 := by
    have := (hl.abs).eventually (Iio_mem_nhds (show |l| < |l| + 1 by linarith))
    filter_upwards [this] with x hx using le_of_lt hx
  obtain ⟨y0, hy0, hB⟩ := (mem_nhdsLT_iff_exists_Ioo_subset' h1).1 hb
  set y := max y0 ((1 + hc) / 2) with hy
  have y1 : 1 < y := lt_of_lt_of_le (by linarith) (le_max_right _ _)
  have y2 : y < hc := max_lt hy0 (by linarith)
  have hi2 : IntegrableOn g' (Ioo y hc) volume := by
    have : IntegrableOn (deriv g) (Ioo y hc) volume := by
      refine Measure.integrableOn_of_bounded (M := |l| + 1) (by simp) (aestronglyMeasurable_deriv g _) ?_
      rw [ae_restrict_iff' measurableSet_Ioo]
      refine Eventually.of_forall fun x hx => ?_
      rw [(hd x (y1.trans hx.1) hx.2).deriv]
      exact hB ⟨lt_of_le_of_lt (le_max_left _ _) hx.1, hx.2⟩
    exact this.congr_fun (fun x hx => (hd x (y1.trans hx.1) hx.2).deriv) measurableSet_Ioo
  have hi3 : IntervalIntegrable g' volume y hc := by
    rw [intervalIntegrable_iff_integrableOn_Ioo_of_le y2.le]; exact hi2
  have hi : IntervalIntegrable g' volume 1 hc := (part y y1 y2).1.trans hi3
  have hc' := continuousOn_primitive_interval' hi (left_mem_uIcc)
  have ht : Tendsto (fun b => ∫ x in (1 : ℝ)..b, g' x) (𝓝[<] hc) (𝓝 (∫ x in (1 : ℝ)..hc, g' x)) := by
    have h2 := hc' hc right_mem_uIcc
    rw [uIcc_of_le h1.le] at h2
    have h3 : Tendsto (fun b => ∫ x in (1 : ℝ)..b, g' x) (𝓝[Ioo 1 hc] hc) (𝓝 (∫ x in (1 : ℝ)..hc, g' x)) :=
      h2.mono Ioo_subset_Icc_self
    rwa [nhdsWithin_Ioo_eq_nhdsLT h1] at h3
  rw [integral_symm, sub_neg_eq_add]
  refine (ht.const_add (g 1)).congr' ?_
  filter_upwards [Ioo_mem_nhdsLT h1] with x hx
  have := (part x hx.1 hx.2).2
  rw [integral_symm] at this
  linarith

/-- the meaning of the constant: an isotropic radius that joins the exterior at the surface is r exp(-c) near the centre, c
being the integral that the program approximates minus the logarithm of rbar/r at the surface; the conformal factor
at the centre is then exp(c/2) -/
theorem C79_constant (S : IsWhole E r m hc) (rb : ℝ → ℝ) (hrb : ∀ h, 1 ≤ h → h < hc → 0 < rb h)
    (hd : ∀ h, 1 < h → h < hc → HasDerivAt rb (rb h / √(1 - 2 * m h / r h) / r h * drdh E h (r h) (m h)) h)
    (h1 : ContinuousWithinAt rb (Ici 1) 1) (hsurf : rb 1 = surfBar (r 1) (m 1)) :
    let c := (∫ h in hc..1, cF E h (r h) (m h)) - log (surfBar (r 1) (m 1) / r 1)
    Tendsto (fun h => rb h / r h) (𝓝[<] hc) (𝓝 (exp (-c))) ∧
    Tendsto (fun h => √(r h / rb h)) (𝓝[<] hc) (𝓝 √(exp c)) := by
  intro c
  have h0 := hrb 1 le_rfl S.lt
  have hl : Tendsto (fun h => log (rb h / r h)) (𝓝[<] hc) (𝓝 (-c)) := by
    have := ftc_limit (g := fun h => log (rb h / r h)) (g' := fun h => cF E h (r h) (m h)) S.lt
      ((h1.div S.r1 S.out.1.ne').log (div_pos h0 S.out.1).ne') ?_ ?_ (C79_c_center S.toIsStar)
    · convert this using 2
      simp only [c, hsurf]; ring
    · intro x a b
      obtain ⟨d, e1, e2⟩ := C79_isotropic r m rb x (S.layer x a b) (hrb x a.le b) (S.first x a b) (S.tov x a b)
      have L := S.layer x a b
      unfold drbarDh at e1
      split at e1
      · cases e1
      · cases e1
        exact (e2 (hd x a b)).2.2
    · intro x a b
      have L := S.layer x a b
      have hx := one_sub _ _ L.rpos L.horizon
      have hle : 1 - 2 * m x / r x ≤ 1 := by
        have : 0 ≤ 2 * m x / r x := div_nonneg (by have := (S.enonneg x a b).2.2; linarith) L.rpos.le
        linarith
      have hq : 1 ≤ 1 / √(1 - 2 * m x / r x) := by
        rw [le_div_iff₀ (sqrt_pos.2 hx), one_mul]
        exact sqrt_le_one.2 hle
      exact mul_nonpos_of_nonneg_of_nonpos (div_nonneg (by linarith) L.rpos.le) (S.dr a b).2.2.le
  have he : Tendsto (fun h => rb h / r h) (𝓝[<] hc) (𝓝 (exp (-c))) := by
    refine (hl.rexp).congr' (S.ev fun x a b => ?_)
    exact exp_log (div_pos (hrb x a.le b) (S.layer x a b).rpos)
  refine ⟨he, ?_⟩
  have h2 := (he.inv₀ (exp_pos _).ne').sqrt
  rw [← exp_neg, neg_neg] at h2
  exact h2.congr fun x => by rw [inv_div]

/-- the Simpson sum of `c_rbar` uses 0 at the centre, where the integrand is -e/((e+3p)hc): for every star, sampled exactly,
it is off by a third of a step times this value, whatever the quadrature error is -/
theorem C79_c_center_violation (S : IsStar E r m 1 hc) (N : ℕ) (hN : 3 ≤ N) (hodd : N % 2 = 1) (f : ℕ → ℝ)
    (_hf : ∀ i, f i = cF E (hAt N hc i) (r (hAt N hc i)) (m (hAt N hc i))) :
    ∃ l v w, Tendsto (fun h => cF E h (r h) (m h)) (𝓝[<] hc) (𝓝 l) ∧
      Integ.simpson N hc 1 (table f) = .ok v ∧ Integ.simpson N hc 1 (Function.update f 0 l) = .ok w ∧
      w - v = (hc - 1) / ((N : ℝ) - 1) / 3 * (E.e hc / ((E.e hc + 3 * E.p hc) * hc)) := by
  have key : ∀ g : ℕ → ℝ, Integ.simpson N hc 1 g = .ok ((1 - hc) / ((N : ℝ) - 1) * (g 0 + g (N - 1) +
      2 * (∑ j ∈ Finset.Ico 1 (N - 1), if j % 2 = 0 then g j else 0) +
      4 * (∑ j ∈ Finset.Ico 1 (N - 1), if j % 2 = 0 then 0 else g j)) / 3) := by
    intro g; unfold Integ.simpson; rw [if_neg (by omega), if_neg (by omega)]
  refine ⟨_, _, _, C79_c_center S, key _, key _, ?_⟩
  have e1 : ∀ j, j ≠ 0 → table f j = f j := fun j hj => if_neg hj
  have e2 : ∀ j, j ≠ 0 → ∀ v, Function.update f 0 v j = f j := fun j hj v => Function.update_of_ne hj v f
  have s1 : ∀ v, (∑ j ∈ Finset.Ico 1 (N - 1), if j % 2 = 0 then Function.update f 0 v j else 0) =
      ∑ j ∈ Finset.Ico 1 (N - 1), if j % 2 = 0 then table f j else 0 := by
    intro v
    refine Finset.sum_congr rfl fun j hj => ?_
    rw [Finset.mem_Ico] at hj
    rw [e1 j (by omega), e2 j (by omega)]
  have s2 : ∀ v, (∑ j ∈ Finset.Ico 1 (N - 1), if j % 2 = 0 then 0 else Function.update f 0 v j) =
      ∑ j ∈ Finset.Ico 1 (N - 1), if j % 2 = 0 then 0 else table f j := by
    intro v
    refine Finset.sum_congr rfl fun j hj => ?_
    rw [Finset.mem_Ico] at hj
    rw [e1 j (by omega), e2 j (by omega)]
  rw [s1, s2, e1 (N - 1) (by omega), e2 (N - 1) (by omega), Function.update_self, show table f 0 = 0 from if_pos rfl]
  generalize (∑ j ∈ Finset.Ico 1 (N - 1), if j % 2 = 0 then table f j else 0) = A
  generalize (∑ j ∈ Finset.Ico 1 (N - 1), if j % 2 = 0 then 0 else table f j) = B
  have : ((N : ℝ) - 1) ≠ 0 := by
    have : (3 : ℝ) ≤ N := by exact_mod_cast hN
    linarith
  rw [neg_div]
  generalize E.e hc / ((E.e hc + 3 * E.p hc) * hc) = Q
  ring

end Elliptica.Tov
