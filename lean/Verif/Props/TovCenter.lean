import Verif.Props.Tov
import Mathlib.Analysis.Calculus.LHopital
import Mathlib.MeasureTheory.Integral.IntervalIntegral.FundThmCalculus
/-!
Property C79: the centre of the TOV star.
-/
namespace Elliptica.Tov
open Real TovSpec Filter Topology Set

variable {E : Eos}

/-- a star: layers from the centre, of enthalpy `hc`, down to enthalpy `hs`, with a regular centre -/
structure IsStar (E : Eos) (r m : ℝ → ℝ) (hs hc : ℝ) : Prop where
  lt : hs < hc
  pos : 0 < hs
  layer : ∀ h, hs < h → h < hc → Layer E.e E.p r m h
  first : ∀ h, hs < h → h < hc → FirstLaw E.e E.p h
  tov : ∀ h, hs < h → h < hc → Tov E.e E.p r m h
  rc : Tendsto r (𝓝[<] hc) (𝓝 0)
  mc : Tendsto m (𝓝[<] hc) (𝓝 0)
  ec : Tendsto E.e (𝓝[<] hc) (𝓝 (E.e hc))
  pc : Tendsto E.p (𝓝[<] hc) (𝓝 (E.p hc))
  source : 0 < E.e hc + 3 * E.p hc

variable {r m : ℝ → ℝ} {hs hc : ℝ}

theorem IsStar.ev (S : IsStar E r m hs hc) {P : ℝ → Prop} (h : ∀ x, hs < x → x < hc → P x) : ∀ᶠ x in 𝓝[<] hc, P x := by
  filter_upwards [Ioo_mem_nhdsLT S.lt] with x hx using h x hx.1 hx.2

theorem IsStar.dr (S : IsStar E r m hs hc) {h : ℝ} (h1 : hs < h) (h2 : h < hc) :
    HasDerivAt r (drdh E h (r h) (m h)) h ∧ HasDerivAt m (dmdh E h (r h) (m h)) h ∧ drdh E h (r h) (m h) < 0 := by
  have L := S.layer h h1 h2
  obtain ⟨d1, d2⟩ := (C79_equations r m h L (S.first h h1 h2)).1 (S.tov h h1 h2)
  refine ⟨d1, d2, ?_⟩
  unfold drdh
  rw [den_eq]
  have hz : 0 < r h - 2 * m h := by have := L.horizon; linarith
  have h3 : 0 < r h * (r h - 2 * m h) := mul_pos L.rpos hz
  refine div_neg_of_neg_of_pos (div_neg_of_neg_of_pos ?_ L.weight) L.enthalpy
  linarith

/-- the mean density of the innermost layers is the central energy density -/
theorem C79_mean_density (S : IsStar E r m hs hc) : Tendsto (fun h => m h / r h ^ 3) (𝓝[<] hc) (𝓝 (4 * π / 3 * E.e hc)) := by
  have hd : Tendsto (fun h => 4 * π / 3 * E.e h) (𝓝[<] hc) (𝓝 (4 * π / 3 * E.e hc)) := S.ec.const_mul _
  refine HasDerivAt.lhopital_zero_nhdsLT (f' := fun h => dmdh E h (r h) (m h))
    (g' := fun h => 3 * r h ^ 2 * drdh E h (r h) (m h)) (S.ev fun x a b => (S.dr a b).2.1)
    (S.ev fun x a b => ?_) (S.ev fun x a b => ?_) S.mc ?_ ?_
  · exact ((S.dr a b).1.pow 3).congr_deriv (by norm_num)
  · have L := S.layer x a b
    have := (S.dr a b).2.2
    have := L.rpos
    exact mul_ne_zero (by positivity) (by linarith)
  · simpa using S.rc.pow 3
  · refine hd.congr' (S.ev fun x a b => ?_)
    have L := (S.layer x a b).rpos.ne'
    have := (S.dr a b).2.2.ne
    simp only [dmdh]
    generalize drdh E x (r x) (m x) = D at *
    field_simp

theorem IsStar.mr (S : IsStar E r m hs hc) : Tendsto (fun h => m h / r h) (𝓝[<] hc) (𝓝 0) := by
  have h := (C79_mean_density S).mul (S.rc.pow 2)
  rw [show 4 * π / 3 * E.e hc * 0 ^ 2 = 0 by ring] at h
  refine h.congr' (S.ev fun x a b => ?_)
  have := (S.layer x a b).rpos.ne'
  field_simp

theorem IsStar.hcpos (S : IsStar E r m hs hc) : 0 < hc := S.pos.trans S.lt

theorem IsStar.hh (S : IsStar E r m hs hc) : Tendsto (fun h : ℝ => h) (𝓝[<] hc) (𝓝 hc) := tendsto_nhdsWithin_of_tendsto_nhds tendsto_id

/-- r dr/dh at the centre -/
theorem IsStar.rdr (S : IsStar E r m hs hc) :
    Tendsto (fun h => r h * drdh E h (r h) (m h)) (𝓝[<] hc) (𝓝 (-3 / (4 * π * (E.e hc + 3 * E.p hc) * hc))) := by
  have hs' := S.source
  have hpi := pi_pos
  have hcp := S.hcpos
  have hd : Tendsto (fun h => -(1 - 2 * (m h / r h)) / ((m h / r h ^ 3 + 4 * π * E.p h) * h)) (𝓝[<] hc)
      (𝓝 (-(1 - 2 * 0) / ((4 * π / 3 * E.e hc + 4 * π * E.p hc) * hc))) := by
    refine Tendsto.div ((tendsto_const_nhds.sub (S.mr.const_mul 2)).neg)
      (((C79_mean_density S).add (S.pc.const_mul (4 * π))).mul S.hh) ?_
    have : 4 * π / 3 * E.e hc + 4 * π * E.p hc = 4 * π / 3 * (E.e hc + 3 * E.p hc) := by ring
    rw [this]; positivity
  have hv : -(1 - 2 * 0) / ((4 * π / 3 * E.e hc + 4 * π * E.p hc) * hc) = -3 / (4 * π * (E.e hc + 3 * E.p hc) * hc) := by
    have : 4 * π / 3 * E.e hc + 4 * π * E.p hc = 4 * π / 3 * (E.e hc + 3 * E.p hc) := by ring
    rw [this]; field_simp; ring
  rw [hv] at hd
  refine hd.congr' (S.ev fun x a b => ?_)
  have L := S.layer x a b
  have h1 := L.rpos.ne'
  have h2 := L.enthalpy.ne'
  have h3 := L.weight.ne'
  have e1 : m x / r x ^ 3 + 4 * π * E.p x = (m x + 4 * π * r x ^ 3 * E.p x) / r x ^ 3 := by field_simp
  rw [e1]
  simp only [drdh]
  rw [den_eq]
  generalize m x + 4 * π * r x ^ 3 * E.p x = w at *
  field_simp

/-- near the centre r² = 3(hc-h)/(2π(e+3p)hc) -/
theorem C79_center (S : IsStar E r m hs hc) :
    Tendsto (fun h => r h ^ 2 / (hc - h)) (𝓝[<] hc) (𝓝 (3 / (2 * π * (E.e hc + 3 * E.p hc) * hc))) := by
  have hs' := S.source
  have hpi := pi_pos
  have hcp := S.hcpos
  refine HasDerivAt.lhopital_zero_nhdsLT (f' := fun h => 2 * r h * drdh E h (r h) (m h)) (g' := fun _ => -1)
    (S.ev fun x a b => ?_) (S.ev fun x a b => ?_) (S.ev fun x a b => by norm_num) ?_ ?_ ?_
  · exact ((S.dr a b).1.pow 2).congr_deriv (by norm_num)
  · exact (hasDerivAt_id x).const_sub hc
  · simpa using S.rc.pow 2
  · simpa using S.hh.const_sub hc
  · have h := S.rdr.const_mul (-2)
    have hv : -2 * (-3 / (4 * π * (E.e hc + 3 * E.p hc) * hc)) = 3 / (2 * π * (E.e hc + 3 * E.p hc) * hc) := by
      field_simp; ring
    rw [hv] at h
    exact h.congr fun x => by ring

/-- the first row after the centre is taken at a radius that is too large: the square of the ratio of the program's radius
near the centre to the star's radius tends to the central enthalpy, not to 1; likewise for the mass -/
theorem C79_center_violation (S : IsStar E r m hs hc) (he : E.e hc ≠ 0) :
    Tendsto (fun h => (rApprox E h hc / r h) ^ 2) (𝓝[<] hc) (𝓝 hc) ∧
    Tendsto (fun h => (mApprox E h hc / m h) ^ 2) (𝓝[<] hc) (𝓝 (hc ^ 3)) := by
  have hs' := S.source
  have hpi := pi_pos
  have hcp := S.hcpos
  have hd : Tendsto (fun h => hc - h) (𝓝[<] hc) (𝓝 0) := by simpa using S.hh.const_sub hc
  have ha : Tendsto (fun h => rApprox E h hc ^ 2 / (hc - h)) (𝓝[<] hc) (𝓝 (3 / (2 * π * (E.e hc + 3 * E.p hc)))) := by
    have h1 : Tendsto (fun h => 3 / (2 * π * (E.e hc + 3 * E.p hc)) *
        (1 - 0.25 * (E.e hc - 3 * E.p hc - 3 * E.de hc / 5) * (hc - h) / (E.e hc + 3 * E.p hc)) ^ 2) (𝓝[<] hc)
        (𝓝 (3 / (2 * π * (E.e hc + 3 * E.p hc)) *
        (1 - 0.25 * (E.e hc - 3 * E.p hc - 3 * E.de hc / 5) * 0 / (E.e hc + 3 * E.p hc)) ^ 2)) :=
      (((tendsto_const_nhds.mul hd).div_const _).const_sub 1).pow 2 |>.const_mul _
    rw [mul_zero, zero_div, sub_zero, one_pow, mul_one] at h1
    refine h1.congr' (S.ev fun x a b => ?_)
    have hx : 0 < hc - x := by linarith
    simp only [rApprox]
    rw [mul_pow, sq_sqrt (by positivity)]
    field_simp
  have hr2 : Tendsto (fun h => (rApprox E h hc / r h) ^ 2) (𝓝[<] hc) (𝓝 hc) := by
    have h2 := ha.div (C79_center S) (by positivity)
    have hv : 3 / (2 * π * (E.e hc + 3 * E.p hc)) / (3 / (2 * π * (E.e hc + 3 * E.p hc) * hc)) = hc := by field_simp
    rw [hv] at h2
    refine h2.congr' (S.ev fun x a b => ?_)
    have h3 := (S.layer x a b).rpos.ne'
    have hx : hc - x ≠ 0 := by intro h; linarith
    simp only [Pi.div_apply]
    field_simp
  refine ⟨hr2, ?_⟩
  have hm : Tendsto (fun h => (4 * π / 3 * E.e hc * (1 - 3 / 5 * E.de hc * (hc - h) / E.e hc) / (m h / r h ^ 3)) ^ 2 *
      ((rApprox E h hc / r h) ^ 2) ^ 3) (𝓝[<] hc)
      (𝓝 ((4 * π / 3 * E.e hc * (1 - 3 / 5 * E.de hc * 0 / E.e hc) / (4 * π / 3 * E.e hc)) ^ 2 * hc ^ 3)) := by
    refine Tendsto.mul (((Tendsto.div ?_ (C79_mean_density S) (by positivity))).pow 2) (hr2.pow 3)
    exact (((tendsto_const_nhds.mul hd).div_const _).const_sub 1).const_mul _
  have hv : (4 * π / 3 * E.e hc * (1 - 3 / 5 * E.de hc * 0 / E.e hc) / (4 * π / 3 * E.e hc)) ^ 2 * hc ^ 3 = hc ^ 3 := by
    field_simp; ring
  rw [hv] at hm
  refine hm.congr' (S.ev fun x a b => ?_)
  have h3 := (S.layer x a b).rpos.ne'
  simp only [mApprox]
  by_cases h0 : m x = 0
  · rw [h0]; simp
  · generalize rApprox E x hc = A
    generalize 1 - 3 / 5 * E.de hc * (hc - x) / E.e hc = B
    field_simp

theorem IsStar.q (S : IsStar E r m hs hc) : Tendsto (fun h => √(1 - 2 * m h / r h)) (𝓝[<] hc) (𝓝 1) := by
  have h1 : Tendsto (fun h => 1 - 2 * (m h / r h)) (𝓝[<] hc) (𝓝 (1 - 2 * 0)) := (S.mr.const_mul 2).const_sub 1
  rw [show (1 : ℝ) - 2 * 0 = 1 by ring] at h1
  have h2 := h1.sqrt
  rw [sqrt_one] at h2
  exact h2.congr fun x => by rw [mul_div_assoc]

theorem IsStar.r2dr (S : IsStar E r m hs hc) : Tendsto (fun h => r h ^ 2 * drdh E h (r h) (m h)) (𝓝[<] hc) (𝓝 0) := by
  have := S.rc.mul S.rdr
  rw [zero_mul] at this
  exact this.congr fun x => by ring

/-- the integrands of the three masses vanish at the centre, as the program has it -/
theorem C79_center_masses (S : IsStar E r m hs hc) (k : ℝ) :
    Tendsto (fun h => baryF E h (r h) (m h)) (𝓝[<] hc) (𝓝 0) ∧
    Tendsto (fun h => admF E h (r h) (m h)) (𝓝[<] hc) (𝓝 0) ∧
    Tendsto (fun h => komarF E (-log h + k) h (r h) (m h)) (𝓝[<] hc) (𝓝 0) := by
  have hcp := S.hcpos
  refine ⟨?_, ?_, ?_⟩
  · have h := (((((S.ec.add S.pc).div S.hh hcp.ne').const_mul (4 * π)).div S.q one_ne_zero).mul S.r2dr)
    rw [mul_zero] at h
    exact h.congr fun x => by simp only [baryF, Pi.div_apply]; ring
  · have h := ((S.ec.const_mul (4 * π))).mul S.r2dr
    rw [mul_zero] at h
    exact h.congr fun x => by simp only [admF]; ring
  · have hp : Tendsto (fun h => exp (-log h + k)) (𝓝[<] hc) (𝓝 (exp (-log hc + k))) :=
      (((S.hh.log hcp.ne').neg.add_const k)).rexp
    have h := ((((S.ec.add (S.pc.const_mul 3)).const_mul (4 * π)).mul hp).div S.q one_ne_zero).mul S.r2dr
    rw [mul_zero] at h
    exact h.congr fun x => by simp only [komarF, Pi.div_apply]; ring

/-- the integrand of the constant of the isotropic radius does not vanish at the centre -/
theorem C79_c_center (S : IsStar E r m hs hc) :
    Tendsto (fun h => cF E h (r h) (m h)) (𝓝[<] hc) (𝓝 (-E.e hc / ((E.e hc + 3 * E.p hc) * hc))) := by
  have hs' := S.source
  have hpi := pi_pos
  have hcp := S.hcpos
  have h := ((((C79_mean_density S).const_mul 2).mul S.rdr)).div (S.q.mul (S.q.const_add 1)) (by norm_num)
  have hv : 2 * (4 * π / 3 * E.e hc) * (-3 / (4 * π * (E.e hc + 3 * E.p hc) * hc)) / (1 * (1 + 1)) =
      -E.e hc / ((E.e hc + 3 * E.p hc) * hc) := by field_simp; ring
  rw [hv] at h
  refine h.congr' (S.ev fun x a b => ?_)
  have L := S.layer x a b
  have hr := L.rpos.ne'
  have hx := one_sub _ _ L.rpos L.horizon
  have hs2 : √(1 - 2 * m x / r x) ^ 2 = 1 - 2 * m x / r x := sq_sqrt hx.le
  have hsp := sqrt_pos.2 hx
  have hm : m x = r x * (1 - √(1 - 2 * m x / r x) ^ 2) / 2 := by rw [hs2]; field_simp; ring
  simp only [cF, Pi.div_apply]
  generalize √(1 - 2 * m x / r x) = q at *
  generalize drdh E x (r x) (m x) = D
  rw [hm]
  have : 1 + q ≠ 0 := by linarith
  field_simp
  ring

end Elliptica.Tov
