import Verif.Props.TovGlobal
/-!
Property C79: an exact star that meets the hypotheses of the theorems, the star of constant density.
-/
namespace Elliptica.Tov
open Real TovSpec Filter Topology Set

/-- energy density 3/(8π), p = e (h-1) -/
noncomputable def constE : Eos := ⟨fun h => 3 / (8 * π) * (h - 1), fun _ => 3 / (8 * π), fun _ => 0⟩

/-- √(1-2m/r) of the star with central enthalpy 4/3 -/
noncomputable def yy (h : ℝ) : ℝ := 2 / 3 * (3 - 2 / h)
noncomputable def rr (h : ℝ) : ℝ := √(1 - yy h ^ 2)
noncomputable def mm (h : ℝ) : ℝ := rr h ^ 3 / 2

theorem yy_pos {h : ℝ} (h1 : 1 ≤ h) : 0 < yy h := by
  unfold yy
  have h0 : 0 < h := by linarith
  have : 2 / h ≤ 2 := by rw [div_le_iff₀ h0]; linarith
  linarith

theorem yy_lt {h : ℝ} (h1 : 1 ≤ h) (h2 : h < 4 / 3) : yy h < 1 := by
  unfold yy
  have h0 : 0 < h := by linarith
  have : 3 / 2 < 2 / h := by rw [lt_div_iff₀ h0]; linarith
  linarith

theorem rr_pos {h : ℝ} (h1 : 1 ≤ h) (h2 : h < 4 / 3) : 0 < rr h := by
  apply sqrt_pos.2
  have := yy_pos h1
  have := yy_lt h1 h2
  nlinarith

theorem rr_sq {h : ℝ} (h1 : 1 ≤ h) (h2 : h < 4 / 3) : rr h ^ 2 = 1 - yy h ^ 2 := by
  apply sq_sqrt
  have := yy_pos h1
  have := yy_lt h1 h2
  nlinarith

theorem yy_deriv {h : ℝ} (h0 : h ≠ 0) : HasDerivAt yy (4 / (3 * h ^ 2)) h := by
  have := (((hasDerivAt_inv h0).const_mul 2).const_sub 3).const_mul (2 / 3)
  have e : yy = fun y => 2 / 3 * (3 - 2 * y⁻¹) := by funext y; simp [yy, div_eq_mul_inv]
  rw [e]
  refine this.congr_deriv ?_
  field_simp; norm_num

theorem const_first (h : ℝ) (h0 : h ≠ 0) : FirstLaw constE.e constE.p h := by
  unfold FirstLaw constE
  have := ((hasDerivAt_id h).sub_const 1).const_mul (3 / (8 * π))
  refine this.congr_deriv ?_
  have := pi_pos.ne'
  field_simp
  ring

theorem const_layer {h : ℝ} (h1 : 1 ≤ h) (h2 : h < 4 / 3) : Layer constE.e constE.p rr mm h := by
  have hr := rr_pos h1 h2
  have hy := yy_pos h1
  have hs := rr_sq h1 h2
  have hpi := pi_pos
  have hp : 0 ≤ 3 / (8 * π) * (h - 1) := mul_nonneg (by positivity) (by linarith)
  refine ⟨by linarith, hr, ?_, ?_, ?_⟩
  · unfold mm
    have : rr h ^ 3 = rr h * (1 - yy h ^ 2) := by rw [← hs]; ring
    nlinarith [mul_pos hr (pow_pos hy 2)]
  · have : 0 ≤ 4 * π * rr h ^ 3 * (3 / (8 * π) * (h - 1)) := by positivity
    have : 0 < mm h := by unfold mm; positivity
    show 0 < mm h + 4 * π * rr h ^ 3 * (3 / (8 * π) * (h - 1))
    linarith
  · show 0 < 3 / (8 * π) + 3 / (8 * π) * (h - 1)
    have : 0 < 3 / (8 * π) := by positivity
    linarith

theorem const_tov {h : ℝ} (h1 : 1 ≤ h) (h2 : h < 4 / 3) : Tov constE.e constE.p rr mm h := by
  have h0 : h ≠ 0 := by intro h; linarith
  have hr := rr_pos h1 h2
  have hy := yy_pos h1
  have hs := rr_sq h1 h2
  have hpi := pi_pos
  rw [C79_equations rr mm h (const_layer h1 h2) (const_first h h0)]
  have d1 : HasDerivAt rr (-(4 / (3 * h ^ 2)) * yy h / rr h) h := by
    have hx : 1 - yy h ^ 2 ≠ 0 := by rw [← hs]; positivity
    refine ((((yy_deriv h0).pow 2).const_sub 1).sqrt hx).congr_deriv ?_
    show _ = -(4 / (3 * h ^ 2)) * yy h / √(1 - yy h ^ 2)
    simp only [Pi.pow_apply]
    field_simp
    norm_num
  have hd : drdh constE h (rr h) (mm h) = -(4 / (3 * h ^ 2)) * yy h / rr h := by
    unfold drdh
    rw [den_eq]
    have e1 : mm h + 4 * π * rr h ^ 3 * constE.p h = rr h ^ 3 * (3 * h - 2) / 2 := by
      show rr h ^ 3 / 2 + 4 * π * rr h ^ 3 * (3 / (8 * π) * (h - 1)) = _
      field_simp; ring
    have e2 : rr h - 2 * mm h = rr h * yy h ^ 2 := by
      unfold mm
      have : rr h ^ 3 = rr h * (1 - yy h ^ 2) := by rw [← hs]; ring
      rw [this]; ring
    have e3 : yy h = 2 * (3 * h - 2) / (3 * h) := by unfold yy; field_simp
    have e4 : 3 * h - 2 ≠ 0 := by intro h; linarith
    rw [e1, e2, e3]
    field_simp
    norm_num
  refine ⟨hd ▸ d1, ?_⟩
  have d2 := (d1.pow 3).div_const 2
  refine d2.congr_deriv ?_
  unfold dmdh
  rw [hd]
  show _ = 4 * π * (rr h * rr h) * (3 / (8 * π)) * _
  field_simp
  push_cast
  ring

theorem rr_cont : ContinuousOn rr (Icc 1 (4 / 3)) := by
  unfold rr yy
  have : ContinuousOn (fun h : ℝ => 2 / h) (Icc 1 (4 / 3)) :=
    continuousOn_const.div continuousOn_id fun x hx => by have := hx.1; change x ≠ 0; intro h; linarith
  exact (continuousOn_const.sub ((continuousOn_const.mul (continuousOn_const.sub this)).pow 2)).sqrt

theorem rr_mid : rr (4 / 3) = 0 := by unfold rr yy; norm_num

theorem const_whole : IsWhole constE rr mm (4 / 3) := by
  have hpi := pi_pos
  have hlt : (1 : ℝ) < 4 / 3 := by norm_num
  have c1 : ContinuousWithinAt rr (Ici 1) 1 := by
    have := rr_cont 1 ⟨le_rfl, by norm_num⟩
    have h2 := this.mono (Ico_subset_Icc_self)
    refine (continuousWithinAt_Ico_iff_Ici hlt).1 h2
  have cc : Tendsto rr (𝓝[<] (4 / 3)) (𝓝 0) := by
    have := rr_cont (4 / 3) ⟨by norm_num, le_rfl⟩
    have h2 : Tendsto rr (𝓝[Ioo 1 (4 / 3)] (4 / 3)) (𝓝 (rr (4 / 3))) := this.mono Ioo_subset_Icc_self
    rwa [nhdsWithin_Ioo_eq_nhdsLT hlt, rr_mid] at h2
  have pcont : Continuous constE.p := by
    show Continuous fun h : ℝ => 3 / (8 * π) * (h - 1)
    exact continuous_const.mul (continuous_id.sub continuous_const)
  refine { lt := hlt, pos := one_pos, layer := fun h a b => const_layer a.le b,
           first := fun h a b => const_first h (by intro h; linarith),
           tov := fun h a b => const_tov a.le b, rc := cc, mc := ?_, ec := tendsto_const_nhds,
           pc := pcont.continuousAt.tendsto.mono_left nhdsWithin_le_nhds, source := ?_, r1 := c1, m1 := ?_,
           p1 := pcont.continuousAt.continuousWithinAt, vac := ?_, out := ?_, mid := ⟨rr_mid, ?_⟩, enonneg := ?_ }
  · have := (cc.pow 3).div_const 2
    rw [show (0 : ℝ) ^ 3 / 2 = 0 by norm_num] at this
    exact this
  · show 0 < 3 / (8 * π) + 3 * (3 / (8 * π) * (4 / 3 - 1))
    norm_num; positivity
  · exact (c1.pow 3).div_const 2
  · show 3 / (8 * π) * (1 - 1) = 0
    ring
  · exact ⟨rr_pos le_rfl hlt, (const_layer le_rfl hlt).horizon⟩
  · unfold mm; rw [rr_mid]; norm_num
  · intro h a b
    have := rr_pos a.le b
    refine ⟨show 0 ≤ 3 / (8 * π) by positivity, mul_nonneg (by positivity) (by linarith), ?_⟩
    unfold mm; positivity

/-- the star of constant density has R² = 5/9 and 2M = R³; the integrals of C79_virial give its mass -/
example : (∫ h in (4 / 3 : ℝ)..1, admF constE h (rr h) (mm h)) = mm 1 ∧ mm 1 = √(5 / 9) ^ 3 / 2 := by
  refine ⟨(C79_virial const_whole).1, ?_⟩
  unfold mm rr yy; norm_num

/-- for this star the program's first radius is too large by the factor √(4/3) in the limit of small steps -/
example : Tendsto (fun h => (rApprox constE h (4 / 3) / rr h) ^ 2) (𝓝[<] (4 / 3)) (𝓝 (4 / 3)) :=
  (C79_center_violation const_whole.toIsStar (by show 3 / (8 * π) ≠ 0; have := pi_pos; positivity)).1

/-- the hypotheses of the local theorems, with the layer h = 6/5 of this star -/
example : Layer constE.e constE.p rr mm (6 / 5) ∧ FirstLaw constE.e constE.p (6 / 5) ∧ Tov constE.e constE.p rr mm (6 / 5) :=
  ⟨const_layer (by norm_num) (by norm_num), const_first _ (by norm_num), const_tov (by norm_num) (by norm_num)⟩

/-- an isotropic radius of this star: r/(1+y) up to a constant factor, and it joins the exterior -/
noncomputable def rbEx (h : ℝ) : ℝ := surfBar (rr 1) (mm 1) * ((1 + yy 1) / rr 1) * (rr h / (1 + yy h))

theorem rbEx_deriv {h : ℝ} (h1 : 1 < h) (h2 : h < 4 / 3) :
    HasDerivAt rbEx (rbEx h / √(1 - 2 * mm h / rr h) / rr h * drdh constE h (rr h) (mm h)) h := by
  have h0 : h ≠ 0 := by intro h; linarith
  have hr := rr_pos h1.le h2
  have hy := yy_pos h1.le
  have hs := rr_sq h1.le h2
  have d1 := ((C79_equations rr mm h (const_layer h1.le h2) (const_first h h0)).1 (const_tov h1.le h2)).1
  have hq : √(1 - 2 * mm h / rr h) = yy h := by
    rw [show 1 - 2 * mm h / rr h = yy h ^ 2 by unfold mm; field_simp; linarith, sqrt_sq hy.le]
  have h3 : (1 : ℝ) + yy h ≠ 0 := by linarith
  have dd := ((d1.div ((yy_deriv h0).const_add 1) h3).const_mul (surfBar (rr 1) (mm 1) * ((1 + yy 1) / rr 1)))
  refine dd.congr_deriv ?_
  rw [hq]
  unfold rbEx
  generalize surfBar (rr 1) (mm 1) * ((1 + yy 1) / rr 1) = C
  have hd : drdh constE h (rr h) (mm h) = -(4 / (3 * h ^ 2)) * yy h / rr h := by
    have d3 : HasDerivAt rr (-(4 / (3 * h ^ 2)) * yy h / rr h) h := by
      have hx : 1 - yy h ^ 2 ≠ 0 := by rw [← hs]; positivity
      refine ((((yy_deriv h0).pow 2).const_sub 1).sqrt hx).congr_deriv ?_
      show _ = -(4 / (3 * h ^ 2)) * yy h / √(1 - yy h ^ 2)
      simp only [Pi.pow_apply]
      field_simp
      norm_num
    exact d1.unique d3
  rw [hd]
  field_simp
  linear_combination (-C) * hs

example : Tendsto (fun h => rbEx h / rr h) (𝓝[<] (4 / 3)) (𝓝 (exp (-((∫ h in (4 / 3 : ℝ)..1, cF constE h (rr h) (mm h)) -
    log (surfBar (rr 1) (mm 1) / rr 1))))) := by
  have hr1 := rr_pos le_rfl (show (1 : ℝ) < 4 / 3 by norm_num)
  have hy1 := yy_pos (le_refl (1 : ℝ))
  have hs := C79_surface (rr 1) (mm 1) (by unfold mm; positivity) (const_layer le_rfl (by norm_num)).horizon
  refine (C79_constant const_whole rbEx ?_ (fun h a b => rbEx_deriv a b) ?_ ?_).1
  · intro h a b
    have := rr_pos a b
    have := yy_pos a
    have := hs.1
    unfold rbEx; positivity
  · have h2 : ContinuousWithinAt yy (Ici 1) 1 := (yy_deriv one_ne_zero).continuousAt.continuousWithinAt
    exact continuousWithinAt_const.mul (const_whole.r1.div (continuousWithinAt_const.add h2) (by linarith))
  · unfold rbEx; field_simp

end Elliptica.Tov
