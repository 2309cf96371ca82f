import Verif.Props.KsHorizon
import Verif.Model.Gen.FreeK
import Mathlib.Analysis.Calculus.Deriv.Comp
import Mathlib.Analysis.Calculus.MeanValue
/-!
C90: the extrinsic curvature of the Kerr-Schild free data.
-/
namespace Elliptica.Ks
open Elliptica.Fields Elliptica.KsSpec

/-- C90 the extrinsic curvature written is the one of a metric that does not change with time, and the trace is its trace -/
theorem C90_extrinsic_static (x : Gen.KsKij.In) (hc : ∀ k i j, x.Chris_UDD k i j = x.Chris_UDD k j i) (hs : Adm.Symm x.ig_UU) :
    let K := extrinsic x.Chris_UDD x.KS__beta_D x.dKS__beta_DD (fun _ _ => 0) x.KS__alpha
    (∀ i j, Gen.KsKij.out_Kij_DD x i j = Adm.stored K i j) ∧ Gen.KsKij.out_trKij x = ∑ i, ∑ j, x.ig_UU i j * K i j := by
  intro K
  have h00 : K 0 0 = Gen.KsKij.ksKij_D0D0 x := by
    simp only [K, extrinsic, Gen.KsKij.ksKij_D0D0, Gen.KsKij.DB_D0D0, Fin.sum_univ_three]; ring
  have h01 : K 0 1 = Gen.KsKij.ksKij_D0D1 x := by
    simp only [K, extrinsic, Gen.KsKij.ksKij_D0D1, Gen.KsKij.DB_D0D1, Gen.KsKij.DB_D1D0, Fin.sum_univ_three]; ring
  have h02 : K 0 2 = Gen.KsKij.ksKij_D0D2 x := by
    simp only [K, extrinsic, Gen.KsKij.ksKij_D0D2, Gen.KsKij.DB_D0D2, Gen.KsKij.DB_D2D0, Fin.sum_univ_three]; ring
  have h11 : K 1 1 = Gen.KsKij.ksKij_D1D1 x := by
    simp only [K, extrinsic, Gen.KsKij.ksKij_D1D1, Gen.KsKij.DB_D1D1, Fin.sum_univ_three]; ring
  have h12 : K 1 2 = Gen.KsKij.ksKij_D1D2 x := by
    simp only [K, extrinsic, Gen.KsKij.ksKij_D1D2, Gen.KsKij.DB_D1D2, Gen.KsKij.DB_D2D1, Fin.sum_univ_three]; ring
  have h22 : K 2 2 = Gen.KsKij.ksKij_D2D2 x := by
    simp only [K, extrinsic, Gen.KsKij.ksKij_D2D2, Gen.KsKij.DB_D2D2, Fin.sum_univ_three]; ring
  have hsym : ∀ i j, K i j = K j i := by
    intro i j; simp only [K, extrinsic, hc _ i j]; ring
  constructor
  · intro i j
    fin_cases i <;> fin_cases j <;> simp [Gen.KsKij.out_Kij_DD, Adm.stored, h00, h01, h02, h11, h12, h22]
  · simp only [Fin.sum_univ_three, hsym 1 0, hsym 2 0, hsym 2 1, hs 1 0, hs 2 0, hs 2 1, h00, h01, h02, h11, h12, h22, Gen.KsKij.out_trKij, Gen.KsKij.trk]
    ring

/-- the rest-frame place of the event (t,q) is that of the event (0, q - tB): the hole moves with the velocity B -/
theorem frame_move (P : Par) (h : P.Moving) (t : ℝ) (q : Pt) :
    space (frame P.B P.phiy P.phiz t q) = space (frame P.B P.phiy P.phiz 0 (fun i => q i - t * P.B i)) := by
  have hb : dot P.B P.B ≠ 0 := by rw [← h.b2]; exact h.pos.ne'
  have e : dot P.B (fun i => q i - t * P.B i) = dot P.B q - t * dot P.B P.B := by unfold dot; ring
  have hf : (lorentz P.B - 1) * dot P.B (fun i => q i - t * P.B i) / dot P.B P.B = (lorentz P.B - 1) * dot P.B q / dot P.B P.B - (lorentz P.B - 1) * t := by
    rw [e]; field_simp
  have key : ∀ m : Fin 3, boost P.B t q m.succ = boost P.B 0 (fun i => q i - t * P.B i) m.succ := by
    intro m
    fin_cases m
    · show q 0 + ((lorentz P.B - 1) * dot P.B q / dot P.B P.B - lorentz P.B * t) * P.B 0 = q 0 - t * P.B 0 + ((lorentz P.B - 1) * dot P.B (fun i => q i - t * P.B i) / dot P.B P.B - lorentz P.B * 0) * P.B 0
      rw [hf]; ring
    · show q 1 + ((lorentz P.B - 1) * dot P.B q / dot P.B P.B - lorentz P.B * t) * P.B 1 = q 1 - t * P.B 1 + ((lorentz P.B - 1) * dot P.B (fun i => q i - t * P.B i) / dot P.B P.B - lorentz P.B * 0) * P.B 1
      rw [hf]; ring
    · show q 2 + ((lorentz P.B - 1) * dot P.B q / dot P.B P.B - lorentz P.B * t) * P.B 2 = q 2 - t * P.B 2 + ((lorentz P.B - 1) * dot P.B (fun i => q i - t * P.B i) / dot P.B P.B - lorentz P.B * 0) * P.B 2
      rw [hf]; ring
  have k0 : boost P.B t q 1 = boost P.B 0 (fun i => q i - t * P.B i) 1 := key 0
  have k1 : boost P.B t q 2 = boost P.B 0 (fun i => q i - t * P.B i) 2 := key 1
  have k2 : boost P.B t q 3 = boost P.B 0 (fun i => q i - t * P.B i) 3 := key 2
  funext i
  fin_cases i <;> simp [space, frame, rotate, k0, k1, k2]

/-- a hole without spin that moves along x with half the speed of light -/
noncomputable def movPar : Par := ⟨1, 0, 0, 0, 1 / 2, 0, 0, 1 / 4, 1, √(1 / 2)⟩

theorem movPar_moving : movPar.Moving :=
  ⟨by simp [movPar, dot, Par.B]; norm_num, by norm_num [movPar], by norm_num [movPar]⟩

theorem movPar_lit : 0 < movPar.lit ∧ movPar.lit ^ 2 = 1 / 2 := ⟨Real.sqrt_pos.mpr (by norm_num), Real.sq_sqrt (by norm_num)⟩

theorem movPar_at (s : ℝ) : 0 < R movPar ![s, 1, 0] ∧ R movPar ![s, 1, 0] ^ 2 = 1 + 4 / 3 * s ^ 2 ∧ gam movPar 1 1 ![s, 1, 0] = 1 + 2 / R movPar ![s, 1, 0] ^ 3 := by
  have h := C90_coordinates movPar ![s, 1, 0] movPar_moving
  have hd : dot movPar.B movPar.B = 1 / 4 := by simp [movPar, dot, Par.B]; norm_num
  have hdq : dot movPar.B ![s, 1, 0] = s / 2 := by simp [movPar, dot, Par.B]; ring
  have hlor : lorentz movPar.B ^ 2 = 4 / 3 := by
    unfold lorentz; rw [hd, div_pow, Real.sq_sqrt (by norm_num)]; norm_num
  have e0 : X movPar ![s, 1, 0] = lorentz movPar.B * s := by
    rw [show X movPar ![s, 1, 0] = _ from congrFun h 0]
    simp only [space, frame, rotate, boost, hd, hdq]
    simp [movPar, Par.B]
    ring
  have e1 : Y movPar ![s, 1, 0] = 1 := by
    rw [show Y movPar ![s, 1, 0] = _ from congrFun h 1]
    simp only [space, frame, rotate, boost, hd, hdq]
    simp [movPar, Par.B]
  have e2 : Z movPar ![s, 1, 0] = 0 := by
    rw [show Z movPar ![s, 1, 0] = _ from congrFun h 2]
    simp only [space, frame, rotate, boost, hd, hdq]
    simp [movPar, Par.B]
  have ha : movPar.a = 0 := rfl
  have hR : 0 < R movPar ![s, 1, 0] := (C90_R_pos movPar _ movPar_lit.1).mpr (by
    rw [e0, e1, ha]; rintro ⟨_, hh⟩; nlinarith [sq_nonneg (lorentz movPar.B * s)])
  have hq := R_quartic movPar _ movPar_lit.2 hR
  have hR2 : R movPar ![s, 1, 0] ^ 2 = 1 + 4 / 3 * s ^ 2 := by
    rw [e0, e1, e2, ha] at hq
    have : R movPar ![s, 1, 0] ^ 2 * (R movPar ![s, 1, 0] ^ 2 - (1 + lorentz movPar.B ^ 2 * s ^ 2)) = 0 := by linarith
    rcases mul_eq_zero.mp this with h1 | h1
    · nlinarith
    · rw [hlor] at h1; linarith
  refine ⟨hR, hR2, ?_⟩
  have hk : k1 movPar ![s, 1, 0] = 1 / R movPar ![s, 1, 0] := by
    have := kcov_eq movPar ![s, 1, 0] movPar_moving 2
    rw [Fin.sum_univ_four] at this
    rw [show k1 movPar ![s, 1, 0] = kcov movPar ![s, 1, 0] 2 from rfl, this]
    have j0 : jac movPar.B movPar.phiy movPar.phiz 0 2 = 0 := by simp [jac, frame, rotate, boost, movPar, Par.B, dot, Fin.ext_iff]
    have j1 : jac movPar.B movPar.phiy movPar.phiz 1 2 = 0 := by simp [jac, frame, rotate, boost, movPar, Par.B, dot, Fin.ext_iff]
    have j2 : jac movPar.B movPar.phiy movPar.phiz 2 2 = 1 := by simp [jac, frame, rotate, boost, movPar, Par.B, dot, Fin.ext_iff]
    have j3 : jac movPar.B movPar.phiy movPar.phiz 3 2 = 0 := by simp [jac, frame, rotate, boost, movPar, Par.B, dot, Fin.ext_iff]
    rw [j0, j1, j2, j3]
    simp only [null, XYZ, e0, e1, ha, Matrix.cons_val_zero, Matrix.cons_val_one, Matrix.cons_val]
    field_simp
    ring
  show c movPar _ * k1 movPar _ ^ 2 + 1 = _
  rw [hk]
  unfold c H
  rw [e2, ha, show movPar.Lam = 1 from rfl, show movPar.M = 1 from rfl]
  field_simp
  ring

/-- C90 violation: a moving hole changes the metric with time - at a point off the hole the rate of change of γ_11 is not zero - and then the value that
the code writes to K_11 is not the extrinsic curvature of the slice -/
theorem C90_extrinsic_moving_violation : ∃ P : Par, P.Moving ∧ ∃ q : Pt, 0 < R P q ∧ ∃ D : ℝ, D ≠ 0 ∧
    HasDerivAt (fun t => gam P 1 1 (fun i => q i - t * P.B i)) D 0 ∧
    ∀ (x : Gen.KsKij.In) (dt : Fin 3 → Fin 3 → ℝ), x.KS__alpha ≠ 0 → dt 1 1 = D →
      Gen.KsKij.out_Kij_DD x 1 1 ≠ some (extrinsic x.Chris_UDD x.KS__beta_D x.dKS__beta_DD dt x.KS__alpha 1 1) := by
  have hline : ∀ s : ℝ, line (gam movPar 1 1) 0 ![s, 1, 0] = fun t => gam movPar 1 1 ![t, 1, 0] := by
    intro s; funext t; unfold line
    congr 1
    funext i; fin_cases i <;> simp
  have hder : ∀ s : ℝ, HasDerivAt (fun t => gam movPar 1 1 ![t, 1, 0]) (dgam movPar 1 1 0 ![s, 1, 0]) s := by
    intro s
    have := gam_at movPar ![s, 1, 0] (movPar_at s).1 1 1 0
    rw [hline] at this
    exact this
  have hex : ∃ s, dgam movPar 1 1 0 ![s, 1, 0] ≠ 0 := by
    by_contra hn
    push Not at hn
    have hc := is_const_of_deriv_eq_zero (f := fun t => gam movPar 1 1 ![t, 1, 0]) (fun s => (hder s).differentiableAt)
      (fun s => by rw [(hder s).deriv]; exact hn s) 0 1
    obtain ⟨p0, s0, g0⟩ := movPar_at 0
    obtain ⟨p1, s1, g1⟩ := movPar_at 1
    have hc' : gam movPar 1 1 ![0, 1, 0] = gam movPar 1 1 ![1, 1, 0] := hc
    rw [g0, g1] at hc'
    have r0 : R movPar ![0, 1, 0] = 1 := by nlinarith
    have r1 : 1 < R movPar ![1, 1, 0] := by nlinarith
    rw [r0] at hc'
    have : 2 / R movPar ![1, 1, 0] ^ 3 < 2 := by
      rw [div_lt_iff₀ (by positivity)]
      nlinarith [one_lt_pow₀ r1 (n := 3) (by norm_num)]
    norm_num at hc'
    linarith
  obtain ⟨s, hs⟩ := hex
  refine ⟨movPar, movPar_moving, ![s, 1, 0], (movPar_at s).1, -(1 / 2) * dgam movPar 1 1 0 ![s, 1, 0], by
    intro h; rcases mul_eq_zero.mp h with h1 | h1
    · norm_num at h1
    · exact hs h1, ?_, ?_⟩
  · have e : (fun t : ℝ => gam movPar 1 1 (fun i => (![s, 1, 0] : Fin 3 → ℝ) i - t * movPar.B i)) = (fun u => gam movPar 1 1 ![u, 1, 0]) ∘ (fun t => s - t * (1 / 2)) := by
      funext t
      show gam movPar 1 1 _ = gam movPar 1 1 _
      congr 1
      funext i; fin_cases i <;> simp [movPar, Par.B]
    rw [e]
    have h1 : HasDerivAt (fun t : ℝ => s - t * (1 / 2)) (-(1 / 2)) 0 := by
      have := ((hasDerivAt_id (0 : ℝ)).mul_const (1 / 2)).const_sub s
      simpa using this
    have h2 := hder s
    have h3 : HasDerivAt (fun t => gam movPar 1 1 ![t, 1, 0]) (dgam movPar 1 1 0 ![s, 1, 0]) ((fun t : ℝ => s - t * (1 / 2)) 0) := by simpa using h2
    have := h3.comp 0 h1
    exact this.congr_deriv (by ring)
  · intro x dt hal hdt hcon
    have hD : dt 1 1 ≠ 0 := by
      rw [hdt]; intro h; rcases mul_eq_zero.mp h with h1 | h1
      · norm_num at h1
      · exact hs h1
    simp only [Gen.KsKij.out_Kij_DD, Option.some.injEq, Gen.KsKij.ksKij_D1D1, Gen.KsKij.DB_D1D1, extrinsic, Fin.sum_univ_three] at hcon
    field_simp at hcon
    exact hD (by linarith)

/-- the metric always has a symmetric inverse: the hypotheses on `ig` of `C90_split` and `C90_at_rest` can be met -/
theorem gam_inverse (P : Par) (q : Pt) (hc : 0 ≤ c P q) : ∃ ig, Adm.Symm ig ∧ Adm.Inverse (fun i j => gam P i j q) ig := by
  let n := ksp P q 0 ^ 2 + ksp P q 1 ^ 2 + ksp P q 2 ^ 2
  have hn : 0 ≤ n := by positivity
  have hp : 0 < 1 + c P q * n := by positivity
  refine ⟨fun i j => (if i = j then 1 else 0) - c P q / (1 + c P q * n) * ksp P q i * ksp P q j, fun i j => ?_, fun i j => ?_⟩
  · simp only [eq_comm (a := i)]; ring
  · simp only [gam_eq, Fin.sum_univ_three]
    have key : c P q / (1 + c P q * n) * (1 + c P q * n) = c P q := by field_simp
    have hn' : n = ksp P q 0 ^ 2 + ksp P q 1 ^ 2 + ksp P q 2 ^ 2 := rfl
    generalize c P q / (1 + c P q * n) = w at *
    rw [hn'] at key
    generalize ksp P q = k at *
    fin_cases i <;> fin_cases j <;> simp
    · linear_combination (-k 0 * k 0) * key
    · linear_combination (-k 0 * k 1) * key
    · linear_combination (-k 0 * k 2) * key
    · linear_combination (-k 1 * k 0) * key
    · linear_combination (-k 1 * k 1) * key
    · linear_combination (-k 1 * k 2) * key
    · linear_combination (-k 2 * k 0) * key
    · linear_combination (-k 2 * k 1) * key
    · linear_combination (-k 2 * k 2) * key

/-- the hypotheses of `C90_split` are met by the moving hole of the example at (1,1,0) -/
example : ∃ ig, Split (transform movPar.B movPar.phiy movPar.phiz (kerr (movPar.Lam * movPar.M) movPar.a (space (frame movPar.B movPar.phiy movPar.phiz 0 ![1, 1, 0])) (R movPar ![1, 1, 0])))
    (fun i j => gam movPar i j ![1, 1, 0]) (alpha movPar ![1, 1, 0]) (betaD movPar ![1, 1, 0]) (betaU movPar ![1, 1, 0] ig) := by
  have hR := (movPar_at 1).1
  have hc : 0 ≤ c movPar ![1, 1, 0] := by
    unfold c H; rw [show movPar.Lam = 1 from rfl, show movPar.M = 1 from rfl]; positivity
  obtain ⟨ig, hs, hi⟩ := gam_inverse movPar ![1, 1, 0] hc
  have hd := (C90_R_pos movPar ![1, 1, 0] movPar_lit.1).mp hR
  have h := C90_coordinates movPar ![1, 1, 0] movPar_moving
  have e0 : X movPar ![1, 1, 0] = _ := congrFun h 0
  have e1 : Y movPar ![1, 1, 0] = _ := congrFun h 1
  have e2 : Z movPar ![1, 1, 0] = _ := congrFun h 2
  rw [e0, e1, e2] at hd
  exact ⟨ig, (C90_split movPar ![1, 1, 0] movPar_moving movPar_lit.1 movPar_lit.2 (by norm_num [movPar]) hd ig hs hi).2⟩

/-- a hole for `C90_axis`, `C90_params` and `C91_third_violation`: the parameters are accepted -/
example : ∃ P, setParams (1 / 10 ^ 12) (1 / 10 ^ 14) (√(1 / 2)) ⟨1, 1 / 2, ![0, 0, 1 / 2], 0⟩ = .ok P := by
  have hchi : (⟨1, 1 / 2, ![0, 0, 1 / 2], 0⟩ : Hole).chiAbs = 1 / 2 := by
    have h : (0 : ℝ) ^ 2 + 0 ^ 2 + (1 / 2) ^ 2 = (1 / 2) ^ 2 := by norm_num
    show √((0 : ℝ) ^ 2 + 0 ^ 2 + (1 / 2) ^ 2) = 1 / 2
    rw [h]
    exact Real.sqrt_sq (by norm_num)
  cases hp : setParams (1 / 10 ^ 12) (1 / 10 ^ 14) (√(1 / 2)) ⟨1, 1 / 2, ![0, 0, 1 / 2], 0⟩ with
  | ok P => exact ⟨P, rfl⟩
  | abort =>
    have := (C90_params (1 / 10 ^ 12) (1 / 10 ^ 14) (√(1 / 2)) (by norm_num) ⟨1, 1 / 2, ![0, 0, 1 / 2], 0⟩).1.mp hp
    rw [hchi] at this
    norm_num at this
  | ub => unfold setParams at hp; split at hp <;> simp at hp

end Elliptica.Ks
