import Verif.Props.StarSurfaceMore
/-!
Property C100: concrete cases that meet the hypotheses.
-/
namespace Elliptica.StarSurface
open Root Text Set Coord Angles

/-- a star the surface of which is 1/300 outside the present one, a sphere of radius 5 -/
noncomputable def exRays (θ ϕ : ℝ) : Ray := ⟨fun i => 5 * unit θ ϕ i, unit θ ϕ, fun x => .val (1 / 300 - x)⟩

theorem ex_shaped : StarShaped (fun x => 1 / 300 - x) (1 / 300) := ⟨by fun_prop, fun x h => by linarith, fun x h => by linarith⟩

theorem ex_seen : Seen (1 / 10 ^ 12) fun x => 1 / 300 - x := by
  intro k hk s hs
  right
  rcases hs with rfl | rfl
  · rcases Nat.eq_zero_or_pos k with rfl | h
    · norm_num
    · have : (1 : ℝ) ≤ k := by exact_mod_cast h
      rw [lt_abs]; right; norm_num; linarith
  · have : (0 : ℝ) ≤ k := by positivity
    rw [lt_abs]; left; norm_num; linarith

theorem ex_sees (θ ϕ : ℝ) : Sees (1 / 10 ^ 12) 1 1 (exRays θ ϕ) (unit θ ϕ) (5 + 1 / 300) := by
  refine ⟨rfl, by norm_num, 5, fun x => 1 / 300 - x, fun i => rfl, fun x => rfl, ?_, by norm_num [abs_of_pos], ex_seen, fun x h => ?_, fun x h => ?_⟩
  · rw [add_sub_cancel_left]; exact ex_shaped
  · rw [add_sub_cancel_left, abs_sub_comm]; exact h.trans (by norm_num)
  · rw [add_sub_cancel_left, abs_sub_comm] at h; exact h.le

/-- `C100_bracket`, `C100_direction`: the walk outwards takes one step, 5 turns reach the tolerance -/
example : ∃ x, direction (1 / 10 ^ 12) 1 5 (fun x => .val (1 / 300 - x)) 7 = .ok (.at x (some (1 / 300 - x))) ∧ |x - 1 / 300| < 1 := by
  obtain ⟨x, h, _, h3⟩ := C100_direction (1 / 10 ^ 12) 1 (by norm_num) 5 (by norm_num) (by norm_num) (fun x => .val (1 / 300 - x))
    (fun x => 1 / 300 - x) (fun _ => rfl) (1 / 300) ex_shaped (by norm_num [abs_of_pos]) ex_seen 7
  refine ⟨x, h, ?_⟩
  rcases h3 with h3 | h3
  · rw [abs_sub_comm]; exact h3.trans (by norm_num)
  · exact h3

/-- `C100_surface`, with 25 directions -/
example (p : Par) : ∃ (tab : ℕ → ℕ → ℝ) (p' : Par) (s : Shape),
    bisection (1 / 10 ^ 12) 1 1000 2 5 3 2 tab exRays true false p = .ok (p', s) ∧ p'.worked = true ∧ 4 < p'.minRadius ∧ p'.maxRadius < 7 := by
  obtain ⟨tab, ht, _⟩ := Ylm.C49_recommended 2 (by omega)
  obtain ⟨R, c, lo, hi, h, h1, h2, _, h4, h5, _, h7⟩ := C100_surface (1 / 10 ^ 12) 1 1 1000 2 (by norm_num) 5 3 2 (by norm_num) (by norm_num) (by norm_num)
    (by norm_num) tab ht exRays (fun _ _ => 5 + 1 / 300) (fun θ _ ϕ _ => ⟨ex_sees θ ϕ, by norm_num⟩) p
  have hall : ∀ k < 25, |R k - (5 + 1 / 300)| < 1 := by
    intro k hk
    have := h2 (k / 5) (by omega) (k % 5) (by omega)
    rwa [show k % 5 + k / 5 * (2 * 2 + 1) = k by omega] at this
  refine ⟨tab, _, _, h1, ?_, ?_, ?_⟩
  · exact decide_eq_true (by linarith)
  · obtain ⟨k, hk, e⟩ := h4.1
    have := abs_lt.1 (hall k hk)
    show 4 < lo
    rw [← e]; linarith [this.1]
  · obtain ⟨k, hk, e⟩ := h5.1
    have := abs_lt.1 (hall k hk)
    show hi < 7
    rw [← e]; linarith [this.2]

/-- `C100_coeffs`: the sphere is such a combination -/
example (p : Par) : ∃ (tab : ℕ → ℕ → ℝ) (re im : ℕ → ℝ) (p' : Par) (s : Shape) (c : (ℕ → ℝ) × (ℕ → ℝ)),
    bisection (1 / 10 ^ 12) 1 1000 2 5 3 2 tab exRays true false p = .ok (p', s) ∧ s.clm = some c ∧ |c.1 0 - re 0| ≤ 2 * √Real.pi ∧
      ∀ θ ∈ Icc 0 Real.pi, ∀ ϕ ∈ Icc 0 (2 * Real.pi), (5 + 1 / 300 : ℝ) = Ylm.series re im 2 θ ϕ := by
  obtain ⟨tab, ht, _⟩ := Ylm.C49_recommended 2 (by omega)
  obtain ⟨re, im, hb⟩ := Bhf.Band.const 2 (5 + 1 / 300)
  have him : ∀ θ ϕ, Ylm.series re (fun n => if n = 0 ∨ n = 1 ∨ n = 3 then 0 else im n) 2 θ ϕ = Ylm.series re im 2 θ ϕ := by
    intro θ ϕ
    refine Ylm.series_im0 re im _ 2 (fun l m hm h0 => ?_) θ ϕ
    have hn : ¬ (Ylm.lm2n l m = 0 ∨ Ylm.lm2n l m = 1 ∨ Ylm.lm2n l m = 3) := by
      unfold Ylm.lm2n
      rcases Nat.lt_or_ge l 3 with h | h
      · interval_cases l <;> interval_cases m <;> simp
      · have : 6 ≤ l * (l + 1) / 2 := by
          rw [Nat.le_div_iff_mul_le (by norm_num)]
          nlinarith
        omega
    rw [if_neg hn]
  obtain ⟨p', s, c, h1, h2, _, h4⟩ := C100_coeffs (1 / 10 ^ 12) 1 1 1000 2 (by norm_num) 5 3 2 (by norm_num) (by norm_num) (by norm_num)
    (by norm_num) tab ht exRays re (fun n => if n = 0 ∨ n = 1 ∨ n = 3 then 0 else im n)
    (by intro l hl; interval_cases l <;> simp) (fun θ hθ ϕ hϕ => by
      rw [him, ← hb θ hθ ϕ hϕ]
      exact ⟨ex_sees θ ϕ, by norm_num⟩) p
  refine ⟨tab, re, _, p', s, c, h1, h2, ?_, fun θ hθ ϕ hϕ => (hb θ hθ ϕ hϕ).trans (him θ ϕ).symm⟩
  have := (h4 0 (by omega) 0 (by omega)).1
  simpa using this

/-- `C100_gap_violation`, `C100_scan_interrupt`, `C100_interrupt`: all directions see a star that is 5e-13 too small; one failure is allowed -/
example (tab : ℕ → ℕ → ℝ) (p : Par) (hp : p.numFail = 0) :
    bisection (1 / 10 ^ 12) (1 / 10 ^ 6) 1000 2 50 1 3 tab (fun θ ϕ => ⟨fun i => 5 * unit θ ϕ i, unit θ ϕ, fun x => .val (-(1 / (2 * 10 ^ 12)) - x)⟩)
      true false p = .ok ({ p with numFail := 1, worked := false }, ⟨none, p.minRadius, p.maxRadius, 3⟩) := by
  rw [C100_interrupt, if_pos (by omega), hp]
  refine C100_scan_interrupt _ _ _ _ _ 0 (by norm_num) (fun n _ x h => by cases h) fun x0 => ?_
  exact C100_gap_violation _ _ (by norm_num) _ _ (-(1 / (2 * 10 ^ 12)) - 0) rfl (by norm_num) (by norm_num) x0

/-- `C100_nan_violation`: the enthalpy is not a number between two points of the ray -/
noncomputable def exNan (x : ℝ) : Eval ℝ := if x ≤ 0 then .val 1 else if 1 / 100 ≤ x then .val (-1) else .nan

theorem exNan_direction (x0 : ℝ) : direction (1 / 10 ^ 12) (1 / 10 ^ 6) 50 exNan x0 = .ok (.at x0 none) := by
  have he : (0 : ℝ) < 1 / 10 ^ 12 := by norm_num
  have v0 : exNan 0 = .val 1 := by rw [exNan, if_pos le_rfl]
  have v1 : exNan (0 + 1 / 100) = .val (-1) := by rw [exNan, if_neg (by norm_num), if_pos (by norm_num)]
  have v2 : exNan (0 + 1 / 2 * ((0 + 1 / 100) - 0)) = .nan := by rw [exNan, if_neg (by norm_num), if_neg (by norm_num)]
  have ha : shrink (1 / 10 ^ 12) exNan 500 0 = 0 := by
    rw [shrink, v0, if_neg]
    rw [below_val _ _ he]; norm_num
  have hb : expand (1 / 10 ^ 12) exNan 500 0 = 0 + 1 / 100 := by
    rw [expand, v0, if_pos ((above_val _ _ he).2 (by norm_num)), expand, v1, if_neg]
    rw [above_val _ _ he]; norm_num
  rw [direction]
  dsimp only
  rw [ha, hb, v0, v1, if_neg (by rw [negative_val]; norm_num), if_neg (by rw [positive_val]; norm_num)]
  dsimp only
  rw [bisect, if_neg (by simp), v0, v1]
  dsimp only
  rw [if_neg (by norm_num), bisectLoop, v2]
  show Res.ok _ = _
  dsimp only
  rw [if_neg (by simp)]

example (p : Par) : ∃ tab p' s, bisection (1 / 10 ^ 12) (1 / 10 ^ 6) 1000 2 50 1 0 tab (fun θ ϕ => ⟨fun i => 5 * unit θ ϕ i, unit θ ϕ, exNan⟩) true false p =
    .ok (p', s) ∧ p'.worked = true := by
  obtain ⟨tab, ht, _⟩ := Ylm.C49_recommended 0 (by omega)
  have hscan : ∃ s, scan (1 / 10 ^ 12) (1 / 10 ^ 6) 50 (fun n => ⟨fun i => 5 * unit (Ylm.thetaAt (fun i n => tab n i) (2 * 0 + 1) (n / (2 * 0 + 1)))
      (Ylm.phiAt (2 * 0 + 1) (n % (2 * 0 + 1))) i, unit (Ylm.thetaAt (fun i n => tab n i) (2 * 0 + 1) (n / (2 * 0 + 1)))
      (Ylm.phiAt (2 * 0 + 1) (n % (2 * 0 + 1))), exNan⟩) ((2 * 0 + 1) * (2 * 0 + 1)) = .ok (some s) ∧ s.res 0 = none := by
    refine ⟨_, by rw [show (2 * 0 + 1) * (2 * 0 + 1) = 0 + 1 from rfl, scan, scan, Res.bind_ok]; dsimp only; rw [exNan_direction]; rfl, rfl⟩
  obtain ⟨s, h1, h2⟩ := hscan
  obtain ⟨c, hc⟩ := Ylm.C49_total tab (2 * 0 + 1) (2 * 0 + 1) 0 (by omega) (by omega) ht (by omega) s.R (fun _ => 0, fun _ => 0)
  obtain ⟨q, hq⟩ : ∃ q, bisection (1 / 10 ^ 12) (1 / 10 ^ 6) 1000 2 50 1 0 tab (fun θ ϕ => ⟨fun i => 5 * unit θ ϕ i, unit θ ϕ, exNan⟩) true false p = .ok q := by
    rw [bisection]
    dsimp only
    rw [h1, Res.bind_ok]
    dsimp only
    rw [hc, Res.bind_ok, if_neg (by simp), if_neg (by simp)]
    exact ⟨_, rfl⟩
  exact ⟨tab, q.1, q.2, hq, C100_nan_violation _ _ _ _ _ _ 0 tab _ p s h1 0 (by norm_num) h2 q.1 q.2 hq⟩

/-- `C100_perfect` with 25 points of the grid of angles -/
example (p : Par) : ∃ tab c, perfectS2 2 tab false (startOff 8 p) = .ok ({ p with perfect := 8, minRadius := 8, maxRadius := 8, worked := true }, ⟨some c, 8, 8, 2⟩) ∧
    Ylm.interp c.1 c.2 2 1 1 = .ok 8 := by
  obtain ⟨tab, ht, _⟩ := Ylm.C49_recommended 2 (by omega)
  obtain ⟨c, h1, h2⟩ := C100_perfect 2 (by norm_num) tab ht 8 p
  exact ⟨tab, c, h1, h2 1 ⟨by norm_num, by linarith [Real.pi_gt_three]⟩ 1 ⟨by norm_num, by linarith [Real.pi_gt_three]⟩⟩

/-- `C100_options` -/
example (b s : Res (Par × Shape)) : findSurface "Topology_S2".toList "Bisection".toList b s = b ∧ findSurface "perfect_s2".toList "".toList b s = s ∧
    findSurface "none".toList "bisection".toList b s = .abort := by
  refine ⟨(C100_options _ _ b s).1 (by decide +kernel) (by decide +kernel), (C100_options _ _ b s).2.1 (by decide +kernel),
    (C100_options _ _ b s).2.2.2 (by decide +kernel) (by decide +kernel)⟩

end Elliptica.StarSurface
