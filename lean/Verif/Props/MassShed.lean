import Verif.Model.MassShed
import Verif.Spec.MassShed
import Verif.Props.Angles
import Mathlib.Analysis.Calculus.Deriv.Prod
/-!
C104: the mass-shedding indicator of a star.
-/
namespace Elliptica.MassShed
open Text Physics Angles MassShedSpec Real

theorem len_eq (x c : Fin 3 → ℝ) : Bhf.len (fun i => x i - c i) = distance x c := by
  rw [Bhf.len, distance]; congr 1; ring

theorem dist_sq (x c : Fin 3 → ℝ) : distance x c * distance x c = (x 0 - c 0) * (x 0 - c 0) + (x 1 - c 1) * (x 1 - c 1) + (x 2 - c 2) * (x 2 - c 2) := by
  rw [distance, Real.mul_self_sqrt (by positivity)]; ring

theorem dist_nonneg (x c : Fin 3 → ℝ) : 0 ≤ distance x c := Real.sqrt_nonneg _

/-- **C104 (direction).** The direction found by way of the polar angles is the outward one: to within three round-offs over the distance in every
component, and exactly where the horizontal components are zero or not below the round-off. -/
theorem C104_direction (e : ℝ) (he : 0 < e) (c x : Fin 3 → ℝ) (hx : 0 < distance x c) :
    (∀ i, |normal e c x i - outward c x i| ≤ 3 * e / distance x c) ∧ (Resolved e c x → normal e c x = outward c x) := by
  obtain ⟨hs, hc⟩ := sin_arccos_part (x 2 - c 2) (x 0 - c 0) (x 1 - c 1) (distance x c) hx (dist_sq x c).symm
  obtain ⟨-, ⟨h2, h3⟩, h4⟩ := C22_arctan e (x 1 - c 1) (x 0 - c 0) he
  have n0 : normal e c x 0 = √((x 0 - c 0) * (x 0 - c 0) + (x 1 - c 1) * (x 1 - c 1)) * cos (Angles.arctan e (x 1 - c 1) (x 0 - c 0)) / distance x c := by
    show sin (arccos ((x 2 - c 2) / Bhf.len (fun i => x i - c i))) * cos _ = _
    rw [len_eq, hs]; ring
  have n1 : normal e c x 1 = √((x 0 - c 0) * (x 0 - c 0) + (x 1 - c 1) * (x 1 - c 1)) * sin (Angles.arctan e (x 1 - c 1) (x 0 - c 0)) / distance x c := by
    show sin (arccos ((x 2 - c 2) / Bhf.len (fun i => x i - c i))) * sin _ = _
    rw [len_eq, hs]; ring
  have n2 : normal e c x 2 = (x 2 - c 2) / distance x c := by
    show cos (arccos ((x 2 - c 2) / Bhf.len (fun i => x i - c i))) = _
    rw [len_eq, hc]
  constructor
  · intro i
    match i with
    | 0 =>
      rw [n0, outward, ← sub_div, abs_div, abs_of_pos hx]
      exact div_le_div_of_nonneg_right h2 hx.le
    | 1 =>
      rw [n1, outward, ← sub_div, abs_div, abs_of_pos hx]
      exact div_le_div_of_nonneg_right h3 hx.le
    | 2 =>
      rw [n2, outward, sub_self, abs_zero]
      positivity
  · rintro ⟨r0, r1⟩
    obtain ⟨k0, k1⟩ := h4 (by rwa [sub_eq_zero]) (by rwa [sub_eq_zero])
    funext i
    match i with
    | 0 => rw [n0, k0, outward]
    | 1 => rw [n1, k1, outward]
    | 2 => rw [n2, outward]

/-- **C104 (slope).** For exact readings of an enthalpy that is not zero, the value computed at a point is the derivative of its logarithm along the
ray from the centre. -/
theorem C104_slope (e : ℝ) (he : 0 < e) (c : Fin 3 → ℝ) (q : Spot) (H : (Fin 3 → ℝ) → ℝ) (hq : Reads H q.x q.h q.dh) (h0 : q.h ≠ 0)
    (hx : 0 < distance q.x c) (hr : Resolved e c q.x) : dlnh e c q = .ok (falloff H c q.x) := by
  obtain ⟨L, hL, hLv⟩ := hq.gradient
  have hpos : (fun i => c i + distance q.x c * outward c q.x i) = q.x := by
    funext i; rw [outward]; field_simp; ring
  have hray : HasDerivAt (fun s : ℝ => fun i => c i + s * outward c q.x i) (outward c q.x) (distance q.x c) := by
    rw [hasDerivAt_pi]
    intro i
    simpa using ((hasDerivAt_id (distance q.x c)).mul_const (outward c q.x i)).const_add (c i)
  have hcomp := HasFDerivAt.comp_hasDerivAt (distance q.x c) (by rw [hpos]; exact hL) hray
  have hlog := hcomp.log (by
    show H (fun i => c i + distance q.x c * outward c q.x i) ≠ 0
    rw [hpos, hq.value]; exact h0)
  have hs : falloff H c q.x = L (outward c q.x) / H q.x := by
    rw [falloff]
    have := hlog.deriv
    simp only [Function.comp_apply, hpos] at this
    exact this
  rw [dlnh, len_eq, if_neg (by rintro (h | h); · exact hx.ne' h
                               · exact h0 h), (C104_direction e he c q.x hx).2 hr, hs, hLv, hq.value]

/-- the side of a star that faces the companion -/
theorem C104_side : opposite .left = .ok "right".toList ∧ opposite .right = .ok "left".toList ∧ opposite .center = .ok "left".toList ∧
    opposite .none = .abort := ⟨rfl, rfl, rfl, rfl⟩

/-- the two points of a star: where the patch towards the companion, and that of the north pole, have the middle of their surface -/
structure Points (pos : Pos) (spos stype : Str) (spot : Str → Option Spot) (a b : Spot) : Prop where
  placed : pos ≠ .none
  equator : ∀ side, opposite pos = .ok side → spot (".*".toList ++ spos ++ '_' :: stype ++ '_' :: side ++ ".*".toList) = some a
  pole : spot (".*".toList ++ spos ++ '_' :: stype ++ "_up.*".toList) = some b

theorem indicator_eq (e : ℝ) (kind : Kind) (hk : kind ≠ .other) (pos : Pos) (spos stype : Str) (c : Fin 3 → ℝ) (spot : Str → Option Spot) (a b : Spot)
    (h : Points pos spos stype spot a b) :
    indicator e kind pos spos stype c spot = (dlnh e c a).bind fun u => (dlnh e c b).bind fun v => if v = 0 then .ub else .ok (u / v) := by
  obtain ⟨side, hs⟩ : ∃ side, opposite pos = .ok side := by
    have := h.placed
    cases pos <;> first | exact ⟨_, rfl⟩ | exact absurd rfl this
  have h1 : spot (equatorName spos stype side) = some a := by rw [← h.equator side hs]; simp [equatorName]
  have h2 : spot (poleName spos stype) = some b := by rw [← h.pole]; simp [poleName]
  rw [indicator, if_neg hk, hs, Res.bind_ok, h1, h2]

/-- **C104 (indicator).** The indicator is the slope of ln h at the point towards the companion over that at the north pole. -/
theorem C104_indicator (e : ℝ) (he : 0 < e) (kind : Kind) (hk : kind ≠ .other) (pos : Pos) (spos stype : Str) (c : Fin 3 → ℝ) (spot : Str → Option Spot)
    (a b : Spot) (h : Points pos spos stype spot a b) (H : (Fin 3 → ℝ) → ℝ) (ha : Reads H a.x a.h a.dh) (hb : Reads H b.x b.h b.dh)
    (ha0 : a.h ≠ 0) (hb0 : b.h ≠ 0) (ra : 0 < distance a.x c) (rb : 0 < distance b.x c) (sa : Resolved e c a.x) (sb : Resolved e c b.x)
    (hn : falloff H c b.x ≠ 0) :
    indicator e kind pos spos stype c spot = .ok (falloff H c a.x / falloff H c b.x) := by
  rw [indicator_eq e kind hk pos spos stype c spot a b h, C104_slope e he c a H ha ha0 ra sa, C104_slope e he c b H hb hb0 rb sb, Res.bind_ok, Res.bind_ok,
    if_neg hn]

theorem outward_sq (c x : Fin 3 → ℝ) (hx : 0 < distance x c) : outward c x 0 * outward c x 0 + outward c x 1 * outward c x 1 + outward c x 2 * outward c x 2 = 1 := by
  have := dist_sq x c
  simp only [outward]
  field_simp
  nlinarith

/-- the ray from c at the distance s has that distance -/
theorem dist_ray (c x : Fin 3 → ℝ) (hx : 0 < distance x c) (s : ℝ) : distance (fun i => c i + s * outward c x i) c = |s| := by
  have := outward_sq c x hx
  rw [distance]
  rw [show (c 0 + s * outward c x 0 - c 0) ^ 2 + (c 1 + s * outward c x 1 - c 1) ^ 2 + (c 2 + s * outward c x 2 - c 2) ^ 2 = s ^ 2 by
    linear_combination s ^ 2 * this]
  exact Real.sqrt_sq_eq_abs s

/-- **C104 (spherical star).** For a star whose enthalpy depends on the distance from the centre only, the indicator is 1. -/
theorem C104_spherical (e : ℝ) (he : 0 < e) (kind : Kind) (hk : kind ≠ .other) (pos : Pos) (spos stype : Str) (c : Fin 3 → ℝ) (spot : Str → Option Spot)
    (a b : Spot) (h : Points pos spos stype spot a b) (f : ℝ → ℝ) (H : (Fin 3 → ℝ) → ℝ) (hf : ∀ x, H x = f (distance x c))
    (ha : Reads H a.x a.h a.dh) (hb : Reads H b.x b.h b.dh) (ha0 : a.h ≠ 0) (r : ℝ) (hr : 0 < r)
    (ra : distance a.x c = r) (rb : distance b.x c = r) (sa : Resolved e c a.x) (sb : Resolved e c b.x)
    (hn : deriv f r ≠ 0) : indicator e kind pos spos stype c spot = .ok 1 := by
  have key : ∀ x : Fin 3 → ℝ, distance x c = r → falloff H c x = deriv (fun s => Real.log (f s)) r := by
    intro x hx
    rw [falloff, hx]
    refine Filter.EventuallyEq.deriv_eq ?_
    filter_upwards [lt_mem_nhds hr] with s hs
    rw [hf, dist_ray c x (by rw [hx]; exact hr), abs_of_pos hs]
  have hfr : f r ≠ 0 := by rw [← ra, ← hf, ha.value]; exact ha0
  have hd : DifferentiableAt ℝ f r := differentiableAt_of_deriv_ne_zero hn
  have hne : deriv (fun s => Real.log (f s)) r ≠ 0 := by
    rw [(hd.hasDerivAt.log hfr).deriv]; exact div_ne_zero hn hfr
  rw [C104_indicator e he kind hk pos spos stype c spot a b h H ha hb ha0 (by rw [← hb.value, hf, rb]; exact hfr) (by rw [ra]; exact hr)
    (by rw [rb]; exact hr) sa sb (by rw [key _ rb]; exact hne), key _ ra, key _ rb, div_self hne]

/-- **C104 (shedding).** Where the enthalpy no longer falls off outwards at the point towards the companion the indicator is 0, and only there. -/
theorem C104_shedding (e : ℝ) (he : 0 < e) (kind : Kind) (hk : kind ≠ .other) (pos : Pos) (spos stype : Str) (c : Fin 3 → ℝ) (spot : Str → Option Spot)
    (a b : Spot) (h : Points pos spos stype spot a b) (ha0 : a.h ≠ 0) (ra : 0 < distance a.x c) (sa : Resolved e c a.x) (v : ℝ)
    (hv : indicator e kind pos spos stype c spot = .ok v) :
    v = 0 ↔ outward c a.x 0 * a.dh 0 + outward c a.x 1 * a.dh 1 + outward c a.x 2 * a.dh 2 = 0 := by
  rw [indicator_eq e kind hk pos spos stype c spot a b h, dlnh, len_eq, if_neg (by rintro (h | h); · exact ra.ne' h
                                                                                   · exact ha0 h),
    (C104_direction e he c a.x ra).2 sa, Res.bind_ok] at hv
  cases hd : dlnh e c b with
  | ok w =>
    rw [hd, Res.bind_ok] at hv
    by_cases hw : w = 0
    · rw [if_pos hw] at hv; cases hv
    · rw [if_neg hw] at hv
      cases hv
      rw [div_eq_zero_iff, div_eq_zero_iff]
      exact ⟨fun h => by rcases h with (h | h) | h; · exact h
                         · exact absurd h ha0
                         · exact absurd h hw, fun h => .inl (.inl h)⟩
  | abort => rw [hd] at hv; cases hv
  | ub => rw [hd] at hv; cases hv

/-- **C104 (units).** It does not depend on the unit of the enthalpy. -/
theorem C104_units (e k : ℝ) (hk0 : k ≠ 0) (kind : Kind) (pos : Pos) (spos stype : Str) (c : Fin 3 → ℝ) (spot : Str → Option Spot) :
    indicator e kind pos spos stype c (fun s => (spot s).map fun q => ⟨q.x, k * q.h, fun i => k * q.dh i⟩) =
      indicator e kind pos spos stype c spot := by
  have hd : ∀ q : Spot, dlnh e c ⟨q.x, k * q.h, fun i => k * q.dh i⟩ = dlnh e c q := by
    intro q
    simp only [dlnh, mul_eq_zero, hk0, false_or]
    split
    · rfl
    · rename_i h
      rw [not_or] at h
      congr 1
      have := h.2
      field_simp
  unfold indicator
  split
  · rfl
  congr 1
  funext side
  cases h1 : spot (equatorName spos stype side) with
  | none => simp only [h1, Option.map_none]
  | some q =>
    cases h2 : spot (poleName spos stype) with
    | none => simp only [h1, h2, Option.map_some, Option.map_none, hd]
    | some q2 => simp only [h1, h2, Option.map_some, hd]

/-- **C104 (refused).** A grid without a star, an object without a place, and patches without the point stop the program. -/
theorem C104_refused (e : ℝ) (kind : Kind) (pos : Pos) (spos stype : Str) (c : Fin 3 → ℝ) (spot : Str → Option Spot)
    (h : kind = .other ∨ pos = .none ∨ ∀ s, spot s = none) : indicator e kind pos spos stype c spot = .abort := by
  unfold indicator
  split
  · rfl
  · rename_i hk
    rcases h with h | rfl | h
    · exact absurd h hk
    · rfl
    · cases pos <;> simp [opposite, h]

/-! ### the hypotheses are met -/

/-- a round star of radius 1 -/
noncomputable def roundH (x : Fin 3 → ℝ) : ℝ := 2 - (x 0 * x 0 + x 1 * x 1 + x 2 * x 2)

theorem round_reads (x : Fin 3 → ℝ) : Reads roundH x (roundH x) fun i => -2 * x i := by
  refine ⟨rfl, _, ((((hasFDerivAt_apply 0 x).mul (hasFDerivAt_apply 0 x)).add ((hasFDerivAt_apply 1 x).mul (hasFDerivAt_apply 1 x))).add
    ((hasFDerivAt_apply 2 x).mul (hasFDerivAt_apply 2 x))).const_sub 2, fun v => ?_⟩
  simp
  ring

def roundSpot (s : Str) : Option Spot :=
  if s = ".*left_NS_right.*".toList then some ⟨![0, 1, 0], 1, ![0, -2, 0]⟩
  else if s = ".*left_NS_up.*".toList then some ⟨![0, 0, 1], 1, ![0, 0, -2]⟩ else none

example : indicator 1e-12 .bhns .left "left".toList "NS".toList (fun _ => 0) roundSpot = .ok 1 := by
  have d1 : distance ![0, 1, 0] (fun _ => 0) = 1 := by simp [distance]
  have d2 : distance ![0, 0, 1] (fun _ => 0) = 1 := by simp [distance]
  have q1 := round_reads ![0, 1, 0]
  have q2 := round_reads ![0, 0, 1]
  rw [show roundH ![0, 1, 0] = 1 by simp [roundH]; norm_num, show (fun i => -2 * (![0, 1, 0] : Fin 3 → ℝ) i) = ![0, -2, 0] by
    funext i; fin_cases i <;> simp] at q1
  rw [show roundH ![0, 0, 1] = 1 by simp [roundH]; norm_num, show (fun i => -2 * (![0, 0, 1] : Fin 3 → ℝ) i) = ![0, 0, -2] by
    funext i; fin_cases i <;> simp] at q2
  refine C104_spherical 1e-12 (by norm_num) .bhns (by decide) .left "left".toList "NS".toList (fun _ => 0) roundSpot
    ⟨![0, 1, 0], 1, ![0, -2, 0]⟩ ⟨![0, 0, 1], 1, ![0, 0, -2]⟩
    ⟨by decide, ?_, ?_⟩ (fun s => 2 - s * s) roundH ?_ q1 q2 one_ne_zero 1 one_pos d1 d2 ?_ ?_ ?_
  · intro side h
    cases h
    exact if_pos (by decide +kernel)
  · rw [roundSpot, if_neg (by decide +kernel), if_pos (by decide +kernel)]
  · intro x
    rw [distance, Real.mul_self_sqrt (by positivity), roundH]; ring
  · exact ⟨.inl rfl, .inr (by norm_num [Matrix.cons_val_one])⟩
  · exact ⟨.inl rfl, .inl rfl⟩
  · have : HasDerivAt (fun s : ℝ => 2 - s * s) (-(1 * 1 + 1 * 1)) 1 := ((hasDerivAt_id (1 : ℝ)).mul (hasDerivAt_id 1)).const_sub 2
    rw [this.deriv]; norm_num

end Elliptica.MassShed
