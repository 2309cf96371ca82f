import Verif.Model.StarSurface
import Verif.Props.Root
import Verif.Props.BhfPerfect
import Verif.Props.Tol
/-!
Property C100: the search of the surface of a star along the directions of the grid of angles.
-/
namespace Elliptica.StarSurface
open Root Text Set

/-- along the ray the enthalpy less 1 is continuous and changes sign at one displacement only, from inside the star to outside -/
structure StarShaped (G : ℝ → ℝ) (t : ℝ) : Prop where
  cont : Continuous G
  inside : ∀ x < t, 0 < G x
  outside : ∀ x, t < x → G x < 0

theorem StarShaped.zero {G : ℝ → ℝ} {t : ℝ} (h : StarShaped G t) : G t = 0 := by
  apply le_antisymm
  · by_contra hc
    push Not at hc
    obtain ⟨d, hd, hb⟩ := Metric.continuousAt_iff.1 h.cont.continuousAt (G t) hc
    have := hb (x := t + d / 2) (by rw [Real.dist_eq, add_sub_cancel_left, abs_of_pos] <;> linarith)
    rw [Real.dist_eq, abs_lt] at this
    linarith [h.outside (t + d / 2) (by linarith), this.1]
  · by_contra hc
    push Not at hc
    obtain ⟨d, hd, hb⟩ := Metric.continuousAt_iff.1 h.cont.continuousAt (-G t) (by linarith)
    have := hb (x := t - d / 2) (by rw [Real.dist_eq, show t - d / 2 - t = -(d / 2) by ring, abs_neg, abs_of_pos] <;> linarith)
    rw [Real.dist_eq, abs_lt] at this
    linarith [h.inside (t - d / 2) (by linarith), this.2]

theorem StarShaped.nonneg {G : ℝ → ℝ} {t x : ℝ} (h : StarShaped G t) : 0 ≤ G x ↔ x ≤ t := by
  constructor
  · intro h1
    by_contra hc
    push Not at hc
    linarith [h.outside x hc]
  · intro h1
    rcases h1.lt_or_eq with h2 | h2
    · exact (h.inside x h2).le
    · rw [h2, h.zero]

theorem StarShaped.nonpos {G : ℝ → ℝ} {t x : ℝ} (h : StarShaped G t) : G x ≤ 0 ↔ t ≤ x := by
  constructor
  · intro h1
    by_contra hc
    push Not at hc
    linarith [h.inside x hc]
  · intro h1
    rcases h1.lt_or_eq with h2 | h2
    · exact (h.outside x h2).le
    · rw [← h2, h.zero]

/-- no value at the steps of the search is so small and yet not zero that the comparisons with the tolerance do not see it -/
def Seen (e : ℝ) (G : ℝ → ℝ) : Prop := ∀ k : ℕ, k ≤ 500 → ∀ s : ℝ, s = 1 ∨ s = -1 → G (s * (k / 100)) = 0 ∨ e < |G (s * (k / 100))|

theorem below_val (e v : ℝ) (he : 0 < e) : below e (.val v) = true ↔ v < -e := by
  have := (Tol.C13_meaning e v 0 he).2.1
  rw [below, this, sub_zero]

theorem above_val (e v : ℝ) (he : 0 < e) : above e (.val v) = true ↔ e < v := by
  have := (Tol.C13_meaning e v 0 he).2.2.1
  rw [above, this, sub_zero]

/-- where the walk inwards ends -/
theorem shrink_spec (e : ℝ) (F : ℝ → Eval ℝ) (n k : ℕ) :
    ∃ j, k ≤ j ∧ j ≤ k + n ∧ shrink e F n (-((k : ℝ) / 100)) = -((j : ℝ) / 100) ∧ (j = k + n ∨ below e (F (-((j : ℝ) / 100))) = false) := by
  induction n generalizing k with
  | zero => exact ⟨k, le_rfl, le_rfl, rfl, .inl rfl⟩
  | succ n ih =>
    rw [shrink]
    by_cases h : below e (F (-((k : ℝ) / 100))) = true
    · rw [if_pos h]
      obtain ⟨j, h1, h2, h3, h4⟩ := ih (k + 1)
      refine ⟨j, by omega, by omega, ?_, ?_⟩
      · rw [← h3]; congr 1; push_cast; ring
      · rcases h4 with h4 | h4
        · left; omega
        · exact .inr h4
    · rw [if_neg h]
      exact ⟨k, le_rfl, by omega, rfl, .inr (by simpa using h)⟩

/-- where the walk outwards ends -/
theorem expand_spec (e : ℝ) (F : ℝ → Eval ℝ) (n k : ℕ) :
    ∃ j, k ≤ j ∧ j ≤ k + n ∧ expand e F n ((k : ℝ) / 100) = (j : ℝ) / 100 ∧ (j = k + n ∨ above e (F ((j : ℝ) / 100)) = false) := by
  induction n generalizing k with
  | zero => exact ⟨k, le_rfl, le_rfl, rfl, .inl rfl⟩
  | succ n ih =>
    rw [expand]
    by_cases h : above e (F ((k : ℝ) / 100)) = true
    · rw [if_pos h]
      obtain ⟨j, h1, h2, h3, h4⟩ := ih (k + 1)
      refine ⟨j, by omega, by omega, ?_, ?_⟩
      · rw [← h3]; congr 1; push_cast; ring
      · rcases h4 with h4 | h4
        · left; omega
        · exact .inr h4
    · rw [if_neg h]
      exact ⟨k, le_rfl, by omega, rfl, .inr (by simpa using h)⟩

/-- **C100 (the bracket).** For a star-shaped star whose surface is displaced by at most 5 the two walks end on the two sides of the surface. -/
theorem C100_bracket (e : ℝ) (he : 0 < e) (F : ℝ → Eval ℝ) (G : ℝ → ℝ) (hF : ∀ x, F x = .val (G x)) (t : ℝ) (hG : StarShaped G t)
    (ht : |t| ≤ 5) (hs : Seen e G) :
    let a := shrink e F 500 0
    let b := expand e F 500 0
    a ≤ t ∧ t ≤ b ∧ -5 ≤ a ∧ a ≤ 0 ∧ 0 ≤ b ∧ b ≤ 5 := by
  have ht := abs_le.1 ht
  obtain ⟨j, _, h2, h3, h4⟩ := shrink_spec e F 500 0
  obtain ⟨i, _, g2, g3, g4⟩ := expand_spec e F 500 0
  simp only [Nat.cast_zero, zero_div, neg_zero, zero_add] at h2 h3 h4 g2 g3 g4
  have hj : (j : ℝ) ≤ 500 := by exact_mod_cast h2
  have hi : (i : ℝ) ≤ 500 := by exact_mod_cast g2
  have hj0 : (0 : ℝ) ≤ j := by positivity
  have hi0 : (0 : ℝ) ≤ i := by positivity
  dsimp only
  rw [h3, g3]
  refine ⟨?_, ?_, by linarith, by linarith, by linarith, by linarith⟩
  · rcases h4 with h4 | h4
    · rw [h4]; push_cast; linarith [ht.1]
    · rw [← hG.nonneg]
      have hv : ¬ G (-((j : ℝ) / 100)) < -e := by
        rw [← below_val e _ he, ← hF, h4]; simp
      have := hs j h2 (-1) (.inr rfl)
      rw [show (-1 : ℝ) * ((j : ℝ) / 100) = -((j : ℝ) / 100) by ring] at this
      push Not at hv
      rcases this with h | h
      · rw [h]
      · rcases lt_abs.1 h with h | h <;> linarith
  · rcases g4 with g4 | g4
    · rw [g4]; push_cast; linarith [ht.2]
    · rw [← hG.nonpos]
      have hv : ¬ e < G ((i : ℝ) / 100) := by
        rw [← above_val e _ he, ← hF, g4]; simp
      have := hs i g2 1 (.inl rfl)
      rw [one_mul] at this
      push Not at hv
      rcases this with h | h
      · rw [h]
      · rcases lt_abs.1 h with h | h <;> linarith

theorem negative_val (v : ℝ) : negative (.val v) = true ↔ v < 0 := by simp [negative]
theorem positive_val (v : ℝ) : positive (.val v) = true ↔ 0 < v := by simp [positive]

/-- **C100 (a direction).** For a star-shaped star whose surface is displaced by at most 5, with enough turns of the bisection, the search finds a
displacement at which the enthalpy is 1 within ROUND_OFF_ERR, or which is within the tolerance of the surface; the residual is the value there. -/
theorem C100_direction (e tol : ℝ) (he : 0 < e) (maxIter : ℕ) (hm : 0 < maxIter) (hw : (10 : ℝ) / 2 ^ maxIter < tol - e) (F : ℝ → Eval ℝ)
    (G : ℝ → ℝ) (hF : ∀ x, F x = .val (G x)) (t : ℝ) (hG : StarShaped G t) (ht : |t| ≤ 5) (hs : Seen e G) (x0 : ℝ) :
    ∃ x, direction e tol maxIter F x0 = .ok (.at x (some (G x))) ∧ |x| ≤ 5 ∧ (|G x| < e ∨ |x - t| < tol) := by
  obtain ⟨h1, h2, h3, h4, h5, h6⟩ := C100_bracket e he F G hF t hG ht hs
  rw [direction]
  dsimp only
  generalize shrink e F 500 0 = a at *
  generalize expand e F 500 0 = b at *
  have ha := hG.nonneg.2 h1
  have hb := hG.nonpos.2 h2
  rw [if_neg (by rw [hF, negative_val]; linarith), if_neg (by rw [hF, positive_val]; linarith), hF a]
  dsimp only
  obtain ⟨o, ho, hst⟩ := C28_terminates e tol F a b x0 maxIter G (fun p _ => hF p) (mul_nonpos_of_nonneg_of_nonpos ha hb) hm (by
    refine lt_of_le_of_lt ?_ hw
    rw [abs_of_nonneg (by linarith)]
    gcongr
    linarith)
  obtain ⟨k1, k2, k3⟩ := C28_ok e tol he F G (fun x v h => by rw [hF] at h; exact (Eval.val.inj h).symm) a b hG.cont.continuousOn x0 1 maxIter o ho hst
  rw [ho]
  refine ⟨o.x, ?_, ?_, ?_⟩
  · show Res.ok _ = _
    dsimp only
    rw [if_neg (by rw [hst]; decide), k2]
  · rw [uIcc_of_le (by linarith)] at k1
    exact abs_le.2 ⟨by linarith [k1.1], by linarith [k1.2]⟩
  · rcases k3 with h | ⟨r, hr, hr0, hr1⟩
    · exact .inl h
    · right
      have : r = t := le_antisymm (hG.nonneg.1 hr0.ge) (hG.nonpos.1 hr0.le)
      rwa [← this]

/-- **C100 (the radius).** Where moreover the enthalpy is not within ROUND_OFF_ERR of 1 away from the surface, the radius found in the direction is within the
tolerance of the distance of the surface from the centre. -/
theorem C100_radius (e tol : ℝ) (he : 0 < e) (maxIter : ℕ) (hm : 0 < maxIter) (hw : (10 : ℝ) / 2 ^ maxIter < tol - e) (r : Ray)
    (R0 Rs : ℝ) (hN : r.N 0 * r.N 0 + r.N 1 * r.N 1 + r.N 2 * r.N 2 = 1) (hy : ∀ i, r.y i = R0 * r.N i) (hR : 0 ≤ Rs)
    (G : ℝ → ℝ) (hF : ∀ x, r.F x = .val (G x)) (hG : StarShaped G (Rs - R0)) (ht : |Rs - R0| ≤ 5) (hs : Seen e G)
    (steep : ∀ x, |G x| < e → |x - (Rs - R0)| < tol) (x0 : ℝ) :
    ∃ x, direction e tol maxIter r.F x0 = .ok (.at x (some (G x))) ∧ |Bhf.len (fun i => r.y i + r.N i * x) - Rs| < tol := by
  obtain ⟨x, h1, _, h3⟩ := C100_direction e tol he maxIter hm hw r.F G hF _ hG ht hs x0
  refine ⟨x, h1, ?_⟩
  have hx : |R0 + x - Rs| < tol := by
    rw [show R0 + x - Rs = x - (Rs - R0) by ring]
    rcases h3 with h | h
    · exact steep x h
    · exact h
  have hl : Bhf.len (fun i => r.y i + r.N i * x) = |R0 + x| := by
    rw [Bhf.len]
    rw [show (r.y 0 + r.N 0 * x) * (r.y 0 + r.N 0 * x) + (r.y 1 + r.N 1 * x) * (r.y 1 + r.N 1 * x) + (r.y 2 + r.N 2 * x) * (r.y 2 + r.N 2 * x) =
      (R0 + x) ^ 2 by rw [hy, hy, hy]; linear_combination (R0 + x) ^ 2 * hN]
    exact Real.sqrt_sq_eq_abs _
  rw [hl]
  refine lt_of_le_of_lt ?_ hx
  rw [show |R0 + x| - Rs = |R0 + x| - |Rs| by rw [abs_of_nonneg hR]]
  exact abs_abs_sub_abs_le _ _

/-- **C100 (no stop).** Where the enthalpy is a number everywhere, a direction never stops the program: the ends of the bracket have the signs the
bisection asks for. -/
theorem C100_nostop (e tol : ℝ) (maxIter : ℕ) (F : ℝ → Eval ℝ) (hF : ∀ x, F x ≠ .nan) (x0 : ℝ) : ∃ d, direction e tol maxIter F x0 = .ok d := by
  rw [direction]
  dsimp only
  generalize shrink e F 500 0 = a
  generalize expand e F 500 0 = b
  split
  · exact ⟨_, rfl⟩
  · rename_i h1
    split
    · exact ⟨_, rfl⟩
    · rename_i h2
      cases ha : F a with
      | nan => exact absurd ha (hF a)
      | interrupt => exact ⟨_, rfl⟩
      | val fa =>
        cases hb : F b with
        | nan => exact absurd hb (hF b)
        | interrupt => rw [hb] at h2; simp [positive] at h2
        | val fb =>
          rw [ha, negative_val] at h1
          rw [hb, positive_val] at h2
          dsimp only
          rw [bisect, if_neg (by simp), ha, hb]
          dsimp only
          rw [if_neg]
          · exact ⟨_, rfl⟩
          · push Not
            exact mul_nonpos_of_nonneg_of_nonpos (not_lt.1 h1) (not_lt.1 h2)

/-- **C100 (gap, violation).** A surface displaced inwards at which the enthalpy at the present surface is below 1 by no more than ROUND_OFF_ERR is reported as a star that
has shrunk too much, although the walk inwards has not taken a step. -/
theorem C100_gap_violation (e tol : ℝ) (he : 0 < e) (maxIter : ℕ) (F : ℝ → Eval ℝ) (v : ℝ) (h0 : F 0 = .val v) (h1 : -e ≤ v) (h2 : v < 0)
    (x0 : ℝ) : direction e tol maxIter F x0 = .ok .interrupted := by
  have ha : shrink e F 500 0 = 0 := by
    rw [shrink, if_neg]
    rw [h0, below_val e v he]
    exact not_lt.2 h1
  rw [direction]
  dsimp only
  rw [ha, h0, if_pos ((negative_val v).2 h2)]

/-- **C100 (slot, violation).** When the bisection runs out of turns the displacement used is the one of the direction before. -/
theorem C100_stale_violation : ∃ (e tol : ℝ) (maxIter : ℕ) (G : ℝ → ℝ), 0 < e ∧ StarShaped G (1 / 300) ∧ Seen e G ∧
    ∀ x0, direction e tol maxIter (fun x => .val (G x)) x0 = .ok (.at x0 (some (-(1 / 600)))) := by
  refine ⟨1 / 100000, 0, 1, fun x => 1 / 300 - x, by norm_num, ⟨by fun_prop, fun x h => by linarith, fun x h => by linarith⟩, ?_, ?_⟩
  · intro k hk s hs
    right
    rcases hs with rfl | rfl
    · rcases Nat.eq_zero_or_pos k with rfl | h
      · norm_num
      · have : (1 : ℝ) ≤ k := by exact_mod_cast h
        rw [lt_abs]; right; linarith
    · have : (0 : ℝ) ≤ k := by positivity
      rw [lt_abs]; left; linarith
  · intro x0
    have he : (0 : ℝ) < 1 / 100000 := by norm_num
    have ha : shrink (1 / 100000) (fun x : ℝ => .val (1 / 300 - x)) 500 0 = 0 := by
      rw [shrink, if_neg]
      rw [below_val _ _ he]; norm_num
    have hb : expand (1 / 100000) (fun x : ℝ => .val (1 / 300 - x)) 500 0 = 1 / 100 := by
      rw [expand, if_pos ((above_val _ _ he).2 (by norm_num)), expand, if_neg]
      · norm_num
      · rw [above_val _ _ he]; norm_num
    rw [direction]
    dsimp only
    rw [ha, hb, if_neg (by rw [negative_val]; norm_num), if_neg (by rw [positive_val]; norm_num)]
    rw [bisect, if_neg (by simp)]
    dsimp only
    rw [if_neg (by norm_num)]
    have h1 : Tol.eql (1 / 100000 : ℝ) (1 / 300 - (0 + 1 / 2 * (1 / 100 - 0))) 0 = false := by
      rw [Bool.eq_false_iff, ne_eq, (Tol.C13_meaning _ _ _ he).1]
      norm_num [abs_lt]
    have h2 : Tol.lss (1 / 100000 : ℝ) |1 / 2 * (1 / 100 - 0)| 0 = false := by
      rw [Bool.eq_false_iff, ne_eq, (Tol.C13_meaning _ _ _ he).2.1]
      norm_num [abs_of_pos]
    rw [bisectLoop]
    dsimp only
    rw [h1, h2, if_neg (by simp), if_neg (by norm_num), bisectLoop]
    norm_num [Res.map, Res.bind]
    intro h; cases h

end Elliptica.StarSurface
