import Verif.Model.Coord
import Verif.Props.Tol
import Mathlib.Tactic.FieldSimp
import Mathlib.Tactic.Ring
import Mathlib.Tactic.FinCases
import Mathlib.Tactic.LinearCombination
import Mathlib.Tactic.NormNum
import Mathlib.Data.Fintype.Basic
import Mathlib.Data.Fin.VecNotation
import Mathlib.Data.Finset.Max
/-!
Properties C21 (coordinate maps are inverse), C39 (the six sides), C40 (nodes at a point).
-/
namespace Elliptica.Coord
variable {K : Type} [Field K] [LinearOrder K] [IsStrictOrderedRing K]

theorem sgn_sq (s : Side) : (sgn s : K) * sgn s = 1 := by
  unfold sgn; split <;> simp

theorem sgn_ne (s : Side) : (sgn s : K) ≠ 0 := by
  unfold sgn; split <;> simp

/-- The Cartesian component across the side, relative to the centre of the patch. -/
def across (p : Patch K) (x : Fin 3 → K) : K := x (perm p.side).2.2.2 - p.c (perm p.side).2.2.2

/-- The patch is not degenerate at angular position (X0,X1): inner and outer surface are apart. -/
def NonDegenerate (L : Lib K) (p : Patch K) (X0 X1 : K) : Prop :=
  if linear p.type then x2 L p X0 X1 ≠ x1 L p X0 X1 else ratio L p X0 X1 ≠ 0 ∧ x1 L p X0 X1 ≠ 0

theorem all3 (P : Fin 3 → Prop) (h0 : P 0) (h1 : P 1) (h2 : P 2) : ∀ l, P l := by
  intro l
  match l with
  | 0 => exact h0
  | 1 => exact h1
  | 2 => exact h2

theorem fin3 (f g : Fin 3 → K) (h0 : f 0 = g 0) (h1 : f 1 = g 1) (h2 : f 2 = g 2) : f = g := by
  funext i; fin_cases i <;> assumption

/-- the three components of x_of_X by role -/
theorem xOfX_comp (L : Lib K) (p : Patch K) (X : Fin 3 → K) :
    let q := perm p.side
    let t := across p (xOfX L p X)
    xOfX L p X q.2.1 - p.c q.2.1 = sgn p.side * t * X 0 ∧
    xOfX L p X q.2.2.1 - p.c q.2.2.1 = sgn p.side * t * X 1 ∧
    t = if linear p.type then x1 L p (X 0) (X 1) + (x2 L p (X 0) (X 1) - x1 L p (X 0) (X 1)) * X 2
        else x1 L p (X 0) (X 1) / (1 - ratio L p (X 0) (X 1) * X 2) := by
  unfold across xOfX
  rcases p with ⟨s, ty, _, _, _, _, _, _, _, _, _⟩
  cases s <;> simp [perm]

theorem rawX_comp (L : Lib K) (p : Patch K) (x : Fin 3 → K) :
    let q := perm p.side
    let X := rawX L p x
    X 0 = sgn p.side * (x q.2.1 - p.c q.2.1) / across p x ∧
    X 1 = sgn p.side * (x q.2.2.1 - p.c q.2.2.1) / across p x ∧
    X 2 = if linear p.type then (across p x - x1 L p (X 0) (X 1)) / (x2 L p (X 0) (X 1) - x1 L p (X 0) (X 1))
      else (1 - x1 L p (X 0) (X 1) / across p x) / ratio L p (X 0) (X 1) := by
  unfold across rawX
  rcases p with ⟨s, ty, _, _, _, _, _, _, _, _, _⟩
  cases s <;> simp [perm]

theorem perm_cover (s : Side) (i : Fin 3) :
    i = (perm s).2.1 ∨ i = (perm s).2.2.1 ∨ i = (perm s).2.2.2 := by
  cases s <;> revert i <;> decide

/-- C21: patch coordinates to Cartesian and back is the identity, for every side, every patch type, every surface
function, wherever the patch is not degenerate and the point is not in the central plane. -/
theorem C21_there_and_back (L : Lib K) (p : Patch K) (X : Fin 3 → K) (hnd : NonDegenerate L p (X 0) (X 1))
    (hx : across p (xOfX L p X) ≠ 0) : rawX L p (xOfX L p X) = X := by
  obtain ⟨ha, hb, hc⟩ := xOfX_comp L p X
  obtain ⟨r0, r1, r2⟩ := rawX_comp L p (xOfX L p X)
  have hs := sgn_sq (K := K) p.side
  have e0 : rawX L p (xOfX L p X) 0 = X 0 := by
    rw [r0, ha]; field_simp; linear_combination X 0 * hs
  have e1 : rawX L p (xOfX L p X) 1 = X 1 := by
    rw [r1, hb]; field_simp; linear_combination X 1 * hs
  have e2 : rawX L p (xOfX L p X) 2 = X 2 := by
    rw [r2, e0, e1]
    unfold NonDegenerate at hnd
    by_cases hl : linear p.type = true
    · rw [if_pos hl] at hc hnd ⊢
      have : x2 L p (X 0) (X 1) - x1 L p (X 0) (X 1) ≠ 0 := sub_ne_zero.2 hnd
      rw [hc]; field_simp; ring
    · rw [if_neg hl] at hc hnd ⊢
      obtain ⟨h1, h2⟩ := hnd
      rw [hc] at hx
      have h3 : 1 - ratio L p (X 0) (X 1) * X 2 ≠ 0 := fun h => hx (by rw [h, div_zero])
      rw [hc]; field_simp; ring
  exact fin3 _ _ e0 e1 e2

/-- C21: Cartesian to patch coordinates and back is the identity. -/
theorem C21_back_and_there (L : Lib K) (p : Patch K) (x : Fin 3 → K)
    (hnd : NonDegenerate L p (rawX L p x 0) (rawX L p x 1)) (hx : across p x ≠ 0) :
    xOfX L p (rawX L p x) = x := by
  obtain ⟨ha, hb, hc⟩ := xOfX_comp L p (rawX L p x)
  obtain ⟨r0, r1, r2⟩ := rawX_comp L p x
  have hs := sgn_sq (K := K) p.side
  have et : across p (xOfX L p (rawX L p x)) = across p x := by
    rw [hc]
    unfold NonDegenerate at hnd
    by_cases hl : linear p.type = true
    · rw [if_pos hl] at r2 hnd ⊢
      have : x2 L p (rawX L p x 0) (rawX L p x 1) - x1 L p (rawX L p x 0) (rawX L p x 1) ≠ 0 := sub_ne_zero.2 hnd
      rw [r2]; field_simp; ring
    · rw [if_neg hl] at r2 hnd ⊢
      obtain ⟨h1, h2⟩ := hnd
      rw [r2]
      have : 1 - ratio L p (rawX L p x 0) (rawX L p x 1) *
          ((1 - x1 L p (rawX L p x 0) (rawX L p x 1) / across p x) / ratio L p (rawX L p x 0) (rawX L p x 1)) =
          x1 L p (rawX L p x 0) (rawX L p x 1) / across p x := by field_simp; ring
      rw [this]; field_simp
  rw [et] at ha hb
  funext i
  rcases perm_cover p.side i with rfl | rfl | rfl
  · have : xOfX L p (rawX L p x) (perm p.side).2.1 - p.c (perm p.side).2.1 =
        x (perm p.side).2.1 - p.c (perm p.side).2.1 := by
      rw [ha, r0]; field_simp; linear_combination (x (perm p.side).2.1 - p.c (perm p.side).2.1) * hs
    linear_combination this
  · have : xOfX L p (rawX L p x) (perm p.side).2.2.1 - p.c (perm p.side).2.2.1 =
        x (perm p.side).2.2.1 - p.c (perm p.side).2.2.1 := by
      rw [hb, r1]; field_simp; linear_combination (x (perm p.side).2.2.1 - p.c (perm p.side).2.2.1) * hs
    linear_combination this
  · unfold across at et; linear_combination et

/-- The geometry the grid builder sets up at angular position (X0,X1): both surfaces lie on the side's own half space
and the inner one is strictly inside; for the compactified types this reads 0 < ratio < 1. -/
def Geometric (L : Lib K) (p : Patch K) (X0 X1 : K) : Prop :=
  0 < sgn p.side * x1 L p X0 X1 ∧
  (if linear p.type then sgn p.side * x1 L p X0 X1 < sgn p.side * x2 L p X0 X1
   else 0 < ratio L p X0 X1 ∧ ratio L p X0 X1 < 1)

/-- C21, on the patch itself (0 ≤ X[2] ≤ 1): the maps are inverse, and the point lies between the two surfaces, on the
side's half space, at the angular position X[0], X[1]. -/
theorem C21_geometric (L : Lib K) (p : Patch K) (X : Fin 3 → K) (hg : Geometric L p (X 0) (X 1))
    (h0 : 0 ≤ X 2) (h1 : X 2 ≤ 1) :
    rawX L p (xOfX L p X) = X ∧
    sgn p.side * x1 L p (X 0) (X 1) ≤ sgn p.side * across p (xOfX L p X) ∧
    (linear p.type = true → sgn p.side * across p (xOfX L p X) ≤ sgn p.side * x2 L p (X 0) (X 1)) := by
  obtain ⟨ha, hb, hc⟩ := xOfX_comp L p X
  have hs := sgn_sq (K := K) p.side
  have hle : sgn p.side * x1 L p (X 0) (X 1) ≤ sgn p.side * across p (xOfX L p X) ∧
    (linear p.type = true → sgn p.side * across p (xOfX L p X) ≤ sgn p.side * x2 L p (X 0) (X 1)) := by
    rw [hc]
    obtain ⟨hp, hq⟩ := hg
    by_cases hl : linear p.type = true
    · rw [if_pos hl] at hq ⊢
      refine ⟨?_, fun _ => ?_⟩
      · nlinarith
      · nlinarith
    · rw [if_neg hl] at hq ⊢
      refine ⟨?_, fun h => absurd h hl⟩
      obtain ⟨q1, q2⟩ := hq
      have hd : 0 < 1 - ratio L p (X 0) (X 1) * X 2 := by nlinarith
      have hd1 : 1 - ratio L p (X 0) (X 1) * X 2 ≤ 1 := by nlinarith
      rw [← mul_div_assoc, le_div_iff₀ hd]
      nlinarith
  refine ⟨?_, hle⟩
  have hpos : 0 < sgn p.side * across p (xOfX L p X) := lt_of_lt_of_le hg.1 hle.1
  refine C21_there_and_back L p X ?_ ?_
  · unfold NonDegenerate
    obtain ⟨hp, hq⟩ := hg
    by_cases hl : linear p.type = true
    · rw [if_pos hl] at hq ⊢
      intro h; rw [h] at hq; exact lt_irrefl _ hq
    · rw [if_neg hl] at hq ⊢
      exact ⟨ne_of_gt hq.1, fun h => by rw [h, mul_zero] at hp; exact lt_irrefl _ hp⟩
  · intro h; rw [h, mul_zero] at hpos; exact lt_irrefl _ hpos

/-! ### acceptance -/

/-- a coordinate that is at a boundary value or at least the round-off away from both is not moved -/
def Clear (e mn mx v : K) : Prop := (v = mn ∨ e ≤ |v - mn|) ∧ (v = mx ∨ e ≤ |v - mx|)

theorem snap_clear (e mn mx v : K) (he : 0 < e) (h : Clear e mn mx v) : snap e mn mx v = v := by
  obtain ⟨h1, h2⟩ := h
  have key : ∀ w : K, (v = w ∨ e ≤ |v - w|) → (if Tol.eql e v w then w else v) = v := by
    rintro w (rfl | h)
    · split <;> rfl
    · rw [if_neg]
      unfold Tol.eql
      simp only [Bool.and_eq_true, decide_eq_true_eq, not_and, gt_iff_lt, not_lt]
      intro h3
      rcases le_abs.1 h with h | h <;> linarith
  unfold snap
  dsimp only
  rw [key mx h2, key mn h1]

/-- snapping moves a coordinate by less than the round-off, onto a boundary value or not at all -/
theorem snap_near (e mn mx v : K) (he : 0 < e) : |snap e mn mx v - v| < 2 * e ∧
    (snap e mn mx v = v ∨ snap e mn mx v = mn ∨ snap e mn mx v = mx) := by
  have key : ∀ v w : K, |(if Tol.eql e v w then w else v) - v| < e ∧
      ((if Tol.eql e v w then w else v) = v ∨ (if Tol.eql e v w then w else v) = w) := by
    intro v w
    by_cases h : Tol.eql e v w = true
    · rw [if_pos h]
      unfold Tol.eql at h
      simp only [Bool.and_eq_true, decide_eq_true_eq, gt_iff_lt] at h
      exact ⟨by rw [abs_lt]; constructor <;> linarith, .inr rfl⟩
    · rw [if_neg h]; exact ⟨by simpa using he, .inl rfl⟩
  unfold snap
  dsimp only
  obtain ⟨a1, a2⟩ := key v mx
  generalize (if Tol.eql e v mx = true then mx else v) = w at *
  obtain ⟨b1, b2⟩ := key w mn
  generalize (if Tol.eql e w mn = true then mn else w) = u at *
  refine ⟨?_, ?_⟩
  · rw [abs_lt] at *; constructor <;> linarith
  · rcases b2 with rfl | rfl
    · rcases a2 with h | h <;> simp [h]
    · simp

theorem push2_id (p : Patch K) (X : Fin 3 → K) (h1 : p.mn 2 ≤ X 2) (h2 : X 2 ≤ p.mx 2) : push2 p X = X := by
  funext l
  unfold push2
  by_cases hl : l = 2
  · subst hl
    simp only [if_true, gt_iff_lt, not_lt.2 h2, if_false, not_lt.2 h1]
  · rw [if_neg hl]

theorem isInside_of_box (h : K) (hh : 0 < h) (X mn mx : Fin 3 → K) (hb : ∀ l, mn l ≤ X l ∧ X l ≤ mx l)
    (hne : ∀ l, X l ≠ mx l - h ∧ X l ≠ mn l + h) : Tol.isInside h X mn mx = true := by
  have a : ∀ l, Tol.lssEql h (X l) (mx l) = true := fun l => by
    rw [(Tol.C13_meaning h _ _ hh).2.2.2.1]; exact ⟨by linarith [(hb l).2], fun hc => (hne l).1 (by linarith)⟩
  have b : ∀ l, Tol.grtEql h (X l) (mn l) = true := fun l => by
    rw [(Tol.C13_meaning h _ _ hh).2.2.2.2]; exact ⟨by linarith [(hb l).1], fun hc => (hne l).2 (by linarith)⟩
  unfold Tol.isInside
  simp [a, b]

/-- C21 (completeness of the test): a Cartesian point whose patch coordinates lie in the box of the patch, off the
round-off zone at its walls, is accepted and gets exactly those coordinates - for every precision factor. -/
theorem C21_accepts (L : Lib K) (e eps : K) (nrm : (Fin 3 → K) → K) (dst : (Fin 3 → K) → (Fin 3 → K) → K)
    (p : Patch K) (cart : Fin 3 → K) (he : 0 < e) (heps : 0 < eps) (hd : ∀ x, dst x x = 0)
    (hnd : NonDegenerate L p (rawX L p cart 0) (rawX L p cart 1)) (hx : across p cart ≠ 0)
    (hbox : ∀ l, p.mn l ≤ rawX L p cart l ∧ rawX L p cart l ≤ p.mx l)
    (hclear : ∀ l, Clear e (p.mn l) (p.mx l) (rawX L p cart l))
    (hne : ∀ l, rawX L p cart l ≠ p.mx l - eps ∧ rawX L p cart l ≠ p.mn l + eps) :
    XOfxCS L e eps nrm dst p cart = some (rawX L p cart) := by
  have hadj : adjust e p (rawX L p cart) = rawX L p cart := by
    funext l; exact snap_clear _ _ _ _ he (hclear l)
  have hin := isInside_of_box eps heps _ _ _ hbox hne
  unfold XOfxCS
  dsimp only
  rw [hadj, if_neg (by simp [hin]), C21_back_and_there L p cart hnd hx, hd, zero_div, if_pos,
    push2_id p _ (hbox 2).1 (hbox 2).2]
  exact (Tol.C13_refl_mono e 0 0 0 he).1

theorem scale_eq (u v : K) : scale u v = max 1 (max u v) := by
  have : (if u > v then u else v) = max u v := by
    split
    · rename_i h; exact (max_eq_left (le_of_lt h)).symm
    · rename_i h; exact (max_eq_right (not_lt.1 h)).symm
  unfold scale
  dsimp only
  rw [this]
  split
  · rename_i h; exact (max_eq_left (le_of_lt h)).symm
  · rename_i h; exact (max_eq_right (not_lt.1 h)).symm

/-- C21 (soundness of the test): when a point is accepted, its coordinates are inside the box up to the tolerance
(the third one exactly), and the Cartesian point of the tested coordinates is the given point up to round-off,
relative to the larger of the two radii when that exceeds 1. -/
theorem C21_sound (L : Lib K) (e eps : K) (nrm : (Fin 3 → K) → K) (dst : (Fin 3 → K) → (Fin 3 → K) → K)
    (p : Patch K) (cart X : Fin 3 → K) (he : 0 < e) (hbox2 : p.mn 2 ≤ p.mx 2) (heps : 0 < eps)
    (h : XOfxCS L e eps nrm dst p cart = some X) :
    (∀ l, p.mn l - eps < X l ∧ X l < p.mx l + eps) ∧ (p.mn 2 ≤ X 2 ∧ X 2 ≤ p.mx 2) ∧
    (∃ Y : Fin 3 → K, (Y 0 = X 0 ∧ Y 1 = X 1 ∧ |X 2 - Y 2| < eps) ∧ (∀ l, |Y l - rawX L p cart l| < 2 * e) ∧
      |dst cart (xOfX L p Y)| < e * max 1 (max (nrm cart) (nrm (xOfX L p Y)))) := by
  unfold XOfxCS at h
  dsimp only at h
  split at h
  · cases h
  · rename_i hin
    split at h
    · rename_i heq
      cases h
      simp only [not_not] at hin
      have hbnd : ∀ l, p.mn l - eps < adjust e p (rawX L p cart) l ∧
          adjust e p (rawX L p cart) l < p.mx l + eps := by
        unfold Tol.isInside at hin
        simp only [Bool.and_eq_true] at hin
        obtain ⟨⟨⟨⟨⟨a, b⟩, c⟩, d⟩, f⟩, g⟩ := hin
        have u := fun x y => ((Tol.C13_meaning eps x y heps).2.2.2.1)
        have v := fun x y => ((Tol.C13_meaning eps x y heps).2.2.2.2)
        rw [u] at a c f; rw [v] at b d g
        refine all3 _ ?_ ?_ ?_
        · exact ⟨by have := b.1; linarith, by have := a.1; linarith⟩
        · exact ⟨by have := d.1; linarith, by have := c.1; linarith⟩
        · exact ⟨by have := g.1; linarith, by have := f.1; linarith⟩
      generalize hY : adjust e p (rawX L p cart) = Y at *
      have h2 : p.mn 2 ≤ push2 p Y 2 ∧ push2 p Y 2 ≤ p.mx 2 ∧ |push2 p Y 2 - Y 2| < eps := by
        have hb2 := hbnd 2
        unfold push2
        simp only [if_true, gt_iff_lt]
        by_cases h1 : p.mx 2 < Y 2
        · rw [if_pos h1, if_neg (not_lt.2 hbox2)]
          exact ⟨hbox2, le_refl _, by rw [abs_lt]; constructor <;> linarith [hb2.1, hb2.2]⟩
        · rw [if_neg h1]
          by_cases h3 : Y 2 < p.mn 2
          · rw [if_pos h3]
            exact ⟨le_refl _, hbox2, by rw [abs_lt]; constructor <;> linarith [hb2.1, hb2.2]⟩
          · rw [if_neg h3]; exact ⟨not_lt.1 h3, not_lt.1 h1, by simpa using heps⟩
      have hp01 : push2 p Y 0 = Y 0 ∧ push2 p Y 1 = Y 1 := ⟨by simp [push2], by simp [push2]⟩
      refine ⟨?_, ⟨h2.1, h2.2.1⟩, Y, ⟨hp01.1.symm, hp01.2.symm, h2.2.2⟩, ?_, ?_⟩
      · refine all3 _ ?_ ?_ ?_
        · rw [hp01.1]; exact hbnd 0
        · rw [hp01.2]; exact hbnd 1
        · exact ⟨by have := h2.1; linarith, by have := h2.2.1; linarith⟩
      · intro l
        rw [← hY]; exact (snap_near e _ _ _ he).1
      · unfold Tol.eql at heq
        simp only [Bool.and_eq_true, decide_eq_true_eq, gt_iff_lt, zero_add, zero_sub] at heq
        have hsc := scale_eq (nrm cart) (nrm (xOfX L p Y))
        rw [hsc] at heq
        have hpos : 0 < max 1 (max (nrm cart) (nrm (xOfX L p Y))) := lt_of_lt_of_le one_pos (le_max_left _ _)
        rw [div_lt_iff₀ hpos, lt_div_iff₀ hpos] at heq
        rw [abs_lt]; constructor <;> linarith
    · cases h

/-- C21 (the other test): patch coordinates in the box, off the round-off zone, on a non-degenerate patch always pass
the test of the map to Cartesian coordinates. -/
theorem C21_xOfX_ok (L : Lib K) (e : K) (dst : (Fin 3 → K) → (Fin 3 → K) → K)
    (p : Patch K) (X : Fin 3 → K) (he : 0 < e) (hd : ∀ x, dst x x = 0)
    (hnd : NonDegenerate L p (X 0) (X 1)) (hx : across p (xOfX L p X) ≠ 0)
    (hbox : p.mn 2 ≤ X 2 ∧ X 2 ≤ p.mx 2) (hclear : ∀ l, Clear e (p.mn l) (p.mx l) (X l)) :
    xOfXCS L e dst p X = some (xOfX L p X) := by
  have hadj : adjust e p X = X := by
    funext l; exact snap_clear _ _ _ _ he (hclear l)
  unfold xOfXCS
  dsimp only
  rw [C21_there_and_back L p X hnd hx, hadj, push2_id p _ hbox.1 hbox.2, hd, if_pos]
  exact (Tol.C13_refl_mono e 0 0 0 he).1

/-- C21 for Cartesian patches: a point is accepted iff it is in the box up to the tolerance, and its coordinates are
its own, moved by less than twice the round-off and only onto walls. -/
theorem C21_cartesian (e h : K) (mn mx x : Fin 3 → K) (he : 0 < e) :
    (XOfxCart e h mn mx x ≠ none ↔ Tol.isInside h x mn mx = true) ∧
    ∀ X, XOfxCart e h mn mx x = some X →
      ∀ l, |X l - x l| < 2 * e ∧ (X l = x l ∨ X l = mn l ∨ X l = mx l) := by
  unfold XOfxCart
  by_cases hi : Tol.isInside h x mn mx = true
  · rw [if_pos hi]
    refine ⟨by simp [hi], ?_⟩
    intro X hX l
    cases hX
    exact snap_near e _ _ _ he
  · rw [if_neg hi]
    exact ⟨by simp [hi], by simp⟩

/-! concrete: an outermost patch on the left side and a linear patch on the down side, over the rationals -/
def exPatch : Patch ℚ :=
  { side := .left, type := .otScs, R1f := fun _ _ => 2, R2f := fun _ _ => 5, xc1 := 1, xc2 := 1, R1 := 1, R2 := 1,
    c := ![1, 2, 3], mn := ![-1, -1, 0], mx := ![1, 1, 1] }
def exLib : Lib ℚ := ⟨1, fun x => x⟩
example : Geometric exLib exPatch (1/2) (1/4) := by unfold Geometric; decide +kernel
example : XOfxCS exLib (1/10^12) (1/10^8) (fun x => |x 0| + |x 1| + |x 2|)
    (fun x y => |x 0 - y 0| + |x 1 - y 1| + |x 2 - y 2|) exPatch
    (xOfX exLib exPatch ![1/2, 1/4, 1/3]) = some ![1/2, 1/4, 1/3] := by decide +kernel

/-- Specification: what bounds a patch from inside and outside: a (star-shaped) surface at distance `r` from the centre of
the patch, in the direction considered, or a plane at the given (signed) Cartesian position. -/
inductive Surface (K : Type) where
  | round (r : K)
  | flat (v : K)

/-- a Cartesian point lies on the surface; a round surface with `0 < r` is met on the side's own half space -/
def OnSurface (p : Patch K) (x : Fin 3 → K) : Surface K → Prop
  | .round r => (x 0 - p.c 0) ^ 2 + (x 1 - p.c 1) ^ 2 + (x 2 - p.c 2) ^ 2 = r ^ 2 ∧ (0 < r → 0 < sgn p.side * across p x)
  | .flat v => across p x = v

/-- where the patch types start, cubed_spherical_coordinate.c (comments of the types): star surface R1, or the plane xc1 -/
def inner (L : Lib K) (p : Patch K) (X0 X1 : K) : Surface K :=
  match p.type with
  | .obScs | .otScs => if p.xc1 = L.big then .round (p.R1f X0 X1) else .flat (sgn p.side * p.xc1)
  | .nsCs | .otT1 => .flat p.xc1
  | .srCs => .round (p.R1f X0 X1)
  | .otT2 => .round p.R1

/-- where they end -/
def outer (L : Lib K) (p : Patch K) (X0 X1 : K) : Surface K :=
  match p.type with
  | .obScs => if p.xc2 = L.big then .round (p.R2f X0 X1) else .flat (sgn p.side * p.xc2)
  | .otScs | .nsCs => .round (p.R2f X0 X1)
  | .srCs => .flat p.xc2
  | .otT1 | .otT2 => .round p.R2

theorem dist_across (L : Lib K) (p : Patch K) (X : Fin 3 → K) :
    (xOfX L p X 0 - p.c 0) ^ 2 + (xOfX L p X 1 - p.c 1) ^ 2 + (xOfX L p X 2 - p.c 2) ^ 2 =
      across p (xOfX L p X) ^ 2 * (1 + X 0 * X 0 + X 1 * X 1) := by
  have hs := sgn_sq (K := K) p.side
  obtain ⟨ha, hb, -⟩ := xOfX_comp L p X
  have e : (xOfX L p X 0 - p.c 0) ^ 2 + (xOfX L p X 1 - p.c 1) ^ 2 + (xOfX L p X 2 - p.c 2) ^ 2 =
      (xOfX L p X (perm p.side).2.1 - p.c (perm p.side).2.1) ^ 2 +
      (xOfX L p X (perm p.side).2.2.1 - p.c (perm p.side).2.2.1) ^ 2 + across p (xOfX L p X) ^ 2 := by
    unfold across
    cases p.side <;> simp only [perm] <;> ring
  rw [e, ha, hb]
  linear_combination across p (xOfX L p X) ^ 2 * (X 0 ^ 2 + X 1 ^ 2) * hs

theorem onSurface_round (L : Lib K) (p : Patch K) (X : Fin 3 → K) (r : K)
    (hd0 : 0 < dd L (X 0) (X 1)) (hd : dd L (X 0) (X 1) * dd L (X 0) (X 1) = 1 + X 0 * X 0 + X 1 * X 1)
    (h : across p (xOfX L p X) * dd L (X 0) (X 1) = sgn p.side * r) : OnSurface p (xOfX L p X) (.round r) := by
  have hs := sgn_sq (K := K) p.side
  refine ⟨?_, fun hr => ?_⟩
  · rw [dist_across, ← hd]
    linear_combination (across p (xOfX L p X) * dd L (X 0) (X 1) + sgn p.side * r) * h + r ^ 2 * hs
  · have : (sgn p.side * across p (xOfX L p X)) * dd L (X 0) (X 1) = r := by
      linear_combination sgn p.side * h + r * hs
    by_contra hn
    push Not at hn
    have := mul_nonpos_of_nonpos_of_nonneg hn hd0.le
    linarith

/-- C21, the surfaces: `X[2] = 0` is the inner boundary of the patch and `X[2] = 1` the outer one - at distance R1 (R2)
from the patch's centre, on the side's own half space, where the surface is round, on the plane where it is flat.  (For
an outermost patch that starts on a plane, the radius function the grid builder stores is that of the plane.) -/
theorem C21_surfaces (L : Lib K) (p : Patch K) (X : Fin 3 → K)
    (hd0 : 0 < dd L (X 0) (X 1)) (hd : dd L (X 0) (X 1) * dd L (X 0) (X 1) = 1 + X 0 * X 0 + X 1 * X 1)
    (hr1 : p.type = .otScs → p.R1f (X 0) (X 1) ≠ 0 ∧ p.R2f (X 0) (X 1) ≠ 0)
    (hr2 : p.type = .otT1 → p.xc1 ≠ 0 ∧ p.R2 ≠ 0) (hr3 : p.type = .otT2 → p.R1 ≠ 0 ∧ p.R2 ≠ 0)
    (hflat : p.type = .otScs → p.xc1 ≠ L.big → p.R1f (X 0) (X 1) = p.xc1 * dd L (X 0) (X 1)) :
    (X 2 = 0 → OnSurface p (xOfX L p X) (inner L p (X 0) (X 1))) ∧
    (X 2 = 1 → OnSurface p (xOfX L p X) (outer L p (X 0) (X 1))) := by
  have hs := sgn_sq (K := K) p.side
  have hsn := sgn_ne (K := K) p.side
  have hd' : dd L (X 0) (X 1) ≠ 0 := hd0.ne'
  obtain ⟨-, -, hc⟩ := xOfX_comp L p X
  constructor
  · intro h2
    rw [h2] at hc
    simp only [mul_zero, add_zero, sub_zero, div_one, ite_self] at hc
    rcases hty : p.type <;> simp only [inner, hty, x1] at hc ⊢
    · split at hc <;> rename_i hx
      · rw [if_pos hx]; apply onSurface_round _ _ _ _ hd0 hd; rw [hc]; field_simp
      · rw [if_neg hx]; exact hc
    · split at hc <;> rename_i hx
      · rw [if_pos hx]; apply onSurface_round _ _ _ _ hd0 hd; rw [hc]; field_simp
      · rw [if_neg hx]; exact hc
    · exact hc
    · apply onSurface_round _ _ _ _ hd0 hd; rw [hc]; field_simp
    · exact hc
    · apply onSurface_round _ _ _ _ hd0 hd; rw [hc]; field_simp
  · intro h2
    rw [h2] at hc
    rcases hty : p.type <;> simp only [outer, hty, x1, x2, ratio, linear, mul_one, if_true, Bool.false_eq_true, if_false] at hc ⊢
    · split at hc <;> rename_i hx <;> split at hc <;> rename_i hy
      all_goals first
        | (rw [if_pos hy]; apply onSurface_round _ _ _ _ hd0 hd; rw [hc]; field_simp; ring)
        | (rw [if_neg hy]; simp only [OnSurface]; rw [hc]; ring)
    · obtain ⟨h1, h3⟩ := hr1 hty
      apply onSurface_round _ _ _ _ hd0 hd; rw [hc]
      have hq : 1 - (1 - p.R1f (X 0) (X 1) / p.R2f (X 0) (X 1)) = p.R1f (X 0) (X 1) / p.R2f (X 0) (X 1) := by ring
      rw [hq]
      split <;> rename_i hx
      · field_simp
      · have h5 : p.xc1 ≠ 0 := fun h => h1 (by rw [hflat hty hx, h, zero_mul])
        rw [hflat hty hx]; field_simp
    · apply onSurface_round _ _ _ _ hd0 hd; rw [hc]; field_simp; ring
    · simp only [OnSurface]; rw [hc]; ring
    · obtain ⟨h5, h6⟩ := hr2 hty
      apply onSurface_round _ _ _ _ hd0 hd; rw [hc]
      have hq : 1 - (1 - sgn p.side * dd L (X 0) (X 1) * p.xc1 / p.R2) = sgn p.side * dd L (X 0) (X 1) * p.xc1 / p.R2 := by ring
      rw [hq]
      field_simp; linear_combination -hs
    · obtain ⟨h5, h6⟩ := hr3 hty
      apply onSurface_round _ _ _ _ hd0 hd; rw [hc]
      have hq : 1 - (1 - p.R1 / p.R2) = p.R1 / p.R2 := by ring
      rw [hq]
      field_simp
/-- satisfiable: an outermost patch between two round surfaces, at an angular position with a rational `d` -/
def exLib2 : Lib ℚ := ⟨1, fun x => if x = 25/16 then 5/4 else 0⟩
example : (0 : ℚ) < dd exLib2 (3/4) 0 ∧ dd exLib2 (3/4) 0 * dd exLib2 (3/4) 0 = 1 + (3/4) * (3/4) + 0 * 0 ∧
    exPatch.type = .otScs ∧ exPatch.R1f (3/4) 0 ≠ 0 ∧ exPatch.R2f (3/4) 0 ≠ 0 ∧ exPatch.xc1 = exLib2.big := by
  decide +kernel

/-! ### C39: the six sides -/

/-- A direction (relative to the centre) belongs to a side when its angular coordinates X[0], X[1] are in [-1,1] on the
side's own half space. -/
def OnSide (s : Side) (v : Fin 3 → K) : Prop :=
  0 < sgn s * v (perm s).2.2.2 ∧
  |sgn s * v (perm s).2.1 / v (perm s).2.2.2| ≤ 1 ∧ |sgn s * v (perm s).2.2.1 / v (perm s).2.2.2| ≤ 1

/-- strictly inside the side -/
def StrictlyOnSide (s : Side) (v : Fin 3 → K) : Prop :=
  0 < sgn s * v (perm s).2.2.2 ∧
  |sgn s * v (perm s).2.1 / v (perm s).2.2.2| < 1 ∧ |sgn s * v (perm s).2.2.1 / v (perm s).2.2.2| < 1

theorem side_abs (s : Side) (u w : K) (hw : 0 < sgn s * w) : |sgn s * u / w| = |u| / (sgn s * w) := by
  have hw0 : w ≠ 0 := fun h => by rw [h, mul_zero] at hw; exact lt_irrefl _ hw
  have hs := sgn_sq (K := K) s
  have : sgn s * u / w = u / (sgn s * w) := by
    have := sgn_ne (K := K) s
    field_simp; linear_combination u * hs
  rw [this, abs_div, abs_of_pos hw]

/-- C39: every point other than the centre lies on at least one of the six sides. -/
theorem C39_cover (v : Fin 3 → K) (hv : v ≠ 0) : ∃ s, OnSide s v := by
  have key : ∀ s : Side, (0 < sgn s * v (perm s).2.2.2) → |v (perm s).2.1| ≤ sgn s * v (perm s).2.2.2 →
      |v (perm s).2.2.1| ≤ sgn s * v (perm s).2.2.2 → OnSide s v := by
    intro s h1 h2 h3
    refine ⟨h1, ?_, ?_⟩
    · rw [side_abs _ _ _ h1, div_le_one h1]; exact h2
    · rw [side_abs _ _ _ h1, div_le_one h1]; exact h3
  have hpos : ∀ i : Fin 3, (∀ j, |v j| ≤ |v i|) → v i ≠ 0 := by
    intro i h h0
    apply hv
    funext j
    have := h j
    rw [h0, abs_zero] at this
    simpa using le_antisymm this (abs_nonneg _)
  obtain ⟨i, -, hi⟩ := Finset.exists_max_image (Finset.univ : Finset (Fin 3)) (fun j => |v j|) ⟨0, Finset.mem_univ _⟩
  have hi' : ∀ j, |v j| ≤ |v i| := fun j => hi j (Finset.mem_univ _)
  have h0 := hpos i hi'
  rcases lt_or_gt_of_ne h0 with hneg | hp
  · have hab : ∀ j, |v j| ≤ -v i := fun j => by rw [← abs_of_neg hneg]; exact hi' j
    fin_cases i
    · exact ⟨.back, key .back (by simpa [sgn, perm] using hneg) (by simpa [sgn, perm] using hab 2) (by simpa [sgn, perm] using hab 1)⟩
    · exact ⟨.left, key .left (by simpa [sgn, perm] using hneg) (by simpa [sgn, perm] using hab 0) (by simpa [sgn, perm] using hab 2)⟩
    · exact ⟨.down, key .down (by simpa [sgn, perm] using hneg) (by simpa [sgn, perm] using hab 1) (by simpa [sgn, perm] using hab 0)⟩
  · have hab : ∀ j, |v j| ≤ v i := fun j => by
      have := hi' j
      rwa [abs_of_pos hp] at this
    fin_cases i
    · exact ⟨.front, key .front (by simpa [sgn, perm] using hp) (by simpa [sgn, perm] using hab 1) (by simpa [sgn, perm] using hab 2)⟩
    · exact ⟨.right, key .right (by simpa [sgn, perm] using hp) (by simpa [sgn, perm] using hab 2) (by simpa [sgn, perm] using hab 0)⟩
    · exact ⟨.up, key .up (by simpa [sgn, perm] using hp) (by simpa [sgn, perm] using hab 0) (by simpa [sgn, perm] using hab 1)⟩

/-- C39: a point strictly inside one side is on no other side. -/
theorem C39_disjoint (s t : Side) (v : Fin 3 → K) (hs : StrictlyOnSide s v) (ht : OnSide t v) : s = t := by
  obtain ⟨a1, a2, a3⟩ := hs
  obtain ⟨b1, b2, b3⟩ := ht
  rw [side_abs _ _ _ a1, div_lt_one a1] at a2 a3
  rw [side_abs _ _ _ b1, div_le_one b1] at b2 b3
  rw [abs_lt] at a2 a3
  rw [abs_le] at b2 b3
  obtain ⟨a2, a2'⟩ := a2
  obtain ⟨a3, a3'⟩ := a3
  obtain ⟨b2, b2'⟩ := b2
  obtain ⟨b3, b3'⟩ := b3
  cases s <;> cases t <;> first | rfl | (exfalso; simp [sgn, perm] at *; linarith)

/-- C39: a point a patch accepts (third coordinate between 0 and 1, angular coordinates in [-1,1]) does lie on the side
of that patch - never on the opposite one. -/
theorem C39_accepted_side (L : Lib K) (p : Patch K) (x : Fin 3 → K)
    (hg : Geometric L p (rawX L p x 0) (rawX L p x 1)) (hx : across p x ≠ 0)
    (h0 : 0 ≤ rawX L p x 2) (h1 : rawX L p x 2 ≤ 1) (ha : |rawX L p x 0| ≤ 1) (hb : |rawX L p x 1| ≤ 1) :
    OnSide p.side (fun l => x l - p.c l) := by
  obtain ⟨r0, r1, r2⟩ := rawX_comp L p x
  have hg' := C21_geometric L p (rawX L p x) hg h0 h1
  have hnd : NonDegenerate L p (rawX L p x 0) (rawX L p x 1) := by
    obtain ⟨hp, hq⟩ := hg
    unfold NonDegenerate
    by_cases hl : linear p.type = true
    · rw [if_pos hl] at hq ⊢
      intro h; rw [h] at hq; exact lt_irrefl _ hq
    · rw [if_neg hl] at hq ⊢
      exact ⟨ne_of_gt hq.1, fun h => by rw [h, mul_zero] at hp; exact lt_irrefl _ hp⟩
  rw [C21_back_and_there L p x hnd hx] at hg'
  refine ⟨lt_of_lt_of_le hg.1 hg'.2.1, ?_, ?_⟩
  · rw [r0] at ha; exact ha
  · rw [r1] at hb; exact hb

example : OnSide .left (![1, -2, 1] : Fin 3 → ℚ) := by unfold OnSide; decide +kernel
example : StrictlyOnSide .front (![3, -2, 1] : Fin 3 → ℚ) := by unfold StrictlyOnSide; decide +kernel

/-! ### C40: the node at a point -/

theorem findNodeLoop_none (h : K) : ∀ (ds : List K) (i : Nat) (r : K) (v : Option Nat),
    (∀ d ∈ ds, Tol.lssEql h d r = false) → findNodeLoop h ds i (v, r) = (v, r) := by
  intro ds
  induction ds with
  | nil => intros; rfl
  | cons d ds ih =>
    intro i r v hd
    rw [findNodeLoop, if_neg (by simp [hd d (List.mem_cons_self ..)])]
    exact ih _ _ _ fun d hd' => hd d (List.mem_cons_of_mem _ hd')

/-- C40, the part that holds: when at most one node is within the tolerance of the point (nodes of a patch are much
further apart than the tolerance), the finder returns exactly that node, and reports none iff no node is that close. -/
theorem C40_node_partial (e ec h nx : K) (ds : List K) (he : 0 < e) (hh : 0 < h) (hds : ∀ d ∈ ds, 0 ≤ d) :
    let tol := if ec + e < ec * nx then ec * nx else ec
    ((∀ d ∈ ds, tol + h ≤ d) → findNode e ec h nx ds = none) ∧
    (∀ pre d post, ds = pre ++ d :: post → (d < tol + h ∧ d ≠ tol - h) → (∀ q ∈ pre ++ post, tol + h ≤ q) →
      (∀ q ∈ post, d + h ≤ q) → findNode e ec h nx ds = some pre.length) := by
  intro tol
  have htol : (if Tol.grt e (ec * nx) ec then ec * nx else ec) = tol := by
    simp only [Tol.grt, tol, decide_eq_true_eq, gt_iff_lt]
  have far : ∀ r d : K, r + h ≤ d → Tol.lssEql h d r = false := by
    intro r d hd
    rw [Bool.eq_false_iff]
    intro hc
    rw [(Tol.C13_meaning h _ _ hh).2.2.2.1] at hc
    exact absurd hc.1 (not_lt.2 (by linarith))
  refine ⟨?_, ?_⟩
  · intro hfar
    unfold findNode
    dsimp only
    rw [htol, findNodeLoop_none _ _ _ _ _ (fun d hd => far _ _ (hfar d hd))]
  · rintro pre d post rfl hd hfar hpost
    unfold findNode
    dsimp only
    rw [htol]
    have key : ∀ (pre : List K) (k : Nat), (∀ q ∈ pre, tol + h ≤ q) →
        (findNodeLoop h (pre ++ d :: post) k (none, tol)).1 = some (k + pre.length) := by
      intro pre
      induction pre with
      | nil =>
        intro k _
        rw [List.nil_append, findNodeLoop, if_pos ((Tol.C13_meaning h _ _ hh).2.2.2.1.2 ⟨by linarith [hd.1], fun hc => hd.2 (by linarith)⟩),
          findNodeLoop_none _ _ _ _ _ (fun q hq => far _ _ (hpost q hq))]
        rfl
      | cons a pre ih =>
        intro k hp
        rw [List.cons_append, findNodeLoop, if_neg (by simp [far _ _ (hp a (List.mem_cons_self ..))]),
          ih (k + 1) (fun q hq => hp q (List.mem_cons_of_mem _ hq))]
        simp; omega
    have := key pre 0 (fun q hq => hfar q (List.mem_append_left _ hq))
    simpa using this

/-- Violation: with two nodes within the tolerance the finder may return the farther one although another node
coincides with the point exactly. -/
theorem C40_closest_violation :
    findNode (1/10^12 : ℚ) (1/10^8) (1/10^8) 1 [0, 9/10^9] = some 1 := by decide +kernel

example : findNode (1/10^12 : ℚ) (1/10^8) (1/10^8) 1 [3, 1/10^9, 2] = some 1 := by decide +kernel

end Elliptica.Coord
