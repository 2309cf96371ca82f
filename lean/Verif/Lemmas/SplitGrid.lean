import Verif.Spec.Tiling
import Verif.Props.CoordJac
import Mathlib.Tactic.Linarith
import Mathlib.Tactic.Positivity
import Mathlib.Data.Nat.Cast.Order.Ring
/-!
Lemmas for C76: one patch as a piece of a stack of layers, cuts, rays and sides.
-/
namespace Elliptica.Tiling
open Elliptica.Coord Elliptica.SplitCS

/-! ### layers and cuts -/

theorem find_layer (h : ℕ → ℝ) (u : ℝ) : ∀ N, 0 < N → h 0 ≤ u → u ≤ h N → ∃ d, d < N ∧ h d ≤ u ∧ u ≤ h (d + 1)
  | 0, h0, _, _ => absurd h0 (lt_irrefl _)
  | N + 1, _, h0, hN => by
    by_cases hc : h N ≤ u
    · exact ⟨N, Nat.lt_succ_self _, hc, hN⟩
    · by_cases hN0 : N = 0
      · subst hN0; exact absurd h0 hc
      · obtain ⟨d, a, b, c⟩ := find_layer h u N (Nat.pos_of_ne_zero hN0) h0 (le_of_lt (not_le.1 hc))
        exact ⟨d, Nat.lt_succ_of_lt a, b, c⟩

theorem mono_of_step (h : ℕ → ℝ) (N : ℕ) (hs : ∀ k, k < N → h k < h (k + 1)) {a b : ℕ} (hab : a ≤ b) (hb : b ≤ N) :
    h a ≤ h b := by
  induction b, hab using Nat.le_induction with
  | base => exact le_refl _
  | succ k hk ih => exact (ih (by omega)).trans (hs k (by omega)).le

theorem layer_unique (h : ℕ → ℝ) (N : ℕ) (hs : ∀ k, k < N → h k < h (k + 1)) {u : ℝ} {d e : ℕ} (hd : d < N) (he : e < N)
    (d1 : h d < u) (d2 : u < h (d + 1)) (e1 : h e ≤ u) (e2 : u ≤ h (e + 1)) : d = e := by
  rcases lt_trichotomy d e with hde | hde | hde
  · have := mono_of_step h N hs (a := d + 1) (b := e) hde he.le
    linarith
  · exact hde
  · have := mono_of_step h N hs (a := e + 1) (b := d) hde hd.le
    linarith

theorem cut_zero (m M : ℝ) (n : ℕ) : cut m M n 0 = m := by simp [cut]

theorem cut_last (m M : ℝ) (n : ℕ) (hn : 0 < n) : cut m M n n = M := by
  have : (n : ℝ) ≠ 0 := by positivity
  unfold cut; field_simp; ring

theorem cut_step (m M : ℝ) (n d : ℕ) (hn : 0 < n) (h : m < M) : cut m M n d < cut m M n (d + 1) := by
  have : (0 : ℝ) < n := by positivity
  have h2 : 0 < (M - m) / n := div_pos (by linarith) this
  unfold cut; push_cast; nlinarith

theorem cut_bounds (m M : ℝ) (n d : ℕ) (hn : 0 < n) (h : m < M) (hd : d < n) :
    m ≤ cut m M n d ∧ cut m M n (d + 1) ≤ M := by
  have hs : ∀ k, k < n → cut m M n k < cut m M n (k + 1) := fun k _ => cut_step m M n k hn h
  constructor
  · have := mono_of_step (cut m M n) n hs (Nat.zero_le d) hd.le
    rwa [cut_zero] at this
  · have := mono_of_step (cut m M n) n hs (a := d + 1) hd (le_refl n)
    rwa [cut_last _ _ _ hn] at this

theorem cut_find (m M : ℝ) (n : ℕ) (hn : 0 < n) {X : ℝ} (h0 : m ≤ X) (h1 : X ≤ M) :
    ∃ d, d < n ∧ cut m M n d ≤ X ∧ X ≤ cut m M n (d + 1) :=
  find_layer (cut m M n) X n hn (by rwa [cut_zero]) (by rwa [cut_last _ _ _ hn])

theorem rad_eq_cut (a b : ℝ) (n d : ℕ) : rad a b n d = cut a b n d := rfl

/-! ### one patch -/

theorem dd_sq (big a b : ℝ) : dd (realLib big) a b * dd (realLib big) a b = 1 + a * a + b * b :=
  Real.mul_self_sqrt (d_pos a b).le

theorem dd_pos (big a b : ℝ) : 0 < dd (realLib big) a b := Real.sqrt_pos.2 (d_pos a b)

theorem dd_ge (big a b : ℝ) : 1 ≤ dd (realLib big) a b := by
  have h1 := dd_sq big a b
  have h2 := dd_pos big a b
  nlinarith [mul_self_nonneg a, mul_self_nonneg b]

/-- a patch whose heights run, on its angular cell, from A (at X[2] = 0) to B (at X[2] = 1) -/
structure Shaped (L : Lib ℝ) (p : Patch ℝ) (A B : ℝ → ℝ → ℝ) : Prop where
  mn2 : p.mn 2 = 0
  mx2 : p.mx 2 = 1
  low : ∀ X0 X1, p.mn 0 ≤ X0 → X0 ≤ p.mx 0 → p.mn 1 ≤ X1 → X1 ≤ p.mx 1 → 0 < A X0 X1 ∧ A X0 X1 < B X0 X1 ∧
    x1 L p X0 X1 = sgn p.side * A X0 X1 ∧
    (if linear p.type then x2 L p X0 X1 = sgn p.side * B X0 X1 else ratio L p X0 X1 = 1 - A X0 X1 / B X0 X1)

/-- height of patch coordinates -/
noncomputable def height (p : Patch ℝ) (A B : ℝ → ℝ → ℝ) (X : Fin 3 → ℝ) : ℝ :=
  if linear p.type then A (X 0) (X 1) + (B (X 0) (X 1) - A (X 0) (X 1)) * X 2
  else A (X 0) (X 1) / (1 - (1 - A (X 0) (X 1) / B (X 0) (X 1)) * X 2)

theorem Shaped.at {L : Lib ℝ} {p : Patch ℝ} {A B : ℝ → ℝ → ℝ} (hp : Shaped L p A B) (X : Fin 3 → ℝ)
    (h0 : p.mn 0 ≤ X 0) (h0' : X 0 ≤ p.mx 0) (h1 : p.mn 1 ≤ X 1) (h1' : X 1 ≤ p.mx 1) :
    At p.side (fun i => xOfX L p X i - p.c i) (height p A B X) (X 0) (X 1) := by
  obtain ⟨a, b, e1, e2⟩ := hp.low _ _ h0 h0' h1 h1'
  obtain ⟨c1, c2, c3⟩ := xOfX_comp L p X
  have hs := sgn_sq (K := ℝ) p.side
  have ht : across p (xOfX L p X) = sgn p.side * height p A B X := by
    rw [c3]
    unfold height
    by_cases hl : linear p.type = true
    · simp only [if_pos hl] at e2 ⊢
      rw [e1, e2]; ring
    · simp only [if_neg hl] at e2 ⊢
      rw [e1, e2]; ring
  refine ⟨ht, ?_, ?_⟩
  · show xOfX L p X (perm p.side).2.1 - p.c (perm p.side).2.1 = _
    rw [c1, ht]; linear_combination (height p A B X * X 0) * hs
  · show xOfX L p X (perm p.side).2.2.1 - p.c (perm p.side).2.2.1 = _
    rw [c2, ht]; linear_combination (height p A B X * X 1) * hs

theorem height_out {a b t : ℝ} (ha : 0 < a) (hab : a < b) (h0 : 0 ≤ t) (h1 : t ≤ 1) : 0 < 1 - (1 - a / b) * t := by
  have hb : 0 < b := ha.trans hab
  have hr : 0 < a / b := div_pos ha hb
  have hr1 : a / b < 1 := (div_lt_one hb).2 hab
  nlinarith [mul_nonneg h0 hr.le]

theorem height_mono {p : Patch ℝ} {A B : ℝ → ℝ → ℝ} {X : Fin 3 → ℝ} (ha : 0 < A (X 0) (X 1))
    (hab : A (X 0) (X 1) < B (X 0) (X 1)) :
    (0 ≤ X 2 → X 2 ≤ 1 → A (X 0) (X 1) ≤ height p A B X ∧ height p A B X ≤ B (X 0) (X 1)) ∧
    (0 < X 2 → X 2 < 1 → A (X 0) (X 1) < height p A B X ∧ height p A B X < B (X 0) (X 1)) := by
  unfold height
  generalize hA : A (X 0) (X 1) = a at *
  generalize hB : B (X 0) (X 1) = b at *
  have hb : 0 < b := ha.trans hab
  have hr : 0 < a / b := div_pos ha hb
  have hr1 : a / b < 1 := (div_lt_one hb).2 hab
  have hbr : b * (a / b) = a := by field_simp
  generalize hrr : a / b = r at *
  by_cases hl : linear p.type = true
  · simp only [if_pos hl]
    constructor
    · intro h0 h1; constructor <;> nlinarith
    · intro h0 h1; constructor <;> nlinarith
  · simp only [if_neg hl]
    constructor
    · intro h0 h1
      have hq := height_out ha hab h0 h1
      rw [hrr] at hq
      constructor
      · rw [le_div_iff₀ hq]; nlinarith [mul_nonneg ha.le (mul_nonneg h0 (by linarith : (0 : ℝ) ≤ 1 - r))]
      · rw [div_le_iff₀ hq]; nlinarith [mul_nonneg (by linarith : (0:ℝ) ≤ b - a) (by linarith : (0 : ℝ) ≤ 1 - X 2)]
    · intro h0 h1
      have hq := height_out ha hab h0.le h1.le
      rw [hrr] at hq
      constructor
      · rw [lt_div_iff₀ hq]; nlinarith [mul_pos ha (mul_pos h0 (by linarith : (0 : ℝ) < 1 - r))]
      · rw [div_lt_iff₀ hq]; nlinarith [mul_pos (by linarith : (0:ℝ) < b - a) (by linarith : (0 : ℝ) < 1 - X 2)]

/-- third coordinate of a height -/
noncomputable def third (p : Patch ℝ) (a b u : ℝ) : ℝ := if linear p.type then (u - a) / (b - a) else (1 - a / u) / (1 - a / b)

theorem third_height {p : Patch ℝ} {A B : ℝ → ℝ → ℝ} {X0 X1 u : ℝ} (ha : 0 < A X0 X1)
    (hab : A X0 X1 < B X0 X1) (hu : 0 < u) :
    height p A B (fun i => if i = 0 then X0 else if i = 1 then X1 else third p (A X0 X1) (B X0 X1) u) = u := by
  unfold height third
  simp only [show ((2 : Fin 3) = 0) = False by simp, show ((2 : Fin 3) = 1) = False by simp, if_false,
    show ((1 : Fin 3) = 0) = False by simp, if_true]
  have hb : 0 < B X0 X1 := ha.trans hab
  have h1 : B X0 X1 - A X0 X1 ≠ 0 := by linarith
  by_cases hl : linear p.type = true
  · simp only [if_pos hl]; field_simp; ring
  · simp only [if_neg hl]
    have h2 : (1 - A X0 X1 / B X0 X1) ≠ 0 := by
      have := (div_lt_one hb).2 hab
      linarith
    rw [mul_div_cancel₀ _ h2]
    have : (1 : ℝ) - (1 - A X0 X1 / u) = A X0 X1 / u := by ring
    rw [this]
    field_simp

theorem third_range {p : Patch ℝ} {a b u : ℝ} (ha : 0 < a) (hab : a < b) :
    (a ≤ u → u ≤ b → 0 ≤ third p a b u ∧ third p a b u ≤ 1) ∧ (a < u → u < b → 0 < third p a b u ∧ third p a b u < 1) := by
  unfold third
  have hb : 0 < b := ha.trans hab
  have h1 : 0 < b - a := by linarith
  have h2 : 0 < 1 - a / b := by have := (div_lt_one hb).2 hab; linarith
  by_cases hl : linear p.type = true
  · simp only [if_pos hl]
    constructor
    · intro h h'; exact ⟨div_nonneg (by linarith) h1.le, (div_le_one h1).2 (by linarith)⟩
    · intro h h'; exact ⟨div_pos (by linarith) h1, (div_lt_one h1).2 (by linarith)⟩
  · simp only [if_neg hl]
    constructor
    · intro h h'
      have hu : 0 < u := lt_of_lt_of_le ha h
      refine ⟨div_nonneg ?_ h2.le, (div_le_one h2).2 ?_⟩
      · have := (div_le_one hu).2 h; linarith
      · have := div_le_div_of_nonneg_left ha.le hu h'; linarith
    · intro h h'
      have hu : 0 < u := lt_trans ha h
      refine ⟨div_pos ?_ h2, (div_lt_one h2).2 ?_⟩
      · have := (div_lt_one hu).2 h; linarith
      · have := div_lt_div_of_pos_left ha hu h'; linarith

theorem at_unique {s : Side} {v w : Fin 3 → ℝ} {u X0 X1 : ℝ} (h : At s v u X0 X1) (h' : At s w u X0 X1) : v = w := by
  obtain ⟨a, b, c⟩ := h
  obtain ⟨a', b', c'⟩ := h'
  funext i
  rcases perm_cover s i with e | e | e <;> rw [e]
  · rw [b, b']
  · rw [c, c']
  · rw [a, a']

/-- the points of a patch, by height along rays -/
theorem Shaped.contains_iff {L : Lib ℝ} {p : Patch ℝ} {A B : ℝ → ℝ → ℝ} (hp : Shaped L p A B) (x : Fin 3 → ℝ) :
    Contains L (.cs p) x ↔ ∃ u X0 X1, (p.mn 0 ≤ X0 ∧ X0 ≤ p.mx 0 ∧ p.mn 1 ≤ X1 ∧ X1 ≤ p.mx 1) ∧
      A X0 X1 ≤ u ∧ u ≤ B X0 X1 ∧ At p.side (fun i => x i - p.c i) u X0 X1 := by
  constructor
  · rintro ⟨X, hX, rfl⟩
    obtain ⟨a, b, -, -⟩ := hp.low _ _ (hX 0).1 (hX 0).2 (hX 1).1 (hX 1).2
    have h2 := hX 2
    rw [hp.mn2, hp.mx2] at h2
    have := (height_mono (p := p) a b).1 h2.1 h2.2
    exact ⟨_, X 0, X 1, ⟨(hX 0).1, (hX 0).2, (hX 1).1, (hX 1).2⟩, this.1, this.2,
      hp.at X (hX 0).1 (hX 0).2 (hX 1).1 (hX 1).2⟩
  · rintro ⟨u, X0, X1, ⟨r0, r0', r1, r1'⟩, hA, hB, hat⟩
    obtain ⟨a, b, -, -⟩ := hp.low _ _ r0 r0' r1 r1'
    have ht := (third_range (p := p) a b).1 hA hB
    have hh := third_height (p := p) a b (lt_of_lt_of_le a hA)
    refine ⟨fun i => if i = 0 then X0 else if i = 1 then X1 else third p (A X0 X1) (B X0 X1) u, ?_, ?_⟩
    · apply all3
      · exact ⟨r0, r0'⟩
      · exact ⟨r1, r1'⟩
      · rw [hp.mn2, hp.mx2]; exact ht
    · have := hp.at (fun i => if i = 0 then X0 else if i = 1 then X1 else third p (A X0 X1) (B X0 X1) u) r0 r0' r1 r1'
      rw [hh] at this
      have := at_unique this hat
      funext i
      have := congrFun this i
      linarith

/-- the inside of a patch, by height along rays -/
theorem Shaped.interior_iff {L : Lib ℝ} {p : Patch ℝ} {A B : ℝ → ℝ → ℝ} (hp : Shaped L p A B) (x : Fin 3 → ℝ) :
    Interior L (.cs p) x ↔ ∃ u X0 X1, (p.mn 0 < X0 ∧ X0 < p.mx 0 ∧ p.mn 1 < X1 ∧ X1 < p.mx 1) ∧
      A X0 X1 < u ∧ u < B X0 X1 ∧ At p.side (fun i => x i - p.c i) u X0 X1 := by
  constructor
  · rintro ⟨X, hX, rfl⟩
    obtain ⟨a, b, -, -⟩ := hp.low _ _ (hX 0).1.le (hX 0).2.le (hX 1).1.le (hX 1).2.le
    have h2 := hX 2
    rw [hp.mn2, hp.mx2] at h2
    have := (height_mono (p := p) a b).2 h2.1 h2.2
    exact ⟨_, X 0, X 1, ⟨(hX 0).1, (hX 0).2, (hX 1).1, (hX 1).2⟩, this.1, this.2,
      hp.at X (hX 0).1.le (hX 0).2.le (hX 1).1.le (hX 1).2.le⟩
  · rintro ⟨u, X0, X1, ⟨r0, r0', r1, r1'⟩, hA, hB, hat⟩
    obtain ⟨a, b, -, -⟩ := hp.low _ _ r0.le r0'.le r1.le r1'.le
    have ht := (third_range (p := p) a b).2 hA hB
    have hh := third_height (p := p) a b (lt_trans a hA)
    refine ⟨fun i => if i = 0 then X0 else if i = 1 then X1 else third p (A X0 X1) (B X0 X1) u, ?_, ?_⟩
    · apply all3
      · exact ⟨r0, r0'⟩
      · exact ⟨r1, r1'⟩
      · rw [hp.mn2, hp.mx2]; exact ht
    · have := hp.at (fun i => if i = 0 then X0 else if i = 1 then X1 else third p (A X0 X1) (B X0 X1) u) r0.le r0'.le
        r1.le r1'.le
      rw [hh] at this
      have := at_unique this hat
      funext i
      have := congrFun this i
      linarith

/-! ### rays and sides -/

theorem at_norm {s : Side} {v : Fin 3 → ℝ} {u X0 X1 : ℝ} (h : At s v u X0 X1) :
    v 0 ^ 2 + v 1 ^ 2 + v 2 ^ 2 = u ^ 2 * (1 + X0 * X0 + X1 * X1) := by
  obtain ⟨a, b, c⟩ := h
  cases s <;> simp only [perm, sgn] at a b c <;> simp at a b c <;> rw [a, b, c] <;> ring

/-- along a side with angles in [-1,1] the height is the largest coordinate -/
theorem at_max {s : Side} {v : Fin 3 → ℝ} {u X0 X1 : ℝ} (h : At s v u X0 X1) (hu : 0 < u) (h0 : |X0| ≤ 1) (h1 : |X1| ≤ 1) :
    (∀ i, |v i| ≤ u) ∧ ∃ i, |v i| = u := by
  obtain ⟨a, b, c⟩ := h
  have hab : ∀ X : ℝ, |X| ≤ 1 → |u * X| ≤ u := fun X hX => by
    rw [abs_mul, abs_of_pos hu]; nlinarith
  have hs : |sgn s * u| = u := by
    cases s <;> simp [sgn, perm, abs_of_pos hu]
  refine ⟨fun i => ?_, _, (by rw [a]; exact hs)⟩
  rcases perm_cover s i with e | e | e <;> rw [e]
  · rw [b]; exact hab _ h0
  · rw [c]; exact hab _ h1
  · rw [a, hs]

/-- every direction is a ray of some side -/
theorem at_exists (v : Fin 3 → ℝ) (hv : v ≠ 0) :
    ∃ s u X0 X1, 0 < u ∧ (-1 ≤ X0 ∧ X0 ≤ 1) ∧ (-1 ≤ X1 ∧ X1 ≤ 1) ∧ At s v u X0 X1 := by
  obtain ⟨s, h0, h1, h2⟩ := C39_cover v hv
  rw [abs_le] at h1 h2
  have hs := sgn_sq (K := ℝ) s
  have hne : v (perm s).2.2.2 ≠ 0 := fun h => by rw [h, mul_zero] at h0; exact lt_irrefl _ h0
  refine ⟨s, sgn s * v (perm s).2.2.2, _, _, h0, h1, h2, ?_, ?_, ?_⟩
  · linear_combination (-v (perm s).2.2.2) * hs
  · field_simp
    linear_combination (-v (perm s).2.1) * hs
  · field_simp
    linear_combination (-v (perm s).2.2.1) * hs

/-- angular coordinates and height are determined by the side -/
theorem at_det {s : Side} {v : Fin 3 → ℝ} {u X0 X1 u' Y0 Y1 : ℝ} (h : At s v u X0 X1) (h' : At s v u' Y0 Y1) (hu : 0 < u) :
    u' = u ∧ Y0 = X0 ∧ Y1 = X1 := by
  obtain ⟨a, b, c⟩ := h
  obtain ⟨a', b', c'⟩ := h'
  have e : u' = u := by
    have := sgn_ne (K := ℝ) s
    have h3 : sgn s * u' = sgn s * u := by rw [← a, ← a']
    exact mul_left_cancel₀ this h3
  subst e
  refine ⟨rfl, ?_, ?_⟩
  · exact mul_left_cancel₀ (ne_of_gt hu) (by rw [← b, ← b'])
  · exact mul_left_cancel₀ (ne_of_gt hu) (by rw [← c, ← c'])

/-- strictly inside one side, and on another: they are the same -/
theorem at_side {s t : Side} {v : Fin 3 → ℝ} {u X0 X1 u' Y0 Y1 : ℝ} (h : At s v u X0 X1) (h' : At t v u' Y0 Y1)
    (hu : 0 < u) (hu' : 0 < u') (h0 : -1 < X0 ∧ X0 < 1) (h1 : -1 < X1 ∧ X1 < 1) (k0 : -1 ≤ Y0 ∧ Y0 ≤ 1)
    (k1 : -1 ≤ Y1 ∧ Y1 ≤ 1) : s = t := by
  have hs := sgn_sq (K := ℝ) s
  have ht := sgn_sq (K := ℝ) t
  apply C39_disjoint s t v
  · obtain ⟨a, b, c⟩ := h
    have e : sgn s * v (perm s).2.2.2 = u := by rw [a]; linear_combination u * hs
    have e' : 0 < sgn s * v (perm s).2.2.2 := by rw [e]; exact hu
    refine ⟨e', ?_, ?_⟩
    · rw [side_abs _ _ _ e', e, b, abs_mul, abs_of_pos hu, mul_div_cancel_left₀ _ (ne_of_gt hu)]; exact abs_lt.2 h0
    · rw [side_abs _ _ _ e', e, c, abs_mul, abs_of_pos hu, mul_div_cancel_left₀ _ (ne_of_gt hu)]; exact abs_lt.2 h1
  · obtain ⟨a, b, c⟩ := h'
    have e : sgn t * v (perm t).2.2.2 = u' := by rw [a]; linear_combination u' * ht
    have e' : 0 < sgn t * v (perm t).2.2.2 := by rw [e]; exact hu'
    refine ⟨e', ?_, ?_⟩
    · rw [side_abs _ _ _ e', e, b, abs_mul, abs_of_pos hu', mul_div_cancel_left₀ _ (ne_of_gt hu')]; exact abs_le.2 k0
    · rw [side_abs _ _ _ e', e, c, abs_mul, abs_of_pos hu', mul_div_cancel_left₀ _ (ne_of_gt hu')]; exact abs_le.2 k1

end Elliptica.Tiling
