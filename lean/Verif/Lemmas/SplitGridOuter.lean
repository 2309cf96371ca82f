import Verif.Lemmas.SplitGridCore
/-!
Lemmas for C76: the outermost region, and the whole grid.
-/
namespace Elliptica.Tiling
open Elliptica.Coord Elliptica.SplitCS

variable {big : ℝ} {g : In ℝ} {n : Fin 3 → ℕ} {out : Bool}

theorem dirs_cases {k : Kind} {dir : Dir} (h : dir ∈ dirs k) :
    (k.binary = true ∧ (dir = .left ∨ dir = .right)) ∨ (k.binary = false ∧ dir = .center) := by
  unfold dirs at h
  by_cases hb : k.binary = true
  · rw [if_pos hb] at h; left; exact ⟨hb, by simpa using h⟩
  · rw [if_neg hb] at h; right; exact ⟨by simpa using hb, by simpa using h⟩

theorem out_c (G : Good big g n out) {dir : Dir} {s : Side} {d0 d1 d2 : ℕ} (hv : Valid g.kind out n (.cs .outer dir s d0 d1 d2))
    (x : Fin 3 → ℝ) :
    (Contains (realLib big) (patchOf (realLib big) g n (.cs .outer dir s d0 d1 d2)) x ↔
      ∃ u X0 X1, OCell n dir s d0 d1 X0 X1 ∧ hOut big g n dir s d2 X0 X1 ≤ u ∧
        u ≤ hOut big g n dir s (d2 + 1) X0 X1 ∧ At s x u X0 X1) ∧
    (Interior (realLib big) (patchOf (realLib big) g n (.cs .outer dir s d0 d1 d2)) x ↔
      ∃ u X0 X1, OCell' n dir s d0 d1 X0 X1 ∧ hOut big g n dir s d2 X0 X1 < u ∧
        u < hOut big g n dir s (d2 + 1) X0 X1 ∧ At s x u X0 X1) := by
  obtain ⟨ho, hd, hs, h0, h1, h2⟩ := hv
  exact outer_c G.S G.small (G.rout ho) (G.outer ho dir hd s hs) G.exact h0 h1 h2 x

theorem out_range {dir : Dir} {s : Side} {d0 d1 : ℕ} {X0 X1 : ℝ} (h0 : d0 < n 0) (h1 : d1 < n 1) (hc : OCell n dir s d0 d1 X0 X1) :
    ((ranges dir s : ℝ × ℝ × ℝ × ℝ).1 ≤ X0 ∧ X0 ≤ (ranges dir s : ℝ × ℝ × ℝ × ℝ).2.1) ∧
    (ranges dir s : ℝ × ℝ × ℝ × ℝ).2.2.1 ≤ X1 ∧ X1 ≤ (ranges dir s : ℝ × ℝ × ℝ × ℝ).2.2.2 :=
  cell_range (ranges_lt dir s).1 (ranges_lt dir s).2 h0 h1 hc

theorem out_range' {dir : Dir} {s : Side} {d0 d1 : ℕ} {X0 X1 : ℝ} (h0 : d0 < n 0) (h1 : d1 < n 1) (hc : OCell' n dir s d0 d1 X0 X1) :
    ((ranges dir s : ℝ × ℝ × ℝ × ℝ).1 < X0 ∧ X0 < (ranges dir s : ℝ × ℝ × ℝ × ℝ).2.1) ∧
    (ranges dir s : ℝ × ℝ × ℝ × ℝ).2.2.1 < X1 ∧ X1 < (ranges dir s : ℝ × ℝ × ℝ × ℝ).2.2.2 :=
  cell_range' (ranges_lt dir s).1 (ranges_lt dir s).2 h0 h1 hc

theorem out_step (G : Good big g n out) {dir : Dir} {s : Side} {d0 d1 d2 k : ℕ} {X0 X1 : ℝ}
    (hv : Valid g.kind out n (.cs .outer dir s d0 d1 d2)) (hc : OCell n dir s d0 d1 X0 X1) (hk : k < n 2) :
    0 < hOut big g n dir s k X0 X1 ∧ hOut big g n dir s k X0 X1 < hOut big g n dir s (k + 1) X0 X1 := by
  obtain ⟨ho, hd, hs, h0, h1, h2⟩ := hv
  have r := out_range h0 h1 hc
  exact hOut_step (G.npos 2) G.S (G.rout ho) (G.outer ho dir hd s hs) r.1.1 r.1.2 r.2.1 r.2.2 hk

theorem out_last (G : Good big g n out) (dir : Dir) (s : Side) (X0 X1 : ℝ) :
    hOut big g n dir s (n 2) X0 X1 = g.rout / dd (realLib big) X0 X1 := by
  have := G.npos 2
  have e : rad (diag (realLib big) g.S g.S g.S) g.rout (n 2) (n 2) = g.rout := cut_last _ _ _ this
  simp only [hOut, if_neg (show n 2 ≠ 0 by omega), e]

theorem out_bounds (G : Good big g n out) {dir : Dir} {s : Side} {d0 d1 d2 k : ℕ} {X0 X1 : ℝ}
    (hv : Valid g.kind out n (.cs .outer dir s d0 d1 d2)) (hc : OCell n dir s d0 d1 X0 X1) (hk : k ≤ n 2) :
    xcOut g.S dir s ≤ hOut big g n dir s k X0 X1 ∧ hOut big g n dir s k X0 X1 ≤ g.rout / dd (realLib big) X0 X1 := by
  have hst : ∀ j, j < n 2 → hOut big g n dir s j X0 X1 < hOut big g n dir s (j + 1) X0 X1 :=
    fun j hj => (out_step G hv hc hj).2
  have a := mono_of_step (fun j => hOut big g n dir s j X0 X1) (n 2) hst (Nat.zero_le k) hk
  have b := mono_of_step (fun j => hOut big g n dir s j X0 X1) (n 2) hst hk (le_refl _)
  simp only [out_last G] at b
  simp only [hOut, if_true] at a
  exact ⟨a, b⟩

/-- strictly inside the cubes -/
def InCubes' (k : Kind) (S : ℝ) (x : Fin 3 → ℝ) : Prop :=
  |x 0| < S / 2 ∧ |x 1| < (if k.binary then S else S / 2) ∧ |x 2| < S / 2

theorem at_abs {s : Side} {x : Fin 3 → ℝ} {u X0 X1 : ℝ} (h : At s x u X0 X1) (hu : 0 < u) : |x (perm s).2.2.2| = u := by
  rw [h.1]; cases s <;> simp [sgn, perm, abs_of_pos hu]

/-- the flat inner surfaces of the outermost patches are the faces of the cubes -/
theorem out_away {k : Kind} {S : ℝ} {dir : Dir} (hd : dir ∈ dirs k) {s : Side} {x : Fin 3 → ℝ} {u X0 X1 : ℝ}
    (h : At s x u X0 X1) (hu : 0 < u) :
    (xcOut S dir s ≤ u → ¬ InCubes' k S x) ∧ (xcOut S dir s < u → ¬ InCubes k S x) := by
  have ha := at_abs h hu
  rcases dirs_cases hd with ⟨hb, rfl | rfl⟩ | ⟨hb, rfl⟩ <;>
    (constructor <;> (intro hx hc; obtain ⟨c0, c1, c2⟩ := hc; rw [hb] at c1
                      cases s <;> simp [perm, xcOut, half, halfHemi] at ha hx c1 <;> linarith))

theorem inner_cubes {k : Kind} {g : In ℝ} {dir : Dir} (hd : dir ∈ dirs k) (hS : 0 < g.S) (x : Fin 3 → ℝ) :
    ((∀ i, |rel g dir x i| ≤ g.S / 2) → InCubes k g.S x ∧ (dir = .left → x 1 ≤ 0) ∧ (dir = .right → 0 ≤ x 1)) ∧
    ((∀ i, |rel g dir x i| < g.S / 2) → InCubes' k g.S x ∧ (dir = .left → x 1 < 0) ∧ (dir = .right → 0 < x 1)) := by
  constructor
  · intro h
    have h0 := h 0
    have h1 := abs_le.1 (h 1)
    have h2 := h 2
    rcases dirs_cases hd with ⟨hb, rfl | rfl⟩ | ⟨hb, rfl⟩ <;> simp [rel, centre] at h0 h1 h2 <;>
      refine ⟨⟨h0, ?_, h2⟩, ?_, ?_⟩ <;> simp [hb] <;> first | linarith | (rw [abs_le]; constructor <;> linarith)
  · intro h
    have h0 := h 0
    have h1 := abs_lt.1 (h 1)
    have h2 := h 2
    rcases dirs_cases hd with ⟨hb, rfl | rfl⟩ | ⟨hb, rfl⟩ <;> simp [rel, centre] at h0 h1 h2 <;>
      refine ⟨⟨h0, ?_, h2⟩, ?_, ?_⟩ <;> simp [hb] <;> first | linarith | (rw [abs_lt]; constructor <;> linarith)

set_option maxHeartbeats 1600000 in
/-- strictly inside the angular ranges of an outermost side, and within those of another: they are the same -/
theorem out_side {k : Kind} {dir dir' : Dir} (hd : dir ∈ dirs k) (hd' : dir' ∈ dirs k) {s t : Side}
    (hs : skip .outer dir s = false) (ht : skip .outer dir' t = false) {x : Fin 3 → ℝ} {u X0 X1 u' Y0 Y1 : ℝ}
    (h : At s x u X0 X1) (h' : At t x u' Y0 Y1) (hu : 0 < u) (hu' : 0 < u')
    (r : ((ranges dir s : ℝ × ℝ × ℝ × ℝ).1 < X0 ∧ X0 < (ranges dir s : ℝ × ℝ × ℝ × ℝ).2.1) ∧
      (ranges dir s : ℝ × ℝ × ℝ × ℝ).2.2.1 < X1 ∧ X1 < (ranges dir s : ℝ × ℝ × ℝ × ℝ).2.2.2)
    (r' : ((ranges dir' t : ℝ × ℝ × ℝ × ℝ).1 ≤ Y0 ∧ Y0 ≤ (ranges dir' t : ℝ × ℝ × ℝ × ℝ).2.1) ∧
      (ranges dir' t : ℝ × ℝ × ℝ × ℝ).2.2.1 ≤ Y1 ∧ Y1 ≤ (ranges dir' t : ℝ × ℝ × ℝ × ℝ).2.2.2) : dir = dir' ∧ s = t := by
  obtain ⟨a, b, c⟩ := h
  obtain ⟨a', b', c'⟩ := h'
  obtain ⟨⟨p1, p2⟩, p3, p4⟩ := r
  obtain ⟨⟨q1, q2⟩, q3, q4⟩ := r'
  have m1 := mul_lt_mul_of_pos_left p1 hu
  have m2 := mul_lt_mul_of_pos_left p2 hu
  have m3 := mul_lt_mul_of_pos_left p3 hu
  have m4 := mul_lt_mul_of_pos_left p4 hu
  have w1 := mul_le_mul_of_nonneg_left q1 hu'.le
  have w2 := mul_le_mul_of_nonneg_left q2 hu'.le
  have w3 := mul_le_mul_of_nonneg_left q3 hu'.le
  have w4 := mul_le_mul_of_nonneg_left q4 hu'.le
  rw [← b] at m1 m2
  rw [← c] at m3 m4
  rw [← b'] at w1 w2
  rw [← c'] at w3 w4
  clear p1 p2 p3 p4 q1 q2 q3 q4 b c b' c'
  rcases dirs_cases hd with ⟨hb, rfl | rfl⟩ | ⟨hb, rfl⟩ <;> rcases dirs_cases hd' with ⟨hb', rfl | rfl⟩ | ⟨hb', rfl⟩ <;>
    first
    | (rw [hb] at hb'; exact absurd hb' (by decide))
    | (cases s <;> cases t <;> first
        | exact ⟨rfl, rfl⟩
        | (exfalso; revert hs ht; decide)
        | (exfalso; simp only [ranges, perm, sgn, if_true, if_false, show ¬ (Dir.right = Dir.left) from by decide,
             Bool.false_eq_true] at a a' m1 m2 m3 m4 w1 w2 w3 w4; linarith))

end Elliptica.Tiling
