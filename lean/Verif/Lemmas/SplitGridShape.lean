import Verif.Lemmas.SplitGrid
/-!
Lemmas for C76: the heights of the layers of each kind of patch.
-/
namespace Elliptica.Tiling
open Elliptica.Coord Elliptica.SplitCS

variable {big : ℝ} {g : In ℝ} {n : Fin 3 → ℕ}

theorem mk_ob {s : Side} {c : Fin 3 → ℝ} {x0 x1 y0 y1 : ℝ} {R1 R2 : ℝ → ℝ → ℝ} {xc1 xc2 : ℝ} {A B : ℝ → ℝ → ℝ}
    (h : ∀ X0 X1, x0 ≤ X0 → X0 ≤ x1 → y0 ≤ X1 → X1 ≤ y1 → 0 < A X0 X1 ∧ A X0 X1 < B X0 X1 ∧
      ((xc1 = big ∧ A X0 X1 = g.samp x0 x1 y0 y1 R1 X0 X1 / dd (realLib big) X0 X1) ∨ (xc1 ≠ big ∧ A X0 X1 = xc1)) ∧
      ((xc2 = big ∧ B X0 X1 = g.samp x0 x1 y0 y1 R2 X0 X1 / dd (realLib big) X0 X1) ∨ (xc2 ≠ big ∧ B X0 X1 = xc2))) :
    Shaped (realLib big) (mk g .obScs s c x0 x1 y0 y1 R1 R2 xc1 xc2) A B := by
  refine ⟨by simp [mk], by simp [mk], fun X0 X1 a b c' d => ?_⟩
  obtain ⟨h1, h2, h3, h4⟩ := h X0 X1 (by simpa [mk] using a) (by simpa [mk] using b) (by simpa [mk] using c')
    (by simpa [mk] using d)
  refine ⟨h1, h2, ?_, ?_⟩
  · rcases h3 with ⟨e, h3⟩ | ⟨e, h3⟩
    · simp only [Coord.x1, mk, realLib, e, if_true] at h3 ⊢; rw [h3]
    · rw [h3]; exact congrArg (fun t => sgn s * t) (if_neg e)
  · simp only [mk, linear, if_true]
    rcases h4 with ⟨e, h4⟩ | ⟨e, h4⟩
    · simp only [Coord.x2, realLib, e, if_true] at h4 ⊢; rw [h4]
    · rw [h4]; exact congrArg (fun t => sgn s * t) (if_neg e)

theorem mk_ot {s : Side} {c : Fin 3 → ℝ} {x0 x1 y0 y1 : ℝ} {R1 R2 : ℝ → ℝ → ℝ} {xc1 xc2 : ℝ} {A B : ℝ → ℝ → ℝ}
    (h : ∀ X0 X1, x0 ≤ X0 → X0 ≤ x1 → y0 ≤ X1 → X1 ≤ y1 → 0 < A X0 X1 ∧ A X0 X1 < B X0 X1 ∧
      (xc1 = big ∨ (xc1 ≠ big ∧ A X0 X1 = xc1)) ∧
      A X0 X1 = g.samp x0 x1 y0 y1 R1 X0 X1 / dd (realLib big) X0 X1 ∧
      B X0 X1 = g.samp x0 x1 y0 y1 R2 X0 X1 / dd (realLib big) X0 X1) :
    Shaped (realLib big) (mk g .otScs s c x0 x1 y0 y1 R1 R2 xc1 xc2) A B := by
  refine ⟨by simp [mk], by simp [mk], fun X0 X1 a b c' d => ?_⟩
  obtain ⟨h1, h2, h3, h4, h5⟩ := h X0 X1 (by simpa [mk] using a) (by simpa [mk] using b) (by simpa [mk] using c')
    (by simpa [mk] using d)
  refine ⟨h1, h2, ?_, ?_⟩
  · rcases h3 with e | ⟨e, h3⟩
    · simp only [Coord.x1, mk, realLib, e, if_true] at h4 ⊢; rw [h4]
    · rw [h3]; exact congrArg (fun t => sgn s * t) (if_neg e)
  · simp only [mk, linear, ratio]
    have hd := dd_pos big X0 X1
    have e1 : g.samp x0 x1 y0 y1 R1 X0 X1 = A X0 X1 * dd (realLib big) X0 X1 := by rw [h4]; field_simp
    have e2 : g.samp x0 x1 y0 y1 R2 X0 X1 = B X0 X1 * dd (realLib big) X0 X1 := by rw [h5]; field_simp
    rw [e1, e2, mul_div_mul_right _ _ (ne_of_gt hd)]
    simp

/-- heights of the layers of an object -/
noncomputable def hObj (big : ℝ) (g : In ℝ) (n : Fin 3 → ℕ) (dir : Dir) (s : Side) (d0 d1 k : ℕ) (X0 X1 : ℝ) : ℝ :=
  if k = 0 then (g.obj dir).l / 2 else if k = n 2 then seen g n dir s d0 d1 X0 X1 / dd (realLib big) X0 X1
  else rad (diag (realLib big) (g.obj dir).l (g.obj dir).w (g.obj dir).h) (g.obj dir).rmin (n 2) k / dd (realLib big) X0 X1

/-- heights of the layers around an object -/
noncomputable def hAr (big : ℝ) (g : In ℝ) (n : Fin 3 → ℕ) (dir : Dir) (s : Side) (d0 d1 k : ℕ) (X0 X1 : ℝ) : ℝ :=
  if k = 0 then seen g n dir s d0 d1 X0 X1 / dd (realLib big) X0 X1 else if k = n 2 then g.S / 2
  else rad (g.obj dir).rmin (g.S / 2) (n 2) k / dd (realLib big) X0 X1

/-- heights of the outermost layers -/
noncomputable def hOut (big : ℝ) (g : In ℝ) (n : Fin 3 → ℕ) (dir : Dir) (s : Side) (k : ℕ) (X0 X1 : ℝ) : ℝ :=
  if k = 0 then xcOut g.S dir s
  else rad (diag (realLib big) g.S g.S g.S) g.rout (n 2) k / dd (realLib big) X0 X1

theorem flat_le {c a b q : ℝ} (hc : 0 ≤ c) (h : c * c * (1 + a * a + b * b) ≤ q) : c * dd (realLib big) a b ≤ Real.sqrt q := by
  have hd := dd_pos big a b
  have hs := dd_sq big a b
  have h0 : 0 ≤ c * dd (realLib big) a b := mul_nonneg hc hd.le
  apply Real.le_sqrt_of_sq_le
  calc (c * dd (realLib big) a b) ^ 2 = c * c * (dd (realLib big) a b * dd (realLib big) a b) := by ring
    _ ≤ q := by rw [hs]; exact h

theorem diag_cube {l a b : ℝ} (hl : 0 < l) (ha : |a| ≤ 1) (hb : |b| ≤ 1) :
    l / 2 * dd (realLib big) a b ≤ diag (realLib big) l l l := by
  have ha2 : a * a ≤ 1 := by have := abs_le.1 ha; nlinarith
  have hb2 : b * b ≤ 1 := by have := abs_le.1 hb; nlinarith
  have h := flat_le (big := big) (c := l) (a := a) (b := b) (q := l * l + l * l + l * l) hl.le
    (by nlinarith [mul_pos hl hl])
  unfold diag
  have e : (realLib big).sqrt (l * l + l * l + l * l) = Real.sqrt (l * l + l * l + l * l) := rfl
  rw [e]
  linarith

/-- what the checks of an object establish -/
structure ObjFacts (big : ℝ) (g : In ℝ) (n : Fin 3 → ℕ) (dir : Dir) : Prop where
  n2 : 0 < n 2
  S : 0 < g.S
  rmin : 0 < (g.obj dir).rmin
  l : 0 < (g.obj dir).l
  dg : diag (realLib big) (g.obj dir).l (g.obj dir).w (g.obj dir).h < (g.obj dir).rmin
  half : (g.obj dir).rmin < g.S / 2

theorem cell_unit {d0 d1 : ℕ} {X0 X1 : ℝ} (h0 : d0 < n 0) (h1 : d1 < n 1) (h : InCell (-1) 1 (-1) 1 n d0 d1 X0 X1) :
    |X0| ≤ 1 ∧ |X1| ≤ 1 := by
  obtain ⟨a, b, c, d⟩ := h
  have e0 := cut_bounds (-1) 1 (n 0) d0 (by omega) (by norm_num) h0
  have e1 := cut_bounds (-1) 1 (n 1) d1 (by omega) (by norm_num) h1
  exact ⟨abs_le.2 ⟨by linarith, by linarith⟩, abs_le.2 ⟨by linarith, by linarith⟩⟩

theorem rad_lt {a b : ℝ} {N k : ℕ} (hN : 0 < N) (hab : a < b) (hk : k < N) : rad a b N k < b := by
  have h1 := (cut_bounds a b N k hN hab hk).2
  have h2 := cut_step a b N k hN hab
  rw [rad_eq_cut]; linarith

theorem rad_gt {a b : ℝ} {N k : ℕ} (hN : 0 < N) (hab : a < b) (hk : 0 < k) (hkN : k ≤ N) : a < rad a b N k := by
  obtain ⟨j, rfl⟩ : ∃ j, k = j + 1 := ⟨k - 1, by omega⟩
  have h1 := (cut_bounds a b N j hN hab (by omega)).1
  have h2 := cut_step a b N j hN hab
  rw [rad_eq_cut]; linarith

theorem rad_step {a b : ℝ} {N k : ℕ} (hN : 0 < N) (hab : a < b) : rad a b N k < rad a b N (k + 1) := cut_step a b N k hN hab

theorem hObj_step {dir : Dir} {s : Side} {d0 d1 k : ℕ} {X0 X1 : ℝ} (f : ObjFacts big g n dir) (hc : Cube g dir)
    (hs : SurfaceFits g n dir) (h0 : d0 < n 0) (h1 : d1 < n 1) (hcell : InCell (-1) 1 (-1) 1 n d0 d1 X0 X1) (hk : k < n 2) :
    0 < hObj big g n dir s d0 d1 k X0 X1 ∧ hObj big g n dir s d0 d1 k X0 X1 < hObj big g n dir s d0 d1 (k + 1) X0 X1 := by
  obtain ⟨u0, u1⟩ := cell_unit h0 h1 hcell
  have hd := dd_pos big X0 X1
  have hsf := (hs s d0 d1 X0 X1 h0 h1 hcell).1
  have hdc := diag_cube (big := big) f.l u0 u1
  have hdg := f.dg
  have hl := f.l
  rw [hc.1, hc.2] at hdg
  have hdgpos : 0 < diag (realLib big) (g.obj dir).l (g.obj dir).l (g.obj dir).l :=
    lt_of_lt_of_le (mul_pos (by linarith) hd) hdc
  unfold hObj
  rw [hc.1, hc.2]
  simp only [Nat.add_eq_zero_iff, one_ne_zero, and_false, if_false]
  by_cases hk0 : k = 0
  · subst hk0
    simp only [if_true]
    refine ⟨by linarith, ?_⟩
    by_cases h1n : 0 + 1 = n 2
    · simp only [if_pos h1n]; rw [lt_div_iff₀ hd]; linarith
    · simp only [if_neg h1n]
      rw [lt_div_iff₀ hd]
      have := rad_gt (k := 0 + 1) f.n2 hdg (by omega) (by omega)
      linarith
  · have hne : k ≠ n 2 := by omega
    simp only [if_neg hk0, if_neg hne]
    have hr := rad_gt (k := k) f.n2 hdg (by omega) (by omega)
    refine ⟨div_pos (by linarith) hd, ?_⟩
    by_cases h1n : k + 1 = n 2
    · simp only [if_pos h1n]
      have := rad_lt f.n2 hdg hk
      exact div_lt_div_of_pos_right (by linarith) hd
    · simp only [if_neg h1n]
      exact div_lt_div_of_pos_right (rad_step f.n2 hdg) hd

theorem hAr_step {dir : Dir} {s : Side} {d0 d1 k : ℕ} {X0 X1 : ℝ} (f : ObjFacts big g n dir)
    (hs : SurfaceFits g n dir) (h0 : d0 < n 0) (h1 : d1 < n 1) (hcell : InCell (-1) 1 (-1) 1 n d0 d1 X0 X1) (hk : k < n 2) :
    0 < hAr big g n dir s d0 d1 k X0 X1 ∧ hAr big g n dir s d0 d1 k X0 X1 < hAr big g n dir s d0 d1 (k + 1) X0 X1 := by
  have hd := dd_pos big X0 X1
  have hd1 := dd_ge big X0 X1
  obtain ⟨hs1, hs2⟩ := hs s d0 d1 X0 X1 h0 h1 hcell
  have hr := f.rmin
  have hh := f.half
  have hS := f.S
  unfold hAr
  simp only [Nat.add_eq_zero_iff, one_ne_zero, and_false, if_false]
  by_cases hk0 : k = 0
  · subst hk0
    simp only [if_true]
    refine ⟨div_pos (by linarith) hd, ?_⟩
    by_cases h1n : 0 + 1 = n 2
    · simp only [if_pos h1n]
      have e : rad (g.obj dir).rmin (g.S / 2) (n 2) 1 = g.S / 2 := by
        rw [← h1n]; simp [rad]
      rw [e] at hs2
      rw [div_lt_iff₀ hd]; nlinarith
    · simp only [if_neg h1n]
      exact div_lt_div_of_pos_right (by simpa using hs2) hd
  · have hne : k ≠ n 2 := by omega
    simp only [if_neg hk0, if_neg hne]
    have hg := rad_gt (k := k) f.n2 f.half (by omega) (by omega)
    refine ⟨div_pos (by linarith) hd, ?_⟩
    by_cases h1n : k + 1 = n 2
    · simp only [if_pos h1n]
      have := rad_lt f.n2 f.half hk
      rw [div_lt_iff₀ hd]; nlinarith
    · simp only [if_neg h1n]
      exact div_lt_div_of_pos_right (rad_step f.n2 f.half) hd

/-- the flat inner surface of an outermost patch lies below its first sphere -/
def OuterFits (big : ℝ) (g : In ℝ) (n : Fin 3 → ℕ) (dir : Dir) (s : Side) : Prop :=
  ∀ X0 X1, (ranges dir s : ℝ × ℝ × ℝ × ℝ).1 ≤ X0 → X0 ≤ (ranges dir s : ℝ × ℝ × ℝ × ℝ).2.1 →
    (ranges dir s : ℝ × ℝ × ℝ × ℝ).2.2.1 ≤ X1 → X1 ≤ (ranges dir s : ℝ × ℝ × ℝ × ℝ).2.2.2 →
    xcOut g.S dir s * dd (realLib big) X0 X1 < rad (diag (realLib big) g.S g.S g.S) g.rout (n 2) 1

theorem xcOut_pos {S : ℝ} (hS : 0 < S) (dir : Dir) (s : Side) : 0 < xcOut S dir s := by
  cases dir <;> cases s <;> simp [xcOut, half, halfHemi] <;> linarith

theorem hOut_step {dir : Dir} {s : Side} {k : ℕ} {X0 X1 : ℝ} (hn : 0 < n 2) (hS : 0 < g.S)
    (hr : diag (realLib big) g.S g.S g.S < g.rout) (ho : OuterFits big g n dir s)
    (h0 : (ranges dir s : ℝ × ℝ × ℝ × ℝ).1 ≤ X0) (h0' : X0 ≤ (ranges dir s : ℝ × ℝ × ℝ × ℝ).2.1)
    (h1 : (ranges dir s : ℝ × ℝ × ℝ × ℝ).2.2.1 ≤ X1) (h1' : X1 ≤ (ranges dir s : ℝ × ℝ × ℝ × ℝ).2.2.2) (hk : k < n 2) :
    0 < hOut big g n dir s k X0 X1 ∧ hOut big g n dir s k X0 X1 < hOut big g n dir s (k + 1) X0 X1 := by
  have hd := dd_pos big X0 X1
  have hx := xcOut_pos hS dir s
  have hq := ho X0 X1 h0 h0' h1 h1'
  have hdp : 0 < diag (realLib big) g.S g.S g.S := by
    have := diag_cube (big := big) (a := 0) (b := 0) hS (by simp) (by simp)
    have h2 := mul_pos (by linarith : 0 < g.S / 2) (dd_pos big 0 0)
    linarith
  unfold hOut
  simp only [Nat.add_eq_zero_iff, one_ne_zero, and_false, if_false]
  by_cases hk0 : k = 0
  · subst hk0
    simp only [if_true]
    exact ⟨hx, by rw [lt_div_iff₀ hd]; simpa using hq⟩
  · simp only [if_neg hk0]
    have hg := rad_gt (k := k) hn hr (by omega) (by omega)
    exact ⟨div_pos (by linarith) hd, div_lt_div_of_pos_right (rad_step hn hr) hd⟩

theorem layer_cases (N d : ℕ) (hd : d < N) :
    (d ≠ 0 ∧ d + 1 = N ∧ layer N d = .top) ∨ (d = 0 ∧ d + 1 ≠ N ∧ layer N d = .bottom) ∨
    (d = 0 ∧ d + 1 = N ∧ layer N d = .only) ∨ (d ≠ 0 ∧ d + 1 ≠ N ∧ layer N d = .mid) := by
  unfold layer
  by_cases h0 : d = 0 <;> by_cases h1 : d + 1 = N
  · right; right; left
    refine ⟨h0, h1, ?_⟩
    rw [if_neg (by omega), if_neg (by omega), if_pos (by omega)]
  · right; left
    refine ⟨h0, h1, ?_⟩
    rw [if_neg (by omega), if_pos (by omega)]
  · left
    exact ⟨h0, h1, by rw [if_pos (by omega)]⟩
  · right; right; right
    refine ⟨h0, h1, ?_⟩
    rw [if_neg (by omega), if_neg (by omega), if_neg (by omega)]

theorem obj_shaped {dir : Dir} {s : Side} {d0 d1 d2 : ℕ} (f : ObjFacts big g n dir) (hb : g.S < big) (hc : Cube g dir)
    (hs : SurfaceFits g n dir) (hx : Exact big g) (h0 : d0 < n 0) (h1 : d1 < n 1) (h2 : d2 < n 2) :
    Shaped (realLib big) (objPatch (realLib big) g n dir s d0 d1 d2) (hObj big g n dir s d0 d1 d2)
      (hObj big g n dir s d0 d1 (d2 + 1)) := by
  have hS := f.S
  have hhalf : half (g.obj dir).l (g.obj dir).w (g.obj dir).h s = (g.obj dir).l / 2 := by
    rw [hc.1, hc.2]; cases s <;> rfl
  have hne : (g.obj dir).l / 2 ≠ big := by
    have h3 := diag_cube (big := big) (a := 0) (b := 0) f.l (by simp) (by simp)
    have h4 := f.dg
    rw [hc.1, hc.2] at h4
    have h5 := dd_ge big 0 0
    have h6 := f.half
    have h7 := f.l
    have : (g.obj dir).l / 2 ≤ (g.obj dir).l / 2 * dd (realLib big) 0 0 := by nlinarith
    exact ne_of_lt (by linarith)
  have key : ∀ X0 X1, InCell (-1) 1 (-1) 1 n d0 d1 X0 X1 → 0 < hObj big g n dir s d0 d1 d2 X0 X1 ∧
      hObj big g n dir s d0 d1 d2 X0 X1 < hObj big g n dir s d0 d1 (d2 + 1) X0 X1 :=
    fun X0 X1 hcell => hObj_step f hc hs h0 h1 hcell h2
  unfold objPatch
  rcases layer_cases (n 2) d2 h2 with ⟨e0, e1, el⟩ | ⟨e0, e1, el⟩ | ⟨e0, e1, el⟩ | ⟨e0, e1, el⟩ <;> simp only [el] <;>
    apply mk_ob <;> intro X0 X1 a b c d <;> refine ⟨(key X0 X1 ⟨a, b, c, d⟩).1, (key X0 X1 ⟨a, b, c, d⟩).2, ?_, ?_⟩
  · left; refine ⟨rfl, ?_⟩
    rw [hx _ _ _ _ _ _ _ a b c d (Or.inl ⟨_, rfl⟩)]
    simp only [hObj, if_neg e0, if_neg (show d2 ≠ n 2 by omega)]
  · left; refine ⟨rfl, ?_⟩
    simp only [hObj, if_pos e1, seen, Nat.add_eq_zero_iff, one_ne_zero, and_false, if_false]
  · right; rw [hhalf]; exact ⟨hne, by simp only [hObj, if_pos e0]⟩
  · left; refine ⟨rfl, ?_⟩
    rw [hx _ _ _ _ _ _ _ a b c d (Or.inl ⟨_, rfl⟩)]
    simp only [hObj, if_neg e1, Nat.add_eq_zero_iff, one_ne_zero, and_false, if_false]
  · right; rw [hhalf]; exact ⟨hne, by simp only [hObj, if_pos e0]⟩
  · left; refine ⟨rfl, ?_⟩
    simp only [hObj, if_pos e1, seen, Nat.add_eq_zero_iff, one_ne_zero, and_false, if_false]
  · left; refine ⟨rfl, ?_⟩
    rw [hx _ _ _ _ _ _ _ a b c d (Or.inl ⟨_, rfl⟩)]
    simp only [hObj, if_neg e0, if_neg (show d2 ≠ n 2 by omega)]
  · left; refine ⟨rfl, ?_⟩
    rw [hx _ _ _ _ _ _ _ a b c d (Or.inl ⟨_, rfl⟩)]
    simp only [hObj, if_neg e1, Nat.add_eq_zero_iff, one_ne_zero, and_false, if_false]

theorem around_shaped {dir : Dir} {s : Side} {d0 d1 d2 : ℕ} (f : ObjFacts big g n dir) (hb : g.S < big)
    (hs : SurfaceFits g n dir) (hx : Exact big g) (h0 : d0 < n 0) (h1 : d1 < n 1) (h2 : d2 < n 2) :
    Shaped (realLib big) (aroundPatch (realLib big) g n dir s d0 d1 d2) (hAr big g n dir s d0 d1 d2)
      (hAr big g n dir s d0 d1 (d2 + 1)) := by
  have hS := f.S
  have hhalf : half g.S g.S g.S s = g.S / 2 := by cases s <;> rfl
  have hne : g.S / 2 ≠ big := ne_of_lt (by linarith)
  have key : ∀ X0 X1, InCell (-1) 1 (-1) 1 n d0 d1 X0 X1 → 0 < hAr big g n dir s d0 d1 d2 X0 X1 ∧
      hAr big g n dir s d0 d1 d2 X0 X1 < hAr big g n dir s d0 d1 (d2 + 1) X0 X1 :=
    fun X0 X1 hcell => hAr_step f hs h0 h1 hcell h2
  unfold aroundPatch
  rcases layer_cases (n 2) d2 h2 with ⟨e0, e1, el⟩ | ⟨e0, e1, el⟩ | ⟨e0, e1, el⟩ | ⟨e0, e1, el⟩ <;> simp only [el] <;>
    apply mk_ob <;> intro X0 X1 a b c d <;> refine ⟨(key X0 X1 ⟨a, b, c, d⟩).1, (key X0 X1 ⟨a, b, c, d⟩).2, ?_, ?_⟩
  · left; refine ⟨rfl, ?_⟩
    rw [hx _ _ _ _ _ _ _ a b c d (Or.inl ⟨_, rfl⟩)]
    simp only [hAr, if_neg e0, if_neg (show d2 ≠ n 2 by omega)]
  · right; rw [hhalf]
    exact ⟨hne, by simp only [hAr, if_pos e1, Nat.add_eq_zero_iff, one_ne_zero, and_false, if_false]⟩
  · left; exact ⟨rfl, by simp only [hAr, if_pos e0, seen]⟩
  · left; refine ⟨rfl, ?_⟩
    rw [hx _ _ _ _ _ _ _ a b c d (Or.inl ⟨_, rfl⟩)]
    simp only [hAr, if_neg e1, Nat.add_eq_zero_iff, one_ne_zero, and_false, if_false]
  · left; exact ⟨rfl, by simp only [hAr, if_pos e0, seen]⟩
  · right; rw [hhalf]
    exact ⟨hne, by simp only [hAr, if_pos e1, Nat.add_eq_zero_iff, one_ne_zero, and_false, if_false]⟩
  · left; refine ⟨rfl, ?_⟩
    rw [hx _ _ _ _ _ _ _ a b c d (Or.inl ⟨_, rfl⟩)]
    simp only [hAr, if_neg e0, if_neg (show d2 ≠ n 2 by omega)]
  · left; refine ⟨rfl, ?_⟩
    rw [hx _ _ _ _ _ _ _ a b c d (Or.inl ⟨_, rfl⟩)]
    simp only [hAr, if_neg e1, Nat.add_eq_zero_iff, one_ne_zero, and_false, if_false]

theorem ranges_lt (dir : Dir) (s : Side) : (ranges dir s : ℝ × ℝ × ℝ × ℝ).1 < (ranges dir s : ℝ × ℝ × ℝ × ℝ).2.1 ∧
    (ranges dir s : ℝ × ℝ × ℝ × ℝ).2.2.1 < (ranges dir s : ℝ × ℝ × ℝ × ℝ).2.2.2 := by
  cases dir <;> cases s <;> norm_num [ranges, show ¬ (Dir.right = Dir.left) by decide]

theorem outer_shaped {dir : Dir} {s : Side} {d0 d1 d2 : ℕ} (hS : 0 < g.S) (hb : g.S < big)
    (hr : diag (realLib big) g.S g.S g.S < g.rout) (ho : OuterFits big g n dir s)
    (hx : Exact big g) (h0 : d0 < n 0) (h1 : d1 < n 1) (h2 : d2 < n 2) :
    Shaped (realLib big) (outerPatch (realLib big) g n dir s d0 d1 d2) (hOut big g n dir s d2)
      (hOut big g n dir s (d2 + 1)) := by
  have hne : xcOut g.S dir s ≠ big := by
    apply ne_of_lt
    cases dir <;> cases s <;> simp [xcOut, half, halfHemi] <;> linarith
  have hlast : rad (diag (realLib big) g.S g.S g.S) g.rout (n 2) (n 2) = g.rout := cut_last _ _ _ (by omega)
  obtain ⟨q0, q1⟩ := ranges_lt dir s
  have b0 := cut_bounds _ _ (n 0) d0 (by omega) q0 h0
  have b1 := cut_bounds _ _ (n 1) d1 (by omega) q1 h1
  unfold outerPatch
  rcases layer_cases (n 2) d2 h2 with ⟨e0, e1, el⟩ | ⟨e0, e1, el⟩ | ⟨e0, e1, el⟩ | ⟨e0, e1, el⟩ <;> simp only [el] <;>
    apply mk_ot <;> intro X0 X1 a b c d <;>
    have key := hOut_step (dir := dir) (s := s) (by omega : 0 < n 2) hS hr ho (b0.1.trans a) (b.trans b0.2) (b1.1.trans c)
      (d.trans b1.2) h2 <;>
    refine ⟨key.1, key.2, ?_, ?_, ?_⟩
  · exact Or.inl rfl
  · rw [hx _ _ _ _ _ _ _ a b c d (Or.inl ⟨_, rfl⟩)]
    simp only [hOut, if_neg e0]
  · rw [hx _ _ _ _ _ _ _ a b c d (Or.inl ⟨_, rfl⟩)]
    simp only [hOut, Nat.add_eq_zero_iff, one_ne_zero, and_false, if_false]
  · exact Or.inr ⟨hne, by simp only [hOut, if_pos e0]⟩
  · rw [hx _ _ _ _ _ _ _ a b c d (Or.inr ⟨_, rfl⟩)]
    have hd := dd_pos big X0 X1
    simp only [hOut, if_pos e0, flat]
    field_simp
  · rw [hx _ _ _ _ _ _ _ a b c d (Or.inl ⟨_, rfl⟩)]
    simp only [hOut, Nat.add_eq_zero_iff, one_ne_zero, and_false, if_false]
  · exact Or.inr ⟨hne, by simp only [hOut, if_pos e0]⟩
  · rw [hx _ _ _ _ _ _ _ a b c d (Or.inr ⟨_, rfl⟩)]
    have hd := dd_pos big X0 X1
    simp only [hOut, if_pos e0, flat]
    field_simp
  · rw [hx _ _ _ _ _ _ _ a b c d (Or.inl ⟨_, rfl⟩)]
    simp only [hOut, e1, hlast, if_neg (show n 2 ≠ 0 by omega)]
  · exact Or.inl rfl
  · rw [hx _ _ _ _ _ _ _ a b c d (Or.inl ⟨_, rfl⟩)]
    simp only [hOut, if_neg e0]
  · rw [hx _ _ _ _ _ _ _ a b c d (Or.inl ⟨_, rfl⟩)]
    simp only [hOut, Nat.add_eq_zero_iff, one_ne_zero, and_false, if_false]

end Elliptica.Tiling
