import Verif.Lemmas.SplitGridOuter
/-!
Lemmas for C76: the patches fill the region.
-/
namespace Elliptica.Tiling
open Elliptica.Coord Elliptica.SplitCS

variable {big : ℝ} {g : In ℝ} {n : Fin 3 → ℕ} {out : Bool}

theorem dd_eq (big X0 X1 : ℝ) : dd (realLib big) X0 X1 = Real.sqrt (1 + X0 ^ 2 + X1 ^ 2) := by
  show Real.sqrt _ = _
  rw [pow_two, pow_two]

/-- every point of the cube about an object is in a patch of that object, or in its hole -/
theorem inner_cover (G : Good big g n out) {dir : Dir} (hd : dir ∈ dirs g.kind) (x : Fin 3 → ℝ)
    (hx : ∀ i, |rel g dir x i| ≤ g.S / 2) :
    (∃ a, Valid g.kind out n a ∧ Contains (realLib big) (patchOf (realLib big) g n a) x) ∨
      (filled g.kind dir = false ∧ InHole g n dir x) := by
  have f := G.obj dir hd
  have around : ∀ s u X0 X1 d0 d1, 0 < u → d0 < n 0 → d1 < n 1 → InCell (-1) 1 (-1) 1 n d0 d1 X0 X1 →
      At s (rel g dir x) u X0 X1 → u ≤ g.S / 2 → seen g n dir s d0 d1 X0 X1 / dd (realLib big) X0 X1 ≤ u →
      ∃ a, Valid g.kind out n a ∧ Contains (realLib big) (patchOf (realLib big) g n a) x := by
    intro s u X0 X1 d0 d1 hu h0 h1 hc ha hus hlo
    obtain ⟨d2, h2, l, m⟩ := find_layer (fun k => hAr big g n dir s d0 d1 k X0 X1) u (n 2) (G.npos 2)
      (by simpa only [hAr, if_true] using hlo)
      (by have := G.npos 2; simpa only [hAr, if_true, if_neg (show n 2 ≠ 0 by omega)] using hus)
    have hv : Valid g.kind out n (.cs .around dir s d0 d1 d2) := ⟨hd, h0, h1, h2⟩
    exact ⟨_, hv, (in_c G (by simp) hv x).1.2 ⟨u, X0, X1, hc, l, m, ha⟩⟩
  by_cases hz : rel g dir x = 0
  · by_cases hf : filled g.kind dir = true
    · left
      have hl := f.l
      have hd0 : ∀ i, ∃ d, d < n i ∧ cut (-((g.obj dir).l / 2)) ((g.obj dir).l / 2) (n i) d ≤ rel g dir x i ∧
          rel g dir x i ≤ cut (-((g.obj dir).l / 2)) ((g.obj dir).l / 2) (n i) (d + 1) := by
        intro i
        apply cut_find _ _ _ (G.npos i)
        · rw [hz]; simp; linarith
        · rw [hz]; simp; linarith
      choose d hd1 hd2 using hd0
      have hv : Valid g.kind out n (.box dir (d 0) (d 1) (d 2)) := ⟨hd, hf, hd1 0, hd1 1, hd1 2⟩
      exact ⟨_, hv, (box_c (G.cube dir hd hf) d x).1.2 hd2⟩
    · right
      refine ⟨by simpa using hf, Or.inl fun i => ?_⟩
      have := congrFun hz i
      simp only [rel, Pi.zero_apply] at this
      linarith
  · obtain ⟨s, u, X0, X1, hu, r0, r1, ha⟩ := at_exists _ hz
    obtain ⟨d0, h0, c0, c0'⟩ := cut_find (-1) 1 (n 0) (G.npos 0) r0.1 r0.2
    obtain ⟨d1, h1, c1, c1'⟩ := cut_find (-1) 1 (n 1) (G.npos 1) r1.1 r1.2
    have hc : InCell (-1) 1 (-1) 1 n d0 d1 X0 X1 := ⟨c0, c0', c1, c1'⟩
    have hmax := at_max ha hu (abs_le.2 r0) (abs_le.2 r1)
    obtain ⟨i, hi⟩ := hmax.2
    have hus : u ≤ g.S / 2 := by rw [← hi]; exact hx i
    have hdd := dd_pos big X0 X1
    by_cases hlo : seen g n dir s d0 d1 X0 X1 / dd (realLib big) X0 X1 ≤ u
    · exact Or.inl (around s u X0 X1 d0 d1 hu h0 h1 hc ha hus hlo)
    · have hlo := not_le.1 hlo
      by_cases hf : filled g.kind dir = true
      · left
        have hcu := G.cube dir hd hf
        by_cases hl : (g.obj dir).l / 2 ≤ u
        · obtain ⟨d2, h2, l, m⟩ := find_layer (fun k => hObj big g n dir s d0 d1 k X0 X1) u (n 2) (G.npos 2)
            (by simpa only [hObj, if_true] using hl)
            (by have := G.npos 2; simpa only [hObj, if_true, if_neg (show n 2 ≠ 0 by omega)] using hlo.le)
          have hv : Valid g.kind out n (.cs .obj dir s d0 d1 d2) := ⟨hd, hf, h0, h1, h2⟩
          exact ⟨_, hv, (in_c G (by simp) hv x).1.2 ⟨u, X0, X1, hc, l, m, ha⟩⟩
        · have hl := not_le.1 hl
          have hd0 : ∀ i, ∃ d, d < n i ∧ cut (-((g.obj dir).l / 2)) ((g.obj dir).l / 2) (n i) d ≤ rel g dir x i ∧
              rel g dir x i ≤ cut (-((g.obj dir).l / 2)) ((g.obj dir).l / 2) (n i) (d + 1) := by
            intro i
            have := abs_le.1 ((hmax.1 i).trans hl.le)
            exact cut_find _ _ _ (G.npos i) this.1 this.2
          choose d hd1 hd2 using hd0
          have hv : Valid g.kind out n (.box dir (d 0) (d 1) (d 2)) := ⟨hd, hf, hd1 0, hd1 1, hd1 2⟩
          exact ⟨_, hv, (box_c (G.cube dir hd hf) d x).1.2 hd2⟩
      · right
        refine ⟨by simpa using hf, Or.inr ⟨s, d0, d1, u, X0, X1, hc, ha, hu, ?_⟩⟩
        rw [← dd_eq big, ← lt_div_iff₀ hdd]; exact hlo

/-- an outermost side and a ray within its ranges give an outermost patch -/
theorem outer_find (G : Good big g n out) (ho : out = true) {dir : Dir} (hd : dir ∈ dirs g.kind) {s : Side}
    (hs : skip .outer dir s = false) {x : Fin 3 → ℝ} {u X0 X1 : ℝ} (ha : At s x u X0 X1) (hu : xcOut g.S dir s ≤ u)
    (r : ((ranges dir s : ℝ × ℝ × ℝ × ℝ).1 ≤ X0 ∧ X0 ≤ (ranges dir s : ℝ × ℝ × ℝ × ℝ).2.1) ∧
      (ranges dir s : ℝ × ℝ × ℝ × ℝ).2.2.1 ≤ X1 ∧ X1 ≤ (ranges dir s : ℝ × ℝ × ℝ × ℝ).2.2.2)
    (hr : x 0 ^ 2 + x 1 ^ 2 + x 2 ^ 2 ≤ g.rout ^ 2) :
    ∃ a, Valid g.kind out n a ∧ Contains (realLib big) (patchOf (realLib big) g n a) x := by
  obtain ⟨d0, h0, c0, c0'⟩ := cut_find _ _ (n 0) (G.npos 0) r.1.1 r.1.2
  obtain ⟨d1, h1, c1, c1'⟩ := cut_find _ _ (n 1) (G.npos 1) r.2.1 r.2.2
  have hup := lt_of_lt_of_le (xcOut_pos G.S dir s) hu
  have hrp : 0 < g.rout := by
    have := diag_cube (big := big) (a := 0) (b := 0) G.S (by simp) (by simp)
    have h2 := mul_pos (by linarith [G.S] : 0 < g.S / 2) (dd_pos big 0 0)
    have := G.rout ho
    linarith
  have hdd := dd_pos big X0 X1
  have htop : u ≤ g.rout / dd (realLib big) X0 X1 := by
    rw [le_div_iff₀ hdd]
    rw [at_norm ha, ← dd_sq big] at hr
    apply le_of_sq_le_sq _ hrp.le
    nlinarith
  obtain ⟨d2, h2, l, m⟩ := find_layer (fun k => hOut big g n dir s k X0 X1) u (n 2) (G.npos 2)
    (by simpa only [hOut, if_true] using hu) (by simpa only [out_last G] using htop)
  have hv : Valid g.kind out n (.cs .outer dir s d0 d1 d2) := ⟨ho, hd, hs, h0, h1, h2⟩
  exact ⟨_, hv, (out_c G hv x).1.2 ⟨u, X0, X1, ⟨c0, c0', c1, c1'⟩, l, m, ha⟩⟩

/-- outside the cubes, within the outermost radius: an outermost patch -/
theorem outer_cover (G : Good big g n out) (ho : out = true) (x : Fin 3 → ℝ) (hx : ¬ InCubes g.kind g.S x)
    (hr : x 0 ^ 2 + x 1 ^ 2 + x 2 ^ 2 ≤ g.rout ^ 2) :
    ∃ a, Valid g.kind out n a ∧ Contains (realLib big) (patchOf (realLib big) g n a) x := by
  have hS := G.S
  by_cases hb : g.kind.binary = true
  · -- scale y by one half: the two cubes become one
    have hlm : Dir.left ∈ dirs g.kind := by simp [dirs, hb]
    have hrm : Dir.right ∈ dirs g.kind := by simp [dirs, hb]
    let v : Fin 3 → ℝ := fun i => if i = 1 then x 1 / 2 else x i
    have hv0 : v 0 = x 0 := by simp [v]
    have hv1 : v 1 = x 1 / 2 := by simp [v]
    have hv2 : v 2 = x 2 := by simp [v]
    have hv : v ≠ 0 := by
      intro h
      apply hx
      have e0 := congrFun h 0
      have e1 := congrFun h 1
      have e2 := congrFun h 2
      simp only [hv0, hv1, hv2, Pi.zero_apply] at e0 e1 e2
      have e1' : x 1 = 0 := by linarith
      refine ⟨?_, ?_, ?_⟩
      · rw [e0]; simp; linarith
      · rw [e1', hb]; simp; linarith
      · rw [e2]; simp; linarith
    obtain ⟨s, u, X0, X1, hu, r0, r1, a, b, c⟩ := at_exists v hv
    have hmax := (at_max ⟨a, b, c⟩ hu (abs_le.2 r0) (abs_le.2 r1)).1
    have hbig : g.S / 2 < u := by
      by_contra hle
      have hle := not_lt.1 hle
      apply hx
      have m0 := hmax 0
      have m1 := hmax 1
      have m2 := hmax 2
      rw [hv0] at m0
      rw [hv1, abs_div] at m1
      rw [hv2] at m2
      simp at m1
      refine ⟨by linarith, ?_, by linarith⟩
      rw [hb]; simp; linarith
    cases s
    · -- up: the second angle is along y
      simp only [perm, sgn, hv0, hv1, hv2] at a b c
      have hat : At .up x u X0 (2 * X1) := ⟨a, b, by show x 1 = _; linarith⟩
      rcases le_total X1 0 with h | h
      · exact outer_find G ho hlm (by decide) hat (by show g.S / 2 ≤ u; linarith)
          ⟨r0, by simp only [ranges, if_true]; exact ⟨by linarith, by linarith⟩⟩ hr
      · exact outer_find G ho hrm (by decide) hat (by show g.S / 2 ≤ u; linarith)
          ⟨r0, by simp only [ranges, show ¬ (Dir.right = Dir.left) by decide, if_false]; exact ⟨by linarith, by linarith⟩⟩ hr
    · -- down: the first angle
      simp only [perm, sgn, hv0, hv1, hv2] at a b c
      have hat : At .down x u (2 * X0) X1 := ⟨a, by show x 1 = _; linarith, c⟩
      rcases le_total X0 0 with h | h
      · exact outer_find G ho hlm (by decide) hat (by show g.S / 2 ≤ u; linarith)
          ⟨by simp only [ranges, if_true]; exact ⟨by linarith, by linarith⟩, r1⟩ hr
      · exact outer_find G ho hrm (by decide) hat (by show g.S / 2 ≤ u; linarith)
          ⟨by simp only [ranges, show ¬ (Dir.right = Dir.left) by decide, if_false]; exact ⟨by linarith, by linarith⟩, r1⟩ hr
    · simp only [perm, sgn, hv0, hv1, hv2, if_true] at a b c
      have hat : At .left x (2 * u) (X0 / 2) (X1 / 2) :=
        ⟨by show x 1 = (if (true : Bool) then (-1 : ℝ) else 1) * (2 * u); simp only [if_true]; linarith, by show x 0 = _; linarith, by show x 2 = _; linarith⟩
      exact outer_find G ho hlm (by decide) hat (by show g.S ≤ 2 * u; linarith)
        (by simp only [ranges]; exact ⟨⟨by linarith, by linarith⟩, by linarith, by linarith⟩) hr
    · simp only [perm, sgn, hv0, hv1, hv2] at a b c
      have hat : At .right x (2 * u) (X0 / 2) (X1 / 2) :=
        ⟨by show x 1 = (if (false : Bool) then (-1 : ℝ) else 1) * (2 * u); simp at a ⊢; linarith, by show x 2 = _; linarith, by show x 0 = _; linarith⟩
      exact outer_find G ho hrm (by decide) hat (by show g.S ≤ 2 * u; linarith)
        (by simp only [ranges]; exact ⟨⟨by linarith, by linarith⟩, by linarith, by linarith⟩) hr
    · simp only [perm, sgn, hv0, hv1, hv2] at a b c
      have hat : At .back x u X0 (2 * X1) := ⟨a, b, by show x 1 = _; linarith⟩
      rcases le_total X1 0 with h | h
      · exact outer_find G ho hlm (by decide) hat (by show g.S / 2 ≤ u; linarith)
          ⟨r0, by simp only [ranges, if_true]; exact ⟨by linarith, by linarith⟩⟩ hr
      · exact outer_find G ho hrm (by decide) hat (by show g.S / 2 ≤ u; linarith)
          ⟨r0, by simp only [ranges, show ¬ (Dir.right = Dir.left) by decide, if_false]; exact ⟨by linarith, by linarith⟩⟩ hr
    · simp only [perm, sgn, hv0, hv1, hv2] at a b c
      have hat : At .front x u (2 * X0) X1 := ⟨a, by show x 1 = _; linarith, c⟩
      rcases le_total X0 0 with h | h
      · exact outer_find G ho hlm (by decide) hat (by show g.S / 2 ≤ u; linarith)
          ⟨by simp only [ranges, if_true]; exact ⟨by linarith, by linarith⟩, r1⟩ hr
      · exact outer_find G ho hrm (by decide) hat (by show g.S / 2 ≤ u; linarith)
          ⟨by simp only [ranges, show ¬ (Dir.right = Dir.left) by decide, if_false]; exact ⟨by linarith, by linarith⟩, r1⟩ hr
  · have hb' : g.kind.binary = false := by simpa using hb
    have hm : Dir.center ∈ dirs g.kind := by simp [dirs, hb']
    have hv : x ≠ 0 := by
      rintro rfl
      apply hx
      refine ⟨?_, ?_, ?_⟩ <;> simp [hb'] <;> linarith
    obtain ⟨s, u, X0, X1, hu, r0, r1, ha⟩ := at_exists x hv
    have hmax := (at_max ha hu (abs_le.2 r0) (abs_le.2 r1)).1
    have hbig : g.S / 2 < u := by
      by_contra hle
      have hle := not_lt.1 hle
      apply hx
      refine ⟨(hmax 0).trans hle, ?_, (hmax 2).trans hle⟩
      rw [hb']; simpa using (hmax 1).trans hle
    have hxc : xcOut g.S .center s = g.S / 2 := by cases s <;> rfl
    exact outer_find G ho hm (by cases s <;> decide) ha (by rw [hxc]; exact hbig.le)
      (by cases s <;> exact ⟨r0, r1⟩) hr

/-- the grid fills its region -/
theorem cover (G : Good big g n out) (x : Fin 3 → ℝ) (hx : Domain g.kind out g.S g.rout x) :
    (∃ a, Valid g.kind out n a ∧ Contains (realLib big) (patchOf (realLib big) g n a) x) ∨
      ∃ dir ∈ dirs g.kind, filled g.kind dir = false ∧ InHole g n dir x := by
  by_cases hc : InCubes g.kind g.S x
  · obtain ⟨c0, c1, c2⟩ := hc
    have pick : ∀ dir ∈ dirs g.kind, (∀ i, |rel g dir x i| ≤ g.S / 2) → (∃ a, Valid g.kind out n a ∧
        Contains (realLib big) (patchOf (realLib big) g n a) x) ∨
        ∃ dir ∈ dirs g.kind, filled g.kind dir = false ∧ InHole g n dir x := by
      intro dir hd h
      rcases inner_cover G hd x h with h | h
      · exact Or.inl h
      · exact Or.inr ⟨dir, hd, h⟩
    by_cases hb : g.kind.binary = true
    · rw [hb] at c1
      have c1 := abs_le.1 c1
      simp only [if_true] at c1
      rcases le_total (x 1) 0 with h | h
      · refine pick .left (by simp [dirs, hb]) (all3 _ ?_ ?_ ?_)
        · simpa [rel, centre] using c0
        · simp only [rel, centre, if_true]; exact abs_le.2 ⟨by linarith, by linarith⟩
        · simpa [rel, centre] using c2
      · refine pick .right (by simp [dirs, hb]) (all3 _ ?_ ?_ ?_)
        · simpa [rel, centre] using c0
        · simp only [rel, centre, if_true]; exact abs_le.2 ⟨by linarith, by linarith⟩
        · simpa [rel, centre] using c2
    · have hb' : g.kind.binary = false := by simpa using hb
      rw [hb'] at c1
      refine pick .center (by simp [dirs, hb']) (all3 _ ?_ ?_ ?_)
      · simpa [rel, centre] using c0
      · simpa [rel, centre] using c1
      · simpa [rel, centre] using c2
  · by_cases ho : out = true
    · subst ho
      exact Or.inl (outer_cover G rfl x hc hx)
    · have : out = false := by simpa using ho
      subst this
      exact absurd hx hc

/-- the patches stay in the region -/
theorem within (G : Good big g n out) {a : Label} (hv : Valid g.kind out n a) (x : Fin 3 → ℝ)
    (hx : Contains (realLib big) (patchOf (realLib big) g n a) x) : Domain g.kind out g.S g.rout x := by
  have hS := G.S
  have inner : ∀ dir, innerOf a = some dir → dir ∈ dirs g.kind → Domain g.kind out g.S g.rout x := by
    intro dir hi hd
    have hc := ((inner_cubes hd hS x).1 ((inner_cube G hi hv x).1 hx)).1
    by_cases ho : out = true
    · subst ho
      obtain ⟨c0, c1, c2⟩ := hc
      show x 0 ^ 2 + x 1 ^ 2 + x 2 ^ 2 ≤ g.rout ^ 2
      have q0 : x 0 ^ 2 ≤ (g.S / 2) ^ 2 := sq_le_sq' (abs_le.1 c0).1 (abs_le.1 c0).2
      have q2 : x 2 ^ 2 ≤ (g.S / 2) ^ 2 := sq_le_sq' (abs_le.1 c2).1 (abs_le.1 c2).2
      have hro := G.rout rfl
      by_cases hb : g.kind.binary = true
      · rw [hb] at c1
        simp only [if_true] at c1
        have q1 : x 1 ^ 2 ≤ g.S ^ 2 := sq_le_sq' (abs_le.1 c1).1 (abs_le.1 c1).2
        have hof := G.outer rfl .left (by simp [dirs, hb]) .up (by decide) 1 (-2) (by norm_num [ranges]) (by norm_num [ranges])
          (by norm_num [ranges]) (by norm_num [ranges])
        have hle : rad (diag (realLib big) g.S g.S g.S) g.rout (n 2) 1 ≤ g.rout :=
          (cut_bounds _ _ (n 2) 0 (G.npos 2) hro (G.npos 2)).2
        have hsq := dd_sq big 1 (-2)
        have hp := dd_pos big 1 (-2)
        have hlt : g.S / 2 * dd (realLib big) 1 (-2) < g.rout := lt_of_lt_of_le hof hle
        have h0 : 0 ≤ g.S / 2 * dd (realLib big) 1 (-2) := mul_nonneg (by linarith) hp.le
        have h2 : (g.S / 2 * dd (realLib big) 1 (-2)) ^ 2 ≤ g.rout ^ 2 := sq_le_sq' (by linarith) hlt.le
        have h3 : (g.S / 2 * dd (realLib big) 1 (-2)) ^ 2 = g.S ^ 2 / 4 * 6 := by
          have : (g.S / 2 * dd (realLib big) 1 (-2)) ^ 2 = g.S ^ 2 / 4 * (dd (realLib big) 1 (-2) * dd (realLib big) 1 (-2)) := by ring
          rw [this, hsq]; ring
        rw [h3] at h2
        nlinarith
      · have hb' : g.kind.binary = false := by simpa using hb
        rw [hb'] at c1
        simp only [Bool.false_eq_true, if_false] at c1
        have q1 : x 1 ^ 2 ≤ (g.S / 2) ^ 2 := sq_le_sq' (abs_le.1 c1).1 (abs_le.1 c1).2
        have hdc := diag_cube (big := big) (a := 1) (b := 1) hS (by simp) (by simp)
        have hsq := dd_sq big 1 1
        have hp := dd_pos big 1 1
        have hlt : g.S / 2 * dd (realLib big) 1 1 < g.rout := lt_of_le_of_lt hdc hro
        have h0 : 0 ≤ g.S / 2 * dd (realLib big) 1 1 := mul_nonneg (by linarith) hp.le
        have h2 : (g.S / 2 * dd (realLib big) 1 1) ^ 2 ≤ g.rout ^ 2 := sq_le_sq' (by linarith) hlt.le
        have h3 : (g.S / 2 * dd (realLib big) 1 1) ^ 2 = g.S ^ 2 / 4 * 3 := by
          have : (g.S / 2 * dd (realLib big) 1 1) ^ 2 = g.S ^ 2 / 4 * (dd (realLib big) 1 1 * dd (realLib big) 1 1) := by ring
          rw [this, hsq]; ring
        rw [h3] at h2
        nlinarith
    · have : out = false := by simpa using ho
      subst this
      exact hc
  match a, hv, inner with
  | .box dir d0 d1 d2, hv, inner => exact inner dir rfl hv.1
  | .cs .obj dir s d0 d1 d2, hv, inner => exact inner dir rfl hv.1
  | .cs .around dir s d0 d1 d2, hv, inner => exact inner dir rfl hv.1
  | .cs .outer dir s d0 d1 d2, hv, _ =>
    obtain ⟨u, X0, X1, hc, l, m, ha⟩ := (out_c G hv x).1.1 hx
    have ho := hv.1
    subst ho
    show x 0 ^ 2 + x 1 ^ 2 + x 2 ^ 2 ≤ g.rout ^ 2
    have h2 := hv.2.2.2.2.2
    have b := out_bounds G (k := d2) hv hc h2.le
    have b' := out_bounds G (k := d2 + 1) hv hc h2
    have hup : 0 < u := lt_of_lt_of_le (xcOut_pos hS dir s) (b.1.trans l)
    have hdd := dd_pos big X0 X1
    have htop : u * dd (realLib big) X0 X1 ≤ g.rout := (le_div_iff₀ hdd).1 (m.trans b'.2)
    rw [at_norm ha, ← dd_sq big]
    have h0 : 0 ≤ u * dd (realLib big) X0 X1 := mul_nonneg hup.le hdd.le
    nlinarith

/-- no two patches overlap -/
theorem disjoint (G : Good big g n out) {a b : Label} (hv : Valid g.kind out n a) (hw : Valid g.kind out n b) (x : Fin 3 → ℝ)
    (hx : Interior (realLib big) (patchOf (realLib big) g n a) x)
    (hy : Contains (realLib big) (patchOf (realLib big) g n b) x) : a = b := by
  have hS := G.S
  have dirOf : ∀ (c : Label) dir, innerOf c = some dir → Valid g.kind out n c → dir ∈ dirs g.kind := by
    intro c dir hi hv
    match c, hi, hv with
    | .box _ _ _ _, hi, hv => cases hi; exact hv.1
    | .cs .obj _ _ _ _ _, hi, hv => cases hi; exact hv.1
    | .cs .around _ _ _ _ _, hi, hv => cases hi; exact hv.1
  have notInner : ∀ c, innerOf c = none → ∃ dir s d0 d1 d2, c = .cs .outer dir s d0 d1 d2 := by
    intro c h
    match c, h with
    | .cs .outer dir s d0 d1 d2, _ => exact ⟨_, _, _, _, _, rfl⟩
  cases hia : innerOf a with
  | some da =>
    have hda := dirOf a da hia hv
    have ca := (inner_cubes hda hS x).2 ((inner_cube G hia hv x).2 hx)
    cases hib : innerOf b with
    | some db =>
      have hdb := dirOf b db hib hw
      have cb := (inner_cubes hdb hS x).1 ((inner_cube G hib hw x).1 hy)
      have hdd : da = db := by
        rcases dirs_cases hda with ⟨hb, rfl | rfl⟩ | ⟨hb, rfl⟩ <;> rcases dirs_cases hdb with ⟨hb', rfl | rfl⟩ | ⟨hb', rfl⟩ <;>
          first
          | rfl
          | (rw [hb] at hb'; exact absurd hb' (by decide))
          | (have p := ca.2.1 rfl; have q := cb.2.2 rfl; linarith)
          | (have p := ca.2.2 rfl; have q := cb.2.1 rfl; linarith)
      subst hdd
      exact inner_disj G hia hib hv hw x hx hy
    | none =>
      obtain ⟨dir, s, d0, d1, d2, rfl⟩ := notInner b hib
      obtain ⟨u, X0, X1, hc, l, m, ha⟩ := (out_c G hw x).1.1 hy
      have b := out_bounds G (k := d2) hw hc hw.2.2.2.2.2.le
      have hup : 0 < u := lt_of_lt_of_le (xcOut_pos hS dir s) (b.1.trans l)
      exact absurd ca.1 ((out_away hw.2.1 ha hup).1 (b.1.trans l))
  | none =>
    obtain ⟨dir, s, d0, d1, d2, rfl⟩ := notInner a hia
    obtain ⟨u, X0, X1, hc, l, m, ha⟩ := (out_c G hv x).2.1 hx
    have bd := out_bounds G (k := d2) hv hc.le hv.2.2.2.2.2.le
    have hup : 0 < u := lt_trans (xcOut_pos hS dir s) (lt_of_le_of_lt bd.1 l)
    cases hib : innerOf b with
    | some db =>
      have hdb := dirOf b db hib hw
      have cb := (inner_cubes hdb hS x).1 ((inner_cube G hib hw x).1 hy)
      exact absurd cb.1 ((out_away hv.2.1 ha hup).2 (lt_of_le_of_lt bd.1 l))
    | none =>
      obtain ⟨dir', s', e0, e1, e2, rfl⟩ := notInner b hib
      obtain ⟨u', Y0, Y1, hc', l', m', ha'⟩ := (out_c G hw x).1.1 hy
      have bd' := out_bounds G (k := e2) hw hc' hw.2.2.2.2.2.le
      have hup' : 0 < u' := lt_of_lt_of_le (xcOut_pos hS dir' s') (bd'.1.trans l')
      obtain ⟨ho, hd, hs, h0, h1, h2⟩ := id hv
      obtain ⟨ho', hd', hs', k0, k1, k2⟩ := id hw
      obtain ⟨rfl, rfl⟩ := out_side hd hd' hs hs' ha ha' hup hup' (out_range' h0 h1 hc) (out_range k0 k1 hc')
      obtain ⟨rfl, rfl, rfl⟩ := at_det ha ha' hup
      obtain ⟨rfl, rfl⟩ := cell_same (ranges_lt dir s).1 (ranges_lt dir s).2 h0 h1 k0 k1 hc hc'
      rw [layer_unique (fun k => hOut big g n dir s k Y0 Y1) (n 2) (fun k hk => (out_step G hv hc.le hk).2) h2 k2 l m l' m']

end Elliptica.Tiling
