import Verif.Props.SplitGrid
/-!
C76: a binary grid that meets the hypotheses, and three grids the program accepts although a patch sticks out, two patches
overlap, or a point is in no patch.
-/
namespace Elliptica.Tiling
open Elliptica.Coord Elliptica.SplitCS

/-- a grid with separation 10, central boxes 1 x 1 x h, smallest radius 2, four nodes per patch -/
noncomputable def demo (kind : Kind) (rout h : ℝ) (na n2 : ℕ) (surf : Side → ℝ → ℝ → ℝ) : In ℝ where
  kind := kind
  S := 10
  rout := rout
  given := fun i => if i = 2 then n2 else na
  maxN := fun _ => 4
  obj := fun _ => ⟨1, 1, h, 2, surf⟩
  samp := fun _ _ _ _ f => f

theorem sqrt_between {a b c : ℝ} (ha : 0 ≤ a) (hc : 0 ≤ c) (h1 : a * a < b) (h2 : b < c * c) :
    a < Real.sqrt b ∧ Real.sqrt b < c := by
  have hb : 0 ≤ b := (mul_self_nonneg a).trans h1.le
  have hs := Real.mul_self_sqrt hb
  have h0 := Real.sqrt_nonneg b
  exact ⟨by nlinarith, by nlinarith⟩

theorem diag_ten (big : ℝ) : 8 < diag (realLib big) 10 10 10 ∧ diag (realLib big) 10 10 10 < 9 := by
  have h := sqrt_between (a := 16) (b := 10 * 10 + 10 * 10 + 10 * 10) (c := 18) (by norm_num) (by norm_num) (by norm_num)
    (by norm_num)
  unfold diag
  have e : (realLib big).sqrt (10 * 10 + 10 * 10 + 10 * 10) = Real.sqrt (10 * 10 + 10 * 10 + 10 * 10) := rfl
  rw [e]
  generalize Real.sqrt _ = t at h ⊢
  constructor <;> linarith [h.1, h.2]

theorem demo_ok {e : ℝ} {kind : Kind} {rout h : ℝ} {na n2 : ℕ} {surf : Side → ℝ → ℝ → ℝ} (h0 : 0 < h) (h2 : h ≤ 2)
    (hr : hasOuter e (demo kind rout h na n2 surf) = true → (if kind.binary then 9 else 20) ≤ rout) :
    ∃ r, build (realLib 1000) e (demo kind rout h na n2 surf) = .ok r := by
  rw [C76_accepts]
  refine ⟨fun i => by simp [demo], by norm_num [demo], fun dir _ => ?_, fun ho => ?_⟩
  · refine ⟨⟨by simp [demo], by simp [demo], h0⟩, ?_, by norm_num [demo]⟩
    show Real.sqrt (1 * 1 + 1 * 1 + h * h) / 2 < 2
    have : Real.sqrt (1 * 1 + 1 * 1 + h * h) < 4 := by
      rw [Real.sqrt_lt' (by norm_num)]; nlinarith
    generalize Real.sqrt _ = t at this ⊢
    linarith
  · have hd := (diag_ten 1000).2
    have h9 := hr ho
    show (if kind.binary = true then (10 : ℝ) / 2 else 2 * 10) ≤ rout ∧ diag (realLib 1000) 10 10 10 < rout
    by_cases hb : kind.binary = true
    · rw [if_pos hb] at h9 ⊢; exact ⟨by linarith, by linarith⟩
    · rw [if_neg hb] at h9 ⊢; exact ⟨by linarith, by linarith⟩

theorem demo_split (kind : Kind) (rout h : ℝ) (na n2 : ℕ) (surf : Side → ℝ → ℝ → ℝ) (ha : na = 8 ∨ na = 4) (hn : n2 = 8 ∨ n2 = 4) :
    ∀ i, split ((demo kind rout h na n2 surf).given i) ((demo kind rout h na n2 surf).maxN i) =
      .ok ((fun i : Fin 3 => if i = 2 then n2 / 4 else na / 4) i, 4) := by
  have h8 : split 8 4 = .ok (8 / 4, 4) := by decide
  have h4 : split 4 4 = .ok (4 / 4, 4) := by decide
  rcases ha with rfl | rfl <;> rcases hn with rfl | rfl <;> apply all3 <;> first | exact h8 | exact h4

/-- a surface that is not a sphere: radius 2 at the edges of each side, 2 + c in the middle -/
noncomputable def bump (c : ℝ) : Side → ℝ → ℝ → ℝ := fun _ X0 X1 => 2 + c * ((1 - X0 ^ 2) * (1 - X1 ^ 2))

theorem bump_range {c X0 X1 : ℝ} {s : Side} (hc : 0 ≤ c) (h0 : |X0| ≤ 1) (h1 : |X1| ≤ 1) :
    2 ≤ bump c s X0 X1 ∧ bump c s X0 X1 ≤ 2 + c := by
  have a0 : X0 ^ 2 ≤ 1 := by have := abs_le.1 h0; nlinarith
  have a1 : X1 ^ 2 ≤ 1 := by have := abs_le.1 h1; nlinarith
  have p : 0 ≤ (1 - X0 ^ 2) * (1 - X1 ^ 2) := mul_nonneg (by linarith) (by linarith)
  have q : (1 - X0 ^ 2) * (1 - X1 ^ 2) ≤ 1 := by nlinarith [sq_nonneg X0, sq_nonneg X1]
  unfold bump
  exact ⟨by nlinarith, by nlinarith⟩

theorem demo_exact (kind : Kind) (rout h : ℝ) (na n2 : ℕ) (surf : Side → ℝ → ℝ → ℝ) :
    Exact 1000 (demo kind rout h na n2 surf) := fun _ _ _ _ _ _ _ _ _ _ _ _ => rfl

/-- the hypotheses of C76 hold for a neutron star binary with deformed stars, split in two along every direction -/
theorem demo_fits (e : ℝ) : Fits 1000 (demo (.nsns true) 40 1 8 8 (bump 1)) (fun i => if i = 2 then 8 / 4 else 8 / 4)
    (hasOuter e (demo (.nsns true) 40 1 8 8 (bump 1))) where
  small := by norm_num [demo]
  exact := demo_exact _ _ _ _ _ _
  surf := by
    intro dir _ s d0 d1 X0 X1 h0 h1 hc
    obtain ⟨u0, u1⟩ := cell_unit h0 h1 hc
    obtain ⟨a, b⟩ := bump_range (c := 1) (s := s) (by norm_num) u0 u1
    have e : rad (2 : ℝ) (10 / 2) 2 1 = 7 / 2 := by norm_num [rad]
    refine ⟨a, ?_⟩
    show bump 1 s X0 X1 < rad (2 : ℝ) (10 / 2) 2 1
    rw [e]; linarith
  cube := fun _ _ _ => ⟨rfl, rfl⟩
  corner := by
    intro _ _
    show Real.sqrt (3 / 2) * 10 < rad (diag (realLib 1000) 10 10 10) 40 2 1
    have h := (sqrt_between (a := 1) (b := 3 / 2) (c := 2) (by norm_num) (by norm_num) (by norm_num) (by norm_num)).2
    have hd := (diag_ten 1000).1
    unfold rad
    push_cast
    linarith

example : ∃ ps m', build (realLib 1000) 0 (demo (.nsns true) 40 1 8 8 (bump 1)) = .ok (ps, m') ∧
    ∀ x : Fin 3 → ℝ, x 0 ^ 2 + x 1 ^ 2 + x 2 ^ 2 ≤ 40 ^ 2 → ∃ p ∈ ps, Contains (realLib 1000) p x := by
  have ho : hasOuter 0 (demo (.nsns true) 40 1 8 8 (bump 1)) = true := by
    norm_num [hasOuter, Tol.eql, demo]
  obtain ⟨⟨ps, m'⟩, hb⟩ := demo_ok (e := 0) (kind := .nsns true) (rout := 40) (h := 1) (na := 8) (n2 := 8) (surf := bump 1)
    (by norm_num) (by norm_num) (fun _ => by simp [Kind.binary]; norm_num)
  refine ⟨ps, m', hb, fun x hx => ?_⟩
  rcases C76_cover_partial (m := fun _ => 4) (demo_split _ _ _ _ _ _ (Or.inl rfl) (Or.inl rfl)) hb (demo_fits 0) x
    (by rw [ho]; exact hx) with h | ⟨dir, -, hf, -⟩
  · exact h
  · cases hf

theorem f02 : ((0 : Fin 3) = 2) = False := by decide
theorem f12 : ((1 : Fin 3) = 2) = False := by decide
theorem f20 : ((2 : Fin 3) = 0) = False := by decide
theorem f21 : ((2 : Fin 3) = 1) = False := by decide

/-- C76 is violated at the corners: for a binary with separation 10 and outermost radius 11 the program builds the grid
although the corners of the two cubes are farther out than the outermost sphere; a patch holds a point outside. -/
theorem C76_corner_violation : ∃ ps m', build (realLib 1000) 0 (demo (.nsns true) 11 1 4 4 (bump 1)) = .ok (ps, m') ∧
    hasOuter 0 (demo (.nsns true) 11 1 4 4 (bump 1)) = true ∧
    ∃ p ∈ ps, ∃ x, Contains (realLib 1000) p x ∧ ¬ Domain (.nsns true) true 10 11 x := by
  have ho : hasOuter 0 (demo (.nsns true) 11 1 4 4 (bump 1)) = true := by
    norm_num [hasOuter, Tol.eql, demo]
  obtain ⟨⟨ps, m'⟩, hb⟩ := demo_ok (e := 0) (kind := .nsns true) (rout := 11) (h := 1) (na := 4) (n2 := 4) (surf := bump 1)
    (by norm_num) (by norm_num) (fun _ => by simp [Kind.binary]; norm_num)
  obtain ⟨hps, -⟩ := build_ok (m := fun _ => 4) (demo_split _ _ _ _ _ _ (Or.inr rfl) (Or.inr rfl)) hb
  refine ⟨ps, m', hb, ho, patchOf (realLib 1000) (demo (.nsns true) 11 1 4 4 (bump 1)) (fun i => if i = 2 then 4 / 4 else 4 / 4)
    (.cs .outer .left .left 0 0 0), ?_, _, ⟨fun i => if i = 2 then 0 else 1 / 2, ?_, rfl⟩, ?_⟩
  · rw [hps, ho]
    refine List.mem_map_of_mem ((mem_labels _ _ _).2 ?_)
    exact ⟨rfl, by simp [demo, dirs, Kind.binary], rfl, by decide, by decide, by decide⟩
  · apply all3 <;> norm_num [outerPatch, layer, mk, cut, ranges, f02, f12, f20, f21]
  · have e : ∀ i, xOfX (realLib 1000) (outerPatch (realLib 1000) (demo (.nsns true) 11 1 4 4 (bump 1))
        (fun i => if i = 2 then 4 / 4 else 4 / 4) .left .left 0 0 0) (fun i => if i = 2 then 0 else 1 / 2) i =
        if i = 1 then -10 else 5 := by
      apply all3 <;> norm_num [xOfX, outerPatch, layer, mk, x1, linear, perm, sgn, xcOut, halfHemi, demo, realLib, f02, f12, f20, f21]
    simp only [Domain, if_true, e]
    norm_num [f21]

/-- C76 is violated by an object larger than the first sphere around it, which nothing checks: a single star whose radius
varies between 2 and 4, in two radial layers; two patches overlap. -/
theorem C76_overlap_violation : ∃ ps m', build (realLib 1000) 1 (demo .sns 0 1 4 8 (bump 2)) = .ok (ps, m') ∧
    ¬ ps.Pairwise fun p q => ∀ x, (Interior (realLib 1000) p x → ¬ Contains (realLib 1000) q x) ∧
      (Interior (realLib 1000) q x → ¬ Contains (realLib 1000) p x) := by
  have hex := demo_ok (e := 1) (kind := .sns) (rout := 0) (h := 1) (na := 4) (n2 := 8) (surf := bump 2)
    (by norm_num) (by norm_num) (fun h => by norm_num [hasOuter, Tol.eql, demo] at h)
  obtain ⟨⟨ps, m'⟩, hb⟩ := hex
  have hn := demo_split .sns 0 1 4 8 (bump 2) (Or.inr rfl) (Or.inl rfl)
  obtain ⟨hps, -⟩ := build_ok (m := fun _ => 4) hn hb
  refine ⟨ps, m', hb, fun hp => ?_⟩
  set n : Fin 3 → ℕ := fun i => if i = 2 then 8 / 4 else 4 / 4 with hnn
  set g := demo .sns 0 1 4 8 (bump 2) with hg
  rw [hps, List.pairwise_map] at hp
  have hsym : Std.Symm (fun a b : Label => ∀ x,
      (Interior (realLib 1000) (patchOf (realLib 1000) g n a) x → ¬ Contains (realLib 1000) (patchOf (realLib 1000) g n b) x) ∧
      (Interior (realLib 1000) (patchOf (realLib 1000) g n b) x → ¬ Contains (realLib 1000) (patchOf (realLib 1000) g n a) x)) :=
    ⟨fun a b h x => ⟨(h x).2, (h x).1⟩⟩
  have va : Valid g.kind (hasOuter 1 g) n (.cs .obj .center .up 0 0 1) :=
    ⟨by simp [hg, demo, dirs, Kind.binary], rfl, by decide, by decide, by decide⟩
  have vb : Valid g.kind (hasOuter 1 g) n (.cs .around .center .up 0 0 1) :=
    ⟨by simp [hg, demo, dirs, Kind.binary], by decide, by decide, by decide⟩
  have h := (hp.forall ((mem_labels _ _ _).2 va) ((mem_labels _ _ _).2 vb) (by decide)
    (fun i => if i = 2 then 15 / 4 else 0)).1
  have hdg := sqrt_between (a := 1) (b := 1 * 1 + 1 * 1 + 1 * 1) (c := 2) (by norm_num) (by norm_num) (by norm_num) (by norm_num)
  have hd0 : dd (realLib 1000) 0 0 = 1 := by simp [dd, realLib]
  have hatt : At .up (fun i => (if i = 2 then (15 : ℝ) / 4 else 0) - centre g.S .center i) (15 / 4) 0 0 := by
    refine ⟨?_, ?_, ?_⟩ <;> simp [perm, sgn, centre]
  refine h ?_ ?_
  · have hsh : Shaped (realLib 1000) (objPatch (realLib 1000) g n .center .up 0 0 1)
        (fun X0 X1 => rad (diag (realLib 1000) 1 1 1) 2 2 1 / dd (realLib 1000) X0 X1)
        (fun X0 X1 => bump 2 .up X0 X1 / dd (realLib 1000) X0 X1) := by
      have e : objPatch (realLib 1000) g n .center .up 0 0 1 = mk g .obScs .up (centre g.S .center) (cut (-1) 1 1 0)
          (cut (-1) 1 1 1) (cut (-1) 1 1 0) (cut (-1) 1 1 1) (fun _ _ => rad (diag (realLib 1000) 1 1 1) 2 2 1)
          (bump 2 .up) 1000 1000 := rfl
      rw [e]
      apply mk_ob
      intro X0 X1 a b c d
      have u0 : |X0| ≤ 1 := abs_le.2 ⟨by rwa [cut_zero] at a, by rwa [cut_last _ _ _ one_pos] at b⟩
      have u1 : |X1| ≤ 1 := abs_le.2 ⟨by rwa [cut_zero] at c, by rwa [cut_last _ _ _ one_pos] at d⟩
      have hbp := (bump_range (c := 2) (s := .up) (by norm_num) u0 u1).1
      have hd := dd_pos 1000 X0 X1
      have r1 : 0 < rad (diag (realLib 1000) 1 1 1) 2 2 1 ∧ rad (diag (realLib 1000) 1 1 1) 2 2 1 < 2 := by
        unfold rad
        have e : diag (realLib 1000) 1 1 1 = Real.sqrt (1 * 1 + 1 * 1 + 1 * 1) / 2 := rfl
        rw [e]
        generalize Real.sqrt _ = t at hdg ⊢
        push_cast
        constructor <;> linarith [hdg.1, hdg.2]
      refine ⟨div_pos r1.1 hd, div_lt_div_of_pos_right (by linarith) hd, Or.inl ⟨rfl, rfl⟩, Or.inl ⟨rfl, rfl⟩⟩
    refine (hsh.interior_iff _).2 ⟨15 / 4, 0, 0, ?_, ?_, ?_, hatt⟩
    · norm_num [objPatch, layer, hnn, mk, cut, f02, f12, f20, f21]
    · simp only [hd0, div_one, rad]
      have e : diag (realLib 1000) 1 1 1 = Real.sqrt (1 * 1 + 1 * 1 + 1 * 1) / 2 := rfl
      rw [e]
      generalize Real.sqrt _ = t at hdg ⊢
      push_cast
      linarith [hdg.2]
    · simp only [hd0, div_one, bump]; norm_num
  · have hsh : Shaped (realLib 1000) (aroundPatch (realLib 1000) g n .center .up 0 0 1)
        (fun X0 X1 => rad 2 (10 / 2) 2 1 / dd (realLib 1000) X0 X1) (fun _ _ => 10 / 2) := by
      have e : aroundPatch (realLib 1000) g n .center .up 0 0 1 = mk g .obScs .up (centre g.S .center) (cut (-1) 1 1 0)
          (cut (-1) 1 1 1) (cut (-1) 1 1 0) (cut (-1) 1 1 1) (fun _ _ => rad 2 (10 / 2) 2 1)
          (flat (realLib 1000) (10 / 2)) 1000 (10 / 2) := rfl
      rw [e]
      apply mk_ob
      intro X0 X1 a b c d
      have hd := dd_pos 1000 X0 X1
      have hd1 := dd_ge 1000 X0 X1
      refine ⟨by norm_num [rad]; positivity, ?_, Or.inl ⟨rfl, rfl⟩, Or.inr ⟨by norm_num, rfl⟩⟩
      rw [div_lt_iff₀ hd]
      norm_num [rad]
      linarith
    refine (hsh.contains_iff _).2 ⟨15 / 4, 0, 0, ?_, ?_, ?_, hatt⟩
    · norm_num [aroundPatch, layer, hnn, mk, cut, f02, f12, f20, f21]
    · simp only [hd0, div_one]; norm_num [rad]
    · norm_num

/-- C76 is violated by a central box that is not a cube, which nothing checks: a box 1 x 1 x 2 in a star of radius 2
leaves a gap between the box and the patches over its sides, outside every patch. -/
theorem C76_gap_violation : ∃ ps m', build (realLib 1000) 1 (demo .sns 0 2 4 4 (bump 0)) = .ok (ps, m') ∧
    ∃ x, Domain .sns false 10 0 x ∧ ∀ p ∈ ps, ¬ Contains (realLib 1000) p x := by
  have hno : hasOuter 1 (demo .sns 0 2 4 4 (bump 0)) = false := by norm_num [hasOuter, Tol.eql, demo]
  have hex := demo_ok (e := 1) (kind := .sns) (rout := 0) (h := 2) (na := 4) (n2 := 4) (surf := bump 0)
    (by norm_num) (by norm_num) (fun h => by rw [hno] at h; cases h)
  obtain ⟨⟨ps, m'⟩, hb⟩ := hex
  have hn := demo_split .sns 0 2 4 4 (bump 0) (Or.inr rfl) (Or.inr rfl)
  obtain ⟨hps, -, -, hok, -⟩ := build_ok (m := fun _ => 4) hn hb
  rw [hno] at hps
  refine ⟨ps, m', hb, fun i => if i = 0 then 3 / 5 else if i = 1 then 0 else 4 / 5, ?_, fun p hp => ?_⟩
  · norm_num [Domain, InCubes, Kind.binary, f20, f21]
  · rw [hps, List.mem_map] at hp
    obtain ⟨a, ha, rfl⟩ := hp
    have hv := (mem_labels _ _ _).1 ha
    have hcen : ∀ dir, dir ∈ dirs (demo .sns 0 2 4 4 (bump 0)).kind → dir = .center := by
      intro dir hd; simpa [demo, dirs, Kind.binary] using hd
    have hx0 : ∀ s u X0 X1, 0 < u → |X0| ≤ 1 → |X1| ≤ 1 →
        At s (fun i : Fin 3 => (if i = 0 then (3 : ℝ) / 5 else if i = 1 then 0 else 4 / 5) - centre 10 .center i) u X0 X1 →
        s = .up ∧ u = 4 / 5 := by
      intro s u X0 X1 hu h0 h1 hat
      obtain ⟨a, b⟩ := at_max hat hu h0 h1
      obtain ⟨i, hi⟩ := b
      have h2 := a 2
      have h4 : |(4 : ℝ) / 5| = 4 / 5 := abs_of_pos (by norm_num)
      have h3 : |(3 : ℝ) / 5| = 3 / 5 := abs_of_pos (by norm_num)
      simp only [centre, f20, f21, if_false, sub_zero, h4] at h2
      have hu4 : u = 4 / 5 := by
        revert i
        apply all3
        · intro hi; simp [centre, h3] at hi; linarith
        · intro hi; simp [centre] at hi; linarith
        · intro hi; simp only [centre, f20, f21, if_false, sub_zero, h4] at hi; linarith
      refine ⟨?_, hu4⟩
      obtain ⟨q, -, -⟩ := hat
      subst hu4
      cases s <;> first | rfl | (exfalso; norm_num [perm, sgn, centre, f20, f21] at q)
    match a, hv with
    | .box dir d0 d1 d2, hv =>
      obtain ⟨hd, -, h0, -, -⟩ := hv
      obtain rfl := hcen dir hd
      obtain rfl : d0 = 0 := by simp at h0; omega
      intro hc
      have := (hc 0).2
      norm_num [centre, cen, demo] at this
    | .cs .obj dir s d0 d1 d2, hv =>
      obtain ⟨hd, -, h0, h1, h2⟩ := hv
      obtain rfl := hcen dir hd
      obtain rfl : d0 = 0 := by simp at h0; omega
      obtain rfl : d1 = 0 := by simp at h1; omega
      obtain rfl : d2 = 0 := by simp at h2; omega
      have unit : ∀ X0 X1, cut (-1) 1 1 0 ≤ X0 → X0 ≤ cut (-1) 1 1 1 → cut (-1) 1 1 0 ≤ X1 → X1 ≤ cut (-1) 1 1 1 →
          |X0| ≤ (1 : ℝ) ∧ |X1| ≤ (1 : ℝ) := fun X0 X1 a b c d =>
        ⟨abs_le.2 ⟨by rwa [cut_zero] at a, by rwa [cut_last _ _ _ one_pos] at b⟩,
         abs_le.2 ⟨by rwa [cut_zero] at c, by rwa [cut_last _ _ _ one_pos] at d⟩⟩
      have e : objPatch (realLib 1000) (demo .sns 0 2 4 4 (bump 0)) (fun i => if i = 2 then 4 / 4 else 4 / 4) .center s 0 0 0 =
          mk (demo .sns 0 2 4 4 (bump 0)) .obScs s (centre 10 .center) (cut (-1) 1 1 0) (cut (-1) 1 1 1) (cut (-1) 1 1 0)
            (cut (-1) 1 1 1) (flat (realLib 1000) (half 1 1 2 s)) (bump 0 s) (half 1 1 2 s) 1000 := rfl
      have hsh : Shaped (realLib 1000) (objPatch (realLib 1000) (demo .sns 0 2 4 4 (bump 0))
          (fun i => if i = 2 then 4 / 4 else 4 / 4) .center s 0 0 0)
          (fun _ _ => half 1 1 2 s) (fun X0 X1 => bump 0 s X0 X1 / dd (realLib 1000) X0 X1) := by
        rw [e]
        apply mk_ob
        intro X0 X1 a b c d
        obtain ⟨u0, u1⟩ := unit X0 X1 a b c d
        have hbp := (bump_range (c := 0) (s := s) (by norm_num) u0 u1).1
        have hd := dd_pos 1000 X0 X1
        have hd2 : dd (realLib 1000) X0 X1 < 2 := by
          have := dd_sq 1000 X0 X1
          have a0 : X0 * X0 ≤ 1 := by have := abs_le.1 u0; nlinarith
          have a1 : X1 * X1 ≤ 1 := by have := abs_le.1 u1; nlinarith
          nlinarith
        have hh : 0 < half (1 : ℝ) 1 2 s ∧ half (1 : ℝ) 1 2 s ≤ 1 := by cases s <;> norm_num [half]
        refine ⟨hh.1, ?_, Or.inr ⟨by linarith [hh.2], rfl⟩, Or.inl ⟨rfl, rfl⟩⟩
        rw [lt_div_iff₀ hd]
        nlinarith [hh.1, hh.2]
      intro hc
      obtain ⟨u, X0, X1, ⟨a, b, c, d⟩, hlo, -, hat⟩ := (hsh.contains_iff _).1 hc
      obtain ⟨u0, u1⟩ := unit X0 X1 a b c d
      have hu : 0 < u := by
        have : 0 < half (1 : ℝ) 1 2 s := by cases s <;> norm_num [half]
        linarith
      obtain ⟨rfl, rfl⟩ := hx0 s u X0 X1 hu u0 u1 hat
      norm_num [half] at hlo
    | .cs .around dir s d0 d1 d2, hv =>
      obtain ⟨hd, h0, h1, h2⟩ := hv
      obtain rfl := hcen dir hd
      obtain rfl : d0 = 0 := by simp at h0; omega
      obtain rfl : d1 = 0 := by simp at h1; omega
      obtain rfl : d2 = 0 := by simp at h2; omega
      have unit : ∀ X0 X1, cut (-1) 1 1 0 ≤ X0 → X0 ≤ cut (-1) 1 1 1 → cut (-1) 1 1 0 ≤ X1 → X1 ≤ cut (-1) 1 1 1 →
          |X0| ≤ (1 : ℝ) ∧ |X1| ≤ (1 : ℝ) := fun X0 X1 a b c d =>
        ⟨abs_le.2 ⟨by rwa [cut_zero] at a, by rwa [cut_last _ _ _ one_pos] at b⟩,
         abs_le.2 ⟨by rwa [cut_zero] at c, by rwa [cut_last _ _ _ one_pos] at d⟩⟩
      have e : aroundPatch (realLib 1000) (demo .sns 0 2 4 4 (bump 0)) (fun i => if i = 2 then 4 / 4 else 4 / 4) .center s 0 0 0 =
          mk (demo .sns 0 2 4 4 (bump 0)) .obScs s (centre 10 .center) (cut (-1) 1 1 0) (cut (-1) 1 1 1) (cut (-1) 1 1 0)
            (cut (-1) 1 1 1) (bump 0 s) (flat (realLib 1000) (half 10 10 10 s)) 1000 (half 10 10 10 s) := rfl
      have hh : half (10 : ℝ) 10 10 s = 5 := by cases s <;> norm_num [half]
      have hsh : Shaped (realLib 1000) (aroundPatch (realLib 1000) (demo .sns 0 2 4 4 (bump 0))
          (fun i => if i = 2 then 4 / 4 else 4 / 4) .center s 0 0 0)
          (fun X0 X1 => bump 0 s X0 X1 / dd (realLib 1000) X0 X1) (fun _ _ => 5) := by
        rw [e, hh]
        apply mk_ob
        intro X0 X1 a b c d
        obtain ⟨u0, u1⟩ := unit X0 X1 a b c d
        have hbp := bump_range (c := 0) (s := s) (by norm_num) u0 u1
        have hd := dd_pos 1000 X0 X1
        have hd1 := dd_ge 1000 X0 X1
        refine ⟨div_pos (by linarith) hd, ?_, Or.inl ⟨rfl, rfl⟩, Or.inr ⟨by norm_num, rfl⟩⟩
        rw [div_lt_iff₀ hd]
        linarith [hbp.2]
      intro hc
      obtain ⟨u, X0, X1, ⟨a, b, c, d⟩, hlo, -, hat⟩ := (hsh.contains_iff _).1 hc
      obtain ⟨u0, u1⟩ := unit X0 X1 a b c d
      have hbp := bump_range (c := 0) (s := s) (by norm_num) u0 u1
      have hd := dd_pos 1000 X0 X1
      have hd2 : dd (realLib 1000) X0 X1 < 2 := by
        have := dd_sq 1000 X0 X1
        have a0 : X0 * X0 ≤ 1 := by have := abs_le.1 u0; nlinarith
        have a1 : X1 * X1 ≤ 1 := by have := abs_le.1 u1; nlinarith
        nlinarith
      rw [div_le_iff₀ hd] at hlo
      have hu : 0 < u := by nlinarith [hbp.1]
      obtain ⟨-, rfl⟩ := hx0 s u X0 X1 hu u0 u1 hat
      nlinarith [hbp.1]
    | .cs .outer dir s d0 d1 d2, hv => exact absurd hv.1 (by decide)

end Elliptica.Tiling
