import Verif.Lemmas.SplitGridTile
/-!
Lemmas for C76: no two patches overlap, and together they fill the region.
-/
namespace Elliptica.Tiling
open Elliptica.Coord Elliptica.SplitCS

/-- the labels of a grid -/
def Valid (k : Kind) (out : Bool) (n : Fin 3 → ℕ) : Label → Prop
  | .box dir d0 d1 d2 => dir ∈ dirs k ∧ filled k dir = true ∧ d0 < n 0 ∧ d1 < n 1 ∧ d2 < n 2
  | .cs .obj dir _ d0 d1 d2 => dir ∈ dirs k ∧ filled k dir = true ∧ d0 < n 0 ∧ d1 < n 1 ∧ d2 < n 2
  | .cs .around dir _ d0 d1 d2 => dir ∈ dirs k ∧ d0 < n 0 ∧ d1 < n 1 ∧ d2 < n 2
  | .cs .outer dir s d0 d1 d2 => out = true ∧ dir ∈ dirs k ∧ skip .outer dir s = false ∧ d0 < n 0 ∧ d1 < n 1 ∧ d2 < n 2

/-- everything the proofs use about an input that passed the checks and whose surfaces fit -/
structure Good (big : ℝ) (g : In ℝ) (n : Fin 3 → ℕ) (out : Bool) : Prop where
  npos : ∀ i, 0 < n i
  S : 0 < g.S
  small : g.S < big
  exact : Exact big g
  obj : ∀ dir ∈ dirs g.kind, ObjFacts big g n dir
  surf : ∀ dir ∈ dirs g.kind, SurfaceFits g n dir
  cube : ∀ dir ∈ dirs g.kind, filled g.kind dir = true → Cube g dir
  rout : out = true → diag (realLib big) g.S g.S g.S < g.rout
  outer : out = true → ∀ dir ∈ dirs g.kind, ∀ s, skip .outer dir s = false → OuterFits big g n dir s

variable {big : ℝ} {g : In ℝ} {n : Fin 3 → ℕ} {out : Bool}

/-- a box cell is inside the cube of side l, with the cell's own limits -/
theorem box_c' (G : Good big g n out) {dir : Dir} {d0 d1 d2 : ℕ} (hv : Valid g.kind out n (.box dir d0 d1 d2)) (x : Fin 3 → ℝ) :
    ∃ d : Fin 3 → ℕ, (d 0 = d0 ∧ d 1 = d1 ∧ d 2 = d2) ∧ (∀ i, d i < n i) ∧
    (Contains (realLib big) (patchOf (realLib big) g n (.box dir d0 d1 d2)) x ↔
      ∀ i, cut (-((g.obj dir).l / 2)) ((g.obj dir).l / 2) (n i) (d i) ≤ rel g dir x i ∧
        rel g dir x i ≤ cut (-((g.obj dir).l / 2)) ((g.obj dir).l / 2) (n i) (d i + 1)) ∧
    (Interior (realLib big) (patchOf (realLib big) g n (.box dir d0 d1 d2)) x ↔
      ∀ i, cut (-((g.obj dir).l / 2)) ((g.obj dir).l / 2) (n i) (d i) < rel g dir x i ∧
        rel g dir x i < cut (-((g.obj dir).l / 2)) ((g.obj dir).l / 2) (n i) (d i + 1)) := by
  obtain ⟨hd, hf, h0, h1, h2⟩ := hv
  refine ⟨fun i => if i = 0 then d0 else if i = 1 then d1 else d2, by simp, ?_, ?_⟩
  · apply all3 <;> simpa
  · have := box_c (n := n) (big := big) (G.cube dir hd hf) (fun i => if i = 0 then d0 else if i = 1 then d1 else d2) x
    simpa using this

theorem box_in (G : Good big g n out) {dir : Dir} {d0 d1 d2 : ℕ} (hv : Valid g.kind out n (.box dir d0 d1 d2)) (x : Fin 3 → ℝ) :
    (Contains (realLib big) (patchOf (realLib big) g n (.box dir d0 d1 d2)) x → ∀ i, |rel g dir x i| ≤ (g.obj dir).l / 2) ∧
    (Interior (realLib big) (patchOf (realLib big) g n (.box dir d0 d1 d2)) x → ∀ i, |rel g dir x i| < (g.obj dir).l / 2) := by
  obtain ⟨d, -, hd, c, c'⟩ := box_c' G hv x
  have hl := (G.obj dir hv.1).l
  constructor
  · intro h i
    have a := c.1 h i
    have b := cut_bounds (-((g.obj dir).l / 2)) ((g.obj dir).l / 2) (n i) (d i) (G.npos i) (by linarith) (hd i)
    exact abs_le.2 ⟨by linarith, by linarith⟩
  · intro h i
    have a := c'.1 h i
    have b := cut_bounds (-((g.obj dir).l / 2)) ((g.obj dir).l / 2) (n i) (d i) (G.npos i) (by linarith) (hd i)
    exact abs_lt.2 ⟨by linarith, by linarith⟩

/-- lower and upper height of an inner cubed spherical patch -/
noncomputable def hIn (big : ℝ) (g : In ℝ) (n : Fin 3 → ℕ) : Part → Dir → Side → ℕ → ℕ → ℕ → ℝ → ℝ → ℝ
  | .obj => hObj big g n
  | _ => hAr big g n

theorem in_c (G : Good big g n out) {part : Part} {dir : Dir} {s : Side} {d0 d1 d2 : ℕ} (hp : part ≠ .outer)
    (hv : Valid g.kind out n (.cs part dir s d0 d1 d2)) (x : Fin 3 → ℝ) :
    (Contains (realLib big) (patchOf (realLib big) g n (.cs part dir s d0 d1 d2)) x ↔
      ∃ u X0 X1, InCell (-1) 1 (-1) 1 n d0 d1 X0 X1 ∧ hIn big g n part dir s d0 d1 d2 X0 X1 ≤ u ∧
        u ≤ hIn big g n part dir s d0 d1 (d2 + 1) X0 X1 ∧ At s (rel g dir x) u X0 X1) ∧
    (Interior (realLib big) (patchOf (realLib big) g n (.cs part dir s d0 d1 d2)) x ↔
      ∃ u X0 X1, InCell' (-1) 1 (-1) 1 n d0 d1 X0 X1 ∧ hIn big g n part dir s d0 d1 d2 X0 X1 < u ∧
        u < hIn big g n part dir s d0 d1 (d2 + 1) X0 X1 ∧ At s (rel g dir x) u X0 X1) := by
  match part, hp, hv with
  | .obj, _, hv =>
    obtain ⟨hd, hf, h0, h1, h2⟩ := hv
    exact obj_c (G.obj dir hd) G.small (G.cube dir hd hf) (G.surf dir hd) G.exact h0 h1 h2 x
  | .around, _, hv =>
    obtain ⟨hd, h0, h1, h2⟩ := hv
    exact around_c (G.obj dir hd) G.small (G.surf dir hd) G.exact h0 h1 h2 x

theorem in_valid {k : Kind} {part : Part} {dir : Dir} {s : Side} {d0 d1 d2 : ℕ} (hp : part ≠ .outer)
    (hv : Valid k out n (.cs part dir s d0 d1 d2)) : dir ∈ dirs k ∧ d0 < n 0 ∧ d1 < n 1 ∧ d2 < n 2 := by
  match part, hp, hv with
  | .obj, _, hv => exact ⟨hv.1, hv.2.2⟩
  | .around, _, hv => exact hv

theorem in_step (G : Good big g n out) {part : Part} {dir : Dir} {s : Side} {d0 d1 d2 k : ℕ} {X0 X1 : ℝ} (hp : part ≠ .outer)
    (hv : Valid g.kind out n (.cs part dir s d0 d1 d2)) (hc : InCell (-1) 1 (-1) 1 n d0 d1 X0 X1) (hk : k < n 2) :
    0 < hIn big g n part dir s d0 d1 k X0 X1 ∧
      hIn big g n part dir s d0 d1 k X0 X1 < hIn big g n part dir s d0 d1 (k + 1) X0 X1 := by
  match part, hp, hv with
  | .obj, _, hv =>
    obtain ⟨hd, hf, h0, h1, h2⟩ := hv
    exact hObj_step (G.obj dir hd) (G.cube dir hd hf) (G.surf dir hd) h0 h1 hc hk
  | .around, _, hv =>
    obtain ⟨hd, h0, h1, h2⟩ := hv
    exact hAr_step (G.obj dir hd) (G.surf dir hd) h0 h1 hc hk

theorem in_bounds (G : Good big g n out) {part : Part} {dir : Dir} {s : Side} {d0 d1 d2 k : ℕ} {X0 X1 : ℝ} (hp : part ≠ .outer)
    (hv : Valid g.kind out n (.cs part dir s d0 d1 d2)) (hc : InCell (-1) 1 (-1) 1 n d0 d1 X0 X1) (hk : k ≤ n 2) :
    0 < hIn big g n part dir s d0 d1 k X0 X1 ∧ hIn big g n part dir s d0 d1 k X0 X1 ≤ g.S / 2 ∧
      (filled g.kind dir = true → (g.obj dir).l / 2 ≤ hIn big g n part dir s d0 d1 k X0 X1) := by
  match part, hp, hv with
  | .obj, _, hv =>
    obtain ⟨hd, hf, h0, h1, h2⟩ := hv
    have a := obj_bounds (s := s) (G.obj dir hd) (G.cube dir hd hf) (G.surf dir hd) h0 h1 hc hk
    have b := surf_range (s := s) (G.obj dir hd) (G.surf dir hd) h0 h1 hc
    have hl := (G.obj dir hd).l
    exact ⟨lt_of_lt_of_le (by linarith) a.1, (a.2.trans b.2.1.le), fun _ => a.1⟩
  | .around, _, hv =>
    obtain ⟨hd, h0, h1, h2⟩ := hv
    have a := around_bounds (s := s) (G.obj dir hd) (G.surf dir hd) h0 h1 hc hk
    have b := surf_range (s := s) (G.obj dir hd) (G.surf dir hd) h0 h1 hc
    exact ⟨lt_of_lt_of_le b.1 a.1, a.2, fun hf => (b.2.2 (G.cube dir hd hf)).le.trans a.1⟩

/-- is it a patch of the cube about an object, and of which? -/
def innerOf : Label → Option Dir
  | .box dir _ _ _ => some dir
  | .cs .obj dir _ _ _ _ => some dir
  | .cs .around dir _ _ _ _ => some dir
  | .cs .outer _ _ _ _ _ => none

/-- inner patches stay in the cube about their object -/
theorem inner_cube (G : Good big g n out) {a : Label} {dir : Dir} (hi : innerOf a = some dir) (hv : Valid g.kind out n a)
    (x : Fin 3 → ℝ) :
    (Contains (realLib big) (patchOf (realLib big) g n a) x → ∀ i, |rel g dir x i| ≤ g.S / 2) ∧
    (Interior (realLib big) (patchOf (realLib big) g n a) x → ∀ i, |rel g dir x i| < g.S / 2) := by
  have main : ∀ part dir' s d0 d1 d2, part ≠ Part.outer → Valid g.kind out n (.cs part dir' s d0 d1 d2) →
    (Contains (realLib big) (patchOf (realLib big) g n (.cs part dir' s d0 d1 d2)) x → ∀ i, |rel g dir' x i| ≤ g.S / 2) ∧
    (Interior (realLib big) (patchOf (realLib big) g n (.cs part dir' s d0 d1 d2)) x → ∀ i, |rel g dir' x i| < g.S / 2) := by
    intro part dir' s d0 d1 d2 hp hv
    obtain ⟨hd, h0, h1, h2⟩ := in_valid hp hv
    obtain ⟨c, c'⟩ := in_c G hp hv x
    constructor
    · intro h i
      obtain ⟨u, X0, X1, hc, l, m, ha⟩ := c.1 h
      have b1 := in_bounds G hp hv hc h2.le
      have b2 := in_bounds (k := d2 + 1) G hp hv hc h2
      obtain ⟨e0, e1⟩ := cell_unit h0 h1 hc
      have := (at_max ha (lt_of_lt_of_le b1.1 l) e0 e1).1 i
      linarith
    · intro h i
      obtain ⟨u, X0, X1, hc, l, m, ha⟩ := c'.1 h
      have b1 := in_bounds G hp hv hc.le h2.le
      have b2 := in_bounds (k := d2 + 1) G hp hv hc.le h2
      obtain ⟨e0, e1⟩ := cell_unit h0 h1 hc.le
      have := (at_max ha (lt_trans b1.1 l) e0 e1).1 i
      linarith
  match a, hi, hv with
  | .box dir' d0 d1 d2, hi, hv =>
    cases hi
    have hb := box_in G hv x
    have h1 := (G.obj dir hv.1).half
    have hc := G.cube dir hv.1 hv.2.1
    have h2 := (G.obj dir hv.1).dg
    have h3 := diag_cube (big := big) (a := 0) (b := 0) (G.obj dir hv.1).l (by simp) (by simp)
    have h4 := dd_ge big 0 0
    have h5 := (G.obj dir hv.1).l
    rw [hc.1, hc.2] at h2
    have : (g.obj dir).l / 2 ≤ (g.obj dir).l / 2 * dd (realLib big) 0 0 := by nlinarith
    exact ⟨fun h i => (hb.1 h i).trans (by linarith), fun h i => (hb.2 h i).trans (by linarith)⟩
  | .cs .obj dir' s d0 d1 d2, hi, hv => cases hi; exact main _ _ _ _ _ _ (by simp) hv
  | .cs .around dir' s d0 d1 d2, hi, hv => cases hi; exact main _ _ _ _ _ _ (by simp) hv

/-- two different patches of the same object do not overlap -/
theorem inner_disj (G : Good big g n out) {a b : Label} {dir : Dir} (hi : innerOf a = some dir) (hj : innerOf b = some dir)
    (hv : Valid g.kind out n a) (hw : Valid g.kind out n b) (x : Fin 3 → ℝ)
    (hx : Interior (realLib big) (patchOf (realLib big) g n a) x)
    (hy : Contains (realLib big) (patchOf (realLib big) g n b) x) : a = b := by
  -- two cubed spherical patches
  have cc : ∀ p p' s s' d0 d1 d2 e0 e1 e2, p ≠ Part.outer → p' ≠ Part.outer → a = .cs p dir s d0 d1 d2 →
      b = .cs p' dir s' e0 e1 e2 → a = b := by
    intro p p' s s' d0 d1 d2 e0 e1 e2 hp hp' ha hb
    subst ha hb
    obtain ⟨hd, h0, h1, h2⟩ := in_valid hp hv
    obtain ⟨-, k0, k1, k2⟩ := in_valid hp' hw
    obtain ⟨u, X0, X1, hc, l, m, hat⟩ := (in_c G hp hv x).2.1 hx
    obtain ⟨u', Y0, Y1, hc', l', m', hat'⟩ := (in_c G hp' hw x).1.1 hy
    have b1 := in_bounds G hp hv hc.le h2.le
    have b1' := in_bounds G hp' hw hc' k2.le
    have hu : 0 < u := lt_trans b1.1 l
    have hu' : 0 < u' := lt_of_lt_of_le b1'.1 l'
    have r := cell_range' (by norm_num) (by norm_num) h0 h1 hc
    have r' := cell_range (by norm_num) (by norm_num) k0 k1 hc'
    have hs := at_side hat hat' hu hu' r.1 r.2 r'.1 r'.2
    subst hs
    obtain ⟨rfl, rfl, rfl⟩ := at_det hat hat' hu
    obtain ⟨rfl, rfl⟩ := cell_same (by norm_num) (by norm_num) h0 h1 k0 k1 hc hc'
    match p, p', hp, hp', hv, hw with
    | .obj, .obj, hp, _, hv, hw =>
      rw [layer_unique (fun k => hIn big g n .obj dir s d0 d1 k Y0 Y1) (n 2) (fun k hk => (in_step G hp hv hc.le hk).2) h2 k2 l m l' m']
    | .around, .around, hp, _, hv, hw =>
      rw [layer_unique (fun k => hIn big g n .around dir s d0 d1 k Y0 Y1) (n 2) (fun k hk => (in_step G hp hv hc.le hk).2) h2 k2 l m l' m']
    | .obj, .around, _, _, hv, hw =>
      have q := (obj_bounds (s := s) (k := d2 + 1) (G.obj dir hd) (G.cube dir hd hv.2.1) (G.surf dir hd) h0 h1 hc.le h2).2
      have q' := (around_bounds (s := s) (k := e2) (G.obj dir hd) (G.surf dir hd) h0 h1 hc.le k2.le).1
      simp only [hIn] at l m l' m'
      linarith
    | .around, .obj, _, _, hv, hw =>
      have q := (obj_bounds (s := s) (k := e2 + 1) (G.obj dir hd) (G.cube dir hd hw.2.1) (G.surf dir hd) h0 h1 hc.le k2).2
      have q' := (around_bounds (s := s) (k := d2) (G.obj dir hd) (G.surf dir hd) h0 h1 hc.le h2.le).1
      simp only [hIn] at l m l' m'
      linarith
  -- box first
  have bc : ∀ p' s' d0 d1 d2 e0 e1 e2, p' ≠ Part.outer → a = .box dir d0 d1 d2 → b = .cs p' dir s' e0 e1 e2 → a = b := by
    intro p' s' d0 d1 d2 e0 e1 e2 hp' ha hb
    subst ha hb
    obtain ⟨-, k0, k1, k2⟩ := in_valid hp' hw
    obtain ⟨u', Y0, Y1, hc', l', m', hat'⟩ := (in_c G hp' hw x).1.1 hy
    have b1' := in_bounds G hp' hw hc' k2.le
    have hu' : 0 < u' := lt_of_lt_of_le b1'.1 l'
    obtain ⟨q0, q1⟩ := cell_unit k0 k1 hc'
    obtain ⟨i, hi⟩ := (at_max hat' hu' q0 q1).2
    have := (box_in G hv x).2 hx i
    have := b1'.2.2 hv.2.1
    linarith
  have cb : ∀ p s d0 d1 d2 e0 e1 e2, p ≠ Part.outer → a = .cs p dir s d0 d1 d2 → b = .box dir e0 e1 e2 → a = b := by
    intro p s d0 d1 d2 e0 e1 e2 hp ha hb
    subst ha hb
    obtain ⟨-, k0, k1, k2⟩ := in_valid hp hv
    obtain ⟨u', Y0, Y1, hc', l', m', hat'⟩ := (in_c G hp hv x).2.1 hx
    have b1' := in_bounds G hp hv hc'.le k2.le
    have hu' : 0 < u' := lt_trans b1'.1 l'
    obtain ⟨q0, q1⟩ := cell_unit k0 k1 hc'.le
    obtain ⟨i, hi⟩ := (at_max hat' hu' q0 q1).2
    have := (box_in G hw x).1 hy i
    have := b1'.2.2 hw.2.1
    linarith
  match a, b, hi, hj with
  | .box dir' d0 d1 d2, .box dir'' e0 e1 e2, hi, hj =>
    cases hi; cases hj
    obtain ⟨d, ⟨rfl, rfl, rfl⟩, hd, -, c⟩ := box_c' G hv x
    obtain ⟨e, ⟨rfl, rfl, rfl⟩, he, c', -⟩ := box_c' G hw x
    have hl := (G.obj dir hv.1).l
    have key : ∀ i, d i = e i := fun i =>
      layer_unique _ _ (fun k _ => cut_step _ _ (n i) k (G.npos i) (by linarith)) (hd i) (he i) (c.1 hx i).1 (c.1 hx i).2
        (c'.1 hy i).1 (c'.1 hy i).2
    rw [key 0, key 1, key 2]
  | .box dir' d0 d1 d2, .cs .obj dir'' s e0 e1 e2, hi, hj =>
    cases hi; cases hj; exact bc _ _ _ _ _ _ _ _ (by simp) rfl rfl
  | .box dir' d0 d1 d2, .cs .around dir'' s e0 e1 e2, hi, hj =>
    cases hi; cases hj; exact bc _ _ _ _ _ _ _ _ (by simp) rfl rfl
  | .cs .obj dir' s d0 d1 d2, .box dir'' e0 e1 e2, hi, hj =>
    cases hi; cases hj; exact cb _ _ _ _ _ _ _ _ (by simp) rfl rfl
  | .cs .around dir' s d0 d1 d2, .box dir'' e0 e1 e2, hi, hj =>
    cases hi; cases hj; exact cb _ _ _ _ _ _ _ _ (by simp) rfl rfl
  | .cs .obj dir' s d0 d1 d2, .cs .obj dir'' s' e0 e1 e2, hi, hj =>
    cases hi; cases hj; exact cc _ _ _ _ _ _ _ _ _ _ (by simp) (by simp) rfl rfl
  | .cs .obj dir' s d0 d1 d2, .cs .around dir'' s' e0 e1 e2, hi, hj =>
    cases hi; cases hj; exact cc _ _ _ _ _ _ _ _ _ _ (by simp) (by simp) rfl rfl
  | .cs .around dir' s d0 d1 d2, .cs .obj dir'' s' e0 e1 e2, hi, hj =>
    cases hi; cases hj; exact cc _ _ _ _ _ _ _ _ _ _ (by simp) (by simp) rfl rfl
  | .cs .around dir' s d0 d1 d2, .cs .around dir'' s' e0 e1 e2, hi, hj =>
    cases hi; cases hj; exact cc _ _ _ _ _ _ _ _ _ _ (by simp) (by simp) rfl rfl

end Elliptica.Tiling
