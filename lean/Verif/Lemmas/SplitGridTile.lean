import Verif.Lemmas.SplitGridShape
/-!
Lemmas for C76: the patches of one object tile its cube; the outermost patches tile the shell.
-/
namespace Elliptica.Tiling
open Elliptica.Coord Elliptica.SplitCS

variable {big : ℝ} {g : In ℝ} {n : Fin 3 → ℕ}

/-- position relative to the centre of an object -/
noncomputable def rel (g : In ℝ) (dir : Dir) (x : Fin 3 → ℝ) : Fin 3 → ℝ := fun i => x i - centre g.S dir i

/-- a strict cell -/
def InCell' (m M m' M' : ℝ) (n : Fin 3 → Nat) (d0 d1 : Nat) (X0 X1 : ℝ) : Prop :=
  cut m M (n 0) d0 < X0 ∧ X0 < cut m M (n 0) (d0 + 1) ∧ cut m' M' (n 1) d1 < X1 ∧ X1 < cut m' M' (n 1) (d1 + 1)

theorem InCell'.le {m M m' M' : ℝ} {d0 d1 : ℕ} {X0 X1 : ℝ} (h : InCell' m M m' M' n d0 d1 X0 X1) :
    InCell m M m' M' n d0 d1 X0 X1 := ⟨h.1.le, h.2.1.le, h.2.2.1.le, h.2.2.2.le⟩

theorem cell_same {m M m' M' : ℝ} {d0 d1 e0 e1 : ℕ} {X0 X1 : ℝ} (hm : m < M) (hm' : m' < M') (h0 : d0 < n 0) (h1 : d1 < n 1)
    (k0 : e0 < n 0) (k1 : e1 < n 1) (h : InCell' m M m' M' n d0 d1 X0 X1) (k : InCell m M m' M' n e0 e1 X0 X1) :
    d0 = e0 ∧ d1 = e1 := by
  obtain ⟨a, b, c, d⟩ := h
  obtain ⟨a', b', c', d'⟩ := k
  exact ⟨layer_unique _ _ (fun k _ => cut_step m M (n 0) k (by omega) hm) h0 k0 a b a' b',
    layer_unique _ _ (fun k _ => cut_step m' M' (n 1) k (by omega) hm') h1 k1 c d c' d'⟩

theorem cell_range {m M m' M' : ℝ} {d0 d1 : ℕ} {X0 X1 : ℝ} (hm : m < M) (hm' : m' < M') (h0 : d0 < n 0) (h1 : d1 < n 1)
    (k : InCell m M m' M' n d0 d1 X0 X1) : (m ≤ X0 ∧ X0 ≤ M) ∧ m' ≤ X1 ∧ X1 ≤ M' := by
  obtain ⟨a, b, c, d⟩ := k
  have e0 := cut_bounds m M (n 0) d0 (by omega) hm h0
  have e1 := cut_bounds m' M' (n 1) d1 (by omega) hm' h1
  exact ⟨⟨by linarith, by linarith⟩, by linarith, by linarith⟩

theorem cell_range' {m M m' M' : ℝ} {d0 d1 : ℕ} {X0 X1 : ℝ} (hm : m < M) (hm' : m' < M') (h0 : d0 < n 0) (h1 : d1 < n 1)
    (k : InCell' m M m' M' n d0 d1 X0 X1) : (m < X0 ∧ X0 < M) ∧ m' < X1 ∧ X1 < M' := by
  obtain ⟨a, b, c, d⟩ := k
  have e0 := cut_bounds m M (n 0) d0 (by omega) hm h0
  have e1 := cut_bounds m' M' (n 1) d1 (by omega) hm' h1
  exact ⟨⟨by linarith, by linarith⟩, by linarith, by linarith⟩

/-! ### the three kinds of patch by rays -/

theorem obj_c {dir : Dir} {s : Side} {d0 d1 d2 : ℕ} (f : ObjFacts big g n dir) (hb : g.S < big) (hc : Cube g dir)
    (hs : SurfaceFits g n dir) (hx : Exact big g) (h0 : d0 < n 0) (h1 : d1 < n 1) (h2 : d2 < n 2) (x : Fin 3 → ℝ) :
    (Contains (realLib big) (patchOf (realLib big) g n (.cs .obj dir s d0 d1 d2)) x ↔
      ∃ u X0 X1, InCell (-1) 1 (-1) 1 n d0 d1 X0 X1 ∧ hObj big g n dir s d0 d1 d2 X0 X1 ≤ u ∧
        u ≤ hObj big g n dir s d0 d1 (d2 + 1) X0 X1 ∧ At s (rel g dir x) u X0 X1) ∧
    (Interior (realLib big) (patchOf (realLib big) g n (.cs .obj dir s d0 d1 d2)) x ↔
      ∃ u X0 X1, InCell' (-1) 1 (-1) 1 n d0 d1 X0 X1 ∧ hObj big g n dir s d0 d1 d2 X0 X1 < u ∧
        u < hObj big g n dir s d0 d1 (d2 + 1) X0 X1 ∧ At s (rel g dir x) u X0 X1) := by
  have hsh := obj_shaped (s := s) f hb hc hs hx h0 h1 h2
  have c1 := hsh.contains_iff x
  have c2 := hsh.interior_iff x
  have e : ∀ d, (objPatch (realLib big) g n dir s d0 d1 d).side = s ∧ (objPatch (realLib big) g n dir s d0 d1 d).c = centre g.S dir ∧
      (objPatch (realLib big) g n dir s d0 d1 d).mn 0 = cut (-1) 1 (n 0) d0 ∧
      (objPatch (realLib big) g n dir s d0 d1 d).mx 0 = cut (-1) 1 (n 0) (d0 + 1) ∧
      (objPatch (realLib big) g n dir s d0 d1 d).mn 1 = cut (-1) 1 (n 1) d1 ∧
      (objPatch (realLib big) g n dir s d0 d1 d).mx 1 = cut (-1) 1 (n 1) (d1 + 1) := by
    intro d; unfold objPatch; cases layer (n 2) d <;> simp [mk]
  obtain ⟨e1, e2, e3, e4, e5, e6⟩ := e d2
  rw [e1, e2, e3, e4, e5, e6] at c1 c2
  exact ⟨c1, c2⟩

theorem around_c {dir : Dir} {s : Side} {d0 d1 d2 : ℕ} (f : ObjFacts big g n dir) (hb : g.S < big)
    (hs : SurfaceFits g n dir) (hx : Exact big g) (h0 : d0 < n 0) (h1 : d1 < n 1) (h2 : d2 < n 2) (x : Fin 3 → ℝ) :
    (Contains (realLib big) (patchOf (realLib big) g n (.cs .around dir s d0 d1 d2)) x ↔
      ∃ u X0 X1, InCell (-1) 1 (-1) 1 n d0 d1 X0 X1 ∧ hAr big g n dir s d0 d1 d2 X0 X1 ≤ u ∧
        u ≤ hAr big g n dir s d0 d1 (d2 + 1) X0 X1 ∧ At s (rel g dir x) u X0 X1) ∧
    (Interior (realLib big) (patchOf (realLib big) g n (.cs .around dir s d0 d1 d2)) x ↔
      ∃ u X0 X1, InCell' (-1) 1 (-1) 1 n d0 d1 X0 X1 ∧ hAr big g n dir s d0 d1 d2 X0 X1 < u ∧
        u < hAr big g n dir s d0 d1 (d2 + 1) X0 X1 ∧ At s (rel g dir x) u X0 X1) := by
  have hsh := around_shaped (s := s) f hb hs hx h0 h1 h2
  have c1 := hsh.contains_iff x
  have c2 := hsh.interior_iff x
  have e : ∀ d, (aroundPatch (realLib big) g n dir s d0 d1 d).side = s ∧ (aroundPatch (realLib big) g n dir s d0 d1 d).c = centre g.S dir ∧
      (aroundPatch (realLib big) g n dir s d0 d1 d).mn 0 = cut (-1) 1 (n 0) d0 ∧
      (aroundPatch (realLib big) g n dir s d0 d1 d).mx 0 = cut (-1) 1 (n 0) (d0 + 1) ∧
      (aroundPatch (realLib big) g n dir s d0 d1 d).mn 1 = cut (-1) 1 (n 1) d1 ∧
      (aroundPatch (realLib big) g n dir s d0 d1 d).mx 1 = cut (-1) 1 (n 1) (d1 + 1) := by
    intro d; unfold aroundPatch; cases layer (n 2) d <;> simp [mk]
  obtain ⟨e1, e2, e3, e4, e5, e6⟩ := e d2
  rw [e1, e2, e3, e4, e5, e6] at c1 c2
  exact ⟨c1, c2⟩

/-- a cell of the angular ranges of an outermost side -/
def OCell (n : Fin 3 → ℕ) (dir : Dir) (s : Side) (d0 d1 : ℕ) (X0 X1 : ℝ) : Prop :=
  InCell (ranges dir s : ℝ × ℝ × ℝ × ℝ).1 (ranges dir s : ℝ × ℝ × ℝ × ℝ).2.1 (ranges dir s : ℝ × ℝ × ℝ × ℝ).2.2.1
    (ranges dir s : ℝ × ℝ × ℝ × ℝ).2.2.2 n d0 d1 X0 X1

/-- its inside -/
def OCell' (n : Fin 3 → ℕ) (dir : Dir) (s : Side) (d0 d1 : ℕ) (X0 X1 : ℝ) : Prop :=
  InCell' (ranges dir s : ℝ × ℝ × ℝ × ℝ).1 (ranges dir s : ℝ × ℝ × ℝ × ℝ).2.1 (ranges dir s : ℝ × ℝ × ℝ × ℝ).2.2.1
    (ranges dir s : ℝ × ℝ × ℝ × ℝ).2.2.2 n d0 d1 X0 X1

theorem outer_c {dir : Dir} {s : Side} {d0 d1 d2 : ℕ} (hS : 0 < g.S) (hb : g.S < big)
    (hr : diag (realLib big) g.S g.S g.S < g.rout) (ho : OuterFits big g n dir s)
    (hx : Exact big g) (h0 : d0 < n 0) (h1 : d1 < n 1) (h2 : d2 < n 2) (x : Fin 3 → ℝ) :
    (Contains (realLib big) (patchOf (realLib big) g n (.cs .outer dir s d0 d1 d2)) x ↔
      ∃ u X0 X1, OCell n dir s d0 d1 X0 X1 ∧ hOut big g n dir s d2 X0 X1 ≤ u ∧
        u ≤ hOut big g n dir s (d2 + 1) X0 X1 ∧ At s x u X0 X1) ∧
    (Interior (realLib big) (patchOf (realLib big) g n (.cs .outer dir s d0 d1 d2)) x ↔
      ∃ u X0 X1, OCell' n dir s d0 d1 X0 X1 ∧ hOut big g n dir s d2 X0 X1 < u ∧
        u < hOut big g n dir s (d2 + 1) X0 X1 ∧ At s x u X0 X1) := by
  have hsh := outer_shaped (s := s) hS hb hr ho hx h0 h1 h2
  have c1 := hsh.contains_iff x
  have c2 := hsh.interior_iff x
  have e : ∀ d, (outerPatch (realLib big) g n dir s d0 d1 d).side = s ∧ (outerPatch (realLib big) g n dir s d0 d1 d).c = (fun _ => 0) ∧
      (outerPatch (realLib big) g n dir s d0 d1 d).mn 0 = cut (ranges dir s : ℝ × ℝ × ℝ × ℝ).1 (ranges dir s : ℝ × ℝ × ℝ × ℝ).2.1 (n 0) d0 ∧
      (outerPatch (realLib big) g n dir s d0 d1 d).mx 0 = cut (ranges dir s : ℝ × ℝ × ℝ × ℝ).1 (ranges dir s : ℝ × ℝ × ℝ × ℝ).2.1 (n 0) (d0 + 1) ∧
      (outerPatch (realLib big) g n dir s d0 d1 d).mn 1 = cut (ranges dir s : ℝ × ℝ × ℝ × ℝ).2.2.1 (ranges dir s : ℝ × ℝ × ℝ × ℝ).2.2.2 (n 1) d1 ∧
      (outerPatch (realLib big) g n dir s d0 d1 d).mx 1 = cut (ranges dir s : ℝ × ℝ × ℝ × ℝ).2.2.1 (ranges dir s : ℝ × ℝ × ℝ × ℝ).2.2.2 (n 1) (d1 + 1) := by
    intro d; unfold outerPatch; cases layer (n 2) d <;> simp [mk]
  obtain ⟨e1, e2, e3, e4, e5, e6⟩ := e d2
  have hz : (fun i => x i - (fun _ : Fin 3 => (0 : ℝ)) i) = x := by funext i; simp
  rw [e1, e2, e3, e4, e5, e6, hz] at c1 c2
  exact ⟨c1, c2⟩

theorem cen_eq (a st : ℝ) (d : ℕ) : cen a st d = a + st * d := by
  induction d with
  | zero => simp [cen]
  | succ d ih => rw [cen, ih]; push_cast; ring

/-- the cells of the central box -/
theorem box_c {dir : Dir} (hc : Cube g dir) (d : Fin 3 → ℕ) (x : Fin 3 → ℝ) :
    (Contains (realLib big) (patchOf (realLib big) g n (.box dir (d 0) (d 1) (d 2))) x ↔
      ∀ i, cut (-((g.obj dir).l / 2)) ((g.obj dir).l / 2) (n i) (d i) ≤ rel g dir x i ∧
        rel g dir x i ≤ cut (-((g.obj dir).l / 2)) ((g.obj dir).l / 2) (n i) (d i + 1)) ∧
    (Interior (realLib big) (patchOf (realLib big) g n (.box dir (d 0) (d 1) (d 2))) x ↔
      ∀ i, cut (-((g.obj dir).l / 2)) ((g.obj dir).l / 2) (n i) (d i) < rel g dir x i ∧
        rel g dir x i < cut (-((g.obj dir).l / 2)) ((g.obj dir).l / 2) (n i) (d i + 1)) := by
  have hd : ∀ i : Fin 3, (if i = 0 then d 0 else if i = 1 then d 1 else d 2) = d i := by
    apply all3 <;> simp
  have hl : ∀ i : Fin 3, (if i = 0 then (g.obj dir).l else if i = 1 then (g.obj dir).w else (g.obj dir).h) = (g.obj dir).l := by
    rw [hc.1, hc.2]; apply all3 <;> simp
  simp only [patchOf, boxPatch, Contains, Interior, hd, hl, cen_eq, cut, rel]
  constructor
  · refine forall_congr' fun i => ?_
    push_cast
    constructor <;> rintro ⟨a, b⟩ <;> constructor <;> ring_nf at a b ⊢ <;> linarith
  · refine forall_congr' fun i => ?_
    push_cast
    constructor <;> rintro ⟨a, b⟩ <;> constructor <;> ring_nf at a b ⊢ <;> linarith

/-! ### heights of all layers of an object -/

theorem obj_bounds {dir : Dir} {s : Side} {d0 d1 k : ℕ} {X0 X1 : ℝ} (f : ObjFacts big g n dir) (hc : Cube g dir)
    (hs : SurfaceFits g n dir) (h0 : d0 < n 0) (h1 : d1 < n 1) (hcell : InCell (-1) 1 (-1) 1 n d0 d1 X0 X1) (hk : k ≤ n 2) :
    (g.obj dir).l / 2 ≤ hObj big g n dir s d0 d1 k X0 X1 ∧
    hObj big g n dir s d0 d1 k X0 X1 ≤ seen g n dir s d0 d1 X0 X1 / dd (realLib big) X0 X1 := by
  have hst : ∀ j, j < n 2 → hObj big g n dir s d0 d1 j X0 X1 < hObj big g n dir s d0 d1 (j + 1) X0 X1 :=
    fun j hj => (hObj_step f hc hs h0 h1 hcell hj).2
  have a := mono_of_step (fun j => hObj big g n dir s d0 d1 j X0 X1) (n 2) hst (Nat.zero_le k) hk
  have b := mono_of_step (fun j => hObj big g n dir s d0 d1 j X0 X1) (n 2) hst hk (le_refl _)
  have hn := f.n2
  simp only [hObj, if_true, if_neg (show n 2 ≠ 0 by omega)] at a b
  exact ⟨a, b⟩

theorem around_bounds {dir : Dir} {s : Side} {d0 d1 k : ℕ} {X0 X1 : ℝ} (f : ObjFacts big g n dir)
    (hs : SurfaceFits g n dir) (h0 : d0 < n 0) (h1 : d1 < n 1) (hcell : InCell (-1) 1 (-1) 1 n d0 d1 X0 X1) (hk : k ≤ n 2) :
    seen g n dir s d0 d1 X0 X1 / dd (realLib big) X0 X1 ≤ hAr big g n dir s d0 d1 k X0 X1 ∧
    hAr big g n dir s d0 d1 k X0 X1 ≤ g.S / 2 := by
  have hst : ∀ j, j < n 2 → hAr big g n dir s d0 d1 j X0 X1 < hAr big g n dir s d0 d1 (j + 1) X0 X1 :=
    fun j hj => (hAr_step f hs h0 h1 hcell hj).2
  have a := mono_of_step (fun j => hAr big g n dir s d0 d1 j X0 X1) (n 2) hst (Nat.zero_le k) hk
  have b := mono_of_step (fun j => hAr big g n dir s d0 d1 j X0 X1) (n 2) hst hk (le_refl _)
  have hn := f.n2
  simp only [hAr, if_true, if_neg (show n 2 ≠ 0 by omega)] at a b
  exact ⟨a, b⟩

theorem surf_range {dir : Dir} {s : Side} {d0 d1 : ℕ} {X0 X1 : ℝ} (f : ObjFacts big g n dir) (hs : SurfaceFits g n dir)
    (h0 : d0 < n 0) (h1 : d1 < n 1) (hcell : InCell (-1) 1 (-1) 1 n d0 d1 X0 X1) :
    0 < seen g n dir s d0 d1 X0 X1 / dd (realLib big) X0 X1 ∧
    seen g n dir s d0 d1 X0 X1 / dd (realLib big) X0 X1 < g.S / 2 ∧
    (Cube g dir → (g.obj dir).l / 2 < seen g n dir s d0 d1 X0 X1 / dd (realLib big) X0 X1) := by
  have hn := f.n2
  refine ⟨?_, ?_, fun hc => ?_⟩
  · have := (hAr_step (s := s) f hs h0 h1 hcell hn).1
    simpa only [hAr, if_true] using this
  · have a := (hAr_step (s := s) f hs h0 h1 hcell hn).2
    have b := (around_bounds (s := s) (k := 0 + 1) f hs h0 h1 hcell (by omega)).2
    have := lt_of_lt_of_le a b
    simpa only [hAr, if_true] using this
  · have a := (hObj_step (s := s) f hc hs h0 h1 hcell hn).2
    have b := (obj_bounds (s := s) (k := 0 + 1) f hc hs h0 h1 hcell (by omega)).2
    have := lt_of_lt_of_le a b
    simpa only [hObj, if_true] using this

end Elliptica.Tiling
