import Verif.Props.InterfaceBc
import Mathlib.Algebra.Order.Field.Rat
/-!
C72, C73: grids of boxes.  Non-trivial cases of the theorems, a grid that is refused depending on the numbering of its patches, and
overlapping patches for which a null pointer is dereferenced.
-/
namespace Elliptica.Iface

/-- boxes parallel to the axes with nodes at equal distances; lengths are such that all positions are whole numbers -/
structure Boxes where
  np : ℕ
  lo : ℕ → ℕ → ℤ
  hi : ℕ → ℕ → ℤ
  n : ℕ → ℕ → ℕ

namespace Boxes

def coord (B : Boxes) (p l d : ℕ) : ℤ :=
  let i := if d = 0 then Index.toI (B.n p 1) (B.n p 2) l else if d = 1 then Index.toJ (B.n p 1) (B.n p 2) l else Index.toK (B.n p 1) (B.n p 2) l
  B.lo p d + (B.hi p d - B.lo p d) * i / (B.n p d - 1)

/-- outward normals -/
def nrm (f d : ℕ) : ℤ := if f / 2 = d then (if f % 2 = 0 then -1 else 1) else 0

def pos (B : Boxes) : Pos → ℕ → ℤ
  | .centre p f s, d => (if f / 2 = d then (if f % 2 = 0 then B.lo p d else B.hi p d) else (B.lo p d + B.hi p d) / 2) + s * nrm f d
  | .node p l, d => B.coord p l d
  | .off p f l, d => B.coord p l d + nrm f d

def geo (B : Boxes) : Geo ℚ where
  accept x a := (List.range 3).all fun d => decide (B.lo a d ≤ B.pos x d) && decide (B.pos x d ≤ B.hi a d)
  dot _ f _ g := ((nrm f 0 * nrm g 0 + nrm f 1 * nrm g 1 + nrm f 2 * nrm g 2 : ℤ) : ℚ)
  node p l a := (List.range (B.n a 0 * B.n a 1 * B.n a 2)).find? fun i => (List.range 3).all fun d => decide (B.coord p l d = B.coord a i d)
  onFace p l a g := decide (B.coord p l (g / 2) = if g % 2 = 0 then B.lo a (g / 2) else B.hi a (g / 2))

def grid (B : Boxes) : Grid := ⟨B.np, B.n, fun _ => false, fun _ => none⟩

/-- cubes of side 8 at the positions c -/
def cubes (np m : ℕ) (c : ℕ → ℤ × ℤ × ℤ) : Boxes :=
  ⟨np, fun p d => 8 * (if d = 0 then (c p).1 else if d = 1 then (c p).2.1 else (c p).2.2),
    fun p d => 8 * (if d = 0 then (c p).1 else if d = 1 then (c p).2.1 else (c p).2.2) + 8, fun _ _ => m⟩

end Boxes

def isOk {α : Type} : Res α → Bool
  | .ok _ => true
  | _ => false

def isAbort {α : Type} : Res α → Bool
  | .abort => true
  | _ => false

def isUb {α : Type} : Res α → Bool
  | .ub => true
  | _ => false

theorem of_isOk {α : Type} {r : Res α} (h : isOk r = true) : ∃ a, r = .ok a := by
  cases r with
  | ok a => exact ⟨a, rfl⟩
  | abort => cases h
  | ub => cases h

/-- two cubes side by side, 3 nodes in each direction -/
def two : Boxes := .cubes 2 3 fun p => (p, 0, 0)

set_option maxRecDepth 1000000

theorem two_ok : ∃ T, realize two.grid two.geo = .ok T := of_isOk (by decide +kernel)

theorem two_proper : two.grid.Proper := by
  intro p _ d _
  show 0 < 3
  omega

theorem two_distinct : Distinct two.grid two.geo := by
  refine ⟨ℤ × ℤ × ℤ, fun p l => (two.coord p l 0, two.coord p l 1, two.coord p l 2), ?_, by decide +kernel⟩
  intro p l a m h
  have := List.find?_some h
  simp only [List.all_eq_true, List.mem_range, decide_eq_true_eq] at this
  show (two.coord p l 0, two.coord p l 1, two.coord p l 2) = (two.coord a m 0, two.coord a m 1, two.coord a m 2)
  rw [this 0 (by omega), this 1 (by omega), this 2 (by omega)]

theorem two_held : Held two.grid two.geo := by
  intro p hp f l hl a ha
  have hl2 : l < 27 := faceNode_lt _ _ _ hl
  have hf : f < 6 := by obtain ⟨i, j, k, -, hl⟩ := hl; unfold On at hl; omega
  have ha2 : a < 2 := ha.elim (fun x => x.1) fun x => x.1
  have key : ∀ p < 2, ∀ f < 6, ∀ l < 27, ∀ a < 2, (a == p || !(two.geo.accept (.node p l) a || two.geo.accept (.off p f l) a) ||
    (List.range 6).any (two.geo.onFace p l a)) = true := by decide +kernel
  have := key p hp f hf l hl2 a ha2
  have hne : a ≠ p := ha.elim (fun x => x.2.1) fun x => x.2.1
  have hac : (two.geo.accept (.node p l) a || two.geo.accept (.off p f l) a) = true := by
    rw [Bool.or_eq_true]; exact ha.imp (fun x => x.2.2) fun x => x.2.2
  rw [hac, beq_false_of_ne hne] at this
  simp only [Bool.not_true, Bool.or_self, Bool.false_or, List.any_eq_true, List.mem_range] at this
  exact this

structure Row where
  patch : ℕ
  face : ℕ
  adj : ℕ
  adjFace : ℕ
  copy : Bool
  dfdn : Bool
  id : List ℕ
  adjid : List ℕ
deriving DecidableEq

/-- the subfaces that touch in the example -/
def touching (B : Boxes) : List Row :=
  match realize B.grid B.geo with
  | .ok S => (List.range B.np).flatMap fun p => (List.range 6).flatMap fun f => ((S p).subs f).filterMap fun s =>
      if s.touch then some ⟨p, f, s.adj, s.adjFace, s.copy, s.dfdn, s.id, s.adjid⟩ else none
  | _ => []

/-- The two cubes share the inner node of their common face (the edges belong to the outer boundary). -/
example : touching two = [⟨0, 1, 1, 0, true, false, [22], [4]⟩, ⟨1, 0, 0, 1, true, true, [4], [22]⟩] := by decide +kernel

example : realize two.grid two.geo ≠ .ub := C72_no_ub two.grid two.geo two_proper two_held

example : ∃ T, realize two.grid two.geo = .ok T ∧ (∀ p < 2, ∃ r, Schur.makeMapAndInv (fun _ => 3) false (solverSubfaces (T p)) = .ok r) ∧
    ∀ p < 2, ∀ f < 6, ∀ s ∈ (T p).subs f, s.id.Nodup := by
  obtain ⟨T, h⟩ := two_ok
  exact ⟨T, h, fun p hp => C72_labels _ _ two_proper T h p hp, fun p hp f hf s hs => C72_once _ _ two_proper T h p hp f hf s hs fun _ => two_distinct⟩

/-- a cube with four times as many nodes on the common face: that face is interpolated -/
def fine : Boxes := ⟨2, fun p d => if d = 0 then 8 * p else 0, fun p d => if d = 0 then 8 * p + 8 else 8, fun p d => if d = 0 then 2 else if p = 0 then 3 else 5⟩

example : touching fine = [⟨0, 1, 1, 0, true, false, [13], [12]⟩, ⟨1, 0, 0, 1, true, true, [12], [13]⟩,
    ⟨1, 0, 0, 1, false, true, [6, 7, 8, 11, 13, 16, 17, 18], []⟩] := by decide +kernel

/-- a cube and the six cubes at its faces; the middle one comes last -/
def middleLast : Boxes := .cubes 7 3 fun p => match p with
  | 0 => (1, 0, 0) | 1 => (-1, 0, 0) | 2 => (0, 1, 0) | 3 => (0, -1, 0) | 4 => (0, 0, 1) | 5 => (0, 0, -1) | _ => (0, 0, 0)

/-- the same seven cubes; the middle one comes first -/
def middleFirst : Boxes := .cubes 7 3 fun p => match p with
  | 1 => (1, 0, 0) | 2 => (-1, 0, 0) | 3 => (0, 1, 0) | 4 => (0, -1, 0) | 5 => (0, 0, 1) | 6 => (0, 0, -1) | _ => (0, 0, 0)

theorem middle_last : isAbort (realize middleLast.grid middleLast.geo) = true := by decide +kernel

theorem middle_first : isOk (realize middleFirst.grid middleFirst.geo) = true := by decide +kernel

/-- Whether the conditions can be assigned depends on the numbering of the patches: each of the six outer cubes gets the field
on its first face, so that the middle one, if it comes last, is left with conditions on derivatives only, and the program
stops; if it comes first, the same grid is accepted. -/
theorem C73_numbering_violation : isAbort (realize middleLast.grid middleLast.geo) = true ∧ isOk (realize middleFirst.grid middleFirst.geo) = true :=
  ⟨middle_last, middle_first⟩

/-- a cube with 5 nodes in each direction, a lower box next to it, and a small box around other nodes of the common face -/
def overlap : Boxes := ⟨3, fun p d => if p = 0 then 0 else if p = 1 then (if d = 0 then 8 else 0) else if d = 0 then 7 else if d = 1 then 5 else 1,
  fun p d => if p = 0 then 8 else if p = 1 then (if d = 0 then 16 else if d = 1 then 5 else 8) else if d = 0 then 9 else 7, fun _ _ => 5⟩

/-- Where patches overlap, the only patch that accepts a node may have it inside, on none of its faces; then a null pointer is
dereferenced. -/
theorem C72_overlap_violation : isUb (realize overlap.grid overlap.geo) = true := by decide +kernel

end Elliptica.Iface
