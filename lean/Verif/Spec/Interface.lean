import Verif.Model.Interface
/-!
What the subfaces of a split cubed spherical grid should be (C72, C73).
-/
namespace Elliptica.Iface

variable {K : Type} [Field K] [LinearOrder K]

/-- position (i, j, k) is on face f -/
def On (n : ℕ → ℕ) (f i j k : ℕ) : Prop :=
  i < n 0 ∧ j < n 1 ∧ k < n 2 ∧ ((f = 0 ∧ i = 0) ∨ (f = 1 ∧ i = n 0 - 1) ∨ (f = 2 ∧ j = 0) ∨ (f = 3 ∧ j = n 1 - 1) ∨
    (f = 4 ∧ k = 0) ∨ (f = 5 ∧ k = n 2 - 1))

/-- node l lies on face f of a patch with n nodes: faces 0, 2, 4 are the first nodes of the directions 0, 1, 2 and faces 1, 3, 5 the
last ones -/
def FaceNode (n : ℕ → ℕ) (f l : ℕ) : Prop := ∃ i j k, l = k + n 2 * (j + n 1 * i) ∧ On n f i j k

/-- another patch that accepts the position -/
def Near (G : Grid) (geo : Geo K) (p : ℕ) (x : Pos) (a : ℕ) : Prop := a < G.np ∧ a ≠ p ∧ geo.accept x a = true

/-- nothing is found at the centre of the face, nor near it -/
def Alone (G : Grid) (geo : Geo K) (p f : ℕ) : Prop := ∀ s < 3, ∀ a, ¬ Near G geo p (.centre p f s) a

/-- faces of the patches at the centre of the face, or if there are none, at the centre moved outwards -/
def CentreFace (G : Grid) (geo : Geo K) (p f a g : ℕ) : Prop :=
  g < 6 ∧ (Near G geo p (.centre p f 0) a ∨ ((∀ b, ¬ Near G geo p (.centre p f 0) b) ∧ Near G geo p (.centre p f 1) a))

/-- of the faces with property C, face g of patch a is the one whose normal is the most opposite to that of face f of patch p -/
def Opposite (geo : Geo K) (p f : ℕ) (C : ℕ → ℕ → Prop) (a g : ℕ) : Prop :=
  C a g ∧ ∀ b h, C b h → |geo.dot p f a g + 1| ≤ |geo.dot p f b h + 1|

/-- face g of patch a is the neighbour of face f of patch p at node l: the one opposite to the centre of the face if that patch
accepts the node, otherwise the one among the faces that hold the node -/
def Neighbour (G : Grid) (geo : Geo K) (p f l a g : ℕ) : Prop :=
  geo.accept (.node p l) a = true ∧ ∃ c h, Opposite geo p f (CentreFace G geo p f) c h ∧
    ((a = c ∧ g = h) ∨ (geo.accept (.node p l) c = false ∧
      Opposite geo p f (fun b h => b ≠ c ∧ Near G geo p (.node p l) b ∧ h < 6 ∧ geo.onFace p l b h = true) a g))

/-- node i of face f of patch p and node j of face g of patch a are the same point, found from one side or the other -/
def Meet (G : Grid) (geo : Geo K) (p f i a g j : ℕ) : Prop :=
  (Neighbour G geo p f i a g ∧ geo.node p i a = some j) ∨ (Neighbour G geo a g j p f ∧ geo.node a j p = some i)

/-- every direction of every patch has nodes -/
def Grid.Proper (G : Grid) : Prop := ∀ p < G.np, ∀ d < 3, 0 < G.n p d

/-- the answers of `find_node` come from positions, and different nodes of a patch are at different positions -/
def Distinct (G : Grid) (geo : Geo K) : Prop := ∃ (A : Type) (X : ℕ → ℕ → A), (∀ p l a m, geo.node p l a = some m → X p l = X a m) ∧
  ∀ p < G.np, ∀ l < G.n p 0 * G.n p 1 * G.n p 2, ∀ m < G.n p 0 * G.n p 1 * G.n p 2, X p l = X p m → l = m

end Elliptica.Iface
