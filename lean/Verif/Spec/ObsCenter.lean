import Verif.Model.ObsCenter
import Verif.Spec.Obs
/-!
Specification: the Laplacian, and mirror images of pieces of a surface.
-/
namespace Elliptica.ObsCenter
open Integ Index

/-- D_i D^i ψ = h^{ij} (∂_i ∂_j ψ - Γ^k_{ij} ∂_k ψ) -/
noncomputable def laplacian (q : In) : ℝ := ∑ i, ∑ j, q.ig i j * (q.ddpsi i j - ∑ k, q.C k i j * q.dpsi k)

/-- the components below the diagonal are those above -/
structure In.Sym (q : In) : Prop where
  ig : ∀ i j, q.ig i j = q.ig j i
  dd : ∀ i j, q.ddpsi i j = q.ddpsi j i
  C : ∀ k i j, q.C k i j = q.C k j i

/-- two points or more in every direction -/
def Piece.Ok (a : Piece) : Prop := ∀ d, 2 ≤ a.P.n d

/-- `b` is the mirror image of `a` in the point `c`, on the surface Z = 0: as many nodes, at the reflected points, with the same
element of area -/
structure Mirror (c : Fin 3 → ℝ) (a b : Piece) : Prop where
  n : b.P.n = a.P.n
  x : ∀ i < a.P.n 0, ∀ j < a.P.n 1, ∀ d, b.x (ijk (a.P.n 1) (a.P.n 2) i j 0) d = 2 * c d - a.x (ijk (a.P.n 1) (a.P.n 2) i j 0) d
  area : ∀ i < a.P.n 0, ∀ j < a.P.n 1, detH b.P (physical b.psi b.g) 0 1 (ijk (a.P.n 1) (a.P.n 2) i j 0) =
    detH a.P (physical a.psi a.g) 0 1 (ijk (a.P.n 1) (a.P.n 2) i j 0)

end Elliptica.ObsCenter
