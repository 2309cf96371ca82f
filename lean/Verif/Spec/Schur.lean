import Verif.Model.Schur
import Verif.Spec.Matrix
import Mathlib.Algebra.BigOperators.Group.Finset.Basic
import Mathlib.Data.Finset.Range
/-!
The linear system of the Newton step over all patches, independent of the elimination that solves it.
-/
namespace Elliptica.Schur
open Mat

variable {K : Type} [Field K] [LinearOrder K]

/-- entry (r,t) of the block that couples the subdomain unknowns of the patch to interface equation r of patch q -/
def Patch.entryF (P : Patch K) (q r t : Nat) : K :=
  match P.FC q with
  | none => 0
  | some (F, _) => F (P.NS * r + t)

/-- entry (r,i) of the block that couples the interface unknowns of the patch to interface equation r of patch q -/
def Patch.entryC (P : Patch K) (q r i : Nat) : K :=
  match P.FC q with
  | none => 0
  | some (_, C) => C (r, i)

/-- `x p s` (subdomain unknowns) and `y p i` (interface unknowns) solve the linear system of all patches: the subdomain
equations B x + E y = f of every patch, and the interface equations of every patch q, to which all patches contribute. -/
structure Solves (np : Nat) (P : Nat → Patch K) (x y : Nat → Nat → K) : Prop where
  subdomain : ∀ p, p < np → ∀ s, s < (P p).NS →
    ∑ t ∈ Finset.range (P p).NS, (P p).B (s, t) * x p t + ∑ i ∈ Finset.range (P p).NI, (P p).ET (i, s) * y p i = (P p).f s
  interface : ∀ q, q < np → ∀ r, r < (P q).NI →
    ∑ p ∈ Finset.range np, (∑ t ∈ Finset.range (P p).NS, (P p).entryF q r t * x p t
      + ∑ i ∈ Finset.range (P p).NI, (P p).entryC q r i * y p i) = (P q).g r

/-- the same system with zero right-hand sides -/
def homogeneous (P : Nat → Patch K) : Nat → Patch K := fun p => { P p with f := fun _ => 0, g := fun _ => 0 }

/-- a square matrix with trivial kernel -/
def Nonsingular (n : Nat) (M : Nat → Nat → K) : Prop :=
  ∀ v : Nat → K, (∀ r, r < n → ∑ c ∈ Finset.range n, M r c * v c = 0) → ∀ c, c < n → v c = 0

/-- the full system has only the trivial solution for zero right-hand sides -/
def FullNonsingular (np : Nat) (P : Nat → Patch K) : Prop :=
  ∀ x y, Solves np (homogeneous P) x y →
    (∀ p, p < np → ∀ s, s < (P p).NS → x p s = 0) ∧ ∀ p, p < np → ∀ i, i < (P p).NI → y p i = 0

/-- the direct solver only returns solutions (of well-formed square systems) -/
def Sound (solve : Solver K) : Prop :=
  ∀ A b z, CCS.WF A → A.row = A.col → solve A b = some z → ∀ r, r < A.row → ∑ c ∈ Finset.range A.col, A.entry r c * z c = b r

/-- the direct solver returns a solution whenever the (well-formed, square, non-empty) matrix is nonsingular -/
def Complete (solve : Solver K) : Prop :=
  ∀ A b, CCS.WF A → A.row = A.col → A.row ≠ 0 → Nonsingular A.row A.entry → ∃ z, solve A b = some z

end Elliptica.Schur
