import Verif.Model.Matrix
/-!
What the storage formats mean, independent of the algorithms.
-/
namespace Elliptica.Mat

variable {K : Type} [Field K] [LinearOrder K]

/-- Entry (r,c) of a matrix in compressed column storage: the stored value of column c whose row index is r
(the sum, should there be several), 0 if there is none. -/
def CCS.entry (A : CCS K) (r c : Nat) : K :=
  ((A.seg c).map (fun i => if A.ai i = r then A.ax i else 0)).sum

/-- Well-formed compressed column storage: monotone column pointers from 0 to the number of entries, row
indices in range and strictly increasing within a column. -/
structure CCS.WF (A : CCS K) : Prop where
  apLen : A.Ap.length = A.col + 1
  axLen : A.Ax.length = A.Ai.length
  ap0 : A.ap 0 = 0
  mono : ∀ c, c < A.col → A.ap c ≤ A.ap (c + 1)
  apEnd : A.ap A.col = A.Ai.length
  rows : ∀ i, i < A.Ai.length → A.ai i < A.row
  incr : ∀ c, c < A.col → ∀ i j, A.ap c ≤ i → i < j → j < A.ap (c + 1) → A.ai i < A.ai j

/-- entry (r,c) of a matrix in any format -/
def Mx.entry : Mx K → Nat → Nat → K
  | .reg _ _ A, r, c => A (r, c)
  | .rmo _ col A, r, c => A (Index.ij col r c)
  | .ccs A, r, c => A.entry r c

/-- the row indices of a compressed matrix are in range -/
def Mx.WF : Mx K → Prop
  | .ccs A => A.WF
  | _ => True

end Elliptica.Mat
