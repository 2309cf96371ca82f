import Verif.Model.Deriv
import Mathlib.Algebra.MvPolynomial.PDeriv
/-!
Vocabulary of C54: polynomials in three variables and their partial derivatives (Mathlib), grid points, coordinates.
-/
namespace Elliptica.Deriv

variable (e : ℝ) (p : Patch)

/-- the patch coordinates of the grid point with indices t -/
noncomputable def pos (t : Fin 3 → ℕ) : Fin 3 → ℝ := fun d => ptv p d (t d)

/-- t are indices of a grid point -/
def Inside (t : Fin 3 → ℕ) : Prop := ∀ d, t d < p.n d

/-- the values are those of the polynomial P at the grid points -/
def Samples (v : Coeff.Data ℝ) (P : MvPolynomial (Fin 3) ℝ) : Prop :=
  ∀ t, Inside p t → v (idx p t) = MvPolynomial.eval (pos p t) P

/-- fewer coefficients than points in each direction -/
def Fits (P : MvPolynomial (Fin 3) ℝ) : Prop := ∀ d, MvPolynomial.degreeOf d P < p.n d

/-- a patch as the program makes them: Chebyshev basis, Chebyshev points, at least two points and a non-empty interval in
each direction; the tolerance is smaller than the distances between the points and the ends of the interval (with 1e-12:
fewer than 700000 points) -/
structure Good : Prop where
  pos : 0 < e
  two : ∀ d, 2 ≤ p.n d
  box : ∀ d, p.mn d < p.mx d
  tn : ∀ d, p.basis d = .tn
  cheb : ∀ d, p.coll d = .extrema ∨ p.coll d = .nodes
  tol : ∀ d, 2 * e * (p.n d : ℝ) ^ 2 ≤ 1

/-- ∂X_d/∂q: how the patch coordinate d changes with a Cartesian coordinate (as given by the coordinate system of the
patch) or with a patch coordinate -/
noncomputable def dXdq (d : Fin 3) (q : Dir) (l : ℕ) : ℝ :=
  match q with
  | .x j => match p.sys with
    | .cartesian => if d = j then 1 else 0
    | _ => p.jt (.a d) (.x j) l
  | .a j => if d = j then 1 else 0
  | .N _ => 0

/-- a direction one can ask for: x,y,z,a,b,c -/
def Dir.user : Dir → Prop
  | .N _ => False
  | _ => True

/-- several partial derivatives, the first of the list first -/
noncomputable def iter : List Dir → MvPolynomial (Fin 3) ℝ → MvPolynomial (Fin 3) ℝ
  | [], P => P
  | d :: ds, P => iter ds (MvPolynomial.pderiv d.mod3 P)

end Elliptica.Deriv
