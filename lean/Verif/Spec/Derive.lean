import Verif.Props.DerivName
/-!
Specification of C103: fields read by name, the derivative of values on a patch, names of Christoffel symbols and their derivatives.
-/
namespace Elliptica.DeriveSpec
open Text Deriv DerivName

/-- the contents of the field of that name -/
def held (l : Flds) (n : Str) : Option (Coeff.St ℝ) := (l.find? fun f => f.name = n).bind (·.val)

/-- the values `w` are, at every grid point, the Cartesian derivative in direction `i` of the polynomial through the values `v` -/
def Derivative (p : Patch) (v w : ℕ → ℝ) (i : Fin 3) : Prop :=
  ∃ P, Fits p P ∧ Samples p v P ∧
    ∀ t, Inside p t → w (idx p t) = ∑ d, MvPolynomial.eval (pos p t) (MvPolynomial.pderiv d P) * dXdq p d (.x i) (idx p t)

/-- the field `name` is to hold the derivative of the field `src` in direction `dir` -/
structure Der where
  name : Str
  src : Str
  dir : Fin 3

/-- the name of a Christoffel symbol: stem, one upper and two lower indices -/
def chrisName (s : Str) (i j k : Fin 3) : Str := s ++ ['_', 'U', digit i, 'D', digit j, 'D', digit k]

/-- the name of its derivative -/
def dchrisName (s : Str) (i j k d : Fin 3) : Str := 'd' :: chrisName s i j k ++ ['D', digit d]

/-- a metric component, its derivative -/
def gName (s : Str) (i j : Fin 3) : Str := s ++ ['_', 'D', digit i, 'D', digit j]
def dgName (s : Str) (i j d : Fin 3) : Str := 'd' :: gName s i j ++ ['D', digit d]

end Elliptica.DeriveSpec
