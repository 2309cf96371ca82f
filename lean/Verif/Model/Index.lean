import Verif.Model.Common
/-!
Model of the index arithmetic: Src/Main/Modules/Includes/utilities_lib.h and
Src/Main/Modules/Utilities/useful_functions.c.  `Uint` is `Nat` (no wrap-around).
-/
namespace Elliptica.Index

/-- utilities_lib.h:9, 24-25 `i_j_to_ij` -/
def ij (nj i j : Nat) : Nat := j + nj * i

/-- utilities_lib.h:12-13, 20-21 `i_j_k_to_ijk` (n[0] is not used by the code) -/
def ijk (n1 n2 i j k : Nat) : Nat := k + n2 * (j + n1 * i)

/-- utilities_lib.h:141-149 `ijk_to_i_j_k_row_major_order` and useful_functions.c:32-35 -/
def toI (n1 n2 l : Nat) : Nat := l / (n2 * n1)

/-- utilities_lib.h:141-149 and useful_functions.c:38-44 -/
def toJ (n1 n2 l : Nat) : Nat := (l % (n2 * n1)) / n2

/-- utilities_lib.h:141-149 and useful_functions.c:47-53 -/
def toK (n1 n2 l : Nat) : Nat := (l % (n2 * n1)) % n2

/-- utilities_lib.h:28, 36-37 `i_j_to_ij_symmetric` (each argument a plain variable: the macro does not
parenthesise its arguments in `j > i`; for i = 0 the unsigned i*(i-1)/2 is 0 in C as here) -/
def ijSym (n i j : Nat) : Nat :=
  if j > i then n * i - i * (i - 1) / 2 + (j - i) else n * j - j * (j - 1) / 2 + (i - j)

/-- useful_functions.c:97-112 `IsOnEdge` -/
def isOnEdge (n0 n1 n2 p : Nat) : Bool :=
  let i := toI n1 n2 p
  let j := toJ n1 n2 p
  let k := toK n1 n2 p
  let c := (if i = n0 - 1 ∨ i = 0 then 1 else 0) + (if j = n1 - 1 ∨ j = 0 then 1 else 0)
    + (if k = n2 - 1 ∨ k = 0 then 1 else 0)
  decide (c > 1)

/-- useful_functions.c:324-335 `subface_map_invers_id` (`none` is UINT_MAX) -/
def inversId : List Nat → Nat → Option Nat
  | [], _ => none
  | a :: r, n => if a = n then some 0 else (inversId r n).map (· + 1)

end Elliptica.Index
