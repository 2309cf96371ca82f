import Verif.Model.Common
import Mathlib.Algebra.Field.Basic
import Mathlib.Algebra.Order.Ring.Defs
/-!
Model of `finite_difference_Fornberg`, Src/Main/Modules/Maths/Calculus/derivatives.c:1095-1218.  `double` is an exact
ordered field `K`.  An array of length Nx is a function on ℕ; every read is guarded by its bound.  The variable-length
array `delta` is not initialised by the C code: here it starts with arbitrary contents `g`.
Simplification: sizes fit an unsigned int and `(int)` casts do not overflow.
-/
namespace Elliptica.Fornberg

variable {K : Type} [Field K] [LinearOrder K]

/-- derivatives.c:1118 `double delta[M+1][N+1][N+1]` -/
abbrev Tab (K : Type) := ℕ → ℕ → ℕ → K

/-- an assignment `delta[m][n][v] = a` -/
def put (t : Tab K) (m n v : ℕ) (a : K) : Tab K := fun m' n' v' => if m' = m ∧ n' = n ∧ v' = v then a else t m' n' v'

/-- derivatives.c:1190-1196 one pass of the loop on m ≥ 1 (m = i+1) for v < n -/
def inM (al : ℕ → K) (x0 c3 : K) (n v : ℕ) (t : Tab K) (i : ℕ) : Tab K :=
  put t (i + 1) n v (((al n - x0) * t (i + 1) (n - 1) v - ((i + 1 : ℕ) : K) * t i (n - 1) v) / c3)

/-- derivatives.c:1178-1197 one pass of the loop on v < n; the second component is c2 -/
def inV (al : ℕ → K) (x0 : K) (M n : ℕ) (s : Tab K × K) (v : ℕ) : Tab K × K :=
  let c3 := al n - al v
  let c2 := s.2 * c3
  let t := if n ≤ M then put s.1 n (n - 1) v 0 else s.1
  let t := put t 0 n v ((al n - x0) * t 0 (n - 1) v / c3)
  let t := (List.range (min n M)).foldl (inM al x0 c3 n v) t
  (t, c2)

/-- derivatives.c:1202-1206 one pass of the loop on m ≥ 1 (m = i+1) for v = n -/
def diM (al : ℕ → K) (x0 q : K) (n : ℕ) (t : Tab K) (i : ℕ) : Tab K :=
  put t (i + 1) n n
    (q * (((i + 1 : ℕ) : K) * t i (n - 1) (n - 1) - (al (n - 1) - x0) * t (i + 1) (n - 1) (n - 1)))

/-- derivatives.c:1174-1208 one pass of the loop on n (n = p+1); the second component is c1 -/
def level (al : ℕ → K) (x0 : K) (M : ℕ) (s : Tab K × K) (p : ℕ) : Tab K × K :=
  let n := p + 1
  let r := (List.range n).foldl (inV al x0 M n) (s.1, 1)
  let t := put r.1 0 n n (-(s.2 / r.2) * (al (n - 1) - x0) * r.1 0 (n - 1) (n - 1))
  let t := (List.range (min n M)).foldl (diM al x0 (s.2 / r.2) n) t
  (t, r.2)

/-- derivatives.c:1171-1208 the whole table, from the uninitialised contents `g` -/
def table (al : ℕ → K) (x0 : K) (M N : ℕ) (g : Tab K) : Tab K :=
  ((List.range N).foldl (level al x0 M) (put g 0 0 0 1, 1)).1

/-- derivatives.c:1131-1137 the search loop: `fuel` points left, at index `i` -/
def search (x : ℕ → K) (x0 : K) : ℕ → ℕ → ℕ
  | 0, i => i
  | fuel + 1, i => if x0 ≥ x i ∧ x0 ≤ x (i + 1) then i else search x x0 fuel (i + 1)

/-- derivatives.c:1161-1165 `while (offset < 0)`; `fuel` = number of passes allowed -/
def shiftR : ℕ → ℤ × ℤ → ℤ × ℤ
  | 0, w => w
  | fuel + 1, w => if w.1 < 0 then shiftR fuel (w.1 + 1, w.2 + 1) else w

/-- derivatives.c:1166-1170 `while ((Uint)fence > (Nx-1))` -/
def shiftL (Nx : ℕ) : ℕ → ℤ × ℤ → ℤ × ℤ
  | 0, w => w
  | fuel + 1, w => if w.2 > (Nx : ℤ) - 1 then shiftL Nx fuel (w.1 - 1, w.2 - 1) else w

/-- derivatives.c:1157-1170 the window [offset,fence]; the passes of the two loops are at most N and Nx + N -/
def window (Nx N indx : ℕ) : ℤ × ℤ :=
  shiftL Nx (Nx + N) (shiftR N ((indx : ℤ) - ((N / 2 : ℕ) : ℤ), ((indx + (N + 1) / 2 : ℕ) : ℤ)))

/-- derivatives.c:1101-1218 `finite_difference_Fornberg`.  `fd_acc + fd_order = 0` makes N = UINT_MAX and the array
has zero length (`ub`); the assertion N < 100; equal points in the window divide by zero (`ub`: not a number);
the final sum reads `f[offset+v]`. The test `indx == UINT_MAX` at line 1138 is never true after the loop. -/
def fornberg (g : Tab K) (f x : ℕ → K) (x0 : K) (Nx order acc : ℕ) : Res K :=
  if acc + order = 0 then .ub
  else
    let M := order
    let N := acc + M - 1
    if ¬ N < 100 then .abort
    else if Nx ≤ N + 1 then .abort
    else
      let indx := search x x0 (Nx - 1) 0
      let w := window Nx N indx
      if ¬ w.1 ≥ 0 then .abort
      else
        let off := w.1.toNat
        let al := fun j => x (off + j)
        if Nx ≤ off + N then .ub
        else if (List.range (N + 1)).any fun i => (List.range i).any fun j => al i = al j then .ub
        else
          let d := table al x0 M N g
          .ok ((List.range (N + 1)).foldl (fun r v => r + d M N v * f (off + v)) 0)

end Elliptica.Fornberg
