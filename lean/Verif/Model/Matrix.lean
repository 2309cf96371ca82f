import Verif.Model.Tol
import Verif.Model.Index
/-!
Model of the matrix storage formats and of the linear algebra on them:
Src/Main/Modules/Maths/Linear_Algebra/{matrix_conversions,matrix_arithmetic,matrix_memory_managers,
matrix_inversions,preconditioners}.c and the matrix readers of
Src/Main/Modules/Maths/Equation_Solvings/dfs_df.c.  `double` is an ordered field `K`; `int`/`long` are
`Nat`.  Dense arrays are functions from positions (row, column), or from the linear position for the
row-major format, to `K`; a freshly allocated (calloc) array is the zero function.
-/
namespace Elliptica.Mat
open Tol Index

variable {K : Type} [Field K] [LinearOrder K]

/-- assignment `m[p] = x` -/
def upd {P : Type} [DecidableEq P] (m : P → K) (p : P) (x : K) : P → K :=
  fun q => if q = p then x else m q

/-- `m[p] += x` -/
def addTo {P : Type} [DecidableEq P] (m : P → K) (p : P) (x : K) : P → K := upd m p (m p + x)

/-- compressed column storage, maths_linear_algebra_lib.h:202-226 -/
structure CCS (K : Type) where
  row : Nat
  col : Nat
  Ap : List Nat
  Ai : List Nat
  Ax : List K
deriving DecidableEq, Repr

def CCS.ap (A : CCS K) (c : Nat) : Nat := A.Ap.getD c 0
def CCS.ai (A : CCS K) (i : Nat) : Nat := A.Ai.getD i 0
def CCS.ax (A : CCS K) (i : Nat) : K := A.Ax.getD i 0
/-- the values of the loop variable in `for (i = Ap[c]; i < Ap[c+1]; ++i)` -/
def CCS.seg (A : CCS K) (c : Nat) : List Nat := List.range' (A.ap c) (A.ap (c + 1) - A.ap c)

/-- the macro ABSd, Src/Main/Modules/Includes/maths_general_lib.h:13 -/
def absd (x : K) : K := if x > 0 then x else -x

/-- the test GRT(ABSd(x),DropLimit) (e = ROUND_OFF_ERR) -/
def keep (e drop x : K) : Bool := grt e (absd x) drop

/-- The common inner loop over rows, e.g. matrix_conversions.c:442-454; `off` is added to the stored row
(0 except in compress_stack2ccs) -/
def pushRows (e drop : K) (get : Nat → K) (off : Nat) (rows : List Nat) (st : List Nat × List K) :
    List Nat × List K :=
  rows.foldl (fun st r => if keep e drop (get r) then (st.1 ++ [r + off], st.2 ++ [get r]) else st) st

/-- matrix_conversions.c:429-463 `convert_reg2ccs`, 467-501 `convert_reg2ccs_long`, 504-539
`convert_rmo2ccs` and the loops of matrix_arithmetic.c:288-334 (CCSOpCCS): for every column the kept
entries in row order, then `Ap[c+1] = tNN0`.  `get r c` is the entry. -/
def buildCCS (e drop : K) (get : Nat → Nat → K) (Nr Nc : Nat) : CCS K :=
  let s := (List.range Nc).foldl (fun (s : List Nat × (List Nat × List K)) c =>
    let st := pushRows e drop (fun r => get r c) 0 (List.range Nr) s.2
    (s.1 ++ [st.1.length], st)) ([0], ([], []))
  ⟨Nr, Nc, s.1, s.2.1, s.2.2⟩

/-- matrix_conversions.c:41-63, one block of the stack (`a.1` = R, the number of rows above; a null block is skipped) -/
def stackStep (e : K) (c : Nat) (a : Nat × (List Nat × List K)) (p : Option (Nat × Nat → K) × Nat) :
    Nat × (List Nat × List K) :=
  (a.1 + p.2, match p.1 with
    | none => a.2
    | some m => pushRows e 0 (fun r => m (r, c)) a.1 (List.range p.2) a.2)

/-- matrix_conversions.c:18-81 `compress_stack2ccs`; the stack is a list of (matrix or null, number of rows) -/
def compressStack (e : K) (S : List (Option (Nat × Nat → K) × Nat)) (Nrow Ncol : Nat) : CCS K :=
  let s := (List.range Ncol).foldl (fun (s : List Nat × (List Nat × List K)) c =>
    let st := (S.foldl (stackStep e c) (0, s.2)).2
    (s.1 ++ [st.1.length], st)) ([0], ([], []))
  ⟨Nrow, Ncol, s.1, s.2.1, s.2.2⟩

/-- matrix_conversions.c:289-305 `convert_ccs2reg` (and 308-324 for the long format), into zeroed memory -/
def ccs2reg (A : CCS K) : Nat × Nat → K :=
  (List.range A.col).foldl (fun m c => (A.seg c).foldl (fun m i => upd m (A.ai i, c) (A.ax i)) m) (fun _ => 0)

/-- matrix_conversions.c:330-345 `copy_reg2reg`: target contents after the call.  The guard of the code is
"row and column non-zero: return". -/
def copyReg2reg (row col : Nat) (src dst : Nat × Nat → K) : Nat × Nat → K :=
  if row ≠ 0 ∧ col ≠ 0 then dst
  else (List.range row).foldl (fun m r => (List.range col).foldl (fun m c => upd m (r, c) (src (r, c))) m) dst

/-- matrix_conversions.c:351-384 `copy_ccs2ccs` (non-empty matrices), 390-423 for the long format: Ap, Ai and Ax are copied
entry by entry into zeroed arrays of length Ap[Nc] -/
def copyCcs2ccs (A : CCS K) : CCS K :=
  let n := A.ap A.col
  let s := (List.range A.col).foldl (fun (s : (Nat → Nat) × (Nat → Nat) × (Nat → K)) c =>
    let t := (A.seg c).foldl (fun (t : (Nat → Nat) × (Nat → K)) i =>
      ((fun q => if q = i then A.ai i else t.1 q), upd t.2 i (A.ax i))) s.2
    ((fun q => if q = c then A.ap c else s.1 q), t)) (fun _ => 0, fun _ => 0, fun _ => 0)
  let ap := fun q => if q = A.col then A.ap A.col else s.1 q
  ⟨A.row, A.col, (List.range (A.col + 1)).map ap, (List.range n).map s.2.1, (List.range n).map s.2.2⟩

/-- a matrix in one of the formats the code handles -/
inductive Mx (K : Type) where
  | reg (row col : Nat) (A : Nat × Nat → K)
  | rmo (row col : Nat) (A : Nat → K)
  | ccs (A : CCS K)

def Mx.row : Mx K → Nat
  | .reg r _ _ => r
  | .rmo r _ _ => r
  | .ccs A => A.row
def Mx.col : Mx K → Nat
  | .reg _ c _ => c
  | .rmo _ c _ => c
  | .ccs A => A.col

/-- matrix_conversions.c:244-286 `cast_matrix_reg` (`none` = null is returned) -/
def castReg (m : Mx K) : Res (Option (Mx K)) :=
  if m.row = 0 ∨ m.col = 0 then .ok none
  else match m with
    | .reg r c A => .ok (some (.reg r c (copyReg2reg r c A (fun _ => 0))))
    | .ccs A => .ok (some (.reg A.row A.col (ccs2reg A)))
    | .rmo _ _ _ => .abort

/-- matrix_conversions.c:91-144 `cast_matrix_ccs`; drop = the parameter matrix_ccs_drop_below or 0 -/
def castCcs (e drop : K) (m : Mx K) : Res (Option (Mx K)) :=
  if m.row = 0 ∨ m.col = 0 then .ok none
  else match m with
    | .reg r c A => .ok (some (.ccs (buildCCS e drop (fun i j => A (i, j)) r c)))
    | .rmo r c A => .ok (some (.ccs (buildCCS e drop (fun i j => A (ij c i j)) r c)))
    | .ccs A => .ok (some (.ccs (copyCcs2ccs A)))

/-- matrix_conversions.c:152-177 `cast_matrix_rmo` -/
def castRmo (m : Mx K) : Res (Option (Mx K)) :=
  if m.row = 0 ∨ m.col = 0 then .ok none
  else match m with
    | .reg r c A => .ok (some (.rmo r c
        ((List.range r).foldl (fun b i => (List.range c).foldl (fun b j => upd b (ij c i j) (A (i, j))) b)
          (fun _ => 0))))
    | _ => .abort

/-- matrix_arithmetic.c:16-89 `matrix_by_vector`; `init` = the flag INITIALIZE -/
def matrixByVector (m : Mx K) (v b : Nat → K) (init : Bool) : Res (Nat → K) :=
  if m.row = 0 ∨ m.col = 0 then .abort
  else
    let b0 := if init then (List.range m.row).foldl (fun b r => upd b r 0) b else b
    match m with
    | .reg row col M =>
      .ok ((List.range row).foldl (fun b r => (List.range col).foldl (fun b c => addTo b r (M (r, c) * v c)) b) b0)
    | .rmo row col M =>
      .ok ((List.range row).foldl (fun b r => (List.range col).foldl (fun b c => addTo b r (M (ij col r c) * v c)) b) b0)
    | .ccs _ => .abort

/-- matrix_arithmetic.c:116-153 `matrix_by_matrix` with directive "a*b" and result = 0 -/
def mulMM (a b : Mx K) : Res (Mx K) :=
  if a.row = 0 ∨ a.col = 0 ∨ b.row = 0 ∨ b.col = 0 ∨ a.col ≠ b.row then .abort
  else match a, b with
    | .reg ar _ A, .reg br bc B =>
      .ok (.reg ar bc ((List.range ar).foldl (fun D r => (List.range bc).foldl (fun D c =>
        (List.range br).foldl (fun D i => addTo D (r, c) (A (r, i) * B (i, c))) D) D) (fun _ => 0)))
    | .ccs A, .ccs B =>
      .ok (.reg A.row B.col ((List.range B.col).foldl (fun D c => (B.seg c).foldl (fun D r =>
        (A.seg (B.ai r)).foldl (fun D i => addTo D (A.ai i, c) (A.ax i * B.ax r)) D) D) (fun _ => 0)))
    | _, _ => .abort

/-- matrix_arithmetic.c:154-258 `matrix_by_matrix` with directive "a*Transpose(b)"; `res` = the contents of the given
row-major result matrix, if any -/
def mulMMT (a b : Mx K) (res : Option (Nat → K)) : Res (Mx K) :=
  if a.row = 0 ∨ a.col = 0 ∨ b.row = 0 ∨ b.col = 0 ∨ a.col ≠ b.col then .abort
  else match a, b, res with
    | .reg ar _ A, .reg br bc B, none =>
      .ok (.reg ar br ((List.range ar).foldl (fun D r => (List.range br).foldl (fun D c =>
        (List.range bc).foldl (fun D i => addTo D (r, c) (A (r, i) * B (c, i))) D) D) (fun _ => 0)))
    | .rmo ar _ A, .rmo br bc B, some D0 =>
      .ok (.rmo ar br ((List.range ar).foldl (fun D r => (List.range br).foldl (fun D c =>
        (List.range bc).foldl (fun D i => addTo D (ij br r c) (A (ij bc r i) * B (ij bc c i))) D) D) D0))
    | .rmo ar _ A, .rmo br bc B, none =>
      .ok (.reg ar br ((List.range ar).foldl (fun D r => (List.range br).foldl (fun D c =>
        (List.range bc).foldl (fun D i => addTo D (r, c) (A (ij bc r i) * B (ij bc c i))) D) D) (fun _ => 0)))
    | .ccs A, .ccs B, some D0 =>
      .ok (.rmo A.row B.row ((List.range A.col).foldl (fun D c => (A.seg c).foldl (fun D l1 =>
        (B.seg c).foldl (fun D l2 => addTo D (ij B.row (A.ai l1) (B.ai l2)) (A.ax l1 * B.ax l2)) D) D) D0))
    | _, _, _ => .abort

/-! ### readers of compressed matrices -/

/-- dfs_df.c:958-960, the loop `for (i = Ap[c]; Ai[i] <= r && i < i_max; ++i)`: `Ai[i]` is read before the bound is
tested; reading beyond the array is undefined -/
def readLoop (A : CCS K) (r imax : Nat) : Nat → Nat → Res K
  | 0, _ => .ok 0
  | fuel + 1, i =>
    if i ≥ A.Ai.length then .ub
    else if A.ai i ≤ r ∧ i < imax then
      if A.ai i = r then .ok (A.ax i) else readLoop A r imax fuel (i + 1)
    else .ok 0

/-- dfs_df.c:949-963 `read_matrix_entry_ccs` (without CCS_READER_OPTIMIZE) -/
def readEntry (A : CCS K) (r c : Nat) : Res K :=
  readLoop A r (A.ap (c + 1)) (A.ap (c + 1) - A.ap c + 1) (A.ap c)

/-- dfs_df.c:2064-2098 `coarse_grain_Ap_ccs_matrix`: (Ap_cg, i_cg); the program stops when a column has fewer
entries than slices, or when no slice is asked for -/
def coarseGrain (A : CCS K) (Nslice : Nat) : Res (List Nat × List Nat) :=
  if Nslice = 0 then .abort
  else if (List.range A.col).any (fun c => decide (A.ap (c + 1) - A.ap c < Nslice)) then .abort
  else
    let s := (List.range A.col).foldl (fun (s : List Nat × List Nat) c =>
      (s.1 ++ [s.2.length],
        s.2 ++ (List.range Nslice).map (fun t => A.ap c + t * ((A.ap (c + 1) - A.ap c) / Nslice)))) ([], [])
    .ok (s.1 ++ [s.2.length], s.2 ++ [A.ap A.col])

/-- dfs_df.c:927-934: find the slice -/
def sliceLoop (A : CCS K) (icg : List Nat) (r imax : Nat) : Nat → Nat → Nat
  | 0, i => i
  | fuel + 1, i =>
    if i < imax then
      if r ≤ A.ai (icg.getD (i + 1) 0 - 1) then i else sliceLoop A icg r imax fuel (i + 1)
    else i

/-- dfs_df.c:916-944 `read_matrix_entry_ccs` (with CCS_READER_OPTIMIZE) -/
def readSliced (A : CCS K) (cg : List Nat × List Nat) (r c : Nat) : K :=
  let i0 := cg.1.getD c 0
  let imax := cg.1.getD (c + 1) 0 - 1
  let s := sliceLoop A cg.2 r imax (imax - i0) i0
  let lo := cg.2.getD s 0
  let hi := cg.2.getD (s + 1) 0
  match (List.range' lo (hi - lo)).find? (fun i => A.ai i = r) with
  | some i => A.ax i
  | none => 0

/-- matrix_arithmetic.c:265-343 `CCSOpCCS` with the plain reader (`sub` for Op = '-'); reads that are undefined
make the call undefined -/
def ccsOp (e : K) (sub : Bool) (A2 A1 : CCS K) : Res (CCS K) :=
  if A2.row ≠ A1.row ∨ A2.col ≠ A1.col then .abort
  else if (List.range A2.col).any (fun c => (List.range A2.row).any (fun r =>
      match readEntry A2 r c, readEntry A1 r c with
      | .ok _, .ok _ => false
      | _, _ => true)) then .ub
  else
    let get (A : CCS K) (r c : Nat) : K := match readEntry A r c with | .ok x => x | _ => 0
    .ok (buildCCS e 0 (fun r c => if sub then get A2 r c - get A1 r c else get A2 r c + get A1 r c) A2.row A2.col)

/-- matrix_arithmetic.c:347-376 `matrix_comparison` on regular matrices -/
def compareReg (e : K) (r1 c1 : Nat) (m1 : Nat × Nat → K) (r2 c2 : Nat) (m2 : Nat × Nat → K) : Bool :=
  if r1 ≠ r2 then false
  else if c1 ≠ c2 then false
  else (List.range r1).all (fun r => (List.range c1).all (fun c => eql e (m1 (r, c)) (m2 (r, c))))

/-- matrix_inversions.c:20-89 `invert_matrix`, the loop over columns; `solve A b` stands for the UMFPACK calls on the
compressed matrix with right-hand side `b`.  ej is 1 at `c` and 0 elsewhere. -/
def invert (e drop : K) (solve : CCS K → (Nat → K) → (Nat → K)) (row col : Nat) (M : Nat × Nat → K) : Nat × Nat → K :=
  let A := buildCCS e drop (fun i j => M (i, j)) row col
  ((List.range col).foldl (fun (s : (Nat → K) × (Nat × Nat → K)) c =>
    let ej := upd s.1 c 1
    let x := solve A ej
    (upd ej c 0, (List.range row).foldl (fun inv r => upd inv (r, c) (x r)) s.2)) (fun _ => 0, fun _ => 0)).2

/-! ### preconditioner -/

/-- preconditioners.c:27-31: the lower triangle of A -/
def lowerOf (row : Nat) (a : Nat × Nat → K) : Nat × Nat → K :=
  (List.range row).foldl (fun l i => (List.range (i + 1)).foldl (fun l j => upd l (i, j) (a (i, j))) l) (fun _ => 0)

/-- preconditioners.c:37-56, the loop of `precondition_GS` over the rows, in place; `invl` = invert_matrix(L) -/
def preconditionLoop (row col : Nat) (invl : Nat × Nat → K) (a : Nat × Nat → K) (b : Nat → K) :
    (Nat × Nat → K) × (Nat → K) :=
  (List.range row).foldl (fun (s : (Nat × Nat → K) × (Nat → K)) i =>
    let a' := (List.range col).foldl (fun a j =>
      upd a (i, j) ((List.range row).foldl (fun acc k => acc + invl (i, k) * a (k, j)) 0)) s.1
    let b' := upd s.2 i ((List.range col).foldl (fun acc k => acc + invl (i, k) * s.2 k) 0)
    (a', b')) (a, b)

end Elliptica.Mat
