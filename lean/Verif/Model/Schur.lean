import Verif.Model.Common
import Verif.Model.Matrix
/-!
Model of one Newton step of the domain-decomposed (Schur complement) solver,
Src/Main/Modules/Maths/Equation_Solvings/solve_eqs_ddm_schur_complement.c: the labelling of the nodes
(`make_map_and_inv`), the elimination of the subdomain unknowns of every patch, the assembly of the global interface
system and the update of the fields.

The direct solver (UMFPACK, Src/Main/Modules/Maths/Matrix_Solvers/umfpack_method.c) is a parameter.  The entries of B, E, F, C and the right-hand sides f, g come
from the user's Jacobian and residual functions and are data here.  `double` is an ordered field `K`, patches are numbered
`0 … np-1`.  The OpenMP loops over patches write only to the patch they handle, so they are modelled patch by patch.
-/
namespace Elliptica.Schur
open Mat

variable {K : Type} [Field K] [LinearOrder K]

/-! ### labelling of the nodes of a patch -/

/-- solve_eqs_ddm_schur_complement.c:2746-2757 `OnFace`; the node number is split by `ijk_to_i_j_k` -/
def onFace (n : Nat → Nat) (p : Nat) : Bool :=
  let i := Index.toI (n 1) (n 2) p
  let j := Index.toJ (n 1) (n 2) p
  let k := Index.toK (n 1) (n 2) p
  decide (i = n 0 - 1) || decide (i = 0) || decide (j = n 1 - 1) || decide (j = 0) || decide (k = n 2 - 1) || decide (k = 0)

/-- the members of SubFace_T (Core/Includes/core_lib.h) used by the labelling: node numbers `id` (`np` = its length) and
the flags -/
structure SubFace where
  id : List Nat
  outerB : Bool
  innerB : Bool
  exterF : Bool
deriving DecidableEq, Repr

/-- the arrays written by `make_map_and_inv`; the maps are partial (`none` = never written), Imap holds UINT_MAX = `none`
where it is not set.  `inv`/`Iinv` are filled from the front, so they are lists.  `map`, `Imap` and the flag of a node are
functions of the node. -/
structure Labels where
  map : Nat → Option Nat
  inv : List Nat
  flag : Nat → Bool
  Imap : Nat → Option Nat
  Iinv : List Nat

/-- lines 2025-2031 and 2053-2058: `map[t] = j; inv[j] = t; flag_point[t] = 1; j++` (j is the length of inv) -/
def Labels.put (L : Labels) (t : Nat) : Labels :=
  { L with map := fun q => if q = t then some L.inv.length else L.map q, inv := L.inv ++ [t],
           flag := fun q => if q = t then true else L.flag q }

/-- lines 2052-2059: put the node unless it is flagged -/
def Labels.putS (L : Labels) (t : Nat) : Labels := if L.flag t then L else L.put t

/-- lines 2096-2105: put the node among the interface nodes unless it is flagged -/
def Labels.putI (L : Labels) (t : Nat) : Labels :=
  if L.flag t then L
  else { L.put t with Imap := fun q => if q = t then some L.Iinv.length else L.Imap q, Iinv := L.Iinv ++ [t] }

/-- solve_eqs_ddm_schur_complement.c:1993-2120 `make_map_and_inv` (the subfaces of all interfaces in order;
`closed` = some direction of the patch is closed; a node number outside of the patch is an access beyond the arrays).
Result: the arrays and NS. -/
def makeMapAndInv (n : Nat → Nat) (closed : Bool) (sfs : List SubFace) : Res (Labels × Nat) :=
  if closed then .abort
  else
    let nn := n 0 * n 1 * n 2
    let L0 : Labels := ⟨fun _ => none, [], fun _ => false, fun _ => none, []⟩
    let L1 := (List.range nn).foldl (fun L i => if onFace n i then L else L.put i) L0
    let L2 := sfs.foldl (fun L s => if s.outerB || s.innerB then s.id.foldl Labels.putS L else L) L1
    if sfs.any (fun s => s.id.any (fun t => decide (nn ≤ t))) then .ub
    else if sfs.any (fun s => !s.exterF) then .abort
    else
      let L3 := sfs.foldl (fun L s => if s.innerB || s.outerB then L else s.id.foldl Labels.putI L) L2
      if L3.inv.length ≠ nn then .abort else .ok (L3, L2.inv.length)

/-! ### the matrices of a patch -/

/-- What the Jacobian and residual functions deliver for a patch: B (NS×NS), the transpose of E (NI×NS), f (NS), g (NI),
and for every patch q that is connected to this one the blocks F (NI_q×NS, row-major) and C (NI_q×NI).
`making_B_and_E` 1470-1497, `making_F_and_C` 938-990 (F and C are allocated together, when `sewing[q]` exists). -/
structure Patch (K : Type) where
  NS : Nat
  NI : Nat
  B : Nat × Nat → K
  ET : Nat × Nat → K
  f : Nat → K
  g : Nat → K
  FC : Nat → Option ((Nat → K) × (Nat × Nat → K))

/-- the direct solver on a compressed matrix: the solution, or `none` when UMFPACK reports an error (e.g. a singular
matrix), whereupon the program stops (umfpack_method.c:135-140, 282-383) -/
abbrev Solver (K : Type) := CCS K → (Nat → K) → Option (Nat → K)

/-- the sums of NI_p before patch p: the variable R of 914-931, 776-789, 505-511; for p = np this is NI_total of
set_NSs_NIs, 1658-1685 -/
def off (P : Nat → Patch K) (p : Nat) : Nat := (List.range p).foldl (fun R q => R + (P q).NI) 0

/-- the arrays produced for one patch: E'^T (compressed), f', the vector of the F f', subS -/
structure Elim (K : Type) where
  ETp : CCS K
  fp : Nat → K
  Ff : Nat → K
  subS : CCS K

/-- 1378-1466 `making_E_prime_and_f_prime`: B is compressed, the rows of E^T and f are the right-hand sides; the
solutions are the rows of E'^T (compressed) and f'.  A null pointer (empty matrix) is dereferenced if NS = 0; for NI = 0 the
compressed E'^T is the null pointer, which is dereferenced in compute_x (452-455). -/
def ePrime (e drop : K) (solve : Solver K) (P : Patch K) : Res (CCS K × (Nat → K)) :=
  if P.NS = 0 then .ub
  else
    let a := buildCCS e drop (fun r c => P.B (r, c)) P.NS P.NS
    let xs := fun i => solve a (fun s => P.ET (i, s))
    if (List.range P.NI).any (fun i => (xs i).isNone) then .abort
    else match solve a P.f with
      | none => .abort
      | some fp =>
        if P.NI = 0 then .ub
        else .ok (buildCCS e drop (fun r c => (xs r).getD (fun _ => 0) c) P.NI P.NS, fp)

/-- 920-931, one step of the loop of `making_F_by_f_prime`; the state is (R, F_by_f_prime) -/
def fByfStep (NI : Nat → Nat) (P : Patch K) (fp : Nat → K) (s : Nat × (Nat → K)) (q : Nat) : Res (Nat × (Nat → K)) :=
  match P.FC q with
  | none => .ok (s.1 + NI q, s.2)
  | some (F, _) =>
    (matrixByVector (.rmo (NI q) P.NS F) fp (fun r => s.2 (s.1 + r)) false).bind fun w =>
      .ok (s.1 + NI q, fun t => if s.1 ≤ t then w (t - s.1) else s.2 t)

/-- 904-933 `making_F_by_f_prime`: the blocks F[q] f' one below the other -/
def fByf (np : Nat) (NI : Nat → Nat) (P : Patch K) (fp : Nat → K) : Res (Nat → K) :=
  ((List.range np).foldl (fun (s : Res (Nat × (Nat → K))) q => s.bind (fByfStep NI P fp · q)) (.ok (0, fun _ => 0))).bind
    fun s => .ok s.2

/-- 793-892 `making_F_by_E_prime` (the branch without BLAS): `none` when one of the factors has no entries -/
def fByE (e drop : K) (nq : Nat) (P : Patch K) (ETp : CCS K) (F : Nat → K) : Res (Option (Nat → K)) :=
  (castCcs e drop (.rmo nq P.NS F)).bind fun o =>
    match o with
    | some (.ccs Fc) =>
      if Fc.ap Fc.col ≠ 0 ∧ ETp.ap ETp.col ≠ 0 then
        (mulMMT (.ccs Fc) (.ccs ETp) (some (fun _ => 0))).bind fun m =>
          match m with
          | .rmo _ _ A => .ok (some A)
          | _ => .ub
      else .ok none
    | _ => .ub

/-- 536-612 `making_sub_S_matrix`, one block: C - FE', or C when FE' is null -/
def sBlock (nI : Nat) (C : Nat × Nat → K) (FE : Option (Nat → K)) : Nat × Nat → K :=
  match FE with
  | some A => fun rc => C rc - A (Index.ij nI rc.1 rc.2)
  | none => C

/-- 556-604, one step of the loop of `making_sub_S_matrix` (F and C are both there or both null) -/
def sStackStep (e drop : K) (NI : Nat → Nat) (P : Patch K) (ETp : CCS K) (st : List (Option (Nat × Nat → K) × Nat)) (q : Nat) :
    Res (List (Option (Nat × Nat → K) × Nat)) :=
  match P.FC q with
  | none => .ok (st ++ [(none, NI q)])
  | some (F, C) => (fByE e drop (NI q) P ETp F).bind fun FE => .ok (st ++ [(some (sBlock P.NI C FE), NI q)])

/-- the stack of 536-612: for every patch q its block (or null) and its number of rows -/
def sStack (e drop : K) (np : Nat) (NI : Nat → Nat) (P : Patch K) (ETp : CCS K) :
    Res (List (Option (Nat × Nat → K) × Nat)) :=
  (List.range np).foldl (fun s q => s.bind (sStackStep e drop NI P ETp · q)) (.ok [])

/-- 209-247: what is done for one patch before the interface system -/
def elim (e drop : K) (solve : Solver K) (np : Nat) (NI : Nat → Nat) (NItotal : Nat) (P : Patch K) :
    Res (Elim K) :=
  (ePrime e drop solve P).bind fun (ETp, fp) =>
    (fByf np NI P fp).bind fun Ff =>
      (sStack e drop np NI P ETp).bind fun st =>
        .ok ⟨ETp, fp, Ff, compressStack e st NItotal P.NI⟩

/-! ### the interface system -/

/-- state of the loop of compute_S_CCS_long: Ap, Ai, Ax, R, nnz -/
structure SAcc (K : Type) where
  Ap : Nat → Nat
  Ai : Nat → Nat
  Ax : Nat → K
  R : Nat
  nnz : Nat

/-- 646-676, the body of the loop over the patches -/
def sAdd (a : SAcc K) (s : CCS K) : SAcc K :=
  let b := (List.range s.col).foldl (fun (b : SAcc K) i =>
    let b' : SAcc K := { b with Ap := fun q => if q = i + b.R then s.ap i + b.nnz else b.Ap q }
    (s.seg i).foldl (fun (b : SAcc K) j =>
      { b with Ai := fun q => if q = b.nnz + j then s.ai j else b.Ai q, Ax := upd b.Ax (b.nnz + j) (s.ax j) }) b') a
  let R := b.R + s.col
  let nnz := b.nnz + s.ap s.col
  { b with R := R, nnz := nnz, Ap := fun q => if q = R then nnz else b.Ap q }

/-- 626-683 `compute_S_CCS_long` (compute_S calls this one): the columns of the patches side by side -/
def computeS (NItotal : Nat) (subS : List (CCS K)) : CCS K :=
  let a := subS.foldl sAdd ⟨fun _ => 0, fun _ => 0, fun _ => 0, 0, 0⟩
  ⟨NItotal, NItotal, (List.range (NItotal + 1)).map a.Ap, (List.range a.nnz).map a.Ai, (List.range a.nnz).map a.Ax⟩

/-- 740-788 `compute_g_prime`: the F f' of the other patches are added to that of patch 0, then the sum is subtracted
from the g of the patches -/
def computeG (np NItotal : Nat) (P : Nat → Patch K) (Ff : Nat → Nat → K) : Nat → K :=
  let s := (List.range' 1 (np - 1)).foldl (fun s p => (List.range NItotal).foldl (fun s i => addTo s i (Ff p i)) s) (Ff 0)
  ((List.range np).foldl (fun (a : Nat × (Nat → K)) p =>
    (a.1 + (P p).NI, (List.range (P p).NI).foldl (fun v i => upd v (a.1 + i) ((P p).g i - v (a.1 + i))) a.2)) (0, s)).2

/-- 429-463 `compute_x` (E'^T compressed) -/
def computeX (ETp : CCS K) (fp y : Nat → K) : Nat → K :=
  (List.range ETp.col).foldl (fun x c =>
    upd x c (fp c - (ETp.seg c).foldl (fun Ey i => Ey + ETp.ax i * y (ETp.ai i)) 0)) (fun _ => 0)

/-- all patches eliminated, 209-247 -/
def elimAll (e drop : K) (solve : Solver K) (np : Nat) (P : Nat → Patch K) : Res (List (Elim K)) :=
  (List.range np).foldl (fun s p => s.bind fun l =>
    (elim e drop solve np (fun q => (P q).NI) (off P np) (P p)).bind fun E => .ok (l ++ [E])) (.ok [])

/-- 209-290 and 474-517: the solution of the step; `(x p s, y p i)` are the arrays x, y of patch p.
Multi-patch grids (np ≥ 2). -/
def newton (e drop : K) (solve : Solver K) (np : Nat) (P : Nat → Patch K) :
    Res ((Nat → Nat → K) × (Nat → Nat → K)) :=
  (elimAll e drop solve np P).bind fun l =>
    let NIt := off P np
    let el := fun p => l.getD p ⟨⟨0, 0, [], [], []⟩, fun _ => 0, fun _ => 0, ⟨0, 0, [], [], []⟩⟩
    let gp := computeG np NIt P (fun p => (el p).Ff)
    let S := computeS NIt (l.map (·.subS))
    match solve S gp with
    | none => .abort
    | some y =>
      let yp := fun p i => y (off P p + i)
      .ok (fun p => computeX (el p).ETp (el p).fp (yp p), yp)

/-! ### the update of the fields -/

/-- 336-371 `update_field`: new values of the field and the backup copy (into uninitialised memory `junk`) -/
def updateField (lam : K) (inv Iinv : List Nat) (NS NI : Nat) (x y : Nat → K) (u junk : Nat → K) :
    (Nat → K) × (Nat → K) :=
  let a := (List.range NS).foldl (fun (a : (Nat → K) × (Nat → K)) s =>
    let t := inv.getD s 0
    (upd a.1 t (a.1 t - lam * x s), upd a.2 t (a.1 t))) (u, junk)
  (List.range NI).foldl (fun (a : (Nat → K) × (Nat → K)) i =>
    let t := Iinv.getD i 0
    (upd a.1 t (a.1 t - lam * y i), upd a.2 t (a.1 t))) a

/-- 209-320, the Newton step on a grid with several patches: solve, then update the field of every patch; `lab p` are
the inverse arrays (inv, Iinv) of patch p -/
def stepMulti (e drop : K) (solve : Solver K) (np : Nat) (P : Nat → Patch K) (lab : Nat → List Nat × List Nat) (lam : K)
    (u junk : Nat → Nat → K) : Res (Nat → (Nat → K) × (Nat → K)) :=
  (newton e drop solve np P).bind fun xy =>
    .ok fun p => updateField lam (lab p).1 (lab p).2 (P p).NS (P p).NI (xy.1 p) (xy.2 p) (u p) (junk p)

/-- 2761-2784 `solve_Bx_f` followed by 374-402 `update_field_single_patch`: the step on a grid with one patch.  The null
pointer is dereferenced for an empty matrix. -/
def stepSingle (e drop : K) (solve : Solver K) (P : Patch K) (lam : K) (inv : List Nat)
    (u junk : Nat → K) : Res ((Nat → K) × (Nat → K)) :=
  if P.NS = 0 then .ub
  else
    match solve (buildCCS e drop (fun r c => P.B (r, c)) P.NS P.NS) P.f with
    | none => .abort
    | some x =>
      .ok ((List.range P.NS).foldl (fun (a : (Nat → K) × (Nat → K)) s =>
        let t := inv.getD s 0
        (upd a.1 t (a.1 t - lam * x s), upd a.2 t (a.1 t))) (u, junk))

/-! ### the coupling right-hand side -/

/-- one pair of a sewing as used by `make_g`: the nodes of the subface and the two partial residuals -/
structure GPair (K : Type) where
  id : List Nat
  pg1 : Nat → K
  pg2 : Nat → K

/-- 1544-1556, one point of a subface: nodes outside the interface (Imap = UINT_MAX) are skipped -/
def gStep (Imap : Nat → Option Nat) (pr : GPair K) (g : Nat → K) (s : Nat) : Nat → K :=
  match Imap (pr.id.getD s 0) with
  | none => g
  | some i => addTo g i (pr.pg1 s + pr.pg2 s)

/-- 1515-1566 `make_g` for one patch: every point of every subface adds the two partial residuals to the entry of its
interface node -/
def makeG (Imap : Nat → Option Nat) (pairs : List (GPair K)) : Nat → K :=
  pairs.foldl (fun g pr => (List.range pr.id.length).foldl (gStep Imap pr) g) (fun _ => 0)

end Elliptica.Schur
