import Verif.Model.Schur
/-!
Model of the assembly of the subdomain equations of a patch: the loops that every equation, boundary condition and
Jacobian function runs (the DDM_SCHUR_* macros of Src/Main/Modules/Includes/maths_equation_solvings_lib.h:106-236) and the functions of
Src/Main/Modules/Maths/Equation_Solvings/solve_eqs_ddm_schur_complement.c that call them.

The formula evaluated in the body of a loop is a parameter: `F ijk` and `G ijk` for residuals, `J ijk lmn` for Jacobians.
-/
namespace Elliptica.Schur
open Mat

variable {K : Type} [Field K]

/-- solve_eqs_ddm_schur_complement.c:2012-2027 SchurC->Oi: the number of nodes off the faces -/
def innerCount (n : Nat → Nat) : Nat := ((List.range (n 0 * n 1 * n 2)).filter fun i => !onFace n i).length

/-- maths_equation_solvings_lib.h:204-218 DDM_SCHUR_EQ_*: `schur_F[schur_ijk] = F_eq` for schur_ijk < Oi, at the node
ijk = inv[schur_ijk] -/
def eqF (inv : List Nat) (Oi : Nat) (F f : Nat → K) : Nat → K :=
  (List.range Oi).foldl (fun f s => upd f s (F (inv.getD s 0))) f

/-- maths_equation_solvings_lib.h:220-236 DDM_SCHUR_BC_*: for all nodes of a subface, `schur_F[map[ijk]] = B_F`; a node
that has no label reads memory that was not written -/
def bcF (map : Nat → Option Nat) (G : Nat → K) : List Nat → (Nat → K) → Res (Nat → K)
  | [], f => .ok f
  | t :: ts, f =>
    match map t with
    | none => .ub
    | some s => bcF map G ts (upd f s (G t))

/-- the shape of every bc_* and jacobian_bc_* function (e.g. Src/Projects/Poissons/Poisson0/poisson0_ddm_schur_bc.c:17-43):
if (patch->outerB) … else if (patch->innerB) …; the flags are those of the patch -/
def pick {α : Type} (outerB innerB : Bool) (o i : α) : Option α := if outerB then some o else if innerB then some i else none

/-- solve_eqs_ddm_schur_complement.c:2566-2597 `f_in_boundary_part`; G = none when the function does nothing -/
def bcAll (map : Nat → Option Nat) (G : Option (Nat → K)) : List SubFace → (Nat → K) → Res (Nat → K)
  | [], f => .ok f
  | s :: ss, f =>
    if s.outerB || s.innerB then
      match G with
      | none => bcAll map G ss f
      | some G' => (bcF map G' s.id f).bind fun f' => bcAll map G ss f'
    else bcAll map G ss f

/-- solve_eqs_ddm_schur_complement.c:2198-2207 `make_f`; the array is cleared by `alloc_double` (calloc) -/
def makeF (L : Labels) (Oi : Nat) (sfs : List SubFace) (F : Nat → K) (G : Option (Nat → K)) : Res (Nat → K) :=
  bcAll L.map G sfs (eqF L.inv Oi F fun _ => 0)

/-- maths_equation_solvings_lib.h:131-139, 175-184 the B part: rows r0 … rN-1, all subdomain columns -/
def fillB (inv : List Nat) (r0 rN NS : Nat) (J : Nat → Nat → K) (B : Nat × Nat → K) : Nat × Nat → K :=
  (List.range' r0 (rN - r0)).foldl (fun B s =>
    (List.range NS).foldl (fun B t => upd B (s, t) (J (inv.getD s 0) (inv.getD t 0))) B) B

/-- maths_equation_solvings_lib.h:142-157, 187-201 the E part, transposed: columns from NS to the number of nodes; skipped
when there are no interface nodes -/
def fillET (inv : List Nat) (r0 rN NS nn : Nat) (J : Nat → Nat → K) (E : Nat × Nat → K) : Nat × Nat → K :=
  if nn - NS = 0 then E
  else (List.range' r0 (rN - r0)).foldl (fun E s =>
    (List.range' NS (nn - NS)).foldl (fun E k => upd E (k - NS, s) (J (inv.getD s 0) (inv.getD k 0))) E) E

/-- solve_eqs_ddm_schur_complement.c:1470-1511 `making_B_and_E`, `making_B_single_patch`: the Jacobian of the equation
fills the rows below Oi, the Jacobian of the boundary condition those from Oi to NS; `jb = (JB,JE)` are the formulas of the
two parts of the latter, none when the function does nothing.  The matrices are cleared by `alloc_matrix`. -/
def makeBE (L : Labels) (Oi NS nn : Nat) (JB JE : Nat → Nat → K) (jb : Option ((Nat → Nat → K) × (Nat → Nat → K))) :
    (Nat × Nat → K) × (Nat × Nat → K) :=
  let B := fillB L.inv 0 Oi NS JB fun _ => 0
  let E := fillET L.inv 0 Oi NS nn JE fun _ => 0
  match jb with
  | none => (B, E)
  | some (kb, ke) => (fillB L.inv Oi NS NS kb B, fillET L.inv Oi NS NS nn ke E)

/-- solve_eqs_ddm_schur_complement.c:1631-1654 `checks_and_constraints`: patches given by (outerB, innerB, NI) -/
def checks (ps : List (Bool × Bool × Nat)) : Res Unit :=
  if ps.any (fun p => p.1 && p.2.1) then .abort
  else if (ps.filter fun p => decide (p.2.2 = 0)).length > 1 then .abort
  else .ok ()

end Elliptica.Schur
