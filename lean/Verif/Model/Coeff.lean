import Verif.Model.Common
import Verif.Model.Index
/-!
Model of the cache of spectral coefficients of one field, Src/Main/Modules/Fields/field.c:192-806.

Simplifications: the string `f->info`, a concatenation of "(p<patch>,d<dir>,c<collocation>,b<basis>)", is the list of its
directions (patch, collocation and basis are constants of the patch), and strstr on it is membership; the temporary
fields of make_coeffs_2d/3d live inside the functions; v3 is not used here.  Arrays are functions of the index.
-/
namespace Elliptica.Coeff
open Elliptica.Index

abbrev Data (K : Type) := Nat → K

/-- an assignment a[l] = x -/
def upd {K : Type} (a : Data K) (l : Nat) (x : K) : Data K := fun m => if m = l then x else a m

/-- number of lines along direction `d`: field.c:612, 696 B = n[(dir+1)%3]*n[3-dir-(dir+1)%3] -/
def nLines (n : Fin 3 → Nat) : Fin 3 → Nat
  | 0 => n 1 * n 2
  | 1 => n 2 * n 0
  | 2 => n 0 * n 1

/-- field.c:622-688 (and 706-772): index of the m-th point of line `s` along direction `d` -/
def line (n : Fin 3 → Nat) (d : Fin 3) (s m : Nat) : Nat :=
  match d with
  | 0 => ijk (n 1) (n 2) m (s / n 2) (s % n 2)
  | 1 => ijk (n 1) (n 2) (s / n 2) m (s % n 2)
  | 2 => ijk (n 1) (n 2) (s / n 1) (s % n 1) m

/-- field.c:601-684 `coeffs_patch_Tn_Extrema_1d`, 687-770 `coeffs_patch_Tn_Nodes_1d`: line by line transformation of
`v` into the array `w`; `tr d` is the 1-d transformation used for direction `d` (Fourier_transformation.c) -/
def coeffs1d {K : Type} (n : Fin 3 → Nat) (tr : Fin 3 → (Nat → K) → Nat → K) (d : Fin 3) (v w : Data K) : Data K :=
  (List.range (nLines n d)).foldl (fun w s =>
    (List.range (n d)).foldl (fun w m => upd w (line n d s m) (tr d (fun m' => v (line n d s m')) m)) w) w

structure St (K : Type) where
  v : Data K
  v2 : Option (Data K)
  info : Option (List (Fin 3))

/-- strstr(f->info, needle of direction d) -/
def has {K : Type} (f : St K) (d : Fin 3) : Bool :=
  match f.info with
  | none => false
  | some l => decide (d ∈ l)

/-- free_v2(f), free_info(f) -/
def clean {K : Type} (f : St K) : St K := { f with v2 := none, info := none }

/-- !f->v2 || !f->info -/
def noCoeffs {K : Type} (f : St K) : Bool := f.v2.isNone || f.info.isNone

/-- field.c:365-415 `IsAvailable_1d` -/
def avail1 {K : Type} (f : St K) (d : Fin 3) : Bool × St K :=
  if noCoeffs f then (false, clean f)
  else if has f (d + 1) || has f (d + 2) then (false, clean f)
  else if has f d then (true, f)
  else (false, clean f)

/-- field.c:423-513 `IsAvailable_2d`; the third component is *dir (`none` is -1) -/
def avail2 {K : Type} (f : St K) (d1 d2 : Fin 3) : Bool × St K × Option (Fin 3) :=
  if noCoeffs f then (false, clean f, none)
  else if ([0, 1, 2] : List (Fin 3)).any fun e => (e ≠ d1 ∧ e ≠ d2 : Bool) && has f e then (false, clean f, none)
  else if has f d1 && has f d2 then (true, f, none)
  else if has f d1 then (true, f, some d2)
  else if has f d2 then (true, f, some d1)
  else (false, clean f, none)

/-- field.c:518-562 `IsAvailable_3d` -/
def avail3 {K : Type} (f : St K) : Bool × St K :=
  if noCoeffs f then (false, clean f)
  else if has f 0 && has f 1 && has f 2 then (true, f)
  else (false, clean f)

section
variable {K : Type} [Zero K] (n : Fin 3 → Nat) (tr : Fin 3 → (Nat → K) → Nat → K)

/-- `alloc_double` (calloc) unless already there -/
def alloc2 (f : St K) : St K := match f.v2 with
  | none => { f with v2 := some fun _ => 0 }
  | some _ => f

/-- field.c:569-596 `find_1d_coeffs_in_patch` and 778-796 `add_Tinfo`; v2 must exist (assert) -/
def find1 (f : St K) (d : Fin 3) : Res (St K) :=
  match f.v2 with
  | none => .abort
  | some w => .ok { f with v2 := some (coeffs1d n tr d f.v w), info := some (f.info.getD [] ++ [d]) }

/-- the result pointer f->v2 -/
def result (f : St K) : Res (St K × Data K) := match f.v2 with
  | none => .abort
  | some w => .ok (f, w)

/-- field.c:207-228 `make_coeffs_1d` -/
def make1 (f : St K) (d : Fin 3) : Res (St K × Data K) :=
  let a := avail1 f d
  if a.1 then result a.2
  else (find1 n tr (alloc2 a.2) d).bind result

/-- the temporary field: values f->v2, same info, newly allocated v2; its result replaces v2 and info of `f` -/
def viaTmp (f : St K) (d : Fin 3) : Res (St K) :=
  match f.v2 with
  | none => .abort
  | some w => (find1 n tr ⟨w, some fun _ => 0, f.info⟩ d).bind fun t => .ok { f with v2 := t.v2, info := t.info }

/-- field.c:234-298 `make_coeffs_2d` -/
def make2 (f : St K) (d1 d2 : Fin 3) : Res (St K × Data K) :=
  if d1 = d2 then .abort
  else
    let a := avail2 f d1 d2
    if a.1 then
      match a.2.2 with
      | none => result a.2.1
      | some d => (viaTmp n tr a.2.1 d).bind result
    else (find1 n tr (alloc2 a.2.1) d1).bind fun f => (viaTmp n tr f d2).bind result

/-- field.c:304-359 `make_coeffs_3d` -/
def make3 (f : St K) : Res (St K × Data K) :=
  let a := avail3 f
  if a.1 then result a.2
  else (find1 n tr (alloc2 a.2) 0).bind fun f => (viaTmp n tr f 1).bind fun f => (viaTmp n tr f 2).bind result

/-- What users do with one field.  `openWrite` is the macro WRITE_v (macros_lib.h:80-82: free_coeffs, then hand out the
pointer to the values); `store` writes through that pointer; `realloc` is REALLOC_v_WRITE_v (macros_lib.h:137-141:
empty_field, then a new zeroed array). -/
inductive Op (K : Type) where
  | openWrite
  | realloc
  | store (l : Nat) (x : K)
  | req1 (d : Fin 3)
  | req2 (d1 d2 : Fin 3)
  | req3

def step (f : St K) : Op K → Res (St K × Option (Data K))
  | .openWrite => .ok (clean f, none)
  | .realloc => .ok (⟨fun _ => 0, none, none⟩, none)
  | .store l x => .ok ({ f with v := upd f.v l x }, none)
  | .req1 d => (make1 n tr f d).bind fun r => .ok (r.1, some r.2)
  | .req2 d1 d2 => (make2 n tr f d1 d2).bind fun r => .ok (r.1, some r.2)
  | .req3 => (make3 n tr f).bind fun r => .ok (r.1, some r.2)

/-- a history; the answers of the requests are collected in order -/
def run : St K → List (Op K) → Res (St K × List (Data K))
  | f, [] => .ok (f, [])
  | f, o :: os => (step n tr f o).bind fun r =>
      (run r.1 os).bind fun q => .ok (q.1, match r.2 with
        | none => q.2
        | some x => x :: q.2)

end
end Elliptica.Coeff
