import Verif.Model.Checkpoint
import Verif.Model.Field
import Verif.Model.Finder
/-!
Model of the initial data reader that evolution codes link against, Src/Projects/Initial_Data_Reader/idr_main.c and
idr_read_write.c.

The projects the reader hands over to (BH_NS_Binary_Initial_Data, ...) are not in the repository.  A patch is modelled by its
coordinate map `X_of_x`, its fields, whether `plan_interpolation` accepts it (it looks only at the bases and collocations of
the patch, not at the field: interpolations.c) and the interpolation of the values of a field at a point; the values of fields
do not change meanwhile.  `fopen` succeeds.  Messages and timers are left out.
-/
namespace Elliptica.Reader
open Elliptica Elliptica.Ckpt

/-! ### idr_main.c -/

/-- idr_main.c:11-30 `Field_Dictionary` -/
def dict : List Str :=
  ["alpha".toList, "betax".toList, "betay".toList, "betaz".toList,
   "adm_gxx".toList, "adm_gxy".toList, "adm_gxz".toList, "adm_gyy".toList, "adm_gyz".toList, "adm_gzz".toList,
   "adm_Kxx".toList, "adm_Kxy".toList, "adm_Kxz".toList, "adm_Kyy".toList, "adm_Kyz".toList, "adm_Kzz".toList,
   "grhd_rho".toList, "grhd_p".toList, "grhd_epsl".toList, "grhd_vx".toList, "grhd_vy".toList, "grhd_vz".toList]

/-- idr_main.c:294-302 the loop of `find_field_index` from entry `nf` on; `none` is UINT_MAX -/
def indxLoop (name : Str) : Nat → List Str → Option Nat
  | _, [] => none
  | nf, d :: ds => if name = d then some nf else indxLoop name (nf + 1) ds

/-- idr_main.c:289-310 `find_field_index`, the user's `idr->indx` -/
def indx (name : Str) : Res Nat :=
  match indxLoop name 0 dict with
  | none => .abort
  | some i => .ok i

/-- elliptica_id_reader_lib.h:15-42, what the functions below use of it.  Null pointers are `none`; `coords` are the user's
three arrays, as the list of the points (`npoints` of them); `mt` says that `idr->fieldx` is set -/
structure Idr (D : Type) where
  path : Bytes               -- the content of the checkpoint file
  system : Option Str
  option : Str
  params : List (Option Str × Option Str)
  field : List (Option (List D))
  ifields : Option Str
  coords : Option (List (Fin 3 → D))
  mt : Bool

/-- idr_main.c:229-251 `set_param_from_evo`; `dup_s` of NULL is NULL (text_tools.c:95-112) -/
def setParam {D : Type} (lv rv : Option Str) (idr : Idr D) : Res (Idr D) :=
  if lv = none ∧ rv = none then .abort else .ok { idr with params := idr.params ++ [(lv, rv)] }

/-- idr_main.c:163-225 `elliptica_id_reader_init`; `checkpnt` is the content of the file the path names -/
def init {D : Type} (c : Codec D) (checkpnt : Option Bytes) (option : Option Str) : Res (Idr D) :=
  match checkpnt, option with
  | none, _ => .abort
  | some _, none => .abort
  | some b, some o =>
    (query c "Project".toList b).bind fun p => match p with
      | none => .abort
      | some par => (setParam (some "Project".toList) par.rv
          ⟨b, par.rv, [], [], [], none, none, false⟩).bind fun idr =>
            .ok { idr with option := o, field := List.replicate dict.length none }

/-- idr_main.c:256-282 `get_param_double_from_checkpoint`; `strtod` of NULL is undefined -/
def getParamDbl {D : Type} (L : Params.Libc D) (c : Codec D) (lv : Option Str) (idr : Idr D) : Res D :=
  match lv with
  | none => .ok L.dblMax
  | some n => (query c n idr.path).bind fun p => match p with
    | none => .abort
    | some par => match par.rv with
      | none => .ub
      | some s => .ok (L.strtod s)

/-- the programs the reader calls -/
inductive Project where
  | bhns | nsns | bhbh | sns
deriving DecidableEq, Repr

/-- idr_main.h:5-13 `SANITY_CHECK` -/
def sane {D : Type} (idr : Idr D) : Bool :=
  idr.ifields.isSome && (match idr.coords with | none => false | some l => decide (l ≠ []))

/-- idr_main.c:314-365 `elliptica_id_reader_interpolate`: the program that is called, the value given to its parameter
`IDR_..._export_id`, and the reader it is given -/
def dispatch {D : Type} (idr : Idr D) : Res (Project × Str × Idr D) :=
  let sys := fun (s : String) => Text.strcmpI idr.system (some s.toList)
  let opt := fun (s : String) => Text.strcmpI (some idr.option) (some s.toList)
  if sys "BH_NS_binary_initial_data" && opt "generic" then
    if sane idr then .ok (.bhns, "generic".toList, idr) else .abort
  else if sys "BH_NS_binary_initial_data" && opt "generic_MT_safe" then
    .ok (.bhns, "generic_MT_safe".toList, { idr with mt := true })
  else if sys "NS_NS_binary_initial_data" && opt "generic" then
    if sane idr then .ok (.nsns, "generic".toList, idr) else .abort
  else if sys "BH_BH_binary_initial_data" && opt "generic" then
    if sane idr then .ok (.bhbh, "generic".toList, idr) else .abort
  else if sys "Single_NS_initial_data" && opt "generic" then
    if sane idr then .ok (.sns, "generic".toList, idr) else .abort
  else .abort

/-! ### idr_read_write.c -/

/-- a patch of the grid: `xof` is X_of_x, `planned` says that plan_interpolation accepts it, `exec` is execute_interpolation of
the values of a field at patch coordinates -/
structure Patch (D X V : Type) where
  xof : (Fin 3 → D) → Option X
  fields : Field.Fields V
  planned : Bool
  exec : V → X → D

/-- an OpenMP loop over `npoints` points in which turn `p` writes slot `p` of an array; `order` is the order in which the turns
happen -/
def parFor {α : Type} (body : Nat → Res α) : List Nat → (Nat → Option α) → Res (Nat → Option α)
  | [], a => .ok a
  | p :: ps, a => (body p).bind fun v => parFor body ps fun q => if q = p then some v else a q

/-- the array after the loop; a slot never written is not a value -/
def collect {α : Type} (a : Nat → Option α) : List Nat → Res (List α)
  | [] => .ok []
  | p :: ps => match a p with
    | none => .ub
    | some v => (collect a ps).bind fun l => .ok (v :: l)

/-- such a loop over `n` points -/
def loop {α : Type} (n : Nat) (order : List Nat) (body : Nat → Res α) : Res (List α) :=
  (parFor body order fun _ => none).bind fun a => collect a (List.range n)

/-- what is known of a point: `pnt->patchn[p]` and `pnt->(X,Y,Z)[p]` -/
structure Slot (X : Type) where
  pn : Nat
  X : X
deriving DecidableEq

/-- does patch `p` of the grid contain the point? -/
def accepts {D X V : Type} (grid : List (Patch D X V)) (y : Fin 3 → D) (p : Nat) : Bool :=
  match grid[p]? with
  | none => false
  | some pa => (pa.xof y).isSome

/-- idr_read_write.c:417-425, 564-573: the patch and the coordinates of a point (ID coordinates) -/
def locate {D X V : Type} (grid : List (Patch D X V)) (y : Fin 3 → D) : Res (Nat × Patch D X V × X) :=
  match Finder.inWhichPatch (accepts grid y) (List.range grid.length) with
  | none => .abort
  | some p => match grid[p]? with
    | none => .ub
    | some pa => match pa.xof y with
      | none => .abort
      | some X => .ok (p, pa, X)

/-- idr_read_write.c:560-593 one turn of the loop of `idr_find_XYZ_from_xyz` -/
def findPoint {D X V : Type} [Add D] (grid : List (Patch D X V)) (cm x : Fin 3 → D) : Res (Slot X) :=
  (locate grid fun i => x i + cm i).bind fun (p, pa, X) =>
    if pa.fields = [] then .abort
    else if pa.planned then .ok ⟨p, X⟩ else .abort

/-- the points of the user by number; reading past the arrays is undefined -/
def point {D : Type} (xs : List (Fin 3 → D)) (p : Nat) : Res (Fin 3 → D) :=
  match xs[p]? with
  | none => .ub
  | some x => .ok x

/-- idr_read_write.c:531-596 `idr_find_XYZ_from_xyz` -/
def findPoints {D X V : Type} [Add D] (grid : List (Patch D X V)) (cm : Fin 3 → D) (xs : List (Fin 3 → D)) (order : List Nat) :
    Res (List (Slot X)) :=
  loop xs.length order fun p => (point xs p).bind (findPoint grid cm)

/-- one result per element, in order, or the first failure -/
def mapR {α β : Type} (f : α → Res β) : List α → Res (List β)
  | [] => .ok []
  | a :: as => (f a).bind fun b => (mapR f as).bind fun bs => .ok (b :: bs)

/-- idr_read_write.c:140-178, 266-304: `pnt->f_index` (the loop that makes the coefficients looks up the same names) -/
def fIndex {D X V : Type} (grid : List (Patch D X V)) (names : List Str) : Res (List (List Nat)) :=
  mapR (fun pa : Patch D X V => mapR (Field.lookUpE pa.fields) names) grid

/-- idr_read_write.c:320-334 the interpolation of field number `f` at a point -/
def interp {D X V : Type} (grid : List (Patch D X V)) (fi : List (List Nat)) (f : Nat) (s : Slot X) : Res D :=
  match grid[s.pn]?, fi[s.pn]? with
  | some pa, some row => match row[f]? with
    | none => .ub
    | some k => match pa.fields[k]? with
      | none => .ub
      | some fld => .ok (pa.exec fld.val s.X)
  | _, _ => .ub

/-- a point by number -/
def slot {X : Type} (pnt : List (Slot X)) (p : Nat) : Res (Slot X) :=
  match pnt[p]? with
  | none => .ub
  | some s => .ok s

/-- idr_read_write.c:318-361 the values of field number `f` at all points; a value that is not finite stops the program -/
def values {D X V : Type} (finite : D → Bool) (grid : List (Patch D X V)) (pnt : List (Slot X)) (fi : List (List Nat)) (f : Nat)
    (order : List Nat) : Res (List D) :=
  (loop pnt.length order fun p => (slot pnt p).bind (interp grid fi f)).bind fun l =>
    if l.all finite then .ok l else .abort

/-- idr_read_write.c:307-364 the loop over the fields, from number `f` on; `evos[f]` beyond the list is NULL or no memory -/
def saveLoop {D X V : Type} (finite : D → Bool) (grid : List (Patch D X V)) (pnt : List (Slot X)) (fi : List (List Nat))
    (evos : List Str) (order : Nat → List Nat) : Nat → List Str → List (Option (List D)) → Res (List (Option (List D)))
  | _, [], field => .ok field
  | f, _ :: names, field => match evos[f]? with
    | none => .ub
    | some e => (indx e).bind fun k => (values finite grid pnt fi f (order f)).bind fun l =>
      saveLoop finite grid pnt fi evos order (f + 1) names (field.set k (some l))

/-- idr_read_write.c:240-370 `idr_interpolate_fields_and_save_in_array` (`read_separated_items_in_string` gives NULL when there
is no item) -/
def saveArray {D X V : Type} (finite : D → Bool) (grid : List (Patch D X V)) (pnt : List (Slot X)) (names evos : Str)
    (order : Nat → List Nat) (field : List (Option (List D))) : Res (List (Option (List D))) :=
  if Text.readItems ',' names = [] then .abort
  else if Text.readItems ',' evos = [] then .abort
  else (fIndex grid (Text.readItems ',' names)).bind fun fi =>
    saveLoop finite grid pnt fi (Text.readItems ',' evos) order 0 (Text.readItems ',' names) field

/-- what a project does with these two functions: find the points, then interpolate; `o1` and `order f` are the orders of the
parallel loops -/
def fill {D X V : Type} [Add D] (finite : D → Bool) (grid : List (Patch D X V)) (cm : Fin 3 → D) (xs : List (Fin 3 → D))
    (names evos : Str) (o1 : List Nat) (order : Nat → List Nat) (field : List (Option (List D))) :
    Res (List (Option (List D))) :=
  (findPoints grid cm xs o1).bind fun pnt => saveArray finite grid pnt names evos order field

/-- idr_read_write.c:407-453 `idr_interpolate_field_thread_safe` (the user's `idr->fieldx`) and `interpolate_at_this_pnt`;
`idNames` is `idr->id_field_names`: its entry number `length` is NULL, later ones are no memory -/
def fieldx {D X V : Type} [Add D] (grid : List (Patch D X V)) (cm : Fin 3 → D) (idNames : List Str) (name : Str) (x : Fin 3 → D) :
    Res D :=
  (locate grid fun i => x i + cm i).bind fun (_, pa, X) =>
    (indx name).bind fun k => match idNames[k]? with
      | none => .ub
      | some n => (Field.lookUpE pa.fields n).bind fun i => match pa.fields[i]? with
        | none => .ub
        | some fld => if pa.planned then .ok (pa.exec fld.val X) else .abort

/-! ### files -/

/-- idr_read_write.h:8-10 -/
def HEADER : Str := "#{data#".toList
def FOOTER : Str := "#}data#".toList
def END_MSG : Str := "\n#file_completed#\n".toList

/-- idr_read_write.c:460-475 `idr_new_binary_file_to_write` -/
def newFile (title : Str) : List Emit :=
  bytes (("# this file contains values of ".toList ++ (title ++ ['\n'])).map byteOf) ++ wStr (some HEADER)

/-- idr_read_write.c:478-489 `idr_close_file` -/
def closeFile : List Emit := wStr (some FOOTER) ++ wStr (some END_MSG)

/-- idr_read_write.c:189-224 the values of field number `f` at all points (each point plans its own interpolation) -/
def valuesF {D X V : Type} (finite : D → Bool) (grid : List (Patch D X V)) (pnt : List (Slot X)) (fi : List (List Nat)) (f : Nat)
    (order : List Nat) : Res (List D) :=
  (loop pnt.length order fun p => (slot pnt p).bind fun s => (interp grid fi f s).bind fun v =>
    match grid[s.pn]? with
    | none => .ub
    | some pa => if pa.planned then .ok v else .abort).bind fun l =>
    if l.all finite then .ok l else .abort

/-- idr_read_write.c:181-227 the loop over the fields: what is written -/
def writeLoop {D X V : Type} (c : Codec D) (finite : D → Bool) (grid : List (Patch D X V)) (pnt : List (Slot X))
    (fi : List (List Nat)) (evos : List Str) (order : Nat → List Nat) : Nat → List Str → Res (List Emit)
  | _, [] => .ok []
  | f, _ :: names => match evos[f]? with
    | none => .ub
    | some e => (valuesF finite grid pnt fi f (order f)).bind fun l =>
      (writeLoop c finite grid pnt fi evos order (f + 1) names).bind fun r =>
        .ok (wStr (some e) ++ (l.flatMap (wD c) ++ r))

/-- idr_read_write.c:114-234 `idr_interpolate_fields_and_write_to_file` -/
def writeFields {D X V : Type} (c : Codec D) (finite : D → Bool) (grid : List (Patch D X V)) (pnt : List (Slot X))
    (names evos : Str) (order : Nat → List Nat) : Res (List Emit) :=
  if Text.readItems ',' names = [] then .abort
  else if Text.readItems ',' evos = [] then .abort
  else (fIndex grid (Text.readItems ',' names)).bind fun fi =>
    writeLoop c finite grid pnt fi (Text.readItems ',' evos) order 0 (Text.readItems ',' names)

/-- a complete file of fields, opened, filled and closed -/
def writeFile {D X V : Type} (c : Codec D) (finite : D → Bool) (grid : List (Patch D X V)) (pnt : List (Slot X))
    (title names evos : Str) (order : Nat → List Nat) : Res (List Emit) :=
  (writeFields c finite grid pnt names evos order).bind fun r => .ok (newFile title ++ (r ++ closeFile))

/-- `fgets(str,n+1,file)`: what follows the first line, or the first `n` bytes when it is longer -/
def afterLine : Nat → Bytes → Bytes
  | 0, b => b
  | _ + 1, [] => []
  | n + 1, x :: b => if x = byteOf '\n' then b else afterLine n b

/-- idr_read_write.c:59-61 one coordinate -/
def rCoord {D : Type} (c : Codec D) (finite : D → Bool) (b : Bytes) : Res (D × Bytes) :=
  (rD c b).bind fun (x, b) => if finite x then .ok (x, b) else .abort

/-- idr_read_write.c:57-70 the coordinates of `n` points -/
def rPoints {D : Type} (c : Codec D) (finite : D → Bool) : Nat → Bytes → Res (List (Fin 3 → D) × Bytes)
  | 0, b => .ok ([], b)
  | n + 1, b => (rCoord c finite b).bind fun (x, b) => (rCoord c finite b).bind fun (y, b) => (rCoord c finite b).bind fun (z, b) =>
    (rPoints c finite n b).bind fun (l, b) => .ok ((fun i : Fin 3 => if i = 0 then x else if i = 1 then y else z) :: l, b)

/-- idr_read_write.c:32-76 the file of `idr_load_Cartesian_coordinates_from_file`; STR_LEN_MAX is 999 -/
def readCoords {D : Type} (c : Codec D) (finite : D → Bool) (b : Bytes) : Res (List (Fin 3 → D)) :=
  (rTitle HEADER (afterLine 998 b)).bind fun b => (rU b).bind fun (n, b) => (rPoints c finite n b).bind fun (l, b) =>
    (rTitle FOOTER b).bind fun _ => .ok l

/-- idr_read_write.c:80-103 one turn of the loop over the points -/
def findPlain {D X V : Type} (grid : List (Patch D X V)) (x : Fin 3 → D) : Res (Slot X) :=
  (locate grid x).bind fun (p, _, X) => .ok ⟨p, X⟩

/-- idr_read_write.c:13-106 `idr_load_Cartesian_coordinates_from_file` -/
def loadCoords {D X V : Type} (c : Codec D) (finite : D → Bool) (grid : List (Patch D X V)) (order : List Nat) (b : Bytes) :
    Res (List (Fin 3 → D) × List (Slot X)) :=
  (readCoords c finite b).bind fun xs =>
    (loop xs.length order fun p => (point xs p).bind (findPlain grid)).bind fun l => .ok (xs, l)

/-! ### memory -/

/-- a `ID_Reader_T` (id_reader_lib.h:11-21): whether `pnt->grid` is set, and the memory blocks `x`, `y`, `z` point to -/
structure Pnt where
  grid : Bool
  xyz : List Nat
deriving DecidableEq

/-- idr_read_write.c:492-497 `idr_init` -/
def pntInit : Pnt := ⟨false, []⟩

/-- idr_read_write.c:539-546: `pnt->x = idr->x_coords` and so on, no copy is made -/
def pntFind (user : List Nat) (p : Pnt) : Res Pnt := if p.grid then .ok { p with xyz := user } else .abort

/-- idr_read_write.c:500-524 `idr_free` of a non-null struct: the live blocks afterwards; `free` of a block that is not live is
undefined, and so is `pnt->grid->np` of NULL -/
def pntFree (live : List Nat) (p : Pnt) : Res (List Nat) :=
  if p.xyz.all (· ∈ live) ∧ p.xyz.Nodup then
    if p.grid then .ok (live.filter fun b => b ∉ p.xyz) else .ub
  else .ub

end Elliptica.Reader
