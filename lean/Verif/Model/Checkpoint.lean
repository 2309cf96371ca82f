import Verif.Model.Params
import Verif.Model.Text
/-!
Model of Src/Main/Modules/Checkpoint/checkpoint.c and of the macros FWriteP_bin, FWriteV_bin, FReadP_bin, FReadV_bin
(Src/Main/Modules/Includes/text_and_file_tools_lib.h:10-41): the bytes of a checkpoint file, the order in which they reach the
file system, reading them back, and the parameters a user overrides.

Not modelled: the pattern matching that selects the fields to save (`sel` says which are selected), buffering by stdio and the
kernel (a crash leaves a prefix of the bytes written so far), the clock, failures of the file system.  A character is one byte.
`mv` within a directory is an atomic rename.
-/
namespace Elliptica.Ckpt
open Elliptica Elliptica.Params

/-- content of a file -/
abbrev Bytes := List UInt8

/-- one `char` -/
def byteOf (c : Char) : UInt8 := UInt8.ofNat c.toNat

/-- one `char` -/
def charOf (b : UInt8) : Char := Char.ofNat b.toNat

/-- the object representation of a `Uint` (four bytes, little endian) -/
def encU (n : Nat) : Bytes :=
  [UInt8.ofNat n, UInt8.ofNat (n / 256), UInt8.ofNat (n / 65536), UInt8.ofNat (n / 16777216)]

/-- the object representation of a `double` (assumed: eight bytes) -/
structure Codec (D : Type) where
  enc : D → Bytes
  dec : Bytes → D

/-- what a writing statement does: write one byte, or stop the program (failed assert) -/
inductive Emit where
  | byte (b : UInt8)
  | stop
deriving DecidableEq

/-- checkpoint.h:15-21 -/
def ALLOC_HEADER : Str := "#{ALLOCATION#".toList
def ALLOC_FOOTER : Str := "#}ALLOCATION#".toList
def PARAM_HEADER : Str := "#{PARAM#".toList
def PARAM_FOOTER : Str := "#}PARAM#".toList
def FIELD_HEADER : Str := "#{FIELD#".toList
def FIELD_FOOTER : Str := "#}FIELD#".toList
def END_MSG : Str := "\n#checkpoint_file_completed#\n".toList

/-- a byte sequence is written -/
def bytes (b : Bytes) : List Emit := b.map .byte

/-- text_and_file_tools_lib.h:10-18 `FWriteP_bin(s,strlen(s)+1)`; `none` is NULL -/
def wStr : Option Str → List Emit
  | none => bytes (encU 0)
  | some s => bytes (encU (s.length + 1) ++ (s.map byteOf ++ [0]))

/-- text_and_file_tools_lib.h:10-18 `FWriteP_bin(x,n)` for an array of doubles; `fwrite` of nothing returns 0, which the
assert takes for a failure -/
def wArr {D : Type} (c : Codec D) : Option (List D) → List Emit
  | none => bytes (encU 0)
  | some [] => bytes (encU 0) ++ [.stop]
  | some (x :: xs) => bytes (encU (xs.length + 1) ++ (x :: xs).flatMap c.enc)

/-- text_and_file_tools_lib.h:21-26 `FWriteV_bin(x,1)` for a double -/
def wD {D : Type} (c : Codec D) (x : D) : List Emit := bytes (encU 1 ++ c.enc x)

/-- text_and_file_tools_lib.h:21-26 `FWriteV_bin(x,1)` for a Uint -/
def wU (n : Nat) : List Emit := bytes (encU 1 ++ encU n)

/-- checkpoint.c:141-147 the text of `write_header` -/
def wHeader (np gn : Nat) (kind : Str) : List Emit :=
  bytes ((ALLOC_HEADER ++ '\n' :: ("number_of_parameters=".toList ++ showNat np ++ '\n' :: ("grid_number=".toList ++ showNat gn
    ++ '\n' :: ("grid_kind=".toList ++ kind ++ '\n' :: (ALLOC_FOOTER ++ ['\n']))))).map byteOf)

/-- `rv_n`: the size of the array (set at parameters.c:140, 168; 0 in a zeroed entry) -/
def rvN {D : Type} (p : Par D) : Nat := (p.rvArray.getD []).length

/-- checkpoint.c:190-201 one parameter -/
def wPar {D : Type} (c : Codec D) (p : Par D) : List Emit :=
  wStr (some p.lv) ++ (wStr p.rv ++ (wStr p.rvIp ++ (wD c p.rvDouble ++ (wArr c p.rvArray ++ (wU (rvN p) ++
    (wU p.iterative.toNat ++ wU p.doubleFlg.toNat))))))

/-- checkpoint.c:166-210 `write_parameters` -/
def wParams {D : Type} (c : Codec D) (ps : List (Par D)) : List Emit :=
  wStr (some PARAM_HEADER) ++ (ps.flatMap (wPar c) ++ wStr (some PARAM_FOOTER))

/-- a field of a patch: its name and values (`none` is NULL) -/
structure Fld (D : Type) where
  name : Str
  v : Option (List D)
deriving DecidableEq

/-- checkpoint.c:240-254 the fields of a patch that are written -/
def saved {D : Type} (sel : Str → Bool) (fs : List (Fld D)) : List (Fld D) := fs.filter fun f => f.v.isSome && sel f.name

/-- checkpoint.c:240-268 one patch -/
def wPatch {D : Type} (c : Codec D) (sel : Str → Bool) (fs : List (Fld D)) : List Emit :=
  wU (saved sel fs).length ++ (saved sel fs).flatMap fun f => wStr (some f.name) ++ wArr c f.v

/-- checkpoint.c:213-276 `write_fields`; the patches of the grid in order -/
def wFields {D : Type} (c : Codec D) (sel : Str → Bool) (grid : List (List (Fld D))) : List Emit :=
  wStr (some FIELD_HEADER) ++ (grid.flatMap (wPatch c sel) ++ wStr (some FIELD_FOOTER))

/-- what a checkpoint is taken of: parameters, the number and the kind of the grid, the fields of its patches -/
structure World (D : Type) where
  ps : List (Par D)
  gn : Nat
  kind : Str
  grid : List (List (Fld D))

/-- checkpoint.c:76-95: everything that is written to the temporary file -/
def wAll {D : Type} (c : Codec D) (sel : Str → Bool) (w : World D) : List Emit :=
  wHeader w.ps.length w.gn w.kind ++ (wParams c w.ps ++ (wFields c sel w.grid ++ wStr (some END_MSG)))

/-! ### the file system -/

/-- the two files of the output directory: checkpoint.dat_temp and checkpoint.dat -/
structure FS where
  temp : Option Bytes
  final : Option Bytes
deriving DecidableEq

/-- the actions of write_checkpoint on the file system -/
inductive Act where
  | refuseOld  -- checkpoint.c:128-129
  | create     -- checkpoint.c:132 fopen "w"
  | emit (e : Emit)
  | rename     -- checkpoint.c:152-164 `move_checkpoint_file`
deriving DecidableEq

/-- one action; `none` when the program stops -/
def act (fs : FS) : Act → Option FS
  | .refuseOld => if fs.temp.isSome then none else some fs
  | .create => some { fs with temp := some [] }
  | .emit (.byte b) => some { fs with temp := some (fs.temp.getD [] ++ [b]) }
  | .emit .stop => none
  | .rename => some { temp := none, final := fs.temp }

/-- the actions until the program stops or is killed; the state left behind, and whether all actions were made -/
def runActs (fs : FS) : List Act → FS × Bool
  | [] => (fs, true)
  | a :: as => match act fs a with
    | none => (fs, false)
    | some fs' => runActs fs' as

/-- checkpoint.c:71-98 the actions of `write_checkpoint` when it is time to write -/
def script (out : List Emit) : List Act := [.refuseOld, .create] ++ (out.map .emit ++ [.rename])

/-- checkpoint.c:35-74: is a checkpoint written?  `every` is the parameter in hours (`none`: "never"), `last` the time of the
last one.  Returns whether, and the new time of the last one -/
def due (every : Option Int) (now last : Int) : Bool × Int := match every with
  | none => (false, last)
  | some dt => if dt + last > now then (false, last) else (true, now)

/-- checkpoint.c:102-123 `is_checkpoint_sound`: reads the last strlen(END_MSG)+1 bytes into a buffer; when no '\0' is among
them, the search for END_MSG goes on in bytes of the buffer that were never written -/
def sound (b : Bytes) : Res Bool :=
  let n := END_MSG.length + 1
  if b.length < n then .abort
  else
    let m := b.drop (b.length - n)
    let e := END_MSG.map byteOf
    if e.isPrefixOf m then .ok true
    else if m.head? ≠ some 0 ∧ e.isPrefixOf m.tail then .ok true
    else if (0 : UInt8) ∈ m then .ok false
    else .ub

/-- checkpoint.c:806-828: the latest sound file among those found in the previous directory (time of modification, content) -/
def pick : List (Nat × Bytes) → Nat × Option Bytes → Res (Nat × Option Bytes)
  | [], best => .ok best
  | (t, b) :: r, best =>
    if t > best.1 then (sound b).bind fun s => if s then pick r (t, some b) else pick r best
    else pick r best

/-! ### reading -/

/-- `fread` of a Uint; fewer than four bytes are a failed assert -/
def rUraw : Bytes → Res (Nat × Bytes)
  | a :: b :: c :: d :: r => .ok (a.toNat + 256 * b.toNat + 65536 * c.toNat + 16777216 * d.toNat, r)
  | _ => .abort

/-- text_and_file_tools_lib.h:29-35 `FReadP_bin` for a string, as the C string it holds; a short read is zero padded, reading
nothing is a failed assert, a buffer without '\0' is not a string -/
def rStr (b : Bytes) : Res (Option Str × Bytes) :=
  (rUraw b).bind fun (n, r) =>
    if n = 0 then .ok (none, r)
    else if r = [] then .abort
    else
      let buf := r.take n ++ List.replicate (n - r.length) 0
      if (0 : UInt8) ∈ buf then .ok (some ((buf.takeWhile (· ≠ 0)).map charOf), r.drop n) else .ub

/-- the doubles in the first 8 n bytes -/
def decArr {D : Type} (c : Codec D) : Nat → Bytes → List D
  | 0, _ => []
  | n + 1, b => c.dec (b.take 8) :: decArr c n (b.drop 8)

/-- text_and_file_tools_lib.h:29-35 `FReadP_bin` for an array of doubles -/
def rArr {D : Type} (c : Codec D) (b : Bytes) : Res (Option (List D) × Bytes) :=
  (rUraw b).bind fun (n, r) =>
    if n = 0 then .ok (none, r)
    else if r.length / 8 = 0 then .abort
    else
      let k := min n (r.length / 8)
      .ok (some (decArr c k r ++ List.replicate (n - k) (c.dec (List.replicate 8 0))), r.drop (8 * n))

/-- text_and_file_tools_lib.h:38-41 `FReadV_bin` for a double; more than one element would overrun the variable -/
def rD {D : Type} (c : Codec D) (b : Bytes) : Res (D × Bytes) :=
  (rUraw b).bind fun (n, r) =>
    if n = 0 then .abort
    else if n = 1 then (if r.length < 8 then .abort else .ok (c.dec (r.take 8), r.drop 8))
    else .ub

/-- text_and_file_tools_lib.h:38-41 `FReadV_bin` for a Uint -/
def rU (b : Bytes) : Res (Nat × Bytes) :=
  (rUraw b).bind fun (n, r) => if n = 0 then .abort else if n = 1 then rUraw r else .ub

/-- `FReadP_bin(match_str)` and the comparison with a title (`strcmp` of NULL is undefined) -/
def rTitle (t : Str) (b : Bytes) : Res Bytes :=
  (rStr b).bind fun (s, r) => match s with
    | none => .ub
    | some s => if s = t then .ok r else .abort

/-- `fscanf(file,"%s",line)`: the next word, and what follows it; `none` at the end of the file -/
def tok (b : Bytes) : Option (Str × Bytes) :=
  let b1 := b.dropWhile fun x => isSpaceC (charOf x)
  if b1 = [] then none
  else some ((b1.takeWhile fun x => !isSpaceC (charOf x)).map charOf, b1.dropWhile fun x => !isSpaceC (charOf x))

/-- checkpoint.h:28-35 `struct checkpoint_header` -/
structure Hdr where
  npar : Nat
  gn : Nat
  kind : Option Str
deriving DecidableEq, Repr

/-- `(Uint)atoi(v)` -/
def uintOf (v : Str) : Res Nat := (atoiR v).bind fun i => .ok (i % 4294967296).toNat

/-- checkpoint.c:315-344 the loop of `read_header`; `line` has 400 bytes; at the end of the file the loop never ends (`ub`) -/
def hdrLoop : Nat → Hdr → Bytes → Res (Hdr × Bytes)
  | 0, _, _ => .ub
  | fuel + 1, h, b =>
    match tok b with
    | none => .ub
    | some (line, r) =>
      if line.length ≥ 400 then .ub
      else if line = ALLOC_FOOTER then .ok (h, r.drop 1)
      else match Text.afterChr '=' line with
        | none => .abort
        | some v =>
          if Text.occursIn "number_of_parameters".toList line then (uintOf v).bind fun n => hdrLoop fuel { h with npar := n } r
          else if Text.occursIn "grid_number".toList line then (uintOf v).bind fun n => hdrLoop fuel { h with gn := n } r
          else if Text.occursIn "grid_kind".toList line then hdrLoop fuel { h with kind := some v } r
          else .abort

/-- checkpoint.c:300-347 `read_header` -/
def rHeader (b : Bytes) : Res (Hdr × Bytes) :=
  match tok b with
  | none => .abort
  | some (line, r) =>
    if line.length ≥ 400 then .ub
    else if line = ALLOC_HEADER then hdrLoop r.length ⟨0, 0, none⟩ r else .abort

/-- checkpoint.c:474-481, 525-532 one parameter (a parameter without name would crash later) -/
def rPar {D : Type} (c : Codec D) (b : Bytes) : Res (Par D × Bytes) :=
  (rStr b).bind fun (lv, b) => (rStr b).bind fun (rv, b) => (rStr b).bind fun (ip, b) => (rD c b).bind fun (x, b) =>
    (rArr c b).bind fun (a, b) => (rU b).bind fun (_, b) => (rU b).bind fun (it, b) => (rU b).bind fun (fl, b) =>
      match lv with
      | none => .ub
      | some lv => .ok (⟨lv, rv, ip, x, a, it != 0, fl != 0⟩, b)

/-- checkpoint.c:521-547 the loop over the parameters -/
def rPars {D : Type} (c : Codec D) : Nat → Bytes → Res (List (Par D) × Bytes)
  | 0, b => .ok ([], b)
  | n + 1, b => (rPar c b).bind fun (p, b) => (rPars c n b).bind fun (ps, b) => .ok (p :: ps, b)

/-- checkpoint.c:351-388 `find_and_save_modified_checkpoint_pars`: the overrides in the data base of the parameter file,
without the prefix "modify:" (checkpoint_lib.h:9) -/
def overrides {D : Type} (db : DB D) : List (Par D) :=
  ((entries db).filter fun p => Text.strstrI (some p.lv) (some "modify:".toList)).map fun p =>
    { p with lv := (Text.afterChr ':' p.lv).getD [] }

/-- checkpoint.c:597-622: the first override with the name of the entry, if any: the new entry and the remaining overrides -/
def override {D : Type} (zero : D) (p : Par D) : List (Par D) → Res (Option (Par D × List (Par D)))
  | [] => .ok none
  | m :: ms =>
    if Text.strcmpI (some p.lv) (some m.lv) then
      if p.rvArray.isSome then .abort
      else .ok (some ({ p with rv := m.rv, rvDouble := zero, doubleFlg := false, rvIp := m.rvIp, iterative := m.iterative },
        { m with rv := none, rvIp := none } :: ms))
    else (override zero p ms).bind fun o => .ok (o.map fun (q, ms') => (q, m :: ms'))

/-- checkpoint.c:590-628 the loop over the entries of the data base -/
def overrideAll {D : Type} (zero : D) : Nat → List (Par D) → List (Par D) → Res (List (Par D) × List (Par D))
  | _, [], ms => .ok ([], ms)
  | found, p :: ps, ms =>
    if found < ms.length then
      (override zero p ms).bind fun o => match o with
        | none => (overrideAll zero found ps ms).bind fun (qs, ms') => .ok (p :: qs, ms')
        | some (q, ms1) => (overrideAll zero (found + 1) ps ms1).bind fun (qs, ms') => .ok (q :: qs, ms')
    else .ok (p :: ps, ms)

/-- checkpoint.c:631-641 the overrides that are new -/
def addNew {D : Type} (L : Libc D) : List (Par D) → DB D → Res (DB D)
  | [], db => .ok db
  | m :: ms, db => match getPar db m.lv with
    | some _ => addNew L ms db
    | none => (addS L db m.lv m.rv).bind fun db' => addNew L ms db'

/-- checkpoint.c:576-646 `incorporate_modified_checkpoint_par` -/
def incorporate {D : Type} (L : Libc D) (ms : List (Par D)) (db : DB D) : Res (DB D) :=
  let db1 := freePar db totalName
  (overrideAll L.zero 0 (entries db1) ms).bind fun (ps, ms') =>
    (addNew L ms' (db1.map fun _ => ps)).bind fun db2 => (totalIterations L db2).bind fun (_, db3) => .ok db3

/-- checkpoint.c:280-299, 391-424, 505-556, 716-738 `open_checkpoint_file_then_read_grid_and_params`: `cur` is the data base of
the parameter file.  Returns the header, the data base and the bytes left for the fields -/
def readParams {D : Type} (L : Libc D) (c : Codec D) (cur : DB D) (b : Bytes) : Res (Hdr × DB D × Bytes) :=
  (rHeader b).bind fun (h, b) => (rTitle PARAM_HEADER b).bind fun b => (rPars c h.npar b).bind fun (ps, b) =>
    (rTitle PARAM_FOOTER b).bind fun b => (incorporate L (overrides cur) (some ps)).bind fun db => .ok (h, db, b)

/-- checkpoint.c:470-497 the search of `parameter_query_from_checkpoint` -/
def queryLoop {D : Type} (c : Codec D) (name : Str) : Nat → Bytes → Res (Option (Par D))
  | 0, b => (rTitle PARAM_FOOTER b).bind fun _ => .ok none
  | n + 1, b => (rPar c b).bind fun (p, b) =>
    if Text.strcmpI (some p.lv) (some name) then .ok (some p) else queryLoop c name n b

/-- checkpoint.c:429-500 `parameter_query_from_checkpoint` -/
def query {D : Type} (c : Codec D) (name : Str) (b : Bytes) : Res (Option (Par D)) :=
  (rHeader b).bind fun (h, b) => (rTitle PARAM_HEADER b).bind fun b => queryLoop c name h.npar b

/-- checkpoint.c:688-691: `patch->fields[Ind(name)]->v = v`; `Ind` stops the program when there is no such field -/
def setFld {D : Type} (name : Str) (v : Option (List D)) : List (Fld D) → Res (List (Fld D))
  | [] => .abort
  | f :: fs => if f.name = name then .ok ({ f with v := v } :: fs) else (setFld name v fs).bind fun fs' => .ok (f :: fs')

/-- checkpoint.c:678-693 the fields of one patch -/
def rFlds {D : Type} (c : Codec D) : Nat → List (Fld D) → Bytes → Res (List (Fld D) × Bytes)
  | 0, fs, b => .ok (fs, b)
  | n + 1, fs, b => (rStr b).bind fun (s, b) => (rArr c b).bind fun (v, b) => match s with
    | none => .ub
    | some s => (setFld s v fs).bind fun fs' => rFlds c n fs' b

/-- checkpoint.c:665-695 the patches -/
def rPatches {D : Type} (c : Codec D) : List (List (Fld D)) → Bytes → Res (List (List (Fld D)) × Bytes)
  | [], b => .ok ([], b)
  | fs :: g, b => (rU b).bind fun (n, b) => (rFlds c n fs b).bind fun (fs', b) => (rPatches c g b).bind fun (g', b) => .ok (fs' :: g', b)

/-- checkpoint.c:649-706 `read_fields_from_checkpoint_file` -/
def readFields {D : Type} (c : Codec D) (grid : List (List (Fld D))) (b : Bytes) : Res (List (List (Fld D))) :=
  (rTitle FIELD_HEADER b).bind fun b => (rPatches c grid b).bind fun (g, b) => (rTitle FIELD_FOOTER b).bind fun _ => .ok g

end Elliptica.Ckpt
