import Verif.Model.Common
/-!
Model of the parameter data base, /repo/Src/Main/Core/parameters.c.

`double` is an abstract type `D`; `strtod`, `sprintf("%.20e")`, `DBL_MAX` and `0.` are the fields of
`Libc`.  Printing, memory release and file-system effects are not modelled.
-/
namespace Elliptica.Params
open Elliptica

/-- the part of the C library that `parameters.c` uses on doubles (assumed, not modelled) -/
structure Libc (D : Type) where
  /-- `strtod(s,0)` -/
  strtod : Str → D
  /-- `sprintf(s,"%.20e",x)` -/
  fmtE : D → Str
  /-- `DBL_MAX` -/
  dblMax : D
  /-- the double a zeroed (calloc) memory holds -/
  zero : D

/-- `INT_MAX` (limits.h) -/
def INT_MAX : Int := 2147483647

/-! ### strings -/

/-- `toupper` / `tolower` in the C locale are Lean's ASCII-only `Char.toUpper`/`Char.toLower`.
parameters.c:1028-1065 `par_rule1_uppercase_lowercase` (= `PAR_NAME_RULE`, parameters.h:13):
upper case before the first `'_'`, lower case from there on; lower case if there is no `'_'`. -/
def nameRule (s : Str) : Str :=
  if '_' ∈ s then
    (s.takeWhile (· ≠ '_')).map Char.toUpper ++ (s.dropWhile (· ≠ '_')).map Char.toLower
  else s.map Char.toLower

/-- `strstr(s,"->")`: the text before and the text after the first `"->"`, `none` if absent.
Used at parameters.c:205, 580-587, 666-701. -/
def cutArrow : Str → Option (Str × Str)
  | [] => none
  | c :: r =>
    if c = '-' ∧ r.head? = some '>' then some ([], r.tail)
    else (cutArrow r).map fun p => (c :: p.1, p.2)

/-- does `(x[[:digit:]]+)` match at the head of the string?  Returns digits and rest.
The regular expression of parameters.c:205,209,242,312. -/
def multAt (s : Str) : Option (Str × Str) :=
  match s with
  | '(' :: 'x' :: r =>
    let ds := r.takeWhile Char.isDigit
    let post := r.dropWhile Char.isDigit
    if ds ≠ [] ∧ post.head? = some ')' then some (ds, post.tail) else none
  | _ => none

/-- leftmost match of `(x[[:digit:]]+)`: text before, digits, text after.
`regex_find`/`regex_search` (text_tools.c) followed by `strstr` at parameters.c:242-248. -/
def findMult : Str → Option (Str × Str × Str)
  | [] => none
  | c :: r =>
    match multAt (c :: r) with
    | some (ds, post) => some ([], ds, post)
    | none => (findMult r).map fun p => (c :: p.1, p.2.1, p.2.2)

/-- value of a digit -/
def digitVal (c : Char) : Nat := c.toNat - 48

/-- decimal value of leading digits, as `atoi` accumulates them -/
def atoiAcc (acc : Nat) : Str → Nat
  | [] => acc
  | c :: r => if c.isDigit then atoiAcc (10 * acc + digitVal c) r else acc

/-- white space skipped by `atoi` (`isspace`, C locale) -/
def isSpaceC (c : Char) : Bool :=
  c = ' ' || c = '\t' || c = '\n' || c = '\r' || c = Char.ofNat 11 || c = Char.ofNat 12

/-- `atoi` (C library): optional white space, optional sign, digits.  Out-of-range values are
undefined in C; this model returns the mathematical value, see `atoiR` for the check. -/
def atoi (s : Str) : Int :=
  match s.dropWhile isSpaceC with
  | '-' :: r => - (atoiAcc 0 r : Int)
  | '+' :: r => (atoiAcc 0 r : Int)
  | r => (atoiAcc 0 r : Int)

/-- `atoi` with undefined behaviour when the value is not an `int` -/
def atoiR (s : Str) : Res Int :=
  let v := atoi s
  if -(INT_MAX + 1) ≤ v ∧ v ≤ INT_MAX then .ok v else .ub

/-- decimal digits of a natural number (with fuel) -/
def showNatAux : Nat → Nat → Str
  | 0, _ => []
  | fuel + 1, n =>
    if n < 10 then [Char.ofNat (48 + n)] else showNatAux fuel (n / 10) ++ [Char.ofNat (48 + n % 10)]

/-- decimal digits of a natural number, `sprintf("%u")` -/
def showNat (n : Nat) : Str := showNatAux (n + 1) n

/-- `sprintf(s,"%d",i)` -/
def showInt (i : Int) : Str :=
  if i < 0 then '-' :: showNat i.natAbs else showNat i.natAbs

/-- parameters.c:250-255: going back from the match to the last `'>'` (or the beginning):
(text up to and including that `'>'`, the value text). -/
def splitLastGt (pre : Str) : Str × Str :=
  let v := (pre.reverse.takeWhile (· ≠ '>')).reverse
  let ini := (pre.reverse.dropWhile (· ≠ '>')).reverse
  (ini, v)

/-- `v->v->...->v` -/
def joinArrow : List Str → Str
  | [] => []
  | [v] => v
  | v :: vs => v ++ '-' :: '>' :: joinArrow vs

/-- one turn of the loop parameters.c:243-313; `none` when there is no multiplicity left.
Simplification: the `Uint` size computations (`n_mult`) are assumed not to wrap around. -/
def multStep (s : Str) : Res (Option Str) :=
  match findMult s with
  | none => .ok none
  | some (pre, ds, post) =>
    let (ini, v) := splitLastGt pre
    match atoiR ds with
    | .ok m =>
      if m = 0 then .abort            -- parameters.c:274
      else .ok (some (ini ++ joinArrow (List.replicate m.toNat v) ++ post))
    | .abort => .abort
    | .ub => .ub

/-- loop parameters.c:243-313 with fuel.  Every turn consumes a `')'` to the right of all the text it
produces, so the number of characters is enough fuel. -/
def multLoop : Nat → Str → Res Str
  | 0, s => .ok s
  | fuel + 1, s =>
    (multStep s).bind fun r =>
      match r with
      | none => .ok s
      | some s' => multLoop fuel s'

/-- parameters.c:234-317 `parse_multiplicity_of_iterative_parameter` -/
def parseMult (rv : Str) : Res Str :=
  if rv.reverse.take 2 = ['>', '-'] then .abort       -- parameters.c:236 regex "->$"
  else multLoop rv.length rv

/-- loop parameters.c:679-701 with counter `j`; `fuel` bounds the number of pieces -/
def nthLoop (n : Nat) : Nat → Nat → Str → Str
  | 0, _, subs => subs
  | fuel + 1, j, subs =>
    match cutArrow subs with
    | none => subs
    | some (a, r) => if j = n then a else nthLoop n fuel (j + 1) r

/-- parameters.c:648-709 `get_n_value_str_ip`, on the iterative text `rv_ip`.
`n == 0` with no `"->"` computes `NULL - rv_ip + 1`: undefined behaviour. -/
def getNValue (rvip : Str) (n : Nat) : Res Str :=
  match cutArrow rvip with
  | none => if n = 0 then .ub else .ok rvip
  | some (a, r) => if n = 0 then .ok a else .ok (nthLoop n rvip.length 1 r)

/-! ### the data base -/

/-- Src/Main/Core/core_lib.h `Parameter_T` -/
structure Par (D : Type) where
  lv : Str
  rv : Option Str := none
  rvIp : Option Str := none
  rvDouble : D
  rvArray : Option (List D) := none
  iterative : Bool := false
  doubleFlg : Bool := false
deriving DecidableEq, Repr

/-- `parameters_global`: `none` = the null pointer, `some l` = null-terminated array -/
abbrev DB (D : Type) := Option (List (Par D))

variable {D : Type}

/-- entries of the data base -/
def entries (db : DB D) : List (Par D) := db.getD []

/-- parameters.c:323-345 `get_parameter`: first entry whose stored name equals the ruled name -/
def getPar (db : DB D) (name : Str) : Option (Par D) :=
  (entries db).find? (fun p => p.lv = nameRule name)

/-- parameters.c:794-809 `alloc_parameter` (append a zeroed entry), then filling it with `p` -/
def append (db : DB D) (p : Par D) : DB D := some (entries db ++ [p])

/-- replace the first entry named `lv` (already ruled) by `f` of it: in-place update through the
pointer returned by `get_parameter` -/
def modifyFirst (lv : Str) (f : Par D → Par D) : List (Par D) → List (Par D)
  | [] => []
  | p :: ps => if p.lv = lv then f p :: ps else p :: modifyFirst lv f ps

def modifyPar (db : DB D) (lv : Str) (f : Par D → Par D) : DB D :=
  db.map (modifyFirst lv f)

/-- is the text iterative?  parameters.c:205 -/
def isIterText (rv : Str) : Bool := (cutArrow rv).isSome || (findMult rv).isSome

/-- parameters.c:187-227 `add_parameter` / :180 `add_parameter_string`.  `rv = none` is NULL. -/
def addS (L : Libc D) (db : DB D) (lv0 : Str) (rv : Option Str) : Res (DB D) :=
  let lv := nameRule lv0
  match getPar db lv with
  | some _ => .abort
  | none =>
    match rv with
    | none => .ok (append db { lv := nameRule lv, rvDouble := L.zero })
    | some t =>
      if t = [] ∨ t = [' '] then .ok (append db { lv := nameRule lv, rvDouble := L.zero })
      else if isIterText t then
        (if (findMult t).isSome then parseMult t else .ok t).bind fun ip =>
        (getNValue ip 0).bind fun first =>
        if first = [] then .abort
        else .ok (append db { lv := nameRule lv, rv := some first, rvIp := some ip,
                              rvDouble := L.zero, iterative := true })
      else .ok (append db { lv := nameRule lv, rv := some t, rvDouble := L.zero })

/-- parameters.c:9-25 `update_parameter_string` (Psets) -/
def setS (L : Libc D) (db : DB D) (lv0 : Str) (rv : Option Str) : Res (DB D) :=
  let lv := nameRule lv0
  match getPar db lv with
  | some _ => .ok (modifyPar db (nameRule lv) fun p => { p with rv := rv, doubleFlg := false })
  | none => addS L db lv rv

/-- parameters.c:28-48 `update_parameter_integer` (Pseti) -/
def setI (L : Libc D) (db : DB D) (lv0 : Str) (i : Int) : Res (DB D) :=
  setS L db lv0 (some (showInt i))

/-- parameters.c:94-121 `add_parameter_double` -/
def addD (L : Libc D) (db : DB D) (lv0 : Str) (x : D) : Res (DB D) :=
  let lv := nameRule lv0
  match getPar db lv with
  | some _ => .abort
  | none => .ok (append db { lv := lv, rv := some (L.fmtE x), rvDouble := x, doubleFlg := true })

/-- parameters.c:52-90 `update_parameter_double_format` (Psetd), without the printing -/
def setD (L : Libc D) (db : DB D) (lv0 : Str) (x : D) : Res (DB D) :=
  let lv := nameRule lv0
  match getPar db lv with
  | some _ =>
    .ok (modifyPar db (nameRule lv) fun p =>
      { p with rv := some (L.fmtE x), rvDouble := x, doubleFlg := true })
  | none => addD L db lv x

/-- parameters.c:125-144 `add_parameter_array` -/
def addA (L : Libc D) (db : DB D) (lv0 : Str) (xs : List D) : Res (DB D) :=
  let lv := nameRule lv0
  match getPar db lv with
  | some _ => .abort
  | none => .ok (append db { lv := lv, rvDouble := L.zero, rvArray := some xs })

/-- parameters.c:147-176 `update_parameter_array` (Pset_array) -/
def setA (L : Libc D) (db : DB D) (lv0 : Str) (xs : List D) : Res (DB D) :=
  let lv := nameRule lv0
  match getPar db lv with
  | some p =>
    if p.iterative then .abort
    else .ok (modifyPar db (nameRule lv) fun p => { p with doubleFlg := false, rvArray := some xs })
  | none => .ok (append db { lv := lv, rvDouble := L.zero, rvArray := some xs })

/-- parameters.c:766-788 `set_default_parameter` (Pset_default) -/
def setDefault (L : Libc D) (db : DB D) (lv0 : Str) (rv : Option Str) : Res (DB D) :=
  let lv := nameRule lv0
  match getPar db lv with
  | none => addS L db lv rv
  | some p =>
    match p.rv with
    | none => .ok (modifyPar db (nameRule lv) fun p => { p with rv := rv })
    | some [] => .ok (modifyPar db (nameRule lv) fun p => { p with rv := rv })
    | some (_ :: _) => .ok db

/-- parameters.c:831-852: overwrite the first entry named `lv` by the last entry, drop the last slot -/
def freeFirst (lv : Str) (l : List (Par D)) : List (Par D) :=
  match l.findIdx? (fun p => p.lv = lv) with
  | none => l
  | some i =>
    match l.getLast? with
    | none => l
    | some last => (l.set i last).dropLast

/-- parameters.c:814-855 `free_parameter` -/
def freePar (db : DB D) (name : Str) : DB D := db.map (freeFirst (nameRule name))

/-- parameters.c:872-891 `free_parameter_db` -/
def freeAll (_ : DB D) : DB D := none

/-- `FATAL` or `NONE` flag of the getters (macros Pgeti/PgetiEZ etc.) -/
inductive Flag | fatal | ez
deriving DecidableEq, Repr

/-- parameters.c:470-509 `get_parameter_value_D` (Pgetd): returns the value and the data base with the
cache filled.  `strtod(NULL)` is undefined. -/
def getD (L : Libc D) (db : DB D) (name : Str) (fl : Flag) : Res (D × DB D) :=
  match db with
  | none => .ok (L.dblMax, none)
  | some l =>
    match l.find? (fun p => p.lv = nameRule name) with
    | some p =>
      if p.doubleFlg then .ok (p.rvDouble, some l)
      else match p.rv with
        | none => .ub
        | some t =>
          .ok (L.strtod t, some (modifyFirst (nameRule name)
            (fun q => { q with doubleFlg := true, rvDouble := L.strtod t }) l))
    | none => if fl = .fatal then .abort else .ok (L.dblMax, some l)

/-- parameters.c:433-463 `get_parameter_value_I` (Pgeti) -/
def getI (db : DB D) (name : Str) (fl : Flag) : Res Int :=
  match db with
  | none => .ok INT_MAX
  | some l =>
    match l.find? (fun p => p.lv = nameRule name) with
    | some p => match p.rv with
      | none => .ub
      | some t => atoiR t
    | none => if fl = .fatal then .abort else .ok INT_MAX

/-- parameters.c:516-547 `get_parameter_value_S` (Pgets); `none` = NULL -/
def getS (db : DB D) (name : Str) (fl : Flag) : Res (Option Str) :=
  match db with
  | none => .ok none
  | some l =>
    match l.find? (fun p => p.lv = nameRule name) with
    | some p => .ok p.rv
    | none => if fl = .fatal then .abort else .ok none

/-- parameters.c:394-425 `get_parameter_array_format` (Pgetdd); `none` = NULL -/
def getA (db : DB D) (name : Str) (fl : Flag) : Res (Option (List D)) :=
  match db with
  | none => .ok none
  | some l =>
    match l.find? (fun p => p.lv = nameRule name) with
    | some p => .ok p.rvArray
    | none => if fl = .fatal then .abort else .ok none

/-! ### iterative parameters -/

/-- body of the loop parameters.c:625-638 for one entry.  `get_n_value_str_ip` aborts if `rv_ip` is NULL -/
def iterPar (L : Libc D) (n : Nat) (p : Par D) : Res (Par D) :=
  if p.iterative then
    match p.rvIp with
    | none => .abort
    | some ip =>
      (getNValue ip n).bind fun v =>
      .ok { p with rv := some v, rvDouble := if p.doubleFlg then L.strtod v else p.rvDouble }
  else .ok p

def iterList (L : Libc D) (n : Nat) : List (Par D) → Res (List (Par D))
  | [] => .ok []
  | p :: ps => (iterPar L n p).bind fun q => (iterList L n ps).bind fun qs => .ok (q :: qs)

/-- parameters.c:620-640 `update_iterative_parameter_ip` -/
def iterate (L : Libc D) (db : DB D) (n : Nat) : Res (DB D) :=
  match db with
  | none => .ok none
  | some l => (iterList L n l).bind fun l' => .ok (some l')

/-- loop parameters.c:582-590 -/
def countLoop : Nat → Nat → Str → Res Nat
  | 0, l, _ => .ok l
  | fuel + 1, l, subs =>
    if subs = [] then .abort
    else match cutArrow subs with
      | none => .ok l
      | some (_, r) => countLoop fuel (l + 1) r

/-- parameters.c:579-590: the counter `l` for one iterative text -/
def countIp (ip : Str) : Res Nat :=
  match cutArrow ip with
  | none => .ok 1
  | some (_, r) => countLoop ip.length 1 r

/-- loop parameters.c:575-595; `strstr(NULL,..)` is undefined -/
def maxCount : Nat → List (Par D) → Res Nat
  | m, [] => .ok m
  | m, p :: ps =>
    if p.iterative then
      match p.rvIp with
      | none => .ub
      | some ip => (countIp ip).bind fun l => maxCount (if m < l then l else m) ps
    else maxCount m ps

/-- the parameter name used by parameters.c:566,597 -/
def totalName : Str := "total_iterations_ip".toList

/-- parameters.c:564-600 `total_iterations_ip`: returns the number and the data base with the cached
parameter -/
def totalIterations (L : Libc D) (db : DB D) : Res (Int × DB D) :=
  (getI db totalName .ez).bind fun m =>
  if m ≠ INT_MAX then .ok (m, db)
  else (maxCount 0 (entries db)).bind fun mx =>
    (setI L db totalName ((mx : Int) + 1)).bind fun db' => .ok ((mx : Int) + 1, db')

/-- parameters.c:603-617 `total_iterative_parameters_ip` -/
def totalIterative (db : DB D) : Nat := ((entries db).filter (·.iterative)).length

/-- loop parameters.c:720-735 / :747-762: the `n`-th iterative entry -/
def nthIterative (db : DB D) (n : Nat) : Res (Option (Par D)) :=
  let its := (entries db).filter (·.iterative)
  match its[n]? with
  | some p => .ok (some p)
  | none => if its.length < n then .abort else .ok none

/-! ### operation language -/

/-- calls that change the data base -/
inductive Op (D : Type) where
  | addS (lv : Str) (rv : Option Str)
  | addD (lv : Str) (x : D)
  | addA (lv : Str) (xs : List D)
  | setS (lv : Str) (rv : Option Str)
  | setI (lv : Str) (i : Int)
  | setD (lv : Str) (x : D)
  | setA (lv : Str) (xs : List D)
  | dflt (lv : Str) (rv : Option Str)
  | free (lv : Str)
  | freeAll
  | readD (lv : Str) (fl : Flag)
  | iterate (n : Nat)

def step (L : Libc D) (db : DB D) : Op D → Res (DB D)
  | .addS lv rv => addS L db lv rv
  | .addD lv x => addD L db lv x
  | .addA lv xs => addA L db lv xs
  | .setS lv rv => setS L db lv rv
  | .setI lv i => setI L db lv i
  | .setD lv x => setD L db lv x
  | .setA lv xs => setA L db lv xs
  | .dflt lv rv => setDefault L db lv rv
  | .free lv => .ok (freePar db lv)
  | .freeAll => .ok (freeAll db)
  | .readD lv fl => (getD L db lv fl).bind fun r => .ok r.2
  | .iterate n => iterate L db n

/-- a whole history of calls -/
def run (L : Libc D) (db : DB D) : List (Op D) → Res (DB D)
  | [] => .ok db
  | o :: os => (step L db o).bind fun db' => run L db' os

end Elliptica.Params
