import Verif.Model.Common
/-!
Model of the field registry of a patch and of the cache of spectral coefficients, Src/Main/Modules/Fields/field.c.
-/
namespace Elliptica.Field

/-! ### registry -/

/-- one field: its name and everything else (values, pointers), which the registry only carries along -/
structure Fld (V : Type) where
  name : Str
  val : V
deriving DecidableEq, Repr

/-- patch->fields (nfld entries; entries and names are never null) -/
abbrev Fields (V : Type) := List (Fld V)

/-- field.c:150-175 `LookUpField`: first index with that name (strcmp); `none` is INT_MIN -/
def lookUp {V : Type} (l : Fields V) (name : Str) : Option Nat := l.findIdx? (fun f => f.name = name)

/-- field.c:179-190 `LookUpField_E` -/
def lookUpE {V : Type} (l : Fields V) (name : Str) : Res Nat :=
  match lookUp l name with
  | none => .abort
  | some i => .ok i

/-- field.c:22-61 `add_field`: stops the program when the name exists, else appends -/
def add {V : Type} (l : Fields V) (name : Str) (v : V) : Res (Fields V) :=
  match lookUp l name with
  | some _ => .abort
  | none => .ok (l ++ [⟨name, v⟩])

/-- field.c:68-90 `remove_field` (of the field with that name): the last field takes its place -/
def remove {V : Type} (l : Fields V) (name : Str) : Fields V :=
  match lookUp l name with
  | none => l
  | some i =>
    match l.getLast? with
    | none => l
    | some last => (l.set i last).dropLast

/-- field.c:847-864 `remove_field_regex`; `m` = regex_search(regex,name); `fuel` bounds the number of turns -/
def removeLoop {V : Type} (m : Str → Bool) : Nat → Nat → Fields V → Fields V
  | 0, _, l => l
  | fuel + 1, f, l =>
    match l[f]? with
    | none => l
    | some x => if m x.name then removeLoop m fuel f (remove l x.name) else removeLoop m fuel (f + 1) l

def removeRegex {V : Type} (m : Str → Bool) (l : Fields V) : Fields V := removeLoop m (l.length + 1) 0 l

/-- field.c:126-147 `find_field_index_regex`: the loop from index `i` on -/
def indexRegex {V : Type} (m : Str → Bool) : Nat → Fields V → List Nat
  | _, [] => []
  | i, x :: l => if m x.name then i :: indexRegex m (i + 1) l else indexRegex m (i + 1) l

/-- the calls of a user; `store` is a write of values through a pointer obtained by name -/
inductive Op (V : Type) where
  | add (name : Str) (v : V)
  | remove (name : Str)
  | removeRegex (m : Str → Bool)
  | store (name : Str) (v : V)

/-- `remove`/`store` go through `Ind` = LookUpField_E (macros_lib.h:80-103, field.c:953-972), which stops the program for
an unknown name -/
def step {V : Type} (l : Fields V) : Op V → Res (Fields V)
  | .add n v => add l n v
  | .remove n => (lookUpE l n).bind fun _ => .ok (remove l n)
  | .removeRegex m => .ok (removeRegex m l)
  | .store n v => (lookUpE l n).bind fun i => .ok (l.modify i fun f => { f with val := v })

def run {V : Type} : Fields V → List (Op V) → Res (Fields V)
  | l, [] => .ok l
  | l, o :: os => (step l o).bind fun l' => run l' os

/-! ### attributes -/

/-- strstr(s,t) ≠ null -/
def occurs (t : Str) : Str → Bool
  | [] => t.isEmpty
  | c :: s => t.isPrefixOf (c :: s) || occurs t s

/-- field.c:96-122 `add_attribute` (`none` = null string) -/
def addAttribute (attr : Option Str) (a : Str) : Res (Option Str) :=
  if ¬ ('(' ∈ a ∧ ')' ∈ a) then .abort
  else match attr with
    | none => .ok (some a)
    | some s => if occurs a s then .ok (some s) else .ok (some (s ++ a))

end Elliptica.Field
