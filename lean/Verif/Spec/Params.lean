import Verif.Model.Params
/-!
Specification of the parameter data base, independent of its implementation: a map from canonical
names to cells.  Only the outcome type, the libc record and the decimal rendering `showInt`
(`printf("%d")`) are shared with the model.
-/
namespace Elliptica.ParamSpec
open Elliptica Params

/-- Canonical spelling: a character is upper-cased iff a `'_'` occurs later in the name and none
occurs before it; all the others are lower-cased. -/
def canon (s : Str) : Str :=
  s.mapIdx fun i c => if '_' ∈ s ∧ '_' ∉ s.take (i + 1) then c.toUpper else c.toLower

/-- case-insensitive equality of names -/
def sameName (s t : Str) : Prop := s.map Char.toLower = t.map Char.toLower

/-- contains `->` -/
def HasArrow (s : Str) : Prop := ['-', '>'] <:+: s

/-- contains `(x` digits `)` -/
def HasMult (s : Str) : Prop :=
  ∃ ds : Str, ds ≠ [] ∧ (∀ c ∈ ds, c.isDigit) ∧ (['(', 'x'] ++ ds ++ [')']) <:+: s

/-- What a user can write as the value of a parameter. -/
inductive Val where
  /-- NULL -/
  | null
  /-- an ordinary text -/
  | text (t : Str)
  /-- `v0->v1->...->vk` -/
  | sched (v : Str) (vs : List Str)
  /-- `v0(xm0)->v1->v2(xm2)...`, `none` = no multiplicity -/
  | mult (items : List (Str × Option Nat))

/-- values separated by `->` -/
def arrows (vs : List Str) : Str := ['-', '>'].intercalate vs

def renderItem : Str × Option Nat → Str
  | (v, none) => v
  | (v, some m) => v ++ ['(', 'x'] ++ showNat m ++ [')']

/-- the text the user writes -/
def Val.render : Val → Option Str
  | .null => none
  | .text t => some t
  | .sched v vs => some (arrows (v :: vs))
  | .mult items => some (arrows (items.map renderItem))

/-- the list of values of an item list: `v(xm)` is `m` times `v` -/
def expand (items : List (Str × Option Nat)) : List Str :=
  items.flatMap fun p => List.replicate (p.2.getD 1) p.1

/-- the grammar -/
def Val.WF : Val → Prop
  | .null => True
  | .text t => ¬ HasArrow t ∧ ¬ HasMult t
  | .sched v vs => vs ≠ [] ∧ (∀ w ∈ v :: vs, ¬ HasArrow w) ∧ ¬ HasMult (arrows (v :: vs))
  | .mult items =>
      (∃ p ∈ items, p.2 ≠ none) ∧
      (∀ p ∈ items, p.1 ≠ [] ∧ '>' ∉ p.1 ∧ '(' ∉ p.1 ∧
        ∀ m, p.2 = some m → 1 ≤ m ∧ (m : Int) ≤ INT_MAX) ∧
      2 ≤ (expand items).length

/-- the value list in force in iteration `n`: the `n`-th one, or the last -/
def nth (vs : List Str) (n : Nat) : Str := vs.getD (min n (vs.length - 1)) []

/-- what the data base knows about one name -/
structure Cell (D : Type) where
  text : Option Str := none
  arr : Option (List D) := none
  sched : Option (List Str) := none

/-- the abstract store; `alloc` = some parameter has been added since the start or since the
last release of the whole data base -/
structure Store (D : Type) where
  alloc : Bool
  cell : Str → Option (Cell D)

def Store.init {D} : Store D := ⟨false, fun _ => none⟩

def Store.put {D} (σ : Store D) (n : Str) (c : Cell D) : Store D :=
  ⟨true, fun m => if m = n then some c else σ.cell m⟩

/-- a fresh entry with a schedule: its first value is in force and must not be empty -/
def freshSched {D} (vs : List Str) : Res (Cell D) :=
  if vs.headD [] = [] then .abort else .ok { text := some (vs.headD []), sched := some vs }

/-- meaning of a value given for a name not yet in the store -/
def fresh {D} : Val → Res (Cell D)
  | .null => .ok {}
  | .text t => if t = [] ∨ t = [' '] then .ok {} else .ok { text := some t }
  | .sched v vs => freshSched (v :: vs)
  | .mult items => freshSched (expand items)

/-- calls, with structured values -/
inductive Call (D : Type) where
  | addS (lv : Str) (v : Val)
  | addD (lv : Str) (x : D)
  | addA (lv : Str) (xs : List D)
  | setS (lv : Str) (v : Val)
  | setI (lv : Str) (i : Int)
  | setD (lv : Str) (x : D)
  | setA (lv : Str) (xs : List D)
  | dflt (lv : Str) (v : Val)
  | free (lv : Str)
  | freeAll
  | readD (lv : Str) (fl : Flag)
  | iterate (n : Nat)

def Call.WF {D} : Call D → Prop
  | .addS _ v => v.WF
  | .setS _ v => v.WF
  | .dflt _ v => v.WF ∧ v.render ≠ none      -- `Pset_default` is given a text
  | _ => True

/-- the C call -/
def Call.toOp {D} : Call D → Op D
  | .addS lv v => .addS lv v.render
  | .addD lv x => .addD lv x
  | .addA lv xs => .addA lv xs
  | .setS lv v => .setS lv v.render
  | .setI lv i => .setI lv i
  | .setD lv x => .setD lv x
  | .setA lv xs => .setA lv xs
  | .dflt lv v => .dflt lv v.render
  | .free lv => .free lv
  | .freeAll => .freeAll
  | .readD lv fl => .readD lv fl
  | .iterate n => .iterate n

variable {D : Type}

def specAdd (σ : Store D) (lv : Str) (v : Val) : Res (Store D) :=
  match σ.cell (canon lv) with
  | some _ => .abort
  | none => (fresh v).bind fun c => .ok (σ.put (canon lv) c)

/-- advancing the iteration: cells with a schedule take their scheduled value, others keep theirs -/
def Cell.advance (n : Nat) (c : Cell D) : Cell D :=
  match c.sched with
  | none => c
  | some vs => { c with text := some (nth vs n) }

/-- effect of each call on the store -/
def specStep (L : Libc D) (σ : Store D) : Call D → Res (Store D)
  | .addS lv v => specAdd σ lv v
  | .addD lv x =>
    match σ.cell (canon lv) with
    | some _ => .abort
    | none => .ok (σ.put (canon lv) { text := some (L.fmtE x) })
  | .addA lv xs =>
    match σ.cell (canon lv) with
    | some _ => .abort
    | none => .ok (σ.put (canon lv) { arr := some xs })
  | .setS lv v =>
    match σ.cell (canon lv) with
    | some c => .ok (σ.put (canon lv) { c with text := v.render })
    | none => specAdd σ lv v
  | .setI lv i =>
    match σ.cell (canon lv) with
    | some c => .ok (σ.put (canon lv) { c with text := some (showInt i) })
    | none => .ok (σ.put (canon lv) { text := some (showInt i) })
  | .setD lv x =>
    match σ.cell (canon lv) with
    | some c => .ok (σ.put (canon lv) { c with text := some (L.fmtE x) })
    | none => .ok (σ.put (canon lv) { text := some (L.fmtE x) })
  | .setA lv xs =>
    match σ.cell (canon lv) with
    | some c => if c.sched.isSome then .abort
                else .ok (σ.put (canon lv) { c with arr := some xs })
    | none => .ok (σ.put (canon lv) { arr := some xs })
  | .dflt lv v =>
    match σ.cell (canon lv) with
    | none => specAdd σ lv v
    | some c => if c.text = none ∨ c.text = some [] then
                  .ok (σ.put (canon lv) { c with text := v.render })
                else .ok σ
  | .free lv => .ok ⟨σ.alloc, fun m => if m = canon lv then none else σ.cell m⟩
  | .freeAll => .ok Store.init
  | .readD lv fl =>
    match σ.cell (canon lv) with
    | some c => if c.text = none then .ub else .ok σ
    | none => if σ.alloc ∧ fl = .fatal then .abort else .ok σ
  | .iterate n => .ok ⟨σ.alloc, fun m => (σ.cell m).map (Cell.advance n)⟩

def specRun (L : Libc D) (σ : Store D) : List (Call D) → Res (Store D)
  | [] => .ok σ
  | c :: cs => (specStep L σ c).bind fun σ' => specRun L σ' cs

/-- what a string read returns -/
def specGetS (σ : Store D) (name : Str) (fl : Flag) : Res (Option Str) :=
  match σ.cell (canon name) with
  | some c => .ok c.text
  | none => if σ.alloc ∧ fl = .fatal then .abort else .ok none

/-- what an array read returns -/
def specGetA (σ : Store D) (name : Str) (fl : Flag) : Res (Option (List D)) :=
  match σ.cell (canon name) with
  | some c => .ok c.arr
  | none => if σ.alloc ∧ fl = .fatal then .abort else .ok none

end Elliptica.ParamSpec
