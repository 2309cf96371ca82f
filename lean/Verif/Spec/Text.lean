import Verif.Model.Common
/-!
Specification of delimited lists and of parameter files, independent of the code.
-/
namespace Elliptica.TextSpec

/-- `Splits d s xs`: the string `s`, which does not begin with the delimiter `d`, consists of the
non-empty `d`-free pieces `xs` in this order, separated by one or more `d` (and possibly followed by
some). -/
inductive Splits (d : Char) : Str → List Str → Prop
  | nil : Splits d [] []
  | last (x : Str) : x ≠ [] → d ∉ x → Splits d x [x]
  | cons (x : Str) (n : Nat) (rest : Str) (xs : List Str) : x ≠ [] → d ∉ x → rest.head? ≠ some d →
      Splits d rest xs → Splits d (x ++ List.replicate (n + 1) d ++ rest) (x :: xs)

/-- A piece of a line of a parameter file -/
inductive Piece where
  | text (s : Str)       -- meant characters
  | blank (tab : Bool)   -- a space or a tab
  | cont                 -- a line continuation: backslash, newline
deriving DecidableEq, Repr

def Piece.render : Piece → Str
  | .text s => s
  | .blank false => [' ']
  | .blank true => ['\t']
  | .cont => ['\\', '\n']

/-- the characters a piece stands for -/
def Piece.mean : Piece → Str
  | .text s => s
  | _ => []

def Piece.WF : Piece → Prop
  | .text s => ∀ c ∈ s, c ≠ ' ' ∧ c ≠ '\t' ∧ c ≠ '#' ∧ c ≠ '\\' ∧ c ≠ '\n'
  | _ => True

/-- A (logical) line: pieces, then perhaps a comment -/
structure Line where
  pieces : List Piece
  comment : Option Str
deriving DecidableEq, Repr

/-- the text of a comment, if any -/
def commentText : Option Str → Str
  | none => []
  | some c => '#' :: c

/-- the text of the line, without its final newline -/
def Line.render (l : Line) : Str := l.pieces.flatMap Piece.render ++ commentText l.comment

def Line.mean (l : Line) : Str := l.pieces.flatMap Piece.mean

/-- what an assignment line, or a line without content, sets -/
inductive Line.Sets : Line → Option (Str × Str) → Prop
  | nothing (l : Line) : l.mean = [] → Line.Sets l none
  | assign (l : Line) (k v : Str) : l.mean = k ++ '=' :: v → k ≠ [] → '=' ∉ k → v ≠ [] →
      v.head? ≠ some '=' → Line.Sets l (some (k, v))

def Line.WF (l : Line) : Prop :=
  (∀ p ∈ l.pieces, p.WF) ∧ (∀ c, l.comment = some c → '\n' ∉ c)

/-- a file all of whose lines end with a newline -/
def fileOf (ls : List Line) : Str := ls.flatMap (fun l => l.render ++ ['\n'])

/-- the lines `ls` denote the settings `kvs`, in order -/
inductive Denotes : List Line → List (Str × Str) → Prop
  | nil : Denotes [] []
  | skip (l ls kvs) : l.Sets none → Denotes ls kvs → Denotes (l :: ls) kvs
  | set (l ls kv kvs) : l.Sets (some kv) → Denotes ls kvs → Denotes (l :: ls) (kv :: kvs)

end Elliptica.TextSpec
