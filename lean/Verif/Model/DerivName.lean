import Verif.Model.Text
import Verif.Model.Field
import Verif.Model.Deriv
/-!
Model of the textual interface of the derivatives, Src/Main/Modules/Maths/Calculus/derivatives.c:23-205, 482-566: the task of
`Partial_Derivative` and the field names of `partial_derivative`.
-/
namespace Elliptica.DerivName
open Text Deriv

/-- derivatives.c:547-566 `str2enum_direction` -/
def strDir (s : Str) : Res Dir :=
  if strcmpI (some s) (some ['x']) then .ok (.x 0)
  else if strcmpI (some s) (some ['y']) then .ok (.x 1)
  else if strcmpI (some s) (some ['z']) then .ok (.x 2)
  else if strcmpI (some s) (some ['a']) then .ok (.a 0)
  else if strcmpI (some s) (some ['b']) then .ok (.a 1)
  else if strcmpI (some s) (some ['c']) then .ok (.a 2)
  else .abort

/-- derivatives.c:490-497 the loop over the tokens -/
def dirLoop : List Str → Res (List Dir)
  | [] => .ok []
  | s :: l => (strDir s).bind fun d => (dirLoop l).map (d :: ·)

/-- derivatives.c:480-502 `derivative_direction` -/
def directions (task : Str) : Res (List Dir) :=
  match tokS '|' task with
  | none => .abort
  | some t => dirLoop (readItems ',' t.tok)

/-- derivatives.c:533-543 `str2enum_method`: is it SPECTRAL? (else UNDEFINED_METHOD) -/
def isSpectral (s : Option Str) : Bool := strstrI s (some ['S','p','e','c','t','r','a','l'])

/-- derivatives.c:508-528 `derivative_method`, `par` is the value of the parameter Derivative_Method (null when absent).
The only method there is is SPECTRAL. -/
def method (par : Option Str) (task : Str) : Res Unit :=
  let rs := match tokS '|' task with
    | none => none
    | some t => t.save
  if isSpectral rs then .ok ()
  else if isSpectral par then .ok ()
  else .abort

/-- derivatives.c:183-205 `Partial_Derivative` of a field with values -/
noncomputable def partialDerivative (e : ℝ) (p : Patch) (par : Option Str) (f : Coeff.St ℝ) (task : Str) :
    Res (Coeff.St ℝ × Coeff.Data ℝ) :=
  (method par task).bind fun _ => (directions task).bind fun ds => takeDer e p f ds

/-- derivatives.c:77-80 the direction from the last character -/
def lastDir (c : Char) : Res (Fin 3) :=
  if c = '0' then .ok 0 else if c = '1' then .ok 1 else if c = '2' then .ok 2 else .abort

/-- derivatives.c:83-86 the name without its last index -/
def cutIndex (name : Str) : Str :=
  if name.getD (name.length - 3) ' ' ≠ '_' then name.take (name.length - 2) else name.take (name.length - 3)

/-- derivatives.c:87-100 the name without its first d -/
def cutD : Str → Res Str
  | '_' :: 'd' :: s => .ok ('_' :: s)
  | '_' :: _ => .abort
  | 'd' :: s => .ok s
  | _ => .abort

/-- derivatives.c:69-100 the parsing of the name; the buffer has MAX_STR_LEN = 100 bytes -/
def parse (name : Str) : Res (Str × Fin 3) :=
  if 100 ≤ name.length then .ub
  else if name.length ≤ 3 then .abort
  else (lastDir (name.getD (name.length - 1) ' ')).bind fun i => (cutD (cutIndex name)).map fun s => (s, i)

/-- the task of the direction, derivatives.c:110-117 -/
def taskOf (i : Fin 3) : Str := if i = 0 then ['x'] else if i = 1 then ['y'] else ['z']

/-- a field of a patch: its values and coefficients; `none` when it has no values -/
abbrev Flds := Field.Fields (Option (Coeff.St ℝ))

/-- write of the contents of one field -/
def setVal (l : Flds) (k : Nat) (v : Option (Coeff.St ℝ)) : Flds :=
  l.set k ⟨(l[k]?.map (·.name)).getD [], v⟩

/-- derivatives.c:58-120 `partial_derivative` of the field number k of a patch -/
noncomputable def partialField (e : ℝ) (p : Patch) (par : Option Str) (l : Flds) (k : Nat) : Res Flds :=
  match l[k]? with
  | none => .ub
  | some df =>
    (parse df.name).bind fun (s, i) =>
    (Field.lookUpE l s).bind fun j =>
    match (l[j]?).bind (·.val) with
    | none => .abort
    | some f =>
      (partialDerivative e p par f (taskOf i)).bind fun (f', w) =>
      .ok (setVal (setVal l j (some f')) k (some ⟨w, none, none⟩))

end Elliptica.DerivName
