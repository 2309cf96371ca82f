import Verif.Model.Params
/-!
Model of /repo/Src/Main/Modules/Text_and_File_Tools/text_tools.c and reading_parameter_file.c.
-/
namespace Elliptica.Text

/-- text_tools.c:31-44 (in strcmp_i), 66-80 (in strstr_i): `tolower` in the "C" locale -/
def lower (c : Char) : Char := if 'A' ≤ c ∧ c ≤ 'Z' then Char.ofNat (c.toNat + 32) else c

/-- text_tools.c:14-49 `strcmp_i`: 1 when equal up to letter case; null pointers give 0 -/
def strcmpI : Option Str → Option Str → Bool
  | some a, some b => a.map lower = b.map lower
  | _, _ => false

/-- text_tools.c:273-286 `find_index_string` (`none` stands for UINT_MAX) -/
def findIndexString : List Str → Str → Option Nat
  | [], _ => none
  | h :: t, needle => if h = needle then some 0 else (findIndexString t needle).map (· + 1)

/-- `strstr(s,b) != 0` -/
def occursIn (b : Str) : Str → Bool
  | [] => b.isEmpty
  | x :: r => b.isPrefixOf (x :: r) || occursIn b r

/-- text_tools.c:55-91 `strstr_i`: 1 when the needle occurs in the haystack up to letter case; null pointers give 0 -/
def strstrI : Option Str → Option Str → Bool
  | some a, some b => occursIn (b.map lower) (a.map lower)
  | _, _ => false

/-- `strchr(str,c)`, then one character on: the rest of the string after the first `c` -/
def afterChr (c : Char) : Str → Option Str
  | [] => none
  | x :: r => if x = c then some r else afterChr c r

/-- text_tools.c:242-257, the loop of `check_format_s` over the delimiters -/
def formatLoop : List Char → Str → Bool
  | [], _ => true
  | d :: ds, s => match afterChr d s with
    | none => false
    | some r => formatLoop ds r

/-- text_tools.c:203-271 `check_format_s`.  With no delimiter in the format, `delimits[n-1]` is read from a null
pointer.  (The final comparison of `trim` and `trim2` adds nothing: they agree when the loop reached its end.  The
limit MAX_STR_LEN on the number of delimiters is not modelled.) -/
def checkFormat (str : Option Str) (format : Str) : Res Bool :=
  match str with
  | none => .ok false
  | some s =>
    let ds := format.filter (· ≠ '?')
    match ds.getLast? with
    | none => .ub
    | some l =>
      if l ∈ s then .ok (formatLoop ds (s.takeWhile (· ≠ l) ++ [l])) else .ok false

/-- text_tools.c:420-443, the loop of `regex_replace`; `find` stands for regexec: offset and length of the leftmost match
in a string. `fuel` bounds the rounds: every round after the first consumes a character. -/
def replaceLoop (find : Str → Option (Nat × Nat)) (repl : Str) : Nat → Str → Nat × Nat → Str
  | 0, _, _ => []
  | fuel + 1, c, (so, len) =>
    let rest := c.drop (so + len)
    c.take so ++ repl ++
      (match find rest with
       | none => rest
       | some (so', len') => if len' = 0 then rest else replaceLoop find repl fuel rest (so', len'))

/-- text_tools.c:390-457 `regex_replace`: (return value, what is written) -/
def regexReplace (find : Str → Option (Nat × Nat)) (orig repl : Str) : Bool × Str :=
  match find orig with
  | none => (false, orig)
  | some m => (true, replaceLoop find repl (orig.length + 1) orig m)

/-- What one call of `tok_s` returns: the token, what `*savestr` points to afterwards, and whether
`*savestr` points to the very characters of the token (so that writing into the token changes it). -/
structure Tok where
  tok : Str
  save : Option Str
  aliased : Bool
deriving DecidableEq, Repr

/-- text_tools.c:120-171 `tok_s`, on the string it works on (`str`, or `*savestr` when `str` is null).
`none`: the string is empty, null is returned and `*savestr` is left alone. -/
def tokS (d : Char) : Str → Option Tok
  | [] => none
  | c :: r =>
    -- 141-149
    let s := if c = d then r else c :: r
    -- 150-163
    if d ∈ s then
      some ⟨s.takeWhile (· ≠ d), some ((s.dropWhile (· ≠ d)).dropWhile (· = d)), false⟩
    -- 165-169; when the string started with the delimiter `*savestr` was set to the token itself
    else if c = d then some ⟨s, some s, true⟩
    else some ⟨s, none, false⟩

/-- The loop `tok = tok_s(str,d,&save); while (tok) { ...; tok = tok_s(0,d,&save); }`
(text_tools.c:362-388 `read_separated_items_in_string`, whose copies do not write into the tokens).
`fuel` bounds the number of rounds; `readItems` gives enough of it. -/
def tokLoop (d : Char) : Nat → Option Str → List Str
  | 0, _ => []
  | _ + 1, none => []
  | fuel + 1, some s =>
    match tokS d s with
    | none => []
    | some t => t.tok :: tokLoop d fuel t.save

/-- text_tools.c:362-388 `read_separated_items_in_string` on a non-null string; the loop runs at most
`length + 1` times (each round but possibly the first consumes a character) -/
def readItems (d : Char) (s : Str) : List Str := tokLoop d (s.length + 2) (some s)

/-- text_tools.c:173-190 `sub_s`: text between the first d1 and the first d2.  The inner `tok_s` ignores
its token and keeps `*savestr`; when `*savestr` is not set, `sub` stays null. -/
def subS (d1 d2 : Char) (s : Str) : Option Str :=
  match tokS d2 s with
  | none => none            -- tok_s(0,d1,&sub) with sub null: nothing
  | some t =>
    match tokS d1 t.tok with
    | none => none
    | some u => u.save

/-! ### The parameter file -/

inductive BMode where
  | top       -- the outer loop, reading_parameter_file.c:102-178
  | comment   -- inside a comment started in the outer loop, 113-124
  | broken    -- after a line continuation, 134-161
  | bcomment  -- inside a comment in a continued line, 152-156
deriving DecidableEq, Repr

/-- reading_parameter_file.c:92-186 `make_buffer`, as a machine over the remaining characters of the
file.  Returns the characters stored in `buff`, in order (`none` is the byte `(char)EOF`).
The limit MAX_NUM_CHAR on the number of characters is not modelled. -/
def bufLoop : BMode → Str → Res (List (Option Char))
  | .top, [] => .ok [none]                                   -- fgetc gives EOF, stored at 164-168
  | .top, c :: r =>
    if c = ' ' ∨ c = '\t' then bufLoop .top r                  -- 107-108
    else if c = '#' then bufLoop .comment r                   -- 111
    else if c = '\\' then                                      -- 127
      match r with
      | '\n' :: r' => bufLoop .broken r'                      -- 129-133
      | _ => .abort                                           -- 130-131
    else (bufLoop .top r).map (some c :: ·)                   -- 164-168
  | .comment, [] => .ok []                                    -- 113-116, at EOF nothing is stored
  | .comment, c :: r =>
    if c = '\n' then (bufLoop .top r).map (some '\n' :: ·)    -- 118-123
    else bufLoop .comment r
  | .broken, [] => .ok []                                     -- 134, at EOF nothing is stored
  | .broken, c :: r =>
    if c = '\n' then (bufLoop .top r).map (some '\n' :: ·)    -- 134, 162-167
    else if c = ' ' ∨ c = '\t' then bufLoop .broken r          -- 136-140
    else if c = '\\' then                                      -- 141-148
      match r with
      | '\n' :: r' => bufLoop .broken r'
      | _ => .abort
    else if c = '#' then bufLoop .bcomment r                  -- 151-155
    else (bufLoop .broken r).map (some c :: ·)                -- 157-160
  | .bcomment, [] => .ok [none]                               -- 153, 157-159: EOF is stored
  | .bcomment, c :: r =>
    if c = '\n' then (bufLoop .top r).map (some '\n' :: ·)    -- 154, 162-167
    else bufLoop .bcomment r

/-- reading_parameter_file.c:182-185: the last stored character is overwritten by the end-of-string
mark; with nothing stored `buff` is a null pointer. -/
def makeBuffer (file : Str) : Res Str :=
  (bufLoop .top file).bind fun b =>
    match b with
    | [] => .ub
    | b => .ok (b.dropLast.map (fun c => c.getD (Char.ofNat 255)))

/-- One line of `populate_parameters`, reading_parameter_file.c:55-76: the tokens of `tok`, first cut at
'=', then at the end of the line.  Result: (par_l, par_r), null as `none`; the last token read wins
for `par_r`. -/
def lineTokens (tok : Str) : Option Str × Option Str :=
  match tokS '=' tok with
  | none => (none, none)
  | some t =>
    (some t.tok, (tokLoop '\n' (tok.length + 2) t.save).getLast?)

/-- What the characters of `tok` read as a C string after line 55 wrote NULs over the '=' signs. -/
def afterCut (tok : Str) : Str :=
  match tok with
  | [] => []
  | '=' :: r => if '=' ∈ r then '=' :: r.takeWhile (· ≠ '=') else '=' :: r
  | s => s.takeWhile (· ≠ '=')

/-- reading_parameter_file.c:42-88 `populate_parameters`: the (name, value) pairs passed to
`add_parameter`, in order; `abort` when a line has no value (line 78). -/
def popLoop : Nat → Option Str → Res (List (Str × Str))
  | 0, _ => .ok []
  | _ + 1, none => .ok []
  | fuel + 1, some s =>
    match tokS '\n' s with
    | none => .ok []
    | some t =>
      let save := if t.aliased then t.save.map afterCut else t.save
      match lineTokens t.tok with
      | (none, _) => popLoop fuel save
      | (some _, none) => .abort
      | (some l, some r) => (popLoop fuel save).map ((l, r) :: ·)

def populate (buff : Str) : Res (List (Str × Str)) := popLoop (buff.length + 2) (some buff)

/-- reading_parameter_file.c:9-37 `read_input_file` up to the calls of `add_parameter` -/
def readCalls (file : Str) : Res (List (Str × Str)) :=
  (makeBuffer file).bind fun b => if b.length < 2 then .abort else populate b

/-- reading_parameter_file.c:9-37 `read_input_file` -/
def readFile {D : Type} (L : Params.Libc D) (db : Params.DB D) (file : Str) : Res (Params.DB D) :=
  (readCalls file).bind fun cs =>
    cs.foldl (fun r c => r.bind fun db => Params.addS L db c.1 (some c.2)) (.ok db)

end Elliptica.Text
