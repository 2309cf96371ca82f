import Verif.Model.Text
/-!
Model of the start of a run and of output folders: Src/Main/Core/main.c:8-50, global_variables.c:8-72, projects.c:9-103,
Src/Main/Modules/Text_and_File_Tools/file_and_directory.c:8-79, Src/Main/Modules/Utilities/useful_functions.c:540-549.
-/
namespace Elliptica.Startup
open Elliptica.Text

/-- `strrchr(s,c)`: the texts before and after the last `c` -/
def atLast (c : Char) : Str → Option (Str × Str)
  | [] => none
  | x :: r => match atLast c r with
    | some (a, b) => some (x :: a, b)
    | none => if x = c then some ([], r) else none

/-- global_variables.h:6, file_and_directory.h:8 -/
def MAX_ARR : Nat := 400

/-- global_variables.c:56-72 `find_relative_root_path`: value of relative_root_path; `sprintf(dir,"%s",path)` into MAX_ARR
characters -/
def rootPath (path : Str) : Res Str :=
  if MAX_ARR ≤ path.length then .ub
  else match atLast '/' path with
    | some (a, _) => .ok a
    | none => .ok ['.']

/-- global_variables.c:41-45: the part after the last '/' -/
def fileName (path : Str) : Str := match atLast '/' path with
  | some (_, b) => b
  | none => path

/-- global_variables.c:23-52 `find_inputfile_name`: values of parameter_file_name and parameter_file_name_stem.  The loop copies
characters from the name until it meets the last '.' of the whole path; if that '.' lies before the name it runs over the end of
the path. -/
def inputName (exists_ : Str → Bool) (path : Str) : Res (Str × Str) :=
  if !exists_ path then .abort
  else match atLast '.' path with
    | none => .abort
    | some (before, _) =>
      let start := path.length - (fileName path).length
      if before.length < start then .ub
      else .ok (fileName path, (fileName path).take (before.length - start))

/-- what init_global_variables stores: relative_root_path, parameter_file_name, parameter_file_name_stem -/
structure Init where
  root : Str
  name : Str
  stem : Str
deriving DecidableEq, Repr

/-- global_variables.c:9-19 `init_global_variables` (time and databases not modelled) -/
def initGlobal (exists_ : Str → Bool) (path : Str) : Res Init :=
  (rootPath path).bind fun r => (inputName exists_ path).bind fun q => .ok ⟨r, q.1, q.2⟩

/-! ### projects -/

/-- projects.c:67-82 `get_project`; a project is its name and a number that stands for the function -/
def getProject (db : List (Str × Nat)) (name : Option Str) : Option (Str × Nat) :=
  db.find? fun q => strcmpI (some q.1) name

/-- projects.c:27-47 `add_project` (`none` is a null function pointer) -/
def addProject (db : List (Str × Nat)) (f : Option Nat) (name : Str) : Res (List (Str × Nat)) :=
  match f with
  | none => .abort
  | some f => match getProject db (some name) with
    | some _ => .abort
    | none => .ok (db ++ [(name, f)])

/-- the generated create_db_projects (GNUmakefile:270-285): one add_project after the other -/
def createDb : List (Str × Nat) → List (Str × Nat) → Res (List (Str × Nat))
  | db, [] => .ok db
  | db, (n, f) :: l => (addProject db (some f) n).bind fun db => createDb db l

/-- main.c:8-50: which project functions run, in order, for the value of the parameter Project (`none`: not set); reading the
parameter file comes before (Model/Params).  Without an argument a text is printed and nothing runs. -/
def mainRun (args : List Str) (exists_ : Str → Bool) (project : Option Str) (projects : List (Str × Nat)) : Res (List Nat) :=
  match args.getLast? with
  | none => .ok []
  | some path => (initGlobal exists_ path).bind fun _ => (createDb [] projects).bind fun db =>
    match getProject db project with
    | none => .abort
    | some p => .ok [p.2]

/-! ### folders -/

/-- `sprintf("%0wd",i)` for i ≥ 0 -/
def pad (w i : Nat) : Str := List.replicate (w - (Params.showNat i).length) '0' ++ Params.showNat i

/-- file_and_directory.c:23 `sprintf(dir,"%s/%s_%02d",path,name,i)` (macros_lib.h:23 FOLDER_AFFIX), and :65 with width 4 -/
def folder (w : Nat) (path name : Str) (i : Nat) : Str := path ++ '/' :: name ++ '_' :: pad w i

/-- the words the shell makes of a command line without quotes and special characters; `cur` is the word being read -/
def words (cur : Str) : Str → List Str
  | [] => if cur.isEmpty then [] else [cur]
  | ' ' :: r => if cur.isEmpty then words [] r else cur :: words [] r
  | x :: r => words (cur ++ [x]) r

/-- one argument of mkdir: made if its parent exists and it does not exist itself.  The file system is the list of existing
paths (written in one way each). -/
def mkdir1 (w : List Str) (d : Str) : List Str :=
  if d ∈ w then w
  else match atLast '/' d with
    | some (a, _) => if a ∈ w then w ++ [d] else w
    | none => w ++ [d]

/-- useful_functions.c:540-549 `shell_command("mkdir …")`: the exit status is printed and not used -/
def mkdir (w : List Str) (arg : Str) : List Str := (words [] arg).foldl mkdir1 w

/-- file_and_directory.c:20-25: the first free number from `i` on (`fuel` bounds the rounds), or a name too long for the array -/
def firstFree (wd : Nat) (w : List Str) (path name : Str) : Nat → Nat → Res Nat
  | 0, _ => .ub
  | fuel + 1, i => if MAX_ARR ≤ (folder wd path name i).length then .ub
    else if folder wd path name i ∈ w then firstFree wd w path name fuel (i + 1) else .ok i

/-- file_and_directory.c:12-33 `make_directory`: (file system afterwards, returned path) -/
def makeDirectory (w : List Str) (path name : Str) : Res (List Str × Str) :=
  (firstFree 2 w path name (w.length + 1) 0).bind fun i =>
    .ok (mkdir w (folder 2 path name i), folder 2 path name i)

/-- file_and_directory.c:52-79 `open_folder`; `top` is the parameter top_directory (make_folder: 39-47) -/
def openFolder (w : List Str) (top name : Str) : Res (List Str × Str) :=
  (firstFree 4 w top name (w.length + 1) 0).bind fun i =>
    if 0 < i then .ok (w, folder 4 top name (i - 1)) else makeDirectory w top name

end Elliptica.Startup
