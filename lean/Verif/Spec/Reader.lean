import Verif.Model.Reader
/-!
Specification of the initial data reader: what the value of a field at a point of the evolution code is, and the format of the
two files, in terms of the grid and of plain bytes.
-/
namespace Elliptica.ReaderSpec
open Elliptica Elliptica.Ckpt Elliptica.Reader

/-- `d` is the value of the field `name` at the point `y` (in coordinates of the initial data): the first patch of the grid that
contains `y` interpolates there its field of that name -/
def HasValue {D X V : Type} (grid : List (Patch D X V)) (y : Fin 3 → D) (name : Str) (d : D) : Prop :=
  ∃ pre pa post, grid = pre ++ pa :: post ∧ (∀ q ∈ pre, q.xof y = none) ∧
    ∃ X, pa.xof y = some X ∧ ∃ f ∈ pa.fields, f.name = name ∧ d = pa.exec f.val X

/-- a length-prefixed string with its final NUL -/
def str (s : Str) : Bytes := encU (s.length + 1) ++ (s.map byteOf ++ [0])

/-- a length-prefixed double -/
def dbl {D : Type} (c : Codec D) (x : D) : Bytes := encU 1 ++ c.enc x

/-- a file of fields: a line of text, a header, then every name followed by its values, a footer, an end mark -/
def fieldsFile {D : Type} (c : Codec D) (title : Str) (fs : List (Str × List D)) : Bytes :=
  (("# this file contains values of " : String).toList ++ (title ++ ['\n'])).map byteOf ++ (str ("#{data#" : String).toList ++
    (fs.flatMap (fun f => str f.1 ++ f.2.flatMap (dbl c)) ++
      (str ("#}data#" : String).toList ++ str ("\n#file_completed#\n" : String).toList)))

/-- a file of coordinates: a line of text, a header, the number of points, x y z of every point, a footer -/
def coordsFile {D : Type} (c : Codec D) (line : Str) (xs : List (Fin 3 → D)) : Bytes :=
  line.map byteOf ++ (byteOf '\n' :: (str ("#{data#" : String).toList ++ ((encU 1 ++ encU xs.length) ++
    (xs.flatMap (fun x => dbl c (x 0) ++ (dbl c (x 1) ++ dbl c (x 2))) ++ str ("#}data#" : String).toList))))

/-- the systems of initial data by name -/
def systems : List (Project × Str) :=
  [(.bhns, ("BH_NS_binary_initial_data" : String).toList), (.nsns, ("NS_NS_binary_initial_data" : String).toList),
   (.bhbh, ("BH_BH_binary_initial_data" : String).toList), (.sns, ("Single_NS_initial_data" : String).toList)]

/-- equal up to the case of letters -/
def Same (a b : Str) : Prop := a.map Text.lower = b.map Text.lower

end Elliptica.ReaderSpec
