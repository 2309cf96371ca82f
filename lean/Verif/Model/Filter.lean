import Verif.Model.Deriv
import Verif.Spec.Erfc
import Mathlib.Analysis.SpecialFunctions.Log.Basic
/-!
Model of the spectral filter, Src/Main/Modules/Maths/Spectral_Methods/spectral_filter.c, over ℝ: `double` is ℝ, log, sqrt and
erfc of libm are the mathematical functions, accumulation loops are finite sums.  `int p` is a natural number (of a negative
number the C code takes the square root).  A patch is that of Model/Deriv.
-/
namespace Elliptica.Filter
open Real Finset Elliptica.Index Elliptica.Deriv Elliptica.Cheb

/-- spectral_filter.c:95-124 `erfclog`; `e` is ROUND_OFF_ERR -/
noncomputable def erfclog (e th : ℝ) (p : ℕ) : ℝ :=
  let thBar := |th| - 0.5
  let den := 4.0 * thBar ^ 2
  if th < e then 1
  else if 1 - e < th then 0
  else if den < e then 0.5
  else 0.5 * erfc (sqrt (-log (1 - den) / den) * (2.0 * sqrt p * thBar))

/-- spectral_filter.c:41-55: `C[ijk] *= …` in three nested loops -/
noncomputable def adjust (e : ℝ) (n : Fin 3 → ℕ) (p : ℕ) (C : Coeff.Data ℝ) : Coeff.Data ℝ :=
  (List.range (n 0)).foldl (fun C i => (List.range (n 1)).foldl (fun C j => (List.range (n 2)).foldl (fun C k =>
    Coeff.upd C (ijk (n 1) (n 2) i j k) (C (ijk (n 1) (n 2) i j k) *
      (erfclog e (i / ((n 0 : ℝ) - 1)) p * erfclog e (j / ((n 1 : ℝ) - 1)) p * erfclog e (k / ((n 2 : ℝ) - 1)) p))) C) C) C

/-- coordinate_systems.c:587-592: the check of `General2ChebyshevExtrema`, which refuses only if both tests fail -/
def accepts (pt : Patch) (d : Fin 3) : Bool := pt.basis d == .tn || pt.coll d == .extrema

/-- spectral_filter.c:58-78: the value at node l from the coefficients -/
noncomputable def value (e : ℝ) (pt : Patch) (C : Coeff.Data ℝ) (l : ℕ) : ℝ :=
  let X := fun d => toCheb e (pt.mn d) (pt.mx d) (ptv pt d (coords pt l d))
  ∑ i ∈ range (pt.n 0), ∑ j ∈ range (pt.n 1), ∑ k ∈ range (pt.n 2),
    C (ijk (pt.n 1) (pt.n 2) i j k) * tComb e (pt.n 0) i (X 0) * tComb e (pt.n 1) j (X 1) * tComb e (pt.n 2) k (X 2)

/-- field.c:569-596: coefficients of a direction that has no Chebyshev basis, or neither of the two collocations, stop the program -/
def known (pt : Patch) : Bool := funcsOk pt

/-- spectral_filter.c:29-79 `filter_erfclog`; the coefficients that were adjusted stay in the cache of the field.  With one
point in a direction the index is divided by zero (not a number). -/
noncomputable def filterErfclog (e : ℝ) (pt : Patch) (p : ℕ) (f : Coeff.St ℝ) : Res (Coeff.St ℝ) :=
  if !known pt then .abort
  else if pt.n 0 < 2 ∨ pt.n 1 < 2 ∨ pt.n 2 < 2 then .ub
  else (Coeff.make3 pt.n (tr pt) f).bind fun r =>
    let C := adjust e pt.n p r.2
    if !(accepts pt 0 && accepts pt 1 && accepts pt 2) then .abort
    else .ok { r.1 with v := (fun l => if l < pt.n 0 * pt.n 1 * pt.n 2 then value e pt C l else r.1.v l), v2 := some C }

/-- spectral_filter.c:14-26 `spectral_filter`; `erfclogName` is the result of strcmp_i(args->filter,"erfclog") -/
noncomputable def spectralFilter (e : ℝ) (pt : Patch) (erfclogName : Bool) (p : ℕ) (f : Coeff.St ℝ) : Res (Coeff.St ℝ) :=
  if erfclogName then filterErfclog e pt p f else .abort

end Elliptica.Filter
