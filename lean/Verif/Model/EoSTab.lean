import Verif.Model.EoS
import Verif.Model.Interp
import Verif.Model.Fornberg
import Mathlib.Analysis.SpecialFunctions.Log.Base
/-!
Model of the smoothed piecewise polytrope (Src/Main/Modules/Physics/EoS/eos_main.c:131-240, eos_polytropics.c:215-262) and
of the tabular equation of state (eos_tabular.c), over `ℝ`.  `e` is ROUND_OFF_ERR.
-/
namespace Elliptica.EoS
open Text Interp

/-! ### pwp_natural_cubic_spline -/

/-- eos_main.c:191-196 the i-th sample point of S, enthalpies from 1 to 2 (eos_main.c) -/
noncomputable def sampleH (S i : ℕ) : ℝ := 1 + i * ((2 - 1) / ((S : ℝ) - 1))

/-- eos_main.c:194-200 one sample: pressure, energy density, rest mass density of the piecewise polytrope -/
noncomputable def sampleOne (e : ℝ) (E : Eos) (S i : ℕ) : Res (ℝ × ℝ × ℝ) :=
  (pPwp e E (sampleH S i)).bind fun p => (ePwp e E (sampleH S i)).bind fun w =>
    (rhoPwp e E (sampleH S i)).bind fun r => .ok (p, w, r)

/-- eos_main.c:194-200 the first k samples -/
noncomputable def samples (e : ℝ) (E : Eos) (S : ℕ) : ℕ → Res (List (ℝ × ℝ × ℝ))
  | 0 => .ok []
  | k + 1 => (samples e E S k).bind fun l => (sampleOne e E S k).bind fun v => .ok (l ++ [v])

/-- what populate_EoS leaves: the samples and the floor -/
structure Ncs where
  S : ℕ
  floor : ℝ
  p : ℕ → ℝ
  w : ℕ → ℝ
  r : ℕ → ℝ

/-- eos_main.c:139-240; one sample divides by zero, none divides by -1 and interpolates nothing (`ub`) -/
noncomputable def populateNcs (e : ℝ) (gamma K0 rho : List ℝ) (S : ℕ) (floor : ℝ) : Res Ncs :=
  (populatePwp e gamma K0 rho).bind fun E =>
    if S < 2 then .ub
    else (samples e E S S).bind fun l =>
      .ok ⟨S, floor, fun i => (l.getD i 0).1, fun i => (l.getD i 0).2.1, fun i => (l.getD i 0).2.2⟩

/-- eos_polytropics.c:215-262, the three functions of the enthalpy are this with their own samples `f`; `none` is DBL_MAX -/
noncomputable def ncsEval (e : ℝ) (T : Ncs) (f : ℕ → ℝ) (h : ℝ) : Res ℝ :=
  if Tol.lssEql e h T.floor then .ok 0
  else (spline e T.S (sampleH T.S) f h).bind fun v =>
    match v with
    | none => .ok 0
    | some v => .ok (if Tol.lssEql e v 0 then 0 else v)

/-! ### reading a table -/

/-- fgets(line,1000,file) until the end of the file: what the successive calls return.  `left` characters still fit. -/
def chunk : (left : ℕ) → Str → Str → List Str
  | _, acc, [] => if acc = [] then [] else [acc.reverse]
  | left, acc, c :: r =>
    if c = '\n' ∨ left ≤ 1 then (c :: acc).reverse :: chunk 999 [] r else chunk (left - 1) (c :: acc) r

/-- eos_tabular.c:157-177 and 186-206 the reading loop; `scan` is what sscanf finds in a line (all fields matched).
`n` rows have been read. -/
def rowsLoop (scan : Str → Option (ℝ × ℝ × ℝ)) : ℕ → List Str → Res (List (ℝ × ℝ × ℝ))
  | _, [] => .ok []
  | n, l :: ls =>
    if l.head? = some '#' then rowsLoop scan n ls
    else match scan l with
      | none => rowsLoop scan n ls
      | some v => if 4000 ≤ n + 1 then .abort else (rowsLoop scan (n + 1) ls).bind fun r => .ok (v :: r)

/-- eos_tabular.c:150-217 the rows of the file; none at all is an error -/
def readRows (scan : Str → Option (ℝ × ℝ × ℝ)) (file : Str) : Res (List (ℝ × ℝ × ℝ)) :=
  (rowsLoop scan 0 (chunk 999 [] file)).bind fun l => if l = [] then .abort else .ok l

/-- the two known table formats, and units -/
inductive TabFormat where
  | densities   -- "line,number_density,total_energy_density,pressure"
  | specific    -- "rest_mass_density,specific_internal_energy,pressure"
inductive TabUnit where
  | compose
  | geo

/-- eos_tabular.c:246-248 -/
noncomputable def pFactor : ℝ := 1.80162095578956E-39
noncomputable def rhoFactor : ℝ := 0.002712069678583313
noncomputable def eFactor : ℝ := 1.619216164136643E-18

/-- eos->spline: size and columns -/
structure Tab where
  N : ℕ
  h : ℕ → ℝ
  p : ℕ → ℝ
  w : ℕ → ℝ
  r : ℕ → ℝ

/-- eos_tabular.c:224-266 units of one row: (density, energy density, pressure) -/
noncomputable def convert : TabFormat → TabUnit → ℝ × ℝ × ℝ → Res (ℝ × ℝ × ℝ)
  | .densities, .compose, (r, w, p) => .ok (r * rhoFactor, w * eFactor, p * pFactor)
  | .specific, .geo, (r, w, p) => .ok (r, w * r + r, p)
  | _, _, _ => .abort

/-- all rows -/
noncomputable def convertAll (f : TabFormat) (u : TabUnit) : List (ℝ × ℝ × ℝ) → Res (List (ℝ × ℝ × ℝ))
  | [] => .ok []
  | v :: l => (convert f u v).bind fun v' => (convertAll f u l).bind fun l' => .ok (v' :: l')

/-- eos_tabular.c:126-283 `eos_tab_read_table`; a row without density divides by zero (`ub`) -/
noncomputable def readTable (scan : Str → Option (ℝ × ℝ × ℝ)) (f : TabFormat) (u : TabUnit) (file : Str) : Res Tab :=
  (readRows scan file).bind fun l => (convertAll f u l).bind fun l =>
    if l.any (fun v => decide (v.1 = 0)) then .ub
    else .ok ⟨l.length, fun i => ((l.getD i 0).2.2 + (l.getD i 0).2.1) / (l.getD i 0).1, fun i => (l.getD i 0).2.2,
      fun i => (l.getD i 0).2.1, fun i => (l.getD i 0).1⟩

/-! ### tabular equation of state -/

/-- an interpolation planned with method Hermite1D: ordered points, values, slopes -/
structure HInt where
  N : ℕ
  np : ℕ
  x : ℕ → ℝ
  f : ℕ → ℝ
  fp : ℕ → ℝ

/-- interpolations.c:917-936 `set_derivative_array_Hermite_1d`, the first k slopes -/
noncomputable def slopes (g : Fornberg.Tab ℝ) (x f : ℕ → ℝ) (N acc : ℕ) : ℕ → Res (List ℝ)
  | 0 => .ok []
  | k + 1 => (slopes g x f N acc k).bind fun l => (Fornberg.fornberg g f x (x k) N 1 acc).bind fun v => .ok (l ++ [v])

/-- interpolations.c:73-94 planning Hermite1D without given slopes -/
noncomputable def planH (e : ℝ) (g : Fornberg.Tab ℝ) (N np acc : ℕ) (x f : ℕ → ℝ) : Res HInt :=
  if acc = 0 then .abort
  else if np = 0 then .abort
  else if np > N then .abort
  else (orderTest e N x).bind fun rv =>
    (slopes g (ordered rv N x) (ordered rv N f) N acc N).bind fun l =>
      .ok ⟨N, np, ordered rv N x, ordered rv N f, fun i => l.getD i 0⟩

/-- interpolations.c:868-914 (the order test of `hermite` changes nothing on ordered points) -/
noncomputable def HInt.eval (e : ℝ) (I : HInt) (t : ℝ) : Res ℝ := hermite e I.N I.np I.x I.f I.fp t

/-- interpolations.c:817-834 `derivative_Hermite_1d_ncs`: a natural cubic spline through the slopes; `big` is DBL_MAX -/
noncomputable def HInt.slope (e big : ℝ) (I : HInt) (t : ℝ) : Res ℝ :=
  (spline e I.N I.x I.fp t).bind fun v => .ok (v.getD big)

/-- what eos_tab_set_hermite_log leaves -/
structure TabEos where
  lo : ℝ          -- h_floor
  hi : ℝ          -- h_ceil
  ps : ℝ          -- p_shift
  ws : ℝ          -- e_shift
  P : HInt        -- interp_p
  W : HInt        -- interp_e

/-- Table_Log, eos_tabular.c:11 -/
noncomputable def lg (x : ℝ) : ℝ := Real.logb 10 x

/-- eos_tabular.c:287-372 `eos_tab_set_hermite_log`.  The shift row 3 of a shorter table is outside the arrays; logarithms of
numbers that are not positive are not modelled (`ub`).  The interpolation of the density is planned but never used. -/
noncomputable def planTab (e : ℝ) (g : Fornberg.Tab ℝ) (np acc : ℕ) (lo hi : ℝ) (T : Tab) : Res TabEos :=
  if T.N < 4 then .ub
  else if (List.range T.N).any (fun i => decide (T.p i + T.p 3 ≤ 0) || decide (T.r i + T.r 3 ≤ 0) ||
      decide (T.w i + T.w 3 ≤ 0) || decide (T.h i ≤ 0)) then .ub
  else
    let x := fun i => lg (T.h i)
    (planH e g T.N np acc x (fun i => lg (T.p i + T.p 3))).bind fun P =>
      (planH e g T.N np acc x (fun i => lg (T.w i + T.w 3))).bind fun W =>
        (planH e g T.N np acc x (fun i => lg (T.r i + T.r 3))).bind fun _ => .ok ⟨lo, hi, T.p 3, T.w 3, P, W⟩

/-- eos_tabular.c:27-30 the enthalpy used (and left in eos->h) -/
noncomputable def clampH (E : TabEos) (h : ℝ) : ℝ :=
  let h := if h ≤ E.lo then E.lo else h
  if h ≥ E.hi then E.hi else h

/-- eos_tabular.c:17-40 `logy_of_logh_hermite` with y_floor = 0 (line 309-311) -/
noncomputable def logy (e : ℝ) (E : TabEos) (I : HInt) (shift h : ℝ) : Res ℝ :=
  if clampH E h ≤ 0 then .ub
  else (I.eval e (lg (clampH E h))).bind fun v =>
    let y := (10 : ℝ) ^ v - shift
    if y ≥ 0 then .ok (if y < 0 then 0 else y) else .abort

/-- eos_tabular.c:44-49 -/
noncomputable def pT (e : ℝ) (E : TabEos) (h : ℝ) : Res ℝ := logy e E E.P E.ps h
/-- eos_tabular.c:53-58 -/
noncomputable def wT (e : ℝ) (E : TabEos) (h : ℝ) : Res ℝ := logy e E E.W E.ws h

/-- eos_tabular.c:71-74 `rho0_e_p_h`.  The order in which C evaluates the operands is not specified: `early` means that
eos->h is read before the calls (which change it) -/
noncomputable def rT (e : ℝ) (E : TabEos) (early : Bool) (h : ℝ) : Res ℝ :=
  (pT e E h).bind fun p => (wT e E h).bind fun w =>
    let d := if early then h else clampH E h
    if d = 0 then .ub else .ok ((p + w) / d)

/-- eos_tabular.c:79-89 `e0_of_e_and_rho0` -/
noncomputable def e0T (e : ℝ) (E : TabEos) (early : Bool) (h : ℝ) : Res ℝ :=
  (rT e E early h).bind fun r => (wT e E (clampH E h)).bind fun w =>
    if Tol.eql e r w then .ok 0 else if r = 0 then .ub else .ok (w / r - 1)

/-- eos_tabular.c:93-100 `dp_dh_hermite_log` -/
noncomputable def dpT (e big : ℝ) (E : TabEos) (h : ℝ) : Res ℝ :=
  (pT e E h).bind fun f => (E.P.slope e big (lg (clampH E h))).bind fun m => .ok (f / clampH E h * m)

/-- eos_tabular.c:104-111 `de_dh_hermite_log` -/
noncomputable def dwT (e big : ℝ) (E : TabEos) (h : ℝ) : Res ℝ :=
  (wT e E h).bind fun f => (E.W.slope e big (lg (clampH E h))).bind fun m => .ok (f / clampH E h * m)

/-- eos_tabular.c:115-125 `drho0_dh_e_p_h` -/
noncomputable def drT (e big : ℝ) (E : TabEos) (h : ℝ) : Res ℝ :=
  (wT e E h).bind fun w => (dwT e big E h).bind fun dw => (pT e E h).bind fun p => (dpT e big E h).bind fun dp =>
    .ok ((dw + dp - (w + p) / clampH E h) / clampH E h)

end Elliptica.EoS
