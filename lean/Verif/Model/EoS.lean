import Verif.Model.Text
import Verif.Model.Tol
import Mathlib.Analysis.SpecialFunctions.Pow.Real
/-!
Model of the polytropic and piecewise polytropic equations of state, Src/Main/Modules/Physics/EoS/eos_main.c and
eos_polytropics.c, over `ℝ`.  `e` is ROUND_OFF_ERR.
-/
namespace Elliptica.EoS
open Text

/-- C's `pow`: a negative base with an exponent that is not an integer gives nan, zero with a negative exponent gives
infinity (both: `ub`) -/
noncomputable def cpow (b x : ℝ) : Res ℝ :=
  open Classical in
  if b < 0 ∧ ¬ ∃ k : ℤ, x = k then .ub
  else if b = 0 ∧ x < 0 then .ub
  else .ok (b ^ x)

/-! ### the parameters -/

/-- eos_main.c:398-445 `read_EoS_in_parameter_file` of a non-null string; `atof` is C's atof.  The buffer has MAX_STR = 400
bytes. -/
def readList (atof : Str → ℝ) (par : Str) : Res (List ℝ) :=
  (checkFormat (some par) ['[', '?', ']']).bind fun ok =>
    if ok = false then .abort
    else if 400 ≤ par.length then .ub
    else match subS '[' ']' par with
      | none => .ub                       -- tok_s(0,...) then reads the left-over of `save`
      | some s => match readItems ',' s with
        | [] => .abort
        | l => .ok (l.map atof)

/-- EoS_T: number of pieces and the arrays (entries 0..N-1 are allocated) -/
structure Eos where
  N : ℕ
  gamma : ℕ → ℝ
  n : ℕ → ℝ
  K : ℕ → ℝ
  a : ℕ → ℝ
  rho : ℕ → ℝ
  hth : ℕ → ℝ

/-- eos_main.c:306-319 `fill_n` without its assertions -/
noncomputable def fillN (g : ℕ → ℝ) (i : ℕ) : ℝ := 1 / (g i - 1)

/-- eos_main.c:323-339 `fill_K` -/
noncomputable def fillK (g rho : ℕ → ℝ) (K0 : ℝ) : ℕ → ℝ
  | 0 => K0
  | i + 1 => fillK g rho K0 i * rho (i + 1) ^ ((fillN g (i + 1) - fillN g i) / (fillN g i * fillN g (i + 1)))

/-- eos_main.c:342-360 `fill_a` -/
noncomputable def fillA (g rho K : ℕ → ℝ) : ℕ → ℝ
  | 0 => 0
  | i + 1 => fillA g rho K i + K i * rho (i + 1) ^ (g i - 1) / (g i - 1)
      - K (i + 1) * rho (i + 1) ^ (g (i + 1) - 1) / (g (i + 1) - 1)

/-- eos_main.c:363-381 `fill_h_th` -/
noncomputable def fillH (g rho K a : ℕ → ℝ) (i : ℕ) : ℝ :=
  if i = 0 then 1 else 1 + a i + (g i / (g i - 1)) * K i * rho i ^ (g i - 1)

/-- eos_main.c:83-124 `populate_EoS` of a piecewise polytrope, after reading the three lists (each has at least one
entry).  The loop of 107-110 reads rho0_th[0..N-2], the fill functions rho0_th[1..N-1]: reads past the list are `ub`.
Thresholds that are not positive give zeros, infinities or nans: not modelled (`ub`). -/
noncomputable def populatePwp (e : ℝ) (gamma K0 rho : List ℝ) : Res Eos :=
  let N := gamma.length
  let g := fun i => gamma.getD i 0
  let r := fun i => rho.getD i 0
  if rho.length + 1 < N then .ub
  else if (List.range (N - 1)).any (fun i => decide (1 ≤ i) && Tol.grt e (r (i - 1)) (r i)) then .abort
  else if N = 0 ∨ (List.range N).any (fun i => Tol.eql e (g i - 1) 0) then .abort
  else if rho.length < N ∧ 2 ≤ N then .ub
  else if (List.range N).any (fun i => decide (1 ≤ i) && decide (r i ≤ 0)) then .ub
  else
    let K := fillK g r (K0.getD 0 0)
    let a := fillA g r K
    .ok ⟨N, g, fillN g, K, a, r, fillH g r K a⟩

/-- eos_main.c:242-275 `populate_EoS` of a polytrope -/
noncomputable def populateP (e : ℝ) (gamma K0 : List ℝ) : Res Eos :=
  let g := fun i => gamma.getD i 0
  if gamma.length ≠ 1 then .abort
  else if Tol.eql e (g 0 - 1) 0 then .abort
  else .ok ⟨1, g, fillN g, fun _ => K0.getD 0 0, fun _ => 0, fun _ => 0, fun _ => 0⟩

/-! ### the functions of the enthalpy -/

/-- the first line of every function: `if (EQL(eos->h,1)) eos->h = 1` -/
noncomputable def snap (e h : ℝ) : ℝ := if Tol.eql e h 1 then 1 else h

/-- eos_polytropics.c:195-204 the loop over the inner pieces -/
noncomputable def findLoop (e : ℝ) (E : Eos) (h : ℝ) : (k i : ℕ) → Res ℕ
  | 0, _ => .abort
  | k + 1, i => if Tol.grtEql e h (E.hth i) && Tol.lssEql e h (E.hth (i + 1)) then .ok i else findLoop e E h k (i + 1)

/-- eos_polytropics.c:181-213 `find_threshold_number_h`; the flag enthalpy_fatal is never set in the program.  With one
piece h_th[1] lies outside the array. -/
noncomputable def findTh (e : ℝ) (E : Eos) (h : ℝ) : Res ℕ :=
  if E.N < 2 then .ub
  else if Tol.lssEql e h (E.hth 1) then .ok 0
  else if Tol.grtEql e h (E.hth (E.N - 1)) then .ok (E.N - 1)
  else findLoop e E h (E.N - 2) 1

/-- pow((h-1-a)/(n+1),x)*pow(K,-n) -/
noncomputable def powTerm (E : Eos) (i : ℕ) (a h x : ℝ) : Res ℝ :=
  (cpow ((h - 1 - a) / (E.n i + 1)) x).bind fun u => (cpow (E.K i) (-E.n i)).bind fun v => .ok (u * v)

/-- eos_polytropics.c:18-30 `EoS_p_h_pwp` -/
noncomputable def pPwp (e : ℝ) (E : Eos) (h : ℝ) : Res ℝ :=
  let h := snap e h
  (findTh e E h).bind fun i => powTerm E i (E.a i) h (E.n i + 1)

/-- eos_polytropics.c:34-46 `EoS_rho0_h_pwp` -/
noncomputable def rhoPwp (e : ℝ) (E : Eos) (h : ℝ) : Res ℝ :=
  let h := snap e h
  (findTh e E h).bind fun i => powTerm E i (E.a i) h (E.n i)

/-- eos_polytropics.c:50-62 `EoS_drho0_dh_h_pwp` -/
noncomputable def drhoPwp (e : ℝ) (E : Eos) (h : ℝ) : Res ℝ :=
  let h := snap e h
  (findTh e E h).bind fun i => (powTerm E i (E.a i) h (E.n i - 1)).bind fun v => .ok (v * E.n i / (E.n i + 1))

/-- eos_polytropics.c:91-102 `EoS_e0_h_pwp` -/
noncomputable def e0Pwp (e : ℝ) (E : Eos) (h : ℝ) : Res ℝ :=
  let h := snap e h
  (findTh e E h).bind fun i => .ok ((E.a i + E.n i * (h - 1)) / (E.n i + 1))

/-- eos_polytropics.c:80-87 `EoS_e_h_pwp` -/
noncomputable def ePwp (e : ℝ) (E : Eos) (h : ℝ) : Res ℝ :=
  let h := snap e h
  (e0Pwp e E h).bind fun e0 => (rhoPwp e E h).bind fun r => .ok (r * (1 + e0))

/-- eos_polytropics.c:106-116 `EoS_de_dh_h_pwp` -/
noncomputable def dePwp (e : ℝ) (E : Eos) (h : ℝ) : Res ℝ :=
  let h := snap e h
  (findTh e E h).bind fun i => (drhoPwp e E h).bind fun d => (rhoPwp e E h).bind fun r =>
    .ok (d * (1 + (E.a i + E.n i * (h - 1)) / (E.n i + 1)) + r * E.n i / (E.n i + 1))

/-- eos_polytropics.c:132-141 `EoS_p_h_p` -/
noncomputable def pP (e : ℝ) (E : Eos) (h : ℝ) : Res ℝ := powTerm E 0 0 (snap e h) (E.n 0 + 1)

/-- eos_polytropics.c:145-154 `EoS_rho0_h_p` -/
noncomputable def rhoP (e : ℝ) (E : Eos) (h : ℝ) : Res ℝ := powTerm E 0 0 (snap e h) (E.n 0)

/-- eos_polytropics.c:66-76 `EoS_drho0_dh_h_p` -/
noncomputable def drhoP (e : ℝ) (E : Eos) (h : ℝ) : Res ℝ :=
  (powTerm E 0 0 (snap e h) (E.n 0 - 1)).bind fun v => .ok (v * E.n 0 / (E.n 0 + 1))

/-- eos_polytropics.c:170-178 `EoS_e0_h_p` -/
noncomputable def e0P (e : ℝ) (E : Eos) (h : ℝ) : ℝ := E.n 0 * (snap e h - 1) / (E.n 0 + 1)

/-- eos_polytropics.c:159-166 `EoS_e_h_p` -/
noncomputable def eP (e : ℝ) (E : Eos) (h : ℝ) : Res ℝ :=
  let h := snap e h
  (rhoP e E h).bind fun r => .ok (r * (1 + e0P e E h))

/-- eos_polytropics.c:120-128 `EoS_de_dh_h_p` -/
noncomputable def deP (e : ℝ) (E : Eos) (h : ℝ) : Res ℝ :=
  let h := snap e h
  (drhoP e E h).bind fun d => (rhoP e E h).bind fun r =>
    .ok (d * (1 + E.n 0 * (h - 1) / (E.n 0 + 1)) + r * E.n 0 / (E.n 0 + 1))

end Elliptica.EoS
