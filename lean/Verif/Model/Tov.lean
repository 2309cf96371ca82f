import Verif.Model.Tol
import Verif.Model.Interp
import Verif.Model.Integration
import Mathlib.Analysis.SpecialFunctions.Log.Basic
import Mathlib.Analysis.Real.Sqrt
/-!
Model of the TOV star: Src/Projects/TOV_star/TOV_solution.c and TOV_main.c.  `double` is ℝ, libm's functions are the
mathematical ones, `e` is ROUND_OFF_ERR.  A value that is infinite or not a number in C is `none`; the model does not
follow an infinite value that becomes finite again (overflow is left out).  Messages and files are left out except for
the numbers they hold.
-/
namespace Elliptica.Tov
open Real

/-- what TOV_solution.c uses of an EoS_T: pressure, energy_density and de_dh as functions of eos->h -/
structure Eos where
  p : ℝ → ℝ
  e : ℝ → ℝ
  de : ℝ → ℝ

variable (E : Eos)

/-- TOV_solution.c:549-560 `dr_dh` -/
noncomputable def drdh (h r m : ℝ) : ℝ := -r * (r - 2 * m) / (m + 4 * π * (r * r * r) * E.p h) / h

/-- TOV_solution.c:564-575 `dm_dh` -/
noncomputable def dmdh (h r m : ℝ) : ℝ := 4 * π * (r * r) * E.e h * drdh E h r m

/-- TOV_solution.c:500-514 `r_approx` -/
noncomputable def rApprox (h hc : ℝ) : ℝ :=
  √(3 * (hc - h) / (2 * π * (E.e hc + 3 * E.p hc))) *
    (1 - 0.25 * (E.e hc - 3 * E.p hc - 3 * E.de hc / 5) * (hc - h) / (E.e hc + 3 * E.p hc))

/-- TOV_solution.c:517-530 `m_approx` -/
noncomputable def mApprox (h hc : ℝ) : ℝ :=
  4 * π / 3 * E.e hc * rApprox E h hc ^ 3 * (1 - 3 / 5 * E.de hc * (hc - h) / E.e hc)

/-- TOV_solution.c:473-491 one turn of the loop: from (r[i-1], m[i-1]) at `t` to (r[i], m[i]) -/
noncomputable def step (s t : ℝ) (y : ℝ × ℝ) : ℝ × ℝ :=
  let k1r := s * drdh E t y.1 y.2
  let k1m := s * dmdh E t y.1 y.2
  let k2r := s * drdh E (t + s / 2) (y.1 + k1r / 2) (y.2 + k1m / 2)
  let k2m := s * dmdh E (t + s / 2) (y.1 + k1r / 2) (y.2 + k1m / 2)
  let k3r := s * drdh E (t + s / 2) (y.1 + k2r / 2) (y.2 + k2m / 2)
  let k3m := s * dmdh E (t + s / 2) (y.1 + k2r / 2) (y.2 + k2m / 2)
  let k4r := s * drdh E (t + s) (y.1 + k3r) (y.2 + k3m)
  let k4m := s * dmdh E (t + s) (y.1 + k3r) (y.2 + k3m)
  (y.1 + (k1r + 2 * k2r + 2 * k3r + k4r) / 6, y.2 + (k1m + 2 * k2m + 2 * k3m + k4m) / 6)

/-- TOV_solution.c:455 step size -/
noncomputable def stepSize (N : ℕ) (a : ℝ) : ℝ := (1 - a) / ((N : ℝ) - 1)

/-- TOV_solution.c:463-464, 492-493 the array h -/
noncomputable def hAt (N : ℕ) (a : ℝ) : ℕ → ℝ
  | 0 => a
  | 1 => a + stepSize N a
  | i + 2 => a + ((i + 2 : ℕ) : ℝ) * stepSize N a

/-- TOV_solution.c:448-497 `solve_ODE_enthalpy_approach`: the arrays (r, m) for central enthalpy `a` -/
noncomputable def star (N : ℕ) (a : ℝ) : ℕ → ℝ × ℝ
  | 0 => (0, 0)
  | 1 => (rApprox E (hAt N a 1) a, mApprox E (hAt N a 1) a)
  | i + 2 => step E (stepSize N a) (hAt N a (i + 1)) (star N a (i + 1))

/-- TOV_solution.c:413-434 `baryonic_mass_integrand` from the index 1 on, at one point -/
noncomputable def baryF (h r m : ℝ) : ℝ :=
  4 * π * ((E.e h + E.p h) / h) / √(1 - 2 * m / r) * r ^ 2 * drdh E h r m

/-- TOV_solution.c:371-387 `ADM_mass_integrand` from the index 1 on, at one point -/
noncomputable def admF (h r m : ℝ) : ℝ := 4 * π * E.e h * r ^ 2 * drdh E h r m

/-- TOV_solution.c:349-367 `Komar_mass_integrand` from the index 1 on, at one point -/
noncomputable def komarF (phi h r m : ℝ) : ℝ :=
  4 * π * (E.e h + 3 * E.p h) * exp phi / √(1 - 2 * m / r) * r ^ 2 * drdh E h r m

/-- TOV_solution.c:274-279 the integrand of `c_rbar` from the index 1 on, at one point -/
noncomputable def cF (h r m : ℝ) : ℝ := (1 / √(1 - 2 * m / r) - 1) / r * drdh E h r m

/-- TOV_solution.c:273, 357, 378, 423 the value at the centre is set to 0 -/
noncomputable def table (g : ℕ → ℝ) (i : ℕ) : ℝ := if i = 0 then 0 else g i

/-- TOV_solution.c:391-409 `calculate_baryonic_mass` -/
noncomputable def baryMass (N : ℕ) (a : ℝ) : Res ℝ :=
  Integ.simpson N a 1 (table fun i => baryF E (hAt N a i) (star E N a i).1 (star E N a i).2)

/-- TOV_solution.c:298-309 `calculate_phi` -/
noncomputable def phiAt (N : ℕ) (a : ℝ) (i : ℕ) : ℝ :=
  -log (hAt N a i) + log √(1 - 2 * (star E N a (N - 1)).2 / (star E N a (N - 1)).1)

/-- TOV_solution.c:203, 289 the isotropic radius of the surface -/
noncomputable def surfBar (R M : ℝ) : ℝ := 0.5 * (R - M + √(R ^ 2 - 2 * M * R))

/-- TOV_solution.c:262-295 `c_rbar` -/
noncomputable def cRbar (N : ℕ) (a : ℝ) : Res ℝ :=
  (Integ.simpson N a 1 (table fun i => cF E (hAt N a i) (star E N a i).1 (star E N a i).2)).bind fun c =>
    .ok (c - log (surfBar (star E N a (N - 1)).1 (star E N a (N - 1)).2 / (star E N a (N - 1)).1))

/-- TOV_solution.c:312-345 `calculate_ADM_and_Komar_mass`: whether the two masses differ too much -/
noncomputable def massesDiffer (e : ℝ) (N : ℕ) (a : ℝ) : Res Bool :=
  (Integ.simpson N a 1
      (table fun i => komarF E (phiAt E N a i) (hAt N a i) (star E N a i).1 (star E N a i).2)).bind fun k =>
    (Integ.simpson N a 1 (table fun i => admF E (hAt N a i) (star E N a i).1 (star E N a i).2)).bind fun m =>
      .ok (Tol.grt e |k - m| ((a - 1) / N))

open Classical in
/-- TOV_solution.c:534-545 `drbar_dh`; a result that is not finite stops the program -/
noncomputable def drbarDh (h rbar r m : ℝ) : Res ℝ :=
  if r = 0 ∨ 1 - 2 * m / r ≤ 0 ∨ m + 4 * π * (r * r * r) * E.p h = 0 ∨ h = 0 then .abort
  else .ok (rbar / √(1 - 2 * m / r) / r * drdh E h r m)

/-- TOV_solution.c:220-224 the splines of r and m at `t`.  Outside of the table the spline gives DBL_MAX for both, and
drbar_dh of these stops the program -/
noncomputable def rmAt (e : ℝ) (N : ℕ) (a t : ℝ) : Res (ℝ × ℝ) :=
  (Interp.spline e N (hAt N a) (fun i => (star E N a i).1) t).bind fun r =>
    (Interp.spline e N (hAt N a) (fun i => (star E N a i).2) t).bind fun m =>
      match r, m with
      | some r, some m => .ok (r, m)
      | _, _ => .abort

/-- TOV_solution.c:217-243 one turn of the loop: rbar[i] from rbar[i+1] = `y`; `rm t` are the splines of r and m at t -/
noncomputable def barStep (rm : ℝ → Res (ℝ × ℝ)) (s t y : ℝ) : Res ℝ :=
  (rm t).bind fun q1 =>
  (drbarDh E t y q1.1 q1.2).bind fun d1 =>
  let k1 := s * d1
  (rm (t + s / 2)).bind fun q2 =>
  (drbarDh E (t + s / 2) (y + k1 / 2) q2.1 q2.2).bind fun d2 =>
  let k2 := s * d2
  (drbarDh E (t + s / 2) (y + k2 / 2) q2.1 q2.2).bind fun d3 =>
  let k3 := s * d3
  (rm (t + s)).bind fun q4 =>
  (drbarDh E (t + s) (y + k3) q4.1 q4.2).bind fun d4 =>
  let k4 := s * d4
  .ok (y + (k1 + 2 * k2 + 2 * k3 + k4) / 6)

/-- TOV_solution.c:203-204, 213-244 the loop of `isotropic_coords_transformation`: `barBack j` is rbar[N-1-j] -/
noncomputable def barBack (rm : ℝ → Res (ℝ × ℝ)) (N : ℕ) (a surf : ℝ) : ℕ → Res ℝ
  | 0 => .ok surf
  | j + 1 => (barBack rm N a surf j).bind fun y =>
      let s := (a - 1) / ((N : ℝ) - 1)
      barStep E rm s (if j = 0 then hAt N a (N - 1) else 1 + (j : ℝ) * s) y

/-- TOV_solution.c:200-244 rbar[i]; only for N ≥ 3 -/
noncomputable def rbarAt (e : ℝ) (N : ℕ) (a c : ℝ) (i : ℕ) : Res ℝ :=
  let surf := surfBar (star E N a (N - 1)).1 (star E N a (N - 1)).2
  if i = N - 1 then .ok surf
  else if i = 0 then .ok 0
  else if i = 1 then .ok (rApprox E (hAt N a 1) (hAt N a 0) * exp (-c))
  else barBack E (rmAt E e N a) N a surf (N - 1 - i)

/-- TOV_solution.c:248-251 psi[i] -/
noncomputable def psiAt (c : ℝ) (r rbar : ℕ → ℝ) (i : ℕ) : ℝ := if i = 0 then √(exp c) else √(r i / rbar i)

/-! ### the search for the central enthalpy -/

section finder
variable {K : Type} [Field K] [LinearOrder K]

/-- the locals of `TOV_solution`: the star being computed has central enthalpy `hCent` and baryonic mass `m` -/
structure Search (K : Type) where
  hCent : K
  m : Option K
  hNew : K
  hPrev : K
  a : K
  b : K
  inc : Bool
  bis : Bool
  deriving Repr, DecidableEq

/-- TOV_solution.c:19-25, 46 the values before the loop; h_cent of TOV_init (calloc) is 0 -/
def Search.init : Search K := ⟨0, some 0, 3 / 2, 1, 0, 0, true, false⟩

/-- comparison of a double that may be not finite; false for NaN -/
def oEql (e : K) (m : Option K) (t : K) : Bool := m.elim false fun v => Tol.eql e v t
/-- LSS of a double that may be NaN -/
def oLss (e : K) (m : Option K) (t : K) : Bool := m.elim false fun v => Tol.lss e v t
/-- GRT of a double that may be NaN -/
def oGrt (e : K) (m : Option K) (t : K) : Bool := m.elim false fun v => Tol.grt e v t

/-- TOV_solution.c:57-90 one turn; `F hc` is the baryonic mass computed for central enthalpy hc -/
def turn (e : K) (F : K → Option K) (barM : K) (s : Search K) : Search K :=
  let m := F s.hNew
  let s := { s with hCent := s.hNew, m := m }
  let s :=
    if s.inc then
      if oLss e m barM then { s with hPrev := s.hNew, hNew := s.hNew + s.hNew * (1 / 4) }
      else { s with inc := false, bis := true, a := s.hPrev, b := s.hNew }
    else s
  if s.bis then
    let s := if oGrt e m barM then { s with b := s.hNew } else { s with a := s.hNew }
    { s with hNew := s.a + 1 / 2 * (s.b - s.a) }
  else s

/-- TOV_solution.c:55 the loop; at most `n` turns -/
def search (e : K) (F : K → Option K) (barM : K) : ℕ → Search K → Search K
  | 0, s => s
  | n + 1, s => if oEql e s.m barM then s else search e F barM n (turn e F barM s)

/-- TOV_solution.c:18 -/
def maxIter : ℕ := 1000

/-- TOV_solution.c:93-118 after the loop: `none` if the solution failed, else whether the status is set to 1, and bar_m -/
def verdict (e : K) (barM : K) (s : Search K) : Option (Bool × K) :=
  match s.m with
  | none => none
  | some m => if Tol.eql e m barM then some (false, barM) else some (true, m)

end finder

/-! ### the whole solution -/

/-- r, m, h: TOV_solution.c:48-50 -/
structure Profile where
  r : ℕ → ℝ
  m : ℕ → ℝ
  h : ℕ → ℝ

/-- phi, p, rbar, psi: TOV_solution.c:120-129 -/
structure Rest where
  phi : ℕ → ℝ
  p : ℕ → ℝ
  rbar : ℕ → ℝ
  psi : ℕ → ℝ

/-- TOV_T; an array that is NULL is `none` (p is allocated with r, m and h, but only filled with the others) -/
structure Out where
  status : ℕ
  hCent : ℝ
  barM : ℝ
  admM : ℝ
  prof : Option Profile
  rest : Option Rest

/-- every quotient and square root of `r_approx`, `m_approx`, of the four stages of every Runge-Kutta step and of
baryonic_mass_integrand is finite -/
def Finite (N : ℕ) (a : ℝ) : Prop :=
  0 < E.e a + 3 * E.p a ∧ E.e a ≠ 0 ∧
  (∀ i, 1 ≤ i → i + 1 < N →
    let s := stepSize N a
    let t := hAt N a i
    let y := star E N a i
    let den := fun (h : ℝ) (y : ℝ × ℝ) => y.2 + 4 * π * (y.1 * y.1 * y.1) * E.p h
    let k1 := (s * drdh E t y.1 y.2, s * dmdh E t y.1 y.2)
    let y2 := (y.1 + k1.1 / 2, y.2 + k1.2 / 2)
    let k2 := (s * drdh E (t + s / 2) y2.1 y2.2, s * dmdh E (t + s / 2) y2.1 y2.2)
    let y3 := (y.1 + k2.1 / 2, y.2 + k2.2 / 2)
    let k3 := (s * drdh E (t + s / 2) y3.1 y3.2, s * dmdh E (t + s / 2) y3.1 y3.2)
    let y4 := (y.1 + k3.1, y.2 + k3.2)
    den t y ≠ 0 ∧ den (t + s / 2) y2 ≠ 0 ∧ den (t + s / 2) y3 ≠ 0 ∧ den (t + s) y4 ≠ 0) ∧
  ∀ i, 1 ≤ i → i < N → (star E N a i).1 ≠ 0 ∧ 0 < 1 - 2 * (star E N a i).2 / (star E N a i).1 ∧
    (star E N a i).2 + 4 * π * ((star E N a i).1 * (star E N a i).1 * (star E N a i).1) * E.p (hAt N a i) ≠ 0

open Classical in
/-- TOV_solution.c:58-59: the mass that one turn of the search computes -/
noncomputable def massAt (N : ℕ) (a : ℝ) : Option ℝ :=
  if Finite E N a then
    match baryMass E N a with
    | .ok v => some v
    | _ => none
  else none

/-- all the values of a table with `N` entries, or the first stop -/
noncomputable def collect (N : ℕ) (g : ℕ → Res ℝ) : Res (ℕ → ℝ) :=
  (List.range N).foldl (fun acc i => acc.bind fun f => (g i).bind fun v => .ok (Function.update f i v)) (.ok fun _ => 0)

/-- TOV_solution.c:120-129 phi, p, rbar and psi of a star -/
noncomputable def fillRest (e : ℝ) (N : ℕ) (a : ℝ) : Res Rest :=
  (cRbar E N a).bind fun c =>
  (collect N (rbarAt E e N a c)).bind fun rb =>
    .ok ⟨phiAt E N a, fun i => E.p (hAt N a i), rb, psiAt c (fun i => (star E N a i).1) rb⟩

/-- TOV_solution.c:12-184 `TOV_solution`.  The order of the sanity checks of N: the arrays are written before the
integration refuses an even number of points.  The last check (lines 151-178) is left out: drbar_dh has stopped the
program already when one of these values is not finite (N > 3) -/
noncomputable def solution (e : ℝ) (N : ℕ) (exitIfError : Bool) (barM : ℝ) : Res Out :=
  if Tol.eql e barM 0 then .ok ⟨1, 0, barM, 0, none, none⟩
  else if N < 2 then .ub
  else if N % 2 ≠ 1 then .abort
  else
    let s := search e (massAt E N) barM maxIter Search.init
    let prof : Profile := ⟨fun i => (star E N s.hCent i).1, fun i => (star E N s.hCent i).2, hAt N s.hCent⟩
    match verdict e barM s with
    | none => if exitIfError then .abort else .ok ⟨1, s.hCent, barM, 0, some prof, none⟩
    | some (bad, bm) =>
      (massesDiffer E e N s.hCent).bind fun differ =>
      (fillRest E e N s.hCent).bind fun rest =>
        .ok ⟨if bad || differ then 1 else 0, s.hCent, bm, prof.m (N - 1), some prof, some rest⟩

/-! ### the project -/

/-- TOV_main.c:72-101 the three tables of `single_tov`, as lists of rows; reading an array that is NULL is undefined -/
noncomputable def singleTables (N : ℕ) (o : Out) : Res (List (ℝ × ℝ) × List (ℝ × ℝ) × List (ℝ × ℝ)) :=
  match o.prof, o.rest with
  | some pr, some re =>
    .ok ((List.range N).map fun i => (pr.r i, re.p i), (List.range N).map fun i => (pr.r i, pr.m i),
      (List.range N).map fun i => (pr.r i, re.rbar i))
  | _, _ => .ub

/-- TOV_main.c:49-102 `single_tov` -/
noncomputable def single (e : ℝ) (N : ℕ) (barM : ℝ) : Res (List (ℝ × ℝ) × List (ℝ × ℝ) × List (ℝ × ℝ)) :=
  (solution E e N true barM).bind (singleTables N)

/-- a row of tov_properties.txt: TOV_main.c:166-177, without rest_mass_density(r=0), which is eos->rest_mass_density -/
structure Row where
  bar : ℝ
  adm : ℝ
  radSch : ℝ
  radIso : ℝ
  p0 : ℝ
  e0 : ℝ
  h0 : ℝ
  compact : ℝ

/-- TOV_main.c:139-160 one row of `multiple_tov`; tov->N of a star that was not computed is 0 (calloc) -/
noncomputable def row (e : ℝ) (N : ℕ) (barM : ℝ) : Res Row :=
  (solution E e N true barM).bind fun o =>
    match o.prof, o.rest with
    | some pr, some re =>
      .ok ⟨barM, o.admM, pr.r (N - 1), re.rbar (N - 1), re.p 0, E.e (pr.h 0), pr.h 0, o.admM / pr.r (N - 1)⟩
    | _, _ => .ub

/-- TOV_main.c:109 number of rows; the conversion of a negative number to unsigned is undefined -/
noncomputable def rowCount (mi mf dm : ℝ) : Res ℕ :=
  if dm = 0 then .ub else if ⌈(mf - mi) / dm⌉ < 0 then .ub else .ok (⌈(mf - mi) / dm⌉.toNat + 1)

/-- the rows from the i-th on -/
noncomputable def rows (e : ℝ) (N : ℕ) (mi dm : ℝ) : (k i : ℕ) → Res (List Row)
  | 0, _ => .ok []
  | k + 1, i => (row E e N (mi + (i : ℝ) * dm)).bind fun x => (rows e N mi dm k (i + 1)).bind fun l => .ok (x :: l)

/-- TOV_main.c:103-192 `multiple_tov` -/
noncomputable def multiple (e : ℝ) (N : ℕ) (mi mf dm : ℝ) : Res (List Row) :=
  (rowCount mi mf dm).bind fun n => rows E e N mi dm n 0

end Elliptica.Tov
