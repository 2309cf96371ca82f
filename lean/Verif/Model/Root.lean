import Verif.Model.General
/-!
Model of Src/Main/Modules/Maths/Equation_Solvings/root_finders.c (root finders).  `double` is an exact ordered field
(bisection) or `ℝ` (steepest descent, which takes square roots); `e` is ROUND_OFF_ERR.  Printing and timing are left
out, so `verbose` has no effect (in the code a verbose steepest descent also stops on a non-finite residual).
-/
namespace Elliptica.Root

/-- maths_equation_solvings_lib.h:482-491 (the exit status) -/
inductive Status | undef | ok | extrema | maxIter | noImprovement | interrupted | nan
deriving DecidableEq, Repr

/-! ### bisection -/

section
variable {K : Type} [Field K] [LinearOrder K]

/-- what a call of the bisection leaves behind: exit status, the solution slot and the residual (`none`: DBL_MAX or not a
number; the residual after an interruption is not modelled, it is the value of the interrupted evaluation) -/
structure Out (K : Type) where
  status : Status
  x : K
  residual : Option K
deriving DecidableEq, Repr

/-- one call of the user's function: a finite number, or not a number, or it sets root->interrupt -/
inductive Eval (K : Type) | val (v : K) | nan | interrupt
deriving DecidableEq, Repr

/-- root_finders.c:192-247, the loop; `fuel` turns are left (i ≤ MaxIter), `x` is the solution slot -/
def bisectLoop (e tol : K) (f : K → Eval K) : Nat → (a b fa x : K) → (res : Option K) → Out K
  | 0, _, _, _, x, res => ⟨.maxIter, x, res⟩
  | fuel + 1, a, b, fa, x, res =>
    let d := (1 / 2) * (b - a)
    let p := a + d
    match f p with
    | .interrupt => ⟨.interrupted, x, res⟩
    | .nan => ⟨.nan, x, none⟩
    | .val fp =>
      if Tol.eql e fp 0 || Tol.lss e |d| tol then ⟨.ok, p, some fp⟩
      else if fa * fp > 0 then bisectLoop e tol f fuel p b fp x (some fp)
      else bisectLoop e tol f fuel a p fa x (some fp)

/-- root_finders.c:143-266 `root_finder_bisect_single`; `nEq` is root->n and `x0` the content of the solution slot.
Simplification: the function is defined (finite, no interruption) at the two end points. -/
def bisect (e tol : K) (f : K → Eval K) (A B x0 : K) (nEq maxIter : Nat) : Res (Out K) :=
  if nEq ≠ 1 then .abort
  else
    match f A, f B with
    | .val fA, .val fB =>
      if fA * fB > 0 then .abort else .ok (bisectLoop e tol f maxIter A B fA x0 none)
    | _, _ => .ub

end

/-! ### steepest descent -/

open Finset

/-- a vector; only the entries below the number of unknowns matter -/
abbrev Vec := ℕ → ℝ

/-- root_finders.c:543-556 `g_SD` -/
noncomputable def gSD (fs : List (Vec → ℝ)) (x : Vec) : ℝ := (fs.map fun f => f x ^ 2).sum

/-- the step of the finite differences, root_finders.c:583-585, 609-611, 635-637; 10E-5 is 1e-4 -/
noncomputable def fdStep (x : Vec) (dir : ℕ) : ℝ :=
  let eps : ℝ := 10e-5
  if |x dir| * eps > eps then |x dir| * eps else eps

/-- how the gradient is found, root_finders.c:305-313 -/
inductive Diff | given (dfs : List (Vec → ℕ → ℝ)) | left | right | mid

/-- root_finders.c:560-653, the four `dg_dx_*` functions; the point is changed in place and restored -/
noncomputable def dgSD (fs : List (Vec → ℝ)) (D : Diff) (x : Vec) (dir : ℕ) : ℝ :=
  let h := fdStep x dir
  let g := gSD fs
  let sh := fun t : ℝ => Function.update x dir (x dir + t)
  match D with
  | .given dfs => 2 * ((fs.zip dfs).map fun p => p.1 x * p.2 x dir).sum
  | .mid => 0.5 * (g (sh h) - g (sh (-h))) / h
  | .right => 0.5 * (-3 * g x + 4 * g (sh h) - g (sh (2 * h))) / h
  | .left => 0.5 * (3 * g x - 4 * g (sh (-h)) + g (sh (-(2 * h)))) / h

/-- outcome of the line search root_finders.c:379-431 -/
inductive Line
  /-- still halving (only when the fuel is used up) -/
  | running
  | interrupted
  /-- the step became smaller than half the tolerance -/
  | small (y : Vec) (g3 : ℝ)
  | found (a3 g3 : ℝ)

/-- root_finders.c:366-369: x - alpha z -/
noncomputable def move (x z : Vec) (a : ℝ) : Vec := fun i => x i - a * z i

/-- root_finders.c:379-428: halve the step until the sum of squares is smaller.  `intr y` says that evaluating the
equations at `y` sets root->interrupt (the interruption is then noticed at line 437 at the latest). -/
noncomputable def lineLoop (tol : ℝ) (g : Vec → ℝ) (intr : Vec → Bool) (x z : Vec) (g1 : ℝ) : Nat → (a3 g3 : ℝ) → Line
  | 0, _, _ => .running
  | fuel + 1, a3, g3 =>
    if g3 ≥ g1 then
      let a := a3 / 2
      let y := move x z a
      if intr y then .interrupted
      else if a < 0.5 * tol then .small y (g y)
      else lineLoop tol g intr x z g1 fuel a (g y)
    else .found a3 g3

/-- how a turn of the main loop ends -/
inductive Turn
  | running
  | stop (s : Status) (x : Vec) (residual : Option ℝ)
  /-- accepted step: the new point and its sum of squares -/
  | next (x : Vec) (g : ℝ)
  /-- the three values of the line search are collinear (h3 = 0): the code divides by zero and goes on with infinities -/
  | overflow

/-- root_finders.c:326-487 one turn, up to the tolerance test.  `intrD` says that finding the gradient at `x` sets
root->interrupt. -/
noncomputable def turn (e tol : ℝ) (n : ℕ) (g : Vec → ℝ) (dg : Vec → ℕ → ℝ) (intr intrD : Vec → Bool) (fuel : ℕ) (x : Vec)
    (res : Option ℝ) : Turn :=
  let g1 := g x
  if intr x then .stop .interrupted x res
  else
    let z0 := General.rootSquare n (some (dg x)) none
    if Tol.eql e z0 0 then .stop .extrema x (some (√g1))
    else
      let z : Vec := fun i => dg x i / z0
      let y := move x z 1
      if intrD x || intr y then .stop .interrupted x res
      else
        match lineLoop tol g intr x z g1 fuel 1 (g y) with
        | .running => .running
        | .interrupted => .stop .interrupted x res
        | .small y g3 => .stop .noImprovement y (some (√g3))
        | .found a3 g3 =>
          let a2 := a3 * 0.5
          let y2 := move x z a2
          let g2 := g y2
          if intr y2 then .stop .interrupted x res
          else
            let h1 := (g2 - g1) / a2
            let h2 := (g3 - g2) / (a3 - a2)
            let h3 := (h2 - h1) / a3
            if h3 = 0 then .overflow
            else
              let a0 := 0.5 * (a2 - h1 / h3)
              let y0 := move x z a0
              let g0 := g y0
              if intr y0 then .stop .interrupted x res
              else
                let a := if g0 < g3 then a0 else a3
                .next (move x z a) (if g0 < g3 then g0 else g3)

/-- what a call of the steepest descent leaves behind -/
inductive SD
  | running
  | overflow
  | done (s : Status) (x : Vec) (residual : Option ℝ)

/-- root_finders.c:325-506 the main loop; `k` turns are left; each line search gets `fuel` halvings (in the code it has
no limit) -/
noncomputable def sdLoop (e tol : ℝ) (n : ℕ) (g : Vec → ℝ) (dg : Vec → ℕ → ℝ) (intr intrD : Vec → Bool) (fuel : ℕ) :
    Nat → Vec → Option ℝ → SD
  | 0, x, res => .done .undef x res
  | k + 1, x, res =>
    match turn e tol n g dg intr intrD fuel x res with
    | .running => .running
    | .overflow => .overflow
    | .stop s x r => .done s x r
    | .next x' g' =>
      if |g' - g x| < tol then .done .ok x' (some (√g'))
      else if k = 0 then .done .maxIter x' (some (√g'))
      else sdLoop e tol n g dg intr intrD fuel k x' (some (√g'))

/-- root_finders.c:272-517 `root_finder_steepest_descent`; `gss` = none: no guess, the solution slot `x0` is used -/
noncomputable def steepest (e tol : ℝ) (n : ℕ) (fs : List (Vec → ℝ)) (D : Diff) (intr intrD : Vec → Bool) (fuel maxIter : ℕ)
    (gss : Option Vec) (x0 : Vec) : SD :=
  sdLoop e tol n (gSD fs) (dgSD fs D) intr intrD fuel maxIter (gss.getD x0) none

end Elliptica.Root
