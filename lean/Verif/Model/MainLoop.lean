import Verif.Model.Common
/-!
Model of the iteration control, /repo/Src/Main/Core/parameters.c:896-1016 `update_iteration_params`.

The parameters `<prefix>iteration`, `<prefix>resolution_iteration`, `<prefix>STOP` and
`<prefix>did_resolution_change?` are integers read with Pgeti and written with Pseti; here they are
the fields of `Ctl` (that Pseti/Pgeti round-trip is property C04).  Directory creation and the copy of
the parameter file are not modelled; the directory name that `sprintf(dir_name_format,stem,n_a,n_b,n_c)`
yields is the function `folder`.
-/
namespace Elliptica.MainLoop

structure Ctl where
  iteration : Nat
  resolutionIteration : Nat
  stop : Bool
  didResolutionChange : Bool
deriving DecidableEq, Repr

/-- parameters.c:896-1016.  `total` = `total_iterations_ip()` (cached in a parameter, hence constant),
`loop` = the argument `main_loop_iter`, `nAt i` = the value of (n_a,n_b,n_c) once the iterative
parameters are set for iteration `i`, `nNow` = their value at the call.
Returns (return value != 0, iteration number worked on, new control block, new resolution). -/
def update (folder : Nat × Nat × Nat → Str) (nAt : Nat → Nat × Nat × Nat) (total loop : Nat)
    (c : Ctl) (nNow : Nat × Nat × Nat) : Bool × Nat × Ctl × (Nat × Nat × Nat) :=
  -- 938-949
  let iter := if c.iteration > loop then c.iteration else loop
  let stored := if c.iteration > loop then iter + 1 else iter
  if iter ≥ total then
    -- 952-957
    (true, iter, { c with stop := true, iteration := iter }, nNow)
  else
    let next := nAt iter
    -- 982-1013
    if folder next ≠ folder nNow ∨ iter = 0 then
      (false, iter, { c with iteration := stored, resolutionIteration := 0, didResolutionChange := true }, next)
    else
      (false, iter, { c with iteration := stored, resolutionIteration := c.resolutionIteration + 1,
                             didResolutionChange := false }, next)

/-- A driver that calls `update_iteration_params(0)`, `(1)`, `(2)`, ... until it returns non-zero and
performs one unit of work per call that returns zero.  (The drivers of the initial-data projects are
not in this repository; this is the calling convention documented at parameters.c:893-895, 936-937.)
`fuel` bounds the number of calls; returns the iteration numbers worked on, whether the loop stopped,
and the final control block. -/
def drive (folder : Nat × Nat × Nat → Str) (nAt : Nat → Nat × Nat × Nat) (total : Nat) :
    Nat → Nat → Ctl → (Nat × Nat × Nat) → List Nat × Bool × Ctl
  | 0, _, c, _ => ([], false, c)
  | fuel + 1, loop, c, nNow =>
    match update folder nAt total loop c nNow with
    | (true, _, c', _) => ([], true, c')
    | (false, iter, c', nNext) =>
      let r := drive folder nAt total fuel (loop + 1) c' nNext
      (iter :: r.1, r.2.1, r.2.2)

end Elliptica.MainLoop
