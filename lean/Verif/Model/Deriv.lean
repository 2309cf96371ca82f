import Verif.Model.Cheb
/-!
Model of the spectral partial derivatives, Src/Main/Modules/Maths/Calculus/derivatives.c:211-500, 555-1094, with the
Jacobians between normalised, patch and Cartesian coordinates, Src/Main/Modules/Manifold/coordinate_systems.c:319-508 and
cartesian_coordinate.c:41-55, over `ℝ`.
-/
namespace Elliptica.Deriv
open Real Finset Elliptica.Index Elliptica.Cheb

inductive Coll where | equi | extrema | nodes
deriving DecidableEq
inductive Basis where | tn | other
deriving DecidableEq
inductive Sys where | cartesian | cubed | other
deriving DecidableEq

/-- manifold_lib.h:79-93 `Dd_T`: _N0_,_N1_,_N2_ = 0..2, _x_,_y_,_z_ = 3..5, _a_,_b_,_c_ = 6..8 -/
inductive Dir where
  | N (d : Fin 3)
  | x (d : Fin 3)
  | a (d : Fin 3)
deriving DecidableEq

/-- `dir % 3` -/
def Dir.mod3 : Dir → Fin 3
  | .N d => d
  | .x d => d
  | .a d => d

/-- the entries of Patch_T that are used; `jt q2 q1 p` is the Jacobian function of a cubed-spherical patch -/
structure Patch where
  n : Fin 3 → ℕ
  mn : Fin 3 → ℝ
  mx : Fin 3 → ℝ
  coll : Fin 3 → Coll
  basis : Fin 3 → Basis
  sys : Sys
  jt : Dir → Dir → ℕ → ℝ

variable (e : ℝ) (p : Patch)

/-- utilities_lib.h: linear index of a triple -/
def idx (t : Fin 3 → ℕ) : ℕ := ijk (p.n 1) (p.n 2) (t 0) (t 1) (t 2)

/-- utilities_lib.h:141-149 `ijk_to_i_j_k` -/
def coords (l : ℕ) : Fin 3 → ℕ
  | 0 => toI (p.n 1) (p.n 2) l
  | 1 => toJ (p.n 1) (p.n 2) l
  | 2 => toK (p.n 1) (p.n 2) l

/-- coordinate_systems.c:283-311 `point_value`, for the Chebyshev collocations -/
noncomputable def ptv (d : Fin 3) (i : ℕ) : ℝ :=
  match p.coll d with
  | .equi => p.mn d + (p.mx d - p.mn d) / ((p.n d : ℝ) - 1) * i
  | .extrema => pointExtrema (p.mn d) (p.mx d) (p.n d) i
  | .nodes => pointNodes (p.mn d) (p.mx d) (p.n d) i

/-- cartesian_coordinate.c:41-55 `JT_Cartesian_patch`, or the function of the cubed-spherical patch -/
noncomputable def jacT (q2 q1 : Dir) (l : ℕ) : ℝ :=
  match p.sys with
  | .cartesian => if q2.mod3 = q1.mod3 then 1 else 0
  | _ => p.jt q2 q1 l

/-- coordinate_systems.c:368-397 `dN_dX`; for equi-spaced points the C function stops (not reached: see `funcsOk`) -/
noncomputable def dNdX (q2 q1 : Dir) : ℝ :=
  match p.coll q1.mod3 with
  | .equi => 0
  | .extrema => if q2.mod3 = q1.mod3 then 2 / (-p.mx q1.mod3 + p.mn q1.mod3) else 0
  | .nodes => if q2.mod3 = q1.mod3 then 2 / (-p.mx q1.mod3 + p.mn q1.mod3) else 0

/-- coordinate_systems.c:402-441 `dN_dq`, with q2 = N_d -/
noncomputable def dNdq (d : Fin 3) (q1 : Dir) (l : ℕ) : ℝ :=
  match q1 with
  | .x j =>
    match p.basis d with
    | .tn => dNdX p (.N d) (.a d) * jacT p (.a d) (.x j) l
    | .other => dNdX p (.N d) (.a 0) * jacT p (.a 0) (.x j) l + dNdX p (.N d) (.a 1) * jacT p (.a 1) (.x j) l
        + dNdX p (.N d) (.a 2) * jacT p (.a 2) (.x j) l
  | q1 => dNdX p (.N d) q1

/-- coordinate_systems.c:337-363 `dq2_dq1` for q2 = N_d -/
noncomputable def dNdq1 (d : Fin 3) (q1 : Dir) (l : ℕ) : ℝ := if .N d = q1 then 1 else dNdq p d q1 l

/-- field.c:569-596: the transformation of direction `d` chosen by basis and collocation -/
noncomputable def tr (d : Fin 3) (v : ℕ → ℝ) (i : ℕ) : ℝ :=
  match p.coll d with
  | .equi => 0
  | .extrema => extremaCoeff (p.n d) v i
  | .nodes => nodesCoeff (p.n d) v i

/-- derivatives.c:664-737 `derivative_ChebyshevExtrema_Tn_1stOrder` (three copies of the loop, one for each direction; the
points are those of 1065-1077) -/
noncomputable def ext1 (d : Fin 3) (co : Coeff.Data ℝ) (t : Fin 3 → ℕ) : ℝ :=
  let B := p.n d - 1
  let x := cos (t d * (π / ((p.n d : ℝ) - 1)))
  (∑ c ∈ Ico 1 B, c * co (idx p (Function.update t d c)) * chebU e ((c : ℤ) - 1) x) * 2
    + B * co (idx p (Function.update t d B)) * chebU e ((B : ℤ) - 1) x

/-- derivatives.c:744-811 `derivative_ChebyshevNodes_Tn_1stOrder`, points of 1083-1094 -/
noncomputable def nod1 (d : Fin 3) (co : Coeff.Data ℝ) (t : Fin 3 → ℕ) : ℝ :=
  let B := p.n d
  let x := cos ((t d + 0.5) * (π / (p.n d : ℝ)))
  (∑ c ∈ Ico 1 B, c * co (idx p (Function.update t d c)) * chebU e ((c : ℤ) - 1) x) * 2

/-- derivatives.c:818-888 `derivative_ChebyshevExtrema_Tn_2ndOrder` -/
noncomputable def ext2 (d : Fin 3) (co : Coeff.Data ℝ) (t : Fin 3 → ℕ) : ℝ :=
  let B := p.n d - 1
  let x := cos (t d * (π / ((p.n d : ℝ) - 1)))
  (∑ c ∈ Ico 2 B, co (idx p (Function.update t d c)) * d2ChebT e c x) * 2
    + co (idx p (Function.update t d B)) * d2ChebT e B x

/-- derivatives.c:895-961 `derivative_ChebyshevNodes_Tn_2ndOrder` -/
noncomputable def nod2 (d : Fin 3) (co : Coeff.Data ℝ) (t : Fin 3 → ℕ) : ℝ :=
  let B := p.n d
  let x := cos ((t d + 0.5) * (π / (p.n d : ℝ)))
  (∑ c ∈ Ico 2 B, co (idx p (Function.update t d c)) * d2ChebT e c x) * 2

/-- one of the four functions above: coefficients from the cache, then the loop over all points.  One point only makes
the extrema formula divide by zero. -/
noncomputable def specDer (second : Bool) (f : Coeff.St ℝ) (d : Fin 3) : Res (Coeff.St ℝ × Coeff.Data ℝ) :=
  if p.coll d = .extrema ∧ p.n d < 2 then .ub
  else (Coeff.make1 p.n (tr p) f d).bind fun r =>
    .ok (r.1, fun l =>
      match p.coll d, second with
      | .extrema, false => ext1 e p d r.2 (coords p l)
      | .extrema, true => ext2 e p d r.2 (coords p l)
      | .nodes, false => nod1 e p d r.2 (coords p l)
      | .nodes, true => nod2 e p d r.2 (coords p l)
      | .equi, _ => 0)

/-- derivatives.c:334-352 and 967-986 `get_SpecDerivative_func_2ndOrder`, `get_SpecDerivative_func_1stOrder`: all three
directions must have the basis and collocation of some formula, otherwise the program stops -/
def funcsOk : Bool := decide (∀ d : Fin 3, p.basis d = .tn ∧ (p.coll d = .extrema ∨ p.coll d = .nodes))

/-- derivatives.c:1003-1028 `get_dependency` -/
def depend (dir : Dir) : Res (Fin 3 → Bool) :=
  match p.sys with
  | .cartesian => .ok fun d => decide (d = dir.mod3)
  | .cubed => .ok fun _ => true
  | .other => .abort

/-- one entry of the loop derivatives.c:584-593 / 421-431: df_dp[d] when the direction is used -/
noncomputable def maybe (second : Bool) (dep : Fin 3 → Bool) (f : Coeff.St ℝ) (d : Fin 3) :
    Res (Coeff.St ℝ × Option (Coeff.Data ℝ)) :=
  if dep d then (specDer e p second f d).bind fun r => .ok (r.1, some r.2) else .ok (f, none)

/-- derivatives.c:595-647 the branches on the flags, at one point; `J d` is dq2_dq1(patch,dp[d],dir_e,i) -/
noncomputable def combine (D0 D1 D2 : Option (Coeff.Data ℝ)) (J : Fin 3 → ℝ) (l : ℕ) : ℝ :=
  match D0, D1, D2 with
  | some a, some b, some c => a l * J 0 + b l * J 1 + c l * J 2
  | some a, some b, none => a l * J 0 + b l * J 1
  | none, some b, some c => b l * J 1 + c l * J 2
  | some a, _, _ => a l * J 0
  | none, some b, none => b l * J 1
  | none, none, some c => c l * J 2
  | none, none, none => 0

/-- derivatives.c:568-656 `spectral_derivative_1stOrder` -/
noncomputable def first (f : Coeff.St ℝ) (dir : Dir) : Res (Coeff.St ℝ × Coeff.Data ℝ) :=
  if funcsOk p = false then .abort
  else (depend p dir).bind fun dep =>
    (maybe e p false dep f 0).bind fun r0 =>
    (maybe e p false dep r0.1 1).bind fun r1 =>
    (maybe e p false dep r1.1 2).bind fun r2 =>
    .ok (r2.1, fun l => combine r0.2 r1.2 r2.2 (fun d => dNdq1 p d dir l) l)

/-- derivatives.c:436-470 the branches of the second-order formula, at one point -/
noncomputable def combine2 (D0 D1 D2 : Option (Coeff.Data ℝ)) (J : Fin 3 → ℝ) (l : ℕ) : ℝ :=
  match D0, D1, D2 with
  | some a, _, _ => a l * (J 0 * J 0)
  | none, some b, _ => b l * (J 1 * J 1)
  | none, none, some c => c l * (J 2 * J 2)
  | none, none, none => 0

/-- derivatives.c:403-480 `spectral_derivative_2ndOrder` with assert(c == 1) -/
noncomputable def second (f : Coeff.St ℝ) (dir : Dir) : Res (Coeff.St ℝ × Coeff.Data ℝ) :=
  if funcsOk p = false then .abort
  else (depend p dir).bind fun dep =>
    (maybe e p true dep f 0).bind fun r0 =>
    (maybe e p true dep r0.1 1).bind fun r1 =>
    (maybe e p true dep r1.1 2).bind fun r2 =>
    if (([0, 1, 2] : List (Fin 3)).filter fun d => dep d).length ≠ 1 then .abort
    else .ok (r2.1, fun l => combine2 r0.2 r1.2 r2.2 (fun d => dNdq1 p d dir l) l)

/-- derivatives.c:268-330 `IsSecondOrderFormula` with `get_dp_2ndOrder` and `JacobianFormat_2ndOrder` -/
def isSecond (dirs : List Dir) : Res Bool :=
  match dirs with
  | [d0, d1] =>
    if d0 ≠ d1 then .ok false
    else if funcsOk p = false then .abort
    else (depend p d0).bind fun dep =>
      if (([0, 1, 2] : List (Fin 3)).filter fun d => dep d).length > 1 then .ok false
      else match p.sys with
        | .cartesian => .ok (decide (dep d0.mod3))
        | _ => .abort
  | _ => .ok false

/-- derivatives.c:238-250 the loop over the remaining directions: `ff0`, `ff1` are the values of the two temporary fields
(`none` = freed), `i` the counter, `cur` the last derivative.  Each temporary field has no coefficients when used; a
field without values stops the program (field.c:606, 692 `assert(f->v)`); `ff` has two entries. -/
noncomputable def chain : ℕ → List Dir → Option (Coeff.Data ℝ) → Option (Coeff.Data ℝ) → Coeff.Data ℝ → Res (Coeff.Data ℝ)
  | _, [], _, _, cur => .ok cur
  | i, dir :: ds, ff0, ff1, _ =>
    let bck := i / 2
    let frd := i % 2
    if 2 ≤ bck then .ub
    else match (if bck = 0 then ff0 else ff1) with
    | none => .abort
    | some v => (first e p ⟨v, none, none⟩ dir).bind fun r =>
        let g0 := if frd = 0 then some r.2 else ff0
        let g1 := if frd = 0 then ff1 else some r.2
        chain (i + 1) ds (if bck = 0 then none else g0) (if bck = 0 then g1 else none) r.2

/-- derivatives.c:215-262 `take_spectral_derivative` of a 3-dimensional field -/
noncomputable def takeDer (f : Coeff.St ℝ) (dirs : List Dir) : Res (Coeff.St ℝ × Coeff.Data ℝ) :=
  match dirs with
  | [] => .abort
  | d0 :: ds =>
    (isSecond p dirs).bind fun s =>
      if s then second e p f d0
      else (first e p f d0).bind fun r => (chain e p 1 ds (some r.2) none r.2).bind fun v => .ok (r.1, v)

/-! ### dq/dN -/

/-- coordinate_systems.c:453-465 the matrix a_rs = dN_r/dx_s -/
noncomputable def mA (l : ℕ) (r s : Fin 3) : ℝ := dNdq1 p r (.x s) l

/-- coordinate_systems.h:3-11 ADJ_rs -/
noncomputable def adj (m : Fin 3 → Fin 3 → ℝ) : Fin 3 → Fin 3 → ℝ
  | 0, 0 => m 1 1 * m 2 2 - m 1 2 * m 2 1
  | 0, 1 => -m 0 1 * m 2 2 + m 0 2 * m 2 1
  | 0, 2 => m 0 1 * m 1 2 - m 0 2 * m 1 1
  | 1, 0 => -m 1 0 * m 2 2 + m 1 2 * m 2 0
  | 1, 1 => m 0 0 * m 2 2 - m 0 2 * m 2 0
  | 1, 2 => -m 0 0 * m 1 2 + m 0 2 * m 1 0
  | 2, 0 => m 1 0 * m 2 1 - m 1 1 * m 2 0
  | 2, 1 => -m 0 0 * m 2 1 + m 0 1 * m 2 0
  | 2, 2 => m 0 0 * m 1 1 - m 0 1 * m 1 0

/-- coordinate_systems.c:462-464 -/
noncomputable def det (m : Fin 3 → Fin 3 → ℝ) : ℝ :=
  m 0 0 * m 1 1 * m 2 2 - m 0 0 * m 1 2 * m 2 1 - m 0 1 * m 1 0 * m 2 2 + m 0 1 * m 1 2 * m 2 0 +
    m 0 2 * m 1 0 * m 2 1 - m 0 2 * m 1 1 * m 2 0

/-- coordinate_systems.c:446-508 `dq_dN` for q = x,y,z (other q: INCOMPLETE_FUNC); a zero determinant divides by zero -/
noncomputable def dqdN (q : Dir) (b : Fin 3) (l : ℕ) : Res ℝ :=
  match q with
  | .x a => if det (mA p l) = 0 then .ub else .ok (adj (mA p l) a b / det (mA p l))
  | _ => .abort

end Elliptica.Deriv
