import Verif.Model.Tol
/-!
Model of the one-dimensional interpolation methods, Src/Main/Modules/Maths/Spectral_Methods/interpolations.c:127-373 and
643-936.  `double` is an exact ordered field `K`; an array of length N is a function on ℕ of which only the entries below N
are read.  `e` is ROUND_OFF_ERR.  Simplification: sizes fit an unsigned int.
-/
namespace Elliptica.Interp

variable {K : Type} [Field K] [LinearOrder K]

/-! ### Neville -/

/-- interpolations.c:361-363 the table: `nev x f h j i` is q[i][j] -/
def nev (x f : ℕ → K) (h : K) : ℕ → ℕ → K
  | 0, i => f i
  | j + 1, i => ((h - x (i - (j + 1))) * nev x f h j i - (h - x i) * nev x f h j (i - 1)) / (x i - x (i - (j + 1)))

/-- interpolations.c:325-359 which entry of the table is used as the i-th point, and how many are used -/
def nevUsed (N max : ℕ) : ℕ × (ℕ → ℕ) :=
  if max ≠ 0 ∧ N > max ∧ N > 10 then
    (max, fun i => if i = 0 then 0 else if i = max - 1 then max - 1 else i * (N / max))
  else (N, fun i => i)

/-- interpolations.c:312-373 `interpolation_Neville_1d`; every pair of used points is subtracted in a denominator, equal
points make the result not a number (`ub`); no points at all reads q[-1][-1] (`ub`); `f = none` is a null pointer. -/
def neville (x : ℕ → K) (f : Option (ℕ → K)) (h : K) (N max : ℕ) : Res K :=
  match f with
  | none => .abort
  | some f =>
    let (M, u) := nevUsed N max
    if M = 0 then .ub
    else if (List.range M).any fun i => (List.range i).any fun j => x (u i) = x (u j) then .ub
    else .ok (nev (fun i => x (u i)) (fun i => f (u i)) h (M - 1) (M - 1))

/-! ### putting the table in increasing order -/

/-- interpolations.c:129-158 `order_arrays_natural_cubic_spline_1d` (and 691-733 for Hermite), on one array of the table;
`rv` is the outcome of the test at line 144 -/
def ordered (rv : Bool) (N : ℕ) (v : ℕ → K) : ℕ → K := if rv then fun i => v (N - 1 - i) else v

/-- interpolations.c:138-144: assert, the equal end points test and the order test -/
def orderTest (e : K) (N : ℕ) (x : ℕ → K) : Res Bool :=
  if N < 1 then .abort
  else if Tol.eql e (x 0) (x (N - 1)) then .abort
  else .ok (Tol.grt e (x 0) (x (N - 1)))

/-! ### natural cubic spline -/

section spline
variable (x a : ℕ → K)

/-- interpolations.c:176-177 -/
def hh (i : ℕ) : K := x (i + 1) - x i
/-- interpolations.c:178-179 (i ≥ 1) -/
def al (i : ℕ) : K := 3 * (a (i + 1) - a i) / hh x i - 3 * (a i - a (i - 1)) / hh x (i - 1)

/-- interpolations.c:181-189: (l, mu, z) -/
def lmz : ℕ → K × K × K
  | 0 => (1, 0, 0)
  | i + 1 =>
    let p := lmz i
    let l := 2 * (x (i + 2) - x i) - hh x i * p.2.1
    (l, hh x (i + 1) / l, (al x a (i + 1) - hh x i * p.2.2) / l)

/-- interpolations.c:190-205: `cDown n k` is c[n-k] -/
def cDown (n : ℕ) : ℕ → K
  | 0 => 0
  | k + 1 => (lmz x a (n - (k + 1))).2.2 - (lmz x a (n - (k + 1))).2.1 * cDown n k

/-- interpolations.c:190-205, c[i] -/
def cc (n i : ℕ) : K := cDown x a n (n - i)
/-- interpolations.c:197, 203 b[i] -/
def bb (n i : ℕ) : K := (a (i + 1) - a i) / hh x i - hh x i * (cc x a n (i + 1) + 2 * cc x a n i) / 3
/-- interpolations.c:198, 204 d[i] -/
def dd (n i : ℕ) : K := (cc x a n (i + 1) - cc x a n i) / 3 / hh x i

end spline

/-- interpolations.c:268-276 (and 662-670) the segment search; `k` segments are left, `i` is the current one -/
def segment (e h : K) (x : ℕ → K) : (k i : ℕ) → Option ℕ
  | 0, _ => none
  | k + 1, i => if Tol.grtEql e h (x i) && Tol.lssEql e h (x (i + 1)) then some i else segment e h x k (i + 1)

/-- interpolations.c:161-217 then 252-288: plan and evaluate the natural cubic spline; `none` is DBL_MAX -/
def spline (e : K) (N : ℕ) (x f : ℕ → K) (h : K) : Res (Option K) :=
  (orderTest e N x).bind fun rv =>
    let x := ordered rv N x
    let a := ordered rv N f
    let n := N - 1
    .ok ((segment e h x n 0).map fun i =>
      a i + bb x a n i * (h - x i) + cc x a n i * (h - x i) ^ 2 + dd x a n i * (h - x i) ^ 3)

/-- interpolations.c:161-217 then 647-681: plan and evaluate the derivative of the natural cubic spline -/
def splineDeriv (e : K) (N : ℕ) (x f : ℕ → K) (h : K) : Res (Option K) :=
  (orderTest e N x).bind fun rv =>
    let x := ordered rv N x
    let a := ordered rv N f
    let n := N - 1
    .ok ((segment e h x n 0).map fun i =>
      bb x a n i + 2 * cc x a n i * (h - x i) + 3 * dd x a n i * (h - x i) ^ 2)

/-! ### Hermite -/

/-- interpolations.c:758-767 the offset search -/
def offset (h : K) (x : ℕ → K) : (k i : ℕ) → Option ℕ
  | 0, _ => none
  | k + 1, i => if x i ≤ h ∧ h < x (i + 1) then some i else offset h x k (i + 1)

/-- interpolations.c:782-783: z[m] is the (m/2)-th used point -/
def zz (x : ℕ → K) (off m : ℕ) : K := x (off + m / 2)

/-- interpolations.c:780-808 the divided differences: `dq x f fp off j i` is q[i][j] (j ≤ i) -/
def dq (x f fp : ℕ → K) (off : ℕ) : ℕ → ℕ → K
  | 0, i => f (off + i / 2)
  | j + 1, i =>
    if j = 0 ∧ i % 2 = 1 then fp (off + i / 2)
    else (dq x f fp off j i - dq x f fp off j (i - 1)) / (zz x off i - zz x off (i - (j + 1)))

/-- interpolations.c:878-888 the evaluation loop: `o` turns done, returns (ret, h_x); after `o` turns `i` is off + o/2 -/
def hermEval (x f fp : ℕ → K) (off : ℕ) (h : K) : ℕ → K × K
  | 0 => (dq x f fp off 0 0 * 1, 1)
  | o + 1 =>
    let p := hermEval x f fp off h o
    let hx := p.2 * (h - x (off + o / 2))
    (p.1 + dq x f fp off (o + 1) (o + 1) * hx, hx)

/-- interpolations.c:73-99, 691-812 and 868-914: plan and evaluate the Hermite interpolation with `np` points.
`fp` is the derivative table (given by the caller, in the order of `x`, or found by finite differences). -/
def hermite (e : K) (N np : ℕ) (x f fp : ℕ → K) (h : K) : Res K :=
  if np = 0 then .abort
  else if np > N then .abort
  else
    (orderTest e N x).bind fun rv =>
      let x := ordered rv N x
      let f := ordered rv N f
      let fp := ordered rv N fp
      match offset h x (N - 1) 0 with
      | none => .abort
      | some off =>
        if off + (np - 1) ≥ N then .abort
        else .ok (hermEval x f fp off h (2 * (np - 1) + 1)).1

end Elliptica.Interp
