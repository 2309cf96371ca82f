import Verif.Model.Cheb
/-!
Model of Src/Main/Modules/Maths/General/general.c:8-354 (norms and closed-form sums) over `ℝ`; `e` is ROUND_OFF_ERR,
M_PI is π, libm's functions are the mathematical ones.  Integer products are assumed to fit an int.
-/
namespace Elliptica.General
open Real Finset Elliptica.Cheb

/-! ### norms -/

/-- Includes/maths_general_lib.h:13 ABSd -/
noncomputable def absd (x : ℝ) : ℝ := if x > 0 then x else -x

/-- general.c:10-30 `root_square` (and 65-85 `root_square_long`); a null pointer is `none` -/
noncomputable def rootSquare (n : ℕ) (v2 v1 : Option (ℕ → ℝ)) : ℝ :=
  match v2, v1 with
  | none, none => 0
  | some w, none => √(∑ i ∈ range n, w i * w i)
  | none, some w => √(∑ i ∈ range n, w i * w i)
  | some a, some b => √(∑ i ∈ range n, (a i - b i) * (a i - b i))

/-- general.c:35-38 `L2_norm` -/
noncomputable def l2Norm (n : ℕ) (v2 v1 : Option (ℕ → ℝ)) : ℝ := rootSquare n v2 v1 / √n

/-- general.c:43-62 `L1_norm` -/
noncomputable def l1Norm (n : ℕ) (v2 v1 : Option (ℕ → ℝ)) : ℝ :=
  match v2, v1 with
  | none, none => 0
  | some w, none => (∑ i ∈ range n, absd (w i)) / n
  | none, some w => (∑ i ∈ range n, absd (w i)) / n
  | some a, some b => (∑ i ∈ range n, absd (a i - b i)) / n

/-- general.c:90-99 `dot` -/
noncomputable def dot (n : ℕ) (v2 v1 : ℕ → ℝ) : ℝ := ∑ i ∈ range n, v2 i * v1 i

/-- general.c:325-328 `MaxMag_d` -/
noncomputable def maxMag (a b : ℝ) : ℝ := if absd a > absd b then absd a else absd b

/-- general.c:340-351, the loop of `L_inf` over indices 1..N-1 -/
noncomputable def lInfLoop (v : ℕ → ℝ) : List ℕ → ℝ → ℝ
  | [], m => m
  | i :: is, m => lInfLoop v is (if absd (v i) > m then absd (v i) else m)

/-- general.c:333-354 `L_inf`: an empty array stops the program -/
noncomputable def lInf (N : ℕ) (v : Option (ℕ → ℝ)) : Res ℝ :=
  match v with
  | none => .abort
  | some v => if N = 0 then .abort else .ok (lInfLoop v (List.range' 1 (N - 1)) (absd (v 0)))

/-! ### sums -/

/-- general.c:302-317 `sum_1_N_cos_ia` -/
noncomputable def sumCos (e : ℝ) (N : ℕ) (a : ℝ) : ℝ :=
  if Tol.eql e a 0 || Tol.eql e a (2 * π) then N
  else -0.5 + 0.5 * sin ((N + 0.5) * a) / sin (0.5 * a)

/-- general.c:216-223 (and 253-271): Σ i² cos(i b) for sin(b/2) ≠ 0; Csc(x) is 1/sin(x) -/
noncomputable def sqCos (N : ℕ) (b : ℝ) : ℝ :=
  ((1 / sin (b / 2)) ^ 3 * ((1 + N) ^ 2 * sin ((0.5 - N) * b) + (-1 + 2 * N + 2 * (N : ℝ) ^ 2) * sin ((0.5 + N) * b)
    - (N : ℝ) ^ 2 * sin ((1.5 + N) * b))) / 8

/-- general.c:279-283 (and 289-299): derivative of Σ cos(i g) with respect to g -/
noncomputable def dCos (N : ℕ) (g : ℝ) : ℝ :=
  ((1 / sin (g / 2)) * ((1 + 2 * N) * cos ((0.5 + N) * g) - (cos (g / 2) / sin (g / 2)) * sin ((0.5 + N) * g))) / 4

/-- general.c:197-300 `d_dq_sum_1_N_cos_ixb_cos_ixa` (N ≥ 0) -/
noncomputable def dSum (e : ℝ) (N : ℕ) (b a : ℝ) : ℝ :=
  if Tol.eql e a 0 then
    if Tol.eql e b 0 then (N * (N + 1) * (2 * N + 1) : ℝ) / 6
    else sqCos N b
  else if Tol.eql e a π then
    if Tol.eql e b 0 then
      if N % 2 = 0 then let k := (N : ℝ) / 2; -(2 * k ^ 2 + k)
      else let k := ((N : ℝ) - 1) / 2; 2 * k ^ 2 + 3 * k + 1
    else if Tol.eql e b π then -(N * (N + 1) * (2 * N + 1) : ℝ) / 6
    else (sqCos N (a + b) + sqCos N (a - b)) / (-2)
  else
    if Tol.eql e (a - b) 0 then dCos N (a + b) / (-2 * sin a)
    else (dCos N (a + b) + dCos N (a - b)) / (-2 * sin a)

/-- general.c:155-195 `sum_0_N_dCi_dfj_by_Ti_q` -/
noncomputable def sumT (e : ℝ) (N j : ℕ) (q : ℝ) : Res ℝ :=
  if q < -1 ∨ q > 1 then .abort
  else if j ≥ N then .abort
  else
    let scale := 0.5 / ((N : ℝ) - 1)
    let th := arccos q
    .ok ((if j = 0 then 1 + cos ((N - 1) * th) + 2 * sumCos e (N - 2) th
      else if j = N - 1 then 1 + sign j * cos ((N - 1) * th) + sumCos e (N - 2) (th + π) + sumCos e (N - 2) (th - π)
      else (1 + sign j * cos ((N - 1) * th) + sumCos e (N - 2) (th + j * π / (N - 1))
        + sumCos e (N - 2) (th - j * π / (N - 1))) * 2) * scale)

/-- general.c:114-153 `sum_0_N_dCi_dfj_by_dTi_dq` -/
noncomputable def sumDT (e : ℝ) (N j : ℕ) (q : ℝ) : Res ℝ :=
  if q < -1 ∨ q > 1 then .abort
  else if j ≥ N then .abort
  else
    let scale := 0.5 / ((N : ℝ) - 1)
    let a := arccos q
    .ok ((if j = 0 then (N - 1) * chebU e ((N : ℤ) - 2) q + 2 * dSum e (N - 2) 0 a
      else if j = N - 1 then (N - 1) * chebU e ((N : ℤ) - 2) q * sign j + 2 * dSum e (N - 2) π a
      else 2 * (N - 1) * chebU e ((N : ℤ) - 2) q * sign j + 4 * dSum e (N - 2) (j * π / (N - 1)) a) * scale)

end Elliptica.General
