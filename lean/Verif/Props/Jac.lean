import Verif.Lemmas.Jac
/-!
C68: the numbers that the Newton method uses as derivatives of the spectral derivatives with respect to the values at the
grid points.
-/
namespace Elliptica.Jac
open Real Finset Elliptica.Index Elliptica.Cheb Elliptica.Deriv

variable {e : ℝ} {p : Patch}

/-! ### points -/

theorem idx_lt (t : Fin 3 → ℕ) (ht : Inside p t) : idx p t < nn p :=
  C10_in_range (p.n 0) (p.n 1) (p.n 2) (t 0) (t 1) (t 2) (ht 0) (ht 1) (ht 2)

theorem coords_inside (l : ℕ) (hl : l < nn p) : Inside p (coords p l) ∧ idx p (coords p l) = l := by
  obtain ⟨a, b, c, d⟩ := C10_encode_decode (p.n 0) (p.n 1) (p.n 2) l hl
  refine ⟨fun j => ?_, d⟩
  match j with
  | 0 => exact a
  | 1 => exact b
  | 2 => exact c

/-- a sum over the points of the patch -/
theorem sum_nn (g : ℕ → ℝ) : ∑ l ∈ range (nn p), g l =
    ∑ i ∈ range (p.n 0), ∑ j ∈ range (p.n 1), ∑ k ∈ range (p.n 2), g (idx p ![i, j, k]) := by
  simp only [← sum_product']
  symm
  refine sum_bij' (fun t _ => idx p ![t.1, t.2.1, t.2.2]) (fun l _ => (coords p l 0, coords p l 1, coords p l 2)) ?_ ?_ ?_ ?_ ?_
  · rintro ⟨i, j, k⟩ h
    simp only [mem_product, mem_range] at h ⊢
    exact idx_lt _ (fun d => by match d with | 0 => exact h.1 | 1 => exact h.2.1 | 2 => exact h.2.2)
  · intro l h
    simp only [mem_product, mem_range] at h ⊢
    have := (coords_inside l h).1
    exact ⟨this 0, this 1, this 2⟩
  · rintro ⟨i, j, k⟩ h
    simp only [mem_product, mem_range] at h
    have : Inside p ![i, j, k] := fun d => by match d with | 0 => exact h.1 | 1 => exact h.2.1 | 2 => exact h.2.2
    simp only [coords_idx _ this]
    rfl
  · intro l h
    simp only [mem_range] at h
    have := (coords_inside l h).2
    conv_rhs => rw [← this]
    rfl
  · intros; rfl

/-! ### the optimised functions are the plain ones -/

/-- a workspace with anything in it -/
def anyPts : Pts := ⟨0, 0, 0, 0, 0, 0, 0, 0, 0, 0, 0, 0⟩

section
variable (hp : Good e p)
include hp

theorem coords_ijk (i j k : ℕ) (hi : i < p.n 0) (hj : j < p.n 1) (hk : k < p.n 2) :
    coords p (Index.ijk (p.n 1) (p.n 2) i j k) 0 = i ∧ coords p (Index.ijk (p.n 1) (p.n 2) i j k) 1 = j ∧
      coords p (Index.ijk (p.n 1) (p.n 2) i j k) 2 = k := by
  have : Inside p ![i, j, k] := fun d => by match d with | 0 => exact hi | 1 => exact hj | 2 => exact hk
  have h := coords_idx _ this
  exact ⟨congrFun h 0, congrFun h 1, congrFun h 2⟩

/-- **C68 (optimised and plain, first derivatives).** Whatever the workspace held before, the optimised function returns
what the plain formula does. -/
theorem C68_opt_first (w : Pts) (x : Fin 3) (ijk lmn : ℕ) :
    entry1 e p w x ijk lmn = d2f e p x ijk lmn := by
  unfold entry1 d2fO d2f
  have h0 := axisO_plain hp x 0 ijk (coords p ijk 0) (coords p lmn 0) rfl
  have h1 := axisO_plain hp x 1 ijk (coords p ijk 1) (coords p lmn 1) rfl
  have h2 := axisO_plain hp x 2 ijk (coords p ijk 2) (coords p lmn 2) rfl
  simp only [wsLmn, wsIjk, kd]
  by_cases a : coords p ijk 0 = coords p lmn 0 <;> by_cases b : coords p ijk 1 = coords p lmn 1 <;>
    by_cases c : coords p ijk 2 = coords p lmn 2 <;> simp [a, b, c] <;> simp_all

/-- **C68 (optimised and plain, second derivatives).** -/
theorem C68_opt_second (w : Pts) (dxdy ijk lmn : ℕ) (h1 : ijk < nn p) (h2 : lmn < nn p) :
    entry2 e p w dxdy ijk lmn = d3f e p dxdy ijk lmn := by
  obtain ⟨t1, -⟩ := coords_inside ijk h1
  obtain ⟨t2, -⟩ := coords_inside lmn h2
  have B : ∀ X qj, d2fdudxO e p (setWork e p) (ax (axes dxdy).2) X ijk (coords p ijk X) qj =
      d2fdudx e p (ax (axes dxdy).2) X ijk (coords p ijk X) qj := fun X qj => axisO_plain hp _ X ijk _ qj rfl
  have A := fun X l qi qj => axisO_plain hp (ax (axes dxdy).1) X l qi qj
  have e0 := fun lp (h : lp < p.n 0) qj => A 0 _ lp qj (coords_ijk hp lp _ _ h (t2 1) (t2 2)).1
  have e1 := fun mp (h : mp < p.n 1) qj => A 1 _ mp qj (coords_ijk hp _ mp _ (t2 0) h (t2 2)).2.1
  have e2 := fun np (h : np < p.n 2) qj => A 2 _ np qj (coords_ijk hp _ _ np (t2 0) (t2 1) h).2.2
  have s0 : ∑ lp ∈ range (p.n 0), d2fdudxO e p (setWork e p) (ax (axes dxdy).1) 0
        (Index.ijk (p.n 1) (p.n 2) lp (coords p lmn 1) (coords p lmn 2)) lp (coords p lmn 0) *
        d2fdudxO e p (setWork e p) (ax (axes dxdy).2) 0 ijk (coords p ijk 0) lp = ∑ lp ∈ range (p.n 0), d2fdudx e p (ax (axes dxdy).1) 0
        (Index.ijk (p.n 1) (p.n 2) lp (coords p lmn 1) (coords p lmn 2)) lp (coords p lmn 0) *
        d2fdudx e p (ax (axes dxdy).2) 0 ijk (coords p ijk 0) lp :=
    sum_congr rfl fun lp h => by rw [e0 lp (mem_range.1 h), B]
  have s1 : ∑ mp ∈ range (p.n 1), d2fdudxO e p (setWork e p) (ax (axes dxdy).1) 1
        (Index.ijk (p.n 1) (p.n 2) (coords p lmn 0) mp (coords p lmn 2)) mp (coords p lmn 1) *
        d2fdudxO e p (setWork e p) (ax (axes dxdy).2) 1 ijk (coords p ijk 1) mp = ∑ mp ∈ range (p.n 1), d2fdudx e p (ax (axes dxdy).1) 1
        (Index.ijk (p.n 1) (p.n 2) (coords p lmn 0) mp (coords p lmn 2)) mp (coords p lmn 1) *
        d2fdudx e p (ax (axes dxdy).2) 1 ijk (coords p ijk 1) mp :=
    sum_congr rfl fun lp h => by rw [e1 lp (mem_range.1 h), B]
  have s2 : ∑ np ∈ range (p.n 2), d2fdudxO e p (setWork e p) (ax (axes dxdy).1) 2
        (Index.ijk (p.n 1) (p.n 2) (coords p lmn 0) (coords p lmn 1) np) np (coords p lmn 2) *
        d2fdudxO e p (setWork e p) (ax (axes dxdy).2) 2 ijk (coords p ijk 2) np = ∑ np ∈ range (p.n 2), d2fdudx e p (ax (axes dxdy).1) 2
        (Index.ijk (p.n 1) (p.n 2) (coords p lmn 0) (coords p lmn 1) np) np (coords p lmn 2) *
        d2fdudx e p (ax (axes dxdy).2) 2 ijk (coords p ijk 2) np :=
    sum_congr rfl fun lp h => by rw [e2 lp (mem_range.1 h), B]
  unfold entry2 d3fO d3f
  simp only [wsLmn, wsIjk]
  rw [s0, s1, s2]
  simp only [B, e0 _ (t1 0), e1 _ (t1 1), e2 _ (t1 2), kd]
  generalize (∑ lp ∈ range (p.n 0), d2fdudx e p (ax (axes dxdy).1) 0
        (Index.ijk (p.n 1) (p.n 2) lp (coords p lmn 1) (coords p lmn 2)) lp (coords p lmn 0) *
        d2fdudx e p (ax (axes dxdy).2) 0 ijk (coords p ijk 0) lp) = S0
  generalize (∑ mp ∈ range (p.n 1), d2fdudx e p (ax (axes dxdy).1) 1
        (Index.ijk (p.n 1) (p.n 2) (coords p lmn 0) mp (coords p lmn 2)) mp (coords p lmn 1) *
        d2fdudx e p (ax (axes dxdy).2) 1 ijk (coords p ijk 1) mp) = S1
  generalize (∑ np ∈ range (p.n 2), d2fdudx e p (ax (axes dxdy).1) 2
        (Index.ijk (p.n 1) (p.n 2) (coords p lmn 0) (coords p lmn 1) np) np (coords p lmn 2) *
        d2fdudx e p (ax (axes dxdy).2) 2 ijk (coords p ijk 2) np) = S2
  generalize d2fdudx e p (ax (axes dxdy).1) 0 (Index.ijk (p.n 1) (p.n 2) (coords p ijk 0) (coords p lmn 1) (coords p lmn 2))
    (coords p ijk 0) (coords p lmn 0) = A0
  generalize d2fdudx e p (ax (axes dxdy).1) 1 (Index.ijk (p.n 1) (p.n 2) (coords p lmn 0) (coords p ijk 1) (coords p lmn 2))
    (coords p ijk 1) (coords p lmn 1) = A1
  generalize d2fdudx e p (ax (axes dxdy).1) 2 (Index.ijk (p.n 1) (p.n 2) (coords p lmn 0) (coords p lmn 1) (coords p ijk 2))
    (coords p ijk 2) (coords p lmn 2) = A2
  generalize d2fdudx e p (ax (axes dxdy).2) 0 ijk (coords p ijk 0) (coords p lmn 0) = B0
  generalize d2fdudx e p (ax (axes dxdy).2) 1 ijk (coords p ijk 1) (coords p lmn 1) = B1
  generalize d2fdudx e p (ax (axes dxdy).2) 2 ijk (coords p ijk 2) (coords p lmn 2) = B2
  by_cases a : coords p ijk 0 = coords p lmn 0 <;> by_cases b : coords p ijk 1 = coords p lmn 1 <;>
    by_cases c : coords p ijk 2 = coords p lmn 2 <;> simp only [a, b, c, if_true, if_false, Nat.reduceMul, Nat.reduceAdd] <;> ring

end

/-! ### the matrix of a derivative -/

section
variable (hp : Good e p) (hx : ∀ d, p.coll d = .extrema)
include hp hx

/-- the entries between two points given by their indices -/
theorem d2f_idx (x : Fin 3) (t s : Fin 3 → ℕ) (ht : Inside p t) (hs : Inside p s) :
    d2f e p x (idx p t) (idx p s) =
      dNdq1 p 0 (.x x) (idx p t) * D p 0 (t 0) (s 0) * kd (t 1) (s 1) * kd (t 2) (s 2) +
      dNdq1 p 1 (.x x) (idx p t) * D p 1 (t 1) (s 1) * kd (t 0) (s 0) * kd (t 2) (s 2) +
      dNdq1 p 2 (.x x) (idx p t) * D p 2 (t 2) (s 2) * kd (t 0) (s 0) * kd (t 1) (s 1) := by
  unfold d2f
  simp only [coords_idx t ht, coords_idx s hs, axis_eq hp hx _ _ _ _ _ (ht _) (hs _)]

/-- the matrix acts along the three lines through a point -/
theorem act (x : Fin 3) (t : Fin 3 → ℕ) (ht : Inside p t) (v : ℕ → ℝ) :
    ∑ l ∈ range (nn p), d2f e p x (idx p t) l * v l =
      ∑ d, dNdq1 p d (.x x) (idx p t) * ∑ j ∈ range (p.n d), D p d (t d) j * v (idx p (Function.update t d j)) := by
  rw [sum_nn, Fin.sum_univ_three]
  have u0 : ∀ j, Function.update t 0 j = ![j, t 1, t 2] := by
    intro j; funext d; match d with | 0 => simp | 1 => simp | 2 => simp
  have u1 : ∀ j, Function.update t 1 j = ![t 0, j, t 2] := by
    intro j; funext d; match d with | 0 => simp | 1 => simp | 2 => simp
  have u2 : ∀ j, Function.update t 2 j = ![t 0, t 1, j] := by
    intro j; funext d; match d with | 0 => simp | 1 => simp | 2 => simp
  simp only [u0, u1, u2]
  have key : ∀ i ∈ range (p.n 0), ∀ j ∈ range (p.n 1), ∀ k ∈ range (p.n 2),
      d2f e p x (idx p t) (idx p ![i, j, k]) * v (idx p ![i, j, k]) =
      (if k = t 2 then if j = t 1 then dNdq1 p 0 (.x x) (idx p t) * (D p 0 (t 0) i * v (idx p ![i, j, k])) else 0 else 0) +
      (if i = t 0 then if k = t 2 then dNdq1 p 1 (.x x) (idx p t) * (D p 1 (t 1) j * v (idx p ![i, j, k])) else 0 else 0) +
      (if i = t 0 then if j = t 1 then dNdq1 p 2 (.x x) (idx p t) * (D p 2 (t 2) k * v (idx p ![i, j, k])) else 0 else 0) := by
    intro i hi j hj k hk
    rw [mem_range] at hi hj hk
    rw [d2f_idx hp hx x t ![i, j, k] ht (fun d => by match d with | 0 => exact hi | 1 => exact hj | 2 => exact hk)]
    simp only [kd, Matrix.cons_val, eq_comm (a := t 0), eq_comm (a := t 1), eq_comm (a := t 2)]
    split_ifs <;> ring
  rw [sum_congr rfl fun i hi => sum_congr rfl fun j hj => sum_congr rfl fun k hk => key i hi j hj k hk]
  simp only [sum_add_distrib, mul_sum]
  have z0 := ht 0
  have z1 := ht 1
  have z2 := ht 2
  congr 1
  · congr 1
    · refine sum_congr rfl fun i _ => ?_
      simp [sum_ite_eq', z1, z2]
    · rw [sum_eq_single (t 0)]
      · refine sum_congr rfl fun j _ => ?_
        simp [z2]
      · intro i _ hi; simp [hi]
      · intro h; exact absurd (mem_range.2 z0) h
  · rw [sum_eq_single (t 0), sum_eq_single (t 1)]
    · simp
    · intro i _ hi; simp [hi]
    · intro h; exact absurd (mem_range.2 z1) h
    · intro i _ hi; simp [hi]
    · intro h; exact absurd (mem_range.2 z0) h

omit hp hx in
theorem collapse (n l : ℕ) (hl : l < n) (Dj a b c : ℕ → ℝ) (al be ga : ℝ) :
    ∑ j ∈ range n, Dj j * (a j * al + b j * kd j l * be + c j * kd j l * ga) =
      (∑ j ∈ range n, Dj j * a j) * al + Dj l * b l * be + Dj l * c l * ga := by
  have h : ∀ j ∈ range n, Dj j * (a j * al + b j * kd j l * be + c j * kd j l * ga) =
      Dj j * a j * al + (if j = l then Dj j * b j * be + Dj j * c j * ga else 0) := by
    intro j _
    unfold kd
    split_ifs <;> ring
  rw [sum_congr rfl h, sum_add_distrib, sum_mul, sum_ite_eq' (range n) l, if_pos (mem_range.2 hl)]
  ring

/-- the entries of the second derivative are those of a product of two matrices -/
theorem d3f_idx (dxdy : ℕ) (t s : Fin 3 → ℕ) (ht : Inside p t) (hs : Inside p s) :
    d3f e p dxdy (idx p t) (idx p s) =
      ∑ d, dNdq1 p d (.x (ax (axes dxdy).2)) (idx p t) *
        ∑ j ∈ range (p.n d), D p d (t d) j * d2f e p (ax (axes dxdy).1) (idx p (Function.update t d j)) (idx p s) := by
  generalize hX : ax (axes dxdy).1 = x
  generalize hY : ax (axes dxdy).2 = y
  have hin := fun d j (hj : j < p.n d) => inside_update t ht d j hj
  have m : ∀ d, ∑ j ∈ range (p.n d), D p d (t d) j * d2f e p x (idx p (Function.update t d j)) (idx p s) =
      ∑ j ∈ range (p.n d), D p d (t d) j * (let t' := Function.update t d j
        dNdq1 p 0 (.x x) (idx p t') * D p 0 (t' 0) (s 0) * kd (t' 1) (s 1) * kd (t' 2) (s 2) +
        dNdq1 p 1 (.x x) (idx p t') * D p 1 (t' 1) (s 1) * kd (t' 0) (s 0) * kd (t' 2) (s 2) +
        dNdq1 p 2 (.x x) (idx p t') * D p 2 (t' 2) (s 2) * kd (t' 0) (s 0) * kd (t' 1) (s 1)) := by
    intro d
    refine sum_congr rfl fun j hj => ?_
    rw [d2f_idx hp hx x _ s (hin d j (mem_range.1 hj)) hs]
  rw [Fin.sum_univ_three, m 0, m 1, m 2]
  have t1 := ht 0
  have t2 := ht 1
  have t3 := ht 2
  have s1 := hs 0
  have s2 := hs 1
  have s3 := hs 2
  unfold d3f
  simp only [coords_idx t ht, coords_idx s hs, hX, hY, axis_eq hp hx _ _ _ _ _ t1 s1, axis_eq hp hx _ _ _ _ _ t2 s2,
    axis_eq hp hx _ _ _ _ _ t3 s3]
  have A0 : ∑ lp ∈ range (p.n 0), d2fdudx e p x 0 (Index.ijk (p.n 1) (p.n 2) lp (s 1) (s 2)) lp (s 0) *
      d2fdudx e p y 0 (idx p t) (t 0) lp = dNdq1 p 0 (.x y) (idx p t) *
        ∑ lp ∈ range (p.n 0), D p 0 (t 0) lp * (dNdq1 p 0 (.x x) (Index.ijk (p.n 1) (p.n 2) lp (s 1) (s 2)) * D p 0 lp (s 0)) := by
    rw [mul_sum]
    exact sum_congr rfl fun j hj => by
      rw [axis_eq hp hx _ _ _ _ _ (mem_range.1 hj) s1, axis_eq hp hx _ _ _ _ _ t1 (mem_range.1 hj)]; ring
  have A1 : ∑ lp ∈ range (p.n 1), d2fdudx e p x 1 (Index.ijk (p.n 1) (p.n 2) (s 0) lp (s 2)) lp (s 1) *
      d2fdudx e p y 1 (idx p t) (t 1) lp = dNdq1 p 1 (.x y) (idx p t) *
        ∑ lp ∈ range (p.n 1), D p 1 (t 1) lp * (dNdq1 p 1 (.x x) (Index.ijk (p.n 1) (p.n 2) (s 0) lp (s 2)) * D p 1 lp (s 1)) := by
    rw [mul_sum]
    exact sum_congr rfl fun j hj => by
      rw [axis_eq hp hx _ _ _ _ _ (mem_range.1 hj) s2, axis_eq hp hx _ _ _ _ _ t2 (mem_range.1 hj)]; ring
  have A2 : ∑ lp ∈ range (p.n 2), d2fdudx e p x 2 (Index.ijk (p.n 1) (p.n 2) (s 0) (s 1) lp) lp (s 2) *
      d2fdudx e p y 2 (idx p t) (t 2) lp = dNdq1 p 2 (.x y) (idx p t) *
        ∑ lp ∈ range (p.n 2), D p 2 (t 2) lp * (dNdq1 p 2 (.x x) (Index.ijk (p.n 1) (p.n 2) (s 0) (s 1) lp) * D p 2 lp (s 2)) := by
    rw [mul_sum]
    exact sum_congr rfl fun j hj => by
      rw [axis_eq hp hx _ _ _ _ _ (mem_range.1 hj) s3, axis_eq hp hx _ _ _ _ _ t3 (mem_range.1 hj)]; ring
  rw [A0, A1, A2]
  -- the three sums over the middle point
  have c0 := collapse (p.n 0) (s 0) s1 (fun j => D p 0 (t 0) j)
    (fun j => dNdq1 p 0 (.x x) (idx p (Function.update t 0 j)) * D p 0 j (s 0))
    (fun j => dNdq1 p 1 (.x x) (idx p (Function.update t 0 j)) * D p 1 (t 1) (s 1))
    (fun j => dNdq1 p 2 (.x x) (idx p (Function.update t 0 j)) * D p 2 (t 2) (s 2))
    (kd (t 1) (s 1) * kd (t 2) (s 2)) (kd (t 2) (s 2)) (kd (t 1) (s 1))
  have c1 := collapse (p.n 1) (s 1) s2 (fun j => D p 1 (t 1) j)
    (fun j => dNdq1 p 1 (.x x) (idx p (Function.update t 1 j)) * D p 1 j (s 1))
    (fun j => dNdq1 p 0 (.x x) (idx p (Function.update t 1 j)) * D p 0 (t 0) (s 0))
    (fun j => dNdq1 p 2 (.x x) (idx p (Function.update t 1 j)) * D p 2 (t 2) (s 2))
    (kd (t 0) (s 0) * kd (t 2) (s 2)) (kd (t 2) (s 2)) (kd (t 0) (s 0))
  have c2 := collapse (p.n 2) (s 2) s3 (fun j => D p 2 (t 2) j)
    (fun j => dNdq1 p 2 (.x x) (idx p (Function.update t 2 j)) * D p 2 j (s 2))
    (fun j => dNdq1 p 0 (.x x) (idx p (Function.update t 2 j)) * D p 0 (t 0) (s 0))
    (fun j => dNdq1 p 1 (.x x) (idx p (Function.update t 2 j)) * D p 1 (t 1) (s 1))
    (kd (t 0) (s 0) * kd (t 1) (s 1)) (kd (t 1) (s 1)) (kd (t 0) (s 0))
  have b0 : ∑ j ∈ range (p.n 0), D p 0 (t 0) j * (let t' := Function.update t 0 j
        dNdq1 p 0 (.x x) (idx p t') * D p 0 (t' 0) (s 0) * kd (t' 1) (s 1) * kd (t' 2) (s 2) +
        dNdq1 p 1 (.x x) (idx p t') * D p 1 (t' 1) (s 1) * kd (t' 0) (s 0) * kd (t' 2) (s 2) +
        dNdq1 p 2 (.x x) (idx p t') * D p 2 (t' 2) (s 2) * kd (t' 0) (s 0) * kd (t' 1) (s 1)) = _ :=
    Eq.trans (sum_congr rfl fun j _ => congrArg _ (by simp; ring)) c0
  have b1 : ∑ j ∈ range (p.n 1), D p 1 (t 1) j * (let t' := Function.update t 1 j
        dNdq1 p 0 (.x x) (idx p t') * D p 0 (t' 0) (s 0) * kd (t' 1) (s 1) * kd (t' 2) (s 2) +
        dNdq1 p 1 (.x x) (idx p t') * D p 1 (t' 1) (s 1) * kd (t' 0) (s 0) * kd (t' 2) (s 2) +
        dNdq1 p 2 (.x x) (idx p t') * D p 2 (t' 2) (s 2) * kd (t' 0) (s 0) * kd (t' 1) (s 1)) = _ :=
    Eq.trans (sum_congr rfl fun j _ => congrArg _ (by simp; ring)) c1
  have b2 : ∑ j ∈ range (p.n 2), D p 2 (t 2) j * (let t' := Function.update t 2 j
        dNdq1 p 0 (.x x) (idx p t') * D p 0 (t' 0) (s 0) * kd (t' 1) (s 1) * kd (t' 2) (s 2) +
        dNdq1 p 1 (.x x) (idx p t') * D p 1 (t' 1) (s 1) * kd (t' 0) (s 0) * kd (t' 2) (s 2) +
        dNdq1 p 2 (.x x) (idx p t') * D p 2 (t' 2) (s 2) * kd (t' 0) (s 0) * kd (t' 1) (s 1)) = _ :=
    Eq.trans (sum_congr rfl fun j _ => congrArg _ (by simp; ring)) c2
  rw [b0, b1, b2]
  have i0 : ∀ j, idx p (Function.update t 0 j) = Index.ijk (p.n 1) (p.n 2) j (t 1) (t 2) := fun j => by simp [idx]
  have i1 : ∀ j, idx p (Function.update t 1 j) = Index.ijk (p.n 1) (p.n 2) (t 0) j (t 2) := fun j => by simp [idx]
  have i2 : ∀ j, idx p (Function.update t 2 j) = Index.ijk (p.n 1) (p.n 2) (t 0) (t 1) j := fun j => by simp [idx]
  simp only [i0, i1, i2, kd]
  by_cases a : t 0 = s 0 <;> by_cases b : t 1 = s 1 <;> by_cases c : t 2 = s 2 <;>
    simp only [a, b, c, if_true, if_false, mul_one, mul_zero, zero_mul, add_zero, zero_add] <;> ring

/-- two first derivatives one after the other, as a matrix -/
theorem twice (hs : p.sys ≠ .other) (f : Coeff.St ℝ) (hf : Coeff.Inv p.n (mW p) f) (dxdy : ℕ) :
    ∃ f' w1 f'' w2, first e p f (.x (ax (axes dxdy).1)) = .ok (f', w1) ∧ f'.v = f.v ∧ Coeff.Inv p.n (mW p) f' ∧
      first e p ⟨w1, none, none⟩ (.x (ax (axes dxdy).2)) = .ok (f'', w2) ∧
      ∀ ijk, ijk < nn p → w2 ijk = ∑ lmn ∈ range (nn p), d3f e p dxdy ijk lmn * f.v lmn := by
  obtain ⟨f', w1, a1, a2, a3, a4⟩ := first_matrix hp hx hs f hf (ax (axes dxdy).1)
  obtain ⟨f'', w2, b1, b2, b3, b4⟩ := first_matrix hp hx hs ⟨w1, none, none⟩ (Or.inl rfl) (ax (axes dxdy).2)
  refine ⟨f', w1, f'', w2, a1, a2, a3, b1, fun ijk h => ?_⟩
  obtain ⟨ht, hid⟩ := coords_inside ijk h
  rw [← hid]
  generalize coords p ijk = t at ht
  rw [b4 t ht]
  have h1 : ∀ lmn ∈ range (nn p), d3f e p dxdy (idx p t) lmn * f.v lmn =
      (∑ d, dNdq1 p d (.x (ax (axes dxdy).2)) (idx p t) *
        ∑ j ∈ range (p.n d), D p d (t d) j * d2f e p (ax (axes dxdy).1) (idx p (Function.update t d j)) lmn) * f.v lmn := by
    intro l hl
    obtain ⟨hu, hi⟩ := coords_inside l (mem_range.1 hl)
    conv_lhs => rw [← hi, d3f_idx hp hx dxdy t _ ht hu, hi]
  rw [sum_congr rfl h1]
  have h2 : ∀ d, ∀ j ∈ range (p.n d), w1 (idx p (Function.update t d j)) =
      ∑ l ∈ range (nn p), d2f e p (ax (axes dxdy).1) (idx p (Function.update t d j)) l * f.v l := by
    intro d j hj
    have hin := inside_update t ht d j (mem_range.1 hj)
    rw [a4 _ hin, act hp hx _ _ hin]
  simp only [sum_mul]
  rw [sum_comm]
  refine sum_congr rfl fun d _ => ?_
  rw [sum_congr rfl fun j hj => by rw [h2 d j hj]]
  simp only [mul_sum, sum_mul]
  rw [sum_comm]
  refine sum_congr rfl fun l _ => sum_congr rfl fun j _ => by ring

/-! ### C68 -/

/-- **C68 (first derivatives).** On a patch with Chebyshev extrema, take any field, and any previous content of the
workspace: the derivative ∂/∂x of the field that the program computes is, at every grid point ijk, the sum over all points
lmn of the entry `d2f_dxdu_Jacobian(patch,x,ijk,lmn)` times the value of the field at lmn. -/
theorem C68_first (hs : p.sys ≠ .other) (f : Coeff.St ℝ) (hf : Coeff.Inv p.n (mW p) f) (x : Fin 3) (ws : Pts) :
    ∃ f' w, takeDer e p f [.x x] = .ok (f', w) ∧ f'.v = f.v ∧
      ∀ ijk, ijk < nn p → w ijk = ∑ lmn ∈ range (nn p), entry1 e p ws x ijk lmn * f.v lmn := by
  obtain ⟨f', w, a1, a2, a3, a4⟩ := first_matrix hp hx hs f hf x
  refine ⟨f', w, by simp [takeDer, isSecond, a1, chain], a2, fun ijk h => ?_⟩
  obtain ⟨ht, hid⟩ := coords_inside ijk h
  rw [← hid, a4 _ ht, ← act hp hx x _ ht]
  exact sum_congr rfl fun l _ => by rw [C68_opt_first hp]

/-- second derivatives as a matrix; the field keeps its values and usable coefficients -/
theorem second_matrix (hs : p.sys ≠ .other) (f : Coeff.St ℝ) (hf : Coeff.Inv p.n (mW p) f) (dxdy : ℕ) (x y : Fin 3)
    (hxy : (dxdy, x, y) ∈ [(0, 0, 0), (1, 0, 1), (2, 0, 2), (3, 1, 1), (4, 1, 2), (5, 2, 2)]) (ws : Pts) :
    ∃ f' w, takeDer e p f [.x x, .x y] = .ok (f', w) ∧ f'.v = f.v ∧ Coeff.Inv p.n (mW p) f' ∧
      ∀ ijk, ijk < nn p → w ijk = ∑ lmn ∈ range (nn p), entry2 e p ws dxdy ijk lmn * f.v lmn := by
  have hax : ax (axes dxdy).1 = x ∧ ax (axes dxdy).2 = y := by
    simp only [List.mem_cons, Prod.mk.injEq, List.not_mem_nil, or_false] at hxy
    rcases hxy with ⟨rfl, rfl, rfl⟩ | ⟨rfl, rfl, rfl⟩ | ⟨rfl, rfl, rfl⟩ | ⟨rfl, rfl, rfl⟩ | ⟨rfl, rfl, rfl⟩ | ⟨rfl, rfl, rfl⟩ <;>
      decide
  obtain ⟨f', w1, f'', w2, a1, a2, a3, b1, b2⟩ := twice hp hx hs f hf dxdy
  rw [hax.1] at a1
  rw [hax.2] at b1
  have hE : ∀ ijk, ijk < nn p → w2 ijk = ∑ lmn ∈ range (nn p), entry2 e p ws dxdy ijk lmn * f.v lmn := by
    intro ijk h
    rw [b2 ijk h]
    exact sum_congr rfl fun l hl => by rw [C68_opt_second hp ws dxdy ijk l h (mem_range.1 hl)]
  cases hsys : p.sys with
  | other => exact absurd hsys hs
  | cubed =>
    have hsec : isSecond p [.x x, .x y] = .ok false := by
      unfold isSecond
      by_cases h : x = y
      · subst h; simp [funcsOk_of hp, depend, hsys, List.filter]
      · simp [h]
    exact ⟨f', w2, by simp [takeDer, hsec, a1, chain, b1], a2, a3, hE⟩
  | cartesian =>
    obtain ⟨P, hP, hv⟩ := C54_interpolant hp f.v
    obtain ⟨g, w, c1, c2, c3, c4⟩ := C54_cartesian hp hsys f hf [.x x, .x y] (by simp [Dir.user]) (by simp) (by simp) P hP hv
    refine ⟨g, w, c1, c2, c3, fun ijk h => ?_⟩
    rw [← hE ijk h]
    obtain ⟨ht, hid⟩ := coords_inside ijk h
    rw [← hid, c4 _ ht]
    obtain ⟨g1, u1, d1, d2, d3, d4⟩ := cart_first hp hsys f hf (.x x) trivial P hP hv
    obtain ⟨g2, u2, k1, k2, k3, k4⟩ := cart_first hp hsys ⟨u1, none, none⟩ (Or.inl rfl) (.x y) trivial _ (hP.pderiv x) d4
    rw [a1] at d1
    cases d1
    rw [b1] at k1
    cases k1
    rw [k4 _ ht]
    rfl

/-- **C68 (second derivatives).** The same for ∂²/∂x∂y and the entry `d3f_dx2du_Jacobian(patch,dxdy,ijk,lmn)`, where dxdy
is 0 for xx, 1 for xy, 2 for xz, 3 for yy, 4 for yz and 5 for zz. -/
theorem C68_second (hs : p.sys ≠ .other) (f : Coeff.St ℝ) (hf : Coeff.Inv p.n (mW p) f) (dxdy : ℕ) (x y : Fin 3)
    (hxy : (dxdy, x, y) ∈ [(0, 0, 0), (1, 0, 1), (2, 0, 2), (3, 1, 1), (4, 1, 2), (5, 2, 2)]) (ws : Pts) :
    ∃ f' w, takeDer e p f [.x x, .x y] = .ok (f', w) ∧ f'.v = f.v ∧
      ∀ ijk, ijk < nn p → w ijk = ∑ lmn ∈ range (nn p), entry2 e p ws dxdy ijk lmn * f.v lmn := by
  obtain ⟨f', w, h1, h2, -, h4⟩ := second_matrix hp hx hs f hf dxdy x y hxy ws
  exact ⟨f', w, h1, h2, h4⟩

/-- **C68 (meaning).** Changing the value of a field at one point lmn by h changes its computed first and second
derivatives at every point ijk by exactly h times the entry. -/
theorem C68_change (hs : p.sys ≠ .other) (v : ℕ → ℝ) (lmn : ℕ) (hl : lmn < nn p) (h : ℝ) (ws : Pts) :
    (∀ x : Fin 3, ∃ f w f' w', takeDer e p ⟨v, none, none⟩ [.x x] = .ok (f, w) ∧
      takeDer e p ⟨Function.update v lmn (v lmn + h), none, none⟩ [.x x] = .ok (f', w') ∧
      ∀ ijk, ijk < nn p → w' ijk = w ijk + h * entry1 e p ws x ijk lmn) ∧
    ∀ dxdy x y, (dxdy, x, y) ∈ [(0, 0, 0), (1, 0, 1), (2, 0, 2), (3, 1, 1), (4, 1, 2), (5, 2, (2 : Fin 3))] →
      ∃ f w f' w', takeDer e p ⟨v, none, none⟩ [.x x, .x y] = .ok (f, w) ∧
      takeDer e p ⟨Function.update v lmn (v lmn + h), none, none⟩ [.x x, .x y] = .ok (f', w') ∧
      ∀ ijk, ijk < nn p → w' ijk = w ijk + h * entry2 e p ws dxdy ijk lmn := by
  have key : ∀ E : ℕ → ℝ, ∑ l ∈ range (nn p), E l * Function.update v lmn (v lmn + h) l =
      ∑ l ∈ range (nn p), E l * v l + h * E lmn := by
    intro E
    have : ∀ l ∈ range (nn p), E l * Function.update v lmn (v lmn + h) l = E l * v l + if l = lmn then h * E l else 0 := by
      intro l _
      by_cases hh : l = lmn
      · subst hh; simp; ring
      · simp [hh]
    rw [sum_congr rfl this, sum_add_distrib, sum_ite_eq' (range (nn p)) lmn, if_pos (mem_range.2 hl)]
  constructor
  · intro x
    obtain ⟨f, w, a1, -, a3⟩ := C68_first hp hx hs ⟨v, none, none⟩ (Or.inl rfl) x ws
    obtain ⟨f', w', b1, -, b3⟩ := C68_first hp hx hs ⟨Function.update v lmn (v lmn + h), none, none⟩ (Or.inl rfl) x ws
    exact ⟨f, w, f', w', a1, b1, fun ijk hi => by rw [b3 ijk hi, a3 ijk hi, key]⟩
  · intro dxdy x y hxy
    obtain ⟨f, w, a1, -, a3⟩ := C68_second hp hx hs ⟨v, none, none⟩ (Or.inl rfl) dxdy x y hxy ws
    obtain ⟨f', w', b1, -, b3⟩ := C68_second hp hx hs ⟨Function.update v lmn (v lmn + h), none, none⟩ (Or.inl rfl) dxdy x y hxy ws
    exact ⟨f, w, f', w', a1, b1, fun ijk hi => by rw [b3 ijk hi, a3 ijk hi, key]⟩

end

end Elliptica.Jac
