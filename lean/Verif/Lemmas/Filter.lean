import Verif.Model.Filter
import Verif.Lemmas.DerivLine
import Mathlib.LinearAlgebra.Matrix.NonsingularInverse
/-!
Helper lemmas for the spectral filter: the transformation of a direction and its inverse; the loop that scales coefficients.
-/
namespace Elliptica.Filter
open Real Finset Polynomial Elliptica.Index Elliptica.Deriv Elliptica.Cheb

variable {e : ℝ} {p : Patch}

/-- the weights of the expansion of direction d -/
noncomputable def wgt (p : Patch) (d : Fin 3) (i : ℕ) : ℝ :=
  match p.coll d with
  | .nodes => kapN i
  | _ => kap (p.n d - 1) i

/-- T_i at the m-th point of direction d -/
noncomputable def tAt (p : Patch) (d : Fin 3) (m i : ℕ) : ℝ := (Chebyshev.T ℝ i).eval (npt p d m)

theorem wgt_ne (d : Fin 3) (i : ℕ) : wgt p d i ≠ 0 := by
  unfold wgt kapN kap
  split <;> split <;> norm_num

theorem reproduce (hp : Good e p) (d : Fin 3) (v : ℕ → ℝ) (l : ℕ) (hl : l < p.n d) :
    ∑ i ∈ range (p.n d), wgt p d i * (∑ m ∈ range (p.n d), mW p d i m * v m) * tAt p d l i = v l := by
  have h2 := hp.two d
  have hL : ∀ i, ∑ m ∈ range (p.n d), mW p d i m * v m = tr p d v i := fun i => (tr_linear hp d v i).symm
  simp only [hL]
  unfold tAt wgt tr npt
  rcases hp.cheb d with h | h
  · rw [h]
    obtain ⟨N, hN⟩ : ∃ N, p.n d = N + 1 := ⟨p.n d - 1, by omega⟩
    rw [hN] at hl ⊢
    have := linePoly_node N (by omega) v l (by omega)
    rw [← this]
    unfold linePoly
    rw [eval_finsetSum]
    refine sum_congr rfl fun i _ => ?_
    rw [eval_mul, eval_C]
    simp only [Nat.add_sub_cancel]
    ring
  · rw [h]
    have := nodPoly_node (p.n d) v l hl
    rw [← this]
    unfold nodPoly
    rw [eval_finsetSum]
    refine sum_congr rfl fun i _ => ?_
    rw [eval_mul, eval_C]
    ring

/-- the transformation of the values of one Chebyshev polynomial is one coefficient -/
theorem orth (hp : Good e p) (d : Fin 3) (i j : ℕ) (hi : i < p.n d) (hj : j < p.n d) :
    ∑ m ∈ range (p.n d), mW p d i m * tAt p d m j = if i = j then 1 / wgt p d i else 0 := by
  let A : Matrix (Fin (p.n d)) (Fin (p.n d)) ℝ := Matrix.of fun l i => tAt p d l i
  let B : Matrix (Fin (p.n d)) (Fin (p.n d)) ℝ := Matrix.of fun i m => wgt p d i * mW p d i m
  have hAB : A * B = 1 := by
    ext l m
    rw [Matrix.mul_apply]
    have := reproduce hp d (fun q => if q = (m : ℕ) then 1 else 0) l l.2
    simp only [mul_ite, mul_one, mul_zero, Finset.sum_ite_eq', mem_range, m.2, if_true] at this
    rw [Matrix.one_apply]
    simp only [A, B, Matrix.of_apply]
    rw [← Fin.sum_univ_eq_sum_range (fun i => wgt p d i * mW p d i m * tAt p d l i)] at this
    have h2 : (if l = m then (1 : ℝ) else 0) = if (l : ℕ) = m then 1 else 0 := by
      simp only [Fin.ext_iff]
    rw [h2, ← this]
    exact Finset.sum_congr rfl fun i _ => by ring
  have hBA : B * A = 1 := mul_eq_one_comm.1 hAB
  have h := congrFun (congrFun hBA ⟨i, hi⟩) ⟨j, hj⟩
  rw [Matrix.mul_apply, Matrix.one_apply] at h
  simp only [A, B, Matrix.of_apply] at h
  rw [← Fin.sum_univ_eq_sum_range (fun m => mW p d i m * tAt p d m j)]
  have hw := wgt_ne (p := p) d i
  have h3 : wgt p d i * ∑ m : Fin (p.n d), mW p d i m * tAt p d m j = if i = j then 1 else 0 := by
    rw [mul_sum]
    have h2 : (if (⟨i, hi⟩ : Fin (p.n d)) = ⟨j, hj⟩ then (1 : ℝ) else 0) = if i = j then 1 else 0 := by
      simp only [Fin.ext_iff]
    rw [← h2, ← h]
    exact Finset.sum_congr rfl fun i _ => by ring
  split at h3
  · rename_i hij; rw [if_pos hij]; field_simp; linarith
  · rename_i hij; rw [if_neg hij]
    rcases mul_eq_zero.1 h3 with h | h
    · exact absurd h hw
    · exact h

/-- what the loops of coefficients make of an expansion -/
theorem spec_expand (hp : Good e p) (c g : ℕ → ℕ → ℕ → ℝ)
    (hg : ∀ a b q, a < p.n 0 → b < p.n 1 → q < p.n 2 → g a b q =
      ∑ i ∈ range (p.n 0), ∑ j ∈ range (p.n 1), ∑ k ∈ range (p.n 2), c i j k * (tAt p 0 a i * tAt p 1 b j * tAt p 2 q k))
    (i j k : ℕ) (hi : i < p.n 0) (hj : j < p.n 1) (hk : k < p.n 2) :
    Coeff.spec p.n (mW p) [0, 1, 2] g i j k = c i j k / (wgt p 0 i * wgt p 1 j * wgt p 2 k) := by
  have h1 : Coeff.spec p.n (mW p) [0, 1, 2] g i j k = Coeff.along p.n (mW p) 2 (Coeff.along p.n (mW p) 1 (Coeff.along p.n (mW p) 0 g)) i j k := by
    simp [Coeff.spec]
  rw [h1, along2]
  have e0 : ∀ b q, b < p.n 1 → q < p.n 2 → Coeff.along p.n (mW p) 0 g i b q =
      1 / wgt p 0 i * ∑ j ∈ range (p.n 1), ∑ k ∈ range (p.n 2), c i j k * (tAt p 1 b j * tAt p 2 q k) := by
    intro b q hb hq
    rw [along0]
    have : ∀ m ∈ range (p.n 0), mW p 0 i m * g m b q = ∑ i' ∈ range (p.n 0), (mW p 0 i m * tAt p 0 m i') *
        ∑ j ∈ range (p.n 1), ∑ k ∈ range (p.n 2), c i' j k * (tAt p 1 b j * tAt p 2 q k) := by
      intro m hm
      rw [hg m b q (mem_range.1 hm) hb hq, mul_sum]
      refine sum_congr rfl fun i' _ => ?_
      simp only [mul_sum]
      exact sum_congr rfl fun j _ => sum_congr rfl fun k _ => by ring
    rw [sum_congr rfl this, sum_comm]
    have : ∀ i' ∈ range (p.n 0), ∑ m ∈ range (p.n 0), (mW p 0 i m * tAt p 0 m i') *
        ∑ j ∈ range (p.n 1), ∑ k ∈ range (p.n 2), c i' j k * (tAt p 1 b j * tAt p 2 q k) =
        if i = i' then 1 / wgt p 0 i * ∑ j ∈ range (p.n 1), ∑ k ∈ range (p.n 2), c i' j k * (tAt p 1 b j * tAt p 2 q k) else 0 := by
      intro i' hi'
      rw [← sum_mul, orth hp 0 i i' hi (mem_range.1 hi')]
      split <;> simp
    rw [sum_congr rfl this, sum_ite_eq, if_pos (mem_range.2 hi)]
  have e1 : ∀ q, q < p.n 2 → Coeff.along p.n (mW p) 1 (Coeff.along p.n (mW p) 0 g) i j q =
      1 / wgt p 0 i * (1 / wgt p 1 j) * ∑ k ∈ range (p.n 2), c i j k * tAt p 2 q k := by
    intro q hq
    rw [along1]
    have : ∀ m ∈ range (p.n 1), mW p 1 j m * Coeff.along p.n (mW p) 0 g i m q = ∑ j' ∈ range (p.n 1), (mW p 1 j m * tAt p 1 m j') *
        (1 / wgt p 0 i * ∑ k ∈ range (p.n 2), c i j' k * tAt p 2 q k) := by
      intro m hm
      rw [e0 m q (mem_range.1 hm) hq]
      simp only [mul_sum]
      exact sum_congr rfl fun j _ => sum_congr rfl fun k _ => by ring
    rw [sum_congr rfl this, sum_comm]
    have : ∀ j' ∈ range (p.n 1), ∑ m ∈ range (p.n 1), (mW p 1 j m * tAt p 1 m j') *
        (1 / wgt p 0 i * ∑ k ∈ range (p.n 2), c i j' k * tAt p 2 q k) =
        if j = j' then 1 / wgt p 0 i * (1 / wgt p 1 j) * ∑ k ∈ range (p.n 2), c i j' k * tAt p 2 q k else 0 := by
      intro j' hj'
      rw [← sum_mul, orth hp 1 j j' hj (mem_range.1 hj')]
      split
      · ring
      · simp
    rw [sum_congr rfl this, sum_ite_eq, if_pos (mem_range.2 hj)]
  have : ∀ m ∈ range (p.n 2), mW p 2 k m * Coeff.along p.n (mW p) 1 (Coeff.along p.n (mW p) 0 g) i j m =
      ∑ k' ∈ range (p.n 2), (mW p 2 k m * tAt p 2 m k') * (1 / wgt p 0 i * (1 / wgt p 1 j) * c i j k') := by
    intro m hm
    rw [e1 m (mem_range.1 hm)]
    simp only [mul_sum]
    exact sum_congr rfl fun k _ => by ring
  rw [sum_congr rfl this, sum_comm]
  have : ∀ k' ∈ range (p.n 2), ∑ m ∈ range (p.n 2), (mW p 2 k m * tAt p 2 m k') * (1 / wgt p 0 i * (1 / wgt p 1 j) * c i j k') =
      if k = k' then 1 / wgt p 2 k * (1 / wgt p 0 i * (1 / wgt p 1 j) * c i j k') else 0 := by
    intro k' hk'
    rw [← sum_mul, orth hp 2 k k' hk (mem_range.1 hk')]
    split <;> simp
  rw [sum_congr rfl this, sum_ite_eq, if_pos (mem_range.2 hk)]
  have a := wgt_ne (p := p) 0 i
  have b := wgt_ne (p := p) 1 j
  have c := wgt_ne (p := p) 2 k
  field_simp

/-! ### the scaling loop -/

theorem fold_scale {α : Type} (l : List α) (pos : α → ℕ) (g : α → ℝ) (C : Coeff.Data ℝ) (x : ℕ) :
    (l.foldl (fun C a => Coeff.upd C (pos a) (C (pos a) * g a)) C) x = C x * (l.map fun a => if pos a = x then g a else 1).prod := by
  induction l generalizing C with
  | nil => simp
  | cons a l ih =>
    rw [List.foldl_cons, ih, List.map_cons, List.prod_cons]
    unfold Coeff.upd
    by_cases h : x = pos a
    · subst h; simp; ring
    · rw [if_neg h, if_neg (fun q => h q.symm)]; ring

theorem adjust_eq (n : Fin 3 → ℕ) (q : ℕ) (C : Coeff.Data ℝ) (i j k : ℕ) (hi : i < n 0) (hj : j < n 1) (hk : k < n 2) :
    adjust e n q C (ijk (n 1) (n 2) i j k) = C (ijk (n 1) (n 2) i j k) *
      (erfclog e (i / ((n 0 : ℝ) - 1)) q * erfclog e (j / ((n 1 : ℝ) - 1)) q * erfclog e (k / ((n 2 : ℝ) - 1)) q) := by
  unfold adjust
  simp only [Coeff.foldl_nested (List.range (n 1)) (List.range (n 2))]
  rw [Coeff.foldl_nested]
  rw [fold_scale _ (fun a : ℕ × ℕ × ℕ => ijk (n 1) (n 2) a.1 a.2.1 a.2.2)
    (fun a => erfclog e (a.1 / ((n 0 : ℝ) - 1)) q * erfclog e (a.2.1 / ((n 1 : ℝ) - 1)) q * erfclog e (a.2.2 / ((n 2 : ℝ) - 1)) q)]
  congr 1
  set L := (List.range (n 0)).flatMap fun a => ((List.range (n 1)).flatMap fun a => (List.range (n 2)).map fun b => (a, b)).map fun b => (a, b) with hL
  have mem : ∀ a : ℕ × ℕ × ℕ, a ∈ L ↔ a.1 < n 0 ∧ a.2.1 < n 1 ∧ a.2.2 < n 2 := by
    rintro ⟨a, b, c⟩
    simp [hL]
  have nd : L.Nodup := by
    have hp : L = (List.range (n 0)) ×ˢ ((List.range (n 1)) ×ˢ (List.range (n 2))) := rfl
    rw [hp]
    exact List.nodup_range.product (List.nodup_range.product List.nodup_range)
  have : (L.map fun a => if ijk (n 1) (n 2) a.1 a.2.1 a.2.2 = ijk (n 1) (n 2) i j k then
      erfclog e (a.1 / ((n 0 : ℝ) - 1)) q * erfclog e (a.2.1 / ((n 1 : ℝ) - 1)) q * erfclog e (a.2.2 / ((n 2 : ℝ) - 1)) q else 1).prod =
      ∏ a ∈ L.toFinset, if ijk (n 1) (n 2) a.1 a.2.1 a.2.2 = ijk (n 1) (n 2) i j k then
      erfclog e (a.1 / ((n 0 : ℝ) - 1)) q * erfclog e (a.2.1 / ((n 1 : ℝ) - 1)) q * erfclog e (a.2.2 / ((n 2 : ℝ) - 1)) q else 1 := by
    rw [List.prod_toFinset _ nd]
  rw [this, Finset.prod_eq_single (i, j, k)]
  · simp
  · rintro ⟨a, b, c⟩ hm hne
    rw [List.mem_toFinset, mem] at hm
    rw [if_neg]
    intro h
    obtain ⟨x1, x2, x3⟩ := C10_decode_encode (n 1) (n 2) a b c hm.2.1 hm.2.2
    obtain ⟨y1, y2, y3⟩ := C10_decode_encode (n 1) (n 2) i j k hj hk
    dsimp only at h
    rw [h] at x1 x2 x3
    exact hne (by rw [← x1, ← x2, ← x3, y1, y2, y3])
  · intro h
    exact absurd (List.mem_toFinset.2 ((mem _).2 ⟨hi, hj, hk⟩)) h

/-- the coefficients returned are those kept by the field -/
theorem make3_keeps {K : Type} [Zero K] (n : Fin 3 → ℕ) (tr : Fin 3 → (ℕ → K) → ℕ → K) (f f' : Coeff.St K) (w : Coeff.Data K)
    (h : Coeff.make3 n tr f = .ok (f', w)) : ∃ l, f'.info = some l ∧ ∀ d : Fin 3, d ∈ l := by
  unfold Coeff.make3 Coeff.avail3 at h
  by_cases h0 : Coeff.noCoeffs f = true
  · rw [if_pos h0] at h
    simp [Coeff.find1, Coeff.alloc2, Coeff.clean, Coeff.viaTmp, Coeff.result, Res.bind] at h
    refine ⟨[0, 1, 2], by rw [← h.1], by decide⟩
  · rw [if_neg h0] at h
    by_cases h1 : (Coeff.has f 0 && Coeff.has f 1 && Coeff.has f 2) = true
    · rw [if_pos h1] at h
      simp only [if_true, Coeff.result] at h
      have hf : f' = f := by
        cases hv : f.v2 with
        | none => rw [hv] at h; simp at h
        | some w => rw [hv] at h; simp at h; exact h.1.symm
      subst hf
      cases hi : f'.info with
      | none => simp [Coeff.noCoeffs, hi] at h0
      | some l =>
        refine ⟨l, rfl, ?_⟩
        simp [Coeff.has, hi] at h1
        intro d
        match d with
        | 0 => exact h1.1.1
        | 1 => exact h1.1.2
        | 2 => exact h1.2
    · rw [if_neg h1] at h
      simp [Coeff.find1, Coeff.alloc2, Coeff.clean, Coeff.viaTmp, Coeff.result, Res.bind] at h
      refine ⟨[0, 1, 2], by rw [← h.1], by decide⟩

/-- the normalised coordinate of a grid point -/
theorem unit_pt (hp : Good e p) (d : Fin 3) (i : ℕ) :
    (2 * ptv p d i - (p.mx d + p.mn d)) / (p.mn d - p.mx d) = npt p d i := by
  have hb := hp.box d
  have ha : p.mn d - p.mx d ≠ 0 := by intro h; linarith
  rw [ptv_eq hp, Deriv.half, div_eq_iff ha]
  ring

theorem toCheb_npt (hp : Good e p) (d : Fin 3) (i : ℕ) (hi : i < p.n d) :
    toCheb e (p.mn d) (p.mx d) (ptv p d i) = npt p d i := by
  have hs := npt_snapped hp d i hi
  have hc : (ptv p d i * 2 - (p.mx d + p.mn d)) / (-p.mx d + p.mn d) = npt p d i := by
    rw [← unit_pt hp d i]; congr 1 <;> ring
  unfold toCheb
  dsimp only
  rw [hc]
  rcases hs with h | h | ⟨h1, h2, -, -⟩
  · rw [h, eql_self e 1 hp.pos]; simp
  · rw [h]
    have : Tol.eql e (-1) 1 = false := by
      have := hp.e2
      simp only [Tol.eql, Bool.and_eq_false_iff, decide_eq_false_iff_not, not_lt]
      right; linarith
    rw [this]; simp
  · simp [h1, h2]

end Elliptica.Filter
