import Verif.Props.MatRead
/-!
Properties C36 (matrix inversion column by column) and C18 (Gauss-Seidel preconditioner).
-/
namespace Elliptica.Mat
open Finset

variable {K : Type} [Field K] [LinearOrder K]

/-- a linear solver is exact on `A`: the result solves `A x = b` for the right-hand sides `b` that are unit vectors -/
def SolvesUnit (A : CCS K) (solve : CCS K → (Nat → K) → (Nat → K)) : Prop :=
  ∀ c, c < A.col → ∀ r, r < A.row →
    ∑ k ∈ Finset.range A.col, A.entry r k * solve A (fun q => if q = c then 1 else 0) k = if r = c then 1 else 0

theorem invert_apply (e drop : K) (solve : CCS K → (Nat → K) → (Nat → K)) (row col : Nat) (M : Nat × Nat → K)
    (r c : Nat) (hr : r < row) (hc : c < col) :
    invert e drop solve row col M (r, c) =
      solve (buildCCS e drop (fun i j => M (i, j)) row col) (fun q => if q = c then 1 else 0) r := by
  unfold invert
  simp only
  generalize buildCCS e drop (fun i j => M (i, j)) row col = A
  have key : ∀ N, N ≤ col →
      let s := (List.range N).foldl (fun (s : (Nat → K) × (Nat × Nat → K)) c =>
        (upd (upd s.1 c 1) c 0, (List.range row).foldl (fun inv r => upd inv (r, c) (solve A (upd s.1 c 1) r)) s.2))
        ((fun _ => 0), (fun _ => 0))
      (∀ q, s.1 q = 0) ∧ ∀ r c, r < row → c < N → s.2 (r, c) = solve A (fun q => if q = c then 1 else 0) r := by
    intro N
    induction N with
    | zero => intro _; exact ⟨fun _ => rfl, by intro r c _ hc; omega⟩
    | succ N ih =>
      intro hN
      obtain ⟨i1, i2⟩ := ih (by omega)
      simp only [List.range_succ, List.foldl_append, List.foldl_cons, List.foldl_nil]
      generalize (List.range N).foldl (fun (s : (Nat → K) × (Nat × Nat → K)) c =>
        (upd (upd s.1 c 1) c 0, (List.range row).foldl (fun inv r => upd inv (r, c) (solve A (upd s.1 c 1) r)) s.2))
        ((fun _ => 0), (fun _ => 0)) = s at i1 i2
      refine ⟨?_, ?_⟩
      · intro q; unfold upd; split
        · rfl
        · exact i1 q
      · intro r c hr hc
        have hej : upd s.1 N 1 = fun q => if q = N then (1 : K) else 0 := by
          funext q; unfold upd; split
          · rfl
          · exact i1 q
        have hnd : ((List.range row).map (fun r => (r, N))).Nodup := by
          refine List.Nodup.map ?_ List.nodup_range
          intro a b hab; simpa using hab
        rw [foldl_upd (List.range row) (fun r => (r, N)) _ hnd, hej]
        by_cases hcN : c = N
        · subst hcN
          rw [if_pos (List.mem_map.2 ⟨r, List.mem_range.2 hr, rfl⟩), sum_list_range, Finset.sum_eq_single r]
          · simp
          · intro b _ hb; rw [if_neg]; intro e; exact hb (congrArg Prod.fst e)
          · intro hn; exact absurd (Finset.mem_range.2 hr) hn
        · rw [if_neg]
          · exact i2 r c hr (by omega)
          · intro hm; obtain ⟨i, _, hi⟩ := List.mem_map.1 hm
            exact hcN (congrArg Prod.snd hi).symm
  exact (key col (Nat.le_refl _)).2 r c hr hc

/-- C36: if the linear solver is exact, the computed matrix is a right inverse of `M` (with the entries the compressed
format drops taken as zero). -/
theorem C36_inverse [IsStrictOrderedRing K] (e drop : K) (solve : CCS K → (Nat → K) → (Nat → K)) (n : Nat) (M : Nat × Nat → K)
    (hs : SolvesUnit (buildCCS e drop (fun i j => M (i, j)) n n) solve) (r c : Nat) (hr : r < n) (hc : c < n) :
    ∑ k ∈ Finset.range n, (if drop + e < |M (r, k)| then M (r, k) else 0) * invert e drop solve n n M (k, c) =
      if r = c then 1 else 0 := by
  have := hs c hc r hr
  rw [← this]
  apply Finset.sum_congr rfl
  intro k hk
  have hk := Finset.mem_range.1 hk
  rw [invert_apply e drop solve n n M k c hk hc]
  congr 1
  exact ((C14_roundtrip e drop M n n).2.2.2 r k hr hk).1.symm

/-! ## C18 -/

theorem lowerOf_apply (n : Nat) (a : Nat × Nat → K) (i j : Nat) :
    lowerOf n a (i, j) = if i < n ∧ j ≤ i then a (i, j) else 0 := by
  unfold lowerOf
  have key : ∀ N, (List.range N).foldl (fun l i => (List.range (i + 1)).foldl (fun l j => upd l (i, j) (a (i, j))) l)
      (fun _ => (0 : K)) (i, j) = if i < N ∧ j ≤ i then a (i, j) else 0 := by
    intro N
    induction N with
    | zero => simp
    | succ N ih =>
      rw [List.range_succ, List.foldl_append, List.foldl_cons, List.foldl_nil]
      have hnd : ((List.range (N + 1)).map (fun j => (N, j))).Nodup := by
        refine List.Nodup.map ?_ List.nodup_range
        intro a b hab; simpa using hab
      rw [foldl_upd (List.range (N + 1)) (fun j => (N, j)) _ hnd, ih]
      by_cases hi : i = N
      · subst hi
        by_cases hj : j ≤ i
        · rw [if_pos (List.mem_map.2 ⟨j, List.mem_range.2 (by omega), rfl⟩), if_pos ⟨by omega, hj⟩, sum_list_range,
            Finset.sum_eq_single j]
          · simp
          · intro b _ hb; rw [if_neg]; intro e; exact hb (congrArg Prod.snd e)
          · intro hn; exact absurd (Finset.mem_range.2 (by omega)) hn
        · rw [if_neg, if_neg (by omega), if_neg (by omega)]
          intro hm; obtain ⟨k, hk, e⟩ := List.mem_map.1 hm
          have := List.mem_range.1 hk
          have := congrArg Prod.snd e
          simp only at this; omega
      · rw [if_neg]
        · by_cases h : i < N ∧ j ≤ i
          · rw [if_pos h, if_pos ⟨by omega, h.2⟩]
          · rw [if_neg h, if_neg (by omega)]
        · intro hm; obtain ⟨k, _, e⟩ := List.mem_map.1 hm
          exact hi (congrArg Prod.fst e).symm
  exact key n

/-- a right inverse of a lower triangular matrix has a non-zero diagonal -/
theorem diag_ne_zero (n : Nat) (L X : Nat → Nat → K) (hL : ∀ i j, i < n → i < j → L i j = 0)
    (hX : ∀ r c, r < n → c < n → ∑ k ∈ Finset.range n, L r k * X k c = if r = c then 1 else 0) :
    ∀ i, i < n → X i i ≠ 0 ∧ ∀ j, i < j → j < n → X i j = 0 := by
  intro i
  induction i using Nat.strong_induction_on with
  | _ i ih =>
    intro hi
    have hrow : ∀ j, i ≤ j → j < n → L i i * X i j = if i = j then 1 else 0 := by
      intro j hij hj
      rw [← hX i j hi hj, Finset.sum_eq_single i]
      · intro k hk hne
        rcases Nat.lt_or_ge k i with h1 | h1
        · rw [(ih k h1 (by omega)).2 j (by omega) hj, mul_zero]
        · rw [hL i k hi (by omega), zero_mul]
      · intro hn; exact absurd (Finset.mem_range.2 hi) hn
    have h1 := hrow i (Nat.le_refl _) hi
    rw [if_pos rfl] at h1
    refine ⟨fun h0 => by rw [h0, mul_zero] at h1; exact zero_ne_one h1, ?_⟩
    intro j hij hj
    have h2 := hrow j (by omega) hj
    rw [if_neg (by omega)] at h2
    rcases mul_eq_zero.1 h2 with h3 | h3
    · rw [h3, zero_mul] at h1; exact absurd h1 zero_ne_one
    · exact h3

/-- the equations of a linear system -/
def Solves (n : Nat) (a : Nat × Nat → K) (b : Nat → K) (x : Nat → K) : Prop :=
  ∀ r, r < n → ∑ c ∈ Finset.range n, a (r, c) * x c = b r

/-- one step of the loop replaces row i by a combination of the rows -/
theorem step_apply (n i : Nat) (hi : i < n) (w : Nat → K) (a : Nat × Nat → K) (r c : Nat) (hc : c < n) :
    (List.range n).foldl (fun a j => upd a (i, j) ((List.range n).foldl (fun acc k => acc + w k * a (k, j)) 0)) a (r, c) =
      if r = i then ∑ k ∈ Finset.range n, w k * a (k, c) else a (r, c) := by
  have key : ∀ N, N ≤ n → ∀ r c, (List.range N).foldl (fun a j => upd a (i, j)
      ((List.range n).foldl (fun acc k => acc + w k * a (k, j)) 0)) a (r, c) =
      if r = i ∧ c < N then ∑ k ∈ Finset.range n, w k * a (k, c) else a (r, c) := by
    intro N
    induction N with
    | zero => intro _ r c; simp
    | succ N ih =>
      intro hN r c
      have ih := ih (by omega)
      rw [List.range_succ, List.foldl_append, List.foldl_cons, List.foldl_nil]
      unfold upd
      by_cases h : (r, c) = (i, N)
      · obtain ⟨rfl, rfl⟩ := Prod.mk.inj h
        rw [if_pos rfl, if_pos ⟨rfl, by omega⟩, foldl_add_range, zero_add]
        apply Finset.sum_congr rfl
        intro k _
        have hk := ih k c
        rw [if_neg (by omega)] at hk
        unfold upd at hk
        rw [hk]
      · rw [if_neg h]
        have hk := ih r c
        unfold upd at hk
        rw [hk]
        by_cases h1 : r = i ∧ c < N
        · rw [if_pos h1, if_pos ⟨h1.1, by omega⟩]
        · rw [if_neg h1, if_neg]
          rintro ⟨h2, h3⟩
          rcases Nat.lt_or_eq_of_le (Nat.lt_succ_iff.1 h3) with h4 | h4
          · exact h1 ⟨h2, h4⟩
          · exact h (by rw [h2, h4])
  rw [key n (Nat.le_refl _) r c]
  by_cases h : r = i
  · rw [if_pos ⟨h, hc⟩, if_pos h]
  · rw [if_neg (fun hh => h hh.1), if_neg h]

/-- the row loop keeps the solutions as long as the coefficients of the own row are not zero -/
theorem preconditionLoop_solves (n : Nat) (w : Nat × Nat → K) (hw : ∀ i, i < n → w (i, i) ≠ 0) (a : Nat × Nat → K)
    (b x : Nat → K) :
    Solves n (preconditionLoop n n w a b).1 (preconditionLoop n n w a b).2 x ↔ Solves n a b x := by
  unfold preconditionLoop
  have key : ∀ N, N ≤ n →
      let s := (List.range N).foldl (fun (s : (Nat × Nat → K) × (Nat → K)) i =>
        ((List.range n).foldl (fun a j => upd a (i, j) ((List.range n).foldl (fun acc k => acc + w (i, k) * a (k, j)) 0)) s.1,
          upd s.2 i ((List.range n).foldl (fun acc k => acc + w (i, k) * s.2 k) 0))) (a, b)
      Solves n s.1 s.2 x ↔ Solves n a b x := by
    intro N
    induction N with
    | zero => intro _; exact Iff.rfl
    | succ N ih =>
      intro hN
      have ih := ih (by omega)
      simp only [List.range_succ, List.foldl_append, List.foldl_cons, List.foldl_nil] at ih ⊢
      rw [← ih]
      generalize (List.range N).foldl (fun (s : (Nat × Nat → K) × (Nat → K)) i =>
        ((List.range n).foldl (fun a j => upd a (i, j) ((List.range n).foldl (fun acc k => acc + w (i, k) * a (k, j)) 0)) s.1,
          upd s.2 i ((List.range n).foldl (fun acc k => acc + w (i, k) * s.2 k) 0))) (a, b) = s
      obtain ⟨A, B⟩ := s
      simp only
      -- the new left-hand side of equation r
      have hl : ∀ r, ∑ c ∈ Finset.range n, (List.range n).foldl (fun a j => upd a (N, j)
          ((List.range n).foldl (fun acc k => acc + w (N, k) * a (k, j)) 0)) A (r, c) * x c =
          if r = N then ∑ k ∈ Finset.range n, w (N, k) * ∑ c ∈ Finset.range n, A (k, c) * x c
          else ∑ c ∈ Finset.range n, A (r, c) * x c := by
        intro r
        have e1 : ∑ c ∈ Finset.range n, (List.range n).foldl (fun a j => upd a (N, j)
            ((List.range n).foldl (fun acc k => acc + w (N, k) * a (k, j)) 0)) A (r, c) * x c =
            ∑ c ∈ Finset.range n, (if r = N then ∑ k ∈ Finset.range n, w (N, k) * A (k, c) else A (r, c)) * x c := by
          apply Finset.sum_congr rfl
          intro c hc
          rw [step_apply n N (by omega) (fun k => w (N, k)) A r c (Finset.mem_range.1 hc)]
        rw [e1]
        by_cases h : r = N
        · simp only [if_pos h]
          simp only [Finset.sum_mul, Finset.mul_sum]
          rw [Finset.sum_comm]
          apply Finset.sum_congr rfl; intro k _; apply Finset.sum_congr rfl; intro c _; ring
        · simp only [if_neg h]
      have hb : ∀ r, upd B N ((List.range n).foldl (fun acc k => acc + w (N, k) * B k) 0) r =
          if r = N then ∑ k ∈ Finset.range n, w (N, k) * B k else B r := by
        intro r
        unfold upd
        rw [foldl_add_range, zero_add]
      unfold Solves
      constructor
      · intro h r hr
        have others : ∀ r, r < n → r ≠ N → ∑ c ∈ Finset.range n, A (r, c) * x c = B r := by
          intro r hr hne
          have := h r hr
          rwa [hl, hb, if_neg hne, if_neg hne] at this
        by_cases hrN : r = N
        · subst hrN
          have := h r hr
          rw [hl, hb, if_pos rfl, if_pos rfl] at this
          have hmem := Finset.mem_range.2 hr
          rw [← Finset.add_sum_erase _ _ hmem, ← Finset.add_sum_erase (Finset.range n) (fun k => w (r, k) * B k) hmem] at this
          have e2 : ∑ k ∈ (Finset.range n).erase r, w (r, k) * ∑ c ∈ Finset.range n, A (k, c) * x c =
              ∑ k ∈ (Finset.range n).erase r, w (r, k) * B k := by
            apply Finset.sum_congr rfl
            intro k hk
            rw [Finset.mem_erase, Finset.mem_range] at hk
            rw [others k hk.2 hk.1]
          rw [e2, add_left_inj] at this
          exact mul_left_cancel₀ (hw r hr) this
        · exact others r hr hrN
      · intro h r hr
        rw [hl, hb]
        by_cases hrN : r = N
        · rw [if_pos hrN, if_pos hrN]
          apply Finset.sum_congr rfl
          intro k hk
          rw [h k (Finset.mem_range.1 hk)]
        · rw [if_neg hrN, if_neg hrN]; exact h r hr
  exact key n (Nat.le_refl _)

/-- C18: preconditioning a square system keeps its set of solutions, provided the solver inverts the lower triangle
exactly. -/
theorem C18_same_solutions [IsStrictOrderedRing K] (e drop : K) (he : 0 ≤ drop + e) (solve : CCS K → (Nat → K) → (Nat → K)) (n : Nat)
    (a : Nat × Nat → K) (b : Nat → K)
    (hs : SolvesUnit (buildCCS e drop (fun i j => lowerOf n a (i, j)) n n) solve) (x : Nat → K) :
    let s := preconditionLoop n n (invert e drop solve n n (lowerOf n a)) a b
    Solves n s.1 s.2 x ↔ Solves n a b x := by
  refine preconditionLoop_solves n _ ?_ a b x
  intro i hi
  refine (diag_ne_zero n (fun r k => if drop + e < |lowerOf n a (r, k)| then lowerOf n a (r, k) else 0)
    (fun k c => invert e drop solve n n (lowerOf n a) (k, c)) ?_ ?_ i hi).1
  · intro i j _ hij
    have h0 : lowerOf n a (i, j) = 0 := by rw [lowerOf_apply, if_neg (by omega)]
    show (if drop + e < |lowerOf n a (i, j)| then lowerOf n a (i, j) else 0) = 0
    rw [h0]; simp
  · intro r c hr hc
    exact C36_inverse e drop solve n (lowerOf n a) hs r c hr hc

/-- Remark: because the loop works in place, the result is not L⁻¹A: for A = [[2,1],[1,2]] the second row becomes
(1/4, 7/8) instead of (0, 3/4). -/
theorem C18_remark : let a : Nat × Nat → ℚ := fun p => if p.1 = p.2 then 2 else 1
    let invl : Nat × Nat → ℚ := fun p => if p = (1, 0) then -1/4 else if p.1 = p.2 then 1/2 else 0
    (preconditionLoop 2 2 invl a (fun _ => 1)).1 (1, 0) = 1/4 ∧
    (preconditionLoop 2 2 invl a (fun _ => 1)).1 (1, 1) = 7/8 ∧
    (∑ k ∈ Finset.range 2, invl (1, k) * a (k, 0) = 0) ∧ ∑ k ∈ Finset.range 2, invl (1, k) * a (k, 1) = 3/4 := by
  decide +kernel

/-- a matrix and a solver as in C18 and C36: 1x1, a = (4) -/
example : SolvesUnit (buildCCS (1/1000 : ℚ) 0 (fun i j => lowerOf 1 (fun _ => 4) (i, j)) 1 1) (fun _ b k => b k / 4) := by
  intro c hc r hr
  have hc : c = 0 := by simpa [buildCCS] using hc
  have hr : r = 0 := by simpa [buildCCS] using hr
  subst hc hr
  decide +kernel

end Elliptica.Mat
