import Verif.Props.Matrix
/-!
Property C16: products and sums of matrices in all formats.
-/
namespace Elliptica.Mat
open Finset

variable {K : Type} [Field K] [LinearOrder K]

theorem ij_inj {col i j i' j' : Nat} (hj : j < col) (hj' : j' < col) (e : Index.ij col i j = Index.ij col i' j') :
    i = i' ∧ j = j' := by
  have hcpos : 0 < col := by omega
  unfold Index.ij at e
  have a := congrArg (· % col) e
  have b := congrArg (· / col) e
  simp only [Nat.add_mul_mod_self_left, Nat.mod_eq_of_lt hj, Nat.mod_eq_of_lt hj'] at a
  simp only [Nat.add_mul_div_left _ _ hcpos, Nat.div_eq_of_lt hj, Nat.div_eq_of_lt hj', Nat.zero_add] at b
  exact ⟨b, a⟩

/-- a sum over the stored entries of a column is a sum over all rows -/
theorem list_pick_sum (l : List Nat) (ai : Nat → Nat) (ax : Nat → K) (n : Nat) (h : ∀ i ∈ l, ai i < n) (f : Nat → K) :
    (l.map (fun i => f (ai i) * ax i)).sum =
      ∑ k ∈ Finset.range n, f k * (l.map (fun i => if ai i = k then ax i else 0)).sum := by
  induction l with
  | nil => simp
  | cons a l ih =>
    simp only [List.map_cons, List.sum_cons, mul_add, Finset.sum_add_distrib]
    rw [ih (fun i hi => h i (List.mem_cons_of_mem _ hi))]
    congr 1
    rw [Finset.sum_eq_single (ai a)]
    · simp
    · intro b _ hb; rw [if_neg (Ne.symm hb), mul_zero]
    · intro hn; exact absurd (Finset.mem_range.2 (h a (List.mem_cons_self ..))) hn

theorem seg_sum {A : CCS K} (h : A.WF) {c : Nat} (hc : c < A.col) (f : Nat → K) :
    ((A.seg c).map (fun i => f (A.ai i) * A.ax i)).sum = ∑ k ∈ Finset.range A.row, f k * A.entry k c :=
  list_pick_sum _ _ _ _ (fun _ hi => (h.seg_mem hc hi).2.2.2) f

/-- double loop adding `x i j` at place `p i j` -/
theorem loop2 {P : Type} [DecidableEq P] (N : Nat) (L : Nat → List Nat) (p : Nat → Nat → P) (x : Nat → Nat → K)
    (m : P → K) (q : P) :
    (List.range N).foldl (fun m i => (L i).foldl (fun m j => addTo m (p i j) (x i j)) m) m q =
      m q + ∑ i ∈ Finset.range N, ((L i).map (fun j => if q = p i j then x i j else 0)).sum := by
  rw [loop_add _ _ (fun i q => ((L i).map (fun j => if q = p i j then x i j else 0)).sum), sum_list_range]
  intro m i q
  rw [loop_add _ _ (fun j q => if q = p i j then x i j else 0)]
  intro m j q; exact addTo_apply _ _ _ _

/-- triple loop -/
theorem loop3 {P : Type} [DecidableEq P] (N : Nat) (L : Nat → List Nat) (L' : Nat → Nat → List Nat)
    (p : Nat → Nat → Nat → P) (x : Nat → Nat → Nat → K) (m : P → K) (q : P) :
    (List.range N).foldl (fun m i => (L i).foldl (fun m j => (L' i j).foldl (fun m k =>
        addTo m (p i j k) (x i j k)) m) m) m q =
      m q + ∑ i ∈ Finset.range N, ((L i).map (fun j => ((L' i j).map (fun k => if q = p i j k then x i j k else 0)).sum)).sum := by
  rw [loop_add _ _ (fun i q => ((L i).map (fun j => ((L' i j).map (fun k => if q = p i j k then x i j k else 0)).sum)).sum),
    sum_list_range]
  intro m i q
  rw [loop_add _ _ (fun j q => ((L' i j).map (fun k => if q = p i j k then x i j k else 0)).sum)]
  intro m j q
  rw [loop_add _ _ (fun k q => if q = p i j k then x i j k else 0)]
  intro m k q; exact addTo_apply _ _ _ _

theorem init_loop (n : Nat) (b : Nat → K) (r : Nat) :
    (List.range n).foldl (fun b r => upd b r 0) b r = if r < n then 0 else b r := by
  have := foldl_fun_upd (List.range n) (fun _ => (0 : K)) b r
  rw [show (fun (b : Nat → K) r => upd b r 0) = (fun m i => fun q => if q = i then 0 else m q) from rfl]
  simpa using this

/-- C16, matrix times vector (regular and row-major format): the result is `b + M v` in every row, with `b = 0` when
initialization is asked for; other positions of `b` are not touched. -/
theorem C16_matrix_vector (m : Mx K) (h0 : m.row ≠ 0 ∧ m.col ≠ 0) (hf : ∀ A, m ≠ .ccs A) (v b : Nat → K) (init : Bool) :
    ∃ b', matrixByVector m v b init = .ok b' ∧
      (∀ r, r < m.row → b' r = (if init then 0 else b r) + ∑ c ∈ Finset.range m.col, m.entry r c * v c) ∧
      ∀ r, m.row ≤ r → b' r = b r := by
  have row1 : ∀ (row col : Nat) (X : Nat → Nat → K) (b0 : Nat → K) (q : Nat),
      (List.range row).foldl (fun b r => (List.range col).foldl (fun b c => addTo b r (X r c)) b) b0 q =
        b0 q + if q < row then ∑ c ∈ Finset.range col, X q c else 0 := by
    intro row col X b0 q
    rw [loop2 row (fun _ => List.range col) (fun i _ => i) X]
    congr 1
    simp only [sum_list_range]
    by_cases hq : q < row
    · rw [if_pos hq, Finset.sum_eq_single q]
      · simp
      · intro i _ hi; apply Finset.sum_eq_zero; intro j _; rw [if_neg (Ne.symm hi)]
      · intro hn; exact absurd (Finset.mem_range.2 hq) hn
    · rw [if_neg hq]
      apply Finset.sum_eq_zero; intro i hi; apply Finset.sum_eq_zero; intro j _
      rw [if_neg]; intro e; subst e; exact hq (Finset.mem_range.1 hi)
  have hb0 : ∀ (row : Nat) (q : Nat), (if init = true then (List.range row).foldl (fun b r => upd b r 0) b else b) q =
      if init then (if q < row then 0 else b q) else b q := by
    intro row q
    cases init
    · simp
    · simp only [if_true]; exact init_loop row b q
  cases m with
  | ccs A => exact absurd rfl (hf A)
  | reg row col M =>
    refine ⟨_, by simp only [matrixByVector, h0.1, h0.2, or_self, if_false]; rfl, ?_, ?_⟩
    · intro r hr
      simp only [Mx.row] at hr
      rw [row1, hb0, if_pos hr]
      simp [Mx.row, hr, Mx.entry, Mx.col]
    · intro r hr
      simp only [Mx.row] at hr
      rw [row1, hb0, if_neg (not_lt.2 hr)]
      simp [Mx.row, not_lt.2 hr]
  | rmo row col M =>
    refine ⟨_, by simp only [matrixByVector, h0.1, h0.2, or_self, if_false]; rfl, ?_, ?_⟩
    · intro r hr
      simp only [Mx.row] at hr
      rw [row1, hb0, if_pos hr]
      simp [Mx.row, hr, Mx.entry, Mx.col]
    · intro r hr
      simp only [Mx.row] at hr
      rw [row1, hb0, if_neg (not_lt.2 hr)]
      simp [Mx.row, not_lt.2 hr]

example : matrixByVector (.reg 2 2 (fun p => (p.1 + 2 * p.2 + 1 : ℚ))) (fun c => c + 1) (fun _ => 7) true =
    .ok ((List.range 2).foldl (fun b r => (List.range 2).foldl (fun b c => addTo b r (((r : ℚ) + 2 * c + 1) * (c + 1))) b)
      ((List.range 2).foldl (fun b r => upd b r 0) (fun _ => 7))) := rfl

theorem triple_sum (ar bc n : Nat) (X : Nat → Nat → Nat → K) {P : Type} [DecidableEq P] (pos : Nat → Nat → P)
    (r c : Nat) (hr : r < ar) (hc : c < bc)
    (hinj : ∀ i j, i < ar → j < bc → pos r c = pos i j → r = i ∧ c = j) :
    ∑ i ∈ Finset.range ar, ∑ j ∈ Finset.range bc, ∑ k ∈ Finset.range n, (if pos r c = pos i j then X i j k else 0) =
      ∑ k ∈ Finset.range n, X r c k := by
  rw [Finset.sum_eq_single r, Finset.sum_eq_single c]
  · simp
  · intro j hj hne; apply Finset.sum_eq_zero; intro k _; rw [if_neg]
    intro e; exact hne (hinj r j hr (Finset.mem_range.1 hj) e).2.symm
  · intro hn; exact absurd (Finset.mem_range.2 hc) hn
  · intro i hi hne; apply Finset.sum_eq_zero; intro j hj; apply Finset.sum_eq_zero; intro k _; rw [if_neg]
    intro e; exact hne (hinj i j (Finset.mem_range.1 hi) (Finset.mem_range.1 hj) e).1.symm
  · intro hn; exact absurd (Finset.mem_range.2 hr) hn

/-- C16, product of two regular or two compressed matrices: whenever the shapes fit, the result is a regular matrix of
the right shape with entries `Σ a_{rk} b_{kc}`. -/
theorem C16_product (a b : Mx K) (ha : a.WF) (hb : b.WF) (h0 : a.row ≠ 0 ∧ a.col ≠ 0 ∧ b.row ≠ 0 ∧ b.col ≠ 0)
    (hs : a.col = b.row)
    (hf : (∃ r1 c1 A r2 c2 B, a = .reg r1 c1 A ∧ b = .reg r2 c2 B) ∨ (∃ A B, a = .ccs A ∧ b = .ccs B)) :
    ∃ D, mulMM a b = .ok (.reg a.row b.col D) ∧
      ∀ r c, r < a.row → c < b.col → D (r, c) = ∑ k ∈ Finset.range a.col, a.entry r k * b.entry k c := by
  have hg : ¬ (a.row = 0 ∨ a.col = 0 ∨ b.row = 0 ∨ b.col = 0 ∨ a.col ≠ b.row) := by
    simp only [not_or, not_not]; exact ⟨h0.1, h0.2.1, h0.2.2.1, h0.2.2.2, hs⟩
  rcases hf with ⟨r1, c1, A, r2, c2, B, rfl, rfl⟩ | ⟨A, B, rfl, rfl⟩
  · refine ⟨_, by rw [mulMM, if_neg hg]; rfl, ?_⟩
    intro r c hr hc
    simp only [Mx.row, Mx.col] at hr hc hs
    rw [loop3 r1 (fun _ => List.range c2) (fun _ _ => List.range r2) (fun i j _ => (i, j))]
    simp only [sum_list_range]
    rw [triple_sum r1 c2 r2 (fun r c i => A (r, i) * B (i, c)) (fun i j => (i, j)) r c hr hc
      (by intro i j _ _ e; simpa using e)]
    simp [Mx.entry, Mx.col, hs]
  · have hA : A.WF := ha
    have hB : B.WF := hb
    refine ⟨_, by rw [mulMM, if_neg hg]; rfl, ?_⟩
    intro r c hr hc
    simp only [Mx.row, Mx.col] at hr hc hs
    rw [loop3 B.col (fun c => B.seg c) (fun _ j => A.seg (B.ai j)) (fun i j k => (A.ai k, i))]
    rw [zero_add, Finset.sum_eq_single c]
    · have e1 : ((B.seg c).map (fun j => ((A.seg (B.ai j)).map (fun k => if (r, c) = (A.ai k, c) then A.ax k * B.ax j else 0)).sum)) =
          (B.seg c).map (fun j => A.entry r (B.ai j) * B.ax j) := by
        apply List.map_congr_left
        intro j _
        unfold CCS.entry
        rw [← List.sum_map_mul_right]
        congr 1
        apply List.map_congr_left
        intro k _
        by_cases h : A.ai k = r
        · simp [h]
        · have : ¬ r = A.ai k := fun e => h e.symm
          simp [h, this]
      rw [e1, seg_sum hB hc (fun j => A.entry r j)]
      simp [Mx.entry, Mx.col, hs]
    · intro i _ hne
      apply List.sum_eq_zero
      intro x hx
      obtain ⟨j, _, rfl⟩ := List.mem_map.1 hx
      apply List.sum_eq_zero
      intro x hx
      obtain ⟨k, _, rfl⟩ := List.mem_map.1 hx
      rw [if_neg]; intro e; exact hne (congrArg Prod.snd e).symm
    · intro hn; exact absurd (Finset.mem_range.2 hc) hn

/-- C16, `a * Transpose(b)` into a new regular matrix (regular or row-major operands). -/
theorem C16_product_transpose (a b : Mx K) (h0 : a.row ≠ 0 ∧ a.col ≠ 0 ∧ b.row ≠ 0 ∧ b.col ≠ 0) (hs : a.col = b.col)
    (hf : (∃ r1 c1 A r2 c2 B, a = .reg r1 c1 A ∧ b = .reg r2 c2 B) ∨ (∃ r1 c1 A r2 c2 B, a = .rmo r1 c1 A ∧ b = .rmo r2 c2 B)) :
    ∃ D, mulMMT a b none = .ok (.reg a.row b.row D) ∧
      ∀ r c, r < a.row → c < b.row → D (r, c) = ∑ k ∈ Finset.range a.col, a.entry r k * b.entry c k := by
  have hg : ¬ (a.row = 0 ∨ a.col = 0 ∨ b.row = 0 ∨ b.col = 0 ∨ a.col ≠ b.col) := by
    simp only [not_or, not_not]; exact ⟨h0.1, h0.2.1, h0.2.2.1, h0.2.2.2, hs⟩
  rcases hf with ⟨r1, c1, A, r2, c2, B, rfl, rfl⟩ | ⟨r1, c1, A, r2, c2, B, rfl, rfl⟩
  · refine ⟨_, by rw [mulMMT, if_neg hg]; rfl, ?_⟩
    intro r c hr hc
    simp only [Mx.row, Mx.col] at hr hc hs
    rw [loop3 r1 (fun _ => List.range r2) (fun _ _ => List.range c2) (fun i j _ => (i, j))]
    simp only [sum_list_range]
    rw [triple_sum r1 r2 c2 (fun r c i => A (r, i) * B (c, i)) (fun i j => (i, j)) r c hr hc
      (by intro i j _ _ e; simpa using e)]
    simp [Mx.entry, Mx.col, hs]
  · refine ⟨_, by rw [mulMMT, if_neg hg]; rfl, ?_⟩
    intro r c hr hc
    simp only [Mx.row, Mx.col] at hr hc hs
    rw [loop3 r1 (fun _ => List.range r2) (fun _ _ => List.range c2) (fun i j _ => (i, j))]
    simp only [sum_list_range]
    rw [triple_sum r1 r2 c2 (fun r c i => A (Index.ij c2 r i) * B (Index.ij c2 c i)) (fun i j => (i, j)) r c hr hc
      (by intro i j _ _ e; simpa using e)]
    simp [Mx.entry, Mx.col, hs]

/-- C16, `a * Transpose(b)` accumulated into a given row-major matrix (row-major or compressed operands). -/
theorem C16_product_transpose_into (a b : Mx K) (ha : a.WF) (hb : b.WF) (D0 : Nat → K)
    (h0 : a.row ≠ 0 ∧ a.col ≠ 0 ∧ b.row ≠ 0 ∧ b.col ≠ 0) (hs : a.col = b.col)
    (hf : (∃ r1 c1 A r2 c2 B, a = .rmo r1 c1 A ∧ b = .rmo r2 c2 B) ∨ (∃ A B, a = .ccs A ∧ b = .ccs B)) :
    ∃ m, mulMMT a b (some D0) = .ok m ∧ m.row = a.row ∧ m.col = b.row ∧
      ∀ r c, r < a.row → c < b.row →
        m.entry r c = (Mx.rmo a.row b.row D0).entry r c + ∑ k ∈ Finset.range a.col, a.entry r k * b.entry c k := by
  have hg : ¬ (a.row = 0 ∨ a.col = 0 ∨ b.row = 0 ∨ b.col = 0 ∨ a.col ≠ b.col) := by
    simp only [not_or, not_not]; exact ⟨h0.1, h0.2.1, h0.2.2.1, h0.2.2.2, hs⟩
  rcases hf with ⟨r1, c1, A, r2, c2, B, rfl, rfl⟩ | ⟨A, B, rfl, rfl⟩
  · refine ⟨.rmo r1 r2 _, by rw [mulMMT, if_neg hg], rfl, rfl, ?_⟩
    intro r c hr hc
    simp only [Mx.row, Mx.col] at hr hc hs
    simp only [Mx.entry, Mx.row, Mx.col]
    rw [loop3 r1 (fun _ => List.range r2) (fun _ _ => List.range c2) (fun i j _ => Index.ij r2 i j)]
    simp only [sum_list_range]
    rw [triple_sum r1 r2 c2 (fun r c i => A (Index.ij c2 r i) * B (Index.ij c2 c i)) (fun i j => Index.ij r2 i j) r c hr hc
      (by intro i j _ hj e; exact ij_inj hc hj e), hs]
  · have hA : A.WF := ha
    have hB : B.WF := hb
    refine ⟨.rmo A.row B.row _, by rw [mulMMT, if_neg hg], rfl, rfl, ?_⟩
    intro r c hr hc
    simp only [Mx.row, Mx.col] at hr hc hs
    simp only [Mx.entry, Mx.row, Mx.col]
    rw [loop3 A.col (fun c => A.seg c) (fun i _ => B.seg i) (fun _ j k => Index.ij B.row (A.ai j) (B.ai k))]
    congr 1
    apply Finset.sum_congr rfl
    intro k hk
    have hk := Finset.mem_range.1 hk
    have e1 : ((A.seg k).map (fun j => ((B.seg k).map (fun l => if Index.ij B.row r c = Index.ij B.row (A.ai j) (B.ai l)
          then A.ax j * B.ax l else 0)).sum)) =
        (A.seg k).map (fun j => (if A.ai j = r then A.ax j else 0) * B.entry c k) := by
      apply List.map_congr_left
      intro j _
      unfold CCS.entry
      rw [← List.sum_map_mul_left]
      congr 1
      apply List.map_congr_left
      intro l hl
      have hl := (hB.seg_mem (by omega) hl).2.2.2
      by_cases h : A.ai j = r ∧ B.ai l = c
      · rw [if_pos (by rw [h.1, h.2]), if_pos h.1, if_pos h.2]
      · rw [if_neg]
        · rcases not_and_or.1 h with h | h
          · rw [if_neg h, zero_mul]
          · rw [if_neg h, mul_zero]
        · intro e; have := ij_inj hc hl e; exact h ⟨this.1.symm, this.2.symm⟩
    rw [e1, List.sum_map_mul_right]
    rfl

end Elliptica.Mat
