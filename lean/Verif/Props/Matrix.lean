import Verif.Lemmas.Matrix
/-!
Properties C14 (sparse conversion), C15 (casts), C16 (products and sums), C18 (preconditioner), C35 (entry
readers), C36 (matrix inversion).
-/
namespace Elliptica.Mat
open Finset

variable {K : Type} [Field K] [LinearOrder K]

/-- the test that decides whether an entry is stored, in plain terms -/
theorem keep_iff [IsStrictOrderedRing K] (e drop x : K) : keep e drop x = true ↔ drop + e < |x| := by
  unfold keep Tol.grt absd
  rw [decide_eq_true_eq]
  have : (if x > 0 then x else -x) = |x| := by
    split
    · rename_i h; rw [abs_of_pos h]
    · rename_i h; rw [abs_of_nonpos (not_lt.1 h)]
  rw [this]

/-! ## C14 -/

/-- Reading a well-formed compressed matrix back into a dense one gives its entries. -/
theorem C14_ccs2reg (A : CCS K) (h : A.WF) (r c : Nat) (hc : c < A.col) : ccs2reg A (r, c) = A.entry r c := by
  have key : ∀ N, N ≤ A.col → ∀ c, (List.range N).foldl (fun m c => (A.seg c).foldl (fun m i => upd m (A.ai i, c) (A.ax i)) m)
      (fun _ => (0 : K)) (r, c) = if c < N then A.entry r c else 0 := by
    intro N
    induction N with
    | zero => intro _ c; simp
    | succ N ih =>
      intro hN c
      rw [List.range_succ, List.foldl_append, List.foldl_cons, List.foldl_nil]
      have hnd : ((A.seg N).map (fun i => (A.ai i, N))).Nodup := by
        have h0 := h.seg_nodup (c := N) (by omega)
        have : (A.seg N).map (fun i => (A.ai i, N)) = ((A.seg N).map A.ai).map (fun a => (a, N)) := by
          rw [List.map_map]; rfl
        rw [this]
        refine List.Nodup.map ?_ h0
        intro a b hab; simpa using hab
      rw [foldl_upd (A.seg N) (fun i => (A.ai i, N)) A.ax hnd, ih (by omega)]
      by_cases hcN : c = N
      · subst hcN
        have e1 : ((A.seg c).map (fun i => if (A.ai i, c) = (r, c) then A.ax i else 0)).sum = A.entry r c := by
          unfold CCS.entry; congr 1; apply List.map_congr_left; intro i _; simp
        rw [e1]
        by_cases hm : (r, c) ∈ (A.seg c).map (fun i => (A.ai i, c))
        · simp [hm]
        · have : A.entry r c = 0 := by
            unfold CCS.entry
            apply List.sum_eq_zero
            intro x hx
            obtain ⟨i, hi, rfl⟩ := List.mem_map.1 hx
            rw [if_neg]
            intro e; apply hm; rw [List.mem_map]; exact ⟨i, hi, by rw [e]⟩
          simp [hm, this]
      · have hm : (r, c) ∉ (A.seg N).map (fun i => (A.ai i, N)) := by
          intro hm; obtain ⟨i, _, hi⟩ := List.mem_map.1 hm
          exact hcN (by simpa using (congrArg Prod.snd hi).symm)
        rw [if_neg hm]
        by_cases hlt : c < N
        · rw [if_pos hlt, if_pos (by omega)]
        · rw [if_neg hlt, if_neg (by omega)]
  have := key A.col (Nat.le_refl _) c
  rw [if_pos hc] at this
  exact this

/-- C14: for every dense matrix of every size and every drop limit, compressing gives a well-formed compressed
matrix of the same shape, whose entries - and the entries obtained by converting back - are the given ones with
those of absolute value at most (drop limit + round-off) replaced by zero. -/
theorem C14_roundtrip [IsStrictOrderedRing K] (e drop : K) (M : Nat × Nat → K) (row col : Nat) :
    let A := buildCCS e drop (fun i j => M (i, j)) row col
    A.WF ∧ A.row = row ∧ A.col = col ∧ ∀ r c, r < row → c < col →
      A.entry r c = (if drop + e < |M (r, c)| then M (r, c) else 0) ∧
      ccs2reg A (r, c) = (if drop + e < |M (r, c)| then M (r, c) else 0) := by
  intro A
  have hw : A.WF := buildCCS_wf e drop _ row col
  refine ⟨hw, rfl, rfl, ?_⟩
  intro r c hr hc
  have h1 : A.entry r c = (if drop + e < |M (r, c)| then M (r, c) else 0) := by
    show (buildCCS e drop (fun i j => M (i, j)) row col).entry r c = _
    rw [buildCCS_entry e drop _ row col r c hr hc]
    by_cases h : drop + e < |M (r, c)|
    · simp [h, (keep_iff e drop (M (r, c))).2 h]
    · have : keep e drop (M (r, c)) = false := by
        rw [← Bool.not_eq_true, keep_iff]; exact h
      simp [h, this]
  exact ⟨h1, by rw [C14_ccs2reg A hw r c hc, h1]⟩

/-- The same for a matrix in row-major order. -/
theorem C14_roundtrip_rmo [IsStrictOrderedRing K] (e drop : K) (M : Nat → K) (row col : Nat) :
    let A := buildCCS e drop (fun i j => M (Index.ij col i j)) row col
    A.WF ∧ ∀ r c, r < row → c < col →
      A.entry r c = (if drop + e < |M (col * r + c)| then M (col * r + c) else 0) := by
  intro A
  refine ⟨buildCCS_wf e drop _ row col, ?_⟩
  intro r c hr hc
  have e1 : Index.ij col r c = col * r + c := by unfold Index.ij; ring
  show (buildCCS e drop (fun i j => M (Index.ij col i j)) row col).entry r c = _
  rw [buildCCS_entry e drop _ row col r c hr hc, e1]
  by_cases h : drop + e < |M (col * r + c)|
  · simp [h, (keep_iff e drop (M (col * r + c))).2 h]
  · have : keep e drop (M (col * r + c)) = false := by
      rw [← Bool.not_eq_true, keep_iff]; exact h
    simp [h, this]

example : ccs2reg (buildCCS (1/1000 : ℚ) 0 (fun i j => if i = j then 0 else (i : ℚ) - 2 * j) 3 3) (0, 2) = -4 ∧
    (buildCCS (1/1000 : ℚ) 0 (fun i j => if i = j then 0 else (i : ℚ) - 2 * j) 3 3).Ap = [0, 2, 3, 5] := by
  decide +kernel

/-! ### stacks -/

/-- the entry of a stack of blocks (a missing block is zero) -/
def stackEntry (S : List (Option (Nat × Nat → K) × Nat)) (r c : Nat) : K :=
  match S with
  | [] => 0
  | (m, n) :: S => if r < n then (match m with | none => 0 | some m => m (r, c)) else stackEntry S (r - n) c

/-- stored rows of one column of a stack -/
def stackCol (e : K) (c : Nat) : Nat → List (Option (Nat × Nat → K) × Nat) → List (Nat × K)
  | _, [] => []
  | R, (none, n) :: S => stackCol e c (R + n) S
  | R, (some m, n) :: S =>
    ((List.range n).filter (fun r => keep e 0 (m (r, c)))).map (fun r => (r + R, m (r, c))) ++ stackCol e c (R + n) S

theorem stackLoop_eq (e : K) (c : Nat) (S : List (Option (Nat × Nat → K) × Nat)) (R : Nat) (st : List Nat × List K) :
    (S.foldl (stackStep e c) (R, st)).2 =
    (st.1 ++ (stackCol e c R S).map (·.1), st.2 ++ (stackCol e c R S).map (·.2)) := by
  induction S generalizing R st with
  | nil => simp [stackCol]
  | cons p S ih =>
    obtain ⟨m, n⟩ := p
    rw [List.foldl_cons]
    cases m with
    | none => simp only [stackStep]; rw [ih]; simp [stackCol]
    | some m =>
      simp only [stackStep]; rw [ih, pushRows_eq]
      simp [stackCol, List.map_map, Function.comp_def]

def totalRows (S : List (Option (Nat × Nat → K) × Nat)) : Nat := (S.map (·.2)).sum

theorem stackCol_bounds (e : K) (c : Nat) (S : List (Option (Nat × Nat → K) × Nat)) (R : Nat) :
    ∀ p ∈ stackCol e c R S, R ≤ p.1 ∧ p.1 < R + totalRows S := by
  induction S generalizing R with
  | nil => simp [stackCol]
  | cons q S ih =>
    obtain ⟨m, n⟩ := q
    intro p hp
    cases m with
    | none =>
      have := ih (R + n) p hp
      simp only [totalRows, List.map_cons, List.sum_cons] at *; omega
    | some m =>
      simp only [stackCol, List.mem_append] at hp
      rcases hp with hp | hp
      · obtain ⟨r, hr, rfl⟩ := List.mem_map.1 hp
        have := (List.mem_filter.1 hr).1
        rw [List.mem_range] at this
        simp only [totalRows, List.map_cons, List.sum_cons]; omega
      · have := ih (R + n) p hp
        simp only [totalRows, List.map_cons, List.sum_cons] at *; omega

theorem stackCol_sorted (e : K) (c : Nat) (S : List (Option (Nat × Nat → K) × Nat)) (R : Nat) :
    ((stackCol e c R S).map (·.1)).Pairwise (· < ·) := by
  induction S generalizing R with
  | nil => simp [stackCol]
  | cons q S ih =>
    obtain ⟨m, n⟩ := q
    cases m with
    | none => exact ih (R + n)
    | some m =>
      simp only [stackCol, List.map_append, List.pairwise_append]
      refine ⟨?_, ih (R + n), ?_⟩
      · rw [List.map_map, List.pairwise_map]
        refine List.Pairwise.imp ?_ (List.Pairwise.filter _ (List.pairwise_lt_range (n := n)))
        intro a b hab; simpa using hab
      · intro a ha b hb
        obtain ⟨p, hp, rfl⟩ := List.mem_map.1 ha
        obtain ⟨q, hq, rfl⟩ := List.mem_map.1 hb
        obtain ⟨r, hr, rfl⟩ := List.mem_map.1 hp
        have h1 := (List.mem_filter.1 hr).1
        rw [List.mem_range] at h1
        have h2 := (stackCol_bounds e c S (R + n) q hq).1
        simp only; omega

theorem stackCol_entry (e : K) (c : Nat) (S : List (Option (Nat × Nat → K) × Nat)) (R r : Nat)
    (hr : r < totalRows S) (he : keep e 0 0 = false) :
    ((stackCol e c R S).map (fun p => if p.1 = R + r then p.2 else 0)).sum =
      if keep e 0 (stackEntry S r c) then stackEntry S r c else 0 := by
  induction S generalizing R r with
  | nil => simp [totalRows] at hr
  | cons q S ih =>
    obtain ⟨m, n⟩ := q
    have htot : totalRows ((m, n) :: S) = n + totalRows S := by simp [totalRows]
    have hsmall : ∀ r, r < n → ((stackCol e c (R + n) S).map (fun p => if p.1 = R + r then p.2 else 0)).sum = 0 := by
      intro r hrn
      apply List.sum_eq_zero
      intro x hx
      obtain ⟨p, hp, rfl⟩ := List.mem_map.1 hx
      have := (stackCol_bounds e c S (R + n) p hp).1
      rw [if_neg (by omega)]
    have hbig : ∀ r, ¬ r < n → r < n + totalRows S →
        ((stackCol e c (R + n) S).map (fun p => if p.1 = R + r then p.2 else 0)).sum =
          if keep e 0 (stackEntry S (r - n) c) then stackEntry S (r - n) c else 0 := by
      intro r hrn h2
      have := ih (R + n) (r - n) (by omega)
      rwa [show R + n + (r - n) = R + r from by omega] at this
    cases m with
    | none =>
      simp only [stackCol, stackEntry]
      by_cases h : r < n
      · rw [hsmall r h, if_pos h]; simp
      · rw [hbig r h (by omega), if_neg h]
    | some m =>
      simp only [stackCol, stackEntry, List.map_append, List.sum_append]
      have hfirst : ((((List.range n).filter (fun r => keep e 0 (m (r, c)))).map (fun r => (r + R, m (r, c)))).map
          (fun p => if p.1 = R + r then p.2 else 0)).sum = if r < n ∧ keep e 0 (m (r, c)) then m (r, c) else 0 := by
        have := sum_pick ((List.range n).filter (fun r => keep e 0 (m (r, c)))) (List.Nodup.filter _ List.nodup_range)
          (fun r => m (r, c)) r
        rw [List.map_map] at this
        rw [List.map_map]
        rw [show ((fun p : Nat × K => if p.1 = R + r then p.2 else 0) ∘ fun r => (r + R, m (r, c))) =
          ((fun p : Nat × K => if p.1 = r then p.2 else 0) ∘ fun x => (x, m (x, c))) from by
            funext x; simp only [Function.comp]
            by_cases hx : x = r
            · simp [hx, Nat.add_comm]
            · have : ¬ x + R = R + r := by omega
              simp [hx, this]]
        rw [this]
        simp [List.mem_filter]
      rw [hfirst]
      by_cases h : r < n
      · rw [hsmall r h, if_pos h]; simp [h]
      · rw [hbig r h (by omega), if_neg h]; simp [h]

/-- C14 for stacks: compressing a stack of blocks (some of them missing, i.e. zero) gives a well-formed matrix whose
entries are those of the blocks put below each other, small entries dropped. -/
theorem C14_stack [IsStrictOrderedRing K] (e : K) (he : 0 ≤ e) (S : List (Option (Nat × Nat → K) × Nat)) (Ncol : Nat) :
    let A := compressStack e S (totalRows S) Ncol
    A.WF ∧ ∀ r c, r < totalRows S → c < Ncol →
      A.entry r c = if e < |stackEntry S r c| then stackEntry S r c else 0 := by
  intro A
  have hk0 : keep e 0 (0 : K) = false := by
    rw [← Bool.not_eq_true, keep_iff]; simpa using he
  have hA : A = ofCols (totalRows S) Ncol (fun c => (stackCol e c 0 S).map (·.1)) (fun c => (stackCol e c 0 S).map (·.2)) := by
    have := colLoop_eq (fun c st => (S.foldl (stackStep e c) (0, st)).2)
      (fun c => (stackCol e c 0 S).map (·.1)) (fun c => (stackCol e c 0 S).map (·.2))
      (by intro c st; exact stackLoop_eq e c S 0 st) Ncol
    show compressStack e S (totalRows S) Ncol = _
    unfold compressStack
    simp only [this]
    rfl
  rw [hA]
  refine ⟨ofCols_wf (by intro c; simp) ?_ ?_, ?_⟩
  · intro c _; exact stackCol_sorted e c S 0
  · intro c _ x hx
    obtain ⟨p, hp, rfl⟩ := List.mem_map.1 hx
    have := (stackCol_bounds e c S 0 p hp).2
    omega
  · intro r c hr hc
    rw [ofCols_entry (by intro c; simp) r c hc]
    have hz : (((stackCol e c 0 S).map (·.1)).zip ((stackCol e c 0 S).map (·.2))) = stackCol e c 0 S := by
      rw [List.zip_map']; simp
    rw [hz]
    have := stackCol_entry e c S 0 r hr hk0
    rw [Nat.zero_add] at this
    rw [this]
    by_cases h : e < |stackEntry S r c|
    · simp [h, (keep_iff e 0 (stackEntry S r c)).2 (by simpa using h)]
    · have h2 : keep e 0 (stackEntry S r c) = false := by
        rw [← Bool.not_eq_true, keep_iff]; simpa using h
      simp [h, h2]

/-! ## C15 -/

/-- Violation: casting a regular matrix to the regular format gives the zero matrix, whatever its entries. -/
theorem C15_reg_to_reg_violation (row col : Nat) (hr : row ≠ 0) (hc : col ≠ 0) (M : Nat × Nat → K) :
    castReg (.reg row col M) = .ok (some (.reg row col (fun _ => 0))) := by
  simp [castReg, Mx.row, Mx.col, hr, hc, copyReg2reg]

/-- ... so e.g. the 1x1 matrix (1) is cast to (0). -/
theorem C15_reg_to_reg_witness : ∃ (m m' : Mx ℚ), castReg m = .ok (some m') ∧ m.entry 0 0 ≠ m'.entry 0 0 := by
  refine ⟨.reg 1 1 (fun _ => 1), .reg 1 1 (fun _ => 0), C15_reg_to_reg_violation 1 1 (by decide) (by decide) _, ?_⟩
  simp [Mx.entry]

theorem foldl_fun_upd {α : Type} (l : List Nat) (g : Nat → α) (m : Nat → α) (q : Nat) :
    l.foldl (fun m i => fun q => if q = i then g i else m q) m q = if q ∈ l then g q else m q := by
  induction l generalizing m with
  | nil => simp
  | cons a l ih =>
    rw [List.foldl_cons, ih]
    by_cases h1 : q ∈ l
    · simp [h1]
    · by_cases h2 : q = a
      · subst h2; simp
      · simp [h1, h2]

theorem foldl_pair {σ τ ι : Type} (l : List ι) (f : σ → ι → σ) (g : τ → ι → τ) (a : σ) (b : τ) :
    l.foldl (fun (s : σ × τ) i => (f s.1 i, g s.2 i)) (a, b) = (l.foldl f a, l.foldl g b) := by
  induction l generalizing a b with
  | nil => rfl
  | cons x l ih => rw [List.foldl_cons, ih]; rfl

/-- Copying a well-formed compressed matrix gives the same arrays. -/
theorem C15_copy_ccs (A : CCS K) (h : A.WF) : copyCcs2ccs A = A := by
  -- the data arrays after the column loop
  have hcol : ∀ N, N ≤ A.col →
      let s := (List.range N).foldl (fun (s : (Nat → Nat) × (Nat → Nat) × (Nat → K)) c =>
        let t := (A.seg c).foldl (fun (t : (Nat → Nat) × (Nat → K)) i =>
          ((fun q => if q = i then A.ai i else t.1 q), upd t.2 i (A.ax i))) s.2
        ((fun q => if q = c then A.ap c else s.1 q), t)) (fun _ => 0, fun _ => 0, fun _ => 0)
      (∀ q, s.1 q = if q < N then A.ap q else 0) ∧ (∀ i, s.2.1 i = if i < A.ap N then A.ai i else 0) ∧
      (∀ i, s.2.2 i = if i < A.ap N then A.ax i else 0) := by
    intro N
    induction N with
    | zero => intro _; simp [h.ap0]
    | succ N ih =>
      intro hN
      obtain ⟨i1, i2, i3⟩ := ih (by omega)
      simp only [List.range_succ, List.foldl_append, List.foldl_cons, List.foldl_nil]
      generalize ((List.range N).foldl (fun (s : (Nat → Nat) × (Nat → Nat) × (Nat → K)) c =>
        let t := (A.seg c).foldl (fun (t : (Nat → Nat) × (Nat → K)) i =>
          ((fun q => if q = i then A.ai i else t.1 q), upd t.2 i (A.ax i))) s.2
        ((fun q => if q = c then A.ap c else s.1 q), t)) (fun _ => 0, fun _ => 0, fun _ => 0)) = s at i1 i2 i3
      obtain ⟨s1, s2, s3⟩ := s
      simp only at i1 i2 i3 ⊢
      have hp := foldl_pair (A.seg N) (fun (m : Nat → Nat) i => fun q => if q = i then A.ai i else m q)
        (fun (m : Nat → K) i => upd m i (A.ax i)) s2 s3
      rw [hp]
      dsimp only
      have hmono := h.mono N (by omega)
      have hmem : ∀ i, i ∈ A.seg N ↔ A.ap N ≤ i ∧ i < A.ap (N + 1) := by
        intro i; unfold CCS.seg; rw [List.mem_range'_1]; omega
      refine ⟨?_, ?_, ?_⟩
      · intro q
        by_cases hq : q = N
        · subst hq; simp
        · rw [if_neg hq, i1]
          by_cases h1 : q < N
          · rw [if_pos h1, if_pos (by omega)]
          · rw [if_neg h1, if_neg (by omega)]
      · intro i
        rw [foldl_fun_upd, i2]
        by_cases h1 : i ∈ A.seg N
        · rw [if_pos h1, if_pos ((hmem i).1 h1).2]
        · rw [if_neg h1]
          rw [hmem] at h1
          by_cases h2 : i < A.ap N
          · rw [if_pos h2, if_pos (by omega)]
          · rw [if_neg h2, if_neg (by omega)]
      · intro i
        have := foldl_fun_upd (A.seg N) A.ax s3 i
        unfold upd
        rw [this, i3]
        by_cases h1 : i ∈ A.seg N
        · rw [if_pos h1, if_pos ((hmem i).1 h1).2]
        · rw [if_neg h1]
          rw [hmem] at h1
          by_cases h2 : i < A.ap N
          · rw [if_pos h2, if_pos (by omega)]
          · rw [if_neg h2, if_neg (by omega)]
  obtain ⟨k1, k2, k3⟩ := hcol A.col (Nat.le_refl _)
  unfold copyCcs2ccs
  simp only at k1 k2 k3 ⊢
  generalize (List.range A.col).foldl _ _ = s at k1 k2 k3 ⊢
  have hlist : ∀ {α : Type} (l : List α) (n : Nat) (d : α) (f : Nat → α), n = l.length →
      (∀ i, i < n → f i = l.getD i d) → (List.range n).map f = l := by
    intro α l n d f hn hf
    apply List.ext_getElem
    · simp [hn]
    · intro i h1 h2
      rw [List.getElem_map, List.getElem_range, hf i (by simpa using h1), List.getD_eq_getElem?_getD,
        List.getElem?_eq_getElem h2]
      rfl
  cases A with
  | mk row col Ap Ai Ax =>
    have e1 : (List.range (col + 1)).map (fun q => if q = col then CCS.ap (⟨row, col, Ap, Ai, Ax⟩ : CCS K) col else s.1 q) = Ap := by
      refine hlist Ap (col + 1) 0 _ h.apLen.symm ?_
      intro i hi
      by_cases hc : i = col
      · subst hc; simp [CCS.ap]
      · rw [if_neg hc, k1, if_pos (by simp only; omega)]; rfl
    have e2 : (List.range (CCS.ap (⟨row, col, Ap, Ai, Ax⟩ : CCS K) col)).map s.2.1 = Ai := by
      refine hlist Ai _ 0 _ h.apEnd ?_
      intro i hi; rw [k2, if_pos hi]; rfl
    have e3 : (List.range (CCS.ap (⟨row, col, Ap, Ai, Ax⟩ : CCS K) col)).map s.2.2 = Ax := by
      refine hlist Ax _ 0 _ (by rw [h.apEnd, h.axLen]) ?_
      intro i hi; rw [k3, if_pos hi]; rfl
    simp only [e1, e2, e3]

/-- Casting reg -> rmo, ccs -> ccs and ccs -> reg keeps all entries; casting to ccs keeps them up to the drop
limit (C14).  Missing for the full property: reg -> reg, which is the violation above. -/
theorem C15_cast_partial (m : Mx K) (hw : m.WF) (h0 : m.row ≠ 0 ∧ m.col ≠ 0) :
    (∀ row col M, m = .reg row col M → ∃ m', castRmo m = .ok (some m') ∧ m'.row = row ∧ m'.col = col ∧
        ∀ r c, r < row → c < col → m'.entry r c = m.entry r c) ∧
    (∀ A, m = .ccs A → castCcs (0 : K) 0 m = .ok (some m) ∧ ∃ m', castReg m = .ok (some m') ∧ m'.row = A.row ∧
        m'.col = A.col ∧ ∀ r c, r < A.row → c < A.col → m'.entry r c = m.entry r c) := by
  refine ⟨?_, ?_⟩
  · rintro row col M rfl
    refine ⟨_, by simp only [castRmo, h0.1, h0.2, or_self, if_false]; rfl, rfl, rfl, ?_⟩
    intro r c hr hc
    simp only [Mx.entry]
    -- all assignments go to distinct places
    have flat : ∀ (b : Nat → K), (List.range row).foldl (fun b i => (List.range col).foldl (fun b j =>
        upd b (Index.ij col i j) (M (i, j))) b) b =
        ((List.range row).flatMap (fun i => (List.range col).map (fun j => (i, j)))).foldl
          (fun b p => upd b (Index.ij col p.1 p.2) (M p)) b := by
      intro b; rw [List.foldl_flatMap]; simp only [List.foldl_map]
    have hcpos : 0 < col := by omega
    have inj : ∀ i j i' j', j < col → j' < col → Index.ij col i j = Index.ij col i' j' → i = i' ∧ j = j' := by
      intro i j i' j' hj hj' e
      unfold Index.ij at e
      have a := congrArg (· % col) e
      have b := congrArg (· / col) e
      simp only [Nat.add_mul_mod_self_left, Nat.mod_eq_of_lt hj, Nat.mod_eq_of_lt hj'] at a
      simp only [Nat.add_mul_div_left _ _ hcpos, Nat.div_eq_of_lt hj, Nat.div_eq_of_lt hj', Nat.zero_add] at b
      exact ⟨b, a⟩
    have hmem : ∀ p : Nat × Nat, p ∈ (List.range row).flatMap (fun i => (List.range col).map (fun j => (i, j))) ↔
        p.1 < row ∧ p.2 < col := by
      rintro ⟨a, b⟩; simp only [List.mem_flatMap, List.mem_map, List.mem_range, Prod.mk.injEq]
      constructor
      · rintro ⟨i, hi, j, hj, rfl, rfl⟩; exact ⟨hi, hj⟩
      · rintro ⟨ha, hb⟩; exact ⟨a, ha, b, hb, rfl, rfl⟩
    have hnd0 : ((List.range row).flatMap (fun i => (List.range col).map (fun j => (i, j)))).Nodup := by
      rw [List.nodup_flatMap]
      refine ⟨?_, ?_⟩
      · intro i _; refine List.Nodup.map ?_ List.nodup_range
        intro a b hab; simpa using hab
      · refine List.Pairwise.imp ?_ (List.nodup_range (n := row))
        intro a b hab p hp hq
        obtain ⟨x, _, rfl⟩ := List.mem_map.1 hp
        obtain ⟨y, _, h⟩ := List.mem_map.1 hq
        exact hab (by simpa using (congrArg Prod.fst h).symm)
    have hnd : (((List.range row).flatMap (fun i => (List.range col).map (fun j => (i, j)))).map
        (fun p => Index.ij col p.1 p.2)).Nodup := by
      refine List.Nodup.map_on ?_ hnd0
      intro p hp q hq e
      obtain ⟨h1, h2⟩ := inj _ _ _ _ ((hmem p).1 hp).2 ((hmem q).1 hq).2 e
      exact Prod.ext h1 h2
    rw [flat, foldl_upd _ (fun p : Nat × Nat => Index.ij col p.1 p.2) M hnd]
    rw [if_pos (List.mem_map.2 ⟨(r, c), (hmem _).2 ⟨hr, hc⟩, rfl⟩)]
    have hs : ((((List.range row).flatMap (fun i => (List.range col).map (fun j => (i, j)))).map
        (fun p => if Index.ij col p.1 p.2 = Index.ij col r c then M p else 0)).sum) =
        ∑ i ∈ Finset.range row, ∑ j ∈ Finset.range col, if i = r ∧ j = c then M (i, j) else 0 := by
      rw [List.map_flatMap, List.flatMap_def, List.sum_flatten, List.map_map]
      rw [← sum_list_range]
      congr 1
      apply List.map_congr_left
      intro i _
      simp only [Function.comp, List.map_map]
      rw [← sum_list_range]
      congr 1
      apply List.map_congr_left
      intro j hj
      simp only [Function.comp]
      by_cases hh : i = r ∧ j = c
      · obtain ⟨rfl, rfl⟩ := hh; simp
      · rw [if_neg hh, if_neg]
        intro e; exact hh (inj _ _ _ _ (by simpa using hj) hc e)
    rw [hs, Finset.sum_eq_single r, Finset.sum_eq_single c]
    · simp
    · intro b _ hb; simp [hb]
    · intro hn; exact absurd (Finset.mem_range.2 hc) hn
    · intro b _ hb; apply Finset.sum_eq_zero; intro j _; simp [hb]
    · intro hn; exact absurd (Finset.mem_range.2 hr) hn
  · rintro A rfl
    have hw' : A.WF := hw
    refine ⟨?_, .reg A.row A.col (ccs2reg A), ?_, rfl, rfl, ?_⟩
    · simp only [castCcs, h0.1, h0.2, or_self, if_false, C15_copy_ccs A hw']
    · simp only [castReg, h0.1, h0.2, or_self, if_false]
    · intro r c _ hc
      exact C14_ccs2reg A hw' r c hc

/-- C15: casting a matrix in any of the three storage formats, of any shape, to compressed columns gives a well-formed
compressed matrix of the same shape with the same entries, those not above drop limit + round-off being zero (entries of a
matrix that is already compressed are all kept). -/
theorem C15_to_ccs [IsStrictOrderedRing K] (e drop : K) (m : Mx K) (hw : m.WF) (h0 : m.row ≠ 0 ∧ m.col ≠ 0) :
    ∃ A, castCcs e drop m = .ok (some (.ccs A)) ∧ A.WF ∧ A.row = m.row ∧ A.col = m.col ∧
      ∀ r c, r < m.row → c < m.col → A.entry r c = m.entry r c ∨ (A.entry r c = 0 ∧ |m.entry r c| ≤ drop + e) := by
  match m, hw, h0 with
  | .reg row col M, _, h0 =>
    obtain ⟨hA, hr, hc, hE⟩ := C14_roundtrip e drop M row col
    refine ⟨_, by simp only [castCcs, h0.1, h0.2, or_self, if_false], hA, hr, hc, ?_⟩
    intro r c h1 h2
    rw [(hE r c h1 h2).1]
    by_cases h : drop + e < |M (r, c)|
    · left; rw [if_pos h]; rfl
    · right; rw [if_neg h]; exact ⟨rfl, not_lt.1 h⟩
  | .rmo row col M, _, h0 =>
    obtain ⟨hA, hE⟩ := C14_roundtrip_rmo e drop M row col
    refine ⟨_, by simp only [castCcs, h0.1, h0.2, or_self, if_false], hA, rfl, rfl, ?_⟩
    intro r c h1 h2
    rw [hE r c h1 h2]
    have e1 : Index.ij col r c = col * r + c := by unfold Index.ij; ring
    simp only [Mx.entry, e1]
    by_cases h : drop + e < |M (col * r + c)|
    · left; rw [if_pos h]
    · right; rw [if_neg h]; exact ⟨rfl, not_lt.1 h⟩
  | .ccs A, hw, h0 =>
    have hw' : A.WF := hw
    exact ⟨A, by simp only [castCcs, h0.1, h0.2, or_self, if_false, C15_copy_ccs A hw'], hw', rfl, rfl, fun r c _ _ => .inl rfl⟩

example : ∃ A, castCcs (1/1000 : ℚ) 0 (.rmo 2 3 (fun i => if i = 5 then 7 else 0)) = .ok (some (.ccs A)) ∧ A.Ai = [1] ∧
    A.Ax = [7] ∧ A.Ap = [0, 0, 0, 1] := ⟨_, rfl, by decide +kernel⟩

/-- C16: two matrices are reported equal exactly when they have the same shape and all entries agree to less than the
round-off tolerance. -/
theorem C16_compare [IsStrictOrderedRing K] (e : K) (r1 c1 : Nat) (m1 : Nat × Nat → K) (r2 c2 : Nat) (m2 : Nat × Nat → K) :
    compareReg e r1 c1 m1 r2 c2 m2 = true ↔
      r1 = r2 ∧ c1 = c2 ∧ ∀ r c, r < r1 → c < c1 → |m1 (r, c) - m2 (r, c)| < e := by
  have hq : ∀ x y : K, Tol.eql e x y = true ↔ |x - y| < e := by
    intro x y
    simp only [Tol.eql, Bool.and_eq_true, decide_eq_true_eq, abs_lt, gt_iff_lt]
    constructor
    · rintro ⟨a, b⟩; constructor <;> linarith
    · rintro ⟨a, b⟩; constructor <;> linarith
  unfold compareReg
  by_cases h1 : r1 = r2
  · by_cases h2 : c1 = c2
    · simp [h1, h2, hq]
      constructor
      · intro h r c hr hc; exact h r hr c hc
      · intro h r hr c hc; exact h r c hr hc
    · simp [h1, h2]
  · simp [h1]

example : compareReg (1/1000 : ℚ) 2 2 (fun _ => 1) 2 2 (fun _ => 1 + 1/2000) = true ∧
    compareReg (1/1000 : ℚ) 2 2 (fun _ => 1) 3 2 (fun _ => 1) = false := by decide +kernel

end Elliptica.Mat
