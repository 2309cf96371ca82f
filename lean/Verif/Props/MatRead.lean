import Verif.Props.MatMul
/-!
Property C35 (reading entries of compressed matrices) and the sums/differences of compressed matrices (C16).
-/
namespace Elliptica.Mat
open Finset

variable {K : Type} [Field K] [LinearOrder K]

theorem entry_of_mem {A : CCS K} (h : A.WF) {c r i : Nat} (hc : c < A.col) (h1 : A.ap c ≤ i) (h2 : i < A.ap (c + 1))
    (hr : A.ai i = r) : A.entry r c = A.ax i := by
  have hi : i ∈ A.seg c := by unfold CCS.seg; rw [List.mem_range'_1]; omega
  have hnd := h.seg_nodup hc
  unfold CCS.entry
  generalize A.seg c = l at hi hnd
  induction l with
  | nil => simp at hi
  | cons a l ih =>
    rw [List.map_cons, List.nodup_cons] at hnd
    rw [List.map_cons, List.sum_cons]
    rcases List.mem_cons.1 hi with e | hm
    · subst e
      rw [if_pos hr]
      have : (l.map (fun i => if A.ai i = r then A.ax i else 0)).sum = 0 := by
        apply List.sum_eq_zero
        intro x hx
        obtain ⟨j, hj, rfl⟩ := List.mem_map.1 hx
        rw [if_neg]
        intro e; exact hnd.1 (by rw [hr, ← e]; exact List.mem_map.2 ⟨j, hj, rfl⟩)
      rw [this, add_zero]
    · rw [ih hm hnd.2, if_neg, zero_add]
      intro e; exact hnd.1 (by rw [e, ← hr]; exact List.mem_map.2 ⟨i, hm, rfl⟩)

theorem entry_of_not {A : CCS K} {c r : Nat} (h : ∀ i, A.ap c ≤ i → i < A.ap (c + 1) → A.ai i ≠ r) :
    A.entry r c = 0 := by
  unfold CCS.entry
  apply List.sum_eq_zero
  intro x hx
  obtain ⟨i, hi, rfl⟩ := List.mem_map.1 hx
  unfold CCS.seg at hi; rw [List.mem_range'_1] at hi
  exact if_neg (h i hi.1 (by omega))

open Classical in
theorem readLoop_spec {A : CCS K} (h : A.WF) {c r : Nat} (hc : c < A.col) : ∀ n i, A.ap (c + 1) - i = n →
    A.ap c ≤ i → i ≤ A.ap (c + 1) → (∀ j, A.ap c ≤ j → j < i → A.ai j < r) →
    readLoop A r (A.ap (c + 1)) (n + 1) i =
      if (∃ j, i ≤ j ∧ j < A.ap (c + 1) ∧ r ≤ A.ai j) ∨ A.ap (c + 1) < A.Ai.length then .ok (A.entry r c) else .ub := by
  have hend : A.ap (c + 1) ≤ A.Ai.length := by
    rw [← h.apEnd]; exact h.ap_mono A.col (c + 1) (by omega) (Nat.le_refl _)
  intro n
  induction n with
  | zero =>
    intro i hn h1 h2 hlt
    have hi : i = A.ap (c + 1) := by omega
    subst hi
    have hent : A.entry r c = 0 := entry_of_not (fun j a b => Nat.ne_of_lt (hlt j a b))
    have hno : ¬ ∃ j, A.ap (c + 1) ≤ j ∧ j < A.ap (c + 1) ∧ r ≤ A.ai j := by rintro ⟨j, a, b, _⟩; omega
    unfold readLoop
    by_cases hl : A.ap (c + 1) ≥ A.Ai.length
    · rw [if_pos hl, if_neg]
      rintro (hh | hh)
      · exact hno hh
      · omega
    · rw [if_neg hl, if_neg (by omega), if_pos (Or.inr (by omega)), hent]
  | succ n ih =>
    intro i hn h1 h2 hlt
    have hi : i < A.ap (c + 1) := by omega
    unfold readLoop
    rw [if_neg (by omega)]
    by_cases hle : A.ai i ≤ r
    · rw [if_pos ⟨hle, hi⟩]
      by_cases he : A.ai i = r
      · rw [if_pos he, if_pos (Or.inl ⟨i, Nat.le_refl _, hi, by omega⟩), entry_of_mem h hc h1 hi he]
      · rw [if_neg he, ih (i + 1) (by omega) (by omega) (by omega) ?_]
        · refine if_congr ?_ rfl rfl
          constructor
          · rintro (⟨j, a, b, d⟩ | hh)
            · exact Or.inl ⟨j, by omega, b, d⟩
            · exact Or.inr hh
          · rintro (⟨j, a, b, d⟩ | hh)
            · refine Or.inl ⟨j, ?_, b, d⟩
              rcases Nat.lt_or_eq_of_le a with h3 | h3
              · omega
              · subst h3; omega
            · exact Or.inr hh
        · intro j a b
          rcases Nat.lt_or_eq_of_le (Nat.lt_succ_iff.1 b) with h3 | h3
          · exact hlt j a h3
          · subst h3; omega
    · rw [if_neg (fun hh => hle hh.1), if_pos (Or.inl ⟨i, Nat.le_refl _, hi, by omega⟩)]
      rw [entry_of_not]
      intro j a b e
      rcases Nat.lt_or_ge j i with h3 | h3
      · have := hlt j a h3; omega
      · rcases Nat.lt_or_eq_of_le h3 with h4 | h4
        · have := h.incr c hc i j h1 h4 b; omega
        · subst h4; omega

/-- C35, plain reader: on every well-formed compressed matrix it returns the entry whenever the column has a stored
entry at or below the row asked for, or is not the last non-empty column.  Missing for the full property: the
remaining reads, see `C35_plain_violation`. -/
theorem C35_plain_partial (A : CCS K) (h : A.WF) (r c : Nat) (hc : c < A.col)
    (hok : (∃ j, A.ap c ≤ j ∧ j < A.ap (c + 1) ∧ r ≤ A.ai j) ∨ A.ap (c + 1) < A.Ai.length) :
    readEntry A r c = .ok (A.entry r c) := by
  unfold readEntry
  rw [readLoop_spec h hc _ _ rfl (Nat.le_refl _) (h.mono c hc) (by intro j a b; omega), if_pos hok]

/-- It never returns a wrong entry. -/
theorem C35_plain_sound (A : CCS K) (h : A.WF) (r c : Nat) (hc : c < A.col) (x : K)
    (hx : readEntry A r c = .ok x) : x = A.entry r c := by
  unfold readEntry at hx
  rw [readLoop_spec h hc _ _ rfl (Nat.le_refl _) (h.mono c hc) (by intro j a b; omega)] at hx
  split at hx
  · simpa using hx.symm
  · cases hx

/-- Violation: in the last column, asking for a row below all stored rows reads beyond the array of row indices (on
every well-formed matrix). -/
theorem C35_plain_violation (A : CCS K) (h : A.WF) (r c : Nat) (hc : c + 1 = A.col)
    (hr : ∀ j, A.ap c ≤ j → j < A.ap (c + 1) → A.ai j < r) : readEntry A r c = .ub := by
  unfold readEntry
  rw [readLoop_spec h (by omega) _ _ rfl (Nat.le_refl _) (h.mono c (by omega)) (by intro j a b; omega), if_neg]
  rintro (⟨j, a, b, d⟩ | hh)
  · have := hr j a b; omega
  · have := h.apEnd; rw [← hc] at this; omega

/-- the matrix [[1,0],[0,0]] with nothing stored in its last column: reading entry (1,1) is undefined -/
example : readEntry (⟨2, 2, [0, 1, 1], [0], [1]⟩ : CCS ℚ) 1 1 = .ub ∧
    readEntry (⟨2, 2, [0, 2, 3], [0, 1, 1], [1, 5, 7]⟩ : CCS ℚ) 1 0 = .ok 5 := by decide +kernel

/-! ### the sliced reader -/

theorem cg_loop (A : CCS K) (n : Nat) : ∀ N,
    (List.range N).foldl (fun (s : List Nat × List Nat) c =>
      (s.1 ++ [s.2.length],
        s.2 ++ (List.range n).map (fun t => A.ap c + t * ((A.ap (c + 1) - A.ap c) / n)))) ([], []) =
      ((List.range N).map (fun c => c * n),
        (List.range N).flatMap (fun c => (List.range n).map (fun t => A.ap c + t * ((A.ap (c + 1) - A.ap c) / n)))) := by
  intro N
  induction N with
  | zero => rfl
  | succ N ih =>
    rw [List.range_succ, List.foldl_append, ih, List.map_append, List.flatMap_append]
    simp [List.length_flatMap]

theorem flatMap_getD (f : Nat → List Nat) (n : Nat) (hf : ∀ c, (f c).length = n) (N c t : Nat) (hc : c < N) (ht : t < n)
    (l : List Nat) : ((List.range N).flatMap f ++ l).getD (c * n + t) 0 = (f c).getD t 0 := by
  have hlen : ∀ N, ((List.range N).flatMap f).length = N * n := by
    intro N; simp [List.length_flatMap, hf]
  induction N generalizing l with
  | zero => omega
  | succ N ih =>
    rw [List.range_succ, List.flatMap_append, List.append_assoc]
    rcases Nat.lt_or_eq_of_le (Nat.lt_succ_iff.1 hc) with h1 | h1
    · exact ih h1 _
    · subst h1
      simp only [List.flatMap_cons, List.flatMap_nil, List.append_nil, List.getD_eq_getElem?_getD]
      rw [List.getElem?_append_right (by rw [hlen]; omega), hlen, Nat.add_sub_cancel_left,
        List.getElem?_append_left (by rw [hf]; exact ht)]

theorem sliceLoop_spec (A : CCS K) (icg : List Nat) (r imax : Nat) : ∀ fuel i, fuel = imax - i → i ≤ imax →
    let s := sliceLoop A icg r imax fuel i
    i ≤ s ∧ s ≤ imax ∧ (∀ t, i ≤ t → t < s → A.ai (icg.getD (t + 1) 0 - 1) < r) ∧
      (s < imax → r ≤ A.ai (icg.getD (s + 1) 0 - 1)) := by
  intro fuel
  induction fuel with
  | zero => intro i h1 h2; simp only [sliceLoop]; exact ⟨by omega, by omega, by intro t a b; omega, by omega⟩
  | succ fuel ih =>
    intro i h1 h2
    simp only [sliceLoop]
    rw [if_pos (by omega)]
    by_cases hle : r ≤ A.ai (icg.getD (i + 1) 0 - 1)
    · simp only [if_pos hle]; exact ⟨by omega, by omega, by intro t a b; omega, fun _ => hle⟩
    · simp only [if_neg hle]
      obtain ⟨a, b, c, d⟩ := ih (i + 1) (by omega) (by omega)
      refine ⟨by omega, b, ?_, d⟩
      intro t h3 h4
      rcases Nat.lt_or_eq_of_le h3 with h5 | h5
      · exact c t (by omega) h4
      · subst h5; omega

/-- C35, sliced reader: for every well-formed compressed matrix and every number of slices the program accepts, every
entry is read correctly. -/
theorem C35_sliced (A : CCS K) (h : A.WF) (n : Nat) (cg : List Nat × List Nat) (hcg : coarseGrain A n = .ok cg)
    (r c : Nat) (hc : c < A.col) : readSliced A cg r c = A.entry r c := by
  unfold coarseGrain at hcg
  by_cases hn : n = 0
  · simp [hn] at hcg
  rw [if_neg hn] at hcg
  by_cases hany : (List.range A.col).any (fun c => decide (A.ap (c + 1) - A.ap c < n)) = true
  · rw [if_pos hany] at hcg; cases hcg
  rw [if_neg hany] at hcg
  have hbig : ∀ c, c < A.col → n ≤ A.ap (c + 1) - A.ap c := by
    intro c hc
    rcases Nat.lt_or_ge (A.ap (c + 1) - A.ap c) n with h1 | h1
    · exact absurd (List.any_eq_true.2 ⟨c, List.mem_range.2 hc, by simpa using h1⟩) hany
    · exact h1
  clear hany
  simp only [cg_loop] at hcg
  injection hcg with hcg
  subst hcg
  have hlen : ((List.range A.col).flatMap (fun c => (List.range n).map
      (fun t => A.ap c + t * ((A.ap (c + 1) - A.ap c) / n)))).length = A.col * n := by
    simp [List.length_flatMap]
  set Q : Nat → Nat := fun c => (A.ap (c + 1) - A.ap c) / n with hQ
  set icg := (List.range A.col).flatMap (fun c => (List.range n).map (fun t => A.ap c + t * Q c)) ++ [A.ap A.col] with hicg
  have hap : ∀ d, d ≤ A.col → ((List.range A.col).map (fun c => c * n) ++ [A.col * n]).getD d 0 = d * n := by
    intro d hd
    rw [List.getD_eq_getElem?_getD]
    rcases Nat.lt_or_eq_of_le hd with h1 | h1
    · rw [List.getElem?_append_left (by simpa using h1)]; simp [h1]
    · subst h1; rw [List.getElem?_append_right (by simp)]; simp
  have hi1 : ∀ d t, d < A.col → t < n → icg.getD (d * n + t) 0 = A.ap d + t * Q d := by
    intro d t hd ht
    rw [hicg, flatMap_getD _ n (by intro c; simp) _ _ _ hd ht]
    rw [List.getD_eq_getElem?_getD]; simp [ht]
  have hi2 : icg.getD ((c + 1) * n) 0 = A.ap (c + 1) := by
    rcases Nat.lt_or_eq_of_le (Nat.succ_le_of_lt hc) with h1 | h1
    · have := hi1 (c + 1) 0 h1 (by omega)
      simpa using this
    · rw [hicg, List.getD_eq_getElem?_getD, show c + 1 = A.col from h1,
        List.getElem?_append_right (by rw [hlen]), hlen]; simp
  have hm := h.mono c hc
  have hb := hbig c hc
  have hQpos : 0 < Q c := by
    show 0 < (A.ap (c + 1) - A.ap c) / n
    exact Nat.div_pos hb (by omega)
  have hQle : n * Q c ≤ A.ap (c + 1) - A.ap c := Nat.mul_div_le _ _
  -- positions of the slices of this column
  have hpos : ∀ t, t ≤ n → icg.getD (c * n + t) 0 = if t < n then A.ap c + t * Q c else A.ap (c + 1) := by
    intro t ht
    by_cases h1 : t < n
    · rw [if_pos h1, hi1 c t hc h1]
    · have : t = n := by omega
      subst this
      rw [if_neg h1, ← hi2]; congr 1; ring
  have hlow : ∀ t, t ≤ n → A.ap c + t * Q c ≤ icg.getD (c * n + t) 0 := by
    intro t ht
    rw [hpos t ht]
    split
    · exact Nat.le_refl _
    · have : t = n := by omega
      subst this; omega
  have hupp : ∀ t, t ≤ n → icg.getD (c * n + t) 0 ≤ A.ap (c + 1) := by
    intro t ht
    rw [hpos t ht]
    split
    · have : t * Q c ≤ n * Q c := Nat.mul_le_mul_right _ ht
      omega
    · exact Nat.le_refl _
  unfold readSliced
  simp only
  rw [hlen, hap c (by omega), hap (c + 1) (by omega)]
  have hcn : (c + 1) * n - 1 = c * n + (n - 1) := by
    rw [Nat.succ_mul]; omega
  rw [hcn]
  obtain ⟨s1, s2, s3, s4⟩ := sliceLoop_spec A icg r (c * n + (n - 1)) (c * n + (n - 1) - c * n) (c * n) rfl (by omega)
  generalize sliceLoop A icg r (c * n + (n - 1)) (c * n + (n - 1) - c * n) (c * n) = s at s1 s2 s3 s4 ⊢
  obtain ⟨t, rfl⟩ : ∃ t, s = c * n + t := ⟨s - c * n, by omega⟩
  have ht : t < n := by omega
  have hstart : A.ap c ≤ icg.getD (c * n + t) 0 := by have := hlow t (by omega); omega
  have hend := hupp (t + 1) (by omega)
  -- outside the slice there is no entry of row r
  have hbefore : ∀ j, A.ap c ≤ j → j < icg.getD (c * n + t) 0 → A.ai j < r := by
    intro j a b
    have ht0 : 0 < t := by
      rcases Nat.eq_zero_or_pos t with h0 | h0
      · subst h0; rw [hpos 0 (by omega), if_pos (by omega)] at b; omega
      · exact h0
    have h3 := s3 (c * n + (t - 1)) (by omega) (by omega)
    rw [show c * n + (t - 1) + 1 = c * n + t from by omega] at h3
    have hu := hupp t (by omega)
    rcases Nat.lt_or_eq_of_le (show j ≤ icg.getD (c * n + t) 0 - 1 by omega) with h4 | h4
    · have := h.incr c hc j (icg.getD (c * n + t) 0 - 1) a h4 (by omega); omega
    · rw [h4]; exact h3
  have hafter : ∀ j, icg.getD (c * n + t + 1) 0 ≤ j → j < A.ap (c + 1) → r < A.ai j := by
    intro j a b
    have htn : t < n - 1 := by
      by_contra hge
      have : t + 1 = n := by omega
      rw [show c * n + t + 1 = c * n + (t + 1) from by omega, hpos (t + 1) (by omega), if_neg (by omega)] at a
      omega
    have h4 := s4 (by omega)
    have hl := hlow (t + 1) (by omega)
    rw [← Nat.add_assoc] at hl
    have : 1 ≤ (t + 1) * Q c := Nat.mul_pos (by omega) hQpos
    have := h.incr c hc (icg.getD (c * n + t + 1) 0 - 1) j (by omega) (by omega) b
    omega
  rw [← Nat.add_assoc] at hend
  cases hf : (List.range' (icg.getD (c * n + t) 0) (icg.getD (c * n + t + 1) 0 - icg.getD (c * n + t) 0)).find?
      (fun i => A.ai i = r) with
  | some i =>
    have h1 := List.find?_some hf
    have h2 := List.mem_of_find?_eq_some hf
    rw [List.mem_range'_1] at h2
    simp only [decide_eq_true_eq] at h1
    simp only
    exact (entry_of_mem h hc (by omega) (by omega) h1).symm
  | none =>
    rw [List.find?_eq_none] at hf
    simp only
    rw [entry_of_not]
    intro i a b e
    rcases Nat.lt_or_ge i (icg.getD (c * n + t) 0) with h1 | h1
    · have := hbefore i a h1; omega
    · rcases Nat.lt_or_ge i (icg.getD (c * n + t + 1) 0) with h2 | h2
      · have := hf i (by rw [List.mem_range'_1]; omega)
        simp [e] at this
      · have := hafter i h2 b; omega

/-- three stored rows in two slices -/
example : let A : CCS ℚ := ⟨5, 1, [0, 3], [0, 2, 4], [7, 8, 9]⟩
    coarseGrain A 2 = .ok ([0, 2], [0, 1, 3]) ∧ readSliced A ([0, 2], [0, 1, 3]) 4 0 = 9 ∧
    readSliced A ([0, 2], [0, 1, 3]) 1 0 = 0 := by decide +kernel

/-! ### sums and differences -/

/-- C16, sum or difference of compressed matrices: when every entry can be read, the result is well formed and its
entries are the sums (differences) with those of absolute value at most the round-off dropped.  When the shapes
differ the program stops.  Missing for the full property: matrices on which the plain reader is undefined (C35). -/
theorem C16_ccs_sum_partial [IsStrictOrderedRing K] (e : K) (sub : Bool) (A2 A1 : CCS K) (h2 : A2.WF) (h1 : A1.WF)
    (hs : A2.row = A1.row ∧ A2.col = A1.col)
    (hread : ∀ r c, r < A2.row → c < A2.col → readEntry A2 r c ≠ .ub ∧ readEntry A1 r c ≠ .ub) :
    ∃ A, ccsOp e sub A2 A1 = .ok A ∧ A.WF ∧ A.row = A2.row ∧ A.col = A2.col ∧
      ∀ r c, r < A.row → c < A.col →
        let x := if sub then A2.entry r c - A1.entry r c else A2.entry r c + A1.entry r c
        A.entry r c = if e < |x| then x else 0 := by
  have noabort : ∀ (A : CCS K), A.WF → ∀ r c, c < A.col → readEntry A r c ≠ .ub → readEntry A r c = .ok (A.entry r c) := by
    intro A hA r c hc hr
    unfold readEntry at hr ⊢
    rw [readLoop_spec hA hc _ _ rfl (Nat.le_refl _) (hA.mono c hc) (by intro j a b; omega)] at hr ⊢
    split
    · rfl
    · rename_i hh; rw [if_neg hh] at hr; exact absurd rfl hr
  have r2 : ∀ r c, r < A2.row → c < A2.col → readEntry A2 r c = .ok (A2.entry r c) :=
    fun r c hr hc => noabort A2 h2 r c hc (hread r c hr hc).1
  have r1 : ∀ r c, r < A2.row → c < A2.col → readEntry A1 r c = .ok (A1.entry r c) :=
    fun r c hr hc => noabort A1 h1 r c (by rw [← hs.2]; exact hc) (hread r c hr hc).2
  unfold ccsOp
  rw [if_neg (by rw [hs.1, hs.2]; simp)]
  rw [if_neg ?_]
  · refine ⟨_, rfl, buildCCS_wf _ _ _ _ _, rfl, rfl, ?_⟩
    intro r c hr hc
    have hr : r < A2.row := hr
    have hc : c < A2.col := hc
    simp only
    rw [buildCCS_entry e 0 _ A2.row A2.col r c hr hc]
    simp only [r2 r c hr hc, r1 r c hr hc]
    generalize (if sub = true then A2.entry r c - A1.entry r c else A2.entry r c + A1.entry r c) = x
    by_cases h : e < |x|
    · simp [h, (keep_iff e 0 x).2 (by simpa using h)]
    · have hk : keep e 0 x = false := by
        rw [← Bool.not_eq_true, keep_iff]; simpa using h
      simp [h, hk]
  · rw [Bool.not_eq_true, List.any_eq_false]
    intro c hc
    rw [Bool.not_eq_true, List.any_eq_false]
    intro r hr
    rw [r2 r c (List.mem_range.1 hr) (List.mem_range.1 hc), r1 r c (List.mem_range.1 hr) (List.mem_range.1 hc)]
    simp

example : ∃ A, ccsOp (1/1000 : ℚ) true ⟨2, 1, [0, 2], [0, 1], [3, 4]⟩ ⟨2, 1, [0, 2], [0, 1], [3, 1]⟩ = .ok A ∧
    A.Ai = [1] ∧ A.Ax = [3] := ⟨⟨2, 1, [0, 1], [1], [3]⟩, by decide +kernel⟩

end Elliptica.Mat
