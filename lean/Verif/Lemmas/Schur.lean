import Verif.Spec.Schur
import Verif.Props.MatMul
import Mathlib.Algebra.BigOperators.Intervals
import Mathlib.Tactic.Ring
/-!
Helper lemmas for the Schur-complement solver: offsets, assembly of the interface matrix.
-/
namespace Elliptica.Schur
open Mat

variable {K : Type} [Field K] [LinearOrder K]

/-- partial sums -/
def ps (n : Nat → Nat) (p : Nat) : Nat := ∑ q ∈ Finset.range p, n q

theorem ps_succ (n : Nat → Nat) (p : Nat) : ps n (p + 1) = ps n p + n p := Finset.sum_range_succ _ _
@[simp] theorem ps_zero (n : Nat → Nat) : ps n 0 = 0 := rfl

theorem off_eq (P : Nat → Patch K) (p : Nat) : off P p = ps (fun q => (P q).NI) p := by
  unfold off
  induction p with
  | zero => rfl
  | succ p ih => rw [List.range_succ, List.foldl_append, ih, ps_succ]; rfl

theorem ps_mono (n : Nat → Nat) {p q : Nat} (h : p ≤ q) : ps n p ≤ ps n q := by
  induction q with
  | zero => have : p = 0 := by omega
            rw [this]
  | succ q ih =>
    rcases Nat.lt_or_eq_of_le h with h | h
    · rw [ps_succ]; have := ih (by omega); omega
    · rw [h]

theorem ps_lt (n : Nat → Nat) {p np i : Nat} (hp : p < np) (hi : i < n p) : ps n p + i < ps n np := by
  have := ps_mono n (show p + 1 ≤ np by omega)
  rw [ps_succ] at this; omega

theorem ps_decomp (n : Nat → Nat) (np c : Nat) (h : c < ps n np) : ∃ p i, p < np ∧ i < n p ∧ c = ps n p + i := by
  induction np with
  | zero => simp at h
  | succ np ih =>
    by_cases hc : c < ps n np
    · obtain ⟨p, i, hp, hi, e⟩ := ih hc
      exact ⟨p, i, by omega, hi, e⟩
    · rw [ps_succ] at h
      exact ⟨np, c - ps n np, by omega, by omega, by omega⟩

theorem ps_inj (n : Nat → Nat) {p q i j : Nat} (hi : i < n p) (hj : j < n q) (h : ps n p + i = ps n q + j) : p = q ∧ i = j := by
  rcases Nat.lt_trichotomy p q with h1 | h1 | h1
  · have := ps_lt n h1 hi; omega
  · subst h1; exact ⟨rfl, by omega⟩
  · have := ps_lt n h1 hj; omega

theorem sum_ps (n : Nat → Nat) (np : Nat) (h : Nat → K) :
    ∑ c ∈ Finset.range (ps n np), h c = ∑ p ∈ Finset.range np, ∑ i ∈ Finset.range (n p), h (ps n p + i) := by
  induction np with
  | zero => simp
  | succ np ih => rw [ps_succ, Finset.sum_range_add, ih, Finset.sum_range_succ]

/-! ### assembly of S -/

theorem sAdd_inner (s : CCS K) (l : List Nat) (b : SAcc K) :
    let b' := l.foldl (fun (b : SAcc K) j =>
      ({ b with Ai := fun q => if q = b.nnz + j then s.ai j else b.Ai q, Ax := upd b.Ax (b.nnz + j) (s.ax j) } : SAcc K)) b
    b'.Ap = b.Ap ∧ b'.R = b.R ∧ b'.nnz = b.nnz ∧
    (∀ q, b'.Ai q = if b.nnz ≤ q ∧ q - b.nnz ∈ l then s.ai (q - b.nnz) else b.Ai q) ∧
    (∀ q, b'.Ax q = if b.nnz ≤ q ∧ q - b.nnz ∈ l then s.ax (q - b.nnz) else b.Ax q) := by
  induction l generalizing b with
  | nil => simp
  | cons j l ih =>
    dsimp only
    rw [List.foldl_cons]
    have := ih { b with Ai := fun q => if q = b.nnz + j then s.ai j else b.Ai q, Ax := upd b.Ax (b.nnz + j) (s.ax j) }
    dsimp only at this
    obtain ⟨h1, h2, h3, h4, h5⟩ := this
    refine ⟨h1, h2, h3, ?_, ?_⟩
    · intro q
      rw [h4]
      by_cases hm : b.nnz ≤ q ∧ q - b.nnz ∈ l
      · rw [if_pos hm, if_pos ⟨hm.1, List.mem_cons_of_mem _ hm.2⟩]
      · rw [if_neg hm]
        by_cases hq : q = b.nnz + j
        · rw [if_pos hq, if_pos ⟨by omega, by rw [hq]; simp⟩]
          congr 1; omega
        · rw [if_neg hq, if_neg]
          rintro ⟨ha, hb⟩
          rw [List.mem_cons] at hb
          rcases hb with hb | hb
          · omega
          · exact hm ⟨ha, hb⟩
    · intro q
      rw [h5]
      by_cases hm : b.nnz ≤ q ∧ q - b.nnz ∈ l
      · rw [if_pos hm, if_pos ⟨hm.1, List.mem_cons_of_mem _ hm.2⟩]
      · rw [if_neg hm]
        unfold upd
        by_cases hq : q = b.nnz + j
        · rw [if_pos hq, if_pos ⟨by omega, by rw [hq]; simp⟩]
          congr 1; omega
        · rw [if_neg hq, if_neg]
          rintro ⟨ha, hb⟩
          rw [List.mem_cons] at hb
          rcases hb with hb | hb
          · omega
          · exact hm ⟨ha, hb⟩

theorem sAdd_cols (s : CCS K) (hs : s.WF) (a : SAcc K) (N : Nat) (hN : N ≤ s.col) :
    let b := (List.range N).foldl (fun (b : SAcc K) i =>
      let b' : SAcc K := { b with Ap := fun q => if q = i + b.R then s.ap i + b.nnz else b.Ap q }
      (s.seg i).foldl (fun (b : SAcc K) j =>
        { b with Ai := fun q => if q = b.nnz + j then s.ai j else b.Ai q, Ax := upd b.Ax (b.nnz + j) (s.ax j) }) b') a
    b.R = a.R ∧ b.nnz = a.nnz ∧
    (∀ q, b.Ap q = if a.R ≤ q ∧ q < a.R + N then s.ap (q - a.R) + a.nnz else a.Ap q) ∧
    (∀ q, b.Ai q = if a.nnz ≤ q ∧ q < a.nnz + s.ap N then s.ai (q - a.nnz) else a.Ai q) ∧
    (∀ q, b.Ax q = if a.nnz ≤ q ∧ q < a.nnz + s.ap N then s.ax (q - a.nnz) else a.Ax q) := by
  induction N with
  | zero =>
    dsimp only [List.range_zero, List.foldl_nil]
    refine ⟨rfl, rfl, ?_, ?_, ?_⟩ <;> intro q <;> rw [if_neg]
    · omega
    · rw [hs.ap0]; omega
    · rw [hs.ap0]; omega
  | succ N ih =>
    dsimp only at ih ⊢
    rw [List.range_succ, List.foldl_append, List.foldl_cons, List.foldl_nil]
    generalize (List.range N).foldl _ a = b at ih ⊢
    obtain ⟨h1, h2, h3, h4, h5⟩ := ih (by omega)
    have hi := sAdd_inner s (s.seg N) { b with Ap := fun q => if q = N + b.R then s.ap N + b.nnz else b.Ap q }
    dsimp only at hi
    obtain ⟨i1, i2, i3, i4, i5⟩ := hi
    have hmono := hs.mono N (by omega)
    have hseg : ∀ t, t ∈ s.seg N ↔ s.ap N ≤ t ∧ t < s.ap (N + 1) := by
      intro t
      unfold CCS.seg
      rw [List.mem_range'_1]
      omega
    refine ⟨i2.trans h1, i3.trans h2, ?_, ?_, ?_⟩
    · intro q
      rw [i1]
      show (if q = N + b.R then s.ap N + b.nnz else b.Ap q) = _
      rw [h1, h2]
      by_cases hq : q = N + a.R
      · rw [if_pos hq, if_pos (by omega)]
        congr 2; omega
      · rw [if_neg hq, h3]
        by_cases hm : a.R ≤ q ∧ q < a.R + N
        · rw [if_pos hm, if_pos (by omega)]
        · rw [if_neg hm, if_neg (by omega)]
    · intro q
      rw [i4]
      show (if b.nnz ≤ q ∧ q - b.nnz ∈ s.seg N then s.ai (q - b.nnz) else b.Ai q) = _
      simp only [h2, hseg, h4]
      by_cases hm : a.nnz ≤ q ∧ q < a.nnz + s.ap N
      · rw [if_neg (by omega), if_pos hm, if_pos (by omega)]
      · rw [if_neg hm]
        by_cases hm' : a.nnz ≤ q ∧ q < a.nnz + s.ap (N + 1)
        · rw [if_pos hm', if_pos (by omega)]
        · rw [if_neg hm', if_neg (by omega)]
    · intro q
      rw [i5]
      show (if b.nnz ≤ q ∧ q - b.nnz ∈ s.seg N then s.ax (q - b.nnz) else b.Ax q) = _
      simp only [h2, hseg, h5]
      by_cases hm : a.nnz ≤ q ∧ q < a.nnz + s.ap N
      · rw [if_neg (by omega), if_pos hm, if_pos (by omega)]
      · rw [if_neg hm]
        by_cases hm' : a.nnz ≤ q ∧ q < a.nnz + s.ap (N + 1)
        · rw [if_pos hm', if_pos (by omega)]
        · rw [if_neg hm', if_neg (by omega)]

theorem sAdd_eq (s : CCS K) (hs : s.WF) (a : SAcc K) :
    (sAdd a s).R = a.R + s.col ∧ (sAdd a s).nnz = a.nnz + s.ap s.col ∧
    (∀ q, (sAdd a s).Ap q = if a.R ≤ q ∧ q ≤ a.R + s.col then s.ap (q - a.R) + a.nnz else a.Ap q) ∧
    (∀ q, (sAdd a s).Ai q = if a.nnz ≤ q ∧ q < a.nnz + s.ap s.col then s.ai (q - a.nnz) else a.Ai q) ∧
    (∀ q, (sAdd a s).Ax q = if a.nnz ≤ q ∧ q < a.nnz + s.ap s.col then s.ax (q - a.nnz) else a.Ax q) := by
  obtain ⟨h1, h2, h3, h4, h5⟩ := sAdd_cols s hs a s.col (Nat.le_refl _)
  unfold sAdd
  dsimp only at h1 h2 h3 h4 h5 ⊢
  refine ⟨by rw [h1], by rw [h2], ?_, h4, h5⟩
  intro q
  rw [h1, h2, h3]
  by_cases hq : q = a.R + s.col
  · rw [if_pos hq, if_pos (by omega), hq]
    rw [show a.R + s.col - a.R = s.col by omega, Nat.add_comm]
  · rw [if_neg hq]
    by_cases hm : a.R ≤ q ∧ q < a.R + s.col
    · rw [if_pos hm, if_pos (by omega)]
    · rw [if_neg hm, if_neg (by omega)]

/-- number of entries before block p -/
def nz (sub : Nat → CCS K) (p : Nat) : Nat := ps (fun q => (sub q).ap (sub q).col) p

theorem acc_inv (sub : Nat → CCS K) (np : Nat) (hs : ∀ p, p < np → (sub p).WF) :
    let a := ((List.range np).map sub).foldl sAdd ⟨fun _ => 0, fun _ => 0, fun _ => 0, 0, 0⟩
    a.R = ps (fun q => (sub q).col) np ∧ a.nnz = nz sub np ∧ a.Ap (ps (fun q => (sub q).col) np) = nz sub np ∧
    (∀ p, p < np → ∀ i, i ≤ (sub p).col → a.Ap (ps (fun q => (sub q).col) p + i) = nz sub p + (sub p).ap i) ∧
    (∀ p, p < np → ∀ j, j < (sub p).ap (sub p).col → a.Ai (nz sub p + j) = (sub p).ai j ∧ a.Ax (nz sub p + j) = (sub p).ax j) := by
  induction np with
  | zero => simp [nz]
  | succ np ih =>
    dsimp only at ih ⊢
    rw [List.range_succ, List.map_append, List.foldl_append, List.map_cons, List.map_nil, List.foldl_cons, List.foldl_nil]
    generalize ((List.range np).map sub).foldl sAdd _ = a at ih ⊢
    obtain ⟨h1, h2, h0, h3, h4⟩ := ih (fun p hp => hs p (by omega))
    have hw := hs np (by omega)
    obtain ⟨i1, i2, i3, i4, i5⟩ := sAdd_eq (sub np) hw a
    have e1 : ps (fun q => (sub q).col) (np + 1) = ps (fun q => (sub q).col) np + (sub np).col := ps_succ _ _
    have e2 : nz sub (np + 1) = nz sub np + (sub np).ap (sub np).col := ps_succ _ _
    refine ⟨by rw [i1, h1, e1], by rw [i2, h2, e2], ?_, ?_, ?_⟩
    · rw [i3, h1, e1, if_pos (by omega), h2, e2]
      rw [show ps (fun q => (sub q).col) np + (sub np).col - ps (fun q => (sub q).col) np = (sub np).col by omega]
      omega
    · intro p hp i hi
      rw [i3, h1, h2]
      rcases Nat.lt_or_eq_of_le (Nat.lt_succ_iff.1 hp) with hp' | hp'
      · have hm := ps_mono (fun q => (sub q).col) (show p + 1 ≤ np by omega)
        rw [ps_succ] at hm
        by_cases hb : ps (fun q => (sub q).col) np ≤ ps (fun q => (sub q).col) p + i
        · -- i = col p and p+1 .. np are empty
          rw [if_pos (by omega), ← h3 p hp' i hi]
          rw [show ps (fun q => (sub q).col) p + i - ps (fun q => (sub q).col) np = 0 by omega, hw.ap0]
          rw [show ps (fun q => (sub q).col) p + i = ps (fun q => (sub q).col) np by omega, h0]
          omega
        · rw [if_neg (by omega), h3 p hp' i hi]
      · subst hp'
        rw [if_pos (by omega)]
        rw [show ps (fun q => (sub q).col) p + i - ps (fun q => (sub q).col) p = i by omega]
        omega
    · intro p hp j hj
      rw [i4, i5, h2]
      rcases Nat.lt_or_eq_of_le (Nat.lt_succ_iff.1 hp) with hp' | hp'
      · have hm := ps_lt (fun q => (sub q).ap (sub q).col) hp' hj
        have : nz sub p + j < nz sub np := hm
        rw [if_neg (by omega), if_neg (by omega)]
        exact h4 p hp' j hj
      · subst hp'
        rw [if_pos (by omega), if_pos (by omega)]
        rw [show nz sub p + j - nz sub p = j by omega]
        exact ⟨rfl, rfl⟩

theorem computeS_eq (sub : Nat → CCS K) (np N : Nat) (hs : ∀ p, p < np → (sub p).WF) (hr : ∀ p, p < np → (sub p).row = N)
    (hN : ps (fun q => (sub q).col) np = N) :
    let S := computeS N ((List.range np).map sub)
    S.WF ∧ S.row = N ∧ S.col = N ∧
    ∀ p, p < np → ∀ c, c < (sub p).col → ∀ r, S.entry r (ps (fun q => (sub q).col) p + c) = (sub p).entry r c := by
  obtain ⟨h1, h2, h0, h3, h4⟩ := acc_inv sub np hs
  unfold computeS
  dsimp only at h1 h2 h0 h3 h4 ⊢
  generalize ((List.range np).map sub).foldl sAdd _ = a at h1 h2 h0 h3 h4 ⊢
  have hap : ∀ c, c ≤ N → (⟨N, N, (List.range (N + 1)).map a.Ap, (List.range a.nnz).map a.Ai,
      (List.range a.nnz).map a.Ax⟩ : CCS K).ap c = a.Ap c := by
    intro c hc
    unfold CCS.ap
    simp [List.getD, List.getElem?_range (show c < N + 1 by omega)]
  have hai : ∀ i, i < a.nnz → (⟨N, N, (List.range (N + 1)).map a.Ap, (List.range a.nnz).map a.Ai,
      (List.range a.nnz).map a.Ax⟩ : CCS K).ai i = a.Ai i := by
    intro c hc
    unfold CCS.ai
    simp [List.getD, List.getElem?_range hc]
  have hax : ∀ i, i < a.nnz → (⟨N, N, (List.range (N + 1)).map a.Ap, (List.range a.nnz).map a.Ai,
      (List.range a.nnz).map a.Ax⟩ : CCS K).ax i = a.Ax i := by
    intro c hc
    unfold CCS.ax
    simp [List.getD, List.getElem?_range hc]
  generalize hA : (⟨N, N, (List.range (N + 1)).map a.Ap, (List.range a.nnz).map a.Ai,
      (List.range a.nnz).map a.Ax⟩ : CCS K) = A at *
  have hrow : A.row = N := by rw [← hA]
  have hcol : A.col = N := by rw [← hA]
  have hAi : A.Ai.length = a.nnz := by rw [← hA]; simp
  have hAx : A.Ax.length = a.nnz := by rw [← hA]; simp
  have hAp : A.Ap.length = N + 1 := by rw [← hA]; simp
  have key : ∀ p, p < np → ∀ c, c < (sub p).col →
      A.ap (ps (fun q => (sub q).col) p + c) = nz sub p + (sub p).ap c ∧
      A.ap (ps (fun q => (sub q).col) p + c + 1) = nz sub p + (sub p).ap (c + 1) := by
    intro p hp c hc
    have hm := ps_lt (fun q => (sub q).col) hp hc
    rw [hN] at hm
    refine ⟨?_, ?_⟩
    · rw [hap _ (by omega), h3 p hp c (by omega)]
    · rw [hap _ (by omega), Nat.add_assoc, h3 p hp (c + 1) (by omega)]
  have bound : ∀ p, p < np → ∀ c, c < (sub p).col → ∀ j, j < (sub p).ap (c + 1) → nz sub p + j < a.nnz ∧ j < (sub p).ap (sub p).col := by
    intro p hp c hc j hj
    have := (hs p hp).ap_mono (sub p).col (c + 1) (by omega) (Nat.le_refl _)
    have hj' : j < (sub p).ap (sub p).col := by omega
    have hm := ps_lt (fun q => (sub q).ap (sub q).col) hp hj'
    refine ⟨?_, hj'⟩
    rw [h2]; exact hm
  have aimap : ∀ p, p < np → ∀ c, c < (sub p).col → ∀ j, j < (sub p).ap (c + 1) →
      A.ai (nz sub p + j) = (sub p).ai j ∧ A.ax (nz sub p + j) = (sub p).ax j := by
    intro p hp c hc j hj
    obtain ⟨b1, b2⟩ := bound p hp c hc j hj
    rw [hai _ b1, hax _ b1]
    exact h4 p hp j b2
  refine ⟨⟨?_, ?_, ?_, ?_, ?_, ?_, ?_⟩, rfl, rfl, ?_⟩
  · rw [hAp, hcol]
  · rw [hAi, hAx]
  · rw [hap 0 (by omega)]
    cases np with
    | zero => exact h0
    | succ np =>
      have := h3 0 (by omega) 0 (by omega)
      rw [(hs 0 (by omega)).ap0] at this
      simpa [nz] using this
  · intro c hc
    rw [hcol, ← hN] at hc
    obtain ⟨p, i, hp, hi, rfl⟩ := ps_decomp _ _ _ hc
    obtain ⟨k1, k2⟩ := key p hp i hi
    rw [k1, k2]
    have := (hs p hp).mono i hi
    omega
  · rw [hcol, hap N (Nat.le_refl _), hAi, ← hN, h0, h2]
  · intro i hi
    rw [hAi, h2] at hi
    obtain ⟨p, j, hp, hj, rfl⟩ := ps_decomp _ _ _ hi
    have hi' : nz sub p + j < a.nnz := by rw [h2]; exact hi
    have := (h4 p hp j hj).1
    show A.ai (nz sub p + j) < _
    rw [hai _ hi', this, hrow, ← hr p hp]
    apply (hs p hp).rows
    rw [← (hs p hp).apEnd]; exact hj
  · intro c hc i j h5 h6 h7
    rw [hcol, ← hN] at hc
    obtain ⟨p, d, hp, hd, rfl⟩ := ps_decomp _ _ _ hc
    obtain ⟨k1, k2⟩ := key p hp d hd
    rw [k1] at h5
    rw [k2] at h7
    have e1 := (aimap p hp d hd (i - nz sub p) (by omega)).1
    have e2 := (aimap p hp d hd (j - nz sub p) (by omega)).1
    rw [show nz sub p + (i - nz sub p) = i by omega] at e1
    rw [show nz sub p + (j - nz sub p) = j by omega] at e2
    rw [e1, e2]
    exact (hs p hp).incr d hd _ _ (by omega) (by omega) (by omega)
  · intro p hp c hc r
    obtain ⟨k1, k2⟩ := key p hp c hc
    unfold CCS.entry
    have hseg : A.seg (ps (fun q => (sub q).col) p + c) = ((sub p).seg c).map (fun j => nz sub p + j) := by
      unfold CCS.seg
      rw [k1, k2, List.map_add_range']
      congr 1
      omega
    rw [hseg, List.map_map]
    congr 1
    apply List.map_congr_left
    intro j hj
    have hj' : j < (sub p).ap (c + 1) := ((hs p hp).seg_mem hc hj).2.1
    obtain ⟨m1, m2⟩ := aimap p hp c hc j hj'
    simp only [Function.comp, m1, m2]

end Elliptica.Schur
