import Verif.Lemmas.Schur
import Verif.Props.Matrix
/-!
Helper lemmas for the Schur-complement solver: what the loops over blocks compute.
-/
namespace Elliptica.Schur
open Mat

variable {K : Type} [Field K] [LinearOrder K]

/-! ### F f' -/

theorem fByf_ok (np : Nat) (NI : Nat → Nat) (P : Patch K) (fp : Nat → K) (hNI : ∀ q, q < np → NI q ≠ 0) (hNS : P.NS ≠ 0) :
    ∃ v, fByf np NI P fp = .ok v ∧ ∀ q, q < np → ∀ r, r < NI q →
      v (ps NI q + r) = ∑ t ∈ Finset.range P.NS, P.entryF q r t * fp t := by
  have key : ∀ n, n ≤ np → ∃ v, (List.range n).foldl (fun (s : Res (Nat × (Nat → K))) q =>
      s.bind (fByfStep NI P fp · q)) (.ok (0, fun _ => 0)) = .ok (ps NI n, v) ∧
      (∀ q, q < n → ∀ r, r < NI q → v (ps NI q + r) = ∑ t ∈ Finset.range P.NS, P.entryF q r t * fp t) ∧
      ∀ t, ps NI n ≤ t → v t = 0 := by
    intro n
    induction n with
    | zero => intro _; exact ⟨_, rfl, by simp, by simp⟩
    | succ n ih =>
      intro hn
      obtain ⟨v, h1, h2, h3⟩ := ih (by omega)
      rw [List.range_succ, List.foldl_append, h1, List.foldl_cons, List.foldl_nil, Res.bind_ok]
      unfold fByfStep
      cases hF : P.FC n with
      | none =>
        refine ⟨v, by rw [ps_succ], ?_, ?_⟩
        · intro q hq r hr
          rcases Nat.lt_or_eq_of_le (Nat.lt_succ_iff.1 hq) with hq' | rfl
          · exact h2 q hq' r hr
          · rw [h3 _ (by omega)]
            simp [Patch.entryF, hF]
        · intro t ht
          rw [ps_succ] at ht
          exact h3 t (by omega)
      | some FC =>
        obtain ⟨F, C⟩ := FC
        dsimp only
        obtain ⟨w, w1, w2, w3⟩ := C16_matrix_vector (.rmo (NI n) P.NS F) ⟨hNI n (by omega), hNS⟩ (by intro A h; cases h) fp
          (fun r => v (ps NI n + r)) false
        rw [w1, Res.bind_ok]
        refine ⟨_, by rw [ps_succ], ?_, ?_⟩
        · intro q hq r hr
          rcases Nat.lt_or_eq_of_le (Nat.lt_succ_iff.1 hq) with hq' | rfl
          · have := ps_lt NI hq' hr
            rw [if_neg (by omega)]
            exact h2 q hq' r hr
          · rw [if_pos (by omega), show ps NI q + r - ps NI q = r by omega, w2 r hr]
            rw [h3 _ (by omega)]
            simp [Patch.entryF, hF, Mx.entry, Mx.col, Index.ij, Nat.add_comm]
        · intro t ht
          rw [ps_succ] at ht
          rw [if_pos (by omega), w3 _ (by show NI n ≤ _; omega)]
          exact h3 _ (by omega)
  obtain ⟨v, h1, h2, _⟩ := key np (Nat.le_refl _)
  exact ⟨v, by unfold fByf; rw [h1]; rfl, h2⟩

/-! ### F E' -/

/-- the value kept in compressed storage -/
def cut (δ x : K) : K := if δ < |x| then x else 0

theorem ap_end_zero {A : CCS K} (h : A.WF) (h0 : A.ap A.col = 0) (r c : Nat) (hc : c < A.col) : A.entry r c = 0 := by
  unfold CCS.entry
  have : A.seg c = [] := by
    unfold CCS.seg
    have h1 := h.ap_mono A.col (c + 1) (by omega) (Nat.le_refl _)
    rw [show A.ap (c + 1) - A.ap c = 0 by omega]
    rfl
  rw [this]; simp

theorem fByE_ok [IsStrictOrderedRing K] (e drop : K) (nq : Nat) (P : Patch K) (ETp : CCS K) (F : Nat → K) (hq : nq ≠ 0)
    (hNS : P.NS ≠ 0) (hNI : P.NI ≠ 0) (hE : ETp.WF) (hEr : ETp.row = P.NI) (hEc : ETp.col = P.NS) :
    ∃ FE, fByE e drop nq P ETp F = .ok FE ∧ ∀ (C : Nat × Nat → K) r c, r < nq → c < P.NI →
      sBlock P.NI C FE (r, c) = C (r, c) - ∑ t ∈ Finset.range P.NS, cut (drop + e) (F (P.NS * r + t)) * ETp.entry c t := by
  obtain ⟨hw, hent⟩ := C14_roundtrip_rmo e drop F nq P.NS
  have hrow : (buildCCS e drop (fun i j => F (Index.ij P.NS i j)) nq P.NS).row = nq := rfl
  have hcol : (buildCCS e drop (fun i j => F (Index.ij P.NS i j)) nq P.NS).col = P.NS := rfl
  unfold fByE castCcs
  rw [if_neg (by simp [Mx.row, Mx.col, hq, hNS])]
  simp only [Res.bind_ok]
  generalize buildCCS e drop (fun i j => F (Index.ij P.NS i j)) nq P.NS = Fc at *
  by_cases h0 : Fc.ap Fc.col ≠ 0 ∧ ETp.ap ETp.col ≠ 0
  · rw [if_pos h0]
    have hD : mulMMT (.ccs Fc) (.ccs ETp) (some (fun _ => (0 : K))) = .ok (.rmo Fc.row ETp.row
        ((List.range Fc.col).foldl (fun D c => (Fc.seg c).foldl (fun D l1 =>
        (ETp.seg c).foldl (fun D l2 => addTo D (Index.ij ETp.row (Fc.ai l1) (ETp.ai l2)) (Fc.ax l1 * ETp.ax l2)) D) D)
          (fun _ => 0))) := by
      unfold mulMMT
      rw [if_neg (by simp [Mx.row, Mx.col, hrow, hcol, hq, hNS, hNI, hEr, hEc])]
    obtain ⟨m, m1, m2, m3, m4⟩ := C16_product_transpose_into (.ccs Fc) (.ccs ETp) hw hE (fun _ => (0 : K))
      ⟨by simp [Mx.row, hrow, hq], by simp [Mx.col, hcol, hNS], by simp [Mx.row, hEr, hNI], by simp [Mx.col, hEc, hNS]⟩
      (by simp [Mx.col, hcol, hEc]) (Or.inr ⟨Fc, ETp, rfl, rfl⟩)
    rw [hD] at m1
    injection m1 with m1
    rw [hD]
    simp only [Res.bind_ok]
    refine ⟨_, rfl, ?_⟩
    intro C r c hr hc
    have := m4 r c (by simpa [Mx.row, hrow] using hr) (by simpa [Mx.row, hEr] using hc)
    rw [← m1] at this
    simp only [Mx.entry, Mx.row, Mx.col, zero_add] at this
    rw [hcol] at this
    simp only [hEr] at this ⊢
    unfold sBlock
    dsimp only
    rw [hcol, this]
    congr 1
    apply Finset.sum_congr rfl
    intro t ht
    rw [hent r t hr (Finset.mem_range.1 ht)]
    rfl
  · rw [if_neg h0]
    refine ⟨none, rfl, ?_⟩
    intro C r c hr hc
    have : ∑ t ∈ Finset.range P.NS, cut (drop + e) (F (P.NS * r + t)) * ETp.entry c t = 0 := by
      apply Finset.sum_eq_zero
      intro t ht
      rw [Finset.mem_range] at ht
      by_cases h1 : Fc.ap Fc.col = 0
      · have := hent r t hr ht
        rw [ap_end_zero hw h1 r t (by omega)] at this
        unfold cut
        rw [← this, zero_mul]
      · have h2 : ETp.ap ETp.col = 0 := by
          by_contra h2; exact h0 ⟨h1, h2⟩
        rw [ap_end_zero hE h2 c t (by omega), mul_zero]
    rw [this, sub_zero]
    rfl

/-! ### the stack -/

theorem stackEntry_append (S T : List (Option (Nat × Nat → K) × Nat)) (r c : Nat) :
    stackEntry (S ++ T) r c = if r < totalRows S then stackEntry S r c else stackEntry T (r - totalRows S) c := by
  induction S generalizing r with
  | nil => simp [totalRows]
  | cons p S ih =>
    obtain ⟨m, n⟩ := p
    rw [List.cons_append]
    simp only [stackEntry]
    have ht : totalRows ((m, n) :: S) = n + totalRows S := by simp [totalRows]
    rw [ht]
    by_cases h : r < n
    · rw [if_pos h, if_pos (by omega), if_pos h]
    · rw [if_neg h, ih]
      by_cases h2 : r - n < totalRows S
      · rw [if_pos h2, if_pos (by omega), if_neg h]
      · rw [if_neg h2, if_neg (by omega)]
        congr 1; omega

theorem sStack_ok [IsStrictOrderedRing K] (e drop : K) (np : Nat) (NI : Nat → Nat) (P : Patch K) (ETp : CCS K)
    (hNI : ∀ q, q < np → NI q ≠ 0) (hNS : P.NS ≠ 0) (hI : P.NI ≠ 0) (hE : ETp.WF) (hEr : ETp.row = P.NI) (hEc : ETp.col = P.NS) :
    ∃ st, sStack e drop np NI P ETp = .ok st ∧ totalRows st = ps NI np ∧
      ∀ q, q < np → ∀ r, r < NI q → ∀ c, c < P.NI → stackEntry st (ps NI q + r) c =
        P.entryC q r c - ∑ t ∈ Finset.range P.NS, cut (drop + e) (P.entryF q r t) * ETp.entry c t := by
  unfold sStack
  have key : ∀ n, n ≤ np → ∃ st, (List.range n).foldl (fun (s : Res (List (Option (Nat × Nat → K) × Nat))) q => s.bind (sStackStep e drop NI P ETp · q))
    (.ok []) = .ok st ∧ totalRows st = ps NI n ∧
      ∀ q, q < n → ∀ r, r < NI q → ∀ c, c < P.NI → stackEntry st (ps NI q + r) c =
        P.entryC q r c - ∑ t ∈ Finset.range P.NS, cut (drop + e) (P.entryF q r t) * ETp.entry c t := by
    intro n
    induction n with
    | zero => intro _; exact ⟨_, rfl, rfl, by simp⟩
    | succ n ih =>
      intro hn
      obtain ⟨st, h1, h2, h3⟩ := ih (by omega)
      rw [List.range_succ, List.foldl_append, h1, List.foldl_cons, List.foldl_nil, Res.bind_ok]
      have tot : ∀ m : Option (Nat × Nat → K), totalRows (st ++ [(m, NI n)]) = ps NI (n + 1) := by
        intro m
        rw [ps_succ, ← h2]
        simp [totalRows]
      have old : ∀ (m : Option (Nat × Nat → K)) q, q < n → ∀ r, r < NI q → ∀ c, stackEntry (st ++ [(m, NI n)]) (ps NI q + r) c =
          stackEntry st (ps NI q + r) c := by
        intro m q hq r hr c
        have := ps_lt NI hq hr
        rw [stackEntry_append, if_pos (by omega)]
      have new : ∀ (m : Option (Nat × Nat → K)) r, r < NI n → ∀ c, stackEntry (st ++ [(m, NI n)]) (ps NI n + r) c =
          (match m with | none => 0 | some m => m (r, c)) := by
        intro m r hr c
        rw [stackEntry_append, if_neg (by omega), h2, show ps NI n + r - ps NI n = r by omega]
        simp only [stackEntry, if_pos hr]
        cases m <;> rfl
      unfold sStackStep
      cases hF : P.FC n with
      | none =>
        refine ⟨_, rfl, tot none, ?_⟩
        intro q hq r hr c hc
        rcases Nat.lt_or_eq_of_le (Nat.lt_succ_iff.1 hq) with hq' | rfl
        · rw [old none q hq' r hr c]; exact h3 q hq' r hr c hc
        · rw [new none r hr c]
          simp [Patch.entryF, Patch.entryC, hF, cut]
      | some FC =>
        obtain ⟨F, C⟩ := FC
        obtain ⟨FE, e1, e2⟩ := fByE_ok e drop (NI n) P ETp F (hNI n (by omega)) hNS hI hE hEr hEc
        dsimp only
        rw [e1, Res.bind_ok]
        refine ⟨_, rfl, tot _, ?_⟩
        intro q hq r hr c hc
        rcases Nat.lt_or_eq_of_le (Nat.lt_succ_iff.1 hq) with hq' | rfl
        · rw [old _ q hq' r hr c]; exact h3 q hq' r hr c hc
        · rw [new _ r hr c]
          dsimp only
          rw [e2 C r c hr hc]
          simp [Patch.entryF, Patch.entryC, hF]
  exact key np (Nat.le_refl _)

/-! ### g' and x -/

theorem foldl_addTo_row (N : Nat) (w : Nat → K) (s : Nat → K) (q : Nat) :
    (List.range N).foldl (fun s i => addTo s i (w i)) s q = s q + if q < N then w q else 0 := by
  induction N with
  | zero => simp
  | succ N ih =>
    rw [List.range_succ, List.foldl_append, List.foldl_cons, List.foldl_nil, addTo_apply, ih]
    by_cases h : q = N
    · subst h; simp
    · rw [if_neg h]
      by_cases h2 : q < N
      · rw [if_pos h2, if_pos (by omega), add_zero]
      · rw [if_neg h2, if_neg (by omega), add_zero]

theorem computeG_sum (np N : Nat) (hnp : 0 < np) (Ff : Nat → Nat → K) (q : Nat) (hq : q < N) :
    (List.range' 1 (np - 1)).foldl (fun s p => (List.range N).foldl (fun s i => addTo s i (Ff p i)) s) (Ff 0) q =
      ∑ p ∈ Finset.range np, Ff p q := by
  have key : ∀ m, (List.range' 1 m).foldl (fun s p => (List.range N).foldl (fun s i => addTo s i (Ff p i)) s) (Ff 0) q =
      ∑ p ∈ Finset.range (m + 1), Ff p q := by
    intro m
    induction m with
    | zero => simp
    | succ m ih =>
      rw [List.range'_concat, List.foldl_append, List.foldl_cons, List.foldl_nil, foldl_addTo_row, ih, if_pos hq,
        Finset.sum_range_succ _ (m + 1)]
      congr 2; omega
  rw [key, show np - 1 + 1 = np by omega]

theorem sub_row (N R : Nat) (g : Nat → K) (v : Nat → K) (q : Nat) :
    (List.range N).foldl (fun v i => upd v (R + i) (g i - v (R + i))) v q =
      if R ≤ q ∧ q < R + N then g (q - R) - v q else v q := by
  induction N with
  | zero => rw [if_neg (by omega)]; rfl
  | succ N ih =>
    rw [List.range_succ, List.foldl_append, List.foldl_cons, List.foldl_nil]
    unfold upd at ih ⊢
    by_cases h : q = R + N
    · subst h
      rw [if_pos rfl, ih, if_neg (by omega), if_pos (by omega)]
      congr 2; omega
    · rw [if_neg h, ih]
      by_cases h2 : R ≤ q ∧ q < R + N
      · rw [if_pos h2, if_pos (by omega)]
      · rw [if_neg h2, if_neg (by omega)]

theorem computeG_eq (np : Nat) (hnp : 0 < np) (P : Nat → Patch K) (Ff : Nat → Nat → K) (q : Nat) (hq : q < np) (r : Nat)
    (hr : r < (P q).NI) :
    computeG np (ps (fun q => (P q).NI) np) P Ff (ps (fun q => (P q).NI) q + r) =
      (P q).g r - ∑ p ∈ Finset.range np, Ff p (ps (fun q => (P q).NI) q + r) := by
  unfold computeG
  have hsum := fun t ht => computeG_sum np (ps (fun q => (P q).NI) np) hnp Ff t ht
  generalize (List.range' 1 (np - 1)).foldl _ (Ff 0) = s at hsum ⊢
  have key : ∀ n, n ≤ np →
      let a := (List.range n).foldl (fun (a : Nat × (Nat → K)) p =>
        (a.1 + (P p).NI, (List.range (P p).NI).foldl (fun v i => upd v (a.1 + i) ((P p).g i - v (a.1 + i))) a.2)) (0, s)
      a.1 = ps (fun q => (P q).NI) n ∧ (∀ t, ps (fun q => (P q).NI) n ≤ t → a.2 t = s t) ∧
      ∀ q, q < n → ∀ r, r < (P q).NI → a.2 (ps (fun q => (P q).NI) q + r) = (P q).g r - s (ps (fun q => (P q).NI) q + r) := by
    intro n
    induction n with
    | zero => intro _; exact ⟨rfl, fun _ _ => rfl, by intro q hq; omega⟩
    | succ n ih =>
      intro hn
      dsimp only at ih ⊢
      rw [List.range_succ, List.foldl_append, List.foldl_cons, List.foldl_nil]
      generalize (List.range n).foldl _ (0, s) = a at ih ⊢
      obtain ⟨i1, i2, i3⟩ := ih (by omega)
      have es : ps (fun q => (P q).NI) (n + 1) = ps (fun q => (P q).NI) n + (P n).NI := ps_succ _ _
      refine ⟨by rw [es, ← i1], ?_, ?_⟩
      · intro t ht
        rw [es] at ht
        dsimp only
        rw [sub_row, if_neg (by omega)]
        exact i2 t (by omega)
      · intro q hq r hr
        dsimp only
        rw [sub_row, i1]
        rcases Nat.lt_or_eq_of_le (Nat.lt_succ_iff.1 hq) with hq' | rfl
        · have : ps (fun q => (P q).NI) q + r < ps (fun q => (P q).NI) n := ps_lt (fun q => (P q).NI) hq' hr
          rw [if_neg (by omega)]
          exact i3 q hq' r hr
        · rw [if_pos (by omega), i2 _ (by omega)]
          congr 2; omega
  rw [(key np (Nat.le_refl _)).2.2 q hq r hr, hsum _ (ps_lt (fun q => (P q).NI) hq hr)]

theorem computeX_eq (ETp : CCS K) (hE : ETp.WF) (fp y : Nat → K) (c : Nat) (hc : c < ETp.col) :
    computeX ETp fp y c = fp c - ∑ i ∈ Finset.range ETp.row, ETp.entry i c * y i := by
  unfold computeX
  have key : ∀ N (w : Nat → K), (List.range N).foldl (fun x c => upd x c (w c)) (fun _ => (0 : K)) c = if c < N then w c else 0 := by
    intro N w
    induction N with
    | zero => simp
    | succ N ih =>
      rw [List.range_succ, List.foldl_append, List.foldl_cons, List.foldl_nil]
      unfold upd at ih ⊢
      by_cases h : c = N
      · subst h; simp
      · rw [if_neg h, ih]
        by_cases h2 : c < N
        · rw [if_pos h2, if_pos (by omega)]
        · rw [if_neg h2, if_neg (by omega)]
  rw [key, if_pos hc]
  congr 1
  have h2 : ∀ (l : List Nat) (a : K), l.foldl (fun Ey i => Ey + ETp.ax i * y (ETp.ai i)) a =
      a + (l.map (fun i => y (ETp.ai i) * ETp.ax i)).sum := by
    intro l
    induction l with
    | nil => intro a; simp
    | cons j l ih => intro a; rw [List.foldl_cons, ih, List.map_cons, List.sum_cons]; ring
  rw [h2, zero_add, seg_sum hE hc y]
  apply Finset.sum_congr rfl
  intro i _; ring

end Elliptica.Schur
