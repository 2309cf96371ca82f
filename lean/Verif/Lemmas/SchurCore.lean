import Verif.Lemmas.SchurStep
import Mathlib.Tactic.Linarith
import Mathlib.Algebra.Order.BigOperators.Ring.Finset
/-!
Helper lemmas for C34: the equations satisfied by the numbers the Schur-complement step computes.
-/
namespace Elliptica.Schur
open Mat

variable {K : Type} [Field K] [LinearOrder K]

/-! ### what one elimination delivers -/

theorem ePrime_ok [IsStrictOrderedRing K] (e drop : K) (solve : Solver K) (hs : Sound solve) (P : Patch K) (ETp : CCS K) (fp : Nat → K)
    (h : ePrime e drop solve P = .ok (ETp, fp)) :
    P.NS ≠ 0 ∧ P.NI ≠ 0 ∧ ETp.WF ∧ ETp.row = P.NI ∧ ETp.col = P.NS ∧
    (∀ s, s < P.NS → ∑ t ∈ Finset.range P.NS, cut (drop + e) (P.B (s, t)) * fp t = P.f s) ∧
    ∃ w : Nat → Nat → K, (∀ i, i < P.NI → ∀ s, s < P.NS → ∑ t ∈ Finset.range P.NS, cut (drop + e) (P.B (s, t)) * w i t = P.ET (i, s)) ∧
      ∀ i, i < P.NI → ∀ t, t < P.NS → ETp.entry i t = cut (drop + e) (w i t) := by
  unfold ePrime at h
  split at h
  · cases h
  rename_i hNS
  dsimp only at h
  split at h
  · cases h
  rename_i hall
  cases hf : solve (buildCCS e drop (fun r c => P.B (r, c)) P.NS P.NS) P.f with
  | none => rw [hf] at h; cases h
  | some fp' =>
    rw [hf] at h
    dsimp only at h
    split at h
    · cases h
    rename_i hNI
    injection h with h
    injection h with h1 h2
    subst h1 h2
    obtain ⟨hBw, hBr, hBc, hBe⟩ := C14_roundtrip e drop P.B P.NS P.NS
    have hsol : ∀ b z, solve (buildCCS e drop (fun r c => P.B (r, c)) P.NS P.NS) b = some z → ∀ s, s < P.NS →
        ∑ t ∈ Finset.range P.NS, cut (drop + e) (P.B (s, t)) * z t = b s := by
      intro b z hz s hs'
      rw [← hs _ b z hBw rfl hz s hs']
      apply Finset.sum_congr rfl
      intro t ht
      rw [(hBe s t hs' (Finset.mem_range.1 ht)).1]
      rfl
    refine ⟨hNS, hNI, buildCCS_wf _ _ _ _ _, rfl, rfl, hsol _ _ hf, fun i t => (solve (buildCCS e drop (fun r c => P.B (r, c)) P.NS P.NS) (fun s => P.ET (i, s))).getD (fun _ => 0) t, ?_, ?_⟩
    · intro i hi s hs'
      have : (solve (buildCCS e drop (fun r c => P.B (r, c)) P.NS P.NS) (fun s => P.ET (i, s))).isNone ≠ true := by
        intro hn
        apply hall
        rw [List.any_eq_true]
        exact ⟨i, List.mem_range.2 hi, hn⟩
      cases hz : solve (buildCCS e drop (fun r c => P.B (r, c)) P.NS P.NS) (fun s => P.ET (i, s)) with
      | none => rw [hz] at this; exact absurd rfl this
      | some z =>
        have := hsol _ z hz s hs'
        simp only [hz, Option.getD_some]
        exact this
    · intro i hi t ht
      rw [(C14_roundtrip e drop (fun rc => (solve (buildCCS e drop (fun r c => P.B (r, c)) P.NS P.NS)
        (fun s => P.ET (rc.1, s))).getD (fun _ => 0) rc.2) P.NI P.NS).2.2.2 i t hi ht |>.1]
      rfl

theorem elim_ok [IsStrictOrderedRing K] (e drop : K) (he : 0 ≤ e) (solve : Solver K) (hs : Sound solve) (np : Nat) (NI : Nat → Nat)
    (P : Patch K) (E : Elim K) (hNI : ∀ q, q < np → NI q ≠ 0) (h : elim e drop solve np NI (ps NI np) P = .ok E) :
    P.NS ≠ 0 ∧ P.NI ≠ 0 ∧ E.ETp.WF ∧ E.ETp.row = P.NI ∧ E.ETp.col = P.NS ∧ E.subS.WF ∧ E.subS.row = ps NI np ∧ E.subS.col = P.NI ∧
    (∀ s, s < P.NS → ∑ t ∈ Finset.range P.NS, cut (drop + e) (P.B (s, t)) * E.fp t = P.f s) ∧
    (∀ q, q < np → ∀ r, r < NI q → E.Ff (ps NI q + r) = ∑ t ∈ Finset.range P.NS, P.entryF q r t * E.fp t) ∧
    ∃ w : Nat → Nat → K, (∀ i, i < P.NI → ∀ s, s < P.NS → ∑ t ∈ Finset.range P.NS, cut (drop + e) (P.B (s, t)) * w i t = P.ET (i, s)) ∧
      (∀ i, i < P.NI → ∀ t, t < P.NS → E.ETp.entry i t = cut (drop + e) (w i t)) ∧
      (∀ q, q < np → ∀ r, r < NI q → ∀ c, c < P.NI → E.subS.entry (ps NI q + r) c =
        cut e (P.entryC q r c - ∑ t ∈ Finset.range P.NS, cut (drop + e) (P.entryF q r t) * cut (drop + e) (w c t))) := by
  unfold elim at h
  cases h1 : ePrime e drop solve P with
  | abort => rw [h1] at h; cases h
  | ub => rw [h1] at h; cases h
  | ok r =>
    obtain ⟨ETp, fp⟩ := r
    obtain ⟨a1, a2, a3, a4, a5, a6, w, w1, w2⟩ := ePrime_ok e drop solve hs P ETp fp h1
    rw [h1, Res.bind_ok] at h
    dsimp only at h
    obtain ⟨v, v1, v2⟩ := fByf_ok np NI P fp hNI a1
    obtain ⟨st, s1, s2, s3⟩ := sStack_ok e drop np NI P ETp hNI a1 a2 a3 a4 a5
    rw [v1, Res.bind_ok, s1, Res.bind_ok] at h
    injection h with h
    subst h
    obtain ⟨c1, c2⟩ := C14_stack e he st P.NI
    rw [s2] at c1 c2
    refine ⟨a1, a2, a3, a4, a5, c1, rfl, rfl, a6, v2, w, w1, w2, ?_⟩
    intro q hq r hr c hc
    dsimp only
    rw [c2 (ps NI q + r) c (ps_lt NI hq hr) hc, s3 q hq r hr c hc]
    unfold cut
    have : ∀ t ∈ Finset.range P.NS, (if drop + e < |P.entryF q r t| then P.entryF q r t else 0) * ETp.entry c t =
        (if drop + e < |P.entryF q r t| then P.entryF q r t else 0) * (if drop + e < |w c t| then w c t else 0) := by
      intro t ht
      rw [w2 c hc t (Finset.mem_range.1 ht)]; rfl
    rw [Finset.sum_congr rfl this]

theorem elimAll_ok (e drop : K) (solve : Solver K) (np : Nat) (P : Nat → Patch K) (l : List (Elim K))
    (h : elimAll e drop solve np P = .ok l) :
    ∃ E : Nat → Elim K, l = (List.range np).map E ∧
      ∀ p, p < np → elim e drop solve np (fun q => (P q).NI) (off P np) (P p) = .ok (E p) := by
  unfold elimAll at h
  generalize hG : (fun p => elim e drop solve np (fun q => (P q).NI) (off P np) (P p)) = G at *
  have hG' : ∀ p, elim e drop solve np (fun q => (P q).NI) (off P np) (P p) = G p := fun p => congrFun hG p
  simp only [hG'] at h ⊢
  clear hG hG'
  induction np generalizing l with
  | zero => injection h with h; exact ⟨fun _ => ⟨⟨0, 0, [], [], []⟩, fun _ => 0, fun _ => 0, ⟨0, 0, [], [], []⟩⟩, h.symm, by simp⟩
  | succ np ih =>
    rw [List.range_succ, List.foldl_append, List.foldl_cons, List.foldl_nil] at h
    cases h1 : (List.range np).foldl (fun s p => s.bind fun l => (G p).bind fun E => .ok (l ++ [E])) (Res.ok []) with
    | abort => rw [h1] at h; cases h
    | ub => rw [h1] at h; cases h
    | ok l' =>
      rw [h1, Res.bind_ok] at h
      obtain ⟨E, e1, e2⟩ := ih l' h1
      cases h2 : G np with
      | abort => rw [h2] at h; cases h
      | ub => rw [h2] at h; cases h
      | ok En =>
        rw [h2, Res.bind_ok] at h
        injection h with h
        refine ⟨fun p => if p = np then En else E p, ?_, ?_⟩
        · rw [← h, e1, List.range_succ, List.map_append]
          congr 1
          · apply List.map_congr_left
            intro p hp
            rw [List.mem_range] at hp
            rw [if_neg (by omega)]
          · simp
        · intro p hp
          dsimp only
          by_cases hpn : p = np
          · rw [if_pos hpn, hpn, h2]
          · rw [if_neg hpn]; exact e2 p (by omega)

/-- The equations satisfied by the numbers the step computes. -/
theorem newton_core [IsStrictOrderedRing K] (e drop : K) (he : 0 ≤ e) (solve : Solver K) (hs : Sound solve) (np : Nat)
    (P : Nat → Patch K) (x y : Nat → Nat → K) (h : newton e drop solve np P = .ok (x, y)) :
    ∃ (fp : Nat → Nat → K) (w : Nat → Nat → Nat → K),
    (∀ p, p < np → ∀ s, s < (P p).NS → ∑ t ∈ Finset.range (P p).NS, cut (drop + e) ((P p).B (s, t)) * fp p t = (P p).f s) ∧
    (∀ p, p < np → ∀ i, i < (P p).NI → ∀ s, s < (P p).NS →
      ∑ t ∈ Finset.range (P p).NS, cut (drop + e) ((P p).B (s, t)) * w p i t = (P p).ET (i, s)) ∧
    (∀ p, p < np → ∀ t, t < (P p).NS → x p t = fp p t - ∑ i ∈ Finset.range (P p).NI, cut (drop + e) (w p i t) * y p i) ∧
    (∀ q, q < np → ∀ r, r < (P q).NI → ∑ p ∈ Finset.range np, ∑ i ∈ Finset.range (P p).NI,
      cut e ((P p).entryC q r i - ∑ t ∈ Finset.range (P p).NS, cut (drop + e) ((P p).entryF q r t) * cut (drop + e) (w p i t)) * y p i
      = (P q).g r - ∑ p ∈ Finset.range np, ∑ t ∈ Finset.range (P p).NS, (P p).entryF q r t * fp p t) := by
  unfold newton at h
  cases hl : elimAll e drop solve np P with
  | abort => rw [hl] at h; cases h
  | ub => rw [hl] at h; cases h
  | ok l =>
    rw [hl, Res.bind_ok] at h
    dsimp only at h
    obtain ⟨E, rfl, hE⟩ := elimAll_ok e drop solve np P l hl
    rw [off_eq] at h
    have hNI : ∀ q, q < np → (P q).NI ≠ 0 := by
      intro q hq h0
      have := hE q hq
      unfold elim at this
      cases h1 : ePrime e drop solve (P q) with
      | abort => rw [h1] at this; cases this
      | ub => rw [h1] at this; cases this
      | ok r => obtain ⟨a, b⟩ := r; exact (ePrime_ok e drop solve hs _ _ _ h1).2.1 h0
    have hk : ∀ p, p < np → _ := fun p hp => elim_ok e drop he solve hs np (fun q => (P q).NI) (P p) (E p) hNI
      (by rw [← off_eq]; exact hE p hp)
    have hget : ∀ p, p < np → ((List.range np).map E).getD p ⟨⟨0, 0, [], [], []⟩, fun _ => 0, fun _ => 0, ⟨0, 0, [], [], []⟩⟩ = E p := by
      intro p hp
      simp [List.getD, List.getElem?_range hp]
    generalize hel : (fun p => ((List.range np).map E).getD p ⟨⟨0, 0, [], [], []⟩, fun _ => 0, fun _ => 0, ⟨0, 0, [], [], []⟩⟩) = el at h
    have hel' : ∀ p, p < np → el p = E p := by
      intro p hp; rw [← hel]; exact hget p hp
    have hel0 : ∀ p, ((List.range np).map E).getD p ⟨⟨0, 0, [], [], []⟩, fun _ => 0, fun _ => 0, ⟨0, 0, [], [], []⟩⟩ = el p :=
      fun p => congrFun hel p
    simp only [hel0] at h
    have hmap : ((List.range np).map E).map (·.subS) = (List.range np).map (fun p => (E p).subS) := by
      rw [List.map_map]; rfl
    rw [hmap] at h
    have hcols : ∀ m, m ≤ np → ps (fun q => ((E q).subS).col) m = ps (fun q => (P q).NI) m := by
      intro m hm
      unfold ps
      apply Finset.sum_congr rfl
      intro q hq
      rw [Finset.mem_range] at hq
      exact (hk q (by omega)).2.2.2.2.2.2.2.1
    obtain ⟨S1, S2, S3, S4⟩ := computeS_eq (fun p => (E p).subS) np (ps (fun q => (P q).NI) np)
      (fun p hp => (hk p hp).2.2.2.2.2.1) (fun p hp => (hk p hp).2.2.2.2.2.2.1) (hcols np (Nat.le_refl _))
    generalize computeS (ps (fun q => (P q).NI) np) ((List.range np).map (fun p => (E p).subS)) = S at h S1 S2 S3 S4
    cases hy : solve S (computeG np (ps (fun q => (P q).NI) np) P (fun p => (el p).Ff)) with
    | none => rw [hy] at h; cases h
    | some yy =>
      rw [hy] at h
      dsimp only at h
      injection h with h
      injection h with hx hyy
      have hysol := hs S _ yy S1 (by rw [S2, S3]) hy
      have hchoose : ∃ w : Nat → Nat → Nat → K, ∀ p, p < np →
          (∀ i, i < (P p).NI → ∀ s, s < (P p).NS → ∑ t ∈ Finset.range (P p).NS, cut (drop + e) ((P p).B (s, t)) * w p i t = (P p).ET (i, s)) ∧
          (∀ i, i < (P p).NI → ∀ t, t < (P p).NS → (E p).ETp.entry i t = cut (drop + e) (w p i t)) ∧
          (∀ q, q < np → ∀ r, r < (P q).NI → ∀ c, c < (P p).NI → (E p).subS.entry (ps (fun q => (P q).NI) q + r) c =
            cut e ((P p).entryC q r c - ∑ t ∈ Finset.range (P p).NS, cut (drop + e) ((P p).entryF q r t) * cut (drop + e) (w p c t))) := by
        refine ⟨fun p => if hp : p < np then (hk p hp).2.2.2.2.2.2.2.2.2.2.choose else fun _ _ => 0, ?_⟩
        intro p hp
        simp only [dif_pos hp]
        exact (hk p hp).2.2.2.2.2.2.2.2.2.2.choose_spec
      obtain ⟨w, hw⟩ := hchoose
      refine ⟨fun p => (E p).fp, w, ?_, ?_, ?_, ?_⟩
      · intro p hp s hs'
        exact (hk p hp).2.2.2.2.2.2.2.2.1 s hs'
      · intro p hp; exact (hw p hp).1
      · intro p hp t ht
        obtain ⟨k1, k2, k3, k4, k5, _⟩ := hk p hp
        rw [← hx, ← hyy]
        dsimp only
        rw [hel' p hp, computeX_eq _ k3 _ _ t (by rw [k5]; exact ht), k4]
        congr 1
        apply Finset.sum_congr rfl
        intro i hi
        rw [(hw p hp).2.1 i (Finset.mem_range.1 hi) t ht]
      · intro q hq r hr
        have h1 := hysol (ps (fun q => (P q).NI) q + r) (by rw [S2]; exact ps_lt (fun q => (P q).NI) hq hr)
        rw [computeG_eq np (by omega) P _ q hq r hr, S3, sum_ps (fun q => (P q).NI) np] at h1
        have h2 : ∀ p ∈ Finset.range np, (el p).Ff (ps (fun q => (P q).NI) q + r) =
            ∑ t ∈ Finset.range (P p).NS, (P p).entryF q r t * (E p).fp t := by
          intro p hp
          rw [Finset.mem_range] at hp
          rw [hel' p hp]
          exact (hk p hp).2.2.2.2.2.2.2.2.2.1 q hq r hr
        rw [Finset.sum_congr rfl h2] at h1
        rw [← h1]
        apply Finset.sum_congr rfl
        intro p hp
        rw [Finset.mem_range] at hp
        apply Finset.sum_congr rfl
        intro i hi
        rw [Finset.mem_range] at hi
        have h3 := S4 p hp i (by rw [(hk p hp).2.2.2.2.2.2.2.1]; exact hi) (ps (fun q => (P q).NI) q + r)
        rw [hcols p (by omega)] at h3
        rw [h3, (hw p hp).2.2 q hq r hr i hi, ← hyy]
        dsimp only
        rw [off_eq]

end Elliptica.Schur
