import Verif.Props.SchurBound
import Mathlib.LinearAlgebra.Matrix.ToLin
import Mathlib.LinearAlgebra.FiniteDimensional.Basic
import Mathlib.Algebra.BigOperators.Fin
/-!
C34, continued: the step succeeds whenever the subdomain matrices and the whole system are nonsingular, so the elimination
loses no solvable system; and the update of the fields.
-/
namespace Elliptica.Schur
open Mat

variable {K : Type} [Field K] [LinearOrder K]

/-- every right-hand side of a nonsingular square system has a solution -/
theorem nonsingular_solvable (n : Nat) (M : Nat → Nat → K) (h : Nonsingular n M) (b : Nat → K) :
    ∃ z : Nat → K, ∀ r, r < n → ∑ c ∈ Finset.range n, M r c * z c = b r := by
  let A : Matrix (Fin n) (Fin n) K := fun r c => M r c
  have key : ∀ (v : Fin n → K) (r : Fin n), A.mulVecLin v r =
      ∑ c ∈ Finset.range n, M r c * (if hc : c < n then v ⟨c, hc⟩ else 0) := by
    intro v r
    rw [Finset.sum_range]
    simp only [Matrix.mulVecLin_apply, Matrix.mulVec, dotProduct]
    apply Finset.sum_congr rfl
    intro c _
    simp [A]
  have hinj : Function.Injective A.mulVecLin := by
    rw [← LinearMap.ker_eq_bot, LinearMap.ker_eq_bot']
    intro v hv
    funext c
    have := h (fun c => if hc : c < n then v ⟨c, hc⟩ else 0) (by
      intro r hr
      rw [← key v ⟨r, hr⟩, hv]; rfl) c c.2
    simpa using this
  obtain ⟨v, hv⟩ := LinearMap.injective_iff_surjective.1 hinj (fun r => b r)
  refine ⟨fun c => if hc : c < n then v ⟨c, hc⟩ else 0, ?_⟩
  intro r hr
  rw [← key v ⟨r, hr⟩, hv]

/-- a sound and complete direct solver exists, so the theorems about one are not empty -/
theorem exists_solver : ∃ solve : Solver K, Sound solve ∧ Complete solve := by
  classical
  refine ⟨fun A b => if h : ∃ z : Nat → K, ∀ r, r < A.row → ∑ c ∈ Finset.range A.col, A.entry r c * z c = b r then
    some h.choose else none, ?_, ?_⟩
  · intro A b z _ _ hz
    dsimp only at hz
    split at hz
    · rename_i h
      injection hz with hz
      rw [← hz]; exact h.choose_spec
    · cases hz
  · intro A b hw hrc h0 hn
    obtain ⟨z, hz⟩ := nonsingular_solvable A.row A.entry hn b
    have : ∃ z : Nat → K, ∀ r, r < A.row → ∑ c ∈ Finset.range A.col, A.entry r c * z c = b r :=
      ⟨z, by rw [← hrc]; exact hz⟩
    exact ⟨this.choose, dif_pos this⟩

theorem ePrime_done [IsStrictOrderedRing K] (e drop : K) (solve : Solver K) (hc : Complete solve) (P : Patch K)
    (hS : P.NS ≠ 0) (hI : P.NI ≠ 0) (hB : Nonsingular P.NS (fun s t => P.B (s, t)))
    (hd : ∀ s, s < P.NS → ∀ t, t < P.NS → P.B (s, t) = 0 ∨ drop + e < |P.B (s, t)|) :
    ∃ r, ePrime e drop solve P = .ok r := by
  obtain ⟨hBw, hBr, hBc, hBe⟩ := C14_roundtrip e drop P.B P.NS P.NS
  have hsol : ∀ b, ∃ z, solve (buildCCS e drop (fun r c => P.B (r, c)) P.NS P.NS) b = some z := by
    intro b
    refine hc _ b hBw rfl hS ?_
    intro v hv c hc'
    refine hB v ?_ c hc'
    intro r hr
    rw [← hv r hr]
    apply Finset.sum_congr rfl
    intro t ht
    rw [(hBe r t hr (Finset.mem_range.1 ht)).1]
    show _ = cut (drop + e) (P.B (r, t)) * _
    rw [cut_eq (hd r hr t (Finset.mem_range.1 ht))]
  unfold ePrime
  rw [if_neg hS]
  dsimp only
  have : (List.range P.NI).any (fun i => (solve (buildCCS e drop (fun r c => P.B (r, c)) P.NS P.NS) (fun s => P.ET (i, s))).isNone) = false := by
    rw [List.any_eq_false]
    intro i _
    obtain ⟨z, hz⟩ := hsol (fun s => P.ET (i, s))
    rw [hz]; simp
  rw [this]
  obtain ⟨z, hz⟩ := hsol P.f
  rw [hz]
  simp only [hI, if_false, Bool.false_eq_true]
  exact ⟨_, rfl⟩

theorem elim_done [IsStrictOrderedRing K] (e drop : K) (solve : Solver K) (hs : Sound solve) (np : Nat) (NI : Nat → Nat) (N : Nat)
    (P : Patch K) (hNI : ∀ q, q < np → NI q ≠ 0) (h : ∃ r, ePrime e drop solve P = .ok r) :
    ∃ E, elim e drop solve np NI N P = .ok E := by
  obtain ⟨⟨ETp, fp⟩, h1⟩ := h
  obtain ⟨a1, a2, a3, a4, a5, _⟩ := ePrime_ok e drop solve hs P ETp fp h1
  obtain ⟨v, v1, _⟩ := fByf_ok np NI P fp hNI a1
  obtain ⟨st, s1, _⟩ := sStack_ok e drop np NI P ETp hNI a1 a2 a3 a4 a5
  unfold elim
  rw [h1, Res.bind_ok]
  dsimp only
  rw [v1, Res.bind_ok, s1, Res.bind_ok]
  exact ⟨_, rfl⟩

theorem elimAll_done (e drop : K) (solve : Solver K) (np : Nat) (P : Nat → Patch K)
    (h : ∀ p, p < np → ∃ E, elim e drop solve np (fun q => (P q).NI) (off P np) (P p) = .ok E) :
    ∃ l, elimAll e drop solve np P = .ok l := by
  unfold elimAll
  generalize hG : (fun p => elim e drop solve np (fun q => (P q).NI) (off P np) (P p)) = G at *
  have hG' : ∀ p, elim e drop solve np (fun q => (P q).NI) (off P np) (P p) = G p := fun p => congrFun hG p
  simp only [hG'] at h ⊢
  clear hG hG'
  induction np with
  | zero => exact ⟨_, rfl⟩
  | succ np ih =>
    obtain ⟨l, hl⟩ := ih (fun p hp => h p (by omega))
    obtain ⟨E, hE⟩ := h np (by omega)
    rw [List.range_succ, List.foldl_append, List.foldl_cons, List.foldl_nil, hl, Res.bind_ok, hE, Res.bind_ok]
    exact ⟨_, rfl⟩

/-- The step goes through, for every number of patches: if no nonzero entry is lost in compressed storage, every patch has
subdomain and interface unknowns, every subdomain matrix B is nonsingular and the whole system is nonsingular, then a
sound and complete direct solver never reports a singular matrix — in particular the interface matrix is nonsingular —
and the step returns the solution of the whole system. -/
theorem C34_completes [IsStrictOrderedRing K] (e drop : K) (he : 0 ≤ e) (solve : Solver K) (hs : Sound solve) (hc : Complete solve)
    (np : Nat) (hnp : 0 < np) (P : Nat → Patch K) (hS : ∀ p, p < np → (P p).NS ≠ 0) (hI : ∀ p, p < np → (P p).NI ≠ 0)
    (hn : NothingDropped (drop + e) e np P)
    (hB : ∀ p, p < np → Nonsingular (P p).NS (fun s t => (P p).B (s, t))) (hF : FullNonsingular np P) :
    ∃ x y, newton e drop solve np P = .ok (x, y) ∧ Solves np P x y := by
  obtain ⟨l, hl⟩ := elimAll_done e drop solve np P (fun p hp => elim_done e drop solve hs np _ _ (P p) hI
    (ePrime_done e drop solve hc (P p) (hS p hp) (hI p hp) (hB p hp) (hn.B p hp)))
  suffices h : ∃ r, newton e drop solve np P = .ok r by
    obtain ⟨⟨x, y⟩, h⟩ := h
    exact ⟨x, y, h, C34_exact e drop he solve hs np P hn x y h⟩
  unfold newton
  rw [hl, Res.bind_ok]
  dsimp only
  obtain ⟨E, rfl, hE⟩ := elimAll_ok e drop solve np P l hl
  have hk : ∀ p, p < np → _ := fun p hp => elim_ok e drop he solve hs np (fun q => (P q).NI) (P p) (E p) hI
    (by rw [← off_eq]; exact hE p hp)
  have hmap : ((List.range np).map E).map (·.subS) = (List.range np).map (fun p => (E p).subS) := by
    rw [List.map_map]; rfl
  rw [hmap, off_eq]
  have hcols : ∀ m, m ≤ np → ps (fun q => ((E q).subS).col) m = ps (fun q => (P q).NI) m := by
    intro m hm
    unfold ps
    apply Finset.sum_congr rfl
    intro q hq
    rw [Finset.mem_range] at hq
    exact (hk q (by omega)).2.2.2.2.2.2.2.1
  obtain ⟨S1, S2, S3, S4⟩ := computeS_eq (fun p => (E p).subS) np (ps (fun q => (P q).NI) np)
    (fun p hp => (hk p hp).2.2.2.2.2.1) (fun p hp => (hk p hp).2.2.2.2.2.2.1) (hcols np (Nat.le_refl _))
  generalize computeS (ps (fun q => (P q).NI) np) ((List.range np).map (fun p => (E p).subS)) = S at S1 S2 S3 S4 ⊢
  have hSn : Nonsingular S.row S.entry := by
    rw [S2]
    intro v hv c hc'
    have hchoose : ∃ w : Nat → Nat → Nat → K, ∀ p, p < np →
        (∀ i, i < (P p).NI → ∀ s, s < (P p).NS → ∑ t ∈ Finset.range (P p).NS, cut (drop + e) ((P p).B (s, t)) * w p i t = (P p).ET (i, s)) ∧
        (∀ q, q < np → ∀ r, r < (P q).NI → ∀ c, c < (P p).NI → (E p).subS.entry (ps (fun q => (P q).NI) q + r) c =
          cut e ((P p).entryC q r c - ∑ t ∈ Finset.range (P p).NS, cut (drop + e) ((P p).entryF q r t) * cut (drop + e) (w p c t))) := by
      refine ⟨fun p => if hp : p < np then (hk p hp).2.2.2.2.2.2.2.2.2.2.choose else fun _ _ => 0, ?_⟩
      intro p hp
      simp only [dif_pos hp]
      exact ⟨(hk p hp).2.2.2.2.2.2.2.2.2.2.choose_spec.1, (hk p hp).2.2.2.2.2.2.2.2.2.2.choose_spec.2.2⟩
    obtain ⟨w, hw⟩ := hchoose
    have hw1 : ∀ p, p < np → ∀ i, i < (P p).NI → ∀ s, s < (P p).NS →
        ∑ t ∈ Finset.range (P p).NS, (P p).B (s, t) * w p i t = (P p).ET (i, s) := by
      intro p hp i hi s hs'
      rw [← (hw p hp).1 i hi s hs']
      apply Finset.sum_congr rfl
      intro t ht
      rw [cut_eq (hn.B p hp s hs' t (Finset.mem_range.1 ht))]
    have hw2 : ∀ p, p < np → ∀ q, q < np → ∀ r, r < (P q).NI → ∀ i, i < (P p).NI → (E p).subS.entry (ps (fun q => (P q).NI) q + r) i =
          (P p).entryC q r i - ∑ t ∈ Finset.range (P p).NS, (P p).entryF q r t * w p i t := by
      intro p hp q hq r hr i hi
      have hE' := hn.E p hp i hi (w p i) (hw1 p hp i hi)
      rw [(hw p hp).2 q hq r hr i hi]
      have : ∑ t ∈ Finset.range (P p).NS, cut (drop + e) ((P p).entryF q r t) * cut (drop + e) (w p i t) =
          ∑ t ∈ Finset.range (P p).NS, (P p).entryF q r t * w p i t := by
        apply Finset.sum_congr rfl
        intro t ht
        rw [Finset.mem_range] at ht
        rw [cut_eq (hn.F p hp q hq r hr t ht), cut_eq (hE'.1 t ht)]
      rw [this, cut_eq (hE'.2 q hq r hr)]
    have hsol : Solves np (homogeneous P) (fun p t => 0 - ∑ i ∈ Finset.range (P p).NI, w p i t * v (ps (fun q => (P q).NI) p + i))
        (fun p i => v (ps (fun q => (P q).NI) p + i)) := by
      refine solves_of_core np (homogeneous P) _ _ (fun _ _ => 0) w ?_ ?_ ?_ ?_
      · intro p hp s hs'
        show _ = (0 : K)
        simp
      · intro p hp i hi s hs'
        exact hw1 p hp i hi s hs'
      · intro p hp t ht; rfl
      · intro q hq r hr
        show _ = (0 : K) - _
        have hv' := hv (ps (fun q => (P q).NI) q + r) (ps_lt (fun q => (P q).NI) hq hr)
        rw [sum_ps (fun q => (P q).NI) np] at hv'
        simp only [mul_zero, Finset.sum_const_zero, sub_zero]
        rw [← hv']
        apply Finset.sum_congr rfl
        intro p hp
        rw [Finset.mem_range] at hp
        apply Finset.sum_congr rfl
        intro i hi
        have hi' : i < (P p).NI := Finset.mem_range.1 hi
        have h3 := S4 p hp i (by rw [(hk p hp).2.2.2.2.2.2.2.1]; exact hi') (ps (fun q => (P q).NI) q + r)
        rw [hcols p (by omega)] at h3
        rw [h3, hw2 p hp q hq r hr i hi']
        rfl
    obtain ⟨p, i, hp, hi, rfl⟩ := ps_decomp _ _ _ hc'
    exact (hF _ _ hsol).2 p hp i hi
  have h0 : S.row ≠ 0 := by
    rw [S2]
    have := ps_lt (fun q => (P q).NI) hnp (Nat.pos_of_ne_zero (hI 0 hnp))
    omega
  obtain ⟨z, hz⟩ := hc S (computeG np (ps (fun q => (P q).NI) np) P
    (fun p => (((List.range np).map E).getD p ⟨⟨0, 0, [], [], []⟩, fun _ => 0, fun _ => 0, ⟨0, 0, [], [], []⟩⟩).Ff)) S1 (by rw [S2, S3]) h0 hSn
  rw [hz]
  exact ⟨_, rfl⟩

end Elliptica.Schur
