import Verif.Props.Interface
/-!
C73: which of the two matching conditions (continuity of the field or of its normal derivative) is imposed on which side of an
interface of a split cubed spherical grid.  `dfdn` is true where the derivatives are matched.
-/
namespace Elliptica.Iface

variable {K : Type} [Field K] [LinearOrder K]

section
variable (G : Grid) (geo : Geo K) (hG : G.Proper) (T : ℕ → PState) (h : realize G geo = .ok T)
include hG h

/-- The subfaces of a face that touch other patches have the same kind of condition. -/
theorem C73_face (p : ℕ) (hp : p < G.np) (f : ℕ) (hf : f < 6) (s t : Sub) (hs : s ∈ (T p).subs f) (ht : t ∈ (T p).subs f) (h1 : s.touch = true)
    (h2 : t.touch = true) : s.dfdn = t.dfdn := by
  obtain ⟨S, c, R⟩ := realize_result G geo hG T h
  obtain ⟨s0, -, rfl⟩ := R.of_mem hs
  obtain ⟨t0, -, rfl⟩ := R.of_mem ht
  have ls := last_flags S c p f s0
  have lt := last_flags S c p f t0
  rw [ls.1] at h1
  rw [lt.1] at h2
  rw [ls.2.2.2.2.2.2.2.2.2.2 h1, lt.2.2.2.2.2.2.2.2.2.2 h2]

/-- The number kept for the partner of a subface is that of a subface of the adjacent face; it touches, and the two sides have
different kinds of condition. -/
theorem C73_partner (p : ℕ) (hp : p < G.np) (f : ℕ) (hf : f < 6) (s : Sub) (hs : s ∈ (T p).subs f) (h1 : s.touch = true) :
    ∃ t, ((T s.adj).subs s.adjFace)[s.adjsn]? = some t ∧ t.touch = true ∧ t.dfdn = !s.dfdn ∧
      (s.copy = true → t.copy = true ∧ ∃ a ∈ s.adjid, a ∈ t.id) := by
  obtain ⟨S, c, R⟩ := realize_result G geo hG T h
  obtain ⟨s0, h0, rfl⟩ := R.of_mem hs
  have pr := R.pair p hp f hf _ hs
  obtain ⟨l1, l2, -, -, -, -, l7, -, -, l10, -⟩ := last_flags S c p f s0
  rw [l1] at h1
  obtain ⟨n1, n2⟩ := notBad R.toPre R.flags hp hf h0 h1
  obtain ⟨t, htm, hft, hget⟩ := pair_get R.toPre R.flags hp hf h0 h1
  obtain ⟨e1, e2⟩ := l10 (by rw [n1, n2]; rfl)
  have hsn : (last S c p f s0).adjsn = t.sn := by
    unfold last miscSub
    simp only [h1, n1, n2, hft]
    rfl
  unfold pairOk at pr
  rw [l1, h1, e1, e2, hsn, hget] at pr
  dsimp only at pr
  rw [if_neg (by simp)] at pr
  split at pr
  · cases pr
  · rename_i hne
    split at pr
    · cases pr
    · rename_i htt
      refine ⟨last S c s0.adj s0.adjFace t, by rw [e1, e2, hsn]; exact hget, by simpa using htt, ?_, ?_⟩
      · cases ha : (last S c p f s0).dfdn <;> cases hb : (last S c s0.adj s0.adjFace t).dfdn <;> simp_all
      · intro hc
        rw [l2] at hc
        rw [l7]
        obtain ⟨-, m2, -, -, -, m6, -⟩ := last_flags S c s0.adj s0.adjFace t
        rw [m2, m6]
        unfold findSub at hft
        rw [if_pos hc] at hft
        split at hft
        · cases hft
        · rename_i a l _
          have := List.find?_some hft
          simp only [Bool.and_eq_true, List.contains_iff_mem] at this
          exact ⟨this.1, a, by simp_all, this.2⟩

/-- The two sides: where a subface of one patch matches the field, all the touching subfaces of the face next to it match the
derivative, and the other way round. -/
theorem C73_opposite (p : ℕ) (hp : p < G.np) (f : ℕ) (hf : f < 6) (s : Sub) (hs : s ∈ (T p).subs f) (h1 : s.touch = true) (t : Sub)
    (ht : t ∈ (T s.adj).subs s.adjFace) (h2 : t.touch = true) : t.dfdn = !s.dfdn := by
  obtain ⟨u, hu, hut, hud, -⟩ := C73_partner G geo hG T h p hp f hf s hs h1
  obtain ⟨a1, -, a3⟩ : s.adj < G.np ∧ s.adj ≠ p ∧ s.adjFace < 6 := by
    rcases (C72_kinds G geo hG T h p hp f hf s hs).2.2.2 with k | k | k
    · rw [h1] at k; exact absurd k.1 (by simp)
    · exact ⟨k.2.2.2.2.1, k.2.2.2.2.2.1, k.2.2.2.2.2.2.1⟩
    · exact ⟨k.2.2.2.2.1, k.2.2.2.2.2.1, k.2.2.2.2.2.2.1⟩
  rw [← hud]
  exact C73_face G geo hG T h s.adj a1 s.adjFace a3 t u ht (List.mem_of_getElem? hu) h2 hut

/-- No patch has only conditions on derivatives: it has a subface on a boundary of the grid or one where the field itself is
matched. -/
theorem C73_anchored (p : ℕ) (hp : p < G.np) : ∃ f < 6, ∃ s ∈ (T p).subs f, (s.outerB || s.innerB) = true ∨ (s.touch = true ∧ s.dfdn = false) := by
  obtain ⟨S, c, R⟩ := realize_result G geo hG T h
  have := R.notN p hp
  unfold notAllN at this
  rw [List.any_eq_true] at this
  obtain ⟨f, hf, this⟩ := this
  rw [List.mem_range] at hf
  rw [List.any_eq_true] at this
  obtain ⟨s, hs, this⟩ := this
  refine ⟨f, hf, s, hs, ?_⟩
  rcases (C72_kinds G geo hG T h p hp f hf s hs).2.2.2 with k | k | k
  · left
    rw [k.2.2.2.1, k.2.2.2.2.1]; cases G.innerB p <;> rfl
  · right
    rw [k.2.2.1, k.2.2.2.1] at this
    exact ⟨k.1, by simpa using this⟩
  · right
    rw [k.2.2.1, k.2.2.2.1] at this
    exact ⟨k.1, by simpa using this⟩

/-- At copied points the field is matched from one side and the derivative from the other: the subface with the same pairs of
nodes has the other kind of condition. -/
theorem C73_points (p : ℕ) (hp : p < G.np) (f : ℕ) (hf : f < 6) (s : Sub) (hs : s ∈ (T p).subs f) (hc : s.copy = true) :
    ∃ t ∈ (T s.adj).subs s.adjFace, t.adj = p ∧ t.adjFace = f ∧ t.id = s.adjid ∧ t.adjid = s.id ∧ t.dfdn = !s.dfdn := by
  obtain ⟨t, ht, h1, h2, h3, h4, h5⟩ := C72_mirror G geo hG T h p hp f hf s hs hc
  have hst : s.touch = true ∧ s.adj < G.np ∧ s.adjFace < 6 := by
    rcases (C72_kinds G geo hG T h p hp f hf s hs).2.2.2 with k | k | k
    · rw [hc] at k; exact absurd k.2.1 (by simp)
    · exact ⟨k.1, k.2.2.2.2.1, k.2.2.2.2.2.2.1⟩
    · exact ⟨k.1, k.2.2.2.2.1, k.2.2.2.2.2.2.1⟩
  have htt : t.touch = true := by
    rcases (C72_kinds G geo hG T h s.adj hst.2.1 s.adjFace hst.2.2 t ht).2.2.2 with k | k | k
    · rw [h1] at k; exact absurd k.2.1 (by simp)
    · exact k.1
    · exact k.1
  exact ⟨t, ht, h2, h3, h4, h5, C73_opposite G geo hG T h p hp f hf s hs hst.1 t ht htt⟩
end

end Elliptica.Iface
