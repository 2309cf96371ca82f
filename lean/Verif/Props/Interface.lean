import Verif.Lemmas.InterfaceAll
import Verif.Spec.Interface
import Verif.Props.SchurLabels
/-!
C72: the interfaces of a split cubed spherical grid.  T is what `ri_split_cubed_spherical` leaves behind when it does not stop
the program.
-/
namespace Elliptica.Iface

variable {K : Type} [Field K] [LinearOrder K]

theorem faceNode_of (n : ℕ → ℕ) (hb : ∀ f < 6, ∃ b, basics n f = .ok b) (hn : ∀ d < 3, 0 < n d) (f q : ℕ) (hf : f < 6) (hq : q < faceNp n f) :
    FaceNode n f (basic n f q).ind := by
  obtain ⟨i, j, k, h1, -, h2, -⟩ := basic_of n hb hn f q hf hq
  exact ⟨i, j, k, h2, h1⟩

theorem faceNode_lt (n : ℕ → ℕ) (f l : ℕ) (h : FaceNode n f l) : l < n 0 * n 1 * n 2 := by
  obtain ⟨i, j, k, rfl, h1, h2, h3, -⟩ := h
  exact two_digits_lt _ _ _ _ (two_digits_lt _ _ _ _ h1 h2) h3

theorem faceNode_iff (n : ℕ → ℕ) (hb : ∀ f < 6, ∃ b, basics n f = .ok b) (hn : ∀ d < 3, 0 < n d) (f l : ℕ) :
    FaceNode n f l ↔ f < 6 ∧ ∃ q < faceNp n f, (basic n f q).ind = l := by
  constructor
  · rintro ⟨i, j, k, rfl, h⟩
    exact ⟨by unfold On at h; omega, _, l2_lt n f i j k h, (basic_at n hb hn f i j k h).1⟩
  · rintro ⟨hf, q, hq, rfl⟩
    exact faceNode_of n hb hn f q hf hq

section
variable (G : Grid) (geo : Geo K) (hG : G.Proper) (T : ℕ → PState) (h : realize G geo = .ok T)
include hG h

/-- Every node of every face of every patch is in a subface (of that face, or of another face of the patch that holds it). -/
theorem C72_cover (p : ℕ) (hp : p < G.np) (f l : ℕ) (hl : FaceNode (G.n p) f l) :
    ∃ g < 6, FaceNode (G.n p) g l ∧ ∃ s ∈ (T p).subs g, l ∈ s.id := by
  obtain ⟨S, c, R⟩ := realize_result G geo hG T h
  obtain ⟨hf, q, hq, rfl⟩ := (faceNode_iff (G.n p) (R.basics p hp) (hG p hp) f l).1 hl
  obtain ⟨g, hg, q', hq', h1, h2⟩ := (R.inv.q p hp).cover f hf q hq
  refine ⟨g, hg, (faceNode_iff (G.n p) (R.basics p hp) (hG p hp) g _).2 ⟨hg, q', hq', h1⟩, ?_⟩
  rcases h2 with h2 | ⟨s, hs, h3⟩
  · rw [R.house p hp g hg q' hq'] at h2
    exact absurd h2.2 (by simp)
  · exact ⟨_, R.mem hs, by rw [(last_flags S c p g s).2.2.2.2.2.1]; exact h3⟩

/-- Every subface is of one of three kinds: on a boundary of the grid (nothing is found around the centre of its face; inner
boundary if the patch is marked so, otherwise outer), interpolated from the neighbouring face, which is not collocated, along
the two directions of that face, or copied from the neighbouring face with which it shares the points. -/
theorem C72_kinds (p : ℕ) (hp : p < G.np) (f : ℕ) (hf : f < 6) (s : Sub) (hs : s ∈ (T p).subs f) :
    s.exterF = true ∧ s.id ≠ [] ∧ (∀ l ∈ s.id, FaceNode (G.n p) f l) ∧
    ((s.touch = false ∧ s.copy = false ∧ Alone G geo p f ∧ s.innerB = G.innerB p ∧ s.outerB = !G.innerB p ∧ s.adj = uintMax ∧ s.adjFace = uintMax) ∨
     (s.touch = true ∧ s.copy = false ∧ s.outerB = false ∧ s.innerB = false ∧ s.adj < G.np ∧ s.adj ≠ p ∧ s.adjFace < 6 ∧
       s.same = (decide (s.adjFace / 2 = 0), decide (s.adjFace / 2 = 1), decide (s.adjFace / 2 = 2)) ∧
       ∀ l ∈ s.id, Neighbour G geo p f l s.adj s.adjFace ∧ geo.node p l s.adj = none) ∨
     (s.touch = true ∧ s.copy = true ∧ s.outerB = false ∧ s.innerB = false ∧ s.adj < G.np ∧ s.adj ≠ p ∧ s.adjFace < 6 ∧
       s.adjid.length = s.id.length ∧ ∀ x ∈ s.id.zip s.adjid, Meet G geo p f x.1 s.adj s.adjFace x.2)) := by
  obtain ⟨S, c, R⟩ := realize_result G geo hG T h
  obtain ⟨s0, h0, rfl⟩ := R.of_mem hs
  have o := (R.inv.q p hp).inv.sub f hf s0 h0
  obtain ⟨l1, l2, l3, l4, l5, l6, l7, l8, -, l10, -⟩ := last_flags S c p f s0
  rw [l1, l2, l3, l4, l5, l6, l7, l8]
  refine ⟨o.ext, o.ne, ?_, ?_⟩
  · intro l hl
    obtain ⟨q, hq, h1, -⟩ := o.face l hl
    exact (faceNode_iff (G.n p) (R.basics p hp) (hG p hp) f l).2 ⟨hf, q, hq, h1⟩
  by_cases ht : s0.touch = true
  · obtain ⟨n1, n2⟩ := notBad R.toPre R.flags hp hf h0 ht
    obtain ⟨a1, a2, a3⟩ := touch_adj R.toPre R.flags hp hf h0 ht
    obtain ⟨e1, e2⟩ := l10 (by rw [n1, n2]; rfl)
    rw [e1, e2]
    right
    rcases o.kind with k | k | k | k
    · rw [ht] at k; exact absurd k.1 (by simp)
    · refine .inl ⟨k.1, k.2.1, n1, n2, a1, a2, a3, ?_, k.2.2.2.2.2⟩
      rw [k.2.2.2.2.1]
      rcases lt6 a3 with e | e | e | e | e | e <;> rw [e] <;> rfl
    · exact .inr ⟨k.1, k.2.1, n1, n2, a1, a2, a3, by rw [o.len, k.2.1, if_pos rfl], k.2.2.2.2.2⟩
    · rw [n1, n2] at k; exact absurd k.2.2 (by simp)
  · left
    rcases o.kind with k | k | k | k
    · refine ⟨k.1, k.2.1, k.2.2.1, k.2.2.2.1, k.2.2.2.2, ?_⟩
      unfold last miscSub
      rw [if_neg ht, if_pos (by rw [k.2.2.2.1, k.2.2.2.2]; cases G.innerB p <;> rfl)]
      exact ⟨rfl, rfl⟩
    · exact absurd k.1 ht
    · exact absurd k.1 ht
    · exact absurd k.1 ht

/-- No subface lists a node twice; for copied points if the answers of the search for nodes come from positions and the nodes
of a patch are at different positions. -/
theorem C72_once (p : ℕ) (hp : p < G.np) (f : ℕ) (hf : f < 6) (s : Sub) (hs : s ∈ (T p).subs f) (hD : s.copy = true → Distinct G geo) : s.id.Nodup := by
  obtain ⟨S, c, R⟩ := realize_result G geo hG T h
  obtain ⟨s0, h0, rfl⟩ := R.of_mem hs
  have o := (R.inv.q p hp).inv.sub f hf s0 h0
  obtain ⟨l1, l2, l3, l4, l5, l6, l7, l8, -, l10, -⟩ := last_flags S c p f s0
  rw [l6]
  cases hc : s0.copy
  · exact o.once hc
  · have hD := hD (by rw [l2]; exact hc)
    have ht : s0.touch = true := by
      rcases o.kind with k | k | k | k
      · rw [hc] at k; exact absurd k.2.1 (by simp)
      · exact k.1
      · exact k.1
      · exact k.1
    obtain ⟨n1, n2⟩ := notBad R.toPre R.flags hp hf h0 ht
    obtain ⟨a1, a2, a3⟩ := touch_adj R.toPre R.flags hp hf h0 ht
    have hk : s0.key = ckey s0.adj s0.adjFace := by
      rw [o.tied, ht, hc, n1, n2, o.ext]; rfl
    rcases R.inv.mir with hB | ⟨-, hO⟩
    · obtain ⟨p', hp', f', hf', s', hs', t1, t2⟩ := hB
      obtain ⟨n1, n2⟩ := notBad R.toPre R.flags hp' hf' hs' t1
      rw [n1, n2] at t2
      cases t2
    · have := hO hD p hp f hf s0.adj a1 s0.adjFace a3
      unfold pairsOf at this
      have hl := mem_look ((R.inv.q p hp).inv.keys f) h0
      rw [hk] at hl
      rw [hl] at this
      rwa [List.map_fst_zip (le_of_eq (by rw [o.len, if_pos hc]))] at this

/-- Copied points: the adjacent face has a subface that lists the same pairs of nodes the other way round. -/
theorem C72_mirror (p : ℕ) (hp : p < G.np) (f : ℕ) (hf : f < 6) (s : Sub) (hs : s ∈ (T p).subs f) (hc : s.copy = true) :
    ∃ t ∈ (T s.adj).subs s.adjFace, t.copy = true ∧ t.adj = p ∧ t.adjFace = f ∧ t.id = s.adjid ∧ t.adjid = s.id := by
  obtain ⟨S, c, R⟩ := realize_result G geo hG T h
  obtain ⟨s0, h0, rfl⟩ := R.of_mem hs
  have o := (R.inv.q p hp).inv.sub f hf s0 h0
  obtain ⟨l1, l2, l3, l4, l5, l6, l7, l8, -, l10, -⟩ := last_flags S c p f s0
  rw [l2] at hc
  have ht : s0.touch = true := by
    rcases o.kind with k | k | k | k
    · rw [hc] at k; exact absurd k.2.1 (by simp)
    · exact k.1
    · exact k.1
    · exact k.1
  obtain ⟨n1, n2⟩ := notBad R.toPre R.flags hp hf h0 ht
  obtain ⟨a1, a2, a3⟩ := touch_adj R.toPre R.flags hp hf h0 ht
  obtain ⟨e1, e2⟩ := l10 (by rw [n1, n2]; rfl)
  rw [e1, e2, l6, l7]
  have hk : s0.key = ckey s0.adj s0.adjFace := by
    rw [o.tied, ht, hc, n1, n2, o.ext]; rfl
  rcases R.inv.mir with hB | ⟨hM, -⟩
  · obtain ⟨p', hp', f', hf', s', hs', t1, t2⟩ := hB
    obtain ⟨n1, n2⟩ := notBad R.toPre R.flags hp' hf' hs' t1
    rw [n1, n2] at t2
    cases t2
  · have := hM p hp f hf s0.adj a1 s0.adjFace a3
    have hl := mem_look ((R.inv.q p hp).inv.keys f) h0
    rw [hk] at hl
    unfold pairsOf at this
    rw [hl] at this
    dsimp only at this
    have len : s0.adjid.length = s0.id.length := by rw [o.len, if_pos hc]
    cases hl2 : look ((S s0.adj).subs s0.adjFace) (ckey p f) with
    | none =>
      rw [hl2] at this
      have := congrArg List.length this
      rw [List.length_nil, List.length_map, List.length_zip, len, Nat.min_self] at this
      exact absurd (List.length_eq_zero_iff.1 this.symm) o.ne
    | some t =>
      rw [hl2] at this
      dsimp only at this
      have ht0 := look_mem hl2
      have ot := (R.inv.q s0.adj a1).inv.sub s0.adjFace a3 t ht0
      have kt := look_key hl2
      rw [ot.tied] at kt
      obtain ⟨s1, s2, s3, s4, -, s6, s7, -⟩ := Key.mk.inj kt
      have s4 : t.adjFace = f := by rw [s1] at s4; simpa using s4
      obtain ⟨m1, m2, -, -, -, m6, m7, -, -, m10, -⟩ := last_flags S c s0.adj s0.adjFace t
      obtain ⟨e3, e4⟩ := m10 (by rw [s6, s7]; rfl)
      have lent : t.adjid.length = t.id.length := by rw [ot.len, if_pos s2]
      refine ⟨_, R.mem ht0, by rw [m2]; exact s2, by rw [e3]; exact s3, by rw [e4]; exact s4, ?_, ?_⟩
      · rw [m6]
        have := congrArg (List.map Prod.fst) this
        rw [List.map_fst_zip (le_of_eq lent.symm), List.map_map] at this
        rw [this, show (Prod.fst ∘ Prod.swap : ℕ × ℕ → ℕ) = Prod.snd from rfl, List.map_snd_zip (le_of_eq len)]
      · rw [m7]
        have := congrArg (List.map Prod.snd) this
        rw [List.map_snd_zip (le_of_eq lent), List.map_map] at this
        rw [this, show (Prod.snd ∘ Prod.swap : ℕ × ℕ → ℕ) = Prod.fst from rfl, List.map_fst_zip (le_of_eq len.symm)]

/-- The subfaces of a face are numbered by their place in its list; so the number finds the subface. -/
theorem C72_numbers (p : ℕ) (hp : p < G.np) (f i : ℕ) (s : Sub) (hs : ((T p).subs f)[i]? = some s) : s.sn = i := by
  obtain ⟨S, c, R⟩ := realize_result G geo hG T h
  rw [R.subs, List.getElem?_map] at hs
  cases h0 : ((S p).subs f)[i]? with
  | none => rw [h0] at hs; cases hs
  | some s0 =>
    rw [h0] at hs
    cases hs
    rw [(last_flags S c p f s0).2.2.2.2.2.2.2.2.1, ((R.inv.q p hp).inv.num f).get h0, Nat.zero_add]

/-- A face on a boundary of the grid is one subface with all the nodes of the face, and a subface on a boundary is such a
face. -/
theorem C72_boundary (p : ℕ) (hp : p < G.np) (f : ℕ) (hf : f < 6) (hb : ((T p).fout f || (T p).fin f) = true ∨ ∃ s ∈ (T p).subs f, s.touch = false) :
    ∃ s, (T p).subs f = [s] ∧ s.touch = false ∧ (s.outerB || s.innerB) = true ∧ ((T p).fout f || (T p).fin f) = true ∧
      (∀ l, l ∈ s.id ↔ FaceNode (G.n p) f l) ∧ s.id.Nodup := by
  obtain ⟨S, c, R⟩ := realize_result G geo hG T h
  have hfl : ((S p).fout f || (S p).fin f) = true := by
    rcases hb with hb | ⟨s, hs, ht⟩
    · rw [R.fout, R.fin] at hb; exact hb
    · obtain ⟨s0, h0, rfl⟩ := R.of_mem hs
      rw [(last_flags S c p f s0).1] at ht
      exact R.inv.bt p hp f s0 h0 ht
  have hl := R.set p hp f hf hfl
  obtain ⟨s, hs⟩ := List.length_eq_one_iff.1 hl
  have hs1 : s ∈ (S p).subs f := by rw [hs]; exact List.mem_singleton.2 rfl
  have ht : s.touch = false := by
    obtain ⟨s', h1, h2⟩ := R.hasB p hp f hf hfl
    rw [hs, List.mem_singleton] at h1
    rw [← h1]; exact h2
  have o := (R.inv.q p hp).inv.sub f hf s hs1
  have hk : (s.outerB || s.innerB) = true ∧ s.copy = false := by
    rcases o.kind with k | k | k | k
    · rw [k.2.2.2.1, k.2.2.2.2]; exact ⟨by cases G.innerB p <;> rfl, k.2.1⟩
    · rw [ht] at k; exact absurd k.1 (by simp)
    · rw [ht] at k; exact absurd k.1 (by simp)
    · rw [ht] at k; exact absurd k.1 (by simp)
  obtain ⟨l1, l2, l3, l4, l5, l6, -⟩ := last_flags S c p f s
  refine ⟨last S c p f s, by rw [R.subs, hs]; rfl, by rw [l1]; exact ht, by rw [l4, l5]; exact hk.1, by rw [R.fout, R.fin]; exact hfl, ?_, by rw [l6]; exact o.once hk.2⟩
  intro l
  rw [l6, faceNode_iff (G.n p) (R.basics p hp) (hG p hp)]
  constructor
  · intro hl
    obtain ⟨q, hq, h1, -⟩ := o.face l hl
    exact ⟨hf, q, hq, h1⟩
  · rintro ⟨-, q, hq, rfl⟩
    obtain ⟨s', h1, h2⟩ := (R.inv.q p hp).bnd f hf hfl q hq
    rw [hs, List.mem_singleton] at h1
    rw [← h1]; exact h2

/-- what the solver reads of the subfaces of a patch -/
def solverSubfaces (P : PState) : List Schur.SubFace :=
  (List.range 6).flatMap fun f => (P.subs f).map fun s => ⟨s.id, s.outerB, s.innerB, s.exterF⟩

/-- The subfaces are fit for the solver: its labelling of the nodes succeeds on every patch (C50). -/
theorem C72_labels (p : ℕ) (hp : p < G.np) : ∃ r, Schur.makeMapAndInv (G.n p) false (solverSubfaces (T p)) = .ok r := by
  have mem : ∀ x ∈ solverSubfaces (T p), ∃ f < 6, ∃ s ∈ (T p).subs f, x = ⟨s.id, s.outerB, s.innerB, s.exterF⟩ := by
    intro x hx
    simp only [solverSubfaces, List.mem_flatMap, List.mem_map, List.mem_range] at hx
    obtain ⟨f, hf, s, hs, rfl⟩ := hx
    exact ⟨f, hf, s, hs, rfl⟩
  refine (Schur.C50_succeeds (G.n p) false _ ?_).2 ⟨rfl, ?_, ?_⟩
  · intro x hx t ht
    obtain ⟨f, hf, s, hs, rfl⟩ := mem x hx
    exact faceNode_lt _ _ _ ((C72_kinds G geo hG T h p hp f hf s hs).2.2.1 t ht)
  · intro x hx
    obtain ⟨f, hf, s, hs, rfl⟩ := mem x hx
    exact (C72_kinds G geo hG T h p hp f hf s hs).1
  · intro l _ hl
    have hF : ∃ f, FaceNode (G.n p) f l := by
      obtain ⟨i, j, k, h1, h2, h3, h4, h5⟩ := hl
      have e : l = k + G.n p 2 * (j + G.n p 1 * i) := by rw [h4, Nat.mul_comm i, Nat.add_comm (G.n p 1 * i), Nat.mul_comm _ (G.n p 2), Nat.add_comm]
      rcases h5 with h5 | h5 | h5 | h5 | h5 | h5
      · exact ⟨0, i, j, k, e, h1, h2, h3, by omega⟩
      · exact ⟨1, i, j, k, e, h1, h2, h3, by omega⟩
      · exact ⟨2, i, j, k, e, h1, h2, h3, by omega⟩
      · exact ⟨3, i, j, k, e, h1, h2, h3, by omega⟩
      · exact ⟨4, i, j, k, e, h1, h2, h3, by omega⟩
      · exact ⟨5, i, j, k, e, h1, h2, h3, by omega⟩
    obtain ⟨f, hF⟩ := hF
    obtain ⟨g, hg, -, s, hs, hl⟩ := C72_cover G geo hG T h p hp f l hF
    have hx : (⟨s.id, s.outerB, s.innerB, s.exterF⟩ : Schur.SubFace) ∈ solverSubfaces (T p) := by
      simp only [solverSubfaces, List.mem_flatMap, List.mem_map, List.mem_range]
      exact ⟨g, hg, s, hs, rfl⟩
    by_cases hB : s.outerB = true ∨ s.innerB = true
    · exact .inl ⟨_, hx, hB, hl⟩
    · simp only [not_or, Bool.not_eq_true] at hB
      exact .inr ⟨_, hx, hB.1, hB.2, hl⟩
end

/-! ### undefined behaviour -/

/-- a patch that accepts a node of a face, or that node moved outwards, has a face that holds the node -/
def Held (G : Grid) (geo : Geo K) : Prop := ∀ p < G.np, ∀ f l, FaceNode (G.n p) f l → ∀ a,
  (Near G geo p (.node p l) a ∨ Near G geo p (.off p f l) a) → ∃ g < 6, geo.onFace p l a g = true

theorem bind_ne_ub {α β : Type} (r : Res α) (g : α → Res β) (h1 : r ≠ .ub) (h2 : ∀ a, r = .ok a → g a ≠ .ub) : r.bind g ≠ .ub := by
  cases r with
  | ok a => exact h2 a rfl
  | abort => intro h; cases h
  | ub => exact absurd rfl h1

theorem loop_ne_ub {σ α : Type} (g : σ → α → Res σ) (I : σ → Prop) (l : List α) (h : ∀ a ∈ l, ∀ s, I s → g s a ≠ .ub ∧ ∀ t, g s a = .ok t → I t)
    (s : σ) (hs : I s) : loop g l s ≠ .ub := by
  induction l generalizing s with
  | nil => intro h; cases h
  | cons a l ih =>
    obtain ⟨h1, h2⟩ := h a (List.mem_cons_self ..) s hs
    exact bind_ne_ub _ _ h1 fun t ht => ih (fun b hb => h b (List.mem_cons_of_mem _ hb)) t (h2 t ht)

/-- the points keep their nodes -/
def IndOk (n : ℕ → ℕ) (P : PState) : Prop := ∀ f < 6, ∀ q < faceNp n f, (P.pts f q).ind = (basic n f q).ind

theorem put_ind (t : Point) (w : Place) : (t.put w).ind = t.ind := by
  unfold Point.put
  split <;> rfl

theorem best_some (d : ℕ → ℕ → K) (l : List (ℕ × ℕ)) : ∀ x, ∃ y, best d l (some x) = some y := by
  induction l with
  | nil => intro x; exact ⟨x, rfl⟩
  | cons a l ih =>
    intro x
    unfold best
    split
    · exact ih a
    · exact ih x

theorem best_ne (d : ℕ → ℕ → K) (l : List (ℕ × ℕ)) (h : l ≠ []) : best d l none ≠ none := by
  obtain ⟨a, l, rfl⟩ := List.exists_cons_of_ne_nil h
  obtain ⟨y, hy⟩ := best_some d l a
  unfold best
  rw [hy]
  intro h; cases h

theorem place_ne_ub (G : Grid) (geo : Geo K) (p l a g : ℕ) : place G geo p l a g ≠ .ub := by
  unfold place
  split
  · intro h; cases h
  · split <;> (intro h; cases h)

theorem locate_ne_ub (G : Grid) (geo : Geo K) (hH : Held G geo) (p : ℕ) (hp : p < G.np) (f : ℕ) (c : ℕ × ℕ) (t : Point) (ht : FaceNode (G.n p) f t.ind) :
    locate G geo p f c t ≠ .ub := by
  unfold locate
  split
  · exact place_ne_ub G geo p _ _ _
  · obtain ⟨r0, h1, h2⟩ := search_ok G.np (geo.accept (.node p t.ind)) [p, c.1] (by simp)
    rw [h1, Res.bind_ok]
    have near : ∀ x (r : List ℕ), (∀ a, a ∈ r ↔ a < G.np ∧ a ∉ [p, c.1] ∧ geo.accept x a = true) → ∀ a ∈ r, Near G geo p x a := by
      intro x r hr a ha
      obtain ⟨y1, y2, y3⟩ := (hr a).1 ha
      exact ⟨y1, fun he => y2 (by rw [he]; exact List.mem_cons_self ..), y3⟩
    have key : ∀ r : List ℕ, (∀ a ∈ r, Near G geo p (.node p t.ind) a ∨ Near G geo p (.off p f t.ind) a) →
        (if r = [] then (.abort : Res Place) else
          match best (geo.dot p f) (r.flatMap fun a => ((List.range 6).filter (geo.onFace p t.ind a)).map fun g => (a, g)) none with
          | none => .ub
          | some (a, g) => if geo.accept (.node p t.ind) a then place G geo p t.ind a g else .abort) ≠ .ub := by
      intro r hr
      split
      · intro h; cases h
      · rename_i hne
        obtain ⟨a, ha⟩ := List.exists_mem_of_ne_nil _ hne
        obtain ⟨g, hg, hon⟩ := hH p hp f t.ind ht a (hr a ha)
        have hne2 : (r.flatMap fun a => ((List.range 6).filter (geo.onFace p t.ind a)).map fun g => (a, g)) ≠ [] := by
          refine List.ne_nil_of_mem (a := (a, g)) ?_
          simp only [List.mem_flatMap, List.mem_map, List.mem_filter, List.mem_range]
          exact ⟨a, ha, g, ⟨hg, hon⟩, rfl⟩
        split
        · rename_i hb
          exact absurd hb (best_ne _ _ hne2)
        · split
          · exact place_ne_ub G geo p _ _ _
          · intro h; cases h
    split
    · rw [Res.bind_ok]
      exact key r0 fun a ha => .inl (near _ r0 h2 a ha)
    · split
      · obtain ⟨r, h3, h4⟩ := search_ok G.np (geo.accept (.off p f t.ind)) [p, c.1] (by simp)
        rw [h3, Res.bind_ok]
        exact key r fun a ha => .inr (near _ r h4 a ha)
      · rw [Res.bind_ok]
        exact key r0 fun a ha => .inl (near _ r0 h2 a ha)

theorem stepFace_ne_ub (G : Grid) (geo : Geo K) (hH : Held G geo) (p : ℕ) (hp : p < G.np) (hb : ∀ f < 6, ∃ b, basics (G.n p) f = .ok b)
    (hn : ∀ d < 3, 0 < G.n p d) (P : PState) (hI : IndOk (G.n p) P) (f : ℕ) (hf : f < 6) :
    stepFace G geo p P f ≠ .ub ∧ ∀ P', stepFace G geo p P f = .ok P' → IndOk (G.n p) P' := by
  have step : ∀ c, ∀ q ∈ List.range (faceNp (G.n p) f), ∀ s, IndOk (G.n p) s → stepPoint G geo p f c s q ≠ .ub ∧
      ∀ t, stepPoint G geo p f c s q = .ok t → IndOk (G.n p) t := by
    intro c q hq s hs
    have keep : ∀ g : Point → Point, (∀ t, (g t).ind = t.ind) → IndOk (G.n p) (s.modify f q g) := by
      intro g hg f' hf' q' hq'
      rw [modify_pts]
      split
      · rw [hg]; exact hs f' hf' q' hq'
      · exact hs f' hf' q' hq'
    unfold stepPoint
    dsimp only
    split
    · exact ⟨fun h => (by cases h), fun t ht => by cases ht; exact keep _ fun _ => rfl⟩
    · have hF : FaceNode (G.n p) f (s.pts f q).ind := by
        rw [hs f hf q (List.mem_range.1 hq)]
        exact faceNode_of _ hb hn f q hf (List.mem_range.1 hq)
      refine ⟨bind_ne_ub _ _ (locate_ne_ub G geo hH p hp f c _ hF) fun a _ h => (by cases h), fun t ht => ?_⟩
      obtain ⟨w, -, ht⟩ := bind_eq_ok ht
      cases ht
      exact keep _ fun t => put_ind t w
  unfold stepFace
  have srch : ∀ x, ∃ r, search G.np (geo.accept x) [p] = .ok r := fun x => ⟨_, (search_ok G.np (geo.accept x) [p] (by simp)).choose_spec.1⟩
  obtain ⟨r0, h0⟩ := srch (.centre p f 0)
  obtain ⟨r1, h1⟩ := srch (.centre p f 1)
  obtain ⟨r2, h2⟩ := srch (.centre p f 2)
  rw [h0, h1, h2, Res.bind_ok]
  obtain ⟨r, hr⟩ : ∃ r, (if r0 = [] then (Res.ok r1 : Res (List ℕ)) else .ok r0) = .ok r := by split <;> exact ⟨_, rfl⟩
  rw [hr, Res.bind_ok, Res.bind_ok]
  split
  · split
    · refine ⟨fun h => (by cases h), fun P' h => ?_⟩
      cases h
      have fold : ∀ (qs : List ℕ) (Q : PState), IndOk (G.n p) Q → IndOk (G.n p) (qs.foldl (stepB (G.innerB p) f) Q) := by
        intro qs
        induction qs with
        | nil => intro Q h; exact h
        | cons q qs ih =>
          intro Q hQ
          refine ih _ ?_
          intro f' hf' q' hq'
          show (((Q.modify f q fun t => if G.innerB p then { t with innerB := true } else { t with outerB := true }).addAt f q).pts f' q').ind = _
          rw [addAt_pts]
          have : ((Q.modify f q fun t => if G.innerB p then { t with innerB := true } else { t with outerB := true }).pts f' q').ind = (basic (G.n p) f' q').ind := by
            rw [modify_pts]
            split
            · show (if G.innerB p then ({ Q.pts f' q' with innerB := true } : Point) else { Q.pts f' q' with outerB := true }).ind = _
              split <;> exact hQ f' hf' q' hq'
            · exact hQ f' hf' q' hq'
          split
          · exact this
          · exact this
      unfold boundary
      dsimp only
      cases hi : G.innerB p
      · rw [hi] at fold
        exact fold _ { P with outerB := true } hI
      · rw [hi] at fold
        exact fold _ P hI
    · exact ⟨fun h => (by cases h), fun P' h => (by cases h)⟩
  · rename_i hne
    have hne2 : (r.flatMap fun a => (List.range 6).map fun g => (a, g)) ≠ [] := by
      obtain ⟨a, ha⟩ := List.exists_mem_of_ne_nil _ hne
      refine List.ne_nil_of_mem (a := (a, 0)) ?_
      simp only [List.mem_flatMap, List.mem_map, List.mem_range]
      exact ⟨a, ha, 0, by omega, rfl⟩
    split
    · rename_i hb'
      exact absurd hb' (best_ne _ _ hne2)
    · rename_i c hc
      exact ⟨loop_ne_ub _ (IndOk (G.n p)) _ (step c) P hI, fun P' hP' =>
        loop_inv _ (IndOk (G.n p)) _ (fun q hq s t hs ht => (step c q hq s hs).2 t ht) P P' hI hP'⟩

theorem setOther_ne_ub (bc : Bool) (c : BC) (s : Sub) : setOther bc c s ≠ .ub := by
  unfold setOther
  split
  · intro h; cases h
  · split <;> (intro h; cases h)

/-- The realization of the interfaces never dereferences a null pointer nor reads beyond the lists of subfaces, if a patch that
accepts a node of a face (or the node moved outwards) has a face that holds it. -/
theorem C72_no_ub (G : Grid) (geo : Geo K) (hG : G.Proper) (hH : Held G geo) : realize G geo ≠ .ub := by
  unfold realize
  refine bind_ne_ub _ _ ?_ fun S0 h0 => bind_ne_ub _ _ ?_ fun S3 h1 => bind_ne_ub _ _ ?_ fun T h2 => bind_ne_ub _ _ ?_ fun u _ h => by cases h
  · refine loop_ne_ub _ (fun _ => True) _ (fun p hp S _ => ⟨?_, fun _ _ => trivial⟩) _ trivial
    have hp := List.mem_range.1 hp
    refine bind_ne_ub _ _ ?_ fun P0 hP0 => bind_ne_ub _ _ ?_ fun P _ h => by cases h
    · unfold initPatch
      split <;> (intro h; cases h)
    · obtain ⟨rfl, hb⟩ := initPatch_ok (G.n p) P0 hP0
      refine loop_ne_ub _ (IndOk (G.n p)) _ (fun f hf s hs => stepFace_ne_ub G geo hH p hp hb (hG p hp) s hs f ?_) _ (fun f _ q _ => rfl)
      simp only [List.mem_cons, List.not_mem_nil, or_false] at hf; omega
  · unfold pairAndBc
    refine bind_ne_ub _ _ ?_ fun S2 _ => bind_ne_ub _ _ ?_ fun c _ => ?_
    · unfold pair
      split <;> (intro h; cases h)
    · refine loop_ne_ub _ (fun _ => True) _ (fun x _ s _ => ⟨?_, fun _ _ => trivial⟩) _ trivial
      unfold setFace
      dsimp only
      split
      · split <;> (intro h; cases h)
      · split
        · intro h; cases h
        · refine loop_ne_ub _ (fun _ => True) _ (fun x _ s _ => ⟨?_, fun _ _ => trivial⟩) _ trivial
          exact setOther_ne_ub _ _ _
    · unfold putDn
      split <;> (intro h; cases h)
  · unfold misc
    split <;> (intro h; cases h)
  · obtain ⟨S, c, R⟩ := pre_result G geo hG S0 S3 T h0 h1 h2
    unfold test
    split
    · intro h; cases h
    · split
      · intro h; cases h
      · rename_i t2
        have rng : ∀ (N : ℕ) (P : ℕ → Bool), (List.range N).all P = true ↔ ∀ i < N, P i = true := by
          intro N P; simp [List.all_eq_true, List.mem_range]
        simp only [Bool.not_eq_true, Bool.not_eq_false'] at t2
        rw [rng] at t2
        have flags : ∀ p < G.np, ∀ f < 6, ∀ s ∈ (T p).subs f, flagsOk p s = true := by
          intro p hp f hf s hs
          have := t2 p hp
          rw [rng] at this
          have := this f hf
          rw [List.all_eq_true] at this
          exact this s hs
        refine bind_ne_ub _ _ (loop_ne_ub _ (fun _ => True) _ (fun s hs _ _ => ⟨?_, fun _ _ => trivial⟩) _ trivial) fun _ _ => ?_
        · simp only [allSubs, List.mem_flatMap, List.mem_range] at hs
          obtain ⟨p, hp, f, hf, hs⟩ := hs
          obtain ⟨s0, h0, rfl⟩ := R.of_mem hs
          obtain ⟨l1, -, -, -, -, -, -, -, -, l10, -⟩ := last_flags S c p f s0
          unfold pairOk
          split
          · intro h; cases h
          · rename_i ht
            rw [l1] at ht
            have ht : s0.touch = true := by simpa using ht
            obtain ⟨n1, n2⟩ := notBad R flags hp hf h0 ht
            obtain ⟨t, -, hft, hget⟩ := pair_get R flags hp hf h0 ht
            obtain ⟨e1, e2⟩ := l10 (by rw [n1, n2]; rfl)
            have hsn : (last S c p f s0).adjsn = t.sn := by
              unfold last miscSub
              simp only [ht, n1, n2, hft]
              rfl
            rw [e1, e2, hsn, hget]
            dsimp only
            split
            · intro h; cases h
            · split <;> (intro h; cases h)
        · split <;> (intro h; cases h)

end Elliptica.Iface
