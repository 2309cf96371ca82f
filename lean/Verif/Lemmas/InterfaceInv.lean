import Verif.Lemmas.Interface
/-!
Invariants of the interfaces of a patch (C72).
-/
namespace Elliptica.Iface

variable {K : Type} [Field K] [LinearOrder K]

theorem Neighbour.facts {G : Grid} {geo : Geo K} {p f l a g : ℕ} (h : Neighbour G geo p f l a g) : a < G.np ∧ a ≠ p ∧ g < 6 := by
  obtain ⟨-, c, x, h1, ⟨rfl, rfl⟩ | ⟨-, h2⟩⟩ := h
  · obtain ⟨⟨h3, h4 | ⟨-, h4⟩⟩, -⟩ := h1 <;> exact ⟨h4.1, h4.2.1, h3⟩
  · exact ⟨h2.1.2.1.1, h2.1.2.1.2.1, h2.1.2.2.1⟩

/-! ### points -/

/-- what `find_adjacent_scs` leaves in a point that is to be put into a subface -/
def Placed (G : Grid) (geo : Geo K) (p f : ℕ) (t : Point) : Prop :=
  t.touch = true ∧ t.outerB = false ∧ t.innerB = false ∧ Neighbour G geo p f t.ind t.adj t.adjFace ∧
  ((t.copy = true ∧ geo.node p t.ind t.adj = some t.adjInd ∧ t.adjIndF < faceNp (G.n t.adj) t.adjFace ∧
      (basic (G.n t.adj) t.adjFace t.adjIndF).ind = t.adjInd) ∨
   (t.copy = false ∧ geo.node p t.ind t.adj = none ∧ t.same = sameXYZ t.adjFace))

theorem place_spec (G : Grid) (geo : Geo K) (p f : ℕ) (t : Point) (a g : ℕ) (w : Place) (hw : place G geo p t.ind a g = .ok w)
    (hN : Neighbour G geo p f t.ind a g) (hc : t.copy = false) (ho : t.outerB = false) (hi : t.innerB = false) :
    Placed G geo p f (t.put w) := by
  unfold place at hw
  split at hw
  · rename_i hn
    cases hw
    exact ⟨rfl, ho, hi, hN, .inr ⟨hc, hn, rfl⟩⟩
  · rename_i i hn
    split at hw
    · cases hw
    · rename_i q hq
      cases hw
      have h1 := List.find?_some hq
      have h1' : (basic (G.n a) g q).ind = i := by simpa using h1
      have h2 := List.mem_of_find?_eq_some hq
      rw [List.mem_range] at h2
      exact ⟨rfl, ho, hi, hN, .inl ⟨rfl, hn, h2, h1'⟩⟩

theorem locate_spec (G : Grid) (geo : Geo K) (p f : ℕ) (t : Point) (c : ℕ × ℕ) (w : Place) (hw : locate G geo p f c t = .ok w)
    (hO : Opposite geo p f (CentreFace G geo p f) c.1 c.2) (hc : t.copy = false) (ho : t.outerB = false) (hi : t.innerB = false) :
    Placed G geo p f (t.put w) := by
  unfold locate at hw
  split at hw
  · rename_i ha
    exact place_spec G geo p f t _ _ w hw ⟨ha, c.1, c.2, hO, .inl ⟨rfl, rfl⟩⟩ hc ho hi
  · rename_i ha
    obtain ⟨r0, h1, h2⟩ := search_ok G.np (geo.accept (.node p t.ind)) [p, c.1] (by simp)
    rw [h1, Res.bind_ok] at hw
    obtain ⟨r, h3, h4⟩ := bind_eq_ok hw
    split at h4
    · cases h4
    · rename_i hr
      split at h4
      · cases h4
      · rename_i a g hb
        split at h4
        · rename_i ha2
          obtain ⟨hm, hl, -⟩ := best_spec _ _ _ _ hb
          rcases hm with hm | hm
          swap
          · cases hm
          simp only [List.mem_flatMap, List.mem_map, List.mem_filter, List.mem_range, Prod.mk.injEq] at hm
          obtain ⟨a', hra, g', ⟨hg6, hon⟩, rfl, rfl⟩ := hm
          have hr0 : r = r0 := by
            split at h3
            · cases h3; rfl
            · split at h3
              · rename_i _ h0
                obtain ⟨r', h5, h6⟩ := search_ok G.np (geo.accept (.off p f t.ind)) [p, c.1] (by simp)
                rw [h5] at h3
                cases h3
                obtain ⟨x1, x2, -⟩ := (h6 a').1 hra
                have : a' ∈ r0 := (h2 a').2 ⟨x1, x2, ha2⟩
                rw [h0] at this
                cases this
              · cases h3; rfl
          subst hr0
          refine place_spec G geo p f t _ _ w h4 ⟨ha2, c.1, c.2, hO, .inr ⟨by simpa using ha, ?_⟩⟩ hc ho hi
          obtain ⟨x1, x2, x3⟩ := (h2 a').1 hra
          simp only [List.mem_cons, List.not_mem_nil, or_false, not_or] at x2
          refine ⟨⟨x2.2, ⟨x1, x2.1, x3⟩, hg6, hon⟩, ?_⟩
          rintro b h ⟨y1, ⟨y2, y3, y4⟩, y5, y6⟩
          refine hl (b, h) ?_
          simp only [List.mem_flatMap, List.mem_map, List.mem_filter, List.mem_range, Prod.mk.injEq]
          exact ⟨b, (h2 b).2 ⟨y2, by simp [y3, y1], y4⟩, h, ⟨y5, y6⟩, rfl, rfl⟩
        · cases h4

/-! ### subfaces of a patch -/

/-- the flags of a subface are those of its key -/
def Tied (s : Sub) : Prop := s.key = ⟨s.touch, s.copy, s.adj, if s.touch then some s.adjFace else none,
  if s.touch && !s.copy then some s.same else none, s.outerB, s.innerB, s.exterF⟩

theorem key_eq (t : Point) : t.key = ⟨t.touch, t.copy, t.adj, if t.touch then some t.adjFace else none,
    if t.touch && !t.copy then some t.same else none, t.outerB, t.innerB, t.exterF⟩ := by
  unfold Point.key
  cases t.touch <;> cases t.copy <;> rfl

theorem tied_sub (t : Point) (m : ℕ) : Tied (t.sub m) := by
  unfold Tied Point.sub
  exact key_eq t

theorem Tied.add {s : Sub} (h : Tied s) (t : Point) : Tied (s.add t) := h

theorem Tied.same {s : Sub} {t : Point} (h : Tied s) (hk : s.key = t.key) : s.touch = t.touch ∧ s.copy = t.copy ∧ s.adj = t.adj ∧
    (s.touch = true → s.adjFace = t.adjFace) ∧ (s.touch = true → s.copy = false → s.same = t.same) ∧ s.outerB = t.outerB ∧
    s.innerB = t.innerB ∧ s.exterF = t.exterF := by
  rw [h, key_eq t, Key.mk.injEq] at hk
  obtain ⟨h1, h2, h3, h4, h5, h6, h7, h8⟩ := hk
  refine ⟨h1, h2, h3, fun ht => ?_, fun ht hc => ?_, h6, h7, h8⟩
  · rw [ht] at h4; rw [← h1, ht] at h4; simpa using h4
  · rw [← h1, ← h2, ht, hc] at h5; simpa using h5

/-- what is known of a point when it is added to a subface of face f of patch p; the last case is refused by `test_subfaces` -/
def PtOk (G : Grid) (geo : Geo K) (p f : ℕ) (t : Point) : Prop :=
  (t.touch = false ∧ t.copy = false ∧ Alone G geo p f ∧ t.innerB = G.innerB p ∧ t.outerB = !G.innerB p) ∨
  (t.touch = true ∧ t.copy = false ∧ t.outerB = false ∧ t.innerB = false ∧ t.same = sameXYZ t.adjFace ∧
    Neighbour G geo p f t.ind t.adj t.adjFace ∧ geo.node p t.ind t.adj = none) ∨
  (t.touch = true ∧ t.copy = true ∧ t.outerB = false ∧ t.innerB = false ∧ (t.adj < G.np ∧ t.adj ≠ p ∧ t.adjFace < 6) ∧
    Meet G geo p f t.ind t.adj t.adjFace t.adjInd) ∨
  (t.touch = true ∧ t.copy = true ∧ (t.outerB || t.innerB) = true)

/-- what is known of a subface -/
def Kind (G : Grid) (geo : Geo K) (p f : ℕ) (s : Sub) : Prop :=
  (s.touch = false ∧ s.copy = false ∧ Alone G geo p f ∧ s.innerB = G.innerB p ∧ s.outerB = !G.innerB p) ∨
  (s.touch = true ∧ s.copy = false ∧ s.outerB = false ∧ s.innerB = false ∧ s.same = sameXYZ s.adjFace ∧
    ∀ l ∈ s.id, Neighbour G geo p f l s.adj s.adjFace ∧ geo.node p l s.adj = none) ∨
  (s.touch = true ∧ s.copy = true ∧ s.outerB = false ∧ s.innerB = false ∧ (s.adj < G.np ∧ s.adj ≠ p ∧ s.adjFace < 6) ∧
    ∀ x ∈ s.id.zip s.adjid, Meet G geo p f x.1 s.adj s.adjFace x.2) ∨
  (s.touch = true ∧ s.copy = true ∧ (s.outerB || s.innerB) = true)

structure SubOk (G : Grid) (geo : Geo K) (p f : ℕ) (P : PState) (s : Sub) : Prop where
  tied : Tied s
  kind : Kind G geo p f s
  ext : s.exterF = true
  len : s.adjid.length = if s.copy then s.id.length else 0
  ne : s.id ≠ []
  face : ∀ l ∈ s.id, ∃ q < faceNp (G.n p) f, (basic (G.n p) f q).ind = l ∧ (P.pts f q).houseK = true
  once : s.copy = false → s.id.Nodup

theorem kind_add (G : Grid) (geo : Geo K) (p f : ℕ) (t : Point) (s : Sub) (hT : Tied s) (hk : s.key = t.key)
    (hl : s.adjid.length = if s.copy then s.id.length else 0)
    (hs : Kind G geo p f s ∨ s.id = []) (ht : PtOk G geo p f t) : Kind G geo p f (s.add t) := by
  obtain ⟨e1, e2, e3, e4, e5, e6, e7, e8⟩ := hT.same hk
  unfold Kind
  simp only [Sub.add]
  rcases ht with ⟨a1, a2, a3⟩ | ⟨a1, a2, a3, a4, a5, a6, a7⟩ | ⟨a1, a2, a3, a4, a5, a6⟩ | ⟨a1, a2, a3⟩
  · left
    rw [e1, e2, e6, e7]
    exact ⟨a1, a2, a3⟩
  · right; left
    rw [a1] at e1; rw [a2] at e2
    have e4 := e4 e1; have e5 := e5 e1 e2
    refine ⟨e1, e2, by rw [e6, a3], by rw [e7, a4], by rw [e5, e4, a5], ?_⟩
    intro l hm
    rw [e3, e4]
    rcases List.mem_append.1 hm with hm | hm
    · rcases hs with (h | h | h | h) | h
      · rw [e1] at h; exact absurd h.1 (by simp)
      · have := h.2.2.2.2.2 l hm
        rwa [e3, e4] at this
      · rw [e2] at h; exact absurd h.2.1 (by simp)
      · rw [e2] at h; exact absurd h.2.1 (by simp)
      · rw [h] at hm; cases hm
    · rw [List.mem_singleton] at hm
      subst hm
      exact ⟨a6, a7⟩
  · right; right; left
    rw [a1] at e1; rw [a2] at e2
    have e4 := e4 e1
    refine ⟨e1, e2, by rw [e6, a3], by rw [e7, a4], by rw [e3, e4]; exact a5, ?_⟩
    rw [e2, if_pos rfl] at hl
    rw [if_pos a2, List.zip_append hl.symm]
    intro x hm
    rw [e3, e4]
    rcases List.mem_append.1 hm with hm | hm
    · rcases hs with (h | h | h | h) | h
      · rw [e1] at h; exact absurd h.1 (by simp)
      · rw [e2] at h; exact absurd h.2.1 (by simp)
      · have := h.2.2.2.2.2 x hm
        rwa [e3, e4] at this
      · rw [e6, e7, a3, a4] at h; exact absurd h.2.2 (by simp)
      · rw [h] at hm; simp at hm
    · simp only [List.zip_cons_cons, List.zip_nil_right, List.mem_singleton] at hm
      subst hm
      exact a6
  · right; right; right
    rw [e1, e2, e6, e7]
    exact ⟨a1, a2, a3⟩

/-- invariant of the interfaces of patch p -/
structure PInv (G : Grid) (geo : Geo K) (p : ℕ) (P : PState) : Prop where
  stat : ∀ f < 6, ∀ q < faceNp (G.n p) f, (P.pts f q).ind = (basic (G.n p) f q).ind ∧ (P.pts f q).exterF = true
  keys : ∀ f, ((P.subs f).map Sub.key).Nodup
  num : ∀ f, Numbered 0 (P.subs f)
  sub : ∀ f < 6, ∀ s ∈ P.subs f, SubOk G geo p f P s

section
variable {G : Grid} {geo : Geo K} {p : ℕ} {P : PState}

/-- a change of a point that keeps its node and does not clear houseK -/
theorem PInv.modify (h : PInv G geo p P) (f q : ℕ) (g : Point → Point) (hg : ∀ t, (g t).ind = t.ind ∧ (g t).exterF = t.exterF ∧
    (t.houseK = true → (g t).houseK = true)) : PInv G geo p (P.modify f q g) := by
  refine ⟨?_, h.keys, h.num, ?_⟩
  · intro f' hf' q' hq'
    have := h.stat f' hf' q' hq'
    simp only [PState.modify]
    split
    · rw [(hg _).1, (hg _).2.1]; exact this
    · exact this
  · intro f' hf' s hs
    have := h.sub f' hf' s hs
    refine ⟨this.tied, this.kind, this.ext, this.len, this.ne, ?_, this.once⟩
    intro l hl
    obtain ⟨q', h1, h2, h3⟩ := this.face l hl
    refine ⟨q', h1, h2, ?_⟩
    simp only [PState.modify]
    split
    · exact (hg _).2.2 h3
    · exact h3

theorem PInv.mark (h : PInv G geo p P) (l : ℕ) : PInv G geo p (P.mark l) :=
  ⟨h.stat, h.keys, h.num, fun f hf s hs => ⟨(h.sub f hf s hs).tied, (h.sub f hf s hs).kind, (h.sub f hf s hs).ext, (h.sub f hf s hs).len,
    (h.sub f hf s hs).ne, (h.sub f hf s hs).face, (h.sub f hf s hs).once⟩⟩

theorem addAt_subs (P : PState) (f q f' : ℕ) : (P.addAt f q).subs f' = if f' = f then addSub (P.pts f q) 0 (P.subs f') else P.subs f' := rfl

theorem addAt_pts (P : PState) (f q f' q' : ℕ) : (P.addAt f q).pts f' q' =
    if f' = f ∧ q' = q then { P.pts f' q' with houseK := true } else P.pts f' q' := rfl

theorem PInv.addAt (h : PInv G geo p P) (hb : ∀ f < 6, ∃ b, basics (G.n p) f = .ok b) (hn : ∀ d < 3, 0 < G.n p d)
    (f q : ℕ) (hf : f < 6) (hq : q < faceNp (G.n p) f) (ht : PtOk G geo p f (P.pts f q))
    (hh : (P.pts f q).copy = false → (P.pts f q).houseK = false) : PInv G geo p (P.addAt f q) := by
  have mono : ∀ f' q', (P.pts f' q').houseK = true → ((P.addAt f q).pts f' q').houseK = true := by
    intro f' q' h'
    rw [addAt_pts]
    split
    · rfl
    · exact h'
  have hqq : ((P.addAt f q).pts f q).houseK = true := by rw [addAt_pts, if_pos ⟨rfl, rfl⟩]
  refine ⟨?_, ?_, ?_, ?_⟩
  · intro f' hf' q' hq'
    rw [addAt_pts]
    split
    · exact h.stat f' hf' q' hq'
    · exact h.stat f' hf' q' hq'
  · intro f'
    rw [addAt_subs]
    split
    · exact addSub_nodup _ _ _ (h.keys f')
    · exact h.keys f'
  · intro f'
    rw [addAt_subs]
    split
    · exact addSub_numbered _ _ _ (h.num f')
    · exact h.num f'
  · intro f' hf' s hs
    have keep : ∀ s, SubOk G geo p f' P s → SubOk G geo p f' (P.addAt f q) s := fun s o =>
      ⟨o.tied, o.kind, o.ext, o.len, o.ne, fun l hl => by
        obtain ⟨q', h1, h2, h3⟩ := o.face l hl
        exact ⟨q', h1, h2, mono _ _ h3⟩, o.once⟩
    rw [addAt_subs] at hs
    split at hs
    · rename_i hff
      subst hff
      have hnk := addSub_nodup (P.pts f' q) (P.subs f') 0 (h.keys f')
      have hl := mem_look hnk hs
      rw [look_addSub] at hl
      split at hl
      · rename_i hk
        rw [Option.some.injEq] at hl
        -- the subface before the point was added
        have key : ∃ s0, s = s0.add (P.pts f' q) ∧ Tied s0 ∧ s0.key = (P.pts f' q).key ∧
            s0.adjid.length = (if s0.copy then s0.id.length else 0) ∧ (Kind G geo p f' s0 ∨ s0.id = []) ∧
            (∀ l ∈ s0.id, ∃ q' < faceNp (G.n p) f', (basic (G.n p) f' q').ind = l ∧ (P.pts f' q').houseK = true) ∧
            (s0.copy = false → s0.id.Nodup) := by
          refine ⟨_, hl.symm, ?_⟩
          cases hlk : look (P.subs f') s.key with
          | none =>
            rw [Option.getD_none]
            refine ⟨tied_sub _ _, rfl, ?_, .inr rfl, ?_, ?_⟩
            · simp [Point.sub]
            · intro l hl; simp [Point.sub] at hl
            · intro _; simp [Point.sub]
          | some s0 =>
            rw [Option.getD_some]
            have o := h.sub f' hf' s0 (look_mem hlk)
            exact ⟨o.tied, (look_key hlk).trans hk, o.len, .inl o.kind, o.face, o.once⟩
        obtain ⟨s0, rfl, k1, k2, k3, k4, k5, k6⟩ := key
        obtain ⟨e1, e2, -, -, -, -, -, e8⟩ := k1.same k2
        have hst := h.stat f' hf' q hq
        refine ⟨k1.add _, kind_add G geo p f' _ s0 k1 k2 k3 k4 ht, ?_, ?_, ?_, ?_, ?_⟩
        · show s0.exterF = true
          rw [e8]; exact hst.2
        · show (if (P.pts f' q).copy then s0.adjid ++ [_] else s0.adjid).length = if s0.copy then (s0.id ++ [_]).length else 0
          rw [e2] at k3 ⊢
          split
          · rename_i hc; rw [if_pos hc] at k3; simp [k3]
          · rename_i hc; rw [if_neg hc] at k3; exact k3
        · show s0.id ++ [_] ≠ []
          simp
        · intro l hl
          rcases List.mem_append.1 hl with hl | hl
          · obtain ⟨q', h1, h2, h3⟩ := k5 l hl
            exact ⟨q', h1, h2, mono _ _ h3⟩
          · rw [List.mem_singleton] at hl
            subst hl
            exact ⟨q, hq, hst.1.symm, hqq⟩
        · intro hc
          show (s0.id ++ [(P.pts f' q).ind]).Nodup
          have hc0 : s0.copy = false := hc
          rw [List.nodup_append]
          refine ⟨k6 hc0, by simp, ?_⟩
          rintro a ha b hbm rfl
          rw [List.mem_singleton] at hbm
          subst hbm
          obtain ⟨q', h1, h2, h3⟩ := k5 _ ha
          rw [hst.1] at h2
          have := basic_inj (G.n p) hb hn f' q' q hf' h1 hq h2
          subst this
          rw [e2] at hc0
          rw [hh hc0] at h3
          cases h3
      · exact keep s (h.sub f' hf' s (look_mem hl))
    · exact keep s (h.sub f' hf' s hs)
end

end Elliptica.Iface
