import Verif.Lemmas.InterfaceRun
/-!
`set_subfaces_scs` keeps the two sides of copied points in step (C72).
-/
namespace Elliptica.Iface

variable {K : Type} [Field K] [LinearOrder K]

theorem mem_addSub (t : Point) : ∀ (l : List Sub) (m : ℕ) (s : Sub), s ∈ addSub t m l →
    s ∈ l ∨ (∃ s0 ∈ l, s0.key = t.key ∧ s = s0.add t) ∨ ∃ k, s = (t.sub k).add t := by
  intro l
  induction l with
  | nil => intro m s h; simp only [addSub, List.mem_singleton] at h; exact .inr (.inr ⟨m, h⟩)
  | cons a l ih =>
    intro m s h
    unfold addSub at h
    split at h
    · rename_i hk
      rcases List.mem_cons.1 h with rfl | h
      · exact .inr (.inl ⟨a, List.mem_cons_self .., hk, rfl⟩)
      · exact .inl (List.mem_cons_of_mem _ h)
    · rcases List.mem_cons.1 h with rfl | h
      · exact .inl (List.mem_cons_self ..)
      · rcases ih (m + 1) s h with h | ⟨s0, h1, h2⟩ | h
        · exact .inl (List.mem_cons_of_mem _ h)
        · exact .inr (.inl ⟨s0, List.mem_cons_of_mem _ h1, h2⟩)
        · exact .inr (.inr h)

/-- subfaces that touch nothing are on faces without neighbours -/
def BT (P : PState) : Prop := ∀ f, ∀ s ∈ P.subs f, s.touch = false → (P.fout f || P.fin f) = true

theorem BT.addAt {P : PState} (h : BT P) (f q : ℕ) (ht : (P.pts f q).touch = true) : BT (P.addAt f q) := by
  intro f' s hs htf
  show (P.fout f' || P.fin f') = true
  rw [addAt_subs] at hs
  split at hs
  · rcases mem_addSub _ _ _ _ hs with hs | ⟨s0, h0, -, rfl⟩ | ⟨k, rfl⟩
    · exact h f' s hs htf
    · exact h f' s0 h0 htf
    · have : ((P.pts f q).sub k).touch = true := ht
      rw [show (((P.pts f q).sub k).add (P.pts f q)).touch = ((P.pts f q).sub k).touch from rfl, this] at htf
      cases htf
  · exact h f' s hs htf

/-- a touching subface with a boundary flag: refused at the end -/
def Bad (G : Grid) (S : ℕ → PState) : Prop := ∃ p < G.np, ∃ f < 6, ∃ s ∈ (S p).subs f, s.touch = true ∧ (s.outerB || s.innerB) = true

/-- the flags of points copied to face g of patch a -/
def ckey (a g : ℕ) : Key := ⟨true, true, a, some g, none, false, false, true⟩

def pairsOf (l : List Sub) (k : Key) : List (ℕ × ℕ) :=
  match look l k with
  | none => []
  | some s => s.id.zip s.adjid

def Mir (G : Grid) (S : ℕ → PState) : Prop := ∀ p < G.np, ∀ f < 6, ∀ a < G.np, ∀ g < 6,
  pairsOf ((S a).subs g) (ckey p f) = (pairsOf ((S p).subs f) (ckey a g)).map Prod.swap

def Once (G : Grid) (S : ℕ → PState) : Prop := ∀ p < G.np, ∀ f < 6, ∀ a < G.np, ∀ g < 6,
  ((pairsOf ((S p).subs f) (ckey a g)).map Prod.fst).Nodup

structure CInv (G : Grid) (geo : Geo K) (S : ℕ → PState) : Prop where
  q : ∀ p < G.np, QInv G geo p (S p)
  bt : ∀ p < G.np, BT (S p)
  mir : Bad G S ∨ (Mir G S ∧ (Distinct G geo → Once G S))

theorem pairsOf_addSub (t : Point) (l : List Sub) (k : Key) (hc : k = t.key → t.copy = true)
    (hl : ∀ s, look l k = some s → s.adjid.length = s.id.length) :
    pairsOf (addSub t 0 l) k = if k = t.key then pairsOf l k ++ [(t.ind, t.adjInd)] else pairsOf l k := by
  unfold pairsOf
  rw [look_addSub]
  by_cases hk : k = t.key
  · simp only [if_pos hk]
    have hc := hc hk
    cases h : look l k with
    | none => simp [Sub.add, Point.sub, hc]
    | some s =>
      simp only [Option.getD_some, Sub.add, hc, if_true]
      rw [List.zip_append (hl s h).symm]
      rfl
  · simp only [if_neg hk]

section
variable {G : Grid} {geo : Geo K} {p : ℕ} {P : PState}

theorem Cov.mono {n : ℕ → ℕ} {P P' : PState} {l : ℕ} (h : Cov n (fun _ _ => False) P l) (f q : ℕ)
    (h1 : ∀ f' q', ¬ (f' = f ∧ q' = q) → P'.pts f' q' = P.pts f' q') (h2 : ∀ f' l, (∃ s ∈ P.subs f', l ∈ s.id) → ∃ s ∈ P'.subs f', l ∈ s.id)
    (h3 : ∃ s ∈ P'.subs f, (basic n f q).ind ∈ s.id) : Cov n (fun _ _ => False) P' l := by
  obtain ⟨f', hf', q', hq', h4, h5⟩ := h
  refine ⟨f', hf', q', hq', h4, ?_⟩
  rcases h5 with h5 | h5
  · by_cases he : f' = f ∧ q' = q
    · obtain ⟨rfl, rfl⟩ := he
      right; rw [← h4]; exact h3
    · left; rw [h1 f' q' he]; exact h5
  · exact .inr (h2 f' l h5)

theorem placed_ok {f : ℕ} {t : Point} (h : Placed G geo p f t) : PtOk G geo p f t := by
  obtain ⟨h1, h2, h3, h4, ⟨h5, h6, -⟩ | ⟨h5, h6, h7⟩⟩ := h
  · obtain ⟨a, b, c⟩ := h4.facts
    exact .inr (.inr (.inl ⟨h1, h5, h2, h3, ⟨a, b, c⟩, .inl ⟨h4, h6⟩⟩))
  · exact .inr (.inl ⟨h1, h5, h2, h3, h7, h4, h6⟩)

variable (hb : ∀ f < 6, ∃ b, basics (G.n p) f = .ok b) (hn : ∀ d < 3, 0 < G.n p d)
include hb hn

theorem QInv.own (h : QInv G geo p P) (f q : ℕ) (hf : f < 6) (hq : q < faceNp (G.n p) f) (hk : (P.pts f q).houseK = false) :
    QInv G geo p (P.addAt f q) := by
  have hp := h.pend f hf q hq hk
  have hin := (h.inv.stat f hf q hq).1
  refine ⟨h.inv.addAt hb hn f q hf hq (placed_ok hp) fun _ => hk, ?_, ?_, ?_⟩
  · intro f' hf' q' hq' h1
    rw [addAt_pts] at h1 ⊢
    split at h1
    · cases h1
    · rename_i he
      rw [if_neg he]; exact h.pend f' hf' q' hq' h1
  · intro f' hf' q' hq'
    refine (h.cover f' hf' q' hq').mono f q (fun f' q' he => by rw [addAt_pts, if_neg he]) (fun f' l hl => addAt_in P f q f' l hl) ?_
    rw [← hin]; exact addAt_has P f q
  · intro f' hf' hfl q' hq'
    exact addAt_in P f q f' _ (h.bnd f' hf' hfl q' hq')

theorem QInv.other (h : QInv G geo p P) (f q : ℕ) (hf : f < 6) (hq : q < faceNp (G.n p) f) (g : Point → Point)
    (hg : ∀ t, (g t).ind = t.ind ∧ (g t).exterF = t.exterF ∧ (g t).houseK = t.houseK) (hc : ∀ t, (g t).copy = true)
    (ok : PtOk G geo p f (g (P.pts f q))) : QInv G geo p ((P.modify f q g).addAt f q) := by
  have hin := (h.inv.stat f hf q hq).1
  have hm : PInv G geo p (P.modify f q g) := h.inv.modify f q g fun t => ⟨(hg t).1, (hg t).2.1, fun ht => by rw [(hg t).2.2]; exact ht⟩
  have hpq : (P.modify f q g).pts f q = g (P.pts f q) := by rw [modify_pts, if_pos ⟨rfl, rfl⟩]
  have pts : ∀ f' q', ¬ (f' = f ∧ q' = q) → ((P.modify f q g).addAt f q).pts f' q' = P.pts f' q' := by
    intro f' q' he
    rw [addAt_pts, if_neg he, modify_pts, if_neg he]
  refine ⟨hm.addAt hb hn f q hf hq (by rw [hpq]; exact ok) (fun hcf => by rw [hpq, hc] at hcf; cases hcf), ?_, ?_, ?_⟩
  · intro f' hf' q' hq' h1
    by_cases he : f' = f ∧ q' = q
    · rw [addAt_pts, if_pos he] at h1; cases h1
    · rw [pts f' q' he] at h1 ⊢; exact h.pend f' hf' q' hq' h1
  · intro f' hf' q' hq'
    refine (h.cover f' hf' q' hq').mono f q pts (fun f' l hl => addAt_in (P.modify f q g) f q f' l hl) ?_
    have := addAt_has (P.modify f q g) f q
    rw [hpq, (hg _).1, hin] at this
    exact this
  · intro f' hf' hfl q' hq'
    exact addAt_in (P.modify f q g) f q f' _ (h.bnd f' hf' hfl q' hq')
end

theorem Bad.addAt {G : Grid} {S S' : ℕ → PState} (h : Bad G S) (hS : ∀ p f s, s ∈ (S p).subs f → ∃ s' ∈ (S' p).subs f, s'.touch = s.touch ∧
    s'.outerB = s.outerB ∧ s'.innerB = s.innerB) : Bad G S' := by
  obtain ⟨p, hp, f, hf, s, hs, h1, h2⟩ := h
  obtain ⟨s', h3, h4, h5, h6⟩ := hS p f s hs
  exact ⟨p, hp, f, hf, s', h3, by rw [h4]; exact h1, by rw [h5, h6]; exact h2⟩

theorem addAt_keeps (P : PState) (f q f' : ℕ) (s : Sub) (h : s ∈ P.subs f') : ∃ s' ∈ (P.addAt f q).subs f', s'.touch = s.touch ∧
    s'.outerB = s.outerB ∧ s'.innerB = s.innerB := by
  rw [addAt_subs]
  split
  · obtain ⟨s', h1, rfl | rfl⟩ := addSub_mono (P.pts f q) _ 0 s h
    · exact ⟨_, h1, rfl, rfl, rfl⟩
    · exact ⟨_, h1, rfl, rfl, rfl⟩
  · exact ⟨s, h, rfl, rfl, rfl⟩


theorem stepSet_inv (G : Grid) (geo : Geo K) (hG : G.Proper) (hb : ∀ p < G.np, ∀ f < 6, ∃ b, basics (G.n p) f = .ok b) (S : ℕ → PState)
    (h : CInv G geo S) (p f q : ℕ) (hp : p < G.np) (hf : f < 6) (hq : q < faceNp (G.n p) f) : CInv G geo (stepSet S (p, f, q)) := by
  unfold stepSet
  dsimp only
  split
  · exact h
  · rename_i hk
    have hk : ((S p).pts f q).houseK = false := by simpa using hk
    have hQ := h.q p hp
    have hP := hQ.pend f hf q hq hk
    have hst := hQ.inv.stat f hf q hq
    have own := hQ.own (hb p hp) (hG p hp) f q hf hq hk
    obtain ⟨t, ht⟩ : ∃ t, t = (S p).pts f q := ⟨_, rfl⟩
    rw [← ht] at hP hst ⊢
    have hbt : BT ((S p).addAt f q) := (h.bt p hp).addAt f q (by rw [← ht]; exact hP.1)
    -- lengths of the lists of copied points
    have hlen : ∀ p' < G.np, ∀ f' < 6, ∀ a g s, look ((S p').subs f') (ckey a g) = some s → s.adjid.length = s.id.length := by
      intro p' hp' f' hf' a g s hs
      have o := (h.q p' hp').inv.sub f' hf' s (look_mem hs)
      have hcp : s.copy = true := by
        have := look_key hs
        rw [o.tied] at this
        exact (Key.mk.inj this).2.1
      rw [o.len, if_pos hcp]
    split
    · -- a copy
      rename_i hc
      obtain ⟨h1, h2, h3, h4, ⟨-, h5, h6, h7⟩ | ⟨h5, -⟩⟩ := hP
      swap
      · rw [hc] at h5; cases h5
      obtain ⟨ha, hap, hg6⟩ := h4.facts
      obtain ⟨u, hu⟩ : ∃ u : Point → Point, u = fun u => { u with touch := true, copy := true, adjFace := f, adj := p, adjInd := t.ind } := ⟨_, rfl⟩
      have huf : ∀ x, (u x).ind = x.ind ∧ (u x).exterF = x.exterF ∧ (u x).houseK = x.houseK := by intro x; rw [hu]; exact ⟨rfl, rfl, rfl⟩
      have huc : ∀ x, (u x).copy = true := by intro x; rw [hu]
      rw [← hu]
      have hQa := h.q t.adj ha
      have hsta := hQa.inv.stat t.adjFace hg6 t.adjIndF h6
      have hui : (u ((S t.adj).pts t.adjFace t.adjIndF)).ind = t.adjInd := by rw [(huf _).1, hsta.1, h7]
      obtain ⟨v, hv⟩ : ∃ v, v = u ((S t.adj).pts t.adjFace t.adjIndF) := ⟨_, rfl⟩
      rw [← hv] at hui
      have vt : v.touch = true := by rw [hv, hu]
      have vc : v.copy = true := by rw [hv, hu]
      have va : v.adj = p := by rw [hv, hu]
      have vf : v.adjFace = f := by rw [hv, hu]
      have vi : v.adjInd = t.ind := by rw [hv, hu]
      have ve : v.exterF = true := by rw [hv, (huf _).2.1, hsta.2]
      have okv : PtOk G geo t.adj t.adjFace v := by
        by_cases hbd : (v.outerB || v.innerB) = true
        · exact .inr (.inr (.inr ⟨vt, vc, hbd⟩))
        · simp only [Bool.or_eq_true, not_or, Bool.not_eq_true] at hbd
          refine .inr (.inr (.inl ⟨vt, vc, hbd.1, hbd.2, ?_, ?_⟩))
          · rw [va, vf]; exact ⟨hp, Ne.symm hap, hf⟩
          · rw [va, vf, vi, hui]; exact .inr ⟨h4, h5⟩
      have other := hQa.other (hb t.adj ha) (hG t.adj ha) t.adjFace t.adjIndF hg6 h6 u huf huc (by rw [← hv]; exact okv)
      -- the new state
      have e1 : (fun p' => if p' = t.adj then (((if p' = p then (S p').addAt f q else S p').modify t.adjFace t.adjIndF u).addAt t.adjFace t.adjIndF)
          else if p' = p then (S p').addAt f q else S p') = fun p' => if p' = t.adj then ((S p').modify t.adjFace t.adjIndF u).addAt t.adjFace t.adjIndF
          else if p' = p then (S p').addAt f q else S p' := by
        funext p'
        by_cases he : p' = t.adj
        · rw [if_pos he, if_pos he, if_neg (by rw [he]; exact hap)]
        · rw [if_neg he, if_neg he]
      rw [e1]
      clear e1
      have vpq : ((S t.adj).modify t.adjFace t.adjIndF u).pts t.adjFace t.adjIndF = v := by rw [modify_pts, if_pos ⟨rfl, rfl⟩, hv]
      have keeps : ∀ p' f' s, s ∈ (S p').subs f' → ∃ s' ∈ ((fun p' => if p' = t.adj then ((S p').modify t.adjFace t.adjIndF u).addAt t.adjFace t.adjIndF
          else if p' = p then (S p').addAt f q else S p') p').subs f', s'.touch = s.touch ∧ s'.outerB = s.outerB ∧ s'.innerB = s.innerB := by
        intro p' f' s hs
        dsimp only
        split
        · exact addAt_keeps ((S p').modify t.adjFace t.adjIndF u) _ _ f' s hs
        · split
          · exact addAt_keeps (S p') _ _ f' s hs
          · exact ⟨s, hs, rfl, rfl, rfl⟩
      refine ⟨?_, ?_, ?_⟩
      · intro p' hp'
        split
        · rename_i he; rw [he]; exact other
        · split
          · rename_i he; rw [he]; exact own
          · exact h.q p' hp'
      · intro p' hp'
        split
        · rename_i he
          rw [he]
          exact BT.addAt (P := (S t.adj).modify t.adjFace t.adjIndF u) (fun f' s hs => h.bt t.adj ha f' s hs) _ _ (by rw [vpq]; exact vt)
        · split
          · rename_i he; rw [he]; exact hbt
          · exact h.bt p' hp'
      · rcases h.mir with hB | ⟨hM, hO⟩
        · exact .inl (hB.addAt keeps)
        by_cases hbd : (v.outerB || v.innerB) = true
        · -- the other side is on a boundary
          left
          refine ⟨t.adj, ha, t.adjFace, hg6, ?_⟩
          dsimp only
          rw [if_pos rfl, addAt_subs, if_pos rfl, vpq]
          have hl := look_addSub v v.key (((S t.adj).modify t.adjFace t.adjIndF u).subs t.adjFace) 0
          rw [if_pos rfl] at hl
          have hm := look_mem hl
          refine ⟨_, hm, ?_⟩
          have o := other.inv.sub t.adjFace hg6 _ (by rw [addAt_subs, if_pos rfl, vpq]; exact hm)
          obtain ⟨k1, -, -, -, -, k6, k7, -⟩ := o.tied.same (look_key hl)
          rw [k1, k6, k7]
          exact ⟨vt, hbd⟩
        · right
          simp only [Bool.or_eq_true, not_or, Bool.not_eq_true] at hbd
          have kv : v.key = ckey p f := by rw [key_eq, vt, vc, va, vf, hbd.1, hbd.2, ve]; rfl
          have kt : t.key = ckey t.adj t.adjFace := by rw [key_eq, h1, hc, h2, h3, hst.2]; rfl
          have kinj : ∀ a g a' g', ckey a g = ckey a' g' ↔ a = a' ∧ g = g' := by
            intro a g a' g'
            unfold ckey
            simp
          -- the lists of pairs afterwards
          have new : ∀ p' < G.np, ∀ f' < 6, ∀ a' g', pairsOf ((if p' = t.adj then ((S p').modify t.adjFace t.adjIndF u).addAt t.adjFace t.adjIndF
              else if p' = p then (S p').addAt f q else S p').subs f') (ckey a' g') = pairsOf ((S p').subs f') (ckey a' g') ++
                (if p' = p ∧ f' = f ∧ a' = t.adj ∧ g' = t.adjFace then [(t.ind, t.adjInd)]
                 else if p' = t.adj ∧ f' = t.adjFace ∧ a' = p ∧ g' = f then [(t.adjInd, t.ind)] else []) := by
            intro p' hp' f' hf' a' g'
            by_cases he : p' = t.adj
            · have hne : p' ≠ p := by rw [he]; exact hap
              rw [if_pos he, addAt_subs]
              rw [if_neg (fun (hx : p' = p ∧ f' = f ∧ a' = t.adj ∧ g' = t.adjFace) => hne hx.1)]
              by_cases hff : f' = t.adjFace
              · rw [if_pos hff]
                subst he hff
                rw [vpq]
                rw [show ((S t.adj).modify t.adjFace t.adjIndF u).subs t.adjFace = (S t.adj).subs t.adjFace from rfl]
                rw [pairsOf_addSub v _ _ (fun _ => vc) (hlen t.adj ha t.adjFace hg6 a' g'), kv, hui, vi]
                by_cases hk2 : a' = p ∧ g' = f
                · rw [if_pos ((kinj _ _ _ _).2 hk2), if_pos ⟨rfl, rfl, hk2.1, hk2.2⟩]
                · rw [if_neg (fun hx => hk2 ((kinj _ _ _ _).1 hx)), if_neg (fun hx => hk2 ⟨hx.2.2.1, hx.2.2.2⟩), List.append_nil]
              · rw [if_neg hff, if_neg (fun hx => hff hx.2.1), List.append_nil]
                rfl
            · rw [if_neg he, if_neg (fun (hx : p' = t.adj ∧ f' = t.adjFace ∧ a' = p ∧ g' = f) => he hx.1)]
              by_cases hpp : p' = p
              · rw [if_pos hpp, addAt_subs]
                subst hpp
                by_cases hff : f' = f
                · subst hff
                  rw [if_pos rfl, ← ht, pairsOf_addSub t _ _ (fun _ => hc) (hlen p' hp f' hf a' g'), kt]
                  by_cases hk2 : a' = t.adj ∧ g' = t.adjFace
                  · rw [if_pos ((kinj _ _ _ _).2 hk2), if_pos ⟨rfl, rfl, hk2.1, hk2.2⟩]
                  · rw [if_neg (fun hx => hk2 ((kinj _ _ _ _).1 hx)), if_neg (fun hx => hk2 ⟨hx.2.2.1, hx.2.2.2⟩), List.append_nil]
                · rw [if_neg hff, if_neg (fun hx => hff hx.2.1), List.append_nil]
              · rw [if_neg hpp, if_neg (fun hx => hpp hx.1), List.append_nil]
          refine ⟨?_, ?_⟩
          · intro p' hp' f' hf' a' ha' g' hg'
            dsimp only
            rw [new a' ha' g' hg' p' f', new p' hp' f' hf' a' g', hM p' hp' f' hf' a' ha' g' hg', List.map_append]
            congr 1
            by_cases c1 : p' = p ∧ f' = f ∧ a' = t.adj ∧ g' = t.adjFace
            · obtain ⟨rfl, rfl, rfl, rfl⟩ := c1
              rw [if_neg (fun hx => hap hx.1), if_pos ⟨rfl, rfl, rfl, rfl⟩, if_pos ⟨rfl, rfl, rfl, rfl⟩]
              rfl
            · by_cases c2 : a' = p ∧ g' = f ∧ p' = t.adj ∧ f' = t.adjFace
              · obtain ⟨rfl, rfl, rfl, rfl⟩ := c2
                rw [if_pos ⟨rfl, rfl, rfl, rfl⟩, if_neg c1, if_pos ⟨rfl, rfl, rfl, rfl⟩]
                rfl
              · rw [if_neg c2, if_neg c1, if_neg (fun hx => c1 ⟨hx.2.2.1, hx.2.2.2, hx.1, hx.2.1⟩), if_neg (fun hx => c2 ⟨hx.2.2.1, hx.2.2.2, hx.1, hx.2.1⟩)]
                rfl
          · intro hD p' hp' f' hf' a' ha' g' hg'
            dsimp only
            rw [new p' hp' f' hf' a' g', List.map_append, List.nodup_append]
            refine ⟨hO hD p' hp' f' hf' a' ha' g' hg', ?_, ?_⟩
            · split
              · simp
              · split <;> simp
            -- t.ind is not yet copied to that face
            have fresh : ∀ x ∈ pairsOf ((S p).subs f) (ckey t.adj t.adjFace), x.1 ≠ t.ind := by
              intro x hx hxe
              unfold pairsOf at hx
              cases hlk : look ((S p).subs f) (ckey t.adj t.adjFace) with
              | none => rw [hlk] at hx; simp at hx
              | some s =>
                rw [hlk] at hx
                have o := hQ.inv.sub f hf s (look_mem hlk)
                obtain ⟨q', hq', i1, i2⟩ := o.face x.1 (List.of_mem_zip (by exact hx : (x.1, x.2) ∈ s.id.zip s.adjid)).1
                rw [hxe, hst.1] at i1
                have := basic_inj (G.n p) (hb p hp) (hG p hp) f q' q hf hq' hq i1
                subst this
                rw [hk] at i2; cases i2
            rintro x hx y hy rfl
            split at hy
            · rename_i c1
              obtain ⟨rfl, rfl, rfl, rfl⟩ := c1
              simp only [List.map_cons, List.map_nil, List.mem_singleton] at hy
              subst hy
              obtain ⟨z, hz, hze⟩ := List.mem_map.1 hx
              exact fresh z hz hze
            · split at hy
              · rename_i c1
                obtain ⟨rfl, rfl, rfl, rfl⟩ := c1
                simp only [List.map_cons, List.map_nil, List.mem_singleton] at hy
                subst hy
                obtain ⟨z, hz, hze⟩ := List.mem_map.1 hx
                rw [hM a' ha' g' hg' t.adj hp' t.adjFace hf'] at hz
                obtain ⟨w, hw, rfl⟩ := List.mem_map.1 hz
                have hw2 : w.2 = t.adjInd := hze
                refine fresh w hw ?_
                obtain ⟨A, X, d1, d2⟩ := hD
                -- both nodes are at the position of the other side
                unfold pairsOf at hw
                cases hlk : look ((S a').subs g') (ckey t.adj t.adjFace) with
                | none => rw [hlk] at hw; simp at hw
                | some s =>
                  rw [hlk] at hw
                  have o := hQ.inv.sub g' hf s (look_mem hlk)
                  have ks := look_key hlk
                  have ks2 := ks
                  rw [o.tied] at ks2
                  obtain ⟨s1, s2, s3, s4, -, s6, s7, -⟩ := Key.mk.inj ks2
                  have s4 : s.adjFace = t.adjFace := by rw [s1] at s4; simpa using s4
                  have mt : Meet G geo a' g' w.1 s.adj s.adjFace w.2 := by
                    rcases o.kind with k | k | k | k
                    · rw [k.1] at s1; cases s1
                    · rw [k.2.1] at s2; cases s2
                    · exact k.2.2.2.2.2 w hw
                    · rw [s6, s7] at k; exact absurd k.2.2 (by simp)
                  rw [s3, s4, hw2] at mt
                  have hX : X a' w.1 = X t.adj t.adjInd := by
                    rcases mt with mt | mt
                    · exact d1 _ _ _ _ mt.2
                    · exact (d1 _ _ _ _ mt.2).symm
                  rw [← d1 _ _ _ _ h5] at hX
                  obtain ⟨q', hq', i1, -⟩ := o.face w.1 (List.of_mem_zip (by exact hw : (w.1, w.2) ∈ s.id.zip s.adjid)).1
                  have inn : ∀ q < faceNp (G.n a') g', (basic (G.n a') g' q).ind < G.n a' 0 * G.n a' 1 * G.n a' 2 := by
                    intro q hq
                    obtain ⟨i, j, k, ho, -, hi, -⟩ := basic_of (G.n a') (hb a' hp) (hG a' hp) g' q hf hq
                    rw [hi]
                    have e1 := two_digits_lt _ _ _ _ ho.1 ho.2.1
                    have e2 := two_digits_lt _ _ _ _ e1 ho.2.2.1
                    exact e2
                  refine d2 a' hp _ ?_ _ ?_ hX
                  · rw [← i1]; exact inn q' hq'
                  · rw [hst.1]; exact inn q hq
              · simp at hy
    · -- no copy
      rename_i hc
      have hc : t.copy = false := by simpa using hc
      have keeps : ∀ p' f' s, s ∈ (S p').subs f' → ∃ s' ∈ ((fun p' => if p' = p then (S p').addAt f q else S p') p').subs f', s'.touch = s.touch ∧
          s'.outerB = s.outerB ∧ s'.innerB = s.innerB := by
        intro p' f' s hs
        dsimp only
        split
        · exact addAt_keeps (S p') _ _ f' s hs
        · exact ⟨s, hs, rfl, rfl, rfl⟩
      have nk : ∀ a g, ckey a g ≠ t.key := by
        intro a g he
        rw [key_eq, hc] at he
        exact absurd (Key.mk.inj he).2.1 (by simp)
      have new : ∀ p' < G.np, ∀ f' < 6, ∀ a' g', pairsOf ((if p' = p then (S p').addAt f q else S p').subs f') (ckey a' g') =
          pairsOf ((S p').subs f') (ckey a' g') := by
        intro p' hp' f' hf' a' g'
        split
        · rename_i he
          subst he
          rw [addAt_subs]
          split
          · rename_i hff
            subst hff
            rw [← ht, pairsOf_addSub t _ _ (fun hx => absurd hx (nk _ _)) (hlen p' hp f' hf a' g'), if_neg (nk _ _)]
          · rfl
        · rfl
      refine ⟨?_, ?_, ?_⟩
      · intro p' hp'
        split
        · rename_i he; rw [he]; exact own
        · exact h.q p' hp'
      · intro p' hp'
        split
        · rename_i he; rw [he]; exact hbt
        · exact h.bt p' hp'
      · rcases h.mir with hB | ⟨hM, hO⟩
        · exact .inl (hB.addAt keeps)
        · right
          refine ⟨?_, ?_⟩
          · intro p' hp' f' hf' a' ha' g' hg'
            dsimp only
            rw [new a' ha' g' hg', new p' hp' f' hf']
            exact hM p' hp' f' hf' a' ha' g' hg'
          · intro hD p' hp' f' hf' a' ha' g' hg'
            dsimp only
            rw [new p' hp' f' hf']
            exact hO hD p' hp' f' hf' a' ha' g' hg'

end Elliptica.Iface
