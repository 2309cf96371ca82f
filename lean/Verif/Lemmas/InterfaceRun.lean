import Verif.Lemmas.InterfaceInv
/-!
The phases of `ri_split_cubed_spherical` keep the invariants (C72).
-/
namespace Elliptica.Iface

variable {K : Type} [Field K] [LinearOrder K]

theorem addSub_mono (t : Point) : ∀ (l : List Sub) (m : ℕ) (s : Sub), s ∈ l → ∃ s' ∈ addSub t m l, s' = s ∨ s' = s.add t := by
  intro l
  induction l with
  | nil => intro m s h; simp at h
  | cons a l ih =>
    intro m s h
    unfold addSub
    split
    · rcases List.mem_cons.1 h with rfl | h
      · exact ⟨_, List.mem_cons_self .., .inr rfl⟩
      · exact ⟨s, List.mem_cons_of_mem _ h, .inl rfl⟩
    · rcases List.mem_cons.1 h with rfl | h
      · exact ⟨_, List.mem_cons_self .., .inl rfl⟩
      · obtain ⟨s', h1, h2⟩ := ih (m + 1) s h
        exact ⟨s', List.mem_cons_of_mem _ h1, h2⟩

theorem addSub_new (t : Point) : ∀ (l : List Sub) (m : ℕ), ∃ s ∈ addSub t m l, t.ind ∈ s.id := by
  intro l
  induction l with
  | nil => intro m; exact ⟨_, List.mem_cons_self .., by simp [Sub.add]⟩
  | cons a l ih =>
    intro m
    unfold addSub
    split
    · exact ⟨_, List.mem_cons_self .., by simp [Sub.add]⟩
    · obtain ⟨s, h1, h2⟩ := ih (m + 1)
      exact ⟨s, List.mem_cons_of_mem _ h1, h2⟩

theorem addAt_in (P : PState) (f q f' l : ℕ) (h : ∃ s ∈ P.subs f', l ∈ s.id) : ∃ s ∈ (P.addAt f q).subs f', l ∈ s.id := by
  obtain ⟨s, h1, h2⟩ := h
  rw [addAt_subs]
  split
  · obtain ⟨s', h3, h4⟩ := addSub_mono (P.pts f q) _ 0 s h1
    refine ⟨s', h3, ?_⟩
    rcases h4 with rfl | rfl
    · exact h2
    · simp [Sub.add, h2]
  · exact ⟨s, h1, h2⟩

theorem addAt_has (P : PState) (f q : ℕ) : ∃ s ∈ (P.addAt f q).subs f, (P.pts f q).ind ∈ s.id := by
  rw [addAt_subs, if_pos rfl]
  exact addSub_new _ _ 0

/-! ### one patch -/

/-- node l is in a subface, or a point that is not in a subface yet will take it there; R: the points not visited -/
def Cov (n : ℕ → ℕ) (R : ℕ → ℕ → Prop) (P : PState) (l : ℕ) : Prop :=
  ∃ f < 6, ∃ q < faceNp n f, (basic n f q).ind = l ∧ ((¬ R f q ∧ (P.pts f q).houseK = false) ∨ ∃ s ∈ P.subs f, l ∈ s.id)

/-- invariant of `find_adjacent_scs` for patch p -/
structure BInv (G : Grid) (geo : Geo K) (p : ℕ) (R : ℕ → ℕ → Prop) (P : PState) : Prop where
  inv : PInv G geo p P
  fresh : ∀ f < 6, ∀ q < faceNp (G.n p) f, R f q → P.pts f q = basic (G.n p) f q
  done : ∀ f < 6, ∀ q < faceNp (G.n p) f, ¬ R f q → (P.pts f q).houseK = false → Placed G geo p f (P.pts f q)
  cover : ∀ f < 6, ∀ q < faceNp (G.n p) f, ¬ R f q → Cov (G.n p) R P (basic (G.n p) f q).ind
  flag : ∀ l, P.flag l = true → Cov (G.n p) R P l
  bnd : ∀ f < 6, (P.fout f || P.fin f) = true → ∀ q < faceNp (G.n p) f, ∃ s ∈ P.subs f, (basic (G.n p) f q).ind ∈ s.id

section
variable {G : Grid} {geo : Geo K} {p : ℕ} {R R' : ℕ → ℕ → Prop} {P P' : PState}

theorem Cov.congr {n : ℕ → ℕ} (hR : ∀ f < 6, ∀ q < faceNp n f, (R f q ↔ R' f q)) {l : ℕ} (h : Cov n R P l) : Cov n R' P l := by
  obtain ⟨f, hf, q, hq, h1, h2⟩ := h
  exact ⟨f, hf, q, hq, h1, by rwa [← hR f hf q hq]⟩

theorem BInv.congr (h : BInv G geo p R P) (hR : ∀ f < 6, ∀ q < faceNp (G.n p) f, (R f q ↔ R' f q)) : BInv G geo p R' P :=
  ⟨h.inv, fun f hf q hq hr => h.fresh f hf q hq ((hR f hf q hq).2 hr), fun f hf q hq hr => h.done f hf q hq fun hr' => hr ((hR f hf q hq).1 hr'),
    fun f hf q hq hr => (h.cover f hf q hq fun hr' => hr ((hR f hf q hq).1 hr')).congr hR, fun l hl => (h.flag l hl).congr hR, h.bnd⟩

variable (hb : ∀ f < 6, ∃ b, basics (G.n p) f = .ok b) (hn : ∀ d < 3, 0 < G.n p d)

theorem modify_pts (P : PState) (f q : ℕ) (g : Point → Point) (f' q' : ℕ) : (P.modify f q g).pts f' q' =
    if f' = f ∧ q' = q then g (P.pts f' q') else P.pts f' q' := rfl

include hb in
theorem stepPoint_inv (h : BInv G geo p R P) (f q : ℕ) (hf : f < 6) (hq : q < faceNp (G.n p) f) (hR : R f q) (c : ℕ × ℕ)
    (hc : Opposite geo p f (CentreFace G geo p f) c.1 c.2) (hs : stepPoint G geo p f c P q = .ok P') :
    BInv G geo p (fun f' q' => R f' q' ∧ ¬ (f' = f ∧ q' = q)) P' := by
  have hfr := h.fresh f hf q hq hR
  obtain ⟨i0, x0, e0, hz⟩ := basic_rest (G.n p) hb f hf q
  have hst := h.inv.stat f hf q hq
  unfold stepPoint at hs
  dsimp only at hs
  split at hs
  · rename_i hfl
    cases hs
    have old : ∀ l, Cov (G.n p) R P l → Cov (G.n p) (fun f' q' => R f' q' ∧ ¬ (f' = f ∧ q' = q))
        (P.modify f q fun t => { t with houseK := true }) l := by
      rintro l ⟨f', hf', q', hq', h1, h2⟩
      refine ⟨f', hf', q', hq', h1, ?_⟩
      rcases h2 with ⟨h2, h3⟩ | h2
      · left
        refine ⟨fun hx => h2 hx.1, ?_⟩
        rw [modify_pts, if_neg]
        · exact h3
        · rintro ⟨rfl, rfl⟩; exact h2 hR
      · exact .inr h2
    refine ⟨h.inv.modify f q _ fun t => ⟨rfl, rfl, fun _ => rfl⟩, ?_, ?_, ?_, ?_, h.bnd⟩
    · rintro f' hf' q' hq' ⟨h1, h2⟩
      rw [modify_pts, if_neg h2]
      exact h.fresh f' hf' q' hq' h1
    · intro f' hf' q' hq' h1 h2
      rw [modify_pts] at h2 ⊢
      by_cases he : f' = f ∧ q' = q
      · rw [if_pos he] at h2; cases h2
      · rw [if_neg he] at h2 ⊢
        exact h.done f' hf' q' hq' (fun hr => h1 ⟨hr, he⟩) h2
    · intro f' hf' q' hq' h1
      by_cases he : f' = f ∧ q' = q
      · obtain ⟨rfl, rfl⟩ := he
        rw [← hst.1]
        exact old _ (h.flag _ hfl)
      · exact old _ (h.cover f' hf' q' hq' fun hr => h1 ⟨hr, he⟩)
    · intro l hl
      exact old l (h.flag l hl)
  · obtain ⟨w, h1, h2⟩ := bind_eq_ok hs
    cases h2
    have hput : Placed G geo p f ((P.pts f q).put w) :=
      locate_spec G geo p f _ c w h1 hc (by rw [hfr, hz]; rfl) (by rw [hfr, hz]; rfl) (by rw [hfr, hz]; rfl)
    have putf : ∀ t : Point, (t.put w).ind = t.ind ∧ (t.put w).exterF = t.exterF ∧ (t.put w).houseK = t.houseK := by
      intro t
      obtain ⟨a, g, o⟩ := w
      cases o with
      | none => exact ⟨rfl, rfl, rfl⟩
      | some o => exact ⟨rfl, rfl, rfl⟩
    have hk : (P.pts f q).houseK = false := by rw [hfr, hz]; rfl
    have pts : ∀ f' q', (((P.modify f q fun t => t.put w).mark (P.pts f q).ind).pts f' q') =
        if f' = f ∧ q' = q then (P.pts f' q').put w else P.pts f' q' := fun _ _ => rfl
    have self : Cov (G.n p) (fun f' q' => R f' q' ∧ ¬ (f' = f ∧ q' = q)) ((P.modify f q fun t => t.put w).mark (P.pts f q).ind)
        (basic (G.n p) f q).ind := by
      refine ⟨f, hf, q, hq, rfl, .inl ⟨fun hx => hx.2 ⟨rfl, rfl⟩, ?_⟩⟩
      rw [pts, if_pos ⟨rfl, rfl⟩, (putf _).2.2, hk]
    have old : ∀ l, Cov (G.n p) R P l → Cov (G.n p) (fun f' q' => R f' q' ∧ ¬ (f' = f ∧ q' = q))
        ((P.modify f q fun t => t.put w).mark (P.pts f q).ind) l := by
      rintro l ⟨f', hf', q', hq', h1, h2⟩
      refine ⟨f', hf', q', hq', h1, ?_⟩
      rcases h2 with ⟨h2, h3⟩ | h2
      · left
        refine ⟨fun hx => h2 hx.1, ?_⟩
        rw [pts]
        split
        · rw [(putf _).2.2]; exact h3
        · exact h3
      · exact .inr h2
    refine ⟨(h.inv.modify f q _ fun t => ⟨(putf t).1, (putf t).2.1, fun ht => by rw [(putf t).2.2]; exact ht⟩).mark _, ?_, ?_, ?_, ?_, h.bnd⟩
    · rintro f' hf' q' hq' ⟨h1, h2⟩
      rw [pts, if_neg h2]
      exact h.fresh f' hf' q' hq' h1
    · intro f' hf' q' hq' h1 h2
      rw [pts] at h2 ⊢
      by_cases he : f' = f ∧ q' = q
      · rw [if_pos he]
        obtain ⟨rfl, rfl⟩ := he
        exact hput
      · rw [if_neg he] at h2 ⊢
        exact h.done f' hf' q' hq' (fun hr => h1 ⟨hr, he⟩) h2
    · intro f' hf' q' hq' h1
      by_cases he : f' = f ∧ q' = q
      · obtain ⟨rfl, rfl⟩ := he
        exact self
      · exact old _ (h.cover f' hf' q' hq' fun hr => h1 ⟨hr, he⟩)
    · intro l hl
      by_cases he : l = (P.pts f q).ind
      · rw [he, hst.1]; exact self
      · refine old l (h.flag l ?_)
        simpa [PState.mark, PState.modify, he] using hl

/-- the points that are left: those of the faces fs and the points qs of face f -/
def Rem (fs : List ℕ) (f : ℕ) (qs : List ℕ) (f' q' : ℕ) : Prop := f' ∈ fs ∨ (f' = f ∧ q' ∈ qs)

theorem rem_step (fs : List ℕ) (f q : ℕ) (qs : List ℕ) (hfs : f ∉ fs) (hqs : q ∉ qs) (f' q' : ℕ) :
    (Rem fs f (q :: qs) f' q' ∧ ¬ (f' = f ∧ q' = q)) ↔ Rem fs f qs f' q' := by
  unfold Rem
  constructor
  · rintro ⟨h | ⟨rfl, h⟩, h2⟩
    · exact .inl h
    · rcases List.mem_cons.1 h with rfl | h
      · exact absurd ⟨rfl, rfl⟩ h2
      · exact .inr ⟨rfl, h⟩
  · rintro (h | ⟨rfl, h⟩)
    · exact ⟨.inl h, fun hx => hfs (hx.1 ▸ h)⟩
    · exact ⟨.inr ⟨rfl, List.mem_cons_of_mem _ h⟩, fun hx => hqs (hx.2 ▸ h)⟩

include hb in
theorem loopPoint_inv (fs : List ℕ) (f : ℕ) (hf : f < 6) (hfs : f ∉ fs) (c : ℕ × ℕ)
    (hc : Opposite geo p f (CentreFace G geo p f) c.1 c.2) : ∀ (qs : List ℕ) (P P' : PState), qs.Nodup → (∀ q ∈ qs, q < faceNp (G.n p) f) →
    BInv G geo p (Rem fs f qs) P → loop (stepPoint G geo p f c) qs P = .ok P' → BInv G geo p (Rem fs f []) P' := by
  intro qs
  induction qs with
  | nil => intro P P' _ _ h hl; cases hl; exact h
  | cons q qs ih =>
    intro P P' hnd hlt h hl
    rw [List.nodup_cons] at hnd
    obtain ⟨P1, h1, h2⟩ := loop_cons_ok _ _ _ _ _ hl
    refine ih P1 P' hnd.2 (fun q' hq' => hlt q' (List.mem_cons_of_mem _ hq')) ?_ h2
    refine (stepPoint_inv hb h f q hf (hlt q (List.mem_cons_self ..)) (.inr ⟨rfl, List.mem_cons_self ..⟩) c hc h1).congr ?_
    intro f' _ q' _
    exact rem_step fs f q qs hfs hnd.1 f' q'

include hb hn in
theorem stepB_inv (h : BInv G geo p R P) (f q : ℕ) (hf : f < 6) (hq : q < faceNp (G.n p) f) (hR : R f q) (hA : Alone G geo p f) :
    BInv G geo p (fun f' q' => R f' q' ∧ ¬ (f' = f ∧ q' = q)) (stepB (G.innerB p) f P q) := by
  have hfr := h.fresh f hf q hq hR
  obtain ⟨i0, x0, e0, hz⟩ := basic_rest (G.n p) hb f hf q
  have hst := h.inv.stat f hf q hq
  obtain ⟨g, hg⟩ : ∃ g : Point → Point, g = fun t => if G.innerB p then { t with innerB := true } else { t with outerB := true } := ⟨_, rfl⟩
  have hgf : ∀ t, (g t).ind = t.ind ∧ (g t).exterF = t.exterF ∧ (g t).houseK = t.houseK ∧ (g t).touch = t.touch ∧ (g t).copy = t.copy := by
    intro t; rw [hg]; dsimp only; split <;> exact ⟨rfl, rfl, rfl, rfl, rfl⟩
  have hB : stepB (G.innerB p) f P q = ((P.modify f q g).addAt f q).mark ((P.modify f q g).pts f q).ind := by rw [hg]; rfl
  have hpq : (P.modify f q g).pts f q = g (P.pts f q) := by rw [modify_pts, if_pos ⟨rfl, rfl⟩]
  have hin : ((P.modify f q g).pts f q).ind = (basic (G.n p) f q).ind := by rw [hpq, (hgf _).1, hst.1]
  rw [hB]
  have hm : PInv G geo p (P.modify f q g) := h.inv.modify f q g fun t => ⟨(hgf t).1, (hgf t).2.1, fun ht => by rw [(hgf t).2.2.1]; exact ht⟩
  have ok : PtOk G geo p f ((P.modify f q g).pts f q) := by
    left
    rw [hpq, (hgf _).2.2.2.1, (hgf _).2.2.2.2, hfr, hz]
    refine ⟨rfl, rfl, hA, ?_, ?_⟩
    · rw [hg]; cases G.innerB p <;> rfl
    · rw [hg]; cases G.innerB p <;> rfl
  have hhk : ((P.modify f q g).pts f q).houseK = false := by rw [hpq, (hgf _).2.2.1, hfr, hz]; rfl
  have pts : ∀ f' q', ¬ (f' = f ∧ q' = q) → (((P.modify f q g).addAt f q).mark ((P.modify f q g).pts f q).ind).pts f' q' = P.pts f' q' := by
    intro f' q' hne
    show ((P.modify f q g).addAt f q).pts f' q' = _
    rw [addAt_pts, if_neg hne, modify_pts, if_neg hne]
  have hkq : (((P.modify f q g).addAt f q).mark ((P.modify f q g).pts f q).ind).pts f q = { (P.modify f q g).pts f q with houseK := true } := by
    show ((P.modify f q g).addAt f q).pts f q = _
    rw [addAt_pts, if_pos ⟨rfl, rfl⟩]
  have subs : ∀ f' l, (∃ s ∈ P.subs f', l ∈ s.id) →
      ∃ s ∈ (((P.modify f q g).addAt f q).mark ((P.modify f q g).pts f q).ind).subs f', l ∈ s.id := by
    intro f' l hl
    exact addAt_in (P.modify f q g) f q f' l hl
  have hself : ∃ s ∈ (((P.modify f q g).addAt f q).mark ((P.modify f q g).pts f q).ind).subs f, (basic (G.n p) f q).ind ∈ s.id := by
    rw [← hin]
    exact addAt_has (P.modify f q g) f q
  have old : ∀ l, Cov (G.n p) R P l → Cov (G.n p) (fun f' q' => R f' q' ∧ ¬ (f' = f ∧ q' = q))
      (((P.modify f q g).addAt f q).mark ((P.modify f q g).pts f q).ind) l := by
    rintro l ⟨f', hf', q', hq', h1, h2⟩
    refine ⟨f', hf', q', hq', h1, ?_⟩
    rcases h2 with ⟨h2, h3⟩ | h2
    · left
      refine ⟨fun hx => h2 hx.1, ?_⟩
      rw [pts]
      · exact h3
      · rintro ⟨rfl, rfl⟩; exact h2 hR
    · exact .inr (subs f' l h2)
  have self : Cov (G.n p) (fun f' q' => R f' q' ∧ ¬ (f' = f ∧ q' = q))
      (((P.modify f q g).addAt f q).mark ((P.modify f q g).pts f q).ind) (basic (G.n p) f q).ind :=
    ⟨f, hf, q, hq, rfl, .inr hself⟩
  refine ⟨(hm.addAt hb hn f q hf hq ok fun _ => hhk).mark _, ?_, ?_, ?_, ?_, ?_⟩
  · rintro f' hf' q' hq' ⟨h1, h2⟩
    rw [pts f' q' h2]
    exact h.fresh f' hf' q' hq' h1
  · intro f' hf' q' hq' h1 h2
    by_cases he : f' = f ∧ q' = q
    · obtain ⟨rfl, rfl⟩ := he
      rw [hkq] at h2; cases h2
    · rw [pts f' q' he] at h2 ⊢
      exact h.done f' hf' q' hq' (fun hr => h1 ⟨hr, he⟩) h2
  · intro f' hf' q' hq' h1
    by_cases he : f' = f ∧ q' = q
    · obtain ⟨rfl, rfl⟩ := he
      exact self
    · exact old _ (h.cover f' hf' q' hq' fun hr => h1 ⟨hr, he⟩)
  · intro l hl
    by_cases he : l = (basic (G.n p) f q).ind
    · rw [he]; exact self
    · refine old l (h.flag l ?_)
      rw [← hin, hpq] at he
      simpa [PState.mark, PState.addAt, PState.modify, he] using hl
  · intro f' hf' hfl q' hq'
    exact subs f' _ (h.bnd f' hf' hfl q' hq')

include hb hn in
theorem foldB_inv (fs : List ℕ) (f : ℕ) (hf : f < 6) (hfs : f ∉ fs) (hA : Alone G geo p f) : ∀ (qs : List ℕ) (P : PState), qs.Nodup →
    (∀ q ∈ qs, q < faceNp (G.n p) f) → BInv G geo p (Rem fs f qs) P →
    BInv G geo p (Rem fs f []) (qs.foldl (stepB (G.innerB p) f) P) := by
  intro qs
  induction qs with
  | nil => intro P _ _ h; exact h
  | cons q qs ih =>
    intro P hnd hlt h
    rw [List.nodup_cons] at hnd
    rw [List.foldl_cons]
    refine ih _ hnd.2 (fun q' hq' => hlt q' (List.mem_cons_of_mem _ hq')) ?_
    refine (stepB_inv hb hn h f q hf (hlt q (List.mem_cons_self ..)) (.inr ⟨rfl, List.mem_cons_self ..⟩) hA).congr ?_
    intro f' _ q' _
    exact rem_step fs f q qs hfs hnd.1 f' q'

/-- every point of the face that the boundary loop has visited is in a subface of the face -/
theorem foldB_in (inner : Bool) (f : ℕ) (ind : ℕ → ℕ) : ∀ (qs : List ℕ) (P : PState), (∀ q ∈ qs, (P.pts f q).ind = ind q) →
    (∀ q ∈ qs, ∃ s ∈ (qs.foldl (stepB inner f) P).subs f, ind q ∈ s.id) ∧
    (∀ f' l, (∃ s ∈ P.subs f', l ∈ s.id) → ∃ s ∈ (qs.foldl (stepB inner f) P).subs f', l ∈ s.id) ∧
    (∀ f', f' ≠ f → (qs.foldl (stepB inner f) P).subs f' = P.subs f') ∧
    (qs.foldl (stepB inner f) P).fout = P.fout ∧ (qs.foldl (stepB inner f) P).fin = P.fin := by
  intro qs
  induction qs with
  | nil => intro P _; exact ⟨by simp, fun _ _ h => h, fun _ _ => rfl, rfl, rfl⟩
  | cons q qs ih =>
    intro P hP
    rw [List.foldl_cons]
    have hind : ∀ q' ∈ qs, ((stepB inner f P q).pts f q').ind = ind q' := by
      intro q' hq'
      rw [← hP q' (List.mem_cons_of_mem _ hq')]
      simp only [stepB, PState.mark, PState.addAt, PState.modify]
      by_cases he : q' = q
      · cases inner <;> simp [he]
      · simp [he]
    obtain ⟨h1, h2, h3, h4, h5⟩ := ih (stepB inner f P q) hind
    have hs : ∀ f' l, (∃ s ∈ P.subs f', l ∈ s.id) → ∃ s ∈ (stepB inner f P q).subs f', l ∈ s.id :=
      fun f' l hl => addAt_in (P.modify f q _) f q f' l hl
    refine ⟨?_, fun f' l hl => h2 f' l (hs f' l hl), ?_, h4, h5⟩
    · intro q' hq'
      rcases List.mem_cons.1 hq' with rfl | hq'
      · refine h2 f _ ?_
        have := addAt_has (P.modify f q' fun t => if inner then { t with innerB := true } else { t with outerB := true }) f q'
        rw [modify_pts, if_pos ⟨rfl, rfl⟩] at this
        have e : (if inner = true then { P.pts f q' with innerB := true } else { P.pts f q' with outerB := true }).ind = ind q' := by
          rw [← hP q' (List.mem_cons_self ..)]; split <;> rfl
        rw [e] at this
        exact this
      · exact h1 q' hq'
    · intro f' hne
      rw [h3 f' hne]
      show ((P.modify f q _).addAt f q).subs f' = _
      rw [addAt_subs, if_neg hne]
      rfl

theorem search_nil (x : Pos) (r : List ℕ) (h : search G.np (geo.accept x) [p] = .ok r) (a : ℕ) : a ∈ r ↔ Near G geo p x a := by
  obtain ⟨r', h1, h2⟩ := search_ok G.np (geo.accept x) [p] (by simp)
  rw [h1] at h
  cases h
  rw [h2]
  unfold Near
  simp

include hb hn in
theorem stepFace_inv (fs : List ℕ) (f : ℕ) (hf : f < 6) (hfs : f ∉ fs) (h : BInv G geo p (fun f' _ => f' ∈ f :: fs) P)
    (hs : stepFace G geo p P f = .ok P') : BInv G geo p (fun f' _ => f' ∈ fs) P' := by
  have h0 : BInv G geo p (Rem fs f (List.range (faceNp (G.n p) f))) P := h.congr fun f' _ q' hq' => by
    unfold Rem
    rw [List.mem_cons, List.mem_range]
    constructor
    · rintro (rfl | h)
      · exact .inr ⟨rfl, hq'⟩
      · exact .inl h
    · rintro (h | ⟨rfl, -⟩)
      · exact .inr h
      · exact .inl rfl
  have fin : ∀ P, BInv G geo p (Rem fs f []) P → BInv G geo p (fun f' _ => f' ∈ fs) P := fun P h => h.congr fun f' _ q' _ => by simp [Rem]
  unfold stepFace at hs
  obtain ⟨r0, h1, hs⟩ := bind_eq_ok hs
  obtain ⟨r, h2, hs⟩ := bind_eq_ok hs
  have m0 := search_nil _ _ h1
  -- the patches found
  have hr : ∀ a, a ∈ r ↔ (Near G geo p (.centre p f 0) a ∨ ((∀ b, ¬ Near G geo p (.centre p f 0) b) ∧ Near G geo p (.centre p f 1) a)) := by
    intro a
    split at h2
    · rename_i hr0
      have hno : ∀ b, ¬ Near G geo p (.centre p f 0) b := fun b hb => by rw [← m0, hr0] at hb; cases hb
      rw [search_nil _ _ h2]
      exact ⟨fun h => .inr ⟨hno, h⟩, fun h => h.elim (fun h => absurd h (hno a)) fun h => h.2⟩
    · rename_i hr0
      cases h2
      rw [m0]
      refine ⟨.inl, fun h => h.elim id fun h => absurd ?_ hr0⟩
      exact List.eq_nil_iff_forall_not_mem.2 fun b hb => h.1 b ((m0 b).1 hb)
  split at hs
  · rename_i hrn
    obtain ⟨r2, h3, hs⟩ := bind_eq_ok hs
    split at hs
    · rename_i hr2
      cases hs
      have hA : Alone G geo p f := by
        have hno : ∀ a, a ∉ r := fun a ha => by rw [hrn] at ha; cases ha
        have n0 : ∀ a, ¬ Near G geo p (.centre p f 0) a := fun a ha => hno a ((hr a).2 (.inl ha))
        intro s hs a
        have : s = 0 ∨ s = 1 ∨ s = 2 := by omega
        rcases this with rfl | rfl | rfl
        · exact n0 a
        · exact fun ha => hno a ((hr a).2 (.inr ⟨n0, ha⟩))
        · intro ha
          rw [← search_nil _ _ h3, hr2] at ha
          cases ha
      obtain ⟨P1, hP1⟩ : ∃ P1, P1 = if G.innerB p then P else { P with outerB := true } := ⟨_, rfl⟩
      have hB1 : BInv G geo p (Rem fs f (List.range (faceNp (G.n p) f))) P1 := by
        rw [hP1]
        split
        · exact h0
        · exact ⟨⟨h0.inv.stat, h0.inv.keys, h0.inv.num, fun f' hf' s hs => ⟨(h0.inv.sub f' hf' s hs).tied, (h0.inv.sub f' hf' s hs).kind,
            (h0.inv.sub f' hf' s hs).ext, (h0.inv.sub f' hf' s hs).len, (h0.inv.sub f' hf' s hs).ne, (h0.inv.sub f' hf' s hs).face,
            (h0.inv.sub f' hf' s hs).once⟩⟩, h0.fresh, h0.done, h0.cover, h0.flag, h0.bnd⟩
      have hB2 := foldB_inv hb hn fs f hf hfs hA _ P1 List.nodup_range (fun q hq => List.mem_range.1 hq) hB1
      obtain ⟨i1, -, -, i4, i5⟩ := foldB_in (G.innerB p) f (fun q => (basic (G.n p) f q).ind) (List.range (faceNp (G.n p) f)) P1
        (fun q hq => (hB1.inv.stat f hf q (List.mem_range.1 hq)).1)
      have hbd : boundary G p f P = (let Q := (List.range (faceNp (G.n p) f)).foldl (stepB (G.innerB p) f) P1
          if G.innerB p then { Q with fin := fun f' => if f' = f then true else Q.fin f' }
          else { Q with fout := fun f' => if f' = f then true else Q.fout f' }) := by rw [hP1]; rfl
      rw [hbd]
      generalize (List.range (faceNp (G.n p) f)).foldl (stepB (G.innerB p) f) P1 = Q at hB2 i1 i4 i5
      refine fin _ ?_
      have bnd : ∀ f' < 6, (f' = f ∨ (Q.fout f' || Q.fin f') = true) → ∀ q < faceNp (G.n p) f', ∃ s ∈ Q.subs f', (basic (G.n p) f' q).ind ∈ s.id := by
        rintro f' hf' (rfl | hfl) q hq
        · exact i1 q (List.mem_range.2 hq)
        · exact hB2.bnd f' hf' hfl q hq
      dsimp only
      split
      · refine ⟨⟨hB2.inv.stat, hB2.inv.keys, hB2.inv.num, fun f' hf' s hs => ⟨(hB2.inv.sub f' hf' s hs).tied, (hB2.inv.sub f' hf' s hs).kind,
            (hB2.inv.sub f' hf' s hs).ext, (hB2.inv.sub f' hf' s hs).len, (hB2.inv.sub f' hf' s hs).ne, (hB2.inv.sub f' hf' s hs).face,
            (hB2.inv.sub f' hf' s hs).once⟩⟩, hB2.fresh, hB2.done, hB2.cover, hB2.flag, ?_⟩
        intro f' hf' hfl q hq
        refine bnd f' hf' ?_ q hq
        by_cases he : f' = f
        · exact .inl he
        · right; simpa [he] using hfl
      · refine ⟨⟨hB2.inv.stat, hB2.inv.keys, hB2.inv.num, fun f' hf' s hs => ⟨(hB2.inv.sub f' hf' s hs).tied, (hB2.inv.sub f' hf' s hs).kind,
            (hB2.inv.sub f' hf' s hs).ext, (hB2.inv.sub f' hf' s hs).len, (hB2.inv.sub f' hf' s hs).ne, (hB2.inv.sub f' hf' s hs).face,
            (hB2.inv.sub f' hf' s hs).once⟩⟩, hB2.fresh, hB2.done, hB2.cover, hB2.flag, ?_⟩
        intro f' hf' hfl q hq
        refine bnd f' hf' ?_ q hq
        by_cases he : f' = f
        · exact .inl he
        · right; simpa [he] using hfl
    · cases hs
  · split at hs
    · cases hs
    · rename_i c hc
      obtain ⟨c1, c2, -⟩ := best_spec _ _ _ _ hc
      have hO : Opposite geo p f (CentreFace G geo p f) c.1 c.2 := by
        rcases c1 with c1 | c1
        swap
        · cases c1
        simp only [List.mem_flatMap, List.mem_map, List.mem_range] at c1
        obtain ⟨a, ha, g, hg, rfl⟩ := c1
        refine ⟨⟨hg, (hr a).1 ha⟩, ?_⟩
        rintro b x ⟨hx, hbr⟩
        refine c2 (b, x) ?_
        simp only [List.mem_flatMap, List.mem_map, List.mem_range]
        exact ⟨b, (hr b).2 hbr, x, hx, rfl⟩
      exact fin _ (loopPoint_inv hb fs f hf hfs c hO _ P P' List.nodup_range (fun q hq => List.mem_range.1 hq) h0 hs)

/-- subfaces only on faces without neighbours, and the flags of those faces -/
def OnlyB (P : PState) : Prop := ∀ f, P.subs f ≠ [] → (P.fout f || P.fin f) = true

theorem stepFace_only (f : ℕ) (hs : stepFace G geo p P f = .ok P') (h : OnlyB P) : OnlyB P' := by
  unfold stepFace at hs
  obtain ⟨r0, h1, hs⟩ := bind_eq_ok hs
  obtain ⟨r, h2, hs⟩ := bind_eq_ok hs
  split at hs
  · obtain ⟨r2, h3, hs⟩ := bind_eq_ok hs
    split at hs
    · cases hs
      obtain ⟨P1, hP1⟩ : ∃ P1, P1 = if G.innerB p then P else { P with outerB := true } := ⟨_, rfl⟩
      have h1 : OnlyB P1 := by rw [hP1]; split <;> exact h
      have hbd : boundary G p f P = (let Q := (List.range (faceNp (G.n p) f)).foldl (stepB (G.innerB p) f) P1
          if G.innerB p then { Q with fin := fun f' => if f' = f then true else Q.fin f' }
          else { Q with fout := fun f' => if f' = f then true else Q.fout f' }) := by rw [hP1]; rfl
      obtain ⟨-, -, i3, i4, i5⟩ := foldB_in (G.innerB p) f (fun q => (P1.pts f q).ind) (List.range (faceNp (G.n p) f)) P1 (fun q hq => rfl)
      rw [hbd]
      generalize (List.range (faceNp (G.n p) f)).foldl (stepB (G.innerB p) f) P1 = Q at i3 i4 i5
      intro f' hf'
      dsimp only at hf' ⊢
      by_cases he : f' = f
      · split <;> simp [he]
      · have hf2 : P1.subs f' ≠ [] := by
          rw [← i3 f' he]
          split at hf' <;> exact hf'
        have := h1 f' hf2
        rw [← i4, ← i5] at this
        split <;> simpa [he] using this
    · cases hs
  · split at hs
    · cases hs
    · refine loop_inv _ OnlyB _ ?_ P P' h hs
      intro q _ s t hst hq
      unfold stepPoint at hq
      dsimp only at hq
      split at hq
      · cases hq; exact hst
      · obtain ⟨w, -, hq⟩ := bind_eq_ok hq
        cases hq; exact hst
end

/-- the interfaces of patch p between `find_adjacent_scs` and the end of `set_subfaces_scs` -/
structure QInv (G : Grid) (geo : Geo K) (p : ℕ) (P : PState) : Prop where
  inv : PInv G geo p P
  pend : ∀ f < 6, ∀ q < faceNp (G.n p) f, (P.pts f q).houseK = false → Placed G geo p f (P.pts f q)
  cover : ∀ f < 6, ∀ q < faceNp (G.n p) f, Cov (G.n p) (fun _ _ => False) P (basic (G.n p) f q).ind
  bnd : ∀ f < 6, (P.fout f || P.fin f) = true → ∀ q < faceNp (G.n p) f, ∃ s ∈ P.subs f, (basic (G.n p) f q).ind ∈ s.id

theorem findAdjacent_inv (G : Grid) (geo : Geo K) (p : ℕ) (P0 P : PState) (hn : ∀ d < 3, 0 < G.n p d)
    (h0 : initPatch (G.n p) = .ok P0) (h : findAdjacent G geo p P0 = .ok P) : QInv G geo p P ∧ OnlyB P ∧
    (∀ f < 6, ∃ b, basics (G.n p) f = .ok b) := by
  obtain ⟨rfl, hb⟩ := initPatch_ok (G.n p) P0 h0
  have b0 : BInv G geo p (fun f' _ => f' ∈ [5, 4, 3, 2, 1, 0]) ⟨basic (G.n p), fun _ => [], fun _ => false, fun _ => false, false, fun _ => false⟩ := by
    have all : ∀ f, f < 6 → f ∈ [5, 4, 3, 2, 1, 0] := by intro f hf; rcases lt6 hf with rfl | rfl | rfl | rfl | rfl | rfl <;> simp
    refine ⟨⟨?_, ?_, ?_, ?_⟩, ?_, ?_, ?_, ?_, ?_⟩
    · intro f hf q hq
      obtain ⟨i, j, k, -, -, -, h⟩ := basic_of (G.n p) hb hn f q hf hq
      exact ⟨rfl, h⟩
    · intro f; exact List.nodup_nil
    · intro f; trivial
    · intro f _ s hs; cases hs
    · intro f hf q hq _; rfl
    · intro f hf q hq hr; exact absurd (all f hf) hr
    · intro f hf q hq hr; exact absurd (all f hf) hr
    · intro l hl; cases hl
    · intro f hf hfl; cases hfl
  have o0 : OnlyB (⟨basic (G.n p), fun _ => [], fun _ => false, fun _ => false, false, fun _ => false⟩ : PState) := fun f hf => absurd rfl hf
  unfold findAdjacent at h
  obtain ⟨P1, s1, h⟩ := loop_cons_ok _ _ _ _ _ h
  obtain ⟨P2, s2, h⟩ := loop_cons_ok _ _ _ _ _ h
  obtain ⟨P3, s3, h⟩ := loop_cons_ok _ _ _ _ _ h
  obtain ⟨P4, s4, h⟩ := loop_cons_ok _ _ _ _ _ h
  obtain ⟨P5, s5, h⟩ := loop_cons_ok _ _ _ _ _ h
  obtain ⟨P6, s6, h⟩ := loop_cons_ok _ _ _ _ _ h
  cases h
  have b1 := stepFace_inv hb hn [4, 3, 2, 1, 0] 5 (by omega) (by simp) b0 s1
  have b2 := stepFace_inv hb hn [3, 2, 1, 0] 4 (by omega) (by simp) b1 s2
  have b3 := stepFace_inv hb hn [2, 1, 0] 3 (by omega) (by simp) b2 s3
  have b4 := stepFace_inv hb hn [1, 0] 2 (by omega) (by simp) b3 s4
  have b5 := stepFace_inv hb hn [0] 1 (by omega) (by simp) b4 s5
  have b6 := stepFace_inv hb hn [] 0 (by omega) (by simp) b5 s6
  refine ⟨⟨b6.inv, fun f hf q hq hk => b6.done f hf q hq (by simp) hk, fun f hf q hq => ?_, b6.bnd⟩,
    stepFace_only 0 s6 (stepFace_only 1 s5 (stepFace_only 2 s4 (stepFace_only 3 s3 (stepFace_only 4 s2 (stepFace_only 5 s1 o0))))), hb⟩
  exact (b6.cover f hf q hq (by simp)).congr fun _ _ _ _ => by simp

end Elliptica.Iface
