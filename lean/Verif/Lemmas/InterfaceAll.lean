import Verif.Lemmas.InterfaceSet
/-!
The whole of `ri_split_cubed_spherical` (C72, C73).
-/
namespace Elliptica.Iface

variable {K : Type} [Field K] [LinearOrder K]

/-! ### before `set_subfaces_scs` no subface touches another patch -/

def NoTouch (P : PState) : Prop := ∀ f, ∀ s ∈ P.subs f, s.touch = false ∧ s.copy = false

theorem foldB_noTouch (inner : Bool) (f : ℕ) : ∀ (qs : List ℕ) (P : PState), (∀ q, (P.pts f q).touch = false ∧ (P.pts f q).copy = false) →
    NoTouch P → NoTouch (qs.foldl (stepB inner f) P) := by
  intro qs
  induction qs with
  | nil => intro P _ h; exact h
  | cons q qs ih =>
    intro P hp h
    rw [List.foldl_cons]
    obtain ⟨g, hg⟩ : ∃ g : Point → Point, g = fun t => if inner then { t with innerB := true } else { t with outerB := true } := ⟨_, rfl⟩
    have hgt : ∀ t, (g t).touch = t.touch ∧ (g t).copy = t.copy := by intro t; rw [hg]; cases inner <;> exact ⟨rfl, rfl⟩
    have hs : ∀ f', (stepB inner f P q).subs f' = ((P.modify f q g).addAt f q).subs f' := by intro f'; rw [hg]; rfl
    have hpt : ∀ f' q', (stepB inner f P q).pts f' q' = ((P.modify f q g).addAt f q).pts f' q' := by intro f' q'; rw [hg]; rfl
    have hm : ∀ q', ((P.modify f q g).pts f q').touch = false ∧ ((P.modify f q g).pts f q').copy = false := by
      intro q'
      rw [modify_pts]
      split
      · rw [(hgt _).1, (hgt _).2]; exact hp q'
      · exact hp q'
    refine ih _ (fun q' => ?_) ?_
    · rw [hpt, addAt_pts]
      split
      · exact hm q'
      · exact hm q'
    · intro f' s hs'
      rw [hs, addAt_subs] at hs'
      split at hs'
      · rcases mem_addSub _ _ _ _ hs' with hs' | ⟨s0, h0, -, rfl⟩ | ⟨k, rfl⟩
        · exact h f' s hs'
        · exact h f' s0 h0
        · exact hm q
      · exact h f' s hs'

section
variable {G : Grid} {geo : Geo K} {p : ℕ} {P P' : PState}

/-- the points of the faces not visited yet -/
def Blank (f : ℕ) (P : PState) : Prop := ∀ q, (P.pts f q).touch = false ∧ (P.pts f q).copy = false

theorem stepFace_noTouch (f : ℕ) (hs : stepFace G geo p P f = .ok P') (hb : Blank f P) (h : NoTouch P) :
    NoTouch P' ∧ ∀ f', f' ≠ f → Blank f' P → Blank f' P' := by
  unfold stepFace at hs
  obtain ⟨r0, h1, hs⟩ := bind_eq_ok hs
  obtain ⟨r, h2, hs⟩ := bind_eq_ok hs
  split at hs
  · obtain ⟨r2, h3, hs⟩ := bind_eq_ok hs
    split at hs
    · cases hs
      obtain ⟨P1, hP1⟩ : ∃ P1, P1 = if G.innerB p then P else { P with outerB := true } := ⟨_, rfl⟩
      have e1 : P1.pts = P.pts := by rw [hP1]; split <;> rfl
      have e2 : P1.subs = P.subs := by rw [hP1]; split <;> rfl
      have hN : NoTouch P1 := by intro f' s hs; rw [e2] at hs; exact h f' s hs
      have hB : Blank f P1 := by intro q; rw [e1]; exact hb q
      have hF := foldB_noTouch (G.innerB p) f (List.range (faceNp (G.n p) f)) P1 hB hN
      have hO : ∀ (qs : List ℕ) (Q : PState) (f' q' : ℕ), f' ≠ f → (qs.foldl (stepB (G.innerB p) f) Q).pts f' q' = Q.pts f' q' := by
        intro qs
        induction qs with
        | nil => intro Q f' q' _; rfl
        | cons q qs ih =>
          intro Q f' q' hne
          rw [List.foldl_cons, ih _ _ _ hne]
          show ((Q.modify f q _).addAt f q).pts f' q' = _
          rw [addAt_pts, if_neg (fun hx => hne hx.1), modify_pts, if_neg (fun hx => hne hx.1)]
      have hbd : boundary G p f P = (let Q := (List.range (faceNp (G.n p) f)).foldl (stepB (G.innerB p) f) P1
          if G.innerB p then { Q with fin := fun f' => if f' = f then true else Q.fin f' }
          else { Q with fout := fun f' => if f' = f then true else Q.fout f' }) := by rw [hP1]; rfl
      have hO := hO (List.range (faceNp (G.n p) f)) P1
      rw [hbd]
      generalize (List.range (faceNp (G.n p) f)).foldl (stepB (G.innerB p) f) P1 = Q at hF hO
      dsimp only
      split
      · refine ⟨hF, fun f' hne hb' q => ?_⟩
        show (Q.pts f' q).touch = false ∧ (Q.pts f' q).copy = false
        rw [hO f' q hne, e1]; exact hb' q
      · refine ⟨hF, fun f' hne hb' q => ?_⟩
        show (Q.pts f' q).touch = false ∧ (Q.pts f' q).copy = false
        rw [hO f' q hne, e1]; exact hb' q
    · cases hs
  · split at hs
    · cases hs
    · refine loop_inv _ (fun Q => NoTouch Q ∧ ∀ f', f' ≠ f → Blank f' P → Blank f' Q) _ ?_ P P' ⟨h, fun _ _ hb' => hb'⟩ hs
      intro q _ s t hst hq
      unfold stepPoint at hq
      dsimp only at hq
      split at hq
      · cases hq
        refine ⟨hst.1, fun f' hne hb' q' => ?_⟩
        rw [modify_pts, if_neg (fun hx => hne hx.1)]
        exact hst.2 f' hne hb' q'
      · obtain ⟨w, -, hq⟩ := bind_eq_ok hq
        cases hq
        refine ⟨hst.1, fun f' hne hb' q' => ?_⟩
        show ((s.modify f q fun t => t.put w).pts f' q').touch = false ∧ ((s.modify f q fun t => t.put w).pts f' q').copy = false
        rw [modify_pts, if_neg (fun hx => hne hx.1)]
        exact hst.2 f' hne hb' q'

theorem loopFace_noTouch : ∀ (fs : List ℕ) (P P' : PState), fs.Nodup → (∀ f ∈ fs, Blank f P) → NoTouch P →
    loop (stepFace G geo p) fs P = .ok P' → NoTouch P' := by
  intro fs
  induction fs with
  | nil => intro P P' _ _ h hl; cases hl; exact h
  | cons f fs ih =>
    intro P P' hd hb h hl
    obtain ⟨u, h1, h2⟩ := loop_cons_ok _ _ _ _ _ hl
    obtain ⟨a, b⟩ := stepFace_noTouch f h1 (hb f (List.mem_cons_self ..)) h
    rw [List.nodup_cons] at hd
    refine ih u P' hd.2 (fun f' hf' => b f' ?_ (hb f' (List.mem_cons_of_mem _ hf'))) a h2
    rintro rfl
    exact hd.1 hf'

theorem findAdjacent_noTouch {P0 : PState} (h0 : initPatch (G.n p) = .ok P0) (h : findAdjacent G geo p P0 = .ok P) : NoTouch P := by
  obtain ⟨rfl, hb⟩ := initPatch_ok (G.n p) P0 h0
  refine loopFace_noTouch [5, 4, 3, 2, 1, 0] _ _ (by decide) ?_ ?_ h
  · intro f hf q
    have hf6 : f < 6 := by
      simp only [List.mem_cons, List.not_mem_nil, or_false] at hf; omega
    obtain ⟨i, x, e, hx⟩ := basic_rest (G.n p) hb f hf6 q
    show (basic (G.n p) f q).touch = false ∧ (basic (G.n p) f q).copy = false
    rw [hx]
    exact ⟨rfl, rfl⟩
  · intro f s hs
    cases hs
end

/-! ### the first part of the program -/

/-- 57-79 -/
def scan (G : Grid) (geo : Geo K) : Res (ℕ → PState) :=
  loop (fun (S : ℕ → PState) p => (initPatch (G.n p)).bind fun P => (findAdjacent G geo p P).bind fun P =>
      .ok fun p' => if p' = p then P else S p') (List.range G.np) fun _ => ⟨fun _ _ => Point.zero, fun _ => [], fun _ => false, fun _ => false, false, fun _ => false⟩

theorem loop_set (h : ℕ → Res PState) : ∀ (l : List ℕ) (S T : ℕ → PState) (D : List ℕ), (∀ p ∈ D, h p = .ok (S p)) →
    loop (fun (S : ℕ → PState) p => (h p).bind fun P => .ok fun p' => if p' = p then P else S p') l S = .ok T →
    ∀ p ∈ D ++ l, h p = .ok (T p) := by
  intro l
  induction l with
  | nil => intro S T D hD hl; cases hl; simpa using hD
  | cons a l ih =>
    intro S T D hD hl p hp
    obtain ⟨u, h1, h2⟩ := loop_cons_ok _ _ _ _ _ hl
    obtain ⟨P, h3, h4⟩ := bind_eq_ok h1
    cases h4
    refine ih _ T (D ++ [a]) ?_ h2 p (by simpa using hp)
    intro p' hp'
    by_cases he : p' = a
    · rw [if_pos he, he]; exact h3
    · rw [if_neg he]
      rcases List.mem_append.1 hp' with hp' | hp'
      · exact hD p' hp'
      · exact absurd (List.mem_singleton.1 hp') he

theorem scan_ok (G : Grid) (geo : Geo K) (S : ℕ → PState) (h : scan G geo = .ok S) (p : ℕ) (hp : p < G.np) :
    ∃ P0, initPatch (G.n p) = .ok P0 ∧ findAdjacent G geo p P0 = .ok (S p) := by
  have e : scan G geo = loop (fun (S : ℕ → PState) p => ((initPatch (G.n p)).bind fun P => findAdjacent G geo p P).bind fun P =>
      .ok fun p' => if p' = p then P else S p') (List.range G.np) fun _ => ⟨fun _ _ => Point.zero, fun _ => [], fun _ => false, fun _ => false, false, fun _ => false⟩ := by
    unfold scan
    congr 1
    funext S p
    cases initPatch (G.n p) <;> rfl
  rw [e] at h
  have := loop_set (fun p => (initPatch (G.n p)).bind fun P => findAdjacent G geo p P) _ _ S [] (by simp) h p (by simpa using hp)
  exact bind_eq_ok this

/-- a face without neighbours has a subface on the boundary -/
def HasB (G : Grid) (S : ℕ → PState) : Prop := ∀ p < G.np, ∀ f < 6, ((S p).fout f || (S p).fin f) = true → ∃ s ∈ (S p).subs f, s.touch = false

theorem face_pos (n : ℕ → ℕ) (hn : ∀ d < 3, 0 < n d) (f : ℕ) (hf : f < 6) : 0 < faceNp n f := by
  have h0 := hn 0 (by omega); have h1 := hn 1 (by omega); have h2 := hn 2 (by omega)
  rcases lt6 hf with rfl | rfl | rfl | rfl | rfl | rfl <;> simp only [faceNp, box] <;> exact Nat.mul_pos ‹_› ‹_›

theorem scan_inv (G : Grid) (geo : Geo K) (hG : G.Proper) (S : ℕ → PState) (h : scan G geo = .ok S) :
    CInv G geo S ∧ HasB G S ∧ ∀ p < G.np, ∀ f < 6, ∃ b, basics (G.n p) f = .ok b := by
  have none : ∀ p < G.np, ∀ f a g, pairsOf ((S p).subs f) (ckey a g) = [] := by
    intro p hp f a g
    obtain ⟨P0, h1, h2⟩ := scan_ok G geo S h p hp
    unfold pairsOf
    cases hl : look ((S p).subs f) (ckey a g) with
    | none => rfl
    | some s =>
      obtain ⟨q, -, -⟩ := findAdjacent_inv G geo p P0 (S p) (hG p hp) h1 h2
      by_cases hf : f < 6
      · have nt := findAdjacent_noTouch h1 h2 f s (look_mem hl)
        have k := look_key hl
        rw [(q.inv.sub f hf s (look_mem hl)).tied] at k
        rw [nt.1] at k
        exact absurd (Key.mk.inj k).1 (by simp)
      · have ob := (findAdjacent_inv G geo p P0 (S p) (hG p hp) h1 h2).2.1
        -- no subfaces there
        exfalso
        have nt := findAdjacent_noTouch h1 h2 f s (look_mem hl)
        have k := look_key hl
        have hT : ∀ f, ∀ s ∈ (S p).subs f, s.key.touch = s.touch := by
          have := h2
          clear hl k nt
          unfold findAdjacent at this
          obtain ⟨rfl, hb⟩ := initPatch_ok (G.n p) P0 h1
          refine loop_inv _ (fun (Q : PState) => ∀ f, ∀ s ∈ Q.subs f, s.key.touch = s.touch) _ ?_ _ _ (fun f s hs => by cases hs) this
          intro f _ Q Q' hQ hs
          unfold stepFace at hs
          obtain ⟨r0, h1, hs⟩ := bind_eq_ok hs
          obtain ⟨r, h2, hs⟩ := bind_eq_ok hs
          split at hs
          · obtain ⟨r2, h3, hs⟩ := bind_eq_ok hs
            split at hs
            · cases hs
              have hst : ∀ (qs : List ℕ) (Q : PState), (∀ f, ∀ s ∈ Q.subs f, s.key.touch = s.touch) →
                  ∀ f', ∀ s ∈ (qs.foldl (stepB (G.innerB p) f) Q).subs f', s.key.touch = s.touch := by
                intro qs
                induction qs with
                | nil => intro Q h; exact h
                | cons q qs ih =>
                  intro Q h
                  refine ih _ ?_
                  intro f' s hs
                  have hs : s ∈ ((Q.modify f q fun t => if G.innerB p then { t with innerB := true } else { t with outerB := true }).addAt f q).subs f' := hs
                  rw [addAt_subs] at hs
                  split at hs
                  · rcases mem_addSub _ _ _ _ hs with hs | ⟨s0, h0, -, rfl⟩ | ⟨k, rfl⟩
                    · exact h f' s hs
                    · exact h f' s0 h0
                    · show (Point.key _).touch = _
                      rw [key_eq]
                      rfl
                  · exact h f' s hs
              intro f' s hs
              unfold boundary at hs
              dsimp only at hs
              split at hs
              · exact hst _ _ hQ f' s hs
              · exact hst _ { Q with outerB := true } hQ f' s hs
            · cases hs
          · split at hs
            · cases hs
            · refine loop_inv _ (fun (Q : PState) => ∀ f, ∀ s ∈ Q.subs f, s.key.touch = s.touch) _ ?_ Q Q' hQ hs
              intro q _ s t hst hq
              unfold stepPoint at hq
              dsimp only at hq
              split at hq
              · cases hq; exact hst
              · obtain ⟨w, -, hq⟩ := bind_eq_ok hq
                cases hq; exact hst
        have := hT f s (look_mem hl)
        rw [k, nt.1] at this
        cases this
  refine ⟨⟨?_, ?_, .inr ⟨?_, ?_⟩⟩, ?_, ?_⟩
  · intro p hp
    obtain ⟨P0, h1, h2⟩ := scan_ok G geo S h p hp
    exact (findAdjacent_inv G geo p P0 (S p) (hG p hp) h1 h2).1
  · intro p hp f s hs _
    obtain ⟨P0, h1, h2⟩ := scan_ok G geo S h p hp
    exact (findAdjacent_inv G geo p P0 (S p) (hG p hp) h1 h2).2.1 f (List.ne_nil_of_mem hs)
  · intro p hp f hf a ha g hg
    rw [none p hp, none a ha]
    rfl
  · intro _ p hp f hf a ha g hg
    rw [none p hp]
    exact List.nodup_nil
  · intro p hp f hf hfl
    obtain ⟨P0, h1, h2⟩ := scan_ok G geo S h p hp
    obtain ⟨q, -, -⟩ := findAdjacent_inv G geo p P0 (S p) (hG p hp) h1 h2
    obtain ⟨s, hs, -⟩ := q.bnd f hf hfl 0 (face_pos _ (hG p hp) f hf)
    exact ⟨s, hs, (findAdjacent_noTouch h1 h2 f s hs).1⟩
  · intro p hp
    obtain ⟨P0, h1, h2⟩ := scan_ok G geo S h p hp
    exact (findAdjacent_inv G geo p P0 (S p) (hG p hp) h1 h2).2.2

/-! ### `set_subfaces_scs` -/

theorem stepSet_keeps (S : ℕ → PState) (x : ℕ × ℕ × ℕ) (p : ℕ) : (stepSet S x p).fout = (S p).fout ∧ (stepSet S x p).fin = (S p).fin ∧
    ∀ f, ∀ s ∈ (S p).subs f, ∃ s' ∈ (stepSet S x p).subs f, s'.touch = s.touch := by
  have own : ∀ (P : PState) f q f' s, s ∈ P.subs f' → ∃ s' ∈ (P.addAt f q).subs f', s'.touch = s.touch := by
    intro P f q f' s hs
    obtain ⟨s', h1, h2, -⟩ := addAt_keeps P f q f' s hs
    exact ⟨s', h1, h2⟩
  obtain ⟨g, hg⟩ : ∃ g : PState → PState, g = fun P => if p = x.1 then P.addAt x.2.1 x.2.2 else P := ⟨_, rfl⟩
  have g1 : (g (S p)).fout = (S p).fout ∧ (g (S p)).fin = (S p).fin ∧ ∀ f, ∀ s ∈ (S p).subs f, ∃ s' ∈ (g (S p)).subs f, s'.touch = s.touch := by
    rw [hg]
    dsimp only
    split
    · exact ⟨rfl, rfl, fun f s hs => own _ _ _ f s hs⟩
    · exact ⟨rfl, rfl, fun f s hs => ⟨s, hs, rfl⟩⟩
  unfold stepSet
  dsimp only
  split
  · exact ⟨rfl, rfl, fun f s hs => ⟨s, hs, rfl⟩⟩
  · have e : (if p = x.1 then (S p).addAt x.2.1 x.2.2 else S p) = g (S p) := by rw [hg]
    split
    · simp only [e]
      split
      · refine ⟨g1.1, g1.2.1, fun f s hs => ?_⟩
        obtain ⟨s', h1, h2⟩ := g1.2.2 f s hs
        obtain ⟨s2, h3, h4⟩ := own ((g (S p)).modify ((S x.1).pts x.2.1 x.2.2).adjFace ((S x.1).pts x.2.1 x.2.2).adjIndF fun u => { u with
          touch := true, copy := true, adjFace := x.2.1, adj := x.1, adjInd := ((S x.1).pts x.2.1 x.2.2).ind }) ((S x.1).pts x.2.1 x.2.2).adjFace ((S x.1).pts x.2.1 x.2.2).adjIndF f s' h1
        exact ⟨s2, h3, h4.trans h2⟩
      · exact g1
    · simp only [e]
      exact g1

theorem setSubfaces_inv (G : Grid) (geo : Geo K) (hG : G.Proper) (hb : ∀ p < G.np, ∀ f < 6, ∃ b, basics (G.n p) f = .ok b) (S : ℕ → PState)
    (h : CInv G geo S) (hB : HasB G S) : CInv G geo (setSubfaces G S) ∧ HasB G (setSubfaces G S) := by
  unfold setSubfaces
  have hm : ∀ x ∈ ((List.range G.np).flatMap fun p => (List.range 6).flatMap fun f => (List.range (faceNp (G.n p) f)).map fun q => (p, f, q)),
      x.1 < G.np ∧ x.2.1 < 6 ∧ x.2.2 < faceNp (G.n x.1) x.2.1 := by
    intro x hx
    simp only [List.mem_flatMap, List.mem_map, List.mem_range] at hx
    obtain ⟨p, hp, f, hf, q, hq, rfl⟩ := hx
    exact ⟨hp, hf, hq⟩
  generalize ((List.range G.np).flatMap fun p => (List.range 6).flatMap fun f => (List.range (faceNp (G.n p) f)).map fun q => (p, f, q)) = l at hm
  induction l generalizing S with
  | nil => exact ⟨h, hB⟩
  | cons x l ih =>
    rw [List.foldl_cons]
    obtain ⟨h1, h2, h3⟩ := hm x (List.mem_cons_self ..)
    refine ih (stepSet S x) (stepSet_inv G geo hG hb S h x.1 x.2.1 x.2.2 h1 h2 h3) ?_ (fun y hy => hm y (List.mem_cons_of_mem _ hy))
    intro p hp f hf hfl
    obtain ⟨k1, k2, k3⟩ := stepSet_keeps S x p
    rw [k1, k2] at hfl
    obtain ⟨s, hs, ht⟩ := hB p hp f hf hfl
    obtain ⟨s', hs', ht'⟩ := k3 f s hs
    exact ⟨s', hs', ht'.trans ht⟩

/-! ### the order of the faces -/

theorem swap_has (N : ℕ) (r : ℕ → Rank) (i j : ℕ) (hi : i < N) (hj : j < N) (x : Rank) (h : ∃ k < N, r k = x) : ∃ k < N, swap r i j k = x := by
  obtain ⟨k, hk, rfl⟩ := h
  unfold swap
  split
  · by_cases h1 : k = i
    · by_cases hij : j = i
      · exact ⟨i, hi, by simp only [if_true]; rw [h1, hij]⟩
      · exact ⟨j, hj, by simp only [if_neg hij, if_true]; rw [h1]⟩
    · by_cases h2 : k = j
      · exact ⟨i, hi, by simp only [if_true]; rw [h2]⟩
      · exact ⟨k, hk, by simp only [if_neg h1, if_neg h2]⟩
  · exact ⟨k, hk, rfl⟩

theorem rank_has (N : ℕ) (r : ℕ → Rank) (x : Rank) (h : ∃ k < N, r k = x) : ∃ k < N, rank N r k = x := by
  unfold rank
  have inner : ∀ (js : List ℕ) (i : ℕ) (r : ℕ → Rank), i < N → (∀ j ∈ js, j < N) → (∃ k < N, r k = x) →
      ∃ k < N, js.foldl (fun r j => swap r i j) r k = x := by
    intro js
    induction js with
    | nil => intro i r _ _ h; exact h
    | cons j js ih =>
      intro i r hi hj h
      exact ih i _ hi (fun j' hj' => hj j' (List.mem_cons_of_mem _ hj')) (swap_has N r i j hi (hj j (List.mem_cons_self ..)) x h)
  have outer : ∀ (is : List ℕ) (r : ℕ → Rank), (∀ i ∈ is, i < N) → (∃ k < N, r k = x) →
      ∃ k < N, is.foldl (fun r i => (List.range' (i + 1) (N - (i + 1))).foldl (fun r j => swap r i j) r) r k = x := by
    intro is
    induction is with
    | nil => intro r _ h; exact h
    | cons i is ih =>
      intro r hi h
      refine ih _ (fun i' hi' => hi i' (List.mem_cons_of_mem _ hi')) (inner _ i r (hi i (List.mem_cons_self ..)) ?_ h)
      intro j hj
      rw [List.mem_range'_1] at hj
      omega
  exact outer _ r (fun i hi => List.mem_range.1 hi) h

theorem order_all (G : Grid) (S : ℕ → PState) (p f : ℕ) (hp : p < G.np) (hf : f < 6) : (p, f) ∈ order G S := by
  unfold order
  refine List.mem_append_right _ ?_
  obtain ⟨k, hk, h⟩ := rank_has (G.np * 6) (frank S) (frank S (6 * p + f)) ⟨6 * p + f, by omega, rfl⟩
  refine List.mem_map.2 ⟨k, List.mem_range.2 hk, ?_⟩
  rw [h]
  unfold frank
  have e1 : (6 * p + f) / 6 = p := by omega
  have e2 : (6 * p + f) % 6 = f := by omega
  rw [e1, e2]

theorem loop_each {σ α : Type} (g : σ → α → Res σ) (l : List α) (s t : σ) (h : loop g l s = .ok t) (a : α) (ha : a ∈ l) :
    ∃ u v, g u a = .ok v := by
  induction l generalizing s with
  | nil => cases ha
  | cons b l ih =>
    obtain ⟨u, h1, h2⟩ := loop_cons_ok _ _ _ _ _ h
    rcases List.mem_cons.1 ha with rfl | ha
    · exact ⟨s, u, h1⟩
    · exact ih u h2 ha

/-! ### the result -/

/-- what happens to a subface after `set_subfaces_scs` -/
def last (S : ℕ → PState) (c : BC) (p f : ℕ) (s : Sub) : Sub :=
  miscSub (if s.touch then { s with adjsn := ((findSub S s).map (·.sn)).getD 0, dfdn := (c.dn p f).getD false } else s)

theorem last_flags (S : ℕ → PState) (c : BC) (p f : ℕ) (s : Sub) : (last S c p f s).touch = s.touch ∧ (last S c p f s).copy = s.copy ∧
    (last S c p f s).exterF = s.exterF ∧ (last S c p f s).outerB = s.outerB ∧ (last S c p f s).innerB = s.innerB ∧
    (last S c p f s).id = s.id ∧ (last S c p f s).adjid = s.adjid ∧ (last S c p f s).same = s.same ∧ (last S c p f s).sn = s.sn ∧
    ((s.outerB || s.innerB) = false → (last S c p f s).adj = s.adj ∧ (last S c p f s).adjFace = s.adjFace) ∧
    (s.touch = true → (last S c p f s).dfdn = (c.dn p f).getD false) := by
  obtain ⟨key, sn, adjsn, adjFace, adj, same, touch, copy, exterF, outerB, innerB, dfdn, id, adjid⟩ := s
  unfold last miscSub
  cases touch <;> cases outerB <;> cases innerB <;> simp

/-- the state T handed to `test_subfaces`; S is the one after `set_subfaces_scs` -/
structure Pre (G : Grid) (geo : Geo K) (S : ℕ → PState) (c : BC) (T : ℕ → PState) : Prop where
  inv : CInv G geo S
  hasB : HasB G S
  basics : ∀ p < G.np, ∀ f < 6, ∃ b, basics (G.n p) f = .ok b
  subs : ∀ p f, (T p).subs f = ((S p).subs f).map (last S c p f)
  pts : ∀ p, (T p).pts = (S p).pts
  fout : ∀ p, (T p).fout = (S p).fout
  fin : ∀ p, (T p).fin = (S p).fin
  set : ∀ p < G.np, ∀ f < 6, ((S p).fout f || (S p).fin f) = true → ((S p).subs f).length = 1
  dn : ∀ p < G.np, ∀ f < 6, ∀ s ∈ (S p).subs f, s.touch = true → (c.dn p f).isSome = true
  found : ∀ p < G.np, ∀ f < 6, ∀ s ∈ (S p).subs f, s.touch = true → (findSub S s).isSome = true

theorem pre_result (G : Grid) (geo : Geo K) (hG : G.Proper) (S0 S3 T : ℕ → PState) (h0 : scan G geo = .ok S0)
    (h1 : pairAndBc G (setSubfaces G S0) = .ok S3) (h2 : misc G S3 = .ok T) : ∃ S c, Pre G geo S c T := by
  obtain ⟨i0, b0, hb⟩ := scan_inv G geo hG S0 h0
  obtain ⟨i1, b1⟩ := setSubfaces_inv G geo hG hb S0 i0 b0
  generalize setSubfaces G S0 = S at h1 i1 b1
  unfold pairAndBc at h1
  obtain ⟨S2, hp, h1⟩ := bind_eq_ok h1
  obtain ⟨c, hc, h1⟩ := bind_eq_ok h1
  have mall : ∀ p < G.np, ∀ f < 6, ∀ s ∈ (S p).subs f, s ∈ allSubs G S := by
    intro p hp f hf s hs
    simp only [allSubs, List.mem_flatMap, List.mem_range]
    exact ⟨p, hp, f, hf, hs⟩
  have rng : ∀ (N : ℕ) (P : ℕ → Bool), (List.range N).all P = true ↔ ∀ i < N, P i = true := by
    intro N P; simp [List.all_eq_true, List.mem_range]
  -- pairing
  unfold pair at hp
  split at hp
  swap
  · cases hp
  rename_i hfound
  cases hp
  rw [List.all_eq_true] at hfound
  -- the flag of the subfaces
  unfold putDn at h1
  split at h1
  swap
  · cases h1
  rename_i hdn
  cases h1
  rw [rng] at hdn
  -- misc
  unfold misc at h2
  split at h2
  swap
  · cases h2
  cases h2
  refine ⟨S, c, ?_⟩
  have hsub : ∀ p f, ((mapSubs miscSub fun p => { mapSubs (fun s => if s.touch then { s with adjsn := ((findSub S s).map (·.sn)).getD 0 } else s) S p with
      subs := fun f => ((mapSubs (fun s => if s.touch then { s with adjsn := ((findSub S s).map (·.sn)).getD 0 } else s) S p).subs f).map fun s =>
        if s.touch then { s with dfdn := (c.dn p f).getD false } else s }) p).subs f = ((S p).subs f).map (last S c p f) := by
    intro p f
    simp only [mapSubs, List.map_map]
    refine List.map_congr_left fun s _ => ?_
    simp only [Function.comp, last]
    cases ht : s.touch
    · simp [ht]
    · simp
  refine ⟨i1, b1, hb, hsub, fun p => rfl, fun p => rfl, fun p => rfl, ?_, ?_, ?_⟩
  · intro p hp f hf hfl
    obtain ⟨u, v, hv⟩ := loop_each _ _ _ _ hc (p, f) (order_all G _ p f hp hf)
    unfold setFace at hv
    dsimp only at hv
    split at hv
    · split at hv
      · rename_i hl
        simpa [mapSubs] using hl
      · cases hv
    · rename_i hx
      exact absurd hfl hx
  · intro p hp f hf s hs ht
    have := hdn p hp
    rw [rng] at this
    have := this f hf
    rw [List.all_eq_true] at this
    have := this (if s.touch then { s with adjsn := ((findSub S s).map (·.sn)).getD 0 } else s) (List.mem_map.2 ⟨s, hs, rfl⟩)
    rw [if_pos ht] at this
    simpa [ht] using this
  · intro p hp f hf s hs ht
    have := hfound s (mall p hp f hf s hs)
    simpa [ht] using this

structure Result (G : Grid) (geo : Geo K) (S : ℕ → PState) (c : BC) (T : ℕ → PState) : Prop extends Pre G geo S c T where
  house : ∀ p < G.np, ∀ f < 6, ∀ q < faceNp (G.n p) f, ((S p).pts f q).houseK = true
  flags : ∀ p < G.np, ∀ f < 6, ∀ s ∈ (T p).subs f, flagsOk p s = true
  pair : ∀ p < G.np, ∀ f < 6, ∀ s ∈ (T p).subs f, pairOk T s = .ok ()
  notN : ∀ p < G.np, notAllN (T p) = true

theorem realize_result (G : Grid) (geo : Geo K) (hG : G.Proper) (T : ℕ → PState) (h : realize G geo = .ok T) :
    ∃ S c, Result G geo S c T := by
  unfold realize at h
  obtain ⟨S0, h0, h⟩ := bind_eq_ok h
  obtain ⟨S3, h1, h⟩ := bind_eq_ok h
  obtain ⟨S4, h2, h⟩ := bind_eq_ok h
  obtain ⟨u, h3, h⟩ := bind_eq_ok h
  cases h
  obtain ⟨S, c, pre⟩ := pre_result G geo hG S0 S3 T h0 h1 h2
  refine ⟨S, c, ⟨pre, ?_, ?_, ?_, ?_⟩⟩
  all_goals
    unfold test at h3
    split at h3
    · cases h3
    rename_i t1
    split at h3
    · cases h3
    rename_i t2
    obtain ⟨u1, t3, t4⟩ := bind_eq_ok h3
    split at t4
    swap
    · cases t4
    rename_i t5
    have rng : ∀ (N : ℕ) (P : ℕ → Bool), (List.range N).all P = true ↔ ∀ i < N, P i = true := by
      intro N P; simp [List.all_eq_true, List.mem_range]
    simp only [Bool.not_eq_true, Bool.not_eq_false'] at t1 t2
    rw [rng] at t1 t2 t5
  · intro p hp f hf q hq
    have := t1 p hp
    rw [rng] at this
    have := this f hf
    rw [rng] at this
    rw [← pre.pts]
    exact this q hq
  · intro p hp f hf s hs
    have := t2 p hp
    rw [rng] at this
    have := this f hf
    rw [List.all_eq_true] at this
    exact this s hs
  · intro p hp f hf s hs
    have : s ∈ allSubs G T := by
      simp only [allSubs, List.mem_flatMap, List.mem_range]
      exact ⟨p, hp, f, hf, hs⟩
    obtain ⟨u, v, hv⟩ := loop_each _ _ _ _ t3 s this
    exact hv
  · exact t5

section
variable {G : Grid} {geo : Geo K} {S T : ℕ → PState} {c : BC}

theorem Pre.of_mem (h : Pre G geo S c T) {p f : ℕ} {s : Sub} (hs : s ∈ (T p).subs f) : ∃ s0 ∈ (S p).subs f, s = last S c p f s0 := by
  rw [h.subs] at hs
  obtain ⟨s0, h0, rfl⟩ := List.mem_map.1 hs
  exact ⟨s0, h0, rfl⟩

theorem Pre.mem (h : Pre G geo S c T) {p f : ℕ} {s : Sub} (hs : s ∈ (S p).subs f) : last S c p f s ∈ (T p).subs f := by
  rw [h.subs]
  exact List.mem_map.2 ⟨s, hs, rfl⟩

theorem notBad (h : Pre G geo S c T) (hf : ∀ p < G.np, ∀ f < 6, ∀ s ∈ (T p).subs f, flagsOk p s = true) {p f : ℕ} (hp : p < G.np) (hf6 : f < 6) {s : Sub} (hs : s ∈ (S p).subs f) (ht : s.touch = true) :
    s.outerB = false ∧ s.innerB = false := by
  have := hf p hp f hf6 _ (h.mem hs)
  obtain ⟨l1, -, -, l4, l5, -⟩ := last_flags S c p f s
  unfold flagsOk at this
  rw [l1, l4, l5, ht] at this
  simp only [Bool.and_true, Bool.and_eq_true, Bool.not_eq_true'] at this
  exact ⟨this.1.1.1.1.1.1.1.1.2, this.1.1.1.1.1.1.1.2⟩

/-- what the touching subfaces are connected to -/
theorem touch_adj (h : Pre G geo S c T) (hf : ∀ p < G.np, ∀ f < 6, ∀ s ∈ (T p).subs f, flagsOk p s = true) {p f : ℕ} (hp : p < G.np) (hf6 : f < 6) {s : Sub} (hs : s ∈ (S p).subs f) (ht : s.touch = true) :
    s.adj < G.np ∧ s.adj ≠ p ∧ s.adjFace < 6 := by
  have o := (h.inv.q p hp).inv.sub f hf6 s hs
  obtain ⟨n1, n2⟩ := notBad h hf hp hf6 hs ht
  rcases o.kind with k | k | k | k
  · rw [ht] at k; exact absurd k.1 (by simp)
  · obtain ⟨l, hl⟩ := List.exists_mem_of_ne_nil _ o.ne
    exact (k.2.2.2.2.2 l hl).1.facts
  · exact k.2.2.2.2.1
  · rw [n1, n2] at k; exact absurd k.2.2 (by simp)

theorem pair_get (h : Pre G geo S c T) (hf : ∀ p < G.np, ∀ f < 6, ∀ s ∈ (T p).subs f, flagsOk p s = true) {p f : ℕ} (hp : p < G.np) (hf6 : f < 6) {s : Sub} (hs : s ∈ (S p).subs f) (ht : s.touch = true) :
    ∃ t ∈ (S s.adj).subs s.adjFace, findSub S s = some t ∧ ((T s.adj).subs s.adjFace)[t.sn]? = some (last S c s.adj s.adjFace t) := by
  obtain ⟨t, htt⟩ := Option.isSome_iff_exists.1 (h.found p hp f hf6 s hs ht)
  have hm : t ∈ (S s.adj).subs s.adjFace := by
    have := htt
    unfold findSub at this
    split at this
    · split at this
      · cases this
      · exact List.mem_of_find?_eq_some this
    · exact List.mem_of_find?_eq_some this
  refine ⟨t, hm, htt, ?_⟩
  obtain ⟨i, hi, he⟩ := List.getElem_of_mem hm
  have ha := (touch_adj h hf hp hf6 hs ht).1
  have hi2 : ((S s.adj).subs s.adjFace)[i]? = some t := by rw [List.getElem?_eq_getElem hi, he]
  have hn := ((h.inv.q s.adj ha).inv.num s.adjFace).get hi2
  rw [h.subs, List.getElem?_map, hn, Nat.zero_add, hi2]
  rfl
end

end Elliptica.Iface
