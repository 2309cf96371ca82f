import Verif.Model.Assemble
import Verif.Props.SchurUpdate
/-!
C81: the assembly of the subdomain equations puts the equation of every node into its own row.
-/
namespace Elliptica.Schur
open Mat

variable {K : Type} [Field K]

theorem fold_upd {P : Type} [DecidableEq P] (key : Nat → P) (val : Nat → K) (hk : ∀ a b, key a = key b → a = b) (l : List Nat) (m : P → K) (p : P) :
    ((∃ s ∈ l, key s = p ∧ l.foldl (fun f s => upd f (key s) (val s)) m p = val s) ∨
      ((∀ s ∈ l, key s ≠ p) ∧ l.foldl (fun f s => upd f (key s) (val s)) m p = m p)) := by
  induction l generalizing m with
  | nil => exact Or.inr ⟨by simp, rfl⟩
  | cons a l ih =>
    rw [List.foldl_cons]
    rcases ih (upd m (key a) (val a)) with ⟨s, hs, h1, h2⟩ | ⟨h1, h2⟩
    · exact Or.inl ⟨s, List.mem_cons_of_mem _ hs, h1, h2⟩
    · by_cases h : key a = p
      · exact Or.inl ⟨a, List.mem_cons_self .., h, by rw [h2]; simp [upd, h]⟩
      · refine Or.inr ⟨?_, ?_⟩
        · intro s hs
          rcases List.mem_cons.1 hs with rfl | hs
          · exact h
          · exact h1 s hs
        · rw [h2]; simp [upd, Ne.symm h]

theorem eqF_eq (inv : List Nat) (Oi : Nat) (F f : Nat → K) (s : Nat) :
    eqF inv Oi F f s = if s < Oi then F (inv.getD s 0) else f s := by
  unfold eqF
  rcases fold_upd (fun s => s) (fun s => F (inv.getD s 0)) (fun _ _ h => h) (List.range Oi) f s with ⟨a, ha, h1, h2⟩ | ⟨h1, h2⟩
  · subst h1
    rw [if_pos (List.mem_range.1 ha)]; exact h2
  · rw [if_neg (fun h => h1 s (List.mem_range.2 h) rfl)]; exact h2

theorem bcF_spec (map : Nat → Option Nat) (G : Nat → K) (inv : List Nat) (hm : ∀ q j, map q = some j ↔ inv[j]? = some q)
    (l : List Nat) (f : Nat → K) (hl : ∀ t ∈ l, ∃ j, map t = some j) :
    ∃ f', bcF map G l f = .ok f' ∧ ∀ s, f' s = if inv.getD s 0 ∈ l ∧ s < inv.length then G (inv.getD s 0) else f s := by
  induction l generalizing f with
  | nil => exact ⟨f, rfl, fun s => by simp⟩
  | cons t ts ih =>
    obtain ⟨j, hj⟩ := hl t (List.mem_cons_self ..)
    obtain ⟨f', h1, h2⟩ := ih (upd f j (G t)) (fun t ht => hl t (List.mem_cons_of_mem _ ht))
    refine ⟨f', by simp only [bcF, hj]; exact h1, fun s => ?_⟩
    rw [h2 s]
    have hjt := (hm t j).1 hj
    by_cases hs : s < inv.length
    · have hg : inv[s]? = some (inv.getD s 0) := by simp [List.getD, List.getElem?_eq_getElem hs]
      by_cases ha : inv.getD s 0 ∈ ts
      · rw [if_pos ⟨ha, hs⟩, if_pos ⟨List.mem_cons_of_mem _ ha, hs⟩]
      · rw [if_neg (fun h => ha h.1)]
        by_cases hb : inv.getD s 0 = t
        · have : s = j := by
            have := (hm t s).2 (by rw [hg, hb])
            rw [hj] at this; exact (Option.some.inj this).symm
          subst this
          rw [if_pos ⟨by rw [hb]; exact List.mem_cons_self .., hs⟩]
          rw [hb]; simp [upd]
        · rw [if_neg (by rintro ⟨h, -⟩; rcases List.mem_cons.1 h with h | h; exacts [hb h, ha h])]
          have : s ≠ j := by
            rintro rfl
            rw [hg] at hjt; exact hb (Option.some.inj hjt)
          simp [upd, this]
    · rw [if_neg (fun h => hs h.2), if_neg (fun h => hs h.2)]
      have : s ≠ j := by
        rintro rfl
        rw [List.getElem?_eq_none (by omega)] at hjt; cases hjt
      simp [upd, this]

theorem bcAll_spec (map : Nat → Option Nat) (G : Nat → K) (inv : List Nat) (hm : ∀ q j, map q = some j ↔ inv[j]? = some q)
    (sfs : List SubFace) (f : Nat → K) (hl : ∀ t, OnBoundary sfs t → ∃ j, map t = some j) :
    ∃ f', bcAll map (some G) sfs f = .ok f' ∧
      ∀ s, (OnBoundary sfs (inv.getD s 0) → s < inv.length → f' s = G (inv.getD s 0)) ∧
        (¬ (OnBoundary sfs (inv.getD s 0) ∧ s < inv.length) → f' s = f s) := by
  induction sfs generalizing f with
  | nil => exact ⟨f, rfl, fun s => ⟨(by rintro ⟨s, h, _⟩; cases h), fun _ => rfl⟩⟩
  | cons a sfs ih =>
    have hsub : ∀ t, OnBoundary sfs t → OnBoundary (a :: sfs) t := by
      rintro t ⟨s, hs, h⟩; exact ⟨s, List.mem_cons_of_mem _ hs, h⟩
    by_cases hb : a.outerB = true ∨ a.innerB = true
    · obtain ⟨f1, h1, h2⟩ := bcF_spec map G inv hm a.id f (fun t ht => hl t ⟨a, List.mem_cons_self .., hb, ht⟩)
      obtain ⟨f', h3, h4⟩ := ih f1 (fun t ht => hl t (hsub t ht))
      refine ⟨f', ?_, fun s => ?_⟩
      · unfold bcAll
        rw [if_pos (by simpa using hb)]; simp only [h1]; exact h3
      · by_cases hs : OnBoundary sfs (inv.getD s 0) ∧ s < inv.length
        · exact ⟨fun _ _ => (h4 s).1 hs.1 hs.2, fun h => absurd ⟨hsub _ hs.1, hs.2⟩ h⟩
        · rw [(h4 s).2 hs, h2 s]
          constructor
          · rintro ⟨b, hb1, hb2, hb3⟩ hlen
            rcases List.mem_cons.1 hb1 with rfl | hb1
            · rw [if_pos ⟨hb3, hlen⟩]
            · exact absurd ⟨⟨b, hb1, hb2, hb3⟩, hlen⟩ hs
          · intro h
            rw [if_neg (fun h' => h ⟨⟨a, List.mem_cons_self .., hb, h'.1⟩, h'.2⟩)]
    · obtain ⟨f', h3, h4⟩ := ih f (fun t ht => hl t (hsub t ht))
      have hiff : ∀ t, OnBoundary (a :: sfs) t → OnBoundary sfs t := by
        rintro t ⟨s, hs, h, ht⟩
        rcases List.mem_cons.1 hs with rfl | hs
        · exact absurd h hb
        · exact ⟨s, hs, h, ht⟩
      refine ⟨f', ?_, fun s => ⟨fun h hl => (h4 s).1 (hiff _ h) hl, fun h => (h4 s).2 (fun h' => h ⟨hsub _ h'.1, h'.2⟩)⟩⟩
      unfold bcAll
      rw [if_neg (by simpa using hb)]; exact h3

theorem row_fill {P : Type} [DecidableEq P] (key : Nat → Nat → P) (val : Nat → Nat → K)
    (hk : ∀ a b c d, key a b = key c d → a = c ∧ b = d) (l r : List Nat) (m : P → K) :
    (∀ s ∈ l, ∀ t ∈ r, l.foldl (fun B s => r.foldl (fun B t => upd B (key s t) (val s t)) B) m (key s t) = val s t) ∧
    ∀ p, (∀ s ∈ l, ∀ t ∈ r, key s t ≠ p) → l.foldl (fun B s => r.foldl (fun B t => upd B (key s t) (val s t)) B) m p = m p := by
  induction l generalizing m with
  | nil => exact ⟨by simp, fun p _ => rfl⟩
  | cons a l ih =>
    have hrow := fun p => fold_upd (key a) (val a) (fun x y h => (hk _ _ _ _ h).2) r m p
    obtain ⟨h1, h2⟩ := ih (r.foldl (fun B t => upd B (key a t) (val a t)) m)
    constructor
    · intro s hs t ht
      rw [List.foldl_cons]
      by_cases hsl : s ∈ l
      · exact h1 s hsl t ht
      · rcases List.mem_cons.1 hs with rfl | hs
        · rw [h2 _ (fun s' hs' t' _ h => by obtain ⟨rfl, -⟩ := hk _ _ _ _ h; exact hsl hs')]
          rcases hrow (key s t) with ⟨t', _, h, h'⟩ | ⟨h, _⟩
          · rw [h']; obtain ⟨-, rfl⟩ := hk _ _ _ _ h; rfl
          · exact absurd rfl (h t ht)
        · exact absurd hs hsl
    · intro p hp
      rw [List.foldl_cons, h2 p (fun s hs => hp s (List.mem_cons_of_mem _ hs))]
      rcases hrow p with ⟨t', h3, h, h'⟩ | ⟨_, h⟩
      · exact absurd h (hp a (List.mem_cons_self ..) t' h3)
      · exact h

theorem fillB_eq (inv : List Nat) (r0 rN NS : Nat) (J : Nat → Nat → K) (B : Nat × Nat → K) (s t : Nat) :
    fillB inv r0 rN NS J B (s, t) = if r0 ≤ s ∧ s < rN ∧ t < NS then J (inv.getD s 0) (inv.getD t 0) else B (s, t) := by
  obtain ⟨h1, h2⟩ := row_fill (fun s t => (s, t)) (fun s t => J (inv.getD s 0) (inv.getD t 0)) (fun _ _ _ _ h => Prod.mk.inj h)
    (List.range' r0 (rN - r0)) (List.range NS) B
  unfold fillB
  split
  · rename_i h
    exact h1 s (by rw [List.mem_range'_1]; omega) t (List.mem_range.2 h.2.2)
  · rename_i h
    refine h2 (s, t) fun s' hs' t' ht' he => h ?_
    obtain ⟨rfl, rfl⟩ := Prod.mk.inj he
    rw [List.mem_range'_1] at hs'
    rw [List.mem_range] at ht'
    omega

theorem fillET_eq (inv : List Nat) (r0 rN NS nn : Nat) (J : Nat → Nat → K) (E : Nat × Nat → K) (i s : Nat) :
    fillET inv r0 rN NS nn J E (i, s) = if r0 ≤ s ∧ s < rN ∧ i < nn - NS then J (inv.getD s 0) (inv.getD (NS + i) 0) else E (i, s) := by
  have hfold : ∀ E : Nat × Nat → K, ∀ s, (List.range' NS (nn - NS)).foldl (fun E k => upd E (k - NS, s) (J (inv.getD s 0) (inv.getD k 0))) E =
      (List.range (nn - NS)).foldl (fun E i => upd E (i, s) (J (inv.getD s 0) (inv.getD (NS + i) 0))) E := by
    intro E s
    rw [List.range'_eq_map_range, List.foldl_map]
    congr 1
    funext E i
    rw [Nat.add_sub_cancel_left]
  unfold fillET
  split
  · rename_i h
    rw [if_neg (by omega)]
  · simp only [hfold]
    obtain ⟨h1, h2⟩ := row_fill (fun s i => (i, s)) (fun s i => J (inv.getD s 0) (inv.getD (NS + i) 0))
      (fun _ _ _ _ h => ⟨(Prod.mk.inj h).2, (Prod.mk.inj h).1⟩) (List.range' r0 (rN - r0)) (List.range (nn - NS)) E
    split
    · rename_i h
      exact h1 s (by rw [List.mem_range'_1]; omega) i (List.mem_range.2 h.2.2)
    · rename_i h
      refine h2 (i, s) fun s' hs' t' ht' he => h ?_
      obtain ⟨rfl, rfl⟩ := Prod.mk.inj he
      rw [List.mem_range'_1] at hs'
      rw [List.mem_range] at ht'
      omega

/-! ### which labels are inner -/

theorem fold_inner (n : Nat → Nat) (l : List Nat) (L : Labels) :
    (l.foldl (fun (L : Labels) i => if onFace n i then L else L.put i) L).inv = L.inv ++ l.filter fun i => !onFace n i := by
  induction l generalizing L with
  | nil => simp
  | cons a l ih =>
    rw [List.foldl_cons, ih]
    by_cases h : onFace n a = true
    · simp [h]
    · rw [if_neg h]
      simp [Labels.put, h]

theorem fold_prefix {α : Type} (g : Labels → α → Labels) (hg : ∀ L a, ∃ r, (g L a).inv = L.inv ++ r) (l : List α) (L : Labels) :
    ∃ r, (l.foldl g L).inv = L.inv ++ r := by
  induction l generalizing L with
  | nil => exact ⟨[], by simp⟩
  | cons a l ih =>
    obtain ⟨r, hr⟩ := hg L a
    obtain ⟨r', hr'⟩ := ih (g L a)
    exact ⟨r ++ r', by rw [List.foldl_cons, hr', hr, List.append_assoc]⟩

theorem putS_prefix (L : Labels) (t : Nat) : ∃ r, (L.putS t).inv = L.inv ++ r := by
  unfold Labels.putS
  split
  · exact ⟨[], by simp⟩
  · exact ⟨[t], rfl⟩

theorem putI_prefix (L : Labels) (t : Nat) : ∃ r, (L.putI t).inv = L.inv ++ r := by
  unfold Labels.putI
  split
  · exact ⟨[], by simp⟩
  · exact ⟨[t], rfl⟩

theorem inner_first (n : Nat → Nat) (closed : Bool) (sfs : List SubFace) (L : Labels) (NS : Nat) (h : makeMapAndInv n closed sfs = .ok (L, NS)) :
    (∃ r, L.inv = ((List.range (n 0 * n 1 * n 2)).filter fun i => !onFace n i) ++ r) ∧ innerCount n ≤ NS := by
  unfold makeMapAndInv at h
  split at h
  · cases h
  dsimp only at h
  split at h
  · cases h
  split at h
  · cases h
  split at h
  · cases h
  obtain ⟨rfl, rfl⟩ := Prod.mk.inj (Res.ok.inj h)
  have e1 := fold_inner n (List.range (n 0 * n 1 * n 2)) ⟨fun _ => none, [], fun _ => false, fun _ => none, []⟩
  generalize (List.range (n 0 * n 1 * n 2)).foldl (fun (L : Labels) i => if onFace n i then L else L.put i)
      (⟨fun _ => none, [], fun _ => false, fun _ => none, []⟩ : Labels) = L1 at *
  obtain ⟨r2, h2⟩ := fold_prefix (fun L (s : SubFace) => if s.outerB || s.innerB then s.id.foldl Labels.putS L else L)
    (fun L a => by split; exacts [fold_prefix _ putS_prefix _ _, ⟨[], by simp⟩]) sfs L1
  generalize sfs.foldl (fun L s => if s.outerB || s.innerB then s.id.foldl Labels.putS L else L) L1 = L2 at *
  obtain ⟨r3, h3⟩ := fold_prefix (fun L (s : SubFace) => if s.innerB || s.outerB then L else s.id.foldl Labels.putI L)
    (fun L a => by split; exacts [⟨[], by simp⟩, fold_prefix _ putI_prefix _ _]) sfs L2
  refine ⟨⟨r2 ++ r3, by rw [h3, h2, e1]; simp⟩, ?_⟩
  rw [h2, e1, List.nil_append, List.length_append]
  unfold innerCount
  omega

/-- the rows below Oi are those of the nodes off the faces -/
theorem inner_iff (n : Nat → Nat) (closed : Bool) (sfs : List SubFace) (L : Labels) (NS : Nat) (h : makeMapAndInv n closed sfs = .ok (L, NS))
    (s : Nat) (hs : s < L.inv.length) : s < innerCount n ↔ ¬ IsFaceNode n (L.inv.getD s 0) := by
  obtain ⟨⟨r, hr⟩, -⟩ := inner_first n closed sfs L NS h
  obtain ⟨h1, -⟩ := C50_labels n closed sfs L NS h
  have hnd : L.inv.Nodup := h1.nodup_iff.2 List.nodup_range
  have hlt : ∀ k (hk : k < L.inv.length), L.inv[k] < n 0 * n 1 * n 2 := fun k hk => List.mem_range.1 (h1.mem_iff.1 (List.getElem_mem hk))
  have hg : L.inv.getD s 0 = L.inv[s] := by simp [List.getD, List.getElem?_eq_getElem hs]
  rw [hg, ← onFace_iff n _ (hlt s hs)]
  constructor
  · intro hsc
    have hmem : L.inv[s] ∈ (List.range (n 0 * n 1 * n 2)).filter fun i => !onFace n i := by
      have : L.inv[s] = ((List.range (n 0 * n 1 * n 2)).filter fun i => !onFace n i)[s]'hsc := by
        simp only [hr]
        rw [List.getElem_append_left hsc]
      rw [this]; exact List.getElem_mem _
    have := (List.mem_filter.1 hmem).2
    simpa using this
  · intro hf
    have hmem : L.inv[s] ∈ (List.range (n 0 * n 1 * n 2)).filter fun i => !onFace n i :=
      List.mem_filter.2 ⟨List.mem_range.2 (hlt s hs), by simpa using hf⟩
    obtain ⟨k, hk, hke⟩ := List.getElem_of_mem hmem
    have hk' : k < L.inv.length := by
      have := congrArg List.length hr
      rw [List.length_append] at this
      omega
    have : L.inv[k]'hk' = L.inv[s] := by
      rw [← hke]
      simp only [hr]
      rw [List.getElem_append_left hk]
    have := (List.getElem_inj hnd).1 this
    unfold innerCount
    omega

/-! ### C81 -/

/-- node q is listed in a subface on an outer boundary -/
def OnOuter (sfs : List SubFace) (q : Nat) : Prop := ∃ s ∈ sfs, s.outerB = true ∧ q ∈ s.id
/-- node q is listed in a subface on an inner (excision) boundary -/
def OnInner (sfs : List SubFace) (q : Nat) : Prop := ∃ s ∈ sfs, s.innerB = true ∧ q ∈ s.id

/-- a labelled patch: boundary subfaces list nodes of faces, the flags of the patch are those of its subfaces, and the
check of the solver has passed (not both kinds of boundary) -/
structure Assembled (n : Nat → Nat) (sfs : List SubFace) (L : Labels) (NS : Nat) (outerB innerB : Bool) : Prop where
  lab : ∃ closed, makeMapAndInv n closed sfs = .ok (L, NS)
  face : ∀ q, OnBoundary sfs q → IsFaceNode n q
  outer : ∀ q, OnOuter sfs q → outerB = true
  inner : ∀ q, OnInner sfs q → innerB = true
  one : ¬ (outerB = true ∧ innerB = true)

theorem onBoundary_iff (sfs : List SubFace) (q : Nat) : OnBoundary sfs q ↔ OnOuter sfs q ∨ OnInner sfs q := by
  constructor
  · rintro ⟨s, hs, h | h, hq⟩
    · exact Or.inl ⟨s, hs, h, hq⟩
    · exact Or.inr ⟨s, hs, h, hq⟩
  · rintro (⟨s, hs, h, hq⟩ | ⟨s, hs, h, hq⟩)
    · exact ⟨s, hs, Or.inl h, hq⟩
    · exact ⟨s, hs, Or.inr h, hq⟩

section
variable {n : Nat → Nat} {sfs : List SubFace} {L : Labels} {NS : Nat} {outerB innerB : Bool}

/-- the rows of a labelled patch: below Oi the nodes off the faces, from Oi to NS the nodes of the boundary -/
theorem Assembled.row (hA : Assembled n sfs L NS outerB innerB) (s : Nat) (hs : s < NS) :
    s < L.inv.length ∧ (s < innerCount n ∧ ¬ IsFaceNode n (L.inv.getD s 0) ∧ ¬ OnBoundary sfs (L.inv.getD s 0) ∨
      ¬ s < innerCount n ∧ IsFaceNode n (L.inv.getD s 0) ∧ OnBoundary sfs (L.inv.getD s 0)) := by
  obtain ⟨closed, h⟩ := hA.lab
  obtain ⟨h1, h2, h3, h4, h5, -⟩ := C50_labels n closed sfs L NS h
  have hlen : s < L.inv.length := by omega
  have hi := inner_iff n closed sfs L NS h s hlen
  refine ⟨hlen, ?_⟩
  by_cases hc : s < innerCount n
  · exact Or.inl ⟨hc, hi.1 hc, fun hb => hi.1 hc (hA.face _ hb)⟩
  · have hf : IsFaceNode n (L.inv.getD s 0) := by by_contra hf; exact hc (hi.2 hf)
    refine Or.inr ⟨hc, hf, ?_⟩
    have hg : L.inv.getD s 0 = L.inv[s] := by simp [List.getD, List.getElem?_eq_getElem hlen]
    have hm : L.inv.getD s 0 ∈ L.inv.take NS := by
      rw [hg, List.mem_take_iff_getElem]
      exact ⟨s, by omega, rfl⟩
    exact ((h5 _).1 hm).2.resolve_left (fun h => h hf)

theorem Assembled.pick_some (hA : Assembled n sfs L NS outerB innerB) {α : Type} (o i : α) (q : Nat) (hq : OnBoundary sfs q) :
    ∃ a, pick outerB innerB o i = some a ∧ (OnOuter sfs q → a = o) ∧ (OnInner sfs q → a = i) := by
  have h0 := hA.outer q
  have h1 := hA.inner q
  have h2 := hA.one
  rcases (onBoundary_iff sfs q).1 hq with h | h
  · refine ⟨o, by simp [pick, h0 h], fun _ => rfl, fun h' => absurd ⟨h0 h, h1 h'⟩ h2⟩
  · have hn : outerB = false := by
      cases outerB
      · rfl
      · exact absurd ⟨rfl, h1 h⟩ h2
    refine ⟨i, by simp [pick, hn, h1 h], fun h' => ?_, fun _ => rfl⟩
    rw [h0 h'] at hn; cases hn

/-- **C81 (residual).** In the vector of the subdomain residuals, the row of every node holds the equation at that node when
it is off the faces, the outer boundary condition when it is on an outer boundary, the inner boundary condition when it is
on an inner boundary; nothing else is written. -/
theorem C81_residual (hA : Assembled n sfs L NS outerB innerB) (F Go Gi : Nat → K) :
    ∃ f, makeF L (innerCount n) sfs F (pick outerB innerB Go Gi) = .ok f ∧
      (∀ s, s < NS → (¬ IsFaceNode n (L.inv.getD s 0) → f s = F (L.inv.getD s 0)) ∧
        (OnOuter sfs (L.inv.getD s 0) → f s = Go (L.inv.getD s 0)) ∧ (OnInner sfs (L.inv.getD s 0) → f s = Gi (L.inv.getD s 0))) ∧
      ∀ s, NS ≤ s → f s = 0 := by
  obtain ⟨closed, h⟩ := hA.lab
  obtain ⟨h1, h2, h3, h4, h5, -⟩ := C50_labels n closed sfs L NS h
  obtain ⟨-, hle⟩ := inner_first n closed sfs L NS h
  have hnd : L.inv.Nodup := h1.nodup_iff.2 List.nodup_range
  have hbd : ∀ q, OnBoundary sfs q → q < n 0 * n 1 * n 2 := by
    intro q hq
    obtain ⟨i, j, k, hi, hj, hk, rfl, -⟩ := hA.face q hq
    calc (i * n 1 + j) * n 2 + k < (i * n 1 + j) * n 2 + n 2 := by omega
      _ = (i * n 1 + (j + 1)) * n 2 := by ring
      _ ≤ (i * n 1 + n 1) * n 2 := Nat.mul_le_mul_right _ (by omega)
      _ = (i + 1) * n 1 * n 2 := by ring
      _ ≤ n 0 * n 1 * n 2 := Nat.mul_le_mul_right _ (Nat.mul_le_mul_right _ hi)
  have hlab : ∀ t, OnBoundary sfs t → ∃ j, L.map t = some j := by
    intro t ht
    have : t ∈ L.inv := h1.mem_iff.2 (List.mem_range.2 (hbd t ht))
    obtain ⟨k, hk, hke⟩ := List.getElem_of_mem this
    exact ⟨k, (h2 t k).2 (by rw [List.getElem?_eq_getElem hk, hke])⟩
  have key : ∀ G : Nat → K, ∃ f, makeF L (innerCount n) sfs F (some G) = .ok f ∧
      (∀ s, s < NS → (¬ IsFaceNode n (L.inv.getD s 0) → f s = F (L.inv.getD s 0)) ∧ (OnBoundary sfs (L.inv.getD s 0) → f s = G (L.inv.getD s 0))) ∧
      ∀ s, NS ≤ s → f s = 0 := by
    intro G
    obtain ⟨f, hf, hv⟩ := bcAll_spec L.map G L.inv h2 sfs (eqF L.inv (innerCount n) F fun _ => 0) hlab
    refine ⟨f, hf, fun s hs => ?_, fun s hs => ?_⟩
    · obtain ⟨hlen, hr⟩ := hA.row s hs
      constructor
      · intro hn
        rcases hr with ⟨a, b, c⟩ | ⟨a, b, c⟩
        · rw [(hv s).2 (fun h => c h.1), eqF_eq, if_pos a]
        · exact absurd b hn
      · exact fun hb => (hv s).1 hb hlen
    · rw [(hv s).2, eqF_eq, if_neg (by omega)]
      rintro ⟨hb, hlen⟩
      have hm : L.inv.getD s 0 ∈ L.inv.take NS := (h5 _).2 ⟨hbd _ hb, Or.inr hb⟩
      have hg : L.inv.getD s 0 = L.inv[s] := by simp [List.getD, List.getElem?_eq_getElem hlen]
      rw [hg, List.mem_take_iff_getElem] at hm
      obtain ⟨k, hk, hke⟩ := hm
      have := (List.getElem_inj hnd).1 hke
      omega
  by_cases hex : ∃ q, OnBoundary sfs q
  · obtain ⟨q, hq⟩ := hex
    obtain ⟨G, hG, -⟩ := hA.pick_some Go Gi q hq
    obtain ⟨f, hf, hv, hz⟩ := key G
    refine ⟨f, by rw [hG]; exact hf, fun s hs => ⟨(hv s hs).1, fun ho => ?_, fun hi => ?_⟩, hz⟩
    · obtain ⟨G', hG', ha, -⟩ := hA.pick_some Go Gi _ ((onBoundary_iff _ _).2 (Or.inl ho))
      rw [(hv s hs).2 ((onBoundary_iff _ _).2 (Or.inl ho)), ← ha ho, Option.some.inj (hG.symm.trans hG')]
    · obtain ⟨G', hG', -, ha⟩ := hA.pick_some Go Gi _ ((onBoundary_iff _ _).2 (Or.inr hi))
      rw [(hv s hs).2 ((onBoundary_iff _ _).2 (Or.inr hi)), ← ha hi, Option.some.inj (hG.symm.trans hG')]
  · have hno : ∀ G : Option (Nat → K), ∀ ss : List SubFace, (∀ q, ¬ OnBoundary ss q) → ∀ f, bcAll L.map G ss f = .ok f := by
      intro G ss
      induction ss with
      | nil => intro _ f; rfl
      | cons a ss ih =>
        intro hn f
        have ih' := ih (fun q hq => hn q (by obtain ⟨s, hs, h⟩ := hq; exact ⟨s, List.mem_cons_of_mem _ hs, h⟩))
        unfold bcAll
        split
        · rename_i hb
          have hid : a.id = [] := by
            rcases hl : a.id with _ | ⟨t, ts⟩
            · rfl
            · exact absurd ⟨a, List.mem_cons_self .., by simpa using hb, by rw [hl]; exact List.mem_cons_self ..⟩ (hn t)
          cases G with
          | none => exact ih' f
          | some G => simp only [hid, bcF]; exact ih' f
        · exact ih' f
    refine ⟨_, hno _ sfs (fun q hq => hex ⟨q, hq⟩) _, fun s hs => ⟨fun hn => ?_, fun ho => absurd ⟨_, (onBoundary_iff _ _).2 (Or.inl ho)⟩ hex,
      fun hi => absurd ⟨_, (onBoundary_iff _ _).2 (Or.inr hi)⟩ hex⟩, fun s hs => ?_⟩
    · obtain ⟨hlen, ⟨a, b, c⟩ | ⟨a, b, c⟩⟩ := hA.row s hs
      · rw [eqF_eq, if_pos a]
      · exact absurd b hn
    · rw [eqF_eq, if_neg (by omega)]

/-- **C81 (Jacobian).** Row s of the matrices B and E holds the Jacobian of the equation of node inv[s] (the field equation off
the faces, else the boundary condition that applies there) with respect to the field at every node of the patch: the
subdomain nodes in B, the interface nodes in E. -/
theorem C81_jacobian (hA : Assembled n sfs L NS outerB innerB) (JB JE ob oe ib ie : Nat → Nat → K) :
    let M := makeBE L (innerCount n) NS (n 0 * n 1 * n 2) JB JE (pick outerB innerB (ob, oe) (ib, ie))
    ∀ s, s < NS →
      (¬ IsFaceNode n (L.inv.getD s 0) → (∀ t, t < NS → M.1 (s, t) = JB (L.inv.getD s 0) (L.inv.getD t 0)) ∧
        ∀ i, i < L.Iinv.length → M.2 (i, s) = JE (L.inv.getD s 0) (L.Iinv.getD i 0)) ∧
      (OnOuter sfs (L.inv.getD s 0) → (∀ t, t < NS → M.1 (s, t) = ob (L.inv.getD s 0) (L.inv.getD t 0)) ∧
        ∀ i, i < L.Iinv.length → M.2 (i, s) = oe (L.inv.getD s 0) (L.Iinv.getD i 0)) ∧
      (OnInner sfs (L.inv.getD s 0) → (∀ t, t < NS → M.1 (s, t) = ib (L.inv.getD s 0) (L.inv.getD t 0)) ∧
        ∀ i, i < L.Iinv.length → M.2 (i, s) = ie (L.inv.getD s 0) (L.Iinv.getD i 0)) := by
  intro M s hs
  obtain ⟨closed, h⟩ := hA.lab
  obtain ⟨h1, h2, h3, h4, h5, -⟩ := C50_labels n closed sfs L NS h
  have hlen := h1.length_eq
  rw [List.length_range] at hlen
  have hI : L.Iinv.length = n 0 * n 1 * n 2 - NS := by
    have := congrArg List.length h3
    rw [List.length_append, List.length_take] at this
    omega
  have hIg : ∀ i, i < L.Iinv.length → L.inv.getD (NS + i) 0 = L.Iinv.getD i 0 := by
    intro i hi
    have hd : L.inv.drop NS = L.Iinv := by
      have hl : (L.inv.take NS).length = NS := by rw [List.length_take]; omega
      have h6 : L.inv.take NS ++ L.inv.drop NS = L.inv.take NS ++ L.Iinv := by rw [List.take_append_drop]; exact h3
      exact List.append_cancel_left h6
    rw [← hd]
    simp [List.getD, List.getElem?_drop]
  obtain ⟨hsl, hr⟩ := hA.row s hs
  have inner : s < innerCount n → (∀ t, t < NS → M.1 (s, t) = JB (L.inv.getD s 0) (L.inv.getD t 0)) ∧
        ∀ i, i < L.Iinv.length → M.2 (i, s) = JE (L.inv.getD s 0) (L.Iinv.getD i 0) := by
    intro hc
    constructor
    · intro t ht
      show (makeBE _ _ _ _ _ _ _).1 (s, t) = _
      unfold makeBE
      cases pick outerB innerB (ob, oe) (ib, ie) with
      | none => simp only; rw [fillB_eq, if_pos (by omega)]
      | some p => simp only; rw [fillB_eq, if_neg (by omega), fillB_eq, if_pos (by omega)]
    · intro i hi
      show (makeBE _ _ _ _ _ _ _).2 (i, s) = _
      unfold makeBE
      rw [← hIg i hi]
      cases pick outerB innerB (ob, oe) (ib, ie) with
      | none => simp only; rw [fillET_eq, if_pos (by omega)]
      | some p => simp only; rw [fillET_eq, if_neg (by omega), fillET_eq, if_pos (by omega)]
  have bdry : ∀ p, pick outerB innerB (ob, oe) (ib, ie) = some p → ¬ s < innerCount n →
      (∀ t, t < NS → M.1 (s, t) = p.1 (L.inv.getD s 0) (L.inv.getD t 0)) ∧
        ∀ i, i < L.Iinv.length → M.2 (i, s) = p.2 (L.inv.getD s 0) (L.Iinv.getD i 0) := by
    intro p hp hc
    constructor
    · intro t ht
      show (makeBE _ _ _ _ _ _ _).1 (s, t) = _
      unfold makeBE
      rw [hp]
      simp only
      rw [fillB_eq, if_pos (by omega)]
    · intro i hi
      show (makeBE _ _ _ _ _ _ _).2 (i, s) = _
      unfold makeBE
      rw [← hIg i hi, hp]
      simp only
      rw [fillET_eq, if_pos (by omega)]
  rcases hr with ⟨a, b, c⟩ | ⟨a, b, c⟩
  · exact ⟨fun _ => inner a, fun ho => absurd ((onBoundary_iff _ _).2 (Or.inl ho)) c, fun hi => absurd ((onBoundary_iff _ _).2 (Or.inr hi)) c⟩
  · obtain ⟨p, hp, h6, h7⟩ := hA.pick_some (ob, oe) (ib, ie) _ c
    refine ⟨fun hn => absurd b hn, fun ho => ?_, fun hi => ?_⟩
    · have := bdry p hp a; rw [h6 ho] at this; exact this
    · have := bdry p hp a; rw [h7 hi] at this; exact this

end

/-- **C81 (check).** The check of the grid passes exactly when no patch has both kinds of boundary and at most one patch has
no interface unknowns. -/
theorem C81_check (ps : List (Bool × Bool × Nat)) : checks ps = .ok () ↔
    (∀ p ∈ ps, ¬ (p.1 = true ∧ p.2.1 = true)) ∧ (ps.filter fun p => decide (p.2.2 = 0)).length ≤ 1 := by
  unfold checks
  constructor
  · intro h
    split at h
    · cases h
    split at h
    · cases h
    rename_i h1 h2
    rw [Bool.not_eq_true, List.any_eq_false] at h1
    exact ⟨fun p hp hh => h1 p hp (by rw [hh.1, hh.2]; rfl), by omega⟩
  · rintro ⟨h1, h2⟩
    rw [if_neg, if_neg (by omega)]
    rw [Bool.not_eq_true, List.any_eq_false]
    intro p hp hh
    rw [Bool.and_eq_true] at hh
    exact h1 p hp hh

example : checks [(true, false, 3), (false, true, 5), (false, false, 1)] = .ok () ∧ checks [(true, true, 3)] = .abort ∧
    checks [(true, false, 0), (true, false, 0)] = .abort := by decide

/-- The check is violated by one disconnected patch among several: it passes, and then no step of the solver ever returns,
whatever the matrices. -/
theorem C81_disconnected_violation [LinearOrder K] : checks [(true, false, 0), (true, false, 4)] = .ok () ∧
    ∀ (e drop : K) (solve : Solver K) (P : Nat → Patch K), (P 0).NI = 0 → ∀ r, newton e drop solve 2 P ≠ .ok r :=
  ⟨by decide, fun e drop solve P h r => C34_isolated_violation e drop solve 2 P 0 (by omega) (Or.inl h) r⟩

end Elliptica.Schur
