import Verif.Model.Schur
import Mathlib.Tactic.Linarith
import Mathlib.Tactic.Ring
import Mathlib.Data.List.Nodup
import Mathlib.Data.List.Perm.Subperm
/-!
C50: the labelling of the nodes for the domain-decomposed solver numbers every node exactly once, subdomain unknowns
first, and the inverse arrays undo it.
-/
namespace Elliptica.Schur
open Mat

/-- node `q` lies on a face of the patch with `n 0 × n 1 × n 2` nodes: it is the node (i,j,k), row-major, and one of the
indices is the first or the last -/
def IsFaceNode (n : Nat → Nat) (q : Nat) : Prop :=
  ∃ i j k, i < n 0 ∧ j < n 1 ∧ k < n 2 ∧ q = (i * n 1 + j) * n 2 + k ∧
    (i = 0 ∨ i = n 0 - 1 ∨ j = 0 ∨ j = n 1 - 1 ∨ k = 0 ∨ k = n 2 - 1)

/-- node `q` is listed in a subface on an outer or inner boundary -/
def OnBoundary (sfs : List SubFace) (q : Nat) : Prop := ∃ s ∈ sfs, (s.outerB = true ∨ s.innerB = true) ∧ q ∈ s.id

/-- node `q` is listed in a subface shared with another patch -/
def OnCoupling (sfs : List SubFace) (q : Nat) : Prop := ∃ s ∈ sfs, s.outerB = false ∧ s.innerB = false ∧ q ∈ s.id

theorem onFace_iff (n : Nat → Nat) (q : Nat) (hq : q < n 0 * n 1 * n 2) : onFace n q = true ↔ IsFaceNode n q := by
  have h12 : 0 < n 2 * n 1 := by
    rcases Nat.eq_zero_or_pos (n 2 * n 1) with h | h
    · rw [Nat.mul_assoc, Nat.mul_comm (n 1), h] at hq; simp at hq
    · exact h
  have h2 : 0 < n 2 := Nat.pos_of_mul_pos_right h12
  have h1 : 0 < n 1 := Nat.pos_of_mul_pos_left h12
  have ei : Index.toI (n 1) (n 2) q < n 0 := by
    unfold Index.toI; apply Nat.div_lt_of_lt_mul; rw [Nat.mul_assoc] at hq
    calc q < _ := hq
      _ = _ := by ring
  have ej : Index.toJ (n 1) (n 2) q < n 1 := by
    unfold Index.toJ; apply Nat.div_lt_of_lt_mul; exact Nat.mod_lt _ h12
  have ek : Index.toK (n 1) (n 2) q < n 2 := by unfold Index.toK; exact Nat.mod_lt _ h2
  have eq : q = (Index.toI (n 1) (n 2) q * n 1 + Index.toJ (n 1) (n 2) q) * n 2 + Index.toK (n 1) (n 2) q := by
    unfold Index.toI Index.toJ Index.toK
    have a := Nat.div_add_mod q (n 2 * n 1)
    have b := Nat.div_add_mod (q % (n 2 * n 1)) (n 2)
    calc q = n 2 * n 1 * (q / (n 2 * n 1)) + q % (n 2 * n 1) := a.symm
      _ = n 2 * n 1 * (q / (n 2 * n 1)) + (n 2 * (q % (n 2 * n 1) / n 2) + q % (n 2 * n 1) % n 2) := by rw [b]
      _ = _ := by ring
  have uniq : ∀ i j k, j < n 1 → k < n 2 → q = (i * n 1 + j) * n 2 + k →
      Index.toI (n 1) (n 2) q = i ∧ Index.toJ (n 1) (n 2) q = j ∧ Index.toK (n 1) (n 2) q = k := by
    intro i j k hj hk h
    have hl : j * n 2 + k < n 2 * n 1 := by
      calc j * n 2 + k < j * n 2 + n 2 := by omega
        _ = (j + 1) * n 2 := by ring
        _ ≤ n 1 * n 2 := Nat.mul_le_mul_right _ hj
        _ = _ := Nat.mul_comm _ _
    have h' : q = (j * n 2 + k) + n 2 * n 1 * i := by rw [h]; ring
    have hm : q % (n 2 * n 1) = j * n 2 + k := by rw [h', Nat.add_mul_mod_self_left, Nat.mod_eq_of_lt hl]
    refine ⟨?_, ?_, ?_⟩
    · unfold Index.toI; rw [h', Nat.add_mul_div_left _ _ h12, Nat.div_eq_of_lt hl]; omega
    · unfold Index.toJ; rw [hm, Nat.mul_comm j, Nat.mul_add_div h2, Nat.div_eq_of_lt hk]; omega
    · unfold Index.toK; rw [hm, Nat.mul_comm j, Nat.mul_add_mod, Nat.mod_eq_of_lt hk]
  unfold onFace IsFaceNode
  simp only [Bool.or_eq_true, decide_eq_true_eq]
  constructor
  · intro h
    exact ⟨_, _, _, ei, ej, ek, eq, by tauto⟩
  · rintro ⟨i, j, k, hi, hj, hk, he, h⟩
    obtain ⟨a, b, c⟩ := uniq i j k hj hk he
    rw [a, b, c]; tauto

/-- the arrays are consistent with each other -/
structure Labels.Ok (L : Labels) : Prop where
  nodup : L.inv.Nodup
  flag : ∀ q, L.flag q = true ↔ q ∈ L.inv
  map : ∀ q j, L.map q = some j ↔ L.inv[j]? = some q
  sub : L.Iinv.Nodup
  Imap : ∀ q i, L.Imap q = some i ↔ L.Iinv[i]? = some q

theorem getElem?_snoc {α : Type} (l : List α) (a : α) (j : Nat) (q : α) :
    (l ++ [a])[j]? = some q ↔ l[j]? = some q ∨ (j = l.length ∧ a = q) := by
  rcases Nat.lt_trichotomy j l.length with h | h | h
  · rw [List.getElem?_append_left h]
    constructor
    · exact Or.inl
    · rintro (h' | h')
      · exact h'
      · omega
  · subst h; simp
  · constructor
    · intro h'
      have := (List.getElem?_eq_some_iff.1 h').1
      rw [List.length_append] at this; simp at this; omega
    · rintro (h' | h')
      · have := (List.getElem?_eq_some_iff.1 h').1; omega
      · omega

theorem mapOk_snoc (m : Nat → Option Nat) (l : List Nat) (h : ∀ q j, m q = some j ↔ l[j]? = some q) (t : Nat)
    (ht : t ∉ l) (q j : Nat) :
    (if q = t then some l.length else m q) = some j ↔ (l ++ [t])[j]? = some q := by
  rw [getElem?_snoc]
  by_cases hq : q = t
  · subst hq
    rw [if_pos rfl]
    constructor
    · intro h'; injection h' with h'; exact Or.inr ⟨h'.symm, rfl⟩
    · rintro (h' | h')
      · exact absurd (List.mem_of_getElem? h') ht
      · rw [h'.1]
  · rw [if_neg hq, h]
    constructor
    · exact Or.inl
    · rintro (h' | h')
      · exact h'
      · exact absurd h'.2.symm hq

theorem put_ok {L : Labels} (h : L.Ok) {t : Nat} (ht : t ∉ L.inv) : (L.put t).Ok where
  nodup := by
    show (L.inv ++ [t]).Nodup
    rw [List.nodup_append]
    refine ⟨h.nodup, by simp, ?_⟩
    intro a ha b hb e
    rw [List.mem_singleton] at hb
    exact ht (hb ▸ e ▸ ha)
  flag := by
    intro q
    show (if q = t then true else L.flag q) = true ↔ q ∈ L.inv ++ [t]
    by_cases hq : q = t
    · simp [hq]
    · rw [if_neg hq, h.flag]; simp [hq]
  map := mapOk_snoc L.map L.inv h.map t ht
  sub := h.sub
  Imap := h.Imap

theorem putS_ok {L : Labels} (h : L.Ok) (t : Nat) : (L.putS t).Ok := by
  unfold Labels.putS
  by_cases hf : L.flag t = true
  · rw [if_pos hf]; exact h
  · rw [if_neg hf]; exact put_ok h (fun hm => hf ((h.flag t).2 hm))

theorem putS_mem {L : Labels} (h : L.Ok) (t q : Nat) : q ∈ (L.putS t).inv ↔ q ∈ L.inv ∨ q = t := by
  unfold Labels.putS
  by_cases hf : L.flag t = true
  · rw [if_pos hf]
    have := (h.flag t).1 hf
    constructor
    · exact Or.inl
    · rintro (h' | h')
      · exact h'
      · rw [h']; exact this
  · rw [if_neg hf]
    show q ∈ L.inv ++ [t] ↔ _
    simp

theorem putS_iface (L : Labels) (t : Nat) : (L.putS t).Iinv = L.Iinv ∧ (L.putS t).Imap = L.Imap := by
  unfold Labels.putS
  split <;> exact ⟨rfl, rfl⟩

theorem putSs {L : Labels} (h : L.Ok) (l : List Nat) :
    (l.foldl Labels.putS L).Ok ∧ (∀ q, q ∈ (l.foldl Labels.putS L).inv ↔ q ∈ L.inv ∨ q ∈ l) ∧
      (l.foldl Labels.putS L).Iinv = L.Iinv ∧ (l.foldl Labels.putS L).Imap = L.Imap := by
  induction l generalizing L with
  | nil => exact ⟨h, by simp, rfl, rfl⟩
  | cons t l ih =>
    rw [List.foldl_cons]
    obtain ⟨a, b, c, d⟩ := ih (putS_ok h t)
    refine ⟨a, ?_, c.trans (putS_iface L t).1, d.trans (putS_iface L t).2⟩
    intro q
    rw [b, putS_mem h, List.mem_cons]; tauto

/-- what the interface phase keeps: the interface list is the tail of inv -/
structure Labels.Ok2 (L : Labels) (pre : List Nat) : Prop where
  ok : L.Ok
  tail : L.inv = pre ++ L.Iinv

theorem putI_ok {L : Labels} {pre : List Nat} (h : L.Ok2 pre) (t : Nat) : (L.putI t).Ok2 pre := by
  unfold Labels.putI
  by_cases hf : L.flag t = true
  · rw [if_pos hf]; exact h
  · rw [if_neg hf]
    have ht : t ∉ L.inv := fun hm => hf ((h.ok.flag t).2 hm)
    have hp := put_ok h.ok ht
    have htI : t ∉ L.Iinv := fun hm => ht (by rw [h.tail]; exact List.mem_append_right _ hm)
    refine ⟨⟨hp.nodup, hp.flag, hp.map, ?_, mapOk_snoc L.Imap L.Iinv h.ok.Imap t htI⟩, ?_⟩
    · show (L.Iinv ++ [t]).Nodup
      rw [List.nodup_append]
      refine ⟨h.ok.sub, by simp, ?_⟩
      intro a ha b hb e
      rw [List.mem_singleton] at hb
      exact htI (hb ▸ e ▸ ha)
    · show L.inv ++ [t] = pre ++ (L.Iinv ++ [t])
      rw [h.tail, List.append_assoc]

theorem putI_mem {L : Labels} (h : L.Ok) (t q : Nat) : q ∈ (L.putI t).inv ↔ q ∈ L.inv ∨ q = t := by
  unfold Labels.putI
  by_cases hf : L.flag t = true
  · rw [if_pos hf]
    have := (h.flag t).1 hf
    constructor
    · exact Or.inl
    · rintro (h' | h')
      · exact h'
      · rw [h']; exact this
  · rw [if_neg hf]
    show q ∈ L.inv ++ [t] ↔ _
    simp

theorem putIs {L : Labels} {pre : List Nat} (h : L.Ok2 pre) (l : List Nat) :
    (l.foldl Labels.putI L).Ok2 pre ∧ ∀ q, q ∈ (l.foldl Labels.putI L).inv ↔ q ∈ L.inv ∨ q ∈ l := by
  induction l generalizing L with
  | nil => exact ⟨h, by simp⟩
  | cons t l ih =>
    rw [List.foldl_cons]
    obtain ⟨a, b⟩ := ih (putI_ok h t)
    refine ⟨a, ?_⟩
    intro q
    rw [b, putI_mem h.ok, List.mem_cons]; tauto

theorem inner_phase (n : Nat → Nat) (L0 : Labels) (h0 : L0.Ok) (he : L0.inv = []) (N : Nat) :
    let L := (List.range N).foldl (fun L i => if onFace n i then L else L.put i) L0
    L.Ok ∧ (∀ q, q ∈ L.inv ↔ q < N ∧ onFace n q = false) ∧ L.Iinv = L0.Iinv ∧ L.Imap = L0.Imap := by
  induction N with
  | zero => exact ⟨h0, by simp [he], rfl, rfl⟩
  | succ N ih =>
    dsimp only at ih ⊢
    rw [List.range_succ, List.foldl_append, List.foldl_cons, List.foldl_nil]
    generalize (List.range N).foldl (fun L i => if onFace n i then L else L.put i) L0 = L at ih
    obtain ⟨a, b, c, d⟩ := ih
    cases hF : onFace n N with
    | true =>
      refine ⟨a, ?_, c, d⟩
      intro q
      rw [if_pos rfl, b]
      constructor
      · rintro ⟨h1, h2⟩; exact ⟨by omega, h2⟩
      · rintro ⟨h1, h2⟩
        refine ⟨?_, h2⟩
        rcases Nat.lt_or_eq_of_le (Nat.lt_succ_iff.1 h1) with h | h
        · exact h
        · rw [h, hF] at h2; simp at h2
    | false =>
      have hN : N ∉ L.inv := by rw [b]; rintro ⟨h1, _⟩; omega
      refine ⟨put_ok a hN, ?_, c, d⟩
      intro q
      rw [if_neg (by simp)]
      show q ∈ L.inv ++ [N] ↔ _
      rw [List.mem_append, b, List.mem_singleton]
      constructor
      · rintro (⟨h1, h2⟩ | rfl)
        · exact ⟨by omega, h2⟩
        · exact ⟨by omega, hF⟩
      · rintro ⟨h1, h2⟩
        by_cases h : q = N
        · exact Or.inr h
        · exact Or.inl ⟨by omega, h2⟩

theorem onBoundary_cons (s : SubFace) (sfs : List SubFace) (q : Nat) :
    OnBoundary (s :: sfs) q ↔ ((s.outerB = true ∨ s.innerB = true) ∧ q ∈ s.id) ∨ OnBoundary sfs q := by
  simp [OnBoundary]

theorem onCoupling_cons (s : SubFace) (sfs : List SubFace) (q : Nat) :
    OnCoupling (s :: sfs) q ↔ (s.outerB = false ∧ s.innerB = false ∧ q ∈ s.id) ∨ OnCoupling sfs q := by
  simp [OnCoupling]

theorem boundary_phase (sfs : List SubFace) (L : Labels) (h : L.Ok) :
    let L' := sfs.foldl (fun L s => if s.outerB || s.innerB then s.id.foldl Labels.putS L else L) L
    L'.Ok ∧ (∀ q, q ∈ L'.inv ↔ q ∈ L.inv ∨ OnBoundary sfs q) ∧ L'.Iinv = L.Iinv ∧ L'.Imap = L.Imap := by
  induction sfs generalizing L with
  | nil => exact ⟨h, by simp [OnBoundary], rfl, rfl⟩
  | cons s sfs ih =>
    dsimp only at ih ⊢
    rw [List.foldl_cons]
    by_cases hs : (s.outerB || s.innerB) = true
    · rw [if_pos hs]
      obtain ⟨a, b, c, d⟩ := putSs h s.id
      obtain ⟨a', b', c', d'⟩ := ih _ a
      refine ⟨a', ?_, c'.trans c, d'.trans d⟩
      intro q
      rw [b', b]
      rw [Bool.or_eq_true] at hs
      rw [onBoundary_cons]
      generalize OnBoundary sfs q = X
      clear ih a' b' c' d'
      tauto
    · rw [if_neg hs]
      obtain ⟨a', b', c', d'⟩ := ih _ h
      refine ⟨a', ?_, c', d'⟩
      intro q
      rw [b']
      rw [Bool.or_eq_true] at hs
      rw [onBoundary_cons]
      generalize OnBoundary sfs q = X
      clear ih a' b' c' d'
      tauto

theorem coupling_phase (sfs : List SubFace) (L : Labels) (pre : List Nat) (h : L.Ok2 pre) :
    let L' := sfs.foldl (fun L s => if s.innerB || s.outerB then L else s.id.foldl Labels.putI L) L
    L'.Ok2 pre ∧ (∀ q, q ∈ L'.inv ↔ q ∈ L.inv ∨ OnCoupling sfs q) := by
  induction sfs generalizing L with
  | nil => exact ⟨h, by simp [OnCoupling]⟩
  | cons s sfs ih =>
    dsimp only at ih ⊢
    rw [List.foldl_cons]
    by_cases hs : (s.innerB || s.outerB) = true
    · rw [if_pos hs]
      obtain ⟨a', b'⟩ := ih _ h
      refine ⟨a', ?_⟩
      intro q
      rw [b']
      have hn : ¬ (s.outerB = false ∧ s.innerB = false ∧ q ∈ s.id) := by
        rw [Bool.or_eq_true] at hs
        rintro ⟨h1, h2, _⟩
        rw [h1, h2] at hs; simp at hs
      rw [onCoupling_cons]
      generalize OnCoupling sfs q = X
      clear ih a' b'
      tauto
    · rw [if_neg hs]
      obtain ⟨a, b⟩ := putIs h s.id
      obtain ⟨a', b'⟩ := ih _ a
      refine ⟨a', ?_⟩
      intro q
      rw [b', b]
      have hn : s.outerB = false ∧ s.innerB = false := by
        rw [Bool.or_eq_true, not_or, Bool.not_eq_true, Bool.not_eq_true] at hs
        exact ⟨hs.2, hs.1⟩
      rw [onCoupling_cons]
      generalize OnCoupling sfs q = X
      clear ih a' b'
      tauto

theorem mem_take_iff (l pre : List Nat) (I : List Nat) (h : l = pre ++ I) : l.take pre.length = pre ∧ l.drop pre.length = I := by
  subst h; simp

/-- When the labelling succeeds, `inv` is a permutation of the nodes and `map` its inverse; the first `NS` labels are
exactly the nodes that are off the faces or on an outer or inner boundary, the remaining ones are the other face nodes;
`Iinv` lists these, `Imap` is its inverse (and undefined elsewhere), and the label of an interface node is NS plus its
interface label. -/
theorem C50_labels (n : Nat → Nat) (closed : Bool) (sfs : List SubFace) (L : Labels) (NS : Nat)
    (h : makeMapAndInv n closed sfs = .ok (L, NS)) :
    L.inv.Perm (List.range (n 0 * n 1 * n 2)) ∧
    (∀ q j, L.map q = some j ↔ L.inv[j]? = some q) ∧
    L.inv = L.inv.take NS ++ L.Iinv ∧ NS ≤ L.inv.length ∧
    (∀ q, q ∈ L.inv.take NS ↔ q < n 0 * n 1 * n 2 ∧ (¬ IsFaceNode n q ∨ OnBoundary sfs q)) ∧
    (∀ q, q ∈ L.Iinv ↔ q < n 0 * n 1 * n 2 ∧ IsFaceNode n q ∧ ¬ OnBoundary sfs q ∧ OnCoupling sfs q) ∧
    (∀ q i, L.Imap q = some i ↔ L.Iinv[i]? = some q) ∧
    (∀ q i, L.Imap q = some i → L.map q = some (NS + i)) := by
  unfold makeMapAndInv at h
  split at h
  · cases h
  · dsimp only at h
    have h00 : (⟨fun _ => none, [], fun _ => false, fun _ => none, []⟩ : Labels).Ok :=
      ⟨List.nodup_nil, by simp, by simp, List.nodup_nil, by simp⟩
    obtain ⟨a1, b1, c1, d1⟩ := inner_phase n _ h00 rfl (n 0 * n 1 * n 2)
    generalize (List.range (n 0 * n 1 * n 2)).foldl (fun (L : Labels) i => if onFace n i then L else L.put i)
      (⟨fun _ => none, [], fun _ => false, fun _ => none, []⟩ : Labels) = L1 at *
    obtain ⟨a2, b2, c2, d2⟩ := boundary_phase sfs L1 a1
    generalize sfs.foldl (fun L s => if s.outerB || s.innerB then s.id.foldl Labels.putS L else L) L1 = L2 at *
    have hI : L2.Iinv = [] := by rw [c2, c1]
    obtain ⟨a3, b3⟩ := coupling_phase sfs L2 L2.inv ⟨a2, by rw [hI]; simp⟩
    generalize sfs.foldl (fun L s => if s.innerB || s.outerB then L else s.id.foldl Labels.putI L) L2 = L3 at *
    split at h
    · cases h
    · rename_i hub
      split at h
      · cases h
      · split at h
        · cases h
        · rename_i hlen
          injection h with h
          injection h with hL hNS
          subst hL hNS
          simp only [List.any_eq_true, decide_eq_true_eq, not_exists, not_and, not_le] at hub
          push Not at hlen
          obtain ⟨ht, hd⟩ := mem_take_iff _ _ _ a3.tail
          have hlt : ∀ q ∈ L3.inv, q < n 0 * n 1 * n 2 := by
            intro q hq
            rcases (b3 q).1 hq with h | ⟨s, hs, _, _, hm⟩
            · rcases (b2 q).1 h with h | ⟨s, hs, _, hm⟩
              · exact ((b1 q).1 h).1
              · exact hub s hs q hm
            · exact hub s hs q hm
          have hS : ∀ q, q ∈ L2.inv ↔ q < n 0 * n 1 * n 2 ∧ (¬ IsFaceNode n q ∨ OnBoundary sfs q) := by
            intro q
            rw [b2, b1]
            constructor
            · rintro (⟨h1, h2⟩ | ⟨s, hs, h2, h3⟩)
              · exact ⟨h1, Or.inl (by rw [← onFace_iff n q h1, h2]; simp)⟩
              · exact ⟨hub s hs q h3, Or.inr ⟨s, hs, h2, h3⟩⟩
            · rintro ⟨h1, h2 | h2⟩
              · left; refine ⟨h1, ?_⟩
                rw [← onFace_iff n q h1, Bool.not_eq_true] at h2
                exact h2
              · exact Or.inr h2
          refine ⟨?_, a3.ok.map, ?_, ?_, ?_, ?_, a3.ok.Imap, ?_⟩
          · apply List.Subperm.perm_of_length_le
            · exact List.subperm_of_subset a3.ok.nodup (fun q hq => List.mem_range.2 (hlt q hq))
            · rw [List.length_range, hlen]
          · rw [ht]; exact a3.tail
          · rw [a3.tail]; simp
          · rw [ht]; exact hS
          · intro q
            have hnd := a3.ok.nodup
            rw [a3.tail, List.nodup_append] at hnd
            constructor
            · intro hq
              have hq3 : q ∈ L3.inv := by rw [a3.tail]; exact List.mem_append_right _ hq
              have hq2 : q ∉ L2.inv := fun h2 => hnd.2.2 q h2 q hq rfl
              have hlq := hlt q hq3
              have hn := (hS q).not.1 hq2
              refine ⟨hlq, ?_, ?_, ?_⟩
              · by_contra hf; exact hn ⟨hlq, Or.inl hf⟩
              · intro hb; exact hn ⟨hlq, Or.inr hb⟩
              · rcases (b3 q).1 hq3 with h | h
                · exact absurd h hq2
                · exact h
            · rintro ⟨hlq, hf, hb, hc⟩
              have hq3 := (b3 q).2 (Or.inr hc)
              rw [a3.tail, List.mem_append] at hq3
              rcases hq3 with h | h
              · rcases ((hS q).1 h).2 with h' | h'
                · exact absurd hf h'
                · exact absurd h' hb
              · exact h
          · intro q i hi
            have h1 := (a3.ok.Imap q i).1 hi
            rw [a3.ok.map, a3.tail, List.getElem?_append_right (by omega)]
            rw [← h1]; congr 1; omega

/-- The labelling succeeds exactly for an open patch whose subfaces are all external, list nodes of the patch only, and
between them list every face node. -/
theorem C50_succeeds (n : Nat → Nat) (closed : Bool) (sfs : List SubFace) (hid : ∀ s ∈ sfs, ∀ t ∈ s.id, t < n 0 * n 1 * n 2) :
    (∃ r, makeMapAndInv n closed sfs = .ok r) ↔
      closed = false ∧ (∀ s ∈ sfs, s.exterF = true) ∧
      ∀ q, q < n 0 * n 1 * n 2 → IsFaceNode n q → OnBoundary sfs q ∨ OnCoupling sfs q := by
  unfold makeMapAndInv
  cases closed with
  | true => simp
  | false =>
    rw [if_neg (by simp)]
    dsimp only
    have h00 : (⟨fun _ => none, [], fun _ => false, fun _ => none, []⟩ : Labels).Ok :=
      ⟨List.nodup_nil, by simp, by simp, List.nodup_nil, by simp⟩
    obtain ⟨a1, b1, c1, d1⟩ := inner_phase n _ h00 rfl (n 0 * n 1 * n 2)
    generalize (List.range (n 0 * n 1 * n 2)).foldl (fun (L : Labels) i => if onFace n i then L else L.put i)
      (⟨fun _ => none, [], fun _ => false, fun _ => none, []⟩ : Labels) = L1 at *
    obtain ⟨a2, b2, c2, d2⟩ := boundary_phase sfs L1 a1
    generalize sfs.foldl (fun L s => if s.outerB || s.innerB then s.id.foldl Labels.putS L else L) L1 = L2 at *
    have hI : L2.Iinv = [] := by rw [c2, c1]
    obtain ⟨a3, b3⟩ := coupling_phase sfs L2 L2.inv ⟨a2, by rw [hI]; simp⟩
    generalize sfs.foldl (fun L s => if s.innerB || s.outerB then L else s.id.foldl Labels.putI L) L2 = L3 at *
    have hub : ¬ (sfs.any (fun s => s.id.any (fun t => decide (n 0 * n 1 * n 2 ≤ t)))) = true := by
      simp only [List.any_eq_true, decide_eq_true_eq, not_exists, not_and, not_le]
      exact hid
    rw [if_neg hub]
    by_cases hx : sfs.any (fun s => !s.exterF) = true
    · rw [if_pos hx]
      simp only [List.any_eq_true, Bool.not_eq_true'] at hx
      obtain ⟨s, hs, he⟩ := hx
      constructor
      · rintro ⟨r, hr⟩; cases hr
      · rintro ⟨_, h, _⟩
        rw [h s hs] at he; cases he
    · rw [if_neg hx]
      have hx' : ∀ s ∈ sfs, s.exterF = true := by
        simpa only [List.any_eq_true, Bool.not_eq_true', not_exists, not_and, Bool.not_eq_false] using hx
      have hlt : ∀ q ∈ L3.inv, q < n 0 * n 1 * n 2 := by
        intro q hq
        rcases (b3 q).1 hq with h | ⟨s, hs, _, _, hm⟩
        · rcases (b2 q).1 h with h | ⟨s, hs, _, hm⟩
          · exact ((b1 q).1 h).1
          · exact hid s hs q hm
        · exact hid s hs q hm
      have hsp : L3.inv.Subperm (List.range (n 0 * n 1 * n 2)) :=
        List.subperm_of_subset a3.ok.nodup (fun q hq => List.mem_range.2 (hlt q hq))
      by_cases hlen : L3.inv.length = n 0 * n 1 * n 2
      · rw [if_neg (not_not.2 hlen)]
        refine ⟨fun _ => ⟨rfl, hx', ?_⟩, fun _ => ⟨_, rfl⟩⟩
        intro q hq hf
        have hp := hsp.perm_of_length_le (by rw [List.length_range, hlen])
        have hm : q ∈ L3.inv := hp.symm.subset (List.mem_range.2 hq)
        rcases (b3 q).1 hm with h | h
        · rcases (b2 q).1 h with h | h
          · rw [b1] at h
            rw [← onFace_iff n q hq, h.2] at hf
            cases hf
          · exact Or.inl h
        · exact Or.inr h
      · rw [if_pos hlen]
        constructor
        · rintro ⟨r, hr⟩; cases hr
        · rintro ⟨_, _, h⟩
          exfalso
          apply hlen
          have hsub : List.range (n 0 * n 1 * n 2) ⊆ L3.inv := by
            intro q hq
            rw [List.mem_range] at hq
            rw [b3, b2, b1]
            cases hF : onFace n q with
            | false => exact Or.inl (Or.inl ⟨hq, rfl⟩)
            | true =>
              rcases h q hq ((onFace_iff n q hq).1 hF) with h | h
              · exact Or.inl (Or.inr h)
              · exact Or.inr h
          have := (List.subperm_of_subset List.nodup_range hsub).length_le
          have h2 := hsp.length_le
          rw [List.length_range] at this h2
          omega

/-- a 3×3×3 patch: the face i = 0 is an outer boundary, the other faces are coupled -/
def labelEx : List SubFace :=
  [⟨[0,1,2,3,4,5,6,7,8], true, false, true⟩, ⟨[18,19,20,21,22,23,24,25,26], false, false, true⟩,
   ⟨[0,1,2,9,10,11,18,19,20], false, false, true⟩, ⟨[6,7,8,15,16,17,24,25,26], false, false, true⟩,
   ⟨[0,3,6,9,12,15,18,21,24], false, false, true⟩, ⟨[2,5,8,11,14,17,20,23,26], false, false, true⟩]

example : (match makeMapAndInv (fun _ => 3) false labelEx with
    | .ok (L, NS) => decide (NS = 10 ∧
        L.inv = [13,0,1,2,3,4,5,6,7,8,18,19,20,21,22,23,24,25,26,9,10,11,15,16,17,12,14] ∧
        L.Imap 9 = some 9 ∧ L.map 9 = some 19 ∧ L.Imap 0 = none)
    | _ => false) = true := by decide +kernel

end Elliptica.Schur
