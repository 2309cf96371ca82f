import Verif.Spec.Interface
import Verif.Props.Finder
import Verif.Props.Index
import Mathlib.Algebra.Order.Field.Basic
/-!
Helper lemmas about the model of the interfaces: points of the faces, lists of subfaces, searches.
-/
namespace Elliptica.Iface

variable {K : Type} [Field K] [LinearOrder K]

/-! ### loops -/

theorem loop_cons_ok {σ α : Type} (g : σ → α → Res σ) (a : α) (l : List α) (s t : σ) (h : loop g (a :: l) s = .ok t) :
    ∃ u, g s a = .ok u ∧ loop g l u = .ok t := by
  unfold loop at h
  cases hg : g s a with
  | ok u => rw [hg, Res.bind_ok] at h; exact ⟨u, rfl, h⟩
  | abort => rw [hg] at h; cases h
  | ub => rw [hg] at h; cases h

theorem bind_eq_ok {α β : Type} {r : Res α} {f : α → Res β} {b : β} (h : r.bind f = .ok b) : ∃ a, r = .ok a ∧ f a = .ok b := by
  cases r with
  | ok a => exact ⟨a, rfl, h⟩
  | abort => cases h
  | ub => cases h

/-- a property that every step keeps holds at the end of the loop -/
theorem loop_inv {σ α : Type} (g : σ → α → Res σ) (I : σ → Prop) (l : List α)
    (h : ∀ a ∈ l, ∀ s t, I s → g s a = .ok t → I t) (s t : σ) (hs : I s) (hl : loop g l s = .ok t) : I t := by
  induction l generalizing s with
  | nil => cases hl; exact hs
  | cons a l ih =>
    obtain ⟨u, h1, h2⟩ := loop_cons_ok g a l s t hl
    exact ih (fun b hb => h b (List.mem_cons_of_mem _ hb)) u (h a (List.mem_cons_self ..) s u hs h1) h2

/-! ### points of the faces -/

theorem mem_triples (im iM jm jM km kM i j k : ℕ) : (i, j, k) ∈ triples im iM jm jM km kM ↔
    (im ≤ i ∧ i < iM) ∧ (jm ≤ j ∧ j < jM) ∧ km ≤ k ∧ k < kM := by
  unfold triples
  simp only [List.mem_flatMap, List.mem_range'_1, List.mem_map, Prod.mk.injEq]
  constructor
  · rintro ⟨a, ha, b, hb, c, hc, rfl, rfl, rfl⟩
    omega
  · rintro ⟨h1, h2, h3⟩
    exact ⟨i, by omega, j, by omega, k, by omega, rfl, rfl, rfl⟩

theorem lt6 {f : ℕ} (h : f < 6) : f = 0 ∨ f = 1 ∨ f = 2 ∨ f = 3 ∨ f = 4 ∨ f = 5 := by omega

/-- the triples of a face; the number of its points -/
def faceTriples (n : ℕ → ℕ) (f : ℕ) : List (ℕ × ℕ × ℕ) :=
  match box n f with
  | .ok (im, iM, jm, jM, km, kM, _) => triples im iM jm jM km kM
  | _ => []

theorem mem_faceTriples (n : ℕ → ℕ) (hn : ∀ d < 3, 0 < n d) (f : ℕ) (hf : f < 6) (i j k : ℕ) :
    (i, j, k) ∈ faceTriples n f ↔ On n f i j k := by
  have h0 := hn 0 (by omega); have h1 := hn 1 (by omega); have h2 := hn 2 (by omega)
  rcases lt6 hf with rfl | rfl | rfl | rfl | rfl | rfl
  · show (i, j, k) ∈ triples _ _ _ _ _ _ ↔ _; rw [mem_triples]; unfold On; omega
  · show (i, j, k) ∈ triples _ _ _ _ _ _ ↔ _; rw [mem_triples]; unfold On; omega
  · show (i, j, k) ∈ triples _ _ _ _ _ _ ↔ _; rw [mem_triples]; unfold On; omega
  · show (i, j, k) ∈ triples _ _ _ _ _ _ ↔ _; rw [mem_triples]; unfold On; omega
  · show (i, j, k) ∈ triples _ _ _ _ _ _ ↔ _; rw [mem_triples]; unfold On; omega
  · show (i, j, k) ∈ triples _ _ _ _ _ _ ↔ _; rw [mem_triples]; unfold On; omega

theorem two_digits (n a b a' b' : ℕ) (h : b + n * a = b' + n * a') (hb : b < n) (hb' : b' < n) : a = a' ∧ b = b' := by
  have hm := congrArg (· % n) h
  simp only [Nat.add_mul_mod_self_left, Nat.mod_eq_of_lt hb, Nat.mod_eq_of_lt hb'] at hm
  subst hm
  have : n * a = n * a' := by omega
  exact ⟨Nat.eq_of_mul_eq_mul_left (by omega) this, rfl⟩

theorem two_digits_lt (m n a b : ℕ) (ha : a < m) (hb : b < n) : b + n * a < m * n := by
  have : n * a + n ≤ n * m := by
    have := Nat.mul_le_mul_left n (show a + 1 ≤ m from ha); rw [Nat.mul_add, Nat.mul_one] at this; exact this
  rw [Nat.mul_comm m n]; omega

theorem l2_inj (n : ℕ → ℕ) (f : ℕ) (i j k i' j' k' : ℕ) (h : On n f i j k) (h' : On n f i' j' k')
    (he : l2 n f i j k = l2 n f i' j' k') : i = i' ∧ j = j' ∧ k = k' := by
  obtain ⟨a, b, c, h⟩ := h
  obtain ⟨a', b', c', h'⟩ := h'
  unfold l2 at he
  split at he
  · rename_i hc
    obtain ⟨e1, e2⟩ := two_digits _ _ _ _ _ he c c'
    refine ⟨?_, e1, e2⟩; omega
  · split at he
    · rename_i hc
      obtain ⟨e1, e2⟩ := two_digits _ _ _ _ _ he c c'
      refine ⟨e1, ?_, e2⟩; omega
    · obtain ⟨e1, e2⟩ := two_digits _ _ _ _ _ he b b'
      refine ⟨e1, e2, ?_⟩; omega

theorem l2_lt (n : ℕ → ℕ) (f : ℕ) (i j k : ℕ) (h : On n f i j k) : l2 n f i j k < faceNp n f := by
  obtain ⟨a, b, c, h⟩ := h
  have hf : f < 6 := by omega
  have e1 := two_digits_lt _ _ _ _ b c
  have e2 := two_digits_lt _ _ _ _ a c
  have e3 := two_digits_lt _ _ _ _ a b
  rcases lt6 hf with rfl | rfl | rfl | rfl | rfl | rfl <;> simp [faceNp, box, l2] <;> assumption

theorem l2_surj (n : ℕ → ℕ) (hn : ∀ d < 3, 0 < n d) (f q : ℕ) (hf : f < 6) (hq : q < faceNp n f) : ∃ i j k, On n f i j k ∧ l2 n f i j k = q := by
  have h0 := hn 0 (by omega); have h1 := hn 1 (by omega); have h2 := hn 2 (by omega)
  have dm : ∀ m, q % m + m * (q / m) = q := fun m => Nat.mod_add_div q m
  have lt : ∀ m, 0 < m → q % m < m := fun m h => Nat.mod_lt _ h
  have dv : ∀ m m', q < m' * m → q / m < m' := fun m m' h => Nat.div_lt_of_lt_mul (by rw [Nat.mul_comm]; exact h)
  rcases lt6 hf with rfl | rfl | rfl | rfl | rfl | rfl <;> simp only [faceNp, box] at hq
  · exact ⟨0, q / n 2, q % n 2, ⟨h0, dv _ _ hq, lt _ h2, by omega⟩, by simp [l2, dm]⟩
  · exact ⟨n 0 - 1, q / n 2, q % n 2, ⟨by omega, dv _ _ hq, lt _ h2, by omega⟩, by simp [l2, dm]⟩
  · exact ⟨q / n 2, 0, q % n 2, ⟨dv _ _ hq, h1, lt _ h2, by omega⟩, by simp [l2, dm]⟩
  · exact ⟨q / n 2, n 1 - 1, q % n 2, ⟨dv _ _ hq, by omega, lt _ h2, by omega⟩, by simp [l2, dm]⟩
  · exact ⟨q / n 1, q % n 1, 0, ⟨dv _ _ hq, lt _ h1, h2, by omega⟩, by simp [l2, dm]⟩
  · exact ⟨q / n 1, q % n 1, n 2 - 1, ⟨dv _ _ hq, lt _ h1, by omega, by omega⟩, by simp [l2, dm]⟩

theorem fold_fill (n : ℕ → ℕ) (f : ℕ) : ∀ (ts : List (ℕ × ℕ × ℕ)) (pt : ℕ → Point) (q : ℕ),
    ((∃ t ∈ ts, l2 n f t.1 t.2.1 t.2.2 = q ∧ (ts.foldl (fillPoint n f) pt q).ind = Index.ijk (n 1) (n 2) t.1 t.2.1 t.2.2 ∧
      (ts.foldl (fillPoint n f) pt q).exterF = true) ∨
     ((∀ t ∈ ts, l2 n f t.1 t.2.1 t.2.2 ≠ q) ∧ ts.foldl (fillPoint n f) pt q = pt q)) ∧
    ∃ i x e, ts.foldl (fillPoint n f) pt q = { pt q with ind := i, exterF := x, edge := e } := by
  intro ts
  induction ts with
  | nil => intro pt q; exact ⟨.inr ⟨by simp, rfl⟩, _, _, _, rfl⟩
  | cons t ts ih =>
    intro pt q
    rw [List.foldl_cons]
    obtain ⟨h1, i, x, e, h2⟩ := ih (fillPoint n f pt t) q
    constructor
    · rcases h1 with ⟨t', ht', h⟩ | ⟨h, he⟩
      · exact .inl ⟨t', List.mem_cons_of_mem _ ht', h⟩
      · rw [he]
        by_cases hq : l2 n f t.1 t.2.1 t.2.2 = q
        · refine .inl ⟨t, List.mem_cons_self .., hq, ?_, ?_⟩ <;> simp [fillPoint, hq]
        · refine .inr ⟨?_, ?_⟩
          · intro t' ht'
            rcases List.mem_cons.1 ht' with rfl | ht'
            · exact hq
            · exact h t' ht'
          · simp only [fillPoint]; rw [if_neg (Ne.symm hq)]
    · rw [h2]
      simp only [fillPoint]
      split
      · exact ⟨i, x, e, rfl⟩
      · exact ⟨i, x, e, rfl⟩

theorem basic_eq (n : ℕ → ℕ) (f : ℕ) (b : ℕ → Point) (h : basics n f = .ok b) : basic n f = b := by unfold basic; rw [h]

theorem basics_fold (n : ℕ → ℕ) (f : ℕ) (b : ℕ → Point) (h : basics n f = .ok b) :
    b = (faceTriples n f).foldl (fillPoint n f) fun _ => Point.zero := by
  unfold basics at h
  unfold faceTriples
  cases hb : box n f with
  | ok x =>
    rw [hb] at h
    obtain ⟨im, iM, jm, jM, km, kM, s⟩ := x
    rw [Res.bind_ok] at h
    dsimp only at h ⊢
    split at h
    · cases h; rfl
    · cases h
  | abort => rw [hb] at h; cases h
  | ub => rw [hb] at h; cases h

/-- the directions of a patch that passes `fill_basics` have nodes, or it has no points on its faces -/
theorem initPatch_ok (n : ℕ → ℕ) (P : PState) (h : initPatch n = .ok P) :
    P = ⟨basic n, fun _ => [], fun _ => false, fun _ => false, false, fun _ => false⟩ ∧
    ∀ f < 6, ∃ b, basics n f = .ok b := by
  unfold initPatch at h
  split at h
  · rename_i hb
    cases h
    refine ⟨rfl, fun f hf => ?_⟩
    have := List.all_eq_true.1 hb f (List.mem_range.2 hf)
    revert this
    cases basics n f with
    | ok b => intro _; exact ⟨b, rfl⟩
    | abort => simp
    | ub => simp
  · cases h

section
variable (n : ℕ → ℕ) (hb : ∀ f < 6, ∃ b, basics n f = .ok b)
include hb

theorem basic_rest (f : ℕ) (hf : f < 6) (q : ℕ) : ∃ i x e, basic n f q = { Point.zero with ind := i, exterF := x, edge := e } := by
  obtain ⟨b, h⟩ := hb f hf
  rw [basic_eq n f b h, basics_fold n f b h]
  exact (fold_fill n f _ _ q).2

variable (hn : ∀ d < 3, 0 < n d)
include hn

theorem basic_at (f : ℕ) (i j k : ℕ) (h : On n f i j k) : (basic n f (l2 n f i j k)).ind = Index.ijk (n 1) (n 2) i j k ∧
    (basic n f (l2 n f i j k)).exterF = true := by
  have hf : f < 6 := by unfold On at h; omega
  obtain ⟨b, hb⟩ := hb f hf
  rw [basic_eq n f b hb, basics_fold n f b hb]
  rcases (fold_fill n f (faceTriples n f) (fun _ => Point.zero) (l2 n f i j k)).1 with ⟨⟨i', j', k'⟩, ht, h1, h2, h3⟩ | ⟨h1, -⟩
  · rw [mem_faceTriples n hn f hf] at ht
    obtain ⟨rfl, rfl, rfl⟩ := l2_inj n f _ _ _ _ _ _ ht h h1
    exact ⟨h2, h3⟩
  · exact absurd rfl (h1 (i, j, k) ((mem_faceTriples n hn f hf i j k).2 h))

theorem basic_of (f q : ℕ) (hf : f < 6) (hq : q < faceNp n f) : ∃ i j k, On n f i j k ∧ l2 n f i j k = q ∧
    (basic n f q).ind = Index.ijk (n 1) (n 2) i j k ∧ (basic n f q).exterF = true := by
  obtain ⟨i, j, k, h, rfl⟩ := l2_surj n hn f q hf hq
  exact ⟨i, j, k, h, rfl, basic_at n hb hn f i j k h⟩

theorem ijk_inj (i j k i' j' k' : ℕ) (hj : j < n 1) (hk : k < n 2) (hj' : j' < n 1) (hk' : k' < n 2)
    (h : Index.ijk (n 1) (n 2) i j k = Index.ijk (n 1) (n 2) i' j' k') : i = i' ∧ j = j' ∧ k = k' := by
  unfold Index.ijk at h
  obtain ⟨h1, h2⟩ := two_digits _ _ _ _ _ h hk hk'
  obtain ⟨h3, h4⟩ := two_digits _ _ _ _ _ h1 hj hj'
  exact ⟨h3, h4, h2⟩

theorem basic_inj (f q q' : ℕ) (hf : f < 6) (hq : q < faceNp n f) (hq' : q' < faceNp n f)
    (h : (basic n f q).ind = (basic n f q').ind) : q = q' := by
  obtain ⟨i, j, k, h1, rfl, h2, -⟩ := basic_of n hb hn f q hf hq
  obtain ⟨i', j', k', h1', rfl, h2', -⟩ := basic_of n hb hn f q' hf hq'
  rw [h2, h2'] at h
  obtain ⟨rfl, rfl, rfl⟩ := ijk_inj n hb hn _ _ _ _ _ _ h1.2.1 h1.2.2.1 h1'.2.1 h1'.2.2.1 h
  rfl
end

/-! ### lists of subfaces -/

/-- the subface with the given flags -/
def look (l : List Sub) (k : Key) : Option Sub := l.find? fun s => decide (s.key = k)

theorem look_cons (s : Sub) (l : List Sub) (k : Key) : look (s :: l) k = if s.key = k then some s else look l k := by
  unfold look
  rw [List.find?_cons]
  by_cases h : s.key = k <;> simp [h]

theorem look_key {l : List Sub} {k : Key} {s : Sub} (h : look l k = some s) : s.key = k := by
  have := List.find?_some h
  simpa using this

theorem look_mem {l : List Sub} {k : Key} {s : Sub} (h : look l k = some s) : s ∈ l := List.mem_of_find?_eq_some h

theorem mem_look {l : List Sub} (hn : (l.map Sub.key).Nodup) {s : Sub} (h : s ∈ l) : look l s.key = some s := by
  induction l with
  | nil => simp at h
  | cons a l ih =>
    rw [List.map_cons, List.nodup_cons] at hn
    rw [look_cons]
    rcases List.mem_cons.1 h with rfl | h
    · rw [if_pos rfl]
    · rw [if_neg, ih hn.2 h]
      intro he
      exact hn.1 (he ▸ List.mem_map_of_mem h)

theorem look_addSub (t : Point) (k : Key) : ∀ (l : List Sub) (m : ℕ), look (addSub t m l) k =
    if k = t.key then some (((look l k).getD (t.sub (m + l.length))).add t) else look l k := by
  intro l
  induction l with
  | nil =>
    intro m
    unfold addSub
    rw [look_cons]
    by_cases h : k = t.key
    · subst h; simp [Sub.add, Point.sub, look]
    · have : ((t.sub m).add t).key ≠ k := by simpa [Sub.add, Point.sub] using Ne.symm h
      rw [if_neg this, if_neg h]
  | cons s l ih =>
    intro m
    unfold addSub
    split
    · rename_i hs
      rw [look_cons, look_cons]
      by_cases h : k = t.key
      · subst h; simp [Sub.add, hs]
      · have : (s.add t).key ≠ k := by simpa [Sub.add, hs] using Ne.symm h
        rw [if_neg this, if_neg h, if_neg (by rw [hs]; exact Ne.symm h)]
    · rename_i hs
      rw [look_cons, look_cons, ih]
      by_cases h : k = t.key
      · subst h
        rw [if_neg hs, if_neg hs, if_pos rfl, if_pos rfl, List.length_cons]
        have : m + 1 + l.length = m + (l.length + 1) := by omega
        rw [this]
      · simp only [if_neg h]

theorem addSub_keys (t : Point) : ∀ (l : List Sub) (m : ℕ), (addSub t m l).map Sub.key =
    if t.key ∈ l.map Sub.key then l.map Sub.key else l.map Sub.key ++ [t.key] := by
  intro l
  induction l with
  | nil => intro m; simp [addSub, Sub.add, Point.sub]
  | cons s l ih =>
    intro m
    unfold addSub
    split
    · rename_i hs
      simp [Sub.add, hs]
    · rename_i hs
      rw [List.map_cons, ih, List.map_cons]
      simp only [List.mem_cons]
      by_cases h : t.key ∈ l.map Sub.key
      · rw [if_pos h, if_pos (.inr h)]
      · rw [if_neg h, if_neg (by rintro (h' | h'); exact hs h'.symm; exact h h')]
        rfl

theorem addSub_nodup (t : Point) (l : List Sub) (m : ℕ) (h : (l.map Sub.key).Nodup) : ((addSub t m l).map Sub.key).Nodup := by
  rw [addSub_keys]
  split
  · exact h
  · rename_i hk
    rw [List.nodup_append]
    refine ⟨h, by simp, ?_⟩
    rintro a ha b hb rfl
    rw [List.mem_singleton] at hb
    exact hk (hb ▸ ha)

/-- the subfaces are numbered from m on -/
def Numbered (m : ℕ) : List Sub → Prop
  | [] => True
  | s :: l => s.sn = m ∧ Numbered (m + 1) l

theorem addSub_numbered (t : Point) : ∀ (l : List Sub) (m : ℕ), Numbered m l → Numbered m (addSub t m l) := by
  intro l
  induction l with
  | nil => intro m _; exact ⟨rfl, trivial⟩
  | cons s l ih =>
    intro m h
    unfold addSub
    split
    · exact ⟨h.1, h.2⟩
    · exact ⟨h.1, ih _ h.2⟩

theorem Numbered.get {l : List Sub} : ∀ {m : ℕ}, Numbered m l → ∀ {i : ℕ} {s : Sub}, l[i]? = some s → s.sn = m + i := by
  induction l with
  | nil => intro m _ i s h; simp at h
  | cons a l ih =>
    intro m h i s hs
    cases i with
    | zero => rw [List.getElem?_cons_zero, Option.some.injEq] at hs; rw [← hs]; exact h.1
    | succ i => rw [List.getElem?_cons_succ] at hs; rw [ih h.2 hs]; omega

/-! ### searches -/

/-- `point_finder` with excluded patches answers with the patches of the grid that accept the position and are not excluded -/
theorem search_ok (np : ℕ) (accept : ℕ → Bool) (ex : List ℕ) (h : ex ≠ []) : ∃ r, search np accept ex = .ok r ∧
    ∀ a, a ∈ r ↔ a < np ∧ a ∉ ex ∧ accept a = true := by
  obtain ⟨nd, h1, -, h3⟩ := Finder.C20_iff np accept (ex.map .ex) (by simp)
  refine ⟨nd.ans, by unfold search; rw [h1]; rfl, fun a => ?_⟩
  obtain ⟨x, l, rfl⟩ := List.exists_cons_of_ne_nil h
  rw [h3 (by simp) ⟨x, by simp⟩]
  simp

theorem best_spec (d : ℕ → ℕ → K) : ∀ (l : List (ℕ × ℕ)) (b : Option (ℕ × ℕ)) (c : ℕ × ℕ), best d l b = some c →
    (c ∈ l ∨ b = some c) ∧ (∀ x ∈ l, |d c.1 c.2 + 1| ≤ |d x.1 x.2 + 1|) ∧ ∀ x, b = some x → |d c.1 c.2 + 1| ≤ |d x.1 x.2 + 1| := by
  intro l
  induction l with
  | nil =>
    intro b c h
    unfold best at h
    exact ⟨.inr h, by simp, fun x hx => by rw [h] at hx; cases hx; exact le_refl _⟩
  | cons y l ih =>
    intro b c h
    cases b with
    | none =>
      unfold best at h
      obtain ⟨h1, h2, h3⟩ := ih _ _ h
      refine ⟨.inl ?_, fun x hx => ?_, fun x hx => by cases hx⟩
      · rcases h1 with h1 | h1
        · exact List.mem_cons_of_mem _ h1
        · cases h1; exact List.mem_cons_self ..
      · rcases List.mem_cons.1 hx with rfl | hx
        · exact h3 _ rfl
        · exact h2 x hx
    | some b =>
      unfold best at h
      rw [sub_neg_eq_add, sub_neg_eq_add] at h
      split at h
      · rename_i hlt
        obtain ⟨h1, h2, h3⟩ := ih _ _ h
        have hy := h3 _ rfl
        refine ⟨.inl ?_, fun x hx => ?_, fun x hx => ?_⟩
        · rcases h1 with h1 | h1
          · exact List.mem_cons_of_mem _ h1
          · cases h1; exact List.mem_cons_self ..
        · rcases List.mem_cons.1 hx with rfl | hx
          · exact hy
          · exact h2 x hx
        · cases hx; exact le_trans hy hlt.le
      · rename_i hlt
        obtain ⟨h1, h2, h3⟩ := ih _ _ h
        refine ⟨?_, fun x hx => ?_, fun x hx => h3 x hx⟩
        · rcases h1 with h1 | h1
          · exact .inl (List.mem_cons_of_mem _ h1)
          · exact .inr h1
        · rcases List.mem_cons.1 hx with rfl | hx
          · exact le_trans (h3 _ rfl) (not_lt.1 hlt)
          · exact h2 x hx

theorem best_none (d : ℕ → ℕ → K) (l : List (ℕ × ℕ)) : best d l none = none ↔ l = [] := by
  have some_ne : ∀ (l : List (ℕ × ℕ)) b, best d l (some b) ≠ none := by
    intro l
    induction l with
    | nil => intro b; simp [best]
    | cons y l ih => intro b; unfold best; split <;> exact ih _
  cases l with
  | nil => simp [best]
  | cons y l => simp only [best, reduceCtorEq, iff_false]; exact some_ne l y

end Elliptica.Iface
