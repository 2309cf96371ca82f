import Verif.Lemmas.ParamStr
/-! Helper lemmas: decimal numbers and the multiplicity notation. -/
namespace Elliptica.ParamLemmas
open Elliptica Params ParamSpec

/-! ### decimals -/

theorem digit_ofNat (d : Nat) (h : d < 10) :
    (Char.ofNat (48 + d)).isDigit = true ∧ digitVal (Char.ofNat (48 + d)) = d ∧
    Char.ofNat (48 + d) ≠ '-' ∧ Char.ofNat (48 + d) ≠ '+' ∧ isSpaceC (Char.ofNat (48 + d)) = false ∧
    Char.ofNat (48 + d) ≠ '(' ∧ Char.ofNat (48 + d) ≠ '>' := by
  have : d = 0 ∨ d = 1 ∨ d = 2 ∨ d = 3 ∨ d = 4 ∨ d = 5 ∨ d = 6 ∨ d = 7 ∨ d = 8 ∨ d = 9 := by omega
  rcases this with h | h | h | h | h | h | h | h | h | h <;> subst h <;> decide

theorem atoiAcc_append (a : Str) (ha : ∀ c ∈ a, c.isDigit) (acc : Nat) (b : Str) :
    atoiAcc acc (a ++ b) = atoiAcc (atoiAcc acc a) b := by
  induction a generalizing acc with
  | nil => rfl
  | cons c a ih =>
    have hc : c.isDigit = true := ha c (by simp)
    simp only [List.cons_append, atoiAcc, hc, if_true]
    exact ih (fun x hx => ha x (by simp [hx])) _

theorem showNatAux_fuel (n f g : Nat) (hf : n < f) (hg : n < g) : showNatAux f n = showNatAux g n := by
  induction n using Nat.strongRecOn generalizing f g with
  | _ n ih =>
    cases f with
    | zero => omega
    | succ f =>
      cases g with
      | zero => omega
      | succ g =>
        simp only [showNatAux]
        split
        · rfl
        · rw [ih (n/10) (by omega) f g (by omega) (by omega)]

theorem showNat_eq (n : Nat) : showNat n =
    if n < 10 then [Char.ofNat (48 + n)] else showNat (n / 10) ++ [Char.ofNat (48 + n % 10)] := by
  show showNatAux (n+1) n = _
  rw [showNatAux]
  split
  · rfl
  · rw [showNatAux_fuel (n/10) n (n/10+1) (by omega) (by omega)]; rfl

theorem showNat_digits (n : Nat) : ∀ c ∈ showNat n, ∃ d < 10, c = Char.ofNat (48 + d) := by
  induction n using Nat.strongRecOn with
  | _ n ih =>
    rw [showNat_eq]
    split
    · rename_i h; intro c hc; simp at hc; exact ⟨n, h, hc⟩
    · intro c hc
      rcases List.mem_append.mp hc with hc | hc
      · exact ih (n/10) (by omega) c hc
      · simp at hc; exact ⟨n % 10, by omega, hc⟩

theorem showNat_isDigit (n : Nat) : ∀ c ∈ showNat n, c.isDigit = true := by
  intro c hc
  obtain ⟨d, hd, rfl⟩ := showNat_digits n c hc
  exact (digit_ofNat d hd).1

theorem showNat_ne_nil (n : Nat) : showNat n ≠ [] := by
  rw [showNat_eq]; split <;> simp

theorem atoiAcc_showNat (n : Nat) : atoiAcc 0 (showNat n) = n := by
  induction n using Nat.strongRecOn with
  | _ n ih =>
    rw [showNat_eq]
    split
    · rename_i h
      obtain ⟨h1, h2, _⟩ := digit_ofNat n h
      simp only [atoiAcc, h1, if_true, h2]; omega
    · rw [atoiAcc_append _ (showNat_isDigit _), ih (n/10) (by omega)]
      obtain ⟨h1, h2, _⟩ := digit_ofNat (n % 10) (by omega)
      simp only [atoiAcc, h1, if_true, h2]; omega

theorem atoi_showNat (n : Nat) : atoi (showNat n) = n := by
  have hn := showNat_ne_nil n
  have hd := showNat_digits n
  have ha := atoiAcc_showNat n
  cases h : showNat n with
  | nil => exact absurd h hn
  | cons c r =>
    rw [h] at hd ha
    obtain ⟨d, hd', hc⟩ := hd c (by simp)
    obtain ⟨h1, h2, h3, h4, h5, -⟩ := digit_ofNat d hd'
    rw [← hc] at h1 h2 h3 h4 h5
    unfold atoi
    rw [List.dropWhile_cons_of_neg (by simp [h5])]
    split
    · rename_i heq; simp at heq; exact absurd heq.1 h3
    · rename_i heq; simp at heq; exact absurd heq.1 h4
    · rw [ha]

theorem atoi_showInt (i : Int) : atoi (showInt i) = i := by
  unfold showInt
  split
  · rename_i h
    unfold atoi
    rw [List.dropWhile_cons_of_neg (by decide)]
    simp only [atoiAcc_showNat]; omega
  · rw [atoi_showNat]; omega

theorem showInt_chars (i : Int) : ∀ c ∈ showInt i, c = '-' ∨ c.isDigit = true := by
  intro c hc
  unfold showInt at hc
  split at hc
  · rcases List.mem_cons.mp hc with h | h
    · exact .inl h
    · exact .inr (showNat_isDigit _ c h)
  · exact .inr (showNat_isDigit _ c hc)

theorem showInt_ne_nil (i : Int) : showInt i ≠ [] := by
  unfold showInt; split
  · simp
  · exact showNat_ne_nil _

theorem showInt_ne_blank (i : Int) : showInt i ≠ [' '] := by
  intro h
  have := showInt_chars i ' ' (by rw [h]; simp)
  revert this; decide

theorem infix_mem {a s : Str} (h : a <:+: s) {c : Char} (hc : c ∈ a) : c ∈ s := h.subset hc

theorem showInt_plain (i : Int) : ¬ HasArrow (showInt i) ∧ ¬ HasMult (showInt i) := by
  constructor
  · intro h
    have := showInt_chars i '>' (infix_mem h (by simp))
    revert this; decide
  · rintro ⟨ds, -, -, h⟩
    have := showInt_chars i '(' (infix_mem h (by simp))
    revert this; decide

theorem atoiR_showInt (i : Int) (h1 : -(INT_MAX+1) ≤ i) (h2 : i ≤ INT_MAX) :
    atoiR (showInt i) = .ok i := by
  unfold atoiR; simp only [atoi_showInt]; rw [if_pos ⟨h1, h2⟩]

/-! ### multiplicities -/

theorem multAt_some (ds post : Str) (hd : ∀ c ∈ ds, c.isDigit) (hn : ds ≠ []) :
    multAt ('(' :: 'x' :: (ds ++ ')' :: post)) = some (ds, post) := by
  have h1 : List.takeWhile Char.isDigit (ds ++ ')' :: post) = ds := by
    rw [List.takeWhile_append_of_pos hd]; simp
  have h2 : List.dropWhile Char.isDigit (ds ++ ')' :: post) = ')' :: post := by
    rw [List.dropWhile_append_of_pos hd]; simp
  simp only [multAt, h1, h2]
  simp [hn]

theorem multAt_eq_some (s ds post : Str) (h : multAt s = some (ds, post)) :
    s = ['(', 'x'] ++ ds ++ [')'] ++ post ∧ ds ≠ [] ∧ ∀ c ∈ ds, c.isDigit := by
  unfold multAt at h
  split at h
  · rename_i r
    simp only at h
    split at h
    · rename_i hc
      simp only [Option.some.injEq, Prod.mk.injEq] at h
      obtain ⟨rfl, rfl⟩ := h
      refine ⟨?_, hc.1, ?_⟩
      · have : List.dropWhile Char.isDigit r = ')' :: (List.dropWhile Char.isDigit r).tail := by
          cases hdr : List.dropWhile Char.isDigit r with
          | nil => rw [hdr] at hc; simp at hc
          | cons a b => rw [hdr] at hc; simp at hc; simp [hc.2]
        have e := List.takeWhile_append_dropWhile (p := Char.isDigit) (l := r)
        conv => lhs; rw [← e, this]
        simp
      · intro c hc
        have := List.all_takeWhile (p := Char.isDigit) (l := r)
        rw [List.all_eq_true] at this
        exact this c hc
    · simp at h
  · simp at h

theorem multAt_none_of_head (c : Char) (r : Str) (h : c ≠ '(') : multAt (c :: r) = none := by
  unfold multAt
  split
  · rename_i heq; simp at heq; exact absurd heq.1 h
  · rfl

theorem findMult_append (pre ds post : Str) (hp : '(' ∉ pre) (hd : ∀ c ∈ ds, c.isDigit) (hn : ds ≠ []) :
    findMult (pre ++ '(' :: 'x' :: (ds ++ ')' :: post)) = some (pre, ds, post) := by
  induction pre with
  | nil => simp only [List.nil_append, findMult, multAt_some ds post hd hn]
  | cons c pre ih =>
    have hc : c ≠ '(' := fun e => hp (by simp [e])
    rw [List.cons_append, findMult, multAt_none_of_head _ _ hc]
    simp only
    rw [ih (fun h => hp (by simp [h]))]
    simp

theorem findMult_none_iff (s : Str) : findMult s = none ↔ ¬ HasMult s := by
  induction s with
  | nil =>
    simp only [findMult, true_iff]
    rintro ⟨ds, -, -, h⟩
    have := h.length_le
    simp at this
  | cons c r ih =>
    rw [findMult]
    cases hm : multAt (c :: r) with
    | some p =>
      obtain ⟨ds, post⟩ := p
      simp only [reduceCtorEq, false_iff, Classical.not_not]
      obtain ⟨h1, h2, h3⟩ := multAt_eq_some _ _ _ hm
      exact ⟨ds, h2, h3, [], post, by rw [h1]; simp⟩
    | none =>
      simp only [Option.map_eq_none_iff, ih]
      constructor
      · rintro h ⟨ds, h1, h2, h3⟩
        rw [List.infix_cons_iff] at h3
        rcases h3 with h3 | h3
        · obtain ⟨t, ht⟩ := h3
          have := multAt_some ds t h2 h1
          rw [← ht] at hm
          simp at hm this
          rw [hm] at this; simp at this
        · exact h ⟨ds, h1, h2, h3⟩
      · rintro h ⟨ds, h1, h2, h3⟩
        exact h ⟨ds, h1, h2, List.infix_cons_iff.2 (.inr h3)⟩

theorem findMult_none_of_paren (s : Str) (h : '(' ∉ s) : findMult s = none := by
  rw [findMult_none_iff]
  rintro ⟨ds, -, -, hi⟩
  exact h (infix_mem hi (by simp))

/-- `a1->a2->...->ak->` -/
def arrowPre : List Str → Str
  | [] => []
  | a :: as => a ++ '-' :: '>' :: arrowPre as

/-- `->b1->b2->...->bk` -/
def arrowPost : List Str → Str
  | [] => []
  | b :: bs => '-' :: '>' :: (b ++ arrowPost bs)

theorem join_cons_post (x : Str) (bs : List Str) : joinArrow (x :: bs) = x ++ arrowPost bs := by
  induction bs generalizing x with
  | nil => simp [joinArrow, arrowPost]
  | cons b bs ih => rw [joinArrow_cons_cons, ih]; rfl

theorem join_append (as : List Str) (x : Str) (bs : List Str) :
    joinArrow (as ++ x :: bs) = arrowPre as ++ joinArrow (x :: bs) := by
  induction as with
  | nil => rfl
  | cons a as ih =>
    cases as with
    | nil => simp [joinArrow, arrowPre]
    | cons a' as => simp only [List.cons_append] at *; rw [joinArrow_cons_cons, ih]; simp [arrowPre]

theorem arrowPre_end (as : List Str) : arrowPre as = [] ∨ ∃ t, arrowPre as = t ++ ['>'] := by
  induction as with
  | nil => exact .inl rfl
  | cons a as ih =>
    right
    rcases ih with h | ⟨t, h⟩
    · exact ⟨a ++ ['-'], by simp [arrowPre, h]⟩
    · exact ⟨a ++ '-' :: '>' :: t, by simp [arrowPre, h]⟩

theorem splitLastGt_pre (as : List Str) (v : Str) (hv : '>' ∉ v) :
    splitLastGt (arrowPre as ++ v) = (arrowPre as, v) := by
  have h1 : ∀ c ∈ v.reverse, (decide (c ≠ '>')) = true := by
    intro c hc; simp at hc ⊢; exact fun e => hv (e ▸ hc)
  unfold splitLastGt
  simp only [List.reverse_append]
  rw [List.takeWhile_append_of_pos h1, List.dropWhile_append_of_pos h1]
  rcases arrowPre_end as with h | ⟨t, h⟩
  · simp [h]
  · rw [h]; simp

theorem mem_arrowPre {c : Char} {as : List Str} (h : c ∈ arrowPre as) :
    c = '-' ∨ c = '>' ∨ ∃ a ∈ as, c ∈ a := by
  induction as with
  | nil => simp [arrowPre] at h
  | cons a as ih =>
    simp only [arrowPre, List.mem_append, List.mem_cons] at h
    rcases h with h | h | h | h
    · exact .inr (.inr ⟨a, by simp, h⟩)
    · exact .inl h
    · exact .inr (.inl h)
    · rcases ih h with h | h | ⟨b, hb, h⟩
      · exact .inl h
      · exact .inr (.inl h)
      · exact .inr (.inr ⟨b, by simp [hb], h⟩)

theorem arrowPost_append (as bs : List Str) : arrowPost (as ++ bs) = arrowPost as ++ arrowPost bs := by
  induction as with
  | nil => rfl
  | cons a as ih => simp [arrowPost, ih]

theorem join_replicate_post (v : Str) (m : Nat) (hm : 1 ≤ m) (bs : List Str) :
    joinArrow (List.replicate m v) ++ arrowPost bs = joinArrow (List.replicate m v ++ bs) := by
  cases m with
  | zero => omega
  | succ m =>
    rw [List.replicate_succ, List.cons_append, join_cons_post, join_cons_post, arrowPost_append]
    simp

/-- conditions on the values of an item list -/
def ItemsOK (items : List (Str × Option Nat)) : Prop :=
  ∀ p ∈ items, '>' ∉ p.1 ∧ '(' ∉ p.1 ∧ ∀ m, p.2 = some m → 1 ≤ m ∧ (m : Int) ≤ INT_MAX

theorem multStep_item (done : List Str) (v : Str) (m : Nat) (rest : List (Str × Option Nat))
    (hd : ∀ a ∈ done, '(' ∉ a) (hv1 : '>' ∉ v) (hv2 : '(' ∉ v) (hm : 1 ≤ m) (hm2 : (m : Int) ≤ INT_MAX) :
    multStep (joinArrow (done ++ renderItem (v, some m) :: rest.map renderItem)) =
      .ok (some (joinArrow (done ++ List.replicate m v ++ rest.map renderItem))) := by
  rw [join_append, join_cons_post]
  have e : arrowPre done ++ (renderItem (v, some m) ++ arrowPost (rest.map renderItem)) =
      (arrowPre done ++ v) ++ '(' :: 'x' :: (showNat m ++ ')' :: arrowPost (rest.map renderItem)) := by
    simp [renderItem]
  have hp : '(' ∉ arrowPre done ++ v := by
    intro h
    rcases List.mem_append.mp h with h | h
    · rcases mem_arrowPre h with h | h | ⟨a, ha, h⟩
      · revert h; decide
      · revert h; decide
      · exact hd a ha h
    · exact hv2 h
  rw [e, multStep, findMult_append _ _ _ hp (showNat_isDigit m) (showNat_ne_nil m)]
  simp only [splitLastGt_pre done v hv1]
  have : atoiR (showNat m) = .ok (m : Int) := by
    unfold atoiR; simp only [atoi_showNat]; rw [if_pos]; constructor
    · unfold INT_MAX; omega
    · exact hm2
  rw [this]
  simp only
  rw [if_neg (by omega)]
  congr 2
  rw [List.append_assoc, Int.toNat_natCast, join_replicate_post _ _ hm]
  cases m with
  | zero => omega
  | succ m =>
    rw [List.append_assoc, List.replicate_succ, List.cons_append, join_append]

theorem expand_cons_none (v : Str) (rest) : expand ((v, none) :: rest) = v :: expand rest := by
  simp [expand]
theorem expand_cons_some (v : Str) (m : Nat) (rest) :
    expand ((v, some m) :: rest) = List.replicate m v ++ expand rest := by
  simp [expand]

theorem multLoop_items (items : List (Str × Option Nat)) (done : List Str) (fuel : Nat)
    (hd : ∀ a ∈ done, '(' ∉ a) (hi : ItemsOK items) (hne : done ++ items.map renderItem ≠ [])
    (hf : items.countP (fun p => p.2.isSome) ≤ fuel) :
    multLoop fuel (joinArrow (done ++ items.map renderItem)) = .ok (joinArrow (done ++ expand items)) := by
  induction items generalizing done fuel with
  | nil =>
    simp only [List.map_nil, List.append_nil, expand, List.flatMap_nil]
    cases fuel with
    | zero => rfl
    | succ fuel =>
      have : findMult (joinArrow done) = none := by
        apply findMult_none_of_paren
        cases done with
        | nil => simp [joinArrow]
        | cons a as =>
          intro h
          have : joinArrow (a :: as) <+: arrowPre (a :: as) := by
            clear h hf hne hi
            induction as generalizing a with
            | nil => simp [joinArrow, arrowPre]
            | cons b bs ih =>
              rw [joinArrow_cons_cons, arrowPre]
              have := ih (fun x hx => hd x (by simp at hx ⊢; grind)) (a := b)
              obtain ⟨t, ht⟩ := this
              exact ⟨t, by rw [← ht]; simp⟩
          rcases mem_arrowPre (this.subset h) with h | h | ⟨x, hx, h⟩
          · revert h; decide
          · revert h; decide
          · exact hd x hx h
      simp [multLoop, multStep, this]
  | cons p rest ih =>
    obtain ⟨v, mo⟩ := p
    obtain ⟨h1, h2, h3⟩ := hi (v, mo) (by simp)
    have hi' : ItemsOK rest := fun q hq => hi q (by simp [hq])
    cases mo with
    | none =>
      have := ih (done ++ [v]) fuel (by
        intro a ha
        rcases List.mem_append.mp ha with ha | ha
        · exact hd a ha
        · simp at ha; subst ha; exact h2) hi' (by simp) (by simpa using hf)
      simp only [List.append_assoc, List.singleton_append] at this
      rw [expand_cons_none]
      simpa [renderItem] using this
    | some m =>
      obtain ⟨hm1, hm2⟩ := h3 m rfl
      cases fuel with
      | zero => simp at hf
      | succ fuel =>
        rw [multLoop, List.map_cons, multStep_item done v m rest hd h1 h2 hm1 hm2]
        simp only [Res.bind_ok]
        rw [ih (done ++ List.replicate m v) fuel (by
          intro a ha
          rcases List.mem_append.mp ha with ha | ha
          · exact hd a ha
          · simp at ha; rw [ha.2]; exact h2) hi' (by simp; omega) (by simp at hf; omega),
          expand_cons_some]
        simp

theorem length_join_items (items : List (Str × Option Nat)) :
    items.countP (fun p => p.2.isSome) ≤ (arrowPost (items.map renderItem)).length := by
  induction items with
  | nil => simp [arrowPost]
  | cons p rest ih =>
    obtain ⟨v, mo⟩ := p
    have := ih
    simp only [List.countP_cons, List.map_cons, arrowPost, List.length_cons, List.length_append]
    split <;> omega

theorem last_join (items : List Str) (h : items ≠ []) :
    ∃ t, joinArrow items = t ++ items.getLast h := by
  induction items with
  | nil => exact absurd rfl h
  | cons a as ih =>
    cases as with
    | nil => exact ⟨[], by simp [joinArrow]⟩
    | cons b bs =>
      obtain ⟨t, ht⟩ := ih (by simp)
      exact ⟨a ++ '-' :: '>' :: t, by rw [joinArrow_cons_cons, ht]; simp⟩

theorem parseMult_items (items : List (Str × Option Nat)) (hne : items ≠ []) (hi : ItemsOK items)
    (hv : ∀ p ∈ items, p.1 ≠ []) :
    parseMult (joinArrow (items.map renderItem)) = .ok (joinArrow (expand items)) := by
  unfold parseMult
  rw [if_neg]
  · have := multLoop_items items [] (joinArrow (items.map renderItem)).length (by simp) hi (by simpa using hne) ?_
    · simpa using this
    · cases items with
      | nil => exact absurd rfl hne
      | cons p rest =>
        rw [List.map_cons, join_cons_post]
        have h1 := length_join_items rest
        have h2 : 1 ≤ (renderItem p).length := by
          obtain ⟨v, mo⟩ := p
          have := hv (v, mo) (by simp)
          have : 1 ≤ v.length := by cases v with
            | nil => simp at this
            | cons _ _ => simp
          cases mo <;> simp [renderItem] <;> omega
        rw [List.countP_cons, List.length_append]
        split <;> omega
  · -- the text does not end with "->"
    have hm : items.map renderItem ≠ [] := by simpa using hne
    obtain ⟨t, ht⟩ := last_join _ hm
    rw [ht]
    have hl : ∃ p ∈ items, (items.map renderItem).getLast hm = renderItem p := by
      have := List.getLast_mem hm
      obtain ⟨p, hp, e⟩ := List.mem_map.mp this
      exact ⟨p, hp, e.symm⟩
    obtain ⟨p, hp, e⟩ := hl
    rw [e]
    obtain ⟨v, mo⟩ := p
    obtain ⟨h1, -, -⟩ := hi _ hp
    have hvne := hv _ hp
    simp only at h1 hvne
    intro hc
    cases mo with
    | none =>
      obtain ⟨w, c, rfl⟩ : ∃ w c, v = w ++ [c] := ⟨v.dropLast, v.getLast hvne, (List.dropLast_concat_getLast hvne).symm⟩
      simp [renderItem] at hc
      exact h1 (by simp [hc.1])
    | some m => simp [renderItem] at hc

end Elliptica.ParamLemmas
