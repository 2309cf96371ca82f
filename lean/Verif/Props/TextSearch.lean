import Verif.Model.Text
import Mathlib.Data.List.Forall2
import Mathlib.Tactic.IntervalCases
/-!
Property C46: comparing, searching and replacing text.
-/
namespace Elliptica.Props.TextSearch
open Elliptica.Text

/-- Specification: two letters are the same up to case -/
def SameLetter (a b : Char) : Prop := a = b ∨ (a.isLower = true ∧ b.isUpper = true ∧ a.toNat = b.toNat + 32) ∨
  (b.isLower = true ∧ a.isUpper = true ∧ b.toNat = a.toNat + 32)

theorem ofNat_toNat_add (c : Char) (h1 : 'A' ≤ c) (h2 : c ≤ 'Z') : (Char.ofNat (c.toNat + 32)).toNat = c.toNat + 32 := by
  have a1 : 65 ≤ c.toNat := h1
  have a2 : c.toNat ≤ 90 := h2
  generalize c.toNat = n at *
  interval_cases n <;> rfl

theorem lower_toNat (c : Char) : (lower c).toNat = if 65 ≤ c.toNat ∧ c.toNat ≤ 90 then c.toNat + 32 else c.toNat := by
  unfold lower
  by_cases h : 'A' ≤ c ∧ c ≤ 'Z'
  · have h' : 65 ≤ c.toNat ∧ c.toNat ≤ 90 := h
    rw [if_pos h, if_pos h', ofNat_toNat_add c h.1 h.2]
  · have h' : ¬ (65 ≤ c.toNat ∧ c.toNat ≤ 90) := h
    rw [if_neg h, if_neg h']

theorem lower_eq_iff (a b : Char) : lower a = lower b ↔ SameLetter a b := by
  have key : ∀ x y : Char, x = y ↔ x.toNat = y.toNat := fun x y =>
    ⟨fun h => h ▸ rfl, fun h => by rwa [Char.toNat_inj] at h⟩
  have up : ∀ x : Char, x.isUpper = true ↔ 65 ≤ x.toNat ∧ x.toNat ≤ 90 := by
    intro x; unfold Char.isUpper; rw [decide_eq_true_iff]; rfl
  have lo : ∀ x : Char, x.isLower = true ↔ 97 ≤ x.toNat ∧ x.toNat ≤ 122 := by
    intro x; unfold Char.isLower; rw [Bool.and_eq_true, decide_eq_true_iff, decide_eq_true_iff]; rfl
  rw [key, lower_toNat, lower_toNat]
  unfold SameLetter
  rw [key, up, up, lo, lo]
  split <;> split <;> omega

/-- C46: the case-insensitive comparison of two strings says yes exactly when they have the same length and the same
letters up to case; a null pointer is never equal to anything. -/
theorem C46_strcmp_i (a b : Option Str) :
    strcmpI a b = true ↔ ∃ x y, a = some x ∧ b = some y ∧ List.Forall₂ SameLetter x y := by
  match a, b with
  | none, _ => simp [strcmpI]
  | some _, none => simp [strcmpI]
  | some x, some y =>
    simp only [strcmpI, decide_eq_true_eq, Option.some.injEq]
    have : ∀ x y : Str, x.map lower = y.map lower ↔ List.Forall₂ SameLetter x y := by
      intro x
      induction x with
      | nil => intro y; cases y <;> simp
      | cons c x ih => intro y; cases y <;> simp [ih, lower_eq_iff]
    rw [this]
    constructor
    · intro h; exact ⟨x, y, rfl, rfl, h⟩
    · rintro ⟨_, _, rfl, rfl, h⟩; exact h

theorem occursIn_iff (b s : Str) : occursIn b s = true ↔ b <:+: s := by
  induction s with
  | nil => cases b <;> simp [occursIn]
  | cons x r ih => simp [occursIn, ih, List.infix_cons_iff]

/-- C46: the case-insensitive search says yes exactly when some stretch of the haystack is the needle up to case. -/
theorem C46_strstr_i (a b : Option Str) :
    strstrI a b = true ↔ ∃ x y u m v, a = some x ∧ b = some y ∧ x = u ++ m ++ v ∧ List.Forall₂ SameLetter m y := by
  match a, b with
  | none, _ => simp [strstrI]
  | some _, none => simp [strstrI]
  | some x, some y =>
    simp only [strstrI, occursIn_iff, Option.some.injEq]
    have hmap : ∀ x y : Str, x.map lower = y.map lower ↔ List.Forall₂ SameLetter x y := by
      intro x y
      have := C46_strcmp_i (some x) (some y)
      simp only [strcmpI, decide_eq_true_eq, Option.some.injEq] at this
      rw [this]
      constructor
      · rintro ⟨_, _, rfl, rfl, h⟩; exact h
      · intro h; exact ⟨_, _, rfl, rfl, h⟩
    constructor
    · rintro ⟨u, v, h⟩
      obtain ⟨p, q, rfl, hp, hq⟩ := List.map_eq_append_iff.1 h.symm
      obtain ⟨p1, p2, rfl, h1, h2⟩ := List.map_eq_append_iff.1 hp
      exact ⟨_, _, p1, p2, q, rfl, rfl, rfl, (hmap _ _).1 h2⟩
    · rintro ⟨_, _, u, m, v, rfl, rfl, rfl, h⟩
      refine ⟨u.map lower, v.map lower, ?_⟩
      rw [← (hmap _ _).2 h]; simp

/-- C46: the position found in a list of names is that of the first entry equal to the needle, letter for letter. -/
theorem C46_find_index (l : List Str) (needle : Str) :
    (∀ i, findIndexString l needle = some i ↔ l[i]? = some needle ∧ ∀ j < i, l[j]? ≠ some needle) ∧
    (findIndexString l needle = none ↔ needle ∉ l) := by
  induction l with
  | nil => simp [findIndexString]
  | cons h t ih =>
    obtain ⟨ih1, ih2⟩ := ih
    unfold findIndexString
    by_cases hh : h = needle
    · rw [if_pos hh]
      refine ⟨fun i => ⟨?_, ?_⟩, by simp [hh]⟩
      · intro e; simp at e; subst e; simp [hh]
      · rintro ⟨_, h2⟩
        match i with
        | 0 => rfl
        | i + 1 => exact absurd (by simp [hh]) (h2 0 (by omega))
    · rw [if_neg hh]
      refine ⟨fun i => ?_, ?_⟩
      · match i with
        | 0 => simp [hh]
        | i + 1 =>
          simp only [Option.map_eq_some_iff, Nat.add_right_cancel_iff, exists_eq_right, ih1, List.getElem?_cons_succ]
          constructor
          · rintro ⟨h1, h2⟩
            refine ⟨h1, fun j hj => ?_⟩
            match j with
            | 0 => simpa using hh
            | j + 1 => simpa using h2 j (by omega)
          · rintro ⟨h1, h2⟩
            exact ⟨h1, fun j hj => by simpa using h2 (j + 1) (by omega)⟩
      · simp only [Option.map_eq_none_iff, ih2, List.mem_cons, not_or]
        exact ⟨fun h' => ⟨fun e => hh e.symm, h'⟩, fun h' => h'.2⟩

theorem afterChr_none (c : Char) (s : Str) : afterChr c s = none ↔ c ∉ s := by
  induction s with
  | nil => simp [afterChr]
  | cons x r ih =>
    unfold afterChr
    by_cases h : x = c
    · simp [h]
    · simp [h, ih, Ne.symm h]

theorem afterChr_some (c : Char) (s r : Str) (h : afterChr c s = some r) : ∃ u, s = u ++ c :: r ∧ c ∉ u := by
  induction s with
  | nil => simp [afterChr] at h
  | cons x s ih =>
    unfold afterChr at h
    by_cases hx : x = c
    · simp [hx] at h; subst h; exact ⟨[], by simp [hx], by simp⟩
    · simp [hx] at h
      obtain ⟨u, rfl, hu⟩ := ih h
      exact ⟨x :: u, rfl, by simp [hu, Ne.symm hx]⟩

theorem formatLoop_iff (ds : List Char) : ∀ s, formatLoop ds s = true ↔ ds.Sublist s := by
  induction ds with
  | nil => intro s; simp [formatLoop]
  | cons d ds ih =>
    intro s
    unfold formatLoop
    split
    · rename_i h
      rw [afterChr_none] at h
      simp only [Bool.false_eq_true, false_iff]
      intro hs; exact h (hs.subset (by simp))
    · rename_i r h
      obtain ⟨u, rfl, hu⟩ := afterChr_some d s r h
      rw [ih]
      clear h
      induction u with
      | nil => simp
      | cons a u ihu =>
        simp only [List.mem_cons, not_or] at hu
        rw [ihu hu.2, List.cons_append]
        constructor
        · intro h; exact h.cons a
        · intro h
          cases h with
          | cons _ h => exact h
          | cons_cons _ _ => exact absurd rfl hu.1

/-- C46: the format check says yes exactly when the string, up to the first occurrence of the format's last delimiter,
contains the format's delimiters in their order.  Missing for the full property: formats whose last delimiter occurs
twice, and formats without delimiters (below). -/
theorem C46_format_partial (s format : Str) (l : Char) (hl : (format.filter (· ≠ '?')).getLast? = some l) :
    checkFormat (some s) format = .ok true ↔
      ∃ p q, s = p ++ l :: q ∧ l ∉ p ∧ (format.filter (· ≠ '?')).Sublist (p ++ [l]) := by
  simp only [checkFormat, hl]
  by_cases hs : l ∈ s
  · rw [if_pos hs]
    simp only [Res.ok.injEq, formatLoop_iff]
    constructor
    · intro h
      obtain ⟨r, hr⟩ := Option.ne_none_iff_exists'.1 (fun h => ((afterChr_none l s).1 h) hs)
      obtain ⟨u, rfl, hu⟩ := afterChr_some l s r hr
      refine ⟨u, r, rfl, hu, ?_⟩
      have : (u ++ l :: r).takeWhile (· ≠ l) = u := by
        rw [List.takeWhile_append_of_pos (by intro a ha; simp only [ne_eq, decide_not, Bool.not_eq_eq_eq_not, Bool.not_true, decide_eq_false_iff_not]; rintro rfl; exact hu ha)]; simp
      rwa [this] at h
    · rintro ⟨u, r, rfl, hu, h⟩
      have : (u ++ l :: r).takeWhile (· ≠ l) = u := by
        rw [List.takeWhile_append_of_pos (by intro a ha; simp only [ne_eq, decide_not, Bool.not_eq_eq_eq_not, Bool.not_true, decide_eq_false_iff_not]; rintro rfl; exact hu ha)]; simp
      rwa [this]
  · rw [if_neg hs]
    simp only [Res.ok.injEq, Bool.false_eq_true, false_iff]
    rintro ⟨p, q, rfl, -, -⟩
    simp at hs

/-- C46, violation: a format whose last delimiter also occurs earlier is never recognised, because the string is cut at
the first occurrence of that delimiter ... -/
theorem C46_format_violation (s format : Str) (l : Char) (hl : (format.filter (· ≠ '?')).getLast? = some l)
    (h2 : 2 ≤ (format.filter (· ≠ '?')).count l) : checkFormat (some s) format = .ok false := by
  have h := C46_format_partial s format l hl
  have hne : ¬ checkFormat (some s) format = .ok true := by
    rw [h]
    rintro ⟨p, q, -, hp, hs⟩
    have := hs.count_le l
    have h1 : List.count l [l] = 1 := by simp
    rw [List.count_append, List.count_eq_zero.2 hp, h1] at this
    omega
  simp only [checkFormat, hl] at hne ⊢
  by_cases hs : l ∈ s
  · rw [if_pos hs] at hne ⊢
    cases hf : formatLoop (format.filter (· ≠ '?')) (s.takeWhile (· ≠ l) ++ [l])
    · rfl
    · exact absurd (by rw [hf]) hne
  · rw [if_neg hs]

/-- ... e.g. "a|b|c" does not comply with "?|?|?"; and a format without delimiters reads a null pointer. -/
theorem C46_format_witness :
    checkFormat (some "a|b|c".toList) "?|?|?".toList = .ok false ∧
    ("?|?|?".toList.filter (· ≠ '?')).Sublist "a|b|c".toList ∧
    checkFormat (some "a".toList) "?".toList = .ub := by decide +kernel

example : checkFormat (some "{a(b)|c} rest".toList) "{?(?)|?}".toList = .ok true ∧
    ("{?(?)|?}".toList.filter (· ≠ '?')).getLast? = some '}' := by decide +kernel

/-! ### replacing -/

/-- The search finds the leftmost occurrence of the literal text `w`. -/
def FindsLiteral (w : Str) (find : Str → Option (Nat × Nat)) : Prop :=
  ∀ s, (find s = none ↔ ¬ w <:+: s) ∧
    ∀ so len, find s = some (so, len) → len = w.length ∧ w <+: s.drop so ∧ ∀ k < so, ¬ w <+: s.drop k

/-- Specification of "all occurrences of `w` replaced by `r`, from left to right": up to the first occurrence the text is
kept, the occurrence is exchanged, and the text behind it is treated in the same way. -/
inductive Replaced (w r : Str) : Str → Str → Prop
  | done (s : Str) : ¬ w <:+: s → Replaced w r s s
  | step (u t t' : Str) : (∀ k < u.length, ¬ w <+: (u ++ w ++ t).drop k) → Replaced w r t t' →
      Replaced w r (u ++ w ++ t) (u ++ r ++ t')

theorem replaceLoop_spec (w r : Str) (hw : w ≠ []) (find : Str → Option (Nat × Nat)) (hf : FindsLiteral w find) :
    ∀ (fuel : Nat) (s : Str) (m : Nat × Nat), s.length < fuel → find s = some m →
      Replaced w r s (replaceLoop find r fuel s m) := by
  have hw0 : 0 < w.length := List.length_pos_iff.2 hw
  intro fuel
  induction fuel with
  | zero => intro s m h; omega
  | succ fuel ih =>
    rintro s ⟨so, len⟩ hl hm
    obtain ⟨rfl, ⟨t, ht⟩, h3⟩ := (hf s).2 so len hm
    have hsd : s = s.take so ++ w ++ t := by
      conv_lhs => rw [← List.take_append_drop so s, ← ht, ← List.append_assoc]
    have hrest : s.drop (so + w.length) = t := by
      rw [← List.drop_drop, ← ht]; simp
    have hlen : s.length = (s.take so).length + w.length + t.length := by
      conv_lhs => rw [hsd]
      simp only [List.length_append]
    unfold replaceLoop
    simp only [hrest]
    have hso : (s.take so).length ≤ so := by simp
    have hmin : ∀ k < (s.take so).length, ¬ w <+: (s.take so ++ w ++ t).drop k := by
      intro k hk; rw [← hsd]; exact h3 k (by omega)
    conv_lhs => rw [hsd]
    refine Replaced.step _ _ _ hmin ?_
    cases hft : find t with
    | none => exact .done _ ((hf t).1.1 hft)
    | some m' =>
      obtain ⟨so', len'⟩ := m'
      have := ((hf t).2 so' len' hft).1
      simp only
      rw [if_neg (by omega)]
      exact ih t _ (by omega) hft

/-- C46: replacing a literal text replaces every occurrence, from left to right, and reports whether there was one.
Missing for the full property: patterns tied to the beginning of the string (below). -/
theorem C46_replace_partial (w r s : Str) (hw : w ≠ []) (find : Str → Option (Nat × Nat)) (hf : FindsLiteral w find) :
    Replaced w r s (regexReplace find s r).2 ∧ ((regexReplace find s r).1 = true ↔ w <:+: s) := by
  unfold regexReplace
  cases hm : find s with
  | none => exact ⟨.done _ ((hf s).1.1 hm), by simpa using (hf s).1.1 hm⟩
  | some m =>
    refine ⟨replaceLoop_spec w r hw find hf _ s m (by omega) hm, ?_⟩
    simp only [true_iff]
    by_contra h
    rw [((hf s).1).2 h] at hm; simp at hm

/-- a search for literal text, to show that the hypothesis can be met -/
def litFind (w : Str) : Str → Option (Nat × Nat)
  | [] => if w = [] then some (0, 0) else none
  | c :: s => if w.isPrefixOf (c :: s) then some (0, w.length) else (litFind w s).map (fun m => (m.1 + 1, m.2))

theorem litFind_spec (w : Str) : FindsLiteral w (litFind w) := by
  intro s
  induction s with
  | nil => by_cases h : w = [] <;> simp [litFind, h]
  | cons c s ih =>
    unfold litFind
    by_cases h : w.isPrefixOf (c :: s) = true
    · rw [if_pos h]
      have hp := List.isPrefixOf_iff_prefix.1 h
      refine ⟨by simpa using hp.isInfix, ?_⟩
      intro so len e
      simp only [Option.some.injEq, Prod.mk.injEq] at e
      obtain ⟨rfl, rfl⟩ := e
      exact ⟨rfl, hp, by simp⟩
    · rw [if_neg h]
      have hp : ¬ w <+: c :: s := fun hp => h (List.isPrefixOf_iff_prefix.2 hp)
      refine ⟨by simp [ih.1, List.infix_cons_iff, hp], ?_⟩
      intro so len e
      simp only [Option.map_eq_some_iff, Prod.mk.injEq] at e
      obtain ⟨⟨so', len'⟩, hm, rfl, rfl⟩ := e
      obtain ⟨h1, h2, h3⟩ := ih.2 _ _ hm
      refine ⟨h1, h2, ?_⟩
      intro k hk
      match k with
      | 0 => simpa using hp
      | k + 1 => simpa using h3 k (by simpa using hk)

example : regexReplace (litFind "NS".toList) "NS1_NS".toList "BH".toList = (true, "BH1_BH".toList) := by decide +kernel

/-- C46, violation: a pattern tied to the beginning of the string (as in pr_for_fields.c:431, "^.?\\(") is matched again
after each replacement, because the search restarts on the rest of the string as if it were a string of its own.
Here "^ab" is removed twice from "ababx". -/
theorem C46_anchor_violation :
    let find : Str → Option (Nat × Nat) := fun s => if "ab".toList <+: s then some (0, 2) else none
    regexReplace find "ababx".toList [] = (true, "x".toList) := by decide +kernel

end Elliptica.Props.TextSearch
