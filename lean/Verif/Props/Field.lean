import Verif.Model.Field
import Verif.Lemmas.Swap
import Mathlib.Tactic.Common
/-!
Property C23 (field registry).
-/
namespace Elliptica.Field

/-- The specification: a finite map from names to contents. -/
abbrev AMap (V : Type) := Str → Option V

/-- Calls on the map; `none` when the call is illegal (adding an existing name, touching a missing one). -/
def astep {V : Type} (a : AMap V) : Op V → Option (AMap V)
  | .add n v => if a n = none then some (fun m => if m = n then some v else a m) else none
  | .remove n => if a n = none then none else some (fun m => if m = n then none else a m)
  | .removeRegex p => some (fun m => if p m = true then none else a m)
  | .store n v => if a n = none then none else some (fun m => if m = n then some v else a m)

def arun {V : Type} : AMap V → List (Op V) → Option (AMap V)
  | a, [] => some a
  | a, o :: os => match astep a o with
    | none => none
    | some a' => arun a' os

/-- The array represents the map: names are unique, and the map holds exactly the entries. -/
def Repr {V : Type} (l : Fields V) (a : AMap V) : Prop :=
  (l.map (·.name)).Nodup ∧ ∀ n v, a n = some v ↔ (⟨n, v⟩ : Fld V) ∈ l

theorem lookUp_none {V : Type} (l : Fields V) (n : Str) : lookUp l n = none ↔ ∀ f ∈ l, f.name ≠ n := by
  unfold lookUp; rw [List.findIdx?_eq_none_iff]; simp

theorem lookUp_some {V : Type} (l : Fields V) (hn : (l.map (·.name)).Nodup) (n : Str) (i : Nat) :
    lookUp l n = some i ↔ ∃ f, l[i]? = some f ∧ f.name = n := by
  unfold lookUp
  rw [List.findIdx?_eq_some_iff_getElem]
  constructor
  · rintro ⟨h, h1, -⟩
    exact ⟨l[i], List.getElem?_eq_getElem h, by simpa using h1⟩
  · rintro ⟨f, hf, hfn⟩
    obtain ⟨h, hf⟩ := List.getElem?_eq_some_iff.1 hf
    subst hf
    refine ⟨h, by simpa using hfn, ?_⟩
    intro j hj hc
    simp only [decide_eq_true_eq] at hc
    rw [List.nodup_iff_pairwise_ne, List.pairwise_iff_getElem] at hn
    have := hn j i (by simpa using (by omega : j < l.length)) (by simpa using h) hj
    simp only [List.getElem_map] at this
    exact this (hc.trans hfn.symm)

theorem repr_none {V : Type} {l : Fields V} {a : AMap V} (h : Repr l a) (n : Str) :
    a n = none ↔ ∀ f ∈ l, f.name ≠ n := by
  constructor
  · intro hn f hf hfn
    have := (h.2 n f.val).2 (by rw [← hfn]; exact hf)
    rw [hn] at this; cases this
  · intro hf
    cases ha : a n with
    | none => rfl
    | some v => exact absurd rfl (hf _ ((h.2 n v).1 ha))

theorem remove_perm {V : Type} (l : Fields V) (hn : (l.map (·.name)).Nodup) (n : Str) :
    (remove l n).Perm (l.filter fun f => decide (f.name ≠ n)) := by
  unfold remove
  cases hl : lookUp l n with
  | none =>
    rw [lookUp_none] at hl
    rw [List.filter_eq_self.2 (by simpa using hl)]
  | some i =>
    obtain ⟨f, hf, hfn⟩ := (lookUp_some l hn n i).1 hl
    obtain ⟨hi, hfe⟩ := List.getElem?_eq_some_iff.1 hf
    have hne : l ≠ [] := by rintro rfl; simp at hi
    dsimp only
    rw [List.getLast?_eq_some_getLast hne]
    dsimp only
    refine (Swap.swapLast_perm l i _ hi (List.getLast?_eq_some_getLast hne)).trans ?_
    have : l.eraseIdx i = l.filter fun f => decide (f.name ≠ n) := by
      have hsplit : l = l.take i ++ f :: l.drop (i + 1) := by
        rw [← hfe]; simp
      have hnd := hn
      rw [hsplit] at hnd
      simp only [List.map_append, List.map_cons, List.nodup_append, List.nodup_cons, List.mem_cons] at hnd
      obtain ⟨-, ⟨h2, -⟩, h3⟩ := hnd
      rw [List.eraseIdx_eq_take_drop_succ]
      conv_rhs => rw [hsplit]
      rw [List.filter_append, List.filter_cons, if_neg (by simp [hfn])]
      congr 1
      · rw [eq_comm, List.filter_eq_self]
        intro g hg
        simp only [decide_eq_true_eq]
        rw [← hfn]
        exact h3 _ (List.mem_map_of_mem hg) _ (.inl rfl)
      · rw [eq_comm, List.filter_eq_self]
        intro g hg
        simp only [decide_eq_true_eq]
        rw [← hfn]
        intro hc; exact h2 (hc ▸ List.mem_map_of_mem hg)
    exact this ▸ List.Perm.refl _

theorem remove_nodup {V : Type} (l : Fields V) (hn : (l.map (·.name)).Nodup) (n : Str) :
    ((remove l n).map (·.name)).Nodup := by
  rw [((remove_perm l hn n).map (·.name)).nodup_iff]
  exact (List.filter_sublist.map _).nodup hn

/-- the removing loop ends with exactly the fields that do not match -/
theorem removeLoop_mem {V : Type} (m : Str → Bool) : ∀ (fuel f : Nat) (l : Fields V), (l.map (·.name)).Nodup →
    l.length + 1 ≤ fuel + f → (∀ i x, i < f → l[i]? = some x → m x.name = false) →
    ((removeLoop m fuel f l).map (·.name)).Nodup ∧
    ∀ x, x ∈ removeLoop m fuel f l ↔ x ∈ l ∧ m x.name = false := by
  intro fuel
  induction fuel with
  | zero =>
    intro f l hn hf hpre
    refine ⟨hn, fun x => ?_⟩
    rw [removeLoop]
    constructor
    · intro hx
      obtain ⟨i, hi, rfl⟩ := List.mem_iff_getElem.1 hx
      exact ⟨hx, hpre i _ (by omega) (List.getElem?_eq_getElem hi)⟩
    · exact fun h => h.1
  | succ fuel ih =>
    intro f l hn hf hpre
    rw [removeLoop]
    cases hx : l[f]? with
    | none =>
      dsimp only
      refine ⟨hn, fun x => ?_⟩
      have hlen : l.length ≤ f := List.getElem?_eq_none_iff.1 hx
      constructor
      · intro h
        obtain ⟨i, hi, rfl⟩ := List.mem_iff_getElem.1 h
        exact ⟨h, hpre i _ (by omega) (List.getElem?_eq_getElem hi)⟩
      · exact fun h => h.1
    | some x =>
      dsimp only
      obtain ⟨hfl, hxe⟩ := List.getElem?_eq_some_iff.1 hx
      by_cases hm : m x.name = true
      · rw [if_pos hm]
        have hp := remove_perm l hn x.name
        have hlt : (remove l x.name).length < l.length := by
          rw [hp.length_eq]
          have := List.length_filter_lt_length_iff_exists (l := l) (p := fun g => decide (g.name ≠ x.name))
          rw [this]
          exact ⟨x, hxe ▸ List.getElem_mem hfl, by simp⟩
        -- the fields before f stay where they are
        have hpre' : ∀ i y, i < f → (remove l x.name)[i]? = some y → m y.name = false := by
          intro i y hi hy
          have hl : lookUp l x.name = some f := (lookUp_some l hn _ _).2 ⟨x, hx, rfl⟩
          have hne : l ≠ [] := by rintro rfl; simp at hfl
          rw [remove, hl] at hy
          dsimp only at hy
          rw [List.getLast?_eq_some_getLast hne] at hy
          dsimp only at hy
          rw [List.getElem?_dropLast] at hy
          split at hy
          · rw [List.getElem?_set_ne (by omega)] at hy
            exact hpre i y hi hy
          · cases hy
        obtain ⟨h1, h2⟩ := ih f (remove l x.name) (remove_nodup l hn _) (by omega) hpre'
        refine ⟨h1, fun y => ?_⟩
        rw [h2 y, hp.mem_iff, List.mem_filter]
        simp only [decide_eq_true_eq]
        constructor
        · rintro ⟨⟨a, _⟩, b⟩; exact ⟨a, b⟩
        · rintro ⟨a, b⟩
          refine ⟨⟨a, ?_⟩, b⟩
          intro hc; rw [hc, hm] at b; cases b
      · rw [if_neg hm]
        refine ih (f + 1) l hn (by omega) ?_
        intro i y hi hy
        by_cases h : i = f
        · subst h
          rw [hx] at hy
          cases hy
          simpa using hm
        · exact hpre i y (by omega) hy

theorem step_repr {V : Type} (l : Fields V) (a : AMap V) (h : Repr l a) (o : Op V) :
    match astep a o with
    | none => step l o = .abort
    | some a' => ∃ l', step l o = .ok l' ∧ Repr l' a' := by
  cases o with
  | add n v =>
    by_cases hn : a n = none
    · simp only [astep, if_pos hn]
      have hl : lookUp l n = none := (lookUp_none l n).2 ((repr_none h n).1 hn)
      refine ⟨l ++ [⟨n, v⟩], by simp [step, add, hl], ?_, ?_⟩
      · rw [List.map_append, List.nodup_append]
        refine ⟨h.1, by simp, ?_⟩
        intro x hx y hy
        obtain ⟨f, hf, rfl⟩ := List.mem_map.1 hx
        simp only [List.map_cons, List.map_nil, List.mem_singleton] at hy
        rw [hy]; exact (repr_none h n).1 hn f hf
      · intro m w
        by_cases hm : m = n
        · subst hm
          simp only [if_true, Option.some.injEq, List.mem_append, List.mem_singleton, Fld.mk.injEq, true_and]
          constructor
          · exact fun e => .inr e.symm
          · rintro (hc | hc)
            · exact absurd rfl ((repr_none h m).1 hn _ hc)
            · exact hc.symm
        · dsimp only
          rw [show (if m = n then some v else a m) = a m from if_neg hm, h.2 m w]
          simp only [List.mem_append, List.mem_singleton, Fld.mk.injEq, hm, false_and, or_false]
    · simp only [astep, if_neg hn]
      cases hl : lookUp l n with
      | none => exact absurd ((repr_none h n).2 ((lookUp_none l n).1 hl)) hn
      | some i => simp [step, add, hl]
  | remove n =>
    by_cases hn : a n = none
    · simp only [astep, if_pos hn]
      have hl : lookUp l n = none := (lookUp_none l n).2 ((repr_none h n).1 hn)
      simp [step, lookUpE, hl]
    · simp only [astep, if_neg hn]
      cases hl : lookUp l n with
      | none => exact absurd ((repr_none h n).2 ((lookUp_none l n).1 hl)) hn
      | some i =>
        refine ⟨remove l n, by simp [step, lookUpE, hl], remove_nodup l h.1 n, ?_⟩
        intro m w
        rw [(remove_perm l h.1 n).mem_iff, List.mem_filter]
        by_cases hm : m = n
        · simp [hm]
        · simp [hm, h.2 m w]
  | removeRegex p =>
    simp only [astep]
    obtain ⟨h1, h2⟩ := removeLoop_mem p (l.length + 1) 0 l h.1 (by omega) (fun i x hi => by omega)
    refine ⟨_, rfl, h1, ?_⟩
    intro m w
    unfold removeRegex
    rw [h2]
    by_cases hm : p m = true
    · simp [hm]
    · simp [hm, h.2 m w]
  | store n v =>
    by_cases hn : a n = none
    · simp only [astep, if_pos hn]
      have hl : lookUp l n = none := (lookUp_none l n).2 ((repr_none h n).1 hn)
      simp [step, lookUpE, hl]
    · simp only [astep, if_neg hn]
      cases hl : lookUp l n with
      | none => exact absurd ((repr_none h n).2 ((lookUp_none l n).1 hl)) hn
      | some i =>
        obtain ⟨f, hf, hfn⟩ := (lookUp_some l h.1 n i).1 hl
        obtain ⟨hi, hfe⟩ := List.getElem?_eq_some_iff.1 hf
        refine ⟨l.modify i fun f => { f with val := v }, by simp [step, lookUpE, hl], ?_, ?_⟩
        · have : (l.modify i fun f => { f with val := v }).map (·.name) = l.map (·.name) := by
            apply List.ext_getElem?
            intro j
            simp only [List.getElem?_map, List.getElem?_modify, Option.map_eq_map, Option.map_map]
            cases l[j]? with
            | none => rfl
            | some y => simp only [Option.map_some, Function.comp]; split <;> rfl
          rw [this]; exact h.1
        · intro m w
          have hmem : ∀ x : Fld V, x ∈ (l.modify i fun f => { f with val := v }) ↔
              (x = ⟨n, v⟩ ∨ (x ∈ l ∧ x.name ≠ n)) := by
            intro x
            rw [List.mem_iff_getElem?]
            simp only [List.getElem?_modify, Option.map_eq_map]
            constructor
            · rintro ⟨j, hj⟩
              by_cases hji : i = j
              · subst hji
                simp only [if_true, hf, Option.map_some, Option.some.injEq] at hj
                left; rw [← hj, ← hfn]
              · simp only [hji, if_false, Option.map_id_fun', id_eq] at hj
                right
                refine ⟨List.mem_of_getElem? hj, ?_⟩
                intro hc
                have := (lookUp_some l h.1 n j).2 ⟨x, hj, hc⟩
                rw [hl] at this; cases this; exact hji rfl
            · rintro (rfl | ⟨hx, hxn⟩)
              · exact ⟨i, by simp [hf, hfn]⟩
              · obtain ⟨j, hj⟩ := List.mem_iff_getElem?.1 hx
                refine ⟨j, ?_⟩
                by_cases hji : i = j
                · subst hji
                  rw [hf] at hj; cases hj
                  exact absurd hfn hxn
                · simp only [hji, if_false, Option.map_id_fun', id_eq, hj]
          rw [hmem]
          by_cases hm : m = n
          · subst hm; simp [eq_comm]
          · simp [hm, h.2 m w]

/-- C23: for every history of adding, removing (singly and by pattern) and storing, the registry agrees with a finite map:
an illegal call (adding an existing name, using a missing one) stops the program exactly when the map forbids it;
otherwise names stay unique, every name is found at the index where its contents are, and missing names are
reported missing. -/
theorem C23_registry {V : Type} (ops : List (Op V)) :
    match arun (fun _ => none) ops with
    | none => run [] ops = .abort
    | some a => ∃ l, run [] ops = .ok l ∧ (l.map (·.name)).Nodup ∧
        ∀ n, (a n = none → lookUp l n = none ∧ lookUpE l n = .abort) ∧
          ∀ v, a n = some v → ∃ i, lookUp l n = some i ∧ lookUpE l n = .ok i ∧ l[i]? = some ⟨n, v⟩ := by
  have key : ∀ (ops : List (Op V)) (l : Fields V) (a : AMap V), Repr l a →
      match arun a ops with
      | none => run l ops = .abort
      | some a' => ∃ l', run l ops = .ok l' ∧ Repr l' a' := by
    intro ops
    induction ops with
    | nil => intro l a h; exact ⟨l, rfl, h⟩
    | cons o ops ih =>
      intro l a h
      have hs := step_repr l a h o
      rw [arun]
      cases ha : astep a o with
      | none =>
        rw [ha] at hs
        simp only at hs ⊢
        rw [run, hs]; rfl
      | some a' =>
        rw [ha] at hs
        simp only at hs ⊢
        obtain ⟨l', hl', hr⟩ := hs
        have := ih l' a' hr
        cases hb : arun a' ops with
        | none => rw [hb] at this; simp only at this ⊢; rw [run, hl']; exact this
        | some b => rw [hb] at this; simp only at this ⊢; rw [run, hl']; exact this
  have := key ops [] (fun _ => none) ⟨by simp, by simp⟩
  cases hb : arun (fun _ => none) ops with
  | none => rw [hb] at this; exact this
  | some a =>
    rw [hb] at this
    simp only at this ⊢
    obtain ⟨l, hl, hr⟩ := this
    refine ⟨l, hl, hr.1, fun n => ⟨fun hn => ?_, fun v hv => ?_⟩⟩
    · have := (lookUp_none l n).2 ((repr_none hr n).1 hn)
      exact ⟨this, by rw [lookUpE, this]⟩
    · obtain ⟨i, hi⟩ := List.mem_iff_getElem?.1 ((hr.2 n v).1 hv)
      have := (lookUp_some l hr.1 n i).2 ⟨_, hi, rfl⟩
      exact ⟨i, this, by rw [lookUpE, this], hi⟩

/-- C23 (pattern search): the indices reported are exactly those of the matching fields, in increasing order. -/
theorem C23_index_regex {V : Type} (m : Str → Bool) (l : Fields V) :
    (∀ i, i ∈ indexRegex m 0 l ↔ ∃ f, l[i]? = some f ∧ m f.name = true) ∧
    (indexRegex m 0 l).Pairwise (· < ·) := by
  have key : ∀ (l : Fields V) (k : Nat),
      (∀ i, i ∈ indexRegex m k l ↔ k ≤ i ∧ ∃ f, l[i - k]? = some f ∧ m f.name = true) ∧
      (indexRegex m k l).Pairwise (· < ·) := by
    intro l
    induction l with
    | nil => intro k; simp [indexRegex]
    | cons x l ih =>
      intro k
      obtain ⟨h1, h2⟩ := ih (k + 1)
      have tail : ∀ i, i ∈ indexRegex m (k + 1) l ↔ k < i ∧ ∃ f, (x :: l)[i - k]? = some f ∧ m f.name = true := by
        intro i
        rw [h1]
        constructor
        · rintro ⟨ha, f, hf⟩
          exact ⟨ha, f, by rw [show i - k = (i - (k + 1)) + 1 by omega, List.getElem?_cons_succ]; exact hf⟩
        · rintro ⟨ha, f, hf⟩
          exact ⟨ha, f, by rw [show i - k = (i - (k + 1)) + 1 by omega, List.getElem?_cons_succ] at hf; exact hf⟩
      rw [indexRegex]
      by_cases hm : m x.name = true
      · rw [if_pos hm]
        refine ⟨fun i => ?_, List.pairwise_cons.2 ⟨fun i hi => ((tail i).1 hi).1, h2⟩⟩
        rw [List.mem_cons, tail]
        constructor
        · rintro (rfl | ⟨a, b⟩)
          · exact ⟨Nat.le_refl _, x, by simp, hm⟩
          · exact ⟨by omega, b⟩
        · rintro ⟨a, b⟩
          by_cases h : i = k
          · exact .inl h
          · exact .inr ⟨by omega, b⟩
      · rw [if_neg hm]
        refine ⟨fun i => ?_, h2⟩
        rw [tail]
        constructor
        · rintro ⟨a, b⟩; exact ⟨by omega, b⟩
        · rintro ⟨a, f, hf, hfm⟩
          refine ⟨?_, f, hf, hfm⟩
          by_cases h : i = k
          · subst h
            simp at hf; subst hf; exact absurd hfm hm
          · omega
  have := key l 0
  refine ⟨fun i => ?_, this.2⟩
  rw [this.1]; simp

example : ∃ l, run [] [.add "a".toList (1 : Nat), .add "b".toList 2, .add "ab".toList 3, .remove "a".toList,
    .store "b".toList 5] = .ok l ∧ l.map (·.val) = [3, 5] := ⟨_, rfl, rfl⟩
example : run [] [.add "a".toList (1 : Nat), .add "a".toList 2] = .abort := rfl
example : ∃ l, run [] [.add "xa".toList (1 : Nat), .add "b".toList 2, .add "xc".toList 3,
    .removeRegex (fun s => s.head? == some 'x')] = .ok l ∧ l.map (·.val) = [2] := ⟨_, rfl, rfl⟩

theorem occurs_iff (t s : Str) : occurs t s = true ↔ ∃ a b, s = a ++ t ++ b := by
  induction s with
  | nil =>
    simp only [occurs, List.isEmpty_iff]
    constructor
    · rintro rfl; exact ⟨[], [], rfl⟩
    · rintro ⟨a, b, h⟩
      have := congrArg List.length h
      simp only [List.length_nil, List.length_append] at this
      exact List.length_eq_zero_iff.1 (by omega)
  | cons c s ih =>
    simp only [occurs, Bool.or_eq_true, List.isPrefixOf_iff_prefix, ih]
    constructor
    · rintro (⟨b, hb⟩ | ⟨a, b, rfl⟩)
      · exact ⟨[], b, by simpa using hb.symm⟩
      · exact ⟨c :: a, b, rfl⟩
    · rintro ⟨a, b, h⟩
      cases a with
      | nil => exact .inl ⟨b, by simpa using h.symm⟩
      | cons x a =>
        simp only [List.cons_append, List.cons.injEq] at h
        exact .inr ⟨a, b, by simpa using h.2⟩

/-- C23 (attributes): after adding an attribute it is present, every attribute present before is still present, and
adding it again changes nothing; text without parentheses is refused. -/
theorem C23_attributes (attr : Option Str) (a : Str) :
    (('(' ∈ a ∧ ')' ∈ a) → ∃ s, addAttribute attr a = .ok (some s) ∧ occurs a s = true ∧
      (∀ b, (∃ s0, attr = some s0 ∧ occurs b s0 = true) → occurs b s = true) ∧
      addAttribute (some s) a = .ok (some s)) ∧
    (¬ ('(' ∈ a ∧ ')' ∈ a) → addAttribute attr a = .abort) := by
  refine ⟨fun hp => ?_, fun hp => by rw [addAttribute.eq_def, if_pos hp]⟩
  have hself : ∀ s : Str, occurs a s = true → addAttribute (some s) a = .ok (some s) := by
    intro s hs; rw [addAttribute.eq_def, if_neg (not_not.2 hp)]; simp [hs]
  cases attr with
  | none =>
    have : occurs a a = true := (occurs_iff a a).2 ⟨[], [], by simp⟩
    refine ⟨a, by rw [addAttribute.eq_def, if_neg (not_not.2 hp)], this, ?_, hself a this⟩
    rintro b ⟨s0, h, _⟩; cases h
  | some s =>
    by_cases ho : occurs a s = true
    · refine ⟨s, hself s ho, ho, ?_, hself s ho⟩
      rintro b ⟨s0, h, hb⟩; cases h; exact hb
    · have h1 : occurs a (s ++ a) = true := (occurs_iff _ _).2 ⟨s, [], by simp⟩
      refine ⟨s ++ a, by rw [addAttribute.eq_def, if_neg (not_not.2 hp)]; simp [ho], h1, ?_, hself _ h1⟩
      rintro b ⟨s0, h, hb⟩
      cases h
      obtain ⟨x, y, hxy⟩ := (occurs_iff _ _).1 hb
      exact (occurs_iff _ _).2 ⟨x, y ++ a, by rw [hxy]; simp⟩

example : addAttribute (some "(3dim)".toList) "(2dim)".toList = .ok (some "(3dim)(2dim)".toList) := by decide +kernel

end Elliptica.Field
