import Verif.Spec.Params
import Verif.Lemmas.Chars
/-! Helper lemmas about the string functions of the parameter data base. -/
namespace Elliptica.ParamLemmas
open Elliptica Params ParamSpec

/-! ### names -/

theorem mem_map_upper (s : Str) : '_' ∈ s.map Char.toUpper ↔ '_' ∈ s := by
  simp only [List.mem_map, Chars.toUpper_us]; simp
theorem mem_map_lower (s : Str) : '_' ∈ s.map Char.toLower ↔ '_' ∈ s := by
  simp only [List.mem_map, Chars.toLower_us]; simp

theorem nameRule_split (a b : Str) (h : '_' ∉ a) :
    nameRule (a ++ '_' :: b) = a.map Char.toUpper ++ '_' :: b.map Char.toLower := by
  have h1 : ∀ c ∈ a, c ≠ '_' := fun c hc e => h (e ▸ hc)
  have : (List.takeWhile (· ≠ '_') (a ++ '_' :: b)) = a := by
    rw [List.takeWhile_append_of_pos (by simpa using h1)]; simp
  have h2 : (List.dropWhile (· ≠ '_') (a ++ '_' :: b)) = '_' :: b := by
    rw [List.dropWhile_append_of_pos (by simpa using h1)]; simp
  simp only [nameRule, this, h2]
  simp

theorem nameRule_none (s : Str) (h : '_' ∉ s) : nameRule s = s.map Char.toLower := by
  simp [nameRule, h]

theorem split_us (s : Str) (h : '_' ∈ s) : ∃ a b, s = a ++ '_' :: b ∧ '_' ∉ a := by
  induction s with
  | nil => simp at h
  | cons c s ih =>
    by_cases hc : c = '_'
    · exact ⟨[], s, by simp [hc], by simp⟩
    · have : '_' ∈ s := by
        rcases List.mem_cons.mp h with h | h
        · exact absurd h.symm hc
        · exact h
      obtain ⟨a, b, rfl, hb⟩ := ih this
      exact ⟨c :: a, b, by simp, by simp [hb, Ne.symm hc]⟩

theorem lower_nameRule (s : Str) : (nameRule s).map Char.toLower = s.map Char.toLower := by
  by_cases h : '_' ∈ s
  · obtain ⟨a, b, rfl, ha⟩ := split_us s h
    rw [nameRule_split _ _ ha]
    simp [Function.comp_def, Chars.toLower_toUpper, Chars.toLower_toLower]
  · rw [nameRule_none _ h]; simp [Function.comp_def, Chars.toLower_toLower]

theorem nameRule_lower (s : Str) : nameRule (s.map Char.toLower) = nameRule s := by
  by_cases h : '_' ∈ s
  · obtain ⟨a, b, rfl, ha⟩ := split_us s h
    rw [nameRule_split _ _ ha]
    have e : (a ++ '_' :: b).map Char.toLower = a.map Char.toLower ++ '_' :: b.map Char.toLower := by
      simp
    rw [e, nameRule_split _ _ (by rwa [mem_map_lower])]
    simp [Function.comp_def, Chars.toUpper_toLower, Chars.toLower_toLower]
  · rw [nameRule_none _ h, nameRule_none _ (by rwa [mem_map_lower])]
    simp [Function.comp_def, Chars.toLower_toLower]

theorem nameRule_idem (s : Str) : nameRule (nameRule s) = nameRule s := by
  rw [← nameRule_lower (nameRule s), lower_nameRule, nameRule_lower]

theorem nameRule_eq_iff (s t : Str) : nameRule s = nameRule t ↔ sameName s t := by
  constructor
  · intro h
    have := congrArg (List.map Char.toLower) h
    simp only [lower_nameRule] at this; exact this
  · intro h
    rw [← nameRule_lower s, ← nameRule_lower t, h]

theorem canon_eq (s : Str) : canon s = nameRule s := by
  by_cases h : '_' ∈ s
  · obtain ⟨a, b, rfl, ha⟩ := split_us s h
    rw [nameRule_split _ _ ha]
    apply List.ext_getElem
    · simp [canon]
    · intro i h1 h2
      simp only [canon, List.getElem_mapIdx, h, true_and]
      by_cases hi : i < a.length
      · have : '_' ∉ List.take (i+1) (a ++ '_' :: b) := by
          rw [List.take_append_of_le_length (by omega)]
          exact fun hm => ha (List.mem_of_mem_take hm)
        simp [this, List.getElem_append_left, hi]
      · have hm : '_' ∈ List.take (i+1) (a ++ '_' :: b) := by
          rw [List.take_append]
          have : i + 1 - a.length = (i - a.length) + 1 := by omega
          simp [this]
        simp only [hm, not_true_eq_false, if_false]
        have hi' : a.length ≤ i := by omega
        rw [List.getElem_append_right hi', List.getElem_append_right (by simpa using hi')]
        simp only [List.length_map]
        have e : ('_' :: List.map Char.toLower b) = ('_' :: b).map Char.toLower := by simp
        simp only [e, List.getElem_map]
  · rw [nameRule_none _ h]
    apply List.ext_getElem <;> simp [canon, h]

/-! ### `->` -/

theorem cutArrow_cons (c : Char) (r : Str) : cutArrow (c :: r) =
    if c = '-' ∧ r.head? = some '>' then some ([], r.tail)
    else (cutArrow r).map fun p => (c :: p.1, p.2) := rfl

theorem cutArrow_none_iff (s : Str) : cutArrow s = none ↔ ¬ HasArrow s := by
  unfold HasArrow
  induction s with
  | nil => simp [cutArrow]
  | cons c r ih =>
    rw [cutArrow_cons]
    rw [List.infix_cons_iff]
    split
    · rename_i h
      obtain ⟨h1, h2⟩ := h
      subst h1
      cases r with
      | nil => simp at h2
      | cons d r => simp at h2; subst h2; simp
    · rename_i h
      have : ¬ ['-','>'] <+: (c :: r) := by
        intro hp
        apply h
        obtain ⟨t, ht⟩ := hp
        simp at ht
        obtain ⟨rfl, rfl⟩ := ht
        simp
      simp [this, ih]

theorem cutArrow_append (v r : Str) (h : cutArrow v = none) :
    cutArrow (v ++ '-' :: '>' :: r) = some (v, r) := by
  induction v with
  | nil => simp [cutArrow_cons]
  | cons c v ih =>
    rw [cutArrow_cons] at h
    split at h
    · simp at h
    · rename_i hc
      simp only [Option.map_eq_none_iff] at h
      have ih := ih h
      rw [List.cons_append, cutArrow_cons, if_neg, ih]
      · simp
      · intro hh
        apply hc
        refine ⟨hh.1, ?_⟩
        cases v with
        | nil => simp at hh
        | cons d v => simpa using hh.2

theorem joinArrow_cons_cons (v w : Str) (vs : List Str) :
    joinArrow (v :: w :: vs) = v ++ '-' :: '>' :: joinArrow (w :: vs) := rfl

theorem arrows_eq (vs : List Str) : arrows vs = joinArrow vs := by
  unfold arrows
  induction vs with
  | nil => rfl
  | cons v vs ih =>
    cases vs with
    | nil => simp [joinArrow, List.intercalate]
    | cons w vs =>
      rw [joinArrow_cons_cons, ← ih]
      simp [List.intercalate]

theorem length_joinArrow (v : Str) (vs : List Str) : 2 * vs.length ≤ (joinArrow (v :: vs)).length := by
  induction vs generalizing v with
  | nil => simp
  | cons w vs ih => rw [joinArrow_cons_cons]; have := ih w; simp at *; omega

theorem nthLoop_join (n fuel j : Nat) (v : Str) (vs : List Str)
    (hv : ∀ w ∈ v :: vs, cutArrow w = none) (hf : vs.length < fuel) (hj : j ≤ n) :
    nthLoop n fuel j (joinArrow (v :: vs)) = (v :: vs).getD (min (n - j) vs.length) [] := by
  induction vs generalizing v fuel j with
  | nil =>
    cases fuel with
    | zero => omega
    | succ fuel =>
      have : cutArrow v = none := hv v (by simp)
      simp [nthLoop, joinArrow, this]
  | cons w vs ih =>
    cases fuel with
    | zero => omega
    | succ fuel =>
      have h0 : cutArrow v = none := hv v (by simp)
      rw [joinArrow_cons_cons, nthLoop, cutArrow_append _ _ h0]
      simp only
      split
      · rename_i h; subst h; simp
      · rw [ih fuel (j+1) w (fun x hx => hv x (List.mem_cons_of_mem _ hx)) (by simp at hf; omega) (by omega)]
        have : min (n - j) (w :: vs).length = min (n - (j+1)) vs.length + 1 := by simp; omega
        rw [this]; simp

theorem getNValue_join (v w : Str) (vs : List Str) (n : Nat)
    (hv : ∀ x ∈ v :: w :: vs, ¬ HasArrow x) :
    getNValue (joinArrow (v :: w :: vs)) n = .ok (nth (v :: w :: vs) n) := by
  have hv' : ∀ x ∈ v :: w :: vs, cutArrow x = none := fun x hx => (cutArrow_none_iff x).2 (hv x hx)
  have h0 := hv' v (by simp)
  rw [getNValue, joinArrow_cons_cons, cutArrow_append _ _ h0]
  simp only
  split
  · rename_i h; subst h; simp [nth]
  · rename_i h
    rw [nthLoop_join n _ 1 w vs (fun x hx => hv' x (List.mem_cons_of_mem _ hx)) _ (by omega)]
    · congr 1
      unfold nth
      have : min n ((v :: w :: vs).length - 1) = min (n - 1) vs.length + 1 := by simp; omega
      rw [this]; simp
    · have := length_joinArrow w vs
      simp; omega

theorem countLoop_join (fuel l : Nat) (v : Str) (vs : List Str)
    (hv : ∀ w ∈ v :: vs, cutArrow w = none) (hf : vs.length < fuel) (hl : (v :: vs).getLast (by simp) ≠ []) :
    countLoop fuel l (joinArrow (v :: vs)) = .ok (l + vs.length) := by
  induction vs generalizing v fuel l with
  | nil =>
    cases fuel with
    | zero => omega
    | succ fuel =>
      have : cutArrow v = none := hv v (by simp)
      simp at hl
      simp [countLoop, joinArrow, this, hl]
  | cons w vs ih =>
    cases fuel with
    | zero => omega
    | succ fuel =>
      have h0 : cutArrow v = none := hv v (by simp)
      have hne : joinArrow (v :: w :: vs) ≠ [] := by rw [joinArrow_cons_cons]; simp
      rw [countLoop, if_neg hne, joinArrow_cons_cons, cutArrow_append _ _ h0]
      simp only
      rw [ih fuel (l+1) w (fun x hx => hv x (List.mem_cons_of_mem _ hx)) (by simp at hf; omega) (by simpa using hl)]
      simp; omega

/-- number of values minus one (for at least two values, the last one not empty) -/
theorem countIp_join (v w : Str) (vs : List Str) (hv : ∀ x ∈ v :: w :: vs, ¬ HasArrow x)
    (hl : (v :: w :: vs).getLast (by simp) ≠ []) :
    countIp (joinArrow (v :: w :: vs)) = .ok ((v :: w :: vs).length - 1) := by
  have hv' : ∀ x ∈ v :: w :: vs, cutArrow x = none := fun x hx => (cutArrow_none_iff x).2 (hv x hx)
  have h0 := hv' v (by simp)
  rw [countIp, joinArrow_cons_cons, cutArrow_append _ _ h0]
  simp only
  rw [countLoop_join _ 1 w vs (fun x hx => hv' x (List.mem_cons_of_mem _ hx)) _ (by simpa using hl)]
  · simp; omega
  · have := length_joinArrow w vs
    simp; omega

end Elliptica.ParamLemmas
