/-! Helper lemmas on "overwrite slot i by the last element and drop the last slot" deletion. -/
namespace Elliptica.Swap

theorem set_perm {α} (l : List α) (i : Nat) (a : α) (h : i < l.length) :
    (l.set i a).Perm (a :: l.eraseIdx i) := by
  induction l generalizing i with
  | nil => simp at h
  | cons b l ih =>
    cases i with
    | zero => simp
    | succ i =>
      simp only [List.set_cons_succ, List.eraseIdx_cons_succ]
      exact ((ih i (by simpa using h)).cons b).trans (List.Perm.swap _ _ _)

theorem swapLast_perm {α} (l : List α) (i : Nat) (last : α) (h : i < l.length)
    (hl : l.getLast? = some last) : ((l.set i last).dropLast).Perm (l.eraseIdx i) := by
  obtain ⟨ini, rfl⟩ := List.getLast?_eq_some_iff.mp hl
  by_cases hi : i < ini.length
  · rw [List.set_append_left _ _ hi, List.eraseIdx_append_of_lt_length hi]
    simp only [List.dropLast_concat]
    exact (set_perm ini i last hi).trans (List.perm_append_singleton _ _).symm
  · have : i = ini.length := by simp at h; omega
    subst this
    rw [List.set_append_right _ _ (Nat.le_refl _), List.eraseIdx_append_of_length_le (Nat.le_refl _)]
    simp

end Elliptica.Swap
