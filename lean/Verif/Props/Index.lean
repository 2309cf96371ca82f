import Verif.Model.Index
import Mathlib.Tactic.Ring
import Mathlib.Tactic.Linarith
import Mathlib.Data.Nat.Choose.Basic
/-!
Properties C10 (point numbering), C11 (packed symmetric indices), C12 (edges).
-/
namespace Elliptica.Index

/-! ## C10 -/

/-- Numbering then decoding gives the point back. -/
theorem C10_decode_encode (n1 n2 i j k : Nat) (hj : j < n1) (hk : k < n2) :
    toI n1 n2 (ijk n1 n2 i j k) = i ∧ toJ n1 n2 (ijk n1 n2 i j k) = j ∧ toK n1 n2 (ijk n1 n2 i j k) = k := by
  have h2 : 0 < n2 := by omega
  have h1 : 0 < n1 := by omega
  have hlt : k + n2 * j < n2 * n1 := by
    calc k + n2 * j < n2 + n2 * j := by omega
      _ = n2 * (j + 1) := by ring
      _ ≤ n2 * n1 := Nat.mul_le_mul_left _ hj
  have e : ijk n1 n2 i j k = (k + n2 * j) + (n2 * n1) * i := by unfold ijk; ring
  have hm : ijk n1 n2 i j k % (n2 * n1) = k + n2 * j := by
    rw [e, Nat.add_mul_mod_self_left, Nat.mod_eq_of_lt hlt]
  refine ⟨?_, ?_, ?_⟩
  · unfold toI
    rw [e, Nat.add_mul_div_left _ _ (Nat.mul_pos h2 h1), Nat.div_eq_of_lt hlt, Nat.zero_add]
  · unfold toJ
    rw [hm, Nat.add_mul_div_left _ _ h2, Nat.div_eq_of_lt hk, Nat.zero_add]
  · unfold toK
    rw [hm, Nat.add_mul_mod_self_left, Nat.mod_eq_of_lt hk]

/-- Decoding any index below n0*n1*n2 gives a point of the patch, whose number is that index. -/
theorem C10_encode_decode (n0 n1 n2 l : Nat) (hl : l < n0 * n1 * n2) :
    toI n1 n2 l < n0 ∧ toJ n1 n2 l < n1 ∧ toK n1 n2 l < n2 ∧
      ijk n1 n2 (toI n1 n2 l) (toJ n1 n2 l) (toK n1 n2 l) = l := by
  have h2 : 0 < n2 := by
    rcases Nat.eq_zero_or_pos n2 with h | h
    · simp [h] at hl
    · exact h
  have h1 : 0 < n1 := by
    rcases Nat.eq_zero_or_pos n1 with h | h
    · simp [h] at hl
    · exact h
  have h12 : 0 < n2 * n1 := Nat.mul_pos h2 h1
  refine ⟨?_, ?_, Nat.mod_lt _ h2, ?_⟩
  · unfold toI
    rw [Nat.div_lt_iff_lt_mul h12]
    calc l < n0 * n1 * n2 := hl
      _ = n0 * (n2 * n1) := by ring
  · unfold toJ
    rw [Nat.div_lt_iff_lt_mul h2]
    calc l % (n2 * n1) < n2 * n1 := Nat.mod_lt _ h12
      _ = n1 * n2 := by ring
  · unfold ijk toI toJ toK
    have e1 := Nat.mod_add_div (l % (n2 * n1)) n2
    have e2 := Nat.mod_add_div l (n2 * n1)
    calc l % (n2 * n1) % n2 + n2 * (l % (n2 * n1) / n2 + n1 * (l / (n2 * n1)))
        = (l % (n2 * n1) % n2 + n2 * (l % (n2 * n1) / n2)) + (n2 * n1) * (l / (n2 * n1)) := by ring
      _ = l % (n2 * n1) + (n2 * n1) * (l / (n2 * n1)) := by rw [e1]
      _ = l := e2

/-- Numbers of points of the patch are below n0*n1*n2 (the array size). -/
theorem C10_in_range (n0 n1 n2 i j k : Nat) (hi : i < n0) (hj : j < n1) (hk : k < n2) :
    ijk n1 n2 i j k < n0 * n1 * n2 := by
  unfold ijk
  calc k + n2 * (j + n1 * i) < n2 + n2 * (j + n1 * i) := by omega
    _ = n2 * (j + 1 + n1 * i) := by ring
    _ ≤ n2 * (n1 + n1 * i) := Nat.mul_le_mul_left _ (by omega)
    _ = (i + 1) * n1 * n2 := by ring
    _ ≤ n0 * n1 * n2 := Nat.mul_le_mul_right _ (Nat.mul_le_mul_right _ hi)

/-- C10: the numbering is a bijection between the points of the patch and 0..n0*n1*n2-1. -/
theorem C10_bijection (n0 n1 n2 : Nat) :
    (∀ i j k i' j' k', i < n0 → j < n1 → k < n2 → i' < n0 → j' < n1 → k' < n2 →
      ijk n1 n2 i j k = ijk n1 n2 i' j' k' → i = i' ∧ j = j' ∧ k = k') ∧
    (∀ l, l < n0 * n1 * n2 ↔ ∃ i j k, i < n0 ∧ j < n1 ∧ k < n2 ∧ ijk n1 n2 i j k = l) := by
  refine ⟨?_, ?_⟩
  · intro i j k i' j' k' _ hj hk _ hj' hk' e
    obtain ⟨a1, a2, a3⟩ := C10_decode_encode n1 n2 i j k hj hk
    obtain ⟨b1, b2, b3⟩ := C10_decode_encode n1 n2 i' j' k' hj' hk'
    rw [e] at a1 a2 a3
    exact ⟨a1.symm.trans b1, a2.symm.trans b2, a3.symm.trans b3⟩
  · intro l
    constructor
    · intro hl
      obtain ⟨h1, h2, h3, h4⟩ := C10_encode_decode n0 n1 n2 l hl
      exact ⟨_, _, _, h1, h2, h3, h4⟩
    · rintro ⟨i, j, k, hi, hj, hk, rfl⟩
      exact C10_in_range n0 n1 n2 i j k hi hj hk

/-- The two-index numbering is a bijection onto 0..n*nj-1. -/
theorem C10_ij_bijection (n nj : Nat) :
    (∀ i j i' j', j < nj → j' < nj → ij nj i j = ij nj i' j' → i = i' ∧ j = j') ∧
    (∀ l, l < n * nj ↔ ∃ i j, i < n ∧ j < nj ∧ ij nj i j = l) := by
  refine ⟨?_, ?_⟩
  · intro i j i' j' hj hj' e
    unfold ij at e
    have h0 : 0 < nj := by omega
    have a := congrArg (· % nj) e
    have b := congrArg (· / nj) e
    simp only [Nat.add_mul_mod_self_left, Nat.mod_eq_of_lt hj, Nat.mod_eq_of_lt hj'] at a
    simp only [Nat.add_mul_div_left _ _ h0, Nat.div_eq_of_lt hj, Nat.div_eq_of_lt hj', Nat.zero_add] at b
    exact ⟨b, a⟩
  · intro l
    constructor
    · intro hl
      have h0 : 0 < nj := by
        rcases Nat.eq_zero_or_pos nj with h | h
        · simp [h] at hl
        · exact h
      exact ⟨l / nj, l % nj, (Nat.div_lt_iff_lt_mul h0).2 hl, Nat.mod_lt _ h0, Nat.mod_add_div l nj⟩
    · rintro ⟨i, j, hi, hj, rfl⟩
      unfold ij
      calc j + nj * i < nj + nj * i := by omega
        _ = (i + 1) * nj := by ring
        _ ≤ n * nj := Nat.mul_le_mul_right _ hi

example : ijk 4 5 2 3 1 = 56 ∧ toI 4 5 56 = 2 ∧ toJ 4 5 56 = 3 ∧ toK 4 5 56 = 1 ∧ 56 < 3 * 4 * 5 := by decide

/-! ## C11 -/

/-- start of row i of the packed upper triangle -/
theorem rowStart_eq (n i : Nat) (hi : i ≤ n) : 2 * (n * i - i * (i - 1) / 2) = i * (2 * n + 1 - i) := by
  have hdiv : 2 * (i * (i - 1) / 2) = i * (i - 1) := Nat.two_mul_div_two_of_even (Nat.even_mul_pred_self i)
  have hle : i * (i - 1) ≤ 2 * (n * i) := by
    calc i * (i - 1) ≤ i * n := Nat.mul_le_mul_left _ (by omega)
      _ = n * i := by ring
      _ ≤ 2 * (n * i) := by omega
  rw [Nat.mul_sub, hdiv]
  cases i with
  | zero => simp
  | succ i =>
    obtain ⟨m, rfl⟩ := Nat.exists_eq_add_of_le hi
    have e : 2 * (i + 1 + m) + 1 - (i + 1) = 2 * m + i + 2 := by omega
    rw [e, Nat.add_sub_cancel]
    have : 2 * ((i + 1 + m) * (i + 1)) = (i + 1) * (2 * m + i + 2) + (i + 1) * i := by ring
    omega

theorem rowStart_succ (n i : Nat) (hi : i < n) :
    n * (i + 1) - (i + 1) * ((i + 1) - 1) / 2 = (n * i - i * (i - 1) / 2) + (n - i) := by
  have a := rowStart_eq n i (by omega)
  have b := rowStart_eq n (i + 1) (by omega)
  have : (i + 1) * (2 * n + 1 - (i + 1)) = i * (2 * n + 1 - i) + 2 * (n - i) := by
    obtain ⟨m, rfl⟩ := Nat.exists_eq_add_of_lt hi
    have e1 : 2 * (i + m + 1) + 1 - (i + 1) = i + 2 * m + 2 := by omega
    have e2 : 2 * (i + m + 1) + 1 - i = i + 2 * m + 3 := by omega
    have e3 : i + m + 1 - i = m + 1 := by omega
    rw [e1, e2, e3]; ring
  omega

theorem ijSym_of_le (n i j : Nat) (h : i ≤ j) : ijSym n i j = n * i - i * (i - 1) / 2 + (j - i) := by
  unfold ijSym
  split
  · rfl
  · have : i = j := by omega
    subst this; rfl

/-- The packed index does not depend on the order of the two indices. -/
theorem C11_symmetric (n i j : Nat) : ijSym n i j = ijSym n j i := by
  unfold ijSym
  rcases Nat.lt_trichotomy i j with h | h | h
  · rw [if_pos h, if_neg (by omega)]
  · subst h; rfl
  · rw [if_neg (by omega), if_pos h]

/-- rows are laid out one after the other -/
theorem ijSym_row_mono (n : Nat) : ∀ i i', i < i' → i' < n → ∀ j j', i ≤ j → j < n → i' ≤ j' →
    ijSym n i j < ijSym n i' j' := by
  intro i i' h hi' j j' hij hj hij'
  have step : ∀ d, i + d + 1 ≤ n → n * (i + d + 1) - (i + d + 1) * ((i + d + 1) - 1) / 2 ≥
      n * i - i * (i - 1) / 2 + (n - i) := by
    intro d
    induction d with
    | zero => intro h; rw [Nat.add_zero, rowStart_succ n i (by omega)]
    | succ d ih =>
      intro h
      have := ih (by omega)
      have e := rowStart_succ n (i + d + 1) (by omega)
      rw [Nat.add_assoc i d 1] at this
      rw [show i + (d + 1) + 1 = (i + d + 1) + 1 from by omega, e]
      rw [show i + d + 1 = i + (d + 1) from by omega]
      omega
  have h2 := step (i' - i - 1) (by omega)
  rw [show i + (i' - i - 1) + 1 = i' from by omega] at h2
  rw [ijSym_of_le n i j hij, ijSym_of_le n i' j' hij']
  omega

/-- C11: for every n the packed index maps the upper triangle {i ≤ j < n} bijectively onto
0..n(n+1)/2-1. -/
theorem C11_bijection (n : Nat) :
    (∀ i j i' j', i ≤ j → j < n → i' ≤ j' → j' < n → ijSym n i j = ijSym n i' j' → i = i' ∧ j = j') ∧
    (∀ l, l < n * (n + 1) / 2 ↔ ∃ i j, i ≤ j ∧ j < n ∧ ijSym n i j = l) := by
  have htot : ∀ m, m ≤ n → 2 * (n * m - m * (m - 1) / 2) = m * (2 * n + 1 - m) := fun m hm => rowStart_eq n m hm
  have hend : n * n - n * (n - 1) / 2 = n * (n + 1) / 2 := by
    have a := htot n (Nat.le_refl _)
    have b : 2 * (n * (n + 1) / 2) = n * (n + 1) := Nat.two_mul_div_two_of_even (Nat.even_mul_succ_self n)
    have : 2 * n + 1 - n = n + 1 := by omega
    rw [this] at a
    omega
  have hzero : n * 0 - 0 * (0 - 1) / 2 = 0 := by simp
  refine ⟨?_, ?_⟩
  · intro i j i' j' h1 h2 h3 h4 e
    rcases Nat.lt_trichotomy i i' with h | h | h
    · have := ijSym_row_mono n i i' h (by omega) j j' h1 h2 h3; omega
    · subst h
      rw [ijSym_of_le n i j h1, ijSym_of_le n i j' h3] at e
      omega
    · have := ijSym_row_mono n i' i h (by omega) j' j h3 h4 h1; omega
  · intro l
    constructor
    · intro hl
      -- find the row
      have hrow : ∀ m, m ≤ n → l < n * m - m * (m - 1) / 2 →
          ∃ i, i < m ∧ n * i - i * (i - 1) / 2 ≤ l ∧ l < n * i - i * (i - 1) / 2 + (n - i) := by
        intro m
        induction m with
        | zero => intro _ h; simp at h
        | succ m ih =>
          intro hm h
          by_cases hc : l < n * m - m * (m - 1) / 2
          · obtain ⟨i, h1, h2, h3⟩ := ih (by omega) hc
            exact ⟨i, by omega, h2, h3⟩
          · refine ⟨m, by omega, by omega, ?_⟩
            rw [rowStart_succ n m (by omega)] at h
            exact h
      obtain ⟨i, h1, h2, h3⟩ := hrow n (Nat.le_refl _) (by rw [hend]; exact hl)
      refine ⟨i, i + (l - (n * i - i * (i - 1) / 2)), by omega, by omega, ?_⟩
      rw [ijSym_of_le _ _ _ (by omega)]
      omega
    · rintro ⟨i, j, h1, h2, rfl⟩
      rw [ijSym_of_le n i j h1]
      have hs : ∀ d, i + d + 1 ≤ n → n * i - i * (i - 1) / 2 + (n - i) ≤
          n * (i + d + 1) - (i + d + 1) * ((i + d + 1) - 1) / 2 := by
        intro d
        induction d with
        | zero => intro h; rw [Nat.add_zero, rowStart_succ n i (by omega)]
        | succ d ih =>
          intro h
          have := ih (by omega)
          have e := rowStart_succ n (i + d + 1) (by omega)
          rw [show i + (d + 1) + 1 = (i + d + 1) + 1 from by omega, e]
          omega
      have := hs (n - i - 1) (by omega)
      rw [show i + (n - i - 1) + 1 = n from by omega, hend] at this
      omega

/-- the table in the comment of the macro: xx xy xz yy yz zz -/
example : [ijSym 3 0 0, ijSym 3 0 1, ijSym 3 0 2, ijSym 3 1 1, ijSym 3 2 1, ijSym 3 2 2] = [0, 1, 2, 3, 4, 5] := by
  decide

/-! ## C12 -/

/-- C12: point number p of an n0 x n1 x n2 patch is reported to be on an edge iff, in at least two of the
three directions, its index is the first or the last one. -/
theorem C12_edge (n0 n1 n2 i j k : Nat) (hi : i < n0) (hj : j < n1) (hk : k < n2) :
    isOnEdge n0 n1 n2 (ijk n1 n2 i j k) = true ↔
      ((i = 0 ∨ i + 1 = n0) ∧ (j = 0 ∨ j + 1 = n1)) ∨ ((i = 0 ∨ i + 1 = n0) ∧ (k = 0 ∨ k + 1 = n2)) ∨
      ((j = 0 ∨ j + 1 = n1) ∧ (k = 0 ∨ k + 1 = n2)) := by
  obtain ⟨e1, e2, e3⟩ := C10_decode_encode n1 n2 i j k hj hk
  simp only [isOnEdge, e1, e2, e3, decide_eq_true_eq]
  have hA : (i = n0 - 1 ∨ i = 0) ↔ (i = 0 ∨ i + 1 = n0) := by omega
  have hB : (j = n1 - 1 ∨ j = 0) ↔ (j = 0 ∨ j + 1 = n1) := by omega
  have hC : (k = n2 - 1 ∨ k = 0) ↔ (k = 0 ∨ k + 1 = n2) := by omega
  simp only [hA, hB, hC]
  by_cases a : (i = 0 ∨ i + 1 = n0) <;> by_cases b : (j = 0 ∨ j + 1 = n1) <;>
    by_cases c : (k = 0 ∨ k + 1 = n2) <;> simp [a, b, c]

example : isOnEdge 4 4 4 (ijk 4 4 0 3 1) = true ∧ isOnEdge 4 4 4 (ijk 4 4 0 2 1) = false := by decide

/-- The inverse of the point map of a subface: for a list of distinct node numbers it returns the position
of the node, and UINT_MAX exactly for nodes not on the subface. -/
theorem C12_invers_id (id : List Nat) (hnd : id.Nodup) :
    (∀ i (h : i < id.length), inversId id id[i] = some i) ∧ (∀ n, inversId id n = none ↔ n ∉ id) := by
  induction id with
  | nil => simp [inversId]
  | cons a r ih =>
    obtain ⟨ha, hr⟩ := List.nodup_cons.1 hnd
    obtain ⟨ih1, ih2⟩ := ih hr
    refine ⟨?_, ?_⟩
    · intro i h
      cases i with
      | zero => simp [inversId]
      | succ i =>
        have hi : i < r.length := by simpa using h
        have hne : a ≠ r[i] := fun e => ha (e ▸ List.getElem_mem hi)
        simp [inversId, hne, ih1 i hi]
    · intro n
      by_cases h : a = n
      · simp [inversId, h]
      · simp only [inversId, if_neg h, Option.map_eq_none_iff, ih2, List.mem_cons, not_or]
        exact ⟨fun hh => ⟨fun e => h e.symm, hh⟩, fun hh => hh.2⟩

end Elliptica.Index
