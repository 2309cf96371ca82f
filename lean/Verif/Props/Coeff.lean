import Verif.Model.Coeff
import Verif.Props.Index
import Mathlib.Algebra.BigOperators.Ring.Finset
import Mathlib.Algebra.BigOperators.Intervals
import Mathlib.Tactic.FinCases
/-!
Property C24: the cache of spectral coefficients.
-/
namespace Elliptica.Coeff
open Elliptica.Index Finset

variable {K : Type} [CommSemiring K]

/-! ### specification -/

/-- The transform of a three-dimensional array along one axis by the matrices `W`. -/
def along (n : Fin 3 → Nat) (W : Fin 3 → Nat → Nat → K) (d : Fin 3) (g : Nat → Nat → Nat → K) (i j k : Nat) : K :=
  match d with
  | 0 => ∑ m ∈ range (n 0), W 0 i m * g m j k
  | 1 => ∑ m ∈ range (n 1), W 1 j m * g i m k
  | 2 => ∑ m ∈ range (n 2), W 2 k m * g i j m

/-- The coefficients along the directions in `D` (and values along the others). -/
def spec (n : Fin 3 → Nat) (W : Fin 3 → Nat → Nat → K) (D : List (Fin 3)) (g : Nat → Nat → Nat → K) :
    Nat → Nat → Nat → K :=
  let a := fun (d : Fin 3) g => if d ∈ D then along n W d g else g
  a 2 (a 1 (a 0 g))

/-- the values a user sees: the array read at the grid points -/
def grid (n : Fin 3 → Nat) (v : Data K) (i j k : Nat) : K := v (ijk (n 1) (n 2) i j k)

/-- The array `w` holds `g` at all points of the patch. -/
def Holds (n : Fin 3 → Nat) (w : Data K) (g : Nat → Nat → Nat → K) : Prop :=
  ∀ i j k, i < n 0 → j < n 1 → k < n 2 → w (ijk (n 1) (n 2) i j k) = g i j k

/-- What the requests of a history must answer, from the values at the time of each request. -/
def expect (n : Fin 3 → Nat) (W : Fin 3 → Nat → Nat → K) : Data K → List (Op K) → List (Nat → Nat → Nat → K)
  | _, [] => []
  | v, .openWrite :: os => expect n W v os
  | _, .realloc :: os => expect n W (fun _ => 0) os
  | v, .store l x :: os => expect n W (upd v l x) os
  | v, .req1 d :: os => spec n W [d] (grid n v) :: expect n W v os
  | v, .req2 d1 d2 :: os => spec n W [d1, d2] (grid n v) :: expect n W v os
  | v, .req3 :: os => spec n W [0, 1, 2] (grid n v) :: expect n W v os

/-- The discipline: between a request and the next write of a value the field is opened for writing again; the two
directions of a two-dimensional request differ. -/
def disciplined : Bool → List (Op K) → Prop
  | _, [] => True
  | _, .openWrite :: os => disciplined true os
  | _, .realloc :: os => disciplined true os
  | b, .store _ _ :: os => b = true ∧ disciplined b os
  | _, .req1 _ :: os => disciplined false os
  | _, .req2 d1 d2 :: os => d1 ≠ d2 ∧ disciplined false os
  | _, .req3 :: os => disciplined false os

/-- The 1-d transformations are linear and use the first `n d` values: they are matrices. -/
def Linear (n : Fin 3 → Nat) (tr : Fin 3 → (Nat → K) → Nat → K) (W : Fin 3 → Nat → Nat → K) : Prop :=
  ∀ d f i, tr d f i = ∑ m ∈ range (n d), W d i m * f m

/-! ### the line loops -/

theorem fold_upd {α : Type} (l : List α) (pos : α → Nat) (G : Nat → K) (w : Data K) (x : Nat) :
    (l.foldl (fun w a => upd w (pos a) (G (pos a))) w) x = if ∃ a ∈ l, pos a = x then G x else w x := by
  induction l generalizing w with
  | nil => simp
  | cons a l ih =>
    rw [List.foldl_cons, ih]
    by_cases h : ∃ b ∈ l, pos b = x
    · rw [if_pos h, if_pos]
      obtain ⟨b, hb, e⟩ := h
      exact ⟨b, List.mem_cons_of_mem _ hb, e⟩
    · rw [if_neg h]
      by_cases ha : pos a = x
      · rw [if_pos ⟨a, List.mem_cons_self, ha⟩, upd, if_pos ha.symm, ha]
      · rw [if_neg, upd, if_neg (Ne.symm ha)]
        rintro ⟨b, hb, e⟩
        rcases List.mem_cons.1 hb with rfl | hb
        · exact ha e
        · exact h ⟨b, hb, e⟩

theorem foldl_nested {α β γ : Type} (l : List α) (k : List β) (f : γ → α → β → γ) (w : γ) :
    l.foldl (fun w a => k.foldl (fun w b => f w a b) w) w =
      (l.flatMap fun a => k.map fun b => (a, b)).foldl (fun w p => f w p.1 p.2) w := by
  induction l generalizing w with
  | nil => rfl
  | cons a l ih => rw [List.foldl_cons, ih, List.flatMap_cons, List.foldl_append, List.foldl_map]

/-- the value a line loop writes at the position `x` -/
def val (n : Fin 3 → Nat) (tr : Fin 3 → (Nat → K) → Nat → K) (d : Fin 3) (v : Data K) (x : Nat) : K :=
  let i := toI (n 1) (n 2) x
  let j := toJ (n 1) (n 2) x
  let k := toK (n 1) (n 2) x
  match d with
  | 0 => tr 0 (fun m => v (ijk (n 1) (n 2) m j k)) i
  | 1 => tr 1 (fun m => v (ijk (n 1) (n 2) i m k)) j
  | 2 => tr 2 (fun m => v (ijk (n 1) (n 2) i j m)) k

theorem val_line (n : Fin 3 → Nat) (tr : Fin 3 → (Nat → K) → Nat → K) (d : Fin 3) (v : Data K) (s m : Nat)
    (hs : s < nLines n d) (hm : m < n d) :
    tr d (fun m' => v (line n d s m')) m = val n tr d v (line n d s m) := by
  match d with
  | 0 =>
    have h2 : 0 < n 2 := by
      rcases Nat.eq_zero_or_pos (n 2) with h | h
      · simp [nLines, h] at hs
      · exact h
    have hj : s / n 2 < n 1 := Nat.div_lt_of_lt_mul (by rw [Nat.mul_comm]; exact hs)
    have hk : s % n 2 < n 2 := Nat.mod_lt _ h2
    obtain ⟨e1, e2, e3⟩ := C10_decode_encode (n 1) (n 2) m (s / n 2) (s % n 2) hj hk
    simp only [val, line, e1, e2, e3]
  | 1 =>
    have h2 : 0 < n 2 := by
      rcases Nat.eq_zero_or_pos (n 2) with h | h
      · simp [nLines, h] at hs
      · exact h
    have hk : s % n 2 < n 2 := Nat.mod_lt _ h2
    obtain ⟨e1, e2, e3⟩ := C10_decode_encode (n 1) (n 2) (s / n 2) m (s % n 2) hm hk
    simp only [val, line, e1, e2, e3]
  | 2 =>
    have h1 : 0 < n 1 := by
      rcases Nat.eq_zero_or_pos (n 1) with h | h
      · simp [nLines, h] at hs
      · exact h
    have hj : s % n 1 < n 1 := Nat.mod_lt _ h1
    obtain ⟨e1, e2, e3⟩ := C10_decode_encode (n 1) (n 2) (s / n 1) (s % n 1) m hj hm
    simp only [val, line, e1, e2, e3]

/-- every point of the patch is on a line -/
theorem line_covers (n : Fin 3 → Nat) (d : Fin 3) (i j k : Nat) (hi : i < n 0) (hj : j < n 1) (hk : k < n 2) :
    ∃ s m, s < nLines n d ∧ m < n d ∧ line n d s m = ijk (n 1) (n 2) i j k := by
  have aux : ∀ a b p q : Nat, a < p → b < q → b + q * a < p * q ∧ (b + q * a) / q = a ∧ (b + q * a) % q = b := by
    intro a b p q ha hb
    have hq : 0 < q := by omega
    refine ⟨?_, ?_, ?_⟩
    · calc b + q * a < q + q * a := by omega
        _ = (a + 1) * q := by ring
        _ ≤ p * q := Nat.mul_le_mul_right _ ha
    · rw [Nat.add_mul_div_left _ _ hq, Nat.div_eq_of_lt hb, Nat.zero_add]
    · rw [Nat.add_mul_mod_self_left, Nat.mod_eq_of_lt hb]
  match d with
  | 0 =>
    obtain ⟨a, b, c⟩ := aux j k _ _ hj hk
    exact ⟨k + n 2 * j, i, a, hi, by simp only [line, b, c]⟩
  | 1 =>
    obtain ⟨a, b, c⟩ := aux i k _ _ hi hk
    exact ⟨k + n 2 * i, j, by simpa [nLines, Nat.mul_comm] using a, hj, by simp only [line, b, c]⟩
  | 2 =>
    obtain ⟨a, b, c⟩ := aux i j _ _ hi hj
    exact ⟨j + n 1 * i, k, a, hk, by simp only [line, b, c]⟩

theorem coeffs1d_holds (n : Fin 3 → Nat) (tr : Fin 3 → (Nat → K) → Nat → K) (W : Fin 3 → Nat → Nat → K)
    (hW : Linear n tr W) (d : Fin 3) (v w : Data K) (g : Nat → Nat → Nat → K) (hg : Holds n v g) :
    Holds n (coeffs1d n tr d v w) (along n W d g) := by
  intro i j k hi hj hk
  have hloop : coeffs1d n tr d v w =
      ((List.range (nLines n d)).flatMap fun s => (List.range (n d)).map fun m => (s, m)).foldl
        (fun w p => upd w (line n d p.1 p.2) (val n tr d v (line n d p.1 p.2))) w := by
    unfold coeffs1d
    rw [foldl_nested]
    apply List.foldl_ext
    intro w p hp
    obtain ⟨s, hs, hp⟩ := List.mem_flatMap.1 hp
    obtain ⟨m, hm, rfl⟩ := List.mem_map.1 hp
    rw [val_line n tr d v s m (List.mem_range.1 hs) (List.mem_range.1 hm)]
  rw [hloop, fold_upd _ (fun p : Nat × Nat => line n d p.1 p.2)]
  obtain ⟨s, m, hs, hm, e⟩ := line_covers n d i j k hi hj hk
  rw [if_pos ⟨(s, m), List.mem_flatMap.2 ⟨s, List.mem_range.2 hs, List.mem_map.2 ⟨m, List.mem_range.2 hm, rfl⟩⟩, e⟩]
  obtain ⟨e1, e2, e3⟩ := C10_decode_encode (n 1) (n 2) i j k hj hk
  match d with
  | 0 =>
    simp only [val, along, e1, e2, e3, hW 0]
    exact sum_congr rfl fun m hm => by rw [hg m j k (mem_range.1 hm) hj hk]
  | 1 =>
    simp only [val, along, e1, e2, e3, hW 1]
    exact sum_congr rfl fun m hm => by rw [hg i m k hi (mem_range.1 hm) hk]
  | 2 =>
    simp only [val, along, e1, e2, e3, hW 2]
    exact sum_congr rfl fun m hm => by rw [hg i j m hi hj (mem_range.1 hm)]

/-! ### transforms along different axes commute -/

omit [CommSemiring K] in
theorem sum_swap [CommSemiring K] (p q : Nat) (A B : Nat → K) (g : Nat → Nat → K) :
    ∑ a ∈ range p, A a * ∑ b ∈ range q, B b * g a b = ∑ b ∈ range q, B b * ∑ a ∈ range p, A a * g a b := by
  simp only [mul_sum]
  rw [sum_comm]
  exact sum_congr rfl fun b _ => sum_congr rfl fun a _ => by ring

theorem along_comm (n : Fin 3 → Nat) (W : Fin 3 → Nat → Nat → K) (d e : Fin 3) (h : d ≠ e)
    (g : Nat → Nat → Nat → K) : along n W d (along n W e g) = along n W e (along n W d g) := by
  funext i j k
  match d, e with
  | 0, 0 => exact absurd rfl h
  | 1, 1 => exact absurd rfl h
  | 2, 2 => exact absurd rfl h
  | 0, 1 => exact sum_swap _ _ (W 0 i) (W 1 j) fun a b => g a b k
  | 1, 0 => exact sum_swap _ _ (W 1 j) (W 0 i) fun a b => g b a k
  | 0, 2 => exact sum_swap _ _ (W 0 i) (W 2 k) fun a b => g a j b
  | 2, 0 => exact sum_swap _ _ (W 2 k) (W 0 i) fun a b => g b j a
  | 1, 2 => exact sum_swap _ _ (W 1 j) (W 2 k) fun a b => g i a b
  | 2, 1 => exact sum_swap _ _ (W 2 k) (W 1 j) fun a b => g i b a

theorem spec_congr (n : Fin 3 → Nat) (W : Fin 3 → Nat → Nat → K) (D E : List (Fin 3)) (h : ∀ d, d ∈ D ↔ d ∈ E)
    (g : Nat → Nat → Nat → K) : spec n W D g = spec n W E g := by
  unfold spec; simp only [h]

theorem spec_snoc (n : Fin 3 → Nat) (W : Fin 3 → Nat → Nat → K) (D : List (Fin 3)) (d : Fin 3) (hd : d ∉ D)
    (g : Nat → Nat → Nat → K) : spec n W (D ++ [d]) g = along n W d (spec n W D g) := by
  unfold spec
  match d, hd with
  | 0, hd =>
    by_cases h1 : (1 : Fin 3) ∈ D <;> by_cases h2 : (2 : Fin 3) ∈ D <;>
      simp [hd, h1, h2, along_comm n W 1 0 (by decide), along_comm n W 2 0 (by decide)]
  | 1, hd =>
    by_cases h2 : (2 : Fin 3) ∈ D <;> simp [hd, h2, along_comm n W 2 1 (by decide)]
  | 2, hd => simp [hd]

/-! ### the invariant -/

/-- what the cache contains is right -/
def Inv (n : Fin 3 → Nat) (W : Fin 3 → Nat → Nat → K) (f : St K) : Prop :=
  noCoeffs f = true ∨ ∃ w l, f.v2 = some w ∧ f.info = some l ∧ Holds n w (spec n W l (grid n f.v))

theorem find1_ok (n : Fin 3 → Nat) (tr : Fin 3 → (Nat → K) → Nat → K) (W : Fin 3 → Nat → Nat → K)
    (hW : Linear n tr W) (f : St K) (w : Data K) (hf : f.v2 = some w) (d : Fin 3) (D : List (Fin 3))
    (hD : f.info.getD [] = D) (hd : d ∉ D) (g : Nat → Nat → Nat → K) (hv : Holds n f.v (spec n W D g)) :
    ∃ w', find1 n tr f d = .ok ⟨f.v, some w', some (D ++ [d])⟩ ∧ Holds n w' (spec n W (D ++ [d]) g) := by
  refine ⟨coeffs1d n tr d f.v w, ?_, ?_⟩
  · rw [find1, hf, hD]
  · rw [spec_snoc n W D d hd]
    exact coeffs1d_holds n tr W hW d f.v w _ hv

theorem viaTmp_ok (n : Fin 3 → Nat) (tr : Fin 3 → (Nat → K) → Nat → K) (W : Fin 3 → Nat → Nat → K)
    (hW : Linear n tr W) (v w : Data K) (d : Fin 3) (D : List (Fin 3)) (hd : d ∉ D)
    (hv : Holds n w (spec n W D (grid n v))) :
    ∃ w', viaTmp n tr ⟨v, some w, some D⟩ d = .ok ⟨v, some w', some (D ++ [d])⟩ ∧
      Holds n w' (spec n W (D ++ [d]) (grid n v)) := by
  obtain ⟨w', h1, h2⟩ := find1_ok n tr W hW ⟨w, some fun _ => 0, some D⟩ _ rfl d D rfl hd _ hv
  exact ⟨w', by simp [viaTmp, h1], h2⟩

theorem first_ok (n : Fin 3 → Nat) (tr : Fin 3 → (Nat → K) → Nat → K) (W : Fin 3 → Nat → Nat → K)
    (hW : Linear n tr W) (f : St K) (d : Fin 3) :
    ∃ w', find1 n tr (alloc2 (clean f)) d = .ok ⟨f.v, some w', some [d]⟩ ∧ Holds n w' (spec n W [d] (grid n f.v)) :=
  find1_ok n tr W hW (alloc2 (clean f)) (fun _ => 0) rfl d [] rfl (by simp) (grid n f.v)
    (fun i j k _ _ _ => by simp [spec, grid, alloc2, clean])

/-- a request answers right and keeps the cache right -/
theorem make1_ok (n : Fin 3 → Nat) (tr : Fin 3 → (Nat → K) → Nat → K) (W : Fin 3 → Nat → Nat → K)
    (hW : Linear n tr W) (f : St K) (hf : Inv n W f) (d : Fin 3) :
    ∃ f' w, make1 n tr f d = .ok (f', w) ∧ f'.v = f.v ∧ Inv n W f' ∧ Holds n w (spec n W [d] (grid n f.v)) := by
  have redo : ∃ f' w, (find1 n tr (alloc2 (clean f)) d).bind result = .ok (f', w) ∧ f'.v = f.v ∧ Inv n W f' ∧
      Holds n w (spec n W [d] (grid n f.v)) := by
    obtain ⟨w', h1, h2⟩ := first_ok n tr W hW f d
    exact ⟨⟨f.v, some w', some [d]⟩, w', by rw [h1]; rfl, rfl, .inr ⟨w', [d], rfl, rfl, h2⟩, h2⟩
  unfold make1 avail1
  rcases hf with h0 | ⟨w, l, hw, hl, hh⟩
  · simpa [h0] using redo
  · have h0 : noCoeffs f = false := by simp [noCoeffs, hw, hl]
    have hhas : ∀ e, has f e = decide (e ∈ l) := fun e => by simp [has, hl]
    by_cases h1 : has f (d + 1) || has f (d + 2)
    · simpa [h0, h1] using redo
    · by_cases h2 : has f d
      · refine ⟨f, w, by simp [h0, h1, h2, result, hw], rfl, .inr ⟨w, l, hw, hl, hh⟩, ?_⟩
        rw [spec_congr n W [d] l _ (grid n f.v)]
        · exact hh
        · intro e
          simp only [hhas, Bool.or_eq_true, decide_eq_true_eq, not_or] at h1 h2
          simp only [List.mem_singleton]
          constructor
          · rintro rfl; exact h2
          · intro he
            have : ∀ d e : Fin 3, e = d ∨ e = d + 1 ∨ e = d + 2 := by decide
            rcases this d e with h | h | h
            · exact h
            · exact absurd (h ▸ he) h1.1
            · exact absurd (h ▸ he) h1.2
      · simpa [h0, h1, h2] using redo

theorem make2_ok (n : Fin 3 → Nat) (tr : Fin 3 → (Nat → K) → Nat → K) (W : Fin 3 → Nat → Nat → K)
    (hW : Linear n tr W) (f : St K) (hf : Inv n W f) (d1 d2 : Fin 3) (hd : d1 ≠ d2) :
    ∃ f' w, make2 n tr f d1 d2 = .ok (f', w) ∧ f'.v = f.v ∧ Inv n W f' ∧
      Holds n w (spec n W [d1, d2] (grid n f.v)) := by
  have redo : ∃ f' w, ((find1 n tr (alloc2 (clean f)) d1).bind fun f => (viaTmp n tr f d2).bind result) = .ok (f', w) ∧
      f'.v = f.v ∧ Inv n W f' ∧ Holds n w (spec n W [d1, d2] (grid n f.v)) := by
    obtain ⟨w', h1, h2⟩ := first_ok n tr W hW f d1
    obtain ⟨w'', h3, h4⟩ := viaTmp_ok n tr W hW f.v w' d2 [d1] (by simpa using hd.symm) h2
    refine ⟨⟨f.v, some w'', some ([d1] ++ [d2])⟩, w'', by rw [h1, Res.bind_ok, h3]; rfl, rfl, .inr ⟨w'', _, rfl, rfl, h4⟩, h4⟩
  have hcase : ∀ a, avail2 f d1 d2 = a → make2 n tr f d1 d2 =
      (if a.1 then
        match a.2.2 with
        | none => result a.2.1
        | some d => (viaTmp n tr a.2.1 d).bind result
      else (find1 n tr (alloc2 a.2.1) d1).bind fun f => (viaTmp n tr f d2).bind result) := by
    rintro a rfl
    rw [make2, if_neg hd]
    dsimp only
    split
    · generalize (avail2 f d1 d2).2.2 = o
      cases o <;> rfl
    · rfl
  rcases hf with h0 | ⟨w, l, hw, hl, hh⟩
  · rw [hcase (false, clean f, none) (by rw [avail2, if_pos h0])]
    exact redo
  · have h0 : ¬ noCoeffs f = true := by simp [noCoeffs, hw, hl]
    have hhas : ∀ e, has f e = decide (e ∈ l) := fun e => by simp [has, hl]
    have hfe : f = ⟨f.v, some w, some l⟩ := by cases f; simp_all
    by_cases h1 : (([0, 1, 2] : List (Fin 3)).any fun e => (e ≠ d1 ∧ e ≠ d2 : Bool) && has f e) = true
    · rw [hcase (false, clean f, none) (by rw [avail2, if_neg h0, if_pos h1])]
      exact redo
    · have honly : ∀ e, e ∈ l → e = d1 ∨ e = d2 := by
        intro e he
        by_contra hc
        rw [not_or] at hc
        apply h1
        rw [List.any_eq_true]
        exact ⟨e, by fin_cases e <;> simp, by simp [hc, hhas, he]⟩
      by_cases h2 : d1 ∈ l <;> by_cases h3 : d2 ∈ l
      · rw [hcase (true, f, none) (by rw [avail2, if_neg h0, if_neg h1]; simp [hhas, h2, h3])]
        refine ⟨f, w, by simp [result, hw], rfl, .inr ⟨w, l, hw, hl, hh⟩, ?_⟩
        rw [spec_congr n W [d1, d2] l _ (grid n f.v)]
        · exact hh
        · intro e
          simp only [List.mem_cons, List.not_mem_nil, or_false]
          constructor
          · rintro (rfl | rfl) <;> assumption
          · exact honly e
      · rw [hcase (true, f, some d2) (by rw [avail2, if_neg h0, if_neg h1]; simp [hhas, h2, h3])]
        obtain ⟨w'', h4, h5⟩ := viaTmp_ok n tr W hW f.v w d2 l h3 hh
        rw [← hfe] at h4
        refine ⟨⟨f.v, some w'', some (l ++ [d2])⟩, w'', by simp only [if_true]; rw [h4]; rfl,
          rfl, .inr ⟨w'', _, rfl, rfl, h5⟩, ?_⟩
        rw [spec_congr n W [d1, d2] (l ++ [d2]) _ (grid n f.v)]
        · exact h5
        · intro e
          simp only [List.mem_cons, List.not_mem_nil, or_false, List.mem_append]
          constructor
          · rintro (rfl | rfl)
            · exact .inl h2
            · exact .inr rfl
          · rintro (h | h)
            · exact honly e h
            · exact .inr h
      · rw [hcase (true, f, some d1) (by rw [avail2, if_neg h0, if_neg h1]; simp [hhas, h2, h3])]
        obtain ⟨w'', h4, h5⟩ := viaTmp_ok n tr W hW f.v w d1 l h2 hh
        rw [← hfe] at h4
        refine ⟨⟨f.v, some w'', some (l ++ [d1])⟩, w'', by simp only [if_true]; rw [h4]; rfl,
          rfl, .inr ⟨w'', _, rfl, rfl, h5⟩, ?_⟩
        rw [spec_congr n W [d1, d2] (l ++ [d1]) _ (grid n f.v)]
        · exact h5
        · intro e
          simp only [List.mem_cons, List.not_mem_nil, or_false, List.mem_append]
          constructor
          · rintro (rfl | rfl)
            · exact .inr rfl
            · exact .inl h3
          · rintro (h | h)
            · exact honly e h
            · exact .inl h
      · rw [hcase (false, clean f, none) (by rw [avail2, if_neg h0, if_neg h1]; simp [hhas, h2, h3])]
        exact redo

theorem make3_ok (n : Fin 3 → Nat) (tr : Fin 3 → (Nat → K) → Nat → K) (W : Fin 3 → Nat → Nat → K)
    (hW : Linear n tr W) (f : St K) (hf : Inv n W f) :
    ∃ f' w, make3 n tr f = .ok (f', w) ∧ f'.v = f.v ∧ Inv n W f' ∧ Holds n w (spec n W [0, 1, 2] (grid n f.v)) := by
  have redo : ∃ f' w, ((find1 n tr (alloc2 (clean f)) 0).bind fun f => (viaTmp n tr f 1).bind fun f =>
      (viaTmp n tr f 2).bind result) = .ok (f', w) ∧
      f'.v = f.v ∧ Inv n W f' ∧ Holds n w (spec n W [0, 1, 2] (grid n f.v)) := by
    obtain ⟨w', h1, h2⟩ := first_ok n tr W hW f 0
    obtain ⟨w1, h3, h4⟩ := viaTmp_ok n tr W hW f.v w' 1 [0] (by decide) h2
    obtain ⟨w2, h5, h6⟩ := viaTmp_ok n tr W hW f.v w1 2 [0, 1] (by decide) h4
    refine ⟨⟨f.v, some w2, some ([0, 1] ++ [2])⟩, w2, ?_, rfl, .inr ⟨w2, _, rfl, rfl, h6⟩, h6⟩
    rw [h1, Res.bind_ok, h3, Res.bind_ok]
    simp only [List.cons_append, List.nil_append]
    rw [h5]; rfl
  unfold make3 avail3
  rcases hf with h0 | ⟨w, l, hw, hl, hh⟩
  · simpa [h0] using redo
  · have h0 : noCoeffs f = false := by simp [noCoeffs, hw, hl]
    have hhas : ∀ e, has f e = decide (e ∈ l) := fun e => by simp [has, hl]
    by_cases h1 : (has f 0 && has f 1 && has f 2) = true
    · refine ⟨f, w, by simp only [h0, h1, if_true]; simp [result, hw], rfl, .inr ⟨w, l, hw, hl, hh⟩, ?_⟩
      rw [spec_congr n W [0, 1, 2] l _ (grid n f.v)]
      · exact hh
      · simp only [hhas, Bool.and_eq_true, decide_eq_true_eq] at h1
        intro e
        fin_cases e <;> simp [h1]
    · simp only [h0, h1]
      exact redo

/-- C24 (disciplined histories): if a field is opened for writing again whenever values are stored after a request, then in
every history every request answers the transform, along exactly the requested directions, of the values the
field has at the time of the request. -/
theorem C24_fresh_partial (n : Fin 3 → Nat) (tr : Fin 3 → (Nat → K) → Nat → K) (W : Fin 3 → Nat → Nat → K)
    (hW : Linear n tr W) (v : Data K) (ops : List (Op K)) (h : disciplined true ops) :
    ∃ f as, run n tr ⟨v, none, none⟩ ops = .ok (f, as) ∧ List.Forall₂ (Holds n) as (expect n W v ops) := by
  have key : ∀ (ops : List (Op K)) (b : Bool) (f : St K), Inv n W f → (b = true → noCoeffs f = true) →
      disciplined b ops →
      ∃ f' as, run n tr f ops = .ok (f', as) ∧ List.Forall₂ (Holds n) as (expect n W f.v ops) := by
    intro ops
    induction ops with
    | nil => intro b f _ _ _; exact ⟨f, [], rfl, .nil⟩
    | cons o ops ih =>
      intro b f hi hb hd
      cases o with
      | openWrite =>
        obtain ⟨f', as, h1, h2⟩ := ih true (clean f) (.inl rfl) (fun _ => rfl) hd
        exact ⟨f', as, by rw [run, step, Res.bind_ok, h1]; rfl, h2⟩
      | realloc =>
        obtain ⟨f', as, h1, h2⟩ := ih true ⟨fun _ => 0, none, none⟩ (.inl rfl) (fun _ => rfl) hd
        exact ⟨f', as, by rw [run, step, Res.bind_ok, h1]; rfl, h2⟩
      | store l x =>
        obtain ⟨hbt, hd⟩ := hd
        have h0 := hb hbt
        obtain ⟨f', as, h1, h2⟩ := ih b { f with v := upd f.v l x } (.inl h0) (fun _ => h0) hd
        exact ⟨f', as, by rw [run, step, Res.bind_ok, h1]; rfl, h2⟩
      | req1 d =>
        obtain ⟨f1, w, h1, h2, h3, h4⟩ := make1_ok n tr W hW f hi d
        obtain ⟨f', as, h5, h6⟩ := ih false f1 h3 (by simp) hd
        rw [h2] at h6
        exact ⟨f', w :: as, by rw [run, step, h1, Res.bind_ok, Res.bind_ok, h5]; rfl, .cons h4 h6⟩
      | req2 d1 d2 =>
        obtain ⟨f1, w, h1, h2, h3, h4⟩ := make2_ok n tr W hW f hi d1 d2 hd.1
        obtain ⟨f', as, h5, h6⟩ := ih false f1 h3 (by simp) hd.2
        rw [h2] at h6
        exact ⟨f', w :: as, by rw [run, step, h1, Res.bind_ok, Res.bind_ok, h5]; rfl, .cons h4 h6⟩
      | req3 =>
        obtain ⟨f1, w, h1, h2, h3, h4⟩ := make3_ok n tr W hW f hi
        obtain ⟨f', as, h5, h6⟩ := ih false f1 h3 (by simp) hd
        rw [h2] at h6
        exact ⟨f', w :: as, by rw [run, step, h1, Res.bind_ok, Res.bind_ok, h5]; rfl, .cons h4 h6⟩
  exact key ops true ⟨v, none, none⟩ (.inl rfl) (fun _ => rfl) h

/-- a 1-d "transform" on 2 points: sum and difference -/
def trDemo (_ : Fin 3) (f : Nat → Int) (i : Nat) : Int := if i = 0 then f 0 + f 1 else f 0 - f 1

def WDemo (_ : Fin 3) (i m : Nat) : Int := if i = 0 then 1 else if m = 0 then 1 else -1

theorem demo_linear : Linear (fun _ => 2) trDemo WDemo := by
  intro d f i
  by_cases h : i = 0 <;> simp [trDemo, WDemo, h, Finset.sum_range_succ, sub_eq_add_neg]

example : disciplined true ([.openWrite, .store 0 5, .req3, .req1 0, .openWrite, .store 1 7, .req2 2 0] : List (Op Int)) := by
  simp [disciplined]

/-- C24 fails without the discipline: a value stored through a write pointer that was obtained before a request does not
invalidate the cache; the next request returns the old coefficients. -/
theorem C24_late_store_violation :
    ∃ (n : Fin 3 → Nat) (tr : Fin 3 → (Nat → Int) → Nat → Int) (W : Fin 3 → Nat → Nat → Int) (ops : List (Op Int))
      (f : St Int) (as : List (Data Int)),
      Linear n tr W ∧ run n tr ⟨fun _ => 0, none, none⟩ ops = .ok (f, as) ∧
      ¬ List.Forall₂ (Holds n) as (expect n W (fun _ => 0) ops) := by
  refine ⟨fun _ => 2, trDemo, WDemo, [.openWrite, .req1 0, .store 0 5, .req1 0], _, _, demo_linear, rfl, ?_⟩
  intro h
  cases h with
  | cons _ h =>
    cases h with
    | cons h _ =>
      have := h 0 0 0 (by decide) (by decide) (by decide)
      revert this
      decide

end Elliptica.Coeff
