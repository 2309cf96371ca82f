import Verif.Model.Tol
import Mathlib.Tactic.Linarith
import Mathlib.Tactic.NormNum
import Mathlib.Data.Fin.VecNotation
/-!
Properties C12 (faces) and C13 (tolerance comparisons).
-/
namespace Elliptica.Tol

variable {K : Type} [Field K] [LinearOrder K] [IsStrictOrderedRing K]

/-- C13, where the two arguments do not differ by exactly the tolerance: exactly one of less / equal /
greater holds, `LSSEQL` is the negation of `GRT` and `GRTEQL` the negation of `LSS`.
Missing for the full property: differences of exactly the tolerance, where none holds (below). -/
theorem C13_trichotomy_partial (e x y : K) (he : 0 < e) (h1 : x ≠ y - e) (h2 : x ≠ y + e) :
    ((lss e x y = true ∧ eql e x y = false ∧ grt e x y = false) ∨
     (lss e x y = false ∧ eql e x y = true ∧ grt e x y = false) ∨
     (lss e x y = false ∧ eql e x y = false ∧ grt e x y = true)) ∧
    lssEql e x y = !(grt e x y) ∧ grtEql e x y = !(lss e x y) := by
  unfold lssEql grtEql lss eql grt
  rcases lt_or_gt_of_ne h1 with h | h <;> rcases lt_or_gt_of_ne h2 with h' | h'
  · have : ¬ x > y - e := not_lt.2 h.le
    have h3 : ¬ x > y + e := not_lt.2 h'.le
    simp [h, h', this, h3]
  · linarith
  · have : ¬ x < y - e := not_lt.2 h.le
    have h3 : ¬ x > y + e := not_lt.2 h'.le
    simp [h, h', this, h3]
  · have : ¬ x < y - e := not_lt.2 h.le
    have h3 : ¬ x < y + e := not_lt.2 h'.le
    simp [h, h', this, h3]

/-- What each comparison means. -/
theorem C13_meaning (e x y : K) (he : 0 < e) :
    (eql e x y = true ↔ |x - y| < e) ∧ (lss e x y = true ↔ x - y < -e) ∧ (grt e x y = true ↔ e < x - y) ∧
    (lssEql e x y = true ↔ x - y < e ∧ x - y ≠ -e) ∧ (grtEql e x y = true ↔ -e < x - y ∧ x - y ≠ e) := by
  unfold lssEql grtEql lss eql grt
  simp only [Bool.and_eq_true, Bool.or_eq_true, decide_eq_true_eq, abs_lt, gt_iff_lt]
  refine ⟨?_, ?_, ?_, ?_, ?_⟩
  · constructor
    · rintro ⟨a, b⟩; constructor <;> linarith
    · rintro ⟨a, b⟩; constructor <;> linarith
  · constructor <;> intro h <;> linarith
  · constructor <;> intro h <;> linarith
  · constructor
    · rintro (h | ⟨a, b⟩)
      · exact ⟨by linarith, by intro hh; linarith⟩
      · exact ⟨by linarith, by intro hh; linarith⟩
    · rintro ⟨a, b⟩
      rcases lt_or_gt_of_ne b with h | h
      · left; linarith
      · right; constructor <;> linarith
  · constructor
    · rintro (h | ⟨a, b⟩)
      · exact ⟨by linarith, by intro hh; linarith⟩
      · exact ⟨by linarith, by intro hh; linarith⟩
    · rintro ⟨a, b⟩
      rcases lt_or_gt_of_ne b with h | h
      · right; constructor <;> linarith
      · left; linarith

/-- Violation: when the arguments differ by exactly the tolerance, none of the five comparisons holds except
the "or equal" one pointing the other way - in particular x = y - e is not "less or equal" y although
x < y, and x = y + e is not "greater or equal" y although x > y. -/
theorem C13_boundary_violation (e y : K) (he : 0 < e) :
    (lss e (y - e) y = false ∧ eql e (y - e) y = false ∧ grt e (y - e) y = false ∧
      lssEql e (y - e) y = false ∧ y - e < y) ∧
    (lss e (y + e) y = false ∧ eql e (y + e) y = false ∧ grt e (y + e) y = false ∧
      grtEql e (y + e) y = false ∧ y < y + e) := by
  have h1 : ¬ (y - e > y + e) := by intro h; linarith
  have h2 : ¬ (y + e < y - e) := by intro h; linarith
  unfold lssEql grtEql lss eql grt
  refine ⟨⟨by simp, by simp, by simpa using h1, by simp, by linarith⟩,
    ⟨by simpa using h2, by simp, by simp, by simp, by linarith⟩⟩

/-- The comparisons of a number with itself, and monotonicity: "less" is stable under decreasing x. -/
theorem C13_refl_mono (e x x' y : K) (he : 0 < e) :
    eql e x x = true ∧ lssEql e x x = true ∧ grtEql e x x = true ∧ (x' ≤ x → lss e x y = true → lss e x' y = true) ∧
    (x ≤ x' → grt e x y = true → grt e x' y = true) ∧ (lss e x y = true ↔ grt e y x = true) ∧
    (eql e x y = eql e y x) := by
  unfold lssEql grtEql lss eql grt
  simp only [Bool.and_eq_true, Bool.or_eq_true, decide_eq_true_eq, gt_iff_lt]
  refine ⟨⟨by linarith, by linarith⟩, .inr ⟨by linarith, by linarith⟩, .inr ⟨by linarith, by linarith⟩,
    fun h1 h2 => by linarith, fun h1 h2 => by linarith, ⟨fun h => by linarith, fun h => by linarith⟩, ?_⟩
  rw [Bool.eq_iff_iff]
  simp only [Bool.and_eq_true, decide_eq_true_eq]
  constructor <;> rintro ⟨a, b⟩ <;> constructor <;> linarith

/-- Violation: "equal up to the tolerance" is not transitive. -/
theorem C13_not_transitive (e : K) (he : 0 < e) : ∃ x y z : K, eql e x y = true ∧ eql e y z = true ∧ eql e x z = false := by
  refine ⟨0, e * (3/4), e * (3/2), ?_, ?_, ?_⟩ <;> unfold eql <;>
    simp only [Bool.and_eq_true, decide_eq_true_eq, Bool.and_eq_false_iff, decide_eq_false_iff_not, gt_iff_lt, not_lt]
  · constructor <;> linarith
  · constructor <;> linarith
  · right; linarith

/-- C12 (faces): the point-on-face test reports face u iff the coordinate across the face agrees with that of
the face to the absolute/relative tolerance, the count is the number of such faces, so it is zero iff the
point is on no face (or outside the patch). -/
theorem C12_face (e eps : K) (nrm : (Fin 3 → K) → K) (face : Fin 6 → K) (X : Fin 3 → K) (he : 0 < e) :
    let tol := if eps + e < eps * nrm X then eps * nrm X else eps
    let r := isOnFace e eps nrm face (some X)
    (∀ u : Fin 6, r.1 u = true ↔
      (|face u - X ⟨u.val / 2, by omega⟩| < tol + e ∧ |face u - X ⟨u.val / 2, by omega⟩| ≠ tol - e)) ∧
    (0 < r.2 ↔ ∃ u, r.1 u = true) ∧ r.2 ≤ 6 := by
  intro tol r
  have hr : ∀ u, r.1 u = checkInterface e eps (nrm X) face X u := fun u => rfl
  refine ⟨?_, ?_, ?_⟩
  · intro u
    rw [hr]
    have habs : ∀ d : K, (if d < 0 then -d else d) = |d| := by
      intro d
      split
      · rename_i h; rw [abs_of_neg h]
      · rename_i h; rw [abs_of_nonneg (not_lt.1 h)]
    have ht : (if grt e (eps * nrm X) eps then eps * nrm X else eps) = tol := by
      simp only [grt, tol, decide_eq_true_eq, gt_iff_lt]
    simp only [checkInterface, habs, ht]
    rw [(C13_meaning e _ _ he).2.2.2.1]
    constructor
    · rintro ⟨a, b⟩; exact ⟨by linarith, by intro h; apply b; linarith⟩
    · rintro ⟨a, b⟩; exact ⟨by linarith, by intro h; apply b; linarith⟩
  · show 0 < ((List.finRange 6).filter _).length ↔ _
    rw [List.length_pos_iff_exists_mem]
    simp only [List.mem_filter, List.mem_finRange, true_and]
    rfl
  · exact (List.length_filter_le _ _).trans (by simp)

/-- concrete: the round-off of the code and EPS, over the rationals -/
example : eql (1/1000000000000 : ℚ) 1 (1 + 1/10000000000000) = true ∧
    lss (1/1000000000000 : ℚ) 1 (1 + 1/100000000000) = true := by
  decide +kernel

example : (isOnFace (1/10^12 : ℚ) (1/10^11) (fun _ => 1) ![-1, 1, -1, 1, -1, 1] (some ![1, 0, -1])).2 = 2 := by
  decide +kernel

end Elliptica.Tol
