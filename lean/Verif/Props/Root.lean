import Verif.Model.Root
import Verif.Props.General
import Mathlib.Topology.Order.IntermediateValue
import Mathlib.Topology.Algebra.Polynomial
import Mathlib.Analysis.Calculus.Deriv.Pow
import Mathlib.Analysis.Calculus.Deriv.Add
/-!
Properties C28 (bisection) and C29 (steepest descent) of the root finders.
-/
namespace Elliptica.Root
open Set

/-! ### C28 -/

/-- `f` evaluates the mathematical function `F` wherever it returns a number -/
def Computes (f : ℝ → Eval ℝ) (F : ℝ → ℝ) : Prop := ∀ x v, f x = .val v → v = F x

theorem mid_mem {A B a b : ℝ} (ha : a ∈ uIcc A B) (hb : b ∈ uIcc A B) : a + 1 / 2 * (b - a) ∈ uIcc A B := by
  rw [mem_uIcc] at *
  rcases ha with ha | ha <;> rcases hb with hb | hb <;>
    first
    | (left; constructor <;> linarith)
    | (right; constructor <;> linarith)

theorem root_between {F : ℝ → ℝ} {A B a b : ℝ} (hF : ContinuousOn F (uIcc A B)) (ha : a ∈ uIcc A B) (hb : b ∈ uIcc A B)
    (h : F a * F b ≤ 0) : ∃ r ∈ uIcc a b, F r = 0 := by
  have hc : ContinuousOn F (uIcc a b) := hF.mono (uIcc_subset_uIcc ha hb)
  have := intermediate_value_uIcc hc
  apply this
  rw [mem_uIcc]
  rcases mul_nonpos_iff.1 h with h | h
  · exact Or.inr ⟨h.2, h.1⟩
  · exact Or.inl ⟨h.1, h.2⟩

theorem bisectLoop_ok (e tol : ℝ) (he : 0 < e) (f : ℝ → Eval ℝ) (F : ℝ → ℝ) (hf : Computes f F) (A B : ℝ)
    (hF : ContinuousOn F (uIcc A B)) (fuel : ℕ) (a b fa x : ℝ) (res : Option ℝ) (ha : a ∈ uIcc A B) (hb : b ∈ uIcc A B)
    (hfa : fa = F a) (hab : F a * F b ≤ 0) (o : Out ℝ) (ho : bisectLoop e tol f fuel a b fa x res = o) (hs : o.status = .ok) :
    o.x ∈ uIcc A B ∧ o.residual = some (F o.x) ∧ (|F o.x| < e ∨ ∃ r ∈ uIcc A B, F r = 0 ∧ |o.x - r| < tol - e) := by
  induction fuel generalizing a b fa res with
  | zero => subst ho; simp [bisectLoop] at hs
  | succ fuel ih =>
    have hp := mid_mem ha hb
    rw [bisectLoop] at ho
    cases hfp : f (a + 1 / 2 * (b - a)) with
    | interrupt => rw [hfp] at ho; subst ho; simp at hs
    | nan => rw [hfp] at ho; subst ho; simp at hs
    | val fp =>
      rw [hfp] at ho
      have hfpF := hf _ _ hfp
      simp only at ho
      split at ho
      · rename_i hc
        subst ho
        refine ⟨hp, by simp [hfpF], ?_⟩
        rw [Bool.or_eq_true] at hc
        rcases hc with hc | hc
        · left
          simp only [Tol.eql, Bool.and_eq_true, decide_eq_true_eq] at hc
          show |F _| < e
          rw [← hfpF, abs_lt]; constructor <;> linarith
        · right
          obtain ⟨r, hr, hr0⟩ := root_between hF ha hb hab
          refine ⟨r, uIcc_subset_uIcc ha hb hr, hr0, ?_⟩
          simp only [Tol.lss, decide_eq_true_eq] at hc
          refine lt_of_le_of_lt ?_ hc
          show |a + 1 / 2 * (b - a) - r| ≤ _
          rw [mem_uIcc] at hr
          rw [abs_le]
          rcases hr with hr | hr
          · rw [abs_of_nonneg (by linarith)]; constructor <;> linarith
          · rw [abs_of_nonpos (by linarith)]; constructor <;> linarith
      · split at ho
        · rename_i hpos
          refine ih _ b fp _ hp hb hfpF ?_ ho
          rw [hfa, hfpF] at hpos
          rcases pos_and_pos_or_neg_and_neg_of_mul_pos hpos with h | h <;> nlinarith
        · rename_i hneg
          refine ih a _ fa _ ha hp hfa ?_ ho
          rw [hfa, hfpF] at hneg
          linarith

/-- **C28 (soundness).** If the bisection reports success, the solution lies between the two end points given (in
whatever order), the residual reported is the value there, and the value is below the round-off or a root is closer than
the tolerance. -/
theorem C28_ok (e tol : ℝ) (he : 0 < e) (f : ℝ → Eval ℝ) (F : ℝ → ℝ) (hf : Computes f F) (A B : ℝ)
    (hF : ContinuousOn F (uIcc A B)) (x0 : ℝ) (n maxIter : ℕ) (o : Out ℝ) (ho : bisect e tol f A B x0 n maxIter = .ok o)
    (hs : o.status = .ok) :
    o.x ∈ uIcc A B ∧ o.residual = some (F o.x) ∧ (|F o.x| < e ∨ ∃ r ∈ uIcc A B, F r = 0 ∧ |o.x - r| < tol) := by
  unfold bisect at ho
  split at ho
  · cases ho
  · split at ho
    · rename_i fA fB hA hB
      split at ho
      · cases ho
      · rename_i hAB
        have eA := hf _ _ hA
        have eB := hf _ _ hB
        have := bisectLoop_ok e tol he f F hf A B hF maxIter A B fA x0 none left_mem_uIcc right_mem_uIcc eA
          (by rw [← eA, ← eB]; linarith) o (Res.ok.inj ho) hs
        refine ⟨this.1, this.2.1, this.2.2.imp_right ?_⟩
        rintro ⟨r, h1, h2, h3⟩
        exact ⟨r, h1, h2, by linarith⟩
    · cases ho

theorem bisectLoop_terminates (e tol : ℝ) (f : ℝ → Eval ℝ) (A B : ℝ) (hfin : ∀ p ∈ uIcc A B, ∃ v, f p = .val v) (fuel : ℕ)
    (a b fa x : ℝ) (res : Option ℝ) (ha : a ∈ uIcc A B) (hb : b ∈ uIcc A B) (hf0 : 0 < fuel)
    (hw : |b - a| / 2 ^ fuel < tol - e) : (bisectLoop e tol f fuel a b fa x res).status = .ok := by
  induction fuel generalizing a b fa res with
  | zero => omega
  | succ fuel ih =>
    have hp := mid_mem ha hb
    obtain ⟨fp, hfp⟩ := hfin _ hp
    rw [bisectLoop]
    simp only [hfp]
    split
    · rfl
    · rename_i hc
      have hd : ¬ (|1 / 2 * (b - a)| < tol - e) := by
        intro h; apply hc; rw [Bool.or_eq_true]; right; simpa only [Tol.lss, decide_eq_true_eq] using h
      have hh : |1 / 2 * (b - a)| = |b - a| / 2 := by rw [abs_mul]; norm_num; ring
      have hfuel : 0 < fuel := by
        rcases Nat.eq_zero_or_pos fuel with rfl | h
        · exfalso; apply hd; rw [hh]; simpa using hw
        · exact h
      have hw' : |b - a| / 2 / 2 ^ fuel < tol - e := by
        rw [div_div, mul_comm, ← pow_succ]; exact hw
      split
      · refine ih _ b fp _ hp hb hfuel ?_
        have : b - (a + 1 / 2 * (b - a)) = 1 / 2 * (b - a) := by ring
        rw [this, hh]; exact hw'
      · refine ih a _ fa _ ha hp hfuel ?_
        have : a + 1 / 2 * (b - a) - a = 1 / 2 * (b - a) := by ring
        rw [this, hh]; exact hw'

/-- **C28 (success).** With a sign change, a function that is defined on the interval and enough iterations to shrink the
interval below the tolerance, the bisection reports success. -/
theorem C28_terminates (e tol : ℝ) (f : ℝ → Eval ℝ) (A B x0 : ℝ) (maxIter : ℕ) (F : ℝ → ℝ)
    (hfin : ∀ p ∈ uIcc A B, f p = .val (F p)) (hsign : F A * F B ≤ 0) (hm : 0 < maxIter)
    (hw : |B - A| / 2 ^ maxIter < tol - e) : ∃ o, bisect e tol f A B x0 1 maxIter = .ok o ∧ o.status = .ok := by
  refine ⟨_, ?_, bisectLoop_terminates e tol f A B (fun p hp => ⟨_, hfin p hp⟩) maxIter A B (F A) x0 none left_mem_uIcc right_mem_uIcc hm hw⟩
  unfold bisect
  rw [if_neg (by simp), hfin A left_mem_uIcc, hfin B right_mem_uIcc]
  simp only
  rw [if_neg (by linarith)]

/-- **C28 (refusal).** Without a sign change, and with more than one equation, the program stops. -/
theorem C28_refuses (e tol : ℝ) (f : ℝ → Eval ℝ) (A B x0 fA fB : ℝ) (n maxIter : ℕ) (hA : f A = .val fA) (hB : f B = .val fB) :
    bisect e tol f A B x0 n maxIter = .abort ↔ n ≠ 1 ∨ 0 < fA * fB := by
  unfold bisect
  rw [hA, hB]
  by_cases h : n = 1 <;> by_cases h2 : 0 < fA * fB <;> simp [h, h2]

theorem bisectLoop_fail (e tol : ℝ) (f : ℝ → Eval ℝ) (fuel : ℕ) (a b fa x : ℝ) (res : Option ℝ) :
    (bisectLoop e tol f fuel a b fa x res).status = .ok ∨ (bisectLoop e tol f fuel a b fa x res).x = x ∧
      ((bisectLoop e tol f fuel a b fa x res).status = .maxIter ∨ (bisectLoop e tol f fuel a b fa x res).status = .interrupted ∨
        (bisectLoop e tol f fuel a b fa x res).status = .nan) := by
  induction fuel generalizing a b fa res with
  | zero => simp [bisectLoop]
  | succ fuel ih =>
    rw [bisectLoop]
    split
    · simp
    · simp
    · split
      · simp
      · split
        · exact ih _ _ _ _
        · exact ih _ _ _ _

/-- **C28 (failure).** When the bisection does not report success it says why, and the solution slot is left as it was. -/
theorem C28_failure (e tol : ℝ) (f : ℝ → Eval ℝ) (A B x0 : ℝ) (n maxIter : ℕ) (o : Out ℝ)
    (ho : bisect e tol f A B x0 n maxIter = .ok o) (hs : o.status ≠ .ok) :
    o.x = x0 ∧ (o.status = .maxIter ∨ o.status = .interrupted ∨ o.status = .nan) := by
  unfold bisect at ho
  split at ho
  · cases ho
  · split at ho
    · split at ho
      · cases ho
      · have := Res.ok.inj ho
        subst this
        exact (bisectLoop_fail _ _ _ _ _ _ _ _ _).resolve_left hs
    · cases ho

/-- x² - 2, the function of the concrete cases -/
def sq2 (x : ℚ) : Eval ℚ := .val (x * x - 2)

/-- **C28 (violation).** On running out of iterations the returned point (the zero the solution slot starts with) need not
lie in the initial interval: √2 on [1,2], 5 iterations. -/
theorem C28_maxIter_violation : ∃ o, bisect (1 / 10 ^ 12) (1 / 10 ^ 6) sq2 1 2 0 1 5 = .ok o ∧ o.status = .maxIter ∧ o.x < 1 :=
  ⟨⟨.maxIter, 0, some (((1 : ℚ) + 1 / 4 + 1 / 8 + 1 / 32) ^ 2 - 2)⟩, by decide +kernel, rfl, by decide⟩

/-- concrete cases: success, refusal, and an interval given the wrong way round -/
example : ∃ o, bisect (1 / 10 ^ 12) (1 / 100) sq2 1 2 0 1 20 = .ok o ∧ o.status = .ok ∧ |o.x - 1414 / 1000| < 1 / 100 :=
  ⟨⟨.ok, 181 / 128, some ((181 / 128) ^ 2 - 2)⟩, by decide +kernel, rfl, by decide +kernel⟩
example : ∃ o, bisect (1 / 10 ^ 12) (1 / 100) sq2 2 1 0 1 20 = .ok o ∧ o.status = .ok :=
  ⟨⟨.ok, 181 / 128, some ((181 / 128) ^ 2 - 2)⟩, by decide +kernel, rfl⟩
example : ∃ o, bisect 1e-12 1e-2 (fun x : ℝ => .val (x * x - 2)) 1 2 0 1 8 = .ok o ∧ o.status = .ok :=
  C28_terminates _ _ _ _ _ _ _ (fun x => x * x - 2) (fun _ _ => rfl) (by norm_num) (by norm_num) (by norm_num)

/-! ### C29 -/

theorem lineLoop_spec (tol : ℝ) (g : Vec → ℝ) (intr : Vec → Bool) (x z : Vec) (g1 : ℝ) (fuel : ℕ) (a3 g3 : ℝ)
    (h : g3 = g (move x z a3)) (ha : 0 < a3) :
    match lineLoop tol g intr x z g1 fuel a3 g3 with
    | .running => True
    | .interrupted => True
    | .small y g' => g' = g y ∧ ∃ a, 0 < a ∧ a < tol / 2 ∧ y = move x z a
    | .found a g' => g' = g (move x z a) ∧ g' < g1 ∧ 0 < a := by
  induction fuel generalizing a3 g3 with
  | zero => simp [lineLoop]
  | succ fuel ih =>
    rw [lineLoop]
    simp only
    split_ifs with h1 h2 h3
    · trivial
    · exact ⟨rfl, a3 / 2, by linarith, by linarith, rfl⟩
    · exact ih _ _ rfl (by linarith)
    · exact ⟨h, not_le.1 h1, ha⟩

theorem lineLoop_terminates (tol : ℝ) (g : Vec → ℝ) (intr : Vec → Bool) (x z : Vec) (g1 : ℝ) (fuel : ℕ) (a3 g3 : ℝ)
    (h : a3 / 2 ^ fuel < tol / 2) (h0 : 0 < fuel) : lineLoop tol g intr x z g1 fuel a3 g3 ≠ .running := by
  induction fuel generalizing a3 g3 with
  | zero => omega
  | succ fuel ih =>
    rw [lineLoop]
    simp only
    split_ifs with h1 h2 h3
    · simp
    · simp
    · have hd : a3 / 2 / 2 ^ fuel < tol / 2 := by rw [div_div, mul_comm, ← pow_succ]; exact h
      refine ih _ _ hd ?_
      rcases Nat.eq_zero_or_pos fuel with rfl | hp
      · exfalso; apply h3; simp at hd; linarith
      · exact hp
    · simp

section
variable (e tol : ℝ) (n : ℕ) (g : Vec → ℝ) (dg : Vec → ℕ → ℝ) (intr intrD : Vec → Bool) (fuel : ℕ)

/-- the unit vector along the gradient -/
noncomputable def unitGrad (x : Vec) : Vec := fun i => dg x i / General.rootSquare n (some (dg x)) none

theorem turn_spec (x : Vec) (res : Option ℝ) :
    match turn e tol n g dg intr intrD fuel x res with
    | .running => True
    | .overflow => True
    | .next x' g' => g' = g x' ∧ g' < g x
    | .stop s x' r =>
      (s = .interrupted ∧ x' = x ∧ r = res) ∨ (s = .extrema ∧ x' = x ∧ r = some (√(g x')) ∧ |General.rootSquare n (some (dg x)) none| < e) ∨
      (s = .noImprovement ∧ r = some (√(g x')) ∧ ∃ a, 0 < a ∧ a < tol / 2 ∧ x' = move x (unitGrad n dg x) a) := by
  rw [turn]
  simp only
  split_ifs with h1 h2 h3
  · simp
  · refine Or.inr (Or.inl ⟨rfl, rfl, rfl, ?_⟩)
    simp only [Tol.eql, Bool.and_eq_true, decide_eq_true_eq] at h2
    rw [abs_lt]; constructor <;> linarith
  · simp
  · have hl := lineLoop_spec tol g intr x (unitGrad n dg x) (g x) fuel 1 (g (move x (unitGrad n dg x) 1)) rfl one_pos
    unfold unitGrad at hl
    revert hl
    generalize lineLoop tol g intr x (fun i => dg x i / General.rootSquare n (some (dg x)) none) (g x) fuel 1
      (g (move x (fun i => dg x i / General.rootSquare n (some (dg x)) none) 1)) = L
    intro hl
    cases L with
    | running => trivial
    | interrupted => simp
    | small y g3 => exact Or.inr (Or.inr ⟨rfl, by rw [hl.1], hl.2⟩)
    | found a3 g3 =>
      simp only
      split_ifs with h4 h5 h6 h7 <;> try simp
      · exact lt_trans h7 hl.2.1
      · exact ⟨hl.1, hl.2.1⟩

theorem sdLoop_spec (k : ℕ) (x : Vec) (res : Option ℝ) (s : Status) (x' : Vec) (r : Option ℝ)
    (h : sdLoop e tol n g dg intr intrD fuel k x res = .done s x' r) :
    (s = .noImprovement → r = some (√(g x')) ∧ ∃ x1 a, g x1 ≤ g x ∧ 0 < a ∧ a < tol / 2 ∧ x' = move x1 (unitGrad n dg x1) a) ∧
    (s ≠ .noImprovement → g x' ≤ g x) ∧ ((s = .ok ∨ s = .maxIter) → g x' < g x) ∧
    (s = .ok ∨ s = .maxIter ∨ s = .extrema → r = some (√(g x'))) ∧
    (s = .extrema → |General.rootSquare n (some (dg x')) none| < e) ∧ s ≠ .nan ∧
    (s = .ok → ∃ x1, g x1 ≤ g x ∧ g x1 - tol < g x' ∧ g x' < g x1) := by
  induction k generalizing x res with
  | zero =>
    simp only [sdLoop, SD.done.injEq] at h
    obtain ⟨rfl, rfl, rfl⟩ := h
    simp
  | succ k ih =>
    rw [sdLoop] at h
    have ht := turn_spec e tol n g dg intr intrD fuel x res
    cases hT : turn e tol n g dg intr intrD fuel x res with
    | running => rw [hT] at h; cases h
    | overflow => rw [hT] at h; cases h
    | stop s2 x2 r2 =>
      rw [hT] at h ht
      simp only [SD.done.injEq] at h
      obtain ⟨rfl, rfl, rfl⟩ := h
      rcases ht with ⟨rfl, rfl, rfl⟩ | ⟨rfl, rfl, h1, h2⟩ | ⟨rfl, h1, a, h2⟩
      · simp
      · simpa using ⟨h1, h2⟩
      · simpa using ⟨h1, x, le_refl _, a, h2.1, h2.2.1, h2.2.2⟩
    | next x2 g2 =>
      rw [hT] at h ht
      obtain ⟨h1, h2⟩ := ht
      subst h1
      simp only at h
      split at h
      · rename_i hlt
        rw [abs_of_neg (by linarith)] at hlt
        simp only [SD.done.injEq] at h
        obtain ⟨rfl, rfl, rfl⟩ := h
        simp only [reduceCtorEq, false_implies, ne_eq, not_false_iff, true_implies, or_false, true_or, true_and]
        exact ⟨h2.le, h2, x, le_refl _, by linarith, h2⟩
      · split at h
        · simp only [SD.done.injEq] at h
          obtain ⟨rfl, rfl, rfl⟩ := h
          simp [h2, h2.le]
        · obtain ⟨a1, a2, a3, a4, a5, a6, a7⟩ := ih x2 _ h
          refine ⟨fun hs => ?_, fun hs => (a2 hs).trans h2.le, fun hs => (a3 hs).trans h2, a4, a5, a6, fun hs => ?_⟩
          · obtain ⟨b1, x1, a, b2, b3⟩ := a1 hs
            exact ⟨b1, x1, a, b2.trans h2.le, b3⟩
          · obtain ⟨x1, b1, b2⟩ := a7 hs
            exact ⟨x1, b1.trans h2.le, b2⟩

end

/-- **C29 (each accepted step).** A turn that goes on has strictly decreased the sum of squared residuals. -/
theorem C29_step (e tol : ℝ) (n : ℕ) (fs : List (Vec → ℝ)) (D : Diff) (intr intrD : Vec → Bool) (fuel : ℕ) (x x' : Vec) (g' : ℝ)
    (res : Option ℝ) (h : turn e tol n (gSD fs) (dgSD fs D) intr intrD fuel x res = .next x' g') :
    g' = gSD fs x' ∧ gSD fs x' < gSD fs x := by
  have := turn_spec e tol n (gSD fs) (dgSD fs D) intr intrD fuel x res
  rw [h] at this
  exact ⟨this.1, by rw [← this.1]; exact this.2⟩

/-- **C29 (partial).** Unless the search gives up with "no improvement", the returned point is never worse than the initial
guess; after success or after running out of iterations it is strictly better.  Success means that the last step changed
the sum of squares by less than the tolerance.  Missing: the "no improvement" exit (`C29_noImprovement_violation`). -/
theorem C29_never_worse_partial (e tol : ℝ) (n : ℕ) (fs : List (Vec → ℝ)) (D : Diff) (intr intrD : Vec → Bool)
    (fuel maxIter : ℕ) (gss : Option Vec) (x0 : Vec) (s : Status) (x : Vec) (r : Option ℝ)
    (h : steepest e tol n fs D intr intrD fuel maxIter gss x0 = .done s x r) (hs : s ≠ .noImprovement) :
    gSD fs x ≤ gSD fs (gss.getD x0) ∧ (s = .ok ∨ s = .maxIter → gSD fs x < gSD fs (gss.getD x0)) ∧
    (s = .ok → ∃ x1, gSD fs x1 ≤ gSD fs (gss.getD x0) ∧ gSD fs x1 - tol < gSD fs x ∧ gSD fs x < gSD fs x1) := by
  have := sdLoop_spec e tol n (gSD fs) (dgSD fs D) intr intrD fuel maxIter _ none s x r h
  exact ⟨this.2.1 hs, this.2.2.1, this.2.2.2.2.2.2⟩

/-- **C29 (what is reported).** The residual reported with a solution is the root of the sum of squares at that solution;
"extremum" is reported only where the gradient vanishes up to round-off; a point returned with "no improvement" is closer
than half the tolerance, along the unit gradient, to a point not worse than the guess. -/
theorem C29_report (e tol : ℝ) (n : ℕ) (fs : List (Vec → ℝ)) (D : Diff) (intr intrD : Vec → Bool)
    (fuel maxIter : ℕ) (gss : Option Vec) (x0 : Vec) (s : Status) (x : Vec) (r : Option ℝ)
    (h : steepest e tol n fs D intr intrD fuel maxIter gss x0 = .done s x r) :
    (s = .ok ∨ s = .maxIter ∨ s = .extrema ∨ s = .noImprovement → r = some (√(gSD fs x))) ∧
    (s = .extrema → √(∑ i ∈ Finset.range n, dgSD fs D x i ^ 2) < e) ∧
    (s = .noImprovement → ∃ x1 a, gSD fs x1 ≤ gSD fs (gss.getD x0) ∧ 0 < a ∧ a < tol / 2 ∧
      ∀ i, x i = x1 i - a * (dgSD fs D x1 i / √(∑ i ∈ Finset.range n, dgSD fs D x1 i ^ 2))) := by
  obtain ⟨h1, h2, h3, h4, h5, h6, h7⟩ := sdLoop_spec e tol n (gSD fs) (dgSD fs D) intr intrD fuel maxIter _ none s x r h
  have hv : ∀ v : ℕ → ℝ, General.rootSquare n (some v) none = √(∑ i ∈ Finset.range n, v i ^ 2) := by
    intro v; rw [General.C33_root_square]; simp [General.vec]
  refine ⟨?_, ?_, ?_⟩
  · rintro (hs | hs | hs | hs)
    · exact h4 (Or.inl hs)
    · exact h4 (Or.inr (Or.inl hs))
    · exact h4 (Or.inr (Or.inr hs))
    · exact (h1 hs).1
  · intro hs
    have := h5 hs
    rw [hv, abs_of_nonneg (Real.sqrt_nonneg _)] at this
    exact this
  · intro hs
    obtain ⟨-, x1, a, b1, b2, b3, b4⟩ := h1 hs
    refine ⟨x1, a, b1, b2, b3, fun i => ?_⟩
    rw [b4, move, unitGrad, hv]

/-- **C29 (termination).** With a positive tolerance the call ends after at most `maxIter` turns of at most `fuel` halvings
each, as soon as 2^fuel exceeds 2/tol. -/
theorem C29_terminates (e tol : ℝ) (n : ℕ) (fs : List (Vec → ℝ)) (D : Diff) (intr intrD : Vec → Bool)
    (fuel maxIter : ℕ) (gss : Option Vec) (x0 : Vec) (hfuel : 0 < fuel) (h : 1 / 2 ^ fuel < tol / 2) :
    steepest e tol n fs D intr intrD fuel maxIter gss x0 ≠ .running := by
  unfold steepest
  generalize gss.getD x0 = x
  generalize (none : Option ℝ) = res
  induction maxIter generalizing x res with
  | zero => simp [sdLoop]
  | succ k ih =>
    rw [sdLoop]
    cases hT : turn e tol n (gSD fs) (dgSD fs D) intr intrD fuel x res with
    | running =>
      exfalso
      rw [turn] at hT
      simp only at hT
      split_ifs at hT
      have hl := lineLoop_terminates tol (gSD fs) intr x (fun i => dgSD fs D x i / General.rootSquare n (some (dgSD fs D x)) none)
        (gSD fs x) fuel 1 (gSD fs (move x (fun i => dgSD fs D x i / General.rootSquare n (some (dgSD fs D x)) none) 1)) h hfuel
      generalize lineLoop tol (gSD fs) intr x (fun i => dgSD fs D x i / General.rootSquare n (some (dgSD fs D x)) none)
        (gSD fs x) fuel 1 (gSD fs (move x (fun i => dgSD fs D x i / General.rootSquare n (some (dgSD fs D x)) none) 1)) = L at hT hl
      cases L with
      | running => exact hl rfl
      | interrupted => cases hT
      | small y g3 => cases hT
      | found a3 g3 =>
        simp only at hT
        split_ifs at hT
    | overflow => simp
    | stop s x r => simp
    | next x' g' =>
      simp only
      split_ifs
      · simp
      · simp
      · exact ih _ _

/-- one equation x = 0 with its derivative -/
def idEq : List (Vec → ℝ) := [fun x => x 0]
def idDiff : Diff := .given [fun _ _ => 1]

/-- **C29 (violation).** For every tolerance the "no improvement" exit can return a point that is strictly worse than the
initial guess: the equation x = 0 with its exact derivative, started at a hundredth of the tolerance. -/
theorem C29_noImprovement_violation (e tol : ℝ) (h0 : 0 < tol) (h2 : tol ≤ 2) (he0 : 0 < e) (he : 50 * e < tol) (fuel : ℕ)
    (hf : 0 < fuel) (hfuel : 1 / 2 ^ fuel < tol / 2) (maxIter : ℕ) (hm : 0 < maxIter) (x0 : Vec) :
    ∃ x r, steepest e tol 1 idEq idDiff (fun _ => false) (fun _ => false) fuel maxIter (some fun _ => tol / 100) x0
      = .done .noImprovement x r ∧ gSD idEq (fun _ => tol / 100) < gSD idEq x := by
  have hg : ∀ x : Vec, gSD idEq x = x 0 ^ 2 := by intro x; simp [gSD, idEq]
  have hd : ∀ x i, dgSD idEq idDiff x i = 2 * x 0 := by intro x i; simp [dgSD, idEq, idDiff]
  have hz : General.rootSquare 1 (some (dgSD idEq idDiff fun _ => tol / 100)) none = tol / 50 := by
    rw [General.C33_root_square]
    simp only [General.vec, Option.getD_some, Option.getD_none, hd, Finset.sum_range_one, sub_zero]
    rw [Real.sqrt_sq (by linarith)]; ring
  have key : ∀ (k : ℕ) (a g3 : ℝ), tol / 2 ≤ a → (tol / 100) ^ 2 ≤ g3 →
      lineLoop tol (gSD idEq) (fun _ => false) (fun _ => tol / 100) (fun _ => 1) ((tol / 100) ^ 2) k a g3 = .running ∨
      ∃ y, lineLoop tol (gSD idEq) (fun _ => false) (fun _ => tol / 100) (fun _ => 1) ((tol / 100) ^ 2) k a g3
        = .small y (gSD idEq y) ∧ (tol / 100) ^ 2 < gSD idEq y := by
    intro k
    induction k with
    | zero => intro a g3 _ _; left; rfl
    | succ k ih =>
      intro a g3 ha hg3
      rw [lineLoop, if_pos hg3]
      simp only [Bool.false_eq_true, if_false]
      have hy : (tol / 100) ^ 2 < gSD idEq (move (fun _ => tol / 100) (fun _ => 1) (a / 2)) := by
        rw [hg, move]; nlinarith
      split_ifs with hs
      · exact Or.inr ⟨_, rfl, hy⟩
      · exact ih _ _ (by linarith) hy.le
  obtain ⟨m, rfl⟩ : ∃ m, maxIter = m + 1 := ⟨maxIter - 1, by omega⟩
  have hz1 : (fun i => dgSD idEq idDiff (fun _ => tol / 100) i / (tol / 50)) = fun _ => (1 : ℝ) := by
    funext i; rw [hd]; field_simp; norm_num
  have hne : Tol.eql e (tol / 50) 0 = false := by
    simp only [Tol.eql, Bool.and_eq_false_iff, decide_eq_false_iff_not, not_lt]; left; linarith
  have h1 : (tol / 100) ^ 2 ≤ gSD idEq (move (fun _ => tol / 100) (fun _ => 1) 1) := by
    rw [hg, move]; nlinarith
  have hrun := lineLoop_terminates tol (gSD idEq) (fun _ => false) (fun _ => tol / 100) (fun _ => 1) ((tol / 100) ^ 2) fuel 1
    (gSD idEq (move (fun _ => tol / 100) (fun _ => 1) 1)) hfuel hf
  obtain hh | ⟨y, hy, hlt⟩ := key fuel 1 (gSD idEq (move (fun _ => tol / 100) (fun _ => 1) 1)) (by linarith) h1
  · exact absurd hh hrun
  refine ⟨y, some (√(gSD idEq y)), ?_, by rw [hg]; exact hlt⟩
  rw [steepest, Option.getD_some, sdLoop, turn]
  simp only [hz, hne, hz1, Bool.false_eq_true, if_false, Bool.or_self, hg (fun _ => tol / 100), hy]

example : (0 : ℝ) < 1e-8 ∧ (1e-8 : ℝ) ≤ 2 ∧ 50 * (1e-12 : ℝ) < 1e-8 ∧ (1 : ℝ) / 2 ^ 30 < 1e-8 / 2 := by norm_num

/-! ### C44: the gradient of the sum of squares -/

/-- **C44 (given derivatives).** When the user's derivative functions are the partial derivatives of the equations, the
search direction is the gradient of the sum of squared residuals. -/
theorem C44_given (fs : List (Vec → ℝ)) (dfs : List (Vec → ℕ → ℝ)) (hlen : fs.length = dfs.length) (x : Vec) (dir : ℕ)
    (h : ∀ p ∈ fs.zip dfs, HasDerivAt (fun t => p.1 (Function.update x dir t)) (p.2 x dir) (x dir)) :
    HasDerivAt (fun t => gSD fs (Function.update x dir t)) (dgSD fs (.given dfs) x dir) (x dir) := by
  simp only [dgSD, gSD]
  induction fs generalizing dfs with
  | nil => simpa using hasDerivAt_const (x dir) (0 : ℝ)
  | cons f fs ih =>
    cases dfs with
    | nil => simp at hlen
    | cons df dfs =>
      have h1 := h (f, df) (by simp)
      have h2 := ih dfs (by simpa using hlen) (fun p hp => h p (by simp [hp]))
      simp only [List.map_cons, List.sum_cons, List.zip_cons_cons]
      have h3 := (h1.fun_pow 2).fun_add h2
      refine h3.congr_deriv ?_
      simp only [Function.update_eq_self]
      push_cast
      ring

/-- the step of the finite differences is at least 1e-4, at every point -/
theorem C44_step (x : Vec) (dir : ℕ) : 10e-5 ≤ fdStep x dir := by
  unfold fdStep
  simp only
  split_ifs with h
  · exact h.le
  · exact le_refl _

/-- **C44 (finite differences).** All three difference formulas give the derivative of the sum of squares along a
coordinate line exactly wherever it is quadratic on that line (e.g. for affine equations), at every point. -/
theorem C44_fd (fs : List (Vec → ℝ)) (x : Vec) (dir : ℕ) (c0 c1 c2 : ℝ)
    (h : ∀ t, gSD fs (Function.update x dir (x dir + t)) = c0 + c1 * t + c2 * t ^ 2) (D : Diff)
    (hD : D = .left ∨ D = .right ∨ D = .mid) :
    dgSD fs D x dir = c1 ∧ HasDerivAt (fun t => gSD fs (Function.update x dir t)) c1 (x dir) := by
  have hs : (0 : ℝ) < fdStep x dir := lt_of_lt_of_le (by norm_num) (C44_step x dir)
  have hx : gSD fs x = c0 := by
    have := h 0
    simpa using this
  constructor
  · rcases hD with rfl | rfl | rfl <;> simp only [dgSD, h, hx] <;> generalize fdStep x dir = H at * <;> field_simp <;> ring
  · have e : (fun t => gSD fs (Function.update x dir t)) = fun t => c0 + c1 * (t - x dir) + c2 * (t - x dir) ^ 2 := by
      funext t
      rw [← h (t - x dir)]
      congr 2; ring
    rw [e]
    have h1 : HasDerivAt (fun t => t - x dir) 1 (x dir) := (hasDerivAt_id (x dir)).sub_const _
    have h2 := ((h1.const_mul c1).const_add c0).add ((h1.fun_pow 2).const_mul c2)
    refine h2.congr_deriv ?_
    simp

/-- concrete case: the equations x0 = 0 and x0 + x1 = 3 at (1, 5) -/
example : dgSD [fun x => x 0, fun x => x 0 + x 1 - 3] .mid (fun i => if i = 0 then 1 else 5) 0 = 8 :=
  (C44_fd [fun x => x 0, fun x => x 0 + x 1 - 3] (fun i => if i = 0 then 1 else 5) 0 10 8 2
    (by intro t; simp [gSD, Function.update]; ring) .mid (by simp)).1

end Elliptica.Root
