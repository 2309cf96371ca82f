import Verif.Model.EoSTab
import Verif.Props.Spline
import Verif.Props.EoS
/-!
C59: the smoothed piecewise polytrope.
-/
namespace Elliptica.EoS
open Interp Polynomial Spec

variable {e : ℝ}

theorem sampleH_gap (S i : ℕ) : sampleH S (i + 1) = sampleH S i + 1 / ((S : ℝ) - 1) := by
  unfold sampleH; push_cast; ring

theorem sampleH_zero (S : ℕ) : sampleH S 0 = 1 := by simp [sampleH]

theorem sampleH_last (S : ℕ) (h : 2 ≤ S) : sampleH S (S - 1) = 2 := by
  have : (2 : ℝ) ≤ S := by exact_mod_cast h
  unfold sampleH
  rw [Nat.cast_sub (by omega)]
  have : (S : ℝ) - 1 ≠ 0 := by linarith
  push_cast
  field_simp
  ring

theorem sampleH_pos (S : ℕ) (h : 2 ≤ S) : 0 < 1 / ((S : ℝ) - 1) := by
  have : (2 : ℝ) ≤ S := by exact_mod_cast h
  have : 0 < (S : ℝ) - 1 := by linarith
  positivity

theorem sampleH_inc (S : ℕ) (h : 2 ≤ S) : Inc (S - 1) (sampleH S) := by
  intro i _
  rw [sampleH_gap]
  linarith [sampleH_pos S h]

theorem samples_spec (E : Eos) (S k : ℕ) (l : List (ℝ × ℝ × ℝ)) (h : samples e E S k = .ok l) :
    l.length = k ∧ ∀ i < k, sampleOne e E S i = .ok (l.getD i 0) := by
  induction k generalizing l with
  | zero =>
    simp only [samples] at h
    rw [← Res.ok.inj h]
    simp
  | succ k ih =>
    simp only [samples] at h
    obtain ⟨l', h1, h⟩ := bind_ok h
    obtain ⟨v, h2, h⟩ := bind_ok h
    rw [← Res.ok.inj h]
    obtain ⟨a, b⟩ := ih l' h1
    refine ⟨by simp [a], fun i hi => ?_⟩
    rcases Nat.lt_or_eq_of_le (Nat.lt_succ_iff.1 hi) with hlt | rfl
    · rw [b i hlt]
      simp [List.getD, List.getElem?_append_left (show i < l'.length by omega)]
    · rw [h2]
      simp [List.getD, ← a]

/-- C59: the samples kept are the values of the piecewise polytrope at equally spaced enthalpies from 1 to 2 -/
theorem C59_samples (gamma K rho : List ℝ) (S : ℕ) (floor : ℝ) (T : Ncs) (h : populateNcs e gamma K rho S floor = .ok T) :
    2 ≤ S ∧ T.S = S ∧ T.floor = floor ∧ ∃ E, populatePwp e gamma K rho = .ok E ∧ ∀ i < S,
      pPwp e E (sampleH S i) = .ok (T.p i) ∧ ePwp e E (sampleH S i) = .ok (T.w i) ∧ rhoPwp e E (sampleH S i) = .ok (T.r i) := by
  unfold populateNcs at h
  obtain ⟨E, hE, h⟩ := bind_ok h
  split_ifs at h with hS
  obtain ⟨l, hl, h⟩ := bind_ok h
  rw [← Res.ok.inj h]
  refine ⟨by omega, rfl, rfl, E, hE, fun i hi => ?_⟩
  have := (samples_spec E S S l hl).2 i hi
  unfold sampleOne at this
  obtain ⟨p, a1, this⟩ := bind_ok this
  obtain ⟨w, a2, this⟩ := bind_ok this
  obtain ⟨r, a3, this⟩ := bind_ok this
  have := Res.ok.inj this
  refine ⟨?_, ?_, ?_⟩
  · rw [a1]; exact congrArg (fun v : ℝ × ℝ × ℝ => Res.ok v.1) this
  · rw [a2]; exact congrArg (fun v : ℝ × ℝ × ℝ => Res.ok v.2.1) this
  · rw [a3]; exact congrArg (fun v : ℝ × ℝ × ℝ => Res.ok v.2.2) this

/-- C59: at or below the floor the functions return zero -/
theorem C59_floor (he : 0 < e) (T : Ncs) (f : ℕ → ℝ) (h : ℝ) (hf : h ≤ T.floor) (hne : h ≠ T.floor - e) : ncsEval e T f h = .ok 0 := by
  unfold ncsEval
  rw [if_pos]
  unfold Tol.lssEql Tol.lss Tol.eql
  simp only [Bool.or_eq_true, Bool.and_eq_true, decide_eq_true_eq]
  rcases lt_or_gt_of_ne hne with h1 | h1
  · exact Or.inl h1
  · exact Or.inr ⟨by linarith, h1⟩

theorem above_floor (he : 0 < e) (h fl : ℝ) (hf : fl + e ≤ h) : Tol.lssEql e h fl = false := by
  unfold Tol.lssEql Tol.lss Tol.eql
  have h1 : ¬ h < fl - e := by linarith
  have h2 : ¬ h < fl + e := by linarith
  simp [h1, h2]

/-- C59: between the floor and enthalpy 2 (clear of the sample points by exactly the round-off) the functions return the
natural cubic spline through the samples, set to zero where it is below the round-off -/
theorem C59_value (he : 0 < e) (gamma K rho : List ℝ) (S : ℕ) (floor : ℝ) (T : Ncs)
    (hT : populateNcs e gamma K rho S floor = .ok T) (he1 : e ≤ 1) (f : ℕ → ℝ) (P : ℕ → ℝ[X])
    (hP : NaturalSpline (S - 1) (sampleH S) f P) (h : ℝ) (hlo : floor + e ≤ h) (h1 : 1 ≤ h) (h2 : h ≤ 2)
    (hc : ∀ j, h ≠ sampleH S j + e ∧ h ≠ sampleH S j - e) :
    ∃ i, i + 1 < S ∧ sampleH S i - e < h ∧ h < sampleH S (i + 1) + e ∧
      (e ≤ (P i).eval h → ncsEval e T f h = .ok ((P i).eval h)) ∧
      ((P i).eval h < e → (P i).eval h ≠ -e → ncsEval e T f h = .ok 0) := by
  obtain ⟨hS, rfl, rfl, -⟩ := C59_samples gamma K rho S floor T hT
  have hgap : sampleH T.S 0 + e ≤ sampleH T.S (T.S - 1) := by rw [sampleH_zero, sampleH_last _ hS]; linarith
  have hv := C30_value e he (T.S - 1) (by omega) (sampleH T.S) f (sampleH_inc _ hS) hgap h P hP
  rw [show T.S - 1 + 1 = T.S by omega] at hv
  rcases hv with ⟨i, hi, a, b, c, -⟩ | ⟨-, -, hout⟩
  · refine ⟨i, by omega, a, b, ?_, ?_⟩
    · intro hp
      simp only [ncsEval, above_floor he h _ hlo, c, Res.bind, above_floor (e := e) he ((P i).eval h) 0 (by linarith)]
      rfl
    · intro hp hne
      have hl : Tol.lssEql e ((P i).eval h) 0 = true := by
        unfold Tol.lssEql Tol.lss Tol.eql
        simp only [Bool.or_eq_true, Bool.and_eq_true, decide_eq_true_eq]
        rcases lt_or_gt_of_ne hne with h1 | h1
        · exact Or.inl (by linarith)
        · exact Or.inr ⟨by linarith, by linarith⟩
      simp only [ncsEval, above_floor he h _ hlo, c, Res.bind, hl]
      rfl
  · exfalso
    rcases hout hc with h' | h'
    · rw [sampleH_zero] at h'; linarith
    · rw [sampleH_last _ hS] at h'; linarith

/-- C59: at a sample point above the floor the value of the piecewise polytrope comes back, if it is not below the round-off -/
theorem C59_node (he : 0 < e) (gamma K rho : List ℝ) (S : ℕ) (floor : ℝ) (T : Ncs)
    (hT : populateNcs e gamma K rho S floor = .ok T) (hs : 2 * e < 1 / ((S : ℝ) - 1)) (f : ℕ → ℝ) (i : ℕ) (hi : i < S)
    (hlo : floor + e ≤ sampleH S i) (hf : e ≤ f i) : ncsEval e T f (sampleH S i) = .ok (f i) := by
  obtain ⟨hS, rfl, rfl, -⟩ := C59_samples gamma K rho S floor T hT
  have hv := C30_node e he (T.S - 1) (by omega) (sampleH T.S) f (fun j _ => by rw [sampleH_gap]; linarith) i (by omega)
  rw [show T.S - 1 + 1 = T.S by omega] at hv
  simp only [ncsEval, above_floor he _ _ hlo, hv, Res.bind, above_floor (e := e) he (f i) 0 (by linarith)]
  rfl

/-- C59: what is returned is zero, at least the round-off, or exactly minus the round-off -/
theorem C59_sign_partial (he : 0 < e) (T : Ncs) (f : ℕ → ℝ) (h v : ℝ) (hv : ncsEval e T f h = .ok v) : v = 0 ∨ e ≤ v ∨ v = -e := by
  unfold ncsEval at hv
  split_ifs at hv
  · exact Or.inl (Res.ok.inj hv).symm
  · obtain ⟨w, -, hv⟩ := bind_ok hv
    cases w with
    | none => exact Or.inl (Res.ok.inj hv).symm
    | some w =>
      simp only at hv
      have hv := Res.ok.inj hv
      split_ifs at hv with hc
      · exact Or.inl hv.symm
      · right
        unfold Tol.lssEql Tol.lss Tol.eql at hc
        simp only [Bool.or_eq_true, Bool.and_eq_true, decide_eq_true_eq, not_or, not_and, not_lt] at hc
        by_cases h1 : e ≤ w
        · exact Or.inl (by linarith)
        · have := hc.2 (by linarith)
          exact Or.inr (by linarith [hc.1])

/-- C59, violation: the last case occurs: a spline value of exactly minus the round-off is passed on -/
theorem C59_sign_violation (he : 0 < e) (T : Ncs) (f : ℕ → ℝ) (h : ℝ) (hlo : T.floor + e ≤ h)
    (hv : spline e T.S (sampleH T.S) f h = .ok (some (-e))) : ncsEval e T f h = .ok (-e) := by
  have hl : Tol.lssEql e (-e) 0 = false := by
    simp [Tol.lssEql, Tol.lss, Tol.eql]
  simp only [ncsEval, above_floor he _ _ hlo, hv, Res.bind, hl]
  rfl

/-- C59, violation: above enthalpy 2, where the samples end, the functions return zero: dense matter is taken for vacuum -/
theorem C59_above_violation (he : 0 < e) (gamma K rho : List ℝ) (S : ℕ) (floor : ℝ) (T : Ncs)
    (hT : populateNcs e gamma K rho S floor = .ok T) (he1 : e ≤ 1) (f : ℕ → ℝ) (h : ℝ) (hh : 2 + e ≤ h) : ncsEval e T f h = .ok 0 := by
  obtain ⟨hS, rfl, rfl, -⟩ := C59_samples gamma K rho S floor T hT
  have hgap : sampleH T.S 0 + e ≤ sampleH T.S (T.S - 1) := by rw [sampleH_zero, sampleH_last _ hS]; linarith
  have hv := C30_outside e he (T.S - 1) (by omega) (sampleH T.S) f (sampleH_inc _ hS) hgap h
    (Or.inr (by rw [sampleH_last _ hS]; exact hh))
  rw [show T.S - 1 + 1 = T.S by omega] at hv
  unfold ncsEval
  split_ifs
  · rfl
  · rw [hv]; rfl

/-- C59: usable parameters are accepted when no sample enthalpy is within the round-off of a threshold -/
theorem C59_accepts (he : 0 < e) (gamma K rho : List ℝ) (S : ℕ) (floor : ℝ) (E : Eos) (hE : populatePwp e gamma K rho = .ok E)
    (hN : 2 ≤ gamma.length) (p u : ℝ → ℝ)
    (U : Usable gamma.length (fun i => gamma.getD i 0) (K.getD 0 0) (fun i => rho.getD i 0))
    (M : Matter gamma.length (fun i => gamma.getD i 0) (K.getD 0 0) (fun i => rho.getD i 0) p u) (hS : 2 ≤ S)
    (hs : e ≤ 1 / ((S : ℝ) - 1)) (ht : enthalpy p u (rho.getD 1 0) ≠ 1 + e)
    (hc : ∀ i, 1 ≤ i → i < S → Clear e gamma.length (fun j => enthalpy p u (rho.getD j 0)) (sampleH S i)) :
    ∃ T, populateNcs e gamma K rho S floor = .ok T := by
  have hone : ∀ i < S, ∃ v, sampleOne e E S i = .ok v := by
    intro i hi
    rcases Nat.eq_zero_or_pos i with rfl | h0
    · obtain ⟨a, b, -, d⟩ := C58_vacuum gamma K rho E he hE hN U M ht (sampleH S 0) (by rw [sampleH_zero]; simpa using he)
      exact ⟨_, by simp only [sampleOne, a, b, d, Res.bind]; rfl⟩
    · have hh : 1 + e ≤ sampleH S i := by
        unfold sampleH
        have h1 := sampleH_pos S hS
        have : (1 : ℝ) ≤ i := by exact_mod_cast h0
        have : 1 / ((S : ℝ) - 1) ≤ i * (1 / ((S : ℝ) - 1)) := le_mul_of_one_le_left h1.le this
        norm_num at this hs ⊢
        linarith
      obtain ⟨r, hr, hv, -, -⟩ := C58_total gamma K rho E he hE hN U M _ hh (hc i h0 hi)
      rw [← hv] at hh
      have hcl := hc i h0 hi
      rw [← hv] at hcl
      obtain ⟨a, b, -, d⟩ := C58_values gamma K rho E he hE hN U M r hr hh hcl
      rw [hv] at a b d
      exact ⟨_, by simp only [sampleOne, a, b, d, Res.bind]; rfl⟩
  have hall : ∀ k ≤ S, ∃ l, samples e E S k = .ok l := by
    intro k
    induction k with
    | zero => intro _; exact ⟨[], rfl⟩
    | succ k ih =>
      intro hk
      obtain ⟨l, hl⟩ := ih (by omega)
      obtain ⟨v, hv⟩ := hone k (by omega)
      exact ⟨l ++ [v], by simp only [samples, hl, hv, Res.bind]⟩
  obtain ⟨l, hl⟩ := hall S le_rfl
  unfold populateNcs
  rw [hE]
  simp only [Res.bind]
  rw [if_neg (by omega), hl]
  exact ⟨_, rfl⟩

/-- a case: p = r², then r³; eleven samples (the threshold lies at enthalpy 3) -/
example : ∃ T, populateNcs (1 / 1000) [2, 3] [1] [0, 1] 11 1 = .ok T := by
  obtain ⟨p, u, M, -, h2, -⟩ := demo_case (e := 1 / 1000) (by norm_num) (by norm_num)
  refine C59_accepts (by norm_num) _ _ _ 11 1 _ (demo_ok (e := 1 / 1000) (by norm_num) (by norm_num)) (by simp) p u demoU M
    (by norm_num) (by norm_num) (by rw [h2]; norm_num) ?_
  intro i h1 hi j j1 j2
  have : j = 1 := by simp at j2; omega
  subst this
  simp only [h2]
  right
  have hi2 : (i : ℝ) ≤ 10 := by exact_mod_cast (show i ≤ 10 by omega)
  have : sampleH 11 i ≤ 2 := by unfold sampleH; norm_num; linarith
  rw [abs_sub_comm, abs_of_pos (by linarith)]
  linarith

end Elliptica.EoS
