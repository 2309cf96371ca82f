import Verif.Model.Tov
import Mathlib.Tactic.Linarith
import Mathlib.Tactic.NormNum
import Mathlib.Tactic.Ring
import Mathlib.Tactic.FieldSimp
import Mathlib.Tactic.Positivity
import Mathlib.Algebra.Order.Field.Power
/-!
Property C80: the search for the star with a given baryonic mass, and the tables of the TOV project.
-/
namespace Elliptica.Tov

variable {K : Type} [Field K] [LinearOrder K] [IsStrictOrderedRing K]

theorem oEql_iff (e t : K) (m : Option K) : oEql e m t = true ↔ ∃ v, m = some v ∧ |v - t| < e := by
  cases m with
  | none => simp [oEql]
  | some v =>
    simp only [oEql, Option.elim_some, Tol.eql, Bool.and_eq_true, decide_eq_true_eq, Option.some.injEq, exists_eq_left', abs_lt]
    constructor
    · rintro ⟨h1, h2⟩; exact ⟨by linarith, by linarith⟩
    · rintro ⟨h1, h2⟩; exact ⟨by linarith, by linarith⟩

theorem turn_mass (e : K) (F : K → Option K) (t : K) (s : Search K) :
    (turn e F t s).hCent = s.hNew ∧ (turn e F t s).m = F s.hNew := by
  unfold turn
  simp only
  split_ifs <;> exact ⟨rfl, rfl⟩

theorem search_mass (e : K) (F : K → Option K) (t : K) (n : ℕ) (s : Search K) (h : s.m = F s.hCent) :
    (search e F t n s).m = F (search e F t n s).hCent := by
  induction n generalizing s with
  | zero => exact h
  | succ n ih =>
    unfold search
    split
    · exact h
    · refine ih _ ?_
      rw [(turn_mass e F t s).1, (turn_mass e F t s).2]

/-- the star left by the search is the one whose mass was computed last -/
theorem search_init (e : K) (F : K → Option K) (t : K) (n : ℕ) (hn : n ≠ 0) (h0 : ¬ |0 - t| < e) :
    (search e F t n Search.init).m = F (search e F t n Search.init).hCent := by
  obtain ⟨n, rfl⟩ := Nat.exists_eq_succ_of_ne_zero hn
  unfold search
  rw [if_neg]
  · refine search_mass e F t n _ ?_
    rw [(turn_mass e F t _).1, (turn_mass e F t _).2]
  · rw [oEql_iff]
    rintro ⟨v, hv, h⟩
    simp only [Search.init, Option.some.injEq] at hv
    subst hv
    exact h0 h

/-! ### convergence -/

/-- a step is found: the loop does nothing more -/
theorem search_stop (e : K) (F : K → Option K) (t : K) (n : ℕ) (s : Search K) (h : oEql e s.m t = true) :
    search e F t n s = s := by
  cases n with
  | zero => rfl
  | succ n => rw [search, if_pos h]

theorem search_add (e : K) (F : K → Option K) (t : K) (k n : ℕ) (s : Search K) :
    search e F t (k + n) s = search e F t n (search e F t k s) := by
  induction k generalizing s with
  | zero => rw [Nat.zero_add]; rfl
  | succ k ih =>
    rw [show k + 1 + n = (k + n) + 1 by omega]
    conv_lhs => unfold search
    conv_rhs => arg 5; unfold search
    split
    · rename_i h; rw [search_stop _ _ _ _ _ h]
    · exact ih _

variable {e t : K} {F : K → K}

/-- the state during the increase of the enthalpy -/
def Rising (F : K → K) (e t : K) (k : ℕ) (s : Search K) : Prop :=
  s.inc = true ∧ s.bis = false ∧ s.hNew = 3 / 2 * (5 / 4) ^ k ∧ F s.hPrev ≤ t - e ∧ 1 ≤ s.hPrev ∧ s.hPrev ≤ s.hNew

/-- the state during the bisection: the enthalpies a and b enclose the mass -/
def Halving (F : K → K) (e t w : K) (s : Search K) : Prop :=
  s.inc = false ∧ s.bis = true ∧ s.hNew = s.a + 1 / 2 * (s.b - s.a) ∧ F s.a ≤ t - e ∧ t + e < F s.b ∧ s.a ≤ s.b ∧
    s.b - s.a ≤ w ∧ 1 ≤ s.a

theorem turn_rising (he : 0 < e) (k : ℕ) (s : Search K) (hne : F s.hNew ≠ t + e ∧ F s.hNew ≠ t - e) (h : Rising F e t k s) :
    oEql e (turn e (fun x => some (F x)) t s).m t = true ∨
    (F (3 / 2 * (5 / 4) ^ k) < t - e ∧ Rising F e t (k + 1) (turn e (fun x => some (F x)) t s)) ∨
    Halving F e t (3 / 2 * (5 / 4) ^ k) (turn e (fun x => some (F x)) t s) := by
  obtain ⟨h1, h2, h3, h4, h5, h6⟩ := h
  have hm := (turn_mass e (fun x => some (F x)) t s).2
  by_cases hE : oEql e (turn e (fun x => some (F x)) t s).m t = true
  · exact Or.inl hE
  refine Or.inr ?_
  rw [hm, oEql_iff] at hE
  have hE' : ¬ |F s.hNew - t| < e := fun h => hE ⟨_, rfl, h⟩
  by_cases hl : F s.hNew < t - e
  · refine Or.inl ⟨h3 ▸ hl, ?_⟩
    have ht : turn e (fun x => some (F x)) t s =
        { s with hCent := s.hNew, m := some (F s.hNew), hPrev := s.hNew, hNew := s.hNew + s.hNew * (1 / 4) } := by
      simp [turn, h1, h2, oLss, Tol.lss, hl]
    rw [ht]
    refine ⟨h1, h2, ?_, hl.le, by simpa using h5.trans h6, ?_⟩
    · simp only; rw [h3, pow_succ]; ring
    · have : 0 < s.hNew := by linarith
      simp only; linarith
  · refine Or.inr ?_
    have hg : t + e < F s.hNew := by
      by_contra hg
      refine hE' (abs_lt.2 ⟨?_, ?_⟩)
      · have := lt_of_le_of_ne (not_lt.1 hl) hne.2.symm; linarith
      · have := lt_of_le_of_ne (not_lt.1 hg) hne.1; linarith
    have ht : turn e (fun x => some (F x)) t s =
        { s with hCent := s.hNew, m := some (F s.hNew), inc := false, bis := true, a := s.hPrev, b := s.hNew,
                 hNew := s.hPrev + 1 / 2 * (s.hNew - s.hPrev) } := by
      simp [turn, h1, oLss, oGrt, Tol.lss, Tol.grt, hl, hg]
    rw [ht]
    refine ⟨rfl, rfl, rfl, h4, hg, h6, ?_, h5⟩
    rw [← h3]; simp only; linarith

theorem turn_halving (he : 0 < e) (w : K) (s : Search K) (hne : F s.hNew ≠ t + e ∧ F s.hNew ≠ t - e) (h : Halving F e t w s) :
    oEql e (turn e (fun x => some (F x)) t s).m t = true ∨ Halving F e t (w / 2) (turn e (fun x => some (F x)) t s) := by
  obtain ⟨h1, h2, h3, h4, h5, h6, h7, h8⟩ := h
  have hm := (turn_mass e (fun x => some (F x)) t s).2
  by_cases hE : oEql e (turn e (fun x => some (F x)) t s).m t = true
  · exact Or.inl hE
  refine Or.inr ?_
  rw [hm, oEql_iff] at hE
  have hE' : ¬ |F s.hNew - t| < e := fun h => hE ⟨_, rfl, h⟩
  by_cases hg : t + e < F s.hNew
  · have ht : turn e (fun x => some (F x)) t s =
        { s with hCent := s.hNew, m := some (F s.hNew), b := s.hNew, hNew := s.a + 1 / 2 * (s.hNew - s.a) } := by
      simp [turn, h1, h2, oGrt, Tol.grt, hg]
    rw [ht]
    refine ⟨h1, h2, rfl, h4, hg, ?_, ?_, h8⟩
    · simp only; linarith
    · simp only; rw [h3]; linarith
  · have hl : F s.hNew ≤ t - e := by
      by_contra hl
      refine hE' (abs_lt.2 ⟨by linarith [not_le.1 hl], ?_⟩)
      have := lt_of_le_of_ne (not_lt.1 hg) hne.1; linarith
    have ht : turn e (fun x => some (F x)) t s =
        { s with hCent := s.hNew, m := some (F s.hNew), a := s.hNew, hNew := s.hNew + 1 / 2 * (s.b - s.hNew) } := by
      simp [turn, h1, h2, oGrt, Tol.grt, hg]
    rw [ht]
    refine ⟨h1, h2, rfl, hl, h5, ?_, ?_, ?_⟩
    · simp only; linarith
    · simp only; rw [h3]; linarith
    · simp only; linarith

/-- no mass computed during the search is exactly at the tolerance from the wanted one -/
def Fair (F : K → K) (e t : K) (s : Search K) : Prop :=
  ∀ i, F (search e (fun x => some (F x)) t i s).hNew ≠ t + e ∧ F (search e (fun x => some (F x)) t i s).hNew ≠ t - e

theorem Fair.next {s : Search K} (h : Fair F e t s) (hE : ¬ oEql e s.m t = true) : Fair F e t (turn e (fun x => some (F x)) t s) := by
  intro i
  have := h (i + 1)
  rwa [search, if_neg hE] at this

theorem search_halving (he : 0 < e) (n : ℕ) (w : K) (s : Search K) (hne : Fair F e t s)
    (h : Halving F e t w s) :
    oEql e (search e (fun x => some (F x)) t n s).m t = true ∨ Halving F e t (w / 2 ^ n) (search e (fun x => some (F x)) t n s) := by
  induction n generalizing w s with
  | zero => right; simpa [search] using h
  | succ n ih =>
    unfold search
    split
    · rename_i hE; exact Or.inl hE
    · rename_i hE
      rcases turn_halving he w s (hne 0) h with h' | h'
      · rw [search_stop _ _ _ _ _ h']; exact Or.inl h'
      · have := ih _ _ (hne.next hE) h'
        rwa [div_div, ← pow_succ'] at this

theorem search_rising (he : 0 < e) (k j : ℕ) (s : Search K) (hne : Fair F e t s)
    (h : Rising F e t j s) (hk : j ≤ k) (hF : t - e ≤ F (3 / 2 * (5 / 4) ^ k)) (n : ℕ) :
    oEql e (search e (fun x => some (F x)) t (k - j + 1 + n) s).m t = true ∨
    ∃ i ≤ k, ∃ q, n ≤ q ∧ Halving F e t (3 / 2 * (5 / 4) ^ i / 2 ^ q) (search e (fun x => some (F x)) t (k - j + 1 + n) s) := by
  obtain ⟨d, rfl⟩ : ∃ d, k = j + d := ⟨k - j, by omega⟩
  induction d generalizing j s with
  | zero =>
    rw [show j + 0 - j + 1 + n = n + 1 by omega]
    unfold search
    split
    · rename_i hE; exact Or.inl hE
    · rename_i hE
      rcases turn_rising he j s (hne 0) h with h' | h' | h'
      · rw [search_stop _ _ _ _ _ h']; exact Or.inl h'
      · exact absurd hF (not_le.2 h'.1)
      · rcases search_halving he n _ _ (hne.next hE) h' with h2 | h2
        · exact Or.inl h2
        · exact Or.inr ⟨j, by omega, n, le_rfl, h2⟩
  | succ d ih =>
    rw [show j + (d + 1) - j + 1 + n = (d + 1 + n) + 1 by omega]
    unfold search
    split
    · rename_i hE; exact Or.inl hE
    · rename_i hE
      rcases turn_rising he j s (hne 0) h with h' | h' | h'
      · rw [search_stop _ _ _ _ _ h']; exact Or.inl h'
      · have := ih (j + 1) _ (hne.next hE) h'.2 (by omega) (by rwa [show j + 1 + d = j + (d + 1) by omega])
        rw [show j + 1 + d - (j + 1) + 1 + n = d + 1 + n by omega] at this
        rcases this with h2 | ⟨i, hi, h2⟩
        · exact Or.inl h2
        · exact Or.inr ⟨i, by omega, h2⟩
      · rcases search_halving he (d + 1 + n) _ _ (hne.next hE) h' with h2 | h2
        · exact Or.inl h2
        · exact Or.inr ⟨j, by omega, d + 1 + n, by omega, h2⟩

/-- convergence: let the mass be a Lipschitz function of the central enthalpy, less than the wanted one without
gravity (h = 1), and reach the wanted one at some enthalpy (3/2)(5/4)^k that the increase tries.  Then k + 1 turns and the
bisections that bring the interval below the tolerance suffice to find a star of the wanted mass -/
theorem C80_converges (he : 0 < e) (hne : Fair F e t Search.init) (L : K)
    (hL : ∀ x y, 1 ≤ x → x ≤ y → |F y - F x| ≤ L * (y - x)) (h1 : F 1 ≤ t - e) (k n turns : ℕ)
    (hF : t - e ≤ F (3 / 2 * (5 / 4) ^ k)) (hn : L * (3 / 2 * (5 / 4) ^ k) ≤ 2 * e * 2 ^ n) (hturns : k + 1 + n ≤ turns)
    (h0 : ¬ |0 - t| < e) : |F (search e (fun x => some (F x)) t turns Search.init).hCent - t| < e := by
  have hi : Rising F e t 0 (Search.init : Search K) :=
    ⟨rfl, rfl, by simp [Search.init], h1, le_rfl, by simp only [Search.init]; norm_num⟩
  have hmass := search_init e (fun x => some (F x)) t turns (by omega) h0
  have hfound : oEql e (search e (fun x => some (F x)) t turns Search.init).m t = true := by
    obtain ⟨r, rfl⟩ : ∃ r, turns = k + 1 + (n + r) := ⟨turns - (k + 1 + n), by omega⟩
    rcases search_rising he k 0 _ hne hi (by omega) hF (n + r) with h | ⟨i, hik, q, hq, h⟩
    · exact h
    · exfalso
      obtain ⟨-, -, -, h4, h5, h6, h7, h8⟩ := h
      have hl := hL _ _ h8 h6
      have hd : 2 * e < F (search e (fun x => some (F x)) t (k - 0 + 1 + (n + r)) Search.init).b -
          F (search e (fun x => some (F x)) t (k - 0 + 1 + (n + r)) Search.init).a := by linarith
      have hd' := lt_of_lt_of_le hd ((le_abs_self _).trans hl)
      have hL0 : 0 ≤ L := by
        have := hL 1 2 le_rfl (by norm_num)
        have h2 := abs_nonneg (F 2 - F 1)
        linarith
      have h9 := mul_le_mul_of_nonneg_left h7 hL0
      have h10 : (3 / 2 * (5 / 4) ^ i : K) ≤ 3 / 2 * (5 / 4) ^ k :=
        mul_le_mul_of_nonneg_left (pow_le_pow_right₀ (by norm_num) hik) (by norm_num)
      have h11 : (3 / 2 * (5 / 4) ^ i : K) / 2 ^ q ≤ 3 / 2 * (5 / 4) ^ k / 2 ^ n := by
        apply div_le_div₀ (by positivity) h10 (by positivity)
        exact pow_le_pow_right₀ (by norm_num) (by omega)
      have h12 := mul_le_mul_of_nonneg_left h11 hL0
      have h13 : L * (3 / 2 * (5 / 4) ^ k / 2 ^ n) ≤ 2 * e := by
        rw [← mul_div_assoc, div_le_iff₀ (by positivity)]; exact hn
      linarith
  rw [hmass, oEql_iff] at hfound
  obtain ⟨v, hv, h⟩ := hfound
  cases hv
  exact h

/-- F(h) = 2(h-1): the mass 11/8 is found between the enthalpies 3/2 and 15/8 -/
example : |2 * ((search (1 / 10 ^ 12 : ℚ) (fun x => some (2 * (x - 1))) (11 / 8) maxIter Search.init).hCent - 1) - 11 / 8| <
    1 / 10 ^ 12 := by
  refine C80_converges (F := fun x : ℚ => 2 * (x - 1)) (by norm_num) ?_ 2 ?_ (by norm_num) 1 45 maxIter (by norm_num) (by norm_num)
    (by decide) (by rw [abs_lt]; norm_num)
  · have h3 : search (1 / 10 ^ 12 : ℚ) (fun x => some (2 * (x - 1))) (11 / 8) 3 Search.init =
        ⟨27 / 16, some (11 / 8), 57 / 32, 3 / 2, 27 / 16, 15 / 8, false, true⟩ := by decide +kernel
    intro i
    match i with
    | 0 => norm_num [search, Search.init]
    | 1 =>
      have : (search (1 / 10 ^ 12 : ℚ) (fun x => some (2 * (x - 1))) (11 / 8) 1 Search.init).hNew = 15 / 8 := by decide +kernel
      rw [this]; norm_num
    | 2 =>
      have : (search (1 / 10 ^ 12 : ℚ) (fun x => some (2 * (x - 1))) (11 / 8) 2 Search.init).hNew = 27 / 16 := by decide +kernel
      rw [this]; norm_num
    | i + 3 =>
      rw [show i + 3 = 3 + i by omega, search_add, h3, search_stop _ _ _ _ _ (by decide +kernel)]
      norm_num
  · intro x y _ h
    rw [show 2 * (y - 1) - 2 * (x - 1) = 2 * (y - x) by ring, abs_of_nonneg (by linarith)]

/-- a mass between two of the tried enthalpies is never found: for the mass F(h) = h(4-h), which grows up to 4 at h = 2 and
then falls, every mass from 3.985 to 4 is the mass of a star, but the search for 3.99 fails, and goes on to enthalpies of
(3/2)(5/4)^999 -/
theorem C80_maximum_violation (e : ℚ) (he : 0 < e) (he' : e ≤ 1 / 1000) (n : ℕ) :
    (∃ h : ℚ, 1 < h ∧ h * (4 - h) = 3.99) ∧
    let s := search e (fun h => some (h * (4 - h))) (3.99 : ℚ) n Search.init
    oEql e s.m 3.99 = false ∧ s.inc = true ∧ s.hNew = 3 / 2 * (5 / 4) ^ n := by
  refine ⟨⟨1.9, by norm_num, by norm_num⟩, ?_⟩
  have low : ∀ k : ℕ, (3 / 2 * (5 / 4) ^ k : ℚ) * (4 - 3 / 2 * (5 / 4) ^ k) < 3.99 - e := by
    intro k
    match k with
    | 0 => norm_num; linarith
    | 1 => norm_num; linarith
    | k + 2 =>
      have h1 : (1 : ℚ) ≤ (5 / 4) ^ k := one_le_pow₀ (by norm_num)
      have h2 : (3 / 2 * (5 / 4) ^ (k + 2) : ℚ) = 75 / 32 * (5 / 4) ^ k := by rw [pow_add]; norm_num; ring
      rw [h2]
      generalize ((5 / 4) ^ k : ℚ) = x at *
      norm_num
      nlinarith [mul_nonneg (sub_nonneg.2 h1) (sub_nonneg.2 h1)]
  have key : ∀ n (k : ℕ) (s : Search ℚ), s.inc = true → s.bis = false → s.hNew = 3 / 2 * (5 / 4) ^ k → oEql e s.m 3.99 = false →
      let s' := search e (fun h => some (h * (4 - h))) (3.99 : ℚ) n s
      oEql e s'.m 3.99 = false ∧ s'.inc = true ∧ s'.hNew = 3 / 2 * (5 / 4) ^ (k + n) := by
    intro n
    induction n with
    | zero => intro k s h1 h2 h3 h4; exact ⟨h4, h1, h3⟩
    | succ n ih =>
      intro k s h1 h2 h3 h4
      have hl := low k
      rw [← h3] at hl
      have ht : turn e (fun h => some (h * (4 - h))) (3.99 : ℚ) s =
        { s with hCent := s.hNew, m := some (s.hNew * (4 - s.hNew)), hPrev := s.hNew, hNew := s.hNew + s.hNew * (1 / 4) } := by
        simp [turn, h1, h2, oLss, Tol.lss, hl]
      simp only [search, h4, ht]
      have := ih (k + 1) { s with hCent := s.hNew, m := some (s.hNew * (4 - s.hNew)), hPrev := s.hNew, hNew := s.hNew + s.hNew * (1 / 4) }
        h1 h2 (by simp only; rw [h3, pow_succ]; ring) (by
          simp only [oEql, Option.elim_some, Tol.eql, Bool.and_eq_false_iff, decide_eq_false_iff_not]
          right; linarith)
      rw [show k + (n + 1) = k + 1 + n by omega]
      exact this
  have := key n 0 Search.init rfl rfl (by simp [Search.init]) (by
    simp only [oEql, Search.init, Option.elim_some, Tol.eql, Bool.and_eq_false_iff, decide_eq_false_iff_not]
    right; norm_num; linarith)
  rwa [Nat.zero_add] at this

section whole
open Real
variable (E : Eos)

theorem collect_ok (N : ℕ) (g : ℕ → Res ℝ) (f : ℕ → ℝ) (h : collect N g = .ok f) (i : ℕ) (hi : i < N) : g i = .ok (f i) := by
  induction N generalizing f with
  | zero => omega
  | succ N ih =>
    unfold collect at h
    rw [List.range_succ, List.foldl_append, List.foldl_cons, List.foldl_nil] at h
    change (collect N g).bind _ = _ at h
    cases hc : collect N g with
    | abort => rw [hc] at h; cases h
    | ub => rw [hc] at h; cases h
    | ok f' =>
      rw [hc, Res.bind_ok] at h
      cases hg : g N with
      | abort => rw [hg] at h; cases h
      | ub => rw [hg] at h; cases h
      | ok v =>
        rw [hg, Res.bind_ok] at h
        cases h
        by_cases hn : i = N
        · rw [hn, Function.update_self, hg]
        · rw [Function.update_of_ne hn]
          exact ih f' hc (by omega)

theorem fillRest_ok (e : ℝ) (N : ℕ) (a : ℝ) (re : Rest) (h : fillRest E e N a = .ok re) :
    ∃ c, cRbar E N a = .ok c ∧ (∀ i, re.phi i = phiAt E N a i) ∧ (∀ i, re.p i = E.p (hAt N a i)) ∧
      (∀ i < N, rbarAt E e N a c i = .ok (re.rbar i)) ∧
      ∀ i, re.psi i = (if i = 0 then √(exp c) else √((star E N a i).1 / re.rbar i)) := by
  unfold fillRest at h
  cases hc : cRbar E N a with
  | abort => rw [hc] at h; cases h
  | ub => rw [hc] at h; cases h
  | ok c =>
    rw [hc, Res.bind_ok] at h
    cases hb : collect N (rbarAt E e N a c) with
    | abort => rw [hb] at h; cases h
    | ub => rw [hb] at h; cases h
    | ok rb =>
      rw [hb, Res.bind_ok] at h
      cases h
      exact ⟨c, rfl, fun _ => rfl, fun _ => rfl, fun i hi => collect_ok N _ _ hb i hi, fun _ => rfl⟩

/-- the two masses of a table, the integrals of the Komar and of the ADM integrand by Simpson's rule, are k and m -/
def Masses (N : ℕ) (a k m : ℝ) : Prop :=
  Integ.simpson N a 1 (table fun i => komarF E (phiAt E N a i) (hAt N a i) (star E N a i).1 (star E N a i).2) = .ok k ∧
  Integ.simpson N a 1 (table fun i => admF E (hAt N a i) (star E N a i).1 (star E N a i).2) = .ok m

theorem masses_ok (e : ℝ) (N : ℕ) (a : ℝ) (b : Bool) (h : massesDiffer E e N a = .ok b) :
    ∃ k m, Masses E N a k m ∧ (b = false ↔ |k - m| ≤ (a - 1) / N + e) := by
  unfold massesDiffer at h
  cases hk : Integ.simpson N a 1 (table fun i => komarF E (phiAt E N a i) (hAt N a i) (star E N a i).1 (star E N a i).2) with
  | abort => rw [hk] at h; cases h
  | ub => rw [hk] at h; cases h
  | ok k =>
    rw [hk, Res.bind_ok] at h
    cases hm : Integ.simpson N a 1 (table fun i => admF E (hAt N a i) (star E N a i).1 (star E N a i).2) with
    | abort => rw [hm] at h; cases h
    | ub => rw [hm] at h; cases h
    | ok m =>
      rw [hm, Res.bind_ok] at h
      cases h
      refine ⟨k, m, ⟨hk, hm⟩, ?_⟩
      simp only [Tol.grt, decide_eq_false_iff_not, gt_iff_lt, not_lt]

/-- what `TOV_solution` returns: the arrays belong to one star, the one with central enthalpy h[0]; the reported baryonic
mass is the one computed for this star, up to round-off; with status 0 it is the requested one, and the Komar and ADM masses
of the star agree to (h_c - 1)/N -/
theorem C80_solution (e : ℝ) (he : 0 < e) (N : ℕ) (x : Bool) (barM : ℝ) (o : Out) (ho : solution E e N x barM = .ok o) (re : Rest)
    (hr : o.rest = some re) :
    3 ≤ N ∧ N % 2 = 1 ∧ ∃ v, massAt E N o.hCent = some v ∧ baryMass E N o.hCent = .ok v ∧ |v - o.barM| < e ∧
      (o.status = 0 → o.barM = barM ∧ |v - barM| < e) ∧
      (∃ k m, Masses E N o.hCent k m ∧ (o.barM = barM → (o.status = 0 ↔ |k - m| ≤ (o.hCent - 1) / N + e))) ∧
      (o.barM ≠ barM → o.status = 1 ∧ o.barM = v ∧ ¬ |v - barM| < e) ∧
      (∃ pr, o.prof = some pr ∧ pr.h 0 = o.hCent ∧ o.admM = pr.m (N - 1) ∧
        ∃ c, cRbar E N o.hCent = .ok c ∧
        ∀ i, pr.r i = (star E N o.hCent i).1 ∧ pr.m i = (star E N o.hCent i).2 ∧ pr.h i = hAt N o.hCent i ∧
          re.p i = E.p (pr.h i) ∧ re.phi i = phiAt E N o.hCent i ∧
          re.psi i = (if i = 0 then √(exp c) else √(pr.r i / re.rbar i)) ∧
          (i < N → rbarAt E e N o.hCent c i = .ok (re.rbar i))) := by
  unfold solution at ho
  split at ho
  · cases ho; cases hr
  rename_i h0
  split at ho
  · cases ho
  rename_i hN
  split at ho
  · cases ho
  rename_i hodd
  have h0' : ¬ |0 - barM| < e := by
    intro h
    apply h0
    rw [abs_lt] at h
    simp only [Tol.eql, Bool.and_eq_true, decide_eq_true_eq]
    exact ⟨by linarith, by linarith⟩
  have hmass := search_init e (massAt E N) barM maxIter (by decide) h0'
  simp only at ho
  generalize search e (massAt E N) barM maxIter Search.init = s at *
  unfold verdict at ho
  have bary : ∀ v, massAt E N s.hCent = some v → baryMass E N s.hCent = .ok v := by
    intro v hv
    unfold massAt at hv
    split at hv
    · split at hv
      · rename_i w hw; cases hv; exact hw
      · cases hv
    · cases hv
  refine ⟨by omega, by omega, ?_⟩
  cases hm : s.m with
  | none =>
    rw [hm] at ho
    simp only at ho
    split at ho
    · cases ho
    · cases ho; cases hr
  | some v =>
    rw [hm] at ho hmass
    simp only at ho
    by_cases hE : Tol.eql e v barM = true
    · have hE' : |v - barM| < e := by
        have := (oEql_iff e barM (some v)).1 hE
        obtain ⟨w, hw, h⟩ := this
        cases hw; exact h
      rw [if_pos hE] at ho
      simp only at ho
      cases hd : massesDiffer E e N s.hCent with
      | abort => rw [hd] at ho; cases ho
      | ub => rw [hd] at ho; cases ho
      | ok b =>
        rw [hd, Res.bind_ok] at ho
        cases hf : fillRest E e N s.hCent with
        | abort => rw [hf] at ho; cases ho
        | ub => rw [hf] at ho; cases ho
        | ok rest =>
          rw [hf, Res.bind_ok] at ho
          cases ho
          cases hr
          refine ⟨v, hmass.symm, bary v hmass.symm, hE', ?_, ?_, ?_, _, rfl, rfl, rfl, ?_⟩
          · intro h
            exact ⟨rfl, hE'⟩
          · obtain ⟨k, m, km, hb⟩ := masses_ok E e N s.hCent b hd
            refine ⟨k, m, km, fun _ => ?_⟩
            rw [← hb]
            cases b <;> simp
          · intro h; exact absurd rfl h
          · obtain ⟨c, g1, g2, g3, g4, g5⟩ := fillRest_ok E e N s.hCent re hf
            exact ⟨c, g1, fun i => ⟨rfl, rfl, rfl, g3 i, g2 i, g5 i, g4 i⟩⟩
    · have hE' : ¬ |v - barM| < e := by
        intro h
        exact hE ((oEql_iff e barM (some v)).2 ⟨v, rfl, h⟩)
      rw [if_neg hE] at ho
      simp only at ho
      cases hd : massesDiffer E e N s.hCent with
      | abort => rw [hd] at ho; cases ho
      | ub => rw [hd] at ho; cases ho
      | ok b =>
        rw [hd, Res.bind_ok] at ho
        cases hf : fillRest E e N s.hCent with
        | abort => rw [hf] at ho; cases ho
        | ub => rw [hf] at ho; cases ho
        | ok rest =>
          rw [hf, Res.bind_ok] at ho
          cases ho
          cases hr
          refine ⟨v, hmass.symm, bary v hmass.symm, by simpa using he, ?_, ?_, ?_, _, rfl, rfl, rfl, ?_⟩
          · intro h
            simp at h
          · obtain ⟨k, m, km, hb⟩ := masses_ok E e N s.hCent b hd
            refine ⟨k, m, km, fun h => ?_⟩
            have h : v = barM := h
            exact absurd (by rw [h]; simpa using he) hE'
          · intro _; exact ⟨by simp, rfl, hE'⟩
          · obtain ⟨c, g1, g2, g3, g4, g5⟩ := fillRest_ok E e N s.hCent re hf
            exact ⟨c, g1, fun i => ⟨rfl, rfl, rfl, g3 i, g2 i, g5 i, g4 i⟩⟩

/-- no baryonic mass: nothing is computed, and the tables of a single star are printed from NULL arrays -/
theorem C80_zero_violation (e : ℝ) (N : ℕ) (barM : ℝ) (h : |barM| < e) :
    (∃ o, solution E e N true barM = .ok o ∧ o.status = 1 ∧ o.prof.isNone = true) ∧ single E e N barM = .ub ∧ row E e N barM = .ub := by
  have h0 : Tol.eql e barM 0 = true := by
    rw [abs_lt] at h
    simp only [Tol.eql, Bool.and_eq_true, decide_eq_true_eq]
    exact ⟨by linarith, by linarith⟩
  have hs : solution E e N true barM = .ok ⟨1, 0, barM, 0, none, none⟩ := by unfold solution; rw [if_pos h0]
  refine ⟨⟨_, hs, rfl, rfl⟩, ?_, ?_⟩
  · unfold single; rw [hs]; rfl
  · unfold row; rw [hs]; rfl

/-- the tables of a single star: pressure, mass and isotropic radius of one star against its radius, from the centre to the
surface.  Its mass is the computed one, whether or not it is the requested one: the status is not consulted -/
theorem C80_single_partial (e : ℝ) (he : 0 < e) (N : ℕ) (barM : ℝ) (P M B : List (ℝ × ℝ)) (h : single E e N barM = .ok (P, M, B)) :
    ∃ (hc v c : ℝ) (rb : ℕ → ℝ), massAt E N hc = some v ∧ baryMass E N hc = .ok v ∧ cRbar E N hc = .ok c ∧
      (∀ i < N, rbarAt E e N hc c i = .ok (rb i)) ∧
      P = (List.range N).map (fun i => ((star E N hc i).1, E.p (hAt N hc i))) ∧
      M = (List.range N).map (fun i => ((star E N hc i).1, (star E N hc i).2)) ∧
      B = (List.range N).map (fun i => ((star E N hc i).1, rb i)) := by
  unfold single at h
  cases ho : solution E e N true barM with
  | abort => rw [ho] at h; cases h
  | ub => rw [ho] at h; cases h
  | ok o =>
    rw [ho, Res.bind_ok] at h
    unfold singleTables at h
    cases hp : o.prof with
    | none => rw [hp] at h; cases h
    | some pr =>
      cases hr : o.rest with
      | none => rw [hp, hr] at h; cases h
      | some re =>
        rw [hp, hr] at h
        cases h
        obtain ⟨-, -, v, h1, h2, -, -, -, -, pr', hp', -, -, c, hc, hi⟩ := C80_solution E e he N true barM o ho re hr
        rw [hp] at hp'
        cases hp'
        refine ⟨o.hCent, v, c, re.rbar, h1, h2, hc, fun i hlt => (hi i).2.2.2.2.2.2 hlt, ?_, ?_, ?_⟩
        · exact List.map_congr_left fun i _ => by rw [(hi i).1, (hi i).2.2.2.1, (hi i).2.2.1]
        · exact List.map_congr_left fun i _ => by rw [(hi i).1, (hi i).2.1]
        · exact List.map_congr_left fun i _ => by rw [(hi i).1]

/-- a row of the mass-radius table: the first column is the requested mass, the others belong to the star that was found,
whose mass is `v`; when the search has failed the two differ, and the row is written all the same -/
theorem C80_row_partial (e : ℝ) (he : 0 < e) (N : ℕ) (barM : ℝ) (x : Row) (h : row E e N barM = .ok x) :
    x.bar = barM ∧ ∃ v, massAt E N x.h0 = some v ∧ baryMass E N x.h0 = .ok v ∧
      x.adm = (star E N x.h0 (N - 1)).2 ∧ x.radSch = (star E N x.h0 (N - 1)).1 ∧ x.p0 = E.p x.h0 ∧ x.e0 = E.e x.h0 ∧
      x.compact = x.adm / x.radSch ∧ x.radIso = surfBar x.radSch x.adm := by
  unfold row at h
  cases ho : solution E e N true barM with
  | abort => rw [ho] at h; cases h
  | ub => rw [ho] at h; cases h
  | ok o =>
    rw [ho, Res.bind_ok] at h
    cases hp : o.prof with
    | none => rw [hp] at h; cases h
    | some pr =>
      cases hr : o.rest with
      | none => rw [hp, hr] at h; cases h
      | some re =>
        rw [hp, hr] at h
        cases h
        obtain ⟨hN, -, v, h1, h2, -, -, -, -, pr', hp', h5, h6, c, hc, hi⟩ := C80_solution E e he N true barM o ho re hr
        rw [hp] at hp'
        cases hp'
        refine ⟨rfl, v, ?_, ?_, ?_, ?_, ?_, ?_, ?_, ?_⟩ <;> simp only
        · rw [h5]; exact h1
        · rw [h5]; exact h2
        · rw [h6, (hi _).2.1, h5]
        · rw [(hi _).1, h5]
        · rw [(hi _).2.2.2.1]
        · have := (hi (N - 1)).2.2.2.2.2.2 (by omega)
          unfold rbarAt at this
          simp only at this
          rw [if_pos trivial] at this
          have := Res.ok.inj this
          rw [← this, (hi (N - 1)).1, h6, (hi (N - 1)).2.1]

theorem rows_ok (e : ℝ) (N : ℕ) (mi dm : ℝ) (k i : ℕ) (l : List Row) (h : rows E e N mi dm k i = .ok l) :
    l.length = k ∧ ∀ j (hj : j < l.length), row E e N (mi + ((i + j : ℕ) : ℝ) * dm) = .ok l[j] := by
  induction k generalizing i l with
  | zero => rw [rows] at h; cases h; exact ⟨rfl, fun j hj => by simp at hj⟩
  | succ k ih =>
    rw [rows] at h
    cases hx : row E e N (mi + (i : ℝ) * dm) with
    | abort => rw [hx] at h; cases h
    | ub => rw [hx] at h; cases h
    | ok x =>
      rw [hx, Res.bind_ok] at h
      cases hl : rows E e N mi dm k (i + 1) with
      | abort => rw [hl] at h; cases h
      | ub => rw [hl] at h; cases h
      | ok l' =>
        rw [hl, Res.bind_ok] at h
        cases h
        obtain ⟨h1, h2⟩ := ih _ _ hl
        refine ⟨by simp [h1], fun j hj => ?_⟩
        match j with
        | 0 => simpa using hx
        | j + 1 =>
          have := h2 j (by simpa using hj)
          rw [show i + (j + 1) = i + 1 + j by omega]
          simpa using this

/-- the mass-radius table: rows for the masses m_i, m_i + dm, ..., each written by `row`; the first mass is m_i, and the last
one is the first that is not less than m_f -/
theorem C80_table (e : ℝ) (N : ℕ) (mi mf dm : ℝ) (hdm : 0 < dm) (hm : mi ≤ mf) (l : List Row)
    (h : multiple E e N mi mf dm = .ok l) :
    l ≠ [] ∧ (∀ j (hj : j < l.length), row E e N (mi + (j : ℝ) * dm) = .ok l[j]) ∧
    mf ≤ mi + ((l.length : ℝ) - 1) * dm ∧ (l.length ≠ 1 → mi + ((l.length : ℝ) - 2) * dm < mf) := by
  unfold multiple at h
  have hq : 0 ≤ (mf - mi) / dm := div_nonneg (by linarith) hdm.le
  have hc : 0 ≤ ⌈(mf - mi) / dm⌉ := Int.ceil_nonneg hq
  have hn : rowCount mi mf dm = .ok (⌈(mf - mi) / dm⌉.toNat + 1) := by
    unfold rowCount; rw [if_neg hdm.ne', if_neg (not_lt.2 hc)]
  rw [hn, Res.bind_ok] at h
  obtain ⟨h1, h2⟩ := rows_ok E e N mi dm _ 0 l h
  have hz : ((⌈(mf - mi) / dm⌉.toNat : ℕ) : ℝ) = (⌈(mf - mi) / dm⌉ : ℝ) := by
    have : ((⌈(mf - mi) / dm⌉.toNat : ℕ) : ℤ) = ⌈(mf - mi) / dm⌉ := Int.toNat_of_nonneg hc
    exact_mod_cast this
  refine ⟨?_, ?_, ?_, ?_⟩
  · rintro rfl; simp at h1
  · intro j hj; have := h2 j hj; rwa [Nat.zero_add] at this
  · rw [h1]; push_cast; rw [hz]
    have := Int.le_ceil ((mf - mi) / dm)
    rw [div_le_iff₀ hdm] at this
    linarith
  · intro _
    rw [h1]; push_cast; rw [hz]
    have := Int.ceil_lt_add_one ((mf - mi) / dm)
    have h3 : (⌈(mf - mi) / dm⌉ : ℝ) - 1 < (mf - mi) / dm := by linarith
    rw [lt_div_iff₀ hdm] at h3
    linarith

/-- the range is overrun: from 1 to 1.25 in steps of 0.1 there are four rows, the last for 1.3 -/
theorem C80_overrun_violation : rowCount 1 1.25 0.1 = .ok 4 ∧ (1.25 : ℝ) < 1 + 3 * 0.1 := by
  constructor
  · have : ⌈((1.25 : ℝ) - 1) / 0.1⌉ = 3 := by rw [Int.ceil_eq_iff]; norm_num
    unfold rowCount
    rw [if_neg (by norm_num), this]
    norm_num
    rfl
  · norm_num

end whole

end Elliptica.Tov
