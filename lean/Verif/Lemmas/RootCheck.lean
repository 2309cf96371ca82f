import Verif.Model.RootTables
import Verif.Lemmas.Gauss
import Mathlib.Topology.Order.IntermediateValue
/-!
A checker for the tables of roots, its soundness, and its run by the kernel.
-/
namespace Elliptica.RootTables
open Polynomial Nat Elliptica.Legendre

@[irreducible] def D : ℕ := 10 ^ 19

/-- D² -/
@[irreducible] def D2 : ℕ := 100000000000000000000000000000000000000

/-- evaluation of p_k = k! D^k P_k(a/D) by Bonnet's recursion in signs and magnitudes; `fin` sees the last two values -/
def loop (fin : ℕ → Bool → ℕ → Bool → ℕ → Bool) (d2 a : ℕ) : ℕ → ℕ → Bool → ℕ → Bool → ℕ → Bool
  | 0, k, s0, m0, s1, m1 => fin k s0 m0 s1 m1
  | n+1, k, s0, m0, s1, m1 =>
    (fun (x y : ℕ) =>
      match Bool.xor s0 s1 with
      | true => loop fin d2 a n (Nat.succ k) s1 m1 s1 (Nat.add x y)
      | false => match Nat.ble y x with
        | true => loop fin d2 a n (Nat.succ k) s1 m1 s1 (Nat.sub x y)
        | false => loop fin d2 a n (Nat.succ k) s1 m1 (Bool.not s1) (Nat.sub y x))
     (Nat.mul (Nat.mul (Nat.succ (Nat.mul 2 k)) a) m1)
     (Nat.mul (Nat.mul (Nat.mul k k) d2) m0)

/-- sign of P_k -/
def finP (_ : ℕ) (_ : Bool) (_ : ℕ) (s1 : Bool) (_ : ℕ) : Bool := s1

/-- sign of a p_k - k D² p_{k-1}, that is of (x²-1) P'_k -/
def finD (d2 a k : ℕ) (s0 : Bool) (m0 : ℕ) (s1 : Bool) (m1 : ℕ) : Bool :=
  match Bool.xor s0 s1 with
  | true => s1
  | false => match Nat.ble (Nat.mul (Nat.mul k d2) m0) (Nat.mul a m1) with
    | true => s1
    | false => Bool.not s1

def signP (d2 n a : ℕ) : Bool := match n with | 0 => false | n+1 => loop finP d2 a n 1 false 1 false a
def signD (d2 n a : ℕ) : Bool := match n with | 0 => false | n+1 => loop (finD d2 a) d2 a n 1 false 1 false a

/-- a sign change within ±10^-18 -/
def chkP (d2 n a : ℕ) : Bool := Nat.ble 10 a && Bool.xor (signP d2 n (Nat.sub a 10)) (signP d2 n (Nat.add a 10))
def chkD (d2 n a : ℕ) : Bool :=
  Nat.ble 10 a && Nat.blt (Nat.add a 10) 10000000000000000000 && Bool.xor (signD d2 n (Nat.sub a 10)) (signD d2 n (Nat.add a 10))

/-- consecutive entries differ by more than 2·10^-18 -/
def gaps : List ℤ → Bool
  | a :: b :: l => decide (a + 20 < b) && gaps (b :: l)
  | _ => true

def checkRow (odd : Bool) (chk : ℕ → Bool) (row : List ℤ) : Bool :=
  gaps row && decide (row.map Int.neg = row.reverse) &&
    row.all fun a => if a < 0 then true else if a = 0 then odd else chk a.toNat

def checkLeg (d2 n : ℕ) (row : List ℤ) : Bool := decide (row.length = n) && checkRow (n % 2 == 1) (chkP d2 n) row
def checkLob (d2 n : ℕ) (row : List ℤ) : Bool := decide (row.length = n - 1) && checkRow (n % 2 == 0) (chkD d2 n) row

/-! ### soundness -/

/-- k! D^k P_k(a/D) -/
noncomputable def pk (a k : ℕ) : ℝ := (k ! : ℝ) * (D : ℝ) ^ k * (legendre k).eval ((a : ℝ) / D)

def val (s : Bool) (m : ℕ) : ℝ := if s then -(m : ℝ) else m

theorem D_pos : (0 : ℝ) < D := by unfold D; norm_num

theorem pk_succ (a k : ℕ) : pk a (k + 2) = (2 * (k + 1) + 1) * a * pk a (k + 1) - (k + 1) * (k + 1) * (D : ℝ) ^ 2 * pk a k := by
  unfold pk
  have h := congrArg (eval ((a : ℝ) / D)) (bonnet k)
  simp only [eval_mul, eval_add, eval_sub, eval_natCast, eval_ofNat, eval_X, Polynomial.eval_one] at h
  have hD := D_pos.ne'
  have hx : (a : ℝ) / D * D = a := div_mul_cancel₀ _ hD
  rw [Nat.factorial_succ (k + 1), Nat.factorial_succ k]
  push_cast
  generalize eval ((a : ℝ) / D) (legendre (k + 2)) = A at *
  generalize eval ((a : ℝ) / D) (legendre (k + 1)) = B at *
  generalize eval ((a : ℝ) / D) (legendre k) = E at *
  generalize (a : ℝ) / D = x at *
  rw [← hx]
  rw [show ((k : ℝ) + 1 + 1) = k + 2 by ring, pow_succ, pow_succ]
  linear_combination ((k : ℝ) + 1) * (k !) * ((D : ℝ) ^ k * D * D) * h

theorem D2_eq : (D2 : ℝ) = (D : ℝ) ^ 2 := by unfold D D2; norm_num

theorem step_val (s0 s1 : Bool) (m0 m1 c1 c0 : ℕ) (P : Bool → ℕ → Prop)
    (hP : ∀ s m, val s m = (c1 : ℝ) * val s1 m1 - c0 * val s0 m0 → P s m) :
    (Bool.xor s0 s1 = true → P s1 (Nat.add (c1 * m1) (c0 * m0))) ∧
    (Bool.xor s0 s1 = false → (Nat.ble (c0 * m0) (c1 * m1) = true → P s1 (Nat.sub (c1 * m1) (c0 * m0))) ∧
      (Nat.ble (c0 * m0) (c1 * m1) = false → P (Bool.not s1) (Nat.sub (c0 * m0) (c1 * m1)))) := by
  refine ⟨fun hx => hP _ _ ?_, fun hx => ⟨fun hb => hP _ _ ?_, fun hb => hP _ _ ?_⟩⟩
  · simp only [Nat.add_eq]
    cases s0 <;> cases s1 <;> simp at hx <;> simp [val]; ring
  · have hle := Nat.le_of_ble_eq_true hb
    simp only [Nat.sub_eq, val, Nat.cast_sub hle]
    cases s0 <;> cases s1 <;> simp at hx <;> simp; try ring
  · have hle : c1 * m1 ≤ c0 * m0 := by
      by_contra hc
      rw [Nat.ble_eq_true_of_le (by omega)] at hb
      exact absurd hb (by simp)
    simp only [Nat.sub_eq, val, Nat.cast_sub hle]
    cases s0 <;> cases s1 <;> simp at hx <;> simp; try ring

/-- what the loop computes -/
theorem loop_spec (fin : ℕ → Bool → ℕ → Bool → ℕ → Bool) (d2 : ℕ) (hd : (d2 : ℝ) = (D : ℝ) ^ 2) (a n k : ℕ) (s0 : Bool) (m0 : ℕ) (s1 : Bool) (m1 : ℕ)
    (h0 : val s0 m0 = pk a k) (h1 : val s1 m1 = pk a (k + 1)) :
    ∃ t0 l0 t1 l1, loop fin d2 a n (k + 1) s0 m0 s1 m1 = fin (k + 1 + n) t0 l0 t1 l1 ∧ val t0 l0 = pk a (k + n) ∧
      val t1 l1 = pk a (k + 1 + n) := by
  induction n generalizing k s0 m0 s1 m1 with
  | zero => exact ⟨s0, m0, s1, m1, rfl, h0, h1⟩
  | succ n ih =>
    have hk := pk_succ a k
    rw [← h0, ← h1] at hk
    have hs := step_val s0 s1 m0 m1 (Nat.mul (Nat.succ (Nat.mul 2 (k + 1))) a) (Nat.mul (Nat.mul (k + 1) (k + 1)) d2)
      (fun s m => ∃ t0 l0 t1 l1, loop fin d2 a n (k + 1 + 1) s1 m1 s m = fin (k + 1 + (n + 1)) t0 l0 t1 l1 ∧
        val t0 l0 = pk a (k + (n + 1)) ∧ val t1 l1 = pk a (k + 1 + (n + 1))) (by
      intro s m hs
      have hs' : val s m = pk a (k + 1 + 1) := by
        rw [hk, hs]
        simp only [Nat.mul_eq, Nat.succ_eq_add_one, Nat.cast_mul, hd]
        push_cast; ring
      obtain ⟨t0, l0, t1, l1, e1, e2, e3⟩ := ih (k + 1) s1 m1 s m h1 hs'
      refine ⟨t0, l0, t1, l1, ?_, ?_, ?_⟩
      · rw [e1]; congr 1; omega
      · rw [e2]; congr 1; omega
      · rw [e3]; congr 1; omega)
    simp only [loop]
    cases hx : Bool.xor s0 s1 with
    | true => simp only [Nat.succ_eq_add_one]; exact hs.1 hx
    | false =>
      cases hb : Nat.ble (Nat.mul (Nat.mul (Nat.mul (k + 1) (k + 1)) d2) m0) (Nat.mul (Nat.mul (Nat.succ (Nat.mul 2 (k + 1))) a) m1) with
      | true => exact (hs.2 hx).1 hb
      | false => exact (hs.2 hx).2 hb

theorem pk_zero (a : ℕ) : pk a 0 = 1 := by unfold pk; simp [legendre_zero]
theorem pk_one (a : ℕ) : pk a 1 = a := by
  unfold pk
  have := D_pos.ne'
  simp [legendre_one]
  field_simp

theorem val_sign (s : Bool) (m : ℕ) : if s then val s m ≤ 0 else 0 ≤ val s m := by
  cases s <;> simp [val]

theorem np {c x : ℝ} (hc : 0 < c) (h : c * x ≤ 0) : x ≤ 0 := by
  by_contra h'
  push Not at h'
  exact absurd h (not_le.mpr (mul_pos hc h'))

theorem nn {c x : ℝ} (hc : 0 < c) (h : 0 ≤ c * x) : 0 ≤ x := by
  by_contra h'
  push Not at h'
  exact absurd h (not_le.mpr (mul_neg_of_pos_of_neg hc h'))

/-- the sign of P_n(a/D) -/
theorem signP_spec (d2 : ℕ) (hd : (d2 : ℝ) = (D : ℝ) ^ 2) (n a : ℕ) : if signP d2 n a then (legendre n).eval ((a : ℝ) / D) ≤ 0 else 0 ≤ (legendre n).eval ((a : ℝ) / D) := by
  have hpos : ∀ n, (0 : ℝ) < (n ! : ℝ) * (D : ℝ) ^ n := fun n => mul_pos (by exact_mod_cast Nat.factorial_pos n) (pow_pos D_pos n)
  cases n with
  | zero => simp [signP, legendre_zero]
  | succ n =>
    obtain ⟨t0, l0, t1, l1, e1, _, e3⟩ := loop_spec finP d2 hd a n 0 false 1 false a (by simp [val, pk_zero]) (by simp [val, pk_one])
    have h : signP d2 (n + 1) a = t1 := by rw [signP]; rw [Nat.zero_add] at e1; exact e1
    rw [h]
    have hv := val_sign t1 l1
    rw [e3, Nat.zero_add, Nat.add_comm] at hv
    unfold pk at hv
    cases t1 with
    | true => exact np (hpos (n + 1)) hv
    | false => exact nn (hpos (n + 1)) hv

theorem deriv_id (n : ℕ) : (X ^ 2 - 1) * derivative (legendre (n + 1)) = (n + 1 : ℝ[X]) * (X * legendre (n + 1) - legendre n) := by
  have h1 := r3 (n + 1)
  have h2 := bonnet n
  push_cast at h1
  linear_combination h2 - h1

/-- the sign of (x²-1) P'_n(x) at a/D -/
theorem signD_spec (d2 : ℕ) (hd : (d2 : ℝ) = (D : ℝ) ^ 2) (n a : ℕ) :
    if signD d2 n a then ((X ^ 2 - 1) * derivative (legendre n)).eval ((a : ℝ) / D) ≤ 0
    else 0 ≤ ((X ^ 2 - 1) * derivative (legendre n)).eval ((a : ℝ) / D) := by
  cases n with
  | zero => simp [signD, legendre_zero]
  | succ n =>
    obtain ⟨t0, l0, t1, l1, e1, e2, e3⟩ := loop_spec (finD d2 a) d2 hd a n 0 false 1 false a (by simp [val, pk_zero]) (by simp [val, pk_one])
    rw [Nat.zero_add] at e2
    rw [Nat.zero_add, Nat.add_comm] at e3
    have hv : signD d2 (n + 1) a = finD d2 a (n + 1) t0 l0 t1 l1 := by
      rw [signD]; rw [Nat.zero_add, Nat.add_comm 1 n] at e1; exact e1
    have key : ((n + 1)! : ℝ) * (D : ℝ) ^ (n + 2) * ((X ^ 2 - 1) * derivative (legendre (n + 1))).eval ((a : ℝ) / D) =
        (n + 1) * (a * val t1 l1 - (n + 1) * (D : ℝ) ^ 2 * val t0 l0) := by
      rw [deriv_id, e2, e3]
      unfold pk
      simp only [eval_mul, eval_add, eval_sub, eval_natCast, eval_X, Polynomial.eval_one]
      have hx : (a : ℝ) / D * D = a := div_mul_cancel₀ _ D_pos.ne'
      generalize eval ((a : ℝ) / D) (legendre (n + 1)) = B at *
      generalize eval ((a : ℝ) / D) (legendre n) = E at *
      generalize (a : ℝ) / D = x at *
      rw [← hx, Nat.factorial_succ]
      push_cast
      ring
    have hpos : (0 : ℝ) < ((n + 1)! : ℝ) * (D : ℝ) ^ (n + 2) := mul_pos (by exact_mod_cast Nat.factorial_pos _) (pow_pos D_pos _)
    have hn : (0 : ℝ) < n + 1 := by positivity
    have red : if finD d2 a (n + 1) t0 l0 t1 l1 then a * val t1 l1 - (n + 1) * (D : ℝ) ^ 2 * val t0 l0 ≤ 0
        else 0 ≤ a * val t1 l1 - (n + 1) * (D : ℝ) ^ 2 * val t0 l0 := by
      have hs := step_val t0 t1 l0 l1 a (Nat.mul (n + 1) d2) (fun s m => if s then a * val t1 l1 - (n + 1) * (D : ℝ) ^ 2 * val t0 l0 ≤ 0
        else 0 ≤ a * val t1 l1 - (n + 1) * (D : ℝ) ^ 2 * val t0 l0) (by
        intro s m hs
        have h2 := val_sign s m
        have e : (a : ℝ) * val t1 l1 - ((Nat.mul (n + 1) d2 : ℕ) : ℝ) * val t0 l0 =
            a * val t1 l1 - (n + 1) * (D : ℝ) ^ 2 * val t0 l0 := by
          simp only [Nat.mul_eq, Nat.cast_mul, hd]; push_cast; ring
        rw [hs, e] at h2
        exact h2)
      unfold finD
      cases hx : Bool.xor t0 t1 with
      | true => exact hs.1 hx
      | false =>
        dsimp only
        cases hb : Nat.ble (Nat.mul (Nat.mul (n + 1) d2) l0) (Nat.mul a l1) with
        | true => exact (hs.2 hx).1 hb
        | false => exact (hs.2 hx).2 hb
    rw [hv]
    generalize finD d2 a (n + 1) t0 l0 t1 l1 = b at red ⊢
    cases b with
    | true =>
      simp only [if_true] at red ⊢
      refine np hpos ?_
      rw [key]; exact mul_nonpos_of_nonneg_of_nonpos hn.le red
    | false =>
      simp only [Bool.false_eq_true, if_false] at red ⊢
      refine nn hpos ?_
      rw [key]; exact mul_nonneg hn.le red

/-! ### the roots -/

/-- a polynomial that changes sign has a root -/
theorem ivt (p : ℝ[X]) (u v : ℝ) (huv : u ≤ v) (h : (p.eval u ≤ 0 ∧ 0 ≤ p.eval v) ∨ (0 ≤ p.eval u ∧ p.eval v ≤ 0)) :
    ∃ x, u ≤ x ∧ x ≤ v ∧ p.eval x = 0 := by
  have hc : ContinuousOn (fun x => p.eval x) (Set.Icc u v) := fun x _ => (p.hasDerivAt x).continuousAt.continuousWithinAt
  rcases h with h | h
  · obtain ⟨x, hx, e⟩ := intermediate_value_Icc huv hc ⟨h.1, h.2⟩
    exact ⟨x, hx.1, hx.2, e⟩
  · obtain ⟨x, hx, e⟩ := intermediate_value_Icc' huv hc ⟨h.2, h.1⟩
    exact ⟨x, hx.1, hx.2, e⟩

theorem sub10 (a : ℕ) (h : 10 ≤ a) : ((Nat.sub a 10 : ℕ) : ℝ) = a - 10 := by
  rw [Nat.sub_eq, Nat.cast_sub h]; norm_num

theorem chkP_spec (d2 : ℕ) (hd : (d2 : ℝ) = (D : ℝ) ^ 2) (n a : ℕ) (h : chkP d2 n a = true) :
    ∃ x, ((a : ℝ) - 10) / D ≤ x ∧ x ≤ ((a : ℝ) + 10) / D ∧ (legendre n).eval x = 0 := by
  unfold chkP at h
  rw [Bool.and_eq_true] at h
  have h10 := Nat.le_of_ble_eq_true h.1
  have hu := signP_spec d2 hd n (Nat.sub a 10)
  have hv := signP_spec d2 hd n (Nat.add a 10)
  rw [sub10 a h10] at hu
  rw [show ((Nat.add a 10 : ℕ) : ℝ) = a + 10 by rw [Nat.add_eq]; push_cast; rfl] at hv
  refine ivt _ _ _ ?_ ?_
  · have := D_pos
    gcongr; linarith
  · have hx := h.2
    revert hu hv hx
    generalize signP d2 n (Nat.sub a 10) = s
    generalize signP d2 n (Nat.add a 10) = t
    cases s <;> cases t <;> simp
    · intro h1 h2; exact Or.inr ⟨h1, h2⟩
    · intro h1 h2; exact Or.inl ⟨h1, h2⟩

theorem chkD_spec (d2 : ℕ) (hd : (d2 : ℝ) = (D : ℝ) ^ 2) (n a : ℕ) (h : chkD d2 n a = true) :
    ∃ x, ((a : ℝ) - 10) / D ≤ x ∧ x ≤ ((a : ℝ) + 10) / D ∧ (derivative (legendre n)).eval x = 0 := by
  unfold chkD at h
  rw [Bool.and_eq_true, Bool.and_eq_true] at h
  have h10 := Nat.le_of_ble_eq_true h.1.1
  have hlt : a + 10 < 10000000000000000000 := by
    have := h.1.2
    unfold Nat.blt at this
    exact Nat.le_of_ble_eq_true this
  have hu := signD_spec d2 hd n (Nat.sub a 10)
  have hv := signD_spec d2 hd n (Nat.add a 10)
  rw [sub10 a h10] at hu
  rw [show ((Nat.add a 10 : ℕ) : ℝ) = a + 10 by rw [Nat.add_eq]; push_cast; rfl] at hv
  have hD := D_pos
  obtain ⟨x, h1, h2, h3⟩ := ivt ((X ^ 2 - 1) * derivative (legendre n)) (((a : ℝ) - 10) / D) (((a : ℝ) + 10) / D)
    (by gcongr; linarith) (by
      have hx := h.2
      revert hu hv hx
      generalize signD d2 n (Nat.sub a 10) = s
      generalize signD d2 n (Nat.add a 10) = t
      generalize ((X ^ 2 - 1) * derivative (legendre n)) = q
      cases s <;> cases t <;> simp
      · intro h1 h2; exact Or.inr ⟨h1, h2⟩
      · intro h1 h2; exact Or.inl ⟨h1, h2⟩)
  refine ⟨x, h1, h2, ?_⟩
  have hx0 : 0 ≤ x := le_trans (div_nonneg (by have : (10 : ℝ) ≤ a := by exact_mod_cast h10
                                               linarith) hD.le) h1
  have hx1 : x < 1 := lt_of_le_of_lt h2 (by
    rw [div_lt_one hD]
    have : ((a + 10 : ℕ) : ℝ) < ((10000000000000000000 : ℕ) : ℝ) := by exact_mod_cast hlt
    have e : (D : ℝ) = ((10000000000000000000 : ℕ) : ℝ) := by unfold D; norm_num
    rw [e]; push_cast at this ⊢; exact this)
  rw [eval_mul] at h3
  rcases mul_eq_zero.mp h3 with h4 | h4
  · simp only [eval_sub, eval_pow, eval_X, Polynomial.eval_one] at h4
    nlinarith
  · exact h4

/-- gaps: entries are separated -/
theorem gaps_spec : ∀ (l : List ℤ), gaps l = true → ∀ i j, i < j → j < l.length → l.getD i 0 + 20 < l.getD j 0
  | [], _, i, j, _, hj => by simp at hj
  | [a], _, i, j, hij, hj => by simp at hj; omega
  | a :: b :: l, h, i, j, hij, hj => by
    simp only [gaps, Bool.and_eq_true, decide_eq_true_eq] at h
    have ih := gaps_spec (b :: l) h.2
    obtain ⟨j, rfl⟩ : ∃ j', j = j' + 1 := ⟨j - 1, by omega⟩
    have hj' : j < (b :: l).length := by simpa using hj
    cases i with
    | succ i => simpa using ih i j (by omega) hj'
    | zero =>
      cases j with
      | zero => simpa using h.1
      | succ j =>
        have := ih 0 (j + 1) (by omega) hj'
        simp at this ⊢
        omega

/-- P_n(-x) = (-1)^n P_n(x) -/
theorem parity (n : ℕ) (x : ℝ) : (legendre n).eval (-x) = (-1) ^ n * (legendre n).eval x := by
  induction n using Nat.strong_induction_on with
  | _ n ih =>
    match n with
    | 0 => simp [legendre_zero]
    | 1 => simp [legendre_one]
    | n + 2 =>
      have e (y : ℝ) := congrArg (eval y) (bonnet n)
      have h1 := e (-x)
      have h2 := e x
      simp only [eval_mul, eval_add, eval_sub, eval_natCast, eval_ofNat, eval_X, Polynomial.eval_one] at h1 h2
      rw [ih (n + 1) (by omega), ih n (by omega)] at h1
      have hn : ((n : ℝ) + 2) ≠ 0 := by positivity
      apply mul_left_cancel₀ hn
      rw [h1, pow_succ, pow_succ]
      linear_combination -((-1 : ℝ) ^ n) * h2

theorem parity_d (n : ℕ) (x : ℝ) : (derivative (legendre n)).eval (-x) = -((-1) ^ n * (derivative (legendre n)).eval x) := by
  have e : (legendre n).comp (-X) = C ((-1 : ℝ) ^ n) * legendre n := by
    apply Polynomial.funext
    intro y
    rw [eval_comp, eval_neg, eval_X, parity, eval_mul, eval_C]
  have h := congrArg (fun p => eval x (derivative p)) e
  simp only [derivative_comp, derivative_neg, derivative_X, derivative_mul, derivative_C, zero_mul, zero_add, eval_mul, eval_comp,
    eval_neg, eval_X, Polynomial.eval_one, eval_C] at h
  linarith

/-- what a checked row says -/
theorem checkRow_spec (odd : Bool) (chk : ℕ → Bool) (p : ℝ[X]) (row : List ℤ)
    (hz : odd = true → p.eval 0 = 0) (hc : ∀ a, chk a = true → ∃ x, ((a : ℝ) - 10) / D ≤ x ∧ x ≤ ((a : ℝ) + 10) / D ∧ p.eval x = 0)
    (hp : ∀ x, p.eval x = 0 → p.eval (-x) = 0) (h : checkRow odd chk row = true) :
    ∃ v : ℕ → ℝ, (∀ i < row.length, p.eval (v i) = 0 ∧ |v i - (row.getD i 0 : ℤ) / D| ≤ 10 / D) ∧
      ∀ i j, i < j → j < row.length → v i < v j := by
  simp only [checkRow, Bool.and_eq_true, decide_eq_true_eq, List.all_eq_true] at h
  obtain ⟨⟨hg, hsym⟩, hall⟩ := h
  have hD := D_pos
  have ab (x : ℝ) (b : ℝ) (h1 : (b - 10) / D ≤ x) (h2 : x ≤ (b + 10) / D) : |x - b / D| ≤ 10 / D := by
    rw [abs_le, sub_div] at *
    rw [add_div] at h2
    constructor <;> linarith
  have pos : ∀ a ∈ row, 0 ≤ a → ∃ x, p.eval x = 0 ∧ |x - (a : ℤ) / D| ≤ 10 / D := by
    intro a ha h0
    have := hall a ha
    rw [if_neg (by omega)] at this
    by_cases h : a = 0
    · rw [if_pos h] at this
      exact ⟨0, hz this, by subst h; simp; positivity⟩
    · rw [if_neg h] at this
      obtain ⟨x, h1, h2, h3⟩ := hc _ this
      have e : ((a.toNat : ℕ) : ℝ) = (a : ℝ) := by exact_mod_cast Int.toNat_of_nonneg h0
      rw [e] at h1 h2
      exact ⟨x, h3, ab _ _ h1 h2⟩
  have all : ∀ a ∈ row, ∃ x, p.eval x = 0 ∧ |x - (a : ℤ) / D| ≤ 10 / D := by
    intro a ha
    by_cases h0 : 0 ≤ a
    · exact pos a ha h0
    · have : -a ∈ row := by
        have h1 : Int.neg a ∈ row.map Int.neg := List.mem_map_of_mem ha
        rw [hsym] at h1
        exact List.mem_reverse.mp h1
      obtain ⟨x, h1, h2⟩ := pos _ this (by omega)
      refine ⟨-x, hp x h1, ?_⟩
      rw [← abs_neg]
      push_cast at h2
      convert h2 using 2
      ring
  have key : ∀ i, ∃ x, i < row.length → p.eval x = 0 ∧ |x - (row.getD i 0 : ℤ) / D| ≤ 10 / D := by
    intro i
    by_cases hi : i < row.length
    · obtain ⟨x, hx⟩ := all (row.getD i 0) (by simp [List.getD, List.getElem?_eq_getElem hi])
      exact ⟨x, fun _ => hx⟩
    · exact ⟨0, fun h => absurd h hi⟩
  choose v hv using key
  refine ⟨v, hv, fun i j hij hj => ?_⟩
  have h1 := (abs_le.mp (hv i (by omega)).2).2
  have h2 := (abs_le.mp (hv j hj).2).1
  have h3 := gaps_spec row hg i j hij hj
  have h4 : ((row.getD i 0 : ℤ) : ℝ) + 20 < ((row.getD j 0 : ℤ) : ℝ) := by exact_mod_cast h3
  have h5 : ((row.getD i 0 : ℤ) : ℝ) / D + 20 / D < ((row.getD j 0 : ℤ) : ℝ) / D := by
    rw [← add_div]; gcongr
  have h6 : (20 : ℝ) / D = 10 / D + 10 / D := by ring
  linarith

theorem checkLeg_spec (d2 : ℕ) (hd : (d2 : ℝ) = (D : ℝ) ^ 2) (n : ℕ) (row : List ℤ) (h : checkLeg d2 n row = true) :
    row.length = n ∧ ∃ v : ℕ → ℝ, (∀ i < n, (legendre n).eval (v i) = 0 ∧ |v i - (row.getD i 0 : ℤ) / D| ≤ 10 / D) ∧
      ∀ i j, i < j → j < n → v i < v j := by
  simp only [checkLeg, Bool.and_eq_true, decide_eq_true_eq] at h
  refine ⟨h.1, ?_⟩
  have := checkRow_spec _ _ (legendre n) row ?_ (chkP_spec d2 hd n) ?_ h.2
  · rw [h.1] at this; exact this
  · intro ho
    have := parity n 0
    rw [neg_zero, Odd.neg_one_pow (Nat.odd_iff.mpr (by simpa using ho))] at this
    linarith
  · intro x hx
    rw [parity, hx, mul_zero]

theorem checkLob_spec (d2 : ℕ) (hd : (d2 : ℝ) = (D : ℝ) ^ 2) (n : ℕ) (row : List ℤ) (h : checkLob d2 n row = true) :
    row.length = n - 1 ∧ ∃ v : ℕ → ℝ,
      (∀ i < n - 1, (derivative (legendre n)).eval (v i) = 0 ∧ |v i - (row.getD i 0 : ℤ) / D| ≤ 10 / D) ∧
      ∀ i j, i < j → j < n - 1 → v i < v j := by
  simp only [checkLob, Bool.and_eq_true, decide_eq_true_eq] at h
  refine ⟨h.1, ?_⟩
  have := checkRow_spec _ _ (derivative (legendre n)) row ?_ (chkD_spec d2 hd n) ?_ h.2
  · rw [h.1] at this; exact this
  · intro ho
    have := parity_d n 0
    rw [neg_zero, Even.neg_one_pow (Nat.even_iff.mpr (by simpa using ho))] at this
    linarith
  · intro x hx
    rw [parity_d, hx, mul_zero, neg_zero]

end Elliptica.RootTables
