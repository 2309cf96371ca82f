import Verif.Model.EoSTab
import Verif.Props.Hermite
import Verif.Props.Fornberg
import Verif.Props.EoSSpline
import Mathlib.Data.List.GetD
import Mathlib.Analysis.Calculus.Deriv.Polynomial
import Mathlib.Analysis.SpecialFunctions.Pow.Deriv
import Mathlib.Analysis.SpecialFunctions.Log.Deriv
/-!
C60: tabular equation of state.
-/
namespace Elliptica.EoS
open Interp Polynomial Filter Topology Set

variable {e : ℝ} {g : Fornberg.Tab ℝ}

/-! ### planning -/

theorem slopes_spec (x f : ℕ → ℝ) (N acc k : ℕ) (l : List ℝ) (h : slopes g x f N acc k = .ok l) :
    l.length = k ∧ ∀ i < k, Fornberg.fornberg g f x (x i) N 1 acc = .ok (l.getD i 0) := by
  induction k generalizing l with
  | zero =>
    simp only [slopes] at h
    rw [← Res.ok.inj h]
    simp
  | succ k ih =>
    simp only [slopes] at h
    obtain ⟨l', h1, h⟩ := bind_ok h
    obtain ⟨v, h2, h⟩ := bind_ok h
    rw [← Res.ok.inj h]
    obtain ⟨a, b⟩ := ih l' h1
    refine ⟨by simp [a], fun i hi => ?_⟩
    rcases Nat.lt_or_eq_of_le (Nat.lt_succ_iff.1 hi) with hlt | rfl
    · rw [b i hlt]
      simp [List.getD, List.getElem?_append_left (show i < l'.length by omega)]
    · rw [h2]
      simp [List.getD, ← a]

theorem planH_spec (he : 0 < e) (n np acc : ℕ) (hn : 0 < n) (x f : ℕ → ℝ) (hx : Inc n x) (hgap : x 0 + e ≤ x n) (I : HInt)
    (h : planH e g (n + 1) np acc x f = .ok I) :
    I.N = n + 1 ∧ I.np = np ∧ I.x = x ∧ I.f = f ∧ 0 < np ∧ np ≤ n + 1 ∧ 0 < acc ∧
      ∀ i < n + 1, Fornberg.fornberg g f x (x i) (n + 1) 1 acc = .ok (I.fp i) := by
  unfold planH at h
  split_ifs at h with h1 h2 h3
  rw [orderTest_inc e n hn x hx he hgap] at h
  obtain ⟨rv, hr, h⟩ := bind_ok h
  obtain rfl := Res.ok.inj hr
  obtain ⟨l, hl, h⟩ := bind_ok h
  rw [← Res.ok.inj h]
  exact ⟨rfl, rfl, rfl, rfl, by omega, by omega, by omega, (slopes_spec x f _ _ _ l hl).2⟩

theorem increasing_of_inc (n : ℕ) (x : ℕ → ℝ) (hx : Inc n x) : Fornberg.Increasing (n + 1) x :=
  fun _ _ hij hj => inc_inj hx hij (by omega)

theorem planH_ok (he : 0 < e) (n np acc : ℕ) (hn : 0 < n) (x f : ℕ → ℝ) (hx : Inc n x) (hgap : x 0 + e ≤ x n)
    (h1 : 0 < np) (h2 : np ≤ n + 1) (h3 : 0 < acc) (h4 : acc < 100) (h5 : acc < n) : ∃ I, planH e g (n + 1) np acc x f = .ok I := by
  have hs : ∀ k, ∃ l, slopes g x f (n + 1) acc k = .ok l := by
    intro k
    induction k with
    | zero => exact ⟨[], rfl⟩
    | succ k ih =>
      obtain ⟨l, hl⟩ := ih
      obtain ⟨off, w, -, -, hw⟩ := Fornberg.C56_window (x := x) (x0 := x k) (Nx := n + 1) (order := 1) (acc := acc)
        (increasing_of_inc n x hx) h3 (by omega) (by omega)
      exact ⟨_, by simp only [slopes, hl, hw g f, Res.bind]; rfl⟩
  obtain ⟨l, hl⟩ := hs (n + 1)
  unfold planH
  rw [if_neg (by omega), if_neg (by omega), if_neg (by omega), orderTest_inc e n hn x hx he hgap]
  have o : ∀ v : ℕ → ℝ, ordered false (n + 1) v = v := fun _ => rfl
  simp only [Res.bind, o, hl]
  exact ⟨_, rfl⟩

/-- a table the program can use: at least four rows, positive density, pressure and energy, enthalpy increasing by more than
twice the round-off in the logarithm -/
structure GoodTab (e : ℝ) (T : Tab) : Prop where
  rows : 4 ≤ T.N
  r : ∀ i < T.N, 0 < T.r i
  p : ∀ i < T.N, 0 < T.p i
  w : ∀ i < T.N, 0 < T.w i
  h : ∀ i < T.N, T.h i = (T.p i + T.w i) / T.r i
  inc : ∀ i, i + 1 < T.N → lg (T.h i) + 2 * e < lg (T.h (i + 1))

theorem GoodTab.hpos {T : Tab} (G : GoodTab e T) (i : ℕ) (hi : i < T.N) : 0 < T.h i := by
  rw [G.h i hi]
  exact div_pos (add_pos (G.p i hi) (G.w i hi)) (G.r i hi)

theorem GoodTab.hInc {T : Tab} (G : GoodTab e T) (he : 0 < e) : Inc (T.N - 1) (fun i => lg (T.h i)) := by
  intro i hi
  linarith [G.inc i (by omega)]

theorem GoodTab.gap {T : Tab} (G : GoodTab e T) (he : 0 < e) : lg (T.h 0) + e ≤ lg (T.h (T.N - 1)) := by
  have h1 := G.inc 0 (by have := G.rows; omega)
  have h2 : lg (T.h 1) ≤ lg (T.h (T.N - 1)) := by
    rcases Nat.eq_or_lt_of_le (show 1 ≤ T.N - 1 by have := G.rows; omega) with h | h
    · rw [← h]
    · exact (inc_inj (G.hInc he) h le_rfl).le
  have h3 : lg (T.h (0 + 1)) = lg (T.h 1) := rfl
  linarith

/-- C60: such tables are accepted -/
theorem C60_accepts (he : 0 < e) (T : Tab) (G : GoodTab e T) (np acc : ℕ) (lo hi : ℝ) (h1 : 0 < np) (h2 : np ≤ T.N) (h3 : 0 < acc)
    (h4 : acc < 100) (h5 : acc + 1 < T.N) : ∃ E, planTab e g np acc lo hi T = .ok E := by
  have hR := G.rows
  have hk : ∀ f, ∃ I, planH e g T.N np acc (fun i => lg (T.h i)) f = .ok I := by
    intro f
    have := planH_ok (g := g) he (T.N - 1) np acc (by omega) (fun i => lg (T.h i)) f (G.hInc he) (G.gap he) h1 (by omega) h3 h4
      (by omega)
    rwa [Nat.sub_add_cancel (by omega)] at this
  obtain ⟨P, hP⟩ := hk (fun i => lg (T.p i + T.p 3))
  obtain ⟨W, hW⟩ := hk (fun i => lg (T.w i + T.w 3))
  obtain ⟨R, hR'⟩ := hk (fun i => lg (T.r i + T.r 3))
  unfold planTab
  rw [if_neg (by omega), if_neg]
  · simp only [hP, hW, hR', Res.bind]
    exact ⟨_, rfl⟩
  · simp only [List.any_eq_true, List.mem_range, Bool.or_eq_true, decide_eq_true_eq]
    rintro ⟨i, hi, h⟩
    have a1 := G.p i hi
    have a2 := G.p 3 (by omega)
    have b1 := G.w i hi
    have b2 := G.w 3 (by omega)
    have c1 := G.r i hi
    have c2 := G.r 3 (by omega)
    have d := G.hpos i hi
    rcases h with ((h | h) | h) | h <;> linarith

theorem planTab_spec (he : 0 < e) (T : Tab) (G : GoodTab e T) (np acc : ℕ) (lo hi : ℝ) (E : TabEos)
    (h : planTab e g np acc lo hi T = .ok E) :
    E.lo = lo ∧ E.hi = hi ∧ E.ps = T.p 3 ∧ E.ws = T.w 3 ∧
      planH e g T.N np acc (fun i => lg (T.h i)) (fun i => lg (T.p i + T.p 3)) = .ok E.P ∧
      planH e g T.N np acc (fun i => lg (T.h i)) (fun i => lg (T.w i + T.w 3)) = .ok E.W := by
  unfold planTab at h
  split_ifs at h
  simp only at h
  obtain ⟨P, hP, h⟩ := bind_ok h
  obtain ⟨W, hW, h⟩ := bind_ok h
  obtain ⟨R, hR, h⟩ := bind_ok h
  rw [← Res.ok.inj h]
  exact ⟨rfl, rfl, rfl, rfl, hP, hW⟩

/-! ### at a row -/

theorem eval_node (he : 0 < e) (n np : ℕ) (hn : 0 < n) (x f fp : ℕ → ℝ) (hx : Inc n x) (hgap : x 0 + e ≤ x n) (h1 : 0 < np)
    (i : ℕ) (h2 : i + np ≤ n + 1) (h3 : i < n) : hermite e (n + 1) np x f fp (x i) = .ok (f i) := by
  have hmono : ∀ i j, i ≤ j → j ≤ n → x i ≤ x j := by
    intro i j hij hj
    rcases Nat.eq_or_lt_of_le hij with rfl | h'
    · exact le_rfl
    · exact (inc_inj hx h' hj).le
  rcases C45_accepts_partial e he n np hn x f fp hx hgap (x i) h1 (by omega) with ⟨⟨v, hv⟩, -⟩ | ⟨-, hno⟩
  · obtain ⟨off, a, b, c, d⟩ := C45_value e he n np hn x f fp hx hgap (x i) v hv
    have hoff : off = i := by
      rcases lt_trichotomy off i with h | h | h
      · exact absurd b (not_lt.2 (hmono (off + 1) i (by omega) (by omega)))
      · exact h
      · exact absurd a (not_le.2 (inc_inj hx h (by omega)))
    subst hoff
    obtain ⟨p, hp, -⟩ := C45_exists_unique n x f fp hx off np h1 (by omega)
    rw [hv, d p hp]
    have := hp.value 0 h1
    simp only [Nat.add_zero] at this
    rw [this]
  · exfalso
    refine hno ⟨hmono 0 i (by omega) (by omega), inc_inj hx h3 le_rfl, ?_⟩
    rcases Nat.eq_or_lt_of_le (show 1 ≤ np from h1) with h | h
    · exact Or.inl h.symm
    · exact Or.inr (inc_inj hx (by omega) (by omega))

theorem pow_lg (y : ℝ) (hy : 0 < y) : (10 : ℝ) ^ lg y = y := Real.rpow_logb (by norm_num) (by norm_num) hy

theorem clamp_in (E : TabEos) (h : ℝ) (h1 : E.lo ≤ h) (h2 : h ≤ E.hi) : clampH E h = h := by
  unfold clampH
  simp only
  by_cases a : h ≤ E.lo
  · have : h = E.lo := le_antisymm a h1
    rw [if_pos a]
    split_ifs with b
    · exact le_antisymm (by linarith) (by linarith)
    · exact this.symm
  · rw [if_neg a]
    split_ifs with b
    · exact le_antisymm (by linarith) h2
    · rfl

/-- one quantity y tabulated with shift s -/
theorem logy_row (he : 0 < e) (T : Tab) (G : GoodTab e T) (np acc : ℕ) (E : TabEos) (I : HInt) (y : ℕ → ℝ) (s : ℝ)
    (hI : planH e g T.N np acc (fun i => lg (T.h i)) (fun i => lg (y i + s)) = .ok I) (i : ℕ) (h2 : i + np ≤ T.N)
    (h3 : i + 1 < T.N) (hlo : E.lo ≤ T.h i) (hhi : T.h i ≤ E.hi) (hy : 0 ≤ y i) (hs : 0 < y i + s) :
    logy e E I s (T.h i) = .ok (y i) := by
  have hN : T.N - 1 + 1 = T.N := by omega
  rw [← hN] at hI
  obtain ⟨a1, a2, a3, a4, a5, a6, -, -⟩ := planH_spec he (T.N - 1) np acc (by omega) _ _ (G.hInc he) (G.gap he) I hI
  have hc := clamp_in E _ hlo hhi
  have hh := G.hpos i (by omega)
  have hev : I.eval e (lg (T.h i)) = .ok (lg (y i + s)) := by
    unfold HInt.eval
    rw [a1, a2, a3, a4]
    exact eval_node he (T.N - 1) np (by omega) (fun i => lg (T.h i)) (fun i => lg (y i + s)) I.fp (G.hInc he) (G.gap he) a5 i
      (by omega) (by omega)
  unfold logy
  rw [hc, if_neg (by linarith), hev]
  simp only [Res.bind, pow_lg _ hs, add_sub_cancel_right]
  rw [if_pos hy, if_neg (by linarith)]

/-- C60: at the enthalpy of a row (between floor and ceiling, with enough rows to the right) the functions return the row -/
theorem C60_rows (he : 0 < e) (T : Tab) (G : GoodTab e T) (np acc : ℕ) (lo hi : ℝ) (E : TabEos)
    (hE : planTab e g np acc lo hi T = .ok E) (i : ℕ) (h2 : i + np ≤ T.N) (h3 : i + 1 < T.N) (hlo : lo ≤ T.h i) (hhi : T.h i ≤ hi)
    (early : Bool) :
    pT e E (T.h i) = .ok (T.p i) ∧ wT e E (T.h i) = .ok (T.w i) ∧ rT e E early (T.h i) = .ok (T.r i) ∧
      (e ≤ |T.r i - T.w i| → e0T e E early (T.h i) = .ok (T.w i / T.r i - 1)) ∧
      (|T.r i - T.w i| < e → e0T e E early (T.h i) = .ok 0) := by
  obtain ⟨rfl, rfl, b1, b2, hP, hW⟩ := planTab_spec he T G np acc lo hi E hE
  have hiN : i < T.N := by omega
  have h3N : 3 < T.N := G.rows
  have p1 : pT e E (T.h i) = .ok (T.p i) := by
    unfold pT
    rw [b1]
    exact logy_row he T G np acc E E.P T.p _ hP i h2 h3 hlo hhi (G.p i hiN).le (add_pos (G.p i hiN) (G.p 3 h3N))
  have p2 : wT e E (T.h i) = .ok (T.w i) := by
    unfold wT
    rw [b2]
    exact logy_row he T G np acc E E.W T.w _ hW i h2 h3 hlo hhi (G.w i hiN).le (add_pos (G.w i hiN) (G.w 3 h3N))
  have hc := clamp_in E _ hlo hhi
  have hh := G.hpos i hiN
  have hr := G.r i hiN
  have p3 : rT e E early (T.h i) = .ok (T.r i) := by
    unfold rT
    rw [p1, p2]
    simp only [Res.bind, hc, ite_self]
    rw [if_neg hh.ne']
    congr 1
    rw [G.h i hiN]
    have := (add_pos (G.p i hiN) (G.w i hiN)).ne'
    field_simp
  refine ⟨p1, p2, p3, ?_, ?_⟩
  · intro hd
    unfold e0T
    rw [p3, hc, p2]
    simp only [Res.bind]
    rw [if_neg, if_neg hr.ne']
    unfold Tol.eql
    simp only [Bool.and_eq_true, decide_eq_true_eq]
    rintro ⟨a, b⟩
    have : |T.r i - T.w i| < e := abs_lt.2 ⟨by linarith, by linarith⟩
    linarith
  · intro hd
    unfold e0T
    rw [p3, hc, p2]
    simp only [Res.bind]
    obtain ⟨a, b⟩ := abs_lt.1 hd
    rw [if_pos]
    unfold Tol.eql
    simp only [Bool.and_eq_true, decide_eq_true_eq]
    exact ⟨by linarith, by linarith⟩

/-! ### outside the range -/

theorem clamp_lo (E : TabEos) (h : ℝ) (h1 : h ≤ E.lo) (h2 : E.lo ≤ E.hi) : clampH E h = E.lo := by
  unfold clampH
  simp only
  rw [if_pos h1]
  split_ifs with b
  · exact le_antisymm b h2
  · rfl

theorem clamp_hi (E : TabEos) (h : ℝ) (h1 : E.hi ≤ h) (h2 : E.lo ≤ E.hi) : clampH E h = E.hi := by
  unfold clampH
  simp only
  by_cases a : h ≤ E.lo
  · rw [if_pos a, if_pos (by linarith)]
  · rw [if_neg a, if_pos h1]

/-- C60: below the floor and above the ceiling pressure, energy and derivatives are those at the floor or ceiling, and so is
the density if the program divides by the changed enthalpy -/
theorem C60_clamp (big : ℝ) (E : TabEos) (h c : ℝ) (hl : E.lo ≤ E.hi) (hc : h ≤ E.lo ∧ c = E.lo ∨ E.hi ≤ h ∧ c = E.hi) :
    pT e E h = pT e E c ∧ wT e E h = wT e E c ∧ dpT e big E h = dpT e big E c ∧ dwT e big E h = dwT e big E c ∧
      drT e big E h = drT e big E c ∧ rT e E false h = rT e E false c ∧ e0T e E false h = e0T e E false c := by
  have hcl : clampH E h = clampH E c := by
    rcases hc with ⟨a, rfl⟩ | ⟨a, rfl⟩
    · rw [clamp_lo E h a hl, clamp_lo E _ le_rfl hl]
    · rw [clamp_hi E h a hl, clamp_hi E _ le_rfl hl]
  have a1 : pT e E h = pT e E c := by simp only [pT, logy, hcl]
  have a2 : wT e E h = wT e E c := by simp only [wT, logy, hcl]
  have a3 : dpT e big E h = dpT e big E c := by simp only [dpT, a1, hcl]
  have a4 : dwT e big E h = dwT e big E c := by simp only [dwT, a2, hcl]
  have a6 : rT e E false h = rT e E false c := by simp only [rT, a1, a2, hcl]; rfl
  refine ⟨a1, a2, a3, a4, by simp only [drT, a1, a2, a3, a4, hcl], a6, by simp only [e0T, a6, hcl]⟩

/-- C60, violation: below the floor the density depends on the order in which the compiler evaluates a division -/
theorem C60_order_violation (E : TabEos) (h p w : ℝ) (hl : E.lo ≤ E.hi) (h0 : 0 < h) (h1 : h < E.lo)
    (hp : pT e E E.lo = .ok p) (hw : wT e E E.lo = .ok w) (hpw : p + w ≠ 0) :
    rT e E false h = .ok ((p + w) / E.lo) ∧ rT e E true h = .ok ((p + w) / h) ∧ (p + w) / E.lo ≠ (p + w) / h := by
  have hc := clamp_lo E h h1.le hl
  have hp' : pT e E h = .ok p := by rw [← hp]; simp only [pT, logy, hc, clamp_lo E _ le_rfl hl]
  have hw' : wT e E h = .ok w := by rw [← hw]; simp only [wT, logy, hc, clamp_lo E _ le_rfl hl]
  refine ⟨?_, ?_, ?_⟩
  · have : E.lo ≠ 0 := by linarith
    simp [rT, hp', hw', Res.bind, hc, this]
  · simp [rT, hp', hw', Res.bind, h0.ne']
  · intro hh
    have h2 : E.lo ≠ 0 := by linarith
    rw [div_eq_div_iff h2 h0.ne'] at hh
    have := mul_left_cancel₀ hpw hh
    linarith

/-- C60, violation: a table of less than four rows is not refused, the program reads past it -/
theorem C60_small_violation (T : Tab) (np acc : ℕ) (lo hi : ℝ) (h : T.N ≤ 3) : planTab e g np acc lo hi T = .ub := by
  unfold planTab
  rw [if_pos (by omega)]

/-! ### derivatives at a row -/

theorem eval_piece (he : 0 < e) (n np : ℕ) (hn : 0 < n) (x f fp : ℕ → ℝ) (hx : Inc n x) (hgap : x 0 + e ≤ x n) (h1 : 0 < np)
    (i : ℕ) (h2 : i + np ≤ n + 1) (h3 : i < n) (t : ℝ) (ha : x i ≤ t) (hb : t < x (i + 1)) (p : ℝ[X])
    (hp : HermitePoly x f fp i np p) : hermite e (n + 1) np x f fp t = .ok (p.eval t) := by
  have hmono : ∀ i j, i ≤ j → j ≤ n → x i ≤ x j := by
    intro i j hij hj
    rcases Nat.eq_or_lt_of_le hij with rfl | h'
    · exact le_rfl
    · exact (inc_inj hx h' hj).le
  rcases C45_accepts_partial e he n np hn x f fp hx hgap t h1 (by omega) with ⟨⟨v, hv⟩, -, hn', -⟩ | ⟨-, hno⟩
  · obtain ⟨off, a, b, c, d⟩ := C45_value e he n np hn x f fp hx hgap t v hv
    have hoff : off = i := by
      rcases lt_trichotomy off i with h | h | h
      · have := hmono (off + 1) i (by omega) (by omega)
        linarith
      · exact h
      · have := hmono (i + 1) off (by omega) (by omega)
        linarith
    subst hoff
    rw [hv, d p hp]
  · exfalso
    refine hno ⟨(hmono 0 i (by omega) (by omega)).trans ha, hb.trans_le (hmono _ n (by omega) le_rfl), ?_⟩
    rcases Nat.eq_or_lt_of_le (show 1 ≤ np from h1) with h | h
    · exact Or.inl h.symm
    · exact Or.inr (hb.trans_le (hmono _ _ (by omega) (by omega)))

/-- around an inner point Hermite interpolation with two points or more is differentiable, with the given slope -/
theorem eval_deriv (he : 0 < e) (n np : ℕ) (hn : 0 < n) (x f fp : ℕ → ℝ) (hx : Inc n x) (hgap : x 0 + e ≤ x n) (h1 : 2 ≤ np)
    (i : ℕ) (h0 : 0 < i) (h2 : i + np ≤ n + 1) :
    ∃ F : ℝ → ℝ, (∀ᶠ t in 𝓝 (x i), hermite e (n + 1) np x f fp t = .ok (F t)) ∧ HasDerivAt F (fp i) (x i) ∧ F (x i) = f i := by
  obtain ⟨p, hp, -⟩ := C45_exists_unique n x f fp hx (i - 1) np (by omega) (by omega)
  obtain ⟨q, hq, -⟩ := C45_exists_unique n x f fp hx i np (by omega) (by omega)
  have e1 : i - 1 + 1 = i := by omega
  have pv : p.eval (x i) = f i := by have := hp.value 1 (by omega); rwa [e1] at this
  have ps : (derivative p).eval (x i) = fp i := by have := hp.slope 1 (by omega); rwa [e1] at this
  have qv : q.eval (x i) = f i := hq.value 0 (by omega)
  have qs : (derivative q).eval (x i) = fp i := hq.slope 0 (by omega)
  have l1 : x (i - 1) < x i := inc_inj hx (by omega) (by omega)
  have l2 : x i < x (i + 1) := inc_inj hx (by omega) (by omega)
  refine ⟨fun t => if t < x i then p.eval t else q.eval t, ?_, ?_, by simp [qv]⟩
  · filter_upwards [Ioo_mem_nhds l1 l2] with t ht
    by_cases hlt : t < x i
    · rw [if_pos hlt]
      exact eval_piece he n np hn x f fp hx hgap (by omega) (i - 1) (by omega) (by omega) t ht.1.le (by rwa [e1]) p hp
    · rw [if_neg hlt]
      exact eval_piece he n np hn x f fp hx hgap (by omega) i (by omega) (by omega) t (not_lt.1 hlt) ht.2 q hq
  · have d1 : HasDerivWithinAt (fun t => if t < x i then p.eval t else q.eval t) (fp i) (Iic (x i)) (x i) := by
      have := (p.hasDerivAt (x i)).hasDerivWithinAt (s := Iic (x i))
      rw [ps] at this
      refine this.congr (fun t ht => ?_) (by simp [pv, qv])
      rcases lt_or_eq_of_le (show t ≤ x i from ht) with h | rfl
      · simp [h]
      · simp [pv, qv]
    have d2 : HasDerivWithinAt (fun t => if t < x i then p.eval t else q.eval t) (fp i) (Ici (x i)) (x i) := by
      have := (q.hasDerivAt (x i)).hasDerivWithinAt (s := Ici (x i))
      rw [qs] at this
      refine this.congr (fun t ht => ?_) (by simp [qv])
      have : ¬ t < x i := not_lt.2 ht
      simp [this]
    have := d1.union d2
    rw [Iic_union_Ici] at this
    exact this.hasDerivAt univ_mem

theorem logy_deriv (he : 0 < e) (T : Tab) (G : GoodTab e T) (np acc : ℕ) (E : TabEos) (I : HInt) (y : ℕ → ℝ) (s : ℝ)
    (hI : planH e g T.N np acc (fun i => lg (T.h i)) (fun i => lg (y i + s)) = .ok I) (i : ℕ) (h0 : 0 < i) (hnp : 2 ≤ np)
    (h2 : i + np ≤ T.N) (hlo : E.lo < T.h i) (hhi : T.h i < E.hi) (hy : 0 < y i) (hs : 0 < y i + s) :
    ∃ F : ℝ → ℝ, (∀ᶠ t in 𝓝 (T.h i), logy e E I s t = .ok (F t)) ∧
      HasDerivAt F ((y i + s) / T.h i * I.fp i) (T.h i) := by
  have hN : T.N - 1 + 1 = T.N := by omega
  rw [← hN] at hI
  obtain ⟨a1, a2, a3, a4, a5, a6, -, -⟩ := planH_spec he (T.N - 1) np acc (by omega) _ _ (G.hInc he) (G.gap he) I hI
  obtain ⟨F, hF, hd, hv⟩ := eval_deriv he (T.N - 1) np (by omega) (fun i => lg (T.h i)) (fun i => lg (y i + s)) I.fp (G.hInc he)
    (G.gap he) hnp i h0 (by omega)
  have hh := G.hpos i (by omega)
  have hlog : HasDerivAt lg (1 / (T.h i * Real.log 10)) (T.h i) := by
    have := (Real.hasDerivAt_log hh.ne').div_const (Real.log 10)
    have e1 : lg = fun x => Real.log x / Real.log 10 := rfl
    rw [e1]
    refine this.congr_deriv ?_
    have : Real.log 10 ≠ 0 := Real.log_ne_zero_of_pos_of_ne_one (by norm_num) (by norm_num)
    field_simp
  have l10 : Real.log 10 ≠ 0 := Real.log_ne_zero_of_pos_of_ne_one (by norm_num) (by norm_num)
  have hcomp : HasDerivAt (fun t => F (lg t)) (I.fp i * (1 / (T.h i * Real.log 10))) (T.h i) := HasDerivAt.comp (T.h i) hd hlog
  have hpw := (hcomp.const_rpow (show (0 : ℝ) < 10 by norm_num)).sub_const s
  have hFi : (10 : ℝ) ^ F (lg (T.h i)) = y i + s := by
    have : F (lg (T.h i)) = lg (y i + s) := hv
    rw [this, pow_lg _ hs]
  refine ⟨fun t => (10 : ℝ) ^ F (lg t) - s, ?_, ?_⟩
  · have c1 : ∀ᶠ t in 𝓝 (T.h i), hermite e (T.N - 1 + 1) np (fun i => lg (T.h i)) (fun i => lg (y i + s)) I.fp (lg t) =
        .ok (F (lg t)) := hlog.continuousAt.eventually hF
    have c2 : ∀ᶠ t in 𝓝 (T.h i), 0 < (10 : ℝ) ^ F (lg t) - s := by
      refine hpw.continuousAt.eventually_const_lt ?_
      show 0 < (10 : ℝ) ^ F (lg (T.h i)) - s
      rw [hFi]
      linarith
    filter_upwards [c1, c2, Ioo_mem_nhds hlo hhi, Ioi_mem_nhds hh] with t t1 t2 t3 t4
    unfold logy
    rw [clamp_in E t t3.1.le t3.2.le, if_neg (not_le.2 t4)]
    unfold HInt.eval
    rw [a1, a2, a3, a4, t1]
    simp only [Res.bind]
    rw [if_pos t2.le, if_neg (not_lt.2 t2.le)]
  · refine hpw.congr_deriv ?_
    rw [hFi]
    field_simp

/-- C60, violation: at an inner row the derivative returned for the energy density is w/h·m, but the energy density the program
itself returns has derivative (w + shift)/h·m there, where m is the slope of the logarithms and the shift is the energy
density of row 3 -/
theorem C60_derivative_violation (he : 0 < e) (T : Tab) (G : GoodTab e T) (np acc : ℕ) (lo hi big : ℝ) (E : TabEos)
    (hE : planTab e g np acc lo hi T = .ok E) (i : ℕ) (h0 : 0 < i) (hnp : 2 ≤ np) (h2 : i + np ≤ T.N) (hlo : lo < T.h i)
    (hhi : T.h i < hi) (m : ℝ)
    (hm : Fornberg.fornberg g (fun j => lg (T.w j + T.w 3)) (fun j => lg (T.h j)) (lg (T.h i)) T.N 1 acc = .ok m) :
    dwT e big E (T.h i) = .ok (T.w i / T.h i * m) ∧
      (∃ F : ℝ → ℝ, (∀ᶠ t in 𝓝 (T.h i), wT e E t = .ok (F t)) ∧ HasDerivAt F ((T.w i + T.w 3) / T.h i * m) (T.h i)) ∧
      (m ≠ 0 → T.w i / T.h i * m ≠ (T.w i + T.w 3) / T.h i * m) := by
  obtain ⟨rfl, rfl, b1, b2, hP, hW⟩ := planTab_spec he T G np acc lo hi E hE
  have hN : T.N - 1 + 1 = T.N := by omega
  have hW' := hW
  rw [← hN] at hW'
  obtain ⟨a1, a2, a3, a4, a5, a6, -, a8⟩ := planH_spec he (T.N - 1) np acc (by omega) _ _ (G.hInc he) (G.gap he) E.W hW'
  have hfp : E.W.fp i = m := by
    have := a8 i (by omega)
    rw [hN] at this
    rw [this] at hm
    exact Res.ok.inj hm
  have h3N : 3 < T.N := G.rows
  have hwi := G.w i (by omega)
  have hw3 := G.w 3 h3N
  have hc := clamp_in E _ hlo.le hhi.le
  refine ⟨?_, ?_, ?_⟩
  · have p2 : wT e E (T.h i) = .ok (T.w i) := by
      unfold wT
      rw [b2]
      exact logy_row he T G np acc E E.W T.w _ hW i h2 (by omega) hlo.le hhi.le hwi.le (add_pos hwi hw3)
    unfold dwT
    rw [p2, hc]
    have : E.W.slope e big (lg (T.h i)) = .ok m := by
      unfold HInt.slope
      rw [a1, a3]
      have := C30_node e he (T.N - 1) (by omega) (fun i => lg (T.h i)) E.W.fp (fun j hj => G.inc j (by omega)) i (by omega)
      rw [this, hfp]
      rfl
    simp only [Res.bind, this]
  · obtain ⟨F, hF, hd⟩ := logy_deriv he T G np acc E E.W T.w (T.w 3) hW i h0 hnp h2 hlo hhi hwi (add_pos hwi hw3)
    refine ⟨F, ?_, ?_⟩
    · unfold wT
      rw [b2]
      exact hF
    · rw [← hfp]
      exact hd
  · intro hm0 hh
    have hp := G.hpos i (by omega)
    rw [mul_left_inj' hm0, div_left_inj' hp.ne'] at hh
    linarith

/-- C60: the derivative of the density is consistent with density = (p + w)/h: it is the derivative of that quotient whenever the
derivatives of pressure and energy density are -/
theorem C60_density_derivative (big : ℝ) (E : TabEos) (h dp dw : ℝ) (P W : ℝ → ℝ) (h0 : 0 < h) (hlo : E.lo ≤ h) (hhi : h ≤ E.hi)
    (hp : pT e E h = .ok (P h)) (hw : wT e E h = .ok (W h)) (hdp : dpT e big E h = .ok dp) (hdw : dwT e big E h = .ok dw)
    (hP : HasDerivAt P dp h) (hW : HasDerivAt W dw h) :
    ∃ D, drT e big E h = .ok D ∧ HasDerivAt (fun t => (P t + W t) / t) D h := by
  refine ⟨(dw + dp - (W h + P h) / h) / h, ?_, ?_⟩
  · simp only [drT, hp, hw, hdp, hdw, Res.bind, clamp_in E h hlo hhi]
  · refine ((hP.add hW).div (hasDerivAt_id h) h0.ne').congr_deriv ?_
    simp only [id_eq, Pi.add_apply]
    field_simp
    ring

/-! ### a table: w = h² - 169/200, five rows -/

noncomputable def exTab : Tab where
  N := 5
  h i := 1 + i / 10
  w i := (1 + i / 10) ^ 2 - 169 / 200
  p i := (1 + i / 10) ^ 2 - 169 / 200
  r i := 2 * ((1 + i / 10) ^ 2 - 169 / 200) / (1 + i / 10)

theorem ex_w (i : ℕ) : 0 < (1 + (i : ℝ) / 10) ^ 2 - 169 / 200 := by
  have : (0 : ℝ) ≤ i := Nat.cast_nonneg i
  nlinarith

theorem ex_good : GoodTab 1E-12 exTab where
  rows := by simp [exTab]
  r i _ := by
    have := ex_w i
    have : (0 : ℝ) < 1 + i / 10 := by positivity
    simp only [exTab]
    positivity
  p i _ := ex_w i
  w i _ := ex_w i
  h i _ := by
    have h1 := (ex_w i).ne'
    have h2 : (1 : ℝ) + i / 10 ≠ 0 := by positivity
    simp only [exTab]
    generalize (1 + (i : ℝ) / 10) ^ 2 - 169 / 200 = y at h1 ⊢
    generalize 1 + (i : ℝ) / 10 = x at h2 ⊢
    field_simp
    norm_num
  inc i hi := by
    have hi : i ≤ 3 := by simp only [exTab] at hi; omega
    have hi' : (i : ℝ) ≤ 3 := by exact_mod_cast hi
    have a : (0 : ℝ) ≤ i := Nat.cast_nonneg i
    simp only [exTab, lg, Real.logb]
    have l1 : 0 < Real.log 10 := Real.log_pos (by norm_num)
    have l2 : Real.log 10 ≤ 9 := by have := Real.log_le_sub_one_of_pos (show (0 : ℝ) < 10 by norm_num); linarith
    have p1 : (0 : ℝ) < 1 + i / 10 := by positivity
    have p2 : (0 : ℝ) < 1 + ((i + 1 : ℕ) : ℝ) / 10 := by positivity
    have l3 := Real.one_sub_inv_le_log_of_pos (div_pos p2 p1)
    rw [Real.log_div p2.ne' p1.ne'] at l3
    have l4 : (1 : ℝ) / 14 ≤ 1 - ((1 + ((i + 1 : ℕ) : ℝ) / 10) / (1 + i / 10))⁻¹ := by
      rw [inv_div, le_sub_comm, div_le_iff₀ p2]
      push_cast
      linarith
    rw [← sub_pos, show Real.log (1 + ((i + 1 : ℕ) : ℝ) / 10) / Real.log 10 - (Real.log (1 + i / 10) / Real.log 10 + 2 * 1E-12) =
      (Real.log (1 + ((i + 1 : ℕ) : ℝ) / 10) - Real.log (1 + i / 10) - 2E-12 * Real.log 10) / Real.log 10 by
        field_simp; ring]
    apply div_pos _ l1
    nlinarith

/-- the hypotheses of C60_accepts, C60_rows and C60_derivative_violation are met: the program says 73/110 for the derivative of
the energy density at h = 11/10, where the energy density it returns has derivative 11/5 -/
example (big : ℝ) : ∃ E, planTab 1E-12 g 2 2 (101 / 100) (135 / 100) exTab = .ok E ∧
    wT 1E-12 E (11 / 10) = .ok (73 / 200) ∧ dwT 1E-12 big E (11 / 10) = .ok (73 / 110) ∧
      (∃ F : ℝ → ℝ, (∀ᶠ t in 𝓝 (11 / 10), wT 1E-12 E t = .ok (F t)) ∧ HasDerivAt F (11 / 5) (11 / 10)) ∧
      drT 1E-12 big E (11 / 10) = .ok (73 / 121) := by
  have he : (0 : ℝ) < 1E-12 := by norm_num
  obtain ⟨E, hE⟩ := C60_accepts (g := g) he exTab ex_good 2 2 (101 / 100) (135 / 100) (by norm_num) (by simp [exTab]) (by norm_num)
    (by norm_num) (by simp [exTab])
  have h1 : exTab.h 1 = 11 / 10 := by simp [exTab]; norm_num
  have w1 : exTab.w 1 = 73 / 200 := by simp [exTab]; norm_num
  have w3 : exTab.w 3 = 169 / 200 := by simp [exTab]; norm_num
  have hm : Fornberg.fornberg g (fun j => lg (exTab.w j + exTab.w 3)) (fun j => lg (exTab.h j)) (lg (exTab.h 1)) exTab.N 1 2 = .ok 2 := by
    have := Fornberg.C56_exact (f := fun j => lg (exTab.w j + exTab.w 3)) (x := fun j => lg (exTab.h j)) (x0 := lg (exTab.h 1))
      (Nx := exTab.N) (order := 1) (acc := 2) g (increasing_of_inc 4 _ (ex_good.hInc he)) (by norm_num) (by norm_num)
      (by simp [exTab]) (C 2 * X) (lt_of_le_of_lt (degree_C_mul_X_le _) (by norm_num)) (by
        intro j _
        have p1 : (0 : ℝ) < 1 + j / 10 := by positivity
        rw [w3]
        simp only [exTab, lg, Real.logb, eval_mul, eval_C, eval_X, sub_add_cancel, Real.log_pow]
        push_cast
        ring)
    rw [this]
    simp
  obtain ⟨a, b, -⟩ := C60_rows he exTab ex_good 2 2 _ _ E hE 1 (by simp [exTab]) (by simp [exTab]) (by rw [h1]; norm_num)
    (by rw [h1]; norm_num) true
  obtain ⟨c, ⟨F, d1, d2⟩, -⟩ := C60_derivative_violation he exTab ex_good 2 2 _ _ big E hE 1 (by norm_num) (by norm_num)
    (by simp [exTab]) (by rw [h1]; norm_num) (by rw [h1]; norm_num) 2 hm
  rw [h1, w1] at b
  rw [h1, w1] at c
  rw [h1, w1, w3] at d2
  rw [h1] at d1
  have hdw : dwT 1E-12 big E (11 / 10) = .ok (73 / 110) := by rw [c]; norm_num
  refine ⟨E, hE, b, hdw, ⟨F, d1, by convert d2 using 1; norm_num⟩, ?_⟩
  obtain ⟨q1, q2, q3, q4, q5, q6⟩ := planTab_spec he exTab ex_good 2 2 _ _ E hE
  have q7 : E.P = E.W := Res.ok.inj (q5.symm.trans q6)
  have q8 : E.ps = E.ws := q3.trans q4.symm
  have hpw : ∀ h, pT 1E-12 E h = wT 1E-12 E h := fun h => by simp only [pT, wT, q7, q8]
  have hdp : dpT 1E-12 big E (11 / 10) = .ok (73 / 110) := by
    rw [← hdw]
    simp only [dpT, dwT, hpw, q7]
  have lin : HasDerivAt (fun t : ℝ => 73 / 200 + 73 / 110 * (t - 11 / 10)) (73 / 110) (11 / 10) := by
    simpa using (((hasDerivAt_id (11 / 10 : ℝ)).sub_const (11 / 10)).const_mul (73 / 110 : ℝ)).const_add (73 / 200)
  obtain ⟨D, hD, hd⟩ := C60_density_derivative big E (11 / 10) (73 / 110) (73 / 110) _ _ (by norm_num) (by rw [q1]; norm_num)
    (by rw [q2]; norm_num) (by rw [hpw, b]; norm_num) (by rw [b]; norm_num) hdp hdw lin lin
  rw [hD]
  have hd' := ((lin.add lin).div (hasDerivAt_id (11 / 10 : ℝ)) (by norm_num))
  rw [HasDerivAt.unique hd hd']
  norm_num

/-! ### reading -/

theorem chunk_line (l r : Str) (hl : '\n' ∉ l) (left : ℕ) (acc : Str) (h : l.length < left) :
    chunk left acc (l ++ '\n' :: r) = (acc.reverse ++ l ++ ['\n']) :: chunk 999 [] r := by
  induction l generalizing left acc with
  | nil => simp [chunk]
  | cons c l ih =>
    simp only [List.mem_cons, not_or, List.length_cons] at hl h
    simp only [List.cons_append, chunk]
    rw [if_neg (by rintro (h' | h') <;> [exact hl.1 h'.symm; omega]), ih hl.2 (left - 1) (c :: acc) (by omega)]
    simp

/-- the text of a file with these lines -/
def fileOf (ls : List Str) : Str := (ls.map (· ++ ['\n'])).flatten

theorem chunk_file (ls : List Str) (h : ∀ l ∈ ls, '\n' ∉ l ∧ l.length ≤ 998) :
    chunk 999 [] (fileOf ls) = ls.map (· ++ ['\n']) := by
  induction ls with
  | nil => simp [fileOf, chunk]
  | cons l ls ih =>
    have := h l (by simp)
    have e1 : fileOf (l :: ls) = l ++ '\n' :: fileOf ls := by simp [fileOf]
    rw [e1, chunk_line l _ this.1 999 [] (by omega), ih fun l hl => h l (by simp [hl])]
    simp

/-- the rows meant by the lines of a file: comment lines and lines that are not numbers are left out -/
def rowsOf (scan : Str → Option (ℝ × ℝ × ℝ)) (ls : List Str) : List (ℝ × ℝ × ℝ) :=
  (ls.filter (fun l => l.head? ≠ some '#')).filterMap fun l => scan (l ++ ['\n'])

theorem rowsLoop_spec (scan : Str → Option (ℝ × ℝ × ℝ)) (ls : List Str) (n : ℕ) :
    (n + (rowsOf scan ls).length < 4000 → rowsLoop scan n (ls.map (· ++ ['\n'])) = .ok (rowsOf scan ls)) ∧
    (n < 4000 → 4000 ≤ n + (rowsOf scan ls).length → rowsLoop scan n (ls.map (· ++ ['\n'])) = .abort) := by
  induction ls generalizing n with
  | nil => simp [rowsOf, rowsLoop]
  | cons l ls ih =>
    by_cases hc : l.head? = some '#'
    · have e1 : rowsOf scan (l :: ls) = rowsOf scan ls := by simp [rowsOf, hc]
      have e2 : (l ++ ['\n']).head? = some '#' := by cases l <;> simp_all
      rw [e1]
      simp only [List.map_cons, rowsLoop, if_pos e2]
      exact ih n
    · have e2 : ¬ (l ++ ['\n']).head? = some '#' := by cases l <;> simp_all
      simp only [List.map_cons, rowsLoop, if_neg e2]
      cases hs : scan (l ++ ['\n']) with
      | none =>
        have e1 : rowsOf scan (l :: ls) = rowsOf scan ls := by simp [rowsOf, hc, hs]
        rw [e1]
        exact ih n
      | some v =>
        have e1 : rowsOf scan (l :: ls) = v :: rowsOf scan ls := by simp [rowsOf, hc, hs]
        rw [e1]
        simp only [List.length_cons]
        refine ⟨fun h => ?_, fun h0 h => ?_⟩
        · rw [if_neg (by omega), (ih (n + 1)).1 (by omega)]
          rfl
        · by_cases hn : 4000 ≤ n + 1
          · rw [if_pos hn]
          · rw [if_neg hn, (ih (n + 1)).2 (by omega) (by omega)]
            rfl

/-- C60: from a file whose lines have at most 998 characters exactly the rows of its lines are read, in order; a file without
rows or with 4000 rows or more is refused -/
theorem C60_lines (scan : Str → Option (ℝ × ℝ × ℝ)) (ls : List Str) (h : ∀ l ∈ ls, '\n' ∉ l ∧ l.length ≤ 998) :
    readRows scan (fileOf ls) =
      if (rowsOf scan ls).length = 0 ∨ 4000 ≤ (rowsOf scan ls).length then .abort else .ok (rowsOf scan ls) := by
  unfold readRows
  rw [chunk_file ls h]
  by_cases h4 : 4000 ≤ (rowsOf scan ls).length
  · rw [(rowsLoop_spec scan ls 0).2 (by omega) (by omega), if_pos (Or.inr h4)]
    rfl
  · rw [(rowsLoop_spec scan ls 0).1 (by omega)]
    simp only [Res.bind]
    by_cases h0 : rowsOf scan ls = []
    · rw [if_pos h0, if_pos (Or.inl (by simp [h0]))]
    · rw [if_neg h0, if_neg]
      rintro (h' | h')
      · exact h0 (List.length_eq_zero_iff.1 h')
      · exact h4 h'

/-- C60, violation: a comment line of more than 999 characters is cut, and its rest is read as a line of its own -/
theorem C60_long_comment_violation (scan : Str → Option (ℝ × ℝ × ℝ)) (a r : Str) (ha : '\n' ∉ a) (hl : a.length = 998) :
    readRows scan ('#' :: a ++ r) = readRows scan r := by
  have key : ∀ (l acc : Str) (left : ℕ), '\n' ∉ l → l.length = left → 0 < left →
      chunk left acc (l ++ r) = (acc.reverse ++ l) :: chunk 999 [] r := by
    intro l
    induction l with
    | nil => intro acc left _ h1 h2; simp at h1; omega
    | cons c l ih =>
      intro acc left h h1 h2
      simp only [List.mem_cons, not_or, List.length_cons] at h h1
      simp only [List.cons_append, chunk]
      by_cases hl1 : left ≤ 1
      · have : l = [] := List.length_eq_zero_iff.1 (by omega)
        subst this
        rw [if_pos (Or.inr hl1)]
        simp
      · rw [if_neg (by rintro (h' | h') <;> [exact h.1 h'.symm; omega]), ih (c :: acc) (left - 1) h.2 (by omega) (by omega)]
        simp
  unfold readRows
  rw [key ('#' :: a) [] 999 (by simp [ha]) (by simp [hl]) (by omega)]
  simp [rowsLoop]

/-! ### units -/

theorem convertAll_spec (f : TabFormat) (u : TabUnit) (l l' : List (ℝ × ℝ × ℝ)) (h : convertAll f u l = .ok l') :
    l'.length = l.length ∧ ∀ i < l.length, convert f u (l.getD i 0) = .ok (l'.getD i 0) := by
  induction l generalizing l' with
  | nil =>
    simp only [convertAll] at h
    rw [← Res.ok.inj h]
    simp
  | cons v l ih =>
    simp only [convertAll] at h
    obtain ⟨v', h1, h⟩ := bind_ok h
    obtain ⟨l1, h2, h⟩ := bind_ok h
    rw [← Res.ok.inj h]
    obtain ⟨a, b⟩ := ih l1 h2
    refine ⟨by simp [a], fun i hi => ?_⟩
    cases i with
    | zero => simpa using h1
    | succ i => simpa using b i (by simpa using hi)

/-- C60: what reading a table leaves.  CompOSE rows (number density, energy density, pressure) are multiplied by constants,
rows in geometrised units are (density, specific internal energy, pressure); the enthalpy is (p + e)/ρ, in the second case
1 + ε + p/ρ.  Any other pair of format and unit is refused, and no density is zero. -/
theorem C60_units (scan : Str → Option (ℝ × ℝ × ℝ)) (f : TabFormat) (u : TabUnit) (file : Str) (l : List (ℝ × ℝ × ℝ))
    (hl : readRows scan file = .ok l) (T : Tab) (h : readTable scan f u file = .ok T) :
    T.N = l.length ∧ ∀ (i : ℕ) (r w p : ℝ), l[i]? = some (r, w, p) → T.h i = (T.p i + T.w i) / T.r i ∧ T.r i ≠ 0 ∧
      (f = .densities ∧ u = .compose ∧ T.r i = r * rhoFactor ∧ T.w i = w * eFactor ∧ T.p i = p * pFactor ∨
       f = .specific ∧ u = .geo ∧ T.r i = r ∧ T.w i = r * (1 + w) ∧ T.p i = p ∧ T.h i = 1 + w + p / r) := by
  unfold readTable at h
  obtain ⟨l0, h0, h⟩ := bind_ok h
  rw [hl] at h0
  obtain rfl := Res.ok.inj h0
  obtain ⟨l', h1, h⟩ := bind_ok h
  split_ifs at h with h2
  rw [← Res.ok.inj h]
  obtain ⟨a, b⟩ := convertAll_spec f u l l' h1
  refine ⟨a, fun i r w p hi => ?_⟩
  obtain ⟨hil, hi'⟩ := List.getElem?_eq_some_iff.1 hi
  have hb := b i hil
  rw [List.getD_eq_getElem _ _ hil, hi'] at hb
  have hne : (l'.getD i 0).1 ≠ 0 := by
    intro h0
    apply h2
    rw [List.any_eq_true]
    refine ⟨l'.getD i 0, ?_, by simpa using h0⟩
    rw [List.getD_eq_getElem _ _ (by omega)]
    exact List.getElem_mem _
  refine ⟨rfl, hne, ?_⟩
  show _ ∧ _ ∧ (l'.getD i 0).1 = _ ∧ (l'.getD i 0).2.1 = _ ∧ (l'.getD i 0).2.2 = _ ∨
    _ ∧ _ ∧ (l'.getD i 0).1 = _ ∧ (l'.getD i 0).2.1 = _ ∧ (l'.getD i 0).2.2 = _ ∧
      ((l'.getD i 0).2.2 + (l'.getD i 0).2.1) / (l'.getD i 0).1 = _
  cases f <;> cases u <;> simp only [convert, reduceCtorEq] at hb
  · left
    rw [← Res.ok.inj hb]
    exact ⟨rfl, rfl, rfl, rfl, rfl⟩
  · right
    have e1 := Res.ok.inj hb
    rw [← e1] at hne ⊢
    refine ⟨rfl, rfl, rfl, by ring, rfl, ?_⟩
    simp only at hne ⊢
    field_simp
    ring

/-- C60: the other pairs of format and unit are refused -/
theorem C60_mixed (scan : Str → Option (ℝ × ℝ × ℝ)) (file : Str) (T : Tab) :
    readTable scan .densities .geo file ≠ .ok T ∧ readTable scan .specific .compose file ≠ .ok T := by
  constructor <;>
  · intro h
    unfold readTable at h
    obtain ⟨l, h0, h⟩ := bind_ok h
    obtain ⟨l', h1, h⟩ := bind_ok h
    have hne : l ≠ [] := by
      unfold readRows at h0
      obtain ⟨l1, -, h0⟩ := bind_ok h0
      split_ifs at h0 with h2
      rw [← Res.ok.inj h0]
      exact h2
    have := (convertAll_spec _ _ l l' h1).2 0 (List.length_pos_iff.2 hne)
    simp [convert] at this

/-- CODATA 2018: gravitational constant (m³/(kg s²)), speed of light (m/s), solar mass and neutron mass (kg) -/
noncomputable def cG : ℝ := 6.67430E-11
noncomputable def cc : ℝ := 299792458
noncomputable def cM : ℝ := 1.98841E30
noncomputable def cN : ℝ := 1.67492749804E-27

/-- C60: the constants are, to fifteen digits, the conversions to units in which G = c = solar mass = 1: of dyn/cm² (0.1 Pa) for
the pressure, of g/cm³ (1000 kg/m³) for the energy density (as mass), and of neutron masses per fm³ for the density.  The
length unit is GM/c², the mass unit M. -/
theorem C60_constants :
    |pFactor - 0.1 / (cM / (cG * cM / cc ^ 2) ^ 3 * cc ^ 2)| ≤ 1E-15 * pFactor ∧
    |eFactor - 1000 / (cM / (cG * cM / cc ^ 2) ^ 3)| ≤ 1E-15 * eFactor ∧
    |rhoFactor - cN / (1E-15) ^ 3 / (cM / (cG * cM / cc ^ 2) ^ 3)| ≤ 1E-15 * rhoFactor := by
  unfold pFactor eFactor rhoFactor cG cc cM cN
  refine ⟨?_, ?_, ?_⟩ <;> · rw [abs_le]; constructor <;> norm_num

/-- two rows of a geometrised table after a comment: the hypotheses of C60_lines and C60_units are met -/
example : ∃ T, readTable (fun l => if l = "a\n".toList then some (1, 1 / 10, 1 / 2) else if l = "b\n".toList then some (2, 1, 3) else none)
    .specific .geo (fileOf ["#b".toList, "a".toList, "".toList, "b".toList]) = .ok T ∧ T.N = 2 ∧ T.h 0 = 16 / 10 ∧ T.h 1 = 7 / 2 := by
  have h := C60_lines (fun l => if l = "a\n".toList then some (1, 1 / 10, 1 / 2) else if l = "b\n".toList then some (2, 1, 3) else none)
    ["#b".toList, "a".toList, "".toList, "b".toList] (by simp)
  have e1 : rowsOf (fun l => if l = "a\n".toList then some ((1 : ℝ), (1 / 10 : ℝ), (1 / 2 : ℝ))
      else if l = "b\n".toList then some (2, 1, 3) else none) ["#b".toList, "a".toList, "".toList, "b".toList] =
      [(1, 1 / 10, 1 / 2), (2, 1, 3)] := by
    simp [rowsOf]
  rw [e1] at h
  unfold readTable
  rw [h]
  have e2 : convertAll .specific .geo [(1, 1 / 10, 1 / 2), (2, 1, 3)] = .ok [(1, 11 / 10, 1 / 2), (2, 4, 3)] := by
    simp only [convertAll, convert, Res.bind]
    norm_num
  rw [if_neg (by simp)]
  simp only [Res.bind, e2]
  rw [if_neg (by simp)]
  refine ⟨_, rfl, rfl, ?_, ?_⟩ <;> norm_num

end Elliptica.EoS
