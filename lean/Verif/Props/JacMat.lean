import Verif.Props.Jac
/-!
C68: the matrices of the spectral and of the direct method (compiled in with SAVE_JACOBIAN) hold the same numbers.
-/
namespace Elliptica.Jac
open Real Finset Elliptica.Index Elliptica.Cheb Elliptica.Deriv

variable {e : ℝ} {p : Patch}

/-! ### one row -/

theorem add_row (r : ℕ) (c : ℕ → ℕ) (v : ℕ → ℝ) (n : ℕ) (J : ℕ → ℕ → ℝ) (a b : ℕ) :
    (List.range n).foldl (fun J l => addAt J r (c l) (v l)) J a b =
      J a b + if a = r then ∑ l ∈ range n, (if c l = b then v l else 0) else 0 := by
  induction n with
  | zero => simp
  | succ n ih =>
    rw [List.range_succ, List.foldl_append, List.foldl_cons, List.foldl_nil, addAt, ih, sum_range_succ]
    by_cases h : a = r
    · by_cases h' : b = c n
      · subst h h'; simp; ring
      · have : ¬ c n = b := fun q => h' q.symm
        simp [h, h', this]
    · simp [h]

/-- the factors dN/dx are either zero or not within the tolerance of zero -/
def Clear (e : ℝ) (p : Patch) (x : Fin 3) : Prop :=
  ∀ X l, l < nn p → dNdq1 p X (.x x) l = 0 ∨ Tol.eql e (dNdq1 p X (.x x) l) 0 = false

section
variable (hp : Good e p)
include hp

theorem getDT_eq (X : Fin 3) (i l : ℕ) (hi : i < p.n X) (hl : l < p.n X) :
    getDT e (p.n X) l (cos (i * π / ((p.n X : ℝ) - 1))) = D p X i l := by
  have h2 := hp.two X
  have ht := hp.tol X
  obtain ⟨M, hM⟩ : ∃ M, p.n X = M + 1 := ⟨p.n X - 1, by omega⟩
  have hM0 : 0 < M := by omega
  have hsep : e * (M : ℝ) ^ 2 ≤ 2 := by
    rw [hM] at ht
    push_cast at ht
    have : (0 : ℝ) ≤ M := by positivity
    nlinarith [hp.pos, mul_nonneg hp.pos.le this, mul_nonneg hp.pos.le (sq_nonneg (M : ℝ))]
  obtain ⟨g, s⟩ := General.generic_node e hp.pos M hM0 hsep i (by omega)
  have hc : (p.n X : ℝ) - 1 = M := by rw [hM]; push_cast; ring
  unfold getDT D
  have h3 : e ≤ 3 := by linarith [hp.e2]
  have hsub : p.n X - 1 = M := by omega
  rw [hc, hM, General.sumDT_eq (hs := s) (h2 := hp.e2) (j := l) (hj := by omega)]
  · simp
  all_goals first | exact hp.pos | assumption

theorem idx_inj (t s : Fin 3 → ℕ) (ht : Inside p t) (hs : Inside p s) (h : idx p t = idx p s) : t = s := by
  rw [← coords_idx t ht, ← coords_idx s hs, h]

theorem fillLine_eq (x : Fin 3) (hc : Clear e p x) (X : Fin 3) (t s : Fin 3 → ℕ) (ht : Inside p t) (hs : Inside p s)
    (J : ℕ → ℕ → ℝ) (a : ℕ) :
    fillLine e p x (idx p t) X J a (idx p s) = J a (idx p s) +
      if a = idx p t then (if ∀ d, d ≠ X → t d = s d then dNdq1 p X (.x x) (idx p t) * D p X (t X) (s X) else 0) else 0 := by
  unfold fillLine
  simp only [coords_idx t ht]
  by_cases hz : Tol.eql e (dNdq1 p X (.x x) (idx p t)) 0 = true
  · rcases hc X _ (idx_lt t ht) with h | h
    · rw [if_pos hz, h]; simp
    · rw [h] at hz; cases hz
  · rw [if_neg hz, add_row]
    congr 1
    by_cases ha : a = idx p t
    · rw [if_pos ha, if_pos ha]
      have : ∀ l ∈ range (p.n X), (if idx p (Function.update t X l) = idx p s then
          dNdq1 p X (.x x) (idx p t) * getDT e (p.n X) l (cos (t X * π / ((p.n X : ℝ) - 1))) else 0) =
          if l = s X then (if ∀ d, d ≠ X → t d = s d then dNdq1 p X (.x x) (idx p t) * D p X (t X) (s X) else 0) else 0 := by
        intro l hl
        rw [mem_range] at hl
        rw [getDT_eq hp X _ _ (ht X) hl]
        have iff : idx p (Function.update t X l) = idx p s ↔ l = s X ∧ ∀ d, d ≠ X → t d = s d := by
          constructor
          · intro h
            have h := idx_inj hp _ _ (inside_update t ht X l hl) hs h
            refine ⟨by rw [← h]; simp, fun d hd => ?_⟩
            rw [← h]; simp [hd]
          · rintro ⟨h1, h2⟩
            congr 1
            funext d
            by_cases hd : d = X
            · subst hd; simpa using h1
            · simpa [hd] using h2 d hd
        simp only [iff]
        by_cases h1 : l = s X
        · subst h1; simp
        · simp [h1]
      rw [sum_congr rfl this, sum_ite_eq' (range (p.n X)) (s X), if_pos (mem_range.2 (hs X))]
    · rw [if_neg ha, if_neg ha]

/-- filling the rows one after the other -/
theorem fill_rows (hx : ∀ d, p.coll d = .extrema) (x : Fin 3) (hc : Clear e p x) (J : ℕ → ℕ → ℝ) (m : ℕ) (hm : m ≤ nn p) (a b : ℕ)
    (hb : b < nn p) :
    (List.range m).foldl (fun J ijk => fillLine e p x ijk 2 (fillLine e p x ijk 1 (fillLine e p x ijk 0 J))) J a b =
      J a b + if a < m then d2f e p x a b else 0 := by
  induction m with
  | zero => simp
  | succ m ih =>
    rw [List.range_succ, List.foldl_append, List.foldl_cons, List.foldl_nil]
    obtain ⟨ht, hit⟩ := coords_inside m (show m < nn p by omega)
    obtain ⟨hs, his⟩ := coords_inside b hb
    have ih := ih (by omega)
    have F := fun X J => fillLine_eq hp x hc X _ _ ht hs J a
    rw [hit, his] at F
    rw [F, F, F, ih]
    by_cases h : a = m
    · subst h
      have := d2f_idx hp hx x _ _ ht hs
      rw [hit, his] at this
      rw [this]
      generalize coords p a = t
      generalize coords p b = s
      have q0 : (∀ d : Fin 3, d ≠ 0 → t d = s d) ↔ t 1 = s 1 ∧ t 2 = s 2 :=
        ⟨fun h => ⟨h 1 (by decide), h 2 (by decide)⟩, fun h d hd => by match d with | 0 => exact absurd rfl hd | 1 => exact h.1 | 2 => exact h.2⟩
      have q1 : (∀ d : Fin 3, d ≠ 1 → t d = s d) ↔ t 0 = s 0 ∧ t 2 = s 2 :=
        ⟨fun h => ⟨h 0 (by decide), h 2 (by decide)⟩, fun h d hd => by match d with | 0 => exact h.1 | 1 => exact absurd rfl hd | 2 => exact h.2⟩
      have q2 : (∀ d : Fin 3, d ≠ 2 → t d = s d) ↔ t 0 = s 0 ∧ t 1 = s 1 :=
        ⟨fun h => ⟨h 0 (by decide), h 1 (by decide)⟩, fun h d hd => by match d with | 0 => exact h.1 | 1 => exact h.2 | 2 => exact absurd rfl hd⟩
      simp only [q0, q1, q2, lt_irrefl, if_false, if_true, Nat.lt_succ_self, kd]
      generalize D p 0 (t 0) (s 0) = D0
      generalize D p 1 (t 1) (s 1) = D1
      generalize D p 2 (t 2) (s 2) = D2
      by_cases h0 : t 0 = s 0 <;> by_cases h1 : t 1 = s 1 <;> by_cases h2 : t 2 = s 2 <;> simp [h0, h1, h2] <;> try ring
    · have : (a < m + 1) ↔ a < m := by omega
      simp [h, this]

variable (hx : ∀ d, p.coll d = .extrema)
include hx

/-- **C68 (matrix of the first derivatives).** Filling a matrix of zeros gives the entries. -/
theorem C68_fill_first (x : Fin 3) (hc : Clear e p x) (ws : Pts) (ijk lmn : ℕ) (h1 : ijk < nn p) (h2 : lmn < nn p) :
    fill1 e p x (fun _ _ => 0) ijk lmn = entry1 e p ws x ijk lmn := by
  unfold fill1
  rw [fill_rows hp hx x hc _ (nn p) le_rfl _ _ h2, if_pos h1, zero_add, C68_opt_first hp]

/-- d/dy of a column of the matrix of d/dx -/
theorem col_der (hs : p.sys ≠ .other) (x y : Fin 3) (dxdy : ℕ) (hax : ax (axes dxdy).1 = x ∧ ax (axes dxdy).2 = y)
    (v : ℕ → ℝ) (c : ℕ) (hc : c < nn p) (hv : ∀ l, l < nn p → v l = d2f e p x l c) :
    ∃ r, takeDer e p ⟨v, none, none⟩ [.x y] = .ok r ∧ ∀ a, a < nn p → r.2 a = d3f e p dxdy a c := by
  obtain ⟨f', w, a1, a2, a3, a4⟩ := first_matrix hp hx hs ⟨v, none, none⟩ (Or.inl rfl) y
  refine ⟨(f', w), by simp [takeDer, isSecond, a1, chain], fun a ha => ?_⟩
  obtain ⟨ht, hid⟩ := coords_inside a ha
  obtain ⟨hu, hi⟩ := coords_inside c hc
  have := d3f_idx hp hx dxdy _ _ ht hu
  rw [hid, hi, hax.1, hax.2] at this
  rw [this]
  have := a4 _ ht
  rw [hid] at this
  refine this.trans ?_
  refine sum_congr rfl fun d _ => congrArg _ (sum_congr rfl fun j hj => congrArg _ ?_)
  exact hv _ (idx_lt _ (inside_update _ ht d j (mem_range.1 hj)))

theorem loop2 (hs : p.sys ≠ .other) (x y : Fin 3) (dxdy : ℕ) (hax : ax (axes dxdy).1 = x ∧ ax (axes dxdy).2 = y)
    (same : Bool) (J1 : ℕ → ℕ → ℝ) :
    ∀ (cs : List ℕ), cs.Nodup → (∀ c ∈ cs, c < nn p) → ∀ J : ℕ → ℕ → ℝ,
      (∀ c ∈ cs, ∀ l, l < nn p → (if same then J l c else J1 l c) = d2f e p x l c) →
      ∃ J', fill2Loop e p same y cs J1 J = .ok J' ∧ (∀ a b, a < nn p → b ∈ cs → J' a b = d3f e p dxdy a b) ∧
        ∀ a b, b ∉ cs → J' a b = J a b := by
  intro cs
  induction cs with
  | nil => intro _ _ J _; exact ⟨J, rfl, by simp, fun _ _ _ => rfl⟩
  | cons c cs ih =>
    intro hn hlt J hJ
    rw [List.nodup_cons] at hn
    obtain ⟨r, r1, r2⟩ := col_der hp hx hs x y dxdy hax (fun l => if same then J l c else J1 l c) c (hlt c (by simp))
      (fun l hl => hJ c (by simp) l hl)
    obtain ⟨J', k1, k2, k3⟩ := ih hn.2 (fun d hd => hlt d (by simp [hd])) (setCol p J c r.2) (by
      intro d hd l hl
      have hne : d ≠ c := fun h => hn.1 (h ▸ hd)
      have := hJ d (by simp [hd]) l hl
      simpa [setCol, hne] using this)
    refine ⟨J', by rw [fill2Loop, r1]; exact k1, ?_, ?_⟩
    · intro a b ha hb
      rcases List.mem_cons.1 hb with rfl | hb
      · rw [k3 a b hn.1, setCol, if_pos ⟨rfl, ha⟩, r2 a ha]
      · exact k2 a b ha hb
    · intro a b hb
      rw [List.mem_cons, not_or] at hb
      rw [k3 a b hb.2, setCol, if_neg (fun h => hb.1 h.1)]

/-- **C68 (matrix of the second derivatives).** Whether a matrix of the first derivatives was kept, exists in another
format or has to be made, the matrix of the second derivatives, filled from zeros, is that of the entries. -/
theorem C68_fill_second (hs : p.sys ≠ .other) (dxdy : ℕ) (x y : Fin 3)
    (hxy : (dxdy, x, y) ∈ [(0, 0, 0), (1, 0, 1), (2, 0, 2), (3, 1, 1), (4, 1, 2), (5, 2, 2)]) (hc : Clear e p x)
    (saved : Option (ℕ → ℕ → ℝ)) (hsaved : ∀ J1, saved = some J1 → J1 = fill1 e p x fun _ _ => 0) (inCcs : Bool) (ws : Pts) :
    ∃ J, fill2 e p saved inCcs x y (fun _ _ => 0) = .ok J ∧
      ∀ ijk lmn, ijk < nn p → lmn < nn p → J ijk lmn = entry2 e p ws dxdy ijk lmn := by
  have hax : ax (axes dxdy).1 = x ∧ ax (axes dxdy).2 = y := by
    simp only [List.mem_cons, Prod.mk.injEq, List.not_mem_nil, or_false] at hxy
    rcases hxy with ⟨rfl, rfl, rfl⟩ | ⟨rfl, rfl, rfl⟩ | ⟨rfl, rfl, rfl⟩ | ⟨rfl, rfl, rfl⟩ | ⟨rfl, rfl, rfl⟩ | ⟨rfl, rfl, rfl⟩ <;>
      decide
  have hJ1 : ∀ c ∈ List.range (nn p), ∀ l, l < nn p → fill1 e p x (fun _ _ => 0) l c = d2f e p x l c := by
    intro c hc' l hl
    rw [C68_fill_first hp hx x hc ws l c hl (List.mem_range.1 hc'), C68_opt_first hp]
  have hr : ∀ c ∈ List.range (nn p), c < nn p := fun c => List.mem_range.1
  have fin : ∀ J' : ℕ → ℕ → ℝ, (∀ a b, a < nn p → b ∈ List.range (nn p) → J' a b = d3f e p dxdy a b) →
      ∀ ijk lmn, ijk < nn p → lmn < nn p → J' ijk lmn = entry2 e p ws dxdy ijk lmn := by
    intro J' h a b ha hb
    rw [h a b ha (List.mem_range.2 hb), C68_opt_second hp ws dxdy a b ha hb]
  unfold fill2
  cases saved with
  | some J1 =>
    rw [hsaved J1 rfl]
    obtain ⟨J', k1, k2, -⟩ := loop2 hp hx hs x y dxdy hax false (fill1 e p x fun _ _ => 0) _ List.nodup_range hr (fun _ _ => 0)
      (by simpa using fun c hc' l hl => hJ1 c (List.mem_range.2 hc') l hl)
    exact ⟨J', k1, fin J' k2⟩
  | none =>
    cases inCcs with
    | true =>
      obtain ⟨J', k1, k2, -⟩ := loop2 hp hx hs x y dxdy hax true (fill1 e p x fun _ _ => 0) _ List.nodup_range hr
        (fill1 e p x fun _ _ => 0) (by simpa using fun c hc' l hl => hJ1 c (List.mem_range.2 hc') l hl)
      exact ⟨J', k1, fin J' k2⟩
    | false =>
      obtain ⟨J', k1, k2, -⟩ := loop2 hp hx hs x y dxdy hax false (fill1 e p x fun _ _ => 0) _ List.nodup_range hr (fun _ _ => 0)
        (by simpa using fun c hc' l hl => hJ1 c (List.mem_range.2 hc') l hl)
      exact ⟨J', k1, fin J' k2⟩

/-! ### the direct method -/

/-- the derivative of a constant -/
theorem row_sum (hs : p.sys ≠ .other) (x : Fin 3) (a : ℕ) (ha : a < nn p) :
    ∑ l ∈ range (nn p), d2f e p x a l = 0 := by
  obtain ⟨ht, hid⟩ := coords_inside a ha
  obtain ⟨f', w, h1, -, -, h4⟩ := first_ok hp hs ⟨fun _ => 1, none, none⟩ (Or.inl rfl) (.x x) trivial 1
    (by intro d; have := hp.two d; rw [← MvPolynomial.C_1, MvPolynomial.degreeOf_C]; omega) (by intro t _; simp)
  obtain ⟨f2, w2, k1, -, -, k4⟩ := first_matrix hp hx hs ⟨fun _ => 1, none, none⟩ (Or.inl rfl) x
  rw [h1] at k1
  cases k1
  have z := h4 _ ht
  rw [k4 _ ht, ← act hp hx x _ ht, hid] at z
  have z2 : ∀ d : Fin 3, MvPolynomial.pderiv d (1 : MvPolynomial (Fin 3) ℝ) = 0 := fun d => by
    rw [← MvPolynomial.C_1, MvPolynomial.pderiv_C]
  simpa only [z2, map_zero, zero_mul, sum_const_zero, mul_one] using z

theorem row_sum2 (hs : p.sys ≠ .other) (dxdy a : ℕ) (ha : a < nn p) :
    ∑ l ∈ range (nn p), d3f e p dxdy a l = 0 := by
  obtain ⟨ht, hid⟩ := coords_inside a ha
  have : ∀ l ∈ range (nn p), d3f e p dxdy a l = ∑ d, dNdq1 p d (.x (ax (axes dxdy).2)) a *
        ∑ j ∈ range (p.n d), D p d (coords p a d) j * d2f e p (ax (axes dxdy).1) (idx p (Function.update (coords p a) d j)) l := by
    intro l hl
    obtain ⟨hu, hi⟩ := coords_inside l (mem_range.1 hl)
    have := d3f_idx hp hx dxdy _ _ ht hu
    rwa [hid, hi] at this
  rw [sum_congr rfl this, sum_comm]
  refine sum_eq_zero fun d _ => ?_
  rw [← mul_sum, sum_comm]
  refine mul_eq_zero_of_right _ (sum_eq_zero fun j hj => ?_)
  rw [← mul_sum, row_sum hp hx hs _ _ (idx_lt _ (inside_update _ ht d j (mem_range.1 hj))), mul_zero]

omit hx in
theorem direct_run (dirs : List Dir) (E : ℕ → ℕ → ℝ)
    (hE : ∀ v : ℕ → ℝ, ∃ r, takeDer e p ⟨v, none, none⟩ dirs = .ok r ∧ ∀ a, a < nn p → r.2 a = ∑ l ∈ range (nn p), E a l * v l)
    (h0 : ∀ a, a < nn p → ∑ l ∈ range (nn p), E a l = 0) :
    ∀ (cs : List ℕ), (∀ c ∈ cs, c < nn p) → ∀ J : ℕ → ℕ → ℝ, ∃ J', direct e p dirs cs J = .ok J' ∧
      (∀ a b, a < nn p → (b ∈ cs ∨ J a b = E a b) → J' a b = E a b) := by
  intro cs
  induction cs with
  | nil => intro _ J; exact ⟨J, rfl, fun a b _ h => by simpa using h⟩
  | cons c cs ih =>
    intro hlt J
    have hc := hlt c (by simp)
    obtain ⟨r, r1, r2⟩ := hE (fun l => if l = c then 1 + 1 / (nn p : ℝ) else 1)
    obtain ⟨J', k1, k2⟩ := ih (fun d hd => hlt d (by simp [hd])) (setCol p J c fun l => r.2 l / (1 / (nn p : ℝ)))
    refine ⟨J', by rw [direct]; rw [r1]; exact k1, fun a b ha h => k2 a b ha ?_⟩
    have hcol : r.2 a / (1 / (nn p : ℝ)) = E a c := by
      have hn : (nn p : ℝ) ≠ 0 := by
        have : 0 < nn p := by omega
        positivity
      have : ∀ l ∈ range (nn p), E a l * (if l = c then 1 + 1 / (nn p : ℝ) else 1) =
          E a l + if l = c then E a l * (1 / (nn p : ℝ)) else 0 := by
        intro l _; split_ifs <;> ring
      rw [r2 a ha, sum_congr rfl this, sum_add_distrib, h0 a ha, sum_ite_eq' (range (nn p)) c, if_pos (mem_range.2 hc)]
      field_simp
      try ring
    by_cases hb : b = c
    · subst hb
      right
      rw [setCol, if_pos ⟨rfl, ha⟩, hcol]
    · rcases h with h | h
      · left
        rcases List.mem_cons.1 h with h | h
        · exact absurd h hb
        · exact h
      · right
        rw [setCol, if_neg (fun q => hb q.1), h]

/-- **C68 (direct method).** The matrices made by differences of the derivatives of a perturbed constant field are exactly
those of the entries: nothing depends on the size of the perturbation. -/
theorem C68_direct (hs : p.sys ≠ .other) (J0 : ℕ → ℕ → ℝ) (ws : Pts) :
    (∀ x : Fin 3, ∃ J, direct e p [.x x] (List.range (nn p)) J0 = .ok J ∧
      ∀ ijk lmn, ijk < nn p → lmn < nn p → J ijk lmn = entry1 e p ws x ijk lmn) ∧
    ∀ dxdy x y, (dxdy, x, y) ∈ [(0, 0, 0), (1, 0, 1), (2, 0, 2), (3, 1, 1), (4, 1, 2), (5, 2, (2 : Fin 3))] →
      ∃ J, direct e p [.x x, .x y] (List.range (nn p)) J0 = .ok J ∧
      ∀ ijk lmn, ijk < nn p → lmn < nn p → J ijk lmn = entry2 e p ws dxdy ijk lmn := by
  constructor
  · intro x
    obtain ⟨J, k1, k2⟩ := direct_run hp [.x x] (fun a b => entry1 e p ws x a b)
      (fun v => by
        obtain ⟨f', w, h1, h2, h3⟩ := C68_first hp hx hs ⟨v, none, none⟩ (Or.inl rfl) x ws
        exact ⟨_, h1, h3⟩)
      (fun a ha => by
        rw [← row_sum hp hx hs x a ha]
        exact sum_congr rfl fun l _ => C68_opt_first hp ws x a l) _ (fun c => List.mem_range.1) J0
    exact ⟨J, k1, fun a b ha hb => k2 a b ha (Or.inl (List.mem_range.2 hb))⟩
  · intro dxdy x y hxy
    obtain ⟨J, k1, k2⟩ := direct_run hp [.x x, .x y] (fun a b => entry2 e p ws dxdy a b)
      (fun v => by
        obtain ⟨f', w, h1, h2, h3⟩ := C68_second hp hx hs ⟨v, none, none⟩ (Or.inl rfl) dxdy x y hxy ws
        exact ⟨_, h1, h3⟩)
      (fun a ha => by
        rw [← row_sum2 hp hx hs dxdy a ha]
        exact sum_congr rfl fun l hl => C68_opt_second hp ws dxdy a l ha (mem_range.1 hl)) _ (fun c => List.mem_range.1) J0
    exact ⟨J, k1, fun a b ha hb => k2 a b ha (Or.inl (List.mem_range.2 hb))⟩

end

/-! ### an example -/

/-- a Cartesian patch of 5 x 6 x 7 points, extrema in every direction -/
noncomputable def demoE : Patch := { demoP with coll := fun _ => .extrema }

theorem demoE_good : Good 1e-12 demoE where
  pos := demoP_good.pos
  two := demoP_good.two
  box := demoP_good.box
  tn := fun _ => rfl
  cheb := by intro d; simp [demoE]
  tol := demoP_good.tol

/-- a patch of cubed spherical type with the same points and a Jacobian that is not constant -/
noncomputable def demoC : Patch :=
  { demoE with sys := .cubed, jt := fun X x l => if X.mod3 = x.mod3 then 1 + l else if X.mod3 = 0 then 0.25 else 0 }

theorem demoC_good : Good 1e-12 demoC where
  pos := demoP_good.pos
  two := demoP_good.two
  box := demoP_good.box
  tn := fun _ => rfl
  cheb := by intro d; simp [demoC, demoE]
  tol := demoP_good.tol

example : Clear 1e-12 demoE 0 := by
  intro X l _
  match X with
  | 0 =>
    right
    simp [dNdq1, dNdq, jacT, Tol.eql, demoE, demoP, dNdX, Dir.mod3]
    norm_num
  | 1 => left; simp [dNdq1, dNdq, jacT, demoE, demoP, Dir.mod3]
  | 2 => left; simp [dNdq1, dNdq, jacT, demoE, demoP, Dir.mod3]

example := C68_first demoE_good (fun _ => rfl) (by simp [demoE, demoP]) ⟨fun l => (l : ℝ) ^ 2, none, none⟩ (Or.inl rfl) 1 anyPts

example := C68_second demoC_good (fun _ => rfl) (by simp [demoC]) ⟨fun l => (l : ℝ) ^ 2, none, none⟩ (Or.inl rfl) 4 1 2 (by decide)
  anyPts

example := (C68_direct demoC_good (fun _ => rfl) (by simp [demoC]) (fun _ _ => 7) anyPts).2 5 2 2 (by decide)

end Elliptica.Jac
