import Verif.Lemmas.EoS
import Verif.Props.Text
import Mathlib.Tactic.NormNum
/-!
C58: polytropic and piecewise polytropic equations of state.
-/
namespace Elliptica.EoS
open Set Filter Topology Text
open TextSpec (Splits)

variable {N : ℕ} {g rho : ℕ → ℝ} {K0 e : ℝ} {p u : ℝ → ℝ}

/-! ### the lists in the parameter file -/

theorem splits_join (d : Char) (vs : List Str) (hne : vs ≠ []) (hv : ∀ v ∈ vs, v ≠ [] ∧ d ∉ v) :
    Splits d (List.intercalate [d] vs) vs := by
  induction vs with
  | nil => exact absurd rfl hne
  | cons v vs ih =>
    match vs, ih with
    | [], _ => simpa using Splits.last v (hv v (by simp)).1 (hv v (by simp)).2
    | w :: ws, ih =>
      have h := ih (by simp) (fun x hx => hv x (by simp [hx]))
      have hw := hv w (by simp)
      have hh : (List.intercalate [d] (w :: ws)).head? ≠ some d := by
        match w, hw with
        | c :: w', hw =>
          cases ws <;> simp [List.intercalate, List.intersperse] <;> rintro rfl <;> simp at hw
      have := Splits.cons v 0 _ _ (hv v (by simp)).1 (hv v (by simp)).2 hh h
      simpa [List.intercalate, List.intersperse] using this

/-- C58: a list [v1,v2,...] in the parameter file is read item by item -/
theorem C58_list (atof : Str → ℝ) (vs : List Str) (hne : vs ≠ [])
    (hv : ∀ v ∈ vs, v ≠ [] ∧ ',' ∉ v ∧ '[' ∉ v ∧ ']' ∉ v) (hl : (List.intercalate [','] vs).length < 398) :
    readList atof ('[' :: List.intercalate [','] vs ++ [']']) = .ok (vs.map atof) := by
  have hs := splits_join ',' vs hne (fun v h => ⟨(hv v h).1, (hv v h).2.1⟩)
  have hmem : ∀ c : Char, c ≠ ',' → (∀ v ∈ vs, c ∉ v) → c ∉ List.intercalate [','] vs := by
    intro c hc hvc
    clear hs hv hl hne
    induction vs with
    | nil => simp [List.intercalate]
    | cons v vs ih =>
      match vs, ih with
      | [], _ => simpa [List.intercalate] using hvc v (by simp)
      | w :: ws, ih =>
        have := ih (fun x hx => hvc x (by simp [hx]))
        have hv1 := hvc v (by simp)
        simp only [List.intercalate, List.intersperse, List.flatten_cons, List.mem_append, List.mem_singleton] at this ⊢
        tauto
  have h1 := hmem '[' (by decide) (fun v h => (hv v h).2.2.1)
  have h2 := hmem ']' (by decide) (fun v h => (hv v h).2.2.2)
  generalize List.intercalate [','] vs = b at *
  have t1 : ∀ l : Str, ']' ∉ l → (l ++ [']']).takeWhile (· ≠ ']') = l := by
    intro l hl
    induction l with
    | nil => simp
    | cons a l ih =>
      simp only [List.mem_cons, not_or] at hl
      simp [Ne.symm hl.1]
      simpa using ih hl.2
  have t2 : ∀ l : Str, ']' ∉ l → afterChr ']' (l ++ [']']) = some [] := by
    intro l hl
    induction l with
    | nil => simp [afterChr]
    | cons a l ih =>
      simp only [List.mem_cons, not_or] at hl
      simp [afterChr, Ne.symm hl.1, ih hl.2]
  have hb' : ']' ∉ '[' :: b := by simp [h2]
  have hf : checkFormat (some ('[' :: b ++ [']'])) ['[', '?', ']'] = .ok true := by
    have e1 := t1 ('[' :: b) hb'
    simp only [checkFormat]
    have : (List.filter (fun x => decide (x ≠ '?')) ['[', '?', ']']) = ['[', ']'] := by decide
    rw [this]
    simp only [List.getLast?_cons_cons, List.getLast?_singleton]
    rw [if_pos (by simp), e1]
    simp only [formatLoop, afterChr, List.cons_append, if_true, t2 b h2]
  have hsub : subS '[' ']' ('[' :: b ++ [']']) = some b := by
    have e1 : tokS ']' ('[' :: b ++ [']']) = some ⟨'[' :: b, some [], false⟩ := by
      have := Text.tokS_piece (d := ']') (x := '[' :: b) (r := []) 0 (by simp) hb' (by simp)
      simpa using this
    simp only [subS, e1]
    simp only [tokS, if_true]
    rw [if_neg h1]
  have hi := Props.Text.C09_items_partial ',' b vs hs
  unfold readList
  rw [hf]
  simp only [Res.bind]
  rw [if_neg (by simp), if_neg (by simp; omega), hsub]
  simp only [hi]

example (atof : Str → ℝ) : readList atof "[1.35692,3.005]".toList = .ok [atof "1.35692".toList, atof "3.005".toList] := by
  have := C58_list atof ["1.35692".toList, "3.005".toList] (by decide) (by decide +kernel) (by decide +kernel)
  exact this

/-! ### accepting the parameters -/

/-- the record the program builds from the lists -/
noncomputable def built (gamma K0 rho : List ℝ) : Eos :=
  ⟨gamma.length, fun i => gamma.getD i 0, fillN (fun i => gamma.getD i 0),
    aK (fun i => gamma.getD i 0) (fun i => rho.getD i 0) (K0.getD 0 0),
    aA (fun i => gamma.getD i 0) (fun i => rho.getD i 0) (K0.getD 0 0), fun i => rho.getD i 0,
    aH (fun i => gamma.getD i 0) (fun i => rho.getD i 0) (K0.getD 0 0)⟩

theorem populate_eq (gamma K rho : List ℝ) (E : Eos) (h : populatePwp e gamma K rho = .ok E) : E = built gamma K rho := by
  unfold populatePwp at h
  simp only at h
  split_ifs at h
  exact (Res.ok.inj h).symm

/-- C58: usable lists are accepted.  The hypothesis on the first entry of the list of thresholds is there because the
program compares it (it is not used otherwise). -/
theorem C58_accepts (gamma K rho : List ℝ) (he : 0 < e)
    (U : Usable gamma.length (fun i => gamma.getD i 0) (K.getD 0 0) (fun i => rho.getD i 0))
    (hg : ∀ i < gamma.length, e ≤ gamma.getD i 0 - 1) (hlen : gamma.length ≤ rho.length)
    (h0 : 2 < gamma.length → rho.getD 0 0 ≤ rho.getD 1 0 + e) :
    populatePwp e gamma K rho = .ok (built gamma K rho) := by
  unfold populatePwp
  simp only
  rw [if_neg (by omega), if_neg, if_neg, if_neg (by omega), if_neg]
  · rfl
  · simp only [List.any_eq_true, List.mem_range, Bool.and_eq_true, decide_eq_true_eq]
    rintro ⟨i, hi, h1, h2⟩
    have := U.rho_pos i h1 hi
    linarith
  · have := U.pos
    simp only [List.any_eq_true, List.mem_range, Tol.eql, Bool.and_eq_true, decide_eq_true_eq]
    rintro (h | ⟨i, hi, h1, h2⟩)
    · omega
    · have := hg i hi
      linarith
  · simp only [List.any_eq_true, List.mem_range, Bool.and_eq_true, decide_eq_true_eq, Tol.grt]
    rintro ⟨i, hi, h1, h2⟩
    rcases Nat.eq_or_lt_of_le h1 with rfl | h1
    · have := h0 (by omega)
      simp only [Nat.sub_self] at h2
      linarith
    · have := U.inc (i - 1) (by omega) (by omega)
      rw [Nat.sub_add_cancel (by omega)] at this
      linarith

/-! ### the piece the program picks -/

/-- the enthalpy coincides with a threshold or differs by more than the round-off -/
def Clear (e : ℝ) (N : ℕ) (H : ℕ → ℝ) (h : ℝ) : Prop := ∀ j, 1 ≤ j → j < N → h = H j ∨ e < |h - H j|

theorem lssEql_clear {x y : ℝ} (he : 0 < e) (h : x = y ∨ e < |x - y|) : Tol.lssEql e x y = decide (x ≤ y) := by
  unfold Tol.lssEql Tol.lss Tol.eql
  rcases h with rfl | h
  · simp [he]
  · rcases lt_abs.1 h with h | h
    · have h1 : ¬ x < y - e := by linarith
      have h2 : ¬ x < y + e := by linarith
      have h3 : ¬ x ≤ y := by linarith
      simp [h1, h2, h3]
    · have h1 : x < y - e := by linarith
      have h3 : x ≤ y := by linarith
      simp [h1, h3]

theorem grtEql_clear {x y : ℝ} (he : 0 < e) (h : x = y ∨ e < |x - y|) : Tol.grtEql e x y = decide (y ≤ x) := by
  unfold Tol.grtEql Tol.grt Tol.eql
  rcases h with rfl | h
  · simp [he]
  · rcases lt_abs.1 h with h | h
    · have h1 : x > y + e := by linarith
      have h3 : y ≤ x := by linarith
      simp [h1, h3]
    · have h1 : ¬ x > y + e := by linarith
      have h2 : ¬ x > y - e := by linarith
      have h3 : ¬ y ≤ x := by linarith
      simp [h1, h2, h3]

theorem findLoop_spec (he : 0 < e) (E : Eos) (h : ℝ) (hc : Clear e E.N E.hth h) (hlast : h < E.hth (E.N - 1)) (k i : ℕ)
    (hi : 1 ≤ i) (hk : i + k = E.N - 1) (hlo : E.hth i ≤ h) :
    ∃ j, findLoop e E h k i = .ok j ∧ 1 ≤ j ∧ j + 1 < E.N ∧ E.hth j ≤ h ∧ h ≤ E.hth (j + 1) := by
  induction k generalizing i with
  | zero =>
    rw [← hk, Nat.add_zero] at hlast
    linarith
  | succ k ih =>
    unfold findLoop
    rw [grtEql_clear he (hc i hi (by omega)), lssEql_clear he (hc (i + 1) (by omega) (by omega))]
    by_cases h1 : h ≤ E.hth (i + 1)
    · refine ⟨i, ?_, hi, by omega, hlo, h1⟩
      simp [hlo, h1]
    · rw [if_neg (by simp [h1])]
      exact ih (i + 1) (by omega) (by omega) (by linarith)

theorem findTh_spec (he : 0 < e) (E : Eos) (hN : 2 ≤ E.N) (h : ℝ) (hc : Clear e E.N E.hth h) :
    ∃ j, findTh e E h = .ok j ∧ j < E.N ∧ (1 ≤ j → E.hth j ≤ h) ∧ (j + 1 < E.N → h ≤ E.hth (j + 1)) := by
  unfold findTh
  rw [if_neg (by omega), lssEql_clear he (hc 1 le_rfl (by omega)), grtEql_clear he (hc (E.N - 1) (by omega) (by omega))]
  by_cases h1 : h ≤ E.hth 1
  · exact ⟨0, by simp [h1], by omega, by omega, fun _ => h1⟩
  · by_cases h2 : E.hth (E.N - 1) ≤ h
    · exact ⟨E.N - 1, by simp [h1, h2], by omega, fun _ => h2, by omega⟩
    · push Not at h1 h2
      obtain ⟨j, a, b, c, d, f⟩ := findLoop_spec he E h hc h2 (E.N - 2) 1 le_rfl (by omega) h1.le
      exact ⟨j, by simp [not_le.2 h1, not_le.2 h2, a], by omega, fun _ => d, fun _ => f⟩

/-! ### the values -/

theorem cpow_pos {b x : ℝ} (hb : 0 < b) : cpow b x = .ok (b ^ x) := by
  unfold cpow
  rw [if_neg (by intro h; linarith [h.1]), if_neg (by intro h; linarith [h.1])]

theorem n_val (U : Usable N g K0 rho) (i : ℕ) (hi : i < N) : fillN g i + 1 = g i / (g i - 1) ∧ 0 < fillN g i := by
  have h1 := U.gm i hi
  constructor
  · unfold fillN; field_simp; ring
  · unfold fillN; positivity

theorem base_eq (U : Usable N g K0 rho) (i : ℕ) (hi : i < N) (r : ℝ) :
    (hF g rho K0 i r - 1 - aA g rho K0 i) / (fillN g i + 1) = aK g rho K0 i * r ^ (g i - 1) := by
  have h1 := U.gm i hi
  have h2 : 0 < g i := by linarith [U.gam i hi]
  rw [(n_val U i hi).1]
  unfold hF
  field_simp
  ring

theorem pow_rho (U : Usable N g K0 rho) (i : ℕ) (hi : i < N) (r : ℝ) (hr : 0 < r) :
    (aK g rho K0 i * r ^ (g i - 1)) ^ fillN g i * aK g rho K0 i ^ (-fillN g i) = r := by
  have h1 := U.gm i hi
  have hk := aK_pos U i hi
  rw [Real.mul_rpow hk.le (Real.rpow_pos_of_pos hr _).le, ← Real.rpow_mul hr.le]
  have : (g i - 1) * fillN g i = 1 := by unfold fillN; field_simp
  rw [this, Real.rpow_one, Real.rpow_neg hk.le]
  have := (Real.rpow_pos_of_pos hk (fillN g i)).ne'
  field_simp

theorem pow_p (U : Usable N g K0 rho) (i : ℕ) (hi : i < N) (r : ℝ) (hr : 0 < r) :
    (aK g rho K0 i * r ^ (g i - 1)) ^ (fillN g i + 1) * aK g rho K0 i ^ (-fillN g i) = aK g rho K0 i * r ^ g i := by
  have hk := aK_pos U i hi
  have hb : 0 < aK g rho K0 i * r ^ (g i - 1) := mul_pos hk (Real.rpow_pos_of_pos hr _)
  rw [Real.rpow_add_one hb.ne', mul_right_comm, pow_rho U i hi r hr]
  have : r ^ g i = r * r ^ (g i - 1) := by
    rw [mul_comm, ← Real.rpow_add_one hr.ne']; congr 1; ring
  rw [this]; ring

theorem e0_val (U : Usable N g K0 rho) (i : ℕ) (hi : i < N) (r : ℝ) :
    (aA g rho K0 i + fillN g i * (hF g rho K0 i r - 1)) / (fillN g i + 1) = uF g rho K0 i r := by
  have h1 := U.gm i hi
  have h2 : 0 < g i := by linarith [U.gam i hi]
  rw [(n_val U i hi).1]
  unfold hF uF fillN
  field_simp
  ring

theorem snap_far (h : ℝ) (hh : 1 + e ≤ h) : snap e h = h := by
  unfold snap Tol.eql
  rw [if_neg]
  simp only [Bool.and_eq_true, decide_eq_true_eq]
  rintro ⟨a, -⟩; linarith

/-- C58: with accepted parameters, at an enthalpy 1 + e or more that no threshold misses by less than the round-off, the
functions return density, pressure, specific internal energy and energy density of the matter with this enthalpy -/
theorem C58_values (gamma K rho : List ℝ) (E : Eos) (he : 0 < e) (hE : populatePwp e gamma K rho = .ok E)
    (hN : 2 ≤ gamma.length)
    (U : Usable gamma.length (fun i => gamma.getD i 0) (K.getD 0 0) (fun i => rho.getD i 0))
    (M : Matter gamma.length (fun i => gamma.getD i 0) (K.getD 0 0) (fun i => rho.getD i 0) p u)
    (r : ℝ) (hr : 0 < r) (h1 : 1 + e ≤ enthalpy p u r)
    (hc : Clear e gamma.length (fun j => enthalpy p u (rho.getD j 0)) (enthalpy p u r)) :
    rhoPwp e E (enthalpy p u r) = .ok r ∧ pPwp e E (enthalpy p u r) = .ok (p r) ∧
      e0Pwp e E (enthalpy p u r) = .ok (u r) ∧ ePwp e E (enthalpy p u r) = .ok (r * (1 + u r)) := by
  have hb := populate_eq gamma K rho E hE
  subst hb
  have hth : ∀ j, 1 ≤ j → j < gamma.length → enthalpy p u (rho.getD j 0) = (built gamma K rho).hth j := by
    intro j j1 j2
    have m := (left_mem U (j - 1) (by omega)).2
    rw [Nat.sub_add_cancel j1] at m
    rw [enthalpy_eq U M j j2 _ m]
    exact (aH_eq j j1).symm
  obtain ⟨i, hi, hri⟩ := exists_piece U r hr
  have hh := enthalpy_eq U M i hi r hri
  obtain ⟨j, f1, f2, f3, f4⟩ := findTh_spec he (built gamma K rho) hN (enthalpy p u r)
    (fun j a b => by rw [← hth j a b]; exact hc j a b)
  have hrj : r ∈ Piece gamma.length (fun i => rho.getD i 0) j := by
    refine ⟨hr, fun a => ?_, fun a => ?_⟩
    · exact side_le U i hi r hri j a f2 (by rw [← hh]; exact f3 a)
    · exact side_ge U i hi r hri (j + 1) (by omega) a (by rw [← hh]; exact f4 a)
  have hh := enthalpy_eq U M j f2 r hrj
  have hs := snap_far _ h1
  have hk := aK_pos U j f2
  have hbase : ((enthalpy p u r) - 1 - (built gamma K rho).a j) / ((built gamma K rho).n j + 1) =
      aK (fun i => gamma.getD i 0) (fun i => rho.getD i 0) (K.getD 0 0) j * r ^ (gamma.getD j 0 - 1) := by
    rw [hh]; exact base_eq U j f2 r
  have hb0 := mul_pos hk (Real.rpow_pos_of_pos hr ((gamma.getD j 0) - 1))
  have r1 : rhoPwp e (built gamma K rho) (enthalpy p u r) = .ok r := by
    simp only [rhoPwp, hs, f1, Res.bind, powTerm, hbase, cpow_pos hb0]
    rw [show (built gamma K rho).K j = aK _ _ _ j from rfl, cpow_pos hk]
    exact congrArg Res.ok (pow_rho U j f2 r hr)
  have r2 : pPwp e (built gamma K rho) (enthalpy p u r) = .ok (p r) := by
    simp only [pPwp, hs, f1, Res.bind, powTerm, hbase, cpow_pos hb0]
    rw [show (built gamma K rho).K j = aK _ _ _ j from rfl, cpow_pos hk, pressure_eq U M j f2 r hrj]
    exact congrArg Res.ok (pow_p U j f2 r hr)
  have r3 : e0Pwp e (built gamma K rho) (enthalpy p u r) = .ok (u r) := by
    simp only [e0Pwp, hs, f1, Res.bind]
    rw [hh, energy_eq U M j f2 r hrj]
    exact congrArg Res.ok (e0_val U j f2 r)
  refine ⟨r1, r2, r3, ?_⟩
  simp only [ePwp, hs, r1, r3, Res.bind]

/-- every enthalpy above 1 is the one of a density -/
theorem exists_density (U : Usable N g K0 rho) (h : ℝ) (hh : 1 < h) :
    ∃ i < N, ∃ r ∈ Piece N rho i, hF g rho K0 i r = h := by
  have hi : ∃ i < N, (1 ≤ i → aH g rho K0 i ≤ h) ∧ (i + 1 < N → h ≤ aH g rho K0 (i + 1)) := by
    have : ∀ k, k < N → (1 ≤ k → aH g rho K0 k ≤ h) →
        ∃ i < N, (1 ≤ i → aH g rho K0 i ≤ h) ∧ (i + 1 < N → h ≤ aH g rho K0 (i + 1)) := by
      intro k
      induction hk : N - k generalizing k with
      | zero => intro h; omega
      | succ m ih =>
        intro h' hle
        by_cases h2 : k + 1 < N
        · rcases le_total h (aH g rho K0 (k + 1)) with hx | hx
          · exact ⟨k, h', hle, fun _ => hx⟩
          · exact ih (k + 1) (by omega) h2 (fun _ => hx)
        · exact ⟨k, h', hle, fun h3 => absurd h3 h2⟩
    exact this 0 U.pos (by omega)
  obtain ⟨i, hi, lo, hi'⟩ := hi
  have h1 := U.gm i hi
  have hg : 0 < g i := by linarith [U.gam i hi]
  have hk := aK_pos U i hi
  have hc : 0 < g i / (g i - 1) * aK g rho K0 i := by positivity
  have hx : 0 < h - 1 - aA g rho K0 i := by
    rcases Nat.eq_zero_or_pos i with rfl | h0
    · show 0 < h - 1 - 0
      linarith
    · have a1 := lo h0
      rw [aH_eq i h0] at a1
      unfold hF at a1
      have := mul_pos hc (Real.rpow_pos_of_pos (U.rho_pos i h0 hi) (g i - 1))
      linarith
  set x := (h - 1 - aA g rho K0 i) / (g i / (g i - 1) * aK g rho K0 i) with hxd
  have hx0 : 0 < x := div_pos hx hc
  have hr0 := Real.rpow_pos_of_pos hx0 (1 / (g i - 1))
  have hpow : (x ^ (1 / (g i - 1))) ^ (g i - 1) = x := by
    rw [← Real.rpow_mul hx0.le, one_div, inv_mul_cancel₀ h1.ne', Real.rpow_one]
  have hval : hF g rho K0 i (x ^ (1 / (g i - 1))) = h := by
    unfold hF
    rw [hpow, hxd, mul_div_cancel₀ _ hc.ne']
    ring
  refine ⟨i, hi, _, ⟨hr0, fun a => ?_, fun a => ?_⟩, hval⟩
  · by_contra hcon
    push Not at hcon
    have := hF_lt U i hi _ _ hr0.le hcon
    rw [hval, ← aH_eq i a] at this
    linarith [lo a]
  · by_contra hcon
    push Not at hcon
    have := hF_lt U i hi _ _ (U.rho_pos (i + 1) (by omega) a).le hcon
    rw [hval, ← hF_cont U i a, ← aH_eq (i + 1) (by omega)] at this
    linarith [hi' a]

theorem uF_common (U : Usable N g K0 rho) (i j : ℕ) (hi : i < N) (hj : j < N) (r : ℝ) (h1 : r ∈ Piece N rho i)
    (h2 : r ∈ Piece N rho j) : uF g rho K0 i r = uF g rho K0 j r ∧ aK g rho K0 i * r ^ g i = aK g rho K0 j * r ^ g j := by
  rcases le_total i j with h | h
  · exact (hF_common U i j hi hj h r h1 h2).2
  · have := (hF_common U j i hj hi h r h2 h1).2
    exact ⟨this.1.symm, this.2.symm⟩

open Classical in
/-- C58: usable parameters describe matter, so the statements about `Matter` are not empty -/
theorem C58_exists (U : Usable N g K0 rho) : ∃ p u, Matter N g K0 rho p u := by
  let ix : ℝ → ℕ := fun r => if h : 0 < r then (exists_piece U r h).choose else 0
  have hix : ∀ r, 0 < r → ix r < N ∧ r ∈ Piece N rho (ix r) := by
    intro r hr
    simp only [ix, dif_pos hr]
    exact (exists_piece U r hr).choose_spec
  have hU : ∀ i < N, ∀ r ∈ Piece N rho i, uF g rho K0 (ix r) r = uF g rho K0 i r := fun i hi r hr =>
    (uF_common U _ i (hix r hr.1).1 hi r (hix r hr.1).2 hr).1
  have hP : ∀ i < N, ∀ r ∈ Piece N rho i, aK g rho K0 (ix r) * r ^ g (ix r) = aK g rho K0 i * r ^ g i := fun i hi r hr =>
    (uF_common U _ i (hix r hr.1).1 hi r (hix r hr.1).2 hr).2
  have hd : ∀ i < N, ∀ r, 0 < r → HasDerivAt (uF g rho K0 i) (aK g rho K0 i * r ^ g i / r ^ 2) r := by
    intro i hi r hr
    have := (power_deriv (g i - 1) (U.gm i hi).ne' (aK g rho K0 i) r hr).const_add (aA g rho K0 i)
    rw [sub_add_cancel] at this
    exact this
  refine ⟨fun r => aK g rho K0 (ix r) * r ^ g (ix r), fun r => uF g rho K0 (ix r) r, ?_, ?_, ?_, ?_, ?_⟩
  · exact fun i hi => ⟨aK g rho K0 i, fun r hr => hP i hi r hr⟩
  · exact fun r hr => hP 0 U.pos r hr
  · intro i hi
    refine ContinuousOn.congr (f := uF g rho K0 i) ?_ (fun r hr => hU i hi r hr)
    exact fun r hr => (hd i hi r hr.1).continuousAt.continuousWithinAt
  · intro i hi r hr
    have hsub : Inner N rho i ⊆ Piece N rho i := fun x hx => ⟨hx.1, fun h => (hx.2.1 h).le, fun h => (hx.2.2 h).le⟩
    have hnb : ∀ᶠ x in 𝓝 r, x ∈ Inner N rho i := by
      have a1 : ∀ᶠ x in 𝓝 r, 0 < x := lt_mem_nhds hr.1
      have a2 : ∀ᶠ x in 𝓝 r, (1 ≤ i → rho i < x) := by
        by_cases h : 1 ≤ i
        · exact (lt_mem_nhds (hr.2.1 h)).mono (fun x hx _ => hx)
        · exact Eventually.of_forall (fun x h' => absurd h' h)
      have a3 : ∀ᶠ x in 𝓝 r, (i + 1 < N → x < rho (i + 1)) := by
        by_cases h : i + 1 < N
        · exact (gt_mem_nhds (hr.2.2 h)).mono (fun x hx _ => hx)
        · exact Eventually.of_forall (fun x h' => absurd h' h)
      filter_upwards [a1, a2, a3] with x h1 h2 h3 using ⟨h1, h2, h3⟩
    have h := hd i hi r hr.1
    rw [hP i hi r (hsub hr)]
    exact h.congr_of_eventuallyEq (hnb.mono fun x hx => hU i hi x (hsub hx))
  · have h1 := U.gm 0 U.pos
    have hc : ContinuousAt (uF g rho K0 0) 0 := by
      have hc : ContinuousAt (fun s : ℝ => s ^ (g 0 - 1)) 0 := Real.continuousAt_rpow_const _ _ (Or.inr h1.le)
      exact ((hc.const_mul _).div_const _).const_add _
    have h0 : uF g rho K0 0 0 = 0 := by
      unfold uF
      rw [Real.zero_rpow h1.ne', mul_zero, zero_div, add_zero]
      rfl
    have ht : Tendsto (uF g rho K0 0) (𝓝[>] 0) (𝓝 0) := by
      have := hc.tendsto.mono_left (nhdsWithin_le_nhds (s := Ioi (0 : ℝ)))
      rwa [h0] at this
    refine ht.congr' ?_
    have hev : ∀ᶠ s in 𝓝[>] (0 : ℝ), s ∈ Piece N rho 0 := by
      by_cases h : 1 < N
      · filter_upwards [Ioo_mem_nhdsGT (U.thr h)] with s hs
        exact ⟨hs.1, by omega, fun _ => hs.2.le⟩
      · filter_upwards [self_mem_nhdsWithin] with s hs
        exact ⟨hs, by omega, fun h' => absurd h' (by omega)⟩
    filter_upwards [hev] with s hs
    exact (hU 0 U.pos s hs).symm

/-- C58: every enthalpy of at least 1 + e (clear of the thresholds) is answered, with the density that has it; only one
density has it -/
theorem C58_total (gamma K rho : List ℝ) (E : Eos) (he : 0 < e) (hE : populatePwp e gamma K rho = .ok E)
    (hN : 2 ≤ gamma.length)
    (U : Usable gamma.length (fun i => gamma.getD i 0) (K.getD 0 0) (fun i => rho.getD i 0))
    (M : Matter gamma.length (fun i => gamma.getD i 0) (K.getD 0 0) (fun i => rho.getD i 0) p u)
    (h : ℝ) (h1 : 1 + e ≤ h) (hc : Clear e gamma.length (fun j => enthalpy p u (rho.getD j 0)) h) :
    ∃ r, 0 < r ∧ enthalpy p u r = h ∧ rhoPwp e E h = .ok r ∧ ∀ s, 0 < s → enthalpy p u s = h → s = r := by
  obtain ⟨i, hi, r, hr, hv⟩ := exists_density U h (by linarith)
  have hh := (enthalpy_eq U M i hi r hr).trans hv
  have hall : ∀ s, 0 < s → enthalpy p u s = h → rhoPwp e E h = .ok s := by
    rintro s hs rfl
    exact (C58_values gamma K rho E he hE hN U M s hs h1 hc).1
  have := hall r hr.1 hh
  refine ⟨r, hr.1, hh, this, fun s hs hs2 => ?_⟩
  have h2 := hall s hs hs2
  rw [this] at h2
  exact (Res.ok.inj h2).symm

/-- C58: at an enthalpy within the round-off of 1 there is no matter.  (A first threshold at exactly 1 + e would not be
recognised.) -/
theorem C58_vacuum (gamma K rho : List ℝ) (E : Eos) (he : 0 < e) (hE : populatePwp e gamma K rho = .ok E)
    (hN : 2 ≤ gamma.length)
    (U : Usable gamma.length (fun i => gamma.getD i 0) (K.getD 0 0) (fun i => rho.getD i 0))
    (M : Matter gamma.length (fun i => gamma.getD i 0) (K.getD 0 0) (fun i => rho.getD i 0) p u)
    (ht : enthalpy p u (rho.getD 1 0) ≠ 1 + e) (h : ℝ) (h1 : |h - 1| < e) :
    rhoPwp e E h = .ok 0 ∧ pPwp e E h = .ok 0 ∧ e0Pwp e E h = .ok 0 ∧ ePwp e E h = .ok 0 := by
  have hb := populate_eq gamma K rho E hE
  subst hb
  have hsn : ∀ x : ℝ, |x - 1| < e → snap e x = 1 := by
    intro x hx
    obtain ⟨a, b⟩ := abs_lt.1 hx
    unfold snap Tol.eql
    rw [if_pos]
    simp only [Bool.and_eq_true, decide_eq_true_eq]
    constructor <;> linarith
  have hs := hsn h h1
  have hs1 := hsn 1 (by simpa using he)
  have m := (left_mem U 0 (by omega)).2
  have hth : enthalpy p u (rho.getD 1 0) = (built gamma K rho).hth 1 := by
    rw [enthalpy_eq U M 1 (by omega) _ m]
    exact (aH_eq 1 le_rfl).symm
  rw [hth] at ht
  have hgt : 1 < (built gamma K rho).hth 1 := aH_one U (by omega)
  have f1 : findTh e (built gamma K rho) 1 = .ok 0 := by
    unfold findTh
    rw [if_neg (by show ¬ gamma.length < 2; omega), if_pos]
    unfold Tol.lssEql Tol.lss Tol.eql
    simp only [Bool.or_eq_true, Bool.and_eq_true, decide_eq_true_eq]
    rcases lt_or_gt_of_ne ht with hl | hl
    · right; constructor <;> linarith
    · left; linarith
  have hn := (n_val U 0 U.pos).2
  have hk := aK_pos U 0 U.pos
  have hk' : 0 < (built gamma K rho).K 0 := hk
  have hn' : 0 < (built gamma K rho).n 0 := hn
  have hz : ((1 : ℝ) - 1 - (built gamma K rho).a 0) / ((built gamma K rho).n 0 + 1) = 0 := by
    show ((1 : ℝ) - 1 - 0) / _ = 0
    simp
  have hpow : ∀ x : ℝ, 0 < x → powTerm (built gamma K rho) 0 ((built gamma K rho).a 0) 1 x = .ok 0 := by
    intro x hx
    unfold powTerm
    rw [hz, cpow_pos hk']
    have : cpow 0 x = .ok 0 := by
      unfold cpow
      rw [if_neg (by simp), if_neg (by rintro ⟨-, h⟩; linarith), Real.zero_rpow hx.ne']
    rw [this]
    simp [Res.bind]
  have r1 : rhoPwp e (built gamma K rho) h = .ok 0 := by
    simp only [rhoPwp, hs, f1, Res.bind]; exact hpow _ hn
  have r1' : rhoPwp e (built gamma K rho) 1 = .ok 0 := by
    simp only [rhoPwp, hs1, f1, Res.bind]; exact hpow _ hn
  have r3 : e0Pwp e (built gamma K rho) 1 = .ok 0 := by
    simp only [e0Pwp, hs1, f1, Res.bind]
    show Res.ok ((0 + _ * (1 - 1)) / _) = _
    simp
  refine ⟨r1, ?_, ?_, ?_⟩
  · simp only [pPwp, hs, f1, Res.bind]; exact hpow _ (by linarith)
  · simp only [e0Pwp, hs, f1, Res.bind]
    show Res.ok ((0 + _ * (1 - 1)) / _) = _
    simp
  · simp only [ePwp, hs, r1', r3, Res.bind]
    simp

theorem bind_ok {α β : Type} {x : Res α} {f : α → Res β} {b : β} (h : x.bind f = .ok b) : ∃ a, x = .ok a ∧ f a = .ok b := by
  cases x with
  | ok a => exact ⟨a, rfl, h⟩
  | abort => exact absurd h (by simp [Res.bind])
  | ub => exact absurd h (by simp [Res.bind])

/-- C58: energy density plus pressure is density times enthalpy (1 when the program sets the enthalpy to 1), whenever the
three calls return -/
theorem C58_first_law (gamma K rho : List ℝ) (E : Eos) (hE : populatePwp e gamma K rho = .ok E)
    (hg : ∀ i < gamma.length, 1 < gamma.getD i 0) (h R P W : ℝ) (h1 : rhoPwp e E h = .ok R) (h2 : pPwp e E h = .ok P)
    (h3 : ePwp e E h = .ok W) : W + P = R * snap e h := by
  have hb := populate_eq gamma K rho E hE
  subst hb
  have hss : snap e (snap e h) = snap e h := by
    unfold snap
    split_ifs <;> simp_all
  have r' : rhoPwp e (built gamma K rho) (snap e h) = .ok R := by
    rw [← h1]; simp only [rhoPwp, hss]
  simp only [ePwp, e0Pwp, hss, r'] at h3
  unfold rhoPwp at h1
  unfold pPwp at h2
  simp only at h1 h2
  generalize snap e h = x at *
  cases hf : findTh e (built gamma K rho) x with
  | abort => simp [hf, Res.bind] at h1
  | ub => simp [hf, Res.bind] at h1
  | ok i =>
    have hiN : i < gamma.length := by
      have hl : ∀ k j, findLoop e (built gamma K rho) x k j = .ok i → i < j + k := by
        intro k
        induction k with
        | zero => intro j hj; simp [findLoop] at hj
        | succ k ih =>
          intro j hj
          unfold findLoop at hj
          split_ifs at hj
          · rw [← Res.ok.inj hj]; omega
          · have := ih _ hj; omega
      unfold findTh at hf
      have hNN : (built gamma K rho).N = gamma.length := rfl
      split_ifs at hf with c1 c2 c3
      · rw [← Res.ok.inj hf]; omega
      · rw [← Res.ok.inj hf]; omega
      · have := hl _ _ hf; omega
    have hn : 0 < (built gamma K rho).n i := by
      show 0 < (1 : ℝ) / (gamma.getD i 0 - 1)
      have := hg i hiN
      have : 0 < gamma.getD i 0 - 1 := by linarith
      positivity
    generalize built gamma K rho = E at *
    rw [hf] at h1 h2 h3
    simp only [Res.bind] at h1 h2 h3
    unfold powTerm at h1 h2
    have hcp : ∀ {b x v : ℝ}, cpow b x = .ok v → v = b ^ x := by
      intro b x v hv
      unfold cpow at hv
      split_ifs at hv
      exact (Res.ok.inj hv).symm
    obtain ⟨u1, hu1, h1⟩ := bind_ok h1
    obtain ⟨v1, hv1, h1⟩ := bind_ok h1
    obtain ⟨u2, hu2, h2⟩ := bind_ok h2
    obtain ⟨v2, hv2, h2⟩ := bind_ok h2
    have hv : v2 = v1 := by rw [hv1] at hv2; exact (Res.ok.inj hv2).symm
    have hbp : u2 = u1 * ((x - 1 - E.a i) / (E.n i + 1)) := by
      rw [hcp hu1, hcp hu2]
      by_cases hb : (x - 1 - E.a i) / (E.n i + 1) = 0
      · rw [hb, Real.zero_rpow (by linarith), Real.zero_rpow hn.ne']; simp
      · exact Real.rpow_add_one hb _
    rw [← Res.ok.inj h1] at h3 ⊢
    rw [← Res.ok.inj h2, ← Res.ok.inj h3, hv, hbp]
    have : E.n i + 1 ≠ 0 := by linarith
    field_simp
    ring

/-! ### derivatives -/

theorem powTerm_near (E : Eos) (i : ℕ) (a h0 : ℝ) (hK : 0 < E.K i) (hb : 0 < (h0 - 1 - a) / (E.n i + 1)) (x : ℝ) :
    ∀ᶠ h in 𝓝 h0, powTerm E i a h x = .ok (((h - 1 - a) / (E.n i + 1)) ^ x * E.K i ^ (-E.n i)) := by
  have hc : ContinuousAt (fun h : ℝ => (h - 1 - a) / (E.n i + 1)) h0 := by fun_prop
  have : ∀ᶠ h in 𝓝 h0, 0 < (h - 1 - a) / (E.n i + 1) := hc.eventually (lt_mem_nhds hb)
  filter_upwards [this] with h hh
  unfold powTerm
  rw [cpow_pos hh, cpow_pos hK]
  rfl

theorem powTerm_deriv (E : Eos) (i : ℕ) (a h0 x : ℝ) (hb : 0 < (h0 - 1 - a) / (E.n i + 1)) :
    HasDerivAt (fun h : ℝ => ((h - 1 - a) / (E.n i + 1)) ^ x * E.K i ^ (-E.n i))
      (((h0 - 1 - a) / (E.n i + 1)) ^ (x - 1) * E.K i ^ (-E.n i) * x / (E.n i + 1)) h0 := by
  have h1 : HasDerivAt (fun h : ℝ => (h - 1 - a) / (E.n i + 1)) (1 / (E.n i + 1)) h0 :=
    (((hasDerivAt_id h0).sub_const 1).sub_const a).div_const _
  have h2 := (h1.rpow_const (p := x) (Or.inl hb.ne')).mul_const (E.K i ^ (-E.n i))
  have e : ((h0 - 1 - a) / (E.n i + 1)) ^ (x - 1) * E.K i ^ (-E.n i) * x / (E.n i + 1) =
      1 / (E.n i + 1) * x * ((h0 - 1 - a) / (E.n i + 1)) ^ (x - 1) * E.K i ^ (-E.n i) := by ring
  rw [e]
  exact h2

theorem snap_near (h0 : ℝ) (hh : 1 + e < h0) : ∀ᶠ h in 𝓝 h0, snap e h = h := by
  filter_upwards [lt_mem_nhds hh] with h hx using snap_far h hx.le

theorem lssEql_near {h0 y : ℝ} (h : e < |h0 - y|) (he : 0 < e) : ∀ᶠ x in 𝓝 h0, Tol.lssEql e x y = Tol.lssEql e h0 y ∧
    Tol.grtEql e x y = Tol.grtEql e h0 y := by
  have hc : ContinuousAt (fun x : ℝ => |x - y|) h0 := by fun_prop
  have h1 : ∀ᶠ x in 𝓝 h0, e < |x - y| := hc.eventually (lt_mem_nhds h)
  have h2 : ∀ᶠ x in 𝓝 h0, (x < y ↔ h0 < y) := by
    rcases lt_or_gt_of_ne (show h0 ≠ y from fun hh => by simp [hh] at h; linarith) with hh | hh
    · filter_upwards [gt_mem_nhds hh] with x hx using ⟨fun _ => hh, fun _ => hx⟩
    · filter_upwards [lt_mem_nhds hh] with x hx
      exact ⟨fun h' => absurd h' (not_lt.2 (le_of_lt hx)), fun h' => absurd h' (not_lt.2 (le_of_lt hh))⟩
  filter_upwards [h1, h2] with x hx hx2
  rw [lssEql_clear he (Or.inr hx), lssEql_clear he (Or.inr h), grtEql_clear he (Or.inr hx), grtEql_clear he (Or.inr h)]
  have n1 : x ≠ y := fun hh => by simp [hh] at hx; linarith
  have n2 : h0 ≠ y := fun hh => by simp [hh] at h; linarith
  constructor
  · rw [decide_eq_decide]
    exact ⟨fun a => (hx2.1 (lt_of_le_of_ne a n1)).le, fun a => (hx2.2 (lt_of_le_of_ne a n2)).le⟩
  · rw [decide_eq_decide, ← not_lt, ← not_lt, hx2]

theorem findTh_near (E : Eos) (he : 0 < e) (h0 : ℝ) (hc : ∀ j, 1 ≤ j → j < E.N → e < |h0 - E.hth j|) :
    ∀ᶠ x in 𝓝 h0, findTh e E x = findTh e E h0 := by
  have : ∀ᶠ x in 𝓝 h0, ∀ j : Fin E.N, 1 ≤ j.val → Tol.lssEql e x (E.hth j) = Tol.lssEql e h0 (E.hth j) ∧
      Tol.grtEql e x (E.hth j) = Tol.grtEql e h0 (E.hth j) := by
    rw [eventually_all]
    intro j
    by_cases h : 1 ≤ j.val
    · exact (lssEql_near (hc j h j.2) he).mono (fun x hx _ => hx)
    · exact Eventually.of_forall (fun x h' => absurd h' h)
  filter_upwards [this] with x hx
  by_cases hN : E.N < 2
  · simp only [findTh, if_pos hN]
  · have hl : ∀ k i, 1 ≤ i → i + k < E.N → findLoop e E x k i = findLoop e E h0 k i := by
      intro k
      induction k with
      | zero => intros; rfl
      | succ k ih =>
        intro i hi hk
        unfold findLoop
        rw [(hx ⟨i, by omega⟩ hi).2, (hx ⟨i + 1, by omega⟩ (by simp)).1, ih (i + 1) (by omega) (by omega)]
    unfold findTh
    rw [(hx ⟨1, by omega⟩ le_rfl).1, (hx ⟨E.N - 1, by omega⟩ (by show 1 ≤ E.N - 1; omega)).2, hl _ _ le_rfl (by omega)]

/-- C58: away from the thresholds the two derivative functions return the derivatives of density and energy density with
respect to the enthalpy, and the derivative of the pressure is the density -/
theorem C58_derivatives (gamma K rho : List ℝ) (E : Eos) (he : 0 < e) (hE : populatePwp e gamma K rho = .ok E)
    (hN : 2 ≤ gamma.length)
    (U : Usable gamma.length (fun i => gamma.getD i 0) (K.getD 0 0) (fun i => rho.getD i 0))
    (M : Matter gamma.length (fun i => gamma.getD i 0) (K.getD 0 0) (fun i => rho.getD i 0) p u)
    (h0 : ℝ) (h1 : 1 + e < h0) (hc : ∀ j, 1 ≤ j → j < gamma.length → e < |h0 - enthalpy p u (rho.getD j 0)|) :
    ∃ (R P W : ℝ → ℝ) (d w : ℝ), (∀ᶠ h in 𝓝 h0, rhoPwp e E h = .ok (R h) ∧ pPwp e E h = .ok (P h) ∧
        ePwp e E h = .ok (W h)) ∧ drhoPwp e E h0 = .ok d ∧ dePwp e E h0 = .ok w ∧
      HasDerivAt R d h0 ∧ HasDerivAt W w h0 ∧ HasDerivAt P (R h0) h0 := by
  have hb := populate_eq gamma K rho E hE
  have hth : ∀ j, 1 ≤ j → j < gamma.length → enthalpy p u (rho.getD j 0) = E.hth j := by
    intro j j1 j2
    have m := (left_mem U (j - 1) (by omega)).2
    rw [Nat.sub_add_cancel j1] at m
    rw [enthalpy_eq U M j j2 _ m, hb]
    exact (aH_eq j j1).symm
  have hNN : E.N = gamma.length := by rw [hb]; rfl
  have hcl : ∀ j, 1 ≤ j → j < E.N → e < |h0 - E.hth j| := by
    intro j a b
    rw [hNN] at b
    rw [← hth j a b]; exact hc j a b
  obtain ⟨j, f1, f2, f3, f4⟩ := findTh_spec he E (by omega) h0 (fun j a b => Or.inr (hcl j a b))
  -- the base is positive
  have hn : 0 < E.n j := by rw [hb]; exact (n_val U j (by omega)).2
  have hK : 0 < E.K j := by rw [hb]; exact aK_pos U j (by omega)
  have hbase : 0 < (h0 - 1 - E.a j) / (E.n j + 1) := by
    apply div_pos _ (by linarith)
    rcases Nat.eq_zero_or_pos j with rfl | hj
    · have : E.a 0 = 0 := by rw [hb]; rfl
      rw [this]; linarith
    · have a1 := f3 hj
      have : E.hth j = 1 + E.a j + ((gamma.getD j 0) / (gamma.getD j 0 - 1)) * E.K j * (rho.getD j 0) ^ (gamma.getD j 0 - 1) := by
        rw [hb]; exact aH_eq j hj
      rw [this] at a1
      have g1 := U.gm j (by omega)
      have g2 : 0 < gamma.getD j 0 := by have := U.gam j (by omega); linarith
      have g3 := Real.rpow_pos_of_pos (U.rho_pos j hj (by omega)) (gamma.getD j 0 - 1)
      have : 0 < gamma.getD j 0 / (gamma.getD j 0 - 1) * E.K j * (rho.getD j 0) ^ (gamma.getD j 0 - 1) :=
        mul_pos (mul_pos (div_pos g2 g1) hK) g3
      linarith
  have hfind := findTh_near E he h0 hcl
  have hsn := snap_near h0 h1
  have p1 := powTerm_near E j (E.a j) h0 hK hbase (E.n j)
  have p2 := powTerm_near E j (E.a j) h0 hK hbase (E.n j + 1)
  have p3 := (powTerm_near E j (E.a j) h0 hK hbase (E.n j - 1)).self_of_nhds
  have d1 := powTerm_deriv E j (E.a j) h0 (E.n j) hbase
  have d2 := powTerm_deriv E j (E.a j) h0 (E.n j + 1) hbase
  have hs0 := hsn.self_of_nhds
  have hR : ∀ᶠ h in 𝓝 h0, rhoPwp e E h = .ok (((h - 1 - E.a j) / (E.n j + 1)) ^ E.n j * E.K j ^ (-E.n j)) := by
    filter_upwards [hfind, hsn, p1] with h a1 a2 a3
    simp only [rhoPwp, a2, a1, f1, Res.bind, a3]
  have hd : drhoPwp e E h0 = .ok (((h0 - 1 - E.a j) / (E.n j + 1)) ^ (E.n j - 1) * E.K j ^ (-E.n j) * E.n j / (E.n j + 1)) := by
    simp only [drhoPwp, hs0, f1, Res.bind, p3]
  refine ⟨fun h => ((h - 1 - E.a j) / (E.n j + 1)) ^ E.n j * E.K j ^ (-E.n j),
    fun h => ((h - 1 - E.a j) / (E.n j + 1)) ^ (E.n j + 1) * E.K j ^ (-E.n j),
    fun h => (((h - 1 - E.a j) / (E.n j + 1)) ^ E.n j * E.K j ^ (-E.n j)) * (1 + (E.a j + E.n j * (h - 1)) / (E.n j + 1)),
    ((h0 - 1 - E.a j) / (E.n j + 1)) ^ (E.n j - 1) * E.K j ^ (-E.n j) * E.n j / (E.n j + 1),
    (((h0 - 1 - E.a j) / (E.n j + 1)) ^ (E.n j - 1) * E.K j ^ (-E.n j) * E.n j / (E.n j + 1)) *
      (1 + (E.a j + E.n j * (h0 - 1)) / (E.n j + 1)) +
      (((h0 - 1 - E.a j) / (E.n j + 1)) ^ E.n j * E.K j ^ (-E.n j)) * E.n j / (E.n j + 1), ?_, hd, ?_, d1, ?_, ?_⟩
  · filter_upwards [hfind, hsn, hR, p2] with h a1 a2 a3 a4
    refine ⟨a3, ?_, ?_⟩
    · simp only [pPwp, a2, a1, f1, Res.bind, a4]
    · simp only [ePwp, e0Pwp, a2, a1, f1, a3, Res.bind]
  · simp only [dePwp, hs0, f1, Res.bind, hd, hR.self_of_nhds]
  · have d3 : HasDerivAt (fun h : ℝ => 1 + (E.a j + E.n j * (h - 1)) / (E.n j + 1)) (E.n j * 1 / (E.n j + 1)) h0 :=
      (((((hasDerivAt_id h0).sub_const 1).const_mul (E.n j)).const_add (E.a j)).div_const _).const_add 1
    have := d1.mul d3
    rw [mul_one, ← mul_div_assoc] at this
    exact this
  · have hne : E.n j + 1 ≠ 0 := by linarith
    rw [add_sub_cancel_right, mul_div_assoc, div_self hne, mul_one] at d2
    exact d2

/-! ### a single polytrope -/

theorem populateP_eq (gamma K : List ℝ) (E : Eos) (h : populateP e gamma K = .ok E) : gamma.length = 1 ∧
    E = ⟨1, fun i => gamma.getD i 0, fillN (fun i => gamma.getD i 0), fun _ => K.getD 0 0, fun _ => 0, fun _ => 0, fun _ => 0⟩ := by
  unfold populateP at h
  simp only at h
  split_ifs at h with h1
  exact ⟨by omega, (Res.ok.inj h).symm⟩

/-- C58: a polytrope: the values at enthalpy 1 + e or more -/
theorem C58_polytrope (gamma K : List ℝ) (E : Eos) (hE : populateP e gamma K = .ok E) (rho : ℕ → ℝ)
    (U : Usable 1 (fun i => gamma.getD i 0) (K.getD 0 0) rho) (M : Matter 1 (fun i => gamma.getD i 0) (K.getD 0 0) rho p u)
    (r : ℝ) (hr : 0 < r) (h1 : 1 + e ≤ enthalpy p u r) :
    rhoP e E (enthalpy p u r) = .ok r ∧ pP e E (enthalpy p u r) = .ok (p r) ∧
      e0P e E (enthalpy p u r) = u r ∧ eP e E (enthalpy p u r) = .ok (r * (1 + u r)) := by
  obtain ⟨-, rfl⟩ := populateP_eq gamma K E hE
  have hri : r ∈ Piece 1 rho 0 := ⟨hr, by omega, by omega⟩
  have hh := enthalpy_eq U M 0 (by omega) r hri
  have hs := snap_far _ h1
  have hk := aK_pos U 0 (by omega)
  have hbase : (enthalpy p u r - 1 - 0) / (fillN (fun i => gamma.getD i 0) 0 + 1) =
      aK (fun i => gamma.getD i 0) rho (K.getD 0 0) 0 * r ^ (gamma.getD 0 0 - 1) := by
    rw [hh]; exact base_eq U 0 (by omega) r
  have hb0 := mul_pos hk (Real.rpow_pos_of_pos hr ((gamma.getD 0 0) - 1))
  have hk' : 0 < K.getD 0 0 := hk
  have r1 : rhoP e ⟨1, fun i => gamma.getD i 0, fillN (fun i => gamma.getD i 0), fun _ => K.getD 0 0, fun _ => 0,
      fun _ => 0, fun _ => 0⟩ (enthalpy p u r) = .ok r := by
    simp only [rhoP, hs, powTerm, hbase, cpow_pos hb0, cpow_pos hk', Res.bind]
    exact congrArg Res.ok (pow_rho U 0 (by omega) r hr)
  refine ⟨r1, ?_, ?_, ?_⟩
  · simp only [pP, hs, powTerm, hbase, cpow_pos hb0, cpow_pos hk', Res.bind]
    rw [pressure_eq U M 0 (by omega) r hri]
    exact congrArg Res.ok (pow_p U 0 (by omega) r hr)
  · simp only [e0P, hs]
    have := e0_val U 0 (by omega) r
    rw [energy_eq U M 0 (by omega) r hri, ← this, ← hh]
    show _ = (0 + _) / _
    rw [zero_add]
  · simp only [eP, hs, r1, Res.bind]
    have := e0_val U 0 (by omega) r
    simp only [e0P, hs]
    rw [energy_eq U M 0 (by omega) r hri, ← this, ← hh]
    show _ = Res.ok (r * (1 + (0 + _) / _))
    rw [zero_add]

/-- C58: ... and the derivatives -/
theorem C58_polytrope_derivatives (gamma K : List ℝ) (E : Eos) (he : 0 < e) (hE : populateP e gamma K = .ok E)
    (hg : 1 < gamma.getD 0 0) (hK : 0 < K.getD 0 0) (h0 : ℝ) (h1 : 1 + e < h0) :
    ∃ (R P W : ℝ → ℝ) (d w : ℝ), (∀ᶠ h in 𝓝 h0, rhoP e E h = .ok (R h) ∧ pP e E h = .ok (P h) ∧
        eP e E h = .ok (W h)) ∧ drhoP e E h0 = .ok d ∧ deP e E h0 = .ok w ∧
      HasDerivAt R d h0 ∧ HasDerivAt W w h0 ∧ HasDerivAt P (R h0) h0 := by
  obtain ⟨-, hb⟩ := populateP_eq gamma K E hE
  have hn : 0 < E.n 0 := by
    rw [hb]
    show 0 < (1 : ℝ) / (gamma.getD 0 0 - 1)
    have : 0 < gamma.getD 0 0 - 1 := by linarith
    positivity
  have hK : 0 < E.K 0 := by rw [hb]; exact hK
  have hbase : 0 < (h0 - 1 - 0) / (E.n 0 + 1) := div_pos (by linarith) (by linarith)
  have hsn := snap_near h0 h1
  have p1 := powTerm_near E 0 0 h0 hK hbase (E.n 0)
  have p2 := powTerm_near E 0 0 h0 hK hbase (E.n 0 + 1)
  have p3 := (powTerm_near E 0 0 h0 hK hbase (E.n 0 - 1)).self_of_nhds
  have d1 := powTerm_deriv E 0 0 h0 (E.n 0) hbase
  have d2 := powTerm_deriv E 0 0 h0 (E.n 0 + 1) hbase
  have hs0 := hsn.self_of_nhds
  have hR : ∀ᶠ h in 𝓝 h0, rhoP e E h = .ok (((h - 1 - 0) / (E.n 0 + 1)) ^ E.n 0 * E.K 0 ^ (-E.n 0)) := by
    filter_upwards [hsn, p1] with h a2 a3
    simp only [rhoP, a2, a3]
  have hd : drhoP e E h0 = .ok (((h0 - 1 - 0) / (E.n 0 + 1)) ^ (E.n 0 - 1) * E.K 0 ^ (-E.n 0) * E.n 0 / (E.n 0 + 1)) := by
    simp only [drhoP, hs0, Res.bind, p3]
  refine ⟨fun h => ((h - 1 - 0) / (E.n 0 + 1)) ^ E.n 0 * E.K 0 ^ (-E.n 0),
    fun h => ((h - 1 - 0) / (E.n 0 + 1)) ^ (E.n 0 + 1) * E.K 0 ^ (-E.n 0),
    fun h => (((h - 1 - 0) / (E.n 0 + 1)) ^ E.n 0 * E.K 0 ^ (-E.n 0)) * (1 + (E.n 0 * (h - 1)) / (E.n 0 + 1)),
    ((h0 - 1 - 0) / (E.n 0 + 1)) ^ (E.n 0 - 1) * E.K 0 ^ (-E.n 0) * E.n 0 / (E.n 0 + 1),
    (((h0 - 1 - 0) / (E.n 0 + 1)) ^ (E.n 0 - 1) * E.K 0 ^ (-E.n 0) * E.n 0 / (E.n 0 + 1)) *
      (1 + (E.n 0 * (h0 - 1)) / (E.n 0 + 1)) +
      (((h0 - 1 - 0) / (E.n 0 + 1)) ^ E.n 0 * E.K 0 ^ (-E.n 0)) * E.n 0 / (E.n 0 + 1), ?_, hd, ?_, d1, ?_, ?_⟩
  · filter_upwards [hsn, hR, p2] with h a2 a3 a4
    refine ⟨a3, ?_, ?_⟩
    · simp only [pP, a2, a4]
    · simp only [eP, e0P, a2, a3, Res.bind]
  · simp only [deP, hs0, Res.bind, hd, hR.self_of_nhds]
  · have d3 : HasDerivAt (fun h : ℝ => 1 + (E.n 0 * (h - 1)) / (E.n 0 + 1)) (E.n 0 * 1 / (E.n 0 + 1)) h0 :=
      ((((hasDerivAt_id h0).sub_const 1).const_mul (E.n 0)).div_const _).const_add 1
    have := d1.mul d3
    rw [mul_one, ← mul_div_assoc] at this
    exact this
  · have hne : E.n 0 + 1 ≠ 0 := by linarith
    rw [add_sub_cancel_right, mul_div_assoc, div_self hne, mul_one] at d2
    exact d2

/-! ### a case -/

/-- two pieces, p = r² up to density 1, then p = r³ -/
theorem demoU : Usable ([2, 3] : List ℝ).length (fun i => ([2, 3] : List ℝ).getD i 0) (([1] : List ℝ).getD 0 0)
    (fun i => ([0, 1] : List ℝ).getD i 0) where
  pos := by simp
  gam := by
    intro i hi
    have : i = 0 ∨ i = 1 := by simp at hi; omega
    rcases this with rfl | rfl <;> norm_num [List.getD]
  kap := by norm_num [List.getD]
  thr := by norm_num [List.getD]
  inc := by intro i h1 h2; simp at h2; omega

theorem demo_ok (he : 0 < e) (he1 : e ≤ 1) : populatePwp e [2, 3] [1] [0, 1] = .ok (built [2, 3] [1] [0, 1]) := by
  refine C58_accepts _ _ _ he demoU ?_ (by simp) (by simp)
  intro i hi
  have : i = 0 ∨ i = 1 := by simp at hi; omega
  rcases this with rfl | rfl <;> norm_num [List.getD] <;> linarith

theorem demo_aA : aA (fun i => ([2, 3] : List ℝ).getD i 0) (fun i => ([0, 1] : List ℝ).getD i 0) (([1] : List ℝ).getD 0 0) 1 = 1 / 2 := by
  norm_num [aA, fillA, fillK, List.getD]

theorem demo_aK : aK (fun i => ([2, 3] : List ℝ).getD i 0) (fun i => ([0, 1] : List ℝ).getD i 0) (([1] : List ℝ).getD 0 0) 1 = 1 := by
  norm_num [aK, fillK, List.getD]

theorem demo_h (r : ℝ) : hF (fun i => ([2, 3] : List ℝ).getD i 0) (fun i => ([0, 1] : List ℝ).getD i 0)
    (([1] : List ℝ).getD 0 0) 1 r = 3 / 2 + 3 / 2 * r ^ 2 := by
  unfold hF
  rw [demo_aA, demo_aK]
  have : (([2, 3] : List ℝ).getD 1 0) = 3 := by simp [List.getD]
  simp only [this]
  rw [show (3 : ℝ) - 1 = ((2 : ℕ) : ℝ) by norm_num, Real.rpow_natCast]
  norm_num

/-- the hypotheses of C58_values, C58_total and C58_derivatives hold at density 2, whose enthalpy is 15/2 -/
theorem demo_case (he : 0 < e) (he1 : e ≤ 1) : ∃ p u, Matter ([2, 3] : List ℝ).length (fun i => ([2, 3] : List ℝ).getD i 0)
      (([1] : List ℝ).getD 0 0) (fun i => ([0, 1] : List ℝ).getD i 0) p u ∧ enthalpy p u 2 = 15 / 2 ∧
      enthalpy p u (([0, 1] : List ℝ).getD 1 0) = 3 ∧
      ∀ j, 1 ≤ j → j < ([2, 3] : List ℝ).length → e < |(15 / 2 : ℝ) - enthalpy p u (([0, 1] : List ℝ).getD j 0)| := by
  obtain ⟨p, u, M⟩ := C58_exists demoU
  have h2 : (2 : ℝ) ∈ Piece ([2, 3] : List ℝ).length (fun i => ([0, 1] : List ℝ).getD i 0) 1 :=
    ⟨by norm_num, by norm_num [List.getD], by simp⟩
  have h1 := (left_mem demoU 0 (by simp)).2
  have e2 := enthalpy_eq demoU M 1 (by simp) _ h2
  have e1 := enthalpy_eq demoU M 1 (by simp) _ h1
  rw [demo_h] at e1 e2
  have e1' : enthalpy p u (([0, 1] : List ℝ).getD 1 0) = 3 := by rw [e1]; norm_num [List.getD]
  refine ⟨p, u, M, by rw [e2]; norm_num, e1', ?_⟩
  intro j j1 j2
  have : j = 1 := by simp at j2; omega
  subst this
  rw [e1']
  norm_num
  linarith

example : rhoPwp (1 / 1000) (built [2, 3] [1] [0, 1]) (15 / 2) = .ok 2 := by
  obtain ⟨p, u, M, h1, h2, h3⟩ := demo_case (e := 1 / 1000) (by norm_num) (by norm_num)
  have := (C58_values _ _ _ _ (by norm_num) (demo_ok (e := 1 / 1000) (by norm_num) (by norm_num)) (by simp) demoU M 2 (by norm_num)
    (by rw [h1]; norm_num) (by rw [h1]; exact fun j a b => Or.inr (h3 j a b))).1
  rwa [h1] at this

example : ∃ d, drhoPwp (1 / 1000) (built [2, 3] [1] [0, 1]) (15 / 2) = .ok d := by
  obtain ⟨p, u, M, h1, h2, h3⟩ := demo_case (e := 1 / 1000) (by norm_num) (by norm_num)
  obtain ⟨R, P, W, d, w, -, hd, -⟩ := C58_derivatives _ _ _ _ (by norm_num)
    (demo_ok (e := 1 / 1000) (by norm_num) (by norm_num)) (by simp) demoU M (15 / 2) (by norm_num) h3
  exact ⟨d, hd⟩

example : pPwp (1 / 1000) (built [2, 3] [1] [0, 1]) (1 + 1 / 2000) = .ok 0 := by
  obtain ⟨p, u, M, h1, h2, h3⟩ := demo_case (e := 1 / 1000) (by norm_num) (by norm_num)
  exact (C58_vacuum _ _ _ _ (by norm_num) (demo_ok (e := 1 / 1000) (by norm_num) (by norm_num)) (by simp) demoU M
    (by rw [h2]; norm_num) (1 + 1 / 2000) (by rw [abs_of_pos] <;> norm_num)).2.1

theorem demoP_ok (he1 : e ≤ 1) : populateP e [2] [1] =
    .ok ⟨1, fun i => ([2] : List ℝ).getD i 0, fillN (fun i => ([2] : List ℝ).getD i 0), fun _ => ([1] : List ℝ).getD 0 0,
      fun _ => 0, fun _ => 0, fun _ => 0⟩ := by
  unfold populateP
  simp only
  rw [if_neg (by simp), if_neg]
  simp only [Tol.eql, Bool.and_eq_true, decide_eq_true_eq, List.getD]
  norm_num
  intro h; linarith

theorem demoUP : Usable 1 (fun i => ([2] : List ℝ).getD i 0) (([1] : List ℝ).getD 0 0) (fun _ => 0) where
  pos := by simp
  gam := by intro i hi; obtain rfl : i = 0 := by omega
            norm_num [List.getD]
  kap := by norm_num [List.getD]
  thr := by omega
  inc := by intro i h1 h2; omega

/-- p = r²: density 3 has enthalpy 7 -/
example : ∃ E, populateP (1 / 1000) [2] [1] = .ok E ∧ rhoP (1 / 1000) E 7 = .ok 3 := by
  obtain ⟨p, u, M⟩ := C58_exists demoUP
  have h3 := enthalpy_eq demoUP M 0 (by simp) 3 ⟨by norm_num, by omega, by omega⟩
  have : enthalpy p u 3 = 7 := by
    rw [h3]
    unfold hF aA aK fillA fillK
    have : (([2] : List ℝ).getD 0 0) = 2 := by simp [List.getD]
    simp only [this]
    rw [show (2 : ℝ) - 1 = 1 by norm_num, Real.rpow_one]
    norm_num [List.getD]
  refine ⟨_, demoP_ok (by norm_num), ?_⟩
  have h := (C58_polytrope _ _ _ (demoP_ok (e := 1 / 1000) (by norm_num)) _ demoUP M 3 (by norm_num) (by rw [this]; norm_num)).1
  rwa [this] at h

/-! ### what the program does not do -/

/-- C58, violation: the last threshold is not compared with the one before it: [0,5,1] is accepted as increasing -/
theorem C58_order_violation (he : 0 < e) (he1 : e ≤ 1) : ∃ E, populatePwp e [2, 3, 2] [1] [0, 5, 1] = .ok E ∧
    E.rho 2 < E.rho 1 := by
  refine ⟨built [2, 3, 2] [1] [0, 5, 1], ?_, by norm_num [built, List.getD]⟩
  unfold populatePwp
  simp only
  rw [if_neg (by simp), if_neg, if_neg, if_neg (by simp), if_neg]
  · rfl
  · norm_num [List.range, List.range.loop, List.getD]
  · norm_num [List.range, List.range.loop, List.getD, Tol.eql]
    refine ⟨fun h => by linarith, fun h => by linarith, fun h => by linarith⟩
  · norm_num [List.range, List.range.loop, List.getD, Tol.grt]
    linarith

/-- C58, violation: a list of thresholds shorter than the list of exponents is not refused, the program reads past it -/
theorem C58_short_violation (he : 0 < e) (he1 : e ≤ 1) : populatePwp e [2, 3] [1] [1] = .ub := by
  unfold populatePwp
  simp only
  rw [if_neg (by simp), if_neg, if_neg, if_pos (by simp)]
  · norm_num [List.range, List.range.loop, List.getD, Tol.eql]
    refine ⟨fun h => by linarith, fun h => by linarith⟩
  · norm_num [List.range, List.range.loop, List.getD, Tol.grt]

/-- C58, violation: one piece is accepted, and every evaluation then reads the threshold 1 that does not exist -/
theorem C58_one_piece_violation (he1 : e ≤ 1) (h : ℝ) : ∃ E, populatePwp e [2] [1] [0] = .ok E ∧ rhoPwp e E h = .ub := by
  refine ⟨built [2] [1] [0], ?_, ?_⟩
  · unfold populatePwp
    simp only
    rw [if_neg (by simp), if_neg, if_neg, if_neg (by simp), if_neg]
    · rfl
    · norm_num [List.range, List.range.loop, List.getD]
    · norm_num [List.range, List.range.loop, List.getD, Tol.eql]
      intro h; linarith
    · norm_num [List.range, List.range.loop, List.getD, Tol.grt]
  · unfold rhoPwp findTh
    simp [built, Res.bind]

/-- C58, violation: an enthalpy below 1 is not refused; p = r² at h = 0 gives a negative density -/
theorem C58_below_one_violation (he : 0 < e) (he1 : e ≤ 1) : ∃ E, populateP e [2] [1] = .ok E ∧
    rhoP e E 0 = .ok (-1 / 2) ∧ pP e E 0 = .ok (1 / 4) := by
  refine ⟨_, demoP_ok he1, ?_⟩
  have hs : snap e 0 = 0 := by
    unfold snap Tol.eql
    rw [if_neg]
    simp only [Bool.and_eq_true, decide_eq_true_eq]
    rintro ⟨-, h⟩
    linarith
  have hn : fillN (fun i => ([2] : List ℝ).getD i 0) 0 = 1 := by norm_num [fillN, List.getD]
  have c1 : cpow (((0 : ℝ) - 1 - 0) / (1 + 1)) 1 = .ok (-1 / 2) := by
    unfold cpow
    rw [if_neg (by rintro ⟨-, h⟩; exact h ⟨1, by norm_num⟩), if_neg (by norm_num), Real.rpow_one]
    norm_num
  have c2 : cpow (((0 : ℝ) - 1 - 0) / (1 + 1)) (1 + 1) = .ok (1 / 4) := by
    unfold cpow
    rw [if_neg (by rintro ⟨-, h⟩; exact h ⟨2, by norm_num⟩), if_neg (by norm_num),
      show (1 : ℝ) + 1 = ((2 : ℕ) : ℝ) by norm_num, Real.rpow_natCast]
    norm_num
  have c3 : cpow (([1] : List ℝ).getD 0 0) (-1) = .ok 1 := by
    have : ([1] : List ℝ).getD 0 0 = 1 := by simp [List.getD]
    rw [this, cpow_pos (by norm_num), Real.one_rpow]
  constructor
  · simp only [rhoP, powTerm, hs, hn, c1, c3, Res.bind, mul_one]
  · simp only [pP, powTerm, hs, hn, c2, c3, Res.bind, mul_one]

/-- C58, violation: an enthalpy that exceeds the threshold by exactly the round-off belongs to no piece; the program ends -/
theorem C58_hole_violation (he : 0 < e) (he1 : e ≤ 1) : ∃ E, populatePwp e [2, 3] [1] [0, 1] = .ok E ∧
    rhoPwp e E (3 + e) = .abort := by
  refine ⟨_, demo_ok he he1, ?_⟩
  have hth : (built [2, 3] [1] [0, 1]).hth 1 = 3 := by
    show aH _ _ _ 1 = 3
    rw [aH_eq 1 le_rfl, demo_h]
    norm_num [List.getD]
  have hs := snap_far (e := e) (3 + e) (by linarith)
  have : findTh e (built [2, 3] [1] [0, 1]) (3 + e) = .abort := by
    have hN : (built [2, 3] [1] [0, 1]).N = 2 := rfl
    unfold findTh
    rw [hN, if_neg (by omega), hth]
    have a1 : Tol.lssEql e (3 + e) 3 = false := by
      simp [Tol.lssEql, Tol.lss, Tol.eql]; linarith
    have a2 : Tol.grtEql e (3 + e) 3 = false := by
      simp [Tol.grtEql, Tol.grt, Tol.eql]
    rw [a1, a2]
    rfl
  simp only [rhoPwp, hs, this, Res.bind]

/-- C58, violation: a list of 400 characters or more overruns a buffer -/
theorem C58_long_violation (atof : Str → ℝ) : readList atof ('[' :: List.replicate 398 '1' ++ [']']) = .ub := by
  have h : checkFormat (some ('[' :: List.replicate 398 '1' ++ [']'])) ['[', '?', ']'] = .ok true := by decide +kernel
  unfold readList
  rw [h]
  have hl : 400 ≤ ('[' :: List.replicate 398 '1' ++ [']']).length := by
    rw [List.length_append, List.length_cons, List.length_replicate]; decide
  simp only [Res.bind]
  rw [if_neg (by decide), if_pos hl]

end Elliptica.EoS
