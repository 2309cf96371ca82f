import Verif.Props.Poisson
import Verif.Props.SewingEx
import Mathlib.Tactic.IntervalCases
/-!
C81, C82, examples: a single patch with 3×3×3 points inside its boundary, and two overlapping patches.
-/
namespace Elliptica.Poisson
open Real Finset Elliptica.Deriv Elliptica.Jac Elliptica.Schur Elliptica.Sew

/-! ### two rows of the Laplacian -/

theorem ex_pt (d : Fin 3) : ptv exP d 0 = -1 ∧ ptv exP d 1 = 1 ∧ ptv exP d 2 = 3 := by
  have h : ∀ j, ptv exP d j = -2 * cos (j * π / 2) + 1 := by
    intro j
    have h : ptv exP d j = Cheb.pointExtrema (-1) 3 (2 + 1) j := by simp [ptv, exP]
    rw [h, Cheb.affine_point]
    norm_num
  refine ⟨?_, ?_, ?_⟩
  · rw [h]; norm_num
  · rw [h]; norm_num
  · rw [h]
    have : ((2 : ℕ) : ℝ) * π / 2 = π := by push_cast; ring
    rw [this, cos_pi]; norm_num

/-- a polynomial of degree 2 in one coordinate -/
noncomputable def quad (a b c : ℝ) (d : Fin 3) : MvPolynomial (Fin 3) ℝ :=
  MvPolynomial.C a + MvPolynomial.C b * MvPolynomial.X d + MvPolynomial.C c * MvPolynomial.X d ^ 2

theorem quad_degree (a b c : ℝ) (d k : Fin 3) : MvPolynomial.degreeOf k (quad a b c d) ≤ if k = d then 2 else 0 := by
  have hx : MvPolynomial.degreeOf k (MvPolynomial.X d : MvPolynomial (Fin 3) ℝ) = if k = d then 1 else 0 := by
    rw [MvPolynomial.degreeOf_X]
  unfold quad
  refine le_trans (MvPolynomial.degreeOf_add_le _ _ _) (max_le (le_trans (MvPolynomial.degreeOf_add_le _ _ _) (max_le ?_ ?_)) ?_)
  · rw [MvPolynomial.degreeOf_C]; exact Nat.zero_le _
  · refine le_trans (MvPolynomial.degreeOf_C_mul_le _ _ _) ?_
    rw [hx]; split <;> omega
  · refine le_trans (MvPolynomial.degreeOf_C_mul_le _ _ _) (le_trans (MvPolynomial.degreeOf_pow_le _ _ _) ?_)
    rw [hx]; split <;> omega

theorem quad_d (a b c : ℝ) (d i : Fin 3) : MvPolynomial.pderiv i (quad a b c d) = if i = d then quad b (2 * c) 0 d else 0 := by
  by_cases h : i = d
  · subst h
    have h2 : (2 : MvPolynomial (Fin 3) ℝ) = MvPolynomial.C 2 := (map_ofNat MvPolynomial.C 2).symm
    simp [quad, MvPolynomial.pderiv_mul, MvPolynomial.pderiv_pow, MvPolynomial.pderiv_X]
    rw [h2]; ring
  · have h' : ¬ d = i := fun hh => h hh.symm
    simp [quad, MvPolynomial.pderiv_mul, MvPolynomial.pderiv_pow, MvPolynomial.pderiv_X, Pi.single_apply, h, h']

/-- the Laplacian of a product of three such polynomials, at the middle point -/
theorem ex_lap (a b c : Fin 3 → ℝ) (v : ℕ → ℝ) (hv : ∀ i j k : ℕ, i < 3 → j < 3 → k < 3 →
      v ((i * 3 + j) * 3 + k) = (a 0 + b 0 * (2 * i - 1) + c 0 * (2 * i - 1) ^ 2) * (a 1 + b 1 * (2 * j - 1) + c 1 * (2 * j - 1) ^ 2) *
        (a 2 + b 2 * (2 * k - 1) + c 2 * (2 * k - 1) ^ 2)) :
    Laplacian 1e-12 exP v 13 (2 * c 0 * (a 1 + b 1 + c 1) * (a 2 + b 2 + c 2) + 2 * c 1 * (a 0 + b 0 + c 0) * (a 2 + b 2 + c 2) +
      2 * c 2 * (a 0 + b 0 + c 0) * (a 1 + b 1 + c 1)) := by
  have hpt : ∀ d, ∀ j, j < 3 → ptv exP d j = 2 * j - 1 := by
    intro d j hj
    obtain ⟨h0, h1, h2⟩ := ex_pt d
    match j, hj with
    | 0, _ => rw [h0]; norm_num
    | 1, _ => rw [h1]; norm_num
    | 2, _ => rw [h2]; norm_num
  have key := C82_polynomial exP_good (fun _ => rfl) rfl v (quad (a 0) (b 0) (c 0) 0 * quad (a 1) (b 1) (c 1) 1 * quad (a 2) (b 2) (c 2) 2)
    (by
      intro d
      have h0 := quad_degree (a 0) (b 0) (c 0) 0 d
      have h1 := quad_degree (a 1) (b 1) (c 1) 1 d
      have h2 := quad_degree (a 2) (b 2) (c 2) 2 d
      have h3 := MvPolynomial.degreeOf_mul_le d (quad (a 0) (b 0) (c 0) 0 * quad (a 1) (b 1) (c 1) 1) (quad (a 2) (b 2) (c 2) 2)
      have h4 := MvPolynomial.degreeOf_mul_le d (quad (a 0) (b 0) (c 0) 0) (quad (a 1) (b 1) (c 1) 1)
      show _ < 3
      match d with
      | 0 => simp at h0 h1 h2; omega
      | 1 => simp at h0 h1 h2; omega
      | 2 => simp at h0 h1 h2; omega)
    (by
      intro t ht
      have e0 := hpt 0 (t 0) (ht 0)
      have e1 := hpt 1 (t 1) (ht 1)
      have e2 := hpt 2 (t 2) (ht 2)
      have : idx exP t = (t 0 * 3 + t 1) * 3 + t 2 := by simp [idx, exP, Index.ijk]; ring
      rw [this, hv _ _ _ (ht 0) (ht 1) (ht 2)]
      simp [quad, pos, e0, e1, e2])
    (fun _ => 1) (by intro d; simp [exP])
  have hi : idx exP (fun _ => 1) = 13 := by simp [idx, exP, Index.ijk]
  simp only [hi] at key
  rw [key, Fin.sum_univ_three]
  have hp : ∀ d, pos exP (fun _ => 1) d = 1 := fun d => (ex_pt d).2.1
  simp only [MvPolynomial.pderiv_mul, quad_d, map_add, map_mul]
  simp [quad, hp]
  ring

theorem ex_entry (ws : Pts) (q : ℕ) (hq : q < 27) (y : ℝ) (h : Laplacian 1e-12 exP (fun l => if l = q then 1 else 0) 13 y) :
    jacB 1e-12 exP ws 13 q = y := by
  have := (laplacian_iff exP_good (fun _ => rfl) (by simp [exP]) ws (fun l => if l = q then 1 else 0) 13 (by rw [ex_nn]; norm_num) y).1 h
  rw [this, ex_nn, sum_eq_single q]
  · simp
  · intro l _ hl; simp [hl]
  · intro hh; exact absurd (mem_range.2 hq) hh

/-- the diagonal entry of the middle node -/
theorem ex_13 (ws : Pts) : jacB 1e-12 exP ws 13 13 = -3 / 2 := by
  refine ex_entry ws 13 (by norm_num) _ ?_
  have := ex_lap (fun _ => 3 / 4) (fun _ => 1 / 2) (fun _ => -1 / 4) (fun l => if l = 13 then 1 else 0) (by
    intro i j k hi hj hk
    interval_cases i <;> interval_cases j <;> interval_cases k <;> norm_num)
  norm_num at this ⊢
  exact this

/-- the entry of the middle node of the first face -/
theorem ex_4 (ws : Pts) : jacB 1e-12 exP ws 13 4 = 1 / 4 := by
  have f2 : ((2 : Fin 3) = 0) = False := eq_false (by decide)
  refine ex_entry ws 4 (by norm_num) _ ?_
  have := ex_lap (fun d => if d = 0 then 3 / 8 else 3 / 4) (fun d => if d = 0 then -1 / 2 else 1 / 2)
    (fun d => if d = 0 then 1 / 8 else -1 / 4) (fun l => if l = 4 then 1 else 0) (by
    intro i j k hi hj hk
    interval_cases i <;> interval_cases j <;> interval_cases k <;> norm_num [f2])
  norm_num [f2] at this ⊢
  exact this

/-! ### one patch inside its boundary -/

def exS : Res (Schur.Labels × ℕ) := Schur.makeMapAndInv (fun _ => 3) false
  (([0, 1, 2, 3, 4, 5] : List (Fin 6)).map fun f => ⟨exIds f, true, false, true⟩)

def exSab : Schur.Labels × ℕ := match exS with
  | .ok x => x
  | _ => (⟨fun _ => none, [], fun _ => false, fun _ => none, []⟩, 0)

theorem exS_ok : exS = .ok exSab := by
  have h : (match exS with | .ok _ => true | _ => false) = true := by decide +kernel
  unfold exSab
  cases h' : exS with
  | ok x => rfl
  | abort => rw [h'] at h; cases h
  | ub => rw [h'] at h; cases h

theorem exS_inter : exSab.1.Iinv = [] ∧ exSab.2 = 27 := by decide +kernel

theorem exS_inv : exSab.1.inv.getD 0 0 = 13 ∧ ∀ s t : Fin 27, exSab.1.inv.getD s.val 0 = exSab.1.inv.getD t.val 0 → s = t := by
  decide +kernel

theorem ex_inner : innerCount (fun _ => 3) = 1 := by decide +kernel

theorem ex_faces : ∀ f : Fin 6, ∀ q ∈ exIds f, onFace (fun _ => 3) q = true := by decide +kernel

theorem ex_lt : ∀ f : Fin 6, ∀ q ∈ exIds f, q < 27 := by decide +kernel

attribute [irreducible] exSab

noncomputable def exSsfs : List Sew.SubFace := ([0, 1, 2, 3, 4, 5] : List (Fin 6)).map fun f =>
  { exSf f 0 false false false ![1, 1, 1] with outerB := true }

/-- the nodes are at the collocation points -/
noncomputable def exX (l : ℕ) : Fin 3 → ℝ := pos exP (coords exP l)

noncomputable def exSD : Dom := ⟨⟨exP, exSsfs, exSab.1, exSab.2⟩, exX, true, false⟩

theorem exS_good : Ok 1e-12 exSD where
  ready := ⟨exP_good, fun _ => rfl, by simp [exSD, exP], false, by
    have h := exS_ok
    unfold exS at h
    simp only [exSD, exP, Prod.mk.eta]
    exact h⟩
  asm := by
    refine ⟨⟨false, by
      have h := exS_ok
      unfold exS at h
      simp only [exSD, Prod.mk.eta]
      exact h⟩, ?_, fun _ _ => rfl, ?_, by simp [exSD]⟩
    · rintro q ⟨s, hs, -, hq⟩
      simp only [exSD, exSsfs, List.map_map, List.mem_map] at hs
      obtain ⟨f, -, rfl⟩ := hs
      exact (onFace_iff _ _ (ex_lt f q hq)).1 (ex_faces f q hq)
    · rintro q ⟨s, hs, hi, -⟩
      simp only [exSD, exSsfs, List.map_map, List.mem_map] at hs
      obtain ⟨f, -, rfl⟩ := hs
      simp [exSf] at hi

example (F G : ℕ → ℝ) := C81_residual exS_good.asm F G G
example (J b : ℕ → ℕ → ℝ) := C81_jacobian exS_good.asm J J b b b b

/-- the step on one patch goes through when its matrix is nonsingular -/
theorem single_done (e drop : ℝ) (solve : Solver ℝ) (hc : Complete solve) (P : Schur.Patch ℝ) (hS : P.NS ≠ 0)
    (hB : Nonsingular P.NS (fun s t => P.B (s, t)))
    (hd : ∀ s, s < P.NS → ∀ t, t < P.NS → P.B (s, t) = 0 ∨ drop + e < |P.B (s, t)|) (lam : ℝ) (inv : List ℕ) (u junk : ℕ → ℝ) :
    ∃ r, stepSingle e drop solve P lam inv u junk = .ok r := by
  obtain ⟨hBw, hBr, hBc, hBe⟩ := Mat.C14_roundtrip e drop P.B P.NS P.NS
  obtain ⟨z, hz⟩ := hc (Mat.buildCCS e drop (fun r c => P.B (r, c)) P.NS P.NS) P.f hBw rfl hS (by
    intro v hv c hc'
    refine hB v ?_ c hc'
    intro r hr
    rw [← hv r hr]
    apply Finset.sum_congr rfl
    intro t ht
    rw [(hBe r t hr (Finset.mem_range.1 ht)).1]
    show _ = cut (drop + e) (P.B (r, t)) * _
    rw [cut_eq (hd r hr t (Finset.mem_range.1 ht))])
  unfold stepSingle
  rw [if_neg hS, hz]
  exact ⟨_, rfl⟩

theorem exS_rows (ws : Pts) : Nonsingular 27 fun s t => (matrices 1e-12 exSD ws).1 (s, t) := by
  have hNS : exSD.NS = 27 := exS_inter.2
  have hrow : ∀ s t, s < 27 → t < 27 → (matrices 1e-12 exSD ws).1 (s, t) =
      if s = 0 then jacB 1e-12 exP ws 13 (exSab.1.inv.getD t 0) else if s = t then 1 else 0 := by
    intro s t hs ht
    rw [(matrices_eq exS_good ws s (by omega)).1 t (by omega)]
    unfold rowA
    have hic : innerCount exSD.n = 1 := ex_inner
    rw [hic]
    by_cases h : s = 0
    · subst h
      rw [if_pos (by norm_num), if_pos rfl]
      exact congrArg (fun q => jacB 1e-12 exP ws q _) exS_inv.1
    · rw [if_neg (by omega), if_neg h]
      by_cases hst : s = t
      · subst hst; rw [if_pos rfl, if_pos rfl]
      · rw [if_neg hst]
        have := exS_inv.2 ⟨s, hs⟩ ⟨t, ht⟩
        have hne : ¬ exSab.1.inv.getD s 0 = exSab.1.inv.getD t 0 := fun hh => hst (congrArg Fin.val (this hh))
        exact if_neg hne
  intro v hv
  dsimp only at hv
  have h1 : ∀ c, c < 27 → c ≠ 0 → v c = 0 := by
    intro c hc h0
    have := hv c hc
    rw [sum_eq_single c] at this
    · rw [hrow c c hc hc, if_neg h0, if_pos rfl, one_mul] at this; exact this
    · intro t ht hne
      rw [hrow c t hc (mem_range.1 ht), if_neg h0, if_neg (Ne.symm hne), zero_mul]
    · intro hh; exact absurd (mem_range.2 hc) hh
  intro c hc
  by_cases h0 : c = 0
  · subst h0
    have := hv 0 (by norm_num)
    rw [sum_eq_single 0] at this
    · rw [hrow 0 0 (by norm_num) (by norm_num), if_pos rfl, exS_inv.1, ex_13] at this
      linarith
    · intro t ht hne
      rw [h1 t (mem_range.1 ht) hne, mul_zero]
    · intro hh; exact absurd (mem_range.2 (by norm_num)) hh
  · exact h1 c hc h0

/-- the system of the single patch, for a given field -/
noncomputable def exSP (u : Coeff.St ℝ) : Schur.Patch ℝ where
  NS := 27
  NI := 0
  B := (matrices 1e-12 exSD anyPts).1
  ET := (matrices 1e-12 exSD anyPts).2
  f := match residual 1e-12 exSD u with
    | .ok f => f
    | _ => fun _ => 0
  g := fun _ => 0
  FC := fun _ => none

/-- A step that meets all hypotheses of C82_single, from any values: the values at the boundary are set and the value in the
middle is the one whose computed Laplacian is the source. -/
example (u : ℕ → ℝ) : ∃ (solve : Solver ℝ) (r : (ℕ → ℝ) × (ℕ → ℝ)),
    stepSingle 0 0 solve (exSP ⟨u, none, none⟩) 1 exSD.L.inv u u = .ok r ∧
    Laplacian 1e-12 exP r.1 13 (-3 * rho (exX 13) ^ (-2.5 : ℝ)) ∧ r.1 0 = rho (exX 0) ^ (-0.5 : ℝ) := by
  obtain ⟨solve, hs, hc⟩ := exists_solver (K := ℝ)
  have hd : ∀ s, s < (exSP ⟨u, none, none⟩).NS → ∀ t, t < (exSP ⟨u, none, none⟩).NS →
      (exSP ⟨u, none, none⟩).B (s, t) = 0 ∨ (0 : ℝ) + 0 < |(exSP ⟨u, none, none⟩).B (s, t)| := by
    intro s _ t _
    by_cases h : (exSP ⟨u, none, none⟩).B (s, t) = 0
    · exact Or.inl h
    · right; rw [add_zero]; exact abs_pos.2 h
  obtain ⟨r, hr⟩ := single_done 0 0 solve hc (exSP ⟨u, none, none⟩) (by simp [exSP]) (exS_rows anyPts) hd 1 exSD.L.inv u u
  obtain ⟨f, hf, -⟩ := C82_residual exS_good ⟨u, none, none⟩ (Or.inl rfl)
  have hNI : exSD.NI = 0 := by
    have h := exS_inter.1
    show exSab.1.Iinv.length = 0
    rw [h]; rfl
  obtain ⟨h1, h2⟩ := C82_single anyPts exS_good hNI 0 0 solve hs (exSP ⟨u, none, none⟩) hd ⟨u, none, none⟩ (Or.inl rfl)
    exS_inter.2.symm rfl (by simp only [exSP, hf]) u r hr
  refine ⟨solve, r, hr, h1 13 (by show 13 < nn exP; rw [ex_nn]; norm_num) ?_, h2 0 (by show 0 < nn exP; rw [ex_nn]; norm_num) ?_⟩
  · rw [← onFace_iff _ _ (by rw [n_eq]; show 13 < nn exP; rw [ex_nn]; norm_num)]
    show ¬ onFace (fun _ => 3) 13 = true
    decide
  · exact ⟨0, 0, 0, by simp [Dom.n, exSD, exP], by simp [Dom.n, exSD, exP], by simp [Dom.n, exSD, exP], by simp, by simp⟩

/-! ### two patches; the first face of each gets its values from the middle of the other -/

noncomputable def exT (q : ℕ) : Dom := ⟨exMD q, exX, true, false⟩

theorem exT_inv : exMab.1.inv.getD 0 0 = 13 ∧ (∀ s t : Fin 26, exMab.1.inv.getD s.val 0 = exMab.1.inv.getD t.val 0 → s = t) := by
  unfold exMab; decide +kernel

theorem exT_good (q : ℕ) (hq : q < 2) : Ok 1e-12 (exT q) where
  ready := exM_grid.ready q hq
  asm := by
    refine ⟨(exM_grid.ready q hq).lab, ?_, fun _ _ => rfl, ?_, by simp [exT]⟩
    · rintro t ⟨s, hs, -, ht⟩
      have : ∃ f : Fin 6, s.id = exIds f := by
        simp only [exT, exMD, exMsfs, List.map_cons, List.map_nil, List.mem_cons, List.not_mem_nil, or_false] at hs
        rcases hs with rfl | rfl | rfl | rfl | rfl | rfl
        exacts [⟨0, rfl⟩, ⟨1, rfl⟩, ⟨2, rfl⟩, ⟨3, rfl⟩, ⟨4, rfl⟩, ⟨5, rfl⟩]
      obtain ⟨f, hf⟩ := this
      rw [hf] at ht
      exact (onFace_iff _ _ (ex_lt f t ht)).1 (ex_faces f t ht)
    · rintro t ⟨s, hs, hi, -⟩
      simp only [exT, exMD, exMsfs, List.map_cons, List.map_nil, List.mem_cons, List.not_mem_nil, or_false] at hs
      rcases hs with rfl | rfl | rfl | rfl | rfl | rfl <;> simp [exSf] at hi

noncomputable def exTP (u : ℕ → ℕ → ℝ) (a : ℕ) : Schur.Patch ℝ where
  NS := 26
  NI := 1
  B := (matrices 1e-12 (exT a) anyPts).1
  ET := (matrices 1e-12 (exT a) anyPts).2
  f := match residual 1e-12 (exT a) ⟨u a, none, none⟩ with
    | .ok f => f
    | _ => fun _ => 0
  g := match Sew.residual 1e-12 2 exMD u a with
    | .ok g => g
    | _ => fun _ => 0
  FC := fun q => match makeFC 1e-12 anyPts exMD a q with
    | .ok m => m
    | _ => none

theorem exT_rows (a : ℕ) (ha : a < 2) (s : ℕ) (hs : s < 26) :
    (∀ t, t < 26 → (matrices 1e-12 (exT a) anyPts).1 (s, t) =
      if s = 0 then jacB 1e-12 exP anyPts 13 (exMab.1.inv.getD t 0) else if s = t then 1 else 0) ∧
    (matrices 1e-12 (exT a) anyPts).2 (0, s) = if s = 0 then 1 / 4 else 0 := by
  have hNS : (exT a).NS = 26 := exM_inter.2
  have hic : innerCount (exT a).n = 1 := ex_inner
  obtain ⟨m1, m2⟩ := matrices_eq (exT_good a ha) anyPts s (by omega)
  constructor
  · intro t ht
    rw [m1 t (by omega)]
    unfold rowA
    rw [hic]
    by_cases h : s = 0
    · subst h
      rw [if_pos (by norm_num), if_pos rfl]
      exact congrArg (fun q => jacB 1e-12 exP anyPts q _) exT_inv.1
    · rw [if_neg (by omega), if_neg h]
      by_cases hst : s = t
      · subst hst; rw [if_pos rfl, if_pos rfl]
      · rw [if_neg hst]
        have := exT_inv.2 ⟨s, hs⟩ ⟨t, ht⟩
        have hne : ¬ exMab.1.inv.getD s 0 = exMab.1.inv.getD t 0 := fun hh => hst (congrArg Fin.val (this hh))
        exact if_neg hne
  · have hI : (exT a).L.Iinv = [4] := exM_inter.1
    rw [m2 0 (by show 0 < (exT a).L.Iinv.length; rw [hI]; norm_num)]
    unfold rowA
    rw [hic, hI]
    by_cases h : s = 0
    · subst h
      rw [if_pos (by norm_num), if_pos rfl]
      have h2 : (exT a).L.inv.getD 0 0 = 13 := exT_inv.1
      rw [h2]
      exact ex_4 anyPts
    · rw [if_neg (by omega), if_neg h, if_neg]
      exact exM_inv ⟨s, hs⟩

theorem card_one : (General.card 2 1).eval 0 = 1 := by
  rw [General.card_eval 2 (by norm_num) 1 0 (by norm_num) (by norm_num), Real.arccos_zero]
  have h : ((2 : ℕ) : ℝ) * (π / 2) = π := by push_cast; ring
  have h2 : π / 2 + ((1 : ℕ) : ℝ) * π / (2 : ℕ) = π := by push_cast; ring
  have h3 : π / 2 - ((1 : ℕ) : ℝ) * π / (2 : ℕ) = 0 := by push_cast; ring
  rw [h]
  simp only [Nat.reduceSub, sum_range_one, h2, h3]
  simp [Cheb.kap]
  norm_num

/-- the interface equation of patch q for values v -/
theorem exT_glue (v : ℕ → ℕ → ℝ) (hv : ∀ a l, l ≠ 4 → l ≠ 13 → v a l = 0) (q : ℕ) (hq : q < 2) (g : ℕ → ℝ)
    (hg : Sew.residual 1e-12 2 exMD v q = .ok g) : g 0 = v q 4 - v (1 - q) 13 := by
  obtain ⟨g', Y, Z, h1', h3, h4⟩ := C71_residual exM_grid hq v
  rw [hg] at h1'
  cases h1'
  have hg := h4 0
  have hm : (exMD q).sfs.filter (fun s => !s.innerB && !s.outerB) = [exSf 0 (1 - q) false false false ![1, 1, 1]] := by
    simp [exMD, exMsfs, exSf]
  rw [hm] at hg
  have hY := h3 (exSf 0 (1 - q) false false false ![1, 1, 1]) (by simp [exMD, exMsfs]) rfl rfl 4 (by simp [exSf, exIds])
  obtain ⟨hY, f, hZ⟩ := hY
  simp only [At, exSf, if_true] at hY
  have hf : (range (exSf 0 (1 - q) false false false ![1, 1, 1]).id.length).filter
      (fun s => (exMD q).L.Imap ((exSf 0 (1 - q) false false false ![1, 1, 1]).id.getD s 0) = some 0) = {4} := by
    ext s
    simp only [mem_filter, mem_range, mem_singleton]
    constructor
    · rintro ⟨a1, a2⟩
      have a1 : s < 9 := a1
      have := exM_imap ⟨s, a1⟩
      have a2 : exMab.1.Imap ((exIds 0).getD s 0) = some 0 := a2
      rw [this] at a2
      by_contra hne
      have hne' : ¬ ((⟨s, a1⟩ : Fin 9) = 4) := fun hh => hne (congrArg Fin.val hh)
      rw [if_neg hne'] at a2
      cases a2
    · rintro rfl
      exact ⟨by simp [exSf, exIds], exM_imap 4⟩
  rw [List.map_singleton, List.sum_singleton, hf, sum_singleton] at hg
  have hz : Z (exSf 0 (1 - q) false false false ![1, 1, 1]) 4 = v (1 - q) 13 := by
    have hr := exM_grid.ready (1 - q) (by omega)
    have he := exec_value hr none 0 ![1, 1, 1] ex_inside (by simp) (v (1 - q))
    have hk : kept (exSf 0 (1 - q) false false false ![1, 1, 1]) = none := rfl
    rw [hk] at hZ
    have hZ' : execI 1e-12 (exMD (1 - q)).P (none, 0) (v (1 - q)) ![1, 1, 1] = .ok (Z (exSf 0 (1 - q) false false false ![1, 1, 1]) 4) := by
      unfold execI
      have hZ2 : DInterp.interp 1e-12 (exMD (1 - q)).P none 0 ⟨v (1 - q), none, none⟩ ![1, 1, 1] = .ok (f, Z (exSf 0 (1 - q) false false false ![1, 1, 1]) 4) := hZ
      rw [hZ2]; rfl
    rw [he] at hZ'
    rw [← Res.ok.inj hZ', sum_eq_single 13]
    · have hd : DInterp.dValue 1e-12 exP none ![1, 1, 1] 13 = 1 := by
        rw [DInterp.dValue_eq exP_good (fun _ => rfl) none 0 _ ex_inside (by simp) 13 (by rw [ex_nn]; norm_num)]
        have hw : ∀ d : Fin 3, DInterp.wt 1e-12 exP none 0 ![1, 1, 1] d (coords exP 13 d) = 1 := by
          intro d
          unfold DInterp.wt
          have hc : coords exP 13 d = 1 := by
            match d with
            | 0 => simp [coords, exP, Index.toI]
            | 1 => simp [coords, exP, Index.toJ]
            | 2 => simp [coords, exP, Index.toK]
          rw [if_neg (by simp), ex_mid _ d (by match d with | 0 => rfl | 1 => rfl | 2 => rfl), hc]
          exact card_one
        rw [hw 0, hw 1, hw 2]; norm_num
      show DInterp.dValue 1e-12 exP none ![1, 1, 1] 13 * _ = _
      rw [hd, one_mul]
    · intro l hl hne
      by_cases hl4 : l = 4
      · subst hl4
        have hd : DInterp.dValue 1e-12 exP none ![1, 1, 1] 4 = 0 := by
          rw [DInterp.dValue_eq exP_good (fun _ => rfl) none 0 _ ex_inside (by simp) 4 (by rw [ex_nn]; norm_num)]
          have c0 : coords exP 4 0 = 0 := by simp [coords, exP, Index.toI]
          rw [c0]
          have : DInterp.wt 1e-12 exP none 0 ![1, 1, 1] 0 0 = 0 := by
            unfold DInterp.wt
            rw [if_neg (by simp), ex_mid _ 0 rfl]
            exact card_mid
          rw [this]; ring
        show DInterp.dValue 1e-12 exP none ![1, 1, 1] 4 * _ = 0
        rw [hd, zero_mul]
      · rw [hv _ l hl4 hne, mul_zero]
    · intro hh
      exact absurd (mem_range.2 (by show 13 < nn exP; rw [ex_nn]; norm_num)) hh
  have hY' : Y (exSf 0 (1 - q) false false false ![1, 1, 1]) 4 = v q 4 := hY
  rw [hz, hY'] at hg
  rw [hg]
  simp [exSf]

theorem exT_full (u : ℕ → ℕ → ℝ) : FullNonsingular 2 (exTP u) := by
  intro x y h
  have hx : ∀ p, p < 2 → ∀ s, s < 26 → s ≠ 0 → x p s = 0 := by
    intro p hp s hs h0
    have := h.subdomain p hp s hs
    simp only [homogeneous, exTP, sum_range_one] at this
    rw [(exT_rows p hp s hs).2, if_neg h0, zero_mul, add_zero, sum_eq_single s] at this
    · rw [(exT_rows p hp s hs).1 s hs, if_neg h0, if_pos rfl, one_mul] at this; exact this
    · intro t ht hne
      rw [(exT_rows p hp s hs).1 t (mem_range.1 ht), if_neg h0, if_neg (Ne.symm hne), zero_mul]
    · intro hh; exact absurd (mem_range.2 hs) hh
  have h0 : ∀ p, p < 2 → -3 / 2 * x p 0 + 1 / 4 * y p 0 = 0 := by
    intro p hp
    have := h.subdomain p hp 0 (by simp [homogeneous, exTP])
    simp only [homogeneous, exTP, sum_range_one] at this
    rw [(exT_rows p hp 0 (by norm_num)).2, if_pos rfl, sum_eq_single 0] at this
    · rw [(exT_rows p hp 0 (by norm_num)).1 0 (by norm_num), if_pos rfl, exT_inv.1, ex_13] at this; exact this
    · intro t ht hne
      rw [hx p hp t (mem_range.1 ht) hne, mul_zero]
    · intro hh; exact absurd (mem_range.2 (by norm_num)) hh
  have hFC : ∀ q, q < 2 → ∀ a, a < 2 → makeFC 1e-12 anyPts exMD a q = .ok ((exTP u a).FC q) := by
    intro q hq a _
    obtain ⟨m, h⟩ := C71_blocks anyPts exM_grid hq a
    simp only [exTP, h]
  have hy : ∀ q, q < 2 → y q 0 = x (1 - q) 0 := by
    intro q hq
    obtain ⟨v, hv⟩ : ∃ v : ℕ → ℕ → ℝ, v = fun a l => if l = 4 then y a 0 else if l = 13 then x a 0 else 0 := ⟨_, rfl⟩
    obtain ⟨g, h1, h2⟩ := C71_rows anyPts exM_grid hq (exTP u) (fun _ _ => by simp [exMD, exM_inter.2, exTP])
      (fun _ _ => by simp [Sew.Dom.NI, exMD, exM_inter.1, exTP]) (hFC q hq) v
    have hi := h.interface q hq 0 (by simp [homogeneous, exTP])
    have hg : g 0 = 0 := by
      rw [h2 0]
      refine Eq.trans ?_ hi
      refine sum_congr rfl fun a ha => ?_
      have ha := mem_range.1 ha
      have e1 : ∀ t ∈ range (exTP u a).NS, (exTP u a).entryF q 0 t * v a ((exMD a).L.inv.getD t 0) =
          (exTP u a).entryF q 0 t * x a t := by
        intro t ht
        have ht : t < 26 := mem_range.1 ht
        congr 1
        have hne := exM_inv ⟨t, ht⟩
        have : v a (exMab.1.inv.getD t 0) = x a t := by
          rw [hv]
          simp only [if_neg hne]
          by_cases h0 : t = 0
          · subst h0; rw [if_pos exT_inv.1]
          · rw [hx a ha t ht h0, if_neg]
            intro hh
            have := exT_inv.2 ⟨t, ht⟩ 0 (by rw [hh]; exact exT_inv.1.symm)
            exact h0 (congrArg Fin.val this)
        exact this
      have e2 : ∀ i ∈ range (exTP u a).NI, (exTP u a).entryC q 0 i * v a ((exMD a).L.Iinv.getD i 0) =
          (exTP u a).entryC q 0 i * y a i := by
        intro i hi
        have hi : i < 1 := mem_range.1 hi
        have : i = 0 := by omega
        subst this
        simp [hv, exMD, exM_inter.1]
      rw [sum_congr rfl e1, sum_congr rfl e2]
      rfl
    have := exT_glue v (fun a l h4 h13 => by simp [hv, h4, h13]) q hq g h1
    rw [hg, hv] at this
    simp at this
    linarith
  have e0 := h0 0 (by norm_num)
  have e1 := h0 1 (by norm_num)
  have f0 := hy 0 (by norm_num)
  have f1 := hy 1 (by norm_num)
  simp only [Nat.sub_zero, Nat.sub_self] at f0 f1
  have z : ∀ p, p < 2 → x p 0 = 0 ∧ y p 0 = 0 := by
    intro p hp
    have : p = 0 ∨ p = 1 := by omega
    rcases this with rfl | rfl <;> constructor <;> linarith
  refine ⟨fun p hp s hs => ?_, fun p hp i hi => ?_⟩
  · by_cases hs0 : s = 0
    · subst hs0; exact (z p hp).1
    · exact hx p hp s hs hs0
  · have : i = 0 := by simp only [exTP] at hi; omega
    subst this
    exact (z p hp).2

/-- A step that meets all hypotheses of C82_step, from any values on the two patches. -/
example (u : ℕ → ℕ → ℝ) : ∃ (solve : Solver ℝ) (r : ℕ → (ℕ → ℝ) × (ℕ → ℝ)),
    stepMulti 0 0 solve 2 (exTP u) (fun p => ((exT p).L.inv, (exT p).L.Iinv)) 1 u u = .ok r ∧
    ∀ a, a < 2 → Laplacian 1e-12 exP (r a).1 13 (-3 * rho (exX 13) ^ (-2.5 : ℝ)) ∧ (r a).1 26 = rho (exX 26) ^ (-0.5 : ℝ) ∧
      ∃ g, Sew.residual 1e-12 2 (fun a => (exT a).toDom) (fun p => (r p).1) a = .ok g ∧ g 0 = 0 := by
  obtain ⟨solve, hs, hc⟩ := exists_solver (K := ℝ)
  have hn := nothingDropped_zero 2 (exTP u)
  obtain ⟨x, y, hxy, -⟩ := C34_completes 0 0 (le_refl _) solve hs hc 2 (by omega) (exTP u) (fun p _ => by simp [exTP])
    (fun p _ => by simp [exTP]) (by rw [add_zero]; exact hn) (by
      intro p hp v hv
      simp only [exTP] at hv ⊢
      have h1 : ∀ c, c < 26 → c ≠ 0 → v c = 0 := by
        intro c hc h0
        have := hv c hc
        rw [sum_eq_single c] at this
        · rw [(exT_rows p hp c hc).1 c hc, if_neg h0, if_pos rfl, one_mul] at this; exact this
        · intro t ht hne
          rw [(exT_rows p hp c hc).1 t (mem_range.1 ht), if_neg h0, if_neg (Ne.symm hne), zero_mul]
        · intro hh; exact absurd (mem_range.2 hc) hh
      intro c hc
      by_cases h0 : c = 0
      · subst h0
        have := hv 0 (by norm_num)
        rw [sum_eq_single 0] at this
        · rw [(exT_rows p hp 0 hc).1 0 hc, if_pos rfl, exT_inv.1, ex_13] at this
          linarith
        · intro t ht hne
          rw [h1 t (mem_range.1 ht) hne, mul_zero]
        · intro hh; exact absurd (mem_range.2 hc) hh
      · exact h1 c hc h0) (exT_full u)
  obtain ⟨r, hr⟩ : ∃ r, stepMulti 0 0 solve 2 (exTP u) (fun p => ((exT p).L.inv, (exT p).L.Iinv)) 1 u u = .ok r := by
    rw [stepMulti, hxy, Res.bind_ok]; exact ⟨_, rfl⟩
  refine ⟨solve, _, hr, fun a ha => ?_⟩
  obtain ⟨h1, h2, g, h3, h4⟩ := C82_step anyPts (D := exT) exT_good exM_grid 0 0 (le_refl _) solve hs (exTP u) (by rw [add_zero]; exact hn)
    (fun a => ⟨u a, none, none⟩) (fun _ _ => Or.inl rfl) (fun _ _ => exM_inter.2.symm)
    (fun a _ => by show 1 = exMab.1.Iinv.length; rw [exM_inter.1]; rfl) (fun _ _ => rfl)
    (fun a ha => by
      obtain ⟨f, hf, -⟩ := C82_residual (exT_good a ha) ⟨u a, none, none⟩ (Or.inl rfl)
      simp only [exTP, hf])
    (fun q hq a _ => by
      obtain ⟨m, h⟩ := C71_blocks anyPts exM_grid hq a
      show makeFC 1e-12 anyPts exMD a q = _
      simp only [exTP, h])
    (fun q hq => by
      obtain ⟨g, _, _, h, -⟩ := C71_residual exM_grid hq u
      show Sew.residual 1e-12 2 exMD u q = _
      simp only [exTP, h]) u _ hr a ha
  refine ⟨h1 13 (by show 13 < nn exP; rw [ex_nn]; norm_num) ?_, h2 26 ?_, g, h3, h4 0 ?_⟩
  · rw [← onFace_iff _ _ (by rw [n_eq]; show 13 < nn exP; rw [ex_nn]; norm_num)]
    show ¬ onFace (fun _ => 3) 13 = true
    decide
  · exact ⟨_, by simp only [exT, exMD, exMsfs, List.map_cons, List.mem_cons]; exact Or.inr (Or.inl rfl), Or.inl rfl, by simp [exSf, exIds]⟩
  · show 0 < exMab.1.Iinv.length
    rw [exM_inter.1]; norm_num

end Elliptica.Poisson
