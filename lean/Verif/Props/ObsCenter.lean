import Verif.Spec.ObsCenter
import Verif.Props.ObsTotal
/-!
Property C102: the area and the irreducible mass of a black hole, the centre of an object, and its spin as J - R×P.
-/
namespace Elliptica.ObsCenter
open Integ Index Finset Elliptica.Obs Elliptica.Cheb

/-- the weight of a node in the quadrature of one direction -/
noncomputable def qw (n : Fin 3 → ℕ) (d : Fin 3) (m : ℕ) : ℝ := ∑ i ∈ range (n d), extW n d i m * wOpt n d i

/-- the quadrature of a surface as a sum over the nodes -/
noncomputable def surfSum (a : Piece) (f : ℕ → ℝ) : ℝ :=
  ∑ i ∈ range (a.P.n 0), ∑ j ∈ range (a.P.n 1), qw a.P.n 0 i * (qw a.P.n 1 j * (f (ijk (a.P.n 1) (a.P.n 2) i j 0) *
    √(detH a.P (physical a.psi a.g) 0 1 (ijk (a.P.n 1) (a.P.n 2) i j 0))))

/-- the quadrature of a volume as a sum over the nodes -/
noncomputable def volSum (a : Piece) (f : ℕ → ℝ) : ℝ :=
  -∑ i ∈ range (a.P.n 0), ∑ j ∈ range (a.P.n 1), ∑ k ∈ range (a.P.n 2), qw a.P.n 0 i * (qw a.P.n 1 j * (qw a.P.n 2 k *
    (f (ijk (a.P.n 1) (a.P.n 2) i j k) * √(detg a.g (ijk (a.P.n 1) (a.P.n 2) i j k)) * jacN a.P (ijk (a.P.n 1) (a.P.n 2) i j k))))

theorem lf_qw (n : Fin 3 → ℕ) (d : Fin 3) (f : ℕ → ℝ) : lf n d (wOpt n d) f = ∑ m ∈ range (n d), qw n d m * f m := by
  rw [lf_L]
  exact sum_congr rfl fun m _ => mul_comm _ _

theorem onHorizon_sum (a : Piece) (h : a.Ok) (f : ℕ → ℝ) : a.onHorizon f = .ok (surfSum a f) := by
  unfold Piece.onHorizon surfDS
  rw [if_neg (by simp), if_neg (by simp), if_pos (by simp)]
  obtain ⟨f', c, h1, h2⟩ := (sum2 a.P.n h (surfIntegrand a.P (physical a.psi a.g) f 0 1 fun l => toK (a.P.n 1) (a.P.n 2) l == 0)).2.2
  rw [h1, Res.bind_ok]
  dsimp only
  rw [evens2 a.P.n 0 1 (fun i j => c (ijk (a.P.n 1) (a.P.n 2) i j 0)), h2 0 (by have := h 2; omega) (wOpt a.P.n), lf_qw]
  congr 1
  unfold surfSum
  refine sum_congr rfl fun i hi => ?_
  rw [lf_qw, mul_sum]
  refine sum_congr rfl fun j hj => ?_
  rw [surfIntegrand, (C10_decode_encode (a.P.n 1) (a.P.n 2) i j 0 (mem_range.1 hj) (by have := h 2; omega)).2.2]
  simp

theorem inside_sum (a : Piece) (h : a.Ok) (f : ℕ → ℝ) : a.inside f = .ok (volSum a f) := by
  rw [Piece.inside, wholeDV_lf _ h]
  unfold volSum
  rw [lf_qw]
  congr 2
  refine sum_congr rfl fun i _ => ?_
  rw [lf_qw, mul_sum]
  refine sum_congr rfl fun j _ => ?_
  rw [lf_qw, mul_sum, mul_sum]
  rfl

theorem total_sum (v : Piece → Res ℝ) (w : Piece → ℝ) : ∀ (ps : List Piece) (acc : ℝ), (∀ a ∈ ps, v a = .ok (w a)) →
    total v ps acc = .ok (acc + (ps.map w).sum) := by
  intro ps
  induction ps with
  | nil => intro acc _; simp [total]
  | cons a t ih =>
    intro acc h
    rw [total, h a (by simp), Res.bind_ok, ih _ (fun b hb => h b (by simp [hb]))]
    simp [add_assoc]

theorem sum_map_lin (ps : List Piece) (u v w : Piece → ℝ) (k : ℝ) (h : ∀ a ∈ ps, u a = v a - k * w a) :
    (ps.map u).sum = (ps.map v).sum - k * (ps.map w).sum := by
  induction ps with
  | nil => simp
  | cons a t ih =>
    simp only [List.map_cons, List.sum_cons]
    rw [h a (by simp), ih fun b hb => h b (by simp [hb])]
    ring

theorem surfSum_lin (a : Piece) (f g : ℕ → ℝ) (k : ℝ) : surfSum a (fun l => f l - k * g l) = surfSum a f - k * surfSum a g := by
  unfold surfSum
  rw [mul_sum, ← sum_sub_distrib]
  refine sum_congr rfl fun i _ => ?_
  rw [mul_sum, ← sum_sub_distrib]
  exact sum_congr rfl fun j _ => by ring

theorem volSum_lin (a : Piece) (f g : ℕ → ℝ) (k : ℝ) : volSum a (fun l => f l - k * g l) = volSum a f - k * volSum a g := by
  have e : ∀ x y z : ℝ, x = y - k * z → -x = -y - k * -z := by intro x y z h; rw [h]; ring
  unfold volSum
  apply e
  rw [mul_sum, ← sum_sub_distrib]
  refine sum_congr rfl fun i _ => ?_
  rw [mul_sum, ← sum_sub_distrib]
  refine sum_congr rfl fun j _ => ?_
  rw [mul_sum, ← sum_sub_distrib]
  exact sum_congr rfl fun m _ => by ring

/-- the area as the sum over the patches -/
noncomputable def area (ps : List Piece) : ℝ := (ps.map fun a => surfSum a fun _ => 1).sum

theorem irreducible_eq (ps : List Piece) (h : ∀ a ∈ ps, a.Ok) :
    irreducible ps = if area ps < 0 then .ub else .ok (√(area ps / (16 * Real.pi)), area ps) := by
  unfold irreducible
  rw [total_sum _ (fun a => surfSum a fun _ => 1) ps 0 (fun a ha => onHorizon_sum a (h a ha) _), Res.bind_ok, zero_add]
  rfl

/-- C102: the area is the sum over the patches around the hole of the integrals of the element of area of the physical metric
ψ⁴ h_{ij} over the inner surface, and the irreducible mass is that with 16 π M² = A (where element of area is a polynomial of the
degree that the grid resolves: C48). -/
theorem C102_area (ps : List Piece) (hok : ∀ a ∈ ps, a.Ok) (hbox : ∀ a ∈ ps, ∀ d, a.P.mn d < a.P.mx d) (G : Piece → ℝ → ℝ → ℝ)
    (hG : ∀ a ∈ ps, ∀ i j, i < a.P.n 0 → j < a.P.n 1 → surfEl a.P (physical a.psi a.g) 0 1 (ijk (a.P.n 1) (a.P.n 2) i j 0) =
      G a (pt a.P.n a.P.mn a.P.mx 0 i) (pt a.P.n a.P.mn a.P.mx 1 j))
    (hx : ∀ a ∈ ps, ∀ y, IsPoly (a.P.n 0) fun x => G a x y) (hy : ∀ a ∈ ps, ∀ x, IsPoly (a.P.n 1) fun y => G a x y)
    (h0 : 0 ≤ (ps.map fun a => ∫ x in (a.P.mn 0)..(a.P.mx 0), ∫ y in (a.P.mn 1)..(a.P.mx 1), G a x y).sum) :
    ∃ M A, irreducible ps = .ok (M, A) ∧ A = (ps.map fun a => ∫ x in (a.P.mn 0)..(a.P.mx 0), ∫ y in (a.P.mn 1)..(a.P.mx 1), G a x y).sum ∧
      0 ≤ M ∧ 16 * Real.pi * M ^ 2 = A := by
  have key : area ps = (ps.map fun a => ∫ x in (a.P.mn 0)..(a.P.mx 0), ∫ y in (a.P.mn 1)..(a.P.mx 1), G a x y).sum := by
    unfold area
    congr 1
    refine List.map_congr_left fun a ha => ?_
    have h1 := onHorizon_sum a (hok a ha) fun _ => 1
    have h2 := C48_surface_Z a.P (hok a ha) (hbox a ha) (physical a.psi a.g) (fun _ => 1) (fun d => d == 2) (fun _ => 0) (by simp) (by simp) (by simp)
      (by have := hok a ha 2; omega) (G a) (fun i j hi hj => by rw [one_mul]; exact hG a ha i j hi hj) (hx a ha) (hy a ha)
    unfold Piece.onHorizon at h1
    rw [h1] at h2
    exact Res.ok.inj h2
  have hA : 0 ≤ area ps := by rw [key]; exact h0
  refine ⟨_, _, by rw [irreducible_eq ps hok, if_neg (not_lt.2 hA)], key, Real.sqrt_nonneg _, ?_⟩
  rw [Real.sq_sqrt (div_nonneg hA (by positivity))]
  field_simp

/-- every length twice as long: the conformal factor times k -/
def Piece.scale (k : ℝ) (a : Piece) : Piece := { a with psi := fun l => k * a.psi l }

theorem detH_scale (a : Piece) (k : ℝ) (l : ℕ) :
    detH a.P (physical (fun l => k * a.psi l) a.g) 0 1 l = (k ^ 4) ^ 2 * detH a.P (physical a.psi a.g) 0 1 l := by
  simp only [detH, hDiag, hOff, physical]
  ring

/-- C102: multiplying the conformal factor by k, and so every length by k², multiplies the area by k⁴ and the mass by k². -/
theorem C102_scale (ps : List Piece) (hok : ∀ a ∈ ps, a.Ok) (k : ℝ) (hk : k ≠ 0) (M A : ℝ) (h : irreducible ps = .ok (M, A)) :
    irreducible (ps.map (Piece.scale k)) = .ok (k ^ 2 * M, k ^ 4 * A) := by
  have e : ∀ a : Piece, surfSum (a.scale k) (fun _ => 1) = k ^ 4 * surfSum a fun _ => 1 := by
    intro a
    unfold surfSum Piece.scale
    simp only
    rw [mul_sum]
    refine sum_congr rfl fun i _ => ?_
    rw [mul_sum]
    refine sum_congr rfl fun j _ => ?_
    rw [detH_scale, Real.sqrt_mul (by positivity), Real.sqrt_sq (by positivity)]
    ring
  have ea : area (ps.map (Piece.scale k)) = k ^ 4 * area ps := by
    unfold area
    rw [List.map_map, ← List.sum_map_mul_left]
    congr 1
    exact List.map_congr_left fun a _ => e a
  have hok' : ∀ a ∈ ps.map (Piece.scale k), a.Ok := by
    intro a ha
    obtain ⟨b, hb, rfl⟩ := List.mem_map.1 ha
    exact hok b hb
  rw [irreducible_eq _ hok] at h
  rw [irreducible_eq _ hok', ea]
  split_ifs at h with hn
  simp only [Res.ok.injEq, Prod.mk.injEq] at h
  obtain ⟨rfl, rfl⟩ := h
  have hp : (0 : ℝ) < k ^ 4 := by positivity
  rw [if_neg (by rw [not_lt] at hn ⊢; positivity), mul_div_assoc, Real.sqrt_mul hp.le, show k ^ 4 = (k ^ 2) ^ 2 by ring,
    Real.sqrt_sq (by positivity)]

theorem centerBH_eq (ps : List Piece) (h : ∀ a ∈ ps, a.Ok) (A : ℝ) (hA : A ≠ 0) (cm : Fin 3 → ℝ) (d : Fin 3) :
    centerBH ps A cm d = .ok ((ps.map fun q => surfSum q fun l => q.x l d - cm d).sum / A) := by
  unfold centerBH
  rw [total_sum _ (fun q => surfSum q fun l => q.x l d - cm d) ps 0 (fun a ha => onHorizon_sum a (h a ha) _), Res.bind_ok, zero_add, if_neg hA]

/-- C102: measured from another origin the centre of a black hole is where it was: the position changes by the displacement of the
origin, if the area used is that of the surface. -/
theorem C102_center_origin (ps : List Piece) (h : ∀ a ∈ ps, a.Ok) (M A : ℝ) (hA : A ≠ 0) (hM : irreducible ps = .ok (M, A))
    (cm cm' : Fin 3 → ℝ) (d : Fin 3) :
    ∃ r, centerBH ps A cm d = .ok r ∧ centerBH ps A cm' d = .ok (r - (cm' d - cm d)) := by
  rw [irreducible_eq _ h] at hM
  split_ifs at hM with hn
  simp only [Res.ok.injEq, Prod.mk.injEq] at hM
  obtain ⟨-, hM⟩ := hM
  refine ⟨_, centerBH_eq ps h A hA cm d, ?_⟩
  rw [centerBH_eq ps h A hA cm' d]
  congr 1
  rw [sum_map_lin ps (fun q => surfSum q fun l => q.x l d - cm' d) (fun q => surfSum q fun l => q.x l d - cm d) (fun q => surfSum q fun _ => 1)
    (cm' d - cm d)]
  · rw [show (ps.map fun q => surfSum q fun _ => 1).sum = A from hM, sub_div, mul_div_cancel_right₀ _ hA]
  · intro a _
    rw [← surfSum_lin]
    congr 1
    funext l
    ring

/-- C102, violation: with an area kept from before, the position depends on the origin: every displacement of the origin is
reported as a displacement of the hole. -/
theorem C102_area_violation (ps : List Piece) (h : ∀ a ∈ ps, a.Ok) (M A A' : ℝ) (hA' : A' ≠ 0) (hM : irreducible ps = .ok (M, A)) (hne : A ≠ A')
    (cm cm' : Fin 3 → ℝ) (d : Fin 3) (hd : cm' d ≠ cm d) :
    ∃ r r', centerBH ps A' cm d = .ok r ∧ centerBH ps A' cm' d = .ok r' ∧ cm' d + r' ≠ cm d + r := by
  rw [irreducible_eq _ h] at hM
  split_ifs at hM with hn
  simp only [Res.ok.injEq, Prod.mk.injEq] at hM
  obtain ⟨-, hM⟩ := hM
  refine ⟨_, _, centerBH_eq ps h A' hA' cm d, centerBH_eq ps h A' hA' cm' d, ?_⟩
  rw [sum_map_lin ps (fun q => surfSum q fun l => q.x l d - cm' d) (fun q => surfSum q fun l => q.x l d - cm d) (fun q => surfSum q fun _ => 1)
    (cm' d - cm d)]
  · rw [show (ps.map fun q => surfSum q fun _ => 1).sum = A from hM, sub_div]
    intro e
    have e' : (cm' d - cm d) * (A' - A) = 0 := by
      have : cm' d - cm d = (cm' d - cm d) * A / A' := by linarith
      rw [eq_div_iff hA'] at this
      linarith
    rcases mul_eq_zero.1 e' with e' | e'
    · exact hd (by linarith)
    · exact hne (by linarith)
  · intro a _
    rw [← surfSum_lin]
    congr 1
    funext l
    ring

theorem mirror_sum (c cm : Fin 3 → ℝ) (a b : Piece) (h : Mirror c a b) (d : Fin 3) :
    (surfSum b fun l => b.x l d - cm d) = 2 * (c d - cm d) * (surfSum a fun _ => 1) - (surfSum a fun l => a.x l d - cm d) ∧
    (surfSum b fun _ => 1) = surfSum a fun _ => 1 := by
  unfold surfSum
  rw [h.n]
  constructor
  · rw [mul_sum, ← sum_sub_distrib]
    refine sum_congr rfl fun i hi => ?_
    rw [mul_sum, ← sum_sub_distrib]
    refine sum_congr rfl fun j hj => ?_
    beta_reduce
    rw [h.x i (mem_range.1 hi) j (mem_range.1 hj), h.area i (mem_range.1 hi) j (mem_range.1 hj)]
    ring
  · refine sum_congr rfl fun i hi => sum_congr rfl fun j hj => ?_
    rw [h.area i (mem_range.1 hi) j (mem_range.1 hj)]

/-- C102: the centre of a hole whose surface is symmetric about a point is that point. -/
theorem C102_center_symmetric (as bs : List Piece) (c cm : Fin 3 → ℝ) (hm : List.Forall₂ (Mirror c) as bs) (h : ∀ a ∈ as, a.Ok)
    (M A : ℝ) (hA : A ≠ 0) (hM : irreducible (as ++ bs) = .ok (M, A)) (d : Fin 3) :
    centerBH (as ++ bs) A cm d = .ok (c d - cm d) := by
  have hb : ∀ b ∈ bs, b.Ok := by
    clear hM
    induction hm with
    | nil => simp
    | cons h1 _ ih =>
      intro b hb
      rcases List.mem_cons.1 hb with rfl | hb
      · intro d; rw [h1.n]; exact h _ (by simp) d
      · exact ih (fun a ha => h a (by simp [ha])) b hb
  have hok : ∀ a ∈ as ++ bs, a.Ok := fun a ha => (List.mem_append.1 ha).elim (h a) (hb a)
  rw [irreducible_eq _ hok] at hM
  split_ifs at hM with hn
  simp only [Res.ok.injEq, Prod.mk.injEq] at hM
  obtain ⟨-, hM⟩ := hM
  rw [centerBH_eq _ hok A hA cm d]
  congr 1
  have key : ((as ++ bs).map fun q => surfSum q fun l => q.x l d - cm d).sum = (c d - cm d) * area (as ++ bs) := by
    unfold area
    clear hM hn hok hb h
    simp only [List.map_append, List.sum_append]
    induction hm with
    | nil => simp
    | cons h1 _ ih =>
      obtain ⟨e1, e2⟩ := mirror_sum c cm _ _ h1 d
      simp only [List.map_cons, List.sum_cons]
      rw [e1, e2]
      linarith
  rw [key, hM, mul_div_cancel_right₀ _ hA]

/-- C102: the integrand of the centre of a star is the Laplacian of the conformal factor for the conformal metric. -/
theorem C102_laplacian (q : In) (S : q.Sym) : d2psi q = laplacian q := by
  unfold d2psi laplacian
  simp only [Fin.sum_univ_three]
  rw [S.ig 1 0, S.ig 2 0, S.ig 2 1, S.dd 1 0, S.dd 2 0, S.dd 2 1, S.C 0 1 0, S.C 0 2 0, S.C 0 2 1, S.C 1 1 0, S.C 1 2 0, S.C 1 2 1,
    S.C 2 1 0, S.C 2 2 0, S.C 2 2 1]
  ring

/-- the integral of the Laplacian over the star -/
noncomputable def massIntegral (fields : Piece → ℕ → In) (ps : List Piece) : ℝ := (ps.map fun q => volSum q fun l => d2psi (fields q l)).sum

/-- C102: measured from another origin the position of a star changes by the displacement of the origin, if its ADM mass is that of the
conformal factor, -1/(2π) times the integral of the Laplacian; in general by the displacement times the quotient of the two. -/
theorem C102_star_origin (fields : Piece → ℕ → In) (ps : List Piece) (h : ∀ a ∈ ps, a.Ok) (M : ℝ) (hM : M ≠ 0) (cm cm' : Fin 3 → ℝ) (d : Fin 3) :
    ∃ r, centerNS fields ps M cm d = .ok r ∧
      centerNS fields ps M cm' d = .ok (r - (cm' d - cm d) * (-1 / (2 * Real.pi) * massIntegral fields ps / M)) := by
  have e : ∀ cm : Fin 3 → ℝ, centerNS fields ps M cm d =
      .ok ((ps.map fun q => volSum q fun l => d2psi (fields q l) * (q.x l d - cm d)).sum / (-2 * Real.pi * M)) := by
    intro cm
    unfold centerNS
    rw [total_sum _ (fun q => volSum q fun l => d2psi (fields q l) * (q.x l d - cm d)) ps 0 (fun a ha => inside_sum a (h a ha) _), Res.bind_ok,
      zero_add, if_neg hM]
  refine ⟨_, e cm, ?_⟩
  rw [e cm']
  congr 1
  rw [sum_map_lin ps (fun q => volSum q fun l => d2psi (fields q l) * (q.x l d - cm' d)) (fun q => volSum q fun l => d2psi (fields q l) * (q.x l d - cm d))
    (fun q => volSum q fun l => d2psi (fields q l)) (cm' d - cm d)]
  · unfold massIntegral
    have := Real.pi_ne_zero
    field_simp
    ring
  · intro a _
    rw [← volSum_lin]
    congr 1
    funext l
    ring

/-- C102: the spin is J - R×P, of stars and black holes only. -/
theorem C102_spin (ctype : Physics.Obj) (J P : Fin 3 → ℝ) (rNS rBH : Res (Fin 3 → ℝ)) (R : Fin 3 → ℝ) :
    (ctype = .NS → rNS = .ok R → spinJRP ctype J P rNS rBH = .ok fun a => J a - ObsSpec.cross R P a) ∧
    (ctype = .BH → rBH = .ok R → spinJRP ctype J P rNS rBH = .ok fun a => J a - ObsSpec.cross R P a) ∧
    (ctype ≠ .NS → ctype ≠ .BH → spinJRP ctype J P rNS rBH = .abort) := by
  have key : spinOf J R P = fun a => J a - ObsSpec.cross R P a := by
    funext a
    fin_cases a <;> simp [spinOf, ObsSpec.cross, ObsSpec.eps, Fin.sum_univ_three] <;> ring
  refine ⟨?_, ?_, ?_⟩
  · rintro rfl rfl; rw [spinJRP, if_pos rfl, Res.bind_ok, key]
  · rintro rfl rfl; rw [spinJRP, if_neg (by decide), if_pos rfl, Res.bind_ok, key]
  · intro h1 h2; rw [spinJRP, if_neg h1, if_neg h2]; rfl

/-- C102: the spin does not depend on the origin: another origin changes the angular momentum by the moment of the linear momentum and the
position of the centre by the displacement. -/
theorem C102_spin_origin (J R P D : Fin 3 → ℝ) :
    spinOf (fun a => J a - ObsSpec.cross D P a) (fun a => R a - D a) P = spinOf J R P := by
  funext a
  fin_cases a <;> simp [spinOf, ObsSpec.cross, ObsSpec.eps, Fin.sum_univ_three] <;> ring

/-! ### examples -/

/-- a piece of a plane, one unit wide, with the given points -/
noncomputable def exPiece (s : ℝ) : Piece where
  P := ⟨fun _ => 2, fun _ => 0, fun _ => 1, fun _ i j => if i = j then 1 else 0⟩
  g := ⟨fun _ => 1, fun _ => 0, fun _ => 0, fun _ => 1, fun _ => 0, fun _ => 1⟩
  psi := fun _ => 1
  x := fun l d => s * (l + (d : ℕ) + 1)

theorem exPiece_ok (s : ℝ) : (exPiece s).Ok := by intro d; simp [exPiece]

theorem exPiece_el (s : ℝ) (l : ℕ) : surfEl (exPiece s).P (physical (exPiece s).psi (exPiece s).g) 0 1 l = 1 := by
  have e : (exPiece s).P.dxdX l = 1 := by
    unfold Patch.dxdX
    have : (Matrix.of ((exPiece s).P.jac l)) = 1 := by
      ext i j; simp [exPiece, Matrix.one_apply]
    simp [this]
  unfold surfEl induced
  rw [e]
  simp [Metric.mat, physical, exPiece]

/-- the two pieces of plane, each of area 1, opposite to each other: `C102_area`, `C102_scale`, `C102_center_origin`, `C102_center_symmetric`,
`C102_area_violation` -/
example : ∃ M, irreducible [exPiece 1, exPiece (-1)] = .ok (M, 2) ∧ 16 * Real.pi * M ^ 2 = 2 ∧
    irreducible ([exPiece 1, exPiece (-1)].map (Piece.scale 3)) = .ok (3 ^ 2 * M, 3 ^ 4 * 2) ∧
    (∀ d, centerBH [exPiece 1, exPiece (-1)] 2 (fun _ => 5) d = .ok (0 - 5)) ∧
    (∃ r, centerBH [exPiece 1, exPiece (-1)] 2 (fun _ => 5) 0 = .ok r ∧ centerBH [exPiece 1, exPiece (-1)] 2 (fun _ => 7) 0 = .ok (r - (7 - 5))) ∧
    ∃ r r', centerBH [exPiece 1, exPiece (-1)] 3 (fun _ => 5) 0 = .ok r ∧ centerBH [exPiece 1, exPiece (-1)] 3 (fun _ => 7) 0 = .ok r' ∧
      7 + r' ≠ 5 + r := by
  have hok : ∀ a ∈ [exPiece 1, exPiece (-1)], a.Ok := by
    intro a ha; simp only [List.mem_cons, List.not_mem_nil, or_false] at ha; rcases ha with rfl | rfl <;> exact exPiece_ok _
  have hone : ∀ s : ℝ, ∫ x in ((exPiece s).P.mn 0)..((exPiece s).P.mx 0), ∫ y in ((exPiece s).P.mn 1)..((exPiece s).P.mx 1), (1 : ℝ) = 1 := by
    intro s; simp [exPiece]
  have hsum : ([exPiece 1, exPiece (-1)].map fun a => ∫ x in (a.P.mn 0)..(a.P.mx 0), ∫ y in (a.P.mn 1)..(a.P.mx 1), (1 : ℝ)).sum = 2 := by
    simp only [List.map_cons, List.map_nil, List.sum_cons, List.sum_nil, hone]; norm_num
  have hpoly : ∀ n : ℕ, 2 ≤ n → IsPoly n fun _ => (1 : ℝ) := by
    intro n hn
    refine ⟨1, ?_, fun x => by simp⟩
    rw [Polynomial.degree_one]
    exact_mod_cast (by omega : 0 < n)
  obtain ⟨M, A, h1, h2, -, h3⟩ := C102_area [exPiece 1, exPiece (-1)] hok
    (by intro a ha d; simp only [List.mem_cons, List.not_mem_nil, or_false] at ha; rcases ha with rfl | rfl <;> simp [exPiece])
    (fun _ _ _ => 1)
    (by intro a ha i j _ _; simp only [List.mem_cons, List.not_mem_nil, or_false] at ha; rcases ha with rfl | rfl <;> exact exPiece_el _ _)
    (fun a ha _ => hpoly _ (hok a ha 0)) (fun a ha _ => hpoly _ (hok a ha 1)) (by rw [hsum]; norm_num)
  rw [hsum] at h2
  subst h2
  have hm : List.Forall₂ (Mirror fun _ => 0) [exPiece 1] [exPiece (-1)] :=
    .cons ⟨rfl, fun i _ j _ d => by simp [exPiece], fun i _ j _ => rfl⟩ .nil
  refine ⟨M, h1, h3, C102_scale _ hok 3 (by norm_num) M 2 h1, fun d => ?_, ?_, ?_⟩
  · exact C102_center_symmetric [exPiece 1] [exPiece (-1)] (fun _ => 0) (fun _ => 5) hm (fun a ha => hok a (by simp at ha; simp [ha])) M 2 (by norm_num) h1 d
  · exact C102_center_origin _ hok M 2 (by norm_num) h1 (fun _ => 5) (fun _ => 7) 0
  · exact C102_area_violation _ hok M 2 3 (by norm_num) h1 (by norm_num) (fun _ => 5) (fun _ => 7) 0 (by norm_num)

/-- `C102_star_origin` and `C102_laplacian` -/
example : (∃ r, centerNS (fun _ _ => ⟨fun _ => 1, fun _ _ => 2, fun i j => if i = j then 1 else 0, fun _ _ _ => 0⟩) [exPiece 1] 2 (fun _ => 0) 0 = .ok r) ∧
    d2psi ⟨fun _ => 1, fun _ _ => 2, fun i j => if i = j then 1 else 0, fun _ _ _ => 0⟩ = 6 := by
  refine ⟨?_, ?_⟩
  · obtain ⟨r, h, -⟩ := C102_star_origin (fun _ _ => ⟨fun _ => 1, fun _ _ => 2, fun i j => if i = j then 1 else 0, fun _ _ _ => 0⟩) [exPiece 1]
      (by intro a ha; rw [List.mem_singleton] at ha; subst ha; exact exPiece_ok _) 2 (by norm_num) (fun _ => 0) (fun _ => 1) 0
    exact ⟨r, h⟩
  · rw [C102_laplacian _ ⟨fun i j => by simp [eq_comm], fun _ _ => rfl, fun _ _ _ => rfl⟩]
    simp [laplacian, Fin.sum_univ_three]
    norm_num

/-- `C102_spin` -/
example : spinJRP .BH (fun _ => 1) (fun a => if a = 0 then 1 else 0) .abort (.ok fun a => if a = 1 then 2 else 0) =
    .ok fun a => 1 - ObsSpec.cross (fun a => if a = 1 then 2 else 0) (fun a => if a = 0 then 1 else 0) a :=
  (C102_spin .BH _ _ _ _ _).2.1 rfl rfl

end Elliptica.ObsCenter
