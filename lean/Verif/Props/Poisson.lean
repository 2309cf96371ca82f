import Verif.Model.Poisson
import Verif.Props.Assemble
import Verif.Props.Sewing
/-!
C82: the project Poisson0: the equations that are assembled, and what one Newton step of the solver does.
-/
namespace Elliptica.Poisson
open Real Finset Elliptica.Deriv Elliptica.Jac Elliptica.Schur

variable {e : ℝ}

theorem eqAlpha_ok {p : Patch} (hp : Good e p) (hx : ∀ d, p.coll d = .extrema) (hs : p.sys ≠ .other) (x : ℕ → Fin 3 → ℝ)
    (f : Coeff.St ℝ) (hf : Coeff.Inv p.n (mW p) f) (ws : Pts) :
    ∃ f' F, eqAlpha e p x f = .ok (f', F) ∧ f'.v = f.v ∧ Coeff.Inv p.n (mW p) f' ∧
      ∀ ijk, ijk < nn p → F ijk = ∑ lmn ∈ range (nn p), jacB e p ws ijk lmn * f.v lmn + 3 * rho (x ijk) ^ (-2.5 : ℝ) := by
  obtain ⟨f1, w1, a1, a2, a3, a4⟩ := second_matrix hp hx hs f hf 0 0 0 (by simp) ws
  obtain ⟨f2, w2, b1, b2, b3, b4⟩ := second_matrix hp hx hs f1 a3 3 1 1 (by simp) ws
  obtain ⟨f3, w3, c1, c2, c3, c4⟩ := second_matrix hp hx hs f2 b3 5 2 2 (by simp) ws
  refine ⟨f3, _, by unfold eqAlpha; rw [a1]; simp only [Res.bind]; rw [b1]; simp only; rw [c1], by rw [c2, b2, a2], c3, fun ijk h => ?_⟩
  simp only
  rw [a4 ijk h, b4 ijk h, c4 ijk h, b2, a2]
  unfold jacB
  simp only [add_mul, sum_add_distrib]

/-- a patch of the project: the spectral functions work on it and its nodes are labelled -/
structure Ok (e : ℝ) (d : Dom) : Prop where
  ready : Sew.Ready e d.toDom
  asm : Assembled d.n (d.sfs.map (·.toSubFace)) d.L d.NS d.outerB d.innerB

/-- y is the Laplacian ∂²/∂x² + ∂²/∂y² + ∂²/∂z² that the program computes at node q for a field with values v -/
def Laplacian (e : ℝ) (p : Patch) (v : ℕ → ℝ) (q : ℕ) (y : ℝ) : Prop :=
  ∃ w : Fin 3 → ℕ → ℝ, (∀ i, ∃ f, takeDer e p ⟨v, none, none⟩ [.x i, .x i] = .ok (f, w i)) ∧ y = ∑ i, w i q

/-- node q is on an outer or inner boundary of the grid -/
def Boundary (d : Dom) (q : ℕ) : Prop := OnBoundary (d.sfs.map (·.toSubFace)) q

theorem laplacian_iff {p : Patch} (hp : Good e p) (hx : ∀ d, p.coll d = .extrema) (hs : p.sys ≠ .other) (ws : Pts) (v : ℕ → ℝ)
    (q : ℕ) (hq : q < nn p) (y : ℝ) : Laplacian e p v q y ↔ y = ∑ l ∈ range (nn p), jacB e p ws q l * v l := by
  obtain ⟨f1, w1, a1, -, -, a4⟩ := second_matrix hp hx hs ⟨v, none, none⟩ (Or.inl rfl) 0 0 0 (by simp) ws
  obtain ⟨f2, w2, b1, -, -, b4⟩ := second_matrix hp hx hs ⟨v, none, none⟩ (Or.inl rfl) 3 1 1 (by simp) ws
  obtain ⟨f3, w3, c1, -, -, c4⟩ := second_matrix hp hx hs ⟨v, none, none⟩ (Or.inl rfl) 5 2 2 (by simp) ws
  have hsum : w1 q + w2 q + w3 q = ∑ l ∈ range (nn p), jacB e p ws q l * v l := by
    rw [a4 q hq, b4 q hq, c4 q hq]
    unfold jacB
    simp only [add_mul, sum_add_distrib]
  constructor
  · rintro ⟨w, hw, rfl⟩
    obtain ⟨g0, h0⟩ := hw 0
    obtain ⟨g1, h1⟩ := hw 1
    obtain ⟨g2, h2⟩ := hw 2
    rw [a1] at h0; rw [b1] at h1; rw [c1] at h2
    rw [← hsum, Fin.sum_univ_three, ← (Prod.mk.inj (Res.ok.inj h0)).2, ← (Prod.mk.inj (Res.ok.inj h1)).2, ← (Prod.mk.inj (Res.ok.inj h2)).2]
  · rintro rfl
    refine ⟨fun i => if i = 0 then w1 else if i = 1 then w2 else w3, fun i => ?_, ?_⟩
    · match i with
      | 0 => exact ⟨f1, by simpa using a1⟩
      | 1 => exact ⟨f2, by simpa using b1⟩
      | 2 => exact ⟨f3, by simpa using c1⟩
    · rw [← hsum, Fin.sum_univ_three]; rfl

theorem n_eq (d : Dom) : d.n 0 * d.n 1 * d.n 2 = nn d.P := by simp [Dom.n, nn, ax]

/-- **C82 (residual).** The vector of the residuals exists for every field, and the row of each node of the subdomain holds
∇²α + 3 (1 + r²)^(-5/2) for a node inside the patch, α - (1 + r²)^(-1/2) for a node on the boundary. -/
theorem C82_residual {d : Dom} (h : Ok e d) (f : Coeff.St ℝ) (hf : Coeff.Inv d.P.n (mW d.P) f) :
    ∃ r, residual e d f = .ok r ∧ ∀ s, s < d.NS → ∀ q, q = d.L.inv.getD s 0 →
      (¬ IsFaceNode d.n q → ∃ y, Laplacian e d.P f.v q y ∧ r s = y + 3 * rho (d.x q) ^ (-2.5 : ℝ)) ∧
      (Boundary d q → r s = f.v q - rho (d.x q) ^ (-0.5 : ℝ)) := by
  obtain ⟨f', F, h1, h2, -, h4⟩ := eqAlpha_ok h.ready.good h.ready.ext h.ready.sys d.x f hf anyPts
  obtain ⟨r, hr, hv, -⟩ := C81_residual h.asm F (bcOuter d.x f.v) (bcInner d.x f.v)
  refine ⟨r, by unfold residual; rw [h1]; exact hr, fun s hs q hq => ?_⟩
  subst hq
  have hlt := (Sew.node_lt _ h.ready).1 s hs
  refine ⟨fun hn => ⟨_, (laplacian_iff h.ready.good h.ready.ext h.ready.sys anyPts f.v _ hlt _).2 rfl, ?_⟩, fun hb => ?_⟩
  · rw [(hv s hs).1 hn, h4 _ hlt]
  · rcases (onBoundary_iff _ _).1 hb with ho | hi
    · rw [(hv s hs).2.1 ho]; rfl
    · rw [(hv s hs).2.2 hi]; rfl

theorem boundary_not_interface {d : Dom} (h : Ok e d) (s i : ℕ) (hs : s < d.NS) (hi : i < d.L.Iinv.length) :
    d.L.inv.getD s 0 ≠ d.L.Iinv.getD i 0 := by
  obtain ⟨h1, h2, h3, h4, h5, h6⟩ := Sew.labels h.ready
  have hnd : d.L.inv.Nodup := h1.nodup_iff.2 List.nodup_range
  intro he
  have hl : s < (d.L.inv.take d.NS).length := by rw [List.length_take]; omega
  have m1 : d.L.inv.getD s 0 ∈ d.L.inv.take d.NS := by
    rw [List.getD_eq_getElem _ _ (by omega), List.mem_take_iff_getElem]
    exact ⟨s, by omega, rfl⟩
  have m2 : d.L.Iinv.getD i 0 ∈ d.L.Iinv := by
    rw [List.getD_eq_getElem _ _ hi]; exact List.getElem_mem _
  rw [h2, List.nodup_append] at hnd
  exact hnd.2.2 _ m1 _ m2 he

/-- the row of the full matrix of a patch -/
noncomputable def rowA (e : ℝ) (d : Dom) (ws : Pts) (s l : ℕ) : ℝ :=
  if s < innerCount d.n then jacB e d.P ws (d.L.inv.getD s 0) l else if d.L.inv.getD s 0 = l then 1 else 0

theorem matrices_eq {d : Dom} (h : Ok e d) (ws : Pts) (s : ℕ) (hs : s < d.NS) :
    (∀ t, t < d.NS → (matrices e d ws).1 (s, t) = rowA e d ws s (d.L.inv.getD t 0)) ∧
    ∀ i, i < d.NI → (matrices e d ws).2 (i, s) = rowA e d ws s (d.L.Iinv.getD i 0) := by
  have hj := C81_jacobian h.asm (jacB e d.P ws) (jacE e d.P ws) jacBcB jacBcE jacBcB jacBcE s hs
  rw [n_eq] at hj
  obtain ⟨hl, ⟨a, b, c⟩ | ⟨a, b, c⟩⟩ := h.asm.row s hs
  · obtain ⟨h1, h2⟩ := hj.1 b
    refine ⟨fun t ht => ?_, fun i hi => ?_⟩
    · unfold rowA; rw [if_pos a]; exact h1 t ht
    · unfold rowA; rw [if_pos a]; exact h2 i hi
  · have hb : (∀ t, t < d.NS → (matrices e d ws).1 (s, t) = jacBcB (d.L.inv.getD s 0) (d.L.inv.getD t 0)) ∧
        ∀ i, i < d.L.Iinv.length → (matrices e d ws).2 (i, s) = jacBcE (d.L.inv.getD s 0) (d.L.Iinv.getD i 0) := by
      rcases (onBoundary_iff _ _).1 c with ho | hi
      · exact hj.2.1 ho
      · exact hj.2.2 hi
    refine ⟨fun t ht => ?_, fun i hi => ?_⟩
    · unfold rowA; rw [if_neg a]; exact hb.1 t ht
    · unfold rowA; rw [if_neg a, hb.2 i hi, if_neg (boundary_not_interface h s i hs hi)]; rfl

theorem rows_sum {d : Dom} (h : Ok e d) (ws : Pts) (s : ℕ) (hs : s < d.NS) (g : ℕ → ℝ) :
    ∑ t ∈ range d.NS, (matrices e d ws).1 (s, t) * g (d.L.inv.getD t 0) +
      ∑ i ∈ range d.NI, (matrices e d ws).2 (i, s) * g (d.L.Iinv.getD i 0) = ∑ l ∈ range (nn d.P), rowA e d ws s l * g l := by
  obtain ⟨m1, m2⟩ := matrices_eq h ws s hs
  rw [← Sew.sum_labels h.ready (fun l => rowA e d ws s l * g l)]
  congr 1
  · exact sum_congr rfl fun t ht => by rw [m1 t (mem_range.1 ht)]
  · exact sum_congr rfl fun t ht => by rw [m2 t (mem_range.1 ht)]

theorem residual_eq {d : Dom} (h : Ok e d) (ws : Pts) (f : Coeff.St ℝ) (hf : Coeff.Inv d.P.n (mW d.P) f) :
    ∃ r, residual e d f = .ok r ∧ ∀ s, s < d.NS → r s = ∑ l ∈ range (nn d.P), rowA e d ws s l * f.v l +
      (if s < innerCount d.n then 3 * rho (d.x (d.L.inv.getD s 0)) ^ (-2.5 : ℝ) else -rho (d.x (d.L.inv.getD s 0)) ^ (-0.5 : ℝ)) := by
  obtain ⟨r, h1, h2⟩ := C82_residual h f hf
  refine ⟨r, h1, fun s hs => ?_⟩
  obtain ⟨h3, h4⟩ := h2 s hs _ rfl
  have hlt := (Sew.node_lt _ h.ready).1 s hs
  obtain ⟨hl, ⟨a, b, c⟩ | ⟨a, b, c⟩⟩ := h.asm.row s hs
  · obtain ⟨y, hy, hr⟩ := h3 b
    rw [hr, (laplacian_iff h.ready.good h.ready.ext h.ready.sys ws f.v _ hlt y).1 hy, if_pos a]
    congr 1
    exact sum_congr rfl fun l _ => by unfold rowA; rw [if_pos a]
  · rw [h4 c, if_neg a]
    have : ∀ l ∈ range (nn d.P), rowA e d ws s l * f.v l = if d.L.inv.getD s 0 = l then f.v l else 0 := by
      intro l _
      unfold rowA
      rw [if_neg a]
      split <;> simp
    rw [sum_congr rfl this, sum_ite_eq, if_pos (mem_range.2 hlt)]
    ring

/-- **C82 (Jacobian).** The matrices B and E of a patch are the derivative of its residuals: changing the field from v to
v + δ changes row s by B δ on the subdomain nodes plus E δ on the interface nodes. -/
theorem C82_jacobian {d : Dom} (h : Ok e d) (ws : Pts) (v δ : ℕ → ℝ) :
    ∃ r r', residual e d ⟨v, none, none⟩ = .ok r ∧ residual e d ⟨fun q => v q + δ q, none, none⟩ = .ok r' ∧
      ∀ s, s < d.NS → r' s = r s + (∑ t ∈ range d.NS, (matrices e d ws).1 (s, t) * δ (d.L.inv.getD t 0) +
        ∑ i ∈ range d.NI, (matrices e d ws).2 (i, s) * δ (d.L.Iinv.getD i 0)) := by
  obtain ⟨r, a1, a2⟩ := residual_eq h ws ⟨v, none, none⟩ (Or.inl rfl)
  obtain ⟨r', b1, b2⟩ := residual_eq h ws ⟨fun q => v q + δ q, none, none⟩ (Or.inl rfl)
  refine ⟨r, r', a1, b1, fun s hs => ?_⟩
  rw [rows_sum h ws s hs δ, a2 s hs, b2 s hs]
  simp only [mul_add, sum_add_distrib]
  ring

/-- **C82 (one Newton step).** Take any grid of ready patches and any field; let the matrices, the right-hand sides and the
coupling blocks be those the program assembles, with no small entry dropped and a direct solver that only returns solutions.
If the step with full weight runs through, the field it leaves satisfies the discrete problem exactly: at every node inside a
patch the computed Laplacian is -3 (1 + r²)^(-5/2), at every boundary node the value is (1 + r²)^(-1/2), and every interface
residual vanishes. -/
theorem C82_step (ws : Pts) {np : ℕ} {D : ℕ → Dom} (hO : ∀ a, a < np → Ok e (D a)) (hG : Sew.Grid e np fun a => (D a).toDom)
    (em drop : ℝ) (he : 0 ≤ em) (solve : Solver ℝ) (hs : Sound solve) (P : ℕ → Schur.Patch ℝ)
    (hn : NothingDropped (drop + em) em np P) (u : ℕ → Coeff.St ℝ) (hu : ∀ a, a < np → Coeff.Inv (D a).P.n (mW (D a).P) (u a))
    (hNS : ∀ a, a < np → (P a).NS = (D a).NS) (hNI : ∀ a, a < np → (P a).NI = (D a).NI)
    (hB : ∀ a, a < np → ((P a).B, (P a).ET) = matrices e (D a) ws) (hf : ∀ a, a < np → residual e (D a) (u a) = .ok (P a).f)
    (hFC : ∀ q, q < np → ∀ a, a < np → Sew.makeFC e ws (fun a => (D a).toDom) a q = .ok ((P a).FC q))
    (hg : ∀ q, q < np → Sew.residual e np (fun a => (D a).toDom) (fun a => (u a).v) q = .ok (P q).g) (junk : ℕ → ℕ → ℝ)
    (r : ℕ → (ℕ → ℝ) × (ℕ → ℝ))
    (hr : stepMulti em drop solve np P (fun p => ((D p).L.inv, (D p).L.Iinv)) 1 (fun a => (u a).v) junk = .ok r) :
    ∀ a, a < np →
      (∀ q, q < nn (D a).P → ¬ IsFaceNode (D a).n q → Laplacian e (D a).P (r a).1 q (-3 * rho ((D a).x q) ^ (-2.5 : ℝ))) ∧
      (∀ q, Boundary (D a) q → (r a).1 q = rho ((D a).x q) ^ (-0.5 : ℝ)) ∧
      ∃ g', Sew.residual e np (fun a => (D a).toDom) (fun p => (r p).1) a = .ok g' ∧ ∀ i, i < (D a).NI → g' i = 0 := by
  intro a ha
  have hL : ∀ p, p < np → Labelled (D p).n ((D p).sfs.map (·.toSubFace)) (D p).L.inv (D p).L.Iinv (P p).NS (P p).NI := by
    intro p hp
    have hrd := (hO p hp).ready
    obtain ⟨b, hb⟩ := hrd.lab
    obtain ⟨h1, h2, h3, h4, h5, h6⟩ := Sew.labels hrd
    refine ⟨⟨b, (D p).L, by rw [hNS p hp]; exact hb, rfl, rfl⟩, ?_⟩
    rw [hNS p hp, hNI p hp, n_eq]
    exact h6
  obtain ⟨z, hz, hv⟩ := C34_newton em drop he solve hs np P hn _ _ (fun p => ((D p).L.inv, (D p).L.Iinv)) hL 1 (fun a => (u a).v) junk r hr
  have hrd := (hO a ha).ready
  obtain ⟨n1, n2⟩ := Sew.node_lt _ hrd
  have hnew : ∀ q, q < nn (D a).P → (r a).1 q = (u a).v q - z a q := by
    intro q hq
    have := (hv a ha q (by rw [n_eq]; exact hq)).1
    rw [this]; ring
  -- the residual of the new field is zero
  obtain ⟨r0, a1, a2⟩ := residual_eq (hO a ha) ws (u a) (hu a ha)
  obtain ⟨r1, b1, b2⟩ := residual_eq (hO a ha) ws ⟨(r a).1, none, none⟩ (Or.inl rfl)
  have hzero : ∀ s, s < (D a).NS → r1 s = 0 := by
    intro s hs'
    have hsub := hz.subdomain a ha s (by rw [hNS a ha]; exact hs')
    have hB' := hB a ha
    have e1 : (P a).B = (matrices e (D a) ws).1 := by rw [← hB']
    have e2 : (P a).ET = (matrices e (D a) ws).2 := by rw [← hB']
    rw [hNS a ha, hNI a ha, e1, e2, rows_sum (hO a ha) ws s hs' (z a)] at hsub
    have hf' := hf a ha
    rw [a1] at hf'
    rw [← Res.ok.inj hf', a2 s hs'] at hsub
    rw [b2 s hs']
    have : ∀ l ∈ range (nn (D a).P), rowA e (D a) ws s l * (r a).1 l = rowA e (D a) ws s l * (u a).v l - rowA e (D a) ws s l * z a l := by
      intro l hl
      rw [hnew l (mem_range.1 hl)]; ring
    simp only
    rw [sum_congr rfl this, sum_sub_distrib, hsub]
    ring
  obtain ⟨r1', c1, c2⟩ := C82_residual (hO a ha) ⟨(r a).1, none, none⟩ (Or.inl rfl)
  rw [b1] at c1
  have hr1 := Res.ok.inj c1
  obtain ⟨closed, hlab⟩ := (hO a ha).asm.lab
  obtain ⟨h1, h2, h3, h4, h5, -⟩ := C50_labels _ closed _ _ _ hlab
  have hrow : ∀ q, q < nn (D a).P → (¬ IsFaceNode (D a).n q ∨ Boundary (D a) q) → ∃ s, s < (D a).NS ∧ q = (D a).L.inv.getD s 0 := by
    intro q hq hc
    have hm := (h5 q).2 ⟨by rw [n_eq]; exact hq, hc⟩
    rw [List.mem_take_iff_getElem] at hm
    obtain ⟨k, hk, hke⟩ := hm
    exact ⟨k, by omega, by rw [List.getD_eq_getElem _ _ (by omega), hke]⟩
  refine ⟨fun q hq hnf => ?_, fun q hb => ?_, ?_⟩
  · obtain ⟨s, hs', hqs⟩ := hrow q hq (Or.inl hnf)
    obtain ⟨y, hy, hry⟩ := (c2 s hs' q hqs).1 hnf
    rw [← hr1, hzero s hs'] at hry
    have : y = -3 * rho ((D a).x q) ^ (-2.5 : ℝ) := by linarith
    rw [← this]; exact hy
  · have hq : q < nn (D a).P := by
      obtain ⟨i, j, k, hi, hj, hk, rfl, -⟩ := (hO a ha).asm.face q hb
      rw [← n_eq]
      calc (i * (D a).n 1 + j) * (D a).n 2 + k < (i * (D a).n 1 + j) * (D a).n 2 + (D a).n 2 := by omega
        _ = (i * (D a).n 1 + (j + 1)) * (D a).n 2 := by ring
        _ ≤ (i * (D a).n 1 + (D a).n 1) * (D a).n 2 := Nat.mul_le_mul_right _ (by omega)
        _ = (i + 1) * (D a).n 1 * (D a).n 2 := by ring
        _ ≤ (D a).n 0 * (D a).n 1 * (D a).n 2 := Nat.mul_le_mul_right _ (Nat.mul_le_mul_right _ hi)
    obtain ⟨s, hs', hqs⟩ := hrow q hq (Or.inr hb)
    have := (c2 s hs' q hqs).2 hb
    rw [← hr1, hzero s hs'] at this
    simp only at this
    linarith
  · obtain ⟨g', hg1, hg2⟩ := Sew.C71_newton ws hG em drop he solve hs P hn hNS hNI hFC 1 (fun a => (u a).v) junk hg r hr a ha
    refine ⟨g', hg1, fun i hi => ?_⟩
    rw [hg2 i (by rw [hNI a ha]; exact hi)]; ring

/-- **C82 (one Newton step, one patch).** The same on a grid of a single patch, all of whose faces are boundary. -/
theorem C82_single (ws : Pts) {d : Dom} (hO : Ok e d) (hNI : d.NI = 0) (em drop : ℝ) (solve : Solver ℝ) (hs : Sound solve)
    (P : Schur.Patch ℝ) (hd : ∀ s, s < P.NS → ∀ t, t < P.NS → P.B (s, t) = 0 ∨ drop + em < |P.B (s, t)|) (u : Coeff.St ℝ)
    (hu : Coeff.Inv d.P.n (mW d.P) u) (hNS : P.NS = d.NS) (hB : P.B = (matrices e d ws).1) (hf : residual e d u = .ok P.f)
    (junk : ℕ → ℝ) (r : (ℕ → ℝ) × (ℕ → ℝ)) (hr : stepSingle em drop solve P 1 d.L.inv u.v junk = .ok r) :
    (∀ q, q < nn d.P → ¬ IsFaceNode d.n q → Laplacian e d.P r.1 q (-3 * rho (d.x q) ^ (-2.5 : ℝ))) ∧
    ∀ q, q < nn d.P → IsFaceNode d.n q → r.1 q = rho (d.x q) ^ (-0.5 : ℝ) := by
  have hL : Labelled d.n (d.sfs.map (·.toSubFace)) d.L.inv d.L.Iinv P.NS 0 := by
    obtain ⟨b, hb⟩ := hO.ready.lab
    obtain ⟨h1, h2, h3, h4, h5, h6⟩ := Sew.labels hO.ready
    refine ⟨⟨b, d.L, by rw [hNS]; exact hb, rfl, rfl⟩, ?_⟩
    rw [hNS, n_eq, ← h6, hNI]
  obtain ⟨z, hz, hv⟩ := C34_single em drop solve hs P hd d.n _ d.L.inv d.L.Iinv hL 1 u.v junk r hr
  have hnew : ∀ q, q < nn d.P → r.1 q = u.v q - z q := by
    intro q hq
    rw [(hv q (by rw [n_eq]; exact hq)).1]; ring
  obtain ⟨r0, a1, a2⟩ := residual_eq hO ws u hu
  obtain ⟨r1, b1, b2⟩ := residual_eq hO ws ⟨r.1, none, none⟩ (Or.inl rfl)
  have hzero : ∀ s, s < d.NS → r1 s = 0 := by
    intro s hs'
    have hsub := hz s (by rw [hNS]; exact hs')
    have hsum := rows_sum hO ws s hs' z
    rw [hNI, range_zero, sum_empty, add_zero] at hsum
    rw [hNS, hB, hsum] at hsub
    rw [a1] at hf
    rw [← Res.ok.inj hf, a2 s hs'] at hsub
    rw [b2 s hs']
    have : ∀ l ∈ range (nn d.P), rowA e d ws s l * r.1 l = rowA e d ws s l * u.v l - rowA e d ws s l * z l := by
      intro l hl
      rw [hnew l (mem_range.1 hl)]; ring
    simp only
    rw [sum_congr rfl this, sum_sub_distrib, hsub]
    ring
  obtain ⟨r1', c1, c2⟩ := C82_residual hO ⟨r.1, none, none⟩ (Or.inl rfl)
  rw [b1] at c1
  have hr1 := Res.ok.inj c1
  obtain ⟨closed, hlab⟩ := hO.asm.lab
  obtain ⟨h1, h2, h3, h4, h5, h6, -⟩ := C50_labels _ closed _ _ _ hlab
  have hall : d.L.inv.length = d.NS := by
    obtain ⟨_, _, _, _, h5', h6'⟩ := Sew.labels hO.ready
    rw [h5', ← h6', hNI, add_zero]
  have hrow : ∀ q, q < nn d.P → ∃ s, s < d.NS ∧ q = d.L.inv.getD s 0 := by
    intro q hq
    have hm : q ∈ d.L.inv := h1.mem_iff.2 (List.mem_range.2 (by rw [n_eq]; exact hq))
    obtain ⟨k, hk, hke⟩ := List.getElem_of_mem hm
    exact ⟨k, by omega, by rw [List.getD_eq_getElem _ _ hk, hke]⟩
  refine ⟨fun q hq hnf => ?_, fun q hq hff => ?_⟩
  · obtain ⟨s, hs', hqs⟩ := hrow q hq
    obtain ⟨y, hy, hry⟩ := (c2 s hs' q hqs).1 hnf
    rw [← hr1, hzero s hs'] at hry
    have : y = -3 * rho (d.x q) ^ (-2.5 : ℝ) := by linarith
    rw [← this]; exact hy
  · obtain ⟨s, hs', hqs⟩ := hrow q hq
    have hb : Boundary d q := by
      obtain ⟨-, ⟨a, b, c⟩ | ⟨a, b, c⟩⟩ := hO.asm.row s hs'
      · rw [← hqs] at b; exact absurd hff b
      · rw [← hqs] at c; exact c
    have := (c2 s hs' q hqs).2 hb
    rw [← hr1, hzero s hs'] at this
    simp only at this
    linarith

/-- **C82 (meaning on a Cartesian patch).** The computed Laplacian at a node is the Laplacian, at that node, of the polynomial
through the values of the field at all nodes of the patch. -/
theorem C82_polynomial {p : Patch} (hp : Good e p) (hx : ∀ d, p.coll d = .extrema) (hs : p.sys = .cartesian) (v : ℕ → ℝ)
    (P : MvPolynomial (Fin 3) ℝ) (hP : Fits p P) (hv : Samples p v P) (t : Fin 3 → ℕ) (ht : Inside p t) (y : ℝ) :
    Laplacian e p v (idx p t) y ↔ y = ∑ i, MvPolynomial.eval (pos p t) (MvPolynomial.pderiv i (MvPolynomial.pderiv i P)) := by
  have key : ∀ i : Fin 3, ∃ f w, takeDer e p ⟨v, none, none⟩ [.x i, .x i] = .ok (f, w) ∧
      w (idx p t) = MvPolynomial.eval (pos p t) (MvPolynomial.pderiv i (MvPolynomial.pderiv i P)) := by
    intro i
    obtain ⟨f, w, h1, -, -, h4⟩ := C54_cartesian hp hs ⟨v, none, none⟩ (Or.inl rfl) [.x i, .x i] (by simp [Dir.user]) (by simp) (by simp) P hP hv
    exact ⟨f, w, h1, h4 t ht⟩
  choose f w h1 h2 using key
  constructor
  · rintro ⟨w', hw, rfl⟩
    refine sum_congr rfl fun i _ => ?_
    obtain ⟨g, hg⟩ := hw i
    rw [h1 i] at hg
    rw [← (Prod.mk.inj (Res.ok.inj hg)).2, h2 i]
  · rintro rfl
    exact ⟨w, fun i => ⟨f i, h1 i⟩, sum_congr rfl fun i _ => (h2 i).symm⟩

end Elliptica.Poisson
