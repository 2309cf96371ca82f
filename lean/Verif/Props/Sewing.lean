import Verif.Model.Sewing
import Verif.Props.DInterp
import Verif.Props.SchurUpdate
import Mathlib.Data.List.GetD
/-!
C71: the matrices F and C are the derivatives of the interface residuals.
-/
namespace Elliptica.Sew
open Finset Elliptica.Index Elliptica.Deriv Elliptica.Jac Elliptica.DInterp Mat

/-! ### specification -/

/-- the direction that a subface keeps fixed in the adjacent patch: that of the first flag that is set -/
def kept (sf : SubFace) : Option (Fin 3) :=
  if sf.same.1 then some 0 else if sf.same.2.1 then some 1 else if sf.same.2.2 then some 2 else none

/-- index of the grid points on a face: faces 0, 2, 4 are the first points of the directions 0, 1, 2 and faces 1, 3, 5 the
last ones -/
def faceIndex (p : Deriv.Patch) (f : ℕ) : ℕ :=
  if f = 1 then p.n 0 - 1 else if f = 3 then p.n 1 - 1 else if f = 5 then p.n 2 - 1 else 0

/-- a subface of patch q that fits to the adjacent patch: another patch of the grid; collocated points are points of that
patch and, when values are matched, interface points on both sides; other points are inside that patch and, if the subface
keeps a direction fixed, on its face -/
structure Fits (e : ℝ) (np : ℕ) (D : ℕ → Dom) (q : ℕ) (sf : SubFace) : Prop where
  adj_lt : sf.adj < np
  other : sf.adj ≠ q
  coll : sf.touch = true → sf.copy = true → ∀ s, s < sf.id.length → sf.adjid.getD s 0 < nn (D sf.adj).P ∧
    (sf.dfdn = false → (D q).L.Imap (sf.id.getD s 0) ≠ none → (D sf.adj).L.Imap (sf.adjid.getD s 0) ≠ none)
  face : sf.touch = true → sf.adjFace < 6
  plane : sf.touch = false → kept sf = none
  inter : ¬ (sf.touch = true ∧ sf.copy = true) → ∀ s, s < sf.id.length →
    Point e (D sf.adj).P (kept sf) (faceIndex (D sf.adj).P sf.adjFace) (sf.ip s)
  apart : ∀ d, kept sf = some d → e * (((D sf.adj).P.n d : ℝ) - 1) ^ 2 ≤ (D sf.adj).P.mx d - (D sf.adj).P.mn d
  clear : sf.dfdn = true → kept sf ≠ none → ∀ x, Clear e (D sf.adj).P x

/-- a patch on which the spectral functions work (C54, C68), with the labels of its nodes -/
structure Ready (e : ℝ) (d : Dom) : Prop where
  good : Good e d.P
  ext : ∀ k, d.P.coll k = .extrema
  sys : d.P.sys ≠ .other
  lab : ∃ b, Schur.makeMapAndInv (fun i => d.P.n (ax i)) b (d.sfs.map (·.toSubFace)) = .ok (d.L, d.NS)

/-- a grid whose patches are ready and whose subfaces fit; the subfaces of a patch have different numbers -/
structure Grid (e : ℝ) (np : ℕ) (D : ℕ → Dom) : Prop where
  ready : ∀ p, p < np → Ready e (D p)
  fits : ∀ q, q < np → ∀ sf ∈ (D q).sfs, sf.innerB = false → sf.outerB = false → Fits e np D q sf
  distinct : ∀ q, q < np → ∀ s ∈ (D q).sfs, ∀ t ∈ (D q).sfs, s.face = t.face → s.sn = t.sn → s = t

/-- y is the value, at point s of the subface, of a field with values u on the nodes of patch a: at the node of the patch of
the subface, at the node of the adjacent patch for collocated points, otherwise by interpolation in the adjacent patch -/
def At (e : ℝ) (a : Dom) (own : Bool) (sf : SubFace) (s : ℕ) (u : ℕ → ℝ) (y : ℝ) : Prop :=
  if own then y = u (sf.id.getD s 0)
  else if sf.touch && sf.copy then y = u (sf.adjid.getD s 0)
  else ∃ f, interp e a.P (kept sf) (faceIndex a.P sf.adjFace) ⟨u, none, none⟩ (sf.ip s) = .ok (f, y)

/-- y is what is matched at point s, seen from patch a with field values v: the value of the field, or the derivative along
the normal of the subface -/
def Side (e : ℝ) (a : Dom) (own : Bool) (sf : SubFace) (s : ℕ) (v : ℕ → ℝ) (y : ℝ) : Prop :=
  if sf.dfdn then ∃ (w : Fin 3 → ℕ → ℝ) (z : Fin 3 → ℝ), (∀ x, ∃ f, takeDer e a.P ⟨v, none, none⟩ [.x x] = .ok (f, w x)) ∧
    (∀ x, At e a own sf s (w x) (z x)) ∧ y = ∑ x, sf.nv s x * z x
  else At e a own sf s v y

/-! ### labels -/

theorem lsum (n : ℕ) (g : ℕ → ℝ) : ((List.range n).map g).sum = ∑ i ∈ range n, g i := by
  induction n with
  | zero => simp
  | succ n ih => rw [List.range_succ, List.map_append, List.sum_append, ih, sum_range_succ]; simp

theorem gsum (g : ℕ → ℝ) (l : List ℕ) : ∑ t ∈ range l.length, g (l.getD t 0) = (l.map g).sum := by
  induction l with
  | nil => simp
  | cons a l ih =>
    rw [List.length_cons, sum_range_succ', List.map_cons, List.sum_cons, ← ih, add_comm]
    rfl

section
variable {e : ℝ} {d : Dom} (h : Ready e d)
include h

theorem nn_eq : d.P.n (ax 0) * d.P.n (ax 1) * d.P.n (ax 2) = nn d.P := by simp [nn, ax]

theorem ids_lt (sf : SubFace) (hs : sf ∈ d.sfs) (s : ℕ) (hl : s < sf.id.length) : sf.id.getD s 0 < nn d.P := by
  obtain ⟨b, hb⟩ := h.lab
  unfold Schur.makeMapAndInv at hb
  split at hb
  · cases hb
  · dsimp only at hb
    split at hb
    · cases hb
    · rename_i h1
      rw [nn_eq h] at h1
      simp only [List.any_map, List.any_eq_true, Function.comp, decide_eq_true_eq, not_exists, not_and, not_le] at h1
      refine h1 sf hs _ ?_
      rw [List.getD_eq_getElem _ _ hl]
      exact List.getElem_mem hl

theorem ext_all (sf : SubFace) (hs : sf ∈ d.sfs) : sf.exterF = true := by
  obtain ⟨b, hb⟩ := h.lab
  unfold Schur.makeMapAndInv at hb
  split at hb
  · cases hb
  · dsimp only at hb
    split at hb
    · cases hb
    · split at hb
      · cases hb
      · rename_i h1
        by_contra hne
        exact h1 (by simpa using ⟨sf, hs, by simpa using hne⟩)

theorem labels : d.L.inv.Perm (List.range (nn d.P)) ∧ d.L.inv = d.L.inv.take d.NS ++ d.L.Iinv ∧ d.NS ≤ d.L.inv.length ∧
    (∀ q i, d.L.Imap q = some i ↔ d.L.Iinv[i]? = some q) ∧ d.L.inv.length = nn d.P ∧ d.NS + d.NI = nn d.P := by
  obtain ⟨b, hb⟩ := h.lab
  obtain ⟨h1, -, h3, h4, -, -, h7, -⟩ := Schur.C50_labels _ _ _ _ _ hb
  rw [nn_eq h] at h1
  have hl : d.L.inv.length = nn d.P := by rw [h1.length_eq, List.length_range]
  refine ⟨h1, h3, h4, h7, hl, ?_⟩
  have := congrArg List.length h3
  rw [List.length_append, List.length_take] at this
  unfold Dom.NI
  omega

/-- the nodes with the labels of the subdomain and those with the labels of the interface are all nodes -/
theorem sum_labels (g : ℕ → ℝ) : ∑ t ∈ range d.NS, g (d.L.inv.getD t 0) + ∑ i ∈ range d.NI, g (d.L.Iinv.getD i 0) =
    ∑ l ∈ range (nn d.P), g l := by
  obtain ⟨h1, h2, h3, -, h5, h6⟩ := labels h
  have e1 : ∑ l ∈ range (nn d.P), g l = (d.L.inv.map g).sum := by
    rw [(h1.map g).sum_eq, lsum]
  have e2 : ∑ t ∈ range d.NS, g (d.L.inv.getD t 0) = ((d.L.inv.take d.NS).map g).sum := by
    rw [← gsum, List.length_take, min_eq_left h3]
    refine sum_congr rfl fun t ht => ?_
    rw [mem_range] at ht
    congr 1
    simp [List.getD_eq_getElem?_getD, List.getElem?_take, ht]
  rw [e1, e2]
  unfold Dom.NI
  rw [gsum, ← List.sum_append, ← List.map_append, ← h2]

theorem inv_ne (t : ℕ) (ht : t < d.NS) (q i : ℕ) (hq : d.L.Imap q = some i) : d.L.inv.getD t 0 ≠ q := by
  obtain ⟨h1, h2, h3, h4, h5, h6⟩ := labels h
  have hnd : d.L.inv.Nodup := h1.nodup_iff.2 List.nodup_range
  rw [h2] at hnd
  intro heq
  have hmem : q ∈ d.L.inv.take d.NS := by
    rw [← heq, List.getD_eq_getElem _ _ (by omega)]
    exact List.mem_take_iff_getElem.2 ⟨t, by simp; omega, rfl⟩
  exact (List.disjoint_of_nodup_append hnd) hmem (List.mem_of_getElem? ((h4 q i).1 hq))

theorem Iinv_eq (i : ℕ) (hi : i < d.NI) (q j : ℕ) (hq : d.L.Imap q = some j) : d.L.Iinv.getD i 0 = q ↔ i = j := by
  obtain ⟨h1, h2, h3, h4, h5, h6⟩ := labels h
  have hnd : d.L.inv.Nodup := h1.nodup_iff.2 List.nodup_range
  rw [h2] at hnd
  have hI : d.L.Iinv.Nodup := (List.nodup_append.1 hnd).2.1
  have hj := (h4 q j).1 hq
  rw [List.getD_eq_getElem _ _ hi]
  obtain ⟨hjl, hje⟩ := List.getElem?_eq_some_iff.1 hj
  rw [← hje]
  exact hI.getElem_inj_iff

end

/-! ### entries of F and C -/

/-- m' is m with R(row, node) added to the entries of F and C -/
def Adds (a : Dom) (m m' : FC) (R : ℕ → ℕ → ℝ) : Prop :=
  (∀ r t, t < a.NS → m'.1 (Index.ij a.NS r t) = m.1 (Index.ij a.NS r t) + R r (a.L.inv.getD t 0)) ∧
  ∀ r i, i < a.NI → m'.2 (r, i) = m.2 (r, i) + R r (a.L.Iinv.getD i 0)

theorem Adds.trans {a : Dom} {m m' m'' : FC} {R R' : ℕ → ℕ → ℝ} (h : Adds a m m' R) (h' : Adds a m' m'' R') :
    Adds a m m'' fun r l => R r l + R' r l :=
  ⟨fun r t ht => by rw [h'.1 r t ht, h.1 r t ht]; ring, fun r i hi => by rw [h'.2 r i hi, h.2 r i hi]; ring⟩

theorem Adds.refl (a : Dom) (m : FC) : Adds a m m fun _ _ => 0 := ⟨fun _ _ _ => by simp, fun _ _ _ => by simp⟩

theorem Adds.congr {a : Dom} {m m' : FC} {R R' : ℕ → ℕ → ℝ} (h : Adds a m m' R) (hR : ∀ r l, R r l = R' r l) :
    Adds a m m' R' := ⟨fun r t ht => by rw [h.1 r t ht, hR], fun r i hi => by rw [h.2 r i hi, hR]⟩

theorem ij_inj (n r t r' t' : ℕ) (h1 : t < n) (h2 : t' < n) : Index.ij n r t = Index.ij n r' t' ↔ r = r' ∧ t = t' := by
  unfold Index.ij
  constructor
  · intro h
    have hm := congrArg (· % n) h
    simp only [Nat.add_mul_mod_self_left, Nat.mod_eq_of_lt h1, Nat.mod_eq_of_lt h2] at hm
    subst hm
    have : n * r = n * r' := by omega
    exact ⟨Nat.eq_of_mul_eq_mul_left (by omega) this, rfl⟩
  · rintro ⟨rfl, rfl⟩; rfl

theorem addRow_adds (a : Dom) (r : ℕ) (c : ℕ → ℝ) (m : FC) :
    Adds a m (addRow a r c m) fun r' l => if r' = r then c l else 0 := by
  constructor
  · intro r' t ht
    show (List.range a.NS).foldl _ m.1 _ = _
    rw [loop_add _ _ (fun s q => if q = Index.ij a.NS r s then c (a.L.inv.getD s 0) else 0) (fun m i q => addTo_apply m _ _ q),
      lsum]
    congr 1
    have : ∀ s ∈ range a.NS, (if Index.ij a.NS r' t = Index.ij a.NS r s then c (a.L.inv.getD s 0) else 0) =
        if s = t then (if r' = r then c (a.L.inv.getD t 0) else 0) else 0 := by
      intro s hs
      rw [mem_range] at hs
      simp only [ij_inj _ _ _ _ _ ht hs]
      by_cases h1 : s = t
      · subst h1; simp
      · have : ¬ t = s := fun h => h1 h.symm
        simp [h1, this]
    rw [sum_congr rfl this, sum_ite_eq' (range a.NS) t, if_pos (mem_range.2 ht)]
  · intro r' t ht
    show (List.range a.NI).foldl _ m.2 _ = _
    rw [loop_add _ _ (fun s q => if q = (r, s) then c (a.L.Iinv.getD s 0) else 0) (fun m i q => addTo_apply m _ _ q),
      lsum]
    congr 1
    have : ∀ s ∈ range a.NI, (if ((r', t) : ℕ × ℕ) = (r, s) then c (a.L.Iinv.getD s 0) else 0) =
        if s = t then (if r' = r then c (a.L.Iinv.getD t 0) else 0) else 0 := by
      intro s hs
      simp only [Prod.mk.injEq]
      by_cases h1 : s = t
      · subst h1; simp
      · have : ¬ t = s := fun h => h1 h.symm
        simp [h1, this]
    rw [sum_congr rfl this, sum_ite_eq' (range a.NI) t, if_pos (mem_range.2 ht)]

/-- the sum of E over the points of a subface with label r -/
def atRow (Imap : ℕ → Option ℕ) (sf : SubFace) (E : ℕ → ℕ → ℝ) (r l : ℕ) : ℝ :=
  ∑ s ∈ (range sf.id.length).filter (fun s => Imap (sf.id.getD s 0) = some r), E s l

theorem points_adds (a : Dom) (Imap : ℕ → Option ℕ) (sf : SubFace) (f : ℕ → ℕ → FC → FC) (E : ℕ → ℕ → ℝ)
    (hf : ∀ s r m, Imap (sf.id.getD s 0) = some r → s < sf.id.length → Adds a m (f s r m) fun r' l => if r' = r then E s l else 0) (m : FC) :
    Adds a m (points Imap sf f m) (atRow Imap sf E) := by
  unfold points atRow
  have : ∀ n, n ≤ sf.id.length → Adds a m ((List.range n).foldl (fun m s =>
      match Imap (sf.id.getD s 0) with
      | none => m
      | some r => f s r m) m)
      fun r l => ∑ s ∈ (range n).filter (fun s => Imap (sf.id.getD s 0) = some r), E s l := by
    intro n
    induction n with
    | zero => intro _; exact (Adds.refl a m).congr (by simp)
    | succ n ih =>
      intro hn
      rw [List.range_succ, List.foldl_append, List.foldl_cons, List.foldl_nil]
      have ih := ih (by omega)
      generalize (List.range n).foldl _ m = m1 at ih ⊢
      simp only [range_add_one, filter_insert]
      cases hI : Imap (sf.id.getD n 0) with
      | none => exact ih.congr (by intro r l; simp)
      | some r0 =>
        refine (ih.trans (hf n r0 m1 hI (by omega))).congr ?_
        intro r l
        by_cases hr : r = r0
        · subst hr; simp [add_comm]
        · have : ¬ r0 = r := fun h => hr h.symm
          simp [hr, this]
  exact this _ le_rfl

/-! ### the functions of the field values -/

section
variable {e : ℝ} {d : Dom} (h : Ready e d)
include h

theorem nn_pos : 0 < nn d.P := by
  have h2 := h.good.two
  have h0 := h2 0
  have h1 := h2 1
  have h3 := h2 2
  unfold nn
  exact Nat.mul_pos (Nat.mul_pos (by omega) (by omega)) (by omega)

theorem grad_lin (ws : Pts) (v : ℕ → ℝ) : ∃ w : Fin 3 → ℕ → ℝ, grad e d.P v = .ok w ∧
    (∀ x ijk, ijk < nn d.P → w x ijk = ∑ l ∈ range (nn d.P), entry1 e d.P ws x ijk l * v l) ∧
    ∀ x, ∃ f, takeDer e d.P ⟨v, none, none⟩ [.x x] = .ok (f, w x) := by
  obtain ⟨f0, w0, a0, -, b0⟩ := C68_first h.good h.ext h.sys ⟨v, none, none⟩ (Or.inl rfl) 0 ws
  obtain ⟨f1, w1, a1, -, b1⟩ := C68_first h.good h.ext h.sys ⟨v, none, none⟩ (Or.inl rfl) 1 ws
  obtain ⟨f2, w2, a2, -, b2⟩ := C68_first h.good h.ext h.sys ⟨v, none, none⟩ (Or.inl rfl) 2 ws
  refine ⟨![w0, w1, w2], by simp [grad, a0, a1, a2], ?_, ?_⟩
  · intro x
    match x with
    | 0 => exact b0
    | 1 => exact b1
    | 2 => exact b2
  · intro x
    match x with
    | 0 => exact ⟨f0, a0⟩
    | 1 => exact ⟨f1, a1⟩
    | 2 => exact ⟨f2, a2⟩

theorem exec_value (pl : Option (Fin 3)) (plane : ℕ) (X : Fin 3 → ℝ) (hX : Point e d.P pl plane X)
    (hw : ∀ k, pl = some k → e * ((d.P.n k : ℝ) - 1) ^ 2 ≤ d.P.mx k - d.P.mn k) (v : ℕ → ℝ) :
    execI e d.P (pl, plane) v X = .ok (∑ l ∈ range (nn d.P), dValue e d.P pl X l * v l) := by
  obtain ⟨f, a, -, -, h1, -, h3, -⟩ := C70_value h.good h.ext pl plane X hX hw v 0 (nn_pos h) 0
  simp [execI, h1, h3]

theorem exec_der (x : Fin 3) (pl : Option (Fin 3)) (plane : ℕ) (X : Fin 3 → ℝ) (hX : Point e d.P pl plane X)
    (hc : pl ≠ none → Clear e d.P x) (v : ℕ → ℝ) (f : Coeff.St ℝ) (w : ℕ → ℝ)
    (hw : takeDer e d.P ⟨v, none, none⟩ [.x x] = .ok (f, w)) :
    execI e d.P (pl, plane) w X = .ok (∑ l ∈ range (nn d.P), dDer e d.P x pl plane X l * v l) := by
  obtain ⟨f', w', -, -, g, a, -, -, h1, -, h3, -, h5, -⟩ := C70_derivative h.good h.ext h.sys x pl plane X hX hc v 0 (nn_pos h) 0
  rw [hw] at h1
  cases h1
  simp [execI, h3, h5]

end

theorem seqR_ok (n : ℕ) (f : ℕ → Res ℝ) (w : ℕ → ℝ) (hf : ∀ s, s < n → f s = .ok (w s)) :
    ∃ g, seqR n f = .ok g ∧ ∀ s, s < n → g s = w s := by
  unfold seqR
  have : ∀ m, m ≤ n → ∃ g : ℕ → ℝ, (List.range m).foldl (fun (g : Res (ℕ → ℝ)) s => g.bind fun g => (f s).bind fun x => .ok (addTo g s x)) (.ok fun _ => 0)
      = .ok g ∧ (∀ s, s < m → g s = w s) ∧ ∀ s, m ≤ s → g s = 0 := by
    intro m
    induction m with
    | zero => intro _; exact ⟨_, rfl, by omega, fun _ _ => rfl⟩
    | succ m ih =>
      intro hm
      obtain ⟨g, h1, h2, h3⟩ := ih (by omega)
      rw [List.range_succ, List.foldl_append, h1]
      refine ⟨addTo g m (w m), by simp [hf m (by omega)], ?_, ?_⟩
      · intro s hs
        rw [addTo_apply]
        by_cases hsm : s = m
        · subst hsm; simp [h3 s le_rfl]
        · simp [hsm, h2 s (by omega)]
      · intro s hs
        rw [addTo_apply, h3 s (by omega)]
        simp [show ¬ s = m by omega]
  obtain ⟨g, h1, h2, -⟩ := this n le_rfl
  exact ⟨g, h1, h2⟩

/-! ### one pair -/

/-- the partial residual of a pair is the linear function of the field values with coefficients E, and it is the value or the
derivative that is matched, up to the sign -/
def PgOk (e : ℝ) (a : Dom) (own : Bool) (sf : SubFace) (E : ℕ → ℕ → ℝ) : Prop :=
  ∀ v, ∃ w, makePg e a own sf v = .ok w ∧ ∀ s, s < sf.id.length → w s = ∑ l ∈ range (nn a.P), E s l * v l ∧
    ∃ y, Side e a own sf s v y ∧ w s = (if own = sf.dfdn then -1 else 1) * y

/-- what is to be shown for a pair: the partial residual is a linear function of the values of the patch, and its
coefficients are added to F and C -/
def PairOk (e : ℝ) (ws : Pts) (a : Dom) (own : Bool) (Imap2 : ℕ → Option ℕ) (sf : SubFace) : Prop :=
  ∃ E : ℕ → ℕ → ℝ, (∀ m, ∃ m', populate e ws a own Imap2 sf m = .ok m' ∧ Adds a m m' (atRow Imap2 sf E)) ∧ PgOk e a own sf E

section
variable {e : ℝ} (ws : Pts) {a : Dom} (h : Ready e a) (sf : SubFace) (hx : sf.exterF = true) (hi : sf.innerB = false)
  (ho : sf.outerB = false)
include h hx hi ho

omit h hx hi ho in
/-- a value with weight c -/
theorem one_lin (n l0 : ℕ) (hl : l0 < n) (c : ℝ) (v : ℕ → ℝ) :
    c * v l0 = ∑ l ∈ range n, (if l = l0 then c else 0) * v l := by
  rw [sum_eq_single l0]
  · simp
  · intro l _ hne; simp [hne]
  · intro hh; exact absurd (mem_range.2 hl) hh

/-- normal derivative at grid points -/
theorem dn_ok (node : List ℕ) (sign : ℝ) (hn : ∀ s, s < sf.id.length → node.getD s 0 < nn a.P) (v : ℕ → ℝ) :
    ∃ w, ((grad e a.P v).bind fun w => seqR sf.id.length fun s =>
      .ok (sign * (sf.nv s 0 * w 0 (node.getD s 0) + sf.nv s 1 * w 1 (node.getD s 0) + sf.nv s 2 * w 2 (node.getD s 0)))) = .ok w ∧
      ∀ s, s < sf.id.length → w s = ∑ l ∈ range (nn a.P), sign * jacN e ws a.P (sf.nv s) (node.getD s 0) l * v l ∧
      ∃ z : Fin 3 → ℕ → ℝ, (∀ x, ∃ f, takeDer e a.P ⟨v, none, none⟩ [.x x] = .ok (f, z x)) ∧
        w s = sign * ∑ x, sf.nv s x * z x (node.getD s 0) := by
  obtain ⟨w, h1, h2, h0⟩ := grad_lin h ws v
  rw [h1]
  obtain ⟨g, h3, h4⟩ := seqR_ok sf.id.length (fun s => .ok (sign * (sf.nv s 0 * w 0 (node.getD s 0) + sf.nv s 1 * w 1 (node.getD s 0) +
    sf.nv s 2 * w 2 (node.getD s 0)))) _ fun s _ => rfl
  refine ⟨g, h3, fun s hs => ⟨?_, w, h0, by rw [h4 s hs, Fin.sum_univ_three]⟩⟩
  rw [h4 s hs, h2 0 _ (hn s hs), h2 1 _ (hn s hs), h2 2 _ (hn s hs), mul_sum, mul_sum, mul_sum, ← sum_add_distrib, ← sum_add_distrib,
    mul_sum]
  refine sum_congr rfl fun l _ => ?_
  unfold jacN
  ring

/-- the collocated points -/
theorem coll_ok (own : Bool) (Imap2 : ℕ → Option ℕ) (ht : sf.touch = true) (hc : sf.copy = true)
    (hn : ∀ s, s < sf.id.length → (if own then sf.id else sf.adjid).getD s 0 < nn a.P)
    (hm : sf.dfdn = false → ∀ s, s < sf.id.length → Imap2 (sf.id.getD s 0) ≠ none →
      a.L.Imap ((if own then sf.id else sf.adjid).getD s 0) ≠ none) : PairOk e ws a own Imap2 sf := by
  unfold PairOk PgOk populate makePg
  simp only [hx, hi, ho, ht, hc, Bool.not_true, if_false, Bool.false_eq_true, Bool.and_self, if_true]
  unfold fillC pgC
  generalize hnode : (if own then sf.id else sf.adjid) = node at *
  cases hd : sf.dfdn with
  | true =>
    generalize hsg : (if own then (-1 : ℝ) else 1) = sign
    refine ⟨fun s l => sign * jacN e ws a.P (sf.nv s) (node.getD s 0) l, fun m => ⟨_, by simp only [if_true]; rfl, ?_⟩,
      fun v => ?_⟩
    swap
    · obtain ⟨w, w1, w2⟩ := dn_ok ws h sf hx hi ho node sign hn v
      refine ⟨w, by simpa using w1, fun s hs => ⟨(w2 s hs).1, ?_⟩⟩
      obtain ⟨z, z1, z2⟩ := (w2 s hs).2
      refine ⟨∑ x, sf.nv s x * z x (node.getD s 0), ?_, by rw [z2, ← hsg]⟩
      simp only [Side, hd, if_true, At, ht, hc, Bool.and_self]
      exact ⟨z, fun x => z x (node.getD s 0), z1, fun x => by cases own <;> simp at hnode <;> simp [hnode], rfl⟩
    exact points_adds a Imap2 sf _ (fun s l => sign * jacN e ws a.P (sf.nv s) (node.getD s 0) l)
      (fun s r m _ _ => addRow_adds a r (fun l => sign * jacN e ws a.P (sf.nv s) (node.getD s 0) l) m) m
  | false =>
    generalize hsg : (if own then (1 : ℝ) else -1) = sign
    simp only [Bool.false_eq_true, if_false]
    refine ⟨fun s l => if l = node.getD s 0 then sign else 0, fun m => ?_, fun v => ?_⟩
    · have : ∀ n, n ≤ sf.id.length → ∃ m', (List.range n).foldl (fun (m : Res FC) s => m.bind fun m => collStep a node Imap2 sign sf m s) (.ok m) = .ok m' ∧
          Adds a m m' fun r l => ∑ s ∈ (range n).filter (fun s => Imap2 (sf.id.getD s 0) = some r), if l = node.getD s 0 then sign else 0 := by
        intro n
        induction n with
        | zero => intro _; exact ⟨m, rfl, (Adds.refl a m).congr (by simp)⟩
        | succ n ih =>
          intro hn'
          obtain ⟨m1, h1, h2⟩ := ih (by omega)
          rw [List.range_succ, List.foldl_append, h1]
          simp only [List.foldl_cons, List.foldl_nil, Res.bind_ok, collStep, range_add_one, filter_insert]
          cases hI : Imap2 (sf.id.getD n 0) with
          | none => exact ⟨m1, rfl, h2.congr (by intro r l; simp)⟩
          | some r0 =>
            cases hJ : a.L.Imap (node.getD n 0) with
            | none => exact absurd hJ (hm hd n (by omega) (by rw [hI]; simp))
            | some i1 =>
              refine ⟨_, rfl, ?_⟩
              have one : Adds a m1 (m1.1, addTo m1.2 (r0, i1) sign) fun r l => if r = r0 then (if l = node.getD n 0 then sign else 0) else 0 := by
                constructor
                · intro r t htt
                  have := inv_ne h t htt _ _ hJ
                  simp only [this, if_false, ite_self, add_zero]
                · intro r i hii
                  have := Iinv_eq h i hii _ _ hJ
                  show addTo m1.2 (r0, i1) sign (r, i) = _
                  rw [addTo_apply]
                  simp only [this, Prod.mk.injEq]
                  by_cases hr : r = r0 <;> by_cases hii2 : i = i1 <;> simp [hr, hii2]
              refine (h2.trans one).congr ?_
              intro r l
              by_cases hr : r = r0
              · subst hr; simp [add_comm]
              · have : ¬ r0 = r := fun h => hr h.symm
                simp [hr, this]
      exact this _ le_rfl
    · obtain ⟨g, g1, g2⟩ := seqR_ok sf.id.length (fun s => .ok (sign * v (node.getD s 0))) _ fun s _ => rfl
      refine ⟨g, g1, fun s hs => ⟨?_, v (node.getD s 0), ?_, ?_⟩⟩
      · rw [g2 s hs]
        exact one_lin _ _ (hn s hs) _ _
      · simp only [Side, hd, At, ht, hc, Bool.and_self, if_true, Bool.false_eq_true, if_false]
        cases own <;> simp at hnode <;> simp [hnode]
      · rw [g2 s hs, ← hsg]
        cases own <;> simp

/-- the points of the patch itself, interpolated on the other side -/
theorem own_ok (hn : ∀ s, s < sf.id.length → sf.id.getD s 0 < nn a.P) (hc : ¬ (sf.touch = true ∧ sf.copy = true)) :
    PairOk e ws a true a.L.Imap sf := by
  have hb : (sf.touch && sf.copy) = false := by simpa using hc
  unfold PairOk PgOk populate makePg
  simp only [hx, hi, ho, hb, Bool.not_true, if_false, Bool.false_eq_true]
  unfold fillI pgI
  cases hd : sf.dfdn with
  | true =>
    refine ⟨fun s l => -1 * jacN e ws a.P (sf.nv s) (sf.id.getD s 0) l, fun m => ⟨_, by simp only [if_true]; rfl, ?_⟩,
      fun v => ?_⟩
    swap
    · obtain ⟨w, w1, w2⟩ := dn_ok ws h sf hx hi ho sf.id (-1) hn v
      refine ⟨w, by simpa using w1, fun s hs => ⟨(w2 s hs).1, ?_⟩⟩
      obtain ⟨z, z1, z2⟩ := (w2 s hs).2
      refine ⟨∑ x, sf.nv s x * z x (sf.id.getD s 0), ?_, by rw [z2]; simp⟩
      simp only [Side, hd, if_true, At]
      exact ⟨z, fun x => z x (sf.id.getD s 0), z1, fun x => rfl, rfl⟩
    exact points_adds a a.L.Imap sf _ (fun s l => -1 * jacN e ws a.P (sf.nv s) (sf.id.getD s 0) l)
      (fun s r m _ _ => addRow_adds a r (fun l => -1 * jacN e ws a.P (sf.nv s) (sf.id.getD s 0) l) m) m
  | false =>
    simp only [Bool.false_eq_true, if_false, if_true]
    refine ⟨fun s l => if l = sf.id.getD s 0 then 1 else 0, fun m => ⟨_, rfl, ?_⟩, fun v => ?_⟩
    · refine points_adds a _ sf _ _ (fun s r m hJ _ => ?_) m
      constructor
      · intro r' t htt
        have := inv_ne h t htt _ _ hJ
        simp only [this, if_false, ite_self, add_zero]
      · intro r' i hii
        have := Iinv_eq h i hii _ _ hJ
        show addTo m.2 (r, r) 1 (r', i) = _
        rw [addTo_apply]
        simp only [this, Prod.mk.injEq]
        by_cases hr : r' = r <;> by_cases hii2 : i = r <;> simp [hr, hii2]
    · obtain ⟨g, g1, g2⟩ := seqR_ok sf.id.length (fun s => .ok (1 * v (sf.id.getD s 0))) _ fun s _ => rfl
      refine ⟨g, g1, fun s hs => ⟨?_, v (sf.id.getD s 0), ?_, ?_⟩⟩
      · rw [g2 s hs]
        exact one_lin _ _ (hn s hs) _ _
      · simp only [Side, hd, At, if_true, Bool.false_eq_true, if_false]
      · rw [g2 s hs]
        simp

/-- the points of another patch, interpolated in this one -/
theorem inter_ok (Imap2 : ℕ → Option ℕ) (hc : ¬ (sf.touch = true ∧ sf.copy = true)) (hf : sf.touch = true → sf.adjFace < 6)
    (hp : sf.touch = false → kept sf = none)
    (hX : ∀ s, s < sf.id.length → Point e a.P (kept sf) (faceIndex a.P sf.adjFace) (sf.ip s))
    (hw : ∀ d, kept sf = some d → e * ((a.P.n d : ℝ) - 1) ^ 2 ≤ a.P.mx d - a.P.mn d)
    (hcl : sf.dfdn = true → kept sf ≠ none → ∀ x, Clear e a.P x) : PairOk e ws a false Imap2 sf := by
  have hb : (sf.touch && sf.copy) = false := by simpa using hc
  have tn : ∀ d : Fin 3, a.P.basis d = .tn ∧ a.P.coll d = .extrema := fun d => ⟨h.good.tn d, h.ext d⟩
  have hk : (match some sf.same with
        | none => none
        | some (fx, fy, fz) => if fx then some 0 else if fy then some 1 else if fz then some 2 else none) = kept sf := rfl
  have pk : ∀ dir x, (dir, x) ∈ [("x derivative", some 0), ("y derivative", some 1), ("z derivative", some 2), ("none", (none : Option (Fin 3)))] →
      pick a.P (some sf.same) dir = .ok (kept sf, x) := by
    intro dir x hm
    exact (C70_choice a.P (some sf.same) dir (kept sf, x)).2 ⟨tn, hm, rfl⟩
  have ci : ∃ c, constIndex a.P sf = .ok c ∧ (sf.touch = true → c = some (faceIndex a.P sf.adjFace)) := by
    unfold constIndex
    cases ht : sf.touch with
    | false => exact ⟨_, rfl, by simp⟩
    | true =>
      have := hf ht
      generalize sf.adjFace = k at this
      match k, this with
      | 0, _ => exact ⟨_, rfl, fun _ => rfl⟩
      | 1, _ => exact ⟨_, rfl, fun _ => rfl⟩
      | 2, _ => exact ⟨_, rfl, fun _ => rfl⟩
      | 3, _ => exact ⟨_, rfl, fun _ => rfl⟩
      | 4, _ => exact ⟨_, rfl, fun _ => rfl⟩
      | 5, _ => exact ⟨_, rfl, fun _ => rfl⟩
  obtain ⟨c, hc1, hc2⟩ := ci
  have ht : kept sf ≠ none → sf.touch = true := fun hne => by
    by_contra h'
    exact hne (hp (by simpa using h'))
  obtain ⟨i, hi0, hi1⟩ : ∃ i, (kept sf = none → i = 0) ∧ (kept sf ≠ none → i = faceIndex a.P sf.adjFace) := by
    by_cases hk0 : kept sf = none
    · exact ⟨0, fun _ => rfl, fun hh => absurd hk0 hh⟩
    · exact ⟨_, fun hh => absurd hh hk0, fun _ => rfl⟩
  have pa : planeArg (kept sf) c = .ok i := by
    unfold planeArg
    cases hk0 : kept sf with
    | none => simp [hi0 hk0]
    | some d =>
      have hne : kept sf ≠ none := by rw [hk0]; simp
      simp [hc2 (ht hne), inArray, hi1 hne]
  have fl : flags a.P sf = .ok (kept sf, i) := by
    unfold flags
    simp only [tn, and_self, implies_true, if_true]
    unfold kept at ht hi0 hi1 ⊢
    by_cases h0 : sf.same.1 = true
    · have q1 := hc2 (ht (by simp [h0]))
      have q2 := hi1 (by simp [h0])
      simp [h0, hc1, q1, q2, inArray]
    · by_cases h1 : sf.same.2.1 = true
      · have q1 := hc2 (ht (by simp [h0, h1]))
        have q2 := hi1 (by simp [h0, h1])
        simp [h0, h1, hc1, q1, q2, inArray]
      · by_cases h2 : sf.same.2.2 = true
        · have q1 := hc2 (ht (by simp [h0, h1, h2]))
          have q2 := hi1 (by simp [h0, h1, h2])
          simp [h0, h1, h2, hc1, q1, q2, inArray]
        · have q2 := hi0 (by simp [h0, h1, h2])
          simp [h0, h1, h2, q2]
  have hX' : ∀ s, s < sf.id.length → Point e a.P (kept sf) i (sf.ip s) := by
    intro s hs
    have := hX s hs
    refine ⟨this.inside, this.apart, fun d hd => ?_⟩
    rw [hi1 (by rw [hd]; simp)]
    exact this.on d hd
  have same : ∀ (u : ℕ → ℝ) s y, execI e a.P (kept sf, i) u (sf.ip s) = .ok y →
      ∃ f, interp e a.P (kept sf) (faceIndex a.P sf.adjFace) ⟨u, none, none⟩ (sf.ip s) = .ok (f, y) := by
    intro u s y hy
    unfold execI at hy
    have hpl : interp e a.P (kept sf) (faceIndex a.P sf.adjFace) ⟨u, none, none⟩ (sf.ip s) =
        interp e a.P (kept sf) i ⟨u, none, none⟩ (sf.ip s) := by
      by_cases hk0 : kept sf = none
      · rw [hk0]; rfl
      · rw [hi1 hk0]
    rw [hpl]
    cases hr : interp e a.P (kept sf) i ⟨u, none, none⟩ (sf.ip s) with
    | ok r => simp only [hr, Res.bind_ok, Res.ok.injEq] at hy; exact ⟨r.1, by rw [← hy]⟩
    | abort => simp [hr] at hy
    | ub => simp [hr] at hy
  unfold PairOk PgOk populate makePg
  simp only [hx, hi, ho, hb, Bool.not_true, if_false, Bool.false_eq_true]
  unfold fillI pgI
  cases hd : sf.dfdn with
  | true =>
    simp only [if_true, hc1, pk "x derivative" (some 0) (by simp), pk "y derivative" (some 1) (by simp), pk "z derivative" (some 2) (by simp),
      Res.bind_ok, pa, fl, Bool.false_eq_true, if_false]
    refine ⟨fun s l => 1 * (sf.nv s 0 * dDer e a.P 0 (kept sf) i (sf.ip s) l + sf.nv s 1 * dDer e a.P 1 (kept sf) i (sf.ip s) l +
      sf.nv s 2 * dDer e a.P 2 (kept sf) i (sf.ip s) l), fun m => ⟨_, rfl, ?_⟩, fun v => ?_⟩
    · exact points_adds a Imap2 sf _ (fun s l => 1 * (sf.nv s 0 * dDer e a.P 0 (kept sf) i (sf.ip s) l +
        sf.nv s 1 * dDer e a.P 1 (kept sf) i (sf.ip s) l + sf.nv s 2 * dDer e a.P 2 (kept sf) i (sf.ip s) l))
        (fun s r m _ _ => addRow_adds a r _ m) m
    · obtain ⟨w, h1, -, h3⟩ := grad_lin h ws v
      have ex : ∀ s, s < sf.id.length → ∀ x, execI e a.P (kept sf, i) (w x) (sf.ip s) =
          .ok (∑ l ∈ range (nn a.P), dDer e a.P x (kept sf) i (sf.ip s) l * v l) := by
        intro s hs x
        obtain ⟨f, hf'⟩ := h3 x
        exact exec_der h x (kept sf) i (sf.ip s) (hX' s hs) (fun hne => hcl hd hne x) v f (w x) hf'
      obtain ⟨g, g1, g2⟩ := seqR_ok sf.id.length (fun s =>
        (execI e a.P (kept sf, i) (w 0) (sf.ip s)).bind fun x =>
        (execI e a.P (kept sf, i) (w 1) (sf.ip s)).bind fun y =>
        (execI e a.P (kept sf, i) (w 2) (sf.ip s)).bind fun z =>
        .ok (1 * (sf.nv s 0 * x + sf.nv s 1 * y + sf.nv s 2 * z))) _ fun s hs => by
          rw [ex s hs 0, ex s hs 1, ex s hs 2]; rfl
      rw [h1]
      refine ⟨g, g1, fun s hs => ⟨?_, ∑ x, sf.nv s x * ∑ l ∈ range (nn a.P), dDer e a.P x (kept sf) i (sf.ip s) l * v l, ?_, ?_⟩⟩
      · rw [g2 s hs, mul_sum, mul_sum, mul_sum, ← sum_add_distrib, ← sum_add_distrib, mul_sum]
        exact sum_congr rfl fun l _ => by ring
      · simp only [Side, hd, At, hb, if_true, Bool.false_eq_true, if_false]
        exact ⟨w, _, h3, fun x => same _ _ _ (ex s hs x), rfl⟩
      · rw [g2 s hs, Fin.sum_univ_three]
  | false =>
    simp only [pk "none" none (by simp), Res.bind_ok, fl, Bool.false_eq_true, if_false]
    refine ⟨fun s l => -1 * dValue e a.P (kept sf) (sf.ip s) l, fun m => ⟨_, rfl, ?_⟩, fun v => ?_⟩
    · exact points_adds a Imap2 sf _ (fun s l => -1 * dValue e a.P (kept sf) (sf.ip s) l) (fun s r m _ _ => addRow_adds a r _ m) m
    · obtain ⟨g, g1, g2⟩ := seqR_ok sf.id.length (fun s => (execI e a.P (kept sf, i) v (sf.ip s)).bind fun x => .ok (-1 * x)) _ fun s hs => by
          rw [exec_value h (kept sf) i (sf.ip s) (hX' s hs) hw v]; rfl
      refine ⟨g, g1, fun s hs => ⟨?_, _, ?_, g2 s hs⟩⟩
      · rw [g2 s hs, mul_sum]
        exact sum_congr rfl fun l _ => by ring
      · simp only [Side, hd, At, hb, Bool.false_eq_true, if_false]
        exact same _ _ _ (exec_value h (kept sf) i (sf.ip s) (hX' s hs) hw v)

end

/-! ### all pairs -/

section
variable {e : ℝ} (ws : Pts) {np : ℕ} {D : ℕ → Dom} (hG : Grid e np D) {q : ℕ} (hq : q < np)
include hG hq

theorem pair_own (sf : SubFace) (hs : sf ∈ (D q).sfs) (hi : sf.innerB = false) (ho : sf.outerB = false) :
    PairOk e ws (D q) true (D q).L.Imap sf := by
  have hr := hG.ready q hq
  have hx := ext_all hr sf hs
  by_cases hc : sf.touch = true ∧ sf.copy = true
  · exact coll_ok ws hr sf hx hi ho true _ hc.1 hc.2 (fun s hl => by simpa using ids_lt hr sf hs s hl) (fun _ s _ h => by simpa using h)
  · exact own_ok ws hr sf hx hi ho (fun s hl => ids_lt hr sf hs s hl) hc

theorem pair_adj (sf : SubFace) (hs : sf ∈ (D q).sfs) (hi : sf.innerB = false) (ho : sf.outerB = false) :
    PairOk e ws (D sf.adj) false (D q).L.Imap sf := by
  have hr := hG.ready q hq
  have hx := ext_all hr sf hs
  have hf := hG.fits q hq sf hs hi ho
  have hra := hG.ready sf.adj hf.adj_lt
  by_cases hc : sf.touch = true ∧ sf.copy = true
  · exact coll_ok ws hra sf hx hi ho false _ hc.1 hc.2 (fun s hl => by simpa using (hf.coll hc.1 hc.2 s hl).1)
      (fun hd s hl h => by simpa using (hf.coll hc.1 hc.2 s hl).2 hd h)
  · exact inter_ok ws hra sf hx hi ho _ hc hf.face hf.plane (hf.inter hc) hf.apart hf.clear

omit hG hq in
theorem popAll_ok (a : Dom) (own : Bool) (Imap2 : ℕ → Option ℕ) (E : SubFace → ℕ → ℕ → ℝ) (l : List SubFace)
    (hE : ∀ sf ∈ l, ∀ m, ∃ m', populate e ws a own Imap2 sf m = .ok m' ∧ Adds a m m' (atRow Imap2 sf (E sf))) (m : FC) :
    ∃ m', popAll e ws a own Imap2 l m = .ok m' ∧ Adds a m m' fun r l' => (l.map fun sf => atRow Imap2 sf (E sf) r l').sum := by
  induction l generalizing m with
  | nil => exact ⟨m, rfl, (Adds.refl a m).congr (by simp)⟩
  | cons sf l ih =>
    obtain ⟨m1, h1, h2⟩ := hE sf (by simp) m
    obtain ⟨m2, h3, h4⟩ := ih (fun s hs => hE s (by simp [hs])) m1
    refine ⟨m2, by simp [popAll, h1, h3], (h2.trans h4).congr (by simp)⟩

theorem mem_pairs (a : ℕ) (sf : SubFace) : sf ∈ pairs D a q ↔ sf ∈ (D q).sfs ∧ sf.innerB = false ∧ sf.outerB = false ∧ (a = q ∨ sf.adj = a) := by
  simp [pairs, and_assoc]

/-- the blocks of patch a for the equations of patch q exist, and their entries are sums of the coefficients of the pairs -/
theorem blocks : ∃ Eo Ea : SubFace → ℕ → ℕ → ℝ,
    (∀ sf ∈ pairs D q q, PgOk e (D q) true sf (Eo sf)) ∧ (∀ sf ∈ pairs D q q, PgOk e (D sf.adj) false sf (Ea sf)) ∧
    ∀ a, ∃ m, makeFC e ws D a q = .ok m ∧ ∀ (P : Schur.Patch ℝ), P.NS = (D a).NS → P.FC q = m →
      (∀ r t, t < (D a).NS → P.entryF q r t =
        ((pairs D a q).map fun sf => atRow (D q).L.Imap sf (if a = q then Eo sf else Ea sf) r ((D a).L.inv.getD t 0)).sum) ∧
      ∀ r i, i < (D a).NI → P.entryC q r i =
        ((pairs D a q).map fun sf => atRow (D q).L.Imap sf (if a = q then Eo sf else Ea sf) r ((D a).L.Iinv.getD i 0)).sum := by
  have ho : ∀ sf : SubFace, ∃ E : ℕ → ℕ → ℝ, sf ∈ pairs D q q → (∀ m, ∃ m', populate e ws (D q) true (D q).L.Imap sf m = .ok m' ∧
      Adds (D q) m m' (atRow (D q).L.Imap sf E)) ∧ PgOk e (D q) true sf E := by
    intro sf
    by_cases hm : sf ∈ pairs D q q
    · obtain ⟨h1, h2, h3, -⟩ := (mem_pairs hG hq q sf).1 hm
      obtain ⟨E, hE⟩ := pair_own ws hG hq sf h1 h2 h3
      exact ⟨E, fun _ => hE⟩
    · exact ⟨fun _ _ => 0, fun h => absurd h hm⟩
  have ha : ∀ sf : SubFace, ∃ E : ℕ → ℕ → ℝ, sf ∈ pairs D q q → (∀ m, ∃ m', populate e ws (D sf.adj) false (D q).L.Imap sf m = .ok m' ∧
      Adds (D sf.adj) m m' (atRow (D q).L.Imap sf E)) ∧ PgOk e (D sf.adj) false sf E := by
    intro sf
    by_cases hm : sf ∈ pairs D q q
    · obtain ⟨h1, h2, h3, -⟩ := (mem_pairs hG hq q sf).1 hm
      obtain ⟨E, hE⟩ := pair_adj ws hG hq sf h1 h2 h3
      exact ⟨E, fun _ => hE⟩
    · exact ⟨fun _ _ => 0, fun h => absurd h hm⟩
  choose Eo hEo using ho
  choose Ea hEa using ha
  refine ⟨Eo, Ea, fun sf hm => (hEo sf hm).2, fun sf hm => (hEa sf hm).2, fun a => ?_⟩
  unfold makeFC
  by_cases hemp : (pairs D a q).isEmpty = true
  · rw [if_pos hemp]
    refine ⟨none, rfl, fun P hNS hFC => ⟨fun r t ht => ?_, fun r i hi => ?_⟩⟩
    · rw [List.isEmpty_iff.1 hemp]; simp [Schur.Patch.entryF, hFC]
    · rw [List.isEmpty_iff.1 hemp]; simp [Schur.Patch.entryC, hFC]
  · rw [if_neg hemp]
    have hE : ∀ sf ∈ pairs D a q, ∀ m, ∃ m', populate e ws (D a) (a == q) (D q).L.Imap sf m = .ok m' ∧
        Adds (D a) m m' (atRow (D q).L.Imap sf (if a = q then Eo sf else Ea sf)) := by
      intro sf hm
      obtain ⟨h1, h2, h3, h4⟩ := (mem_pairs hG hq a sf).1 hm
      have hm' := (mem_pairs hG hq q sf).2 ⟨h1, h2, h3, Or.inl rfl⟩
      by_cases haq : a = q
      · subst haq
        simpa using (hEo sf hm').1
      · have hadj : sf.adj = a := h4.resolve_left haq
        have := (hEa sf hm').1
        rw [hadj] at this
        rw [beq_false_of_ne haq, if_neg haq]
        exact this
    obtain ⟨m', h1, h2⟩ := popAll_ok ws (D a) (a == q) (D q).L.Imap (fun sf => if a = q then Eo sf else Ea sf) _ hE (fun _ => 0, fun _ => 0)
    rw [h1]
    refine ⟨some m', rfl, fun P hNS hFC => ⟨fun r t ht => ?_, fun r i hi => ?_⟩⟩
    · have := h2.1 r t ht
      simp only [zero_add] at this
      simp only [Schur.Patch.entryF, hFC, hNS]
      rw [← this, show Index.ij (D a).NS r t = (D a).NS * r + t from add_comm _ _]
    · have := h2.2 r i hi
      simp only [zero_add] at this
      simp only [Schur.Patch.entryC, hFC]
      exact this

theorem pairs_self : pairs D q q = (D q).sfs.filter fun s => !s.innerB && !s.outerB := by simp [pairs]

theorem find_self (sf : SubFace) (hm : sf ∈ pairs D q q) : sf ∈ pairs D sf.adj q ∧ findPair (pairs D sf.adj q) sf = some sf := by
  obtain ⟨h1, h2, h3, -⟩ := (mem_pairs hG hq q sf).1 hm
  have hm2 := (mem_pairs hG hq sf.adj sf).2 ⟨h1, h2, h3, Or.inr rfl⟩
  refine ⟨hm2, ?_⟩
  unfold findPair
  cases hf : (pairs D sf.adj q).find? (fun s => s.face == sf.face && s.sn == sf.sn) with
  | none =>
    rw [List.find?_eq_none] at hf
    exact absurd (hf sf hm2) (by simp)
  | some t =>
    have p1 := List.find?_some hf
    have p2 := List.mem_of_find?_eq_some hf
    simp only [Bool.and_eq_true, beq_iff_eq] at p1
    rw [hG.distinct q hq t ((mem_pairs hG hq _ t).1 p2).1 sf h1 p1.1 p1.2]

theorem resid (Eo Ea : SubFace → ℕ → ℕ → ℝ) (ho : ∀ sf ∈ pairs D q q, PgOk e (D q) true sf (Eo sf))
    (ha : ∀ sf ∈ pairs D q q, PgOk e (D sf.adj) false sf (Ea sf)) (v : ℕ → ℕ → ℝ) :
    ∃ (g : ℕ → ℝ) (Y Z : SubFace → ℕ → ℝ), residual e np D v q = .ok g ∧
      (∀ sf ∈ pairs D q q, ∀ s, s < sf.id.length → Side e (D q) true sf s (v q) (Y sf s) ∧ Side e (D sf.adj) false sf s (v sf.adj) (Z sf s)) ∧
      (∀ r, g r = ((pairs D q q).map fun sf => ∑ s ∈ (range sf.id.length).filter (fun s => (D q).L.Imap (sf.id.getD s 0) = some r),
        if sf.dfdn then Z sf s - Y sf s else Y sf s - Z sf s).sum) ∧
      ∀ r, g r = ((pairs D q q).map fun sf => ∑ s ∈ (range sf.id.length).filter (fun s => (D q).L.Imap (sf.id.getD s 0) = some r),
        (∑ l ∈ range (nn (D q).P), Eo sf s l * v q l + ∑ l ∈ range (nn (D sf.adj).P), Ea sf s l * v sf.adj l)).sum := by
  have ho' : ∀ sf : SubFace, ∃ w : ℕ → ℝ, sf ∈ pairs D q q → makePg e (D q) true sf (v q) = .ok w ∧ ∀ s, s < sf.id.length →
      w s = ∑ l ∈ range (nn (D q).P), Eo sf s l * v q l ∧ ∃ y, Side e (D q) true sf s (v q) y ∧ w s = (if true = sf.dfdn then -1 else 1) * y := by
    intro sf
    by_cases hm : sf ∈ pairs D q q
    · obtain ⟨w, hw⟩ := ho sf hm (v q); exact ⟨w, fun _ => hw⟩
    · exact ⟨fun _ => 0, fun h => absurd h hm⟩
  have ha' : ∀ sf : SubFace, ∃ w : ℕ → ℝ, sf ∈ pairs D q q → makePg e (D sf.adj) false sf (v sf.adj) = .ok w ∧ ∀ s, s < sf.id.length →
      w s = ∑ l ∈ range (nn (D sf.adj).P), Ea sf s l * v sf.adj l ∧
        ∃ y, Side e (D sf.adj) false sf s (v sf.adj) y ∧ w s = (if false = sf.dfdn then -1 else 1) * y := by
    intro sf
    by_cases hm : sf ∈ pairs D q q
    · obtain ⟨w, hw⟩ := ha sf hm (v sf.adj); exact ⟨w, fun _ => hw⟩
    · exact ⟨fun _ => 0, fun h => absurd h hm⟩
  choose wo hwo using ho'
  choose wa hwa using ha'
  have hpo : ∀ sf ∈ pairs D q q, pairOf e np D q v sf = .ok ⟨sf.id, wo sf, wa sf⟩ := by
    intro sf hm
    obtain ⟨h1, h2, h3, -⟩ := (mem_pairs hG hq q sf).1 hm
    have hf := hG.fits q hq sf h1 h2 h3
    obtain ⟨f1, f2⟩ := find_self hG hq sf hm
    have hne : ¬ (pairs D sf.adj q).isEmpty = true := by
      intro hh; rw [List.isEmpty_iff.1 hh] at f1; simp at f1
    unfold pairOf
    rw [if_neg (by have := hf.adj_lt; omega), if_neg hne, f2]
    dsimp only
    rw [(hwo sf hm).1, beq_false_of_ne hf.other, Res.bind_ok, (hwa sf hm).1]
    rfl
  have hall : ∀ l : List SubFace, (∀ sf ∈ l, sf ∈ pairs D q q) → pairsOf e np D q v l = .ok (l.map fun sf => ⟨sf.id, wo sf, wa sf⟩) := by
    intro l
    induction l with
    | nil => intro _; rfl
    | cons sf l ih =>
      intro hl
      simp [pairsOf, hpo sf (hl sf (by simp)), ih (fun s hs => hl s (by simp [hs]))]
  have key : ∀ r, Schur.makeG (D q).L.Imap ((pairs D q q).map fun sf => (⟨sf.id, wo sf, wa sf⟩ : Schur.GPair ℝ)) r =
      ((pairs D q q).map fun sf => ∑ s ∈ (range sf.id.length).filter (fun s => (D q).L.Imap (sf.id.getD s 0) = some r), (wo sf s + wa sf s)).sum := by
    intro r
    rw [Schur.C34_rhs]
    unfold Schur.gSum
    rw [List.map_map]
    rfl
  refine ⟨_, fun sf s => (if true = sf.dfdn then -1 else 1) * wo sf s, fun sf s => (if false = sf.dfdn then -1 else 1) * wa sf s,
    by rw [residual, hall _ (fun _ h => h), Res.bind_ok], ?_, ?_, ?_⟩
  · intro sf hm s hs
    obtain ⟨y, hy, hy'⟩ := ((hwo sf hm).2 s hs).2
    obtain ⟨z, hz, hz'⟩ := ((hwa sf hm).2 s hs).2
    dsimp only
    rw [hy', hz']
    constructor
    · convert hy using 1
      cases sf.dfdn <;> simp
    · convert hz using 1
      cases sf.dfdn <;> simp
  · intro r
    rw [key]
    refine congrArg List.sum (List.map_congr_left fun sf hm => sum_congr rfl fun s _ => ?_)
    cases hd : sf.dfdn <;> (simp [hd]; try ring)
  · intro r
    rw [key]
    refine congrArg List.sum (List.map_congr_left fun sf hm => sum_congr rfl fun s hs => ?_)
    have hs' := mem_range.1 (mem_filter.1 hs).1
    rw [((hwo sf hm).2 s hs').1, ((hwa sf hm).2 s hs').1]

omit hG hq in
theorem sum_list {α : Type} (l : List α) (n : ℕ) (f : α → ℕ → ℝ) :
    ∑ a ∈ range n, (l.map fun x => f x a).sum = (l.map fun x => ∑ a ∈ range n, f x a).sum := by
  induction l with
  | nil => simp
  | cons x l ih => simp [sum_add_distrib, ih]

omit hG hq in
theorem list_mul {α : Type} (l : List α) (c : ℝ) (f : α → ℝ) : (l.map f).sum * c = (l.map fun x => f x * c).sum := by
  induction l with
  | nil => simp
  | cons x l ih => simp [add_mul, ih]

omit hG hq in
theorem pairs_sum (a : ℕ) (f : SubFace → ℝ) : ((pairs D a q).map f).sum =
    ((pairs D q q).map fun sf => if a = q ∨ sf.adj = a then f sf else 0).sum := by
  unfold pairs
  induction (D q).sfs with
  | nil => simp
  | cons sf l ih =>
    by_cases h1 : sf.innerB <;> by_cases h2 : sf.outerB <;> by_cases h3 : a = q <;> by_cases h4 : sf.adj = a <;>
      simp_all

omit hG hq in
theorem atRow_swap (Imap : ℕ → Option ℕ) (sf : SubFace) (E : ℕ → ℕ → ℝ) (r n : ℕ) (v : ℕ → ℝ) :
    ∑ l ∈ range n, atRow Imap sf E r l * v l =
      ∑ s ∈ (range sf.id.length).filter (fun s => Imap (sf.id.getD s 0) = some r), ∑ l ∈ range n, E s l * v l := by
  unfold atRow
  rw [sum_comm]
  exact sum_congr rfl fun l _ => by rw [sum_mul]

/-- **C71 (interface equations).** Every block of F and C is computed without failure, and, with these blocks in the linear
system, row r of the equations of patch q applied to the values of the field is the interface residual r of patch q. -/
theorem C71_rows (P : ℕ → Schur.Patch ℝ) (hNS : ∀ a, a < np → (P a).NS = (D a).NS) (hNI : ∀ a, a < np → (P a).NI = (D a).NI)
    (hFC : ∀ a, a < np → makeFC e ws D a q = .ok ((P a).FC q)) (v : ℕ → ℕ → ℝ) :
    ∃ g, residual e np D v q = .ok g ∧ ∀ r, g r =
      ∑ a ∈ range np, (∑ t ∈ range (P a).NS, (P a).entryF q r t * v a ((D a).L.inv.getD t 0) +
        ∑ i ∈ range (P a).NI, (P a).entryC q r i * v a ((D a).L.Iinv.getD i 0)) := by
  obtain ⟨Eo, Ea, ho, ha, hb⟩ := blocks ws hG hq
  obtain ⟨g, -, -, h1, -, -, h4⟩ := resid hG hq Eo Ea ho ha v
  refine ⟨g, h1, fun r => ?_⟩
  rw [h4]
  have hrow : ∀ a ∈ range np, (∑ t ∈ range (P a).NS, (P a).entryF q r t * v a ((D a).L.inv.getD t 0) +
        ∑ i ∈ range (P a).NI, (P a).entryC q r i * v a ((D a).L.Iinv.getD i 0)) =
      ((pairs D q q).map fun sf => if a = q ∨ sf.adj = a then
        ∑ s ∈ (range sf.id.length).filter (fun s => (D q).L.Imap (sf.id.getD s 0) = some r),
          ∑ l ∈ range (nn (D a).P), (if a = q then Eo sf else Ea sf) s l * v a l else 0).sum := by
    intro a ha
    have ha := mem_range.1 ha
    obtain ⟨m, m1, m2⟩ := hb a
    rw [hFC a ha] at m1
    obtain ⟨m3, m4⟩ := m2 (P a) (hNS a ha) (Res.ok.inj m1)
    rw [hNS a ha, hNI a ha]
    obtain ⟨G, hGe⟩ : ∃ G : ℕ → ℝ, G = fun l =>
      ((pairs D a q).map fun sf => atRow (D q).L.Imap sf (if a = q then Eo sf else Ea sf) r l).sum * v a l := ⟨_, rfl⟩
    have e1 : ∀ t ∈ range (D a).NS, (P a).entryF q r t * v a ((D a).L.inv.getD t 0) = G ((D a).L.inv.getD t 0) :=
      fun t ht => by rw [m3 r t (mem_range.1 ht), hGe]
    have e2 : ∀ i ∈ range (D a).NI, (P a).entryC q r i * v a ((D a).L.Iinv.getD i 0) = G ((D a).L.Iinv.getD i 0) :=
      fun i hi => by rw [m4 r i (mem_range.1 hi), hGe]
    rw [sum_congr rfl e1, sum_congr rfl e2, sum_labels (hG.ready a ha) G, hGe]
    simp only [list_mul]
    rw [sum_list, pairs_sum]
    refine congrArg List.sum (List.map_congr_left fun sf _ => ?_)
    rw [atRow_swap]
  rw [sum_congr rfl hrow, sum_list]
  refine congrArg List.sum (List.map_congr_left fun sf hm => ?_)
  obtain ⟨k1, k2, k3, -⟩ := (mem_pairs hG hq q sf).1 hm
  have hf := hG.fits q hq sf k1 k2 k3
  have hsub : ({q, sf.adj} : Finset ℕ) ⊆ range np := by
    intro x hx
    simp only [mem_insert, mem_singleton] at hx
    rcases hx with rfl | rfl
    · exact mem_range.2 hq
    · exact mem_range.2 hf.adj_lt
  rw [← sum_subset hsub, sum_pair (fun h => hf.other h.symm)]
  · rw [if_pos (Or.inl rfl), if_pos (Or.inr rfl), if_pos rfl, if_neg hf.other, sum_add_distrib]
  · intro x _ hx
    simp only [mem_insert, mem_singleton, not_or] at hx
    rw [if_neg (by rintro (h | h); exacts [hx.1 h, hx.2 h.symm])]

/-- the blocks exist -/
theorem C71_blocks (a : ℕ) : ∃ m, makeFC e ws D a q = .ok m := by
  obtain ⟨_, _, -, -, hb⟩ := blocks ws hG hq
  obtain ⟨m, h, -⟩ := hb a
  exact ⟨m, h⟩

/-- **C71 (residual).** The interface residual r of patch q is the sum, over the points with label r of the subfaces between
patches, of the jump of the field, or of its normal derivative, across the interface. -/
theorem C71_residual (v : ℕ → ℕ → ℝ) : ∃ (g : ℕ → ℝ) (Y Z : SubFace → ℕ → ℝ), residual e np D v q = .ok g ∧
    (∀ sf ∈ (D q).sfs, sf.innerB = false → sf.outerB = false → ∀ s, s < sf.id.length →
      Side e (D q) true sf s (v q) (Y sf s) ∧ Side e (D sf.adj) false sf s (v sf.adj) (Z sf s)) ∧
    ∀ r, g r = (((D q).sfs.filter fun s => !s.innerB && !s.outerB).map fun sf =>
      ∑ s ∈ (range sf.id.length).filter (fun s => (D q).L.Imap (sf.id.getD s 0) = some r),
        if sf.dfdn then Z sf s - Y sf s else Y sf s - Z sf s).sum := by
  obtain ⟨Eo, Ea, ho, ha, -⟩ := blocks anyPts hG hq
  obtain ⟨g, Y, Z, h1, h2, h3, -⟩ := resid hG hq Eo Ea ho ha v
  refine ⟨g, Y, Z, h1, fun sf hs hi ho => h2 sf ((mem_pairs hG hq q sf).2 ⟨hs, hi, ho, Or.inl rfl⟩), fun r => ?_⟩
  rw [h3 r, pairs_self hG hq]

omit hG hq in
theorem inv_inj (a : Dom) (h : Ready e a) (t t' : ℕ) (ht : t < a.NS) (ht' : t' < a.NS) : a.L.inv.getD t' 0 = a.L.inv.getD t 0 ↔ t' = t := by
  obtain ⟨h1, h2, h3, h4, h5, h6⟩ := labels h
  have hnd : a.L.inv.Nodup := h1.nodup_iff.2 List.nodup_range
  rw [List.getD_eq_getElem _ _ (by omega), List.getD_eq_getElem _ _ (by omega)]
  exact hnd.getElem_inj_iff

omit hG hq in
theorem Iinv_map (a : Dom) (h : Ready e a) (i : ℕ) (hi : i < a.NI) : a.L.Imap (a.L.Iinv.getD i 0) = some i := by
  obtain ⟨h1, h2, h3, h4, h5, h6⟩ := labels h
  rw [h4, List.getD_eq_getElem _ _ hi]
  exact List.getElem?_eq_getElem hi

omit hG hq in
theorem node_lt (a : Dom) (h : Ready e a) : (∀ t, t < a.NS → a.L.inv.getD t 0 < nn a.P) ∧ ∀ i, i < a.NI → a.L.Iinv.getD i 0 < nn a.P := by
  obtain ⟨h1, h2, h3, h4, h5, h6⟩ := labels h
  have hm : ∀ x ∈ a.L.inv, x < nn a.P := fun x hx => List.mem_range.1 (h1.mem_iff.1 hx)
  constructor
  · intro t ht
    rw [List.getD_eq_getElem _ _ (by omega)]
    exact hm _ (List.getElem_mem _)
  · intro i hi
    rw [List.getD_eq_getElem _ _ hi]
    refine hm _ ?_
    rw [h2]
    exact List.mem_append_right _ (List.getElem_mem _)

omit hG hq in
theorem sum_shift (n k : ℕ) (hk : k < n) (c f f' : ℕ → ℝ) (h : ℝ) (hf : ∀ j, j < n → f' j = f j + if j = k then h else 0) :
    ∑ j ∈ range n, c j * f' j = ∑ j ∈ range n, c j * f j + h * c k := by
  have : ∀ j ∈ range n, c j * f' j = c j * f j + if j = k then h * c k else 0 := by
    intro j hj
    rw [hf j (mem_range.1 hj)]
    by_cases hjk : j = k
    · subst hjk; simp; ring
    · simp [hjk]
  rw [sum_congr rfl this, sum_add_distrib, sum_ite_eq' (range n) k, if_pos (mem_range.2 hk)]

/-- the row after a change of one value, from the changes at the two kinds of labels -/
theorem change_aux (P : ℕ → Schur.Patch ℝ) (hNS : ∀ a, a < np → (P a).NS = (D a).NS) (hNI : ∀ a, a < np → (P a).NI = (D a).NI)
    (hFC : ∀ a, a < np → makeFC e ws D a q = .ok ((P a).FC q)) (v : ℕ → ℕ → ℝ) (a : ℕ) (ha : a < np) (u : ℕ → ℝ) (c : ℕ → ℝ)
    (hc : ∀ r, ∑ t ∈ range (P a).NS, (P a).entryF q r t * u ((D a).L.inv.getD t 0) +
        ∑ i ∈ range (P a).NI, (P a).entryC q r i * u ((D a).L.Iinv.getD i 0) =
      ∑ t ∈ range (P a).NS, (P a).entryF q r t * v a ((D a).L.inv.getD t 0) +
        ∑ i ∈ range (P a).NI, (P a).entryC q r i * v a ((D a).L.Iinv.getD i 0) + c r) :
    ∃ g g', residual e np D v q = .ok g ∧ residual e np D (Function.update v a u) q = .ok g' ∧ ∀ r, g' r = g r + c r := by
  obtain ⟨g, h1, h2⟩ := C71_rows ws hG hq P hNS hNI hFC v
  obtain ⟨g', h1', h2'⟩ := C71_rows ws hG hq P hNS hNI hFC (Function.update v a u)
  refine ⟨g, g', h1, h1', fun r => ?_⟩
  rw [h2, h2', ← add_sum_erase _ _ (mem_range.2 ha), ← add_sum_erase (range np) _ (mem_range.2 ha)]
  simp only [Function.update_self]
  rw [hc r]
  have : ∀ b ∈ (range np).erase a, (∑ t ∈ range (P b).NS, (P b).entryF q r t * Function.update v a u b ((D b).L.inv.getD t 0) +
        ∑ i ∈ range (P b).NI, (P b).entryC q r i * Function.update v a u b ((D b).L.Iinv.getD i 0)) =
      (∑ t ∈ range (P b).NS, (P b).entryF q r t * v b ((D b).L.inv.getD t 0) +
        ∑ i ∈ range (P b).NI, (P b).entryC q r i * v b ((D b).L.Iinv.getD i 0)) := by
    intro b hb
    rw [Function.update_of_ne (ne_of_mem_erase hb)]
  rw [sum_congr rfl this]
  ring

/-- **C71 (derivatives).** The entries of F and C are the derivatives of the interface residuals of patch q with respect to
the field values of patch a: adding h to the value at the node with subdomain label t (interface label i) adds h times the
entry of F (of C) to each residual. -/
theorem C71_change (P : ℕ → Schur.Patch ℝ) (hNS : ∀ a, a < np → (P a).NS = (D a).NS) (hNI : ∀ a, a < np → (P a).NI = (D a).NI)
    (hFC : ∀ a, a < np → makeFC e ws D a q = .ok ((P a).FC q)) (v : ℕ → ℕ → ℝ) (a : ℕ) (ha : a < np) (h : ℝ) :
    (∀ t, t < (D a).NS → ∃ g g', residual e np D v q = .ok g ∧
      residual e np D (Function.update v a (Function.update (v a) ((D a).L.inv.getD t 0) (v a ((D a).L.inv.getD t 0) + h))) q = .ok g' ∧
      ∀ r, g' r = g r + h * (P a).entryF q r t) ∧
    ∀ i, i < (D a).NI → ∃ g g', residual e np D v q = .ok g ∧
      residual e np D (Function.update v a (Function.update (v a) ((D a).L.Iinv.getD i 0) (v a ((D a).L.Iinv.getD i 0) + h))) q = .ok g' ∧
      ∀ r, g' r = g r + h * (P a).entryC q r i := by
  have hr := hG.ready a ha
  constructor
  · intro t ht
    refine change_aux ws hG hq P hNS hNI hFC v a ha _ _ fun r => ?_
    have hI : ∀ i ∈ range (P a).NI, (P a).entryC q r i * Function.update (v a) ((D a).L.inv.getD t 0) (v a ((D a).L.inv.getD t 0) + h) ((D a).L.Iinv.getD i 0)
        = (P a).entryC q r i * v a ((D a).L.Iinv.getD i 0) := by
      intro i hi
      rw [mem_range, hNI a ha] at hi
      rw [Function.update_of_ne (inv_ne hr t ht _ _ (Iinv_map _ hr i hi)).symm]
    rw [sum_congr rfl hI, sum_shift (P a).NS t (by rw [hNS a ha]; exact ht) _ (fun t => v a ((D a).L.inv.getD t 0)) _ h]
    · ring
    · intro j hj
      rw [hNS a ha] at hj
      by_cases hjt : j = t
      · subst hjt; simp
      · rw [Function.update_of_ne (fun hh => hjt ((inv_inj _ hr t j ht hj).1 hh))]; simp [hjt]
  · intro i hi
    refine change_aux ws hG hq P hNS hNI hFC v a ha _ _ fun r => ?_
    have hI : ∀ t ∈ range (P a).NS, (P a).entryF q r t * Function.update (v a) ((D a).L.Iinv.getD i 0) (v a ((D a).L.Iinv.getD i 0) + h) ((D a).L.inv.getD t 0)
        = (P a).entryF q r t * v a ((D a).L.inv.getD t 0) := by
      intro t ht
      rw [mem_range, hNS a ha] at ht
      rw [Function.update_of_ne (inv_ne hr t ht _ _ (Iinv_map _ hr i hi))]
    rw [sum_congr rfl hI, sum_shift (P a).NI i (by rw [hNI a ha]; exact hi) _ (fun i => v a ((D a).L.Iinv.getD i 0)) _ h]
    · ring
    · intro j hj
      rw [hNI a ha] at hj
      by_cases hjt : j = i
      · subst hjt; simp
      · rw [Function.update_of_ne (fun hh => hjt ((Iinv_eq hr j hj _ _ (Iinv_map _ hr i hi)).1 hh))]; simp [hjt]

end

/-- **C71 (Newton step).** After a Newton step with relaxation λ whose interface blocks and interface right-hand sides are
those of the code, every interface residual is (1-λ) times what it was; a full step leaves no jump. -/
theorem C71_newton {e : ℝ} (ws : Pts) {np : ℕ} {D : ℕ → Dom} (hG : Grid e np D) (em drop : ℝ) (he : 0 ≤ em) (solve : Schur.Solver ℝ)
    (hs : Schur.Sound solve) (P : ℕ → Schur.Patch ℝ) (hn : Schur.NothingDropped (drop + em) em np P)
    (hNS : ∀ a, a < np → (P a).NS = (D a).NS) (hNI : ∀ a, a < np → (P a).NI = (D a).NI)
    (hFC : ∀ q, q < np → ∀ a, a < np → makeFC e ws D a q = .ok ((P a).FC q)) (lam : ℝ) (u junk : ℕ → ℕ → ℝ)
    (hg : ∀ q, q < np → residual e np D u q = .ok (P q).g) (r : ℕ → (ℕ → ℝ) × (ℕ → ℝ))
    (h : Schur.stepMulti em drop solve np P (fun p => ((D p).L.inv, (D p).L.Iinv)) lam u junk = .ok r) (q : ℕ) (hq : q < np) :
    ∃ g', residual e np D (fun p => (r p).1) q = .ok g' ∧ ∀ i, i < (P q).NI → g' i = (1 - lam) * (P q).g i := by
  have hL : ∀ p, p < np → Schur.Labelled (fun i => (D p).P.n (ax i)) ((D p).sfs.map (·.toSubFace)) (D p).L.inv (D p).L.Iinv (P p).NS (P p).NI := by
    intro p hp
    have hr := hG.ready p hp
    obtain ⟨b, hb⟩ := hr.lab
    obtain ⟨h1, h2, h3, h4, h5, h6⟩ := labels hr
    refine ⟨⟨b, (D p).L, by rw [hNS p hp]; exact hb, rfl, rfl⟩, ?_⟩
    rw [hNS p hp, hNI p hp, h6]
    simp [nn, ax]
  obtain ⟨z, hz, hu⟩ := Schur.C34_newton em drop he solve hs np P hn _ _ (fun p => ((D p).L.inv, (D p).L.Iinv)) hL lam u junk r h
  obtain ⟨g, h1, h2⟩ := C71_rows ws hG hq P hNS hNI (hFC q hq) u
  obtain ⟨g', h1', h2'⟩ := C71_rows ws hG hq P hNS hNI (hFC q hq) (fun p => (r p).1)
  rw [hg q hq] at h1
  have hgg := Res.ok.inj h1
  refine ⟨g', h1', fun i hi => ?_⟩
  have hsol := hz.interface q hq i hi
  have e1 : ∀ p ∈ range np, (∑ t ∈ range (P p).NS, (P p).entryF q i t * (r p).1 ((D p).L.inv.getD t 0) +
        ∑ j ∈ range (P p).NI, (P p).entryC q i j * (r p).1 ((D p).L.Iinv.getD j 0)) =
      (∑ t ∈ range (P p).NS, (P p).entryF q i t * u p ((D p).L.inv.getD t 0) +
        ∑ j ∈ range (P p).NI, (P p).entryC q i j * u p ((D p).L.Iinv.getD j 0)) -
      lam * (∑ t ∈ range (P p).NS, (P p).entryF q i t * z p ((D p).L.inv.getD t 0) +
        ∑ j ∈ range (P p).NI, (P p).entryC q i j * z p ((D p).L.Iinv.getD j 0)) := by
    intro p hp
    have hp := mem_range.1 hp
    obtain ⟨n1, n2⟩ := node_lt _ (hG.ready p hp)
    have hnn : (D p).P.n (ax 0) * (D p).P.n (ax 1) * (D p).P.n (ax 2) = nn (D p).P := by simp [nn, ax]
    have a1 : ∀ t ∈ range (P p).NS, (P p).entryF q i t * (r p).1 ((D p).L.inv.getD t 0) =
        (P p).entryF q i t * u p ((D p).L.inv.getD t 0) - lam * ((P p).entryF q i t * z p ((D p).L.inv.getD t 0)) := by
      intro t ht
      rw [mem_range, hNS p hp] at ht
      rw [(hu p hp _ (by rw [hnn]; exact n1 t ht)).1]
      ring
    have a2 : ∀ j ∈ range (P p).NI, (P p).entryC q i j * (r p).1 ((D p).L.Iinv.getD j 0) =
        (P p).entryC q i j * u p ((D p).L.Iinv.getD j 0) - lam * ((P p).entryC q i j * z p ((D p).L.Iinv.getD j 0)) := by
      intro j hj
      rw [mem_range, hNI p hp] at hj
      rw [(hu p hp _ (by rw [hnn]; exact n2 j hj)).1]
      ring
    rw [sum_congr rfl a1, sum_congr rfl a2, sum_sub_distrib, sum_sub_distrib, ← mul_sum, ← mul_sum]
    ring
  rw [h2' i, sum_congr rfl e1, sum_sub_distrib, ← mul_sum, ← h2 i, ← hgg, hsol]
  ring

end Elliptica.Sew
