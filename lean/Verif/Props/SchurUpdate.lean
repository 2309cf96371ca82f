import Verif.Props.SchurDone
/-!
C34, continued: what a whole Newton step does to the fields, the right-hand side of the interface equations, and the
inputs the step does not survive.
-/
namespace Elliptica.Schur
open Mat

variable {K : Type} [Field K] [LinearOrder K]

omit [LinearOrder K] in
theorem upd_loop (lam : K) (t : Nat → Nat) (z : Nat → K) (a : (Nat → K) × (Nat → K)) (N : Nat)
    (hinj : ∀ i, i < N → ∀ j, j < N → t i = t j → i = j) :
    let b := (List.range N).foldl (fun (a : (Nat → K) × (Nat → K)) s =>
      (upd a.1 (t s) (a.1 (t s) - lam * z s), upd a.2 (t s) (a.1 (t s)))) a
    (∀ s, s < N → b.1 (t s) = a.1 (t s) - lam * z s ∧ b.2 (t s) = a.1 (t s)) ∧
    ∀ q, (∀ s, s < N → t s ≠ q) → b.1 q = a.1 q ∧ b.2 q = a.2 q := by
  induction N with
  | zero => simp
  | succ N ih =>
    obtain ⟨h1, h2⟩ := ih (fun i hi j hj => hinj i (by omega) j (by omega))
    dsimp only at h1 h2 ⊢
    rw [List.range_succ, List.foldl_append, List.foldl_cons, List.foldl_nil]
    generalize (List.range N).foldl (fun (a : (Nat → K) × (Nat → K)) s =>
      (upd a.1 (t s) (a.1 (t s) - lam * z s), upd a.2 (t s) (a.1 (t s)))) a = b at *
    have hN := h2 (t N) (fun s hs h => by have := hinj s (by omega) N (by omega) h; omega)
    constructor
    · intro s hs
      unfold upd
      by_cases hsN : s = N
      · subst hsN; simp [hN.1]
      · have : t s ≠ t N := fun h => hsN (hinj s hs N (by omega) h)
        simp only [this, if_false]
        exact h1 s (by omega)
    · intro q hq
      unfold upd
      have : q ≠ t N := fun h => hq N (by omega) h.symm
      simp only [this, if_false]
      exact h2 q (fun s hs => hq s (by omega))

/-- where node labels come from: the labelling of the patch succeeded, NS and NI are the sizes it produced -/
structure Labelled (n : Nat → Nat) (sfs : List SubFace) (inv Iinv : List Nat) (NS NI : Nat) : Prop where
  closed : ∃ b L, makeMapAndInv n b sfs = .ok (L, NS) ∧ L.inv = inv ∧ L.Iinv = Iinv
  size : NS + NI = n 0 * n 1 * n 2

theorem Labelled.facts {n : Nat → Nat} {sfs : List SubFace} {inv Iinv : List Nat} {NS NI : Nat} (h : Labelled n sfs inv Iinv NS NI) :
    inv.Perm (List.range (n 0 * n 1 * n 2)) ∧ inv = inv.take NS ++ Iinv ∧ Iinv.length = NI ∧ inv.length = n 0 * n 1 * n 2 := by
  obtain ⟨⟨b, L, hL, rfl, rfl⟩, hs⟩ := h
  obtain ⟨h1, _, h3, h4, _⟩ := C50_labels n b sfs L NS hL
  have hl : L.inv.length = n 0 * n 1 * n 2 := by rw [h1.length_eq, List.length_range]
  refine ⟨h1, h3, ?_, hl⟩
  have := congrArg List.length h3
  rw [List.length_append, List.length_take] at this
  omega

omit [LinearOrder K] in
/-- The update changes every node of the patch exactly once: with `z` the correction by node (`z (inv[s]) = x[s]` for the
subdomain labels, `z (Iinv[i]) = y[i]` for the interface labels), the new value of node `q` is `u q - λ z q` and the backup is
the old value, for every node; memory outside of the patch is untouched. -/
theorem C34_update (n : Nat → Nat) (sfs : List SubFace) (inv Iinv : List Nat) (NS NI : Nat)
    (hL : Labelled n sfs inv Iinv NS NI) (lam : K) (x y u junk : Nat → K) :
    ∃ z : Nat → K, (∀ s, s < NS → z (inv.getD s 0) = x s) ∧ (∀ i, i < NI → z (Iinv.getD i 0) = y i) ∧
      (∀ q, q < n 0 * n 1 * n 2 → (updateField lam inv Iinv NS NI x y u junk).1 q = u q - lam * z q ∧
        (updateField lam inv Iinv NS NI x y u junk).2 q = u q) ∧
      ∀ q, n 0 * n 1 * n 2 ≤ q → (updateField lam inv Iinv NS NI x y u junk).1 q = u q ∧
        (updateField lam inv Iinv NS NI x y u junk).2 q = junk q := by
  obtain ⟨hperm, happ, hI, hlen⟩ := hL.facts
  have hsize := hL.size
  have hnd : inv.Nodup := hperm.nodup_iff.2 List.nodup_range
  have hgetI : ∀ i, i < NI → Iinv.getD i 0 = inv.getD (NS + i) 0 := by
    intro i hi
    have h1 : (inv.take NS).length = NS := by rw [List.length_take]; omega
    have : inv.getD (NS + i) 0 = (inv.take NS ++ Iinv).getD (NS + i) 0 := by rw [← happ]
    rw [this, List.getD_eq_getElem?_getD, List.getD_eq_getElem?_getD, List.getElem?_append_right (by omega), h1]
    congr 2; omega
  have hinj : ∀ a, a < NS + NI → ∀ b, b < NS + NI → inv.getD a 0 = inv.getD b 0 → a = b := by
    intro a ha b hb hab
    have ha' : a < inv.length := by omega
    have hb' : b < inv.length := by omega
    simp only [List.getD, List.getElem?_eq_getElem ha', List.getElem?_eq_getElem hb', Option.getD_some] at hab
    exact (List.Nodup.getElem_inj_iff hnd).1 hab
  have hrange : ∀ a, a < NS + NI → inv.getD a 0 < n 0 * n 1 * n 2 := by
    intro a ha
    have ha' : a < inv.length := by omega
    simp only [List.getD, List.getElem?_eq_getElem ha', Option.getD_some]
    exact List.mem_range.1 (hperm.mem_iff.1 (List.getElem_mem ha'))
  have hsurj : ∀ q, q < n 0 * n 1 * n 2 → ∃ a, a < NS + NI ∧ inv.getD a 0 = q := by
    intro q hq
    obtain ⟨a, ha, e⟩ := List.getElem_of_mem (hperm.mem_iff.2 (List.mem_range.2 hq))
    exact ⟨a, by omega, by simp [List.getD, List.getElem?_eq_getElem ha, e]⟩
  have u1 := upd_loop lam (fun s => inv.getD s 0) x (u, junk) NS (fun i hi j hj => hinj i (by omega) j (by omega))
  dsimp only at u1
  have hun : updateField lam inv Iinv NS NI x y u junk = (List.range NI).foldl (fun (a : (Nat → K) × (Nat → K)) i =>
    (upd a.1 (Iinv.getD i 0) (a.1 (Iinv.getD i 0) - lam * y i), upd a.2 (Iinv.getD i 0) (a.1 (Iinv.getD i 0))))
    ((List.range NS).foldl (fun (a : (Nat → K) × (Nat → K)) s =>
    (upd a.1 (inv.getD s 0) (a.1 (inv.getD s 0) - lam * x s), upd a.2 (inv.getD s 0) (a.1 (inv.getD s 0)))) (u, junk)) := rfl
  rw [hun]
  generalize (List.range NS).foldl (fun (a : (Nat → K) × (Nat → K)) s =>
    (upd a.1 (inv.getD s 0) (a.1 (inv.getD s 0) - lam * x s), upd a.2 (inv.getD s 0) (a.1 (inv.getD s 0)))) (u, junk) = A at *
  have u2 := upd_loop lam (fun i => Iinv.getD i 0) y A NI (fun i hi j hj h => by
    rw [hgetI i hi, hgetI j hj] at h
    have := hinj _ (by omega) _ (by omega) h
    omega)
  dsimp only at u2
  generalize (List.range NI).foldl (fun (a : (Nat → K) × (Nat → K)) i =>
    (upd a.1 (Iinv.getD i 0) (a.1 (Iinv.getD i 0) - lam * y i), upd a.2 (Iinv.getD i 0) (a.1 (Iinv.getD i 0)))) A = Bv at *
  have hzx : ∀ s, s < NS → inv.idxOf (inv.getD s 0) = s := by
    intro s hs
    have hs' : s < inv.length := by omega
    simp only [List.getD, List.getElem?_eq_getElem hs', Option.getD_some]
    exact List.Nodup.idxOf_getElem hnd s hs'
  have hzy : ∀ i, i < NI → inv.idxOf (Iinv.getD i 0) = NS + i := by
    intro i hi
    rw [hgetI i hi]
    have hs' : NS + i < inv.length := by omega
    simp only [List.getD, List.getElem?_eq_getElem hs', Option.getD_some]
    exact List.Nodup.idxOf_getElem hnd _ hs'
  refine ⟨fun q => if inv.idxOf q < NS then x (inv.idxOf q) else y (inv.idxOf q - NS), ?_, ?_, ?_, ?_⟩
  · intro s hs
    simp only [hzx s hs, hs, if_true]
  · intro i hi
    simp only [hzy i hi]
    rw [if_neg (by omega)]
    congr 1; omega
  · intro q hq
    obtain ⟨a, ha, rfl⟩ := hsurj q hq
    by_cases has : a < NS
    · have h2 := u2.2 (inv.getD a 0) (fun i hi h => by
        rw [hgetI i hi] at h
        have := hinj _ (by omega) _ ha h; omega)
      dsimp only
      rw [hzx a has, if_pos has, h2.1, h2.2, (u1.1 a has).1, (u1.1 a has).2]
      exact ⟨rfl, rfl⟩
    · obtain ⟨i, rfl⟩ : ∃ i, a = NS + i := ⟨a - NS, by omega⟩
      have hi : i < NI := by omega
      have h2 := u2.1 i hi
      have h1 := u1.2 (inv.getD (NS + i) 0) (fun s hs h => by have := hinj _ (by omega) _ ha h; omega)
      dsimp only
      rw [← hgetI i hi] at h1 ⊢
      rw [hzy i hi, if_neg (by omega), h2.1, h2.2, h1.1]
      refine ⟨?_, rfl⟩
      congr 3; omega
  · intro q hq
    have h2 := u2.2 q (fun i hi h => by
      rw [hgetI i hi] at h
      have := hrange (NS + i) (by omega); omega)
    have h1 := u1.2 q (fun s hs h => by have := hrange s (by omega); omega)
    rw [h2.1, h2.2, h1.1, h1.2]
    exact ⟨rfl, rfl⟩

/-- A whole Newton step on a multi-patch grid: if it goes through and no nonzero entry is lost in compressed storage, then
the new field is `u - λ z` on every node of every patch, where `z`, read in the order of the labels, is the solution of the linear system
of all patches; the backup of every patch is the old field. -/
theorem C34_newton [IsStrictOrderedRing K] (e drop : K) (he : 0 ≤ e) (solve : Solver K) (hs : Sound solve) (np : Nat) (P : Nat → Patch K)
    (hn : NothingDropped (drop + e) e np P) (n : Nat → Nat → Nat) (sfs : Nat → List SubFace) (lab : Nat → List Nat × List Nat)
    (hL : ∀ p, p < np → Labelled (n p) (sfs p) (lab p).1 (lab p).2 (P p).NS (P p).NI) (lam : K) (u junk : Nat → Nat → K)
    (r : Nat → (Nat → K) × (Nat → K)) (h : stepMulti e drop solve np P lab lam u junk = .ok r) :
    ∃ z : Nat → Nat → K,
      Solves np P (fun p s => z p ((lab p).1.getD s 0)) (fun p i => z p ((lab p).2.getD i 0)) ∧
      ∀ p, p < np → ∀ q, q < n p 0 * n p 1 * n p 2 → (r p).1 q = u p q - lam * z p q ∧ (r p).2 q = u p q := by
  unfold stepMulti at h
  cases hx : newton e drop solve np P with
  | abort => rw [hx] at h; cases h
  | ub => rw [hx] at h; cases h
  | ok xy =>
    rw [hx, Res.bind_ok] at h
    injection h with h
    obtain ⟨x, y⟩ := xy
    have hsol := C34_exact e drop he solve hs np P hn x y hx
    have hz : ∀ p, ∃ z : Nat → K, p < np → (∀ s, s < (P p).NS → z ((lab p).1.getD s 0) = x p s) ∧
        (∀ i, i < (P p).NI → z ((lab p).2.getD i 0) = y p i) ∧
        (∀ q, q < n p 0 * n p 1 * n p 2 → (r p).1 q = u p q - lam * z q ∧ (r p).2 q = u p q) := by
      intro p
      by_cases hp : p < np
      · obtain ⟨z, h1, h2, h3, _⟩ := C34_update (n p) (sfs p) _ _ _ _ (hL p hp) lam (x p) (y p) (u p) (junk p)
        refine ⟨z, fun _ => ⟨h1, h2, ?_⟩⟩
        rw [← h]; exact h3
      · exact ⟨fun _ => 0, fun h => absurd h hp⟩
    choose z hz using hz
    refine ⟨z, ?_, fun p hp => (hz p hp).2.2⟩
    constructor
    · intro p hp s hs'
      rw [← hsol.subdomain p hp s hs']
      congr 1
      · apply Finset.sum_congr rfl
        intro t ht
        rw [(hz p hp).1 t (Finset.mem_range.1 ht)]
      · apply Finset.sum_congr rfl
        intro i hi
        rw [(hz p hp).2.1 i (Finset.mem_range.1 hi)]
    · intro q hq r' hr
      rw [← hsol.interface q hq r' hr]
      apply Finset.sum_congr rfl
      intro p hp
      rw [Finset.mem_range] at hp
      congr 1
      · apply Finset.sum_congr rfl
        intro t ht
        rw [(hz p hp).1 t (Finset.mem_range.1 ht)]
      · apply Finset.sum_congr rfl
        intro i hi
        rw [(hz p hp).2.1 i (Finset.mem_range.1 hi)]

/-- `R` is an affine residual on the nodes of the patches whose Jacobian, in the order of the labels, is the matrix of `P` -/
structure AffineResidual (np : Nat) (P : Nat → Patch K) (nn : Nat → Nat) (lab : Nat → List Nat × List Nat)
    (f g : (Nat → Nat → K) → Nat → Nat → K) : Prop where
  nodes : ∀ (u v : Nat → Nat → K), (∀ p, p < np → ∀ q, q < nn p → u p q = v p q) → ∀ p, p < np → ∀ s, f u p s = f v p s ∧ g u p s = g v p s
  affF : ∀ (u d : Nat → Nat → K) (p : Nat), p < np → ∀ s, s < (P p).NS → f (fun p q => u p q - d p q) p s = f u p s -
    (∑ t ∈ Finset.range (P p).NS, (P p).B (s, t) * d p ((lab p).1.getD t 0) + ∑ i ∈ Finset.range (P p).NI, (P p).ET (i, s) * d p ((lab p).2.getD i 0))
  affG : ∀ (u d : Nat → Nat → K) (q : Nat), q < np → ∀ r, r < (P q).NI → g (fun p q => u p q - d p q) q r = g u q r -
    ∑ p ∈ Finset.range np, (∑ t ∈ Finset.range (P p).NS, (P p).entryF q r t * d p ((lab p).1.getD t 0) +
      ∑ i ∈ Finset.range (P p).NI, (P p).entryC q r i * d p ((lab p).2.getD i 0))

/-- For linear equations a Newton step multiplies every residual by 1 - λ: with full weight λ = 1 the equations and the
matching conditions of all patches are satisfied after one step. -/
theorem C34_linear [IsStrictOrderedRing K] (e drop : K) (he : 0 ≤ e) (solve : Solver K) (hs : Sound solve) (np : Nat) (P : Nat → Patch K)
    (hn : NothingDropped (drop + e) e np P) (n : Nat → Nat → Nat) (sfs : Nat → List SubFace) (lab : Nat → List Nat × List Nat)
    (hL : ∀ p, p < np → Labelled (n p) (sfs p) (lab p).1 (lab p).2 (P p).NS (P p).NI) (lam : K) (u junk : Nat → Nat → K)
    (f g : (Nat → Nat → K) → Nat → Nat → K) (hA : AffineResidual np P (fun p => n p 0 * n p 1 * n p 2) lab f g)
    (hf : ∀ p, p < np → ∀ s, s < (P p).NS → (P p).f s = f u p s) (hg : ∀ p, p < np → ∀ i, i < (P p).NI → (P p).g i = g u p i)
    (r : Nat → (Nat → K) × (Nat → K)) (h : stepMulti e drop solve np P lab lam u junk = .ok r) :
    (∀ p, p < np → ∀ s, s < (P p).NS → f (fun p => (r p).1) p s = (1 - lam) * f u p s) ∧
    ∀ p, p < np → ∀ i, i < (P p).NI → g (fun p => (r p).1) p i = (1 - lam) * g u p i := by
  obtain ⟨z, hz, hr⟩ := C34_newton e drop he solve hs np P hn n sfs lab hL lam u junk r h
  have e0 := hA.nodes (fun p => (r p).1) (fun p q => u p q - lam * z p q) (fun p hp q hq => (hr p hp q hq).1)
  constructor
  · intro p hp s hs'
    rw [(e0 p hp s).1, hA.affF u (fun p q => lam * z p q) p hp s hs']
    have := hz.subdomain p hp s hs'
    rw [hf p hp s hs'] at this
    have e3 : ∀ (N : Nat) (a b : Nat → K), ∑ t ∈ Finset.range N, a t * (lam * b t) = lam * ∑ t ∈ Finset.range N, a t * b t := by
      intro N a b; rw [Finset.mul_sum]; apply Finset.sum_congr rfl; intro t _; ring
    rw [e3 _ _ (fun t => z p ((lab p).1.getD t 0)), e3 _ _ (fun i => z p ((lab p).2.getD i 0)), ← mul_add]
    linear_combination (-lam) * this
  · intro q hq i hi
    rw [(e0 q hq i).2, hA.affG u (fun p q => lam * z p q) q hq i hi]
    have := hz.interface q hq i hi
    rw [hg q hq i hi] at this
    have e3 : ∀ (N : Nat) (a b : Nat → K), ∑ t ∈ Finset.range N, a t * (lam * b t) = lam * ∑ t ∈ Finset.range N, a t * b t := by
      intro N a b; rw [Finset.mul_sum]; apply Finset.sum_congr rfl; intro t _; ring
    have e4 : ∀ p ∈ Finset.range np, (∑ t ∈ Finset.range (P p).NS, (P p).entryF q i t * (lam * z p ((lab p).1.getD t 0)) +
        ∑ j ∈ Finset.range (P p).NI, (P p).entryC q i j * (lam * z p ((lab p).2.getD j 0))) =
        lam * (∑ t ∈ Finset.range (P p).NS, (P p).entryF q i t * z p ((lab p).1.getD t 0) +
        ∑ j ∈ Finset.range (P p).NI, (P p).entryC q i j * z p ((lab p).2.getD j 0)) := by
      intro p _
      rw [e3 _ _ (fun t => z p ((lab p).1.getD t 0)), e3 _ _ (fun i => z p ((lab p).2.getD i 0)), ← mul_add]
    rw [Finset.sum_congr rfl e4, ← Finset.mul_sum]
    linear_combination (-lam) * this

omit [LinearOrder K] in
/-- the hypothesis of `C34_linear` is met, for every labelling of the patches, by the residuals `matrix * u - constant` -/
example (np : Nat) (P : Nat → Patch K) (n : Nat → Nat → Nat) (sfs : Nat → List SubFace) (lab : Nat → List Nat × List Nat)
    (hL : ∀ p, p < np → Labelled (n p) (sfs p) (lab p).1 (lab p).2 (P p).NS (P p).NI) (cf cg : Nat → Nat → K) :
    AffineResidual np P (fun p => n p 0 * n p 1 * n p 2) lab
      (fun u p s => ∑ t ∈ Finset.range (P p).NS, (P p).B (s, t) * u p ((lab p).1.getD t 0) +
        ∑ i ∈ Finset.range (P p).NI, (P p).ET (i, s) * u p ((lab p).2.getD i 0) - cf p s)
      (fun u q r => ∑ p ∈ Finset.range np, (∑ t ∈ Finset.range (P p).NS, (P p).entryF q r t * u p ((lab p).1.getD t 0) +
        ∑ i ∈ Finset.range (P p).NI, (P p).entryC q r i * u p ((lab p).2.getD i 0)) - cg q r) := by
  have hr : ∀ p, p < np → (∀ s, s < (P p).NS → (lab p).1.getD s 0 < n p 0 * n p 1 * n p 2) ∧
      ∀ i, i < (P p).NI → (lab p).2.getD i 0 < n p 0 * n p 1 * n p 2 := by
    intro p hp
    obtain ⟨hperm, happ, hI, hlen⟩ := (hL p hp).facts
    have hsize := (hL p hp).size
    constructor
    · intro s hs
      have ha' : s < (lab p).1.length := by omega
      simp only [List.getD, List.getElem?_eq_getElem ha', Option.getD_some]
      exact List.mem_range.1 (hperm.mem_iff.1 (List.getElem_mem ha'))
    · intro i hi
      have ha' : i < (lab p).2.length := by omega
      simp only [List.getD, List.getElem?_eq_getElem ha', Option.getD_some]
      refine List.mem_range.1 (hperm.mem_iff.1 ?_)
      rw [happ]
      exact List.mem_append_right _ (List.getElem_mem ha')
  have e1 : ∀ (N : Nat) (a x y : Nat → K), ∑ t ∈ Finset.range N, a t * (x t - y t) =
      ∑ t ∈ Finset.range N, a t * x t - ∑ t ∈ Finset.range N, a t * y t := by
    intro N a x y
    rw [← Finset.sum_sub_distrib]; apply Finset.sum_congr rfl; intro t _; ring
  have e2 : ∀ (N : Nat) (a x y : Nat → K), (∀ t, t < N → x t = y t) → ∑ t ∈ Finset.range N, a t * x t = ∑ t ∈ Finset.range N, a t * y t := by
    intro N a x y h
    apply Finset.sum_congr rfl; intro t ht; rw [h t (Finset.mem_range.1 ht)]
  refine ⟨fun u v h p hp s => ⟨?_, ?_⟩, fun u d p hp s hs => ?_, fun u d q hq r hr' => ?_⟩
  · rw [e2 _ _ (fun t => u p ((lab p).1.getD t 0)) (fun t => v p ((lab p).1.getD t 0)) (fun t ht => h p hp _ ((hr p hp).1 t ht)),
      e2 _ _ (fun t => u p ((lab p).2.getD t 0)) (fun t => v p ((lab p).2.getD t 0)) (fun t ht => h p hp _ ((hr p hp).2 t ht))]
  · congr 1
    apply Finset.sum_congr rfl
    intro p' hp'
    rw [Finset.mem_range] at hp'
    rw [e2 _ _ (fun t => u p' ((lab p').1.getD t 0)) (fun t => v p' ((lab p').1.getD t 0)) (fun t ht => h p' hp' _ ((hr p' hp').1 t ht)),
      e2 _ _ (fun t => u p' ((lab p').2.getD t 0)) (fun t => v p' ((lab p').2.getD t 0)) (fun t ht => h p' hp' _ ((hr p' hp').2 t ht))]
  · rw [e1 _ _ (fun t => u p ((lab p).1.getD t 0)) (fun t => d p ((lab p).1.getD t 0)),
      e1 _ _ (fun t => u p ((lab p).2.getD t 0)) (fun t => d p ((lab p).2.getD t 0))]
    ring
  · rw [sub_right_comm, ← Finset.sum_sub_distrib]
    congr 1
    apply Finset.sum_congr rfl
    intro p _
    rw [e1 _ _ (fun t => u p ((lab p).1.getD t 0)) (fun t => d p ((lab p).1.getD t 0)),
      e1 _ _ (fun t => u p ((lab p).2.getD t 0)) (fun t => d p ((lab p).2.getD t 0))]
    ring

/-- The step on a grid with a single patch (no interface nodes): the new field is `u - λ z` on every node, with B z = f in the
order of the labels. -/
theorem C34_single [IsStrictOrderedRing K] (e drop : K) (solve : Solver K) (hs : Sound solve) (P : Patch K)
    (hd : ∀ s, s < P.NS → ∀ t, t < P.NS → P.B (s, t) = 0 ∨ drop + e < |P.B (s, t)|)
    (n : Nat → Nat) (sfs : List SubFace) (inv Iinv : List Nat) (hL : Labelled n sfs inv Iinv P.NS 0) (lam : K) (u junk : Nat → K)
    (r : (Nat → K) × (Nat → K)) (h : stepSingle e drop solve P lam inv u junk = .ok r) :
    ∃ z : Nat → K,
      (∀ s, s < P.NS → ∑ t ∈ Finset.range P.NS, P.B (s, t) * z (inv.getD t 0) = P.f s) ∧
      ∀ q, q < n 0 * n 1 * n 2 → r.1 q = u q - lam * z q ∧ r.2 q = u q := by
  unfold stepSingle at h
  split at h
  · cases h
  cases hx : solve (buildCCS e drop (fun r c => P.B (r, c)) P.NS P.NS) P.f with
  | none => rw [hx] at h; cases h
  | some x =>
    rw [hx] at h
    injection h with h
    obtain ⟨hBw, hBr, hBc, hBe⟩ := C14_roundtrip e drop P.B P.NS P.NS
    obtain ⟨z, h1, _, h3, _⟩ := C34_update n sfs inv Iinv P.NS 0 hL lam x (fun _ => 0) u junk
    refine ⟨z, ?_, ?_⟩
    · intro s hs'
      rw [← hs _ _ x hBw rfl hx s hs']
      apply Finset.sum_congr rfl
      intro t ht
      rw [Finset.mem_range] at ht
      rw [(hBe s t hs' ht).1, h1 t ht]
      show _ = cut (drop + e) (P.B (s, t)) * _
      rw [cut_eq (hd s hs' t ht)]
    · rw [← h]; exact h3

/-- A patch without interface unknowns, or without subdomain unknowns, is never handled: the step does not return. -/
theorem C34_isolated_violation (e drop : K) (solve : Solver K) (np : Nat) (P : Nat → Patch K) (p : Nat) (hp : p < np)
    (h0 : (P p).NI = 0 ∨ (P p).NS = 0) (r : (Nat → Nat → K) × (Nat → Nat → K)) : newton e drop solve np P ≠ .ok r := by
  intro h
  unfold newton at h
  cases hl : elimAll e drop solve np P with
  | abort => rw [hl] at h; cases h
  | ub => rw [hl] at h; cases h
  | ok l =>
    obtain ⟨E, rfl, hE⟩ := elimAll_ok e drop solve np P l hl
    have h1 := hE p hp
    have h2 : ∀ r, ePrime e drop solve (P p) ≠ .ok r := by
      intro r hr
      unfold ePrime at hr
      split at hr
      · cases hr
      dsimp only at hr
      split at hr
      · cases hr
      split at hr
      · cases hr
      split at hr
      · cases hr
      · rename_i a _ _ _ _ b
        rcases h0 with h | h
        · exact b h
        · exact a h
    unfold elim at h1
    cases hr : ePrime e drop solve (P p) with
    | abort => rw [hr] at h1; cases h1
    | ub => rw [hr] at h1; cases h1
    | ok r => exact h2 r hr

/-! ### the right-hand side of the interface equations -/

/-- what the points of the subfaces that carry interface label `i` contribute -/
def gSum (Imap : Nat → Option Nat) (pairs : List (GPair K)) (i : Nat) : K :=
  (pairs.map fun pr => ∑ s ∈ (Finset.range pr.id.length).filter (fun s => Imap (pr.id.getD s 0) = some i), (pr.pg1 s + pr.pg2 s)).sum

/-- The interface right-hand side: entry `i` is the sum, over all points of all shared subfaces whose node has interface
label `i`, of the two partial residuals; nodes without an interface label contribute nothing. -/
theorem C34_rhs (Imap : Nat → Option Nat) (pairs : List (GPair K)) (i : Nat) : makeG Imap pairs i = gSum Imap pairs i := by
  have inner : ∀ (pr : GPair K) (N : Nat) (g : Nat → K),
      (List.range N).foldl (gStep Imap pr) g i =
      g i + ∑ s ∈ (Finset.range N).filter (fun s => Imap (pr.id.getD s 0) = some i), (pr.pg1 s + pr.pg2 s) := by
    intro pr N
    induction N with
    | zero => intro g; simp
    | succ N ih =>
      intro g
      rw [List.range_succ, List.foldl_append, List.foldl_cons, List.foldl_nil, Finset.range_add_one, Finset.filter_insert]
      have ih' := ih g
      generalize (List.range N).foldl (gStep Imap pr) g = g' at ih' ⊢
      cases hm : Imap (pr.id.getD N 0) with
      | none => unfold gStep; rw [hm]; dsimp only; rw [if_neg (by simp), ih']
      | some j =>
        unfold gStep
        rw [hm]
        dsimp only
        rw [addTo_apply, ih']
        by_cases hij : j = i
        · subst hij
          rw [if_pos rfl, if_pos rfl, Finset.sum_insert (by simp)]
          ring
        · rw [if_neg (fun h => hij h.symm), if_neg (by simpa using hij), add_zero]
  have outer : ∀ (l : List (GPair K)) (g : Nat → K),
      (l.foldl (fun g pr => (List.range pr.id.length).foldl (gStep Imap pr) g) g) i = g i + gSum Imap l i := by
    intro l
    induction l with
    | nil => intro g; simp [gSum]
    | cons pr l ih =>
      intro g
      rw [List.foldl_cons, ih, inner]
      unfold gSum
      rw [List.map_cons, List.sum_cons]
      ring
  unfold makeG
  rw [outer]; simp

end Elliptica.Schur
