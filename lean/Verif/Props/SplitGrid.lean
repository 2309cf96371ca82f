import Verif.Lemmas.SplitGridBuild
/-!
C76: the patches of a split cubed spherical grid tile the region the grid is meant to fill: no gap, no overlap, nothing
outside, and on every patch the coordinate map is regular.
-/
namespace Elliptica.Tiling
open Elliptica.Coord Elliptica.SplitCS

variable {big e : ℝ} {g : In ℝ} {n m m' : Fin 3 → ℕ} {ps : List (GPatch ℝ)}

/-- C76, the split: with at least three nodes allowed per patch, every requested resolution is divided into the smallest
number of pieces that respects the limit; the assertion in the loop never fires and a patch keeps at least two nodes. -/
theorem C76_split (given maxN : ℕ) (hm : 2 < maxN) : ∃ k m, split given maxN = .ok (k, m) ∧ 1 ≤ k ∧ m = given / k ∧
    m ≤ maxN ∧ (∀ j, 1 ≤ j → given / j ≤ maxN → k ≤ j) ∧ (2 ≤ given → 2 ≤ m) := by
  obtain ⟨k, m, h⟩ := splitLoop_total given maxN hm (given + 1) 1 (le_refl 1) (by omega) (by omega)
  have hs : split given maxN = .ok (k, m) := by unfold split; rw [if_pos hm]; exact h
  obtain ⟨-, h1, h2, h3, h4⟩ := split_ok hs
  refine ⟨k, m, hs, h1, h2, h3, fun j hj hle => ?_, fun hg => ?_⟩
  · by_contra hc
    have := h4 j hj (by omega)
    omega
  · subst h2
    by_cases hk : k = 1
    · subst hk; simpa using hg
    · have h5 := h4 (k - 1) (by omega) (by omega)
      have h6 : 4 ≤ given / (k - 1) := by omega
      have h7 : 4 * (k - 1) ≤ given := (Nat.le_div_iff_mul_le (by omega)).1 h6
      exact (Nat.le_div_iff_mul_le (by omega)).2 (by omega)

example : split 15 5 = .ok (3, 5) := by decide

/-- C76, what the program accepts: a grid is built exactly when more than two nodes are allowed per patch, every central
box fits in its surface's smallest sphere, that sphere in its cube, and the outermost sphere holds the cube. -/
theorem C76_accepts : (∃ r, build (realLib big) e g = .ok r) ↔
    (∀ i, 2 < g.maxN i) ∧ 0 < g.S ∧
    (∀ dir ∈ dirs g.kind, (0 < (g.obj dir).l ∧ 0 < (g.obj dir).w ∧ 0 < (g.obj dir).h) ∧
      diag (realLib big) (g.obj dir).l (g.obj dir).w (g.obj dir).h < (g.obj dir).rmin ∧ 2 * (g.obj dir).rmin < g.S) ∧
    (hasOuter e g = true → (if g.kind.binary then g.S / 2 else 2 * g.S) ≤ g.rout ∧
      diag (realLib big) g.S g.S g.S < g.rout) := by
  have hdirs : ∃ dir, dir ∈ dirs g.kind := by
    cases hb : g.kind.binary
    · exact ⟨.center, by simp [dirs, hb]⟩
    · exact ⟨.left, by simp [dirs, hb]⟩
  constructor
  · rintro ⟨⟨ps, m'⟩, hb⟩
    have hex : ∀ i, ∃ r : ℕ × ℕ, split (g.given i) (g.maxN i) = .ok r := by
      have hb' := hb
      unfold build at hb'
      split at hb'
      · rename_i h0 h1 h2
        exact all3 _ ⟨_, h0⟩ ⟨_, h1⟩ ⟨_, h2⟩
      · cases hb'
    choose r hr using hex
    obtain ⟨-, -, -, hok, hout⟩ := build_ok (n := fun i => (r i).1) (m := fun i => (r i).2) hr hb
    have facts : ∀ dir ∈ dirs g.kind, 0 < g.S ∧ (0 < (g.obj dir).l ∧ 0 < (g.obj dir).w ∧ 0 < (g.obj dir).h) ∧
        diag (realLib big) (g.obj dir).l (g.obj dir).w (g.obj dir).h < (g.obj dir).rmin ∧ 2 * (g.obj dir).rmin < g.S := by
      intro dir hd
      obtain ⟨h1, h2⟩ := hok dir hd
      simp only [objOk, aroundOk, Bool.and_eq_true, decide_eq_true_eq] at h1 h2
      obtain ⟨⟨⟨⟨a1, a2⟩, a3⟩, a4⟩, a5⟩ := h1
      obtain ⟨⟨b1, b2⟩, b3⟩ := h2
      have := div_nat_pos a2
      have := div_nat_pos b2
      exact ⟨b1, a3, by linarith, by linarith⟩
    obtain ⟨dir, hd⟩ := hdirs
    refine ⟨fun i => (split_ok (hr i)).1, (facts dir hd).1, fun d h => (facts d h).2, fun h => ?_⟩
    have := hout h
    simp only [outerOk, Bool.and_eq_true, decide_eq_true_eq] at this
    have h2 := div_nat_pos this.2
    have h3 := this.1.2
    refine ⟨?_, by linarith⟩
    by_cases hk : g.kind.binary = true
    · rw [if_pos hk] at h3 ⊢; linarith
    · rw [if_neg hk] at h3 ⊢; linarith
  · rintro ⟨hm, hS, ho, hr⟩
    have hex : ∀ i, ∃ r : ℕ × ℕ, split (g.given i) (g.maxN i) = .ok r := fun i => by
      obtain ⟨k, m, h, -⟩ := C76_split (g.given i) (g.maxN i) (hm i)
      exact ⟨(k, m), h⟩
    choose r hr' using hex
    let n : Fin 3 → ℕ := fun i => (r i).1
    have npos : ∀ i, 0 < n i := fun i => (split_ok (hr' i)).2.1
    have n2 : (0 : ℝ) < (n 2 : ℝ) := by exact_mod_cast npos 2
    have hdg : g.S / 2 < diag (realLib big) g.S g.S g.S := by
      have h1 := diag_cube (big := big) (a := 1) (b := 0) hS (by simp) (by simp)
      have h2 := dd_sq big 1 0
      have h3 := dd_pos big 1 0
      nlinarith
    have c1 : ∀ dir ∈ dirs g.kind, objOk (realLib big) g n dir = true := by
      intro dir hd
      obtain ⟨a, b, c⟩ := ho dir hd
      simp only [objOk, Bool.and_eq_true, decide_eq_true_eq, List.all_eq_true, List.mem_range]
      have hdp : 0 ≤ diag (realLib big) (g.obj dir).l (g.obj dir).w (g.obj dir).h :=
        div_nonneg (Real.sqrt_nonneg _) (by norm_num)
      exact ⟨⟨⟨⟨by linarith, div_pos (by linarith) n2⟩, a⟩, by linarith⟩, fun d hd => rad_gt (npos 2) b (by omega) (by omega)⟩
    have c2 : ∀ dir ∈ dirs g.kind, aroundOk (realLib big) g n dir = true := by
      intro dir hd
      obtain ⟨a, b, c⟩ := ho dir hd
      simp only [aroundOk, Bool.and_eq_true, decide_eq_true_eq, List.all_eq_true, List.mem_range]
      refine ⟨⟨hS, div_pos (by linarith) n2⟩, fun d hd => ?_⟩
      have := (cut_bounds (g.obj dir).rmin (g.S / 2) (n 2) d (npos 2) (by linarith) hd).2
      rw [rad_eq_cut]
      linarith
    have c3 : hasOuter e g = true → outerOk (realLib big) g n = true := by
      intro h
      obtain ⟨a, b⟩ := hr h
      simp only [outerOk, Bool.and_eq_true, decide_eq_true_eq]
      refine ⟨⟨hS, ?_⟩, div_pos (by linarith) n2⟩
      by_cases hk : g.kind.binary = true
      · rw [if_pos hk] at a ⊢; linarith
      · rw [if_neg hk] at a ⊢; linarith
    have h0 := hr' 0
    have h1 := hr' 1
    have h2 := hr' 2
    unfold build
    rw [h0, h1, h2]
    have en : (fun i : Fin 3 => if i = 0 then (r 0).1 else if i = 1 then (r 1).1 else (r 2).1) = n := by
      funext i; revert i; apply all3 <;> simp [n]
    simp only [en]
    rw [if_neg]
    · exact ⟨_, rfl⟩
    · simp only [Bool.or_eq_true, Bool.and_eq_true, decide_eq_true_eq, not_or, not_and, Bool.not_eq_true',
        Bool.not_eq_false, not_lt, List.all_eq_true]
      exact ⟨⟨⟨hS.le, c1⟩, c2⟩, c3⟩

/-- C76, no gap: every point of the region is in some patch of the grid, or inside an excised object.  Partial: under
`Fits`, which the program does not check. -/
theorem C76_cover_partial (hn : ∀ i, split (g.given i) (g.maxN i) = .ok (n i, m i))
    (hb : build (realLib big) e g = .ok (ps, m')) (F : Fits big g n (hasOuter e g)) (x : Fin 3 → ℝ)
    (hx : Domain g.kind (hasOuter e g) g.S g.rout x) :
    (∃ p ∈ ps, Contains (realLib big) p x) ∨ ∃ dir ∈ dirs g.kind, filled g.kind dir = false ∧ InHole g n dir x := by
  obtain ⟨hps, -⟩ := build_ok hn hb
  rcases cover (good_of hn hb F) x hx with ⟨a, ha, hc⟩ | h
  · left
    refine ⟨_, ?_, hc⟩
    rw [hps]
    exact List.mem_map_of_mem ((mem_labels _ _ a).2 ha)
  · exact Or.inr h

/-- C76, nothing outside: every point of every patch is in the region. -/
theorem C76_within_partial (hn : ∀ i, split (g.given i) (g.maxN i) = .ok (n i, m i))
    (hb : build (realLib big) e g = .ok (ps, m')) (F : Fits big g n (hasOuter e g)) :
    ∀ p ∈ ps, ∀ x, Contains (realLib big) p x → Domain g.kind (hasOuter e g) g.S g.rout x := by
  obtain ⟨hps, -⟩ := build_ok hn hb
  intro p hp x hx
  rw [hps, List.mem_map] at hp
  obtain ⟨a, ha, rfl⟩ := hp
  exact within (good_of hn hb F) ((mem_labels _ _ a).1 ha) x hx

/-- C76, no overlap: no inner point of a patch belongs to another patch of the list. -/
theorem C76_disjoint_partial (hn : ∀ i, split (g.given i) (g.maxN i) = .ok (n i, m i))
    (hb : build (realLib big) e g = .ok (ps, m')) (F : Fits big g n (hasOuter e g)) :
    ps.Pairwise fun p q => ∀ x, (Interior (realLib big) p x → ¬ Contains (realLib big) q x) ∧
      (Interior (realLib big) q x → ¬ Contains (realLib big) p x) := by
  obtain ⟨hps, -⟩ := build_ok hn hb
  rw [hps, List.pairwise_map]
  refine List.Pairwise.imp_of_mem ?_ (labels_nodup (n := n) g.kind (hasOuter e g))
  intro a b ha hb' hne x
  have G := good_of hn hb F
  have va := (mem_labels _ _ a).1 ha
  have vb := (mem_labels _ _ b).1 hb'
  exact ⟨fun h1 h2 => hne (disjoint G va vb x h1 h2), fun h1 h2 => hne (disjoint G vb va x h1 h2).symm⟩

theorem shaped_of (G : Good big g n (hasOuter e g)) {a : Label} (ha : Valid g.kind (hasOuter e g) n a) {p : Patch ℝ}
    (hp : patchOf (realLib big) g n a = .cs p) : ∃ A B, Shaped (realLib big) p A B := by
  match a, ha, hp with
  | .cs .obj dir s d0 d1 d2, ha, hp =>
    injection hp with hp
    obtain ⟨hd, hf, h0, h1, h2⟩ := ha
    exact ⟨_, _, hp ▸ obj_shaped (s := s) (G.obj dir hd) G.small (G.cube dir hd hf) (G.surf dir hd) G.exact h0 h1 h2⟩
  | .cs .around dir s d0 d1 d2, ha, hp =>
    injection hp with hp
    obtain ⟨hd, h0, h1, h2⟩ := ha
    exact ⟨_, _, hp ▸ around_shaped (s := s) (G.obj dir hd) G.small (G.surf dir hd) G.exact h0 h1 h2⟩
  | .cs .outer dir s d0 d1 d2, ha, hp =>
    injection hp with hp
    obtain ⟨ho, hd, hs, h0, h1, h2⟩ := ha
    exact ⟨_, _, hp ▸ outer_shaped (s := s) G.S G.small (G.rout ho) (G.outer ho dir hd s hs) G.exact h0 h1 h2⟩
  | .box .., _, hp => cases hp

/-- C76, regular: on every cubed spherical patch of the grid the inner surface is strictly below the outer one at every
angle, so the coordinate maps of C21 are inverse to each other there and the Jacobian of C75 is positive. -/
theorem C76_regular_partial (hn : ∀ i, split (g.given i) (g.maxN i) = .ok (n i, m i))
    (hb : build (realLib big) e g = .ok (ps, m')) (F : Fits big g n (hasOuter e g)) (p : Patch ℝ) (hp : .cs p ∈ ps)
    (X : Fin 3 → ℝ) (hX : ∀ i, p.mn i ≤ X i ∧ X i ≤ p.mx i) :
    Geometric (realLib big) p (X 0) (X 1) ∧ 0 ≤ X 2 ∧ X 2 ≤ 1 ∧ rawX (realLib big) p (xOfX (realLib big) p X) = X := by
  obtain ⟨hps, -⟩ := build_ok hn hb
  rw [hps, List.mem_map] at hp
  obtain ⟨a, ha, hp⟩ := hp
  obtain ⟨A, B, hs⟩ := shaped_of (good_of hn hb F) ((mem_labels _ _ a).1 ha) hp
  obtain ⟨h1, h2, h3, h4⟩ := hs.low _ _ (hX 0).1 (hX 0).2 (hX 1).1 (hX 1).2
  have hsq := sgn_sq (K := ℝ) p.side
  have e1 : sgn p.side * x1 (realLib big) p (X 0) (X 1) = A (X 0) (X 1) := by
    rw [h3]; linear_combination A (X 0) (X 1) * hsq
  have hg : Geometric (realLib big) p (X 0) (X 1) := by
    refine ⟨by rw [e1]; exact h1, ?_⟩
    by_cases hl : linear p.type = true
    · rw [if_pos hl] at h4 ⊢
      have e2 : sgn p.side * x2 (realLib big) p (X 0) (X 1) = B (X 0) (X 1) := by
        rw [h4]; linear_combination B (X 0) (X 1) * hsq
      rw [e1, e2]; exact h2
    · rw [if_neg hl] at h4 ⊢
      have hB := h1.trans h2
      have q1 := (div_lt_one hB).2 h2
      have q2 := div_pos h1 hB
      rw [h4]
      exact ⟨by linarith, by linarith⟩
  have h2' := hX 2
  rw [hs.mn2, hs.mx2] at h2'
  exact ⟨hg, h2'.1, h2'.2, (C21_geometric (realLib big) p X hg h2'.1 h2'.2).1⟩

end Elliptica.Tiling
