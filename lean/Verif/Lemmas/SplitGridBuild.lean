import Verif.Lemmas.SplitGridCover
import Mathlib.Data.List.Nodup
import Mathlib.Data.List.Flatten
/-!
Lemmas for C76: the labels the loops produce, and what the program's checks establish.
-/
namespace Elliptica.Tiling
open Elliptica.Coord Elliptica.SplitCS

variable {big : ℝ} {g : In ℝ} {n : Fin 3 → ℕ} {out : Bool}

theorem mem_cells {f : ℕ → ℕ → ℕ → List Label} {a : Label} :
    a ∈ cells n f ↔ ∃ d0 d1 d2, d0 < n 0 ∧ d1 < n 1 ∧ d2 < n 2 ∧ a ∈ f d0 d1 d2 := by
  simp only [cells, List.mem_flatMap, List.mem_range]
  constructor
  · rintro ⟨d0, h0, d1, h1, d2, h2, h⟩; exact ⟨d0, d1, d2, h0, h1, h2, h⟩
  · rintro ⟨d0, d1, d2, h0, h1, h2, h⟩; exact ⟨d0, h0, d1, h1, d2, h2, h⟩

theorem mem_sides (s : Side) : s ∈ sides := by cases s <;> decide

theorem mem_cs {part : Part} {dir : Dir} {a : Label} : a ∈ csLabels n part dir ↔
    ∃ s d0 d1 d2, skip part dir s = false ∧ d0 < n 0 ∧ d1 < n 1 ∧ d2 < n 2 ∧ a = .cs part dir s d0 d1 d2 := by
  simp only [csLabels, mem_cells, List.mem_map, List.mem_filter, mem_sides, true_and, Bool.not_eq_true']
  constructor
  · rintro ⟨d0, d1, d2, h0, h1, h2, s, hs, rfl⟩; exact ⟨s, d0, d1, d2, hs, h0, h1, h2, rfl⟩
  · rintro ⟨s, d0, d1, d2, hs, h0, h1, h2, rfl⟩; exact ⟨d0, d1, d2, h0, h1, h2, s, hs, rfl⟩

theorem mem_box {dir : Dir} {a : Label} : a ∈ boxLabels n dir ↔
    ∃ d0 d1 d2, d0 < n 0 ∧ d1 < n 1 ∧ d2 < n 2 ∧ a = .box dir d0 d1 d2 := by
  simp only [boxLabels, mem_cells, List.mem_singleton]

theorem flatMap_range_nodup {N : ℕ} {f : ℕ → List Label} (h : ∀ d, (f d).Nodup)
    (hd : ∀ d e a, a ∈ f d → a ∈ f e → d = e) : ((List.range N).flatMap f).Nodup := by
  rw [List.nodup_flatMap]
  refine ⟨fun d _ => h d, ?_⟩
  refine List.Pairwise.imp ?_ (List.nodup_range (n := N))
  intro d e hne a ha hb
  exact hne (hd d e a ha hb)

theorem cells_nodup {f : ℕ → ℕ → ℕ → List Label} (h : ∀ a b c, (f a b c).Nodup)
    (hd : ∀ a b c a' b' c' l, l ∈ f a b c → l ∈ f a' b' c' → a = a' ∧ b = b' ∧ c = c') : (cells n f).Nodup := by
  unfold cells
  refine flatMap_range_nodup (fun a => flatMap_range_nodup (fun b => flatMap_range_nodup (fun c => h a b c) ?_) ?_) ?_
  · intro c c' l h1 h2; exact (hd _ _ _ _ _ _ l h1 h2).2.2
  · intro b b' l h1 h2
    simp only [List.mem_flatMap] at h1 h2
    obtain ⟨c, -, h1⟩ := h1
    obtain ⟨c', -, h2⟩ := h2
    exact (hd _ _ _ _ _ _ l h1 h2).2.1
  · intro a a' l h1 h2
    simp only [List.mem_flatMap] at h1 h2
    obtain ⟨b, -, c, -, h1⟩ := h1
    obtain ⟨b', -, c', -, h2⟩ := h2
    exact (hd _ _ _ _ _ _ l h1 h2).1

theorem box_nodup (dir : Dir) : (boxLabels n dir).Nodup := by
  apply cells_nodup
  · intro a b c; simp
  · intro a b c a' b' c' l h1 h2
    simp only [List.mem_singleton] at h1 h2
    rw [h1] at h2
    injection h2 with _ e0 e1 e2
    exact ⟨e0, e1, e2⟩

theorem cs_nodup (part : Part) (dir : Dir) : (csLabels n part dir).Nodup := by
  apply cells_nodup
  · intro a b c
    apply List.Nodup.map
    · intro s t h; injection h
    · exact List.Nodup.filter _ (by decide)
  · intro a b c a' b' c' l h1 h2
    simp only [List.mem_map] at h1 h2
    obtain ⟨s, -, rfl⟩ := h1
    obtain ⟨t, -, h2⟩ := h2
    injection h2 with _ _ _ e0 e1 e2
    exact ⟨e0.symm, e1.symm, e2.symm⟩

theorem cs_cs {p q : Part} {d e : Dir} (h : p ≠ q ∨ d ≠ e) : List.Disjoint (csLabels n p d) (csLabels n q e) := by
  intro a ha hb
  obtain ⟨s, d0, d1, d2, -, -, -, -, rfl⟩ := mem_cs.1 ha
  obtain ⟨t, e0, e1, e2, -, -, -, -, hb⟩ := mem_cs.1 hb
  injection hb with h1 h2
  rcases h with h | h
  · exact h h1
  · exact h h2

theorem cs_box {p : Part} {d e : Dir} : List.Disjoint (csLabels n p d) (boxLabels n e) := by
  intro a ha hb
  obtain ⟨s, d0, d1, d2, -, -, -, -, rfl⟩ := mem_cs.1 ha
  obtain ⟨e0, e1, e2, -, -, -, hb⟩ := mem_box.1 hb
  cases hb

theorem box_cs {p : Part} {d e : Dir} : List.Disjoint (boxLabels n e) (csLabels n p d) := cs_box.symm

theorem box_box {d e : Dir} (h : d ≠ e) : List.Disjoint (boxLabels n d) (boxLabels n e) := by
  intro a ha hb
  obtain ⟨d0, d1, d2, -, -, -, rfl⟩ := mem_box.1 ha
  obtain ⟨e0, e1, e2, -, -, -, hb⟩ := mem_box.1 hb
  injection hb with h1
  exact h h1

theorem first_ne (b : Bool) : firstDir b ≠ secondDir b := by cases b <;> decide
theorem second_ne (b : Bool) : secondDir b ≠ firstDir b := by cases b <;> decide

theorem labels_nodup (k : Kind) (out : Bool) : (labels k out n).Nodup := by
  cases k <;> cases out <;>
    simp only [labels, if_true, if_false, Bool.false_eq_true, List.append_nil, List.nil_append] <;>
    (try split) <;>
    simp only [List.nodup_append', List.disjoint_append_right, List.disjoint_append_left, box_nodup, cs_nodup, cs_box,
      box_cs, true_and, and_true, List.nodup_nil, List.disjoint_nil_right, List.append_nil] <;>
    repeat' constructor
  all_goals first
    | exact cs_cs (Or.inl (by decide))
    | exact cs_cs (Or.inr (first_ne _))
    | exact cs_cs (Or.inr (second_ne _))
    | exact cs_cs (Or.inr (by decide))
    | exact box_box (first_ne _)

theorem mem_labels (k : Kind) (out : Bool) (a : Label) : a ∈ labels k out n ↔ Valid k out n a := by
  have hb : ∀ (dir e : Dir) (d0 d1 d2 : ℕ), .box dir d0 d1 d2 ∈ boxLabels n e ↔ dir = e ∧ d0 < n 0 ∧ d1 < n 1 ∧ d2 < n 2 := by
    intro dir e d0 d1 d2
    rw [mem_box]
    constructor
    · rintro ⟨a, b, c, h0, h1, h2, h⟩; cases h; exact ⟨rfl, h0, h1, h2⟩
    · rintro ⟨rfl, h0, h1, h2⟩; exact ⟨_, _, _, h0, h1, h2, rfl⟩
  have hbc : ∀ (dir e : Dir) (p : Part) (d0 d1 d2 : ℕ), .box dir d0 d1 d2 ∈ csLabels n p e ↔ False := by
    intro dir e p d0 d1 d2
    rw [mem_cs]
    constructor
    · rintro ⟨_, _, _, _, _, _, _, _, h⟩; cases h
    · exact False.elim
  have hcb : ∀ (dir e : Dir) (p : Part) (s : Side) (d0 d1 d2 : ℕ), .cs p dir s d0 d1 d2 ∈ boxLabels n e ↔ False := by
    intro dir e p s d0 d1 d2
    rw [mem_box]
    constructor
    · rintro ⟨_, _, _, _, _, _, h⟩; cases h
    · exact False.elim
  have hcc : ∀ (dir e : Dir) (p q : Part) (s : Side) (d0 d1 d2 : ℕ), .cs p dir s d0 d1 d2 ∈ csLabels n q e ↔
      p = q ∧ dir = e ∧ skip p dir s = false ∧ d0 < n 0 ∧ d1 < n 1 ∧ d2 < n 2 := by
    intro dir e p q s d0 d1 d2
    rw [mem_cs]
    constructor
    · rintro ⟨_, _, _, _, hs, h0, h1, h2, h⟩; cases h; exact ⟨rfl, rfl, hs, h0, h1, h2⟩
    · rintro ⟨rfl, rfl, hs, h0, h1, h2⟩; exact ⟨_, _, _, _, hs, h0, h1, h2, rfl⟩
  have so : ∀ d s, skip .obj d s = false := fun d s => by cases d <;> cases s <;> rfl
  have sa : ∀ d s, skip .around d s = false := fun d s => by cases d <;> cases s <;> rfl
  have key : ∀ (P Q : Prop), P → Q → (P ↔ Q) := fun P Q hp hq => ⟨fun _ => hq, fun _ => hp⟩
  match a with
  | .box dir d0 d1 d2 =>
    simp only [Valid]
    cases k with
    | bhns b f => cases b <;> cases f <;> cases out <;> cases dir <;>
        simp [labels, hb, hbc, firstDir, secondDir, dirs, Kind.binary, filled]
    | nsns b => cases b <;> cases out <;> cases dir <;>
        simp [labels, hb, hbc, firstDir, secondDir, dirs, Kind.binary, filled]
    | bhbh b f => cases b <;> cases f <;> cases out <;> cases dir <;>
        simp [labels, hb, hbc, firstDir, secondDir, dirs, Kind.binary, filled]
    | sbh f => cases f <;> cases out <;> cases dir <;>
        simp [labels, hb, hbc, dirs, Kind.binary, filled]
    | sns => cases out <;> cases dir <;> simp [labels, hb, hbc, dirs, Kind.binary, filled]
  | .cs part dir s d0 d1 d2 =>
    cases k with
    | bhns b f => cases part <;> cases b <;> cases f <;> cases out <;> cases dir <;>
        simp [Valid, labels, hcb, hcc, firstDir, secondDir, dirs, Kind.binary, filled, so, sa]
    | nsns b => cases part <;> cases b <;> cases out <;> cases dir <;>
        simp [Valid, labels, hcb, hcc, firstDir, secondDir, dirs, Kind.binary, filled, so, sa]
    | bhbh b f => cases part <;> cases b <;> cases f <;> cases out <;> cases dir <;>
        simp [Valid, labels, hcb, hcc, firstDir, secondDir, dirs, Kind.binary, filled, so, sa]
    | sbh f => cases part <;> cases f <;> cases out <;> cases dir <;>
        simp [Valid, labels, hcb, hcc, dirs, Kind.binary, filled, so, sa]
    | sns => cases part <;> cases out <;> cases dir <;>
        simp [Valid, labels, hcb, hcc, dirs, Kind.binary, filled, so, sa]

theorem splitLoop_spec (given maxN : ℕ) : ∀ (fuel d k m : ℕ), splitLoop given maxN fuel d = .ok (k, m) →
    d ≤ k ∧ m = given / k ∧ m ≤ maxN ∧ ∀ j, d ≤ j → j < k → given / j > maxN
  | 0, _, _, _, h => by cases h
  | fuel + 1, d, k, m, h => by
    unfold splitLoop at h
    split at h
    · rename_i hc
      split at h
      · obtain ⟨a, b, c, e⟩ := splitLoop_spec given maxN fuel (d + 1) k m h
        refine ⟨by omega, b, c, fun j h1 h2 => ?_⟩
        by_cases hj : j = d
        · rw [hj]; exact hc
        · exact e j (by omega) h2
      · cases h
    · rename_i hc
      injection h with h
      injection h with h1 h2
      subst h1 h2
      exact ⟨le_refl _, rfl, not_lt.1 hc, fun j h1 h2 => by omega⟩

theorem splitLoop_total (given maxN : ℕ) (hm : 2 < maxN) : ∀ (fuel d : ℕ), 1 ≤ d → d ≤ given + 1 → given + 1 < fuel + d →
    ∃ k m, splitLoop given maxN fuel d = .ok (k, m)
  | 0, d, h1, hd, hf => by omega
  | fuel + 1, d, h1, hd, hf => by
    unfold splitLoop
    by_cases hc : given / d > maxN
    · have h4 : 4 * d ≤ given := by
        have : 4 ≤ given / d := by omega
        exact (Nat.le_div_iff_mul_le (by omega)).1 this
      rw [if_pos hc, if_pos (by omega)]
      exact splitLoop_total given maxN hm fuel (d + 1) (by omega) (by omega) (by omega)
    · rw [if_neg hc]
      exact ⟨_, _, rfl⟩

theorem split_ok {given maxN k m : ℕ} (h : split given maxN = .ok (k, m)) :
    2 < maxN ∧ 1 ≤ k ∧ m = given / k ∧ m ≤ maxN ∧ ∀ j, 1 ≤ j → j < k → given / j > maxN := by
  unfold split at h
  split at h
  · rename_i hm
    exact ⟨hm, splitLoop_spec _ _ _ _ _ _ h⟩
  · cases h

/-- what a successful run says -/
theorem build_ok {e : ℝ} {ps : List (GPatch ℝ)} {n m : Fin 3 → ℕ} (hn : ∀ i, split (g.given i) (g.maxN i) = .ok (n i, m i))
    {m' : Fin 3 → ℕ} (hb : build (realLib big) e g = .ok (ps, m')) :
    ps = (labels g.kind (hasOuter e g) n).map (patchOf (realLib big) g n) ∧ m' = m ∧ 0 ≤ g.S ∧
    (∀ dir ∈ dirs g.kind, objOk (realLib big) g n dir = true ∧ aroundOk (realLib big) g n dir = true) ∧
    (hasOuter e g = true → outerOk (realLib big) g n = true) := by
  unfold build at hb
  rw [hn 0, hn 1, hn 2] at hb
  have en : (fun i : Fin 3 => if i = 0 then n 0 else if i = 1 then n 1 else n 2) = n := by
    funext i; revert i; apply all3 <;> simp
  have em : (fun i : Fin 3 => if i = 0 then m 0 else if i = 1 then m 1 else m 2) = m := by
    funext i; revert i; apply all3 <;> simp
  simp only [en, em] at hb
  split at hb
  · cases hb
  · rename_i hc
    injection hb with hb
    injection hb with h1 h2
    simp only [Bool.or_eq_true, Bool.and_eq_true, decide_eq_true_eq, not_or, not_and, Bool.not_eq_true',
      Bool.not_eq_false, not_lt, List.all_eq_true] at hc
    obtain ⟨⟨⟨c1, c2⟩, c3⟩, c4⟩ := hc
    exact ⟨h1.symm, h2.symm, c1, fun dir hd => ⟨c2 dir hd, c3 dir hd⟩, c4⟩

theorem div_nat_pos {a : ℝ} {k : ℕ} (h : a / (k : ℝ) > 0) : 0 < a := by
  by_contra hc
  have h1 : a / (k : ℝ) ≤ 0 := div_nonpos_of_nonpos_of_nonneg (not_lt.1 hc) (Nat.cast_nonneg k)
  linarith

theorem outer_fits {dir : Dir} {s : Side} (hS : 0 < g.S) (hn : 0 < n 2) (hr : diag (realLib big) g.S g.S g.S < g.rout)
    (hd : dir ∈ dirs g.kind) (hc : g.kind.binary = true →
      Real.sqrt (3 / 2) * g.S < rad (diag (realLib big) g.S g.S g.S) g.rout (n 2) 1) : OuterFits big g n dir s := by
  intro X0 X1 h0 h0' h1 h1'
  by_cases hb : g.kind.binary = true
  · refine lt_of_le_of_lt ?_ (hc hb)
    have hq : Real.sqrt (3 / 2) * g.S = Real.sqrt (3 / 2 * (g.S * g.S)) := by
      rw [Real.sqrt_mul (by norm_num), Real.sqrt_mul_self hS.le]
    rw [hq]
    apply flat_le (xcOut_pos hS dir s).le
    have hSS := mul_pos hS hS
    have key : ∀ c a b : ℝ, c * c * (1 + a * a + b * b) ≤ 3 / 2 → (c * g.S) * (c * g.S) * (1 + a * a + b * b) ≤
        3 / 2 * (g.S * g.S) := by
      intro c a b h
      have := mul_le_mul_of_nonneg_right h hSS.le
      linarith
    have hd' : dir = .left ∨ dir = .right := by
      simp only [dirs, hb, if_true, List.mem_cons, List.not_mem_nil, or_false] at hd
      exact hd
    have e2 : ∀ a b : ℝ, a * a ≤ 1 → b * b ≤ 4 → (1 / 2 : ℝ) * (1 / 2) * (1 + a * a + b * b) ≤ 3 / 2 := by
      intro a b h1 h2; linarith
    have e2' : ∀ a b : ℝ, a * a ≤ 4 → b * b ≤ 1 → (1 / 2 : ℝ) * (1 / 2) * (1 + a * a + b * b) ≤ 3 / 2 := by
      intro a b h1 h2; linarith
    have e1 : ∀ a b : ℝ, a * a ≤ 1 / 4 → b * b ≤ 1 / 4 → (1 : ℝ) * 1 * (1 + a * a + b * b) ≤ 3 / 2 := by
      intro a b h1 h2; linarith
    have xc2 : g.S / 2 = 1 / 2 * g.S := by ring
    have xc1 : g.S = 1 * g.S := by ring
    rcases hd' with rfl | rfl <;> cases s <;>
      norm_num [ranges, show ¬ (Dir.right = Dir.left) by decide] at h0 h0' h1 h1' <;> simp only [xcOut, halfHemi] <;>
      first
        | (rw [xc2]; exact key _ _ _ (e2 _ _ (by nlinarith) (by nlinarith)))
        | (rw [xc2]; exact key _ _ _ (e2' _ _ (by nlinarith) (by nlinarith)))
        | (have := key _ _ _ (e1 X0 X1 (by nlinarith) (by nlinarith)); rw [one_mul] at this; exact this)
  · have hd' : dir = .center := by
      simp only [dirs, hb, if_false, List.mem_cons, List.not_mem_nil, or_false, Bool.false_eq_true] at hd
      exact hd
    subst hd'
    simp only [ranges] at h0 h0' h1 h1'
    have h3 := diag_cube (big := big) (a := X0) (b := X1) hS (abs_le.2 ⟨h0, h0'⟩) (abs_le.2 ⟨h1, h1'⟩)
    have h4 := rad_gt (k := 1) hn hr (by omega) (by omega)
    have : xcOut g.S .center s = g.S / 2 := by cases s <;> rfl
    rw [this]
    linarith

theorem good_of {e : ℝ} {ps : List (GPatch ℝ)} {n m m' : Fin 3 → ℕ} (hn : ∀ i, split (g.given i) (g.maxN i) = .ok (n i, m i))
    (hb : build (realLib big) e g = .ok (ps, m')) (F : Fits big g n (hasOuter e g)) : Good big g n (hasOuter e g) := by
  obtain ⟨-, -, -, hok, hout⟩ := build_ok hn hb
  have npos : ∀ i, 0 < n i := fun i => (split_ok (hn i)).2.1
  have facts : ∀ dir ∈ dirs g.kind, ObjFacts big g n dir := by
    intro dir hd
    obtain ⟨h1, h2⟩ := hok dir hd
    simp only [objOk, aroundOk, Bool.and_eq_true, decide_eq_true_eq] at h1 h2
    obtain ⟨⟨⟨⟨a1, a2⟩, a3⟩, a4⟩, a5⟩ := h1
    obtain ⟨⟨b1, b2⟩, b3⟩ := h2
    have := div_nat_pos a2
    have := div_nat_pos b2
    exact ⟨npos 2, b1, a1, a3.1, by linarith, by linarith⟩
  have hS : 0 < g.S := by
    have : ∃ dir, dir ∈ dirs g.kind := by
      cases hb : g.kind.binary
      · exact ⟨.center, by simp [dirs, hb]⟩
      · exact ⟨.left, by simp [dirs, hb]⟩
    obtain ⟨dir, hd⟩ := this
    exact (facts dir hd).S
  have hr : hasOuter e g = true → diag (realLib big) g.S g.S g.S < g.rout := by
    intro h
    have := hout h
    simp only [outerOk, Bool.and_eq_true, decide_eq_true_eq] at this
    have := div_nat_pos this.2
    linarith
  exact ⟨npos, hS, F.small, F.exact, facts, F.surf, F.cube, hr, fun ho dir hd s _ => outer_fits hS (npos 2) (hr ho) hd (F.corner ho)⟩

end Elliptica.Tiling
