import Verif.Props.SolveEqs
import Verif.Props.Tol
/-!
C53: the outer iteration of the elliptic solver relaxes every solved field with its weight, against its value at the start
of the round.
-/
namespace Elliptica.Solve

variable {K : Type} [Field K] [LinearOrder K]

theorem overPatches_succ (g : Fields K → Nat → Res (Fields K)) (np : Nat) (F : Fields K) :
    overPatches g (np + 1) F = (overPatches g np F).bind (g · np) := by
  unfold overPatches
  rw [List.range_succ, List.foldl_append]; rfl

/-- the backup of one field -/
theorem backup_over (bk : Str → Str) (n : Str) (hbk : bk n ≠ n) (np : Nat) (F G : Fields K) (h : overPatches (backupOne bk n) np F = .ok G) :
    (∀ p m, (m = bk n → np ≤ p) → G p m = F p m) ∧
    (∀ p, p < np → ∀ u, F p n = some (some u) → G p (bk n) = some (some u)) := by
  induction np generalizing G with
  | zero => injection h with h; subst h; exact ⟨fun _ _ _ => rfl, fun p hp => by omega⟩
  | succ np ih =>
    rw [overPatches_succ] at h
    cases h1 : overPatches (backupOne bk n) np F with
    | abort => rw [h1] at h; cases h
    | ub => rw [h1] at h; cases h
    | ok H =>
      rw [h1, Res.bind_ok] at h
      obtain ⟨a, b⟩ := ih H h1
      have hn : H np n = F np n := a np n (fun h => absurd h.symm hbk)
      have hG : (∀ p m, (m = bk n → p ≠ np) → G p m = H p m) ∧ ∀ u, F np n = some (some u) → G np (bk n) = some (some u) := by
        unfold backupOne at h
        rw [hn] at h
        cases hF : F np n with
        | none => rw [hF] at h; injection h with h; subst h; exact ⟨fun _ _ _ => rfl, fun u hu => by cases hu⟩
        | some v =>
          rw [hF] at h
          dsimp only at h
          split at h
          · cases h
          cases v with
          | none => injection h with h; subst h; exact ⟨fun _ _ _ => rfl, fun u hu => by cases hu⟩
          | some v =>
            injection h with h
            subst h
            constructor
            · intro p m hm
              unfold setF
              rw [if_neg (fun hc => hm hc.2 hc.1)]
            · intro u hu
              unfold setF
              rw [if_pos ⟨rfl, rfl⟩]; exact hu
      refine ⟨?_, ?_⟩
      · intro p m hm
        rw [hG.1 p m (fun h => by have := hm h; omega), a p m (fun h => by have := hm h; omega)]
      · intro p hp u hu
        by_cases hpn : p = np
        · subst hpn; exact hG.2 u hu
        · rw [hG.1 p _ (fun _ => hpn)]; exact b p (by omega) u hu

theorem backup_snoc (bk : Str → Str) (np : Nat) (names : List Str) (n : Str) (F : Fields K) :
    backup bk np (names ++ [n]) F = (backup bk np names F).bind (overPatches (backupOne bk n) np) := by
  unfold backup; rw [List.foldl_append]; rfl

/-- backup names do not collide with the fields or with each other -/
structure BackupNames (bk : Str → Str) (names : List Str) : Prop where
  apart : ∀ n ∈ names, ∀ m ∈ names, bk n ≠ m
  inj : ∀ n ∈ names, ∀ m ∈ names, bk n = bk m → n = m

theorem backup_spec (bk : Str → Str) (np : Nat) (names : List Str) (hbk : BackupNames bk names) (F G : Fields K)
    (h : backup bk np names F = .ok G) :
    (∀ p m, (∀ n ∈ names, m ≠ bk n) → G p m = F p m) ∧
    (∀ p, p < np → ∀ n ∈ names, ∀ u, F p n = some (some u) → G p (bk n) = some (some u)) := by
  have key : ∀ l, (∀ n ∈ l, n ∈ names) → ∀ G, backup bk np l F = .ok G → (∀ p m, (∀ n ∈ l, m ≠ bk n) → G p m = F p m) ∧
    (∀ p, p < np → ∀ n ∈ l, ∀ u, F p n = some (some u) → G p (bk n) = some (some u)) := by
    intro l
    induction l using List.reverseRecOn with
    | nil => intro _ G h; injection h with h; subst h; exact ⟨fun _ _ _ => rfl, fun p _ n hn => by simp at hn⟩
    | append_singleton l x ih =>
      intro hl G h
      rw [backup_snoc] at h
      cases h1 : backup bk np l F with
      | abort => rw [h1] at h; cases h
      | ub => rw [h1] at h; cases h
      | ok H =>
        rw [h1, Res.bind_ok] at h
        have hx := hl x (by simp)
        obtain ⟨a, b⟩ := ih (fun n hn => hl n (by simp [hn])) H h1
        obtain ⟨c, d⟩ := backup_over bk x (hbk.apart x hx x hx) np H G h
        constructor
        · intro p m hm
          rw [c p m (fun h => absurd h (hm x (by simp))), a p m (fun n hn => hm n (by simp [hn]))]
        · intro p hp n hn u hu
          by_cases hnx : n = x
          · subst hnx
            refine d p hp u ?_
            rw [a p n (fun m hm hc => hbk.apart m (hl m (by simp [hm])) n hx hc.symm)]
            exact hu
          · have hnl : n ∈ l := by
              rcases List.mem_append.1 hn with h | h
              · exact h
              · exact absurd (by simpa using h) hnx
            rw [c p (bk n) (fun h => absurd (hbk.inj n (hl n hn) x hx h) hnx)]
            exact b p hp n hnl u hu
  exact key names (fun _ h => h) G h

/-- the relaxation of one field -/
theorem relax_over (bk : Str → Str) (w : K) (n : Str) (hbk : bk n ≠ n) (np : Nat) (F G : Fields K)
    (h : overPatches (relaxOne bk w n) np F = .ok G) :
    (∀ p m, (m = n → np ≤ p) → G p m = F p m) ∧
    (∀ p, p < np → ∀ s o, F p n = some (some s) → F p (bk n) = some (some o) →
      G p n = some (some fun q => w * s q + (1 - w) * o q)) := by
  induction np generalizing G with
  | zero => injection h with h; subst h; exact ⟨fun _ _ _ => rfl, fun p hp => by omega⟩
  | succ np ih =>
    rw [overPatches_succ] at h
    cases h1 : overPatches (relaxOne bk w n) np F with
    | abort => rw [h1] at h; cases h
    | ub => rw [h1] at h; cases h
    | ok H =>
      rw [h1, Res.bind_ok] at h
      obtain ⟨a, b⟩ := ih H h1
      have hn : H np n = F np n := a np n (fun _ => Nat.le_refl _)
      have hb : H np (bk n) = F np (bk n) := a np (bk n) (fun _ => Nat.le_refl _)
      have hG : (∀ p m, (m = n → p ≠ np) → G p m = H p m) ∧ ∀ s o, F np n = some (some s) → F np (bk n) = some (some o) →
          G np n = some (some fun q => w * s q + (1 - w) * o q) := by
        unfold relaxOne at h
        rw [hn, hb] at h
        cases hF : F np n with
        | none => rw [hF] at h; injection h with h; subst h; exact ⟨fun _ _ _ => rfl, fun s o hu => by cases hu⟩
        | some v =>
          rw [hF] at h
          dsimp only at h
          cases hB : F np (bk n) with
          | none => rw [hB] at h; cases h
          | some o =>
            rw [hB] at h
            dsimp only at h
            cases v with
            | none => injection h with h; subst h; exact ⟨fun _ _ _ => rfl, fun s o hu => by cases hu⟩
            | some v =>
              cases o with
              | none => cases h
              | some o =>
                injection h with h
                subst h
                constructor
                · intro p m hm
                  unfold setF
                  rw [if_neg (fun hc => hm hc.2 hc.1)]
                · intro s o' hs ho
                  injection hs with hs
                  injection hs with hs
                  injection ho with ho
                  injection ho with ho
                  subst hs ho
                  unfold setF
                  rw [if_pos ⟨rfl, rfl⟩]
      refine ⟨?_, ?_⟩
      · intro p m hm
        rw [hG.1 p m (fun h => by have := hm h; omega), a p m (fun h => by have := hm h; omega)]
      · intro p hp s o hs ho
        by_cases hpn : p = np
        · subst hpn; exact hG.2 s o hs ho
        · rw [hG.1 p _ (fun _ => hpn)]; exact b p (by omega) s o hs ho

theorem relax_snoc (e : K) (bk : Str → Str) (w : Str → K) (np : Nat) (names : List Str) (n : Str) (F : Fields K) :
    relax e bk w np (names ++ [n]) F = (relax e bk w np names F).bind fun F =>
      if Tol.eql e (w n) 1 then .ok F else overPatches (relaxOne bk (w n) n) np F := by
  unfold relax; rw [List.foldl_append]; rfl

/-- the mixture the relaxation makes of the solved value `s` and the old value `o`: a weight that equals 1 up to round-off
keeps the solved value -/
def mix (e w : K) (s o : Nat → K) : Nat → K := if Tol.eql e w 1 then s else fun q => w * s q + (1 - w) * o q

theorem relax_spec (e : K) (bk : Str → Str) (w : Str → K) (np : Nat) (names : List Str) (hbk : BackupNames bk names) (hnd : names.Nodup)
    (F G : Fields K) (h : relax e bk w np names F = .ok G) :
    (∀ p m, m ∉ names → G p m = F p m) ∧
    (∀ p, p < np → ∀ n ∈ names, ∀ s o, F p n = some (some s) → F p (bk n) = some (some o) → G p n = some (some (mix e (w n) s o))) := by
  have key : ∀ l, l.Nodup → (∀ n ∈ l, n ∈ names) → ∀ G, relax e bk w np l F = .ok G → (∀ p m, m ∉ l → G p m = F p m) ∧
    (∀ p, p < np → ∀ n ∈ l, ∀ s o, F p n = some (some s) → F p (bk n) = some (some o) → G p n = some (some (mix e (w n) s o))) := by
    intro l
    induction l using List.reverseRecOn with
    | nil => intro _ _ G h; injection h with h; subst h; exact ⟨fun _ _ _ => rfl, fun p _ n hn => by simp at hn⟩
    | append_singleton l x ih =>
      intro hnd hl G h
      rw [relax_snoc] at h
      have hxl : x ∉ l := by
        intro hx
        rw [List.nodup_append] at hnd
        exact hnd.2.2 x hx x (by simp) rfl
      cases h1 : relax e bk w np l F with
      | abort => rw [h1] at h; cases h
      | ub => rw [h1] at h; cases h
      | ok H =>
        rw [h1, Res.bind_ok] at h
        have hx := hl x (by simp)
        obtain ⟨a, b⟩ := ih (List.nodup_append.1 hnd).1 (fun n hn => hl n (by simp [hn])) H h1
        have hHx : ∀ p, H p x = F p x := fun p => a p x hxl
        have hHb : ∀ p, H p (bk x) = F p (bk x) := fun p => a p (bk x) (fun hm => hbk.apart x hx _ (hl _ (by simp [hm])) rfl)
        have step : (∀ p m, m ≠ x → G p m = H p m) ∧ ∀ p, p < np → ∀ s o, H p x = some (some s) → H p (bk x) = some (some o) →
            G p x = some (some (mix e (w x) s o)) := by
          unfold mix
          by_cases hw : Tol.eql e (w x) 1 = true
          · rw [if_pos hw] at h
            injection h with h
            subst h
            refine ⟨fun _ _ _ => rfl, fun p _ s o hs _ => ?_⟩
            rw [if_pos hw]; exact hs
          · rw [if_neg hw] at h
            obtain ⟨c, d⟩ := relax_over bk (w x) x (hbk.apart x hx x hx) np H G h
            refine ⟨fun p m hm => c p m (fun h => absurd h hm), fun p hp s o hs ho => ?_⟩
            rw [if_neg hw]; exact d p hp s o hs ho
        constructor
        · intro p m hm
          rw [step.1 p m (fun h => hm (by simp [h])), a p m (fun h => hm (by simp [h]))]
        · intro p hp n hn s o hs ho
          by_cases hnx : n = x
          · subst hnx
            exact step.2 p hp s o (by rw [hHx]; exact hs) (by rw [hHb]; exact ho)
          · have hnl : n ∈ l := by
              rcases List.mem_append.1 hn with h | h
              · exact h
              · exact absurd (by simpa using h) hnx
            rw [step.1 p n hnx]
            exact b p hp n hnl s o hs ho
  exact key names hnd (fun _ h => h) G h

/-- What one round does, from the fields `U` at its start to the fields `V` at its end: the solver turns `U` into some `S`;
then every solved field of every patch is the mixture of its solved value and its value in `U`; every other field (apart from the
backups) is as the solver left it. -/
def Round (e : K) (bk : Str → Str) (w : Str → K) (np : Nat) (names : List Str) (solve : Fields K → Res (Fields K)) (U V : Fields K) : Prop :=
  ∃ S, solve U = .ok S ∧
    (∀ p, p < np → ∀ n ∈ names, ∀ u s, U p n = some (some u) → S p n = some (some s) → V p n = some (some (mix e (w n) s u))) ∧
    ∀ p m, m ∉ names → (∀ n ∈ names, m ≠ bk n) → V p m = S p m

/-- The outer iteration, for any number of rounds, patches and fields and any solver that leaves the backup fields alone: if it
ends regularly, the fields went through exactly solve_Max_Iteration rounds, each of which relaxed every solved field with its own weight against
the value at the start of that round. -/
theorem C53_iterations (e : K) (bk : Str → Str) (w : Str → K) (np : Nat) (names : List Str) (hbk : BackupNames bk names) (hnd : names.Nodup)
    (solve : Fields K → Res (Fields K))
    (hsolve : ∀ F G, solve F = .ok G → ∀ p, ∀ n ∈ names, G p (bk n) = F p (bk n))
    (N : Nat) (F F' : Fields K) (h : elliptic e bk w np names solve N F = .ok F') :
    ∃ U : Nat → Fields K, (∀ p m, (∀ n ∈ names, m ≠ bk n) → U 0 p m = F p m) ∧
      (∀ k, k < N → Round e bk w np names solve (U k) (U (k + 1))) ∧ U N = F' := by
  have hround : ∀ U S R : Fields K, (∀ p, p < np → ∀ n ∈ names, ∀ u, U p n = some (some u) → U p (bk n) = some (some u)) →
      solve U = .ok S → relax e bk w np names S = .ok R →
      (∀ p, p < np → ∀ n ∈ names, ∀ u s, U p n = some (some u) → S p n = some (some s) → R p n = some (some (mix e (w n) s u))) ∧
      ∀ p m, m ∉ names → (∀ n ∈ names, m ≠ bk n) → R p m = S p m := by
    intro U S R hU hS hR
    obtain ⟨a, b⟩ := relax_spec e bk w np names hbk hnd S R hR
    refine ⟨?_, fun p m hm _ => a p m hm⟩
    intro p hp n hn u s hu hs
    exact b p hp n hn s u hs (by rw [hsolve U S hS p n hn]; exact hU p hp n hn u hu)
  have key : ∀ (k : Nat) (U : Fields K), (∀ p, p < np → ∀ n ∈ names, ∀ u, U p n = some (some u) → U p (bk n) = some (some u)) →
      ∀ many, (many = true ∨ k ≤ 1) → ∀ F', rounds e bk w np names solve many k U = .ok F' →
      ∃ V : Nat → Fields K, V 0 = U ∧ (∀ j, j < k → Round e bk w np names solve (V j) (V (j + 1))) ∧ V k = F' := by
    intro k
    induction k with
    | zero =>
      intro U _ many _ F' h
      injection h with h
      exact ⟨fun _ => U, rfl, fun j hj => by omega, h⟩
    | succ k ih =>
      intro U hU many hm F' h
      unfold rounds at h
      cases hS : solve U with
      | abort => rw [hS] at h; cases h
      | ub => rw [hS] at h; cases h
      | ok S =>
        rw [hS, Res.bind_ok] at h
        cases hR : relax e bk w np names S with
        | abort => rw [hR] at h; cases h
        | ub => rw [hR] at h; cases h
        | ok R =>
          rw [hR, Res.bind_ok] at h
          obtain ⟨r1, r2⟩ := hround U S R hU hS hR
          cases many with
          | false =>
            have hk : k = 0 := by rcases hm with h | h; cases h; omega
            subst hk
            rw [if_neg (by simp), Res.bind_ok] at h
            injection h with h
            subst h
            refine ⟨fun j => if j = 0 then U else R, rfl, ?_, rfl⟩
            intro j hj
            have : j = 0 := by omega
            subst this
            exact ⟨S, hS, r1, r2⟩
          | true =>
            rw [if_pos rfl] at h
            cases hB : backup bk np names R with
            | abort => rw [hB] at h; cases h
            | ub => rw [hB] at h; cases h
            | ok B =>
              rw [hB, Res.bind_ok] at h
              obtain ⟨b1, b2⟩ := backup_spec bk np names hbk R B hB
              have hBn : ∀ p, ∀ n ∈ names, B p n = R p n := fun p n hn => b1 p n (fun m hm hc => hbk.apart m hm n hn hc.symm)
              obtain ⟨V, v0, v1, v2⟩ := ih B (fun p hp n hn u hu => b2 p hp n hn u (by rw [← hBn p n hn]; exact hu)) true (Or.inl rfl) F' h
              refine ⟨fun j => if j = 0 then U else V (j - 1), rfl, ?_, by simpa using v2⟩
              intro j hj
              by_cases hj0 : j = 0
              · subst hj0
                show Round e bk w np names solve U (V 0)
                rw [v0]
                refine ⟨S, hS, ?_, ?_⟩
                · intro p hp n hn u s hu hs
                  rw [hBn p n hn]; exact r1 p hp n hn u s hu hs
                · intro p m hm hb
                  rw [b1 p m hb]; exact r2 p m hm hb
              · have := v1 (j - 1) (by omega)
                rw [show j - 1 + 1 = j by omega] at this
                dsimp only
                rw [if_neg hj0, if_neg (by omega)]
                exact this
  unfold elliptic at h
  cases hB : backup bk np names F with
  | abort => rw [hB] at h; cases h
  | ub => rw [hB] at h; cases h
  | ok B =>
    rw [hB, Res.bind_ok] at h
    obtain ⟨b1, b2⟩ := backup_spec bk np names hbk F B hB
    have hBn : ∀ p, ∀ n ∈ names, B p n = F p n := fun p n hn => b1 p n (fun m hm hc => hbk.apart m hm n hn hc.symm)
    obtain ⟨V, v0, v1, v2⟩ := key N B (fun p hp n hn u hu => b2 p hp n hn u (by rw [← hBn p n hn]; exact hu)) _
      (by by_cases hN : N > 1 <;> simp [hN]; omega) F' h
    exact ⟨V, fun p m hm => by rw [v0]; exact b1 p m hm, v1, v2⟩

/-- the mixture: with weight 1 the solved value, with weight 0 the old one, and a fixed point of the solver is a fixed
point of the relaxation; in general the error of skipping a weight within round-off of 1 is at most e |s - o| -/
theorem C53_mix [IsStrictOrderedRing K] (e w : K) (he : 0 < e) (s o : Nat → K) (q : Nat) :
    mix e 1 s o = s ∧ mix e w s s = s ∧ |mix e w s o q - (w * s q + (1 - w) * o q)| ≤ e * |s q - o q| := by
  refine ⟨?_, ?_, ?_⟩
  · unfold mix
    have : Tol.eql e (1 : K) 1 = true := by simp [Tol.eql, he]
    rw [if_pos this]
  · unfold mix
    split
    · rfl
    · funext q; ring
  · unfold mix
    split
    · rename_i h
      simp only [Tol.eql, Bool.and_eq_true, decide_eq_true_eq] at h
      have e1 : s q - (w * s q + (1 - w) * o q) = (1 - w) * (s q - o q) := by ring
      rw [e1, abs_mul]
      apply mul_le_mul_of_nonneg_right _ (abs_nonneg _)
      rw [abs_le]
      constructor <;> linarith [h.1, h.2]
    · simp only [sub_self, abs_zero]
      exact mul_nonneg he.le (abs_nonneg _)

/-- one field, one patch, weight 1/2, a solver that returns 8 everywhere, three rounds starting from 0: 4, 6, 7 -/
example : (match elliptic (1 / 10 ^ 12) (fun n => 'b' :: n) (fun _ => (1 / 2 : ℚ)) 1 ["x".toList]
      (fun F => .ok (setF F 0 "x".toList (fun _ => 8))) 3
      (fun p n => if p = 0 then (if n = "x".toList then some (some fun _ => 0) else if n = "bx".toList then some none else none) else none) with
    | .ok F => (match F 0 "x".toList with
      | some (some v) => decide (v 5 = 7)
      | _ => false)
    | _ => false) = true := by decide +kernel

/-- A field listed twice in solve_Order is relaxed twice: the result is not the mixture with its weight. -/
theorem C53_repeated_violation : ∃ (F F' : Fields ℚ) (s o : Nat → ℚ), F 0 "x".toList = some (some s) ∧ F 0 "bx".toList = some (some o) ∧
    relax (1 / 10 ^ 12) (fun n => 'b' :: n) (fun _ => (1 / 2 : ℚ)) 1 ["x".toList, "x".toList] F = .ok F' ∧
    F' 0 "x".toList ≠ some (some (mix (1 / 10 ^ 12) (1 / 2) s o)) := by
  have h : (match relax (1 / 10 ^ 12) (fun n => 'b' :: n) (fun _ => (1 / 2 : ℚ)) 1 ["x".toList, "x".toList]
      (fun p n => if p = 0 then (if n = "x".toList then some (some fun _ => 4) else if n = "bx".toList then some (some fun _ => 0) else none) else none) with
    | .ok F => (match F 0 "x".toList with
      | some (some v) => decide (v 0 = 1)
      | _ => false)
    | _ => false) = true := by decide +kernel
  generalize hF : (fun p n => if p = 0 then (if n = "x".toList then some (some fun _ => 4) else if n = "bx".toList then some (some fun _ => 0) else none) else none :
    Fields ℚ) = F at h
  cases hr : relax (1 / 10 ^ 12) (fun n => 'b' :: n) (fun _ => (1 / 2 : ℚ)) 1 ["x".toList, "x".toList] F with
  | abort => rw [hr] at h; cases h
  | ub => rw [hr] at h; cases h
  | ok F' =>
    rw [hr] at h
    refine ⟨F, F', fun _ => 4, fun _ => 0, by rw [← hF]; rfl, by rw [← hF]; rfl, hr, ?_⟩
    intro hc
    dsimp only at h
    rw [hc] at h
    have h2 := of_decide_eq_true h
    revert h2
    unfold mix
    decide +kernel

/-- An aliased field is not relaxed at all: what solve_Order lists is the alias, the solver changes the aliased field, and
the relaxation leaves every field that is not listed as the solver left it, whatever the weight. -/
theorem C53_alias_violation (e : K) (bk : Str → Str) (w : Str → K) (np : Nat) (names : List Str) (F G : Fields K) (target : Str) (ht : target ∉ names)
    (h : relax e bk w np names F = .ok G) (p : Nat) : G p target = F p target := by
  have key : ∀ n, target ≠ n → ∀ np F G, overPatches (relaxOne bk (w n) n) np F = .ok G → G p target = F p target := by
    intro n hn np
    induction np with
    | zero => intro F G h; injection h with h; rw [h]
    | succ np ih =>
      intro F G h
      rw [overPatches_succ] at h
      cases h1 : overPatches (relaxOne bk (w n) n) np F with
      | abort => rw [h1] at h; cases h
      | ub => rw [h1] at h; cases h
      | ok H =>
        rw [h1, Res.bind_ok] at h
        rw [← ih F H h1]
        unfold relaxOne at h
        split at h
        · injection h with h; rw [h]
        split at h
        · cases h
        split at h
        · injection h with h; rw [h]
        split at h
        · cases h
        injection h with h
        rw [← h]
        unfold setF
        rw [if_neg (fun hc => hn hc.2)]
  induction names using List.reverseRecOn generalizing G with
  | nil => injection h with h; rw [h]
  | append_singleton l x ih =>
    rw [relax_snoc] at h
    cases h1 : relax e bk w np l F with
    | abort => rw [h1] at h; cases h
    | ub => rw [h1] at h; cases h
    | ok H =>
      rw [h1, Res.bind_ok] at h
      rw [← ih H (fun hm => ht (by simp [hm])) h1]
      split at h
      · injection h with h; rw [h]
      · exact key x (fun hc => ht (by simp [hc])) np H G h

end Elliptica.Solve
