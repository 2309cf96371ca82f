import Verif.Model.SolveEqs
import Verif.Spec.Params
import Verif.Props.CheckpointPar
import Mathlib.Algebra.Order.Ring.Abs
import Mathlib.Tactic.Linarith
import Mathlib.Tactic.Ring
import Mathlib.Data.List.Nodup
import Mathlib.Data.List.TakeWhile
/-!
C51: the Newton loop ends, within the allowed number of steps and for a reason that can be trusted.
C52: the data base of equations, the set-up of the fields to solve, special grids and relaxation factors.
-/
namespace Elliptica.Solve
open ParamSpec

variable {K : Type} [Field K] [LinearOrder K] {σ : Type}

/-! ### C51 -/

/-- The default criterion, verdict by verdict.  `res` are the residuals of the patches (`none` = not finite). -/
theorem C51_criterion (resD : K) (maxStep step : Int) (res : List (Option K)) :
    (stopCriteria resD maxStep step res = .done ↔
      (∀ r ∈ res, ∃ x, r = some x ∧ x ≤ resD) ∧ (res = [] ∨ step < maxStep)) ∧
    (stopCriteria resD maxStep step res = .maxed → maxStep ≤ step) ∧
    (stopCriteria resD maxStep step res = .abnormal → none ∈ res) ∧
    (stopCriteria resD maxStep step res = .go → step < maxStep ∧ ∃ x, some x ∈ res ∧ resD < x) ∧
    (maxStep ≤ step → stopCriteria resD maxStep step res ≠ .go) := by
  induction res with
  | nil => simp [stopCriteria]
  | cons r l ih =>
    cases r with
    | none => simp [stopCriteria]
    | some x =>
      unfold stopCriteria
      by_cases hm : step ≥ maxStep
      · rw [if_pos hm]
        refine ⟨⟨fun h => (by cases h), fun h => ?_⟩, fun _ => hm, fun h => (by cases h), fun h => (by cases h), fun _ h => (by cases h)⟩
        rcases h.2 with h | h
        · cases h
        · omega
      · rw [if_neg hm]
        by_cases hr : x > resD
        · rw [if_pos hr]
          refine ⟨⟨fun h => (by cases h), fun h => ?_⟩, fun h => (by cases h), fun h => (by cases h), fun _ => ⟨by omega, x, by simp, hr⟩, fun h => (by omega)⟩
          obtain ⟨y, hy, hle⟩ := h.1 (some x) (by simp)
          injection hy with hy
          rw [← hy] at hle
          exact absurd hr (not_lt.2 hle)
        · rw [if_neg hr]
          obtain ⟨a, b, c, d, e⟩ := ih
          refine ⟨?_, b, fun h => List.mem_cons_of_mem _ (c h), fun h => ?_, e⟩
          · rw [a]
            constructor
            · rintro ⟨h1, h2⟩
              refine ⟨fun r hr' => ?_, Or.inr (by omega)⟩
              rcases List.mem_cons.1 hr' with h | h
              · exact ⟨x, h, not_lt.1 hr⟩
              · exact h1 r h
            · rintro ⟨h1, h2⟩
              exact ⟨fun r hr' => h1 r (List.mem_cons_of_mem _ hr'), Or.inr (by omega)⟩
          · obtain ⟨h1, y, h2, h3⟩ := d h
            exact ⟨h1, y, List.mem_cons_of_mem _ h2, h3⟩

/-- `k` Newton steps in a row -/
def steps (newton : σ → Res σ) : Nat → σ → Res σ
  | 0, u => .ok u
  | k + 1, u => (steps newton k u).bind newton

theorem steps_succ' (newton : σ → Res σ) (k : Nat) (u u' : σ) (h : newton u = .ok u') : steps newton (k + 1) u = steps newton k u' := by
  induction k with
  | zero => simp [steps, h]
  | succ k ih => rw [steps, ih, steps]

/-- The Newton loop of one field, with the default stop criterion, for every Newton step, residual function and start:
it ends after at most solve_Max_Newton_Step steps (fuel for one more round is enough).  If it ends regularly after `k` steps
with fields `u'`, then `u'` is the result of exactly `k` Newton steps; before each of them some patch had a finite residual above
solve_Residual; and the verdict is true: `done` — every patch has a finite residual of at most solve_Residual; `maxed` — all the
allowed steps were done; `abnormal` — some patch has a residual that is not finite.  If it does not end regularly, a Newton
step failed that had to be done. -/
theorem C51_loop (resid : σ → List (Option K)) (newton : σ → Res σ) (resD : K) (maxStep : Int) (u : σ) :
    ∃ out, solveField resid newton resD maxStep (maxStep.toNat + 1) 0 u = some out ∧
      (∀ k u' v, out = .ok (k, u', v) →
        k ≤ maxStep.toNat ∧ steps newton k u = .ok u' ∧
        (∀ j, j < k → ∃ w, steps newton j u = .ok w ∧ ∃ x, some x ∈ resid w ∧ resD < x) ∧
        ((v = .done ∧ ∀ r ∈ resid u', ∃ x, r = some x ∧ x ≤ resD) ∨ (v = .maxed ∧ maxStep ≤ k) ∨ (v = .abnormal ∧ none ∈ resid u'))) ∧
      ((∀ r, out ≠ .ok r) → ∃ k w, k < maxStep.toNat ∧ steps newton k u = .ok w ∧ (∃ x, some x ∈ resid w ∧ resD < x) ∧
        (∀ w', newton w ≠ .ok w')) := by
  have key : ∀ fuel (s : Nat) (w : σ), maxStep.toNat < fuel + s → s ≤ maxStep.toNat → steps newton s u = .ok w →
      (∀ j, j < s → ∃ w, steps newton j u = .ok w ∧ ∃ x, some x ∈ resid w ∧ resD < x) →
      ∃ out, solveField resid newton resD maxStep fuel s w = some out ∧
      (∀ k u' v, out = .ok (k, u', v) →
        k ≤ maxStep.toNat ∧ steps newton k u = .ok u' ∧
        (∀ j, j < k → ∃ w, steps newton j u = .ok w ∧ ∃ x, some x ∈ resid w ∧ resD < x) ∧
        ((v = .done ∧ ∀ r ∈ resid u', ∃ x, r = some x ∧ x ≤ resD) ∨ (v = .maxed ∧ maxStep ≤ k) ∨ (v = .abnormal ∧ none ∈ resid u'))) ∧
      ((∀ r, out ≠ .ok r) → ∃ k w, k < maxStep.toNat ∧ steps newton k u = .ok w ∧ (∃ x, some x ∈ resid w ∧ resD < x) ∧
        (∀ w', newton w ≠ .ok w')) := by
    intro fuel
    induction fuel with
    | zero => intro s w h1 h2; omega
    | succ fuel ih =>
      intro s w h1 h2 h3 h4
      unfold solveField
      obtain ⟨a, b, c, d, e⟩ := C51_criterion resD maxStep s (resid w)
      cases hv : stopCriteria resD maxStep s (resid w) with
      | go =>
        obtain ⟨d1, d2⟩ := d hv
        dsimp only
        cases hn : newton w with
        | ok u' =>
          dsimp only
          exact ih (s + 1) u' (by omega) (by omega) (by rw [steps, h3]; exact hn) (by
            intro j hj
            by_cases hjs : j < s
            · exact h4 j hjs
            · have : j = s := by omega
              subst this
              exact ⟨w, h3, d2⟩)
        | abort =>
          refine ⟨_, rfl, fun k u' v h => by (cases h), fun _ => ⟨s, w, by omega, h3, d2, ?_⟩⟩
          intro w' h; rw [hn] at h; cases h
        | ub =>
          refine ⟨_, rfl, fun k u' v h => by (cases h), fun _ => ⟨s, w, by omega, h3, d2, ?_⟩⟩
          intro w' h; rw [hn] at h; cases h
      | done =>
        refine ⟨_, rfl, ?_, fun h => absurd rfl (h _)⟩
        intro k u' v h
        injection h with h
        obtain ⟨rfl, rfl, rfl⟩ := h
        exact ⟨h2, h3, h4, Or.inl ⟨rfl, (a.1 hv).1⟩⟩
      | maxed =>
        refine ⟨_, rfl, ?_, fun h => absurd rfl (h _)⟩
        intro k u' v h
        injection h with h
        obtain ⟨rfl, rfl, rfl⟩ := h
        exact ⟨h2, h3, h4, Or.inr (Or.inl ⟨rfl, b hv⟩)⟩
      | abnormal =>
        refine ⟨_, rfl, ?_, fun h => absurd rfl (h _)⟩
        intro k u' v h
        injection h with h
        obtain ⟨rfl, rfl, rfl⟩ := h
        exact ⟨h2, h3, h4, Or.inr (Or.inr ⟨rfl, c hv⟩)⟩
  exact key (maxStep.toNat + 1) 0 u (by omega) (by omega) rfl (by intro j hj; omega)

/-- a run that needs two steps: the residual is halved at every step -/
example : solveField (fun u : ℚ => [some u]) (fun u => .ok (u / 2)) 1 10 11 0 4 = some (.ok (2, 1, .done)) := by decide +kernel

/-- "A residual that is not finite stops the solver" fails: a patch with a large residual before the patch in trouble makes
the criterion go on. -/
theorem C51_abnormal_violation (resD : K) [IsStrictOrderedRing K] (maxStep step : Int) (h : step < maxStep) :
    ∃ res : List (Option K), none ∈ res ∧ stopCriteria resD maxStep step res = .go := by
  refine ⟨[some (resD + 1), none], by simp, ?_⟩
  unfold stopCriteria
  rw [if_neg (by omega), if_pos (by simp)]

/-- What does hold: the solver stops as abnormal exactly if a patch has a residual that is not finite and all patches before it are
finite, within solve_Residual, and (if there are any) the step number is below the maximum. -/
theorem C51_abnormal_partial (resD : K) (maxStep step : Int) (res : List (Option K)) :
    stopCriteria resD maxStep step res = .abnormal ↔
      ∃ a b, res = a ++ none :: b ∧ (∀ r ∈ a, ∃ x, r = some x ∧ x ≤ resD) ∧ (a = [] ∨ step < maxStep) := by
  induction res with
  | nil => simp [stopCriteria]
  | cons r l ih =>
    cases r with
    | none => simp only [stopCriteria, true_iff]; exact ⟨[], l, rfl, by simp, Or.inl rfl⟩
    | some x =>
      unfold stopCriteria
      constructor
      · intro h
        split at h
        · cases h
        split at h
        · cases h
        rename_i h1 h2
        obtain ⟨a, b, rfl, ha, _⟩ := ih.1 h
        refine ⟨some x :: a, b, rfl, ?_, Or.inr (by omega)⟩
        intro r hr
        rcases List.mem_cons.1 hr with h | h
        · exact ⟨x, h, not_lt.1 h2⟩
        · exact ha r h
      · rintro ⟨a, b, he, ha, hs⟩
        cases a with
        | nil => simp at he
        | cons y a =>
          simp only [List.cons_append, List.cons.injEq] at he
          obtain ⟨rfl, rfl⟩ := he
          obtain ⟨z, hz, hle⟩ := ha (some x) (by simp)
          injection hz with hz
          have hs' : step < maxStep := by
            rcases hs with h | h
            · cases h
            · exact h
          rw [if_neg (by omega), if_neg (by rw [hz]; exact not_lt.2 hle)]
          exact ih.2 ⟨a, b, rfl, fun r hr => ha r (List.mem_cons_of_mem _ hr), Or.inr hs'⟩

/-! ### C52 -/

theorem strcmpI_same (a b : Str) : Text.strcmpI (some a) (some b) = true ↔ sameName a b := by
  simp only [Text.strcmpI, decide_eq_true_eq, Ckpt.map_lower]
  rfl

/-- registrations, in order -/
def addAll {φ : Type} (regs : List (Str × φ)) : Res (List (Str × φ)) :=
  regs.foldl (fun (s : Res (List (Str × φ))) r => s.bind fun db => addEq db r.2 r.1) (.ok [])

theorem addAll_snoc {φ : Type} (regs : List (Str × φ)) (r : Str × φ) : addAll (regs ++ [r]) = (addAll regs).bind fun db => addEq db r.2 r.1 := by
  unfold addAll
  rw [List.foldl_append]; rfl

/-- Registering equations succeeds exactly if no two names are equal up to letter case (and all fit in 400 bytes); the lookup of
`prefix ++ name` then returns the equation registered under that name up to letter case — whatever the order of the
registrations — and stops the program if there is none. -/
theorem C52_equations {φ : Type} (regs : List (Str × φ)) :
    ((∃ db, addAll regs = .ok db) ↔ (regs.Pairwise (fun a b => ¬ sameName a.1 b.1) ∧ ∀ r ∈ regs, r.1.length < 400)) ∧
    ∀ db, addAll regs = .ok db → ∀ pre name,
      (∀ eq, getEq db pre name = .ok eq ↔ ∃ n, (n, eq) ∈ regs ∧ sameName n (pre ++ name)) ∧
      ((∀ r ∈ regs, ¬ sameName r.1 (pre ++ name)) → getEq db pre name = .abort) := by
  have hdb : ∀ db, addAll regs = .ok db → db = regs ∧ regs.Pairwise (fun a b => ¬ sameName a.1 b.1) ∧ ∀ r ∈ regs, r.1.length < 400 := by
    induction regs using List.reverseRecOn with
    | nil => intro db h; injection h with h; subst h; simp
    | append_singleton regs r ih =>
      intro db h
      rw [addAll_snoc] at h
      cases h1 : addAll regs with
      | abort => rw [h1] at h; cases h
      | ub => rw [h1] at h; cases h
      | ok d =>
        rw [h1, Res.bind_ok] at h
        obtain ⟨rfl, hp, hl⟩ := ih d h1
        unfold addEq at h
        split at h
        · cases h
        split at h
        · cases h
        rename_i hn hlen
        injection h with h
        refine ⟨h.symm, ?_, ?_⟩
        · rw [List.pairwise_append]
          refine ⟨hp, by simp, ?_⟩
          intro a ha b hb
          have : b = r := by simpa using hb
          subst this
          intro hs
          apply hn
          rw [List.any_eq_true]
          exact ⟨a, ha, (strcmpI_same _ _).2 hs⟩
        · intro a ha
          rcases List.mem_append.1 ha with h | h
          · exact hl a h
          · have : a = r := by simpa using h
            rw [this]; omega
  refine ⟨⟨fun ⟨db, h⟩ => (hdb db h).2, ?_⟩, ?_⟩
  · rintro ⟨hp, hl⟩
    clear hdb
    suffices h : addAll regs = .ok regs from ⟨_, h⟩
    induction regs using List.reverseRecOn with
    | nil => rfl
    | append_singleton regs r ih =>
      rw [List.pairwise_append] at hp
      rw [addAll_snoc, ih hp.1 (fun a ha => hl a (by simp [ha])), Res.bind_ok]
      unfold addEq
      have : regs.any (fun e => Text.strcmpI (some e.1) (some r.1)) = false := by
        rw [List.any_eq_false]
        intro a ha h
        exact hp.2.2 a ha r (by simp) ((strcmpI_same _ _).1 h)
      rw [this, if_neg (by simp), if_neg (by have := hl r (by simp); omega)]
  · intro db h pre name
    obtain ⟨rfl, hp, _⟩ := hdb db h
    have huniq : ∀ a ∈ db, ∀ b ∈ db, sameName a.1 b.1 → a = b := by
      intro a ha b hb hs
      by_contra hne
      have h2 : ∀ l : List (Str × φ), l.Pairwise (fun a b => ¬ sameName a.1 b.1) → ∀ a ∈ l, ∀ b ∈ l, a ≠ b → ¬ sameName a.1 b.1 := by
        intro l hl
        induction l with
        | nil => simp
        | cons x l ih =>
          rw [List.pairwise_cons] at hl
          intro a ha b hb hne hs
          rcases List.mem_cons.1 ha with rfl | ha'
          · rcases List.mem_cons.1 hb with rfl | hb'
            · exact hne rfl
            · exact hl.1 b hb' hs
          · rcases List.mem_cons.1 hb with rfl | hb'
            · exact hl.1 a ha' (Eq.symm hs)
            · exact ih hl.2 a ha' b hb' hne hs
      exact h2 db hp a ha b hb hne hs
    constructor
    · intro eq
      unfold getEq
      constructor
      · intro h
        split at h
        · cases h
        cases hf : db.find? (fun e => Text.strcmpI (some e.1) (some (pre ++ name))) with
        | none => rw [hf] at h; cases h
        | some e =>
          rw [hf] at h
          injection h with h
          refine ⟨e.1, ?_, (strcmpI_same _ _).1 (by simpa using List.find?_some hf)⟩
          rw [← h]; exact List.mem_of_find?_eq_some hf
      · rintro ⟨n, hm, hs⟩
        rw [if_neg (by simp; exact List.ne_nil_of_mem hm)]
        cases hf : db.find? (fun e => Text.strcmpI (some e.1) (some (pre ++ name))) with
        | none =>
          rw [List.find?_eq_none] at hf
          exact absurd ((strcmpI_same _ _).2 hs) (hf _ hm)
        | some e =>
          have h1 : sameName e.1 (pre ++ name) := (strcmpI_same _ _).1 (by simpa using List.find?_some hf)
          have := huniq e (List.mem_of_find?_eq_some hf) (n, eq) hm (h1.trans (Eq.symm hs))
          rw [this]
    · intro hno
      unfold getEq
      split
      · rfl
      · rw [List.find?_eq_none.2]
        intro e he h
        exact hno e he ((strcmpI_same _ _).1 (by simpa using h))

/-- two registrations and a lookup that ignores the case -/
example : (addAll [("eq_alpha".toList, 1), ("eq_beta".toList, 2)]).bind (fun db => getEq db "EQ_".toList "Beta".toList) = .ok 2 := by
  decide +kernel

/-- Set-up with a prefix: the equation of a field is the part of parameter `<prefix><field>` before the first comma, `_` and
the field name; the field solved for is the value of parameter `<prefix>alias_field_<field>`, or the field itself if there is no such
parameter.  This holds for every field, whatever the other fields are. -/
theorem C52_setup (get : Str → Option Str) (pre : Str) (al : Str) (names : List Str) (rs : List (Str × Str))
    (h : setupAll get (some pre) al names = .ok rs) :
    rs.length = names.length ∧ ∀ (i : Nat) (f : Str), names[i]? = some f →
      ∃ a b, get (pre ++ f) = some (a ++ ',' :: b) ∧ ',' ∉ a ∧
        rs[i]? = some (a ++ '_' :: f, (get (pre ++ "alias_field_".toList ++ f)).getD f) := by
  induction names generalizing al rs with
  | nil => injection h with h; subst h; simp
  | cons f l ih =>
    unfold setupAll at h
    cases hf : fieldSetup get (some pre) al f with
    | abort => rw [hf] at h; cases h
    | ub => rw [hf] at h; cases h
    | ok r =>
      rw [hf, Res.bind_ok] at h
      cases hl : setupAll get (some pre) r.2 l with
      | abort => rw [hl] at h; cases h
      | ub => rw [hl] at h; cases h
      | ok rs' =>
        rw [hl, Res.bind_ok] at h
        injection h with h
        subst h
        obtain ⟨h1, h2⟩ := ih r.2 rs' hl
        refine ⟨by simp [h1], ?_⟩
        intro i g hg
        cases i with
        | succ i => exact h2 i g (by simpa using hg)
        | zero =>
          have : f = g := by simpa using hg
          subst this
          unfold fieldSetup at hf
          dsimp only at hf
          split at hf
          · cases hf
          cases hv : get (pre ++ f) with
          | none => rw [hv] at hf; cases hf
          | some v =>
            rw [hv] at hf
            dsimp only at hf
            split at hf
            · cases hf
            split at hf
            · cases hf
            rename_i _ hlen hmem
            rw [Decidable.not_not] at hmem
            split at hf
            · cases hf
            have hsplit : v = v.takeWhile (· ≠ ',') ++ ',' :: (v.dropWhile (· ≠ ',')).tail := by
              have h0 := List.takeWhile_append_dropWhile (p := fun c : Char => decide (c ≠ ',')) (l := v)
              cases hd : v.dropWhile (fun c : Char => decide (c ≠ ',')) with
              | nil =>
                exfalso
                rw [hd, List.append_nil] at h0
                rw [← h0] at hmem
                have := List.mem_takeWhile_imp hmem
                simp at this
              | cons c t =>
                have hc : c = ',' := by
                  have := List.head?_dropWhile_not (fun c : Char => decide (c ≠ ',')) v
                  rw [hd] at this
                  simpa using this
                rw [hd, hc] at h0
                rw [List.tail_cons]
                exact h0.symm
            refine ⟨v.takeWhile (· ≠ ','), (v.dropWhile (· ≠ ',')).tail, congrArg some hsplit, ?_, ?_⟩
            · intro hm
              have := List.mem_takeWhile_imp hm
              simp at this
            · cases ha : get (pre ++ "alias_field_".toList ++ f) with
              | none =>
                rw [ha] at hf
                dsimp only at hf
                split at hf
                · cases hf
                injection hf with hf
                rw [← hf]
                simp
              | some a =>
                rw [ha] at hf
                dsimp only at hf
                split at hf
                · cases hf
                injection hf with hf
                rw [← hf]
                simp

/-- a field with an alias followed by one without -/
example : setupAll (fun n => if n = "Eq_phi1".toList then some "XCTS,NS1".toList
      else if n = "Eq_alias_field_phi1".toList then some "phi".toList
      else if n = "Eq_psi".toList then some "XCTS,.*".toList else none) (some "Eq_".toList) [] ["phi1".toList, "psi".toList] =
    .ok [("XCTS_phi1".toList, "phi".toList), ("XCTS_psi".toList, "psi".toList)] := by decide +kernel

/-- Without a prefix (Poisson0, Modules_Test) the field to be solved for is the empty name, whatever the parameters and
the names in solve_Order are: the first Newton step looks for a field named "" and stops. -/
theorem C52_no_prefix_violation (get : Str → Option Str) (names : List Str) (hl : ∀ f ∈ names, f.length < 200) :
    setupAll get none [] names = .ok (names.map fun f => (f, [])) := by
  induction names with
  | nil => rfl
  | cons f l ih =>
    unfold setupAll fieldSetup
    dsimp only
    rw [if_neg (by have := hl f (by simp); omega), Res.bind_ok]
    dsimp only
    rw [ih (fun g hg => hl g (List.mem_cons_of_mem _ hg)), Res.bind_ok]
    rfl

/-- special grids, in the order they were added -/
def addGrids {γ : Type} (l : List (Str × γ)) : List (Str × γ) := l.foldl (fun s e => addGrid s e.1 e.2) []

/-- The grid of an equation is the special grid added first under its name (letter case matters), and the default grid if
there is none. -/
theorem C52_grid {γ : Type} (l : List (Str × γ)) (dflt : γ) (name : Str) :
    (∀ a g b, l = a ++ (name, g) :: b → (∀ e ∈ a, e.1 ≠ name) → getGrid (addGrids l) dflt name = g) ∧
    ((∀ e ∈ l, e.1 ≠ name) → getGrid (addGrids l) dflt name = dflt) := by
  have h : addGrids l = l := by
    unfold addGrids
    suffices ∀ s, l.foldl (fun s e => addGrid s e.1 e.2) s = s ++ l by simpa using this []
    induction l with
    | nil => simp
    | cons e l ih => intro s; rw [List.foldl_cons, ih]; simp [addGrid]
  rw [h]
  constructor
  · rintro a g b rfl ha
    unfold getGrid
    rw [List.find?_append, List.find?_eq_none.2 (by simpa using ha)]
    simp
  · intro hn
    unfold getGrid
    rw [List.find?_eq_none.2 (by simpa using hn)]

example : getGrid (addGrids [("phi".toList, 1), ("psi".toList, 2), ("phi".toList, 3)]) 0 "phi".toList = 1 := by decide +kernel

omit [LinearOrder K] in
/-- The relaxation factor of a field: its own weight if given, else the general one if given, else 1. -/
theorem C52_relaxation (get : Str → Option K) (f : Str) (hf : f.length < 373) :
    ∃ r, relaxFactor get (some f) = .ok r ∧
      ((∃ w, get ("solve_Newton_Update_Weight_".toList ++ f) = some w ∧ r = w) ∨
       (get ("solve_Newton_Update_Weight_".toList ++ f) = none ∧ ∃ w, get "solve_Newton_Update_Weight".toList = some w ∧ r = w) ∨
       (get ("solve_Newton_Update_Weight_".toList ++ f) = none ∧ get "solve_Newton_Update_Weight".toList = none ∧ r = 1)) := by
  unfold relaxFactor
  dsimp only
  rw [if_neg (by rw [List.length_append, show ("solve_Newton_Update_Weight_".toList).length = 27 from by decide]; omega)]
  refine ⟨_, rfl, ?_⟩
  cases h1 : get ("solve_Newton_Update_Weight_".toList ++ f) with
  | some w => exact Or.inl ⟨w, rfl, rfl⟩
  | none =>
    cases h2 : get "solve_Newton_Update_Weight".toList with
    | some w => exact Or.inr (Or.inl ⟨rfl, w, rfl, rfl⟩)
    | none => exact Or.inr (Or.inr ⟨rfl, rfl, rfl⟩)

example : relaxFactor (fun n => if n = "solve_Newton_Update_Weight".toList then some (1 / 2 : ℚ) else none) (some "psi".toList) = .ok (1 / 2) := by
  decide +kernel

end Elliptica.Solve
