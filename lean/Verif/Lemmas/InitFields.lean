import Verif.Spec.InitFields
import Mathlib.Tactic.Linarith
import Mathlib.Tactic.Ring
import Mathlib.Data.Fintype.Basic
import Mathlib.Tactic.FinCases
import Mathlib.Tactic.NormNum
/-! Evaluation of the first filling of the fields on a ready grid. -/
set_option linter.unnecessarySeqFocus false
namespace Elliptica.InitFields
open Text Physics Spec
variable {P : Type}

/-- the names that occur -/
def nm (i : Fin 25) : Str :=
  match i.val with
  | 0 => "psi".toList | 1 => "alphaPsi".toList | 2 => "beta_U0".toList | 3 => "beta_U1".toList | 4 => "beta_U2".toList
  | 5 => "psi_ks".toList | 6 => "alphaPsi_ks".toList | 7 => "psi_is".toList | 8 => "alphaPsi_is".toList
  | 9 => "psi_tov".toList | 10 => "alphaPsi_tov".toList | 11 => "psi_tov1".toList | 12 => "alphaPsi_tov1".toList
  | 13 => "psi_tov2".toList | 14 => "alphaPsi_tov2".toList
  | 15 => "psi_bh1".toList | 16 => "alphaPsi_bh1".toList | 17 => "beta_bh1_U0".toList | 18 => "beta_bh1_U1".toList | 19 => "beta_bh1_U2".toList
  | 20 => "psi_bh2".toList | 21 => "alphaPsi_bh2".toList | 22 => "beta_bh2_U0".toList | 23 => "beta_bh2_U1".toList | _ => "beta_bh2_U2".toList

theorem nm_inj : ∀ i j : Fin 25, (nm i = nm j) ↔ i = j := by decide +kernel

theorem lit : "psi".toList = nm 0 ∧ "alphaPsi".toList = nm 1 ∧ "beta_U0".toList = nm 2 ∧ "beta_U1".toList = nm 3 ∧ "beta_U2".toList = nm 4
    ∧ "psi_ks".toList = nm 5 ∧ "alphaPsi_ks".toList = nm 6 ∧ "psi_is".toList = nm 7 ∧ "alphaPsi_is".toList = nm 8
    ∧ "psi_tov".toList = nm 9 ∧ "alphaPsi_tov".toList = nm 10 ∧ "psi_tov1".toList = nm 11 ∧ "alphaPsi_tov1".toList = nm 12
    ∧ "psi_tov2".toList = nm 13 ∧ "alphaPsi_tov2".toList = nm 14
    ∧ "psi_bh1".toList = nm 15 ∧ "alphaPsi_bh1".toList = nm 16 ∧ "beta_bh1_U0".toList = nm 17 ∧ "beta_bh1_U1".toList = nm 18
    ∧ "beta_bh1_U2".toList = nm 19 ∧ "psi_bh2".toList = nm 20 ∧ "alphaPsi_bh2".toList = nm 21 ∧ "beta_bh2_U0".toList = nm 22
    ∧ "beta_bh2_U1".toList = nm 23 ∧ "beta_bh2_U2".toList = nm 24 := by decide +kernel

theorem compLit : ∀ i : Fin 3, compName "beta".toList i = nm (2 + i.castLE (by omega)) ∧ compName "beta_bh1".toList i = nm (17 + i.castLE (by omega))
    ∧ compName "beta_bh2".toList i = nm (22 + i.castLE (by omega)) := by decide +kernel

theorem field_eq (c : Comp) : field c = nm (match c with | .psi => 0 | .alphaPsi => 1 | .beta i => 2 + i.castLE (by omega)) := by
  cases c with
  | psi => rfl
  | alphaPsi => rfl
  | beta i => fin_cases i <;> rfl

theorem auxiliary_eq : auxiliary = (List.range 20).map fun k => nm (5 + Fin.ofNat 25 k) := by decide +kernel

/-- the state in terms of the numbered names -/
theorem ready_iff {st : St P} (h : Ready st) :
    (∀ i : Fin 25, i < 5 → ∃ v, st.f (nm i) = some v) ∧ ∀ i : Fin 25, 5 ≤ i → st.f (nm i) = none := by
  obtain ⟨h1, h2⟩ := h
  constructor
  · intro i hi
    have : (∃ c, field c = nm i) := by
      have : i = 0 ∨ i = 1 ∨ i = 2 ∨ i = 3 ∨ i = 4 := by omega
      rcases this with rfl | rfl | rfl | rfl | rfl
      exacts [⟨.psi, rfl⟩, ⟨.alphaPsi, rfl⟩, ⟨.beta 0, rfl⟩, ⟨.beta 1, rfl⟩, ⟨.beta 2, rfl⟩]
    obtain ⟨c, hc⟩ := this
    exact Option.isSome_iff_exists.mp (hc ▸ h1 c)
  · intro i hi
    apply h2
    revert i
    decide +kernel

/-- the outcome: the values of the metric variables, no other field is changed, and the matter that was set -/
def After (st st' : St P) (v : Comp → P → ℝ) (m : List Matter) : Prop :=
  (∀ c, st'.f (field c) = some (some (v c))) ∧ (∀ n, (∀ c, n ≠ field c) → st'.f n = st.f n) ∧ st'.matter = st.matter ++ m

/-- the numbers of the auxiliary names -/
def rest : List (Fin 25) := [5, 6, 7, 8, 9, 10, 11, 12, 13, 14, 15, 16, 17, 18, 19, 20, 21, 22, 23, 24]

theorem mem_rest : ∀ i : Fin 25, 5 ≤ i → i ∈ rest := by decide +kernel

theorem after_of {st st' : St P} {v : Comp → P → ℝ} {m : List Matter} (h : Ready st) (h0 : st'.f (nm 0) = some (some (v .psi)))
    (h1 : st'.f (nm 1) = some (some (v .alphaPsi))) (h2 : st'.f (nm 2) = some (some (v (.beta 0))))
    (h3 : st'.f (nm 3) = some (some (v (.beta 1)))) (h4 : st'.f (nm 4) = some (some (v (.beta 2))))
    (h5 : ∀ i ∈ rest, st'.f (nm i) = none) (h6 : ∀ n, (∀ i, n ≠ nm i) → st'.f n = st.f n)
    (hm : st'.matter = st.matter ++ m) : After st st' v m := by
  refine ⟨fun c => ?_, fun n hn => ?_, hm⟩
  · cases c with
    | psi => exact h0
    | alphaPsi => exact h1
    | beta i => fin_cases i; exacts [h2, h3, h4]
  · by_cases hi : ∃ i, n = nm i
    · obtain ⟨i, rfl⟩ := hi
      by_cases hi : 5 ≤ i
      · rw [h5 i (mem_rest i hi), (ready_iff h).2 i hi]
      · have : i = 0 ∨ i = 1 ∨ i = 2 ∨ i = 3 ∨ i = 4 := by omega
        rcases this with rfl | rfl | rfl | rfl | rfl
        exacts [absurd rfl (hn .psi), absurd rfl (hn .alphaPsi), absurd rfl (hn (.beta 0)), absurd rfl (hn (.beta 1)),
          absurd rfl (hn (.beta 2))]
    · exact h6 n fun i hi' => hi ⟨i, hi'⟩

/-- the data of two objects, one on top of the other -/
def twoV (sol : Data P) (s s' : Sol) (o o' : Obj) (b : Fin 3 → P → ℝ) : Comp → P → ℝ
  | .psi, p => sol s o .psi p + sol s' o' .psi p - 1
  | .alphaPsi, p => sol s o .alphaPsi p + sol s' o' .alphaPsi p - 1
  | .beta i, p => b i p

/-- the data of one object -/
def oneV (sol : Data P) (s : Sol) (o : Obj) (b : Fin 3 → P → ℝ) : Comp → P → ℝ
  | .psi, p => sol s o .psi p
  | .alphaPsi, p => sol s o .alphaPsi p
  | .beta i, p => b i p

theorem bhns_eq (sol : Data P) (st : St P) (s : Sol) (k : Bool) (h : Ready st) :
    ∃ st', bhns sol st s (if k then "psi_ks".toList else "psi_is".toList) (if k then "alphaPsi_ks".toList else "alphaPsi_is".toList) = .ok st' ∧
      After st st' (twoV sol .tov s .NS .BH fun i => sol s .BH (.beta i)) [.fields .NS, .spin .NS] := by
  obtain ⟨h1, h2⟩ := ready_iff h
  obtain ⟨v1, e1⟩ := h1 0 (by decide)
  obtain ⟨v2, e2⟩ := h1 1 (by decide)
  obtain ⟨v3, e3⟩ := h1 2 (by decide)
  obtain ⟨v4, e4⟩ := h1 3 (by decide)
  obtain ⟨v5, e5⟩ := h1 4 (by decide)
  have a1 := h2 5 (by decide)
  have a2 := h2 6 (by decide)
  have a1' := h2 7 (by decide)
  have a2' := h2 8 (by decide)
  have a3 := h2 9 (by decide)
  have a4 := h2 10 (by decide)
  have c0 := (compLit 0).1
  have c1 := (compLit 1).1
  have c2 := (compLit 2).1
  simp only [bhns, popHole, popStar, c0, c1, c2, lit, twoV]
  cases k
  all_goals
    simp only [Bool.false_eq_true, if_true, if_false]
    refine ⟨_, by simp [each, add, remove, superimpose, values, write, nm_inj, e1, e2, e3, e4, e5, a1, a2, a3, a4, a1', a2']; rfl, ?_⟩
    apply after_of h
    · (try simp [nm_inj]) <;> (funext p; simp [twoV, oneV, sub_eq_add_neg])
    · (try simp [nm_inj]) <;> (funext p; simp [twoV, oneV, sub_eq_add_neg])
    · (try simp [nm_inj]) <;> (funext p; simp [twoV, oneV, sub_eq_add_neg])
    · (try simp [nm_inj]) <;> (funext p; simp [twoV, oneV, sub_eq_add_neg])
    · (try simp [nm_inj]) <;> (funext p; simp [twoV, oneV, sub_eq_add_neg])
    · simp only [rest, List.forall_mem_cons]
      simp [nm_inj, h2]
    · intro n hn
      simp [hn]
    · simp

theorem bhbh_eq (sol : Data P) (st : St P) (s : Sol) (h : Ready st) :
    ∃ st', bhbh sol st s = .ok st' ∧
      After st st' (twoV sol s s .BH1 .BH2 fun i p => sol s .BH1 (.beta i) p + sol s .BH2 (.beta i) p - 1) [] := by
  obtain ⟨h1, h2⟩ := ready_iff h
  obtain ⟨v1, e1⟩ := h1 0 (by decide)
  obtain ⟨v2, e2⟩ := h1 1 (by decide)
  obtain ⟨v3, e3⟩ := h1 2 (by decide)
  obtain ⟨v4, e4⟩ := h1 3 (by decide)
  obtain ⟨v5, e5⟩ := h1 4 (by decide)
  have a15 := h2 15 (by decide)
  have a16 := h2 16 (by decide)
  have a17 := h2 17 (by decide)
  have a18 := h2 18 (by decide)
  have a19 := h2 19 (by decide)
  have a20 := h2 20 (by decide)
  have a21 := h2 21 (by decide)
  have a22 := h2 22 (by decide)
  have a23 := h2 23 (by decide)
  have a24 := h2 24 (by decide)
  have b0 := (compLit 0).2.1
  have b1 := (compLit 1).2.1
  have b2 := (compLit 2).2.1
  have c0 := (compLit 0).2.2
  have c1 := (compLit 1).2.2
  have c2 := (compLit 2).2.2
  simp only [bhbh, popHole, b0, b1, b2, c0, c1, c2, lit, auxBhbh, twoV]
  all_goals
    refine ⟨_, by simp [each, add, remove, superimpose, values, write, nm_inj, e1, e2, e3, e4, e5, a15, a16, a17, a18, a19, a20, a21, a22, a23, a24]; rfl, ?_⟩
    apply after_of h
    · (try simp [nm_inj]) <;> (funext p; simp [twoV, oneV, sub_eq_add_neg])
    · (try simp [nm_inj]) <;> (funext p; simp [twoV, oneV, sub_eq_add_neg])
    · (try simp [nm_inj]) <;> (funext p; simp [twoV, oneV, sub_eq_add_neg])
    · (try simp [nm_inj]) <;> (funext p; simp [twoV, oneV, sub_eq_add_neg])
    · (try simp [nm_inj]) <;> (funext p; simp [twoV, oneV, sub_eq_add_neg])
    · simp only [rest, List.forall_mem_cons]
      simp [nm_inj, h2]
    · intro n hn
      simp [hn]
    · simp

theorem nsns_eq (sol : Data P) (st : St P) (h : Ready st) :
    ∃ st', nsns sol st = .ok st' ∧
      After st st' (twoV sol .tov .tov .NS1 .NS2 fun _ _ => 0) [.fields .NS1, .spin .NS1, .fields .NS2, .spin .NS2] := by
  obtain ⟨h1, h2⟩ := ready_iff h
  obtain ⟨v1, e1⟩ := h1 0 (by decide)
  obtain ⟨v2, e2⟩ := h1 1 (by decide)
  obtain ⟨v3, e3⟩ := h1 2 (by decide)
  obtain ⟨v4, e4⟩ := h1 3 (by decide)
  obtain ⟨v5, e5⟩ := h1 4 (by decide)
  have a11 := h2 11 (by decide)
  have a12 := h2 12 (by decide)
  have a13 := h2 13 (by decide)
  have a14 := h2 14 (by decide)
  simp only [nsns, popStar, zeroShift, lit, twoV]
  all_goals
    refine ⟨_, by simp [each, add, remove, superimpose, values, write, nm_inj, e1, e2, e3, e4, e5, a11, a12, a13, a14]; rfl, ?_⟩
    apply after_of h
    · (try simp [nm_inj]) <;> (funext p; simp [twoV, oneV, sub_eq_add_neg])
    · (try simp [nm_inj]) <;> (funext p; simp [twoV, oneV, sub_eq_add_neg])
    · (try simp [nm_inj]) <;> (funext p; simp [twoV, oneV, sub_eq_add_neg])
    · (try simp [nm_inj]) <;> (funext p; simp [twoV, oneV, sub_eq_add_neg])
    · (try simp [nm_inj]) <;> (funext p; simp [twoV, oneV, sub_eq_add_neg])
    · simp only [rest, List.forall_mem_cons]
      simp [nm_inj, h2]
    · intro n hn
      simp [hn]
    · simp

theorem sns_eq (sol : Data P) (st : St P) (h : Ready st) :
    ∃ st', sns sol st = .ok st' ∧ After st st' (oneV sol .tov .NS fun _ _ => 0) [.fields .NS, .spin .NS] := by
  obtain ⟨h1, h2⟩ := ready_iff h
  obtain ⟨v1, e1⟩ := h1 0 (by decide)
  obtain ⟨v2, e2⟩ := h1 1 (by decide)
  obtain ⟨v3, e3⟩ := h1 2 (by decide)
  obtain ⟨v4, e4⟩ := h1 3 (by decide)
  obtain ⟨v5, e5⟩ := h1 4 (by decide)
  simp only [sns, popStar, zeroShift, lit, oneV]
  all_goals
    refine ⟨_, by simp [each, add, remove, superimpose, values, write, nm_inj, e1, e2, e3, e4, e5, h2]; rfl, ?_⟩
    apply after_of h
    · (try simp [nm_inj]) <;> (funext p; simp [twoV, oneV, sub_eq_add_neg])
    · (try simp [nm_inj]) <;> (funext p; simp [twoV, oneV, sub_eq_add_neg])
    · (try simp [nm_inj]) <;> (funext p; simp [twoV, oneV, sub_eq_add_neg])
    · (try simp [nm_inj]) <;> (funext p; simp [twoV, oneV, sub_eq_add_neg])
    · (try simp [nm_inj]) <;> (funext p; simp [twoV, oneV, sub_eq_add_neg])
    · simp only [rest, List.forall_mem_cons]
      simp [nm_inj, h2]
    · intro n hn
      simp [hn]
    · simp

theorem sbh_eq (sol : Data P) (st : St P) (s : Sol) (h : Ready st) :
    ∃ st', sbh sol st s = .ok st' ∧ After st st' (oneV sol s .BH fun i => sol s .BH (.beta i)) [] := by
  obtain ⟨h1, h2⟩ := ready_iff h
  obtain ⟨v1, e1⟩ := h1 0 (by decide)
  obtain ⟨v2, e2⟩ := h1 1 (by decide)
  obtain ⟨v3, e3⟩ := h1 2 (by decide)
  obtain ⟨v4, e4⟩ := h1 3 (by decide)
  obtain ⟨v5, e5⟩ := h1 4 (by decide)
  have c0 := (compLit 0).1
  have c1 := (compLit 1).1
  have c2 := (compLit 2).1
  simp only [sbh, popHole, c0, c1, c2, lit, oneV]
  all_goals
    refine ⟨_, by simp [each, add, remove, superimpose, values, write, nm_inj, e1, e2, e3, e4, e5, h2]; rfl, ?_⟩
    apply after_of h
    · (try simp [nm_inj]) <;> (funext p; simp [twoV, oneV, sub_eq_add_neg])
    · (try simp [nm_inj]) <;> (funext p; simp [twoV, oneV, sub_eq_add_neg])
    · (try simp [nm_inj]) <;> (funext p; simp [twoV, oneV, sub_eq_add_neg])
    · (try simp [nm_inj]) <;> (funext p; simp [twoV, oneV, sub_eq_add_neg])
    · (try simp [nm_inj]) <;> (funext p; simp [twoV, oneV, sub_eq_add_neg])
    · simp only [rest, List.forall_mem_cons]
      simp [nm_inj, h2]
    · intro n hn
      simp [hn]
    · simp

end Elliptica.InitFields
