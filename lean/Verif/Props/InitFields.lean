import Verif.Lemmas.InitFields
import Mathlib.Topology.Algebra.Monoid
import Mathlib.Topology.Instances.Real.Lemmas
import Mathlib.Topology.Algebra.Order.Field
import Mathlib.Order.Filter.AtTopBot.Archimedean
/-!
C105: the first filling of the fields from the exact data of single objects.
-/
namespace Elliptica.InitFields
open Text Physics Spec Filter Topology
variable {P : Type}

theorem is_iff (v : Str) (s : String) : is v s = true ↔ Named v s.toList := by simp [is, strcmpI, Named]

theorem sum1 (sol : Data P) (s : Sol) (o : Obj) (c : Comp) (p : P) : superposed sol [(s, o)] c p = datum sol (s, o) c p := by
  simp [superposed]

theorem sum2 (sol : Data P) (s s' : Sol × Obj) (c : Comp) (p : P) :
    superposed sol [s, s'] c p = datum sol s c p + datum sol s' c p - flat c := by
  simp [superposed]
  ring

/-- the values that a request gives: the superposition, but of two black holes 1 is taken from the shift -/
noncomputable def got (sol : Data P) (sys : Obj) (l : List (Sol × Obj)) (c : Comp) (p : P) : ℝ :=
  match c with
  | .beta i => superposed sol l (.beta i) p - if sys = .BHBH then 1 else 0
  | c => superposed sol l c p

/-- the matter that is set -/
def matterOf (l : List (Sol × Obj)) : List Matter := (stars l).flatMap fun o => [.fields o, .spin o]

theorem run_after (sol : Data P) (sys : Obj) (ini fields : Str) (st : St P) (l : List (Sol × Obj)) (hr : Ready st)
    (h : Asked sys ini fields l) : ∃ st', run sol sys ini fields st = .ok st' ∧ After st st' (got sol sys l) (matterOf l) := by
  obtain ⟨hx, s, hs, hn⟩ := h
  have hx' : is fields "XCTS" = true := (is_iff _ _).2 hx
  have key : ∀ t : String, is ini t = decide (s.map lower = t.toList.map lower) := fun t => by
    rw [Bool.eq_iff_iff, is_iff, Named, decide_eq_true_iff]
    rw [Named] at hn
    rw [hn]
  simp only [table, List.mem_cons, Prod.mk.injEq, List.not_mem_nil, or_false] at hs
  have kt : ∀ (st' : St P) (v w : Comp → P → ℝ) (m m' : List Matter), After st st' v m → v = w → m = m' → After st st' w m' := by
    intro st' v w m m' h h1 h2
    rw [← h1, ← h2]
    exact h
  rcases hs with ⟨rfl, rfl, rfl⟩ | ⟨rfl, rfl, rfl⟩ | ⟨rfl, rfl, rfl⟩ | ⟨rfl, rfl, rfl⟩ | ⟨rfl, rfl, rfl⟩ | ⟨rfl, rfl, rfl⟩ | ⟨rfl, rfl, rfl⟩
    | ⟨rfl, rfl, rfl⟩ | ⟨rfl, rfl, rfl⟩ | ⟨rfl, rfl, rfl⟩
  · obtain ⟨st', e, ha⟩ := sbh_eq sol st .kerrSchild hr
    refine ⟨st', ?_, kt _ _ _ _ _ ha ?_ (by decide)⟩
    · rw [← e]
      simp only [run, xcts, key, hx']
      rfl
    · funext c p
      cases c <;> simp [oneV, got, sum1, datum]
  · obtain ⟨st', e, ha⟩ := sbh_eq sol st .confKerrSchild hr
    refine ⟨st', ?_, kt _ _ _ _ _ ha ?_ (by decide)⟩
    · rw [← e]
      simp only [run, xcts, key, hx']
      rfl
    · funext c p
      cases c <;> simp [oneV, got, sum1, datum]
  · obtain ⟨st', e, ha⟩ := sbh_eq sol st .isoSchild hr
    refine ⟨st', ?_, kt _ _ _ _ _ ha ?_ (by decide)⟩
    · rw [← e]
      simp only [run, xcts, key, hx']
      rfl
    · funext c p
      cases c <;> simp [oneV, got, sum1, datum]
  · obtain ⟨st', e, ha⟩ := sbh_eq sol st .pgSchild hr
    refine ⟨st', ?_, kt _ _ _ _ _ ha ?_ (by decide)⟩
    · rw [← e]
      simp only [run, xcts, key, hx']
      rfl
    · funext c p
      cases c <;> simp [oneV, got, sum1, datum]
  · obtain ⟨st', e, ha⟩ := bhns_eq sol st .kerrSchild true hr
    refine ⟨st', ?_, kt _ _ _ _ _ ha ?_ (by decide)⟩
    · rw [← e]
      simp only [run, xcts, key, hx']
      rfl
    · funext c p
      cases c <;> simp [twoV, got, sum2, datum, flat]
  · obtain ⟨st', e, ha⟩ := bhns_eq sol st .isoSchild false hr
    refine ⟨st', ?_, kt _ _ _ _ _ ha ?_ (by decide)⟩
    · rw [← e]
      simp only [run, xcts, key, hx']
      rfl
    · funext c p
      cases c <;> simp [twoV, got, sum2, datum, flat]
  · obtain ⟨st', e, ha⟩ := bhbh_eq sol st .kerrSchild hr
    refine ⟨st', ?_, kt _ _ _ _ _ ha ?_ (by decide)⟩
    · rw [← e]
      simp only [run, xcts, key, hx']
      rfl
    · funext c p
      cases c <;> simp [twoV, got, sum2, datum, flat]
  · obtain ⟨st', e, ha⟩ := bhbh_eq sol st .isoSchild hr
    refine ⟨st', ?_, kt _ _ _ _ _ ha ?_ (by decide)⟩
    · rw [← e]
      simp only [run, xcts, key, hx']
      rfl
    · funext c p
      cases c <;> simp [twoV, got, sum2, datum, flat]
  · obtain ⟨st', e, ha⟩ := nsns_eq sol st hr
    refine ⟨st', ?_, kt _ _ _ _ _ ha ?_ (by decide)⟩
    · rw [← e]
      simp only [run, xcts, key, hx']
      rfl
    · funext c p
      cases c <;> simp [twoV, got, sum2, datum, flat]
  · obtain ⟨st', e, ha⟩ := sns_eq sol st hr
    refine ⟨st', ?_, kt _ _ _ _ _ ha ?_ (by decide)⟩
    · rw [← e]
      simp only [run, xcts, key, hx']
      rfl
    · funext c p
      cases c <;> simp [oneV, got, sum1, datum]

/-- **C105 (superposition, partial).** On a grid with the fields of the metric and free auxiliary names a known request succeeds; the
conformal factor and the lapse are the superposition of the objects' data, and so is the shift unless the system is two black holes (see
`C105_shift_violation`). -/
theorem C105_superposed_partial (sol : Data P) (sys : Obj) (ini fields : Str) (st : St P) (l : List (Sol × Obj)) (hr : Ready st)
    (h : Asked sys ini fields l) : ∃ st', run sol sys ini fields st = .ok st' ∧
      st'.f "psi".toList = some (some (superposed sol l .psi)) ∧ st'.f "alphaPsi".toList = some (some (superposed sol l .alphaPsi)) ∧
      (sys ≠ .BHBH → ∀ c, st'.f (field c) = some (some (superposed sol l c))) := by
  obtain ⟨st', e, h1, -, -⟩ := run_after sol sys ini fields st l hr h
  refine ⟨st', e, h1 .psi, h1 .alphaPsi, fun hs c => ?_⟩
  rw [h1 c]
  congr 2
  funext p
  cases c <;> simp [got, hs]

/-- **C105 (violation).** The shift of two black holes is not the superposition of theirs: 1 is taken from each component. -/
theorem C105_shift_violation (sol : Data P) (ini fields : Str) (st : St P) (l : List (Sol × Obj)) (hr : Ready st)
    (h : Asked .BHBH ini fields l) : ∃ st', run sol .BHBH ini fields st = .ok st' ∧
      ∀ i, st'.f (field (.beta i)) = some (some fun p => superposed sol l (.beta i) p - 1) := by
  obtain ⟨st', e, h1, -, -⟩ := run_after sol .BHBH ini fields st l hr h
  refine ⟨st', e, fun i => ?_⟩
  rw [h1]
  congr 2

/-- **C105 (nothing else).** The fields that are not of the metric are as before, the auxiliary ones are gone again, and of each star of
the request, in order, the matter and the spin vector are set, once. -/
theorem C105_rest (sol : Data P) (sys : Obj) (ini fields : Str) (st : St P) (l : List (Sol × Obj)) (hr : Ready st)
    (h : Asked sys ini fields l) : ∃ st', run sol sys ini fields st = .ok st' ∧ (∀ n, (∀ c, n ≠ field c) → st'.f n = st.f n) ∧
      (∀ n ∈ auxiliary, st'.f n = none) ∧ st'.matter = st.matter ++ (stars l).flatMap fun o => [.fields o, .spin o] := by
  obtain ⟨st', e, -, h2, h3⟩ := run_after sol sys ini fields st l hr h
  refine ⟨st', e, h2, fun n hn => ?_, h3⟩
  rw [h2 n, hr.2 n hn]
  intro c
  rw [field_eq]
  revert n
  have : ∀ i : Fin 25, i < 5 → ∀ n ∈ auxiliary, n ≠ nm i := by decide +kernel
  cases c with
  | psi => exact this 0 (by decide)
  | alphaPsi => exact this 1 (by decide)
  | beta i => fin_cases i; exacts [this 2 (by decide), this 3 (by decide), this 4 (by decide)]

/-- **C105 (refused).** A request that is not in the table stops the program, whatever the grid. -/
theorem C105_refused (sol : Data P) (sys : Obj) (ini fields : Str) (st : St P) (h : ¬ ∃ l, Asked sys ini fields l) :
    run sol sys ini fields st = .abort := by
  by_cases hx : is fields "XCTS" = true
  · have hx' := (is_iff _ _).1 hx
    have no : ∀ e ∈ table, sys = e.1 → ¬ Named ini e.2.1 := fun e he hs hn => h ⟨e.2.2, hx', e.2.1, by rw [hs]; exact he, hn⟩
    simp only [table, List.forall_mem_cons] at no
    obtain ⟨n1, n2, n3, n4, n5, n6, n7, n8, n9, n10, -⟩ := no
    have g : ∀ (o : Obj) (t : String), (sys = o → ¬ Named ini t.toList) → ¬ (sys = o ∧ is ini t = true) :=
      fun o t hn hc => hn hc.1 ((is_iff _ _).1 hc.2)
    unfold run
    rw [if_neg (g _ _ n1), if_neg (g _ _ n2), if_neg (g _ _ n3), if_neg (g _ _ n4), if_neg (g _ _ n5), if_neg (g _ _ n6),
      if_neg (g _ _ n7), if_neg (g _ _ n8), if_neg (g _ _ n9), if_neg (g _ _ n10)]
  · have hx' : is fields "XCTS" = false := by simpa using hx
    unfold run xcts
    rw [hx']
    simp

/-- **C105 (far away, partial).** If along a filter (towards infinity) the data of each object tend to flat space, so do the conformal
factor, the lapse and, except of two black holes, the shift. -/
theorem C105_flat_partial (sol : Data P) (sys : Obj) (ini fields : Str) (st : St P) (l : List (Sol × Obj)) (hr : Ready st)
    (h : Asked sys ini fields l) (far : Filter P) (hf : ∀ s ∈ l, ∀ c, Tendsto (fun p => datum sol s c p) far (𝓝 (flat c))) :
    ∃ st', run sol sys ini fields st = .ok st' ∧ ∀ c, (sys ≠ .BHBH ∨ c = .psi ∨ c = .alphaPsi) →
      ∃ v, st'.f (field c) = some (some v) ∧ Tendsto v far (𝓝 (flat c)) := by
  obtain ⟨st', e, h1, h2, h3⟩ := C105_superposed_partial sol sys ini fields st l hr h
  have lim : ∀ c, Tendsto (superposed sol l c) far (𝓝 (flat c)) := by
    intro c
    have : ∀ m : List (Sol × Obj), (∀ s ∈ m, ∀ c, Tendsto (fun p => datum sol s c p) far (𝓝 (flat c))) →
        Tendsto (fun p => (m.map fun s => datum sol s c p - flat c).sum) far (𝓝 0) := by
      intro m
      induction m with
      | nil => intro _; simpa using tendsto_const_nhds
      | cons a m ih =>
        intro hm
        have t1 := (hm a (by simp) c).sub_const (flat c)
        have t2 := ih fun s hs => hm s (by simp [hs])
        have := t1.add t2
        simpa using this
    have := (this l hf).const_add (flat c)
    rw [add_zero] at this
    exact this
  refine ⟨st', e, fun c hc => ⟨superposed sol l c, ?_, lim c⟩⟩
  rcases hc with hc | rfl | rfl
  exacts [h3 hc c, h1, h2]

/-- **C105 (violation, far away).** The shift of two black holes that are flat far away tends to −1. -/
theorem C105_flat_violation (sol : Data P) (ini fields : Str) (st : St P) (l : List (Sol × Obj)) (hr : Ready st)
    (h : Asked .BHBH ini fields l) (far : Filter P) (hf : ∀ s ∈ l, ∀ c, Tendsto (fun p => datum sol s c p) far (𝓝 (flat c))) :
    ∃ st', run sol .BHBH ini fields st = .ok st' ∧ ∀ i, ∃ v, st'.f (field (.beta i)) = some (some v) ∧ Tendsto v far (𝓝 (-1)) := by
  obtain ⟨st', e, h1⟩ := C105_shift_violation sol ini fields st l hr h
  refine ⟨st', e, fun i => ⟨_, h1 i, ?_⟩⟩
  have : ∀ m : List (Sol × Obj), (∀ s ∈ m, ∀ c, Tendsto (fun p => datum sol s c p) far (𝓝 (flat c))) →
      Tendsto (fun p => (m.map fun s => datum sol s (.beta i) p - flat (.beta i)).sum) far (𝓝 0) := by
    intro m
    induction m with
    | nil => intro _; simpa using tendsto_const_nhds
    | cons a m ih =>
      intro hm
      have t1 := (hm a (by simp) (.beta i)).sub_const (flat (.beta i))
      have t2 := ih fun s hs => hm s (by simp [hs])
      have := t1.add t2
      simpa using this
  have := ((this l hf).const_add (flat (.beta i))).sub_const 1
  simpa [superposed, flat] using this

/-- **C105 (one alone).** Where one of two objects leaves no mark (its data are those of flat space), the conformal factor and the lapse are
those of the other. -/
theorem C105_alone (sol : Data P) (sys : Obj) (ini fields : Str) (st : St P) (a b : Sol × Obj) (hr : Ready st) (l : List (Sol × Obj))
    (h : Asked sys ini fields l) (hl : l = [a, b] ∨ l = [b, a]) (p : P) (hp : ∀ c, datum sol b c p = flat c) :
    ∃ st' u w, run sol sys ini fields st = .ok st' ∧ st'.f "psi".toList = some (some u) ∧ st'.f "alphaPsi".toList = some (some w) ∧
      u p = datum sol a .psi p ∧ w p = datum sol a .alphaPsi p := by
  obtain ⟨st', e, h1, h2, -⟩ := C105_superposed_partial sol sys ini fields st l hr h
  refine ⟨st', _, _, e, h1, h2, ?_, ?_⟩ <;> rcases hl with rfl | rfl <;> simp [sum2, hp]

theorem each_add_abort (names : List Str) (st : St P) (h : ∃ n ∈ names, (st.f n).isSome) : each add st names = .abort := by
  induction names generalizing st with
  | nil => obtain ⟨_, h, _⟩ := h; simp at h
  | cons x t ih =>
    rw [each, add]
    cases e : st.f x with
    | some v => rfl
    | none =>
      rw [Res.bind_ok]
      refine ih _ ?_
      obtain ⟨n, hn, hs⟩ := h
      rcases List.mem_cons.mp hn with rfl | hn
      · rw [e] at hs; simp at hs
      · refine ⟨n, hn, ?_⟩
        by_cases c : n = x
        · rw [c, e] at hs; simp at hs
        · simpa [c] using hs

/-- **C105 (kept).** If the grid has a field with the name of a temporary field, the run stops: no field of the user is overwritten or removed. -/
theorem C105_kept (sol : Data P) (sys : Obj) (ini fields : Str) (st : St P) (s : Str) (names : List Str)
    (h : (sys, s, names) ∈ temporaries) (hi : Named ini s) (hn : ∃ n ∈ names, (st.f n).isSome) : run sol sys ini fields st = .abort := by
  have ha := each_add_abort names st hn
  have hx : ∀ {α : Type} (r : Res α), r = .abort → xcts fields r = .abort := by
    rintro α r rfl
    rw [xcts, ite_self]
  have his : ∀ t : String, is ini t = decide (s.map lower = t.toList.map lower) := fun t => by rw [is, strcmpI, hi]
  simp only [temporaries, List.mem_cons, Prod.mk.injEq, List.not_mem_nil, or_false] at h
  rcases h with ⟨rfl, rfl, rfl⟩ | ⟨rfl, rfl, rfl⟩ | ⟨rfl, rfl, rfl⟩ | ⟨rfl, rfl, rfl⟩ | ⟨rfl, rfl, rfl⟩
  · have e : is ini "TOV+KerrSchild" = true := by rw [his]; decide +kernel
    simp only [run, reduceCtorEq, false_and, if_false, true_and, e, if_true]
    exact hx _ (by rw [bhns, ha]; rfl)
  · have e : is ini "TOV+IsoSchild" = true := by rw [his]; decide +kernel
    have e' : is ini "TOV+KerrSchild" = false := by rw [his]; decide +kernel
    simp only [run, reduceCtorEq, false_and, if_false, true_and, e, e', if_true, Bool.false_eq_true]
    exact hx _ (by rw [bhns, ha]; rfl)
  · have e : is ini "KerrSchild+KerrSchild" = true := by rw [his]; decide +kernel
    simp only [run, reduceCtorEq, false_and, if_false, true_and, e, if_true]
    exact hx _ (by rw [bhbh, auxBhbh, ha]; rfl)
  · have e : is ini "IsoSchild+IsoSchild" = true := by rw [his]; decide +kernel
    have e' : is ini "KerrSchild+KerrSchild" = false := by rw [his]; decide +kernel
    simp only [run, reduceCtorEq, false_and, if_false, true_and, e, e', if_true, Bool.false_eq_true]
    exact hx _ (by rw [bhbh, auxBhbh, ha]; rfl)
  · have e : is ini "TOV+TOV" = true := by rw [his]; decide +kernel
    simp only [run, reduceCtorEq, false_and, if_false, true_and, e, if_true]
    exact hx _ (by rw [nsns, ha]; rfl)

/-! ### the hypotheses are met -/

example (sol : Data Nat) : run sol .NSNS "tov+tov".toList "XCTS".toList ⟨fun n => if n = "psi_tov2".toList then some (some fun _ => 3) else none, []⟩ = .abort :=
  C105_kept sol .NSNS _ _ _ "TOV+TOV".toList
    ["psi_tov1".toList, "alphaPsi_tov1".toList, "psi_tov2".toList, "alphaPsi_tov2".toList] (by simp only [temporaries, List.mem_cons, true_or, or_true])
    (by rw [Named]; decide +kernel) ⟨"psi_tov2".toList, by simp only [List.mem_cons, true_or, or_true], by simp⟩

/-- a grid with the metric fields and one more -/
def grid0 : St Nat := ⟨fun n => if (∃ i : Fin 25, i < 5 ∧ n = nm i) then some none else if n = "rho".toList then some (some fun _ => 3) else none, []⟩

theorem ready0 : Ready grid0 := by
  constructor
  · intro c
    rw [field_eq]
    have : ∀ i : Fin 25, i < 5 → (grid0.f (nm i)).isSome := fun i hi => by simp only [grid0]; rw [if_pos ⟨i, hi, rfl⟩]; rfl
    cases c with
    | psi => exact this 0 (by decide)
    | alphaPsi => exact this 1 (by decide)
    | beta i => fin_cases i; exacts [this 2 (by decide), this 3 (by decide), this 4 (by decide)]
  · intro n hn
    have h1 : ∀ n ∈ auxiliary, ¬ ∃ i : Fin 25, i < 5 ∧ n = nm i := by decide +kernel
    have h2 : ∀ n ∈ auxiliary, n ≠ "rho".toList := by decide +kernel
    simp only [grid0]
    rw [if_neg (h1 n hn), if_neg (h2 n hn)]

example : Asked .BHBH "kerrschild+KerrSchild".toList "xcts".toList [(.kerrSchild, .BH1), (.kerrSchild, .BH2)] :=
  ⟨by rw [Named]; decide +kernel, "KerrSchild+KerrSchild".toList, by simp [table], by rw [Named]; decide +kernel⟩

example : ¬ ∃ l, Asked .BHNS "TOV+TOV".toList "XCTS".toList l := by
  rintro ⟨l, -, s, hs, hn⟩
  simp only [table, List.mem_cons, Prod.mk.injEq, List.not_mem_nil, or_false, reduceCtorEq, false_and, false_or, true_and] at hs
  rcases hs with ⟨rfl, -⟩ | ⟨rfl, -⟩ <;> exact absurd hn (by rw [Named]; decide +kernel)

/-- data that are flat far away -/
noncomputable def mild : Data Nat := fun _ _ c p => flat c + 1 / ((p : ℝ) + 1)

example : ∃ st', run mild .BHBH "KerrSchild+KerrSchild".toList "XCTS".toList grid0 = .ok st' ∧
    ∃ v, st'.f (field (.beta 0)) = some (some v) ∧ v 0 = 1 := by
  obtain ⟨st', e, h⟩ := C105_shift_violation mild "KerrSchild+KerrSchild".toList "XCTS".toList grid0 [(.kerrSchild, .BH1), (.kerrSchild, .BH2)] ready0
    ⟨rfl, "KerrSchild+KerrSchild".toList, by simp [table], rfl⟩
  refine ⟨st', e, _, h 0, ?_⟩
  simp [sum2, datum, mild, flat]

example : ∀ s ∈ ([(.kerrSchild, .BH1), (.kerrSchild, .BH2)] : List (Sol × Obj)), ∀ c,
    Tendsto (fun p => datum mild s c p) atTop (𝓝 (flat c)) := by
  intro s hs c
  simp only [List.mem_cons, List.not_mem_nil, or_false] at hs
  have : Tendsto (fun p : ℕ => flat c + 1 / ((p : ℝ) + 1)) atTop (𝓝 (flat c + 0)) :=
    tendsto_const_nhds.add (tendsto_const_nhds.div_atTop (tendsto_atTop_add_const_right _ _ tendsto_natCast_atTop_atTop))
  rw [add_zero] at this
  rcases hs with rfl | rfl <;> simpa [datum, mild] using this

end Elliptica.InitFields
