import Verif.Spec.Reader
import Verif.Props.Checkpoint
import Verif.Props.Finder
import Verif.Props.Text
import Mathlib.Data.List.Range
import Mathlib.Data.List.GetD
import Mathlib.Tactic.Push
/-!
Lemmas about the initial data reader: lookups, parallel loops, the location of points, the loop over the fields, files.
-/
namespace Elliptica.Reader
open Elliptica Elliptica.Ckpt Elliptica.ReaderSpec Elliptica.TextSpec

theorem bind_ok_iff {α β : Type} {r : Res α} {f : α → Res β} {b : β} :
    r.bind f = .ok b ↔ ∃ a, r = .ok a ∧ f a = .ok b := by
  cases r <;> simp [Res.bind]

theorem indxLoop_spec (name : Str) : ∀ (l : List Str) (n k : Nat), indxLoop name n l = some k →
    n ≤ k ∧ l[k - n]? = some name
  | [], n, k, h => by simp [indxLoop] at h
  | d :: ds, n, k, h => by
    rw [indxLoop] at h
    by_cases e : name = d
    · rw [if_pos e] at h; simp at h; subst h; simp [e]
    · rw [if_neg e] at h
      obtain ⟨h1, h2⟩ := indxLoop_spec name ds (n + 1) k h
      refine ⟨by omega, ?_⟩
      rw [show k - n = (k - (n + 1)) + 1 by omega, List.getElem?_cons_succ]; exact h2

theorem indxLoop_none (name : Str) : ∀ (l : List Str) (n : Nat), indxLoop name n l = none ↔ name ∉ l
  | [], n => by simp [indxLoop]
  | d :: ds, n => by
    rw [indxLoop]
    by_cases e : name = d
    · simp [e]
    · rw [if_neg e, indxLoop_none name ds]; simp [e]

theorem dict_nodup : dict.Nodup := by decide +kernel

theorem dict_length : dict.length = 22 := by decide +kernel

theorem indx_ok {name : Str} {k : Nat} : indx name = .ok k ↔ dict[k]? = some name := by
  unfold indx
  constructor
  · intro h
    cases hl : indxLoop name 0 dict with
    | none => simp [hl] at h
    | some i => simp [hl] at h; subst h; simpa using (indxLoop_spec name dict 0 i hl).2
  · intro h
    cases hl : indxLoop name 0 dict with
    | none => exact absurd (List.mem_of_getElem? h) ((indxLoop_none name dict 0).1 hl)
    | some i =>
      have := (indxLoop_spec name dict 0 i hl).2
      simp only [Nat.sub_zero] at this
      obtain ⟨hi, e1⟩ := List.getElem?_eq_some_iff.1 this
      obtain ⟨hk, e2⟩ := List.getElem?_eq_some_iff.1 h
      have h := (List.getElem_inj dict_nodup).1 (e1.trans e2.symm)
      rw [h]

theorem mapR_ok {α β : Type} (f : α → Res β) : ∀ (l : List α) (r : List β), mapR f l = .ok r ↔
    r.length = l.length ∧ ∀ (i : Nat) (h : i < l.length) (h' : i < r.length), f l[i] = .ok r[i]
  | [], r => by
    simp only [mapR]
    constructor
    · intro h; cases h; simp
    · rintro ⟨h, -⟩; simp at h; simp [h]
  | a :: l, r => by
    simp only [mapR, bind_ok_iff]
    constructor
    · rintro ⟨b, hb, bs, hbs, e⟩
      cases e
      obtain ⟨h1, h2⟩ := (mapR_ok f l bs).1 hbs
      refine ⟨by simp [h1], ?_⟩
      intro i hi hi'
      cases i with
      | zero => simpa using hb
      | succ i => simpa using h2 i (by simpa using hi) (by simpa using hi')
    · rintro ⟨h1, h2⟩
      cases r with
      | nil => simp at h1
      | cons b bs =>
        refine ⟨b, h2 0 (Nat.succ_pos _) (Nat.succ_pos _), bs, (mapR_ok f l bs).2 ⟨by simpa using h1, ?_⟩, rfl⟩
        intro i hi hi'
        exact h2 (i + 1) (Nat.succ_lt_succ hi) (Nat.succ_lt_succ hi')

/-- after the loop every visited slot holds the result of its own turn -/
theorem parFor_ok {α : Type} (body : Nat → Res α) : ∀ (order : List Nat) (a b : Nat → Option α),
    parFor body order a = .ok b ↔ (∀ p ∈ order, ∃ v, body p = .ok v) ∧
      ∀ p, (p ∈ order → ∃ v, body p = .ok v ∧ b p = some v) ∧ (p ∉ order → b p = a p)
  | [], a, b => by
    simp only [parFor, List.not_mem_nil, false_imp_iff, implies_true, true_and, not_false_eq_true, true_imp_iff]
    constructor
    · intro h; cases h; simp
    · intro h; rw [funext h]
  | q :: qs, a, b => by
    simp only [parFor, bind_ok_iff, parFor_ok body qs]
    constructor
    · rintro ⟨v, hv, h1, h2⟩
      refine ⟨?_, fun p => ⟨?_, ?_⟩⟩
      · intro p hp
        rcases List.mem_cons.1 hp with rfl | hp
        · exact ⟨v, hv⟩
        · exact h1 p hp
      · intro hp
        by_cases hq : p ∈ qs
        · exact (h2 p).1 hq
        · rcases List.mem_cons.1 hp with rfl | hp
          · exact ⟨v, hv, by simpa using (h2 p).2 hq⟩
          · exact absurd hp hq
      · intro hp
        have hpq : p ≠ q := fun e => hp (by simp [e])
        have := (h2 p).2 (fun h => hp (by simp [h]))
        simpa [hpq] using this
    · rintro ⟨h1, h2⟩
      obtain ⟨v, hv⟩ := h1 q (by simp)
      refine ⟨v, hv, fun p hp => h1 p (by simp [hp]), fun p => ⟨fun hp => (h2 p).1 (by simp [hp]), fun hp => ?_⟩⟩
      by_cases e : p = q
      · subst e
        obtain ⟨w, hw, hb⟩ := (h2 p).1 (by simp)
        rw [hb, if_pos rfl]
        have := hv.symm.trans hw
        cases this; rfl
      · rw [if_neg e]; exact (h2 p).2 (by simp [e, hp])

theorem collect_ok {α : Type} (a : Nat → Option α) : ∀ (l : List Nat) (r : List α), collect a l = .ok r ↔ l.map a = r.map some
  | [], r => by
    simp only [collect]
    constructor
    · intro h; cases h; rfl
    · intro h; cases r with
      | nil => rfl
      | cons b bs => simp at h
  | p :: ps, r => by
    simp only [collect]
    cases h : a p with
    | none => cases r <;> simp [h]
    | some v =>
      simp only [bind_ok_iff, collect_ok a ps]
      constructor
      · rintro ⟨l, hl, e⟩; cases e; simp [h, hl]
      · intro e
        cases r with
        | nil => simp at e
        | cons b bs =>
          simp only [List.map_cons, h, List.cons.injEq, Option.some.injEq] at e
          exact ⟨bs, e.2, by rw [e.1]⟩

/-- a parallel loop gives each slot the result of its own turn, whatever the order -/
theorem loop_ok {α : Type} (n : Nat) (order : List Nat) (ho : order.Perm (List.range n)) (body : Nat → Res α) (r : List α) :
    loop n order body = .ok r ↔ r.length = n ∧ ∀ (p : Nat) (h : p < r.length), body p = .ok r[p] := by
  have hm : ∀ p, p ∈ order ↔ p < n := fun p => by rw [ho.mem_iff, List.mem_range]
  simp only [loop, bind_ok_iff, parFor_ok, collect_ok]
  constructor
  · rintro ⟨a, ⟨-, h2⟩, h3⟩
    have hl : r.length = n := by simpa using (congrArg List.length h3).symm
    refine ⟨hl, fun p hp => ?_⟩
    obtain ⟨v, hv, ha⟩ := (h2 p).1 ((hm p).2 (by omega))
    have := congrArg (fun l => l[p]?) h3
    simp only [List.getElem?_map, List.getElem?_range (show p < n by omega), Option.map_some, ha,
      List.getElem?_eq_getElem hp] at this
    simp only [Option.some.injEq] at this
    rw [hv, this]
  · rintro ⟨hl, h⟩
    refine ⟨fun p => r[p]?, ⟨fun p hp => ?_, fun p => ⟨fun hp => ?_, fun hp => ?_⟩⟩, ?_⟩
    · exact ⟨_, h p (by have := (hm p).1 hp; omega)⟩
    · have hp' : p < r.length := by have := (hm p).1 hp; omega
      exact ⟨_, h p hp', List.getElem?_eq_getElem hp'⟩
    · exact List.getElem?_eq_none (by have := mt (hm p).2 hp; omega)
    · apply List.ext_getElem
      · simp [hl]
      · intro i h1 h2
        simp

theorem locate_ok {D X V : Type} (grid : List (Patch D X V)) (y : Fin 3 → D) (p : Nat) (pa : Patch D X V) (x : X) :
    locate grid y = .ok (p, pa, x) ↔ grid[p]? = some pa ∧ pa.xof y = some x ∧ ∀ q ∈ grid.take p, q.xof y = none := by
  have hf := Finder.C20_first (accepts grid y) (List.range grid.length)
  constructor
  · intro h
    unfold locate at h
    cases hw : Finder.inWhichPatch (accepts grid y) (List.range grid.length) with
    | none => simp [hw] at h
    | some p' =>
      simp only [hw] at h
      cases hg : grid[p']? with
      | none => simp [hg] at h
      | some pa' =>
        simp only [hg] at h
        cases hx : pa'.xof y with
        | none => simp [hx] at h
        | some x' =>
          simp only [hx, Res.ok.injEq, Prod.mk.injEq] at h
          obtain ⟨rfl, rfl, rfl⟩ := h
          refine ⟨hg, hx, ?_⟩
          obtain ⟨pre, post, e, -, hpre⟩ := (hf.2 p').1 hw
          have hpr : pre = List.range p' := by
            have hl : p' = pre.length := by
              have := congrArg (fun l => l[pre.length]?) e
              simp only [List.getElem?_append_right (le_refl _), Nat.sub_self, List.getElem?_cons_zero] at this
              rw [List.getElem?_range (by
                have := congrArg List.length e
                simp at this; omega)] at this
              simpa using this.symm
            have := congrArg (List.take pre.length) e
            rw [List.take_left, List.take_range] at this
            rw [← this, ← hl]
            congr 1
            have := congrArg List.length e
            simp at this; omega
          intro q hq
          obtain ⟨i, hi, rfl⟩ := List.mem_take_iff_getElem.1 hq
          have := hpre i (by rw [hpr]; simp; omega)
          unfold accepts at this
          rw [List.getElem?_eq_getElem (by omega)] at this
          simpa using this
  · rintro ⟨hg, hx, hpre⟩
    have hp : p < grid.length := (List.getElem?_eq_some_iff.1 hg).1
    have hw : Finder.inWhichPatch (accepts grid y) (List.range grid.length) = some p := by
      rw [hf.2 p]
      refine ⟨List.range p, (List.range grid.length).drop (p + 1), ?_, ?_, ?_⟩
      · have e1 : List.range p = (List.range grid.length).take p := by rw [List.take_range, Nat.min_eq_left hp.le]
        rw [e1]
        have : (List.range grid.length)[p]'(by simpa using hp) = p := by simp
        conv_lhs => rw [← List.take_append_drop p (List.range grid.length)]
        rw [List.drop_eq_getElem_cons (by simpa using hp), this]
      · simp [accepts, hg, hx]
      · intro q hq
        have hq' : q < p := by simpa using hq
        have hq2 : q < grid.length := by omega
        have := hpre grid[q] (List.mem_take_iff_getElem.2 ⟨q, by omega, rfl⟩)
        simp [accepts, List.getElem?_eq_getElem hq2, this]
    simp [locate, hw, hg, hx]

theorem lookUp_ok {V : Type} (l : Field.Fields V) (n : Str) (k : Nat) (h : Field.lookUpE l n = .ok k) :
    ∃ f, l[k]? = some f ∧ f.name = n := by
  unfold Field.lookUpE at h
  cases hl : Field.lookUp l n with
  | none => simp [hl] at h
  | some i =>
    simp only [hl, Res.ok.injEq] at h
    subst h
    unfold Field.lookUp at hl
    obtain ⟨hi, h1, -⟩ := List.findIdx?_eq_some_iff_getElem.1 hl
    exact ⟨l[i], List.getElem?_eq_getElem hi, by simpa using h1⟩

theorem lookUp_total {V : Type} (l : Field.Fields V) (n : Str) (h : ∃ f ∈ l, f.name = n) : ∃ k, Field.lookUpE l n = .ok k := by
  unfold Field.lookUpE
  cases hl : Field.lookUp l n with
  | none =>
    unfold Field.lookUp at hl
    rw [List.findIdx?_eq_none_iff] at hl
    obtain ⟨f, hf, e⟩ := h
    have := hl f hf
    simp [e] at this
  | some i => exact ⟨i, rfl⟩

theorem split_at {α : Type} (l : List α) (p : Nat) (a : α) (h : l[p]? = some a) : l = l.take p ++ a :: l.drop (p + 1) := by
  obtain ⟨hp, e⟩ := List.getElem?_eq_some_iff.1 h
  conv_lhs => rw [← List.take_append_drop p l]
  rw [List.drop_eq_getElem_cons hp, e]

/-- a located point and its interpolated field -/
theorem interp_value {D X V : Type} (grid : List (Patch D X V)) (ns : List Str) (fi : List (List Nat)) (hfi : fIndex grid ns = .ok fi)
    (f : Nat) (hf : f < ns.length) (y : Fin 3 → D) (s : Slot X) (pa : Patch D X V) (hs : locate grid y = .ok (s.pn, pa, s.X)) (d : D)
    (h : interp grid fi f s = .ok d) : HasValue grid y ns[f] d := by
  obtain ⟨hg, hx, hpre⟩ := (locate_ok grid y s.pn pa s.X).1 hs
  obtain ⟨hp, he⟩ := List.getElem?_eq_some_iff.1 hg
  obtain ⟨hl, hall⟩ := (mapR_ok _ grid fi).1 hfi
  have hp' : s.pn < fi.length := by omega
  have hrow := hall s.pn hp hp'
  obtain ⟨hrl, hr⟩ := (mapR_ok _ ns fi[s.pn]).1 hrow
  have hf' : f < fi[s.pn].length := by omega
  obtain ⟨fld, hfld, hn⟩ := lookUp_ok _ _ _ (hr f hf hf')
  rw [he] at hfld
  unfold interp at h
  simp only [hg, List.getElem?_eq_getElem hp', List.getElem?_eq_getElem hf', hfld, Res.ok.injEq] at h
  exact ⟨_, pa, _, split_at grid s.pn pa hg, hpre, s.X, hx, fld, List.mem_of_getElem? hfld, hn, h.symm⟩

/-- what a located list of points is -/
def Located {D X V : Type} (grid : List (Patch D X V)) (ys : List (Fin 3 → D)) (pnt : List (Slot X)) : Prop :=
  pnt.length = ys.length ∧ ∀ (p : Nat) (h : p < pnt.length) (h' : p < ys.length),
    ∃ pa, locate grid ys[p] = .ok (pnt[p].pn, pa, pnt[p].X)

theorem findPoints_ok {D X V : Type} [Add D] (grid : List (Patch D X V)) (cm : Fin 3 → D) (xs : List (Fin 3 → D)) (order : List Nat)
    (ho : order.Perm (List.range xs.length)) (pnt : List (Slot X)) (h : findPoints grid cm xs order = .ok pnt) :
    Located grid (xs.map fun x i => x i + cm i) pnt := by
  obtain ⟨h1, h2⟩ := (loop_ok _ _ ho _ _).1 h
  refine ⟨by simp [h1], fun p hp hp' => ?_⟩
  have := h2 p hp
  simp only [List.length_map] at hp'
  simp only [point, List.getElem?_eq_getElem hp', Res.bind_ok, findPoint, bind_ok_iff] at this
  obtain ⟨⟨q, pa, x⟩, hl, h3⟩ := this
  simp only at h3
  split_ifs at h3
  have e : pnt[p] = ⟨q, x⟩ := (Res.ok.inj h3).symm
  refine ⟨pa, ?_⟩
  rw [List.getElem_map, hl, e]

theorem values_ok {D X V : Type} (finite : D → Bool) (grid : List (Patch D X V)) (pnt : List (Slot X)) (fi : List (List Nat))
    (f : Nat) (order : List Nat) (ho : order.Perm (List.range pnt.length)) (l : List D) :
    values finite grid pnt fi f order = .ok l ↔ (l.length = pnt.length ∧ ∀ (p : Nat) (h : p < pnt.length) (h' : p < l.length),
      interp grid fi f pnt[p] = .ok l[p]) ∧ ∀ d ∈ l, finite d = true := by
  simp only [values, bind_ok_iff, loop_ok _ _ ho]
  constructor
  · rintro ⟨l', ⟨h1, h2⟩, h3⟩
    split_ifs at h3 with hfin
    cases h3
    refine ⟨⟨h1, fun p hp hp' => ?_⟩, fun d hd => List.all_eq_true.1 hfin d hd⟩
    have := h2 p hp'
    simpa [slot, List.getElem?_eq_getElem hp] using this
  · rintro ⟨⟨h1, h2⟩, h3⟩
    refine ⟨l, ⟨h1, fun p hp => ?_⟩, if_pos (List.all_eq_true.2 h3)⟩
    have hp' : p < pnt.length := by omega
    simpa [slot, List.getElem?_eq_getElem hp'] using h2 p hp' hp

section save
variable {D X V : Type} (finite : D → Bool) (grid : List (Patch D X V)) (pnt : List (Slot X)) (fi : List (List Nat)) (evos : List Str)

theorem values_order (f : Nat) (o o' : List Nat) (ho : o.Perm (List.range pnt.length)) (ho' : o'.Perm (List.range pnt.length))
    (l : List D) : values finite grid pnt fi f o = .ok l ↔ values finite grid pnt fi f o' = .ok l := by
  rw [values_ok finite grid pnt fi f o ho l, values_ok finite grid pnt fi f o' ho' l]

theorem saveLoop_order (o o' : Nat → List Nat) (ho : ∀ f, (o f).Perm (List.range pnt.length))
    (ho' : ∀ f, (o' f).Perm (List.range pnt.length)) (r : List (Option (List D))) : ∀ (names : List Str) (f : Nat)
    (field : List (Option (List D))), saveLoop finite grid pnt fi evos o f names field = .ok r →
      saveLoop finite grid pnt fi evos o' f names field = .ok r
  | [], f, field => by simp [saveLoop]
  | n :: names, f, field => by
    simp only [saveLoop]
    cases evos[f]? with
    | none => exact fun h => h
    | some e =>
      simp only [bind_ok_iff]
      rintro ⟨k, hk, l, hl, h⟩
      exact ⟨k, hk, l, (values_order finite grid pnt fi f _ _ (ho f) (ho' f) l).1 hl, saveLoop_order o o' ho ho' r names (f + 1) _ h⟩

theorem saveLoop_ok (o : Nat → List Nat) (r : List (Option (List D))) : ∀ (names : List Str)
    (f : Nat) (field : List (Option (List D))), field.length = dict.length →
    saveLoop finite grid pnt fi evos o f names field = .ok r →
      r.length = dict.length ∧
      (∀ g, g < names.length → ∃ (e : Str) (k : Nat) (l : List D), evos[f + g]? = some e ∧ dict[k]? = some e ∧ values finite grid pnt fi (f + g) (o (f + g)) = .ok l ∧
        ((∀ g', g < g' → g' < names.length → evos[f + g']? ≠ some e) → r[k]? = some (some l))) ∧
      ∀ (k : Nat) (e : Str), dict[k]? = some e → (∀ g, g < names.length → evos[f + g]? ≠ some e) → r[k]? = field[k]?
  | [], f, field, hl, h => by
    simp only [saveLoop, Res.ok.injEq] at h
    subst h
    exact ⟨hl, fun g hg => absurd hg (by simp), fun k e _ _ => rfl⟩
  | n :: names, f, field, hl, h => by
    simp only [saveLoop] at h
    cases he : evos[f]? with
    | none => simp [he] at h
    | some e =>
      simp only [he, bind_ok_iff] at h
      obtain ⟨k, hk, l, hv, h⟩ := h
      obtain ⟨i1, i2, i3⟩ := saveLoop_ok o r names (f + 1) _ (by simpa using hl) h
      have hk' := indx_ok.1 hk
      have hkl : k < dict.length := (List.getElem?_eq_some_iff.1 hk').1
      refine ⟨i1, ?_, ?_⟩
      · intro g hg
        cases g with
        | zero =>
          refine ⟨e, k, l, he, hk', hv, fun hlast => ?_⟩
          rw [i3 k e hk' (fun g hg' => by
            have := hlast (g + 1) (by omega) (by simpa using hg')
            rwa [show f + 1 + g = f + (g + 1) by omega])]
          rw [List.getElem?_set_self (by omega)]
        | succ g =>
          obtain ⟨e', k', l', a1, a2, a3, a4⟩ := i2 g (by simpa using hg)
          rw [show f + 1 + g = f + (g + 1) by omega] at a1 a3
          refine ⟨e', k', l', a1, a2, a3, fun hlast => a4 fun g' h1 h2 => ?_⟩
          have := hlast (g' + 1) (by omega) (by simpa using h2)
          rwa [show f + 1 + g' = f + (g' + 1) by omega]
      · intro k' e' hk2 hno
        rw [i3 k' e' hk2 (fun g hg => by
          have := hno (g + 1) (by simpa using hg)
          rwa [show f + 1 + g = f + (g + 1) by omega])]
        have hne : k ≠ k' := by
          rintro rfl
          have := hno 0 (by simp)
          rw [Nat.add_zero, he] at this
          exact this (hk'.symm.trans hk2)
        rw [List.getElem?_set_ne hne]

theorem saveLoop_total (o : Nat → List Nat) : ∀ (names : List Str) (f : Nat) (field : List (Option (List D))),
    (∀ g, g < names.length → ∃ e l, evos[f + g]? = some e ∧ e ∈ dict ∧ values finite grid pnt fi (f + g) (o (f + g)) = .ok l) →
    ∃ r, saveLoop finite grid pnt fi evos o f names field = .ok r
  | [], f, field, _ => ⟨field, rfl⟩
  | n :: names, f, field, h => by
    obtain ⟨e, l, he, hd, hv⟩ := h 0 (by simp)
    obtain ⟨k, hk, hk'⟩ := List.getElem_of_mem hd
    have hi : indx e = .ok k := indx_ok.2 (by rw [List.getElem?_eq_getElem hk, hk'])
    obtain ⟨r, hr⟩ := saveLoop_total o names (f + 1) (field.set k (some l)) fun g hg => by
      obtain ⟨e', l', a⟩ := h (g + 1) (by simpa using hg)
      exact ⟨e', l', by rwa [show f + 1 + g = f + (g + 1) by omega]⟩
    rw [Nat.add_zero] at he hv
    exact ⟨r, by simp only [saveLoop, he, hi, hv, Res.bind_ok, hr]⟩

end save

/-- `interp` never fails at a located point -/
theorem interp_total {D X V : Type} (grid : List (Patch D X V)) (ns : List Str) (fi : List (List Nat)) (hfi : fIndex grid ns = .ok fi)
    (f : Nat) (hf : f < ns.length) (y : Fin 3 → D) (s : Slot X) (pa : Patch D X V) (hs : locate grid y = .ok (s.pn, pa, s.X)) :
    ∃ d, interp grid fi f s = .ok d := by
  obtain ⟨hg, hx, hpre⟩ := (locate_ok grid y s.pn pa s.X).1 hs
  obtain ⟨hp, he⟩ := List.getElem?_eq_some_iff.1 hg
  obtain ⟨hl, hall⟩ := (mapR_ok _ grid fi).1 hfi
  have hp' : s.pn < fi.length := by omega
  obtain ⟨hrl, hr⟩ := (mapR_ok _ ns fi[s.pn]).1 (hall s.pn hp hp')
  have hf' : f < fi[s.pn].length := by omega
  obtain ⟨fld, hfld, hn⟩ := lookUp_ok _ _ _ (hr f hf hf')
  rw [he] at hfld
  exact ⟨pa.exec fld.val s.X, by simp only [interp, hg, List.getElem?_eq_getElem hp', List.getElem?_eq_getElem hf', hfld]⟩

theorem mapR_total {α β : Type} (f : α → Res β) (l : List α) (h : ∀ a ∈ l, ∃ b, f a = .ok b) : ∃ r, mapR f l = .ok r := by
  induction l with
  | nil => exact ⟨[], rfl⟩
  | cons a l ih =>
    obtain ⟨b, hb⟩ := h a (by simp)
    obtain ⟨r, hr⟩ := ih fun x hx => h x (by simp [hx])
    exact ⟨b :: r, by simp [mapR, hb, hr]⟩

theorem fIndex_total {D X V : Type} (grid : List (Patch D X V)) (ns : List Str)
    (h : ∀ pa ∈ grid, ∀ n ∈ ns, ∃ f ∈ pa.fields, f.name = n) : ∃ fi, fIndex grid ns = .ok fi :=
  mapR_total _ _ fun pa hp => mapR_total _ _ fun n hn => lookUp_total _ _ (h pa hp n hn)

theorem loop_total {α : Type} (n : Nat) (order : List Nat) (ho : order.Perm (List.range n)) (body : Nat → Res α)
    (h : ∀ p < n, ∃ v, body p = .ok v) : ∃ r, loop n order body = .ok r := by
  choose v hv using h
  refine ⟨List.ofFn fun p : Fin n => v p p.2, (loop_ok n order ho body _).2 ⟨by simp, fun p hp => ?_⟩⟩
  simp only [List.getElem_ofFn]
  exact hv p _

end Elliptica.Reader
