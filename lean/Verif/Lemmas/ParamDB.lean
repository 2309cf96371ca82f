import Verif.Lemmas.ParamMult
import Verif.Lemmas.Swap
/-! Helper lemmas: the parameter data base refines the abstract store. -/
namespace Elliptica.ParamLemmas
open Elliptica Params ParamSpec
variable {D : Type}

/-- first entry with the stored name `n` -/
def look (l : List (Par D)) (n : Str) : Option (Par D) := l.find? (fun p => p.lv = n)

theorem look_append (l : List (Par D)) (p : Par D) (n : Str) (h : look l p.lv = none) :
    look (l ++ [p]) n = if n = p.lv then some p else look l n := by
  unfold look at *
  rw [List.find?_append]
  split
  · rename_i e; subst e; rw [h]; simp
  · rename_i e
    have : List.find? (fun q : Par D => decide (q.lv = n)) [p] = none := by
      simp [Ne.symm e]
    rw [this]; simp

theorem look_modify (l : List (Par D)) (lv n : Str) (f : Par D → Par D) (hf : ∀ p, (f p).lv = p.lv) :
    look (modifyFirst lv f l) n = if n = lv then (look l n).map f else look l n := by
  unfold look
  induction l with
  | nil => simp [modifyFirst]
  | cons p l ih =>
    by_cases hp : p.lv = lv
    · simp only [modifyFirst, hp, if_true, List.find?_cons, hf]
      by_cases hn : n = lv
      · subst hn; simp
      · simp [hn, Ne.symm hn]
    · simp only [modifyFirst, hp, if_false, List.find?_cons]
      by_cases hpn : p.lv = n
      · subst hpn; simp [hp]
      · simp [hpn, ih]

theorem names_modify (l : List (Par D)) (lv : Str) (f : Par D → Par D) (hf : ∀ p, (f p).lv = p.lv) :
    (modifyFirst lv f l).map (·.lv) = l.map (·.lv) := by
  induction l with
  | nil => rfl
  | cons p l ih =>
    by_cases hp : p.lv = lv <;> simp [modifyFirst, hp, hf, ih]

theorem look_none_iff (l : List (Par D)) (n : Str) : look l n = none ↔ n ∉ l.map (·.lv) := by
  unfold look; simp [List.find?_eq_none]

theorem look_some_mem {l : List (Par D)} {n : Str} {p : Par D} (h : look l n = some p) :
    p ∈ l ∧ p.lv = n := by
  unfold look at h
  exact ⟨List.mem_of_find?_eq_some h, by simpa using List.find?_some h⟩

theorem look_eq_some_iff (l : List (Par D)) (hn : (l.map (·.lv)).Nodup) (n : Str) (p : Par D) :
    look l n = some p ↔ p ∈ l ∧ p.lv = n := by
  constructor
  · exact look_some_mem
  · rintro ⟨hp, rfl⟩
    induction l with
    | nil => simp at hp
    | cons q l ih =>
      simp only [List.map_cons, List.nodup_cons] at hn
      unfold look
      rw [List.find?_cons]
      rcases List.mem_cons.mp hp with h | h
      · subst h; simp
      · have : q.lv ≠ p.lv := fun e => hn.1 (by rw [e]; exact List.mem_map.mpr ⟨p, h, rfl⟩)
        simp only [this, decide_false]
        exact ih hn.2 h

theorem freeFirst_perm (lv : Str) (l : List (Par D)) :
    (∃ i, ∃ h : i < l.length, l[i].lv = lv ∧ (freeFirst lv l).Perm (l.eraseIdx i)) ∨
    (lv ∉ l.map (·.lv) ∧ freeFirst lv l = l) := by
  unfold freeFirst
  split
  · rename_i h
    right
    refine ⟨?_, rfl⟩
    rw [List.findIdx?_eq_none_iff] at h
    intro hm
    obtain ⟨p, hp, e⟩ := List.mem_map.mp hm
    have := h p hp
    simp [e] at this
  · rename_i i h
    left
    rw [List.findIdx?_eq_some_iff_getElem] at h
    obtain ⟨hi, hp, -⟩ := h
    refine ⟨i, hi, by simpa using hp, ?_⟩
    cases hl : l.getLast? with
    | none => rw [List.getLast?_eq_none_iff] at hl; subst hl; simp at hi
    | some last => exact Swap.swapLast_perm l i last hi hl

theorem mem_freeFirst (lv : Str) (l : List (Par D)) (hn : (l.map (·.lv)).Nodup) (p : Par D) :
    p ∈ freeFirst lv l ↔ p ∈ l ∧ p.lv ≠ lv := by
  rcases freeFirst_perm lv l with ⟨i, hi, hl, hp⟩ | ⟨h1, h2⟩
  · rw [hp.mem_iff]
    subst hl
    rw [List.mem_eraseIdx_iff_getElem]
    constructor
    · rintro ⟨j, hj, hij, rfl⟩
      refine ⟨List.getElem_mem _, ?_⟩
      intro e
      have := (List.nodup_iff_pairwise_ne.mp hn)
      rw [List.pairwise_iff_getElem] at this
      rcases Nat.lt_or_gt_of_ne hij with h | h
      · exact this j i (by simpa using hj) (by simpa using hi) h (by simpa using e)
      · exact this i j (by simpa using hi) (by simpa using hj) h (by simpa using e.symm)
    · rintro ⟨hp, hne⟩
      obtain ⟨j, hj, rfl⟩ := List.mem_iff_getElem.mp hp
      exact ⟨j, hj, fun e => hne (by subst e; rfl), rfl⟩
  · rw [h2]
    constructor
    · intro h; exact ⟨h, fun e => h1 (List.mem_map.mpr ⟨p, h, e⟩)⟩
    · exact fun h => h.1

theorem nodup_freeFirst (lv : Str) (l : List (Par D)) (hn : (l.map (·.lv)).Nodup) :
    ((freeFirst lv l).map (·.lv)).Nodup := by
  rcases freeFirst_perm lv l with ⟨i, hi, hl, hp⟩ | ⟨h1, h2⟩
  · rw [(hp.map _).nodup_iff]
    exact ((List.eraseIdx_sublist l i).map _).nodup hn
  · rwa [h2]

theorem look_freeFirst (lv : Str) (l : List (Par D)) (hn : (l.map (·.lv)).Nodup) (n : Str) :
    look (freeFirst lv l) n = if n = lv then none else look l n := by
  apply Option.ext
  intro p
  rw [look_eq_some_iff _ (nodup_freeFirst lv l hn), mem_freeFirst lv l hn]
  split
  · rename_i e; subst e; constructor
    · rintro ⟨⟨-, h⟩, h2⟩; exact absurd h2 h
    · simp
  · rename_i e; rw [look_eq_some_iff l hn]
    constructor
    · rintro ⟨⟨h, -⟩, h2⟩; exact ⟨h, h2⟩
    · rintro ⟨h, rfl⟩; exact ⟨⟨h, e⟩, rfl⟩

/-! ### relation to the abstract store -/

/-- entry `p` represents cell `c` -/
structure CellRel (p : Par D) (c : Cell D) : Prop where
  text : c.text = p.rv
  arr : c.arr = p.rvArray
  schedNone : p.iterative = false → c.sched = none
  schedSome : p.iterative = true → ∃ v w vs, c.sched = some (v :: w :: vs) ∧
    (∀ x ∈ v :: w :: vs, ¬ HasArrow x) ∧ p.rvIp = some (joinArrow (v :: w :: vs))
  flg : p.doubleFlg = true → p.rv ≠ none

/-- data base `db` represents the store `σ` -/
structure Rel (db : DB D) (σ : Store D) : Prop where
  alloc : σ.alloc = db.isSome
  nodup : ((entries db).map (·.lv)).Nodup
  ruled : ∀ p ∈ entries db, nameRule p.lv = p.lv
  none_ : ∀ n, look (entries db) n = none → σ.cell n = none
  some_ : ∀ n p, look (entries db) n = some p → ∃ c, σ.cell n = some c ∧ CellRel p c

theorem Rel.init : Rel (none : DB D) (Store.init) :=
  ⟨rfl, by simp [entries], by simp [entries], by simp [Store.init], by simp [entries, look]⟩

/-- outcomes agree -/
def RelRes : Res (DB D) → Res (Store D) → Prop
  | .ok db, .ok σ => Rel db σ
  | .abort, .abort => True
  | .ub, .ub => True
  | _, _ => False

theorem getPar_eq (db : DB D) (n : Str) : getPar db n = look (entries db) (nameRule n) := rfl

theorem Rel.append {db : DB D} {σ : Store D} (h : Rel db σ) (p : Par D) (c : Cell D)
    (hn : look (entries db) p.lv = none) (hr : nameRule p.lv = p.lv) (hc : CellRel p c) :
    Rel (append db p) (σ.put p.lv c) := by
  have e : entries (Params.append db p) = entries db ++ [p] := rfl
  refine ⟨rfl, ?_, ?_, ?_, ?_⟩
  · rw [e, List.map_append, List.nodup_append]
    refine ⟨h.nodup, by simp, ?_⟩
    intro a ha b hb
    simp at hb; subst hb
    rw [look_none_iff] at hn
    exact fun e => hn (e ▸ ha)
  · intro q hq; rw [e] at hq
    rcases List.mem_append.mp hq with hq | hq
    · exact h.ruled q hq
    · simp at hq; rw [hq]; exact hr
  · intro n; rw [e, look_append _ _ _ hn]
    simp only [Store.put]
    split
    · simp
    · exact h.none_ n
  · intro n q; rw [e, look_append _ _ _ hn]
    simp only [Store.put]
    split
    · intro hq; simp at hq; subst hq; exact ⟨c, rfl, hc⟩
    · exact h.some_ n q

theorem Rel.modify {db : DB D} {σ : Store D} (h : Rel db σ) (lv : Str) (f : Par D → Par D) (c : Cell D)
    (hf : ∀ p, (f p).lv = p.lv) (p : Par D) (hp : look (entries db) lv = some p) (hc : CellRel (f p) c) :
    Rel (modifyPar db lv f) (σ.put lv c) := by
  have hs : db.isSome := by
    cases db with
    | none => simp [entries, look] at hp
    | some l => rfl
  have e : entries (modifyPar db lv f) = modifyFirst lv f (entries db) := by
    cases db with
    | none => simp at hs
    | some l => rfl
  refine ⟨?_, ?_, ?_, ?_, ?_⟩
  · cases db with
    | none => simp at hs
    | some l => rfl
  · rw [e, names_modify _ _ _ hf]; exact h.nodup
  · intro q hq
    have : q.lv ∈ (entries db).map (·.lv) := by
      rw [← names_modify (entries db) lv f hf, ← e]; exact List.mem_map.mpr ⟨q, hq, rfl⟩
    obtain ⟨r, hr, e2⟩ := List.mem_map.mp this
    rw [← e2]; exact h.ruled r hr
  · intro n; rw [e, look_modify _ _ _ _ hf]
    simp only [Store.put]
    split
    · rename_i en; subst en; rw [hp]; simp
    · exact h.none_ n
  · intro n q; rw [e, look_modify _ _ _ _ hf]
    simp only [Store.put]
    split
    · rename_i en; subst en; rw [hp]; intro hq; simp at hq; subst hq; exact ⟨c, rfl, hc⟩
    · exact h.some_ n q

/-- changing only the text (and cache) of an entry -/
theorem CellRel.setText {p : Par D} {c : Cell D} (h : CellRel p c) (t : Option Str) (fl : Bool) (x : D)
    (hfl : fl = true → t ≠ none) :
    CellRel { p with rv := t, doubleFlg := fl, rvDouble := x } { c with text := t } :=
  ⟨rfl, h.arr, h.schedNone, h.schedSome, hfl⟩

theorem no_arrow_of_gt {s : Str} (h : '>' ∉ s) : ¬ HasArrow s := fun hi => h (infix_mem hi (by simp))

theorem expand_mem {items : List (Str × Option Nat)} {x : Str} (h : x ∈ expand items) :
    ∃ p ∈ items, x = p.1 := by
  simp only [expand, List.mem_flatMap, List.mem_replicate] at h
  obtain ⟨p, hp, -, rfl⟩ := h
  exact ⟨p, hp, rfl⟩

theorem isIter_sched (v w : Str) (vs : List Str) : (cutArrow (joinArrow (v :: w :: vs))).isSome := by
  rw [Option.isSome_iff_ne_none, ne_eq, cutArrow_none_iff, Classical.not_not]
  rw [joinArrow_cons_cons]
  exact ⟨v, joinArrow (w :: vs), by simp⟩

theorem simAdd (L : Libc D) {db : DB D} {σ : Store D} (h : Rel db σ) (lv : Str) (v : Val) (hv : v.WF) :
    RelRes (addS L db lv v.render) (specAdd σ lv v) := by
  unfold addS specAdd
  simp only [getPar_eq, nameRule_idem, canon_eq]
  cases hl : look (entries db) (nameRule lv) with
  | some p =>
    obtain ⟨c, hc, -⟩ := h.some_ _ _ hl
    simp [hc, RelRes]
  | none =>
    have hσ := h.none_ _ hl
    simp only [hσ]
    have fin : ∀ (p : Par D) (c : Cell D), p.lv = nameRule lv → CellRel p c →
        RelRes (.ok (append db p)) (.ok (σ.put (nameRule lv) c)) := by
      intro p c hp hc
      rw [← hp]
      exact h.append p c (by rw [hp]; exact hl) (by rw [hp, nameRule_idem]) hc
    have sch : ∀ (a b : Str) (r : List Str), (∀ x ∈ a :: b :: r, ¬ HasArrow x) →
        RelRes ((getNValue (joinArrow (a :: b :: r)) 0).bind fun first =>
            if first = [] then .abort
            else .ok (append db
              { lv := nameRule lv, rv := some first, rvIp := some (joinArrow (a :: b :: r)), rvDouble := L.zero, iterative := true }))
          ((freshSched (a :: b :: r)).bind fun c => .ok (σ.put (nameRule lv) c)) := by
      intro a b r hx
      rw [getNValue_join _ _ _ _ hx]
      simp only [nth, Res.bind_ok]
      simp only [Nat.zero_min, List.getD_cons_zero]
      by_cases ha : a = []
      · have e1 : (freshSched (a :: b :: r) : Res (Cell D)) = .abort := if_pos ha
        rw [if_pos ha, e1]; simp [RelRes]
      · have e1 : (freshSched (a :: b :: r) : Res (Cell D)) =
            .ok { text := some a, sched := some (a :: b :: r) } := if_neg ha
        rw [if_neg ha, e1, Res.bind_ok]
        refine fin _ _ rfl ⟨rfl, rfl, by simp, ?_, by simp⟩
        intro _
        exact ⟨a, b, r, rfl, hx, rfl⟩
    cases v with
    | null =>
      simp only [Val.render, fresh, Res.bind_ok]
      exact fin _ _ rfl ⟨rfl, rfl, by simp, by simp, by simp⟩
    | text t =>
      simp only [Val.render, fresh]
      split
      · simp only [Res.bind_ok]; exact fin _ _ rfl ⟨rfl, rfl, by simp, by simp, by simp⟩
      · have h1 : cutArrow t = none := (cutArrow_none_iff t).2 hv.1
        have h2 : findMult t = none := (findMult_none_iff t).2 hv.2
        simp only [isIterText, h1, h2, Option.isSome_none, Bool.or_self, Bool.false_eq_true, if_false, Res.bind_ok]
        exact fin _ _ rfl ⟨rfl, rfl, by simp, by simp, by simp⟩
    | sched a vs =>
      obtain ⟨hne, hx, hm⟩ := hv
      cases vs with
      | nil => exact absurd rfl hne
      | cons b r =>
        have h1 := isIter_sched a b r
        have h2 : findMult (joinArrow (a :: b :: r)) = none := by
          rw [findMult_none_iff, ← arrows_eq]; exact hm
        have hn1 : joinArrow (a :: b :: r) ≠ [] := by rw [joinArrow_cons_cons]; simp
        have hn2 : joinArrow (a :: b :: r) ≠ [' '] := by
          intro e; rw [e] at h1; revert h1; decide
        simp only [Val.render, fresh, arrows_eq, isIterText, h1, h2, Bool.true_or, if_true,
          Option.isSome_none, Bool.false_eq_true, if_false, Res.bind_ok, hn1, hn2, or_self]
        exact sch a b r hx
    | mult items =>
      obtain ⟨⟨q, hq, hqm⟩, hi, hlen⟩ := hv
      have hne : items ≠ [] := by rintro rfl; simp at hq
      have hOK : ItemsOK items := fun p hp => ⟨(hi p hp).2.1, (hi p hp).2.2.1, (hi p hp).2.2.2⟩
      have hpm := parseMult_items items hne hOK (fun p hp => (hi p hp).1)
      have hfm : (findMult (joinArrow (items.map renderItem))).isSome := by
        rw [Option.isSome_iff_ne_none, ne_eq, findMult_none_iff, Classical.not_not]
        obtain ⟨i1, i2, rfl⟩ := List.append_of_mem hq
        obtain ⟨v, mo⟩ := q
        cases mo with
        | none => simp at hqm
        | some m =>
          refine ⟨showNat m, showNat_ne_nil m, showNat_isDigit m, ?_⟩
          rw [List.map_append, List.map_cons, join_append, join_cons_post]
          exact ⟨arrowPre (i1.map renderItem) ++ v, arrowPost (i2.map renderItem), by simp [renderItem]⟩
      have hn1 : joinArrow (items.map renderItem) ≠ [] := by
        intro e; rw [e] at hfm; simp [findMult] at hfm
      have hn2 : joinArrow (items.map renderItem) ≠ [' '] := by
        intro e; rw [e] at hfm; revert hfm; decide
      simp only [Val.render, fresh, arrows_eq, isIterText, hfm, Bool.or_true, if_true,
        hn1, hn2, or_self, if_false, hpm, Res.bind_ok]
      match hex : expand items, hlen with
      | a :: b :: r, _ =>
        refine sch a b r ?_
        intro x hx
        rw [← hex] at hx
        obtain ⟨p, hp, rfl⟩ := expand_mem hx
        exact no_arrow_of_gt (hi p hp).2.1

theorem RelRes.bind {r : Res (DB D)} {s : Res (Store D)} (h : RelRes r s)
    {f : DB D → Res (DB D)} {g : Store D → Res (Store D)} (hfg : ∀ db σ, Rel db σ → RelRes (f db) (g σ)) :
    RelRes (r.bind f) (s.bind g) := by
  cases r <;> cases s <;> simp_all [RelRes]

theorem iterList_look (L : Libc D) (n : Nat) (l : List (Par D))
    (h : ∀ p ∈ l, ∃ c, CellRel p c) :
    ∃ l', iterList L n l = .ok l' ∧ l'.map (·.lv) = l.map (·.lv) ∧
      ∀ m, (look l m = none → look l' m = none) ∧
        ∀ p, look l m = some p → ∃ p', look l' m = some p' ∧
          ∀ c, CellRel p c → CellRel p' (c.advance n) := by
  induction l with
  | nil => exact ⟨[], rfl, rfl, fun m => ⟨fun h => h, by simp [look]⟩⟩
  | cons p l ih =>
    obtain ⟨l', h1, h2, h3⟩ := ih (fun q hq => h q (by simp [hq]))
    obtain ⟨c0, hc0⟩ := h p (by simp)
    have : ∃ p', iterPar L n p = .ok p' ∧ p'.lv = p.lv ∧ ∀ c, CellRel p c → CellRel p' (c.advance n) := by
      unfold iterPar
      split
      · rename_i hit
        obtain ⟨v, w, vs, hs1, hs2, hs3⟩ := hc0.schedSome hit
        simp only [hs3, getNValue_join v w vs n hs2, Res.bind_ok]
        refine ⟨_, rfl, rfl, ?_⟩
        intro c hc
        obtain ⟨v', w', vs', hs1', hs2', hs3'⟩ := hc.schedSome hit
        have hsame : ∀ (a b : Str) (r : List Str) (a' b' : Str) (r' : List Str),
            (∀ x ∈ a :: b :: r, ¬ HasArrow x) → (∀ x ∈ a' :: b' :: r', ¬ HasArrow x) →
            joinArrow (a :: b :: r) = joinArrow (a' :: b' :: r') →
            nth (a :: b :: r) n = nth (a' :: b' :: r') n := by
          intro a b r a' b' r' g1 g2 g3
          have e1 := getNValue_join a b r n g1
          have e2 := getNValue_join a' b' r' n g2
          rw [g3, e2] at e1
          simpa using e1.symm
        rw [hs3] at hs3'
        simp only [Option.some.injEq] at hs3'
        refine ⟨?_, ?_, ?_, ?_, by simp⟩
        · simp only [Cell.advance, hs1']
          rw [hsame _ _ _ _ _ _ hs2' hs2 hs3'.symm]
        · simp only [Cell.advance, hs1']; exact hc.arr
        · intro hf; simp [hit] at hf
        · intro _
          exact ⟨v', w', vs', by simp [Cell.advance, hs1'], hs2', by rw [hs3']⟩
      · rename_i hit
        refine ⟨p, rfl, rfl, ?_⟩
        intro c hc
        have : c.advance n = c := by
          unfold Cell.advance
          rw [hc.schedNone (by simpa using hit)]
        rw [this]; exact hc
    obtain ⟨p', g1, g2, g3⟩ := this
    refine ⟨p' :: l', ?_, by simp [g2, h2], ?_⟩
    · simp [iterList, g1, h1]
    · intro m
      unfold look
      simp only [List.find?_cons, g2]
      by_cases hm : p.lv = m
      · simp only [hm, decide_true]
        refine ⟨by simp, ?_⟩
        intro q hq; simp at hq; subst hq
        exact ⟨p', rfl, g3⟩
      · simp only [hm, decide_false]
        exact h3 m

theorem simStep (L : Libc D) {db : DB D} {σ : Store D} (h : Rel db σ) (k : Call D) (hk : k.WF) :
    RelRes (step L db k.toOp) (specStep L σ k) := by
  cases k with
  | addS lv v => exact simAdd L h lv v hk
  | addD lv x =>
    simp only [Call.toOp, step, addD, specStep, canon_eq, getPar_eq, nameRule_idem]
    cases hl : look (entries db) (nameRule lv) with
    | some p => obtain ⟨c, hc, -⟩ := h.some_ _ _ hl; simp [hc, RelRes]
    | none =>
      simp only [h.none_ _ hl]
      exact h.append _ _ hl (nameRule_idem lv) ⟨rfl, rfl, by simp, by simp, by simp⟩
  | addA lv xs =>
    simp only [Call.toOp, step, addA, specStep, canon_eq, getPar_eq, nameRule_idem]
    cases hl : look (entries db) (nameRule lv) with
    | some p => obtain ⟨c, hc, -⟩ := h.some_ _ _ hl; simp [hc, RelRes]
    | none =>
      simp only [h.none_ _ hl]
      exact h.append _ _ hl (nameRule_idem lv) ⟨rfl, rfl, by simp, by simp, by simp⟩
  | setS lv v =>
    simp only [Call.toOp, step, setS, specStep, canon_eq, getPar_eq, nameRule_idem]
    cases hl : look (entries db) (nameRule lv) with
    | some p =>
      obtain ⟨c, hc, hr⟩ := h.some_ _ _ hl
      simp only [hc]
      exact h.modify _ _ _ (fun _ => rfl) p hl (hr.setText v.render false p.rvDouble (by simp))
    | none =>
      simp only [h.none_ _ hl]
      have := simAdd L h (nameRule lv) v hk
      simpa only [specAdd, canon_eq, nameRule_idem] using this
  | setI lv i =>
    simp only [Call.toOp, step, setI, setS, specStep, canon_eq, getPar_eq, nameRule_idem]
    cases hl : look (entries db) (nameRule lv) with
    | some p =>
      obtain ⟨c, hc, hr⟩ := h.some_ _ _ hl
      simp only [hc]
      exact h.modify _ _ _ (fun _ => rfl) p hl (hr.setText (some (showInt i)) false p.rvDouble (by simp))
    | none =>
      have hσ := h.none_ _ hl
      simp only [hσ]
      have := simAdd L h (nameRule lv) (.text (showInt i)) (showInt_plain i)
      simp only [specAdd, canon_eq, nameRule_idem, hσ, fresh, showInt_ne_nil, showInt_ne_blank,
        or_self, if_false, Res.bind_ok] at this
      exact this
  | setD lv x =>
    simp only [Call.toOp, step, setD, specStep, canon_eq, getPar_eq, nameRule_idem]
    cases hl : look (entries db) (nameRule lv) with
    | some p =>
      obtain ⟨c, hc, hr⟩ := h.some_ _ _ hl
      simp only [hc]
      exact h.modify _ _ _ (fun _ => rfl) p hl (hr.setText (some (L.fmtE x)) true x (by simp))
    | none =>
      simp only [h.none_ _ hl, addD, getPar_eq, nameRule_idem, hl]
      exact h.append _ _ hl (nameRule_idem lv) ⟨rfl, rfl, by simp, by simp, by simp⟩
  | setA lv xs =>
    simp only [Call.toOp, step, setA, specStep, canon_eq, getPar_eq, nameRule_idem]
    cases hl : look (entries db) (nameRule lv) with
    | some p =>
      obtain ⟨c, hc, hr⟩ := h.some_ _ _ hl
      simp only [hc]
      cases hit : p.iterative with
      | true =>
        obtain ⟨v, w, vs, e, -⟩ := hr.schedSome hit
        simp [e, RelRes]
      | false =>
        rw [if_neg (by simp), if_neg (by simp [hr.schedNone hit])]
        exact h.modify _ _ _ (fun _ => rfl) p hl
          ⟨hr.text, rfl, hr.schedNone, hr.schedSome, by simp⟩
    | none =>
      simp only [h.none_ _ hl]
      exact h.append _ _ hl (nameRule_idem lv) ⟨rfl, rfl, by simp, by simp, by simp⟩
  | dflt lv v =>
    simp only [Call.toOp, step, setDefault, specStep, canon_eq, getPar_eq, nameRule_idem]
    cases hl : look (entries db) (nameRule lv) with
    | some p =>
      obtain ⟨c, hc, hr⟩ := h.some_ _ _ hl
      simp only [hc, hr.text]
      cases hrv : p.rv with
      | none =>
        simp only [true_or, if_true]
        exact h.modify _ _ _ (fun _ => rfl) p hl (hr.setText v.render p.doubleFlg p.rvDouble (fun _ => hk.2))
      | some t =>
        cases t with
        | nil =>
          simp only [or_true, if_true]
          exact h.modify _ _ _ (fun _ => rfl) p hl (hr.setText v.render p.doubleFlg p.rvDouble (fun _ => hk.2))
        | cons a t => simp [RelRes, h]
    | none =>
      simp only [h.none_ _ hl]
      have := simAdd L h (nameRule lv) v hk.1
      simpa only [specAdd, canon_eq, nameRule_idem] using this
  | free lv =>
    simp only [Call.toOp, step, specStep, canon_eq, RelRes]
    cases db with
    | none =>
      refine ⟨h.alloc, h.nodup, h.ruled, ?_, by simp [freePar, entries, look]⟩
      intro n _; simp only; split
      · rfl
      · exact h.none_ n (by simp [entries, look])
    | some l =>
      have e : entries (freePar (some l) lv) = freeFirst (nameRule lv) l := rfl
      have hn : (l.map (·.lv)).Nodup := h.nodup
      refine ⟨h.alloc, nodup_freeFirst _ _ hn, ?_, ?_, ?_⟩
      · intro p hp; rw [e, mem_freeFirst _ _ hn] at hp; exact h.ruled p hp.1
      · intro n; rw [e, look_freeFirst _ _ hn]; simp only
        split
        · simp
        · exact h.none_ n
      · intro n p; rw [e, look_freeFirst _ _ hn]; simp only
        split
        · simp
        · exact h.some_ n p
  | freeAll => exact Rel.init
  | readD lv fl =>
    simp only [Call.toOp, step, getD, specStep, canon_eq]
    cases db with
    | none =>
      have : σ.cell (nameRule lv) = none := h.none_ _ (by simp [entries, look])
      have ha : σ.alloc = false := h.alloc
      simp [this, ha, RelRes, h]
    | some l =>
      have ha : σ.alloc = true := h.alloc
      cases hl : look l (nameRule lv) with
      | none =>
        have := h.none_ _ hl
        unfold look at hl
        simp only [hl, this, ha, true_and]
        split <;> simp [RelRes, h]
      | some p =>
        obtain ⟨c, hc, hr⟩ := h.some_ _ _ hl
        have hl' := hl
        unfold look at hl'
        simp only [hl', hc, hr.text]
        cases hd : p.doubleFlg with
        | true =>
          have := hr.flg hd
          simp [this, RelRes, h]
        | false =>
          cases hrv : p.rv with
          | none => simp [RelRes]
          | some t =>
            simp only [Bool.false_eq_true, if_false, Res.bind_ok, reduceCtorEq, RelRes]
            have := h.modify (nameRule lv) (fun q => { q with doubleFlg := true, rvDouble := L.strtod t })
              c (fun _ => rfl) p hl ⟨hr.text, hr.arr, hr.schedNone, hr.schedSome, by simp [hrv]⟩
            have hσ : σ.put (nameRule lv) c = σ := by
              cases σ
              simp only [Store.put]
              simp only at ha hc
              subst ha
              congr 1
              funext m
              split
              · rename_i e; rw [e, hc]
              · rfl
            rw [hσ] at this
            exact this
  | iterate n =>
    simp only [Call.toOp, step, iterate, specStep]
    cases db with
    | none =>
      refine ⟨h.alloc, h.nodup, h.ruled, ?_, by simp [entries, look]⟩
      intro m hm; simp [h.none_ m hm]
    | some l =>
      obtain ⟨l', h1, h2, h3⟩ := iterList_look L n l (by
        intro p hp
        have := (look_eq_some_iff l h.nodup p.lv p).2 ⟨hp, rfl⟩
        obtain ⟨c, -, hc⟩ := h.some_ _ _ this
        exact ⟨c, hc⟩)
      simp only [h1, Res.bind_ok, RelRes]
      refine ⟨h.alloc, ?_, ?_, ?_, ?_⟩
      · show (l'.map _).Nodup
        rw [h2]; exact h.nodup
      · intro p hp
        have : p.lv ∈ l.map (·.lv) := by rw [← h2]; exact List.mem_map.mpr ⟨p, hp, rfl⟩
        obtain ⟨q, hq, e⟩ := List.mem_map.mp this
        rw [← e]; exact h.ruled q hq
      · intro m hm
        have hm' : look l' m = none := hm
        cases hl : look l m with
        | none => simp [h.none_ m hl]
        | some p =>
          obtain ⟨p', hp', -⟩ := (h3 m).2 p hl
          rw [hm'] at hp'; simp at hp'
      · intro m p' hm
        have hm' : look l' m = some p' := hm
        cases hl : look l m with
        | none => have := (h3 m).1 hl; rw [hm'] at this; simp at this
        | some p =>
          obtain ⟨p2, hp2, hadv⟩ := (h3 m).2 p hl
          rw [hm'] at hp2; simp at hp2; subst hp2
          obtain ⟨c, hc, hr⟩ := h.some_ _ _ hl
          exact ⟨c.advance n, by simp [hc], hadv c hr⟩

theorem simRun (L : Libc D) (ks : List (Call D)) (hk : ∀ k ∈ ks, k.WF) {db : DB D} {σ : Store D}
    (h : Rel db σ) : RelRes (run L db (ks.map Call.toOp)) (specRun L σ ks) := by
  induction ks generalizing db σ with
  | nil => exact h
  | cons k ks ih =>
    simp only [List.map_cons, run, specRun]
    exact (simStep L h k (hk k (by simp))).bind fun db' σ' h' => ih (fun k hk' => hk k (by simp [hk'])) h'

end Elliptica.ParamLemmas
