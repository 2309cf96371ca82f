import Verif.Lemmas.ParamDB
/-! Helper lemmas: invariants of the parameter data base for arbitrary (also ill-formed) calls. -/
namespace Elliptica.ParamLemmas
open Elliptica Params ParamSpec
variable {D : Type}

/-- shape of the result of a call -/
inductive Effect (db : DB D) : DB D → Prop where
  | same : Effect db db
  | app (p : Par D) : look (entries db) p.lv = none → nameRule p.lv = p.lv → Effect db (append db p)
  | mod (lv : Str) (f : Par D → Par D) : (∀ p, (f p).lv = p.lv) → Effect db (modifyPar db lv f)
  | free (lv : Str) : Effect db (freePar db lv)
  | all : Effect db none
  | iter (l l' : List (Par D)) : db = some l → l'.map (·.lv) = l.map (·.lv) → Effect db (some l')

theorem Res.bind_eq_ok {α β} {r : Res α} {f : α → Res β} {b : β} (h : r.bind f = .ok b) :
    ∃ a, r = .ok a ∧ f a = .ok b := by
  cases r with
  | ok a => exact ⟨a, rfl, h⟩
  | abort => simp at h
  | ub => simp at h

theorem addS_effect (L : Libc D) (db db' : DB D) (lv : Str) (rv : Option Str)
    (h : addS L db lv rv = .ok db') :
    ∃ p : Par D, db' = append db p ∧ p.lv = nameRule lv ∧ look (entries db) (nameRule lv) = none ∧
      p.doubleFlg = false := by
  unfold addS at h
  simp only [getPar_eq, nameRule_idem] at h
  split at h
  · simp at h
  · rename_i hl
    split at h
    · simp at h; exact ⟨_, h.symm, rfl, hl, rfl⟩
    · split at h
      · simp at h; exact ⟨_, h.symm, rfl, hl, rfl⟩
      · split at h
        · obtain ⟨ip, -, h⟩ := Res.bind_eq_ok h
          obtain ⟨first, -, h⟩ := Res.bind_eq_ok h
          split at h
          · simp at h
          · simp at h; exact ⟨_, h.symm, rfl, hl, rfl⟩
        · simp at h; exact ⟨_, h.symm, rfl, hl, rfl⟩

theorem iterPar_lv (L : Libc D) (n : Nat) (p q : Par D) (h : iterPar L n p = .ok q) : q.lv = p.lv := by
  unfold iterPar at h
  split at h
  · split at h
    · simp at h
    · obtain ⟨v, -, h⟩ := Res.bind_eq_ok h
      simp at h; rw [← h]
  · simp at h; rw [h]

theorem iterList_names (L : Libc D) (n : Nat) (l l' : List (Par D)) (h : iterList L n l = .ok l') :
    l'.map (·.lv) = l.map (·.lv) := by
  induction l generalizing l' with
  | nil => simp [iterList] at h; simp [h]
  | cons p l ih =>
    simp only [iterList] at h
    obtain ⟨q, hq, h⟩ := Res.bind_eq_ok h
    obtain ⟨qs, hqs, h⟩ := Res.bind_eq_ok h
    simp at h
    rw [← h]
    simp [iterPar_lv L n p q hq, ih qs hqs]

theorem step_effect (L : Libc D) (db db' : DB D) (o : Op D) (h : step L db o = .ok db') :
    Effect db db' := by
  have add : ∀ lv rv, addS L db lv rv = .ok db' → Effect db db' := by
    intro lv rv h
    obtain ⟨p, rfl, hp, hl, -⟩ := addS_effect L db db' lv rv h
    exact .app p (by rw [hp]; exact hl) (by rw [hp, nameRule_idem])
  cases o with
  | addS lv rv => exact add lv rv h
  | addD lv x =>
    simp only [step, addD, getPar_eq, nameRule_idem] at h
    split at h
    · simp at h
    · rename_i hl; simp at h; subst h; exact .app _ hl (nameRule_idem lv)
  | addA lv xs =>
    simp only [step, addA, getPar_eq, nameRule_idem] at h
    split at h
    · simp at h
    · rename_i hl; simp at h; subst h; exact .app _ hl (nameRule_idem lv)
  | setS lv rv =>
    simp only [step, setS] at h
    split at h
    · simp at h; subst h; exact .mod _ _ (fun _ => rfl)
    · exact add _ _ h
  | setI lv i =>
    simp only [step, setI, setS] at h
    split at h
    · simp at h; subst h; exact .mod _ _ (fun _ => rfl)
    · exact add _ _ h
  | setD lv x =>
    simp only [step, setD, addD, getPar_eq, nameRule_idem] at h
    split at h
    · simp at h; subst h; exact .mod _ _ (fun _ => rfl)
    · rename_i hl
      simp at h; subst h; exact .app _ hl (nameRule_idem lv)
  | setA lv xs =>
    simp only [step, setA, getPar_eq, nameRule_idem] at h
    split at h
    · split at h
      · simp at h
      · simp at h; subst h; exact .mod _ _ (fun _ => rfl)
    · rename_i hl; simp at h; subst h; exact .app _ hl (nameRule_idem lv)
  | dflt lv rv =>
    simp only [step, setDefault] at h
    split at h
    · exact add _ _ h
    · split at h
      · simp at h; subst h; exact .mod _ _ (fun _ => rfl)
      · simp at h; subst h; exact .mod _ _ (fun _ => rfl)
      · simp at h; subst h; exact .same
  | free lv => simp [step] at h; subst h; exact .free lv
  | freeAll => simp [step, freeAll] at h; subst h; exact .all
  | readD lv fl =>
    simp only [step, getD] at h
    obtain ⟨⟨rx, rdb⟩, h, h2⟩ := Res.bind_eq_ok h
    simp at h2; subst h2
    split at h
    · simp at h; obtain ⟨-, rfl⟩ := h; exact .same
    · split at h
      · split at h
        · simp at h; obtain ⟨-, rfl⟩ := h; exact .same
        · split at h
          · simp at h
          · simp at h; obtain ⟨-, rfl⟩ := h
            exact Effect.mod (db := some _) (nameRule lv) (fun q => { q with doubleFlg := true, rvDouble := L.strtod _ }) (fun _ => rfl)
      · split at h
        · simp at h
        · simp at h; obtain ⟨-, rfl⟩ := h; exact .same
  | iterate n =>
    simp only [step, iterate] at h
    split at h
    · simp at h; subst h; exact .same
    · rename_i l
      obtain ⟨l', h1, h2⟩ := Res.bind_eq_ok h
      simp at h2; subst h2
      exact .iter l l' rfl (iterList_names L n l l' h1)

/-- unique, canonical names -/
def Uniq (db : DB D) : Prop :=
  ((entries db).map (·.lv)).Nodup ∧ ∀ p ∈ entries db, nameRule p.lv = p.lv

theorem Effect.uniq {db db' : DB D} (h : Effect db db') (hu : Uniq db) : Uniq db' := by
  cases h with
  | same => exact hu
  | app p hn hr =>
    have e : entries (Params.append db p) = entries db ++ [p] := rfl
    constructor
    · rw [e, List.map_append, List.nodup_append]
      refine ⟨hu.1, by simp, ?_⟩
      intro a ha b hb
      simp at hb; subst hb
      rw [look_none_iff] at hn
      exact fun e => hn (e ▸ ha)
    · intro q hq; rw [e] at hq
      rcases List.mem_append.mp hq with hq | hq
      · exact hu.2 q hq
      · simp at hq; rw [hq]; exact hr
  | mod lv f hf =>
    have e : entries (modifyPar db lv f) = modifyFirst lv f (entries db) := by
      cases db <;> rfl
    constructor
    · rw [e, names_modify _ _ _ hf]; exact hu.1
    · intro q hq
      have : q.lv ∈ (entries db).map (·.lv) := by
        rw [← names_modify (entries db) lv f hf, ← e]; exact List.mem_map.mpr ⟨q, hq, rfl⟩
      obtain ⟨r, hr, e2⟩ := List.mem_map.mp this
      rw [← e2]; exact hu.2 r hr
  | free lv =>
    cases db with
    | none => exact hu
    | some l =>
      refine ⟨nodup_freeFirst _ _ hu.1, ?_⟩
      intro p hp
      exact hu.2 p ((mem_freeFirst _ _ hu.1 p).1 hp).1
  | all => exact ⟨by simp [entries], by simp [entries]⟩
  | iter l l' e hn =>
    subst e
    constructor
    · show (l'.map _).Nodup
      rw [hn]; exact hu.1
    · intro p hp
      have : p.lv ∈ l.map (·.lv) := by rw [← hn]; exact List.mem_map.mpr ⟨p, hp, rfl⟩
      obtain ⟨q, hq, e⟩ := List.mem_map.mp this
      rw [← e]; exact hu.2 q hq

theorem run_induct (L : Libc D) (P : DB D → Prop) (hs : ∀ db o db', P db → step L db o = .ok db' → P db')
    (ops : List (Op D)) (db db' : DB D) (h : P db) (hr : run L db ops = .ok db') : P db' := by
  induction ops generalizing db with
  | nil => simp [run] at hr; exact hr ▸ h
  | cons o os ih =>
    simp only [run] at hr
    obtain ⟨d, h1, h2⟩ := Res.bind_eq_ok hr
    exact ih d (hs db o d h h1) h2

/-! ### cache coherence -/

/-- a set double flag means that the cached number is the number the text denotes -/
def Coh (L : Libc D) (db : DB D) : Prop :=
  ∀ p ∈ entries db, p.doubleFlg = true → ∃ t, p.rv = some t ∧ p.rvDouble = L.strtod t

theorem coh_append (L : Libc D) (db : DB D) (p : Par D) (h : Coh L db)
    (hp : p.doubleFlg = true → ∃ t, p.rv = some t ∧ p.rvDouble = L.strtod t) : Coh L (append db p) := by
  intro q hq
  rcases List.mem_append.mp hq with hq | hq
  · exact h q hq
  · simp at hq; subst hq; exact hp

theorem mem_modify {l : List (Par D)} {lv : Str} {f : Par D → Par D} {q : Par D}
    (h : q ∈ modifyFirst lv f l) : q ∈ l ∨ ∃ p, look l lv = some p ∧ q = f p := by
  induction l with
  | nil => simp [modifyFirst] at h
  | cons a l ih =>
    by_cases ha : a.lv = lv
    · simp only [modifyFirst, ha, if_true, List.mem_cons] at h
      rcases h with h | h
      · right; exact ⟨a, by simp [look, ha], h⟩
      · left; simp [h]
    · simp only [modifyFirst, ha, if_false, List.mem_cons] at h
      rcases h with h | h
      · left; simp [h]
      · rcases ih h with h | ⟨p, h1, h2⟩
        · left; simp [h]
        · right; refine ⟨p, ?_, h2⟩; unfold look at *; rw [List.find?_cons]; simp [ha, h1]

theorem coh_modify (L : Libc D) (db : DB D) (lv : Str) (f : Par D → Par D) (h : Coh L db)
    (hf : ∀ p, look (entries db) lv = some p → (f p).doubleFlg = true →
      ∃ t, (f p).rv = some t ∧ (f p).rvDouble = L.strtod t) : Coh L (modifyPar db lv f) := by
  intro q hq
  have e : entries (modifyPar db lv f) = modifyFirst lv f (entries db) := by
    cases db <;> rfl
  rw [e] at hq
  rcases mem_modify hq with hq | ⟨p, hp, rfl⟩
  · exact h q hq
  · exact hf p hp

theorem iterPar_coh (L : Libc D) (n : Nat) (p q : Par D) (h : iterPar L n p = .ok q)
    (hp : p.doubleFlg = true → ∃ t, p.rv = some t ∧ p.rvDouble = L.strtod t) :
    q.doubleFlg = true → ∃ t, q.rv = some t ∧ q.rvDouble = L.strtod t := by
  unfold iterPar at h
  split at h
  · split at h
    · simp at h
    · obtain ⟨v, -, h⟩ := Res.bind_eq_ok h
      simp at h; subst h
      intro hd
      simp only at hd
      exact ⟨v, rfl, by simp [hd]⟩
  · simp at h; rw [← h]; exact hp

theorem iterList_mem (L : Libc D) (n : Nat) (l l' : List (Par D)) (h : iterList L n l = .ok l')
    (q : Par D) (hq : q ∈ l') : ∃ p ∈ l, iterPar L n p = .ok q := by
  induction l generalizing l' with
  | nil => simp [iterList] at h; rw [h] at hq; simp at hq
  | cons p l ih =>
    simp only [iterList] at h
    obtain ⟨r, hr, h⟩ := Res.bind_eq_ok h
    obtain ⟨qs, hqs, h⟩ := Res.bind_eq_ok h
    simp at h
    rw [← h] at hq
    rcases List.mem_cons.mp hq with e | e
    · exact ⟨p, by simp, by rw [e]; exact hr⟩
    · obtain ⟨p', h1, h2⟩ := ih qs hqs e
      exact ⟨p', by simp [h1], h2⟩

theorem step_coh (L : Libc D) (hL : ∀ x, L.strtod (L.fmtE x) = x) (db db' : DB D) (o : Op D)
    (hu : Uniq db) (hc : Coh L db)
    (hd : ∀ lv rv, o = .dflt lv rv → getS db lv .ez ≠ .ok (some []))
    (h : step L db o = .ok db') : Coh L db' := by
  have add : ∀ lv rv, addS L db lv rv = .ok db' → Coh L db' := by
    intro lv rv h
    obtain ⟨p, rfl, hp, hl, hf⟩ := addS_effect L db db' lv rv h
    exact coh_append L db p hc (by simp [hf])
  cases o with
  | addS lv rv => exact add lv rv h
  | addD lv x =>
    simp only [step, addD] at h
    split at h
    · simp at h
    · simp at h; subst h; exact coh_append L db _ hc (fun _ => ⟨_, rfl, (hL x).symm⟩)
  | addA lv xs =>
    simp only [step, addA] at h
    split at h
    · simp at h
    · simp at h; subst h; exact coh_append L db _ hc (by simp)
  | setS lv rv =>
    simp only [step, setS] at h
    split at h
    · simp at h; subst h; exact coh_modify L db _ _ hc (by simp)
    · exact add _ _ h
  | setI lv i =>
    simp only [step, setI, setS] at h
    split at h
    · simp at h; subst h; exact coh_modify L db _ _ hc (by simp)
    · exact add _ _ h
  | setD lv x =>
    simp only [step, setD, addD, getPar_eq, nameRule_idem] at h
    split at h
    · simp at h; subst h; exact coh_modify L db _ _ hc (fun _ _ _ => ⟨_, rfl, (hL x).symm⟩)
    · rename_i hl
      simp at h; subst h; exact coh_append L db _ hc (fun _ => ⟨_, rfl, (hL x).symm⟩)
  | setA lv xs =>
    simp only [step, setA] at h
    split at h
    · split at h
      · simp at h
      · simp at h; subst h; exact coh_modify L db _ _ hc (by simp)
    · simp at h; subst h; exact coh_append L db _ hc (by simp)
  | dflt lv rv =>
    have hd := hd lv rv rfl
    simp only [step, setDefault, getPar_eq, nameRule_idem] at h
    split at h
    · exact add _ _ h
    · rename_i p hl
      have hs : getS db lv .ez = .ok p.rv := by
        cases db with
        | none => simp [entries, look] at hl
        | some l => unfold getS; unfold look entries at hl; simp at hl; simp [hl]
      have hnone : p.rv = none → ∀ q, look (entries db) (nameRule lv) = some q → q.doubleFlg = false := by
        intro hr q hq
        rw [hl] at hq; simp at hq; subst hq
        cases hb : p.doubleFlg with
        | false => rfl
        | true =>
          obtain ⟨t, ht, -⟩ := hc p (look_some_mem hl).1 hb
          rw [hr] at ht; simp at ht
      split at h
      · rename_i hr
        simp at h; subst h
        exact coh_modify L db _ _ hc (fun q hq hb => by simp [hnone hr q hq] at hb)
      · rename_i hr; rw [hs, hr] at hd; exact absurd rfl hd
      · simp at h; exact h ▸ hc
  | free lv =>
    simp [step] at h; subst h
    cases db with
    | none => exact hc
    | some l =>
      intro p hp
      exact hc p ((mem_freeFirst _ _ hu.1 p).1 hp).1
  | freeAll => simp [step, freeAll] at h; subst h; intro p hp; simp [entries] at hp
  | readD lv fl =>
    simp only [step, getD] at h
    obtain ⟨⟨rx, rdb⟩, h, h2⟩ := Res.bind_eq_ok h
    simp at h2; subst h2
    split at h
    · simp at h; obtain ⟨-, rfl⟩ := h; exact hc
    · split at h
      · rename_i p hl
        split at h
        · simp at h; obtain ⟨-, rfl⟩ := h; exact hc
        · split at h
          · simp at h
          · rename_i t ht
            simp at h; obtain ⟨-, rfl⟩ := h
            refine coh_modify L (some _) (nameRule lv) (fun q => { q with doubleFlg := true, rvDouble := L.strtod t }) hc ?_
            intro q hq _
            have : q = p := by
              unfold look entries at hq; simp at hq; simp [hl] at hq; exact hq.symm
            subst this
            exact ⟨t, ht, rfl⟩
      · split at h
        · simp at h
        · simp at h; obtain ⟨-, rfl⟩ := h; exact hc
  | iterate n =>
    simp only [step, iterate] at h
    split at h
    · simp at h; subst h; exact hc
    · rename_i l
      obtain ⟨l', h1, h2⟩ := Res.bind_eq_ok h
      simp at h2; subst h2
      intro q hq
      obtain ⟨p, hp, e⟩ := iterList_mem L n l l' h1 q hq
      exact iterPar_coh L n p q e (hc p hp)

theorem maxCount_spec (l : List (Par D)) (vals : Par D → List Str) (m : Nat)
    (h : ∀ p ∈ l, p.iterative = true → ∃ v w vs, vals p = v :: w :: vs ∧
      (∀ x ∈ v :: w :: vs, ¬ HasArrow x) ∧ (v :: w :: vs).getLast (by simp) ≠ [] ∧
      p.rvIp = some (joinArrow (v :: w :: vs))) :
    ∃ r, maxCount m l = .ok r ∧ m ≤ r ∧
      (∀ p ∈ l, p.iterative = true → (vals p).length ≤ r + 1) ∧
      (r = m ∨ ∃ p ∈ l, p.iterative = true ∧ (vals p).length = r + 1) := by
  induction l generalizing m with
  | nil => exact ⟨m, rfl, Nat.le_refl _, by simp, .inl rfl⟩
  | cons p l ih =>
    cases hit : p.iterative with
    | false =>
      obtain ⟨r, h1, h2, h3, h4⟩ := ih m (fun q hq => h q (by simp [hq]))
      refine ⟨r, ?_, h2, ?_, ?_⟩
      · simp [maxCount, hit, h1]
      · intro q hq hqi
        rcases List.mem_cons.mp hq with e | e
        · subst e; simp [hit] at hqi
        · exact h3 q e hqi
      · rcases h4 with h4 | ⟨q, hq, h4⟩
        · exact .inl h4
        · exact .inr ⟨q, by simp [hq], h4⟩
    | true =>
      obtain ⟨v, w, vs, e1, e2, e3, e4⟩ := h p (by simp) hit
      have hcnt := countIp_join v w vs e2 e3
      have hlen : (v :: w :: vs).length - 1 = vs.length + 1 := by simp
      rw [hlen] at hcnt
      obtain ⟨r, h1, h2, h3, h4⟩ := ih (if m < vs.length + 1 then vs.length + 1 else m)
        (fun q hq => h q (by simp [hq]))
      have hlp : (vals p).length = vs.length + 2 := by rw [e1]; simp
      refine ⟨r, ?_, by split at h2 <;> omega, ?_, ?_⟩
      · simp only [maxCount, hit, if_true, e4, hcnt, Res.bind_ok]
        exact h1
      · intro q hq hqi
        rcases List.mem_cons.mp hq with e | e
        · subst e; rw [hlp]; split at h2 <;> omega
        · exact h3 q e hqi
      · rcases h4 with h4 | ⟨q, hq, h4⟩
        · split at h4
          · right; exact ⟨p, by simp, hit, by rw [hlp]; omega⟩
          · exact .inl h4
        · exact .inr ⟨q, by simp [hq], h4⟩

end Elliptica.ParamLemmas
