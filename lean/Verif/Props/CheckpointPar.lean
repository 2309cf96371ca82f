import Verif.Props.Checkpoint
import Mathlib.Data.List.Dedup
import Mathlib.Data.List.Perm.Subperm
/-!
Property C27: parameters the user overrides when restarting from a checkpoint.
-/
namespace Elliptica.Ckpt
open Elliptica Elliptica.Params Elliptica.Text Elliptica.ParamLemmas Elliptica.ParamSpec

variable {D : Type}

/-- the mark of an override (checkpoint_lib.h:9) -/
def modifyMark : Str := "modify:".toList

/-- every parameter whose name contains the mark begins with it (in any letter case) -/
def MarksFirst (db : DB D) : Prop :=
  ∀ p ∈ entries db, strstrI (some p.lv) (some modifyMark) = true → modifyMark <+: p.lv.map Char.toLower

/-! ### names -/

theorem lower_eq (c : Char) : lower c = c.toLower := by
  apply Chars.char_ext_nat
  rw [Props.TextSearch.lower_toNat, Chars.toLower_nat]

theorem map_lower (s : Str) : s.map lower = s.map Char.toLower := by
  have : lower = Char.toLower := funext lower_eq
  rw [this]

theorem strcmpI_iff (a b : Str) (ha : nameRule a = a) (hb : nameRule b = b) : strcmpI (some a) (some b) = true ↔ a = b := by
  simp only [strcmpI, decide_eq_true_eq, map_lower]
  constructor
  · intro h
    rw [← ha, ← hb]; exact (nameRule_eq_iff a b).2 h
  · rintro rfl; rfl

theorem nameRule_mark (t : Str) :
    nameRule (modifyMark ++ t) = (if '_' ∈ t then "MODIFY:".toList else modifyMark) ++ nameRule t := by
  have hm : '_' ∉ modifyMark := by decide
  by_cases h : '_' ∈ t
  · rw [if_pos h]
    obtain ⟨a, b, rfl, ha⟩ := split_us t h
    rw [← List.append_assoc, nameRule_split _ _ (by rw [List.mem_append]; tauto), nameRule_split _ _ ha, List.map_append]
    have : modifyMark.map Char.toUpper = "MODIFY:".toList := by decide
    rw [this, List.append_assoc]
  · rw [if_neg h, nameRule_none _ (by rw [List.mem_append]; tauto), nameRule_none _ h, List.map_append]
    have : modifyMark.map Char.toLower = modifyMark := by decide
    rw [this]

theorem afterChr_mark (t : Str) : afterChr ':' (nameRule (modifyMark ++ t)) = some (nameRule t) := by
  rw [nameRule_mark]
  split <;> rfl

/-- an override's name is the mark followed by a canonical name -/
theorem marked (lv : Str) (hc : nameRule lv = lv) (hp : modifyMark <+: lv.map Char.toLower) :
    ∃ t, nameRule t = t ∧ lv = nameRule (modifyMark ++ t) := by
  obtain ⟨r, hr⟩ := hp
  refine ⟨nameRule r, nameRule_idem r, ?_⟩
  rw [← hc, nameRule_eq_iff]
  unfold sameName
  rw [← hr, List.map_append, lower_nameRule]
  have hrr : r.map Char.toLower = r := by
    have h2 : (lv.map Char.toLower).map Char.toLower = lv.map Char.toLower := by
      simp [Function.comp_def, Chars.toLower_toLower]
    rw [← hr, List.map_append] at h2
    have : modifyMark.map Char.toLower = modifyMark := by decide
    rw [this] at h2
    exact List.append_cancel_left h2
  have : modifyMark.map Char.toLower = modifyMark := by decide
  rw [this, hrr]

theorem marked_inj (s t : Str) (h : nameRule (modifyMark ++ s) = nameRule (modifyMark ++ t)) : nameRule s = nameRule t := by
  have h1 := afterChr_mark s
  rw [h, afterChr_mark t] at h1
  exact (Option.some.inj h1).symm

theorem mark_occurs (t : Str) : strstrI (some (nameRule (modifyMark ++ t))) (some modifyMark) = true := by
  simp only [strstrI, map_lower, lower_nameRule, List.map_append]
  exact occurs_prefix _ _

/-- the overrides, looked up by the name they override -/
theorem look_overrides (db : DB D) (hu : Uniq db) (hm : MarksFirst db) (n : Str) (hn : nameRule n = n) :
    look (overrides db) n = (getPar db (modifyMark ++ n)).map fun m => { m with lv := n } := by
  rw [getPar_eq]
  obtain ⟨hnd, hcan⟩ := hu
  unfold overrides
  unfold MarksFirst at hm
  generalize entries db = l at *
  clear hnd
  induction l with
  | nil => rfl
  | cons p l ih =>
    have ih' := ih (fun q hq => hm q (by simp [hq])) (fun q hq => hcan q (by simp [hq]))
    have hp := hcan p (by simp)
    rw [List.filter_cons]
    by_cases ho : strstrI (some p.lv) (some "modify:".toList) = true
    · rw [if_pos ho, List.map_cons]
      obtain ⟨t, ht, hlv⟩ := marked p.lv hp (hm p (by simp) ho)
      have ha : (afterChr ':' p.lv).getD [] = t := by rw [hlv, afterChr_mark, ht]; rfl
      rw [ha]
      unfold look at ih' ⊢
      by_cases hnt : t = n
      · subst hnt
        rw [List.find?_cons_of_pos (by simp), List.find?_cons_of_pos (by simp [hlv])]
        rfl
      · have h2 : p.lv ≠ nameRule (modifyMark ++ n) := fun e => hnt (by
          have := marked_inj t n (hlv ▸ e)
          rw [ht, hn] at this; exact this)
        rw [List.find?_cons_of_neg (by simp [hnt]), List.find?_cons_of_neg (by simp [h2])]
        exact ih'
    · rw [if_neg ho]
      have h2 : p.lv ≠ nameRule (modifyMark ++ n) := fun e => ho (by rw [e]; exact mark_occurs n)
      unfold look at ih' ⊢
      rw [List.find?_cons_of_neg (by simp [h2])]
      exact ih'

theorem overrides_uniq (db : DB D) (hu : Uniq db) (hm : MarksFirst db) :
    ((overrides db).map (·.lv)).Nodup ∧ ∀ p ∈ overrides db, nameRule p.lv = p.lv := by
  obtain ⟨hnd, hcan⟩ := hu
  have key : ∀ p ∈ entries db, strstrI (some p.lv) (some "modify:".toList) = true →
      ∃ t, nameRule t = t ∧ p.lv = nameRule (modifyMark ++ t) ∧ (afterChr ':' p.lv).getD [] = t := by
    intro p hp ho
    obtain ⟨t, ht, hlv⟩ := marked p.lv (hcan p hp) (hm p hp ho)
    exact ⟨t, ht, hlv, by rw [hlv, afterChr_mark, ht]; rfl⟩
  unfold overrides
  constructor
  · rw [List.map_map]
    refine List.Nodup.map_on ?_ ((List.Nodup.of_map _ hnd).filter _)
    intro p hp q hq he
    obtain ⟨hp1, hp2⟩ := List.mem_filter.1 hp
    obtain ⟨hq1, hq2⟩ := List.mem_filter.1 hq
    obtain ⟨t, -, e1, e2⟩ := key p hp1 hp2
    obtain ⟨s, -, e3, e4⟩ := key q hq1 hq2
    have e : t = s := by
      have : (afterChr ':' p.lv).getD [] = (afterChr ':' q.lv).getD [] := he
      rw [e2, e4] at this; exact this
    exact List.inj_on_of_nodup_map hnd hp1 hq1 (by rw [e1, e3, e])
  · intro p hp
    obtain ⟨q, hq, rfl⟩ := List.mem_map.1 hp
    obtain ⟨hq1, hq2⟩ := List.mem_filter.1 hq
    obtain ⟨t, ht, -, e2⟩ := key q hq1 hq2
    show nameRule ((afterChr ':' q.lv).getD []) = _
    rw [e2]; exact ht

/-! ### existing parameters -/

theorem look_cons (p : Par D) (l : List (Par D)) (n : Str) : look (p :: l) n = if p.lv = n then some p else look l n := by
  unfold look
  by_cases h : p.lv = n
  · rw [List.find?_cons_of_pos (by simp [h]), if_pos h]
  · rw [List.find?_cons_of_neg (by simp [h]), if_neg h]

/-- the entry after the override -/
def overridden (zero : D) (p m : Par D) : Par D :=
  { p with rv := m.rv, rvDouble := zero, doubleFlg := false, rvIp := m.rvIp, iterative := m.iterative }

theorem override_spec (zero : D) (p : Par D) (hp : nameRule p.lv = p.lv) (ms : List (Par D)) (hms : ∀ m ∈ ms, nameRule m.lv = m.lv)
    (o : Option (Par D × List (Par D))) (h : override zero p ms = .ok o) :
    (look ms p.lv = none ∧ o = none) ∨ ∃ m ms', look ms p.lv = some m ∧ p.rvArray = none ∧ o = some (overridden zero p m, ms') ∧
      ms'.map (·.lv) = ms.map (·.lv) ∧ ∀ n, n ≠ p.lv → look ms' n = look ms n := by
  induction ms generalizing o with
  | nil => simp only [override, Res.ok.injEq] at h; exact .inl ⟨rfl, h.symm⟩
  | cons m ms ih =>
    have hm := strcmpI_iff p.lv m.lv hp (hms m (by simp))
    unfold override at h
    by_cases he : p.lv = m.lv
    · rw [if_pos (hm.2 he)] at h
      split at h
      · cases h
      · rename_i ha
        simp only [Res.ok.injEq] at h
        refine .inr ⟨m, _, by rw [look_cons, if_pos he.symm], by simpa using ha, h.symm, rfl, fun n hn => ?_⟩
        rw [look_cons, look_cons]
        simp only
        rw [if_neg (fun e => hn (e.symm.trans he.symm)), if_neg (fun e => hn (e.symm.trans he.symm))]
    · rw [if_neg (fun e => he (hm.1 e))] at h
      obtain ⟨o', ho', h⟩ := Res.bind_eq_ok h
      simp only [Res.ok.injEq] at h
      rcases ih (fun q hq => hms q (by simp [hq])) o' ho' with ⟨h1, rfl⟩ | ⟨m', ms', h1, h2, rfl, h4, h5⟩
      · exact .inl ⟨by rw [look_cons, if_neg (Ne.symm he), h1], h.symm⟩
      · refine .inr ⟨m', m :: ms', by rw [look_cons, if_neg (Ne.symm he), h1], h2, h.symm, by simp [h4], fun n hn => ?_⟩
        rw [look_cons, look_cons, h5 n hn]

theorem names_nodup_full {K N : List Str} (hK : K.Nodup) (hs : K ⊆ N) (hl : N.length ≤ K.length) : N ⊆ K :=
  ((hK.subperm hs).perm_of_length_le hl).symm.subset

theorem overrideAll_spec (zero : D) (ps ms : List (Par D)) (found : Nat) (qs ms' : List (Par D))
    (hps : (ps.map (·.lv)).Nodup) (hpc : ∀ p ∈ ps, nameRule p.lv = p.lv) (hms : (ms.map (·.lv)).Nodup)
    (hmc : ∀ m ∈ ms, nameRule m.lv = m.lv) (K : List Str) (hK : K.Nodup) (hKm : K ⊆ ms.map (·.lv)) (hKl : K.length = found)
    (hKp : ∀ n ∈ K, n ∉ ps.map (·.lv)) (h : overrideAll zero found ps ms = .ok (qs, ms')) :
    ms'.map (·.lv) = ms.map (·.lv) ∧ (∀ n, n ∉ ps.map (·.lv) → look ms' n = look ms n ∧ look qs n = none) ∧
    (∀ n, look ms n = none → look qs n = look ps n) ∧
    ∀ n m p, look ms n = some m → look ps n = some p → p.rvArray = none ∧ look qs n = some (overridden zero p m) := by
  induction ps generalizing found ms K qs ms' with
  | nil =>
    simp only [overrideAll, Res.ok.injEq, Prod.mk.injEq] at h
    obtain ⟨rfl, rfl⟩ := h
    exact ⟨rfl, fun n _ => ⟨rfl, rfl⟩, fun n _ => rfl, fun n m p _ hp => by cases hp⟩
  | cons p ps ih =>
    rw [List.map_cons, List.nodup_cons] at hps
    unfold overrideAll at h
    split at h
    · obtain ⟨o, ho, h⟩ := Res.bind_eq_ok h
      rcases override_spec zero p (hpc p (by simp)) ms hmc o ho with ⟨h1, rfl⟩ | ⟨m, ms1, h1, h2, rfl, h4, h5⟩
      · obtain ⟨⟨qs1, ms1⟩, hq, h⟩ := Res.bind_eq_ok h
        simp only [Res.ok.injEq, Prod.mk.injEq] at h
        obtain ⟨rfl, rfl⟩ := h
        obtain ⟨g1, g2, g3, g4⟩ := ih ms found qs1 ms1 hps.2 (fun q hq => hpc q (by simp [hq])) hms hmc K hK hKm hKl
          (fun n hn hm => hKp n hn (by simp at hm ⊢; tauto)) hq
        refine ⟨g1, fun n hn => ?_, fun n hn => ?_, fun n m q hm hq => ?_⟩
        · simp only [List.map_cons, List.mem_cons, not_or] at hn
          exact ⟨(g2 n hn.2).1, by rw [look_cons, if_neg (Ne.symm hn.1)]; exact (g2 n hn.2).2⟩
        · rw [look_cons, look_cons, g3 n hn]
        · rw [look_cons] at hq ⊢
          by_cases e : p.lv = n
          · subst e; rw [h1] at hm; cases hm
          · rw [if_neg e] at hq ⊢
            exact g4 n m q hm hq
      · obtain ⟨⟨qs1, ms2⟩, hq, h⟩ := Res.bind_eq_ok h
        simp only [Res.ok.injEq, Prod.mk.injEq] at h
        obtain ⟨rfl, rfl⟩ := h
        have hmc1 : ∀ m ∈ ms1, nameRule m.lv = m.lv := by
          intro q hq
          have : q.lv ∈ ms.map (·.lv) := by rw [← h4]; exact List.mem_map_of_mem hq
          obtain ⟨r, hr, e⟩ := List.mem_map.1 this
          rw [← e]; exact hmc r hr
        have hpK : p.lv ∉ K := fun hk => hKp _ hk (by simp)
        obtain ⟨hmem, hmlv⟩ := look_some_mem h1
        obtain ⟨g1, g2, g3, g4⟩ := ih ms1 (found + 1) qs1 ms2 hps.2 (fun q hq => hpc q (by simp [hq])) (by rw [h4]; exact hms) hmc1
          (p.lv :: K) (List.nodup_cons.2 ⟨hpK, hK⟩)
          (by rw [h4]; intro x hx
              rcases List.mem_cons.1 hx with rfl | hx
              · rw [← hmlv]; exact List.mem_map_of_mem hmem
              · exact hKm hx)
          (by simp [hKl])
          (fun n hn hm => by
            rcases List.mem_cons.1 hn with rfl | hn
            · exact hps.1 hm
            · exact hKp n hn (by simp at hm ⊢; tauto)) hq
        have hov : (overridden zero p m).lv = p.lv := rfl
        refine ⟨by rw [g1, h4], fun n hn => ?_, fun n hn => ?_, fun n m' q hm hq => ?_⟩
        · simp only [List.map_cons, List.mem_cons, not_or] at hn
          refine ⟨by rw [(g2 n hn.2).1, h5 n hn.1], ?_⟩
          rw [look_cons, hov, if_neg (Ne.symm hn.1)]; exact (g2 n hn.2).2
        · have hne : n ≠ p.lv := fun e => by subst e; rw [hn] at h1; cases h1
          rw [look_cons, look_cons, hov, if_neg (Ne.symm hne), if_neg (Ne.symm hne)]
          exact g3 n (by rw [h5 n hne]; exact hn)
        · rw [look_cons] at hq ⊢
          rw [hov]
          by_cases e : p.lv = n
          · subst e
            rw [h1] at hm
            rw [if_pos rfl] at hq ⊢
            cases hm; cases hq
            exact ⟨h2, rfl⟩
          · rw [if_neg e] at hq ⊢
            exact g4 n m' q (by rw [h5 n (Ne.symm e)]; exact hm) hq
    · rename_i hf
      simp only [Res.ok.injEq, Prod.mk.injEq] at h
      obtain ⟨rfl, rfl⟩ := h
      have hsub : ms.map (·.lv) ⊆ K := names_nodup_full hK hKm (by rw [List.length_map]; omega)
      refine ⟨rfl, fun n hn => ⟨rfl, (look_none_iff _ _).2 hn⟩, fun n _ => rfl, fun n m q hm hq => ?_⟩
      exfalso
      obtain ⟨hmem, rfl⟩ := look_some_mem hm
      obtain ⟨hqm, hqe⟩ := look_some_mem hq
      exact hKp m.lv (hsub (List.mem_map_of_mem hmem)) (hqe ▸ List.mem_map_of_mem hqm)

/-! ### new parameters -/

/-- a text that is one value, not an iteration list -/
def PlainText : Option Str → Prop
  | none => True
  | some t => t ≠ [] ∧ t ≠ [' '] ∧ ¬ HasArrow t ∧ ¬ HasMult t

theorem addS_plain (L : Libc D) (db db' : DB D) (lv : Str) (rv : Option Str) (hl : nameRule lv = lv) (hp : PlainText rv)
    (h : addS L db lv rv = .ok db') : db' = append db ⟨lv, rv, none, L.zero, none, false, false⟩ := by
  unfold addS at h
  simp only [hl] at h
  split at h
  · cases h
  · cases rv with
    | none => simpa using h.symm
    | some t =>
      obtain ⟨p1, p2, p3, p4⟩ := hp
      have hi : isIterText t = false := by
        simp [isIterText, (cutArrow_none_iff t).2 p3, (findMult_none_iff t).2 p4]
      simp only [p1, p2, or_self, if_false, hi, Bool.false_eq_true, Res.ok.injEq] at h
      exact h.symm

theorem addNew_spec (L : Libc D) (ms : List (Par D)) (hms : (ms.map (·.lv)).Nodup) (hmc : ∀ m ∈ ms, nameRule m.lv = m.lv)
    (db db' : DB D) (h : addNew L ms db = .ok db') (n : Str) :
    (∀ p, look (entries db) n = some p → look (entries db') n = some p) ∧
    (look ms n = none → look (entries db') n = look (entries db) n) ∧
    ∀ m, look (entries db) n = none → look ms n = some m → PlainText m.rv →
      look (entries db') n = some ⟨n, m.rv, none, L.zero, none, false, false⟩ := by
  induction ms generalizing db with
  | nil =>
    simp only [addNew, Res.ok.injEq] at h
    subst h
    exact ⟨fun p hp => hp, fun _ => rfl, fun m _ hm => by cases hm⟩
  | cons m ms ih =>
    rw [List.map_cons, List.nodup_cons] at hms
    have hm := hmc m (by simp)
    have ih' := fun d hd => ih hms.2 (fun q hq => hmc q (by simp [hq])) d hd
    unfold addNew at h
    rw [getPar_eq, hm] at h
    cases hl : look (entries db) m.lv with
    | some q =>
      rw [hl] at h
      obtain ⟨g1, g2, g3⟩ := ih' db h
      refine ⟨g1, fun hn => ?_, fun m' h1 h2 hp => ?_⟩
      · rw [look_cons] at hn
        split at hn
        · cases hn
        · exact g2 hn
      · rw [look_cons] at h2
        split at h2
        · rename_i e; subst e; rw [hl] at h1; cases h1
        · exact g3 m' h1 h2 hp
    | none =>
      rw [hl] at h
      obtain ⟨db1, h1, h⟩ := Res.bind_eq_ok h
      obtain ⟨g1, g2, g3⟩ := ih' db1 h
      obtain ⟨p, e1, e2, e3, -⟩ := addS_effect L db db1 m.lv m.rv h1
      have hlook : ∀ k, look (entries db1) k = if k = m.lv then some p else look (entries db) k := by
        intro k
        rw [e1]
        show look (entries db ++ [p]) k = _
        rw [look_append _ _ _ (by rw [e2]; exact e3), e2, hm]
      refine ⟨fun q hq => g1 q ?_, fun hn => ?_, fun m' h1' h2 hp => ?_⟩
      · rw [hlook, if_neg]
        · exact hq
        · rintro rfl; rw [hl] at hq; cases hq
      · rw [look_cons] at hn
        split at hn
        · cases hn
        · rename_i hne
          rw [g2 hn, hlook, if_neg (Ne.symm hne)]
      · rw [look_cons] at h2
        split at h2
        · rename_i e
          subst e
          cases h2
          refine g1 _ ?_
          have := addS_plain L db db1 m.lv m.rv hm hp h1
          rw [this]
          show look (entries db ++ [_]) m.lv = _
          rw [look_append (entries db) ⟨m.lv, m.rv, none, L.zero, none, false, false⟩ _ hl]; simp
        · rename_i hne
          exact g3 m' (by rw [hlook, if_neg (Ne.symm hne)]; exact h1') h2 hp

theorem uniq_of_run (L : Libc D) (ops : List (Op D)) (db : DB D) (h : run L none ops = .ok db) : Uniq db :=
  run_induct L Uniq (fun _ _ _ hu hs => (step_effect L _ _ _ hs).uniq hu) ops none _ ⟨by simp [entries], by simp [entries]⟩ h

/-- **C27.** The program is restarted with a parameter file that makes the data base `cur`, from a checkpoint of the data base
`ps`; `n` is any name but that of the iteration count, which the program computes itself.  A parameter that is not overridden
is what it was in the checkpoint.  One that is overridden and was in the checkpoint is not an array, and has the text, the
schedule and the iterative mark of the override (and no number computed from the old text).  One that is new has the text of
the override.  Missing for the full property: a new parameter given an iteration list, see `C27_new_list_violation`. -/
theorem C27_override_partial (L : Libc D) (opsC opsK : List (Op D)) (cur : DB D) (ps : List (Par D)) (hc : run L none opsC = .ok cur)
    (hk : run L none opsK = .ok (some ps)) (hm : MarksFirst cur) (db : DB D)
    (h : incorporate L (overrides cur) (some ps) = .ok db) (n : Str) (hn : ¬ sameName n totalName) :
    (getPar cur (modifyMark ++ n) = none → getPar db n = getPar (some ps) n) ∧
    (∀ m p, getPar cur (modifyMark ++ n) = some m → getPar (some ps) n = some p →
      p.rvArray = none ∧ getPar db n = some ⟨nameRule n, m.rv, m.rvIp, L.zero, none, m.iterative, false⟩) ∧
    (∀ m, getPar cur (modifyMark ++ n) = some m → getPar (some ps) n = none → PlainText m.rv →
      getPar db n = some ⟨nameRule n, m.rv, none, L.zero, none, false, false⟩) := by
  have hu := uniq_of_run L opsK _ hk
  have huc := uniq_of_run L opsC _ hc
  have hne : nameRule n ≠ nameRule totalName := fun e => hn ((nameRule_eq_iff _ _).1 e)
  have hlo := look_overrides cur huc hm (nameRule n) (nameRule_idem n)
  have hsame : getPar cur (modifyMark ++ nameRule n) = getPar cur (modifyMark ++ n) := by
    rw [getPar_eq, getPar_eq]
    congr 1
    rw [nameRule_eq_iff]
    unfold sameName
    rw [List.map_append, List.map_append, lower_nameRule]
  rw [hsame] at hlo
  obtain ⟨hmn, hmc⟩ := overrides_uniq cur huc hm
  unfold incorporate at h
  simp only [freePar, Option.map_some] at h
  obtain ⟨⟨qs, ms⟩, h1, h⟩ := Res.bind_eq_ok h
  obtain ⟨db2, h2, h⟩ := Res.bind_eq_ok h
  obtain ⟨⟨i, db3⟩, h3, h⟩ := Res.bind_eq_ok h
  simp only [Res.ok.injEq] at h
  subst h
  have hnd : (ps.map (·.lv)).Nodup := hu.1
  have hcan : ∀ p ∈ ps, nameRule p.lv = p.lv := hu.2
  have h1' : overrideAll L.zero 0 (freeFirst (nameRule totalName) ps) (overrides cur) = .ok (qs, ms) := h1
  obtain ⟨g1, g2, g3, g4⟩ := overrideAll_spec L.zero _ _ 0 qs ms (nodup_freeFirst _ _ hnd)
    (fun p hp => hcan p ((mem_freeFirst _ _ hnd p).1 hp).1) hmn hmc [] (by simp) (by simp) rfl (by simp) h1'
  have hfree : look (freeFirst (nameRule totalName) ps) (nameRule n) = look ps (nameRule n) := by
    rw [look_freeFirst _ _ hnd, if_neg hne]
  have hmc' : ∀ m ∈ ms, nameRule m.lv = m.lv := by
    intro q hq
    have : q.lv ∈ (overrides cur).map (·.lv) := by rw [← g1]; exact List.mem_map_of_mem hq
    obtain ⟨r, hr, e⟩ := List.mem_map.1 this
    rw [← e]; exact hmc r hr
  obtain ⟨a1, a2, a3⟩ := addNew_spec L ms (by rw [g1]; exact hmn) hmc' (some qs) db2 h2 (nameRule n)
  have hend : getPar db3 n = look (entries db2) (nameRule n) := by rw [getPar_eq, look_total L _ _ i h3 _ hne]
  have hps : getPar (some ps) n = look ps (nameRule n) := rfl
  refine ⟨fun ho => ?_, fun m p ho hp => ?_, fun m ho hp ht => ?_⟩
  · rw [ho] at hlo
    have hlo' : look (overrides cur) (nameRule n) = none := hlo
    have hms : look ms (nameRule n) = none := by
      rw [look_none_iff, g1, ← look_none_iff]; exact hlo'
    rw [hend, hps, a2 hms]
    show look qs _ = _
    rw [g3 _ hlo', hfree]
  · rw [ho] at hlo
    have hlo' : look (overrides cur) (nameRule n) = some { m with lv := nameRule n } := hlo
    have hp' : look (freeFirst (nameRule totalName) ps) (nameRule n) = some p := by rw [hfree]; exact hp
    obtain ⟨b1, b2⟩ := g4 _ _ p hlo' hp'
    refine ⟨b1, ?_⟩
    rw [hend, a1 _ b2]
    have hplv : p.lv = nameRule n := (look_some_mem hp').2
    unfold overridden
    rw [hplv, b1]
  · rw [ho] at hlo
    have hlo' : look (overrides cur) (nameRule n) = some { m with lv := nameRule n } := hlo
    have hp' : nameRule n ∉ (freeFirst (nameRule totalName) ps).map (·.lv) := by
      rw [← look_none_iff, hfree]; exact hp
    obtain ⟨c1, c2⟩ := g2 _ hp'
    rw [hend]
    exact a3 { m with lv := nameRule n } c2 (by rw [c1]; exact hlo') ht

/-- An override of an array parameter stops the program. -/
theorem C27_array (L : Libc D) (opsC opsK : List (Op D)) (cur : DB D) (ps : List (Par D)) (hc : run L none opsC = .ok cur)
    (hk : run L none opsK = .ok (some ps)) (hm : MarksFirst cur) (n : Str) (hn : ¬ sameName n totalName) (m p : Par D)
    (h1 : getPar cur (modifyMark ++ n) = some m) (h2 : getPar (some ps) n = some p) (h3 : p.rvArray.isSome = true) (db : DB D) :
    incorporate L (overrides cur) (some ps) ≠ .ok db := by
  intro h
  have := ((C27_override_partial L opsC opsK cur ps hc hk hm db h n hn).2.1 m p h1 h2).1
  rw [this] at h3; cases h3

/-! ### a concrete case, and a violation -/

/-- numbers for the examples -/
def ckLibc : Libc Int := ⟨atoi, showInt, 999, 0⟩

/-- a parameter file with two overrides, one of them new, and another parameter -/
def exCur : Res (DB Int) := run ckLibc none [.addS "modify:n_A".toList (some "7->8".toList), .addS "MODIFY:new".toList (some "x".toList), .addS "c".toList (some "1".toList)]

/-- a checkpoint with three parameters -/
def exPs : Res (DB Int) := run ckLibc none [.addS "n_a".toList (some "3".toList), .addS "b".toList (some "4".toList), .addA "arr".toList [1, 2]]

example : (exCur.bind fun cur => exPs.bind fun db => match db with
    | none => .abort
    | some ps => (incorporate ckLibc (overrides cur) (some ps)).bind fun db =>
      .ok ((getPar db "N_A".toList).map (fun p => (p.rv, p.rvIp, p.iterative)), (getPar db "new".toList).map (·.rv), (getPar db "b".toList).map (·.rv),
        (getPar db "c".toList).isSome)) =
    .ok (some (some "7".toList, some "7->8".toList, true), some (some "x".toList), some (some "4".toList), false) := rfl

example : ∃ cur, exCur = .ok cur ∧ MarksFirst cur := by
  refine ⟨_, rfl, ?_⟩
  unfold MarksFirst
  decide +kernel

/-- Violation: a new parameter given as an iteration list keeps only the first value; in a parameter file the same text is a
list of two values. -/
theorem C27_new_list_violation :
    ∃ cur db, run ckLibc none [.addS "modify:a".toList (some "1->2".toList)] = .ok cur ∧
      incorporate ckLibc (overrides cur) (some []) = .ok db ∧
      (getPar db "a".toList).map (fun p => (p.rv, p.rvIp, p.iterative)) = some (some "1".toList, none, false) ∧
      ∃ db', run ckLibc none [.addS "a".toList (some "1->2".toList)] = .ok db' ∧
        (getPar db' "a".toList).map (fun p => (p.rv, p.rvIp, p.iterative)) = some (some "1".toList, some "1->2".toList, true) :=
  ⟨_, _, rfl, rfl, by decide +kernel, _, rfl, by decide +kernel⟩

end Elliptica.Ckpt
