import Verif.Model.Grid
import Verif.Props.Params
/-!
Property C19.
-/
namespace Elliptica.Grid
open Params ParamSpec ParamLemmas

/-! ### the array of grids -/

/-- every reachable state: pointers are distinct and older than the next fresh one -/
theorem reach_inv (ops : List Op) : let s := run init ops
    (s.live.map (·.ptr)).Nodup ∧ ∀ g ∈ s.live, g.ptr < s.fresh := by
  have key : ∀ (ops : List Op) (s : State), (s.live.map (·.ptr)).Nodup → (∀ g ∈ s.live, g.ptr < s.fresh) →
      ((run s ops).live.map (·.ptr)).Nodup ∧ ∀ g ∈ (run s ops).live, g.ptr < (run s ops).fresh := by
    intro ops
    induction ops with
    | nil => intro s h1 h2; exact ⟨h1, h2⟩
    | cons o ops ih =>
      intro s h1 h2
      refine ih (step s o) ?_ ?_
      · cases o with
        | alloc =>
          simp only [step, alloc, List.map_append, List.map_cons, List.map_nil]
          rw [List.nodup_append]
          refine ⟨h1, by simp, ?_⟩
          intro a ha b hb
          obtain ⟨g, hg, rfl⟩ := List.mem_map.1 ha
          simp only [List.mem_singleton] at hb
          have := h2 g hg; omega
        | free p =>
          simp only [step, free]
          split
          · exact h1
          · rename_i i hi
            split
            · exact h1
            · rename_i last hl
              rw [List.findIdx?_eq_some_iff_getElem] at hi
              have hp := (Swap.swapLast_perm s.live i last hi.1 hl).map (·.ptr)
              rw [hp.nodup_iff]
              exact ((List.eraseIdx_sublist _ _).map _).nodup h1
      · cases o with
        | alloc =>
          intro g hg
          simp only [step, alloc] at hg ⊢
          rcases List.mem_append.1 hg with h | h
          · have := h2 g h; omega
          · simp only [List.mem_singleton] at h; subst h; simp
        | free p =>
          intro g hg
          simp only [step, free] at hg ⊢
          split at hg
          · exact h2 g hg
          · rename_i i hi
            split at hg
            · exact h2 g hg
            · rename_i last hl
              rw [List.findIdx?_eq_some_iff_getElem] at hi
              exact h2 g ((List.eraseIdx_subset) ((Swap.swapLast_perm s.live i last hi.1 hl).mem_iff.1 hg))
  exact key ops init (by simp [init]) (by simp [init])

/-- C19: in every reachable state, freeing a grid removes that grid and no other, and does not renumber any grid. -/
theorem C19_free_exact (ops : List Op) (p : Nat) :
    (free (run init ops) p).live.Perm ((run init ops).live.filter (fun g => g.ptr ≠ p)) := by
  obtain ⟨hn, -⟩ := reach_inv ops
  generalize run init ops = s at hn
  unfold free
  split
  · rename_i h
    rw [List.findIdx?_eq_none_iff] at h
    rw [List.filter_eq_self.2]
    intro g hg; have := h g hg; simpa using this
  · rename_i i hi
    rw [List.findIdx?_eq_some_iff_getElem] at hi
    obtain ⟨hlt, hp, -⟩ := hi
    simp only [decide_eq_true_eq] at hp
    split
    · rename_i h; rw [List.getLast?_eq_none_iff] at h; rw [h] at hlt; simp at hlt
    · rename_i last hl
      refine (Swap.swapLast_perm s.live i last hlt hl).trans ?_
      refine List.Perm.of_eq ?_
      have : ∀ (l : List G) (i : Nat) (h : i < l.length), (l.map (·.ptr)).Nodup → l[i].ptr = p →
          l.eraseIdx i = l.filter (fun g => g.ptr ≠ p) := by
        intro l
        induction l with
        | nil => intro i h; simp at h
        | cons a l ih =>
          intro i h hnd he
          rw [List.map_cons, List.nodup_cons] at hnd
          cases i with
          | zero =>
            simp only [List.getElem_cons_zero] at he
            rw [List.eraseIdx_zero, List.tail_cons, List.filter_cons_of_neg (by simp [he])]
            symm; rw [List.filter_eq_self]
            intro g hg; simp only [ne_eq, decide_not, Bool.not_eq_eq_eq_not, Bool.not_true, decide_eq_false_iff_not]
            intro e; exact hnd.1 (by rw [he, ← e]; exact List.mem_map.2 ⟨g, hg, rfl⟩)
          | succ i =>
            simp only [List.getElem_cons_succ] at he
            rw [List.eraseIdx_cons_succ, List.filter_cons_of_pos, ih i (by simpa using h) hnd.2 he]
            simp only [ne_eq, decide_not, Bool.not_eq_eq_eq_not, Bool.not_true, decide_eq_false_iff_not]
            intro e; apply hnd.1; rw [e, ← he]; exact List.mem_map.2 ⟨_, List.getElem_mem _, rfl⟩
      exact this s.live i hlt hn hp

/-- a history in which a grid other than the youngest is freed only while at most two grids are live (this is how the
program uses grids: the new grid is made, then the previous one is freed) -/
def Tame : State → List Op → Prop
  | _, [] => True
  | s, .alloc :: ops => Tame (alloc s) ops
  | s, .free p :: ops => (s.live.length ≤ 2 ∨ s.live.getLast?.map (·.ptr) = some p) ∧ Tame (free s p) ops

/-- C19, uniqueness of the numbers, for tame histories; missing for the full property: see the violation. -/
theorem C19_unique_partial (ops : List Op) (h : Tame init ops) : ((run init ops).live.map (·.gn)).Nodup := by
  have key : ∀ (ops : List Op) (s : State), (s.live.map (·.ptr)).Nodup → (∀ g ∈ s.live, g.ptr < s.fresh) →
      (s.live.map (·.gn)).Pairwise (· < ·) → Tame s ops → ((run s ops).live.map (·.gn)).Pairwise (· < ·) := by
    intro ops
    induction ops with
    | nil => intro s _ _ h1 _; exact h1
    | cons o ops ih =>
      intro s hp1 hp2 h1 ht
      cases o with
      | alloc =>
        refine ih (alloc s) ?_ ?_ ?_ ht
        · simp only [alloc, List.map_append, List.map_cons, List.map_nil]
          rw [List.nodup_append]
          refine ⟨hp1, by simp, ?_⟩
          intro a ha b hb
          obtain ⟨g, hg, rfl⟩ := List.mem_map.1 ha
          simp only [List.mem_singleton] at hb
          have := hp2 g hg; omega
        · intro g hg
          simp only [alloc] at hg ⊢
          rcases List.mem_append.1 hg with h | h
          · have := hp2 g h; omega
          · simp only [List.mem_singleton] at h; subst h; simp
        · simp only [alloc, List.map_append, List.map_cons, List.map_nil]
          rw [List.pairwise_append]
          refine ⟨h1, by simp, ?_⟩
          intro a ha b hb
          simp only [List.mem_singleton] at hb
          subst hb
          obtain ⟨g, hg, rfl⟩ := List.mem_map.1 ha
          cases hl : s.live.getLast? with
          | none => rw [List.getLast?_eq_none_iff] at hl; rw [hl] at hg; simp at hg
          | some last =>
            obtain ⟨ini, e⟩ := List.getLast?_eq_some_iff.1 hl
            rw [e] at hg h1
            simp only [List.map_append, List.map_cons, List.map_nil] at h1
            rw [List.pairwise_append] at h1
            rcases List.mem_append.1 hg with h | h
            · have := h1.2.2 g.gn (List.mem_map.2 ⟨g, h, rfl⟩) last.gn (by simp)
              simp only; omega
            · simp only [List.mem_singleton] at h; subst h; simp
      | free p =>
        obtain ⟨hc, ht⟩ := ht
        -- the remaining list is a sublist
        have hsub : (free s p).live.Sublist s.live ∧ (free s p).fresh = s.fresh := by
          unfold free
          split
          · exact ⟨List.Sublist.refl _, rfl⟩
          · rename_i i hi
            rw [List.findIdx?_eq_some_iff_getElem] at hi
            obtain ⟨hlt, hpi, -⟩ := hi
            simp only [decide_eq_true_eq] at hpi
            split
            · exact ⟨List.Sublist.refl _, rfl⟩
            · rename_i last hl
              refine ⟨?_, rfl⟩
              obtain ⟨ini, e⟩ := List.getLast?_eq_some_iff.1 hl
              simp only
              rcases hc with hc | hc
              · clear hpi
                rw [e] at hc hlt ⊢
                match ini, hc with
                | [], _ => simp at hlt; subst hlt; simp
                | [a], _ =>
                  match i, hlt with
                  | 0, _ => simp
                  | 1, _ => simp
                | a :: b :: l, hc => simp at hc
              · rw [hl] at hc
                simp only [Option.map_some, Option.some.injEq] at hc
                have hil : i = s.live.length - 1 := by
                  have h2 := hp1
                  rw [List.nodup_iff_pairwise_ne, List.pairwise_iff_getElem] at h2
                  have hlast : s.live[s.live.length - 1]'(by omega) = last := by
                    simp only [e, List.length_append, List.length_cons, List.length_nil, Nat.zero_add, Nat.add_sub_cancel]
                    simp
                  rcases Nat.lt_or_ge i (s.live.length - 1) with h3 | h3
                  · have := h2 i (s.live.length - 1) (by simpa using hlt) (by simp; omega) h3
                    simp only [List.getElem_map] at this
                    rw [hlast, hc] at this
                    exact absurd hpi this
                  · omega
                have : i = ini.length := by rw [hil, e]; simp
                rw [e, this, List.set_append_right _ _ (Nat.le_refl _)]
                simp
        refine ih (free s p) ?_ ?_ ?_ ht
        · exact (hsub.1.map _).nodup hp1
        · intro g hg; rw [hsub.2]; exact hp2 g (hsub.1.subset hg)
        · exact List.Pairwise.sublist (hsub.1.map _) h1
  have := key ops init (by simp [init]) (by simp [init]) (by simp [init]) h
  exact this.imp (fun h => Nat.ne_of_lt h)

example : Tame init [.alloc, .alloc, .free 0, .alloc, .free 1, .free 2, .alloc] ∧
    (run init [.alloc, .alloc, .free 0, .alloc, .free 1, .free 2, .alloc]).live = [⟨3, 0⟩] := by
  refine ⟨?_, by decide⟩
  simp only [Tame]
  decide

/-- Violation: with three live grids, freeing the oldest and allocating a new one gives two live grids with the same
number. -/
theorem C19_duplicate_violation :
    ((run init [.alloc, .alloc, .alloc, .free 0, .alloc]).live.map (·.gn)) = [2, 1, 2] := by decide

/-! ### the parameters of a grid -/

theorem contains_iff (p s : Str) : contains p s = true ↔ p <:+: s := by
  induction s with
  | nil => simp [contains, List.isEmpty_iff]
  | cons c s ih => rw [contains, Bool.or_eq_true, ih, List.isPrefixOf_iff_prefix, List.infix_cons_iff]

variable {D : Type}

theorem paramLoop_spec (pre : Str) : ∀ fuel i (db : DB D), Uniq db → fuel + i = (entries db).length →
    (∀ j p, j < i → (entries db)[j]? = some p → contains pre p.lv = false) →
    (entries (paramLoop pre fuel i db)).Perm ((entries db).filter (fun p => !contains pre p.lv)) := by
  intro fuel
  induction fuel with
  | zero =>
    intro i db _ hi hlow
    simp only [paramLoop]
    rw [List.filter_eq_self.2]
    intro p hp
    obtain ⟨j, hj, rfl⟩ := List.mem_iff_getElem.1 hp
    simp [hlow j _ (by omega) (List.getElem?_eq_getElem hj)]
  | succ fuel ih =>
    intro i db hu hi hlow
    have hlt : i < (entries db).length := by omega
    simp only [paramLoop, List.getElem?_eq_getElem hlt]
    by_cases hc : contains pre (entries db)[i].lv = true
    · rw [if_pos hc]
      obtain ⟨l, rfl⟩ : ∃ l, db = some l := by
        cases db with
        | none => simp [entries] at hlt
        | some l => exact ⟨l, rfl⟩
      have hlt : i < l.length := hlt
      obtain ⟨q, hq⟩ : ∃ q, q = l[i] := ⟨_, rfl⟩
      have hc : contains pre l[i].lv = true := hc
      show List.Perm (entries (paramLoop pre fuel i (freePar (some l) l[i].lv))) _
      rw [← hq] at hc ⊢
      have hmem : q ∈ l := by rw [hq]; exact List.getElem_mem _
      have hrule : nameRule q.lv = q.lv := hu.2 q hmem
      have hnd : (l.map (·.lv)).Nodup := hu.1
      have hidx : l.findIdx? (fun p => p.lv = q.lv) = some i := by
        rw [List.findIdx?_eq_some_iff_getElem]
        refine ⟨hlt, by simp [hq], ?_⟩
        intro j hj
        simp only [decide_eq_true_eq]
        rw [List.nodup_iff_pairwise_ne, List.pairwise_iff_getElem] at hnd
        have := hnd j i (by simp; omega) (by simpa using hlt) hj
        rw [hq]; simpa using this
      obtain ⟨last, hl⟩ : ∃ last, l.getLast? = some last := by
        cases h : l.getLast? with
        | none => rw [List.getLast?_eq_none_iff] at h; subst h; simp at hlt
        | some last => exact ⟨last, rfl⟩
      have hfree : freePar (some l) q.lv = some ((l.set i last).dropLast) := by
        simp only [freePar, Option.map_some, hrule, freeFirst, hidx, hl]
      have hperm := Swap.swapLast_perm l i last hlt hl
      have hu' : Uniq (freePar (some l) q.lv) := by
        rw [hfree]
        refine ⟨?_, ?_⟩
        · show (((l.set i last).dropLast).map (·.lv)).Nodup
          rw [(hperm.map _).nodup_iff]
          exact ((List.eraseIdx_sublist _ _).map _).nodup hnd
        · intro p hp
          exact hu.2 p (List.eraseIdx_subset (hperm.mem_iff.1 hp))
      have hlen : ((l.set i last).dropLast).length = l.length - 1 := by simp
      refine (ih i (freePar (some l) q.lv) hu' ?_ ?_).trans ?_
      · rw [hfree]; show fuel + i = ((l.set i last).dropLast).length
        rw [hlen]; have : fuel + 1 + i = l.length := hi; omega
      · rw [hfree]
        intro j p hj hp
        have hp : ((l.set i last).dropLast)[j]? = some p := hp
        refine hlow j p hj ?_
        have hj2 : j < ((l.set i last).dropLast).length := by
          rw [hlen]; omega
        rw [List.getElem?_eq_getElem hj2, List.getElem_dropLast, List.getElem_set_ne (by omega)] at hp
        show l[j]? = some p
        rw [List.getElem?_eq_getElem (by omega)]
        exact hp
      · rw [hfree]
        show List.Perm (((l.set i last).dropLast).filter _) (l.filter _)
        refine (hperm.filter _).trans (List.Perm.of_eq ?_)
        have : ∀ (l : List (Par D)) (i : Nat) (h : i < l.length), contains pre l[i].lv = true →
            (l.eraseIdx i).filter (fun p => !contains pre p.lv) = l.filter (fun p => !contains pre p.lv) := by
          intro l
          induction l with
          | nil => intro i h; simp at h
          | cons a l ih =>
            intro i h he
            cases i with
            | zero => simp only [List.getElem_cons_zero] at he; simp [he]
            | succ i =>
              simp only [List.getElem_cons_succ] at he
              rw [List.eraseIdx_cons_succ, List.filter_cons, List.filter_cons, ih i (by simpa using h) he]
        exact this l i hlt (by rw [← hq]; exact hc)
    · rw [if_neg hc]
      refine ih (i + 1) db hu (by omega) ?_
      intro j p hj hp
      rcases Nat.lt_or_eq_of_le (Nat.lt_succ_iff.1 hj) with h | h
      · exact hlow j p h hp
      · subst h
        rw [List.getElem?_eq_getElem hlt] at hp
        injection hp with hp; subst hp; simpa using hc

theorem prefixOf_eq (gn : Nat) : prefixOf gn = 'G' :: 'R' :: 'I' :: 'D' :: showNat gn ++ ['_'] := by
  unfold prefixOf
  have hd := showNat_isDigit gn
  have hnot : '_' ∉ "grid".toList ++ showNat gn := by
    rw [List.mem_append]
    rintro (h | h)
    · exact absurd h (by decide)
    · have := hd _ h; exact absurd this (by decide)
  rw [nameRule_split _ [] hnot]
  have e : (showNat gn).map Char.toUpper = showNat gn := by
    refine (List.map_congr_left (g := id) ?_).trans (List.map_id _)
    intro c hc
    have := hd c hc
    apply Chars.char_ext_nat
    rw [Chars.toUpper_nat]
    rw [if_neg]
    · rfl
    intro h
    simp only [Char.isDigit, Bool.and_eq_true, decide_eq_true_eq] at this
    have h2 : c.toNat ≤ 57 := this.2
    omega
  rw [List.map_append, e]
  have e2 : ("grid".toList).map Char.toUpper = ['G', 'R', 'I', 'D'] := by decide
  rw [e2]; simp

/-- C19, parameters: after any history of parameter calls, freeing the parameters of grid `gn` removes exactly the
parameters whose (canonical) name contains GRID<gn>_ ; all others are unchanged. -/
theorem C19_params_exact (L : Libc D) (ops : List (Params.Op D)) (db : DB D) (h : Params.run L none ops = .ok db) (gn : Nat) :
    (entries (freeParams db gn)).Perm
      ((entries db).filter (fun p => ! decide (("GRID".toList ++ showNat gn ++ ['_']) <:+: p.lv))) := by
  have hu : Uniq db := run_induct L Uniq (fun _ _ _ hu hs => (step_effect L _ _ _ hs).uniq hu) ops none db
    ⟨by simp [entries], by simp [entries]⟩ h
  have := paramLoop_spec (prefixOf gn) (entries db).length 0 db hu (by simp) (by intro j p hj; omega)
  unfold freeParams
  refine this.trans (List.Perm.of_eq ?_)
  apply List.filter_congr
  intro p _
  congr 1
  rw [Bool.eq_iff_iff, contains_iff, decide_eq_true_eq, prefixOf_eq]
  simp

/-- ... in particular the parameters of the other grids stay and its own go: the canonical name of `grid<m>_<rest>`
contains GRID<gn>_ iff m = gn. -/
theorem C19_params_own (m gn : Nat) (rest : Str) :
    (("GRID".toList ++ showNat gn ++ ['_']) <:+: nameRule ("grid".toList ++ showNat m ++ '_' :: rest)) ↔ m = gn := by
  have hG : ∀ n, 'G' ∉ showNat n := fun n hm => absurd (showNat_isDigit n _ hm) (by decide)
  have hU : ∀ n, '_' ∉ showNat n := fun n hm => absurd (showNat_isDigit n _ hm) (by decide)
  have hname : nameRule ("grid".toList ++ showNat m ++ '_' :: rest) =
      ('G' :: 'R' :: 'I' :: 'D' :: showNat m) ++ '_' :: rest.map Char.toLower := by
    have h1 := prefixOf_eq m
    unfold prefixOf at h1
    have hnot : '_' ∉ "grid".toList ++ showNat m := by
      rw [List.mem_append]
      rintro (h | h)
      · exact absurd h (by decide)
      · exact hU m h
    rw [nameRule_split _ [] hnot] at h1
    rw [nameRule_split _ rest hnot]
    have h2 : ("grid".toList ++ showNat m).map Char.toUpper = 'G' :: 'R' :: 'I' :: 'D' :: showNat m := by
      have := List.append_inj_left' h1 (by simp)
      exact this
    rw [h2]
  rw [hname]
  have hpre : "GRID".toList ++ showNat gn ++ ['_'] = 'G' :: ('R' :: 'I' :: 'D' :: showNat gn) ++ ['_'] := by
    have : "GRID".toList = ['G', 'R', 'I', 'D'] := by decide
    rw [this]; rfl
  rw [hpre]
  constructor
  · rintro ⟨a, b, e⟩
    have e : a ++ ('G' :: ('R' :: 'I' :: 'D' :: showNat gn) ++ '_' :: b) =
        ('G' :: 'R' :: 'I' :: 'D' :: showNat m) ++ '_' :: rest.map Char.toLower := by
      rw [← e]; simp
    have hlow : 'G' ∉ rest.map Char.toLower := by
      intro hm
      obtain ⟨c, _, hc⟩ := List.mem_map.1 hm
      have := congrArg Char.toNat hc
      rw [Chars.toLower_nat] at this
      have e71 : 'G'.toNat = 71 := rfl
      rw [e71] at this
      split at this <;> omega
    -- split at the first underscore
    have first : ∀ (u v x y : Str), '_' ∉ u → '_' ∉ v → u ++ '_' :: x = v ++ '_' :: y → u = v := by
      intro u
      induction u with
      | nil =>
        intro v x y _ hv e
        cases v with
        | nil => rfl
        | cons c v => simp only [List.nil_append, List.cons_append, List.cons.injEq] at e; exact absurd (by rw [e.1]; exact List.mem_cons_self ..) hv
      | cons c u ih =>
        intro v x y hu hv e
        cases v with
        | nil => simp only [List.nil_append, List.cons_append, List.cons.injEq] at e; exact absurd (by rw [e.1]; exact List.mem_cons_self ..) hu
        | cons d v =>
          simp only [List.cons_append, List.cons.injEq] at e
          rw [e.1, ih v x y (fun h => hu (by simp [h])) (fun h => hv (by simp [h])) e.2]
    have hu1 : '_' ∉ ('G' :: 'R' :: 'I' :: 'D' :: showNat m) := by simp [hU m]
    have hu2 : '_' ∉ ('G' :: 'R' :: 'I' :: 'D' :: showNat gn) := by simp [hU gn]
    have hfin : a ++ ('G' :: 'R' :: 'I' :: 'D' :: showNat gn) = 'G' :: 'R' :: 'I' :: 'D' :: showNat m := by
      by_cases ha : '_' ∈ a
      · exfalso
        obtain ⟨a1, a2, rfl, ha1⟩ := split_us a ha
        rw [List.append_assoc, List.cons_append] at e
        have e1 := first _ _ _ _ ha1 hu1 e
        rw [e1] at e
        have e2 := List.append_cancel_left e
        simp only [List.cons.injEq, true_and] at e2
        exact hlow (by rw [← e2]; simp)
      · rw [← List.append_assoc] at e
        refine first _ _ _ _ ?_ hu1 e
        rw [List.mem_append, not_or]; exact ⟨ha, hu2⟩
    match a, hfin with
    | [], hfin =>
      simp only [List.nil_append, List.cons.injEq, true_and] at hfin
      have h1 := atoiAcc_showNat m
      have h2 := atoiAcc_showNat gn
      rw [← hfin] at h1; omega
    | c :: a', hfin =>
      exfalso
      simp only [List.cons_append, List.cons.injEq] at hfin
      have : 'G' ∈ 'R' :: 'I' :: 'D' :: showNat m := by rw [← hfin.2]; simp
      simp [hG m] at this
  · rintro rfl
    exact ⟨[], rest.map Char.toLower, by simp⟩

end Elliptica.Grid
