import Verif.Model.Text
import Verif.Spec.Text
namespace Elliptica.Text
open TextSpec

theorem takeWhile_append_not {d : Char} {x r : Str} (hx : d ∉ x) :
    (x ++ d :: r).takeWhile (· ≠ d) = x := by
  induction x with
  | nil => simp
  | cons a x ih =>
    have : a ≠ d := by rintro rfl; simp at hx
    simp [this]
    simpa using ih (by intro h; exact hx (by simp [h]))

theorem dropWhile_append_not {d : Char} {x r : Str} (hx : d ∉ x) :
    (x ++ d :: r).dropWhile (· ≠ d) = d :: r := by
  induction x with
  | nil => simp
  | cons a x ih =>
    have : a ≠ d := by rintro rfl; simp at hx
    simp [this]
    simpa using ih (by intro h; exact hx (by simp [h]))

theorem dropWhile_run {d : Char} {r : Str} (n : Nat) (hr : r.head? ≠ some d) :
    (List.replicate n d ++ r).dropWhile (· = d) = r := by
  induction n with
  | zero =>
    cases r with
    | nil => rfl
    | cons a r =>
      have : a ≠ d := by simpa using hr
      simp [this]
  | succ n ih => rw [List.replicate_succ]; simpa using ih

theorem tokS_piece {d : Char} {x r : Str} (n : Nat) (hne : x ≠ []) (hx : d ∉ x) (hr : r.head? ≠ some d) :
    tokS d (x ++ List.replicate (n + 1) d ++ r) = some ⟨x, some r, false⟩ := by
  match x, hne with
  | a :: x, _ =>
    have had : a ≠ d := by rintro rfl; simp at hx
    have e : a :: x ++ List.replicate (n + 1) d ++ r = a :: x ++ d :: (List.replicate n d ++ r) := by
      simp [List.replicate_succ]
    have h1 : d ∈ a :: (x ++ d :: (List.replicate n d ++ r)) := by simp
    have h2 := takeWhile_append_not (r := List.replicate n d ++ r) hx
    have h3 := dropWhile_append_not (r := List.replicate n d ++ r) hx
    have h4 := dropWhile_run (d := d) (n + 1) hr
    rw [List.replicate_succ, List.cons_append] at h4
    rw [e]
    rw [List.cons_append] at h2 h3
    show tokS d (a :: (x ++ d :: (List.replicate n d ++ r))) = _
    unfold tokS
    simp only [if_neg had, if_pos h1]
    rw [h2, h3, h4]

theorem tokS_last {d : Char} {x : Str} (hne : x ≠ []) (hx : d ∉ x) :
    tokS d x = some ⟨x, none, false⟩ := by
  match x, hne with
  | a :: x, _ =>
    have had : a ≠ d := by rintro rfl; simp at hx
    unfold tokS
    simp only [if_neg had, if_neg hx]

theorem tokLoop_step {d : Char} {s : Str} {t : Tok} (f : Nat) (h : tokS d s = some t) :
    tokLoop d (f + 1) (some s) = t.tok :: tokLoop d f t.save := by
  simp only [tokLoop, h]

theorem popLoop_empty {s : Str} {sv : Option Str} (f : Nat) (h : tokS '\n' s = some ⟨[], sv, false⟩) :
    popLoop (f + 1) (some s) = popLoop f sv := by
  have e4 : lineTokens [] = (none, none) := rfl
  simp [popLoop, h, e4]

theorem popLoop_congr {s s' : Str} (f : Nat) (h : tokS '\n' s = tokS '\n' s') :
    popLoop (f + 1) (some s) = popLoop (f + 1) (some s') := by
  simp only [popLoop, h]

theorem tokLoop_splits {d : Char} {s : Str} {xs : List Str} (h : Splits d s xs) :
    ∀ fuel, s.length < fuel → tokLoop d fuel (some s) = xs := by
  induction h with
  | nil => intro fuel hf; match fuel, hf with | f + 1, _ => rfl
  | last x hne hx =>
    intro fuel hf
    match fuel, hf with
    | f + 1, hf =>
      have : 0 < x.length := List.length_pos_iff.2 hne
      match f, hf with
      | 0, hf => omega
      | f + 1, _ => simp [tokLoop, tokS_last hne hx]
  | cons x n rest xs hne hx hr _ ih =>
    intro fuel hf
    match fuel, hf with
    | f + 1, hf =>
      have : 0 < x.length := List.length_pos_iff.2 hne
      simp only [List.length_append, List.length_replicate] at hf
      simp only [tokLoop, tokS_piece n hne hx hr]
      rw [ih f (by omega)]

theorem first_split {d : Char} {l : Str} (hd : d ∈ l) : ∃ x r, l = x ++ d :: r ∧ d ∉ x := by
  induction l with
  | nil => simp at hd
  | cons b l ih =>
    by_cases hb : b = d
    · exact ⟨[], l, by simp [hb], by simp⟩
    · have h2 : d ∈ l := by
        rcases List.mem_cons.1 hd with h | h
        · exact absurd h.symm hb
        · exact h
      obtain ⟨x, r, e, hx⟩ := ih h2
      exact ⟨b :: x, r, by simp [e], by simp [hx, Ne.symm hb]⟩

/-- every string that does not begin with the delimiter splits -/
theorem splits_total (d : Char) : ∀ (N : Nat) (s : Str), s.length ≤ N → s.head? ≠ some d →
    ∃ xs, Splits d s xs := by
  intro N
  induction N with
  | zero =>
    intro s hs _
    have : s = [] := List.eq_nil_of_length_eq_zero (by omega)
    exact ⟨[], this ▸ .nil⟩
  | succ N ih =>
    intro s hs hh
    cases s with
    | nil => exact ⟨[], .nil⟩
    | cons a s =>
      by_cases hd : d ∈ a :: s
      · obtain ⟨x, r, e, hx⟩ := first_split hd
        have hxne : x ≠ [] := by
          rintro rfl
          simp at e hh
          exact hh e.1
        -- peel the run of delimiters
        have hrun : ∀ (r : Str), ∃ n r', r = List.replicate n d ++ r' ∧ r'.head? ≠ some d := by
          intro r
          induction r with
          | nil => exact ⟨0, [], rfl, by simp⟩
          | cons b r ih =>
            by_cases hb : b = d
            · obtain ⟨n, r', e, h⟩ := ih
              exact ⟨n + 1, r', by simp [List.replicate_succ, hb, e], h⟩
            · exact ⟨0, b :: r, rfl, by simpa using hb⟩
        obtain ⟨n, r', er, hr'⟩ := hrun r
        have hlen : r'.length ≤ N := by
          have := congrArg List.length e
          have h2 := congrArg List.length er
          have : 0 < x.length := List.length_pos_iff.2 hxne
          simp at *; omega
        obtain ⟨xs, hxs⟩ := ih r' hlen hr'
        refine ⟨x :: xs, ?_⟩
        rw [e, er]
        have : x ++ d :: (List.replicate n d ++ r') = x ++ List.replicate (n + 1) d ++ r' := by
          simp [List.replicate_succ]
        rw [this]
        exact .cons x n r' xs hxne hx hr' hxs
      · exact ⟨[a :: s], .last _ (by simp) hd⟩

/-! ### the buffer -/

theorem buf_top_plain {c : Char} {r : Str} (h : c ≠ ' ' ∧ c ≠ '\t' ∧ c ≠ '#' ∧ c ≠ '\\') :
    bufLoop .top (c :: r) = (bufLoop .top r).map (some c :: ·) := by
  rw [bufLoop.eq_def]; simp [h]

theorem buf_broken_plain {c : Char} {r : Str} (h : c ≠ ' ' ∧ c ≠ '\t' ∧ c ≠ '#' ∧ c ≠ '\\' ∧ c ≠ '\n') :
    bufLoop .broken (c :: r) = (bufLoop .broken r).map (some c :: ·) := by
  rw [bufLoop.eq_def]; simp [h]

/-- the buffer of a file, as a fold over clean lines: content, newline -/
theorem buf_text_top (s r : Str) (hs : (Piece.text s).WF) :
    bufLoop .top (s ++ r) = (bufLoop .top r).map (s.map some ++ ·) := by
  induction s with
  | nil => cases h : bufLoop .top r <;> simp [h, Res.map]
  | cons a s ih =>
    have ha := hs a (by simp)
    have ih' := ih (by intro c hc; exact hs c (by simp [hc]))
    rw [List.cons_append, buf_top_plain (by simp [ha]), ih']
    cases bufLoop .top r <;> simp [Res.map]

theorem buf_text_broken (s r : Str) (hs : (Piece.text s).WF) :
    bufLoop .broken (s ++ r) = (bufLoop .broken r).map (s.map some ++ ·) := by
  induction s with
  | nil => cases h : bufLoop .broken r <;> simp [h, Res.map]
  | cons a s ih =>
    have ha := hs a (by simp)
    have ih' := ih (by intro c hc; exact hs c (by simp [hc]))
    rw [List.cons_append, buf_broken_plain (by simp [ha]), ih']
    cases bufLoop .broken r <;> simp [Res.map]

theorem buf_comment (c r : Str) (hc : '\n' ∉ c) :
    bufLoop .comment (c ++ '\n' :: r) = (bufLoop .top r).map (some '\n' :: ·) := by
  induction c with
  | nil => simp [bufLoop]
  | cons a c ih =>
    have : a ≠ '\n' := by rintro rfl; simp at hc
    simp only [List.cons_append, bufLoop, this, if_false]
    exact ih (by intro h; exact hc (by simp [h]))

theorem buf_bcomment (c r : Str) (hc : '\n' ∉ c) :
    bufLoop .bcomment (c ++ '\n' :: r) = (bufLoop .top r).map (some '\n' :: ·) := by
  induction c with
  | nil => simp [bufLoop]
  | cons a c ih =>
    have : a ≠ '\n' := by rintro rfl; simp at hc
    simp only [List.cons_append, bufLoop, this, if_false]
    exact ih (by intro h; exact hc (by simp [h]))

theorem buf_pieces (ps : List Piece) (cm : Option Str) (r : Str) (hp : ∀ p ∈ ps, p.WF)
    (hc : ∀ c, cm = some c → '\n' ∉ c) (m : BMode) (hm : m = .top ∨ m = .broken) :
    bufLoop m (ps.flatMap Piece.render ++ (commentText cm ++ '\n' :: r))
      = (bufLoop .top r).map ((ps.flatMap Piece.mean).map some ++ some '\n' :: ·) := by
  induction ps generalizing m with
  | nil =>
    cases cm with
    | none =>
      rcases hm with rfl | rfl <;> simp only [commentText, List.flatMap_nil, List.nil_append, List.map_nil] <;>
        rw [bufLoop.eq_def] <;> simp
    | some c =>
      rcases hm with rfl | rfl
      · have := buf_comment c r (hc c rfl)
        simp only [commentText, List.flatMap_nil, List.nil_append, List.map_nil, List.cons_append]
        rw [bufLoop.eq_def]; simpa using this
      · have := buf_bcomment c r (hc c rfl)
        simp only [commentText, List.flatMap_nil, List.nil_append, List.map_nil, List.cons_append]
        rw [bufLoop.eq_def]; simpa using this
  | cons p ps ih =>
    have ih' := fun m hm => ih (fun q hq => hp q (by simp [hq])) m hm
    have hpw := hp p (by simp)
    cases p with
    | text s =>
      rcases hm with rfl | rfl
      · simp only [List.flatMap_cons, Piece.render, Piece.mean, List.append_assoc]
        rw [buf_text_top _ _ hpw, ih' .top (.inl rfl)]
        cases bufLoop .top r <;> simp [Res.map]
      · simp only [List.flatMap_cons, Piece.render, Piece.mean, List.append_assoc]
        rw [buf_text_broken _ _ hpw, ih' .broken (.inr rfl)]
        cases bufLoop .top r <;> simp [Res.map]
    | blank b =>
      have := ih' m hm
      cases b <;> rcases hm with rfl | rfl <;>
        simp only [List.flatMap_cons, Piece.render, Piece.mean, List.append_assoc, List.cons_append,
          List.nil_append] <;> rw [bufLoop.eq_def] <;> simpa using this
    | cont =>
      have := ih' .broken (.inr rfl)
      rcases hm with rfl | rfl <;>
        simp only [List.flatMap_cons, Piece.render, Piece.mean, List.append_assoc, List.cons_append,
          List.nil_append] <;> rw [bufLoop.eq_def] <;> simpa using this

theorem buf_file (ls : List Line) (hw : ∀ l ∈ ls, l.WF) (tail : Str) :
    bufLoop .top (fileOf ls ++ tail) =
      (bufLoop .top tail).map ((ls.flatMap (fun l => l.mean ++ ['\n'])).map some ++ ·) := by
  induction ls with
  | nil => simp [fileOf]; cases bufLoop .top tail <;> simp [Res.map]
  | cons l ls ih =>
    have ih' := ih (fun q hq => hw q (by simp [hq]))
    obtain ⟨h1, h2⟩ := hw l (by simp)
    have := buf_pieces l.pieces l.comment (fileOf ls ++ tail) h1 h2 .top (.inl rfl)
    rw [ih'] at this
    have e : fileOf (l :: ls) ++ tail = l.pieces.flatMap Piece.render ++
        (commentText l.comment ++ '\n' :: (fileOf ls ++ tail)) := by
      simp [fileOf, Line.render]
    rw [e, this]
    cases bufLoop .top tail <;> simp [Res.map, Line.mean]

/-! ### the lines -/

theorem lineTokens_assign (k v : Str) (hk : k ≠ []) (hke : '=' ∉ k) (hv : v ≠ []) (hve : v.head? ≠ some '=')
    (hn : '\n' ∉ v) : lineTokens (k ++ '=' :: v) = (some k, some v) := by
  have h := tokS_piece (d := '=') (r := v) 0 hk hke hve
  simp only [Nat.zero_add, List.replicate_one, List.append_assoc, List.cons_append, List.nil_append] at h
  have h2 := tokLoop_splits (Splits.last (d := '\n') v hv hn) ((k ++ '=' :: v).length + 2) (by simp; omega)
  simp only [lineTokens, h, h2]; rfl

/-- lines of a buffer with, for each, what it sets -/
theorem popLoop_lines (ls : List (Str × Option (Str × Str)))
    (h : ∀ p ∈ ls, '\n' ∉ p.1 ∧ (match p.2 with | none => p.1 = [] | some (k, v) => p.1 = k ++ '=' :: v ∧
        k ≠ [] ∧ '=' ∉ k ∧ v ≠ [] ∧ v.head? ≠ some '=')) :
    ∀ fuel, (ls.flatMap (fun p => p.1 ++ ['\n'])).length < fuel →
      popLoop fuel (some ((ls.flatMap (fun p => p.1 ++ ['\n'])).dropWhile (· = '\n'))) =
        .ok (ls.filterMap (·.2)) := by
  induction ls with
  | nil => intro fuel hf; match fuel, hf with | f + 1, _ => rfl
  | cons p ls ih =>
    intro fuel hf
    have ih' := ih (fun q hq => h q (by simp [hq]))
    obtain ⟨hn, hp⟩ := h p (by simp)
    obtain ⟨s, o⟩ := p
    cases o with
    | none =>
      simp only at hp; subst hp
      simp only [List.flatMap_cons, List.nil_append, List.cons_append, List.filterMap_cons_none]
      simp only [List.flatMap_cons, List.length_append, List.length_cons, List.length_nil] at hf
      have := ih' fuel (by omega)
      simpa using this
    | some kv =>
      obtain ⟨k, v⟩ := kv
      simp only at hp
      obtain ⟨e, hk, hke, hv, hve⟩ := hp
      simp only at hn
      have hsne : s ≠ [] := by rw [e]; simp
      -- what follows the line: a run of newlines, then the rest
      have hrun : ∀ (r : Str), ∃ n, r = List.replicate n '\n' ++ r.dropWhile (· = '\n') ∧
          (r.dropWhile (· = '\n')).head? ≠ some '\n' := by
        intro r
        induction r with
        | nil => exact ⟨0, rfl, by simp⟩
        | cons b r ih =>
          by_cases hb : b = '\n'
          · obtain ⟨n, e, h⟩ := ih
            refine ⟨n + 1, ?_, ?_⟩
            · rw [List.dropWhile_cons_of_pos (by simp [hb]), List.replicate_succ, List.cons_append, ← e, hb]
            · rw [List.dropWhile_cons_of_pos (by simp [hb])]; exact h
          · refine ⟨0, ?_, ?_⟩
            · rw [List.dropWhile_cons_of_neg (by simp [hb])]; rfl
            · rw [List.dropWhile_cons_of_neg (by simp [hb])]; simpa using hb
      obtain ⟨n, hr1, hr2⟩ := hrun (ls.flatMap (fun p => p.1 ++ ['\n']))
      have hd : ((s, some (k, v)) :: ls).flatMap (fun p => p.1 ++ ['\n']) =
          s ++ List.replicate (n + 1) '\n' ++ (ls.flatMap (fun p => p.1 ++ ['\n'])).dropWhile (· = '\n') := by
        conv => lhs; rw [List.flatMap_cons, hr1]
        simp [List.replicate_succ]
      have hdw : (((s, some (k, v)) :: ls).flatMap (fun p => p.1 ++ ['\n'])).dropWhile (· = '\n') =
          ((s, some (k, v)) :: ls).flatMap (fun p => p.1 ++ ['\n']) := by
        match s, hsne, hn with
        | a :: s, _, hn =>
          have : a ≠ '\n' := fun h => hn (by simp [h])
          rw [List.flatMap_cons, List.cons_append, List.cons_append,
            List.dropWhile_cons_of_neg (by simp [this])]
      have ht := tokS_piece (d := '\n') n hsne hn hr2
      match fuel, hf with
      | f + 1, hf =>
        rw [hdw, hd]
        have hvn : '\n' ∉ v := by intro hh; apply hn; rw [e]; simp [hh]
        have hl : lineTokens s = (some k, some v) := by rw [e]; exact lineTokens_assign k v hk hke hv hve hvn
        simp only [popLoop, ht, hl]
        simp only [List.flatMap_cons, List.length_append, List.length_cons, List.length_nil] at hf
        have := ih' f (by omega)
        simp [this]

end Elliptica.Text
