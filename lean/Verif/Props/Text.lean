import Verif.Lemmas.Text
/-!
Properties C08 (parameter file) and C09 (delimited lists).
-/
namespace Elliptica.Props.Text
open Elliptica.Text TextSpec

/-! ## C09 -/

/-- Every string that does not begin with the delimiter has a decomposition into pieces ... -/
theorem C09_pieces_exist (d : Char) (s : Str) (h : s.head? ≠ some d) : ∃ xs, Splits d s xs :=
  splits_total d s.length s (Nat.le_refl _) h

/-- ... and reading the delimited string returns exactly these pieces, in order, once each.
Missing for the full property: strings that begin with the delimiter, see the two theorems below. -/
theorem C09_items_partial (d : Char) (s : Str) (xs : List Str) (h : Splits d s xs) : readItems d s = xs :=
  tokLoop_splits h _ (by omega)

/-- A single leading delimiter is harmless when another delimiter follows later. -/
theorem C09_leading_ok (d : Char) (x rest : Str) (n : Nat) (xs : List Str) (hx : x ≠ []) (hd : d ∉ x)
    (hr : rest.head? ≠ some d) (h : Splits d rest xs) :
    readItems d (d :: (x ++ List.replicate (n + 1) d ++ rest)) = x :: xs := by
  have e : tokS d (d :: (x ++ List.replicate (n + 1) d ++ rest)) = some ⟨x, some rest, false⟩ := by
    have h1 := tokS_piece (r := rest) n hx hd hr
    have hm : d ∈ x ++ List.replicate (n + 1) d ++ rest := by simp
    have hne : (x ++ List.replicate (n + 1) d ++ rest).head? ≠ some d := by
      match x, hx with
      | a :: x, _ => simp; rintro rfl; simp at hd
    match hs : x ++ List.replicate (n + 1) d ++ rest with
    | [] => rw [hs] at hm; simp at hm
    | c :: r =>
      rw [hs] at h1 hm hne
      have hc : c ≠ d := by simpa using hne
      simp only [tokS, if_neg hc, if_pos hm] at h1
      simp only [tokS, if_true, if_pos hm]
      exact h1
  rw [readItems, tokLoop_step _ e, tokLoop_splits h]
  simp; omega

/-- Violation: with exactly one delimiter, at the front, the single item is returned twice. -/
theorem C09_leading_violation (d : Char) (x : Str) (hx : x ≠ []) (hd : d ∉ x) :
    readItems d (d :: x) = [x, x] := by
  have e : tokS d (d :: x) = some ⟨x, some x, true⟩ := by simp [tokS, hd]
  have e2 := tokLoop_splits (Splits.last x hx hd) (x.length + 2) (by omega)
  rw [readItems, List.length_cons, tokLoop_step _ e, e2]

/-- Violation: two leading delimiters yield an empty item. -/
theorem C09_empty_item_violation (d : Char) (s : Str) (n : Nat) (xs : List Str) (hs : s.head? ≠ some d)
    (h : Splits d s xs) : readItems d (d :: d :: (List.replicate n d ++ s)) = [] :: xs := by
  have hr := dropWhile_run (d := d) (n + 1) hs
  rw [List.replicate_succ, List.cons_append] at hr
  have e : tokS d (d :: d :: (List.replicate n d ++ s)) = some ⟨[], some s, false⟩ := by
    simp only [tokS, if_true, List.mem_cons, true_or]
    rw [List.takeWhile_cons_of_neg (by simp), List.dropWhile_cons_of_neg (by simp), hr]
  rw [readItems, tokLoop_step _ e, tokLoop_splits h]
  simp; omega

example : Splits ',' "psi,eta,,K".toList ["psi".toList, "eta".toList, "K".toList] :=
  .cons "psi".toList 0 _ _ (by decide) (by decide) (by decide)
    (.cons "eta".toList 1 "K".toList _ (by decide) (by decide) (by decide) (.last _ (by decide) (by decide)))

example : readItems ',' "psi,eta,,K".toList = ["psi".toList, "eta".toList, "K".toList] := by decide
example : readItems ',' ",psi".toList = ["psi".toList, "psi".toList] := by decide

/-! ## C08 -/

theorem sets_mean (l : Line) (o : Option (Str × Str)) (hw : l.WF) (h : l.Sets o) :
    '\n' ∉ l.mean ∧ (match o with | none => l.mean = [] | some (k, v) => l.mean = k ++ '=' :: v ∧
        k ≠ [] ∧ '=' ∉ k ∧ v ≠ [] ∧ v.head? ≠ some '=') := by
  refine ⟨?_, ?_⟩
  · intro hm
    simp only [Line.mean, List.mem_flatMap] at hm
    obtain ⟨p, hp, hc⟩ := hm
    have := hw.1 p hp
    cases p with
    | text s => exact (this _ hc).2.2.2.2 rfl
    | blank b => simp [Piece.mean] at hc
    | cont => simp [Piece.mean] at hc
  · cases h with
    | nothing h => exact h
    | assign k v h1 h2 h3 h4 => exact ⟨h1, h2, h3, h4, by assumption⟩

theorem denotes_list (ls : List Line) (kvs : List (Str × Str)) (h : Denotes ls kvs) :
    (∀ l ∈ ls, l.WF) → ∃ ps : List (Str × Option (Str × Str)),
      ps.flatMap (fun p => p.1 ++ ['\n']) = ls.flatMap (fun l => l.mean ++ ['\n']) ∧
      ps.filterMap (·.2) = kvs ∧
      ∀ p ∈ ps, '\n' ∉ p.1 ∧ (match p.2 with | none => p.1 = [] | some (k, v) => p.1 = k ++ '=' :: v ∧
        k ≠ [] ∧ '=' ∉ k ∧ v ≠ [] ∧ v.head? ≠ some '=') := by
  induction h with
  | nil => intro _; exact ⟨[], rfl, rfl, by simp⟩
  | skip l ls kvs hl _ ih =>
    intro hw
    obtain ⟨ps, h1, h2, h3⟩ := ih (fun q hq => hw q (by simp [hq]))
    refine ⟨(l.mean, none) :: ps, by simp [h1], by simp [h2], ?_⟩
    intro p hp
    rcases List.mem_cons.1 hp with rfl | hp
    · exact sets_mean l none (hw l (by simp)) hl
    · exact h3 p hp
  | set l ls kv kvs hl _ ih =>
    intro hw
    obtain ⟨ps, h1, h2, h3⟩ := ih (fun q hq => hw q (by simp [hq]))
    refine ⟨(l.mean, some kv) :: ps, by simp [h1], by simp [h2], ?_⟩
    intro p hp
    rcases List.mem_cons.1 hp with rfl | hp
    · exact sets_mean l (some kv) (hw l (by simp)) hl
    · exact h3 p hp

theorem popLoop_file (ps : List (Str × Option (Str × Str)))
    (h : ∀ p ∈ ps, '\n' ∉ p.1 ∧ (match p.2 with | none => p.1 = [] | some (k, v) => p.1 = k ++ '=' :: v ∧
        k ≠ [] ∧ '=' ∉ k ∧ v ≠ [] ∧ v.head? ≠ some '=')) :
    populate (ps.flatMap (fun p => p.1 ++ ['\n'])) = .ok (ps.filterMap (·.2)) := by
  have key := popLoop_lines ps h
  unfold populate
  generalize hB : ps.flatMap (fun p => p.1 ++ ['\n']) = B at key ⊢
  cases B with
  | nil =>
    have := key 1 (by simp)
    simpa [popLoop, tokS] using this
  | cons c r =>
    by_cases hc : c = '\n'
    · subst hc
      -- the buffer begins with a newline
      by_cases hr : '\n' ∈ r
      · -- a token (possibly empty) is cut off; compare with the run without the newline
        match ps, h, hB, key with
        | (s, none) :: ps', h, hB, key =>
          have hs := (h _ (List.mem_cons_self ..)).2
          simp only at hs; subst hs
          simp only [List.flatMap_cons, List.nil_append, List.cons_append, List.cons.injEq, true_and] at hB
          by_cases hhd : r.head? = some '\n'
          · -- an empty token
            obtain ⟨r', rfl⟩ : ∃ r', r = '\n' :: r' := by
              cases r with
              | nil => simp at hhd
              | cons a r' => exact ⟨r', by simpa using hhd⟩
            have k2 := key ('\n' :: '\n' :: r').length.succ (by simp)
            have e : tokS '\n' ('\n' :: '\n' :: r') = some ⟨[], some (r'.dropWhile (· = '\n')), false⟩ := by
              simp only [tokS, if_true, List.mem_cons, true_or]
              rw [List.takeWhile_cons_of_neg (by simp), List.dropWhile_cons_of_neg (by simp),
                List.dropWhile_cons_of_pos (by simp)]
            have e3 : ('\n' :: '\n' :: r').dropWhile (· = '\n') = r'.dropWhile (· = '\n') := by
              rw [List.dropWhile_cons_of_pos (by simp), List.dropWhile_cons_of_pos (by simp)]
            rw [e3] at k2
            rw [popLoop_empty _ e]
            exact k2
          · -- as without the newline
            have k2 := key ('\n' :: r).length.succ (by simp)
            cases r with
            | nil => simp at hr
            | cons a r' =>
              have ha : a ≠ '\n' := by simpa using hhd
              have e : tokS '\n' ('\n' :: a :: r') = tokS '\n' (a :: r') := by
                simp only [tokS, if_true, if_pos hr, if_neg ha]
              have e3 : ('\n' :: a :: r').dropWhile (· = '\n') = a :: r' := by
                rw [List.dropWhile_cons_of_pos (by simp), List.dropWhile_cons_of_neg (by simp [ha])]
              rw [e3] at k2
              have k3 := key ('\n' :: a :: r').length.succ.succ (by simp)
              rw [e3] at k3
              rw [popLoop_congr _ e]
              exact k3
        | (s, some (k, v)) :: ps', h, hB, _ =>
          exfalso
          obtain ⟨hn, hs, hk, -⟩ := h _ (List.mem_cons_self ..)
          simp only at hs hn
          match k, hk with
          | a :: k, _ =>
            rw [hs] at hB hn
            simp only [List.flatMap_cons, List.cons_append, List.cons.injEq] at hB
            exact hn (by simp [hB.1])
        | [], _, hB, _ => simp at hB
      · -- a lone newline
        match ps, h, hB, key with
        | (s, none) :: ps', h, hB, key =>
          have hs := (h _ (List.mem_cons_self ..)).2
          simp only at hs; subst hs
          simp only [List.flatMap_cons, List.nil_append, List.cons_append, List.cons.injEq, true_and] at hB
          cases ps' with
          | nil => simp at hB; subst hB; decide
          | cons q qs => exfalso; apply hr; rw [← hB]; simp
        | (s, some (k, v)) :: ps', h, hB, _ =>
          exfalso
          obtain ⟨hn, hs, hk, -⟩ := h _ (List.mem_cons_self ..)
          simp only at hs hn
          match k, hk with
          | a :: k, _ =>
            rw [hs] at hB hn
            simp only [List.flatMap_cons, List.cons_append, List.cons.injEq] at hB
            exact hn (by simp [hB.1])
        | [], _, hB, _ => simp at hB
    · have e3 : (c :: r).dropWhile (· = '\n') = c :: r := List.dropWhile_cons_of_neg (by simp [hc])
      rw [e3] at key
      exact key _ (by omega)

/-- C08 for files whose every line ends with a newline: whatever the spacing, the comments and the line
continuations, reading the file sets exactly the parameters its lines denote, in order, and nothing else.
(The files must have at least two characters of content, else the code stops with "empty".)
Missing for the full property: files whose last line has no newline (see the violations). -/
theorem C08_reads_exactly_partial (ls : List Line) (kvs : List (Str × Str)) (hw : ∀ l ∈ ls, l.WF)
    (h : Denotes ls kvs) (hlen : 2 ≤ (ls.flatMap (fun l => l.mean ++ ['\n'])).length) :
    readCalls (fileOf ls) = .ok kvs := by
  have hb := buf_file ls hw []
  rw [List.append_nil] at hb
  have ht : bufLoop .top [] = .ok [none] := rfl
  rw [ht, Res.map_ok] at hb
  obtain ⟨ps, e1, e2, e3⟩ := denotes_list ls kvs h hw
  have hm : makeBuffer (fileOf ls) = .ok (ls.flatMap (fun l => l.mean ++ ['\n'])) := by
    unfold makeBuffer
    rw [hb, Res.bind_ok]
    generalize ls.flatMap (fun l => l.mean ++ ['\n']) = B
    have hd : (B.map some ++ [none]).dropLast = B.map some := by simp
    match hB : B.map some ++ [none] with
    | [] => simp at hB
    | b :: bs =>
      simp only
      rw [← hB, hd, List.map_map]
      congr 1
      exact (List.map_congr_left (by intros; rfl)).trans (List.map_id _)
  unfold readCalls
  rw [hm, Res.bind_ok, if_neg (by omega), ← e1, popLoop_file ps e3, e2]

/-- Consequence for the data base: reading such a file is the same as adding the parameters one by one. -/
theorem C08_database {D : Type} (L : Params.Libc D) (db : Params.DB D) (ls : List Line)
    (kvs : List (Str × Str)) (hw : ∀ l ∈ ls, l.WF) (h : Denotes ls kvs)
    (hlen : 2 ≤ (ls.flatMap (fun l => l.mean ++ ['\n'])).length) :
    readFile L db (fileOf ls) =
      Params.run L db (kvs.map fun kv => Params.Op.addS kv.1 (some kv.2)) := by
  unfold readFile
  rw [C08_reads_exactly_partial ls kvs hw h hlen, Res.bind_ok]
  have key : ∀ (r : Res (Params.DB D)),
      kvs.foldl (fun r c => r.bind fun db => Params.addS L db c.1 (some c.2)) r =
        r.bind fun db => Params.run L db (kvs.map fun kv => Params.Op.addS kv.1 (some kv.2)) := by
    clear h
    induction kvs with
    | nil => intro r; cases r <;> rfl
    | cons kv kvs ih =>
      intro r
      rw [List.foldl_cons, ih]
      cases r <;> rfl
  exact key _

/-- Violation: when the last line of the file carries a comment and no newline, the last character of the
last value is lost, whatever the comment. -/
theorem C08_comment_at_eof_violation (cm : Str) (h : '\n' ∉ cm) :
    readCalls ("n_a=12#".toList ++ cm) = .ok [("n_a".toList, "1".toList)] := by
  have hc : bufLoop .comment cm = .ok [] := by
    induction cm with
    | nil => rfl
    | cons a c ih =>
      have : a ≠ '\n' := fun e => h (by simp [e])
      simp only [bufLoop, this, if_false]
      exact ih (fun hm => h (by simp [hm]))
  have hb : bufLoop .top ("n_a=12#".toList ++ cm) = .ok ("n_a=12".toList.map some) := by
    show bufLoop .top ('n' :: '_' :: 'a' :: '=' :: '1' :: '2' :: '#' :: cm) = _
    have h7 : bufLoop .top ('#' :: cm) = .ok [] := by rw [bufLoop.eq_def]; simpa using hc
    rw [buf_top_plain (by decide), buf_top_plain (by decide), buf_top_plain (by decide),
      buf_top_plain (by decide), buf_top_plain (by decide), buf_top_plain (by decide), h7]
    rfl
  unfold readCalls makeBuffer
  rw [hb]; decide +kernel

/-- Violation: a value continued on a last line without newline loses its last character. -/
theorem C08_continuation_at_eof_violation :
    readCalls "n_a=1\\\n2".toList = .ok [("n_a".toList, "1".toList)] := by decide +kernel

/-- Violation: a comment line followed by one assignment without final newline is refused ("No value"). -/
theorem C08_leading_newline_violation : readCalls "# my run\nn_a=12".toList = .abort := by decide +kernel

/-- Violation: a line with an empty name sets the parameter named like the value. -/
theorem C08_empty_name_violation : readCalls "=abc\nx=1\n".toList =
    .ok [("abc".toList, "abc".toList), ("x".toList, "1".toList)] := by decide +kernel

/-- A last line without newline, comment or continuation is read correctly. -/
theorem C08_plain_last_line (k v : Str) (hk : k ≠ []) (hke : '=' ∉ k) (hv : v ≠ []) (hve : v.head? ≠ some '=')
    (hw : (Piece.text (k ++ '=' :: v)).WF) :
    readCalls (k ++ '=' :: v) = .ok [(k, v)] := by
  have hb := buf_text_top (k ++ '=' :: v) [] hw
  rw [List.append_nil] at hb
  have ht : bufLoop .top [] = .ok [none] := rfl
  rw [ht, Res.map_ok] at hb
  have hm : makeBuffer (k ++ '=' :: v) = .ok (k ++ '=' :: v) := by
    unfold makeBuffer
    rw [hb, Res.bind_ok]
    generalize k ++ '=' :: v = B
    have hd : (B.map some ++ [none]).dropLast = B.map some := by simp
    match hB : B.map some ++ [none] with
    | [] => simp at hB
    | b :: bs =>
      simp only
      rw [← hB, hd, List.map_map]
      congr 1
      exact (List.map_congr_left (by intros; rfl)).trans (List.map_id _)
  have hkl : 0 < k.length := List.length_pos_iff.2 hk
  have hn : '\n' ∉ k ++ '=' :: v := fun h => (hw _ h).2.2.2.2 rfl
  have hl := lineTokens_assign k v hk hke hv hve (fun h => hn (by simp [h]))
  have htk := tokS_last (d := '\n') (x := k ++ '=' :: v) (by simp) hn
  unfold readCalls
  rw [hm, Res.bind_ok, if_neg (by simp; omega)]
  simp only [populate, popLoop, htk, hl]
  simp [popLoop]

/-- A concrete file with spacing, a comment line, a broken line and a trailing comment. -/
def demo : List Line :=
  [⟨[], some " run".toList⟩,
   ⟨[.text "n_a".toList, .blank false, .text "=".toList, .blank true, .text "12".toList], some "!".toList⟩,
   ⟨[.text "list=a,".toList, .cont, .blank false, .text "b".toList], none⟩]

example : (∀ l ∈ demo, l.WF) ∧
    Denotes demo [("n_a".toList, "12".toList), ("list".toList, "a,b".toList)] := by
  refine ⟨?_, ?_⟩
  · intro l hl
    simp only [demo, List.mem_cons, List.not_mem_nil, or_false] at hl
    rcases hl with rfl | rfl | rfl
    · exact ⟨by simp, by simp⟩
    · exact ⟨by simp [Piece.WF], by simp⟩
    · exact ⟨by simp [Piece.WF], by simp⟩
  · exact .skip _ _ _ (.nothing _ (by decide +kernel))
      (.set _ _ _ _ (.assign _ _ _ (by decide +kernel) (by decide +kernel) (by decide +kernel) (by decide +kernel) (by decide +kernel))
      (.set _ _ _ _ (.assign _ _ _ (by decide +kernel) (by decide +kernel) (by decide +kernel) (by decide +kernel) (by decide +kernel)) .nil))

end Elliptica.Props.Text
