import Verif.Props.Checkpoint
/-!
Property C26: writing a checkpoint is crash-atomic, and the check for complete files.
-/
namespace Elliptica.Ckpt
open Elliptica Elliptica.Params Elliptica.Text Elliptica.ParamLemmas

theorem runActs_append (fs : FS) (a b : List Act) :
    runActs fs (a ++ b) = if (runActs fs a).2 then runActs (runActs fs a).1 b else ((runActs fs a).1, false) := by
  induction a generalizing fs with
  | nil => simp [runActs]
  | cons x a ih =>
    have hs : ∀ fs x (l : List Act), runActs fs (x :: l) = match act fs x with
      | none => (fs, false)
      | some fs' => runActs fs' l := fun _ _ _ => rfl
    have hn : ∀ fs x (l : List Act), act fs x = none → runActs fs (x :: l) = (fs, false) := fun fs x l h => by rw [hs, h]
    have hsm : ∀ fs x fs' (l : List Act), act fs x = some fs' → runActs fs (x :: l) = runActs fs' l := fun fs x fs' l h => by rw [hs, h]
    rw [List.cons_append]
    cases hx : act fs x with
    | none => rw [hn _ _ _ hx, hn _ _ _ hx]; simp
    | some fs' => rw [hsm _ _ _ _ hx, hsm _ _ _ _ hx]; exact ih fs'

theorem final_kept (fs : FS) (as : List Act) (h : Act.rename ∉ as) : (runActs fs as).1.final = fs.final := by
  induction as generalizing fs with
  | nil => rfl
  | cons a as ih =>
    simp only [List.mem_cons, not_or] at h
    simp only [runActs]
    cases ha : act fs a with
    | none => rfl
    | some fs' =>
      have : fs'.final = fs.final := by
        cases a with
        | refuseOld => simp only [act] at ha; split at ha <;> simp at ha; rw [ha]
        | create => simp only [act, Option.some.injEq] at ha; rw [← ha]
        | emit e => cases e with
          | byte b => simp only [act, Option.some.injEq] at ha; rw [← ha]
          | stop => simp [act] at ha
        | rename => exact absurd rfl h.1
      show (runActs fs' as).1.final = _
      rw [ih fs' h.2, this]

theorem emit_bytes (t : Bytes) (f : Option Bytes) (B : Bytes) :
    runActs ⟨some t, f⟩ ((bytes B).map .emit) = (⟨some (t ++ B), f⟩, true) := by
  induction B generalizing t with
  | nil => simp [bytes, runActs]
  | cons b B ih =>
    have h := ih (t ++ [b])
    simp only [bytes, List.map_cons, runActs, act, Option.getD_some] at h ⊢
    rw [h]; simp

theorem emit_split (out : List Emit) : (∃ B, out = bytes B) ∨ ∃ B r, out = bytes B ++ .stop :: r := by
  induction out with
  | nil => exact .inl ⟨[], rfl⟩
  | cons e out ih =>
    cases e with
    | stop => exact .inr ⟨[], out, rfl⟩
    | byte b =>
      rcases ih with ⟨B, rfl⟩ | ⟨B, r, rfl⟩
      · exact .inl ⟨b :: B, rfl⟩
      · exact .inr ⟨b :: B, r, rfl⟩

/-- **C26 (atomic).** Whatever is to be written, whatever is in the directory, and wherever the writing is cut short (`k`
actions: a crash, or a stop of the program), the checkpoint file is what it was, or it is the complete new one; the latter only
after all the actions. -/
theorem C26_atomic (fs : FS) (out : List Emit) (k : Nat) :
    (runActs fs ((script out).take k)).1.final = fs.final ∨
    ∃ B, out = bytes B ∧ (runActs fs ((script out).take k)).1 = ⟨none, some B⟩ ∧ (script out).length ≤ k := by
  by_cases hk : (script out).length ≤ k
  · rw [List.take_of_length_le hk]
    unfold script
    rw [runActs_append]
    by_cases ht : fs.temp.isSome
    · left; simp [runActs, act, ht]
    · have e : runActs fs [.refuseOld, .create] = (⟨some [], fs.final⟩, true) := by simp [runActs, act, ht]
      rw [e]
      simp only [if_true]
      rw [runActs_append]
      rcases emit_split out with ⟨B, rfl⟩ | ⟨B, r, rfl⟩
      · right
        refine ⟨B, rfl, ?_, hk⟩
        rw [emit_bytes]; simp [runActs, act]
      · left
        have : (runActs ⟨some [], fs.final⟩ ((bytes B ++ .stop :: r).map .emit)) = (⟨some ([] ++ B), fs.final⟩, false) := by
          rw [List.map_append, runActs_append, emit_bytes]; simp [runActs, act]
        rw [this]; simp
  · left
    refine final_kept fs _ fun h => ?_
    have e : (script out).take k = ([Act.refuseOld, Act.create] ++ out.map Act.emit).take k := by
      unfold script
      rw [← List.append_assoc, List.take_append_of_le_length]
      simp only [script, List.length_append, List.length_cons, List.length_nil, List.length_map] at hk ⊢; omega
    rw [e] at h
    have := List.mem_of_mem_take h
    simp at this

/-- **C26 (completion).** When there is no temporary file and the writing is not cut short, the file is replaced. -/
theorem C26_complete (f : Option Bytes) (B : Bytes) : runActs ⟨none, f⟩ (script (bytes B)) = (⟨none, some B⟩, true) := by
  unfold script
  rw [runActs_append]
  have e : runActs ⟨none, f⟩ [.refuseOld, .create] = (⟨some [], f⟩, true) := rfl
  rw [e]
  simp only [if_true]
  rw [runActs_append, emit_bytes]
  simp [runActs, act]

/-- what can happen to the directory: a checkpoint is written, the first `k` actions only; the user removes a left-over -/
inductive Event where
  | write (out : List Emit) (k : Nat)
  | clean

/-- the directory after some events -/
def history (fs : FS) : List Event → FS
  | [] => fs
  | .write out k :: es => history (runActs fs ((script out).take k)).1 es
  | .clean :: es => history { fs with temp := none } es

/-- **C26 (histories).** After any sequence of checkpoints, each completed or cut short anywhere, the checkpoint file is the one
from before or was written to completion by one of them. -/
theorem C26_history (fs : FS) (es : List Event) :
    (history fs es).final = fs.final ∨
    ∃ B k, Event.write (bytes B) k ∈ es ∧ (script (bytes B)).length ≤ k ∧ (history fs es).final = some B := by
  induction es generalizing fs with
  | nil => exact .inl rfl
  | cons e es ih =>
    cases e with
    | clean =>
      rcases ih { fs with temp := none } with h | ⟨B, k, h1, h2, h3⟩
      · exact .inl h
      · exact .inr ⟨B, k, by simp [h1], h2, h3⟩
    | write out k =>
      simp only [history]
      rcases ih (runActs fs ((script out).take k)).1 with h | ⟨B, k', h1, h2, h3⟩
      · rcases C26_atomic fs out k with ha | ⟨B, rfl, hb, hk⟩
        · exact .inl (h.trans ha)
        · exact .inr ⟨B, k, by simp, hk, by rw [h, hb]⟩
      · exact .inr ⟨B, k', by simp [h1], h2, h3⟩

/-- a complete file ends with the final message -/
theorem end_suffix {D : Type} (c : Codec D) (sel : Str → Bool) (w : World D) (B : Bytes) (h : wAll c sel w = bytes B) :
    ∃ p, B = p ++ (encU (END_MSG.length + 1) ++ (END_MSG.map byteOf ++ [0])) := by
  have hinj : Function.Injective bytes := fun a b hab => by
    unfold bytes at hab
    exact List.map_injective_iff.2 (fun a b hab => by cases hab; rfl) hab
  have key : ∀ (o : List Emit) (t B : Bytes), o ++ bytes t = bytes B → ∃ p, B = p ++ t := by
    intro o
    induction o with
    | nil => intro t B h; exact ⟨[], (hinj h).symm⟩
    | cons e o ih =>
      intro t B h
      cases B with
      | nil => simp [bytes] at h
      | cons b B =>
        have h2 : o ++ bytes t = bytes B := by simp [bytes] at h ⊢; exact h.2
        obtain ⟨p, rfl⟩ := ih t B h2
        exact ⟨b :: p, rfl⟩
  unfold wAll at h
  rw [wStr, ← List.append_assoc, ← List.append_assoc] at h
  exact key _ _ _ h

/-- **C26 (complete files are accepted).** -/
theorem C26_sound_complete {D : Type} (c : Codec D) (sel : Str → Bool) (w : World D) (B : Bytes) (h : wAll c sel w = bytes B) :
    sound B = .ok true := by
  obtain ⟨p', rfl⟩ := end_suffix c sel w B h
  rw [← List.append_assoc]
  generalize p' ++ encU (END_MSG.length + 1) = p
  have hl : (END_MSG.map byteOf ++ [0]).length = END_MSG.length + 1 := by simp
  unfold sound
  simp only
  rw [if_neg (by simp)]
  have hd : (p ++ (END_MSG.map byteOf ++ [0])).drop ((p ++ (END_MSG.map byteOf ++ [0])).length - (END_MSG.length + 1)) =
      END_MSG.map byteOf ++ [0] := by
    rw [List.length_append, hl, Nat.add_sub_cancel, List.drop_left]
  rw [hd, if_pos]
  simp [List.isPrefixOf_iff_prefix]

/-- an accepted file ends with the final message, but for at most one byte -/
theorem sound_iff (b : Bytes) (h : sound b = .ok true) : ∃ p s, b = p ++ (END_MSG.map byteOf ++ s) ∧ s.length ≤ 1 := by
  unfold sound at h
  simp only at h
  split at h
  · cases h
  rename_i hlen
  have hb : b = b.take (b.length - (END_MSG.length + 1)) ++ b.drop (b.length - (END_MSG.length + 1)) := (List.take_append_drop _ _).symm
  have hm : (b.drop (b.length - (END_MSG.length + 1))).length = END_MSG.length + 1 := by simp; omega
  generalize b.drop (b.length - (END_MSG.length + 1)) = m at h hb hm
  split at h
  · rename_i he
    obtain ⟨s, rfl⟩ := List.isPrefixOf_iff_prefix.1 he
    refine ⟨_, s, hb, ?_⟩
    simp at hm; omega
  · split at h
    · rename_i he
      obtain ⟨s, hs⟩ := List.isPrefixOf_iff_prefix.1 he.2
      cases m with
      | nil => simp at hm
      | cons x m =>
        simp only [List.tail_cons] at hs
        subst hs
        refine ⟨b.take (b.length - (END_MSG.length + 1)) ++ [x], s, by rw [List.append_assoc]; exact hb, ?_⟩
        simp at hm; simp [hm]
    · split at h <;> simp at h

/-- **C26 (cut files are refused).** A cut of a complete file, anywhere, is refused by the check, provided the final message
does not occur earlier in the file.  Missing for the full property: files with that text inside, see `C26_cut_violation`. -/
theorem C26_sound_cut_partial {D : Type} (c : Codec D) (sel : Str → Bool) (w : World D) (B : Bytes) (hw : wAll c sel w = bytes B)
    (b : Bytes) (hcut : b <+: B) (honly : ∀ p s, B = p ++ (END_MSG.map byteOf ++ s) → s = [0]) (h : sound b = .ok true) : b = B := by
  obtain ⟨p, s, rfl, hs⟩ := sound_iff b h
  obtain ⟨r, rfl⟩ := hcut
  have h1 := honly p (s ++ r) (by simp)
  cases s with
  | nil =>
    exfalso
    simp only [List.nil_append] at h1
    subst h1
    obtain ⟨p', hp'⟩ := end_suffix c sel w _ hw
    have e : p = p' ++ encU (END_MSG.length + 1) := by
      rw [List.append_nil, ← List.append_assoc, ← List.append_assoc] at hp'
      exact List.append_cancel_right (List.append_cancel_right hp')
    subst e
    have hl : ∀ q : Bytes, (q ++ (0 :: END_MSG.map byteOf)).drop ((q ++ (0 :: END_MSG.map byteOf)).length - (END_MSG.length + 1)) =
        0 :: END_MSG.map byteOf := by
      intro q
      have : (0 :: END_MSG.map byteOf : Bytes).length = END_MSG.length + 1 := by simp
      rw [List.length_append, this, Nat.add_sub_cancel, List.drop_left]
    have e2 : p' ++ encU (END_MSG.length + 1) ++ (END_MSG.map byteOf ++ []) =
        (p' ++ [30, 0, 0]) ++ (0 :: END_MSG.map byteOf) := by
      rw [List.append_nil, show encU (END_MSG.length + 1) = [30, 0, 0] ++ [0] by decide]
      simp
    rw [e2] at h
    unfold sound at h
    simp only [hl] at h
    rw [if_neg (by simp; omega), if_neg (by decide), if_neg (by decide), if_pos (by decide)] at h
    exact absurd h (by decide)
  | cons x s =>
    simp only [List.cons_append, List.cons.injEq, List.append_eq_nil_iff] at h1
    rw [h1.2.2]; simp

/-- **C26 (restart).** The file chosen for a restart was accepted by the check, and no accepted file is later. -/
theorem C26_pick (l : List (Nat × Bytes)) (t0 t : Nat) (o0 o : Option Bytes) (h : pick l (t0, o0) = .ok (t, o)) :
    t0 ≤ t ∧ ((t, o) = (t0, o0) ∨ ∃ b, (t, b) ∈ l ∧ sound b = .ok true ∧ o = some b) ∧
    ∀ x ∈ l, sound x.2 = .ok true → x.1 ≤ t := by
  induction l generalizing t0 o0 with
  | nil =>
    simp only [pick, Res.ok.injEq, Prod.mk.injEq] at h
    obtain ⟨rfl, rfl⟩ := h
    exact ⟨le_refl _, .inl rfl, by simp⟩
  | cons x l ih =>
    obtain ⟨tx, bx⟩ := x
    simp only [pick] at h
    split at h
    · rename_i hlt
      obtain ⟨s, hs, h⟩ := Res.bind_eq_ok h
      cases s with
      | true =>
        simp only [if_true] at h
        obtain ⟨h1, h2, h3⟩ := ih tx (some bx) h
        refine ⟨by omega, ?_, fun x hx hsx => ?_⟩
        · rcases h2 with h2 | ⟨b, hb, hb2, hb3⟩
          · simp only [Prod.mk.injEq] at h2
            exact .inr ⟨bx, by simp [h2.1], hs, h2.2⟩
          · exact .inr ⟨b, by simp [hb], hb2, hb3⟩
        · rcases List.mem_cons.1 hx with rfl | hx
          · exact h1
          · exact h3 x hx hsx
      | false =>
        simp only [Bool.false_eq_true, if_false] at h
        obtain ⟨h1, h2, h3⟩ := ih t0 o0 h
        refine ⟨h1, ?_, fun x hx hsx => ?_⟩
        · rcases h2 with h2 | ⟨b, hb, hb2, hb3⟩
          · exact .inl h2
          · exact .inr ⟨b, by simp [hb], hb2, hb3⟩
        · rcases List.mem_cons.1 hx with rfl | hx
          · rw [hs] at hsx; cases hsx
          · exact h3 x hx hsx
    · rename_i hle
      obtain ⟨h1, h2, h3⟩ := ih t0 o0 h
      refine ⟨h1, ?_, fun x hx hsx => ?_⟩
      · rcases h2 with h2 | ⟨b, hb, hb2, hb3⟩
        · exact .inl h2
        · exact .inr ⟨b, by simp [hb], hb2, hb3⟩
      · rcases List.mem_cons.1 hx with rfl | hx
        · simp only at hle ⊢; omega
        · exact h3 x hx hsx

/-! ### a concrete case, and violations -/

/-- one-byte numbers -/
def toyCodec : Codec UInt8 := ⟨fun d => d :: List.replicate 7 0, fun b => b.headD 0⟩

theorem toyCodec_ok : toyCodec.OK := fun x => ⟨rfl, rfl⟩

/-- two parameters, one patch with a saved, an unsaved and an empty field -/
def toyWorld : World UInt8 :=
  ⟨[⟨"a".toList, some "1".toList, none, 7, none, false, true⟩, ⟨"b".toList, none, some "1->2".toList, 0, some [1, 2], true, false⟩], 3,
    "box".toList, [[⟨"psi".toList, some [1, 2, 3]⟩, ⟨"dpsi".toList, some [4]⟩, ⟨"phi".toList, none⟩]]⟩

theorem cstr_some {s : Str} (h : CStr s) : CStr? (some s) := fun t ht => by cases ht; exact h

theorem cstr_none : CStr? none := fun t ht => by cases ht

theorem arr_some {D : Type} {s : List D} (h : s ≠ [] ∧ s.length < 4294967296) : Arr? (some s) := fun t ht => by cases ht; exact h

theorem arr_none {D : Type} : Arr? (none : Option (List D)) := fun t ht => by cases ht

/-- the hypotheses of the round trip hold of it -/
theorem toyWorld_ok : WFWorld (fun n => n = "psi".toList) toyWorld := by
  refine ⟨?_, by decide, by decide, ⟨"box".toList, by decide, by decide⟩, by decide, ?_, by decide⟩
  · intro p hp
    simp only [toyWorld, List.mem_cons, List.not_mem_nil, or_false] at hp
    rcases hp with rfl | rfl
    · exact ⟨⟨by decide, by decide⟩, cstr_some ⟨by decide, by decide⟩, cstr_none, arr_none⟩
    · exact ⟨⟨by decide, by decide⟩, cstr_none, cstr_some ⟨by decide, by decide⟩, arr_some ⟨by simp, by decide⟩⟩
  · intro g hg f hf
    simp only [toyWorld, List.mem_singleton] at hg
    subst hg
    simp only [List.mem_cons, List.not_mem_nil, or_false] at hf
    rcases hf with rfl | rfl | rfl
    · exact ⟨⟨by decide, by decide⟩, arr_some ⟨by simp, by decide⟩⟩
    · exact ⟨⟨by decide, by decide⟩, arr_some ⟨by simp, by decide⟩⟩
    · exact ⟨⟨by decide, by decide⟩, arr_none⟩

example : ∃ B, wAll toyCodec (fun n => n = "psi".toList) toyWorld = bytes B ∧ sound B = .ok true ∧
    runActs ⟨none, some [1]⟩ (script (bytes B)) = (⟨none, some B⟩, true) ∧
    (runActs ⟨none, some [1]⟩ ((script (bytes B)).take 20)).1.final = some [1] := by
  obtain ⟨B, hB, -⟩ := C25_roundtrip (⟨fun _ => 0, fun _ => [], 0, 0⟩ : Libc UInt8) toyCodec toyCodec_ok _ toyWorld toyWorld_ok
  refine ⟨B, hB, C26_sound_complete _ _ _ _ hB, C26_complete _ _, ?_⟩
  rcases C26_atomic ⟨none, some [1]⟩ (bytes B) 20 with h | ⟨B', -, -, hk⟩
  · exact h
  · exfalso
    obtain ⟨p, rfl⟩ := end_suffix _ _ _ _ hB
    have : END_MSG.length = 29 := by decide
    simp [script, bytes] at hk
    omega

/-- the bytes of a stream without stop -/
def payload : List Emit → Bytes
  | [] => []
  | .byte b :: r => b :: payload r
  | .stop :: _ => []

/-- Violation: a parameter whose text is the final message makes a file that is cut right after it look complete. -/
theorem C26_cut_violation :
    let w : World UInt8 := ⟨[⟨"a".toList, some END_MSG, none, 0, none, false, false⟩], 0, "box".toList, []⟩
    ∃ B, wAll toyCodec (fun _ => true) w = bytes B ∧ ∃ b, b <+: B ∧ b.length + 31 < B.length ∧ sound b = .ok true := by
  refine ⟨payload (wAll toyCodec (fun _ => true) ⟨[⟨"a".toList, some END_MSG, none, 0, none, false, false⟩], 0, "box".toList, []⟩),
    by decide +kernel, _, List.take_prefix 132 _, by decide +kernel, by decide +kernel⟩

/-- Violation: the temporary file left by a crash makes every later checkpoint in that directory stop the program, however
often it is tried. -/
theorem C26_leftover_violation (t : Bytes) (f : Option Bytes) (out : List Emit) :
    runActs ⟨some t, f⟩ (script out) = (⟨some t, f⟩, false) := rfl

/-- such a left-over is what a crash during the writing leaves behind -/
theorem C26_leftover_reachable (f : Option Bytes) (B : Bytes) (k : Nat) (h2 : 2 ≤ k) (hk : k < (script (bytes B)).length) :
    ((runActs ⟨none, f⟩ ((script (bytes B)).take k)).1.temp).isSome := by
  obtain ⟨j, rfl⟩ : ∃ j, k = j + 2 := ⟨k - 2, by omega⟩
  have hj : j ≤ B.length := by simp [script, bytes] at hk; omega
  have e : (script (bytes B)).take (j + 2) = [.refuseOld, .create] ++ (bytes (B.take j)).map .emit := by
    simp only [script, List.cons_append, List.nil_append, List.take_succ_cons]
    rw [List.take_append_of_le_length (by simpa [bytes] using hj)]
    simp [bytes, List.map_take]
  rw [e, runActs_append]
  have e2 : runActs ⟨none, f⟩ [.refuseOld, .create] = (⟨some [], f⟩, true) := rfl
  rw [e2]
  simp only [if_true]
  rw [emit_bytes]; rfl

end Elliptica.Ckpt
