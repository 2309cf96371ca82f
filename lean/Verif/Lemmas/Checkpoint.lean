import Verif.Model.Checkpoint
import Verif.Lemmas.ParamMult
import Verif.Lemmas.Chars
import Verif.Props.TextSearch
import Mathlib.Tactic.NormNum
import Mathlib.Data.List.Infix
/-!
Lemmas for C25-C27: every reader inverts its writer.
-/
namespace Elliptica.Ckpt
open Elliptica Elliptica.Params Elliptica.Text Elliptica.ParamLemmas

/-- characters that fit in a C string: one byte, not the terminator -/
def CStr (s : Str) : Prop := s.length + 1 < 4294967296 ∧ ∀ c ∈ s, c.toNat ≠ 0 ∧ c.toNat < 256

/-- a null pointer or a C string -/
def CStr? (s : Option Str) : Prop := ∀ t, s = some t → CStr t

/-- eight bytes that decode to the number they encode -/
def Codec.OK {D : Type} (c : Codec D) : Prop := ∀ x, (c.enc x).length = 8 ∧ c.dec (c.enc x) = x

theorem charOf_byteOf (c : Char) (h : c.toNat < 256) : charOf (byteOf c) = c := by
  unfold charOf byteOf
  rw [UInt8.toNat_ofNat_of_lt' (by simpa using h), Char.ofNat_toNat]

theorem byteOf_ne (c : Char) (h0 : c.toNat ≠ 0) (h : c.toNat < 256) : byteOf c ≠ 0 := by
  intro hc
  have h1 : (byteOf c).toNat = 0 := by rw [hc]; rfl
  unfold byteOf at h1
  rw [UInt8.toNat_ofNat_of_lt' (by simpa using h)] at h1
  exact h0 h1

theorem rUraw_encU (n : Nat) (h : n < 4294967296) (r : Bytes) : rUraw (encU n ++ r) = .ok (n, r) := by
  simp only [encU, List.cons_append, List.nil_append, rUraw, UInt8.toNat_ofNat']
  congr 2
  omega

/-- `out` writes bytes from which `rd` reads `v` -/
def Enc {α : Type} (out : List Emit) (rd : Bytes → Res (α × Bytes)) (v : α) : Prop :=
  ∃ B, out = bytes B ∧ ∀ r, rd (B ++ r) = .ok (v, r)

theorem map_chars (s : Str) (h : ∀ c ∈ s, c.toNat ≠ 0 ∧ c.toNat < 256) : (s.map byteOf).map charOf = s := by
  induction s with
  | nil => rfl
  | cons c s ih =>
    simp only [List.map_cons]
    rw [charOf_byteOf c (h c (by simp)).2, ih fun x hx => h x (by simp [hx])]

theorem takeWhile_str (s : Str) (h : ∀ c ∈ s, c.toNat ≠ 0 ∧ c.toNat < 256) (r : Bytes) :
    ((s.map byteOf ++ 0 :: r).takeWhile (· ≠ 0)) = s.map byteOf := by
  induction s with
  | nil => simp
  | cons c s ih =>
    have := byteOf_ne c (h c (by simp)).1 (h c (by simp)).2
    have ih' := ih fun x hx => h x (by simp [hx])
    simp only [ne_eq, decide_not] at ih'
    simp [this, ih']

theorem enc_str (s : Option Str) (h : CStr? s) : Enc (wStr s) rStr s := by
  cases s with
  | none =>
    refine ⟨encU 0, rfl, fun r => ?_⟩
    simp [rStr, rUraw_encU]
  | some s =>
    obtain ⟨hl, hc⟩ := h s rfl
    refine ⟨_, rfl, fun r => ?_⟩
    have hlen : (s.map byteOf ++ [0]).length = s.length + 1 := by simp
    have hne : (s.map byteOf ++ [0] ++ r : Bytes) ≠ [] := by simp
    rw [rStr, List.append_assoc, rUraw_encU _ hl, Res.bind_ok]
    simp only [Nat.add_eq_zero_iff, one_ne_zero, and_false, if_false, hne]
    have ht : (s.map byteOf ++ [0] ++ r).take (s.length + 1) = s.map byteOf ++ [0] := by
      rw [← hlen, List.take_left]
    have hd : (s.map byteOf ++ [0] ++ r).drop (s.length + 1) = r := by
      rw [← hlen, List.drop_left]
    have hz : s.length + 1 - (s.map byteOf ++ [0] ++ r).length = 0 := by simp
    rw [ht, hd, hz]
    have := takeWhile_str s hc []
    simp only [ne_eq, decide_not] at this
    simp [this, map_chars s hc]

theorem decArr_flat {D : Type} (c : Codec D) (hc : c.OK) (xs : List D) (r : Bytes) :
    decArr c xs.length (xs.flatMap c.enc ++ r) = xs := by
  induction xs with
  | nil => rfl
  | cons x xs ih =>
    obtain ⟨h1, h2⟩ := hc x
    simp only [List.length_cons, decArr, List.flatMap_cons, List.append_assoc]
    rw [List.take_append_of_le_length (by omega), List.drop_append_of_le_length (by omega)]
    rw [List.take_of_length_le (by omega), List.drop_of_length_le (by omega), h2, List.nil_append, ih]

theorem flat_length {D : Type} (c : Codec D) (hc : c.OK) (xs : List D) : (xs.flatMap c.enc).length = 8 * xs.length := by
  induction xs with
  | nil => rfl
  | cons x xs ih => simp [(hc x).1, ih]; omega

/-- a null pointer or a non-empty array -/
def Arr? {D : Type} (a : Option (List D)) : Prop := ∀ xs, a = some xs → xs ≠ [] ∧ xs.length < 4294967296

theorem enc_arr {D : Type} (c : Codec D) (hc : c.OK) (a : Option (List D)) (h : Arr? a) : Enc (wArr c a) (rArr c) a := by
  match a, h with
  | none, _ =>
    refine ⟨encU 0, rfl, fun r => ?_⟩
    simp [rArr, rUraw_encU]
  | some [], h => exact absurd rfl (h [] rfl).1
  | some (x :: xs), h =>
    refine ⟨_, rfl, fun r => ?_⟩
    have hl := (h _ rfl).2
    simp only [List.length_cons] at hl
    have hf := flat_length c hc (x :: xs)
    simp only [List.length_cons] at hf
    rw [rArr, List.append_assoc, rUraw_encU _ hl, Res.bind_ok]
    have hlen : ((x :: xs).flatMap c.enc ++ r).length = 8 * (xs.length + 1) + r.length := by rw [List.length_append, hf]
    have hq : ((x :: xs).flatMap c.enc ++ r).length / 8 = xs.length + 1 + r.length / 8 := by rw [hlen]; omega
    have hm : min (xs.length + 1) (xs.length + 1 + r.length / 8) = xs.length + 1 := by omega
    simp only [Nat.add_eq_zero_iff, one_ne_zero, and_false, false_and, if_false, hq, hm, Nat.sub_self, List.replicate_zero,
      List.append_nil]
    have h1 := decArr_flat c hc (x :: xs) r
    simp only [List.length_cons] at h1
    rw [h1, ← hf, List.drop_left]

theorem enc_d {D : Type} (c : Codec D) (hc : c.OK) (x : D) : Enc (wD c x) (rD c) x := by
  refine ⟨_, rfl, fun r => ?_⟩
  obtain ⟨h1, h2⟩ := hc x
  rw [rD, List.append_assoc, rUraw_encU _ (by norm_num), Res.bind_ok]
  have : ¬ (c.enc x ++ r).length < 8 := by simp; omega
  simp only [one_ne_zero, if_false, if_true, this]
  rw [← h1, List.take_left, List.drop_left, h2]

theorem enc_u (n : Nat) (h : n < 4294967296) : Enc (wU n) rU n := by
  refine ⟨_, rfl, fun r => ?_⟩
  rw [rU, List.append_assoc, rUraw_encU _ (by norm_num), Res.bind_ok]
  simp only [one_ne_zero, if_false, if_true]
  rw [rUraw_encU n h]

theorem bytes_append (a b : Bytes) : bytes (a ++ b) = bytes a ++ bytes b := by simp [bytes]

/-- one writer after the other, one reader after the other -/
theorem Enc.bind {α β : Type} {o1 o2 : List Emit} {r1 : Bytes → Res (α × Bytes)} {v1 : α} {r2 : α → Bytes → Res (β × Bytes)}
    {v2 : β} (h1 : Enc o1 r1 v1) (h2 : Enc o2 (r2 v1) v2) : Enc (o1 ++ o2) (fun b => (r1 b).bind fun p => r2 p.1 p.2) v2 := by
  obtain ⟨B1, e1, f1⟩ := h1
  obtain ⟨B2, e2, f2⟩ := h2
  refine ⟨B1 ++ B2, by rw [e1, e2, bytes_append], fun r => ?_⟩
  show (r1 (B1 ++ B2 ++ r)).bind _ = _
  rw [List.append_assoc, f1]
  exact f2 r

theorem Enc.title (t : Str) (h : CStr t) : ∃ B, wStr (some t) = bytes B ∧ ∀ r, rTitle t (B ++ r) = .ok r := by
  obtain ⟨B, e, f⟩ := enc_str (some t) (fun s hs => by cases hs; exact h)
  exact ⟨B, e, fun r => by rw [rTitle, f r]; simp⟩

/-- a parameter that can be stored in a checkpoint file -/
def WFPar {D : Type} (p : Par D) : Prop :=
  CStr p.lv ∧ CStr? p.rv ∧ CStr? p.rvIp ∧ Arr? p.rvArray

theorem enc_par {D : Type} (c : Codec D) (hc : c.OK) (p : Par D) (h : WFPar p) : Enc (wPar c p) (rPar c) p := by
  obtain ⟨h1, h2, h3, h4⟩ := h
  have hn : rvN p < 4294967296 := by
    unfold rvN
    cases ha : p.rvArray with
    | none => simp
    | some xs => exact (h4 xs ha).2
  have ht : p.iterative.toNat < 4294967296 := by cases p.iterative <;> decide
  have hf : p.doubleFlg.toNat < 4294967296 := by cases p.doubleFlg <;> decide
  obtain ⟨B1, e1, f1⟩ := enc_str (some p.lv) (fun s hs => by cases hs; exact h1)
  obtain ⟨B2, e2, f2⟩ := enc_str p.rv h2
  obtain ⟨B3, e3, f3⟩ := enc_str p.rvIp h3
  obtain ⟨B4, e4, f4⟩ := enc_d c hc p.rvDouble
  obtain ⟨B5, e5, f5⟩ := enc_arr c hc p.rvArray h4
  obtain ⟨B6, e6, f6⟩ := enc_u _ hn
  obtain ⟨B7, e7, f7⟩ := enc_u _ ht
  obtain ⟨B8, e8, f8⟩ := enc_u _ hf
  refine ⟨B1 ++ (B2 ++ (B3 ++ (B4 ++ (B5 ++ (B6 ++ (B7 ++ B8)))))), ?_, fun r => ?_⟩
  · simp only [wPar, e1, e2, e3, e4, e5, e6, e7, e8, bytes_append]
  · simp only [rPar, List.append_assoc, f1, f2, f3, f4, f5, f6, f7, f8, Res.bind_ok]
    cases p with
    | mk lv rv ip x a it fl => cases it <;> cases fl <;> rfl

theorem enc_pars {D : Type} (c : Codec D) (hc : c.OK) (ps : List (Par D)) (h : ∀ p ∈ ps, WFPar p) :
    Enc (ps.flatMap (wPar c)) (rPars c ps.length) ps := by
  induction ps with
  | nil => exact ⟨[], rfl, fun r => rfl⟩
  | cons p ps ih =>
    obtain ⟨B1, e1, f1⟩ := enc_par c hc p (h p (by simp))
    obtain ⟨B2, e2, f2⟩ := ih fun q hq => h q (by simp [hq])
    refine ⟨B1 ++ B2, by rw [List.flatMap_cons, e1, e2, bytes_append], fun r => ?_⟩
    simp only [List.length_cons, rPars, List.append_assoc, f1, f2, Res.bind_ok]

/-! ### the header -/

/-- a word: no white space, no strange characters -/
def Word (s : Str) : Prop := s ≠ [] ∧ ∀ c ∈ s, (c.toNat ≠ 0 ∧ c.toNat < 256) ∧ isSpaceC c = false

theorem nl_space : isSpaceC (charOf (byteOf '\n')) = true := by decide

theorem tok_word (s : Str) (h : Word s) (r : Bytes) :
    tok (s.map byteOf ++ byteOf '\n' :: r) = some (s, byteOf '\n' :: r) ∧
    tok (byteOf '\n' :: (s.map byteOf ++ byteOf '\n' :: r)) = some (s, byteOf '\n' :: r) := by
  have hw : ∀ c ∈ s, isSpaceC (charOf (byteOf c)) = false := fun c hc => by
    rw [charOf_byteOf c (h.2 c hc).1.2]; exact (h.2 c hc).2
  have key : tok (s.map byteOf ++ byteOf '\n' :: r) = some (s, byteOf '\n' :: r) := by
    have h1 : (s.map byteOf ++ byteOf '\n' :: r).dropWhile (fun x => isSpaceC (charOf x)) = s.map byteOf ++ byteOf '\n' :: r := by
      cases s with
      | nil => exact absurd rfl h.1
      | cons c s => simp [hw c (by simp)]
    have h2 : (s.map byteOf ++ byteOf '\n' :: r).takeWhile (fun x => !isSpaceC (charOf x)) = s.map byteOf := by
      rw [List.takeWhile_append_of_pos]
      · simp [nl_space]
      · intro a ha
        obtain ⟨c, hc, rfl⟩ := List.mem_map.1 ha
        simp [hw c hc]
    have h3 : (s.map byteOf ++ byteOf '\n' :: r).dropWhile (fun x => !isSpaceC (charOf x)) = byteOf '\n' :: r := by
      rw [List.dropWhile_append_of_pos]
      · simp [nl_space]
      · intro a ha
        obtain ⟨c, hc, rfl⟩ := List.mem_map.1 ha
        simp [hw c hc]
    unfold tok
    simp only [h1]
    rw [if_neg (by simp), h2, h3, map_chars s fun c hc => (h.2 c hc).1]
  refine ⟨key, ?_⟩
  have : tok (byteOf '\n' :: (s.map byteOf ++ byteOf '\n' :: r)) = tok (s.map byteOf ++ byteOf '\n' :: r) := by
    unfold tok
    simp [nl_space]
  rw [this, key]

theorem digits_showNatAux (f n : Nat) : ∀ c ∈ showNatAux f n, c.isDigit = true := by
  induction f generalizing n with
  | zero => simp [showNatAux]
  | succ f ih =>
    have hd : ∀ k, k < 10 → (Char.ofNat (48 + k)).isDigit = true := by
      intro k hk
      interval_cases k <;> decide
    intro c hc
    unfold showNatAux at hc
    split at hc
    · simp only [List.mem_singleton] at hc
      rw [hc]; exact hd n (by omega)
    · simp only [List.mem_append, List.mem_singleton] at hc
      rcases hc with hc | hc
      · exact ih _ c hc
      · rw [hc]; exact hd _ (by omega)

theorem length_showNatAux (f n k : Nat) (h : n < 10 ^ (k + 1)) : (showNatAux f n).length ≤ k + 1 := by
  induction f generalizing n k with
  | zero => simp [showNatAux]
  | succ f ih =>
    unfold showNatAux
    split
    · simp
    · rename_i hn
      cases k with
      | zero => omega
      | succ k =>
        have := ih (n / 10) k (by rw [Nat.div_lt_iff_lt_mul (by norm_num)]; rw [pow_succ] at h; exact h)
        simp; omega

theorem isDigit_word (c : Char) (h : c.isDigit = true) : (c.toNat ≠ 0 ∧ c.toNat < 256) ∧ isSpaceC c = false := by
  have h1 : 48 ≤ c.toNat ∧ c.toNat ≤ 57 := by
    simp only [Char.isDigit, Bool.and_eq_true, decide_eq_true_eq, UInt32.le_iff_toNat_le, ge_iff_le] at h
    exact h
  refine ⟨⟨by omega, by omega⟩, ?_⟩
  simp only [isSpaceC]
  have hn : ∀ d : Char, d.toNat < 48 → decide (c = d) = false := by
    intro d hd
    rw [decide_eq_false_iff_not]
    rintro rfl
    omega
  simp [hn ' ' (by decide), hn '\t' (by decide), hn '\n' (by decide), hn '\r' (by decide), hn (Char.ofNat 11) (by decide),
    hn (Char.ofNat 12) (by decide)]

/-- the grid kinds of coordinate_utilities.c:922-955 -/
def kinds : List Str := ["SplitCubedSpherical(BH+NS)", "SplitCubedSpherical(NS+NS)", "SplitCubedSpherical(BH+BH)",
  "SplitCubedSpherical(NS)", "SplitCubedSpherical(BH)", "CubedSpherical(BH+NS)", "CubedSpherical(NS+NS)", "box"].map String.toList

/-- a grid kind the program knows, in any letter case -/
def Kind (k : Str) : Prop := ∃ k' ∈ kinds, strcmpI (some k) (some k') = true

theorem lower_space (c : Char) (h : isSpaceC c = true) : lower c = c := by
  simp only [isSpaceC, Bool.or_eq_true, decide_eq_true_eq] at h
  rcases h with ((((h | h) | h) | h) | h) | h <;> subst h <;> decide

theorem lower_big (c : Char) (h : c.toNat ≥ 256 ∨ c.toNat = 0) : lower c = c := by
  unfold lower
  rw [if_neg]
  rintro ⟨h1, h2⟩
  have e1 : ('A').toNat ≤ c.toNat := h1
  have e2 : c.toNat ≤ ('Z').toNat := h2
  have : ('A').toNat = 65 := rfl
  have : ('Z').toNat = 90 := rfl
  omega

theorem kind_word (k : Str) (h : Kind k) : Word k ∧ 'm' ∉ k ∧ k.length < 40 := by
  obtain ⟨k', hk', he⟩ := h
  simp only [strcmpI, decide_eq_true_eq] at he
  have hall : ∀ x ∈ kinds, x ≠ [] ∧ x.length < 40 ∧ (∀ c ∈ x.map lower, c.toNat ≠ 0 ∧ c.toNat < 256 ∧ isSpaceC c = false ∧ c ≠ 'm') := by
    decide
  obtain ⟨h1, h2, h3⟩ := hall k' hk'
  have hmem : ∀ c ∈ k, lower c ∈ k'.map lower := fun c hc => he ▸ List.mem_map_of_mem hc
  have hlen : k.length = k'.length := by have := congrArg List.length he; simpa using this
  refine ⟨⟨?_, fun c hc => ?_⟩, ?_, by omega⟩
  · rintro rfl; exact h1 (List.length_eq_zero_iff.1 (by simpa using hlen.symm))
  · have h4 := h3 _ (hmem c hc)
    refine ⟨?_, ?_⟩
    · by_contra hb
      have hb' : c.toNat ≥ 256 ∨ c.toNat = 0 := by omega
      rw [lower_big c hb'] at h4
      omega
    · by_contra hs
      have hs' : isSpaceC c = true := by simpa using hs
      rw [lower_space c hs'] at h4
      exact hs h4.2.2.1
  · intro hm
    exact (h3 _ (hmem 'm' hm)).2.2.2 (by decide)

theorem not_occurs (needle s : Str) (c : Char) (h1 : c ∈ needle) (h2 : c ∉ s) : occursIn needle s = false := by
  rw [Bool.eq_false_iff]
  intro h
  rw [Props.TextSearch.occursIn_iff] at h
  exact h2 (h.subset h1)

theorem occurs_prefix (needle r : Str) : occursIn needle (needle ++ r) = true := by
  rw [Props.TextSearch.occursIn_iff]
  exact (List.prefix_append _ _).isInfix

theorem uintOf_showNat (n : Nat) (h : n ≤ 2147483647) : uintOf (showNat n) = .ok n := by
  unfold uintOf atoiR
  simp only [atoi_showNat]
  rw [if_pos (by unfold INT_MAX; omega), Res.bind_ok]
  congr 1
  omega

theorem lit_word {s : Str} (h : (s ≠ [] ∧ ∀ c ∈ s, (c.toNat ≠ 0 ∧ c.toNat < 256) ∧ isSpaceC c = false)) : Word s := h

theorem word_append {s t : Str} (h1 : Word s) (h2 : ∀ c ∈ t, (c.toNat ≠ 0 ∧ c.toNat < 256) ∧ isSpaceC c = false) : Word (s ++ t) :=
  ⟨by simp [h1.1], fun c hc => by rcases List.mem_append.1 hc with h | h; exacts [h1.2 c h, h2 c h]⟩

theorem showNat_short (n : Nat) (h : n ≤ 2147483647) : (showNat n).length ≤ 10 := length_showNatAux _ n 9 (by omega)

/-- reading the header -/
theorem header_ok (np gn : Nat) (kind : Str) (hn : np ≤ 2147483647) (hg : gn ≤ 2147483647) (hk : Kind kind) :
    ∃ B, wHeader np gn kind = bytes B ∧ ∀ r, rHeader (B ++ r) = .ok (⟨np, gn, some kind⟩, r) := by
  refine ⟨_, rfl, fun r => ?_⟩
  obtain ⟨hw, hm, hlen⟩ := kind_word kind hk
  have w1 : Word ALLOC_HEADER := lit_word (by decide)
  have w2 : Word ALLOC_FOOTER := lit_word (by decide)
  have dig : ∀ n, ∀ c ∈ showNat n, (c.toNat ≠ 0 ∧ c.toNat < 256) ∧ isSpaceC c = false :=
    fun n c hc => isDigit_word c (digits_showNatAux _ n c hc)
  have w3 : Word ("number_of_parameters=".toList ++ showNat np) := word_append (lit_word (by decide)) (dig np)
  have w4 : Word ("grid_number=".toList ++ showNat gn) := word_append (lit_word (by decide)) (dig gn)
  have w5 : Word ("grid_kind=".toList ++ kind) := word_append (lit_word (by decide)) hw.2
  -- the bytes, line by line
  have e : ((ALLOC_HEADER ++ '\n' :: ("number_of_parameters=".toList ++ showNat np ++ '\n' :: ("grid_number=".toList ++ showNat gn
      ++ '\n' :: ("grid_kind=".toList ++ kind ++ '\n' :: (ALLOC_FOOTER ++ ['\n']))))).map byteOf) ++ r =
      ALLOC_HEADER.map byteOf ++ byteOf '\n' :: (("number_of_parameters=".toList ++ showNat np).map byteOf ++ byteOf '\n' ::
        (("grid_number=".toList ++ showNat gn).map byteOf ++ byteOf '\n' :: (("grid_kind=".toList ++ kind).map byteOf ++
          byteOf '\n' :: (ALLOC_FOOTER.map byteOf ++ byteOf '\n' :: r)))) := by
    simp only [List.map_append, List.map_cons, List.append_assoc, List.cons_append, List.map_nil, List.nil_append]
  rw [e, rHeader, (tok_word _ w1 _).1]
  have l1 : ¬ ALLOC_HEADER.length ≥ 400 := by decide
  simp only [l1, if_false, if_true]
  obtain ⟨f, hf⟩ : ∃ f, (byteOf '\n' :: (("number_of_parameters=".toList ++ showNat np).map byteOf ++ byteOf '\n' ::
        (("grid_number=".toList ++ showNat gn).map byteOf ++ byteOf '\n' :: (("grid_kind=".toList ++ kind).map byteOf ++
          byteOf '\n' :: (ALLOC_FOOTER.map byteOf ++ byteOf '\n' :: r))))).length = f + 4 := by
    refine ⟨_ - 4, (Nat.sub_add_cancel ?_).symm⟩
    simp only [List.length_cons, List.length_append]
    omega
  rw [hf]
  have n1 := showNat_short np hn
  have n2 := showNat_short gn hg
  have k1 : ¬ ("number_of_parameters=".toList ++ showNat np).length ≥ 400 := by
    rw [List.length_append]; have : "number_of_parameters=".toList.length = 21 := by decide
    omega
  have k2 : ¬ ("grid_number=".toList ++ showNat gn).length ≥ 400 := by
    rw [List.length_append]; have : "grid_number=".toList.length = 12 := by decide
    omega
  have k3 : ¬ ("grid_kind=".toList ++ kind).length ≥ 400 := by
    rw [List.length_append]; have : "grid_kind=".toList.length = 10 := by decide
    omega
  have k4 : ¬ ALLOC_FOOTER.length ≥ 400 := by decide
  have d1 : "number_of_parameters=".toList ++ showNat np ≠ ALLOC_FOOTER := by
    intro h; have h' : some 'n' = some '#' := congrArg List.head? h
    exact absurd h' (by decide)
  have d2 : "grid_number=".toList ++ showNat gn ≠ ALLOC_FOOTER := by
    intro h; have h' : some 'g' = some '#' := congrArg List.head? h
    exact absurd h' (by decide)
  have d3 : "grid_kind=".toList ++ kind ≠ ALLOC_FOOTER := by
    intro h; have h' : some 'g' = some '#' := congrArg List.head? h
    exact absurd h' (by decide)
  have a1 : afterChr '=' ("number_of_parameters=".toList ++ showNat np) = some (showNat np) := rfl
  have a2 : afterChr '=' ("grid_number=".toList ++ showNat gn) = some (showNat gn) := rfl
  have a3 : afterChr '=' ("grid_kind=".toList ++ kind) = some kind := rfl
  have o1 : occursIn "number_of_parameters".toList ("number_of_parameters=".toList ++ showNat np) = true :=
    occurs_prefix "number_of_parameters".toList ('=' :: showNat np)
  have nodig : ∀ n c, c ∈ showNat n → c.isDigit = true := fun n c hc => digits_showNatAux _ n c hc
  have o2 : occursIn "number_of_parameters".toList ("grid_number=".toList ++ showNat gn) = false := by
    refine not_occurs _ _ 'f' (by decide) ?_
    rw [List.mem_append]
    rintro (h | h)
    · revert h; decide
    · have := nodig _ _ h; revert this; decide
  have o3 : occursIn "grid_number".toList ("grid_number=".toList ++ showNat gn) = true :=
    occurs_prefix "grid_number".toList ('=' :: showNat gn)
  have nm : 'm' ∉ "grid_kind=".toList ++ kind := by
    rw [List.mem_append]
    rintro (h | h)
    · revert h; decide
    · exact hm h
  have o4 : occursIn "number_of_parameters".toList ("grid_kind=".toList ++ kind) = false := not_occurs _ _ 'm' (by decide) nm
  have o5 : occursIn "grid_number".toList ("grid_kind=".toList ++ kind) = false := not_occurs _ _ 'm' (by decide) nm
  have o6 : occursIn "grid_kind".toList ("grid_kind=".toList ++ kind) = true := occurs_prefix "grid_kind".toList ('=' :: kind)
  rw [hdrLoop, (tok_word _ w3 _).2]
  simp only [k1, if_false, d1, a1, o1, if_true, uintOf_showNat np hn, Res.bind_ok]
  rw [hdrLoop, (tok_word _ w4 _).2]
  simp only [k2, if_false, d2, a2, o2, o3, if_true, uintOf_showNat gn hg, Res.bind_ok, Bool.false_eq_true]
  rw [hdrLoop, (tok_word _ w5 _).2]
  simp only [k3, if_false, d3, a3, o4, o5, o6, if_true, Bool.false_eq_true]
  rw [hdrLoop, (tok_word _ w2 _).2]
  simp only [k4, if_false, if_true, List.drop_one, List.tail_cons]

end Elliptica.Ckpt
