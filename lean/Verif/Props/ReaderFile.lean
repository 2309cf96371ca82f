import Verif.Props.Reader
import Mathlib.Tactic.FinCases
import Mathlib.Data.Fintype.Pi
/-!
C78: the files of coordinates and of fields, what happens to memory, and concrete readers.
-/
namespace Elliptica.Reader
open Elliptica Elliptica.Ckpt Elliptica.ReaderSpec Elliptica.TextSpec

theorem titles : CStr HEADER ∧ CStr FOOTER ∧ CStr END_MSG := by
  refine ⟨?_, ?_, ?_⟩ <;> · unfold CStr; decide +kernel

theorem wStr_eq (s : Str) : wStr (some s) = bytes (ReaderSpec.str s) := rfl

theorem wD_eq {D : Type} (c : Codec D) (x : D) : wD c x = bytes (dbl c x) := rfl

theorem bytes_inj {a b : Bytes} (h : bytes a = bytes b) : a = b :=
  List.map_injective_iff.2 (fun _ _ e => Emit.byte.inj e) h

theorem rTitle_str (t : Str) (h : CStr t) (r : Bytes) : rTitle t (ReaderSpec.str t ++ r) = .ok r := by
  obtain ⟨B, e, hB⟩ := Enc.title t h
  rw [wStr_eq] at e
  rw [bytes_inj e]
  exact hB r

theorem rD_dbl {D : Type} (c : Codec D) (hc : c.OK) (x : D) (r : Bytes) : rD c (dbl c x ++ r) = .ok (x, r) := by
  obtain ⟨B, e, hB⟩ := enc_d c hc x
  rw [wD_eq] at e
  rw [bytes_inj e]
  exact hB r

theorem rU_enc (n : Nat) (h : n < 4294967296) (r : Bytes) : rU ((encU 1 ++ encU n) ++ r) = .ok (n, r) := by
  obtain ⟨B, e, hB⟩ := enc_u n h
  have : (encU 1 ++ encU n) = B := bytes_inj e
  rw [this]
  exact hB r

theorem afterLine_ok (line : Bytes) (r : Bytes) (n : Nat) (h : line.length < n) (hn : byteOf '\n' ∉ line) :
    afterLine n (line ++ byteOf '\n' :: r) = r := by
  induction line generalizing n with
  | nil =>
    cases n with
    | zero => simp at h
    | succ n => simp [afterLine]
  | cons x line ih =>
    cases n with
    | zero => simp at h
    | succ n =>
      have hx : x ≠ byteOf '\n' := fun e => hn (by simp [e])
      rw [List.cons_append, afterLine, if_neg hx]
      exact ih n (by simpa using h) (fun h' => hn (by simp [h']))

theorem rPoints_ok {D : Type} (c : Codec D) (hc : c.OK) (finite : D → Bool) (xs : List (Fin 3 → D))
    (hf : ∀ x ∈ xs, ∀ i, finite (x i) = true) (r : Bytes) :
    rPoints c finite xs.length (xs.flatMap (fun x => dbl c (x 0) ++ (dbl c (x 1) ++ dbl c (x 2))) ++ r) = .ok (xs, r) := by
  induction xs with
  | nil => rfl
  | cons x xs ih =>
    have h := hf x (by simp)
    have e : (fun i : Fin 3 => if i = 0 then x 0 else if i = 1 then x 1 else x 2) = x := by
      funext i; fin_cases i <;> rfl
    simp only [List.length_cons, List.flatMap_cons, List.append_assoc, rPoints, rCoord, rD_dbl c hc, Res.bind_ok, h, if_true,
      ih fun y hy => hf y (by simp [hy]), e]

/-- A file of coordinates in the documented format (a line of at most 997 characters first) is read back exactly. -/
theorem C78_coords {D : Type} (c : Codec D) (hc : c.OK) (finite : D → Bool) (line : Str) (xs : List (Fin 3 → D))
    (hl : line.length ≤ 997) (hnl : ∀ ch ∈ line, ch.toNat < 256 ∧ ch ≠ '\n') (hn : xs.length < 4294967296)
    (hf : ∀ x ∈ xs, ∀ i, finite (x i) = true) : readCoords c finite (coordsFile c line xs) = .ok xs := by
  have h1 : byteOf '\n' ∉ line.map byteOf := by
    intro h
    obtain ⟨ch, hch, e⟩ := List.mem_map.1 h
    obtain ⟨a, b⟩ := hnl ch hch
    apply b
    have := congrArg charOf e
    rwa [charOf_byteOf ch a, charOf_byteOf '\n' (by decide)] at this
  obtain ⟨t1, t2, -⟩ := titles
  simp only [readCoords, coordsFile]
  rw [afterLine_ok _ _ 998 (by simp; omega) h1]
  rw [show ("#{data#" : String).toList = HEADER from rfl, rTitle_str HEADER t1]
  simp only [Res.bind_ok, rU_enc xs.length hn, rPoints_ok c hc finite xs hf]
  have := rTitle_str FOOTER t2 []
  rw [List.append_nil] at this
  rw [show ("#}data#" : String).toList = FOOTER from rfl, this]
  rfl

/-- A coordinate that is not finite is refused. -/
theorem C78_coords_bad {D : Type} (c : Codec D) (hc : c.OK) (finite : D → Bool) (line : Str) (pre post : List (Fin 3 → D)) (x : Fin 3 → D)
    (hl : line.length ≤ 997) (hnl : ∀ ch ∈ line, ch.toNat < 256 ∧ ch ≠ '\n') (hn : (pre ++ x :: post).length < 4294967296)
    (hf : ∀ x ∈ pre, ∀ i, finite (x i) = true) (i : Fin 3) (hx : finite (x i) = false) :
    readCoords c finite (coordsFile c line (pre ++ x :: post)) = .abort := by
  have h1 : byteOf '\n' ∉ line.map byteOf := by
    intro h
    obtain ⟨ch, hch, e⟩ := List.mem_map.1 h
    obtain ⟨a, b⟩ := hnl ch hch
    apply b
    have := congrArg charOf e
    rwa [charOf_byteOf ch a, charOf_byteOf '\n' (by decide)] at this
  obtain ⟨t1, t2, -⟩ := titles
  simp only [readCoords, coordsFile]
  rw [afterLine_ok _ _ 998 (by simp; omega) h1]
  rw [show ("#{data#" : String).toList = HEADER from rfl, rTitle_str HEADER t1]
  simp only [Res.bind_ok, rU_enc _ hn]
  have key : ∀ (pre : List (Fin 3 → D)), (∀ x ∈ pre, ∀ i, finite (x i) = true) → ∀ r, rPoints c finite (pre ++ x :: post).length
      ((pre ++ x :: post).flatMap (fun x => dbl c (x 0) ++ (dbl c (x 1) ++ dbl c (x 2))) ++ r) = .abort := by
    intro pre
    induction pre with
    | nil =>
      intro _ r
      simp only [List.nil_append, List.length_cons, List.flatMap_cons, List.append_assoc, rPoints, rCoord, rD_dbl c hc, Res.bind_ok]
      by_cases h0 : finite (x 0) = true
      · simp only [h0, if_true, Res.bind_ok, rD_dbl c hc]
        by_cases h1 : finite (x 1) = true
        · simp only [h1, if_true, Res.bind_ok, rD_dbl c hc]
          have h2 : finite (x 2) = false := by
            fin_cases i
            · rw [show finite (x 0) = false from hx] at h0; cases h0
            · rw [show finite (x 1) = false from hx] at h1; cases h1
            · exact hx
          simp [h2]
        · simp [h1]
      · simp [h0]
    | cons y pre ih =>
      intro hp r
      have h := hp y (by simp)
      simp only [List.cons_append, List.length_cons, List.flatMap_cons, List.append_assoc, rPoints, rCoord, rD_dbl c hc, Res.bind_ok, h,
        if_true, ih (fun z hz => hp z (by simp [hz])), Res.bind_abort]
  rw [key pre hf]
  rfl

theorem findPlain_ok {D X V : Type} (grid : List (Patch D X V)) (xs : List (Fin 3 → D)) (order : List Nat)
    (ho : order.Perm (List.range xs.length)) (pnt : List (Slot X))
    (h : (loop xs.length order fun p => (point xs p).bind (findPlain grid)) = .ok pnt) : Located grid xs pnt := by
  obtain ⟨h1, h2⟩ := (loop_ok _ _ ho _ _).1 h
  refine ⟨h1, fun p hp hp' => ?_⟩
  have := h2 p hp
  simp only [point, List.getElem?_eq_getElem hp', Res.bind_ok, findPlain, bind_ok_iff] at this
  obtain ⟨⟨q, pa, x⟩, hl, h3⟩ := this
  have e : pnt[p] = ⟨q, x⟩ := (Res.ok.inj h3).symm
  exact ⟨pa, by rw [hl, e]⟩

theorem writeLoop_ok {D X V : Type} (c : Codec D) (finite : D → Bool) (grid : List (Patch D X V)) (pnt : List (Slot X))
    (fi : List (List Nat)) (evos : List Str) (order : Nat → List Nat) : ∀ (names : List Str) (f : Nat) (out : List Emit),
    writeLoop c finite grid pnt fi evos order f names = .ok out → ∃ fs : List (Str × List D),
      out = bytes (fs.flatMap fun a => ReaderSpec.str a.1 ++ a.2.flatMap (dbl c)) ∧ fs.length = names.length ∧
      ∀ (g : Nat) (a : Str × List D), fs[g]? = some a → evos[f + g]? = some a.1 ∧
        valuesF finite grid pnt fi (f + g) (order (f + g)) = .ok a.2
  | [], f, out, h => by
    simp only [writeLoop, Res.ok.injEq] at h
    exact ⟨[], by simp [← h, bytes], rfl, fun g a ha => by simp at ha⟩
  | n :: names, f, out, h => by
    simp only [writeLoop] at h
    cases he : evos[f]? with
    | none => simp [he] at h
    | some e =>
      simp only [he, bind_ok_iff, Res.ok.injEq] at h
      obtain ⟨l, hl, r, hr, rfl⟩ := h
      obtain ⟨fs, h1, h2, h3⟩ := writeLoop_ok c finite grid pnt fi evos order names (f + 1) r hr
      refine ⟨(e, l) :: fs, ?_, by simp [h2], ?_⟩
      · have hw : l.flatMap (wD c) = bytes (l.flatMap (dbl c)) := by
          simp only [bytes, List.map_flatMap]
          rfl
        rw [h1, hw, wStr_eq, ← bytes_append, ← bytes_append]
        simp
      · intro g a ha
        cases g with
        | zero => simp only [List.getElem?_cons_zero, Option.some.injEq] at ha; subst ha; exact ⟨by simpa using he, by simpa using hl⟩
        | succ g =>
          rw [List.getElem?_cons_succ] at ha
          have := h3 g a ha
          rwa [show f + 1 + g = f + (g + 1) by omega] at this

theorem assemble {D : Type} (c : Codec D) (title : Str) (fs : List (Str × List D)) :
    newFile title ++ (bytes (fs.flatMap fun a => ReaderSpec.str a.1 ++ a.2.flatMap (dbl c)) ++ closeFile) =
      bytes (fieldsFile c title fs) := by
  unfold newFile closeFile fieldsFile HEADER FOOTER END_MSG
  generalize ("# this file contains values of " : String).toList = t1
  generalize ("#{data#" : String).toList = t2
  generalize ("#}data#" : String).toList = t3
  generalize ("\n#file_completed#\n" : String).toList = t4
  rw [wStr_eq, wStr_eq, wStr_eq, ← bytes_append, ← bytes_append, ← bytes_append, ← bytes_append]
  congr 1
  simp only [List.append_assoc]

/-- The file written for the points of a coordinate file: it has the documented format, one block per field in the order given, under
the name paired with it, holding the values of the field at the points, all finite. -/
theorem C78_file {D X V : Type} (c : Codec D) (finite : D → Bool) (grid : List (Patch D X V)) (o1 : List Nat) (order : Nat → List Nat)
    (b : Bytes) (xs : List (Fin 3 → D)) (pnt : List (Slot X)) (ho1 : o1.Perm (List.range xs.length))
    (ho : ∀ f, (order f).Perm (List.range xs.length)) (hload : loadCoords c finite grid o1 b = .ok (xs, pnt)) (title names evos : Str)
    (ns es : List Str) (hn : Splits ',' names ns) (he : Splits ',' evos es) (out : List Emit)
    (h : writeFile c finite grid pnt title names evos order = .ok out) :
    ∃ fs : List (Str × List D), out = bytes (fieldsFile c title fs) ∧ fs.length = ns.length ∧
      ∀ (f : Nat) (n : Str) (a : Str × List D), ns[f]? = some n → fs[f]? = some a → es[f]? = some a.1 ∧ a.2.length = xs.length ∧
        ∀ (p : Nat) (x : Fin 3 → D) (d : D), xs[p]? = some x → a.2[p]? = some d → HasValue grid x n d ∧ finite d = true := by
  have e1 : Text.readItems ',' names = ns := Props.Text.C09_items_partial ',' names ns hn
  have e2 : Text.readItems ',' evos = es := Props.Text.C09_items_partial ',' evos es he
  simp only [loadCoords, bind_ok_iff, Res.ok.injEq, Prod.mk.injEq] at hload
  obtain ⟨xs', -, pnt', hp, rfl, rfl⟩ := hload
  obtain ⟨hll, hloc⟩ := findPlain_ok grid xs' o1 ho1 pnt' hp
  simp only [writeFile, bind_ok_iff, Res.ok.injEq, writeFields, e1, e2] at h
  obtain ⟨r, hr, rfl⟩ := h
  split_ifs at hr
  simp only [bind_ok_iff] at hr
  obtain ⟨fi, hfi, hr⟩ := hr
  obtain ⟨fs, h1, h2, h3⟩ := writeLoop_ok c finite grid pnt' fi es order ns 0 r hr
  refine ⟨fs, ?_, h2, ?_⟩
  · rw [h1, assemble]
  · intro f n a hf ha
    obtain ⟨hf', ef⟩ := List.getElem?_eq_some_iff.1 hf
    obtain ⟨a1, a2⟩ := h3 f a ha
    rw [Nat.zero_add] at a1 a2
    simp only [valuesF, bind_ok_iff, loop_ok _ _ (show (order f).Perm (List.range pnt'.length) by rw [hll]; exact ho f)] at a2
    obtain ⟨l, ⟨l1, l2⟩, l3⟩ := a2
    split_ifs at l3 with hfin
    have hla : l = a.2 := Res.ok.inj l3
    subst hla
    refine ⟨a1, l1.trans hll, fun p x d hx hd => ?_⟩
    obtain ⟨hpx, ex⟩ := List.getElem?_eq_some_iff.1 hx
    obtain ⟨hpd, ed⟩ := List.getElem?_eq_some_iff.1 hd
    have hp2 : p < pnt'.length := by omega
    have hb := l2 p hpd
    simp only [slot, List.getElem?_eq_getElem hp2, Res.bind_ok, bind_ok_iff] at hb
    obtain ⟨sl, hsl, v, hv, hb⟩ := hb
    have hsl' : pnt'[p] = sl := Res.ok.inj hsl
    subst hsl'
    obtain ⟨pa, hpa⟩ := hloc p hp2 hpx
    have hg := ((locate_ok grid _ _ _ _).1 hpa).1
    rw [hg] at hb
    simp only at hb
    split_ifs at hb
    have hvd : v = d := by rw [← ed]; exact Res.ok.inj hb
    subst hvd
    have := interp_value grid ns fi hfi f hf' _ _ pa hpa v hv
    rw [ef, ex] at this
    exact ⟨this, List.all_eq_true.1 hfin v (List.mem_of_getElem? hd)⟩

/-! ### concrete readers -/

/-- two patches on the line, splitting it at 0 (both own 0); patch coordinates are x on the left and x - 10 on the right; a field is
a slope and an intercept in x -/
def demoGrid : List (Patch Int Int (Int × Int)) :=
  [⟨fun x => if x 0 ≤ 0 then some (x 0) else none, [⟨"psi".toList, (1, 0)⟩, ⟨"B0_U0".toList, (2, 5)⟩], true, fun v X => v.1 * X + v.2⟩,
   ⟨fun x => if 0 ≤ x 0 then some (x 0 - 10) else none, [⟨"B0_U0".toList, (2, 5)⟩, ⟨"psi".toList, (1, 0)⟩], true,
     fun v X => v.1 * (X + 10) + v.2⟩]

def pt (a : Int) : Fin 3 → Int := fun i => if i = 0 then a else 0

/-- fill returns, for points on both sides, in any of two orders -/
example : fill (fun _ => true) demoGrid (pt 1) [pt (-3), pt 4, pt (-1)] "B0_U0,psi".toList "betax,alpha".toList [2, 0, 1]
    (fun _ => [1, 2, 0]) (List.replicate 22 none) =
      .ok ([some [-2, 5, 0], some [1, 15, 5]] ++ List.replicate 20 none) := by decide +kernel

example : Splits ',' "B0_U0,psi".toList ["B0_U0".toList, "psi".toList] := by
  exact .cons "B0_U0".toList 0 "psi".toList _ (by decide) (by decide) (by decide) (.last _ (by decide) (by decide))

/-- the values by the specification -/
example : HasValue demoGrid (fun i => pt (-1) i + pt 1 i) "B0_U0".toList 5 :=
  ⟨[], _, _, rfl, by simp, 0, by decide, ⟨"B0_U0".toList, (2, 5)⟩, by simp [demoGrid], rfl, by decide⟩

/-- a point outside every patch is refused, and so are an unknown field, an unknown name of the evolution code and a value that is
not finite -/
example : fill (fun _ => true) (demoGrid.take 1) (pt 0) [pt 4] "psi".toList "alpha".toList [0] (fun _ => [0]) (List.replicate 22 none)
      = .abort ∧
    fill (fun _ => true) demoGrid (pt 0) [pt 4] "phi".toList "alpha".toList [0] (fun _ => [0]) (List.replicate 22 none) = .abort ∧
    fill (fun _ => true) demoGrid (pt 0) [pt 4] "psi".toList "lapse".toList [0] (fun _ => [0]) (List.replicate 22 none) = .abort ∧
    fill (fun d => d < 3) demoGrid (pt 0) [pt 4] "psi".toList "alpha".toList [0] (fun _ => [0]) (List.replicate 22 none) = .abort := by
  decide +kernel

/-- fieldx with names aligned to the dictionary -/
example : fieldx demoGrid (pt 1) ["psi".toList, "B0_U0".toList] "betax".toList (pt 4) = .ok 15 ∧
    fieldx demoGrid (pt 1) ["psi".toList, "B0_U0".toList] "alpha".toList (pt 4) = .ok 5 := by decide +kernel

/-- More fields than names of the evolution code: memory outside the list is read. -/
theorem C78_unpaired_violation : fill (fun _ => true) demoGrid (pt 0) [pt 4] "psi,B0_U0".toList "alpha".toList [0] (fun _ => [0])
    (List.replicate 22 none) = .ub := by decide +kernel

/-- elliptica_id_reader_lib.h says that `id_field_names` are the names "corresponding ... to ifield", the list the user sets.  With
`ifields` = "betax,alpha" in that order, the thread safe reader gives the shift when asked for the lapse, and reads memory outside the
list when `ifields` has only "betax". -/
theorem C78_fieldx_violation :
    fieldx demoGrid (pt 0) ["B0_U0".toList, "psi".toList] "alpha".toList (pt 4) = .ok 13 ∧
    HasValue demoGrid (fun i => pt 4 i + pt 0 i) "psi".toList 4 ∧
    fieldx demoGrid (pt 0) ["B0_U0".toList] "betax".toList (pt 4) = .ub := by
  refine ⟨by decide +kernel, ⟨[demoGrid[0]], demoGrid[1], [], rfl, ?_, -6, by decide, ⟨"psi".toList, (1, 0)⟩, by simp [demoGrid], rfl,
    by decide⟩, by decide +kernel⟩
  intro q hq
  simp only [List.mem_singleton] at hq
  subst hq
  decide

/-- a codec for numbers below 256 -/
def demoC : Codec Nat := ⟨fun n => [UInt8.ofNat n, 0, 0, 0, 0, 0, 0, 0], fun b => (b.getD 0 0).toNat⟩

/-- A first line of 998 characters or more in a file of coordinates is not skipped as a whole: the file is refused. -/
theorem C78_title_violation : readCoords demoC (fun _ => true) (coordsFile demoC (List.replicate 998 'a') []) = .abort := by
  decide +kernel

/-- a file of coordinates is read -/
example : (match readCoords demoC (fun _ => true) (coordsFile demoC "# points".toList [fun i => i.val + 1, fun i => 2 * i.val]) with
    | .ok l => l.map fun x => (x 0, x 1, x 2)
    | _ => []) = [(1, 2, 3), (0, 2, 4)] := by decide +kernel

/-! ### memory -/

/-- Freeing a reader that has no grid dereferences NULL. -/
theorem C78_free_violation (live : List Nat) : pntFree live pntInit = .ub := by
  simp [pntFree, pntInit]

/-- After the points of the user were taken over, freeing the reader frees the user's own coordinate arrays. -/
theorem C78_free_user_violation (live user : List Nat) (hu : user.Nodup) (hl : ∀ b ∈ user, b ∈ live) (p : Pnt) (hp : p.grid = true) :
    ∃ p', pntFind user p = .ok p' ∧ ∃ live', pntFree live p' = .ok live' ∧ ∀ b ∈ user, b ∉ live' := by
  refine ⟨{ p with xyz := user }, by simp [pntFind, hp], live.filter fun b => b ∉ user, ?_, ?_⟩
  · have : user.all (· ∈ live) = true := by simpa using hl
    unfold pntFree
    rw [if_pos ⟨this, hu⟩, if_pos hp]
  · intro b hb h
    simp [hb] at h

example : pntFind [7, 8, 9] ⟨true, []⟩ = .ok ⟨true, [7, 8, 9]⟩ ∧ pntFree [6, 7, 8, 9, 10] ⟨true, [7, 8, 9]⟩ = .ok [6, 10] := by
  decide +kernel

end Elliptica.Reader
