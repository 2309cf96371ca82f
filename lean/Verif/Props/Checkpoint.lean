import Verif.Lemmas.Checkpoint
import Verif.Lemmas.ParamInv
/-!
Properties C25 (checkpoints round-trip) and C26 (writing is crash-atomic).
-/
namespace Elliptica.Ckpt
open Elliptica Elliptica.Params Elliptica.Text Elliptica.ParamLemmas Elliptica.ParamSpec

/-! ### specification of restored fields -/

/-- the values of the field with this name -/
def valOf {D : Type} (fs : List (Fld D)) (n : Str) : Option (Option (List D)) := (fs.find? fun f => f.name = n).map (·.v)

/-- is the field with this name one of those that are saved? -/
def isSaved {D : Type} (sel : Str → Bool) (fs : List (Fld D)) (n : Str) : Prop := ∃ f ∈ fs, f.name = n ∧ f.v.isSome ∧ sel n

/-- `new` is the patch `cur` in which the saved fields of `old` have their old values again, and no other field has changed -/
def Restored {D : Type} (sel : Str → Bool) (old cur new : List (Fld D)) : Prop :=
  new.map (·.name) = cur.map (·.name) ∧ ∀ n, (isSaved sel old n → valOf new n = valOf old n) ∧
    (¬ isSaved sel old n → valOf new n = valOf cur n)

/-- a world that fits in a checkpoint file -/
structure WFWorld {D : Type} (sel : Str → Bool) (w : World D) : Prop where
  pars : ∀ p ∈ w.ps, WFPar p
  npar : w.ps.length ≤ 2147483647
  gn : w.gn ≤ 2147483647
  kind : Kind w.kind
  names : ∀ g ∈ w.grid, (g.map (·.name)).Nodup
  flds : ∀ g ∈ w.grid, ∀ f ∈ g, CStr f.name ∧ Arr? f.v
  nflds : ∀ g ∈ w.grid, g.length < 4294967296

/-! ### fields -/

theorem setFld_ok {D : Type} (n : Str) (v : Option (List D)) (fs : List (Fld D)) (h : n ∈ fs.map (·.name)) :
    ∃ fs', setFld n v fs = .ok fs' ∧ fs'.map (·.name) = fs.map (·.name) ∧
      ∀ m, valOf fs' m = if m = n then some v else valOf fs m := by
  induction fs with
  | nil => simp at h
  | cons f fs ih =>
    unfold setFld
    by_cases hf : f.name = n
    · rw [if_pos hf]
      refine ⟨_, rfl, rfl, fun m => ?_⟩
      unfold valOf
      by_cases hm : m = n
      · subst hm; simp [hf]
      · have hfm : f.name ≠ m := fun e => hm (e ▸ hf)
        simp [hm, hfm]
    · rw [if_neg hf]
      obtain ⟨fs', h1, h2, h3⟩ := ih (by simpa [Ne.symm hf] using h)
      refine ⟨f :: fs', by rw [h1]; rfl, by simp [h2], fun m => ?_⟩
      have h3' := h3 m
      unfold valOf at h3' ⊢
      by_cases hfm : f.name = m
      · have hmn : m ≠ n := fun e => hf (hfm.trans e)
        simp [hfm, hmn]
      · simp [hfm, h3']

theorem flds_ok {D : Type} (c : Codec D) (hc : c.OK) (S : List (Fld D)) (hS : ∀ f ∈ S, CStr f.name ∧ Arr? f.v)
    (hnd : (S.map (·.name)).Nodup) (fs : List (Fld D)) (hin : ∀ f ∈ S, f.name ∈ fs.map (·.name)) :
    ∃ B fs', (S.flatMap fun f => wStr (some f.name) ++ wArr c f.v) = bytes B ∧ (∀ r, rFlds c S.length fs (B ++ r) = .ok (fs', r)) ∧
      fs'.map (·.name) = fs.map (·.name) ∧
      (∀ f ∈ S, valOf fs' f.name = some f.v) ∧ (∀ n, n ∉ S.map (·.name) → valOf fs' n = valOf fs n) := by
  induction S generalizing fs with
  | nil => exact ⟨[], fs, rfl, fun r => rfl, rfl, by simp, fun n _ => rfl⟩
  | cons f S ih =>
    obtain ⟨B1, e1, f1⟩ := enc_str (some f.name) (fun s hs => by cases hs; exact (hS f (by simp)).1)
    obtain ⟨B2, e2, f2⟩ := enc_arr c hc f.v (hS f (by simp)).2
    obtain ⟨fs1, h1, h2, h3⟩ := setFld_ok f.name f.v fs (hin f (by simp))
    rw [List.map_cons, List.nodup_cons] at hnd
    obtain ⟨B3, fs', g1, g2, g3, g4, g5⟩ := ih (fun g hg => hS g (by simp [hg])) hnd.2 fs1
      (fun g hg => by rw [h2]; exact hin g (by simp [hg]))
    refine ⟨B1 ++ (B2 ++ B3), fs', ?_, fun r => ?_, by rw [g3, h2], fun g hg => ?_, fun n hn => ?_⟩
    · rw [List.flatMap_cons, e1, e2, g1, bytes_append, bytes_append, List.append_assoc]
    · simp only [List.length_cons, rFlds, List.append_assoc, f1, f2, Res.bind_ok, h1, g2]
    · rcases List.mem_cons.1 hg with rfl | hg
      · rw [g5 _ hnd.1, h3, if_pos rfl]
      · exact g4 g hg
    · simp only [List.map_cons, List.mem_cons, not_or] at hn
      rw [g5 n hn.2, h3, if_neg hn.1]

theorem valOf_mem {D : Type} (fs : List (Fld D)) (hnd : (fs.map (·.name)).Nodup) (f : Fld D) (hf : f ∈ fs) :
    valOf fs f.name = some f.v := by
  induction fs with
  | nil => simp at hf
  | cons g fs ih =>
    rw [List.map_cons, List.nodup_cons] at hnd
    unfold valOf at ih ⊢
    rcases List.mem_cons.1 hf with rfl | hf
    · simp
    · have : g.name ≠ f.name := fun e => hnd.1 (e ▸ List.mem_map_of_mem hf)
      simp only [List.find?_cons, this, decide_false]
      exact ih hnd.2 hf

theorem patch_ok {D : Type} (c : Codec D) (hc : c.OK) (sel : Str → Bool) (g : List (Fld D)) (hnd : (g.map (·.name)).Nodup)
    (hg : ∀ f ∈ g, CStr f.name ∧ Arr? f.v) (hl : g.length < 4294967296) (cur : List (Fld D))
    (hcur : ∀ n, isSaved sel g n → n ∈ cur.map (·.name)) :
    ∃ B new, wPatch c sel g = bytes B ∧ Restored sel g cur new ∧
      ∀ r, ((rU (B ++ r)).bind fun (n, b) => rFlds c n cur b) = .ok (new, r) := by
  have hsub : ∀ f ∈ saved sel g, f ∈ g ∧ f.v.isSome = true ∧ sel f.name = true := fun f hf => by
    simpa [saved, List.mem_filter] using hf
  have hlen : (saved sel g).length < 4294967296 := lt_of_le_of_lt (List.length_filter_le _ _) hl
  obtain ⟨B1, e1, f1⟩ := enc_u (saved sel g).length hlen
  obtain ⟨B2, new, e2, f2, h3, h4, h5⟩ := flds_ok c hc (saved sel g) (fun f hf => hg f (hsub f hf).1)
    ((List.filter_sublist.map _).nodup hnd) cur
    (fun f hf => hcur _ ⟨f, (hsub f hf).1, rfl, (hsub f hf).2.1, (hsub f hf).2.2⟩)
  refine ⟨B1 ++ B2, new, by rw [wPatch, e1, e2, bytes_append], ⟨h3, fun n => ⟨?_, fun hn => ?_⟩⟩, fun r => ?_⟩
  · rintro ⟨f, hf, rfl, hv, hs⟩
    rw [h4 f (by simp [saved, List.mem_filter, hf, hv, hs]), valOf_mem g hnd f hf]
  · refine h5 n fun hm => hn ?_
    obtain ⟨f, hf, rfl⟩ := List.mem_map.1 hm
    exact ⟨f, (hsub f hf).1, rfl, (hsub f hf).2.1, (hsub f hf).2.2⟩
  · rw [List.append_assoc, f1, Res.bind_ok]
    exact f2 r

theorem patches_ok {D : Type} (c : Codec D) (hc : c.OK) (sel : Str → Bool) (grid cur : List (List (Fld D)))
    (hnd : ∀ g ∈ grid, (g.map (·.name)).Nodup) (hg : ∀ g ∈ grid, ∀ f ∈ g, CStr f.name ∧ Arr? f.v)
    (hl : ∀ g ∈ grid, g.length < 4294967296)
    (hcur : List.Forall₂ (fun g k => ∀ n, isSaved sel g n → n ∈ k.map Fld.name) grid cur) :
    ∃ B, ∃ new : List (List (Fld D)), grid.flatMap (wPatch c sel) = bytes B ∧ (∀ r, rPatches c cur (B ++ r) = .ok (new, r)) ∧
      new.length = grid.length ∧
      ∀ (i : Nat) g k q, grid[i]? = some g → cur[i]? = some k → new[i]? = some q → Restored sel g k q := by
  induction hcur with
  | nil => exact ⟨[], [], rfl, fun r => rfl, rfl, by simp⟩
  | @cons g k grid cur h _ ih =>
    obtain ⟨B1, q, e1, h1, f1⟩ := patch_ok c hc sel g (hnd g (by simp)) (hg g (by simp)) (hl g (by simp)) k h
    obtain ⟨B2, new, e2, f2, hlen, h2⟩ := ih (fun g hg' => hnd g (by simp [hg'])) (fun g hg' => hg g (by simp [hg']))
      (fun g hg' => hl g (by simp [hg']))
    refine ⟨B1 ++ B2, q :: new, by rw [List.flatMap_cons, e1, e2, bytes_append], fun r => ?_, by simp [hlen], ?_⟩
    · have := f1 (B2 ++ r)
      obtain ⟨⟨n, b⟩, hn, hb⟩ := Res.bind_eq_ok this
      rw [List.append_assoc, rPatches, hn, Res.bind_ok]
      simp only at hb ⊢
      rw [hb, Res.bind_ok]
      simp only
      rw [f2, Res.bind_ok]
    · intro i g' k' q' hg' hk' hq'
      cases i with
      | zero =>
        simp only [List.getElem?_cons_zero, Option.some.injEq] at hg' hk' hq'
        subst hg' hk' hq'
        exact h1
      | succ i =>
        simp only [List.getElem?_cons_succ] at hg' hk' hq'
        exact h2 i g' k' q' hg' hk' hq'

/-! ### C25 -/

theorem titles : CStr PARAM_HEADER ∧ CStr PARAM_FOOTER ∧ CStr FIELD_HEADER ∧ CStr FIELD_FOOTER ∧ CStr END_MSG := by
  unfold CStr; decide

/-- **C25 (round trip).** Writing a checkpoint produces a file from which, whatever parameter file the program was started
with, the header is read back, the parameters handed to the overriding step are exactly those that were written, and the
fields read into any grid whose patches have the saved fields get their old values, the others keeping theirs. -/
theorem C25_roundtrip {D : Type} (L : Libc D) (c : Codec D) (hc : c.OK) (sel : Str → Bool) (w : World D) (hw : WFWorld sel w) :
    ∃ B, wAll c sel w = bytes B ∧
      ∃ rest, (∀ cur : DB D, readParams L c cur B =
        (incorporate L (overrides cur) (some w.ps)).bind fun db => .ok (⟨w.ps.length, w.gn, some w.kind⟩, db, rest)) ∧
      ∀ grid : List (List (Fld D)), List.Forall₂ (fun g k => ∀ n, isSaved sel g n → n ∈ k.map Fld.name) w.grid grid →
        ∃ new : List (List (Fld D)), readFields c grid rest = .ok new ∧ new.length = w.grid.length ∧
          ∀ (i : Nat) g k q, w.grid[i]? = some g → grid[i]? = some k → new[i]? = some q → Restored sel g k q := by
  obtain ⟨t1, t2, t3, t4, t5⟩ := titles
  obtain ⟨BH, eH, fH⟩ := header_ok w.ps.length w.gn w.kind hw.npar hw.gn hw.kind
  obtain ⟨B1, e1, f1⟩ := Enc.title PARAM_HEADER t1
  obtain ⟨B2, e2, f2⟩ := enc_pars c hc w.ps hw.pars
  obtain ⟨B3, e3, f3⟩ := Enc.title PARAM_FOOTER t2
  obtain ⟨B4, e4, f4⟩ := Enc.title FIELD_HEADER t3
  obtain ⟨B6, e6, f6⟩ := Enc.title FIELD_FOOTER t4
  obtain ⟨B7, e7, f7⟩ := Enc.title END_MSG t5
  have hrefl : List.Forall₂ (fun g k => ∀ n, isSaved sel g n → n ∈ k.map Fld.name) w.grid w.grid := by
    rw [List.forall₂_same]
    rintro g _ n ⟨f, hf, rfl, _⟩
    exact List.mem_map_of_mem hf
  obtain ⟨B5, _, e5, -, -, -⟩ := patches_ok c hc sel w.grid w.grid hw.names hw.flds hw.nflds hrefl
  refine ⟨BH ++ (B1 ++ (B2 ++ (B3 ++ (B4 ++ (B5 ++ (B6 ++ B7)))))), ?_, B4 ++ (B5 ++ (B6 ++ B7)), fun cur => ?_, fun grid hgrid => ?_⟩
  · simp only [wAll, wParams, wFields, eH, e1, e2, e3, e4, e5, e6, e7, bytes_append, List.append_assoc]
  · simp only [readParams, List.append_assoc, fH, f1, f2, f3, Res.bind_ok]
  · obtain ⟨B5', new, e5', f5, h1, h2⟩ := patches_ok c hc sel w.grid grid hw.names hw.flds hw.nflds hgrid
    have hB : B5' = B5 := by
      have h := e5'.symm.trans e5
      unfold bytes at h
      exact List.map_injective_iff.2 (fun a b hab => by cases hab; rfl) h
    subst hB
    refine ⟨new, ?_, h1, h2⟩
    simp only [readFields, f4, f5, f6, Res.bind_ok]

/-! ### parameters after reading -/

theorem look_total (L : Libc D) (db db' : DB D) (i : Int) (h : totalIterations L db = .ok (i, db')) (n : Str)
    (hn : n ≠ nameRule totalName) : look (entries db') n = look (entries db) n := by
  unfold totalIterations at h
  obtain ⟨m, hm, h⟩ := Res.bind_eq_ok h
  split at h
  · simp only [Res.ok.injEq, Prod.mk.injEq] at h
    rw [h.2]
  · obtain ⟨mx, -, h⟩ := Res.bind_eq_ok h
    obtain ⟨db1, h1, h⟩ := Res.bind_eq_ok h
    simp only [Res.ok.injEq, Prod.mk.injEq] at h
    obtain ⟨-, rfl⟩ := h
    unfold setI setS at h1
    simp only at h1
    split at h1
    · simp only [Res.ok.injEq] at h1
      subst h1
      cases db with
      | none => rfl
      | some l =>
        simp only [modifyPar, Option.map_some, entries, Option.getD_some, nameRule_idem]
        rw [look_modify l, if_neg hn]
        exact fun _ => rfl
    · obtain ⟨p, rfl, hp, hl, -⟩ := addS_effect L _ _ _ _ h1
      simp only [append, entries, Option.getD_some]
      rw [look_append _ _ _ (by rw [hp]; exact hl), hp, nameRule_idem, if_neg hn]

/-- **C25 (parameters).** With no overrides, every parameter other than the iteration count the program computes for itself
is exactly what it was: name, text, schedule, number, array and flags. -/
theorem C25_params (L : Libc D) (ops : List (Op D)) (ps : List (Par D)) (hr : run L none ops = .ok (some ps)) (db : DB D)
    (h : incorporate L [] (some ps) = .ok db) (n : Str) (hn : ¬ sameName n totalName) :
    getPar db n = getPar (some ps) n := by
  have hu : Uniq (some ps) := run_induct L Uniq (fun _ _ _ hu hs => (step_effect L _ _ _ hs).uniq hu) ops none _
    ⟨by simp [entries], by simp [entries]⟩ hr
  have hne : nameRule n ≠ nameRule totalName := fun e => hn ((nameRule_eq_iff _ _).1 e)
  unfold incorporate at h
  simp only [freePar, Option.map_some] at h
  obtain ⟨⟨qs, ms⟩, h1, h⟩ := Res.bind_eq_ok h
  have h1' : qs = freeFirst (nameRule totalName) ps ∧ ms = [] := by
    unfold entries at h1
    simp only [Option.getD_some] at h1
    cases hl : freeFirst (nameRule totalName) ps with
    | nil => rw [hl] at h1; simp only [overrideAll, Res.ok.injEq, Prod.mk.injEq] at h1; exact ⟨h1.1.symm, h1.2.symm⟩
    | cons p l => rw [hl] at h1; simp [overrideAll] at h1; exact ⟨h1.1.symm, h1.2⟩
  obtain ⟨rfl, rfl⟩ := h1'
  simp only [addNew, Res.bind_ok] at h
  obtain ⟨⟨i, db3⟩, h2, h⟩ := Res.bind_eq_ok h
  simp only [Res.ok.injEq] at h
  subst h
  rw [getPar_eq, look_total L _ _ i h2 _ hne, getPar_eq]
  show look (freeFirst (nameRule totalName) ps) (nameRule n) = look ps (nameRule n)
  rw [look_freeFirst _ _ (show (ps.map (·.lv)).Nodup from hu.1), if_neg hne]

/-- **C25 (query).** Looking up one parameter in the file finds the entry with that name, whatever its letter case, and nothing
if there is none. -/
theorem C25_query {D : Type} (c : Codec D) (hc : c.OK) (sel : Str → Bool) (w : World D) (hw : WFWorld sel w) (name : Str) :
    ∃ B, wAll c sel w = bytes B ∧ query c name B = .ok (w.ps.find? fun p => strcmpI (some p.lv) (some name)) := by
  obtain ⟨t1, t2, t3, t4, t5⟩ := titles
  obtain ⟨BH, eH, fH⟩ := header_ok w.ps.length w.gn w.kind hw.npar hw.gn hw.kind
  obtain ⟨B1, e1, f1⟩ := Enc.title PARAM_HEADER t1
  obtain ⟨B3, e3, f3⟩ := Enc.title PARAM_FOOTER t2
  have key : ∀ ps : List (Par D), (∀ p ∈ ps, WFPar p) → ∃ B, ps.flatMap (wPar c) = bytes B ∧ ∀ r,
      queryLoop c name ps.length (B ++ (B3 ++ r)) = .ok (ps.find? fun p => strcmpI (some p.lv) (some name)) := by
    intro ps
    induction ps with
    | nil => intro _; exact ⟨[], rfl, fun r => by simp [queryLoop, f3]⟩
    | cons p ps ih =>
      intro h
      obtain ⟨Bp, ep, fp⟩ := enc_par c hc p (h p (by simp))
      obtain ⟨Bq, eq, fq⟩ := ih fun q hq => h q (by simp [hq])
      refine ⟨Bp ++ Bq, by rw [List.flatMap_cons, ep, eq, bytes_append], fun r => ?_⟩
      simp only [List.length_cons, queryLoop, List.append_assoc, fp, Res.bind_ok, List.find?_cons]
      cases hs : strcmpI (some p.lv) (some name) with
      | true => simp
      | false => simp [fq]
  obtain ⟨B2, e2, f2⟩ := key w.ps hw.pars
  have hrefl : List.Forall₂ (fun g k => ∀ n, isSaved sel g n → n ∈ k.map Fld.name) w.grid w.grid := by
    rw [List.forall₂_same]
    rintro g _ n ⟨f, hf, rfl, _⟩
    exact List.mem_map_of_mem hf
  obtain ⟨B5, _, e5, -, -, -⟩ := patches_ok c hc sel w.grid w.grid hw.names hw.flds hw.nflds hrefl
  obtain ⟨B4, e4, f4⟩ := Enc.title FIELD_HEADER t3
  obtain ⟨B6, e6, f6⟩ := Enc.title FIELD_FOOTER t4
  obtain ⟨B7, e7, f7⟩ := Enc.title END_MSG t5
  refine ⟨BH ++ (B1 ++ (B2 ++ (B3 ++ (B4 ++ (B5 ++ (B6 ++ B7)))))), ?_, ?_⟩
  · simp only [wAll, wParams, wFields, eH, e1, e2, e3, e4, e5, e6, e7, bytes_append, List.append_assoc]
  · simp only [query, fH, f1, f2, Res.bind_ok]

/-- Violation: a parameter that holds an empty array cannot be saved; the program stops while writing. -/
theorem C25_empty_array_violation {D : Type} (c : Codec D) (p : Par D) (h : p.rvArray = some []) : Emit.stop ∈ wPar c p := by
  simp [wPar, h, wArr]

end Elliptica.Ckpt
