import Verif.Model.MainLoop
/-!
Property C07: the main iteration loop does every iteration exactly once, then stops.
-/
namespace Elliptica.MainLoop

/-- General form: entering the loop at call number `loop` with a stored iteration number
`c.iteration`, the first iteration worked on is `max c.iteration loop`. -/
theorem drive_aux (folder : Nat × Nat × Nat → Str) (nAt : Nat → Nat × Nat × Nat) (total : Nat) :
    ∀ (fuel loop start : Nat) (c : Ctl) (n : Nat × Nat × Nat),
      (start = max c.iteration loop) →
      (c.iteration > loop ∨ c.iteration ≤ loop) →
      total - start < fuel →
      let r := drive folder nAt total fuel loop c n
      r.1 = List.range' start (total - start) ∧ r.2.1 = true ∧ r.2.2.stop = true ∧
        r.2.2.iteration = max start total := by
  intro fuel
  induction fuel with
  | zero => intro loop start c n _ _ h; omega
  | succ fuel ih =>
    intro loop start c n hs _ hf
    have hiter : (if c.iteration > loop then c.iteration else loop) = start := by
      split <;> omega
    by_cases ht : start ≥ total
    · have h0 : total - start = 0 := by omega
      simp only [drive, update, hiter, if_pos ht, h0, List.range'_zero]
      refine ⟨trivial, trivial, trivial, ?_⟩
      omega
    · have hsplit : total - start = (total - (start + 1)) + 1 := by omega
      simp only [drive, update, hiter, if_neg ht]
      have key : ∀ (c' : Ctl) (n' : Nat × Nat × Nat),
          c'.iteration = (if c.iteration > loop then start + 1 else start) →
          let r := drive folder nAt total fuel (loop + 1) c' n'
          r.1 = List.range' (start + 1) (total - (start + 1)) ∧ r.2.1 = true ∧ r.2.2.stop = true ∧
            r.2.2.iteration = max (start + 1) total := by
        intro c' n' hc'
        refine ih (loop + 1) (start + 1) c' n' ?_ (by omega) (by omega)
        rw [hc']; split <;> omega
      have hmax : max start total = max (start + 1) total := by omega
      by_cases hd : folder (nAt start) ≠ folder n ∨ start = 0
      · rw [if_pos hd]
        obtain ⟨k1, k2, k3, k4⟩ := key
          { iteration := if c.iteration > loop then start + 1 else start
            resolutionIteration := 0, stop := c.stop, didResolutionChange := true } (nAt start) rfl
        refine ⟨?_, k2, k3, by rw [hmax]; exact k4⟩
        rw [hsplit, List.range'_succ]
        exact congrArg (start :: ·) k1
      · rw [if_neg hd]
        obtain ⟨k1, k2, k3, k4⟩ := key
          { iteration := if c.iteration > loop then start + 1 else start
            resolutionIteration := c.resolutionIteration + 1, stop := c.stop
            didResolutionChange := false } (nAt start) rfl
        refine ⟨?_, k2, k3, by rw [hmax]; exact k4⟩
        rw [hsplit, List.range'_succ]
        exact congrArg (start :: ·) k1

/-- C07.  For every total number of iterations, every folder-naming scheme, every resolution
schedule and every stored iteration number `m` (0 in a fresh run, the value read from a checkpoint
in a restarted run): calling `update_iteration_params(0), (1), (2), ...` until it returns non-zero
works on the iterations `m, m+1, ..., total-1`, each exactly once and in this order, the loop ends
(after at most `total - m + 1` calls) and `STOP` is then set. -/
theorem C07_each_iteration_once (folder : Nat × Nat × Nat → Str) (nAt : Nat → Nat × Nat × Nat)
    (total : Nat) (c : Ctl) (n : Nat × Nat × Nat) (fuel : Nat)
    (hfuel : total - c.iteration + 1 ≤ fuel) :
    let r := drive folder nAt total fuel 0 c n
    r.1.Nodup ∧ (∀ i, i ∈ r.1 ↔ c.iteration ≤ i ∧ i < total) ∧ r.1.Pairwise (· < ·) ∧
      r.2.1 = true ∧ r.2.2.stop = true := by
  obtain ⟨h1, h2, h3, -⟩ := drive_aux folder nAt total fuel 0 c.iteration c n (by omega) (by omega)
    (by omega)
  refine ⟨?_, ?_, ?_, h2, h3⟩
  · rw [h1]; exact List.nodup_range'
  · intro i; rw [h1, List.mem_range'_1]; omega
  · rw [h1]; exact List.pairwise_lt_range'

/-- A call reports a resolution change (and restarts the per-resolution counter) exactly when the
output-folder name of the new iteration differs from the previous one, or on iteration 0; otherwise
the counter goes up by one. -/
theorem C07_resolution_change (folder : Nat × Nat × Nat → Str) (nAt : Nat → Nat × Nat × Nat)
    (total loop : Nat) (c : Ctl) (n : Nat × Nat × Nat) (h : max c.iteration loop < total) :
    let r := update folder nAt total loop c n
    r.1 = false ∧ r.2.1 = max c.iteration loop ∧ r.2.2.2 = nAt r.2.1 ∧ r.2.2.1.stop = c.stop ∧
    (r.2.2.1.didResolutionChange = true ↔ (folder (nAt r.2.1) ≠ folder n ∨ r.2.1 = 0)) ∧
    r.2.2.1.resolutionIteration =
      if folder (nAt r.2.1) ≠ folder n ∨ r.2.1 = 0 then 0 else c.resolutionIteration + 1 := by
  have hiter : (if c.iteration > loop then c.iteration else loop) = max c.iteration loop := by
    split <;> omega
  have ht : ¬ max c.iteration loop ≥ total := by omega
  simp only [update, hiter, if_neg ht]
  by_cases hd : folder (nAt (max c.iteration loop)) ≠ folder n ∨ max c.iteration loop = 0
  · simp only [if_pos hd]
    exact ⟨trivial, trivial, trivial, trivial, ⟨fun _ => hd, fun _ => trivial⟩, trivial⟩
  · simp only [if_neg hd]
    exact ⟨trivial, trivial, trivial, trivial, ⟨fun e => absurd e (by simp), fun e => absurd e hd⟩, trivial⟩

/-- What a checkpoint taken while working on iteration `i` stores differs between a fresh run (`i`: a
restart repeats the iteration) and a restarted run (`i+1`: a restart skips the rest of the iteration).
So "restarting from a checkpoint neither repeats nor skips work" fails of one of the two. -/
theorem C07_checkpoint_meaning_violation :
    ∃ (folder : Nat × Nat × Nat → Str) (nAt : Nat → Nat × Nat × Nat) (total loopA loopB : Nat)
      (cFresh cRestart : Ctl) (n : Nat × Nat × Nat),
      let a := update folder nAt total loopA cFresh n
      let b := update folder nAt total loopB cRestart n
      a.1 = false ∧ b.1 = false ∧ a.2.1 = b.2.1 ∧ a.2.2.1.iteration ≠ b.2.2.1.iteration := by
  refine ⟨fun _ => [], fun _ => (8, 8, 8), 5, 2, 0,
    ⟨1, 1, false, false⟩, ⟨2, 2, false, false⟩, (8, 8, 8), ?_⟩
  decide

/-- A concrete run: 4 iterations, resolution doubling at iteration 2, restarted at 1. -/
example : drive (fun n => [Char.ofNat n.1]) (fun i => if i < 2 then (8, 8, 8) else (16, 16, 16)) 4 10 0
    ⟨1, 3, false, false⟩ (8, 8, 8) = ([1, 2, 3], true, ⟨5 - 1, 1, true, false⟩) := by decide

end Elliptica.MainLoop
