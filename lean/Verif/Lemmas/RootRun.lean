import Verif.Lemmas.RootCheck
/-!
The checker of the tables of roots is run by the kernel on every row.
-/
namespace Elliptica.RootTables
open Polynomial Elliptica.Legendre

theorem leg_checked : (List.range 100).all (fun n => checkLeg 100000000000000000000000000000000000000 n (legRow.getD n [])) = true := by
  decide +kernel

theorem lob_checked : (List.range 35).all (fun n => checkLob 100000000000000000000000000000000000000 n (lobRow.getD n [])) = true := by
  decide +kernel

theorem d2_eq : ((100000000000000000000000000000000000000 : ℕ) : ℝ) = (D : ℝ) ^ 2 := by unfold D; norm_num

theorem leg_row (n : ℕ) (hn : n < 100) :
    (legRow.getD n []).length = n ∧ ∃ v : ℕ → ℝ,
      (∀ i < n, (legendre n).eval (v i) = 0 ∧ |v i - ((legRow.getD n []).getD i 0 : ℤ) / D| ≤ 10 / D) ∧
      ∀ i j, i < j → j < n → v i < v j :=
  checkLeg_spec _ d2_eq n _ (List.all_eq_true.mp leg_checked n (List.mem_range.mpr hn))

theorem lob_row (n : ℕ) (hn : n < 35) :
    (lobRow.getD n []).length = n - 1 ∧ ∃ v : ℕ → ℝ,
      (∀ i < n - 1, (derivative (legendre n)).eval (v i) = 0 ∧ |v i - ((lobRow.getD n []).getD i 0 : ℤ) / D| ≤ 10 / D) ∧
      ∀ i j, i < j → j < n - 1 → v i < v j :=
  checkLob_spec _ d2_eq n _ (List.all_eq_true.mp lob_checked n (List.mem_range.mpr hn))

end Elliptica.RootTables
