/-! ASCII case maps (helper lemmas) -/
namespace Elliptica.Chars

theorem toLower_nat (c : Char) : c.toLower.toNat = if 65 ≤ c.toNat ∧ c.toNat ≤ 90 then c.toNat + 32 else c.toNat := by
  have h1 : ('A'.val ≤ c.val ∧ c.val ≤ 'Z'.val) ↔ (65 ≤ c.toNat ∧ c.toNat ≤ 90) := Iff.rfl
  simp only [Char.toLower, ge_iff_le, h1]
  split
  · simp only [Char.toNat, UInt32.toNat_add] at *
    have : ('a'.val - 'A'.val).toNat = 32 := by decide
    have h2 : c.val.toNat = c.toNat := rfl
    omega
  · rfl
theorem toUpper_nat (c : Char) : c.toUpper.toNat = if 97 ≤ c.toNat ∧ c.toNat ≤ 122 then c.toNat - 32 else c.toNat := by
  have h1 : ('a'.val ≤ c.val ∧ c.val ≤ 'z'.val) ↔ (97 ≤ c.toNat ∧ c.toNat ≤ 122) := Iff.rfl
  simp only [Char.toUpper, h1]
  split
  · simp only [Char.toNat, UInt32.toNat_add] at *
    have : ('A'.val - 'a'.val).toNat = 4294967264 := by decide
    have h2 : c.val.toNat = c.toNat := rfl
    omega
  · rfl
theorem char_ext_nat {c d : Char} (h : c.toNat = d.toNat) : c = d := by
  apply Char.ext; exact UInt32.toNat_inj.mp h
theorem toLower_toLower (c : Char) : c.toLower.toLower = c.toLower := by
  apply char_ext_nat; simp only [toLower_nat]; grind
theorem toUpper_toUpper (c : Char) : c.toUpper.toUpper = c.toUpper := by
  apply char_ext_nat; simp only [toUpper_nat]; grind
theorem toLower_toUpper (c : Char) : c.toUpper.toLower = c.toLower := by
  apply char_ext_nat; simp only [toLower_nat, toUpper_nat]; grind
theorem toUpper_toLower (c : Char) : c.toLower.toUpper = c.toUpper := by
  apply char_ext_nat; simp only [toLower_nat, toUpper_nat]; grind
theorem toUpper_us (c : Char) : c.toUpper = '_' ↔ c = '_' := by
  have e : '_'.toNat = 95 := rfl
  constructor
  · intro h; apply char_ext_nat; have := congrArg Char.toNat h; rw [toUpper_nat, e] at this; rw [e]; split at this <;> omega
  · rintro rfl; rfl
theorem toLower_us (c : Char) : c.toLower = '_' ↔ c = '_' := by
  have e : '_'.toNat = 95 := rfl
  constructor
  · intro h; apply char_ext_nat; have := congrArg Char.toNat h; rw [toLower_nat, e] at this; rw [e]; split at this <;> omega
  · rintro rfl; rfl

end Elliptica.Chars
