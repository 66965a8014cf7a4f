import Verif.Float.TrackLaws
/-!
# The value of a bit pattern

The textbook reading of the 32 bits of a `f32`, as specification, and its agreement with `Fl.val`.
-/

namespace Verif

/-- The eight exponent bits. -/
def exponentBits (x : F32) : Nat := x.toNat / 2 ^ 23 % 256
/-- The 23 mantissa bits. -/
def mantissaBits (x : F32) : Nat := x.toNat % 2 ^ 23

/-- Neither infinite nor a NaN. -/
def Finite (x : F32) : Prop := exponentBits x ≠ 255

instance (x : F32) : Decidable (Finite x) := inferInstanceAs (Decidable (_ ≠ _))

/-- The number a finite `f32` stands for. -/
def value (x : F32) : ℚ :=
  (if x.toNat < 2 ^ 31 then 1 else -1) *
    (if exponentBits x = 0 then (mantissaBits x : ℚ) / 2 ^ 149
     else (2 ^ 23 + (mantissaBits x : ℚ)) * 2 ^ exponentBits x / 2 ^ 150)

/-- `f32::MAX` -/
def maxFinite : ℚ := (2 ^ 24 - 1) * 2 ^ 104

namespace Ieee

theorem neg_ofBits (x : F32) : (ofBits x).neg = decide (¬ x.toNat < 2 ^ 31) := by
  have hx := x.toNat_lt
  unfold ofBits
  simp only [Nat.testBit_eq_decide_div_mod_eq]
  congr 1
  simp only [not_lt, eq_iff_iff]
  omega

theorem finite_iff (x : F32) : Finite x ↔ (ofBits x).Fin := by
  unfold Finite exponentBits Fl.Fin
  have : single.inf = 255 * 2 ^ 23 := by decide
  rw [this]
  unfold ofBits
  have hx := x.toNat_lt
  simp only
  omega

theorem value_eq (x : F32) : value x = (ofBits x).val := by
  have hx := x.toNat_lt
  rw [Fl.val, neg_ofBits, value]
  congr 1
  · unfold sg
    by_cases h : x.toNat < 2 ^ 31
    · rw [if_pos h, decide_eq_false (not_not.mpr h)]; rfl
    · rw [if_neg h, decide_eq_true h]; rfl
  · have hm : (ofBits x).mag = x.toNat % 2 ^ 31 := rfl
    rw [single_scale]
    have hmb : single.mb = 23 := rfl
    unfold Fmt.units
    rw [hm, hmb]
    by_cases he : exponentBits x = 0
    · rw [if_pos he, if_pos (by unfold exponentBits at he; omega)]
      congr 2
      unfold mantissaBits exponentBits at *
      omega
    · have h1 : ¬ x.toNat % 2 ^ 31 < 2 ^ 23 := by unfold exponentBits at he; omega
      rw [if_neg he, if_neg h1]
      have h2 : x.toNat % 2 ^ 31 % 2 ^ 23 = mantissaBits x := by unfold mantissaBits; omega
      have h3 : x.toNat % 2 ^ 31 / 2 ^ 23 = exponentBits x := by unfold exponentBits; omega
      rw [h2, h3]
      obtain ⟨k, hk⟩ := Nat.exists_eq_succ_of_ne_zero he
      rw [hk, Nat.succ_sub_one, Nat.succ_eq_add_one]
      push_cast
      field_simp
      ring

theorem maxFinite_eq : maxFinite = single.big := single_big_eq.symm

theorem abs_value_le {x : F32} (h : Finite x) : |value x| ≤ maxFinite := by
  rw [value_eq, maxFinite_eq]
  exact Fl.Fin.abs_le_big ((finite_iff x).mp h)

theorem maxFinite_lt_limit : maxFinite < single.limit := by
  rw [maxFinite_eq]; exact Fmt.big_lt_limit _ single_eb

end Ieee
end Verif
