import Verif.Float.DotLaws
/-!
# Sums of four products which need no rounding
-/

namespace Verif.Glam
open Ieee

/-- Some finite float stands for this number. -/
def IsFloat (q : ℚ) : Prop := ∃ x : F32, Finite x ∧ value x = q

theorem add_float {x y : F32} (hx : Finite x) (hy : Finite y) (h : IsFloat (value x + value y)) :
    Finite (add x y) ∧ value (add x y) = value x + value y := by
  obtain ⟨w, hw, e⟩ := h
  rw [value_eq, value_eq, value_eq] at e
  have h := Fl.add_exact ((finite_iff _).mp hx) ((finite_iff _).mp hy) ((finite_iff _).mp hw) e.symm
  unfold add
  rw [finite_iff, value_eq (toBits _), h.1.ofBits_toBits, value_eq x, value_eq y]
  exact ⟨h.1, h.2.trans e⟩

theorem mul_float {x y : F32} (hx : Finite x) (hy : Finite y) (h : IsFloat (value x * value y)) :
    Finite (mul x y) ∧ value (mul x y) = value x * value y := by
  obtain ⟨w, hw, e⟩ := h
  rw [value_eq, value_eq, value_eq] at e
  have h := Fl.mul_exact ((finite_iff _).mp hx) ((finite_iff _).mp hy) ((finite_iff _).mp hw) e.symm
  unfold mul
  rw [finite_iff, value_eq (toBits _), h.1.ofBits_toBits, value_eq x, value_eq y]
  exact ⟨h.1, h.2.trans e⟩

/-- If all products and all sums on the way are floats then there is no error. -/
theorem sum_exact (x y : Fin 4 → F32) (hx : ∀ i, Finite (x i)) (hy : ∀ i, Finite (y i)) (q : Fin 4 → ℚ)
    (hq : ∀ i, value (x i) * value (y i) = q i) (hp : ∀ i, IsFloat (q i)) (h1 : IsFloat (q 0 + q 1))
    (h2 : IsFloat (q 0 + q 1 + q 2)) (h3 : IsFloat (q 0 + q 1 + q 2 + q 3)) :
    Finite (add (add (add (mul (x 0) (y 0)) (mul (x 1) (y 1))) (mul (x 2) (y 2))) (mul (x 3) (y 3))) ∧
    value (add (add (add (mul (x 0) (y 0)) (mul (x 1) (y 1))) (mul (x 2) (y 2))) (mul (x 3) (y 3))) =
      q 0 + q 1 + q 2 + q 3 := by
  have p : ∀ i, Finite (mul (x i) (y i)) ∧ value (mul (x i) (y i)) = q i := fun i => by
    have h := mul_float (hx i) (hy i) (by rw [hq i]; exact hp i)
    exact ⟨h.1, h.2.trans (hq i)⟩
  have s1 := add_float (p 0).1 (p 1).1 (by rw [(p 0).2, (p 1).2]; exact h1)
  rw [(p 0).2, (p 1).2] at s1
  have s2 := add_float s1.1 (p 2).1 (by rw [s1.2, (p 2).2]; exact h2)
  rw [s1.2, (p 2).2] at s2
  have s3 := add_float s2.1 (p 3).1 (by rw [s2.2, (p 3).2]; exact h3)
  rw [s2.2, (p 3).2] at s3
  exact s3

/-- Whole numbers up to 2^24 are floats. -/
theorem whole_isFloat (n : Int) (h : |(n : ℚ)| ≤ 2 ^ 24) : IsFloat n := by
  obtain ⟨a, ha⟩ := single.exists_units 149 n.natAbs (by
    have : ((n.natAbs : ℕ) : ℚ) ≤ 2 ^ 24 := by
      rw [Nat.cast_natAbs]; push_cast; exact h
    exact_mod_cast this)
  have hlt : a < single.inf := by
    by_contra hc
    have h1 := single.units_strictMono.monotone (not_lt.mp hc)
    have h2 : (n.natAbs : ℕ) ≤ 2 ^ 24 := by
      have : ((n.natAbs : ℕ) : ℚ) ≤ 2 ^ 24 := by
        rw [Nat.cast_natAbs]; push_cast; exact h
      exact_mod_cast this
    have h3 : 2 ^ 24 * 2 ^ 149 < single.units single.inf := by decide
    rw [ha] at h1
    have h4 : n.natAbs * 2 ^ 149 ≤ 2 ^ 24 * 2 ^ 149 := Nat.mul_le_mul_right _ h2
    omega
  have hf : (⟨decide (n < 0), a⟩ : Fl single).Fin := hlt
  refine ⟨toBits ⟨decide (n < 0), a⟩, ?_, ?_⟩
  · rw [finite_iff, hf.ofBits_toBits]; exact hf
  · rw [value_eq, hf.ofBits_toBits, Fl.val, ha, single_scale]
    rw [show ((n.natAbs * 2 ^ 149 : Nat) : ℚ) / 2 ^ 149 = ((n.natAbs : ℕ) : ℚ) by push_cast; norm_num]
    rw [Nat.cast_natAbs]
    by_cases hn : n < 0
    · rw [decide_eq_true hn, abs_of_neg hn]
      simp [sg]
    · rw [decide_eq_false hn, abs_of_nonneg (not_lt.mp hn)]
      simp [sg]

end Verif.Glam
