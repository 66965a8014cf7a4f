import Verif.Json.Numbers
import Verif.Float.Nearest
import Verif.Float.Middles
import Mathlib.Data.Nat.Prime.Basic
import Mathlib.Algebra.Order.Field.Power
/-!
# The float read for the shortest decimal of a float
-/

namespace Verif.Json
open Verif.Ieee Verif.Lattice

theorem double_tiny_small : double.tiny ≤ 1 / 2 ^ 256 := by
  rw [Fmt.tiny, double_scale]
  exact one_div_le_one_div_of_le (by norm_num) (pow_le_pow_right₀ (by norm_num) (by norm_num))

theorem pow10_error {n : Nat} (hn : n ≤ 60) :
    (pow10 n).Fin ∧ (pow10 n).neg = false ∧ |(pow10 n).val - 10 ^ n| ≤ 10 ^ n * (1 / 2 ^ 53) := by
  have habs : |(10 : ℚ) ^ n| = 10 ^ n := abs_of_nonneg (by positivity)
  have h10 : (10 : ℚ) ^ n ≤ 10 ^ 60 := pow_le_pow_right₀ (by norm_num) hn
  have h := Fl.round_val_one (F := double) (neg := false) (n := 10 ^ n * 2 ^ double.scale) (10 ^ n)
    (by rw [habs]; push_cast; field_simp)
    (by rw [habs]; exact lt_of_le_of_lt (h10.trans (by norm_num)) double_limit_gt) double_eb
  rw [habs, double_eps, sg, if_neg (by decide), one_mul] at h
  exact ⟨h.1, rfl, h.2⟩

theorem mul_neg_eq {F : Fmt} {x y : Fl F} (hx : x.Fin) (hy : y.Fin) : (x.mul y).neg = (x.neg != y.neg) := by
  unfold Fl.mul
  simp only [hx.not_nan, hy.not_nan, hx.not_inf, hy.not_inf, Bool.or_self, Bool.false_eq_true, if_false]

theorem div_neg_eq {F : Fmt} {x y : Fl F} (hx : x.Fin) (hy : y.Fin) (h0 : y.val ≠ 0) : (x.div y).neg = (x.neg != y.neg) := by
  have hy0 := Fl.val_ne_zero h0
  unfold Fl.div
  simp only [hx.not_nan, hy.not_nan, hx.not_inf, hy.not_inf, Bool.or_self, Bool.false_eq_true, if_false, if_neg hy0]

/-- The relative error of the product. -/
theorem product_error {m t p f : ℚ} (hm : 0 < m) (ht : 1 ≤ t) (hm1 : 1 ≤ m) (hp : |p - t| ≤ t * (1 / 2 ^ 53))
    (hf : |f - m * p| ≤ max (|m * p| * (1 / 2 ^ 53)) (1 / 2 ^ 256)) : |f - m * t| ≤ m * t * (201 / 100 / 2 ^ 53) := by
  obtain ⟨p1, p2⟩ := abs_le.mp hp
  have hp0 : 1 / 2 ≤ p := by nlinarith
  have hpp : 0 < p := by linarith
  have hmp : 1 / 2 ≤ m * p := by nlinarith
  rw [abs_of_pos (a := m * p) (by positivity)] at hf
  have hmax : max (m * p * (1 / 2 ^ 53)) (1 / 2 ^ 256) = m * p * (1 / 2 ^ 53) := by
    apply max_eq_left
    have : (1 : ℚ) / 2 ^ 256 ≤ 1 / 2 * (1 / 2 ^ 53) := by norm_num
    nlinarith
  rw [hmax] at hf
  obtain ⟨f1, f2⟩ := abs_le.mp hf
  have q1 : m * p ≤ m * t + m * t * (1 / 2 ^ 53) := by nlinarith
  have q2 : m * t - m * t * (1 / 2 ^ 53) ≤ m * p := by nlinarith
  have hmt : 0 < m * t := by positivity
  rw [abs_le]
  constructor <;> linarith

/-- The relative error of the quotient. -/
theorem quotient_error {m t p f : ℚ} (ht : 0 < t) (ht2 : t ≤ 10 ^ 60) (hm1 : 1 ≤ m) (hp : |p - t| ≤ t * (1 / 2 ^ 53))
    (hf : |f - m / p| ≤ max (|m / p| * (1 / 2 ^ 53)) (1 / 2 ^ 256)) : |f - m / t| ≤ m / t * (201 / 100 / 2 ^ 53) := by
  obtain ⟨p1, p2⟩ := abs_le.mp hp
  have hpp : 0 < p := by linarith
  have hm : 0 < m := by linarith
  have q : 0 < m / t := by positivity
  have e : m / p * p = m / t * t := by field_simp
  have q0 : 0 < m / p := by positivity
  have q1 : m / p ≤ m / t * (1 + 2 / 2 ^ 53) := by
    rw [div_le_iff₀ hpp]
    have h1 : t ≤ (1 + 2 / 2 ^ 53) * p := by linarith
    calc m = m / t * t := by field_simp
      _ ≤ m / t * ((1 + 2 / 2 ^ 53) * p) := by gcongr
      _ = _ := by ring
  have q1' : m / p ≤ m / t * (1 + 100001 / 100000 / 2 ^ 53) := by
    rw [div_le_iff₀ hpp]
    have h1 : t ≤ (1 + 100001 / 100000 / 2 ^ 53) * p := by linarith
    calc m = m / t * t := by field_simp
      _ ≤ m / t * ((1 + 100001 / 100000 / 2 ^ 53) * p) := by gcongr
      _ = _ := by ring
  have q2 : m / t * (1 - 1 / 2 ^ 53) ≤ m / p := by
    rw [le_div_iff₀ hpp]
    have h1 : (1 - 1 / 2 ^ 53) * p ≤ t := by linarith
    calc m / t * (1 - 1 / 2 ^ 53) * p = m / t * ((1 - 1 / 2 ^ 53) * p) := by ring
      _ ≤ m / t * t := by gcongr
      _ = m := by field_simp
  rw [abs_of_pos q0] at hf
  have hmt : 1 / 10 ^ 60 ≤ m / t := by
    rw [div_le_div_iff₀ (by positivity) ht]
    nlinarith
  have hmax : max (m / p * (1 / 2 ^ 53)) (1 / 2 ^ 256) ≤ m / t * (1001 / 1000 / 2 ^ 53) := by
    apply max_le
    · linarith
    · have : (1 : ℚ) / 2 ^ 256 ≤ 1 / 10 ^ 60 * (1001 / 1000 / 2 ^ 53) := by norm_num
      refine this.trans ?_
      gcongr
  obtain ⟨f1, f2⟩ := abs_le.mp (hf.trans hmax)
  rw [abs_le]
  constructor <;> linarith

theorem natCast_pos {m : Nat} (hm : 0 < m) : (1 : ℚ) ≤ m := by exact_mod_cast hm

theorem fromParts_error {m : Nat} {k : Int} (hm0 : 0 < m) (hm : m ≤ 2 ^ 30) (hk1 : -60 ≤ k) (hk2 : k ≤ 38) :
    ∃ f, fromParts m k = some f ∧ f.Fin ∧ f.neg = false ∧ |f.val - m * 10 ^ k| ≤ m * 10 ^ k * (201 / 100 / 2 ^ 53) := by
  obtain ⟨fm, vm⟩ := double_ofNat (n := m) (hm.trans (by decide))
  have hm1 := natCast_pos hm0
  have hmq : (m : ℚ) ≤ 2 ^ 30 := by exact_mod_cast hm
  have ntiny : double.tiny ≤ 1 / 2 ^ 256 := double_tiny_small
  have neps := double_eps
  cases k with
  | ofNat n =>
    have hn : n ≤ 38 := by exact Int.ofNat_le.mp hk2
    obtain ⟨fp, np, ep⟩ := pow10_error (n := n) (by omega)
    have ht : (1 : ℚ) ≤ 10 ^ n := one_le_pow₀ (by norm_num)
    have ht2 : (10 : ℚ) ^ n ≤ 10 ^ 38 := pow_le_pow_right₀ (by norm_num) hn
    obtain ⟨p1, p2⟩ := abs_le.mp ep
    have hpp : 0 < (pow10 n).val := by linarith
    have hb : |(Fl.ofNat m : Fl double).val * (pow10 n).val| < double.limit := by
      rw [vm, abs_of_pos (mul_pos (lt_of_lt_of_le one_pos hm1) hpp)]
      refine lt_of_le_of_lt ?_ double_limit_gt
      calc (m : ℚ) * (pow10 n).val ≤ 2 ^ 30 * (2 * 10 ^ 38) := by
            apply mul_le_mul hmq _ hpp.le (by norm_num)
            linarith
        _ ≤ 2 ^ 200 := by norm_num
    have hfe := Fl.mul_error fm fp hb double_eb
    obtain ⟨ff, ef⟩ := hfe
    rw [vm, neps] at ef
    refine ⟨_, ?_, ff, ?_, ?_⟩
    · simp only [fromParts, ff.not_inf]
      rw [if_pos (by omega)]
      rfl
    · rw [mul_neg_eq fm fp, np]; rfl
    · exact product_error (by linarith) ht hm1 ep (ef.trans (max_le_max le_rfl ntiny))
  | negSucc n =>
    have hn : n + 1 ≤ 60 := by omega
    obtain ⟨fp, np, ep⟩ := pow10_error (n := n + 1) hn
    have ht : (1 : ℚ) ≤ 10 ^ (n + 1) := one_le_pow₀ (by norm_num)
    have ht2 : (10 : ℚ) ^ (n + 1) ≤ 10 ^ 60 := pow_le_pow_right₀ (by norm_num) hn
    obtain ⟨p1, p2⟩ := abs_le.mp ep
    have hpp : 1 / 2 < (pow10 (n + 1)).val := by linarith
    have hpp0 : 0 < (pow10 (n + 1)).val := by linarith
    have hb : |(Fl.ofNat m : Fl double).val / (pow10 (n + 1)).val| < double.limit := by
      rw [vm, abs_of_pos (div_pos (lt_of_lt_of_le one_pos hm1) hpp0)]
      refine lt_of_le_of_lt ?_ double_limit_gt
      rw [div_le_iff₀ hpp0]
      calc (m : ℚ) ≤ 2 ^ 30 := hmq
        _ ≤ 2 ^ 200 * (1 / 2) := by norm_num
        _ ≤ 2 ^ 200 * _ := by gcongr
    have hfe := Fl.div_error fm fp hpp0.ne' hb double_eb
    obtain ⟨ff, ef⟩ := hfe
    rw [vm, neps] at ef
    refine ⟨_, ?_, ff, ?_, ?_⟩
    · simp only [fromParts, divPow]
      rw [if_pos (by omega)]
    · rw [div_neg_eq fm fp hpp0.ne', np]; rfl
    · have h := quotient_error (by positivity) ht2 hm1 ep (ef.trans (max_le_max le_rfl ntiny))
      have e : (m : ℚ) * 10 ^ (Int.negSucc n) = m / 10 ^ (n + 1) := by rw [zpow_negSucc, div_eq_mul_inv]
      rw [e]
      exact h

/-- Small powers of ten are exact. -/
theorem pow10_exact {n : Nat} (hn : n ≤ 22) : (pow10 n).Fin ∧ (pow10 n).neg = false ∧ (pow10 n).val = 10 ^ n := by
  have h : ∀ n < 23, double.units (pow10 n).mag = 10 ^ n * 2 ^ 1074 := by decide +kernel
  have h1 := h n (by omega)
  obtain ⟨a, b, -⟩ := pow10_error (n := n) (by omega)
  refine ⟨a, b, ?_⟩
  rw [Fl.val, b, h1, double_scale, sg, if_neg (by decide)]
  push_cast
  field_simp

end Verif.Json
