import Verif.Float.Ieee
import Mathlib.Tactic.Linarith
import Mathlib.Tactic.Ring
import Mathlib.Tactic.FieldSimp
import Mathlib.Tactic.Positivity
import Mathlib.Tactic.NormNum
import Mathlib.Algebra.Order.Field.Basic
import Mathlib.Algebra.Order.Group.Abs
import Mathlib.Data.Rat.Cast.Order
import Mathlib.Order.Monotone.Basic
/-!
# Laws of the rounding functions
-/

namespace Verif.Ieee

/-! ## Rounding a quotient -/

theorem roundDiv_cases (n d : Nat) : roundDiv n d = n / d ∨ roundDiv n d = n / d + 1 := by
  unfold roundDiv
  split
  · exact .inl rfl
  · split
    · exact .inr rfl
    · rcases Nat.mod_two_eq_zero_or_one (n / d) with h | h <;> simp [h]

/-- The distance to the quotient is at most a half. -/
theorem roundDiv_near {n d : Nat} (hd : 0 < d) :
    2 * (roundDiv n d * d) ≤ 2 * n + d ∧ 2 * n ≤ 2 * (roundDiv n d * d) + d := by
  have h := Nat.div_add_mod n d
  have hm := Nat.mod_lt n hd
  have hc : d * (n / d) = n / d * d := Nat.mul_comm _ _
  unfold roundDiv
  split
  · omega
  · split
    · rw [Nat.add_mul]; omega
    · have : 2 * (n % d) = d := by omega
      rcases Nat.mod_two_eq_zero_or_one (n / d) with h2 | h2 <;> rw [h2, Nat.add_mul] <;> omega

theorem roundDiv_ge {n d m : Nat} (hd : 0 < d) (h : m * d ≤ n) : m ≤ roundDiv n d := by
  have : m ≤ n / d := (Nat.le_div_iff_mul_le hd).mpr h
  rcases roundDiv_cases n d with h | h <;> omega

theorem roundDiv_le {n d m : Nat} (hd : 0 < d) (h : n ≤ m * d) : roundDiv n d ≤ m := by
  have h1 := (roundDiv_near (n := n) hd).1
  have h2 : 2 * (roundDiv n d * d) < (2 * m + 2) * d := by
    have : (2 * m + 2) * d = 2 * (m * d) + 2 * d := by ring
    omega
  have h3 : (2 * roundDiv n d) * d < (2 * m + 2) * d := by rw [Nat.mul_assoc]; exact h2
  have := Nat.lt_of_mul_lt_mul_right h3
  omega

theorem roundDiv_mul {m d : Nat} (hd : 0 < d) : roundDiv (m * d) d = m :=
  Nat.le_antisymm (roundDiv_le hd (Nat.le_refl _)) (roundDiv_ge hd (Nat.le_refl _))

theorem roundDiv_mono {n d n' d' : Nat} (hd : 0 < d) (hd' : 0 < d') (h : n * d' ≤ n' * d) :
    roundDiv n d ≤ roundDiv n' d' := by
  have hq : n / d ≤ n' / d' := by
    rw [Nat.le_div_iff_mul_le hd']
    have h1 : n / d * d ≤ n := Nat.div_mul_le_self n d
    have h2 : n / d * d' * d ≤ n' * d := by
      calc n / d * d' * d = n / d * d * d' := by ring
        _ ≤ n * d' := Nat.mul_le_mul_right _ h1
        _ ≤ n' * d := h
    exact Nat.le_of_mul_le_mul_right h2 hd
  rcases Nat.lt_or_ge (n / d) (n' / d') with hlt | hge
  · rcases roundDiv_cases n d with h1 | h1 <;> rcases roundDiv_cases n' d' with h2 | h2 <;> omega
  · have he : n / d = n' / d' := by omega
    have e1 := Nat.div_add_mod n d
    have e2 := Nat.div_add_mod n' d'
    have hr : n % d * d' ≤ n' % d' * d := by
      have h3 : (d * (n' / d') + n % d) * d' ≤ (d' * (n' / d') + n' % d') * d := by
        rw [← he, e1, he, e2]; exact h
      have h4 : d * (n' / d') * d' = d' * (n' / d') * d := by ring
      rw [Nat.add_mul, Nat.add_mul, h4] at h3
      omega
    unfold roundDiv
    rw [← he]
    have hm := Nat.mod_lt n hd
    have hm' := Nat.mod_lt n' hd'
    have k1 : d ≤ 2 * (n % d) → d' ≤ 2 * (n' % d') := by
      intro hh
      by_contra hc
      have h5 : 2 * (n' % d') < d' := by omega
      have h6 : d * d' ≤ 2 * (n % d) * d' := Nat.mul_le_mul_right _ hh
      have h7 : 2 * (n' % d') * d < d' * d := Nat.mul_lt_mul_of_pos_right h5 hd
      nlinarith
    have k2 : d < 2 * (n % d) → d' < 2 * (n' % d') := by
      intro hh
      by_contra hc
      have h5 : 2 * (n' % d') ≤ d' := by omega
      have h6 : d * d' < 2 * (n % d) * d' := Nat.mul_lt_mul_of_pos_right hh hd'
      have h7 : 2 * (n' % d') * d ≤ d' * d := Nat.mul_le_mul_right _ h5
      nlinarith
    have hpar : n / d % 2 ≤ 1 := by omega
    split
    · split
      · exact Nat.le_refl _
      · split <;> omega
    · split
      · split
        · omega
        · split <;> omega
      · split
        · omega
        · split <;> omega

/-! ## Units -/

namespace Fmt
variable (F : Fmt)

theorem units_small {a : Nat} (h : a < 2 ^ F.mb) : F.units a = a := if_pos h

theorem units_split (k m : Nat) (h : k = 0 ∨ 2 ^ F.mb ≤ m) (hm : m ≤ 2 ^ (F.mb + 1)) :
    F.units (k * 2 ^ F.mb + m) = m * 2 ^ k := by
  have hp : 0 < 2 ^ F.mb := Nat.two_pow_pos _
  rw [Nat.pow_succ] at hm
  rcases Nat.lt_or_ge m (2 ^ F.mb) with h1 | h1
  · have hk : k = 0 := by omega
    subst hk
    rw [units_small]
    · simp
    · omega
  · have hge : ¬ k * 2 ^ F.mb + m < 2 ^ F.mb := by
      have := Nat.zero_le (k * 2 ^ F.mb)
      omega
    unfold units
    rw [if_neg hge]
    rcases Nat.lt_or_ge m (2 ^ F.mb * 2) with h2 | h2
    · have e : k * 2 ^ F.mb + m = (m - 2 ^ F.mb) + 2 ^ F.mb * (k + 1) := by
        rw [Nat.mul_add, Nat.mul_comm k]; omega
      rw [e, Nat.add_mul_mod_self_left, Nat.add_mul_div_left _ _ hp, Nat.mod_eq_of_lt (by omega),
        Nat.div_eq_of_lt (by omega)]
      congr 1
      · omega
      · congr 1; omega
    · have hm2 : m = 2 ^ F.mb * 2 := by omega
      have e : k * 2 ^ F.mb + m = 0 + 2 ^ F.mb * (k + 2) := by
        rw [Nat.mul_add, Nat.mul_comm k]; omega
      rw [e, Nat.add_mul_mod_self_left, Nat.add_mul_div_left _ _ hp, hm2]
      simp only [Nat.zero_mod, Nat.zero_div, Nat.add_zero, Nat.zero_add]
      rw [show k + 2 - 1 = k + 1 by omega, Nat.pow_succ]
      ring

/-- Every magnitude is an exponent and a mantissa. -/
theorem exists_split (a : Nat) : ∃ k m, a = k * 2 ^ F.mb + m ∧ (k = 0 ∨ 2 ^ F.mb ≤ m) ∧ m < 2 ^ (F.mb + 1) := by
  have hp : 0 < 2 ^ F.mb := Nat.two_pow_pos _
  rw [Nat.pow_succ]
  rcases Nat.lt_or_ge a (2 ^ F.mb) with h | h
  · exact ⟨0, a, by simp, .inl rfl, by omega⟩
  · have h1 := Nat.div_add_mod a (2 ^ F.mb)
    have h2 := Nat.mod_lt a hp
    have h3 : 1 ≤ a / 2 ^ F.mb := (Nat.le_div_iff_mul_le hp).mpr (by omega)
    refine ⟨a / 2 ^ F.mb - 1, 2 ^ F.mb + a % 2 ^ F.mb, ?_, .inr (by omega), by omega⟩
    rw [Nat.sub_mul, Nat.mul_comm (a / _)]
    have : 2 ^ F.mb * 1 ≤ 2 ^ F.mb * (a / 2 ^ F.mb) := Nat.mul_le_mul_left _ h3
    omega

theorem units_lt_succ (a : Nat) : F.units a < F.units (a + 1) := by
  obtain ⟨k, m, rfl, h, hm⟩ := F.exists_split a
  rw [Nat.add_assoc, F.units_split k m h (by omega), F.units_split k (m + 1) (by omega) (by omega)]
  exact Nat.mul_lt_mul_of_pos_right (by omega) (Nat.two_pow_pos _)

theorem units_strictMono : StrictMono F.units := strictMono_nat_of_lt_succ F.units_lt_succ

@[simp] theorem units_zero : F.units 0 = 0 := F.units_small (Nat.two_pow_pos _)

theorem units_pos {a : Nat} (h : 0 < a) : 0 < F.units a := by
  have := F.units_strictMono h
  omega

theorem units_eq_zero {a : Nat} : F.units a = 0 ↔ a = 0 := by
  constructor
  · intro h
    by_contra hc
    have := F.units_pos (Nat.pos_of_ne_zero hc)
    omega
  · rintro rfl; simp

/-! ## Rounding -/

/-- The exponent chosen by `round`. -/
def exponent (n d : Nat) : Nat := Nat.log2 (n / d) - F.mb

/-- The magnitude before the limit of infinity. -/
def roundRaw (n d : Nat) : Nat := F.exponent n d * 2 ^ F.mb + roundDiv n (d * 2 ^ F.exponent n d)

theorem round_eq (n d : Nat) : F.round n d = min (F.roundRaw n d) F.inf := rfl

theorem exponent_upper {n d : Nat} (hd : 0 < d) : n < d * 2 ^ (F.exponent n d + F.mb + 1) := by
  have h1 : n / d < 2 ^ (Nat.log2 (n / d) + 1) := Nat.lt_log2_self
  have h2 : Nat.log2 (n / d) + 1 ≤ F.exponent n d + F.mb + 1 := by unfold exponent; omega
  have h3 := Nat.pow_le_pow_right (n := 2) (by decide) h2
  have h4 : n / d < 2 ^ (F.exponent n d + F.mb + 1) := by omega
  exact (Nat.div_lt_iff_lt_mul hd).mp h4 |>.trans_eq (Nat.mul_comm _ _)

theorem exponent_lower {n d : Nat} (hd : 0 < d) (hk : F.exponent n d ≠ 0) : d * 2 ^ (F.exponent n d + F.mb) ≤ n := by
  have h0 : n / d ≠ 0 := by
    intro h
    apply hk
    simp [exponent, h]
  have h1 : 2 ^ Nat.log2 (n / d) ≤ n / d := Nat.log2_self_le h0
  have h2 : F.exponent n d + F.mb = Nat.log2 (n / d) := by unfold exponent at hk ⊢; omega
  rw [h2, Nat.mul_comm]
  exact (Nat.le_div_iff_mul_le hd).mp h1

theorem mantissa_le {n d : Nat} (hd : 0 < d) : roundDiv n (d * 2 ^ F.exponent n d) ≤ 2 ^ (F.mb + 1) := by
  have hp : 0 < d * 2 ^ F.exponent n d := Nat.mul_pos hd (Nat.two_pow_pos _)
  apply roundDiv_le hp
  have := F.exponent_upper (n := n) hd
  have e : 2 ^ (F.mb + 1) * (d * 2 ^ F.exponent n d) = d * 2 ^ (F.exponent n d + F.mb + 1) := by
    rw [Nat.add_assoc, Nat.pow_add 2 (F.exponent n d)]; ring
  omega

theorem mantissa_ge {n d : Nat} (hd : 0 < d) :
    F.exponent n d = 0 ∨ 2 ^ F.mb ≤ roundDiv n (d * 2 ^ F.exponent n d) := by
  by_cases hk : F.exponent n d = 0
  · exact .inl hk
  · refine .inr (roundDiv_ge (Nat.mul_pos hd (Nat.two_pow_pos _)) ?_)
    have := F.exponent_lower hd hk
    have e : 2 ^ F.mb * (d * 2 ^ F.exponent n d) = d * 2 ^ (F.exponent n d + F.mb) := by
      rw [Nat.pow_add 2 (F.exponent n d)]; ring
    omega

theorem units_roundRaw {n d : Nat} (hd : 0 < d) :
    F.units (F.roundRaw n d) = roundDiv n (d * 2 ^ F.exponent n d) * 2 ^ F.exponent n d :=
  F.units_split _ _ (F.mantissa_ge hd) (F.mantissa_le hd)

/-- A representable number is not changed. -/
theorem roundRaw_units (a d : Nat) (hd : 0 < d) : F.roundRaw (F.units a * d) d = a := by
  obtain ⟨k, m, rfl, h, hm⟩ := F.exists_split a
  rw [F.units_split k m h (by omega)]
  have hk : F.exponent (m * 2 ^ k * d) d = k := by
    unfold exponent
    rw [Nat.mul_div_cancel _ hd]
    rcases h with rfl | h
    · rw [Nat.pow_zero, Nat.mul_one]
      rcases Nat.eq_zero_or_pos m with rfl | h0
      · simp
      · have h2 := (Nat.log2_lt (by omega : m ≠ 0)).mpr hm
        omega
    · have h1 : Nat.log2 (m * 2 ^ k) = F.mb + k := by
        have hm0 : m ≠ 0 := by have := Nat.two_pow_pos F.mb; omega
        have hne : m * 2 ^ k ≠ 0 := Nat.mul_ne_zero hm0 (Nat.two_pow_pos k).ne'
        apply Nat.le_antisymm
        · have := (Nat.log2_lt (k := F.mb + k + 1) hne).mpr (by
            rw [show F.mb + k + 1 = (F.mb + 1) + k by omega, Nat.pow_add]
            exact Nat.mul_lt_mul_of_pos_right hm (Nat.two_pow_pos k))
          omega
        · apply (Nat.le_log2 hne).mpr
          rw [Nat.pow_add]
          exact Nat.mul_le_mul_right _ h
      omega
  unfold roundRaw
  rw [hk, Nat.mul_assoc, Nat.mul_comm (2 ^ k) d, roundDiv_mul (Nat.mul_pos hd (Nat.two_pow_pos _))]

theorem round_units {a d : Nat} (hd : 0 < d) (h : a ≤ F.inf) : F.round (F.units a * d) d = a := by
  rw [round_eq, roundRaw_units F a d hd, Nat.min_eq_left h]

theorem round_units_one {a : Nat} (h : a ≤ F.inf) : F.round (F.units a) 1 = a := by
  simpa using F.round_units (d := 1) (by decide) h

theorem exponent_mono {n d n' d' : Nat} (hd : 0 < d) (hd' : 0 < d') (h : n * d' ≤ n' * d) :
    F.exponent n d ≤ F.exponent n' d' := by
  have hq : n / d ≤ n' / d' := by
    rw [Nat.le_div_iff_mul_le hd']
    have h1 : n / d * d ≤ n := Nat.div_mul_le_self n d
    have h2 : n / d * d' * d ≤ n' * d := by
      calc n / d * d' * d = n / d * d * d' := by ring
        _ ≤ n * d' := Nat.mul_le_mul_right _ h1
        _ ≤ n' * d := h
    exact Nat.le_of_mul_le_mul_right h2 hd
  unfold exponent
  have : Nat.log2 (n / d) ≤ Nat.log2 (n' / d') := by
    by_cases h0 : n / d = 0
    · simp [h0]
    · have h1 : n' / d' ≠ 0 := fun hc => h0 (Nat.le_zero.mp (hc ▸ hq))
      exact (Nat.le_log2 h1).mpr (Nat.le_trans (Nat.log2_self_le h0) hq)
  omega

theorem roundRaw_mono {n d n' d' : Nat} (hd : 0 < d) (hd' : 0 < d') (h : n * d' ≤ n' * d) :
    F.roundRaw n d ≤ F.roundRaw n' d' := by
  have hk := F.exponent_mono hd hd' h
  rcases Nat.lt_or_ge (F.exponent n d) (F.exponent n' d') with hlt | hge
  · have h1 := F.mantissa_le (n := n) hd
    have h2 : 2 ^ F.mb ≤ roundDiv n' (d' * 2 ^ F.exponent n' d') := by
      rcases F.mantissa_ge (n := n') hd' with h2 | h2
      · omega
      · exact h2
    have h3 : (F.exponent n d + 1) * 2 ^ F.mb ≤ F.exponent n' d' * 2 ^ F.mb := Nat.mul_le_mul_right _ hlt
    unfold roundRaw
    rw [Nat.pow_succ] at h1
    rw [Nat.add_mul] at h3
    omega
  · have he : F.exponent n d = F.exponent n' d' := by omega
    unfold roundRaw
    rw [he]
    apply Nat.add_le_add_left
    apply roundDiv_mono (Nat.mul_pos hd (Nat.two_pow_pos _)) (Nat.mul_pos hd' (Nat.two_pow_pos _))
    calc n * (d' * 2 ^ F.exponent n' d') = n * d' * 2 ^ F.exponent n' d' := by ring
      _ ≤ n' * d * 2 ^ F.exponent n' d' := Nat.mul_le_mul_right _ h
      _ = _ := by ring

theorem round_mono {n d n' d' : Nat} (hd : 0 < d) (hd' : 0 < d') (h : n * d' ≤ n' * d) :
    F.round n d ≤ F.round n' d' := by
  have := F.roundRaw_mono hd hd' h
  rw [round_eq, round_eq]
  omega

theorem round_le {n d a : Nat} (hd : 0 < d) (ha : a ≤ F.inf) (h : n ≤ F.units a * d) : F.round n d ≤ a := by
  have := F.round_mono (n := n) (d := d) (n' := F.units a * d) (d' := d) hd hd (Nat.mul_le_mul_right _ h)
  rwa [F.round_units hd ha] at this

theorem le_round {n d a : Nat} (hd : 0 < d) (ha : a ≤ F.inf) (h : F.units a * d ≤ n) : a ≤ F.round n d := by
  have := F.round_mono (n := F.units a * d) (d := d) (n' := n) (d' := d) hd hd (Nat.mul_le_mul_right _ h)
  rwa [F.round_units hd ha] at this

theorem round_le_inf (n d : Nat) : F.round n d ≤ F.inf := by rw [round_eq]; omega

theorem round_zero (d : Nat) (hd : 0 < d) : F.round 0 d = 0 :=
  Nat.le_zero.mp (F.round_le hd (Nat.zero_le _) (by simp))

/-! ## The rounding error, in rational numbers -/

theorem roundRaw_error {n d : Nat} (hd : 0 < d) :
    |(F.units (F.roundRaw n d) : ℚ) - n / d| ≤ 2 ^ F.exponent n d / 2 := by
  rw [F.units_roundRaw hd]
  have hp : 0 < d * 2 ^ F.exponent n d := Nat.mul_pos hd (Nat.two_pow_pos _)
  obtain ⟨h1, h2⟩ := roundDiv_near (n := n) hp
  generalize roundDiv n (d * 2 ^ F.exponent n d) = m at h1 h2 ⊢
  have hdq : (0 : ℚ) < d := by exact_mod_cast hd
  have h1q : (2 * (m * (d * 2 ^ F.exponent n d)) : ℚ) ≤ 2 * n + d * 2 ^ F.exponent n d := by exact_mod_cast h1
  have h2q : (2 * n : ℚ) ≤ 2 * (m * (d * 2 ^ F.exponent n d)) + d * 2 ^ F.exponent n d := by exact_mod_cast h2
  push_cast
  have e : ((n : ℚ) / d) * d = n := div_mul_cancel₀ _ hdq.ne'
  generalize (n : ℚ) / d = q at e
  rw [← e] at h1q h2q
  generalize (2 : ℚ) ^ F.exponent n d = p at *
  rw [abs_le]
  constructor <;> (apply le_of_mul_le_mul_right _ hdq; nlinarith)

theorem exponent_error {n d : Nat} (hd : 0 < d) :
    F.exponent n d = 0 ∨ (2 : ℚ) ^ F.exponent n d / 2 ≤ (n / d) / 2 ^ (F.mb + 1) := by
  by_cases hk : F.exponent n d = 0
  · exact .inl hk
  · right
    have h := F.exponent_lower hd hk
    have hq : (d * 2 ^ (F.exponent n d + F.mb) : ℚ) ≤ n := by exact_mod_cast h
    have hdq : (0 : ℚ) < d := by exact_mod_cast hd
    rw [div_div, div_le_div_iff₀ (by norm_num) (by positivity)]
    rw [pow_add] at hq
    rw [pow_succ]
    nlinarith

/-- The rounding error of a result that is not infinite. -/
theorem round_error {n d : Nat} (hd : 0 < d) (hf : F.round n d < F.inf) :
    |(F.units (F.round n d) : ℚ) - n / d| ≤ max ((n / d : ℚ) / 2 ^ (F.mb + 1)) (1 / 2) := by
  have e : F.round n d = F.roundRaw n d := by rw [round_eq] at hf ⊢; omega
  rw [e]
  refine (F.roundRaw_error hd).trans ?_
  rcases F.exponent_error (n := n) hd with h | h
  · rw [h]; exact le_max_of_le_right (by norm_num)
  · exact le_max_of_le_left h

/-- Whole numbers of units have no absolute error term. -/
theorem round_error_one {n : Nat} (hf : F.round n 1 < F.inf) :
    |(F.units (F.round n 1) : ℚ) - n| ≤ n / 2 ^ (F.mb + 1) := by
  have e : F.round n 1 = F.roundRaw n 1 := by rw [round_eq] at hf ⊢; omega
  rw [e]
  have h0 := F.roundRaw_error (n := n) (d := 1) (by decide)
  rcases F.exponent_error (n := n) (d := 1) (by decide) with h | h
  · rw [F.units_roundRaw (by decide), h]
    have := roundDiv_mul (m := n) (d := 1) (by decide)
    simp only [Nat.mul_one] at this
    simp only [Nat.pow_zero, Nat.mul_one, this, sub_self, abs_zero]
    positivity
  · simp only [Nat.cast_one, div_one] at h0 h
    exact h0.trans h

/-- Only numbers near the end of the range become infinite. -/
theorem round_inf {n d : Nat} (hd : 0 < d) (he : 2 ≤ F.eb) (h : F.round n d = F.inf) :
    (F.units F.inf : ℚ) - 2 ^ (2 ^ F.eb - 3) / 2 ≤ n / d := by
  have hle : F.inf ≤ F.roundRaw n d := by rw [round_eq] at h; omega
  have h1 : F.units F.inf ≤ F.units (F.roundRaw n d) := F.units_strictMono.monotone hle
  have h1q : (F.units F.inf : ℚ) ≤ F.units (F.roundRaw n d) := by exact_mod_cast h1
  have h2 := (abs_le.mp (F.roundRaw_error (n := n) hd)).2
  rcases Nat.lt_or_ge (2 ^ F.eb - 3) (F.exponent n d) with hk | hk
  · have h4 : 4 ≤ 2 ^ F.eb := by
      have := Nat.pow_le_pow_right (n := 2) (by decide) he
      omega
    have h3 := F.exponent_lower hd (by omega : F.exponent n d ≠ 0)
    have hu : F.units F.inf = 2 ^ (2 ^ F.eb - 2 + F.mb) := by
      have : F.inf = (2 ^ F.eb - 2) * 2 ^ F.mb + 2 ^ F.mb := by
        unfold inf
        rw [show 2 ^ F.eb - 1 = (2 ^ F.eb - 2) + 1 by omega, Nat.add_mul]
        omega
      rw [this, F.units_split _ _ (.inr (Nat.le_refl _)) (by rw [Nat.pow_succ]; omega), ← Nat.pow_add,
        Nat.add_comm]
    have h5 : d * F.units F.inf ≤ n := by
      rw [hu]
      refine Nat.le_trans (Nat.mul_le_mul_left _ (Nat.pow_le_pow_right (by decide) ?_)) h3
      omega
    have hdq : (0 : ℚ) < d := by exact_mod_cast hd
    have h5q : (d * F.units F.inf : ℚ) ≤ n := by exact_mod_cast h5
    have h6 : (F.units F.inf : ℚ) ≤ n / d := by
      rw [le_div_iff₀ hdq]; linarith
    have : (0 : ℚ) < 2 ^ (2 ^ F.eb - 3) / 2 := by positivity
    linarith
  · have h3 : (2 : ℚ) ^ F.exponent n d ≤ 2 ^ (2 ^ F.eb - 3) := pow_le_pow_right₀ (by norm_num) hk
    linarith

end Fmt

/-! ## Square roots -/

theorem isqrtFrom_spec (n : Nat) : ∀ (k r : Nat), r * r ≤ n → n < (r + 2 ^ k) * (r + 2 ^ k) →
    isqrtFrom k n r * isqrtFrom k n r ≤ n ∧ n < (isqrtFrom k n r + 1) * (isqrtFrom k n r + 1)
  | 0, r, h1, h2 => ⟨h1, h2⟩
  | k + 1, r, h1, h2 => by
    unfold isqrtFrom
    split
    · rename_i h
      apply isqrtFrom_spec n k _ h
      rw [Nat.add_assoc, ← Nat.two_mul, ← Nat.pow_succ']
      exact h2
    · rename_i h
      exact isqrtFrom_spec n k r h1 (by omega)

theorem isqrt_spec (n : Nat) : isqrt n * isqrt n ≤ n ∧ n < (isqrt n + 1) * (isqrt n + 1) := by
  apply isqrtFrom_spec
  · omega
  · have h1 : n < 2 ^ (Nat.log2 n + 1) := Nat.lt_log2_self
    have h2 : 2 ^ (Nat.log2 n + 1) ≤ 2 ^ (2 * (Nat.log2 n / 2 + 1)) := Nat.pow_le_pow_right (by decide) (by omega)
    rw [Nat.zero_add, ← Nat.pow_add, ← Nat.two_mul]
    omega

end Verif.Ieee
