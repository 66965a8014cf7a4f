import Verif.Json.NumberLaws
import Verif.Json.TextFloat
import Verif.Json.GrammarLaws
import Verif.Json.NumberSpec
/-!
# How exact a number in the text of JSON is read
-/

namespace Verif.Json
open Verif.Ieee

theorem double_limit_large : (2 ^ 250 : ℚ) < double.limit := by
  refine lt_of_le_of_lt ?_ (Fmt.big_lt_limit _ double_eb)
  rw [Fmt.big, le_div_iff₀ (by positivity), double_scale]
  have : 2 ^ 250 * 2 ^ 1074 ≤ double.units (double.inf - 1) := by decide +kernel
  exact_mod_cast this

theorem ofNat_error {n : Nat} (hn : (n : ℚ) ≤ 2 ^ 250) : (Fl.ofNat n : Fl double).Fin ∧ (Fl.ofNat n : Fl double).neg = false ∧
    |(Fl.ofNat n : Fl double).val - n| ≤ n * (1 / 2 ^ 53) := by
  have habs : |(n : ℚ)| = n := abs_of_nonneg (by positivity)
  have h := Fl.round_val_one (F := double) (neg := false) (n := n * 2 ^ double.scale) (n : ℚ)
    (by rw [habs]; push_cast; field_simp)
    (by rw [habs]; exact lt_of_le_of_lt hn double_limit_large) double_eb
  rw [habs, double_eps, sg, if_neg (by decide), one_mul] at h
  exact ⟨h.1, rfl, h.2⟩

/-- A result that is rounded once more. -/
theorem rounded_error {x y f : ℚ} (hy : 1 / 2 ^ 200 ≤ y) (hx : |x - y| ≤ y * (201 / 100 / 2 ^ 53))
    (hf : |f - x| ≤ max (|x| * (1 / 2 ^ 53)) (1 / 2 ^ 256)) : |f - y| ≤ y * (1 / 2 ^ 51) := by
  have hy0 : 0 < y := lt_of_lt_of_le (by norm_num) hy
  obtain ⟨x1, x2⟩ := abs_le.mp hx
  have hx0 : 0 < x := by nlinarith
  rw [abs_of_pos hx0] at hf
  have hmax : max (x * (1 / 2 ^ 53)) (1 / 2 ^ 256) ≤ y * (101 / 100 / 2 ^ 53) := by
    apply max_le
    · linarith
    · have : (1 : ℚ) / 2 ^ 256 ≤ 1 / 2 ^ 200 * (101 / 100 / 2 ^ 53) := by norm_num
      linarith
  obtain ⟨f1, f2⟩ := abs_le.mp (hf.trans hmax)
  rw [abs_le]
  constructor <;> linarith

theorem mul_near {a a' t p : ℚ} (ha : 0 < a) (ht : 0 < t) (h1 : |a' - a| ≤ a * (1 / 2 ^ 53)) (h2 : |p - t| ≤ t * (1 / 2 ^ 53)) :
    |a' * p - a * t| ≤ a * t * (201 / 100 / 2 ^ 53) := by
  obtain ⟨a1, a2⟩ := abs_le.mp h1
  obtain ⟨p1, p2⟩ := abs_le.mp h2
  have l1 : a * (1 - 1 / 2 ^ 53) ≤ a' := by linarith
  have l2 : t * (1 - 1 / 2 ^ 53) ≤ p := by linarith
  have u1 : a' ≤ a * (1 + 1 / 2 ^ 53) := by linarith
  have u2 : p ≤ t * (1 + 1 / 2 ^ 53) := by linarith
  have z1 : 0 ≤ a * (1 - 1 / 2 ^ 53) := mul_nonneg ha.le (by norm_num)
  have z2 : 0 ≤ t * (1 - 1 / 2 ^ 53) := mul_nonneg ht.le (by norm_num)
  have lo := mul_le_mul l1 l2 z2 (z1.trans l1)
  have hi := mul_le_mul u1 u2 (z2.trans l2) (by positivity)
  have hat : 0 < a * t := by positivity
  rw [show a * (1 - 1 / 2 ^ 53) * (t * (1 - 1 / 2 ^ 53)) = a * t * ((1 - 1 / 2 ^ 53) * (1 - 1 / 2 ^ 53)) by ring] at lo
  rw [show a * (1 + 1 / 2 ^ 53) * (t * (1 + 1 / 2 ^ 53)) = a * t * ((1 + 1 / 2 ^ 53) * (1 + 1 / 2 ^ 53)) by ring] at hi
  rw [abs_le]
  constructor <;> linarith

theorem div_near {a a' t p : ℚ} (ha : 0 < a) (ht : 0 < t) (h1 : |a' - a| ≤ a * (1 / 2 ^ 53)) (h2 : |p - t| ≤ t * (1 / 2 ^ 53)) :
    |a' / p - a / t| ≤ a / t * (201 / 100 / 2 ^ 53) := by
  obtain ⟨a1, a2⟩ := abs_le.mp h1
  obtain ⟨p1, p2⟩ := abs_le.mp h2
  have hp : 0 < p := by linarith
  have hq : 0 < a / t := by positivity
  have e : a = a / t * t := by field_simp
  have lo : a / t * (1 - 201 / 100 / 2 ^ 53) ≤ a' / p := by
    rw [le_div_iff₀ hp]
    have h3 : a / t * (1 - 201 / 100 / 2 ^ 53) * p ≤ a / t * (1 - 201 / 100 / 2 ^ 53) * (t * (1 + 1 / 2 ^ 53)) :=
      mul_le_mul_of_nonneg_left (by linarith) (mul_nonneg hq.le (by norm_num))
    have h4 : a / t * (1 - 201 / 100 / 2 ^ 53) * (t * (1 + 1 / 2 ^ 53)) =
        a / t * t * ((1 - 201 / 100 / 2 ^ 53) * (1 + 1 / 2 ^ 53)) := by ring
    rw [← e] at h4
    linarith
  have hi : a' / p ≤ a / t * (1 + 201 / 100 / 2 ^ 53) := by
    rw [div_le_iff₀ hp]
    have h3 : a / t * (1 + 201 / 100 / 2 ^ 53) * (t * (1 - 1 / 2 ^ 53)) ≤ a / t * (1 + 201 / 100 / 2 ^ 53) * p :=
      mul_le_mul_of_nonneg_left (by linarith) (mul_nonneg hq.le (by norm_num))
    have h4 : a / t * (1 + 201 / 100 / 2 ^ 53) * (t * (1 - 1 / 2 ^ 53)) =
        a / t * t * ((1 + 201 / 100 / 2 ^ 53) * (1 - 1 / 2 ^ 53)) := by ring
    rw [← e] at h4
    linarith
  rw [abs_le]
  constructor <;> linarith

/-- The exponents that can occur. -/
theorem exponent_bounds {m : Nat} {k : Int} (hm0 : 0 < m) (hm : m < 2 ^ 64) (h1 : (1 : ℚ) / 2 ^ 162 ≤ m * 10 ^ k)
    (h2 : (m : ℚ) * 10 ^ k ≤ 2 ^ 132) : -68 ≤ k ∧ k ≤ 39 := by
  have hm1 := natCast_pos hm0
  have hmq : (m : ℚ) < 2 ^ 64 := by exact_mod_cast hm
  have ht := zpow_ten_pos k
  constructor
  · by_contra hk
    have h3 : (10 : ℚ) ^ k ≤ 10 ^ (-69 : Int) := zpow_le_zpow_right₀ (by norm_num) (by omega)
    have h4 : (10 : ℚ) ^ (-69 : Int) = 1 / 10 ^ 69 := by norm_num
    rw [h4] at h3
    have h5 : (m : ℚ) * 10 ^ k ≤ 2 ^ 64 * (1 / 10 ^ 69) := mul_le_mul hmq.le h3 ht.le (by norm_num)
    have h6 : (2 : ℚ) ^ 64 * (1 / 10 ^ 69) < 1 / 2 ^ 162 := by norm_num
    linarith
  · by_contra hk
    have h3 : (10 : ℚ) ^ (40 : Int) ≤ 10 ^ k := zpow_le_zpow_right₀ (by norm_num) (by omega)
    have h4 : (10 : ℚ) ^ (40 : Int) = 10 ^ 40 := by norm_cast
    rw [h4] at h3
    have h6 : (2 : ℚ) ^ 132 < 10 ^ 40 := by norm_num
    nlinarith

/-- The double that is read for a number in the range of the floats. -/
theorem fromParts_close {m : Nat} {k : Int} (hm0 : 0 < m) (hm : m < 2 ^ 64) (h1 : (1 : ℚ) / 2 ^ 162 ≤ m * 10 ^ k)
    (h2 : (m : ℚ) * 10 ^ k ≤ 2 ^ 132) :
    ∃ f, fromParts m k = some f ∧ f.Fin ∧ f.neg = false ∧ |f.val - m * 10 ^ k| ≤ m * 10 ^ k * (1 / 2 ^ 51) := by
  obtain ⟨hk1, hk2⟩ := exponent_bounds hm0 hm h1 h2
  have hm1 := natCast_pos hm0
  have hmq : (m : ℚ) < 2 ^ 64 := by exact_mod_cast hm
  have hmp : (0 : ℚ) < m := by linarith
  obtain ⟨fm, nm, em⟩ := ofNat_error (n := m) (by linarith [show (2 : ℚ) ^ 64 ≤ 2 ^ 250 by norm_num])
  have ntiny : double.tiny ≤ 1 / 2 ^ 256 := double_tiny_small
  have neps := double_eps
  have hlow : (1 : ℚ) / 2 ^ 200 ≤ m * 10 ^ k := le_trans (by norm_num) h1
  have power : ∀ n ≤ 68, (pow10 n).Fin ∧ (pow10 n).neg = false ∧ |(pow10 n).val - 10 ^ n| ≤ 10 ^ n * (1 / 2 ^ 53) := by
    intro n hn
    have h := ofNat_error (n := 10 ^ n) (by
      push_cast
      calc (10 : ℚ) ^ n ≤ 10 ^ 68 := pow_le_pow_right₀ (by norm_num) hn
        _ ≤ 2 ^ 250 := by norm_num)
    push_cast at h
    exact h
  cases k with
  | ofNat n =>
    have hn : n ≤ 39 := by exact Int.ofNat_le.mp hk2
    obtain ⟨fp, np, ep⟩ := power n (by omega)
    have ht : (0 : ℚ) < 10 ^ n := by positivity
    have hnear := mul_near hmp ht em ep
    have ez : (m : ℚ) * 10 ^ (Int.ofNat n) = m * 10 ^ n := by rw [Int.ofNat_eq_natCast, zpow_natCast]
    rw [ez] at h1 h2 hlow ⊢
    have hb : |(Fl.ofNat m : Fl double).val * (pow10 n).val| < double.limit := by
      refine lt_of_le_of_lt ?_ double_limit_large
      obtain ⟨b1, b2⟩ := abs_le.mp hnear
      rw [abs_le]
      constructor <;> linarith [show (2 : ℚ) ^ 132 * 2 ≤ 2 ^ 250 by norm_num]
    obtain ⟨ff, ef⟩ := Fl.mul_error fm fp hb double_eb
    rw [neps] at ef
    refine ⟨_, ?_, ff, ?_, ?_⟩
    · simp only [fromParts, ff.not_inf]
      rw [if_pos (by omega)]
      rfl
    · rw [mul_neg_eq fm fp, np]; rfl
    · exact rounded_error hlow hnear (ef.trans (max_le_max le_rfl ntiny))
  | negSucc n =>
    have hn : n + 1 ≤ 68 := by omega
    obtain ⟨fp, np, ep⟩ := power (n + 1) hn
    have ht : (0 : ℚ) < 10 ^ (n + 1) := by positivity
    have hnear := div_near hmp ht em ep
    have ez : (m : ℚ) * 10 ^ (Int.negSucc n) = m / 10 ^ (n + 1) := by rw [zpow_negSucc, div_eq_mul_inv]
    rw [ez] at h1 h2 hlow ⊢
    have hpp0 : 0 < (pow10 (n + 1)).val := by
      obtain ⟨p1, p2⟩ := abs_le.mp ep
      linarith
    have hb : |(Fl.ofNat m : Fl double).val / (pow10 (n + 1)).val| < double.limit := by
      refine lt_of_le_of_lt ?_ double_limit_large
      obtain ⟨b1, b2⟩ := abs_le.mp hnear
      rw [abs_le]
      constructor <;> linarith [show (2 : ℚ) ^ 132 * 2 ≤ 2 ^ 250 by norm_num]
    obtain ⟨ff, ef⟩ := Fl.div_error fm fp hpp0.ne' hb double_eb
    rw [neps] at ef
    refine ⟨_, ?_, ff, ?_, ?_⟩
    · simp only [fromParts, divPow]
      rw [if_pos (by omega)]
    · rw [div_neg_eq fm fp hpp0.ne', np]; rfl
    · exact rounded_error hlow hnear (ef.trans (max_le_max le_rfl ntiny))

/-! ## The digits that are kept -/

theorem ofDigitChars_range : ∀ (ds : List Char) (s : Nat), (∀ c ∈ ds, c.isDigit = true) →
    s * 10 ^ ds.length ≤ Nat.ofDigitChars 10 ds s ∧ Nat.ofDigitChars 10 ds s < (s + 1) * 10 ^ ds.length
  | [], s, _ => by simp
  | c :: cs, s, h => by
    have hd := digitValue_lt (h c (by simp))
    obtain ⟨h1, h2⟩ := ofDigitChars_range cs (s * 10 + digitValue c) fun x hx => h x (by simp [hx])
    rw [Nat.ofDigitChars_cons, ← digit_step, List.length_cons, Nat.pow_succ]
    have hp : 0 < 10 ^ cs.length := Nat.pow_pos (by decide)
    constructor
    · refine Nat.le_trans ?_ h1
      rw [← Nat.mul_assoc, Nat.mul_right_comm]
      exact Nat.mul_le_mul_right _ (by omega)
    · refine Nat.lt_of_lt_of_le h2 ?_
      rw [← Nat.mul_assoc, Nat.mul_right_comm]
      exact Nat.mul_le_mul_right _ (by omega)

theorem dropDigits_all : ∀ ds : List Char, (∀ c ∈ ds, c.isDigit = true) → dropDigits ds = (ds.length, [])
  | [], _ => rfl
  | c :: cs, h => by
    rw [dropDigits, if_pos (h c (by simp)), dropDigits_all cs fun x hx => h x (by simp [hx])]
    rfl

theorem scanInt_range : ∀ (ds : List Char) (s : Nat), (∀ c ∈ ds, c.isDigit = true) → s < 2 ^ 64 →
    ∃ s' n, scanInt s ds = (s', n, []) ∧ s' * 10 ^ n ≤ Nat.ofDigitChars 10 ds s ∧ Nat.ofDigitChars 10 ds s < (s' + 1) * 10 ^ n ∧
      s' < 2 ^ 64 ∧ (n = 0 ∨ 2 ^ 60 ≤ s')
  | [], s, _, hs => ⟨s, 0, rfl, by simp, by simp, hs, .inl rfl⟩
  | c :: cs, s, h, hs => by
    have hc := h c (by simp)
    have hd := digitValue_lt hc
    by_cases h3 : s * 10 + digitValue c < 2 ^ 64
    · obtain ⟨s', n, e, h4⟩ := scanInt_range cs _ (fun x hx => h x (by simp [hx])) h3
      refine ⟨s', n, by rw [scanInt, if_pos hc, if_pos h3, e], ?_⟩
      rw [Nat.ofDigitChars_cons, ← digit_step]
      exact h4
    · obtain ⟨h4, h5⟩ := ofDigitChars_range (c :: cs) s h
      exact ⟨s, (c :: cs).length, by rw [scanInt, if_pos hc, if_neg h3, dropDigits_all _ h], h4, h5, hs, .inr (by omega)⟩

theorem zpow_ten_step (e : Int) : (10 : ℚ) ^ e = 10 * 10 ^ (e - 1) := by
  rw [zpow_sub_one₀ (by norm_num)]; ring

/-- Digits behind the point stay below one unit of the digit before them. -/
theorem scanDec_keep : ∀ (ds : List Char) (s : Nat) (e : Int), (∀ c ∈ ds, c.isDigit = true) → s < 2 ^ 64 →
    ∃ s' e', scanDec s e ds = (s', e', []) ∧ (s : ℚ) * 10 ^ e ≤ s' * 10 ^ e' ∧ ((s' : ℚ) + 1) * 10 ^ e' ≤ (s + 1) * 10 ^ e ∧
      s' < 2 ^ 64 ∧ s ≤ s'
  | [], s, e, _, hs => ⟨s, e, rfl, le_rfl, le_rfl, hs, le_rfl⟩
  | c :: cs, s, e, h, hs => by
    have hc := h c (by simp)
    have hd := digitValue_lt hc
    by_cases h3 : s * 10 + digitValue c < 2 ^ 64
    · obtain ⟨s', e', h4, h5, h6, h7, h8⟩ := scanDec_keep cs _ (e - 1) (fun x hx => h x (by simp [hx])) h3
      refine ⟨s', e', by rw [scanDec, if_pos hc, if_pos h3, h4], le_trans ?_ h5, le_trans h6 ?_, h7, by omega⟩
      · rw [zpow_ten_step e]
        have ht := zpow_ten_pos (e - 1)
        have : (0 : ℚ) ≤ digitValue c := by positivity
        push_cast
        nlinarith
      · rw [zpow_ten_step e]
        have ht := zpow_ten_pos (e - 1)
        have : (digitValue c : ℚ) + 1 ≤ 10 := by exact_mod_cast hd
        push_cast
        nlinarith
    · exact ⟨s, e, by rw [scanDec, if_pos hc, if_neg h3, dropDigits_all _ h], le_rfl, le_rfl, hs, le_rfl⟩

/-- The digits behind the point, if none before it was left out. -/
theorem scanDec_range : ∀ (ds : List Char) (s : Nat) (e : Int), (∀ c ∈ ds, c.isDigit = true) → s < 2 ^ 64 →
    ∃ s' e', scanDec s e ds = (s', e', []) ∧ (s' : ℚ) * 10 ^ e' ≤ Nat.ofDigitChars 10 ds s * 10 ^ (e - ds.length) ∧
      (Nat.ofDigitChars 10 ds s : ℚ) * 10 ^ (e - ds.length) < (s' + 1) * 10 ^ e' ∧ s' < 2 ^ 64 ∧
      ((s' : ℚ) * 10 ^ e' = Nat.ofDigitChars 10 ds s * 10 ^ (e - ds.length) ∨ 2 ^ 60 ≤ s')
  | [], s, e, _, hs => by
    have ht := zpow_ten_pos e
    refine ⟨s, e, rfl, ?_, ?_, hs, .inl ?_⟩
    · simp
    · simp only [List.length_nil, Nat.cast_zero, sub_zero, Nat.ofDigitChars_nil]
      nlinarith
    · simp
  | c :: cs, s, e, h, hs => by
    have hc := h c (by simp)
    have hd := digitValue_lt hc
    by_cases h3 : s * 10 + digitValue c < 2 ^ 64
    · obtain ⟨s', e', h4, h5⟩ := scanDec_range cs _ (e - 1) (fun x hx => h x (by simp [hx])) h3
      refine ⟨s', e', by rw [scanDec, if_pos hc, if_pos h3, h4], ?_⟩
      rw [Nat.ofDigitChars_cons, ← digit_step, List.length_cons,
        show e - ((cs.length + 1 : Nat) : Int) = e - 1 - (cs.length : Int) by push_cast; ring]
      exact h5
    · obtain ⟨h4, h5⟩ := ofDigitChars_range (c :: cs) s h
      have ez : (10 : ℚ) ^ e = 10 ^ (c :: cs).length * 10 ^ (e - ((c :: cs).length : Int)) := by
        rw [zpow_sub₀ (by norm_num), zpow_natCast]; field_simp
      have ht := zpow_ten_pos (e - ((c :: cs).length : Int))
      refine ⟨s, e, by rw [scanDec, if_pos hc, if_neg h3, dropDigits_all _ h], ?_, ?_, hs, .inr (by omega)⟩
      · rw [ez, ← mul_assoc]
        exact mul_le_mul_of_nonneg_right (by exact_mod_cast h4) ht.le
      · rw [ez, ← mul_assoc]
        exact mul_lt_mul_of_pos_right (by exact_mod_cast h5) ht

/-- The number read from the digits before and behind the point differs from the number in the text by a part of less than
`2 ^ -60`. -/
theorem scan_close (is fs : List Char) (hi : ∀ c ∈ is, c.isDigit = true) (hf : ∀ c ∈ fs, c.isDigit = true) :
    ∃ s n s' e', scanInt 0 is = (s, n, []) ∧ scanDec s n fs = (s', e', []) ∧ s' < 2 ^ 64 ∧
      |(s' : ℚ) * 10 ^ e' - Nat.ofDigitChars 10 (is ++ fs) 0 * 10 ^ (-(fs.length : Int))| ≤
        Nat.ofDigitChars 10 (is ++ fs) 0 * 10 ^ (-(fs.length : Int)) * (1 / 2 ^ 60) := by
  obtain ⟨s, n, e1, i1, i2, i3, i4⟩ := scanInt_range is 0 hi (by decide)
  have eV : Nat.ofDigitChars 10 (is ++ fs) 0 = Nat.ofDigitChars 10 fs (Nat.ofDigitChars 10 is 0) := Nat.ofDigitChars_append 0
  rw [eV]
  by_cases hn : n = 0
  · subst hn
    have hV : Nat.ofDigitChars 10 is 0 = s := by simp only [Nat.pow_zero, Nat.mul_one] at i1 i2; omega
    rw [hV]
    obtain ⟨s', e', e2, d1, d2, d3, d4⟩ := scanDec_range fs s 0 hf i3
    refine ⟨s, 0, s', e', e1, e2, d3, ?_⟩
    rw [Int.zero_sub] at d1 d2 d4
    rcases d4 with d4 | d4
    · rw [d4, sub_self, abs_zero]
      have := zpow_ten_pos (-(fs.length : Int))
      positivity
    · have ht := zpow_ten_pos e'
      have hs : (2 : ℚ) ^ 60 ≤ s' := by exact_mod_cast d4
      have h1 : (2 : ℚ) ^ 60 * 10 ^ e' ≤ s' * 10 ^ e' := mul_le_mul_of_nonneg_right hs ht.le
      rw [abs_le]
      constructor <;> linarith
  · have i5 : 2 ^ 60 ≤ s := i4.resolve_left hn
    obtain ⟨s', e', e2, d1, d2, d3, -⟩ := scanDec_keep fs s n hf i3
    refine ⟨s, n, s', e', e1, e2, d3, ?_⟩
    obtain ⟨r1, r2⟩ := ofDigitChars_range fs (Nat.ofDigitChars 10 is 0) hf
    have ez : (10 : ℚ) ^ (-(fs.length : Int)) = 1 / 10 ^ fs.length := by rw [zpow_neg, zpow_natCast, one_div]
    have hl : (0 : ℚ) < 10 ^ fs.length := by positivity
    rw [ez, mul_one_div]
    have y1 : (Nat.ofDigitChars 10 is 0 : ℚ) ≤ Nat.ofDigitChars 10 fs (Nat.ofDigitChars 10 is 0) / 10 ^ fs.length := by
      rw [le_div_iff₀ hl]; exact_mod_cast r1
    have y2 : (Nat.ofDigitChars 10 fs (Nat.ofDigitChars 10 is 0) : ℚ) / 10 ^ fs.length < Nat.ofDigitChars 10 is 0 + 1 := by
      rw [div_lt_iff₀ hl]; exact_mod_cast r2
    have j1 : (s : ℚ) * 10 ^ n ≤ Nat.ofDigitChars 10 is 0 := by exact_mod_cast i1
    have j2 : (Nat.ofDigitChars 10 is 0 : ℚ) + 1 ≤ (s + 1) * 10 ^ n := by exact_mod_cast i2
    rw [zpow_natCast] at d1 d2
    have hs : (2 : ℚ) ^ 60 ≤ s := by exact_mod_cast i5
    have ht : (0 : ℚ) < 10 ^ n := by positivity
    have ht' := zpow_ten_pos e'
    have h1 : (2 : ℚ) ^ 60 * 10 ^ n ≤ s * 10 ^ n := mul_le_mul_of_nonneg_right hs ht.le
    rw [abs_le]
    constructor <;> linarith

/-! ## The parts of a number -/

theorem intPart_scan {i : List Char} (hi : IntPart i) : (∀ c ∈ i, c.isDigit = true) ∧
    ∀ s n, scanInt 0 i = (s, n, []) → ∀ neg q, NoDigit q → parseNumber neg (i ++ q) = numberTail neg s n q := by
  rcases hi with rfl | ⟨hd, h0⟩
  · refine ⟨by simp, fun s n h neg q hq => ?_⟩
    have e : scanInt 0 ['0'] = (0, 0, []) := by decide
    rw [e] at h
    cases h
    rw [List.singleton_append, parseNumber.eq_def]
    simp only [if_true]
    cases q with
    | nil => rfl
    | cons c r =>
      simp only
      rw [if_neg (by rw [hq c r rfl]; decide)]
  · refine ⟨hd.2, fun s n h neg q hq => ?_⟩
    obtain ⟨c, cs, rfl, hc⟩ := digits_head hd
    have h1 : c ≠ '0' := by simpa using h0
    have hv := digitValue_lt hc
    rw [scanInt, if_pos hc, if_pos (by omega), Nat.zero_mul, Nat.zero_add] at h
    rw [List.cons_append, parseNumber.eq_def]
    simp only [if_neg h1, if_pos hc, scanInt_append q (s := digitValue c) (l := cs) (.inr hq), h, List.nil_append]

theorem exponent_value {neg : Bool} {s : Nat} {k : Int} {e : List Char} (he : ExpPart e) :
    exponentPart neg s k e = floatValue neg s (k + exponentNumber e) [] := by
  rcases he with rfl | ⟨x, sign, ds, hx, hs, hd, rfl⟩
  · simp [exponentPart, exponentNumber]
  · have key : ∀ minus, exponentDigits neg s k minus ds =
        floatValue neg s (if minus then k - Nat.ofDigitChars 10 ds 0 else k + Nat.ofDigitChars 10 ds 0) [] := by
      intro minus
      obtain ⟨c, cs, rfl, hc⟩ := digits_head hd
      have := scanExp_digits cs (digitValue c) [] (fun y hy => hd.2 y (by simp [hy])) (by rintro _ _ ⟨⟩)
      rw [List.append_nil] at this
      rw [exponentDigits]
      simp only [if_pos hc, this, cons_value]
    rcases hs with rfl | rfl | rfl
    · have k1 := key false
      obtain ⟨c, cs, rfl, hc⟩ := digits_head hd
      have h1 : c ≠ '+' := by rintro rfl; revert hc; decide
      have h2 : c ≠ '-' := by rintro rfl; revert hc; decide
      rw [List.nil_append, exponentPart]
      simp only [if_pos hx, if_neg h1, if_neg h2, k1, exponentNumber, List.drop_one, List.tail_cons, List.head?_cons, Option.some.injEq,
        Bool.false_eq_true, if_false]
    · rw [List.cons_append, List.nil_append, exponentPart]
      simp only [if_pos hx, if_true, key, exponentNumber, List.head?_cons, Option.some.injEq,
        Bool.false_eq_true, if_false, List.drop_succ_cons, List.drop_zero, show ¬ '+' = '-' by decide]
    · rw [List.cons_append, List.nil_append, exponentPart]
      simp only [if_pos hx, if_true, key, exponentNumber, List.head?_cons,
        if_false, List.drop_succ_cons, List.drop_zero, show ¬ '-' = '+' by decide]
      rw [Int.sub_eq_add_neg]

/-- The parts that the parser finds, and what it does with them. -/
theorem parseNumber_parts {i f e : List Char} (hi : IntPart i) (hf : FracPart f) (he : ExpPart e) :
    ∃ (s : Nat) (k : Int), s < 2 ^ 64 ∧ |(s : ℚ) * 10 ^ k - textNumber i f e| ≤ textNumber i f e * (1 / 2 ^ 60) ∧
      ∀ neg, (f ≠ [] ∨ e ≠ [] ∨ 2 ^ 64 ≤ Nat.ofDigitChars 10 i 0 → parseNumber neg (i ++ (f ++ e)) = floatValue neg s k []) ∧
        (f = [] → e = [] → Nat.ofDigitChars 10 i 0 < 2 ^ 64 → parseNumber neg (i ++ (f ++ e)) = some (intValue neg s, []) ∧
          s = Nat.ofDigitChars 10 i 0 ∧ k = 0) := by
  obtain ⟨hid, hscan⟩ := intPart_scan hi
  have hfd : ∀ c ∈ fracDigits f, c.isDigit = true := by
    rcases hf with rfl | ⟨ds, hd, rfl⟩
    · simp [fracDigits]
    · simpa [fracDigits] using hd.2
  obtain ⟨s, n, s', e', h1, h2, h3, h4⟩ := scan_close i (fracDigits f) hid hfd
  have htail := hscan s n h1
  have hnd := tail_noDigit hf he
  refine ⟨s', e' + exponentNumber e, h3, ?_, fun neg => ⟨fun hcase => ?_, ?_⟩⟩
  · have ht := zpow_ten_pos (exponentNumber e)
    rw [textNumber, show exponentNumber e - ((fracDigits f).length : Int) = -((fracDigits f).length : Int) + exponentNumber e by ring,
      zpow_add₀ (by norm_num), zpow_add₀ (by norm_num), ← mul_assoc, ← mul_assoc, ← sub_mul, abs_mul, abs_of_pos ht, mul_right_comm]
    exact mul_le_mul_of_nonneg_right h4 ht.le
  · rw [htail neg _ hnd]
    rcases hf with rfl | ⟨ds, hd, rfl⟩
    · cases h2
      rw [List.nil_append]
      rcases he with rfl | ⟨x, sign, ds, hx, hs, hd, rfl⟩
      · have hbig : 2 ^ 64 ≤ Nat.ofDigitChars 10 i 0 := by simpa using hcase
        have hn := scanInt_large hid (by decide) hbig
        rw [h1] at hn
        rw [numberTail, if_neg (by simpa using hn.ne')]
        simp [exponentNumber]
      · rw [← exponent_value (.inr ⟨x, sign, ds, hx, hs, hd, rfl⟩), numberTail.eq_def]
        simp only [if_pos hx, if_neg (show ¬ x = '.' by rcases hx with rfl | rfl <;> decide)]
    · have hfr : fracDigits ('.' :: ds) = ds := rfl
      rw [hfr] at h2
      obtain ⟨d, r, rfl, hdd⟩ := digits_head hd
      have h5 := scanDec_append e (s := s) (e := n) (l := d :: r) (.inr (exp_noDigit he))
      rw [h2, List.nil_append] at h5
      rw [← exponent_value he, List.cons_append, numberTail.eq_def]
      rw [List.cons_append] at h5 ⊢
      simp only [if_true, if_pos hdd, h5]
  · rintro rfl rfl hsmall
    cases h2
    have h5 := scanInt_digits i 0 [] hid (by rintro _ _ ⟨⟩) hsmall
    rw [List.append_nil, h1] at h5
    obtain ⟨rfl, h6⟩ := Prod.mk.inj h5
    obtain ⟨rfl, -⟩ := Prod.mk.inj h6
    refine ⟨?_, rfl, rfl⟩
    rw [htail neg _ hnd]
    rfl

theorem fromParts_text {s : Nat} {k : Int} {v : ℚ} (hs : s < 2 ^ 64) (hv : |(s : ℚ) * 10 ^ k - v| ≤ v * (1 / 2 ^ 60))
    (h1 : 1 / 2 ^ 160 ≤ v) (h2 : v ≤ 2 ^ 130) :
    ∃ f, fromParts s k = some f ∧ f.Fin ∧ f.neg = false ∧ |f.val - v| ≤ v * (1 / 2 ^ 50) := by
  have hv0 : 0 < v := lt_of_lt_of_le (by norm_num) h1
  obtain ⟨v1, v2⟩ := abs_le.mp hv
  have hs0 : 0 < s := by
    rcases Nat.eq_zero_or_pos s with rfl | h
    · rw [Nat.cast_zero, zero_mul] at v1
      linarith
    · exact h
  obtain ⟨f, e1, e2, e3, e4⟩ := fromParts_close (k := k) hs0 hs (by
      have : (1 : ℚ) / 2 ^ 162 ≤ 1 / 2 ^ 160 / 2 := by norm_num
      linarith) (by
      have : (2 : ℚ) ^ 130 * 2 ≤ 2 ^ 132 := by norm_num
      linarith)
  refine ⟨f, e1, e2, e3, ?_⟩
  obtain ⟨f1, f2⟩ := abs_le.mp e4
  rw [abs_le]
  constructor <;> linarith

/-- A number that is not read as an integer is rounded from a double that is near to it. -/
theorem parseNumber_double {i f e : List Char} (hi : IntPart i) (hf : FracPart f) (he : ExpPart e) (neg : Bool)
    (hc : f ≠ [] ∨ e ≠ [] ∨ 2 ^ 64 ≤ Nat.ofDigitChars 10 i 0 ∨ neg = true ∧ 2 ^ 63 < Nat.ofDigitChars 10 i 0)
    (h1 : 1 / 2 ^ 160 ≤ textNumber i f e) (h2 : textNumber i f e ≤ 2 ^ 130) :
    ∃ x : Fl double, x.Fin ∧ x.neg = false ∧ |x.val - textNumber i f e| ≤ textNumber i f e * (1 / 2 ^ 50) ∧
      parseNumber neg (i ++ (f ++ e)) = some (.flt (toBits ((if neg then x.neg' else x).convert single)), []) := by
  obtain ⟨s, k, hs, hv, hp⟩ := parseNumber_parts hi hf he
  obtain ⟨p1, p2⟩ := hp neg
  by_cases hc' : f ≠ [] ∨ e ≠ [] ∨ 2 ^ 64 ≤ Nat.ofDigitChars 10 i 0
  · obtain ⟨x, e1, e2, e3, e4⟩ := fromParts_text hs hv h1 h2
    refine ⟨x, e2, e3, e4, ?_⟩
    rw [p1 hc', floatValue, readFloat, e1]
    rfl
  · simp only [not_or, ne_eq, not_not, not_le] at hc'
    obtain ⟨rfl, rfl, hlt⟩ := hc'
    obtain ⟨q1, q2, rfl⟩ := p2 rfl rfl hlt
    have hneg : neg = true ∧ 2 ^ 63 < Nat.ofDigitChars 10 i 0 := by
      rcases hc with h | h | h | h
      · exact absurd rfl h
      · exact absurd rfl h
      · omega
      · exact h
    obtain ⟨rfl, hbig⟩ := hneg
    have hsq : (s : ℚ) < 2 ^ 64 := by exact_mod_cast hs
    obtain ⟨e1, e2, e3⟩ := ofNat_error (n := s) (by linarith [show (2 : ℚ) ^ 64 ≤ 2 ^ 250 by norm_num])
    refine ⟨Fl.ofNat s, e1, e2, ?_, ?_⟩
    · have ht : textNumber i [] [] = s := by simp [textNumber, fracDigits, exponentNumber, q2]
      rw [ht]
      refine e3.trans (mul_le_mul_of_nonneg_left (by norm_num) (by positivity))
    · rw [q1, intValue, if_pos rfl, if_pos (.inr (by omega)), if_pos rfl]

theorem convert_signed {x : Fl double} (hx : x.Fin) (hn : x.neg = false) (neg : Bool) :
    (if neg then x.neg' else x).convert single = ⟨neg, single.nearest |x.val|⟩ := by
  cases neg
  · rw [if_neg (by decide), Fl.convert_nearest hx, hn]
  · rw [if_pos rfl, Fl.convert_nearest hx.neg', Fl.val_neg', abs_neg]
    congr 1
    show (!x.neg) = true
    rw [hn]
    rfl

theorem zero_parts (k : Int) : fromParts 0 k = some ⟨false, 0⟩ := by
  have h : ∀ n < 309, ((Fl.ofNat 0 : Fl double).mul (pow10 n) = ⟨false, 0⟩ ∧ (Fl.ofNat 0 : Fl double).div (pow10 n) = ⟨false, 0⟩) := by
    decide +kernel
  have h0 : (Fl.ofNat 0 : Fl double) = ⟨false, 0⟩ := by decide +kernel
  cases k with
  | ofNat n =>
    simp only [fromParts]
    split
    · rw [(h n (by omega)).1]; rfl
    · rw [h0]; rfl
  | negSucc n =>
    simp only [fromParts, divPow]
    split
    · rw [(h (n + 1) (by omega)).2]
    · rw [h0]; rfl

end Verif.Json
