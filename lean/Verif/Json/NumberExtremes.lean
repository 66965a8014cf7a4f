import Verif.Json.NumberAccuracy
/-!
# Numbers in the text of JSON that are too small or too large for a float
-/

namespace Verif.Json
open Verif.Ieee

theorem pow10_all {n : Nat} (hn : n ≤ 308) :
    (pow10 n).Fin ∧ (pow10 n).neg = false ∧ |(pow10 n).val - 10 ^ n| ≤ 10 ^ n * (1 / 2 ^ 53) := by
  have habs : |(10 : ℚ) ^ n| = 10 ^ n := abs_of_nonneg (by positivity)
  have hlim : (10 : ℚ) ^ n < double.limit := by
    refine lt_of_le_of_lt ?_ (Fmt.big_lt_limit _ double_eb)
    rw [Fmt.big, le_div_iff₀ (by positivity), double_scale]
    have h0 : 10 ^ 308 * 2 ^ 1074 ≤ double.units (double.inf - 1) := by decide +kernel
    have h2 : 10 ^ n ≤ 10 ^ 308 := Nat.pow_le_pow_right (by decide) hn
    generalize 10 ^ 308 = t at h0 h2
    have h1 : 10 ^ n * 2 ^ 1074 ≤ double.units (double.inf - 1) := Nat.le_trans (Nat.mul_le_mul_right _ h2) h0
    exact_mod_cast h1
  have h := Fl.round_val_one (F := double) (neg := false) (n := 10 ^ n * 2 ^ double.scale) (10 ^ n)
    (by rw [habs]; push_cast; field_simp) (by rw [habs]; exact hlim) double_eb
  rw [habs, double_eps, sg, if_neg (by decide), one_mul] at h
  exact ⟨h.1, rfl, h.2⟩

theorem val_nonneg {F : Fmt} {x : Fl F} (h : x.neg = false) : 0 ≤ x.val := by
  rw [Fl.val, h, show sg false = 1 from rfl, one_mul]
  positivity

/-- A quotient of a number that is not negative. -/
theorem div_bound {x p : Fl double} {t B : ℚ} (hx : x.Fin) (nx : x.neg = false) (hp : p.Fin) (np : p.neg = false) (ht : 1 ≤ t)
    (hpt : t * (1 / 2) ≤ p.val) (hB : x.val / p.val ≤ B) (hB2 : B ≤ 2 ^ 250) :
    (x.div p).Fin ∧ (x.div p).neg = false ∧ (x.div p).val ≤ max (B * (3 / 2)) (B + 1 / 2 ^ 256) := by
  have hp0 : 0 < p.val := by linarith
  have hq : 0 ≤ x.val / p.val := div_nonneg (val_nonneg nx) hp0.le
  obtain ⟨d1, d2⟩ := Fl.div_error hx hp hp0.ne' (by
    rw [abs_of_nonneg hq]
    exact lt_of_le_of_lt (hB.trans hB2) double_limit_large) double_eb
  refine ⟨d1, by rw [div_neg_eq hx hp hp0.ne', nx, np]; rfl, ?_⟩
  rw [abs_of_nonneg hq, double_eps] at d2
  have h3 := (abs_le.mp (d2.trans (max_le_max le_rfl double_tiny_small))).2
  rcases max_cases (x.val / p.val * (1 / 2 ^ 53)) (1 / 2 ^ 256) with ⟨h, -⟩ | ⟨h, -⟩
  · rw [h] at h3
    exact le_trans (by linarith) (le_max_left _ _)
  · rw [h] at h3
    exact le_trans (by linarith) (le_max_right _ _)

theorem pow10_half {n : Nat} (hn : n ≤ 308) : (10 : ℚ) ^ n * (1 / 2) ≤ (pow10 n).val := by
  have h := (abs_le.mp (pow10_all hn).2.2).1
  have : (0 : ℚ) < 10 ^ n := by positivity
  linarith

theorem divPow_small : ∀ (fuel : Nat) (x : Fl double) (n : Nat), n ≤ fuel → x.Fin → x.neg = false → x.val ≤ 1 / 2 ^ 170 →
    (divPow fuel x n).Fin ∧ (divPow fuel x n).neg = false ∧ (divPow fuel x n).val ≤ 1 / 2 ^ 168 := by
  have last : ∀ (x : Fl double) (n : Nat), n ≤ 308 → x.Fin → x.neg = false → x.val ≤ 1 / 2 ^ 170 →
      (x.div (pow10 n)).Fin ∧ (x.div (pow10 n)).neg = false ∧ (x.div (pow10 n)).val ≤ 1 / 2 ^ 168 := by
    intro x n hn hx nx hv
    obtain ⟨p1, p2, -⟩ := pow10_all hn
    have ht : (1 : ℚ) ≤ 10 ^ n := one_le_pow₀ (by norm_num)
    have hp := pow10_half hn
    obtain ⟨d1, d2, d3⟩ := div_bound (B := 1 / 2 ^ 169) hx nx p1 p2 ht hp (by
      rw [div_le_iff₀ (by linarith)]
      linarith) (by norm_num)
    exact ⟨d1, d2, d3.trans (max_le (by norm_num) (by norm_num))⟩
  intro fuel
  induction fuel with
  | zero =>
    intro x n hn hx nx hv
    rw [divPow]
    exact last x n (by omega) hx nx hv
  | succ fuel ih =>
    intro x n hn hx nx hv
    rw [divPow]
    split
    · exact last x n (by omega) hx nx hv
    · split
      · exact ⟨hx, nx, hv.trans (by norm_num)⟩
      · obtain ⟨p1, p2, -⟩ := pow10_all (n := 308) le_rfl
        have ht : (10 : ℚ) ^ 1 ≤ 10 ^ 308 := pow_le_pow_right₀ (by norm_num) (by norm_num)
        have hp := pow10_half (n := 308) le_rfl
        generalize (10 : ℚ) ^ 308 = t at ht hp
        obtain ⟨d1, d2, d3⟩ := div_bound (B := 1 / 2 ^ 172) hx nx p1 p2 (t := t) (by linarith) hp (by
          rw [div_le_iff₀ (by linarith)]
          linarith) (by norm_num)
        exact ih _ _ (by omega) d1 d2 (d3.trans (max_le (by norm_num) (by norm_num)))

/-- Numbers that are too small. -/
theorem fromParts_small {s : Nat} {k : Int} (hs : s < 2 ^ 64) (h : (s : ℚ) * 10 ^ k ≤ 1 / 2 ^ 158) :
    ∃ f, fromParts s k = some f ∧ f.Fin ∧ f.neg = false ∧ f.val ≤ 1 / 2 ^ 155 := by
  have hsq : (s : ℚ) < 2 ^ 64 := by exact_mod_cast hs
  obtain ⟨fm, nm, em⟩ := ofNat_error (n := s) (by linarith [show (2 : ℚ) ^ 64 ≤ 2 ^ 250 by norm_num])
  have m2 := (abs_le.mp em).2
  rcases Nat.eq_zero_or_pos s with rfl | hs0
  · refine ⟨_, zero_parts k, by decide, rfl, ?_⟩
    simp [Fl.val, Fmt.units_zero]
  have hs1 := natCast_pos hs0
  cases k with
  | ofNat n =>
    have ht : (1 : ℚ) ≤ 10 ^ n := one_le_pow₀ (by norm_num)
    rw [Int.ofNat_eq_natCast, zpow_natCast] at h
    have : (1 : ℚ) / 2 ^ 158 < 1 := by norm_num
    nlinarith
  | negSucc n =>
    have ez : (s : ℚ) * 10 ^ (Int.negSucc n) = s / 10 ^ (n + 1) := by rw [zpow_negSucc, div_eq_mul_inv]
    rw [ez] at h
    refine ⟨_, rfl, ?_⟩
    rw [divPow]
    split
    · rename_i hn
      obtain ⟨p1, p2, -⟩ := pow10_all hn
      have ht : (1 : ℚ) ≤ 10 ^ (n + 1) := one_le_pow₀ (by norm_num)
      have hp := pow10_half hn
      generalize (10 : ℚ) ^ (n + 1) = t at h ht hp
      rw [div_le_iff₀ (by linarith)] at h
      obtain ⟨d1, d2, d3⟩ := div_bound (B := 1 / 2 ^ 156) fm nm p1 p2 ht hp (by
        rw [div_le_iff₀ (by linarith)]
        linarith) (by norm_num)
      exact ⟨d1, d2, d3.trans (max_le (by norm_num) (by norm_num))⟩
    · split
      · rename_i h0
        refine ⟨fm, nm, ?_⟩
        rw [Fl.val, h0, Fmt.units_zero]
        simp
      · rename_i hn _
        obtain ⟨p1, p2, -⟩ := pow10_all (n := 308) le_rfl
        have ht : (10 : ℚ) ^ 100 ≤ 10 ^ 308 := pow_le_pow_right₀ (by norm_num) (by norm_num)
        have hp := pow10_half (n := 308) le_rfl
        generalize (10 : ℚ) ^ 308 = t at ht hp
        have hbig : (2 : ℚ) ^ 300 ≤ 10 ^ 100 := by
          have h1 : 2 ^ 300 ≤ 10 ^ 100 := by decide +kernel
          exact_mod_cast h1
        have hsplit : (2 : ℚ) ^ 300 = 2 ^ 240 * 2 ^ 60 := by rw [← pow_add]
        rw [hsplit] at hbig
        have ht2 : (2 : ℚ) ^ 240 * 2 ^ 60 ≤ t := hbig.trans ht
        have ht1 : (1 : ℚ) ≤ t := le_trans (by norm_num) ht2
        obtain ⟨d1, d2, d3⟩ := div_bound (B := 1 / 2 ^ 172) fm nm p1 p2 (t := t) ht1 hp (by
          rw [div_le_iff₀ (by linarith)]
          linarith) (by norm_num)
        obtain ⟨e1, e2, e3⟩ := divPow_small n _ (n + 1 - 308) (by omega) d1 d2 (d3.trans (max_le (by norm_num) (by norm_num)))
        exact ⟨e1, e2, e3.trans (by norm_num)⟩

/-- The error of a product that is finite. -/
theorem mul_error_fin {F : Fmt} {x y : Fl F} (hx : x.Fin) (hy : y.Fin) (h : (x.mul y).Fin) :
    |(x.mul y).val - x.val * y.val| ≤ max (|x.val * y.val| * F.eps) F.tiny := by
  have hs : (0 : ℚ) < 2 ^ F.scale := by positivity
  unfold Fl.mul at h ⊢
  simp only [hx.not_nan, hy.not_nan, hx.not_inf, hy.not_inf, Bool.or_self, Bool.false_eq_true, if_false] at h ⊢
  have h1 := F.round_error (n := F.units x.mag * F.units y.mag) (Nat.two_pow_pos F.scale) h
  have e1 : |x.val * y.val| = ((F.units x.mag * F.units y.mag : Nat) : ℚ) / ((2 ^ F.scale : Nat) : ℚ) / 2 ^ F.scale := by
    rw [abs_mul, Fl.abs_val, Fl.abs_val]; push_cast; field_simp
  have e2 : x.val * y.val = sg (x.neg != y.neg) * |x.val * y.val| := by
    rw [abs_mul, Fl.abs_val, Fl.abs_val, Fl.val, Fl.val]
    cases x.neg <;> cases y.neg <;> simp [sg]
  rw [Fl.val, e2, ← mul_sub, abs_sg_mul, abs_sg_mul, abs_abs, e1, ← sub_div, abs_div, abs_of_pos hs, div_le_iff₀ hs]
  refine h1.trans_eq ?_
  rw [max_mul_of_nonneg _ _ hs.le]
  congr 1
  · unfold Fmt.eps; field_simp
  · unfold Fmt.tiny; rw [pow_succ]; field_simp

/-- Numbers that are too large. -/
theorem fromParts_large {s : Nat} {k : Int} (hs : s < 2 ^ 64) (h : (2 : ℚ) ^ 128 * (3 / 2) ≤ s * 10 ^ k) :
    fromParts s k = none ∨ ∃ f, fromParts s k = some f ∧ f.Fin ∧ f.neg = false ∧ 2 ^ 128 ≤ f.val := by
  have hsq : (s : ℚ) < 2 ^ 64 := by exact_mod_cast hs
  obtain ⟨fm, nm, em⟩ := ofNat_error (n := s) (by linarith [show (2 : ℚ) ^ 64 ≤ 2 ^ 250 by norm_num])
  have hs0 : 0 < s := by
    rcases Nat.eq_zero_or_pos s with rfl | h0
    · rw [Nat.cast_zero, zero_mul] at h
      norm_num at h
    · exact h0
  have hs1 := natCast_pos hs0
  have hsp : (0 : ℚ) < s := by linarith
  cases k with
  | ofNat n =>
    rw [Int.ofNat_eq_natCast, zpow_natCast] at h
    simp only [fromParts]
    split
    · rename_i hn
      obtain ⟨p1, p2, p3⟩ := pow10_all hn
      split
      · exact .inl rfl
      · rename_i hi
        have hfin : ((Fl.ofNat s : Fl double).mul (pow10 n)).Fin := by
          have e : (Fl.ofNat s : Fl double).mul (pow10 n) = ⟨(Fl.ofNat s : Fl double).neg != (pow10 n).neg,
              double.round (double.units (Fl.ofNat s : Fl double).mag * double.units (pow10 n).mag) (2 ^ double.scale)⟩ := by
            unfold Fl.mul
            simp only [fm.not_nan, p1.not_nan, fm.not_inf, p1.not_inf, Bool.or_self, Bool.false_eq_true, if_false]
          rw [e] at hi ⊢
          refine lt_of_le_of_ne (double.round_le_inf _ _) fun hc => hi ?_
          simpa [Fl.isInf] using hc
        refine .inr ⟨_, rfl, hfin, by rw [mul_neg_eq fm p1, p2]; rfl, ?_⟩
        have herr := mul_error_fin fm p1 hfin
        have hnear := mul_near hsp (show (0 : ℚ) < 10 ^ n by positivity) em p3
        rw [double_eps] at herr
        have hfin := rounded_error (le_trans (by norm_num) h) hnear (herr.trans (max_le_max le_rfl double_tiny_small))
        have := (abs_le.mp hfin).1
        linarith
    · split
      · rename_i h0
        have h1 := (abs_le.mp em).1
        rw [Fl.val, h0, Fmt.units_zero] at h1
        simp only [Nat.cast_zero, zero_div, mul_zero] at h1
        linarith
      · exact .inl rfl
  | negSucc n =>
    have ez : (s : ℚ) * 10 ^ (Int.negSucc n) = s / 10 ^ (n + 1) := by rw [zpow_negSucc, div_eq_mul_inv]
    rw [ez] at h
    have ht : (1 : ℚ) ≤ 10 ^ (n + 1) := one_le_pow₀ (by norm_num)
    have : (s : ℚ) / 10 ^ (n + 1) ≤ s := div_le_self hsp.le ht
    linarith

theorem nearest_tiny {q : ℚ} (h0 : 0 ≤ q) (h : q ≤ 1 / 2 ^ 155) : single.nearest q = 0 := by
  have := single.nearest_le h0 (b := 0) (g := 0) (N := 0) (by simp) (.inl rfl) (by decide) (by
    rw [single_scale]
    have : q * 2 ^ 149 ≤ 1 / 2 ^ 155 * 2 ^ 149 := mul_le_mul_of_nonneg_right h (by positivity)
    refine lt_of_le_of_lt this ?_
    norm_num)
  omega

theorem nearest_huge {q : ℚ} (h : 2 ^ 128 ≤ q) : single.nearest q = single.inf := by
  have h0 : (0 : ℚ) ≤ q := le_trans (by norm_num) h
  have h1 := single.lt_nearest h0 (b := single.inf - 1) (g := 253) (N := 2 ^ 24 - 1) (by decide) (by decide) (by decide) (by decide) (by
    rw [single_scale]
    calc (((2 ^ 24 - 1 : Nat) : ℚ) + 1 / 2) * 2 ^ 253 < 2 ^ 128 * 2 ^ 149 := by norm_num
      _ ≤ q * 2 ^ 149 := mul_le_mul_of_nonneg_right h (by positivity))
  have h2 : single.nearest q ≤ single.inf := single.round_le_inf _ _
  omega

theorem readFloat_signed {s : Nat} {k : Int} {x : Fl double} (h : fromParts s k = some x) (hx : x.Fin) (hn : x.neg = false) (neg : Bool)
    (r : List Char) : floatValue neg s k r = some (.flt (toBits ⟨neg, single.nearest x.val⟩), r) := by
  have := convert_signed hx hn neg
  rw [abs_of_nonneg (val_nonneg hn)] at this
  rw [floatValue, readFloat, h, Option.map_some, Option.map_some, this]

end Verif.Json
