import Verif.Json.NumberMiddle
/-!
# The float read for the shortest decimal of a float, the end
-/

namespace Verif.Json
open Verif.Ieee Verif.Lattice

/-- The bounds for the error and the distance to the middle. `u` is the distance of the two floats. -/
theorem middle_bounds {D f μ x u t : ℚ} (hu : 0 < u) (hD : 0 < D) (hμ : μ ≤ 2 ^ 24 * u) (hf : |f - D| ≤ D * (201 / 100 / 2 ^ 53))
    (hx : |x - μ| = u / 2) (hb : D ≤ μ ∧ μ ≤ f ∨ μ ≤ D ∧ f ≤ μ) (hc : |D - x| < t) :
    |D - μ| ≤ u / 2 ^ 27 ∧ D ≤ (2 ^ 24 + 1) * u ∧ 499 * u < 1000 * t := by
  obtain ⟨f1, f2⟩ := abs_le.mp hf
  have h1 : |D - μ| ≤ D * (201 / 100 / 2 ^ 53) := by
    rw [abs_le]
    rcases hb with ⟨h1, h2⟩ | ⟨h1, h2⟩ <;> constructor <;> linarith
  have hD1 : D ≤ μ * (1001 / 1000) := by
    obtain ⟨g1, g2⟩ := abs_le.mp h1
    linarith
  have hμ0 : 0 < μ := by linarith
  have h2 : |D - μ| ≤ u / 2 ^ 27 := by
    refine h1.trans ?_
    calc D * (201 / 100 / 2 ^ 53) ≤ 2 ^ 24 * u * (1001 / 1000) * (201 / 100 / 2 ^ 53) := by
          apply mul_le_mul_of_nonneg_right _ (by norm_num)
          linarith
      _ ≤ u / 2 ^ 27 := by linarith
  refine ⟨h2, ?_, ?_⟩
  · obtain ⟨g1, g2⟩ := abs_le.mp h2
    linarith
  · have h3 : u / 2 ≤ |D - x| + |D - μ| := by
      rw [← hx]
      calc |x - μ| = |(x - D) + (D - μ)| := by ring_nf
        _ ≤ |x - D| + |D - μ| := abs_add_le _ _
        _ = _ := by rw [abs_sub_comm x D]
    linarith

theorem zpow_ten_pos (k : Int) : (0 : ℚ) < 10 ^ k := zpow_pos (by norm_num) k

/-- The exponent of the decimal of a finite float. -/
theorem exponent_range {m a : Nat} {k : Int} (hm0 : 0 < m) (hm : m < 10 ^ 9) (ha : a < single.inf)
    (hr : single.nearest (m * 10 ^ k) = a) (ha0 : 0 < a) : -60 ≤ k ∧ k ≤ 38 := by
  have hm1 := natCast_pos hm0
  have hmq : (m : ℚ) < 10 ^ 9 := by exact_mod_cast hm
  have ht := zpow_ten_pos k
  have hD : (0 : ℚ) < m * 10 ^ k := by positivity
  constructor
  · by_contra hk
    have h1 : (10 : ℚ) ^ k ≤ 10 ^ (-60 : Int) := zpow_le_zpow_right₀ (by norm_num) (by omega)
    have h2 : (10 : ℚ) ^ (-60 : Int) = 1 / 10 ^ 60 := by rw [zpow_neg, one_div]; norm_cast
    have h3 := single.nearest_le hD.le (b := 0) (g := 0) (N := 0) (by simp) (.inl rfl) (by decide) (by
      rw [single_scale]
      calc (m : ℚ) * 10 ^ k * 2 ^ 149 ≤ 10 ^ 9 * (1 / 10 ^ 60) * 2 ^ 149 := by
            rw [h2] at h1
            apply mul_le_mul_of_nonneg_right _ (by positivity)
            exact mul_le_mul hmq.le h1 ht.le (by norm_num)
        _ < _ := by norm_num)
    omega
  · by_contra hk
    have h1 : (10 : ℚ) ^ (39 : Int) ≤ 10 ^ k := zpow_le_zpow_right₀ (by norm_num) (by omega)
    have h2 : (10 : ℚ) ^ (39 : Int) = 10 ^ 39 := by norm_cast
    rw [h2] at h1
    have h3 := single.lt_nearest hD.le (b := single.inf - 1) (g := 253) (N := 2 ^ 24 - 1) (by decide) (by decide) (by decide)
      (by decide) (by
        rw [single_scale]
        calc (((2 ^ 24 - 1 : Nat) : ℚ) + 1 / 2) * 2 ^ 253 < 1 * 10 ^ 39 * 2 ^ 149 := by norm_num
          _ ≤ _ := by
            apply mul_le_mul_of_nonneg_right _ (by positivity)
            exact mul_le_mul hm1 h1 (by norm_num) (by positivity))
    omega

/-- A decimal with few digits that is nearest to a float, and closer to it than one unit of its last digit, is read as that float. -/
theorem fromParts_nearest {m a : Nat} {k : Int} (hm0 : 0 < m) (hm : m < 10 ^ 9) (ha : a < single.inf)
    (hr : single.nearest (m * 10 ^ k) = a) (hc : |(m * 10 ^ k : ℚ) - single.units a / 2 ^ 149| < 10 ^ k) :
    ∃ f, fromParts m k = some f ∧ f.convert single = ⟨false, a⟩ := by
  have hm1 := natCast_pos hm0
  have ht := zpow_ten_pos k
  have hD : (0 : ℚ) < m * 10 ^ k := by positivity
  have ha0 : 0 < a := by
    rcases Nat.eq_zero_or_pos a with h | h
    · rw [h, Fmt.units_zero, abs_of_pos (by simpa using hD)] at hc
      simp only [Nat.cast_zero, zero_div, sub_zero] at hc
      nlinarith
    · exact h
  obtain ⟨hk1, hk2⟩ := exponent_range hm0 hm ha hr ha0
  have hm' : m ≤ 2 ^ 30 := by omega
  obtain ⟨f, hf, ff, nf, ef⟩ := fromParts_error hm0 hm' hk1 hk2
  refine ⟨f, hf, ?_⟩
  have hfv : 0 < f.val := by
    have := (abs_le.mp ef).1
    nlinarith
  suffices hsuff : single.nearest f.val = a by rw [Fl.convert_nearest ff, nf, abs_of_pos hfv, hsuff]
  by_contra hne
  obtain ⟨b, g, N, hb, hbi, hs, hN, hcase⟩ := single.middle_between hD.le hfv.le (by omega) (by rw [hr]; exact hne)
  rw [show single.mb = 23 from rfl] at hb hs hN
  rw [single_scale] at hcase
  have hinf : single.inf = 255 * 2 ^ 23 := by decide
  have hg : g < 254 := by omega
  have hu1 : single.units b = N * 2 ^ g := by
    rw [hb]; exact single.units_split g N hs (Nat.le_of_lt hN)
  have hu2 : single.units (b + 1) = (N + 1) * 2 ^ g := by
    rw [hb, Nat.add_assoc]; exact single.units_split g (N + 1) (hs.imp id fun h => Nat.le_succ_of_le h) hN
  have hgq : (0 : ℚ) < 2 ^ g := by positivity
  have hNq : (N : ℚ) + 1 ≤ 2 ^ 24 := by exact_mod_cast hN
  -- in units
  obtain ⟨n1, n2, n3⟩ := middle_bounds (D := m * 10 ^ k * 2 ^ 149) (f := f.val * 2 ^ 149) (μ := (N + 1 / 2) * 2 ^ g)
    (x := single.units a) (u := 2 ^ g) (t := 10 ^ k * 2 ^ 149) hgq (by positivity)
    (by apply mul_le_mul_of_nonneg_right _ hgq.le; linarith)
    (by
      rw [← sub_mul, abs_mul, abs_of_pos (by positivity : (0 : ℚ) < 2 ^ 149)]
      have := mul_le_mul_of_nonneg_right ef (by positivity : (0 : ℚ) ≤ 2 ^ 149)
      linarith)
    (by
      rcases hcase with ⟨h1, -, -⟩ | ⟨h1, -, -⟩
      · rw [← hr, h1, hu1]
        push_cast
        rw [show (N : ℚ) * 2 ^ g - (N + 1 / 2) * 2 ^ g = -(2 ^ g / 2) by ring, abs_neg, abs_of_pos (by positivity)]
      · rw [← hr, h1, hu2]
        push_cast
        rw [show ((N : ℚ) + 1) * 2 ^ g - (N + 1 / 2) * 2 ^ g = 2 ^ g / 2 by ring, abs_of_pos (by positivity)])
    (by
      rcases hcase with ⟨-, h1, h2⟩ | ⟨-, h1, h2⟩
      · exact .inl ⟨h1, h2⟩
      · exact .inr ⟨h1, h2⟩)
    (by
      have e : (m * 10 ^ k * 2 ^ 149 - single.units a : ℚ) = (m * 10 ^ k - single.units a / 2 ^ 149) * 2 ^ 149 := by ring
      rw [e, abs_mul, abs_of_pos (by positivity : (0 : ℚ) < 2 ^ 149)]
      exact mul_lt_mul_of_pos_right hc (by positivity))
  -- the number of steps
  obtain ⟨K, hK⟩ : ∃ K : Nat, k = (K : Int) - 60 := ⟨(k + 60).toNat, by omega⟩
  have hKq : (10 : ℚ) ^ k * 10 ^ 60 = 10 ^ K := by
    rw [hK, zpow_sub₀ (by norm_num), zpow_natCast, zpow_ofNat]
    exact div_mul_cancel₀ _ (by positivity)
  have hck := List.all_eq_true.mp all_checked g (List.mem_range.mpr hg)
  simp only [checked, Bool.and_eq_true, decide_eq_true_eq] at hck
  obtain ⟨⟨hck1, hck2⟩, -⟩ := hck
  have hpow : power g ≤ K := by
    by_contra hlt
    have h1 : 10 ^ K ≤ 10 ^ (power g - 1) := Nat.pow_le_pow_right (by decide) (by omega)
    have h2 : 1000 * (10 ^ K * 2 ^ 149) ≤ 499 * stepDen g :=
      Nat.le_trans (Nat.mul_le_mul_left _ (Nat.mul_le_mul_right _ h1)) hck1
    have h3 : (1000 * (10 ^ K * 2 ^ 149) : ℚ) ≤ 499 * (10 ^ 60 * 2 ^ g) := by
      unfold stepDen at h2
      exact_mod_cast h2
    rw [← hKq] at h3
    have h4 : (0 : ℚ) < 10 ^ 60 := by positivity
    nlinarith
  obtain ⟨j, rfl⟩ := Nat.exists_eq_add_of_le hpow
  have hD' : (m * 10 ^ k * 2 ^ 149 * 10 ^ 60 : ℚ) = ((m * 10 ^ j * stepNum g : Nat) : ℚ) := by
    unfold stepNum
    push_cast
    calc (m * 10 ^ k * 2 ^ 149 * 10 ^ 60 : ℚ) = m * (10 ^ k * 10 ^ 60) * 2 ^ 149 := by ring
      _ = _ := by rw [hKq, pow_add]; ring
  have hQ' : ((N + 1 / 2) * 2 ^ g * (2 * 10 ^ 60) : ℚ) = (((2 * N + 1) * stepDen g : Nat) : ℚ) := by
    unfold stepDen
    push_cast
    ring
  have hPpos : 0 < stepNum g := Nat.mul_pos (Nat.pow_pos (by decide)) (Nat.pow_pos (by decide))
  have hmost : m * 10 ^ j ≤ most g := by
    have h1 : m * 10 ^ j * stepNum g ≤ (2 ^ 24 + 1) * stepDen g := by
      have : ((m * 10 ^ j * stepNum g : Nat) : ℚ) ≤ (((2 ^ 24 + 1) * stepDen g : Nat) : ℚ) := by
        rw [← hD']
        unfold stepDen
        push_cast
        have := mul_le_mul_of_nonneg_right n2 (by positivity : (0 : ℚ) ≤ 10 ^ 60)
        linarith
      exact_mod_cast this
    have := (Nat.le_div_iff_mul_le hPpos).mpr h1
    unfold most
    omega
  obtain ⟨w1, w2⟩ := abs_le.mp n1
  have hden : ((stepDen g : Nat) : ℚ) = 10 ^ 60 * 2 ^ g := by unfold stepDen; push_cast; rfl
  have hnear := near_middle hg hmost N
    (by
      have : ((2 ^ 26 * (2 * (m * 10 ^ j) * stepNum g) : Nat) : ℚ)
          ≤ ((2 ^ 26 * ((2 * N + 1) * stepDen g) + stepDen g : Nat) : ℚ) := by
        rw [Nat.cast_add, Nat.cast_mul, Nat.cast_mul (2 ^ 26), ← hQ', hden, Nat.mul_assoc 2, Nat.cast_mul 2, ← hD']
        push_cast
        have := mul_le_mul_of_nonneg_right w2 (by positivity : (0 : ℚ) ≤ 2 ^ 27 * 10 ^ 60)
        linarith
      exact_mod_cast this)
    (by
      have : ((2 ^ 26 * ((2 * N + 1) * stepDen g) : Nat) : ℚ)
          ≤ ((2 ^ 26 * (2 * (m * 10 ^ j) * stepNum g) + stepDen g : Nat) : ℚ) := by
        rw [Nat.cast_add, Nat.cast_mul, Nat.cast_mul (2 ^ 26), ← hQ', hden, Nat.mul_assoc 2, Nat.cast_mul 2, ← hD']
        push_cast
        have := mul_le_mul_of_nonneg_right w1 (by positivity : (0 : ℚ) ≤ 2 ^ 27 * 10 ^ 60)
        linarith
      exact_mod_cast this)
  rcases hnear with hhit | htie
  · obtain ⟨h10, f2, hf2, hr2⟩ := hit_read hg hhit
    have hj : j = 0 := by
      rcases Nat.eq_zero_or_pos j with h | h
      · exact h
      · exfalso
        apply h10
        obtain ⟨i, rfl⟩ := Nat.exists_eq_add_of_le h
        rw [Nat.add_comm, Nat.pow_succ, ← Nat.mul_assoc]
        exact Nat.mul_mod_left _ _
    subst hj
    rw [Nat.pow_zero, Nat.mul_one] at hf2 hr2
    rw [Nat.add_zero] at hK
    rw [← hK, hf] at hf2
    obtain rfl := Option.some.inj hf2
    rw [← hK, hr, Fl.convert_nearest ff, abs_of_pos hfv] at hr2
    exact hne hr2
  · have htq : (m : ℚ) * 10 ^ k * 2 ^ 149 = (N + 1 / 2) * 2 ^ g := by
      have h1 : ((2 * (m * 10 ^ j) * stepNum g : Nat) : ℚ) = (((2 * N + 1) * stepDen g : Nat) : ℚ) := by rw [htie]
      rw [← hQ', Nat.mul_assoc 2, Nat.cast_mul 2, ← hD'] at h1
      have h2 : (0 : ℚ) < 10 ^ 60 := by positivity
      push_cast at h1
      nlinarith
    obtain ⟨f2, hf2, -, -, vf2⟩ := fromParts_middle hm0 hm' hg hN htq
    rw [hf] at hf2
    obtain rfl := Option.some.inj hf2
    rw [vf2, hr] at hne
    exact hne rfl

end Verif.Json
