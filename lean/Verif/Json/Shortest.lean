import Verif.Json.TextLaws
/-!
# Shortest decimals
-/

namespace Verif.Json
open Verif.Ieee

/-- The float with the magnitude bits `a`, in units of `10 ^ k`: a fraction. -/
def scaledNum (a : Nat) (k : Int) : Nat := single.units a * 10 ^ (-k).toNat
def scaledDen (k : Int) : Nat := 2 ^ 149 * 10 ^ k.toNat

/-- The float with the magnitude bits `a` is the one nearest to `c * 10 ^ k`. -/
def standsFor (a c : Nat) (k : Int) : Bool :=
  decide (0 < c) && single.round (c * 2 ^ 149 * 10 ^ k.toNat) (10 ^ (-k).toNat) == a

/-- The decimal with the largest exponent, not larger than `k`, for which the float is the nearest one: the next smaller or the next
larger multiple of the power of ten, whichever is closer. -/
def shortestFrom (a : Nat) : Nat → Int → Nat × Int
  | 0, k => (scaledNum a k / scaledDen k, k)
  | fuel + 1, k =>
    let lo := scaledNum a k / scaledDen k
    if standsFor a lo k && (!standsFor a (lo + 1) k || decide (2 * scaledNum a k ≤ (2 * lo + 1) * scaledDen k)) then (lo, k)
    else if standsFor a (lo + 1) k then (lo + 1, k)
    else shortestFrom a fuel (k - 1)

/-- The shortest decimal of a float. -/
def shortest (a : Nat) : Nat × Int := shortestFrom a 85 38

theorem ten_zpow (k : Int) : (10 : ℚ) ^ k = 10 ^ k.toNat / 10 ^ (-k).toNat := by
  rcases Int.le_total 0 k with h | h
  · obtain ⟨n, rfl⟩ := Int.eq_ofNat_of_zero_le h
    simp
  · obtain ⟨n, hn⟩ := Int.eq_ofNat_of_zero_le (a := -k) (by omega)
    have : k = -(n : Int) := by omega
    subst this
    simp

theorem scaledDen_pos (k : Int) : 0 < scaledDen k := Nat.mul_pos (by decide) (Nat.pow_pos (by decide))

theorem scaled_value (a : Nat) (k : Int) : (scaledNum a k : ℚ) / scaledDen k * 10 ^ k = single.units a / 2 ^ 149 := by
  have e1 : (scaledNum a k : ℚ) = single.units a * 10 ^ (-k).toNat := by unfold scaledNum; push_cast; rfl
  have e2 : (scaledDen k : ℚ) = 2 ^ 149 * 10 ^ k.toNat := by unfold scaledDen; rw [Nat.cast_mul, Nat.cast_pow, Nat.cast_pow]; rfl
  have h1 : (10 : ℚ) ^ k.toNat ≠ 0 := by positivity
  have h2 : (10 : ℚ) ^ (-k).toNat ≠ 0 := by positivity
  have h3 : (2 : ℚ) ^ 149 ≠ 0 := by positivity
  rw [ten_zpow, e1, e2]
  generalize (10 : ℚ) ^ k.toNat = x at *
  generalize (10 : ℚ) ^ (-k).toNat = y at *
  generalize (2 : ℚ) ^ 149 = z at *
  field_simp

theorem standsFor_iff {a c : Nat} {k : Int} : standsFor a c k = true ↔ 0 < c ∧ single.nearest (c * 10 ^ k) = a := by
  unfold standsFor
  rw [Bool.and_eq_true, decide_eq_true_eq, beq_iff_eq, single.round_nearest (q := c * 10 ^ k) (Nat.pow_pos (by decide))]
  rw [single_scale, ten_zpow]
  push_cast
  ring

/-- The two multiples of the power of ten next to the float. -/
theorem scaled_bounds (a : Nat) (k : Int) :
    ((scaledNum a k / scaledDen k : Nat) : ℚ) * 10 ^ k ≤ single.units a / 2 ^ 149 ∧
      (single.units a / 2 ^ 149 : ℚ) < ((scaledNum a k / scaledDen k : Nat) + 1) * 10 ^ k := by
  have ht := zpow_ten_pos k
  have hd : (0 : ℚ) < scaledDen k := by exact_mod_cast scaledDen_pos k
  rw [← scaled_value a k]
  have h1 : scaledNum a k / scaledDen k * scaledDen k ≤ scaledNum a k := Nat.div_mul_le_self _ _
  have h2 : scaledNum a k < (scaledNum a k / scaledDen k + 1) * scaledDen k := by
    have h3 := Nat.div_add_mod (scaledNum a k) (scaledDen k)
    have h4 := Nat.mod_lt (scaledNum a k) (scaledDen_pos k)
    rw [Nat.add_mul, Nat.mul_comm (_ / _)]
    omega
  constructor
  · apply mul_le_mul_of_nonneg_right _ ht.le
    rw [le_div_iff₀ hd]
    exact_mod_cast h1
  · apply mul_lt_mul_of_pos_right _ ht
    rw [div_lt_iff₀ hd]
    exact_mod_cast h2

/-- A decimal that is close to the float is one of the two. -/
theorem close_cases {a m : Nat} {k : Int} (h : |(m * 10 ^ k : ℚ) - single.units a / 2 ^ 149| < 10 ^ k) :
    m = scaledNum a k / scaledDen k ∨ m = scaledNum a k / scaledDen k + 1 := by
  obtain ⟨h1, h2⟩ := scaled_bounds a k
  obtain ⟨h3, h4⟩ := abs_lt.mp h
  have ht := zpow_ten_pos k
  generalize scaledNum a k / scaledDen k = lo at *
  have l1 : (m : ℚ) < lo + 2 := by
    by_contra hc
    have := mul_le_mul_of_nonneg_right (not_lt.mp hc) ht.le
    linarith
  have l2 : (lo : ℚ) < m + 1 := by
    by_contra hc
    have := mul_le_mul_of_nonneg_right (not_lt.mp hc) ht.le
    linarith
  have n1 : m < lo + 2 := by exact_mod_cast l1
  have n2 : lo < m + 1 := by exact_mod_cast l2
  omega

/-- If the smaller multiple is the float, it stands for it. -/
theorem exact_standsFor {a : Nat} {k : Int} (ha : 0 < a) (ha2 : a < single.inf)
    (h : ((scaledNum a k / scaledDen k : Nat) : ℚ) * 10 ^ k = single.units a / 2 ^ 149) :
    standsFor a (scaledNum a k / scaledDen k) k = true := by
  have hu : 0 < single.units a := single.units_pos ha
  have ht := zpow_ten_pos k
  rw [standsFor_iff]
  constructor
  · rcases Nat.eq_zero_or_pos (scaledNum a k / scaledDen k) with h0 | h0
    · rw [h0] at h
      have : (0 : ℚ) < single.units a / 2 ^ 149 := by
        have : (0 : ℚ) < single.units a := by exact_mod_cast hu
        positivity
      simp only [Nat.cast_zero, zero_mul] at h
      linarith
    · exact h0
  · rw [h, ← single.round_nearest (n := single.units a) (d := 1) (by decide)
      (by rw [single_scale]; push_cast; rw [div_mul_cancel₀ _ (by positivity)]; simp)]
    exact single.round_units_one ha2.le

/-- What is found for an exponent. -/
theorem found_decimal {a : Nat} {k : Int} (ha : 0 < a) (ha2 : a < single.inf) (hbig : scaledNum a k / scaledDen k + 1 < 10 ^ 9) :
    (standsFor a (scaledNum a k / scaledDen k) k = true → Decimal a (scaledNum a k / scaledDen k) k) ∧
      (standsFor a (scaledNum a k / scaledDen k + 1) k = true →
        (standsFor a (scaledNum a k / scaledDen k) k = false ∨
          (2 * (scaledNum a k / scaledDen k) + 1) * scaledDen k < 2 * scaledNum a k) → Decimal a (scaledNum a k / scaledDen k + 1) k) := by
  obtain ⟨h1, h2⟩ := scaled_bounds a k
  have ht := zpow_ten_pos k
  constructor
  · intro h
    obtain ⟨h3, h4⟩ := standsFor_iff.mp h
    refine ⟨h3, by omega, h4, ?_⟩
    rw [abs_lt]
    constructor <;> linarith
  · intro h hne
    obtain ⟨h3, h4⟩ := standsFor_iff.mp h
    refine ⟨h3, hbig, h4, ?_⟩
    have hlt : ((scaledNum a k / scaledDen k : Nat) : ℚ) * 10 ^ k < single.units a / 2 ^ 149 := by
      refine lt_of_le_of_ne h1 fun he => ?_
      rcases hne with hne | hne
      · rw [exact_standsFor ha ha2 he] at hne
        cases hne
      · have hd : (0 : ℚ) < scaledDen k := by exact_mod_cast scaledDen_pos k
        rw [← scaled_value a k] at he
        have he2 := mul_right_cancel₀ ht.ne' he
        rw [eq_div_iff hd.ne'] at he2
        have he3 : scaledNum a k / scaledDen k * scaledDen k = scaledNum a k := by exact_mod_cast he2
        have e : (2 * (scaledNum a k / scaledDen k) + 1) * scaledDen k =
            2 * (scaledNum a k / scaledDen k * scaledDen k) + scaledDen k := by ring
        omega
    push_cast
    rw [abs_lt]
    constructor <;> linarith

theorem shortestFrom_decimal {a : Nat} (ha : 0 < a) (ha2 : a < single.inf) {k0 : Int}
    (h0 : standsFor a (scaledNum a k0 / scaledDen k0) k0 = true)
    (hbig : (single.units a / 2 ^ 149 : ℚ) < (10 ^ 9 - 1) * 10 ^ k0) : ∀ (fuel : Nat) (k : Int), k0 ≤ k → k - fuel < k0 →
    Decimal a (shortestFrom a fuel k).1 (shortestFrom a fuel k).2 ∧
      ∀ m' k', k' ≤ k → Decimal a m' k' → k' ≤ (shortestFrom a fuel k).2
  | 0, k, h1, h2 => absurd h1 (by simp at h2; omega)
  | fuel + 1, k, h1, h2 => by
    obtain ⟨b1, b2⟩ := scaled_bounds a k
    have ht := zpow_ten_pos k
    have hsmall : scaledNum a k / scaledDen k + 1 < 10 ^ 9 := by
      have hk : (10 : ℚ) ^ k0 ≤ 10 ^ k := zpow_le_zpow_right₀ (by norm_num) h1
      have h3 : ((scaledNum a k / scaledDen k : Nat) : ℚ) * 10 ^ k < (10 ^ 9 - 1) * 10 ^ k := by
        refine lt_of_le_of_lt b1 (lt_of_lt_of_le hbig ?_)
        apply mul_le_mul_of_nonneg_left hk (by norm_num)
      have h4 := lt_of_mul_lt_mul_right h3 ht.le
      have h5 : ((scaledNum a k / scaledDen k : Nat) : ℚ) + 1 < 10 ^ 9 := by linarith
      exact_mod_cast h5
    obtain ⟨f1, f2⟩ := found_decimal ha ha2 hsmall
    rw [shortestFrom]
    split
    · rename_i hc
      rw [Bool.and_eq_true] at hc
      exact ⟨f1 hc.1, fun _ _ h _ => h⟩
    · rename_i hc
      split
      · rename_i hc2
        refine ⟨f2 hc2 ?_, fun _ _ h _ => h⟩
        rw [Bool.and_eq_true, Bool.or_eq_true, not_and_or, not_or] at hc
        rcases hc with hc | ⟨-, hc⟩
        · exact .inl (by simpa using hc)
        · exact .inr (by simpa using hc)
      · rename_i hc2
        have hlo : standsFor a (scaledNum a k / scaledDen k) k = false := by
          by_contra hcon
          apply hc
          rw [Bool.and_eq_true, Bool.or_eq_true]
          exact ⟨by simpa using hcon, .inl (by simpa using hc2)⟩
        have hne : k0 ≠ k := by
          rintro rfl
          rw [hlo] at h0
          cases h0
        obtain ⟨r1, r2⟩ := shortestFrom_decimal ha ha2 h0 hbig fuel (k - 1) (by omega) (by push_cast at h2; omega)
        refine ⟨r1, fun m' k' hk' hd => r2 m' k' ?_ hd⟩
        rcases Int.lt_or_eq_of_le hk' with h | h
        · omega
        · subst h
          exfalso
          have hs := standsFor_iff.mpr ⟨hd.pos, hd.rounds⟩
          rcases close_cases hd.close with e | e
          · rw [e, hlo] at hs; cases hs
          · rw [e] at hs; exact hc2 hs

/-- The exponent, plus 60, of a power of ten between a fortieth and a quarter of the distance to the next float. -/
def finePower (g : Nat) : Nat := (g * 30103 + 1454447) / 100000

theorem finePower_bounds : ∀ g < 254, 4 * (10 ^ finePower g * 2 ^ 149) ≤ 2 ^ g * 10 ^ 60 ∧
    2 ^ 24 * (2 ^ g * 10 ^ 60) ≤ (10 ^ 9 - 1) * (10 ^ finePower g * 2 ^ 149) ∧ 14 ≤ finePower g ∧ finePower g ≤ 98 := by
  decide +kernel

/-- Nine digits are enough. -/
theorem fine_standsFor {a : Nat} (ha : 0 < a) (ha2 : a < single.inf) : ∃ k0 : Int, -46 ≤ k0 ∧ k0 ≤ 38 ∧
    standsFor a (scaledNum a k0 / scaledDen k0) k0 = true ∧ (single.units a / 2 ^ 149 : ℚ) < (10 ^ 9 - 1) * 10 ^ k0 := by
  obtain ⟨g, M, e, hs, hM⟩ := single.exists_split a
  rw [show single.mb = 23 from rfl] at e hs hM
  have hinf : single.inf = 255 * 2 ^ 23 := by decide
  have hg : g < 254 := by omega
  have hu : single.units a = M * 2 ^ g := by rw [e]; exact single.units_split g M hs (Nat.le_of_lt hM)
  obtain ⟨p1, p2, p3, p4⟩ := finePower_bounds g hg
  refine ⟨(finePower g : Int) - 60, by omega, by omega, ?_, ?_⟩
  all_goals
    have hKq : (10 : ℚ) ^ ((finePower g : Int) - 60) * 10 ^ 60 = 10 ^ finePower g := by
      rw [zpow_sub₀ (by norm_num), zpow_natCast, zpow_ofNat]
      exact div_mul_cancel₀ _ (by positivity)
    have q1 : (4 * (10 ^ finePower g * 2 ^ 149) : ℚ) ≤ 2 ^ g * 10 ^ 60 := by exact_mod_cast p1
    have q2 : (2 ^ 24 * (2 ^ g * 10 ^ 60) : ℚ) ≤ (10 ^ 9 - 1) * (10 ^ finePower g * 2 ^ 149) := by
      have : ((2 ^ 24 * (2 ^ g * 10 ^ 60) : Nat) : ℚ) ≤ (((10 ^ 9 - 1) * (10 ^ finePower g * 2 ^ 149) : Nat) : ℚ) := by exact_mod_cast p2
      push_cast at this
      norm_num at this ⊢
      exact this
    rw [← hKq] at q1 q2
    have ht := zpow_ten_pos ((finePower g : Int) - 60)
    have h60 : (0 : ℚ) < 10 ^ 60 := by positivity
    have r1 : 4 * ((10 : ℚ) ^ ((finePower g : Int) - 60) * 2 ^ 149) ≤ 2 ^ g := by nlinarith
    have r2 : 2 ^ 24 * 2 ^ g ≤ (10 ^ 9 - 1) * ((10 : ℚ) ^ ((finePower g : Int) - 60) * 2 ^ 149) := by nlinarith
    have huq : (single.units a : ℚ) = M * 2 ^ g := by rw [hu]; push_cast; rfl
    have h2g : (0 : ℚ) < 2 ^ g := by positivity
    have h149 : (0 : ℚ) < 2 ^ 149 := by positivity
  · obtain ⟨b1, b2⟩ := scaled_bounds a ((finePower g : Int) - 60)
    rw [standsFor_iff]
    have hM0 : 0 < M := by omega
    have hM1 := natCast_pos hM0
    rw [huq] at b1 b2
    generalize scaledNum a ((finePower g : Int) - 60) / scaledDen ((finePower g : Int) - 60) = lo at *
    generalize (10 : ℚ) ^ ((finePower g : Int) - 60) = t at *
    have c1 : lo * t * 2 ^ 149 ≤ M * 2 ^ g := by rwa [le_div_iff₀ h149] at b1
    have c2 : M * 2 ^ g < (lo + 1) * t * 2 ^ 149 := by rwa [div_lt_iff₀ h149] at b2
    have c3 : (M : ℚ) * 2 ^ g - 2 ^ g / 4 < lo * t * 2 ^ 149 := by nlinarith
    have hq0 : 0 ≤ lo * t := by positivity
    refine ⟨?_, ?_⟩
    · rcases Nat.eq_zero_or_pos lo with h | h
      · rw [h] at c3
        simp only [Nat.cast_zero, zero_mul] at c3
        nlinarith
      · exact h
    · apply Nat.le_antisymm
      · refine single.nearest_le hq0 (b := a) (g := g) (N := M) e hs hM ?_
        rw [single_scale]
        nlinarith
      · obtain ⟨b, rfl⟩ : ∃ b, a = b + 1 := ⟨a - 1, by omega⟩
        obtain ⟨g', N, e', hs', hN'⟩ := single.exists_split b
        rw [show single.mb = 23 from rfl] at e' hs' hN'
        refine single.lt_nearest hq0 (b := b) (g := g') (N := N) e' (by omega) hs' hN' ?_
        rw [single_scale]
        refine lt_of_le_of_lt ?_ c3
        by_cases hsame : g' = g
        · have : N + 1 = M := by subst hsame; omega
          subst this
          rw [hsame]
          push_cast
          nlinarith
        · have hg' : g = g' + 1 ∧ N + 1 = 2 ^ 24 ∧ M = 2 ^ 23 := by
            have h1 : g' < g ∨ g < g' := by omega
            rcases h1 with h1 | h1
            · have : g = g' + 1 := by omega
              subst this
              omega
            · exfalso
              have : g' = g + 1 ∨ g + 2 ≤ g' := by omega
              rcases this with h | h <;> omega
          obtain ⟨hg1, hN1, hM2⟩ := hg'
          have hNq : (N : ℚ) + 1 = 2 ^ 24 := by exact_mod_cast hN1
          have hMq : (M : ℚ) = 2 ^ 23 := by rw [hM2]; norm_num
          rw [hMq, hg1, pow_succ, show (N : ℚ) = 2 ^ 24 - 1 by linarith]
          apply le_of_eq
          ring
  · rw [div_lt_iff₀ h149, huq]
    have hMq : (M : ℚ) + 1 ≤ 2 ^ 24 := by exact_mod_cast hM
    generalize (10 : ℚ) ^ ((finePower g : Int) - 60) = t at *
    nlinarith

theorem shortest_prints : Prints shortest := by
  intro a ha ha2
  obtain ⟨k0, h1, h2, h3, h4⟩ := fine_standsFor ha ha2
  exact (shortestFrom_decimal ha ha2 h3 h4 85 38 h2 (by simp; omega)).1

theorem shortest_longest {a m' : Nat} {k' : Int} (ha : 0 < a) (ha2 : a < single.inf) (h : Decimal a m' k') : k' ≤ (shortest a).2 := by
  obtain ⟨k0, h1, h2, h3, h4⟩ := fine_standsFor ha ha2
  exact (shortestFrom_decimal ha ha2 h3 h4 85 38 h2 (by simp; omega)).2 m' k' (exponent_range h.pos h.few ha2 h.rounds ha).2 h

end Verif.Json
