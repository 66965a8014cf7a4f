import Verif.Float.Ieee
import Verif.Float.CompressLaws
import Mathlib.Data.Rat.Lemmas
/-!
# The float nearest to a rational number
-/

namespace Verif.Ieee
namespace Fmt
variable (F : Fmt)

/-- The magnitude bits of the float nearest to the number `q`, which is not negative. -/
def nearest (q : ℚ) : Nat := F.round (q.num.toNat * 2 ^ F.scale) q.den

theorem round_nearest {n d : Nat} {q : ℚ} (hd : 0 < d) (h : q * 2 ^ F.scale = n / d) : F.round n d = F.nearest q := by
  have hdq : (0 : ℚ) < d := by exact_mod_cast hd
  have hden : (0 : ℚ) < q.den := by exact_mod_cast q.den_pos
  have hq0 : 0 ≤ q := by
    by_contra hneg
    have h1 : q * 2 ^ F.scale < 0 := mul_neg_of_neg_of_pos (not_le.mp hneg) (by positivity)
    have h2 : (0 : ℚ) ≤ n / d := by positivity
    linarith
  have hnum : ((q.num.toNat : Nat) : ℚ) = q.num := by
    have h1 : ((q.num.toNat : Nat) : Int) = q.num := Int.toNat_of_nonneg (Rat.num_nonneg.mpr hq0)
    exact_mod_cast h1
  have hqe : q * q.den = q.num := Rat.mul_den_eq_num q
  have key : n * q.den = q.num.toNat * 2 ^ F.scale * d := by
    have : (n * q.den : ℚ) = q.num.toNat * 2 ^ F.scale * d := by
      rw [hnum, ← hqe]
      have h3 : (n : ℚ) = q * 2 ^ F.scale * d := by rw [h]; field_simp
      rw [h3]; ring
    exact_mod_cast this
  exact Nat.le_antisymm (F.round_mono hd q.den_pos (Nat.le_of_eq key)) (F.round_mono q.den_pos hd (Nat.le_of_eq key.symm))

theorem exists_fraction {q : ℚ} (h : 0 ≤ q) : ∃ n d : Nat, 0 < d ∧ q * 2 ^ F.scale = n / d ∧ F.nearest q = F.round n d := by
  have hden : (0 : ℚ) < q.den := by exact_mod_cast q.den_pos
  have hnum : ((q.num.toNat : Nat) : ℚ) = q.num := by
    have h1 : ((q.num.toNat : Nat) : Int) = q.num := Int.toNat_of_nonneg (Rat.num_nonneg.mpr h)
    exact_mod_cast h1
  refine ⟨q.num.toNat * 2 ^ F.scale, q.den, q.den_pos, ?_, rfl⟩
  push_cast
  rw [hnum, ← Rat.mul_den_eq_num q]
  field_simp

/-- Below the middle of a float and the next one. -/
theorem nearest_le {q : ℚ} (hq : 0 ≤ q) {b g N : Nat} (hb : b = g * 2 ^ F.mb + N)
    (hs : g = 0 ∨ 2 ^ F.mb ≤ N) (hN : N < 2 ^ (F.mb + 1)) (h : q * 2 ^ F.scale < (N + 1 / 2) * 2 ^ g) : F.nearest q ≤ b := by
  obtain ⟨n, d, hd, e, hr⟩ := F.exists_fraction hq
  rw [hr]
  rw [e] at h
  by_contra hc
  have h1 : b + 1 ≤ F.roundRaw n d := by rw [round_eq] at hc; omega
  have h2 := F.units_strictMono.monotone h1
  rw [hb, Nat.add_assoc, F.units_split g (N + 1) (by omega) (by omega)] at h2
  have h2q : ((N + 1) * 2 ^ g : ℚ) ≤ F.units (F.roundRaw n d) := by exact_mod_cast h2
  have h3 := (abs_le.mp (F.roundRaw_error (n := n) hd)).2
  have hdq : (0 : ℚ) < d := by exact_mod_cast hd
  have hg : F.exponent n d ≤ g := by
    by_cases h0 : F.exponent n d = 0
    · omega
    have h4 := F.exponent_lower hd h0
    have h4q : (d * 2 ^ (F.exponent n d + F.mb) : ℚ) ≤ n := by exact_mod_cast h4
    have h5 : (2 : ℚ) ^ (F.exponent n d + F.mb) ≤ n / d := by rw [le_div_iff₀ hdq]; linarith
    have h6 : ((N : ℚ) + 1) ≤ 2 ^ (F.mb + 1) := by exact_mod_cast hN
    have h7 : (2 : ℚ) ^ (F.exponent n d + F.mb) < 2 ^ (F.mb + 1 + g) := by
      rw [pow_add 2 (F.mb + 1)]
      have : (0 : ℚ) < 2 ^ g := by positivity
      nlinarith
    have h8 : 2 ^ (F.exponent n d + F.mb) < 2 ^ (F.mb + 1 + g) := by exact_mod_cast h7
    have := (Nat.pow_lt_pow_iff_right (by decide)).mp h8
    omega
  have h9 : (2 : ℚ) ^ F.exponent n d ≤ 2 ^ g := pow_le_pow_right₀ (by norm_num) hg
  nlinarith

/-- Above it. -/
theorem lt_nearest {q : ℚ} (hq : 0 ≤ q) {b g N : Nat} (hb : b = g * 2 ^ F.mb + N) (hbi : b < F.inf)
    (hs : g = 0 ∨ 2 ^ F.mb ≤ N) (hN : N < 2 ^ (F.mb + 1)) (h : (N + 1 / 2) * 2 ^ g < q * 2 ^ F.scale) : b < F.nearest q := by
  obtain ⟨n, d, hd, e, hr⟩ := F.exists_fraction hq
  rw [hr]
  rw [e] at h
  by_contra hc
  have h1 : F.roundRaw n d ≤ b := by rw [round_eq] at hc; omega
  have hg : F.exponent n d ≤ g := by
    by_contra hgc
    have h2 := F.mantissa_ge (n := n) hd
    have h3 : (g + 1) * 2 ^ F.mb ≤ F.exponent n d * 2 ^ F.mb := Nat.mul_le_mul_right _ (by omega)
    rw [Nat.pow_succ] at hN
    rw [Nat.add_mul] at h3
    unfold roundRaw at h1
    omega
  have h2 := F.units_strictMono.monotone h1
  rw [hb, F.units_split g N (by omega) (by omega)] at h2
  have h2q : (F.units (F.roundRaw n d) : ℚ) ≤ N * 2 ^ g := by exact_mod_cast h2
  have h3 := (abs_le.mp (F.roundRaw_error (n := n) hd)).1
  have h9 : (2 : ℚ) ^ F.exponent n d ≤ 2 ^ g := pow_le_pow_right₀ (by norm_num) hg
  nlinarith

/-- Two numbers that are rounded differently are on different sides of the middle of two neighbouring floats, one of which is the
float nearest to the first. -/
theorem middle_between {p q : ℚ} (hp : 0 ≤ p) (hq : 0 ≤ q) (hfin : F.nearest p < F.inf) (hne : F.nearest q ≠ F.nearest p) :
    ∃ b g N : Nat, b = g * 2 ^ F.mb + N ∧ b < F.inf ∧ (g = 0 ∨ 2 ^ F.mb ≤ N) ∧ N < 2 ^ (F.mb + 1) ∧
      (F.nearest p = b ∧ p * 2 ^ F.scale ≤ (N + 1 / 2) * 2 ^ g ∧ (N + 1 / 2) * 2 ^ g ≤ q * 2 ^ F.scale ∨
        F.nearest p = b + 1 ∧ (N + 1 / 2) * 2 ^ g ≤ p * 2 ^ F.scale ∧ q * 2 ^ F.scale ≤ (N + 1 / 2) * 2 ^ g) := by
  rcases Nat.lt_or_ge (F.nearest p) (F.nearest q) with h | h
  · obtain ⟨g, N, e, hs, hN⟩ := F.exists_split (F.nearest p)
    refine ⟨_, g, N, e, hfin, hs, hN, .inl ⟨rfl, ?_, ?_⟩⟩
    · by_contra hc
      have := F.lt_nearest hp e hfin hs hN (not_le.mp hc)
      omega
    · by_contra hc
      have := F.nearest_le hq e hs hN (not_le.mp hc)
      omega
  · obtain ⟨b, hb⟩ : ∃ b, F.nearest p = b + 1 := ⟨F.nearest p - 1, by omega⟩
    obtain ⟨g, N, e, hs, hN⟩ := F.exists_split b
    refine ⟨b, g, N, e, by omega, hs, hN, .inr ⟨hb, ?_, ?_⟩⟩
    · by_contra hc
      have := F.nearest_le hp e hs hN (not_le.mp hc)
      omega
    · by_contra hc
      have := F.lt_nearest hq e (by omega) hs hN (not_le.mp hc)
      omega

end Fmt

theorem Fl.convert_nearest {F G : Fmt} {x : Fl F} (hx : x.Fin) : x.convert G = ⟨x.neg, G.nearest |x.val|⟩ := by
  unfold Fl.convert
  simp only [hx.not_nan, hx.not_inf, Bool.false_eq_true, if_false]
  congr 1
  apply G.round_nearest (Nat.two_pow_pos _)
  rw [Fl.abs_val]
  push_cast
  ring

end Verif.Ieee
