import Verif.Json.NumberError
/-!
# The float read for the shortest decimal of a float, continued
-/

namespace Verif.Json
open Verif.Ieee Verif.Lattice

/-- The middle of two `f32` is an `f64`. -/
theorem middle_double {g N : Nat} (hg : g < 254) (hN : N < 2 ^ 24) :
    ∃ w : Fl double, w.Fin ∧ w.val * 2 ^ 149 = (N + 1 / 2) * 2 ^ g := by
  obtain ⟨a, ha⟩ := double.exists_units (g + 924) (2 * N + 1) (by rw [show double.mb + 1 = 53 from rfl]; omega)
  refine ⟨⟨false, a⟩, ?_, ?_⟩
  · apply double.units_strictMono.lt_iff_lt.mp
    show double.units a < double.units double.inf
    rw [ha, double.units_inf double_eb]
    calc (2 * N + 1) * 2 ^ (g + 924) < 2 ^ 25 * 2 ^ (g + 924) := Nat.mul_lt_mul_of_pos_right (by omega) (Nat.two_pow_pos _)
      _ = 2 ^ (25 + (g + 924)) := by rw [← Nat.pow_add]
      _ ≤ _ := Nat.pow_le_pow_right (by decide) (by rw [show double.eb = 11 from rfl, show double.mb = 52 from rfl]; omega)
  · have hq : (double.units a : ℚ) = (2 * N + 1) * 2 ^ g * 2 ^ 924 := by rw [ha, Nat.pow_add]; push_cast; ring
    have e : (2 : ℚ) ^ 1074 = 2 ^ 149 * 2 * 2 ^ 924 := by rw [← pow_succ, ← pow_add]
    have h2 : (2 : ℚ) ^ 924 ≠ 0 := by positivity
    show 1 * ((double.units a : ℚ) / 2 ^ double.scale) * 2 ^ 149 = _
    rw [hq, double_scale, e]
    generalize (2 : ℚ) ^ 924 = z at h2
    field_simp

theorem five_pow_le {n : Nat} (h : 5 ^ n ≤ 2 ^ 30) : n ≤ 22 := by
  by_contra hc
  have h1 : 5 ^ 23 ≤ 5 ^ n := Nat.pow_le_pow_right (by decide) (by omega)
  have h2 : 2 ^ 30 < 5 ^ 23 := by decide
  omega

theorem five_coprime (n j : Nat) : Nat.Coprime (5 ^ n) (2 ^ j) := Nat.Coprime.pow _ _ (by decide)

/-- A decimal that is the middle of two `f32` is read without an error. -/
theorem fromParts_middle {m g N : Nat} {k : Int} (hm0 : 0 < m) (hm : m ≤ 2 ^ 30) (hg : g < 254) (hN : N < 2 ^ 24)
    (h : (m : ℚ) * 10 ^ k * 2 ^ 149 = (N + 1 / 2) * 2 ^ g) :
    ∃ f, fromParts m k = some f ∧ f.Fin ∧ f.neg = false ∧ f.val = m * 10 ^ k := by
  obtain ⟨fm, vm⟩ := double_ofNat (n := m) (hm.trans (by decide))
  obtain ⟨w, fw, hw⟩ := middle_double hg hN
  have hwv : (m : ℚ) * 10 ^ k = w.val := by
    rw [← h] at hw
    exact (mul_right_cancel₀ (by positivity) hw).symm
  cases k with
  | ofNat n =>
    have e1 : m * 10 ^ n * 2 ^ 150 = (2 * N + 1) * 2 ^ g := by
      have : (m * 10 ^ n * 2 ^ 150 : ℚ) = (2 * N + 1) * 2 ^ g := by
        have h' : (m : ℚ) * 10 ^ n * 2 ^ 149 = (N + 1 / 2) * 2 ^ g := h
        calc (m * 10 ^ n * 2 ^ 150 : ℚ) = 2 * (m * 10 ^ n * 2 ^ 149) := by ring
          _ = _ := by rw [h']; ring
      exact_mod_cast this
    have d1 : 5 ^ n ∣ (2 * N + 1) * 2 ^ g := by
      rw [← e1, show (10 : Nat) = 5 * 2 from rfl, Nat.mul_pow]
      exact ⟨m * 2 ^ n * 2 ^ 150, by ring⟩
    have d2 := Nat.le_of_dvd (by omega) ((five_coprime n g).dvd_of_dvd_mul_right d1)
    have hn : n ≤ 22 := five_pow_le (by omega)
    obtain ⟨fp, np, vp⟩ := pow10_exact hn
    obtain ⟨ff, vf⟩ := Fl.mul_exact fm fp fw (by rw [vm, vp]; exact hwv)
    refine ⟨_, ?_, ff, ?_, ?_⟩
    · simp only [fromParts, ff.not_inf]
      rw [if_pos (by omega)]
      rfl
    · rw [mul_neg_eq fm fp, np]; rfl
    · rw [vf, hwv]
  | negSucc n =>
    have e0 : (m : ℚ) * 10 ^ (Int.negSucc n) = m / 10 ^ (n + 1) := by rw [zpow_negSucc, div_eq_mul_inv]
    have e1 : m * 2 ^ 150 = (2 * N + 1) * 2 ^ g * 10 ^ (n + 1) := by
      have : (m * 2 ^ 150 : ℚ) = (2 * N + 1) * 2 ^ g * 10 ^ (n + 1) := by
        rw [e0] at h
        calc (m * 2 ^ 150 : ℚ) = 2 * (m / 10 ^ (n + 1) * 2 ^ 149) * 10 ^ (n + 1) := by field_simp
          _ = _ := by rw [h]; ring
      exact_mod_cast this
    have d1 : 5 ^ (n + 1) ∣ m * 2 ^ 150 := by
      rw [e1, show (10 : Nat) = 5 * 2 from rfl, Nat.mul_pow]
      exact ⟨(2 * N + 1) * 2 ^ g * 2 ^ (n + 1), by ring⟩
    have d2 := Nat.le_of_dvd hm0 ((five_coprime (n + 1) 150).dvd_of_dvd_mul_right d1)
    have hn : n + 1 ≤ 22 := five_pow_le (by omega)
    obtain ⟨fp, np, vp⟩ := pow10_exact hn
    have hp0 : (pow10 (n + 1)).val ≠ 0 := by rw [vp]; positivity
    obtain ⟨ff, vf⟩ := Fl.div_exact fm fp fw hp0 (by rw [vm, vp, ← e0]; exact hwv)
    refine ⟨_, ?_, ff, ?_, ?_⟩
    · simp only [fromParts, divPow]
      rw [if_pos (by omega)]
    · rw [div_neg_eq fm fp hp0, np]; rfl
    · rw [vf, hwv]

/-- The decimals close to a middle are read well. -/
def hitsRead (g : Nat) : Bool :=
  (hits g).all fun m =>
    m % 10 ≠ 0 && decide (power g ≤ 60) &&
    (match fromParts m ((power g : Int) - 60) with
      | some f => (f.convert single).mag == single.round (m * 2 ^ 149) (10 ^ (60 - power g))
      | none => false) || (m % 10 ≠ 0 && decide (60 ≤ power g) &&
    (match fromParts m ((power g : Int) - 60) with
      | some f => (f.convert single).mag == single.round (m * 2 ^ 149 * 10 ^ (power g - 60)) 1
      | none => false))

theorem all_hitsRead : (List.range 254).all hitsRead = true := by decide +kernel

theorem hit_read {g m : Nat} (hg : g < 254) (h : m ∈ hits g) : m % 10 ≠ 0 ∧
    ∃ f, fromParts m ((power g : Int) - 60) = some f ∧ (f.convert single).mag = single.nearest (m * 10 ^ ((power g : Int) - 60)) := by
  have h1 := List.all_eq_true.mp (List.all_eq_true.mp all_hitsRead g (List.mem_range.mpr hg)) m h
  rw [Bool.or_eq_true] at h1
  rcases h1 with h1 | h1
  · simp only [Bool.and_eq_true, decide_eq_true_eq] at h1
    obtain ⟨⟨h2, h3⟩, h4⟩ := h1
    refine ⟨by simpa using h2, ?_⟩
    split at h4
    · rename_i f hf
      refine ⟨f, hf, ?_⟩
      rw [beq_iff_eq.mp h4]
      apply single.round_nearest (Nat.pow_pos (by decide))
      rw [single_scale, show ((power g : Int) - 60) = -((60 - power g : Nat) : Int) by omega, zpow_neg, zpow_natCast]
      push_cast
      rw [div_eq_mul_inv]
      ring
    · cases h4
  · simp only [Bool.and_eq_true, decide_eq_true_eq] at h1
    obtain ⟨⟨h2, h3⟩, h4⟩ := h1
    refine ⟨by simpa using h2, ?_⟩
    split at h4
    · rename_i f hf
      refine ⟨f, hf, ?_⟩
      rw [beq_iff_eq.mp h4]
      apply single.round_nearest (by decide)
      rw [single_scale, show ((power g : Int) - 60) = ((power g - 60 : Nat) : Int) by omega, zpow_natCast]
      push_cast
      ring
    · cases h4

end Verif.Json
