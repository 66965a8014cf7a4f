import Verif.Float.RangeLaws
import Verif.Float.ValueSpec
/-!
# Center and size of an interval of floats
-/

namespace Verif.Ieee

/-- Halving a float is exact except for tiny ones. -/
theorem Fl.half_error {x two : Fl single} (hx : x.Fin) (h2 : two.Fin) (h2v : two.val = 2) :
    (x.div two).Fin ∧ |(x.div two).val - x.val / 2| ≤ 1 / 2 ^ 150 := by
  obtain ⟨k, m, he, hk, hm⟩ := single.exists_split x.mag
  rcases k with _ | k
  · have hb : |x.val / two.val| < single.limit := by
      rw [h2v, abs_div]
      have h1 := hx.abs_le_big
      have h3 := Fmt.big_lt_limit _ single_eb
      have h4 := abs_nonneg x.val
      rw [show |(2 : ℚ)| = 2 by norm_num]
      linarith
    have h := div_error hx h2 (by rw [h2v]; norm_num) hb single_eb
    refine ⟨h.1, ?_⟩
    have h3 := h.2
    rw [h2v] at h3
    refine le_trans h3 ?_
    rw [single_tiny, single_eps]
    refine max_le ?_ (le_refl _)
    have hu : single.units x.mag ≤ 2 ^ 24 := by
      have : single.units x.mag ≤ single.units (2 ^ 24) := by
        apply single.units_strictMono.monotone
        rw [he]
        have : single.mb = 23 := rfl
        rw [this] at hm
        omega
      have e : single.units (2 ^ 24) = 2 ^ 24 := by decide
      omega
    have hv : |x.val| ≤ 2 ^ 24 / 2 ^ 149 := by
      rw [abs_val, single_scale]
      have : ((single.units x.mag : ℕ) : ℚ) ≤ 2 ^ 24 := by exact_mod_cast hu
      gcongr
    rw [abs_div, show |(2 : ℚ)| = 2 by norm_num]
    generalize |x.val| = a at hv
    have : a / 2 * (1 / 2 ^ 24) = a * (1 / 2 ^ 25) := by ring
    rw [this]
    calc a * (1 / 2 ^ 25) ≤ (2 ^ 24 / 2 ^ 149) * (1 / 2 ^ 25) := by gcongr
      _ = 1 / 2 ^ 150 := by norm_num
  · obtain ⟨a, ha⟩ := single.exists_units k m (le_of_lt hm)
    have hu : single.units x.mag = 2 * single.units a := by
      rw [ha, he, single.units_split _ _ hk (le_of_lt hm), Nat.pow_succ]; ring
    have hle : a ≤ x.mag := by
      by_contra hc
      have := single.units_strictMono (Nat.lt_of_not_ge hc)
      omega
    have hw : (⟨x.neg, a⟩ : Fl single).Fin := lt_of_le_of_lt hle hx
    have hv : x.val / two.val = (⟨x.neg, a⟩ : Fl single).val := by
      rw [h2v, Fl.val, Fl.val, hu]
      push_cast
      ring
    have h := div_exact hx h2 hw (by rw [h2v]; norm_num) hv
    refine ⟨h.1, ?_⟩
    rw [h.2, ← hv, h2v, sub_self, abs_zero]
    positivity

theorem two_fin : (ofBits 0x40000000).Fin ∧ (ofBits 0x40000000).val = 2 := by
  rw [← value_eq, ← finite_iff]
  exact ⟨by decide, by decide +kernel⟩

/-- Half of a sum of two floats which does not overflow. -/
theorem half_sum {x y : Fl single} (hx : x.Fin) (hy : y.Fin) (hb : |x.val + y.val| ≤ maxFinite) :
    Finite (toBits ((ofBits (toBits (x.add y))).div (ofBits 0x40000000))) ∧
    |value (toBits ((ofBits (toBits (x.add y))).div (ofBits 0x40000000))) - (x.val + y.val) / 2| ≤
      |x.val + y.val| / 2 / 2 ^ 24 + 1 / 2 ^ 150 := by
  have h := Fl.add_error hx hy (lt_of_le_of_lt hb maxFinite_lt_limit) single_eb
  rw [h.1.ofBits_toBits]
  have h2 := Fl.half_error h.1 two_fin.1 two_fin.2
  rw [finite_iff, value_eq, h2.1.ofBits_toBits]
  refine ⟨h2.1, ?_⟩
  have e1 := h.2
  have e2 := h2.2
  rw [single_eps] at e1
  generalize ((x.add y).div (ofBits 0x40000000)).val = c at *
  generalize (x.add y).val = t at *
  generalize x.val + y.val = s at *
  rw [abs_le] at e1 e2 ⊢
  constructor <;> linarith

/-- A float is zero or not so small. -/
theorem value_nonneg_of {x : F32} (h : -(1 / 2 ^ 150) ≤ value x) : 0 ≤ value x := by
  by_contra hc
  rw [value_eq] at h hc
  have h1 := single_pos (x := ofBits x) (by intro h0; exact hc (by rw [h0]))
  rw [abs_of_neg (not_le.mp hc)] at h1
  norm_num at h h1
  linarith

end Verif.Ieee
