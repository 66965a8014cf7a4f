import Verif.Float.ConvLaws
import Verif.Float.ValueSpec
/-!
# The error of stored vertex components
-/

namespace Verif.Ieee
open Verif.Props

theorem half_eb : 2 ≤ half.eb := by decide
theorem half_eps : half.eps = 1 / 2 ^ 11 := rfl
theorem half_tiny : half.tiny = 1 / 2 ^ 25 := by rw [Fmt.tiny, half_scale]
theorem half_big : half.big = 65504 := by
  rw [Fmt.big, half_scale]
  have : half.units (half.inf - 1) = 65504 * 2 ^ 24 := by decide +kernel
  rw [this]
  norm_num

theorem toHalf_fin {x : UInt32} (hx : (ofBits x).Fin) (hb : |(ofBits x).val| ≤ 65504) :
    (ofBits (ofHalf (toHalf x))).Fin ∧
    |(ofBits (ofHalf (toHalf x))).val - (ofBits x).val| ≤ max (|(ofBits x).val| / 2 ^ 11) (1 / 2 ^ 25) := by
  have hl : |(ofBits x).val| < half.limit :=
    lt_of_le_of_lt (hb.trans_eq half_big.symm) (Fmt.big_lt_limit _ half_eb)
  obtain ⟨f, e⟩ := Fl.convert_error (G := half) hx hl half_eb
  have e1 : toHalf x = toBits16 ((ofBits x).convert half) := by
    unfold toHalf
    simp only [hx.not_nan, Bool.false_eq_true, if_false]
  generalize (ofBits x).convert half = y at *
  have hlt : y.mag < 2 ^ 15 := by unfold Fl.Fin at f; rw [half_inf] at f; omega
  obtain ⟨a, ha, he, hu⟩ := half_to_single f
  obtain ⟨c1, c2, c3⟩ := Fl.convert_exact (G := single) f a ha hu
  have e2 : ofHalf (toHalf x) = toBits (y.convert single) := by
    rw [e1]
    unfold ofHalf
    rw [ofBits16_toBits16 hlt]
    simp only [f.not_nan, Bool.false_eq_true, if_false]
  rw [e2, c2.ofBits_toBits, c3]
  refine ⟨c2, ?_⟩
  rw [half_eps, half_tiny] at e
  rwa [mul_one_div] at e

/-- `round` followed by `as`: at most one half away, when it fits. -/
theorem roundToNat_val {F : Fmt} {x : Fl F} {limit : Nat} (hx : x.Fin) (h0 : 0 ≤ x.val) (hl : x.val ≤ limit) :
    |(x.roundToNat limit : ℚ) - x.val| ≤ 1 / 2 ∧ x.roundToNat limit ≤ limit := by
  unfold Fl.roundToNat
  simp only [hx.not_nan, hx.not_inf, Bool.false_or, Bool.false_eq_true, if_false]
  have hs : 0 < 2 ^ F.scale := Nat.two_pow_pos _
  have hsq : (0 : ℚ) < 2 ^ F.scale := by positivity
  have habs : |x.val| = (F.units x.mag : ℚ) / 2 ^ F.scale := Fl.abs_val x
  rw [abs_of_nonneg h0] at habs
  cases hn : x.neg with
  | true =>
    have : x.val = 0 := by
      have h1 : x.val ≤ 0 := by
        rw [Fl.val, hn]; simp only [sg, if_true]
        have : (0 : ℚ) ≤ F.units x.mag / 2 ^ F.scale := by positivity
        linarith
      exact le_antisymm h1 h0
    simp [this]
  | false =>
    simp only [Bool.false_eq_true, if_false]
    generalize hS : 2 ^ F.scale = S at *
    have hSq : ((S : Nat) : ℚ) = 2 ^ F.scale := by rw [← hS]; push_cast; rfl
    rw [← hSq] at habs hsq
    have hu : F.units x.mag ≤ limit * S := by
      rw [habs, div_le_iff₀ hsq] at hl
      exact_mod_cast hl
    generalize F.units x.mag = u at *
    have hq : (2 * u + S) / (2 * S) ≤ limit := by
      have : (2 * u + S) / (2 * S) < limit + 1 := by
        rw [Nat.div_lt_iff_lt_mul (by omega)]
        nlinarith
      omega
    have hd := Nat.div_add_mod (2 * u + S) (2 * S)
    have hm := Nat.mod_lt (2 * u + S) (show 2 * S > 0 by omega)
    rw [show Nat.min ((2 * u + S) / (2 * S)) limit = (2 * u + S) / (2 * S) from Nat.min_eq_left hq]
    refine ⟨?_, hq⟩
    generalize (2 * u + S) / (2 * S) = q at *
    have h1 : 2 * S * q ≤ 2 * u + S := by omega
    have h2 : 2 * u + S < 2 * S * q + 2 * S := by omega
    have h1q : (2 * S * q : ℚ) ≤ 2 * u + S := by exact_mod_cast h1
    have h2q : (2 * u + S : ℚ) < 2 * S * q + 2 * S := by exact_mod_cast h2
    rw [habs, abs_le]
    constructor
    · rw [← sub_nonneg]
      have e : (q : ℚ) - u / S - -(1 / 2) = (2 * S * q + S - 2 * u) / (2 * S) := by field_simp; ring
      rw [e]; apply div_nonneg <;> linarith
    · rw [← sub_nonneg]
      have e : 1 / 2 - ((q : ℚ) - u / S) = (2 * u + S - 2 * S * q) / (2 * S) := by field_simp; ring
      rw [e]; apply div_nonneg <;> linarith

theorem clamp_val {x : Fl single} (hx : x.Fin) : (x.clamp (Fl.ofNat 0) (Fl.ofNat 1)).Fin ∧
    (x.clamp (Fl.ofNat 0) (Fl.ofNat 1)).val = max 0 (min x.val 1) := by
  obtain ⟨f0, v0⟩ := single_ofNat (n := 0) (by decide)
  obtain ⟨f1, v1⟩ := single_ofNat (n := 1) (by decide)
  have lt_iff : ∀ {a b : Fl single}, a.Fin → b.Fin → (a.lt b = true ↔ a.val < b.val) := by
    intro a b ha hb
    simp [Fl.lt, ha.not_nan, hb.not_nan, Fl.key_lt_iff]
  unfold Fl.clamp
  push_cast at v0 v1
  by_cases h0 : x.val < 0
  · have e0 : x.lt (Fl.ofNat 0) = true := (lt_iff hx f0).mpr (by rw [v0]; exact h0)
    have e1 : ¬ (Fl.ofNat 1 : Fl single).lt (Fl.ofNat 0) = true := by rw [lt_iff f1 f0, v0, v1]; norm_num
    rw [if_pos e0, if_neg e1]
    refine ⟨f0, ?_⟩
    rw [v0, min_eq_left (by linarith), max_eq_left h0.le]
  · have e0 : ¬ x.lt (Fl.ofNat 0) = true := by rw [lt_iff hx f0, v0]; exact h0
    rw [if_neg e0]
    by_cases h1 : 1 < x.val
    · have e1 : (Fl.ofNat 1 : Fl single).lt x = true := (lt_iff f1 hx).mpr (by rw [v1]; exact h1)
      rw [if_pos e1]
      refine ⟨f1, ?_⟩
      rw [v1, min_eq_right h1.le, max_eq_right (by norm_num)]
    · have e1 : ¬ (Fl.ofNat 1 : Fl single).lt x = true := by rw [lt_iff f1 hx, v1]; exact h1
      rw [if_neg e1]
      refine ⟨hx, ?_⟩
      rw [min_eq_left (by linarith), max_eq_right (by linarith)]

theorem mul_val_nonneg {F : Fmt} {x y : Fl F} (hx : x.Fin) (hy : y.Fin) (he : 2 ≤ F.eb)
    (h : 0 ≤ x.val * y.val) :
    0 ≤ (x.mul y).val := by
  by_cases hs : (x.neg != y.neg) = true
  · have hz : x.val * y.val = 0 := by
      refine le_antisymm ?_ h
      have hxv : (0 : ℚ) ≤ F.units x.mag / 2 ^ F.scale := by positivity
      have hyv : (0 : ℚ) ≤ F.units y.mag / 2 ^ F.scale := by positivity
      rw [Fl.val, Fl.val]
      have := mul_nonneg hxv hyv
      cases hxn : x.neg <;> cases hyn : y.neg <;> rw [hxn, hyn] at hs <;> simp only [sg] <;> simp at hs ⊢ <;> linarith
    have hw : (Fl.zero false : Fl F).Fin := F.inf_pos he
    have hzero : (Fl.zero false : Fl F).val = 0 := by simp [Fl.val, Fl.zero, Fmt.units]
    have := Fl.mul_le hx hy hw (by rw [hz, abs_zero]; exact abs_nonneg _)
    rw [hzero, abs_zero] at this
    rw [abs_nonpos_iff.mp this]
  · unfold Fl.mul
    simp only [hx.not_nan, hy.not_nan, hx.not_inf, hy.not_inf, Bool.or_self, Bool.false_eq_true, if_false]
    simp only [Fl.val, sg, if_neg hs, one_mul]
    positivity

theorem toByte_fin {x : UInt32} (hx : (ofBits x).Fin) :
    (ofBits (ofByte (toByte x))).Fin ∧
    |(ofBits (ofByte (toByte x))).val - max 0 (min (ofBits x).val 1)| ≤ 1 / 510 + 1 / 2 ^ 23 ∧
    ((ofBits x).val ≤ 0 → (ofBits (ofByte (toByte x))).val = 0) ∧
    (1 ≤ (ofBits x).val → (ofBits (ofByte (toByte x))).val = 1) := by
  obtain ⟨fc, vc⟩ := clamp_val hx
  obtain ⟨f255, v255⟩ := single_ofNat (n := 255) (by decide)
  obtain ⟨f1, v1⟩ := single_ofNat (n := 1) (by decide)
  unfold toByte
  generalize (ofBits x).clamp (Fl.ofNat 0) (Fl.ofNat 1) = c at *
  have hc0 : 0 ≤ c.val := by rw [vc]; exact le_max_left _ _
  have hc1 : c.val ≤ 1 := by rw [vc]; exact max_le (by norm_num) (min_le_right _ _)
  have hz : (ofBits x).val ≤ 0 → c.val = 0 := by
    intro h
    rw [vc, max_eq_left ((min_le_left _ _).trans h)]
  have ho : 1 ≤ (ofBits x).val → c.val = 1 := by
    intro h
    rw [vc, min_eq_right h, max_eq_right (by norm_num)]
  rw [← vc]
  push_cast at v255 v1
  have habs : |c.val * (Fl.ofNat 255 : Fl single).val| = c.val * 255 := by rw [v255, abs_of_nonneg (by positivity)]
  have hlim : (255 : ℚ) < single.limit := lt_trans (by norm_num) single_limit_gt
  obtain ⟨fm, em⟩ := Fl.mul_error fc f255 (by rw [habs]; linarith) single_eb
  have hle := Fl.mul_le fc f255 f255 (by rw [habs, v255, abs_of_pos (by norm_num)]; linarith)
  have hnn := mul_val_nonneg fc f255 single_eb (by rw [v255]; positivity)
  have hone : c.val = 1 → (c.mul (Fl.ofNat 255)).val = 255 := by
    intro h
    have := (Fl.mul_exact fc f255 f255 (by rw [h, one_mul])).2
    rw [this, v255]
  have hzero : c.val = 0 → (c.mul (Fl.ofNat 255)).val = 0 := by
    intro h
    have hw : (Fl.zero false : Fl single).Fin := single.inf_pos single_eb
    have hz : (Fl.zero false : Fl single).val = 0 := by simp [Fl.val, Fl.zero, Fmt.units]
    have := Fl.mul_le fc f255 hw (by rw [h, zero_mul, abs_zero]; exact abs_nonneg _)
    rw [hz, abs_zero] at this
    exact abs_nonpos_iff.mp this
  rw [v255, abs_of_nonneg hnn, abs_of_pos (by norm_num)] at hle
  rw [habs, v255, single_eps, single_tiny] at em
  have em' : |(c.mul (Fl.ofNat 255)).val - c.val * 255| ≤ 255 / 2 ^ 24 := by
    refine em.trans (max_le ?_ ?_)
    · rw [mul_one_div]; gcongr; linarith
    · norm_num
  clear em
  generalize c.mul (Fl.ofNat 255) = p at *
  obtain ⟨r1, r2⟩ := roundToNat_val (limit := 255) fm hnn (by exact_mod_cast hle)
  generalize p.roundToNat 255 = r at *
  have hr : (UInt8.ofNat r).toNat = r := by
    rw [UInt8.toNat_ofNat']; omega
  unfold ofByte
  rw [hr]
  obtain ⟨fr, vr⟩ := single_ofNat (n := r) (by omega)
  have hrq : (r : ℚ) ≤ 255 := by exact_mod_cast r2
  have hr0 : (0 : ℚ) ≤ r := by positivity
  have hd : |(Fl.ofNat r : Fl single).val / (Fl.ofNat 255 : Fl single).val| = r / 255 := by
    rw [vr, v255, abs_of_nonneg (by positivity)]
  have hd1 : (r : ℚ) / 255 ≤ 1 := by rw [div_le_one (by norm_num)]; exact hrq
  obtain ⟨fd, ed⟩ := Fl.div_error fr f255 (by rw [v255]; norm_num) (by rw [hd]; linarith) single_eb
  rw [hd, vr, v255, single_eps, single_tiny] at ed
  have ed' : |((Fl.ofNat r : Fl single).div (Fl.ofNat 255)).val - r / 255| ≤ 1 / 2 ^ 24 := by
    refine ed.trans (max_le ?_ ?_)
    · rw [mul_one_div]; gcongr
    · norm_num
  rw [fd.ofBits_toBits]
  refine ⟨fd, ?_, ?_, ?_⟩
  · rw [abs_le] at *
    constructor <;> linarith [ed'.1, ed'.2, r1.1, r1.2, em'.1, em'.2]
  · intro h
    have hp := hzero (hz h)
    rw [hp, sub_zero, abs_of_nonneg hr0] at r1
    have hr1 : r = 0 := by
      by_contra hne
      have : (1 : ℚ) ≤ r := by exact_mod_cast Nat.pos_of_ne_zero hne
      linarith
    rw [hr1] at hd ed
    push_cast at ed
    rw [zero_div, zero_mul, sub_zero] at ed
    obtain ⟨f0, v0⟩ := single_ofNat (n := 0) (by decide)
    have := (Fl.div_exact (w := (Fl.ofNat 0 : Fl single)) f0 f255 f0 (by rw [v255]; norm_num) (by
      rw [v0]; push_cast; rw [zero_div])).2
    rw [hr1, this, v0]
    norm_num
  · intro h
    have hp := hone (ho h)
    rw [hp, abs_le] at r1
    have hr1 : r = 255 := by
      by_contra hne
      have : r + 1 ≤ 255 := by omega
      have : (r : ℚ) + 1 ≤ 255 := by exact_mod_cast this
      linarith [r1.1]
    have := (Fl.div_exact (w := (Fl.ofNat 1 : Fl single)) f255 f255 f1 (by rw [v255]; norm_num) (by
      rw [v255, v1]; norm_num)).2
    rw [hr1, this, v1]

end Verif.Ieee
