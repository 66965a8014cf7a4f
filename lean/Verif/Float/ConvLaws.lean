import Verif.Float.CompressLaws
import Verif.Props.MeshData
/-!
# The conversions of vertex components lose nothing the second time
-/

namespace Verif.Ieee
open Verif.Props

theorem half_inf : half.inf = 31744 := by decide

theorem ofBits16_toBits16 {x : Fl half} (h : x.mag < 2 ^ 15) : ofBits16 (toBits16 x) = x := by
  obtain ⟨neg, mag⟩ := x
  simp only at h
  unfold toBits16 ofBits16
  simp only [UInt16.toNat_ofNat', Fl.mk.injEq]
  cases neg
  · simp only [Bool.false_eq_true, if_false, Nat.add_zero]
    rw [Nat.mod_eq_of_lt (a := mag) (b := 2 ^ 16) (by omega)]
    refine ⟨?_, by omega⟩
    rw [Nat.testBit_eq_decide_div_mod_eq]
    simp only [decide_eq_false_iff_not]
    omega
  · simp only [if_true]
    rw [Nat.mod_eq_of_lt (a := mag + 2 ^ 15) (b := 2 ^ 16) (by omega)]
    refine ⟨?_, by omega⟩
    rw [Nat.testBit_eq_decide_div_mod_eq]
    simp only [decide_eq_true_eq]
    omega

/-- Every half float is a single float. -/
theorem half_to_single {x : Fl half} (hx : x.Fin) : ∃ a, a < single.inf ∧ x.convert single = ⟨x.neg, a⟩ ∧
    single.units a * 2 ^ half.scale = half.units x.mag * 2 ^ single.scale := by
  obtain ⟨k, m, e, h, hm⟩ := half.exists_split x.mag
  have hu := half.units_split k m h (Nat.le_of_lt hm)
  rw [← e] at hu
  obtain ⟨a, ha⟩ := single.exists_units (k + 125) m (Nat.le_trans (Nat.le_of_lt hm) (by decide))
  have hlt : half.units x.mag < 2 ^ 41 := by
    have h1 := half.units_strictMono (show x.mag < half.inf from hx)
    have h2 : half.units half.inf = 2 ^ 40 := by decide
    omega
  have he : single.units a * 2 ^ half.scale = half.units x.mag * 2 ^ single.scale := by
    rw [ha, hu, half_scale, single_scale, Nat.mul_assoc, ← Nat.pow_add, Nat.mul_assoc, ← Nat.pow_add]
  have hainf : a < single.inf := by
    rw [← single.units_strictMono.lt_iff_lt]
    have h3 : single.units a < 2 ^ 166 := by
      have h4 : single.units a * 2 ^ 24 < 2 ^ 166 * 2 ^ 24 := by
        rw [half_scale, single_scale] at he
        rw [he]
        calc half.units x.mag * 2 ^ 149 < 2 ^ 41 * 2 ^ 149 := Nat.mul_lt_mul_of_pos_right hlt (by decide)
          _ = 2 ^ 166 * 2 ^ 24 := by norm_num
      exact Nat.lt_of_mul_lt_mul_right h4
    have h5 : 2 ^ 166 ≤ single.units single.inf := by decide +kernel
    exact Nat.lt_of_lt_of_le h3 h5
  exact ⟨a, hainf, (Fl.convert_exact hx a hainf he).1, he⟩

theorem half_nan : ∀ k < 1024, ∀ s : Bool,
    toHalf (ofHalf (toBits16 ⟨s, half.inf ||| 0x200 ||| k⟩)) = toBits16 ⟨s, half.inf ||| 0x200 ||| k⟩ := by
  decide +kernel

theorem half_infinity : ∀ s : Bool, toHalf (ofHalf (toBits16 ⟨s, half.inf⟩)) = toBits16 ⟨s, half.inf⟩ := by
  decide +kernel

theorem half_fin {x : Fl half} (hx : x.Fin) : toHalf (ofHalf (toBits16 x)) = toBits16 x := by
  obtain ⟨a, ha, he, hu⟩ := half_to_single hx
  have hlt : x.mag < 2 ^ 15 := by unfold Fl.Fin at hx; rw [half_inf] at hx; omega
  have hfin : (⟨x.neg, a⟩ : Fl single).Fin := ha
  have e1 : ofHalf (toBits16 x) = toBits ⟨x.neg, a⟩ := by
    unfold ofHalf
    rw [ofBits16_toBits16 hlt]
    simp only [hx.not_nan, Bool.false_eq_true, if_false, he]
  rw [e1]
  unfold toHalf
  rw [hfin.ofBits_toBits]
  simp only [hfin.not_nan, Bool.false_eq_true, if_false]
  have := (Fl.convert_exact (G := half) hfin x.mag hx hu.symm).1
  rw [this]

theorem byte_stable : ∀ n < 256, toByte (ofByte (UInt8.ofNat n)) = UInt8.ofNat n := by decide +kernel

theorem stable : Stable conv where
  half x := by
    show toHalf (ofHalf (toHalf x)) = toHalf x
    generalize hy : toHalf x = y
    unfold toHalf at hy
    simp only at hy
    split at hy
    · subst hy
      refine half_nan _ ?_ _
      rw [Nat.shiftRight_eq_div_pow]
      omega
    · rename_i hn
      subst hy
      unfold Fl.convert
      rw [if_neg hn]
      split
      · exact half_infinity _
      · generalize hr : half.round _ _ = m
        have hle : m ≤ half.inf := hr ▸ half.round_le_inf _ _
        rcases Nat.lt_or_eq_of_le hle with h | h
        · exact half_fin (x := ⟨_, m⟩) h
        · rw [h]; exact half_infinity _
  byte x := by
    show toByte (ofByte (toByte x)) = toByte x
    have := byte_stable (toByte x).toNat (toByte x).toNat_lt
    rwa [UInt8.ofNat_toNat] at this

end Verif.Ieee
