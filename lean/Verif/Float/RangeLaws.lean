import Verif.Float.CompressLaws
/-!
# Decompressed values stay within the range
-/

namespace Verif.Ieee
namespace Fmt
variable (F : Fmt)

theorem roundRaw_of {n d k m : Nat} (hk : F.exponent n d = k) (h : roundDiv n (d * 2 ^ k) = m) :
    F.roundRaw n d = k * 2 ^ F.mb + m := by
  unfold roundRaw; rw [hk, h]

theorem exponent_of {n d k : Nat} (hd : 0 < d) (h1 : k = 0 ∨ d * 2 ^ (k + F.mb) ≤ n) (h2 : n < d * 2 ^ (k + F.mb + 1)) :
    F.exponent n d = k := by
  have h2' : n / d < 2 ^ (k + F.mb + 1) := (Nat.div_lt_iff_lt_mul hd).mpr (by rw [Nat.mul_comm]; exact h2)
  unfold exponent
  by_cases h0 : n / d = 0
  · rw [h0]
    rcases h1 with rfl | h1
    · simp
    · have : 2 ^ (k + F.mb) ≤ n / d := (Nat.le_div_iff_mul_le hd).mpr (by rw [Nat.mul_comm]; exact h1)
      have := Nat.two_pow_pos (k + F.mb)
      omega
  have hup : Nat.log2 (n / d) < k + F.mb + 1 := (Nat.log2_lt h0).mpr h2'
  rcases h1 with rfl | h1
  · omega
  · have : 2 ^ (k + F.mb) ≤ n / d := (Nat.le_div_iff_mul_le hd).mpr (by rw [Nat.mul_comm]; exact h1)
    have := (Nat.le_log2 h0).mpr this
    omega

theorem roundDiv_plus (m k : Nat) : roundDiv ((8 * m + 1) * 2 ^ k) (8 * 2 ^ k) = m := by
  have hp := Nat.two_pow_pos k
  apply Nat.le_antisymm
  · have h := (roundDiv_near (n := (8 * m + 1) * 2 ^ k) (d := 8 * 2 ^ k) (by omega)).1
    generalize roundDiv _ _ = r at *
    generalize 2 ^ k = p at *
    by_contra hc
    have : (m + 1) * (8 * p) ≤ r * (8 * p) := Nat.mul_le_mul_right _ (by omega)
    nlinarith
  · apply roundDiv_ge (by omega)
    nlinarith

theorem roundDiv_minus (m k : Nat) (hm : 0 < m) : roundDiv ((8 * m - 1) * 2 ^ k) (8 * 2 ^ k) = m := by
  have hp := Nat.two_pow_pos k
  obtain ⟨j, rfl⟩ : ∃ j, m = j + 1 := ⟨m - 1, by omega⟩
  rw [show 8 * (j + 1) - 1 = 8 * j + 7 by omega]
  apply Nat.le_antisymm
  · apply roundDiv_le (by omega)
    nlinarith
  · have h := (roundDiv_near (n := (8 * j + 7) * 2 ^ k) (d := 8 * 2 ^ k) (by omega)).2
    generalize roundDiv _ _ = r at *
    generalize 2 ^ k = p at *
    by_contra hc
    have : r * (8 * p) ≤ j * (8 * p) := Nat.mul_le_mul_right _ (by omega)
    nlinarith

theorem round_plus {k m : Nat} (h : k = 0 ∨ 2 ^ F.mb ≤ m) (hm : m < 2 ^ (F.mb + 1)) :
    F.roundRaw ((8 * m + 1) * 2 ^ k) 8 = k * 2 ^ F.mb + m := by
  refine F.roundRaw_of (F.exponent_of (by decide) ?_ ?_) (roundDiv_plus m k)
  · refine h.imp_right fun h => ?_
    rw [Nat.pow_add]
    generalize 2 ^ k = p at *
    nlinarith
  · rw [show k + F.mb + 1 = k + (F.mb + 1) by omega, Nat.pow_add]
    have hp := Nat.two_pow_pos k
    generalize 2 ^ k = p at *
    generalize 2 ^ (F.mb + 1) = q at *
    have : (m + 1) * p ≤ q * p := Nat.mul_le_mul_right _ hm
    nlinarith

theorem round_minus {k m : Nat} (h : k = 0 ∨ 2 ^ F.mb ≤ m) (hm : m < 2 ^ (F.mb + 1)) (h0 : 0 < m) :
    F.roundRaw ((8 * m - 1) * 2 ^ k) 8 = k * 2 ^ F.mb + m := by
  by_cases hc : k ≠ 0 ∧ m = 2 ^ F.mb
  · obtain ⟨hk, rfl⟩ := hc
    obtain ⟨j, rfl⟩ : ∃ j, k = j + 1 := ⟨k - 1, by omega⟩
    have e : (8 * 2 ^ F.mb - 1) * 2 ^ (j + 1) = (16 * 2 ^ F.mb - 2) * 2 ^ j := by
      rw [Nat.pow_succ, Nat.mul_comm (2 ^ j) 2, ← Nat.mul_assoc]
      congr 1
      omega
    have hb := Nat.two_pow_pos F.mb
    have hp := Nat.two_pow_pos j
    rw [e, F.roundRaw_of (k := j) (m := 2 ^ (F.mb + 1)), Nat.pow_succ]
    · ring
    · apply F.exponent_of (by decide)
      · right
        rw [Nat.pow_add, Nat.mul_comm (2 ^ j), ← Nat.mul_assoc]
        exact Nat.mul_le_mul_right _ (by omega)
      · rw [show j + F.mb + 1 = F.mb + 1 + j by omega, Nat.pow_add, ← Nat.mul_assoc]
        exact Nat.mul_lt_mul_of_pos_right (by rw [Nat.pow_succ]; omega) hp
    · apply Nat.le_antisymm
      · apply roundDiv_le (by omega)
        rw [← Nat.mul_assoc]
        exact Nat.mul_le_mul_right _ (by rw [Nat.pow_succ]; omega)
      · have h := (roundDiv_near (n := (16 * 2 ^ F.mb - 2) * 2 ^ j) (d := 8 * 2 ^ j) (by omega)).2
        have e2 : 2 ^ (F.mb + 1) = 2 * 2 ^ F.mb := by rw [Nat.pow_succ]; omega
        rw [e2]
        generalize roundDiv _ _ = r at *
        generalize 2 ^ F.mb = b at *
        obtain ⟨i, rfl⟩ : ∃ i, b = i + 1 := ⟨b - 1, by omega⟩
        rw [show 16 * (i + 1) - 2 = 16 * i + 14 by omega] at h
        generalize 2 ^ j = p at *
        by_contra hc
        have : r * (8 * p) ≤ (2 * i + 1) * (8 * p) := Nat.mul_le_mul_right _ (by omega)
        nlinarith
  · refine F.roundRaw_of (F.exponent_of (by decide) ?_ ?_) (roundDiv_minus m k h0)
    · rcases h with h | h
      · exact .inl h
      · by_cases hk : k = 0
        · exact .inl hk
        · right
          have : 2 ^ F.mb ≠ m := fun e => hc ⟨hk, e.symm⟩
          rw [Nat.pow_add, Nat.mul_comm (2 ^ k), ← Nat.mul_assoc]
          exact Nat.mul_le_mul_right _ (by omega)
    · rw [show k + F.mb + 1 = F.mb + 1 + k by omega, Nat.pow_add, ← Nat.mul_assoc]
      exact Nat.mul_lt_mul_of_pos_right (by omega) (Nat.two_pow_pos k)

/-- Numbers slightly above a float are rounded to it, or to a smaller one. -/
theorem round_le_near {n d a : Nat} (hd : 0 < d) (ha : a ≤ F.inf)
    (h : 8 * 2 ^ (F.mb + 1) * n ≤ (8 * 2 ^ (F.mb + 1) + 1) * (F.units a * d)) : F.round n d ≤ a := by
  obtain ⟨k, m, rfl, hk, hm⟩ := F.exists_split a
  rw [F.units_split k m hk (by omega)] at h
  have : n * 8 ≤ (8 * m + 1) * 2 ^ k * d := by
    have hp := Nat.two_pow_pos k
    have hq := Nat.two_pow_pos (F.mb + 1)
    generalize 2 ^ (F.mb + 1) = q at *
    generalize 2 ^ k = p at *
    refine Nat.le_of_mul_le_mul_left ?_ hq
    have h1 : m * (p * d) ≤ q * (p * d) := Nat.mul_le_mul_right _ (by omega)
    nlinarith
  have h2 := F.roundRaw_mono hd (by decide) this
  rw [F.round_plus hk hm] at h2
  rw [round_eq]
  omega

/-- Numbers slightly below a float are rounded to it, or to a larger one. -/
theorem le_round_near {n d a : Nat} (hd : 0 < d) (ha : a ≤ F.inf)
    (h : (8 * 2 ^ (F.mb + 1) - 1) * (F.units a * d) ≤ 8 * 2 ^ (F.mb + 1) * n) : a ≤ F.round n d := by
  obtain ⟨k, m, rfl, hk, hm⟩ := F.exists_split a
  by_cases h0 : m = 0
  · rcases hk with rfl | hk
    · subst h0; omega
    · have := Nat.two_pow_pos F.mb
      omega
  rw [F.units_split k m hk (by omega)] at h
  have : (8 * m - 1) * 2 ^ k * d ≤ n * 8 := by
    have hp := Nat.two_pow_pos k
    have hq := Nat.two_pow_pos (F.mb + 1)
    generalize 2 ^ (F.mb + 1) = q at *
    generalize 2 ^ k = p at *
    obtain ⟨j, rfl⟩ : ∃ j, m = j + 1 := ⟨m - 1, by omega⟩
    obtain ⟨i, rfl⟩ : ∃ i, q = i + 1 := ⟨q - 1, by omega⟩
    rw [show 8 * (j + 1) - 1 = 8 * j + 7 by omega]
    rw [show 8 * (i + 1) - 1 = 8 * i + 7 by omega] at h
    refine Nat.le_of_mul_le_mul_left ?_ hq
    have h1 : j * (p * d) ≤ i * (p * d) := Nat.mul_le_mul_right _ (by omega)
    nlinarith
  have h2 := F.roundRaw_mono (by decide) hd this
  rw [F.round_minus hk hm (by omega)] at h2
  rw [round_eq]
  omega
end Fmt

namespace Fl
variable {F : Fmt}

theorem convert_mag {G : Fmt} {x : Fl F} (hx : x.Fin) :
    x.convert G = ⟨x.neg, G.round (F.units x.mag * 2 ^ G.scale) (2 ^ F.scale)⟩ := by
  unfold convert
  simp only [hx.not_nan, hx.not_inf, Bool.false_eq_true, if_false]

theorem convert_le_near {G : Fmt} {x : Fl F} {w : Fl G} (hx : x.Fin) (hw : w.Fin)
    (h : |x.val| ≤ |w.val| * (1 + 1 / (8 * 2 ^ (G.mb + 1)))) : |(x.convert G).val| ≤ |w.val| := by
  apply abs_le_of_mag_le
  rw [convert_mag hx]
  apply G.round_le_near (Nat.two_pow_pos _) (Nat.le_of_lt hw)
  rw [abs_val, abs_val] at h
  have hf : (0 : ℚ) < 2 ^ F.scale := by positivity
  have hg : (0 : ℚ) < 2 ^ G.scale := by positivity
  have hq : (0 : ℚ) < 2 ^ (G.mb + 1) := by positivity
  have : (8 * 2 ^ (G.mb + 1) * (F.units x.mag * 2 ^ G.scale) : ℚ) ≤
      (8 * 2 ^ (G.mb + 1) + 1) * (G.units w.mag * 2 ^ F.scale) := by
    generalize (2 : ℚ) ^ F.scale = f at *
    generalize (2 : ℚ) ^ G.scale = g at *
    generalize (2 : ℚ) ^ (G.mb + 1) = q at *
    have e : (G.units w.mag : ℚ) / g * (1 + 1 / (8 * q)) = (8 * q + 1) * G.units w.mag / (g * (8 * q)) := by
      field_simp
    rw [e, div_le_div_iff₀ hf (by positivity)] at h
    linarith
  exact_mod_cast this

theorem le_convert_near {G : Fmt} {x : Fl F} {w : Fl G} (hx : x.Fin) (hw : w.Fin)
    (h : |w.val| * (1 - 1 / (8 * 2 ^ (G.mb + 1))) ≤ |x.val|) : |w.val| ≤ |(x.convert G).val| := by
  apply abs_le_of_mag_le
  rw [convert_mag hx]
  apply G.le_round_near (Nat.two_pow_pos _) (Nat.le_of_lt hw)
  rw [abs_val, abs_val] at h
  have hf : (0 : ℚ) < 2 ^ F.scale := by positivity
  have hg : (0 : ℚ) < 2 ^ G.scale := by positivity
  have hq : (0 : ℚ) < 2 ^ (G.mb + 1) := by positivity
  have : ((8 * 2 ^ (G.mb + 1) - 1) * (G.units w.mag * 2 ^ F.scale) : ℚ) ≤
      8 * 2 ^ (G.mb + 1) * (F.units x.mag * 2 ^ G.scale) := by
    generalize (2 : ℚ) ^ F.scale = f at *
    generalize (2 : ℚ) ^ G.scale = g at *
    generalize (2 : ℚ) ^ (G.mb + 1) = q at *
    have e : (G.units w.mag : ℚ) / g * (1 - 1 / (8 * q)) = (8 * q - 1) * G.units w.mag / (g * (8 * q)) := by
      field_simp
    rw [e, div_le_div_iff₀ (by positivity) hf] at h
    linarith
  have h1 : 1 ≤ 8 * 2 ^ (G.mb + 1) := by have := Nat.two_pow_pos (G.mb + 1); omega
  have h2 : ((8 * 2 ^ (G.mb + 1) - 1 : Nat) : ℚ) = 8 * 2 ^ (G.mb + 1) - 1 := by
    rw [Nat.cast_sub h1]; push_cast; ring
  rw [← h2] at this
  exact_mod_cast this

theorem sign_keep (s : Bool) {c c' : ℚ} (h : 0 ≤ c) (h' : 0 ≤ c') (hz : c' = 0 → c = 0) :
    (0 ≤ sg s * c' → 0 ≤ sg s * c) ∧ (sg s * c' ≤ 0 → sg s * c ≤ 0) := by
  cases s with
  | false => simp only [sg, Bool.false_eq_true, if_false, one_mul]
             exact ⟨fun _ => h, fun h1 => (hz (le_antisymm h1 h')).le⟩
  | true =>
    simp only [sg, if_true, neg_one_mul]
    exact ⟨fun h1 => by rw [hz (by linarith)]; simp, fun _ => by linarith⟩

theorem convert_sign {G : Fmt} {x : Fl F} (hx : x.Fin) :
    (0 ≤ x.val → 0 ≤ (x.convert G).val) ∧ (x.val ≤ 0 → (x.convert G).val ≤ 0) := by
  rw [convert_mag hx]
  refine sign_keep x.neg (by positivity) (by positivity) fun h => ?_
  rw [div_eq_zero_iff] at h
  have h0 : F.units x.mag = 0 := by
    rcases h with h | h
    · exact_mod_cast h
    · exact absurd h (by positivity)
  rw [h0, Nat.zero_mul, G.round_zero _ (Nat.two_pow_pos _)]
  simp

theorem mul_sign {x y : Fl F} (hx : x.Fin) (hy : y.Fin) :
    (0 ≤ x.val * y.val → 0 ≤ (x.mul y).val) ∧ (x.val * y.val ≤ 0 → (x.mul y).val ≤ 0) := by
  have e : x.mul y = ⟨x.neg != y.neg, F.round (F.units x.mag * F.units y.mag) (2 ^ F.scale)⟩ := by
    unfold mul
    simp only [hx.not_nan, hy.not_nan, hx.not_inf, hy.not_inf, Bool.or_self, Bool.false_eq_true, if_false]
  have e2 : x.val * y.val =
      sg (x.neg != y.neg) * (((F.units x.mag * F.units y.mag : Nat) : ℚ) / (2 ^ F.scale * 2 ^ F.scale)) := by
    rw [val, val, sg_bne]; push_cast; field_simp
  rw [e, e2]
  refine sign_keep _ (by positivity) (by positivity) fun h => ?_
  rw [div_eq_zero_iff] at h
  have h0 : F.units x.mag * F.units y.mag = 0 := by
    rcases h with h | h
    · exact_mod_cast h
    · exact absurd h (by positivity)
  simp only [h0, F.round_zero _ (Nat.two_pow_pos _)]
  simp

theorem add_le {x y w : Fl F} (hx : x.Fin) (hy : y.Fin) (hw : w.Fin) (h : |x.val + y.val| ≤ |w.val|) :
    |(x.add y).val| ≤ |w.val| := by
  have := sub_le hx hy.neg' hw (by rw [val_neg', sub_neg_eq_add]; exact h)
  unfold sub at this
  rwa [show y.neg'.neg' = y by unfold neg'; simp] at this

theorem add_sign {x y : Fl F} (hx : x.Fin) (hy : y.Fin) (hb : |x.val + y.val| < F.limit) (he : 2 ≤ F.eb) :
    (0 ≤ x.val + y.val → 0 ≤ (x.add y).val) ∧ (x.val + y.val ≤ 0 → (x.add y).val ≤ 0) := by
  obtain ⟨_, h⟩ := add_error hx hy hb he
  have he1 : F.eps ≤ 1 := by
    unfold Fmt.eps
    rw [div_le_one (by positivity)]
    exact one_le_pow₀ (by norm_num)
  have h1 : |x.val + y.val| * F.eps ≤ |x.val + y.val| := mul_le_of_le_one_right (abs_nonneg _) he1
  obtain ⟨h2, h3⟩ := abs_le.mp (h.trans h1)
  constructor
  · intro h; rw [abs_of_nonneg h] at h2; linarith
  · intro h; rw [abs_of_nonpos h] at h3; linarith

/-- A number slightly outside the range of two floats is rounded into the range. -/
theorem convert_between {G : Fmt} {x : Fl F} {lo hi : Fl G} (hx : x.Fin) (hl : lo.Fin) (hh : hi.Fin)
    (h1 : lo.val - |lo.val| * (1 / (8 * 2 ^ (G.mb + 1))) ≤ x.val)
    (h2 : x.val ≤ hi.val + |hi.val| * (1 / (8 * 2 ^ (G.mb + 1)))) :
    lo.val ≤ (x.convert G).val ∧ (x.convert G).val ≤ hi.val := by
  obtain ⟨s1, s2⟩ := convert_sign (G := G) hx
  have a1 := convert_le_near (w := lo) (G := G) hx hl
  have a2 := le_convert_near (w := lo) (G := G) hx hl
  have b1 := convert_le_near (w := hi) (G := G) hx hh
  have b2 := le_convert_near (w := hi) (G := G) hx hh
  have d0 : (0 : ℚ) ≤ 1 / (8 * 2 ^ (G.mb + 1)) := by positivity
  have d1 : (1 : ℚ) / (8 * 2 ^ (G.mb + 1)) ≤ 1 := by
    rw [div_le_one (by positivity)]
    have : (1 : ℚ) ≤ 2 ^ (G.mb + 1) := one_le_pow₀ (by norm_num)
    linarith
  generalize (1 : ℚ) / (8 * 2 ^ (G.mb + 1)) = δ at *
  generalize (x.convert G).val = c at *
  generalize lo.val = l at *
  generalize hi.val = h at *
  generalize x.val = v at *
  constructor
  · rcases le_total l 0 with hl0 | hl0
    · rcases le_total 0 v with hv | hv
      · exact hl0.trans (s1 hv)
      · rw [abs_of_nonpos hl0] at a1 h1
        rw [abs_of_nonpos hv] at a1
        have := abs_le.mp (a1 (by linarith))
        linarith
    · rw [abs_of_nonneg hl0] at a2 h1
      have hv : 0 ≤ v := by nlinarith
      rw [abs_of_nonneg hv, abs_of_nonneg (s1 hv)] at a2
      exact a2 (by linarith)
  · rcases le_total 0 h with hh0 | hh0
    · rcases le_total v 0 with hv | hv
      · exact (s2 hv).trans hh0
      · rw [abs_of_nonneg hh0] at b1 h2
        rw [abs_of_nonneg hv] at b1
        have := abs_le.mp (b1 (by linarith))
        linarith
    · rw [abs_of_nonpos hh0] at b2 h2
      have hv : v ≤ 0 := by nlinarith
      rw [abs_of_nonpos hv, abs_of_nonpos (s2 hv)] at b2
      linarith [b2 (by linarith)]

end Fl

theorem lerp_rel {A B t u p r z w : ℚ} (hA : 0 ≤ A) (hB : 0 ≤ B) (ht0 : 0 ≤ t) (ht1 : t ≤ 1) (w0 : 0 ≤ w)
    (eu : |u - (1 - t)| ≤ (1 - t) * (1 / 2 ^ 53)) (ep : |p - A * u| ≤ |A * u| * (1 / 2 ^ 53) + w)
    (er : |r - B * t| ≤ |B * t| * (1 / 2 ^ 53) + w) (ez : |z - (p + r)| ≤ |p + r| * (1 / 2 ^ 53)) :
    |z - (A * (1 - t) + B * t)| ≤ (A * (1 - t) + B * t) / 2 ^ 50 + 3 * w := by
  have hX : 0 ≤ A * (1 - t) := mul_nonneg hA (by linarith)
  have hY : 0 ≤ B * t := mul_nonneg hB ht0
  have ea : |A * u - A * (1 - t)| ≤ A * (1 - t) * (1 / 2 ^ 53) := by
    rw [← mul_sub, abs_mul, abs_of_nonneg hA, mul_assoc]
    exact mul_le_mul_of_nonneg_left eu hA
  rw [abs_of_nonneg hY] at er
  generalize A * (1 - t) = X at *
  generalize B * t = Y at *
  generalize A * u = a at *
  obtain ⟨a1, a2⟩ := abs_le.mp ea
  have ha : 0 ≤ a := by norm_num at *; linarith
  rw [abs_of_nonneg ha] at ep
  obtain ⟨p1, p2⟩ := abs_le.mp ep
  obtain ⟨r1, r2⟩ := abs_le.mp er
  have hpr : |p + r| ≤ 2 * X + 2 * Y + 2 * w := by
    rw [abs_le]; norm_num at *; constructor <;> linarith
  have h1 : |p + r| * (1 / 2 ^ 53) ≤ (2 * X + 2 * Y + 2 * w) * (1 / 2 ^ 53) :=
    mul_le_mul_of_nonneg_right hpr (by norm_num)
  obtain ⟨z1, z2⟩ := abs_le.mp (ez.trans h1)
  rw [abs_le]
  norm_num at *
  constructor <;> linarith

theorem lerp_range {L H t u p r z w : ℚ} (hLH : L ≤ H) (hs : 0 ≤ L ∨ H ≤ 0) (ht0 : 0 ≤ t) (ht1 : t ≤ 1)
    (w0 : 0 ≤ w) (eu : |u - (1 - t)| ≤ (1 - t) * (1 / 2 ^ 53)) (ep : |p - L * u| ≤ |L * u| * (1 / 2 ^ 53) + w)
    (er : |r - H * t| ≤ |H * t| * (1 / 2 ^ 53) + w) (ez : |z - (p + r)| ≤ |p + r| * (1 / 2 ^ 53)) :
    L - |L| / 2 ^ 50 - 3 * w ≤ z ∧ z ≤ H + |H| / 2 ^ 50 + 3 * w := by
  have hD1 : L ≤ L * (1 - t) + H * t := by nlinarith
  have hD2 : L * (1 - t) + H * t ≤ H := by nlinarith
  rcases hs with hs | hs
  · have h := lerp_rel hs (hs.trans hLH) ht0 ht1 w0 eu ep er ez
    rw [abs_of_nonneg hs, abs_of_nonneg (hs.trans hLH)]
    generalize L * (1 - t) + H * t = D at *
    obtain ⟨h1, h2⟩ := abs_le.mp h
    constructor <;> linarith
  · have hL := hLH.trans hs
    have h := lerp_rel (A := -L) (B := -H) (p := -p) (r := -r) (z := -z) (by linarith) (by linarith) ht0 ht1 w0 eu
      (by rw [neg_mul, abs_neg, neg_sub_neg, abs_sub_comm]; exact ep)
      (by rw [neg_mul, abs_neg, neg_sub_neg, abs_sub_comm]; exact er)
      (by rw [← neg_add, abs_neg, neg_sub_neg, abs_sub_comm]; exact ez)
    rw [abs_of_nonpos hs, abs_of_nonpos hL]
    have e : -L * (1 - t) + -H * t = -(L * (1 - t) + H * t) := by ring
    rw [e] at h
    generalize L * (1 - t) + H * t = D at *
    obtain ⟨h1, h2⟩ := abs_le.mp h
    constructor <;> linarith

theorem double_tiny_small : double.tiny ≤ 1 / 2 ^ 200 := by
  rw [Fmt.tiny, double_scale]
  exact one_div_le_one_div_of_le (by norm_num) (pow_le_pow_right₀ (by norm_num) (by norm_num))

/-- Floats other than zero are not too small. -/
theorem single_pos {x : Fl single} (h : x.val ≠ 0) : 1 / 2 ^ 149 ≤ |x.val| := by
  rw [Fl.abs_val, single_scale]
  have : 0 < single.units x.mag := single.units_pos (Nat.pos_of_ne_zero (Fl.val_ne_zero h))
  have : (1 : ℚ) ≤ single.units x.mag := by exact_mod_cast this
  gcongr

/-- The interpolation in `f64`. -/
theorem lerp_between {lo hi : Fl single} (fl : lo.Fin) (fh : hi.Fin) (hlh : lo.val ≤ hi.val) (c : Nat)
    (hc : c ≤ 16777215) :
    lo.val - |lo.val| * (1 / (8 * 2 ^ 24)) ≤
        (decompressIn (floats double) c (lo.convert double) (hi.convert double) 24).val ∧
      (decompressIn (floats double) c (lo.convert double) (hi.convert double) 24).val ≤
        hi.val + |hi.val| * (1 / (8 * 2 ^ 24)) := by
  obtain ⟨fl', vl, _⟩ := to_double fl
  obtain ⟨fh', vh, _⟩ := to_double fh
  have hM : single.big ≤ 2 ^ 128 := by rw [single_big_eq]; norm_num
  have hl : |lo.val| ≤ 2 ^ 128 := fl.abs_le_big.trans hM
  have hh : |hi.val| ≤ 2 ^ 128 := fh.abs_le_big.trans hM
  have hl0 : lo.val ≠ 0 → 1 / 2 ^ 149 ≤ |lo.val| := single_pos
  have hh0 : hi.val ≠ 0 → 1 / 2 ^ 149 ≤ |hi.val| := single_pos
  have hS : bitMask 24 = 16777215 := by decide
  rw [decompressIn_floats, hS]
  rw [← vl] at hl hl0 hlh ⊢
  rw [← vh] at hh hh0 hlh ⊢
  generalize lo.convert double = l at *
  generalize hi.convert double = h at *
  obtain ⟨fS, vS⟩ := double_ofNat (n := 16777215) (by decide)
  obtain ⟨f1, v1⟩ := double_ofNat (n := 1) (by decide)
  obtain ⟨fc, vc⟩ := double_ofNat (n := c) (by omega)
  have hcq : (c : ℚ) ≤ 16777215 := by exact_mod_cast hc
  have hq0 : 0 ≤ (c : ℚ) / 16777215 := by positivity
  have hq1 : (c : ℚ) / 16777215 ≤ 1 := by rw [div_le_one (by norm_num)]; exact hcq
  have hlim := double_limit_gt
  have h200 : (2 ^ 128 : ℚ) * 4 ≤ 2 ^ 200 := by norm_num
  have hone : (1 : ℚ) ≤ 2 ^ 128 := by norm_num
  have vS' : (Fl.ofNat 16777215 : Fl double).val = 16777215 := by rw [vS]; norm_num
  have v1' : (Fl.ofNat 1 : Fl double).val = 1 := by rw [v1]; norm_num
  -- t
  have ft := (Fl.div_error fc fS (by rw [vS']; norm_num) (by rw [vS', vc, abs_of_nonneg hq0]; linarith) double_eb).1
  have ht1 := Fl.div_le fc fS f1 (by rw [vS']; norm_num) (by rw [vS', vc, v1', abs_of_nonneg hq0]; simpa using hq1)
  rw [v1', abs_one] at ht1
  have ht0 : 0 ≤ ((Fl.ofNat c : Fl double).div (Fl.ofNat 16777215)).val :=
    Fl.div_nonneg fc fS (by rw [vS']; norm_num) rfl
  generalize (Fl.ofNat c : Fl double).div (Fl.ofNat 16777215) = t at *
  rw [abs_of_nonneg ht0] at ht1
  -- 1 - t
  have h1t : |(Fl.ofNat 1 : Fl double).val - t.val| ≤ 1 := by rw [v1', abs_le]; constructor <;> linarith
  obtain ⟨fu, eu⟩ := Fl.sub_error f1 ft (by linarith) double_eb
  have hu1 := Fl.sub_le f1 ft f1 (by rw [v1', abs_one]; rw [v1'] at h1t; exact h1t)
  rw [v1', abs_one] at hu1
  rw [v1', double_eps, abs_of_nonneg (by linarith : 0 ≤ 1 - t.val)] at eu
  generalize (Fl.ofNat 1 : Fl double).sub t = u at *
  have hu0 : 0 ≤ u.val := by
    have := (abs_le.mp eu).1
    have h2 : (1 - t.val) * (1 / 2 ^ 53) ≤ 1 - t.val := mul_le_of_le_one_right (by linarith) (by norm_num)
    linarith
  rw [abs_of_nonneg hu0] at hu1
  have hlu : |l.val * u.val| ≤ |l.val| := by
    rw [abs_mul, abs_of_nonneg hu0]; exact mul_le_of_le_one_right (abs_nonneg _) hu1
  have hht : |h.val * t.val| ≤ |h.val| := by
    rw [abs_mul, abs_of_nonneg ht0]; exact mul_le_of_le_one_right (abs_nonneg _) ht1
  obtain ⟨fp, ep⟩ := Fl.mul_error fl' fu (by linarith) double_eb
  obtain ⟨fr, er⟩ := Fl.mul_error fh' ft (by linarith) double_eb
  have hp := Fl.mul_le fl' fu fl' hlu
  have hr := Fl.mul_le fh' ft fh' hht
  obtain ⟨sp1, sp2⟩ := Fl.mul_sign fl' fu
  obtain ⟨sr1, sr2⟩ := Fl.mul_sign fh' ft
  rw [double_eps] at ep er
  generalize l.mul u = p at *
  generalize h.mul t = r at *
  have hpr : |p.val + r.val| < double.limit := by
    have := abs_add_le p.val r.val
    linarith
  obtain ⟨_, ez⟩ := Fl.add_error fp fr hpr double_eb
  rw [double_eps] at ez
  have w0 : 0 < double.tiny := double.tiny_pos
  have w1 := double_tiny_small
  by_cases hs : 0 < l.val ∨ h.val < 0
  · obtain ⟨z1, z2⟩ := lerp_range hlh (hs.imp le_of_lt le_of_lt) ht0 ht1 w0.le eu
      (ep.trans (max_le_add_of_nonneg (by positivity) w0.le)) (er.trans (max_le_add_of_nonneg (by positivity) w0.le)) ez
    have hl1 := hl0 (by rcases hs with hs | hs <;> [exact hs.ne'; exact (hlh.trans_lt hs).ne])
    have hh1 := hh0 (by rcases hs with hs | hs <;> [exact (hs.trans_le hlh).ne'; exact hs.ne])
    norm_num at *
    constructor <;> linarith
  · obtain ⟨hL, hH⟩ := not_or.mp hs
    rw [not_lt] at hL hH
    have p0 := sp2 (mul_nonpos_of_nonpos_of_nonneg hL hu0)
    have r0 := sr1 (mul_nonneg hH ht0)
    have p1 := (abs_le.mp hp).1
    have r1 := (abs_le.mp hr).2
    rw [abs_of_nonpos hL] at p1
    rw [abs_of_nonneg hH] at r1
    obtain ⟨s1, s2⟩ := Fl.add_sign fp fr hpr double_eb
    have q1 : 0 ≤ |l.val| * (1 / (8 * 2 ^ 24)) := by positivity
    have q2 : 0 ≤ |h.val| * (1 / (8 * 2 ^ 24)) := by positivity
    rcases le_total 0 (p.val + r.val) with hz | hz
    · have := Fl.add_le fp fr fh' (by rw [abs_of_nonneg hz, abs_of_nonneg hH]; linarith)
      have := (abs_le.mp this).2
      rw [abs_of_nonneg hH] at this
      have := s1 hz
      constructor <;> linarith
    · have := Fl.add_le fp fr fl' (by rw [abs_of_nonpos hz, abs_of_nonpos hL]; linarith)
      have := (abs_le.mp this).1
      rw [abs_of_nonpos hL] at this
      have := s2 hz
      constructor <;> linarith

/-- Decompressed values stay between the smallest and the largest value. -/
theorem decompress_range {lo hi : Fl single} (fl : lo.Fin) (fh : hi.Fin) (hlh : lo.val ≤ hi.val) (c : Nat)
    (hc : c ≤ 16777215) :
    lo.val ≤ ((decompressIn (floats double) c (lo.convert double) (hi.convert double) 24).convert single).val ∧
      ((decompressIn (floats double) c (lo.convert double) (hi.convert double) 24).convert single).val ≤ hi.val := by
  obtain ⟨fl', vl, _⟩ := to_double fl
  obtain ⟨fh', vh, _⟩ := to_double fh
  have hM : single.big ≤ 2 ^ 128 := by rw [single_big_eq]; norm_num
  have hl : |lo.val| ≤ 2 ^ 128 := fl.abs_le_big.trans hM
  have hh : |hi.val| ≤ 2 ^ 128 := fh.abs_le_big.trans hM
  have fz := (lerp_error fl' fh' (2 ^ 128) (by rw [vl]; exact hl) (by rw [vh]; exact hh) le_rfl c hc).1
  obtain ⟨z1, z2⟩ := lerp_between fl fh hlh c hc
  exact Fl.convert_between fz fl fh z1 z2

end Verif.Ieee
