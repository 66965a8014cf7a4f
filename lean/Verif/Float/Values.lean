import Verif.Float.Laws
/-!
# Values of floats and the error of the operations
-/

namespace Verif.Ieee

namespace Fmt
variable (F : Fmt)

/-- Half of the distance from 1 to the next float. -/
def eps : ℚ := 1 / 2 ^ (F.mb + 1)
/-- Half of the smallest positive float. -/
def tiny : ℚ := 1 / 2 ^ (F.scale + 1)
/-- The largest finite float. -/
def big : ℚ := F.units (F.inf - 1) / 2 ^ F.scale
/-- Half way from the largest finite float to the next one, had the exponent no limit: smaller numbers are rounded to
finite floats. -/
def limit : ℚ := (F.units F.inf - 2 ^ (2 ^ F.eb - 3) / 2) / 2 ^ F.scale

theorem eps_pos : 0 < F.eps := by unfold eps; positivity
theorem tiny_pos : 0 < F.tiny := by unfold tiny; positivity

theorem exists_units : ∀ (j m : Nat), m ≤ 2 ^ (F.mb + 1) → ∃ a, F.units a = m * 2 ^ j
  | 0, m, hm => ⟨m, by simpa using F.units_split 0 m (.inl rfl) hm⟩
  | j + 1, m, hm => by
    rcases Nat.lt_or_ge m (2 ^ F.mb) with h | h
    · obtain ⟨a, ha⟩ := exists_units j (2 * m) (by rw [Nat.pow_succ]; omega)
      exact ⟨a, by rw [ha, Nat.pow_succ]; ring⟩
    · exact ⟨_, F.units_split (j + 1) m (.inr h) hm⟩

theorem units_inf (he : 2 ≤ F.eb) : F.units F.inf = 2 ^ (2 ^ F.eb - 2 + F.mb) := by
  have h4 : 4 ≤ 2 ^ F.eb := by
    have := Nat.pow_le_pow_right (n := 2) (by decide) he
    omega
  have : F.inf = (2 ^ F.eb - 2) * 2 ^ F.mb + 2 ^ F.mb := by
    unfold inf
    rw [show 2 ^ F.eb - 1 = (2 ^ F.eb - 2) + 1 by omega, Nat.add_mul]
    omega
  rw [this, F.units_split _ _ (.inr (Nat.le_refl _)) (by rw [Nat.pow_succ]; omega), ← Nat.pow_add, Nat.add_comm]

theorem units_big (he : 2 ≤ F.eb) : F.units (F.inf - 1) + 2 ^ (2 ^ F.eb - 3) = F.units F.inf := by
  have h4 : 4 ≤ 2 ^ F.eb := by
    have := Nat.pow_le_pow_right (n := 2) (by decide) he
    omega
  have hp : 0 < 2 ^ F.mb := Nat.two_pow_pos _
  have h1 : F.inf - 1 = (2 ^ F.eb - 3) * 2 ^ F.mb + (2 ^ (F.mb + 1) - 1) := by
    unfold inf
    rw [show 2 ^ F.eb - 1 = (2 ^ F.eb - 3) + 2 by omega, Nat.add_mul, Nat.pow_succ]
    omega
  rw [h1, F.units_split _ _ (.inr (by rw [Nat.pow_succ]; omega)) (by omega), F.units_inf he, Nat.sub_mul, Nat.one_mul,
    show 2 ^ F.eb - 2 + F.mb = (F.mb + 1) + (2 ^ F.eb - 3) by omega, Nat.pow_add 2 (F.mb + 1)]
  have : 2 ^ (2 ^ F.eb - 3) ≤ 2 ^ (F.mb + 1) * 2 ^ (2 ^ F.eb - 3) := Nat.le_mul_of_pos_left _ (Nat.two_pow_pos _)
  omega

theorem big_lt_limit (he : 2 ≤ F.eb) : F.big < F.limit := by
  unfold big limit
  rw [← F.units_big he]
  push_cast
  have : (0 : ℚ) < 2 ^ (2 ^ F.eb - 3) := by positivity
  gcongr
  linarith

theorem inf_pos (he : 2 ≤ F.eb) : 0 < F.inf := by
  have := Nat.pow_le_pow_right (n := 2) (by decide) he
  exact Nat.mul_pos (by omega) (Nat.two_pow_pos _)

end Fmt

/-- The factor of a sign. -/
def sg (neg : Bool) : ℚ := if neg then -1 else 1

theorem abs_sg_mul (b : Bool) (q : ℚ) : |sg b * q| = |q| := by
  cases b <;> simp [sg]

theorem sg_bne (a b : Bool) : sg (a != b) = sg a * sg b := by
  cases a <;> cases b <;> simp [sg]

theorem sg_not (a : Bool) : sg (!a) = - sg a := by cases a <;> simp [sg]

namespace Fl
variable {F : Fmt}

/-- Finite: not infinite and not a NaN. -/
def Fin (x : Fl F) : Prop := x.mag < F.inf

instance (x : Fl F) : Decidable x.Fin := inferInstanceAs (Decidable (_ < _))

/-- The value of a finite float. -/
def val (x : Fl F) : ℚ := sg x.neg * (F.units x.mag / 2 ^ F.scale)

theorem Fin.not_nan {x : Fl F} (h : x.Fin) : x.isNan = false := by
  unfold isNan; unfold Fin at h; simp; omega

theorem Fin.not_inf {x : Fl F} (h : x.Fin) : x.isInf = false := by
  unfold isInf; unfold Fin at h; simp; omega

theorem int_cast (x : Fl F) : (x.int : ℚ) = sg x.neg * F.units x.mag := by
  unfold int sg; split <;> simp

theorem val_eq (x : Fl F) : x.val = x.int / 2 ^ F.scale := by
  rw [int_cast, val, mul_div_assoc]

theorem abs_val (x : Fl F) : |x.val| = F.units x.mag / 2 ^ F.scale := by
  rw [val, abs_sg_mul, abs_of_nonneg (by positivity)]

theorem Fin.abs_le_big {x : Fl F} (h : x.Fin) : |x.val| ≤ F.big := by
  rw [abs_val, Fmt.big]
  have : F.units x.mag ≤ F.units (F.inf - 1) := F.units_strictMono.monotone (by unfold Fin at h; omega)
  have : (F.units x.mag : ℚ) ≤ F.units (F.inf - 1) := by exact_mod_cast this
  gcongr

@[simp] theorem val_zero (b : Bool) : (zero b : Fl F).val = 0 := by simp [val, zero]

theorem val_neg' (x : Fl F) : x.neg'.val = - x.val := by
  unfold val neg'; simp only [sg_not]; ring

theorem Fin.neg' {x : Fl F} (h : x.Fin) : x.neg'.Fin := h

/-! ### Order -/

theorem key_le_iff {x y : Fl F} : x.key ≤ y.key ↔ x.val ≤ y.val := by
  have hm := F.units_strictMono
  rw [val_eq, val_eq, div_le_div_iff_of_pos_right (by positivity)]
  have : ((x.int : ℚ) ≤ y.int) ↔ x.int ≤ y.int := by exact_mod_cast Iff.rfl
  rw [this]
  have h1 : F.units x.mag ≤ F.units y.mag ↔ x.mag ≤ y.mag := hm.le_iff_le
  have h2 : F.units y.mag ≤ F.units x.mag ↔ y.mag ≤ x.mag := hm.le_iff_le
  have z1 := F.units_eq_zero (a := x.mag)
  have z2 := F.units_eq_zero (a := y.mag)
  unfold key int
  cases x.neg <;> cases y.neg <;> simp <;> omega

theorem key_lt_iff {x y : Fl F} : x.key < y.key ↔ x.val < y.val := by
  rw [← not_le, ← not_le, key_le_iff]

theorem key_eq_iff {x y : Fl F} : x.key = y.key ↔ x.val = y.val := by
  rw [le_antisymm_iff, le_antisymm_iff, key_le_iff, key_le_iff]

theorem le_iff {x y : Fl F} (hx : x.isNan = false) (hy : y.isNan = false) : x.le y = true ↔ x.val ≤ y.val := by
  simp [le, hx, hy, key_le_iff]

theorem eq_iff {x y : Fl F} (hx : x.isNan = false) (hy : y.isNan = false) : x.eq y = true ↔ x.val = y.val := by
  simp [eq, hx, hy, key_eq_iff]

/-! ### Rounding -/

/-- The result of an operation with the exact absolute value `n / d` units. -/
theorem round_val {neg : Bool} {n d : Nat} (hd : 0 < d) (q : ℚ) (hq : |q| = n / d / 2 ^ F.scale)
    (hb : |q| < F.limit) (he : 2 ≤ F.eb) :
    (⟨neg, F.round n d⟩ : Fl F).Fin ∧
      |(⟨neg, F.round n d⟩ : Fl F).val - sg neg * abs q| ≤ max (|q| * F.eps) F.tiny := by
  have hs : (0 : ℚ) < 2 ^ F.scale := by positivity
  have hdq : (0 : ℚ) < d := by exact_mod_cast hd
  have hfin : F.round n d < F.inf := by
    refine lt_of_le_of_ne (F.round_le_inf _ _) fun hc => ?_
    have := F.round_inf hd he hc
    rw [hq, Fmt.limit, div_lt_div_iff_of_pos_right hs] at hb
    linarith
  refine ⟨hfin, ?_⟩
  have h := F.round_error hd hfin
  rw [val, ← mul_sub, abs_sg_mul, hq, ← sub_div, abs_div, abs_of_pos hs, div_le_iff₀ hs]
  refine h.trans_eq ?_
  rw [max_mul_of_nonneg _ _ hs.le]
  congr 1
  · unfold Fmt.eps; field_simp
  · unfold Fmt.tiny; rw [pow_succ]; field_simp

theorem round_val_one {neg : Bool} {n : Nat} (q : ℚ) (hq : |q| = n / 2 ^ F.scale)
    (hb : |q| < F.limit) (he : 2 ≤ F.eb) :
    (⟨neg, F.round n 1⟩ : Fl F).Fin ∧
      |(⟨neg, F.round n 1⟩ : Fl F).val - sg neg * abs q| ≤ |q| * F.eps := by
  have hs : (0 : ℚ) < 2 ^ F.scale := by positivity
  have hfin : F.round n 1 < F.inf := by
    refine lt_of_le_of_ne (F.round_le_inf _ _) fun hc => ?_
    have := F.round_inf (n := n) (by decide) he hc
    rw [hq, Fmt.limit, div_lt_div_iff_of_pos_right hs] at hb
    simp only [Nat.cast_one, div_one] at this
    linarith
  refine ⟨hfin, ?_⟩
  have h := F.round_error_one hfin
  rw [val, ← mul_sub, abs_sg_mul, hq, ← sub_div, abs_div, abs_of_pos hs, div_le_iff₀ hs]
  refine h.trans_eq ?_
  unfold Fmt.eps; field_simp

/-! ### The operations -/

theorem add_error {x y : Fl F} (hx : x.Fin) (hy : y.Fin) (hb : |x.val + y.val| < F.limit) (he : 2 ≤ F.eb) :
    (x.add y).Fin ∧ |(x.add y).val - (x.val + y.val)| ≤ |x.val + y.val| * F.eps := by
  unfold add
  simp only [hx.not_nan, hy.not_nan, hx.not_inf, hy.not_inf, Bool.or_self, Bool.false_eq_true, if_false]
  have hv : x.val + y.val = ((x.int + y.int : Int) : ℚ) / 2 ^ F.scale := by
    rw [val_eq, val_eq]; push_cast; ring
  rw [hv] at hb ⊢
  generalize x.int + y.int = s at *
  split
  · rename_i h0
    subst h0
    simp [Fin, zero, F.inf_pos he]
    simp [val]
  · have hs : (0 : ℚ) < 2 ^ F.scale := by positivity
    have habs : |((s : ℚ) / 2 ^ F.scale)| = (s.natAbs : ℚ) / 2 ^ F.scale := by
      rw [abs_div, abs_of_pos hs, Nat.cast_natAbs, Int.cast_abs]
    have h := round_val_one (neg := decide (s < 0)) ((s : ℚ) / 2 ^ F.scale) habs hb he
    refine ⟨h.1, ?_⟩
    have e : sg (decide (s < 0)) * |((s : ℚ) / 2 ^ F.scale)| = (s : ℚ) / 2 ^ F.scale := by
      rw [abs_div, abs_of_pos hs]
      by_cases h0 : s < 0
      · have : (s : ℚ) < 0 := by exact_mod_cast h0
        simp [h0, sg, abs_of_neg this, neg_div]
      · have : (0 : ℚ) ≤ s := by exact_mod_cast (not_lt.mp h0)
        simp [h0, sg, abs_of_nonneg this]
    have h2 := h.2
    rw [e] at h2
    exact h2

theorem sub_error {x y : Fl F} (hx : x.Fin) (hy : y.Fin) (hb : |x.val - y.val| < F.limit) (he : 2 ≤ F.eb) :
    (x.sub y).Fin ∧ |(x.sub y).val - (x.val - y.val)| ≤ |x.val - y.val| * F.eps := by
  have h := add_error hx hy.neg' (by rw [val_neg', ← sub_eq_add_neg]; exact hb) he
  rw [val_neg', ← sub_eq_add_neg] at h
  exact h

theorem mul_error {x y : Fl F} (hx : x.Fin) (hy : y.Fin) (hb : |x.val * y.val| < F.limit) (he : 2 ≤ F.eb) :
    (x.mul y).Fin ∧ |(x.mul y).val - x.val * y.val| ≤ max (|x.val * y.val| * F.eps) F.tiny := by
  unfold mul
  simp only [hx.not_nan, hy.not_nan, hx.not_inf, hy.not_inf, Bool.or_self, Bool.false_eq_true, if_false]
  have habs : |x.val * y.val| =
      ((F.units x.mag * F.units y.mag : Nat) : ℚ) / ((2 ^ F.scale : Nat) : ℚ) / 2 ^ F.scale := by
    rw [abs_mul, abs_val, abs_val]; push_cast; field_simp
  have h := round_val (neg := x.neg != y.neg) (Nat.two_pow_pos _) _ habs hb he
  refine ⟨h.1, ?_⟩
  have e : sg (x.neg != y.neg) * |x.val * y.val| = x.val * y.val := by
    rw [abs_mul, abs_val, abs_val, sg_bne, val, val]; ring
  have h2 := h.2
  rw [e] at h2
  exact h2

theorem val_ne_zero {x : Fl F} (h : x.val ≠ 0) : x.mag ≠ 0 := by
  rintro h0; exact h (by simp [val, h0])

theorem mag_of_val_zero {x : Fl F} (h : x.val = 0) : x.mag = 0 := by
  have := abs_val x
  rw [h, abs_zero, eq_comm, div_eq_zero_iff] at this
  rcases this with h1 | h1
  · exact F.units_eq_zero.mp (by exact_mod_cast h1)
  · exact absurd h1 (by positivity)

theorem div_error {x y : Fl F} (hx : x.Fin) (hy : y.Fin) (h0 : y.val ≠ 0) (hb : |x.val / y.val| < F.limit) (he : 2 ≤ F.eb) :
    (x.div y).Fin ∧ |(x.div y).val - x.val / y.val| ≤ max (|x.val / y.val| * F.eps) F.tiny := by
  have hy0 := val_ne_zero h0
  unfold div
  simp only [hx.not_nan, hy.not_nan, hx.not_inf, hy.not_inf, Bool.or_self, Bool.false_eq_true, if_false, if_neg hy0]
  have hup : 0 < F.units y.mag := F.units_pos (Nat.pos_of_ne_zero hy0)
  have hupq : (F.units y.mag : ℚ) ≠ 0 := by exact_mod_cast hup.ne'
  have habs : |x.val / y.val| =
      ((F.units x.mag * 2 ^ F.scale : Nat) : ℚ) / (F.units y.mag : ℚ) / 2 ^ F.scale := by
    rw [abs_div, abs_val, abs_val]; push_cast; field_simp
  have h := round_val (neg := x.neg != y.neg) hup _ habs hb he
  refine ⟨h.1, ?_⟩
  have e : sg (x.neg != y.neg) * |x.val / y.val| = x.val / y.val := by
    rw [abs_div, abs_val, abs_val, sg_bne, val, val]
    cases x.neg <;> cases y.neg <;> simp [sg] <;> ring
  have h2 := h.2
  rw [e] at h2
  exact h2

/-! ### Results bounded by a float -/

theorem abs_le_of_mag_le {x y : Fl F} (h : x.mag ≤ y.mag) : |x.val| ≤ |y.val| := by
  rw [abs_val, abs_val]
  have : F.units x.mag ≤ F.units y.mag := F.units_strictMono.monotone h
  have : (F.units x.mag : ℚ) ≤ F.units y.mag := by exact_mod_cast this
  gcongr

theorem abs_val_le_iff {x y : Fl F} : |x.val| ≤ |y.val| ↔ x.mag ≤ y.mag := by
  refine ⟨fun h => ?_, abs_le_of_mag_le⟩
  rw [abs_val, abs_val, div_le_div_iff_of_pos_right (by positivity)] at h
  exact F.units_strictMono.le_iff_le.mp (by exact_mod_cast h)

theorem mul_le {x y w : Fl F} (hx : x.Fin) (hy : y.Fin) (hw : w.Fin) (h : |x.val * y.val| ≤ |w.val|) :
    |(x.mul y).val| ≤ |w.val| := by
  unfold mul
  simp only [hx.not_nan, hy.not_nan, hx.not_inf, hy.not_inf, Bool.or_self, Bool.false_eq_true, if_false]
  apply abs_le_of_mag_le
  apply F.round_le (Nat.two_pow_pos _) (Nat.le_of_lt hw)
  rw [abs_mul, abs_val, abs_val, abs_val, div_mul_div_comm, div_le_div_iff₀ (by positivity) (by positivity)] at h
  have hs : (0 : ℚ) < 2 ^ F.scale := by positivity
  have h2 : (F.units x.mag * F.units y.mag : ℚ) ≤ F.units w.mag * 2 ^ F.scale := by
    apply le_of_mul_le_mul_right _ hs
    linarith
  exact_mod_cast h2

theorem div_le {x y w : Fl F} (hx : x.Fin) (hy : y.Fin) (hw : w.Fin) (h0 : y.val ≠ 0)
    (h : |x.val / y.val| ≤ |w.val|) : |(x.div y).val| ≤ |w.val| := by
  have hy0 := val_ne_zero h0
  unfold div
  simp only [hx.not_nan, hy.not_nan, hx.not_inf, hy.not_inf, Bool.or_self, Bool.false_eq_true, if_false, if_neg hy0]
  have hup : 0 < F.units y.mag := F.units_pos (Nat.pos_of_ne_zero hy0)
  have hupq : (0 : ℚ) < F.units y.mag := by exact_mod_cast hup
  apply abs_le_of_mag_le
  apply F.round_le hup (Nat.le_of_lt hw)
  have hs : (0 : ℚ) < 2 ^ F.scale := by positivity
  rw [abs_div, abs_val, abs_val, abs_val, div_div_div_cancel_right₀ hs.ne', div_le_div_iff₀ hupq hs] at h
  exact_mod_cast h

theorem div_nonneg {x y : Fl F} (hx : x.Fin) (hy : y.Fin) (h0 : y.val ≠ 0) (h : x.neg = y.neg) :
    0 ≤ (x.div y).val := by
  have hy0 := val_ne_zero h0
  unfold div
  simp only [hx.not_nan, hy.not_nan, hx.not_inf, hy.not_inf, Bool.or_self, Bool.false_eq_true, if_false, if_neg hy0]
  simp only [val, sg, h, bne_self_eq_false, Bool.false_eq_true, if_false, one_mul]
  positivity

theorem add_mag {x y : Fl F} (hx : x.Fin) (hy : y.Fin) : (x.add y).mag = F.round (x.int + y.int).natAbs 1 := by
  unfold add
  simp only [hx.not_nan, hy.not_nan, hx.not_inf, hy.not_inf, Bool.or_self, Bool.false_eq_true, if_false]
  split
  · rename_i h
    simp [h, zero, F.round_zero 1 (by decide)]
  · rfl

theorem abs_sub_val (x y : Fl F) : |x.val - y.val| = ((x.int + y.neg'.int).natAbs : ℚ) / 2 ^ F.scale := by
  have hs : (0 : ℚ) < 2 ^ F.scale := by positivity
  rw [Nat.cast_natAbs, Int.cast_abs, sub_eq_add_neg, ← val_neg', val_eq, val_eq, ← add_div, abs_div, abs_of_pos hs]
  push_cast
  rfl

theorem sub_mono {x y x' y' : Fl F} (hx : x.Fin) (hy : y.Fin) (hx' : x'.Fin) (hy' : y'.Fin)
    (h : |x.val - y.val| ≤ |x'.val - y'.val|) : |(x.sub y).val| ≤ |(x'.sub y').val| := by
  apply abs_le_of_mag_le
  unfold sub
  rw [add_mag hx hy.neg', add_mag hx' hy'.neg']
  apply F.round_mono (by decide) (by decide)
  rw [abs_sub_val, abs_sub_val, div_le_div_iff_of_pos_right (by positivity)] at h
  simpa using (by exact_mod_cast h : (x.int + y.neg'.int).natAbs ≤ (x'.int + y'.neg'.int).natAbs)

theorem sub_le {x y w : Fl F} (hx : x.Fin) (hy : y.Fin) (hw : w.Fin) (h : |x.val - y.val| ≤ |w.val|) :
    |(x.sub y).val| ≤ |w.val| := by
  apply abs_le_of_mag_le
  unfold sub
  rw [add_mag hx hy.neg']
  apply F.round_le (by decide) (Nat.le_of_lt hw)
  rw [abs_sub_val, abs_val, div_le_div_iff_of_pos_right (by positivity)] at h
  simpa using (by exact_mod_cast h : (x.int + y.neg'.int).natAbs ≤ F.units w.mag)

/-! ### Conversions -/

/-- Whole numbers that fit the mantissa are exact. -/
theorem ofNat_val {n : Nat} (hn : n ≤ 2 ^ (F.mb + 1)) (hb : (n : ℚ) ≤ F.big) (he : 2 ≤ F.eb) :
    (ofNat n : Fl F).Fin ∧ (ofNat n : Fl F).val = n := by
  obtain ⟨a, ha⟩ := F.exists_units F.scale n hn
  have hs : (0 : ℚ) < 2 ^ F.scale := by positivity
  have hle : F.units a ≤ F.units (F.inf - 1) := by
    rw [ha]
    rw [Fmt.big, le_div_iff₀ hs] at hb
    exact_mod_cast hb
  have hi := F.inf_pos he
  have hai : a ≤ F.inf - 1 := F.units_strictMono.le_iff_le.mp hle
  have hr : F.round (n * 2 ^ F.scale) 1 = a := by rw [← ha]; exact F.round_units_one (by omega)
  unfold ofNat
  rw [hr]
  refine ⟨by unfold Fin; show a < F.inf; omega, ?_⟩
  simp only [val, sg, ha]
  push_cast
  field_simp

theorem convert_error {G : Fmt} {x : Fl F} (hx : x.Fin) (hb : |x.val| < G.limit) (he : 2 ≤ G.eb) :
    (x.convert G).Fin ∧ |(x.convert G).val - x.val| ≤ max (|x.val| * G.eps) G.tiny := by
  unfold convert
  simp only [hx.not_nan, hx.not_inf, Bool.false_eq_true, if_false]
  have habs : |x.val| = ((F.units x.mag * 2 ^ G.scale : Nat) : ℚ) / ((2 ^ F.scale : Nat) : ℚ) / 2 ^ G.scale := by
    rw [abs_val]; push_cast; field_simp
  have h := round_val (neg := x.neg) (F := G) (Nat.two_pow_pos _) x.val habs hb he
  refine ⟨h.1, ?_⟩
  have e : sg x.neg * |x.val| = x.val := by rw [abs_val, val]
  have h2 := h.2
  rw [e] at h2
  exact h2

/-! ### Exact results -/

theorem val_of_mag {neg : Bool} {m : Nat} {w : Fl F} (q : ℚ) (hm : m = w.mag) (hq : sg neg * |q| = q) (h : q = w.val) :
    (⟨neg, m⟩ : Fl F).val = w.val := by
  rw [val]
  simp only [hm]
  rw [← abs_val, ← h, hq]

theorem mul_exact {x y w : Fl F} (hx : x.Fin) (hy : y.Fin) (hw : w.Fin) (h : x.val * y.val = w.val) :
    (x.mul y).Fin ∧ (x.mul y).val = w.val := by
  unfold mul
  simp only [hx.not_nan, hy.not_nan, hx.not_inf, hy.not_inf, Bool.or_self, Bool.false_eq_true, if_false]
  have hm : F.round (F.units x.mag * F.units y.mag) (2 ^ F.scale) = w.mag := by
    have h1 : |x.val * y.val| = |w.val| := by rw [h]
    have hs : (0 : ℚ) < 2 ^ F.scale := by positivity
    rw [abs_mul, abs_val, abs_val, abs_val, div_mul_div_comm, div_eq_div_iff (by positivity) (by positivity)] at h1
    have h2 : (F.units x.mag * F.units y.mag : ℚ) = F.units w.mag * 2 ^ F.scale := by
      apply mul_right_cancel₀ hs.ne'
      linarith
    rw [show F.units x.mag * F.units y.mag = F.units w.mag * 2 ^ F.scale by exact_mod_cast h2]
    exact F.round_units (Nat.two_pow_pos _) (Nat.le_of_lt hw)
  refine ⟨by unfold Fin; simp only [hm]; exact hw, val_of_mag _ hm ?_ h⟩
  rw [abs_mul, abs_val, abs_val, sg_bne, val, val]; ring

theorem div_exact {x y w : Fl F} (hx : x.Fin) (hy : y.Fin) (hw : w.Fin) (h0 : y.val ≠ 0) (h : x.val / y.val = w.val) :
    (x.div y).Fin ∧ (x.div y).val = w.val := by
  have hy0 := val_ne_zero h0
  unfold div
  simp only [hx.not_nan, hy.not_nan, hx.not_inf, hy.not_inf, Bool.or_self, Bool.false_eq_true, if_false, if_neg hy0]
  have hup : 0 < F.units y.mag := F.units_pos (Nat.pos_of_ne_zero hy0)
  have hupq : (0 : ℚ) < F.units y.mag := by exact_mod_cast hup
  have hm : F.round (F.units x.mag * 2 ^ F.scale) (F.units y.mag) = w.mag := by
    have h1 : |x.val / y.val| = |w.val| := by rw [h]
    have hs : (0 : ℚ) < 2 ^ F.scale := by positivity
    rw [abs_div, abs_val, abs_val, abs_val, div_div_div_cancel_right₀ hs.ne', div_eq_div_iff hupq.ne' hs.ne'] at h1
    rw [show F.units x.mag * 2 ^ F.scale = F.units w.mag * F.units y.mag by exact_mod_cast h1]
    exact F.round_units hup (Nat.le_of_lt hw)
  refine ⟨by unfold Fin; simp only [hm]; exact hw, val_of_mag _ hm ?_ h⟩
  rw [abs_div, abs_val, abs_val, sg_bne, val, val]
  cases x.neg <;> cases y.neg <;> simp [sg] <;> ring

theorem add_exact {x y w : Fl F} (hx : x.Fin) (hy : y.Fin) (hw : w.Fin) (h : x.val + y.val = w.val) :
    (x.add y).Fin ∧ (x.add y).val = w.val := by
  have hs : (0 : ℚ) < 2 ^ F.scale := by positivity
  have hi : x.int + y.int = w.int := by
    rw [val_eq, val_eq, val_eq, ← add_div, div_left_inj' hs.ne'] at h
    exact_mod_cast h
  have hmag := add_mag hx hy
  have hwa : w.int.natAbs = F.units w.mag := by unfold int; split <;> simp
  rw [hi, hwa, F.round_units_one (Nat.le_of_lt hw)] at hmag
  refine ⟨by unfold Fin; rw [hmag]; exact hw, ?_⟩
  by_cases h0 : w.int = 0
  · have h1 : w.mag = 0 := by rw [h0] at hwa; exact F.units_eq_zero.mp hwa.symm
    rw [val, val, hmag, h1]; simp
  · have hneg : (x.add y).neg = w.neg := by
      unfold add
      simp only [hx.not_nan, hy.not_nan, hx.not_inf, hy.not_inf, Bool.or_self, Bool.false_eq_true, if_false, hi,
        if_neg h0]
      unfold int at h0 ⊢
      cases w.neg <;> simp at h0 ⊢ <;> omega
    rw [val, val, hmag, hneg]

theorem sub_exact {x y w : Fl F} (hx : x.Fin) (hy : y.Fin) (hw : w.Fin) (h : x.val - y.val = w.val) :
    (x.sub y).Fin ∧ (x.sub y).val = w.val :=
  add_exact hx hy.neg' hw (by rw [val_neg', ← sub_eq_add_neg]; exact h)

theorem convert_exact_val {G : Fmt} {x : Fl F} {w : Fl G} (hx : x.Fin) (hw : w.Fin) (h : x.val = w.val) :
    (x.convert G).Fin ∧ (x.convert G).val = w.val := by
  unfold convert
  simp only [hx.not_nan, hx.not_inf, Bool.false_eq_true, if_false]
  have hm : G.round (F.units x.mag * 2 ^ G.scale) (2 ^ F.scale) = w.mag := by
    have h1 : |x.val| = |w.val| := by rw [h]
    rw [abs_val, abs_val, div_eq_div_iff (by positivity) (by positivity)] at h1
    rw [show F.units x.mag * 2 ^ G.scale = G.units w.mag * 2 ^ F.scale by exact_mod_cast h1]
    exact G.round_units (Nat.two_pow_pos _) (Nat.le_of_lt hw)
  refine ⟨by unfold Fin; simp only [hm]; exact hw, val_of_mag x.val hm ?_ h⟩
  rw [abs_val, val]

/-- Conversion to a larger format is exact. -/
theorem convert_exact {G : Fmt} {x : Fl F} (hx : x.Fin) (a : Nat) (ha : a < G.inf)
    (h : G.units a * 2 ^ F.scale = F.units x.mag * 2 ^ G.scale) :
    x.convert G = ⟨x.neg, a⟩ ∧ (x.convert G).Fin ∧ (x.convert G).val = x.val := by
  have e : x.convert G = ⟨x.neg, a⟩ := by
    unfold convert
    simp only [hx.not_nan, hx.not_inf, Bool.false_eq_true, if_false]
    rw [← h, G.round_units (Nat.two_pow_pos _) (Nat.le_of_lt ha)]
  refine ⟨e, by rw [e]; exact ha, ?_⟩
  rw [e]
  simp only [val]
  congr 1
  rw [div_eq_div_iff (by positivity) (by positivity)]
  exact_mod_cast h

end Fl

/-! ## The two formats -/

theorem single_inf_pos : 0 < single.inf := by decide
theorem double_inf_pos : 0 < double.inf := by decide
theorem half_inf_pos : 0 < half.inf := by decide

theorem units_single_inf : single.units single.inf = 2 ^ 277 := by decide +kernel
theorem units_double_inf : double.units double.inf = 2 ^ 2098 := by decide +kernel
theorem units_half_inf : half.units half.inf = 2 ^ 40 := by decide +kernel

theorem double_scale : double.scale = 1074 := by decide
theorem single_scale : single.scale = 149 := by decide
theorem half_scale : half.scale = 24 := by decide

/-- `f64::from(x)` is exact. -/
theorem to_double {x : Fl single} (hx : x.Fin) :
    (x.convert double).Fin ∧ (x.convert double).val = x.val ∧ (x.convert double).neg = x.neg := by
  obtain ⟨k, m, e, h, hm⟩ := single.exists_split x.mag
  have hu := single.units_split k m h (Nat.le_of_lt hm)
  rw [← e] at hu
  obtain ⟨a, ha⟩ := double.exists_units (k + 925) m (Nat.le_trans (Nat.le_of_lt hm) (by decide))
  have hlt : single.units x.mag < 2 ^ 277 := by
    rw [← units_single_inf]; exact single.units_strictMono hx
  have hai : a < double.inf := by
    apply double.units_strictMono.lt_iff_lt.mp
    rw [units_double_inf, ha, Nat.pow_add, ← Nat.mul_assoc, ← hu]
    refine Nat.lt_trans (Nat.mul_lt_mul_of_pos_right hlt (Nat.two_pow_pos _)) ?_
    rw [← Nat.pow_add]
    exact Nat.pow_lt_pow_right (by decide) (by decide)
  have := Fl.convert_exact (G := double) hx a hai (by
    rw [ha, hu, double_scale, single_scale, Nat.mul_assoc, ← Nat.pow_add, Nat.mul_assoc, ← Nat.pow_add]
    )
  exact ⟨this.2.1, this.2.2, by rw [this.1]⟩

end Verif.Ieee
