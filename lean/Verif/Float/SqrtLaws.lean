import Verif.Float.ValueSpec
/-!
# The error of the square root and of the fourth component of a rotation
-/

namespace Verif.Ieee

theorem isqrt_le_iff {n a : Nat} : a ≤ isqrt n ↔ a * a ≤ n := by
  obtain ⟨h1, h2⟩ := isqrt_spec n
  constructor
  · intro h
    exact (Nat.mul_le_mul h h).trans h1
  · intro h
    by_contra hc
    have : isqrt n + 1 ≤ a := by omega
    have := Nat.mul_le_mul this this
    omega

theorem four_pow (k : Nat) : 4 ^ k = 2 ^ k * 2 ^ k := by
  rw [← Nat.mul_pow]

/-- The square root is rounded to a mantissa `m` with the exponent `k`. -/
theorem Fmt.roundSqrt_spec (F : Fmt) (n : Nat) (hn : 2 ^ F.mb * 2 ^ F.mb ≤ n) :
    ∃ k m, F.roundSqrt n = min (k * 2 ^ F.mb + m) F.inf ∧ 2 ^ F.mb ≤ m ∧ m ≤ 2 ^ (F.mb + 1) ∧
      4 ^ k * (2 * m - 1) ^ 2 ≤ 4 * n ∧ 4 * n ≤ 4 ^ k * (2 * m + 1) ^ 2 := by
  have hs : 2 ^ F.mb ≤ isqrt n := isqrt_le_iff.mpr hn
  have hs0 : isqrt n ≠ 0 := by have := Nat.two_pow_pos F.mb; omega
  have hlog : F.mb ≤ Nat.log2 (isqrt n) := (Nat.le_log2 hs0).mpr hs
  obtain ⟨k, hk⟩ := Nat.exists_eq_add_of_le hlog
  have hkk : Nat.log2 (isqrt n) - F.mb = k := by omega
  have hlo : 2 ^ F.mb * 2 ^ k ≤ isqrt n := by
    rw [← Nat.pow_add, ← hk]; exact Nat.log2_self_le hs0
  have hhi : isqrt n < 2 ^ (F.mb + 1) * 2 ^ k := by
    rw [← Nat.pow_add, show F.mb + 1 + k = Nat.log2 (isqrt n) + 1 by omega]; exact Nat.lt_log2_self
  have hp : 0 < 4 ^ k := Nat.pow_pos (by decide)
  have hf1 : 2 ^ F.mb ≤ isqrt (n / 4 ^ k) := by
    rw [isqrt_le_iff, Nat.le_div_iff_mul_le hp, four_pow]
    have := isqrt_le_iff.mp hlo
    calc _ = 2 ^ F.mb * 2 ^ k * (2 ^ F.mb * 2 ^ k) := by ring
      _ ≤ n := this
  have hf2 : isqrt (n / 4 ^ k) < 2 ^ (F.mb + 1) := by
    by_contra hc
    have h := isqrt_le_iff.mp (not_lt.mp hc)
    rw [Nat.le_div_iff_mul_le hp, four_pow] at h
    have h' : 2 ^ (F.mb + 1) * 2 ^ k * (2 ^ (F.mb + 1) * 2 ^ k) ≤ n := by
      calc _ = 2 ^ (F.mb + 1) * 2 ^ (F.mb + 1) * (2 ^ k * 2 ^ k) := by ring
        _ ≤ n := h
    have := isqrt_le_iff.mpr h'
    omega
  generalize hf : isqrt (n / 4 ^ k) = f at *
  obtain ⟨g1, g2⟩ := isqrt_spec (n / 4 ^ k)
  rw [hf] at g1 g2
  have e1 : 4 ^ k * (f * f) ≤ n := by
    have := (Nat.le_div_iff_mul_le hp).mp g1
    rwa [Nat.mul_comm] at this
  have e2 : n < 4 ^ k * ((f + 1) * (f + 1)) := by
    have := (Nat.div_lt_iff_lt_mul hp).mp g2
    rwa [Nat.mul_comm] at this
  have d1 : 4 ^ k * (2 * f - 1) ^ 2 ≤ 4 * n := by
    have : (2 * f - 1) ^ 2 ≤ (2 * f) ^ 2 := Nat.pow_le_pow_left (by omega) 2
    have := Nat.mul_le_mul_left (4 ^ k) this
    calc _ ≤ _ := this
      _ = 4 * (4 ^ k * (f * f)) := by ring
      _ ≤ 4 * n := by omega
  have d2 : 4 * n ≤ 4 ^ k * (2 * (f + 1) + 1) ^ 2 := by
    have h1 : (2 * (f + 1)) ^ 2 ≤ (2 * (f + 1) + 1) ^ 2 := Nat.pow_le_pow_left (by omega) 2
    calc 4 * n ≤ 4 * (4 ^ k * ((f + 1) * (f + 1))) := by omega
      _ = 4 ^ k * (2 * (f + 1)) ^ 2 := by ring
      _ ≤ _ := Nat.mul_le_mul_left _ h1
  have hsq : (2 * f + 1) * (2 * f + 1) = (2 * f + 1) ^ 2 := by ring
  have hup : (2 * (f + 1) - 1) ^ 2 = (2 * f + 1) ^ 2 := by
    rw [show 2 * (f + 1) - 1 = 2 * f + 1 by omega]
  unfold Fmt.roundSqrt
  simp only [hkk, hf]
  rcases Nat.lt_trichotomy (4 * n) (4 ^ k * ((2 * f + 1) * (2 * f + 1))) with h | h | h
  · rw [if_pos h]
    exact ⟨k, f, rfl, hf1, by omega, d1, by rw [← hsq]; omega⟩
  · rw [if_neg (by omega), if_neg (by omega)]
    rcases Nat.mod_two_eq_zero_or_one f with h2 | h2
    · rw [h2]
      exact ⟨k, f, rfl, hf1, by omega, d1, by rw [← hsq]; omega⟩
    · rw [h2]
      exact ⟨k, f + 1, rfl, by omega, by omega, by rw [hup, ← hsq]; omega, d2⟩
  · rw [if_neg (by omega), if_pos h]
    exact ⟨k, f + 1, rfl, by omega, by omega, by rw [hup, ← hsq]; omega, d2⟩

/-- With `r` the rounded root of `n` and `h` the distance of floats. -/
theorem sqrt_square_error {r h n : ℚ} (hh : 0 ≤ h) (hr : h * 2 ^ 23 ≤ r) (h1 : (2 * r - h) ^ 2 ≤ 4 * n)
    (h2 : 4 * n ≤ (2 * r + h) ^ 2) : |r ^ 2 - n| ≤ r ^ 2 * (1 / 2 ^ 23 + 1 / 2 ^ 48) ∧ r ^ 2 ≤ 4 * n := by
  have hr0 : 0 ≤ r := le_trans (by positivity) hr
  have hle : h ≤ r / 2 ^ 23 := by rw [le_div_iff₀ (by norm_num)]; exact hr
  have a1 : r * h ≤ r * (r / 2 ^ 23) := mul_le_mul_of_nonneg_left hle hr0
  have a2 : h * h ≤ (r / 2 ^ 23) * (r / 2 ^ 23) := mul_le_mul hle hle hh (by positivity)
  have hhr : h ≤ r := hle.trans (div_le_self hr0 (by norm_num))
  constructor
  · rw [abs_le]
    constructor
    · have : n - r ^ 2 ≤ r * h + h * h / 4 := by nlinarith
      have e : r * (r / 2 ^ 23) + (r / 2 ^ 23) * (r / 2 ^ 23) / 4 = r ^ 2 * (1 / 2 ^ 23 + 1 / 2 ^ 48) := by ring
      linarith
    · have : r ^ 2 - n ≤ r * h - h * h / 4 := by nlinarith
      have e : r * (r / 2 ^ 23) ≤ r ^ 2 * (1 / 2 ^ 23 + 1 / 2 ^ 48) := by
        have : 0 ≤ r ^ 2 * (1 / 2 ^ 48 : ℚ) := by positivity
        calc r * (r / 2 ^ 23) = r ^ 2 * (1 / 2 ^ 23) := by ring
          _ ≤ _ := by linarith
      have := mul_nonneg hh hh
      linarith
  · have : r ≤ 2 * r - h := by linarith
    have := mul_le_mul this this hr0 (by linarith)
    nlinarith

/-- The square of the square root is close to the number. -/
theorem Fl.sqrt_error {x : Fl single} (hx : x.Fin) (hn : x.neg = false) (hb : x.val ≤ 2) :
    (x.sqrt).Fin ∧ 0 ≤ (x.sqrt).val ∧ (x.sqrt).neg = false ∧
      |(x.sqrt).val ^ 2 - x.val| ≤ (x.sqrt).val ^ 2 * (1 / 2 ^ 23 + 1 / 2 ^ 48) := by
  unfold sqrt
  simp only [hx.not_nan, hx.not_inf, hn, Bool.false_eq_true, if_false]
  by_cases h0 : x.mag = 0
  · rw [if_pos h0]
    have : x.val = 0 := by simp [val, h0]
    exact ⟨hx, this.ge, hn, by rw [this]; norm_num⟩
  rw [if_neg h0]
  have hu : 1 ≤ single.units x.mag := single.units_pos (Nat.pos_of_ne_zero h0)
  have hs : single.scale = 149 := single_scale
  have hval : x.val = (single.units x.mag : ℚ) / 2 ^ 149 := by
    rw [val, hn, hs]; simp [sg]
  obtain ⟨k, m, e, m1, m2, g1, g2⟩ := single.roundSqrt_spec (single.units x.mag * 2 ^ single.scale) (by
    rw [hs]
    calc 2 ^ single.mb * 2 ^ single.mb ≤ 1 * 2 ^ 149 := by decide
      _ ≤ _ := Nat.mul_le_mul_right _ hu)
  rw [hs] at e g1 g2 ⊢
  rw [e]
  generalize single.units x.mag = u at *
  have hmb : single.mb = 23 := rfl
  rw [hmb] at m1 m2
  have hun := single.units_split k m (.inr (by rw [hmb]; exact m1)) (by rw [hmb]; exact m2)
  have hm1 : (2 ^ 23 : ℚ) ≤ m := by exact_mod_cast m1
  have c1 : (4 : ℚ) ^ k * (2 * m - 1) ^ 2 ≤ 4 * (u * 2 ^ 149) := by
    have h' : ((4 ^ k * (2 * m - 1) ^ 2 : Nat) : ℚ) ≤ ((4 * (u * 2 ^ 149) : Nat) : ℚ) := by exact_mod_cast g1
    rw [Nat.cast_mul, Nat.cast_pow, Nat.cast_pow, Nat.cast_sub (by omega)] at h'
    push_cast at h'
    exact h'
  have c2 : 4 * ((u : ℚ) * 2 ^ 149) ≤ 4 ^ k * (2 * m + 1) ^ 2 := by exact_mod_cast g2
  have h4 : (4 : ℚ) ^ k = 2 ^ k * 2 ^ k := by exact_mod_cast four_pow k
  have hkp : (0 : ℚ) < 2 ^ k := by positivity
  have hsq := sqrt_square_error (r := m * 2 ^ k / 2 ^ 149) (h := 2 ^ k / 2 ^ 149) (n := x.val) (by positivity) (by
      rw [div_mul_eq_mul_div, div_le_div_iff_of_pos_right (by positivity), mul_comm]
      exact mul_le_mul_of_nonneg_right hm1 hkp.le) (by
      rw [hval]
      have : (2 * ((m : ℚ) * 2 ^ k / 2 ^ 149) - 2 ^ k / 2 ^ 149) ^ 2 = 4 ^ k * (2 * m - 1) ^ 2 / (2 ^ 149 * 2 ^ 149) := by
        rw [h4]; ring
      rw [this, div_le_iff₀ (by positivity)]
      calc _ ≤ _ := c1
        _ = 4 * ((u : ℚ) / 2 ^ 149) * (2 ^ 149 * 2 ^ 149) := by field_simp) (by
      rw [hval]
      have : (2 * ((m : ℚ) * 2 ^ k / 2 ^ 149) + 2 ^ k / 2 ^ 149) ^ 2 = 4 ^ k * (2 * m + 1) ^ 2 / (2 ^ 149 * 2 ^ 149) := by
        rw [h4]; ring
      rw [this, le_div_iff₀ (by positivity)]
      calc 4 * ((u : ℚ) / 2 ^ 149) * (2 ^ 149 * 2 ^ 149) = 4 * (u * 2 ^ 149) := by field_simp
        _ ≤ _ := c2)
  have hfin : k * 2 ^ single.mb + m < single.inf := by
    apply single.units_strictMono.lt_iff_lt.mp
    rw [hun, units_single_inf]
    have h8 : ((m : ℚ) * 2 ^ k / 2 ^ 149) ^ 2 ≤ 8 := hsq.2.trans (by linarith)
    have h3 : (m : ℚ) * 2 ^ k / 2 ^ 149 < 3 := by
      by_contra hc
      have := not_lt.mp hc
      nlinarith
    rw [div_lt_iff₀ (by positivity)] at h3
    have h5 : m * 2 ^ k < 3 * 2 ^ 149 := by exact_mod_cast h3
    exact h5.trans (by decide +kernel)
  rw [Nat.min_eq_left hfin.le]
  have hv : (⟨false, k * 2 ^ single.mb + m⟩ : Fl single).val = m * 2 ^ k / 2 ^ 149 := by
    rw [val, hs]
    simp only [hun, sg]
    push_cast
    simp
  rw [hv]
  exact ⟨hfin, by positivity, rfl, hsq.1⟩

theorem w2_error {a b c p q r s1 s2 w2 : ℚ} (ha : 0 ≤ a) (hb : 0 ≤ b) (hc : 0 ≤ c) (hS : a + b + c ≤ 1 + 1 / 2 ^ 8)
    (ep : |p - a| ≤ a * (1 / 2 ^ 24) + 1 / 2 ^ 60) (eq : |q - b| ≤ b * (1 / 2 ^ 24) + 1 / 2 ^ 60)
    (er : |r - c| ≤ c * (1 / 2 ^ 24) + 1 / 2 ^ 60) (e1 : |s1 - (p + q)| ≤ |p + q| * (1 / 2 ^ 24))
    (e2 : |s2 - (s1 + r)| ≤ |s1 + r| * (1 / 2 ^ 24)) (e3 : |w2 - (1 - s2)| ≤ |1 - s2| * (1 / 2 ^ 24)) :
    |w2 - (1 - (a + b + c))| ≤ 5 / 2 ^ 24 := by
  have hpq : |p + q| ≤ 1 + 1 / 2 ^ 7 := by
    rw [abs_le] at *; constructor <;> linarith
  have h1 : |s1 - (p + q)| ≤ (1 + 1 / 2 ^ 7) * (1 / 2 ^ 24) := e1.trans (by gcongr)
  have hsr : |s1 + r| ≤ 1 + 1 / 2 ^ 6 := by
    rw [abs_le] at *; constructor <;> linarith
  have h2 : |s2 - (s1 + r)| ≤ (1 + 1 / 2 ^ 6) * (1 / 2 ^ 24) := e2.trans (by gcongr)
  have h1s : |1 - s2| ≤ 1 + 1 / 2 ^ 5 := by
    rw [abs_le] at *; constructor <;> linarith
  have h3 : |w2 - (1 - s2)| ≤ (1 + 1 / 2 ^ 5) * (1 / 2 ^ 24) := e3.trans (by gcongr)
  clear e1 e2 e3 hpq hsr h1s
  rw [abs_le] at *
  constructor <;> linarith

theorem mul_self_error {x : Fl single} (hx : x.Fin) (h : x.val ^ 2 ≤ 2) :
    (x.mul x).Fin ∧ |(x.mul x).val - x.val ^ 2| ≤ x.val ^ 2 * (1 / 2 ^ 24) + 1 / 2 ^ 60 := by
  have e : |x.val * x.val| = x.val ^ 2 := by rw [abs_of_nonneg (mul_self_nonneg _)]; ring
  obtain ⟨f, er⟩ := Fl.mul_error hx hx (by rw [e]; exact lt_of_le_of_lt (h.trans (by norm_num)) single_limit_gt) single_eb
  refine ⟨f, ?_⟩
  rw [e, single_eps, single_tiny] at er
  rw [← sq] at er
  refine er.trans (max_le ?_ ?_)
  · linarith [show (0 : ℚ) ≤ 1 / 2 ^ 60 by positivity]
  · have : (1 : ℚ) / 2 ^ 150 ≤ 1 / 2 ^ 60 := one_div_le_one_div_of_le (by norm_num) (pow_le_pow_right₀ (by norm_num) (by norm_num))
    linarith [show (0 : ℚ) ≤ x.val ^ 2 * (1 / 2 ^ 24) by positivity]

theorem root_final {w2 w S : ℚ} (hS : 0 ≤ S) (h1 : |w2 - (1 - S)| ≤ 5 / 2 ^ 24)
    (h2 : |w ^ 2 - w2| ≤ w ^ 2 * (1 / 2 ^ 23 + 1 / 2 ^ 48)) : |w ^ 2 + S - 1| ≤ 8 / 2 ^ 24 := by
  rw [abs_le] at *
  have hw : w ^ 2 ≤ 1 + 1 / 2 ^ 10 := by
    have : w ^ 2 * (1 / 2 ^ 23 + 1 / 2 ^ 48) ≤ w ^ 2 * (1 / 2 ^ 22) := by
      apply mul_le_mul_of_nonneg_left (by norm_num) (sq_nonneg w)
    linarith
  have : w ^ 2 * (1 / 2 ^ 23 + 1 / 2 ^ 48) ≤ (1 + 1 / 2 ^ 10) * (1 / 2 ^ 23 + 1 / 2 ^ 48) :=
    mul_le_mul_of_nonneg_right hw (by norm_num)
  constructor <;> linarith

/-- A number that is not negative has no sign, except that it may be a zero. -/
theorem Fl.val_nonneg_of {x : Fl F} (h : x.neg = false) : 0 ≤ x.val := by
  rw [val, h, sg]; simp; positivity

theorem Fl.val_nonpos_of {x : Fl F} (h : x.neg = true) : x.val ≤ 0 := by
  rw [val, h, sg]; simp; positivity

/-- The fourth component completes the others to a unit quaternion. -/
theorem rotationW_error {x y z : Fl single} (fx : x.Fin) (fy : y.Fin) (fz : z.Fin)
    (hS : x.val ^ 2 + y.val ^ 2 + z.val ^ 2 ≤ 1 + 1 / 2 ^ 8) :
    (rotationW x y z).Fin ∧ (rotationW x y z).neg = false ∧
      ((rotationW x y z).val = 0 ∧ 1 - 5 / 2 ^ 24 ≤ x.val ^ 2 + y.val ^ 2 + z.val ^ 2 ∨
        |(rotationW x y z).val ^ 2 + (x.val ^ 2 + y.val ^ 2 + z.val ^ 2) - 1| ≤ 8 / 2 ^ 24) := by
  have lim : (4 : ℚ) < single.limit := lt_trans (by norm_num) single_limit_gt
  have hx2 := sq_nonneg x.val
  have hy2 := sq_nonneg y.val
  have hz2 := sq_nonneg z.val
  obtain ⟨fp, ep⟩ := mul_self_error fx (by linarith)
  obtain ⟨fq, eq⟩ := mul_self_error fy (by linarith)
  obtain ⟨fr, er⟩ := mul_self_error fz (by linarith)
  obtain ⟨f1, v1⟩ := single_ofNat (n := 1) (by decide)
  generalize ha : x.val ^ 2 = a at *
  generalize hb : y.val ^ 2 = b at *
  generalize hc : z.val ^ 2 = c at *
  have hp := abs_le.mp ep
  have hq := abs_le.mp eq
  have hr := abs_le.mp er
  obtain ⟨fs1, e1⟩ := Fl.add_error fp fq (by
    refine lt_of_le_of_lt ?_ lim
    rw [abs_le]; constructor <;> linarith) single_eb
  rw [single_eps] at e1
  have b1 : |(x.mul x).val + (y.mul y).val| ≤ 2 := by rw [abs_le]; constructor <;> linarith
  have hs1 := abs_le.mp (e1.trans (mul_le_mul_of_nonneg_right b1 (by norm_num)))
  have b1' := abs_le.mp b1
  obtain ⟨fs2, e2⟩ := Fl.add_error fs1 fr (by
    refine lt_of_le_of_lt ?_ lim
    rw [abs_le]; constructor <;> linarith) single_eb
  rw [single_eps] at e2
  have b2 : |((x.mul x).add (y.mul y)).val + (z.mul z).val| ≤ 2 := by rw [abs_le]; constructor <;> linarith
  have hs2 := abs_le.mp (e2.trans (mul_le_mul_of_nonneg_right b2 (by norm_num)))
  have b2' := abs_le.mp b2
  obtain ⟨fw, e3⟩ := Fl.sub_error f1 fs2 (by
    refine lt_of_le_of_lt ?_ lim
    rw [v1, abs_le]; push_cast; constructor <;> linarith) single_eb
  rw [single_eps, v1] at e3
  push_cast at e3
  have hw2 := w2_error hx2 hy2 hz2 hS ep eq er e1 e2 e3
  unfold rotationW
  generalize hW : (Fl.ofNat 1).sub (((x.mul x).add (y.mul y)).add (z.mul z)) = W at *
  have hw2' := abs_le.mp hw2
  cases hn : W.neg with
  | true =>
    simp only [hn, if_true]
    refine ⟨by decide, rfl, .inl ⟨Fl.val_zero _, ?_⟩⟩
    have := Fl.val_nonpos_of hn
    linarith
  | false =>
    simp only [hn, Bool.false_eq_true, if_false]
    obtain ⟨g1, _, g3, g4⟩ := Fl.sqrt_error fw hn (by linarith)
    exact ⟨g1, g3, .inr (root_final (by linarith) hw2 g4)⟩

end Verif.Ieee
