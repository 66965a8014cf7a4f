import Verif.Float.Values
import Mathlib.Tactic.GCongr
/-!
# The error of compressed floats
-/

namespace Verif.Ieee

theorem single_eps : single.eps = 1 / 2 ^ 24 := rfl
theorem double_eps : double.eps = 1 / 2 ^ 53 := rfl
theorem single_tiny : single.tiny = 1 / 2 ^ 150 := by
  rw [Fmt.tiny, single_scale]
theorem double_tiny_le : double.tiny ≤ 1 / 2 ^ 160 := by
  rw [Fmt.tiny, double_scale]
  exact one_div_le_one_div_of_le (by norm_num) (pow_le_pow_right₀ (by norm_num) (by norm_num))

theorem single_eb : 2 ≤ single.eb := by decide
theorem double_eb : 2 ≤ double.eb := by decide

theorem single_big_ge : (2 ^ 32 : ℚ) ≤ single.big := by
  rw [Fmt.big, le_div_iff₀ (by positivity), single_scale]
  have : 2 ^ 32 * 2 ^ 149 ≤ single.units (single.inf - 1) := by decide +kernel
  exact_mod_cast this

theorem double_big_ge : (2 ^ 200 : ℚ) ≤ double.big := by
  rw [Fmt.big, le_div_iff₀ (by positivity), double_scale]
  have : 2 ^ 200 * 2 ^ 1074 ≤ double.units (double.inf - 1) := by decide +kernel
  exact_mod_cast this

theorem single_limit_gt : (2 ^ 32 : ℚ) < single.limit := lt_of_le_of_lt single_big_ge (Fmt.big_lt_limit _ single_eb)
theorem double_limit_gt : (2 ^ 200 : ℚ) < double.limit := lt_of_le_of_lt double_big_ge (Fmt.big_lt_limit _ double_eb)

theorem single_ofNat {n : Nat} (h : n ≤ 2 ^ 24) : (Fl.ofNat n : Fl single).Fin ∧ (Fl.ofNat n : Fl single).val = n := by
  refine Fl.ofNat_val h (le_trans ?_ single_big_ge) single_eb
  have : (n : ℚ) ≤ 2 ^ 24 := by exact_mod_cast h
  linarith

theorem double_ofNat {n : Nat} (h : n ≤ 2 ^ 53) : (Fl.ofNat n : Fl double).Fin ∧ (Fl.ofNat n : Fl double).val = n := by
  refine Fl.ofNat_val h (le_trans ?_ double_big_ge) double_eb
  have : (n : ℚ) ≤ 2 ^ 53 := by exact_mod_cast h
  refine this.trans ?_
  exact pow_le_pow_right₀ (by norm_num) (by norm_num)

/-- `as u32`: the whole part, when it fits. -/
theorem toNat_val {F : Fmt} {x : Fl F} {limit : Nat} (hx : x.Fin) (hl : x.val ≤ limit) :
    (x.toNat limit : ℚ) ≤ max x.val 0 ∧ max x.val 0 < x.toNat limit + 1 ∧ x.toNat limit ≤ limit := by
  unfold Fl.toNat
  simp only [hx.not_nan, hx.not_inf, Bool.false_or, Bool.false_eq_true, if_false]
  have hs : 0 < 2 ^ F.scale := Nat.two_pow_pos _
  have hsq : (0 : ℚ) < 2 ^ F.scale := by positivity
  cases hn : x.neg with
  | true =>
    have : x.val ≤ 0 := by
      rw [Fl.val, hn]; simp only [sg, if_true]
      have : (0 : ℚ) ≤ F.units x.mag / 2 ^ F.scale := by positivity
      linarith
    simp [max_eq_right this]
  | false =>
    have hv : x.val = (F.units x.mag : ℚ) / 2 ^ F.scale := by rw [Fl.val, hn]; simp [sg]
    have h0 : 0 ≤ x.val := by rw [hv]; positivity
    have h1 : F.units x.mag / 2 ^ F.scale * 2 ^ F.scale ≤ F.units x.mag := Nat.div_mul_le_self _ _
    have h2 : F.units x.mag < (F.units x.mag / 2 ^ F.scale + 1) * 2 ^ F.scale := by
      have := Nat.div_add_mod (F.units x.mag) (2 ^ F.scale)
      have := Nat.mod_lt (F.units x.mag) hs
      rw [Nat.add_mul, Nat.mul_comm (_ / _)]
      omega
    have h3 : F.units x.mag / 2 ^ F.scale ≤ limit := by
      rw [hv, div_le_iff₀ hsq] at hl
      have : F.units x.mag ≤ limit * 2 ^ F.scale := by exact_mod_cast hl
      exact Nat.div_le_of_le_mul (by rw [Nat.mul_comm]; exact this)
    simp only [Bool.false_eq_true, if_false]
    rw [max_eq_left h0, Nat.min_eq_min, Nat.min_eq_left h3]
    generalize F.units x.mag / 2 ^ F.scale = c at *
    refine ⟨?_, ?_, h3⟩
    · rw [hv, le_div_iff₀ hsq]; exact_mod_cast h1
    · rw [hv, div_lt_iff₀ hsq]; exact_mod_cast h2

/-- The relative error of a quotient of rounded numbers. -/
theorem ratio_error {a b y X u : ℚ} (hu : 0 ≤ u) (hu1 : u < 1) (hX : 0 < X) (hy0 : 0 ≤ y) (hyX : y ≤ X)
    (ha : |a - y| ≤ y * u) (hb : |b - X| ≤ X * u) : |a / b - y / X| ≤ 2 * u / (1 - u) := by
  have hb1 : X * (1 - u) ≤ b := by have := (abs_le.mp hb).1; nlinarith
  have hbp : 0 < b := lt_of_lt_of_le (mul_pos hX (by linarith)) hb1
  have hne : b ≠ 0 := hbp.ne'
  have e : a / b - y / X = ((a - y) * X - y * (b - X)) / (b * X) := by field_simp; ring
  rw [e, abs_div, abs_of_pos (mul_pos hbp hX), div_le_div_iff₀ (mul_pos hbp hX) (by linarith)]
  have h1 : |(a - y) * X - y * (b - X)| ≤ 2 * u * (X * X) := by
    refine (abs_sub _ _).trans ?_
    rw [abs_mul, abs_mul, abs_of_pos hX, abs_of_nonneg hy0]
    have h2 : |a - y| * X ≤ y * u * X := mul_le_mul_of_nonneg_right ha hX.le
    have h3 : y * |b - X| ≤ y * (X * u) := mul_le_mul_of_nonneg_left hb hy0
    have h4 : y * (u * X) ≤ X * (u * X) := mul_le_mul_of_nonneg_right hyX (by positivity)
    nlinarith
  calc |(a - y) * X - y * (b - X)| * (1 - u) ≤ 2 * u * (X * X) * (1 - u) :=
        mul_le_mul_of_nonneg_right h1 (by linarith)
    _ = 2 * u * ((X * (1 - u)) * X) := by ring
    _ ≤ 2 * u * (b * X) := by gcongr

theorem compressIn_floats (v lo hi : Fl single) :
    compressIn (floats single) (Fl.toNat (2 ^ 32 - 1)) v lo hi 24 =
      Fl.toNat (2 ^ 32 - 1) (((v.sub lo).div (hi.sub lo)).mul (Fl.ofNat 16777215)) := rfl

/-- The smallest value is stored as 0. -/
theorem compress_lo {v lo hi : Fl single} (fv : v.Fin) (fl : lo.Fin) (fh : hi.Fin) (h : v.val = lo.val)
    (hlt : lo.val < hi.val) (hr : hi.val - lo.val < single.limit) :
    compressIn (floats single) (Fl.toNat (2 ^ 32 - 1)) v lo hi 24 = 0 := by
  obtain ⟨fS, vS⟩ := single_ofNat (n := 16777215) (by decide)
  have f0 : (Fl.zero false : Fl single).Fin := by decide
  obtain ⟨fa, va⟩ := Fl.sub_exact fv fl f0 (by rw [Fl.val_zero, h, sub_self])
  have hX : 0 < hi.val - lo.val := by linarith
  obtain ⟨fb, eb⟩ := Fl.sub_error fh fl (by rw [abs_of_pos hX]; exact hr) single_eb
  rw [abs_of_pos hX, single_eps] at eb
  rw [compressIn_floats]
  have hbp : (hi.sub lo).val ≠ 0 := by have := (abs_le.mp eb).1; intro h0; rw [h0] at this; linarith
  obtain ⟨fr, vr⟩ := Fl.div_exact fa fb f0 hbp (by rw [va, Fl.val_zero, zero_div])
  obtain ⟨fs, vs⟩ := Fl.mul_exact fr fS f0 (by rw [vr, Fl.val_zero, zero_mul])
  obtain ⟨c1, _, _⟩ := toNat_val (limit := 2 ^ 32 - 1) fs (by rw [vs, Fl.val_zero]; positivity)
  rw [vs, Fl.val_zero, max_self] at c1
  exact_mod_cast le_antisymm c1 (by positivity)

/-- The largest value is stored as the largest number of 24 bits. -/
theorem compress_hi {v lo hi : Fl single} (fv : v.Fin) (fl : lo.Fin) (fh : hi.Fin) (h : v.val = hi.val)
    (hlt : lo.val < hi.val) (hr : hi.val - lo.val < single.limit) :
    compressIn (floats single) (Fl.toNat (2 ^ 32 - 1)) v lo hi 24 = 16777215 := by
  obtain ⟨fS, vS⟩ := single_ofNat (n := 16777215) (by decide)
  obtain ⟨f1, v1⟩ := single_ofNat (n := 1) (by decide)
  have hX : 0 < hi.val - lo.val := by linarith
  obtain ⟨fb, eb⟩ := Fl.sub_error fh fl (by rw [abs_of_pos hX]; exact hr) single_eb
  obtain ⟨fa, ea⟩ := Fl.sub_error fv fl (by rw [h, abs_of_pos hX]; exact hr) single_eb
  rw [abs_of_pos hX, single_eps] at eb
  rw [h, abs_of_pos hX, single_eps] at ea
  have hab := le_antisymm (Fl.sub_mono fv fl fh fl (by rw [h])) (Fl.sub_mono fh fl fv fl (by rw [h]))
  rw [compressIn_floats]
  have hbp : 0 < (hi.sub lo).val := by have := (abs_le.mp eb).1; linarith
  have hap : 0 < (v.sub lo).val := by have := (abs_le.mp ea).1; linarith
  rw [abs_of_pos hap, abs_of_pos hbp] at hab
  obtain ⟨fr, vr⟩ := Fl.div_exact fa fb f1 hbp.ne' (by rw [hab, v1, div_self hbp.ne']; simp)
  obtain ⟨fs, vs⟩ := Fl.mul_exact fr fS fS (by rw [vr, v1]; simp)
  have hl : ((((v.sub lo).div (hi.sub lo)).mul (Fl.ofNat 16777215)).val : ℚ) ≤ ((2 ^ 32 - 1 : Nat) : ℚ) := by
    rw [vs, vS]; exact_mod_cast (by decide : 16777215 ≤ 2 ^ 32 - 1)
  obtain ⟨c1, c2, _⟩ := toNat_val (limit := 2 ^ 32 - 1) fs hl
  rw [vs, vS, max_eq_left (by positivity)] at c1 c2
  have h1 : Fl.toNat (2 ^ 32 - 1) (((v.sub lo).div (hi.sub lo)).mul (Fl.ofNat 16777215)) ≤ 16777215 := by
    exact_mod_cast c1
  have h2 : 16777215 < Fl.toNat (2 ^ 32 - 1) (((v.sub lo).div (hi.sub lo)).mul (Fl.ofNat 16777215)) + 1 := by
    exact_mod_cast c2
  omega

/-- The quantized value is within 5 steps of the exact position in the range. -/
theorem compress_error {v lo hi : Fl single} (fv : v.Fin) (fl : lo.Fin) (fh : hi.Fin) (h1 : lo.val ≤ v.val)
    (h2 : v.val ≤ hi.val) (hlt : lo.val < hi.val) (hr : hi.val - lo.val < single.limit) :
    compressIn (floats single) (Fl.toNat (2 ^ 32 - 1)) v lo hi 24 ≤ 16777215 ∧
      |(compressIn (floats single) (Fl.toNat (2 ^ 32 - 1)) v lo hi 24 : ℚ) / 16777215
        - (v.val - lo.val) / (hi.val - lo.val)| ≤ 5 / 16777215 := by
  obtain ⟨fS, vS⟩ := single_ofNat (n := 16777215) (by decide)
  obtain ⟨f1, v1⟩ := single_ofNat (n := 1) (by decide)
  have hS : bitMask 24 = 16777215 := by decide
  show Fl.toNat (2 ^ 32 - 1) (((v.sub lo).div (hi.sub lo)).mul (Fl.ofNat (bitMask 24))) ≤ _ ∧ _
  show _ ∧ |(Fl.toNat (2 ^ 32 - 1) (((v.sub lo).div (hi.sub lo)).mul (Fl.ofNat (bitMask 24))) : ℚ) / _ - _| ≤ _
  rw [hS]
  have hX : 0 < hi.val - lo.val := by linarith
  have hy : 0 ≤ v.val - lo.val := by linarith
  have hyX : v.val - lo.val ≤ hi.val - lo.val := by linarith
  obtain ⟨fa, ea⟩ := Fl.sub_error fv fl (by rw [abs_of_nonneg hy]; linarith) single_eb
  obtain ⟨fb, eb⟩ := Fl.sub_error fh fl (by rw [abs_of_pos hX]; exact hr) single_eb
  have hab := Fl.sub_mono fv fl fh fl (by rw [abs_of_nonneg hy, abs_of_pos hX]; exact hyX)
  rw [abs_of_nonneg hy, single_eps] at ea
  rw [abs_of_pos hX, single_eps] at eb
  generalize hga : v.sub lo = a at *
  generalize hgb : hi.sub lo = b at *
  have hbp : 0 < b.val := by have := (abs_le.mp eb).1; linarith
  have habs : |a.val / b.val| ≤ 1 := by
    rw [abs_div, div_le_one (abs_pos.mpr hbp.ne')]; exact hab
  have hrat := ratio_error (u := 1 / 2 ^ 24) (by norm_num) (by norm_num) hX hy hyX ea eb
  obtain ⟨fr, er⟩ := Fl.div_error fa fb hbp.ne' (lt_of_le_of_lt habs (by linarith [single_limit_gt])) single_eb
  have hr1 := Fl.div_le fa fb f1 hbp.ne' (by rw [v1]; simpa using habs)
  rw [v1] at hr1
  have er' : |(a.div b).val - a.val / b.val| ≤ 1 / 2 ^ 24 := by
    refine er.trans (max_le ?_ ?_)
    · rw [single_eps]; linarith
    · rw [single_tiny]
      exact one_div_le_one_div_of_le (by norm_num) (by norm_num)
  generalize a.div b = r at *
  have hr1' : |r.val| ≤ 1 := by simpa using hr1
  have hrs : |r.val * (Fl.ofNat 16777215 : Fl single).val| ≤ 16777215 := by
    rw [vS, abs_mul]
    have : |((16777215 : Nat) : ℚ)| = 16777215 := by norm_num
    rw [this]; linarith
  obtain ⟨fs, es⟩ := Fl.mul_error fr fS (lt_of_le_of_lt hrs (by linarith [single_limit_gt])) single_eb
  have hs1 := Fl.mul_le fr fS fS (by rw [vS] at hrs ⊢; exact hrs.trans (le_abs_self _))
  have es' : |(r.mul (Fl.ofNat 16777215)).val - r.val * (Fl.ofNat 16777215 : Fl single).val| ≤ 16777215 / 2 ^ 24 := by
    refine es.trans (max_le ?_ ?_)
    · rw [single_eps]; linarith
    · rw [single_tiny]
      exact (one_div_le_one_div_of_le (by norm_num) (by norm_num : (2 ^ 24 : ℚ) ≤ 2 ^ 150)).trans (by norm_num)
  rw [vS] at es' hs1
  generalize r.mul (Fl.ofNat 16777215) = s at *
  have hs2 : |s.val| ≤ 16777215 := by simpa using hs1
  have hsl : s.val ≤ ((2 ^ 32 - 1 : Nat) : ℚ) := by
    have := (abs_le.mp hs2).2
    refine this.trans (by norm_num)
  obtain ⟨c1, c2, c3⟩ := toNat_val fs hsl
  generalize s.toNat (2 ^ 32 - 1) = c at *
  have hcS : (c : ℚ) ≤ 16777215 := c1.trans (max_le (abs_le.mp hs2).2 (by norm_num))
  refine ⟨by exact_mod_cast hcS, ?_⟩
  push_cast at es'
  have he0 : 0 ≤ (v.val - lo.val) / (hi.val - lo.val) := div_nonneg hy hX.le
  generalize (v.val - lo.val) / (hi.val - lo.val) = e at *
  obtain ⟨s1, s2⟩ := abs_le.mp es'
  obtain ⟨r1, r2⟩ := abs_le.mp er'
  have hu : 2 * (1 / 2 ^ 24 : ℚ) / (1 - 1 / 2 ^ 24) = 2 / 16777215 := by norm_num
  rw [hu] at hrat
  obtain ⟨t1, t2⟩ := abs_le.mp hrat
  generalize a.val / b.val = ab at *
  have b1 : s.val ≤ 16777215 * e + 4 := by norm_num at *; linarith
  have b2 : 16777215 * e - 4 ≤ s.val := by norm_num at *; linarith
  have b3 : max s.val 0 ≤ 16777215 * e + 4 := max_le b1 (by linarith)
  have b4 : 16777215 * e - 4 ≤ max s.val 0 := b2.trans (le_max_left _ _)
  have e1 : (c : ℚ) / 16777215 - e = (c - 16777215 * e) / 16777215 := by ring
  rw [e1, abs_div, abs_of_pos (by norm_num : (0 : ℚ) < 16777215), div_le_div_iff_of_pos_right (by norm_num), abs_le]
  constructor <;> linarith

theorem decompressIn_floats (F : Fmt) (c : Nat) (lo hi : Fl F) (n : Nat) :
    decompressIn (floats F) c lo hi n = (lo.mul ((Fl.ofNat 1).sub ((Fl.ofNat c).div (Fl.ofNat (bitMask n))))).add
      (hi.mul ((Fl.ofNat c).div (Fl.ofNat (bitMask n)))) := rfl

theorem lerp_bounds {M L H q t u p r w : ℚ} (hM0 : 0 ≤ M) (hl : |L| ≤ M) (hh : |H| ≤ M) (hq0 : 0 ≤ q) (hq1 : q ≤ 1)
    (et : |t - q| ≤ 1 / 2 ^ 53) (eu : |u - (1 - t)| ≤ 1 / 2 ^ 53) (ep : |p - L * u| ≤ M * (1 / 2 ^ 53) + w)
    (er : |r - H * t| ≤ M * (1 / 2 ^ 53) + w) :
    |p + r - (L * (1 - q) + H * q)| ≤ M * (5 / 2 ^ 53) + 2 * w ∧ |L * (1 - q) + H * q| ≤ M := by
  have d1 : |L * u - L * (1 - q)| ≤ M * (2 / 2 ^ 53) := by
    rw [← mul_sub, abs_mul]
    refine mul_le_mul hl ?_ (abs_nonneg _) hM0
    have := abs_le.mp eu
    have := abs_le.mp et
    rw [abs_le]; constructor <;> linarith
  have d2 : |H * t - H * q| ≤ M * (1 / 2 ^ 53) := by
    rw [← mul_sub, abs_mul]
    exact mul_le_mul hh et (abs_nonneg _) hM0
  constructor
  · obtain ⟨p1, p2⟩ := abs_le.mp ep
    obtain ⟨q1, q2⟩ := abs_le.mp er
    obtain ⟨x1, x2⟩ := abs_le.mp d1
    obtain ⟨y1, y2⟩ := abs_le.mp d2
    clear ep er d1 d2 et eu hl hh
    rw [abs_le]; constructor <;> linarith
  · refine (abs_add_le _ _).trans ?_
    rw [abs_mul, abs_mul, abs_of_nonneg hq0, abs_of_nonneg (by linarith : 0 ≤ 1 - q)]
    have := mul_le_mul_of_nonneg_right hl (by linarith : 0 ≤ 1 - q)
    have := mul_le_mul_of_nonneg_right hh hq0
    linarith

theorem lerp_sum {M A s w : ℚ} (hM0 : 0 ≤ M) (hw : w ≤ 1 / 4) (hs : |s - A| ≤ M * (5 / 2 ^ 53) + 2 * w)
    (hA : |A| ≤ M) : |s| ≤ 2 * M + 1 := by
  have small : M * (5 / 2 ^ 53) ≤ M := mul_le_of_le_one_right hM0 (by norm_num)
  obtain ⟨h1, h2⟩ := abs_le.mp hs
  obtain ⟨h3, h4⟩ := abs_le.mp hA
  rw [abs_le]; constructor <;> linarith

theorem lerp_final {M A s z w : ℚ} (hM0 : 0 ≤ M) (w0 : 0 ≤ w) (hw : 32 * w ≤ 1 / 2 ^ 155) (hA : |A| ≤ M)
    (hs : |s - A| ≤ M * (5 / 2 ^ 53) + 2 * w) (ez : |z - s| ≤ |s| * (1 / 2 ^ 53)) :
    |z - A| ≤ M / 2 ^ 50 + 1 / 2 ^ 155 := by
  have small : M * (5 / 2 ^ 53) ≤ M := mul_le_of_le_one_right hM0 (by norm_num)
  obtain ⟨h1, h2⟩ := abs_le.mp hs
  obtain ⟨h3, h4⟩ := abs_le.mp hA
  have hsum : |s| ≤ 2 * M + 2 * w := by rw [abs_le]; constructor <;> linarith
  have h5 : |s| * (1 / 2 ^ 53) ≤ M * (2 / 2 ^ 53) + 2 * w := by
    have h6 := mul_le_mul_of_nonneg_right hsum (by norm_num : (0 : ℚ) ≤ 1 / 2 ^ 53)
    have h7 : (2 * w) * (1 / 2 ^ 53) ≤ 2 * w := mul_le_of_le_one_right (by linarith) (by norm_num)
    linarith
  obtain ⟨k1, k2⟩ := abs_le.mp (ez.trans h5)
  have fin : M / 2 ^ 50 = M * (5 / 2 ^ 53) + M * (2 / 2 ^ 53) + M * (1 / 2 ^ 53) := by ring
  have : 0 ≤ M * (1 / 2 ^ 53) := mul_nonneg hM0 (by norm_num)
  rw [fin, abs_le]
  constructor <;> linarith

/-- The result of the interpolation in `f64`. -/
theorem lerp_error {lo hi : Fl double} (fl : lo.Fin) (fh : hi.Fin) (M : ℚ) (hl : |lo.val| ≤ M) (hh : |hi.val| ≤ M)
    (hM : M ≤ 2 ^ 128) (c : Nat) (hc : c ≤ 16777215) :
    (decompressIn (floats double) c lo hi 24).Fin ∧
      |(decompressIn (floats double) c lo hi 24).val
        - (lo.val * (1 - (c : ℚ) / 16777215) + hi.val * ((c : ℚ) / 16777215))| ≤ M / 2 ^ 50 + 1 / 2 ^ 155 := by
  have hS : bitMask 24 = 16777215 := by decide
  rw [decompressIn_floats, hS]
  obtain ⟨fS, vS⟩ := double_ofNat (n := 16777215) (by decide)
  obtain ⟨f1, v1⟩ := double_ofNat (n := 1) (by decide)
  obtain ⟨fc, vc⟩ := double_ofNat (n := c) (by omega)
  have hM0 : 0 ≤ M := (abs_nonneg _).trans hl
  have hcq : (c : ℚ) ≤ 16777215 := by exact_mod_cast hc
  have hc0 : (0 : ℚ) ≤ c := by positivity
  have hq0 : 0 ≤ (c : ℚ) / 16777215 := by positivity
  have hq1 : (c : ℚ) / 16777215 ≤ 1 := by rw [div_le_one (by norm_num)]; exact hcq
  have hlim := double_limit_gt
  have h200 : (2 ^ 128 : ℚ) * 4 ≤ 2 ^ 200 := by norm_num
  have h128 : (0 : ℚ) < 2 ^ 128 := by norm_num
  have hone : (1 : ℚ) ≤ 2 ^ 128 := by norm_num
  have vS' : (Fl.ofNat 16777215 : Fl double).val = 16777215 := by rw [vS]; norm_num
  have v1' : (Fl.ofNat 1 : Fl double).val = 1 := by rw [v1]; norm_num
  -- t
  obtain ⟨ft, et⟩ := Fl.div_error fc fS (by rw [vS']; norm_num)
    (by rw [vS', vc, abs_of_nonneg hq0]; linarith) double_eb
  have ht1 := Fl.div_le fc fS f1 (by rw [vS']; norm_num) (by rw [vS', vc, v1', abs_of_nonneg hq0]; simpa using hq1)
  rw [vS', vc, abs_of_nonneg hq0, double_eps] at et
  rw [v1', abs_one] at ht1
  have ht0 : 0 ≤ ((Fl.ofNat c : Fl double).div (Fl.ofNat 16777215)).val :=
    Fl.div_nonneg fc fS (by rw [vS']; norm_num) rfl
  generalize (Fl.ofNat c : Fl double).div (Fl.ofNat 16777215) = t at *
  generalize (c : ℚ) / 16777215 = q at *
  have w0 : 0 < double.tiny := double.tiny_pos
  have w1 : double.tiny ≤ 1 / 2 ^ 53 := double_tiny_le.trans (by norm_num)
  have w2 : 32 * double.tiny ≤ 1 / 2 ^ 155 := by
    have := double_tiny_le
    norm_num at *
    linarith
  have et' : |t.val - q| ≤ 1 / 2 ^ 53 := by
    refine et.trans (max_le ?_ w1)
    have : (0 : ℚ) ≤ 1 / 2 ^ 53 := by norm_num
    nlinarith
  have ht1' := (abs_le.mp ht1).2
  -- 1 - t
  have h1t : |(Fl.ofNat 1 : Fl double).val - t.val| ≤ 1 := by rw [v1', abs_le]; constructor <;> linarith
  obtain ⟨fu, eu⟩ := Fl.sub_error f1 ft (by linarith) double_eb
  have hu1 := Fl.sub_le f1 ft f1 (by rw [v1', abs_one]; rw [v1'] at h1t; exact h1t)
  rw [v1', abs_one] at hu1
  rw [v1', double_eps] at eu
  rw [v1'] at h1t
  generalize (Fl.ofNat 1 : Fl double).sub t = u at *
  have eu' : |u.val - (1 - t.val)| ≤ 1 / 2 ^ 53 := by
    refine eu.trans ?_
    have : (0 : ℚ) ≤ 1 / 2 ^ 53 := by norm_num
    nlinarith
  have hlu : |lo.val * u.val| ≤ M := by
    rw [abs_mul]; calc _ ≤ M * 1 := mul_le_mul hl hu1 (abs_nonneg _) hM0
      _ = M := mul_one _
  have hht : |hi.val * t.val| ≤ M := by
    rw [abs_mul]; calc _ ≤ M * 1 := mul_le_mul hh ht1 (abs_nonneg _) hM0
      _ = M := mul_one _
  obtain ⟨fp, ep⟩ := Fl.mul_error fl fu (by linarith) double_eb
  obtain ⟨fq, eq⟩ := Fl.mul_error fh ft (by linarith) double_eb
  rw [double_eps] at ep eq
  generalize double.tiny = w at *
  have mm : ∀ z : ℚ, 0 ≤ z → z ≤ M → max (z * (1 / 2 ^ 53)) w ≤ M * (1 / 2 ^ 53) + w := by
    intro z h0 h
    have hz : z * (1 / 2 ^ 53) ≤ M * (1 / 2 ^ 53) := mul_le_mul_of_nonneg_right h (by norm_num)
    have hz0 : 0 ≤ M * (1 / 2 ^ 53) := mul_nonneg hM0 (by norm_num)
    exact max_le (by linarith) (by linarith)
  have ep' := ep.trans (mm _ (abs_nonneg _) hlu)
  have eq' := eq.trans (mm _ (abs_nonneg _) hht)
  generalize lo.mul u = p at *
  generalize hi.mul t = r at *
  obtain ⟨b1, b2⟩ := lerp_bounds hM0 hl hh hq0 hq1 et' eu' ep' eq'
  have w3 : w ≤ 1 / 4 := w1.trans (by norm_num)
  obtain ⟨fz, ez⟩ := Fl.add_error fp fq (lt_of_le_of_lt (lerp_sum hM0 w3 b1 b2) (by linarith)) double_eb
  rw [double_eps] at ez
  exact ⟨fz, lerp_final hM0 w0.le w2 b2 b1 ez⟩

theorem single_big_eq : single.big = (2 ^ 24 - 1) * 2 ^ 104 := by
  rw [Fmt.big, single_scale]
  have : single.units (single.inf - 1) = (2 ^ 24 - 1) * 2 ^ 104 * 2 ^ 149 := by decide +kernel
  rw [this]
  push_cast
  field_simp
  norm_num

theorem single_limit_eq : single.limit = (2 ^ 25 - 1) * 2 ^ 103 := by
  rw [Fmt.limit, single_scale, units_single_inf, show 277 = 253 + 24 from rfl, Nat.pow_add]
  norm_num

/-- The decompressed value. -/
theorem decompress_error {lo hi : Fl single} (fl : lo.Fin) (fh : hi.Fin) (M : ℚ) (hl : |lo.val| ≤ M)
    (hh : |hi.val| ≤ M) (hM : M ≤ single.big) (c : Nat) (hc : c ≤ 16777215) :
    ((decompressIn (floats double) c (lo.convert double) (hi.convert double) 24).convert single).Fin ∧
      |((decompressIn (floats double) c (lo.convert double) (hi.convert double) 24).convert single).val
        - (lo.val * (1 - (c : ℚ) / 16777215) + hi.val * ((c : ℚ) / 16777215))| ≤ M / 2 ^ 23 + 1 / 2 ^ 149 := by
  obtain ⟨fl', vl, _⟩ := to_double fl
  obtain ⟨fh', vh, _⟩ := to_double fh
  have hM0 : 0 ≤ M := (abs_nonneg _).trans hl
  rw [single_big_eq] at hM
  obtain ⟨fz, ez⟩ := lerp_error fl' fh' M (by rw [vl]; exact hl) (by rw [vh]; exact hh)
    (hM.trans (by norm_num)) c hc
  rw [vl, vh] at ez
  generalize decompressIn (floats double) c (lo.convert double) (hi.convert double) 24 = z at *
  have hD : |lo.val * (1 - (c : ℚ) / 16777215) + hi.val * ((c : ℚ) / 16777215)| ≤ M := by
    have hcq : (c : ℚ) ≤ 16777215 := by exact_mod_cast hc
    have hq0 : 0 ≤ (c : ℚ) / 16777215 := by positivity
    have hq1 : (c : ℚ) / 16777215 ≤ 1 := by rw [div_le_one (by norm_num)]; exact hcq
    generalize (c : ℚ) / 16777215 = q at *
    refine (abs_add_le _ _).trans ?_
    rw [abs_mul, abs_mul, abs_of_nonneg hq0, abs_of_nonneg (by linarith : 0 ≤ 1 - q)]
    have := mul_le_mul_of_nonneg_right hl (by linarith : 0 ≤ 1 - q)
    have := mul_le_mul_of_nonneg_right hh hq0
    nlinarith
  generalize lo.val * (1 - (c : ℚ) / 16777215) + hi.val * ((c : ℚ) / 16777215) = D at *
  obtain ⟨e1, e2⟩ := abs_le.mp ez
  obtain ⟨d1, d2⟩ := abs_le.mp hD
  have t1 : (1 : ℚ) / 2 ^ 155 ≤ 1 / 2 ^ 152 := by norm_num
  have t2 : (1 : ℚ) / 2 ^ 152 ≤ 1 := by norm_num
  have hz : |z.val| ≤ M + M / 2 ^ 50 + 1 / 2 ^ 152 := by
    rw [abs_le]; constructor <;> linarith
  have hlim : |z.val| < single.limit := by
    rw [single_limit_eq]
    refine lt_of_le_of_lt hz ?_
    have : M / 2 ^ 50 ≤ (2 ^ 24 - 1) * 2 ^ 104 / 2 ^ 50 := by gcongr
    norm_num at *
    linarith
  obtain ⟨fo, eo⟩ := Fl.convert_error fz hlim single_eb
  refine ⟨fo, ?_⟩
  rw [single_eps, single_tiny] at eo
  have h50 : M / 2 ^ 50 = M * (1 / 2 ^ 50) := by ring
  have h23 : M / 2 ^ 23 = M * (1 / 2 ^ 23) := by ring
  have eo' : |(z.convert single).val - z.val| ≤ M * (1 / 2 ^ 24 + 1 / 2 ^ 50) + 1 / 2 ^ 150 := by
    refine eo.trans (max_le ?_ ?_)
    · have h3 := mul_le_mul_of_nonneg_right hz (by norm_num : (0 : ℚ) ≤ 1 / 2 ^ 24)
      have h4 : (M + M / 2 ^ 50 + 1 / 2 ^ 152) * (1 / 2 ^ 24) =
          M * (1 / 2 ^ 24 + 1 / 2 ^ 74) + 1 / 2 ^ 176 := by ring
      have h5 : M * (1 / 2 ^ 24 + 1 / 2 ^ 74) ≤ M * (1 / 2 ^ 24 + 1 / 2 ^ 50) :=
        mul_le_mul_of_nonneg_left (by norm_num) hM0
      have h6 : (1 : ℚ) / 2 ^ 176 ≤ 1 / 2 ^ 150 := by norm_num
      linarith
    · have : 0 ≤ M * (1 / 2 ^ 24 + 1 / 2 ^ 50 : ℚ) := mul_nonneg hM0 (by norm_num)
      linarith
  obtain ⟨o1, o2⟩ := abs_le.mp eo'
  have h8 : M * (1 / 2 ^ 24 + 1 / 2 ^ 50) + M * (1 / 2 ^ 50) ≤ M * (1 / 2 ^ 23) := by
    rw [← mul_add]; exact mul_le_mul_of_nonneg_left (by norm_num) hM0
  have h9 : (1 : ℚ) / 2 ^ 150 + 1 / 2 ^ 152 ≤ 1 / 2 ^ 149 := by norm_num
  rw [abs_le]
  constructor <;> linarith

/-- 0 is decompressed to the smallest value. -/
theorem decompress_lo {lo hi : Fl single} (fl : lo.Fin) (fh : hi.Fin) :
    ((decompressIn (floats double) 0 (lo.convert double) (hi.convert double) 24).convert single).Fin ∧
      ((decompressIn (floats double) 0 (lo.convert double) (hi.convert double) 24).convert single).val = lo.val := by
  obtain ⟨fl', vl, _⟩ := to_double fl
  obtain ⟨fh', vh, _⟩ := to_double fh
  obtain ⟨fS, vS⟩ := double_ofNat (n := bitMask 24) (by decide)
  obtain ⟨f1, v1⟩ := double_ofNat (n := 1) (by decide)
  obtain ⟨f0, v0⟩ := double_ofNat (n := 0) (by decide)
  have vS' : (Fl.ofNat (bitMask 24) : Fl double).val ≠ 0 := by
    rw [vS]; exact_mod_cast (by decide : bitMask 24 ≠ 0)
  rw [decompressIn_floats]
  obtain ⟨ft, vt⟩ := Fl.div_exact f0 fS f0 vS' (by rw [v0]; simp)
  obtain ⟨fu, vu⟩ := Fl.sub_exact f1 ft f1 (by rw [vt, v0]; simp)
  obtain ⟨fp, vp⟩ := Fl.mul_exact fl' fu fl' (by rw [vu, v1]; simp)
  obtain ⟨fq, vq⟩ := Fl.mul_exact fh' ft f0 (by rw [vt, v0]; simp)
  obtain ⟨fz, vz⟩ := Fl.add_exact fp fq fl' (by rw [vp, vq, v0]; simp)
  exact Fl.convert_exact_val fz fl (by rw [vz, vl])

/-- The largest number is decompressed to the largest value. -/
theorem decompress_hi {lo hi : Fl single} (fl : lo.Fin) (fh : hi.Fin) :
    ((decompressIn (floats double) 16777215 (lo.convert double) (hi.convert double) 24).convert single).Fin ∧
      ((decompressIn (floats double) 16777215 (lo.convert double) (hi.convert double) 24).convert single).val
        = hi.val := by
  obtain ⟨fl', vl, _⟩ := to_double fl
  obtain ⟨fh', vh, _⟩ := to_double fh
  have hS : bitMask 24 = 16777215 := by decide
  obtain ⟨fS, vS⟩ := double_ofNat (n := 16777215) (by decide)
  obtain ⟨f1, v1⟩ := double_ofNat (n := 1) (by decide)
  obtain ⟨f0, v0⟩ := double_ofNat (n := 0) (by decide)
  have vS' : (Fl.ofNat 16777215 : Fl double).val ≠ 0 := by rw [vS]; norm_num
  rw [decompressIn_floats, hS]
  obtain ⟨ft, vt⟩ := Fl.div_exact fS fS f1 vS' (by rw [v1, div_self vS']; simp)
  obtain ⟨fu, vu⟩ := Fl.sub_exact f1 ft f0 (by rw [vt, v1, v0]; simp)
  obtain ⟨fp, vp⟩ := Fl.mul_exact fl' fu f0 (by rw [vu, v0]; simp)
  obtain ⟨fq, vq⟩ := Fl.mul_exact fh' ft fh' (by rw [vt, v1]; simp)
  obtain ⟨fz, vz⟩ := Fl.add_exact fp fq fh' (by rw [vp, vq, v0]; simp)
  exact Fl.convert_exact_val fz fh (by rw [vz, vh])

/-! ## Bit patterns -/

theorem toBits_ofBits (x : UInt32) : toBits (ofBits x) = x := by
  apply UInt32.toNat_inj.mp
  have hx := x.toNat_lt
  unfold toBits ofBits
  simp only [UInt32.toNat_ofNat']
  have h1 : x.toNat.testBit 31 = decide (2 ^ 31 ≤ x.toNat) := by
    rw [Nat.testBit_eq_decide_div_mod_eq]
    have : x.toNat / 2 ^ 31 % 2 = 1 ↔ 2 ^ 31 ≤ x.toNat := by omega
    simp only [this]
  rw [h1]
  by_cases h : 2 ^ 31 ≤ x.toNat
  · simp only [h, decide_true, if_true]; omega
  · simp only [h, decide_false, Bool.false_eq_true, if_false]; omega

theorem ofBits_toBits {x : Fl single} (h : x.mag < 2 ^ 31) : ofBits (toBits x) = x := by
  obtain ⟨neg, mag⟩ := x
  simp only at h
  unfold toBits ofBits
  simp only [UInt32.toNat_ofNat', Fl.mk.injEq]
  cases neg
  · simp only [Bool.false_eq_true, if_false, Nat.add_zero]
    rw [Nat.mod_eq_of_lt (by omega)]
    refine ⟨Nat.testBit_lt_two_pow h, by omega⟩
  · simp only [if_true]
    rw [Nat.mod_eq_of_lt (by omega), Nat.testBit_eq_decide_div_mod_eq]
    refine ⟨?_, by omega⟩
    simp only [decide_eq_true_eq]
    omega

theorem single_inf_lt : single.inf < 2 ^ 31 := by decide

theorem Fl.Fin.ofBits_toBits {x : Fl single} (h : x.Fin) : ofBits (toBits x) = x :=
  Ieee.ofBits_toBits (Nat.lt_trans h single_inf_lt)

end Verif.Ieee
