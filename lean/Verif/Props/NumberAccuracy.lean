import Verif.Json.NumberExtremes
import Verif.Props.JsonGrammar
/-!
# C106: how exact a number in the text of JSON is read

`textNumber i f e` (`Json/NumberSpec.lean`) is the number that the text `i ++ f ++ e` denotes, with any number of digits; `magnitude a`
(`Props/FloatText.lean`) is the float with the bits `a`.
-/

namespace Verif.Props
open Verif Verif.Json Verif.Ieee

/-- The text of a number. -/
def signedText (neg : Bool) (i f e : List Char) : String := String.ofList ((if neg then ['-'] else []) ++ (i ++ (f ++ e)))

/-- The number is not one of the integers that are read as integers (`C105_integer`). -/
def ReadAsFloat (neg : Bool) (i f e : List Char) : Prop :=
  f ≠ [] ∨ e ≠ [] ∨ 2 ^ 64 ≤ digitsNumber i ∨ neg = true ∧ 2 ^ 63 < digitsNumber i

theorem signedText_read {neg : Bool} {i f e : List Char} (hi : IntPart i) (hf : FracPart f) (he : ExpPart e) {j : J}
    (h : parseNumber neg (i ++ (f ++ e)) = some (j, [])) : fromText (signedText neg i f e) = some j := by
  have h1 := (numberValue_iff neg ⟨i, f, e, hi, hf, he, rfl⟩ j).mpr h
  unfold NumberValue at h1
  rw [← h1, signedText]
  cases neg <;> rfl

theorem signedText_double {neg : Bool} {i f e : List Char} (hi : IntPart i) (hf : FracPart f) (he : ExpPart e)
    (hc : ReadAsFloat neg i f e) (h1 : 1 / 2 ^ 160 ≤ textNumber i f e) (h2 : textNumber i f e ≤ 2 ^ 130) :
    ∃ x : Fl double, x.Fin ∧ 0 < x.val ∧ |x.val - textNumber i f e| ≤ textNumber i f e * (1 / 2 ^ 50) ∧
      x.convert single = ⟨false, single.nearest x.val⟩ ∧
      fromText (signedText neg i f e) = some (.flt (toBits ⟨neg, single.nearest x.val⟩)) := by
  obtain ⟨x, x1, x2, x3, x4⟩ := parseNumber_double hi hf he neg hc h1 h2
  have hv0 : 0 < textNumber i f e := lt_of_lt_of_le (by norm_num) h1
  have hx0 : 0 < x.val := by
    have := (abs_le.mp x3).1
    linarith
  have hconv := convert_signed x1 x2
  rw [abs_of_pos hx0] at hconv
  refine ⟨x, x1, hx0, x3, hconv false, ?_⟩
  rw [hconv neg] at x4
  exact signedText_read hi hf he x4

/-- Floats next to each other. -/
theorem magnitude_gap {a b : Nat} (h : b < a) : magnitude b + magnitude a / 2 ^ 24 ≤ magnitude a := by
  obtain ⟨c, rfl⟩ : ∃ c, a = c + 1 := ⟨a - 1, by omega⟩
  obtain ⟨g, N, e, hs, hN⟩ := single.exists_split c
  rw [show single.mb = 23 from rfl] at e hs hN
  have h1 : single.units c = N * 2 ^ g := by rw [e]; exact single.units_split g N hs (Nat.le_of_lt hN)
  have h2 : single.units (c + 1) = (N + 1) * 2 ^ g := by
    rw [e, Nat.add_assoc]
    exact single.units_split g (N + 1) (by rw [show single.mb = 23 from rfl]; omega) hN
  have h3 : single.units b ≤ single.units c := single.units_strictMono.monotone (by omega)
  have h3q : (single.units b : ℚ) ≤ N * 2 ^ g := by rw [h1] at h3; exact_mod_cast h3
  have hNq : (N : ℚ) + 1 ≤ 2 ^ 24 := by exact_mod_cast hN
  have h2g : (0 : ℚ) < 2 ^ g := by positivity
  rw [magnitude, magnitude, h2]
  push_cast
  have hp : (0 : ℚ) < 2 ^ 149 := by positivity
  have h4 : ((N : ℚ) + 1) * 2 ^ g / 2 ^ 24 ≤ 2 ^ g := by
    rw [div_le_iff₀ (by positivity)]
    nlinarith
  have h5 : (single.units b : ℚ) + (N + 1) * 2 ^ g / 2 ^ 24 ≤ (N + 1) * 2 ^ g := by linarith
  have h6 := div_le_div_of_nonneg_right h5 hp.le
  rw [add_div, div_right_comm] at h6
  exact h6

theorem magnitude_bounds {a : Nat} (h0 : 0 < a) (ha : a < infinity) : 1 / 2 ^ 149 ≤ magnitude a ∧ magnitude a ≤ 2 ^ 128 := by
  constructor
  · have h : 0 < single.units a := single.units_pos h0
    have hq : (1 : ℚ) ≤ single.units a := by exact_mod_cast h
    exact div_le_div_of_nonneg_right hq (by positivity)
  · have h : single.units a ≤ 2 ^ 128 * 2 ^ 149 := by
      have h1 : single.units infinity = 2 ^ 128 * 2 ^ 149 := by decide +kernel
      rw [← h1]
      exact single.units_strictMono.monotone ha.le
    rw [magnitude, div_le_iff₀ (by positivity)]
    exact_mod_cast h

theorem signedText_none {neg : Bool} {i f e : List Char} (hi : IntPart i) (hf : FracPart f) (he : ExpPart e)
    (h : parseNumber neg (i ++ (f ++ e)) = none) : fromText (signedText neg i f e) = none := by
  cases hr : fromText (signedText neg i f e) with
  | none => rfl
  | some j =>
    have h1 : NumberValue (if neg then '-' :: (i ++ (f ++ e)) else i ++ (f ++ e)) j := by
      unfold NumberValue
      rw [← hr, signedText]
      cases neg <;> rfl
    have h2 := (numberValue_iff neg ⟨i, f, e, hi, hf, he, rfl⟩ j).mp h1
    rw [h] at h2
    cases h2

theorem textNumber_nonneg (i f e : List Char) : 0 ≤ textNumber i f e :=
  mul_nonneg (Nat.cast_nonneg _) (zpow_ten_pos _).le

/-- The number of an integer. -/
theorem textNumber_int (i : List Char) : textNumber i [] [] = digitsNumber i := by
  have e : Nat.ofDigitChars 10 i 0 = digitsNumber i := rfl
  simp [textNumber, fracDigits, exponentNumber, e]

/-- C106: numbers that are too small for a float are read as the zero with their sign, and so are all texts of zero with a point or an
exponent. -/
theorem C106_zero (neg : Bool) (i f e : List Char) (hi : IntPart i) (hf : FracPart f) (he : ExpPart e) (hc : f ≠ [] ∨ e ≠ [])
    (hv : textNumber i f e ≤ 1 / 2 ^ 159) : fromText (signedText neg i f e) = some (.flt (if neg then 0x80000000 else 0)) := by
  obtain ⟨s, k, hs, h1, h2⟩ := parseNumber_parts hi hf he
  have h3 := (abs_le.mp h1).2
  have h0 := textNumber_nonneg i f e
  obtain ⟨x, x1, x2, x3, x4⟩ := fromParts_small (k := k) hs (by
    have : (1 : ℚ) / 2 ^ 159 * 2 ≤ 1 / 2 ^ 158 := by norm_num
    linarith)
  refine signedText_read hi hf he ?_
  rw [(h2 neg).1 (by rcases hc with h | h <;> simp [h]), readFloat_signed x1 x2 x3, nearest_tiny (val_nonneg x3) x4]
  have h : ∀ n : Bool, toBits ⟨n, 0⟩ = if n then 0x80000000 else 0 := by decide
  rw [h neg]

/-- C106: numbers that are too large for a float are rejected or read as the infinite float with their sign. -/
theorem C106_large (neg : Bool) (i f e : List Char) (hi : IntPart i) (hf : FracPart f) (he : ExpPart e)
    (hv : 2 ^ 129 ≤ textNumber i f e) : fromText (signedText neg i f e) = none ∨
      fromText (signedText neg i f e) = some (.flt (if neg then 0xff800000 else 0x7f800000)) := by
  obtain ⟨s, k, hs, h1, h2⟩ := parseNumber_parts hi hf he
  have h3 := (abs_le.mp h1).1
  have hc : f ≠ [] ∨ e ≠ [] ∨ 2 ^ 64 ≤ digitsNumber i := by
    by_contra hc
    simp only [not_or, ne_eq, not_not, not_le] at hc
    obtain ⟨rfl, rfl, h⟩ := hc
    rw [textNumber_int] at hv
    have hq : (digitsNumber i : ℚ) < 2 ^ 64 := by exact_mod_cast h
    linarith
  have hp := (h2 neg).1 hc
  rcases fromParts_large (k := k) hs (by linarith) with h | ⟨x, x1, x2, x3, x4⟩
  · refine .inl (signedText_none hi hf he ?_)
    rw [hp, floatValue, readFloat, h]
    rfl
  · refine .inr (signedText_read hi hf he ?_)
    rw [hp, readFloat_signed x1 x2 x3, nearest_huge x4]
    have h : ∀ n : Bool, toBits ⟨n, single.inf⟩ = if n then 0xff800000 else 0x7f800000 := by decide
    rw [h neg]

/-- C106: a number that is nearer to a float than to any other one, by a margin of `2 ^ -48` of the number, is read as this float with
its sign, however many digits it has and wherever its point is. -/
theorem C106_near (neg : Bool) (i f e : List Char) (hi : IntPart i) (hf : FracPart f) (he : ExpPart e) (hc : ReadAsFloat neg i f e)
    (a : Nat) (ha : a < infinity)
    (hnear : ∀ b ≤ infinity, b ≠ a →
      |textNumber i f e - magnitude a| + textNumber i f e / 2 ^ 48 < |textNumber i f e - magnitude b|) :
    fromText (signedText neg i f e) = some (.flt (UInt32.ofNat (a + if neg then 2 ^ 31 else 0))) := by
  have hv0 := textNumber_nonneg i f e
  rcases lt_or_ge (textNumber i f e) (1 / 2 ^ 159) with h1 | h1
  · have ha0 : a = 0 := by
      by_contra h0
      have h2 := (magnitude_bounds (Nat.pos_of_ne_zero h0) ha).1
      have h3 := hnear 0 (Nat.zero_le _) (Ne.symm h0)
      rw [show magnitude 0 = 0 by simp [magnitude, Fmt.units_zero], sub_zero, abs_of_nonneg hv0,
        abs_of_neg (by linarith [show (1 : ℚ) / 2 ^ 159 < 1 / 2 ^ 149 by norm_num])] at h3
      linarith [show (1 : ℚ) / 2 ^ 159 * 2 < 1 / 2 ^ 149 by norm_num]
    subst ha0
    have hc' : f ≠ [] ∨ e ≠ [] := by
      by_contra hn
      simp only [not_or, ne_eq, not_not] at hn
      obtain ⟨rfl, rfl⟩ := hn
      rw [textNumber_int] at h1
      have h63 : 2 ^ 63 ≤ digitsNumber i := by
        rcases hc with h | h | h | h
        · exact absurd rfl h
        · exact absurd rfl h
        · omega
        · omega
      have hq : (2 ^ 63 : ℚ) ≤ digitsNumber i := by exact_mod_cast h63
      linarith [show (1 : ℚ) / 2 ^ 159 < 2 ^ 63 by norm_num]
    rw [C106_zero neg i f e hi hf he hc' h1.le]
    cases neg <;> rfl
  rcases le_or_gt (textNumber i f e) (2 ^ 130) with h2 | h2
  swap
  · have h3 := hnear infinity le_rfl (by omega)
    have h4 : magnitude infinity = 2 ^ 128 := by
      rw [magnitude, show single.units infinity = 2 ^ 128 * 2 ^ 149 by decide +kernel]
      norm_num
    have h5 : magnitude a ≤ 2 ^ 128 := by
      rcases Nat.eq_zero_or_pos a with rfl | h0
      · simp [magnitude, Fmt.units_zero]
      · exact (magnitude_bounds h0 ha).2
    rw [h4, abs_of_pos (by linarith), abs_of_pos (by linarith)] at h3
    linarith
  obtain ⟨x, -, x2, x3, -, x5⟩ := signedText_double hi hf he hc (le_trans (by norm_num) h1) h2
  rw [nearest_of x2.le ha fun b hb hne => ?_] at x5
  · exact x5
  · have h3 := hnear b hb hne
    have h4 := abs_sub_le x.val (textNumber i f e) (magnitude a)
    have h5 := abs_sub_le (textNumber i f e) x.val (magnitude b)
    rw [abs_sub_comm (textNumber i f e) x.val] at h5
    linarith

/-- C106: the exact decimal expansion of a float is read as this float, with any number of digits, zeros or exponent. -/
theorem C106_exact (neg : Bool) (i f e : List Char) (hi : IntPart i) (hf : FracPart f) (he : ExpPart e) (hc : ReadAsFloat neg i f e)
    (a : Nat) (h0 : 0 < a) (ha : a < infinity) (hv : textNumber i f e = magnitude a) :
    fromText (signedText neg i f e) = some (.flt (UInt32.ofNat (a + if neg then 2 ^ 31 else 0))) := by
  have m1 := (magnitude_bounds h0 ha).1
  have hm0 : 0 < magnitude a := lt_of_lt_of_le (by norm_num) m1
  refine C106_near neg i f e hi hf he hc a ha fun b _ hne => ?_
  rw [hv, sub_self, abs_zero, zero_add]
  rcases Nat.lt_or_gt_of_ne hne with h | h
  · have := magnitude_gap h
    rw [abs_of_pos (by linarith)]
    linarith
  · have := magnitude_gap h
    rw [abs_of_neg (by linarith)]
    linarith

/-- C106: every other number in the normal range of the floats is read as a float that differs from it by at most a part of
`2 ^ -24 + 2 ^ -48`, and with its sign. -/
theorem C106_error (neg : Bool) (i f e : List Char) (hi : IntPart i) (hf : FracPart f) (he : ExpPart e) (hc : ReadAsFloat neg i f e)
    (h1 : 1 / 2 ^ 126 ≤ textNumber i f e) (h2 : textNumber i f e ≤ 2 ^ 127) :
    ∃ a < infinity, fromText (signedText neg i f e) = some (.flt (UInt32.ofNat (a + if neg then 2 ^ 31 else 0))) ∧
      |magnitude a - textNumber i f e| ≤ textNumber i f e * (1 / 2 ^ 24 + 1 / 2 ^ 48) := by
  obtain ⟨x, x1, x2, x3, x4, x5⟩ := signedText_double hi hf he hc (le_trans (by norm_num) h1) (h2.trans (by norm_num))
  have hv0 : 0 < textNumber i f e := lt_of_lt_of_le (by norm_num) h1
  obtain ⟨b1, b2⟩ := abs_le.mp x3
  have hlim : (2 ^ 127 * (3 / 2) : ℚ) < single.limit := by
    refine lt_of_le_of_lt ?_ (Fmt.big_lt_limit _ single_eb)
    rw [Fmt.big, le_div_iff₀ (by positivity), single_scale]
    have : 2 ^ 126 * 3 * 2 ^ 149 ≤ single.units (single.inf - 1) := by decide +kernel
    have hq : (2 ^ 126 * 3 * 2 ^ 149 : ℚ) ≤ single.units (single.inf - 1) := by exact_mod_cast this
    linarith
  obtain ⟨c1, c2⟩ := Fl.convert_error (G := single) x1 (by rw [abs_of_pos x2]; linarith) single_eb
  rw [x4] at c1 c2
  have hval : (⟨false, single.nearest x.val⟩ : Fl single).val = magnitude (single.nearest x.val) := by
    rw [Fl.val, single_scale, magnitude, show sg false = 1 from rfl, one_mul]
  rw [hval, abs_of_pos x2, single_tiny, show single.eps = 1 / 2 ^ 24 from rfl] at c2
  refine ⟨_, c1, x5, ?_⟩
  have hmax : max (x.val * (1 / 2 ^ 24)) (1 / 2 ^ 150) ≤ textNumber i f e * (1 / 2 ^ 24 + 1 / 2 ^ 74) := by
    apply max_le
    · linarith
    · have : (1 : ℚ) / 2 ^ 150 ≤ 1 / 2 ^ 126 * (1 / 2 ^ 24) := by norm_num
      linarith
  obtain ⟨d1, d2⟩ := abs_le.mp (c2.trans hmax)
  rw [abs_le]
  constructor <;> linarith

/-- C106: an integer that fits into 64 bits is read for a float as the nearest one, without a margin. -/
theorem C106_integer (neg : Bool) (i : List Char) (hi : IntPart i)
    (hfits : if neg then 0 < digitsNumber i ∧ digitsNumber i ≤ 2 ^ 63 else digitsNumber i < 2 ^ 64) (a : Nat) (ha : a < infinity)
    (hnear : NearestTo a (digitsNumber i)) :
    (fromText (signedText neg i [] [])).bind JCodec.f32.de = some (UInt32.ofNat (a + if neg then 2 ^ 31 else 0)) := by
  have hn := nearest_of (Nat.cast_nonneg _) ha hnear
  have ho : (Fl.ofNat (digitsNumber i) : Fl single) = ⟨false, a⟩ := by
    rw [Fl.ofNat, single.round_nearest (q := digitsNumber i) (by decide) (by push_cast; ring), hn]
  obtain ⟨h1, h2, -, -⟩ := C105_integer i hi
  cases neg with
  | false =>
    have h3 := h1 (by simpa using hfits)
    have e : signedText false i [] [] = String.ofList i := by simp [signedText]
    rw [e, h3, Option.bind_some]
    simp only [JCodec.f32]
    rw [if_pos (by omega), Int.toNat_natCast, ho]
    rfl
  | true =>
    have hf : 0 < digitsNumber i ∧ digitsNumber i ≤ 2 ^ 63 := by simpa using hfits
    have h3 := h2 hf
    have e : signedText true i [] [] = String.ofList ('-' :: i) := by simp [signedText]
    rw [e, h3, Option.bind_some]
    simp only [JCodec.f32]
    rw [if_neg (by omega), Int.natAbs_neg, Int.natAbs_natCast, ho]
    rfl

/-! ## Cases that meet the hypotheses -/

theorem digits_of {l : List Char} (h : l.all Char.isDigit = true) : ∀ c ∈ l, c.isDigit = true := List.all_eq_true.mp h

theorem magnitude_mono {a b : Nat} (h : a ≤ b) : magnitude a ≤ magnitude b :=
  div_le_div_of_nonneg_right (by exact_mod_cast single.units_strictMono.monotone h) (by positivity)

/-- A number between a float and the next one, nearer to the first. -/
theorem nearestTo_below {a : Nat} {q : ℚ} (h0 : 0 < a) (h1 : magnitude a ≤ q) (h2 : q - magnitude a < magnitude (a + 1) - q) : NearestTo a q := by
  intro b _ hb
  rw [abs_of_nonneg (by linarith)]
  rcases Nat.lt_or_gt_of_ne hb with h | h
  · have h3 := magnitude_gap h
    have h4 : 0 < magnitude a := div_pos (by exact_mod_cast single.units_pos h0) (by positivity)
    rw [abs_of_pos (by linarith)]
    linarith
  · have h3 := magnitude_mono (show a + 1 ≤ b from h)
    rw [abs_of_neg (by linarith)]
    linarith

/-- An integer between two floats. -/
example : (fromText "-33554437").bind JCodec.f32.de = some 0xcc000001 := by
  have hv : digitsNumber "33554437".toList = 33554437 := by decide
  have hA : magnitude 0x4c000001 = 33554436 := by
    rw [magnitude, show single.units 0x4c000001 = 33554436 * 2 ^ 149 by decide +kernel]
    norm_num
  have hB : magnitude (0x4c000001 + 1) = 33554440 := by
    rw [magnitude, show single.units (0x4c000001 + 1) = 33554440 * 2 ^ 149 by decide +kernel]
    norm_num
  refine C106_integer true "33554437".toList (.inr ⟨⟨by decide, digits_of (by decide)⟩, by decide⟩) (by rw [hv]; decide)
    0x4c000001 (by decide) (nearestTo_below (by decide) ?_ ?_)
  · rw [hA, hv]; norm_num
  · rw [hA, hB, hv]; norm_num

/-- The 27 digits of the float next to 0.1, moved by an exponent. -/
example : fromText "-0.000100000001490116119384765625e+3" = some (.flt 0xbdcccccd) := by
  refine C106_exact true "0".toList ".000100000001490116119384765625".toList "e+3".toList (.inl rfl)
    (.inr ⟨"000100000001490116119384765625".toList, ⟨by decide, digits_of (by decide)⟩, rfl⟩)
    (.inr ⟨'e', ['+'], ['3'], .inl rfl, .inr (.inl rfl), ⟨by decide, digits_of (by decide)⟩, rfl⟩) (.inl (by decide))
    0x3dcccccd (by decide) (by decide) ?_
  have h1 : Nat.ofDigitChars 10 ("0".toList ++ fracDigits ".000100000001490116119384765625".toList) 0 = 100000001490116119384765625 := by
    decide +kernel
  have h2 : exponentNumber "e+3".toList - ((fracDigits ".000100000001490116119384765625".toList).length : Int) = -27 := by decide +kernel
  have h3 : single.units 0x3dcccccd = 13421773 * 2 ^ 122 := by decide +kernel
  rw [textNumber, h1, h2, magnitude, h3]
  norm_num

/-- A number with more digits than a double has. -/
example : ∃ a < infinity, fromText "3.14159265358979323846264338327950288" = some (.flt (UInt32.ofNat (a + 0))) ∧
    |magnitude a - 314159265358979323846264338327950288 / 10 ^ 35| ≤
      314159265358979323846264338327950288 / 10 ^ 35 * (1 / 2 ^ 24 + 1 / 2 ^ 48) := by
  have h1 : Nat.ofDigitChars 10 ("3".toList ++ fracDigits ".14159265358979323846264338327950288".toList) 0 =
      314159265358979323846264338327950288 := by decide +kernel
  have h2 : exponentNumber "".toList - ((fracDigits ".14159265358979323846264338327950288".toList).length : Int) = -35 := by decide +kernel
  have ev : textNumber "3".toList ".14159265358979323846264338327950288".toList "".toList =
      314159265358979323846264338327950288 / 10 ^ 35 := by
    rw [textNumber, h1, h2]
    norm_num
  have h := C106_error false "3".toList ".14159265358979323846264338327950288".toList "".toList (.inr ⟨⟨by decide, digits_of (by decide)⟩, by decide⟩)
    (.inr ⟨"14159265358979323846264338327950288".toList, ⟨by decide, digits_of (by decide)⟩, rfl⟩) (.inl rfl) (.inl (by decide))
    (by rw [ev]; norm_num) (by rw [ev]; norm_num)
  rw [ev] at h
  exact h

/-- A zero with an exponent that is too large for anything else. -/
example : fromText "-0.00e999" = some (.flt 0x80000000) ∧ fromText "1.00e999" = none := by
  refine ⟨C106_zero true "0".toList ".00".toList "e999".toList (.inl rfl) (.inr ⟨"00".toList, ⟨by decide, digits_of (by decide)⟩, rfl⟩)
    (.inr ⟨'e', [], "999".toList, .inl rfl, .inl rfl, ⟨by decide, digits_of (by decide)⟩, rfl⟩) (.inl (by decide)) ?_, ?_⟩
  · have h1 : Nat.ofDigitChars 10 ("0".toList ++ fracDigits ".00".toList) 0 = 0 := by decide +kernel
    rw [textNumber, h1, Nat.cast_zero, zero_mul]
    norm_num
  · have h : (fromText "1.00e999").isNone = true := by decide +kernel
    exact Option.isNone_iff_eq_none.mp h

/-- A number that is too large for a float. -/
example : fromText "1e39" = none ∨ fromText "1e39" = some (.flt 0x7f800000) := by
  refine C106_large false "1".toList "".toList "e39".toList (.inr ⟨⟨by decide, digits_of (by decide)⟩, by decide⟩) (.inl rfl)
    (.inr ⟨'e', [], "39".toList, .inl rfl, .inl rfl, ⟨by decide, digits_of (by decide)⟩, rfl⟩) ?_
  have h1 : Nat.ofDigitChars 10 ("1".toList ++ fracDigits "".toList) 0 = 1 := by decide +kernel
  have h2 : exponentNumber "e39".toList - ((fracDigits "".toList).length : Int) = 39 := by decide +kernel
  rw [textNumber, h1, h2]
  norm_num

/-- C106: but the sum of both roundings can decide: this number is nearer to the float below, and is read as the one above. -/
theorem C106_not_nearest : fromText "7.0385310e-26" = some (.flt 0x15ae43fe) ∧ NearestTo 0x15ae43fd (70385310 / 10 ^ 33) := by
  refine ⟨C102_trailing_zero.2, ?_⟩
  have hA : magnitude 0x15ae43fd = 11420669 / 2 ^ 107 := by
    rw [magnitude, show single.units 0x15ae43fd = 11420669 * 2 ^ 42 by decide +kernel]
    norm_num
  have hB : magnitude (0x15ae43fd + 1) = 11420670 / 2 ^ 107 := by
    rw [magnitude, show single.units (0x15ae43fd + 1) = 11420670 * 2 ^ 42 by decide +kernel]
    norm_num
  refine nearestTo_below (by decide) ?_ ?_
  · rw [hA]; norm_num
  · rw [hA, hB]; norm_num

end Verif.Props
