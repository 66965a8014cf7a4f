import Verif.Json.Shortest
import Verif.Json.ShapeStable
/-!
# C102: floats in the text of JSON

`decimalText m k` is the text of the number `m * 10 ^ k` (`Verif.Json.Text`), with or without an exponent.
-/

namespace Verif.Props
open Verif Verif.Json Verif.Ieee

/-- The number that the float with the bits `a` without the sign stands for. For the bits of infinity it is `2 ^ 128`. -/
def magnitude (a : Nat) : ℚ := single.units a / 2 ^ 149

/-- The bits of infinity. -/
def infinity : Nat := 0x7f800000

/-- The number is nearer to the float `a` than to any other. -/
def NearestTo (a : Nat) (q : ℚ) : Prop := ∀ b ≤ infinity, b ≠ a → |q - magnitude a| < |q - magnitude b|

theorem nearest_of {a : Nat} {q : ℚ} (hq : 0 ≤ q) (ha : a < infinity) (h : NearestTo a q) : single.nearest q = a := by
  have hp : (0 : ℚ) < 2 ^ 149 := by positivity
  apply Nat.le_antisymm
  · obtain ⟨g, N, e, hs, hN⟩ := single.exists_split a
    rw [show single.mb = 23 from rfl] at e hs hN
    refine single.nearest_le hq (b := a) (g := g) (N := N) e hs hN ?_
    have h1 : single.units a = N * 2 ^ g := by rw [e]; exact single.units_split g N hs (Nat.le_of_lt hN)
    have h2 : single.units (a + 1) = (N + 1) * 2 ^ g := by
      rw [e, Nat.add_assoc]
      exact single.units_split g (N + 1) (by rw [show single.mb = 23 from rfl]; omega) hN
    have h3 := h (a + 1) (by omega) (by omega)
    rw [magnitude, magnitude, h1, h2] at h3
    push_cast at h3
    rw [single_scale]
    have h2g : (0 : ℚ) < 2 ^ g := by positivity
    generalize (2 : ℚ) ^ 149 = P at *
    generalize (2 : ℚ) ^ g = u at *
    have h4 : (N : ℚ) * u / P < (N + 1) * u / P := by
      rw [div_lt_div_iff_of_pos_right hp]; nlinarith
    have h5 : q < ((N : ℚ) * u / P + (N + 1) * u / P) / 2 := by
      by_contra hc
      rw [abs_of_nonneg (by linarith)] at h3
      rcases abs_cases (q - ((N : ℚ) + 1) * u / P) with h6 | h6 <;> rw [h6.1] at h3 <;> linarith
    have h6 : q * P < (((N : ℚ) * u / P + (N + 1) * u / P) / 2) * P := mul_lt_mul_of_pos_right h5 hp
    have h7 : (((N : ℚ) * u / P + (N + 1) * u / P) / 2) * P = (N + 1 / 2) * u := by field_simp; ring
    linarith
  · rcases Nat.eq_zero_or_pos a with h0 | h0
    · omega
    obtain ⟨b, rfl⟩ : ∃ b, a = b + 1 := ⟨a - 1, by omega⟩
    obtain ⟨g, N, e, hs, hN⟩ := single.exists_split b
    rw [show single.mb = 23 from rfl] at e hs hN
    refine single.lt_nearest hq (b := b) (g := g) (N := N) e (by rw [show single.inf = infinity by decide]; omega) hs hN ?_
    have h1 : single.units b = N * 2 ^ g := by rw [e]; exact single.units_split g N hs (Nat.le_of_lt hN)
    have h2 : single.units (b + 1) = (N + 1) * 2 ^ g := by
      rw [e, Nat.add_assoc]
      exact single.units_split g (N + 1) (by rw [show single.mb = 23 from rfl]; omega) hN
    have h3 := h b (by omega) (by omega)
    rw [magnitude, magnitude, h1, h2] at h3
    push_cast at h3
    rw [single_scale]
    have h2g : (0 : ℚ) < 2 ^ g := by positivity
    generalize (2 : ℚ) ^ 149 = P at *
    generalize (2 : ℚ) ^ g = u at *
    have h4 : (N : ℚ) * u / P < (N + 1) * u / P := by
      rw [div_lt_div_iff_of_pos_right hp]; nlinarith
    have h5 : ((N : ℚ) * u / P + (N + 1) * u / P) / 2 < q := by
      by_contra hc
      rw [abs_of_nonpos (a := q - ((N : ℚ) + 1) * u / P) (by linarith)] at h3
      rcases abs_cases (q - (N : ℚ) * u / P) with h6 | h6 <;> rw [h6.1] at h3 <;> linarith
    have h6 : (((N : ℚ) * u / P + (N + 1) * u / P) / 2) * P < q * P := mul_lt_mul_of_pos_right h5 hp
    have h7 : (((N : ℚ) * u / P + (N + 1) * u / P) / 2) * P = (N + 1 / 2) * u := by field_simp; ring
    linarith

/-- The text, read as a float. -/
theorem read_decimal {a m : Nat} {k : Int} (ha : a < infinity) (h : Decimal a m k) (neg : Bool) :
    fromText (String.ofList ((if neg then ['-'] else []) ++ decimalText m k)) = some (.flt (toBits ⟨neg, a⟩)) := by
  have hb := decimalText_read (rest := []) neg (show a < single.inf from ha) h stops_nil
  rw [List.append_nil] at hb
  obtain ⟨c, r, he, hc⟩ := decimalText_head (m := m) k
  have hp : parseValue 128 ((if neg then ['-'] else []) ++ decimalText m k) = some (.flt (toBits ⟨neg, a⟩), []) := by
    have e : (if neg then ['-'] else []) ++ decimalText m k = (if neg = true then '-' :: decimalText m k else decimalText m k) := by
      cases neg <;> rfl
    rw [e, parseValue_number he hc, hb]
  rw [fromText, String.toList_ofList, hp]
  rfl

/-- C102: a decimal with at most nine digits that is nearer to a float than to any other one, and differs from it by less than one unit
of its last digit, is read as exactly this float, with its sign. The reader rounds three times, in two formats. -/
theorem C102_decimal (a m : Nat) (k : Int) (neg : Bool) (ha : a < infinity) (hm : 0 < m) (hfew : m < 10 ^ 9)
    (hnear : NearestTo a (m * 10 ^ k)) (hclose : |m * 10 ^ k - magnitude a| < 10 ^ k) :
    fromText (String.ofList ((if neg then ['-'] else []) ++ decimalText m k)) =
      some (.flt (UInt32.ofNat (a + if neg then 2 ^ 31 else 0))) :=
  read_decimal ha ⟨hm, hfew, nearest_of (mul_nonneg (Nat.cast_nonneg m) (zpow_ten_pos k).le) ha hnear, hclose⟩ neg

/-- C102: the text of every finite float, also of both zeros, is read as the same bits, for each way `P` to choose decimals of this
kind. -/
theorem C102_read_back (P : Nat → Nat × Int) (hP : Prints P) (x : F32) (hx : x.toNat / 2 ^ 23 % 256 ≠ 255) :
    fromText (toText P (.flt x)) = some (.flt x) :=
  fromText_toText hP (.flt x) (by rw [J.fits]; simpa using hx) (Nat.zero_le _)

/-- C102: different finite floats have different texts. -/
theorem C102_different (P : Nat → Nat × Int) (hP : Prints P) (x y : F32) (hx : x.toNat / 2 ^ 23 % 256 ≠ 255)
    (hy : y.toNat / 2 ^ 23 % 256 ≠ 255) (h : toText P (.flt x) = toText P (.flt y)) : x = y := by
  have h1 := C102_read_back P hP x hx
  rw [h, C102_read_back P hP y hy] at h1
  cases h1
  rfl

/-- C102: there always is such a decimal: the shortest one, which has the largest exponent of all. -/
theorem C102_shortest : Prints shortest ∧ ∀ a m k, 0 < a → a < infinity → Decimal a m k → k ≤ (shortest a).2 :=
  ⟨shortest_prints, fun _ _ _ h1 h2 h => shortest_longest h1 h2 h⟩

/-- What a text is read as. -/
theorem reads {s : String} {v : J} (h : (fromText s).any (fun j => j.same v) = true) : fromText s = some v := by
  cases e : fromText s with
  | none => rw [e] at h; cases h
  | some j =>
    rw [e] at h
    exact congrArg some (J.same_eq h)

/-- The smallest and the largest float, the one before 1, the smallest normal one and the negative zero, with their texts. -/
example : toText shortest (.flt 1) = "1e-45" ∧ toText shortest (.flt 0x7f7fffff) = "3.4028235e38" ∧
    toText shortest (.flt 0xbf7fffff) = "-0.99999994" ∧ toText shortest (.flt 0x00800000) = "1.1754944e-38" ∧
    toText shortest (.flt 0x80000000) = "-0.0" ∧ toText shortest (.flt 0x4b800000) = "16777216.0" := by
  decide +kernel

/-- A number that is exactly a float is nearest to it. -/
theorem nearestTo_self (a : Nat) : NearestTo a (magnitude a) := by
  intro b _ hb
  rw [sub_self, abs_zero, abs_pos, sub_ne_zero]
  intro h
  rw [magnitude, magnitude, div_left_inj' (by positivity)] at h
  exact hb (single.units_strictMono.injective (by exact_mod_cast h)).symm

/-- The hypotheses of `C102_decimal` for `-2.5`. -/
example : fromText "-2.5" = some (.flt 0xc0200000) := by
  have hq : ((25 : ℕ) : ℚ) * 10 ^ (-1 : Int) = magnitude 0x40200000 := by
    rw [magnitude, show single.units 0x40200000 = 5 * 2 ^ 148 by decide +kernel]
    norm_num
  exact C102_decimal 0x40200000 25 (-1) true (by decide) (by decide) (by decide) (hq ▸ nearestTo_self _)
    (by rw [hq, sub_self, abs_zero]; positivity)

/-- C102: the text matters, not only the number in it. The decimal of a float is read as the float, with one more zero it is read as
another one. -/
theorem C102_trailing_zero : fromText "7.038531e-26" = some (.flt 0x15ae43fd) ∧
    fromText "7.0385310e-26" = some (.flt 0x15ae43fe) := by
  constructor <;> exact reads (by decide +kernel)

/-- C102: numbers that are too large for a float become infinite, those that are too large for a double are rejected. -/
theorem C102_overflow : fromText "1e39" = some (.flt 0x7f800000) ∧ fromText "-1e39" = some (.flt 0xff800000) ∧
    fromText "1e309" = none := by
  refine ⟨reads (by decide +kernel), reads (by decide +kernel), ?_⟩
  have h : (fromText "1e309").isNone = true := by decide +kernel
  exact Option.isNone_iff_eq_none.mp h

end Verif.Props
