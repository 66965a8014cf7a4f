import Verif.Json.Text
import Verif.Json.TextSpec
import Verif.Json.NumberLaws
import Mathlib.Tactic.IntervalCases
/-!
# The text of numbers is read back
-/

namespace Verif.Json
open Verif.Ieee

/-- The text ends, or goes on with a character that is not part of a number. -/
def Stops (rest : List Char) : Prop := ∀ c r, rest = c :: r → c.isDigit = false ∧ c ≠ '.' ∧ c ≠ 'e' ∧ c ≠ 'E'

theorem le_ofDigitChars : ∀ (ds : List Char) (s : Nat), s ≤ Nat.ofDigitChars 10 ds s
  | [], s => by simp
  | c :: cs, s => by
    rw [Nat.ofDigitChars_cons]
    have := le_ofDigitChars cs (10 * s + (c.toNat - '0'.toNat))
    omega

theorem scanInt_stop {s : Nat} {rest : List Char} (h : Stops rest) : scanInt s rest = (s, 0, rest) := by
  cases rest with
  | nil => rfl
  | cons c r => simp [scanInt, (h c r rfl).1]

theorem digit_step (s : Nat) (c : Char) : s * 10 + digitValue c = 10 * s + (c.toNat - '0'.toNat) := by
  unfold digitValue
  have : '0'.toNat = 48 := rfl
  omega

/-- The next character is not a digit. -/
def NoDigit (rest : List Char) : Prop := ∀ c r, rest = c :: r → c.isDigit = false

theorem Stops.noDigit {rest : List Char} (h : Stops rest) : NoDigit rest := fun c r e => (h c r e).1

theorem noDigit_cons {c : Char} {r : List Char} (h : c.isDigit = false) : NoDigit (c :: r) := by
  rintro _ _ ⟨⟩
  exact h

theorem scanInt_digits : ∀ (ds : List Char) (s : Nat) (rest : List Char), (∀ c ∈ ds, c.isDigit = true) → NoDigit rest →
    Nat.ofDigitChars 10 ds s < 2 ^ 64 → scanInt s (ds ++ rest) = (Nat.ofDigitChars 10 ds s, 0, rest)
  | [], s, rest, _, hr, _ => by
    cases rest with
    | nil => rfl
    | cons c r => simp [scanInt, hr c r rfl]
  | c :: cs, s, rest, hd, hr, hs => by
    rw [Nat.ofDigitChars_cons] at hs ⊢
    have h1 := le_ofDigitChars cs (10 * s + (c.toNat - '0'.toNat))
    rw [List.cons_append, scanInt, if_pos (hd c (by simp)), digit_step, if_pos (by omega)]
    exact scanInt_digits cs _ rest (fun x hx => hd x (by simp [hx])) hr hs

theorem scanDec_digits : ∀ (ds : List Char) (s : Nat) (e : Int) (rest : List Char), (∀ c ∈ ds, c.isDigit = true) → NoDigit rest →
    Nat.ofDigitChars 10 ds s < 2 ^ 64 → scanDec s e (ds ++ rest) = (Nat.ofDigitChars 10 ds s, e - ds.length, rest)
  | [], s, e, rest, _, hr, _ => by
    cases rest with
    | nil => simp [scanDec]
    | cons c r => simp [scanDec, hr c r rfl]
  | c :: cs, s, e, rest, hd, hr, hs => by
    rw [Nat.ofDigitChars_cons] at hs ⊢
    have h1 := le_ofDigitChars cs (10 * s + (c.toNat - '0'.toNat))
    rw [List.cons_append, scanDec, if_pos (hd c (by simp)), digit_step, if_pos (by omega),
      scanDec_digits cs _ _ rest (fun x hx => hd x (by simp [hx])) hr hs]
    simp only [List.length_cons, Nat.cast_add, Nat.cast_one]
    congr 2
    omega

theorem scanExp_digits : ∀ (ds : List Char) (s : Nat) (rest : List Char), (∀ c ∈ ds, c.isDigit = true) → NoDigit rest →
    scanExp s (ds ++ rest) = (Nat.ofDigitChars 10 ds s, rest)
  | [], s, rest, _, hr => by
    cases rest with
    | nil => rfl
    | cons c r => simp [scanExp, hr c r rfl]
  | c :: cs, s, rest, hd, hr => by
    rw [Nat.ofDigitChars_cons, List.cons_append, scanExp, if_pos (hd c (by simp)), digit_step]
    exact scanExp_digits cs _ rest (fun x hx => hd x (by simp [hx])) hr

theorem natText_digits (n : Nat) : ∀ c ∈ natText n, c.isDigit = true := fun _ h => Nat.isDigit_of_mem_toDigits (by decide) (by decide) h

theorem natText_value (n : Nat) : Nat.ofDigitChars 10 (natText n) 0 = n := Nat.ofDigitChars_ten_toDigits

theorem natText_zero : natText 0 = ['0'] := rfl

/-- The first digit of a number is not zero. -/
theorem natText_head : ∀ n, 0 < n → ∃ c cs, natText n = c :: cs ∧ c ≠ '0' ∧ c.isDigit = true := by
  intro n
  induction n using Nat.strongRecOn with
  | _ n ih =>
    intro h
    rcases Nat.lt_or_ge n 10 with h1 | h1
    · refine ⟨n.digitChar, [], Nat.toDigits_of_lt_base h1, ?_, ?_⟩
      · interval_cases n <;> decide
      · interval_cases n <;> decide
    · have e : natText n = natText (n / 10) ++ [(n % 10).digitChar] := Nat.toDigits_of_base_le (by decide) h1
      obtain ⟨c, cs, e2, h2⟩ := ih (n / 10) (by omega) (by omega)
      exact ⟨c, cs ++ [(n % 10).digitChar], by rw [e, e2]; rfl, h2⟩

/-- The number after its first digit is known. -/
theorem cons_value {c : Char} {cs : List Char} :
    Nat.ofDigitChars 10 (c :: cs) 0 = Nat.ofDigitChars 10 cs (digitValue c) := by
  rw [Nat.ofDigitChars_cons, ← digit_step]
  simp

theorem parseNumber_start (neg : Bool) {c : Char} {cs rest : List Char} (hc : c ≠ '0') (hd : ∀ x ∈ c :: cs, x.isDigit = true)
    (hr : NoDigit rest) (hs : Nat.ofDigitChars 10 (c :: cs) 0 < 2 ^ 64) :
    parseNumber neg (c :: cs ++ rest) = numberTail neg (Nat.ofDigitChars 10 (c :: cs) 0) 0 rest := by
  have hcd := hd c (by simp)
  rw [cons_value] at hs ⊢
  rw [List.cons_append, parseNumber.eq_def]
  simp only [if_neg hc, if_pos hcd, scanInt_digits cs _ rest (fun x hx => hd x (by simp [hx])) hr hs]

theorem exponentPart_stop {neg : Bool} {s : Nat} {e : Int} {rest : List Char} (h : Stops rest) :
    exponentPart neg s e rest = floatValue neg s e rest := by
  cases rest with
  | nil => rfl
  | cons c r =>
    obtain ⟨-, -, h1, h2⟩ := h c r rfl
    simp [exponentPart, h1, h2]

theorem numberTail_point {neg : Bool} {s n : Nat} {ds rest : List Char} (hds : ds ≠ []) (hd : ∀ c ∈ ds, c.isDigit = true)
    (hr : NoDigit rest) (hs : Nat.ofDigitChars 10 ds s < 2 ^ 64) :
    numberTail neg s n ('.' :: (ds ++ rest)) = exponentPart neg (Nat.ofDigitChars 10 ds s) (n - ds.length) rest := by
  cases ds with
  | nil => exact absurd rfl hds
  | cons d ds =>
    have := scanDec_digits (d :: ds) s n rest hd hr hs
    rw [List.cons_append] at this
    simp only [numberTail, List.cons_append, if_pos (hd d (by simp)), this, if_true]

theorem exponent_text {neg : Bool} {s : Nat} {e x : Int} {rest : List Char} (hr : NoDigit rest) :
    exponentPart neg s e ('e' :: (intText x ++ rest)) = floatValue neg s (e + x) rest := by
  have key : ∀ (n : Nat) (minus : Bool), exponentDigits neg s e minus (natText n ++ rest) =
      floatValue neg s (if minus then e - n else e + n) rest := by
    intro n minus
    have hd := natText_digits n
    have hv := natText_value n
    cases hn : natText n with
    | nil => exact absurd hn Nat.toDigits_ne_nil
    | cons c cs =>
      rw [hn] at hd hv
      have hcd := hd c (by simp)
      rw [cons_value] at hv
      simp only [List.cons_append, exponentDigits, if_pos hcd,
        scanExp_digits cs (digitValue c) rest (fun y hy => hd y (by simp [hy])) hr, hv]
  unfold intText
  split
  · rename_i hx
    simp only [List.cons_append, exponentPart, true_or, if_true, if_neg (by decide : ¬ '-' = '+')]
    rw [key]
    simp only [if_true]
    congr 1
    omega
  · rename_i hx
    have hd := natText_digits x.natAbs
    have k := key x.natAbs false
    cases hn : natText x.natAbs with
    | nil => exact absurd hn Nat.toDigits_ne_nil
    | cons c cs =>
      rw [hn] at hd k
      have hcd := hd c (by simp)
      have h1 : c ≠ '+' := by rintro rfl; revert hcd; decide
      have h2 : c ≠ '-' := by rintro rfl; revert hcd; decide
      rw [List.cons_append] at k ⊢
      simp only [exponentPart, true_or, if_true, if_neg h1, if_neg h2, k]
      simp only [Bool.false_eq_true, if_false]
      congr 1
      omega

end Verif.Json
