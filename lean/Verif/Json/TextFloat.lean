import Verif.Json.TextNumber
/-!
# The text of floats is read back
-/

namespace Verif.Json
open Verif.Ieee

theorem convert_neg' {f : Fl double} {a : Nat} (ha : a < single.inf) (h : f.convert single = ⟨false, a⟩) :
    f.neg'.convert single = ⟨true, a⟩ := by
  unfold Fl.convert at h ⊢
  have e1 : f.neg'.isNan = f.isNan := rfl
  have e2 : f.neg'.isInf = f.isInf := rfl
  have e3 : f.neg'.mag = f.mag := rfl
  rw [e1, e2, e3]
  by_cases h1 : f.isNan
  · rw [if_pos h1] at h
    have h3 : (Fl.nan : Fl single).mag = a := congrArg Fl.mag h
    have h4 : single.inf < (Fl.nan : Fl single).mag := by decide
    omega
  · rw [if_neg h1] at h ⊢
    by_cases h2 : f.isInf
    · rw [if_pos h2] at h
      have := congrArg Fl.mag h
      have : single.inf = a := this
      omega
    · rw [if_neg h2] at h ⊢
      have m1 := congrArg Fl.mag h
      have n1 := congrArg Fl.neg h
      simp only at m1 n1
      rw [m1]
      show (⟨!f.neg, a⟩ : Fl single) = _
      rw [n1]
      rfl

theorem readFloat_of {f : Fl double} {s a : Nat} {e : Int} (neg : Bool) (ha : a < single.inf) (h1 : fromParts s e = some f)
    (h2 : f.convert single = ⟨false, a⟩) : readFloat neg s e = some ⟨neg, a⟩ := by
  unfold readFloat
  rw [h1]
  cases neg
  · exact congrArg some h2
  · exact congrArg some (convert_neg' ha h2)

theorem decimal_read {a m : Nat} {k : Int} (neg : Bool) (ha : a < single.inf) (h : Decimal a m k) :
    readFloat neg m k = some ⟨neg, a⟩ := by
  obtain ⟨f, h1, h2⟩ := fromParts_nearest h.pos h.few ha h.rounds h.close
  exact readFloat_of neg ha h1 h2

/-- A whole number with a zero behind the point. -/
theorem whole_read {a D : Nat} (neg : Bool) (ha : a < single.inf) (hD : D * 10 ≤ 2 ^ 53) (h : single.nearest D = a) :
    readFloat neg (D * 10) (-1) = some ⟨neg, a⟩ := by
  obtain ⟨fm, vm⟩ := double_ofNat hD
  obtain ⟨fw, vw⟩ := double_ofNat (n := D) (by omega)
  obtain ⟨fp, np, vp⟩ := pow10_exact (n := 1) (by decide)
  have hp0 : (pow10 1).val ≠ 0 := by rw [vp]; norm_num
  obtain ⟨ff, vf⟩ := Fl.div_exact fm fp fw hp0 (by rw [vm, vp, vw]; push_cast; ring)
  refine readFloat_of neg ha (f := (Fl.ofNat (D * 10) : Fl double).div (pow10 1)) ?_ ?_
  · show some (divPow 1 _ 1) = _
    simp only [divPow, show (1 : Nat) ≤ 308 by decide, if_true]
  · rw [Fl.convert_nearest ff, div_neg_eq fm fp hp0, np, vf, vw, abs_of_nonneg (by positivity), h]
    rfl

theorem floatValue_of {neg : Bool} {s a : Nat} {e : Int} {r : List Char} (h : readFloat neg s e = some ⟨neg, a⟩) :
    floatValue neg s e r = some (.flt (toBits ⟨neg, a⟩), r) := by
  unfold floatValue; rw [h]; rfl

theorem ofDigitChars_split (ds : List Char) (n : Nat) (s : Nat) :
    Nat.ofDigitChars 10 (ds.drop n) (Nat.ofDigitChars 10 (ds.take n) s) = Nat.ofDigitChars 10 ds s := by
  rw [← Nat.ofDigitChars_append, List.take_append_drop]

theorem stops_noDigit_point {r : List Char} : NoDigit ('.' :: r) := noDigit_cons (by decide)

/-- Every layout of a decimal is read as its float. -/
theorem decimalText_read {a m : Nat} {k : Int} (neg : Bool) (ha : a < single.inf) (h : Decimal a m k) {rest : List Char}
    (hr : Stops rest) : parseNumber neg (decimalText m k ++ rest) = some (.flt (toBits ⟨neg, a⟩), rest) := by
  have hread := floatValue_of (r := rest) (decimal_read neg ha h)
  have hd := natText_digits m
  have hv := natText_value m
  have hm64 : m < 2 ^ 64 := Nat.lt_trans h.few (by decide)
  obtain ⟨c, cs, hcs, hc0, hcd⟩ := natText_head m h.pos
  unfold decimalText
  generalize hds : natText m = ds at *
  have hlen : ds.length ≠ 0 := by rw [hcs]; simp
  simp only
  split
  · -- a whole number
    rename_i hk
    obtain ⟨n, rfl⟩ : ∃ n : Nat, k = n := ⟨k.toNat, by omega⟩
    rw [Int.toNat_natCast]
    have hlen9 : m < 10 ^ ds.length := by
      rw [← hds]
      exact (Nat.length_toDigits_le_iff (by decide) (by rw [hds]; omega)).mp (Nat.le_refl _)
    have hD : m * 10 ^ n < 10 ^ 13 := by
      calc m * 10 ^ n < 10 ^ ds.length * 10 ^ n := Nat.mul_lt_mul_of_pos_right hlen9 (Nat.pow_pos (by decide))
        _ = 10 ^ (ds.length + n) := by rw [Nat.pow_add]
        _ ≤ 10 ^ 13 := Nat.pow_le_pow_right (by decide) (by omega)
    have hval : Nat.ofDigitChars 10 (ds ++ List.replicate n '0') 0 = m * 10 ^ n := by
      rw [Nat.ofDigitChars_append, hv, Nat.ofDigitChars_replicate_zero, Nat.mul_comm]
    have hall : ∀ x ∈ ds ++ List.replicate n '0', x.isDigit = true := by
      intro x hx
      rcases List.mem_append.mp hx with hx | hx
      · exact hd x hx
      · rw [List.eq_of_mem_replicate hx]; decide
    have e1 : ds ++ List.replicate n '0' = c :: (cs ++ List.replicate n '0') := by rw [hcs]; rfl
    have e2 : ds ++ List.replicate n '0' ++ ['.', '0'] ++ rest = c :: (cs ++ List.replicate n '0') ++ ('.' :: (['0'] ++ rest)) := by
      rw [e1]; simp
    rw [e2, parseNumber_start neg hc0 (e1 ▸ hall) stops_noDigit_point (by rw [← e1, hval]; omega), ← e1, hval,
      numberTail_point (by simp) (by simp) hr.noDigit (by rw [Nat.ofDigitChars_cons, Nat.ofDigitChars_nil]; simp; omega),
      exponentPart_stop hr]
    have e3 : Nat.ofDigitChars 10 ['0'] (m * 10 ^ n) = m * 10 ^ n * 10 := by
      rw [Nat.ofDigitChars_cons, Nat.ofDigitChars_nil]; simp; omega
    rw [e3]
    apply floatValue_of
    apply whole_read neg ha (by omega)
    have := h.rounds
    rw [zpow_natCast] at this
    rw [← this]
    push_cast
    rfl
  split
  · -- the point is between the digits
    rename_i hk1 hk
    obtain ⟨n, hn⟩ : ∃ n : Nat, (ds.length : Int) + k = n := ⟨((ds.length : Int) + k).toNat, by omega⟩
    rw [hn, Int.toNat_natCast]
    have hn0 : 0 < n := by omega
    have hn1 : n < ds.length := by omega
    obtain ⟨t, e1⟩ : ∃ t, ds.take n = c :: t := by
      rw [hcs]
      cases n with
      | zero => omega
      | succ n => exact ⟨_, rfl⟩
    have hsplit := ofDigitChars_split ds n 0
    rw [hv] at hsplit
    have hle := le_ofDigitChars (ds.drop n) (Nat.ofDigitChars 10 (ds.take n) 0)
    have htake : ∀ x ∈ c :: t, x.isDigit = true := by
      intro x hx
      exact hd x (List.mem_of_mem_take (e1 ▸ hx))
    rw [e1] at hsplit hle ⊢
    rw [List.append_assoc]
    show parseNumber neg (c :: t ++ ('.' :: (ds.drop n ++ rest))) = _
    rw [parseNumber_start neg hc0 htake stops_noDigit_point (by omega),
      numberTail_point (by intro h0; have := congrArg List.length h0; simp at this; omega)
        (fun x hx => hd x (List.mem_of_mem_drop hx)) hr.noDigit (by omega), hsplit, exponentPart_stop hr]
    rw [show ((0 : Nat) : Int) - (ds.drop n).length = k by rw [List.length_drop]; omega]
    exact hread
  split
  · -- zeros behind the point
    rename_i hk1 hk2 hk
    obtain ⟨n, hn⟩ : ∃ n : Nat, -((ds.length : Int) + k) = n := ⟨(-((ds.length : Int) + k)).toNat, by omega⟩
    rw [hn, Int.toNat_natCast]
    have hval : Nat.ofDigitChars 10 (List.replicate n '0' ++ ds) 0 = m := by
      rw [Nat.ofDigitChars_append, Nat.ofDigitChars_replicate_zero, Nat.mul_zero, hv]
    have hall : ∀ x ∈ List.replicate n '0' ++ ds, x.isDigit = true := by
      intro x hx
      rcases List.mem_append.mp hx with hx | hx
      · rw [List.eq_of_mem_replicate hx]; decide
      · exact hd x hx
    show parseNumber neg ('0' :: ('.' :: (List.replicate n '0' ++ ds ++ rest))) = _
    have e0 : parseNumber neg ('0' :: ('.' :: (List.replicate n '0' ++ ds ++ rest))) =
        numberTail neg 0 0 ('.' :: (List.replicate n '0' ++ ds ++ rest)) := by
      rw [parseNumber.eq_def]
      simp only [if_true, if_neg (by decide : ¬ '.'.isDigit = true)]
    rw [e0, numberTail_point (by rw [hcs]; simp) hall hr.noDigit (by omega), hval, exponentPart_stop hr]
    rw [show ((0 : Nat) : Int) - (List.replicate n '0' ++ ds).length = k by
      rw [List.length_append, List.length_replicate]; omega]
    exact hread
  split
  · -- one digit and an exponent
    rename_i hk1 hk2 hk3 hk
    rw [List.append_assoc, List.cons_append, hcs,
      parseNumber_start neg hc0 (hcs ▸ hd) (noDigit_cons (by decide)) (by rw [← hcs, hv]; omega), ← hcs, hv]
    have e0 : ∀ r, numberTail neg m 0 ('e' :: r) = exponentPart neg m 0 ('e' :: r) := by
      intro r
      rw [numberTail.eq_def]
      simp
    rw [e0, exponent_text hr.noDigit]
    rw [show (0 : Int) + ((ds.length : Int) + k - 1) = k by omega]
    exact hread
  · -- an exponent
    rename_i hk1 hk2 hk3 hk
    have hsplit := ofDigitChars_split ds 1 0
    rw [hv] at hsplit
    have hle := le_ofDigitChars (ds.drop 1) (Nat.ofDigitChars 10 (ds.take 1) 0)
    have e1 : ds.take 1 = [c] := by rw [hcs]; rfl
    rw [e1] at hsplit hle ⊢
    rw [List.append_assoc]
    show parseNumber neg ([c] ++ ('.' :: (ds.drop 1 ++ 'e' :: intText ((ds.length : Int) + k - 1) ++ rest))) = _
    rw [List.append_assoc]
    show parseNumber neg ([c] ++ ('.' :: (ds.drop 1 ++ ('e' :: (intText ((ds.length : Int) + k - 1) ++ rest))))) = _
    rw [parseNumber_start neg hc0 (by simpa using hcd) stops_noDigit_point (by omega),
      numberTail_point (by intro h0; have := congrArg List.length h0; simp at this; omega)
        (fun x hx => hd x (List.mem_of_mem_drop hx)) (noDigit_cons (by decide)) (by omega), hsplit, exponent_text hr.noDigit]
    rw [show ((0 : Nat) : Int) - (ds.drop 1).length + ((ds.length : Int) + k - 1) = k by rw [List.length_drop]; omega]
    exact hread

theorem zero_read (neg : Bool) {rest : List Char} (hr : Stops rest) :
    parseNumber neg (['0', '.', '0'] ++ rest) = some (.flt (toBits ⟨neg, 0⟩), rest) := by
  have e0 : parseNumber neg (['0', '.', '0'] ++ rest) = numberTail neg 0 0 ('.' :: (['0'] ++ rest)) := by
    rw [parseNumber.eq_def]
    simp
  have h : readFloat neg 0 (-1) = some ⟨neg, 0⟩ := by
    cases neg <;> decide +kernel
  rw [e0, numberTail_point (by simp) (by simp) hr.noDigit (by decide), exponentPart_stop hr]
  exact floatValue_of h

/-- The text of a number begins with a digit. -/
theorem decimalText_head {m : Nat} (k : Int) : ∃ c r, decimalText m k = c :: r ∧ c.isDigit = true := by
  have hd := natText_digits m
  unfold decimalText
  cases hn : natText m with
  | nil => exact absurd hn Nat.toDigits_ne_nil
  | cons c cs =>
    rw [hn] at hd
    have hc := hd c (by simp)
    simp only
    split
    · exact ⟨c, _, rfl, hc⟩
    split
    · rename_i h
      obtain ⟨n, hn⟩ : ∃ n : Nat, (((c :: cs).length : Int) + k).toNat = n + 1 := ⟨(((c :: cs).length : Int) + k).toNat - 1, by omega⟩
      rw [hn]
      exact ⟨c, _, rfl, hc⟩
    split
    · exact ⟨'0', _, rfl, by decide⟩
    split
    · exact ⟨c, _, rfl, hc⟩
    · exact ⟨c, _, rfl, hc⟩

theorem intText_read (n : Int) (h1 : -2 ^ 63 ≤ n) (h2 : n < 2 ^ 64) {rest : List Char} (hr : Stops rest) :
    ∀ neg r, intText n = (if neg then '-' :: r else r) → (neg = true ↔ n < 0) → parseNumber neg (r ++ rest) = some (.num n, rest) := by
  intro neg r he hneg
  have hr' : r = natText n.natAbs := by
    unfold intText at he
    cases neg
    · rw [if_neg (by simpa using hneg)] at he
      simpa using he.symm
    · rw [if_pos (by simpa using hneg)] at he
      simpa using he.symm
  subst hr'
  have tail : ∀ s, numberTail neg s 0 rest = some (intValue neg s, rest) := by
    intro s
    cases rest with
    | nil => rfl
    | cons c r =>
      obtain ⟨-, h3, h4, h5⟩ := hr c r rfl
      rw [numberTail.eq_def]
      simp [h3, h4, h5]
  rcases Nat.eq_zero_or_pos n.natAbs with h0 | h0
  · have hn : n = 0 := by omega
    subst hn
    have hneg' : neg = false := by cases neg <;> simp_all
    subst hneg'
    show parseNumber false ('0' :: rest) = _
    have e : parseNumber false ('0' :: rest) = numberTail false 0 0 rest := by
      rw [parseNumber.eq_def]
      cases rest with
      | nil => rfl
      | cons c r => simp [(hr c r rfl).1]
    rw [e, tail]
    rfl
  · obtain ⟨c, cs, hcs, hc0, hcd⟩ := natText_head _ h0
    have hd := natText_digits n.natAbs
    have hv := natText_value n.natAbs
    rw [hcs] at hd hv ⊢
    rw [parseNumber_start neg hc0 hd hr.noDigit (by omega), hv, tail]
    congr 2
    unfold intValue
    cases neg
    · simp only [Bool.false_eq_true, if_false]
      have : 0 ≤ n := by
        by_contra hc
        exact absurd (hneg.mpr (by omega)) (by simp)
      congr 1
      omega
    · have : n < 0 := hneg.mp rfl
      rw [if_pos rfl, if_neg (by omega)]
      congr 1
      omega

end Verif.Json
