import Verif.Json.GrammarLaws
import Verif.Props.FloatText
import Verif.Props.CutText
/-!
# C105: which texts are JSON

`Json/Grammar.lean` is the specification: `SpellsText N j t` means that the grammar of RFC 8259 derives the text `t` for the value `j`,
where `N` is the value of a number.
-/

namespace Verif.Props
open Verif Verif.Json

/-- C105: a text is read as a value if and only if the grammar derives the text for the value, and arrays and objects are nested at most
127 deep. Every number in it has the value that it has as a text of its own. -/
theorem C105_grammar (s : String) (j : J) :
    fromText s = some j ↔ j.depth ≤ 127 ∧ SpellsText (fun t v => fromText (String.ofList t) = some v) j s.toList := fromText_iff s j

/-- C105: so a text that the grammar does not derive for any value is rejected. -/
theorem C105_rejected (s : String) (h : ∀ j, ¬ SpellsText (fun _ _ => True) j s.toList) : fromText s = none := by
  cases e : fromText s with
  | none => rfl
  | some j => exact absurd ((C105_grammar s j).mp e).2.weaken (h j)

/-- C105: no text has two values. -/
theorem C105_unambiguous (t : List Char) (j k : J) (hj : SpellsText (fun t v => fromText (String.ofList t) = some v) j t)
    (hk : SpellsText (fun t v => fromText (String.ofList t) = some v) k t) (h : j.depth ≤ 127 ∧ k.depth ≤ 127) : j = k := by
  have h1 := (C105_grammar (String.ofList t) j).mpr ⟨h.1, by rw [String.toList_ofList]; exact hj⟩
  rw [(C105_grammar (String.ofList t) k).mpr ⟨h.2, by rw [String.toList_ofList]; exact hk⟩] at h1
  exact (Option.some.inj h1).symm

/-! ## Numbers -/

/-- The number that the digits denote. -/
def digitsNumber (ds : List Char) : Nat := ds.foldl (fun n c => 10 * n + (c.toNat - 48)) 0

/-- C105: an integer is read exactly if it fits into 64 bits with or without a sign. Otherwise it is read as a float or rejected, and so is
`-0`. -/
theorem C105_integer (ds : List Char) (hd : IntPart ds) :
    (digitsNumber ds < 2 ^ 64 → fromText (String.ofList ds) = some (.num (digitsNumber ds))) ∧
    (0 < digitsNumber ds ∧ digitsNumber ds ≤ 2 ^ 63 → fromText (String.ofList ('-' :: ds)) = some (.num (-digitsNumber ds))) ∧
    (2 ^ 64 ≤ digitsNumber ds → ∀ j, fromText (String.ofList ds) = some j → ∃ x, j = .flt x) ∧
    (digitsNumber ds = 0 ∨ 2 ^ 63 < digitsNumber ds → ∀ j, fromText (String.ofList ('-' :: ds)) = some j → ∃ x, j = .flt x) := by
  obtain ⟨s, n, h1, h2, h3⟩ := intPart_parse hd
  have e : Nat.ofDigitChars 10 ds 0 = digitsNumber ds := rfl
  rw [e] at h2 h3
  have hu : Unsigned ds := ⟨ds, [], [], hd, .inl rfl, .inl rfl, by simp⟩
  have value : ∀ neg j, fromText (String.ofList (if neg then '-' :: ds else ds)) = some j ↔ numberTail neg s n [] = some (j, []) := by
    intro neg j
    have h4 := numberValue_iff neg hu j
    have h5 := h1 neg [] (by rintro _ _ ⟨⟩)
    rw [List.append_nil] at h5
    rwa [h5] at h4
  have large : ∀ neg j, 2 ^ 64 ≤ digitsNumber ds → numberTail neg s n [] = some (j, []) → ∃ x, j = .flt x := by
    intro neg j h hj
    rw [numberTail, if_neg (Nat.pos_iff_ne_zero.mp (h3 h))] at hj
    exact floatValue_float hj
  have small : ∀ neg, digitsNumber ds < 2 ^ 64 → numberTail neg s n [] = some (intValue neg (digitsNumber ds), []) := by
    intro neg h
    obtain ⟨rfl, rfl⟩ := h2 h
    rw [numberTail, if_pos rfl]
  refine ⟨fun h => ?_, fun h => ?_, fun h j hj => ?_, fun h j hj => ?_⟩
  · exact (value false _).mpr (small false h)
  · refine (value true _).mpr ((small true (by omega)).trans ?_)
    rw [intValue, if_pos rfl, if_neg (by omega)]
  · exact large false j h ((value false j).mp hj)
  · have h4 := (value true j).mp hj
    by_cases h5 : 2 ^ 64 ≤ digitsNumber ds
    · exact large true j h5 h4
    · rw [small true (by omega), intValue, if_pos rfl, if_pos h] at h4
      exact ⟨_, (Prod.mk.inj (Option.some.inj h4)).1.symm⟩

/-- C105: a number with a fraction or an exponent is read as a float or rejected, also if it is an integer. -/
theorem C105_real (i f e : List Char) (hi : IntPart i) (hf : FracPart f) (he : ExpPart e) (h : f ≠ [] ∨ e ≠ []) (neg : Bool) (j : J)
    (hj : fromText (String.ofList (if neg then '-' :: (i ++ (f ++ e)) else i ++ (f ++ e))) = some j) : ∃ x, j = .flt x := by
  obtain ⟨s, n, h1, -, -⟩ := intPart_parse hi
  have h2 := (numberValue_iff neg ⟨i, f, e, hi, hf, he, rfl⟩ j).mp hj
  rw [h1 neg _ (tail_noDigit hf he)] at h2
  exact numberTail_float hf he h h2

/-- The number of digits does not matter, and the limits are reached. -/
example : IntPart "18446744073709551615".toList ∧ digitsNumber "18446744073709551615".toList = 2 ^ 64 - 1 ∧
    fromText "18446744073709551615" = some (.num 18446744073709551615) ∧ fromText "18446744073709551616" = some (.flt 0x5f800000) ∧
    fromText "-9223372036854775808" = some (.num (-9223372036854775808)) ∧ fromText "-0" = some (.flt 0x80000000) ∧
    fromText "1.0" = some (.flt 0x3f800000) ∧ fromText "1e0" = some (.flt 0x3f800000) := by
  refine ⟨.inr ⟨⟨by decide, by decide⟩, by decide⟩, by decide, ?_, ?_, ?_, ?_, ?_, ?_⟩ <;> exact reads (by decide +kernel)

/-! ## Programs -/

/-- C105: which of its texts a JSON file contains does not matter. ssbh_lib_json ends in the same way, and writes the same file. -/
theorem C105_lib (T : J → String) (s s' : String) (j : J) (hd : j.depth ≤ 127)
    (hs : SpellsText (fun t v => fromText (String.ofList t) = some v) j s.toList)
    (hs' : SpellsText (fun t v => fromText (String.ofList t) = some v) j s'.toList)
    (p : Path) (out : Option Path) (d : Disk) (he : p.extension = some "json") :
    (libMain ⟨T, fromText⟩ p out (d.set p (textBytes s))).1 = (libMain ⟨T, fromText⟩ p out (d.set p (textBytes s'))).1 ∧
    ∀ q, q ≠ p → (libMain ⟨T, fromText⟩ p out (d.set p (textBytes s))).2.files q =
      (libMain ⟨T, fromText⟩ p out (d.set p (textBytes s'))).2.files q := by
  have h1 := (C105_grammar s j).mpr ⟨hd, hs⟩
  have h2 := (C105_grammar s' j).mpr ⟨hd, hs'⟩
  have hf : ∀ b, (d.set p b).files p = some b := fun b => if_pos rfl
  unfold libMain
  simp only [he, if_true, hf, Option.bind_some, fromUtf8_textBytes, h1, h2]
  cases JsonFile.fromJson j with
  | none => exact ⟨rfl, fun q hq => by simp [Disk.set, hq]⟩
  | some f =>
    simp only [JsonFile.writeToFile, Disk.create]
    generalize out.getD (p.withExtension f.extension) = o
    have hm : ∀ b, (d.set p b).mayCreate o = d.mayCreate o := fun _ => rfl
    rw [hm, hm]
    cases d.mayCreate o with
    | false => exact ⟨rfl, fun q hq => by simp [Disk.set, hq]⟩
    | true =>
      simp only [if_true]
      cases f.write with
      | none => exact ⟨rfl, fun q hq => by simp [Disk.set, hq]⟩
      | some b => exact ⟨rfl, fun q hq => by simp [Disk.set, hq]⟩

/-- C105: the same for ssbh_data_json. -/
theorem C105_data (T : J → String) (O : DataOps) (s s' : String) (j : J) (hd : j.depth ≤ 127)
    (hs : SpellsText (fun t v => fromText (String.ofList t) = some v) j s.toList)
    (hs' : SpellsText (fun t v => fromText (String.ofList t) = some v) j s'.toList)
    (p : Path) (out : Option Path) (d : Disk) (he : p.extension = some "json") :
    (dataMain ⟨T, fromText⟩ O p out (d.set p (textBytes s))).1 = (dataMain ⟨T, fromText⟩ O p out (d.set p (textBytes s'))).1 ∧
    ∀ q, q ≠ p → (dataMain ⟨T, fromText⟩ O p out (d.set p (textBytes s))).2.files q =
      (dataMain ⟨T, fromText⟩ O p out (d.set p (textBytes s'))).2.files q := by
  have h1 := (C105_grammar s j).mpr ⟨hd, hs⟩
  have h2 := (C105_grammar s' j).mpr ⟨hd, hs'⟩
  have hf : ∀ b, (d.set p b).files p = some b := fun b => if_pos rfl
  unfold dataMain
  simp only [he, if_true, hf, Option.bind_some, fromUtf8_textBytes, h1, h2]
  cases DataFile.fromJson j with
  | none => exact ⟨rfl, fun q hq => by simp [Disk.set, hq]⟩
  | some f =>
    simp only [DataFile.writeToFile]
    cases f.convert O with
    | none => exact ⟨rfl, fun q hq => by simp [Disk.set, hq]⟩
    | some g =>
      simp only [JsonFile.writeToFile, Disk.create]
      generalize out.getD (p.withExtension f.extension) = o
      have hm : ∀ b, (d.set p b).mayCreate o = d.mayCreate o := fun _ => rfl
      rw [hm, hm]
      cases d.mayCreate o with
      | false => exact ⟨rfl, fun q hq => by simp [Disk.set, hq]⟩
      | true =>
        simp only [if_true]
        cases g.write with
        | none => exact ⟨rfl, fun q hq => by simp [Disk.set, hq]⟩
        | some b => exact ⟨rfl, fun q hq => by simp [Disk.set, hq]⟩

/-- Two texts of a value of `C103`, without white space and with other escapes. -/
example : SpellsText (fun t v => fromText (String.ofList t) = some v) exValue (toText shortest exValue).toList ∧
    SpellsText (fun t v => fromText (String.ofList t) = some v) exValue
      ("{\"\\u0061\\u000A\\u0022\\\\\":[null,true,-9223372036854775808,18446744073709551615,5e-1],\"\":{\t}," ++
        "\"\\u00e9\\u20AC\\uD83D\\ude00\":\"\\u0001\"}\r\n").toList := by
  constructor
  · exact ((C105_grammar _ _).mp (C103_value shortest shortest_prints exValue (by decide +kernel) |>.1 (by decide +kernel))).2
  · exact ((C105_grammar _ _).mp (reads (by decide +kernel))).2

/-- A string in single quotes is not JSON. -/
example : ∀ j, ¬ SpellsText (fun _ _ => True) j "'a'".toList := by
  rintro j ⟨a, v, b, e, ha, hv, -⟩
  have h0 : a = [] := by
    cases a with
    | nil => rfl
    | cons c a =>
      have hc := ha c (by simp)
      simp only [String.reduceToList, List.cons_append, List.cons.injEq] at e
      rw [← e.1] at hc
      exact absurd hc (by decide)
  subst h0
  have head : ∀ c r, v = c :: r → c = '\'' := by
    rintro c r rfl
    simp only [String.reduceToList, List.nil_append, List.cons_append, List.cons.injEq] at e
    exact e.1.symm
  cases j with
  | null => exact absurd (head _ _ hv) (by decide)
  | bool b => cases b <;> exact absurd (head _ _ hv) (by decide)
  | num n =>
    obtain ⟨u, hu, rfl | rfl⟩ := hv.1
    · obtain ⟨c, r, rfl, hc⟩ := unsigned_head hu
      rw [head _ _ rfl] at hc
      cases hc
    · exact absurd (head _ _ rfl) (by decide)
  | flt n =>
    obtain ⟨u, hu, rfl | rfl⟩ := hv.1
    · obtain ⟨c, r, rfl, hc⟩ := unsigned_head hu
      rw [head _ _ rfl] at hc
      cases hc
    · exact absurd (head _ _ rfl) (by decide)
  | str s => obtain ⟨w, -, rfl⟩ := hv; exact absurd (head _ _ rfl) (by decide)
  | arr l => obtain ⟨w, rfl, -⟩ := hv; exact absurd (head _ _ rfl) (by decide)
  | obj l => obtain ⟨w, rfl, -⟩ := hv; exact absurd (head _ _ rfl) (by decide)

end Verif.Props
